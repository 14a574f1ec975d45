import Verif.Model.TimeZone

/-!
# What a Python interpreter does with the text of a constructor call

A reader and an evaluator of expressions like `badidatetime.date(181, 1, 1)`, independent of the code that prints them: whole
numbers, `None`, strings in single or double quotes with the escapes of a quote, a backslash, `n`, `t`, `r`, `x`, `u` and `U`,
dotted names and calls with positional and keyword arguments.
A number with a point is read as a name and has no value. Anything else is refused. The only name in scope is the package `badidatetime`.
-/

namespace Verif.PyExpr

inductive Tok where
  | word (w : Str)
  | num (n : ℕ)
  | str (s : Str)
  | open
  | close
  | comma
  | equals
  | minus
  | other (c : Char)
  deriving DecidableEq, Repr

/-- A character that is a token by itself. -/
def symbol (c : Char) : Tok :=
  if c = '(' then .open else if c = ')' then .close else if c = ',' then .comma else if c = '=' then .equals
  else if c = '-' then .minus else .other c

def wordChar (c : Char) : Bool := c.isAlphanum || c == '_' || c == '.'

/-- A run of word characters: a whole number or a dotted name. -/
def flush (w : Str) : List Tok :=
  if w = [] then []
  else match natVal w with
    | some n => [.num n]
    | none => [.word w]

/-- Where the reader is: between tokens or in a word, in a string with that quote, after a backslash in it, or in a number of so
many more hexadecimal digits with the value so far. -/
inductive Mode where
  | code
  | str (q : Char)
  | esc (q : Char)
  | hex (q : Char) (n v : ℕ)
  deriving DecidableEq, Repr

/-- The value of a hexadecimal digit. -/
def hexVal (c : Char) : Option ℕ :=
  let n := c.toNat
  if 48 ≤ n ∧ n ≤ 57 then some (n - 48)
  else if 97 ≤ n ∧ n ≤ 102 then some (n - 87)
  else if 65 ≤ n ∧ n ≤ 70 then some (n - 55)
  else none

/-- The tokens of a text; `acc` is the word or the string read so far. -/
def lex (mode : Mode) (acc : Str) : Str → List Tok
  | [] => match mode with
    | .code => flush acc
    | _ => [.other '\'']
  | c :: r =>
    match mode with
    | .code =>
      if wordChar c then lex .code (acc ++ [c]) r
      else flush acc ++ (if c = '\'' ∨ c = '"' then lex (.str c) [] r else if c = ' ' then lex .code [] r
        else symbol c :: lex .code [] r)
    | .str q =>
      if c = '\\' then lex (.esc q) acc r
      else if c = q then .str acc :: lex .code [] r
      else if c = '\n' then [.other c]
      else lex (.str q) (acc ++ [c]) r
    | .esc q =>
      if c = '\'' ∨ c = '"' ∨ c = '\\' then lex (.str q) (acc ++ [c]) r
      else if c = 'n' then lex (.str q) (acc ++ ['\n']) r
      else if c = 't' then lex (.str q) (acc ++ ['\t']) r
      else if c = 'r' then lex (.str q) (acc ++ ['\r']) r
      else if c = 'x' then lex (.hex q 2 0) acc r
      else if c = 'u' then lex (.hex q 4 0) acc r
      else if c = 'U' then lex (.hex q 8 0) acc r
      else [.other '\\']
    | .hex q n v =>
      match hexVal c with
      | none => [.other '\\']
      | some d =>
        if 1 < n then lex (.hex q (n - 1) (16 * v + d)) acc r
        else if (16 * v + d).isValidChar then lex (.str q) (acc ++ [Char.ofNat (16 * v + d)]) r
        else [.other '\\']

/-- An expression; the name of a positional argument is empty. -/
inductive Expr where
  | none
  | int (n : ℤ)
  | str (s : Str)
  | name (s : Str)
  | call (f : Str) (args : List (Str × Expr))

/-- The name of a keyword argument, and the tokens after it. -/
def keyword : List Tok → Str × List Tok
  | .word k :: .equals :: r => (k, r)
  | r => ([], r)

mutual

/-- Read one expression; the first argument bounds the number of steps. -/
def value : ℕ → List Tok → Option (Expr × List Tok)
  | _ + 1, .num n :: r => some (.int n, r)
  | _ + 1, .minus :: .num n :: r => some (.int (-n), r)
  | _ + 1, .str s :: r => some (.str s, r)
  | f + 1, .word w :: .open :: r => (args f r).map fun p => (.call w p.1, p.2)
  | _ + 1, .word w :: r => if w = "None".toList then some (.none, r) else some (.name w, r)
  | _, _ => Option.none

/-- Read the arguments of a call and the parenthesis that ends it. -/
def args : ℕ → List Tok → Option (List (Str × Expr) × List Tok)
  | _ + 1, .close :: r => some ([], r)
  | f + 1, r =>
    match value f (keyword r).2 with
    | some (v, .comma :: r') => (args f r').map fun p => (((keyword r).1, v) :: p.1, p.2)
    | some (v, .close :: r') => some ([((keyword r).1, v)], r')
    | _ => Option.none
  | 0, _ => Option.none

end

/-- The expression that a text is. -/
def read (s : Str) : Option Expr :=
  match value ((lex .code [] s).length + 1) (lex .code [] s) with
  | some (e, []) => some e
  | _ => none

/-- The objects that occur. A `TZWithCoords` is known by its offset only. -/
inductive Val where
  | none
  | int (n : ℤ)
  | str (s : Str)
  | delta (us : ℤ)
  | zone (z : Zone)
  | coords (off : ℤ)
  | date (o : DateObj)
  | time (t : TimeObj) (z : Option Zone)
  | datetime (x : DT) (z : Option Zone)

/-- The values of the parameters, in order: positional arguments first and then keywords, with no parameter twice, no unknown
name and no positional argument after a keyword. -/
def bindArgs (params kwonly : List Str) (as : List (Str × Val)) : Option (List (Option Val)) :=
  let pos := as.takeWhile (fun a => a.1 = [])
  let kw := as.dropWhile (fun a => a.1 = [])
  if pos.length ≤ params.length ∧ (∀ a ∈ kw, a.1 ∈ params.drop pos.length ++ kwonly) ∧ (kw.map (·.1)).Nodup then
    some (pos.map (fun a => some a.2) ++ (params.drop pos.length ++ kwonly).map (fun p => kw.lookup p))
  else none

/-- An integer, or its default. -/
def intArg (default : ℤ) : Option Val → Option ℤ
  | Option.none => some default
  | some (.int n) => some n
  | _ => Option.none

/-- A zone or `None`. -/
def zoneArg : Option Val → Option (Option Zone)
  | Option.none => some Option.none
  | some .none => some Option.none
  | some (.zone z) => some (some z)
  | _ => Option.none

/-- The date arguments: three integers, or five. -/
def dateArgs : List (Option Val) → Option DateObj
  | [some (.int y), some (.int m), some (.int d), Option.none, Option.none] => some (.short y m d)
  | [some (.int y), some (.int m), some (.int d), some .none, some .none] => some (.short y m d)
  | [some (.int k), some (.int v), some (.int y), some (.int m), some (.int d)] => some (.long k v y m d)
  | _ => Option.none

def ofPy {α : Type} : Py α → Option α
  | .ok a => some a
  | .error _ => none

def names (l : List String) : List Str := l.map String.toList

/-- Call a class of the package; `fresh` is the identity of a new zone. -/
def call (C : Cal) (fresh : ℕ) (f : Str) (as : List (Str × Val)) : Option Val :=
  if f = "badidatetime.timedelta".toList then
    match bindArgs (names ["days", "seconds", "microseconds"]) [] as with
    | some [d, s, u] => do
      let d ← intArg 0 d
      let s ← intArg 0 s
      let u ← intArg 0 u
      some (.delta (d * 86400000000 + s * 1000000 + u))
    | _ => Option.none
  else if f = "badidatetime.timezone".toList then
    match bindArgs (names ["offset", "name"]) [] as with
    | some [some (.delta o), Option.none] => (ofPy (newZone fresh o Option.none)).map .zone
    | some [some (.delta o), some (.str n)] => (ofPy (newZone fresh o (some n))).map .zone
    | _ => Option.none
  else if f = "badidatetime.TZWithCoords".toList then
    match bindArgs (names ["lat", "lon", "zone"]) (names ["key"]) as with
    | some [some _, some _, Option.none, Option.none] => some (.coords 0)
    | _ => Option.none
  else if f = "badidatetime.date".toList then
    match bindArgs (names ["a", "b", "c", "d", "e"]) [] as with
    | some l => do
      let o ← dateArgs l
      (ofPy (C.newDate o)).map .date
    | _ => Option.none
  else if f = "badidatetime.time".toList then
    match bindArgs (names ["hour", "minute", "second", "microsecond", "tzinfo"]) (names ["fold"]) as with
    | some [h, mi, s, us, tz, fold] => do
      let h ← intArg 0 h
      let mi ← intArg 0 mi
      let s ← intArg 0 s
      let us ← intArg 0 us
      let tz ← zoneArg tz
      let fold ← intArg 0 fold
      let t ← ofPy (newTime ⟨h, mi, s, us, tz.map Zone.tz, fold⟩)
      some (.time t tz)
    | _ => Option.none
  else if f = "badidatetime.datetime".toList then
    match bindArgs (names ["a", "b", "c", "d", "e", "hour", "minute", "second", "microsecond", "tzinfo"]) (names ["fold"]) as with
    | some [a, b, c, d, e, h, mi, s, us, tz, fold] => do
      let o ← dateArgs [a, b, c, d, e]
      let h ← intArg 0 h
      let mi ← intArg 0 mi
      let s ← intArg 0 s
      let us ← intArg 0 us
      let tz ← zoneArg tz
      let fold ← intArg 0 fold
      let x ← ofPy (C.newDT ⟨o, h, mi, s, us, tz.map Zone.tz, fold⟩)
      some (.datetime x tz)
    | _ => Option.none
  else Option.none

mutual

/-- The value of an expression. -/
def eval (C : Cal) (fresh : ℕ) : Expr → Option Val
  | .none => some .none
  | .int n => some (.int n)
  | .str s => some (.str s)
  | .name s =>
    if s = "badidatetime.timezone.utc".toList then some (.zone utcZone)
    else if s = "badidatetime.BADI".toList then some (.zone badiZone)
    else Option.none
  | .call f as =>
    match evalArgs C fresh as with
    | some vs => call C fresh f vs
    | Option.none => Option.none

def evalArgs (C : Cal) (fresh : ℕ) : List (Str × Expr) → Option (List (Str × Val))
  | [] => some []
  | (k, e) :: l =>
    match eval C fresh e, evalArgs C fresh l with
    | some v, some vs => some ((k, v) :: vs)
    | _, _ => Option.none

end

/-- `eval(s)`. -/
def evalText (C : Cal) (fresh : ℕ) (s : Str) : Option Val :=
  match read s with
  | some e => eval C fresh e
  | Option.none => none

end Verif.PyExpr
