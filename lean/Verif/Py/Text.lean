import Verif.Py.Float
import Verif.Py.Err
import Mathlib.Data.Nat.Log

/-!
# Python text

A `str` is a list of characters. Numbers are written with ASCII digits; `str.isnumeric` and `int` also know
other digits, which are not modelled: such a character is an invalid one here. `int` and `float` strip spaces;
the other white space, underscores, exponents and signs of `float` never reach them in the modelled code,
which filters the characters first.
-/

namespace Verif

/-- Python `str`. -/
abbrev Str := List Char

/-- The character of the last decimal digit of `n`. -/
def dg (n : ℕ) : Char := Char.ofNat (48 + n % 10)

/-- `str.isnumeric` and `str.isdigit` of one character, for ASCII. -/
def isDig (c : Char) : Bool := 48 ≤ c.toNat && c.toNat ≤ 57

/-- The `w` last decimal digits of `n`. -/
def digitsW : ℕ → ℕ → Str
  | 0, _ => []
  | w + 1, n => dg (n / 10 ^ w) :: digitsW w n

/-- `f"{n:0wd}"` of a natural number: at least `w` digits, with zeros in front. -/
def padNat (w n : ℕ) : Str := digitsW (max w (Nat.log 10 n + 1)) n

/-- `f"{n:0wd}"` of an integer: the sign counts in the width. -/
def padInt (w : ℕ) (n : ℤ) : Str :=
  if n < 0 then '-' :: padNat (w - 1) n.natAbs else padNat w n.toNat

/-- The value of a string of digits, starting from `a`. -/
def natValFrom : Str → ℕ → Option ℕ
  | [], a => some a
  | c :: cs, a => if isDig c then natValFrom cs (a * 10 + (c.toNat - 48)) else none

/-- The value of a non-empty string of digits. -/
def natVal (s : Str) : Option ℕ := if s = [] then none else natValFrom s 0

/-- `str.strip` of spaces. -/
def strip (s : Str) : Str := ((s.dropWhile (· == ' ')).reverse.dropWhile (· == ' ')).reverse

/-- `int(s)` of the digits after the sign. -/
def intOfDigits (s : Str) : Py ℤ :=
  match natVal s with
  | some n => .ok n
  | none => .error .value

/-- `int(s)`. -/
def intOf (s : Str) : Py ℤ :=
  match strip s with
  | '-' :: r => do
    let n ← intOfDigits r
    .ok (-n)
  | '+' :: r => intOfDigits r
  | r => intOfDigits r

/-- `float(s)`: the nearest double to the decimal number. -/
def floatOf (s : Str) : Py ℚ :=
  let t := strip s
  let a := t.takeWhile isDig
  let b := (t.dropWhile isDig).drop 1
  if (t.dropWhile isDig).take 1 ∈ [[], ['.']] then
    match natVal (a ++ b) with
    | some n => .ok (fl (n / 10 ^ b.length))
    | none => .error .value
  else .error .value

/-- `s[a:b]` with `0 ≤ a, b`. -/
def slice (s : Str) (a b : ℕ) : Str := (s.take b).drop a

/-- `str.rfind` of one character. -/
def rfind (c : Char) : Str → Option ℕ
  | [] => none
  | x :: xs =>
    match rfind c xs with
    | some i => some (i + 1)
    | none => if x = c then some 0 else none

/-- `str.split` at one character. -/
def splitAt (c : Char) : Str → List Str
  | [] => [[]]
  | x :: xs =>
    if x = c then [] :: splitAt c xs
    else
      match splitAt c xs with
      | [] => [[x]]
      | p :: ps => (x :: p) :: ps

end Verif
