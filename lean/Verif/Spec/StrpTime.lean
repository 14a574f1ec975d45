import Verif.Model.StrpTime

/-!
# Specification: texts that follow a format of `strptime`
-/

namespace Verif

/-- A text of at least one and at most `len` digits whose number lies between `lo` and `hi`. -/
def NumText (len : ℕ) (lo hi : ℤ) (v : Str) : Prop :=
  1 ≤ v.length ∧ v.length ≤ len ∧ (∀ c ∈ v, isDig c = true) ∧ ∃ n, intOf v = .ok n ∧ lo ≤ n ∧ n ≤ hi

/-- A text that is one of the names, up to the case of the letters. -/
def NameText (names : List String) (v : Str) : Prop := ∃ s ∈ names, lowerS v = lowerS s.toList

/-- A text of `%z` and its offset in microseconds: a sign, two digits for the hours, two for the minutes, perhaps two for the
seconds and perhaps a point with one to six digits after them. `a` and `b` are what stands before the minutes and before the
seconds. -/
def ZoneText (a b v : Str) (off : ℤ) : Prop :=
  ∃ (neg : Bool) (h m us : ℕ) (tail : Str), h < 100 ∧ m < 60 ∧
    v = (if neg then '-' else '+') :: (digitsW 2 h ++ (a ++ (digitsW 2 m ++ tail))) ∧
    ((tail = [] ∧ us = 0) ∨ ∃ s f fr, s < 60 ∧ tail = b ++ (digitsW 2 s ++ fr) ∧ us = s * 1000000 + f ∧
      ((fr = [] ∧ f = 0) ∨ ∃ k n, 1 ≤ k ∧ k ≤ 6 ∧ n < 10 ^ k ∧ fr = '.' :: digitsW k n ∧ f = n * 10 ^ (6 - k))) ∧
    off = (if neg then -1 else 1) * (((h * 3600 + m * 60) * 1000000 + us : ℕ) : ℤ)

/-- Nothing, or a colon. -/
def Colon (a : Str) : Prop := a = [] ∨ a = [':']

/-- A text that means an offset: `Z`, or one with the same before the minutes and the seconds. -/
def OffsetText (v : Str) (off : ℤ) : Prop := (v = ['Z'] ∧ off = 0) ∨ ∃ a, Colon a ∧ ZoneText a a v off

/-- The texts of a directive. -/
def DirText : Char → Str → Prop
  | 'Y', v => NumText 4 0 9999 v ∨ ∃ w, v = '-' :: w ∧ NumText 4 0 9999 w
  | 'y', v => NumText 2 0 99 v ∧ v.length = 2
  | 'G', v => (NumText 4 0 9999 v ∧ v.length = 4) ∨ ∃ w, v = '-' :: w ∧ NumText 4 0 9999 w ∧ w.length = 4
  | 'm', v => NumText 2 0 19 v
  | 'd', v => NumText 2 1 19 v ∨ ∃ w, v = ' ' :: w ∧ NumText 1 1 9 w
  | 'H', v => NumText 2 0 23 v
  | 'I', v => NumText 2 1 12 v
  | 'p', v => NameText ["AM", "PM"] v
  | 'z', v => v = ['Z'] ∨ ∃ a b off, Colon a ∧ Colon b ∧ ZoneText a b v off
  | 'M', v => NumText 2 0 59 v
  | 'S', v => NumText 2 0 61 v
  | 'f', v => NumText 6 0 999999 v
  | 'j', v => NumText 3 1 366 v
  | 'U', v => NumText 2 0 52 v
  | 'W', v => NumText 2 0 52 v
  | 'V', v => NumText 2 0 53 v
  | 'w', v => NumText 1 0 6 v
  | 'u', v => NumText 1 1 7 v
  | 'A', v => NameText dayNames v
  | 'a', v => NameText dayAbbrs v
  | 'B', v => NameText monthNames v
  | 'b', v => NameText monthAbbrs v
  | _, _ => False

/-- `Follows f s g`: the whole text `s` follows the format `f`, and `g` lists the directives of the format, in order, with
their texts. Other characters of the format stand for themselves, up to case, and a run of white space for any run. -/
inductive Follows : Str → Str → List (Char × Str) → Prop
  | nil : Follows [] [] []
  | percent {f s g} : Follows f s g → Follows ('%' :: '%' :: f) ('%' :: s) g
  | dir {c v f s g} : DirText c v → Follows f s g → Follows ('%' :: c :: f) (v ++ s) ((c, v) :: g)
  | char {c x f s g} : c ≠ '%' → isSpaceC c = false → lowerC x = lowerC c → Follows f s g → Follows (c :: f) (x :: s) g
  | spaces {a b f s g} : a ≠ [] → b ≠ [] → (∀ c ∈ a, isSpaceC c = true) → (∀ c ∈ b, isSpaceC c = true) → Follows f s g →
      Follows (a ++ f) (b ++ s) g

/-- The number `n` is the text of one of the directives `cs`, or the default when the format has none of them. -/
def FieldIs (g : List (Char × Str)) (cs : List Char) (dflt n : ℤ) : Prop :=
  (∃ c ∈ cs, ∃ v, (c, v) ∈ g ∧ intOf v = .ok n) ∨ ((∀ c ∈ cs, ∀ v, (c, v) ∉ g) ∧ n = dflt)

/-- The hour: the number at `%H`, or the one at `%I`, which is in the second half of the day when `%p` says so. -/
def HourIs (g : List (Char × Str)) (n : ℤ) : Prop :=
  (∃ v, ('H', v) ∈ g ∧ intOf v = .ok n) ∨
  (∃ v h, ('I', v) ∈ g ∧ intOf v = .ok h ∧
    ((n = h % 12 ∧ ∀ t, ('p', t) ∈ g → ∃ t', ('p', t') ∈ g ∧ lowerS t' = "am".toList) ∨
      (n = h % 12 + 12 ∧ ∃ t, ('p', t) ∈ g ∧ lowerS t = "pm".toList))) ∨
  ((∀ c ∈ ['H', 'I'], ∀ v, (c, v) ∉ g) ∧ n = 0)

/-- The zone: the offset at `%z`, or none. -/
def ZoneIs (g : List (Char × Str)) (z : Option Tz) : Prop :=
  (∃ v t, ('z', v) ∈ g ∧ z = some t ∧ OffsetText v t.off) ∨ ((∀ v, ('z', v) ∉ g) ∧ z = none)

/-- The microseconds: the digits of `%f`, filled up with zeros on the right. -/
def FractionIs (g : List (Char × Str)) (n : ℤ) : Prop :=
  (∃ v, ('f', v) ∈ g ∧ intOf (v ++ List.replicate (6 - v.length) '0') = .ok n) ∨ ((∀ v, ('f', v) ∉ g) ∧ n = 0)

/-- The month: the number, or a place at which the list of names has the text. -/
def MonthIs (g : List (Char × Str)) (m : ℤ) : Prop :=
  (∃ v, ('m', v) ∈ g ∧ intOf v = .ok m) ∨
  (∃ v, ('B', v) ∈ g ∧ 0 ≤ m ∧ (monthNames[m.toNat]?).map (fun s => lowerS s.toList) = some (lowerS v)) ∨
  (∃ v, ('b', v) ∈ g ∧ 0 ≤ m ∧ (monthAbbrs[m.toNat]?).map (fun s => lowerS s.toList) = some (lowerS v)) ∨
  ((∀ c ∈ ['m', 'B', 'b'], ∀ v, (c, v) ∉ g) ∧ m = 1)

end Verif
