import Verif.Model.TimeZone
import Verif.Lemmas.Text
import Verif.Lemmas.Badi
import Mathlib.Tactic.NormNum

/-!
# C28 fixed offset time zones, C53 pickling of zones with coordinates
-/

namespace Verif

/-- A zone is created exactly for the offsets strictly between -24 h and 24 h; it carries the offset asked for
and, if one was given, the name. -/
theorem C28_accepts (fresh : ℕ) (off : ℤ) (name : Option Str) :
    (-86400000000 < off ∧ off < 86400000000 →
      ∃ z, newZone fresh off name = .ok z ∧ z.off = off ∧ (name ≠ none → tzName z = name.getD [])) ∧
    (¬ (-86400000000 < off ∧ off < 86400000000) → newZone fresh off name = .error .value) := by
  constructor
  · rintro ⟨h1, h2⟩
    by_cases h : name = none ∧ off = 0
    · exact ⟨utcZone, by rw [newZone, if_pos h], h.2.symm, fun hn => absurd h.1 hn⟩
    · refine ⟨⟨fresh, off, name⟩, ?_, rfl, ?_⟩
      · rw [newZone, if_neg h, if_pos ⟨by omega, by omega⟩]
      · intro hn
        cases name with
        | none => exact absurd rfl hn
        | some s => rfl
  · intro hr
    rw [newZone, if_neg (fun h => hr ⟨by omega, by omega⟩), if_neg (fun h => hr ⟨by omega, by omega⟩)]

example : ∃ z, newZone 7 12600000000 none = .ok z ∧ z.off = 12600000000 := ⟨⟨7, 12600000000, none⟩, by decide, rfl⟩
example : newZone 7 86400000000 none = .error .value := by decide

/-- Zones are equal exactly when they were created for the same offset, whatever their names and identities;
equal zones have equal hashes; the UTC offset never depends on the datetime. -/
theorem C28_eq_hash (f f' : ℕ) (o o' : ℤ) (n n' : Option Str) (z z' : Zone) (H : PyHash)
    (h : newZone f o n = .ok z) (h' : newZone f' o' n' = .ok z') :
    (zoneEq z z' = true ↔ o = o') ∧ (zoneEq z z' = true → zoneHash H z = zoneHash H z') ∧
      ∀ dt dt' : Option DT, zoneUtcOffset z dt = o ∧ zoneUtcOffset z' dt' = o' := by
  have key : ∀ (f : ℕ) (o : ℤ) (n : Option Str) (z : Zone), newZone f o n = .ok z → z.off = o := by
    intro f o n z h
    unfold newZone at h
    split_ifs at h with h1
    · rw [← Except.ok.inj h]; exact h1.2.symm
    · rw [← Except.ok.inj h]
  have e := key f o n z h
  have e' := key f' o' n' z' h'
  refine ⟨?_, ?_, fun _ _ => ⟨e, e'⟩⟩
  · simp [zoneEq, e, e']
  · intro he
    simp only [zoneEq, beq_iff_eq] at he
    simp [zoneHash, he]

example : ∃ z z', newZone 5 3600000000 none = .ok z ∧ newZone 6 3600000000 (some ['C', 'E', 'T']) = .ok z' ∧
    zoneEq z z' = true := ⟨_, _, rfl, rfl, by decide⟩

/-- The parts of a non-zero offset. -/
lemma name_parts (n : ℕ) (hn : n < 86400000000) :
    padNat 2 (n / 3600000000) = digitsW 2 (n / 3600000000) ∧
    padNat 2 (n % 3600000000 / 60000000) = digitsW 2 (n % 3600000000 / 60000000) ∧
    padNat 2 (n % 3600000000 % 60000000 / 1000000) = digitsW 2 (n % 3600000000 % 60000000 / 1000000) ∧
    padNat 6 (n % 3600000000 % 1000000) = digitsW 6 (n % 3600000000 % 1000000) :=
  ⟨padNat_eq (by norm_num) (by norm_num; omega), padNat_eq (by norm_num) (by norm_num; omega),
    padNat_eq (by norm_num) (by norm_num; omega), padNat_eq (by norm_num) (by norm_num; omega)⟩

/-- The name as a function of its parts. -/
private def nameOf (s : Char) (a b c d : ℕ) : Str :=
  if d ≠ 0 then "UTC".toList ++ s :: digitsW 2 a ++ ':' :: digitsW 2 b ++ ':' :: digitsW 2 c ++ '.' :: digitsW 6 d
  else if c ≠ 0 then "UTC".toList ++ s :: digitsW 2 a ++ ':' :: digitsW 2 b ++ ':' :: digitsW 2 c
  else "UTC".toList ++ s :: digitsW 2 a ++ ':' :: digitsW 2 b

private lemma head_inj {s s' : Char} {x x' y y' t t' : Str} (hx : x.length = x'.length) (hy : y.length = y'.length)
    (he : "UTC".toList ++ s :: x ++ ':' :: y ++ t = "UTC".toList ++ s' :: x' ++ ':' :: y' ++ t') :
    s = s' ∧ x = x' ∧ y = y' ∧ t = t' := by
  simp only [List.append_assoc, List.cons_append, List.append_cancel_left_eq, List.cons.injEq] at he
  obtain ⟨hs, he⟩ := he
  obtain ⟨ex, he⟩ := List.append_inj he hx
  rw [List.cons.injEq] at he
  obtain ⟨ey, et⟩ := List.append_inj he.2 hy
  exact ⟨hs, ex, ey, et⟩

private lemma digits2_inj {a b : ℕ} (ha : a < 100) (hb : b < 100) (h : digitsW 2 a = digitsW 2 b) : a = b :=
  digitsW_inj (by norm_num; exact ha) (by norm_num; exact hb) h

private lemma digits6_inj {a b : ℕ} (ha : a < 1000000) (hb : b < 1000000) (h : digitsW 6 a = digitsW 6 b) : a = b :=
  digitsW_inj (by norm_num; exact ha) (by norm_num; exact hb) h

private lemma nameOf_length (s : Char) (a b c d : ℕ) :
    (nameOf s a b c d).length = if d ≠ 0 then 19 else if c ≠ 0 then 12 else 9 := by
  unfold nameOf
  split_ifs <;> simp [digitsW_length]

private lemma nameOf_inj {s s' : Char} {a b c d a' b' c' d' : ℕ}
    (ha : a < 100) (hb : b < 100) (hc : c < 100) (hd : d < 1000000)
    (ha' : a' < 100) (hb' : b' < 100) (hc' : c' < 100) (hd' : d' < 1000000)
    (h : nameOf s a b c d = nameOf s' a' b' c' d') : s = s' ∧ a = a' ∧ b = b' ∧ c = c' ∧ d = d' := by
  have hl := congrArg List.length h
  rw [nameOf_length, nameOf_length] at hl
  have L : ∀ m n, (digitsW 2 m).length = (digitsW 2 n).length := fun m n => by
    rw [digitsW_length, digitsW_length]
  unfold nameOf at h
  by_cases h1 : d = 0
  · by_cases h2 : c = 0
    · have q1 : d' = 0 := by
        by_contra q
        split_ifs at hl <;> contradiction
      have q2 : c' = 0 := by
        by_contra q
        split_ifs at hl <;> contradiction
      rw [if_neg (not_not.2 h1), if_neg (not_not.2 h2), if_neg (not_not.2 q1), if_neg (not_not.2 q2)] at h
      obtain ⟨c1, c2, c3, _⟩ := head_inj (t := []) (t' := []) (L _ _) (L _ _)
        ((List.append_nil _).trans (h.trans (List.append_nil _).symm))
      exact ⟨c1, digits2_inj ha ha' c2, digits2_inj hb hb' c3, by rw [h2, q2], by rw [h1, q1]⟩
    · have q1 : d' = 0 := by
        by_contra q
        split_ifs at hl <;> contradiction
      have q2 : c' ≠ 0 := by
        intro q
        split_ifs at hl <;> contradiction
      rw [if_neg (not_not.2 h1), if_pos h2, if_neg (not_not.2 q1), if_pos q2] at h
      obtain ⟨c1, c2, c3, c4⟩ := head_inj (L _ _) (L _ _) h
      exact ⟨c1, digits2_inj ha ha' c2, digits2_inj hb hb' c3, digits2_inj hc hc' (List.cons.inj c4).2,
        by rw [h1, q1]⟩
  · have q1 : d' ≠ 0 := by
      intro q
      rw [if_pos h1, if_neg (not_not.2 q)] at hl
      split_ifs at hl <;> simp at hl
    rw [if_pos h1, if_pos q1] at h
    rw [List.append_assoc, List.append_assoc _ (_ :: _) (_ :: _)] at h
    obtain ⟨c1, c2, c3, c4⟩ := head_inj (L _ _) (L _ _) h
    obtain ⟨c4, c5⟩ := List.append_inj (s₁ := ':' :: digitsW 2 c) (s₂ := ':' :: digitsW 2 c') c4
      (by simp [digitsW_length])
    exact ⟨c1, digits2_inj ha ha' c2, digits2_inj hb hb' c3, digits2_inj hc hc' (List.cons.inj c4).2,
      digits6_inj hd hd' (List.cons.inj c5).2⟩

private lemma nameFromOffset_eq (o : ℤ) (h0 : o ≠ 0) (h : o.natAbs < 86400000000) :
    nameFromOffset o = nameOf (if o < 0 then '-' else '+') (o.natAbs / 3600000000)
      (o.natAbs % 3600000000 / 60000000) (o.natAbs % 3600000000 % 60000000 / 1000000)
      (o.natAbs % 3600000000 % 1000000) := by
  obtain ⟨a1, a2, a3, a4⟩ := name_parts _ h
  unfold nameFromOffset nameOf
  rw [if_neg h0]
  simp only [a1, a2, a3, a4]

private lemma parts_inj {m n : ℕ} (h1 : m / 3600000000 = n / 3600000000)
    (h2 : m % 3600000000 / 60000000 = n % 3600000000 / 60000000)
    (h3 : m % 3600000000 % 60000000 / 1000000 = n % 3600000000 % 60000000 / 1000000)
    (h4 : m % 3600000000 % 1000000 = n % 3600000000 % 1000000) : m = n := by
  have a : ∀ k : ℕ, k = 3600000000 * (k / 3600000000) + (60000000 * (k % 3600000000 / 60000000) +
      (1000000 * (k % 3600000000 % 60000000 / 1000000) + k % 3600000000 % 1000000)) := by
    intro k
    have e1 := Nat.div_add_mod k 3600000000
    have e2 := Nat.div_add_mod (k % 3600000000) 60000000
    have e3 := Nat.div_add_mod (k % 3600000000 % 60000000) 1000000
    have e4 : k % 3600000000 % 60000000 % 1000000 = k % 3600000000 % 1000000 :=
      Nat.mod_mod_of_dvd _ (by norm_num)
    rw [e4] at e3
    rw [e3, e2, e1]
  rw [a m, a n, h1, h2, h3, h4]

/-- The generated name determines the offset: two zones without a given name that are called the same have the
same offset. -/
theorem C28_name (f f' : ℕ) (o o' : ℤ) (z z' : Zone)
    (h : newZone f o none = .ok z) (h' : newZone f' o' none = .ok z') (hn : tzName z = tzName z') : o = o' := by
  have key : ∀ (f : ℕ) (o : ℤ) (z : Zone), newZone f o none = .ok z →
      tzName z = nameFromOffset o ∧ o.natAbs < 86400000000 := by
    intro f o z h
    unfold newZone at h
    split_ifs at h with h1 h2
    · rw [← Except.ok.inj h, h1.2]; exact ⟨rfl, by norm_num⟩
    · rw [← Except.ok.inj h]; exact ⟨rfl, by omega⟩
  obtain ⟨e1, r1⟩ := key f o z h
  obtain ⟨e2, r2⟩ := key f' o' z' h'
  rw [e1, e2] at hn
  have zero : nameFromOffset 0 = "UTC".toList := rfl
  by_cases z1 : o = 0
  · by_cases z2 : o' = 0
    · rw [z1, z2]
    · rw [z1, zero, nameFromOffset_eq o' z2 r2] at hn
      have := congrArg List.length hn
      rw [nameOf_length] at this
      split_ifs at this <;> simp at this
  · by_cases z2 : o' = 0
    · rw [z2, zero, nameFromOffset_eq o z1 r1] at hn
      have := congrArg List.length hn
      rw [nameOf_length] at this
      split_ifs at this <;> simp at this
    · rw [nameFromOffset_eq o z1 r1, nameFromOffset_eq o' z2 r2] at hn
      have b : ∀ m : ℕ, m < 86400000000 → m / 3600000000 < 100 ∧ m % 3600000000 / 60000000 < 100 ∧
          m % 3600000000 % 60000000 / 1000000 < 100 ∧ m % 3600000000 % 1000000 < 1000000 :=
        fun m hm => ⟨by omega, by omega, by omega, by omega⟩
      obtain ⟨p1, p2, p3, p4⟩ := b _ r1
      obtain ⟨q1, q2, q3, q4⟩ := b _ r2
      obtain ⟨s, c1, c2, c3, c4⟩ := nameOf_inj p1 p2 p3 p4 q1 q2 q3 q4 hn
      have e := parts_inj c1 c2 c3 c4
      have sg : o < 0 ↔ o' < 0 := by
        split_ifs at s with p q q
        · exact ⟨fun _ => q, fun _ => p⟩
        · exact absurd s (by decide)
        · exact absurd s (by decide)
        · exact ⟨fun h => absurd h p, fun h => absurd h q⟩
      clear hn c1 c2 c3 c4 p1 p2 p3 p4 q1 q2 q3 q4
      omega

example : ∃ z, newZone 5 (-12600000000) none = .ok z ∧ tzName z = "UTC-03:30".toList := ⟨_, rfl, by decide +kernel⟩

/-! ## C53 -/

lemma coordZone_inv {hours : ℚ → ℤ} {lat lon : ℚ} {zone : Option ℚ} {key : Option Str} {z : CoordZone}
    (h : newCoordZone hours lat lon zone key = .ok z) :
    ∃ o, o = coordOffset hours zone ∧
      z = ⟨lat, lon, zone, key.getD [], (lat, lon, zone), o, if key.getD [] = [] then none else some (key.getD [])⟩ := by
  unfold newCoordZone at h
  simp only [newZone, reduceCtorEq, false_and, if_false] at h
  refine ⟨_, rfl, ?_⟩
  by_cases h1 : -(24 * 3600000000 - 1) ≤ coordOffset hours zone ∧ coordOffset hours zone ≤ 24 * 3600000000 - 1
  · rw [if_pos h1, pyOk_bind] at h
    exact (Except.ok.inj h).symm
  · rw [if_neg h1, pyErr_bind] at h
    cases h

/-- A zone with coordinates survives pickling as far as its coordinates, key and UTC offset are concerned. -/
theorem C53_pickle_partial (hours : ℚ → ℤ) (lat lon : ℚ) (zone : Option ℚ) (key : Option Str) (z : CoordZone)
    (h : newCoordZone hours lat lon zone key = .ok z) :
    ∃ z', coordZonePickle hours z = .ok z' ∧ z'.coords = (lat, lon, zone) ∧ z'.key = key.getD [] ∧
      z'.off = z.off ∧ z'.lat = lat ∧ z'.lon = lon := by
  obtain ⟨w, hw, e⟩ := coordZone_inv h
  subst e
  refine ⟨_, rfl, rfl, rfl, ?_, rfl, rfl⟩
  rw [hw]
  cases zone with
  | none => rfl
  | some q => rfl

/-- The name that `tzname()` reports is lost by pickling whenever the zone was given a key that is not the name
generated from its offset, and the attribute `zone` is always lost. -/
theorem C53_name_negation (hours : ℚ → ℤ) (lat lon : ℚ) (zone : Option ℚ) (key : Str) (z z' : CoordZone)
    (hk : key ≠ []) (h : newCoordZone hours lat lon zone (some key) = .ok z)
    (hg : key ≠ nameFromOffset z.off) (hp : coordZonePickle hours z = .ok z') :
    z.tzName = key ∧ z'.tzName ≠ key ∧ z'.zone = none := by
  obtain ⟨w, hw, _, _, ho, _⟩ := C53_pickle_partial hours lat lon zone (some key) z h
  obtain ⟨w', _, e⟩ := coordZone_inv h
  subst e
  rw [hp] at hw
  have ew := Except.ok.inj hw
  subst ew
  have e' := Except.ok.inj hp
  refine ⟨?_, ?_, ?_⟩
  · simp [CoordZone.tzName, hk]
  · have : z'.name = none := by rw [← e']; rfl
    simp only [CoordZone.tzName, this]
    rw [ho]; exact fun e => hg e.symm
  · rw [← e']; rfl

/-- The module's own `BADI` zone: `tzname()` changes from `Asia/Tehran` to `UTC+03:30`. -/
example : ∃ z z', newCoordZone (fun _ => 12600000000) 35.69435 51.288701 (some 3.5) (some "Asia/Tehran".toList) = .ok z ∧
    coordZonePickle (fun _ => 12600000000) z = .ok z' ∧ z.tzName = "Asia/Tehran".toList ∧
    z'.tzName = "UTC+03:30".toList := ⟨_, _, rfl, rfl, by decide +kernel, by decide +kernel⟩

end Verif
