import Verif.Lemmas.SolarDelta

/-!
# ΔT from month to month, in integers
-/

namespace Verif.Solar

/-- The middle of month `k`, counted from January of the year 0, as a number of years. -/
def monthYear (k : ℤ) : ℚ := ((2 * k + 1 : ℤ) : ℚ) / 24

/-- A polynomial at an integer. -/
def hornerZ (x : ℤ) (l : List ℤ) : ℤ := l.foldr (fun a r => a + x * r) 0

/-- The change of a polynomial in half months over one month is at most 0.907 of the unit `T`. -/
def stepOk (l : List ℤ) (T x : ℤ) : Bool :=
  Nat.ble ((hornerZ (x + 2) l - hornerZ x l) * 1000).natAbs (907 * T).natAbs

theorem stepOk_le {l : List ℤ} {T x : ℤ} (hT : 0 < T) (h : stepOk l T x = true) :
    |(hornerZ (x + 2) l : ℚ) / T - (hornerZ x l : ℚ) / T| ≤ 907 / 1000 := by
  have h := Nat.le_of_ble_eq_true h
  have h' : |(hornerZ (x + 2) l - hornerZ x l) * 1000| ≤ |907 * T| := by
    rw [Int.abs_eq_natAbs, Int.abs_eq_natAbs]
    exact_mod_cast h
  rw [abs_mul, abs_of_pos (by omega : 0 < 907 * T), show |(1000 : ℤ)| = 1000 by rfl] at h'
  have Tq : (0 : ℚ) < T := by exact_mod_cast hT
  have hq : |((hornerZ (x + 2) l : ℤ) : ℚ) - ((hornerZ x l : ℤ) : ℚ)| * 1000 ≤ 907 * T := by exact_mod_cast h'
  rw [← sub_div, abs_div, abs_of_pos Tq, div_le_div_iff₀ Tq (by norm_num)]
  exact hq

theorem month_lt {k : ℤ} {c : ℚ} (j : ℤ) (h : c = (j : ℚ) / 12) (hk : k < j) : monthYear k < c := by
  have : (k : ℚ) + 1 ≤ j := by exact_mod_cast hk
  rw [h]
  unfold monthYear
  push_cast
  linarith

theorem month_ge {k : ℤ} {c : ℚ} (j : ℤ) (h : c = (j : ℚ) / 12) (hk : j ≤ k) : ¬ monthYear k < c := by
  have : (j : ℚ) ≤ k := by exact_mod_cast hk
  rw [h]
  unfold monthYear
  push_cast
  linarith

theorem all_from {p : ℤ → Bool} {a : ℤ} {n : ℕ} (h : (List.range n).all (fun i => p (a + (i : ℤ))) = true) {k : ℤ}
    (h0 : a ≤ k) (h1 : k < a + n) : p k = true := by
  rw [List.all_eq_true] at h
  have := h (k - a).toNat (by rw [List.mem_range]; omega)
  rwa [show a + ((k - a).toNat : ℤ) = k by omega] at this

set_option maxRecDepth 100000

/-! ### Before the year 500 -/

def lA : List ℤ :=
  [6741858189312000000000000000000000, -269245513728000000000000000000, 3736141701120000000000000, -274270602240000000000, -3453027840000000, 177393536000, 30105507]

theorem valA {k : ℤ} (h0 : -120 ≤ k) (h1 : k < 6000) :
    deltaTSeconds (monthYear k) = (hornerZ (2 * k + 1 - 0) lA : ℚ) / (637009920000000000000000000000 : ℤ) := by
  unfold deltaTSeconds
  rw [if_neg (month_ge (-6000) (by norm_num) (by omega)), if_pos (month_lt 6000 (by norm_num) (by omega))]
  simp only [Verif.poly, hornerZ, lA, monthYear, List.foldr]
  push_cast
  ring

theorem allA0 : (List.range 1500).all (fun i => (fun k => stepOk lA 637009920000000000000000000000 (2 * k + 1 - 0)) ((-120) + (i : ℤ))) = true := by
  decide +kernel

theorem allA1 : (List.range 1500).all (fun i => (fun k => stepOk lA 637009920000000000000000000000 (2 * k + 1 - 0)) (1380 + (i : ℤ))) = true := by
  decide +kernel

theorem allA2 : (List.range 1500).all (fun i => (fun k => stepOk lA 637009920000000000000000000000 (2 * k + 1 - 0)) (2880 + (i : ℤ))) = true := by
  decide +kernel

theorem allA3 : (List.range 1500).all (fun i => (fun k => stepOk lA 637009920000000000000000000000 (2 * k + 1 - 0)) (4380 + (i : ℤ))) = true := by
  decide +kernel

theorem allA4 : (List.range 119).all (fun i => (fun k => stepOk lA 637009920000000000000000000000 (2 * k + 1 - 0)) (5880 + (i : ℤ))) = true := by
  decide +kernel

theorem stepA {k : ℤ} (h0 : -120 ≤ k) (h1 : k + 1 < 6000) :
    |deltaTSeconds (monthYear (k + 1)) - deltaTSeconds (monthYear k)| ≤ 907 / 1000 := by
  have h : stepOk lA 637009920000000000000000000000 (2 * k + 1 - 0) = true := by
    rcases (by omega : (-120 ≤ k ∧ k < 1380) ∨ (1380 ≤ k ∧ k < 2880) ∨ (2880 ≤ k ∧ k < 4380) ∨ (4380 ≤ k ∧ k < 5880) ∨ (5880 ≤ k ∧ k < 5999)) with
      h | h | h | h | h
    · exact all_from (p := fun k => stepOk lA 637009920000000000000000000000 (2 * k + 1 - 0)) allA0 h.1 (by omega)
    · exact all_from (p := fun k => stepOk lA 637009920000000000000000000000 (2 * k + 1 - 0)) allA1 h.1 (by omega)
    · exact all_from (p := fun k => stepOk lA 637009920000000000000000000000 (2 * k + 1 - 0)) allA2 h.1 (by omega)
    · exact all_from (p := fun k => stepOk lA 637009920000000000000000000000 (2 * k + 1 - 0)) allA3 h.1 (by omega)
    · exact all_from (p := fun k => stepOk lA 637009920000000000000000000000 (2 * k + 1 - 0)) allA4 h.1 (by omega)
  have := stepOk_le (by norm_num) h
  rw [valA (by omega) (by omega), valA h0 (by omega), show 2 * (k + 1) + 1 - 0 = 2 * k + 1 - 0 + 2 by ring]
  exact this

/-! ### Before the year 1600 -/

def lB : List ℤ :=
  [3008343048192000000000000000000000, -442729857024000000000000000000, 23633970462720000000000000, 44206525440000000000, -48979946880000000, -121223952000, 83572073]

theorem valB {k : ℤ} (h0 : 6000 ≤ k) (h1 : k < 19200) :
    deltaTSeconds (monthYear k) = (hornerZ (2 * k + 1 - 24000) lB : ℚ) / (1911029760000000000000000000000 : ℤ) := by
  unfold deltaTSeconds
  rw [if_neg (month_ge (-6000) (by norm_num) (by omega)), if_neg (month_ge 6000 (by norm_num) (by omega)), if_pos (month_lt 19200 (by norm_num) (by omega))]
  simp only [Verif.poly, hornerZ, lB, monthYear, List.foldr]
  push_cast
  ring

theorem allB0 : (List.range 1500).all (fun i => (fun k => stepOk lB 1911029760000000000000000000000 (2 * k + 1 - 24000)) (6000 + (i : ℤ))) = true := by
  decide +kernel

theorem allB1 : (List.range 1500).all (fun i => (fun k => stepOk lB 1911029760000000000000000000000 (2 * k + 1 - 24000)) (7500 + (i : ℤ))) = true := by
  decide +kernel

theorem allB2 : (List.range 1500).all (fun i => (fun k => stepOk lB 1911029760000000000000000000000 (2 * k + 1 - 24000)) (9000 + (i : ℤ))) = true := by
  decide +kernel

theorem allB3 : (List.range 1500).all (fun i => (fun k => stepOk lB 1911029760000000000000000000000 (2 * k + 1 - 24000)) (10500 + (i : ℤ))) = true := by
  decide +kernel

theorem allB4 : (List.range 1500).all (fun i => (fun k => stepOk lB 1911029760000000000000000000000 (2 * k + 1 - 24000)) (12000 + (i : ℤ))) = true := by
  decide +kernel

theorem allB5 : (List.range 1500).all (fun i => (fun k => stepOk lB 1911029760000000000000000000000 (2 * k + 1 - 24000)) (13500 + (i : ℤ))) = true := by
  decide +kernel

theorem allB6 : (List.range 1500).all (fun i => (fun k => stepOk lB 1911029760000000000000000000000 (2 * k + 1 - 24000)) (15000 + (i : ℤ))) = true := by
  decide +kernel

theorem allB7 : (List.range 1500).all (fun i => (fun k => stepOk lB 1911029760000000000000000000000 (2 * k + 1 - 24000)) (16500 + (i : ℤ))) = true := by
  decide +kernel

theorem allB8 : (List.range 1199).all (fun i => (fun k => stepOk lB 1911029760000000000000000000000 (2 * k + 1 - 24000)) (18000 + (i : ℤ))) = true := by
  decide +kernel

theorem stepB {k : ℤ} (h0 : 6000 ≤ k) (h1 : k + 1 < 19200) :
    |deltaTSeconds (monthYear (k + 1)) - deltaTSeconds (monthYear k)| ≤ 907 / 1000 := by
  have h : stepOk lB 1911029760000000000000000000000 (2 * k + 1 - 24000) = true := by
    rcases (by omega : (6000 ≤ k ∧ k < 7500) ∨ (7500 ≤ k ∧ k < 9000) ∨ (9000 ≤ k ∧ k < 10500) ∨ (10500 ≤ k ∧ k < 12000) ∨ (12000 ≤ k ∧ k < 13500) ∨ (13500 ≤ k ∧ k < 15000) ∨ (15000 ≤ k ∧ k < 16500) ∨ (16500 ≤ k ∧ k < 18000) ∨ (18000 ≤ k ∧ k < 19199)) with
      h | h | h | h | h | h | h | h | h
    · exact all_from (p := fun k => stepOk lB 1911029760000000000000000000000 (2 * k + 1 - 24000)) allB0 h.1 (by omega)
    · exact all_from (p := fun k => stepOk lB 1911029760000000000000000000000 (2 * k + 1 - 24000)) allB1 h.1 (by omega)
    · exact all_from (p := fun k => stepOk lB 1911029760000000000000000000000 (2 * k + 1 - 24000)) allB2 h.1 (by omega)
    · exact all_from (p := fun k => stepOk lB 1911029760000000000000000000000 (2 * k + 1 - 24000)) allB3 h.1 (by omega)
    · exact all_from (p := fun k => stepOk lB 1911029760000000000000000000000 (2 * k + 1 - 24000)) allB4 h.1 (by omega)
    · exact all_from (p := fun k => stepOk lB 1911029760000000000000000000000 (2 * k + 1 - 24000)) allB5 h.1 (by omega)
    · exact all_from (p := fun k => stepOk lB 1911029760000000000000000000000 (2 * k + 1 - 24000)) allB6 h.1 (by omega)
    · exact all_from (p := fun k => stepOk lB 1911029760000000000000000000000 (2 * k + 1 - 24000)) allB7 h.1 (by omega)
    · exact all_from (p := fun k => stepOk lB 1911029760000000000000000000000 (2 * k + 1 - 24000)) allB8 h.1 (by omega)
  have := stepOk_le (by norm_num) h
  rw [valB (by omega) (by omega), valB h0 (by omega), show 2 * (k + 1) + 1 - 24000 = 2 * k + 1 - 24000 + 2 by ring]
  exact this

/-! ### Before the year 1700 -/

def lC : List ℤ :=
  [36956736000000, -12585821760, -8191221, 3125]

theorem valC {k : ℤ} (h0 : 19200 ≤ k) (h1 : k < 20400) :
    deltaTSeconds (monthYear k) = (hornerZ (2 * k + 1 - 38400) lC : ℚ) / (307972800000 : ℤ) := by
  unfold deltaTSeconds
  rw [if_neg (month_ge (-6000) (by norm_num) (by omega)), if_neg (month_ge 6000 (by norm_num) (by omega)), if_neg (month_ge 19200 (by norm_num) (by omega)), if_pos (month_lt 20400 (by norm_num) (by omega))]
  simp only [Verif.poly, hornerZ, lC, monthYear, List.foldr]
  push_cast
  ring

theorem allC0 : (List.range 1199).all (fun i => (fun k => stepOk lC 307972800000 (2 * k + 1 - 38400)) (19200 + (i : ℤ))) = true := by
  decide +kernel

theorem stepC {k : ℤ} (h0 : 19200 ≤ k) (h1 : k + 1 < 20400) :
    |deltaTSeconds (monthYear (k + 1)) - deltaTSeconds (monthYear k)| ≤ 907 / 1000 := by
  have h : stepOk lC 307972800000 (2 * k + 1 - 38400) = true := by
    exact all_from (p := fun k => stepOk lC 307972800000 (2 * k + 1 - 38400)) allC0 h0 (by omega)
  have := stepOk_le (by norm_num) h
  rw [valC (by omega) (by omega), valC h0 (by omega), show 2 * (k + 1) + 1 - 38400 = 2 * k + 1 - 38400 + 2 by ring]
  exact this

/-! ### Before the year 1800 -/

def lD : List ℤ :=
  [10747904256000000, 8129903040000, -12528106200, 11742348, -3125]

theorem valD {k : ℤ} (h0 : 20400 ≤ k) (h1 : k < 21600) :
    deltaTSeconds (monthYear k) = (hornerZ (2 * k + 1 - 40800) lD : ℚ) / (1217203200000000 : ℤ) := by
  unfold deltaTSeconds
  rw [if_neg (month_ge (-6000) (by norm_num) (by omega)), if_neg (month_ge 6000 (by norm_num) (by omega)), if_neg (month_ge 19200 (by norm_num) (by omega)), if_neg (month_ge 20400 (by norm_num) (by omega)), if_pos (month_lt 21600 (by norm_num) (by omega))]
  simp only [Verif.poly, hornerZ, lD, monthYear, List.foldr]
  push_cast
  ring

theorem allD0 : (List.range 1199).all (fun i => (fun k => stepOk lD 1217203200000000 (2 * k + 1 - 40800)) (20400 + (i : ℤ))) = true := by
  decide +kernel

theorem stepD {k : ℤ} (h0 : 20400 ≤ k) (h1 : k + 1 < 21600) :
    |deltaTSeconds (monthYear (k + 1)) - deltaTSeconds (monthYear k)| ≤ 907 / 1000 := by
  have h : stepOk lD 1217203200000000 (2 * k + 1 - 40800) = true := by
    exact all_from (p := fun k => stepOk lD 1217203200000000 (2 * k + 1 - 40800)) allD0 h0 (by omega)
  have := stepOk_le (by norm_num) h
  rw [valD (by omega) (by omega), valD h0 (by omega), show 2 * (k + 1) + 1 - 40800 = 2 * k + 1 - 40800 + 2 by ring]
  exact this

/-! ### Before the year 1860 -/

def lE : List ℤ :=
  [2517055517491200000000, -2541264442490880000, 2185326231552000, 54565208064000, -207006105600, 279410688, -163104, 35]

theorem valE {k : ℤ} (h0 : 21600 ≤ k) (h1 : k < 22320) :
    deltaTSeconds (monthYear k) = (hornerZ (2 * k + 1 - 43200) lE : ℚ) / (183458856960000000000 : ℤ) := by
  unfold deltaTSeconds
  rw [if_neg (month_ge (-6000) (by norm_num) (by omega)), if_neg (month_ge 6000 (by norm_num) (by omega)), if_neg (month_ge 19200 (by norm_num) (by omega)), if_neg (month_ge 20400 (by norm_num) (by omega)), if_neg (month_ge 21600 (by norm_num) (by omega)), if_pos (month_lt 22320 (by norm_num) (by omega))]
  simp only [Verif.poly, hornerZ, lE, monthYear, List.foldr]
  push_cast
  ring

theorem allE0 : (List.range 719).all (fun i => (fun k => stepOk lE 183458856960000000000 (2 * k + 1 - 43200)) (21600 + (i : ℤ))) = true := by
  decide +kernel

theorem stepE {k : ℤ} (h0 : 21600 ≤ k) (h1 : k + 1 < 22320) :
    |deltaTSeconds (monthYear (k + 1)) - deltaTSeconds (monthYear k)| ≤ 907 / 1000 := by
  have h : stepOk lE 183458856960000000000 (2 * k + 1 - 43200) = true := by
    exact all_from (p := fun k => stepOk lE 183458856960000000000 (2 * k + 1 - 43200)) allE0 h0 (by omega)
  have := stepOk_le (by norm_num) h
  rw [valE (by omega) (by omega), valE h0 (by omega), show 2 * (k + 1) + 1 - 43200 = 2 * k + 1 - 43200 + 2 by ring]
  exact this

/-! ### Before the year 1900 -/

def lF : List ℤ :=
  [1105302960230400000000, 3467368264896000000, -63398686171680000, 176349636104400, -195587400483, 78125000]

theorem valF {k : ℤ} (h0 : 22320 ≤ k) (h1 : k < 22800) :
    deltaTSeconds (monthYear k) = (hornerZ (2 * k + 1 - 44640) lF : ℚ) / (145052881920000000000 : ℤ) := by
  unfold deltaTSeconds
  rw [if_neg (month_ge (-6000) (by norm_num) (by omega)), if_neg (month_ge 6000 (by norm_num) (by omega)), if_neg (month_ge 19200 (by norm_num) (by omega)), if_neg (month_ge 20400 (by norm_num) (by omega)), if_neg (month_ge 21600 (by norm_num) (by omega)), if_neg (month_ge 22320 (by norm_num) (by omega)), if_pos (month_lt 22800 (by norm_num) (by omega))]
  simp only [Verif.poly, hornerZ, lF, monthYear, List.foldr]
  push_cast
  ring

theorem allF0 : (List.range 479).all (fun i => (fun k => stepOk lF 145052881920000000000 (2 * k + 1 - 44640)) (22320 + (i : ℤ))) = true := by
  decide +kernel

theorem stepF {k : ℤ} (h0 : 22320 ≤ k) (h1 : k + 1 < 22800) :
    |deltaTSeconds (monthYear (k + 1)) - deltaTSeconds (monthYear k)| ≤ 907 / 1000 := by
  have h : stepOk lF 145052881920000000000 (2 * k + 1 - 44640) = true := by
    exact all_from (p := fun k => stepOk lF 145052881920000000000 (2 * k + 1 - 44640)) allF0 h0 (by omega)
  have := stepOk_le (by norm_num) h
  rw [valF (by omega) (by omega), valF h0 (by omega), show 2 * (k + 1) + 1 - 44640 = 2 * k + 1 - 44640 + 2 by ring]
  exact this

/-! ### Before the year 1920 -/

def lG : List ℤ :=
  [-4628275200000, 103273505280, -172494432, 743592, -985]

theorem valG {k : ℤ} (h0 : 22800 ≤ k) (h1 : k < 23040) :
    deltaTSeconds (monthYear k) = (hornerZ (2 * k + 1 - 45600) lG : ℚ) / (1658880000000 : ℤ) := by
  unfold deltaTSeconds
  rw [if_neg (month_ge (-6000) (by norm_num) (by omega)), if_neg (month_ge 6000 (by norm_num) (by omega)), if_neg (month_ge 19200 (by norm_num) (by omega)), if_neg (month_ge 20400 (by norm_num) (by omega)), if_neg (month_ge 21600 (by norm_num) (by omega)), if_neg (month_ge 22320 (by norm_num) (by omega)), if_neg (month_ge 22800 (by norm_num) (by omega)), if_pos (month_lt 23040 (by norm_num) (by omega))]
  simp only [Verif.poly, hornerZ, lG, monthYear, List.foldr]
  push_cast
  ring

theorem allG0 : (List.range 239).all (fun i => (fun k => stepOk lG 1658880000000 (2 * k + 1 - 45600)) (22800 + (i : ℤ))) = true := by
  decide +kernel

theorem stepG {k : ℤ} (h0 : 22800 ≤ k) (h1 : k + 1 < 23040) :
    |deltaTSeconds (monthYear (k + 1)) - deltaTSeconds (monthYear k)| ≤ 907 / 1000 := by
  have h : stepOk lG 1658880000000 (2 * k + 1 - 45600) = true := by
    exact all_from (p := fun k => stepOk lG 1658880000000 (2 * k + 1 - 45600)) allG0 h0 (by omega)
  have := stepOk_le (by norm_num) h
  rw [valG (by omega) (by omega), valG h0 (by omega), show 2 * (k + 1) + 1 - 45600 = 2 * k + 1 - 45600 + 2 by ring]
  exact this

/-! ### Before the year 1941 -/

def lH : List ℤ :=
  [366336000000, 608349600, -2283000, 2617]

theorem valH {k : ℤ} (h0 : 23040 ≤ k) (h1 : k < 23292) :
    deltaTSeconds (monthYear k) = (hornerZ (2 * k + 1 - 46080) lH : ℚ) / (17280000000 : ℤ) := by
  unfold deltaTSeconds
  rw [if_neg (month_ge (-6000) (by norm_num) (by omega)), if_neg (month_ge 6000 (by norm_num) (by omega)), if_neg (month_ge 19200 (by norm_num) (by omega)), if_neg (month_ge 20400 (by norm_num) (by omega)), if_neg (month_ge 21600 (by norm_num) (by omega)), if_neg (month_ge 22320 (by norm_num) (by omega)), if_neg (month_ge 22800 (by norm_num) (by omega)), if_neg (month_ge 23040 (by norm_num) (by omega)), if_pos (month_lt 23292 (by norm_num) (by omega))]
  simp only [Verif.poly, hornerZ, lH, monthYear, List.foldr]
  push_cast
  ring

theorem allH0 : (List.range 251).all (fun i => (fun k => stepOk lH 17280000000 (2 * k + 1 - 46080)) (23040 + (i : ℤ))) = true := by
  decide +kernel

theorem stepH {k : ℤ} (h0 : 23040 ≤ k) (h1 : k + 1 < 23292) :
    |deltaTSeconds (monthYear (k + 1)) - deltaTSeconds (monthYear k)| ≤ 907 / 1000 := by
  have h : stepOk lH 17280000000 (2 * k + 1 - 46080) = true := by
    exact all_from (p := fun k => stepOk lH 17280000000 (2 * k + 1 - 46080)) allH0 h0 (by omega)
  have := stepOk_le (by norm_num) h
  rw [valH (by omega) (by omega), valH h0 (by omega), show 2 * (k + 1) + 1 - 46080 = 2 * k + 1 - 46080 + 2 by ring]
  exact this

/-! ### Before the year 1961 -/

def lI : List ℤ :=
  [29810800344960, 17390488104, -7641000, 29125]

theorem valI {k : ℤ} (h0 : 23292 ≤ k) (h1 : k < 23532) :
    deltaTSeconds (monthYear k) = (hornerZ (2 * k + 1 - 46800) lI : ℚ) / (1025483328000 : ℤ) := by
  unfold deltaTSeconds
  rw [if_neg (month_ge (-6000) (by norm_num) (by omega)), if_neg (month_ge 6000 (by norm_num) (by omega)), if_neg (month_ge 19200 (by norm_num) (by omega)), if_neg (month_ge 20400 (by norm_num) (by omega)), if_neg (month_ge 21600 (by norm_num) (by omega)), if_neg (month_ge 22320 (by norm_num) (by omega)), if_neg (month_ge 22800 (by norm_num) (by omega)), if_neg (month_ge 23040 (by norm_num) (by omega)), if_neg (month_ge 23292 (by norm_num) (by omega)), if_pos (month_lt 23532 (by norm_num) (by omega))]
  simp only [Verif.poly, hornerZ, lI, monthYear, List.foldr]
  push_cast
  ring

theorem allI0 : (List.range 239).all (fun i => (fun k => stepOk lI 1025483328000 (2 * k + 1 - 46800)) (23292 + (i : ℤ))) = true := by
  decide +kernel

theorem deltaStepI {k : ℤ} (h0 : 23292 ≤ k) (h1 : k + 1 < 23532) :
    |deltaTSeconds (monthYear (k + 1)) - deltaTSeconds (monthYear k)| ≤ 907 / 1000 := by
  have h : stepOk lI 1025483328000 (2 * k + 1 - 46800) = true := by
    exact all_from (p := fun k => stepOk lI 1025483328000 (2 * k + 1 - 46800)) allI0 h0 (by omega)
  have := stepOk_le (by norm_num) h
  rw [valI (by omega) (by omega), valI h0 (by omega), show 2 * (k + 1) + 1 - 46800 = 2 * k + 1 - 46800 + 2 by ring]
  exact this

/-! ### Before the year 1986 -/

def lJ : List ℤ :=
  [733069958400, 717075216, -107700, -1625]

theorem valJ {k : ℤ} (h0 : 23532 ≤ k) (h1 : k < 23832) :
    deltaTSeconds (monthYear k) = (hornerZ (2 * k + 1 - 47400) lJ : ℚ) / (16129152000 : ℤ) := by
  unfold deltaTSeconds
  rw [if_neg (month_ge (-6000) (by norm_num) (by omega)), if_neg (month_ge 6000 (by norm_num) (by omega)), if_neg (month_ge 19200 (by norm_num) (by omega)), if_neg (month_ge 20400 (by norm_num) (by omega)), if_neg (month_ge 21600 (by norm_num) (by omega)), if_neg (month_ge 22320 (by norm_num) (by omega)), if_neg (month_ge 22800 (by norm_num) (by omega)), if_neg (month_ge 23040 (by norm_num) (by omega)), if_neg (month_ge 23292 (by norm_num) (by omega)), if_neg (month_ge 23532 (by norm_num) (by omega)), if_pos (month_lt 23832 (by norm_num) (by omega))]
  simp only [Verif.poly, hornerZ, lJ, monthYear, List.foldr]
  push_cast
  ring

theorem allJ0 : (List.range 299).all (fun i => (fun k => stepOk lJ 16129152000 (2 * k + 1 - 47400)) (23532 + (i : ℤ))) = true := by
  decide +kernel

theorem stepJ {k : ℤ} (h0 : 23532 ≤ k) (h1 : k + 1 < 23832) :
    |deltaTSeconds (monthYear (k + 1)) - deltaTSeconds (monthYear k)| ≤ 907 / 1000 := by
  have h : stepOk lJ 16129152000 (2 * k + 1 - 47400) = true := by
    exact all_from (p := fun k => stepOk lJ 16129152000 (2 * k + 1 - 47400)) allJ0 h0 (by omega)
  have := stepOk_le (by norm_num) h
  rw [valJ (by omega) (by omega), valJ h0 (by omega), show 2 * (k + 1) + 1 - 47400 = 2 * k + 1 - 47400 + 2 by ring]
  exact this

/-! ### Before the year 2005 -/

def lK : List ℤ :=
  [50849316864000000000, 11097907200000000, -83461017600000, 99504000000, 1564353600, 2373599]

theorem valK {k : ℤ} (h0 : 23832 ≤ k) (h1 : k < 24060) :
    deltaTSeconds (monthYear k) = (hornerZ (2 * k + 1 - 48000) lK : ℚ) / (796262400000000000 : ℤ) := by
  unfold deltaTSeconds
  rw [if_neg (month_ge (-6000) (by norm_num) (by omega)), if_neg (month_ge 6000 (by norm_num) (by omega)), if_neg (month_ge 19200 (by norm_num) (by omega)), if_neg (month_ge 20400 (by norm_num) (by omega)), if_neg (month_ge 21600 (by norm_num) (by omega)), if_neg (month_ge 22320 (by norm_num) (by omega)), if_neg (month_ge 22800 (by norm_num) (by omega)), if_neg (month_ge 23040 (by norm_num) (by omega)), if_neg (month_ge 23292 (by norm_num) (by omega)), if_neg (month_ge 23532 (by norm_num) (by omega)), if_neg (month_ge 23832 (by norm_num) (by omega)), if_pos (month_lt 24060 (by norm_num) (by omega))]
  simp only [Verif.poly, hornerZ, lK, monthYear, List.foldr]
  push_cast
  ring

theorem allK0 : (List.range 227).all (fun i => (fun k => stepOk lK 796262400000000000 (2 * k + 1 - 48000)) (23832 + (i : ℤ))) = true := by
  decide +kernel

theorem stepK {k : ℤ} (h0 : 23832 ≤ k) (h1 : k + 1 < 24060) :
    |deltaTSeconds (monthYear (k + 1)) - deltaTSeconds (monthYear k)| ≤ 907 / 1000 := by
  have h : stepOk lK 796262400000000000 (2 * k + 1 - 48000) = true := by
    exact all_from (p := fun k => stepOk lK 796262400000000000 (2 * k + 1 - 48000)) allK0 h0 (by omega)
  have := stepOk_le (by norm_num) h
  rw [valK (by omega) (by omega), valK h0 (by omega), show 2 * (k + 1) + 1 - 48000 = 2 * k + 1 - 48000 + 2 by ring]
  exact this

/-! ### Before the year 2050 -/

def lL : List ℤ :=
  [4026880000, 859120, 621]

theorem valL {k : ℤ} (h0 : 24060 ≤ k) (h1 : k < 24600) :
    deltaTSeconds (monthYear k) = (hornerZ (2 * k + 1 - 48000) lL : ℚ) / (64000000 : ℤ) := by
  unfold deltaTSeconds
  rw [if_neg (month_ge (-6000) (by norm_num) (by omega)), if_neg (month_ge 6000 (by norm_num) (by omega)), if_neg (month_ge 19200 (by norm_num) (by omega)), if_neg (month_ge 20400 (by norm_num) (by omega)), if_neg (month_ge 21600 (by norm_num) (by omega)), if_neg (month_ge 22320 (by norm_num) (by omega)), if_neg (month_ge 22800 (by norm_num) (by omega)), if_neg (month_ge 23040 (by norm_num) (by omega)), if_neg (month_ge 23292 (by norm_num) (by omega)), if_neg (month_ge 23532 (by norm_num) (by omega)), if_neg (month_ge 23832 (by norm_num) (by omega)), if_neg (month_ge 24060 (by norm_num) (by omega)), if_pos (month_lt 24600 (by norm_num) (by omega))]
  simp only [Verif.poly, hornerZ, lL, monthYear, List.foldr]
  push_cast
  ring

theorem allL0 : (List.range 539).all (fun i => (fun k => stepOk lL 64000000 (2 * k + 1 - 48000)) (24060 + (i : ℤ))) = true := by
  decide +kernel

theorem stepL {k : ℤ} (h0 : 24060 ≤ k) (h1 : k + 1 < 24600) :
    |deltaTSeconds (monthYear (k + 1)) - deltaTSeconds (monthYear k)| ≤ 907 / 1000 := by
  have h : stepOk lL 64000000 (2 * k + 1 - 48000) = true := by
    exact all_from (p := fun k => stepOk lL 64000000 (2 * k + 1 - 48000)) allL0 h0 (by omega)
  have := stepOk_le (by norm_num) h
  rw [valL (by omega) (by omega), valL h0 (by omega), show 2 * (k + 1) + 1 - 48000 = 2 * k + 1 - 48000 + 2 by ring]
  exact this

/-! ### From the year 2050 on -/

theorem valM {k : ℤ} (h0 : 24600 ≤ k) (h1 : k < 25800) : deltaTSeconds (monthYear k) =
    -20 + 32 * ((monthYear k - 1820) / 100) ^ 2 - 0.5628 * (2150 - monthYear k) := by
  unfold deltaTSeconds
  rw [if_neg (month_ge (-6000) (by norm_num) (by omega)), if_neg (month_ge 6000 (by norm_num) (by omega)), if_neg (month_ge 19200 (by norm_num) (by omega)), if_neg (month_ge 20400 (by norm_num) (by omega)), if_neg (month_ge 21600 (by norm_num) (by omega)), if_neg (month_ge 22320 (by norm_num) (by omega)), if_neg (month_ge 22800 (by norm_num) (by omega)), if_neg (month_ge 23040 (by norm_num) (by omega)), if_neg (month_ge 23292 (by norm_num) (by omega)), if_neg (month_ge 23532 (by norm_num) (by omega)), if_neg (month_ge 23832 (by norm_num) (by omega)), if_neg (month_ge 24060 (by norm_num) (by omega)), if_neg (month_ge 24600 (by norm_num) (by omega)), if_pos (month_lt 25800 (by norm_num) (by omega))]

theorem valN {k : ℤ} (h0 : 25800 ≤ k) : deltaTSeconds (monthYear k) = -20 + 32 * ((monthYear k - 1820) / 100) ^ 2 := by
  unfold deltaTSeconds
  rw [if_neg (month_ge (-6000) (by norm_num) (by omega)), if_neg (month_ge 6000 (by norm_num) (by omega)), if_neg (month_ge 19200 (by norm_num) (by omega)), if_neg (month_ge 20400 (by norm_num) (by omega)), if_neg (month_ge 21600 (by norm_num) (by omega)), if_neg (month_ge 22320 (by norm_num) (by omega)), if_neg (month_ge 22800 (by norm_num) (by omega)), if_neg (month_ge 23040 (by norm_num) (by omega)), if_neg (month_ge 23292 (by norm_num) (by omega)), if_neg (month_ge 23532 (by norm_num) (by omega)), if_neg (month_ge 23832 (by norm_num) (by omega)), if_neg (month_ge 24060 (by norm_num) (by omega)), if_neg (month_ge 24600 (by norm_num) (by omega)), if_neg (month_ge 25800 (by norm_num) (by omega))]

theorem monthYear_succ (k : ℤ) : monthYear (k + 1) = monthYear k + 1 / 12 := by
  unfold monthYear
  push_cast
  ring

theorem monthYear_le {k : ℤ} (a b : ℤ) (h0 : a ≤ k) (h1 : k ≤ b) : (a : ℚ) / 12 ≤ monthYear k ∧ monthYear k ≤ (b + 1) / 12 := by
  have q0 : (a : ℚ) ≤ k := by exact_mod_cast h0
  have q1 : (k : ℚ) ≤ b := by exact_mod_cast h1
  unfold monthYear
  push_cast
  constructor <;> linarith

theorem stepM {k : ℤ} (h0 : 24600 ≤ k) (h1 : k + 1 < 25800) :
    |deltaTSeconds (monthYear (k + 1)) - deltaTSeconds (monthYear k)| ≤ 907 / 1000 := by
  obtain ⟨a, b⟩ := monthYear_le 24600 25800 h0 (by omega)
  rw [valM (by omega) h1, valM h0 (by omega), monthYear_succ]
  norm_num at a b
  rw [abs_le]
  constructor <;> ring_nf <;> linarith

theorem stepN {k : ℤ} (h0 : 25800 ≤ k) (h1 : k < 36192) :
    |deltaTSeconds (monthYear (k + 1)) - deltaTSeconds (monthYear k)| ≤ 907 / 1000 := by
  obtain ⟨a, b⟩ := monthYear_le 25800 36192 h0 (by omega)
  rw [valN (by omega), valN h0, monthYear_succ]
  norm_num at a b
  rw [abs_le]
  constructor <;> ring_nf <;> linarith

/-! ### Where the formulas meet -/

theorem stepEdge : ∀ k ∈ ([5999, 19199, 20399, 21599, 22319, 22799, 23039, 23291, 23531, 23831, 24059, 24599, 25799] : List ℤ),
    |deltaTSeconds (monthYear (k + 1)) - deltaTSeconds (monthYear k)| ≤ 907 / 1000 := by decide +kernel

/-- From one month to the next ΔT changes by less than a second. -/
theorem month_step {k : ℤ} (h0 : -120 ≤ k) (h1 : k < 36192) :
    |deltaTSeconds (monthYear (k + 1)) - deltaTSeconds (monthYear k)| ≤ 907 / 1000 := by
  by_cases he : k ∈ ([5999, 19199, 20399, 21599, 22319, 22799, 23039, 23291, 23531, 23831, 24059, 24599, 25799] : List ℤ)
  · exact stepEdge k he
  simp only [List.mem_cons, List.not_mem_nil, or_false, not_or] at he
  rcases lt_or_ge k 6000 with h | h
  · exact stepA (by omega) (by omega)
  replace h0 : 6000 ≤ k := h
  rcases lt_or_ge k 19200 with h | h
  · exact stepB (by omega) (by omega)
  replace h0 : 19200 ≤ k := h
  rcases lt_or_ge k 20400 with h | h
  · exact stepC (by omega) (by omega)
  replace h0 : 20400 ≤ k := h
  rcases lt_or_ge k 21600 with h | h
  · exact stepD (by omega) (by omega)
  replace h0 : 21600 ≤ k := h
  rcases lt_or_ge k 22320 with h | h
  · exact stepE (by omega) (by omega)
  replace h0 : 22320 ≤ k := h
  rcases lt_or_ge k 22800 with h | h
  · exact stepF (by omega) (by omega)
  replace h0 : 22800 ≤ k := h
  rcases lt_or_ge k 23040 with h | h
  · exact stepG (by omega) (by omega)
  replace h0 : 23040 ≤ k := h
  rcases lt_or_ge k 23292 with h | h
  · exact stepH (by omega) (by omega)
  replace h0 : 23292 ≤ k := h
  rcases lt_or_ge k 23532 with h | h
  · exact deltaStepI (by omega) (by omega)
  replace h0 : 23532 ≤ k := h
  rcases lt_or_ge k 23832 with h | h
  · exact stepJ (by omega) (by omega)
  replace h0 : 23832 ≤ k := h
  rcases lt_or_ge k 24060 with h | h
  · exact stepK (by omega) (by omega)
  replace h0 : 24060 ≤ k := h
  rcases lt_or_ge k 24600 with h | h
  · exact stepL (by omega) (by omega)
  replace h0 : 24600 ≤ k := h
  rcases lt_or_ge k 25800 with h | h
  · exact stepM (by omega) (by omega)
  exact stepN h h1

end Verif.Solar
