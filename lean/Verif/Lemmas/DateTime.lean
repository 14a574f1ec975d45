import Verif.Spec.DateTime
import Verif.Props.Date
import Verif.Props.Time

/-!
# Lemmas about datetime arithmetic
-/

namespace Verif

theorem newDT_ok {A : Astro} (hE : TehranEvening A) {x : DT} {n : ℤ} (h : IsDT (Cal.init A) x n) :
    (Cal.init A).newDT x = .ok x := by
  obtain ⟨hd, ⟨a0, a1, a2, a3, a4, a5, a6, a7, hf⟩⟩ := h
  unfold DT.timetz at a0 a1 a2 a3 a4 a5 a6 a7 hf
  simp only at a0 a1 a2 a3 a4 a5 a6 a7 hf
  unfold Cal.newDT
  rw [newDate_ok hE hd, pyOk_bind, checkTimeFields_ok ⟨a0, by omega⟩ ⟨a2, by omega⟩ ⟨a4, by omega⟩ ⟨a6, by omega⟩ hf,
    pyOk_bind]

theorem tod_eq (x : DT) (n : ℤ) : n * usPerDay + x.tod = localMicro x n := by
  unfold usPerDay DT.tod localMicro
  ring

/-- What the clock part of a sum is. -/
theorem dtAdd_eq {A : Astro} (hE : TehranEvening A) (hO : NewYearOrder (Cal.init A)) {x : DT} {n : ℤ}
    (h : IsDT (Cal.init A) x n) (t : ℤ) :
    (Cal.init A).dtAdd x t =
      (if 77 < (localMicro x n + t) / 86400000000 ∧ (localMicro x n + t) / 86400000000 ≤ 1097267 then do
        let d ← (Cal.init A).fromOrdinal ((localMicro x n + t) / 86400000000) x.d.isShort
        (Cal.init A).newDT ⟨d, (localMicro x n + t) % 86400000000 / 1000000 / 3600,
          (localMicro x n + t) % 86400000000 / 1000000 % 3600 / 60,
          (localMicro x n + t) % 86400000000 / 1000000 % 3600 % 60,
          (localMicro x n + t) % 86400000000 % 1000000, x.tz, 0⟩
      else .error .overflow) := by
  unfold Cal.dtAdd
  rw [toOrdinal_ok hE hO h.day, pyOk_bind, tod_eq]
  have e1 : daysBefore1stYear = 77 := rfl
  have e2 : maxOrdinal = 1097267 := rfl
  have e3 : usPerDay = 86400000000 := rfl
  simp only [e1, e2, e3]
  by_cases c : 77 < (localMicro x n + t) / 86400000000 ∧ (localMicro x n + t) / 86400000000 ≤ 1097267
  · rw [if_pos c, if_pos c]
    cases (Cal.init A).fromOrdinal ((localMicro x n + t) / 86400000000) x.d.isShort with
    | error e => rfl
    | ok d =>
      rw [pyOk_bind, pyOk_bind, newTime_ok, pyOk_bind]
      · rfl
      · generalize localMicro x n + t = L
        exact ⟨by simp only; omega, by simp only; omega, by simp only; omega, by simp only; omega, by simp only; omega,
          by simp only; omega, by simp only; omega, by simp only; omega, Or.inl rfl⟩
  · rw [if_neg c, if_neg c]

theorem reachable_of {A : Astro} (hE : TehranEvening A) {n : ℤ} (h0 : 78 ≤ n) (hc : Convertible (Cal.init A) n) :
    Reachable (Cal.init A) n :=
  ⟨⟨_, by rw [init_yearStart hE, if_pos (by omega)], by rw [ysInt_m1842]; exact h0⟩, hc⟩

theorem dtAdd_tail {A : Astro} {d : DateObj} {L : ℤ} {tz : Option Tz}
    (hd : IsDay (Cal.init A) d (L / 86400000000)) :
    IsDT (Cal.init A) ⟨d, L % 86400000000 / 1000000 / 3600, L % 86400000000 / 1000000 % 3600 / 60,
      L % 86400000000 / 1000000 % 3600 % 60, L % 86400000000 % 1000000, tz, 0⟩ (L / 86400000000) ∧
    localMicro ⟨d, L % 86400000000 / 1000000 / 3600, L % 86400000000 / 1000000 % 3600 / 60,
      L % 86400000000 / 1000000 % 3600 % 60, L % 86400000000 % 1000000, tz, 0⟩ (L / 86400000000) = L ∧
    OrdinaryClock ⟨d, L % 86400000000 / 1000000 / 3600, L % 86400000000 / 1000000 % 3600 / 60,
      L % 86400000000 / 1000000 % 3600 % 60, L % 86400000000 % 1000000, tz, 0⟩ := by
  refine ⟨⟨hd, ?_⟩, ?_, ?_⟩
  · unfold DT.timetz
    exact ⟨by simp only; omega, by simp only; omega, by simp only; omega, by simp only; omega, by simp only; omega,
      by simp only; omega, by simp only; omega, by simp only; omega, Or.inl rfl⟩
  · unfold localMicro
    simp only
    omega
  · unfold OrdinaryClock
    simp only
    omega

/-- The result of an addition. -/
structure Sum (A : Astro) (x y : DT) (L : ℤ) : Prop where
  dt : IsDT (Cal.init A) y (L / 86400000000)
  micro : localMicro y (L / 86400000000) = L
  clock : OrdinaryClock y
  tz : y.tz = x.tz
  form : y.d.isShort = x.d.isShort
  fold : y.fold = 0

theorem dtAdd_ok {A : Astro} (hE : TehranEvening A) (hO : NewYearOrder (Cal.init A)) {x : DT} {n : ℤ}
    (h : IsDT (Cal.init A) x n) {t : ℤ} (hr : Reachable (Cal.init A) ((localMicro x n + t) / 86400000000)) :
    ∃ y, (Cal.init A).dtAdd x t = .ok y ∧ Sum A x y (localMicro x n + t) := by
  have h0 := reachable_lo hE hr
  obtain ⟨-, h1, -⟩ := convertible_inv hE hr.2
  rw [dtAdd_eq hE hO h, if_pos (by omega)]
  obtain ⟨d, e, hd, hs⟩ := fromOrdinal_ok hE hr.2 x.d.isShort
  rw [e, pyOk_bind]
  obtain ⟨p1, p2, p3⟩ := dtAdd_tail (tz := x.tz) hd
  rw [newDT_ok hE p1]
  exact ⟨_, rfl, p1, p2, p3, rfl, hs, rfl⟩

theorem dtAdd_inv {A : Astro} (hE : TehranEvening A) (hO : NewYearOrder (Cal.init A)) {x y : DT} {n : ℤ}
    (h : IsDT (Cal.init A) x n) {t : ℤ} (hy : (Cal.init A).dtAdd x t = .ok y) :
    Sum A x y (localMicro x n + t) ∧ Reachable (Cal.init A) ((localMicro x n + t) / 86400000000) := by
  rw [dtAdd_eq hE hO h] at hy
  by_cases c : 77 < (localMicro x n + t) / 86400000000 ∧ (localMicro x n + t) / 86400000000 ≤ 1097267
  · rw [if_pos c] at hy
    cases e : (Cal.init A).fromOrdinal ((localMicro x n + t) / 86400000000) x.d.isShort with
    | error e' => rw [e, pyErr_bind] at hy; cases hy
    | ok d =>
      rw [e, pyOk_bind] at hy
      obtain ⟨hd, hs, hc⟩ := fromOrdinal_inv hE (by omega) c.2 e
      obtain ⟨p1, p2, p3⟩ := dtAdd_tail (tz := x.tz) hd
      rw [newDT_ok hE p1] at hy
      injection hy with hy
      subst hy
      exact ⟨⟨p1, p2, p3, rfl, hs, rfl⟩, reachable_of hE (by omega) hc⟩
  · rw [if_neg c] at hy; cases hy

theorem dtSubBase {A : Astro} (hE : TehranEvening A) (hO : NewYearOrder (Cal.init A)) {x y : DT} {n m : ℤ}
    (hx : IsDT (Cal.init A) x n) (hy : IsDT (Cal.init A) y m) :
    (Cal.init A).dtSub x y = dtSubOff x y (localMicro x n - localMicro y m) := by
  unfold Cal.dtSub
  rw [toOrdinal_ok hE hO hx.day, pyOk_bind, toOrdinal_ok hE hO hy.day, pyOk_bind]
  have e : (n - m) * usPerDay + (x.s + x.mi * 60 + x.h * 3600 - (y.s + y.mi * 60 + y.h * 3600)) * 1000000 + (x.us - y.us) =
      localMicro x n - localMicro y m := by
    unfold usPerDay localMicro
    ring
  simp only
  rw [e]

theorem dtSubOff_same {x y : DT} {b : ℤ} (h : SameOffset x.tz y.tz) : dtSubOff x y b = .ok b := by
  unfold dtSubOff
  by_cases hz : x.tz = y.tz
  · rw [if_pos hz]
  · rw [if_neg hz]
    revert h hz
    cases x.tz with
    | none => cases y.tz with
      | none => intro _ h; exact absurd rfl h
      | some w => intro h; exact h.elim
    | some z => cases y.tz with
      | none => intro h; exact h.elim
      | some w =>
        rintro ⟨h1, h2⟩ -
        rw [utcOffset_some h2, pyOk_bind, utcOffset_some (h1 ▸ h2), pyOk_bind]
        simp only
        rw [if_pos h1]

theorem dtSubOff_tz {x y : DT} {b : ℤ} {z w : Tz} (hx : x.tz = some z) (hy : y.tz = some w) (hz : ValidOff z.off)
    (hw : ValidOff w.off) : dtSubOff x y b = .ok (b + w.off - z.off) := by
  by_cases h : z.off = w.off
  · rw [dtSubOff_same (by rw [hx, hy]; exact ⟨h, hz⟩), h]
    congr 1
    ring
  · unfold dtSubOff
    rw [hx, hy, if_neg (fun e => h (by injection e with e; rw [e])), utcOffset_some hz, pyOk_bind, utcOffset_some hw,
      pyOk_bind]
    simp only
    rw [if_neg h]

/-- On the local time line an ordinary clock reading is determined. -/
theorem localMicro_unique {A : Astro} (hE : TehranEvening A) {x y : DT} {n m : ℤ} (hx : IsDT (Cal.init A) x n)
    (hy : IsDT (Cal.init A) y m) (cx : OrdinaryClock x) (cy : OrdinaryClock y) (hf : x.d.isShort = y.d.isShort)
    (h : localMicro x n = localMicro y m) : n = m ∧ SameFields x y := by
  obtain ⟨dx, ⟨a0, a1, a2, a3, a4, a5, a6, a7, -⟩⟩ := hx
  obtain ⟨dy, ⟨b0, b1, b2, b3, b4, b5, b6, b7, -⟩⟩ := hy
  obtain ⟨c1, c2⟩ := cx
  obtain ⟨e1, e2⟩ := cy
  unfold DT.timetz at a0 a1 a2 a3 a4 a5 a6 a7 b0 b1 b2 b3 b4 b5 b6 b7
  simp only at a0 a1 a2 a3 a4 a5 a6 a7 b0 b1 b2 b3 b4 b5 b6 b7
  unfold localMicro at h
  have hn : n = m := by omega
  subst hn
  exact ⟨rfl, isDay_unique hE dx dy hf, by omega, by omega, by omega, by omega⟩

end Verif
