import Verif.Model.ZoneEq
import Verif.Props.DateTime
import Verif.Props.Convert

/-!
# Property C101: equal zones are interchangeable
-/

namespace Verif

/-- The object `x` with another zone. -/
abbrev DT.within (x : DT) (z : Tz) : DT := { x with tz := some z }

theorem utcOffset_def (z : Tz) : utcOffset (some z) = (do checkOffset z.off; .ok (some z.off)) := rfl

theorem subOff_zone (x y : DT) (base : ℤ) (p q : Tz) (h : p.off = q.off) (hv : ValidOff p.off) :
    dtSubOff (x.within p) y base = dtSubOff (x.within q) y base ∧
      dtSubOff y (x.within p) base = dtSubOff y (x.within q) base := by
  have key : ∀ z : Tz, z.off = p.off → dtSubOff (x.within z) y base = (match y.tz with
      | none => .error .type
      | some r => if p.off = r.off then .ok base else (do
        checkOffset r.off
        .ok (base + r.off - p.off))) ∧
      dtSubOff y (x.within z) base = (match y.tz with
      | none => .error .type
      | some r => if p.off = r.off then .ok base else (do
        checkOffset r.off
        .ok (base + p.off - r.off))) := by
    intro z hz
    have hvz : ValidOff z.off := by rw [hz]; exact hv
    unfold dtSubOff
    simp only []
    cases hy : y.tz with
    | none =>
      rw [if_neg (by simp), if_neg (by simp), utcOffset_some hvz]
      exact ⟨rfl, rfl⟩
    | some r =>
      simp only [Option.some.injEq]
      by_cases hr : z = r
      · subst hr
        simp only [if_true, if_pos hz.symm]
        exact ⟨trivial, trivial⟩
      · simp only [if_neg hr, if_neg (fun e : r = z => hr e.symm), utcOffset_some hvz, pyOk_bind, utcOffset_def]
        by_cases he : p.off = r.off
        · have : checkOffset r.off = .ok () := by
            unfold checkOffset usPerDay
            rw [← he]
            exact if_pos ⟨hv.1, hv.2⟩
          simp only [this, pyOk_bind, hz, he, if_true]
          exact ⟨trivial, trivial⟩
        · cases hc : checkOffset r.off with
          | error e => simp only [pyErr_bind, if_neg he]; exact ⟨trivial, trivial⟩
          | ok _ => simp only [pyOk_bind, hz, if_neg he, if_neg (Ne.symm he)]; exact ⟨trivial, trivial⟩
  exact ⟨((key p rfl).1).trans ((key q h.symm).1).symm, ((key p rfl).2).trans ((key q h.symm).2).symm⟩

theorem sub_zone (C : Cal) (x y : DT) (p q : Tz) (h : p.off = q.off) (hv : ValidOff p.off) :
    C.dtSub (x.within p) y = C.dtSub (x.within q) y ∧ C.dtSub y (x.within p) = C.dtSub y (x.within q) := by
  unfold Cal.dtSub
  constructor
  · show (C.toOrdinal x.d >>= fun m => C.toOrdinal y.d >>= fun n => _) = (C.toOrdinal x.d >>= fun m => C.toOrdinal y.d >>= fun n => _)
    congr 1; funext m; congr 1; funext n
    exact (subOff_zone x y _ p q h hv).1
  · show (C.toOrdinal y.d >>= fun m => C.toOrdinal x.d >>= fun n => _) = (C.toOrdinal y.d >>= fun m => C.toOrdinal x.d >>= fun n => _)
    congr 1; funext m; congr 1; funext n
    exact (subOff_zone x y _ p q h hv).2

theorem cmp_zone (C : Cal) (x y : DT) (p q : Tz) (h : p.off = q.off) (hv : ValidOff p.off) (mixed : Bool) :
    C.dtCmp (x.within p) y mixed = C.dtCmp (x.within q) y mixed ∧
      C.dtCmp y (x.within p) mixed = C.dtCmp y (x.within q) mixed := by
  have hs : ∀ z : Tz, z.off = p.off → C.dtSub (x.within z) y = C.dtSub (x.within p) y ∧
      C.dtSub y (x.within z) = C.dtSub y (x.within p) :=
    fun z hz => by
      have := sub_zone C x y p z hz.symm hv
      exact ⟨this.1.symm, this.2.symm⟩
  have key : ∀ z : Tz, z.off = p.off → C.dtCmp (x.within z) y mixed = (match y.tz with
      | none => C.dtCmpOff (x.within p) y mixed (some p.off) none
      | some r => if p.off = r.off then .ok (tupleCmp x.cmpFields y.cmpFields) else (do
        checkOffset r.off
        C.dtCmpOff (x.within p) y mixed (some p.off) (some r.off))) ∧
      C.dtCmp y (x.within z) mixed = (match y.tz with
      | none => C.dtCmpOff y (x.within p) mixed none (some p.off)
      | some r => if p.off = r.off then .ok (tupleCmp y.cmpFields x.cmpFields) else (do
        checkOffset r.off
        C.dtCmpOff y (x.within p) mixed (some r.off) (some p.off))) := by
    intro z hz
    have hvz : ValidOff z.off := by rw [hz]; exact hv
    have hc1 : ∀ a b, C.dtCmpOff (x.within z) y mixed a b = C.dtCmpOff (x.within p) y mixed a b := by
      intro a b
      unfold Cal.dtCmpOff
      rw [(hs z hz).1]
      rfl
    have hc2 : ∀ a b, C.dtCmpOff y (x.within z) mixed a b = C.dtCmpOff y (x.within p) mixed a b := by
      intro a b
      unfold Cal.dtCmpOff
      rw [(hs z hz).2]
      rfl
    unfold Cal.dtCmp
    simp only [hc1, hc2]
    cases hy : y.tz with
    | none =>
      rw [if_neg (by simp), if_neg (by simp)]
      simp only [DT.within, utcOffset_some hvz, hz]
      exact ⟨rfl, rfl⟩
    | some r =>
      simp only [DT.within, Option.some.injEq]
      by_cases hr : z = r
      · subst hr
        simp only [if_true, if_pos hz.symm]
        exact ⟨rfl, rfl⟩
      · simp only [if_neg hr, if_neg (fun e : r = z => hr e.symm), utcOffset_some hvz, pyOk_bind, utcOffset_def]
        by_cases he : p.off = r.off
        · have : checkOffset r.off = .ok () := by
            unfold checkOffset usPerDay
            rw [← he]
            exact if_pos ⟨hv.1, hv.2⟩
          simp only [this, pyOk_bind, hz, he, if_true]
          unfold Cal.dtCmpOff
          simp only [if_true]
          exact ⟨rfl, rfl⟩
        · cases hc : checkOffset r.off with
          | error e => simp only [pyErr_bind, if_neg he]; exact ⟨trivial, trivial⟩
          | ok _ => simp only [pyOk_bind, hz, if_neg he]; exact ⟨trivial, trivial⟩
  exact ⟨((key p rfl).1).trans ((key q h.symm).1).symm, ((key p rfl).2).trans ((key q h.symm).2).symm⟩

theorem hash_zone (C : Cal) (H : PyHash) (x : DT) (p q : Tz) (h : p.off = q.off) :
    C.dtHash H (x.within p) = C.dtHash H (x.within q) := by
  have hoff : ∀ z : Tz, z.off = p.off → utcOffset (some z) = (do checkOffset p.off; .ok (some p.off)) := by
    intro z hz
    rw [utcOffset_def, hz]
  have key : ∀ z : Tz, z.off = p.off → C.dtHash H (x.within z) = (do
      if x.fold ≠ 0 then (do let _ ← C.replaceDT (x.within p) { t := { fold := some 0 } }; (.ok () : Py Unit)) else .ok ()
      checkOffset p.off
      let days ← C.ymd2ord x.d.ymd.1 x.d.ymd.2.1 x.d.ymd.2.2
      .ok (H.delta (days * usPerDay + x.tod - p.off))) := by
    intro z hz
    unfold Cal.dtHash Cal.dtNoFold
    by_cases hf : x.fold = 0
    · rw [if_neg (by simpa [DT.within] using hf), if_neg (by simpa using hf), pyOk_bind, pyOk_bind]
      simp only [DT.within, hoff z hz]
      cases checkOffset p.off with
      | error e => rfl
      | ok _ => rfl
    · rw [if_pos (by simpa [DT.within] using hf), if_pos (by simpa using hf)]
      have hn : ∀ w : Tz, ∀ d : DateObj, C.newDT ⟨d, x.h, x.mi, x.s, x.us, some w, 0⟩ = (do
          let _ ← C.newDate d
          checkTimeFields x.h x.mi x.s x.us 0
          .ok ⟨d, x.h, x.mi, x.s, x.us, some w, 0⟩) := fun w d => rfl
      have hr : ∀ w : Tz, ∃ e : Py Unit, ∃ d : DateObj, ∀ w : Tz, C.replaceDT (x.within w) { t := { fold := some 0 } } =
          (do e; .ok ⟨d, x.h, x.mi, x.s, x.us, some w, 0⟩) := by
        intro w
        cases hd : x.d with
        | short y m d =>
          refine ⟨(do let _ ← C.newDate (.short y m d); checkTimeFields x.h x.mi x.s x.us 0), .short y m d, fun w => ?_⟩
          unfold Cal.replaceDT
          simp only [hd, pyTruthy, Option.getD_none, Option.getD_some]
          simp only [Bool.or_self, Bool.false_eq_true, if_false]
          rw [hn w]
          cases C.newDate (.short y m d) with
          | error e => rfl
          | ok _ => rfl
        | long k v y m d =>
          refine ⟨(do let _ ← C.newDate (.long k v y m d); checkTimeFields x.h x.mi x.s x.us 0), .long k v y m d, fun w => ?_⟩
          unfold Cal.replaceDT
          simp only [hd, Option.any_none, Option.getD_none, Option.getD_some]
          simp only [Bool.false_eq_true, if_false]
          rw [hn w]
          cases C.newDate (.long k v y m d) with
          | error e => rfl
          | ok _ => rfl
      obtain ⟨e, d, he⟩ := hr p
      rw [he z, he p]
      cases e with
      | error e => rfl
      | ok _ =>
        simp only [pyOk_bind, hoff z hz]
        cases checkOffset p.off with
        | error e => rfl
        | ok _ => rfl
  rw [key p rfl, key q h.symm]

/-! ## C101 -/

/-- C101, comparing, subtracting and hashing: a datetime and the same one with an equal zone give the same answer to every
comparison and difference with any other object, on either side, and have the same hash and the same timestamp. Missing
from the full property: `fromtimestamp`, where it is false, see `C101_fromtimestamp_negation`. -/
theorem C101_objects_partial (C : Cal) (H : PyHash) (x y : DT) (p q u : Tz) (h : p.off = q.off) (hv : ValidOff p.off) :
    (C.dtEq (x.within p) y = C.dtEq (x.within q) y ∧ C.dtEq y (x.within p) = C.dtEq y (x.within q)) ∧
    (C.dtLt (x.within p) y = C.dtLt (x.within q) y ∧ C.dtLt y (x.within p) = C.dtLt y (x.within q)) ∧
    (C.dtLe (x.within p) y = C.dtLe (x.within q) y ∧ C.dtLe y (x.within p) = C.dtLe y (x.within q)) ∧
    (C.dtGt (x.within p) y = C.dtGt (x.within q) y ∧ C.dtGt y (x.within p) = C.dtGt y (x.within q)) ∧
    (C.dtGe (x.within p) y = C.dtGe (x.within q) y ∧ C.dtGe y (x.within p) = C.dtGe y (x.within q)) ∧
    (C.dtSub (x.within p) y = C.dtSub (x.within q) y ∧ C.dtSub y (x.within p) = C.dtSub y (x.within q)) ∧
    C.dtHash H (x.within p) = C.dtHash H (x.within q) ∧
    C.awareTimestampUs (x.within p) u = C.awareTimestampUs (x.within q) u := by
  have t := cmp_zone C x y p q h hv true
  have f := cmp_zone C x y p q h hv false
  unfold Cal.dtEq Cal.dtLt Cal.dtLe Cal.dtGt Cal.dtGe Cal.awareTimestampUs
  rw [t.1, t.2, f.1, f.2]
  exact ⟨⟨rfl, rfl⟩, ⟨rfl, rfl⟩, ⟨rfl, rfl⟩, ⟨rfl, rfl⟩, ⟨rfl, rfl⟩, sub_zone C x y p q h hv, hash_zone C H x p q h,
    (sub_zone C x _ p q h hv).1⟩

/-- Non-vacuity: two different zone objects with equal offsets, one of them that of Tehran. -/
example : (⟨1, 12600000000⟩ : Tz) ≠ ⟨7, 12600000000⟩ ∧ ValidOff 12600000000 := by
  constructor
  · decide
  · constructor <;> norm_num

/-- A zone of three and a half hours at longitude 60 degrees east. -/
def eastZone : CoordZone := ⟨35, 60, some (7 / 2), [], (35, 60, some (7 / 2)), 12600000000, none⟩

/-- The zone is the one that the constructor makes. -/
example : newCoordZone (fun h => ⌊h * 3600000000⌋) 35 60 (some (7 / 2)) none = .ok eastZone := by decide +kernel

/-- C101 is false for `fromtimestamp`: the zone at longitude 60 and the fixed zone of the same offset are equal, and the
datetimes of one timestamp in them are not (they are 35 minutes apart). -/
theorem C101_fromtimestamp_negation :
    ∃ (A : Astro) (t : ℚ) (a b : StampZone) (x y : DT), TehranEvening A ∧ a.eq b = true ∧
      (Cal.init A).fromTimestamp (tehranLat, tehranLon, 7 / 2) t a true = .ok x ∧
      (Cal.init A).fromTimestamp (tehranLat, tehranLon, 7 / 2) t b true = .ok y ∧
      (Cal.init A).dtEq x y = .ok false := by
  refine ⟨sixPm, 1763000000, .plain ⟨7, 12600000000⟩, .coord 8 eastZone,
    ⟨.short 182 13 11, 11, 38, 29, 288400, some ⟨7, 12600000000⟩, 0⟩,
    ⟨.short 182 13 11, 12, 13, 19, 999200, some ⟨8, 12600000000⟩, 0⟩, sixPm_tehran, ?_⟩
  decide +kernel

end Verif
