import Verif.Model.ZoneState
import Verif.Props.StructTime
import Verif.Props.TimeZone

/-!
# C87: what a zone with coordinates answers after other zones were made
-/

namespace Verif

/-- The call hands a `ZoneInfo` to the class. -/
def ZoneCall.IsInfo : ZoneCall → Prop
  | .fromInfo _ _ _ _ => True
  | _ => False

theorem keep_info (w : ZoneWorld) (r : Py CoordZone) : (w.keep r).info = w.info := by cases r <;> rfl

theorem call_info {hours : ℚ → ℤ} {w : ZoneWorld} {c : ZoneCall} (h : ¬ c.IsInfo) : (w.call hours c).info = w.info := by
  cases c with
  | make lat lon zone key => exact keep_info _ _
  | fromInfo zi lat lon zone => exact absurd trivial h
  | load z => exact keep_info _ _

theorem calls_info {hours : ℚ → ℤ} {cs : List ZoneCall} (h : ∀ c ∈ cs, ¬ c.IsInfo) (w : ZoneWorld) :
    (w.calls hours cs).info = w.info := by
  induction cs generalizing w with
  | nil => rfl
  | cons c cs ih =>
    show (ZoneWorld.calls hours (w.call hours c) cs).info = w.info
    rw [ih (fun d hd => h d (List.mem_cons_of_mem _ hd)), call_info (h c List.mem_cons_self)]

theorem calls_append (hours : ℚ → ℤ) (w : ZoneWorld) (cs ds : List ZoneCall) :
    w.calls hours (cs ++ ds) = (w.calls hours cs).calls hours ds := by
  unfold ZoneWorld.calls
  rw [List.foldl_append]

theorem zoneStart_info (hours : ℚ → ℤ) : (zoneStart hours).info = none :=
  calls_info (cs := startCalls) (by simp [startCalls, ZoneCall.IsInfo]) _

theorem fromInfo_info (hours : ℚ → ℤ) (w : ZoneWorld) (zi : ZoneInfo) (lat lon : ℚ) (zone : Option ℚ) :
    (w.call hours (.fromInfo zi lat lon zone)).info = some zi := keep_info _ _

theorem last_info {hours : ℚ → ℤ} (w : ZoneWorld) (pre : List ZoneCall) (zi : ZoneInfo) (lat lon : ℚ) (zone : Option ℚ)
    {post : List ZoneCall} (h : ∀ c ∈ post, ¬ c.IsInfo) :
    (w.calls hours (pre ++ .fromInfo zi lat lon zone :: post)).info = some zi := by
  rw [calls_append]
  show (ZoneWorld.calls hours ((w.calls hours pre).call hours (.fromInfo zi lat lon zone)) post).info = some zi
  rw [calls_info h, fromInfo_info]

theorem keep_made (w : ZoneWorld) (r : Py CoordZone) : w.made <+: (w.keep r).made := by
  cases r with
  | error e => exact List.prefix_rfl
  | ok z => exact List.prefix_append _ _

theorem call_made (hours : ℚ → ℤ) (w : ZoneWorld) (c : ZoneCall) : w.made <+: (w.call hours c).made := by
  cases c with
  | make lat lon zone key => exact keep_made _ _
  | fromInfo zi lat lon zone => exact keep_made (ZoneWorld.mk (some zi) w.made) _
  | load z => exact keep_made _ _

theorem calls_made (hours : ℚ → ℤ) (w : ZoneWorld) (cs : List ZoneCall) : w.made <+: (w.calls hours cs).made := by
  induction cs generalizing w with
  | nil => exact List.prefix_rfl
  | cons c cs ih => exact (call_made hours w c).trans (ih _)

theorem dst_none {w : ZoneWorld} (h : w.info = none) (z : CoordZone) (dt : Option DT) : z.dst w dt = 0 := by
  unfold CoordZone.dst
  rw [h]

theorem dst_some {w : ZoneWorld} {zi : ZoneInfo} (h : w.info = some zi) (z : CoordZone) (dt : Option DT) :
    z.dst w dt = (zi.dst dt).getD 0 := by
  unfold CoordZone.dst
  rw [h]
  simp only
  cases zi.dst dt with
  | none => rfl
  | some d =>
    simp only [Option.getD_some]
    split_ifs with h
    · exact h.symm
    · rfl

/-- C87: the objects made stay what they are. Whatever is called afterwards, the `i`th zone of the program reports the same
offset, name and coordinates. -/
theorem C87_fixed_parts (hours : ℚ → ℤ) (w : ZoneWorld) (cs : List ZoneCall) (i : ℕ) (z : CoordZone)
    (h : w.made[i]? = some z) :
    ∃ z', (w.calls hours cs).made[i]? = some z' ∧ (∀ dt, z'.utcoffset dt = z.utcoffset dt) ∧ z'.tzName = z.tzName ∧
      z'.coords = z.coords ∧ z'.key = z.key := by
  obtain ⟨t, ht⟩ := calls_made hours w cs
  refine ⟨z, ?_, fun _ => rfl, rfl, rfl, rfl⟩
  rw [← ht, List.getElem?_append_left (List.getElem?_eq_some_iff.mp h).1]
  exact h

/-- `UTC` is the first object of the module. -/
example : ∃ z, (zoneStart (fun q => if q = 0 then 0 else 12600000000)).made[0]? = some z ∧ z.tzName = "UTC".toList := by
  refine ⟨⟨gmtLat, gmtLon, some 0, "UTC".toList, (gmtLat, gmtLon, some 0), 0, some "UTC".toList⟩, ?_, rfl⟩
  have e : newCoordZone (fun q => if q = 0 then 0 else 12600000000) gmtLat gmtLon (some 0) (some "UTC".toList) =
      .ok ⟨gmtLat, gmtLon, some 0, "UTC".toList, (gmtLat, gmtLon, some 0), 0, some "UTC".toList⟩ := by
    unfold newCoordZone
    simp [newZone, coordOffset, pyOk_bind]
  unfold zoneStart startCalls ZoneWorld.calls
  simp only [List.foldl, ZoneWorld.call, ZoneCall.result, e, ZoneWorld.keep, List.nil_append]
  cases newCoordZone (fun q => if q = 0 then 0 else 12600000000) tehranLat tehranLon (some tehranZone)
    (some "Asia/Tehran".toList) <;> rfl

/-- C87: in a program that never calls `fromzoneinfo`, no zone ever reports daylight saving time. -/
theorem C87_plain (hours : ℚ → ℤ) (cs : List ZoneCall) (h : ∀ c ∈ cs, ¬ c.IsInfo) (z : CoordZone) (dt : Option DT) :
    z.dst ((zoneStart hours).calls hours cs) dt = 0 :=
  dst_none ((calls_info h _).trans (zoneStart_info hours)) z dt

example : ∀ c ∈ [ZoneCall.make 41 (-74) (some (-5)) none], ¬ c.IsInfo := by simp [ZoneCall.IsInfo]

/-- C87: a zone made by `fromzoneinfo` reports the daylight saving time of its own `ZoneInfo` until the next call of
`fromzoneinfo`. Missing from the full property: afterwards, where it is false (below). -/
theorem C87_own_partial (hours : ℚ → ℤ) (pre post : List ZoneCall) (zi : ZoneInfo) (lat lon : ℚ) (zone : Option ℚ)
    (z : CoordZone) (hz : (ZoneCall.fromInfo zi lat lon zone).result hours = .ok z) (h : ∀ c ∈ post, ¬ c.IsInfo) :
    z ∈ ((zoneStart hours).calls hours (pre ++ .fromInfo zi lat lon zone :: post)).made ∧
      z.coords = (lat, lon, zone) ∧ z.key = zi.key ∧
      ∀ dt, z.dst ((zoneStart hours).calls hours (pre ++ .fromInfo zi lat lon zone :: post)) dt = (zi.dst dt).getD 0 := by
  refine ⟨?_, ?_, ?_, fun dt => dst_some (last_info _ pre zi lat lon zone h) z dt⟩
  · rw [calls_append]
    refine (calls_made hours _ post).subset ?_
    show z ∈ (ZoneWorld.call hours _ (.fromInfo zi lat lon zone)).made
    unfold ZoneWorld.call
    simp only [hz, ZoneWorld.keep]
    exact List.mem_append_right _ List.mem_cons_self
  · obtain ⟨o, -, e⟩ := coordZone_inv hz
    rw [e]
  · obtain ⟨o, -, e⟩ := coordZone_inv hz
    rw [e]
    rfl

/-- A zone an hour ahead in summer. -/
def summerInfo : ZoneInfo := ⟨"Europe/Paris".toList, fun _ => some 3600000000⟩
/-- A zone without summer time. -/
def plainInfo : ZoneInfo := ⟨"Asia/Tokyo".toList, fun _ => some 0⟩

example : ∃ z, (ZoneCall.fromInfo summerInfo 48 2 (some 1)).result (fun _ => 3600000000) = .ok z := ⟨_, rfl⟩

/-- C87 is false: after `fromzoneinfo` every zone of the program, however it was made and at whatever place, reports the
daylight saving time of the `ZoneInfo` passed last, even if the call that passed it was refused. -/
theorem C87_shared_negation (hours : ℚ → ℤ) (pre post : List ZoneCall) (zi : ZoneInfo) (lat lon : ℚ) (zone : Option ℚ)
    (h : ∀ c ∈ post, ¬ c.IsInfo) (z : CoordZone) (dt : Option DT) :
    z.dst ((zoneStart hours).calls hours (pre ++ .fromInfo zi lat lon zone :: post)) dt = (zi.dst dt).getD 0 :=
  dst_some (last_info _ pre zi lat lon zone h) z dt

example : ∀ c ∈ ([.make 41 (-74) (some (-5)) none] : List ZoneCall), ¬ c.IsInfo := by simp [ZoneCall.IsInfo]

/-- C87 is false of `UTC` itself: the first call of `fromzoneinfo` with a `ZoneInfo` that has daylight saving time at `dt`
changes what every zone made before reports for `dt`. -/
theorem C87_utc_negation (hours : ℚ → ℤ) (cs : List ZoneCall) (h : ∀ c ∈ cs, ¬ c.IsInfo) (zi : ZoneInfo) (lat lon : ℚ)
    (zone : Option ℚ) (dt : Option DT) (k : ℤ) (hk : k ≠ 0) (hd : zi.dst dt = some k) (i : ℕ) (z : CoordZone)
    (hi : ((zoneStart hours).calls hours cs).made[i]? = some z) :
    ∃ w', w' = ((zoneStart hours).calls hours cs).call hours (.fromInfo zi lat lon zone) ∧ w'.made[i]? = some z ∧
      z.dst ((zoneStart hours).calls hours cs) dt = 0 ∧ z.dst w' dt = k ∧
      z.dst w' dt ≠ z.dst ((zoneStart hours).calls hours cs) dt := by
  refine ⟨_, rfl, ?_, C87_plain hours cs h z dt, ?_, ?_⟩
  · obtain ⟨t, ht⟩ := call_made hours ((zoneStart hours).calls hours cs) (.fromInfo zi lat lon zone)
    rw [← ht, List.getElem?_append_left (List.getElem?_eq_some_iff.mp hi).1]
    exact hi
  · rw [dst_some (fromInfo_info hours _ zi lat lon zone), hd]
    rfl
  · rw [dst_some (fromInfo_info hours _ zi lat lon zone), hd, C87_plain hours cs h z dt]
    exact hk

example : summerInfo.dst none = some 3600000000 ∧ (3600000000 : ℤ) ≠ 0 := ⟨rfl, by decide⟩

/-- C87 is false of zones with a `ZoneInfo`: the second call of `fromzoneinfo` takes the daylight saving time of the zone made
by the first. -/
theorem C87_two_zones_negation (hours : ℚ → ℤ) (pre : List ZoneCall) (zi zj : ZoneInfo) (lat lon lat' lon' : ℚ)
    (zone zone' : Option ℚ) (z : CoordZone) (hz : (ZoneCall.fromInfo zi lat lon zone).result hours = .ok z) (dt : Option DT)
    (hne : (zi.dst dt).getD 0 ≠ (zj.dst dt).getD 0) :
    z.dst ((zoneStart hours).calls hours (pre ++ [.fromInfo zi lat lon zone])) dt = (zi.dst dt).getD 0 ∧
      z.dst ((zoneStart hours).calls hours (pre ++ [.fromInfo zi lat lon zone, .fromInfo zj lat' lon' zone'])) dt ≠
        (zi.dst dt).getD 0 := by
  constructor
  · exact (C87_own_partial hours pre [] zi lat lon zone z hz (by simp)).2.2.2 dt
  · have : pre ++ [.fromInfo zi lat lon zone, .fromInfo zj lat' lon' zone'] =
        (pre ++ [.fromInfo zi lat lon zone]) ++ .fromInfo zj lat' lon' zone' :: [] := by simp
    rw [this, C87_shared_negation hours _ [] zj lat' lon' zone' (by simp)]
    exact fun e => hne e.symm

example : (summerInfo.dst none).getD 0 ≠ (plainInfo.dst none).getD 0 := by
  show (3600000000 : ℤ) ≠ 0
  decide

/-- C87, the visible effect: `timetuple()` of a datetime in a zone with coordinates, say `UTC`, has `tm_isdst` 0 before and 1
after a call of `fromzoneinfo` for another place. -/
theorem C87_isdst_negation (A : Astro) (hE : TehranEvening A) (hO : NewYearOrder (Cal.init A)) (x : DT) (n : ℤ)
    (hx : IsDT (Cal.init A) x n) (hc : x.d.isShort = true ∨ OrdinaryClock x) (hours : ℚ → ℤ) (cs : List ZoneCall)
    (h : ∀ c ∈ cs, ¬ c.IsInfo) (id : ℕ) (z : CoordZone) (hz : x.tz = some ⟨id, z.off⟩) (zi : ZoneInfo) (lat lon : ℚ)
    (zone : Option ℚ) (k : ℤ) (hk : k ≠ 0) (hd : zi.dst (some x) = some k) :
    ∃ s t, (Cal.init A).dtTimetuple x (some (z.seen ((zoneStart hours).calls hours cs) id x)) = .ok s ∧ s.isdst = 0 ∧
      (Cal.init A).dtTimetuple x
        (some (z.seen (((zoneStart hours).calls hours cs).call hours (.fromInfo zi lat lon zone)) id x)) = .ok t ∧
      t.isdst = 1 := by
  obtain ⟨s, hs, h1, -, h2⟩ := C67_timetuple_partial A hE hO x n hx hc
    (some (z.seen ((zoneStart hours).calls hours cs) id x)) hz
  obtain ⟨t, ht, h3, -, h4⟩ := C67_timetuple_partial A hE hO x n hx hc
    (some (z.seen (((zoneStart hours).calls hours cs).call hours (.fromInfo zi lat lon zone)) id x)) hz
  refine ⟨s, t, hs, ?_, ht, ?_⟩
  · rw [(h2 _ rfl).2.2]
    simp only [CoordZone.seen, Option.elim_some, C87_plain hours cs h z (some x), if_true]
  · rw [(h4 _ rfl).2.2]
    simp only [CoordZone.seen, Option.elim_some]
    rw [dst_some (fromInfo_info hours _ zi lat lon zone), hd, Option.getD_some, if_neg hk]

example : IsDT (Cal.init newYearSun) (witnessDT (some utcZone.tz) 0) 739675 ∧
    (witnessDT (some utcZone.tz) 0).tz = some ⟨0, 0⟩ ∧ summerInfo.dst (some (witnessDT (some utcZone.tz) 0)) = some 3600000000 :=
  ⟨witnessDT_is _ (Or.inl rfl), rfl, rfl⟩

end Verif
