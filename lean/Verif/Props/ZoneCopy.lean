import Verif.Model.ZoneCopy
import Verif.Props.TimeZone
import Verif.Lemmas.Text

/-!
# C104 copies of a fixed offset zone, C105 offsets from Tehran
-/

namespace Verif

/-- The zone is an object made by `timezone(off)` or `timezone(off, name)`, not `timezone.utc`. -/
def MadeZone (z : Zone) : Prop :=
  z.id ≠ 0 ∧ ∃ f off name, newZone f off name = .ok z

/-- What a copy has to be: an object of its own with the offset and the name, that leaves `timezone.utc` as it is. -/
def FaithfulCopy (z c : Zone) (utc utc' : Zone) : Prop :=
  c.off = z.off ∧ c.name = z.name ∧ c.id ≠ utc.id ∧ utc' = utc

/-- When copies are faithful: the name is not empty, or the slots are copied and the offset is not zero. -/
def CopyKept (slots : Bool) (z : Zone) : Prop :=
  z.name ≠ some [] ∨ (slots = true ∧ z.off ≠ 0)

theorem madeZone_fields {z : Zone} (h : MadeZone z) :
    -86400000000 < z.off ∧ z.off < 86400000000 ∧ ¬ (z.name = none ∧ z.off = 0) := by
  obtain ⟨h0, f, off, name, h⟩ := h
  unfold newZone at h
  split_ifs at h with h1 h2
  · rw [← Except.ok.inj h] at h0
    exact absurd rfl h0
  · rw [← Except.ok.inj h]
    exact ⟨by simp only []; omega, by simp only []; omega, h1⟩

theorem zoneCopy_new (slots : Bool) (utc z : Zone) (fresh : ℕ) (hz : MadeZone z) (hf : fresh ≠ utc.id)
    (hk : ¬ (z.name = some [] ∧ z.off = 0)) :
    zoneCopy slots utc fresh z =
      .ok (⟨fresh, z.off, if slots then z.name else (zoneInitArgs z).2⟩, utc) := by
  obtain ⟨h1, h2, h3⟩ := madeZone_fields hz
  have hn : newZoneIn utc fresh (zoneInitArgs z).1 (zoneInitArgs z).2 = .ok ⟨fresh, z.off, (zoneInitArgs z).2⟩ := by
    have hc : ¬ ((zoneInitArgs z).2 = none ∧ (zoneInitArgs z).1 = 0) := by
      rintro ⟨a, b⟩
      have b' : z.off = 0 := b
      unfold zoneInitArgs at a
      rcases hx : z.name with _ | _ | ⟨c, s⟩
      · exact h3 ⟨hx, b'⟩
      · exact hk ⟨hx, b'⟩
      · rw [hx] at a; simp at a
    rw [newZoneIn, if_neg hc, newZone, if_neg hc, if_pos ⟨by simp only [zoneInitArgs]; omega, by simp only [zoneInitArgs]; omega⟩]
    rfl
  unfold zoneCopy
  rw [hn, pyOk_bind]
  cases slots
  · simp [putSlots, hf]
  · simp [putSlots, hf]

theorem initArgs_name (z : Zone) : (zoneInitArgs z).2 = z.name ↔ z.name ≠ some [] := by
  unfold zoneInitArgs
  rcases hx : z.name with _ | _ | ⟨c, s⟩ <;> simp

/-- Copying a zone made by the constructor never raises. The copy has the offset of the zone, is equal to it and
has its name, and `timezone.utc` stays as it is, exactly when the name is not empty or, from Python 3.11 on, the offset is not
zero. -/
theorem C104_copy_partial (slots : Bool) (utc z : Zone) (fresh : ℕ) (hz : MadeZone z) (hf : fresh ≠ utc.id) :
    ∃ c utc', zoneCopy slots utc fresh z = .ok (c, utc') ∧ (FaithfulCopy z c utc utc' ↔ CopyKept slots z) ∧
      (CopyKept slots z → zoneEq z c = true ∧ tzName c = tzName z) := by
  by_cases hk : z.name = some [] ∧ z.off = 0
  · have hn : newZoneIn utc fresh (zoneInitArgs z).1 (zoneInitArgs z).2 = .ok utc := by
      rw [newZoneIn, if_pos ⟨by rw [zoneInitArgs, hk.1], hk.2⟩]
    refine ⟨putSlots slots z utc, putSlots slots z utc, ?_, ?_, ?_⟩
    · unfold zoneCopy
      rw [hn, pyOk_bind]
      cases slots <;> simp [putSlots]
    · constructor
      · rintro ⟨-, -, h, -⟩
        exact absurd (by cases slots <;> rfl) h
      · rintro (h | ⟨-, h⟩)
        · exact absurd hk.1 h
        · exact absurd hk.2 h
    · rintro (h | ⟨-, h⟩)
      · exact absurd hk.1 h
      · exact absurd hk.2 h
  · refine ⟨_, _, zoneCopy_new slots utc z fresh hz hf hk, ?_, ?_⟩
    · constructor
      · rintro ⟨-, h, -, -⟩
        cases slots
        · exact Or.inl ((initArgs_name z).1 h)
        · by_cases hx : z.name = some []
          · exact Or.inr ⟨rfl, fun h0 => hk ⟨hx, h0⟩⟩
          · exact Or.inl hx
      · intro h
        refine ⟨rfl, ?_, hf, rfl⟩
        cases slots
        · rcases h with h | ⟨h, -⟩
          · exact (initArgs_name z).2 h
          · exact absurd h (by simp)
        · rfl
    · intro h
      have e : (if slots then z.name else (zoneInitArgs z).2) = z.name := by
        cases slots
        · rcases h with h | ⟨h, -⟩
          · exact (initArgs_name z).2 h
          · exact absurd h (by simp)
        · rfl
      rw [e]
      exact ⟨by simp [zoneEq], rfl⟩

example : MadeZone ⟨5, -18000000000, some "EST".toList⟩ ∧ CopyKept false ⟨5, -18000000000, some "EST".toList⟩ :=
  ⟨⟨by decide, 5, -18000000000, some "EST".toList, by decide⟩, Or.inl (by decide)⟩

/-- After any number of copies of zones with names that are kept `timezone.utc` is what it was, and each copy has the offset and the
name of its zone. -/
theorem C104_copies_partial (slots : Bool) (utc : Zone) (zs : List Zone) (fresh : ℕ) (hf : utc.id < fresh)
    (hz : ∀ z ∈ zs, MadeZone z ∧ CopyKept slots z) :
    ∃ cs, zoneCopies slots utc fresh zs = .ok (cs, utc) ∧
      cs.map (fun c => (c.off, tzName c)) = zs.map (fun z => (z.off, tzName z)) := by
  induction zs generalizing fresh with
  | nil => exact ⟨[], rfl, rfl⟩
  | cons z zs ih =>
    obtain ⟨hm, hk⟩ := hz z (by simp)
    obtain ⟨c, u, e, hiff, hn⟩ := C104_copy_partial slots utc z fresh hm (by omega)
    obtain ⟨ho, -, -, hu⟩ := hiff.2 hk
    obtain ⟨cs, e', hl⟩ := ih (fresh + 1) (by omega) (fun w hw => hz w (by simp [hw]))
    refine ⟨c :: cs, ?_, ?_⟩
    · rw [zoneCopies, e, pyOk_bind]
      simp only []
      rw [hu, e', pyOk_bind]
    · rw [List.map_cons, List.map_cons, hl, ho, (hn hk).2]

example : ∀ z ∈ [(⟨5, -18000000000, some "EST".toList⟩ : Zone), ⟨6, 12600000000, none⟩], MadeZone z ∧ CopyKept true z := by
  intro z hz
  simp only [List.mem_cons, List.not_mem_nil, or_false] at hz
  rcases hz with rfl | rfl
  · exact ⟨⟨by decide, 5, -18000000000, some "EST".toList, by decide⟩, Or.inl (by decide)⟩
  · exact ⟨⟨by decide, 6, 12600000000, none, by decide⟩, Or.inl (by decide)⟩

/-- From Python 3.11 on a copy of `timezone(timedelta(0), '')` is `timezone.utc` itself, which from then on has the empty name for the
whole program. -/
theorem C104_utc_negation :
    ∃ z, MadeZone z ∧ tzName utcZone = "UTC".toList ∧
      ∃ c utc', zoneCopy true utcZone 9 z = .ok (c, utc') ∧ c = utc' ∧ utc'.id = utcZone.id ∧ tzName utc' = [] :=
  ⟨⟨5, 0, some []⟩, ⟨by decide, 5, 0, some [], by decide⟩, by decide, ⟨0, 0, some []⟩, ⟨0, 0, some []⟩, by decide, rfl, rfl, rfl⟩

/-- In Python 3.10 a copy of a zone with the empty name has another name. -/
theorem C104_name_negation :
    ∃ z, MadeZone z ∧ tzName z = [] ∧
      ∃ c utc', zoneCopy false utcZone 9 z = .ok (c, utc') ∧ tzName c = "UTC-05:00".toList :=
  ⟨⟨5, -18000000000, some []⟩, ⟨by decide, 5, -18000000000, some [], by decide⟩, rfl, ⟨9, -18000000000, none⟩, utcZone,
    by decide, by decide⟩

/-! ## C105 -/

/-- `badioffset` of a zone is its UTC offset less that of Tehran: zero exactly for the zones equal to `timezone.badi`, with the same
differences as the UTC offsets; `time.badioffset` is that of the zone of the time, and `None` without one. -/
theorem C105_tehran (f f' : ℕ) (o o' : ℤ) (n n' : Option Str) (z z' : Zone) (dt dt' : Option DT)
    (h : newZone f o n = .ok z) (h' : newZone f' o' n' = .ok z') :
    zoneBadiOffset z dt = o - zoneUtcOffset badiZone dt ∧
      (zoneBadiOffset z dt = 0 ↔ zoneEq z badiZone = true) ∧
      zoneBadiOffset z dt - zoneBadiOffset z' dt' = o - o' ∧
      ∀ t : TimeObj, ({ t with tz := some z.tz } : TimeObj).badiOffset = .ok (some (zoneBadiOffset z dt)) ∧
        ({ t with tz := none } : TimeObj).badiOffset = .ok none := by
  have hb : newZone 1 12600000000 (some "Asia/Tehran".toList) = .ok badiZone := by decide
  have e1 := C28_eq_hash f 1 o 12600000000 n _ z badiZone ⟨fun _ => 0, fun _ => 0, fun _ => 0⟩ h hb
  have e2 := C28_eq_hash f f' o o' n n' z z' ⟨fun _ => 0, fun _ => 0, fun _ => 0⟩ h h'
  have ho : z.off = o := (e2.2.2 none none).1
  have ho' : z'.off = o' := (e2.2.2 none none).2
  refine ⟨by rw [zoneBadiOffset, ho]; rfl, ?_, by rw [zoneBadiOffset, zoneBadiOffset, ho, ho']; ring, fun t => ⟨?_, rfl⟩⟩
  · rw [e1.1, zoneBadiOffset, ho]
    omega
  · have hr : -86400000000 < o ∧ o < 86400000000 := by
      by_contra hr
      rw [(C28_accepts f o n).2 hr] at h
      exact absurd h (by simp)
    have : utcOffset (some z.tz) = .ok (some z.off) := by
      have hc : checkOffset z.off = .ok () := by
        unfold checkOffset
        rw [if_pos]
        simp only [usPerDay]
        rw [ho]
        omega
      show (do checkOffset z.off; .ok (some z.off)) = _
      rw [hc]
      rfl
    simp only [TimeObj.badiOffset, this, pyOk_bind]
    rfl

example : ∃ z, newZone 5 (-18000000000) none = .ok z ∧ zoneBadiOffset z none = -30600000000 := ⟨⟨5, -18000000000, none⟩, by decide, by decide⟩

/-- `badioffset` is an offset that `timezone` accepts exactly for the zones east of UTC-20:30, so for every zone in use. -/
theorem C105_legal_partial (f g : ℕ) (o : ℤ) (n m : Option Str) (z : Zone) (dt : Option DT) (h : newZone f o n = .ok z) :
    (∃ w, newZone g (zoneBadiOffset z dt) m = .ok w) ↔ -73800000000 < o := by
  have ho : z.off = o := by
    have := (C28_eq_hash f f o o n n z z ⟨fun _ => 0, fun _ => 0, fun _ => 0⟩ h h).2.2 none none
    exact this.1
  have hr : -86400000000 < o ∧ o < 86400000000 := by
    by_contra hr
    rw [(C28_accepts f o n).2 hr] at h
    exact absurd h (by simp)
  rw [zoneBadiOffset, ho]
  constructor
  · rintro ⟨w, hw⟩
    by_contra hc
    rw [(C28_accepts g _ m).2 (by omega)] at hw
    exact absurd hw (by simp)
  · intro hc
    obtain ⟨w, hw, -⟩ := (C28_accepts g (o - 12600000000) m).1 ⟨by omega, by omega⟩
    exact ⟨w, hw⟩

example : ∃ z, newZone 5 (-43200000000) none = .ok z := ⟨⟨5, -43200000000, none⟩, by decide⟩

/-- `badioffset` of `timezone(timedelta(hours=-21))` is -24:30, which `_check_offset` and `timezone` refuse. -/
theorem C105_legal_negation :
    ∃ z, newZone 5 (-75600000000) none = .ok z ∧ checkOffset (zoneBadiOffset z none) = .error .value ∧
      newZone 6 (zoneBadiOffset z none) none = .error .value :=
  ⟨⟨5, -75600000000, none⟩, by decide, by decide, by decide⟩

end Verif
