import Verif.Model.State
import Verif.Py.FloatLemmas

/-!
# C37, C38 and C48: what earlier calls leave behind
-/

namespace Verif

/-! ## C37 -/

/-- The value of one of the two angles. -/
def pickAngle : Angle → ℚ × ℚ → ℚ
  | .lon, p => p.1
  | .obl, p => p.2

/-- A call that the fresh cache cannot answer: not at time zero in radians. -/
def FillsCache (x : NutArgs) : Prop := x.2.1 ≠ 0 ∨ x.2.2 = true

/-- The cache entries are values of one computation. -/
def NutFilled (direct : ℚ → Bool → ℚ × ℚ) (c : NutCache) : Prop :=
  ∃ t d, c = ⟨(t, (direct t d).1, d), (t, (direct t d).2, d)⟩

theorem nutCall_filled {direct : ℚ → Bool → ℚ × ℚ} {c : NutCache} (h : NutFilled direct c) (a : Angle) (tc : ℚ)
    (deg : Bool) :
    (nutCall direct c a tc deg).1 = pickAngle a (direct tc deg) ∧ NutFilled direct (nutCall direct c a tc deg).2 := by
  obtain ⟨t, d, rfl⟩ := h
  by_cases hc : tc ≠ t ∨ deg ≠ d
  · cases a <;> simp only [nutCall, if_pos hc, pickAngle] <;> exact ⟨trivial, tc, deg, rfl⟩
  · have h1 : tc = t := by tauto
    have h2 : deg = d := by tauto
    subst h1 h2
    cases a <;> simp only [nutCall, if_neg hc, pickAngle] <;> exact ⟨trivial, tc, deg, rfl⟩

theorem nutCall_fresh {direct : ℚ → Bool → ℚ × ℚ} (a : Angle) (tc : ℚ) (deg : Bool) (h : FillsCache (a, tc, deg)) :
    (nutCall direct {} a tc deg).1 = pickAngle a (direct tc deg) ∧ NutFilled direct (nutCall direct {} a tc deg).2 := by
  have hc : tc ≠ 0 ∨ deg ≠ false := by
    rcases h with h | h
    · exact Or.inl h
    · right; simp only at h; rw [h]; decide
  cases a <;> simp only [nutCall, if_pos hc, pickAngle] <;> exact ⟨trivial, tc, deg, rfl⟩

theorem nutCall_zero {direct : ℚ → Bool → ℚ × ℚ} (a : Angle) : nutCall direct {} a 0 false = (0, {}) := by
  cases a <;> simp [nutCall]

theorem nutRun_filled {direct : ℚ → Bool → ℚ × ℚ} {c : NutCache} (h : NutFilled direct c) (calls : List NutArgs) :
    nutRun direct c calls = calls.map (fun x => pickAngle x.1 (direct x.2.1 x.2.2)) := by
  induction calls generalizing c with
  | nil => rfl
  | cons x rest ih =>
    obtain ⟨a, tc, deg⟩ := x
    obtain ⟨h1, h2⟩ := nutCall_filled h a tc deg
    rw [List.map_cons, ← ih h2, ← h1]
    rfl

theorem nutRun_zeros {direct : ℚ → Bool → ℚ × ℚ} (zs rest : List NutArgs) (h : ∀ x ∈ zs, ¬ FillsCache x) :
    nutRun direct {} (zs ++ rest) = zs.map (fun _ => 0) ++ nutRun direct {} rest := by
  induction zs with
  | nil => rfl
  | cons x zs ih =>
    obtain ⟨a, tc, deg⟩ := x
    have hx := h _ List.mem_cons_self
    simp only [FillsCache, not_or, not_not, Bool.not_eq_true] at hx
    obtain ⟨rfl, rfl⟩ := hx
    rw [List.cons_append, nutRun, nutCall_zero]
    simp only [List.map_cons, List.cons_append]
    rw [ih (fun y hy => h y (List.mem_cons_of_mem _ hy))]

/-- C37: after any calls, from the first one on that is not at time zero in radians, every result is the directly
computed value, whatever came before and in whatever order. Missing from the full property: calls at time zero in
radians before any other call, where it is false (below). -/
theorem C37_history_partial (direct : ℚ → Bool → ℚ × ℚ) (zs rest : List NutArgs) (x : NutArgs)
    (hz : ∀ y ∈ zs, ¬ FillsCache y) (hx : FillsCache x) :
    nutRun direct {} (zs ++ x :: rest) =
      zs.map (fun _ => 0) ++ (x :: rest).map (fun y => pickAngle y.1 (direct y.2.1 y.2.2)) := by
  rw [nutRun_zeros zs _ hz]
  obtain ⟨a, tc, deg⟩ := x
  obtain ⟨h1, h2⟩ := nutCall_fresh (direct := direct) a tc deg hx
  rw [List.map_cons, ← nutRun_filled h2, ← h1]
  rfl

example : FillsCache (.obl, 1 / 4, false) ∧ FillsCache (.lon, 0, true) ∧ ¬ FillsCache (.lon, 0, false) := by
  refine ⟨Or.inl (by norm_num), Or.inr rfl, ?_⟩
  rintro (h | h)
  · exact h rfl
  · exact absurd h (by decide)

/-- The sharpest corollary: a history without a call at time zero in radians gives only direct values. -/
theorem C37_history (direct : ℚ → Bool → ℚ × ℚ) (calls : List NutArgs) (h : ∀ x ∈ calls, FillsCache x) :
    nutRun direct {} calls = calls.map (fun y => pickAngle y.1 (direct y.2.1 y.2.2)) := by
  cases calls with
  | nil => rfl
  | cons x rest =>
    exact C37_history_partial direct [] rest x (by simp) (h _ List.mem_cons_self)

example : ∀ x ∈ ([(.obl, 1 / 4, false), (.lon, 1 / 4, false), (.lon, 0, true)] : List NutArgs), FillsCache x := by
  intro x hx
  simp only [List.mem_cons, List.not_mem_nil, or_false] at hx
  rcases hx with rfl | rfl | rfl
  · exact Or.inl (by norm_num)
  · exact Or.inl (by norm_num)
  · exact Or.inr rfl

/-- C37 is false on a fresh object: the initial cache entry answers a call at time zero (J2000) in radians with 0,
whatever the computed value is; and after another call the same call gives the computed value. -/
theorem C37_fresh_negation (direct : ℚ → Bool → ℚ × ℚ) (a : Angle) (x : NutArgs) (hx : FillsCache x)
    (hd : pickAngle a (direct 0 false) ≠ 0) :
    nutRun direct {} [(a, 0, false), x, (a, 0, false)] =
        [0, pickAngle x.1 (direct x.2.1 x.2.2), pickAngle a (direct 0 false)] ∧
      (0 : ℚ) ≠ pickAngle a (direct 0 false) := by
  refine ⟨?_, hd.symm⟩
  exact C37_history_partial direct [(a, 0, false)] [(a, 0, false)] x (by
    intro y hy
    simp only [List.mem_cons, List.not_mem_nil, or_false] at hy
    subst hy
    simp [FillsCache]) hx

example : pickAngle .lon ((fun _ _ => (-1 / 15000, 1 / 36000) : ℚ → Bool → ℚ × ℚ) 0 false) ≠ 0 := by
  norm_num [pickAngle]

/-! ## C38 -/

/-- What a parse gives without any caches. -/
def directParse {E R V : Type} (compile : E → Str → Option R) (run : R → E → Str → Py V) (now : E) (data fmt : Str) :
    Py V :=
  match compile now fmt with
  | none => .error .value
  | some r => run r now data

/-- Every regex in the cache is the one its key stands for. -/
def CacheSound {E R : Type} (compile : E → Str → Option R) (s : StrpState E R) : Prop :=
  ∀ f r, s.regex.lookup (.text f) = some r → compile s.env f = some r

theorem refresh_sound {E R : Type} [DecidableEq E] {compile : E → Str → Option R} {s : StrpState E R}
    (h : CacheSound compile s) (now : E) :
    CacheSound compile (strpRefresh s now) ∧ (strpRefresh s now).env = now := by
  have nil : ∀ e : E, CacheSound compile (⟨e, []⟩ : StrpState E R) := by
    intro e f r hf; simp at hf
  unfold strpRefresh
  by_cases he : now ≠ s.env
  · simp only [if_pos he]
    rw [if_neg (by simp)]
    exact ⟨nil now, rfl⟩
  · simp only [if_neg he]
    have he : now = s.env := not_not.1 he
    split_ifs
    · exact ⟨nil s.env, he.symm⟩
    · exact ⟨h, he.symm⟩

theorem lookup_set_builtin {R : Type} (c : List (CacheKey × R)) (r : R) (f : Str) :
    (cacheSet c .builtinFormat r).lookup (.text f) = c.lookup (.text f) := by
  have e : ((CacheKey.text f) == .builtinFormat) = false := by rfl
  unfold cacheSet
  rw [List.lookup_cons, e]
  simp only
  induction c with
  | nil => rfl
  | cons p c ih =>
    obtain ⟨k, v⟩ := p
    cases k with
    | builtinFormat =>
      rw [List.filter_cons_of_neg (by simp), List.lookup_cons, e]
      exact ih
    | text g =>
      rw [List.filter_cons_of_pos (by simp), List.lookup_cons, List.lookup_cons, ih]

theorem strpCall_sound {E R V : Type} [DecidableEq E] {compile : E → Str → Option R} {run : R → E → Str → Py V}
    {s : StrpState E R} (h : CacheSound compile s) (now : E) (data fmt : Str) :
    (strpCall compile run s now data fmt).1 = directParse compile run now data fmt ∧
      CacheSound compile (strpCall compile run s now data fmt).2 := by
  obtain ⟨h1, h2⟩ := refresh_sound h now
  unfold strpCall strpRegex directParse
  generalize strpRefresh s now = t at *
  subst h2
  simp only
  cases hl : t.regex.lookup (.text fmt) with
  | some r => rw [h1 _ _ hl]; exact ⟨rfl, h1⟩
  | none =>
    simp only
    cases hc : compile t.env fmt with
    | none => exact ⟨rfl, h1⟩
    | some r =>
      refine ⟨rfl, ?_⟩
      intro f r' hf
      simp only at hf ⊢
      rw [lookup_set_builtin] at hf
      exact h1 f r' hf

/-- C38: whatever was parsed before, in whatever locales, a parse gives what it gives without caches: the result
depends only on its two arguments and the locale at the time of the call. `compile` and `run` are arbitrary. -/
theorem C38_history {E R V : Type} [DecidableEq E] (compile : E → Str → Option R) (run : R → E → Str → Py V)
    (start : E) (calls : List (E × Str × Str)) :
    strpRun compile run ⟨start, []⟩ calls = calls.map (fun c => directParse compile run c.1 c.2.1 c.2.2) := by
  have key : ∀ (calls : List (E × Str × Str)) (s : StrpState E R), CacheSound compile s →
      strpRun compile run s calls = calls.map (fun c => directParse compile run c.1 c.2.1 c.2.2) := by
    intro calls
    induction calls with
    | nil => intro s _; rfl
    | cons c rest ih =>
      intro s hs
      obtain ⟨now, data, fmt⟩ := c
      obtain ⟨h1, h2⟩ := strpCall_sound (run := run) hs now data fmt
      rw [List.map_cons, ← ih _ h2, ← h1]
      rfl
  exact key calls _ (by intro f r hf; simp at hf)

example : strpRun (E := Bool) (fun e f => if f = [] then none else some (e, f)) (fun r _ d => .ok (r, d)) ⟨true, []⟩
    [(true, ['1'], ['Y']), (false, ['2'], ['Y']), (true, ['3'], [])] =
    [.ok ((true, ['Y']), ['1']), .ok ((false, ['Y']), ['2']), .error .value] := by decide

/-- The states a sequence of parses goes through. -/
def strpStates {E R V : Type} [DecidableEq E] (compile : E → Str → Option R) (run : R → E → Str → Py V) :
    StrpState E R → List (E × Str × Str) → StrpState E R
  | s, [] => s
  | s, (now, data, fmt) :: rest => strpStates compile run (strpCall compile run s now data fmt).2 rest

/-- The regex cache never answers: it stores under a key that no lookup uses, so it holds at most one entry and
that entry is not found under any format. -/
theorem C38_cache_unused {E R V : Type} [DecidableEq E] (compile : E → Str → Option R) (run : R → E → Str → Py V)
    (start : E) (calls : List (E × Str × Str)) (f : Str) :
    let s := strpStates compile run ⟨start, []⟩ calls
    s.regex.length ≤ 1 ∧ s.regex.lookup (.text f) = none := by
  have shape : ∀ (calls : List (E × Str × Str)) (s : StrpState E R),
      (s.regex = [] ∨ ∃ r, s.regex = [(.builtinFormat, r)]) →
      (let s := strpStates compile run s calls
       s.regex = [] ∨ ∃ r, s.regex = [(.builtinFormat, r)]) := by
    intro calls
    induction calls with
    | nil => intro s h; exact h
    | cons c rest ih =>
      intro s h
      obtain ⟨now, data, fmt⟩ := c
      apply ih
      have hr : (strpRefresh s now).regex = [] ∨ ∃ r, (strpRefresh s now).regex = [(.builtinFormat, r)] := by
        unfold strpRefresh
        by_cases he : now ≠ s.env
        · simp only [if_pos he]; rw [if_neg (by simp)]; exact Or.inl rfl
        · simp only [if_neg he]
          split_ifs
          · exact Or.inl rfl
          · exact h
      unfold strpCall strpRegex
      generalize strpRefresh s now = t at *
      have hl : t.regex.lookup (.text fmt) = none := by
        rcases hr with hr | ⟨r, hr⟩ <;> rw [hr] <;> rfl
      simp only [hl]
      cases hc : compile t.env fmt with
      | none => exact hr
      | some r =>
        refine Or.inr ⟨r, ?_⟩
        simp only [cacheSet]
        rcases hr with hr | ⟨r', hr⟩ <;> rw [hr] <;> simp
  intro s
  have := shape calls ⟨start, []⟩ (Or.inl rfl)
  simp only at this
  rcases this with h | ⟨r, h⟩
  · exact ⟨by simp only [s, h]; simp, by simp only [s, h]; rfl⟩
  · exact ⟨by simp only [s, h]; simp, by simp only [s, h]; rfl⟩

example : (strpStates (E := Bool) (V := Unit) (fun e f => some (e, f)) (fun _ _ _ => .ok ()) ⟨true, []⟩
    [(true, ['1'], ['Y']), (true, ['2'], ['Y'])]).regex = [(.builtinFormat, (true, ['Y']))] := by decide

/-! ## C48 -/

theorem localRun_snoc (M : Machine) (as : List LocalArgs) (a : LocalArgs) :
    localRun M (as ++ [a]) = (setLocal (localRun M as) a).2 := by
  unfold localRun
  rw [List.foldl_append]
  rfl

/-- C48, coordinates given as floats: after any earlier calls they are the local coordinates. -/
theorem C48_coordinates (M : Machine) (as : List LocalArgs) (N : Machine) (lat lon : ℚ) (loc : Str) :
    (localRun M (as ++ [⟨N, .float lat, .float lon, loc⟩])).coord = (lat, lon, fl (N.offset / 3600)) := by
  rw [localRun_snoc]; rfl

example : (localRun ⟨12600, fun _ => none⟩ [⟨⟨-18000, fun _ => none⟩, .float 35, .float (-79), []⟩]).coord =
    (35, -79, -5) := by decide +kernel

/-- C48, no usable coordinates and no locale: after any earlier calls the local coordinates are those of Tehran. -/
theorem C48_default (M : Machine) (as : List LocalArgs) (N : Machine) (lat lon : CoordArg)
    (h : lat = .none ∨ lon = .none) :
    (localRun M (as ++ [⟨N, lat, lon, []⟩])).coord = (tehranLat, tehranLon, 7 / 2) := by
  rw [localRun_snoc]
  have e : getLocalCoords N lat lon [] = .ok (none, fl (N.offset / 3600)) := by
    rcases h with rfl | rfl
    · rfl
    · cases lat <;> rfl
  unfold setLocal
  rw [e]
  simp only [localeConfig, badiCoord, tehranZone]
  norm_num

/-- C48, a locale: the coordinates are those the geocoder finds; if it finds none, the call raises AssertionError and
changes nothing. -/
theorem C48_locale (M : Machine) (as : List LocalArgs) (N : Machine) (lat lon : CoordArg) (loc : Str)
    (h : lat = .none ∨ lon = .none) (hl : loc ≠ []) :
    (∀ a b, N.geocode loc = some (a, b) →
      (localRun M (as ++ [⟨N, lat, lon, loc⟩])).coord = (a, b, fl (N.offset / 3600))) ∧
    (N.geocode loc = none → (setLocal (localRun M as) ⟨N, lat, lon, loc⟩).1 = .error .assertion ∧
      localRun M (as ++ [⟨N, lat, lon, loc⟩]) = localRun M as) := by
  rw [localRun_snoc]
  have e : getLocalCoords N lat lon loc = match N.geocode loc with
      | none => .error .assertion
      | some p => .ok (some p, fl (N.offset / 3600)) := by
    rcases h with rfl | rfl
    · unfold getLocalCoords; simp only [if_pos hl]; cases N.geocode loc <;> rfl
    · cases lat <;> · unfold getLocalCoords; simp only [if_pos hl]; cases N.geocode loc <;> rfl
  unfold setLocal
  rw [e]
  constructor
  · intro a b hg; rw [hg]; rfl
  · intro hg; rw [hg]; exact ⟨rfl, rfl⟩

example : (localRun ⟨12600, fun _ => none⟩ [⟨⟨-18000, fun _ => some (36, -78)⟩, .none, .none, "Chapel Hill".toList⟩]).coord
    = (36, -78, -5) := by decide +kernel

/-- C48 is false for coordinates given as whole numbers: they are ignored, and the local coordinates become those of
Tehran, or of the locale. -/
theorem C48_integer_negation (M : Machine) (as : List LocalArgs) (N : Machine) (lat lon : CoordArg) (n : ℤ)
    (h : lat = .int n ∨ lon = .int n) :
    (localRun M (as ++ [⟨N, lat, lon, []⟩])).coord = (tehranLat, tehranLon, 7 / 2) := by
  rw [localRun_snoc]
  have e : getLocalCoords N lat lon [] = .ok (none, fl (N.offset / 3600)) := by
    rcases h with rfl | rfl
    · rfl
    · cases lat <;> rfl
  unfold setLocal
  rw [e]
  simp only [localeConfig, badiCoord, tehranZone]
  norm_num

example : ((36 : ℚ), (-78 : ℚ), (-5 : ℚ)) ≠ (tehranLat, tehranLon, 7 / 2) := by
  intro h
  have := congrArg (fun p => p.2.2) h
  norm_num at this

/-- C48: after any calls, also failed ones, the local zone has the offset of the local coordinates, and the package
and the module agree. -/
theorem C48_zone (M : Machine) (as : List LocalArgs) :
    (localRun M as).zone = hoursUs (localRun M as).coord.2.2 ∧
      (localRun M as).pkgCoord = (localRun M as).coord ∧ (localRun M as).pkgZone = (localRun M as).zone := by
  have hc : ∀ r, (localeConfig r).zone = hoursUs (localeConfig r).coord.2.2 ∧
      (localeConfig r).pkgCoord = (localeConfig r).coord ∧ (localeConfig r).pkgZone = (localeConfig r).zone :=
    fun r => by unfold localeConfig; exact ⟨rfl, rfl, rfl⟩
  induction as using List.reverseRecOn with
  | nil => unfold localRun; exact hc _
  | append_singleton as a ih =>
    rw [localRun_snoc]
    have e : (setLocal (localRun M as) a).2 = match getLocalCoords a.M a.lat a.lon a.loc with
        | .error _ => localRun M as
        | .ok r => localeConfig r := by
      unfold setLocal
      cases getLocalCoords a.M a.lat a.lon a.loc <;> rfl
    rw [e]
    cases getLocalCoords a.M a.lat a.lon a.loc with
    | error e => exact ih
    | ok r => exact hc r

example : (localRun ⟨0, fun _ => none⟩ []).zone = 12600000000 := by decide +kernel

theorem pyInt_close (z : ℚ) : |z - pyInt z| ≤ 1 := by
  unfold pyInt
  split_ifs with h
  · rw [abs_le]; constructor <;> linarith [Int.floor_le z, Int.lt_floor_add_one z]
  · rw [abs_le]; constructor <;> linarith [Int.le_ceil z, Int.ceil_lt_add_one z]

/-- C48: an offset of whole seconds of the machine becomes exactly the offset of the local zone, although it goes
through a fraction of hours. -/
theorem C48_offset_exact (off : ℤ) (h : |off| < 86400) : hoursUs (fl (off / 3600)) = off * 1000000 := by
  have hq : |(off : ℚ) / 3600| ≤ 24 := by
    have : |(off : ℚ)| ≤ 86400 := by exact_mod_cast h.le
    rw [abs_div, abs_of_pos (by norm_num : (0 : ℚ) < 3600)]
    rw [div_le_iff₀ (by norm_num)]
    linarith
  have e1 := fl_err_le hq
  generalize fl ((off : ℚ) / 3600) = z at *
  have hz := pyInt_close z
  unfold hoursUs
  generalize pyInt z = i at *
  have e2 : |fl (3600000000 * (z - i)) - 3600000000 * (z - i)| ≤ 3600000000 / 9007199254740992 := by
    apply fl_err_le
    rw [abs_mul, abs_of_pos (by norm_num : (0 : ℚ) < 3600000000)]
    linarith
  have : roundHalfEven (fl (3600000000 * (z - i))) = off * 1000000 - i * 3600000000 := by
    apply roundHalfEven_of_close
    push_cast
    rw [abs_le] at e1 e2
    rw [abs_lt]
    constructor <;> linarith [e1.1, e1.2, e2.1, e2.2]
  rw [this]
  ring

example : hoursUs (fl (((-12344 : ℤ) : ℚ) / 3600)) = -12344000000 := by decide +kernel

end Verif
