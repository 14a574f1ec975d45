import Verif.Lemmas.Repr
import Verif.Props.Time
import Verif.Spec.Witness

/-!
# C83: `eval(repr(x))`
-/

namespace Verif

open PyExpr

/-- A zone that a program can have: one of the two of the library, or one made by the constructor. -/
def IsZone (z : Zone) : Prop :=
  z = utcZone ∨ z = badiZone ∨
    (2 ≤ z.id ∧ newZone z.id z.off z.name = .ok z)

/-- The zone read back: the same object for the two zones of the library, otherwise an equal one. -/
def SameZone (z z' : Zone) : Prop := z'.off = z.off ∧ z'.name = z.name ∧ (z.id < 2 → z' = z)

namespace PyExpr

theorem all_word {s : String} (h : s.toList.all wordChar = true) : ∀ c ∈ s.toList, wordChar c = true := by
  rwa [List.all_eq_true] at h

theorem pos_int (n : ℤ) : ∃ ts, FitArg (strInt n) ([], .int n) ts := ⟨_, (fit_int n).1⟩

theorem key_int {k : String} (hk : k.toList.all wordChar = true) (hn : flush k.toList = [.word k.toList]) (n : ℤ) :
    ∃ ts, FitArg (k.toList ++ '=' :: strInt n) (k.toList, .int n) ts := ⟨_, fit_key (all_word hk) hn (fit_int n)⟩

theorem pos_ints (l : List ℤ) : List.Forall₂ (fun s a => ∃ ts, FitArg s a ts) (l.map strInt)
    (l.map fun n => (([] : Str), Expr.int n)) := by
  induction l with
  | nil => exact .nil
  | cons n l ih => exact .cons (pos_int n) ih

theorem pos_none : ∃ ts, FitArg "None".toList ([], .none) ts :=
  ⟨_, (fit_word (w := "None".toList) (all_word (by decide)) (by decide) (e := .none) (by simp)).1⟩

theorem forall₂_append {α β : Type} {R : α → β → Prop} {a b : List α} {c d : List β} (h : List.Forall₂ R a c)
    (h' : List.Forall₂ R b d) : List.Forall₂ R (a ++ b) (c ++ d) := by
  induction h with
  | nil => exact h'
  | cons x _ ih => exact .cons x ih

/-- The arguments that `deltaRepr` prints. -/
def deltaExpr (us : ℤ) : List (Str × Expr) :=
  let arg (name : String) (n : ℤ) : List (Str × Expr) := if n ≠ 0 then [(name.toList, .int n)] else []
  let args := arg "days" (us / 86400000000) ++ arg "seconds" (us % 86400000000 / 1000000) ++ arg "microseconds" (us % 1000000)
  if us = 0 then [([], .int 0)] else args

theorem delta_fit (us : ℤ) : ∃ ts, Fit (deltaRepr us) (.call "badidatetime.timedelta".toList (deltaExpr us)) ts := by
  unfold deltaRepr deltaExpr
  simp only
  apply fit_call (all_word (by decide)) (by decide)
  have h1 := key_int (k := "days") (by decide) (by decide) (us / 86400000000)
  have h2 := key_int (k := "seconds") (by decide) (by decide) (us % 86400000000 / 1000000)
  have h3 := key_int (k := "microseconds") (by decide) (by decide) (us % 1000000)
  by_cases c0 : us = 0
  · subst c0
    simp only [if_true, Int.zero_ediv, Int.zero_emod, ne_eq, not_true_eq_false, if_false, List.append_nil]
    exact .cons (pos_int 0) .nil
  · rw [if_neg c0]
    by_cases d1 : us / 86400000000 = 0 <;> by_cases d2 : us % 86400000000 / 1000000 = 0 <;> by_cases d3 : us % 1000000 = 0
    · exact absurd (show us = 0 by omega) c0
    all_goals simp only [d1, d2, d3, ne_eq, not_true_eq_false, not_false_eq_true, if_true, if_false, List.nil_append, List.append_nil,
      List.cons_append, reduceCtorEq]
    all_goals repeat first | exact .nil | refine .cons h1 ?_ | refine .cons h2 ?_ | refine .cons h3 ?_

theorem delta_eval (C : Cal) (fresh : ℕ) (us : ℤ) :
    eval C fresh (.call "badidatetime.timedelta".toList (deltaExpr us)) = some (.delta us) := by
  unfold deltaExpr
  by_cases c0 : us = 0
  · subst c0
    rfl
  · simp only [if_neg c0]
    by_cases d1 : us / 86400000000 = 0 <;> by_cases d2 : us % 86400000000 / 1000000 = 0 <;> by_cases d3 : us % 1000000 = 0
    · exact absurd (show us = 0 by omega) c0
    all_goals
      simp only [d1, d2, d3, ne_eq, not_true_eq_false, not_false_eq_true, if_true, if_false, List.nil_append, List.append_nil,
        List.cons_append]
      simp [eval, evalArgs, call, bindArgs, names, intArg, List.lookup]
      omega

theorem zone_fit (P : Char → Bool) (C : Cal) (fresh : ℕ) {z : Zone} (hz : IsZone z) :
    ∃ e z', (∃ ts, Fit (zoneRepr P z) e ts) ∧ eval C fresh e = some (.zone z') ∧ SameZone z z' := by
  rcases hz with rfl | rfl | ⟨h2, hz⟩
  · exact ⟨_, utcZone, ⟨_, fit_word (w := "badidatetime.timezone.utc".toList) (all_word (by decide)) (by decide) rfl⟩, by simp [eval],
      rfl, rfl, fun _ => rfl⟩
  · exact ⟨_, badiZone, ⟨_, fit_word (w := "badidatetime.BADI".toList) (all_word (by decide)) (by decide) rfl⟩, by simp [eval],
      rfl, rfl, fun _ => rfl⟩
  · obtain ⟨id, off, name⟩ := z
    simp only at h2 hz
    have e : zoneRepr P ⟨id, off, name⟩ = zoneCall P "timezone".toList off name := by
      unfold zoneRepr
      rw [if_neg (by simp only; omega), if_neg (by simp only; omega)]
    rw [e]
    have nz : newZone fresh off name = .ok ⟨fresh, off, name⟩ := by
      unfold newZone at *
      split_ifs at * with a b
      · injection hz with hz
        have : id = 0 := by rw [show id = (⟨id, off, name⟩ : Zone).id from rfl, ← hz]; rfl
        omega
      · rfl
    have ev := delta_eval C fresh off
    obtain ⟨ts, ft⟩ := delta_fit off
    cases name with
    | none =>
      refine ⟨.call "badidatetime.timezone".toList [([], .call "badidatetime.timedelta".toList (deltaExpr off))], _, ?_, ?_,
        show SameZone _ ⟨fresh, off, none⟩ from ⟨rfl, rfl, fun h => by simp only at h; omega⟩⟩
      · exact fit_call (f := "badidatetime.timezone".toList) (all_word (by decide)) (by decide) (.cons ⟨_, ft.1⟩ .nil)
      · rw [eval, evalArgs, evalArgs, ev]
        simp [call, bindArgs, names, nz, ofPy]
    | some s =>
      have fs := fit_str P s
      refine ⟨.call "badidatetime.timezone".toList [([], .call "badidatetime.timedelta".toList (deltaExpr off)), ([], .str s)], _, ?_, ?_,
        show SameZone _ ⟨fresh, off, some s⟩ from ⟨rfl, rfl, fun h => by simp only at h; omega⟩⟩
      · exact fit_call (f := "badidatetime.timezone".toList) (all_word (by decide)) (by decide) (.cons ⟨_, ft.1⟩ (.cons ⟨_, fs.1⟩ .nil))
      · rw [eval, evalArgs, evalArgs, evalArgs, ev]
        simp [call, bindArgs, names, nz, ofPy, eval]

theorem fold_fit : ∃ ts, FitArg "fold=1".toList ("fold".toList, .int 1) ts :=
  key_int (k := "fold") (by decide) (by decide) 1

theorem tz_fit {s : Str} {e : Expr} (h : ∃ ts, Fit s e ts) : ∃ ts, FitArg ("tzinfo=".toList ++ s) ("tzinfo".toList, e) ts := by
  obtain ⟨ts, h⟩ := h
  exact ⟨_, fit_key (k := "tzinfo".toList) (all_word (by decide)) (by decide) h⟩

/-- The keyword arguments that `tailArgs` prints. -/
def tailExpr (zone : Option Expr) (fold : ℤ) : List (Str × Expr) :=
  (match zone with
    | none => []
    | some e => [("tzinfo".toList, e)]) ++ (if fold ≠ 0 then [("fold".toList, .int 1)] else [])

theorem tail_fit {s : Option Str} {e : Option Expr} (h : Option.Rel (fun s e => ∃ ts, Fit s e ts) s e) (fold : ℤ) :
    List.Forall₂ (fun s a => ∃ ts, FitArg s a ts) (tailArgs s fold) (tailExpr e fold) := by
  unfold tailArgs tailExpr
  refine forall₂_append ?_ ?_
  · cases h with
    | some h => exact .cons (tz_fit h) .nil
    | none => exact .nil
  · split_ifs
    · exact .cons fold_fit .nil
    · exact .nil

end PyExpr

/-- C83 for dates: the text evaluates to the date. -/
theorem C83_date (C : Cal) (fresh : ℕ) (o : DateObj) (ho : C.newDate o = .ok o) :
    evalText C fresh (dateRepr o) = some (.date o) := by
  unfold evalText
  cases o with
  | short y m d =>
    rw [dateRepr, read_fit (fit_call (all_word (by decide)) (by decide) (pos_ints [y, m, d]))]
    simp [eval, evalArgs, call, bindArgs, names, dateArgs, ho, ofPy]
  | long k v y m d =>
    rw [dateRepr, read_fit (fit_call (all_word (by decide)) (by decide) (pos_ints [k, v, y, m, d]))]
    simp [eval, evalArgs, call, bindArgs, names, dateArgs, ho, ofPy]

example : (Cal.init sixPm).newDate (.short 181 9 6) = .ok (.short 181 9 6) ∧
    dateRepr (.short 181 9 6) = "badidatetime.date(181, 9, 6)".toList := by
  constructor <;> decide +kernel

/-- C83 for times without a zone: the text evaluates to the time. -/
theorem C83_time (C : Cal) (fresh : ℕ) (t : TimeObj) (ht : newTime t = .ok t) (hz : t.tz = none) :
    evalText C fresh (timeRepr t none) = some (.time t none) := by
  obtain ⟨h, mi, s, us, tz, fold⟩ := t
  simp only at hz
  subst hz
  have hf : fold = 0 ∨ fold = 1 := by
    unfold newTime at ht
    cases hc : checkTimeFields h mi s us fold with
    | error e => rw [hc] at ht; exact absurd ht (by simp [bind, Except.bind])
    | ok u => exact (checkTimeFields_inv hc).2.2.2.2
  unfold evalText timeRepr
  rw [read_fit (fit_call (all_word (by decide)) (by decide) (forall₂_append (pos_ints _) (tail_fit (e := none) .none _)))]
  rcases hf with rfl | rfl <;> by_cases hu : us = 0 <;> by_cases hs : s = 0
  all_goals simp only [hu, hs, ne_eq, not_true_eq_false, not_false_eq_true, if_true, if_false]
  all_goals try simp only [hu, hs] at ht
  all_goals simp [tailExpr, eval, evalArgs, call, bindArgs, names, intArg, zoneArg, ofPy, ht, List.lookup]

example : newTime ⟨12, 30, 0, 5, none, 1⟩ = .ok ⟨12, 30, 0, 5, none, 1⟩ ∧
    timeRepr ⟨12, 30, 0, 5, none, 1⟩ none = "badidatetime.time(12, 30, 0, 5, fold=1)".toList := by
  constructor <;> decide +kernel

/-- C83 for zones: the text evaluates to an equal zone with the same name. -/
theorem C83_zone (P : Char → Bool) (C : Cal) (fresh : ℕ) (z : Zone) (hz : IsZone z) :
    ∃ z', evalText C fresh (zoneRepr P z) = some (.zone z') ∧ SameZone z z' := by
  obtain ⟨e, z', hf, he, hs⟩ := zone_fit P C fresh hz
  refine ⟨z', ?_, hs⟩
  unfold evalText
  rw [read_fit hf]
  exact he

example : IsZone ⟨2, -18000000000, some "EST".toList⟩ ∧ zoneRepr (fun _ => true) ⟨2, -18000000000, some "EST".toList⟩ =
    "badidatetime.timezone(badidatetime.timedelta(days=-1, seconds=68400), 'EST')".toList :=
  ⟨Or.inr (Or.inr ⟨by decide, by decide⟩), by decide +kernel⟩

example : IsZone ⟨2, 3600000000, some "O'Neil\\\n\u00a0".toList⟩ ∧
    zoneRepr (fun c => c ≠ '\u00a0') ⟨2, 3600000000, some "O'Neil\\\n\u00a0".toList⟩ =
      "badidatetime.timezone(badidatetime.timedelta(seconds=3600), \"O'Neil\\\\\\n\\xa0\")".toList :=
  ⟨Or.inr (Or.inr ⟨by decide, by decide⟩), by decide +kernel⟩

/-- C83 for datetimes: the text evaluates to the datetime, with an equal zone. -/
theorem C83_datetime (P : Char → Bool) (C : Cal) (fresh : ℕ) (x : DT) (z : Option Zone) (hx : C.newDT x = .ok x) (hz : x.tz = z.map Zone.tz)
    (hw : ∀ w ∈ z, IsZone w) : ∃ x' z', evalText C fresh (dtRepr x (z.map (zoneRepr P))) = some (.datetime x' z') ∧
      { x' with tz := x.tz } = x ∧ (match z, z' with
        | none, none => x'.tz = none
        | some w, some w' => SameZone w w' ∧ x'.tz = some w'.tz
        | _, _ => False) := by
  obtain ⟨d, h, mi, s, us, tz, fold⟩ := x
  simp only at hz
  have hf : fold = 0 ∨ fold = 1 := by
    unfold Cal.newDT at hx
    cases hd : C.newDate d with
    | error e => rw [hd] at hx; exact absurd hx (by simp [bind, Except.bind])
    | ok o =>
      cases hc : checkTimeFields h mi s us fold with
      | error e => rw [hd, pyOk_bind, hc] at hx; exact absurd hx (by simp [bind, Except.bind])
      | ok u => exact (checkTimeFields_inv hc).2.2.2.2
  have key : ∀ tz', C.newDT ⟨d, h, mi, s, us, tz', fold⟩ = .ok ⟨d, h, mi, s, us, tz', fold⟩ := by
    intro tz'
    unfold Cal.newDT at *
    cases hd : C.newDate d with
    | error e => rw [hd] at hx; exact absurd hx (by simp [bind, Except.bind])
    | ok o =>
      cases hc : checkTimeFields h mi s us fold with
      | error e => rw [hd, pyOk_bind, hc] at hx; exact absurd hx (by simp [bind, Except.bind])
      | ok u => rfl
  clear hx
  unfold evalText dtRepr
  cases z with
  | none =>
    refine ⟨⟨d, h, mi, s, us, none, fold⟩, none, ?_, by simp [hz], rfl⟩
    cases d with
    | short y m d =>
      simp only [Option.map_none]
      rw [read_fit (fit_call (all_word (by decide)) (by decide) (forall₂_append (forall₂_append (forall₂_append (pos_ints _)
        (.cons pos_none (.cons pos_none .nil))) (pos_ints _)) (tail_fit (e := none) .none _)))]
      rcases hf with rfl | rfl <;> by_cases hu : us = 0 <;> by_cases hs : s = 0
      all_goals try simp only [hu, hs] at key
      all_goals simp [hu, hs, dropZeros, tailExpr, eval, evalArgs, call, bindArgs, names, intArg, zoneArg, dateArgs, ofPy, key, List.lookup]
    | long k v y m d =>
      simp only [Option.map_none]
      rw [read_fit (fit_call (all_word (by decide)) (by decide) (forall₂_append (forall₂_append (pos_ints _)
        (pos_ints _)) (tail_fit (e := none) .none _)))]
      rcases hf with rfl | rfl <;> by_cases hu : us = 0 <;> by_cases hs : s = 0
      all_goals try simp only [hu, hs] at key
      all_goals simp [hu, hs, dropZeros, tailExpr, eval, evalArgs, call, bindArgs, names, intArg, zoneArg, dateArgs, ofPy, key, List.lookup]
  | some w =>
    obtain ⟨e, w', hfit, he, hsame⟩ := zone_fit P C fresh (hw w rfl)
    refine ⟨⟨d, h, mi, s, us, some w'.tz, fold⟩, some w', ?_, by simp [hz], hsame, rfl⟩
    cases d with
    | short y m d =>
      simp only [Option.map_some]
      rw [read_fit (fit_call (all_word (by decide)) (by decide) (forall₂_append (forall₂_append (forall₂_append (pos_ints _)
        (.cons pos_none (.cons pos_none .nil))) (pos_ints _)) (tail_fit (e := some e) (.some hfit) _)))]
      rcases hf with rfl | rfl <;> by_cases hu : us = 0 <;> by_cases hs : s = 0
      all_goals try simp only [hu, hs] at key
      all_goals simp [hu, hs, dropZeros, tailExpr, eval, he, evalArgs, call, bindArgs, names, intArg, zoneArg, dateArgs, ofPy, key, List.lookup]
    | long k v y m d =>
      simp only [Option.map_some]
      rw [read_fit (fit_call (all_word (by decide)) (by decide) (forall₂_append (forall₂_append (pos_ints _)
        (pos_ints _)) (tail_fit (e := some e) (.some hfit) _)))]
      rcases hf with rfl | rfl <;> by_cases hu : us = 0 <;> by_cases hs : s = 0
      all_goals try simp only [hu, hs] at key
      all_goals simp [hu, hs, dropZeros, tailExpr, eval, he, evalArgs, call, bindArgs, names, intArg, zoneArg, dateArgs, ofPy, key, List.lookup]

example : (Cal.init sixPm).newDT ⟨.short 181 9 6, 12, 0, 0, 0, some ⟨2, 3600000000⟩, 0⟩ =
      .ok ⟨.short 181 9 6, 12, 0, 0, 0, some ⟨2, 3600000000⟩, 0⟩ ∧ IsZone ⟨2, 3600000000, none⟩ ∧
    dtRepr ⟨.short 181 9 6, 12, 0, 0, 0, some ⟨2, 3600000000⟩, 0⟩ (some (zoneRepr (fun _ => true) ⟨2, 3600000000, none⟩)) =
      ("badidatetime.datetime(181, 9, 6, None, None, 12, 0, " ++
        "tzinfo=badidatetime.timezone(badidatetime.timedelta(seconds=3600)))").toList :=
  ⟨by decide +kernel, Or.inr (Or.inr ⟨by decide, by decide⟩), by decide +kernel⟩

/-- C83 is false of times with a zone that has no name and is not UTC: the text has `tzinfo=UTC+03:30`, which is no
expression. -/
theorem C83_aware_time_negation (C : Cal) (fresh : ℕ) (t : TimeObj) (z : Zone) (h2 : 2 ≤ z.id) (hn : z.name = none) (ho : z.off ≠ 0) :
    evalText C fresh (timeRepr t (some (zoneStr z))) = none := by
  have h : ∃ c s, (c = '+' ∨ c = '-') ∧ "tzinfo=".toList ++ zoneStr z = "tzinfo".toList ++ '=' :: "UTC".toList ++ c :: s := by
    unfold zoneStr tzName
    rw [hn, if_neg (by omega), if_neg (by omega)]
    simp only [nameFromOffset, if_neg ho]
    split_ifs <;> exact ⟨_, _, by simp, rfl⟩
  obtain ⟨c, s, hc, h⟩ := h
  unfold evalText timeRepr tailArgs
  simp only
  rw [h, List.singleton_append]
  obtain ⟨rest, l⟩ := lex_bad (k := "tzinfo".toList) (w := "UTC".toList) (c := c) (s := s) (if t.fold ≠ 0 then ["fold=1".toList] else [])
    (all_word (by decide)) (by decide) (all_word (by decide)) (by decide) (by rcases hc with rfl | rfl <;> decide)
    (by rcases hc with rfl | rfl <;> decide) (by rcases hc with rfl | rfl <;> decide)
  rw [read_bad (all_word (by decide)) (by decide) (pos_ints _) l (fun g => args_bad ?_ ?_ ?_ g rest)]
  all_goals rcases hc with rfl | rfl <;> decide

example : timeRepr ⟨12, 30, 0, 0, some ⟨2, 12600000000⟩, 0⟩ (some (zoneStr ⟨2, 12600000000, none⟩)) =
    "badidatetime.time(12, 30, tzinfo=UTC+03:30)".toList := by decide +kernel

/-- C83 is false of times with either of the two zones of the library: the text has the coordinates in place of the zone. -/
theorem C83_library_time_negation (C : Cal) (fresh : ℕ) (t : TimeObj) (z : Zone) (hz : z = utcZone ∨ z = badiZone) :
    evalText C fresh (timeRepr t (some (zoneStr z))) = none := by
  have u : ∀ g r, args g (.word "tzinfo".toList :: .equals :: .word "51.477928".toList :: .comma :: .minus :: .word "0.001545".toList :: r) = none := by
    intro g r
    rcases g with _ | _ | _ | g <;> simp [args, value, keyword]
  have b : ∀ g r, args g (.word "tzinfo".toList :: .equals :: .word "35.69435".toList :: .comma :: .word "51.288701".toList :: .comma ::
      .word "3.5".toList :: .comma :: .word "Asia".toList :: .other '/' :: r) = none := by
    intro g r
    rcases g with _ | _ | _ | _ | _ | g <;> simp [args, value, keyword]
  have key : ∀ z, z = utcZone ∨ z = badiZone → ∀ bs, bs = [] ∨ bs = ["fold=1".toList] → ∃ toks, (∀ g, args g toks = none) ∧
      lex .code [] (joinComma (("tzinfo=".toList ++ zoneStr z) :: bs) ++ [')']) = toks := by
    rintro z (rfl | rfl) bs (rfl | rfl)
    · exact ⟨_, fun g => u g _, rfl⟩
    · exact ⟨_, fun g => u g _, rfl⟩
    · exact ⟨_, fun g => b g _, rfl⟩
    · exact ⟨_, fun g => b g _, rfl⟩
  obtain ⟨toks, h, l⟩ := key z hz (if t.fold ≠ 0 then ["fold=1".toList] else []) (by split_ifs <;> simp)
  unfold evalText timeRepr tailArgs
  simp only [List.singleton_append]
  rw [read_bad (all_word (by decide)) (by decide) (pos_ints _) l h]

example : timeRepr ⟨12, 30, 0, 0, some utcZone.tz, 0⟩ (some (zoneStr utcZone)) =
    "badidatetime.time(12, 30, tzinfo=51.477928, -0.001545, 0, UTC)".toList := by decide +kernel

/-- C83 is false of zones with coordinates: the text of one without a key is refused, for the constructor wants two arguments, and
the text of one with a key gives a zone at offset zero (whose latitude is a `timedelta`). -/
theorem C83_coords_negation (P : Char → Bool) (C : Cal) (fresh : ℕ) (z : CoordZone) :
    evalText C fresh (coordRepr P z) = if z.name = none then none else some (.coords 0) := by
  have ev := delta_eval C fresh z.off
  obtain ⟨ts, ft⟩ := delta_fit z.off
  unfold evalText coordRepr zoneCall
  cases hn : z.name with
  | none =>
    rw [show "badidatetime.".toList ++ "TZWithCoords".toList = "badidatetime.TZWithCoords".toList by decide,
      read_fit (fit_call (all_word (by decide)) (by decide) (.cons ⟨_, ft.1⟩ .nil))]
    show eval C fresh _ = _
    rw [eval, evalArgs, evalArgs, ev]
    simp [call, bindArgs, names]
  | some s =>
    have fs := fit_str P s
    rw [show "badidatetime.".toList ++ "TZWithCoords".toList = "badidatetime.TZWithCoords".toList by decide,
      read_fit (fit_call (all_word (by decide)) (by decide) (.cons ⟨_, ft.1⟩ (.cons ⟨_, fs.1⟩ .nil)))]
    show eval C fresh _ = _
    rw [eval, evalArgs, evalArgs, evalArgs, ev]
    simp [call, bindArgs, names, eval]

example : coordRepr (fun _ => true) ⟨35, 51, some 3, "Home".toList, (35, 51, some 3), 10800000000, some "Home".toList⟩ =
    "badidatetime.TZWithCoords(badidatetime.timedelta(seconds=10800), 'Home')".toList := by decide +kernel

end Verif
