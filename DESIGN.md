# Design

Target: `badidatetime` (package in /repo). The code is read as text; it is neither built nor run.

## How the code is modelled

* Lean 4 with Mathlib. Python `int` is `ℤ`. A Python `float` is the rational number it denotes; every float operation is
  the exact operation followed by `fl`, IEEE-754 binary64 round-to-nearest-even (`Verif/Py/Float.lean`). The exponent is
  unbounded: overflow, subnormal numbers, infinities and NaN are not modelled. No value in the modelled code comes near
  the limits, except for absurd arguments.
* Exceptions are values (`Py α = Except PyErr α`); each exception class of the code is a constructor of `PyErr`.
* For the calendar the astronomy (position of the sun, nutation, sidereal time, trigonometry of libm) is one oracle,
  `Astro.setFrac`: the value that `_rising_setting(jd, lat, lon, 'SET')` returns. Theorems hold for all oracles with a stated
  property (below). The algorithm of `_rising_setting` itself is modelled apart, in exact real arithmetic instead of floats
  (`Model/Solar`), and the property is proved of every oracle that is within ten minutes of it (C74).
* Strings are `List Char`, tuples are structures or lists, dictionaries are functions or association lists, byte strings
  are lists of natural numbers below 256. Digits, letters and white space in parsed texts are ASCII.
* `datetime.timedelta` of the standard library is an integer number of microseconds.
* Mutable state (the caches of nutation and strptime, the local coordinates) is an explicit state, and histories are lists
  of operations.
* Every definition in `Verif/Model` cites the lines of /repo it models and says where it simplifies.

Layout: `Verif/Py` (floats, exceptions, text), `Verif/Model` (the code), `Verif/Spec` (independent specifications, used by
the statements), `Verif/Lemmas` (helper lemmas), `Verif/Props` (the property theorems, named `Cnn_...`, each with an
`example` that meets its hypotheses).

## Hypotheses that occur in the theorems

* `TehranEvening A` (`Spec/Evening`): on every day of the era the oracle puts sunset at Tehran between 16:00 and 20:00 local
  mean time. It is the only thing assumed about sunset for the year table and the conversions. C74 proves it from `NearExact`:
  the floats of the library are within ten minutes of the exact value of its own algorithm.
* `NewYearOrder C` (`Spec/Ordinal`): the clock time of sunset before the first day of the years -1796, -1792 and -1788 is
  earlier than before the last day of year -1843, and in the other years it is not. The code patches exactly these years by
  hand, and `C06_hypothesis_needed` shows that the ordinals are right only under this condition. That the real sun meets it
  is not proved.
* `GreenwichSteady A` (`Props/Clock12`, for C69 and C86 only): on every day of the era, sunset at Greenwich falls on its own
  day and moves by at most three minutes from day to day.
* All three are met by a concrete oracle (`greenwichSun`, in `Props/Clock12`), so no theorem is vacuous.
* `Convertible C n`: the day `n` is one that `fromordinal` reaches. It excludes 22 listed days and the days of year 1161 after
  the first, on which the code raises (C07).

## Trusted base

* Lean's kernel.
* The axioms `propext`, `Classical.choice` and `Quot.sound`. All theorems of MANIFEST.json were listed with `#print axioms`:
  no other axiom occurs. No axiom is added, and there is no `sorry`, `native_decide` or `bv_decide`.
* The correspondence between `Verif/Model` and the cited lines, which is by reading. `seeded/LOG.jsonl` records edits of the
  model, made to check that the theorems notice them; `first_errors` are the declarations whose proofs broke, and
  `theorems_failed` the property theorems among them and those whose proofs use one of them.
* That Python floats are binary64, rounded to nearest even, and that `round`, `int`, `//` and `%` behave as documented.

## What is modelled, by file

* `_coefficients.py`, `julian_period.py`: all of `_coefficients.py`.
* `badi_calendar.py`: the year table, all conversions between the forms, `jd_from_badi_date`, `badi_date_from_jd`, the
  validity checks, `_trim_hms`, `_utc_to_badi_time`, `utc_sunset`, `naw_ruz_g_date`, `first_day_of_ridvan_g_date`, the
  conversions to and from Gregorian dates and timestamps, `midday`, `_day_length`.
* `base_calendar.py`: `_sun_setting` and `_sun_rising` around their oracles; the conversions of angles, coordinates, times and seconds;
  `_days_in_years`, `_meeus_from_exact`, `_exact_from_meeus`, `_poly`, `_sigma`, `_interpolation_from_three`,
  `_coterminal_angle`, `_xor_boolean`, the cache of nutation; in exact arithmetic `_rising_setting` and all it calls, and the
  longitude and latitude of the sun from the long tables (`Model/Sun`).
* `gregorian_calendar.py`: all.
* `_timedateutils.py`: `strftime` with `_check_format` and all directives (the locale is a record), the ordinal and week functions, the
  parsing of ISO texts, the checks of fields.
* `_strptime.py`: compilation, matching and evaluation for all directives (`Z` at the end of the format), and `LocaleTime`; in
  `%p` the locale is the one with AM and PM.
* `datetime.py`: `date`, `time`, `datetime`, `timezone`, `TZWithCoords`: constructors, comparison, hash, arithmetic, `replace`,
  ISO texts, pickling, `timestamp`, `fromtimestamp`, `astimezone`, `date()`, `time()`, `timetz()`, `combine`, `timetuple`,
  `utctimetuple`, `ctime`, `today`, `now`, `__format__`, the operators, and the methods with any `tzinfo`.
* `_structures.py`: `struct_time` of tuples of integers, and the texts of the tuples.
* `__init__.py`: the local coordinates.

Not modelled: the roundings of the solar theory, and its parts outside of rising and setting (the rounding of equinoxes to 12 places);
long form dates and datetimes with fractional days.

## Properties

For each property: what is modelled, how it is proved, and the result. "False" means that the negation is
proved with a witness (the theorem ending in `_negation`); the `_partial` theorem then states what does hold.

### C01 Every Badi' year has 365 or 366 days and years are contiguous (proved)

* Model: `Model/Coeff`, `Model/Badi` (`Cal.init`: the table built by `_build_badi_year_start`, `_get_day_coeff`, `_is_leap_year`); sunset is an oracle.
* Proof: the table is shown equal to an integer formula for every oracle in the evening window (`Lemmas/YearTable`); lengths over the whole table by kernel evaluation, lifted to all years.
* Theorems: `C01_year_length`, `C01_contiguous`, `C01_table_fixed`, `C01_naw_ruz_jd`
* Result: for every sunset oracle with Tehran sunset between 16:00 and 20:00 local mean time

### C02 A day number is assigned to the year that contains it (proved)

* Model: `_badi_year_from_rd` with its binary64 division.
* Proof: the guess is off by at most one, by monotonicity of rounding and the table.
* Theorems: `C02_year_of_day_number`
* Result: including the binary64 division

### C03 Day of year <-> (month, day) is a bijection (proved)

* Model: both directions of the month and day search.
* Proof: against the list of the months in calendar order (`Spec/Layout`).
* Theorems: `C03_day_of_year`

### C04 Short form -> long form -> short form is the identity (proved)

* Model: `long_date_from_short_date`, `short_date_from_long_date` in binary64.
* Proof: error analysis shows that the ceilings are the exact quotients.
* Theorems: `C04_short_long_short`, `C04_far_years_refused`
* Result: time of day before hour 24 (hour 24 is refuted under C05)

### C05 Long form -> short form keeps the moment when the time overflows (partial)

* Model: `short_date_from_long_date` with its carries.
* Proof: witnesses by kernel evaluation; the positive part for all fields; Props/FormsOverflow gives the result of hour 24 and second 60 for every valid date.
* Theorems: `C05_hour_24_negation`, `C05_month_18_negation`, `C05_fractional_day_negation`, `C05_long_short_partial`, `C05_hour_24_in_month_negation`, `C05_hour_24_ayyam_negation`, `C05_hour_24_month_end_negation`, `C05_hour_24_year_end_negation`, `C05_second_60_negation`
* Result: Proved for whole days before hour 24. False of the code for every time at hour 24 or second 60, with the exact result proved for each kind of day, and for fractional days.

### C06 Ordinals are chronological and consecutive (proved)

* Model: `_days_before_year`, `_days_before_month`, `_ymd2ord`.
* Proof: the ordinal equals an independent day count (`Spec/Days`).
* Theorems: `C06_ordinals`, `C06_every_day`, `C06_first_ordinal`, `C06_hypothesis_needed`
* Result: For every sunset function with evening sunsets at Tehran whose new-year sunsets satisfy NewYearOrder; C06_hypothesis_needed shows the latter is exactly what the hand-patched years require.

### C07 fromordinal inverts toordinal (partial)

* Model: `_ord2ymd`, `badi_date_from_jd`, `_utc_to_badi_time`.
* Proof: binary64 error bounds around each sunset; the 22 lost days are the days on which the code raises.
* Theorems: `C07_round_trip_partial`, `C07_lost_days_negation`, `C07_last_year_negation`
* Result: Proved for all convertible days; false on 22 lost days (ValueError) and on all days of year 1161 but the first (AssertionError).

### C08 Date plus timedelta arithmetic laws (partial)

* Model: `date.__add__`, `__sub__`; `timedelta` is an integer number of microseconds with the normal form of Python.
* Proof: from C06 and C07.
* Theorems: `C08_add_partial`, `C08_never_wraps`, `C08_add_sub`, `C08_sub_add_partial`, `C08_assoc`, `C08_sub_neg`, `C08_overflow`, `C08_part_day_negation`, `C08_gap_negation`
* Result: Laws proved whenever the results are convertible days; false for d - t == d + (-t) with t not whole days, and sums that land on a lost day or late in year 1161 raise ValueError/AssertionError.

### C09 Weekdays cycle with period seven and all accessors agree (proved)

* Model: `weekday`, `isoweekday`, `isocalendar`, `_build_struct_time`.
* Proof: from C06 and arithmetic modulo seven.
* Theorems: `C09_weekdays`, `C09_day_of_year`
* Result: From the first day of MINYEAR on.

### C10 ISO week numbering is well formed (proved)

* Model: `_year_week_day`, `_isoweek1jalal`.
* Proof: against the rule that week 1 holds the fourth day of the year (`Spec/IsoWeek`).
* Theorems: `C10_iso_week`, `C10_next_day`
* Result: From the first day of MINYEAR on.

### C11 fromisocalendar inverts isocalendar (partial)

* Model: `fromisocalendar`.
* Proof: case analysis on the first weekday of the year.
* Theorems: `C11_round_trip_partial`, `C11_refusals_partial`, `C11_week_52_negation`, `C11_week_53_negation`, `C11_unchecked_week_negation`
* Result: Round trip proved outside weeks 52/53 of years beginning on weekday 3 or 4; there it is false (52 comes back a week late, 53 is refused); weeks outside the year are accepted in other years.

### C12 Date comparison is a total order on each form (proved)

* Model: `date._cmp` and the six operators.
* Proof: lexicographic order.
* Theorems: `C12_total`, `C12_transitive`
* Result: Comparison within one form is a total order on all constructible dates.

### C13 Date order is chronological (partial)

* Model: `date._cmp`, `toordinal`.
* Proof: from C06; exact for months other than 0.
* Theorems: `C13_chronological_partial`, `C13_ayyam_i_ha_negation`
* Result: Proved for all pairs of dates in the same form outside Ayyam-i-Ha; false for Ayyam-i-Ha, whose month number 0 sorts before month 1.

### C14 Comparison of short and long form dates (partial)

* Model: `date._cmp` and `datetime._cmp` on mixed forms.
* Proof: field by field; the answers of each direction for all pairs (Props/Date, Props/FormsOrder).
* Theorems: `C14_asymmetry_negation`, `C14_wrong_equality_negation`, `C14_first_vahid_partial`, `C14_order_negation`, `C14_datetime_symmetric`, `C14_datetime_negation`
* Result: Symmetric for datetimes; right for a short form date against a long form date of the first Váḥid. False otherwise, and proved false for every pair: long against short dates raises, a short form date after the year 19 is greater than every long form date, and equality is decided by the year in the Váḥid.

### C15 Equal objects have equal hashes (partial)

* Model: the tuples that are hashed (equal tuples have equal hashes; unequal ones are taken to differ only in the witnesses).
* Proof: case analysis on the forms and offsets.
* Theorems: `C15_date_partial`, `C15_date_hashable`, `C15_forms_negation`, `C15_unhashable_negation`, `C15_time_hashable`, `C15_time_unhashable_negation`, `C15_time_partial`, `C15_time_hour_24_negation`, `C15_datetime_hashable`, `C15_datetime_partial`, `C15_datetime_long_negation`, `C15_datetime_long_zone_negation`
* Result: Equal dates, times and datetimes have equal hashes within one form and away from hour 24; the exceptions are proved with witnesses: cross-form equality, hour 24, unhashable times with some offsets, long form datetimes.

### C16 Pickled dates are restored exactly (partial)

* Model: `_getstate`, `__setstate` and the recogniser in `__new__`, on bytes.
* Proof: arithmetic on bytes.
* Theorems: `C16_pickle_partial`, `C16_ayyam_i_ha_negation`
* Result: Proved for all dates outside Ayyam-i-Ha from MINYEAR on; pickled Ayyam-i-Ha dates do not unpickle.

### C17 Pickled times and datetimes are restored exactly (partial)

* Model: the same for `time` and `datetime`.
* Proof: arithmetic on bytes.
* Theorems: `C17_time_partial`, `C17_hour_24_negation`, `C17_datetime_partial`, `C17_ayyam_i_ha_negation`
* Result: Proved for all times below hour 24 and all short or long datetimes outside Ayyam-i-Ha; hour 24 and Ayyam-i-Ha do not survive pickling.

### C18 date.fromisoformat inverts date.isoformat (partial)

* Model: `isoformat` and `_parse_isoformat_date` on lists of characters.
* Proof: digit lemmas (`Lemmas/Text`).
* Theorems: `C18_round_trip_partial`, `C18_negative_year_negation`
* Result: Round trip proved for the years 0 to 1161 and -1842 to -1000, short and long form; false for the years -999 to -1 (ValueError).

### C19 The basic ISO forms denote the same day as the extended forms (partial)

* Model: all branches of `_parse_isoformat_date`.
* Proof: digit lemmas; every branch.
* Theorems: `C19_week`, `C19_day_of_year`, `C19_day_of_year_negation`, `C19_day_of_year_refused`, `C19_calendar_partial`, `C19_basic_negation`
* Result: Week and day-of-year texts and YYYY-MM-DD are read as the dates they name; days just past the end of the year are accepted and YYYYMMDD drops the tens digit of the day: both negated.

### C20 Time and datetime ISO text round trips (partial)

* Model: `_parse_isoformat_time`, `_parse_isoformat_date_time_timezone`.
* Proof: digit lemmas and binary64 bounds for the fraction of the second.
* Theorems: `C20_datetime_partial`, `C20_micro_partial`, `C20_micro_negation`, `C20_negative_year_negation`, `C20_long_negation`, `C20_time_negation`, `C20_time_partial`
* Result: Datetime round trip proved for short forms with whole milliseconds, and up to one microsecond in general; false for some microseconds, for years -999 to -1, for the long form and for every time.

### C21 UTC offsets survive formatting and parsing (partial)

* Model: `_format_offset` and the parser of offsets.
* Proof: digit lemmas.
* Theorems: `C21_offsets_partial`, `C21_negative_negation`
* Result: Proved for non-negative and whole-hour offsets; false for every negative offset with minutes.

### C22 Constructors accept exactly the valid dates (partial)

* Model: `_check_date_fields`, `_check_valid_badi_date` on integers.
* Proof: case analysis; `iff`.
* Theorems: `C22_accepts`, `C22_exact_partial`, `C22_refuses`, `C22_outside_years_negation`, `C22_early_year_negation`
* Result: Constructor accepts exactly the calendar days for years MINYEAR..MAXYEAR; it also accepts some fields outside.

### C23 replace() changes exactly the named fields (partial)

* Model: the three `replace` methods with Python truthiness.
* Proof: case analysis.
* Theorems: `C23_fields_partial`, `C23_identity`, `C23_override`, `C23_zero_kull_negation`, `C23_time_fields`, `C23_time_identity`, `C23_time_override`, `C23_datetime_fields_partial`, `C23_datetime_identity`, `C23_datetime_clock`, `C23_datetime_override`, `C23_datetime_zero_negation`
* Result: replace on date, time and datetime: proved except that a zero kull_i_shay or vahid is silently ignored on short forms.

### C24 Time comparison is consistent (partial)

* Model: `time._cmp` and the six operators.
* Proof: integer arithmetic.
* Theorems: `C24_same_offset`, `C24_total`, `C24_offsets_partial`, `C24_second_offset_negation`, `C24_mixed_partial`, `C24_mixed_le_negation`
* Result: Same-offset comparison is the clock order, total; whole-minute offsets compare by UTC micro-seconds; offsets with seconds are truncated and <= of naive and aware times does not raise: both negated.

### C25 Datetime equality distinguishes different moments (partial)

* Model: `datetime._cmp`.
* Proof: lexicographic order.
* Theorems: `C25_short_partial`, `C25_long_partial`, `C25_long_negation`
* Result: Proved for short form pairs, and for long form pairs in the same kull-i-shay and vahid; false for long forms in different vahids.

### C26 Datetime arithmetic laws (partial)

* Model: `datetime.__add__`, `__sub__`.
* Proof: integer microseconds and C06/C07.
* Theorems: `C26_add_partial`, `C26_add_sub`, `C26_assoc`, `C26_sub_add_partial`, `C26_sub_add_zones_partial`, `C26_hour_24_negation`, `C26_overflow`, `C26_gap_negation`
* Result: Datetime arithmetic is exact on ordinary clock values and reachable days; hour 24 and the 22 unreachable days are negated.

### C27 astimezone preserves the instant (partial)

* Model: `astimezone`, `timezone.fromutc`.
* Proof: from C26.
* Theorems: `C27_astimezone_partial`, `C27_hour_24_negation`, `C27_gap_negation`
* Result: astimezone keeps the instant for ordinary clock values when the UTC day is reachable; exceptions negated.

### C28 Fixed offset time zones (proved)

* Model: `timezone`.
* Proof: integer arithmetic; the generated name is shown injective.
* Theorems: `C28_accepts`, `C28_eq_hash`, `C28_name`

### C29 Julian Period day <-> Badi' date round trip (partial)

* Model: `jd_from_badi_date`, `badi_date_from_jd` in binary64 with the sunset oracle.
* Proof: error bounds (`Lemmas/BadiJd`, `Lemmas/Convert`).
* Theorems: `C29_start_of_day_partial`, `C29_time_of_day_partial`, `C29_lost_dates_negation`, `C29_change_dates_negation`, `C29_reform_negation`, `C29_last_year_negation`, `C29_midnight_negation`
* Result: Round trip proved for every date of the era except 35 listed dates and year 1161 after its first day, for every sunset function in the evening window; the statement is refuted for each excluded group. Times of day survive up to 2.5 ms; left out there is a tenth of a second around one midnight of year -814, where the time is wrong (C29_midnight_negation).

### C30 The Badi' day never goes backwards (partial)

* Model: `badi_date_from_jd`.
* Proof: monotonicity of rounding and of the table.
* Theorems: `C30_day_monotone_partial`, `C30_time_of_day_negation`, `C30_short_form_negation`
* Result: The day is monotone for every pair of instants (long form). The time of day within a date, and the short form in the last 1.8 ms of a day, go backwards: refuted with witnesses.

### C31 Historical and astronomical JD are inverse (partial)

* Model: `_meeus_from_exact`, `_exact_from_meeus`.
* Proof: case analysis on the tables; binary64 grids.
* Theorems: `C31_gaps`, `C31_historical_round_trip`, `C31_exact_strict`, `C31_monotone`, `C31_astronomical_round_trip_partial`, `C31_meeus_strict_partial`, `C31_window_negation`
* Result: Gaps for every rational JD; historical to astronomical and back, and strictness, for every binary64 JD up to 2^22; the opposite direction is proved outside the twelve days before JD 2^21 and refuted inside them (binary64 rounding).

### C32 Days up to a year follow the leap rule (proved)

* Model: `_days_in_years`.
* Proof: omega.
* Theorems: `C32_days_in_years_400`, `C32_days_in_years_128`

### C33 Gregorian date <-> JD (astronomical algorithm) round trip (partial)

* Model: `jd_from_gregorian_date`, `gregorian_date_from_jd` with `exact=True`, including the search loop.
* Proof: invariant of the loop; integer calendar (`Spec/Gregorian`).
* Theorems: `C33_day_partial`, `C33_time_partial`, `C33_late_years_negation`, `C33_alt_check_negation`, `C33_alt_back_negation`
* Result: Whole days: JD steps by one for all years within a million, and the way back holds to year 4713; with time of day the day is kept and the time is within 0.1 ms for years 1 to 4713. The property as stated is false: the way back is wrong after 4713 and the 128 year rule is checked with the 400 year rule.

### C34 Gregorian date <-> JD (historical algorithm) round trip (partial)

* Model: the Meeus branch of the same functions.
* Proof: floor arithmetic on binary64 products.
* Theorems: `C34_from_jd`, `C34_every_jd`, `C34_round_trip_partial`, `C34_julian_leap_day_negation`, `C34_lost_days_negation`
* Result: From JD to date is proved for every whole day from the JD origin on; the round trip for every date the validity check accepts. False as stated for Julian-only leap days such as 1500-02-29, which are refused, and the lost days of 1582 are accepted with a time.

### C35 POSIX timestamp decoding (partial)

* Model: `posix_timestamp`, `_posix_timestamp`'s loop over the years.
* Proof: invariant of the loop, binary64 bounds.
* Theorems: `C35_timestamp_partial`, `C35_december_31_negation`
* Result: Proved for every binary64 t from 0 to 2^53 except on 31 December, where the call always fails with an assertion error (also proved).

### C36 The correction table covers every year exactly once (proved)

* Model: `_coefficients.py`.
* Proof: whole table evaluated in the kernel, lifted to all years.
* Theorems: `C36_correction_table`

### C37 Nutation values do not depend on call history (partial)

* Model: the cache of `_nutation` as a state machine; the series are an arbitrary function.
* Proof: induction over histories.
* Theorems: `C37_history_partial`, `C37_history`, `C37_fresh_negation`
* Result: Every result is the direct value from the first call on that is not at time zero in radians; before that a call at time zero in radians gives 0: negated.

### C38 strptime results do not depend on call history (proved)

* Model: the caches of `_strptime` as a state machine; compilation and matching are arbitrary functions.
* Proof: induction over histories.
* Theorems: `C38_history`, `C38_cache_unused`
* Result: For arbitrary compilation and matching functions; the regex cache is shown never to answer.

### C39 strptime inverts strftime for numeric formats (partial)

* Model: `Model/Format`, `Model/StrpTime`: the format as tokens, the regular expressions as lists of alternatives matched with backtracking.
* Proof: every directive's text is read by its own alternatives without ambiguity; induction over the format.
* Theorems: `C39_round_trip_partial`, `C39_modifier_negation`, `C39_hour_24_negation`, `C39_iso_negation`, `C39_abbreviation_negation`, `C39_fraction_negation`
* Result: Round trip proved for every format made of literals and the directives YmdHMSfjBbAa (each once, with a year and a date) and every date from MINYEAR on with hour <= 23. False, and proved false, for hour 24, for the directives with '-', for the ISO week directives (no date comes back), for %b in month 15 and for %f after ':' or '-'.

### C40 strftime copies literal text (partial)

* Model: `_check_format` and the loop of `strftime`; the directives are an arbitrary function.
* Proof: induction over the tokens of the format.
* Theorems: `C40_copies_partial`, `C40_percent_partial`, `C40_refused`, `C40_empty_refused`, `C40_literal_negation`, `C40_percent_negation`, `C40_refused_negation`
* Result: Any meaning of the directives, every format: literals copied and directives replaced when no literal follows a literal '-' or ':' and the format does not begin with a literal and end with '-', ':' or '%'; malformed directives refused. The rest of the property is false: literals after '-' or ':' are lost, the second sign of %% starts a directive, and a malformed first directive is accepted when the format ends with '%'.

### C41 Integer rounding helper rounds half to even (proved)

* Model: `_divide_and_round`.
* Proof: omega.
* Theorems: `C41_divide_and_round`, `C41_unique`
* Result: all integers

### C42 Trimming a time drops only trailing zeros (proved)

* Model: `_trim_hms`.
* Proof: list induction.
* Theorems: `C42_trim`
* Result: tuples of any length

### C43 A day fraction always decodes to a legal time of day (partial)

* Model: `_hms_from_decimal_day`, `_decimal_day_from_hms` in binary64.
* Proof: error bounds.
* Theorems: `C43_decode`, `C43_decode_encode`, `C43_encode_decode_partial`, `C43_whole_second_negation`
* Result: Decoding is always legal and within 2 ms; whole seconds are recovered only within 2.5 ms, exactness is refuted (00:00:01 decodes to 1.0008 s).

### C44 Numeric helpers meet their mathematical definition (partial)

* Model: `_poly`, `_interpolation_from_three` (exact arithmetic), `_coterminal_angle` (binary64).
* Proof: algebra; error bounds.
* Theorems: `C44_poly`, `C44_interpolation`, `C44_coterminal_partial`, `C44_coterminal_negation`
* Result: The coterminal angle of a tiny negative angle is 360, so the half-open range is refuted for negative binary64 input; proved with the closed bound and a 1e-13 tolerance. The polynomial and the interpolation use exact arithmetic.

### C45 Angles and coordinates convert back and forth (partial)

* Model: `_decimal_from_dms`, `_dms_from_decimal` and relatives in binary64.
* Proof: error bounds.
* Theorems: `C45_coordinates_partial`, `C45_direction_word_negation`, `C45_hours`
* Result: Round trip within 1e-12; the word LATITUDE gives an E/W letter (refuted), LAT and LON are right.

### C46 Seconds <-> day, hour, minute, second (partial)

* Model: `_sec_microsec_from_seconds`, `_seconds_from_dhms` and relatives.
* Proof: error bounds, witnesses.
* Theorems: `C46_seconds_partial`, `C46_two_days_negation`, `C46_negative_negation`
* Result: Proved for totals in [0, 172800); refuted from two days on (one day only is split off) and for a negative total.

### C47 Mutually exclusive flags (partial)

* Model: `_xor_boolean`.
* Proof: list induction.
* Theorems: `C47_flags_partial`, `C47_check`, `C47_three_flags_negation`
* Result: Two flags are refused; three flags are accepted (refuted).

### C48 Local coordinates configuration (partial)

* Model: `LocalData` in `enable_geocoder`/`local_coordinates` as a state machine.
* Proof: induction over histories.
* Theorems: `C48_coordinates`, `C48_default`, `C48_locale`, `C48_integer_negation`, `C48_zone`, `C48_offset_exact`
* Result: Whole-number coordinates are silently replaced by Tehran: negated.

### C49 Constructed datetimes have in-range fields (partial)

* Model: `_create_time` in binary64.
* Proof: error bounds, witnesses.
* Theorems: `C49_whole`, `C49_fields_partial`, `C49_fraction_refused`, `C49_range_negation`, `C49_exact_negation`
* Result: Ranges with closed upper ends and the requested time up to 34 microseconds; minute 60, second 60, microsecond 1000000 and lost microseconds are witnessed.

### C50 timestamp() of a naive datetime (partial)

* Model: `timestamp`, `_local_timezone_info` in binary64.
* Proof: error bounds, witnesses.
* Theorems: `C50_counted_twice`, `C50_same_micro_partial`, `C50_micro_negation`, `C50_long_negation`
* Result: Microseconds are counted twice on every date and long form dates are read as short ones: negated. With equal microseconds the elapsed time is exact up to 0.2 ms.

### C51 The time constructor accepts exactly the valid times of day (proved)

* Model: `time.__new__`, `_check_time_fields`.
* Proof: case analysis.
* Theorems: `C51_time_accepts`

### C52 Aware datetimes compare as instants (proved)

* Model: `datetime._cmp` with offsets.
* Proof: integer microseconds.
* Theorems: `C52_instants`, `C52_mixed`

### C53 Pickling a time zone with coordinates (partial)

* Model: `TZWithCoords.__getinitargs__`, `__reduce__`.
* Proof: case analysis.
* Theorems: `C53_pickle_partial`, `C53_name_negation`
* Result: Coordinates, key and offset survive; the name does not when a key was given.

### C54 Naw-Ruz and Ridvan fall in the evening of the right Gregorian days (proved)

* Model: `naw_ruz_g_date`, `first_day_of_ridvan_g_date` (`Model/Conversion`).
* Proof: the day numbers of the year table against the Gregorian calendar, whole table evaluated in the kernel; error bounds for the time.
* Theorems: `C54_naw_ruz`
* Result: All years of the table, any evening sunset function, default location.

### C55 A Badi date and its Gregorian date denote the same day and can be converted back (partial)

* Model: `gregorian_date_from_badi_date`, `badi_date_from_gregorian_date` (`Model/Conversion`).
* Proof: C33's loop invariant with a fraction of a day, error bounds; witnesses.
* Theorems: `C55_instant_partial`, `C55_start_partial`, `C55_hour_24_negation`, `C55_back_negation`
* Result: The instant is right at every location up to 3 ms, and the day is right for the start of every convertible date. False: the hour can be 24 (then refused when converted back); the way back is off by the zone.

### C56 A timestamp is read back as the instant it was made from (partial)

* Model: `timestamp_from_badi_date`, `badi_date_from_timestamp`.
* Proof: binary64: the quotient is within half a unit of the multiple of 2^-32 it came from. At other places: `Props/PlaceDays.lean`, over the day lemmas of C94.
* Theorems: `C56_same_instant`, `C56_start_of_day_partial`, `C56_place_partial`, `C56_lost_dates_negation`, `C56_change_dates_negation`, `C56_reform_negation`
* Result: The instant is recovered exactly for all locations and options; the date for the start of a day, in Tehran except on the 35 dates where C29 is false, and there it is proved false: 22 have no timestamp, those of 12 are refused, that of the date after the reform gap gives a date ten days earlier. At other places except on the 83 days of the era that are not ordinary (OrdinaryDay in Spec/Place.lean: five days at each of the twelve changes of the scales of Julian days, fifteen in 1582, eight at the power of two 2097152).

### C57 fromtimestamp finds the day and the time of day of every timestamp (partial)

* Model: `date.fromtimestamp`, `datetime.fromtimestamp` with coordinates and zone given.
* Proof: binary64 monotony and error bounds between two starts of day, then the day and time lemmas of C29. At other places: `Props/PlaceDays.lean`.
* Theorems: `C57_within_day_partial`, `C57_monotone`, `C57_place_partial`, `C57_change_dates_negation`
* Result: Proved except for the last milliseconds of a day, the dates where C29 is false (C57_change_dates_negation: for twelve of them both fromtimestamp methods raise ValueError) and a tenth of a second at a midnight of year -814; at places other than Tehran except on the 83 days of C56 (datetime.fromtimestamp there: C95).

### C58 fromtimestamp undoes timestamp (partial)

* Model: `datetime.timestamp` of naive objects and `datetime.fromtimestamp`.
* Proof: C50 bounds the timestamp, C57 reads it; the negations are evaluated by the kernel.
* Theorems: `C58_round_trip_partial`, `C58_seconds_negation`, `C58_micro_negation`
* Result: The date is kept and the time of day up to 4 ms for whole seconds. False exactly: 12:05:00 comes back as 12:04:59.998800, and microseconds are counted twice.

### C59 utc_sunset is the UTC time of the sunset that starts a date (partial)

* Model: `utc_sunset`, with `_trim_hms` and the zone as arguments.
* Proof: `utcSunset_clock` evaluates the clock; the start of the day is that of C29.
* Theorems: `C59_zone_zero_partial`, `C59_not_utc_negation`
* Result: Proved with zone 0 for Tehran, up to 2.5 ms. At the default location the result is Tehran standard time, 3.5 hours later than UTC, on every date.

### C60 Timestamps of aware datetimes count the elapsed seconds (partial)

* Model: `datetime.timestamp` of aware objects, as the difference from the aware epoch.
* Proof: Reduction to the ordinals of C06 and the offsets; the naive value is that of C50.
* Theorems: `C60_aware_value`, `C60_difference`, `C60_naive_gap_negation`, `C60_two_hours_negation`
* Result: Value, differences and epoch are proved in full. That the timestamp is the POSIX time of the instant is false: it ignores sunset; the gap to the naive timestamp is proved exactly.

### C61 date(), time(), timetz() and combine take a datetime apart and put it together (partial)

* Model: `date()`, `time()`, `timetz()`, `combine`.
* Proof: Evaluation with the constructors, which accept the parts (`newDate_ok`, `newTime_ok`).
* Theorems: `C61_short_partial`, `C61_combine`, `C61_long_negation`
* Result: Proved for the short form. date() of a long form datetime drops the Kull-i-Shay and the Vahid.

### C62 Gregorian dates with a time of day survive the fraction form (partial)

* Model: `date_from_ymdhms`, `ymdhms_from_date`.
* Proof: Error bounds for the fraction (`dayFrac_err`) and for the reading of it (`ymdhms_frac`).
* Theorems: `C62_round_trip_partial`, `C62_seconds_negation`
* Result: The date is exact and the time within 3 ms; exactness is false (1 s comes back as 1.0008 s).

### C63 Badi dates with a time of day survive the fraction form (partial)

* Model: `date_from_kvymdhms`, `kvymdhms_from_b_date`.
* Proof: As C62, with a rounding to six places; the negations by the kernel or for every month.
* Theorems: `C63_round_trip_partial`, `C63_seconds_negation`, `C63_micro_negation`, `C63_last_day_negation`
* Result: Long form: the date is exact and the time within 50 ms; exactness is false. Microseconds are taken for days, and the short form loses the nineteenth day of every month.

### C64 The Gregorian check accepts exactly the dates of the calendar (partial)

* Model: `_check_valid_gregorian_month_day` as `date_from_ymdhms` calls it.
* Proof: Case split over the conditions of the check (`checkGregorian_iff`).
* Theorems: `C64_accepts_partial`, `C64_signs_negation`, `C64_other_day_negation`
* Result: Proved for non negative fields and seconds below 60; negative fields and more seconds are accepted too.

### C65 A zone offset survives its decimal form (partial)

* Model: `_tz_decimal_from_dhms`, `_tz_dhms_from_decimal`.
* Proof: C46 with the error of a division and a multiplication; the 192 quarter hours by the kernel.
* Theorems: `C65_close_partial`, `C65_quarter_hours`, `C65_minutes_negation`
* Result: Up to a nanosecond for every offset, exact for all quarter hours; 13 minutes come back as 12 minutes and 59.99... seconds.

### C66 The local zone correction moves a JD by the zone and can be undone (partial)

* Model: `_local_zone_correction`.
* Proof: Error bounds; for the way back, no sum is a tie (table of 193 zones by the kernel, lifted by `add_sub_zone`).
* Theorems: `C66_zone`, `C66_inverse_partial`, `C66_inverse_negation`, `C66_longitude_negation`, `C66_refused`
* Result: Shift and refusals are proved; the way back is exact for quarter hours and false for other zones; the longitude is divided by 360 and by 24.

### C67 Time tuples agree with the object (partial)

* Model: Model/StructTime: struct_time, _build_struct_time, timetuple and utctimetuple.
* Proof: The conversion of the long form is shortFromLong_ok; weekday and day of the year come from the ordinal lemmas; utctimetuple from dtAdd_ok. Two negations.
* Theorems: `C67_timetuple_partial`, `C67_date_timetuple`, `C67_utctimetuple_partial`, `C67_utc_offset_negation`, `C67_hour_24_negation`
* Result: Proved for all dates and for datetimes short or before hour 24. UTC has no offset in its tuple, and hour 24 of the long form gets the weekday and day of the year of the following day.

### C68 ctime names the day and determines it (partial)

* Model: Model/StructTime: ctime of date and datetime.
* Proof: The words of the text are computed by a small splitting function; numbers are read back by int; month names differ by a check of the whole table.
* Theorems: `C68_date_ctime`, `C68_datetime_ctime_partial`, `C68_determines_partial`, `C68_hour_24_negation`
* Result: Proved for all dates and for datetimes short or before hour 24. Hour 24 of the long form is written as hour 23 of the following day.

### C69 The 12 hour clock of strftime (partial)

* Model: Model/Directives: I, p, _find_midday; midday; the locale as a record.
* Proof: Midday is half the distance of two sunsets in Greenwich up to 1e-8 (midday_value): adding 1 commutes with rounding between two powers of two. A sun function that is two minutes earlier from one day on is the witness for -1. The difference of the two Julian day scales is the same on three successive days except at its changes (meeus_same); at a change the two sunsets are two days apart.
* Theorems: `C69_recombine`, `C69_clock_partial`, `C69_noon_negation`, `C69_before_noon_negation`, `C69_change_negation`
* Result: %I and %p always give the hour back. They are right outside of 11:58 to 12:02 on every day of the years -1842 to 1161 except 41 (ClockDay: two days at each of the twelve changes of the Julian day scales, the days of the Gregorian reform, and five days on which a Julian day passes the power of two 2097152, where the rounding is not followed). The hour after noon is 00, not 12; before noon -1 can be shown; and two days before a change of the scales 11:45 in the morning can be shown as -1 PM.

### C70 strftime writes the zone (partial)

* Model: Model/Directives: z, Z.
* Proof: Quarter hours are exact in binary, so each step of the computation is exact.
* Theorems: `C70_hours_partial`, `C70_naive`, `C70_quarters_negation`, `C70_zero_negation`
* Result: Whole hours are right. Fractions of an hour are written as hundredths in place of minutes, and UTC as if naive.

### C71 Composite directives are their parts (partial)

* Model: Model/Directives: c, D, r, x, X and the scanning of Model/Format.
* Proof: C40 gives the value of the spelled out format; the century of each of the 3005 years by the kernel.
* Theorems: `C71_time`, `C71_clock12`, `C71_locale_date`, `C71_locale_time`, `C71_date_partial`, `C71_date_negation`, `C71_date_time_partial`, `C71_date_time_negation`
* Result: %T, %r, %x and %X in full. %D fails before year -100, %c for years from -999 to -1 and for the long form.

### C72 Year directives of strftime are numbers of the date (partial)

* Model: Model/Directives: C, y, K, V, G, u.
* Proof: The value of each directive is rewritten to a padded number, whose reading back is a lemma; the cycles by the cycle theorem of C08, the century with both kinds of division.
* Theorems: `C72_century_partial`, `C72_century_negation`, `C72_cycles_partial`, `C72_cycles_negation`, `C72_iso_partial`, `C72_iso_year_negation`
* Result: %C with %y is right for years from 0 on and gives the year less 100 for the others except multiples of 100. %:K is no number before year -360. %G is the year of the calendar, which is not the ISO year on the days between the two new years.

### C73 strptime accepts exactly what follows the format (proved)

* Model: Model/StrpTime: the compiled format, the matcher with backtracking, the parse of the groups, week and day of year.
* Proof: Spec/StrpTime says by induction when a text follows a format. Soundness of the matcher by induction on the pieces; the fields by induction on the list of groups.
* Theorems: `C73_accepts`, `C73_day_of_year`, `C73_refuses`
* Result: Formats with the directives c, x, X, Z, which need the locale or the names of the zones, are outside of the model; the halves of the day are AM and PM. The dates of the week directives are only covered as far as the clock. Formats with the same directive twice are an error of re (C112); the theorems are about the others.

### C74 Sunset falls in the evening and sunrise in the morning (proved)

* Model: Model/Solar: ΔT, sidereal time, the 106 terms of nutation, the position of the sun, rising and setting with the corrections, all in exact real arithmetic.
* Proof: Bounds on every term; the right ascension as the argument of a complex number; the mean values of sine and cosine for one correction; the invariant that the time stays within two degrees of the first estimate.
* Theorems: `C74_sunset`, `C74_sunrise`, `C74_evening`, `C74_tehran`, `C74_sunset_60`, `C74_sunrise_60`, `C74_sunsets_60`
* Result: About the exact reading of the algorithm, in real arithmetic (Model/Solar). C74_evening and C74_tehran carry it over to floats under the hypothesis NearExact, that the floats are within ten minutes of the exact value. This is the hypothesis TehranEvening of the calendar theorems. C74_sunsets_60 derives the hypothesis SunSets of the theorems about any place (C94, C97) up to 60 degrees from the equator.

### C75 At the time of sunset found the sun is on the horizon (proved)

* Model: The solar model of C74; sinAltitude and sunHourAngle are spelled out in the property file.
* Proof: The correction of the time is a contraction of factor 0.12 near the first guess (Lemmas/SolarRoot); by the Banach theorem it has a fixed point, where the altitude is exact, and the loop stops within 2.4 seconds of it. Up to 60 degrees (Lemmas/SolarQuick, Props/SolarHigh) the crossing exists by continuity, and each correction, as a step of Newton, multiplies the distance to it by 0.022 plus twice that distance. That there are no other crossings (Lemmas/SolarOnly): the cosine of the hour angle decreases from noon to midnight by more than the change of the declination can undo, except within four degrees of the first estimate.
* Theorems: `C75_sunset`, `C75_sunrise`, `C75_sunset_60`, `C75_sunrise_60`, `C75_only`
* Result: About the exact reading of the algorithm. C75_sunset and C75_sunrise are the weaker forms (36 degrees, 2.4 seconds) that the equinox theorems use; C75_sunset_60, C75_sunrise_60 and C75_only are the property. The altitude and the hour angle are written out from the textbook (sinAltitude, sunHourAngle); the right ascension and declination are those of the library, interpolated at the point the code uses, t + dT/86400 where _delta_t already is in days (the code divides by 86400 twice).

### C76 Each year starts at the last Tehran sunset before the spring equinox (partial)

* Model: Model/Equinox: the series for the moment of the equinox, real valued, with the divisor as the code has it; the sunset is that of C74 and C75.
* Proof: Lemmas/EquinoxAngle and EquinoxSunset linearise the coordinates of the sun within 2.9 degrees of the equinox and reduce the sunset to one equation with a proved error of 0.042 degrees (10 seconds); Lemmas/CosTable gives a cosine in integers with a proved error; Lemmas/EquinoxYear defines a rational check of one year and proves it sound, and Lemmas/EquinoxTable evaluates it in the kernel for all 1422 years of the range.
* Theorems: `C76_year_start_partial`, `C76_one_minute_negation`, `C76_before_reform_negation`
* Result: Proved for the years -260 to 1161 (1583 to 3004), with the equinox and the sunset in exact real arithmetic and the sunset oracle within one second. False before: the year -261 starts more than nine days after the equinox of 1582 and the year -1842 more than three days before that of the year 1 (C76_before_reform_negation). In the year 216 the equinox is less than a minute before the second sunset, so with the minute of tolerance the script would start the year a day later than the table (C76_one_minute_negation).

### C77 The datetime constructor checks both its date and its time (partial)

* Model: Model/DateTime newDT: the two checks in the order of the constructor.
* Proof: Props/DateTimeNew joins the exactness of the date check (C22) with that of the time check (C51).
* Theorems: `C77_accepts_partial`, `C77_outside_years_negation`
* Result: Proved for the years -1843 to 1161. False in the year 1162 of the short form, whose last day is accepted although the calendar has no such day (C77_outside_years_negation).

### C78 The seasons follow each other and have their lengths (proved)

* Model: Model/Equinox seasonJde, findSeason: real arithmetic.
* Proof: Props/Seasons: the periodic terms move the moment by at most 0.0207 day, and Lemmas/SeasonLength bounds the differences of the polynomials for all years by algebra.
* Theorems: `C78_seasons`, `C78_year`
* Result: Stated of the exact reading of the algorithm: real arithmetic instead of binary64, as DESIGN.md says of the solar model.

### C79 The sun is at the longitude of the season at the moment found (proved)

* Model: Model/Equinox findSeason and Model/Solar sunApparentLongitude.
* Proof: A rational certificate for each of the 12016 seasons: Lemmas/FastCos evaluates cosines in natural numbers with a proved error, Lemmas/SeasonCert proves the check sound, Lemmas/SeasonTable1..4 let the kernel run it for every year; Props/Seasons lifts it.
* Theorems: `C79_longitude`
* Result: Stated of the exact reading of the algorithm: real arithmetic instead of binary64, as DESIGN.md says of the solar model.

### C80 The seasons begin on their dates (proved)

* Model: Model/Equinox findSeason and Model/Gregorian jdFromGregorianMeeus.
* Proof: Props/SeasonDates: the integer polynomial is compared with the day numbers of the four months for each of the 1422 years by the kernel, with a margin larger than the periodic terms.
* Theorems: `C80_dates`
* Result: Stated of the exact reading of the algorithm: real arithmetic instead of binary64, as DESIGN.md says of the solar model.

### C81 The moments of the seasons are those of Meeus in Universal Time (partial)

* Model: Model/Equinox findSeason against meeusMoment, the formula of the book.
* Proof: Props/SeasonDates: the partial from the bounds of the sum and of both divisors; the negations evaluate the sum and the cosines with proved errors (moments_near).
* Theorems: `C81_meeus_partial`, `C81_divisor_negation`, `C81_universal_time_negation`
* Result: Proved: within 127 seconds of the moment in Dynamical Time. False in full: the divisor of the periodic terms is misplaced by a parenthesis, which costs 24 seconds in 2980, and the difference of the time scales, in days already, is divided by 86400 again, so the moment stays in Dynamical Time: 70 seconds late in 2024, two and a half hours in the year 100. Stated of the exact reading of the algorithm: real arithmetic instead of binary64, as DESIGN.md says of the solar model.

### C82 `isoformat(timespec)` cuts the time to the named unit and reads back as the time cut (partial)

* Model: Model/TimeSpec: formatTimeSpec, timeIsoSpec, dtIsoSpec; read back by the model of fromisoformat (Model/IsoText).
* Proof: Props/TimeSpec: the text of each unit as padded digits, then the parser lemmas of C20; the negation runs the parser on the six digits 000249.
* Theorems: `C82_round_trip_partial`, `C82_micro_negation`, `C82_width`, `C82_auto`, `C82_default`, `C82_unknown`, `C82_micro_partial`
* Result: The widths, auto, the default and the error are proved in full. The round trip of a datetime in the short form is proved for hours, minutes, seconds and milliseconds, and with microseconds for microseconds that are whole milliseconds. C82_micro_negation: 249 microseconds printed with timespec microseconds read back as 248. With other microseconds the datetime comes back as it was or a microsecond earlier (C82_micro_partial). Missing: negative offsets with minutes, years -999..-1 and the long form of a datetime (as in C20).

### C83 `eval(repr(x))` is x (partial)

* Model: Model/Repr: the five __repr__ methods. Spec/PyExpr: a separate reader and evaluator of constructor calls (tokens, expressions, binding of positional and keyword arguments, the constructors of the model).
* Proof: Lemmas/Repr: each printed piece is read as the expression it stands for, whatever follows it; Props/Repr composes them by cases of the omitted zeros, the zone and the fold. The negations show that the reader finds no expression in the text.
* Theorems: `C83_date`, `C83_time`, `C83_zone`, `C83_datetime`, `C83_aware_time_negation`, `C83_library_time_negation`, `C83_coords_negation`
* Result: Proved for dates, times without a zone, zones and datetimes with or without a zone. False of times with a zone (str of the zone is printed: tzinfo=UTC+03:30, or the coordinates) and of zones with coordinates (the offset is printed as the latitude): both negated. Names can be any text; which characters outside of ASCII are printable is left open.

### C84 `str(x)` loses nothing: two objects with the same text have the same fields (partial)

* Model: Model/StrText: date._str_convertion, datetime._dt_str_conversion; times by timeIso.
* Proof: Props/StrText: the number at the front of a text and the text after it are determined (peel), so equal texts have equal fields one after the other; the fraction is read by a separate function.
* Theorems: `C84_date`, `C84_time`, `C84_datetime`, `C84_fraction_short`, `C84_fraction_long`
* Result: The texts of different objects differ: proved for all pairs. The decimal fraction is right for the short form and for times; C84_fraction_long: for the long form it is right exactly when the microsecond is at least 100000, since it is not padded (5 microseconds are printed as .5).

### C85 `strptime` with `%z` reads the offsets that `strftime` writes (partial)

* Model: Model/StrpTime: the pattern of `%z` as 31 alternatives, the parse of the offset and the zone that is made of it; Model/Directives: `%z` of strftime.
* Proof: Lemmas/StrpZone: the first alternative that matches an offset text has the length of the text, by composition of the alternatives; Lemmas/ZoneText: the parse of the digits. For the refusals, the sign can only be at the start of the offset.
* Theorems: `C85_reads`, `C85_colons`, `C85_round_trip_partial`, `C85_quarters_negation`, `C85_zero_negation`
* Result: The reading is proved for every offset text; the round trip for zones a whole number of hours from UTC. False, and proved false: the quarter and half hours come back as another offset, three quarters are refused, and UTC is written as nothing and refused.

### C86 `strptime` with `%I %p` reads the 12 hour clock that `strftime` writes (partial)

* Model: Model/StrpTime: `%I`, `%p` and the hour of the 12 hour clock; Model/Directives: `%I` and `%p` of strftime.
* Proof: The value of `%I` and `%p` from C69, the reading from the round trip of C39 with two more groups. For the hours 0 and 12, no text that matches `%I` stands before the last space.
* Theorems: `C86_round_trip_partial`, `C86_noon_negation`
* Result: Proved for every day of the years -1842 to 1161 except the 41 of C69, away from two minutes around noon, for the hours other than 0 and 12, in a locale with AM and PM. For the hours 0 and 12 it is false: 00 is written, and refused by the same format.

### C87 A zone with coordinates answers for itself, whatever other zones are made (partial)

* Model: Model/ZoneState: the class attribute `_zi` and the objects made, as a state changed by calls; `dst`, `utcoffset`, `tzname` of an object in a state.
* Proof: Induction on the sequence of calls: the attribute is the `ZoneInfo` of the last `fromzoneinfo`, the objects are only added to. The effect on `tm_isdst` from C67.
* Theorems: `C87_fixed_parts`, `C87_plain`, `C87_own_partial`, `C87_shared_negation`, `C87_utc_negation`, `C87_two_zones_negation`, `C87_isdst_negation`
* Result: Proved for offset, name and coordinates after any calls, and for dst() up to the next fromzoneinfo. dst() afterwards is false, and proved false: every zone, UTC included, takes the daylight saving time of the ZoneInfo passed last, even by a refused call, and timetuple() of a UTC datetime changes.

### C88 `astimezone` uses the local zone for what is not given (partial)

* Model: Model/LocalZone: `_mktime`, `_local_timezone`, and `astimezone` with its four combinations.
* Proof: The decoding of the timestamp from the lemmas of C57, the instant from those of C27. For offset zero, no path through `_local_timezone` returns.
* Theorems: `C88_aware_partial`, `C88_naive_partial`, `C88_zero_negation`, `C88_type_error_negation`
* Result: Proved for local zones of whole seconds other than zero at the default coordinates, on the days of C27 and C57. For a local zone of offset zero it is false: every such call raises, with TypeError.

### C89 `min` and `max` are the limits of their class (partial)

* Model: Model/Limits: the constants; everything else from Model/Date, Model/Time and Model/DateTime.
* Proof: The days of the limits from the year table; the comparisons field by field.
* Theorems: `C89_date_days`, `C89_date_order_partial`, `C89_ayyam_negation`, `C89_outside_negation`, `C89_max_arithmetic_negation`, `C89_overflow`, `C89_time_partial`, `C89_time_negation`, `C89_datetime_partial`, `C89_datetime_negation`
* Result: The limits are the first and last day of the documented years and addition beyond them overflows. By comparison it is false, and proved false, for Ayyám-i-Há of the year -1842 (less than date.min), the years -1843 and 1162, times after 24:00:03, datetimes after the start of the last day; and adding zero to date.max raises AssertionError.

### C90 The ISO readers accept only ISO texts and refuse the rest with ValueError (partial)

* Model: Model/IsoText: the parsers branch by branch on arbitrary texts (digits are the ASCII digits).
* Proof: Each step of the parsers either returns or raises ValueError or AssertionError; the checks of the constructors give the ranges; a week text of any two characters names a day of the calendar or is refused (isoweek_cases). The negations compute the parser on texts with symbolic digits.
* Theorems: `C90_date_partial`, `C90_trailing_negation`, `C90_separator_negation`, `C90_time`, `C90_datetime_partial`, `C90_date_alone_negation`, `C90_index_negation`, `C90_type_negation`, `C90_kind_negation`
* Result: For every text a result is a day of the calendar with fields in range (in the year written, unless the text is a week date), and the exceptions possible are exactly named. Times: proved as stated. False, and proved false: digits after a date are ignored; separators may be any digits; a date alone is read by datetime as the first of the month in a zone of minus the day of the month; a basic date alone is IndexError, a time alone TypeError, impossible fields AssertionError.

### C91 The apparent longitude of the sun is that of Meeus, with all corrections in one unit (partial)

* Model: Model/Sun: the tables and the series over exact real numbers with the rounding to 12 places.
* Proof: The amplitudes bound each series (finite sums evaluated by the kernel); the aberration always outweighs the nutation, so the sum of both never vanishes and its factor 180/pi is always visible.
* Theorems: `Sun.C91_aberration_partial`, `Sun.C91_aberration_negation`, `Sun.C91_longitude_partial`, `Sun.C91_longitude_negation`
* Result: Proved: the longitude is within 0.65 degree of the formula and the aberration within 0.00023 degree. False, and proved false: at every moment of the range the longitude differs from the formula by at least 0.0037 degree, since nutation and aberration in degrees are added to radians; and the aberration is too small by more than 0.00014 degree whenever the sun moves fastest, since arcseconds are converted to radians as if they were degrees. Float rounding inside is not modelled, the rounding to 12 places is.

### C92 The apparent latitude of the sun is a latitude and that of Meeus (partial)

* Model: Model/Sun: the same.
* Proof: The series for the latitude is at most 570e-8 radian and the reduction at most 1.4143 times its coefficient; the angle next to zero is moved by _coterminal_angle. The example exhibits a moment with a southern latitude.
* Theorems: `Sun.C92_latitude_partial`, `Sun.C92_range_negation`
* Result: Proved: but for whole turns the latitude is within 0.000031 degree (0.12 arcsecond) of the formula. False, and proved false: south of the ecliptic the value returned is over 359.999 degrees. Not decided: how far the mixed units in the angle of the reduction move the value inside of the 0.12 arcsecond.

### C93 The transit is the moment at which the sun crosses the meridian, near noon of the same day (partial)

* Model: `Model/Transit.lean`: `sunTransit`, `transitCorrection`, `wrapOnce` on top of the exact solar model of `Model/Solar.lean`.
* Proof: `Props/Transit.lean`: the right ascension and the sidereal time are written as linear motions plus bounded errors and whole turns; the interpolation weights bound the error left after one correction. The negation evaluates both at one date to within 0.01 turn.
* Theorems: `Solar.C93_meridian`, `Solar.C93_noon`, `Solar.C93_between_partial`, `Solar.C93_range_negation`
* Result: Proved: the hour angle at the transit is at most 0.0012 degree and the transit is within 25 minutes of a local mean noon, for all longitudes; from local midnight, up to 60 degrees of latitude and 170 degrees east, it lies between sunrise and sunset and within 26 minutes of half a day. False, and proved false: for 2451635.8 and longitude 180 the result is negative, since a turn is added only once. Float rounding is not modelled.

### C94 At every place badi_date_from_jd undoes jd_from_badi_date (partial)

* Model: `Model/Place.lean`: `placeOr`, `jdFromBadiDateAt`, `badiDateFromJdAt` over the functions of `Model/Badi.lean`, which take any coordinates.
* Proof: `Props/Place.lean`: around an ordinary day the two day counts differ by one and the same number c (`Quiet`), so the sunset of civil day P + c starts day P at every place; the civil day found again is P or P + 1 however local midnight is rounded, and both choices lead to the same sunset. The place enters only through `SunSets` (the sun sets within the local civil day). `Props/PlaceDays.lean`: the order of instants, and days of more than 24 hours.
* Theorems: `C94_round_trip_partial`, `C94_instant_partial`, `C94_time_of_day_partial`, `C94_date_line_negation`, `C94_no_zone_negation`, `C94_monotone_partial`, `C94_long_day_negation`, `C94_lost_dates_negation`
* Result: Proved for all longitudes from -180 to 179.9999 and all dates to the first day of 1161 but the 83 days of the era that are not ordinary (OrdinaryDay in Spec/Place.lean: five days at each of the twelve changes of the scales of Julian days, fifteen in 1582, eight at the power of two 2097152), up to 24 hours after the start of a date (times up to a few ms); a later instant never gets an earlier date (up to longitude 180). False, and proved false: from 24 hours after its start to the end of a longer day the next date is given; at longitude 180 every date comes back as the next date; with `lat` and `lon` but no `zone` the coordinates are ignored. The other days are proved only for Tehran (C29). C94_lost_dates_negation refutes it for 22 of the excluded days: the ten dates of the reform have no Julian day at any place, and the eves of the twelve scale changes have none wherever the sun sets on the same day in Universal Time.

### C95 datetime.fromtimestamp(t, tz) is the date and time at t in that zone (partial)

* Model: `Model/Place.lean`: `timestampAt`, `StampZone`, `fromTimestamp` (the coordinates are those of the zone object or of the machine; the zone object is kept as it is).
* Proof: `Props/StampPlace.lean`: the instant of a timestamp lies between the starts of two dates (`instant_between`), then as for C94. The negations compare the UTC timestamp computed from the fields (`aware_value`) for two zones, and for two consecutive dates.
* Theorems: `C95_place_partial`, `C95_plain_zone_negation`, `C95_timestamp_negation`
* Result: Proved: with a zone made with coordinates and an offset the date is that of the place and the time is the time since its start, to within 3 ms. False, and proved false: zones without coordinates do not change the fields, so the results are different instants; and timestamp() does not give t back wherever two consecutive dates are not 24 hours apart.

### C96 %U and %W number the weeks of the year and are read back (partial)

* Model: `Model/Format.lean` (directives U and W), `Model/Ordinal.lean`: `yearWeekDay` with `week0`, `Model/StrpTime.lean`: `julianFromWeek`, `fromWeeks`.
* Proof: `Props/WeekDirectives.lean`: the week of `strftime` is counted from the Jalál of the week of the 4th of Bahá, that of `strptime` from the first Jalál of the year; the two differ by seven days exactly when the year begins on weekdays 1 to 3. Week 53 is refused because every accepted text follows the format (`findRegex_follows`), whose week has at most 52.
* Theorems: `C96_weeks`, `C96_first_day`, `C96_week_zero_negation`, `C96_round_trip_partial`, `C96_round_trip_negation`, `C96_week_53_negation`, `C96_w_negation`
* Result: Proved: both directives agree, the 4th of Bahá is in week 1 and the number grows exactly at each Jalál; the date is read back up to week 52 in years that begin on weekdays 0, 4, 5 and 6. False, and proved false: the documented rule for week 0 in every year that does not begin on `Idāl; reading back in years that begin on weekdays 1 to 3 (every date comes back a week late) and in week 53 (refused); and strftime refuses %w, which strptime reads.

### C97 _day_length is the time from the start of a date to the start of the next one (partial)

* Model: `Model/Conversion.lean`: `dayLengthRaw`, `dayLength`, `dayLengthHms`.
* Proof: `Props/DayLength.lean`: the integer part of the instant names a civil day, whose two sunsets are `ssP` (lemmas of C94); their difference is exact in binary64, so only the rounding to 12 places is lost.
* Theorems: `C97_length_partial`, `C97_hms_partial`, `C97_after_noon_negation`, `C97_before_noon_negation`, `C97_hms_negation`
* Result: Proved for the instants between the two 12:00 UT around the civil day of the date, in hours for lengths from one hour to 25 hours. False, and proved false: from the second 12:00 UT to the end of the date the length of the next date is given; where the sun sets before 12:00 UT (the east) the first hours of a date are given the length of the date before; in hours, minutes and seconds a day of more than 25 hours comes out 24 hours short. Missing: the 83 days of C94.

### C98 struct_time and strftime accept exactly the plain tuples of a date and time (partial)

* Model: `Model/PlainTuple.lean`: `structTimeOf`, `checktmPlain`, `strftimePlain`, over `structTime` and `checktm`.
* Proof: `Props/PlainTuple.lean`: the datetime constructor decides `struct_time` (C77); `_checktm` is a chain of asserts, refused as soon as one fails. The tuple is the fields of a date followed by six integers, so nothing is assumed about them.
* Theorems: `C98_struct_partial`, `C98_check_partial`, `C98_strftime`, `C98_weekday_negation`, `C98_second_61_negation`, `C98_late_years_negation`
* Result: Proved for years -1843 (check: -1842) to 1161, with the kind of exception for each refusal, and that the text of a tuple is that of its struct. False, and proved false: the weekday and the day of the year are never compared with the date (struct_time takes any integers); second 61 passes the check of strftime and is then refused by struct_time; the long form years 1162 to 1444 are accepted by both, and raise KeyError in month 0.

### C99 Delta T never jumps by a second between one formula and the next (proved)

* Model: `Model/Solar.lean`: `decimalYear`, `deltaTSeconds`, `deltaT`.
* Proof: `Lemmas/DeltaTable.lean`: between limits the change over a month is decided by the kernel in integer arithmetic for each month of years -10 to 3016, which is every month that the days of the statement can have. `Props/DeltaT.lean`: two days at most 18 days apart are in the same or in neighbouring months, by the proved dates of Meeus (C02).
* Theorems: `Solar.C99_steady`
* Result: In exact rational arithmetic: the rounding of each float operation in the polynomials is not modelled (it is far below a second). The function uses only the Gregorian year and month of its argument, so its values change at the first of a month; the largest change is 0.9063 seconds, at the beginning of year 500.

### C100 date.fromtimestamp, datetime.fromtimestamp, today and now agree on the day, in both forms (partial)

* Model: `Model/Clock.lean`: `today`, `now`; `Model/Conversion.lean`: `dateFromTimestamp`, `dtFromTimestamp`; `Model/Badi.lean`: `badiDateFromJd`, `kvymdhmsFromBDate`, `shortFromLong`.
* Proof: `Lemmas/SameDay.lean`: the end of `badi_date_from_jd` in closed form for both options, the carry of hour 24 included (`shortRoll`). `Props/SameDay.lean`: the fields of the time are always in range (C43), so no check of the constructor of `datetime` can fail that does not fail for `date`.
* Theorems: `C100_same_day`, `C100_today`, `C100_forms_partial`, `C100_forms_negation`
* Result: The date is always the same, and so are the exceptions: proved without any assumption. The two forms agree unless the hour of the long form is 24; in the last 1.8 ms of a day of 24 hours the long form is hour 24 of the day and the short form is 23:00 of another day, as much as a month later (proved false there).

### C101 Equal zones are interchangeable (partial)

* Model: `Model/ZoneEq.lean`: `StampZone.eq`; `Model/DateTime.lean`: `dtCmp`, `dtSub`, `dtHash`, `awareTimestampUs`.
* Proof: `Props/ZoneEqual.lean`: each operation is brought to a form in which only the offset of the zone occurs.
* Theorems: `C101_objects_partial`, `C101_fromtimestamp_negation`
* Result: Comparisons, differences, hashes and timestamps depend on the offset only: proved for all operands. fromtimestamp also uses the coordinates of a TZWithCoords, which __eq__ does not compare, so equal zones give unequal datetimes: proved false.

### C102 The distance of the sun is that of an ellipse of Kepler (partial)

* Model: `Model/Sun.lean`: `radius` with the tables R0 to R4; `Model/SunDegrees.lean`: `radiusVector`.
* Proof: `Lemmas/SunDistance.lean`: the two large terms of the series are separated and the rest bounded by the sum of the amplitudes; the motion of the perihelion is a small angle. `Props/SunDistance.lean`: the factors of the cosine and of the sine of the main angle are compared with those of the ellipse.
* Theorems: `C102_distance_partial`, `C102_range`, `C102_degrees_negation`
* Result: Proved for degrees=False over all moments, in exact real arithmetic. With degrees=True the distance is multiplied by 180/pi as if it were an angle and is between 56.19 and 58.42: proved false.

### C103 strptime reads the formats of the locale that strftime writes (partial)

* Model: `Model/LocaleTime.lean`: `calcAmPm`, `replacementPairs`, `guessFormat`, `localeFormat`, `localeTime`, `compileLocale`, `strptimeLocale`; `Model/Directives.lean`: `c`, `x`, `X`. The names of the zones are a parameter in any order; the checks that the locale changes meanwhile and the cache are left out.
* Proof: `Lemmas/LocaleTime.lean`: the replacements are computed by the kernel for each of the finitely many orders and separators; the names of the zones, of which there can be any, never occur in the result since each three characters of it have one that no name has. `Props/LocaleTime.lean`: induction on the format. `Props/LocaleRound.lean`: matching of the texts of all fields, with a general order of the date.
* Theorems: `C103_formats`, `C103_expand`, `C103_date_time_partial`, `C103_month_negation`, `C103_locale_partial`, `C103_century_negation`, `C103_afternoon_negation`, `C103_noon_negation`
* Result: Proved for %c outside month 15 and for %x %X in locales with the full year and 24 hours. Proved false: %c in month 15 is read as month 11, two digits of the year are read as the first century, and the 12 hour format has no half of the day, so that hours from 13 on come back 12 hours early and hours 0 and 12 are refused.

### C104 Copies of a fixed offset zone (partial)

* Model: `Model/ZoneCopy.lean`: `zoneInitArgs`, `newZoneIn`, `putSlots`, `zoneCopy`, `zoneCopies`. What `tzinfo.__reduce__` of the standard library puts into the state is a parameter, since it differs between the supported versions of Python.
* Proof: Case distinction on the name and the offset; induction on the sequence of copies, with `timezone.utc` as the state.
* Theorems: `C104_copy_partial`, `C104_copies_partial`, `C104_utc_negation`, `C104_name_negation`
* Result: Proved for every zone whose name is not empty, and exactly which copies are faithful. Proved false for the empty name: in Python 3.10 the copy gets a name made from the offset, and from 3.11 on copying timezone(timedelta(0), '') gives timezone.utc and sets its name to '' for the whole program.

### C105 badioffset is the offset from Tehran (partial)

* Model: `Model/ZoneCopy.lean`: `zoneBadiOffset`, `TimeObj.badiOffset`.
* Proof: Linear arithmetic from `C28_accepts` and `C28_eq_hash`.
* Theorems: `C105_tehran`, `C105_legal_partial`, `C105_legal_negation`
* Result: Everything is proved but the limits: badioffset is a legal offset exactly for zones east of UTC-20:30, and -24:30 for UTC-21:00.

### C106 strptime reads the names of zones with %Z (partial)

* Model: `Model/ZoneNames.lean`: `HostZone`, `zoneNamePats`, `altsNamed`, `compileNamed`, `matchNamed`, `findNamed`, `Found.namedZone`, `Cal.namedFound`, `Cal.strptimeNamed`. The order of a `frozenset` is not fixed: the names are any list with the elements of the two sets.
* Proof: The matches with `%Z` at the end are those of the format before it, each followed by the first name that fits (`matchNamed_plain`); the names are sorted from the longest, so a known name is taken whole (`withName_known`). The fields come from C58 and C85.
* Theorems: `C106_names`, `C106_known`, `C106_round_partial`, `C106_alone_negation`, `C106_unknown_negation`
* Result: Proved which names are read and that the round trip holds for zones a whole number of hours from UTC with a name the host knows. Proved false for the other names, that of timezone.badi among them, which are refused, and for %Z without %z, which gives a naive datetime.

### C107 Datetimes with any tzinfo are ordered, subtracted and hashed by their instants (partial)

* Model: `Model/AnyZone.lean`: `AnyZone` (identity and any function from the object to an offset, `None` or an exception), `anyOffset`, `Cal.anySub`, `Cal.flipFold`, `Cal.foldMatters`, `Cal.anyCmp`, `Cal.anyEq` ... `Cal.anyGt`, `Cal.anyHash`, `Cal.anyAstimezone` (that the `fromutc` of the standard library refuses this `datetime` is trusted).
* Proof: The ordinals are those of C07, so differences are those of local microseconds (`anySub_eq`); the two offsets with the other `fold` are followed by `flipFold_ok`. For the hash, an object equal to one with another zone has an offset that does not depend on `fold`, so the offset at `fold` 0 is its own.
* Theorems: `C107_instants_partial`, `C107_fold_unequal`, `C107_equal_partial`, `C107_one_zone`, `C107_hash`, `C107_fixed`, `C107_one_zone_negation`, `C107_refusing_negation`, `C107_astimezone_negation`
* Result: Proved for two zone objects: differences, order (offsets unequal; with equal offsets the fields are compared), equality with the rule about fold; and hashes in the short form. Proved false: within one zone object the offsets are not asked for, so that two times an hour apart are equal and the order is not transitive; a zone that refuses this datetime (timezone of the standard library) makes == raise; astimezone to a zone that inherits fromutc always raises TypeError. C107_fixed: the zones of the library are a special case of this model.

### C108 Times with fractions of an hour, a minute or a second (partial)

* Model: `Model/FracTime.lean`: `Num` (int or float), `FracTime`, `newFracTime`, `numCmp`, `fracCmp`, `fracEq`, `fracLe`, `fracLt`, `Num.index` (what `bytes([...])` takes), `fracState`, `fracPickle`, `fracHash`. Objects without a zone; NaN and infinities are not modelled.
* Proof: The lexicographic comparison is shown to be total and transitive for lists of any length. For the time of day, an earlier minute outweighs the seconds and an earlier second the microseconds (`lex_seconds`).
* Theorems: `C108_accepts`, `C108_total`, `C108_integers`, `C108_hash`, `C108_order_partial`, `C108_hash_negation`, `C108_order_negation`
* Result: Proved: what the constructor accepts; that the order is total and transitive; which times can be hashed and pickled (exactly those with four ints), with equal hashes for equal ones; and that the order is that of the time of day if hours and minutes are whole, seconds below 60, and fractions of a second are given in one way only. Proved false otherwise: half past one as hour 1.5 is later than 1:40 and unequal to 1:30, and time(10.0) is equal to time(10) but neither hashable nor picklable. C108_integers: the integer model is a special case.

### C109 Dates with a part of a day (partial)

* Model: `Model/FracDate.lean`: `FracDate` (short form, the day a `Num`), `Cal.newFracDate`, `Cal.fracOrd`, `Cal.fracWeekday`, `Cal.fracCtimeDay`, `Cal.fracDateIso`, `fracDateState`, `fracDateHash`, `Cal.fracDatePickle`, `fracDateCmp`, `Num.asDays` (the constructor of `timedelta` in the standard library), `Cal.fracSubDate`, `Cal.fromOrdinalNum`, `Cal.fracAdd`. Long forms with fractions are not modelled.
* Proof: bounds on the roundings of the ordinal; the floor in `_ord2ymd` for a fraction is that of an integer ordinal, to which the theorems of C07 apply.
* Theorems: `C109_accepts`, `C109_integers`, `C109_subtract`, `C109_order_partial`, `C109_add_partial`, `C109_add_negation`, `C109_weekday_negation`
* Result: Proved: what is accepted; the order, except between Ayyam-i-Ha and other days of a year (C13); differences, to a quarter of a millisecond; sums up to 0.7395 of a day, where the part of the day is lost. False, and proved false for all such dates: from 0.7396 of a day on a sum is a day late, even with a timedelta of zero; the weekday of a date with a float is a float between the weekdays, ctime and isoformat raise, and hash and pickle raise TypeError.

### C110 _strptime_time reads the moment that datetime.strptime reads (partial)

* Model: `Model/StrpStruct.lean`: `Cal.strptimeTimeFound`, `Cal.strptimeTime`, over the matching and evaluation of `Model/StrpTime.lean` and `_build_struct_time` of `Model/StructTime.lean`.
* Proof: both functions share all steps up to the fields; then C67 for the struct, and the inversion of the checks of `newDT` for the acceptance. The bound on microseconds comes from the texts of `%f`.
* Theorems: `C110_same`, `C110_accepts`, `C110_offset_negation`, `C110_second_negation`
* Result: Date, clock, weekday and day of the year are proved for every text that datetime.strptime reads as a day from MINYEAR - 1 to MAXYEAR. False, and proved false: zone and offset of the text are dropped; texts with offsets of 24 hours or more are read, which datetime.strptime refuses (no others: C110_accepts); second 61 is refused by both.

### C111 _sun_rising and _sun_setting find the sunrise and the sunset of the local day (partial)

* Model: `Model/SunRising.lean`: `sunRising`, with an oracle for `_rising_setting`; `sunSetting` of `Model/Base.lean`. `Spec/LocalDay.lean`: `localDay`, `localClock`, in exact arithmetic.
* Proof: the rounding of the longitude, of the sum and of the day is bounded, so the floor is right away from midnight; the negation evaluates the float chain at one instant and holds for every oracle.
* Theorems: `C111_day_partial`, `C111_same_day_partial`, `C111_order_partial`, `C111_hypothesis`, `C111_midnight_negation`
* Result: Proved for instants two milliseconds or more from local midnight; the hypothesis on the oracles is derived (C111_hypothesis) from the exact reading of the algorithm up to 60 degrees from the equator. False, and proved false, closer to midnight: in Tehran the last instant before midnight gets the sunset of the next day.

### C112 The failures of strptime are ValueErrors (partial)

* Model: `Model/StrpTwice.lean`: `Cal.strptimeFull` adds the error of `re.compile` to `Cal.strptime`; the specification is `Follows` of `Spec/StrpTime.lean`.
* Proof: all steps before the calendar raise ValueError only; with a date of the calendar and a clock below 61 seconds the rest succeeds. Texts that follow a format show that the format compiles, and which groups it has.
* Theorems: `C112_value_partial`, `C112_once`, `C112_twice_negation`, `C112_year_negation`, `C112_date_negation`, `C112_key_negation`, `C112_iso_negation`, `C112_second_negation`
* Result: Proved: any other exception comes only from a format with a directive twice, or from a text that follows the format and has a day of the year, week of the year or ISO year in it, names no date, or has the second 61. False, and proved false, in each of these cases: a directive twice is re.error for every text that follows the format; a year outside of the era, a fifth day of Ayyam-i-Ha in a common year, weekday 7 with the ISO week and the second 61 are AssertionError; days of the last year are KeyError.

### C113 A time of sunset or sunrise is given only when the sun sets or rises (partial)

* Model: `Model/Solar.lean`; the altitude and the hour angle are those of `Props/SolarRoot.lean`, from the textbook.
* Proof: four degrees on either side of the first estimate the sun is above and below the horizon, and the altitude is continuous; the corrections converge to the crossing (C75). For the negations, the declination of 21 June 2025 is bounded from the mean longitude and the obliquity of the days around it.
* Theorems: `C113_crossing_partial`, `C113_midnight_sun_negation`, `C113_polar_night_negation`
* Result: About the exact reading of the algorithm. Proved up to 60 degrees from the equator, with a tolerance of 0.3 seconds. False near the poles, and proved false: on 21 June 2025 the sun is up all day at every place from 66 degrees north up to, but not at, the pole and down all day from 67.7 degrees south down to, but not at, the pole, and times of sunset and sunrise are given, because the cosine of the hour angle, when out of range, is replaced by its fractional part. Between 60 and 66 degrees nothing is proved.

### C114 Times with any tzinfo are ordered by the moment, and equal ones have equal hashes (partial)

* Model: `Model/AnyTime.lean`: a zone is an identity and what utcoffset(None) returns, exceptions included; the comparison and the hash reuse the parts of `Model/Time.lean` that follow the offsets.
* Proof: case analysis over the answers of the two zones; the orders of C24 for the tuples.
* Theorems: `C114_instants_partial`, `C114_second_offset_negation`, `C114_no_offset`, `C114_mixed_partial`, `C114_mixed_le_negation`, `C114_raises`, `C114_same_object`, `C114_unhashable_negation`, `C114_hash_partial`, `C114_hash_same_object`
* Result: Proved for offsets of whole minutes and seconds below 60. False, and proved false: with offsets in seconds equal clocks in different offsets are equal times; <= answers False for a naive and an aware time; a time whose zone raises is equal to itself and has no hash. A zone that answers differently when asked twice is not modelled.

### C115 The sun is up between the sunrise and the sunset, and at no other time of the day (proved)

* Model: `Model/Solar.lean`; the altitude is that of `Props/SolarRoot.lean`.
* Proof: at noon the sun is up and at midnight down (Lemmas/SolarOnly); the altitude is continuous and crosses that of the horizon only at the two times found (C75_only).
* Theorems: `C115_daylight`
* Result: About the exact reading of the algorithm, in real arithmetic (Model/Solar). The altitude is written out from the textbook (sinAltitude, Props/SolarRoot), with the coordinates of the sun of the library.

### C116 Time tuples and timestamps of datetimes with any tzinfo (partial)

* Model: `Model/AnyTuple.lean`: as `Model/StructTime.lean`, with a zone whose three methods are functions of the datetime.
* Proof: the tuple is built from that of C67; the UTC object by the addition of C26; timestamps by the difference of C107.
* Theorems: `C116_timetuple_partial`, `C116_fold_negation`, `C116_utctimetuple_partial`, `C116_timestamp`, `C116_same_instant`, `C116_no_offset`, `C116_raises`
* Result: Proved for timestamp() in full, for utctimetuple() before hour 24 when the UTC day is reachable (C27), and for timetuple() with fold 0 and zones that do not depend on the microsecond. False, and proved false, with fold 1: timetuple() asks the zone about an object made anew with fold 0, so that in the second hour of the autumn change it has the offset, flag and name of summer time. An offset of zero is left out of timetuple() (C67).

### C117 format() of dates, times and datetimes agrees with isoformat and str (partial)

* Model: `Model/FormatSpec.lean`: `__format__` of the three classes over `Cal.dateStrftime`, `Cal.datetimeStrftime` and `Cal.timeStrftime` (`Model/Directives.lean`).
* Proof: the expansion of a format into its pieces is C40; the texts of the directives are compared with `formatTime`, `formatDate` and `formatOffset`; the offset with C70.
* Theorems: `C117_time`, `C117_time_iso`, `C117_time_zone_partial`, `C117_time_zone_negation`, `C117_weekday_negation`, `C117_date_partial`, `C117_year_negation`, `C117_datetime_partial`
* Result: Proved for times without a zone, for zones of whole hours other than zero, for the years from 0 on and before -999, and for naive datetimes or those in such zones. False, and proved false: for zones with a quarter of an hour and for UTC (%:z, C70); for the years -999 to -1, where str and isoformat write three digits of the year and %Y four; for the weekday of a time, which is Jalal though 1 Baha 1 is another weekday. Not stated: zones that are not a multiple of a quarter of an hour; the empty format of long forms, which is the text with the cycles (C84).

### C118 strftime of datetimes and times with any tzinfo (partial)

* Model: `Model/AnyText.lean`: as `Cal.datetimeStrftime` and `Cal.timeStrftime` (`Model/Directives.lean`), with the tuples of `Model/AnyTuple.lean`.
* Proof: the `struct_time` is the one of the fixed zone, by cases on the construction; then the same text follows for every format. The negations use C70 and C117.
* Theorems: `C118_datetime_partial`, `C118_no_offset`, `C118_time`, `C118_time_no_offset`, `C118_time_raises`, `C118_raises`, `C118_fold_negation`, `C118_time_negation`
* Result: Proved for every format, the zone being asked about the same second with fold 0. False, and proved false: with fold 1 the texts of %Z and %z in the second hour of the autumn change are those of summer time; a time in a zone that has an offset for datetimes only is shown with the offset of the first day of the era by %:z and without an offset by isoformat.

### C119 Operators between dates, times, datetimes and timedeltas (partial)

* Model: `Model/Operators.lean`: the order in which Python asks the methods of the two objects (that of a subclass on the right first), over the methods of `Model/Date.lean`, `Model/Time.lean` and `Model/DateTime.lean`. The range of `timedelta` is not modelled for the sum of two timedeltas.
* Proof: by cases on the two classes; turning around from the antisymmetry of the comparison of tuples; sums and differences of dates from C08 and the ordinals.
* Theorems: `C119_unequal`, `C119_no_order`, `C119_ne`, `C119_dates_partial`, `C119_times`, `C119_datetimes`, `C119_turn_dates_partial`, `C119_turn_times_partial`, `C119_plus_comm`, `C119_plus_refused`, `C119_plus`, `C119_minus`, `C119_minus_refused`, `C119_forms_negation`, `C119_times_negation`, `C119_minus_negation`
* Result: Proved for all pairs of classes. Within a class the operators are the comparisons of the ordinals of dates, the clocks of times and the instants of datetimes with different offsets; turning a comparison around is proved for dates of the same form and for times that both have or both lack a zone. False, and proved false: a short date compared with a long one answers, the long with the short raises AttributeError; with one zone only `<=` of times answers False and the reversed `>=` raises TypeError; a date minus a datetime is the days between them while the datetime minus the date raises TypeError.

### C120 isoformat, dst and tzname of objects with any tzinfo (partial)

* Model: `Model/AnyIso.lean`: as `dtIsoSpec` and `timeIsoSpec` (`Model/TimeSpec.lean`), with the answers of the zone.
* Proof: the text is that of the fixed zone; the round trip from C20 and the difference from C107; the negations from C107, C116 and C118.
* Theorems: `C120_datetime`, `C120_no_offset`, `C120_time`, `C120_raises`, `C120_round_trip_partial`, `C120_questions`, `C120_dst`, `C120_fold_negation`, `C120_views_negation`, `C120_dst_negation`
* Result: The texts are proved for all zones; reading them back gives the same instant under the conditions of C20. False, and proved false: in the hours of a change the datetime read back is not equal to the one written though their difference is zero; there isoformat, dst and tzname show winter time where strftime shows summer time; a daylight saving time of a day or more is refused by dst() and accepted by timetuple().

### C121 The text of a time tuple tells the tuple (partial)

* Model: `Model/StructRepr.lean`, over `Model/StructTime.lean` and `Model/PlainTuple.lean`.
* Proof: the text is read with the reader of Python expressions of C83 (`Spec/PyExpr.lean`), which gives back every printed field; equal texts are read alike.
* Theorems: `C121_reads`, `C121_tells_partial`, `C121_zone_negation`, `C121_eval_negation`
* Result: Proved for the fields that are printed: the nine of the short form and the eleven of the long form. False, and proved false, of the name of the zone and the offset: timetuple() of a naive datetime and of the same datetime in any zone without a daylight saving answer are different and have the same text; and of eval, because the text names a module structures, which the package does not have. Seconds are integers, as in all the tuples that the library makes.

### C122 Results of isocalendar are ordered as the dates, and their text tells the day (proved)

* Model: `Model/IsoObject.lean`, over `isoCalendar` of `Model/Date.lean`; tuples of integers are compared as `tupleCmp` does.
* Proof: a day of an ISO year lies before the first week of every later ISO year (C10), and within a year the day is seven times the week plus the weekday; the text is read with the reader of C83.
* Theorems: `C122_order`, `C122_reads`, `C122_tells`
* Result: For the days from the first day of MINYEAR on, as C10. The class name stands in the text without its module, as in the code.
