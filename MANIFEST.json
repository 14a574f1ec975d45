{
 "claims": [
  {
   "property": "C01",
   "status": "proved",
   "theorems": [
    "Verif.C01_year_length",
    "Verif.C01_contiguous",
    "Verif.C01_table_fixed",
    "Verif.C01_naw_ruz_jd"
   ],
   "note": "for every sunset oracle with Tehran sunset between 16:00 and 20:00 local mean time"
  },
  {
   "property": "C02",
   "status": "proved",
   "theorems": [
    "Verif.C02_year_of_day_number"
   ],
   "note": "including the binary64 division"
  },
  {
   "property": "C03",
   "status": "proved",
   "theorems": [
    "Verif.C03_day_of_year"
   ],
   "note": ""
  },
  {
   "property": "C04",
   "status": "proved",
   "theorems": [
    "Verif.C04_short_long_short",
    "Verif.C04_far_years_refused"
   ],
   "note": "time of day before hour 24 (hour 24 is refuted under C05)"
  },
  {
   "property": "C05",
   "status": "partial",
   "theorems": [
    "Verif.C05_hour_24_negation",
    "Verif.C05_month_18_negation",
    "Verif.C05_fractional_day_negation",
    "Verif.C05_long_short_partial",
    "Verif.C05_hour_24_in_month_negation",
    "Verif.C05_hour_24_ayyam_negation",
    "Verif.C05_hour_24_month_end_negation",
    "Verif.C05_hour_24_year_end_negation",
    "Verif.C05_second_60_negation"
   ],
   "note": "Proved for whole days before hour 24. False of the code for every time at hour 24 or second 60, with the exact result proved for each kind of day, and for fractional days."
  },
  {
   "property": "C06",
   "status": "proved",
   "theorems": [
    "Verif.C06_ordinals",
    "Verif.C06_every_day",
    "Verif.C06_first_ordinal",
    "Verif.C06_hypothesis_needed"
   ],
   "note": "For every sunset function with evening sunsets at Tehran whose new-year sunsets satisfy NewYearOrder; C06_hypothesis_needed shows the latter is exactly what the hand-patched years require."
  },
  {
   "property": "C07",
   "status": "partial",
   "theorems": [
    "Verif.C07_round_trip_partial",
    "Verif.C07_lost_days_negation",
    "Verif.C07_last_year_negation"
   ],
   "note": "Proved for all convertible days; false on 22 lost days (ValueError) and on all days of year 1161 but the first (AssertionError)."
  },
  {
   "property": "C08",
   "status": "partial",
   "theorems": [
    "Verif.C08_add_partial",
    "Verif.C08_never_wraps",
    "Verif.C08_add_sub",
    "Verif.C08_sub_add_partial",
    "Verif.C08_assoc",
    "Verif.C08_sub_neg",
    "Verif.C08_overflow",
    "Verif.C08_part_day_negation",
    "Verif.C08_gap_negation"
   ],
   "note": "Laws proved whenever the results are convertible days; false for d - t == d + (-t) with t not whole days, and sums that land on a lost day or late in year 1161 raise ValueError/AssertionError."
  },
  {
   "property": "C09",
   "status": "proved",
   "theorems": [
    "Verif.C09_weekdays",
    "Verif.C09_day_of_year"
   ],
   "note": "From the first day of MINYEAR on."
  },
  {
   "property": "C10",
   "status": "proved",
   "theorems": [
    "Verif.C10_iso_week",
    "Verif.C10_next_day"
   ],
   "note": "From the first day of MINYEAR on."
  },
  {
   "property": "C11",
   "status": "partial",
   "theorems": [
    "Verif.C11_round_trip_partial",
    "Verif.C11_refusals_partial",
    "Verif.C11_week_52_negation",
    "Verif.C11_week_53_negation",
    "Verif.C11_unchecked_week_negation"
   ],
   "note": "Round trip proved outside weeks 52/53 of years beginning on weekday 3 or 4; there it is false (52 comes back a week late, 53 is refused); weeks outside the year are accepted in other years."
  },
  {
   "property": "C12",
   "status": "proved",
   "theorems": [
    "Verif.C12_total",
    "Verif.C12_transitive"
   ],
   "note": "Comparison within one form is a total order on all constructible dates."
  },
  {
   "property": "C13",
   "status": "partial",
   "theorems": [
    "Verif.C13_chronological_partial",
    "Verif.C13_ayyam_i_ha_negation"
   ],
   "note": "Proved for all pairs of dates in the same form outside Ayyam-i-Ha; false for Ayyam-i-Ha, whose month number 0 sorts before month 1."
  },
  {
   "property": "C14",
   "status": "partial",
   "theorems": [
    "Verif.C14_asymmetry_negation",
    "Verif.C14_wrong_equality_negation",
    "Verif.C14_first_vahid_partial",
    "Verif.C14_order_negation",
    "Verif.C14_datetime_symmetric",
    "Verif.C14_datetime_negation"
   ],
   "note": "Symmetric for datetimes; right for a short form date against a long form date of the first Váḥid. False otherwise, and proved false for every pair: long against short dates raises, a short form date after the year 19 is greater than every long form date, and equality is decided by the year in the Váḥid."
  },
  {
   "property": "C15",
   "status": "partial",
   "theorems": [
    "Verif.C15_date_partial",
    "Verif.C15_date_hashable",
    "Verif.C15_forms_negation",
    "Verif.C15_unhashable_negation",
    "Verif.C15_time_hashable",
    "Verif.C15_time_unhashable_negation",
    "Verif.C15_time_partial",
    "Verif.C15_time_hour_24_negation",
    "Verif.C15_datetime_hashable",
    "Verif.C15_datetime_partial",
    "Verif.C15_datetime_long_negation",
    "Verif.C15_datetime_long_zone_negation"
   ],
   "note": "Equal dates, times and datetimes have equal hashes within one form and away from hour 24; the exceptions are proved with witnesses: cross-form equality, hour 24, unhashable times with some offsets, long form datetimes."
  },
  {
   "property": "C16",
   "status": "partial",
   "theorems": [
    "Verif.C16_pickle_partial",
    "Verif.C16_ayyam_i_ha_negation"
   ],
   "note": "Proved for all dates outside Ayyam-i-Ha from MINYEAR on; pickled Ayyam-i-Ha dates do not unpickle."
  },
  {
   "property": "C17",
   "status": "partial",
   "theorems": [
    "Verif.C17_time_partial",
    "Verif.C17_hour_24_negation",
    "Verif.C17_datetime_partial",
    "Verif.C17_ayyam_i_ha_negation"
   ],
   "note": "Proved for all times below hour 24 and all short or long datetimes outside Ayyam-i-Ha; hour 24 and Ayyam-i-Ha do not survive pickling."
  },
  {
   "property": "C18",
   "status": "partial",
   "theorems": [
    "Verif.C18_round_trip_partial",
    "Verif.C18_negative_year_negation"
   ],
   "note": "Round trip proved for the years 0 to 1161 and -1842 to -1000, short and long form; false for the years -999 to -1 (ValueError)."
  },
  {
   "property": "C19",
   "status": "partial",
   "theorems": [
    "Verif.C19_week",
    "Verif.C19_day_of_year",
    "Verif.C19_day_of_year_negation",
    "Verif.C19_day_of_year_refused",
    "Verif.C19_calendar_partial",
    "Verif.C19_basic_negation"
   ],
   "note": "Week and day-of-year texts and YYYY-MM-DD are read as the dates they name; days just past the end of the year are accepted and YYYYMMDD drops the tens digit of the day: both negated."
  },
  {
   "property": "C20",
   "status": "partial",
   "theorems": [
    "Verif.C20_datetime_partial",
    "Verif.C20_micro_partial",
    "Verif.C20_micro_negation",
    "Verif.C20_negative_year_negation",
    "Verif.C20_long_negation",
    "Verif.C20_time_negation",
    "Verif.C20_time_partial"
   ],
   "note": "Datetime round trip proved for short forms with whole milliseconds, and up to one microsecond in general; false for some microseconds, for years -999 to -1, for the long form and for every time."
  },
  {
   "property": "C21",
   "status": "partial",
   "theorems": [
    "Verif.C21_offsets_partial",
    "Verif.C21_negative_negation"
   ],
   "note": "Proved for non-negative and whole-hour offsets; false for every negative offset with minutes."
  },
  {
   "property": "C22",
   "status": "partial",
   "theorems": [
    "Verif.C22_accepts",
    "Verif.C22_exact_partial",
    "Verif.C22_refuses",
    "Verif.C22_outside_years_negation",
    "Verif.C22_early_year_negation"
   ],
   "note": "Constructor accepts exactly the calendar days for years MINYEAR..MAXYEAR; it also accepts some fields outside."
  },
  {
   "property": "C23",
   "status": "partial",
   "theorems": [
    "Verif.C23_fields_partial",
    "Verif.C23_identity",
    "Verif.C23_override",
    "Verif.C23_zero_kull_negation",
    "Verif.C23_time_fields",
    "Verif.C23_time_identity",
    "Verif.C23_time_override",
    "Verif.C23_datetime_fields_partial",
    "Verif.C23_datetime_identity",
    "Verif.C23_datetime_clock",
    "Verif.C23_datetime_override",
    "Verif.C23_datetime_zero_negation"
   ],
   "note": "replace on date, time and datetime: proved except that a zero kull_i_shay or vahid is silently ignored on short forms."
  },
  {
   "property": "C24",
   "status": "partial",
   "theorems": [
    "Verif.C24_same_offset",
    "Verif.C24_total",
    "Verif.C24_offsets_partial",
    "Verif.C24_second_offset_negation",
    "Verif.C24_mixed_partial",
    "Verif.C24_mixed_le_negation"
   ],
   "note": "Same-offset comparison is the clock order, total; whole-minute offsets compare by UTC micro-seconds; offsets with seconds are truncated and <= of naive and aware times does not raise: both negated."
  },
  {
   "property": "C25",
   "status": "partial",
   "theorems": [
    "Verif.C25_short_partial",
    "Verif.C25_long_partial",
    "Verif.C25_long_negation"
   ],
   "note": "Proved for short form pairs, and for long form pairs in the same kull-i-shay and vahid; false for long forms in different vahids."
  },
  {
   "property": "C26",
   "status": "partial",
   "theorems": [
    "Verif.C26_add_partial",
    "Verif.C26_add_sub",
    "Verif.C26_assoc",
    "Verif.C26_sub_add_partial",
    "Verif.C26_sub_add_zones_partial",
    "Verif.C26_hour_24_negation",
    "Verif.C26_overflow",
    "Verif.C26_gap_negation"
   ],
   "note": "Datetime arithmetic is exact on ordinary clock values and reachable days; hour 24 and the 22 unreachable days are negated."
  },
  {
   "property": "C27",
   "status": "partial",
   "theorems": [
    "Verif.C27_astimezone_partial",
    "Verif.C27_hour_24_negation",
    "Verif.C27_gap_negation"
   ],
   "note": "astimezone keeps the instant for ordinary clock values when the UTC day is reachable; exceptions negated."
  },
  {
   "property": "C28",
   "status": "proved",
   "theorems": [
    "Verif.C28_accepts",
    "Verif.C28_eq_hash",
    "Verif.C28_name"
   ],
   "note": ""
  },
  {
   "property": "C29",
   "status": "partial",
   "theorems": [
    "Verif.C29_start_of_day_partial",
    "Verif.C29_time_of_day_partial",
    "Verif.C29_lost_dates_negation",
    "Verif.C29_change_dates_negation",
    "Verif.C29_reform_negation",
    "Verif.C29_last_year_negation",
    "Verif.C29_midnight_negation"
   ],
   "note": "Round trip proved for every date of the era except 35 listed dates and year 1161 after its first day, for every sunset function in the evening window; the statement is refuted for each excluded group. Times of day survive up to 2.5 ms; left out there is a tenth of a second around one midnight of year -814, where the time is wrong (C29_midnight_negation)."
  },
  {
   "property": "C30",
   "status": "partial",
   "theorems": [
    "Verif.C30_day_monotone_partial",
    "Verif.C30_time_of_day_negation",
    "Verif.C30_short_form_negation"
   ],
   "note": "The day is monotone for every pair of instants (long form). The time of day within a date, and the short form in the last 1.8 ms of a day, go backwards: refuted with witnesses."
  },
  {
   "property": "C31",
   "status": "partial",
   "theorems": [
    "Verif.C31_gaps",
    "Verif.C31_historical_round_trip",
    "Verif.C31_exact_strict",
    "Verif.C31_monotone",
    "Verif.C31_astronomical_round_trip_partial",
    "Verif.C31_meeus_strict_partial",
    "Verif.C31_window_negation"
   ],
   "note": "Gaps for every rational JD; historical to astronomical and back, and strictness, for every binary64 JD up to 2^22; the opposite direction is proved outside the twelve days before JD 2^21 and refuted inside them (binary64 rounding)."
  },
  {
   "property": "C32",
   "status": "proved",
   "theorems": [
    "Verif.C32_days_in_years_400",
    "Verif.C32_days_in_years_128"
   ],
   "note": ""
  },
  {
   "property": "C33",
   "status": "partial",
   "theorems": [
    "Verif.C33_day_partial",
    "Verif.C33_time_partial",
    "Verif.C33_late_years_negation",
    "Verif.C33_alt_check_negation",
    "Verif.C33_alt_back_negation"
   ],
   "note": "Whole days: JD steps by one for all years within a million, and the way back holds to year 4713; with time of day the day is kept and the time is within 0.1 ms for years 1 to 4713. The property as stated is false: the way back is wrong after 4713 and the 128 year rule is checked with the 400 year rule."
  },
  {
   "property": "C34",
   "status": "partial",
   "theorems": [
    "Verif.C34_from_jd",
    "Verif.C34_every_jd",
    "Verif.C34_round_trip_partial",
    "Verif.C34_julian_leap_day_negation",
    "Verif.C34_lost_days_negation"
   ],
   "note": "From JD to date is proved for every whole day from the JD origin on; the round trip for every date the validity check accepts. False as stated for Julian-only leap days such as 1500-02-29, which are refused, and the lost days of 1582 are accepted with a time."
  },
  {
   "property": "C35",
   "status": "partial",
   "theorems": [
    "Verif.C35_timestamp_partial",
    "Verif.C35_december_31_negation"
   ],
   "note": "Proved for every binary64 t from 0 to 2^53 except on 31 December, where the call always fails with an assertion error (also proved)."
  },
  {
   "property": "C36",
   "status": "proved",
   "theorems": [
    "Verif.C36_correction_table"
   ],
   "note": ""
  },
  {
   "property": "C37",
   "status": "partial",
   "theorems": [
    "Verif.C37_history_partial",
    "Verif.C37_history",
    "Verif.C37_fresh_negation"
   ],
   "note": "Every result is the direct value from the first call on that is not at time zero in radians; before that a call at time zero in radians gives 0: negated."
  },
  {
   "property": "C38",
   "status": "proved",
   "theorems": [
    "Verif.C38_history",
    "Verif.C38_cache_unused"
   ],
   "note": "For arbitrary compilation and matching functions; the regex cache is shown never to answer."
  },
  {
   "property": "C39",
   "status": "partial",
   "theorems": [
    "Verif.C39_round_trip_partial",
    "Verif.C39_modifier_negation",
    "Verif.C39_hour_24_negation",
    "Verif.C39_iso_negation",
    "Verif.C39_abbreviation_negation",
    "Verif.C39_fraction_negation"
   ],
   "note": "Round trip proved for every format made of literals and the directives YmdHMSfjBbAa (each once, with a year and a date) and every date from MINYEAR on with hour <= 23. False, and proved false, for hour 24, for the directives with '-', for the ISO week directives (no date comes back), for %b in month 15 and for %f after ':' or '-'."
  },
  {
   "property": "C40",
   "status": "partial",
   "theorems": [
    "Verif.C40_copies_partial",
    "Verif.C40_percent_partial",
    "Verif.C40_refused",
    "Verif.C40_empty_refused",
    "Verif.C40_literal_negation",
    "Verif.C40_percent_negation",
    "Verif.C40_refused_negation"
   ],
   "note": "Any meaning of the directives, every format: literals copied and directives replaced when no literal follows a literal '-' or ':' and the format does not begin with a literal and end with '-', ':' or '%'; malformed directives refused. The rest of the property is false: literals after '-' or ':' are lost, the second sign of %% starts a directive, and a malformed first directive is accepted when the format ends with '%'."
  },
  {
   "property": "C41",
   "status": "proved",
   "theorems": [
    "Verif.C41_divide_and_round",
    "Verif.C41_unique"
   ],
   "note": "all integers"
  },
  {
   "property": "C42",
   "status": "proved",
   "theorems": [
    "Verif.C42_trim"
   ],
   "note": "tuples of any length"
  },
  {
   "property": "C43",
   "status": "partial",
   "theorems": [
    "Verif.C43_decode",
    "Verif.C43_decode_encode",
    "Verif.C43_encode_decode_partial",
    "Verif.C43_whole_second_negation"
   ],
   "note": "Decoding is always legal and within 2 ms; whole seconds are recovered only within 2.5 ms, exactness is refuted (00:00:01 decodes to 1.0008 s)."
  },
  {
   "property": "C44",
   "status": "partial",
   "theorems": [
    "Verif.C44_poly",
    "Verif.C44_interpolation",
    "Verif.C44_coterminal_partial",
    "Verif.C44_coterminal_negation"
   ],
   "note": "The coterminal angle of a tiny negative angle is 360, so the half-open range is refuted for negative binary64 input; proved with the closed bound and a 1e-13 tolerance. The polynomial and the interpolation use exact arithmetic."
  },
  {
   "property": "C45",
   "status": "partial",
   "theorems": [
    "Verif.C45_coordinates_partial",
    "Verif.C45_direction_word_negation",
    "Verif.C45_hours"
   ],
   "note": "Round trip within 1e-12; the word LATITUDE gives an E/W letter (refuted), LAT and LON are right."
  },
  {
   "property": "C46",
   "status": "partial",
   "theorems": [
    "Verif.C46_seconds_partial",
    "Verif.C46_two_days_negation",
    "Verif.C46_negative_negation"
   ],
   "note": "Proved for totals in [0, 172800); refuted from two days on (one day only is split off) and for a negative total."
  },
  {
   "property": "C47",
   "status": "partial",
   "theorems": [
    "Verif.C47_flags_partial",
    "Verif.C47_check",
    "Verif.C47_three_flags_negation"
   ],
   "note": "Two flags are refused; three flags are accepted (refuted)."
  },
  {
   "property": "C48",
   "status": "partial",
   "theorems": [
    "Verif.C48_coordinates",
    "Verif.C48_default",
    "Verif.C48_locale",
    "Verif.C48_integer_negation",
    "Verif.C48_zone",
    "Verif.C48_offset_exact"
   ],
   "note": "Whole-number coordinates are silently replaced by Tehran: negated."
  },
  {
   "property": "C49",
   "status": "partial",
   "theorems": [
    "Verif.C49_whole",
    "Verif.C49_fields_partial",
    "Verif.C49_fraction_refused",
    "Verif.C49_range_negation",
    "Verif.C49_exact_negation"
   ],
   "note": "Ranges with closed upper ends and the requested time up to 34 microseconds; minute 60, second 60, microsecond 1000000 and lost microseconds are witnessed."
  },
  {
   "property": "C50",
   "status": "partial",
   "theorems": [
    "Verif.C50_counted_twice",
    "Verif.C50_same_micro_partial",
    "Verif.C50_micro_negation",
    "Verif.C50_long_negation"
   ],
   "note": "Microseconds are counted twice on every date and long form dates are read as short ones: negated. With equal microseconds the elapsed time is exact up to 0.2 ms."
  },
  {
   "property": "C51",
   "status": "proved",
   "theorems": [
    "Verif.C51_time_accepts"
   ],
   "note": ""
  },
  {
   "property": "C52",
   "status": "proved",
   "theorems": [
    "Verif.C52_instants",
    "Verif.C52_mixed"
   ],
   "note": ""
  },
  {
   "property": "C53",
   "status": "partial",
   "theorems": [
    "Verif.C53_pickle_partial",
    "Verif.C53_name_negation"
   ],
   "note": "Coordinates, key and offset survive; the name does not when a key was given."
  },
  {
   "property": "C54",
   "status": "proved",
   "theorems": [
    "Verif.C54_naw_ruz"
   ],
   "note": "All years of the table, any evening sunset function, default location."
  },
  {
   "property": "C55",
   "status": "partial",
   "theorems": [
    "Verif.C55_instant_partial",
    "Verif.C55_start_partial",
    "Verif.C55_hour_24_negation",
    "Verif.C55_back_negation"
   ],
   "note": "The instant is right at every location up to 3 ms, and the day is right for the start of every convertible date. False: the hour can be 24 (then refused when converted back); the way back is off by the zone."
  },
  {
   "property": "C56",
   "status": "partial",
   "theorems": [
    "Verif.C56_same_instant",
    "Verif.C56_start_of_day_partial",
    "Verif.C56_place_partial",
    "Verif.C56_lost_dates_negation",
    "Verif.C56_change_dates_negation",
    "Verif.C56_reform_negation"
   ],
   "note": "The instant is recovered exactly for all locations and options; the date for the start of a day, in Tehran except on the 35 dates where C29 is false, and there it is proved false: 22 have no timestamp, those of 12 are refused, that of the date after the reform gap gives a date ten days earlier. At other places except on the 83 days of the era that are not ordinary (OrdinaryDay in Spec/Place.lean: five days at each of the twelve changes of the scales of Julian days, fifteen in 1582, eight at the power of two 2097152)."
  },
  {
   "property": "C57",
   "status": "partial",
   "theorems": [
    "Verif.C57_within_day_partial",
    "Verif.C57_monotone",
    "Verif.C57_place_partial",
    "Verif.C57_change_dates_negation"
   ],
   "note": "Proved except for the last milliseconds of a day, the dates where C29 is false (C57_change_dates_negation: for twelve of them both fromtimestamp methods raise ValueError) and a tenth of a second at a midnight of year -814; at places other than Tehran except on the 83 days of C56 (datetime.fromtimestamp there: C95)."
  },
  {
   "property": "C58",
   "status": "partial",
   "theorems": [
    "Verif.C58_round_trip_partial",
    "Verif.C58_seconds_negation",
    "Verif.C58_micro_negation"
   ],
   "note": "The date is kept and the time of day up to 4 ms for whole seconds. False exactly: 12:05:00 comes back as 12:04:59.998800, and microseconds are counted twice."
  },
  {
   "property": "C59",
   "status": "partial",
   "theorems": [
    "Verif.C59_zone_zero_partial",
    "Verif.C59_not_utc_negation"
   ],
   "note": "Proved with zone 0 for Tehran, up to 2.5 ms. At the default location the result is Tehran standard time, 3.5 hours later than UTC, on every date."
  },
  {
   "property": "C60",
   "status": "partial",
   "theorems": [
    "Verif.C60_aware_value",
    "Verif.C60_difference",
    "Verif.C60_naive_gap_negation",
    "Verif.C60_two_hours_negation"
   ],
   "note": "Value, differences and epoch are proved in full. That the timestamp is the POSIX time of the instant is false: it ignores sunset; the gap to the naive timestamp is proved exactly."
  },
  {
   "property": "C61",
   "status": "partial",
   "theorems": [
    "Verif.C61_short_partial",
    "Verif.C61_combine",
    "Verif.C61_long_negation"
   ],
   "note": "Proved for the short form. date() of a long form datetime drops the Kull-i-Shay and the Vahid."
  },
  {
   "property": "C62",
   "status": "partial",
   "theorems": [
    "Verif.C62_round_trip_partial",
    "Verif.C62_seconds_negation"
   ],
   "note": "The date is exact and the time within 3 ms; exactness is false (1 s comes back as 1.0008 s)."
  },
  {
   "property": "C63",
   "status": "partial",
   "theorems": [
    "Verif.C63_round_trip_partial",
    "Verif.C63_seconds_negation",
    "Verif.C63_micro_negation",
    "Verif.C63_last_day_negation"
   ],
   "note": "Long form: the date is exact and the time within 50 ms; exactness is false. Microseconds are taken for days, and the short form loses the nineteenth day of every month."
  },
  {
   "property": "C64",
   "status": "partial",
   "theorems": [
    "Verif.C64_accepts_partial",
    "Verif.C64_signs_negation",
    "Verif.C64_other_day_negation"
   ],
   "note": "Proved for non negative fields and seconds below 60; negative fields and more seconds are accepted too."
  },
  {
   "property": "C65",
   "status": "partial",
   "theorems": [
    "Verif.C65_close_partial",
    "Verif.C65_quarter_hours",
    "Verif.C65_minutes_negation"
   ],
   "note": "Up to a nanosecond for every offset, exact for all quarter hours; 13 minutes come back as 12 minutes and 59.99... seconds."
  },
  {
   "property": "C66",
   "status": "partial",
   "theorems": [
    "Verif.C66_zone",
    "Verif.C66_inverse_partial",
    "Verif.C66_inverse_negation",
    "Verif.C66_longitude_negation",
    "Verif.C66_refused"
   ],
   "note": "Shift and refusals are proved; the way back is exact for quarter hours and false for other zones; the longitude is divided by 360 and by 24."
  },
  {
   "property": "C67",
   "status": "partial",
   "theorems": [
    "Verif.C67_timetuple_partial",
    "Verif.C67_date_timetuple",
    "Verif.C67_utctimetuple_partial",
    "Verif.C67_utc_offset_negation",
    "Verif.C67_hour_24_negation"
   ],
   "note": "Proved for all dates and for datetimes short or before hour 24. UTC has no offset in its tuple, and hour 24 of the long form gets the weekday and day of the year of the following day."
  },
  {
   "property": "C68",
   "status": "partial",
   "theorems": [
    "Verif.C68_date_ctime",
    "Verif.C68_datetime_ctime_partial",
    "Verif.C68_determines_partial",
    "Verif.C68_hour_24_negation"
   ],
   "note": "Proved for all dates and for datetimes short or before hour 24. Hour 24 of the long form is written as hour 23 of the following day."
  },
  {
   "property": "C69",
   "status": "partial",
   "theorems": [
    "Verif.C69_recombine",
    "Verif.C69_clock_partial",
    "Verif.C69_noon_negation",
    "Verif.C69_before_noon_negation",
    "Verif.C69_change_negation"
   ],
   "note": "%I and %p always give the hour back. They are right outside of 11:58 to 12:02 on every day of the years -1842 to 1161 except 41 (ClockDay: two days at each of the twelve changes of the Julian day scales, the days of the Gregorian reform, and five days on which a Julian day passes the power of two 2097152, where the rounding is not followed). The hour after noon is 00, not 12; before noon -1 can be shown; and two days before a change of the scales 11:45 in the morning can be shown as -1 PM."
  },
  {
   "property": "C70",
   "status": "partial",
   "theorems": [
    "Verif.C70_hours_partial",
    "Verif.C70_naive",
    "Verif.C70_quarters_negation",
    "Verif.C70_zero_negation"
   ],
   "note": "Whole hours are right. Fractions of an hour are written as hundredths in place of minutes, and UTC as if naive."
  },
  {
   "property": "C71",
   "status": "partial",
   "theorems": [
    "Verif.C71_time",
    "Verif.C71_clock12",
    "Verif.C71_locale_date",
    "Verif.C71_locale_time",
    "Verif.C71_date_partial",
    "Verif.C71_date_negation",
    "Verif.C71_date_time_partial",
    "Verif.C71_date_time_negation"
   ],
   "note": "%T, %r, %x and %X in full. %D fails before year -100, %c for years from -999 to -1 and for the long form."
  },
  {
   "property": "C72",
   "status": "partial",
   "theorems": [
    "Verif.C72_century_partial",
    "Verif.C72_century_negation",
    "Verif.C72_cycles_partial",
    "Verif.C72_cycles_negation",
    "Verif.C72_iso_partial",
    "Verif.C72_iso_year_negation"
   ],
   "note": "%C with %y is right for years from 0 on and gives the year less 100 for the others except multiples of 100. %:K is no number before year -360. %G is the year of the calendar, which is not the ISO year on the days between the two new years."
  },
  {
   "property": "C73",
   "status": "proved",
   "theorems": [
    "Verif.C73_accepts",
    "Verif.C73_day_of_year",
    "Verif.C73_refuses"
   ],
   "note": "Formats with the directives c, x, X, Z, which need the locale or the names of the zones, are outside of the model; the halves of the day are AM and PM. The dates of the week directives are only covered as far as the clock. Formats with the same directive twice are an error of re (C112); the theorems are about the others."
  },
  {
   "property": "C74",
   "status": "proved",
   "theorems": [
    "Verif.C74_sunset",
    "Verif.C74_sunrise",
    "Verif.C74_evening",
    "Verif.C74_tehran",
    "Verif.C74_sunset_60",
    "Verif.C74_sunrise_60",
    "Verif.C74_sunsets_60"
   ],
   "note": "About the exact reading of the algorithm, in real arithmetic (Model/Solar). C74_evening and C74_tehran carry it over to floats under the hypothesis NearExact, that the floats are within ten minutes of the exact value. This is the hypothesis TehranEvening of the calendar theorems. C74_sunsets_60 derives the hypothesis SunSets of the theorems about any place (C94, C97) up to 60 degrees from the equator."
  },
  {
   "property": "C75",
   "status": "proved",
   "theorems": [
    "Verif.C75_sunset",
    "Verif.C75_sunrise",
    "Verif.C75_sunset_60",
    "Verif.C75_sunrise_60",
    "Verif.C75_only"
   ],
   "note": "About the exact reading of the algorithm. C75_sunset and C75_sunrise are the weaker forms (36 degrees, 2.4 seconds) that the equinox theorems use; C75_sunset_60, C75_sunrise_60 and C75_only are the property. The altitude and the hour angle are written out from the textbook (sinAltitude, sunHourAngle); the right ascension and declination are those of the library, interpolated at the point the code uses, t + dT/86400 where _delta_t already is in days (the code divides by 86400 twice)."
  },
  {
   "property": "C76",
   "status": "partial",
   "theorems": [
    "Verif.C76_year_start_partial",
    "Verif.C76_one_minute_negation",
    "Verif.C76_before_reform_negation"
   ],
   "note": "Proved for the years -260 to 1161 (1583 to 3004), with the equinox and the sunset in exact real arithmetic and the sunset oracle within one second. False before: the year -261 starts more than nine days after the equinox of 1582 and the year -1842 more than three days before that of the year 1 (C76_before_reform_negation). In the year 216 the equinox is less than a minute before the second sunset, so with the minute of tolerance the script would start the year a day later than the table (C76_one_minute_negation)."
  },
  {
   "property": "C77",
   "status": "partial",
   "theorems": [
    "Verif.C77_accepts_partial",
    "Verif.C77_outside_years_negation"
   ],
   "note": "Proved for the years -1843 to 1161. False in the year 1162 of the short form, whose last day is accepted although the calendar has no such day (C77_outside_years_negation)."
  },
  {
   "property": "C78",
   "status": "proved",
   "theorems": [
    "Verif.C78_seasons",
    "Verif.C78_year"
   ],
   "note": "Stated of the exact reading of the algorithm: real arithmetic instead of binary64, as DESIGN.md says of the solar model."
  },
  {
   "property": "C79",
   "status": "proved",
   "theorems": [
    "Verif.C79_longitude"
   ],
   "note": "Stated of the exact reading of the algorithm: real arithmetic instead of binary64, as DESIGN.md says of the solar model."
  },
  {
   "property": "C80",
   "status": "proved",
   "theorems": [
    "Verif.C80_dates"
   ],
   "note": "Stated of the exact reading of the algorithm: real arithmetic instead of binary64, as DESIGN.md says of the solar model."
  },
  {
   "property": "C81",
   "status": "partial",
   "theorems": [
    "Verif.C81_meeus_partial",
    "Verif.C81_divisor_negation",
    "Verif.C81_universal_time_negation"
   ],
   "note": "Proved: within 127 seconds of the moment in Dynamical Time. False in full: the divisor of the periodic terms is misplaced by a parenthesis, which costs 24 seconds in 2980, and the difference of the time scales, in days already, is divided by 86400 again, so the moment stays in Dynamical Time: 70 seconds late in 2024, two and a half hours in the year 100. Stated of the exact reading of the algorithm: real arithmetic instead of binary64, as DESIGN.md says of the solar model."
  },
  {
   "property": "C82",
   "status": "partial",
   "theorems": [
    "Verif.C82_round_trip_partial",
    "Verif.C82_micro_negation",
    "Verif.C82_width",
    "Verif.C82_auto",
    "Verif.C82_default",
    "Verif.C82_unknown",
    "Verif.C82_micro_partial"
   ],
   "note": "The widths, auto, the default and the error are proved in full. The round trip of a datetime in the short form is proved for hours, minutes, seconds and milliseconds, and with microseconds for microseconds that are whole milliseconds. C82_micro_negation: 249 microseconds printed with timespec microseconds read back as 248. With other microseconds the datetime comes back as it was or a microsecond earlier (C82_micro_partial). Missing: negative offsets with minutes, years -999..-1 and the long form of a datetime (as in C20)."
  },
  {
   "property": "C83",
   "status": "partial",
   "theorems": [
    "Verif.C83_date",
    "Verif.C83_time",
    "Verif.C83_zone",
    "Verif.C83_datetime",
    "Verif.C83_aware_time_negation",
    "Verif.C83_library_time_negation",
    "Verif.C83_coords_negation"
   ],
   "note": "Proved for dates, times without a zone, zones and datetimes with or without a zone. False of times with a zone (str of the zone is printed: tzinfo=UTC+03:30, or the coordinates) and of zones with coordinates (the offset is printed as the latitude): both negated. Names can be any text; which characters outside of ASCII are printable is left open."
  },
  {
   "property": "C84",
   "status": "partial",
   "theorems": [
    "Verif.C84_date",
    "Verif.C84_time",
    "Verif.C84_datetime",
    "Verif.C84_fraction_short",
    "Verif.C84_fraction_long"
   ],
   "note": "The texts of different objects differ: proved for all pairs. The decimal fraction is right for the short form and for times; C84_fraction_long: for the long form it is right exactly when the microsecond is at least 100000, since it is not padded (5 microseconds are printed as .5)."
  },
  {
   "property": "C85",
   "status": "partial",
   "theorems": [
    "Verif.C85_reads",
    "Verif.C85_colons",
    "Verif.C85_round_trip_partial",
    "Verif.C85_quarters_negation",
    "Verif.C85_zero_negation"
   ],
   "note": "The reading is proved for every offset text; the round trip for zones a whole number of hours from UTC. False, and proved false: the quarter and half hours come back as another offset, three quarters are refused, and UTC is written as nothing and refused."
  },
  {
   "property": "C86",
   "status": "partial",
   "theorems": [
    "Verif.C86_round_trip_partial",
    "Verif.C86_noon_negation"
   ],
   "note": "Proved for every day of the years -1842 to 1161 except the 41 of C69, away from two minutes around noon, for the hours other than 0 and 12, in a locale with AM and PM. For the hours 0 and 12 it is false: 00 is written, and refused by the same format."
  },
  {
   "property": "C87",
   "status": "partial",
   "theorems": [
    "Verif.C87_fixed_parts",
    "Verif.C87_plain",
    "Verif.C87_own_partial",
    "Verif.C87_shared_negation",
    "Verif.C87_utc_negation",
    "Verif.C87_two_zones_negation",
    "Verif.C87_isdst_negation"
   ],
   "note": "Proved for offset, name and coordinates after any calls, and for dst() up to the next fromzoneinfo. dst() afterwards is false, and proved false: every zone, UTC included, takes the daylight saving time of the ZoneInfo passed last, even by a refused call, and timetuple() of a UTC datetime changes."
  },
  {
   "property": "C88",
   "status": "partial",
   "theorems": [
    "Verif.C88_aware_partial",
    "Verif.C88_naive_partial",
    "Verif.C88_zero_negation",
    "Verif.C88_type_error_negation"
   ],
   "note": "Proved for local zones of whole seconds other than zero at the default coordinates, on the days of C27 and C57. For a local zone of offset zero it is false: every such call raises, with TypeError."
  },
  {
   "property": "C89",
   "status": "partial",
   "theorems": [
    "Verif.C89_date_days",
    "Verif.C89_date_order_partial",
    "Verif.C89_ayyam_negation",
    "Verif.C89_outside_negation",
    "Verif.C89_max_arithmetic_negation",
    "Verif.C89_overflow",
    "Verif.C89_time_partial",
    "Verif.C89_time_negation",
    "Verif.C89_datetime_partial",
    "Verif.C89_datetime_negation"
   ],
   "note": "The limits are the first and last day of the documented years and addition beyond them overflows. By comparison it is false, and proved false, for Ayyám-i-Há of the year -1842 (less than date.min), the years -1843 and 1162, times after 24:00:03, datetimes after the start of the last day; and adding zero to date.max raises AssertionError."
  },
  {
   "property": "C90",
   "status": "partial",
   "theorems": [
    "Verif.C90_date_partial",
    "Verif.C90_trailing_negation",
    "Verif.C90_separator_negation",
    "Verif.C90_time",
    "Verif.C90_datetime_partial",
    "Verif.C90_date_alone_negation",
    "Verif.C90_index_negation",
    "Verif.C90_type_negation",
    "Verif.C90_kind_negation"
   ],
   "note": "For every text a result is a day of the calendar with fields in range (in the year written, unless the text is a week date), and the exceptions possible are exactly named. Times: proved as stated. False, and proved false: digits after a date are ignored; separators may be any digits; a date alone is read by datetime as the first of the month in a zone of minus the day of the month; a basic date alone is IndexError, a time alone TypeError, impossible fields AssertionError."
  },
  {
   "property": "C91",
   "status": "partial",
   "theorems": [
    "Verif.Sun.C91_aberration_partial",
    "Verif.Sun.C91_aberration_negation",
    "Verif.Sun.C91_longitude_partial",
    "Verif.Sun.C91_longitude_negation"
   ],
   "note": "Proved: the longitude is within 0.65 degree of the formula and the aberration within 0.00023 degree. False, and proved false: at every moment of the range the longitude differs from the formula by at least 0.0037 degree, since nutation and aberration in degrees are added to radians; and the aberration is too small by more than 0.00014 degree whenever the sun moves fastest, since arcseconds are converted to radians as if they were degrees. Float rounding inside is not modelled, the rounding to 12 places is."
  },
  {
   "property": "C92",
   "status": "partial",
   "theorems": [
    "Verif.Sun.C92_latitude_partial",
    "Verif.Sun.C92_range_negation"
   ],
   "note": "Proved: but for whole turns the latitude is within 0.000031 degree (0.12 arcsecond) of the formula. False, and proved false: south of the ecliptic the value returned is over 359.999 degrees. Not decided: how far the mixed units in the angle of the reduction move the value inside of the 0.12 arcsecond."
  },
  {
   "property": "C93",
   "status": "partial",
   "theorems": [
    "Verif.Solar.C93_meridian",
    "Verif.Solar.C93_noon",
    "Verif.Solar.C93_between_partial",
    "Verif.Solar.C93_range_negation"
   ],
   "note": "Proved: the hour angle at the transit is at most 0.0012 degree and the transit is within 25 minutes of a local mean noon, for all longitudes; from local midnight, up to 60 degrees of latitude and 170 degrees east, it lies between sunrise and sunset and within 26 minutes of half a day. False, and proved false: for 2451635.8 and longitude 180 the result is negative, since a turn is added only once. Float rounding is not modelled."
  },
  {
   "property": "C94",
   "status": "partial",
   "theorems": [
    "Verif.C94_round_trip_partial",
    "Verif.C94_instant_partial",
    "Verif.C94_time_of_day_partial",
    "Verif.C94_date_line_negation",
    "Verif.C94_no_zone_negation",
    "Verif.C94_monotone_partial",
    "Verif.C94_long_day_negation",
    "Verif.C94_lost_dates_negation"
   ],
   "note": "Proved for all longitudes from -180 to 179.9999 and all dates to the first day of 1161 but the 83 days of the era that are not ordinary (OrdinaryDay in Spec/Place.lean: five days at each of the twelve changes of the scales of Julian days, fifteen in 1582, eight at the power of two 2097152), up to 24 hours after the start of a date (times up to a few ms); a later instant never gets an earlier date (up to longitude 180). False, and proved false: from 24 hours after its start to the end of a longer day the next date is given; at longitude 180 every date comes back as the next date; with `lat` and `lon` but no `zone` the coordinates are ignored. The other days are proved only for Tehran (C29). C94_lost_dates_negation refutes it for 22 of the excluded days: the ten dates of the reform have no Julian day at any place, and the eves of the twelve scale changes have none wherever the sun sets on the same day in Universal Time."
  },
  {
   "property": "C95",
   "status": "partial",
   "theorems": [
    "Verif.C95_place_partial",
    "Verif.C95_plain_zone_negation",
    "Verif.C95_timestamp_negation"
   ],
   "note": "Proved: with a zone made with coordinates and an offset the date is that of the place and the time is the time since its start, to within 3 ms. False, and proved false: zones without coordinates do not change the fields, so the results are different instants; and timestamp() does not give t back wherever two consecutive dates are not 24 hours apart."
  },
  {
   "property": "C96",
   "status": "partial",
   "theorems": [
    "Verif.C96_weeks",
    "Verif.C96_first_day",
    "Verif.C96_week_zero_negation",
    "Verif.C96_round_trip_partial",
    "Verif.C96_round_trip_negation",
    "Verif.C96_week_53_negation",
    "Verif.C96_w_negation"
   ],
   "note": "Proved: both directives agree, the 4th of Bahá is in week 1 and the number grows exactly at each Jalál; the date is read back up to week 52 in years that begin on weekdays 0, 4, 5 and 6. False, and proved false: the documented rule for week 0 in every year that does not begin on `Idāl; reading back in years that begin on weekdays 1 to 3 (every date comes back a week late) and in week 53 (refused); and strftime refuses %w, which strptime reads."
  },
  {
   "property": "C97",
   "status": "partial",
   "theorems": [
    "Verif.C97_length_partial",
    "Verif.C97_hms_partial",
    "Verif.C97_after_noon_negation",
    "Verif.C97_before_noon_negation",
    "Verif.C97_hms_negation"
   ],
   "note": "Proved for the instants between the two 12:00 UT around the civil day of the date, in hours for lengths from one hour to 25 hours. False, and proved false: from the second 12:00 UT to the end of the date the length of the next date is given; where the sun sets before 12:00 UT (the east) the first hours of a date are given the length of the date before; in hours, minutes and seconds a day of more than 25 hours comes out 24 hours short. Missing: the 83 days of C94."
  },
  {
   "property": "C98",
   "status": "partial",
   "theorems": [
    "Verif.C98_struct_partial",
    "Verif.C98_check_partial",
    "Verif.C98_strftime",
    "Verif.C98_weekday_negation",
    "Verif.C98_second_61_negation",
    "Verif.C98_late_years_negation"
   ],
   "note": "Proved for years -1843 (check: -1842) to 1161, with the kind of exception for each refusal, and that the text of a tuple is that of its struct. False, and proved false: the weekday and the day of the year are never compared with the date (struct_time takes any integers); second 61 passes the check of strftime and is then refused by struct_time; the long form years 1162 to 1444 are accepted by both, and raise KeyError in month 0."
  },
  {
   "property": "C99",
   "status": "proved",
   "theorems": [
    "Verif.Solar.C99_steady"
   ],
   "note": "In exact rational arithmetic: the rounding of each float operation in the polynomials is not modelled (it is far below a second). The function uses only the Gregorian year and month of its argument, so its values change at the first of a month; the largest change is 0.9063 seconds, at the beginning of year 500."
  },
  {
   "property": "C100",
   "status": "partial",
   "theorems": [
    "Verif.C100_same_day",
    "Verif.C100_today",
    "Verif.C100_forms_partial",
    "Verif.C100_forms_negation"
   ],
   "note": "The date is always the same, and so are the exceptions: proved without any assumption. The two forms agree unless the hour of the long form is 24; in the last 1.8 ms of a day of 24 hours the long form is hour 24 of the day and the short form is 23:00 of another day, as much as a month later (proved false there)."
  },
  {
   "property": "C101",
   "status": "partial",
   "theorems": [
    "Verif.C101_objects_partial",
    "Verif.C101_fromtimestamp_negation"
   ],
   "note": "Comparisons, differences, hashes and timestamps depend on the offset only: proved for all operands. fromtimestamp also uses the coordinates of a TZWithCoords, which __eq__ does not compare, so equal zones give unequal datetimes: proved false."
  },
  {
   "property": "C102",
   "status": "partial",
   "theorems": [
    "Verif.C102_distance_partial",
    "Verif.C102_range",
    "Verif.C102_degrees_negation"
   ],
   "note": "Proved for degrees=False over all moments, in exact real arithmetic. With degrees=True the distance is multiplied by 180/pi as if it were an angle and is between 56.19 and 58.42: proved false."
  },
  {
   "property": "C103",
   "status": "partial",
   "theorems": [
    "Verif.C103_formats",
    "Verif.C103_expand",
    "Verif.C103_date_time_partial",
    "Verif.C103_month_negation",
    "Verif.C103_locale_partial",
    "Verif.C103_century_negation",
    "Verif.C103_afternoon_negation",
    "Verif.C103_noon_negation"
   ],
   "note": "Proved for %c outside month 15 and for %x %X in locales with the full year and 24 hours. Proved false: %c in month 15 is read as month 11, two digits of the year are read as the first century, and the 12 hour format has no half of the day, so that hours from 13 on come back 12 hours early and hours 0 and 12 are refused."
  },
  {
   "property": "C104",
   "status": "partial",
   "theorems": [
    "Verif.C104_copy_partial",
    "Verif.C104_copies_partial",
    "Verif.C104_utc_negation",
    "Verif.C104_name_negation"
   ],
   "note": "Proved for every zone whose name is not empty, and exactly which copies are faithful. Proved false for the empty name: in Python 3.10 the copy gets a name made from the offset, and from 3.11 on copying timezone(timedelta(0), '') gives timezone.utc and sets its name to '' for the whole program."
  },
  {
   "property": "C105",
   "status": "partial",
   "theorems": [
    "Verif.C105_tehran",
    "Verif.C105_legal_partial",
    "Verif.C105_legal_negation"
   ],
   "note": "Everything is proved but the limits: badioffset is a legal offset exactly for zones east of UTC-20:30, and -24:30 for UTC-21:00."
  },
  {
   "property": "C106",
   "status": "partial",
   "theorems": [
    "Verif.C106_names",
    "Verif.C106_known",
    "Verif.C106_round_partial",
    "Verif.C106_alone_negation",
    "Verif.C106_unknown_negation"
   ],
   "note": "Proved which names are read and that the round trip holds for zones a whole number of hours from UTC with a name the host knows. Proved false for the other names, that of timezone.badi among them, which are refused, and for %Z without %z, which gives a naive datetime."
  },
  {
   "property": "C107",
   "status": "partial",
   "theorems": [
    "Verif.C107_instants_partial",
    "Verif.C107_fold_unequal",
    "Verif.C107_equal_partial",
    "Verif.C107_one_zone",
    "Verif.C107_hash",
    "Verif.C107_fixed",
    "Verif.C107_one_zone_negation",
    "Verif.C107_refusing_negation",
    "Verif.C107_astimezone_negation"
   ],
   "note": "Proved for two zone objects: differences, order (offsets unequal; with equal offsets the fields are compared), equality with the rule about fold; and hashes in the short form. Proved false: within one zone object the offsets are not asked for, so that two times an hour apart are equal and the order is not transitive; a zone that refuses this datetime (timezone of the standard library) makes == raise; astimezone to a zone that inherits fromutc always raises TypeError. C107_fixed: the zones of the library are a special case of this model."
  },
  {
   "property": "C108",
   "status": "partial",
   "theorems": [
    "Verif.C108_accepts",
    "Verif.C108_total",
    "Verif.C108_integers",
    "Verif.C108_hash",
    "Verif.C108_order_partial",
    "Verif.C108_hash_negation",
    "Verif.C108_order_negation"
   ],
   "note": "Proved: what the constructor accepts; that the order is total and transitive; which times can be hashed and pickled (exactly those with four ints), with equal hashes for equal ones; and that the order is that of the time of day if hours and minutes are whole, seconds below 60, and fractions of a second are given in one way only. Proved false otherwise: half past one as hour 1.5 is later than 1:40 and unequal to 1:30, and time(10.0) is equal to time(10) but neither hashable nor picklable. C108_integers: the integer model is a special case."
  },
  {
   "property": "C109",
   "status": "partial",
   "theorems": [
    "Verif.C109_accepts",
    "Verif.C109_integers",
    "Verif.C109_subtract",
    "Verif.C109_order_partial",
    "Verif.C109_add_partial",
    "Verif.C109_add_negation",
    "Verif.C109_weekday_negation"
   ],
   "note": "Proved: what is accepted; the order, except between Ayyam-i-Ha and other days of a year (C13); differences, to a quarter of a millisecond; sums up to 0.7395 of a day, where the part of the day is lost. False, and proved false for all such dates: from 0.7396 of a day on a sum is a day late, even with a timedelta of zero; the weekday of a date with a float is a float between the weekdays, ctime and isoformat raise, and hash and pickle raise TypeError."
  },
  {
   "property": "C110",
   "status": "partial",
   "theorems": [
    "Verif.C110_same",
    "Verif.C110_accepts",
    "Verif.C110_offset_negation",
    "Verif.C110_second_negation"
   ],
   "note": "Date, clock, weekday and day of the year are proved for every text that datetime.strptime reads as a day from MINYEAR - 1 to MAXYEAR. False, and proved false: zone and offset of the text are dropped; texts with offsets of 24 hours or more are read, which datetime.strptime refuses (no others: C110_accepts); second 61 is refused by both."
  },
  {
   "property": "C111",
   "status": "partial",
   "theorems": [
    "Verif.C111_day_partial",
    "Verif.C111_same_day_partial",
    "Verif.C111_order_partial",
    "Verif.C111_hypothesis",
    "Verif.C111_midnight_negation"
   ],
   "note": "Proved for instants two milliseconds or more from local midnight; the hypothesis on the oracles is derived (C111_hypothesis) from the exact reading of the algorithm up to 60 degrees from the equator. False, and proved false, closer to midnight: in Tehran the last instant before midnight gets the sunset of the next day."
  },
  {
   "property": "C112",
   "status": "partial",
   "theorems": [
    "Verif.C112_value_partial",
    "Verif.C112_once",
    "Verif.C112_twice_negation",
    "Verif.C112_year_negation",
    "Verif.C112_date_negation",
    "Verif.C112_key_negation",
    "Verif.C112_iso_negation",
    "Verif.C112_second_negation"
   ],
   "note": "Proved: any other exception comes only from a format with a directive twice, or from a text that follows the format and has a day of the year, week of the year or ISO year in it, names no date, or has the second 61. False, and proved false, in each of these cases: a directive twice is re.error for every text that follows the format; a year outside of the era, a fifth day of Ayyam-i-Ha in a common year, weekday 7 with the ISO week and the second 61 are AssertionError; days of the last year are KeyError."
  },
  {
   "property": "C113",
   "status": "partial",
   "theorems": [
    "Verif.C113_crossing_partial",
    "Verif.C113_midnight_sun_negation",
    "Verif.C113_polar_night_negation"
   ],
   "note": "About the exact reading of the algorithm. Proved up to 60 degrees from the equator, with a tolerance of 0.3 seconds. False near the poles, and proved false: on 21 June 2025 the sun is up all day at every place from 66 degrees north up to, but not at, the pole and down all day from 67.7 degrees south down to, but not at, the pole, and times of sunset and sunrise are given, because the cosine of the hour angle, when out of range, is replaced by its fractional part. Between 60 and 66 degrees nothing is proved."
  },
  {
   "property": "C114",
   "status": "partial",
   "theorems": [
    "Verif.C114_instants_partial",
    "Verif.C114_second_offset_negation",
    "Verif.C114_no_offset",
    "Verif.C114_mixed_partial",
    "Verif.C114_mixed_le_negation",
    "Verif.C114_raises",
    "Verif.C114_same_object",
    "Verif.C114_unhashable_negation",
    "Verif.C114_hash_partial",
    "Verif.C114_hash_same_object"
   ],
   "note": "Proved for offsets of whole minutes and seconds below 60. False, and proved false: with offsets in seconds equal clocks in different offsets are equal times; <= answers False for a naive and an aware time; a time whose zone raises is equal to itself and has no hash. A zone that answers differently when asked twice is not modelled."
  },
  {
   "property": "C115",
   "status": "proved",
   "theorems": [
    "Verif.C115_daylight"
   ],
   "note": "About the exact reading of the algorithm, in real arithmetic (Model/Solar). The altitude is written out from the textbook (sinAltitude, Props/SolarRoot), with the coordinates of the sun of the library."
  },
  {
   "property": "C116",
   "status": "partial",
   "theorems": [
    "Verif.C116_timetuple_partial",
    "Verif.C116_fold_negation",
    "Verif.C116_utctimetuple_partial",
    "Verif.C116_timestamp",
    "Verif.C116_same_instant",
    "Verif.C116_no_offset",
    "Verif.C116_raises"
   ],
   "note": "Proved for timestamp() in full, for utctimetuple() before hour 24 when the UTC day is reachable (C27), and for timetuple() with fold 0 and zones that do not depend on the microsecond. False, and proved false, with fold 1: timetuple() asks the zone about an object made anew with fold 0, so that in the second hour of the autumn change it has the offset, flag and name of summer time. An offset of zero is left out of timetuple() (C67)."
  },
  {
   "property": "C117",
   "status": "partial",
   "theorems": [
    "Verif.C117_time",
    "Verif.C117_time_iso",
    "Verif.C117_time_zone_partial",
    "Verif.C117_time_zone_negation",
    "Verif.C117_weekday_negation",
    "Verif.C117_date_partial",
    "Verif.C117_year_negation",
    "Verif.C117_datetime_partial"
   ],
   "note": "Proved for times without a zone, for zones of whole hours other than zero, for the years from 0 on and before -999, and for naive datetimes or those in such zones. False, and proved false: for zones with a quarter of an hour and for UTC (%:z, C70); for the years -999 to -1, where str and isoformat write three digits of the year and %Y four; for the weekday of a time, which is Jalal though 1 Baha 1 is another weekday. Not stated: zones that are not a multiple of a quarter of an hour; the empty format of long forms, which is the text with the cycles (C84)."
  },
  {
   "property": "C118",
   "status": "partial",
   "theorems": [
    "Verif.C118_datetime_partial",
    "Verif.C118_no_offset",
    "Verif.C118_time",
    "Verif.C118_time_no_offset",
    "Verif.C118_time_raises",
    "Verif.C118_raises",
    "Verif.C118_fold_negation",
    "Verif.C118_time_negation"
   ],
   "note": "Proved for every format, the zone being asked about the same second with fold 0. False, and proved false: with fold 1 the texts of %Z and %z in the second hour of the autumn change are those of summer time; a time in a zone that has an offset for datetimes only is shown with the offset of the first day of the era by %:z and without an offset by isoformat."
  },
  {
   "property": "C119",
   "status": "partial",
   "theorems": [
    "Verif.C119_unequal",
    "Verif.C119_no_order",
    "Verif.C119_ne",
    "Verif.C119_dates_partial",
    "Verif.C119_times",
    "Verif.C119_datetimes",
    "Verif.C119_turn_dates_partial",
    "Verif.C119_turn_times_partial",
    "Verif.C119_plus_comm",
    "Verif.C119_plus_refused",
    "Verif.C119_plus",
    "Verif.C119_minus",
    "Verif.C119_minus_refused",
    "Verif.C119_forms_negation",
    "Verif.C119_times_negation",
    "Verif.C119_minus_negation"
   ],
   "note": "Proved for all pairs of classes. Within a class the operators are the comparisons of the ordinals of dates, the clocks of times and the instants of datetimes with different offsets; turning a comparison around is proved for dates of the same form and for times that both have or both lack a zone. False, and proved false: a short date compared with a long one answers, the long with the short raises AttributeError; with one zone only `<=` of times answers False and the reversed `>=` raises TypeError; a date minus a datetime is the days between them while the datetime minus the date raises TypeError."
  },
  {
   "property": "C120",
   "status": "partial",
   "theorems": [
    "Verif.C120_datetime",
    "Verif.C120_no_offset",
    "Verif.C120_time",
    "Verif.C120_raises",
    "Verif.C120_round_trip_partial",
    "Verif.C120_questions",
    "Verif.C120_dst",
    "Verif.C120_fold_negation",
    "Verif.C120_views_negation",
    "Verif.C120_dst_negation"
   ],
   "note": "The texts are proved for all zones; reading them back gives the same instant under the conditions of C20. False, and proved false: in the hours of a change the datetime read back is not equal to the one written though their difference is zero; there isoformat, dst and tzname show winter time where strftime shows summer time; a daylight saving time of a day or more is refused by dst() and accepted by timetuple()."
  },
  {
   "property": "C121",
   "status": "partial",
   "theorems": [
    "Verif.C121_reads",
    "Verif.C121_tells_partial",
    "Verif.C121_zone_negation",
    "Verif.C121_eval_negation"
   ],
   "note": "Proved for the fields that are printed: the nine of the short form and the eleven of the long form. False, and proved false, of the name of the zone and the offset: timetuple() of a naive datetime and of the same datetime in any zone without a daylight saving answer are different and have the same text; and of eval, because the text names a module structures, which the package does not have. Seconds are integers, as in all the tuples that the library makes."
  },
  {
   "property": "C122",
   "status": "proved",
   "theorems": [
    "Verif.C122_order",
    "Verif.C122_reads",
    "Verif.C122_tells"
   ],
   "note": "For the days from the first day of MINYEAR on, as C10. The class name stands in the text without its module, as in the code."
  }
 ]
}