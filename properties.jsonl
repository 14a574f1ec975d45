{"id": "C01", "title": "Every Badi' year has 365 or 366 days and years are contiguous", "statement": "For every supported year the first day of the following year comes exactly 365 or 366 days after its own first day; a year is reported as leap exactly when it has 366 days; the first-day numbers are strictly increasing, so no day belongs to two years and no day is skipped. This must be so whatever sunset times the astronomy produces, as long as Tehran's sunset falls in the local evening.", "quantifier": "every year of the year-start table (-1843..1161) and every sunset function with values in the evening", "why_tests_cant": "The year starts come from seven correction tables applied on top of floating point sunset times; a unit test samples a few years and one sunset implementation.", "anchors": ["badidatetime/_coefficients.py:Coefficients._get_day_coeff", "badidatetime/badi_calendar.py:BahaiCalendar._build_badi_year_start", "badidatetime/badi_calendar.py:BahaiCalendar._is_leap_year", "badidatetime/badi_calendar.py:BahaiCalendar.jd_from_badi_date"]}
{"id": "C02", "title": "A day number is assigned to the year that contains it", "statement": "For every Rata Die day number accepted by the library, the year chosen is the unique year whose first day is <= the number and whose successor's first day is > the number. Day numbers outside the accepted range are rejected and never assigned a year.", "quantifier": "every integer day number", "why_tests_cant": "The year is first guessed with a floating point division by 365.2425 and corrected by at most one; only a proof over the whole range shows one correction always suffices.", "anchors": ["badidatetime/badi_calendar.py:BahaiCalendar._badi_year_from_rd"]}
{"id": "C03", "title": "Day of year <-> (month, day) is a bijection", "statement": "Inside each year the day-of-year numbering used when reading a date from a day number and the numbering used when writing a date to a day number are mutually inverse: months 1..18 (19 days each), then Ayyam-i-Ha (month 0, 4 or 5 days), then month 19 (19 days), with every day of the year hit exactly once.", "quantifier": "every day of every year, common and leap", "why_tests_cant": "The two directions are separate pieces of code with different branch structure (month 0 sits between 18 and 19).", "anchors": ["badidatetime/badi_calendar.py:BahaiCalendar.badi_date_from_jd", "badidatetime/_timedateutils.py:TimeDateUtils._days_before_month", "badidatetime/badi_calendar.py:BahaiCalendar.jd_from_badi_date"]}
{"id": "C04", "title": "Short form -> long form -> short form is the identity", "statement": "For every date the library accepts, converting (year, month, day) to (Kull-i-Shay, Vahid, year, month, day) and back returns the same date, the long fields are in range (Vahid and year in 1..19), and the long form is the unique one that denotes that year. This includes the rounding of the binary64 arithmetic the conversion uses.", "quantifier": "every year the conversion accepts, every valid month and day, every time of day", "why_tests_cant": "The conversion is done with ceil of truncated floating point fractions; an off-by-one at a multiple of 19 or 361 is invisible to samples.", "anchors": ["badidatetime/badi_calendar.py:BahaiCalendar.long_date_from_short_date", "badidatetime/badi_calendar.py:BahaiCalendar.short_date_from_long_date", "badidatetime/base_calendar.py:BaseCalendar._truncate_decimal"]}
{"id": "C05", "title": "Long form -> short form keeps the moment when the time overflows", "statement": "Converting a long form date whose time of day is at the upper limit (second 60, hour 24) to short form denotes the same moment: the carries into minute, hour, day, month and year are exact, including the carry out of month 18 into Ayyam-i-Ha.", "quantifier": "every valid long form date and time of day, including hour 24", "why_tests_cant": "Carries chain through five fields; tests cover a few carries, and the carry code subtracts one instead of the radix.", "anchors": ["badidatetime/badi_calendar.py:BahaiCalendar.short_date_from_long_date"]}
{"id": "C06", "title": "Ordinals are chronological and consecutive", "statement": "date.toordinal() increases by exactly one from each day to the following day of the calendar (through month ends, Ayyam-i-Ha and year ends), hence it is injective and orders dates chronologically; the first day of MINYEAR has ordinal 78.", "quantifier": "every valid date of every supported year, every sunset function satisfying the stated evening hypotheses", "why_tests_cant": "The ordinal is computed from the difference of two floating point sunsets with three hand-patched years.", "anchors": ["badidatetime/_timedateutils.py:TimeDateUtils._ymd2ord", "badidatetime/_timedateutils.py:TimeDateUtils._days_before_year", "badidatetime/datetime.py:date.toordinal"]}
{"id": "C07", "title": "fromordinal inverts toordinal", "statement": "date.fromordinal(d.toordinal()) == d for every date d, and date.fromordinal(n).toordinal() == n for every ordinal n in the supported range; fromordinal never raises in that range.", "quantifier": "every valid date and every ordinal in range", "why_tests_cant": "Two independent algorithms (sunset differences one way, Rata Die tables the other) must agree on 1.1 million days.", "anchors": ["badidatetime/datetime.py:date.fromordinal", "badidatetime/_timedateutils.py:TimeDateUtils._ord2ymd", "badidatetime/badi_calendar.py:BahaiCalendar._utc_to_badi_time"]}
{"id": "C08", "title": "Date plus timedelta arithmetic laws", "statement": "(d + t) - d equals t for whole-day t; d + (e - d) == e; (d + t) + u == d + (t + u) and d - t == d + (-t) whenever all the results are representable; results keep the form (short or long) of the operand; out of range results raise OverflowError and never wrap.", "quantifier": "all dates and all timedeltas", "why_tests_cant": "Laws relate results of several calls for all operand pairs; tests check chosen pairs.", "anchors": ["badidatetime/datetime.py:date.__add__", "badidatetime/datetime.py:date.__sub__"]}
{"id": "C09", "title": "Weekdays cycle with period seven and all accessors agree", "statement": "The weekday advances by one modulo seven from any day to the next; weekday(), isoweekday() (= weekday()+1), the third field of isocalendar() and the weekday in the time tuple always agree.", "quantifier": "every valid date", "why_tests_cant": "The accessors compute the weekday by separate routes.", "anchors": ["badidatetime/datetime.py:date.weekday", "badidatetime/datetime.py:date.isoweekday", "badidatetime/datetime.py:date.isocalendar", "badidatetime/_timedateutils.py:TimeDateUtils._day_of_week", "badidatetime/_timedateutils.py:TimeDateUtils._year_week_day"]}
{"id": "C10", "title": "ISO week numbering is well formed", "statement": "isocalendar() always yields a week in 1..53 and a weekday in 1..7; week 1 of a year is the Jalal-to-Istiqlal week holding the fourth day of the year; consecutive days either keep the week or move to the next one at weekday 1; the ISO year differs from the calendar year by at most one.", "quantifier": "every valid date", "why_tests_cant": "Boundary weeks depend on the length and first weekday of two adjacent years.", "anchors": ["badidatetime/_timedateutils.py:TimeDateUtils._year_week_day", "badidatetime/_timedateutils.py:TimeDateUtils._isoweek1jalal", "badidatetime/datetime.py:date.isocalendar"]}
{"id": "C11", "title": "fromisocalendar inverts isocalendar", "statement": "date.fromisocalendar(*d.isocalendar()) == d for every date d, and only (year, week, weekday) triples that denote a real week of that year are accepted.", "quantifier": "every valid date and every (year, week, weekday) triple", "why_tests_cant": "The exceptional 53-week years are a small fraction of the range.", "anchors": ["badidatetime/_timedateutils.py:TimeDateUtils._isoweek_to_badi", "badidatetime/datetime.py:date.fromisocalendar"]}
{"id": "C12", "title": "Date comparison is a total order on each form", "statement": "For dates of the same form exactly one of a<b, a==b, a>b holds, <= and >= are the unions, the order is transitive, and a==b exactly when all fields agree.", "quantifier": "all pairs and triples of dates of the same form", "why_tests_cant": "Order laws quantify over all triples.", "anchors": ["badidatetime/datetime.py:date.__eq__", "badidatetime/datetime.py:date._cmp", "badidatetime/datetime.py:_cmp"]}
{"id": "C13", "title": "Date order is chronological", "statement": "a < b holds exactly when a is the earlier day, i.e. exactly when a.toordinal() < b.toordinal().", "quantifier": "all pairs of dates of the same form", "why_tests_cant": "Ayyam-i-Ha is stored as month 0 but lies between months 18 and 19; only pairs that straddle it expose a wrong order.", "anchors": ["badidatetime/datetime.py:date._cmp"]}
{"id": "C14", "title": "Comparison of short and long form dates", "statement": "Comparing a short form and a long form object is symmetric and consistent: a==b iff b==a, and a short and a long form of the same day are equal (or the comparison is refused in both directions).", "quantifier": "all pairs of a short form and a long form date or datetime", "why_tests_cant": "Symmetry needs both directions of every pair.", "anchors": ["badidatetime/datetime.py:date._cmp", "badidatetime/datetime.py:datetime._cmp"]}
{"id": "C15", "title": "Equal objects have equal hashes", "statement": "If a == b then hash(a) == hash(b), for dates, times and datetimes, naive and aware; every constructible object is hashable.", "quantifier": "all pairs of dates, times and datetimes", "why_tests_cant": "The contract quantifies over all equal pairs, including pairs with different offsets.", "anchors": ["badidatetime/datetime.py:date.__hash__", "badidatetime/datetime.py:time.__hash__", "badidatetime/datetime.py:datetime.__hash__"]}
{"id": "C16", "title": "Pickled dates are restored exactly", "statement": "Serialising a date and restoring it yields an equal date with the same form and fields, for every valid date in short and long form.", "quantifier": "every valid date", "why_tests_cant": "The byte-level recogniser is a set of range checks on single bytes; the failing dates are the few days of Ayyam-i-Ha.", "anchors": ["badidatetime/datetime.py:date._getstate", "badidatetime/datetime.py:date.__setstate", "badidatetime/datetime.py:date._is_pickle_data"]}
{"id": "C17", "title": "Pickled times and datetimes are restored exactly", "statement": "Serialising a time or a datetime and restoring it yields the same fields (hour, minute, second, microsecond and, with protocol > 3, fold).", "quantifier": "every valid time and datetime, each fold, each protocol", "why_tests_cant": "Fold shares a byte with hour or month; correctness is a bit-level round trip over all values.", "anchors": ["badidatetime/datetime.py:time._getstate", "badidatetime/datetime.py:time.__setstate", "badidatetime/datetime.py:time.__new__", "badidatetime/datetime.py:datetime._getstate", "badidatetime/datetime.py:datetime._is_pickle_data"]}
{"id": "C18", "title": "date.fromisoformat inverts date.isoformat", "statement": "date.fromisoformat(d.isoformat()) == d for every short form date d.", "quantifier": "every valid date, including negative years", "why_tests_cant": "Padding of negative years depends on the sign and the number of digits.", "anchors": ["badidatetime/datetime.py:date.isoformat", "badidatetime/_timedateutils.py:TimeDateUtils._parse_isoformat_date"]}
{"id": "C19", "title": "The basic ISO forms denote the same day as the extended forms", "statement": "YYYYMMDD is read as the same date as YYYY-MM-DD, YYYYDDD as YYYY-DDD, YYYYWwwD as YYYY-Www-D; strings with an impossible month, day or day-of-year are rejected.", "quantifier": "every four digit year, month, day, day of year and week", "why_tests_cant": "A slice bound that is off by one is invisible for single-digit days.", "anchors": ["badidatetime/_timedateutils.py:TimeDateUtils._parse_isoformat_date"]}
{"id": "C20", "title": "Time and datetime ISO text round trips", "statement": "time.fromisoformat(t.isoformat()) == t and datetime.fromisoformat(x.isoformat()) == x for every time and datetime.", "quantifier": "every valid time and datetime, with and without microseconds", "why_tests_cant": "Microseconds go through a binary fraction; a truncation error appears only for some of the million values.", "anchors": ["badidatetime/datetime.py:time.isoformat", "badidatetime/datetime.py:time.fromisoformat", "badidatetime/datetime.py:datetime.isoformat", "badidatetime/datetime.py:datetime.fromisoformat", "badidatetime/_timedateutils.py:TimeDateUtils._parse_isoformat_time"]}
{"id": "C21", "title": "UTC offsets survive formatting and parsing", "statement": "Parsing the text produced for a UTC offset gives the same offset back, for every whole-minute offset strictly between -24h and +24h.", "quantifier": "every whole-minute offset", "why_tests_cant": "The sign must be applied to hours and minutes; positive and whole-hour samples cannot show it.", "anchors": ["badidatetime/datetime.py:_format_offset", "badidatetime/_timedateutils.py:TimeDateUtils._parse_isoformat_timezone"]}
{"id": "C22", "title": "Constructors accept exactly the valid dates", "statement": "A short (long) form date is accepted exactly when year (Kull-i-Shay, Vahid, year), month and day are within the documented ranges and, in month 0, the day exists in that year; everything else is refused with AssertionError and no object is created.", "quantifier": "every integer tuple", "why_tests_cant": "Acceptance is a statement about every integer tuple, both inside and outside the ranges.", "anchors": ["badidatetime/badi_calendar.py:BahaiCalendar._check_valid_badi_date", "badidatetime/_timedateutils.py:TimeDateUtils._check_date_fields", "badidatetime/datetime.py:date.__new__"]}
{"id": "C23", "title": "replace() changes exactly the named fields", "statement": "d.replace() == d; replace(f=v) has field f equal to v and all other fields unchanged, or raises; replacing a field by its own value is the identity; later replacements of the same field override earlier ones.", "quantifier": "every date/time/datetime, every subset of fields, every value including zero", "why_tests_cant": "Zero is a legal value of several fields and falsy in Python; subsets of fields are exponentially many.", "anchors": ["badidatetime/datetime.py:date.replace", "badidatetime/datetime.py:time.replace", "badidatetime/datetime.py:datetime.replace"]}
{"id": "C24", "title": "Time comparison is consistent", "statement": "For times with equal offsets the order is lexicographic on (hour, minute, second, microsecond) and total; for different offsets it is the order of the offset-adjusted times; comparing naive with aware raises for every ordering operator.", "quantifier": "all pairs of times and offsets", "why_tests_cant": "All pairs of offsets, including sub-minute ones, and all six operators.", "anchors": ["badidatetime/datetime.py:time._cmp", "badidatetime/datetime.py:time.__le__", "badidatetime/datetime.py:time.__lt__"]}
{"id": "C25", "title": "Datetime equality distinguishes different moments", "statement": "Two datetimes of the same form with the same UTC offset compare equal exactly when all of their date and time fields agree.", "quantifier": "all pairs of datetimes", "why_tests_cant": "Long form objects that differ only in Kull-i-Shay or Vahid are rarely compared in tests.", "anchors": ["badidatetime/datetime.py:datetime._cmp", "badidatetime/datetime.py:datetime.__eq__"]}
{"id": "C26", "title": "Datetime arithmetic laws", "statement": "(x + t) - x == t; x + (y - x) == y; (x + t) + u == x + (t + u); the time zone is preserved; results out of range raise OverflowError.", "quantifier": "all datetimes and all timedeltas with microsecond resolution", "why_tests_cant": "Carries from microseconds to days in both signs for all operands.", "anchors": ["badidatetime/datetime.py:datetime.__add__", "badidatetime/datetime.py:datetime.__sub__"]}
{"id": "C27", "title": "astimezone preserves the instant", "statement": "For aware x and any fixed offset zone z, x.astimezone(z) denotes the same instant as x (their difference is zero), carries zone z, and x.astimezone(z).astimezone(x.tzinfo) has the fields of x.", "quantifier": "all aware datetimes and all fixed-offset zones", "why_tests_cant": "Offset arithmetic crosses day, month, Ayyam-i-Ha and year boundaries.", "anchors": ["badidatetime/datetime.py:datetime.astimezone", "badidatetime/datetime.py:timezone.fromutc"]}
{"id": "C28", "title": "Fixed offset time zones", "statement": "A timezone can be created exactly for offsets strictly between -24h and 24h; equality and hash depend only on the offset; utcoffset() is constant; its generated name determines the offset.", "quantifier": "all timedeltas", "why_tests_cant": "Boundary and injectivity statements over all microsecond offsets.", "anchors": ["badidatetime/datetime.py:timezone.__new__", "badidatetime/datetime.py:timezone.__eq__", "badidatetime/datetime.py:timezone._name_from_offset"]}
{"id": "C29", "title": "Julian Period day <-> Badi' date round trip", "statement": "badi_date_from_jd(jd_from_badi_date(d)) == d for every valid Badi' date d (start of day), and with a time of day as long as that time lies before the next sunset.", "quantifier": "every valid date and time of day, every evening sunset function", "why_tests_cant": "Goes through two historical JD shifts with excluded days, floating point sunsets and rounding.", "anchors": ["badidatetime/badi_calendar.py:BahaiCalendar.jd_from_badi_date", "badidatetime/badi_calendar.py:BahaiCalendar.badi_date_from_jd", "badidatetime/badi_calendar.py:BahaiCalendar._utc_to_badi_time"]}
{"id": "C30", "title": "The Badi' day never goes backwards", "statement": "If jd1 <= jd2 then the Badi' date (and the date with its time of day) of jd1 is not later than that of jd2.", "quantifier": "all pairs of Julian days, every evening sunset function", "why_tests_cant": "Monotonicity relates all pairs of instants; the failure window is the minute in which sunset moves from one day to the next.", "anchors": ["badidatetime/badi_calendar.py:BahaiCalendar._utc_to_badi_time", "badidatetime/badi_calendar.py:BahaiCalendar.badi_date_from_jd"]}
{"id": "C31", "title": "Historical and astronomical JD are inverse", "statement": "Converting an astronomical JD to the historical (Meeus) numbering and back is the identity wherever defined, both conversions are strictly increasing, and each raises exactly on its documented gap.", "quantifier": "every rational JD", "why_tests_cant": "Thirteen thresholds in each direction must line up exactly.", "anchors": ["badidatetime/base_calendar.py:BaseCalendar._meeus_from_exact", "badidatetime/base_calendar.py:BaseCalendar._exact_from_meeus"]}
{"id": "C32", "title": "Days up to a year follow the leap rule", "statement": "The number of days up to year y grows from y-1 to y by 366 exactly when y is leap under the same rule (4|100|400 or 4|128) and by 365 otherwise, for all integers y, and is 0 at year 0.", "quantifier": "every integer year, both leap rules", "why_tests_cant": "Unbounded induction over years of both signs.", "anchors": ["badidatetime/base_calendar.py:BaseCalendar._days_in_years", "badidatetime/gregorian_calendar.py:GregorianCalendar._is_leap_year"]}
{"id": "C33", "title": "Gregorian date <-> JD (astronomical algorithm) round trip", "statement": "gregorian_date_from_jd(jd_from_gregorian_date(d, exact=True), exact=True) == d for every Gregorian date and JD increases by one per day.", "quantifier": "every Gregorian date, every time of day fraction", "why_tests_cant": "The search starts from a guess with a tropical year and walks; failures occur only far from tested years.", "anchors": ["badidatetime/gregorian_calendar.py:GregorianCalendar.jd_from_gregorian_date", "badidatetime/gregorian_calendar.py:GregorianCalendar.gregorian_date_from_jd"]}
{"id": "C34", "title": "Gregorian date <-> JD (historical algorithm) round trip", "statement": "gregorian_date_from_jd(jd_from_gregorian_date(d)) == d for every historically valid date with a non-negative JD, Julian calendar before 1582-10-15 and Gregorian from then on, and JD increases by one per day across the reform.", "quantifier": "every historical date", "why_tests_cant": "Floors of products with 30.6001 and 365.25 must be right for unbounded years.", "anchors": ["badidatetime/gregorian_calendar.py:GregorianCalendar.jd_from_gregorian_date", "badidatetime/gregorian_calendar.py:GregorianCalendar.gregorian_date_from_jd"]}
{"id": "C35", "title": "POSIX timestamp decoding", "statement": "posix_timestamp(t) yields the Gregorian UTC date and time of every t >= 0.", "quantifier": "every non-negative timestamp", "why_tests_cant": "The loop exit condition is wrong only on the last day of a year.", "anchors": ["badidatetime/gregorian_calendar.py:GregorianCalendar.posix_timestamp"]}
{"id": "C36", "title": "The correction table covers every year exactly once", "statement": "Each supported year lies in exactly one segment of the seven correction tables, and the correction is 0, -1 or -2 as a function of the distance to the segment's end modulo 4.", "quantifier": "every year -1843..1161", "why_tests_cant": "130 hand-written segments; an overlap or a gap affects only a few years.", "anchors": ["badidatetime/_coefficients.py:Coefficients._get_day_coeff"]}
{"id": "C37", "title": "Nutation values do not depend on call history", "statement": "For any sequence of calls, nutation in longitude and obliquity at a given time equals the directly computed value; the single-entry cache is invisible.", "quantifier": "every finite history of calls with arbitrary arguments", "why_tests_cant": "A property of all call histories; the initial cache entry is only visible on a fresh object at one argument.", "anchors": ["badidatetime/base_calendar.py:BaseCalendar._nutation_longitude", "badidatetime/base_calendar.py:BaseCalendar._nutation_obliquity"]}
{"id": "C38", "title": "strptime results do not depend on call history", "statement": "The result of parsing a string with a format depends only on the two arguments, not on earlier parses through the module level caches.", "quantifier": "every finite history of parses and locale switches", "why_tests_cant": "A statement about all interleavings of calls sharing a module-level cache.", "anchors": ["badidatetime/_strptime.py:StrpTime._find_regex", "badidatetime/_strptime.py:_strptime_datetime"]}
{"id": "C39", "title": "strptime inverts strftime for numeric formats", "statement": "Parsing the text produced with a numeric format (year, month, day, hour, minute, second, microsecond; year and day of year; ISO year, week, weekday) returns the same date.", "quantifier": "every valid date and time of day", "why_tests_cant": "Greedy matching and sign handling over all years.", "anchors": ["badidatetime/_strptime.py:StrpTime", "badidatetime/_timedateutils.py:TimeDateUtils.strftime"]}
{"id": "C40", "title": "strftime copies literal text", "statement": "Every character of a format that is not part of a directive appears unchanged and in order in the output, each directive is replaced by its value, %% gives one percent sign, and malformed directives are refused.", "quantifier": "every format string", "why_tests_cant": "Quantifies over all strings; the bug needs particular adjacent characters.", "anchors": ["badidatetime/_timedateutils.py:TimeDateUtils.strftime", "badidatetime/_timedateutils.py:TimeDateUtils._check_format"]}
{"id": "C41", "title": "Integer rounding helper rounds half to even", "statement": "The integer division helper returns the integer nearest to a/b, ties to the even one, for every a and every non-zero b.", "quantifier": "all integers a and all non-zero integers b", "why_tests_cant": "Unbounded, four sign combinations and exact ties.", "anchors": ["badidatetime/datetime.py:_divide_and_round"]}
{"id": "C42", "title": "Trimming a time drops only trailing zeros", "statement": "Trimming a time tuple removes exactly the maximal run of trailing zeros: padding the result with zeros gives back the input and the result never ends in zero; trimming twice is trimming once.", "quantifier": "every tuple of any length", "why_tests_cant": "Tuples of any length.", "anchors": ["badidatetime/badi_calendar.py:BahaiCalendar._trim_hms"]}
{"id": "C43", "title": "A day fraction always decodes to a legal time of day", "statement": "Decoding any day fraction gives hour 0..24, minute 0..59, second in [0,60), microsecond 0..999999, and encoding it again is within a stated tolerance of the input; encoded whole-second times decode to themselves.", "quantifier": "every binary64 day fraction and every time of day", "why_tests_cant": "Rounding at three places in binary64 for all inputs.", "anchors": ["badidatetime/base_calendar.py:BaseCalendar._hms_from_decimal_day", "badidatetime/base_calendar.py:BaseCalendar._decimal_day_from_hms"]}
{"id": "C44", "title": "Numeric helpers meet their mathematical definition", "statement": "The polynomial evaluator equals the sum of a_i x^i; three point interpolation passes through its three points and is exact for quadratics; the coterminal angle lies in [0,360) and differs from the input by a multiple of 360.", "quantifier": "all rational inputs and coefficient lists of any length", "why_tests_cant": "Algebraic identities over all inputs and lengths.", "anchors": ["badidatetime/base_calendar.py:BaseCalendar._poly", "badidatetime/base_calendar.py:BaseCalendar._interpolation_from_three", "badidatetime/base_calendar.py:BaseCalendar._coterminal_angle"]}
{"id": "C45", "title": "Angles and coordinates convert back and forth", "statement": "Degrees to degree/minute/second (with hemisphere letter) and back, and degrees to hour/minute/second of right ascension and back, return the original value, and the hemisphere letter matches the kind and sign of the coordinate.", "quantifier": "all rational coordinates", "why_tests_cant": "Sign and letter logic over all inputs and all accepted direction words.", "anchors": ["badidatetime/base_calendar.py:BaseCalendar._dms_from_decimal", "badidatetime/base_calendar.py:BaseCalendar._decimal_from_dms", "badidatetime/base_calendar.py:BaseCalendar._hms_from_degrees", "badidatetime/base_calendar.py:BaseCalendar._degrees_from_hms"]}
{"id": "C46", "title": "Seconds <-> day, hour, minute, second", "statement": "Splitting a number of seconds into day, hour, minute, second and adding them up again gives the same number, with hour in 0..23, minute in 0..59 and second in [0,60).", "quantifier": "every non-negative number of seconds and every zone", "why_tests_cant": "Range statement over all magnitudes.", "anchors": ["badidatetime/base_calendar.py:BaseCalendar._dhms_from_seconds", "badidatetime/base_calendar.py:BaseCalendar._seconds_from_dhms"]}
{"id": "C47", "title": "Mutually exclusive flags", "statement": "A conversion is refused whenever more than one of its mutually exclusive output flags is set, and accepted when at most one is set.", "quantifier": "every combination of flags", "why_tests_cant": "All combinations, for any number of flags.", "anchors": ["badidatetime/base_calendar.py:BaseCalendar._xor_boolean", "badidatetime/badi_calendar.py:BahaiCalendar.badi_date_from_jd"]}
{"id": "C48", "title": "Local coordinates configuration", "statement": "After any sequence of configuration calls the local coordinates are those of the last call if it gave a usable latitude and longitude, and the Tehran default otherwise; the local time zone always matches the local coordinates.", "quantifier": "every sequence of configuration calls", "why_tests_cant": "A statement about all histories of calls.", "anchors": ["badidatetime/__init__.py:set_local_coordinates", "badidatetime/__init__.py:_locale_config", "badidatetime/__init__.py:_get_local_coordinates"]}
{"id": "C49", "title": "Constructed datetimes have in-range fields", "statement": "Whatever fractional hour, minute or second is passed, a datetime that is successfully constructed has hour 0..24, minute 0..59, second 0..60 and microsecond 0..999999, and denotes the requested time.", "quantifier": "every rational hour, minute, second accepted by the constructor", "why_tests_cant": "The carry happens only for fractions that round up to a full unit.", "anchors": ["badidatetime/datetime.py:datetime._create_time"]}
{"id": "C50", "title": "timestamp() of a naive datetime", "statement": "The timestamp of a naive datetime increases by exactly the elapsed seconds when its time of day changes; in particular microseconds are counted once.", "quantifier": "every naive datetime", "why_tests_cant": "Needs the relation between two timestamps for all times of day.", "anchors": ["badidatetime/datetime.py:datetime.timestamp", "badidatetime/datetime.py:datetime._mktime", "badidatetime/badi_calendar.py:BahaiCalendar.timestamp_from_badi_date"]}
{"id": "C51", "title": "The time constructor accepts exactly the valid times of day", "statement": "time(hour, minute, second, microsecond) with integer arguments succeeds exactly when 0 <= hour <= 24, 0 <= minute < 60, 0 <= second < 61, 0 <= microsecond < 10**6 and fold is 0 or 1, and the object then carries exactly those fields; in every other case AssertionError is raised.", "quantifier": "every tuple of integers", "why_tests_cant": "The input space is unbounded in every argument; tests only probe the edges one argument at a time.", "anchors": ["badidatetime/datetime.py:time.__new__", "badidatetime/_timedateutils.py:TimeDateUtils._check_time_fields"]}
{"id": "C52", "title": "Aware datetimes compare as instants", "statement": "Two short form datetimes with different UTC offsets compare in the order of the instants they denote, and are equal exactly when the instants coincide; a naive and an aware datetime are never equal and ordering or subtracting them raises TypeError.", "quantifier": "every pair of valid datetimes with every pair of offsets", "why_tests_cant": "The comparison goes through a subtraction that mixes day numbers, clock fields and two offsets; tests sample a few offsets.", "anchors": ["badidatetime/datetime.py:datetime._cmp", "badidatetime/datetime.py:datetime.__sub__"]}
{"id": "C53", "title": "Pickling a time zone with coordinates", "statement": "Pickling and restoring a time zone built from coordinates gives a zone with the same coordinates, key, UTC offset and name.", "quantifier": "every latitude, longitude, explicit zone value and key accepted by the constructor", "why_tests_cant": "Ranges over all coordinates and keys; the lost attribute only shows when a key was given.", "anchors": ["badidatetime/datetime.py:TZWithCoords.__new__", "badidatetime/datetime.py:TZWithCoords.__getstate__", "badidatetime/datetime.py:TZWithCoords.__setstate__"]}
{"id": "C54", "title": "Naw-Ruz and Ridvan fall in the evening of the right Gregorian days", "statement": "naw_ruz_g_date(year) is the evening (15:00 to 20:59 local standard time in Tehran) of 18, 19, 20 or 21 March of Gregorian year + 1843, and first_day_of_ridvan_g_date(year) is the evening of the same day number in April, 31 days later; with hms=True the hour, minute and second fields are in range.", "quantifier": "every year from -1842 to 1161 and every sunset function with evening sunsets in Tehran", "why_tests_cant": "Ranges over 3004 years and an arbitrary sunset function; tests check a few years with the built-in ephemeris.", "anchors": ["badidatetime/badi_calendar.py:BahaiCalendar.naw_ruz_g_date", "badidatetime/badi_calendar.py:BahaiCalendar.first_day_of_ridvan_g_date"]}
{"id": "C55", "title": "A Badi date and its Gregorian date denote the same day and can be converted back", "statement": "gregorian_date_from_badi_date(b) is a valid Gregorian date and time that denotes the instant jd_from_badi_date(b) in the given zone; the day with number n starts in Tehran in the evening of the Gregorian day n - 1 days after 1 January of year 1; badi_date_from_gregorian_date reads the result back as b.", "quantifier": "every accepted Badi date and time of day, every location and zone", "why_tests_cant": "The result passes through four float conversions; the failures at the end of the Gregorian day and by the zone are only visible for particular times of day.", "anchors": ["badidatetime/badi_calendar.py:BahaiCalendar.gregorian_date_from_badi_date", "badidatetime/badi_calendar.py:BahaiCalendar.badi_date_from_gregorian_date", "badidatetime/gregorian_calendar.py:GregorianCalendar.gregorian_date_from_jd"]}
{"id": "C56", "title": "A timestamp is read back as the instant it was made from", "statement": "timestamp_from_badi_date(b) is the number of seconds from Julian Period day 2440585.5 to jd_from_badi_date(b) (up to 10 microseconds), and badi_date_from_timestamp gives for it exactly the date that badi_date_from_jd gives for jd_from_badi_date(b); for the start of a date this is the date itself.", "quantifier": "every accepted Badi date and time of day, every location, all output options", "why_tests_cant": "The division and multiplication by 86400 are rounded; exact recovery for all 2**53 values cannot be sampled.", "anchors": ["badidatetime/badi_calendar.py:BahaiCalendar.timestamp_from_badi_date", "badidatetime/badi_calendar.py:BahaiCalendar.badi_date_from_timestamp"]}
{"id": "C57", "title": "fromtimestamp finds the day and the time of day of every timestamp", "statement": "For a timestamp between that of the start of a date and that of the start of the next date, date.fromtimestamp gives this date in both forms, and datetime.fromtimestamp gives this date and the time elapsed since its start; a later timestamp never gives an earlier date.", "quantifier": "every timestamp within every convertible day (real numbers, not only whole seconds), every sunset function with evening sunsets in Tehran", "why_tests_cant": "The timestamps form a continuum and sunset is arbitrary; tests use a handful of timestamps.", "anchors": ["badidatetime/datetime.py:date.fromtimestamp", "badidatetime/datetime.py:datetime.fromtimestamp", "badidatetime/badi_calendar.py:BahaiCalendar.badi_date_from_timestamp"]}
{"id": "C58", "title": "fromtimestamp undoes timestamp", "statement": "datetime.fromtimestamp(x.timestamp()) == x for every naive short form datetime x with an ordinary time of day.", "quantifier": "every convertible date and every time of day, to the microsecond", "why_tests_cant": "The errors depend on the binary expansion of the day fraction; a sample finds some of them but cannot bound the others.", "anchors": ["badidatetime/datetime.py:datetime.timestamp", "badidatetime/datetime.py:datetime.fromtimestamp"]}
{"id": "C59", "title": "utc_sunset is the UTC time of the sunset that starts a date", "statement": "utc_sunset(date, lat, lon, zone) returns the hours, minutes and seconds, in UTC, of the sunset that starts the date at the location.", "quantifier": "every convertible date, every sunset function with evening sunsets in Tehran", "why_tests_cant": "Tests compare with recorded values for a few dates and places, and would record a wrong zone just as well.", "anchors": ["badidatetime/badi_calendar.py:BahaiCalendar.utc_sunset"]}
{"id": "C60", "title": "Timestamps of aware datetimes count the elapsed seconds", "statement": "For aware datetimes x and y, x.timestamp() - y.timestamp() is the total of seconds of x - y, the datetime of the epoch has timestamp 0, and the timestamp is the POSIX time of the instant the object denotes (the one a naive object with the same fields at the location of the zone has).", "quantifier": "every pair of aware datetimes of either form, every offset, every sunset function", "why_tests_cant": "Pairs of datetimes and sunset functions are unlimited.", "anchors": ["badidatetime/datetime.py:datetime.timestamp"]}
{"id": "C61", "title": "date(), time(), timetz() and combine take a datetime apart and put it together", "statement": "x.date() is the date of x and x.time() its time without zone; datetime.combine(x.date(), x.timetz()) == x; and for every date d and time t, combine(d, t) has date() d and timetz() t.", "quantifier": "every datetime, date and time of either form, every zone and fold", "why_tests_cant": "The claim ranges over all dates in both forms; tests take one of each.", "anchors": ["badidatetime/datetime.py:datetime.date", "badidatetime/datetime.py:datetime.time", "badidatetime/datetime.py:datetime.timetz", "badidatetime/datetime.py:datetime.combine"]}
{"id": "C62", "title": "Gregorian dates with a time of day survive the fraction form", "statement": "ymdhms_from_date(date_from_ymdhms((y, m, d, h, mi, s))) is (y, m, d, h, mi, s).", "quantifier": "every Gregorian date and every time of day", "why_tests_cant": "The error depends on the binary and decimal expansion of the fraction; only a proof bounds it for all times.", "anchors": ["badidatetime/gregorian_calendar.py:GregorianCalendar.date_from_ymdhms", "badidatetime/gregorian_calendar.py:GregorianCalendar.ymdhms_from_date"]}
{"id": "C63", "title": "Badi dates with a time of day survive the fraction form", "statement": "kvymdhms_from_b_date(date_from_kvymdhms(b)) is b for every long form date b with time of day, and with short=True both give the same date in short form.", "quantifier": "every date of every form and every time of day, every sunset function with evening sunsets in Tehran", "why_tests_cant": "The fraction is rounded; dates at the end of a month carry over. Tests take a few.", "anchors": ["badidatetime/badi_calendar.py:BahaiCalendar.date_from_kvymdhms", "badidatetime/badi_calendar.py:BahaiCalendar.kvymdhms_from_b_date"]}
{"id": "C64", "title": "The Gregorian check accepts exactly the dates of the calendar", "statement": "date_from_ymdhms succeeds exactly when the fields are a date of the Gregorian calendar and a time of day before 24:00; otherwise it raises AssertionError.", "quantifier": "all integer fields and all rational seconds", "why_tests_cant": "The rejected inputs are infinite in number; tests try a few per field.", "anchors": ["badidatetime/gregorian_calendar.py:GregorianCalendar.date_from_ymdhms", "badidatetime/gregorian_calendar.py:GregorianCalendar._check_valid_gregorian_month_day"]}
{"id": "C65", "title": "A zone offset survives its decimal form", "statement": "_tz_dhms_from_decimal(_tz_decimal_from_dhms(d, h, m, s)) is (d, h, m, s).", "quantifier": "all offsets from zero to two days, to any precision", "why_tests_cant": "Which offsets come back exactly depends on rounding of binary fractions.", "anchors": ["badidatetime/base_calendar.py:BaseCalendar._tz_decimal_from_dhms", "badidatetime/base_calendar.py:BaseCalendar._tz_dhms_from_decimal"]}
{"id": "C66", "title": "The local zone correction moves a JD by the zone and can be undone", "statement": "_local_zone_correction(jd, zone, mod_jd=True) is jd plus zone hours, inverse=True subtracts them, and one undoes the other exactly; without a zone the longitude counts at 15 degrees per hour; invalid arguments raise AssertionError.", "quantifier": "all JDs of the era, all zones and longitudes", "why_tests_cant": "Exact return is a claim on rounding for all floats.", "anchors": ["badidatetime/base_calendar.py:BaseCalendar._local_zone_correction"]}
{"id": "C67", "title": "Time tuples agree with the object", "statement": "x.timetuple() has the date fields and the clock of x, the weekday of x.weekday(), the day of the year counted from 1 at Naw-Ruz, and the name, offset in seconds and daylight saving flag of its zone; x.utctimetuple() is the tuple of the same instant in UTC with flag 0.", "quantifier": "every date and datetime of either form, every zone, every sunset function with evening sunsets in Tehran", "why_tests_cant": "Days, forms and zones combine without limit; the tests compare a few tuples.", "anchors": ["badidatetime/datetime.py:date.timetuple", "badidatetime/datetime.py:datetime.timetuple", "badidatetime/datetime.py:datetime.utctimetuple", "badidatetime/_timedateutils.py:TimeDateUtils._build_struct_time", "badidatetime/_structures.py:struct_time"]}
{"id": "C68", "title": "ctime names the day and determines it", "statement": "ctime() is weekday name, month name, day, clock and year, all of the object itself; two datetimes have the same text exactly when they are on the same day at the same clock up to the microsecond, whatever their forms.", "quantifier": "every date and datetime, and every pair of datetimes, of either form", "why_tests_cant": "Equality of the texts of all pairs is beyond samples.", "anchors": ["badidatetime/datetime.py:date.ctime", "badidatetime/datetime.py:datetime.ctime"]}
{"id": "C69", "title": "The 12 hour clock of strftime", "statement": "%I is the hour in its half of the day with two digits and %p the text of the half: together they give the hour back, %p changes at noon and %I lies between 01 and 12.", "quantifier": "every date and datetime of either form, every locale, every sunset function with evening sunsets in Tehran and sunsets at Greenwich that move by at most three minutes a day", "why_tests_cant": "Midday is computed from two sunsets of every single day, so each day has its own boundary.", "anchors": ["badidatetime/_timedateutils.py:TimeDateUtils.I", "badidatetime/_timedateutils.py:TimeDateUtils.p", "badidatetime/_timedateutils.py:TimeDateUtils._find_midday", "badidatetime/badi_calendar.py:BahaiCalendar.midday"]}
{"id": "C70", "title": "strftime writes the zone", "statement": "%z is the offset from UTC as sign, hours and minutes (%:z with a colon) and %Z the name of the zone; both are empty for naive objects only.", "quantifier": "every datetime of either form and every zone of whole or quarter hours", "why_tests_cant": "All offsets are claimed; the tests have one or two.", "anchors": ["badidatetime/_timedateutils.py:TimeDateUtils.z", "badidatetime/_timedateutils.py:TimeDateUtils.Z"]}
{"id": "C71", "title": "Composite directives are their parts", "statement": "%T is %H:%M:%S, %r is %I:%M:%S %p, %c is %a %b %d %H:%M:%S %Y, %x and %X are the formats of the locale spelled out, and %D is the date format of the locale with a year of two digits.", "quantifier": "every datetime of either form, every zone and every locale with the usual date and time formats", "why_tests_cant": "An equality of two texts for all dates and locales.", "anchors": ["badidatetime/_timedateutils.py:TimeDateUtils.T", "badidatetime/_timedateutils.py:TimeDateUtils.r", "badidatetime/_timedateutils.py:TimeDateUtils.c", "badidatetime/_timedateutils.py:TimeDateUtils.D", "badidatetime/_timedateutils.py:TimeDateUtils.x", "badidatetime/_timedateutils.py:TimeDateUtils.X"]}
{"id": "C72", "title": "Year directives of strftime are numbers of the date", "statement": "%C and %y are the century and the year in it and give the year back; %:K and %:V are the kull-i-shay and vahid of the year; %G, %V and %u are the ISO year, week and weekday of isocalendar.", "quantifier": "every datetime of either form from year -1842 on, every locale and zone", "why_tests_cant": "Signs and the two kinds of integer division only differ on negative years, the ISO year only on a few days.", "anchors": ["badidatetime/_timedateutils.py:TimeDateUtils.C", "badidatetime/_timedateutils.py:TimeDateUtils.y", "badidatetime/_timedateutils.py:TimeDateUtils.K", "badidatetime/_timedateutils.py:TimeDateUtils.V", "badidatetime/_timedateutils.py:TimeDateUtils.G", "badidatetime/_timedateutils.py:TimeDateUtils.u"]}
{"id": "C73", "title": "strptime accepts exactly what follows the format", "statement": "When strptime returns a datetime, the whole text follows the format, directive by directive, and year, month, day, hour (with the half of the day for the 12 hour clock), minute, second, microsecond and offset of the result are the numbers or names written in the text (or the defaults); with a day of the year the date is that day of the year. A text that does not follow the format raises ValueError.", "quantifier": "every text and every format of the modelled directives", "why_tests_cant": "Texts and formats are unbounded; matching is greedy with backtracking.", "anchors": ["badidatetime/_strptime.py:StrpTime._find_regex", "badidatetime/_strptime.py:StrpTime._parse_found_dict", "badidatetime/_strptime.py:StrpTime._start", "badidatetime/_strptime.py:StrpTime.__init__"]}
{"id": "C74", "title": "Sunset falls in the evening and sunrise in the morning", "statement": "At latitudes up to 36 degrees from the equator and every longitude, for every day of the supported era, the algorithm of _rising_setting puts sunset between 16:18 and 19:50 and sunrise between 4:10 and 7:42 local mean time; up to 60 degrees from the equator sunset is between 14:11 and 22:13 and sunrise between 1:47 and 9:49; hence an implementation of it that is off by at most ten minutes always finds sunset between 16:00 and 20:00 at the reference point in Tehran.", "quantifier": "every day of more than a million (JD 1721000 to 2820000), all latitudes and longitudes in the range", "why_tests_cant": "The claim is about a continuous family of inputs and about the convergence of an iteration; tests see a few places and days.", "anchors": ["badidatetime/base_calendar.py:BaseCalendar._rising_setting", "badidatetime/base_calendar.py:BaseCalendar._rise_set_correction", "badidatetime/base_calendar.py:BaseCalendar._approx_local_hour_angle", "badidatetime/base_calendar.py:BaseCalendar._delta_t", "badidatetime/base_calendar.py:BaseCalendar._nutation_obliquity_longitude", "badidatetime/base_calendar.py:BaseCalendar._sun_apparent_right_ascension", "badidatetime/base_calendar.py:BaseCalendar._sun_apparent_declination", "badidatetime/_astronomical_terms.py:_NUT"]}
{"id": "C75", "title": "At the time of sunset found the sun is on the horizon", "statement": "At latitudes up to 60 degrees from the equator and every longitude, for every day of the supported era, there is a moment within 0.3 seconds of the time returned by the algorithm of _rising_setting at which the altitude of the centre of the sun is exactly -0.8333 degrees; at sunset the sun is then in the western half of the sky and at sunrise in the eastern half; conversely every moment of the day at which the sun has that altitude is within 0.3 seconds of the sunset or of the sunrise returned.", "quantifier": "every day of more than a million (JD 1721000 to 2820000), all latitudes and longitudes in the range", "why_tests_cant": "The true time solves an equation with no closed form; a test can only compare with another program to the accuracy of that program, on a few days.", "anchors": ["badidatetime/base_calendar.py:BaseCalendar._rising_setting", "badidatetime/base_calendar.py:BaseCalendar._rise_set_correction", "badidatetime/base_calendar.py:BaseCalendar._altitude", "badidatetime/base_calendar.py:BaseCalendar._local_hour_angle", "badidatetime/base_calendar.py:BaseCalendar._interpolation_from_three"]}
{"id": "C76", "title": "Each year starts at the last Tehran sunset before the spring equinox", "statement": "For every supported Badi year y, with a = jd_from_badi_date((y, 1, 1)) and b = jd_from_badi_date((y, 1, 2)) taken to the historical scale by _meeus_from_exact, the moment that _find_moment_of_equinoxes_or_solstices returns for the spring of the Gregorian year y + 1843 is not before a by more than one minute, and it is before b. (The rule and the minute are those of the developers' script contrib/misc/badi_jd_tests.py.)", "quantifier": "every supported year, and every sunset oracle within one second of the exact reading of the algorithm", "why_tests_cant": "The table of corrections was made by hand from comparisons; the equinox may fall seconds from sunset, so the verdict depends on the errors of the series, which a test with floats does not bound.", "anchors": ["badidatetime/badi_calendar.py:BahaiCalendar._get_day_coeff", "badidatetime/badi_calendar.py:BahaiCalendar.jd_from_badi_date", "badidatetime/base_calendar.py:BaseCalendar._find_moment_of_equinoxes_or_solstices", "badidatetime/base_calendar.py:BaseCalendar._approx_julian_day_for_equinoxes_or_solstices", "badidatetime/base_calendar.py:BaseCalendar._sun_setting"]}
{"id": "C77", "title": "The datetime constructor checks both its date and its time", "statement": "For whole number arguments, datetime(...) returns an object with exactly the fields asked for when the date fields name a day of the calendar and 0 <= hour <= 24, 0 <= minute < 60, 0 <= second <= 60, 0 <= microsecond < 1000000 and fold is 0 or 1; otherwise it raises AssertionError.", "quantifier": "every whole number argument of every form, every sunset oracle", "why_tests_cant": "Tests try a handful of bad dates and bad times; a check that is forgotten in the combined constructor, where the date and time are checked by different helpers, shows only for the fields tried.", "anchors": ["badidatetime/datetime.py:datetime.__new__", "badidatetime/_timedateutils.py:TimeDateUtils._check_time_fields", "badidatetime/_timedateutils.py:TimeDateUtils._check_date_fields"]}
{"id": "C78", "title": "The seasons follow each other and have their lengths", "statement": "For every Gregorian year from 1 to 3004, _find_moment_of_equinoxes_or_solstices returns moments of spring, summer, autumn, winter and the next spring in that order; spring and summer last between 91.8 and 94.2 days, autumn and winter between 88.5 and 90.8; and every season comes again after 365.2422 days, to within 63 minutes.", "quantifier": "every year 1..3004, every season", "why_tests_cant": "Tests hold a few dozen tabulated moments. The polynomial for years before 1000 and the one after, and the 24 periodic terms, are only sampled, so a wrong term or a jump at the year 1000 can go unseen.", "anchors": ["badidatetime/base_calendar.py:BaseCalendar._find_moment_of_equinoxes_or_solstices"]}
{"id": "C79", "title": "The sun is at the longitude of the season at the moment found", "statement": "For every year from 1 to 3004 and each of the four seasons, _sun_apparent_longitude at the moment returned by _find_moment_of_equinoxes_or_solstices is 0, 90, 180 or 270 degrees, modulo 360, to within 0.0102 degrees.", "quantifier": "every year 1..3004, every season", "why_tests_cant": "The two functions are tested apart, each against its own table; nothing tests that they agree, and agreement at a few dates says nothing of three thousand years.", "anchors": ["badidatetime/base_calendar.py:BaseCalendar._find_moment_of_equinoxes_or_solstices", "badidatetime/base_calendar.py:BaseCalendar._sun_apparent_longitude"]}
{"id": "C80", "title": "The seasons begin on their dates", "statement": "For every year from 1583 to 3004, spring begins on 19, 20 or 21 March, summer on 19 to 22 June, autumn on 21 to 24 September and winter on 20 to 23 December, by _find_moment_of_equinoxes_or_solstices and the Julian day that jd_from_gregorian_date gives for those days.", "quantifier": "every year 1583..3004, every season", "why_tests_cant": "Tests check a few years. Which dates can occur at all over 1400 years depends on the drift of the leap year rule against the polynomials.", "anchors": ["badidatetime/base_calendar.py:BaseCalendar._find_moment_of_equinoxes_or_solstices", "badidatetime/gregorian_calendar.py:GregorianCalendar.jd_from_gregorian_date"]}
{"id": "C81", "title": "The moments of the seasons are those of Meeus in Universal Time", "statement": "_find_moment_of_equinoxes_or_solstices returns the moment of Meeus, Astronomical Algorithms, chapter 27, less the difference of Dynamical and Universal Time, to within one second.", "quantifier": "every year 1..3004, every season", "why_tests_cant": "The tests compare with the values the code itself gave; the errors found are smaller than the rounding of published tables to the minute, or show only in early years.", "anchors": ["badidatetime/base_calendar.py:BaseCalendar._find_moment_of_equinoxes_or_solstices", "badidatetime/base_calendar.py:BaseCalendar._delta_t"]}
{"id": "C82", "title": "`isoformat(timespec)` cuts the time to the named unit and reads back as the time cut", "statement": "For every valid time (and datetime) and every value of `timespec`: `hours`, `minutes`, `seconds`, `milliseconds` and `microseconds` print exactly two, four, six, six plus three, six plus six digits of the clock, cutting (not rounding) the rest; `auto` is `seconds` when the microsecond is 0 and `microseconds` otherwise, and is the default; any other word raises ValueError; and `fromisoformat` of the text is the time cut to the unit.", "quantifier": "all valid times and datetimes in the short form, all values of timespec (all strings)", "why_tests_cant": "The tests print a handful of times for each timespec; none reads the text back, so the microsecond that comes back one less is not seen.", "anchors": ["badidatetime/datetime.py:122-155 (_format_time)", "badidatetime/datetime.py:1336-1359 (time.isoformat)", "badidatetime/datetime.py:2169-2203 (datetime.isoformat)"]}
{"id": "C83", "title": "`eval(repr(x))` is x", "statement": "For every date, time, datetime and timezone x, the text `repr(x)` is a Python expression over the package name, and evaluating it gives an object with the same fields (the same object for the two zones of the library, an equal zone with the same name otherwise).", "quantifier": "all valid dates and datetimes in both forms, all valid times, all zones with any offset and any name without quotes and backslashes, all zones with coordinates", "why_tests_cant": "The tests compare some texts with expected strings; no test evaluates one.", "anchors": ["badidatetime/datetime.py:401-423 (date.__repr__)", "badidatetime/datetime.py:1308-1334 (time.__repr__)", "badidatetime/datetime.py:2205-2238 (datetime.__repr__)", "badidatetime/datetime.py:2705-2734 (timezone.__repr__)", "badidatetime/datetime.py:205-229 (_get_class_module, _module_name)"]}
{"id": "C84", "title": "`str(x)` loses nothing: two objects with the same text have the same fields", "statement": "Two dates with the same `str` are the same date in the same form. Two times with the same `str` have the same hour, minute, second, microsecond and offset. Two datetimes with the same `str` have the same date in the same form, the same clock and the same offset. The digits after the point are the microseconds as a decimal fraction of a second.", "quantifier": "all dates and datetimes in both forms, all times, any zone", "why_tests_cant": "The tests compare single texts; that no two objects share a text is a statement about all pairs, and the tests use no small microsecond in a long form.", "anchors": ["badidatetime/datetime.py:509-527 (date._str_convertion)", "badidatetime/datetime.py:1336-1361 (time.__str__)", "badidatetime/datetime.py:2240-2263 (datetime._dt_str_conversion)", "badidatetime/datetime.py:122-190 (_format_time, _format_offset)"]}
{"id": "C85", "title": "`strptime` with `%z` reads the offsets that `strftime` writes", "statement": "Parsing a datetime text followed by `Z` or an offset (+HHMM, +HH:MM, with optional seconds and fraction) with a format that ends with `%z` gives that datetime with that offset; an offset of 24 hours or more raises ValueError, and so does one with a colon in one place only. The text that `strftime` with `%z` makes of an aware datetime is read back by `strptime` with the same format to the same datetime with the same offset.", "quantifier": "every valid datetime in the short form, every format of the readable directives with `%z` at the end, every offset text, every zone with a whole number of quarter hours", "why_tests_cant": "The two directions are separate code; the tests parse a few literal offsets and never feed the output of strftime to strptime.", "anchors": ["badidatetime/_strptime.py:StrpTime._parse_found_dict (lines 519-551)", "badidatetime/_strptime.py:234 (the pattern of %z)", "badidatetime/_timedateutils.py:TimeDateUtils.z", "badidatetime/datetime.py:strptime"]}
{"id": "C86", "title": "`strptime` with `%I %p` reads the 12 hour clock that `strftime` writes", "statement": "The text that `strftime` makes of a datetime with a format that ends with `%I %p` is read back by `strptime` with the same format to the same datetime, with the same hour.", "quantifier": "every valid datetime in the short form and every format of the readable directives followed by `%I %p`", "why_tests_cant": "The half of the day is decided by the computed midday; the tests print or parse single hours and never do both.", "anchors": ["badidatetime/_strptime.py:StrpTime._parse_found_dict (lines 477-493)", "badidatetime/_timedateutils.py:466-505 (I)", "badidatetime/_timedateutils.py:591-611 (p)"]}
{"id": "C87", "title": "A zone with coordinates answers for itself, whatever other zones are made", "statement": "What `utcoffset()`, `tzname()`, `coordinates` and `dst()` of a `TZWithCoords` object return depends on that object and the argument only: making, unpickling or converting (`fromzoneinfo`) other zones before or after does not change it. A zone made without a `ZoneInfo`, such as `UTC`, has no daylight saving time.", "quantifier": "every sequence of calls that make zones, every object made, every datetime", "why_tests_cant": "The state is a class attribute shared by all objects; each test makes its zone just before it asks.", "anchors": ["badidatetime/datetime.py:TZWithCoords.dst (lines 2875-2892)", "badidatetime/datetime.py:TZWithCoords.fromzoneinfo (lines 2894-2909)", "badidatetime/datetime.py:2952-2953 (UTC, BADI)"]}
{"id": "C88", "title": "`astimezone` uses the local zone for what is not given", "statement": "`x.astimezone()` of an aware datetime is the same instant with the UTC offset of `LOCAL`; `x.astimezone(z)` and `x.astimezone()` of a naive datetime are the same instant as `x.replace(tzinfo=LOCAL)`, in the zone asked for.", "quantifier": "every valid datetime in either form, naive or aware, every target zone, every local zone", "why_tests_cant": "The local zone of the machine that runs the tests is fixed; in the default configuration it is Tehran, so a local offset of zero is never tried.", "anchors": ["badidatetime/datetime.py:datetime._local_timezone (lines 2077-2107)", "badidatetime/datetime.py:datetime.astimezone (lines 2109-2147)", "badidatetime/_structures.py:173-174"]}
{"id": "C89", "title": "`min` and `max` are the limits of their class", "statement": "`date.min`, `date.max` (`longmin`, `longmax` in the long form), `time.min`, `time.max`, `datetime.min` and `datetime.max` are valid objects, and every object of the class that can be constructed compares as between them. Adding a negative number of days to `date.min` or a positive one to `date.max` raises OverflowError, and every other sum with them is a date.", "quantifier": "every date, time and datetime the constructors accept, every timedelta", "why_tests_cant": "Tests compare the limits with a few dates of ordinary years; the exceptions are four days of the first year, the years just outside and the last day.", "anchors": ["badidatetime/datetime.py:984-987 (date.min, date.max, date.longmin, date.longmax)", "badidatetime/datetime.py:1580-1581 (time.min, time.max)", "badidatetime/datetime.py:2642-2643 (datetime.min, datetime.max)"]}
{"id": "C90", "title": "The ISO readers accept only ISO texts and refuse the rest with ValueError", "statement": "`date.fromisoformat(s)`, `time.fromisoformat(s)` and `datetime.fromisoformat(s)` either return a valid object that s denotes or raise ValueError, whatever s is. In particular a result is always a day of the calendar in the year that s begins with and a time of day in range, and `datetime.fromisoformat` of the text of a date alone is the start of that date.", "quantifier": "every text", "why_tests_cant": "Tests try a list of good and bad texts; the texts that are wrongly accepted (digits after the date, any separators, a date alone read as a zone) are not in such a list.", "anchors": ["badidatetime/datetime.py:344-378 (date.fromisoformat)", "badidatetime/datetime.py:1364-1378 (time.fromisoformat)", "badidatetime/datetime.py:1915-1931 (datetime.fromisoformat)", "badidatetime/_timedateutils.py:1174-1420 (_parse_isoformat_*)"]}
{"id": "C91", "title": "The apparent longitude of the sun is that of Meeus, with all corrections in one unit", "statement": "`_apparent_solar_longitude(jde)` is, but for whole turns and the rounding, the apparent longitude of Meeus chapter 25: the heliocentric longitude of the earth plus half a turn, minus 0.09033 arcsecond, plus the nutation in longitude, plus the aberration of formula 25.11 with the daily motion of page 168; `_aberration(tm)` is that aberration in degrees.", "quantifier": "every Julian day within 767025 days (2100 Julian years) of J2000, as an exact real number", "why_tests_cant": "Tests compare a few dates with values that were taken from the code; the unit error changes every value and the tests pin the wrong ones.", "anchors": ["badidatetime/base_calendar.py:858-886 (_apparent_solar_longitude)", "badidatetime/base_calendar.py:919-951 (_aberration)", "badidatetime/base_calendar.py:453-541 (_nutation_longitude)", "badidatetime/_astronomical_terms.py:14-248"]}
{"id": "C92", "title": "The apparent latitude of the sun is a latitude and that of Meeus", "statement": "`_apparent_solar_latitude(jde)` lies between -90 and 90 degrees and is the latitude of Meeus chapter 25: minus the heliocentric latitude of the earth, reduced to FK5 by 0.03916 arcsecond times cos minus sin of the longitude less 1.397 degrees a century.", "quantifier": "every Julian day within 767025 days (2100 Julian years) of J2000, as an exact real number", "why_tests_cant": "Tests pin single values; that half of all moments give an angle next to 360 degrees is a statement about all of them.", "anchors": ["badidatetime/base_calendar.py:888-917 (_apparent_solar_latitude)", "badidatetime/base_calendar.py:810-831 (_heliocentric_ecliptical_latitude)"]}
{"id": "C93", "title": "The transit is the moment at which the sun crosses the meridian, near noon of the same day", "statement": "`jd + _sun_transit(jd, lon)` is a moment at which the hour angle of the sun is zero, it is near local mean noon, and the fraction lies in the day that begins at `jd` and between `_sun_rising` and `_sun_setting` of the same day.", "quantifier": "every Julian day from 1720998 to 2820002 and every longitude within 180 degrees", "why_tests_cant": "The one-step wrap and the one-step correction are right or wrong depending on sidereal time, right ascension and longitude together; tests try four dates at one place.", "anchors": ["badidatetime/base_calendar.py:248-270 (_sun_transit)", "badidatetime/base_calendar.py:272-292 (_transit_correction)"]}
{"id": "C94", "title": "At every place badi_date_from_jd undoes jd_from_badi_date", "statement": "With the same `lat`, `lon` and `zone`, badi_date_from_jd(jd_from_badi_date(d, lat, lon, zone), lat, lon, zone) == d for every valid date d (start of day, or with a time before the next sunset), every instant between the starts of two consecutive dates gets the first of them and the time elapsed since its start, and the coordinates passed are the ones used.", "quantifier": "every place with longitude from -180 to 180 where the sun sets on every local civil day, every date of the era, every instant of it, every sunset function", "why_tests_cant": "Tests convert a handful of dates at two or three places; whether the civil day is found again depends on longitude, sunset time and float rounding at local midnight.", "anchors": ["badidatetime/badi_calendar.py:165-210 (jd_from_badi_date)", "badidatetime/badi_calendar.py:212-283 (badi_date_from_jd)", "badidatetime/badi_calendar.py:781-809 (_utc_to_badi_time)"]}
{"id": "C95", "title": "datetime.fromtimestamp(t, tz) is the date and time at t in that zone", "statement": "datetime.fromtimestamp(t, tz) is the same instant whatever the zone: for a zone made with coordinates the result is the Badí' date and the time since its start at that place; for two zones without coordinates the results differ by the difference of the offsets and compare equal; and fromtimestamp(t, tz).timestamp() == t.", "quantifier": "every timestamp of the dates up to the first day of 1161, every zone object, every place with longitude up to 179.9999 where the sun sets daily, every sunset function, both forms", "why_tests_cant": "Tests convert a few timestamps with the zone of the machine; the result depends on the timestamp, the zone object, its coordinates and the length of each day.", "anchors": ["badidatetime/datetime.py:1806-1850 (_fromtimestamp)", "badidatetime/datetime.py:1853-1870 (fromtimestamp)", "badidatetime/badi_calendar.py:522-545 (badi_date_from_timestamp)"]}
{"id": "C96", "title": "%U and %W number the weeks of the year and are read back", "statement": "strftime('%U') and strftime('%W') give the same two digits; the days of a year before its first Jalál (as documented: its first `Idāl) are in week 0, and the number grows by one at each Jalál; strptime gives the date back from the year, the week and the weekday that strftime gives.", "quantifier": "every datetime from MINYEAR to MAXYEAR in either form, every pair of consecutive days of a year, every sunset function with evenings at Tehran", "why_tests_cant": "A year begins on any of seven weekdays and has 365 or 366 days, so there are fourteen kinds of years; in most of them the two rules for week 1 agree, and a test in one of those years cannot see the difference.", "anchors": ["badidatetime/_timedateutils.py:663-684 (U)", "badidatetime/_timedateutils.py:959-986 (_year_week_day)", "badidatetime/_strptime.py:309-333 (_calc_julian_from_U_or_W)", "badidatetime/_strptime.py:596-625 (_miscellaneous)"]}
{"id": "C97", "title": "_day_length is the time from the start of a date to the start of the next one", "statement": "For every instant of a date at a place, `_day_length` gives the time from the sunset that starts the date to the sunset that starts the next one: with `decimal=True` in days to 10^-12, otherwise as hours, minutes and seconds to two milliseconds.", "quantifier": "every place of longitude -180 to 179.9999 where the sun sets on each local civil day, every sunset function, every date and every instant of it", "why_tests_cant": "The existing test compares some twenty instants at three places, none east of Tehran, with recorded results and not with the sunsets around the date; the result turns on whether the instant is before or after 12:00 UT, and no list of instants covers every sunset time.", "anchors": ["badidatetime/badi_calendar.py:746-779 (_day_length)", "badidatetime/base_calendar.py:1256-1285 (_hms_from_decimal_day)"]}
{"id": "C98", "title": "struct_time and strftime accept exactly the plain tuples of a date and time", "statement": "struct_time(t, tzinfo) and the check of strftime(format, t) raise TypeError for a tuple that has neither 9 nor 11 fields; they accept a tuple exactly when its date is a day of the calendar, its time a time of day, its weekday and day of the year those of the date and its flag -1, 0 or 1; struct_time keeps all the fields, and strftime of the tuple gives the text of the struct.", "quantifier": "every tuple of integers of any length, every zone, every format, every sunset function with evenings at Tehran", "why_tests_cant": "The two checks are written twice with different limits, so they can only be compared over all tuples; the tests take the first invalid value on each side of each field, one function and one field at a time.", "anchors": ["badidatetime/_structures.py:92-188 (struct_time)", "badidatetime/_timedateutils.py:185-264 (_checktm)", "badidatetime/_timedateutils.py:861-896 (strftime)"]}
{"id": "C99", "title": "Delta T never jumps by a second between one formula and the next", "statement": "For two Julian days at most 18 days apart, the value _delta_t returns in days differs by less than one second; in particular the fourteen formulas for different centuries meet each other to within a second.", "quantifier": "every two Julian days from 1720998 (the beginning of year 0 less two days) to 2820002 (year 3008) at most 18 days apart", "why_tests_cant": "The tests compare twenty dates, at most one of them near a limit between formulas; a wrong coefficient or limit can only be seen from both sides of every limit.", "anchors": ["badidatetime/base_calendar.py:73-148 (_delta_t)"]}
{"id": "C100", "title": "date.fromtimestamp, datetime.fromtimestamp, today and now agree on the day, in both forms", "statement": "date.fromtimestamp(t) is the date of datetime.fromtimestamp(t), in the short and in the long form, and each raises exactly when the other does; so date.today() is the date of datetime.now() read at the same moment. The short and the long form of datetime.fromtimestamp(t) have the same year, month, day and time.", "quantifier": "every number t, every local place, every zone and both forms; no assumption on sunsets or the table of years", "why_tests_cant": "The two constructors call the conversion with different options, which take different branches for the fields of the time; the tests compare a handful of timestamps, none of them in the last milliseconds of a day.", "anchors": ["badidatetime/datetime.py:294-323 (date.fromtimestamp, today)", "badidatetime/datetime.py:1806-1882 (datetime._fromtimestamp, fromtimestamp, now)", "badidatetime/badi_calendar.py:212-283 (badi_date_from_jd)", "badidatetime/badi_calendar.py:404-456 (kvymdhms_from_b_date)"]}
{"id": "C101", "title": "Equal zones are interchangeable", "statement": "If two zones compare equal then replacing one by the other changes no comparison, difference, hash or timestamp of a datetime, and datetime.fromtimestamp(t, zone) gives equal datetimes.", "quantifier": "every two zones with the same offset, every datetime and every other operand", "why_tests_cant": "The tests use one zone object per offset; the branches for identical and for different zone objects are not compared.", "anchors": ["badidatetime/datetime.py:2699-2703 (timezone.__eq__)", "badidatetime/datetime.py:2366-2509 (datetime._cmp, __sub__, __hash__)", "badidatetime/datetime.py:1832-1850 (_fromtimestamp)"]}
{"id": "C102", "title": "The distance of the sun is that of an ellipse of Kepler", "statement": "_radius_vector(tm) is the distance from the earth to the sun in astronomical units: it agrees with the ellipse of Kepler with Meeus's eccentricity and mean anomaly (to the square of the eccentricity) to 0.0011 units, and lies between 0.98074 and 1.01954, whichever value is passed for degrees.", "quantifier": "every real tm between -2.1 and 2.1 millennia from 2000, both values of degrees", "why_tests_cant": "The tests compare a few moments with values computed by the same tables; a wrong row of a table is invisible to them, and the comparison with an ellipse is for all moments.", "anchors": ["badidatetime/base_calendar.py:833-856 (_radius_vector)", "badidatetime/_astronomical_terms.py:74-101 (tables R0 to R4)"]}
{"id": "C103", "title": "strptime reads the formats of the locale that strftime writes", "statement": "strptime(x.strftime(f), f) is x without its microseconds for f = '%c' and f = '%x %X' in every locale; LocaleTime finds '%a %b %d %H:%M:%S %Y' for %c and, for %x and %X, the fields and separators of the locale, and every format with %c, %x and %X reads every text as the format in which they are spelled out does.", "quantifier": "every locale with a usual order of date and time, every separator of the six usual ones, all names of time zones of three or more letters, digits and signs; every text and format; every naive datetime of the short form with an hour of at most 23, from year -1842 on", "why_tests_cant": "The tests overwrite the attributes LC_date_time, LC_date and LC_time with literals, so they never see the formats that are computed, and the round trip is not tested.", "anchors": ["badidatetime/_strptime.py:43-195 (LocaleTime)", "badidatetime/_strptime.py:237-287 (TimeRE)", "badidatetime/_timedateutils.py:318-343, 714-750 (c, x, X)"]}
{"id": "C104", "title": "Copies of a fixed offset zone", "statement": "copy.copy(z), copy.deepcopy(z) and pickle.loads(pickle.dumps(z)) of a zone z made by timezone(offset) or timezone(offset, name) are new objects with the offset and the name of z, equal to z, and change no other zone, whatever was copied before.", "quantifier": "all offsets and names, Python 3.10 (no slots in the state) and 3.11 on (slots in the state), every sequence of copies", "why_tests_cant": "The tests pickle one or two zones with usual names and never look at timezone.utc afterwards.", "anchors": ["badidatetime/datetime.py:2653-2697 (timezone.__new__)", "badidatetime/datetime.py:2823-2824 (__getinitargs__)"]}
{"id": "C105", "title": "badioffset is the offset from Tehran", "statement": "timezone.badioffset(dt) is the UTC offset of the zone less that of Tehran: zero exactly for zones equal to timezone.badi, with the differences of the UTC offsets; time.badioffset() is that of its zone, None without one; it is an offset within the limits of 24 hours.", "quantifier": "all zones, all times and datetimes", "why_tests_cant": "The tests compare a few literals; no test has a zone far in the west.", "anchors": ["badidatetime/datetime.py:1427-1441 (time.badioffset)", "badidatetime/datetime.py:2760-2765 (timezone.badioffset)", "badidatetime/datetime.py:69-95 (_check_offset)"]}
{"id": "C106", "title": "strptime reads the names of zones with %Z", "statement": "datetime.strptime(text, f + '%Z') accepts exactly texts that end with UTC, GMT or a name of the host's time zone in any case of the letters, and any other text raises ValueError. What strftime writes with '%z %Z' is read back to the same datetime with the same offset and name of the zone.", "quantifier": "all formats before %Z that strptime accepts, all texts, all names of the host in any order of its sets; all datetimes, zones and formats of fields for the round trip", "why_tests_cant": "The tests read a few literals on one host, whose names are UTC; no test goes through strftime.", "anchors": ["badidatetime/_strptime.py:177-195 (__calc_timezone)", "badidatetime/_strptime.py:240-260 (__seqToRE)", "badidatetime/_strptime.py:552-571 (%Z of _parse_found_dict)", "badidatetime/_strptime.py:658-679 (_strptime_datetime)"]}
{"id": "C107", "title": "Datetimes with any tzinfo are ordered, subtracted and hashed by their instants", "statement": "A datetime takes any tzinfo, also one whose utcoffset depends on the date, the time and fold. Of two datetimes with such zones, x - y is the time between the two instants and x < y tells which is earlier; x == y means the same instant, except that an object whose offset depends on fold is unequal to every object with another zone; equal objects have equal hashes; astimezone to any tzinfo keeps the instant.", "quantifier": "all datetimes of all dates, all tzinfo objects with any function as utcoffset, including None and exceptions, both values of fold", "why_tests_cant": "The tests use the zones of the library, which have a fixed offset; the lines for fold are excluded from the coverage (pragma: no cover).", "anchors": ["badidatetime/datetime.py:2366-2417 (datetime._cmp)", "badidatetime/datetime.py:2447-2485 (datetime.__sub__)", "badidatetime/datetime.py:2487-2509 (datetime.__hash__)", "badidatetime/datetime.py:2279-2287 (datetime.utcoffset)", "badidatetime/datetime.py:2109-2147 (datetime.astimezone)"]}
{"id": "C108", "title": "Times with fractions of an hour, a minute or a second", "statement": "The constructor of time accepts floats for hour, minute and second. It accepts exactly the numbers in their ranges and keeps them; of any two such times one is earlier or they are equal, and the order is that of the time of day they stand for; every time can be hashed and pickled, and equal times have equal hashes.", "quantifier": "all time objects without a zone whose fields are any integers or floats, both values of fold, all hash functions, all pickle protocols", "why_tests_cant": "Every field is compared by itself, and whether the result is the order of the time of day depends on all eight numbers; the tests use integers, for which this is not visible.", "anchors": ["badidatetime/datetime.py:1089-1136 (time.__new__)", "badidatetime/datetime.py:1220-1259 (time._cmp)", "badidatetime/datetime.py:1263-1294 (time.__hash__)", "badidatetime/datetime.py:1518-1567 (time._getstate, time.__reduce_ex__)"]}
{"id": "C109", "title": "Dates with a part of a day", "statement": "The constructor of date accepts a day with a fraction, a moment within that day. It accepts exactly the days whose whole part is a day of the month; two such dates are ordered as their moments, and their difference is the time between them; adding a timedelta moves the moment by so many days; the weekday and the texts are those of the day; such a date can be hashed and pickled.", "quantifier": "all short form dates whose day is any integer or float, in all years, all timedeltas, all hash functions", "why_tests_cant": "Whether a sum falls on the right day depends on the fraction, which meets a constant of the code at 0.7396 of a day; the tests use whole days.", "anchors": ["badidatetime/datetime.py:239-291 (date.__new__)", "badidatetime/datetime.py:804-844 (date.__add__, date.__sub__)", "badidatetime/datetime.py:768-800 (date._cmp, date.__hash__)", "badidatetime/_timedateutils.py:1020-1087 (_day_of_week, _ymd2ord, _ord2ymd)"]}
{"id": "C110", "title": "_strptime_time reads the moment that datetime.strptime reads", "statement": "_strptime_time(s, f) accepts exactly the texts that datetime.strptime(s, f) accepts and gives the struct_time of that datetime: its date and clock, the weekday and the day of the year of the date (not the ones written in the text), the name of the zone and the offset; all seconds that %S admits (up to 61, as tm_sec is described) are read.", "quantifier": "every text and every format of the modelled directives", "why_tests_cant": "Texts and formats are unbounded; the tests of _strptime_time use a few formats without a zone.", "anchors": ["badidatetime/_strptime.py:649-655 (_strptime_time)", "badidatetime/_timedateutils.py:1089-1111 (_build_struct_time)", "badidatetime/_structures.py:92-188 (struct_time)"]}
{"id": "C111", "title": "_sun_rising and _sun_setting find the sunrise and the sunset of the local day", "statement": "For an instant (a Julian day) and a place, _sun_rising and _sun_setting give the sunrise and the sunset of the day that the instant belongs to in local mean time: both are on that day, at the times of day that the algorithm gives, the sunrise before the sunset; they depend only on the day, and those of different days come in the order of the days.", "quantifier": "every instant of the era, every latitude, every longitude from -180 to 180, every oracle for the times of sunrise and sunset with sunrises in the morning and sunsets in the afternoon", "why_tests_cant": "Instants and places are unbounded; the tests look at some thirty instants, none of them near midnight.", "anchors": ["badidatetime/base_calendar.py:294-323 (_sun_rising)", "badidatetime/base_calendar.py:325-354 (_sun_setting)"]}
{"id": "C112", "title": "The failures of strptime are ValueErrors", "statement": "A call of datetime.strptime(s, f) that does not give a datetime raises ValueError: whether the text does not follow the format, or it names no date of the calendar, or the format itself is not usable.", "quantifier": "every text and every format of the modelled directives", "why_tests_cant": "Texts and formats are unbounded; the tests look at a handful of wrong formats and texts, all of which raise ValueError.", "anchors": ["badidatetime/_strptime.py:294-298 (TimeRE.compile)", "badidatetime/_strptime.py:388-438 (_find_regex)", "badidatetime/_strptime.py:596-647 (_miscellaneous)", "badidatetime/_strptime.py:658-679 (_strptime_datetime)"]}
{"id": "C113", "title": "A time of sunset or sunrise is given only when the sun sets or rises", "statement": "For a day and a place, _rising_setting gives a time near which the centre of the sun crosses the altitude of -0.8333 degrees, in the west for the sunset and in the east for the sunrise; on a day on which the sun does not cross it no time is given.", "quantifier": "every day of the era (JD 1721000 to 2820000), every latitude and longitude", "why_tests_cant": "Places and days are a continuous family; the tests use a few places of middle latitudes.", "anchors": ["badidatetime/base_calendar.py:205-246 (_approx_local_hour_angle)", "badidatetime/base_calendar.py:356-400 (_rising_setting)"]}
{"id": "C114", "title": "Times with any tzinfo are ordered by the moment, and equal ones have equal hashes", "statement": "Two time objects with tzinfo objects of any class are compared by the clock less the offset that utcoffset(None) gives; if both have no offset (no tzinfo, or a tzinfo that answers None, as zoneinfo zones with summer time do) by the clock, and hash and isoformat are then those of the naive time; if just one has an offset they are unequal and the order operators raise TypeError. With one tzinfo object the clocks are compared. Equal times have equal hashes. An exception of the tzinfo, or the ValueError for an offset of a day or more, is raised from comparisons with other zones, hash, isoformat and badioffset.", "quantifier": "all times, all pairs of tzinfo objects, all answers of utcoffset including None and exceptions", "why_tests_cant": "The tests use the classes timezone and TZWithCoords, whose offset is fixed and legal.", "anchors": ["badidatetime/datetime.py:1200-1294 (time comparisons and __hash__)", "badidatetime/datetime.py:1336-1359 (time.isoformat)", "badidatetime/datetime.py:1412-1441 (time.utcoffset, badioffset)", "badidatetime/datetime.py:69-95 (_check_offset)"]}
{"id": "C115", "title": "The sun is up between the sunrise and the sunset, and at no other time of the day", "statement": "At latitudes up to 60 degrees from the equator and every longitude, for every day of the supported era, the sunrise of _rising_setting is at least 4 hours 22 minutes before its sunset; at every moment in between, but for 0.3 seconds at either end, the altitude of the centre of the sun is above -0.8333 degrees; and at every other moment from midnight to midnight, local mean time, it is below.", "quantifier": "every moment of every day of the era (JD 1721000 to 2820000), all latitudes and longitudes in the range", "why_tests_cant": "It is about every moment of the day, and about places and days that form a continuous family.", "anchors": ["badidatetime/base_calendar.py:BaseCalendar._rising_setting", "badidatetime/base_calendar.py:BaseCalendar._sun_rising", "badidatetime/base_calendar.py:BaseCalendar._sun_setting"]}
{"id": "C116", "title": "Time tuples and timestamps of datetimes with any tzinfo", "statement": "For a datetime whose tzinfo is any subclass of tzinfo, timetuple() has the flag, the name and the offset that the zone gives for this datetime, fold included; utctimetuple() shows the UTC date and clock of the instant and timestamp() counts its seconds, so that both are the same for datetimes of the same instant in different zones; when the zone gives no offset timestamp() raises TypeError and utctimetuple() takes the fields for UTC; exceptions of the zone come through.", "quantifier": "every datetime of the calendar, every tzinfo (offset, dst and name as functions of the datetime, None and exceptions included)", "why_tests_cant": "The zone is an arbitrary function, and the tests use zones with a fixed offset only.", "anchors": ["badidatetime/datetime.py:datetime.timetuple", "badidatetime/datetime.py:datetime.utctimetuple", "badidatetime/datetime.py:datetime.timestamp", "badidatetime/_structures.py:struct_time.__new__"]}
{"id": "C117", "title": "format() of dates, times and datetimes agrees with isoformat and str", "statement": "format(t, f) of a time replaces every directive of f, the clock being that of the time and the date the first day of year 1 of the era with its weekday. %H:%M:%S and %H:%M:%S.%f are isoformat with timespec 'seconds' and 'microseconds' for a time without a zone; with a zone isoformat is the clock followed by %:z. %Y-%m-%d of a date is isoformat. The empty format is str, and for times and for short dates and datetimes it is the text of these formats (with T between date and clock).", "quantifier": "every time, every date in either form, every datetime in the short form; for times every format of literals and of the twelve directives YmdHMSfjBbAa (with the conditions on dashes of C40)", "why_tests_cant": "All formats, all dates and all zones; the tests format a few objects with a few formats and never compare the result with isoformat.", "anchors": ["badidatetime/datetime.py:date.__format__", "badidatetime/datetime.py:time.__format__", "badidatetime/datetime.py:time.strftime", "badidatetime/datetime.py:date.isoformat", "badidatetime/datetime.py:time.isoformat", "badidatetime/_timedateutils.py:_wrap_strftime"]}
{"id": "C118", "title": "strftime of datetimes and times with any tzinfo", "statement": "With a tzinfo of any subclass, strftime of a datetime with every format has the text that it has in a fixed zone with the offset, the daylight saving time and the name that the zone answers about this datetime; without answers it has the text of a naive datetime; exceptions of the zone come through. strftime of a time does the same for the first day of the era, and shows an offset exactly when isoformat does.", "quantifier": "every calendar, every datetime and time, every format string, every tzinfo (offset, dst and name as functions of the datetime)", "why_tests_cant": "Zone and format are arbitrary; the tests use zones with a fixed offset only.", "anchors": ["badidatetime/datetime.py:date.strftime", "badidatetime/datetime.py:time.strftime", "badidatetime/_timedateutils.py:_wrap_strftime", "badidatetime/_structures.py:struct_time.__new__"]}
{"id": "C119", "title": "Operators between dates, times, datetimes and timedeltas", "statement": "Objects of two different classes are never equal and have no order (<, <=, >, >= raise TypeError), in either order; != is the opposite of ==; for two objects of one class a < b is b > a, and so on. a + b is b + a; the sum of a date and a timedelta is the date later by its days, and every sum without a timedelta, or with a time, raises TypeError. a - b is -(b - a), errors included.", "quantifier": "every calendar, every date, time, datetime and timedelta on either side of every operator", "why_tests_cant": "The operators are decided by two methods and the class order; the tests call the methods or try single pairs.", "anchors": ["badidatetime/datetime.py:date.__eq__", "badidatetime/datetime.py:date.__lt__", "badidatetime/datetime.py:date.__add__", "badidatetime/datetime.py:date.__sub__", "badidatetime/datetime.py:time.__eq__", "badidatetime/datetime.py:datetime.__eq__", "badidatetime/datetime.py:datetime.__lt__", "badidatetime/datetime.py:datetime.__add__", "badidatetime/datetime.py:datetime.__sub__", "badidatetime/datetime.py:_cmperror"]}
{"id": "C120", "title": "isoformat, dst and tzname of objects with any tzinfo", "statement": "With a tzinfo of any subclass, isoformat of a datetime or time has, with every separator and timespec, the text that it has in a fixed zone with the offset that the zone answers about this very object; without an answer it has the text of a naive object; exceptions of the zone come through and an offset of a day or more is a ValueError. datetime.fromisoformat(x.isoformat()) is the same instant as x and equal to it. dst() and tzname() are the answers of the zone, and agree with what strftime shows.", "quantifier": "every datetime and time, every separator and timespec, every tzinfo (offset, dst and name as functions of the datetime)", "why_tests_cant": "The zone is arbitrary; the tests use zones with a fixed offset only and no hour that exists twice.", "anchors": ["badidatetime/datetime.py:datetime.isoformat", "badidatetime/datetime.py:time.isoformat", "badidatetime/datetime.py:datetime.dst", "badidatetime/datetime.py:datetime.tzname", "badidatetime/datetime.py:datetime.utcoffset", "badidatetime/datetime.py:_check_offset"]}
{"id": "C121", "title": "The text of a time tuple tells the tuple", "statement": "repr of a result of struct_time is the text of a call of its class that gives every field by name; two results of struct_time have the same text exactly when they are equal; evaluating the text gives the tuple back.", "quantifier": "every short and long form tuple of integers that struct_time accepts, every zone", "why_tests_cant": "The tests compare the text of some twenty tuples with literals, and so cannot see what the text leaves out; none compares two texts or evaluates one.", "anchors": ["badidatetime/_structures.py:39-44 (ShortFormStruct.__repr__)", "badidatetime/_structures.py:77-84 (LongFormStruct.__repr__)", "badidatetime/_structures.py:92-188 (struct_time)"]}
{"id": "C122", "title": "Results of isocalendar are ordered as the dates, and their text tells the day", "statement": "For two dates, d.isocalendar() < e.isocalendar() exactly when d is the earlier day, and they are equal exactly when d and e are the same day, whatever the forms of the dates. repr(d.isocalendar()) is the text of a call that gives the ISO year, the week and the weekday by name, and two such texts are the same exactly when the dates are the same day.", "quantifier": "every two dates from the first day of MINYEAR on, short or long", "why_tests_cant": "The order has to agree at every turn of an ISO year, which falls before or after the turn of the year; the tests make the objects from literals and never compare two of them.", "anchors": ["badidatetime/datetime.py:868-890 (date.isocalendar)", "badidatetime/datetime.py:993-1059 (_IsoCalendarDate)"]}
