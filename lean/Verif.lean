import Verif.Lemmas.Badi
import Verif.Lemmas.BadiGreg
import Verif.Lemmas.BadiJd
import Verif.Lemmas.Coeff
import Verif.Lemmas.Convert
import Verif.Lemmas.CosTable
import Verif.Lemmas.DateObj
import Verif.Lemmas.DateTime
import Verif.Lemmas.Days
import Verif.Lemmas.DeltaTable
import Verif.Lemmas.EquinoxAngle
import Verif.Lemmas.EquinoxCert
import Verif.Lemmas.EquinoxDay
import Verif.Lemmas.EquinoxFast
import Verif.Lemmas.EquinoxSunset
import Verif.Lemmas.EquinoxTable
import Verif.Lemmas.EquinoxTable1
import Verif.Lemmas.EquinoxTable2
import Verif.Lemmas.EquinoxYear
import Verif.Lemmas.FastCos
import Verif.Lemmas.Forms
import Verif.Lemmas.Forward
import Verif.Lemmas.FromTimestamp
import Verif.Lemmas.GregDate
import Verif.Lemmas.Gregorian
import Verif.Lemmas.GregorianFwd
import Verif.Lemmas.Hms
import Verif.Lemmas.IsoText
import Verif.Lemmas.IsoWeek
import Verif.Lemmas.JdScale
import Verif.Lemmas.Kvy
import Verif.Lemmas.LocaleTime
import Verif.Lemmas.Meeus
import Verif.Lemmas.Numeric
import Verif.Lemmas.Ordinal
import Verif.Lemmas.Place
import Verif.Lemmas.Posix
import Verif.Lemmas.PosixTime
import Verif.Lemmas.Repr
import Verif.Lemmas.SameDay
import Verif.Lemmas.SeasonCert
import Verif.Lemmas.SeasonLength
import Verif.Lemmas.SeasonTable
import Verif.Lemmas.SeasonTable1
import Verif.Lemmas.SeasonTable2
import Verif.Lemmas.SeasonTable3
import Verif.Lemmas.SeasonTable4
import Verif.Lemmas.SolarAngle
import Verif.Lemmas.SolarBasic
import Verif.Lemmas.SolarCross
import Verif.Lemmas.SolarDay
import Verif.Lemmas.SolarDelta
import Verif.Lemmas.SolarHigh
import Verif.Lemmas.SolarJune
import Verif.Lemmas.SolarNewton
import Verif.Lemmas.SolarOnly
import Verif.Lemmas.SolarQuick
import Verif.Lemmas.SolarRoot
import Verif.Lemmas.SolarSun
import Verif.Lemmas.Strftime
import Verif.Lemmas.StrpSound
import Verif.Lemmas.StrpTime
import Verif.Lemmas.StrpZone
import Verif.Lemmas.SunBasic
import Verif.Lemmas.SunDistance
import Verif.Lemmas.Sunset
import Verif.Lemmas.Text
import Verif.Lemmas.Utc
import Verif.Lemmas.WitnessOrdinal
import Verif.Lemmas.YearFromRd
import Verif.Lemmas.YearTable
import Verif.Lemmas.ZoneText
import Verif.Model.AnyIso
import Verif.Model.AnyText
import Verif.Model.AnyTime
import Verif.Model.AnyTuple
import Verif.Model.AnyZone
import Verif.Model.Badi
import Verif.Model.Base
import Verif.Model.Clock
import Verif.Model.Coeff
import Verif.Model.Conversion
import Verif.Model.Date
import Verif.Model.DateTime
import Verif.Model.Directives
import Verif.Model.Equinox
import Verif.Model.Format
import Verif.Model.FormatSpec
import Verif.Model.FracDate
import Verif.Model.FracTime
import Verif.Model.Gregorian
import Verif.Model.IsoObject
import Verif.Model.IsoText
import Verif.Model.Limits
import Verif.Model.LocalZone
import Verif.Model.LocaleTime
import Verif.Model.Numeric
import Verif.Model.Operators
import Verif.Model.Ordinal
import Verif.Model.Place
import Verif.Model.PlainTuple
import Verif.Model.Repr
import Verif.Model.Solar
import Verif.Model.State
import Verif.Model.StrText
import Verif.Model.StrpStruct
import Verif.Model.StrpTime
import Verif.Model.StrpTwice
import Verif.Model.StructRepr
import Verif.Model.StructTime
import Verif.Model.Sun
import Verif.Model.SunDegrees
import Verif.Model.SunRising
import Verif.Model.Time
import Verif.Model.TimeSpec
import Verif.Model.TimeZone
import Verif.Model.Transit
import Verif.Model.ZoneCopy
import Verif.Model.ZoneEq
import Verif.Model.ZoneNames
import Verif.Model.ZoneState
import Verif.Props.AnyIso
import Verif.Props.AnyText
import Verif.Props.AnyTime
import Verif.Props.AnyTuple
import Verif.Props.AnyZone
import Verif.Props.BadiGregorian
import Verif.Props.Clock12
import Verif.Props.Composite
import Verif.Props.Convert
import Verif.Props.Date
import Verif.Props.DateTime
import Verif.Props.DateTimeFields
import Verif.Props.DateTimeNew
import Verif.Props.DateTimeObj
import Verif.Props.DayFraction
import Verif.Props.DayLength
import Verif.Props.DeltaT
import Verif.Props.Equinox
import Verif.Props.Format
import Verif.Props.FormatSpec
import Verif.Props.Forms
import Verif.Props.FormsOrder
import Verif.Props.FormsOverflow
import Verif.Props.FracDate
import Verif.Props.FracTime
import Verif.Props.FromTimestamp
import Verif.Props.Gregorian
import Verif.Props.IsoDate
import Verif.Props.IsoObject
import Verif.Props.IsoRefuse
import Verif.Props.IsoTime
import Verif.Props.IsoWeek
import Verif.Props.JdScale
import Verif.Props.Limits
import Verif.Props.LocalZone
import Verif.Props.LocaleRound
import Verif.Props.LocaleTime
import Verif.Props.Numeric
import Verif.Props.Operators
import Verif.Props.Ordinal
import Verif.Props.Parts
import Verif.Props.Place
import Verif.Props.PlaceDays
import Verif.Props.PlainTuple
import Verif.Props.Repr
import Verif.Props.SameDay
import Verif.Props.SeasonDates
import Verif.Props.Seasons
import Verif.Props.Solar
import Verif.Props.SolarHigh
import Verif.Props.SolarRoot
import Verif.Props.SolarUp
import Verif.Props.StampPlace
import Verif.Props.State
import Verif.Props.StrText
import Verif.Props.StrpClock
import Verif.Props.StrpErrors
import Verif.Props.StrpSound
import Verif.Props.StrpStruct
import Verif.Props.StrpTime
import Verif.Props.StrpTimeNeg
import Verif.Props.StrpZone
import Verif.Props.StructRepr
import Verif.Props.StructTime
import Verif.Props.SunDistance
import Verif.Props.SunPosition
import Verif.Props.SunRising
import Verif.Props.Time
import Verif.Props.TimeSpec
import Verif.Props.TimeZone
import Verif.Props.Timestamp
import Verif.Props.Transit
import Verif.Props.UtcSunset
import Verif.Props.WeekDirectives
import Verif.Props.YearDirectives
import Verif.Props.YearTable
import Verif.Props.ZoneCopy
import Verif.Props.ZoneEqual
import Verif.Props.ZoneNames
import Verif.Props.ZoneNumeric
import Verif.Props.ZoneState
import Verif.Py.Err
import Verif.Py.Float
import Verif.Py.FloatLemmas
import Verif.Py.Text
import Verif.Spec.Date
import Verif.Spec.DateTime
import Verif.Spec.Days
import Verif.Spec.Evening
import Verif.Spec.Gregorian
import Verif.Spec.IsoWeek
import Verif.Spec.Layout
import Verif.Spec.LocalDay
import Verif.Spec.Ordinal
import Verif.Spec.Place
import Verif.Spec.PyExpr
import Verif.Spec.StrpTime
import Verif.Spec.Time
import Verif.Spec.Witness
