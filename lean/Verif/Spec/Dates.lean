import Verif.Spec.Mime
import Verif.Model.Dates

/-!
# What the dates in a search mean (mairix.1:493-597)
-/

namespace Mairix.Spec

open Mairix

/-- A day of the calendar, written as usual: 2003, 5, 18. -/
structure Day where
  year : Int
  month : Nat
  day : Nat
deriving DecidableEq, Repr

/-- Leap years of the Gregorian calendar. -/
def Leap (y : Int) : Prop := y % 4 = 0 ∧ (y % 100 ≠ 0 ∨ y % 400 = 0)

instance (y : Int) : Decidable (Leap y) := inferInstanceAs (Decidable (_ ∧ _))

/-- How many days the month has. -/
def monthLength (y : Int) (m : Nat) : Nat :=
  if m = 2 then (if Leap y then 29 else 28)
  else if m = 4 ∨ m = 6 ∨ m = 9 ∨ m = 11 then 30 else 31

/-- The day exists. -/
def Day.Exists (d : Day) : Prop := 1 ≤ d.month ∧ d.month ≤ 12 ∧ 1 ≤ d.day ∧ d.day ≤ monthLength d.year d.month

instance (d : Day) : Decidable d.Exists := inferInstanceAs (Decidable (_ ∧ _))

/-- Not later than. -/
def Day.UpTo (a b : Day) : Prop := a.year < b.year ∨ (a.year = b.year ∧ (a.month < b.month ∨ (a.month = b.month ∧ a.day ≤ b.day)))

instance (a b : Day) : Decidable (a.UpTo b) := inferInstanceAs (Decidable (_ ∨ _))

/-- The last of the days with a property that are not later than a given day. -/
structure MostRecent (P : Day → Prop) (ref d : Day) : Prop where
  has : P d
  isDay : d.Exists
  before : d.UpTo ref
  last : ∀ e : Day, P e → e.Exists → e.UpTo ref → e.UpTo d

/-- What one end of a range, or a period, is given as. -/
inductive Period
  /-- "21": a day of the month -/
  | day (d : Nat)
  /-- "may": a month -/
  | month (m : Nat)
  /-- "21may", "may21": a day of the year -/
  | dayMonth (d m : Nat)
  /-- "2003", "03": a year -/
  | year (y : Nat)
  /-- "may2003", "03may": a month of a year -/
  | monthYear (m y : Nat)
  /-- "20030518", "18may2003", "03may18": a day -/
  | date (d m y : Nat)
deriving DecidableEq

/-- The first and the last day that a period covers if it is read on (or for the start of a range: before) the day `ref`. What is not said is what makes it most recent. -/
def Covers (ref first last : Day) : Period → Prop
  | .day d => MostRecent (fun x => x.day = d) ref first ∧ last = first
  | .dayMonth d m => MostRecent (fun x => x.day = d ∧ x.month = m) ref first ∧ last = first
  | .month m => MostRecent (fun x => x.day = 1 ∧ x.month = m) ref first ∧ last = { first with day := monthLength first.year m }
  | .year y => first = ⟨y, 1, 1⟩ ∧ last = ⟨y, 12, 31⟩
  | .monthYear m y => first = ⟨y, m, 1⟩ ∧ last = ⟨y, m, monthLength y m⟩
  | .date d m y => first = ⟨y, m, d⟩ ∧ last = first ∧ first.Exists

/-- A day in a month: 1 to 31, with no zero in front. -/
def DayText (t : Text) (d : Nat) : Prop := DigitsOf t d ∧ 1 ≤ d ∧ d ≤ 31 ∧ t.head? ≠ some 0x30

/-- A year in two digits is from 1970 to 2069. -/
def fullYear (n : Nat) : Nat := if n < 70 then 2000 + n else 1900 + n

/-- A year: two digits that are no day in a month, or four digits. -/
inductive YearText : Text → Nat → Prop
  | short {t : Text} {n : Nat} : DigitsOf t n → t.length = 2 → (t.head? = some 0x30 ∨ 31 < n) → YearText t (fullYear n)
  | long {t : Text} {n : Nat} : DigitsOf t n → t.length = 4 → t.head? ≠ some 0x30 → YearText t n

/-- A month: the first three letters of its name. -/
def MonthText (t : Text) (m : Nat) : Prop := 1 ≤ m ∧ months[m - 1]? = some (lower t)

/-- The ways to write a period. -/
inductive PeriodText : Text → Period → Prop
  | day {t : Text} {d : Nat} : DayText t d → PeriodText t (.day d)
  | month {t : Text} {m : Nat} : MonthText t m → PeriodText t (.month m)
  | dayMonth {a b : Text} {d m : Nat} : DayText a d → MonthText b m → PeriodText (a ++ b) (.dayMonth d m)
  | monthDay {a b : Text} {d m : Nat} : MonthText a m → DayText b d → PeriodText (a ++ b) (.dayMonth d m)
  | year {t : Text} {y : Nat} : YearText t y → PeriodText t (.year y)
  | monthYear {a b : Text} {m y : Nat} : MonthText a m → YearText b y → PeriodText (a ++ b) (.monthYear m y)
  | yearMonth {a b : Text} {m y : Nat} : YearText a y → MonthText b m → PeriodText (a ++ b) (.monthYear m y)
  | dayMonthYear {a b c : Text} {d m y : Nat} : DayText a d → MonthText b m → YearText c y → PeriodText (a ++ b ++ c) (.date d m y)
  | yearMonthDay {a b c : Text} {d m y : Nat} : YearText a y → MonthText b m → DayText c d → PeriodText (a ++ b ++ c) (.date d m y)
  | digits6 {a b c : Text} {d m n : Nat} : DigitsOf a n → DigitsOf b m → DigitsOf c d → a.length = 2 → b.length = 2 → c.length = 2 →
      PeriodText (a ++ b ++ c) (.date d m (fullYear n))
  | digits8 {a b c : Text} {d m y : Nat} : DigitsOf a y → DigitsOf b m → DigitsOf c d → a.length = 4 → b.length = 2 → c.length = 2 → 100 < y →
      PeriodText (a ++ b ++ c) (.date d m y)

/-- Days in the units of relative dates. -/
inductive UnitDays : UInt8 → Nat → Prop
  | day : UnitDays 0x64 1
  | week : UnitDays 0x77 7
  | month : UnitDays 0x6d 30
  | year : UnitDays 0x79 365

/-- So many days ago: "3d", "6w", "1m", "2y". -/
inductive AgoText : Text → Nat → Prop
  | mk {t : Text} {n k : Nat} {c : UInt8} : DigitsOf t n → UnitDays c k → AgoText (t ++ [c]) (n * k)

/-- The day, at a time, as C has it. -/
def Day.tm (d : Day) (hour min sec isdst : Int) : Tm := ⟨d.year - 1900, (d.month : Int) - 1, d.day, hour, min, sec, isdst⟩

/-- Where mairix agrees with the calendar: a day of the month has to exist in this month or the one before, 29 February this year or (in January and February) last year, and no month is February of a year like 1900 or 2100. -/
def Reached (ref first : Day) : Period → Prop
  | .day _ => ref.year * 12 + ref.month ≤ first.year * 12 + first.month + 1
  | .dayMonth d m => d = 29 → m = 2 → first.year = ref.year ∨ (first.year + 1 = ref.year ∧ ref.month ≤ 2)
  | .month m => m = 2 → first.year % 100 = 0 → first.year % 400 = 0
  | .monthYear m y => m = 2 → y % 100 = 0 → y % 400 = 0
  | _ => True

/-- What the start of a range or period is, in C's terms: the first day of the period, at a time (which should be the first of the day), or so many days ago, to the second. -/
inductive StartsAt (clk : Clock) (ref : Day) (hour min sec isdst : Int) : Text → Tm → Prop
  | period {t : Text} {p : Period} {first last : Day} : PeriodText t p → Covers ref first last p → Reached ref first p → StartsAt clk ref hour min sec isdst t (first.tm hour min sec isdst)
  | ago {t : Text} {n : Nat} : AgoText t n → n * 86400 < 2147483648 → StartsAt clk ref hour min sec isdst t (clk.localtime (clk.now - n * 86400))

/-- What the end of a range or period is, in C's terms: the last day of the period, at a time (which should be the last of the day), or so many days ago, to the second. -/
inductive EndsAt (clk : Clock) (ref : Day) (hour min sec isdst : Int) : Text → Tm → Prop
  | period {t : Text} {p : Period} {first last : Day} : PeriodText t p → Covers ref first last p → Reached ref first p → EndsAt clk ref hour min sec isdst t (last.tm hour min sec isdst)
  | ago {t : Text} {n : Nat} : AgoText t n → n * 86400 < 2147483648 → EndsAt clk ref hour min sec isdst t (clk.localtime (clk.now - n * 86400))

/-- The date that is stored for a message of the given day: the day's beginning in standard time (rfc822.c:972-984, see C53). -/
def storedDate (clk : Clock) (d : Day) : Int := (clk.mktime (d.tm 0 0 0 0)).1

/-- When the day begins. -/
def morning (clk : Clock) (d : Day) : Int := (clk.mktime (d.tm 0 0 0 (-1))).1

/-- When the day is about to end. -/
def evening (clk : Clock) (d : Day) : Int := (clk.mktime (d.tm 23 59 59 (-1))).1

/-- The C library knows a time zone: days come one after the other, and the stored date of a message is in the day. -/
structure Zone (clk : Clock) : Prop where
  next : ∀ {a b : Day}, a.Exists → b.Exists → a.UpTo b → a ≠ b → evening clk a < morning clk b
  inDay : ∀ {a : Day}, a.Exists → morning clk a ≤ storedDate clk a ∧ storedDate clk a < evening clk a

/-- Days since 1 January of the year 1. -/
def dayNumber (d : Day) : Int :=
  (d.year - 1) * 365 + (d.year - 1) / 4 - (d.year - 1) / 100 + (d.year - 1) / 400 + ([0, 31, 59, 90, 120, 151, 181, 212, 243, 273, 304, 334].getD (d.month - 1) 0 : Nat)
    + (if 2 < d.month ∧ Leap d.year then 1 else 0) + d.day - 1

/-- The time of the beginning of the month and year that may be out of range, in Greenwich. -/
def utcMonth (year mon : Int) : Int := dayNumber ⟨year + 1900 + mon / 12, (mon % 12).toNat + 1, 1⟩ - 719162

/-- Year and day in the year for a day number, searched for among the next years. -/
def utcYear : Nat → Int → Int → Int
  | 0, y, _ => y
  | n + 1, y, k => if k < dayNumber ⟨y + 1, 1, 1⟩ then y else utcYear n (y + 1) k

/-- The same for the month. -/
def utcMonthOf : Nat → Nat → Int → Int → Nat
  | 0, m, _, _ => m
  | n + 1, m, y, k => if k < dayNumber ⟨y, m + 1, 1⟩ then m else utcMonthOf n (m + 1) y k

/-- The calendar day with a number. -/
def utcDay (k : Int) : Day :=
  let y := utcYear 3 (k * 400 / 146097) k
  let m := utcMonthOf 11 1 y k
  ⟨y, m, (k - dayNumber ⟨y, m, 1⟩ + 1).toNat⟩

/-- `localtime` in Greenwich. -/
def utcLocal (t : Int) : Tm := (utcDay (t / 86400 + 719162)).tm (t % 86400 / 3600) (t % 3600 / 60) (t % 60) 0

/-- A clock in Greenwich. -/
def utc (now : Int) : Clock where
  now := now
  localtime := utcLocal
  mktime x :=
    let t := (utcMonth x.year x.mon + x.mday - 1) * 86400 + x.hour * 3600 + x.min * 60 + x.sec
    (t, utcLocal t)

end Mairix.Spec
