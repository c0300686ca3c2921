import Verif.Model.Nvp
import Verif.Model.Header

/-!
# Dates in searches: dates.c, datescan.nfa
-/

namespace Mairix

/-- `struct tm`: as in C, `year` counts from 1900 and `mon` from 0. -/
structure Tm where
  year : Int
  mon : Int
  mday : Int
  hour : Int
  min : Int
  sec : Int
  isdst : Int
deriving DecidableEq, Repr

/-- What the C library tells about the time. -/
structure Clock where
  /-- `time(&now)` -/
  now : Int
  /-- `localtime` -/
  localtime : Int → Tm
  /-- `mktime`: its result, and what it turns the `struct tm` into -/
  mktime : Tm → Int × Tm

/-- `enum DATESCAN_TYPE` (dates.h:30-43). -/
inductive DateType
  | failure | d | y | yymmdd | scaled | m | dm | md | ym | my | ymd | dmy
deriving DecidableEq, Repr

/-- A class of characters in datescan.nfa. -/
abbrev CharClass := UInt8 → Bool

/-- Characters from `a` to `b`. -/
def crange (a b : UInt8) : CharClass := fun c => a ≤ c && c ≤ b

/-- `[0-9]` -/
def cDigit : CharClass := crange 0x30 0x39
/-- `[1-9]` -/
def cPos : CharClass := crange 0x31 0x39
/-- `Abbrev A` (datescan.nfa:30). -/
def cLetter : CharClass := fun c => crange 0x61 0x7a c || crange 0x41 0x5a c

/-- The ways through `BLOCK day` (datescan.nfa:32-36), and `[1-9]`, which stands next to it everywhere. -/
def dayPaths : List (List CharClass) := [[cPos], [crange 0x31 0x32, cDigit], [crange 0x33 0x33, crange 0x30 0x31]]
/-- The ways through `BLOCK year` (datescan.nfa:39-43) and `BLOCK ccyy` (57-60), which stand next to each other everywhere. -/
def yearPaths : List (List CharClass) := [[fun c => c = 0x30 || crange 0x34 0x39 c, cDigit], [crange 0x33 0x33, crange 0x32 0x39], [cPos, cDigit, cDigit, cDigit]]
/-- The way through `BLOCK month` (datescan.nfa:45-48). -/
def monthPaths : List (List CharClass) := [[cLetter, cLetter, cLetter]]
/-- Six and eight digits (datescan.nfa:67-69). -/
def digitPaths : List (List CharClass) := [List.replicate 6 cDigit, List.replicate 8 cDigit]

/-- One block behind another. -/
def thenPaths (a b : List (List CharClass)) : List (List CharClass) := a.flatMap fun x => b.map fun y => x ++ y

/-- The ways through `BLOCK main` (datescan.nfa:62-92) other than the one through `BLOCK scaled`, with the attribute at the end. -/
def datePaths : List (List (List CharClass) × DateType) :=
  [(dayPaths, .d), (yearPaths, .y), (digitPaths, .yymmdd), (monthPaths, .m), (thenPaths dayPaths monthPaths, .dm), (thenPaths monthPaths dayPaths, .md), (thenPaths yearPaths monthPaths, .ym),
   (thenPaths monthPaths yearPaths, .my), (thenPaths yearPaths (thenPaths monthPaths dayPaths), .ymd), (thenPaths dayPaths (thenPaths monthPaths yearPaths), .dmy)]

/-- The text follows the way. -/
def follows : List CharClass → Text → Bool
  | [], [] => true
  | p :: ps, c :: t => p c && follows ps t
  | _, _ => false

/-- `BLOCK scaled` (datescan.nfa:50-55): digits and a letter. -/
def isScaled : Text → Bool
  | [] => false
  | c :: t => cDigit c && rest t
where
  /-- behind the first digit -/
  rest : Text → Bool
    | [] => false
    | [c] => cLetter c
    | c :: t => cDigit c && rest t

/-- `discover_type` (dates.c:32-50): the attribute of the state that the automaton is in at the end. (The automaton is that of datescan.nfa; no text follows ways with different attributes.) -/
def discoverType (t : Text) : DateType :=
  if isScaled t then .scaled
  else match datePaths.find? (fun p => p.1.any (fun w => follows w t)) with
    | some p => p.2
    | none => .failure

/-- `match_month` (dates.c:52-67). -/
def matchMonth (p : Text) : Nat :=
  match [bs "jan", bs "feb", bs "mar", bs "apr", bs "may", bs "jun", bs "jul", bs "aug", bs "sep", bs "oct", bs "nov", bs "dec"].findIdx? (fun m => hasPrefixCase m p) with
  | some i => i + 1
  | none => 0

/-- `year_fix` (dates.c:69-80). -/
def yearFix (y : Int) : Int := if y > 100 then y - 1900 else if y < 70 then y + 100 else y

/-- `last_day` (dates.c:82-97). -/
def lastDayOf (mon : Nat) (y : Int) : Int :=
  if mon ≠ 1 then [31, 28, 31, 30, 31, 30, 31, 31, 30, 31, 30, 31].getD mon 0
  else if y.tmod 4 = 0 then 29 else 28

/-- `set_day` (dates.c:99-111). -/
def setDay (x : Tm) (y : Int) : Tm :=
  if y > x.mday then
    if x.mon = 0 then { x with mon := 11, year := x.year - 1, mday := y } else { x with mon := x.mon - 1, mday := y }
  else { x with mday := y }

/-- `is_later_dm` (dates.c:113-118). -/
def isLaterDm (x : Tm) (m d : Int) : Bool := x.mon < m - 1 || (x.mon = m - 1 && x.mday < d)

/-- A number in digits (dates.c:134-139, 170-173, 182-185), which has to fit an `int`. -/
def scanNumber : Nat → Text → Res Nat
  | v, [] => .ok v
  | v, c :: t => if isDigit c then (let w := v * 10 + (c.toNat - 0x30); if w < 2147483648 then scanNumber w t else .error .overflow) else .ok v

/-- `v *= f` for an `int`. -/
def scaleBy (v f : Nat) : Res (Option Nat) := if v * f < 2147483648 then .ok (some (v * f)) else .error .overflow

/-- The scaling by the letter (dates.c:140-148). -/
def scaleNumber (v : Nat) (c : UInt8) : Res (Option Nat) :=
  if c = 0x64 then scaleBy v 86400
  else if c = 0x77 then scaleBy v (7 * 86400)
  else if c = 0x6d then scaleBy v (30 * 86400)
  else if c = 0x79 then scaleBy v (365 * 86400)
  else .ok none

/-- The start for what has been read (dates.c:190-306). -/
def startOf (type : DateType) (v1 m2 v3 : Nat) (x : Tm) : Tm :=
  match type with
  | .d => setDay x v1
  | .y => { x with mday := 1, mon := 0, year := yearFix v1 }
  | .yymmdd => { x with mday := (v1 % 100 : Nat), mon := ((v1 / 100) % 100 : Nat) - 1, year := yearFix (v1 / 10000 : Nat) }
  | .m => { x with year := if (m2 : Int) - 1 > x.mon then x.year - 1 else x.year, mon := m2 - 1, mday := 1 }
  | .dm => { x with year := if isLaterDm x m2 v1 then x.year - 1 else x.year, mon := m2 - 1, mday := v1 }
  | .md => { x with year := if isLaterDm x m2 v3 then x.year - 1 else x.year, mon := m2 - 1, mday := v3 }
  | .dmy => { x with mon := m2 - 1, mday := v1, year := yearFix v3 }
  | .ymd => { x with mon := m2 - 1, mday := v3, year := yearFix v1 }
  | .my => { x with year := yearFix v3, mon := m2 - 1, mday := 1 }
  | .ym => { x with year := yearFix v1, mon := m2 - 1, mday := 1 }
  | .failure => x
  | .scaled => x

/-- The end for what has been read (dates.c:190-306). -/
def endOf (type : DateType) (v1 m2 v3 : Nat) (x : Tm) : Tm :=
  match type with
  | .d => setDay x v1
  | .y => { x with mday := 31, mon := 11, year := yearFix v1 }
  | .yymmdd => { x with mday := (v1 % 100 : Nat), mon := ((v1 / 100) % 100 : Nat) - 1, year := yearFix (v1 / 10000 : Nat) }
  | .m => let year := if (m2 : Int) - 1 > x.mon then x.year - 1 else x.year; { x with year := year, mon := m2 - 1, mday := lastDayOf (m2 - 1) year }
  | .dm => { x with year := if isLaterDm x m2 v1 then x.year - 1 else x.year, mon := m2 - 1, mday := v1 }
  | .md => { x with year := if isLaterDm x m2 v3 then x.year - 1 else x.year, mon := m2 - 1, mday := v3 }
  | .dmy => { x with mon := m2 - 1, mday := v1, year := yearFix v3 }
  | .ymd => { x with mon := m2 - 1, mday := v3, year := yearFix v1 }
  | .my => { x with year := yearFix v3, mon := m2 - 1, mday := lastDayOf (m2 - 1) (yearFix v3) }
  | .ym => { x with year := yearFix v1, mon := m2 - 1, mday := lastDayOf (m2 - 1) (yearFix v1) }
  | .failure => x
  | .scaled => x

/-- The month behind the first number (dates.c:174-181): the month, 0 if there is none, and the text behind it. `none` is the result -1. -/
def scanMonth (p : Text) : Option (Nat × Text) :=
  if p.isEmpty then some (0, p)
  else if matchMonth p = 0 then none else some (matchMonth p, p.drop 3)

/-- What an expression does to `*start` and `*end`. -/
inductive Scanned
  /-- both are set to a time (dates.c:126-156) -/
  | relative (then_ : Int)
  /-- parts of them are set (dates.c:162-312) -/
  | absolute (type : DateType) (v1 m2 v3 : Nat)
deriving DecidableEq

/-- `scan_date_expr` (dates.c:119-318) as far as it depends on the text only; `none` is the result -1. -/
def scanExpr (now : Int) (t : Text) : Res (Option Scanned) :=
  match discoverType t with
  | .scaled => do
    let v ← scanNumber 0 t
    match t.dropWhile isDigit with
    | [] => .error .outOfBounds
    | c :: _ => do
      let v ← scaleNumber v c
      match v with
      | none => .ok none
      | some v => .ok (some (.relative (now - v)))
  | .failure => .ok none
  | type => do
    let v1 ← scanNumber 0 t
    match scanMonth (t.dropWhile isDigit) with
    | none => .ok none
    | some (m2, p) => do
      let v3 ← scanNumber 0 p
      if (p.dropWhile isDigit).isEmpty then .ok (some (.absolute type v1 m2 v3)) else .error .assertion

/-- The new `*start`. -/
def Scanned.start (clk : Clock) (x : Tm) : Scanned → Tm
  | .relative t => clk.localtime t
  | .absolute type v1 m2 v3 => startOf type v1 m2 v3 x

/-- The new `*end`. -/
def Scanned.end (clk : Clock) (x : Tm) : Scanned → Tm
  | .relative t => clk.localtime t
  | .absolute type v1 m2 v3 => endOf type v1 m2 v3 x

/-- `start_tm` at first (dates.c:334-338). -/
def startTm (clk : Clock) : Tm := { clk.localtime clk.now with hour := 0, min := 0, sec := 0, isdst := -1 }
/-- `end_tm` at first (dates.c:334, 339-342). -/
def endTm (clk : Clock) : Tm := { clk.localtime clk.now with hour := 23, min := 59, sec := 59, isdst := -1 }

/-- The start of a range (dates.c:360-365): `start_tm` before it is as given. -/
def rangeStart (clk : Clock) (x : Tm) (a : Text) (hi : Option Int) : Res (Option (Option Int × Option Int)) :=
  if a.isEmpty then .ok (some (none, hi))
  else do
    match ← scanExpr clk.now a with
    | none => .ok none
    | some s => .ok (some (some (clk.mktime (s.start clk x)).1, hi))

/-- `scan_date_string` (dates.c:321-370): start and end, if there are; `none` is the result -1. -/
def scanDateString (clk : Clock) (t : Text) : Res (Option (Option Int × Option Int)) :=
  match strchr 0x2d t with
  | none => do
    match ← scanExpr clk.now t with
    | none => .ok none
    | some s => .ok (some (some (clk.mktime (s.start clk (startTm clk))).1, some (clk.mktime (s.end clk (endTm clk))).1))
  | some (a, b) =>
    if b.isEmpty then rangeStart clk (startTm clk) a none
    else do
      match ← scanExpr clk.now b with
      | none => .ok none
      | some s =>
        let (t, e) := clk.mktime (s.end clk (endTm clk))
        rangeStart clk e a (some t)

end Mairix
