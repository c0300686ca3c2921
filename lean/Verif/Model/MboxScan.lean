import Verif.Model.Basic

/-!
# Splitting an mbox into messages: mbox.c:173-407
-/

namespace Mairix

/-- Reading `va[n]` of a file mapping. -/
def charAt (va : Text) (n : Nat) : Res UInt8 :=
  match va[n]? with
  | some c => .ok c
  | none => .error .outOfBounds

/-- `fromtab` (mbox.c:177-185), sign-extended to `unsigned long` as in mbox.c:258. -/
def fromtab (c : UInt8) : BitVec 64 :=
  if c = 0x0a then ~~~(1#64 <<< 0)
  else if c = 0x46 then ~~~(1#64 <<< 1)
  else if c = 0x72 then ~~~(1#64 <<< 2)
  else if c = 0x6f then ~~~(1#64 <<< 3)
  else if c = 0x6d then ~~~(1#64 <<< 4)
  else if c = 0x20 then ~~~(1#64 <<< 5)
  else ~~~0#64

/-- `looks_like_from_separator` (mbox.c:209-241): the scanner generated from fromcheck.nfa is run on
what follows the space at position `n` of the file. The scanner is a parameter: `isFrom s` says
whether it reaches a state with attribute `FROMCHECK_PASS` on some non-empty prefix of `s`. -/
def looksLikeFrom (isFrom : Text → Bool) (va : Text) (n : Nat) : Bool := isFrom (va.drop (n + 1))

/-- The loop of `find_next_from` (mbox.c:254-280), with fuel; `none` stands for -1. After a candidate
was rejected (`goto scan_again`) it starts again at the same position. -/
def findNextFromLoop (isFrom : Text → Bool) (va : Text) : Nat → Nat → BitVec 64 → Res (Option Nat)
  | 0, _, _ => .error .diverges
  | fuel + 1, n, reg =>
    if n < va.length then do
      let c ← charAt va n
      let reg := (reg <<< 1) ||| fromtab c
      if ~~~(reg ||| ~~~(1#64 <<< 5)) ≠ 0#64 then
        if looksLikeFrom isFrom va n then
          if n < 4 then .error .outOfBounds  -- a position before the file
          else .ok (some (n - 4))
        else findNextFromLoop isFrom va fuel n (fromtab 0x0a)
      else findNextFromLoop isFrom va fuel (n + 1) reg
    else .ok none

/-- `find_next_from` (mbox.c:244-281). -/
def findNextFrom (isFrom : Text → Bool) (va : Text) (n : Nat) : Res (Option Nat) :=
  findNextFromLoop isFrom va (2 * va.length + 2) n (fromtab 0x0a)

/-- The loop of `start_of_next_line` (mbox.c:287-291): the value of `n` at its end. -/
def nextLineLoop (va : Text) : Nat → Nat → Res Nat
  | 0, _ => .error .diverges
  | fuel + 1, n => do
    let c ← charAt va n
    if n + 1 < va.length ∧ c ≠ 0x0a then nextLineLoop va fuel (n + 1) else .ok (n + 1)

/-- `start_of_next_line` (mbox.c:283-297). -/
def startOfNextLine (va : Text) (n : Nat) : Res (Option Nat) := do
  let n ← nextLineLoop va (va.length + 1) n
  if n = va.length then .ok none else .ok (some n)

/-- `mmdftab` (mbox.c:175, 196-197). -/
def mmdftab (c : UInt8) : Nat := if c = 0x0a then 0xf11111 else if c = 0x01 then 0x054320 else 0

/-- The loop of `find_next_mmdfsep` (mbox.c:308-315). -/
def findMmdfLoop (va : Text) : Nat → Nat → Nat → Res (Option Nat)
  | 0, _, _ => .error .diverges
  | fuel + 1, n, state =>
    if n < va.length then do
      let c ← charAt va n
      let state := (mmdftab c >>> (state * 4)) &&& 15
      if state = 15 then
        if n < 4 then .error .outOfBounds else .ok (some (n - 4))
      else findMmdfLoop va fuel (n + 1) state
    else .ok none

/-- `find_next_mmdfsep` (mbox.c:300-317). -/
def findNextMmdfsep (va : Text) (n : Nat) : Res (Option Nat) :=
  findMmdfLoop va (va.length + 1) n (mmdftab 0x0a &&& 15)

/-- `"\1\1\1\1\n"` -/
def mmdfSep : Text := [1, 1, 1, 1, 0x0a]

/-- `skip_mmdfsep` (mbox.c:319-323). -/
def skipMmdfsep (va : Text) (n : Nat) : Res (Option Nat) :=
  if n + 5 ≤ va.length ∧ (va.drop n).take 5 = mmdfSep then .ok (some (n + 5)) else .ok none

/-- The two formats (mbox.c:340-348): the width `mmdf` of the separator after a message, how a message
starts and how the next separator is found. -/
def isMmdf (va : Text) : Bool := va.length > 10 && va.take 5 == mmdfSep

/-- `message_start` (mbox.c:336, 342, 346). -/
def messageStart (va : Text) (n : Nat) : Res (Option Nat) :=
  if isMmdf va then skipMmdfsep va n else startOfNextLine va n

/-- `find_next_separator` (mbox.c:337, 343, 347). -/
def findNextSeparator (isFrom : Text → Bool) (va : Text) (n : Nat) : Res (Option Nat) :=
  if isMmdf va then findNextMmdfsep va n else findNextFrom isFrom va n

/-- The variable `mmdf` (mbox.c:341, 345). -/
def sepWidth (va : Text) : Nat := if isMmdf va then 5 else 0

/-- The `while` loop of `build_new_message_list` (mbox.c:364-398), with fuel: the list of start and
length of the messages found. The statement `start_from = end_from + mmdf` (mbox.c:397) makes -1 into 4
for MMDF when there is no further separator; the loop then goes on from position 4. -/
def messagesLoop (isFrom : Text → Bool) (va : Text) : Nat → Option Nat → Res (List (Nat × Nat))
  | 0, _ => .error .diverges
  | _ + 1, none => .ok []
  | fuel + 1, some startFrom => do
    let start ← messageStart va startFrom
    match start with
    | none => .ok []
    | some startPos => do
      let endFrom ← findNextSeparator isFrom va startPos
      match endFrom with
      | none => do
        let rest ← messagesLoop isFrom va fuel (if isMmdf va then some 4 else none)
        .ok ((startPos, va.length - startPos) :: rest)
      | some e => do
        let rest ← messagesLoop isFrom va fuel (some (e + sepWidth va))
        .ok ((startPos, e - startPos) :: rest)

end Mairix
