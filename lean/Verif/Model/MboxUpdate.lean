import Verif.Model.Update
import Verif.Model.MboxScan

/-!
# Updating the database with the current mbox folders: mbox.c:53-169, 327-505, 797-1034
-/

namespace Mairix

/-- `struct extant_mbox` (mbox.c:38-45): an mbox found on the disc. -/
structure Extant where
  path : Text
  mtime : Int
  size : Nat
  deriving DecidableEq, Repr

/-- The outcome of `create_ro_mapping` on an mbox (mbox.c:877, 943): the contents of the file, the
empty file (null pointer and length 0), or failure (null pointer and non-zero length). -/
inductive Mapping where
  | data (va : Text)
  | empty
  | failed
  deriving DecidableEq, Repr

/-- What the mbox part of the update sees of the world, constant while the program runs. `parse` is
`data_to_rfc822` (rfc822.c:1004-1083): the message or `none` for a null pointer, and whether the error
is `DTR8_MISSING_END`. `md5` is `compute_checksum` (mbox.c:106-114). -/
structure MboxWorld where
  contents : Text → Mapping
  parse : Text → Option Rfc822 × Bool
  md5 : Text → List UInt8
  isFrom : Text → Bool

/-- The loop of `lookup_extant_mbox` (mbox.c:57-67). -/
def lookupExtantLoop (l : List Extant) (key : Text) : Nat → Nat → Nat → Option Nat → Res (Option Nat)
  | 0, _, _, _ => .error .diverges
  | fuel + 1, lo, hi, m0 =>
    if lo < hi then
      let m := (hi + lo) / 2
      match l[m]? with
      | none => .error .outOfBounds
      | some e =>
        match strcmp e.path key with
        | .eq => .ok (some m)
        | .gt => if lo = m then .ok none else lookupExtantLoop l key fuel lo m (some m)
        | .lt => if lo = m then .ok none else lookupExtantLoop l key fuel m hi (some m)
    else .ok m0

/-- `lookup_extant_mbox` (mbox.c:53-69). -/
def lookupExtant (l : List Extant) (key : Text) : Res (Option Nat) :=
  lookupExtantLoop l key (l.length + 2) 0 l.length none

/-- `check_duplicates` (mbox.c:490-505): whether to exit. -/
def checkMboxDuplicates : List Extant → Bool
  | a :: b :: rest => strcmp a.path b.path = .eq || checkMboxDuplicates (b :: rest)
  | _ => false

/-- `deaden_mbox` (mbox.c:422-436). -/
def deadenMbox (mb : Mbox) : Mbox := { mb with nOldValid := 0, msgs := [], path := none }

/-- The loops of `marry_up_mboxen` over the database's mboxen (mbox.c:455-479): each is given the
current time and size or deadened. The list of numbers are the entries of `extant` whose `db_index`
is set. -/
def marryAll (extant : List Extant) : List Mbox → Res (List Mbox × List Nat)
  | [] => .ok ([], [])
  | mb :: mbs => do
    let (rest, used) ← marryAll extant mbs
    match mb.path with
    | none => .ok (deadenMbox mb :: rest, used)
    | some p => do
      let r ← lookupExtant extant p
      match r with
      | none => .ok (deadenMbox mb :: rest, used)
      | some k =>
        match extant[k]? with
        | none => .error .outOfBounds
        | some e => .ok ({ mb with currentMtime := e.mtime, currentSize := e.size } :: rest, k :: used)

/-- An mbox new to the database (mbox.c:90-100). -/
def newMbox (e : Extant) : Mbox :=
  { path := some e.path, fileMtime := 0, fileSize := 0, currentMtime := e.mtime, currentSize := e.size,
    nOldValid := 0, newMsgs := [], msgs := [] }

/-- `append_new_mboxen_to_db` (mbox.c:71-104): the mboxen appended, from entry `i` of `extant` on. -/
def appendNew (used : List Nat) : Nat → List Extant → List Mbox
  | _, [] => []
  | i, e :: es => if i ∈ used then appendNew used (i + 1) es else newMbox e :: appendNew used (i + 1) es

/-- `message_is_intact` (mbox.c:116-135). The addition is done modulo 2^64 (`off_t` + `size_t`). -/
def isIntact (w : MboxWorld) (mb : Mbox) (idx : Nat) (va : Text) : Res Bool :=
  match mb.msgs[idx]? with
  | none => .error .outOfBounds
  | some m =>
    match m.pos with
    | none => .error .uninitialised
    | some (start, len) =>
      if (start + len) % 2 ^ 64 > va.length then .ok false
      else if start + len > va.length then .error .outOfBounds
      else .ok (m.check = w.md5 ((va.drop start).take len))

/-- The binary chop of `find_number_intact` (mbox.c:157-165): the value of `l` at its end. -/
def chopLoop (w : MboxWorld) (mb : Mbox) (va : Text) : Nat → Nat → Nat → Res Nat
  | 0, _, _ => .error .diverges
  | fuel + 1, l, h =>
    if l < h then
      let m := (h + l) / 2
      if m = l then .ok l
      else do
        let b ← isIntact w mb m va
        if b then chopLoop w mb va fuel m h else chopLoop w mb va fuel l m
    else .ok l

/-- `find_number_intact` (mbox.c:137-169). -/
def findNumberIntact (w : MboxWorld) (mb : Mbox) (va : Text) : Res Nat :=
  if mb.msgs.length = 0 then .ok 0
  else do
    let last ← isIntact w mb (mb.msgs.length - 1) va
    if last then .ok mb.msgs.length
    else do
      let first ← isIntact w mb 0 va
      if !first then .ok 0
      else do
        let l ← chopLoop w mb va (mb.msgs.length + 1) 0 mb.msgs.length
        .ok (l + 1)

/-- Where `build_new_message_list` starts (mbox.c:355-361). -/
def scanStart (mb : Mbox) (va : Text) : Res Nat :=
  if mb.nOldValid = 0 then .ok 0
  else match mb.msgs[mb.nOldValid - 1]? with
    | none => .error .outOfBounds
    | some m =>
      match m.pos with
      | none => .error .uninitialised
      | some (start, len) => .ok (start + len + sepWidth va)

/-- `build_new_message_list` (mbox.c:327-407). -/
def buildNewMessageList (w : MboxWorld) (mb : Mbox) (va : Text) : Res (List (Nat × Nat)) := do
  let start ← scanStart mb va
  let first ← findNextSeparator w.isFrom va start
  messagesLoop w.isFrom va (va.length + 2) first

/-- `rescan_mbox` (mbox.c:409-421). -/
def rescanMbox (w : MboxWorld) (mb : Mbox) (va : Text) : Res Mbox := do
  let n ← findNumberIntact w mb va
  let mb := { mb with nOldValid := n }
  let new ← buildNewMessageList w mb va
  .ok { mb with newMsgs := new }

/-- One round of the last loop of `build_mbox_lists` (mbox.c:867-888). -/
def refreshMbox (w : MboxWorld) (mb : Mbox) : Res Mbox :=
  let mb := { mb with newMsgs := [] }
  match mb.path with
  | none => .ok mb
  | some p =>
    if mb.currentMtime = mb.fileMtime ∧ mb.currentSize = mb.fileSize then
      .ok { mb with nOldValid := mb.msgs.length }
    else match w.contents p with
      | .data va => rescanMbox w mb va
      | .empty => .ok { mb with nOldValid := 0, msgs := [] }
      | .failed => .ok (deadenMbox mb)

def refreshAll (w : MboxWorld) : List Mbox → Res (List Mbox)
  | [] => .ok []
  | mb :: mbs => do
    let mb ← refreshMbox w mb
    let mbs ← refreshAll w mbs
    .ok (mb :: mbs)

/-- `build_mbox_lists` (mbox.c:797-893) from the sorted list of mboxen found on the disc (after
mbox.c:855) on. -/
def buildMboxLists (w : MboxWorld) (extant : List Extant) (db : Database) : Res Database :=
  if checkMboxDuplicates extant then .error (.exit 1)
  else do
    let (old, used) ← marryAll extant db.mboxen
    let mboxen ← refreshAll w (old ++ appendNew used 0 extant)
    .ok { db with mboxen := mboxen }

/-- The bytes `[start, start + len)` of the mapping. -/
def slice (va : Text) (start len : Nat) : Res Text :=
  if start + len ≤ va.length then .ok ((va.drop start).take len) else .error .outOfBounds

/-- The `do ... while` loop that coalesces chunks (mbox.c:963-978): `chunks` starts with the chunk
`last`. The result is `none` where the loop ends with `last` null or 100 trials, otherwise length of the
message, the parsed message and the remaining chunks. -/
def tryChunks (w : MboxWorld) (va : Text) (start : Nat) :
    Nat → List (Nat × Nat) → Res (Option (Nat × Option Rfc822 × List (Nat × Nat)))
  | _, [] => .ok none
  | trials, (s, l) :: rest => do
    let len := s + l - start
    let text ← slice va start len
    if (w.parse text).2 then
      if trials + 1 < 100 then tryChunks w va start (trials + 1) rest else .ok none
    else .ok (some (len, (w.parse text).1, rest))

/-- What is made of the first of the chunks (mbox.c:963-995): length, parsed message, remaining
chunks. -/
def takeChunk (w : MboxWorld) (va : Text) (start len : Nat) (rest : List (Nat × Nat)) :
    Res (Nat × Option Rfc822 × List (Nat × Nat)) := do
  let r ← tryChunks w va start 0 ((start, len) :: rest)
  match r with
  | some x => .ok x
  | none => do
    let text ← slice va start len
    .ok (len, (w.parse text).1, rest)

/-- The message added for an mbox message (mbox.c:1004-1024). `junk` is what the fields not set by the
code hold (the memory is not cleared); `tid` is set later by `find_threading`. -/
def mboxMsg (junk : Msg) (fi mi : Nat) : Option Rfc822 → Msg
  | some r => { src := .mbox fi mi, date := r.hdrs.date, tid := junk.tid, seen := r.hdrs.seen,
                replied := r.hdrs.replied, flagged := r.hdrs.flagged }
  | none => { junk with src := .mbox fi mi }

/-- `if (r8) ... tokenise_message` (mbox.c:1010-1019). -/
def tokeniseIfAny (hash : Text → Nat) (n : Nat) (d : Tables) : Option Rfc822 → Res Tables
  | some r => tokeniseMessage hash n d r
  | none => .ok d

/-- The loop over the new chunks of mbox `fi` (mbox.c:929-1026), with fuel; `j` is the number of the
next message in the mbox; `junk n` is what the memory for message `n` held before. Result: the new entries, the database. -/
def addChunks (hash : Text → Nat) (w : MboxWorld) (junk : Nat → Msg) (va : Text) (fi : Nat) :
    Nat → Nat → List (Nat × Nat) → List Msg → Tables → Res (List MboxMsg × List Msg × Tables)
  | 0, _, _, _, _ => .error .diverges
  | _ + 1, _, [], msgs, d => .ok ([], msgs, d)
  | fuel + 1, j, (start, len) :: rest, msgs, d => do
    let (len, r8, rest) ← takeChunk w va start len rest
    let text ← slice va start len
    let d ← tokeniseIfAny hash msgs.length d r8
    let (es, msgs, d) ← addChunks hash w junk va fi fuel (j + 1) rest (msgs ++ [mboxMsg (junk msgs.length) fi j r8]) d
    .ok ({ pos := some (start, len), check := w.md5 text } :: es, msgs, d)

/-- One round of the loop of `add_mbox_messages` (mbox.c:915-1031). -/
def addMbox (hash : Text → Nat) (w : MboxWorld) (junk : Nat → Msg) (fi : Nat) (mb : Mbox) (msgs : List Msg) (d : Tables) :
    Res (Mbox × List Msg × Tables) :=
  if mb.newMsgs = [] then .ok (mb, msgs, d)
  else match mb.path with
    | none => .error .outOfBounds
    | some p =>
      match w.contents p with
      | .data va => do
        let (es, msgs, d) ← addChunks hash w junk va fi (mb.newMsgs.length + 1) mb.nOldValid mb.newMsgs msgs d
        .ok ({ mb with msgs := mb.msgs.take mb.nOldValid ++ es, newMsgs := [] }, msgs, d)
      | _ => .error (.exit 1)

/-- `add_mbox_messages` (mbox.c:906-1034) on the mboxen from number `fi` on. -/
def addMboxes (hash : Text → Nat) (w : MboxWorld) (junk : Nat → Msg) :
    Nat → List Mbox → List Msg → Tables → Res (List Mbox × List Msg × Tables)
  | _, [], msgs, d => .ok ([], msgs, d)
  | fi, mb :: mbs, msgs, d => do
    let (mb, msgs, d) ← addMbox hash w junk fi mb msgs d
    let (mbs, msgs, d) ← addMboxes hash w junk (fi + 1) mbs msgs d
    .ok (mb :: mbs, msgs, d)

/-- `add_mbox_messages` (mbox.c:906-1034). -/
def addMboxMessages (hash : Text → Nat) (w : MboxWorld) (junk : Nat → Msg) (db : Database) : Res (Database × Bool) := do
  let (mbs, msgs, d) ← addMboxes hash w junk 0 db.mboxen db.msgs db.tables
  .ok ({ mboxen := mbs, msgs := msgs, tables := d }, db.mboxen.any (·.newMsgs ≠ []))

end Mairix
