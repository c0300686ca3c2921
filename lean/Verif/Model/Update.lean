import Verif.Model.Database

/-!
# Updating the database with the current single-file messages: db.c:671-732, 829-1060 and
mairix.c:295-364
-/

namespace Mairix

/-- The sign of `strcmp(a, b)`, which compares as unsigned characters. -/
def strcmp : Text → Text → Ordering
  | [], [] => .eq
  | [], _ :: _ => .lt
  | _ :: _, [] => .gt
  | a :: as, b :: bs => if a < b then .lt else if b < a then .gt else strcmp as bs

/-- The kinds of messages in the folder listing, in the order of `enum message_type`
(mairix.h:44-50). -/
inductive Kind where
  | file
  | imap
  deriving DecidableEq, Repr

/-- The values of the constants `MTY_FILE` and `MTY_IMAP` (mairix.h:44-50). -/
def Kind.mty : Kind → Nat
  | .file => 1
  | .imap => 3

/-- An entry of the folder listing, `struct msgpath` as built by mairix.c:798-829. -/
structure Listed where
  kind : Kind
  path : Text
  deriving DecidableEq, Repr

/-- `message_compare` (mairix.c:295-303). -/
def messageCompare (a b : Listed) : Ordering :=
  if a.kind.mty < b.kind.mty then .lt
  else if a.kind.mty > b.kind.mty then .gt
  else strcmp a.path b.path

/-- One of the two loops that look for equal neighbours (mairix.c:344-349, 350-355). -/
def anyEqualNeighbours : List Text → Bool
  | a :: b :: rest => if strcmp a b = .eq then true else anyEqualNeighbours (b :: rest)
  | _ => false

/-- `check_message_list_for_duplicates` (mairix.c:319-360). `qsort` is a parameter: any function that
sorts with `strcmp`. The kinds MTY_MBOX and MTY_DEAD do not occur in the listing. -/
def checkDuplicates (qsort : List Text → List Text) (l : List Listed) : Bool :=
  anyEqualNeighbours (qsort ((l.filter (·.kind = .file)).map (·.path))) ||
  anyEqualNeighbours (qsort ((l.filter (·.kind = .imap)).map (·.path)))

/-- The comparison in the loop of `lookup_msgpath` (db.c:839-845). -/
def lookupCompare (e : Listed) (key : Text) (kind : Kind) : Ordering :=
  if e.kind.mty < kind.mty then .lt
  else if e.kind.mty > kind.mty then .gt
  else strcmp e.path key

/-- The loop of `lookup_msgpath` (db.c:835-850); `none` stands for -1 and `m0` for the value of `m`
before the loop. -/
def lookupLoop (l : List Listed) (key : Text) (kind : Kind) : Nat → Nat → Nat → Option Nat → Res (Option Nat)
  | 0, _, _, _ => .error .diverges
  | fuel + 1, lo, hi, m0 =>
    if lo < hi then
      let m := (hi + lo) / 2
      match l[m]? with
      | none => .error .outOfBounds
      | some e =>
        match lookupCompare e key kind with
        | .eq => .ok (some m)
        | .gt => if lo = m then .ok none else lookupLoop l key kind fuel lo m (some m)
        | .lt => if lo = m then .ok none else lookupLoop l key kind fuel m hi (some m)
    else .ok m0

/-- `lookup_msgpath` (db.c:829-851). -/
def lookupMsgpath (l : List Listed) (key : Text) (kind : Kind) : Res (Option Nat) :=
  lookupLoop l key kind (l.length + 2) 0 l.length none

/-- `enum stat_result` (db.c:878-882). -/
inductive StatResult where
  | bad
  | file (mtime : Int) (size : Nat)
  | dir
  deriving DecidableEq, Repr

/-- What the update sees of the world. Assumption: it does not change while the program runs.
`stat` is the outcome of `stat` on a path as sorted out by `do_stat` (db.c:893-905); `read` is
`make_rfc822` and `make_rfc822_from_imap`, `none` where they return a null pointer. -/
structure World where
  stat : Text → StatResult
  read : Kind → Text → Option Rfc822

/-- `do_stat` (db.c:885-906). -/
def doStat (w : World) (e : Listed) : StatResult :=
  match e.kind with
  | .imap => .file 0 0
  | .file => w.stat e.path

/-- One round of the first loop of `update_database` (db.c:932-971): the entry of the listing which
the message is matched with, if any. Setting `file_in_db[matched_index]` and `file_in_new_list[i]` is
done with this result in `matchAll`. -/
def matchOne (w : World) (fast : Bool) (l : List Listed) (m : Msg) : Res (Option Nat) :=
  match m.src with
  | .file path mtime _ => do
    let r ← lookupMsgpath l path .file
    match r with
    | none => .ok none
    | some k =>
      if fast then .ok (some k)
      else match l[k]? with
        | none => .error .outOfBounds
        | some e =>
          match doStat w e with
          | .file mtime' _ => if mtime' = mtime then .ok (some k) else .ok none
          | _ => .ok none
  | .imap path => lookupMsgpath l path .imap
  | .mbox _ _ => .ok none
  | .dead => .ok none

/-- The first loop of `update_database` (db.c:932-971). Result: `file_in_new_list` (for each message)
and the indices at which `file_in_db` is set. -/
def matchAll (w : World) (fast : Bool) (l : List Listed) : List Msg → Res (List Bool × List Nat)
  | [] => .ok ([], [])
  | m :: ms => do
    let r ← matchOne w fast l m
    let (keep, used) ← matchAll w fast l ms
    match r with
    | some k => .ok (true :: keep, k :: used)
    | none => .ok (false :: keep, used)

/-- One round of the second loop of `update_database` (db.c:977-1008): kill a message that is gone.
The flag says whether it was newly pruned. -/
def weedOne (mboxen : List Mbox) (inNewList : Bool) (m : Msg) : Res (Msg × Bool) :=
  match m.src with
  | .file _ _ _ => if inNewList then .ok (m, false) else .ok ({ m with src := .dead }, true)
  | .imap _ => if inNewList then .ok (m, false) else .ok ({ m with src := .dead }, true)
  | .mbox fi mi =>
    match mboxen[fi]? with
    | none => .error .assertion
    | some mb =>
      if mb.path = none ∨ mi ≥ mb.nOldValid then .ok ({ m with src := .dead }, true) else .ok (m, false)
  | .dead => .ok (m, false)

/-- The second loop of `update_database` (db.c:977-1008): the messages and `n_newly_pruned > 0`. -/
def weedAll (mboxen : List Mbox) : List Bool → List Msg → Res (List Msg × Bool)
  | k :: ks, m :: ms => do
    let (m, p) ← weedOne mboxen k m
    let (ms, q) ← weedAll mboxen ks ms
    .ok (m :: ms, p || q)
  | _, _ => .ok ([], false)

/-- `add_msg_path` (db.c:866-875): the message added. -/
def newMsg (e : Listed) (mtime : Int) (size : Nat) : Msg :=
  { src := match e.kind with
      | .file => .file e.path mtime size
      | .imap => .imap e.path
    date := 0, tid := 0, seen := false, replied := false, flagged := false }

/-- The third loop of `update_database` (db.c:1015-1041), from index `i` of the listing on: the
messages added and `any_new`. -/
def addNew (w : World) (inDb : List Nat) : Nat → List Listed → List Msg × Bool
  | _, [] => ([], false)
  | i, e :: l =>
    let (ms, any) := addNew w inDb (i + 1) l
    if i ∈ inDb then (ms, any)
    else match doStat w e with
      | .file mtime size => (newMsg e mtime size :: ms, true)
      | _ => (ms, true)

/-- The loop over the characters of a Maildir info (db.c:683-690): flagged, replied, seen. -/
def maildirFlags : Text → Bool × Bool × Bool → Bool × Bool × Bool
  | [], fl => fl
  | c :: r, (f, rp, s) =>
    maildirFlags r (if c = 0x46 then (true, rp, s) else if c = 0x52 then (f, true, s)
      else if c = 0x53 then (f, rp, true) else (f, rp, s))

/-- `scan_maildir_flags` (db.c:671-694) on a path. The loop that goes back to the last colon
(db.c:679) is expressed with the reversed path. -/
def scanMaildirFlags (path : Text) : Bool × Bool × Bool :=
  let tail := (path.reverse.takeWhile (· ≠ 0x3a)).reverse
  if 0x3a ∈ path then
    match tail with
    | 0x32 :: 0x2c :: info => maildirFlags info (false, false, false)
    | _ => (false, false, false)
  else (false, false, false)

/-- The test for paths that are skipped (db.c:703-704). -/
def isGitignore (path : Text) : Bool :=
  path.length > 10 && path.drop (path.length - 11) == bs "/.gitignore"

/-- One round of the loop of `scan_new_messages` (db.c:699-731) for message `i`. -/
def scanOne (hash : Text → Nat) (w : World) (i : Nat) (m : Msg) (d : Tables) : Res (Msg × Tables) :=
  match m.src with
  | .file path _ _ =>
    if isGitignore path then .ok (m, d)
    else match w.read .file path with
      | none => .ok (m, d)
      | some r => do
        let (f, rp, s) := scanMaildirFlags path
        let d ← tokeniseMessage hash i d r
        .ok ({ m with date := r.hdrs.date, seen := s, replied := rp, flagged := f }, d)
  | .imap path =>
    if isGitignore path then .ok (m, d)
    else match w.read .imap path with
      | none => .ok (m, d)
      | some r => do
        let (f, rp, s) := scanMaildirFlags path
        let d ← tokeniseMessage hash i d r
        .ok ({ m with date := r.hdrs.date, seen := s, replied := rp, flagged := f }, d)
  | .mbox _ _ => .error .assertion
  | .dead => .error .assertion

/-- `scan_new_messages` (db.c:696-732) on the messages from number `i` on. -/
def scanAll (hash : Text → Nat) (w : World) : Nat → List Msg → Tables → Res (List Msg × Tables)
  | _, [], d => .ok ([], d)
  | i, m :: ms, d => do
    let (m, d) ← scanOne hash w i m d
    let (ms, d) ← scanAll hash w (i + 1) ms d
    .ok (m :: ms, d)

/-- Storing the thread numbers in the messages (db.c:816-823). -/
def setTids : List Msg → List Nat → List Msg
  | m :: ms, t :: ts => { m with tid := t } :: setTids ms ts
  | ms, _ => ms

/-- `find_threading` on the database (db.c:763-827). -/
def rethread (db : Database) : Res Database := do
  let tids ← findThreading db.tables.msgIds (db.msgs.map (·.tid))
  .ok { db with msgs := setTids db.msgs tids }

/-- `if (any_new) find_threading(db)` (db.c:1050-1051). -/
def rethreadIf (b : Bool) (db : Database) : Res Database := if b then rethread db else .ok db

/-- `if (any_new) scan_new_messages(...)` (db.c:1043-1045). Messages added are none if `any_new` is not
set, so the test makes no difference; it is kept. -/
def scanIf (b : Bool) (hash : Text → Nat) (w : World) (i : Nat) (ms : List Msg) (d : Tables) : Res (List Msg × Tables) :=
  if b then scanAll hash w i ms d else .ok (ms, d)

/-- `update_database` (db.c:908-1060), with the mbox part `addMbox` (`add_mbox_messages`,
mbox.c:906-1034) as a parameter. The flag is the value returned: whether anything changed. -/
def updateDatabase (hash : Text → Nat) (addMbox : Database → Res (Database × Bool)) (w : World) (fast : Bool)
    (l : List Listed) (db : Database) : Res (Database × Bool) := do
  let (keep, used) ← matchAll w fast l db.msgs
  let (old, pruned) ← weedAll db.mboxen keep db.msgs
  let (new, anyNew) := addNew w used 0 l
  let (new, d) ← scanIf anyNew hash w old.length new db.tables
  let (db, anyMbox) ← addMbox { db with msgs := old ++ new, tables := d }
  let db ← rethreadIf (anyNew || anyMbox) db
  .ok (db, anyNew || anyMbox || pruned)

end Mairix
