import Verif.Model.Update

/-!
# The integrity checks: db.c:53-196
-/

namespace Mairix

/-- The value of `idx` after the numbers of a list were read into it (db.c:69): as it was if there
are none. -/
def readInto (idx : Nat) (b : List UInt8) : Nat := (readAll b).getLast?.getD idx

/-- The first loop of `check_toktable_enc_integrity` (db.c:65-81): whether there is a broken chain.
`idx` keeps its value from one token to the next. -/
def brokenChains (nMsgs : Nat) : List (Entry Matches) → Nat → Bool
  | [], _ => false
  | e :: es, idx =>
    let idx := readInto idx e.data.bytes
    decide (idx ≠ e.data.highest) || decide (idx ≥ nMsgs) || brokenChains nMsgs es idx

/-- The loop of db.c:88-95: texts and bucket numbers of the tokens, from bucket `i` on. -/
def sortableTokens : Nat → List (Option (Entry Matches)) → List (Text × Nat)
  | _, [] => []
  | i, none :: s => sortableTokens (i + 1) s
  | i, some e :: s => (e.text, i) :: sortableTokens (i + 1) s

/-- `compare_sortable_tokens` (db.c:38-51). -/
def compareSortable (a b : Text × Nat) : Ordering :=
  match strcmp a.1 b.1 with
  | .eq => compare a.2 b.2
  | o => o

/-- `if (...) assert(0)`. -/
def assertThat (b : Bool) : Res Unit := if b then .ok () else .error .assertion

/-- The writes of db.c:91-92 into `sort_list`, which has room for `table->n` tokens (db.c:86): they come before the number of tokens is compared (db.c:96), so with more tokens than noted they are outside the array. -/
def tokensFit (k n : Nat) : Res Unit := if k ≤ n then .ok () else .error .outOfBounds

/-- `check_toktable_enc_integrity` (db.c:53-119). `junk` is the indeterminate initial value of `idx`,
`qsort` any function that sorts with `compare_sortable_tokens`. -/
def checkTable (qsort : List (Text × Nat) → List (Text × Nat)) (junk nMsgs : Nat) (t : Table Matches) : Res Unit := do
  assertThat (!brokenChains nMsgs (t.slots.filterMap id) junk)
  tokensFit (sortableTokens 0 t.slots).length t.n
  assertThat (decide ((sortableTokens 0 t.slots).length = t.n))
  assertThat (!anyEqualNeighbours ((qsort (sortableTokens 0 t.slots)).map Prod.fst))

/-- The path of a message in a file (db.c:144-146). -/
def filePath (m : Msg) : Option Text :=
  match m.src with
  | .file p _ _ => some p
  | _ => none

/-- The path of an IMAP message (db.c:147-149). -/
def imapPath (m : Msg) : Option Text :=
  match m.src with
  | .imap p => some p
  | _ => none

/-- `check_message_path_integrity` (db.c:128-175). -/
def checkPaths (qsort : List Text → List Text) (msgs : List Msg) : Res Unit :=
  assertThat (!(anyEqualNeighbours (qsort (msgs.filterMap filePath)) || anyEqualNeighbours (qsort (msgs.filterMap imapPath))))

/-- `check_database_integrity` (db.c:177-195). The table of message ids is not checked. -/
def checkIntegrity (qsort : List Text → List Text) (qsortTok : List (Text × Nat) → List (Text × Nat)) (junk : Nat)
    (db : Database) : Res Unit := do
  checkPaths qsort db.msgs
  checkTable qsortTok junk db.msgs.length db.tables.to
  checkTable qsortTok junk db.msgs.length db.tables.cc
  checkTable qsortTok junk db.msgs.length db.tables.from
  checkTable qsortTok junk db.msgs.length db.tables.subject
  checkTable qsortTok junk db.msgs.length db.tables.body
  checkTable qsortTok junk db.msgs.length db.tables.attachmentName

end Mairix
