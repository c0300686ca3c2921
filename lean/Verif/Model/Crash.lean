import Verif.Model.Run

/-!
# Indexing runs that are stopped before their end: writer.c:89-134, 576-628

The signals that stop a run (and `SIGKILL`, which cannot be caught) leave the database file as it is at that
moment: the handler of mairix.c:447-451 only removes the lock. The file is written in place, through a shared mapping.
A process that is stopped has made the stores before that moment. They are taken in the order of the source, each as
a whole; what a compiler may reorder, and what is left on the disk when the machine itself stops, is not modelled.
-/

namespace Mairix

/-- An indexing run (mairix.c:780-851, writer.c:576-599) up to the place where the database file is opened for
writing: the hash key and the database to be written, and whether anything has to be written. -/
def prepare (hashfn : Nat → Text → Nat) (r : Run) (old : Option Text) : Res (Nat × Database × Bool) :=
  if checkDuplicates r.sortTexts r.listed then .error (.exit 2)
  else do
    let (key, db) ← openOrNew hashfn r old
    let (db, updated) ← updateStep hashfn r key db
    let (db, purged) ← purgeStep r db
    if updated || purged then do
      r.check db
      if verifyMboxSizes db then
        if fileLength db < 2 ^ 31 then .ok (key, db, true) else .error .overflow
      else .error (.exit 1)
    else .ok (key, db, false)

/-- Where a run is stopped. -/
inductive Stop where
  /-- before `open` in `create_rw_mapping` (writer.c:95): killed, or given up with a message -/
  | reading
  /-- after `open`, which makes an empty file if there is none, and before the length is set (writer.c:95-121) -/
  | opened
  /-- after the length has been set, and `n` of the stores of `write_database` have been made (writer.c:602-615) -/
  | storing (n : Nat)
  deriving DecidableEq

/-- The database file after the first `n` stores (writer.c:89-134, 602-615). -/
def partWritten (key : Nat) (db : Database) (old : Text) (n : Nat) : Res Text := do
  let (ws, _) ← allWrites key db
  runWrites (ws.take n) (resized old (fileLength db))

/-- The database file when the run has been stopped. A run that has nothing to write never opens it for writing. -/
def stoppedRun (hashfn : Nat → Text → Nat) (r : Run) (old : Option Text) : Stop → Res (Option Text)
  | .reading => .ok old
  | .opened => do
    let (_, _, any) ← prepare hashfn r old
    .ok (if any then some (old.getD []) else old)
  | .storing n => do
    let (key, db, any) ← prepare hashfn r old
    if any then do
      let d ← partWritten key db (old.getD []) n
      .ok (some d)
    else .ok old

end Mairix
