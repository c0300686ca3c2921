import Verif.Model.Integrity
import Verif.Model.MboxUpdate
import Verif.Model.Cull
import Verif.Model.DbFile

/-!
# An indexing run: mairix.c:780-851
-/

namespace Mairix

/-- What a run depends on besides the database file: the messages listed by `build_message_list` and
`build_imap_message_list` and the mboxen found by `build_mbox_lists`, in the order found; the world; the
options; the hash key of a new database (db.c:214-222); and what the C library leaves open: the order in
which `qsort` puts equal elements, and the values found in memory that was not initialised. `fuel` bounds
the loop of db.c:1121-1164. -/
structure Run where
  listed : List Listed
  extant : List Extant
  world : World
  mboxWorld : MboxWorld
  fast : Bool
  purge : Bool
  checks : Bool
  freshKey : Nat
  sortListed : List Listed → List Listed
  sortExtant : List Extant → List Extant
  sortTexts : List Text → List Text
  sortTokens : List (Text × Nat) → List (Text × Nat)
  junkHighest : Text → Nat
  junkIdx : Nat
  junkMsg : Nat → Msg
  fuel : Nat

/-- `if (do_integrity_checks) check_database_integrity(db)` (db.c:488-490, 1260-1262, writer.c:584-586). -/
def Run.check (r : Run) (db : Database) : Res Unit :=
  if r.checks then checkIntegrity r.sortTexts r.sortTokens r.junkIdx db else .ok ()

/-- Opening the existing database or making a new one (mairix.c:819-831): the hash key and the
database. `new_database_from_file` (db.c:381-493) includes the integrity checks. -/
def openOrNew (hashfn : Nat → Text → Nat) (r : Run) : Option Text → Res (Nat × Database)
  | none => .ok (r.freshKey, newDatabase)
  | some f => do
    let raw ← openDb f
    let db ← loadDatabase hashfn r.junkHighest raw
    r.check db
    .ok (raw.hashKey, db)

/-- `update_database` as called by mairix.c:835 after `build_mbox_lists` (mairix.c:833). A run that would
have to handle more than 63·2^24 messages is not modelled (`C01_violation` shows what goes wrong then). -/
def updateStep (hashfn : Nat → Text → Nat) (r : Run) (key : Nat) (db : Database) : Res (Database × Bool) := do
  let db ← buildMboxLists r.mboxWorld (r.sortExtant r.extant) db
  if db.msgs.length + r.listed.length + (db.mboxen.map (·.newMsgs.length)).sum ≤ 0x3F000000 then
    updateDatabase (hashfn key) (addMboxMessages (hashfn key) r.mboxWorld r.junkMsg) r.world r.fast (r.sortListed r.listed) db
  else .error .overflow

/-- `if (do_purge) any_purges = cull_dead_messages(...)` (mairix.c:836-838). -/
def purgeStep (r : Run) (db : Database) : Res (Database × Bool) :=
  if r.purge then do
    r.check db
    cullDeadMessages r.fuel db
  else .ok (db, false)

/-- `if (any_updates || any_purges) write_database(...)` (mairix.c:839-842): the file afterwards. -/
def writeStep (r : Run) (key : Nat) (db : Database) (old : Option Text) (any : Bool) : Res (Option Text) :=
  if any then do
    r.check db
    let d ← writeDatabase key db (old.getD [])
    .ok (some d)
  else .ok old

/-- An indexing run (mairix.c:780-851), from the listing of the messages on, with the database file
`old` (`none`: there is none). The result is the file afterwards. -/
def indexRun (hashfn : Nat → Text → Nat) (r : Run) (old : Option Text) : Res (Option Text) :=
  if checkDuplicates r.sortTexts r.listed then .error (.exit 2)
  else do
    let (key, db) ← openOrNew hashfn r old
    let (db, updated) ← updateStep hashfn r key db
    let (db, purged) ← purgeStep r db
    writeStep r key db old (updated || purged)

/-- One run after the other. -/
def indexRuns (hashfn : Nat → Text → Nat) : List Run → Option Text → Res (Option Text)
  | [], f => .ok f
  | r :: rs, f => do
    let f ← indexRun hashfn r f
    indexRuns hashfn rs f

end Mairix
