import Verif.Proofs.TokHistory2
import Verif.Model.Run
import Verif.Spec.Run

/-!
# The stages of an indexing run, and what a purge must do (specification)
-/

namespace Mairix.Spec

/-- After the runs `rs`, which all completed, a run `r` whose listing has no duplicates has opened the database (or
made a new one), giving `db0`, and updated it, giving `db`. -/
structure Updated (hashfn : Nat → Text → Nat) (rs : List Run) (r : Run) (db0 db : Database) (changed : Bool) : Prop where
  stages : ∃ f key, indexRuns hashfn rs none = .ok f ∧ openOrNew hashfn r f = .ok (key, db0) ∧
    updateStep hashfn r key db0 = .ok (db, changed)
  sane : ∀ r' ∈ rs ++ [r], Sane r'
  once : r.listed.Nodup

/-- After the runs `rs`, which all completed, a run `r` whose listing has no duplicates has opened the database (or
made a new one), updated it and, if asked to, purged it, giving `db`, which it would write with the hash key `key`. -/
structure Finished (hashfn : Nat → Text → Nat) (rs : List Run) (r : Run) (key : Nat) (db : Database) : Prop where
  stages : ∃ f db0 db1 b p, indexRuns hashfn rs none = .ok f ∧ openOrNew hashfn r f = .ok (key, db0) ∧
    updateStep hashfn r key db0 = .ok (db1, b) ∧ purgeStep r db1 = .ok (db, p)
  sane : ∀ r' ∈ rs ++ [r], Sane r'
  once : r.listed.Nodup

/-- The number of message `i` when the dead ones are gone: the number of live messages before it. -/
def afterPurge (msgs : List Msg) (i : Nat) : Option Nat :=
  match msgs[i]? with
  | some m => if m.src = .dead then none else some ((msgs.take i).filter fun m => decide (m.src ≠ .dead)).length
  | none => none

/-- The words of the table `t'` are those of `t`, with the messages that are not dead under their new numbers; words of
dead messages only are gone. -/
def WordsPurged (msgs : List Msg) (t t' : Table Matches) : Prop :=
  ∀ w l', (w, l') ∈ tableWords t' ↔ l' ≠ [] ∧ ∃ l, (w, l) ∈ tableWords t ∧ l' = l.filterMap (afterPurge msgs)

/-- The same for the table of identifiers, with its lists of messages mentioning an identifier and of those that have
it as their own. -/
def IdsPurged (msgs : List Msg) (t t' : Table Matches2) : Prop :=
  ∀ w l' k', (w, l', k') ∈ tableIds t' ↔ l' ≠ [] ∧ ∃ l k, (w, l, k) ∈ tableIds t ∧ l' = l.filterMap (afterPurge msgs) ∧
    k' = k.filterMap (afterPurge msgs)

end Mairix.Spec
