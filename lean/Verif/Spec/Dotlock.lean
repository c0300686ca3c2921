import Verif.Model.Dotlock

/-!
# Mutual exclusion (specification)
-/

namespace Mairix.Spec

/-- The process has passed the locking step and has neither released the lock nor ended. -/
def Inside (s : LockState) (i : Nat) : Prop := (s.proc i).pc = .inside

/-- At most one process uses the database. -/
def AtMostOneInside (s : LockState) : Prop := ∀ i j, Inside s i → Inside s j → i = j

/-- Some running process other than `i` has made the lock (its `link` has succeeded) and has not yet released it. -/
def OtherOwner (s : LockState) (i : Nat) : Prop := ∃ j, j ≠ i ∧ ((s.proc j).pc = .tidy ∨ (s.proc j).pc = .inside)

/-- Nothing happens of what breaks the locking: no process finds the lock gone when it wants to read who holds it, and neither `--unlock` nor a signal removes the lock of another running process. -/
def Polite (s : LockState) : LockEvent → Prop
  | .go i => ((s.proc i).pc = .read → s.lock ≠ none) ∧ ((s.proc i).pc = .force → ¬ OtherOwner s i)
  | .signal i => ¬ OtherOwner s i
  | _ => True

/-- A history in which every event is polite. -/
inductive PoliteRun : LockState → List LockEvent → LockState → Prop
  | nil (s) : PoliteRun s [] s
  | cons {s e s' es s''} : s.step e s' → Polite s e → PoliteRun s' es s'' → PoliteRun s (e :: es) s''

/-- What earlier processes may have left: no temporary name is the same file as another one; new files are new. -/
def FilesFit (lock : Option Nat) (tmp : Nat → Option Nat) (next : Nat) : Prop :=
  (∀ m n a, tmp m = some a → tmp n = some a → m = n) ∧ (∀ m a, tmp m = some a → a < next) ∧ ∀ a, lock = some a → a < next

end Mairix.Spec
