import Verif.Model.Crash

/-! # C60: histories in which runs are stopped -/

namespace Mairix.Spec

/-- The run was stopped before its first store into the file, and the file, if it had been opened already, was there
and has not become shorter. -/
def Early (s : Stop) (before after : Option Text) : Prop :=
  s = .reading ∨ (s = .opened ∨ s = .storing 0) ∧ ∃ b a, before = some b ∧ after = some a ∧ b.length ≤ a.length

/-- Runs were started one after the other, beginning without a database file. Those of the list completed; the others
were stopped early. The database file is `f` now. -/
inductive Ran (hashfn : Nat → Text → Nat) : List Run → Option Text → Prop where
  | start : Ran hashfn [] none
  | completed {rs f r f'} : Ran hashfn rs f → indexRun hashfn r f = .ok f' → Ran hashfn (rs ++ [r]) f'
  | stopped {rs f r s f'} : Ran hashfn rs f → stoppedRun hashfn r f s = .ok f' → Early s f f' → Ran hashfn rs f'

end Mairix.Spec
