import Verif.Spec.Index

/-!
# What threads are (specification)
-/

namespace Mairix.Spec

/-- Messages `i` and `j` mention a common identifier. -/
def ShareId (mail : Mail) (i j : Nat) : Prop :=
  ∃ wi wj, mail[i]? = some wi ∧ mail[j]? = some wj ∧ ∃ w, w ∈ wi ∧ w ∈ wj

/-- `i` and `j` are linked by a chain of messages in which neighbours are related. -/
inductive Chain (R : Nat → Nat → Prop) : Nat → Nat → Prop
  | refl (i) : Chain R i i
  | step {i j k} : Chain R i j → R j k → Chain R i k

/-- `i` is the first message of its thread. -/
def FirstInThread (R : Nat → Nat → Prop) (i : Nat) : Prop := ∀ j, Chain R j i → i ≤ j

end Mairix.Spec
