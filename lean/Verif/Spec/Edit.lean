import Verif.Model.Basic

/-!
# Edits (specification)
-/

namespace Mairix.Spec

/-- One single-letter edit. -/
inductive EditStep : Text → Text → Prop
  | insert (a b : Text) (c : UInt8) : EditStep (a ++ b) (a ++ c :: b)
  | delete (a b : Text) (c : UInt8) : EditStep (a ++ c :: b) (a ++ b)
  | change (a b : Text) (c d : UInt8) : EditStep (a ++ c :: b) (a ++ d :: b)

/-- `v` can be made from `u` with at most `k` single-letter insertions, deletions or changes. -/
inductive WithinEdits : Nat → Text → Text → Prop
  | same (k u) : WithinEdits k u u
  | step {k u v w} : WithinEdits k u v → EditStep v w → WithinEdits (k + 1) u w

end Mairix.Spec
