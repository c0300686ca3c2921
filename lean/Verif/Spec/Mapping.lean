import Verif.Model.Mapping

/-!
# What reading a file gives, compressed or not (specification)
-/

namespace Mairix.Spec

/-- The names of compressed files. -/
def Compressed (name : Text) : Prop := ∃ base ending, name = base ++ ending ∧ base ≠ [] ∧ lower ending ∈ ["gz", "bz2", "xz"].map fun e => bs ("." ++ e)

/-- The decompressor gives the text: in pieces that are full except the last one, of up to `step` bytes each. -/
inductive Gives (step : Nat) : List ZRead → Text → Prop
  | nil : Gives step [] []
  | last {t : Text} : t ≠ [] → t.length < step → Gives step [.data t] t
  | more {u t : Text} {rs : List ZRead} : u.length = step → Gives step rs t → Gives step (.data u :: rs) (u ++ t)

/-- A compressed file that can be read and holds the text, which is not empty. -/
def Holds (step : Nat) (d : ZDisc) (name t : Text) : Prop :=
  d.kind name = some .regular ∧ d.opens name = true ∧ d.raw name ≠ [] ∧ d.inflates name = true ∧ Gives step (d.reads name) t ∧ t ≠ []

/-- What reading a file that is not compressed gives. -/
def plainContents (d : ZDisc) (name : Text) : Option Text :=
  if d.kind name = some .regular ∧ d.opens name = true ∧ d.raw name ≠ [] then some (d.raw name) else none

/-- Reading the file gives this. -/
def Contents (step : Nat) (d : ZDisc) (name : Text) (r : Option Text) : Prop :=
  (¬ Compressed name ∧ r = plainContents d name) ∨ (Compressed name ∧ ∃ t, Holds step d name t ∧ r = some t)

/-- After a compressed file, files that are not compressed are not followed by the same compressed file. -/
def Apart (names : List Text) : Prop :=
  ∀ a z b c, names = a ++ z :: b ++ z :: c → Compressed z → (∀ n ∈ b, ¬ Compressed n) → b = []

end Mairix.Spec
