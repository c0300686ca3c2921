import Verif.Spec.Whole
import Verif.Spec.Threads

/-!
# Threads of message files (specification)
-/

namespace Mairix.Spec

/-- The two files are messages in the configured folders and mention a common identifier: each as its own or as one that it refers to. -/
def LinkedFiles (mktime : Nat → Nat → Nat → Int) (s : Setting) (items : FolderType → List FolderItem) (d : Disc) (p q : Text) : Prop :=
  MessageFile s items p ∧ MessageFile s items q ∧ ∃ m m', FileMeans mktime d p m ∧ FileMeans mktime d q m' ∧ ∃ id own own', HasId m own id ∧ HasId m' own' id

/-- The files are linked by a chain of message files. -/
inductive SameThread (mktime : Nat → Nat → Nat → Int) (s : Setting) (items : FolderType → List FolderItem) (d : Disc) : Text → Text → Prop
  | same {p} : SameThread mktime s items d p p
  | more {p q r} : LinkedFiles mktime s items d p q → SameThread mktime s items d q r → SameThread mktime s items d p r

/-- The message files of the first run are still there, with the same times, in the second: times that fit in 32 bits. -/
def Lasts (y z : Indexing) : Prop :=
  ∀ s items s' items', Means y.config y.disc.fs s items → Means z.config z.disc.fs s' items' → ∀ p, MessageFile s items p → MessageFile s' items' p ∧
    (IsFile y.disc.fs p → IsFile z.disc.fs p ∧ z.disc.mtime p = y.disc.mtime p ∧ 0 ≤ y.disc.mtime p ∧ y.disc.mtime p < 2 ^ 32)

end Mairix.Spec
