import Verif.Model.Whole
import Verif.Spec.Folders
import Verif.Spec.Mime
import Verif.Spec.Run

/-!
# What a search finds of the mail on the disk (specification)
-/

namespace Mairix.Spec

/-- The disk is one: names are C strings, the size of a file that can be read is that of its contents, which is below 2 gigabytes. -/
structure DiscOk (d : Disc) : Prop where
  readdir : ∀ p names, d.fs.readdir p = some names → 0 ∉ p ∧ ∀ n ∈ names, 0 ∉ n
  lstat : ∀ p sb, d.fs.lstat p = some sb → 0 ∉ p
  size : ∀ p va, d.data p = some va → d.size p = va.length ∧ va.length < 2 ^ 31

/-- The C library keeps its promises. -/
structure LibraryOk (x : Indexing) : Prop where
  sortListed : Sorts messageCompare x.sortListed
  sortExtant : Sorts (fun a b => strcmp a.path b.path) x.sortExtant
  sortTexts : Sorts strcmp x.sortTexts
  sortTokens : Sorts compareSortable x.sortTokens

/-- A file whose modification time (as far as 32 bits tell) is that of an earlier run has not changed since. -/
def Unchanged (d' d : Disc) : Prop :=
  ∀ p, IsFile d'.fs p → IsFile d.fs p → u32 (d'.mtime p) = u32 (d.mtime p) → d'.size p = d.size p ∧ d'.data p = d.data p ∧ ∀ va, d.data p = some va → d'.after va = d.after va

/-- The file at the path is a message and means `m`. -/
def FileMeans (mktime : Nat → Nat → Nat → Int) (d : Disc) (p : Text) (m : Rfc822) : Prop :=
  IsFile d.fs p ∧ (¬ ∃ dir, p = dir ++ bs "/.gitignore") ∧ ∃ t, d.data p = some t ∧ t ≠ [] ∧ MimeMeans mktime (.message t m)

/-- What there is to know about the message `m` at the path when searching. -/
structure Tells (m : Rfc822) (p : Text) (size : Nat) (x : Info) : Prop where
  words : ∀ f v, v ∈ x.words f ↔ HasWord m f v
  ids : ∀ v, v ∈ x.ids ↔ HasId m true v
  path : x.path = some p
  date : x.date = u32 m.hdrs.date
  size : x.size = size
  seen : x.has .seen = true ↔ MaildirFlag 0x53 p
  replied : x.has .replied = true ↔ MaildirFlag 0x52 p
  flagged : x.has .flagged = true ↔ MaildirFlag 0x46 p

/-- Conditions that the code handles as written (see C18, C19, C21): words, if searched for approximately, have up to 31 letters and are not anchored, a word searched for in paths is searched for nowhere else and has up to 31 letters, sizes fit an `int`. -/
def Cond.Fits : Cond → Prop
  | .words fields e => (∀ alt ∈ e, ∀ t ∈ alt, t.Plain ∧ (∀ k, t.errors = some k → t.word.length ≤ 31 ∧ (t.anchored = true → k = 0)) ∧ (.path ∈ fields → t.word.length ≤ 31)) ∧
      (.path ∈ fields → ∀ f ∈ fields, f = .path)
  | .sizes a b => (∀ n, a = some n → n < 2 ^ 31) ∧ (∀ n, b = some n → n < 2 ^ 31)
  | _ => True

end Mairix.Spec
