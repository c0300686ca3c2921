import Verif.Spec.SearchTop

/-!
# The results of several searches in one folder (specification)
-/

namespace Mairix.Spec

/-- The results of the queries, and no others, are in the folders: links to the message files that satisfy one of them, and copies of the messages of mboxen that do. -/
structure ResultsOfAny (mktime : Nat → Nat → Nat → Int) (xs : List Indexing) (x : Indexing) (s : Setting) (items : FolderType → List FolderItem) (css : List (List Cond)) (d : Disk) (folders : List Text) : Prop where
  /-- Links lead to message files, no two to the same. -/
  links : ∀ p, LinkIn d folders p → MessageFile s items p
  once : LinkedOnce d folders
  /-- Of the message files with a meaning those that satisfy a query have links. -/
  files : ∀ p m, MessageFile s items p → FileMeans mktime x.disc p m → ∀ y, Tells m p (x.disc.size p) y → (LinkIn d folders p ↔ ∃ cs ∈ css, ∀ c ∈ cs, c.Holds y)
  /-- Files are copies of messages of mboxen that satisfy a query, -/
  copies : ∀ t, TextIn d folders t → ∃ p ms m, Configured s items .mbox p ∧ GrownBox mktime xs x p ms ∧ m ∈ ms ∧ t = copyOf p m ∧ ∃ cs ∈ css, ∀ y, TellsPosted m p y → ∀ c ∈ cs, c.Holds y
  /-- and all of these are there. -/
  boxes : ∀ p ms, Configured s items .mbox p → GrownBox mktime xs x p ms → ∀ m ∈ ms, ∀ y, TellsPosted m p y → (∃ cs ∈ css, ∀ c ∈ cs, c.Holds y) → TextIn d folders (copyOf p m)

end Mairix.Spec
