import Verif.Spec.Disk
import Verif.Spec.Posted

/-!
# A whole search with a results folder (specification)
-/

namespace Mairix.Spec

/-- In one of the folders there is a link to the path. -/
def LinkIn (d : Disk) (folders : List Text) (p : Text) : Prop := ∃ f ∈ folders, ∃ nm, NameOk nm ∧ d.lstat (child f nm) = some (.link p)

/-- In the folders there is at most one link to each path. -/
def LinkedOnce (d : Disk) (folders : List Text) : Prop :=
  ∀ p, ∀ f ∈ folders, ∀ nm, NameOk nm → ∀ f' ∈ folders, ∀ nm', NameOk nm' → d.lstat (child f nm) = some (.link p) → d.lstat (child f' nm') = some (.link p) → child f nm = child f' nm'

/-- In one of the folders there is a file with this text. -/
def TextIn (d : Disk) (folders : List Text) (t : Text) : Prop := ∃ f ∈ folders, ∃ nm, NameOk nm ∧ d.lstat (child f nm) = some (.file t)

/-- The copy of a message of an mbox: a line that tells where it is from, and the text without the newline at its end. -/
def copyOf (p : Text) (m : Posted) : Text := bs "X-source-folder: " ++ p ++ [0x0a] ++ m.text.dropLast

/-- In all these runs mail was only delivered to the mbox at the path, and in the last it holds these messages. -/
structure GrownBox (mktime : Nat → Nat → Nat → Int) (xs : List Indexing) (x : Indexing) (p : Text) (ms : List Posted) : Prop where
  now : MboxAt x.disc p ms
  ok : ∀ m ∈ ms, m.Ok mktime
  before : ∃ boxes : List (List Posted), Pairs (fun y ms => MboxNow y.disc p ms) (xs ++ [x]) (boxes ++ [ms]) ∧ (boxes ++ [ms]).Pairwise (· <+: ·)

/-- What is in the folders and cannot be removed, such as directories, does not have names that results get. -/
def Roomy (d : Disk) (folders : List Text) (taken : Text → Prop) : Prop := ∀ f ∈ folders, ∀ nm, NameOk nm → ∀ x, d.lstat (child f nm) = some x → Stays x → ¬ taken nm

/-- The results of the query, and no others, are in the folders: links to the message files that satisfy it, and copies of the messages of mboxen that do. -/
structure Results (mktime : Nat → Nat → Nat → Int) (xs : List Indexing) (x : Indexing) (s : Setting) (items : FolderType → List FolderItem) (cs : List Cond) (d : Disk) (folders : List Text) : Prop where
  /-- Links lead to message files, no two to the same. -/
  links : ∀ p, LinkIn d folders p → MessageFile s items p
  once : LinkedOnce d folders
  /-- Of the message files with a meaning those that satisfy the query have links. -/
  files : ∀ p m, MessageFile s items p → FileMeans mktime x.disc p m → ∀ y, Tells m p (x.disc.size p) y → (LinkIn d folders p ↔ ∀ c ∈ cs, c.Holds y)
  /-- Files are copies of messages of mboxen that satisfy the query, -/
  copies : ∀ t, TextIn d folders t → ∃ p ms m, Configured s items .mbox p ∧ GrownBox mktime xs x p ms ∧ m ∈ ms ∧ t = copyOf p m ∧ ∀ y, TellsPosted m p y → ∀ c ∈ cs, c.Holds y
  /-- and all of these are there. -/
  boxes : ∀ p ms, Configured s items .mbox p → GrownBox mktime xs x p ms → ∀ m ∈ ms, ∀ y, TellsPosted m p y → (∀ c ∈ cs, c.Holds y) → TextIn d folders (copyOf p m)

/-- The mbox with these results: before each a From line of mairix. -/
inductive BoxOf : List Found → Text → Prop
  | none : BoxOf [] []
  | more {f u l t} : Recovered f u → BoxOf l t → BoxOf (f :: l) (bs "From mairix@mairix Mon Jan  1 12:34:56 1970\n" ++ u ++ t)

/-- The results of the query, and no others, are in the list. -/
structure MboxResults (mktime : Nat → Nat → Nat → Int) (xs : List Indexing) (x : Indexing) (s : Setting) (items : FolderType → List FolderItem) (cs : List Cond) (l : List Found) : Prop where
  /-- It consists of message files and of messages of mboxen that satisfy the query, with their texts. -/
  each : ∀ f ∈ l, (∃ p t, f = .file p t ∧ MessageFile s items p ∧ x.disc.data p = some t) ∨
    ∃ p ms m, f = .mbox p m.text ∧ Configured s items .mbox p ∧ GrownBox mktime xs x p ms ∧ m ∈ ms ∧ ∀ y, TellsPosted m p y → ∀ c ∈ cs, c.Holds y
  /-- No file is there twice. -/
  once : l.Pairwise fun f f' => ∀ p t t', ¬ (f = .file p t ∧ f' = .file p t')
  /-- Of the message files with a meaning those that satisfy the query are there, -/
  files : ∀ p m, MessageFile s items p → FileMeans mktime x.disc p m → ∀ y, Tells m p (x.disc.size p) y → ((∃ t, Found.file p t ∈ l) ↔ ∀ c ∈ cs, c.Holds y)
  /-- and so are the messages of mboxen. -/
  boxes : ∀ p ms, Configured s items .mbox p → GrownBox mktime xs x p ms → ∀ m ∈ ms, ∀ y, TellsPosted m p y → (∀ c ∈ cs, c.Holds y) → Found.mbox p m.text ∈ l

end Mairix.Spec
