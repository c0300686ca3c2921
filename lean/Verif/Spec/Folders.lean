import Verif.Model.Folders
import Verif.Spec.Glob

/-!
# Which folders and messages the configuration means (specification)
-/

namespace Mairix.Spec

/-- The last component of an item in a folder list. -/
inductive LastComp where
  | name (t : Text)
  | wild (p : List Wild)

/-- An item of a folder list: `dir/last`, `last`, `dir/last...` or `last...`. -/
structure FolderItem where
  dir : Option Text
  last : LastComp
  deep : Bool

def LastComp.text : LastComp → Text
  | .name t => t
  | .wild p => wildText p

/-- How an item is written. -/
def FolderItem.text (i : FolderItem) : Text :=
  (match i.dir with
    | some d => d ++ bs "/"
    | none => []) ++ i.last.text ++ (if i.deep then bs "..." else [])

/-- The item is an absolute path. -/
def FolderItem.absolute (i : FolderItem) : Prop := ∃ d, i.dir = some d ∧ (d = [] ∨ ∃ t, d = 0x2f :: t)

/-- A path of the form `/…` means itself, any other is relative to the folder base. -/
inductive FolderItem.InDir (base : Text) (i : FolderItem) : Text → Prop
  | absolute {d} : i.dir = some d → i.absolute → FolderItem.InDir base i d
  | relative {d} : i.dir = some d → ¬ i.absolute → FolderItem.InDir base i (base ++ bs "/" ++ d)
  | bare : i.dir = none → FolderItem.InDir base i base

/-- The name that is compared with the `omit` patterns: relative to the folder base for an item that is. -/
inductive FolderItem.NameOf (base : Text) (i : FolderItem) : Text → Text → Prop
  | absolute {p} : i.absolute → FolderItem.NameOf base i p p
  | relative {p} : ¬ i.absolute → FolderItem.NameOf base i (base ++ bs "/" ++ p) p

/-- What the folders and the file system are. -/
structure Setting where
  fs : Fs
  base : Text
  omits : List (List Wild)

/-- The path matches a pattern of `omit`. -/
def Omitted (s : Setting) (i : FolderItem) (path : Text) : Prop := ∃ n, i.NameOf s.base path n ∧ ∃ w ∈ s.omits, WildMatch w n

def Exists (fs : Fs) (path : Text) : Prop := ∃ sb, fs.stat path = some sb

def IsDir (fs : Fs) (path : Text) : Prop := ∃ sb, fs.stat path = some sb ∧ sb.kind = .directory

def IsFile (fs : Fs) (path : Text) : Prop := ∃ sb, fs.stat path = some sb ∧ sb.kind = .regular

/-- A name in a directory, other than `.` and `..`. -/
def HasEntry (fs : Fs) (dir name : Text) : Prop := (∃ names, fs.readdir dir = some names ∧ name ∈ names) ∧ name ≠ bs "." ∧ name ≠ bs ".."

/-- The files by which a directory is known to be an MH folder. -/
def mhFiles : List Text :=
  [bs ".xmhcache", bs ".mh_sequences", bs ".sylpheed_cache", bs ".sylpheed_mark", bs ".claws_cache", bs ".claws_mark", bs ".marks", bs ".overview",
   bs "cmeta", bs "summary", bs ".mew-summary", bs "index"]

/-- The path is a folder of the type. -/
def IsFolder (fs : Fs) : FolderType → Text → Prop
  | .maildir, p => IsDir fs p ∧ IsDir fs (p ++ bs "/new") ∧ IsDir fs (p ++ bs "/tmp") ∧ IsDir fs (p ++ bs "/cur")
  | .mh, p => IsDir fs p ∧ ∃ f ∈ mhFiles, IsFile fs (p ++ bs "/" ++ f)
  | .mbox, p => IsFile fs p

/-- A number, perhaps with a full stop behind it: the name of a message in an MH folder. -/
def MhName (name : Text) : Prop :=
  ∃ ds : Text, (∀ c ∈ ds, isDigit c = true) ∧ ((name = ds ∧ ds ≠ []) ∨ name = ds ++ bs ".")

/-- Entries in which no folders are looked for: the parts of a maildir, messages in MH folders. -/
def Skipped (s : Setting) (ft : FolderType) (i : FolderItem) (dir name : Text) : Prop :=
  match ft with
  | .maildir => (IsFolder s.fs .maildir dir ∧ ¬ Omitted s i dir) ∧ name ∈ [bs "new", bs "cur", bs "tmp"]
  | .mh => MhName name
  | .mbox => False

/-- `p` is reached from `q` by going down directories, through entries that are not omitted or skipped. -/
inductive Below (s : Setting) (ft : FolderType) (i : FolderItem) : Text → Text → Prop
  | self (p : Text) : Below s ft i p p
  | down {q name p : Text} : IsDir s.fs q → HasEntry s.fs q name → ¬ Omitted s i (q ++ bs "/" ++ name) → ¬ Skipped s ft i q name →
      (IsDir s.fs (q ++ bs "/" ++ name) ∨ IsFile s.fs (q ++ bs "/" ++ name)) → Below s ft i (q ++ bs "/" ++ name) p → Below s ft i q p

/-- The path is one that the item names, before folders below it are looked for. -/
def Named (s : Setting) (i : FolderItem) (p : Text) : Prop :=
  ∃ d, i.InDir s.base d ∧ Exists s.fs p ∧
    match i.last with
    | .name t => p = d ++ bs "/" ++ t
    | .wild w => ∃ name, p = d ++ bs "/" ++ name ∧ HasEntry s.fs d name ∧ WildMatch w name ∧ ¬ Omitted s i p

/-- The folders of the given type that an item of a folder list means. -/
def Denoted (s : Setting) (ft : FolderType) (i : FolderItem) (p : Text) : Prop :=
  ∃ q, Named s i q ∧ ((i.deep = true ∧ Below s ft i q p) ∨ (i.deep = false ∧ p = q)) ∧ IsFolder s.fs ft p ∧ ¬ Omitted s i p

/-- The item is one that the code can cope with: the last component contains no slash; a plain name has no wildcards in it and does not end in three full stops; a pattern is
well-formed, has a wildcard in it and is not directly below the root. -/
def FolderItem.ok (i : FolderItem) : Prop :=
  0x2f ∉ i.last.text ∧ (i.deep = false → ∀ t, i.text ≠ t ++ bs "...") ∧
  match i.last with
  | .name t => ∀ c ∈ t, c ≠ 0x5b ∧ c ≠ 0x2a ∧ c ≠ 0x3f
  | .wild w => WildOk w ∧ solid w ≤ 31 ∧ (∃ x ∈ w, ∀ c, x ≠ .char c) ∧ i.dir ≠ some []

/-- `folders` is a list written with colons that has the items `ts`. -/
def WritesList (folders : Option Text) (ts : List Text) : Prop :=
  match folders with
  | none => ts = []
  | some f => ∃ pieces, SplitsAtColons f pieces ∧ ts = (dropEmptyLast pieces).map unescape

/-- What the settings of the configuration mean. -/
structure Means (c : Config) (fs : Fs) (s : Setting) (items : FolderType → List FolderItem) : Prop where
  fs : s.fs = fs
  base : s.base = c.base
  omits : WritesList c.omitted (s.omits.map wildText)
  omitOk : ∀ w ∈ s.omits, WildOk w ∧ solid w ≤ 31
  maildirs : WritesList c.maildirs ((items .maildir).map FolderItem.text)
  mhs : WritesList c.mhs ((items .mh).map FolderItem.text)
  mboxen : WritesList c.mboxen ((items .mbox).map FolderItem.text)
  itemsOk : ∀ ft, ∀ i ∈ items ft, i.ok

/-- A folder of the configuration. -/
def Configured (s : Setting) (items : FolderType → List FolderItem) (ft : FolderType) (p : Text) : Prop := ∃ i ∈ items ft, Denoted s ft i p

/-- A message in a file of its own in a folder of the configuration. -/
inductive MessageFile (s : Setting) (items : FolderType → List FolderItem) : Text → Prop
  | new {p name} : Configured s items .maildir p → HasEntry s.fs (p ++ bs "/new") name → MessageFile s items (p ++ bs "/new/" ++ name)
  | cur {p name} : Configured s items .maildir p → HasEntry s.fs (p ++ bs "/cur") name → MessageFile s items (p ++ bs "/cur/" ++ name)
  | mh {p name} : Configured s items .mh p → HasEntry s.fs p name → MhName name → MessageFile s items (p ++ bs "/" ++ name)

/-- No path is longer than `n`. -/
def PathMax (fs : Fs) (n : Nat) : Prop := ∀ p, n < p.length → fs.stat p = none

/-- The results folder as a path. -/
def resultsPath (base mfolder : Text) : Text :=
  if mfolder.take 1 = bs "/" ∨ mfolder.take 2 = bs "./" then mfolder else base ++ bs "/" ++ mfolder

/-- Two paths lead to the same file. -/
def SameFile (fs : Fs) (p q : Text) : Prop := ∃ a b, fs.stat p = some a ∧ fs.stat q = some b ∧ a.dev = b.dev ∧ a.ino = b.ino

end Mairix.Spec
