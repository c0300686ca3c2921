import Verif.Model.Disk

/-!
# What a search may do to the disk (specification)
-/

namespace Mairix.Spec

/-- Neither a file nor a link: these are never removed from a results folder. -/
def Stays : Node → Prop
  | .dir _ => True
  | .other => True
  | _ => False

/-- From directory `cur` the names `cs` lead, in at most `n` steps, to inode `r`; no entry of a directory in `R` is needed for this. -/
inductive Route (d : Disk) (R : List Nat) : Nat → Nat → List Text → Nat → Prop
  | done {n cur} : Route d R n cur [] cur
  | step {n cur c cs i x r} : cur ∉ R → d.entry cur c = some i → d.nodes[i]? = some x → (∀ t, x ≠ .link t) → Route d R n i cs r →
      Route d R (n + 1) cur (c :: cs) r
  | link {n cur c cs i t r} : cur ∉ R → d.entry cur c = some i → d.nodes[i]? = some (.link t) →
      Route d R n (d.start cur t) (comps t ++ cs) r → Route d R (n + 1) cur (c :: cs) r

/-- A name as directories have them. -/
def NameOk (name : Text) : Prop := name ≠ [] ∧ 0x2f ∉ name

/-- The path `sdir` leads to `r`, one of the directories `R`, without going through these. The names in it are different. -/
structure Folder (d : Disk) (R : List Nat) (sdir : Text) (r : Nat) (es : List (Text × Nat)) : Prop where
  nonempty : sdir ≠ []
  steps : 0 < d.steps
  mem : r ∈ R
  route : Route d R d.steps (d.start d.cwd sdir) (comps sdir) r
  dir : d.nodes[r]? = some (.dir es)
  names : (es.map (·.1)).Nodup
  ok : ∀ x ∈ es, NameOk x.1
  inodes : ∀ x ∈ es, ∃ n, d.nodes[x.2]? = some n

/-- From `d` to `e` nothing is changed but the entries of the directories `R`, and that there are new inodes: all other directories, all files and all links are as they were. -/
structure Kept (R : List Nat) (d e : Disk) : Prop where
  root : e.root = d.root
  cwd : e.cwd = d.cwd
  steps : e.steps = d.steps
  same : ∀ (i : Nat) (n : Node), d.nodes[i]? = some n → (i ∈ R → ∀ es, n ≠ .dir es) → e.nodes[i]? = some n
  dirs : ∀ (i : Nat) (es : List (Text × Nat)), d.nodes[i]? = some (Node.dir es) → ∃ es', e.nodes[i]? = some (Node.dir es')

/-- Result `x` is at `target` on disk `e`. For hard links `d` is the disk before the search, and the message must be one whose directory can be reached without the results folders. -/
def ResultAt (R : List Nat) (d e : Disk) (hard : Bool) (target : Text) : Delivered → Prop
  | .file path =>
    if hard then ∀ q name i n, (comps path).getLast? = some name → Route d R d.steps (d.start d.cwd path) (comps path).dropLast q → q ∉ R → d.entry q name = some i →
      d.nodes[i]? = some n → (∀ es, n ≠ .dir es) → e.lookup target = some i
    else e.lstat target = some (.link path)
  | .imap (some data) => e.lstat target = some (.file data)
  | .mbox folder (some data) => e.lstat target = some (.file (copiedMessage folder data))
  | .imap none => e.lookup target = none
  | .mbox _ none => e.lookup target = none

end Mairix.Spec
