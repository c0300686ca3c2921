import Verif.Model.Output
import Verif.Model.Folders

/-!
# The results folder on disk: search.c:614-622, 662-671, 737-760, 1084-1186, 1354-1551

A file system of inodes, with links, for the operations of search.c that change it. No other process changes it meanwhile, permissions and full disks are left out.
-/

namespace Mairix

/-- An inode. A directory has entries, among which `.` and `..`. -/
inductive Node where
  | file (data : Text)
  | dir (entries : List (Text × Nat))
  | link (target : Text)
  | other
  deriving DecidableEq, Repr

/-- A file system: the inodes by number, the root and the working directory, and a limit to the steps in following a path. A new inode gets the next number; an inode
without a name stays in the list. -/
structure Disk where
  nodes : List Node
  root : Nat
  cwd : Nat
  steps : Nat
  deriving DecidableEq, Repr

/-- A path at its slashes. -/
def splitSlash : Text → List Text
  | [] => [[]]
  | c :: t =>
    if c = 0x2f then [] :: splitSlash t
    else match splitSlash t with
      | [] => [[c]]
      | x :: xs => (c :: x) :: xs

/-- The components of a path. A slash at the end is not seen. -/
def comps (p : Text) : List Text := (splitSlash p).filter fun x => !x.isEmpty

/-- Where the path starts. -/
def Disk.start (d : Disk) (cur : Nat) (p : Text) : Nat := if p.head? = some 0x2f then d.root else cur

/-- The entry of a directory. -/
def Disk.entry (d : Disk) (i : Nat) (name : Text) : Option Nat :=
  match d.nodes[i]? with
  | some (.dir es) => es.lookup name
  | _ => none

/-- The inode at the end of a path, links followed. -/
def Disk.walk (d : Disk) : Nat → Nat → List Text → Option Nat
  | _, cur, [] => some cur
  | 0, _, _ :: _ => none
  | n + 1, cur, c :: cs =>
    match d.entry cur c with
    | none => none
    | some i =>
      match d.nodes[i]? with
      | some (.link t) => d.walk n (d.start cur t) (comps t ++ cs)
      | _ => d.walk n i cs

/-- The directory and the name in it that a path ends with; links are followed up to the last component. -/
def Disk.parent (d : Disk) (cur : Nat) (cs : List Text) : Option (Nat × Text) :=
  match cs.getLast? with
  | none => none
  | some name => (d.walk d.steps cur cs.dropLast).map fun p => (p, name)

/-- The same for a file to be opened, a link at the end being followed too. -/
def Disk.place (d : Disk) : Nat → Nat → List Text → Option (Nat × Text)
  | 0, _, _ => none
  | n + 1, cur, cs =>
    match d.parent cur cs with
    | none => none
    | some (p, name) =>
      match d.entry p name with
      | none => some (p, name)
      | some i =>
        match d.nodes[i]? with
        | some (.link t) => d.place n (d.start p t) (comps t)
        | _ => some (p, name)

/-- `stat`. -/
def Disk.stat (d : Disk) (path : Text) : Option Node :=
  if path.isEmpty then none
  else match d.walk d.steps (d.start d.cwd path) (comps path) with
  | none => none
  | some i => d.nodes[i]?

/-- The inode with a name, a link at the end not being followed. -/
def Disk.lookup (d : Disk) (path : Text) : Option Nat :=
  match d.parent (d.start d.cwd path) (comps path) with
  | none => none
  | some (p, name) => d.entry p name

/-- `lstat`. -/
def Disk.lstat (d : Disk) (path : Text) : Option Node :=
  match d.lookup path with
  | none => none
  | some i => d.nodes[i]?

/-- A change of an inode. -/
def Disk.put (d : Disk) (i : Nat) (n : Node) : Disk := { d with nodes := d.nodes.set i n }

/-- A new entry of directory `p`. Nothing happens if `p` is no directory. -/
def Disk.addEntry (d : Disk) (p : Nat) (name : Text) (i : Nat) : Disk :=
  match d.nodes[p]? with
  | some (.dir es) => d.put p (.dir (es ++ [(name, i)]))
  | _ => d

/-- A new inode with a name in `p`. -/
def Disk.create (d : Disk) (p : Nat) (name : Text) (n : Node) : Disk :=
  ({ d with nodes := d.nodes ++ [n] } : Disk).addEntry p name d.nodes.length

/-- An entry less. -/
def Disk.removeEntry (d : Disk) (p : Nat) (name : Text) : Disk :=
  match d.nodes[p]? with
  | some (.dir es) => d.put p (.dir (es.filter fun x => x.1 != name))
  | _ => d

/-- Whether a name can be made in `p`: it is a directory, and has no such entry. -/
def Disk.free (d : Disk) (p : Nat) (name : Text) : Bool :=
  match d.nodes[p]? with
  | some (.dir es) => (es.lookup name).isNone
  | _ => false

/-- `unlink`; a failure (which is at most reported) changes nothing. -/
def Disk.unlink (d : Disk) (path : Text) : Disk :=
  match d.parent (d.start d.cwd path) (comps path) with
  | none => d
  | some (p, name) =>
    match d.entry p name with
    | none => d
    | some i =>
      match d.nodes[i]? with
      | some (.dir _) => d
      | _ => d.removeEntry p name

/-- A new inode at a path where there is nothing yet, not even a link: `symlink` and `mkdir`. -/
def Disk.make (d : Disk) (path : Text) (n : Nat → Node) : Option Disk :=
  match d.parent (d.start d.cwd path) (comps path) with
  | none => none
  | some (p, name) => if d.free p name then some (d.create p name (n p)) else none

/-- `symlink(target, path)`. -/
def Disk.symlink (d : Disk) (target path : Text) : Option Disk := d.make path fun _ => .link target

/-- `mkdir(path)`. -/
def Disk.mkdir (d : Disk) (path : Text) : Option Disk := d.make path fun p => .dir [(bs ".", d.nodes.length), (bs "..", p)]

/-- `link(old, path)`; a link at the end of `old` is not followed. -/
def Disk.link (d : Disk) (old path : Text) : Option Disk :=
  match d.lookup old, d.parent (d.start d.cwd path) (comps path) with
  | some i, some (p, name) =>
    match d.nodes[i]? with
    | some (.dir _) => none
    | none => none
    | some _ => if d.free p name then some (d.addEntry p name i) else none
  | _, _ => none

/-- `fopen(path, "wb")` or `"ab"`, writing, and `fclose`; `none` if it cannot be opened. What is written to something that is no file is not kept. -/
def Disk.write (d : Disk) (path : Text) (append : Bool) (data : Text) : Option Disk :=
  match d.place d.steps (d.start d.cwd path) (comps path) with
  | none => none
  | some (p, name) =>
    match d.entry p name with
    | none => if d.free p name then some (d.create p name (.file data)) else none
    | some i =>
      match d.nodes[i]? with
      | some (.file old) => some (d.put i (.file (if append then old ++ data else data)))
      | some .other => some d
      | _ => none

/-! ## search.c -/

/-- `directory_exists_remove_other` (search.c:1354-1368). -/
def directoryExists (d : Disk) (name : Text) : Bool × Disk :=
  match d.stat name with
  | none => (false, d)
  | some (.dir _) => (true, d)
  | some _ => (false, d.unlink name)

/-- A directory that is made if it is not there (search.c:1370-1389, 1506-1510): `create_dir` exits if that fails. -/
def ensureDir (d : Disk) (path : Text) : Res Disk :=
  let (there, d) := directoryExists d path
  if there then .ok d
  else match d.mkdir path with
    | none => .error (.exit 2)
    | some d => .ok d

/-- `maybe_create_maildir` (search.c:1380-1409). -/
def maybeCreateMaildir (d : Disk) (path : Text) : Res Disk := do
  let d ← ensureDir d path
  let d ← ensureDir d (path ++ bs "/cur")
  let d ← ensureDir d (path ++ bs "/new")
  ensureDir d (path ++ bs "/tmp")

/-- One entry of a results folder (search.c:1432-1444, 1468-1480). -/
def clearOne (d : Disk) (fpath : Text) : Disk :=
  match d.lstat fpath with
  | some (.link _) => d.unlink fpath
  | some (.file _) => d.unlink fpath
  | _ => d

/-- The loops of `clear_maildir_subfolder` (search.c:1411-1450) and `clear_mh_folder` (search.c:1452-1486). The entries are those there were when the directory was opened; the entries that are removed meanwhile
are such as were already read. -/
def clearDir (d : Disk) (sdir : Text) (wanted : Text → Bool) : Disk :=
  match d.stat sdir with
  | some (.dir es) => ((es.map (·.1)).filter wanted).foldl (fun d name => clearOne d (child sdir name)) d
  | _ => d

/-- What a result is made of: the file it is in, or what came from the IMAP server, or the message in the mbox if its checksum is right. -/
inductive Delivered where
  | file (path : Text)
  | imap (data : Option Text)
  | mbox (folder : Text) (data : Option Text)
  deriving DecidableEq, Repr

/-- What a search finds besides the database entry of a result: the path of its mbox, and the data of the message if it can be had. -/
structure Source where
  folder : Text
  data : Option Text
  deriving DecidableEq, Repr

/-- The result for a message of the database (search.c:1089-1114, 1124-1145). -/
def delivered (m : DbMsg) (s : Source) : Delivered :=
  if m.type = DB_MSG_FILE then .file m.path
  else if m.type = DB_MSG_IMAP then .imap s.data
  else .mbox s.folder s.data

/-- `create_symlink` (search.c:614-622): `link` is called also after a `symlink` that succeeded. -/
def createSymlink (d : Disk) (hard : Bool) (target new : Text) : Disk :=
  if hard then (d.link target new).getD d
  else match d.symlink target new with
    | none => d
    | some d => (d.link target new).getD d

/-- One result in a maildir or MH folder (search.c:1088-1116, 1124-1146), with `write_to_file` (search.c:662-671) and `try_copy_to_path` (search.c:737-760). -/
def deliver (d : Disk) (hard : Bool) (target : Text) : Delivered → Disk
  | .file path => createSymlink d hard path target
  | .imap none => d
  | .imap (some data) => (d.write target false data).getD d
  | .mbox _ none => d
  | .mbox folder (some data) => (d.write target false (copiedMessage folder data)).getD d

/-- The results in a maildir (search.c:1084-1120): message numbers, messages, and what else is found of them. -/
def deliverMaildir (dir : Text) (hard : Bool) : Disk → List (Nat × DbMsg × Source) → Res Disk
  | d, [] => .ok d
  | d, (i, m, x) :: l =>
    match maildirName dir i m with
    | .error f => .error f
    | .ok none => deliverMaildir dir hard d l
    | .ok (some t) => deliverMaildir dir hard (deliver d hard t (delivered m x)) l

/-- The results in an MH folder from the `ii`-th on (search.c:1122-1150). -/
def deliverMh (dir : Text) (hard : Bool) : Nat → Disk → List (DbMsg × Source) → Res Disk
  | _, d, [] => .ok d
  | ii, d, (m, x) :: l =>
    match mhName dir ii m with
    | .error f => .error f
    | .ok none => deliverMh dir hard (ii + 1) d l
    | .ok (some t) => deliverMh dir hard (ii + 1) (deliver d hard t (delivered m x)) l

/-- A search with results in a maildir (search.c:1494-1551). -/
def searchMaildir (d : Disk) (dir : Text) (augment hard : Bool) (l : List (Nat × DbMsg × Source)) : Res Disk := do
  let d ← maybeCreateMaildir d dir
  let d := if augment then d else clearDir (clearDir d (dir ++ bs "/new") fun _ => true) (dir ++ bs "/cur") fun _ => true
  deliverMaildir dir hard d l

/-- A search with results in an MH folder (search.c:1494-1551). -/
def searchMh (d : Disk) (dir : Text) (augment hard : Bool) (l : List (DbMsg × Source)) : Res Disk := do
  let d ← ensureDir d dir
  let d := if augment then d else clearDir d dir validMh
  deliverMh dir hard 0 d l

/-- A search with results in an mbox (search.c:1488-1491, 1504-1550, 1150-1184); the file is opened once, before the results are written. -/
def searchMbox (d : Disk) (path : Text) (augment : Bool) (l : List Found) : Res Disk :=
  let d := if augment then d else d.unlink path
  match d.write path true (mboxOutput l) with
  | none => .error (.exit 1)
  | some d => .ok d

end Mairix
