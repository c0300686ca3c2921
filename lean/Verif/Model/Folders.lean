import Verif.Model.Glob
import Verif.Model.Update
import Verif.Model.MboxUpdate

/-!
# From the configured folders to messages: mbox.c, dirscan.c and mairix.c
-/

namespace Mairix

/-- The kinds of file that matter, as in `st_mode`. -/
inductive FileKind where
  | regular
  | directory
  | other
  deriving DecidableEq, Repr

/-- What `stat` tells. -/
structure FStat where
  kind : FileKind
  dev : Nat
  ino : Nat
  deriving DecidableEq, Repr

/-- What `lstat` tells about an mbox. -/
structure LStat where
  link : Bool
  mtime : Int
  size : Nat
  deriving DecidableEq, Repr

/-- The file system: `stat`, `lstat` (`none`: the call fails) and the names given by `opendir` and `readdir` (`none`: `opendir` fails). It does not change
while the folders are looked for. -/
structure Fs where
  stat : Text → Option FStat
  lstat : Text → Option LStat
  readdir : Text → Option (List Text)

/-- The types of folder that can be listed in the configuration. -/
inductive FolderType where
  | maildir
  | mh
  | mbox
  deriving DecidableEq, Repr

/-- `a/b`. -/
def child (a b : Text) : Text := a ++ 0x2f :: b

/-- `.` and `..`, which are skipped everywhere (for example mbox.c:562-563). -/
def isDots (name : Text) : Bool := name == bs "." || name == bs ".."

/-- `valid_mh_filename_p` (dirscan.c:116-132): the loop. -/
def validMhLoop : Text → Bool
  | [] => true
  | c :: rest => if isDigit c then validMhLoop rest else c == 0x2e && rest.isEmpty

/-- `valid_mh_filename_p` (dirscan.c:116-132). -/
def validMh (x : Text) : Bool := !x.isEmpty && validMhLoop x

/-- `has_child_file` and `has_child_dir` (dirscan.c:178-206). -/
def hasChild (fs : Fs) (kind : FileKind) (base name : Text) : Bool :=
  match fs.stat (child base name) with
  | some sb => sb.kind == kind
  | none => false

/-- The files that make a directory an MH folder (dirscan.c:261-281). -/
def mhMarks : List Text :=
  [bs ".xmhcache", bs ".mh_sequences", bs ".sylpheed_cache", bs ".sylpheed_mark", bs ".claws_cache", bs ".claws_mark", bs ".marks", bs ".overview",
   bs "cmeta", bs "summary", bs ".mew-summary", bs "index"]

/-- The `filter` of the folder type: `filter_is_maildir` (dirscan.c:223-233), `filter_is_mh` (dirscan.c:253-286) and `filter_is_file`
(mbox.c:681-687). -/
def filterFolder (fs : Fs) : FolderType → Text → FStat → Bool
  | .maildir, path, sb => sb.kind == .directory && hasChild fs .directory path (bs "new") && hasChild fs .directory path (bs "tmp") && hasChild fs .directory path (bs "cur")
  | .mh, path, sb => sb.kind == .directory && mhMarks.any (hasChild fs .regular path)
  | .mbox, _, sb => sb.kind == .regular

/-- The `scrutinize` of the folder type: whether an entry of a directory is ignored. `scrutinize_maildir_entry` (dirscan.c:207-222),
`scrutinize_mh_entry` (dirscan.c:240-250) and `scrutinize_mbox_entry` (mbox.c:690-694). -/
def ignored : FolderType → Bool → Text → Bool
  | .maildir, parentMatched, name => parentMatched && (name == bs "new" || name == bs "cur" || name == bs "tmp")
  | .mh, _, name => validMh name
  | .mbox, _, _ => false

/-- What stays the same while one item of a folder list is expanded. -/
structure Expand where
  fs : Fs
  ft : FolderType
  omitGlobs : List Globber
  baseLen : Nat

/-- `is_globber_array_match(omit_globs, path + base_len)`; `omit_globs` is null, which matches nothing, if nothing is to be omitted. -/
def Expand.omits (x : Expand) (path : Text) : Bool := isGlobberArrayMatch x.omitGlobs (path.drop x.baseLen)

/-- `append_shallow` (mbox.c:518-535): what is appended. -/
def appendShallow (x : Expand) (path : Text) (sb : FStat) : List Text :=
  if filterFolder x.fs x.ft path sb && !x.omits path then [path] else []

/-- The loop over the entries of a directory (mbox.c:560-596); `deep` is `append_deep` itself. -/
def deepEntries (x : Expand) (deep : Text → FStat → Res (List Text)) (path : Text) (matched : Bool) : List Text → Res (List Text)
  | [] => .ok []
  | name :: names =>
    if isDots name || x.omits (child path name) || ignored x.ft matched name then deepEntries x deep path matched names
    else
      match x.fs.stat (child path name) with
      | none => deepEntries x deep path matched names
      | some sb =>
        match sb.kind with
        | .regular => do
          let l ← deepEntries x deep path matched names
          .ok (appendShallow x (child path name) sb ++ l)
        | .directory => do
          let here ← deep (child path name) sb
          let l ← deepEntries x deep path matched names
          .ok (here ++ l)
        | .other => deepEntries x deep path matched names

/-- `append_deep` (mbox.c:537-603), with fuel for the depth of the tree. -/
def appendDeep (x : Expand) : Nat → Text → FStat → Res (List Text)
  | 0, _, _ => .error .diverges
  | fuel + 1, path, sb =>
    let here := appendShallow x path sb
    if sb.kind = .directory then
      match x.fs.readdir path with
      | none => .ok here
      | some names => do
        let l ← deepEntries x (appendDeep x fuel) path (!here.isEmpty) names
        .ok (here ++ l)
    else .ok here

/-- The `append` function that is chosen: deep for a path that ends in `...`. -/
def appendFolder (x : Expand) (fuel : Nat) (deep : Bool) (path : Text) (sb : FStat) : Res (List Text) :=
  if deep then appendDeep x fuel path sb else .ok (appendShallow x path sb)

/-- The loop of `handle_wild` (mbox.c:634-653). -/
def wildEntries (x : Expand) (fuel : Nat) (deep : Bool) (gg : Globber) (dir : Text) : List Text → Res (List Text)
  | [] => .ok []
  | name :: names =>
    if isDots name || !isGlobMatch gg name || x.omits (child dir name) then wildEntries x fuel deep gg dir names
    else
      match x.fs.stat (child dir name) with
      | none => wildEntries x fuel deep gg dir names
      | some sb => do
        let here ← appendFolder x fuel deep (child dir name) sb
        let l ← wildEntries x fuel deep gg dir names
        .ok (here ++ l)

/-- `handle_wild` (mbox.c:604-666): `dir` is the path before the last slash, or `.` if there is none, `lastComp` what follows it. -/
def handleWild (x : Expand) (fuel : Nat) (deep : Bool) (dir lastComp : Text) : Res (List Text) := do
  let gg ← makeGlobber lastComp
  match x.fs.readdir dir with
  | none => .ok []
  | some names => wildEntries x fuel deep gg dir names

/-- `handle_single` (mbox.c:667-680). -/
def handleSingle (x : Expand) (fuel : Nat) (deep : Bool) (path : Text) : Res (List Text) :=
  match x.fs.stat path with
  | none => .ok []
  | some sb => appendFolder x fuel deep path sb

/-- `is_wild` (mbox.c:699-713). -/
def isWild (s : Text) : Bool := s.any fun c => c == 0x5b || c == 0x2a || c == 0x3f

/-- `find_last_slash` (mbox.c:507-516): the text before the last slash and the text after it. -/
def splitLastSlash (s : Text) : Option (Text × Text) :=
  let comp := (s.reverse.takeWhile (· != 0x2f)).reverse
  if comp.length = s.length then none else some (s.take (s.length - comp.length - 1), comp)

/-- `handle_one_path` (mbox.c:716-774). -/
def handleOnePath (fs : Fs) (ft : FolderType) (omitGlobs : List Globber) (fuel : Nat) (base path : Text) : Res (List Text) :=
  let isAbs := path.head? == some 0x2f
  let full := if isAbs then path else child base path
  let x : Expand := ⟨fs, ft, omitGlobs, if isAbs then 0 else base.length + 1⟩
  let deep := decide (4 ≤ full.length) && full.drop (full.length - 3) == bs "..."
  let full := if deep then full.take (full.length - 3) else full
  match splitLastSlash full with
  | none => if isWild full then handleWild x fuel deep (bs ".") full else handleSingle x fuel deep full
  | some (dir, lastComp) => if isWild lastComp then handleWild x fuel deep dir lastComp else handleSingle x fuel deep full

/-- `glob_and_expand_paths` (mbox.c:776-794). -/
def expandPaths (fs : Fs) (ft : FolderType) (omitGlobs : List Globber) (fuel : Nat) (base : Text) : List Text → Res (List Text)
  | [] => .ok []
  | p :: ps => do
    let l ← handleOnePath fs ft omitGlobs fuel base p
    let r ← expandPaths fs ft omitGlobs fuel base ps
    .ok (l ++ r)

/-- The folders of one type: `split_on_colons` and `glob_and_expand_paths` (dirscan.c:364-374, mairix.c:97-113, mbox.c:811-813). `folders` is null if the
configuration has none of the type. -/
def foldersOf (fs : Fs) (omitGlobs : List Globber) (fuel : Nat) (base : Text) (ft : FolderType) : Option Text → Res (List Text)
  | none => .ok []
  | some folders => do
    let raw ← splitOnColons folders
    expandPaths fs ft omitGlobs fuel base raw

/-- The files of `readdir`, as used for messages. -/
def messageNames (fs : Fs) (dir : Text) : List Text := ((fs.readdir dir).getD []).filter fun n => !isDots n

/-- `get_maildir_message_paths` (dirscan.c:74-115). -/
def maildirPaths (fs : Fs) (folder : Text) : List Text :=
  (messageNames fs (child folder (bs "new"))).map (child (child folder (bs "new"))) ++
  (messageNames fs (child folder (bs "cur"))).map (child (child folder (bs "cur")))

/-- `get_mh_message_paths` (dirscan.c:133-159). -/
def mhPaths (fs : Fs) (folder : Text) : List Text := ((messageNames fs folder).filter validMh).map (child folder)

/-- The folder lists of the configuration (mairix.c:30-60). `omitted` is the setting `omit`. -/
structure Config where
  base : Text
  maildirs : Option Text
  mhs : Option Text
  mboxen : Option Text
  omitted : Option Text
  followLinks : Bool

/-- `omit_globs` (mairix.c:700-704). -/
def omitGlobs (omitted : Option Text) : Res (List Globber) :=
  match omitted with
  | none => .ok []
  | some o => globberArray o

/-- The messages in files of their own (mairix.c:806-811, dirscan.c:358-389). IMAP is left out. -/
def listMessages (fs : Fs) (fuel : Nat) (c : Config) : Res (List Listed) := do
  let og ← omitGlobs c.omitted
  let maildirs ← foldersOf fs og fuel c.base .maildir c.maildirs
  let mhs ← foldersOf fs og fuel c.base .mh c.mhs
  .ok ((maildirs.flatMap (maildirPaths fs) ++ mhs.flatMap (mhPaths fs)).map fun p => ⟨.file, p⟩)

/-- The mboxen, before they are sorted (mbox.c:811-849). -/
def listMboxen (fs : Fs) (fuel : Nat) (c : Config) : Res (List Extant) := do
  let og ← omitGlobs c.omitted
  let paths ← foldersOf fs og fuel c.base .mbox c.mboxen
  .ok (paths.filterMap fun p =>
    match fs.lstat p with
    | none => none
    | some sb => if sb.link && !c.followLinks then none else some ⟨p, sb.mtime, sb.size⟩)

/-- The loop of `member_of` (mairix.c:114-130). -/
def memberLoop (fs : Fs) (mfolder : Text) : List Text → Bool
  | [] => false
  | p :: ps =>
    if mfolder = p then true
    else
      match fs.stat mfolder, fs.stat p with
      | some a, some b => if a.ino = b.ino then true else memberLoop fs mfolder ps
      | _, _ => memberLoop fs mfolder ps

/-- `member_of` (mairix.c:88-136). -/
def memberOf (fs : Fs) (og : List Globber) (fuel : Nat) (base mfolder : Text) (ft : FolderType) (folders : Option Text) : Res Bool := do
  let paths ← foldersOf fs og fuel base ft folders
  .ok (memberLoop fs mfolder paths)

/-- `complete_mfolder` (mairix.c:735-750), for results that do not go to IMAP. -/
def completeMfolder (base mfolder : Text) : Text :=
  if mfolder.head? = some 0x2f ∨ mfolder.take 2 = bs "./" then mfolder else child base mfolder

/-- The check before a search (mairix.c:752-769), when the results are to be put into a folder: `exit` 3 if it is refused. -/
def checkMfolder (fs : Fs) (fuel : Nat) (c : Config) (mfolder : Text) : Res Unit := do
  let og ← omitGlobs c.omitted
  let m := completeMfolder c.base mfolder
  let a ← memberOf fs og fuel c.base m .maildir c.maildirs
  if a then .error (.exit 3)
  else do
    let b ← memberOf fs og fuel c.base m .mh c.mhs
    if b then .error (.exit 3)
    else do
      let d ← memberOf fs og fuel c.base m .mbox c.mboxen
      if d then .error (.exit 3) else .ok ()

end Mairix
