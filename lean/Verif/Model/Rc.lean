import Verif.Model.Expand
import Verif.Model.Folders

/-!
# The configuration file and the command line: mairix.c:137-291, 537-790

The characters are those of the C locale. Messages to the user are left out.
-/

namespace Mairix

/-- `enum folder_type` (mairix.h), as the format of the results. -/
inductive OutFormat where
  | maildir | mh | mbox | raw | excerpt | imap
  deriving DecidableEq, Repr

/-- The settings, which are static variables (mairix.c:46-62), with their initial values. -/
structure Rc where
  base : Option Text := none
  maildirs : Option Text := none
  mhs : Option Text := none
  mboxen : Option Text := none
  imaps : Option Text := none
  imapPipe : Option Text := none
  imapServer : Option Text := none
  imapUsername : Option Text := none
  imapPassword : Option Text := none
  mfolder : Option Text := none
  omitted : Option Text := none
  database : Option Text := none
  format : OutFormat := .maildir
  skipChecks : Bool := false
  followLinks : Bool := false
  sortByDate : Bool := false
  deriving DecidableEq, Repr

/-- `!strncasecmp(p, lit, strlen(lit))`, for a `lit` in lower case. -/
def startsNoCase (p lit : Text) : Bool := lower (p.take lit.length) == lit

/-- `copy_value` (mairix.c:137-147): `none` for the null pointer. -/
def copyValue (e : Env) (text : Text) : Res (Option Text) :=
  match text.dropWhile (· != 0x3d) with
  | [] => .ok none
  | _ :: p => (expandString e p).map some

/-- `add_folders` (mairix.c:148-168). With a list already there, `strlen` is applied to a null pointer if there is no value. -/
def addFolders (folders extra : Option Text) : Res (Option Text) :=
  match folders, extra with
  | none, _ => .ok extra
  | some _, none => .error .outOfBounds
  | some old, some x => .ok (some (old ++ bs ":" ++ x))

/-- `parse_output_folder` (mairix.c:169-191), with the value: the format so far stays if there is no such format. -/
def parseOutputFolder (was : OutFormat) (temp : Text) : OutFormat :=
  if startsNoCase temp (bs "mh") then .mh
  else if startsNoCase temp (bs "maildir") then .maildir
  else if startsNoCase temp (bs "raw") then .raw
  else if startsNoCase temp (bs "exc") then .excerpt
  else if startsNoCase temp (bs "mbox") then .mbox
  else if startsNoCase temp (bs "imap") then .imap
  else was

/-- The name before `=` or the word that selects an option (mairix.c:248-279), in the order of the tests. -/
inductive RcKey where
  | base | folders | maildir | mhFolders | mh | mbox | imap | imapPipe | imapServer | imapUsername | imapPassword
  | followLinks | omitted | mformat | mfolder | database | nochecks | sortByDate
  deriving DecidableEq, Repr

/-- What a line is compared with (mairix.c:248-279). -/
def RcKey.lit : RcKey → Text
  | .base => bs "base"
  | .folders => bs "folders"
  | .maildir => bs "maildir="
  | .mhFolders => bs "mh_folders="
  | .mh => bs "mh="
  | .mbox => bs "mbox="
  | .imap => bs "imap="
  | .imapPipe => bs "imap_pipe="
  | .imapServer => bs "imap_server="
  | .imapUsername => bs "imap_username="
  | .imapPassword => bs "imap_password="
  | .followLinks => bs "follow_mbox_symlinks"
  | .omitted => bs "omit="
  | .mformat => bs "mformat="
  | .mfolder => bs "mfolder="
  | .database => bs "database="
  | .nochecks => bs "nochecks"
  | .sortByDate => bs "sort=date+"

/-- The order of the tests (mairix.c:248-279). -/
def rcKeys : List RcKey :=
  [.base, .folders, .maildir, .mhFolders, .mh, .mbox, .imap, .imapPipe, .imapServer, .imapUsername, .imapPassword,
   .followLinks, .omitted, .mformat, .mfolder, .database, .nochecks, .sortByDate]

/-- What is done for a line `p` that passed the test for a key (mairix.c:248-279). -/
def rcDo (e : Env) (rc : Rc) (p : Text) : RcKey → Res Rc
  | .base => do let v ← copyValue e p; .ok { rc with base := v }
  | .folders | .maildir => do let v ← copyValue e p; let l ← addFolders rc.maildirs v; .ok { rc with maildirs := l }
  | .mhFolders | .mh => do let v ← copyValue e p; let l ← addFolders rc.mhs v; .ok { rc with mhs := l }
  | .mbox => do let v ← copyValue e p; let l ← addFolders rc.mboxen v; .ok { rc with mboxen := l }
  | .imap => do let v ← copyValue e p; let l ← addFolders rc.imaps v; .ok { rc with imaps := l }
  | .imapPipe => do let v ← copyValue e p; .ok { rc with imapPipe := v }
  | .imapServer => do let v ← copyValue e p; .ok { rc with imapServer := v }
  | .imapUsername => do let v ← copyValue e p; .ok { rc with imapUsername := v }
  | .imapPassword => do let v ← copyValue e p; .ok { rc with imapPassword := v }
  | .followLinks => .ok { rc with followLinks := true }
  | .omitted => do let v ← copyValue e p; let l ← addFolders rc.omitted v; .ok { rc with omitted := l }
  | .mformat => do
    let v ← copyValue e p
    match v with
    | none => .error .outOfBounds
    | some temp => .ok { rc with format := parseOutputFolder rc.format temp }
  | .mfolder => do let v ← copyValue e p; .ok { rc with mfolder := v }
  | .database => do let v ← copyValue e p; .ok { rc with database := v }
  | .nochecks => .ok { rc with skipChecks := true }
  | .sortByDate => .ok { rc with sortByDate := true }

/-- One line without what follows a comment character, from its first character that is not blank (mairix.c:247-284). -/
def rcOption (e : Env) (rc : Rc) (p : Text) : Res Rc :=
  match rcKeys.find? fun k => startsNoCase p k.lit with
  | none => .ok rc
  | some k => rcDo e rc p k

/-- A character that starts a comment (mairix.c:231). -/
def rcComment (c : UInt8) : Bool := c == 0x23 || c == 0x21 || c == 0x3b || c == 0x25

/-- `fgets(line, 4096, in)` (mairix.c:219): what is put into the array, and the rest of the file. -/
def fgetsLine (n : Nat) : Text → Text × Text
  | [] => ([], [])
  | c :: t =>
    match n with
    | 0 => ([], c :: t)
    | n + 1 => if c = 0x0a then ([c], t) else let (l, r) := fgetsLine n t; (c :: l, r)

/-- The body of the loop (mairix.c:220-284), for the bytes that `fgets` read. `strlen` stops at the first NUL among them; if that is the first byte, `line[len-1]` is
outside the array. -/
def rcLine (e : Env) (rc : Rc) (got : Text) : Res Rc :=
  let line := got.takeWhile (· != 0)
  if line.length > 4092 then .error (.exit 2)
  else if line.length = 0 then .error .outOfBounds
  else
    let line := if line.getLast? = some 0x0a then line.dropLast else line
    let line := line.takeWhile fun c => !rcComment c
    match line.dropWhile isSpace with
    | [] => .ok rc
    | c :: p => rcOption e rc (c :: p)

/-- The loop over the file (mairix.c:218-285), with fuel. -/
def rcLoop (e : Env) : Nat → Rc → Text → Res Rc
  | 0, _, _ => .error .diverges
  | _ + 1, rc, [] => .ok rc
  | fuel + 1, rc, c :: t =>
    let (got, rest) := fgetsLine 4095 (c :: t)
    match rcLine e rc got with
    | .error f => .error f
    | .ok rc => rcLoop e fuel rc rest

/-- `parse_rc_file` (mairix.c:192-291), for a file that could be opened; `none` for one that could not. -/
def parseRcFile (e : Env) (contents : Option Text) : Res Rc :=
  match contents with
  | none => .error (.exit 2)
  | some t => rcLoop e (t.length + 1) {} t

/-- The name of the file (mairix.c:199-216). -/
def rcFileName (e : Env) (name : Option Text) : Text := name.getD (e.home ++ bs "/.mairixrc")

/-! ## The command line -/

/-- What the options set (mairix.c:541-557). -/
structure Opts where
  rcFile : Option Text := none
  mfolder : Option Text := none
  augment : Bool := false
  threads : Bool := false
  search : Bool := false
  purge : Bool := false
  help : Bool := false
  raw : Bool := false
  excerpt : Bool := false
  dump : Bool := false
  integrity : Bool := true
  unlock : Bool := false
  fast : Bool := false
  hardlinks : Bool := false
  verbose : Bool := false
  deriving DecidableEq, Repr

/-- The options without an argument (mairix.c:580-640). -/
def optFlag (o : Opts) (a : Text) : Option Opts :=
  if a = bs "-t" ∨ a = bs "--threads" then some { o with search := true, threads := true }
  else if a = bs "-a" ∨ a = bs "--augment" then some { o with search := true, augment := true }
  else if a = bs "-p" ∨ a = bs "--purge" then some { o with purge := true }
  else if a = bs "-d" ∨ a = bs "--dump" then some { o with dump := true }
  else if a = bs "-r" ∨ a = bs "--raw-output" then some { o with raw := true }
  else if a = bs "-x" ∨ a = bs "--excerpt-output" then some { o with excerpt := true }
  else if a = bs "-H" ∨ a = bs "--force-hardlinks" then some { o with hardlinks := true }
  else if a = bs "-Q" ∨ a = bs "--no-integrity-checks" then some { o with integrity := false }
  else if a = bs "--unlock" then some { o with unlock := true }
  else if a = bs "-F" ∨ a = bs "--fast-index" then some { o with fast := true }
  else if a = bs "-v" ∨ a = bs "--verbose" then some { o with verbose := true }
  else if a = bs "-h" ∨ a = bs "--help" then some { o with help := true }
  else none

/-- The loop over the arguments (mairix.c:572-655): the options, and the arguments that are left. `--force-hash-key-new-database` is left out. -/
def parseOpts : Opts → List Text → Res (Opts × List Text)
  | o, [] => .ok (o, [])
  | o, a :: l =>
    if a = bs "-f" ∨ a = bs "--rcfile" then
      match l with
      | [] => .error (.exit 1)
      | x :: l => parseOpts { o with rcFile := some x } l
    else if a = bs "-o" ∨ a = bs "--mfolder" then
      match l with
      | [] => .error (.exit 1)
      | x :: l => parseOpts { o with mfolder := some x } l
    else if a = bs "-V" ∨ a = bs "--version" then .error (.exit 0)
    else
      match optFlag o a with
      | some o => parseOpts o l
      | none =>
        if a = bs "--" then .ok (o, l)
        else if a.head? = some 0x2d then .error (.exit 3)
        else .ok (o, a :: l)

/-- `if (test) x = val`, for an `x` that was `old` (mairix.c:675-704). -/
def overrideBy (test val old : Option Text) : Option Text := if test.isSome then val else old

/-- The environment overrides the file, and `-o` the environment (mairix.c:675-704); the format of the output (mairix.c:724-728). The folders in maildir format are asked for under another name than
that tested. -/
def override (e : Env) (o : Opts) (rc : Rc) : Rc :=
  { rc with
    base := overrideBy (e.get (bs "MAIRIX_FOLDER_BASE")) (e.get (bs "MAIRIX_FOLDER_BASE")) rc.base
    maildirs := overrideBy (e.get (bs "MAIRIX_MAILDIR_FOLDERS")) (e.get (bs "MAIRIX_MAIDIR_FOLDERS")) rc.maildirs
    mhs := overrideBy (e.get (bs "MAIRIX_MH_FOLDERS")) (e.get (bs "MAIRIX_MH_FOLDERS")) rc.mhs
    mboxen := overrideBy (e.get (bs "MAIRIX_MBOXEN")) (e.get (bs "MAIRIX_MBOXEN")) rc.mboxen
    mfolder := overrideBy o.mfolder o.mfolder (overrideBy (e.get (bs "MAIRIX_MFOLDER")) (e.get (bs "MAIRIX_MFOLDER")) rc.mfolder)
    database := overrideBy (e.get (bs "MAIRIX_DATABASE")) (e.get (bs "MAIRIX_DATABASE")) rc.database
    format := if o.raw then .raw else if o.excerpt then .excerpt else rc.format }

/-- What mairix then does (mairix.c:735-790), with the settings that matter for it. -/
inductive Job where
  /-- dump the database -/
  | dump (database : Text)
  /-- search: the settings of folders, the results folder (as given), its format, and the search expressions -/
  | search (c : Config) (database mfolder : Text) (format : OutFormat) (threads augment hardlinks sortByDate : Bool) (exprs : List Text)
  /-- build or update the index. The IMAP folders are those after the check of mairix.c:786-789. -/
  | index (c : Config) (database : Text) (imaps : Option Text) (purge fast integrity : Bool)

/-- The job that is done with these options and settings, the database being locked (mairix.c:706-805). -/
def jobOf (o : Opts) (exprs : List Text) (rc : Rc) : Res Job :=
  match rc.base, rc.database with
  | none, _ => .error (.exit 2)
  | some _, none => .error (.exit 2)
  | some base, some database =>
    let c : Config := ⟨base, rc.maildirs, rc.mhs, rc.mboxen, rc.omitted, rc.followLinks⟩
    if o.dump then .ok (.dump database)
    else if o.search ∨ exprs ≠ [] then
      match rc.mfolder with
      | some m => .ok (.search c database m rc.format o.threads o.augment o.hardlinks rc.sortByDate exprs)
      | none =>
        if rc.format = .raw ∨ rc.format = .excerpt then .ok (.search c database [] rc.format o.threads o.augment o.hardlinks rc.sortByDate exprs)
        else .error (.exit 2)
    else if rc.imapPipe.isSome ∧ rc.imapServer.isSome then .error (.exit 2)
    else
      let imaps := if rc.imapPipe.isSome ∨ rc.imapServer.isSome then rc.imaps else none
      if rc.maildirs.isNone ∧ rc.mhs.isNone ∧ rc.mboxen.isNone ∧ imaps.isNone then .error (.exit 2)
      else .ok (.index c database imaps o.purge o.fast (o.integrity && !rc.skipChecks))

/-- `main` up to the job (mairix.c:537-805): `files` are the contents of files that can be read. -/
def mainJob (e : Env) (files : Text → Option Text) (argv : List Text) : Res Job := do
  let (o, exprs) ← parseOpts {} argv
  if o.help then .error (.exit 0)
  else do
    let rc ← parseRcFile e (files (rcFileName e o.rcFile))
    jobOf o exprs (override e o rc)

end Mairix
