import Verif.Model.Rc
import Verif.Spec.Expand

/-!
# What a configuration file means (specification, after mairixrc(5))
-/

namespace Mairix.Spec

/-- The settings that have one value. -/
inductive SetKey where
  | base | mfolder | database | imapServer | imapPipe | imapUsername | imapPassword
  deriving DecidableEq, Repr

/-- The settings that are lists, written on one line or on many. -/
inductive ListKey where
  | maildir | mh | mbox | imap | omit
  deriving DecidableEq, Repr

/-- The settings that are there or not. -/
inductive FlagKey where
  | nochecks | followMboxSymlinks | sortDate
  deriving DecidableEq, Repr

def SetKey.name : SetKey → Text
  | .base => bs "base="
  | .mfolder => bs "mfolder="
  | .database => bs "database="
  | .imapServer => bs "imap_server="
  | .imapPipe => bs "imap_pipe="
  | .imapUsername => bs "imap_username="
  | .imapPassword => bs "imap_password="

def ListKey.name : ListKey → Text
  | .maildir => bs "maildir="
  | .mh => bs "mh="
  | .mbox => bs "mbox="
  | .imap => bs "imap="
  | .omit => bs "omit="

def FlagKey.name : FlagKey → Text
  | .nochecks => bs "nochecks"
  | .followMboxSymlinks => bs "follow_mbox_symlinks"
  | .sortDate => bs "sort=date+"

def formatName : OutFormat → Text
  | .maildir => bs "maildir"
  | .mh => bs "mh"
  | .mbox => bs "mbox"
  | .raw => bs "raw"
  | .excerpt => bs "excerpt"
  | .imap => bs "imap"

/-- A line of the file. -/
inductive RcItem where
  | blank
  | comment (t : Text)
  | set (k : SetKey) (v : Text)
  | list (k : ListKey) (v : Text)
  | flag (k : FlagKey)
  | format (v : Text)
  deriving DecidableEq, Repr

/-- Where the documentation says nothing else, a value consists of any characters; the code ends it at these. -/
def PlainValue (v : Text) : Prop := ∀ c ∈ v, c ∉ bs "#!;%"

/-- The line as text, without its end: the names are in upper or lower case, and blanks may precede them. -/
inductive RcItem.Writes : RcItem → Text → Prop
  | blank {t} : (∀ c ∈ t, isSpace c = true) → Writes .blank t
  | comment {t} : Writes (.comment t) (bs "#" ++ t)
  | set {k v ind w} : (∀ c ∈ ind, isSpace c = true) → lower w = k.name → PlainValue v → Writes (.set k v) (ind ++ w ++ v)
  | list {k v ind w} : (∀ c ∈ ind, isSpace c = true) → lower w = k.name → PlainValue v → Writes (.list k v) (ind ++ w ++ v)
  | flag {k v ind w} : (∀ c ∈ ind, isSpace c = true) → lower w = k.name → PlainValue v → Writes (.flag k) (ind ++ w ++ v)
  | format {v ind w} : (∀ c ∈ ind, isSpace c = true) → lower w = bs "mformat=" → PlainValue v → Writes (.format v) (ind ++ w ++ v)

/-- A line that is not too long and has no NUL or newline. -/
def LineOk (t : Text) : Prop := t.length ≤ 4091 ∧ 0 ∉ t ∧ 0x0a ∉ t

/-- The whole file: lines, the last of which may lack its end. -/
inductive WritesRc : List RcItem → Text → Prop
  | nil : WritesRc [] []
  | last {i t} : i.Writes t → LineOk t → t ≠ [] → WritesRc [i] t
  | line {i t is r} : i.Writes t → LineOk t → WritesRc is r → WritesRc (i :: is) (t ++ 0x0a :: r)

/-- The setting of one value in the outcome. -/
def SetKey.of (rc : Rc) : SetKey → Option Text
  | .base => rc.base
  | .mfolder => rc.mfolder
  | .database => rc.database
  | .imapServer => rc.imapServer
  | .imapPipe => rc.imapPipe
  | .imapUsername => rc.imapUsername
  | .imapPassword => rc.imapPassword

def ListKey.of (rc : Rc) : ListKey → Option Text
  | .maildir => rc.maildirs
  | .mh => rc.mhs
  | .mbox => rc.mboxen
  | .imap => rc.imaps
  | .omit => rc.omitted

def FlagKey.of (rc : Rc) : FlagKey → Bool
  | .nochecks => rc.skipChecks
  | .followMboxSymlinks => rc.followLinks
  | .sortDate => rc.sortByDate

/-- The values that the lines give for a setting, in order. -/
def setValues (k : SetKey) (is : List RcItem) : List Text :=
  is.filterMap fun | .set k' v => if k' = k then some v else none | _ => none

def listValues (k : ListKey) (is : List RcItem) : List Text :=
  is.filterMap fun | .list k' v => if k' = k then some v else none | _ => none

def formatValues (is : List RcItem) : List Text := is.filterMap fun | .format v => some v | _ => none

/-- The texts joined with colons; nothing if there are none. -/
def colonJoined (l : List Text) : Option Text := if l = [] then none else some (List.intercalate (bs ":") l)

/-- The texts of one list stand for those of the other. -/
inductive AllStand (e : Env) : List Text → List Text → Prop
  | nil : AllStand e [] []
  | cons {v r vs rs} : StandsFor e v r → AllStand e vs rs → AllStand e (v :: vs) (r :: rs)

/-- The settings `rc` are those that the lines mean: of several lines for a setting with one value the last counts, the lists of several lines are joined, references to the
environment are replaced. -/
structure RcMeans (e : Env) (is : List RcItem) (rc : Rc) : Prop where
  set : ∀ k, ∃ rs, AllStand e (setValues k is) rs ∧ k.of rc = rs.getLast?
  list : ∀ k, ∃ rs, AllStand e (listValues k is) rs ∧ k.of rc = colonJoined rs
  flag : ∀ k, k.of rc = true ↔ RcItem.flag k ∈ is
  format : (formatValues is = [] ∧ rc.format = .maildir) ∨ ∃ v r, (formatValues is).getLast? = some v ∧ StandsFor e v r ∧ lower r = formatName rc.format

/-- Every format is one of those there are. -/
def FormatsOk (e : Env) (is : List RcItem) : Prop := ∀ v ∈ formatValues is, ∃ f r, StandsFor e v r ∧ lower r = formatName f

end Mairix.Spec

namespace Mairix.Spec

/-- The options that have no argument, but for help and version. -/
inductive OptFlag where
  | threads | augment | purge | dump | raw | excerpt | hardlinks | noChecks | unlock | fast | verbose
  deriving DecidableEq, Repr

/-- How they are written (mairix(1)). -/
def OptFlag.forms : OptFlag → List Text
  | .threads => [bs "-t", bs "--threads"]
  | .augment => [bs "-a", bs "--augment"]
  | .purge => [bs "-p", bs "--purge"]
  | .dump => [bs "-d", bs "--dump"]
  | .raw => [bs "-r", bs "--raw-output"]
  | .excerpt => [bs "-x", bs "--excerpt-output"]
  | .hardlinks => [bs "-H", bs "--force-hardlinks"]
  | .noChecks => [bs "-Q", bs "--no-integrity-checks"]
  | .unlock => [bs "--unlock"]
  | .fast => [bs "-F", bs "--fast-index"]
  | .verbose => [bs "-v", bs "--verbose"]

/-- An option of the command line. -/
inductive OptItem where
  | flag (f : OptFlag)
  | rcFile (x : Text)
  | mfolder (x : Text)
  deriving DecidableEq, Repr

/-- The words of the command line for an option. -/
inductive OptItem.Words : OptItem → List Text → Prop
  | flag {f w} : w ∈ f.forms → Words (.flag f) [w]
  | rcFile {w x} : w ∈ [bs "-f", bs "--rcfile"] → Words (.rcFile x) [w, x]
  | mfolder {w x} : w ∈ [bs "-o", bs "--mfolder"] → Words (.mfolder x) [w, x]

/-- A command line: options in any order, then search expressions, the first of which does not begin with `-` unless `--` precedes it. -/
inductive CommandLine : List OptItem → List Text → List Text → Prop
  | none : CommandLine [] [] []
  | exprs {x xs} : x.head? ≠ some 0x2d → CommandLine [] (x :: xs) (x :: xs)
  | dashes {xs} : CommandLine [] xs (bs "--" :: xs)
  | opt {i ws is xs argv} : OptItem.Words i ws → CommandLine is xs argv → CommandLine (i :: is) xs (ws ++ argv)

/-- The arguments of the options `-f` and `-o`. -/
def rcFilesOf (is : List OptItem) : List Text := is.filterMap fun | .rcFile x => some x | _ => none
def mfoldersOf (is : List OptItem) : List Text := is.filterMap fun | .mfolder x => some x | _ => none

/-- The first of these values that there is. -/
def firstOf : List (Option Text) → Option Text
  | [] => none
  | none :: l => firstOf l
  | some x :: _ => some x

end Mairix.Spec
