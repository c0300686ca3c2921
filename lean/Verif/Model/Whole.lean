import Verif.Model.Run
import Verif.Model.Folders
import Verif.Model.Mime
import Verif.Model.Regex
import Verif.Model.Dates

/-!
# A whole indexing run, from the configuration and the disk on: mairix.c:780-851, rfc822.c:1309-1486

Compressed files and IMAP folders are left out.
-/

namespace Mairix

/-- What is on the disk: what `stat` and `readdir` tell, and for each path the modification time, the size and the contents (`none` if it cannot be opened or mapped). `after` is what lies
in the memory behind data when they are mapped. Nothing changes while the program runs. -/
structure Disc where
  fs : Fs
  mtime : Text → Int
  size : Text → Nat
  data : Text → Option Text
  after : Text → Text

/-- `create_ro_mapping` (rfc822.c:1309-1326, 1398-1428). Where it fails before the length is set the length is taken not to be zero. -/
def Disc.map (d : Disc) (p : Text) : Mapping :=
  match d.fs.stat p with
  | none => .failed
  | some sb =>
    if d.size p = 0 then .empty
    else if sb.kind ≠ .regular then .failed
    else match d.data p with
      | none => .failed
      | some va => .data va

/-- What is known after `data_to_rfc822`: the message, and whether the end of a multipart is missing. Where the model of `data_to_rfc822` goes wrong nothing is known of the code; here this is like
a null pointer. -/
def outcome : Res (Option Rfc822 × MimeError) → Option Rfc822 × Bool
  | .ok (r, e) => (r, e == .missingEnd)
  | .error _ => (none, false)

/-- `make_rfc822` (rfc822.c:1463-1486). -/
def Disc.makeRfc822 (mktime : Nat → Nat → Nat → Int) (d : Disc) (p : Text) : Option Rfc822 :=
  match d.map p with
  | .data va => (outcome (parseMessage mktime va (d.after va))).1
  | _ => none

/-- `do_stat` (db.c:885-906) and `make_rfc822`. -/
def Disc.world (mktime : Nat → Nat → Nat → Int) (d : Disc) : World where
  stat p :=
    match d.fs.stat p with
    | none => .bad
    | some sb =>
      match sb.kind with
      | .regular => .file (d.mtime p) (d.size p)
      | .directory => .dir
      | .other => .bad
  read k p :=
    match k with
    | .file => d.makeRfc822 mktime p
    | .imap => none

/-- The same for mboxen, with the scanner for From lines. -/
def Disc.mboxWorld (mktime : Nat → Nat → Nat → Int) (md5 : Text → List UInt8) (d : Disc) : MboxWorld where
  contents := d.map
  parse t := outcome (parseMessage mktime t (d.after t))
  md5 := md5
  isFrom := fromCheck

/-- What an indexing run depends on, besides the database file: the configuration, the disk, the time zone, the options, and what the C library leaves open (see `Run`). `depth` bounds the
depth of directories, `fuel` is that of `Run`. -/
structure Indexing where
  config : Config
  disc : Disc
  fast : Bool
  purge : Bool
  checks : Bool
  freshKey : Nat
  sortListed : List Listed → List Listed
  sortExtant : List Extant → List Extant
  sortTexts : List Text → List Text
  sortTokens : List (Text × Nat) → List (Text × Nat)
  junkHighest : Text → Nat
  junkIdx : Nat
  junkMsg : Nat → Msg
  depth : Nat
  fuel : Nat

/-- What is found for the configuration (mairix.c:795-803, 833). -/
def Indexing.run (mktime : Nat → Nat → Nat → Int) (md5 : Text → List UInt8) (x : Indexing) : Res Run := do
  let listed ← listMessages x.disc.fs x.depth x.config
  let extant ← listMboxen x.disc.fs x.depth x.config
  .ok ⟨listed, extant, x.disc.world mktime, x.disc.mboxWorld mktime md5, x.fast, x.purge, x.checks, x.freshKey, x.sortListed, x.sortExtant, x.sortTexts, x.sortTokens,
    x.junkHighest, x.junkIdx, x.junkMsg, x.fuel⟩

/-- A whole indexing run (mairix.c:780-851): the database file afterwards. -/
def indexMail (hashfn : Nat → Text → Nat) (mktime : Nat → Nat → Nat → Int) (md5 : Text → List UInt8) (x : Indexing) (old : Option Text) : Res (Option Text) := do
  let r ← x.run mktime md5
  indexRun hashfn r old

/-- One run after the other. -/
def indexMails (hashfn : Nat → Text → Nat) (mktime : Nat → Nat → Nat → Int) (md5 : Text → List UInt8) : List Indexing → Option Text → Res (Option Text)
  | [], f => .ok f
  | x :: xs, f => do
    let f ← indexMail hashfn mktime md5 x f
    indexMails hashfn mktime md5 xs f

/-- `mktime` as `parse_rfc822_date` calls it (rfc822.c:978-982). -/
def Clock.dayTime (clk : Clock) (mday mon year : Nat) : Int := (clk.mktime ⟨year, mon, mday, 0, 0, 0, 0⟩).1

/-- `scan_date_string` as `find_date_matches_in_table` calls it (search.c:478). Where the model of it goes wrong nothing is known of the code; here this is like a date that it does not understand. -/
def Clock.scan (clk : Clock) (s : Text) : Option (Option Int × Option Int) :=
  match scanDateString clk s with
  | .ok r => r
  | .error _ => none

end Mairix
