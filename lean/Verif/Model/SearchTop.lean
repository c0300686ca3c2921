import Verif.Model.Disk
import Verif.Model.Stored
import Verif.Model.DbFile
import Verif.Model.Search

/-!
# A whole search with a results folder: search.c:1494-1551
-/

namespace Mairix

/-- The kinds of results folders (those on IMAP servers: see Model/Imap). -/
inductive FolderFormat where
  | maildir
  | mh
  | mbox
  deriving DecidableEq, Repr

/-- What is there when the program ends, and what ended it early. -/
structure Ended where
  disk : Disk
  fault : Option Fault
  deriving Repr

/-- What is found of a result besides its entry (search.c:1097-1113, 1132-1145, 1168-1180). `imap` is for messages on servers. -/
def sourceOf (md5 : Text → List UInt8) (disc : Disc) (imap : Text → Option Text) (raw : RawDb) (view : ReadDb) (m : DbMsg) : Res Source :=
  if m.type = DB_MSG_FILE then .ok ⟨[], none⟩
  else if m.type = DB_MSG_IMAP then .ok ⟨[], imap m.path⟩
  else if m.type = DB_MSG_MBOX then do
    let o ← mboxMsgData md5 disc raw view m
    .ok ⟨view.mboxPaths.getD m.mbix [], o⟩
  else .ok ⟨[], none⟩

/-- The numbers of the results with their database entries (search.c:1084-1186), and what else is found of them. In the code a result is looked up after those before it are written; here all of them are looked up first. -/
def resultEntries (view : ReadDb) (source : DbMsg → Res Source) : List Nat → Res (List (Nat × DbMsg × Source))
  | [] => .ok []
  | i :: l =>
    match view.msgs[i]? with
    | none => .error .outOfBounds
    | some m => do
      let s ← source m
      let r ← resultEntries view source l
      .ok ((i, m, s) :: r)

/-- What is appended to an mbox for a result (search.c:1161-1181): a file that can be read, a message that could be fetched, or one of an mbox with the right checksum. `data` tells what is in files. -/
def appendedFor (data : Text → Option Text) (m : DbMsg) (s : Source) : Option Found :=
  if m.type = DB_MSG_FILE then (data m.path).map (.file m.path)
  else if m.type = DB_MSG_IMAP then s.data.map .imap
  else if m.type = DB_MSG_MBOX then s.data.map (.mbox s.folder)
  else none

/-- Making the folder (search.c:1502-1522). Where this fails, a folder that is made in part is left out. -/
def makeFolder (format : FolderFormat) (dir : Text) (d : Disk) : Res Disk :=
  match format with
  | .maildir => maybeCreateMaildir d dir
  | .mh => ensureDir d dir
  | .mbox => .ok d

/-- Clearing the folder (search.c:1524-1543). -/
def clearResults (format : FolderFormat) (dir : Text) (d : Disk) : Disk :=
  match format with
  | .maildir => clearDir (clearDir d (dir ++ bs "/new") fun _ => true) (dir ++ bs "/cur") fun _ => true
  | .mh => clearDir d dir validMh
  | .mbox => d.unlink dir

/-- The results (search.c:1083-1186). -/
def fillFolder (format : FolderFormat) (dir : Text) (hard : Bool) (data : Text → Option Text) (d : Disk) (l : List (Nat × DbMsg × Source)) : Res Disk :=
  match format with
  | .maildir => deliverMaildir dir hard d l
  | .mh => deliverMh dir hard 0 d (l.map (·.2))
  | .mbox =>
    match d.write dir true (mboxOutput (l.filterMap fun x => appendedFor data x.2.1 x.2.2)) with
    | none => .error (.exit 1)
    | some d => .ok d

/-- `search_top` (search.c:1494-1551) for these kinds of folders. The mail is on `disc`, the results folder on `d`: that they are different is left to the check of C53. `data` tells what is in files. -/
def searchTop (scan : Text → Option (Option Int × Option Int)) (sort : List Nat → List Nat) (md5 : Text → List UInt8) (disc : Disc) (imap : Text → Option Text)
    (format : FolderFormat) (dir : Text) (threads augment hard sortByDate : Bool) (file : Text) (args : List Text) (d : Disk) : Ended :=
  match openDb file with
  | .error f => ⟨d, some f⟩
  | .ok raw =>
    match viewDb raw with
    | .error f => ⟨d, some f⟩
    | .ok view =>
      match makeFolder format dir d with
      | .error f => ⟨d, some f⟩
      | .ok d =>
        let d := if augment then d else clearResults format dir d
        match (do resultEntries view (sourceOf md5 disc imap raw view) (← doSearch scan sort view args threads sortByDate)) with
        | .error f => ⟨d, some f⟩
        | .ok l =>
          match fillFolder format dir hard disc.data d l with
          | .error f => ⟨d, some f⟩
          | .ok d => ⟨d, none⟩

end Mairix
