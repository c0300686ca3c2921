import Verif.Model.Message
import Verif.Model.Threading

/-!
# The database in memory: mairix.h:44-91, 189-265
-/

namespace Mairix

/-- `enum message_type` (mairix.h:44-50) together with the union `src` of `struct msgpath`
(mairix.h:63-75). Of a dead message nothing in `src` is used any more, so it is dropped here.
Times are `time_t`, i.e. possibly negative. -/
inductive Src where
  | dead
  | file (path : Text) (mtime : Int) (size : Nat)
  | mbox (fileIndex msgIndex : Nat)
  | imap (path : Text)
  deriving DecidableEq, Repr

/-- `struct msgpath` (mairix.h:63-91). `source_ft` is left out: it only decides whether a warning is
printed (db.c:1027). -/
structure Msg where
  src : Src
  date : Int
  tid : Nat
  seen : Bool
  replied : Bool
  flagged : Bool
  deriving DecidableEq, Repr

/-- An entry of the arrays `start`, `len` and `check_all` of a `struct mbox` (mairix.h:223-229).
`pos` is `none` as long as `start` and `len` have not been written. -/
structure MboxMsg where
  pos : Option (Nat × Nat)
  check : List UInt8
  deriving DecidableEq, Repr

/-- `struct mbox` (mairix.h:197-231). `msgs` are the first `n_msgs` entries of the arrays;
`newMsgs` is the list `new_msgs` of (start, len). `n_so_far` is only used while loading. -/
structure Mbox where
  path : Option Text
  fileMtime : Int
  fileSize : Nat
  currentMtime : Int
  currentSize : Nat
  nOldValid : Nat
  newMsgs : List (Nat × Nat)
  msgs : List MboxMsg
  deriving DecidableEq, Repr

/-- `struct database` (mairix.h:233-265). Not modelled: the allocated sizes, which grow as needed
(db.c:853-864), and the hash key, which enters through the hash function used. -/
structure Database where
  msgs : List Msg
  mboxen : List Mbox
  tables : Tables

/-- `new_database` (db.c:197-230): an empty database. -/
def newDatabase : Database :=
  { msgs := [], mboxen := [],
    tables := { to := newTable, cc := newTable, «from» := newTable, subject := newTable, body := newTable,
                attachmentName := newTable, msgIds := newTable } }

end Mairix
