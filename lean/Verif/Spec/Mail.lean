import Verif.Model.Run
import Verif.Spec.Update
import Verif.Spec.MboxUpdate

/-!
# What a search after indexing should find (specification)
-/

namespace Mairix.Spec

/-- Message number `i` of the opened database is the one found at `e`. -/
def IsAt (db : ReadDb) (i : Nat) (e : Listed) : Prop :=
  ∃ m, db.msgs[i]? = some m ∧ m.path = e.path ∧
    m.type = match e.kind with | .file => DB_MSG_FILE | .imap => DB_MSG_IMAP

/-- What is known of message `x` when searching is right for what is found at `e`: the words, the own
identifiers, the path, the date, the flags and, of a file, the size. -/
structure Describes (w : World) (e : Listed) (x : Info) : Prop where
  words : ∀ f v, v ∈ x.words f ↔ ∃ m, Reads w e m ∧ HasWord m f v
  ids : ∀ v, v ∈ x.ids ↔ ∃ m, Reads w e m ∧ HasId m true v
  path : x.path = some e.path
  date : ∀ m, Reads w e m → x.date = u32 m.hdrs.date
  size : ∀ t s, e.kind = .file → w.stat e.path = .file t s → x.size = s % 2 ^ 32
  seen : x.has .seen = true ↔ (∃ m, Reads w e m) ∧ MaildirFlag 0x53 e.path
  replied : x.has .replied = true ↔ (∃ m, Reads w e m) ∧ MaildirFlag 0x52 e.path
  flagged : x.has .flagged = true ↔ (∃ m, Reads w e m) ∧ MaildirFlag 0x46 e.path

/-- A file that had the same modification time (as far as 32 bits tell) in an earlier run had the same size
and text, and IMAP messages do not change. -/
structure TimesTell (rs : List Run) (r : Run) : Prop where
  file : ∀ r' ∈ rs, ∀ p t s t' s', r'.world.stat p = .file t s → r.world.stat p = .file t' s' → u32 t = u32 t' →
    s = s' ∧ r'.world.read .file p = r.world.read .file p
  imap : ∀ r' ∈ rs, ∀ p, r'.world.read .imap p = r.world.read .imap p

/-- What is known of message `x` when searching is right for a text parsed to `r8`. -/
structure DescribesText (r8 : Option Rfc822) (x : Info) : Prop where
  words : ∀ f v, v ∈ x.words f ↔ ∃ m, r8 = some m ∧ HasWord m f v
  ids : ∀ v, v ∈ x.ids ↔ ∃ m, r8 = some m ∧ HasId m true v
  hdrs : ∀ m, r8 = some m → x.date = u32 m.hdrs.date ∧ x.has .seen = m.hdrs.seen ∧ x.has .replied = m.hdrs.replied ∧
    x.has .flagged = m.hdrs.flagged

/-- In the run `r` the mbox at `p` held at the place noted in `m` a message as known from `x`. -/
def FoundInMbox (r : Run) (p : Text) (m : DbMsg) (x : Info) : Prop :=
  ∃ va, r.mboxWorld.contents p = .data va ∧ m.mtime + m.size ≤ va.length ∧ x.path = some p ∧ x.size = m.size ∧
    DescribesText (r.mboxWorld.parse (between va m.mtime (m.mtime + m.size))).1 x

/-- The database `db`, opened after the runs `hist` of which `r` is the last, agrees with the mail. -/
structure Agrees (hist : List Run) (r : Run) (db : ReadDb) (info : List Info) : Prop where
  /-- No message is there twice. -/
  once : ∀ i j e, IsAt db i e → IsAt db j e → i = j
  /-- Only messages listed in the last run are there, -/
  listed : ∀ i e, IsAt db i e → e ∈ r.listed
  /-- and all of them, as far as they are readable files or on an IMAP server. -/
  all : ∀ e ∈ r.listed, addable r.world e = true → ∃ i, IsAt db i e
  /-- Each is described as it was found in some run, where it had, unless the last run was a fast one, the same
  modification time as in the last run. -/
  entry : ∀ i e, IsAt db i e → ∃ r' ∈ hist, ∃ x, info[i]? = some x ∧ Describes r'.world e x ∧
    (r.fast = false → e.kind = .file → ∃ t s t' s', r'.world.stat e.path = .file t s ∧ r.world.stat e.path = .file t' s' ∧
      u32 t = u32 t')
  /-- All other messages are either dead or in an mbox found in the last run, and described as they were found there
  in some run. -/
  rest : ∀ (i : Nat) m, db.msgs[i]? = some m → (∃ e, IsAt db i e) ∨ m.type = DB_MSG_DEAD ∨
    (m.type = DB_MSG_MBOX ∧ ∃ p x, db.mboxPaths[m.mbix]? = some p ∧ info[i]? = some x ∧ (∃ e ∈ r.extant, e.path = p) ∧
      ∃ r' ∈ hist, FoundInMbox r' p m x)

end Mairix.Spec
