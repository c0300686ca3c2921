import Verif.Model.Update
import Verif.Spec.Message

/-!
# What an index update must do (specification)
-/

namespace Mairix.Spec

/-- The two lists have the same length and `R` relates their elements one by one. -/
inductive Pairs {α β : Type} (R : α → β → Prop) : List α → List β → Prop
  | nil : Pairs R [] []
  | cons {a b l l'} : R a b → Pairs R l l' → Pairs R (a :: l) (b :: l')

/-- `c` orders like the usual lexicographic order of byte strings. -/
inductive Before : Text → Text → Prop
  | nil {c r} : Before [] (c :: r)
  | head {a b r s} : a < b → Before (a :: r) (b :: s)
  | tail {a r s} : Before r s → Before (a :: r) (a :: s)

/-- The order of a folder listing: files before IMAP messages, each by path. -/
def ListedBefore (a b : Listed) : Prop :=
  (a.kind = .file ∧ b.kind = .imap) ∨ (a.kind = b.kind ∧ Before a.path b.path)

/-- Where a message is found: kind and path, for a live message in a file of its own or on an IMAP
server. -/
def Place : Msg → Option Listed
  | { src := .file p _ _, .. } => some ⟨.file, p⟩
  | { src := .imap p, .. } => some ⟨.imap, p⟩
  | _ => none

/-- The modification time of the regular file at a path. -/
def modified (w : World) (p : Text) : Option Int :=
  match w.stat p with
  | .file t _ => some t
  | _ => none

/-- Whether an indexed message is still there unchanged, so that it stays: a file that is listed and has
the modification time noted (in fast mode: that is listed), an IMAP message that is listed, a message
among those found valid in an mbox that still exists. -/
def stays (w : World) (fast : Bool) (l : List Listed) (mboxen : List Mbox) (m : Msg) : Bool :=
  match m.src with
  | .file p mtime _ => decide (⟨.file, p⟩ ∈ l) && (fast || modified w p == some mtime)
  | .imap p => decide (⟨.imap, p⟩ ∈ l)
  | .mbox fi mi =>
    match mboxen[fi]? with
    | some mb => mb.path.isSome && decide (mi < mb.nOldValid)
    | none => false
  | .dead => false

/-- An indexed message after the update: unchanged if it stays, otherwise dead. -/
def aged (w : World) (fast : Bool) (l : List Listed) (mboxen : List Mbox) (m : Msg) : Msg :=
  if stays w fast l mboxen m then m else { m with src := .dead }

/-- The places of the messages that stay. -/
def keptPlaces (w : World) (fast : Bool) (l : List Listed) (mboxen : List Mbox) (msgs : List Msg) : List Listed :=
  (msgs.filter (stays w fast l mboxen)).filterMap Place

/-- What can be indexed: regular files, and IMAP messages. -/
def addable (w : World) (e : Listed) : Bool :=
  match e.kind with
  | .imap => true
  | .file => (modified w e.path).isSome

/-- The listed places that are new: not those of messages that stay. -/
def newPlaces (w : World) (fast : Bool) (l : List Listed) (mboxen : List Mbox) (msgs : List Msg) : List Listed :=
  l.filter fun e => decide (e ∉ keptPlaces w fast l mboxen msgs) && addable w e

/-- The message read from a place; not read are files with the name `.gitignore`. -/
def Reads (w : World) (e : Listed) (r : Rfc822) : Prop :=
  (¬ ∃ dir, e.path = dir ++ bs "/.gitignore") ∧ w.read e.kind e.path = some r

/-- The name of a Maildir message has the flag `c`: `c` is among the characters after `:2,`, where the
colon is the last one. -/
def MaildirFlag (c : UInt8) (path : Text) : Prop :=
  ∃ pre info, path = pre ++ bs ":2," ++ info ∧ 0x3a ∉ info ∧ c ∈ info

/-- `m` is a right entry for what is found at `e`. -/
structure IsEntry (w : World) (e : Listed) (m : Msg) : Prop where
  src : match e.kind with
    | .imap => m.src = .imap e.path
    | .file => ∃ mtime size, w.stat e.path = .file mtime size ∧ m.src = .file e.path mtime size
  read : ∀ r, Reads w e r → m.date = r.hdrs.date ∧
    (m.seen = true ↔ MaildirFlag 0x53 e.path) ∧ (m.replied = true ↔ MaildirFlag 0x52 e.path) ∧
    (m.flagged = true ↔ MaildirFlag 0x46 e.path)
  notRead : (∀ r, ¬ Reads w e r) → m.date = 0 ∧ m.seen = false ∧ m.replied = false ∧ m.flagged = false

end Mairix.Spec
