import Verif.Model.Imap

/-!
# What an IMAP server does (RFC 3501, sections 6 and 7), as far as mairix uses it

The state of a server are its mailboxes and which one is selected.  `Conforms` says how commands change it and what the answers say;
the answers may have further lines, in any place, and further attributes, in any order.
-/

namespace Mairix.Spec

/-- A message on the server. -/
structure MailMsg where
  uid : Nat
  flags : List Text
  body : Text
  deriving DecidableEq

/-- A mailbox. -/
structure Box where
  validity : Nat
  msgs : List MailMsg
  deriving DecidableEq

/-- A server: its mailboxes by name, and the selected one with whether it may be changed. -/
structure Server where
  boxes : Text → Option Box
  selected : Option (Text × Bool)

/-- A server with another mailbox under a name. -/
def Server.put (s : Server) (f : Text) (b : Box) : Server := { s with boxes := fun g => if g = f then some b else s.boxes g }

/-! ## Answers -/

mutual
/-- No NUL bytes in atoms. -/
def NoNul : ImapTok → Prop
  | .atom s => (0 : UInt8) ∉ s
  | .string _ => True
  | .list l => NoNuls l
  | .sqlist l => NoNuls l

/-- No NUL bytes in atoms. -/
def NoNuls : List ImapTok → Prop
  | [] => True
  | t :: ts => NoNul t ∧ NoNuls ts
end

/-- An answer is a number of lines and a last one that says how it went; each begins with an atom and has at least one more item, and
there are no NUL bytes in atoms. -/
def Answer (status : Text) (body : List ImapLine) (r : List ImapLine) : Prop :=
  ∃ last rest, r = body ++ [last] ∧ last.items = .atom status :: rest ∧ (0 : UInt8) ∉ status ∧
    ∀ l ∈ body, NoNuls l.items ∧ ∃ a t more, l.items = .atom a :: t :: more

/-- `* OK [UIDVALIDITY v …] …` -/
def ValidityLine (v : Text) (l : ImapLine) : Prop :=
  ∃ more rest, l.items = .atom (bs "OK") :: .sqlist (.atom (bs "UIDVALIDITY") :: .atom v :: more) :: rest

/-- `* n EXISTS` -/
def ExistsLine (n : Text) (l : ImapLine) : Prop := ∃ rest, l.items = .atom n :: .atom (bs "EXISTS") :: rest

/-- The answer to SELECT or EXAMINE for a mailbox: what it says about UIDVALIDITY and the number of messages is true, and it says so. -/
def SelectAnswer (b : Box) (r : List ImapLine) : Prop :=
  ∃ body, Answer (bs "OK") body r ∧
    (∃ l ∈ body, ValidityLine (digits b.validity) l) ∧ (∀ l ∈ body, ∀ v, ValidityLine v l → v = digits b.validity) ∧
    (∃ l ∈ body, ExistsLine (digits b.msgs.length) l) ∧ (∀ l ∈ body, ∀ n, ExistsLine n l → n = digits b.msgs.length)

/-- Any other answer. -/
def Refused (r : List ImapLine) : Prop := ∃ status body, Answer status body r ∧ status ≠ bs "OK"

/-- `NO [TRYCREATE] …` -/
def Trycreate (r : List ImapLine) : Prop :=
  ∃ body last more rest, r = body ++ [last] ∧ last.items = .atom (bs "NO") :: .sqlist (.atom (bs "TRYCREATE") :: more) :: rest

/-- The attributes of a FETCH response, in pairs. -/
def flatAttrs : List (Text × ImapTok) → List ImapTok
  | [] => []
  | (k, v) :: l => .atom k :: v :: flatAttrs l

/-- The names of attributes that mairix asks for. -/
def ownNames : List Text := [bs "UID", bs "FLAGS", bs "BODY[]"]

/-- `* n FETCH (…)` with these attributes.  No value is an atom that is the name of an attribute. -/
def FetchLine (pairs : List (Text × ImapTok)) (l : ImapLine) : Prop :=
  (∃ n more, l.items = .atom n :: .atom (bs "FETCH") :: .list (flatAttrs pairs) :: more) ∧
  ∀ p ∈ pairs, ∀ a, p.2 = .atom a → a ∉ ownNames

/-- What the attributes say about a message is true. -/
def TrueOf (m : MailMsg) (pairs : List (Text × ImapTok)) : Prop :=
  ∀ p ∈ pairs, (p.1 = bs "UID" → p.2 = .atom (digits m.uid)) ∧ (p.1 = bs "FLAGS" → p.2 = .list (m.flags.map .atom)) ∧
    (p.1 = bs "BODY[]" → p.2 = .string m.body)

/-- Another line: it is no FETCH response, or one without a UID. -/
def OtherLine (l : ImapLine) : Prop :=
  (∃ a t more, l.items = .atom a :: t :: more ∧ t ≠ .atom (bs "FETCH")) ∨ ∃ pairs, FetchLine pairs l ∧ ∀ p ∈ pairs, p.1 ≠ bs "UID"

/-- The lines have a response for each of the messages, and other lines between them. -/
inductive Reports (about : MailMsg → ImapLine → Prop) : List MailMsg → List ImapLine → Prop
  | nil : Reports about [] []
  | other {ms ls l} : OtherLine l → Reports about ms ls → Reports about ms (l :: ls)
  | msg {m ms ls l} : about m l → Reports about ms ls → Reports about (m :: ms) (l :: ls)

/-- A response with the UID and the flags of a message, and possibly more. -/
def FlagsLine (m : MailMsg) (l : ImapLine) : Prop :=
  ∃ pairs, FetchLine pairs l ∧ TrueOf m pairs ∧ (∃ p ∈ pairs, p.1 = bs "UID") ∧ ∃ p ∈ pairs, p.1 = bs "FLAGS"

/-- The answer to `UID FETCH 1:* FLAGS`: the messages may be reported in any order. -/
def ListAnswer (b : Box) (r : List ImapLine) : Prop := ∃ body ms, Answer (bs "OK") body r ∧ ms.Perm b.msgs ∧ Reports FlagsLine ms body

/-- The answer to `UID FETCH u BODY.PEEK[]`: every line is true of some message of the mailbox, or says nothing about one; if there is a
message with this UID, one line has it. -/
def BodyAnswer (b : Box) (u : Nat) (r : List ImapLine) : Prop :=
  ∃ body, Answer (bs "OK") body r ∧
    (∀ l ∈ body, OtherLine l ∨ ∃ m ∈ b.msgs, ∃ pairs, FetchLine pairs l ∧ TrueOf m pairs) ∧
    ∀ m ∈ b.msgs, m.uid = u → ∃ l ∈ body, ∃ pairs, FetchLine pairs l ∧ TrueOf m pairs ∧ (∃ p ∈ pairs, p.1 = bs "UID") ∧
      ∃ p ∈ pairs, p.1 = bs "BODY[]"

/-! ## Commands -/

/-- `\Deleted` -/
def deletedFlag : Text := bs "\\Deleted"

/-- All messages get the flag `\Deleted`. -/
def Box.deleteAll (b : Box) : Box := { b with msgs := b.msgs.map fun m => { m with flags := m.flags ++ [deletedFlag] } }

/-- The messages with the flag `\Deleted` are removed. -/
def Box.expunge (b : Box) : Box := { b with msgs := b.msgs.filter fun m => !m.flags.contains deletedFlag }

/-- The flags of a message as a server has them. -/
def flagNames (fl : MsgFlags) : List Text :=
  (if fl.seen then [bs "\\Seen"] else []) ++ (if fl.answered then [bs "\\Answered"] else []) ++ (if fl.flagged then [bs "\\Flagged"] else [])

/-- There are no NUL bytes in flags. -/
def Box.Plain (b : Box) : Prop := ∀ m ∈ b.msgs, ∀ a ∈ m.flags, (0 : UInt8) ∉ a

/-- The way `exec` to run commands belongs to a server; `view` is the state of the server. -/
structure Conforms {σ : Type} (exec : Exec σ) (view : σ → Server) : Prop where
  /-- SELECT and EXAMINE: if they fail, no mailbox is selected afterwards. -/
  select : ∀ c f w, ∃ ls c', exec c [.atom (if w then bs "SELECT" else bs "EXAMINE"), .string f] = .ok (some ls, c') ∧
    (∀ b, (view c).boxes f = some b → SelectAnswer b ls ∧ view c' = { view c with selected := some (f, w) }) ∧
    ((view c).boxes f = none → Refused ls ∧ view c' = { view c with selected := none })
  list : ∀ c f w b, (view c).selected = some (f, w) → (view c).boxes f = some b → b.Plain →
    ∃ ls c', exec c [.atom (bs "UID"), .atom (bs "FETCH"), .atom (bs "1:*"), .atom (bs "FLAGS")] = .ok (some ls, c') ∧
      ListAnswer b ls ∧ view c' = view c
  fetch : ∀ c f w b u, (view c).selected = some (f, w) → (view c).boxes f = some b →
    ∃ ls c', exec c [.atom (bs "UID"), .atom (bs "FETCH"), .atom (digits u), .atom (bs "BODY.PEEK[]")] = .ok (some ls, c') ∧
      BodyAnswer b u ls ∧ view c' = view c
  store : ∀ c f b, (view c).selected = some (f, true) → (view c).boxes f = some b →
    ∃ r c', exec c [.atom (bs "STORE"), .atom (bs "1:*"), .atom (bs "+FLAGS"), .atom deletedFlag] = .ok (r, c') ∧
      view c' = (view c).put f b.deleteAll
  expunge : ∀ c f b, (view c).selected = some (f, true) → (view c).boxes f = some b →
    ∃ r c', exec c [.atom (bs "EXPUNGE")] = .ok (r, c') ∧ view c' = (view c).put f b.expunge
  /-- UID COPY appends a message with the same flags and body, and a UID of its own, if there is one with this UID.  If there is none
the server may or may not complain about a mailbox that does not exist. -/
  copy : ∀ c f w b u g, (view c).selected = some (f, w) → (view c).boxes f = some b →
    ∃ ls c', exec c [.atom (bs "UID"), .atom (bs "COPY"), .atom (digits u), .string g] = .ok (some ls, c') ∧
      (∀ d, (view c).boxes g = some d → (∃ body, Answer (bs "OK") body ls) ∧
        ∃ new, view c' = (view c).put g { d with msgs := d.msgs ++ new } ∧
          new.map (fun m => (m.flags, m.body)) = (b.msgs.filter (·.uid == u)).map fun m => (m.flags, m.body)) ∧
      ((view c).boxes g = none → (Trycreate ls ∨ b.msgs.filter (·.uid == u) = [] ∧ ∃ body, Answer (bs "OK") body ls) ∧ view c' = view c)
  create : ∀ c g, ∃ r c', exec c [.atom (bs "CREATE"), .string g] = .ok (r, c') ∧
    ((view c).boxes g = none → ∃ v, view c' = (view c).put g ⟨v, []⟩)
  /-- APPEND -/
  append : ∀ c g fl d, ∃ ls c', exec c [.atom (bs "APPEND"), .string g, .list (flagToks fl), .string d] = .ok (some ls, c') ∧
    (∀ b, (view c).boxes g = some b → (∃ body, Answer (bs "OK") body ls) ∧
      ∃ u, view c' = (view c).put g { b with msgs := b.msgs ++ [⟨u, flagNames fl, d⟩] }) ∧
    ((view c).boxes g = none → Trycreate ls ∧ view c' = view c)

/-! ## Listing, fetching and storing -/

/-- What is remembered about the selected mailbox is true. -/
def Coherent {σ : Type} (view : σ → Server) (s : Sess σ) : Prop :=
  ∀ x, s.sel = some x → (view s.conn).selected = some (x.name, x.writable) ∧
    ∃ b, (view s.conn).boxes x.name = some b ∧ x.uidvalidity = digits b.validity

/-- The name of a message on a server in the index: UIDVALIDITY, UID and folder. -/
def mailName (v u : Nat) (f : Text) : Text := digits v ++ bs ":" ++ digits u ++ bs ":" ++ f

/-- The messages of a mailbox that are not deleted, by name. -/
def Server.names (s : Server) (f : Text) : List Text :=
  match s.boxes f with
  | none => []
  | some b => (b.msgs.filter fun m => !m.flags.contains deletedFlag).map fun m => mailName b.validity m.uid f

/-- Flags and bodies of the messages in a mailbox. -/
def Server.contents (s : Server) (f : Text) : List (List Text × Text) :=
  match s.boxes f with
  | none => []
  | some b => b.msgs.map fun m => (m.flags, m.body)

/-- A hit of a search: a message in a file of its own or in an mbox, or one on the server. -/
inductive FoundMail where
  | file (data : Text) (fl : MsgFlags)
  | mbox (data : Text) (fl : MsgFlags)
  | remote (v u : Nat) (f : Text)

/-- What is known of it. -/
def FoundMail.hit : FoundMail → ImapHit
  | .file d fl => .file (some d) fl
  | .mbox d fl => .mbox (some d) d.length fl
  | .remote v u f => .imap (mailName v u f)

/-- The message that was found, if it is still there. -/
def FoundMail.mail (s : Server) : FoundMail → List (List Text × Text)
  | .file d fl => [(flagNames fl, d)]
  | .mbox d fl => [(flagNames fl, d)]
  | .remote v u f =>
    match s.boxes f with
    | none => []
    | some b => if b.validity = v then (b.msgs.filter (·.uid == u)).map fun m => (m.flags, m.body) else []

end Mairix.Spec
