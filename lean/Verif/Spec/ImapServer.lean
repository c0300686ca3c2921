import Verif.Spec.Imap

/-!
# A server

A server that conforms (`Proofs/ImapServer`): it serves to show that there is one, and in the counterexamples.
-/

namespace Mairix.Spec

/-- An answer. -/
def reply (status : Text) (body : List (List ImapTok)) : List ImapLine :=
  body.map (fun i => ⟨.untagged, i⟩) ++ [⟨.tagged, [.atom status]⟩]

/-- `NO [TRYCREATE]` -/
def replyTrycreate : List ImapLine := [⟨.tagged, [.atom (bs "NO"), .sqlist [.atom (bs "TRYCREATE")]]⟩]

/-- A UID greater than all others. -/
def Box.freshUid (b : Box) : Nat := (b.msgs.map (·.uid)).foldl max 0 + 1

/-- `n` more messages from the UID `u` on. -/
def renumber : Nat → List MailMsg → List MailMsg
  | _, [] => []
  | u, m :: ms => { m with uid := u } :: renumber (u + 1) ms

/-- SELECT and EXAMINE -/
def Server.doSelect (s : Server) (f : Text) (w : Bool) : List ImapLine × Server :=
  match s.boxes f with
  | none => (reply (bs "NO") [], { s with selected := none })
  | some b =>
    (reply (bs "OK") [[.atom (bs "FLAGS"), .list []], [.atom (digits b.msgs.length), .atom (bs "EXISTS")],
      [.atom (bs "OK"), .sqlist [.atom (bs "UIDVALIDITY"), .atom (digits b.validity)]]], { s with selected := some (f, w) })

/-- The selected mailbox. -/
def Server.current (s : Server) : Option (Text × Bool × Box) := do
  let (f, w) ← s.selected
  let b ← s.boxes f
  some (f, w, b)

/-- `UID FETCH 1:* FLAGS` -/
def Box.flagLines (b : Box) : List (List ImapTok) :=
  b.msgs.map fun m => [.atom (bs "1"), .atom (bs "FETCH"), .list [.atom (bs "FLAGS"), .list (m.flags.map .atom), .atom (bs "UID"), .atom (digits m.uid)]]

/-- `UID FETCH u BODY.PEEK[]` -/
def Box.bodyLines (b : Box) (u : Nat) : List (List ImapTok) :=
  (b.msgs.filter (·.uid == u)).map fun m =>
    [.atom (bs "1"), .atom (bs "FETCH"), .list [.atom (bs "UID"), .atom (digits m.uid), .atom (bs "BODY[]"), .string m.body]]

/-- FETCH with lines for the selected mailbox. -/
def Server.doFetch (s : Server) (lines : Box → List (List ImapTok)) : List ImapLine × Server :=
  match s.current with
  | none => (reply (bs "BAD") [], s)
  | some (_, _, b) => (reply (bs "OK") (lines b), s)

/-- A change of the selected mailbox. -/
def Server.doChange (s : Server) (change : Box → Box) : List ImapLine × Server :=
  match s.current with
  | some (f, true, b) => (reply (bs "OK") [], s.put f (change b))
  | _ => (reply (bs "BAD") [], s)

/-- UID COPY -/
def Server.doCopy (s : Server) (u : Nat) (g : Text) : List ImapLine × Server :=
  match s.current with
  | none => (reply (bs "BAD") [], s)
  | some (_, _, b) =>
    match s.boxes g with
    | none => (replyTrycreate, s)
    | some d => (reply (bs "OK") [], s.put g { d with msgs := d.msgs ++ renumber d.freshUid (b.msgs.filter (·.uid == u)) })

/-- CREATE -/
def Server.doCreate (s : Server) (g : Text) : List ImapLine × Server :=
  match s.boxes g with
  | none => (reply (bs "OK") [], s.put g ⟨1, []⟩)
  | some _ => (reply (bs "NO") [], s)

/-- The text of an atom. -/
def atomText : ImapTok → Option Text
  | .atom a => some a
  | _ => none

/-- APPEND -/
def Server.doAppend (s : Server) (g : Text) (fl : List ImapTok) (d : Text) : List ImapLine × Server :=
  match s.boxes g with
  | none => (replyTrycreate, s)
  | some b => (reply (bs "OK") [], s.put g { b with msgs := b.msgs ++ [⟨b.freshUid, fl.filterMap atomText, d⟩] })

/-- The commands of the server. -/
def Server.run (s : Server) : List ImapTok → List ImapLine × Server
  | [.atom a, .string f] =>
    if a = bs "SELECT" then s.doSelect f true else if a = bs "EXAMINE" then s.doSelect f false
    else if a = bs "CREATE" then s.doCreate f else (reply (bs "BAD") [], s)
  | [.atom a, .atom b, .atom c, .atom d] =>
    if a = bs "UID" ∧ b = bs "FETCH" then
      if d = bs "FLAGS" then s.doFetch Box.flagLines else s.doFetch fun x => x.bodyLines (decimal c)
    else if a = bs "STORE" ∧ d = deletedFlag then s.doChange Box.deleteAll else (reply (bs "BAD") [], s)
  | [.atom a] => if a = bs "EXPUNGE" then s.doChange Box.expunge else (reply (bs "BAD") [], s)
  | [.atom a, .atom b, .atom c, .string g] =>
    if a = bs "UID" ∧ b = bs "COPY" then s.doCopy (decimal c) g else (reply (bs "BAD") [], s)
  | [.atom a, .string g, .list fl, .string d] => if a = bs "APPEND" then s.doAppend g fl d else (reply (bs "BAD") [], s)
  | _ => (reply (bs "BAD") [], s)

/-- Commands over a connection to the server. -/
def serve : Exec Server := fun s cmd => .ok (some (s.run cmd).1, (s.run cmd).2)

end Mairix.Spec
