import Verif.Model.Tokenise

/-!
# A parsed message and its tokens: mairix.h:140-186, db.c:615-668
-/

namespace Mairix

/-- `struct headers` (mairix.h:163-181). A null pointer is `none`. -/
structure Headers where
  to : Option Text
  cc : Option Text
  «from» : Option Text
  subject : Option Text
  messageId : Option Text
  inReplyTo : Option Text
  references : Option Text
  date : Int
  seen : Bool
  replied : Bool
  flagged : Bool
  deriving DecidableEq, Repr

mutual
/-- `struct rfc822` (mairix.h:183-186). -/
inductive Rfc822 where
  | mk (hdrs : Headers) (atts : Attachments)
/-- The list of `struct attachment` (mairix.h:149-161): for each its content by type and its file
name. The content of a text part is the C string at `data.normal.bytes`. -/
inductive Attachments where
  | nil
  | cons (body : Body) (filename : Option Text) (rest : Attachments)
/-- `enum content_type` (mairix.h:140-146) with the union `data`. -/
inductive Body where
  | plain (bytes : Text)
  | html (bytes : Text)
  | message (m : Rfc822)
  /-- `CT_MESSAGE_RFC822` with a null pointer -/
  | noMessage
  | other
end

def Rfc822.hdrs : Rfc822 → Headers
  | .mk h _ => h

def Rfc822.atts : Rfc822 → Attachments
  | .mk _ a => a

/-- The token tables of `struct database` (mairix.h:252-264). -/
structure Tables where
  to : Table Matches
  cc : Table Matches
  «from» : Table Matches
  subject : Table Matches
  body : Table Matches
  attachmentName : Table Matches
  msgIds : Table Matches2

/-- `if (msg->hdrs.to) {...}` (db.c:620-631): single words and whole addresses. -/
def tokeniseAddress (hash : Text → Nat) (i : Nat) (t : Table Matches) : Option Text → Res (Table Matches)
  | none => .ok t
  | some s => do
    let t ← tokeniseString hash i t s 1
    tokeniseString hash i t s 2

/-- `if (msg->hdrs.subject) ...` (db.c:632). -/
def tokeniseSubject (hash : Text → Nat) (i : Nat) (t : Table Matches) : Option Text → Res (Table Matches)
  | none => .ok t
  | some s => tokeniseString hash i t s 1

/-- `if (a->filename) ...` (db.c:657-659). -/
def tokeniseFilename (hash : Text → Nat) (i : Nat) (t : Table Matches) : Option Text → Res (Table Matches)
  | none => .ok t
  | some s => addToken hash t s i

mutual
/-- `tokenise_message` (db.c:615-668). -/
def tokeniseMessage (hash : Text → Nat) (i : Nat) (d : Tables) : Rfc822 → Res Tables
  | .mk h atts => do
    let to ← tokeniseAddress hash i d.to h.to
    let cc ← tokeniseAddress hash i d.cc h.cc
    let fr ← tokeniseAddress hash i d.from h.from
    let subject ← tokeniseSubject hash i d.subject h.subject
    let d ← tokeniseAttachments hash i { d with to := to, cc := cc, «from» := fr, subject := subject } atts
    let ids ← addAngledTerms hash i d.msgIds true h.messageId
    let ids ← addAngledTerms hash i ids false h.inReplyTo
    let ids ← addAngledTerms hash i ids false h.references
    .ok { d with msgIds := ids }

/-- The loop over the attachments (db.c:634-661). -/
def tokeniseAttachments (hash : Text → Nat) (i : Nat) (d : Tables) : Attachments → Res Tables
  | .nil => .ok d
  | .cons body filename rest => do
    let d ← tokeniseBody hash i d body
    let names ← tokeniseFilename hash i d.attachmentName filename
    tokeniseAttachments hash i { d with attachmentName := names } rest

/-- The `switch (a->ct)` (db.c:635-655). -/
def tokeniseBody (hash : Text → Nat) (i : Nat) (d : Tables) : Body → Res Tables
  | .plain b => do
    let t ← tokeniseString hash i d.body b 1
    .ok { d with body := t }
  | .html b => do
    let t ← tokeniseHtml hash i d.body b
    .ok { d with body := t }
  | .message m => tokeniseMessage hash i d m
  | .noMessage => .ok d
  | .other => .ok d
end

end Mairix
