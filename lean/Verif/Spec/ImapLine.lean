import Verif.Model.ImapLine

/-!
# What an IMAP server sends, and what it understands (RFC 3501, section 9, and RFC 7888 for non-synchronizing literals)
-/

namespace Mairix.Spec

/-! ## Responses -/

/-- The data items a response is made of. -/
inductive RespTok where
  | atom (s : Text)
  | quoted (s : Text)
  | literal (s : Text)
  | list (l : List RespTok)

/-- The contents of a quoted string on the wire: a quote or a backslash is preceded by a backslash. -/
def quoteEscape : Text → Text
  | [] => []
  | c :: s => if c = 34 ∨ c = 92 then 92 :: c :: quoteEscape s else c :: quoteEscape s

mutual
/-- A data item on the wire. -/
def wire : RespTok → Text
  | .atom s => s
  | .quoted s => [34] ++ quoteEscape s ++ [34]
  | .literal s => bs "{" ++ digits s.length ++ bs "}" ++ [13, 10] ++ s
  | .list l => [40] ++ wires l ++ [41]

/-- Data items on the wire, with a space between them. -/
def wires : List RespTok → Text
  | [] => []
  | [t] => wire t
  | t :: t' :: ts => wire t ++ [32] ++ wires (t' :: ts)
end

/-- The bytes of an atom, a number or a flag, or of a word of the text at the end of a response: anything but white space, line ends,
quotes, parentheses and opening braces. -/
def AtomByte (c : UInt8) : Prop := c ≠ 32 ∧ c ≠ 9 ∧ c ≠ 13 ∧ c ≠ 10 ∧ c ≠ 34 ∧ c ≠ 40 ∧ c ≠ 41 ∧ c ≠ 123

instance (c : UInt8) : Decidable (AtomByte c) := inferInstanceAs (Decidable (_ ∧ _))

mutual
/-- A data item a server may send where a byte `no` has a meaning of its own: atoms are not empty, quoted strings are on one line and
(the part of the grammar that is not covered) have no quotes or backslashes inside, literals are shorter than 2 GiB. -/
def WfTok (no : Option UInt8) : RespTok → Prop
  | .atom s => s ≠ [] ∧ ∀ c ∈ s, AtomByte c ∧ no ≠ some c
  | .quoted s => ∀ c ∈ s, c ≠ 10 ∧ c ≠ 13 ∧ c ≠ 34 ∧ c ≠ 92
  | .literal s => s.length ≤ 2147483647
  | .list l => WfToks none l

/-- Every item of a list is of this kind. -/
def WfToks (no : Option UInt8) : List RespTok → Prop
  | [] => True
  | t :: ts => WfTok no t ∧ WfToks no ts
end

/-- A response: `* OK [UIDVALIDITY 7] done` has the first item `OK`, the code `UIDVALIDITY 7` and the further items `done`;
`* 4 FETCH (UID 9)` has no code.  `tag` is the number of the command that is answered, for the last response to it. -/
structure Response where
  tag : Option Nat
  first : RespTok
  code : Option (List RespTok)
  rest : List RespTok

/-- What follows the first item of a response. -/
def Response.tail (r : Response) : Text :=
  (match r.code with
   | none => []
   | some l => bs " [" ++ wires l ++ bs "]") ++ (if r.rest = [] then [] else [32] ++ wires r.rest)

/-- A response on the wire. -/
def Response.bytes (r : Response) : Text :=
  (match r.tag with
   | none => bs "* "
   | some n => bs "t" ++ digits n ++ [32]) ++ wire r.first ++ r.tail ++ [13, 10]

/-- Responses of a server: brackets only have a meaning right behind the first item, and around the code. -/
def Response.Wf (r : Response) : Prop :=
  WfTok none r.first ∧
  (match r.code with
   | some l => WfToks (some 93) l ∧ WfToks none r.rest
   | none => match r.rest with
     | [] => True
     | t :: ts => WfTok (some 91) t ∧ WfToks none ts)

mutual
/-- What an item means: an atom, or a string, however it was sent, or a list. -/
def meant : RespTok → ImapTok
  | .atom s => .atom s
  | .quoted s => .string s
  | .literal s => .string s
  | .list l => .list (meants l)

/-- What items mean. -/
def meants : List RespTok → List ImapTok
  | [] => []
  | t :: ts => meant t :: meants ts
end

/-- What a response means. -/
def Response.line (r : Response) : ImapLine where
  kind := if r.tag.isSome then .tagged else .untagged
  items := [meant r.first] ++ (match r.code with | none => [] | some l => [.sqlist (meants l)]) ++ meants r.rest

/-- The bytes of the server that are still to be read, wherever they are. -/
def _root_.Mairix.ImapConn.stream (ll : ImapConn) : Text := ll.buf ++ ll.reads.flatten

/-- `read` only returns no bytes at the end of the connection. -/
def _root_.Mairix.ImapConn.Open (ll : ImapConn) : Prop := ∀ x ∈ ll.reads, x ≠ []

instance (ll : ImapConn) : Decidable ll.Open := inferInstanceAs (Decidable (∀ x ∈ _, _))

end Mairix.Spec
