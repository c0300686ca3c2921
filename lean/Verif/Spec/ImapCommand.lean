import Verif.Spec.ImapLine
import Verif.Model.Search

/-!
# How a server reads a command (RFC 3501, section 9: `command`, `astring`, `quoted`, `literal`; RFC 7888: `{n+}`)
-/

namespace Mairix.Spec

/-- The rest of a quoted string, behind the opening quote: its contents and what follows the closing quote.  A backslash quotes a quote or
a backslash, and nothing else; a line end is an error. -/
def readQuoted : Text → Option (Text × Text)
  | [] => none
  | c :: r =>
    if c = 34 then some ([], r)
    else if c = 92 then
      match r with
      | d :: r' => if d = 34 ∨ d = 92 then (readQuoted r').map fun x => (d :: x.1, x.2) else none
      | [] => none
    else if c = 13 ∨ c = 10 then none
    else (readQuoted r).map fun x => (c :: x.1, x.2)

/-- The rest of a literal that needs no answer of the server, behind the opening brace. -/
def readLiteral (t : Text) : Option (Text × Text) :=
  match t.dropWhile isDigit with
  | 43 :: 125 :: 13 :: 10 :: r =>
    let n := decimal (t.takeWhile isDigit)
    if n ≤ r.length then some (r.take n, r.drop n) else none
  | _ => none

/-- The bytes of a word that is neither quoted nor a literal. -/
def wordByte (c : UInt8) : Bool := 32 < c && c != 34 && c != 40 && c != 41 && c != 123 && c < 127

mutual
/-- One argument of a command. -/
def readArg : Nat → Text → Option (ImapTok × Text)
  | 0, _ => none
  | fuel + 1, t =>
    match t with
    | [] => none
    | c :: r =>
      if c = 34 then (readQuoted r).map fun x => (.string x.1, x.2)
      else if c = 123 then (readLiteral r).map fun x => (.string x.1, x.2)
      else if c = 40 then
        if r.head? = some 41 then some (.list [], r.tail)
        else match readArgs fuel r with
          | some (l, d :: r') => if d = 41 then some (.list l, r') else none
          | _ => none
      else
        let w := t.takeWhile wordByte
        if w = [] then none else some (.atom w, t.dropWhile wordByte)

/-- Arguments with a space between them. -/
def readArgs : Nat → Text → Option (List ImapTok × Text)
  | 0, _ => none
  | fuel + 1, t =>
    match readArg fuel t with
    | none => none
    | some (a, r) => if r.head? = some 32 then (readArgs fuel r.tail).map fun x => (a :: x.1, x.2) else some ([a], r)
end

/-- What a server takes from the bytes it receives as the next command: its tag and words, and the bytes of later commands. -/
def understood (t : Text) : Option (Text × List ImapTok × Text) :=
  let tag := t.takeWhile wordByte
  match t.dropWhile wordByte with
  | 32 :: r =>
    match readArgs (2 * r.length + 2) r with
    | some (l, 13 :: 10 :: r') => some (tag, l, r')
    | _ => none
  | _ => none

mutual
/-- Arguments of a command: words are printable and not empty; strings are shorter than 2 GiB. -/
def CmdTok : ImapTok → Prop
  | .atom s => s ≠ [] ∧ ∀ c ∈ s, wordByte c = true
  | .string s => s.length ≤ 2147483647
  | .list l => CmdToks l
  | .sqlist _ => False

/-- Every argument is of this kind. -/
def CmdToks : List ImapTok → Prop
  | [] => True
  | t :: ts => CmdTok t ∧ CmdToks ts
end

mutual
/-- No string has a backslash, unless it has a byte that cannot be in a quoted string, too. -/
def Unescaped : ImapTok → Prop
  | .atom _ => True
  | .string s => 92 ∈ s → ∃ c ∈ s, c < 32 ∨ c = 34 ∨ 126 < c
  | .list l => Unescapeds l
  | .sqlist l => Unescapeds l

/-- Every argument is of this kind. -/
def Unescapeds : List ImapTok → Prop
  | [] => True
  | t :: ts => Unescaped t ∧ Unescapeds ts
end

end Mairix.Spec
