import Verif.Model.Output

/-!
# The low level of the IMAP client: responses and commands as bytes

`imap_ll_waitline` (imap.c:233-481) reads one response of the server, byte by byte, into a tree of tokens;
`imap_ll_command` (imap.c:669-712) sends a command and collects the responses up to the tagged one.
-/

namespace Mairix

/-- A node of the token tree below a line: `struct imap_ll_tokenlist` (imap.h:9-32) of type `TLTYPE_ATOM`, `TLTYPE_STRING`,
`TLTYPE_LIST` or `TLTYPE_SQLIST`. -/
inductive ImapTok where
  | atom (s : Text)
  | string (s : Text)
  | list (l : List ImapTok)
  | sqlist (l : List ImapTok)

mutual
/-- Equality of tokens can be decided (for computed examples; no counterpart in the code). -/
def decEqTok : (a b : ImapTok) → Decidable (a = b)
  | .atom x, .atom y => if h : x = y then isTrue (by rw [h]) else isFalse (by intro hh; cases hh; exact h rfl)
  | .atom _, .string _ => isFalse (by intro hh; cases hh)
  | .atom _, .list _ => isFalse (by intro hh; cases hh)
  | .atom _, .sqlist _ => isFalse (by intro hh; cases hh)
  | .string _, .atom _ => isFalse (by intro hh; cases hh)
  | .string x, .string y => if h : x = y then isTrue (by rw [h]) else isFalse (by intro hh; cases hh; exact h rfl)
  | .string _, .list _ => isFalse (by intro hh; cases hh)
  | .string _, .sqlist _ => isFalse (by intro hh; cases hh)
  | .list _, .atom _ => isFalse (by intro hh; cases hh)
  | .list _, .string _ => isFalse (by intro hh; cases hh)
  | .list x, .list y => match decEqToks x y with
    | isTrue h => isTrue (by rw [h])
    | isFalse h => isFalse (by intro hh; cases hh; exact h rfl)
  | .list _, .sqlist _ => isFalse (by intro hh; cases hh)
  | .sqlist _, .atom _ => isFalse (by intro hh; cases hh)
  | .sqlist _, .string _ => isFalse (by intro hh; cases hh)
  | .sqlist _, .list _ => isFalse (by intro hh; cases hh)
  | .sqlist x, .sqlist y => match decEqToks x y with
    | isTrue h => isTrue (by rw [h])
    | isFalse h => isFalse (by intro hh; cases hh; exact h rfl)

/-- Equality of lists of tokens can be decided. -/
def decEqToks : (a b : List ImapTok) → Decidable (a = b)
  | [], [] => isTrue rfl
  | [], _ :: _ => isFalse (by intro hh; cases hh)
  | _ :: _, [] => isFalse (by intro hh; cases hh)
  | x :: xs, y :: ys => match decEqTok x y, decEqToks xs ys with
    | isTrue h, isTrue h' => isTrue (by rw [h, h'])
    | isFalse h, _ => isFalse (by intro hh; cases hh; exact h rfl)
    | _, isFalse h => isFalse (by intro hh; cases hh; exact h rfl)
end

instance : DecidableEq ImapTok := decEqTok

/-- The type of the root of a line: `TLTYPE_UNTAGGED`, `TLTYPE_TAGGED` or `TLTYPE_CONTINUATION` (imap.h:9-21). -/
inductive LineKind where
  | untagged
  | tagged
  | continuation
  deriving DecidableEq

/-- A line as `imap_ll_waitline` returns it (imap.c:256). -/
structure ImapLine where
  kind : LineKind
  items : List ImapTok
  deriving DecidableEq

/-- `curtoken`, `curtoken_now` and `curtoken_max` (imap.c:244-246): `text` are the `curtoken_now` bytes stored so far, `max + 1` is the
size of the allocation. -/
structure TokBuf where
  text : Text
  max : Nat

/-- The values of `linestate` (imap.c:257-409), in the order of the `case` labels. -/
inductive LineState where
  | start | star | tag | discard | things | quoted | count | afterCount | literal
  deriving DecidableEq

/-- The local variables of `imap_ll_waitline` (imap.c:239-246).  `line` is the type of the root (`none` is the null pointer), `items` its
children, `lists` the lists that are being read, innermost first: for each whether it is a `TLTYPE_SQLIST` and its children so far.
(In C a list is a child of its parent from the start; here it becomes one when it is closed or the line ends, which cannot be
observed in between, as `line == node` means that no list is open.) -/
structure WaitState where
  linestate : LineState := .start
  recvTag : Nat := 0
  line : Option LineKind := none
  items : List ImapTok := []
  lists : List (Bool × List ImapTok) := []
  cur : Option TokBuf := none

/-- `growlist` with a leaf (imap.c:191-206). -/
def WaitState.grow (s : WaitState) (t : ImapTok) : WaitState :=
  match s.lists with
  | [] => { s with items := s.items ++ [t] }
  | (sq, l) :: ls => { s with lists := (sq, l ++ [t]) :: ls }

/-- The node of a finished list. -/
def mkList (sq : Bool) (l : List ImapTok) : ImapTok := if sq then .sqlist l else .list l

/-- `node = node->parent` (imap.c:339). -/
def WaitState.up (s : WaitState) : WaitState :=
  match s.lists with
  | [] => s
  | (sq, l) :: ls => ({ s with lists := ls }).grow (mkList sq l)

/-- The tree below `line` with all lists in their places (those that were not closed, too); `inner` are further children of the
innermost list. -/
def collapse (inner : List ImapTok) : List (Bool × List ImapTok) → List ImapTok → List ImapTok
  | [], items => items ++ inner
  | (sq, l) :: ls, items => collapse [mkList sq (l ++ inner)] ls items

/-- `mktoken` stores a NUL behind the text (imap.c:187); `MKPRETOKEN` and `token_extend` have allocated `max + 1` bytes. -/
def TokBuf.finish (b : TokBuf) : Res Text := if b.text.length < b.max + 1 then .ok b.text else .error .outOfBounds

/-- `token_extend` (imap.c:353-362). -/
def TokBuf.extend (b : TokBuf) (c : UInt8) : Res TokBuf :=
  let m := if b.text.length ≥ b.max then b.max * 2 else b.max
  if b.text.length < m + 1 then .ok ⟨b.text ++ [c], m⟩ else .error .outOfBounds

/-- `recv_tag *= 10; recv_tag += cur - '0'` in an `int` (imap.c:300-301, 381-382). -/
def addDigit (n : Nat) (c : UInt8) : Res Nat :=
  let m := 10 * n + (c.toNat - 48)
  if m ≤ 2147483647 then .ok m else .error .overflow

/-- `if (curtoken) growlist(&node, mktoken(TLTYPE_ATOM, …))` (imap.c:335-338, 346-349). -/
def WaitState.flush (s : WaitState) : Res WaitState :=
  match s.cur with
  | none => .ok s
  | some b => do
    let t ← b.finish
    .ok { s.grow (.atom t) with cur := none }

/-- The end of a string, quoted or literal (imap.c:369-371, 395-397, 404-406). -/
def WaitState.endString (s : WaitState) (b : TokBuf) : Res WaitState := do
  let t ← b.finish
  .ok { s.grow (.string t) with cur := none, linestate := .things }

/-- The end of the line (imap.c:250-256). -/
def WaitState.endLine (s : WaitState) : Res (Option ImapLine) := do
  let s ← if s.linestate = .things then s.flush else .ok s
  .ok (s.line.map fun k => ⟨k, collapse [] s.lists s.items⟩)

/-- `case 4` of `imap_ll_waitline` (imap.c:308-364).  A list is only begun by `growlist`; an atom that is still pending stays in
`curtoken` then, and is dropped by `MKPRETOKEN` when a string begins. -/
def feedThing (s : WaitState) (c : UInt8) : Res WaitState :=
  if c = 34 then .ok { s with linestate := .quoted, cur := some ⟨[], 50⟩ }
  else if c = 123 then .ok { s with linestate := .count, recvTag := 0 }
  else if c = 91 ∧ s.lists = [] ∧ s.items.length = 1 then .ok { s with lists := [(true, [])] }
  else if c = 40 then .ok { s with lists := (false, []) :: s.lists }
  else if (c = 41 ∧ s.lists.head?.map (·.1) = some false) ∨ (c = 93 ∧ s.lists.head?.map (·.1) = some true) then
    s.flush.map WaitState.up
  else if c = 32 ∨ c = 9 ∨ c = 13 then s.flush
  else do
    let b ← (s.cur.getD ⟨[], 25⟩).extend c
    .ok { s with cur := some b }

/-- The `switch` of `imap_ll_waitline` (imap.c:258-410) for one byte; `next` is `current_tag_number + 1`. -/
def feedSwitch (next : Nat) (s : WaitState) (c : UInt8) : Res WaitState :=
  match s.linestate with
  | .start =>
    if c = 42 then .ok { s with linestate := .star }
    else if c = 116 then .ok { s with linestate := .tag, recvTag := 0 }
    else if c = 43 then .ok { s with line := some .continuation, linestate := .discard }
    else .ok { s with linestate := .discard }
  | .star =>
    if c = 32 then .ok { s with line := some .untagged, linestate := .things } else .ok { s with linestate := .discard }
  | .tag =>
    if c = 32 then
      if s.recvTag + 1 = next then .ok { s with line := some .tagged, linestate := .things } else .ok { s with linestate := .discard }
    else if isDigit c then (addDigit s.recvTag c).map fun n => { s with recvTag := n }
    else .ok { s with linestate := .discard }
  | .discard => .ok s
  | .things => feedThing s c
  | .quoted =>
    if c = 34 then s.endString (s.cur.getD ⟨[], 0⟩)
    else ((s.cur.getD ⟨[], 0⟩).extend c).map fun b => { s with cur := some b }
  | .count =>
    if c = 125 then .ok { s with linestate := .afterCount }
    else if isDigit c then (addDigit s.recvTag c).map fun n => { s with recvTag := n }
    else .ok { s with linestate := .discard }
  | .afterCount =>
    -- a byte other than LF is meant to be an error, but `linestate` is set again at once (imap.c:390-400)
    if c = 13 then .ok s
    else if s.recvTag = 0 then s.endString ⟨[], 0⟩
    else .ok { s with cur := some ⟨[], s.recvTag⟩, linestate := .literal }
  | .literal =>
    let b := s.cur.getD ⟨[], 0⟩
    if b.text.length < b.max + 1 then
      if b.text.length + 1 = b.max then s.endString ⟨b.text ++ [c], b.max⟩ else .ok { s with cur := some ⟨b.text ++ [c], b.max⟩ }
    else .error .outOfBounds

/-- One byte of a response: the state afterwards, or what `imap_ll_waitline` returns (imap.c:249-410). -/
def feed (next : Nat) (s : WaitState) (c : UInt8) : Res (WaitState ⊕ Option ImapLine) :=
  if c = 10 ∧ s.linestate ≠ .afterCount ∧ s.linestate ≠ .literal then s.endLine.map .inr
  else (feedSwitch next s c).map .inl

/-- The `while (ll->buffer_left)` loop (imap.c:249-411): the state at the end of the buffer, or the result and the bytes left in it. -/
def feedBuf (next : Nat) (s : WaitState) : Text → Res (WaitState ⊕ (Option ImapLine × Text))
  | [] => .ok (.inl s)
  | c :: rest => do
    match ← feed next s c with
    | .inl s' => feedBuf next s' rest
    | .inr r => .ok (.inr (r, rest))

/-- `struct imap_ll` (imap.c:24-40) without what concerns the operating system: the bytes in the buffer, what the coming calls of `read`
return, `current_tag_number + 1`, and everything written to the server so far.  The end of `reads`, or an empty read, stands for
the end of the connection, an error or a timeout. -/
structure ImapConn where
  buf : Text := []
  reads : List Text := []
  next : Nat := 0
  sent : Text := []
  deriving DecidableEq

/-- `imap_ll_waitline` (imap.c:233-481): the loop that refills the buffer. -/
def waitLoop (next : Nat) (s : WaitState) (buf : Text) (reads : List Text) : Res (Option ImapLine × Text × List Text) := do
  match ← feedBuf next s buf with
  | .inr (r, rest) => .ok (r, rest, reads)
  | .inl s' =>
    match reads with
    | [] => .ok (none, [], [])
    | r :: rs => if r = [] then .ok (none, [], rs) else waitLoop next s' r rs

/-- `imap_ll_waitline` (imap.c:233-481). -/
def waitLine (ll : ImapConn) : Res (Option ImapLine × ImapConn) := do
  let (r, buf, reads) ← waitLoop ll.next {} ll.buf ll.reads
  .ok (r, { ll with buf := buf, reads := reads })

mutual
/-- `string_len` (imap.c:484-527) of a token below the root. -/
def tokLen : ImapTok → Nat
  | .atom s => s.length
  | .string s => 20 + s.length
  | .list l => 2 + toksLen l
  | .sqlist l => 2 + toksLen l

/-- The loop over the children in `string_len` (imap.c:522-525). -/
def toksLen : List ImapTok → Nat
  | [] => 0
  | t :: ts => 1 + tokLen t + toksLen ts
end

/-- Whether `format_cmd` sends a byte of a string only in a literal (imap.c:551-557); `char` is signed, so that bytes above 127 are
less than 32. -/
def needsLiteral (c : UInt8) : Bool := c < 32 || c == 34 || c > 126

/-- The case `TLTYPE_STRING` of `format_cmd` (imap.c:550-571). -/
def formatString (s : Text) : Text :=
  if s.any needsLiteral then bs "{" ++ digits s.length ++ bs "+}" ++ [13, 10] ++ s else [34] ++ s ++ [34]

mutual
/-- `format_cmd` (imap.c:529-596) for a token below the root. -/
def formatTok : ImapTok → Text
  | .atom s => s
  | .string s => formatString s
  | .list l => [40] ++ formatToks l ++ [41]
  | .sqlist l => [91] ++ formatToks l ++ [93]

/-- The loop over the children in `format_cmd` (imap.c:583-592). -/
def formatToks : List ImapTok → Text
  | [] => []
  | [t] => formatTok t
  | t :: t' :: ts => formatTok t ++ [32] ++ formatToks (t' :: ts)
end

/-- What `imap_ll_command` writes for the command with tag number `n` (imap.c:543, 669-684). -/
def commandBytes (n : Nat) (cmd : List ImapTok) : Text := bs "t" ++ digits n ++ [32] ++ formatToks cmd ++ [13, 10]

/-- The size of the buffer the command is formatted in (imap.c:493-495, 675-676). -/
def commandAlloc (cmd : List ImapTok) : Nat := 15 + toksLen cmd + 1

/-- The loop of `imap_ll_command` (imap.c:692-711): the lines up to the tagged one, or the null pointer. -/
def collectLines : Nat → ImapConn → List ImapLine → Res (Option (List ImapLine) × ImapConn)
  | 0, _, _ => .error .diverges
  | fuel + 1, ll, acc => do
    let (r, ll) ← waitLine ll
    match r with
    | none => .ok (none, ll)
    | some l => if l.kind = .tagged then .ok (some (acc ++ [l]), ll) else collectLines fuel ll (acc ++ [l])

/-- `imap_ll_command` (imap.c:669-712) with a command of type `TLTYPE_TAGGED`.  A write that fails (imap.c:686-689) has the
result of an answer that does not come, and is not modelled apart from it. -/
def imapCommand (ll : ImapConn) (cmd : List ImapTok) : Res (Option (List ImapLine) × ImapConn) := do
  if ll.next > 2147483647 then .error .overflow
  else if commandAlloc cmd < (commandBytes ll.next cmd).length then .error .outOfBounds
  else
    let ll := { ll with next := ll.next + 1, sent := ll.sent ++ commandBytes ll.next cmd }
    collectLines (ll.buf.length + ll.reads.flatten.length + 1) ll []

end Mairix
