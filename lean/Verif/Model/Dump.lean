import Verif.Model.DbFile
import Verif.Model.Output

/-!
# Printing the database: dumper.c

The text written to the standard output by `mairix --dump`. What is printed before the process goes wrong is not kept.
-/

namespace Mairix

/-- `%d` with an `unsigned int` (or an `int` with the same bits). -/
def formatD (n : Nat) : Text := if n < 2 ^ 31 then digits n else bs "-" ++ digits (2 ^ 32 - n)

/-- Filling up with blanks or zeros on the left. -/
def padTo (width : Nat) (c : UInt8) (t : Text) : Text := List.replicate (width - t.length) c ++ t

/-- `%08x`. -/
def formatHex (n : Nat) : Text := padTo 8 0x30 ((Nat.toDigits 16 n).map fun c => UInt8.ofNat c.toNat)

/-- The numbers of messages (dumper.c:57-64); the first argument is `on_line`. The accumulator of the reader is an `unsigned
int`. -/
def dumpNumbers : Nat → List Nat → Text
  | _, [] => []
  | onLine, j :: js =>
    if onLine > 15 then bs "\n" ++ (formatD (j % 2 ^ 32) ++ bs " ") ++ dumpNumbers 1 js
    else (formatD (j % 2 ^ 32) ++ bs " ") ++ dumpNumbers (onLine + 1) js

/-- The line with the word (dumper.c:49-53). -/
def dumpToken (i : Nat) (token : Option Text) : Text :=
  match token with
  | some t => bs "Word " ++ formatD i ++ bs " : <" ++ t ++ bs ">\n"
  | none => bs "Word " ++ formatD i ++ bs " is corrupt, lies beyond end of database\n"

/-- One round of the loop (dumper.c:47-66). -/
def dumpEntry (data : Text) (tok enc i : Nat) : Res Text := do
  let off ← rd32 data (tok + i)
  let e ← rd32 data (enc + i)
  .ok (dumpToken i (tokenAt data off) ++ bs "  " ++ dumpNumbers 0 (readAll (data.drop e)) ++ bs "\n")

/-- `dump_token_chain` (dumper.c:40-68). In the comparison `i<n` both sides are `unsigned`. -/
def dumpTokenChain (data : Text) (n tok enc : Nat) : Res Text := do
  let entries ← rounds (dumpEntry data tok enc) 0 n
  .ok (formatD n ++ bs " entries\n" ++ entries.flatten)

/-- `dump_toktable` (dumper.c:70-74). -/
def dumpToktable (data : Text) (t : RawTable) (title : Text) : Res Text := do
  let chain ← dumpTokenChain data t.n t.tok t.enc
  .ok (bs "Contents of <" ++ title ++ bs "> table\n" ++ chain)

/-- `dump_toktable2` (dumper.c:76-85). -/
def dumpToktable2 (data : Text) (t : RawTable2) (title : Text) : Res Text := do
  let chain0 ← dumpTokenChain data t.n t.tok t.enc0
  let chain1 ← dumpTokenChain data t.n t.tok t.enc1
  .ok (bs "Contents of <" ++ title ++ bs "> table\n" ++ (bs "Chain 0\n" ++ chain0 ++ (bs "Chain 1\n" ++ chain1)))

/-- Where a message is (dumper.c:98-122). -/
def dumpPlace (m : DbMsg) : Text :=
  if m.type = DB_MSG_DEAD then bs "DEAD"
  else if m.type = DB_MSG_FILE then bs "FILE " ++ m.path ++ bs ", size=" ++ formatD m.size ++ bs ", tid=" ++ formatD m.tid
  else if m.type = DB_MSG_IMAP then bs "IMAP " ++ m.path ++ bs ", tid=" ++ formatD m.tid
  else if m.type = DB_MSG_MBOX then bs "MBOX " ++ formatD m.mbix ++ bs ", msg " ++ formatD m.msgix ++ bs ", offset=" ++ formatD m.mtime ++
    bs ", size=" ++ formatD m.size ++ bs ", tid=" ++ formatD m.tid
  else []

/-- A message (dumper.c:97-127). -/
def dumpMessageText (i : Nat) (m : DbMsg) : Text :=
  padTo 6 0x20 (formatD i) ++ bs ": " ++ dumpPlace m ++
    (if m.typeAndFlags &&& FLAG_SEEN != 0 then bs " seen" else []) ++
    (if m.typeAndFlags &&& FLAG_REPLIED != 0 then bs " replied" else []) ++
    (if m.typeAndFlags &&& FLAG_FLAGGED != 0 then bs " flagged" else []) ++ bs "\n"

/-- One round of the loop over the messages (dumper.c:96-128). Simplification: the date and, of a message in a file of its own,
the modification time are looked up too, which is in bounds if the rest is (`getTable`). -/
def dumpMessage (r : RawDb) (i : Nat) : Res Text := do
  let m ← rdMsg r i
  .ok (dumpMessageText i m)

/-- The line of an mbox (dumper.c:134-138). -/
def dumpBoxText (i : Nat) (box : Option (Nat × Text)) : Text :=
  match box with
  | some (n, path) => padTo 4 0x20 (formatD i) ++ bs ": " ++ formatD n ++ bs " msgs in " ++ path ++ bs "\n"
  | none => padTo 4 0x20 (formatD i) ++ bs ": dead\n"

/-- What is known of an mbox with a path. -/
def dumpBoxEntry (r : RawDb) (i off : Nat) : Res (Option (Nat × Text)) :=
  if off ≠ 0 then do
    let n ← rd32 r.data (r.mboxEntries + i)
    let p ← cstrAt r.data off
    .ok (some (n, p))
  else .ok none

/-- One round of the loop over the mboxen (dumper.c:133-139). -/
def dumpBox (r : RawDb) (i : Nat) : Res Text := do
  let off ← rd32 r.data (r.mboxPaths + i)
  let b ← dumpBoxEntry r i off
  .ok (dumpBoxText i b)

/-- The part about mboxen (dumper.c:130-141). -/
def dumpBoxes (r : RawDb) : Res Text :=
  if loopBound r.nMboxen > 0 then do
    let lines ← rounds (dumpBox r) 0 (loopBound r.nMboxen)
    .ok (bs "\nMBOX INFORMATION\n" ++ formatD r.nMboxen ++ bs " mboxen\n" ++ lines.flatten ++ bs "\n")
  else .ok []

/-- The line between the tables. -/
def dumpRule : Text := bs "--------------------------------\n"

/-- `dump_database` (dumper.c:87-162) with the contents of the file. -/
def dumpDatabase (filename data : Text) : Res Text := do
  let r ← openDb data
  let msgs ← rounds (dumpMessage r) 0 (loopBound r.nMsgs)
  let boxes ← dumpBoxes r
  let to ← dumpToktable r.data r.to (bs "To")
  let cc ← dumpToktable r.data r.cc (bs "Cc")
  let from' ← dumpToktable r.data r.from (bs "From")
  let subject ← dumpToktable r.data r.subject (bs "Subject")
  let body ← dumpToktable r.data r.body (bs "Body")
  let attachments ← dumpToktable r.data r.attachmentName (bs "Attachment names")
  let ids ← dumpToktable2 r.data r.msgIds (bs "Message Ids")
  .ok (bs "Dump of " ++ filename ++ bs "\n" ++ formatD r.nMsgs ++ bs " messages\n" ++ msgs.flatten ++ bs "\n" ++ boxes ++
    bs "Hash key " ++ formatHex r.hashKey ++ bs "\n\n" ++ dumpRule ++ to ++ dumpRule ++ cc ++ dumpRule ++ from' ++ dumpRule ++ subject ++
    dumpRule ++ body ++ dumpRule ++ attachments ++ dumpRule ++ ids ++ dumpRule)

end Mairix
