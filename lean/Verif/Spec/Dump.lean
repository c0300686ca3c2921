import Verif.Model.Output
import Verif.Spec.Mail

/-!
# What `mairix --dump` prints (specification)
-/

namespace Mairix.Spec

/-- A number of 32 bits as it is printed: it is taken as a signed one. -/
def signed (n : Nat) : Text := if n < 2 ^ 31 then digits n else bs "-" ++ digits (2 ^ 32 - n)

/-- Where a message is. -/
inductive Shown
  | dead
  | file (path : Text) (size tid : Nat)
  | imap (path : Text) (tid : Nat)
  | mbox (box number offset size tid : Nat)

def Shown.text : Shown → Text
  | .dead => bs "DEAD"
  | .file path size tid => bs "FILE " ++ path ++ bs ", size=" ++ signed size ++ bs ", tid=" ++ signed tid
  | .imap path tid => bs "IMAP " ++ path ++ bs ", tid=" ++ signed tid
  | .mbox box number offset size tid => bs "MBOX " ++ signed box ++ bs ", msg " ++ signed number ++ bs ", offset=" ++ signed offset ++
      bs ", size=" ++ signed size ++ bs ", tid=" ++ signed tid

/-- What is printed of a message. -/
structure ShownMsg where
  place : Shown
  seen : Bool
  replied : Bool
  flagged : Bool

/-- The number at the right of a column. -/
def column (width n : Nat) : Text := List.replicate (width - (digits n).length) 0x20 ++ digits n

def messageLine (i : Nat) (m : ShownMsg) : Text :=
  column 6 i ++ bs ": " ++ m.place.text ++ (if m.seen then bs " seen" else []) ++ (if m.replied then bs " replied" else []) ++
    (if m.flagged then bs " flagged" else []) ++ bs "\n"

/-- An mbox: the number of its messages and its path, unless it has gone. -/
def boxLine (i : Nat) : Option (Nat × Text) → Text
  | some (n, path) => column 4 i ++ bs ": " ++ digits n ++ bs " msgs in " ++ path ++ bs "\n"
  | none => column 4 i ++ bs ": dead\n"

/-- Numbers in lines of sixteen, each with a blank after it. -/
def inLines (l : List Nat) : Text :=
  if l.length ≤ 16 then l.flatMap fun j => digits j ++ bs " "
  else ((l.take 16).flatMap fun j => digits j ++ bs " ") ++ bs "\n" ++ inLines (l.drop 16)
termination_by l.length
decreasing_by rw [List.length_drop]; omega

/-- A word with the numbers of the messages that have it. -/
def wordLines (i : Nat) (e : Text × List Nat) : Text :=
  bs "Word " ++ digits i ++ bs " : <" ++ e.1 ++ bs ">\n" ++ (bs "  " ++ inLines e.2 ++ bs "\n")

/-- Parts numbered from `i` on. -/
def numbered {α : Type} (f : Nat → α → Text) : Nat → List α → Text
  | _, [] => []
  | i, a :: as => f i a ++ numbered f (i + 1) as

def tableLines (t : List (Text × List Nat)) : Text := digits t.length ++ bs " entries\n" ++ numbered wordLines 0 t

/-- What a dump tells. -/
structure Dump where
  messages : List ShownMsg
  boxes : List (Option (Nat × Text))
  key : Nat
  words : Field → List (Text × List Nat)
  /-- identifiers and the messages that mention them -/
  mentioned : List (Text × List Nat)
  /-- identifiers and the messages that have them -/
  own : List (Text × List Nat)

def hex8 (n : Nat) : Text :=
  let t := (Nat.toDigits 16 n).map fun c => UInt8.ofNat c.toNat
  List.replicate (8 - t.length) 0x30 ++ t

def rule : Text := bs "--------------------------------\n"

def section' (title : Text) (body : Text) : Text := bs "Contents of <" ++ title ++ bs "> table\n" ++ body

/-- The whole text. -/
def Dump.text (name : Text) (d : Dump) : Text :=
  bs "Dump of " ++ name ++ bs "\n" ++ digits d.messages.length ++ bs " messages\n" ++ numbered messageLine 0 d.messages ++ bs "\n" ++
    (if d.boxes = [] then [] else
      bs "\nMBOX INFORMATION\n" ++ digits d.boxes.length ++ bs " mboxen\n" ++ numbered boxLine 0 d.boxes ++ bs "\n") ++
    bs "Hash key " ++ hex8 d.key ++ bs "\n\n" ++ rule ++
    section' (bs "To") (tableLines (d.words .to)) ++ rule ++
    section' (bs "Cc") (tableLines (d.words .cc)) ++ rule ++
    section' (bs "From") (tableLines (d.words .sender)) ++ rule ++
    section' (bs "Subject") (tableLines (d.words .subject)) ++ rule ++
    section' (bs "Body") (tableLines (d.words .body)) ++ rule ++
    section' (bs "Attachment names") (tableLines (d.words .attachment)) ++ rule ++
    section' (bs "Message Ids") (bs "Chain 0\n" ++ tableLines d.mentioned ++ (bs "Chain 1\n" ++ tableLines d.own)) ++ rule

/-- The word is printed with message `i` under it. -/
def Under (t : List (Text × List Nat)) (w : Text) (i : Nat) : Prop := ∃ l, (w, l) ∈ t ∧ i ∈ l

/-- Each word is there once, with numbers of messages in order. -/
def Orderly (t : List (Text × List Nat)) (n : Nat) : Prop :=
  (t.map Prod.fst).Nodup ∧ ∀ e ∈ t, e.2.Pairwise (· < ·) ∧ ∀ i ∈ e.2, i < n

/-- The message printed is the listed one. -/
def ShownMsg.Names (m : ShownMsg) (e : Listed) : Prop :=
  match m.place with
  | .file p _ _ => e.kind = .file ∧ e.path = p
  | .imap p _ => e.kind = .imap ∧ e.path = p
  | _ => False

/-- The words and identifiers printed with number `i` are those of the message that was read, if any. -/
structure ToldWords (dump : Dump) (i : Nat) (found : Rfc822 → Prop) : Prop where
  words : ∀ f v, f ≠ .path → (Under (dump.words f) v i ↔ ∃ m, found m ∧ HasWord m f v)
  own : ∀ v, Under dump.own v i ↔ ∃ m, found m ∧ HasId m true v
  mentioned : ∀ v, Under dump.mentioned v i ↔ ∃ m own, found m ∧ HasId m own v

/-- What is printed of message `i` is right for what is found at `e`. -/
structure ToldOf (w : World) (e : Listed) (dump : Dump) (i : Nat) (m : ShownMsg) : Prop where
  words : ToldWords dump i (Reads w e)
  size : ∀ p size tid t s, m.place = .file p size tid → w.stat p = .file t s → size = s % 2 ^ 32
  seen : m.seen = true ↔ (∃ x, Reads w e x) ∧ MaildirFlag 0x53 e.path
  replied : m.replied = true ↔ (∃ x, Reads w e x) ∧ MaildirFlag 0x52 e.path
  flagged : m.flagged = true ↔ (∃ x, Reads w e x) ∧ MaildirFlag 0x46 e.path

/-- The dump of the database after the runs `hist`, of which `r` is the last, agrees with the mail. -/
structure DumpAgrees (hist : List Run) (r : Run) (dump : Dump) : Prop where
  /-- No message is there twice. -/
  once : ∀ (i j : Nat) m m' e, dump.messages[i]? = some m → dump.messages[j]? = some m' → m.Names e → m'.Names e → i = j
  /-- Only messages listed in the last run are there, -/
  listed : ∀ m ∈ dump.messages, ∀ e, m.Names e → e ∈ r.listed
  /-- and all of them, as far as they are readable files or on an IMAP server. -/
  all : ∀ e ∈ r.listed, addable r.world e = true → ∃ m ∈ dump.messages, m.Names e
  /-- Each is described as it was found in some run, where it had, unless the last run was a fast one, the same
  modification time as in the last run. -/
  entry : ∀ (i : Nat) m e, dump.messages[i]? = some m → m.Names e → ∃ r' ∈ hist, ToldOf r'.world e dump i m ∧
    (r.fast = false → e.kind = .file → ∃ t s t' s', r'.world.stat e.path = .file t s ∧ r.world.stat e.path = .file t' s' ∧
      u32 t = u32 t')
  /-- A message in an mbox is in one found in the last run, which is printed with its path and has more messages than its
  number says, and was in some run found there at its offset. -/
  boxed : ∀ (i : Nat) m box number offset size tid, dump.messages[i]? = some m → m.place = .mbox box number offset size tid →
    ∃ n p, dump.boxes[box]? = some (some (n, p)) ∧ number < n ∧ (∃ e ∈ r.extant, e.path = p) ∧
      ∃ r' ∈ hist, ∃ va, r'.mboxWorld.contents p = .data va ∧ offset + size ≤ va.length ∧
        ToldWords dump i (fun x => (r'.mboxWorld.parse (between va offset (offset + size))).1 = some x)
  /-- Each word and identifier is there once, with numbers of messages in order. -/
  orderly : (∀ f, Orderly (dump.words f) dump.messages.length) ∧ Orderly dump.mentioned dump.messages.length ∧
    Orderly dump.own dump.messages.length
  /-- No word is printed without messages. -/
  used : (∀ f, ∀ e ∈ dump.words f, e.2 ≠ []) ∧ ∀ e ∈ dump.mentioned, e.2 ≠ []

end Mairix.Spec
