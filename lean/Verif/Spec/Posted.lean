import Verif.Spec.BoxWhole
import Verif.Spec.Whole
import Verif.Spec.Output

/-!
# Mail delivered to an mbox (specification)
-/

namespace Mairix.Spec

/-- A message as it is delivered to an mbox: what follows `From ` in the From line, the text, and its meaning. -/
structure Posted where
  line : Text
  text : Text
  meaning : Rfc822

/-- What is appended to the file. -/
def Posted.bytes (m : Posted) : Text := bs "From " ++ (m.line ++ 0x0a :: m.text)

/-- The mbox after these deliveries. -/
def boxBytes (ms : List Posted) : Text := ms.flatMap Posted.bytes

/-- The position and length of the text of delivery number `k`. -/
def placeOf (ms : List Posted) (k : Nat) (m : Posted) : Nat × Nat := ((boxBytes (ms.take k)).length + (bs "From ").length + m.line.length + 1, m.text.length)

/-- The From line is one, the text ends with a newline, has no From line in it (delivery agents quote them), and has its meaning in the sense of C47. -/
structure Posted.Ok (mktime : Nat → Nat → Nat → Int) (m : Posted) : Prop where
  oneLine : 0x0a ∉ m.line
  isFrom : fromCheck m.line = true
  ends : ∃ t, m.text = t ++ [0x0a]
  quoted : NoFrom m.text
  means : MimeMeans mktime (.message m.text m.meaning)

/-- There is a file at the path, not a symbolic link, with these deliveries. -/
structure MboxAt (d : Disc) (p : Text) (ms : List Posted) : Prop where
  data : d.data p = some (boxBytes ms)
  file : IsFile d.fs p
  plain : ∃ sb, d.fs.lstat p = some sb ∧ sb.link = false ∧ sb.size = (boxBytes ms).length

/-- There is nothing yet at the path, or a file with these deliveries. -/
def MboxNow (d : Disc) (p : Text) (ms : List Posted) : Prop :=
  (ms = [] ∧ d.fs.lstat p = none ∧ d.fs.stat p = none) ∨ MboxAt d p ms

/-- What there is to know about the message `m` in the mbox at the path when searching. -/
structure TellsPosted (m : Posted) (p : Text) (x : Info) : Prop where
  words : ∀ f v, v ∈ x.words f ↔ HasWord m.meaning f v
  ids : ∀ v, v ∈ x.ids ↔ HasId m.meaning true v
  path : x.path = some p
  date : x.date = u32 m.meaning.hdrs.date
  size : x.size = m.text.length
  seen : x.has .seen = m.meaning.hdrs.seen
  replied : x.has .replied = m.meaning.hdrs.replied
  flagged : x.has .flagged = m.meaning.hdrs.flagged

end Mairix.Spec
