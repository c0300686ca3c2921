import Verif.Spec.Update
import Verif.Model.MboxUpdate

/-!
# What becomes of the messages found in an mbox (specification)
-/

namespace Mairix.Spec

/-- The bytes of the file from `s` up to `e`. -/
def between (va : Text) (s e : Nat) : Text := (va.drop s).take (e - s)

/-- The parts found between From lines, put together to messages: where a part, parsed as a message, lacks
the end of a multipart, the following parts are joined to it until it does not, at most 99 of them; if
that does not help the part stands alone. Each message comes with what it was parsed to. -/
inductive Grouped (w : MboxWorld) (va : Text) : List (Nat × Nat) → List ((Nat × Nat) × Option Rfc822) → Prop
  | nil : Grouped w va [] []
  | joined {s l rest j c more} : ((s, l) :: rest)[j]? = some c → j < 100 →
      (∀ (i : Nat) c', i < j → ((s, l) :: rest)[i]? = some c' → (w.parse (between va s (c'.1 + c'.2))).2 = true) →
      (w.parse (between va s (c.1 + c.2))).2 = false →
      Grouped w va (rest.drop j) more →
      Grouped w va ((s, l) :: rest) (((s, c.1 + c.2 - s), (w.parse (between va s (c.1 + c.2))).1) :: more)
  | alone {s l rest more} :
      (∀ (i : Nat) c', i < 100 → ((s, l) :: rest)[i]? = some c' → (w.parse (between va s (c'.1 + c'.2))).2 = true) →
      Grouped w va rest more →
      Grouped w va ((s, l) :: rest) (((s, l), (w.parse (between va s (s + l))).1) :: more)

/-- `m` is a right entry for message number `j` of mbox number `fi`, parsed to `r8`. Of a message that
could not be parsed nothing but the place is known. -/
def IsBoxEntry (fi j : Nat) (r8 : Option Rfc822) (m : Msg) : Prop :=
  m.src = .mbox fi j ∧ ∀ r, r8 = some r → m.date = r.hdrs.date ∧ m.seen = r.hdrs.seen ∧
    m.replied = r.hdrs.replied ∧ m.flagged = r.hdrs.flagged

/-- Entries for consecutive messages of mbox `fi` from number `j` on. -/
inductive BoxEntries (fi : Nat) : Nat → List ((Nat × Nat) × Option Rfc822) → List Msg → Prop
  | nil {j} : BoxEntries fi j [] []
  | cons {j g gs m ms} : IsBoxEntry fi j g.2 m → BoxEntries fi (j + 1) gs ms → BoxEntries fi j (g :: gs) (m :: ms)

/-- An mbox known to the index, once it is known which mboxen exist: with its present time and size, or
dead if it has gone. -/
def married (extant : List Extant) (mb : Mbox) : Mbox :=
  match mb.path.bind fun p => extant.find? (·.path = p) with
  | some e => { mb with currentMtime := e.mtime, currentSize := e.size }
  | none => { mb with nOldValid := 0, msgs := [], path := none }

/-- The mboxen that exist and are not known to the index. -/
def newBoxes (extant : List Extant) (mbs : List Mbox) : List Mbox :=
  (extant.filter fun e => decide (some e.path ∉ mbs.map (·.path))).map newMbox

/-- What becomes of an mbox when its messages are looked up again. -/
inductive Refreshed (w : MboxWorld) (mb : Mbox) : Mbox → Prop
  | dead : mb.path = none → Refreshed w mb { mb with newMsgs := [] }
  /-- time and size are as before: nothing is looked at -/
  | same {p} : mb.path = some p → mb.currentMtime = mb.fileMtime → mb.currentSize = mb.fileSize →
      Refreshed w mb { mb with newMsgs := [], nOldValid := mb.msgs.length }
  /-- the number `n` of old messages still there is found, and the new ones behind them -/
  | scanned {p va n new} : mb.path = some p → ¬ (mb.currentMtime = mb.fileMtime ∧ mb.currentSize = mb.fileSize) →
      w.contents p = .data va → findNumberIntact w { mb with newMsgs := [] } va = .ok n →
      buildNewMessageList w { mb with newMsgs := [], nOldValid := n } va = .ok new →
      Refreshed w mb { mb with nOldValid := n, newMsgs := new }
  | empty {p} : mb.path = some p → ¬ (mb.currentMtime = mb.fileMtime ∧ mb.currentSize = mb.fileSize) →
      w.contents p = .empty → Refreshed w mb { mb with newMsgs := [], nOldValid := 0, msgs := [] }
  | failed {p} : mb.path = some p → ¬ (mb.currentMtime = mb.fileMtime ∧ mb.currentSize = mb.fileSize) →
      w.contents p = .failed → Refreshed w mb { mb with newMsgs := [], nOldValid := 0, msgs := [], path := none }

end Mairix.Spec
