import Verif.Model.DbFile

/-!
# The database file (specification)

What must be found again of a database that was written, and what it means for stores not to overlap.
-/

namespace Mairix

/-- Times, sizes and offsets pass through 32 bits. -/
def savedSrc : Src → Src
  | .file p mtime size => .file p (u32 mtime) (size % 2 ^ 32)
  | .imap p => .imap p
  | .mbox fi mi => .mbox fi mi
  | .dead => .dead

/-- The message `m'` loaded for the message `m` saved. The date of a dead message is not saved. -/
structure SavedMsg (m m' : Msg) : Prop where
  src : m'.src = savedSrc m.src
  tid : m'.tid = m.tid % 2 ^ 32
  seen : m'.seen = m.seen
  replied : m'.replied = m.replied
  flagged : m'.flagged = m.flagged
  date : m.src ≠ .dead → m'.date = u32 m.date

/-- The mbox `mb'` loaded for the mbox `mb` saved, when its first `k` messages are indexed. -/
structure SavedBox (k : Nat) (mb mb' : Mbox) : Prop where
  path : mb'.path = mb.path
  mtime : mb'.fileMtime = u32 mb.currentMtime
  size : mb'.fileSize = mb.currentSize % 2 ^ 32
  length : mb'.msgs.length = mb.msgs.length
  each : ∀ (j : Nat) e, mb.msgs[j]? = some e → ∃ e', mb'.msgs[j]? = some e' ∧ e'.check = e.check ∧
    (k ≤ j → e'.pos = none) ∧ (j < k → ∃ s l, e.pos = some (s, l) ∧ e'.pos = some (s % 2 ^ 32, l % 2 ^ 32))
  fresh : mb'.currentMtime = 0 ∧ mb'.currentSize = 0 ∧ mb'.nOldValid = 0 ∧ mb'.newMsgs = []

/-- Where a store begins and what it stores. -/
def Write.place : Write → Nat × List UInt8
  | .word k v => (4 * k, le32 v)
  | .block off b => (off, b)

/-- The two stores do not overlap. -/
def Apart (w w' : Write) : Prop :=
  w.place.1 + w.place.2.length ≤ w'.place.1 ∨ w'.place.1 + w'.place.2.length ≤ w.place.1

end Mairix
