import Verif.Spec.Mail
import Verif.Spec.Mbox

/-!
# When all messages of an mbox are found (specification)
-/

namespace Mairix.Spec

/-- A message of an mbox: its position, its length, and what it is parsed to. -/
abbrev BoxMsg := (Nat × Nat) × Option Rfc822

/-- The file is taken for one in MMDF format. -/
def Mmdf (va : Text) : Prop := 10 < va.length ∧ va.take 5 = [1, 1, 1, 1, 0x0a]

/-- The messages of an mbox with the text `va`: it is split at the From lines, and parts are joined where a part
lacks the end of a multipart. -/
def BoxMessages (w : MboxWorld) (va : Text) (gs : List BoxMsg) : Prop :=
  ∃ parts, Splits w.isFrom va 0 parts ∧ Grouped w va parts gs

/-- The text of the mbox at `p` in the run. -/
def boxText (r : Run) (p : Text) : Text :=
  match r.mboxWorld.contents p with
  | .data va => va
  | _ => []

/-- In the run the mbox at `p` could be read and held the messages `gs`. -/
def BoxHolds (r : Run) (p : Text) (gs : List BoxMsg) : Prop :=
  (r.mboxWorld.contents p = .empty ∧ gs = []) ∨ ∃ va, r.mboxWorld.contents p = .data va ∧ BoxMessages r.mboxWorld va gs

/-- The text of a message. -/
def BoxMsg.text (va : Text) (g : BoxMsg) : Text := between va g.1.1 (g.1.1 + g.1.2)

/-- How an mbox changes: the first `k` messages are left alone and none of the others is left at its place; unless
messages were only added there is a message behind the first `k` now. -/
structure Edited (va va' : Text) (gs gs' : List BoxMsg) (k : Nat) : Prop where
  le : k ≤ gs.length
  same : gs.take k = gs'.take k
  text : ∀ g ∈ gs.take k, g.text va = g.text va'
  gone : ∀ g ∈ gs.drop k, va'.length < g.1.1 + g.1.2 ∨ g.text va ≠ g.text va'
  more : k = gs.length ∨ k < gs'.length

/-- What is assumed of the mbox at `p` during the runs. -/
structure Steady (hist : List Run) (p : Text) : Prop where
  /-- The same program does the runs. -/
  tools : ∀ r ∈ hist, ∀ r' ∈ hist, r'.mboxWorld.parse = r.mboxWorld.parse ∧ r'.mboxWorld.md5 = r.mboxWorld.md5 ∧
    r'.mboxWorld.isFrom = r.mboxWorld.isFrom
  /-- It is not an MMDF file. -/
  fromLines : ∀ r ∈ hist, ¬ Mmdf (boxText r p)
  /-- A file of size zero is empty. -/
  size : ∀ r ∈ hist, ∀ x ∈ r.extant, x.path = p → x.size = 0 → r.mboxWorld.contents p = .empty
  /-- If there is another text at the place of a message in another run, it has another checksum. -/
  sums : ∀ r ∈ hist, ∀ r' ∈ hist, ∀ gs, BoxHolds r p gs → ∀ g ∈ gs, g.1.1 + g.1.2 ≤ (boxText r' p).length →
    r.mboxWorld.md5 (g.text (boxText r p)) = r.mboxWorld.md5 (g.text (boxText r' p)) → g.text (boxText r p) = g.text (boxText r' p)
  /-- The file does not change without a change of its modification time or size (as far as 32 bits tell), -/
  times : hist.Pairwise fun r r' => ∀ x ∈ r.extant, ∀ x' ∈ r'.extant, x.path = p → x'.path = p → u32 x.mtime = u32 x'.mtime →
    x.size % 2 ^ 32 = x'.size % 2 ^ 32 → r.mboxWorld.contents p ≠ .failed → r'.mboxWorld.contents p ≠ .failed →
      r'.mboxWorld.contents p = r.mboxWorld.contents p
  /-- and then the messages left alone are the first ones. -/
  edited : hist.Pairwise fun r r' => ∀ gs gs', BoxHolds r p gs → BoxHolds r' p gs' → r'.mboxWorld.contents p ≠ .empty →
    ∃ k, Edited (boxText r p) (boxText r' p) gs gs' k

/-- The places of the messages in the mbox `p`, in the order of the opened database. -/
def boxPlaces (db : ReadDb) (p : Text) : List (Nat × Nat) :=
  db.msgs.filterMap fun m => if m.type = DB_MSG_MBOX ∧ db.mboxPaths[m.mbix]? = some p then some (m.mtime, m.size) else none

/-- The messages `gs`, and no others, are in the index as those of the mbox `p`, each once and rightly described. -/
structure BoxIndexed (db : ReadDb) (info : List Info) (p : Text) (gs : List BoxMsg) : Prop where
  places : boxPlaces db p = gs.map (·.1)
  each : ∀ (i : Nat) m, db.msgs[i]? = some m → m.type = DB_MSG_MBOX → db.mboxPaths[m.mbix]? = some p →
    ∃ g ∈ gs, g.1 = (m.mtime, m.size) ∧ ∃ x, info[i]? = some x ∧ x.path = some p ∧ x.size = g.1.2 ∧ DescribesText g.2 x

/-- Message number `i` of the opened database is the one at this place in the mbox `p`. -/
def IsInBox (db : ReadDb) (i : Nat) (p : Text) (pl : Nat × Nat) : Prop :=
  ∃ m, db.msgs[i]? = some m ∧ m.type = DB_MSG_MBOX ∧ db.mboxPaths[m.mbix]? = some p ∧ (m.mtime, m.size) = pl

/-- Only the line is looked at to tell whether it is a From line. -/
def ByLine (isFrom : Text → Bool) : Prop := ∀ a b b', 0x0a ∉ a → isFrom (a ++ 0x0a :: b) = isFrom (a ++ 0x0a :: b')

/-- Messages are only ever added to the mbox at `p`, at its end. -/
structure Grows (hist : List Run) (p : Text) : Prop where
  /-- The same program does the runs, and knows From lines by themselves. -/
  tools : ∀ r ∈ hist, ∀ r' ∈ hist, r'.mboxWorld.parse = r.mboxWorld.parse ∧ r'.mboxWorld.md5 = r.mboxWorld.md5 ∧
    r'.mboxWorld.isFrom = r.mboxWorld.isFrom
  byLine : ∀ r ∈ hist, ByLine r.mboxWorld.isFrom
  /-- The size is that of the file. -/
  size : ∀ r ∈ hist, ∀ x ∈ r.extant, x.path = p → x.size = (boxText r p).length
  /-- The file is not there yet, is empty or ends with a newline, -/
  lines : ∀ r ∈ hist, (r.mboxWorld.contents p = .failed ∧ ∀ x ∈ r.extant, x.path ≠ p) ∨ r.mboxWorld.contents p = .empty ∨
    ∃ va v, r.mboxWorld.contents p = .data va ∧ va = v ++ [0x0a] ∧ ¬ Mmdf va
  /-- and no message lacks the end of a multipart. -/
  complete : ∀ r ∈ hist, ∀ gs, BoxHolds r p gs → ∀ g ∈ gs, (r.mboxWorld.parse (g.text (boxText r p))).2 = false
  /-- What is added begins with a From line. -/
  added : hist.Pairwise fun r r' => boxText r' p = boxText r p ∨
    ∃ rest, boxText r' p = boxText r p ++ (bs "From " ++ rest) ∧ r.mboxWorld.isFrom rest = true

end Mairix.Spec
