import Verif.Model.Run
import Verif.Spec.Update

/-!
# What an indexing run relies on (specification)
-/

namespace Mairix.Spec

/-- `q` is `qsort` with the comparison `cmp`: some permutation that is in order. -/
def Sorts {α : Type} (cmp : α → α → Ordering) (q : List α → List α) : Prop :=
  ∀ l, (q l).Perm l ∧ (q l).Pairwise fun a b => cmp a b ≠ .gt

mutual
/-- The strings of a parsed message that go into the index whole hold no zero byte: as C strings they
cannot. -/
def CText : Rfc822 → Prop
  | .mk h atts => (∀ s, h.messageId = some s → 0 ∉ s) ∧ (∀ s, h.inReplyTo = some s → 0 ∉ s) ∧
      (∀ s, h.references = some s → 0 ∉ s) ∧ CTextParts atts
def CTextParts : Attachments → Prop
  | .nil => True
  | .cons b name rest => CTextBody b ∧ (∀ s, name = some s → 0 ∉ s) ∧ CTextParts rest
def CTextBody : Body → Prop
  | .message m => CText m
  | _ => True
end

/-- What the C library and the file system promise to a run: `qsort` sorts, paths and header strings are
C strings, a checksum has 16 bytes. -/
structure Sane (r : Run) : Prop where
  sortListed : Sorts messageCompare r.sortListed
  sortExtant : Sorts (fun a b => strcmp a.path b.path) r.sortExtant
  sortTexts : Sorts strcmp r.sortTexts
  sortTokens : Sorts compareSortable r.sortTokens
  listed : ∀ e ∈ r.listed, 0 ∉ e.path
  extant : ∀ e ∈ r.extant, 0 ∉ e.path
  read : ∀ k p m, r.world.read k p = some m → CText m
  parse : ∀ s m, (r.mboxWorld.parse s).1 = some m → CText m
  md5 : ∀ s, (r.mboxWorld.md5 s).length = 16
  /-- the length of a mapped file is an `int` -/
  contents : ∀ p va, r.mboxWorld.contents p = .data va → va.length < 2 ^ 31

/-- `m` is, as far as its numbers can be told from 32 bits, a right entry for what is found at `e`. -/
structure EntryOf (w : World) (e : Listed) (m : Msg) : Prop where
  src : match e.kind with
    | .imap => m.src = .imap e.path
    | .file => ∃ mtime size mtime' size', w.stat e.path = .file mtime size ∧ m.src = .file e.path mtime' size' ∧
        u32 mtime' = u32 mtime ∧ size' % 2 ^ 32 = size % 2 ^ 32
  read : ∀ r, Reads w e r → u32 m.date = u32 r.hdrs.date ∧
    (m.seen = true ↔ MaildirFlag 0x53 e.path) ∧ (m.replied = true ↔ MaildirFlag 0x52 e.path) ∧
    (m.flagged = true ↔ MaildirFlag 0x46 e.path)
  notRead : (∀ r, ¬ Reads w e r) → u32 m.date = 0 ∧ m.seen = false ∧ m.replied = false ∧ m.flagged = false

/-- The mail is the same in the two runs: the same folders are listed, in whatever order, the files have not
changed. -/
structure SameMail (r r' : Run) : Prop where
  listed : r'.listed.Perm r.listed
  extant : r'.extant.Perm r.extant
  world : r'.world = r.world
  boxes : r'.mboxWorld = r.mboxWorld

/-- The modification times and sizes can be kept in 32 bits: times from 1970 to 2106, mboxen below 4
gigabytes. -/
structure Kept32 (r : Run) : Prop where
  files : ∀ e ∈ r.listed, e.kind = .file → ∀ t, modified r.world e.path = some t → 0 ≤ t ∧ t < 2 ^ 32
  boxes : ∀ e ∈ r.extant, (0 ≤ e.mtime ∧ e.mtime < 2 ^ 32) ∧ e.size < 2 ^ 32

end Mairix.Spec
