import Verif.Proofs.DbWrite2
import Verif.Proofs.Good

/-! Reading back what was written. -/

namespace Mairix
open Spec

theorem rd32_at {d : Text} {k v : Nat} (h : At d (4 * k) (le32 v)) : rd32 d k = .ok (v % 2 ^ 32) := by
  have h0 := h 0 (by simp [le32])
  have h1 := h 1 (by simp [le32])
  have h2 := h 2 (by simp [le32])
  have h3 := h 3 (by simp [le32])
  simp only [le32, Nat.add_zero, List.getElem?_cons_zero, List.getElem?_cons_succ] at h0 h1 h2 h3
  simp only [rd32, h0, h1, h2, h3, UInt8.toNat_ofNat']
  congr 1
  omega

theorem rd32At_at {d : Text} {off v : Nat} (h : At d off (le32 v)) : rd32At d off = .ok (v % 2 ^ 32) := by
  have h0 := h 0 (by simp [le32])
  have h1 := h 1 (by simp [le32])
  have h2 := h 2 (by simp [le32])
  have h3 := h 3 (by simp [le32])
  simp only [le32, Nat.add_zero, List.getElem?_cons_zero, List.getElem?_cons_succ] at h0 h1 h2 h3
  simp only [rd32At, h0, h1, h2, h3, UInt8.toNat_ofNat']
  congr 1
  omega

theorem rd32_inside {d : Text} {k : Nat} (h : 4 * (k + 1) ≤ d.length) : ∃ v, rd32 d k = .ok v := by
  simp only [rd32, List.getElem?_eq_getElem (by omega : 4 * k < d.length), List.getElem?_eq_getElem (by omega : 4 * k + 1 < d.length),
    List.getElem?_eq_getElem (by omega : 4 * k + 2 < d.length), List.getElem?_eq_getElem (by omega : 4 * k + 3 < d.length)]
  exact ⟨_, rfl⟩

theorem at_append {d : Text} {off : Nat} {a b : List UInt8} (h : At d off (a ++ b)) : At d off a ∧ At d (off + a.length) b := by
  constructor
  · intro i hi
    rw [h i (by simp; omega), List.getElem?_append_left hi]
  · intro i hi
    rw [Nat.add_assoc, h (a.length + i) (by simp; omega), List.getElem?_append_right (by omega)]
    congr 1
    omega

theorem tokenAt_at {d : Text} {off : Nat} {t : Text} (h : At d off (t ++ [0])) (ht : 0 ∉ t) : tokenAt d off = some t := by
  obtain ⟨rest, hr⟩ := at_drop h
  simp only [tokenAt, hr]
  rw [if_pos (by simp)]
  congr 1
  rw [List.append_assoc, List.takeWhile_append_of_pos]
  · simp
  · intro x hx
    simp only [decide_eq_true_eq, ne_eq]
    rintro rfl
    exact ht hx

theorem decodeMboxIndices_at {d : Text} {off mb msg : Nat} (h : At d off (encodeMboxIndices mb msg)) :
    decodeMboxIndices d off = .ok (mb % 2 ^ 32, msg % 2 ^ 32) := by
  obtain ⟨h1, h2⟩ := at_append h
  rw [le32_length] at h2
  simp only [decodeMboxIndices, rd32At_at h1, rd32At_at h2, bind, Except.bind]

theorem rounds_pairs {α β : Type} {R : α → β → Prop} {f : Nat → Res β} : ∀ (l : List α) (i : Nat),
    (∀ (j : Nat) a, l[j]? = some a → ∃ b, f (i + j) = .ok b ∧ R a b) →
    ∃ bs, rounds f i l.length = .ok bs ∧ Pairs R l bs := by
  intro l
  induction l with
  | nil => intro i _; exact ⟨[], rfl, .nil⟩
  | cons a l ih =>
    intro i h
    obtain ⟨b, hb, hR⟩ := h 0 a rfl
    obtain ⟨bs, hbs, hp⟩ := ih (i + 1) (by
      intro j a hj
      obtain ⟨b, hb, hR⟩ := h (j + 1) a (by simpa using hj)
      rw [show i + (j + 1) = i + 1 + j by omega] at hb
      exact ⟨b, hb, hR⟩)
    rw [Nat.add_zero] at hb
    exact ⟨b :: bs, by simp only [List.length_cons, rounds, hb, hbs, bind, Except.bind], .cons hR hp⟩

/-- The opened file. -/
def rawOf (key : Nat) (db : Database) (d : Text) : RawDb :=
  let map := computeMapping db
  { data := d
    nMsgs := db.msgs.length
    types := 4 * map.beyond
    path := map.path
    mtime := map.mtime
    size := map.size
    date := map.date
    tid := map.tid
    nMboxen := db.mboxen.length
    mboxPaths := map.mboxPaths
    mboxEntries := map.mboxEntries
    mboxMtime := map.mboxMtime
    mboxSize := map.mboxSize
    mboxChecksum := map.mboxChecksum
    hashKey := key % 2 ^ 32
    to := { n := db.tables.to.n, tok := map.to.tok, enc := map.to.enc }
    cc := { n := db.tables.cc.n, tok := map.cc.tok, enc := map.cc.enc }
    «from» := { n := db.tables.from.n, tok := map.from.tok, enc := map.from.enc }
    subject := { n := db.tables.subject.n, tok := map.subject.tok, enc := map.subject.enc }
    body := { n := db.tables.body.n, tok := map.body.tok, enc := map.body.enc }
    attachmentName := { n := db.tables.attachmentName.n, tok := map.attachmentName.tok, enc := map.attachmentName.enc }
    msgIds := { n := db.tables.msgIds.n, tok := map.msgIdTok, enc0 := map.msgIdEnc0, enc1 := map.msgIdEnc1 } }

theorem getTable_ok {d : Text} {k off size : Nat} (h : At d (4 * k) (le32 off)) (h1 : 4 * (off + size) ≤ d.length)
    (h2 : d.length < 2 ^ 31) : getTable d k size = .ok off := by
  simp only [getTable, rd32_at h, bind, Except.bind]
  rw [Nat.mod_eq_of_lt (by omega : off < 2 ^ 32), if_neg]
  rw [Nat.mod_eq_of_lt (by omega)]
  omega

theorem readTable_ok {d : Text} {k n tok enc : Nat} (h : At d (4 * k) (le32 n)) (ht : At d (4 * (k + 1)) (le32 tok))
    (he : At d (4 * (k + 2)) (le32 enc)) (h1 : 4 * (tok + n) ≤ d.length) (h3 : 4 * (enc + n) ≤ d.length)
    (h2 : d.length < 2 ^ 31) : readTable d k = .ok { n, tok, enc } := by
  simp only [readTable, rd32_at h, rd32_at ht, rd32_at he, bind, Except.bind, Nat.mod_eq_of_lt (by omega : n < 2 ^ 32),
    Nat.mod_eq_of_lt (by omega : tok < 2 ^ 32), Nat.mod_eq_of_lt (by omega : enc < 2 ^ 32), fitsFile,
    if_neg (by omega : ¬ 4 * (tok + n) > d.length), if_neg (by omega : ¬ 4 * (enc + n) > d.length)]

theorem readTable2_ok {d : Text} {k n tok enc0 enc1 : Nat} (h : At d (4 * k) (le32 n)) (ht : At d (4 * (k + 1)) (le32 tok))
    (he : At d (4 * (k + 2)) (le32 enc0)) (he' : At d (4 * (k + 3)) (le32 enc1)) (h1 : 4 * (tok + n) ≤ d.length)
    (h3 : 4 * (enc0 + n) ≤ d.length) (h4 : 4 * (enc1 + n) ≤ d.length)
    (h2 : d.length < 2 ^ 31) : readTable2 d k = .ok { n, tok, enc0, enc1 } := by
  simp only [readTable2, rd32_at h, rd32_at ht, rd32_at he, rd32_at he', bind, Except.bind, Nat.mod_eq_of_lt (by omega : n < 2 ^ 32),
    Nat.mod_eq_of_lt (by omega : tok < 2 ^ 32), Nat.mod_eq_of_lt (by omega : enc0 < 2 ^ 32),
    Nat.mod_eq_of_lt (by omega : enc1 < 2 ^ 32), fitsFile,
    if_neg (by omega : ¬ 4 * (tok + n) > d.length), if_neg (by omega : ¬ 4 * (enc0 + n) > d.length),
    if_neg (by omega : ¬ 4 * (enc1 + n) > d.length)]

/-- The file `d` is what has been written of the database. It may be longer than needed. -/
structure Written (key : Nat) (db : Database) (d : Text) (ws : List Write) : Prop where
  file : FileIn key db ws
  stored : Stored ws d
  length : fileLength db ≤ d.length
  fits : d.length < 2 ^ 31
  boxes : verifyMboxSizes db = true

theorem Written.small {key : Nat} {db : Database} {d : Text} {ws : List Write} (h : Written key db d ws) :
    fileLength db < 2 ^ 31 := Nat.lt_of_le_of_lt h.length h.fits

theorem Written.word {key : Nat} {db : Database} {d : Text} {ws : List Write} (h : Written key db d ws) {k v : Nat}
    (hw : .word k v ∈ ws) : At d (4 * k) (le32 v) := h.stored _ hw

theorem Written.block {key : Nat} {db : Database} {d : Text} {ws : List Write} (h : Written key db d ws) {k : Nat} {b : List UInt8}
    (hw : .block k b ∈ ws) : At d k b := h.stored _ hw

theorem Written.head {key : Nat} {db : Database} {d : Text} {ws : List Write} (h : Written key db d ws) {k v : Nat}
    (hw : .word k v ∈ writeHeader key db (computeMapping db)) : At d (4 * k) (le32 v) := h.word (h.file.header _ hw)

theorem openDb_spec {key : Nat} {db : Database} {d : Text} {ws : List Write} (h : Written key db d ws) :
    openDb d = .ok (rawOf key db d) := by
  have hl := h.length
  have hlt := h.small
  obtain ⟨hl1, hl2⟩ := fileLength_ge db
  have hmagic := h.block (h.file.header (.block 0 [0x4d, 0x58, 0xa5, 0x04]) (List.mem_cons_self ..))
  have hm : magicOk d = true := by
    have h0 := hmagic 0 (by simp)
    have h1 := hmagic 1 (by simp)
    have h2 := hmagic 2 (by simp)
    have h3 := hmagic 3 (by simp)
    simp only [List.getElem?_cons_zero, List.getElem?_cons_succ, Nat.zero_add] at h0 h1 h2 h3
    simp [magicOk, h0, h1, h2, h3]
  have e1 := rd32_at (h.head (k := 1) (v := 0x44332211) (by simp [writeHeader, tableHeader]))
  have e2 := rd32_at (h.head (k := 2) (v := db.msgs.length) (by simp [writeHeader, tableHeader]))
  have e3 := rd32_at (h.word (h.file.types (.word 3 (4 * (computeMapping db).beyond)) (by simp [writeTypes])))
  have e9 := rd32_at (h.head (k := 9) (v := db.mboxen.length) (by simp [writeHeader, tableHeader]))
  have e15 := rd32_at (h.head (k := 15) (v := key) (by simp [writeHeader, tableHeader]))
  have hb : (computeMapping db).beyond = headerWords + 5 * db.msgs.length + 5 * db.mboxen.length + 2 * db.tables.to.n +
      2 * db.tables.cc.n + 2 * db.tables.from.n + 2 * db.tables.subject.n + 2 * db.tables.body.n +
      2 * db.tables.attachmentName.n + 3 * db.tables.msgIds.n := rfl
  have hD : ∀ {a b : Nat}, a + b ≤ (computeMapping db).beyond → 4 * (a + b) ≤ d.length := by intro a b hab; omega
  have hlt' : d.length < 2 ^ 31 := h.fits
  have e4 := getTable_ok (size := db.msgs.length) (h.head (k := 4) (v := (computeMapping db).path) (by simp [writeHeader, tableHeader]))
    (hD (by simp only [computeMapping]; omega)) hlt'
  have e5 := getTable_ok (size := db.msgs.length) (h.head (k := 5) (v := (computeMapping db).mtime) (by simp [writeHeader, tableHeader]))
    (hD (by simp only [computeMapping]; omega)) hlt'
  have e6 := getTable_ok (size := db.msgs.length) (h.head (k := 6) (v := (computeMapping db).size) (by simp [writeHeader, tableHeader]))
    (hD (by simp only [computeMapping]; omega)) hlt'
  have e7 := getTable_ok (size := db.msgs.length) (h.head (k := 7) (v := (computeMapping db).date) (by simp [writeHeader, tableHeader]))
    (hD (by simp only [computeMapping]; omega)) hlt'
  have e8 := getTable_ok (size := db.msgs.length) (h.head (k := 8) (v := (computeMapping db).tid) (by simp [writeHeader, tableHeader]))
    (hD (by simp only [computeMapping]; omega)) hlt'
  have e10 := getTable_ok (size := db.mboxen.length) (h.head (k := 10) (v := (computeMapping db).mboxPaths) (by simp [writeHeader, tableHeader]))
    (hD (by simp only [computeMapping]; omega)) hlt'
  have e11 := getTable_ok (size := db.mboxen.length) (h.head (k := 11) (v := (computeMapping db).mboxEntries) (by simp [writeHeader, tableHeader]))
    (hD (by simp only [computeMapping]; omega)) hlt'
  have e12 := getTable_ok (size := db.mboxen.length) (h.head (k := 12) (v := (computeMapping db).mboxMtime) (by simp [writeHeader, tableHeader]))
    (hD (by simp only [computeMapping]; omega)) hlt'
  have e13 := getTable_ok (size := db.mboxen.length) (h.head (k := 13) (v := (computeMapping db).mboxSize) (by simp [writeHeader, tableHeader]))
    (hD (by simp only [computeMapping]; omega)) hlt'
  have e14 := getTable_ok (size := db.mboxen.length) (h.head (k := 14) (v := (computeMapping db).mboxChecksum) (by simp [writeHeader, tableHeader]))
    (hD (by simp only [computeMapping]; omega)) hlt'
  have e16 := readTable_ok (k := 16) (n := db.tables.to.n) (tok := (computeMapping db).to.tok) (enc := (computeMapping db).to.enc)
    (h.head (by simp [writeHeader, tableHeader])) (h.head (by simp [writeHeader, tableHeader]))
    (h.head (by simp [writeHeader, tableHeader])) (hD (by simp only [computeMapping, tokMap]; omega))
    (hD (by simp only [computeMapping, tokMap]; omega)) hlt'
  have e19 := readTable_ok (k := 19) (n := db.tables.cc.n) (tok := (computeMapping db).cc.tok) (enc := (computeMapping db).cc.enc)
    (h.head (by simp [writeHeader, tableHeader])) (h.head (by simp [writeHeader, tableHeader]))
    (h.head (by simp [writeHeader, tableHeader])) (hD (by simp only [computeMapping, tokMap]; omega))
    (hD (by simp only [computeMapping, tokMap]; omega)) hlt'
  have e22 := readTable_ok (k := 22) (n := db.tables.from.n) (tok := (computeMapping db).from.tok) (enc := (computeMapping db).from.enc)
    (h.head (by simp [writeHeader, tableHeader])) (h.head (by simp [writeHeader, tableHeader]))
    (h.head (by simp [writeHeader, tableHeader])) (hD (by simp only [computeMapping, tokMap]; omega))
    (hD (by simp only [computeMapping, tokMap]; omega)) hlt'
  have e25 := readTable_ok (k := 25) (n := db.tables.subject.n) (tok := (computeMapping db).subject.tok)
    (enc := (computeMapping db).subject.enc)
    (h.head (by simp [writeHeader, tableHeader])) (h.head (by simp [writeHeader, tableHeader]))
    (h.head (by simp [writeHeader, tableHeader])) (hD (by simp only [computeMapping, tokMap]; omega))
    (hD (by simp only [computeMapping, tokMap]; omega)) hlt'
  have e28 := readTable_ok (k := 28) (n := db.tables.body.n) (tok := (computeMapping db).body.tok) (enc := (computeMapping db).body.enc)
    (h.head (by simp [writeHeader, tableHeader])) (h.head (by simp [writeHeader, tableHeader]))
    (h.head (by simp [writeHeader, tableHeader])) (hD (by simp only [computeMapping, tokMap]; omega))
    (hD (by simp only [computeMapping, tokMap]; omega)) hlt'
  have e31 := readTable_ok (k := 31) (n := db.tables.attachmentName.n) (tok := (computeMapping db).attachmentName.tok)
    (enc := (computeMapping db).attachmentName.enc)
    (h.head (by simp [writeHeader, tableHeader])) (h.head (by simp [writeHeader, tableHeader]))
    (h.head (by simp [writeHeader, tableHeader])) (hD (by simp only [computeMapping, tokMap]; omega))
    (hD (by simp only [computeMapping, tokMap]; omega)) hlt'
  have e34 := readTable2_ok (k := 34) (n := db.tables.msgIds.n) (tok := (computeMapping db).msgIdTok)
    (enc0 := (computeMapping db).msgIdEnc0) (enc1 := (computeMapping db).msgIdEnc1)
    (h.head (by simp [writeHeader, tableHeader])) (h.head (by simp [writeHeader, tableHeader]))
    (h.head (by simp [writeHeader, tableHeader])) (h.head (by simp [writeHeader, tableHeader]))
    (hD (by simp only [computeMapping]; omega))
    (hD (by simp only [computeMapping]; omega)) (hD (by simp only [computeMapping]; omega)) hlt'
  rw [Nat.mod_eq_of_lt (by omega)] at e2 e3 e9
  simp only [openDb, if_neg (by omega : ¬ d.length ≥ 2 ^ 31), require, show decide (160 ≤ d.length) = true by simp; omega,
    hm, e1, e2, e3, e4, e5, e6, e7, e8, e9, e10, e11, e12, e13, e14, e15, e16, e19, e22, e25, e28, e31, e34, bind, Except.bind,
    if_true, show endianOk (0x44332211 % 2 ^ 32) = true by decide]
  rfl

end Mairix
