import Verif.Proofs.DbRead

/-! Reading back messages, mboxen and tables. -/

namespace Mairix
open Spec

/-- Entry `x` of the tables in the file is what was written of the message `m`. -/
def MsgStored (mboxen : List Mbox) (m : Msg) (x : DbMsg) : Prop :=
  x.typeAndFlags = typeAndFlagByte m ∧ x.tid = m.tid % 2 ^ 32 ∧
  match m.src with
  | .file p mtime size => x.path = p ∧ x.mtime = u32 mtime ∧ x.size = size % 2 ^ 32 ∧ x.date = u32 m.date
  | .imap p => x.path = p ∧ x.date = u32 m.date
  | .mbox fi mi => x.mbix = fi ∧ x.msgix = mi ∧ x.date = u32 m.date ∧
      ∃ mb e start len, mboxen[fi]? = some mb ∧ mb.msgs[mi]? = some e ∧ e.pos = some (start, len) ∧
        x.mtime = start % 2 ^ 32 ∧ x.size = len % 2 ^ 32
  | .dead => True

/-- The texts in the database are C strings. -/
structure CStrings (db : Database) : Prop where
  file : ∀ m ∈ db.msgs, ∀ p mt sz, m.src = .file p mt sz → 0 ∉ p
  imap : ∀ m ∈ db.msgs, ∀ p, m.src = .imap p → 0 ∉ p
  mbox : ∀ mb ∈ db.mboxen, ∀ p, mb.path = some p → 0 ∉ p
  to : ∀ e ∈ tokensOf db.tables.to, 0 ∉ e.text
  cc : ∀ e ∈ tokensOf db.tables.cc, 0 ∉ e.text
  sender : ∀ e ∈ tokensOf db.tables.from, 0 ∉ e.text
  subject : ∀ e ∈ tokensOf db.tables.subject, 0 ∉ e.text
  body : ∀ e ∈ tokensOf db.tables.body, 0 ∉ e.text
  attachment : ∀ e ∈ tokensOf db.tables.attachmentName, 0 ∉ e.text
  ids : ∀ e ∈ tokensOf db.tables.msgIds, 0 ∉ e.text

theorem u32_lt (v : Int) : u32 v < 2 ^ 32 := by
  unfold u32; omega

theorem flag_bytes : ∀ t ∈ [DB_MSG_DEAD, DB_MSG_FILE, DB_MSG_MBOX, DB_MSG_IMAP], ∀ s r f : Bool,
    (t ||| (if s then FLAG_SEEN else 0) ||| (if r then FLAG_REPLIED else 0) ||| (if f then FLAG_FLAGGED else 0)) &&& 0x7 = t ∧
    ((t ||| (if s then FLAG_SEEN else 0) ||| (if r then FLAG_REPLIED else 0) ||| (if f then FLAG_FLAGGED else 0)) &&& FLAG_SEEN != 0) = s ∧
    ((t ||| (if s then FLAG_SEEN else 0) ||| (if r then FLAG_REPLIED else 0) ||| (if f then FLAG_FLAGGED else 0)) &&& FLAG_REPLIED != 0) = r ∧
    ((t ||| (if s then FLAG_SEEN else 0) ||| (if r then FLAG_REPLIED else 0) ||| (if f then FLAG_FLAGGED else 0)) &&& FLAG_FLAGGED != 0) = f := by
  decide +kernel

theorem typeByte_mem (s : Src) : typeByte s ∈ [DB_MSG_DEAD, DB_MSG_FILE, DB_MSG_MBOX, DB_MSG_IMAP] := by
  cases s <;> simp [typeByte]

theorem type_of_byte (m : Msg) : typeAndFlagByte m &&& 0x7 = typeByte m.src :=
  (flag_bytes _ (typeByte_mem m.src) _ _ _).1

theorem seen_of_byte (m : Msg) : (typeAndFlagByte m &&& FLAG_SEEN != 0) = m.seen :=
  (flag_bytes _ (typeByte_mem m.src) _ _ _).2.1

theorem replied_of_byte (m : Msg) : (typeAndFlagByte m &&& FLAG_REPLIED != 0) = m.replied :=
  (flag_bytes _ (typeByte_mem m.src) _ _ _).2.2.1

theorem flagged_of_byte (m : Msg) : (typeAndFlagByte m &&& FLAG_FLAGGED != 0) = m.flagged :=
  (flag_bytes _ (typeByte_mem m.src) _ _ _).2.2.2

theorem Written.offset {key : Nat} {db : Database} {d : Text} {ws : List Write} (h : Written key db d ws) {k o : Nat} {b : List UInt8}
    (hw : .word k o ∈ ws) (hb : .block o b ∈ ws) (hne : b ≠ []) : rd32 d k = .ok o := by
  rw [rd32_at (h.word hw), Nat.mod_eq_of_lt]
  have := at_inside (h.block hb) hne
  have := h.length
  have := h.fits
  omega

theorem rdMsg_spec {key : Nat} {db : Database} {d : Text} {ws : List Write} (h : Written key db d ws) (hc : CStrings db)
    {i : Nat} {m : Msg} (hm : db.msgs[i]? = some m) : ∃ x, rdMsg (rawOf key db d) i = .ok x ∧ MsgStored db.mboxen m x := by
  have hi := (List.getElem?_eq_some_iff.1 hm).1
  have hmem := List.mem_of_getElem? hm
  obtain ⟨ht, hsrc⟩ := h.file.msgs i m hm
  have hty : rdByte d (4 * (computeMapping db).beyond + i) = .ok (typeAndFlagByte m) := by
    have := h.block (h.file.types (.block (4 * (computeMapping db).beyond) (db.msgs.map typeAndFlagByte)) (by simp [writeTypes]))
      i (by simpa using hi)
    rw [List.getElem?_map, hm] at this
    simp only [rdByte, this, Option.map_some]
  have e1 := rd32_at (h.word ht)
  have hb : (computeMapping db).beyond = headerWords + 5 * db.msgs.length + 5 * db.mboxen.length + 2 * db.tables.to.n +
      2 * db.tables.cc.n + 2 * db.tables.from.n + 2 * db.tables.subject.n + 2 * db.tables.body.n +
      2 * db.tables.attachmentName.n + 3 * db.tables.msgIds.n := rfl
  obtain ⟨_, hl2⟩ := fileLength_ge db
  have hl := h.length
  have hv := h.boxes
  simp only [verifyMboxSizes, Bool.and_eq_true, decide_eq_true_eq, List.all_eq_true] at hv
  have hp : (computeMapping db).path + i < (computeMapping db).beyond := by simp only [computeMapping]; omega
  have hmt : (computeMapping db).mtime + i < (computeMapping db).beyond := by simp only [computeMapping]; omega
  have hsz : (computeMapping db).size + i < (computeMapping db).beyond := by simp only [computeMapping]; omega
  have hdt : (computeMapping db).date + i < (computeMapping db).beyond := by simp only [computeMapping]; omega
  obtain ⟨v1, i1⟩ := rd32_inside (d := d) (k := (computeMapping db).mtime + i) (by omega)
  obtain ⟨v2, i2⟩ := rd32_inside (d := d) (k := (computeMapping db).size + i) (by omega)
  obtain ⟨v3, i3⟩ := rd32_inside (d := d) (k := (computeMapping db).date + i) (by omega)
  have hby := type_of_byte m
  cases hs : m.src with
  | file p mt sz =>
    rw [hs] at hsrc hby
    obtain ⟨o, a, b, c, e, f⟩ := hsrc
    have hcs : cstrAt d o = .ok p := by
      simp only [cstrAt, tokenAt_at (h.block b) (hc.file m hmem p mt sz hs)]
    refine ⟨⟨typeAndFlagByte m, p, 0, 0, u32 mt % 2 ^ 32, sz % 2 ^ 32, u32 m.date % 2 ^ 32, m.tid % 2 ^ 32⟩, ?_, ?_⟩
    · simp only [rdMsg, rawOf, hty, h.offset a b (by simp), pathOrIndices, hby, typeByte, hcs, rd32_at (h.word c),
        rd32_at (h.word e), rd32_at (h.word f), e1, bind, Except.bind, true_or, if_true]
    · refine ⟨rfl, rfl, ?_⟩
      rw [hs]
      exact ⟨rfl, Nat.mod_eq_of_lt (u32_lt _), rfl, Nat.mod_eq_of_lt (u32_lt _)⟩
  | imap p =>
    rw [hs] at hsrc hby
    obtain ⟨o, a, b, f⟩ := hsrc
    have hcs : cstrAt d o = .ok p := by
      simp only [cstrAt, tokenAt_at (h.block b) (hc.imap m hmem p hs)]
    refine ⟨⟨typeAndFlagByte m, p, 0, 0, v1, v2, u32 m.date % 2 ^ 32, m.tid % 2 ^ 32⟩, ?_, ?_⟩
    · simp only [rdMsg, rawOf, hty, h.offset a b (by simp), pathOrIndices, hby, typeByte, hcs, i1, i2,
        rd32_at (h.word f), e1, bind, Except.bind, or_true, if_true]
    · refine ⟨rfl, rfl, ?_⟩
      rw [hs]
      exact ⟨rfl, Nat.mod_eq_of_lt (u32_lt _)⟩
  | mbox fi mi =>
    rw [hs] at hsrc hby
    obtain ⟨o, mb, en, start, len, a, b, h1, h2, h3, c, e, f⟩ := hsrc
    have hfi := (List.getElem?_eq_some_iff.1 h1).1
    have hmi := (List.getElem?_eq_some_iff.1 h2).1
    have := hv.2 mb (List.mem_of_getElem? h1)
    have hdec := decodeMboxIndices_at (h.block b)
    rw [Nat.mod_eq_of_lt (by omega : fi < 2 ^ 32), Nat.mod_eq_of_lt (by omega : mi < 2 ^ 32)] at hdec
    refine ⟨⟨typeAndFlagByte m, [], fi, mi, start % 2 ^ 32, len % 2 ^ 32, u32 m.date % 2 ^ 32, m.tid % 2 ^ 32⟩, ?_, ?_⟩
    · simp only [rdMsg, rawOf, hty, h.offset a b (by simp [encodeMboxIndices, le32]), pathOrIndices, hby, typeByte, hdec,
        rd32_at (h.word c), rd32_at (h.word e), rd32_at (h.word f), e1, bind, Except.bind,
        show ¬ (DB_MSG_MBOX = DB_MSG_FILE ∨ DB_MSG_MBOX = DB_MSG_IMAP) by decide, if_false, if_true]
    · refine ⟨rfl, rfl, ?_⟩
      rw [hs]
      exact ⟨rfl, rfl, Nat.mod_eq_of_lt (u32_lt _), mb, en, start, len, h1, h2, h3, rfl, rfl⟩
  | dead =>
    rw [hs] at hsrc hby
    refine ⟨⟨typeAndFlagByte m, [], 0, 0, v1, v2, v3, m.tid % 2 ^ 32⟩, ?_, ?_⟩
    · simp only [rdMsg, rawOf, hty, rd32_at (h.word hsrc), pathOrIndices, hby, typeByte, i1, i2, i3, e1, bind, Except.bind,
        show ¬ (DB_MSG_DEAD = DB_MSG_FILE ∨ DB_MSG_DEAD = DB_MSG_IMAP) by decide, show ¬ DB_MSG_DEAD = DB_MSG_MBOX by decide, if_false]
    · refine ⟨rfl, rfl, ?_⟩
      rw [hs]
      trivial

theorem rdMsgs_spec {key : Nat} {db : Database} {d : Text} {ws : List Write} (h : Written key db d ws) (hc : CStrings db) :
    ∃ xs, rounds (rdMsg (rawOf key db d)) 0 db.msgs.length = .ok xs ∧ Pairs (MsgStored db.mboxen) db.msgs xs :=
  rounds_pairs _ 0 (by intro j a hj; rw [Nat.zero_add]; exact rdMsg_spec h hc hj)

/-- A table entry in the file. -/
def TokStored (e : Entry Matches) (b : Option Text × List UInt8) : Prop :=
  b.1 = some e.text ∧ ∃ rest, b.2 = e.data.bytes ++ 0xff :: rest

def Tok2Stored (e : Entry Matches2) (b : Option Text × List UInt8 × List UInt8) : Prop :=
  b.1 = some e.text ∧ (∃ rest, b.2.1 = e.data.match0.bytes ++ 0xff :: rest) ∧ ∃ rest, b.2.2 = e.data.match1.bytes ++ 0xff :: rest

theorem drop_at {d : Text} {o : Nat} {l : List UInt8} (h : At d o (l ++ [0xff])) : ∃ rest, d.drop o = l ++ 0xff :: rest := by
  obtain ⟨rest, hr⟩ := at_drop h
  exact ⟨rest, by rw [hr, List.append_assoc]; rfl⟩

theorem rdTokens_spec {key : Nat} {db : Database} {d : Text} {ws : List Write} (h : Written key db d ws) {t : Table Matches}
    {m : TokMap} (ht : TableStored ws t m) (hc : ∀ e ∈ tokensOf t, 0 ∉ e.text) (hn : (tokensOf t).length = t.n) :
    ∃ bs, rounds (rdToken d { n := t.n, tok := m.tok, enc := m.enc }) 0 t.n = .ok bs ∧ Pairs TokStored (tokensOf t) bs := by
  rw [← hn]
  refine rounds_pairs _ 0 ?_
  intro j e he
  rw [Nat.zero_add]
  obtain ⟨o, o', a, b, c, f⟩ := ht j (textAndList e) (by rw [List.getElem?_map, he]; rfl)
  refine ⟨(tokenAt d o, d.drop o'), ?_, tokenAt_at (h.block b) (hc e (List.mem_of_getElem? he)), drop_at (h.block f)⟩
  simp only [rdToken, h.offset a b (by simp), h.offset c f (by simp), bind, Except.bind]

theorem rdTokens2_spec {key : Nat} {db : Database} {d : Text} {ws : List Write} (h : Written key db d ws) {t : Table Matches2}
    {tok enc0 enc1 : Nat} (ht : Table2In ws ((tokensOf t).map textAndLists) tok enc0 enc1) (hc : ∀ e ∈ tokensOf t, 0 ∉ e.text)
    (hn : (tokensOf t).length = t.n) :
    ∃ bs, rounds (rdToken2 d { n := t.n, tok, enc0, enc1 }) 0 t.n = .ok bs ∧ Pairs Tok2Stored (tokensOf t) bs := by
  rw [← hn]
  refine rounds_pairs _ 0 ?_
  intro j e he
  rw [Nat.zero_add]
  obtain ⟨o, o', o'', a, b, c, f, g, k⟩ := ht j (textAndLists e) (by rw [List.getElem?_map, he]; rfl)
  refine ⟨(tokenAt d o, d.drop o', d.drop o''), ?_, tokenAt_at (h.block b) (hc e (List.mem_of_getElem? he)), drop_at (h.block f),
    drop_at (h.block k)⟩
  simp only [rdToken2, h.offset a b (by simp), h.offset c f (by simp), h.offset g k (by simp), bind, Except.bind]

/-! ### The mboxen -/

/-- An mbox as loaded, before the places of the messages are set. -/
structure BoxLoaded (mb mb' : Mbox) : Prop where
  path : mb'.path = mb.path
  mtime : mb'.fileMtime = u32 mb.currentMtime
  size : mb'.fileSize = mb.currentSize % 2 ^ 32
  msgs : mb'.msgs = mb.msgs.map fun e => { pos := none, check := e.check }
  fresh : mb'.currentMtime = 0 ∧ mb'.currentSize = 0 ∧ mb'.nOldValid = 0 ∧ mb'.newMsgs = []

theorem splitChecks_spec {d : Text} : ∀ (es : List MboxMsg) (o : Nat), (∀ e ∈ es, e.check.length = 16) →
    (∀ (j : Nat) e, es[j]? = some e → At d (o + 16 * j) e.check) →
    splitChecks es.length (d.drop o) = es.map fun e => { pos := none, check := e.check } := by
  intro es
  induction es with
  | nil => intro o _ _; rfl
  | cons e es ih =>
    intro o hl h
    obtain ⟨rest, hr⟩ := at_drop (h 0 e rfl)
    have he := hl e (List.mem_cons_self ..)
    rw [Nat.mul_zero, Nat.add_zero] at hr
    simp only [List.length_cons, splitChecks, List.map_cons, List.cons.injEq]
    constructor
    · rw [hr, List.take_append_of_le_length (by omega), List.take_of_length_le (by omega)]
    · rw [List.drop_drop]
      refine ih (o + 16) (fun e he => hl e (List.mem_cons_of_mem _ he)) ?_
      intro j e' hj
      have := h (j + 1) e' (by simpa using hj)
      rwa [show o + 16 * (j + 1) = o + 16 + 16 * j by omega] at this

theorem loadMbox_spec {key : Nat} {db : Database} {d : Text} {ws : List Write} (h : Written key db d ws) (hc : CStrings db)
    (hk : ∀ mb ∈ db.mboxen, ∀ e ∈ mb.msgs, e.check.length = 16)
    {i : Nat} {mb : Mbox} (hm : db.mboxen[i]? = some mb) : ∃ mb', loadMbox (rawOf key db d) i = .ok mb' ∧ BoxLoaded mb mb' := by
  have hmem := List.mem_of_getElem? hm
  obtain ⟨h1, h2, h3, h4⟩ := h.file.mboxen i mb hm
  obtain ⟨o, o1, o2⟩ := h.file.checks i mb hm
  have hl := h.length
  have hlt := h.small
  have hfit := h.fits
  have hv := h.boxes
  simp only [verifyMboxSizes, Bool.and_eq_true, decide_eq_true_eq, List.all_eq_true] at hv
  have hp : ∃ off, rd32 d ((computeMapping db).mboxPaths + i) = .ok off ∧ rdMboxPath' d off = .ok mb.path := by
    cases hp : mb.path with
    | none =>
      rw [hp] at h4
      exact ⟨0, rd32_at (h.word h4), rfl⟩
    | some p =>
      rw [hp] at h4
      obtain ⟨o, a, b⟩ := h4
      refine ⟨o, h.offset a b (by simp), ?_⟩
      have : o ≠ 0 := by
        rintro rfl
        rcases h.file.blocks _ _ b with ⟨_, h'⟩ | h'
        · have := congrArg List.getLast? h'
          simp at this
        · omega
      simp only [rdMboxPath', if_neg this, cstrAt, tokenAt_at (h.block b) (hc.mbox mb hmem p hp), bind, Except.bind]
  obtain ⟨off, p1, p2⟩ := hp
  have hin : ∀ (j : Nat) e, mb.msgs[j]? = some e → o + 16 * j + 16 ≤ d.length := by
    intro j e he
    have hl := hk mb hmem e (List.mem_of_getElem? he)
    have := at_inside (h.block (o2 j e he)) (by rintro h; rw [h] at hl; cases hl)
    omega
  have hlast : mb.msgs ≠ [] → o + 16 * mb.msgs.length ≤ d.length := by
    intro hne
    have hpos := List.length_pos_iff.2 hne
    have := hin (mb.msgs.length - 1) _ (List.getElem?_eq_getElem (by omega))
    omega
  have hmsgs : rdMboxMsgs d (o % 2 ^ 32) (mb.msgs.length % 2 ^ 32) = .ok (mb.msgs.map fun e => { pos := none, check := e.check }) := by
    by_cases hne : mb.msgs = []
    · rw [hne]; rfl
    · have hb := hlast hne
      have hpos := List.length_pos_iff.2 hne
      rw [Nat.mod_eq_of_lt (by omega), Nat.mod_eq_of_lt (by omega), rdMboxMsgs, if_pos (by simp only [loopBound]; split <;> omega),
        rdChecks, if_pos hb]
      rw [splitChecks_spec mb.msgs o (hk mb hmem) (fun j e he => h.block (o2 j e he))]
  refine ⟨⟨mb.path, (u32 mb.currentMtime % 2 ^ 32 : Nat), mb.currentSize % 2 ^ 32, 0, 0, 0, [], mb.msgs.map fun e => ⟨none, e.check⟩⟩, ?_, ?_⟩
  · simp only [loadMbox, rawOf, p1, p2, rd32_at (h.word h2), rd32_at (h.word h3), rd32_at (h.word h1), rd32_at (h.word o1), hmsgs,
      bind, Except.bind]
  · exact ⟨rfl, by show ((u32 mb.currentMtime % 2 ^ 32 : Nat) : Int) = _; rw [Nat.mod_eq_of_lt (u32_lt _)], rfl, rfl, rfl, rfl, rfl, rfl⟩

theorem loadMboxen_spec {key : Nat} {db : Database} {d : Text} {ws : List Write} (h : Written key db d ws) (hc : CStrings db)
    (hk : ∀ mb ∈ db.mboxen, ∀ e ∈ mb.msgs, e.check.length = 16) :
    ∃ mbs, rounds (loadMbox (rawOf key db d)) 0 db.mboxen.length = .ok mbs ∧ Pairs BoxLoaded db.mboxen mbs :=
  rounds_pairs _ 0 (by intro j a hj; rw [Nat.zero_add]; exact loadMbox_spec h hc hk hj)

theorem rdMboxPaths_spec {key : Nat} {db : Database} {d : Text} {ws : List Write} (h : Written key db d ws) (hc : CStrings db) :
    ∃ ps, rounds (rdMboxPath (rawOf key db d)) 0 db.mboxen.length = .ok ps ∧
      Pairs (fun mb p => ∀ q, mb.path = some q → p = q) db.mboxen ps := by
  refine rounds_pairs _ 0 ?_
  intro i mb hm
  rw [Nat.zero_add]
  obtain ⟨h1, h2, h3, h4⟩ := h.file.mboxen i mb hm
  cases hp : mb.path with
  | none =>
    rw [hp] at h4
    refine ⟨(tokenAt d 0).getD [], ?_, by simp⟩
    · simp only [rdMboxPath, rawOf, rd32_at (h.word h4), bind, Except.bind]
  | some p =>
    rw [hp] at h4
    obtain ⟨o, a, b⟩ := h4
    refine ⟨p, ?_, by simp⟩
    simp only [rdMboxPath, rawOf, h.offset a b (by simp), tokenAt_at (h.block b) (hc.mbox mb (List.mem_of_getElem? hm) p hp), bind,
      Except.bind, Option.getD_some]

end Mairix
