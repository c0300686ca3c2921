import Verif.Proofs.DbWrite

/-! Writing the whole database. -/

namespace Mairix

/-- What the program takes for granted when it writes the database. -/
structure Writable (db : Database) : Prop where
  to : (tokensOf db.tables.to).length = db.tables.to.n
  cc : (tokensOf db.tables.cc).length = db.tables.cc.n
  sender : (tokensOf db.tables.from).length = db.tables.from.n
  subject : (tokensOf db.tables.subject).length = db.tables.subject.n
  body : (tokensOf db.tables.body).length = db.tables.body.n
  attachment : (tokensOf db.tables.attachmentName).length = db.tables.attachmentName.n
  ids : (tokensOf db.tables.msgIds).length = db.tables.msgIds.n
  srcs : ∀ m ∈ db.msgs, SrcOk db.mboxen m
  checks : ∀ mb ∈ db.mboxen, ∀ e ∈ mb.msgs, e.check.length = 16

/-- The stores of one word table as they appear in the file. -/
def TableStored (ws : List Write) (t : Table Matches) (m : TokMap) : Prop :=
  TableIn ws ((tokensOf t).map textAndList) m.tok m.enc

/-- All that is stored. -/
structure FileIn (key : Nat) (db : Database) (ws : List Write) : Prop where
  blocks : ∀ off b, .block off b ∈ ws → off = 0 ∧ b = [0x4d, 0x58, 0xa5, 0x04] ∨ 160 ≤ off
  header : ∀ w ∈ writeHeader key db (computeMapping db), w ∈ ws
  types : ∀ w ∈ writeTypes db.msgs (4 * (computeMapping db).beyond), w ∈ ws
  msgs : ∀ (i : Nat) m, db.msgs[i]? = some m → MessageIn (computeMapping db) db.mboxen ws i m
  mboxen : ∀ (i : Nat) mb, db.mboxen[i]? = some mb → MboxIn (computeMapping db) ws i mb
  checks : ∀ (i : Nat) mb, db.mboxen[i]? = some mb → ChecksIn (computeMapping db) ws i mb
  to : TableStored ws db.tables.to (computeMapping db).to
  cc : TableStored ws db.tables.cc (computeMapping db).cc
  sender : TableStored ws db.tables.from (computeMapping db).from
  subject : TableStored ws db.tables.subject (computeMapping db).subject
  body : TableStored ws db.tables.body (computeMapping db).body
  attachment : TableStored ws db.tables.attachmentName (computeMapping db).attachmentName
  ids : Table2In ws ((tokensOf db.tables.msgIds).map textAndLists) (computeMapping db).msgIdTok (computeMapping db).msgIdEnc0
    (computeMapping db).msgIdEnc1

theorem tableIn_mono {ws ws' : List Write} {es : List (Text × List UInt8)} {tok enc : Nat} (h : TableIn ws es tok enc)
    (hs : ∀ w ∈ ws, w ∈ ws') : TableIn ws' es tok enc := by
  intro j e he
  obtain ⟨o, o', a, b, c, d⟩ := h j e he
  exact ⟨o, o', hs _ a, hs _ b, hs _ c, hs _ d⟩

theorem table2In_mono {ws ws' : List Write} {es : List (Text × List UInt8 × List UInt8)} {tok enc0 enc1 : Nat}
    (h : Table2In ws es tok enc0 enc1) (hs : ∀ w ∈ ws, w ∈ ws') : Table2In ws' es tok enc0 enc1 := by
  intro j e he
  obtain ⟨o, o', o'', a, b, c, d, f, g⟩ := h j e he
  exact ⟨o, o', o'', hs _ a, hs _ b, hs _ c, hs _ d, hs _ f, hs _ g⟩

theorem sum_mbox (mbs : List Mbox) : (mbs.map pathLength).sum + (mbs.map fun mb => mb.msgs.length * 16).sum =
    (mbs.map mboxCharLength).sum := by
  rw [sum_add]
  congr 1
  apply List.map_congr_left
  intro mb _
  simp only [pathLength, mboxCharLength]
  cases mb.path <;> simp <;> omega

theorem header_idxs (key : Nat) (db : Database) (map : WriteMap) (c : Nat) :
    idxs (writeHeader key db map ++ writeTypes db.msgs c) =
      [1, 2, 4, 5, 7, 6, 8, 9, 10, 11, 12, 13, 14, 15, 16, 17, 18, 19, 20, 21, 22, 23, 24, 25, 26, 27, 28, 29, 30, 31, 32, 33,
        34, 35, 36, 37, 3] := rfl

set_option maxHeartbeats 2000000 in
theorem allWrites_spec (key : Nat) {db : Database} (h : Writable db) :
    ∃ ws, allWrites key db = .ok (.block 0 [0x4d, 0x58, 0xa5, 0x04] :: ws, fileLength db) ∧
      Seg 1 (computeMapping db).beyond (4 * (computeMapping db).beyond) (fileLength db) ws ∧
      FileIn key db (.block 0 [0x4d, 0x58, 0xa5, 0x04] :: ws) := by
  generalize hmap : computeMapping db = map
  have hp : map.path = 40 := by rw [← hmap]; rfl
  have hmt : MsgTables map db.msgs.length := by
    rw [← hmap]; constructor <;> simp [computeMapping]
  have hbt : BoxTables map db.mboxen.length := by
    rw [← hmap]; constructor <;> simp [computeMapping]
  have hbp : map.mboxPaths = 40 + 5 * db.msgs.length := by rw [← hmap]; rfl
  obtain ⟨w0, e0, c0, n0, k0, m0⟩ := writeMessages_spec (mboxen := db.mboxen) hmt db.msgs 0 (4 * map.beyond + db.msgs.length)
    h.srcs (by omega)
  generalize hC1 : 4 * map.beyond + db.msgs.length + (db.msgs.map msgCharLength).sum = C1 at e0 c0
  obtain ⟨e1, c1, n1, k1, m1⟩ := writeMboxHeaders_spec hbt db.mboxen 0 C1 (by omega)
  generalize hw1 : writeMboxHeaders map 0 db.mboxen C1 = W1 at e1 c1 n1 k1 m1
  generalize hC2 : C1 + (db.mboxen.map pathLength).sum = C2 at e1 c1
  obtain ⟨e2, s2, m2⟩ := writeMboxChecksums_spec (map := map) db.mboxen 0 C2 h.checks
  generalize hw2 : writeMboxChecksums map 0 db.mboxen C2 = W2 at e2 s2 m2
  generalize hC3 : C2 + (db.mboxen.map fun mb => mb.msgs.length * 16).sum = C3 at e2 s2
  have t0 : map.to = tokMap (map.mboxChecksum + db.mboxen.length) db.tables.to.n := by
    rw [← hmap]; simp only [computeMapping]; congr 1; omega
  have t1 : map.cc = tokMap (map.mboxChecksum + db.mboxen.length + 2 * db.tables.to.n) db.tables.cc.n := by
    rw [← hmap]; simp only [computeMapping]; congr 1; omega
  have t2 : map.from = tokMap (map.mboxChecksum + db.mboxen.length + 2 * db.tables.to.n + 2 * db.tables.cc.n) db.tables.from.n := by
    rw [← hmap]; simp only [computeMapping]; congr 1; omega
  have t3 : map.subject = tokMap (map.mboxChecksum + db.mboxen.length + 2 * db.tables.to.n + 2 * db.tables.cc.n +
      2 * db.tables.from.n) db.tables.subject.n := by
    rw [← hmap]; simp only [computeMapping]; congr 1; omega
  have t4 : map.body = tokMap (map.mboxChecksum + db.mboxen.length + 2 * db.tables.to.n + 2 * db.tables.cc.n +
      2 * db.tables.from.n + 2 * db.tables.subject.n) db.tables.body.n := by
    rw [← hmap]; simp only [computeMapping]; congr 1; omega
  have t5 : map.attachmentName = tokMap (map.mboxChecksum + db.mboxen.length + 2 * db.tables.to.n + 2 * db.tables.cc.n +
      2 * db.tables.from.n + 2 * db.tables.subject.n + 2 * db.tables.body.n) db.tables.attachmentName.n := by
    rw [← hmap]; simp only [computeMapping]; congr 1; omega
  have t6 : map.msgIdTok = map.mboxChecksum + db.mboxen.length + 2 * db.tables.to.n + 2 * db.tables.cc.n +
      2 * db.tables.from.n + 2 * db.tables.subject.n + 2 * db.tables.body.n + 2 * db.tables.attachmentName.n := by
    rw [← hmap]; simp only [computeMapping]; omega
  have t7 : map.msgIdEnc0 = map.msgIdTok + db.tables.msgIds.n := by rw [← hmap]; rfl
  have t8 : map.msgIdEnc1 = map.msgIdTok + 2 * db.tables.msgIds.n := by rw [← hmap]; rfl
  have t9 : map.beyond = map.msgIdTok + 3 * db.tables.msgIds.n := by rw [← hmap]; rfl
  generalize hT0 : map.mboxChecksum + db.mboxen.length = T0 at t0 t1 t2 t3 t4 t5 t6
  generalize hT1 : T0 + 2 * db.tables.to.n = T1 at t1 t2 t3 t4 t5 t6
  generalize hT2 : T1 + 2 * db.tables.cc.n = T2 at t2 t3 t4 t5 t6
  generalize hT3 : T2 + 2 * db.tables.from.n = T3 at t3 t4 t5 t6
  generalize hT4 : T3 + 2 * db.tables.subject.n = T4 at t4 t5 t6
  generalize hT5 : T4 + 2 * db.tables.body.n = T5 at t5 t6
  obtain ⟨w3, e3, s3, m3⟩ := writeTable_spec h.to T0 C3
  obtain ⟨w4, e4, s4, m4⟩ := writeTable_spec h.cc T1 (C3 + tableCharLength db.tables.to)
  generalize hC4 : C3 + tableCharLength db.tables.to = C4 at e3 s3 e4 s4
  obtain ⟨w5, e5, s5, m5⟩ := writeTable_spec h.sender T2 (C4 + tableCharLength db.tables.cc)
  generalize hC5 : C4 + tableCharLength db.tables.cc = C5 at e4 s4 e5 s5
  obtain ⟨w6, e6, s6, m6⟩ := writeTable_spec h.subject T3 (C5 + tableCharLength db.tables.from)
  generalize hC6 : C5 + tableCharLength db.tables.from = C6 at e5 s5 e6 s6
  obtain ⟨w7, e7, s7, m7⟩ := writeTable_spec h.body T4 (C6 + tableCharLength db.tables.subject)
  generalize hC7 : C6 + tableCharLength db.tables.subject = C7 at e6 s6 e7 s7
  obtain ⟨w8, e8, s8, m8⟩ := writeTable_spec h.attachment T5 (C7 + tableCharLength db.tables.body)
  generalize hC8 : C7 + tableCharLength db.tables.body = C8 at e7 s7 e8 s8
  obtain ⟨w9, e9, s9, m9⟩ := writeTable2_spec h.ids map.msgIdTok (C8 + tableCharLength db.tables.attachmentName)
  generalize hC9 : C8 + tableCharLength db.tables.attachmentName = C9 at e8 s8 e9 s9
  have hend : C9 + table2CharLength db.tables.msgIds = fileLength db := by
    have := sum_mbox db.mboxen
    simp only [fileLength, charLength, hmap]
    omega
  rw [hend] at e9 s9
  -- the words and blocks
  have hH : Seg 1 40 (4 * map.beyond) (4 * map.beyond + db.msgs.length)
      ((writeHeader key db map).tail ++ writeTypes db.msgs (4 * map.beyond)) := by
    refine ⟨?_, ?_, ?_⟩
    · refine chain_append (b := 4 * map.beyond) ?_ ?_
      · rfl
      · refine ⟨rfl, ?_⟩
        show _ = _
        simp
    · have : idxs ((writeHeader key db map).tail ++ writeTypes db.msgs (4 * map.beyond)) = _ := header_idxs key db map _
      rw [this]; decide
    · have : idxs ((writeHeader key db map).tail ++ writeTypes db.msgs (4 * map.beyond)) = _ := header_idxs key db map _
      rw [this]; decide
  have h0 : Seg 40 (40 + 5 * db.msgs.length) (4 * map.beyond + db.msgs.length) C1 w0 := by
    refine ⟨c0, n0, ?_⟩
    intro k hk
    obtain ⟨j, j1, j2, hj⟩ := k0 k hk
    obtain ⟨x1, x2, x3, x4⟩ := hmt
    omega
  have h1 : Seg (40 + 5 * db.msgs.length) map.mboxChecksum C1 C2 W1.1 := by
    refine ⟨c1, n1, ?_⟩
    intro k hk
    obtain ⟨j, j1, j2, hj⟩ := k1 k hk
    obtain ⟨x1, x2, x3, x4⟩ := hbt
    omega
  have hck : 40 + 5 * db.msgs.length ≤ map.mboxChecksum := by
    obtain ⟨x1, x2, x3, x4⟩ := hbt
    omega
  simp only [Nat.add_zero] at s2
  rw [hT0] at s2
  rw [hT1] at s3
  rw [hT2] at s4
  rw [hT3] at s5
  rw [hT4] at s6
  rw [hT5] at s7
  rw [← t6] at s8
  rw [← t9] at s9
  have S := hH.append (h0.append (h1.append (s2.append (s3.append (s4.append (s5.append (s6.append (s7.append (s8.append s9
    (by omega) (by omega)) (by omega) (by omega)) (by omega) (by omega)) (by omega) (by omega)) (by omega) (by omega))
    (by omega) (by omega)) (by omega) (by omega)) (by omega) (by omega)) (by omega) (by omega)) (by omega) (by omega)
  generalize hws : (writeHeader key db map).tail ++ writeTypes db.msgs (4 * map.beyond) ++
    (w0 ++ (W1.1 ++ (W2.1 ++ (w3 ++ (w4 ++ (w5 ++ (w6 ++ (w7 ++ (w8 ++ w9))))))))) = ws at S
  have hall : writeHeader key db map ++ writeTypes db.msgs (4 * map.beyond) ++ w0 ++ W1.1 ++ W2.1 ++ w3 ++ w4 ++ w5 ++ w6 ++
      w7 ++ w8 ++ w9 = .block 0 [0x4d, 0x58, 0xa5, 0x04] :: ws := by
    rw [← hws]
    have : writeHeader key db map = .block 0 [0x4d, 0x58, 0xa5, 0x04] :: (writeHeader key db map).tail := rfl
    rw [this]
    simp only [List.append_assoc, List.cons_append, List.tail_cons]
  have hsub : ∀ {x : List Write}, (∀ w ∈ x, w ∈ writeHeader key db map ++ writeTypes db.msgs (4 * map.beyond) ++ w0 ++ W1.1 ++
      W2.1 ++ w3 ++ w4 ++ w5 ++ w6 ++ w7 ++ w8 ++ w9) → ∀ w ∈ x, w ∈ (.block 0 [0x4d, 0x58, 0xa5, 0x04] :: ws : List Write) := by
    intro x hx w hw
    rw [← hall]; exact hx w hw
  refine ⟨ws, ?_, S, ?_⟩
  · rw [← hall]
    rw [← t0] at e3
    rw [← t1] at e4
    rw [← t2] at e5
    rw [← t3] at e6
    rw [← t4] at e7
    rw [← t5] at e8
    rw [← t7, ← t8] at e9
    unfold allWrites
    simp only [hmap, e0, hw1, e1, hw2, e2, e3, e4, e5, e6, e7, e8, e9, bind, Except.bind]
  · constructor
    · intro off b hb
      rcases List.mem_cons.1 hb with hb | hb
      · cases hb; exact .inl ⟨rfl, rfl⟩
      · have := chain_mem S.chain off b hb
        right
        omega
    · rw [hmap]; exact hsub (by intro w hw; simp only [List.mem_append, hw, true_or, or_true])
    · rw [hmap]; exact hsub (by intro w hw; simp only [List.mem_append, hw, true_or, or_true])
    · intro i m hm
      have := m0 i m hm
      rw [Nat.zero_add] at this
      rw [hmap]
      exact messageIn_mono this (hsub (by intro w hw; simp only [List.mem_append, hw, true_or, or_true]))
    · intro i m hm
      have := m1 i m hm
      rw [Nat.zero_add] at this
      rw [hmap]
      exact mboxIn_mono this (hsub (by intro w hw; simp only [List.mem_append, hw, true_or, or_true]))
    · intro i m hm
      have := m2 i m hm
      rw [Nat.zero_add] at this
      rw [hmap]
      obtain ⟨o, o1, o2⟩ := this
      have hs := hsub (x := W2.1) (by intro w hw; simp only [List.mem_append, hw, true_or, or_true])
      exact ⟨o, hs _ o1, fun j e he => hs _ (o2 j e he)⟩
    · rw [hmap, t0]; exact tableIn_mono m3 (hsub (by intro w hw; simp only [List.mem_append, hw, true_or, or_true]))
    · rw [hmap, t1]; exact tableIn_mono m4 (hsub (by intro w hw; simp only [List.mem_append, hw, true_or, or_true]))
    · rw [hmap, t2]; exact tableIn_mono m5 (hsub (by intro w hw; simp only [List.mem_append, hw, true_or, or_true]))
    · rw [hmap, t3]; exact tableIn_mono m6 (hsub (by intro w hw; simp only [List.mem_append, hw, true_or, or_true]))
    · rw [hmap, t4]; exact tableIn_mono m7 (hsub (by intro w hw; simp only [List.mem_append, hw, true_or, or_true]))
    · rw [hmap, t5]; exact tableIn_mono m8 (hsub (by intro w hw; simp only [List.mem_append, hw, true_or, or_true]))
    · rw [hmap, t7, t8]; exact table2In_mono m9 (hsub (by intro w hw; simp only [List.mem_append, hw, true_or, or_true]))

/-- The file holds what the stores stored. -/
def Stored (ws : List Write) (d : Text) : Prop := ∀ w ∈ ws, At d w.place.1 w.place.2

theorem fileLength_ge (db : Database) : 160 ≤ 4 * (computeMapping db).beyond ∧ 4 * (computeMapping db).beyond ≤ fileLength db := by
  simp only [fileLength, computeMapping, headerWords]
  omega

theorem apart_all {db : Database} {ws : List Write}
    (h : Seg 1 (computeMapping db).beyond (4 * (computeMapping db).beyond) (fileLength db) ws) :
    (.block 0 [0x4d, 0x58, 0xa5, 0x04] :: ws : List Write).Pairwise Apart ∧
    ∀ w ∈ (.block 0 [0x4d, 0x58, 0xa5, 0x04] :: ws : List Write), w.place.1 + w.place.2.length ≤ fileLength db := by
  have hl := fileLength_ge db
  have hpw := apart_of h.chain h.nodup (fun k hk => (h.range k hk).2) (Nat.le_refl _)
  constructor
  · rw [List.pairwise_cons]
    refine ⟨?_, hpw⟩
    intro w hw
    left
    cases w with
    | word k v =>
      have := h.range k (idxs_mem.2 ⟨v, hw⟩)
      show 0 + 4 ≤ 4 * k
      omega
    | block off b =>
      have := chain_mem h.chain off b hw
      show 0 + 4 ≤ off
      omega
  · intro w hw
    rcases List.mem_cons.1 hw with rfl | hw
    · show 0 + 4 ≤ _
      omega
    · cases w with
      | word k v =>
        have := h.range k (idxs_mem.2 ⟨v, hw⟩)
        show 4 * k + 4 ≤ _
        omega
      | block off b => exact (chain_mem h.chain off b hw).2

theorem resized_length (old : Text) (n : Nat) : (resized old n).length = n := by
  simp [resized]; omega

theorem writeDatabase_spec (key : Nat) {db : Database} (old : Text) (h : Writable db) (hv : verifyMboxSizes db = true)
    (hlen : fileLength db < 2 ^ 31) :
    ∃ d ws, writeDatabase key db old = .ok d ∧ d.length = fileLength db ∧ FileIn key db ws ∧ Stored ws d := by
  obtain ⟨ws, e, hs, hf⟩ := allWrites_spec key h
  obtain ⟨hp, hin⟩ := apart_all hs
  obtain ⟨d, e2, l2, a2, _⟩ := runWrites_spec _ (resized old (fileLength db)) hp (by rw [resized_length]; exact hin)
  refine ⟨d, _, ?_, by rw [l2, resized_length], hf, a2⟩
  simp only [writeDatabase, hv, hlen, if_true, e, e2, bind, Except.bind]

end Mairix
