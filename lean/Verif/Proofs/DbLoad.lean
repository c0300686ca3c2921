import Verif.Proofs.DbRead2

/-! Loading the database that was written. -/

namespace Mairix
open Spec

theorem savedBox_zero {mb mb' : Mbox} (h : BoxLoaded mb mb') : SavedBox 0 mb mb' := by
  refine ⟨h.path, h.mtime, h.size, by rw [h.msgs, List.length_map], ?_, h.fresh⟩
  intro j e he
  exact ⟨⟨none, e.check⟩, by rw [h.msgs, List.getElem?_map, he]; rfl, rfl, fun _ => rfl, by omega⟩

theorem takeWhile_length {α : Type} {p : α → Bool} : ∀ (l : List α) (k : Nat), (∀ j : Nat, j < k → ∃ e, l[j]? = some e ∧ p e = true) →
    (∃ e, l[k]? = some e ∧ p e = false) → (l.takeWhile p).length = k := by
  intro l
  induction l with
  | nil => intro k _ ⟨e, he, _⟩; simp at he
  | cons a l ih =>
    intro k h h'
    cases k with
    | zero =>
      obtain ⟨e, he, hp⟩ := h'
      simp only [List.getElem?_cons_zero, Option.some.injEq] at he
      subst he
      rw [List.takeWhile_cons_of_neg (by simp [hp])]
      rfl
    | succ k =>
      obtain ⟨e, he, hp⟩ := h 0 (by omega)
      simp only [List.getElem?_cons_zero, Option.some.injEq] at he
      subst he
      rw [List.takeWhile_cons_of_pos hp, List.length_cons, ih k]
      · intro j hj
        obtain ⟨e, he, hp⟩ := h (j + 1) (by omega)
        exact ⟨e, by simpa using he, hp⟩
      · obtain ⟨e, he, hp⟩ := h'
        exact ⟨e, by simpa using he, hp⟩

theorem nSoFar_eq {k : Nat} {mb mb' : Mbox} (h : SavedBox k mb mb') (hk : k < mb.msgs.length) : nSoFar mb' = k := by
  refine takeWhile_length _ k ?_ ?_
  · intro j hj
    obtain ⟨e', h1, _, _, h2⟩ := h.each j _ (List.getElem?_eq_getElem (by omega : j < mb.msgs.length))
    obtain ⟨s, l, _, h3⟩ := h2 hj
    exact ⟨e', h1, by rw [h3]; rfl⟩
  · obtain ⟨e', h1, _, h2, _⟩ := h.each k _ (List.getElem?_eq_getElem hk)
    exact ⟨e', h1, by rw [h2 (Nat.le_refl _)]; rfl⟩

theorem setPlace_spec {k : Nat} {mb mb' : Mbox} (h : SavedBox k mb mb') {e : MboxMsg} {s l : Nat} (he : mb.msgs[k]? = some e)
    (hp : e.pos = some (s, l)) : ∃ mb'', setPlace mb' (s % 2 ^ 32) (l % 2 ^ 32) = .ok mb'' ∧ SavedBox (k + 1) mb mb'' := by
  have hk := (List.getElem?_eq_some_iff.1 he).1
  obtain ⟨e', h1, h2, _, _⟩ := h.each k e he
  refine ⟨{ mb' with msgs := mb'.msgs.set k { e' with pos := some (s % 2 ^ 32, l % 2 ^ 32) } }, ?_, ?_⟩
  · simp only [setPlace, nSoFar_eq h hk, h1]
  · refine ⟨h.path, h.mtime, h.size, by simp [h.length], ?_, h.fresh⟩
    intro j f hf
    by_cases hjk : j = k
    · subst hjk
      rw [he] at hf
      cases hf
      exact ⟨⟨some (s % 2 ^ 32, l % 2 ^ 32), e'.check⟩, List.getElem?_set_self (by rw [h.length]; exact hk), h2, by omega,
        fun _ => ⟨s, l, hp, rfl⟩⟩
    · obtain ⟨f', g1, g2, g3, g4⟩ := h.each j f hf
      refine ⟨f', by rw [List.getElem?_set_ne (by omega)]; exact g1, g2, by intro _; exact g3 (by omega), by intro _; exact g4 (by omega)⟩

/-- The mboxen while loading, when the messages `pre` have been loaded. -/
def BoxesSaved (pre : List Msg) (mboxen mbs : List Mbox) : Prop :=
  mbs.length = mboxen.length ∧ ∀ (fi : Nat) mb, mboxen[fi]? = some mb → ∃ mb', mbs[fi]? = some mb' ∧ SavedBox (boxIdx pre fi).length mb mb'

theorem boxNo_self (fi mi : Nat) : boxNo fi (.mbox fi mi) = some mi := by simp [boxNo]

theorem loadMsg_of {x : DbMsg} {mbs mbs' : List Mbox} {src : Src} (h : loadSrc x mbs = .ok (src, mbs')) :
    loadMsg x mbs = .ok (⟨src, x.date, x.tid, x.typeAndFlags &&& FLAG_SEEN != 0, x.typeAndFlags &&& FLAG_REPLIED != 0,
      x.typeAndFlags &&& FLAG_FLAGGED != 0⟩, mbs') := by
  simp only [loadMsg, h, bind, Except.bind]

theorem loadMsg_spec {pre : List Msg} {m : Msg} {mboxen mbs : List Mbox} {x : DbMsg} (h : BoxesSaved pre mboxen mbs)
    (hx : MsgStored mboxen m x) (ho : ∀ fi mi, m.src = .mbox fi mi → mi = (boxIdx pre fi).length) :
    ∃ m' mbs', loadMsg x mbs = .ok (m', mbs') ∧ SavedMsg m m' ∧ BoxesSaved (pre ++ [m]) mboxen mbs' := by
  obtain ⟨h1, h2, h3⟩ := hx
  have hty : x.type = typeByte m.src := by rw [DbMsg.type, h1, type_of_byte]
  have hs : (x.typeAndFlags &&& FLAG_SEEN != 0) = m.seen := by rw [h1, seen_of_byte]
  have hr : (x.typeAndFlags &&& FLAG_REPLIED != 0) = m.replied := by rw [h1, replied_of_byte]
  have hf : (x.typeAndFlags &&& FLAG_FLAGGED != 0) = m.flagged := by rw [h1, flagged_of_byte]
  have keep : (∀ fi mi, m.src ≠ .mbox fi mi) → BoxesSaved (pre ++ [m]) mboxen mbs := by
    intro hn
    refine ⟨h.1, ?_⟩
    intro fi mb hmb
    obtain ⟨mb', a, b⟩ := h.2 fi mb hmb
    refine ⟨mb', a, ?_⟩
    have : boxNo fi m.src = none := by
      cases hs : m.src with
      | mbox f mi => exact absurd hs (hn f mi)
      | _ => rfl
    rw [boxIdx_append, boxIdx_cons, this]
    simpa [boxIdx] using b
  cases hsrc : m.src with
  | file p mt sz =>
    rw [hsrc] at h3 hty
    obtain ⟨a, b, c, d⟩ := h3
    have hl : loadSrc x mbs = .ok (.file x.path x.mtime x.size, mbs) := by
      simp only [loadSrc, hty, typeByte, show ¬ DB_MSG_FILE = DB_MSG_DEAD by decide, if_false, if_true]
    exact ⟨_, _, loadMsg_of hl, ⟨by simp only [hsrc, savedSrc, a, b, c], h2, hs, hr, hf, fun _ => by simp only [d]⟩, keep (by simp [hsrc])⟩
  | imap p =>
    rw [hsrc] at h3 hty
    obtain ⟨a, d⟩ := h3
    have hl : loadSrc x mbs = .ok (.imap x.path, mbs) := by
      simp only [loadSrc, hty, typeByte, show ¬ DB_MSG_IMAP = DB_MSG_DEAD by decide, show ¬ DB_MSG_IMAP = DB_MSG_FILE by decide,
        if_false, if_true]
    exact ⟨_, _, loadMsg_of hl, ⟨by simp only [hsrc, savedSrc, a], h2, hs, hr, hf, fun _ => by simp only [d]⟩, keep (by simp [hsrc])⟩
  | mbox fi mi =>
    rw [hsrc] at h3 hty
    obtain ⟨a, b, d, mb, e, start, len, g1, g2, g3, g4, g5⟩ := h3
    obtain ⟨mb', k1, k2⟩ := h.2 fi mb g1
    have hmi := ho fi mi hsrc
    have hlt := (List.getElem?_eq_some_iff.1 g2).1
    have hfi : fi < mbs.length := (List.getElem?_eq_some_iff.1 k1).1
    obtain ⟨mb'', s1, s2⟩ := setPlace_spec k2 (by rw [← hmi]; exact g2) g3
    have hn : nSoFar mb' = mi := by rw [hmi]; exact nSoFar_eq k2 (by omega)
    have hl : loadSrc x mbs = .ok (.mbox fi mi, mbs.set fi mb'') := by
      simp only [loadSrc, hty, typeByte, show ¬ DB_MSG_MBOX = DB_MSG_DEAD by decide,
        show ¬ DB_MSG_MBOX = DB_MSG_FILE by decide, show ¬ DB_MSG_MBOX = DB_MSG_IMAP by decide, if_false, if_true, bind, Except.bind,
        a, b, k1, hn, g4, g5, s1]
    refine ⟨_, _, loadMsg_of hl, ⟨by simp only [hsrc, savedSrc], h2, hs, hr, hf, fun _ => by simp only [d]⟩, ?_⟩
    · refine ⟨by rw [List.length_set]; exact h.1, ?_⟩
      intro fi' mb1 hmb1
      by_cases hff : fi' = fi
      · subst hff
        rw [g1] at hmb1
        cases hmb1
        refine ⟨mb'', by rw [List.getElem?_set_self hfi], ?_⟩
        rw [boxIdx_append, boxIdx_cons, hsrc, boxNo_self]
        simpa [boxIdx] using s2
      · obtain ⟨mb2, q1, q2⟩ := h.2 fi' mb1 hmb1
        refine ⟨mb2, by rw [List.getElem?_set_ne (by omega)]; exact q1, ?_⟩
        have : boxNo fi' m.src = none := by rw [hsrc]; simp only [boxNo]; rw [if_neg (by omega)]
        rw [boxIdx_append, boxIdx_cons, this]
        simpa [boxIdx] using q2
  | dead =>
    rw [hsrc] at h3 hty
    have hl : loadSrc x mbs = .ok (.dead, mbs) := by
      simp only [loadSrc, hty, typeByte, if_true]
    exact ⟨_, _, loadMsg_of hl, ⟨by simp only [hsrc, savedSrc], h2, hs, hr, hf, fun h => absurd hsrc h⟩, keep (by simp [hsrc])⟩

theorem loadMsgs_spec {mboxen : List Mbox} : ∀ {ms : List Msg} {xs : List DbMsg}, Pairs (MsgStored mboxen) ms xs →
    ∀ (pre : List Msg) (mbs : List Mbox), BoxesSaved pre mboxen mbs → (∀ fi, ∃ k, boxIdx (pre ++ ms) fi = List.range k) →
    ∃ ms' mbs', loadMsgs xs mbs = .ok (ms', mbs') ∧ Pairs SavedMsg ms ms' ∧ BoxesSaved (pre ++ ms) mboxen mbs' := by
  intro ms xs h
  induction h with
  | nil => intro pre mbs hb _; exact ⟨[], mbs, rfl, .nil, by simpa using hb⟩
  | @cons m x ms xs hx _ ih =>
    intro pre mbs hb ho
    obtain ⟨m', mbs1, e1, s1, b1⟩ := loadMsg_spec hb hx (by
      intro fi mi hsrc
      obtain ⟨k, hk⟩ := ho fi
      rw [boxIdx_append, boxIdx_cons, hsrc, boxNo_self] at hk
      have hlt : (boxIdx pre fi).length < k := by
        have := congrArg List.length hk
        simp at this
        omega
      have := congrArg (fun l => l[(boxIdx pre fi).length]?) hk
      simp only [List.getElem?_append_right (Nat.le_refl _), Nat.sub_self] at this
      simpa [hlt] using this)
    obtain ⟨ms', mbs2, e2, s2, b2⟩ := ih (pre ++ [m]) mbs1 b1 (by intro fi; simpa using ho fi)
    refine ⟨m' :: ms', mbs2, by simp only [loadMsgs, e1, e2, bind, Except.bind], .cons s1 s2, by simpa using b2⟩

/-! ### The tables -/

theorem withText_spec : ∀ {l : List (Entry Matches)} {bs : List (Option Text × List UInt8)}, Pairs TokStored l bs →
    (l.map Entry.text).Nodup →
    ∃ tail : Text → List UInt8, withText bs = .ok (l.map fun e => (e.text, e.data.bytes ++ 0xff :: tail e.text)) := by
  intro l bs h
  induction h with
  | nil => intro _; exact ⟨fun _ => [], rfl⟩
  | @cons e b l bs hb _ ih =>
    intro hn
    rw [List.map_cons, List.nodup_cons] at hn
    obtain ⟨tail, ht⟩ := ih hn.2
    obtain ⟨b1, rest, b2⟩ := hb
    obtain ⟨o, x⟩ := b
    simp only at b1 b2
    refine ⟨fun w => if w = e.text then rest else tail w, ?_⟩
    have : l.map (fun e' => (e'.text, e'.data.bytes ++ 0xff :: (if e'.text = e.text then rest else tail e'.text))) =
        l.map (fun e => (e.text, e.data.bytes ++ 0xff :: tail e.text)) := by
      apply List.map_congr_left
      intro e' he'
      have : e'.text ≠ e.text := by
        intro h
        exact hn.1 (List.mem_map.2 ⟨e', he', h⟩)
      rw [if_neg this]
    simp only [b1, withText, ht, bind, Except.bind, List.map_cons, if_true, b2]
    rw [this]

theorem withText2_spec : ∀ {l : List (Entry Matches2)} {bs : List (Option Text × List UInt8 × List UInt8)}, Pairs Tok2Stored l bs →
    (l.map Entry.text).Nodup →
    ∃ tail0 tail1 : Text → List UInt8, withText bs = .ok (l.map fun e => (e.text, e.data.match0.bytes ++ 0xff :: tail0 e.text,
      e.data.match1.bytes ++ 0xff :: tail1 e.text)) := by
  intro l bs h
  induction h with
  | nil => intro _; exact ⟨fun _ => [], fun _ => [], rfl⟩
  | @cons e b l bs hb _ ih =>
    intro hn
    rw [List.map_cons, List.nodup_cons] at hn
    obtain ⟨tail0, tail1, ht⟩ := ih hn.2
    obtain ⟨b1, ⟨rest0, b2⟩, rest1, b3⟩ := hb
    obtain ⟨o, x, y⟩ := b
    simp only at b1 b2 b3
    refine ⟨fun w => if w = e.text then rest0 else tail0 w, fun w => if w = e.text then rest1 else tail1 w, ?_⟩
    have : l.map (fun e' => (e'.text, e'.data.match0.bytes ++ 0xff :: (if e'.text = e.text then rest0 else tail0 e'.text),
          e'.data.match1.bytes ++ 0xff :: (if e'.text = e.text then rest1 else tail1 e'.text))) =
        l.map (fun e => (e.text, e.data.match0.bytes ++ 0xff :: tail0 e.text, e.data.match1.bytes ++ 0xff :: tail1 e.text)) := by
      apply List.map_congr_left
      intro e' he'
      have : e'.text ≠ e.text := by
        intro h
        exact hn.1 (List.mem_map.2 ⟨e', he', h⟩)
      rw [if_neg this, if_neg this]
    simp only [b1, withText, ht, bind, Except.bind, List.map_cons, if_true, b2, b3]
    rw [this]

theorem loopBound_lt {n : Nat} (h : n < 2 ^ 31) : loopBound n = n := by simp only [loopBound, h, if_true]

theorem loadTableFrom_spec {key : Nat} {db : Database} {d : Text} {ws : List Write} (h : Written key db d ws) {t : Table Matches}
    {m : TokMap} {hash : Text → Nat} {mail : Mail} (hr : RepMail hash t mail) (ht : TableStored ws t m)
    (hc : ∀ e ∈ tokensOf t, 0 ∉ e.text) (hn : t.n < 2 ^ 31) (hash' : Text → Nat) (junk : Text → Nat) :
    ∃ t', loadTableFrom hash' mail.length junk d { n := t.n, tok := m.tok, enc := m.enc } = .ok t' ∧ RepMail hash' t' mail := by
  obtain ⟨bs, e1, p1⟩ := rdTokens_spec h ht hc hr.ok.n_eq.symm
  obtain ⟨tail, e2⟩ := withText_spec p1 hr.ok.nodup
  obtain ⟨t', e3, r⟩ := hr.reload' hash' junk tail _ (List.Perm.refl _)
  refine ⟨t', ?_, r⟩
  simp only [loadTableFrom, loopBound_lt hn, e1, e2, bind, Except.bind]
  exact e3

theorem loadTable2From_spec {key : Nat} {db : Database} {d : Text} {ws : List Write} (h : Written key db d ws) {t : Table Matches2}
    {tok enc0 enc1 : Nat} {hash : Text → Nat} {mail : IdMail} (hr : RepIds hash t mail)
    (ht : Table2In ws ((tokensOf t).map textAndLists) tok enc0 enc1)
    (hc : ∀ e ∈ tokensOf t, 0 ∉ e.text) (hn : t.n < 2 ^ 31) (hash' : Text → Nat) (junk : Text → Nat)
    (hj : mail ≠ [] → ∀ w, junk w < mail.length) :
    ∃ t', loadTable2From hash' mail.length junk junk d { n := t.n, tok, enc0, enc1 } = .ok t' ∧ RepIds hash' t' mail := by
  obtain ⟨bs, e1, p1⟩ := rdTokens2_spec h ht hc hr.ok.n_eq.symm
  obtain ⟨tail0, tail1, e2⟩ := withText2_spec p1 hr.ok.nodup
  obtain ⟨t', e3, r⟩ := hr.reload' hash' junk junk hj tail0 tail1 _ (List.Perm.refl _)
  refine ⟨t', ?_, r⟩
  simp only [loadTable2From, loopBound_lt hn, e1, e2, bind, Except.bind]
  exact e3

theorem table_small {db : Database} (h : fileLength db < 2 ^ 31) : db.msgs.length < 2 ^ 31 ∧ db.mboxen.length < 2 ^ 31 ∧
    db.tables.to.n < 2 ^ 31 ∧ db.tables.cc.n < 2 ^ 31 ∧ db.tables.from.n < 2 ^ 31 ∧ db.tables.subject.n < 2 ^ 31 ∧
    db.tables.body.n < 2 ^ 31 ∧ db.tables.attachmentName.n < 2 ^ 31 ∧ db.tables.msgIds.n < 2 ^ 31 := by
  obtain ⟨_, h2⟩ := fileLength_ge db
  have hb : (computeMapping db).beyond = headerWords + 5 * db.msgs.length + 5 * db.mboxen.length + 2 * db.tables.to.n +
      2 * db.tables.cc.n + 2 * db.tables.from.n + 2 * db.tables.subject.n + 2 * db.tables.body.n +
      2 * db.tables.attachmentName.n + 3 * db.tables.msgIds.n := rfl
  omega

theorem loadTables_spec {key : Nat} {db : Database} {d : Text} {ws : List Write} (h : Written key db d ws) (hc : CStrings db)
    {hash : Text → Nat} {ix : List MsgWords} (hr : TablesRep hash db.tables ix) (hl : ix.length = db.msgs.length)
    (hash' : Text → Nat) (junk : Text → Nat) (hj : db.msgs ≠ [] → ∀ w, junk w < db.msgs.length) :
    ∃ t', loadTables hash' junk (rawOf key db d) = .ok t' ∧ TablesRep hash' t' ix := by
  obtain ⟨s0, _, s1, s2, s3, s4, s5, s6, s7⟩ := table_small h.small
  have hlen : ∀ f : MsgWords → List Text, (ix.map f).length = db.msgs.length := by intro f; rw [List.length_map, hl]
  obtain ⟨t1, e1, r1⟩ := loadTableFrom_spec h hr.to h.file.to hc.to s1 hash' junk
  obtain ⟨t2, e2, r2⟩ := loadTableFrom_spec h hr.cc h.file.cc hc.cc s2 hash' junk
  obtain ⟨t3, e3, r3⟩ := loadTableFrom_spec h hr.sender h.file.sender hc.sender s3 hash' junk
  obtain ⟨t4, e4, r4⟩ := loadTableFrom_spec h hr.subject h.file.subject hc.subject s4 hash' junk
  obtain ⟨t5, e5, r5⟩ := loadTableFrom_spec h hr.body h.file.body hc.body s5 hash' junk
  obtain ⟨t6, e6, r6⟩ := loadTableFrom_spec h hr.attachment h.file.attachment hc.attachment s6 hash' junk
  obtain ⟨t7, e7, r7⟩ := loadTable2From_spec h hr.ids h.file.ids hc.ids s7 hash' junk (by
    intro hne
    rw [List.length_map, hl]
    exact hj (by
      intro h0
      rw [h0] at hl
      have := List.length_eq_zero_iff.1 hl
      simp [this] at hne))
  rw [List.length_map, hl] at e1 e2 e3 e4 e5 e6 e7
  refine ⟨{ to := t1, cc := t2, «from» := t3, subject := t4, body := t5, attachmentName := t6, msgIds := t7 }, ?_, ⟨r1, r2, r3, r4, r5, r6, r7⟩⟩
  simp only [loadTables, rawOf, loopBound_lt s0, e1, e2, e3, e4, e5, e6, e7, bind, Except.bind]

/-! ### The whole -/

theorem boxIdx_saved {ms ms' : List Msg} (h : Pairs SavedMsg ms ms') (fi : Nat) : boxIdx ms' fi = boxIdx ms fi := by
  induction h with
  | nil => rfl
  | @cons m m' ms ms' h _ ih =>
    rw [boxIdx_cons, boxIdx_cons, ih, h.src]
    cases m.src <;> rfl

theorem place_saved {ms ms' : List Msg} (h : Pairs SavedMsg ms ms') : ms'.filterMap Place = ms.filterMap Place := by
  induction h with
  | nil => rfl
  | @cons m m' ms ms' h _ ih =>
    have : Place m' = Place m := by
      have := h.src
      obtain ⟨src, date, tid, s, r, f⟩ := m
      obtain ⟨src', date', tid', s', r', f'⟩ := m'
      simp only at this
      subst this
      cases src <;> rfl
    rw [List.filterMap_cons, List.filterMap_cons, ih, this]

theorem pairs_of_get {α β : Type} {R : α → β → Prop} : ∀ {l : List α} {l' : List β}, l'.length = l.length →
    (∀ (i : Nat) a, l[i]? = some a → ∃ b, l'[i]? = some b ∧ R a b) → Pairs R l l' := by
  intro l
  induction l with
  | nil => intro l' hl _; cases l' with
    | nil => exact .nil
    | cons => simp at hl
  | cons a l ih =>
    intro l' hl h
    cases l' with
    | nil => simp at hl
    | cons b l' =>
      obtain ⟨b', hb, hR⟩ := h 0 a rfl
      simp only [List.getElem?_cons_zero, Option.some.injEq] at hb
      subst hb
      refine .cons hR (ih (by simpa using hl) ?_)
      intro i a ha
      have := h (i + 1) a (by simpa using ha)
      simpa using this

theorem paths_same {l l' : List Mbox} (h : Pairs (fun a b : Mbox => b.path = a.path) l l') :
    l'.filterMap (·.path) = l.filterMap (·.path) := by
  induction h with
  | nil => rfl
  | cons h _ ih => rw [List.filterMap_cons, List.filterMap_cons, h, ih]

theorem loadDatabase_spec {key : Nat} {db : Database} {d : Text} {ws : List Write} (h : Written key db d ws) (hc : CStrings db)
    (hk : ∀ mb ∈ db.mboxen, ∀ e ∈ mb.msgs, e.check.length = 16)
    {hash : Text → Nat} {ix : List MsgWords} (hg : GoodDb hash db ix) (hashfn : Nat → Text → Nat) (junk : Text → Nat)
    (hj : db.msgs ≠ [] → ∀ w, junk w < db.msgs.length) :
    ∃ db', loadDatabase hashfn junk (rawOf key db d) = .ok db' ∧ Pairs SavedMsg db.msgs db'.msgs ∧
      db'.mboxen.length = db.mboxen.length ∧
      (∀ (fi : Nat) mb, db.mboxen[fi]? = some mb → ∃ mb', db'.mboxen[fi]? = some mb' ∧ SavedBox (boxIdx db.msgs fi).length mb mb') ∧
      GoodDb (hashfn (key % 2 ^ 32)) db' ix ∧ Loaded db' := by
  obtain ⟨s0, s0', _⟩ := table_small h.small
  obtain ⟨xs, e1, p1⟩ := rdMsgs_spec h hc
  obtain ⟨mbs, e2, p2⟩ := loadMboxen_spec h hc hk
  obtain ⟨ms', mbs', e3, p3, b3⟩ := loadMsgs_spec p1 [] mbs (by
    refine ⟨(pairs_length p2).symm, ?_⟩
    intro fi mb hmb
    obtain ⟨mb', a, b⟩ := pairs_get p2 fi mb hmb
    exact ⟨mb', a, savedBox_zero b⟩) (by
    intro fi
    obtain ⟨k, hk, _⟩ := hg.boxes fi
    exact ⟨k, by simpa using hk⟩)
  obtain ⟨t', e4, r4⟩ := loadTables_spec h hc hg.rep hg.length (hashfn (key % 2 ^ 32)) junk hj
  rw [List.nil_append] at b3
  refine ⟨{ msgs := ms', mboxen := mbs', tables := t' }, ?_, p3, b3.1, b3.2, ?_, ?_⟩
  · have hk : (rawOf key db d).hashKey = key % 2 ^ 32 := rfl
    have hn : (rawOf key db d).nMsgs = db.msgs.length := rfl
    have hn' : (rawOf key db d).nMboxen = db.mboxen.length := rfl
    simp only [loadDatabase, hk, hn, hn', loopBound_lt s0, loopBound_lt s0', e1, e2, e3, e4, bind, Except.bind]
  · refine ⟨r4, ?_, ?_, ?_, ?_, ?_⟩
    · rw [hg.length, pairs_length p3]
    · rw [← pairs_length p3]; exact hg.small
    · show (ms'.filterMap Place).Nodup
      rw [place_saved p3]; exact hg.places
    · intro fi
      obtain ⟨k, hk, hb⟩ := hg.boxes fi
      refine ⟨k, (boxIdx_saved p3 fi).trans hk, ?_⟩
      intro hk0
      obtain ⟨mb, hmb, q1, q2, q3⟩ := hb hk0
      obtain ⟨mb', a, b⟩ := b3.2 fi mb hmb
      rw [hk, List.length_range] at b
      refine ⟨mb', a, by rw [b.path]; exact q1, by rw [b.length]; exact q2, ?_⟩
      intro i hi
      obtain ⟨e, he, _⟩ := q3 i hi
      obtain ⟨e', he', _, _, hpos⟩ := b.each i e he
      obtain ⟨s, l, _, hp⟩ := hpos hi
      exact ⟨e', he', by rw [hp]; simp⟩
    · have : mbs'.filterMap (·.path) = db.mboxen.filterMap (·.path) :=
        paths_same (pairs_of_get (R := fun a b : Mbox => b.path = a.path) b3.1 (by
          intro i mb hmb
          obtain ⟨mb', a, b⟩ := b3.2 i mb hmb
          exact ⟨mb', a, b.path⟩))
      show (mbs'.filterMap (·.path)).Nodup
      rw [this]; exact hg.paths
  · intro fi mb' hmb' i e' he' hi
    have hfi : fi < db.mboxen.length := by
      have := (List.getElem?_eq_some_iff.1 hmb').1
      rw [← b3.1]; exact this
    obtain ⟨mb1, a, b⟩ := b3.2 fi _ (List.getElem?_eq_getElem hfi)
    have : mb1 = mb' := by
      have h' : mbs'[fi]? = some mb' := hmb'
      rw [a] at h'
      exact Option.some.inj h'
    subst this
    have hil : i < db.mboxen[fi].msgs.length := by
      rw [← b.length]; exact (List.getElem?_eq_some_iff.1 he').1
    obtain ⟨e1, g1, _, g2, _⟩ := b.each i _ (List.getElem?_eq_getElem hil)
    rw [he'] at g1
    cases g1
    refine g2 ?_
    have := boxIdx_saved p3 fi
    simp only at hi
    rw [this] at hi
    exact hi

end Mairix
