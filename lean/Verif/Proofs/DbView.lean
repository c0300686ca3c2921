import Verif.Proofs.DbLoad
import Verif.Proofs.Query

/-! Searching the file that was written. -/

namespace Mairix
open Spec

theorem pairs_left {α β : Type} {R : α → β → Prop} {l : List α} {l' : List β} (h : Pairs R l l') {a : α} (ha : a ∈ l) :
    ∃ b ∈ l', R a b := by
  obtain ⟨i, hi⟩ := List.mem_iff_getElem?.1 ha
  obtain ⟨b, hb, hR⟩ := pairs_get h i a hi
  exact ⟨b, List.mem_of_getElem? hb, hR⟩

/-- Where a message is found. -/
def pathOf (mboxen : List Mbox) (s : Src) : Option Text :=
  match s with
  | .file p _ _ => some p
  | .imap p => some p
  | .mbox fi _ => (mboxen[fi]?).bind (·.path)
  | .dead => none

/-- `n` is the size of the message in the file. -/
def SizeOf (mboxen : List Mbox) (s : Src) (n : Nat) : Prop :=
  match s with
  | .file _ _ size => n = size % 2 ^ 32
  | .mbox fi mi => ∃ mb e start len, mboxen[fi]? = some mb ∧ mb.msgs[mi]? = some e ∧ e.pos = some (start, len) ∧ n = len % 2 ^ 32
  | _ => True

/-- What a search knows of a message. -/
structure InfoOf (mboxen : List Mbox) (m : Msg) (mw : MsgWords) (x : Info) : Prop where
  words : x.words = mw.words
  ids : x.ids = (mw.ids.filter (·.2)).map Prod.fst
  path : x.path = pathOf mboxen m.src
  date : m.src ≠ .dead → x.date = u32 m.date
  size : SizeOf mboxen m.src x.size
  seen : x.has .seen = m.seen
  replied : x.has .replied = m.replied
  flagged : x.has .flagged = m.flagged

theorem exists_list {α : Type} {P : Nat → α → Prop} (n : Nat) (h : ∀ i, i < n → ∃ x, P i x) :
    ∃ l : List α, l.length = n ∧ ∀ (i : Nat) x, l[i]? = some x → P i x := by
  induction n with
  | zero => exact ⟨[], rfl, by intro i x h; simp at h⟩
  | succ n ih =>
    obtain ⟨l, hl, hP⟩ := ih (fun i hi => h i (by omega))
    obtain ⟨x, hx⟩ := h n (by omega)
    refine ⟨l ++ [x], by simp [hl], ?_⟩
    intro i y hy
    rcases Nat.lt_or_ge i n with hi | hi
    · rw [List.getElem?_append_left (by omega)] at hy
      exact hP i y hy
    · rw [List.getElem?_append_right (by omega), List.getElem?_singleton] at hy
      split at hy
      · cases hy
        have : i = n := by omega
        subst this
        exact hx
      · cases hy

theorem lists_stored {hash : Text → Nat} {t : Table Matches} {ix : List MsgWords} {f : Field}
    (hr : RepMail hash t (ix.map (·.words f))) {bs : DbTable} (hp : Pairs TokStored (tokensOf t) bs) {info : List Info}
    (hl : info.length = ix.length) (hi : ∀ (i : Nat) x, info[i]? = some x → ∃ mw, ix[i]? = some mw ∧ x.words = mw.words) :
    Lists bs info f := by
  constructor
  · intro w enc hm i hin
    obtain ⟨e, he, h1, rest, h2⟩ := pairs_right hp hm
    simp only [Option.some.injEq] at h1 h2
    obtain ⟨b, hb, hv⟩ := hr.sound e he
    rw [h2, valid_readAll_file hv] at hin
    rw [← (listOpt_some.1 hb).1, mem_listing] at hin
    obtain ⟨ws, h3, h4⟩ := hin
    rw [List.getElem?_map, Option.map_eq_some_iff] at h3
    obtain ⟨mw, h3, rfl⟩ := h3
    have hlt := (List.getElem?_eq_some_iff.1 h3).1
    refine ⟨info[i], List.getElem?_eq_getElem (by omega), ?_⟩
    obtain ⟨mw', h5, h6⟩ := hi i _ (List.getElem?_eq_getElem (by omega))
    rw [h3] at h5
    cases h5
    rw [h6, h1]
    exact h4
  · intro i m w hm hw
    obtain ⟨mw, h5, h6⟩ := hi i m hm
    rw [h6] at hw
    have hin : i ∈ listing (ix.map (·.words f)) w := mem_listing.2 ⟨mw.words f, by rw [List.getElem?_map, h5]; rfl, hw⟩
    obtain ⟨e, he, h7⟩ := hr.complete w _ (listOpt_some.2 ⟨rfl, by intro h0; rw [h0] at hin; cases hin⟩)
    obtain ⟨b, hb, h1, rest, h2⟩ := pairs_left hp he
    obtain ⟨l, hb', hv⟩ := hr.sound e he
    refine ⟨b.2, ?_, ?_⟩
    · rw [← h7, ← h1]; exact hb
    · rw [h2, valid_readAll_file hv, ← (listOpt_some.1 hb').1, h7]
      exact hin

theorem lists2_stored {hash : Text → Nat} {t : Table Matches2} {ix : List MsgWords}
    (hr : RepIds hash t (ix.map (·.ids))) {bs : DbTable2} (hp : Pairs Tok2Stored (tokensOf t) bs) {info : List Info}
    (hl : info.length = ix.length)
    (hi : ∀ (i : Nat) x, info[i]? = some x → ∃ mw, ix[i]? = some mw ∧ x.ids = (mw.ids.filter (·.2)).map Prod.fst) :
    Lists2 bs info := by
  refine ⟨?_, ?_, ?_⟩
  · intro b hb
    obtain ⟨e, he, h1, _⟩ := pairs_right hp hb
    rw [h1]; simp
  · intro w enc0 enc1 hm i hin
    obtain ⟨e, he, h1, _, rest, h2⟩ := pairs_right hp hm
    simp only [Option.some.injEq] at h1 h2
    obtain ⟨b, hb, hv⟩ := hr.sound e he
    rw [h2, valid_readAll_file hv.2] at hin
    rw [(idLists_some.1 hb).2.1, mem_listing] at hin
    obtain ⟨ws, h3, h4⟩ := hin
    rw [idsOwn, List.getElem?_map, List.getElem?_map, Option.map_map, Option.map_eq_some_iff] at h3
    obtain ⟨mw, h3, rfl⟩ := h3
    have hlt := (List.getElem?_eq_some_iff.1 h3).1
    refine ⟨info[i], List.getElem?_eq_getElem (by omega), ?_⟩
    obtain ⟨mw', h5, h6⟩ := hi i _ (List.getElem?_eq_getElem (by omega))
    rw [h3] at h5
    cases h5
    rw [h6, h1]
    exact h4
  · intro i m w hm hw
    obtain ⟨mw, h5, h6⟩ := hi i m hm
    rw [h6] at hw
    have hin : i ∈ listing (idsOwn (ix.map (·.ids))) w := mem_listing.2 ⟨_, by
      rw [idsOwn, List.getElem?_map, List.getElem?_map, h5]; rfl, hw⟩
    obtain ⟨e, he, h7⟩ := hr.complete w (listing (idsMentioned (ix.map (·.ids))) w, listing (idsOwn (ix.map (·.ids))) w) (idLists_some.2 ⟨rfl, rfl, by
      intro h0
      have := own_sub hin
      have h0' : listing (idsMentioned (ix.map (·.ids))) w = [] := h0
      rw [h0'] at this; cases this⟩)
    obtain ⟨b, hb, h1, _, rest, h2⟩ := pairs_left hp he
    obtain ⟨l, hb', hv⟩ := hr.sound e he
    refine ⟨b.2.1, b.2.2, ?_, ?_⟩
    · rw [← h7, ← h1]; exact hb
    · rw [h2, valid_readAll_file hv.2, (idLists_some.1 hb').2.1, h7]
      exact hin

theorem tids_stored {mboxen : List Mbox} {ms : List Msg} {xs : List DbMsg} (h : Pairs (MsgStored mboxen) ms xs) :
    xs.map (·.tid) = ms.map (fun m => m.tid % 2 ^ 32) := by
  induction h with
  | nil => rfl
  | cons h _ ih => rw [List.map_cons, List.map_cons, ih, h.2.1]

theorem viewDb_spec {key : Nat} {db : Database} {d : Text} {ws : List Write} (h : Written key db d ws) (hc : CStrings db)
    {hash : Text → Nat} {ix : List MsgWords} (hg : GoodDb hash db ix) :
    ∃ r info, viewDb (rawOf key db d) = .ok r ∧ Shows r info ∧ info.length = db.msgs.length ∧
      (∀ (i : Nat) x, info[i]? = some x → ∃ m mw, db.msgs[i]? = some m ∧ ix[i]? = some mw ∧ InfoOf db.mboxen m mw x) ∧
      ((∀ m ∈ db.msgs, ∀ p, m.src ≠ .imap p) → PathsKnown r info) ∧
      r.msgs.map (·.tid) = db.msgs.map (fun m => m.tid % 2 ^ 32) ∧
      Pairs (MsgStored db.mboxen) db.msgs r.msgs ∧
      Pairs (fun mb p => ∀ q, mb.path = some q → p = q) db.mboxen r.mboxPaths := by
  obtain ⟨s0, _⟩ := table_small h.small
  obtain ⟨xs, e1, p1⟩ := rdMsgs_spec h hc
  obtain ⟨ps, e2, p2⟩ := rdMboxPaths_spec h hc
  obtain ⟨b1, t1, q1⟩ := rdTokens_spec h h.file.to hc.to hg.rep.to.ok.n_eq.symm
  obtain ⟨b2, t2, q2⟩ := rdTokens_spec h h.file.cc hc.cc hg.rep.cc.ok.n_eq.symm
  obtain ⟨b3, t3, q3⟩ := rdTokens_spec h h.file.sender hc.sender hg.rep.sender.ok.n_eq.symm
  obtain ⟨b4, t4, q4⟩ := rdTokens_spec h h.file.subject hc.subject hg.rep.subject.ok.n_eq.symm
  obtain ⟨b5, t5, q5⟩ := rdTokens_spec h h.file.body hc.body hg.rep.body.ok.n_eq.symm
  obtain ⟨b6, t6, q6⟩ := rdTokens_spec h h.file.attachment hc.attachment hg.rep.attachment.ok.n_eq.symm
  obtain ⟨b7, t7, q7⟩ := rdTokens2_spec h h.file.ids hc.ids hg.rep.ids.ok.n_eq.symm
  -- an mbox that holds a message has a path
  have hbox : ∀ m ∈ db.msgs, ∀ fi mi, m.src = .mbox fi mi → ∃ mb p, db.mboxen[fi]? = some mb ∧ mb.path = some p := by
    intro m hm fi mi hsrc
    obtain ⟨k, hk, hb⟩ := hg.boxes fi
    have : mi ∈ boxIdx db.msgs fi := List.mem_filterMap.2 ⟨m, hm, by rw [hsrc]; simp [boxNo]⟩
    rw [hk, List.mem_range] at this
    obtain ⟨mb, hmb, hp, _⟩ := hb (by omega)
    obtain ⟨p, hp⟩ := Option.ne_none_iff_exists'.1 hp
    exact ⟨mb, p, hmb, hp⟩
  -- what is known of each message
  obtain ⟨info, hlen, hinfo⟩ := exists_list (α := Info)
    (P := fun i x => ∃ m mw y, db.msgs[i]? = some m ∧ ix[i]? = some mw ∧ xs[i]? = some y ∧ MsgStored db.mboxen m y ∧
      x.words = mw.words ∧ x.ids = (mw.ids.filter (·.2)).map Prod.fst ∧ x.path = pathOf db.mboxen m.src ∧ x.date = y.date ∧
      x.size = y.size ∧ x.has .seen = m.seen ∧ x.has .replied = m.replied ∧ x.has .flagged = m.flagged) db.msgs.length (by
    intro i hi
    have hm := List.getElem?_eq_getElem hi
    have hiw : i < ix.length := by rw [hg.length]; exact hi
    have hw := List.getElem?_eq_getElem hiw
    obtain ⟨y, hy, hs⟩ := pairs_get p1 i _ hm
    refine ⟨{ words := ix[i].words, path := pathOf db.mboxen db.msgs[i].src, ids := (ix[i].ids.filter (·.2)).map Prod.fst,
              date := y.date, size := y.size,
              has := fun f => match f with
                | .seen => db.msgs[i].seen
                | .replied => db.msgs[i].replied
                | .flagged => db.msgs[i].flagged }, _, _, y, hm, hw, hy, hs, rfl, rfl, rfl, rfl, rfl, rfl, rfl, rfl⟩)
  have hwords : ∀ (i : Nat) x, info[i]? = some x → ∃ mw, ix[i]? = some mw ∧ x.words = mw.words := by
    intro i x hx
    obtain ⟨m, mw, y, _, h2, _, _, h4, _⟩ := hinfo i x hx
    exact ⟨mw, h2, h4⟩
  have hids : ∀ (i : Nat) x, info[i]? = some x → ∃ mw, ix[i]? = some mw ∧ x.ids = (mw.ids.filter (·.2)).map Prod.fst := by
    intro i x hx
    obtain ⟨m, mw, y, _, h2, _, _, _, h4, _⟩ := hinfo i x hx
    exact ⟨mw, h2, h4⟩
  have hl : info.length = ix.length := by rw [hlen, hg.length]
  refine ⟨{ msgs := xs, mboxPaths := ps, to := b1, cc := b2, «from» := b3, subject := b4, body := b5, attachmentName := b6, msgIds := b7 },
    info, ?_, ?_, hlen, ?_, ?_, ?_, p1, p2⟩
  · have hn : (rawOf key db d).nMsgs = db.msgs.length := rfl
    have hn' : (rawOf key db d).nMboxen = db.mboxen.length := rfl
    simp only [viewDb, hn, hn', loopBound_lt s0, e1, e2, bind, Except.bind]
    simp only [rawOf, t1, t2, t3, t4, t5, t6, t7]
  · refine ⟨by rw [hlen, pairs_length p1], lists_stored hg.rep.to q1 hl hwords, lists_stored hg.rep.cc q2 hl hwords,
      lists_stored hg.rep.sender q3 hl hwords, lists_stored hg.rep.subject q4 hl hwords, lists_stored hg.rep.body q5 hl hwords,
      lists_stored hg.rep.attachment q6 hl hwords, lists2_stored hg.rep.ids q7 hl hids, ?_⟩
    intro i y x hy hx
    obtain ⟨m, mw, y', h1, h2, h3, h4, h5, h6, h7, h8, h9, h10, h11, h12⟩ := hinfo i x hx
    have : y' = y := by
      have hy' : xs[i]? = some y := hy
      rw [h3] at hy'
      exact Option.some.inj hy'
    subst this
    have hb := h4.1
    refine ⟨h8.symm, h9.symm, by rw [hb, seen_of_byte, h10], by rw [hb, replied_of_byte, h11], by rw [hb, flagged_of_byte, h12], ?_⟩
    rw [DbMsg.type, hb, type_of_byte, h7]
    cases hsrc : m.src with
    | mbox fi mi =>
      obtain ⟨mb, p, g1, g2⟩ := hbox m (List.mem_of_getElem? h1) fi mi hsrc
      simp only [typeByte, pathOf, g1, Option.bind_some, g2, reduceCtorEq, iff_false]
      decide
    | dead => simp [typeByte, pathOf]
    | file =>
      simp only [typeByte, pathOf, reduceCtorEq, iff_false]
      decide
    | imap =>
      simp only [typeByte, pathOf, reduceCtorEq, iff_false]
      decide
  · intro i x hx
    obtain ⟨m, mw, y, h1, h2, h3, h4, h5, h6, h7, h8, h9, h10, h11, h12⟩ := hinfo i x hx
    obtain ⟨_, _, h4⟩ := h4
    refine ⟨m, mw, h1, h2, h5, h6, h7, ?_, ?_, h10, h11, h12⟩
    · intro hd
      rw [h8]
      cases hsrc : m.src with
      | file p mt sz => rw [hsrc] at h4; exact h4.2.2.2
      | imap p => rw [hsrc] at h4; exact h4.2
      | mbox fi mi => rw [hsrc] at h4; exact h4.2.2.1
      | dead => exact absurd hsrc hd
    · rw [h9]
      cases hsrc : m.src with
      | file p mt sz => rw [hsrc] at h4; exact h4.2.2.1
      | imap p => trivial
      | mbox fi mi =>
        rw [hsrc] at h4
        obtain ⟨_, _, _, mb, e, start, len, g1, g2, g3, _, g5⟩ := h4
        exact ⟨mb, e, start, len, g1, g2, g3, g5⟩
      | dead => trivial
  · intro hni i y x hy hx
    obtain ⟨m, mw, y', h1, h2, h3, h4, h5, h6, h7, h8, h9, h10, h11, h12⟩ := hinfo i x hx
    have : y' = y := by
      have hy' : xs[i]? = some y := hy
      rw [h3] at hy'
      exact Option.some.inj hy'
    subst this
    have hmem := List.mem_of_getElem? h1
    obtain ⟨hb, _, h4⟩ := h4
    have hty : y'.type = typeByte m.src := by rw [DbMsg.type, hb, type_of_byte]
    rw [h7]
    simp only [pathToken, hty]
    cases hsrc : m.src with
    | file p mt sz =>
      rw [hsrc] at h4
      simp [typeByte, pathOf, h4.1]
    | imap p => exact absurd hsrc (hni m hmem p)
    | mbox fi mi =>
      rw [hsrc] at h4
      obtain ⟨mb, p, g1, g2⟩ := hbox m hmem fi mi hsrc
      obtain ⟨p', g3, g4⟩ := pairs_get p2 fi mb g1
      have := g4 p g2
      subst this
      simp only [typeByte, pathOf, h4.1, g1, g2, g3, Option.bind_some, show ¬ DB_MSG_MBOX = DB_MSG_FILE by decide, if_false, if_true]
    | dead =>
      simp only [typeByte, pathOf, show ¬ DB_MSG_DEAD = DB_MSG_FILE by decide, show ¬ DB_MSG_DEAD = DB_MSG_MBOX by decide, if_false,
        if_true]
  · exact tids_stored p1

end Mairix
