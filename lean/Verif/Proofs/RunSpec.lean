import Verif.Proofs.RunStep

/-! A whole indexing run, and a history of runs. -/

namespace Mairix
open Spec

theorem saved_src_inv {m m' : Msg} (h : SavedMsg m m') :
    (∀ fi mi, m'.src = .mbox fi mi ↔ m.src = .mbox fi mi) ∧
    (∀ p mt sz, m'.src = .file p mt sz → ∃ mt' sz', m.src = .file p mt' sz' ∧ mt = u32 mt') ∧
    (∀ p mt sz, m.src = .file p mt sz → ∃ sz', m'.src = .file p (u32 mt) sz') ∧
    (∀ p, m'.src = .imap p ↔ m.src = .imap p) := by
  have hs := h.src
  cases hm : m.src <;> rw [hm] at hs <;> simp only [savedSrc] at hs <;> rw [hs]
  · refine ⟨by simp, by simp, by simp, by simp⟩
  · refine ⟨by simp, ?_, ?_, by simp⟩
    · rintro p mt sz ⟨⟩; exact ⟨_, _, rfl, rfl⟩
    · rintro p mt sz ⟨⟩; exact ⟨_, rfl⟩
  · refine ⟨by simp, by simp, by simp, by simp⟩
  · refine ⟨by simp, by simp, by simp, by simp⟩

theorem threads_saved {ms ms' : List Msg} {ix : List MsgWords} (h : ThreadsRight ms ix) (hs : Pairs SavedMsg ms ms')
    (hl : ms.length < 2 ^ 32) : ThreadsRight ms' ix := by
  have hlen := pairs_length hs
  have ht : ∀ (i : Nat) m', ms'[i]? = some m' → ∃ m, ms[i]? = some m ∧ m'.tid = m.tid := by
    intro i m' hi
    obtain ⟨m, h1, h2⟩ := pairs_get' hs i m' hi
    refine ⟨m, h1, ?_⟩
    have := h.2 m (List.mem_of_getElem? h1)
    rw [h2.tid, Nat.mod_eq_of_lt (by omega)]
  constructor
  · intro i j mi mj hi hj
    obtain ⟨a, ha, ea⟩ := ht i mi hi
    obtain ⟨b, hb, eb⟩ := ht j mj hj
    rw [ea, eb]
    exact h.1 i j a b ha hb
  · intro m hm
    obtain ⟨i, hi⟩ := List.getElem?_of_mem hm
    obtain ⟨a, ha, ea⟩ := ht i m hi
    rw [ea, ← hlen]
    exact h.2 a (List.mem_of_getElem? ha)

/-- What is loaded from the file. -/
theorem open_ok {hashfn : Nat → Text → Nat} {hist : List Run} {r : Run} {f : Option Text} {db0 db : Database} {ix : List MsgWords}
    {key : Nat} (h : Holds hist f db0 ix) (hh : ∀ r ∈ hist, Sane r) (e : openOrNew hashfn r f = .ok (key, db)) :
    Mem hist (hashfn key) db ix ∧ Loaded db ∧ Pairs SavedMsg db0.msgs db.msgs ∧
      ∀ (fi : Nat) mb, db0.mboxen[fi]? = some mb → ∃ mb', db.mboxen[fi]? = some mb' ∧ mb'.path = mb.path := by
  obtain ⟨⟨hash, hm⟩, hf⟩ := h
  cases f with
  | none =>
    obtain ⟨rfl, rfl⟩ := hf
    cases e
    exact ⟨⟨good_new _, hm.words, hm.paths, hm.prov, hm.threads⟩, loaded_new, .nil, fun fi mb hmb => ⟨mb, hmb, rfl⟩⟩
  | some d =>
    obtain ⟨key0, ws, hw⟩ := hf
    obtain ⟨raw, e1, e⟩ := res_bind_ok e
    obtain ⟨db2, e2, e⟩ := res_bind_ok e
    obtain ⟨u, e3, e⟩ := res_bind_ok e
    cases e
    rw [openDb_spec hw] at e1
    cases e1
    have hc := cstrings_of hm.good hm.words hm.paths
    obtain ⟨l1, l2, l3, l4, l5⟩ := loadDatabase_ok hw hc hm.paths.checks hm.good e2
    have hback : ∀ mb' ∈ db.mboxen, ∃ mb ∈ db0.mboxen, ∃ k, SavedBox k mb mb' := by
      intro mb' hmb'
      obtain ⟨fi, hfi⟩ := List.getElem?_of_mem hmb'
      have hlt := (List.getElem?_eq_some_iff.1 hfi).1
      rw [l2] at hlt
      obtain ⟨mb'', h1, h2⟩ := l3 fi db0.mboxen[fi] (List.getElem?_eq_getElem hlt)
      rw [hfi] at h1
      cases h1
      exact ⟨_, List.getElem_mem hlt, _, h2⟩
    refine ⟨⟨l4, hm.words, ?_, ?_, ?_⟩, l5, l1, ?_⟩
    · constructor
      · intro m' hm' p mt sz hs
        obtain ⟨m, h1, h2⟩ := pairs_right l1 hm'
        obtain ⟨mt', sz', h3, _⟩ := (saved_src_inv h2).2.1 p mt sz hs
        exact hm.paths.file m h1 p mt' sz' h3
      · intro m' hm' p hs
        obtain ⟨m, h1, h2⟩ := pairs_right l1 hm'
        exact hm.paths.imap m h1 p (((saved_src_inv h2).2.2.2 p).1 hs)
      · intro mb' hmb' p hp
        obtain ⟨mb, h1, k, h2⟩ := hback mb' hmb'
        exact hm.paths.mbox mb h1 p (by rw [← h2.path]; exact hp)
      · intro mb' hmb' c' hc'
        obtain ⟨mb, h1, k, h2⟩ := hback mb' hmb'
        obtain ⟨j, hj⟩ := List.getElem?_of_mem hc'
        have hlt := (List.getElem?_eq_some_iff.1 hj).1
        rw [h2.length] at hlt
        obtain ⟨c'', h3, h4, _⟩ := h2.each j mb.msgs[j] (List.getElem?_eq_getElem hlt)
        rw [hj] at h3
        cases h3
        rw [h4]
        exact hm.paths.checks mb h1 _ (List.getElem_mem hlt)
    · refine pairs_join l1 hm.prov ?_
      intro m m' mw hmem hs hp
      refine prov_saved hp hs ?_ (fun r hr => (hh r hr).contents)
      intro fi mi hsr mb hmb
      obtain ⟨mb', h1, h2⟩ := l3 fi mb hmb
      refine ⟨mb', _, h1, h2, ?_⟩
      have hmi := mem_boxIdx hmem hsr
      obtain ⟨k, hk, _⟩ := hm.good.boxes fi
      rw [hk, List.mem_range] at hmi
      rw [hk, List.length_range]
      exact hmi
    · intro hp
      have := (table_small hw.small).1
      exact threads_saved (hm.threads hp) l1 (by omega)
    · intro fi mb hmb
      obtain ⟨mb', h1, h2⟩ := l3 fi mb hmb
      exact ⟨mb', h1, h2.path⟩

theorem pairs_keepOnly {α β : Type} {R : α → β → Prop} {p : α → Bool} {a : List α} {b : List β} (h : Pairs R a b) :
    Pairs R (a.filter p) (keepOnly (a.map p) b) := by
  induction h with
  | nil => exact .nil
  | @cons x y l l' h1 _ ih =>
    cases hp : p x with
    | true => simp only [List.map_cons, hp, keepOnly, List.filter_cons, if_true]; exact .cons h1 ih
    | false => simp only [List.map_cons, hp, keepOnly, List.filter_cons, Bool.false_eq_true, if_false]; exact ih

theorem keepOnly_mem {α : Type} : ∀ {ks : List Bool} {l : List α} {x : α}, x ∈ keepOnly ks l → x ∈ l := by
  intro ks
  induction ks with
  | nil => intro l x h; simp [keepOnly] at h
  | cons k ks ih =>
    intro l x h
    cases l with
    | nil => cases k <;> simp [keepOnly] at h
    | cons a l =>
      cases k with
      | true =>
        simp only [keepOnly, List.mem_cons] at h
        rcases h with rfl | h
        · simp
        · exact List.mem_cons_of_mem _ (ih h)
      | false => exact List.mem_cons_of_mem _ (ih h)

theorem same_src {mbs mbs' : List Mbox} {m m' : Msg} (h : SameMessage mbs mbs' m m') :
    (∀ p mt sz, m'.src = .file p mt sz ↔ m.src = .file p mt sz) ∧ (∀ p, m'.src = .imap p ↔ m.src = .imap p) ∧
    ∀ fi' mi, m'.src = .mbox fi' mi → ∃ fi mb, m.src = .mbox fi mi ∧ mbs[fi]? = some mb ∧ mbs'[fi']? = some mb := by
  obtain ⟨_, _, _, _, _, hs⟩ := h
  cases hm : m.src with
  | mbox fi mi =>
    rw [hm] at hs
    obtain ⟨fi', mb, h1, h2, h3⟩ := hs
    rw [h1]
    refine ⟨by simp, by simp, ?_⟩
    rintro f i ⟨⟩
    exact ⟨fi, mb, rfl, h2, h3⟩
  | _ => rw [hm] at hs; simp only at hs; rw [hs]; exact ⟨fun _ _ _ => Iff.rfl, fun _ => Iff.rfl, by simp⟩

theorem same_place {mbs mbs' : List Mbox} {m m' : Msg} (h : SameMessage mbs mbs' m m') (e : Listed) :
    Place m' = some e ↔ Place m = some e := by
  obtain ⟨h1, h2, _⟩ := same_src h
  constructor
  · intro hp
    rcases place_src hp with ⟨hk, mt, sz, hs⟩ | ⟨hk, hs⟩
    · rw [place_file ((h1 _ _ _).1 hs), ← hk]
    · rw [place_imap ((h2 _).1 hs), ← hk]
  · intro hp
    rcases place_src hp with ⟨hk, mt, sz, hs⟩ | ⟨hk, hs⟩
    · rw [place_file ((h1 _ _ _).2 hs), ← hk]
    · rw [place_imap ((h2 _).2 hs), ← hk]

/-- Purging, in memory. -/
theorem purge_ok {hist : List Run} {r : Run} {hash : Text → Nat} {db db' : Database} {ix : List MsgWords}
    {b : Bool} (h : Mem hist hash db ix) (hcur : Current r db) (hr : r ∈ hist) (hh : ∀ r ∈ hist, Sane r)
    (e : purgeStep r db = .ok (db', b)) : ∃ ix', Mem hist hash db' ix' ∧ Current r db' := by
  unfold purgeStep at e
  split at e
  case isFalse => cases e; exact ⟨ix, h, hcur⟩
  rename_i hpu
  obtain ⟨u, _, e⟩ := res_bind_ok e
  obtain ⟨_, c1, c2, c3⟩ := cull_ok h.good e
  have hmem : ∀ m' ∈ db'.msgs, ∃ m ∈ db.msgs, SameMessage db.mboxen db'.mboxen m m' := by
    intro m' hm'
    obtain ⟨m, h1, h2⟩ := pairs_right c1 hm'
    exact ⟨m, (List.mem_filter.1 h1).1, h2⟩
  refine ⟨_, ⟨c3, fun x hx => h.words x (keepOnly_mem hx), ?_, ?_, ?_⟩, ?_⟩
  · constructor
    · intro m' hm' p mt sz hs
      obtain ⟨m, h1, h2⟩ := hmem m' hm'
      exact h.paths.file m h1 p mt sz (((same_src h2).1 _ _ _).1 hs)
    · intro m' hm' p hs
      obtain ⟨m, h1, h2⟩ := hmem m' hm'
      exact h.paths.imap m h1 p (((same_src h2).2.1 _).1 hs)
    · intro mb hmb
      rw [c2] at hmb
      exact h.paths.mbox mb (List.mem_filter.1 hmb).1
    · intro mb hmb
      rw [c2] at hmb
      exact h.paths.checks mb (List.mem_filter.1 hmb).1
  · refine pairs_join c1 (pairs_keepOnly h.prov) ?_
    intro m m' mw hlive hs hp
    constructor
    · intro x hx
      have hx' := (same_place hs x).1 hx
      obtain ⟨r', h1, h2, h3⟩ := hp.place x hx'
      refine ⟨r', h1, ?_, h3⟩
      have hsrc : m'.src = m.src := by
        rcases place_src hx' with ⟨_, mt, sz, hk⟩ | ⟨_, hk⟩
        · rw [hk]; exact ((same_src hs).1 _ _ _).2 hk
        · rw [hk]; exact ((same_src hs).2.1 _).2 hk
      exact entryOf_congr h2 hsrc hs.1 hs.2.2.1 hs.2.2.2.1 hs.2.2.2.2.1
    · intro fi' mi hx
      obtain ⟨fi, mb, h1, h2, h3⟩ := (same_src hs).2.2 fi' mi hx
      obtain ⟨r', h4, h5⟩ := hp.box fi mi h1
      refine ⟨r', h4, boxEntryOf_congr h5 (by rw [hs.1]) hs.2.2.1 hs.2.2.2.1 hs.2.2.2.2.1 ?_ (hh r' h4).contents⟩
      intro mb0 c s l q1 q2 q3 _
      rw [h2] at q1
      cases q1
      exact ⟨mb, c, h3, rfl, q2, q3, rfl⟩
    · intro x hx
      obtain ⟨r', h1, h2, h3⟩ := hp.listed x ((same_place hs x).1 hx)
      exact ⟨r', h1, h2, fun p mt sz hm' => h3 p mt sz (((same_src hs).1 _ _ _).1 hm')⟩
    · intro fi' mi hx
      obtain ⟨fi, mb, h1, h2, h3⟩ := (same_src hs).2.2 fi' mi hx
      exact hp.boxed fi mi h1
    · intro hd
      have hne : m.src ≠ .dead := by simpa using (List.mem_filter.1 hlive).2
      have hs' := hs.2.2.2.2.2
      rw [hd] at hs'
      cases hsr : m.src with
      | mbox a b => rw [hsr] at hs'; obtain ⟨_, _, h, _⟩ := hs'; cases h
      | dead => exact absurd hsr hne
      | _ => rw [hsr] at hs'; cases hs'
  · intro hp
    rw [hp r hr] at hpu
    cases hpu
  · constructor
    · intro m' hm' x hx
      obtain ⟨m, h1, h2⟩ := hmem m' hm'
      exact hcur.listed m h1 x ((same_place h2 x).1 hx)
    · intro x hx ha
      obtain ⟨m, h1, h2⟩ := hcur.all x hx ha
      obtain ⟨m', h3, h4⟩ := pairs_left c1 (List.mem_filter.2 ⟨h1, by simpa using place_live h2⟩)
      exact ⟨m', h3, (same_place h4 x).2 h2⟩
    · intro hf m' hm' p mt sz hs
      obtain ⟨m, h1, h2⟩ := hmem m' hm'
      exact hcur.fresh hf m h1 p mt sz (((same_src h2).1 _ _ _).1 hs)
    · intro m' hm' fi' mi hs
      obtain ⟨m, h1, h2⟩ := hmem m' hm'
      obtain ⟨fi, mb, h3, h4, h5⟩ := (same_src h2).2.2 fi' mi hs
      obtain ⟨mb0, p, g1, g2, g3⟩ := hcur.boxes m h1 fi mi h3
      rw [h4] at g1
      cases g1
      exact ⟨mb, p, h5, g2, g3⟩

theorem write_ok {hist : List Run} {hash : Text → Nat} {key : Nat} {db : Database} {ix : List MsgWords} {old d : Text}
    (h : Mem hist hash db ix) (e : writeDatabase key db old = .ok d) : ∃ ws, Written key db d ws := by
  have hw := writable_of h.good h.paths
  by_cases hv : verifyMboxSizes db = true
  · by_cases hl : fileLength db < 2 ^ 31
    · obtain ⟨d', ws, e', h1, h2, h3⟩ := writeDatabase_spec key old hw hv hl
      rw [e'] at e
      cases e
      exact ⟨ws, h2, h3, Nat.le_of_eq h1.symm, by omega, hv⟩
    · simp only [writeDatabase, hv, hl, if_true, if_false] at e
      cases e
  · simp only [writeDatabase, hv, if_false] at e
    cases e

/-- A run that completes leaves behind a file that agrees with the mail. The steps it takes. -/
theorem indexRun_steps {hashfn : Nat → Text → Nat} {hist : List Run} {r : Run} {f f' : Option Text} {db : Database} {ix : List MsgWords}
    (h : Holds hist f db ix) (hh : ∀ r ∈ hist, Sane r) (hr : Sane r) (e : indexRun hashfn r f = .ok f') :
    ∃ db' ix', Holds (hist ++ [r]) f' db' ix' ∧ Current r db' ∧ ∃ key db1 db2 db3 b2 b3 ix2, openOrNew hashfn r f = .ok (key, db1) ∧
      updateStep hashfn r key db1 = .ok (db2, b2) ∧ purgeStep r db2 = .ok (db3, b3) ∧ Mem hist (hashfn key) db1 ix ∧ Loaded db1 ∧
      r.listed.Nodup ∧ Mem (hist ++ [r]) (hashfn key) db2 ix2 ∧ ((b2 || b3) = true → db' = db3) ∧ ((b2 || b3) = false → db' = db) := by
  unfold indexRun at e
  split at e
  · cases e
  rename_i hd
  have hn : r.listed.Nodup := by
    have := (checkDuplicates_spec hr.sortTexts r.listed).1
    cases hc : checkDuplicates r.sortTexts r.listed with
    | false => exact this hc
    | true => rw [hc] at hd; simp at hd
  have hh' : ∀ r' ∈ hist ++ [r], Sane r' := by
    intro r' hr'
    rcases List.mem_append.1 hr' with h1 | h1
    · exact hh r' h1
    · rw [List.mem_singleton] at h1; rw [h1]; exact hr
  obtain ⟨⟨key, db1⟩, e1, e⟩ := res_bind_ok e
  obtain ⟨⟨db2, b2⟩, e2, e⟩ := res_bind_ok e
  obtain ⟨⟨db3, b3⟩, e3, e⟩ := res_bind_ok e
  obtain ⟨o1, o2, o3, o4⟩ := open_ok h hh e1
  obtain ⟨ix2, u1, u2, u3⟩ := update_ok o1 o2 hr hh hn e2
  obtain ⟨ix3, p1, p2⟩ := purge_ok u1 u2 (by simp) hh' e3
  unfold writeStep at e
  cases hb : b2 || b3 with
  | true =>
    simp only [hb, if_true] at e
    obtain ⟨u, _, e⟩ := res_bind_ok e
    obtain ⟨d, e4, e⟩ := res_bind_ok e
    cases e
    obtain ⟨ws, hw⟩ := write_ok p1 e4
    exact ⟨db3, ix3, ⟨⟨_, p1⟩, key, ws, hw⟩, p2, key, db1, db2, db3, b2, b3, ix2, e1, e2, e3, o1, o2, hn, u1, fun _ => rfl,
      fun h => by rw [hb] at h; cases h⟩
  | false =>
    simp only [hb, Bool.false_eq_true, if_false] at e
    cases e
    have hb0 := hb
    rw [Bool.or_eq_false_iff] at hb
    obtain ⟨s1, s2, s3⟩ := u3 hb.1
    subst s2
    refine ⟨db, ix2, ⟨?_, h.2⟩, ?_, key, db1, db2, db3, b2, b3, ix2, e1, e2, e3, o1, o2, hn, u1, (fun h => by rw [hb0] at h; cases h),
      fun _ => rfl⟩
    · obtain ⟨⟨hash, hm⟩, _⟩ := h
      exact ⟨hash, hm.good, hm.words, hm.paths, pairs_imp_mem hm.prov fun m _ mw _ hp => prov_hist hp (List.sublist_append_left _ _),
        fun hp => hm.threads fun r' h' => hp r' (by simp [h'])⟩
    · constructor
      · intro m hm x hx
        obtain ⟨m', h1, h2⟩ := pairs_left o3 hm
        exact u2.listed m' (by rw [s1]; exact h1) x (by rw [saved_place h2]; exact hx)
      · intro x hx ha
        obtain ⟨m', h1, h2⟩ := u2.all x hx ha
        obtain ⟨m, h3, h4⟩ := pairs_right o3 (by rw [s1] at h1; exact h1)
        exact ⟨m, h3, by rw [← saved_place h4]; exact h2⟩
      · intro hf m hm p mt sz hs
        obtain ⟨m', h1, h2⟩ := pairs_left o3 hm
        obtain ⟨sz', h3⟩ := (saved_src_inv h2).2.2.1 p mt sz hs
        obtain ⟨t, s, h4, h5⟩ := u2.fresh hf m' (by rw [s1]; exact h1) p _ sz' h3
        exact ⟨t, s, h4, by rw [← h5, u32_u32]⟩
      · intro m hm fi mi hs
        obtain ⟨m', h1, h2⟩ := pairs_left o3 hm
        have hs' := ((saved_src_inv h2).1 fi mi).2 hs
        obtain ⟨mb2, p, g1, g2, g3⟩ := u2.boxes m' (by rw [s1]; exact h1) fi mi hs'
        obtain ⟨mb1, mb2', q1, q2, q3⟩ := s3 m' h1 fi mi hs'
        rw [g1] at q2
        cases q2
        obtain ⟨k, hk, hk'⟩ := (h.1.choose_spec).good.boxes fi
        have hmi := mem_boxIdx hm hs
        rw [hk, List.mem_range] at hmi
        obtain ⟨mb0, hmb0, _⟩ := hk' (by omega)
        obtain ⟨mb1', w1, w2⟩ := o4 fi mb0 hmb0
        rw [q1] at w1
        cases w1
        exact ⟨mb0, p, hmb0, by rw [← w2, ← q3]; exact g2, g3⟩

/-- A run that completes leaves behind a file that agrees with the mail. -/
theorem indexRun_ok {hashfn : Nat → Text → Nat} {hist : List Run} {r : Run} {f f' : Option Text} {db : Database} {ix : List MsgWords}
    (h : Holds hist f db ix) (hh : ∀ r ∈ hist, Sane r) (hr : Sane r) (e : indexRun hashfn r f = .ok f') :
    ∃ db' ix', Holds (hist ++ [r]) f' db' ix' ∧ Current r db' := by
  obtain ⟨db', ix', h1, h2, _⟩ := indexRun_steps h hh hr e
  exact ⟨db', ix', h1, h2⟩

theorem holds_none (hist : List Run) : Holds hist none newDatabase [] := by
  refine ⟨⟨fun _ => 0, good_new _, ?_, ?_, ?_, ?_⟩, rfl, rfl⟩
  · intro x hx; cases hx
  · constructor <;> intro m hm <;> cases hm
  · exact .nil
  · intro _
    constructor
    · intro i j mi mj hi; simp [newDatabase] at hi
    · intro m hm; cases hm

theorem indexRuns_ok {hashfn : Nat → Text → Nat} : ∀ (rs : List Run) (hist : List Run) {f f' : Option Text} {db : Database}
    {ix : List MsgWords}, Holds hist f db ix → (∀ r ∈ hist, Sane r) → (∀ r ∈ rs, Sane r) → indexRuns hashfn rs f = .ok f' →
    ∃ db' ix', Holds (hist ++ rs) f' db' ix' ∧ ∀ r, rs.getLast? = some r → Current r db' := by
  intro rs
  induction rs with
  | nil =>
    intro hist f f' db ix h _ _ e
    cases e
    exact ⟨db, ix, by simpa using h, by simp⟩
  | cons r rs ih =>
    intro hist f f' db ix h hh hs e
    obtain ⟨f1, e1, e⟩ := res_bind_ok e
    obtain ⟨db1, ix1, h1, c1⟩ := indexRun_ok h hh (hs r (by simp)) e1
    have hh' : ∀ r' ∈ hist ++ [r], Sane r' := by
      intro r' hr'
      rcases List.mem_append.1 hr' with h1 | h1
      · exact hh r' h1
      · rw [List.mem_singleton] at h1; rw [h1]; exact hs r (by simp)
    cases rs with
    | nil =>
      cases e
      refine ⟨db1, ix1, h1, ?_⟩
      intro r' hr'
      simp at hr'
      rw [← hr']
      exact c1
    | cons r2 rs =>
      obtain ⟨db', ix', h2, c2⟩ := ih (hist ++ [r]) h1 hh' (fun r' h' => hs r' (by simp [h'])) e
      refine ⟨db', ix', by simpa using h2, ?_⟩
      intro r' hr'
      rw [List.getLast?_cons_cons] at hr'
      exact c2 r' hr'

end Mairix
