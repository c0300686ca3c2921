import Verif.Proofs.RunUpdate
import Verif.Proofs.CullFuel
import Verif.Proofs.Integrity

/-! What an indexing run leaves behind. -/

namespace Mairix
open Spec

/-- The database in memory, and where its entries come from. -/
structure Mem (hist : List Run) (hash : Text → Nat) (db : Database) (ix : List MsgWords) : Prop where
  good : GoodDb hash db ix
  words : WordsC ix
  paths : PathsC db
  prov : Pairs (Prov hist db.mboxen) db.msgs ix
  threads : (∀ r ∈ hist, r.purge = false) → ThreadsRight db.msgs ix

/-- The database file holds the database `db`. -/
def Holds (hist : List Run) (f : Option Text) (db : Database) (ix : List MsgWords) : Prop :=
  (∃ hash, Mem hist hash db ix) ∧
  match f with
  | none => db = newDatabase ∧ ix = []
  | some d => ∃ key ws, Written key db d ws

/-- The database agrees with the mail as it was in the run. -/
structure Current (r : Run) (db : Database) : Prop where
  /-- there is no entry of a place that is not listed -/
  listed : ∀ m ∈ db.msgs, ∀ e, Place m = some e → e ∈ r.listed
  /-- every place listed, that can be indexed, has an entry -/
  all : ∀ e ∈ r.listed, addable r.world e = true → ∃ m ∈ db.msgs, Place m = some e
  /-- the files have the modification time noted -/
  fresh : r.fast = false → ∀ m ∈ db.msgs, ∀ p mt sz, m.src = .file p mt sz → ∃ t s, r.world.stat p = .file t s ∧ u32 mt = u32 t
  /-- there is no message in an mbox that is not there any more -/
  boxes : ∀ m ∈ db.msgs, ∀ fi mi, m.src = .mbox fi mi → ∃ mb p, db.mboxen[fi]? = some mb ∧ mb.path = some p ∧ ∃ e ∈ r.extant, e.path = p

theorem noTid_mem : ∀ {a b : List Msg}, a.map noTid = b.map noTid → ∀ m ∈ a, ∃ m' ∈ b, m'.src = m.src := by
  intro a b h m hm
  have : noTid m ∈ b.map noTid := by rw [← h]; exact List.mem_map_of_mem hm
  obtain ⟨m', h1, h2⟩ := List.mem_map.1 this
  refine ⟨m', h1, ?_⟩
  have := congrArg Msg.src h2
  exact this

theorem aged_src {w : World} {fast : Bool} {l : List Listed} {mboxen : List Mbox} (m : Msg) :
    (stays w fast l mboxen m = true ∧ aged w fast l mboxen m = m) ∨ (aged w fast l mboxen m).src = .dead := by
  unfold aged
  cases h : stays w fast l mboxen m with
  | true => exact .inl ⟨rfl, rfl⟩
  | false => exact .inr rfl

theorem boxesDone_words {w : MboxWorld} {fi : Nat} {mbs mbs' : List Mbox} {ms : List Msg} {xs : List MsgWords}
    (h : BoxesDone w fi mbs mbs' ms xs) : (∀ mb ∈ mbs, Ready w mb) → ∀ x ∈ xs, ∃ s, IndexedAsR8 (w.parse s).1 x := by
  induction h with
  | nil => intro _ x hx; cases hx
  | @cons fi mb mb' mbs mbs' ms ms' xs xs' h1 h2 ih =>
    intro hr x hx
    rcases List.mem_append.1 hx with hx | hx
    · rcases h1 with ⟨_, _, rfl, rfl⟩ | ⟨hne, p, va, gs, h3, h4, h5, h6, h7, h8⟩
      · cases hx
      · obtain ⟨p', va', q1, q2, q3⟩ := hr mb (by simp) hne
        rw [h3] at q1
        cases q1
        rw [h4] at q2
        cases q2
        obtain ⟨g, hg, hi⟩ := pairs_right h8 hx
        exact ⟨_, by rw [← (grouped_each h5 q3 g hg).2]; exact hi⟩
    · exact ih (fun mb hm => hr mb (by simp [hm])) x hx

theorem indexed_words {w : World} (hw : ∀ k p m, w.read k p = some m → CText m) {e : Listed} {x : MsgWords} (h : IndexedAs w e x) :
    (∀ f v, v ∈ x.words f → 0 ∉ v) ∧ ∀ v own, (v, own) ∈ x.ids → 0 ∉ v := by
  refine ⟨fun f v hv => ?_, fun v own hv => ?_⟩
  · obtain ⟨r, hr, h⟩ := (h.1 f v).1 hv
    exact hasWord_zero r (hw _ _ _ hr.2) f v h
  · obtain ⟨r, hr, h⟩ := (h.2 v own).1 hv
    exact hasId_zero r (hw _ _ _ hr.2) own v h

theorem indexedR8_words {r8 : Option Rfc822} (hw : ∀ m, r8 = some m → CText m) {x : MsgWords} (h : IndexedAsR8 r8 x) :
    (∀ f v, v ∈ x.words f → 0 ∉ v) ∧ ∀ v own, (v, own) ∈ x.ids → 0 ∉ v := by
  refine ⟨fun f v hv => ?_, fun v own hv => ?_⟩
  · obtain ⟨r, hr, h⟩ := (h.1 f v).1 hv
    exact hasWord_zero r (hw _ hr) f v h
  · obtain ⟨r, hr, h⟩ := (h.2 v own).1 hv
    exact hasId_zero r (hw _ hr) own v h

theorem threads_aged {w : World} {fast : Bool} {l : List Listed} {mboxen : List Mbox} {msgs : List Msg} {ix : List MsgWords}
    (h : ThreadsRight msgs ix) : ThreadsRight (msgs.map (aged w fast l mboxen)) ix := by
  have ht : ∀ m, (aged w fast l mboxen m).tid = m.tid := by
    intro m; unfold aged; split <;> rfl
  constructor
  · intro i j mi mj hi hj
    rw [List.getElem?_map, Option.map_eq_some_iff] at hi hj
    obtain ⟨a, ha, rfl⟩ := hi
    obtain ⟨b, hb, rfl⟩ := hj
    rw [ht, ht]
    exact h.1 i j a b ha hb
  · intro m hm
    obtain ⟨a, ha, rfl⟩ := List.mem_map.1 hm
    rw [ht, List.length_map]
    exact h.2 a ha

/-- The update of the database in memory. -/
theorem update_ok {hashfn : Nat → Text → Nat} {hist : List Run} {r : Run} {key : Nat} {db db' : Database} {ix : List MsgWords}
    {b : Bool} (h : Mem hist (hashfn key) db ix) (hl : Loaded db) (hr : Sane r) (hh : ∀ r ∈ hist, Sane r)
    (hn : r.listed.Nodup) (e : updateStep hashfn r key db = .ok (db', b)) :
    ∃ ix', Mem (hist ++ [r]) (hashfn key) db' ix' ∧ Current r db' ∧
      (b = false → db'.msgs = db.msgs ∧ ix' = ix ∧ ∀ m ∈ db.msgs, ∀ fi mi, m.src = .mbox fi mi → ∃ mb mb', db.mboxen[fi]? = some mb ∧
        db'.mboxen[fi]? = some mb' ∧ mb'.path = mb.path) := by
  obtain ⟨db1, e1, e⟩ := res_bind_ok e
  split at e
  case isFalse => cases e
  rename_i hsz
  have hse : SortedExtant (r.sortExtant r.extant) := by
    apply sortExtant_spec hr.sortExtant
    unfold buildMboxLists at e1
    cases hc : checkMboxDuplicates (r.sortExtant r.extant) with
    | false => rfl
    | true => rw [hc] at e1; cases e1
  have hex : ∀ x ∈ r.sortExtant r.extant, x ∈ r.extant := fun x hx => ((hr.sortExtant r.extant).1.mem_iff).1 hx
  obtain ⟨hs, hperm⟩ := sortListed_spec hr.sortListed hn
  obtain ⟨hrd, hm1, ht1⟩ := good_mboxLists h.good hl hse e1
  obtain ⟨_, hle, hget, hchk⟩ := mboxLists_get hse e1
  obtain ⟨db2, new, box, xs, ys, e2, hu, hg, hth, hsame⟩ := good_updateStep (w := r.world) (mw := r.mboxWorld) (junk := r.junkMsg)
    (fast := r.fast) (l := r.sortListed r.listed) h.good hl hse hs e1 (by
      rw [hm1] at hsz
      rw [hperm.length_eq]
      exact hsz)
  rw [e2] at e
  cases e
  have hlm : ∀ x ∈ r.sortListed r.listed, x ∈ r.listed := fun x hx => hperm.mem_iff.1 hx
  obtain ⟨n1, n2⟩ := newEntries_facts hu.new
  obtain ⟨b1, _⟩ := boxesDone_facts hu.box
  -- the sources of the messages after the update
  have hsrc : ∀ m ∈ db'.msgs, m.src = .dead ∨ (∃ m0 ∈ db.msgs, m0.src = m.src ∧
      stays r.world r.fast (r.sortListed r.listed) db1.mboxen m0 = true) ∨
      (∃ x ∈ r.sortListed r.listed, ∃ m1 : Msg, m1.src = m.src ∧ IsEntry r.world x m1) ∨ ∃ m1 ∈ box, m1.src = m.src := by
    intro m hm
    obtain ⟨m', h1, h2⟩ := noTid_mem hu.msgs m hm
    rcases List.mem_append.1 h1 with h1 | h1
    · rcases List.mem_append.1 h1 with h1 | h1
      · obtain ⟨m0, h3, rfl⟩ := List.mem_map.1 h1
        rcases aged_src (w := r.world) (fast := r.fast) (l := r.sortListed r.listed) (mboxen := db1.mboxen) m0 with ⟨h4, h5⟩ | h4
        · rw [h5] at h2
          exact .inr (.inl ⟨m0, by rw [← hm1]; exact h3, h2, h4⟩)
        · rw [h4] at h2
          exact .inl h2.symm
      · obtain ⟨x, h3, h4⟩ := pairs_right hu.new h1
        exact .inr (.inr (.inl ⟨x, (List.mem_filter.1 h3).1, m', h2, h4⟩))
    · exact .inr (.inr (.inr ⟨m', h1, h2⟩))
  have hboxplace : ∀ m ∈ box, Place m = none := by
    intro m hm
    cases hp : Place m with
    | none => rfl
    | some x =>
      have : x ∈ box.filterMap Place := List.mem_filterMap.2 ⟨m, hm, hp⟩
      rw [b1] at this
      cases this
  -- mbox messages that stay
  have hkeep : ∀ m ∈ db.msgs, stays r.world r.fast (r.sortListed r.listed) db1.mboxen m = true → ∀ fi mi, m.src = .mbox fi mi →
      ∃ mb mb1 mb', db.mboxen[fi]? = some mb ∧ db1.mboxen[fi]? = some mb1 ∧ db'.mboxen[fi]? = some mb' ∧ mb1.path = mb.path ∧
        mb'.path = mb.path ∧ (∃ x ∈ r.extant, mb.path = some x.path) ∧ mb'.msgs[mi]? = mb.msgs[mi]? := by
    intro m hm hst fi mi hsr
    simp only [stays, hsr] at hst
    cases hb : db1.mboxen[fi]? with
    | none => rw [hb] at hst; cases hst
    | some mb1 =>
      rw [hb] at hst
      simp only [Bool.and_eq_true, decide_eq_true_eq] at hst
      obtain ⟨q1, q2⟩ := hst
      obtain ⟨k, hk, hk'⟩ := h.good.boxes fi
      have hmi := mem_boxIdx hm hsr
      rw [hk, List.mem_range] at hmi
      obtain ⟨mb, hmb, _, hkl, _⟩ := hk' (by omega)
      rcases hget fi mb1 hb with hp | ⟨⟨x, hx, hxp⟩, hp⟩
      · rw [hp] at q1; cases q1
      · rcases hp with ⟨mb0, h1, h2, h3⟩ | ⟨h1, _⟩
        · rw [hmb] at h1
          cases h1
          obtain ⟨mb', _, _, g1, g2⟩ := boxesDone_get hu.box fi mb1 hb
          obtain ⟨k1, k2, _⟩ := boxDone_keeps g2
          rcases h3 with h3 | ⟨_, h3⟩
          · refine ⟨mb, mb1, mb', hmb, rfl, g1, h2, by rw [k1, h2], ⟨x, hex x hx, by rw [← h2, hxp]⟩, ?_⟩
            rw [← h3]
            exact k2 mi q2 (by rw [h3]; omega)
          · omega
        · have := (List.getElem?_eq_some_iff.1 hmb).1
          omega
  refine ⟨ix ++ xs ++ ys, ⟨hg, ?_, ?_, ?_, ?_⟩, ?_, ?_⟩
  · -- words
    intro x hx
    rcases List.mem_append.1 hx with hx | hx
    · rcases List.mem_append.1 hx with hx | hx
      · exact h.words x hx
      · obtain ⟨p, _, h1⟩ := pairs_right hu.known hx
        exact indexed_words hr.read h1
    · obtain ⟨s, h1⟩ := boxesDone_words hu.box hrd.ready x hx
      exact indexedR8_words (hr.parse s) h1
  · -- paths
    constructor
    · intro m hm p mt sz hs'
      rcases hsrc m hm with h1 | ⟨m0, h1, h2, _⟩ | ⟨x, h1, m1, h2, h3⟩ | ⟨m1, h1, h2⟩
      · rw [h1] at hs'; cases hs'
      · exact h.paths.file m0 h1 p mt sz (by rw [h2]; exact hs')
      · have := (isEntry_boxNo h3 0).2
        rw [place_file (by rw [h2]; exact hs' : m1.src = .file p mt sz)] at this
        cases this
        exact hr.listed _ (hlm _ h1)
      · have := hboxplace m1 h1
        rw [place_file (by rw [h2]; exact hs' : m1.src = .file p mt sz)] at this
        cases this
    · intro m hm p hs'
      rcases hsrc m hm with h1 | ⟨m0, h1, h2, _⟩ | ⟨x, h1, m1, h2, h3⟩ | ⟨m1, h1, h2⟩
      · rw [h1] at hs'; cases hs'
      · exact h.paths.imap m0 h1 p (by rw [h2]; exact hs')
      · have := (isEntry_boxNo h3 0).2
        rw [place_imap (by rw [h2]; exact hs' : m1.src = .imap p)] at this
        cases this
        exact hr.listed _ (hlm _ h1)
      · have := hboxplace m1 h1
        rw [place_imap (by rw [h2]; exact hs' : m1.src = .imap p)] at this
        cases this
    · intro mb hmb p hp
      obtain ⟨mb1, h1, h2, _⟩ := boxesDone_mem hu.box hmb
      obtain ⟨fi, hfi⟩ := List.getElem?_of_mem h1
      rw [hp] at h2
      rcases hget fi mb1 hfi with h3 | ⟨⟨x, hx, hxp⟩, _⟩
      · rw [h3] at h2; cases h2
      · rw [hxp] at h2
        cases h2
        exact hr.extant x (hex x hx)
    · intro mb hmb c hc
      obtain ⟨mb1, h1, h2, h3⟩ := boxesDone_mem hu.box hmb
      rcases h3 c hc with h3 | ⟨s, h3⟩
      · obtain ⟨mb0, h4, h5⟩ := hchk mb1 h1 c h3
        exact h.paths.checks mb0 h4 c h5
      · rw [h3]; exact hr.md5 s
  · -- provenance
    refine pairs_noTid hu.msgs (pairs_append (pairs_append ?_ ?_) ?_)
    · rw [hm1]
      refine pairs_map_left h.prov ?_
      intro m hm mw hp
      rcases aged_src (w := r.world) (fast := r.fast) (l := r.sortListed r.listed) (mboxen := db1.mboxen) m with ⟨h4, h5⟩ | h4
      · rw [h5]
        constructor
        · intro x hx
          obtain ⟨r', h1, h2⟩ := hp.place x hx
          exact ⟨r', by simp [h1], h2⟩
        · intro fi mi hsr
          obtain ⟨r', h1, h2⟩ := hp.box fi mi hsr
          refine ⟨r', by simp [h1], boxEntryOf_congr h2 rfl rfl rfl rfl ?_ (hh r' h1).contents⟩
          intro mb c s l c1 c2 c3 _
          obtain ⟨mb0, mb1, mb', k1, k2, k3, k4, k5, k6, k7⟩ := hkeep m hm h4 fi mi hsr
          rw [c1] at k1
          cases k1
          exact ⟨mb', c, k3, k5, by rw [k7]; exact c2, c3, rfl⟩
        · intro x hx
          obtain ⟨r', h1, h2⟩ := hp.listed x hx
          exact ⟨r', by simp [h1], h2⟩
        · intro fi mi hsr
          obtain ⟨r', h1, h2⟩ := hp.boxed fi mi hsr
          exact ⟨r', by simp [h1], h2⟩
        · intro hd
          exact lost_more (hp.died hd) (List.sublist_append_left _ _)
      · refine prov_dead h4 ?_
        by_cases hst : stays r.world r.fast (r.sortListed r.listed) db1.mboxen m = true
        · unfold aged at h4
          rw [if_pos hst] at h4
          exact lost_more (hp.died h4) (List.sublist_append_left _ _)
        · cases hsr : m.src with
          | dead => exact lost_more (hp.died hsr) (List.sublist_append_left _ _)
          | mbox fi mi =>
            obtain ⟨r', h1, h2⟩ := hp.boxed fi mi hsr
            exact .inl ⟨r', by simp [h1], h2⟩
          | imap p =>
            obtain ⟨r', h1, h2, -⟩ := hp.listed _ (place_imap hsr)
            simp only [stays, hsr, decide_eq_true_eq] at hst
            exact .inr ⟨r', r, (List.singleton_sublist.2 h1).append (List.Sublist.refl [r]), _, h2, .inl fun h => hst (hperm.mem_iff.2 h)⟩
          | file p mt sz =>
            obtain ⟨r', h1, h2, h3⟩ := hp.listed _ (place_file hsr)
            obtain ⟨t, s, h5, h6⟩ := h3 _ _ _ hsr
            refine .inr ⟨r', r, (List.singleton_sublist.2 h1).append (List.Sublist.refl [r]), _, h2, ?_⟩
            by_cases hin : (⟨.file, p⟩ : Listed) ∈ r.listed
            · refine .inr ⟨t, s, rfl, h5, ?_⟩
              rintro ⟨⟨s', h7⟩, h8, h9⟩
              apply hst
              have hmt : mt = t := by
                rcases h6 with h6 | h6
                · exact h6
                · rw [h6]; unfold u32; omega
              simp [stays, hsr, hperm.mem_iff.2 hin, modified, h7, hmt]
            · exact .inl hin
    · refine pairs_join hu.new hu.known ?_
      intro x m mw hx h1 h2
      constructor
      · intro x' hx'
        rw [(isEntry_boxNo h1 0).2] at hx'
        cases hx'
        exact ⟨r, by simp, entryOf_isEntry h1, h2⟩
      · intro fi mi hs'
        have := (isEntry_boxNo h1 fi).1
        rw [hs', boxNo_self] at this
        cases this
      · intro x' hx'
        rw [(isEntry_boxNo h1 0).2] at hx'
        cases hx'
        refine ⟨r, by simp, hlm _ (List.mem_filter.1 hx).1, ?_⟩
        intro p mt sz hm'
        have hq := h1.src
        obtain ⟨k, q⟩ := x
        rw [hm'] at hq
        cases k with
        | imap => cases hq
        | file =>
          obtain ⟨t, s, a, b⟩ := hq
          cases b
          exact ⟨_, _, a, .inl rfl⟩
      · intro fi mi hs'
        have := (isEntry_boxNo h1 fi).1
        rw [hs', boxNo_self] at this
        cases this
      · intro hd
        have hq := h1.src
        obtain ⟨k, q⟩ := x
        rw [hd] at hq
        cases k with
        | imap => cases hq
        | file =>
          obtain ⟨t, s, a, b⟩ := hq
          cases b
    · by_cases hxt : r.extant = []
      · obtain ⟨rfl, rfl⟩ := boxesDone_noPath hu.box (by
          intro mb hmb
          obtain ⟨fi, hfi⟩ := List.getElem?_of_mem hmb
          rcases hget fi mb hfi with h3 | ⟨⟨x, hx, hxp⟩, _⟩
          · exact h3
          · have := hex x hx
            rw [hxt] at this
            cases this)
        exact .nil
      have := boxesDone_prov hxt (r := r) (full := db'.mboxen) hu.box (by intro i; rw [Nat.zero_add]) ?_ hrd.ready
      · exact pairs_imp_mem this fun m _ mw _ hp => prov_hist hp (List.sublist_append_right _ _)
      · intro mb hmb hne
        obtain ⟨fi, hfi⟩ := List.getElem?_of_mem hmb
        obtain ⟨k, _, _, hk⟩ := hrd.boxes fi
        have hb := hk mb hfi
        rcases hb.valid with h1 | h1
        · exact h1
        · exact absurd h1 (hb.next hne).1
  · -- threads
    intro hp
    cases hf : findsNew r.world r.fast (r.sortListed r.listed) db1 with
    | true => exact hth hf
    | false =>
      have ho := h.threads fun r' hr' => hp r' (by simp [hr'])
      obtain ⟨s1, _, _⟩ := hsame hf
      have hlen := hg.length
      have hnew : xs ++ ys = [] := by
        have h0 := h.good.length
        rw [s1, List.length_map, hm1] at hlen
        simp only [List.length_append] at hlen
        apply List.eq_nil_of_length_eq_zero
        rw [List.length_append]
        omega
      rw [s1, List.append_assoc, hnew, List.append_nil, hm1]
      exact threads_aged ho
  · -- current
    have hplaces : db'.msgs.filterMap Place = keptPlaces r.world r.fast (r.sortListed r.listed) db1.mboxen db1.msgs ++
        newPlaces r.world r.fast (r.sortListed r.listed) db1.mboxen db1.msgs := by
      rw [place_noTid hu.msgs, List.filterMap_append, List.filterMap_append, aged_places, n2, b1, List.append_nil]
    constructor
    · intro m hm x hx
      have : x ∈ db'.msgs.filterMap Place := List.mem_filterMap.2 ⟨m, hm, hx⟩
      rw [hplaces] at this
      rcases List.mem_append.1 this with h1 | h1
      · obtain ⟨m0, h2, h3⟩ := List.mem_filterMap.1 h1
        have h4 := (List.mem_filter.1 h2).2
        rcases place_src h3 with ⟨k, mt, sz, h5⟩ | ⟨k, h5⟩
        · simp only [stays, h5, Bool.and_eq_true, decide_eq_true_eq] at h4
          obtain ⟨kk, pp⟩ := x
          simp only at k
          subst k
          exact hlm _ h4.1
        · simp only [stays, h5, decide_eq_true_eq] at h4
          obtain ⟨kk, pp⟩ := x
          simp only at k
          subst k
          exact hlm _ h4
      · exact hlm _ ((List.mem_filter.1 h1).1)
    · intro x hx ha
      have : x ∈ db'.msgs.filterMap Place := by
        rw [hplaces, List.mem_append]
        by_cases hk : x ∈ keptPlaces r.world r.fast (r.sortListed r.listed) db1.mboxen db1.msgs
        · exact .inl hk
        · right
          simp only [newPlaces, List.mem_filter, Bool.and_eq_true, decide_eq_true_eq]
          exact ⟨hperm.mem_iff.2 hx, hk, ha⟩
      obtain ⟨m, h1, h2⟩ := List.mem_filterMap.1 this
      exact ⟨m, h1, h2⟩
    · intro hf m hm p mt sz hs'
      rcases hsrc m hm with h1 | ⟨m0, h1, h2, h3⟩ | ⟨x, h1, m1, h2, h3⟩ | ⟨m1, h1, h2⟩
      · rw [h1] at hs'; cases hs'
      · rw [hs'] at h2
        simp only [stays, h2, hf, Bool.false_or, Bool.and_eq_true, beq_iff_eq] at h3
        have h4 := h3.2
        unfold modified at h4
        cases hst : r.world.stat p with
        | file t s =>
          rw [hst] at h4
          cases h4
          exact ⟨_, _, rfl, rfl⟩
        | _ => rw [hst] at h4; cases h4
      · have := h3.src
        obtain ⟨k, q⟩ := x
        rw [h2, hs'] at this
        cases k with
        | imap => cases this
        | file =>
          obtain ⟨t, s, a, b⟩ := this
          cases b
          exact ⟨_, _, a, rfl⟩
      · have := hboxplace m1 h1
        rw [place_file (by rw [h2]; exact hs' : m1.src = .file p mt sz)] at this
        cases this
    · intro m hm fi mi hs'
      obtain ⟨k, hk, hk'⟩ := hg.boxes fi
      have hmi := mem_boxIdx hm hs'
      rw [hk, List.mem_range] at hmi
      obtain ⟨mb, hmb, hp, _⟩ := hk' (by omega)
      obtain ⟨p, hp⟩ := Option.ne_none_iff_exists'.1 hp
      refine ⟨mb, p, hmb, hp, ?_⟩
      obtain ⟨mb1, h1, h2, _⟩ := boxesDone_mem hu.box (List.mem_of_getElem? hmb)
      obtain ⟨fj, hfj⟩ := List.getElem?_of_mem h1
      rw [hp] at h2
      rcases hget fj mb1 hfj with h3 | ⟨⟨x, hx, hxp⟩, _⟩
      · rw [h3] at h2; cases h2
      · rw [hxp] at h2
        cases h2
        exact ⟨x, hex x hx, rfl⟩
  · -- nothing happened
    intro hb
    rw [Bool.or_eq_false_iff] at hb
    obtain ⟨s1, s2, _⟩ := hsame hb.1
    have hst : ∀ m ∈ db.msgs, m.src ≠ .dead → stays r.world r.fast (r.sortListed r.listed) db1.mboxen m = true := by
      intro m hm hd
      have := hb.2
      unfold loses at this
      rw [List.any_eq_false] at this
      have := this m (by rw [hm1]; exact hm)
      simpa [hd] using this
    have hmsgs : db'.msgs = db.msgs := by
      rw [s1, hm1]
      have : ∀ m ∈ db.msgs, aged r.world r.fast (r.sortListed r.listed) db1.mboxen m = m := by
        intro m hm
        by_cases hd : m.src = .dead
        · unfold aged
          split
          · rfl
          · obtain ⟨s, _, _, _, _, _⟩ := m
            simp only at hd
            subst hd
            rfl
        · unfold aged
          rw [hst m hm hd, if_pos rfl]
      refine Eq.trans ?_ (List.map_id db.msgs)
      exact List.map_congr_left this
    refine ⟨hmsgs, ?_, ?_⟩
    · have hlen := hg.length
      have h0 := h.good.length
      rw [hmsgs] at hlen
      simp only [List.length_append] at hlen
      have hnew : xs ++ ys = [] := by
        apply List.eq_nil_of_length_eq_zero
        rw [List.length_append]
        omega
      rw [List.append_assoc, hnew, List.append_nil]
    · intro m hm fi mi hs'
      obtain ⟨mb, mb1, mb', k1, _, k3, _, k5, _⟩ := hkeep m hm (hst m hm (by rw [hs']; simp)) fi mi hs'
      exact ⟨mb, mb', k1, k3, k5⟩

end Mairix
