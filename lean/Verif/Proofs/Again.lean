import Verif.Proofs.RunSpec

/-! A run on mail that has not changed since the run before. -/

namespace Mairix
open Spec

theorem strict_unique {α : Type} {R : α → α → Prop} (hi : ∀ a, ¬ R a a) (ht : ∀ a b c, R a b → R b c → R a c) :
    ∀ {l l' : List α}, l.Pairwise R → l'.Pairwise R → l.Perm l' → l = l' := by
  intro l
  induction l with
  | nil => intro l' _ _ h; exact (List.nil_perm.1 h).symm
  | cons a l ih =>
    intro l' h1 h2 hp
    cases l' with
    | nil => cases hp.length_eq
    | cons b l' =>
      have hab : a = b := by
        have ha : a ∈ b :: l' := hp.mem_iff.1 (by simp)
        have hb : b ∈ a :: l := hp.mem_iff.2 (by simp)
        rcases List.mem_cons.1 ha with rfl | ha
        · rfl
        · rcases List.mem_cons.1 hb with rfl | hb
          · rfl
          · exact absurd (ht _ _ _ ((List.pairwise_cons.1 h1).1 b hb) ((List.pairwise_cons.1 h2).1 a ha)) (hi a)
      subst hab
      rw [ih (List.pairwise_cons.1 h1).2 (List.pairwise_cons.1 h2).2 ((List.perm_cons a).1 hp)]

/-- The mboxen of the database agree with those on the disc. -/
structure BoxesNow (r : Run) (mboxen : List Mbox) : Prop where
  live : ∀ mb ∈ mboxen, ∀ p, mb.path = some p → ∃ e ∈ r.extant, e.path = p ∧ mb.currentMtime = e.mtime ∧ mb.currentSize = e.size
  all : ∀ e ∈ r.extant, some e.path ∈ mboxen.map (·.path) ∨ r.mboxWorld.contents e.path = .failed

theorem refreshed_now {w : MboxWorld} {mb mb' : Mbox} (h : Refreshed w mb mb') :
    mb'.currentMtime = mb.currentMtime ∧ mb'.currentSize = mb.currentSize ∧ (mb'.path = mb.path ∨ mb'.path = none) ∧
      ∀ p, mb.path = some p → mb'.path = some p ∨ w.contents p = .failed := by
  cases h with
  | dead h => exact ⟨rfl, rfl, .inl rfl, fun p hp => .inl hp⟩
  | same h => exact ⟨rfl, rfl, .inl rfl, fun p hp => .inl hp⟩
  | scanned h => exact ⟨rfl, rfl, .inl rfl, fun p hp => .inl hp⟩
  | empty h => exact ⟨rfl, rfl, .inl rfl, fun p hp => .inl hp⟩
  | @failed p h _ hc =>
    refine ⟨rfl, rfl, .inr rfl, fun q hq => .inr ?_⟩
    rw [h] at hq
    cases hq
    exact hc

theorem sortedExtant_find {extant : List Extant} (hs : SortedExtant extant) {e : Extant} (he : e ∈ extant) :
    extant.find? (·.path = e.path) = some e := by
  induction extant with
  | nil => cases he
  | cons a l ih =>
    obtain ⟨h1, h2⟩ := List.pairwise_cons.1 hs
    rcases List.mem_cons.1 he with rfl | he
    · simp
    · rw [List.find?_cons_of_neg]
      · exact ih h2 he
      · have := h1 e he
        intro hc
        simp only [decide_eq_true_eq] at hc
        rw [hc] at this
        exact before_irrefl this

theorem married_live {extant : List Extant} {mb : Mbox} {p : Text} (h : (married extant mb).path = some p) :
    ∃ e ∈ extant, e.path = p ∧ mb.path = some p ∧ (married extant mb).currentMtime = e.mtime ∧ (married extant mb).currentSize = e.size := by
  unfold married at h ⊢
  split at h
  · next e he =>
    simp only at h
    rw [h] at he
    simp only [Option.bind_some] at he
    have h1 := List.find?_some he
    have h2 := List.mem_of_find?_eq_some he
    simp only [decide_eq_true_eq] at h1
    exact ⟨e, h2, h1, h, rfl, rfl⟩
  · cases h

theorem married_known {extant : List Extant} (hs : SortedExtant extant) {mb : Mbox} {e : Extant} (he : e ∈ extant)
    (hp : mb.path = some e.path) : married extant mb = { mb with currentMtime := e.mtime, currentSize := e.size } := by
  unfold married
  rw [hp]
  simp only [Option.bind_some, sortedExtant_find hs he]

theorem boxesNow_lists {r : Run} {db db1 : Database} (hp : (r.sortExtant r.extant).Perm r.extant)
    (hs : SortedExtant (r.sortExtant r.extant)) (h : buildMboxLists r.mboxWorld (r.sortExtant r.extant) db = .ok db1) :
    BoxesNow r db1.mboxen := by
  obtain ⟨mbs, rfl, hr⟩ := buildMboxLists_spec hs h
  constructor
  · intro mb hmb p hpath
    obtain ⟨mb0, h1, h2⟩ := pairs_right hr hmb
    obtain ⟨r1, r2, r3, _⟩ := refreshed_now h2
    rw [r1, r2]
    have hp0 : mb0.path = some p := by
      rcases r3 with r3 | r3
      · rw [← r3]; exact hpath
      · rw [r3] at hpath; cases hpath
    rcases List.mem_append.1 h1 with h1 | h1
    · obtain ⟨mb, _, rfl⟩ := List.mem_map.1 h1
      obtain ⟨e, he, h3, _, h4, h5⟩ := married_live hp0
      exact ⟨e, hp.mem_iff.1 he, h3, h4, h5⟩
    · simp only [newBoxes, List.mem_map, List.mem_filter] at h1
      obtain ⟨e, ⟨he, _⟩, rfl⟩ := h1
      cases hp0
      exact ⟨e, hp.mem_iff.1 he, rfl, rfl, rfl⟩
  · intro e he
    have he' := hp.mem_iff.2 he
    have hin : ∃ mb0 ∈ db.mboxen.map (married (r.sortExtant r.extant)) ++ newBoxes (r.sortExtant r.extant) db.mboxen,
        mb0.path = some e.path := by
      by_cases hk : some e.path ∈ db.mboxen.map (·.path)
      · obtain ⟨mb, h1, h2⟩ := List.mem_map.1 hk
        refine ⟨married (r.sortExtant r.extant) mb, List.mem_append_left _ (List.mem_map_of_mem h1), ?_⟩
        rw [married_known hs he' h2]
        exact h2
      · refine ⟨newMbox e, List.mem_append_right _ ?_, rfl⟩
        simp only [newBoxes, List.mem_map, List.mem_filter, decide_eq_true_eq]
        exact ⟨e, ⟨he', by simpa using hk⟩, rfl⟩
    obtain ⟨mb0, h1, h2⟩ := hin
    obtain ⟨mb, h3, h4⟩ := pairs_left hr h1
    rcases (refreshed_now h4).2.2.2 _ h2 with h5 | h5
    · exact .inl (List.mem_map.2 ⟨mb, h3, h5⟩)
    · exact .inr h5

theorem boxesNow_done {r : Run} {fi : Nat} {mbs mbs' : List Mbox} {ms : List Msg} {xs : List MsgWords}
    (h : BoxesDone r.mboxWorld fi mbs mbs' ms xs) : mbs'.map (fun mb => (mb.path, mb.currentMtime, mb.currentSize)) =
      mbs.map fun mb => (mb.path, mb.currentMtime, mb.currentSize) := by
  induction h with
  | nil => rfl
  | cons h1 h2 ih =>
    rw [List.map_cons, List.map_cons, ih]
    rcases h1 with ⟨_, rfl, _, _⟩ | ⟨_, _, va, gs, _, _, _, rfl, _, _⟩ <;> rfl

theorem boxesNow_congr {r : Run} {mbs mbs' : List Mbox} (h : mbs'.map (fun mb => (mb.path, mb.currentMtime, mb.currentSize)) =
      mbs.map fun mb => (mb.path, mb.currentMtime, mb.currentSize)) (hb : BoxesNow r mbs) : BoxesNow r mbs' := by
  constructor
  · intro mb' hmb' p hp
    have : (mb'.path, mb'.currentMtime, mb'.currentSize) ∈ mbs.map fun mb => (mb.path, mb.currentMtime, mb.currentSize) := by
      rw [← h]; exact List.mem_map.2 ⟨mb', hmb', rfl⟩
    obtain ⟨mb, h1, h2⟩ := List.mem_map.1 this
    simp only [Prod.mk.injEq] at h2
    rw [← h2.2.1, ← h2.2.2]
    exact hb.live mb h1 p (by rw [h2.1]; exact hp)
  · intro e he
    have := congrArg (List.map (·.1)) h
    rw [List.map_map, List.map_map] at this
    have h1 : mbs'.map (·.path) = mbs.map (·.path) := this
    rw [h1]
    exact hb.all e he

theorem boxesNow_purge {r : Run} {mbs : List Mbox} (hb : BoxesNow r mbs) : BoxesNow r (mbs.filter (·.path.isSome)) := by
  constructor
  · intro mb hmb
    exact hb.live mb (List.mem_filter.1 hmb).1
  · intro e he
    rcases hb.all e he with h | h
    · obtain ⟨mb, h1, h2⟩ := List.mem_map.1 h
      exact .inl (List.mem_map.2 ⟨mb, List.mem_filter.2 ⟨h1, by rw [h2]; rfl⟩, h2⟩)
    · exact .inr h

/-- What the flag of an update says. -/
theorem updateStep_flag {hashfn : Nat → Text → Nat} {hist : List Run} {r : Run} {key : Nat} {db db' : Database} {ix : List MsgWords}
    {b : Bool} (h : Mem hist (hashfn key) db ix) (hl : Loaded db) (hr : Sane r) (hn : r.listed.Nodup)
    (e : updateStep hashfn r key db = .ok (db', b)) :
    ∃ db1, buildMboxLists r.mboxWorld (r.sortExtant r.extant) db = .ok db1 ∧ SortedExtant (r.sortExtant r.extant) ∧
      db1.msgs = db.msgs ∧ BoxesNow r db'.mboxen ∧
      b = (findsNew r.world r.fast (r.sortListed r.listed) db1 || loses r.world r.fast (r.sortListed r.listed) db1) ∧
      ∃ new box xs ys, Updates (hashfn key) r.world r.mboxWorld r.fast (r.sortListed r.listed) db1 db' ix new box xs ys := by
  obtain ⟨db1, e1, e⟩ := res_bind_ok e
  split at e
  case isFalse => cases e
  rename_i hsz
  have hse : SortedExtant (r.sortExtant r.extant) := by
    apply sortExtant_spec hr.sortExtant
    unfold buildMboxLists at e1
    cases hc : checkMboxDuplicates (r.sortExtant r.extant) with
    | false => rfl
    | true => rw [hc] at e1; cases e1
  obtain ⟨hs, hperm⟩ := sortListed_spec hr.sortListed hn
  obtain ⟨hrd, hm1, ht1⟩ := good_mboxLists h.good hl hse e1
  obtain ⟨db2, new, box, xs, ys, e2, hu, hg, hth, hsame⟩ := good_updateStep (w := r.world) (mw := r.mboxWorld) (junk := r.junkMsg)
    (fast := r.fast) (l := r.sortListed r.listed) h.good hl hse hs e1 (by
      rw [hm1] at hsz
      rw [hperm.length_eq]
      exact hsz)
  rw [e2] at e
  cases e
  exact ⟨db1, e1, hse, hm1, boxesNow_congr (boxesNow_done hu.box) (boxesNow_lists (hr.sortExtant _).1 hse e1), rfl, new, box, xs, ys, hu⟩

/-- What is loaded does not depend on what was in memory, apart from the token tables. -/
theorem openOrNew_same {hashfn : Nat → Text → Nat} {r r' : Run} {f : Option Text} {k k' : Nat} {db db' : Database}
    (e : openOrNew hashfn r f = .ok (k, db)) (e' : openOrNew hashfn r' f = .ok (k', db')) :
    db'.msgs = db.msgs ∧ db'.mboxen = db.mboxen := by
  cases f with
  | none => cases e; cases e'; exact ⟨rfl, rfl⟩
  | some d =>
    obtain ⟨raw, e1, e⟩ := res_bind_ok e
    obtain ⟨db2, e2, e⟩ := res_bind_ok e
    obtain ⟨u, e3, e⟩ := res_bind_ok e
    cases e
    obtain ⟨raw', e1', e'⟩ := res_bind_ok e'
    obtain ⟨db2', e2', e'⟩ := res_bind_ok e'
    obtain ⟨u', e3', e'⟩ := res_bind_ok e'
    cases e'
    rw [e1] at e1'
    cases e1'
    unfold loadDatabase at e2 e2'
    obtain ⟨a, h1, e2⟩ := res_bind_ok e2
    obtain ⟨b, h2, e2⟩ := res_bind_ok e2
    obtain ⟨c, h3, e2⟩ := res_bind_ok e2
    obtain ⟨d, h4, e2⟩ := res_bind_ok e2
    obtain ⟨a', h1', e2'⟩ := res_bind_ok e2'
    obtain ⟨b', h2', e2'⟩ := res_bind_ok e2'
    obtain ⟨c', h3', e2'⟩ := res_bind_ok e2'
    obtain ⟨d', h4', e2'⟩ := res_bind_ok e2'
    rw [h1] at h1'; cases h1'
    rw [h2] at h2'; cases h2'
    rw [h3] at h3'; cases h3'
    cases e2
    cases e2'
    exact ⟨rfl, rfl⟩

/-- Nothing is found to do. -/
structure Quiet (r : Run) (db : Database) : Prop where
  boxes : ∀ mb ∈ db.mboxen, mb.newMsgs = []
  stay : ∀ m ∈ db.msgs, m.src ≠ .dead → stays r.world r.fast (r.sortListed r.listed) db.mboxen m = true
  listed : ∀ e ∈ r.sortListed r.listed, addable r.world e = true → e ∈ keptPlaces r.world r.fast (r.sortListed r.listed) db.mboxen db.msgs

theorem boxesDone_none {w : MboxWorld} {fi : Nat} {mbs mbs' : List Mbox} {ms : List Msg} {xs : List MsgWords}
    (h : BoxesDone w fi mbs mbs' ms xs) : (∀ mb ∈ mbs, mb.newMsgs = []) → ms = [] := by
  induction h with
  | nil => intro _; rfl
  | cons h1 h2 ih =>
    intro h
    rw [ih fun mb hm => h mb (by simp [hm])]
    rcases h1 with ⟨_, _, rfl, _⟩ | ⟨hne, _⟩
    · rfl
    · exact absurd (h _ (by simp)) hne

theorem quiet_flag {r : Run} {db : Database} (h : Quiet r db) (ha : ∀ e ∈ r.sortListed r.listed, addable r.world e = true) :
    (findsNew r.world r.fast (r.sortListed r.listed) db || loses r.world r.fast (r.sortListed r.listed) db) = false := by
  rw [Bool.or_eq_false_iff]
  constructor
  · unfold findsNew
    rw [Bool.or_eq_false_iff, List.any_eq_false, List.any_eq_false]
    refine ⟨fun e he => ?_, fun mb hmb => ?_⟩
    · simpa using h.listed e he (ha e he)
    · simpa using h.boxes mb hmb
  · unfold loses
    rw [List.any_eq_false]
    intro m hm
    by_cases hd : m.src = .dead
    · simp [hd]
    · simp [h.stay m hm hd]

theorem quiet_msgs {hash : Text → Nat} {r : Run} {db db' : Database} {ix : List MsgWords} {new box : List Msg} {xs ys : List MsgWords}
    (h : Quiet r db) (hu : Updates hash r.world r.mboxWorld r.fast (r.sortListed r.listed) db db' ix new box xs ys) :
    db'.msgs.map (·.src) = db.msgs.map (·.src) := by
  have hb := boxesDone_none hu.box h.boxes
  have hnew : newPlaces r.world r.fast (r.sortListed r.listed) db.mboxen db.msgs = [] := by
    unfold newPlaces
    rw [List.filter_eq_nil_iff]
    intro e he hc
    simp only [Bool.and_eq_true, decide_eq_true_eq] at hc
    exact hc.1 (h.listed e he hc.2)
  have hn : new = [] := by
    have := pairs_length hu.new
    rw [hnew] at this
    exact List.eq_nil_of_length_eq_zero this.symm
  have hm := hu.msgs
  rw [hb, hn, List.append_nil, List.append_nil] at hm
  have : ∀ l : List Msg, l.map (·.src) = (l.map noTid).map (·.src) := by
    intro l; rw [List.map_map]; rfl
  rw [this, hm, ← this, List.map_map]
  apply List.map_congr_left
  intro m hmem
  show (aged _ _ _ _ m).src = m.src
  rcases aged_src (w := r.world) (fast := r.fast) (l := r.sortListed r.listed) (mboxen := db.mboxen) m with ⟨_, h2⟩ | h2
  · rw [h2]
  · by_cases hd : m.src = .dead
    · rw [h2, hd]
    · unfold aged
      rw [h.stay m hmem hd, if_pos rfl]

theorem stays_congr {w : World} {fast fast' : Bool} {l l' : List Listed} {mboxen : List Mbox} {m : Msg} (hf : fast = true → fast' = true)
    (hl : ∀ e ∈ l, e ∈ l') (h : stays w fast l mboxen m = true) : stays w fast' l' mboxen m = true := by
  unfold stays at h ⊢
  split
  · next p t s hs =>
    rw [hs] at h
    simp only [Bool.and_eq_true, decide_eq_true_eq, Bool.or_eq_true] at h ⊢
    exact ⟨hl _ h.1, h.2.imp hf id⟩
  · next p hs =>
    rw [hs] at h
    simp only [decide_eq_true_eq] at h ⊢
    exact hl _ h
  · next fi mi hs =>
    rw [hs] at h
    exact h
  · next hs =>
    rw [hs] at h
    exact h

/-- If a run found nothing to do, the next finds nothing to do. -/
theorem quiet_again {r r' : Run} {db db' : Database} (hm : db'.msgs = db.msgs) (hb : db'.mboxen = db.mboxen) (hw : r'.world = r.world)
    (hl : ∀ e, e ∈ r.sortListed r.listed ↔ e ∈ r'.sortListed r'.listed) (hf : r.fast = true → r'.fast = true)
    (h : (findsNew r.world r.fast (r.sortListed r.listed) db || loses r.world r.fast (r.sortListed r.listed) db) = false) :
    Quiet r' db' := by
  rw [Bool.or_eq_false_iff] at h
  obtain ⟨h1, h2⟩ := h
  unfold findsNew at h1
  rw [Bool.or_eq_false_iff, List.any_eq_false, List.any_eq_false] at h1
  unfold loses at h2
  rw [List.any_eq_false] at h2
  have hst : ∀ m, stays r.world r.fast (r.sortListed r.listed) db.mboxen m = true →
      stays r'.world r'.fast (r'.sortListed r'.listed) db'.mboxen m = true := by
    intro m h
    rw [hw, hb]
    exact stays_congr hf (fun e he => (hl e).1 he) h
  constructor
  · intro mb hmb
    rw [hb] at hmb
    simpa using h1.2 mb hmb
  · intro m hmem hd
    rw [hm] at hmem
    have := h2 m hmem
    simp only [hd, ne_eq, not_false_eq_true, decide_true, Bool.true_and, Bool.not_eq_true', Bool.not_eq_false] at this
    exact hst m this
  · intro e he _
    have := h1.1 e ((hl e).2 he)
    simp only [decide_not, Bool.not_eq_true', decide_eq_false_iff_not, Decidable.not_not] at this
    obtain ⟨m, k1, k2⟩ := List.mem_filterMap.1 this
    obtain ⟨k3, k4⟩ := List.mem_filter.1 k1
    exact List.mem_filterMap.2 ⟨m, List.mem_filter.2 ⟨by rw [hm]; exact k3, hst m k4⟩, k2⟩

theorem u32_in {t : Int} (h : 0 ≤ t ∧ t < 2 ^ 32) : (u32 t : Int) = t := by
  unfold u32
  omega

/-- What was written agrees with the mail, so nothing is found to do. -/
theorem quiet_written {r r' : Run} {db db0 db1 : Database} {hash : Text → Nat} {ix : List MsgWords}
    (hc : Current r db0) (hb : BoxesNow r db0.mboxen) (hg : GoodDb hash db ix)
    (hsm : Pairs SavedMsg db0.msgs db.msgs) (hlen : db.mboxen.length = db0.mboxen.length)
    (hsb : ∀ (fi : Nat) mb, db0.mboxen[fi]? = some mb → ∃ mb' k, db.mboxen[fi]? = some mb' ∧ SavedBox k mb mb')
    (same : SameMail r r') (h32 : Kept32 r) (hf : r.fast = true → r'.fast = true)
    (hpl : (r'.sortListed r'.listed).Perm r'.listed) (hpe : (r'.sortExtant r'.extant).Perm r'.extant)
    (hs : SortedExtant (r'.sortExtant r'.extant)) (e : buildMboxLists r'.mboxWorld (r'.sortExtant r'.extant) db = .ok db1) :
    Quiet r' db1 := by
  obtain ⟨mbs, rfl, hr⟩ := buildMboxLists_spec hs e
  have hex : ∀ x, x ∈ r'.sortExtant r'.extant ↔ x ∈ r.extant := fun x => hpe.mem_iff.trans same.extant.mem_iff
  have hli : ∀ x, x ∈ r'.sortListed r'.listed ↔ x ∈ r.listed := fun x => hpl.mem_iff.trans same.listed.mem_iff
  -- an mbox of the index that is live has not changed
  have hold : ∀ (fi : Nat) mb, db.mboxen[fi]? = some mb → ∀ p, mb.path = some p → ∃ mb1, mbs[fi]? = some mb1 ∧ mb1.path = some p ∧
      mb1.newMsgs = [] ∧ mb1.nOldValid = mb.msgs.length := by
    intro fi mb hmb p hp
    have hlt := (List.getElem?_eq_some_iff.1 hmb).1
    obtain ⟨mb', k, g1, g2⟩ := hsb fi _ (List.getElem?_eq_getElem (by omega : fi < db0.mboxen.length))
    rw [hmb] at g1
    cases g1
    obtain ⟨x, hx, x1, x2, x3⟩ := hb.live _ (List.getElem_mem _) p (by rw [← g2.path]; exact hp)
    have hmar := married_known (mb := mb) hs ((hex x).2 hx) (by rw [hp, x1])
    have hfi : (db.mboxen.map (married (r'.sortExtant r'.extant)) ++ newBoxes (r'.sortExtant r'.extant) db.mboxen)[fi]? =
        some { mb with currentMtime := x.mtime, currentSize := x.size } := by
      rw [List.getElem?_append_left (by simpa using hlt), List.getElem?_map, hmb, Option.map_some, hmar]
    obtain ⟨mb1, h1, h2⟩ := pairs_get hr fi _ hfi
    have hm : (x.mtime : Int) = mb.fileMtime := by
      rw [g2.mtime, x2, u32_in (h32.boxes x hx).1]
    have hz : x.size = mb.fileSize := by
      rw [g2.size, x3, Nat.mod_eq_of_lt (h32.boxes x hx).2]
    refine ⟨mb1, h1, ?_⟩
    cases h2 with
    | dead h => rw [hp] at h; cases h
    | same => exact ⟨hp, rfl, rfl⟩
    | scanned _ h => exact absurd ⟨hm, hz⟩ h
    | empty _ h => exact absurd ⟨hm, hz⟩ h
    | failed _ h => exact absurd ⟨hm, hz⟩ h
  have hst : ∀ m ∈ db.msgs, m.src ≠ .dead → stays r'.world r'.fast (r'.sortListed r'.listed) mbs m = true := by
    intro m hm hd
    obtain ⟨m0, h1, h2⟩ := pairs_right hsm hm
    have hplace := saved_place h2
    unfold stays
    split
    · next p mt sz hsrc =>
      have hp : Place m = some ⟨.file, p⟩ := place_file hsrc
      have hin := hc.listed m0 h1 ⟨.file, p⟩ (by rw [← hplace]; exact hp)
      rw [Bool.and_eq_true, Bool.or_eq_true, decide_eq_true_eq]
      refine ⟨(hli _).2 hin, ?_⟩
      by_cases hfa : r.fast = true
      · exact .inl (hf hfa)
      · right
        obtain ⟨mt', sz', h3, h4⟩ := (saved_src_inv h2).2.1 p mt sz hsrc
        obtain ⟨t, s, h5, h6⟩ := hc.fresh (by simpa using hfa) m0 h1 p mt' sz' h3
        have hmod : modified r.world p = some t := by simp only [modified, h5]
        rw [same.world, hmod, beq_iff_eq, h4, h6, u32_in (h32.files _ hin rfl t hmod)]
    · next p hsrc =>
      have hp : Place m = some ⟨.imap, p⟩ := place_imap hsrc
      rw [decide_eq_true_eq]
      exact (hli _).2 (hc.listed m0 h1 ⟨.imap, p⟩ (by rw [← hplace]; exact hp))
    · next fi mi hsrc =>
      obtain ⟨k, hk, hk'⟩ := hg.boxes fi
      have hmi := mem_boxIdx hm hsrc
      rw [hk, List.mem_range] at hmi
      obtain ⟨mb, hmb, hp, hkl, _⟩ := hk' (by omega)
      obtain ⟨p, hp⟩ := Option.ne_none_iff_exists'.1 hp
      obtain ⟨mb1, q1, q2, _, q3⟩ := hold fi mb hmb p hp
      rw [q1]
      simp only [q2, Option.isSome_some, Bool.true_and, decide_eq_true_eq, q3]
      omega
    · next hsrc => exact absurd hsrc hd
  constructor
  · intro mb1 hmb1
    obtain ⟨fi, hfi⟩ := List.getElem?_of_mem hmb1
    obtain ⟨mb0, h1, h2⟩ := pairs_get' hr fi mb1 hfi
    rcases Nat.lt_or_ge fi db.mboxen.length with hlt | hge
    · have hmb := List.getElem?_eq_getElem hlt
      cases hp : (db.mboxen[fi]).path with
      | none =>
        rw [List.getElem?_append_left (by simpa using hlt), List.getElem?_map, hmb, Option.map_some] at h1
        cases h1
        have : (married (r'.sortExtant r'.extant) db.mboxen[fi]).path = none := by
          unfold married
          rw [hp]
          rfl
        cases h2 with
        | dead _ => rfl
        | same h => rfl
        | scanned h => rw [this] at h; cases h
        | empty h => rfl
        | failed => rfl
      | some p =>
        obtain ⟨mb1', q1, _, q2, _⟩ := hold fi _ hmb p hp
        rw [hfi] at q1
        cases q1
        exact q2
    · rw [List.getElem?_append_right (by simpa using hge)] at h1
      have h1 := List.mem_of_getElem? h1
      simp only [newBoxes, List.mem_map, List.mem_filter, decide_eq_true_eq] at h1
      obtain ⟨x, ⟨hx, hnew⟩, rfl⟩ := h1
      have hfail : r'.mboxWorld.contents x.path = .failed := by
        rw [same.boxes]
        rcases hb.all x ((hex x).1 hx) with h | h
        · exfalso
          apply hnew
          obtain ⟨mb0, k1, k2⟩ := List.mem_map.1 h
          obtain ⟨fj, hfj⟩ := List.getElem?_of_mem k1
          obtain ⟨mb', k, g1, g2⟩ := hsb fj mb0 hfj
          exact ⟨mb', List.mem_of_getElem? g1, by rw [g2.path]; exact k2⟩
        · exact h
      cases h2 with
      | dead _ => rfl
      | same h => rfl
      | @scanned p _ _ _ h _ hcon =>
        cases h
        rw [hfail] at hcon
        cases hcon
      | empty h => rfl
      | failed => rfl
  · exact hst
  · intro x hx ha
    rw [same.world] at ha
    obtain ⟨m0, h1, h2⟩ := hc.all x ((hli x).1 hx) ha
    obtain ⟨m, h3, h4⟩ := pairs_left hsm h1
    have hp : Place m = some x := by rw [saved_place h4]; exact h2
    exact List.mem_filterMap.2 ⟨m, List.mem_filter.2 ⟨h3, hst m h3 (place_live hp)⟩, hp⟩

/-- What a run that completes has done: nothing, or written a database that agrees with the mail. -/
theorem indexRun_cases {hashfn : Nat → Text → Nat} {hist : List Run} {r : Run} {f f' : Option Text} {db : Database} {ix : List MsgWords}
    (h : Holds hist f db ix) (hh : ∀ r ∈ hist, Sane r) (hr : Sane r) (e : indexRun hashfn r f = .ok f') :
    r.listed.Nodup ∧
    ((f' = f ∧ ∃ key db1 db2, openOrNew hashfn r f = .ok (key, db1) ∧ updateStep hashfn r key db1 = .ok (db2, false) ∧
        (r.purge = true → ∀ m ∈ db1.msgs, m.src ≠ .dead)) ∨
      ∃ d key ws db3 ix3, f' = some d ∧ Written key db3 d ws ∧ (∃ hash, Mem (hist ++ [r]) hash db3 ix3) ∧ Current r db3 ∧
        BoxesNow r db3.mboxen ∧ (r.purge = true → ∀ m ∈ db3.msgs, m.src ≠ .dead)) := by
  unfold indexRun at e
  split at e
  · cases e
  rename_i hd
  have hn : r.listed.Nodup := by
    have := (checkDuplicates_spec hr.sortTexts r.listed).1
    cases hc : checkDuplicates r.sortTexts r.listed with
    | false => exact this hc
    | true => rw [hc] at hd; simp at hd
  refine ⟨hn, ?_⟩
  have hh' : ∀ r' ∈ hist ++ [r], Sane r' := by
    intro r' hr'
    rcases List.mem_append.1 hr' with h1 | h1
    · exact hh r' h1
    · rw [List.mem_singleton] at h1; rw [h1]; exact hr
  obtain ⟨⟨key, db1⟩, e1, e⟩ := res_bind_ok e
  obtain ⟨⟨db2, b2⟩, e2, e⟩ := res_bind_ok e
  obtain ⟨⟨db3, b3⟩, e3, e⟩ := res_bind_ok e
  obtain ⟨o1, o2, o3, o4⟩ := open_ok h hh e1
  obtain ⟨ix2, u1, u2, u3⟩ := update_ok o1 o2 hr hh hn e2
  obtain ⟨_, _, _, _, hnow, _⟩ := updateStep_flag o1 o2 hr hn e2
  obtain ⟨ix3, p1, p2⟩ := purge_ok u1 u2 (by simp) hh' e3
  -- the purge
  have hpu : BoxesNow r db3.mboxen ∧ (r.purge = true → (∀ m ∈ db3.msgs, m.src ≠ .dead) ∧
      b3 = db2.msgs.any fun m => decide (m.src = .dead)) := by
    unfold purgeStep at e3
    split at e3
    case isFalse hpf =>
      cases e3
      exact ⟨hnow, fun hp => absurd hp hpf⟩
    obtain ⟨u, _, e3⟩ := res_bind_ok e3
    obtain ⟨c0, c1, c2, c3⟩ := cull_ok u1.good e3
    refine ⟨by rw [c2]; exact boxesNow_purge hnow, fun _ => ⟨?_, c0⟩⟩
    intro m' hm'
    obtain ⟨m, h1, h2⟩ := pairs_right c1 hm'
    have hlive : m.src ≠ .dead := by simpa using (List.mem_filter.1 h1).2
    intro hdead
    unfold SameMessage at h2
    obtain ⟨_, _, _, _, _, h2⟩ := h2
    cases hs : m.src <;> simp_all
  unfold writeStep at e
  cases hb : b2 || b3 with
  | true =>
    simp only [hb, if_true] at e
    obtain ⟨u, _, e⟩ := res_bind_ok e
    obtain ⟨d, e4, e⟩ := res_bind_ok e
    cases e
    obtain ⟨ws, hw⟩ := write_ok p1 e4
    exact .inr ⟨d, key, ws, db3, ix3, rfl, hw, ⟨_, p1⟩, p2, hpu.1, fun hp => (hpu.2 hp).1⟩
  | false =>
    simp only [hb, Bool.false_eq_true, if_false] at e
    cases e
    rw [Bool.or_eq_false_iff] at hb
    obtain ⟨s1, _, _⟩ := u3 hb.1
    refine .inl ⟨rfl, key, db1, db2, e1, by rw [← hb.1]; exact e2, fun hp m hm hdead => ?_⟩
    have := (hpu.2 hp).2
    rw [hb.2] at this
    have := this.symm
    rw [List.any_eq_false] at this
    exact this m (by rw [s1]; exact hm) (by simp [hdead])

/-- A run on the same mail again finds nothing to do. -/
theorem again_quiet {hashfn : Nat → Text → Nat} {hist : List Run} {r r' : Run} {f f' : Option Text} {db0 : Database} {ix0 : List MsgWords}
    (h0 : Holds hist f db0 ix0) (hh : ∀ r ∈ hist, Sane r) (hr : Sane r) (hr' : Sane r') (e : indexRun hashfn r f = .ok f')
    (same : SameMail r r') (h32 : Kept32 r) (hf : r.fast = true → r'.fast = true) {key : Nat} {db db' : Database} {b : Bool}
    (e1 : openOrNew hashfn r' f' = .ok (key, db)) (e2 : updateStep hashfn r' key db = .ok (db', b)) :
    db'.msgs.map (·.src) = db.msgs.map (·.src) ∧ ((∀ x ∈ r'.listed, addable r'.world x = true) → b = false) ∧
      ((r'.purge = true → r.purge = true) → r'.purge = true → ∀ m ∈ db.msgs, m.src ≠ .dead) := by
  have hh' : ∀ x ∈ hist ++ [r], Sane x := by
    intro x hx
    rcases List.mem_append.1 hx with h1 | h1
    · exact hh x h1
    · rw [List.mem_singleton] at h1; rw [h1]; exact hr
  obtain ⟨hn, hcase⟩ := indexRun_cases h0 hh hr e
  have hn' : r'.listed.Nodup := same.listed.nodup_iff.2 hn
  obtain ⟨dbH, ixH, hH, _⟩ := indexRun_ok h0 hh hr e
  obtain ⟨o1, o2, o3, o4⟩ := open_ok hH hh' e1
  obtain ⟨db1, e3, hse, hm1, _, hb, new, box, xs, ys, hu⟩ := updateStep_flag o1 o2 hr' hn' e2
  have hpl := (sortListed_spec hr'.sortListed hn').2
  have hpl0 := (sortListed_spec hr.sortListed hn).2
  have key1 : Quiet r' db1 ∧ ((r'.purge = true → r.purge = true) → r'.purge = true → ∀ m ∈ db.msgs, m.src ≠ .dead) := by
    rcases hcase with ⟨rfl, k, d1, d2, c1, c2, c3⟩ | ⟨d, k, ws, db3, ix3, rfl, hw, ⟨hash, hm⟩, hcur, hnow, hdead⟩
    · obtain ⟨q1, q2, _, _⟩ := open_ok h0 hh c1
      obtain ⟨db1', e3', hse', hm1', _, hb', _⟩ := updateStep_flag q1 q2 hr hn c2
      obtain ⟨s1, s2⟩ := openOrNew_same c1 e1
      have hext : r'.sortExtant r'.extant = r.sortExtant r.extant := by
        refine strict_unique (R := fun a b : Extant => Before a.path b.path) (fun a => before_irrefl) (fun a b c => before_trans) hse hse' ?_
        exact ((hr'.sortExtant _).1.trans same.extant).trans (hr.sortExtant _).1.symm
      have hmb : db1.mboxen = db1'.mboxen := by
        rw [hext, same.boxes] at e3
        unfold buildMboxLists at e3 e3'
        split at e3
        · cases e3
        rename_i hdup
        rw [if_neg hdup] at e3'
        rw [s2] at e3
        obtain ⟨⟨old, used⟩, g1, e3⟩ := res_bind_ok e3
        obtain ⟨mbs, g2, e3⟩ := res_bind_ok e3
        obtain ⟨⟨old', used'⟩, g1', e3'⟩ := res_bind_ok e3'
        obtain ⟨mbs', g2', e3'⟩ := res_bind_ok e3'
        rw [g1] at g1'
        cases g1'
        rw [g2] at g2'
        cases g2'
        cases e3
        cases e3'
        rfl
      refine ⟨quiet_again (by rw [hm1, hm1', s1]) hmb same.world ?_ hf hb'.symm, ?_⟩
      · intro x
        rw [hpl.mem_iff, hpl0.mem_iff, same.listed.mem_iff]
      · intro hp hp'
        rw [s1]
        exact c3 (hp hp')
    · obtain ⟨raw, g1, e1⟩ := res_bind_ok e1
      obtain ⟨dbL, g2, e1⟩ := res_bind_ok e1
      obtain ⟨u, g3, e1⟩ := res_bind_ok e1
      cases e1
      rw [openDb_spec hw] at g1
      cases g1
      obtain ⟨l1, l2, l3, l4, l5⟩ := loadDatabase_ok hw (cstrings_of hm.good hm.words hm.paths) hm.paths.checks hm.good g2
      refine ⟨quiet_written hcur hnow l4 l1 l2 ?_ same h32 hf hpl (hr'.sortExtant _).1 hse e3, ?_⟩
      · intro fi mb hmb
        obtain ⟨mb', k1, k2⟩ := l3 fi mb hmb
        exact ⟨mb', _, k1, k2⟩
      · intro hp hp' m hmem hd
        obtain ⟨m0, h1, h2⟩ := pairs_right l1 hmem
        have hs := h2.src
        rw [hd] at hs
        refine hdead (hp hp') m0 h1 ?_
        cases hs0 : m0.src <;> rw [hs0] at hs <;> simp [savedSrc] at hs
  obtain ⟨hq, hd⟩ := key1
  refine ⟨by rw [quiet_msgs hq hu, hm1], ?_, hd⟩
  intro ha
  rw [hb]
  exact quiet_flag hq fun x hx => ha x (hpl.mem_iff.1 hx)

/-- A run on the same mail again leaves the file as it is. -/
theorem again_file {hashfn : Nat → Text → Nat} {hist : List Run} {r r' : Run} {f f' f'' : Option Text} {db0 : Database} {ix0 : List MsgWords}
    (h0 : Holds hist f db0 ix0) (hh : ∀ r ∈ hist, Sane r) (hr : Sane r) (hr' : Sane r') (e : indexRun hashfn r f = .ok f')
    (same : SameMail r r') (h32 : Kept32 r) (hf : r.fast = true → r'.fast = true) (hp : r'.purge = true → r.purge = true)
    (ha : ∀ x ∈ r.listed, addable r.world x = true) (e' : indexRun hashfn r' f' = .ok f'') : f'' = f' := by
  have hh' : ∀ x ∈ hist ++ [r], Sane x := by
    intro x hx
    rcases List.mem_append.1 hx with h1 | h1
    · exact hh x h1
    · rw [List.mem_singleton] at h1; rw [h1]; exact hr
  obtain ⟨hn, _⟩ := indexRun_cases h0 hh hr e
  have hn' : r'.listed.Nodup := same.listed.nodup_iff.2 hn
  obtain ⟨dbH, ixH, hH, _⟩ := indexRun_ok h0 hh hr e
  unfold indexRun at e'
  split at e'
  · cases e'
  obtain ⟨⟨key, db1⟩, e1, e'⟩ := res_bind_ok e'
  obtain ⟨⟨db2, b2⟩, e2, e'⟩ := res_bind_ok e'
  obtain ⟨⟨db3, b3⟩, e3, e'⟩ := res_bind_ok e'
  obtain ⟨o1, o2, o3, o4⟩ := open_ok hH hh' e1
  obtain ⟨ix2, u1, u2, u3⟩ := update_ok o1 o2 hr' hh' hn' e2
  obtain ⟨q1, q2, q3⟩ := again_quiet h0 hh hr hr' e same h32 hf e1 e2
  have hb2 : b2 = false := q2 fun x hx => by rw [same.world]; exact ha x (same.listed.mem_iff.1 hx)
  have hb3 : b3 = false := by
    unfold purgeStep at e3
    split at e3
    case isFalse => cases e3; rfl
    rename_i hpu
    obtain ⟨u, _, e3⟩ := res_bind_ok e3
    obtain ⟨c0, _⟩ := cull_ok u1.good e3
    rw [c0, (u3 hb2).1, List.any_eq_false]
    intro m hm
    simpa using q3 hp hpu m hm
  rw [hb2, hb3] at e'
  cases e'
  rfl

theorem indexRuns_append {hashfn : Nat → Text → Nat} : ∀ {rs : List Run} {r : Run} {f f' : Option Text},
    indexRuns hashfn (rs ++ [r]) f = .ok f' → ∃ f0, indexRuns hashfn rs f = .ok f0 ∧ indexRun hashfn r f0 = .ok f' := by
  intro rs
  induction rs with
  | nil =>
    intro r f f' h
    obtain ⟨f1, h1, h2⟩ := res_bind_ok h
    cases h2
    exact ⟨f, rfl, h1⟩
  | cons a rs ih =>
    intro r f f' h
    obtain ⟨f1, h1, h2⟩ := res_bind_ok h
    obtain ⟨f0, h3, h4⟩ := ih h2
    refine ⟨f0, ?_, h4⟩
    simp only [indexRuns, h1, bind, Except.bind]
    exact h3

end Mairix
