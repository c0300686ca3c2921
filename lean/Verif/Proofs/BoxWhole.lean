import Verif.Proofs.BoxSplit
import Verif.Proofs.RunSpec

/-! The messages of an mbox through a history of runs. -/

namespace Mairix
open Spec

/-- What the index keeps of the messages of an mbox. -/
def recsOf (r : Run) (p : Text) (gs : List BoxMsg) : List MboxMsg := gs.map (boxRecord r.mboxWorld (boxText r p))

/-- Mbox number `fi` is that at `p`, with these messages, all of them live. -/
structure BoxAt (db : Database) (p : Text) (fi : Nat) (mb : Mbox) (recs : List MboxMsg) : Prop where
  get : db.mboxen[fi]? = some mb
  path : mb.path = some p
  msgs : mb.msgs = recs
  idx : boxIdx db.msgs fi = List.range recs.length

def NoBox (db : Database) (p : Text) : Prop := ∀ mb ∈ db.mboxen, mb.path ≠ some p

/-- The mbox is not known, or as it was in some run. -/
def Known (hist : List Run) (p : Text) (db : Database) (T : Extant → Mbox → Prop) : Prop :=
  NoBox db p ∨ ∃ r ∈ hist, ∃ x ∈ r.extant, ∃ gs fi mb, x.path = p ∧ BoxHolds r p gs ∧ BoxAt db p fi mb (recsOf r p gs) ∧ T x mb

def TimeSaved (x : Extant) (mb : Mbox) : Prop := u32 mb.currentMtime = u32 x.mtime ∧ mb.currentSize % 2 ^ 32 = x.size % 2 ^ 32

def TimeLoaded (x : Extant) (mb : Mbox) : Prop := mb.fileMtime = u32 x.mtime ∧ mb.fileSize = x.size % 2 ^ 32

/-- The mbox is as it is in the run. -/
def Shown (r : Run) (p : Text) (db : Database) : Prop :=
  ∀ x ∈ r.extant, x.path = p → ∀ gs, BoxHolds r p gs → (gs = [] ∧ NoBox db p) ∨ ∃ fi mb, BoxAt db p fi mb (recsOf r p gs)

theorem boxHolds_text {r : Run} {p : Text} {gs : List BoxMsg} (h : BoxHolds r p gs) :
    ∀ g ∈ gs, g.1.1 + g.1.2 ≤ (boxText r p).length ∧ g.2 = (r.mboxWorld.parse (g.text (boxText r p))).1 := by
  rcases h with ⟨_, rfl⟩ | ⟨va, h1, h2⟩
  · intro g hg; cases hg
  · have : boxText r p = va := by simp [boxText, h1]
    rw [this]
    exact boxMessages_each h2

theorem boxText_small {r : Run} (hr : Sane r) (p : Text) : (boxText r p).length < 2 ^ 31 := by
  unfold boxText
  split
  · exact hr.contents _ _ (by assumption)
  · simp

/-- Loading. -/
theorem open_box {hashfn : Nat → Text → Nat} {hist : List Run} {r : Run} {f : Option Text} {db0 db : Database} {ix : List MsgWords}
    {key : Nat} (h : Holds hist f db0 ix) (hh : ∀ r ∈ hist, Sane r) (e : openOrNew hashfn r f = .ok (key, db)) {p : Text} :
    (NoBox db0 p → NoBox db p) ∧ ∀ r1 ∈ hist, ∀ gs fi mb, BoxHolds r1 p gs → BoxAt db0 p fi mb (recsOf r1 p gs) →
      ∃ mb', BoxAt db p fi mb' (recsOf r1 p gs) ∧ mb'.fileMtime = u32 mb.currentMtime ∧ mb'.fileSize = mb.currentSize % 2 ^ 32 := by
  obtain ⟨⟨hash, hm⟩, hf⟩ := h
  cases f with
  | none =>
    obtain ⟨rfl, rfl⟩ := hf
    cases e
    refine ⟨id, ?_⟩
    intro r1 _ gs fi mb _ h1
    have := h1.get
    simp [newDatabase] at this
  | some d =>
    obtain ⟨key0, ws, hw⟩ := hf
    obtain ⟨raw, e1, e⟩ := res_bind_ok e
    obtain ⟨db2, e2, e⟩ := res_bind_ok e
    obtain ⟨u, e3, e⟩ := res_bind_ok e
    cases e
    rw [openDb_spec hw] at e1
    cases e1
    have hc := cstrings_of hm.good hm.words hm.paths
    obtain ⟨l1, l2, l3, l4, l5⟩ := loadDatabase_ok hw hc hm.paths.checks hm.good e2
    refine ⟨?_, ?_⟩
    · intro hk mb' hmb' hp
      obtain ⟨fi, hfi⟩ := List.getElem?_of_mem hmb'
      have hlt := (List.getElem?_eq_some_iff.1 hfi).1
      rw [l2] at hlt
      obtain ⟨mb'', h1, h2⟩ := l3 fi db0.mboxen[fi] (List.getElem?_eq_getElem hlt)
      rw [hfi] at h1
      cases h1
      exact hk _ (List.getElem_mem hlt) (by rw [← h2.path]; exact hp)
    · intro r1 hr1 gs fi mb h2 h3
      obtain ⟨mb', g1, g2⟩ := l3 fi mb h3.get
      refine ⟨mb', ⟨g1, by rw [g2.path]; exact h3.path, ?_, by rw [boxIdx_saved l1]; exact h3.idx⟩, g2.mtime, g2.size⟩
      · rw [← h3.msgs]
        apply List.ext_getElem?
        intro j
        by_cases hj : j < mb.msgs.length
        · obtain ⟨c, q1, q2, _, q3⟩ := g2.each j mb.msgs[j] (List.getElem?_eq_getElem hj)
          rw [q1, List.getElem?_eq_getElem hj]
          obtain ⟨s, l, q4, q5⟩ := q3 (by rw [h3.idx, List.length_range, ← h3.msgs]; exact hj)
          congr 1
          have hmem : mb.msgs[j] ∈ recsOf r1 p gs := by rw [← h3.msgs]; exact List.getElem_mem hj
          simp only [recsOf, List.mem_map] at hmem
          obtain ⟨g, hg, hge⟩ := hmem
          have hb := (boxHolds_text h2 g hg).1
          have hb2 := boxText_small (hh r1 hr1) p
          have : g.1 = (s, l) := by
            have := congrArg MboxMsg.pos hge
            rw [q4] at this
            simpa [boxRecord] using this
          rw [this] at hb
          simp only at hb
          rw [Nat.mod_eq_of_lt (by omega), Nat.mod_eq_of_lt (by omega)] at q5
          obtain ⟨pos, check⟩ := c
          generalize mb.msgs[j] = y at q4 q2
          obtain ⟨pos', check'⟩ := y
          simp only at q2 q4 q5
          rw [q2, q4, q5]
        · rw [List.getElem?_eq_none (by rw [g2.length]; omega), List.getElem?_eq_none (by omega)]

theorem known_open {hashfn : Nat → Text → Nat} {hist : List Run} {r : Run} {f : Option Text} {db0 db : Database} {ix : List MsgWords}
    {key : Nat} (h : Holds hist f db0 ix) (hh : ∀ r ∈ hist, Sane r) (e : openOrNew hashfn r f = .ok (key, db)) {p : Text}
    (hk : Known hist p db0 TimeSaved) : Known hist p db TimeLoaded := by
  obtain ⟨o1, o2⟩ := open_box (p := p) h hh e
  rcases hk with hk | ⟨r1, hr1, x, hx, gs, fi, mb, h1, h2, h3, h4⟩
  · exact .inl (o1 hk)
  · obtain ⟨mb', q1, q2, q3⟩ := o2 r1 hr1 gs fi mb h2 h3
    exact .inr ⟨r1, hr1, x, hx, gs, fi, mb', h1, h2, q1, by rw [q2, h4.1], by rw [q3, h4.2]⟩

theorem filterMap_nodup_index {mbs : List Mbox} {p : Text} : (mbs.filterMap (·.path)).Nodup → ∀ (i j : Nat) a b, mbs[i]? = some a →
    mbs[j]? = some b → a.path = some p → b.path = some p → i = j := by
  induction mbs with
  | nil => intro _ i j a b h; simp at h
  | cons m mbs ih =>
    intro hn i j a b hi hj ha hb
    have hn' : (mbs.filterMap (·.path)).Nodup := by
      rw [List.filterMap_cons] at hn
      split at hn
      · exact hn
      · exact (List.nodup_cons.1 hn).2
    have hclash : ∀ (k : Nat) c, mbs[k]? = some c → c.path = some p → m.path ≠ some p := by
      intro k c hk hc hm
      rw [List.filterMap_cons, hm] at hn
      exact (List.nodup_cons.1 hn).1 (List.mem_filterMap.2 ⟨c, List.mem_of_getElem? hk, hc⟩)
    cases i with
    | zero =>
      cases j with
      | zero => rfl
      | succ j =>
        simp at hi hj
        subst hi
        exact absurd ha (hclash j b hj hb)
    | succ i =>
      cases j with
      | zero =>
        simp at hi hj
        subst hj
        exact absurd hb (hclash i a hi ha)
      | succ j =>
        simp at hi hj
        rw [ih hn' i j a b hi hj ha hb]

/-- The mbox at `p` when the mboxen have been listed. -/
theorem lists_box {w : MboxWorld} {extant : List Extant} {db db1 : Database} (hs : SortedExtant extant)
    (hn : (db.mboxen.filterMap (·.path)).Nodup) (h : buildMboxLists w extant db = .ok db1) {x : Extant} (hx : x ∈ extant) :
    ∃ fi mb0 mb1, db1.mboxen[fi]? = some mb1 ∧ Refreshed w mb0 mb1 ∧ mb0.path = some x.path ∧ mb0.currentMtime = x.mtime ∧
      mb0.currentSize = x.size ∧
      (∀ (fj : Nat) mb2, db1.mboxen[fj]? = some mb2 → mb2.path = some x.path → fj = fi) ∧
      ((∃ mb, db.mboxen[fi]? = some mb ∧ mb.path = some x.path ∧ mb0.msgs = mb.msgs ∧ mb0.fileMtime = mb.fileMtime ∧
          mb0.fileSize = mb.fileSize) ∨
        (NoBox db x.path ∧ mb0 = newMbox x ∧ db.mboxen.length ≤ fi)) := by
  obtain ⟨mbs, rfl, hp⟩ := buildMboxLists_spec hs h
  have hnd := listed_paths_nodup hs hn
  have huniq : ∀ (fi : Nat) mb0, (db.mboxen.map (married extant) ++ newBoxes extant db.mboxen)[fi]? = some mb0 →
      mb0.path = some x.path → ∀ (fj : Nat) mb2, mbs[fj]? = some mb2 → mb2.path = some x.path → fj = fi := by
    intro fi mb0 h1 h2 fj mb2 h3 h4
    obtain ⟨mb3, h5, h6⟩ := pairs_get' hp fj mb2 h3
    have h7 : mb3.path = some x.path := by
      rcases refreshed_path h6 with h7 | h7
      · rw [← h7]; exact h4
      · rw [h7] at h4; cases h4
    exact filterMap_nodup_index hnd fj fi mb3 mb0 h5 h1 h7 h2
  by_cases hno : NoBox db x.path
  · have hmem : newMbox x ∈ newBoxes extant db.mboxen := by
      simp only [newBoxes, List.mem_map, List.mem_filter, decide_eq_true_eq]
      refine ⟨x, ⟨hx, ?_⟩, rfl⟩
      rintro ⟨mb, hmb, hp'⟩
      exact hno mb hmb hp'
    obtain ⟨k, hk⟩ := List.getElem?_of_mem hmem
    have hget : (db.mboxen.map (married extant) ++ newBoxes extant db.mboxen)[db.mboxen.length + k]? = some (newMbox x) := by
      rw [List.getElem?_append_right (by simp), List.length_map, Nat.add_sub_cancel_left]
      exact hk
    obtain ⟨mb1, h1, h2⟩ := pairs_get hp _ _ hget
    exact ⟨_, newMbox x, mb1, h1, h2, rfl, rfl, rfl, huniq _ _ hget rfl, .inr ⟨hno, rfl, by omega⟩⟩
  · have : ∃ mb ∈ db.mboxen, mb.path = some x.path := by
      apply Classical.byContradiction
      intro hcon
      exact hno fun mb h1 h2 => hcon ⟨mb, h1, h2⟩
    obtain ⟨mb, hmb, hpa⟩ := this
    obtain ⟨fi, hfi⟩ := List.getElem?_of_mem hmb
    have hlt := (List.getElem?_eq_some_iff.1 hfi).1
    have hfind : extant.find? (fun e => decide (e.path = x.path)) = some x := by
      cases hf : extant.find? (fun e => decide (e.path = x.path)) with
      | none =>
        have := List.find?_eq_none.1 hf x hx
        simp at this
      | some y =>
        have h1 := List.mem_of_find?_eq_some hf
        have h2 := List.find?_some hf
        simp only [decide_eq_true_eq] at h2
        congr 1
        apply Classical.byContradiction
        intro hne
        rcases List.pairwise_iff_getElem.1 hs with hpw
        obtain ⟨i, hi, rfl⟩ := List.mem_iff_getElem.1 h1
        obtain ⟨j, hj, rfl⟩ := List.mem_iff_getElem.1 hx
        rcases Nat.lt_trichotomy i j with h3 | h3 | h3
        · have := hpw i j hi hj h3; rw [h2] at this; exact before_irrefl this
        · subst h3; exact hne rfl
        · have := hpw j i hj hi h3; rw [h2] at this; exact before_irrefl this
    have hmar : married extant mb = { mb with currentMtime := x.mtime, currentSize := x.size } := by
      unfold married
      rw [hpa]
      simp only [Option.bind_some, hfind]
    have hget : (db.mboxen.map (married extant) ++ newBoxes extant db.mboxen)[fi]? =
        some { mb with currentMtime := x.mtime, currentSize := x.size } := by
      rw [List.getElem?_append_left (by simpa using hlt), List.getElem?_map, hfi, Option.map_some, hmar]
    obtain ⟨mb1, h1, h2⟩ := pairs_get hp _ _ hget
    exact ⟨fi, _, mb1, h1, h2, hpa, rfl, rfl, huniq _ _ hget hpa, .inl ⟨mb, hfi, hpa, rfl, rfl, rfl⟩⟩

/-- What is found in an mbox that is looked at again. -/
theorem scanned_box {r1 r : Run} {p va : Text} {gs1 gs : List BoxMsg} {k n : Nat} {mb : Mbox} {new : List (Nat × Nat)}
    (h1 : ∀ g ∈ gs1, g.1.1 + g.1.2 ≤ (boxText r1 p).length) (hr1 : Sane r1) (hva : r.mboxWorld.contents p = .data va) (hm : ¬ Mmdf va)
    (h2 : BoxMessages r.mboxWorld va gs) (ht : r.mboxWorld.md5 = r1.mboxWorld.md5)
    (hsum : ∀ g ∈ gs1, g.1.1 + g.1.2 ≤ va.length → r1.mboxWorld.md5 (g.text (boxText r1 p)) = r1.mboxWorld.md5 (g.text va) → g.text (boxText r1 p) = g.text va)
    (he : Edited (boxText r1 p) va gs1 gs k) (hmsgs : mb.msgs = recsOf r1 p gs1)
    (e1 : findNumberIntact r.mboxWorld { mb with newMsgs := [] } va = .ok n)
    (e2 : buildNewMessageList r.mboxWorld { mb with newMsgs := [], nOldValid := n } va = .ok new) :
    n = k ∧ Grouped r.mboxWorld va new (gs.drop k) ∧ k ≤ gs.length ∧ mb.msgs.take k = (recsOf r p gs).take k := by
  have hbt : boxText r p = va := by simp [boxText, hva]
  have hlen : mb.msgs.length = gs1.length := by rw [hmsgs]; simp [recsOf]
  have hkg : k ≤ gs.length := by
    have := congrArg List.length he.same
    rw [List.length_take, List.length_take] at this
    have := he.le
    omega
  have hget : ∀ (i : Nat) m, mb.msgs[i]? = some m → ∃ g, gs1[i]? = some g ∧ m = boxRecord r1.mboxWorld (boxText r1 p) g := by
    intro i m h
    rw [hmsgs, recsOf, List.getElem?_map, Option.map_eq_some_iff] at h
    obtain ⟨g, h3, h4⟩ := h
    exact ⟨g, h3, h4.symm⟩
  have hk : PlacesKnown { mb with newMsgs := [] } := by
    intro m hmm
    obtain ⟨i, hi⟩ := List.getElem?_of_mem hmm
    obtain ⟨g, hg, rfl⟩ := hget i m hi
    have h3 := h1 g (List.mem_of_getElem? hg)
    have h4 := boxText_small hr1 p
    exact ⟨g.1.1, g.1.2, rfl, by omega⟩
  have hn : n = k := by
    have := C30_intact r.mboxWorld { mb with newMsgs := [] } va hk k (by simp only [hlen]; exact he.le) (by
      intro i hi
      simp only [hlen] at hi
      have hgi := List.getElem?_eq_getElem hi
      have hrec : mb.msgs[i]? = some (boxRecord r1.mboxWorld (boxText r1 p) gs1[i]) := by
        rw [hmsgs, recsOf, List.getElem?_map, hgi, Option.map_some]
      constructor
      · rintro ⟨m, s, l, q1, q2, q3, q4⟩
        simp only at q1
        rw [hrec] at q1
        cases q1
        simp only [boxRecord, Option.some.injEq] at q2
        apply Classical.byContradiction
        intro hik
        have hmem : gs1[i] ∈ gs1.drop k := by
          rw [List.mem_iff_getElem?]
          exact ⟨i - k, by rw [List.getElem?_drop, show k + (i - k) = i by omega]; exact hgi⟩
        generalize gs1[i] = g at q2 q4 hmem
        obtain ⟨⟨s', l'⟩, r8⟩ := g
        simp only at q2
        cases q2
        rcases he.gone _ hmem with h3 | h3
        · simp only at h3; omega
        · apply h3
          simp only [boxRecord, ht] at q4
          apply hsum _ (List.mem_of_mem_drop hmem) q3
          simp only [BoxMsg.text]
          rw [q4]
          simp [between]
      · intro hik
        have hmem : gs1[i] ∈ gs1.take k := by
          rw [List.mem_iff_getElem?]
          exact ⟨i, by rw [List.getElem?_take, if_pos hik]; exact hgi⟩
        have hmem2 : gs1[i] ∈ gs := by
          rw [he.same] at hmem
          exact List.mem_of_mem_take hmem
        refine ⟨_, gs1[i].1.1, gs1[i].1.2, hrec, rfl, (boxMessages_each h2 _ hmem2).1, ?_⟩
        simp only [boxRecord, ht]
        have := he.text _ hmem
        unfold BoxMsg.text at this
        rw [this]
        simp [between])
    rw [e1] at this
    cases this
    rfl
  subst hn
  refine ⟨rfl, ?_, hkg, ?_⟩
  · refine boxMessages_rest h2 hm hkg ?_ e2
    intro i g hi hg
    simp only at hi
    have : gs1[i]? = some g := by
      have h3 := congrArg (·[i]?) he.same
      simp only [List.getElem?_take, if_pos hi] at h3
      rw [h3]; exact hg
    exact ⟨_, by simp only; rw [hmsgs, recsOf, List.getElem?_map, this, Option.map_some], rfl⟩
  · rw [hmsgs, recsOf, recsOf, ← List.map_take, ← List.map_take, ← he.same, hbt]
    apply List.map_congr_left
    intro g hg
    have := he.text g hg
    unfold BoxMsg.text at this
    simp only [boxRecord, ht, this]

theorem noBox_paths {db db' : Database} {p : Text} (hp : db.mboxen.map (·.path) = db'.mboxen.map (·.path)) (h : NoBox db p) : NoBox db' p := by
  intro mb hmb hpa
  have : mb.path ∈ db.mboxen.map (·.path) := by rw [hp]; exact List.mem_map_of_mem hmb
  obtain ⟨mb0, h1, h2⟩ := List.mem_map.1 this
  exact h mb0 h1 (by rw [h2]; exact hpa)

theorem filter_range_upto (n k : Nat) (f : Nat → Bool) (h : ∀ i, i < n → (f i = true ↔ i < k)) : (List.range n).filter f = List.range (min n k) := by
  induction n with
  | zero => simp
  | succ n ih =>
    rw [List.range_succ, List.filter_append, ih fun i hi => h i (by omega)]
    have := h n (by omega)
    by_cases hk : n < k
    · rw [show min (n + 1) k = n + 1 by omega, show min n k = n by omega, List.range_succ]
      simp [this.2 hk]
    · rw [show min (n + 1) k = k by omega, show min n k = k by omega]
      have hf : f n = false := by
        cases hf : f n with
        | false => rfl
        | true => exact absurd (this.1 hf) hk
      simp [hf]

theorem grouped_tools {w w' : MboxWorld} {va : Text} {parts : List (Nat × Nat)} {gs gs' : List BoxMsg} (hw : w.parse = w'.parse)
    (h : Grouped w va parts gs) (h' : Grouped w' va parts gs') : gs = gs' := by
  refine grouped_unique h ?_
  clear h
  induction h' with
  | nil => exact .nil
  | joined h1 h2 h3 h4 _ ih =>
    rw [← hw] at h4 ⊢
    exact .joined h1 h2 (by rw [hw]; exact h3) h4 ih
  | alone h1 _ ih =>
    rw [← hw]
    exact .alone (by rw [hw]; exact h1) ih

/-- The update. -/
theorem update_box {hashfn : Nat → Text → Nat} {hist : List Run} {r : Run} {key : Nat} {db db' : Database} {ix : List MsgWords}
    {b : Bool} {p : Text} (h : Mem hist (hashfn key) db ix) (hl : Loaded db) (hr : Sane r) (hh : ∀ r ∈ hist, Sane r)
    (hn : r.listed.Nodup) (e : updateStep hashfn r key db = .ok (db', b)) (hst : Steady (hist ++ [r]) p)
    (hk : Known hist p db TimeLoaded) :
    Known (hist ++ [r]) p db' TimeSaved ∧ Shown r p db' ∧ (b = false → Shown r p db) := by
  obtain ⟨db1, e1, e⟩ := res_bind_ok e
  split at e
  case isFalse => cases e
  rename_i hsz
  have hse : SortedExtant (r.sortExtant r.extant) := by
    apply sortExtant_spec hr.sortExtant
    unfold buildMboxLists at e1
    cases hc : checkMboxDuplicates (r.sortExtant r.extant) with
    | false => rfl
    | true => rw [hc] at e1; cases e1
  have hex : ∀ x, x ∈ r.sortExtant r.extant ↔ x ∈ r.extant := fun x => (hr.sortExtant r.extant).1.mem_iff
  obtain ⟨hs, hperm⟩ := sortListed_spec hr.sortListed hn
  obtain ⟨hrd, hm1, ht1⟩ := good_mboxLists h.good hl hse e1
  obtain ⟨_, _, hget, _⟩ := mboxLists_get hse e1
  obtain ⟨db2, new, box, xs, ys, e2, hu, hg, hth, hsame⟩ := good_updateStep (w := r.world) (mw := r.mboxWorld) (junk := r.junkMsg)
    (fast := r.fast) (l := r.sortListed r.listed) h.good hl hse hs e1 (by
      rw [hm1] at hsz
      rw [hperm.length_eq]
      exact hsz)
  rw [e2] at e
  cases e
  obtain ⟨n1, _⟩ := newEntries_facts hu.new
  obtain ⟨_, _, _, b4, b5⟩ := boxesDone_facts hu.box
  have hr' : r ∈ hist ++ [r] := by simp
  have hi' : ∀ r1 ∈ hist, r1 ∈ hist ++ [r] := fun r1 h1 => by simp [h1]
  have hidx : ∀ fi, boxIdx db'.msgs fi = (boxIdx db.msgs fi).filter (boxStays db1.mboxen fi) ++ boxIdx box fi := by
    intro fi
    rw [boxIdx_noTid hu.msgs, boxIdx_append, boxIdx_append, n1, List.append_nil, boxIdx_aged, hm1]
  by_cases hxp : ∃ x ∈ r.extant, x.path = p
  case neg =>
    have hno : NoBox db' p := by
      refine noBox_paths b4 ?_
      intro mb1 hmb1 hpa
      obtain ⟨fi, hfi⟩ := List.getElem?_of_mem hmb1
      rcases hget fi mb1 hfi with h1 | ⟨⟨x, h1, h2⟩, _⟩
      · rw [h1] at hpa; cases hpa
      · rw [h2] at hpa
        cases hpa
        exact hxp ⟨x, (hex x).1 h1, rfl⟩
    exact ⟨.inl hno, fun x hx hp => absurd ⟨x, hx, hp⟩ hxp, fun _ x hx hp => absurd ⟨x, hx, hp⟩ hxp⟩
  obtain ⟨x, hx, rfl⟩ := hxp
  have hxu : ∀ x' ∈ r.extant, x'.path = x.path → x' = x := by
    intro x' hx' hp
    apply Classical.byContradiction
    intro hne
    have hpw := List.pairwise_iff_getElem.1 hse
    obtain ⟨i, hi, hi2⟩ := List.mem_iff_getElem.1 ((hex x').2 hx')
    obtain ⟨j, hj, hj2⟩ := List.mem_iff_getElem.1 ((hex x).2 hx)
    rcases Nat.lt_trichotomy i j with h3 | h3 | h3
    · have := hpw i j hi hj h3; rw [hi2, hj2, hp] at this; exact before_irrefl this
    · subst h3; rw [hi2] at hj2; exact hne hj2
    · have := hpw j i hj hi h3; rw [hi2, hj2, hp] at this; exact before_irrefl this
  obtain ⟨fi, mb0, mb1, g1, g2, g3, g4, g5, g6, g7⟩ := lists_box hse h.good.paths e1 ((hex x).2 hx)
  obtain ⟨mb', f1, f2⟩ := b5 fi mb1 g1
  rw [Nat.zero_add] at f2
  -- what is known of the mbox
  have hold : ∃ r1 gs1, (r1 = r ∧ gs1 = [] ∧ NoBox db x.path ∨ r1 ∈ hist ∧ BoxHolds r1 x.path gs1 ∧
        (∃ mb, BoxAt db x.path fi mb (recsOf r1 x.path gs1)) ∧ ∃ x1 ∈ r1.extant, x1.path = x.path ∧ TimeLoaded x1 mb0) ∧
      mb0.msgs = recsOf r1 x.path gs1 ∧ boxIdx db.msgs fi = List.range gs1.length := by
    rcases g7 with ⟨mb, q1, q2, q3, q4, q5⟩ | ⟨q1, q2, q3⟩
    · rcases hk with hk | ⟨r1, hr1, x1, hx1, gs1, fj, mbj, h1, h2, h3, h4⟩
      · exact absurd q2 (hk mb (List.mem_of_getElem? q1))
      · have : fj = fi := filterMap_nodup_index h.good.paths fj fi mbj mb h3.get q1 h3.path q2
        subst this
        rw [h3.get] at q1
        cases q1
        refine ⟨r1, gs1, .inr ⟨hr1, h2, ⟨_, h3⟩, x1, hx1, h1, by rw [q4]; exact h4.1, by rw [q5]; exact h4.2⟩, by rw [q3]; exact h3.msgs, ?_⟩
        rw [h3.idx]; simp [recsOf]
    · refine ⟨r, [], .inl ⟨rfl, rfl, q1⟩, by rw [q2]; rfl, ?_⟩
      obtain ⟨k, hk1, hk2⟩ := h.good.boxes fi
      rw [hk1]
      by_cases h0 : k = 0
      · rw [h0]; rfl
      · obtain ⟨mb, hmb, _⟩ := hk2 h0
        have := (List.getElem?_eq_some_iff.1 hmb).1
        omega
  obtain ⟨r1, gs1, o1, o2, o3⟩ := hold
  have hstays : ∀ mi, boxStays db1.mboxen fi mi = (mb1.path.isSome && decide (mi < mb1.nOldValid)) := by
    intro mi; simp only [boxStays, g1]
  -- nothing happened: the mbox before the update is as good
  have hback : (findsNew r.world r.fast (r.sortListed r.listed) db1 || loses r.world r.fast (r.sortListed r.listed) db1) = false →
      ∀ gs, BoxAt db' x.path fi mb' (recsOf r x.path gs) → (mb1.msgs = mb0.msgs ∨ mb1.msgs = []) →
        (gs = [] ∧ NoBox db x.path) ∨ ∃ fi mb, BoxAt db x.path fi mb (recsOf r x.path gs) := by
    intro hb gs hat hms
    rw [Bool.or_eq_false_iff] at hb
    obtain ⟨s1, s2, _⟩ := hsame hb.1
    have hmb1 : mb' = mb1 := by
      rw [s2, g1] at f1
      cases f1
      rfl
    have hkeep : boxIdx db'.msgs fi = boxIdx db.msgs fi := by
      obtain ⟨_, u2, u3⟩ := update_ok h hl hr hh hn (by
        unfold updateStep
        simp only [bind, Except.bind, e1]
        rw [if_pos hsz, e2, Bool.or_eq_false_iff.2 hb])
      rw [(u3.2 rfl).1]
    have hrl : (recsOf r x.path gs).length = gs1.length := by
      have := hat.idx
      rw [hkeep, o3] at this
      have := congrArg List.length this
      simpa using this.symm
    have hrec : mb0.msgs = recsOf r x.path gs := by
      have h2 := hat.msgs
      rw [hmb1] at h2
      rcases hms with h3 | h3
      · rw [← h3]; exact h2
      · rw [h3] at h2
        rw [← h2] at hrl ⊢
        rw [o2]
        apply List.eq_nil_of_length_eq_zero
        simp only [List.length_nil] at hrl
        simp [recsOf, ← hrl]
    rcases o1 with ⟨rfl, rfl, hno⟩ | ⟨_, _, ⟨mb, hmb⟩, _⟩
    · left
      refine ⟨?_, hno⟩
      simp [recsOf] at hrl
      exact hrl
    · right
      refine ⟨fi, mb, ?_⟩
      rw [← hrec, o2]
      exact hmb
  have hfin : ∀ gs, BoxHolds r x.path gs → BoxAt db' x.path fi mb' (recsOf r x.path gs) → TimeSaved x mb' →
      (mb1.msgs = mb0.msgs ∨ mb1.msgs = []) →
      Known (hist ++ [r]) x.path db' TimeSaved ∧ Shown r x.path db' ∧
        ((findsNew r.world r.fast (r.sortListed r.listed) db1 || loses r.world r.fast (r.sortListed r.listed) db1) = false → Shown r x.path db) := by
    intro gs h1 h2 h3 h4
    refine ⟨.inr ⟨r, hr', x, hx, gs, fi, mb', rfl, h1, h2, h3⟩, ?_, ?_⟩
    · intro _ _ _ gs' h5
      rw [boxHolds_unique h5 h1]
      exact .inr ⟨fi, mb', h2⟩
    · intro hb _ _ _ gs' h5
      rw [boxHolds_unique h5 h1]
      exact hback hb gs h2 h4
  have htools : r.mboxWorld.parse = r1.mboxWorld.parse ∧ r.mboxWorld.md5 = r1.mboxWorld.md5 ∧ r.mboxWorld.isFrom = r1.mboxWorld.isFrom := by
    rcases o1 with ⟨rfl, _⟩ | ⟨h1, _⟩
    · exact ⟨rfl, rfl, rfl⟩
    · exact hst.tools r1 (hi' _ h1) r hr'
  cases g2 with
  | dead hp => rw [hp] at g3; cases g3
  | failed hp hne hc =>
    rw [g3] at hp
    cases hp
    have hno : NoBox db' x.path := by
      refine noBox_paths b4 ?_
      intro mb2 hmb2 hpa
      obtain ⟨fj, hfj⟩ := List.getElem?_of_mem hmb2
      have := g6 fj mb2 hfj hpa
      subst this
      rw [g1] at hfj
      cases hfj
      cases hpa
    have hnh : ∀ gs, ¬ BoxHolds r x.path gs := by
      rintro gs (⟨h1, _⟩ | ⟨va, h1, _⟩) <;> rw [hc] at h1 <;> cases h1
    exact ⟨.inl hno, fun _ _ _ gs h1 => absurd h1 (hnh gs), fun _ _ _ _ gs h1 => absurd h1 (hnh gs)⟩
  | empty hp hne hc =>
    rw [g3] at hp
    cases hp
    rcases f2 with ⟨_, rfl, f3⟩ | ⟨f3, _⟩
    case inr => exact absurd rfl f3
    refine hfin [] (.inl ⟨hc, rfl⟩) ⟨f1, g3, rfl, ?_⟩ ?_ (.inr rfl)
    · rw [hidx, f3, List.append_nil]
      simp [hstays, recsOf]
    · exact ⟨by simp only [g4], by simp only [g5]⟩
  | same hp hti hsi =>
    rw [g3] at hp
    cases hp
    rcases f2 with ⟨_, rfl, f3⟩ | ⟨f3, _⟩
    case inr => exact absurd rfl f3
    have hlen : mb0.msgs.length = gs1.length := by rw [o2]; simp [recsOf]
    have hidx' : boxIdx db'.msgs fi = List.range gs1.length := by
      rw [hidx, f3, List.append_nil, o3, filter_range_upto _ gs1.length]
      · simp
      · intro i hi
        rw [hstays]
        simp [g3, hlen]
    rcases o1 with ⟨rfl, rfl, hno⟩ | ⟨h1, h2, ⟨mb, h3⟩, x1, hx1, h4, h5⟩
    · have hz : mb0.fileSize = 0 ∧ mb0.fileMtime = 0 := by
        rcases g7 with ⟨mb, q1, q2, _⟩ | ⟨_, q2, _⟩
        · exact absurd q2 (hno mb (List.mem_of_getElem? q1))
        · rw [q2]; exact ⟨rfl, rfl⟩
      have hc := hst.size r1 hr' x hx rfl (by rw [← g5, hsi, hz.1])
      exact hfin [] (.inl ⟨hc, rfl⟩) ⟨f1, g3, o2, hidx'⟩ ⟨by simp only [g4], by simp only [g5]⟩ (.inl rfl)
    · have htime : u32 x1.mtime = u32 x.mtime ∧ x1.size % 2 ^ 32 = x.size % 2 ^ 32 := by
        refine ⟨?_, ?_⟩
        · rw [← g4, hti, h5.1, u32_u32]
        · rw [← g5, hsi, h5.2, Nat.mod_mod]
      have hat : BoxAt db' x.path fi { mb0 with newMsgs := [], nOldValid := mb0.msgs.length } (recsOf r1 x.path gs1) :=
        ⟨f1, g3, o2, by rw [hidx']; simp [recsOf]⟩
      have hconv : ∀ gs, BoxHolds r x.path gs → gs = gs1 ∧ recsOf r x.path gs = recsOf r1 x.path gs1 := by
        intro gs hgs
        have hne1 : r1.mboxWorld.contents x.path ≠ .failed := by
          rcases h2 with ⟨h2, _⟩ | ⟨va, h2, _⟩ <;> rw [h2] <;> simp
        have hne2 : r.mboxWorld.contents x.path ≠ .failed := by
          rcases hgs with ⟨h2, _⟩ | ⟨va, h2, _⟩ <;> rw [h2] <;> simp
        have hpw := (List.pairwise_append.1 hst.times).2.2 r1 h1 r (by simp)
        have hcon := hpw x1 hx1 x hx h4 rfl htime.1 htime.2 hne1 hne2
        have hw : r.mboxWorld.parse = r1.mboxWorld.parse ∧ r.mboxWorld.md5 = r1.mboxWorld.md5 ∧ r.mboxWorld.isFrom = r1.mboxWorld.isFrom := htools
        have hgs1 : gs = gs1 := by
          rcases hgs with ⟨q1, rfl⟩ | ⟨va, q1, q2⟩
          · rcases h2 with ⟨_, rfl⟩ | ⟨va, q3, _⟩
            · rfl
            · rw [hcon, q3] at q1; cases q1
          · rcases h2 with ⟨q3, _⟩ | ⟨va', q3, q4⟩
            · rw [hcon, q3] at q1; cases q1
            · rw [hcon, q3] at q1
              cases q1
              obtain ⟨parts, q5, q6⟩ := q2
              obtain ⟨parts', q7, q8⟩ := q4
              rw [hw.2.2] at q5
              rw [C29_unique q5 q7] at q6
              exact grouped_tools hw.1 q6 q8
        refine ⟨hgs1, ?_⟩
        rw [hgs1]
        have hbb : boxText r x.path = boxText r1 x.path := by simp only [boxText, hcon]
        unfold recsOf
        rw [hbb]
        apply List.map_congr_left
        intro g _
        simp only [boxRecord, hw.2.1]
      refine ⟨.inr ⟨r1, hi' _ h1, x1, hx1, gs1, fi, _, h4, h2, hat, by simp only [g4]; exact htime.1.symm, by simp only [g5]; exact htime.2.symm⟩, ?_, ?_⟩
      · intro _ _ _ gs hgs
        obtain ⟨_, q2⟩ := hconv gs hgs
        rw [q2]
        exact .inr ⟨fi, _, hat⟩
      · intro _ _ _ _ gs hgs
        obtain ⟨_, q2⟩ := hconv gs hgs
        rw [q2]
        exact .inr ⟨fi, _, h3⟩
  | @scanned _ va n new hp hne hc en eb =>
    rw [g3] at hp
    cases hp
    have hbt : boxText r x.path = va := by simp [boxText, hc]
    have hmm : ¬ Mmdf va := by
      have := hst.fromLines r hr'
      rw [hbt] at this
      exact this
    obtain ⟨gs, hgs⟩ := boxMessages_exists r.mboxWorld hmm
    have hhold : BoxHolds r x.path gs := .inr ⟨va, hc, hgs⟩
    have hed : ∃ k, Edited (boxText r1 x.path) va gs1 gs k := by
      rcases o1 with ⟨_, rfl, _⟩ | ⟨h1, h2, _⟩
      · exact ⟨0, by simp, by simp, by simp, by simp, .inl rfl⟩
      · have := (List.pairwise_append.1 hst.edited).2.2 r1 h1 r (by simp) gs1 gs h2 hhold (by rw [hc]; simp)
        rw [hbt] at this
        exact this
    obtain ⟨k, hed⟩ := hed
    have hsane : Sane r1 ∧ r1 ∈ hist ++ [r] := by
      rcases o1 with ⟨rfl, _⟩ | ⟨h1, _⟩
      · exact ⟨hr, hr'⟩
      · exact ⟨hh _ h1, hi' _ h1⟩
    have hscan := scanned_box (r1 := r1) (r := r) (p := x.path) (va := va) (gs1 := gs1) (gs := gs) (k := k) (n := n) (mb := mb0) (new := new)
      (by
        rcases o1 with ⟨_, rfl, _⟩ | ⟨_, h2, _⟩
        · intro g hg; cases hg
        · exact fun g hg => (boxHolds_text h2 g hg).1) hsane.1 hc hmm hgs htools.2.1 (by
        rcases o1 with ⟨_, rfl, _⟩ | ⟨_, h2, _⟩
        · intro g hg; cases hg
        · intro g hg
          have := hst.sums r1 hsane.2 r hr' gs1 h2 g hg
          rw [hbt] at this
          exact this) hed o2 en eb
    obtain ⟨rfl, hgr, hkg, htake⟩ := hscan
    have hrl : (recsOf r x.path gs).length = gs.length := by simp [recsOf]
    have hfil : (boxIdx db.msgs fi).filter (boxStays db1.mboxen fi) = List.range n := by
      rw [o3, filter_range_upto _ n]
      · have := hed.le
        rw [Nat.min_eq_right this]
      · intro i hi
        rw [hstays]
        simp [g3]
    obtain ⟨mb'', ms, xs', w1, w2⟩ := boxesDone_get hu.box fi _ g1
    rw [f1] at w1
    cases w1
    have hmsgs : mb'.msgs = recsOf r x.path gs ∧ boxIdx db'.msgs fi = List.range gs.length ∧ mb'.path = some x.path ∧ TimeSaved x mb' := by
      rcases w2 with ⟨w3, rfl, _, _⟩ | ⟨w3, p', va', gs', w4, w5, w6, w7, w8, _⟩
      · simp only at w3
        subst w3
        rcases f2 with ⟨_, _, f3⟩ | ⟨f3, _⟩
        case inr => exact absurd rfl f3
        have hd : gs.drop n = [] := by
          generalize gs.drop n = y at hgr
          cases hgr
          rfl
        have hle : gs.length ≤ n := by simpa using hd
        have hn1 : n = gs1.length := by
          rcases hed.more with h | h
          · exact h
          · omega
        have hn2 : n = gs.length := by omega
        have hml : mb0.msgs.length = n := by rw [o2, hn1]; simp [recsOf]
        refine ⟨?_, ?_, g3, by simp only [g4], by simp only [g5]⟩
        · simp only
          rw [List.take_of_length_le (by omega), List.take_of_length_le (by omega)] at htake
          exact htake
        · rw [hidx, hfil, f3, List.append_nil, hn2]
      · simp only at w3 w4 w6 w7
        rw [g3] at w4
        cases w4
        rw [hc] at w5
        cases w5
        have hgg : gs' = gs.drop n := grouped_unique w6 hgr
        have hm' : mb'.msgs = recsOf r x.path gs := by
          rw [w7]
          simp only
          rw [htake, hgg, ← hbt]
          simp only [recsOf]
          rw [← List.map_take, ← List.map_append, List.take_append_drop]
        refine ⟨hm', ?_, by rw [w7]; exact g3, by rw [w7]; simp only [g4], by rw [w7]; simp only [g5]⟩
        rcases f2 with ⟨f3, _⟩ | ⟨_, va2, gs2, f3, f4⟩
        · exact absurd f3 w3
        · have hl2 : gs2.length = gs.length - n := by
            have := congrArg (fun m => m.msgs.length) f4
            simp only [hm', hrl, List.length_append, List.length_map, htake, List.length_take] at this
            omega
          rw [hidx, hfil, f3, hl2]
          simp only
          have := List.range'_append_1 (s := 0) (m := n) (n := gs.length - n)
          rw [Nat.zero_add, show n + (gs.length - n) = gs.length by omega] at this
          rw [List.range_eq_range', List.range_eq_range']
          exact this
    exact hfin gs hhold ⟨f1, hmsgs.2.2.1, hmsgs.1, by rw [hmsgs.2.1, hrl]⟩ hmsgs.2.2.2 (.inl rfl)

/-- Purging. -/
theorem purge_box {r : Run} {hash : Text → Nat} {db db' : Database} {ix : List MsgWords} {b : Bool} (h : GoodDb hash db ix)
    (e : purgeStep r db = .ok (db', b)) {p : Text} :
    (NoBox db p → NoBox db' p) ∧ ∀ fi mb recs, BoxAt db p fi mb recs → ∃ fi', BoxAt db' p fi' mb recs := by
  unfold purgeStep at e
  split at e
  case isFalse => cases e; exact ⟨id, fun fi mb recs h => ⟨fi, h⟩⟩
  obtain ⟨u, _, e⟩ := res_bind_ok e
  obtain ⟨_, c1, c2, c3⟩ := cull_ok h e
  refine ⟨?_, ?_⟩
  · intro hno mb hmb
    rw [c2] at hmb
    exact hno mb (List.mem_filter.1 hmb).1
  · intro fi mb recs hat
    have hmem : mb ∈ db'.mboxen := by
      rw [c2]
      exact List.mem_filter.2 ⟨List.mem_of_getElem? hat.get, by rw [hat.path]; rfl⟩
    obtain ⟨fi', hfi'⟩ := List.getElem?_of_mem hmem
    refine ⟨fi', hfi', hat.path, hat.msgs, ?_⟩
    rw [← hat.idx, ← boxIdx_filter db.msgs]
    generalize db.msgs.filter (fun m => decide (m.src ≠ .dead)) = ms at c1
    generalize db'.msgs = ms' at c1
    induction c1 with
    | nil => rfl
    | @cons m m' _ _ h1 _ ih =>
      rw [boxIdx_cons, boxIdx_cons, ih]
      congr 2
      obtain ⟨_, _, _, _, _, hs⟩ := h1
      cases hm : m.src with
      | mbox f i =>
        rw [hm] at hs
        obtain ⟨f', mb2, h2, h3, h4⟩ := hs
        rw [h2]
        simp only [boxNo]
        by_cases hf : f = fi
        · subst hf
          rw [hat.get] at h3
          cases h3
          rw [if_pos rfl, if_pos (filterMap_nodup_index c3.paths f' fi' mb mb h4 hfi' hat.path hat.path)]
        · have : f' ≠ fi' := by
            rintro rfl
            rw [hfi'] at h4
            cases h4
            exact hf (filterMap_nodup_index h.paths f fi mb mb h3 hat.get hat.path hat.path)
          rw [if_neg hf, if_neg this]
      | _ => rw [hm] at hs; simp only at hs; rw [hs]; rfl

/-- A run. -/
theorem indexRun_box {hashfn : Nat → Text → Nat} {hist : List Run} {r : Run} {f f' : Option Text} {db : Database} {ix : List MsgWords}
    {p : Text} (h : Holds hist f db ix) (hh : ∀ r ∈ hist, Sane r) (hr : Sane r) (e : indexRun hashfn r f = .ok f')
    (hst : Steady (hist ++ [r]) p) (hk : Known hist p db TimeSaved) :
    ∃ db' ix', Holds (hist ++ [r]) f' db' ix' ∧ Current r db' ∧ Known (hist ++ [r]) p db' TimeSaved ∧ Shown r p db' := by
  obtain ⟨db', ix', h1, h2, key, db1, db2, db3, b2, b3, ix2, e1, e2, e3, m1, l1, n1, m2, hyes, hno⟩ := indexRun_steps h hh hr e
  have hk1 := known_open h hh e1 hk
  obtain ⟨u1, u2, u3⟩ := update_box m1 l1 hr hh n1 e2 hst hk1
  obtain ⟨p1, p2⟩ := purge_box (p := p) m2.good e3
  refine ⟨db', ix', h1, h2, ?_⟩
  cases hb : b2 || b3 with
  | true =>
    rw [hyes hb]
    refine ⟨?_, ?_⟩
    · rcases u1 with u1 | ⟨r1, q1, x, q2, gs, fi, mb, q3, q4, q5, q6⟩
      · exact .inl (p1 u1)
      · obtain ⟨fi', q7⟩ := p2 fi mb _ q5
        exact .inr ⟨r1, q1, x, q2, gs, fi', mb, q3, q4, q7, q6⟩
    · intro x hx hp gs hgs
      rcases u2 x hx hp gs hgs with ⟨q1, q2⟩ | ⟨fi, mb, q1⟩
      · exact .inl ⟨q1, p1 q2⟩
      · obtain ⟨fi', q7⟩ := p2 fi mb _ q1
        exact .inr ⟨fi', mb, q7⟩
  | false =>
    rw [hno hb]
    rw [Bool.or_eq_false_iff] at hb
    refine ⟨?_, ?_⟩
    · rcases hk with hk | ⟨r1, q1, x, q2, q3⟩
      · exact .inl hk
      · exact .inr ⟨r1, by simp [q1], x, q2, q3⟩
    · intro x hx hp gs hgs
      obtain ⟨o1, o2⟩ := open_box (p := p) h hh e1
      have hs := u3 hb.1 x hx hp gs hgs
      rcases hk with hk | ⟨r1, q1, x1, q2, gs1, fi, mb, q3, q4, q5, q6⟩
      · have hn1 := o1 hk
        rcases hs with ⟨s1, _⟩ | ⟨fj, mbj, s1⟩
        · exact .inl ⟨s1, hk⟩
        · exact absurd s1.path (hn1 mbj (List.mem_of_getElem? s1.get))
      · obtain ⟨mb', q7, _⟩ := o2 r1 q1 gs1 fi mb q4 q5
        rcases hs with ⟨_, s1⟩ | ⟨fj, mbj, s1⟩
        · exact absurd q7.path (s1 mb' (List.mem_of_getElem? q7.get))
        · have : fj = fi := filterMap_nodup_index m1.good.paths fj fi mbj mb' s1.get q7.get s1.path q7.path
          subst this
          have hg := s1.get
          rw [q7.get] at hg
          cases hg
          have hrr : recsOf r p gs = recsOf r1 p gs1 := by rw [← s1.msgs, ← q7.msgs]
          rw [hrr]
          exact .inr ⟨fj, mb, q5⟩

theorem steady_init {hist : List Run} {r : Run} {p : Text} (h : Steady (hist ++ [r]) p) : Steady hist p where
  tools := fun r1 h1 r2 h2 => h.tools r1 (by simp [h1]) r2 (by simp [h2])
  fromLines := fun r1 h1 => h.fromLines r1 (by simp [h1])
  size := fun r1 h1 => h.size r1 (by simp [h1])
  sums := fun r1 h1 r2 h2 => h.sums r1 (by simp [h1]) r2 (by simp [h2])
  times := (List.pairwise_append.1 h.times).1
  edited := (List.pairwise_append.1 h.edited).1

theorem indexRuns_snoc {hashfn : Nat → Text → Nat} : ∀ (rs : List Run) (r : Run) {f f' : Option Text},
    indexRuns hashfn (rs ++ [r]) f = .ok f' → ∃ f1, indexRuns hashfn rs f = .ok f1 ∧ indexRun hashfn r f1 = .ok f'
  | [], r, f, f', e => by
    obtain ⟨f1, e1, e⟩ := res_bind_ok e
    cases e
    exact ⟨f, rfl, e1⟩
  | a :: rs, r, f, f', e => by
    obtain ⟨f1, e1, e⟩ := res_bind_ok e
    obtain ⟨f2, e2, e3⟩ := indexRuns_snoc rs r e
    exact ⟨f2, by simp only [indexRuns, bind, Except.bind, e1]; exact e2, e3⟩

theorem list_snoc_induction {α : Type} {P : List α → Prop} (h0 : P []) (h1 : ∀ l a, P l → P (l ++ [a])) (l : List α) : P l := by
  rw [← List.reverse_reverse l]
  induction l.reverse with
  | nil => exact h0
  | cons a l ih => rw [List.reverse_cons]; exact h1 _ _ ih

/-- A history of runs. -/
theorem indexRuns_box {hashfn : Nat → Text → Nat} {p : Text} (hist : List Run) : ∀ {f : Option Text}, (∀ r ∈ hist, Sane r) → Steady hist p →
    indexRuns hashfn hist none = .ok f →
    ∃ db ix, Holds hist f db ix ∧ Known hist p db TimeSaved ∧ ∀ r, hist.getLast? = some r → Current r db ∧ Shown r p db := by
  induction hist using list_snoc_induction with
  | h0 =>
    intro f _ _ e
    cases e
    exact ⟨newDatabase, [], holds_none [], .inl (by intro mb hmb; cases hmb), by simp⟩
  | h1 hist r ih =>
    intro f hs hst e
    obtain ⟨f1, e1, e2⟩ := indexRuns_snoc hist r e
    obtain ⟨db, ix, h1, h2, _⟩ := ih (fun r hr => hs r (by simp [hr])) (steady_init hst) e1
    obtain ⟨db', ix', h3, h4, h5, h6⟩ := indexRun_box h1 (fun r hr => hs r (by simp [hr])) (hs r (by simp)) e2 hst h2
    refine ⟨db', ix', h3, h5, ?_⟩
    intro r' hr'
    simp at hr'
    rw [← hr']
    exact ⟨h4, h6⟩

end Mairix
