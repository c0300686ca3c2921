import Verif.Proofs.MboxLists
import Verif.Model.Cull

/-! An invariant of the database in memory. -/

namespace Mairix
open Spec

/-- The number in mbox `fi` of a message that is in it. -/
def boxNo (fi : Nat) (s : Src) : Option Nat :=
  match s with
  | .mbox f mi => if f = fi then some mi else none
  | _ => none

/-- The numbers in mbox `fi` of the messages in it. -/
def boxIdx (msgs : List Msg) (fi : Nat) : List Nat := msgs.filterMap fun m => boxNo fi m.src

/-- The first `k` messages of the mbox have a place in it. -/
def HasPlaces (mb : Mbox) (k : Nat) : Prop :=
  mb.path ≠ none ∧ k ≤ mb.msgs.length ∧ ∀ i, i < k → ∃ e, mb.msgs[i]? = some e ∧ e.pos ≠ none

/-- What holds of every database. The live messages of each mbox are the first ones in it, in order. -/
structure GoodDb (hash : Text → Nat) (db : Database) (ix : List MsgWords) : Prop where
  rep : TablesRep hash db.tables ix
  length : ix.length = db.msgs.length
  small : db.msgs.length ≤ maxMsgs
  places : (db.msgs.filterMap Place).Nodup
  boxes : ∀ fi, ∃ k, boxIdx db.msgs fi = List.range k ∧ (k ≠ 0 → ∃ mb, db.mboxen[fi]? = some mb ∧ HasPlaces mb k)
  paths : (db.mboxen.filterMap (·.path)).Nodup

/-- Just loaded: of the entries of an mbox without a message the place is not known. -/
def Loaded (db : Database) : Prop :=
  ∀ (fi : Nat) mb, db.mboxen[fi]? = some mb → ∀ (i : Nat) e, mb.msgs[i]? = some e →
    (boxIdx db.msgs fi).length ≤ i → e.pos = none

theorem good_new (hash : Text → Nat) : GoodDb hash newDatabase [] where
  rep := by
    constructor
    all_goals first | exact RepMail.new hash | exact RepIds.new hash
  length := rfl
  small := by simp [newDatabase]
  places := by simp [newDatabase]
  boxes := fun fi => ⟨0, by simp [newDatabase, boxIdx], by simp⟩
  paths := by simp [newDatabase]

theorem loaded_new : Loaded newDatabase := by intro fi mb h; simp [newDatabase] at h

theorem boxIdx_append (a b : List Msg) (fi : Nat) : boxIdx (a ++ b) fi = boxIdx a fi ++ boxIdx b fi := by
  simp [boxIdx]

theorem boxIdx_noTid {a b : List Msg} (h : a.map noTid = b.map noTid) (fi : Nat) : boxIdx a fi = boxIdx b fi := by
  have e : ∀ l : List Msg, boxIdx l fi = boxIdx (l.map noTid) fi := by
    intro l; simp only [boxIdx, List.filterMap_map]; rfl
  rw [e a, e b, h]

theorem place_noTid {a b : List Msg} (h : a.map noTid = b.map noTid) : a.filterMap Place = b.filterMap Place := by
  have e : ∀ l : List Msg, l.filterMap Place = (l.map noTid).filterMap Place := by
    intro l
    rw [List.filterMap_map]
    congr 1
    funext m
    obtain ⟨s, _, _, _, _, _⟩ := m
    cases s <;> rfl
  rw [e a, e b, h]

/-! ### Looking up the mboxen again -/

theorem married_path {extant : List Extant} {mb : Mbox} : (married extant mb).path = mb.path ∨ (married extant mb).path = none := by
  unfold married
  split
  · exact .inl rfl
  · exact .inr rfl

theorem married_cases {extant : List Extant} (mb : Mbox) :
    ((married extant mb).path = mb.path ∧ (married extant mb).msgs = mb.msgs ∧ mb.path ≠ none) ∨
    (married extant mb).path = none ∧ (married extant mb).msgs = [] ∧ (married extant mb).nOldValid = 0 := by
  unfold married
  split
  · next h =>
    left
    refine ⟨rfl, rfl, ?_⟩
    intro hn; simp [hn] at h
  · exact .inr ⟨rfl, rfl, rfl⟩

theorem isIntact_pos {w : MboxWorld} {mb : Mbox} {i : Nat} {va : Text} {b : Bool} (h : isIntact w mb i va = .ok b) :
    ∃ e, mb.msgs[i]? = some e ∧ e.pos ≠ none := by
  unfold isIntact at h
  cases hg : mb.msgs[i]? with
  | none => rw [hg] at h; cases h
  | some e =>
    refine ⟨e, rfl, ?_⟩
    intro hp
    rw [hg] at h
    simp [hp] at h

/-- Results of the binary chop are in range. -/
theorem chopLoop_range {w : MboxWorld} {mb : Mbox} {va : Text} : ∀ (fuel l h r : Nat), l < h → chopLoop w mb va fuel l h = .ok r →
    l ≤ r ∧ r < h := by
  intro fuel
  induction fuel with
  | zero => intro l h r _ he; cases he
  | succ fuel ih =>
    intro l h r hlt he
    simp only [chopLoop, hlt, if_true, bind, Except.bind] at he
    split at he
    · cases he; omega
    · next hne =>
      cases hi : isIntact w mb ((h + l) / 2) va with
      | error x => rw [hi] at he; cases he
      | ok b =>
        rw [hi] at he
        cases b with
        | true => have := ih _ _ _ (by omega) he; omega
        | false => have := ih _ _ _ (by omega) he; omega

theorem findNumberIntact_le {w : MboxWorld} {mb : Mbox} {va : Text} {n : Nat} (h : findNumberIntact w mb va = .ok n) :
    n ≤ mb.msgs.length ∧ (mb.msgs ≠ [] → ∃ e, mb.msgs[mb.msgs.length - 1]? = some e ∧ e.pos ≠ none) := by
  unfold findNumberIntact at h
  split at h
  · next h0 =>
    cases h
    refine ⟨by omega, ?_⟩
    intro hn
    exact absurd (List.eq_nil_of_length_eq_zero h0) hn
  · next h0 =>
    simp only [bind, Except.bind] at h
    cases hi : isIntact w mb (mb.msgs.length - 1) va with
    | error x => rw [hi] at h; cases h
    | ok b =>
      refine ⟨?_, fun _ => isIntact_pos hi⟩
      rw [hi] at h
      simp only at h
      cases b with
      | true => simp only [if_true] at h; cases h; exact Nat.le_refl _
      | false =>
        simp only [Bool.false_eq_true, if_false] at h
        cases hj : isIntact w mb 0 va with
        | error x => rw [hj] at h; cases h
        | ok b' =>
          rw [hj] at h
          simp only at h
          cases b' with
          | false => simp only [Bool.not_false, if_true] at h; cases h; omega
          | true =>
            simp only [Bool.not_true, Bool.false_eq_true, if_false] at h
            cases hc : chopLoop w mb va (mb.msgs.length + 1) 0 mb.msgs.length with
            | error x => rw [hc] at h; cases h
            | ok r =>
              rw [hc] at h
              cases h
              have := chopLoop_range _ _ _ _ (by omega) hc
              omega

/-- What is known of an mbox, with `k` live messages in the index, after its messages were looked up
again. -/
structure BoxReady (k : Nat) (mb : Mbox) : Prop where
  valid : mb.nOldValid ≤ mb.msgs.length ∨ mb.path = none
  /-- the messages that stay have places -/
  kept : mb.path ≠ none → ∀ i, i < k → i < mb.nOldValid → ∃ e, mb.msgs[i]? = some e ∧ e.pos ≠ none
  /-- new messages follow directly on those that stay -/
  next : mb.newMsgs ≠ [] → mb.path ≠ none ∧ mb.nOldValid ≤ k

theorem boxReady_of_refreshed {w : MboxWorld} {mb mb' : Mbox} {k : Nat} (h : Refreshed w mb mb')
    (hk : k ≠ 0 → mb.path = none ∨ HasPlaces mb k)
    (hl : ∀ (i : Nat) e, mb.msgs[i]? = some e → k ≤ i → e.pos = none) : BoxReady k mb' := by
  cases h with
  | dead hp => exact ⟨.inr hp, fun h => absurd hp h, fun h => by simp at h⟩
  | same hp =>
    refine ⟨.inl (Nat.le_refl _), ?_, fun h => by simp at h⟩
    intro _ i hi _
    rcases hk (by omega) with h' | h'
    · rw [hp] at h'; cases h'
    · exact h'.2.2 i hi
  | empty hp => exact ⟨.inl (Nat.le_refl _), fun _ i _ h => by simp at h, fun h => by simp at h⟩
  | failed hp => exact ⟨.inr rfl, fun h => absurd rfl h, fun h => by simp at h⟩
  | @scanned p va n new hp hd hc hn hb =>
    obtain ⟨h1, h2⟩ := findNumberIntact_le hn
    simp only at h1 h2
    refine ⟨.inl h1, ?_, ?_⟩
    · intro _ i hi _
      rcases hk (by omega) with h' | h'
      · rw [hp] at h'; cases h'
      · exact h'.2.2 i hi
    · intro _
      refine ⟨by rw [hp]; simp, ?_⟩
      show n ≤ k
      by_cases hm : mb.msgs = []
      · simp only [hm, List.length_nil] at h1; omega
      · obtain ⟨e, he, hpos⟩ := h2 hm
        have : ¬ k ≤ mb.msgs.length - 1 := fun hle => hpos (hl _ e he hle)
        omega

/-! ### The update -/

theorem boxIdx_cons (m : Msg) (ms : List Msg) (fi : Nat) :
    boxIdx (m :: ms) fi = (boxNo fi m.src).toList ++ boxIdx ms fi := by
  simp only [boxIdx, List.filterMap_cons]
  cases boxNo fi m.src <;> rfl

/-- Message `mi` of mbox `fi` stays. -/
def boxStays (mboxen : List Mbox) (fi mi : Nat) : Bool :=
  match mboxen[fi]? with
  | some mb => mb.path.isSome && decide (mi < mb.nOldValid)
  | none => false

theorem boxIdx_aged {w : World} {fast : Bool} {l : List Listed} {mboxen : List Mbox} (msgs : List Msg) (fi : Nat) :
    boxIdx (msgs.map (aged w fast l mboxen)) fi = (boxIdx msgs fi).filter (boxStays mboxen fi) := by
  induction msgs with
  | nil => rfl
  | cons m ms ih =>
    rw [List.map_cons, boxIdx_cons, boxIdx_cons, List.filter_append, ih]
    congr 1
    obtain ⟨src, date, tid, seen, replied, flagged⟩ := m
    cases src with
    | dead => rfl
    | file p t s =>
      have : boxNo fi (aged w fast l mboxen ⟨.file p t s, date, tid, seen, replied, flagged⟩).src = none := by
        simp only [aged]; split <;> rfl
      rw [this]; rfl
    | imap p =>
      have : boxNo fi (aged w fast l mboxen ⟨.imap p, date, tid, seen, replied, flagged⟩).src = none := by
        simp only [aged]; split <;> rfl
      rw [this]; rfl
    | mbox f mi =>
      by_cases hf : f = fi
      · subst hf
        have : stays w fast l mboxen ⟨.mbox f mi, date, tid, seen, replied, flagged⟩ = boxStays mboxen f mi := rfl
        cases hc : boxStays mboxen f mi with
        | true => simp [aged, this, hc, boxNo]
        | false => simp [aged, this, hc, boxNo]
      · have : boxNo fi (aged w fast l mboxen ⟨.mbox f mi, date, tid, seen, replied, flagged⟩).src = none := by
          simp only [aged]; split <;> simp [boxNo, hf]
        rw [this]; simp [boxNo, hf]

theorem filter_range_lt (k n : Nat) : (List.range k).filter (fun i => decide (i < n)) = List.range (min k n) := by
  induction k with
  | zero => simp
  | succ k ih =>
    rw [List.range_succ, List.filter_append, ih]
    by_cases h : k < n
    · simp only [h, decide_true, List.filter_cons_of_pos, List.filter_nil]
      rw [show min (k + 1) n = k + 1 by omega, List.range_succ, show min k n = k by omega]
    · simp only [h, decide_false, Bool.false_eq_true, not_false_eq_true, List.filter_cons_of_neg, List.filter_nil, List.append_nil]
      congr 1
      omega

theorem boxEntries_idx {fi j : Nat} {gs : List ((Nat × Nat) × Option Rfc822)} {ms : List Msg} (h : BoxEntries fi j gs ms) :
    boxIdx ms fi = List.range' j gs.length ∧ ∀ f, f ≠ fi → boxIdx ms f = [] := by
  induction h with
  | nil => simp [boxIdx]
  | @cons j g gs m ms h1 _ ih =>
    obtain ⟨ih1, ih2⟩ := ih
    constructor
    · rw [boxIdx_cons, h1.1, ih1]
      simp [boxNo, List.range'_succ]
    · intro f hf
      have : ¬ fi = f := fun h => hf h.symm
      rw [boxIdx_cons, h1.1, ih2 f hf]
      simp [boxNo, this]

theorem isEntry_boxNo {w : World} {e : Listed} {m : Msg} (h : IsEntry w e m) (fi : Nat) : boxNo fi m.src = none ∧ Place m = some e := by
  have := h.src
  obtain ⟨k, p⟩ := e
  obtain ⟨s, _, _, _, _, _⟩ := m
  cases k with
  | imap => simp only at this; subst this; exact ⟨rfl, rfl⟩
  | file => obtain ⟨t, sz, _, hs⟩ := this; simp only at hs; subst hs; exact ⟨rfl, rfl⟩

theorem newEntries_facts {w : World} {es : List Listed} {ms : List Msg} (h : Pairs (IsEntry w) es ms) :
    (∀ fi, boxIdx ms fi = []) ∧ ms.filterMap Place = es := by
  induction h with
  | nil => exact ⟨fun _ => rfl, rfl⟩
  | cons h1 _ ih =>
    refine ⟨fun fi => ?_, ?_⟩
    · have := ih.1 fi
      simp only [boxIdx] at this ⊢
      simp only [List.filterMap_cons, (isEntry_boxNo h1 fi).1, this]
    · simp only [List.filterMap_cons, (isEntry_boxNo h1 0).2, ih.2]

theorem boxEntries_place {fi j : Nat} {gs : List ((Nat × Nat) × Option Rfc822)} {ms : List Msg} (h : BoxEntries fi j gs ms) :
    ms.filterMap Place = [] := by
  induction h with
  | nil => rfl
  | @cons j g gs m ms h1 _ ih =>
    have : Place m = none := by
      have := h1.1
      obtain ⟨s, _, _, _, _, _⟩ := m
      simp only at this; subst this; rfl
    simp only [List.filterMap_cons, this, ih]

theorem boxesDone_facts {w : MboxWorld} {fi : Nat} {mbs mbs' : List Mbox} {ms : List Msg} {xs : List MsgWords}
    (h : BoxesDone w fi mbs mbs' ms xs) :
    ms.filterMap Place = [] ∧ (∀ f, f < fi → boxIdx ms f = []) ∧ (∀ f, fi + mbs.length ≤ f → boxIdx ms f = []) ∧
    (mbs.map (·.path) = mbs'.map (·.path)) ∧
    ∀ (i : Nat) mb, mbs[i]? = some mb → ∃ mb', mbs'[i]? = some mb' ∧
      ((mb.newMsgs = [] ∧ mb' = mb ∧ boxIdx ms (fi + i) = []) ∨
       (mb.newMsgs ≠ [] ∧ ∃ va gs, boxIdx ms (fi + i) = List.range' mb.nOldValid (List.length gs) ∧
         mb' = { mb with msgs := mb.msgs.take mb.nOldValid ++ gs.map (boxRecord w va), newMsgs := [] })) := by
  induction h with
  | nil => simp [boxIdx]
  | @cons fi mb mb' mbs mbs' ms ms' xs xs' h1 _ ih =>
    obtain ⟨i1, i2, i3, i4, i5⟩ := ih
    have own : ms.filterMap Place = [] ∧ (∀ f, f ≠ fi → boxIdx ms f = []) ∧ mb.path = mb'.path ∧
        ((mb.newMsgs = [] ∧ mb' = mb ∧ boxIdx ms fi = []) ∨
         (mb.newMsgs ≠ [] ∧ ∃ va gs, boxIdx ms fi = List.range' mb.nOldValid (List.length gs) ∧
           mb' = { mb with msgs := mb.msgs.take mb.nOldValid ++ gs.map (boxRecord w va), newMsgs := [] })) := by
      rcases h1 with ⟨hn, rfl, rfl, rfl⟩ | ⟨hn, p, va, gs, _, _, _, rfl, hb, _⟩
      · exact ⟨rfl, fun _ _ => rfl, rfl, .inl ⟨hn, rfl, rfl⟩⟩
      · have := boxEntries_idx hb
        exact ⟨boxEntries_place hb, this.2, rfl, .inr ⟨hn, va, gs, this.1, rfl⟩⟩
    obtain ⟨o1, o2, o3, o4⟩ := own
    refine ⟨by simp [o1, i1], ?_, ?_, by simp [o3, i4], ?_⟩
    · intro f hf
      rw [boxIdx_append, o2 f (by omega), i2 f (by omega)]; rfl
    · intro f hf
      simp only [List.length_cons] at hf
      rw [boxIdx_append, o2 f (by omega), i3 f (by omega)]; rfl
    · intro i mb0 hi
      cases i with
      | zero =>
        simp only [List.getElem?_cons_zero, Option.some.injEq] at hi
        subst hi
        refine ⟨mb', rfl, ?_⟩
        rw [Nat.add_zero, boxIdx_append, i2 fi (by omega), List.append_nil]
        exact o4
      | succ i =>
        simp only [List.getElem?_cons_succ] at hi ⊢
        obtain ⟨mb1, g1, h⟩ := i5 i mb0 hi
        refine ⟨mb1, g1, ?_⟩
        rw [show fi + (i + 1) = fi + 1 + i by omega, boxIdx_append, o2 _ (by omega), List.nil_append]
        exact h

theorem aged_places {w : World} {fast : Bool} {l : List Listed} {mboxen : List Mbox} (msgs : List Msg) :
    (msgs.map (aged w fast l mboxen)).filterMap Place = keptPlaces w fast l mboxen msgs := by
  induction msgs with
  | nil => rfl
  | cons m ms ih =>
    simp only [keptPlaces, List.map_cons, List.filterMap_cons, List.filter_cons] at ih ⊢
    cases hs : stays w fast l mboxen m with
    | true => simp only [aged, hs, if_true, List.filterMap_cons, ih]
    | false =>
      have : Place (aged w fast l mboxen m) = none := by simp [aged, hs, Place]
      simp only [this, ih, Bool.false_eq_true, if_false]

theorem good_update {hash : Text → Nat} {w : World} {mw : MboxWorld} {fast : Bool} {l : List Listed} {db db' : Database}
    {ix xs ys : List MsgWords} {new box : List Msg} (hs : l.Pairwise ListedBefore)
    (hplaces : (db.msgs.filterMap Place).Nodup) (hix : ix.length = db.msgs.length)
    (hbox : ∀ fi, ∃ k, boxIdx db.msgs fi = List.range k ∧ (k ≠ 0 → fi < db.mboxen.length) ∧
      ∀ mb, db.mboxen[fi]? = some mb → BoxReady k mb)
    (hpaths : (db.mboxen.filterMap (·.path)).Nodup)
    (h : Updates hash w mw fast l db db' ix new box xs ys) (hmax : db'.msgs.length ≤ maxMsgs) :
    GoodDb hash db' (ix ++ xs ++ ys) := by
  obtain ⟨n1, n2⟩ := newEntries_facts h.new
  obtain ⟨b1, b2, b3, b4, b5⟩ := boxesDone_facts h.box
  have hlen : db'.msgs.length = db.msgs.length + new.length + box.length := by
    have := congrArg List.length h.msgs
    simp at this
    omega
  refine ⟨h.rep, ?_, hmax, ?_, ?_, ?_⟩
  · have := pairs_length h.new
    have := pairs_length h.known
    have := (boxesDone_length h.box).1
    simp; omega
  · rw [place_noTid h.msgs, List.filterMap_append, List.filterMap_append, aged_places, n2, b1, List.append_nil,
      List.nodup_append]
    refine ⟨?_, ?_, ?_⟩
    · exact List.Sublist.nodup (List.Sublist.filterMap _ (List.filter_sublist)) hplaces
    · refine List.Sublist.nodup (List.filter_sublist) ?_
      exact hs.imp fun {a b} h' => fun heq => by subst heq; exact listedBefore_irrefl h'
    · intro a ha b hb hab
      subst hab
      simp only [newPlaces, List.mem_filter, Bool.and_eq_true, decide_eq_true_eq] at hb
      exact hb.2.1 ha
  · intro fi
    obtain ⟨k, hk, hk1, hk2⟩ := hbox fi
    rw [boxIdx_noTid h.msgs, boxIdx_append, boxIdx_append, boxIdx_aged, n1 fi, List.append_nil, hk]
    cases hg : db.mboxen[fi]? with
    | none =>
      have hlt : db.mboxen.length ≤ fi := List.getElem?_eq_none_iff.1 hg
      rw [b3 fi (by omega)]
      have hk0 : k = 0 := by
        apply Classical.byContradiction
        intro hne
        have := hk1 hne
        omega
      subst hk0
      exact ⟨0, by simp, by simp⟩
    | some mb =>
      have hr := hk2 mb hg
      obtain ⟨mb', g', hc⟩ := b5 fi mb hg
      simp only [Nat.zero_add] at hc
      have hpath : mb'.path = mb.path := by
        rcases hc with ⟨_, rfl, _⟩ | ⟨_, va, gs, _, rfl⟩ <;> rfl
      cases hp : mb.path with
      | none =>
        have hnew : mb.newMsgs = [] := by
          apply Classical.byContradiction
          intro hne
          exact (hr.next hne).1 hp
        rcases hc with ⟨_, _, he⟩ | ⟨hne, _⟩
        · refine ⟨0, ?_, by simp⟩
          have hz : boxStays db.mboxen fi = fun _ => false := by funext i; simp [boxStays, hg, hp]
          rw [hz, he]
          simp
        · exact absurd hnew hne
      | some p =>
        have hpn : mb.path ≠ none := by rw [hp]; simp
        have hval : mb.nOldValid ≤ mb.msgs.length := by
          rcases hr.valid with h' | h'
          · exact h'
          · exact absurd h' hpn
        have hz : boxStays db.mboxen fi = fun i => decide (i < mb.nOldValid) := by
          funext i; simp [boxStays, hg, hp]
        rw [hz, filter_range_lt]
        rcases hc with ⟨hn, rfl, he⟩ | ⟨hne, va, gs, he, rfl⟩
        · refine ⟨min k mb'.nOldValid, by simp [he], ?_⟩
          intro _
          refine ⟨mb', g', hpn, by omega, ?_⟩
          intro i hi
          exact hr.kept hpn i (by omega) (by omega)
        · have hle := (hr.next hne).2
          refine ⟨mb.nOldValid + gs.length, ?_, ?_⟩
          · rw [he, show min k mb.nOldValid = mb.nOldValid by omega, List.range_eq_range', List.range_eq_range']
            have := List.range'_append (s := 0) (m := mb.nOldValid) (n := gs.length) (step := 1)
            simpa using this
          · intro _
            refine ⟨_, g', hpn, by simp; omega, ?_⟩
            intro i hi
            by_cases hlt : i < mb.nOldValid
            · obtain ⟨e, he', hpos⟩ := hr.kept hpn i (by omega) hlt
              refine ⟨e, ?_, hpos⟩
              rw [List.getElem?_append_left (by simp; omega), List.getElem?_take_of_lt hlt]
              exact he'
            · have hl1 : (mb.msgs.take mb.nOldValid).length = mb.nOldValid := by simp; omega
              rw [List.getElem?_append_right (by omega), hl1]
              have hlt2 : i - mb.nOldValid < gs.length := by omega
              refine ⟨boxRecord mw va gs[i - mb.nOldValid], by simp [hlt2], by simp [boxRecord]⟩
  · have e : ∀ l : List Mbox, l.filterMap (·.path) = (l.map (·.path)).filterMap id := by intro l; simp
    rw [e, ← b4, ← e]
    exact hpaths

/-! ### Listing the mboxen and updating -/

theorem refreshed_path {w : MboxWorld} {mb mb' : Mbox} (h : Refreshed w mb mb') : mb'.path = mb.path ∨ mb'.path = none := by
  cases h with
  | dead hp => exact .inl rfl
  | same hp => exact .inl rfl
  | scanned hp => exact .inl rfl
  | empty hp => exact .inl rfl
  | failed hp => exact .inr rfl

theorem refreshed_paths {w : MboxWorld} {mbs mbs' : List Mbox} (h : Pairs (Refreshed w) mbs mbs') :
    List.Sublist (mbs'.filterMap (·.path)) (mbs.filterMap (·.path)) := by
  induction h with
  | nil => exact List.Sublist.refl _
  | @cons a b l l' h1 _ ih =>
    simp only [List.filterMap_cons]
    rcases refreshed_path h1 with h | h
    · rw [h]
      cases a.path with
      | none => exact ih
      | some p => exact ih.cons_cons p
    · rw [h]
      cases a.path with
      | none => exact ih
      | some p => exact ih.cons p

theorem married_paths {extant : List Extant} (mbs : List Mbox) :
    List.Sublist ((mbs.map (married extant)).filterMap (·.path)) (mbs.filterMap (·.path)) := by
  induction mbs with
  | nil => exact List.Sublist.refl _
  | cons a l ih =>
    simp only [List.map_cons, List.filterMap_cons]
    rcases married_path (extant := extant) (mb := a) with h | h
    · rw [h]
      cases a.path with
      | none => exact ih
      | some p => exact ih.cons_cons p
    · rw [h]
      cases a.path with
      | none => exact ih
      | some p => exact ih.cons p

theorem newBoxes_paths (extant : List Extant) (mbs : List Mbox) :
    (newBoxes extant mbs).filterMap (·.path) =
      (extant.filter fun e => decide (some e.path ∉ mbs.map (·.path))).map (·.path) := by
  simp only [newBoxes, List.filterMap_map]
  generalize extant.filter (fun e => decide (some e.path ∉ mbs.map (·.path))) = l
  induction l with
  | nil => rfl
  | cons a l ih => simpa [newMbox] using ih

theorem listed_paths_nodup {extant : List Extant} {mbs : List Mbox} (hs : SortedExtant extant)
    (h : (mbs.filterMap (·.path)).Nodup) :
    ((mbs.map (married extant) ++ newBoxes extant mbs).filterMap (·.path)).Nodup := by
  rw [List.filterMap_append, List.nodup_append]
  refine ⟨(married_paths mbs).nodup h, ?_, ?_⟩
  · rw [newBoxes_paths, List.Nodup, List.pairwise_map]
    exact (List.Pairwise.sublist (List.filter_sublist) hs).imp fun {a b} h' heq => by rw [heq] at h'; exact before_irrefl h'
  · intro p hp q hq hpq
    subst hpq
    have h1 := (married_paths mbs).subset hp
    rw [newBoxes_paths] at hq
    simp only [List.mem_map, List.mem_filter, decide_eq_true_eq] at hq
    obtain ⟨e, ⟨_, hn⟩, rfl⟩ := hq
    simp only [List.mem_filterMap] at h1
    obtain ⟨mb, hm, hp⟩ := h1
    exact hn ⟨mb, hm, hp⟩

/-- The database right before the update is as the update needs it. -/
structure ReadyToUpdate (w : MboxWorld) (db : Database) : Prop where
  refs : RefsOk db.mboxen db.msgs
  ready : ∀ mb ∈ db.mboxen, Ready w mb
  boxes : ∀ fi, ∃ k, boxIdx db.msgs fi = List.range k ∧ (k ≠ 0 → fi < db.mboxen.length) ∧
    ∀ mb, db.mboxen[fi]? = some mb → BoxReady k mb
  paths : (db.mboxen.filterMap (·.path)).Nodup

theorem good_mboxLists {hash : Text → Nat} {w : MboxWorld} {extant : List Extant} {db db1 : Database} {ix : List MsgWords}
    (hg : GoodDb hash db ix) (hl : Loaded db) (hs : SortedExtant extant) (h : buildMboxLists w extant db = .ok db1) :
    ReadyToUpdate w db1 ∧ db1.msgs = db.msgs ∧ db1.tables = db.tables := by
  obtain ⟨mbs, rfl, hp⟩ := buildMboxLists_spec hs h
  have hlen := pairs_length hp
  have hle : db.mboxen.length ≤ mbs.length := by rw [← hlen]; simp
  refine ⟨⟨?_, ?_, ?_, ?_⟩, rfl, rfl⟩
  · intro m hm fi mi hsrc
    obtain ⟨k, hk, hk'⟩ := hg.boxes fi
    have : mi ∈ boxIdx db.msgs fi := by
      simp only [boxIdx, List.mem_filterMap]
      exact ⟨m, hm, by simp [hsrc, boxNo]⟩
    rw [hk, List.mem_range] at this
    obtain ⟨mb, hmb, _⟩ := hk' (by omega)
    have := (List.getElem?_eq_some_iff.1 hmb).1
    show fi < mbs.length
    omega
  · intro mb hmb
    obtain ⟨a, _, ha⟩ := pairs_right hp hmb
    exact ready_of_refreshed ha
  · intro fi
    obtain ⟨k, hk, hk'⟩ := hg.boxes fi
    refine ⟨k, hk, ?_, ?_⟩
    · intro hne
      obtain ⟨mb, hmb, _⟩ := hk' hne
      have := (List.getElem?_eq_some_iff.1 hmb).1
      show fi < mbs.length
      omega
    · intro mb hmb
      obtain ⟨a, ha, hr⟩ := pairs_get' hp fi mb hmb
      refine boxReady_of_refreshed hr ?_ ?_
      · intro hne
        obtain ⟨mb0, hmb0, hh⟩ := hk' hne
        rw [List.getElem?_append_left (by simpa using (List.getElem?_eq_some_iff.1 hmb0).1), List.getElem?_map, hmb0] at ha
        simp only [Option.map_some, Option.some.injEq] at ha
        subst ha
        rcases married_cases (extant := extant) mb0 with ⟨h1, h2, h3⟩ | ⟨h1, _, _⟩
        · right
          obtain ⟨p1, p2, p3⟩ := hh
          exact ⟨by rw [h1]; exact p1, by rw [h2]; exact p2, by rw [h2]; exact p3⟩
        · exact .inl h1
      · intro i e he hki
        by_cases hlt : fi < db.mboxen.length
        · rw [List.getElem?_append_left (by simpa using hlt), List.getElem?_map] at ha
          cases hmb0 : db.mboxen[fi]? with
          | none => rw [hmb0] at ha; cases ha
          | some mb0 =>
            rw [hmb0] at ha
            simp only [Option.map_some, Option.some.injEq] at ha
            subst ha
            rcases married_cases (extant := extant) mb0 with ⟨_, h2, _⟩ | ⟨_, h2, _⟩
            · rw [h2] at he
              exact hl fi mb0 hmb0 i e he (by rw [hk]; simpa using hki)
            · rw [h2] at he; simp at he
        · rw [List.getElem?_append_right (by simpa using hlt)] at ha
          have := List.mem_of_getElem? ha
          simp only [newBoxes, List.mem_map] at this
          obtain ⟨x, _, rfl⟩ := this
          simp [newMbox] at he
  · exact (refreshed_paths hp).nodup (listed_paths_nodup hs hg.paths)

theorem boxesDone_count {w : MboxWorld} {fi : Nat} {mbs mbs' : List Mbox} {ms : List Msg} {xs : List MsgWords}
    (h : BoxesDone w fi mbs mbs' ms xs) : ms.length ≤ countNew mbs := by
  induction h with
  | nil => simp
  | @cons fi mb mb' mbs mbs' ms ms' xs xs' h1 _ ih =>
    have : ms.length ≤ mb.newMsgs.length := by
      rcases h1 with ⟨_, _, rfl, _⟩ | ⟨_, p, va, gs, _, _, hgr, _, hb, _⟩
      · simp
      · have h1 := boxEntries_length hb
        have h2 := grouped_length hgr
        omega
    simp only [countNew, List.map_cons, List.sum_cons, List.length_append] at ih ⊢
    omega

/-- One update of the index: listing the mboxen and then `update_database`. -/
theorem good_updateStep {hash : Text → Nat} {w : World} {mw : MboxWorld} {junk : Nat → Msg} {fast : Bool} {l : List Listed}
    {extant : List Extant} {db db1 : Database} {ix : List MsgWords}
    (hg : GoodDb hash db ix) (hl : Loaded db) (hse : SortedExtant extant) (hs : l.Pairwise ListedBefore)
    (h : buildMboxLists mw extant db = .ok db1) (hmax : db.msgs.length + l.length + countNew db1.mboxen ≤ maxMsgs) :
    ∃ db' new box xs ys, updateDatabase hash (addMboxMessages hash mw junk) w fast l db1 =
        .ok (db', findsNew w fast l db1 || loses w fast l db1) ∧
      Updates hash w mw fast l db1 db' ix new box xs ys ∧ GoodDb hash db' (ix ++ xs ++ ys) ∧
      (findsNew w fast l db1 = true → ThreadsRight db'.msgs (ix ++ xs ++ ys)) ∧
      (findsNew w fast l db1 = false → db'.msgs = db1.msgs.map (aged w fast l db1.mboxen) ∧ db'.mboxen = db1.mboxen ∧
        db'.tables = db1.tables) := by
  obtain ⟨hd, hm, ht⟩ := good_mboxLists hg hl hse h
  obtain ⟨db', new, box, xs, ys, e, hu, h1, h2⟩ := updateDatabase_spec (w := w) (mw := mw) (junk := junk) (fast := fast)
    (l := l) (db := db1) (ix := ix) hs hd.refs hd.ready (by rw [ht]; exact hg.rep) (by rw [hm]; exact hg.length)
    (by rw [hm]; exact hmax)
  refine ⟨db', new, box, xs, ys, e, hu, ?_, h1, h2⟩
  refine good_update hs (by rw [hm]; exact hg.places) (by rw [hm]; exact hg.length) hd.boxes hd.paths hu ?_
  have := congrArg List.length hu.msgs
  have h3 := pairs_length hu.new
  have h4 : (newPlaces w fast l db1.mboxen db1.msgs).length ≤ l.length := List.length_filter_le _ _
  have h5 := boxesDone_count hu.box
  have h6 : db1.msgs.length = db.msgs.length := by rw [hm]
  simp at this
  omega

end Mairix
