import Verif.Proofs.Good

/-! Purging dead messages. -/

namespace Mairix
open Spec

theorem purgeTables_spec {hash : Text → Nat} {d : Tables} {ix : List MsgWords} (h : TablesRep hash d ix) {keep : List Bool}
    (hk : keep.length = ix.length) (hsmall : ix.length ≤ maxMsgs) :
    ∃ fuel0, ∀ fuel ≥ fuel0, ∃ d', purgeTables fuel keep d = .ok d' ∧ TablesRep hash d' (keepOnly keep ix) := by
  have hl : ∀ f, keep.length = (ix.map (fun (x : MsgWords) => x.words f)).length := by intro f; simpa using hk
  have hs : ∀ f, (ix.map (fun (x : MsgWords) => x.words f)).length ≤ maxMsgs := by intro f; simpa using hsmall
  obtain ⟨f1, h1⟩ := h.to.purge (hl _) (hs _)
  obtain ⟨f2, h2⟩ := h.cc.purge (hl _) (hs _)
  obtain ⟨f3, h3⟩ := h.sender.purge (hl _) (hs _)
  obtain ⟨f4, h4⟩ := h.subject.purge (hl _) (hs _)
  obtain ⟨f5, h5⟩ := h.body.purge (hl _) (hs _)
  obtain ⟨f6, h6⟩ := h.attachment.purge (hl _) (hs _)
  obtain ⟨f7, h7⟩ := h.ids.purge (keep := keep) (by simpa using hk) (by simpa using hsmall)
  refine ⟨f1 + f2 + f3 + f4 + f5 + f6 + f7, fun fuel hf => ?_⟩
  obtain ⟨t1, e1, r1⟩ := h1 fuel (by omega)
  obtain ⟨t2, e2, r2⟩ := h2 fuel (by omega)
  obtain ⟨t3, e3, r3⟩ := h3 fuel (by omega)
  obtain ⟨t4, e4, r4⟩ := h4 fuel (by omega)
  obtain ⟨t5, e5, r5⟩ := h5 fuel (by omega)
  obtain ⟨t6, e6, r6⟩ := h6 fuel (by omega)
  obtain ⟨t7, e7, r7⟩ := h7 fuel (by omega)
  refine ⟨_, by simp only [purgeTables, e1, e2, e3, e4, e5, e6, e7, bind, Except.bind]; rfl, ?_⟩
  constructor <;> (rw [← keepOnly_map]; assumption)

theorem keepOnly_filter {α : Type} (p : α → Bool) : ∀ l : List α, keepOnly (l.map p) l = l.filter p := by
  intro l
  induction l with
  | nil => rfl
  | cons a l ih => cases hp : p a <;> simp [keepOnly, hp, ih]

/-! ### Renumbering the mboxen -/

theorem newIdx_get : ∀ (mbs : List Mbox) (j fi : Nat) (mb : Mbox), mbs[fi]? = some mb → mb.path.isSome →
    ∃ t, (oldToNew.newIdx (mbs.map fun mb => mb.path.isSome) j)[fi]? = some (some (j + t)) ∧
      (mbs.filter (·.path.isSome))[t]? = some mb := by
  intro mbs
  induction mbs with
  | nil => intro j fi mb h; simp at h
  | cons a mbs ih =>
    intro j fi mb h hp
    cases hb : a.path.isSome with
    | true =>
      cases fi with
      | zero =>
        simp only [List.getElem?_cons_zero, Option.some.injEq] at h
        subst h
        exact ⟨0, by simp [oldToNew.newIdx, hb], by simp [hb]⟩
      | succ fi =>
        simp only [List.getElem?_cons_succ] at h
        obtain ⟨t, h1, h2⟩ := ih (j + 1) fi mb h hp
        refine ⟨t + 1, ?_, ?_⟩
        · simp only [List.map_cons, hb, oldToNew.newIdx, List.getElem?_cons_succ, h1]
          congr 2; omega
        · simpa [hb] using h2
    | false =>
      cases fi with
      | zero =>
        simp only [List.getElem?_cons_zero, Option.some.injEq] at h
        subst h
        rw [hb] at hp; cases hp
      | succ fi =>
        simp only [List.getElem?_cons_succ] at h
        obtain ⟨t, h1, h2⟩ := ih j fi mb h hp
        refine ⟨t, ?_, ?_⟩
        · simpa only [List.map_cons, hb, oldToNew.newIdx, List.getElem?_cons_succ] using h1
        · simpa [hb] using h2

theorem newIdx_ge : ∀ (bs : List Bool) (j fi t : Nat), (oldToNew.newIdx bs j)[fi]? = some (some t) → j ≤ t := by
  intro bs
  induction bs with
  | nil => intro j fi t h; simp [oldToNew.newIdx] at h
  | cons b bs ih =>
    intro j fi t h
    cases b with
    | true =>
      cases fi with
      | zero => simp [oldToNew.newIdx] at h; omega
      | succ fi => simp only [oldToNew.newIdx, List.getElem?_cons_succ] at h; have := ih _ _ _ h; omega
    | false =>
      cases fi with
      | zero => simp [oldToNew.newIdx] at h
      | succ fi => simp only [oldToNew.newIdx, List.getElem?_cons_succ] at h; exact ih _ _ _ h

theorem newIdx_inj : ∀ (bs : List Bool) (j f f' t : Nat), (oldToNew.newIdx bs j)[f]? = some (some t) →
    (oldToNew.newIdx bs j)[f']? = some (some t) → f = f' := by
  intro bs
  induction bs with
  | nil => intro j f f' t h; simp [oldToNew.newIdx] at h
  | cons b bs ih =>
    intro j f f' t h h'
    cases b with
    | true =>
      cases f with
      | zero =>
        cases f' with
        | zero => rfl
        | succ f' =>
          simp only [oldToNew.newIdx, List.getElem?_cons_zero, List.getElem?_cons_succ, Option.some.injEq] at h h'
          have := newIdx_ge _ _ _ _ h'
          omega
      | succ f =>
        cases f' with
        | zero =>
          simp only [oldToNew.newIdx, List.getElem?_cons_zero, List.getElem?_cons_succ, Option.some.injEq] at h h'
          have := newIdx_ge _ _ _ _ h
          omega
        | succ f' =>
          simp only [oldToNew.newIdx, List.getElem?_cons_succ] at h h'
          rw [ih _ _ _ _ h h']
    | false =>
      cases f with
      | zero => simp [oldToNew.newIdx] at h
      | succ f =>
        cases f' with
        | zero => simp [oldToNew.newIdx] at h'
        | succ f' =>
          simp only [oldToNew.newIdx, List.getElem?_cons_succ] at h h'
          rw [ih _ _ _ _ h h']

/-- The same message, in the same mbox, whose number may have changed. -/
def SameMessage (mbs mbs' : List Mbox) (m m' : Msg) : Prop :=
  m'.date = m.date ∧ m'.tid = m.tid ∧ m'.seen = m.seen ∧ m'.replied = m.replied ∧ m'.flagged = m.flagged ∧
  match m.src with
  | .mbox fi mi => ∃ fi' mb, m'.src = .mbox fi' mi ∧ mbs[fi]? = some mb ∧ mbs'[fi']? = some mb
  | s => m'.src = s

/-- Every mbox message is in an mbox that is there. -/
def InLiveBox (mbs : List Mbox) (m : Msg) : Prop :=
  ∀ fi mi, m.src = .mbox fi mi → ∃ mb, mbs[fi]? = some mb ∧ mb.path.isSome

theorem renumberAll_spec {mbs : List Mbox} : ∀ msgs : List Msg, (∀ m ∈ msgs, InLiveBox mbs m) →
    ∃ msgs', renumberAll (oldToNew mbs) msgs = .ok msgs' ∧
      Pairs (SameMessage mbs (mbs.filter (·.path.isSome))) msgs msgs' ∧
      (∀ f t : Nat, (oldToNew mbs)[f]? = some (some t) → boxIdx msgs' t = boxIdx msgs f) ∧
      (∀ t : Nat, (∀ f : Nat, (oldToNew mbs)[f]? ≠ some (some t)) → boxIdx msgs' t = []) ∧
      msgs'.filterMap Place = msgs.filterMap Place := by
  intro msgs
  induction msgs with
  | nil => intro _; exact ⟨[], rfl, .nil, fun _ _ _ => rfl, fun _ _ => rfl, rfl⟩
  | cons m ms ih =>
    intro h
    obtain ⟨ms', e, hp, hb, hb', hpl⟩ := ih fun m hm => h m (List.mem_cons_of_mem _ hm)
    have hm := h m (List.mem_cons_self ..)
    obtain ⟨src, date, tid, seen, replied, flagged⟩ := m
    have done : ∀ s : Src, (∀ fi mi, s ≠ .mbox fi mi) → src = s →
        ∃ msgs', renumberAll (oldToNew mbs) (⟨src, date, tid, seen, replied, flagged⟩ :: ms) = .ok msgs' ∧
          Pairs (SameMessage mbs (mbs.filter (·.path.isSome))) (⟨src, date, tid, seen, replied, flagged⟩ :: ms) msgs' ∧
          (∀ f t : Nat, (oldToNew mbs)[f]? = some (some t) → boxIdx msgs' t =
            boxIdx (⟨src, date, tid, seen, replied, flagged⟩ :: ms) f) ∧
          (∀ t : Nat, (∀ f : Nat, (oldToNew mbs)[f]? ≠ some (some t)) → boxIdx msgs' t = []) ∧
          msgs'.filterMap Place = (⟨src, date, tid, seen, replied, flagged⟩ :: ms : List Msg).filterMap Place := by
      intro s hs heq
      subst heq
      refine ⟨⟨src, date, tid, seen, replied, flagged⟩ :: ms', ?_, ?_, ?_, ?_, ?_⟩
      · cases src <;> simp_all [renumberAll, renumberOne, bind, Except.bind]
      · refine .cons ?_ hp
        cases src <;> simp_all [SameMessage]
      · intro f t hft
        rw [boxIdx_cons, boxIdx_cons, hb f t hft]
        cases src <;> simp_all [boxNo]
      · intro t ht
        rw [boxIdx_cons, hb' t ht]
        cases src <;> simp_all [boxNo]
      · rw [List.filterMap_cons, List.filterMap_cons, hpl]
    cases src with
    | dead => exact done .dead (by simp) rfl
    | file p t s => exact done (.file p t s) (by simp) rfl
    | imap p => exact done (.imap p) (by simp) rfl
    | mbox fi mi =>
      obtain ⟨mb, hg, hlive⟩ := hm fi mi rfl
      obtain ⟨j, hj, hf⟩ := newIdx_get mbs 0 fi mb hg hlive
      rw [Nat.zero_add] at hj
      have hj' : (oldToNew mbs)[fi]? = some (some j) := hj
      refine ⟨⟨.mbox j mi, date, tid, seen, replied, flagged⟩ :: ms', ?_, ?_, ?_, ?_, ?_⟩
      · simp only [renumberAll, renumberOne, hj', e, bind, Except.bind]
      · refine .cons ⟨rfl, rfl, rfl, rfl, rfl, j, mb, rfl, hg, hf⟩ hp
      · intro f t hft
        rw [boxIdx_cons, boxIdx_cons, hb f t hft]
        congr 1
        by_cases hff : fi = f
        · subst hff
          rw [hj'] at hft
          simp only [Option.some.injEq] at hft
          subst hft
          simp [boxNo]
        · have : ¬ j = t := by
            intro hjt
            subst hjt
            exact hff (newIdx_inj _ _ _ _ _ hj hft)
          simp [boxNo, hff, this]
      · intro t ht
        have : ¬ j = t := by intro hjt; subst hjt; exact ht fi hj'
        rw [boxIdx_cons, hb' t ht]
        simp [boxNo, this]
      · rw [List.filterMap_cons, List.filterMap_cons, hpl]; rfl

theorem good_inLiveBox {hash : Text → Nat} {db : Database} {ix : List MsgWords} (h : GoodDb hash db ix) :
    ∀ m ∈ db.msgs, InLiveBox db.mboxen m := by
  intro m hm fi mi hs
  obtain ⟨k, hk, hk'⟩ := h.boxes fi
  have : mi ∈ boxIdx db.msgs fi := by
    simp only [boxIdx, List.mem_filterMap]
    exact ⟨m, hm, by simp [hs, boxNo]⟩
  rw [hk, List.mem_range] at this
  obtain ⟨mb, hmb, hp, _⟩ := hk' (by omega)
  exact ⟨mb, hmb, Option.isSome_iff_ne_none.2 hp⟩

theorem boxIdx_filter (msgs : List Msg) (fi : Nat) :
    boxIdx (msgs.filter fun m => decide (m.src ≠ .dead)) fi = boxIdx msgs fi := by
  induction msgs with
  | nil => rfl
  | cons m ms ih =>
    by_cases hd : m.src = .dead
    · rw [List.filter_cons_of_neg (by simp [hd]), ih, boxIdx_cons, hd]; rfl
    · rw [List.filter_cons_of_pos (by simp [hd]), boxIdx_cons, boxIdx_cons, ih]

theorem place_filter (msgs : List Msg) :
    (msgs.filter fun m => decide (m.src ≠ .dead)).filterMap Place = msgs.filterMap Place := by
  induction msgs with
  | nil => rfl
  | cons m ms ih =>
    by_cases hd : m.src = .dead
    · rw [List.filter_cons_of_neg (by simp [hd]), ih, List.filterMap_cons]
      have : Place m = none := by
        obtain ⟨s, _, _, _, _, _⟩ := m
        simp only at hd; subst hd; rfl
      rw [this]
    · rw [List.filter_cons_of_pos (by simp [hd]), List.filterMap_cons, List.filterMap_cons, ih]

theorem samePaths (mbs : List Mbox) : (mbs.filter (·.path.isSome)).filterMap (·.path) = mbs.filterMap (·.path) := by
  induction mbs with
  | nil => rfl
  | cons a l ih =>
    cases hp : a.path with
    | none => rw [List.filter_cons_of_neg (by simp [hp]), ih, List.filterMap_cons, hp]
    | some p => rw [List.filter_cons_of_pos (by simp [hp]), List.filterMap_cons, List.filterMap_cons, ih]

theorem pairs_refl {α : Type} {R : α → α → Prop} : ∀ l : List α, (∀ a ∈ l, R a a) → Pairs R l l := by
  intro l
  induction l with
  | nil => intro _; exact .nil
  | cons a l ih => intro h; exact .cons (h a (List.mem_cons_self ..)) (ih fun b hb => h b (List.mem_cons_of_mem _ hb))

theorem sameMessage_refl {mbs : List Mbox} {m : Msg} (h : InLiveBox mbs m) : SameMessage mbs mbs m m := by
  refine ⟨rfl, rfl, rfl, rfl, rfl, ?_⟩
  obtain ⟨s, _, _, _, _, _⟩ := m
  cases s with
  | dead => rfl
  | file => rfl
  | imap => rfl
  | mbox fi mi =>
    obtain ⟨mb, h1, _⟩ := h fi mi rfl
    exact ⟨fi, mb, rfl, h1, h1⟩

/-- What purging does to the messages and the mboxen. -/
theorem cullDeadMboxen_spec {db : Database} (hlive : ∀ m ∈ db.msgs, InLiveBox db.mboxen m) :
    ∃ msgs', cullDeadMboxen db = .ok { db with msgs := msgs', mboxen := db.mboxen.filter (·.path.isSome) } ∧
      Pairs (SameMessage db.mboxen (db.mboxen.filter (·.path.isSome))) db.msgs msgs' ∧
      msgs'.filterMap Place = db.msgs.filterMap Place ∧
      ∀ t, (∃ f, boxIdx msgs' t = boxIdx db.msgs f ∧ (boxIdx msgs' t ≠ [] → ∃ mb, db.mboxen[f]? = some mb ∧
        (db.mboxen.filter (·.path.isSome))[t]? = some mb)) ∨ boxIdx msgs' t = [] := by
  by_cases hall : (db.mboxen.filter (·.path.isSome)).length = db.mboxen.length
  · have heq : db.mboxen.filter (·.path.isSome) = db.mboxen :=
      List.filter_eq_self.2 (List.length_filter_eq_length_iff.1 hall)
    refine ⟨db.msgs, ?_, ?_, rfl, ?_⟩
    · simp only [cullDeadMboxen, hall, if_true]
      rw [heq]
    · rw [heq]
      exact pairs_refl _ fun m hm => sameMessage_refl (hlive m hm)
    · intro t
      left
      refine ⟨t, rfl, ?_⟩
      intro hne
      obtain ⟨mi, hmi⟩ := List.exists_mem_of_ne_nil _ hne
      simp only [boxIdx, List.mem_filterMap] at hmi
      obtain ⟨m, hm, hb⟩ := hmi
      have hs : m.src = .mbox t mi := by
        unfold boxNo at hb
        split at hb
        · next f mi' h => split at hb <;> simp_all
        · cases hb
      obtain ⟨mb, h1, _⟩ := hlive m hm t mi hs
      exact ⟨mb, h1, by rw [heq]; exact h1⟩
  · obtain ⟨msgs', e, hp, hb, hb', hpl⟩ := renumberAll_spec db.msgs hlive
    refine ⟨msgs', ?_, hp, hpl, ?_⟩
    · simp only [cullDeadMboxen, hall, if_false, e, bind, Except.bind]
    · intro t
      by_cases ht : ∃ f : Nat, (oldToNew db.mboxen)[f]? = some (some t)
      · obtain ⟨f, hf⟩ := ht
        left
        refine ⟨f, hb f t hf, ?_⟩
        intro hne
        rw [hb f t hf] at hne
        obtain ⟨mi, hmi⟩ := List.exists_mem_of_ne_nil _ hne
        simp only [boxIdx, List.mem_filterMap] at hmi
        obtain ⟨m, hm, hbn⟩ := hmi
        have hs : m.src = .mbox f mi := by
          unfold boxNo at hbn
          split at hbn
          · next f mi' h => split at hbn <;> simp_all
          · cases hbn
        obtain ⟨mb, h1, h2⟩ := hlive m hm f mi hs
        obtain ⟨j, hj, hf'⟩ := newIdx_get db.mboxen 0 f mb h1 h2
        rw [Nat.zero_add] at hj
        have : (oldToNew db.mboxen)[f]? = some (some j) := hj
        rw [hf] at this
        simp only [Option.some.injEq] at this
        subst this
        exact ⟨mb, h1, hf'⟩
      · right
        exact hb' t fun f hf => ht ⟨f, hf⟩

theorem cull_spec {hash : Text → Nat} {db : Database} {ix : List MsgWords} (h : GoodDb hash db ix) :
    ∃ fuel0, ∀ fuel ≥ fuel0, ∃ db', cullDeadMessages fuel db = .ok (db', db.msgs.any fun m => decide (m.src = .dead)) ∧
      Pairs (SameMessage db.mboxen db'.mboxen) (db.msgs.filter fun m => decide (m.src ≠ .dead)) db'.msgs ∧
      db'.mboxen = db.mboxen.filter (·.path.isSome) ∧
      GoodDb hash db' (keepOnly (keepMarks db.msgs) ix) := by
  have hk : (keepMarks db.msgs).length = ix.length := by simp [keepMarks, h.length]
  obtain ⟨fuel0, hf⟩ := purgeTables_spec h.rep hk (by rw [h.length]; exact h.small)
  refine ⟨fuel0, fun fuel hfu => ?_⟩
  obtain ⟨d', e, hd⟩ := hf fuel hfu
  have hlive := good_inLiveBox h
  obtain ⟨msgs', e2, hp, hpl, hbx⟩ := cullDeadMboxen_spec
    (db := { db with msgs := db.msgs.filter fun m => decide (m.src ≠ .dead), tables := d' })
    (fun m hm => hlive m ((List.mem_filter.1 hm).1))
  refine ⟨_, by simp only [cullDeadMessages, e, e2, bind, Except.bind]; rfl, hp, rfl, ?_⟩
  have hlen := pairs_length hp
  have hfl := List.length_filter_le (fun m : Msg => decide (m.src ≠ .dead)) db.msgs
  refine ⟨hd, ?_, ?_, ?_, ?_, ?_⟩
  · rw [keepOnly_length _ _ hk]
    show _ = msgs'.length
    rw [← hlen]
    show _ = (db.msgs.filter _).length
    rw [← keepOnly_filter (fun m : Msg => decide (m.src ≠ .dead)) db.msgs, keepOnly_length _ _ (by simp)]
    rfl
  · show msgs'.length ≤ _
    rw [← hlen]
    have := h.small
    show (db.msgs.filter _).length ≤ _
    omega
  · show (msgs'.filterMap Place).Nodup
    rw [hpl]
    show ((db.msgs.filter _).filterMap Place).Nodup
    rw [place_filter]
    exact h.places
  · intro t
    show ∃ k, boxIdx msgs' t = _ ∧ _
    rcases hbx t with ⟨f, h1, h2⟩ | h1
    · simp only [boxIdx_filter] at h1
      obtain ⟨k, hk1, hk2⟩ := h.boxes f
      refine ⟨k, by rw [h1, hk1], ?_⟩
      intro hne
      obtain ⟨mb, g1, g2⟩ := h2 (by rw [h1, hk1]; simpa using hne)
      obtain ⟨mb', g3, g4⟩ := hk2 hne
      rw [g1] at g3
      cases g3
      exact ⟨mb, g2, g4⟩
    · exact ⟨0, by simpa using h1, by simp⟩
  · show ((db.mboxen.filter (·.path.isSome)).filterMap (·.path)).Nodup
    rw [samePaths]
    exact h.paths

end Mairix
