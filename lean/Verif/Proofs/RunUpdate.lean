import Verif.Proofs.Prov

/-! What an update keeps. -/

namespace Mairix
open Spec

theorem grouped_each {w : MboxWorld} {va : Text} {chunks : List (Nat × Nat)} {gs : List ((Nat × Nat) × Option Rfc822)}
    (h : Grouped w va chunks gs) : (∀ c ∈ chunks, c.1 + c.2 ≤ va.length) → ∀ g ∈ gs, g.1.1 + g.1.2 ≤ va.length ∧
      g.2 = (w.parse (between va g.1.1 (g.1.1 + g.1.2))).1 := by
  induction h with
  | nil => intro _ g hg; cases hg
  | @joined s l rest j c more h1 h2 h3 h4 h5 ih =>
    intro hc g hg
    rcases List.mem_cons.1 hg with rfl | hg
    · have a := hc _ (List.mem_of_getElem? h1)
      have b := hc (s, l) (by simp)
      simp only at a b ⊢
      refine ⟨by omega, ?_⟩
      have : between va s (s + (c.1 + c.2 - s)) = between va s (c.1 + c.2) := by
        unfold between
        congr 1
        omega
      rw [this]
    · exact ih (fun c hc' => hc c (List.mem_cons_of_mem _ (List.mem_of_mem_drop hc'))) g hg
  | @alone s l rest more h1 h2 ih =>
    intro hc g hg
    rcases List.mem_cons.1 hg with rfl | hg
    · exact ⟨hc (s, l) (by simp), rfl⟩
    · exact ih (fun c hc' => hc c (List.mem_cons_of_mem _ hc')) g hg

theorem boxEntries_prov {r : Run} (hx : r.extant ≠ []) {mbs : List Mbox} {fi : Nat} {mb : Mbox} {p va : Text} (hmb : mbs[fi]? = some mb)
    (hp : mb.path = some p) (hva : r.mboxWorld.contents p = .data va) : ∀ {j : Nat} {gs : List ((Nat × Nat) × Option Rfc822)}
    {ms : List Msg} {xs : List MsgWords}, BoxEntries fi j gs ms →
    Pairs (fun (g : (Nat × Nat) × Option Rfc822) x => IndexedAsR8 g.2 x) gs xs →
    (∀ (k : Nat) g, gs[k]? = some g → mb.msgs[j + k]? = some (boxRecord r.mboxWorld va g)) →
    (∀ g ∈ gs, g.1.1 + g.1.2 ≤ va.length ∧ g.2 = (r.mboxWorld.parse (between va g.1.1 (g.1.1 + g.1.2))).1) →
    Pairs (Prov [r] mbs) ms xs := by
  intro j gs ms xs h
  induction h generalizing xs with
  | nil => intro h _ _; cases h; exact .nil
  | @cons j g gs m ms h1 h2 ih =>
    intro h hr hg
    cases h with
    | cons h3 h4 =>
      refine .cons ?_ (ih h4 (fun k g' hk => ?_) (fun g' hg' => hg g' (by simp [hg'])))
      · obtain ⟨hs, hd⟩ := h1
        obtain ⟨g1, g2⟩ := hg g (by simp)
        constructor
        · intro e he
          rcases place_src he with ⟨_, _, _, h⟩ | ⟨_, h⟩ <;> rw [hs] at h <;> cases h
        · intro fi' mi he
          rw [hs] at he
          cases he
          refine ⟨r, by simp, mb, p, va, _, g.1.1, g.1.2, hmb, hp, hva, hr 0 g rfl, rfl, g1, rfl, ?_, by rw [← g2]; exact h3⟩
          intro q hq
          rw [← g2] at hq
          obtain ⟨a, b⟩ := hd q hq
          exact ⟨by rw [a], b⟩
        · intro e he
          rcases place_src he with ⟨_, _, _, h⟩ | ⟨_, h⟩ <;> rw [hs] at h <;> cases h
        · intro _ _ _
          exact ⟨r, by simp, hx⟩
        · intro h
          rw [hs] at h
          cases h
      · have := hr (k + 1) g' (by simpa using hk)
        rw [show j + 1 + k = j + (k + 1) by omega]
        exact this

theorem boxesDone_prov {r : Run} (hx : r.extant ≠ []) {full : List Mbox} {fi : Nat} {mbs mbs' : List Mbox} {ms : List Msg} {xs : List MsgWords}
    (h : BoxesDone r.mboxWorld fi mbs mbs' ms xs) : (∀ i : Nat, full[fi + i]? = mbs'[i]?) →
    (∀ mb ∈ mbs, mb.newMsgs ≠ [] → mb.nOldValid ≤ mb.msgs.length) → (∀ mb ∈ mbs, Ready r.mboxWorld mb) →
    Pairs (Prov [r] full) ms xs := by
  induction h with
  | nil => intro _ _ _; exact .nil
  | @cons fi mb mb' mbs mbs' ms ms' xs xs' h1 h2 ih =>
    intro hf hv hr
    refine pairs_append ?_ (ih (fun i => ?_) (fun mb hm => hv mb (by simp [hm])) (fun mb hm => hr mb (by simp [hm])))
    · rcases h1 with ⟨_, _, rfl, rfl⟩ | ⟨hne, p, va, gs, h3, h4, h5, h6, h7, h8⟩
      · exact .nil
      · obtain ⟨p', va', q1, q2, q3⟩ := hr mb (by simp) hne
        rw [h3] at q1
        cases q1
        rw [h4] at q2
        cases q2
        have hle := hv mb (by simp) hne
        refine boxEntries_prov hx (mb := mb') (p := p) (va := va) (by have := hf 0; simpa using this) (by rw [h6]; exact h3) h4 h7 h8
          ?_ (grouped_each h5 q3)
        intro k g hg
        rw [h6]
        simp only
        rw [List.getElem?_append_right (by rw [List.length_take]; omega), List.length_take, Nat.min_eq_left hle, Nat.add_sub_cancel_left,
          List.getElem?_map, hg]
        rfl
    · have := hf (i + 1)
      rw [show fi + 1 + i = fi + (i + 1) by omega, this]
      simp

theorem boxesDone_noPath {w : MboxWorld} {fi : Nat} {mbs mbs' : List Mbox} {ms : List Msg} {xs : List MsgWords} (h : BoxesDone w fi mbs mbs' ms xs) :
    (∀ mb ∈ mbs, mb.path = none) → ms = [] ∧ xs = [] := by
  induction h with
  | nil => intro _; exact ⟨rfl, rfl⟩
  | cons h1 _ ih =>
    intro hp
    obtain ⟨a, b⟩ := ih fun mb hm => hp mb (by simp [hm])
    rcases h1 with ⟨_, _, rfl, rfl⟩ | ⟨_, p, va, gs, h3, _⟩
    · exact ⟨a, b⟩
    · rw [hp _ (by simp)] at h3
      cases h3

theorem boxesDone_get {w : MboxWorld} {fi : Nat} {mbs mbs' : List Mbox} {ms : List Msg} {xs : List MsgWords}
    (h : BoxesDone w fi mbs mbs' ms xs) : ∀ (i : Nat) mb, mbs[i]? = some mb → ∃ mb' ms xs, mbs'[i]? = some mb' ∧
      BoxDone w (fi + i) mb mb' ms xs := by
  induction h with
  | nil => intro i mb h; simp at h
  | @cons fi mb0 mb0' mbs mbs' ms ms' xs xs' h1 h2 ih =>
    intro i mb h
    cases i with
    | zero => simp at h; subst h; exact ⟨mb0', _, _, rfl, h1⟩
    | succ i =>
      simp at h
      obtain ⟨mb', ms, xs, a, b⟩ := ih i mb h
      exact ⟨mb', ms, xs, by simpa using a, by rw [show fi + (i + 1) = fi + 1 + i by omega]; exact b⟩

theorem boxDone_keeps {w : MboxWorld} {fi : Nat} {mb mb' : Mbox} {ms : List Msg} {xs : List MsgWords}
    (h : BoxDone w fi mb mb' ms xs) : mb'.path = mb.path ∧ (∀ i : Nat, i < mb.nOldValid → i < mb.msgs.length →
      mb'.msgs[i]? = mb.msgs[i]?) ∧ ∀ e ∈ mb'.msgs, e ∈ mb.msgs ∨ ∃ s, e.check = w.md5 s := by
  rcases h with ⟨_, rfl, _, _⟩ | ⟨_, _, va, gs, _, _, _, rfl, _, _⟩
  · exact ⟨rfl, fun _ _ _ => rfl, fun e he => .inl he⟩
  · refine ⟨rfl, ?_, ?_⟩
    · intro i h1 h2
      simp only
      rw [List.getElem?_append_left (by rw [List.length_take]; omega), List.getElem?_take, if_pos h1]
    · intro e he
      rcases List.mem_append.1 he with he | he
      · exact .inl (List.mem_of_mem_take he)
      · obtain ⟨g, _, rfl⟩ := List.mem_map.1 he
        exact .inr ⟨_, rfl⟩

theorem boxesDone_mem {w : MboxWorld} {fi : Nat} {mbs mbs' : List Mbox} {ms : List Msg} {xs : List MsgWords}
    (h : BoxesDone w fi mbs mbs' ms xs) {mb' : Mbox} (hm : mb' ∈ mbs') : ∃ mb ∈ mbs, mb'.path = mb.path ∧
      ∀ e ∈ mb'.msgs, e ∈ mb.msgs ∨ ∃ s, e.check = w.md5 s := by
  induction h with
  | nil => cases hm
  | cons h1 h2 ih =>
    rcases List.mem_cons.1 hm with rfl | hm
    · obtain ⟨a, _, b⟩ := boxDone_keeps h1
      exact ⟨_, by simp, a, b⟩
    · obtain ⟨mb, a, b⟩ := ih hm
      exact ⟨mb, by simp [a], b⟩

/-- An mbox of the index, after the list of mboxen was made: dead, or the same with an indication of how many
messages stay. -/
theorem refreshed_married {w : MboxWorld} {extant : List Extant} {mb mb' : Mbox} (h : Refreshed w (married extant mb) mb') :
    mb'.path = none ∨ (mb'.path = mb.path ∧ (∃ e ∈ extant, mb.path = some e.path) ∧
      (mb'.msgs = mb.msgs ∨ mb'.msgs = [] ∧ mb'.nOldValid = 0)) := by
  have hm : (married extant mb).path = none ∨ ((married extant mb).path = mb.path ∧ (∃ e ∈ extant, mb.path = some e.path) ∧
      (married extant mb).msgs = mb.msgs) := by
    unfold married
    split
    · next e he =>
      right
      refine ⟨rfl, ?_, rfl⟩
      cases hp : mb.path with
      | none => rw [hp] at he; cases he
      | some p =>
        rw [hp] at he
        simp only [Option.bind_some] at he
        have h1 := List.find?_some he
        have h2 := List.mem_of_find?_eq_some he
        simp only [decide_eq_true_eq] at h1
        exact ⟨e, h2, by rw [h1]⟩
    · exact .inl rfl
  rcases hm with hm | ⟨h1, h2, h3⟩
  · left
    cases h with
    | dead _ => exact hm
    | same h => rw [h] at hm; cases hm
    | scanned h => rw [h] at hm; cases hm
    | empty h => rw [h] at hm; cases hm
    | failed => rfl
  · cases h with
    | dead h => left; exact h
    | same h => right; exact ⟨h1, h2, .inl h3⟩
    | scanned h => right; exact ⟨h1, h2, .inl h3⟩
    | empty h => right; exact ⟨h1, h2, .inr ⟨rfl, rfl⟩⟩
    | failed => left; rfl

theorem refreshed_newBox {w : MboxWorld} {e : Extant} {mb' : Mbox} (h : Refreshed w (newMbox e) mb') :
    (mb'.path = none ∨ mb'.path = some e.path) ∧ mb'.msgs = [] := by
  cases h with
  | dead h => exact ⟨.inl h, rfl⟩
  | same h => exact ⟨.inr rfl, rfl⟩
  | scanned h => exact ⟨.inr rfl, rfl⟩
  | empty h => exact ⟨.inr rfl, rfl⟩
  | failed => exact ⟨.inl rfl, rfl⟩

/-- The mboxen after `build_mbox_lists`. -/
theorem mboxLists_get {w : MboxWorld} {extant : List Extant} {db db1 : Database} (hs : SortedExtant extant)
    (h : buildMboxLists w extant db = .ok db1) :
    db1.msgs = db.msgs ∧ db.mboxen.length ≤ db1.mboxen.length ∧
    (∀ (fi : Nat) mb1, db1.mboxen[fi]? = some mb1 → mb1.path = none ∨ (∃ e ∈ extant, mb1.path = some e.path) ∧
      ((∃ mb, db.mboxen[fi]? = some mb ∧ mb1.path = mb.path ∧ (mb1.msgs = mb.msgs ∨ mb1.msgs = [] ∧ mb1.nOldValid = 0)) ∨
        db.mboxen.length ≤ fi ∧ mb1.msgs = [])) ∧
    ∀ mb1 ∈ db1.mboxen, ∀ c ∈ mb1.msgs, ∃ mb ∈ db.mboxen, c ∈ mb.msgs := by
  obtain ⟨mbs, rfl, hp⟩ := buildMboxLists_spec hs h
  have hlen := pairs_length hp
  refine ⟨rfl, by simp only [← hlen]; simp, ?_, ?_⟩
  · intro fi mb1 hm
    obtain ⟨mb0, h1, h2⟩ := pairs_get' hp fi mb1 hm
    rcases Nat.lt_or_ge fi db.mboxen.length with hlt | hge
    · rw [List.getElem?_append_left (by simpa using hlt), List.getElem?_map, Option.map_eq_some_iff] at h1
      obtain ⟨mb, h3, rfl⟩ := h1
      rcases refreshed_married h2 with h4 | ⟨h4, ⟨e, h5, h6⟩, h7⟩
      · exact .inl h4
      · exact .inr ⟨⟨e, h5, by rw [h4, h6]⟩, .inl ⟨mb, h3, h4, h7⟩⟩
    · rw [List.getElem?_append_right (by simpa using hge)] at h1
      have h1 := List.mem_of_getElem? h1
      simp only [newBoxes, List.mem_map, List.mem_filter] at h1
      obtain ⟨e, ⟨he, _⟩, rfl⟩ := h1
      obtain ⟨h3, h4⟩ := refreshed_newBox h2
      rcases h3 with h3 | h3
      · exact .inl h3
      · exact .inr ⟨⟨e, he, h3⟩, .inr ⟨hge, h4⟩⟩
  · intro mb1 hm c hc
    obtain ⟨mb0, h1, h2⟩ := pairs_right hp hm
    have hsub : c ∈ mb0.msgs := by
      cases h2 with
      | dead _ => exact hc
      | same _ => exact hc
      | scanned _ => exact hc
      | empty _ => cases hc
      | failed => cases hc
    rcases List.mem_append.1 h1 with h1 | h1
    · obtain ⟨mb, h3, rfl⟩ := List.mem_map.1 h1
      refine ⟨mb, h3, ?_⟩
      unfold married at hsub
      split at hsub
      · exact hsub
      · cases hsub
    · simp only [newBoxes, List.mem_map, List.mem_filter] at h1
      obtain ⟨e, _, rfl⟩ := h1
      cases hsub

end Mairix
