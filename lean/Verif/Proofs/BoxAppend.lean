import Verif.Proofs.BoxWhole

/-!
# Mboxen to which messages are added
-/

namespace Mairix

open Spec

theorem first_line : ∀ (l v : Text), l = v ++ [0x0a] → ∃ a b, l = a ++ 0x0a :: b ∧ 0x0a ∉ a
  | [], v, h => by simp at h
  | c :: l, v, h => by
    by_cases hc : c = 0x0a
    · exact ⟨[], l, by simp [hc], by simp⟩
    · cases v with
      | nil => simp at h; exact absurd h.1 hc
      | cons d v =>
        simp only [List.cons_append, List.cons.injEq] at h
        obtain ⟨a, b, h1, h2⟩ := first_line l v h.2
        exact ⟨c :: a, b, by simp [h1], by simp [h2, Ne.symm hc]⟩

theorem drop_endsLine {va v : Text} (hv : va = v ++ [0x0a]) {p : Nat} (hp : p < va.length) : ∃ a b, va.drop p = a ++ 0x0a :: b ∧ 0x0a ∉ a := by
  apply first_line _ (v.drop p)
  have : p ≤ v.length := by rw [hv] at hp; simp at hp; omega
  rw [hv, List.drop_append_of_le_length this]

theorem fromLine_before {isFrom : Text → Bool} {va : Text} {base p : Nat} (h : FromLine isFrom va base p) : p < va.length := by
  obtain ⟨_, rest, h, _⟩ := h
  have := congrArg List.length h
  simp only [List.length_drop, List.length_append] at this
  have h5 : (bs "From ").length = 5 := by decide
  omega

theorem fromLine_append {isFrom : Text → Bool} (hb : ByLine isFrom) {va v : Text} (hv : va = v ++ [0x0a]) (more : Text) {base p : Nat}
    (hp : p < va.length) : FromLine isFrom (va ++ more) base p ↔ FromLine isFrom va base p := by
  have hls : LineStart (va ++ more) base p ↔ LineStart va base p := by
    unfold LineStart
    rw [List.getElem?_append_left (by omega)]
  obtain ⟨a, b, h1, h2⟩ := drop_endsLine hv hp
  have h1' : (va ++ more).drop p = a ++ 0x0a :: (b ++ more) := by
    rw [List.drop_append_of_le_length (by omega), h1]; simp
  have key : ∀ b rest, a ++ 0x0a :: b = bs "From " ++ rest ↔ ∃ a', a = bs "From " ++ a' ∧ rest = a' ++ 0x0a :: b := by
    intro b rest
    constructor
    · intro h
      rcases List.append_eq_append_iff.1 h with ⟨x, h3, h4⟩ | ⟨x, h3, h4⟩
      · cases x with
        | nil => exact ⟨[], by simpa using h3.symm, by simpa using h4.symm⟩
        | cons c x =>
          simp only [List.cons_append, List.cons.injEq] at h4
          have : (0x0a : UInt8) ∈ bs "From " := by rw [h3, ← h4.1]; simp
          exact absurd this (by decide)
      · exact ⟨x, h3, h4⟩
    · rintro ⟨a', rfl, rfl⟩; simp
  unfold FromLine
  rw [hls, h1, h1']
  apply and_congr_right
  intro _
  constructor
  · rintro ⟨rest, h3, h4⟩
    obtain ⟨a', rfl, rfl⟩ := (key _ _).1 h3
    refine ⟨a' ++ 0x0a :: b, by simp, ?_⟩
    rw [← h4]
    exact hb _ _ _ (by simp at h2; exact h2.2)
  · rintro ⟨rest, h3, h4⟩
    obtain ⟨a', rfl, rfl⟩ := (key _ _).1 h3
    refine ⟨a' ++ 0x0a :: (b ++ more), by simp, ?_⟩
    rw [← h4]
    exact hb _ _ _ (by simp at h2; exact h2.2)

theorem nextLine_append {va v : Text} (hv : va = v ++ [0x0a]) (more : Text) {p s : Nat} (hp : p < va.length) (h : NextLine va p s) :
    NextLine (va ++ more) p s := by
  obtain ⟨line, rest, h1, h2, h3⟩ := h
  refine ⟨line, rest ++ more, ?_, h2, h3⟩
  rw [List.drop_append_of_le_length (by omega), h1]; simp

/-- From every position on there are messages. -/
theorem splits_exists (isFrom : Text → Bool) (va : Text) : ∀ (n base : Nat), va.length - base < n → ∃ parts, Splits isFrom va base parts
  | 0, _, h => by omega
  | n + 1, base, hn => by
    have first : ∀ b, (∃ p, b ≤ p ∧ FromLine isFrom va b p) → ∃ p, First (FromLine isFrom va b) b p := by
      rintro b ⟨p, hp⟩
      induction p using Nat.strongRecOn with
      | _ p ih =>
        by_cases h : ∃ q, q < p ∧ b ≤ q ∧ FromLine isFrom va b q
        · obtain ⟨q, h1, h2⟩ := h
          exact ih q h1 h2
        · exact ⟨p, hp.1, hp.2, fun q h1 h2 h3 => h ⟨q, h2, h1, h3⟩⟩
    by_cases h : ∃ p, base ≤ p ∧ FromLine isFrom va base p
    · obtain ⟨p, hp⟩ := first base h
      have hpl := fromLine_before hp.2.1
      have hp1 := hp.1
      by_cases hs : ∀ s, NextLine va p s → s = va.length
      · exact ⟨[], .bare hp hs⟩
      · obtain ⟨s, hs⟩ := Classical.not_forall.1 hs
        obtain ⟨hs1, hs2⟩ := Classical.not_imp.1 hs
        have hle : s ≤ va.length ∧ p < s := by
          obtain ⟨line, rest, h1, _, h3⟩ := hs1
          have := congrArg List.length h1
          simp at this
          omega
        have hlt : s < va.length := by omega
        by_cases hq : ∃ q, s ≤ q ∧ FromLine isFrom va s q
        · obtain ⟨q, hq⟩ := first s hq
          have := fromLine_before hq.2.1
          have hq1 := hq.1
          obtain ⟨rest, hr⟩ := splits_exists isFrom va n q (by omega)
          exact ⟨_, .more hp hs1 hlt hq hr⟩
        · exact ⟨_, .last hp hs1 hlt fun q h1 h2 => hq ⟨q, h1, h2⟩⟩
    · exact ⟨[], .none fun p h1 h2 => h ⟨p, h1, h2⟩⟩

theorem splits_append {isFrom : Text → Bool} (hb : ByLine isFrom) {va v : Text} (hv : va = v ++ [0x0a]) {more rest : Text}
    (hmore : more = bs "From " ++ rest) (hfrom : isFrom rest = true) {base : Nat} {parts : List (Nat × Nat)} (h : Splits isFrom va base parts) :
    base ≤ va.length → ∃ parts', Splits isFrom (va ++ more) base parts' ∧ parts <+: parts' := by
  have first : ∀ {b p}, First (FromLine isFrom va b) b p → First (FromLine isFrom (va ++ more) b) b p := by
    rintro b p ⟨h1, h2, h3⟩
    have hp := fromLine_before h2
    exact ⟨h1, (fromLine_append hb hv more hp).2 h2, fun q hq hqp h => h3 q hq hqp ((fromLine_append hb hv more (by omega)).1 h)⟩
  induction h with
  | none _ => intro _; obtain ⟨parts, h⟩ := splits_exists isFrom (va ++ more) _ _ (Nat.lt_succ_self _); exact ⟨parts, h, by simp⟩
  | bare _ _ => intro _; obtain ⟨parts, h⟩ := splits_exists isFrom (va ++ more) _ _ (Nat.lt_succ_self _); exact ⟨parts, h, by simp⟩
  | @last base p s h1 h2 h3 h4 =>
    intro _
    obtain ⟨parts, h⟩ := splits_exists isFrom (va ++ more) _ va.length (Nat.lt_succ_self _)
    refine ⟨_, .more (first h1) (nextLine_append hv more (fromLine_before h1.2.1) h2) (by simp; omega) (q := va.length) ?_ h, by simp⟩
    refine ⟨by omega, ⟨Or.inr ⟨h3, ?_⟩, rest, by simp [hmore], hfrom⟩, ?_⟩
    · rw [List.getElem?_append_left (by omega), hv]
      simp
    · intro q hq hql h
      exact h4 q hq ((fromLine_append hb hv more hql).1 h)
  | @more base p s q rest' h1 h2 h3 h4 _ ih =>
    intro _
    have hq := fromLine_before h4.2.1
    obtain ⟨parts, i1, i2⟩ := ih (by omega)
    exact ⟨_, .more (first h1) (nextLine_append hv more (fromLine_before h1.2.1) h2) (by simp; omega) (first h4) i1,
      by simpa using i2⟩

theorem between_append (va more : Text) {s e : Nat} (h : e ≤ va.length) : between (va ++ more) s e = between va s e := by
  unfold between
  by_cases hs : s ≤ va.length
  · rw [List.drop_append_of_le_length hs, List.take_append_of_le_length (by simp; omega)]
  · have : e - s = 0 := by omega
    simp [this]

theorem grouped_append {w : MboxWorld} {va : Text} (more : Text) {parts : List (Nat × Nat)} {gs : List BoxMsg} (h : Grouped w va parts gs) :
    (∀ c ∈ parts, c.1 + c.2 ≤ va.length) → (∀ g ∈ gs, (w.parse (g.text va)).2 = false) →
    (∀ (i j : Nat) c c', parts[i]? = some c → parts[j]? = some c' → i ≤ j → c.1 ≤ c'.1 + c'.2) →
    ∀ parts', parts <+: parts' → ∃ gs', Grouped w (va ++ more) parts' gs' ∧ gs <+: gs' := by
  induction h with
  | nil =>
    intro _ _ _ parts' _
    obtain ⟨gs', h⟩ := grouped_exists w (va ++ more) _ parts' (Nat.le_refl _)
    exact ⟨gs', h, by simp⟩
  | @joined s l rest j c ms h1 h2 h3 h4 h5 ih =>
    intro hle hc ho parts' ⟨t, ht⟩
    have hmem : ∀ (i : Nat) c', ((s, l) :: rest)[i]? = some c' → c'.1 + c'.2 ≤ va.length := fun i c' hi => hle c' (List.mem_of_getElem? hi)
    have hlt : j < ((s, l) :: rest).length := (List.getElem?_eq_some_iff.1 h1).1
    simp only [List.length_cons] at hlt
    obtain ⟨gs', i1, i2⟩ := ih (fun c hc' => hle c (List.mem_cons_of_mem _ (List.mem_of_mem_drop hc'))) (fun g hg => hc g (List.mem_cons_of_mem _ hg))
      (by
        intro i k c c' hi hk hik
        rw [List.getElem?_drop] at hi hk
        exact ho (j + i + 1) (j + k + 1) c c' (by simpa using hi) (by simpa using hk) (by omega)) ((rest ++ t).drop j) (by
        rw [List.drop_append_of_le_length (by omega)]
        exact List.prefix_append _ _)
    subst ht
    have happ : (s, l) :: rest ++ t = (s, l) :: (rest ++ t) := rfl
    rw [happ]
    refine ⟨((s, c.1 + c.2 - s), (w.parse (between (va ++ more) s (c.1 + c.2))).1) :: gs', ?_, ?_⟩
    · refine .joined (j := j) ?_ h2 ?_ ?_ i1
      · rw [← List.cons_append, List.getElem?_append_left (by simp; omega)]; exact h1
      · intro i c' hi hc'
        rw [← List.cons_append, List.getElem?_append_left (by simp; omega)] at hc'
        rw [between_append _ _ (hmem i c' hc')]
        exact h3 i c' hi hc'
      · rw [between_append _ _ (hmem j c h1)]; exact h4
    · rw [between_append _ _ (hmem j c h1)]
      simpa using i2
  | @alone s l rest ms h1 h2 _ =>
    intro _ hc _ _ _
    have h3 := hc _ List.mem_cons_self
    have h4 := h1 0 (s, l) (by omega) rfl
    simp only [BoxMsg.text] at h3
    rw [h3] at h4
    cases h4

/-- When messages are added at the end of an mbox whose messages are complete, its messages are left alone. -/
theorem edited_append {w : MboxWorld} (hb : ByLine w.isFrom) {va v : Text} (hv : va = v ++ [0x0a]) {more rest : Text}
    (hmore : more = bs "From " ++ rest) (hfrom : w.isFrom rest = true) {gs gs' : List BoxMsg} (h : BoxMessages w va gs)
    (h' : BoxMessages w (va ++ more) gs') (hc : ∀ g ∈ gs, (w.parse (g.text va)).2 = false) : Edited va (va ++ more) gs gs' gs.length := by
  have hle := boxMessages_each h
  obtain ⟨parts, h1, h2⟩ := h
  obtain ⟨parts', h3, h4⟩ := splits_append hb hv hmore hfrom h1 (by omega)
  have ht := C29_tiles h1
  obtain ⟨gs2, h5, h6⟩ := grouped_append more h2 (fun c hc => (ht.1 c hc).2.1) hc (by
    intro i j c c' hi hj hij
    rcases Nat.lt_or_eq_of_le hij with hlt | rfl
    · obtain ⟨hi', rfl⟩ := List.getElem?_eq_some_iff.1 hi
      obtain ⟨hj', rfl⟩ := List.getElem?_eq_some_iff.1 hj
      have := List.pairwise_iff_getElem.1 ht.2.1 i j hi' hj' hlt
      omega
    · rw [hi] at hj; cases hj; omega) parts' h4
  have : gs2 = gs' := boxMessages_unique ⟨parts', h3, h5⟩ h'
  subst this
  obtain ⟨t, rfl⟩ := h6
  refine ⟨Nat.le_refl _, by simp, ?_, by simp, Or.inl rfl⟩
  intro g hg
  rw [List.take_length] at hg
  unfold BoxMsg.text
  rw [between_append _ _ (hle g hg).1]

end Mairix
