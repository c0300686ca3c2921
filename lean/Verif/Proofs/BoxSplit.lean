import Verif.Spec.BoxWhole
import Verif.Props.Mbox
import Verif.Proofs.RunUpdate

/-! The messages of an mbox from some message on. -/

namespace Mairix
open Spec

theorem splits_end {isFrom : Text → Bool} {va : Text} : Splits isFrom va va.length [] := by
  apply Splits.none
  rintro p hp ⟨_, rest, h, _⟩
  rw [List.drop_eq_nil_of_le hp] at h
  cases h

/-- Behind part `j` come the parts with higher numbers. -/
theorem splits_drop {isFrom : Text → Bool} {va : Text} {base : Nat} {parts : List (Nat × Nat)} (h : Splits isFrom va base parts) :
    ∀ (j : Nat) c, parts[j]? = some c → Splits isFrom va (c.1 + c.2) (parts.drop (j + 1)) := by
  induction h with
  | none _ => intro j c h; simp at h
  | bare _ _ => intro j c h; simp at h
  | @last base p s _ _ h3 _ =>
    intro j c h
    cases j with
    | zero =>
      simp at h
      subst h
      rw [show s + (va.length - s) = va.length by omega]
      exact splits_end
    | succ j => simp at h
  | @more base p s q rest _ _ _ h4 h5 ih =>
    intro j c h
    cases j with
    | zero =>
      simp at h
      subst h
      have := h4.1
      rw [show s + (q - s) = q by omega]
      exact h5
    | succ j => exact ih j c (by simpa using h)

theorem splits_le {isFrom : Text → Bool} {va : Text} {base : Nat} {s l : Nat} {rest : List (Nat × Nat)}
    (h : Splits isFrom va base ((s, l) :: rest)) (j : Nat) {c : Nat × Nat} (hc : ((s, l) :: rest)[j]? = some c) : s ≤ c.1 + c.2 := by
  cases j with
  | zero => simp at hc; subst hc; simp
  | succ j =>
    have := (C29_tiles h).2.1
    rw [List.pairwise_cons] at this
    have := this.1 c (List.mem_of_getElem? (by simpa using hc))
    simp at this
    omega

/-- Behind message `i` come the messages with higher numbers. -/
theorem grouped_drop {w : MboxWorld} {va : Text} {parts : List (Nat × Nat)} {gs : List BoxMsg} (h : Grouped w va parts gs) :
    ∀ base, Splits w.isFrom va base parts → ∀ (i : Nat) g, gs[i]? = some g →
      ∃ parts', Splits w.isFrom va (g.1.1 + g.1.2) parts' ∧ Grouped w va parts' (gs.drop (i + 1)) := by
  induction h with
  | nil => intro base _ i g h; simp at h
  | @joined s l rest j c more h1 h2 h3 h4 h5 ih =>
    intro base hs i g hg
    have h6 := splits_drop hs j c h1
    rw [List.drop_succ_cons] at h6
    cases i with
    | zero =>
      simp at hg
      subst hg
      refine ⟨_, ?_, h5⟩
      have := splits_le hs j h1
      rw [show s + (c.1 + c.2 - s) = c.1 + c.2 by omega]
      exact h6
    | succ i => exact ih _ h6 i g (by simpa using hg)
  | @alone s l rest more h1 h2 ih =>
    intro base hs i g hg
    have h6 := splits_drop hs 0 (s, l) rfl
    cases i with
    | zero =>
      simp at hg
      subst hg
      exact ⟨_, h6, h2⟩
    | succ i => exact ih _ h6 i g (by simpa using hg)

theorem grouped_unique {w : MboxWorld} {va : Text} {parts : List (Nat × Nat)} {gs gs' : List BoxMsg} (h : Grouped w va parts gs)
    (h' : Grouped w va parts gs') : gs = gs' := by
  induction h generalizing gs' with
  | nil => cases h'; rfl
  | @joined s l rest j c more h1 h2 h3 h4 h5 ih =>
    cases h' with
    | @joined _ _ _ j' c' more' g1 g2 g3 g4 g5 =>
      have : j = j' := by
        rcases Nat.lt_trichotomy j j' with hlt | heq | hgt
        · rw [g3 j c hlt h1] at h4; cases h4
        · exact heq
        · rw [h3 j' c' hgt g1] at g4; cases g4
      subst this
      rw [h1] at g1
      cases g1
      rw [ih g5]
    | alone g1 g2 => rw [g1 j c h2 h1] at h4; cases h4
  | @alone s l rest more h1 h2 ih =>
    cases h' with
    | joined g1 g2 g3 g4 g5 => rw [h1 _ _ g2 g1] at g4; cases g4
    | alone g1 g2 => rw [ih g2]

theorem grouped_exists (w : MboxWorld) (va : Text) : ∀ (n : Nat) (parts : List (Nat × Nat)), parts.length ≤ n → ∃ gs, Grouped w va parts gs
  | _, [], _ => ⟨[], .nil⟩
  | 0, _ :: _, h => by simp at h
  | n + 1, (s, l) :: rest, h => by
    simp only [List.length_cons] at h
    by_cases hj : ∃ j, ∃ c, ((s, l) :: rest)[j]? = some c ∧ j < 100 ∧ (w.parse (between va s (c.1 + c.2))).2 = false
    · have hmin : ∃ j, (∃ c, ((s, l) :: rest)[j]? = some c ∧ j < 100 ∧ (w.parse (between va s (c.1 + c.2))).2 = false) ∧
          ∀ i, i < j → ¬ ∃ c, ((s, l) :: rest)[i]? = some c ∧ i < 100 ∧ (w.parse (between va s (c.1 + c.2))).2 = false := by
        obtain ⟨j, hj⟩ := hj
        induction j using Nat.strongRecOn with
        | ind j ih =>
          by_cases hi : ∃ i, i < j ∧ ∃ c, ((s, l) :: rest)[i]? = some c ∧ i < 100 ∧ (w.parse (between va s (c.1 + c.2))).2 = false
          · obtain ⟨i, h1, h2⟩ := hi
            exact ih i h1 h2
          · exact ⟨j, hj, fun i h1 h2 => hi ⟨i, h1, h2⟩⟩
      obtain ⟨j, ⟨c, h1, h2, h3⟩, h4⟩ := hmin
      obtain ⟨more, hm⟩ := grouped_exists w va n (rest.drop j) (by rw [List.length_drop]; omega)
      refine ⟨_, .joined h1 h2 ?_ h3 hm⟩
      intro i c' hi hc'
      cases hp : (w.parse (between va s (c'.1 + c'.2))).2 with
      | true => rfl
      | false => exact absurd ⟨c', hc', by omega, hp⟩ (h4 i hi)
    · obtain ⟨more, hm⟩ := grouped_exists w va n rest (by omega)
      refine ⟨_, .alone ?_ hm⟩
      intro i c' hi hc'
      cases hp : (w.parse (between va s (c'.1 + c'.2))).2 with
      | true => rfl
      | false => exact absurd ⟨i, c', hc', hi, hp⟩ hj

theorem mmdf_iff (va : Text) : isMmdf va = true ↔ Mmdf va := by
  simp [isMmdf, Mmdf, mmdfSep]

/-- Every mbox has its messages, -/
theorem boxMessages_exists (w : MboxWorld) {va : Text} (h : ¬ Mmdf va) : ∃ gs, BoxMessages w va gs := by
  have hm : isMmdf va = false := by
    rw [← mmdf_iff] at h; simpa using h
  obtain ⟨parts, _, h1, _⟩ := C29_split w (newMbox ⟨[], 0, 0⟩) va 0 ((C29_start _ va).1 rfl)
  obtain ⟨gs, hg⟩ := grouped_exists w va _ parts (Nat.le_refl _)
  exact ⟨gs, parts, h1 hm, hg⟩

/-- and only one list of them. -/
theorem boxMessages_unique {w : MboxWorld} {va : Text} {gs gs' : List BoxMsg} (h : BoxMessages w va gs) (h' : BoxMessages w va gs') :
    gs = gs' := by
  obtain ⟨parts, h1, h2⟩ := h
  obtain ⟨parts', h3, h4⟩ := h'
  rw [C29_unique h1 h3] at h2
  exact grouped_unique h2 h4

theorem boxHolds_unique {r : Run} {p : Text} {gs gs' : List BoxMsg} (h : BoxHolds r p gs) (h' : BoxHolds r p gs') : gs = gs' := by
  rcases h with ⟨h1, rfl⟩ | ⟨va, h1, h2⟩
  · rcases h' with ⟨_, rfl⟩ | ⟨va', h3, _⟩
    · rfl
    · rw [h1] at h3; cases h3
  · rcases h' with ⟨h3, _⟩ | ⟨va', h3, h4⟩
    · rw [h1] at h3; cases h3
    · rw [h1] at h3
      cases h3
      exact boxMessages_unique h2 h4

/-- The messages lie inside the file and are what they are parsed to. -/
theorem boxMessages_each {w : MboxWorld} {va : Text} {gs : List BoxMsg} (h : BoxMessages w va gs) :
    ∀ g ∈ gs, g.1.1 + g.1.2 ≤ va.length ∧ g.2 = (w.parse (g.text va)).1 := by
  obtain ⟨parts, h1, h2⟩ := h
  exact grouped_each h2 fun c hc => ((C29_tiles h1).1 c hc).2.1

/-- What is found from the end of message `k` on. -/
theorem boxMessages_rest {w : MboxWorld} {va : Text} {gs : List BoxMsg} (h : BoxMessages w va gs) (hm : ¬ Mmdf va) {mb : Mbox}
    {new : List (Nat × Nat)} (hk : mb.nOldValid ≤ gs.length)
    (hpos : ∀ (i : Nat) g, i < mb.nOldValid → gs[i]? = some g → ∃ e, mb.msgs[i]? = some e ∧ e.pos = some g.1)
    (e : buildNewMessageList w mb va = .ok new) : Grouped w va new (gs.drop mb.nOldValid) := by
  have hm : isMmdf va = false := by
    rw [← mmdf_iff] at hm; simpa using hm
  obtain ⟨parts, h1, h2⟩ := h
  by_cases h0 : mb.nOldValid = 0
  · obtain ⟨l, e', hl, _⟩ := C29_split w mb va 0 ((C29_start _ va).1 h0)
    rw [e] at e'
    cases e'
    rw [C29_unique (hl hm) h1, h0]
    exact h2
  · have hlt : mb.nOldValid - 1 < gs.length := by omega
    obtain ⟨c, hc, hp⟩ := hpos (mb.nOldValid - 1) _ (by omega) (List.getElem?_eq_getElem hlt)
    obtain ⟨parts', h3, h4⟩ := grouped_drop h2 0 h1 _ _ (List.getElem?_eq_getElem hlt)
    have hst := (C29_start mb va).2 c _ _ h0 hc hp
    rw [hm] at hst
    obtain ⟨l, e', hl, _⟩ := C29_split w mb va _ hst
    rw [e] at e'
    cases e'
    have := C29_unique (hl hm) h3
    rw [this, show mb.nOldValid - 1 + 1 = mb.nOldValid by omega] at *
    exact h4

end Mairix
