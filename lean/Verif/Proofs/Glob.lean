import Verif.Model.Glob
import Verif.Spec.Glob
import Verif.Proofs.Bytes

/-!
# Wildcard patterns: the automaton and the pattern
-/

namespace Mairix
open Spec

/-! ## Patterns as alternating loops and characters -/

/-- The stars in one place: `*` and `**`. -/
abbrev Stars := Bool × Bool

/-- The text is one that the stars can stand for. -/
def InStars (L : Stars) (x : Text) : Prop := L.2 = true ∨ (L.1 = true ∧ 0x2f ∉ x) ∨ x = []

/-- The character is one that the stars can stand for. -/
def StarChar (L : Stars) (c : UInt8) : Prop := L.2 = true ∨ (L.1 = true ∧ c ≠ 0x2f)

/-- A pattern as stars, then characters each followed by stars. -/
abbrev Blocks := List ((UInt8 → Prop) × Stars)

def BMatch (L : Stars) : Blocks → Text → Prop
  | [], s => InStars L s
  | (p, L') :: r, s => ∃ x c y, s = x ++ c :: y ∧ InStars L x ∧ p c ∧ BMatch L' r y

/-- The characters one part of the pattern stands for. -/
def wildHas : Wild → UInt8 → Prop
  | .char c, d => d = c
  | .question, _ => True
  | .cls k, d => k.has d
  | _, _ => False

def blocksOf : List Wild → Stars × Blocks
  | [] => ((false, false), [])
  | .star :: p => ((true, (blocksOf p).1.2), (blocksOf p).2)
  | .twoStars :: p => (((blocksOf p).1.1, true), (blocksOf p).2)
  | .char c :: p => ((false, false), (wildHas (.char c), (blocksOf p).1) :: (blocksOf p).2)
  | .question :: p => ((false, false), (wildHas .question, (blocksOf p).1) :: (blocksOf p).2)
  | .cls k :: p => ((false, false), (wildHas (.cls k), (blocksOf p).1) :: (blocksOf p).2)

theorem InStars.nil (L : Stars) : InStars L [] := .inr (.inr rfl)

theorem inStars_cons {L : Stars} {c : UInt8} {x : Text} : InStars L (c :: x) ↔ StarChar L c ∧ InStars L x := by
  obtain ⟨a, b⟩ := L
  simp only [InStars, StarChar, List.mem_cons, not_or]
  constructor
  · rintro (h | ⟨h, h2, h3⟩ | h)
    · exact ⟨.inl h, .inl h⟩
    · exact ⟨.inr ⟨h, fun e => h2 e.symm⟩, .inr (.inl ⟨h, h3⟩)⟩
    · cases h
  · rintro ⟨h | ⟨h, h2⟩, h3 | ⟨h3, h4⟩ | h3⟩
    · exact .inl h
    · exact .inl h
    · exact .inl h
    · exact .inl h3
    · exact .inr (.inl ⟨h, fun e => h2 e.symm, h4⟩)
    · subst h3; exact .inr (.inl ⟨h, fun e => h2 e.symm, by simp⟩)

theorem bmatch_nil {L : Stars} {bl : Blocks} : BMatch L bl [] ↔ bl = [] := by
  cases bl with
  | nil => simp [BMatch, InStars.nil]
  | cons b r => obtain ⟨p, L'⟩ := b; simp [BMatch]

theorem bmatch_cons {L : Stars} {bl : Blocks} {c : UInt8} {s : Text} :
    BMatch L bl (c :: s) ↔ (StarChar L c ∧ BMatch L bl s) ∨ ∃ p L' r, bl = (p, L') :: r ∧ p c ∧ BMatch L' r s := by
  cases bl with
  | nil => simp [BMatch, inStars_cons]
  | cons b r =>
    obtain ⟨p, L'⟩ := b
    simp only [BMatch]
    constructor
    · rintro ⟨x, d, y, e, hx, hd, hy⟩
      cases x with
      | nil =>
        simp only [List.nil_append, List.cons.injEq] at e
        obtain ⟨rfl, rfl⟩ := e
        exact .inr ⟨p, L', r, rfl, hd, hy⟩
      | cons a x =>
        simp only [List.cons_append, List.cons.injEq] at e
        obtain ⟨rfl, rfl⟩ := e
        obtain ⟨h1, h2⟩ := inStars_cons.1 hx
        exact .inl ⟨h1, x, d, y, rfl, h2, hd, hy⟩
    · rintro (⟨hc, x, d, y, rfl, hx, hd, hy⟩ | ⟨p', L'', r', e, hc, hy⟩)
      · exact ⟨c :: x, d, y, rfl, inStars_cons.2 ⟨hc, hx⟩, hd, hy⟩
      · simp only [List.cons.injEq, Prod.mk.injEq] at e
        obtain ⟨⟨rfl, rfl⟩, rfl⟩ := e
        exact ⟨[], c, s, rfl, InStars.nil L, hc, hy⟩

theorem bmatch_append {L L1 L2 : Stars} {bl : Blocks} (hL : ∀ a b, InStars L1 a → InStars L2 b → InStars L (a ++ b)) {x s : Text}
    (hx : InStars L1 x) (h : BMatch L2 bl s) : BMatch L bl (x ++ s) := by
  cases bl with
  | nil => exact hL x s hx h
  | cons b r =>
    obtain ⟨p, L'⟩ := b
    obtain ⟨a, c, y, rfl, ha, hc, hy⟩ := h
    exact ⟨x ++ a, c, y, by simp, hL x a hx ha, hc, hy⟩

theorem bmatch_split {L L1 L2 : Stars} {bl : Blocks} (hL : ∀ x, InStars L x → ∃ a b, x = a ++ b ∧ InStars L1 a ∧ InStars L2 b) {s : Text}
    (h : BMatch L bl s) : ∃ a b, s = a ++ b ∧ InStars L1 a ∧ BMatch L2 bl b := by
  cases bl with
  | nil => exact hL s h
  | cons b r =>
    obtain ⟨p, L'⟩ := b
    obtain ⟨x, c, y, rfl, hx, hc, hy⟩ := h
    obtain ⟨a, b, rfl, ha, hb⟩ := hL x hx
    exact ⟨a, b ++ c :: y, by simp, ha, b, c, y, rfl, hb, hc, hy⟩

/-- A pattern stands for the texts its blocks stand for. -/
theorem wildMatch_iff (p : List Wild) : ∀ s, WildMatch p s ↔ BMatch (blocksOf p).1 (blocksOf p).2 s := by
  have solid : ∀ (w : Wild) (q : List Wild), (∀ s, WildMatch q s ↔ BMatch (blocksOf q).1 (blocksOf q).2 s) →
      (∀ s, WildMatch (w :: q) s ↔ ∃ c t, s = c :: t ∧ wildHas w c ∧ WildMatch q t) →
      ∀ s, WildMatch (w :: q) s ↔ BMatch (false, false) ((wildHas w, (blocksOf q).1) :: (blocksOf q).2) s := by
    intro w q ih hw s
    rw [hw s]
    simp only [BMatch, ← ih]
    constructor
    · rintro ⟨c, t, rfl, h1, h2⟩
      exact ⟨[], c, t, rfl, InStars.nil _, h1, h2⟩
    · rintro ⟨x, c, y, rfl, hx, h1, h2⟩
      have : x = [] := by simpa [InStars] using hx
      subst this
      exact ⟨c, y, rfl, h1, h2⟩
  induction p with
  | nil =>
    intro s
    simp only [blocksOf, BMatch, InStars]
    constructor
    · intro h; cases h; simp
    · intro h; have : s = [] := by simpa using h
      subst this; exact .nil
  | cons w q ih =>
    cases w with
    | star =>
      intro s
      simp only [blocksOf]
      constructor
      · intro h
        cases h with
        | star hx hq =>
          refine bmatch_append (L1 := (true, false)) (L2 := (blocksOf q).1) ?_ ?_ ((ih _).1 hq)
          · intro a b ha hb
            simp only [InStars, Bool.false_eq_true, true_and, false_or] at ha
            rcases hb with hb | ⟨hb1, hb2⟩ | rfl
            · exact .inl hb
            · refine .inr (.inl ⟨rfl, ?_⟩)
              rcases ha with ha | rfl
              · simp [ha, hb2]
              · simpa using hb2
            · refine .inr (.inl ⟨rfl, ?_⟩)
              rcases ha with ha | rfl <;> simp_all
          · exact .inr (.inl ⟨rfl, hx⟩)
      · intro h
        obtain ⟨a, b, rfl, ha, hb⟩ := bmatch_split (L1 := (true, false)) (L2 := (blocksOf q).1) (by
          intro x hx
          rcases hx with hx | ⟨_, hx⟩ | rfl
          · exact ⟨[], x, rfl, InStars.nil _, .inl hx⟩
          · exact ⟨x, [], by simp, .inr (.inl ⟨rfl, hx⟩), InStars.nil _⟩
          · exact ⟨[], [], rfl, InStars.nil _, InStars.nil _⟩) h
        refine .star ?_ ((ih _).2 hb)
        simp only [InStars, Bool.false_eq_true, true_and, false_or] at ha
        rcases ha with ha | rfl <;> simp_all
    | twoStars =>
      intro s
      simp only [blocksOf]
      constructor
      · intro h
        cases h with
        | twoStars hq =>
          exact bmatch_append (L1 := (true, true)) (L2 := (blocksOf q).1) (fun a b _ _ => .inl rfl) (.inl rfl) ((ih _).1 hq)
      · intro h
        obtain ⟨a, b, rfl, ha, hb⟩ := bmatch_split (L1 := (true, true)) (L2 := (blocksOf q).1) (by
          intro x _
          exact ⟨x, [], by simp, .inl rfl, InStars.nil _⟩) h
        exact .twoStars ((ih _).2 hb)
    | char c =>
      refine solid (.char c) q ih ?_
      intro s
      constructor
      · intro h; cases h with | char h => exact ⟨c, _, rfl, rfl, h⟩
      · rintro ⟨d, t, rfl, h1, h2⟩; cases h1; exact .char h2
    | question =>
      refine solid .question q ih ?_
      intro s
      constructor
      · intro h; cases h with | question h => exact ⟨_, _, rfl, trivial, h⟩
      · rintro ⟨d, t, rfl, h1, h2⟩; exact .question h2
    | cls k =>
      refine solid (.cls k) q ih ?_
      intro s
      constructor
      · intro h; cases h with | cls hk h => exact ⟨_, _, rfl, hk, h⟩
      · rintro ⟨d, t, rfl, h1, h2⟩; exact .cls h1 h2

/-! ## The automaton -/

/-- What is left of the pattern after `j` characters. -/
def suffix : Nat → Stars → Blocks → Option (Stars × Blocks)
  | 0, L, bl => some (L, bl)
  | j + 1, _, (_, L') :: r => suffix j L' r
  | _ + 1, _, [] => none

/-- The masks of the globber are those of the pattern. -/
def GlobFits (g : Globber) (L : Stars) (bl : Blocks) : Prop :=
  bl.length ≤ 31 ∧ ∀ j, j < 32 → ∀ r, suffix j L bl = r →
    (∀ L' r', r = some (L', r') → g.starpat.getLsbD j = L'.1 ∧ g.twostarpat.getLsbD j = L'.2 ∧ g.hit.getLsbD j = r'.isEmpty ∧
      (r' = [] → ∀ c, (g.pat c).getLsbD j = false) ∧ ∀ p M r'', r' = (p, M) :: r'' → ∀ c, (g.pat c).getLsbD j = true ↔ p c) ∧
    (r = none → g.hit.getLsbD j = false ∧ g.starpat.getLsbD j = false ∧ g.twostarpat.getLsbD j = false ∧ ∀ c, (g.pat c).getLsbD j = false)

theorem suffix_length : ∀ (j : Nat) (L : Stars) (bl : Blocks) {L' r}, suffix j L bl = some (L', r) → bl.length = j + r.length
  | 0, L, bl, L', r, h => by simp [suffix] at h; simp [h.2]
  | j + 1, L, (p, M) :: q, L', r, h => by
    have := suffix_length j M q h
    simp only [List.length_cons]; omega
  | j + 1, L, [], L', r, h => by simp [suffix] at h

theorem suffix_succ : ∀ (j : Nat) (L : Stars) (bl : Blocks) {L' p M r}, suffix j L bl = some (L', (p, M) :: r) → suffix (j + 1) L bl = some (M, r)
  | 0, L, bl, L', p, M, r, h => by simp [suffix] at h; simp [h.2, suffix]
  | j + 1, L, (q, N) :: t, L', p, M, r, h => suffix_succ j N t h
  | j + 1, L, [], L', p, M, r, h => by simp [suffix] at h

theorem globRun_iff (g : Globber) (L : Stars) (bl : Blocks) (hf : GlobFits g L bl) : ∀ (s : Text) (reg : BitVec 32),
    (globRun g reg s &&& g.hit ≠ 0#32) ↔ ∃ j L' r, j < 32 ∧ reg.getLsbD j = true ∧ suffix j L bl = some (L', r) ∧ BMatch L' r s := by
  intro s
  have nz : ∀ (x : BitVec 32), x ≠ 0#32 ↔ ∃ j, j < 32 ∧ x.getLsbD j = true := by
    intro x
    constructor
    · intro h
      apply Classical.byContradiction
      intro hc
      apply h
      apply BitVec.eq_of_getLsbD_eq
      intro i hi
      simp only [BitVec.getLsbD_zero]
      cases hx : x.getLsbD i with
      | false => rfl
      | true => exact absurd ⟨i, hi, hx⟩ hc
    · rintro ⟨j, _, hj⟩ rfl
      simp at hj
  induction s with
  | nil =>
    intro reg
    simp only [globRun]
    rw [nz]
    simp only [BitVec.getLsbD_and, Bool.and_eq_true]
    constructor
    · rintro ⟨j, hj, h1, h2⟩
      obtain ⟨a, b⟩ := hf.2 j hj _ rfl
      cases hs : suffix j L bl with
      | none => rw [(b hs).1] at h2; cases h2
      | some q =>
        obtain ⟨L', r⟩ := q
        have := (a L' r hs).2.2.1
        rw [h2] at this
        have : r = [] := by simpa using this.symm
        exact ⟨j, L', r, hj, h1, hs, bmatch_nil.2 this⟩
    · rintro ⟨j, L', r, hj, h1, h2, h3⟩
      obtain ⟨a, b⟩ := hf.2 j hj _ rfl
      have := (a L' r h2).2.2.1
      rw [bmatch_nil.1 h3] at this
      exact ⟨j, hj, h1, by simpa using this⟩
  | cons c s ih =>
    intro reg
    simp only [globRun]
    rw [ih]
    have key : ∀ j, j < 32 → ((reg &&& g.pat c) <<< 1 ||| (if c ≠ 0x2f then reg &&& g.starpat ||| reg &&& g.twostarpat else reg &&& g.twostarpat)).getLsbD j =
        ((decide (0 < j) && (reg.getLsbD (j - 1) && (g.pat c).getLsbD (j - 1))) ||
         (reg.getLsbD j && ((g.starpat.getLsbD j && decide (c ≠ 0x2f)) || g.twostarpat.getLsbD j))) := by
      intro j hj
      by_cases hc : c = 0x2f
      · rw [if_neg (by simpa using hc)]
        simp [BitVec.getLsbD_or, BitVec.getLsbD_shiftLeft, hj, hc]
        grind
      · rw [if_pos hc]
        simp [BitVec.getLsbD_or, BitVec.getLsbD_shiftLeft, hj, hc]
        grind
    constructor
    · rintro ⟨j, L', r, hj, h1, h2, h3⟩
      rw [key j hj, Bool.or_eq_true] at h1
      rcases h1 with h1 | h1
      · simp only [Bool.and_eq_true, decide_eq_true_eq] at h1
        obtain ⟨k, rfl⟩ : ∃ k, j = k + 1 := ⟨j - 1, by omega⟩
        simp only [Nat.add_sub_cancel] at h1
        obtain ⟨a, b⟩ := hf.2 k (by omega) _ rfl
        cases hs : suffix k L bl with
        | none => have := (b hs).2.2.2 c; rw [h1.2.2] at this; cases this
        | some q =>
          obtain ⟨M, t⟩ := q
          obtain ⟨_, _, _, e1, e2⟩ := a M t hs
          cases t with
          | nil => have := e1 rfl c; rw [h1.2.2] at this; cases this
          | cons pb t =>
            obtain ⟨p, N⟩ := pb
            have := suffix_succ k L bl hs
            rw [h2] at this
            cases this
            exact ⟨k, M, _, by omega, h1.2.1, hs, bmatch_cons.2 (.inr ⟨p, L', r, rfl, (e2 p L' r rfl c).1 h1.2.2, h3⟩)⟩
      · simp only [Bool.and_eq_true, Bool.or_eq_true, decide_eq_true_eq] at h1
        obtain ⟨a, b⟩ := hf.2 j hj _ rfl
        obtain ⟨e1, e2, _⟩ := a L' r h2
        refine ⟨j, L', r, hj, h1.1, h2, bmatch_cons.2 (.inl ⟨?_, h3⟩)⟩
        rcases h1.2 with h | h
        · exact .inr ⟨e1 ▸ h.1, h.2⟩
        · exact .inl (e2 ▸ h)
    · rintro ⟨j, L', r, hj, h1, h2, h3⟩
      obtain ⟨a, b⟩ := hf.2 j hj _ rfl
      obtain ⟨e1, e2, _, _, e3⟩ := a L' r h2
      rcases bmatch_cons.1 h3 with ⟨h4, h5⟩ | ⟨p, M, t, rfl, h4, h5⟩
      · refine ⟨j, L', r, hj, ?_, h2, h5⟩
        rw [key j hj, h1]
        rcases h4 with h4 | ⟨h4, h6⟩
        · rw [e2, h4]; simp
        · rw [e1, h4]; simp [h6]
      · have hl := suffix_length j L bl h2
        simp only [List.length_cons] at hl
        have := hf.1
        refine ⟨j + 1, M, t, by omega, ?_, suffix_succ j L bl h2, h5⟩
        rw [key (j + 1) (by omega)]
        simp [h1, (e3 p M t rfl c).2 h4]

theorem isGlobMatch_iff {g : Globber} {p : List Wild} (hf : GlobFits g (blocksOf p).1 (blocksOf p).2) (s : Text) :
    isGlobMatch g s = true ↔ WildMatch p s := by
  have h := globRun_iff g _ _ hf s 1#32
  rw [wildMatch_iff]
  simp only [isGlobMatch, bne_iff_ne]
  rw [h]
  constructor
  · rintro ⟨j, L', r, hj, h1, h2, h3⟩
    have : j = 0 := by
      have : (1#32).getLsbD j = decide (j = 0) := by
        revert hj; revert j
        intro j h1 h2 hj
        simp [BitVec.getLsbD_one]
      rw [this] at h1
      simpa using h1
    subst this
    simp only [suffix, Option.some.injEq, Prod.mk.injEq] at h2
    rw [h2.1, h2.2]
    exact h3
  · intro h
    exact ⟨0, _, _, by omega, by decide, rfl, h⟩

/-! ## Reading the pattern -/

/-- `g'` is `g` with the bits of `mask` set for the characters in `P`. -/
def Added (g g' : Globber) (mask : BitVec 32) (P : UInt8 → Prop) : Prop :=
  (∀ c, (P c → g'.pat c = g.pat c ||| mask) ∧ (¬ P c → g'.pat c = g.pat c)) ∧ g'.starpat = g.starpat ∧ g'.twostarpat = g.twostarpat

theorem Added.add (g : Globber) (mask : BitVec 32) (p : UInt8 → Bool) : Added g (g.add mask p) mask (fun c => p c = true) := by
  refine ⟨fun c => ⟨fun h => ?_, fun h => ?_⟩, rfl, rfl⟩
  · simp [Globber.add, h]
  · simp [Globber.add, h]

theorem Added.trans {g g1 g2 : Globber} {mask : BitVec 32} {P Q R : UInt8 → Prop} (h1 : Added g g1 mask P) (h2 : Added g1 g2 mask Q)
    (hR : ∀ c, R c ↔ P c ∨ Q c) : Added g g2 mask R := by
  obtain ⟨a1, b1, c1⟩ := h1
  obtain ⟨a2, b2, c2⟩ := h2
  refine ⟨fun c => ⟨fun h => ?_, fun h => ?_⟩, b2.trans b1, c2.trans c1⟩
  · by_cases hq : Q c
    · rw [(a2 c).1 hq]
      by_cases hp : P c
      · rw [(a1 c).1 hp, BitVec.or_assoc, BitVec.or_self]
      · rw [(a1 c).2 hp]
    · rw [(a2 c).2 hq]
      rcases (hR c).1 h with h | h
      · exact (a1 c).1 h
      · exact absurd h hq
  · rw [hR, not_or] at h
    rw [(a2 c).2 h.2, (a1 c).2 h.1]

theorem Added.refl (g : Globber) (mask : BitVec 32) : Added g g mask (fun _ => False) :=
  ⟨fun _ => ⟨False.elim, fun _ => rfl⟩, rfl, rfl⟩

theorem charClass_lit {mask : BitVec 32} {first : Bool} {prev : Int} {g : Globber} {c : UInt8} {rest : Text} (h1 : c ≠ 0x5d) (h2 : c ≠ 0x2d) :
    charClass mask first prev g (c :: rest) = charClass mask false (signedChar c) (g.add mask (· == c)) rest := by
  rw [charClass.eq_def]
  simp only [h1, h2, if_false]

theorem signedChar_small {c : UInt8} (h : c < 0x80) : signedChar c = c.toNat := by
  have : c.toNat < 128 := h
  simp [signedChar, this]

theorem charClass_items {mask : BitVec 32} (rest : Text) : ∀ (items : List ClassItem), (∀ i ∈ items, i.ok) → ∀ (first : Bool) (prev : Int) (g : Globber),
    ∃ prev' g', charClass mask first prev g (items.flatMap ClassItem.text ++ rest) =
        charClass mask (first && items.isEmpty) prev' g' rest ∧ (items = [] → prev' = prev) ∧ Added g g' mask (fun c => ∃ i ∈ items, i.has c)
  | [], _, first, prev, g => ⟨prev, g, by simp, fun _ => rfl, by simpa using Added.refl g mask⟩
  | .one c :: items, h, first, prev, g => by
    obtain ⟨h1, h2⟩ := h _ (List.mem_cons_self ..)
    obtain ⟨prev', g', e, _, ha⟩ := charClass_items rest items (fun i hi => h i (List.mem_cons_of_mem _ hi)) false (signedChar c) (g.add mask (· == c))
    refine ⟨prev', g', ?_, by simp, (Added.add g mask (· == c)).trans ha ?_⟩
    · simp only [List.flatMap_cons, ClassItem.text, List.cons_append, List.nil_append]
      rw [charClass_lit h1 h2, e]
      simp
    · intro d; simp [ClassItem.has]
  | .range a b :: items, h, first, prev, g => by
    obtain ⟨h1, h2, h3, h4, h5, h6⟩ := h _ (List.mem_cons_self ..)
    let lo := if signedChar a < signedChar b then signedChar a else signedChar b
    let hi := if signedChar a < signedChar b then signedChar b else signedChar a
    let g2 := (g.add mask (· == a)).add mask fun c => decide (lo ≤ signedChar c) && decide (signedChar c ≤ hi)
    obtain ⟨prev', g', e, _, ha⟩ := charClass_items rest items (fun i hi => h i (List.mem_cons_of_mem _ hi)) false (signedChar b) g2
    refine ⟨prev', g', ?_, by simp, ?_⟩
    · simp only [List.flatMap_cons, ClassItem.text, List.cons_append, List.nil_append]
      rw [charClass_lit h1 h2, charClass.eq_def]
      have hp : ¬ (signedChar a < 0 ∨ b = 0x5d) := by
        rw [signedChar_small h5]
        intro hc
        rcases hc with hc | hc
        · omega
        · exact h3 hc
      simp only [show (0x2d : UInt8) ≠ 0x5d by decide, if_false, if_true, if_neg hp]
      refine Eq.trans e ?_
      simp
    · have s1 := (Added.add g mask (· == a)).trans (Added.add (g.add mask (· == a)) mask fun c => decide (lo ≤ signedChar c) && decide (signedChar c ≤ hi)) (fun c => Iff.rfl)
      refine s1.trans ha ?_
      intro d
      simp only [List.mem_cons, exists_eq_or_imp, ClassItem.has]
      refine or_congr ?_ Iff.rfl
      simp only [beq_iff_eq, Bool.and_eq_true, decide_eq_true_eq, lo, hi]
      rw [signedChar_small h5, signedChar_small h6]
      have ea : ∀ {x y : UInt8}, x ≤ y ↔ x.toNat ≤ y.toNat := UInt8.le_iff_toNat_le
      have eb : d = a ↔ d.toNat = a.toNat := ⟨fun h => by rw [h], fun h => UInt8.toNat_inj.1 h⟩
      have ha' : a.toNat < 128 := h5
      have hb' : b.toNat < 128 := h6
      have hd := d.toNat_lt
      rw [ea, ea, ea, ea, eb]
      simp only [signedChar]
      split <;> split <;> omega

theorem charClass_text {mask : BitVec 32} {k : CharClass} (hok : Wild.ok (.cls k)) (g : Globber) (rest : Text) :
    ∃ g', charClass mask true (-1) g (k.text.drop 1 ++ rest) = (g', some rest) ∧ Added g g' mask k.has := by
  obtain ⟨hi, hne⟩ := hok
  have hend : ∀ (prev : Int) (g : Globber), charClass mask false prev g (0x5d :: rest) = (g, some rest) := by
    intro prev g; rw [charClass.eq_def]; simp
  have hhyp : ∀ (first : Bool) (prev : Int) (g : Globber), charClass mask first prev g (0x2d :: 0x5d :: rest) = (g.add mask (· == 0x2d), some rest) := by
    intro first prev g; rw [charClass.eq_def]
    simp only [show (0x2d : UInt8) ≠ 0x5d by decide, if_false, if_true, or_true]
    exact hend _ _
  have ht : k.text.drop 1 ++ rest = (if k.bracket then [0x5d] else []) ++ (k.items.flatMap ClassItem.text ++ ((if k.hyphen then [0x2d] else []) ++ 0x5d :: rest)) := by
    simp [CharClass.text, bs]
  rw [ht]
  have tail : ∀ (first : Bool) (prev : Int) (g : Globber), (first = true → k.items ≠ [] ∨ k.hyphen = true) →
      ∃ g', charClass mask first prev g (k.items.flatMap ClassItem.text ++ ((if k.hyphen then [0x2d] else []) ++ 0x5d :: rest)) = (g', some rest) ∧
        Added g g' mask (fun c => (∃ i ∈ k.items, i.has c) ∨ (k.hyphen = true ∧ c = 0x2d)) := by
    intro first prev g hf
    obtain ⟨prev', g', e, _, ha⟩ := charClass_items (mask := mask) ((if k.hyphen then [0x2d] else []) ++ 0x5d :: rest) k.items hi first prev g
    rw [e]
    cases hh : k.hyphen with
    | true =>
      refine ⟨g'.add mask (· == 0x2d), ?_, ha.trans (Added.add g' mask (· == 0x2d)) ?_⟩
      · simp only [if_true, List.cons_append, List.nil_append]; exact hhyp _ _ _
      · intro c; simp
    | false =>
      refine ⟨g', ?_, ?_⟩
      · have : (first && k.items.isEmpty) = false := by
          cases first with
          | false => rfl
          | true =>
            rcases hf rfl with h | h
            · simp [h]
            · rw [hh] at h; cases h
        rw [this]
        simp only [Bool.false_eq_true, if_false, List.nil_append]
        exact hend _ _
      · simpa using ha
  cases hb : k.bracket with
  | true =>
    obtain ⟨g', e, ha⟩ := tail false (signedChar 0x5d) (g.add mask (· == 0x5d)) (by simp)
    refine ⟨g', ?_, (Added.add g mask (· == 0x5d)).trans ha ?_⟩
    · simp only [if_true, List.cons_append, List.nil_append]
      rw [charClass.eq_def]
      simp only [if_true]
      exact e
    · intro c; simp [CharClass.has, hb]
  | false =>
    obtain ⟨g', e, ha⟩ := tail true (-1) g (by
      intro _
      rw [hb] at hne
      simpa using hne)
    refine ⟨g', ?_, ?_⟩
    · simpa using e
    · have : k.has = fun c => (∃ i ∈ k.items, i.has c) ∨ (k.hyphen = true ∧ c = 0x2d) := by
        funext c; simp [CharClass.has, hb]
      rw [this]; exact ha

/-! ## Making the globber -/

/-- No bits are set yet from position `n` on, but for the stars at `n`. -/
def Fresh (g : Globber) (n : Nat) : Prop :=
  (∀ j, n ≤ j → ∀ c, (g.pat c).getLsbD j = false) ∧ ∀ j, n < j → g.starpat.getLsbD j = false ∧ g.twostarpat.getLsbD j = false

/-- The masks of the globber `g'` from `n` on are those of the pattern, together with the stars that `g` had at `n`, and those below are
those of `g`. -/
def Built (g g' : Globber) (n : Nat) (L : Stars) (bl : Blocks) : Prop :=
  (∀ j, j < n → g'.starpat.getLsbD j = g.starpat.getLsbD j ∧ g'.twostarpat.getLsbD j = g.twostarpat.getLsbD j ∧
    ∀ c, (g'.pat c).getLsbD j = (g.pat c).getLsbD j) ∧
  ∀ j,
    (∀ L' r', suffix j L bl = some (L', r') →
      g'.starpat.getLsbD (n + j) = (L'.1 || (decide (j = 0) && g.starpat.getLsbD n)) ∧
      g'.twostarpat.getLsbD (n + j) = (L'.2 || (decide (j = 0) && g.twostarpat.getLsbD n)) ∧
      (r' = [] → ∀ c, (g'.pat c).getLsbD (n + j) = false) ∧ ∀ p M r'', r' = (p, M) :: r'' → ∀ c, (g'.pat c).getLsbD (n + j) = true ↔ p c) ∧
    (suffix j L bl = none → g'.starpat.getLsbD (n + j) = false ∧ g'.twostarpat.getLsbD (n + j) = false ∧ ∀ c, (g'.pat c).getLsbD (n + j) = false)

theorem mask_bit {n : Nat} (hn : n < 32) (j : Nat) : (1#32 <<< n).getLsbD j = decide (j = n) := by
  simp only [BitVec.getLsbD_shiftLeft, BitVec.getLsbD_one]
  by_cases h1 : j < n
  · simp [h1]; omega
  · by_cases h2 : j = n
    · simp [h2, hn]
    · have : ¬ (j - n = 0) := by omega
      simp [h2, this]

/-- The common step for a part that is not a star. -/
theorem built_solid {g g1 g2 : Globber} {n : Nat} {P : UInt8 → Prop} {L : Stars} {bl : Blocks} (hn : n < 32) (hf : Fresh g n)
    (ha : Added g g1 (1#32 <<< n) P) (hb : Fresh g1 (n + 1) → Built g1 g2 (n + 1) L bl) : Built g g2 n (false, false) ((P, L) :: bl) := by
  obtain ⟨a, b, c⟩ := ha
  have hp : ∀ j d, (g1.pat d).getLsbD j = true ↔ (g.pat d).getLsbD j = true ∨ (P d ∧ j = n) := by
    intro j d
    by_cases h : P d
    · rw [(a d).1 h, BitVec.getLsbD_or, mask_bit hn]; simp [h]
    · rw [(a d).2 h]; simp [h]
  have hpf : ∀ j d, j ≠ n → (g1.pat d).getLsbD j = (g.pat d).getLsbD j := by
    intro j d hj
    by_cases h : P d
    · rw [(a d).1 h, BitVec.getLsbD_or, mask_bit hn]; simp [hj]
    · rw [(a d).2 h]
  have hfr : Fresh g1 (n + 1) := by
    refine ⟨fun j hj d => ?_, fun j hj => ?_⟩
    · rw [hpf j d (by omega)]; exact hf.1 j (by omega) d
    · rw [b, c]; exact hf.2 j (by omega)
  obtain ⟨b1, b2⟩ := hb hfr
  refine ⟨fun j hj => ?_, fun j => ?_⟩
  · obtain ⟨x, y, z⟩ := b1 j (by omega)
    refine ⟨by rw [x, b], by rw [y, c], fun d => ?_⟩
    rw [z d, hpf j d (by omega)]
  · cases j with
    | zero =>
      refine ⟨fun L' r' h => ?_, fun h => ?_⟩
      · simp only [suffix, Option.some.injEq, Prod.mk.injEq] at h
        obtain ⟨rfl, rfl⟩ := h
        obtain ⟨x, y, z⟩ := b1 n (by omega)
        refine ⟨by rw [Nat.add_zero, x, b]; simp, by rw [Nat.add_zero, y, c]; simp, by simp, ?_⟩
        intro p M r'' e d
        simp only [List.cons.injEq, Prod.mk.injEq] at e
        obtain ⟨⟨rfl, _⟩, _⟩ := e
        rw [Nat.add_zero, z d, hp n d, hf.1 n (Nat.le_refl _) d]
        simp
      · simp [suffix] at h
    | succ j =>
      obtain ⟨x, y⟩ := b2 j
      have e : n + (j + 1) = n + 1 + j := by omega
      rw [e]
      have z := hf.2 (n + 1) (by omega)
      refine ⟨fun L' r' h => ?_, fun h => ?_⟩
      · obtain ⟨x1, x2, x3, x4⟩ := x L' r' h
        refine ⟨?_, ?_, x3, x4⟩
        · rw [x1, b, z.1]; simp
        · rw [x2, c, z.2]; simp
      · exact y h

/-- The number of characters of a pattern. -/
theorem blocks_length (p : List Wild) : (blocksOf p).2.length = solid p := by
  induction p with
  | nil => rfl
  | cons w p ih => cases w <;> simp [blocksOf, solid, ih]

theorem wildOk_tail {w : Wild} {p : List Wild} (h : WildOk (w :: p)) : w.ok ∧ WildOk p := by
  cases w <;> cases p <;> try exact h
  rename_i v p
  cases v <;> first | exact h | exact h.elim

theorem wildText_head {p : List Wild} (hp : ∀ q, p ≠ .star :: q ∧ p ≠ .twoStars :: q) (ho : WildOk p) : (wildText p).head? ≠ some 0x2a := by
  cases p with
  | nil => simp [wildText]
  | cons w p =>
    obtain ⟨h, _⟩ := wildOk_tail ho
    cases w with
    | char c => simpa [wildText, Wild.text] using h.1
    | question => simp [wildText, Wild.text, bs]
    | cls k => simp [wildText, Wild.text, CharClass.text, bs]
    | star => exact absurd rfl (hp p).1
    | twoStars => exact absurd rfl (hp p).2

theorem globLoop_ok : ∀ (p : List Wild), WildOk p → ∀ (n fuel : Nat) (g : Globber), n + solid p ≤ 31 → (wildText p).length < fuel → Fresh g n →
    ∃ g', globLoop fuel n g (wildText p) = .ok (n + solid p, g') ∧ Built g g' n (blocksOf p).1 (blocksOf p).2
  | [], _, n, fuel + 1, g, _, _, hf => by
    refine ⟨g, rfl, fun j _ => ⟨rfl, rfl, fun _ => rfl⟩, fun j => ?_⟩
    cases j with
    | zero =>
      refine ⟨fun L' r' h => ?_, fun h => by simp [suffix] at h⟩
      simp only [blocksOf, suffix, Option.some.injEq, Prod.mk.injEq] at h
      obtain ⟨rfl, rfl⟩ := h
      exact ⟨by simp, by simp, fun _ c => hf.1 _ (by omega) c, by simp⟩
    | succ j =>
      refine ⟨fun L' r' h => by simp [blocksOf, suffix] at h, fun _ => ?_⟩
      exact ⟨(hf.2 _ (by omega)).1, (hf.2 _ (by omega)).2, fun c => hf.1 _ (by omega) c⟩
  | w :: p, ho, n, 0, g, _, hl, _ => by omega
  | .char c :: p, ho, n, fuel + 1, g, hn, hl, hf => by
    obtain ⟨hw, ho'⟩ := wildOk_tail ho
    simp only [solid] at hn
    obtain ⟨g', e, hb⟩ : ∃ g', globLoop fuel (n + 1) (g.add (1#32 <<< n) (· == c)) (wildText p) = .ok (n + 1 + solid p, g') ∧
        (Fresh (g.add (1#32 <<< n) (· == c)) (n + 1) → Built (g.add (1#32 <<< n) (· == c)) g' (n + 1) (blocksOf p).1 (blocksOf p).2) := by
      have hfr : Fresh (g.add (1#32 <<< n) (· == c)) (n + 1) := by
        have ha := Added.add g (1#32 <<< n) (· == c)
        refine ⟨fun j hj d => ?_, fun j hj => hf.2 j (by omega)⟩
        by_cases h : (d == c) = true
        · rw [(ha.1 d).1 h, BitVec.getLsbD_or, mask_bit (by omega), hf.1 j (by omega)]; simp; omega
        · rw [(ha.1 d).2 h, hf.1 j (by omega)]
      obtain ⟨g', e, hb⟩ := globLoop_ok p ho' (n + 1) fuel (g.add (1#32 <<< n) (· == c)) (by omega)
        (by simp [wildText, Wild.text] at hl ⊢; omega) hfr
      exact ⟨g', e, fun _ => hb⟩
    refine ⟨g', ?_, ?_⟩
    · have : wildText (.char c :: p) = c :: wildText p := rfl
      rw [this, globLoop]
      simp only [bitMask, show n < 32 by omega, if_true, bind, Except.bind]
      rw [if_neg hw.1, if_neg hw.2.2, if_neg hw.2.1, e]
      simp only [solid]; congr 2; omega
    · have ha := Added.add g (1#32 <<< n) (· == c)
      have hP : (fun d => (d == c) = true) = wildHas (.char c) := by funext d; simp [wildHas]
      rw [hP] at ha
      exact built_solid (by omega) hf ha hb
  | .question :: p, ho, n, fuel + 1, g, hn, hl, hf => by
    obtain ⟨hw, ho'⟩ := wildOk_tail ho
    simp only [solid] at hn
    have ha := Added.add g (1#32 <<< n) (fun _ => true)
    obtain ⟨g', e, hb⟩ : ∃ g', globLoop fuel (n + 1) (g.add (1#32 <<< n) (fun _ => true)) (wildText p) = .ok (n + 1 + solid p, g') ∧
        (Fresh (g.add (1#32 <<< n) (fun _ => true)) (n + 1) → Built (g.add (1#32 <<< n) (fun _ => true)) g' (n + 1) (blocksOf p).1 (blocksOf p).2) := by
      have hfr : Fresh (g.add (1#32 <<< n) (fun _ => true)) (n + 1) := by
        refine ⟨fun j hj d => ?_, fun j hj => hf.2 j (by omega)⟩
        rw [(ha.1 d).1 rfl, BitVec.getLsbD_or, mask_bit (by omega), hf.1 j (by omega)]; simp; omega
      obtain ⟨g', e, hb⟩ := globLoop_ok p ho' (n + 1) fuel _ (by omega)
        (by simp [wildText, Wild.text, bs] at hl ⊢; omega) hfr
      exact ⟨g', e, fun _ => hb⟩
    refine ⟨g', ?_, ?_⟩
    · have : wildText (.question :: p) = 0x3f :: wildText p := rfl
      rw [this, globLoop]
      simp only [bitMask, show n < 32 by omega, if_true, bind, Except.bind]
      rw [if_neg (by decide), if_neg (by decide), e]
      simp only [solid]; congr 2; omega
    · have hP : (fun d : UInt8 => True) = wildHas .question := by funext d; simp [wildHas]
      simp only [hP] at ha
      exact built_solid (by omega) hf ha hb
  | .cls k :: p, ho, n, fuel + 1, g, hn, hl, hf => by
    obtain ⟨hw, ho'⟩ := wildOk_tail ho
    simp only [solid] at hn
    obtain ⟨g1, e1, ha⟩ := charClass_text (mask := 1#32 <<< n) hw g (wildText p)
    obtain ⟨g', e, hb⟩ : ∃ g', globLoop fuel (n + 1) g1 (wildText p) = .ok (n + 1 + solid p, g') ∧
        (Fresh g1 (n + 1) → Built g1 g' (n + 1) (blocksOf p).1 (blocksOf p).2) := by
      have hfr : Fresh g1 (n + 1) := by
        refine ⟨fun j hj d => ?_, fun j hj => by rw [ha.2.1, ha.2.2]; exact hf.2 j (by omega)⟩
        by_cases h : k.has d
        · rw [(ha.1 d).1 h, BitVec.getLsbD_or, mask_bit (by omega), hf.1 j (by omega)]; simp; omega
        · rw [(ha.1 d).2 h, hf.1 j (by omega)]
      obtain ⟨g', e, hb⟩ := globLoop_ok p ho' (n + 1) fuel g1 (by omega)
        (by simp [wildText, Wild.text, CharClass.text, bs] at hl ⊢; omega) hfr
      exact ⟨g', e, fun _ => hb⟩
    refine ⟨g', ?_, ?_⟩
    · have : wildText (.cls k :: p) = 0x5b :: (k.text.drop 1 ++ wildText p) := rfl
      rw [this, globLoop]
      simp only [bitMask, show n < 32 by omega, if_true, bind, Except.bind]
      rw [if_neg (by decide)]
      simp only [e1]
      rw [e]
      simp only [solid]; congr 2; omega
    · exact built_solid (P := wildHas (.cls k)) (by omega) hf ha hb
  | .twoStars :: p, ho, n, fuel + 1, g, hn, hl, hf => by
    obtain ⟨hw, ho'⟩ := wildOk_tail ho
    simp only [solid] at hn
    obtain ⟨g', e, hb⟩ := globLoop_ok p ho' n fuel { g with twostarpat := g.twostarpat ||| 1#32 <<< n } hn
      (by simp [wildText, Wild.text, bs] at hl ⊢; omega) ⟨hf.1, fun j hj => by
        simp only [BitVec.getLsbD_or, mask_bit (show n < 32 by omega)]
        refine ⟨(hf.2 j hj).1, ?_⟩
        rw [(hf.2 j hj).2]; simp; omega⟩
    refine ⟨g', ?_, ?_, fun j => ?_⟩
    · have : wildText (.twoStars :: p) = 0x2a :: 0x2a :: wildText p := rfl
      rw [this, globLoop]
      simp only [bitMask, show n < 32 by omega, if_true, bind, Except.bind]
      exact e
    · intro j hj
      obtain ⟨x, y, z⟩ := hb.1 j hj
      refine ⟨x, ?_, z⟩
      rw [y, BitVec.getLsbD_or, mask_bit (by omega)]
      simp; omega
    · obtain ⟨x, y⟩ := hb.2 j
      cases j with
      | zero =>
        refine ⟨fun L' r' h => ?_, fun h => by simp [suffix] at h⟩
        simp only [blocksOf, suffix, Option.some.injEq, Prod.mk.injEq] at h
        obtain ⟨rfl, rfl⟩ := h
        obtain ⟨x1, x2, x3, x4⟩ := x _ _ rfl
        refine ⟨x1, ?_, x3, x4⟩
        rw [x2, BitVec.getLsbD_or, mask_bit (by omega)]
        simp
      | succ j =>
        cases hbl : (blocksOf p).2 with
        | nil =>
          rw [hbl] at y
          refine ⟨fun L' r' h => by simp [blocksOf, hbl, suffix] at h, fun _ => y rfl⟩
        | cons b r =>
          obtain ⟨q, M⟩ := b
          rw [hbl] at x y
          simp only [blocksOf, hbl]
          refine ⟨fun L' r' h => ?_, fun h => y h⟩
          obtain ⟨x1, x2, x3, x4⟩ := x L' r' h
          exact ⟨by simpa using x1, by simpa using x2, x3, x4⟩
  | .star :: p, ho, n, fuel + 1, g, hn, hl, hf => by
    obtain ⟨hw, ho'⟩ := wildOk_tail ho
    simp only [solid] at hn
    obtain ⟨g', e, hb⟩ := globLoop_ok p ho' n fuel { g with starpat := g.starpat ||| 1#32 <<< n } hn
      (by simp [wildText, Wild.text, bs] at hl ⊢; omega) ⟨hf.1, fun j hj => by
        simp only [BitVec.getLsbD_or, mask_bit (show n < 32 by omega)]
        refine ⟨?_, (hf.2 j hj).2⟩
        rw [(hf.2 j hj).1]; simp; omega⟩
    refine ⟨g', ?_, ?_, fun j => ?_⟩
    · have hh : (wildText p).head? ≠ some 0x2a := by
        refine wildText_head (fun q => ⟨?_, ?_⟩) ho'
        · rintro rfl; exact ho
        · rintro rfl; exact ho
      have : wildText (.star :: p) = 0x2a :: wildText p := rfl
      rw [this, globLoop]
      simp only [bitMask, show n < 32 by omega, if_true, bind, Except.bind]
      split
      · rename_i heq; rw [heq] at hh; simp at hh
      · exact e
    · intro j hj
      obtain ⟨x, y, z⟩ := hb.1 j hj
      refine ⟨?_, y, z⟩
      rw [x, BitVec.getLsbD_or, mask_bit (by omega)]
      simp; omega
    · obtain ⟨x, y⟩ := hb.2 j
      cases j with
      | zero =>
        refine ⟨fun L' r' h => ?_, fun h => by simp [suffix] at h⟩
        simp only [blocksOf, suffix, Option.some.injEq, Prod.mk.injEq] at h
        obtain ⟨rfl, rfl⟩ := h
        obtain ⟨x1, x2, x3, x4⟩ := x _ _ rfl
        refine ⟨?_, x2, x3, x4⟩
        rw [x1, BitVec.getLsbD_or, mask_bit (by omega)]
        simp
      | succ j =>
        cases hbl : (blocksOf p).2 with
        | nil =>
          rw [hbl] at y
          refine ⟨fun L' r' h => by simp [blocksOf, hbl, suffix] at h, fun _ => y rfl⟩
        | cons b r =>
          obtain ⟨q, M⟩ := b
          rw [hbl] at x y
          simp only [blocksOf, hbl]
          refine ⟨fun L' r' h => ?_, fun h => y h⟩
          obtain ⟨x1, x2, x3, x4⟩ := x L' r' h
          exact ⟨by simpa using x1, by simpa using x2, x3, x4⟩

theorem makeGlobber_fits {p : List Wild} (ho : WildOk p) (hn : solid p ≤ 31) :
    ∃ g, makeGlobber (wildText p) = .ok g ∧ GlobFits g (blocksOf p).1 (blocksOf p).2 := by
  obtain ⟨g', e, hb⟩ := globLoop_ok p ho 0 ((wildText p).length + 1) ⟨fun _ => 0#32, 0#32, 0#32, 0#32⟩ (by omega) (by omega)
    ⟨fun j _ c => by simp, fun j _ => by simp⟩
  refine ⟨{ g' with hit := 1#32 <<< solid p }, ?_, by rw [blocks_length]; exact hn, ?_⟩
  · simp only [makeGlobber, e, bind, Except.bind, bitMask, Nat.zero_add, show solid p < 32 by omega, if_true]
  · rintro j hj r rfl
    obtain ⟨x, y⟩ := hb.2 j
    simp only [Nat.zero_add] at x y
    refine ⟨fun L' r' h => ?_, fun h => ?_⟩
    · obtain ⟨x1, x2, x3, x4⟩ := x L' r' h
      have hl := suffix_length j _ _ h
      rw [blocks_length] at hl
      refine ⟨by simpa using x1, by simpa using x2, ?_, x3, x4⟩
      rw [mask_bit (by omega)]
      cases r' with
      | nil => simp at hl ⊢; omega
      | cons b r' => simp at hl ⊢; omega
    · obtain ⟨y1, y2, y3⟩ := y h
      refine ⟨?_, y1, y2, y3⟩
      rw [mask_bit (by omega)]
      have : ∀ (j : Nat) (L : Stars) (bl : Blocks), suffix j L bl = none → bl.length < j := by
        intro j
        induction j with
        | zero => intro L bl h; simp [suffix] at h
        | succ j ih =>
          intro L bl h
          cases bl with
          | nil => simp
          | cons b r => obtain ⟨q, M⟩ := b; have := ih M r h; simp only [List.length_cons]; omega
      have := this j _ _ h
      rw [blocks_length] at this
      simp; omega

end Mairix
