import Verif.Proofs.Substring

/-!
# C16, C17: approximate substring search
-/

namespace Mairix
open Spec

/-- **C16.** For every pattern `P` of 1 to 31 letters, every number `k` of permitted errors and every
(non-empty) word: the search succeeds, and the word matches exactly when some contiguous part of it
can be turned into the pattern with at most `k` single-letter insertions, deletions or changes. -/
theorem C16_substring (P word : Text) (k : Nat) (h0 : P ≠ []) (hP : P.length ≤ 31) (hw : word ≠ []) :
    ∃ b, substringMatch P k false word = .ok b ∧
      (b = true ↔ ∃ part, part <:+: word ∧ WithinEdits k part P) := by
  obtain ⟨b, hb, h⟩ := substringMatch_good h0 hP k false word
  refine ⟨b, hb, h.trans ?_⟩
  constructor
  · rintro ⟨q, _, hq, hg⟩
    simp only [Good, Bool.false_eq_true, if_false, List.take_length] at hg
    obtain ⟨w, hw, ha⟩ := hg
    refine ⟨w.reverse, ?_, al_reverse.1 (by simpa using ha)⟩
    have h1 : w.reverse <:+ q := by
      have := List.reverse_suffix.2 hw; simpa using this
    exact h1.isInfix.trans hq.isInfix
  · rintro ⟨part, ⟨x, y, e⟩, hp⟩
    by_cases hx : x ++ part = []
    · obtain ⟨rfl, rfl⟩ := List.append_eq_nil_iff.1 hx
      refine ⟨word, hw, List.prefix_rfl, ?_⟩
      simp only [Good, Bool.false_eq_true, if_false, List.take_length]
      exact ⟨[], List.nil_prefix, by simpa using al_reverse.2 hp⟩
    · refine ⟨x ++ part, hx, ⟨y, e⟩, ?_⟩
      simp only [Good, Bool.false_eq_true, if_false, List.take_length]
      refine ⟨part.reverse, by simp, al_reverse.2 hp⟩

/-- A pattern that is empty or longer than 31 letters ends the program with status 2. -/
theorem C16_rejected (P word : Text) (k : Nat) (anch : Bool) (h : P = [] ∨ 31 < P.length) :
    substringMatch P k anch word = .error (.exit 2) := by
  have : P.length > 31 ∨ P.length = 0 := by
    rcases h with rfl | h
    · simp
    · exact .inl h
  simp only [substringMatch, buildMatchVector, if_pos this, bind, Except.bind]

/-- An empty word (no word table contains one) is never matched. -/
theorem C16_empty_word (P : Text) (k : Nat) (anch : Bool) (h0 : P ≠ []) (hP : P.length ≤ 31) :
    substringMatch P k anch [] = .ok false := by
  obtain ⟨b, hb, h⟩ := substringMatch_good h0 hP k anch []
  rw [hb]
  cases b with
  | false => rfl
  | true =>
    obtain ⟨q, h1, h2, _⟩ := h.1 rfl
    rw [List.prefix_nil] at h2; exact absurd h2 h1

/-- The hand-unrolled matchers for 0 to 3 errors agree with the general one. -/
theorem C16_paths_agree (P word : Text) (anch : Bool) (h0 : P ≠ []) (hP : P.length ≤ 31) :
    ∃ a hit, buildMatchVector P = .ok (a, hit) ∧
      substringMatch0 a hit anch word = substringMatchGeneral a hit anch word 0 ∧
      substringMatch1 a hit anch word = substringMatchGeneral a hit anch word 1 ∧
      substringMatch2 a hit anch word = substringMatchGeneral a hit anch word 2 ∧
      substringMatch3 a hit anch word = substringMatchGeneral a hit anch word 3 := by
  have hb : buildMatchVector P = .ok (patTable P, hitWord P) := by
    have : ¬ (P.length > 31 ∨ P.length = 0) := by
      have := List.length_pos_iff.2 h0; omega
    simp only [buildMatchVector, if_neg this]; rfl
  refine ⟨_, _, hb, ?_, ?_, ?_, ?_⟩
  · simp only [substringMatch0, loop0_eq h0 hP, substringMatchGeneral, initErrors]
  · simp only [substringMatch1, loop1_eq h0 hP, substringMatchGeneral, initErrors]
  · simp only [substringMatch2, loop2_eq h0 hP, substringMatchGeneral, initErrors]
  · simp only [substringMatch3, loop3_eq h0 hP, substringMatchGeneral, initErrors]

/-- Non-vacuity: `bread` with one error matches `threading` (its part `read` needs one letter
inserted); with none it does not. -/
example : substringMatch (bs "bread") 1 false (bs "threading") = .ok true ∧
    substringMatch (bs "bread") 0 false (bs "threading") = .ok false ∧
    substringMatch (bs "tree") 4 false (bs "x") = .ok true ∧
    substringMatch (bs "thrice") 1 false (bs "threading") = .ok false := by decide +kernel

/-- What an anchored search really does: besides the words of which some prefix is within `k` edits
of the pattern, it matches the words any part of which is within `k - 1` edits of the pattern
without its first letter. -/
theorem C17_anchored_exact (P word : Text) (k : Nat) (h0 : P ≠ []) (hP : P.length ≤ 31) (hw : word ≠ []) :
    ∃ b, substringMatch P k true word = .ok b ∧
      (b = true ↔ (∃ w, w <+: word ∧ WithinEdits k w P) ∨
        (1 ≤ k ∧ ∃ part, part <:+: word ∧ WithinEdits (k - 1) part P.tail)) := by
  obtain ⟨b, hb, h⟩ := substringMatch_good h0 hP k true word
  have hl : 0 < P.length := List.length_pos_iff.2 h0
  refine ⟨b, hb, h.trans ?_⟩
  simp only [Good, if_true, List.take_length]
  constructor
  · rintro ⟨q, _, hq, ha | ⟨j, rfl, w, hw, ha⟩⟩
    · exact .inl ⟨q, hq, al_reverse.1 ha⟩
    · refine .inr ⟨by omega, w.reverse, ?_, al_reverse.1 (by simpa using ha)⟩
      have h1 : w.reverse <:+ q := by
        have := List.reverse_suffix.2 hw; simpa using this
      exact h1.isInfix.trans hq.isInfix
  · have second : 1 ≤ k → (∃ part, part <:+: word ∧ WithinEdits (k - 1) part P.tail) →
        ∃ q, q ≠ [] ∧ q <+: word ∧
          (Al k P.reverse q.reverse ∨ ∃ j, k = j + 1 ∧ Ends j P.tail.reverse q.reverse) := by
      rintro hk ⟨part, ⟨x, y, e⟩, hp⟩
      by_cases hx : x ++ part = []
      · obtain ⟨rfl, rfl⟩ := List.append_eq_nil_iff.1 hx
        exact ⟨word, hw, List.prefix_rfl, .inr ⟨k - 1, by omega, [], List.nil_prefix, by
          simpa using al_reverse.2 hp⟩⟩
      · exact ⟨x ++ part, hx, ⟨y, e⟩, .inr ⟨k - 1, by omega, part.reverse, by simp, al_reverse.2 hp⟩⟩
    rintro (⟨w, hq, hp⟩ | ⟨hk, hp⟩)
    · by_cases he : w = []
      · subst he
        have hlen : P.length ≤ k := by
          have := al_nil_right.1 (al_iff.2 hp).symm; exact this
        refine second (by omega) ⟨[], List.nil_infix, ?_⟩
        rw [← al_iff]
        apply Al.symm
        rw [al_nil_right]; simp; omega
      · exact ⟨w, he, hq, .inl (al_reverse.2 hp)⟩
    · exact second hk hp

/-- **C17 (the part that holds).** Without permitted errors an anchored search matches exactly the
words that begin with the pattern. The full property (for every `k`: some prefix of the word is
within `k` edits) fails for `k ≥ 1`, see `C17_violation`; `C17_anchored_exact` says what holds. -/
theorem C17_anchored_partial (P word : Text) (h0 : P ≠ []) (hP : P.length ≤ 31) :
    ∃ b, substringMatch P 0 true word = .ok b ∧ (b = true ↔ P <+: word) := by
  by_cases hw : word = []
  · subst hw
    refine ⟨false, C16_empty_word P 0 true h0 hP, ?_⟩
    simp only [List.prefix_nil, Bool.false_eq_true, false_iff]
    exact h0
  · obtain ⟨b, hb, h⟩ := C17_anchored_exact P word 0 h0 hP hw
    refine ⟨b, hb, h.trans ?_⟩
    constructor
    · rintro (⟨w, hq, hp⟩ | ⟨h, _⟩)
      · cases hp; exact hq
      · omega
    · intro h; exact .inl ⟨P, h, .same _ _⟩

/-- Every word that ought to match does (for every `k`): only spurious matches occur. -/
theorem C17_no_misses (P word w : Text) (k : Nat) (h0 : P ≠ []) (hP : P.length ≤ 31) (hw : word ≠ [])
    (hp : w <+: word) (he : WithinEdits k w P) : substringMatch P k true word = .ok true := by
  obtain ⟨b, hb, h⟩ := C17_anchored_exact P word k h0 hP hw
  rw [hb, h.2 (.inl ⟨w, hp, he⟩)]

/-- **C17 is violated for `k ≥ 1`**: `^foo=1` matches `xxxoo`, no prefix of which is within one edit
of `foo`. -/
theorem C17_violation :
    substringMatch (bs "foo") 1 true (bs "xxxoo") = .ok true ∧
      ¬ ∃ w, w <+: bs "xxxoo" ∧ WithinEdits 1 w (bs "foo") := by
  refine ⟨by decide +kernel, ?_⟩
  rintro ⟨w, hw, h⟩
  have h := (al_iff.2 h).symm
  have key : ∀ t : Text, t <+: bs "xxxoo" → t = [] ∨ t.take 2 = bs "x" ∨ t.take 2 = bs "xx" := by
    intro t ht
    rw [List.prefix_iff_eq_take] at ht
    have : t.length ≤ 5 := by rw [ht, List.length_take]; simp [bs]; omega
    have : t.length = 0 ∨ t.length = 1 ∨ t.length = 2 ∨ t.length = 3 ∨ t.length = 4 ∨ t.length = 5 := by omega
    rw [ht]
    rcases this with h | h | h | h | h | h <;> rw [h] <;> decide
  have no : ∀ (t : Text), Al 1 (bs "foo") t → ¬ (t = [] ∨ t.take 2 = bs "x" ∨ t.take 2 = bs "xx") := by
    intro t ht
    have e0 : bs "foo" = 0x66 :: 0x6f :: 0x6f :: [] := by decide
    have z : ∀ p u, Al 0 p u → p = u := by
      intro p u h
      have := al_iff.1 h
      cases this; rfl
    rw [e0] at ht
    rintro (rfl | h)
    · rw [al_nil_right] at ht; simp at ht
    · cases t with
      | nil => exact absurd h (by decide)
      | cons a t =>
        have ha : a = 0x78 := by
          rcases h with h | h
          · have : (bs "x") = [0x78] := by decide
            rw [this] at h; cases t <;> simp at h; exact h
          · have : (bs "xx") = [0x78, 0x78] := by decide
            rw [this] at h; cases t <;> simp at h; exact h.1
        subst ha
        rcases al_cons_cons.1 ht with ⟨e, _⟩ | ⟨j, e, h1 | h1 | h1⟩
        · exact absurd e (by decide)
        all_goals
          have : j = 0 := by omega
          subst this
          have := z _ _ h1
        · subst this; revert h; decide
        · exact absurd this (by simp)
        · subst this; revert h; decide
  exact no w h (key w hw)

/-- Non-vacuity for the anchored search. -/
example : substringMatch (bs "thr") 0 true (bs "threading") = .ok true ∧
    substringMatch (bs "read") 0 true (bs "threading") = .ok false := by decide +kernel

end Mairix
