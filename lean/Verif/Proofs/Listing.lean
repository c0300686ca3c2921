import Verif.Spec.Index
import Verif.Proofs.TokRep

/-! Listings of words in a mail, and how they change. -/

namespace Mairix
open Spec

theorem sorted_ext : ∀ {l1 l2 : List Nat}, l1.Pairwise (· < ·) → l2.Pairwise (· < ·) →
    (∀ x, x ∈ l1 ↔ x ∈ l2) → l1 = l2 := by
  intro l1
  induction l1 with
  | nil =>
    intro l2 _ _ h
    cases l2 with
    | nil => rfl
    | cons b l2 => exact absurd ((h b).mpr (by simp)) (by simp)
  | cons a l1 ih =>
    intro l2 h1 h2 h
    cases l2 with
    | nil => exact absurd ((h a).mp (by simp)) (by simp)
    | cons b l2 =>
      have h1' := List.pairwise_cons.mp h1
      have h2' := List.pairwise_cons.mp h2
      have hab : a = b := by
        have ha := (h a).mp (by simp)
        have hb := (h b).mpr (by simp)
        rcases List.mem_cons.mp ha with h3 | h3
        · exact h3
        · rcases List.mem_cons.mp hb with h4 | h4
          · exact h4.symm
          · have := h1'.1 b h4; have := h2'.1 a h3; omega
      subst hab
      rw [ih h1'.2 h2'.2]
      intro x
      have := h x
      simp only [List.mem_cons] at this
      constructor
      · intro hx
        have hlt := h1'.1 x hx
        rcases this.mp (Or.inr hx) with h3 | h3
        · omega
        · exact h3
      · intro hx
        have hlt := h2'.1 x hx
        rcases this.mpr (Or.inr hx) with h3 | h3
        · omega
        · exact h3

/-- The listing of a word, computed. -/
def listing (mail : Mail) (w : Text) : List Nat :=
  (List.range mail.length).filter (fun i => decide (∃ ws, mail[i]? = some ws ∧ w ∈ ws))

theorem mem_listing {mail : Mail} {w : Text} {i : Nat} :
    i ∈ listing mail w ↔ ∃ ws, mail[i]? = some ws ∧ w ∈ ws := by
  unfold listing
  rw [List.mem_filter]
  simp only [List.mem_range, decide_eq_true_eq]
  constructor
  · exact fun h => h.2
  · intro h
    obtain ⟨ws, h1, h2⟩ := h
    exact ⟨(List.getElem?_eq_some_iff.mp h1).1, ws, h1, h2⟩

theorem listing_isListing (mail : Mail) (w : Text) : IsListing mail w (listing mail w) := by
  refine ⟨?_, fun i => mem_listing⟩
  exact List.Pairwise.filter _ List.pairwise_lt_range

theorem isListing_eq {mail : Mail} {w : Text} {l : List Nat} (h : IsListing mail w l) :
    l = listing mail w :=
  sorted_ext h.1 (listing_isListing mail w).1 (fun x => by rw [h.2, mem_listing])

theorem listing_lt {mail : Mail} {w : Text} : ∀ i ∈ listing mail w, i < mail.length := by
  intro i hi
  obtain ⟨ws, h1, _⟩ := mem_listing.mp hi
  exact (List.getElem?_eq_some_iff.mp h1).1

theorem listing_new (mail : Mail) (w : Text) : listing (mail ++ [[]]) w = listing mail w := by
  refine (isListing_eq ⟨(listing_isListing mail w).1, fun i => ?_⟩).symm
  rw [mem_listing]
  constructor
  · rintro ⟨ws, h1, h2⟩
    refine ⟨ws, ?_, h2⟩
    rw [List.getElem?_append_left (List.getElem?_eq_some_iff.mp h1).1]
    exact h1
  · rintro ⟨ws, h1, h2⟩
    rcases Nat.lt_or_ge i mail.length with h | h
    · rw [List.getElem?_append_left h] at h1
      exact ⟨ws, h1, h2⟩
    · rw [List.getElem?_append_right h] at h1
      cases hk : i - mail.length with
      | zero => rw [hk] at h1; simp at h1; subst h1; simp at h2
      | succ k => rw [hk] at h1; simp at h1

theorem addWord_eq : ∀ {mail mail' : Mail} {w : Text}, addWord w mail = some mail' →
    ∃ ms ws, mail = ms ++ [ws] ∧ mail' = ms ++ [w :: ws] := by
  intro mail
  induction mail with
  | nil => intro mail' w h; simp [addWord] at h
  | cons m ms ih =>
    intro mail' w h
    cases ms with
    | nil => simp [addWord] at h; exact ⟨[], m, rfl, by simp [← h]⟩
    | cons m2 ms2 =>
      simp only [addWord, Option.map_eq_some_iff] at h
      obtain ⟨r, h1, h2⟩ := h
      obtain ⟨ms', ws, h3, h4⟩ := ih h1
      exact ⟨m :: ms', ws, by rw [h3]; rfl, by rw [← h2, h4]; rfl⟩

theorem listing_addWord_ne {ms : Mail} {ws : List Text} {w w' : Text} (h : w' ≠ w) :
    listing (ms ++ [w :: ws]) w' = listing (ms ++ [ws]) w' := by
  refine (isListing_eq ⟨(listing_isListing _ _).1, fun i => ?_⟩).symm
  rw [mem_listing]
  rcases Nat.lt_trichotomy i ms.length with h1 | h1 | h1
  · rw [List.getElem?_append_left h1, List.getElem?_append_left h1]
  · subst h1; simp [h]
  · rw [List.getElem?_eq_none (by simp; omega), List.getElem?_eq_none (by simp; omega)]

theorem listing_addWord_self {ms : Mail} {ws : List Text} {w : Text} :
    listing (ms ++ [w :: ws]) w = addAbs (listing (ms ++ [ws]) w) ms.length := by
  have hmem : ∀ i, i ∈ listing (ms ++ [w :: ws]) w ↔ i ∈ listing (ms ++ [ws]) w ∨ i = ms.length := by
    intro i
    rw [mem_listing, mem_listing]
    rcases Nat.lt_trichotomy i ms.length with h1 | h1 | h1
    · rw [List.getElem?_append_left h1, List.getElem?_append_left h1]
      have : i ≠ ms.length := by omega
      simp [this]
    · subst h1; simp
    · rw [List.getElem?_eq_none (by simp; omega), List.getElem?_eq_none (by simp; omega)]
      simp; omega
  refine sorted_ext (listing_isListing _ _).1 ?_ ?_
  · unfold addAbs
    split
    · exact (listing_isListing _ _).1
    · next hni =>
      rw [List.pairwise_append]
      refine ⟨(listing_isListing _ _).1, by simp, ?_⟩
      intro a ha b hb
      simp at hb; subst hb
      have := listing_lt a ha
      simp at this
      rcases Nat.lt_or_ge a ms.length with h | h
      · exact h
      · exact absurd (by rwa [show a = ms.length by omega] at ha) hni
  · intro x
    rw [hmem]
    unfold addAbs
    split
    · next h => constructor
                · rintro (h1 | h1)
                  · exact h1
                  · subst h1; exact h
                · exact Or.inl
    · simp

theorem keepOnly_get {α : Type} : ∀ (keep : List Bool) (ms : List α), keep.length = ms.length →
    ∀ (j : Nat) (x : α), (keepOnly keep ms)[j]? = some x ↔
      ∃ i, keep[i]? = some true ∧ ms[i]? = some x ∧ (keep.take i).count true = j := by
  intro keep
  induction keep with
  | nil => intro ms h j x; cases ms <;> simp_all [keepOnly]
  | cons k ks ih =>
    intro ms h j x
    cases ms with
    | nil => simp at h
    | cons m ms =>
      have h' : ks.length = ms.length := by simpa using h
      cases k with
      | true =>
        simp only [keepOnly]
        cases j with
        | zero =>
          constructor
          · intro hx; exact ⟨0, rfl, by simpa using hx, by simp⟩
          · rintro ⟨i, h1, h2, h3⟩
            cases i with
            | zero => simpa using h2
            | succ i => simp at h3
        | succ j =>
          simp only [List.getElem?_cons_succ]
          rw [ih ms h' j x]
          constructor
          · rintro ⟨i, h1, h2, h3⟩
            exact ⟨i + 1, by simpa using h1, by simpa using h2, by simp [h3]⟩
          · rintro ⟨i, h1, h2, h3⟩
            cases i with
            | zero => simp at h3
            | succ i => exact ⟨i, by simpa using h1, by simpa using h2, by simpa using h3⟩
      | false =>
        simp only [keepOnly]
        rw [ih ms h' j x]
        constructor
        · rintro ⟨i, h1, h2, h3⟩
          exact ⟨i + 1, by simpa using h1, by simpa using h2, by simp [h3]⟩
        · rintro ⟨i, h1, h2, h3⟩
          cases i with
          | zero => simp at h1
          | succ i => exact ⟨i, by simpa using h1, by simpa using h2, by simpa using h3⟩

theorem keepOnly_length {α : Type} : ∀ (keep : List Bool) (ms : List α), keep.length = ms.length →
    (keepOnly keep ms).length = keep.count true := by
  intro keep
  induction keep with
  | nil => intro ms h; cases ms <;> simp_all [keepOnly]
  | cons k ks ih =>
    intro ms h
    cases ms with
    | nil => simp at h
    | cons m ms =>
      have h' : ks.length = ms.length := by simpa using h
      cases k <;> simp [keepOnly, ih ms h']

theorem listing_purge {keep : List Bool} {mail : Mail} (hk : keep.length = mail.length) (w : Text) :
    listing (keepOnly keep mail) w = (listing mail w).filterMap (newIdxOf keep) := by
  refine sorted_ext (listing_isListing _ _).1
    (filterMap_newIdx_increasing keep _ (listing_isListing _ _).1) ?_
  intro j
  rw [mem_listing, List.mem_filterMap]
  constructor
  · rintro ⟨ws, h1, h2⟩
    obtain ⟨i, h3, h4, h5⟩ := (keepOnly_get keep mail hk j ws).mp h1
    exact ⟨i, mem_listing.mpr ⟨ws, h4, h2⟩, by rw [newIdxOf_eq, if_pos h3, h5]⟩
  · rintro ⟨i, h1, h2⟩
    obtain ⟨ws, h3, h4⟩ := mem_listing.mp h1
    rw [newIdxOf_eq] at h2
    split at h2
    · next h5 =>
      cases h2
      exact ⟨ws, (keepOnly_get keep mail hk _ ws).mpr ⟨i, h5, h3, rfl⟩, h4⟩
    · cases h2

end Mairix
