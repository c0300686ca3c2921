import Verif.Proofs.Integrity

/-! A `qsort` for the examples: insertion sort. -/

namespace Mairix
open Spec

def insertBy {α : Type} (cmp : α → α → Ordering) (a : α) : List α → List α
  | [] => [a]
  | b :: l => if cmp a b = .gt then b :: insertBy cmp a l else a :: b :: l

def isort {α : Type} (cmp : α → α → Ordering) : List α → List α
  | [] => []
  | a :: l => insertBy cmp a (isort cmp l)

theorem insertBy_perm {α : Type} (cmp : α → α → Ordering) (a : α) : ∀ l, (insertBy cmp a l).Perm (a :: l) := by
  intro l
  induction l with
  | nil => exact List.Perm.refl _
  | cons b l ih =>
    unfold insertBy
    split
    · exact (List.Perm.cons b ih).trans (List.Perm.swap a b l)
    · exact List.Perm.refl _

theorem isort_sorts {α : Type} {cmp : α → α → Ordering} (swap : ∀ a b, cmp a b = .gt → cmp b a ≠ .gt)
    (trans : ∀ a b c, cmp a b ≠ .gt → cmp b c ≠ .gt → cmp a c ≠ .gt) : Sorts cmp (isort cmp) := by
  have hins : ∀ a l, l.Pairwise (fun a b => cmp a b ≠ .gt) → (insertBy cmp a l).Pairwise (fun a b => cmp a b ≠ .gt) := by
    intro a l h
    induction l with
    | nil => simp [insertBy]
    | cons b l ih =>
      obtain ⟨h1, h2⟩ := List.pairwise_cons.1 h
      unfold insertBy
      split
      · next hg =>
        refine List.pairwise_cons.2 ⟨?_, ih h2⟩
        intro c hc
        rcases List.mem_cons.1 ((insertBy_perm cmp a l).mem_iff.1 hc) with rfl | hc
        · exact swap _ _ hg
        · exact h1 c hc
      · next hg =>
        refine List.pairwise_cons.2 ⟨?_, h⟩
        intro c hc
        rcases List.mem_cons.1 hc with rfl | hc
        · exact hg
        · exact trans _ _ _ hg (h1 c hc)
  intro l
  induction l with
  | nil => exact ⟨List.Perm.refl _, .nil⟩
  | cons a l ih => exact ⟨(insertBy_perm cmp a _).trans (List.Perm.cons a ih.1), hins a _ ih.2⟩

theorem strcmp_not_gt (a b : Text) : strcmp a b ≠ .gt ↔ Before a b ∨ a = b := by
  rw [← strcmp_lt, ← strcmp_eq]
  cases strcmp a b <;> simp

theorem strcmp_asymm (a b : Text) (h : strcmp a b = .gt) : strcmp b a ≠ .gt := by
  rw [strcmp_not_gt]; exact .inl (strcmp_gt.1 h)

theorem strcmp_trans (a b c : Text) (h : strcmp a b ≠ .gt) (h' : strcmp b c ≠ .gt) : strcmp a c ≠ .gt := by
  rw [strcmp_not_gt] at *
  rcases h with h | rfl
  · rcases h' with h' | rfl
    · exact .inl (before_trans h h')
    · exact .inl h
  · exact h'

theorem sorts_strcmp : Sorts strcmp (isort strcmp) := isort_sorts strcmp_asymm strcmp_trans

theorem sorts_extant : Sorts (fun a b : Extant => strcmp a.path b.path) (isort fun a b => strcmp a.path b.path) :=
  isort_sorts (fun _ _ => strcmp_asymm _ _) (fun _ _ _ => strcmp_trans _ _ _)

theorem sorts_listed : Sorts messageCompare (isort messageCompare) := by
  refine isort_sorts ?_ ?_
  · intro a b h
    rw [messageCompare_not_gt]
    left
    obtain ⟨kb, pb⟩ := b
    exact (lookupCompare_spec a pb kb).2.2.1 h
  · intro a b c h h'
    rw [messageCompare_not_gt] at *
    rcases h with h | rfl
    · rcases h' with h' | rfl
      · exact .inl (listedBefore_trans h h')
      · exact .inl h
    · exact h'

theorem compareSortable_not_gt (a b : Text × Nat) : compareSortable a b ≠ .gt ↔ Before a.1 b.1 ∨ (a.1 = b.1 ∧ a.2 ≤ b.2) := by
  unfold compareSortable
  cases h : strcmp a.1 b.1 with
  | lt => simp [strcmp_lt.1 h]
  | eq =>
    have he := strcmp_eq.1 h
    rw [he]
    simp [before_irrefl, Nat.compare_eq_gt]
  | gt =>
    have hg := strcmp_gt.1 h
    simp only [ne_eq, not_true_eq_false, false_iff, not_or, not_and]
    refine ⟨fun h' => before_irrefl (before_trans hg h'), fun h' => ?_⟩
    rw [h'] at hg
    exact absurd hg before_irrefl

theorem sorts_sortable : Sorts compareSortable (isort compareSortable) := by
  refine isort_sorts ?_ ?_
  · intro a b h
    rw [compareSortable_not_gt]
    have hn : ¬ (Before a.1 b.1 ∨ (a.1 = b.1 ∧ a.2 ≤ b.2)) := fun h' => (compareSortable_not_gt a b).2 h' h
    rcases before_total a.1 b.1 with h1 | h1 | h1
    · exact absurd (.inl h1) hn
    · right
      refine ⟨h1.symm, ?_⟩
      rcases Nat.le_total a.2 b.2 with h2 | h2
      · exact absurd (.inr ⟨h1, h2⟩) hn
      · exact h2
    · exact .inl h1
  · intro a b c h h'
    rw [compareSortable_not_gt] at *
    rcases h with h | ⟨h1, h2⟩
    · rcases h' with h' | ⟨h3, h4⟩
      · exact .inl (before_trans h h')
      · rw [← h3]; exact .inl h
    · rcases h' with h' | ⟨h3, h4⟩
      · rw [h1]; exact .inl h'
      · exact .inr ⟨h1.trans h3, Nat.le_trans h2 h4⟩

end Mairix
