import Verif.Proofs.Dead
import Verif.Proofs.ISort
import Verif.Proofs.Lookup
import Verif.Spec.Run

/-!
# dfasyn: the classes of states
-/

namespace Mairix
open Spec

/-! ## The comparisons -/

/-- A comparison `qsort` can sort with. -/
structure Orders (cmp : Nat → Nat → Ordering) : Prop where
  swap : ∀ a b, cmp a b = .gt → cmp b a ≠ .gt
  trans : ∀ a b c, cmp a b ≠ .gt → cmp b c ≠ .gt → cmp a c ≠ .gt

theorem compareKeys_eq : ∀ {a b : List Nat}, compareKeys a b = .eq ↔ a = b
  | [], [] => by simp [compareKeys]
  | [], _ :: _ => by simp [compareKeys]
  | _ :: _, [] => by simp [compareKeys]
  | x :: a, y :: b => by
    unfold compareKeys
    have ih := compareKeys_eq (a := a) (b := b)
    split
    · simp; omega
    · split
      · simp; omega
      · have : x = y := by omega
        simp [this, ih]

theorem compareKeys_swap : ∀ (a b : List Nat), compareKeys a b = .gt → compareKeys b a ≠ .gt
  | [], [] => by simp [compareKeys]
  | [], _ :: _ => by simp [compareKeys]
  | _ :: _, [] => by simp [compareKeys]
  | x :: a, y :: b => by
    have ih := compareKeys_swap a b
    simp only [compareKeys]
    split
    · simp
    · split
      · simp
      · exact ih

theorem compareKeys_trans : ∀ (a b c : List Nat), compareKeys a b ≠ .gt → compareKeys b c ≠ .gt → compareKeys a c ≠ .gt
  | [], _, [] => by simp [compareKeys]
  | [], _, _ :: _ => by simp [compareKeys]
  | _ :: _, [], _ => by simp [compareKeys]
  | _ :: _, _ :: _, [] => by simp [compareKeys]
  | x :: a, y :: b, z :: c => by
    have ih := compareKeys_trans a b c
    simp only [compareKeys]
    split <;> split <;> (try split) <;> (try split) <;> (try split) <;> (try split) <;> first | (intro h h'; first | contradiction | omega) | skip
    all_goals first | (exact ih) | (intros; omega) | (intros; simp) | (intros; contradiction)

theorem compareAttrs_eq : ∀ {a b : List Text}, compareAttrs a b = .eq ↔ a = b
  | [], [] => by simp [compareAttrs]
  | [], _ :: _ => by simp [compareAttrs]
  | _ :: _, [] => by simp [compareAttrs]
  | x :: a, y :: b => by
    unfold compareAttrs
    have ih := compareAttrs_eq (a := a) (b := b)
    split
    · rename_i h; rw [strcmp_eq] at h; simp [h, ih]
    · rename_i h; simp only [h, false_iff]; rw [strcmp_eq] at h; simp [h]

theorem compareAttrs_swap : ∀ (a b : List Text), compareAttrs a b = .gt → compareAttrs b a ≠ .gt
  | [], [] => by simp [compareAttrs]
  | [], _ :: _ => by simp [compareAttrs]
  | _ :: _, [] => by simp [compareAttrs]
  | x :: a, y :: b => by
    have ih := compareAttrs_swap a b
    have hsw := strcmp_swap x y
    simp only [compareAttrs]
    cases hxy : strcmp y x with
    | eq => rw [hxy] at hsw; simp only [Ordering.swap] at hsw; simp only [hsw, if_true]; exact ih
    | lt => simp
    | gt => rw [hxy] at hsw; simp only [Ordering.swap] at hsw; simp [hsw]

theorem strcmp_lt_of {x y z : Text} (h : strcmp x y ≠ .gt) (h' : strcmp y z ≠ .gt) (hne : strcmp x y ≠ .eq ∨ strcmp y z ≠ .eq) :
    strcmp x z = .lt := by
  have h1 := strcmp_trans x y z h h'
  cases h2 : strcmp x z with
  | lt => rfl
  | gt => exact absurd h2 h1
  | eq =>
    exfalso
    rw [strcmp_eq] at h2
    subst h2
    have hsw := strcmp_swap x y
    cases h3 : strcmp y x with
    | eq =>
      rw [h3] at hsw
      rcases hne with hne | hne
      · exact hne hsw
      · exact hne h3
    | lt => rw [h3] at hsw; exact h hsw
    | gt => exact h' h3

theorem compareAttrs_trans : ∀ (a b c : List Text), compareAttrs a b ≠ .gt → compareAttrs b c ≠ .gt → compareAttrs a c ≠ .gt
  | [], _, [] => by simp [compareAttrs]
  | [], _, _ :: _ => by simp [compareAttrs]
  | _ :: _, [], _ => by simp [compareAttrs]
  | _ :: _, _ :: _, [] => by simp [compareAttrs]
  | x :: a, y :: b, z :: c => by
    have ih := compareAttrs_trans a b c
    simp only [compareAttrs]
    by_cases h1 : strcmp x y = .eq
    · rw [if_pos h1]
      rw [strcmp_eq] at h1
      subst h1
      by_cases h2 : strcmp x z = .eq
      · simp only [if_pos h2]; exact ih
      · simp only [if_neg h2]; intro _ h; exact h
    · rw [if_neg h1]
      by_cases h2 : strcmp y z = .eq
      · rw [if_pos h2]
        rw [strcmp_eq] at h2
        subst h2
        rw [if_neg h1]
        intro h _; exact h
      · rw [if_neg h2]
        intro h h'
        have := strcmp_lt_of h h' (Or.inl h1)
        rw [this]; simp

theorem orders_general (cls : List Nat) (nodes : List DfaNode) : Orders (generalCompare cls nodes) :=
  ⟨fun _ _ => compareKeys_swap _ _, fun _ _ _ => compareKeys_trans _ _ _⟩

theorem orders_initial (defaults : List Text) (nodes : List DfaNode) : Orders (initialCompare defaults nodes) :=
  ⟨fun _ _ => compareAttrs_swap _ _, fun _ _ _ => compareAttrs_trans _ _ _⟩

/-! ## Storing the classes -/

theorem storeClasses_length : ∀ (out : List (Nat × Nat)) (cls : List Nat), (storeClasses cls out).length = cls.length
  | [], _ => rfl
  | x :: out, cls => by
    have := storeClasses_length out (cls.set x.1 x.2)
    unfold storeClasses at this ⊢
    rw [List.foldl_cons, this, List.length_set]

theorem storeClasses_other : ∀ (out : List (Nat × Nat)) (cls : List Nat) (i : Nat), i ∉ out.map Prod.fst → (storeClasses cls out)[i]? = cls[i]?
  | [], _, _, _ => rfl
  | x :: out, cls, i, h => by
    simp only [List.map_cons, List.mem_cons, not_or] at h
    have := storeClasses_other out (cls.set x.1 x.2) i h.2
    unfold storeClasses at this ⊢
    rw [List.foldl_cons, this, List.getElem?_set_ne (fun e => h.1 e.symm)]

theorem storeClasses_mem : ∀ (out : List (Nat × Nat)) (cls : List Nat), (out.map Prod.fst).Nodup → (∀ x ∈ out, x.1 < cls.length) → ∀ x ∈ out,
    (storeClasses cls out)[x.1]? = some x.2
  | [], _, _, _, x, h => by cases h
  | y :: out, cls, hn, hl, x, hx => by
    rw [List.map_cons, List.nodup_cons] at hn
    rcases List.mem_cons.1 hx with rfl | hx
    · have := storeClasses_other out (cls.set x.1 x.2) x.1 hn.1
      unfold storeClasses at this ⊢
      rw [List.foldl_cons, this, List.getElem?_set_self (hl x List.mem_cons_self)]
    · have := storeClasses_mem out (cls.set y.1 y.2) hn.2 (fun z hz => by rw [List.length_set]; exact hl z (List.mem_cons_of_mem _ hz)) x hx
      unfold storeClasses at this ⊢
      rw [List.foldl_cons, this]

/-- What is known of the classes: the sequence has every state once; states of one class have the same attributes; every class up to the last
has a state. -/
structure ClassInv (defaults : List Text) (nodes : List DfaNode) (c : Classes) : Prop where
  len : c.cls.length = nodes.length
  seq : c.seq.Perm (List.range nodes.length)
  same : ∀ i j, i < nodes.length → j < nodes.length → c.cls.getD i 0 = c.cls.getD j 0 → initialCompare defaults nodes i j = .eq
  bound : ∀ i, i < nodes.length → c.cls.getD i 0 ≤ c.last
  used : ∀ k, k ≤ c.last → ∃ i, i < nodes.length ∧ c.cls.getD i 0 = k

/-! ## The first classes -/

theorem assignLoop_spec {defaults : List Text} {nodes : List DfaNode} : ∀ (l : List Nat) (prev last : Nat),
    let out := assignLoop (initialCompare defaults nodes) prev last l
    out.map Prod.fst = l ∧ (∀ x ∈ out, last ≤ x.2) ∧ (∀ x ∈ out, x.2 = last → initialCompare defaults nodes prev x.1 = .eq) ∧
      (∀ x ∈ out, ∀ y ∈ out, x.2 = y.2 → initialCompare defaults nodes x.1 y.1 = .eq) ∧
      (∀ k, last < k → ∀ y ∈ out, k ≤ y.2 → ∃ x ∈ out, x.2 = k)
  | [], prev, last => by simp [assignLoop]
  | i :: l, prev, last => by
    have refl : ∀ k, initialCompare defaults nodes k k = .eq := fun k => compareAttrs_eq.2 rfl
    have symm : ∀ {a b}, initialCompare defaults nodes a b = .eq → initialCompare defaults nodes b a = .eq := fun h =>
      compareAttrs_eq.2 (compareAttrs_eq.1 h).symm
    have trans : ∀ {a b c}, initialCompare defaults nodes a b = .eq → initialCompare defaults nodes b c = .eq → initialCompare defaults nodes a c = .eq :=
      fun h h' => compareAttrs_eq.2 ((compareAttrs_eq.1 h).trans (compareAttrs_eq.1 h'))
    intro out
    by_cases hc : initialCompare defaults nodes prev i ≠ .eq
    · have ho : out = (i, last + 1) :: assignLoop (initialCompare defaults nodes) i (last + 1) l := if_pos hc
      obtain ⟨h1, h2, h3, h4, h5⟩ := assignLoop_spec (defaults := defaults) (nodes := nodes) l i (last + 1)
      rw [ho]
      refine ⟨by rw [List.map_cons, h1], ?_, ?_, ?_, ?_⟩
      · intro x hx
        rcases List.mem_cons.1 hx with rfl | hx
        · simp
        · have := h2 x hx; omega
      · intro x hx hxl
        rcases List.mem_cons.1 hx with rfl | hx
        · simp at hxl
        · have := h2 x hx; omega
      · intro x hx y hy hxy
        rcases List.mem_cons.1 hx with rfl | hx <;> rcases List.mem_cons.1 hy with rfl | hy
        · exact refl _
        · exact h3 y hy hxy.symm
        · exact symm (h3 x hx hxy)
        · exact h4 x hx y hy hxy
      · intro k hk y hy hky
        rcases Nat.lt_or_ge (last + 1) k with h | h
        · rcases List.mem_cons.1 hy with rfl | hy
          · simp only at hky; omega
          · obtain ⟨x, hx, e⟩ := h5 k h y hy hky
            exact ⟨x, List.mem_cons_of_mem _ hx, e⟩
        · exact ⟨_, List.mem_cons_self, by simp only; omega⟩
    · have ho : out = (i, last) :: assignLoop (initialCompare defaults nodes) i last l := if_neg hc
      have hc : initialCompare defaults nodes prev i = .eq := Decidable.of_not_not hc
      obtain ⟨h1, h2, h3, h4, h5⟩ := assignLoop_spec (defaults := defaults) (nodes := nodes) l i last
      rw [ho]
      refine ⟨by rw [List.map_cons, h1], ?_, ?_, ?_, ?_⟩
      · intro x hx
        rcases List.mem_cons.1 hx with rfl | hx
        · exact Nat.le_refl _
        · exact h2 x hx
      · intro x hx hxl
        rcases List.mem_cons.1 hx with rfl | hx
        · exact hc
        · exact trans hc (h3 x hx hxl)
      · intro x hx y hy hxy
        rcases List.mem_cons.1 hx with rfl | hx <;> rcases List.mem_cons.1 hy with rfl | hy
        · exact refl _
        · exact h3 y hy hxy.symm
        · exact symm (h3 x hx hxy)
        · exact h4 x hx y hy hxy
      · intro k hk y hy hky
        rcases List.mem_cons.1 hy with rfl | hy
        · simp only at hky; omega
        · obtain ⟨x, hx, e⟩ := h5 k hk y hy hky
          exact ⟨x, List.mem_cons_of_mem _ hx, e⟩

theorem lastClass_le : ∀ (out : List (Nat × Nat)) (last : Nat), last ≤ lastClass last out ∧ (∀ x ∈ out, x.2 ≤ lastClass last out) ∧
    (lastClass last out = last ∨ ∃ x ∈ out, x.2 = lastClass last out)
  | [], last => by simp [lastClass]
  | x :: out, last => by
    obtain ⟨h1, h2, h3⟩ := lastClass_le out (max last x.2)
    have e : lastClass last (x :: out) = lastClass (max last x.2) out := rfl
    rw [e]
    refine ⟨by omega, ?_, ?_⟩
    · intro y hy
      rcases List.mem_cons.1 hy with rfl | hy
      · omega
      · exact h2 y hy
    · rcases h3 with h3 | ⟨y, hy, h3⟩
      · rcases Nat.le_total last x.2 with h | h
        · exact Or.inr ⟨x, List.mem_cons_self, by rw [h3]; omega⟩
        · exact Or.inl (by rw [h3]; omega)
      · exact Or.inr ⟨y, List.mem_cons_of_mem _ hy, h3⟩

/-- The library's `qsort` sorts with every comparison that is an order. -/
def SortsStates (sort : StateSort) : Prop := ∀ cmp, Orders cmp → Sorts cmp (sort cmp)

theorem getD_of_getElem? {α : Type} {l : List α} {i : Nat} {x d : α} (h : l[i]? = some x) : l.getD i d = x := by
  rw [List.getD_eq_getElem?_getD, h]; rfl

theorem classInv_initial {sort : StateSort} (hsort : SortsStates sort) (defaults : List Text) {nodes : List DfaNode} (hne : nodes ≠ []) :
    ClassInv defaults nodes (initialClasses sort defaults nodes) := by
  obtain ⟨hperm, _⟩ := hsort _ (orders_initial defaults nodes) (List.range nodes.length)
  unfold initialClasses
  cases hs : sort (initialCompare defaults nodes) (List.range nodes.length) with
  | nil =>
    rw [hs] at hperm
    have := hperm.length_eq
    simp only [List.length_nil, List.length_range] at this
    exact absurd (List.length_eq_zero_iff.1 this.symm) hne
  | cons i l =>
    rw [hs] at hperm
    simp only
    obtain ⟨h1, h2, h3, h4, h5⟩ := assignLoop_spec (defaults := defaults) (nodes := nodes) l i 0
    generalize hout : assignLoop (initialCompare defaults nodes) i 0 l = out at h1 h2 h3 h4 h5
    have hmap : ((i, 0) :: out).map Prod.fst = i :: l := by rw [List.map_cons, h1]
    have hnd : (((i, 0) :: out).map Prod.fst).Nodup := by rw [hmap]; exact hperm.symm.nodup List.nodup_range
    have hlt : ∀ x ∈ (i, 0) :: out, x.1 < (List.replicate nodes.length 0).length := by
      intro x hx
      have : x.1 ∈ i :: l := by rw [← hmap]; exact List.mem_map_of_mem hx
      have := hperm.mem_iff.1 this
      rw [List.length_replicate]; exact List.mem_range.1 this
    have hmem : ∀ k, k < nodes.length → ∃ x ∈ (i, 0) :: out, x.1 = k := by
      intro k hk
      have : k ∈ i :: l := hperm.mem_iff.2 (List.mem_range.2 hk)
      rw [← hmap] at this
      obtain ⟨x, hx, e⟩ := List.mem_map.1 this
      exact ⟨x, hx, e⟩
    have hget : ∀ x ∈ (i, 0) :: out, (storeClasses (List.replicate nodes.length 0) ((i, 0) :: out)).getD x.1 0 = x.2 := fun x hx =>
      getD_of_getElem? (storeClasses_mem _ _ hnd hlt x hx)
    obtain ⟨_, l2, l3⟩ := lastClass_le ((i, 0) :: out) 0
    refine ⟨by rw [storeClasses_length]; simp, hperm, ?_, ?_, ?_⟩
    · intro a b ha hb hab
      obtain ⟨x, hx, rfl⟩ := hmem a ha
      obtain ⟨y, hy, rfl⟩ := hmem b hb
      simp only at hab
      rw [hget x hx, hget y hy] at hab
      rcases List.mem_cons.1 hx with rfl | hx <;> rcases List.mem_cons.1 hy with rfl | hy
      · exact compareAttrs_eq.2 rfl
      · exact h3 y hy hab.symm
      · exact compareAttrs_eq.2 (compareAttrs_eq.1 (h3 x hx hab)).symm
      · exact h4 x hx y hy hab
    · intro a ha
      obtain ⟨x, hx, rfl⟩ := hmem a ha
      simp only
      rw [hget x hx]
      exact l2 x hx
    · intro k hk
      simp only at hk
      have key : ∃ x ∈ (i, 0) :: out, x.2 = k := by
        cases k with
        | zero => exact ⟨_, List.mem_cons_self, rfl⟩
        | succ k =>
          rcases l3 with l3 | ⟨y, hy, l3⟩
          · omega
          · rcases List.mem_cons.1 hy with rfl | hy
            · simp only at l3; omega
            · obtain ⟨x, hx, e⟩ := h5 (k + 1) (by omega) y hy (by omega)
              exact ⟨x, List.mem_cons_of_mem _ hx, e⟩
      obtain ⟨x, hx, e⟩ := key
      refine ⟨x.1, by have := hlt x hx; rwa [List.length_replicate] at this, ?_⟩
      simp only
      rw [hget x hx, e]

end Mairix
