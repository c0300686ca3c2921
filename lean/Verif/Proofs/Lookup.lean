import Verif.Spec.Update

/-! Comparing paths and looking them up by bisection. -/

namespace Mairix
open Spec

theorem strcmp_eq : ∀ {a b : Text}, strcmp a b = .eq ↔ a = b := by
  intro a
  induction a with
  | nil => intro b; cases b <;> simp [strcmp]
  | cons x a ih =>
    intro b
    cases b with
    | nil => simp [strcmp]
    | cons y b =>
      simp only [strcmp]
      split
      · next h => simp only [reduceCtorEq, List.cons.injEq, false_iff]; rintro ⟨rfl, _⟩; exact absurd h (UInt8.lt_irrefl _)
      · split
        · next h => simp only [reduceCtorEq, List.cons.injEq, false_iff]; rintro ⟨rfl, _⟩; exact absurd h (UInt8.lt_irrefl _)
        · next h1 h2 =>
          rw [ih, List.cons.injEq]
          have : x = y := UInt8.le_antisymm (UInt8.not_lt.1 h2) (UInt8.not_lt.1 h1)
          simp [this]

theorem strcmp_lt : ∀ {a b : Text}, strcmp a b = .lt ↔ Before a b := by
  intro a
  induction a with
  | nil =>
    intro b
    cases b with
    | nil => simp only [strcmp, reduceCtorEq, false_iff]; intro h; cases h
    | cons => simp only [strcmp, true_iff]; exact .nil
  | cons x a ih =>
    intro b
    cases b with
    | nil => simp only [strcmp, reduceCtorEq, false_iff]; intro h; cases h
    | cons y b =>
      simp only [strcmp]
      split
      · next h => simp only [true_iff]; exact .head h
      · next h1 =>
        split
        · next h =>
          simp only [reduceCtorEq, false_iff]
          intro h'
          cases h' with
          | head h'' => exact h1 h''
          | tail => exact UInt8.lt_irrefl _ h
        · next h2 =>
          have : x = y := UInt8.le_antisymm (UInt8.not_lt.1 h2) (UInt8.not_lt.1 h1)
          subst this
          rw [ih]
          constructor
          · exact .tail
          · intro h
            cases h with
            | head h'' => exact absurd h'' (UInt8.lt_irrefl _)
            | tail h => exact h

theorem strcmp_swap : ∀ (a b : Text), strcmp a b = (strcmp b a).swap := by
  intro a
  induction a with
  | nil => intro b; cases b <;> simp [strcmp]
  | cons x a ih =>
    intro b
    cases b with
    | nil => simp [strcmp]
    | cons y b =>
      simp only [strcmp]
      by_cases h1 : x < y
      · have : ¬ y < x := fun h => UInt8.lt_irrefl _ (UInt8.lt_trans h1 h)
        simp [h1, this]
      · by_cases h2 : y < x
        · simp [h1, h2]
        · simp [h1, h2, ih b]

theorem strcmp_gt {a b : Text} : strcmp a b = .gt ↔ Before b a := by
  rw [← strcmp_lt, strcmp_swap b a]
  cases strcmp a b <;> simp

theorem before_irrefl {a : Text} : ¬ Before a a := by
  intro h
  have := strcmp_lt.2 h
  rw [strcmp_eq.2 rfl] at this
  cases this

theorem before_trans : ∀ {a b c : Text}, Before a b → Before b c → Before a c := by
  intro a b c h
  induction h generalizing c with
  | nil => intro h'; cases h' <;> exact .nil
  | head h => intro h'; cases h' with
    | head h'' => exact .head (UInt8.lt_trans h h'')
    | tail => exact .head h
  | tail h ih => intro h'; cases h' with
    | head h'' => exact .head h''
    | tail h'' => exact .tail (ih h'')

theorem before_total (a b : Text) : Before a b ∨ a = b ∨ Before b a := by
  cases h : strcmp a b with
  | lt => exact .inl (strcmp_lt.1 h)
  | eq => exact .inr (.inl (strcmp_eq.1 h))
  | gt => exact .inr (.inr (strcmp_gt.1 h))

theorem lookupCompare_spec (e : Listed) (key : Text) (kind : Kind) :
    (lookupCompare e key kind = .eq ↔ e = ⟨kind, key⟩) ∧
    (lookupCompare e key kind = .lt ↔ ListedBefore e ⟨kind, key⟩) ∧
    (lookupCompare e key kind = .gt ↔ ListedBefore ⟨kind, key⟩ e) := by
  obtain ⟨ek, ep⟩ := e
  simp only [lookupCompare, ListedBefore, Listed.mk.injEq]
  cases ek <;> cases kind <;> simp [Kind.mty, strcmp_eq, strcmp_lt, strcmp_gt]

theorem listedBefore_irrefl {a : Listed} : ¬ ListedBefore a a := by
  rintro (⟨h1, h2⟩ | ⟨_, h⟩)
  · rw [h1] at h2; cases h2
  · exact before_irrefl h

theorem listedBefore_trans {a b c : Listed} (h : ListedBefore a b) (h' : ListedBefore b c) : ListedBefore a c := by
  rcases h with ⟨h1, h2⟩ | ⟨h1, h2⟩ <;> rcases h' with ⟨h3, h4⟩ | ⟨h3, h4⟩
  · rw [h2] at h3; cases h3
  · exact .inl ⟨h1, by rw [← h3, h2]⟩
  · exact .inl ⟨by rw [h1, h3], h4⟩
  · exact .inr ⟨by rw [h1, h3], before_trans h2 h4⟩

theorem sorted_get {α : Type} {R : α → α → Prop} {l : List α} (h : l.Pairwise R) {i j : Nat} {a b : α} (hij : i < j)
    (ha : l[i]? = some a) (hb : l[j]? = some b) : R a b := by
  obtain ⟨h1, rfl⟩ := List.getElem?_eq_some_iff.1 ha
  obtain ⟨h2, rfl⟩ := List.getElem?_eq_some_iff.1 hb
  exact List.pairwise_iff_getElem.1 h i j h1 h2 hij

/-- Invariant of the bisection: the key is not before `lo` nor from `hi` on. -/
theorem lookupLoop_spec {l : List Listed} {key : Text} {kind : Kind} (hs : l.Pairwise ListedBefore) : ∀ (fuel lo hi : Nat)
    (m0 : Option Nat), hi - lo < fuel → hi ≤ l.length → (lo < hi ∨ lo = hi ∧ lo = 0 ∧ m0 = none) →
    (∀ (i : Nat), l[i]? = some ⟨kind, key⟩ → lo ≤ i ∧ i < hi) →
    ∃ r, lookupLoop l key kind fuel lo hi m0 = .ok r ∧
      (∀ k, r = some k → l[k]? = some ⟨kind, key⟩) ∧ (r = none → (⟨kind, key⟩ : Listed) ∉ l) := by
  intro fuel
  induction fuel with
  | zero => intro lo hi m0 h; omega
  | succ fuel ih =>
    intro lo hi m0 hf hh hlo hin
    have hno : ∀ lo hi : Nat, (∀ (i : Nat), l[i]? = some (⟨kind, key⟩ : Listed) → lo ≤ i ∧ i < hi) → hi ≤ lo → (⟨kind, key⟩ : Listed) ∉ l := by
      intro lo hi h hle hmem
      obtain ⟨i, hi', e⟩ := List.mem_iff_getElem.1 hmem
      have := h i (by rw [List.getElem?_eq_getElem hi', e])
      omega
    unfold lookupLoop
    by_cases hlt : lo < hi
    · rw [if_pos hlt]
      have hm : (hi + lo) / 2 < l.length := by omega
      have hget : l[(hi + lo) / 2]? = some l[(hi + lo) / 2] := by simp [hm]
      simp only [hget]
      obtain ⟨c1, c2, c3⟩ := lookupCompare_spec l[(hi + lo) / 2] key kind
      cases hc : lookupCompare l[(hi + lo) / 2] key kind with
      | eq =>
        refine ⟨_, rfl, ?_, by simp⟩
        intro k hk
        cases hk
        rw [hget, c1.1 hc]
      | gt =>
        have hin' : ∀ (i : Nat), l[i]? = some ⟨kind, key⟩ → lo ≤ i ∧ i < (hi + lo) / 2 := by
          intro i hi'
          refine ⟨(hin i hi').1, ?_⟩
          apply Classical.byContradiction
          intro hge
          rcases Nat.lt_or_ge ((hi + lo) / 2) i with h | h
          · exact listedBefore_irrefl (listedBefore_trans (c3.1 hc) (sorted_get hs h hget hi'))
          · have : i = (hi + lo) / 2 := by omega
            subst this
            rw [hget] at hi'
            rw [Option.some.injEq] at hi'
            rw [c1.2 hi'] at hc; cases hc
        simp only
        split
        · next h => exact ⟨none, rfl, by simp, fun _ => hno lo _ hin' (by omega)⟩
        · next h => exact ih lo _ _ (by omega) (by omega) (by omega) hin'
      | lt =>
        have hin' : ∀ (i : Nat), l[i]? = some ⟨kind, key⟩ → (hi + lo) / 2 + 1 ≤ i ∧ i < hi := by
          intro i hi'
          refine ⟨?_, (hin i hi').2⟩
          apply Classical.byContradiction
          intro hge
          rcases Nat.lt_or_ge i ((hi + lo) / 2) with h | h
          · exact listedBefore_irrefl (listedBefore_trans (sorted_get hs h hi' hget) (c2.1 hc))
          · have : i = (hi + lo) / 2 := by omega
            subst this
            rw [hget] at hi'
            rw [Option.some.injEq] at hi'
            rw [c1.2 hi'] at hc; cases hc
        simp only
        split
        · next h => exact ⟨none, rfl, by simp, fun _ => hno _ hi hin' (by omega)⟩
        · next h =>
          refine ih _ hi _ (by omega) hh (by omega) ?_
          intro i hi'
          have := hin' i hi'
          omega
    · rw [if_neg hlt]
      rcases hlo with h | ⟨h1, h2, rfl⟩
      · exact absurd h hlt
      · exact ⟨none, rfl, by simp, fun _ => hno lo hi hin (by omega)⟩

theorem lookupMsgpath_spec {l : List Listed} (hs : l.Pairwise ListedBefore) (key : Text) (kind : Kind) :
    ∃ r, lookupMsgpath l key kind = .ok r ∧
      (∀ k, r = some k → l[k]? = some ⟨kind, key⟩) ∧ (r = none → (⟨kind, key⟩ : Listed) ∉ l) := by
  refine lookupLoop_spec hs _ 0 l.length none (by omega) (Nat.le_refl _) ?_ ?_
  · rcases Nat.eq_zero_or_pos l.length with h | h
    · exact .inr ⟨h.symm, rfl, rfl⟩
    · exact .inl h
  intro i hi
  obtain ⟨h, _⟩ := List.getElem?_eq_some_iff.1 hi
  omega

end Mairix
