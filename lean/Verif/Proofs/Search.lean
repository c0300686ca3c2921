import Verif.Model.Search
import Verif.Spec.Query
import Verif.Props.Substring

/-! # Hit vectors -/

namespace Mairix
open Spec

/-- `hits` is a vector of length `n` that is true exactly where `P` holds. -/
def IsVec (n : Nat) (hits : List Bool) (P : Nat → Prop) : Prop :=
  hits.length = n ∧ ∀ i, i < n → (hits[i]? = some true ↔ P i)

theorem IsVec.congr {n hits P Q} (h : IsVec n hits P) (e : ∀ i, i < n → (P i ↔ Q i)) : IsVec n hits Q :=
  ⟨h.1, fun i hi => (h.2 i hi).trans (e i hi)⟩

theorem IsVec.false_iff {n hits P} (h : IsVec n hits P) {i} (hi : i < n) : hits[i]? = some false ↔ ¬ P i := by
  rw [← h.2 i hi]
  have : i < hits.length := by rw [h.1]; exact hi
  rw [List.getElem?_eq_getElem this]
  simp

theorem isVec_zeros (n) : IsVec n (List.replicate n false) (fun _ => False) := by
  refine ⟨by simp, ?_⟩
  intro i hi
  simp [hi]

theorem isVec_ones (n) : IsVec n (List.replicate n true) (fun _ => True) := by
  refine ⟨by simp, ?_⟩
  intro i hi
  simp [hi]

theorem IsVec.zipWith {n a b P Q} (ha : IsVec n a P) (hb : IsVec n b Q) (f : Bool → Bool → Bool)
    (R : Nat → Prop) (hR : ∀ i x y, i < n → (x = true ↔ P i) → (y = true ↔ Q i) → (f x y = true ↔ R i)) :
    IsVec n (List.zipWith f a b) R := by
  refine ⟨by simp [ha.1, hb.1], ?_⟩
  intro i hi
  have h1 : i < a.length := by rw [ha.1]; exact hi
  have h2 : i < b.length := by rw [hb.1]; exact hi
  have pa := ha.2 i hi
  have pb := hb.2 i hi
  rw [List.getElem?_eq_getElem h1] at pa
  rw [List.getElem?_eq_getElem h2] at pb
  rw [List.getElem?_zipWith, List.getElem?_eq_getElem h1, List.getElem?_eq_getElem h2]
  simp only [Option.some.injEq] at pa pb ⊢
  exact hR i _ _ hi pa pb

theorem IsVec.and {n a b P Q} (ha : IsVec n a P) (hb : IsVec n b Q) :
    IsVec n (List.zipWith (· && ·) a b) (fun i => P i ∧ Q i) :=
  ha.zipWith hb _ _ (by intro i x y _ h1 h2; simp [h1, h2])

theorem IsVec.andCombine {n a b P Q} (neg : Bool) (ha : IsVec n a P) (hb : IsVec n b Q) :
    IsVec n (andCombine neg a b) (fun i => P i ∧ (if neg then ¬ Q i else Q i)) :=
  ha.zipWith hb _ _ (by
    intro i x y _ h1 h2
    cases neg
    · simp [h1, h2]
    · simp [h1, ← h2])

theorem IsVec.orCombine {n a b P Q} (ha : IsVec n a P) (hb : IsVec n b Q) :
    IsVec n (orCombine a b) (fun i => P i ∨ Q i) :=
  ha.zipWith hb _ _ (by intro i x y _ h1 h2; simp [h1, h2])

theorem IsVec.map {α : Type} (l : List α) (f : α → Bool) :
    IsVec l.length (l.map f) (fun i => ∃ x, l[i]? = some x ∧ f x = true) := by
  refine ⟨by simp, ?_⟩
  intro i hi
  simp [hi]

theorem markHits_ok : ∀ (l : List Nat) {n hits P}, IsVec n hits P → (∀ i ∈ l, i < n) →
    ∃ h', markHits l hits = .ok h' ∧ IsVec n h' (fun i => P i ∨ i ∈ l) := by
  intro l
  induction l with
  | nil => intro n hits P h _; exact ⟨hits, rfl, h.congr (by simp)⟩
  | cons a l ih =>
    intro n hits P h hl
    have ha : a < hits.length := by rw [h.1]; exact hl a (by simp)
    have hv : IsVec n (hits.set a true) (fun i => P i ∨ i = a) := by
      refine ⟨by simp [h.1], ?_⟩
      intro i hi
      by_cases e : i = a
      · subst e; simp [List.getElem?_set_self ha]
      · rw [List.getElem?_set_ne (Ne.symm e), h.2 i hi]; simp [e]
    obtain ⟨h', e1, e2⟩ := ih hv (fun i hi => hl i (by simp [hi]))
    refine ⟨h', by simp [markHits, ha, e1], e2.congr ?_⟩
    intro i _
    simp [or_assoc]

theorem matchString_ok (key : Text) : ∀ (tt : DbTable) {n hits P}, IsVec n hits P →
    (∀ w enc, (some w, enc) ∈ tt → ∀ i ∈ readAll enc, i < n) →
    ∃ h', matchString key tt hits = .ok h' ∧
      IsVec n h' (fun i => P i ∨ ∃ enc, (some key, enc) ∈ tt ∧ i ∈ readAll enc) := by
  intro tt
  induction tt with
  | nil => intro n hits P h _; exact ⟨hits, rfl, h.congr (by simp)⟩
  | cons a tt ih =>
    obtain ⟨tok, enc⟩ := a
    intro n hits P h hl
    by_cases e : tok = some key
    · obtain ⟨h1, e1, v1⟩ := markHits_ok (readAll enc) h (hl key enc (by simp [e]))
      obtain ⟨h2, e2, v2⟩ := ih v1 (fun w enc' hm => hl w enc' (by simp [hm]))
      refine ⟨h2, by simp [matchString, e, e1, e2, bind, Except.bind], v2.congr ?_⟩
      intro i _
      subst e
      simp only [List.mem_cons, Prod.mk.injEq, true_and]
      grind
    · obtain ⟨h2, e2, v2⟩ := ih h (fun w enc' hm => hl w enc' (by simp [hm]))
      refine ⟨h2, by simp [matchString, e, e2, bind, Except.bind], v2.congr ?_⟩
      intro i _
      have e' : ¬ some key = tok := fun h => e h.symm
      simp [e']

theorem matchString2_ok (key : Text) : ∀ (tt : DbTable2) {n hits P}, IsVec n hits P →
    (∀ w enc0 enc1, (w, enc0, enc1) ∈ tt → w ≠ none ∧ ∀ i ∈ readAll enc1, i < n) →
    ∃ h', matchString2 key tt hits = .ok h' ∧
      IsVec n h' (fun i => P i ∨ ∃ enc0 enc1, (some key, enc0, enc1) ∈ tt ∧ i ∈ readAll enc1) := by
  intro tt
  induction tt with
  | nil => intro n hits P h _; exact ⟨hits, rfl, h.congr (by simp)⟩
  | cons a tt ih =>
    obtain ⟨tok, enc0, enc1⟩ := a
    intro n hits P h hl
    cases tok with
    | none => exact absurd rfl (hl none enc0 enc1 (by simp)).1
    | some tok =>
      by_cases e : tok = key
      · obtain ⟨h1, e1, v1⟩ := markHits_ok (readAll enc1) h (hl (some tok) enc0 enc1 (by simp)).2
        obtain ⟨h2, e2, v2⟩ := ih v1 (fun w x y hm => hl w x y (by simp [hm]))
        refine ⟨h2, by simp [matchString2, e, e1, e2, bind, Except.bind], v2.congr ?_⟩
        intro i _
        subst e
        simp only [List.mem_cons, Prod.mk.injEq, true_and]
        grind
      · obtain ⟨h2, e2, v2⟩ := ih h (fun w x y hm => hl w x y (by simp [hm]))
        refine ⟨h2, by simp [matchString2, e, e2, bind, Except.bind], v2.congr ?_⟩
        intro i _
        have e' : ¬ key = tok := fun h => e h.symm
        simp [e']

/-- The condition the approximate matcher decides: the specified one, if an anchored search allows no
errors. -/
theorem substringMatch_contains (P word : Text) (k : Nat) (anch : Bool) (h0 : P ≠ []) (hP : P.length ≤ 31)
    (ha : anch = true → k = 0) :
    ∃ b, substringMatch P k anch word = .ok b ∧ (b = true ↔ Contains anch k P word) := by
  by_cases hw : word = []
  · subst hw
    exact ⟨false, C16_empty_word P k anch h0 hP, by simp [Contains]⟩
  cases anch with
  | false =>
    obtain ⟨b, hb, h⟩ := C16_substring P word k h0 hP hw
    exact ⟨b, hb, h.trans (by simp [Contains, hw])⟩
  | true =>
    have := ha rfl; subst this
    obtain ⟨b, hb, h⟩ := C17_anchored_exact P word 0 h0 hP hw
    exact ⟨b, hb, h.trans (by simp [Contains, hw])⟩

theorem matchSubstringInTable_ok (P : Text) (k : Nat) (anch : Bool) (h0 : P ≠ []) (hP : P.length ≤ 31)
    (ha : anch = true → k = 0) : ∀ (tt : DbTable) {n hits Q}, IsVec n hits Q →
    (∀ w enc, (some w, enc) ∈ tt → ∀ i ∈ readAll enc, i < n) →
    ∃ h', matchSubstringInTable P k anch tt hits = .ok h' ∧
      IsVec n h' (fun i => Q i ∨ ∃ v enc, (some v, enc) ∈ tt ∧ Contains anch k P v ∧ i ∈ readAll enc) := by
  intro tt
  induction tt with
  | nil => intro n hits Q h _; exact ⟨hits, rfl, h.congr (by simp)⟩
  | cons a tt ih =>
    obtain ⟨tok, enc⟩ := a
    intro n hits Q h hl
    cases tok with
    | none =>
      obtain ⟨h2, e2, v2⟩ := ih h (fun w enc' hm => hl w enc' (by simp [hm]))
      exact ⟨h2, by simp [matchSubstringInTable, e2], v2.congr (by intro i _; simp)⟩
    | some tok =>
      obtain ⟨b, hb, hc⟩ := substringMatch_contains P tok k anch h0 hP ha
      cases b with
      | true =>
        obtain ⟨h1, e1, v1⟩ := markHits_ok (readAll enc) h (hl tok enc (by simp))
        obtain ⟨h2, e2, v2⟩ := ih v1 (fun w enc' hm => hl w enc' (by simp [hm]))
        refine ⟨h2, by simp [matchSubstringInTable, hb, e1, e2, bind, Except.bind], v2.congr ?_⟩
        intro i _
        have hc := hc.1 rfl
        simp only [List.mem_cons, Prod.mk.injEq, Option.some.injEq]
        constructor
        · rintro ((hq | hq) | ⟨v, e, h1, h2, h3⟩)
          · exact .inl hq
          · exact .inr ⟨tok, enc, .inl ⟨rfl, rfl⟩, hc, hq⟩
          · exact .inr ⟨v, e, .inr h1, h2, h3⟩
        · rintro (hq | ⟨v, e, ⟨rfl, rfl⟩ | h1, h2, h3⟩)
          · exact .inl (.inl hq)
          · exact .inl (.inr h3)
          · exact .inr ⟨v, e, h1, h2, h3⟩
      | false =>
        obtain ⟨h2, e2, v2⟩ := ih h (fun w enc' hm => hl w enc' (by simp [hm]))
        refine ⟨h2, by simp [matchSubstringInTable, hb, e2, bind, Except.bind], v2.congr ?_⟩
        intro i _
        have hc : ¬ Contains anch k P tok := fun hh => by simpa using hc.2 hh
        simp only [List.mem_cons, Prod.mk.injEq, Option.some.injEq]
        constructor
        · rintro (hq | ⟨v, e, h1, h2, h3⟩)
          · exact .inl hq
          · exact .inr ⟨v, e, .inr h1, h2, h3⟩
        · rintro (hq | ⟨v, e, ⟨rfl, rfl⟩ | h1, h2, h3⟩)
          · exact .inl hq
          · exact absurd h2 hc
          · exact .inr ⟨v, e, h1, h2, h3⟩

theorem buildMatchVector_ok {P : Text} (h0 : P ≠ []) (hP : P.length ≤ 31) :
    ∃ x, buildMatchVector P = .ok x := by
  have : ¬ (P.length > 31 ∨ P.length = 0) := by
    have := List.length_pos_iff.2 h0; omega
  exact ⟨_, by simp only [buildMatchVector, if_neg this]; rfl⟩

theorem matchSubstring_ok (P : Text) (k : Nat) (anch : Bool) (h0 : P ≠ []) (hP : P.length ≤ 31)
    (ha : anch = true → k = 0) (tt : DbTable) {n hits Q} (h : IsVec n hits Q)
    (hl : ∀ w enc, (some w, enc) ∈ tt → ∀ i ∈ readAll enc, i < n) :
    ∃ h', matchSubstring tt P k anch hits = .ok h' ∧
      IsVec n h' (fun i => Q i ∨ ∃ v enc, (some v, enc) ∈ tt ∧ Contains anch k P v ∧ i ∈ readAll enc) := by
  obtain ⟨x, hx⟩ := buildMatchVector_ok h0 hP
  obtain ⟨h', e, v⟩ := matchSubstringInTable_ok P k anch h0 hP ha tt h hl
  exact ⟨h', by simp [matchSubstring, hx, e, bind, Except.bind], v⟩

theorem matchSubstringInPaths_ok (mb : List Text) (P : Text) (k : Nat) (anch : Bool) (h0 : P ≠ [])
    (hP : P.length ≤ 31) (ha : anch = true → k = 0) : ∀ (ms : List DbMsg),
    (∀ m ∈ ms, ∃ o, pathToken mb m = .ok o) →
    ∃ h', matchSubstringInPaths mb P k anch ms = .ok h' ∧
      IsVec ms.length h' (fun i => ∃ m p, ms[i]? = some m ∧ pathToken mb m = .ok (some p) ∧ Contains anch k P p) := by
  intro ms
  induction ms with
  | nil => intro _; exact ⟨[], rfl, by simp [IsVec]⟩
  | cons m ms ih =>
    intro hm
    obtain ⟨h', e, v⟩ := ih (fun m' h => hm m' (by simp [h]))
    obtain ⟨o, ho⟩ := hm m (by simp)
    have key : ∃ b : Bool, (match o with
        | none => (.ok false : Res Bool)
        | some token => substringMatch P k anch token) = .ok b ∧
        (b = true ↔ ∃ p, o = some p ∧ Contains anch k P p) := by
      cases o with
      | none => exact ⟨false, rfl, by simp⟩
      | some p =>
        obtain ⟨b, hb, hc⟩ := substringMatch_contains P p k anch h0 hP ha
        exact ⟨b, hb, by simp [hc]⟩
    obtain ⟨b, hb, hc⟩ := key
    refine ⟨b :: h', ?_, by simp [v.1], ?_⟩
    · simp only [matchSubstringInPaths, ho, bind, Except.bind]
      cases o <;> simp only at hb ⊢ <;> simp [hb, e] at * <;> simp_all
    · intro i hi
      cases i with
      | zero => simp [hc, ho]
      | succ i =>
        simp only [List.getElem?_cons_succ]
        exact v.2 i (by simpa using hi)

end Mairix
