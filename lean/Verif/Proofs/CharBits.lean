import Verif.Spec.Charclass

/-!
# Bitmaps of characters
-/

namespace Mairix
open Spec

theorem getD_tab {α : Type} {n : Nat} {f : Nat → α} {d : α} {i : Nat} (hi : i < n) : (tab n f).getD i d = f i := by
  unfold tab
  rw [List.getD_eq_getElem?_getD, List.getElem?_map, List.getElem?_range hi]
  rfl

theorem getD_tab_ge {α : Type} {n : Nat} {f : Nat → α} {d : α} {i : Nat} (hi : n ≤ i) : (tab n f).getD i d = d := by
  unfold tab
  rw [List.getD_eq_getElem?_getD, List.getElem?_eq_none (by simp [hi])]
  rfl

theorem mask_succ {n : Nat} {f : Nat → Bool} : mask (n + 1) f = if f n then mask n f ||| 1 <<< n else mask n f := by
  unfold mask
  rw [List.range_succ, List.foldl_append]
  rfl

theorem testBit_mask' {f : Nat → Bool} (i : Nat) : ∀ n : Nat, (mask n f).testBit i = (decide (i < n) && f i)
  | 0 => by
    show (0 : Nat).testBit i = _
    simp
  | n + 1 => by
    have ih := testBit_mask' (f := f) i n
    rw [mask_succ]
    by_cases hi : i = n
    · subst hi
      cases hf : f i with
      | true => simp [Nat.testBit_shiftLeft]
      | false =>
        simp only [Bool.false_eq_true, if_false, Bool.and_false]
        rw [ih]; simp
    · have hb : (1 <<< n).testBit i = false := by
        rw [Nat.testBit_shiftLeft]
        by_cases hn : i ≥ n
        · have : (1 : Nat).testBit (i - n) = false := by
            obtain ⟨k, hk⟩ : ∃ k, i - n = k + 1 := ⟨i - n - 1, by omega⟩
            rw [hk, Nat.testBit_succ]
            simp
          rw [this, Bool.and_false]
        · simp [hn]
      have hlt : decide (i < n + 1) = decide (i < n) := by
        rw [decide_eq_decide]; omega
      rw [hlt]
      split
      · rw [Nat.testBit_or, ih, hb, Bool.or_false]
      · exact ih

theorem testBit_mask {n : Nat} {f : Nat → Bool} {i : Nat} (hi : i < n) : (mask n f).testBit i = f i := by
  rw [testBit_mask']; simp [hi]

theorem testBit_mask_ge {n : Nat} {f : Nat → Bool} {i : Nat} (hi : n ≤ i) : (mask n f).testBit i = false := by
  rw [testBit_mask']; simp; omega

attribute [local irreducible] mask

namespace CharBits

/-- The upper half of a word is set only if bit 31 is. -/
def Clean (b : CharBits) : Prop := ∀ i, i < 8 → b.up i = true → b.lo (32 * i + 31) = true

theorem test_clean {b : CharBits} (h : Clean b) {c : Nat} (hc : c < 256) : b.test c = b.lo c := by
  unfold test
  cases hl : b.lo c with
  | true => rfl
  | false =>
    rw [Bool.false_or]
    cases hm : c % 32 == 31 with
    | false => rfl
    | true =>
      have hm' : c % 32 = 31 := by simpa using hm
      cases hu : b.up (c / 32) with
      | false => rfl
      | true =>
        have := h (c / 32) (by omega) hu
        rw [show 32 * (c / 32) + 31 = c by omega, hl] at this
        cases this

theorem lo_set {b : CharBits} {c i : Nat} (hi : i < 256) : (b.set c).lo i = (b.lo i || i == c) := by
  rw [CharBits.lo, CharBits.set]; exact testBit_mask hi
theorem up_set {b : CharBits} {c i : Nat} (hi : i < 8) : (b.set c).up i = (b.up i || (c % 32 == 31 && i == c / 32)) := by
  rw [CharBits.up, CharBits.set]; exact testBit_mask hi
theorem lo_empty {i : Nat} : empty.lo i = false := by
  rcases Nat.lt_or_ge i 256 with h | h
  · rw [lo, empty]; exact testBit_mask h
  · rw [lo, empty]; exact testBit_mask_ge h
theorem up_empty {i : Nat} : empty.up i = false := by
  rcases Nat.lt_or_ge i 8 with h | h
  · rw [up, empty]; exact testBit_mask h
  · rw [up, empty]; exact testBit_mask_ge h
theorem lo_invert {b : CharBits} {i : Nat} (hi : i < 256) : b.invert.lo i = !b.lo i := by
  rw [CharBits.lo, CharBits.invert]; exact testBit_mask hi
theorem up_invert {b : CharBits} {i : Nat} : b.invert.up i = b.up i := by rw [CharBits.up, CharBits.invert]; rfl
theorem lo_diff {a b : CharBits} {i : Nat} (hi : i < 256) : (a.diff b).lo i = (a.lo i && !b.lo i) := by
  rw [CharBits.lo, CharBits.diff]; exact testBit_mask hi
theorem up_diff {a b : CharBits} {i : Nat} (hi : i < 8) : (a.diff b).up i = (a.up i && !b.up i) := by
  rw [CharBits.up, CharBits.diff]; exact testBit_mask hi
theorem lo_union {a b : CharBits} {i : Nat} (hi : i < 256) : (a.union b).lo i = (a.lo i || b.lo i) := by
  rw [CharBits.lo, CharBits.union]; exact testBit_mask hi
theorem up_union {a b : CharBits} {i : Nat} (hi : i < 8) : (a.union b).up i = (a.up i || b.up i) := by
  rw [CharBits.up, CharBits.union]; exact testBit_mask hi
theorem lo_inter {a b : CharBits} {i : Nat} (hi : i < 256) : (a.inter b).lo i = (a.lo i && b.lo i) := by
  rw [CharBits.lo, CharBits.inter]; exact testBit_mask hi
theorem up_inter {a b : CharBits} {i : Nat} (hi : i < 8) : (a.inter b).up i = (a.up i && b.up i) := by
  rw [CharBits.up, CharBits.inter]; exact testBit_mask hi
theorem lo_clear {a p : CharBits} {i : Nat} (hi : i < 256) : (a.clear p).lo i = (a.lo i && !p.test i) := by
  rw [CharBits.lo, CharBits.clear]; exact testBit_mask hi
theorem up_clear {a p : CharBits} {i : Nat} (hi : i < 8) : (a.clear p).up i = (a.up i && !p.test (32 * i + 31)) := by
  rw [CharBits.up, CharBits.clear]; exact testBit_mask hi
theorem lo_all {i : Nat} (hi : i < 256) : all.lo i = true := by
  rw [CharBits.lo, CharBits.all]; exact testBit_mask hi
theorem up_all {i : Nat} : all.up i = false := by
  rcases Nat.lt_or_ge i 8 with h | h
  · rw [up, all]; exact testBit_mask h
  · rw [up, all]; exact testBit_mask_ge h

/-- Bit 31 and the upper half of a word are the same. -/
def Exact (b : CharBits) : Prop := ∀ i, i < 8 → b.up i = b.lo (32 * i + 31)

theorem exact_set {b : CharBits} (h : Exact b) {c : Nat} (hc : c < 256) : Exact (b.set c) := by
  intro i hi
  rw [up_set hi, lo_set (by omega), h i hi]
  congr 1
  rw [Bool.eq_iff_iff]
  simp only [Bool.and_eq_true, beq_iff_eq]
  omega

theorem exact_empty : Exact empty := fun i _ => by rw [up_empty, lo_empty]

theorem foldl_set : ∀ (l : List Nat) (b : CharBits), (∀ c ∈ l, c < 256) → Exact b →
    Exact (l.foldl set b) ∧ ∀ i, i < 256 → ((l.foldl set b).lo i = true ↔ b.lo i = true ∨ i ∈ l)
  | [], b, _, h => ⟨h, fun i _ => by simp⟩
  | c :: l, b, hl, h => by
    obtain ⟨h1, h2⟩ := foldl_set l (b.set c) (fun x hx => hl x (List.mem_cons_of_mem _ hx)) (exact_set h (hl c List.mem_cons_self))
    refine ⟨h1, fun i hi => ?_⟩
    rw [List.foldl_cons, h2 i hi, lo_set hi, List.mem_cons, Bool.or_eq_true, beq_iff_eq, or_assoc]

end CharBits

open CharBits

theorem addItem_spec (b : CharBits) (h : Exact b) (it : ClassItem) :
    Exact (addItem b it) ∧ ∀ c : UInt8, ((addItem b it).lo c.toNat = true ↔ b.lo c.toNat = true ∨ InItem c it) := by
  cases it with
  | single x =>
    refine ⟨exact_set h x.toNat_lt, fun c => ?_⟩
    unfold addItem
    rw [lo_set c.toNat_lt, Bool.or_eq_true, beq_iff_eq]
    unfold InItem
    rw [UInt8.toNat_inj]
  | range x y =>
    unfold addItem
    obtain ⟨h1, h2⟩ := foldl_set ((List.range 256).filter fun i => min x.toNat y.toNat ≤ i && i ≤ max x.toNat y.toNat) b
      (fun c hc => by simpa using (List.mem_filter.1 hc).1) h
    refine ⟨h1, fun c => ?_⟩
    rw [h2 _ c.toNat_lt]
    have hc := c.toNat_lt
    unfold InItem
    simp only [List.mem_filter, List.mem_range, Bool.and_eq_true, decide_eq_true_eq, UInt8.le_iff_toNat_le]
    constructor
    · rintro (h | h)
      · exact Or.inl h
      · right; omega
    · rintro (h | h)
      · exact Or.inl h
      · right; omega

theorem foldl_addItem : ∀ (l : List ClassItem) (b : CharBits), Exact b →
    Exact (l.foldl addItem b) ∧ ∀ c : UInt8, ((l.foldl addItem b).lo c.toNat = true ↔ b.lo c.toNat = true ∨ ∃ i ∈ l, InItem c i)
  | [], b, h => ⟨h, fun c => by simp⟩
  | it :: l, b, h => by
    obtain ⟨h1, h2⟩ := addItem_spec b h it
    obtain ⟨g1, g2⟩ := foldl_addItem l _ h1
    refine ⟨g1, fun c => ?_⟩
    rw [List.foldl_cons, g2 c, h2 c]
    simp only [List.mem_cons, exists_eq_or_imp]
    rw [or_assoc]

/-- What is between the brackets. -/
theorem items_bits (s : SimpleClass) : Exact (s.items.foldl addItem .empty) ∧
    ∀ c : UInt8, ((s.items.foldl addItem CharBits.empty).lo c.toNat = true ↔ InItems c s) := by
  obtain ⟨h1, h2⟩ := foldl_addItem s.items .empty exact_empty
  refine ⟨h1, fun c => ?_⟩
  rw [h2, lo_empty]
  simp [InItems]

theorem noTop_up {s : SimpleClass} (h : NoTop s) {i : Nat} (hi : i < 8) : (s.items.foldl addItem CharBits.empty).up i = false := by
  obtain ⟨h1, h2⟩ := items_bits s
  rw [h1 i hi]
  cases hb : (s.items.foldl addItem CharBits.empty).lo (32 * i + 31) with
  | false => rfl
  | true =>
    exfalso
    have hlt : 32 * i + 31 < 256 := by omega
    have he : (UInt8.ofNat (32 * i + 31)).toNat = 32 * i + 31 := by simp [UInt8.toNat_ofNat']; omega
    refine h (UInt8.ofNat (32 * i + 31)) (by rw [he]; omega) ((h2 _).1 ?_)
    rw [he]; exact hb

theorem simple_lo (s : SimpleClass) (c : UInt8) : s.bits.lo c.toNat = true ↔ InSimple c s := by
  obtain ⟨_, h2⟩ := items_bits s
  unfold SimpleClass.bits InSimple
  cases hc : s.caret with
  | false => simp only [Bool.false_eq_true, if_false]; rw [h2]; simp
  | true =>
    simp only [if_true]
    rw [lo_invert c.toNat_lt, ← h2]
    simp

theorem simple_up {s : SimpleClass} (h : NoTop s) {i : Nat} (hi : i < 8) : s.bits.up i = false := by
  unfold SimpleClass.bits
  simp only
  split
  · rw [up_invert, noTop_up h hi]
  · exact noTop_up h hi

theorem simple_exact {s : SimpleClass} (h : s.caret = false) : Exact s.bits := by
  unfold SimpleClass.bits
  rw [h]
  exact (items_bits s).1

/-- A class that is safe is what its text says. -/
theorem class_bits {e : ClassExpr} (h : SafeClass e) : Clean e.bits ∧ ∀ c : UInt8, (e.bits.lo c.toNat = true ↔ InClass c e) := by
  cases e with
  | simple s =>
    refine ⟨?_, fun c => simple_lo s c⟩
    intro i hi hu
    unfold ClassExpr.bits at hu ⊢
    cases hc : s.caret with
    | false => rw [← simple_exact hc i hi]; exact hu
    | true => rw [simple_up (h hc) hi] at hu; cases hu
  | negated s =>
    refine ⟨?_, fun c => ?_⟩
    · intro i hi hu
      unfold ClassExpr.bits at hu ⊢
      rw [up_invert] at hu
      cases hc : s.caret with
      | false => rw [simple_up (h hc) hi] at hu; cases hu
      | true =>
        rw [lo_invert (by omega)]
        unfold SimpleClass.bits at hu ⊢
        rw [hc] at hu ⊢
        simp only [if_true] at hu ⊢
        rw [up_invert, (items_bits s).1 i hi] at hu
        rw [lo_invert (by omega), hu]
        rfl
    · show (s.bits.invert.lo c.toNat = true) ↔ ¬ InSimple c s
      rw [lo_invert c.toNat_lt, ← simple_lo]
      simp
  | minus s t =>
    refine ⟨?_, fun c => ?_⟩
    · intro i hi hu
      unfold ClassExpr.bits at hu ⊢
      rw [up_diff hi, Bool.and_eq_true] at hu
      rw [lo_diff (by omega)]
      obtain ⟨h1, h2⟩ := h
      cases hs : s.caret with
      | true => rw [simple_up (h1 (Or.inl hs)) hi] at hu; cases hu.1
      | false =>
        cases ht : t.caret with
        | true => rw [simple_up (h1 (Or.inr ht)) hi] at hu; cases hu.1
        | false => rw [← simple_exact hs i hi, ← simple_exact ht i hi, hu.1, hu.2]; rfl
    · show ((s.bits.diff t.bits).lo c.toNat = true) ↔ InSimple c s ∧ ¬ InSimple c t
      rw [lo_diff c.toNat_lt, ← simple_lo, ← simple_lo]
      simp

end Mairix
