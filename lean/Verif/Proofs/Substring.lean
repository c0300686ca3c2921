import Verif.Model.Substring
import Verif.Spec.Edit

/-! # Bit-parallel matching: proofs -/

namespace Mairix
open Spec

/-! ## Alignments -/

/-- Alignment of two words with at most `k` errors, from the first letters on. -/
inductive Al : Nat → Text → Text → Prop
  | nil (k) : Al k [] []
  | mat {k p w} (c) : Al k p w → Al k (c :: p) (c :: w)
  | sub {k p w} (a b) : Al k p w → Al (k + 1) (a :: p) (b :: w)
  | del {k p w} (a) : Al k p w → Al (k + 1) (a :: p) w
  | ins {k p w} (b) : Al k p w → Al (k + 1) p (b :: w)

theorem Al.succ {k p w} (h : Al k p w) : Al (k + 1) p w := by
  induction h with
  | nil k => exact .nil _
  | mat c _ ih => exact .mat c ih
  | sub a b _ ih => exact .sub a b ih
  | del a _ ih => exact .del a ih
  | ins b _ ih => exact .ins b ih

theorem Al.mono {k k' p w} (h : Al k p w) (hk : k ≤ k') : Al k' p w := by
  induction hk with
  | refl => exact h
  | step _ ih => exact ih.succ

theorem Al.refl (k p) : Al k p p := by
  induction p with
  | nil => exact .nil _
  | cons c p ih => exact .mat c ih

theorem Al.symm {k p w} (h : Al k p w) : Al k w p := by
  induction h with
  | nil k => exact .nil _
  | mat c _ ih => exact .mat c ih
  | sub a b _ ih => exact .sub b a ih
  | del a _ ih => exact .ins a ih
  | ins b _ ih => exact .del b ih

theorem Al.insert {k p w} (h : Al k p w) : ∀ (a b : Text) (c : UInt8), w = a ++ b → Al (k + 1) p (a ++ c :: b) := by
  induction h with
  | nil k =>
    intro a b c hw
    obtain ⟨rfl, rfl⟩ := List.append_eq_nil_iff.1 hw.symm
    exact .ins c (.nil _)
  | @mat k p w x h ih =>
    intro a b c hw
    cases a with
    | nil => simp at hw; subst hw; exact .ins c (.mat x h)
    | cons y a => simp at hw; obtain ⟨rfl, rfl⟩ := hw; exact .mat _ (ih a b c rfl)
  | @sub k p w x y h ih =>
    intro a b c hw
    cases a with
    | nil => simp at hw; subst hw; exact .ins c (.sub x y h)
    | cons z a => simp at hw; obtain ⟨rfl, rfl⟩ := hw; exact .sub _ _ (ih a b c rfl)
  | @del k p w x h ih => intro a b c hw; exact .del x (ih a b c hw)
  | @ins k p w y h ih =>
    intro a b c hw
    cases a with
    | nil => simp at hw; subst hw; exact .ins c (.ins y h)
    | cons z a => simp at hw; obtain ⟨rfl, rfl⟩ := hw; exact .ins _ (ih a b c rfl)

theorem Al.delete {k p w} (h : Al k p w) :
    ∀ (a b : Text) (c : UInt8), w = a ++ c :: b → Al (k + 1) p (a ++ b) := by
  induction h with
  | nil k => intro a b c hw; simp at hw
  | @mat k p w x h ih =>
    intro a b c hw
    cases a with
    | nil => simp at hw; obtain ⟨rfl, rfl⟩ := hw; exact .del _ h
    | cons y a => simp at hw; obtain ⟨rfl, rfl⟩ := hw; exact .mat _ (ih a b c rfl)
  | @sub k p w x y h ih =>
    intro a b c hw
    cases a with
    | nil => simp at hw; obtain ⟨rfl, rfl⟩ := hw; exact .del _ h.succ
    | cons z a => simp at hw; obtain ⟨rfl, rfl⟩ := hw; exact .sub _ _ (ih a b c rfl)
  | @del k p w x h ih => intro a b c hw; exact .del x (ih a b c hw)
  | @ins k p w y h ih =>
    intro a b c hw
    cases a with
    | nil => simp at hw; obtain ⟨rfl, rfl⟩ := hw; exact h.succ.succ
    | cons z a => simp at hw; obtain ⟨rfl, rfl⟩ := hw; exact .ins _ (ih a b c rfl)

theorem Al.change {k p w} (h : Al k p w) :
    ∀ (a b : Text) (c d : UInt8), w = a ++ c :: b → Al (k + 1) p (a ++ d :: b) := by
  induction h with
  | nil k => intro a b c d hw; simp at hw
  | @mat k p w x h ih =>
    intro a b c d hw
    cases a with
    | nil => simp at hw; obtain ⟨rfl, rfl⟩ := hw; exact .sub _ _ h
    | cons y a => simp at hw; obtain ⟨rfl, rfl⟩ := hw; exact .mat _ (ih a b c d rfl)
  | @sub k p w x y h ih =>
    intro a b c d hw
    cases a with
    | nil => simp at hw; obtain ⟨rfl, rfl⟩ := hw; exact .sub _ _ h.succ
    | cons z a => simp at hw; obtain ⟨rfl, rfl⟩ := hw; exact .sub _ _ (ih a b c d rfl)
  | @del k p w x h ih => intro a b c d hw; exact .del x (ih a b c d hw)
  | @ins k p w y h ih =>
    intro a b c d hw
    cases a with
    | nil => simp at hw; obtain ⟨rfl, rfl⟩ := hw; exact .ins _ h.succ
    | cons z a => simp at hw; obtain ⟨rfl, rfl⟩ := hw; exact .ins _ (ih a b c d rfl)

theorem Spec.EditStep.cons {u v : Text} (c) (h : EditStep u v) : EditStep (c :: u) (c :: v) := by
  cases h with
  | insert a b d => exact .insert (c :: a) b d
  | delete a b d => exact .delete (c :: a) b d
  | change a b d e => exact .change (c :: a) b d e

theorem Spec.WithinEdits.cons {k u v} (c) (h : WithinEdits k u v) : WithinEdits k (c :: u) (c :: v) := by
  induction h with
  | same => exact .same _ _
  | step _ s ih => exact .step ih (s.cons c)

theorem al_iff {k u v} : Al k u v ↔ WithinEdits k u v := by
  constructor
  · intro h
    induction h with
    | nil k => exact .same _ _
    | mat c _ ih => exact ih.cons c
    | sub a b _ ih => exact .step (ih.cons a) (.change [] _ a b)
    | del a _ ih => exact .step (ih.cons a) (.delete [] _ a)
    | ins b _ ih => exact .step ih (.insert [] _ b)
  · intro h
    induction h with
    | same => exact .refl _ _
    | step _ s ih =>
      cases s with
      | insert a b c => exact ih.insert a b c rfl
      | delete a b c => exact ih.delete a b c rfl
      | change a b c d => exact ih.change a b c d rfl

theorem Spec.EditStep.reverse {u v : Text} (h : EditStep u v) : EditStep u.reverse v.reverse := by
  cases h with
  | insert a b d => simpa using EditStep.insert b.reverse a.reverse d
  | delete a b d => simpa using EditStep.delete b.reverse a.reverse d
  | change a b d e => simpa using EditStep.change b.reverse a.reverse d e

theorem Spec.WithinEdits.reverse {k u v} (h : WithinEdits k u v) : WithinEdits k u.reverse v.reverse := by
  induction h with
  | same => exact .same _ _
  | step _ s ih => exact .step ih s.reverse

theorem al_reverse {k u v} : Al k u.reverse v.reverse ↔ WithinEdits k v u := by
  rw [← al_iff]
  constructor
  · intro h; have := (al_iff.1 h).reverse; simp at this; exact (al_iff.2 this).symm
  · intro h; have := (al_iff.1 h.symm).reverse; exact al_iff.2 this

/-! ## The recurrence -/

theorem al_nil_right {k p} : Al k p [] ↔ p.length ≤ k := by
  constructor
  · intro h
    generalize hw : ([] : Text) = w at h
    induction h with
    | nil => simp
    | mat => cases hw
    | sub => cases hw
    | del a _ ih => have := ih hw; simp; omega
    | ins => cases hw
  · induction p generalizing k with
    | nil => intro _; exact .nil _
    | cons c p ih =>
      intro h
      simp at h
      obtain ⟨k, rfl⟩ : ∃ j, k = j + 1 := ⟨k - 1, by omega⟩
      exact .del c (ih (by omega))

theorem al_cons_cons {k a p c w} : Al k (a :: p) (c :: w) ↔
    (a = c ∧ Al k p w) ∨ (∃ j, k = j + 1 ∧ (Al j p w ∨ Al j p (c :: w) ∨ Al j (a :: p) w)) := by
  constructor
  · intro h
    cases h with
    | mat c h => exact .inl ⟨rfl, h⟩
    | sub a b h => exact .inr ⟨_, rfl, .inl h⟩
    | del a h => exact .inr ⟨_, rfl, .inr (.inl h)⟩
    | ins b h => exact .inr ⟨_, rfl, .inr (.inr h)⟩
  · rintro (⟨rfl, h⟩ | ⟨j, rfl, h | h | h⟩)
    · exact .mat _ h
    · exact .sub _ _ h
    · exact .del _ h
    · exact .ins _ h

/-- Some text ending here (a prefix of the reversed text) is within `k` of `p` (reversed). -/
def Ends (k : Nat) (p t : Text) : Prop := ∃ w, w <+: t ∧ Al k p w

theorem ends_nil_left {k t} : Ends k [] t := ⟨[], List.nil_prefix, .nil _⟩

theorem ends_nil_right {k p} : Ends k p [] ↔ p.length ≤ k := by
  rw [← al_nil_right]
  constructor
  · rintro ⟨w, hw, h⟩; rw [List.prefix_nil] at hw; subst hw; exact h
  · intro h; exact ⟨[], List.nil_prefix, h⟩

theorem Ends.mono {k k' p t} (h : Ends k p t) (hk : k ≤ k') : Ends k' p t :=
  let ⟨w, hw, ha⟩ := h; ⟨w, hw, ha.mono hk⟩

theorem ends_cons_cons {k a p c t} : Ends k (a :: p) (c :: t) ↔
    (a = c ∧ Ends k p t) ∨ (∃ j, k = j + 1 ∧ (Ends j p t ∨ Ends j p (c :: t) ∨ Ends j (a :: p) t)) := by
  constructor
  · rintro ⟨w, hw, h⟩
    cases w with
    | nil =>
      rw [al_nil_right] at h
      obtain ⟨k, rfl⟩ : ∃ j, k = j + 1 := ⟨k - 1, by simp at h; omega⟩
      exact .inr ⟨k, rfl, .inl ⟨[], List.nil_prefix, al_nil_right.2 (by simpa using h)⟩⟩
    | cons d w =>
      obtain ⟨rfl, hw'⟩ := List.cons_prefix_cons.1 hw
      rcases al_cons_cons.1 h with ⟨e, h⟩ | ⟨j, e, h | h | h⟩
      · exact .inl ⟨e, w, hw', h⟩
      · exact .inr ⟨j, e, .inl ⟨w, hw', h⟩⟩
      · exact .inr ⟨j, e, .inr (.inl ⟨_, List.cons_prefix_cons.2 ⟨rfl, hw'⟩, h⟩)⟩
      · exact .inr ⟨j, e, .inr (.inr ⟨w, hw', h⟩)⟩
  · rintro (⟨rfl, w, hw, h⟩ | ⟨j, rfl, ⟨w, hw, h⟩ | ⟨w, hw, h⟩ | ⟨w, hw, h⟩⟩)
    · exact ⟨_, List.cons_prefix_cons.2 ⟨rfl, hw⟩, .mat _ h⟩
    · exact ⟨_, List.cons_prefix_cons.2 ⟨rfl, hw⟩, .sub _ _ h⟩
    · exact ⟨w, hw, .del _ h⟩
    · exact ⟨_, List.cons_prefix_cons.2 ⟨rfl, hw⟩, .ins _ h⟩

/-- What the matcher tracks for the first `i` pattern letters (`i > 0`) and `d` errors, after
reading the reversed text `t`. -/
def Good (anch : Bool) (P : Text) (d i : Nat) (t : Text) : Prop :=
  if anch then
    Al d (P.take i).reverse t ∨ ∃ j, d = j + 1 ∧ Ends j (P.take i).tail.reverse t
  else Ends d (P.take i).reverse t

theorem Good.mono {anch P d d' i t} (h : Good anch P d i t) (hd : d ≤ d') : Good anch P d' i t := by
  unfold Good at *
  cases anch with
  | false => exact Ends.mono h hd
  | true =>
    rcases h with h | ⟨j, rfl, h⟩
    · exact .inl (h.mono hd)
    · exact .inr ⟨d' - 1, by omega, h.mono (by omega)⟩

/-- `i = 0` stands for the zero shifted in. -/
def Prev (anch : Bool) (P : Text) (d i : Nat) (t : Text) : Prop := i = 0 ∨ Good anch P d i t

theorem good_init {anch P d i} (hi : i < P.length) : Good anch P d (i + 1) [] ↔ i < d := by
  unfold Good
  cases anch
  · simp only [Bool.false_eq_true, if_false, ends_nil_right, List.length_reverse, List.length_take]
    omega
  · simp only [if_true, ends_nil_right, al_nil_right, List.length_reverse, List.length_take,
      List.length_tail]
    constructor
    · rintro (h | ⟨j, rfl, h⟩) <;> omega
    · intro h; left; omega

theorem take_succ_reverse {P : Text} {i : Nat} (hi : i < P.length) :
    (P.take (i + 1)).reverse = P[i] :: (P.take i).reverse := by
  rw [List.take_succ_eq_append_getElem hi]; simp

theorem take_succ_tail_reverse {P : Text} {i : Nat} (hi : i < P.length) (h0 : i ≠ 0) :
    (P.take (i + 1)).tail.reverse = P[i] :: (P.take i).tail.reverse := by
  rw [List.take_succ_eq_append_getElem hi]
  have : P.take i ≠ [] := by
    intro h; have := congrArg List.length h; simp only [List.length_take, List.length_nil] at this; omega
  rw [List.tail_append_of_ne_nil this]; simp

theorem good_step {anch P d i c t} (hi : i < P.length) :
    Good anch P d (i + 1) (c :: t) ↔
      (P[i] = c ∧ (i = 0 → anch = true → t = []) ∧ Prev anch P d i t) ∨
      (∃ j, d = j + 1 ∧ (Prev anch P j i t ∨ Prev anch P j i (c :: t) ∨ Good anch P j (i + 1) t)) := by
  cases anch with
  | false =>
    have hp : ∀ d t, Prev false P d i t ↔ Ends d (P.take i).reverse t := by
      intro d t
      unfold Prev Good
      simp only [Bool.false_eq_true, if_false]
      constructor
      · rintro (rfl | h)
        · exact ends_nil_left
        · exact h
      · exact .inr
    simp only [hp]
    unfold Good
    simp only [Bool.false_eq_true, if_false, take_succ_reverse hi, ends_cons_cons]
    simp
  | true =>
    by_cases h0 : i = 0
    · subst h0
      unfold Prev Good
      simp only [if_true, take_succ_reverse hi, al_cons_cons, true_or]
      have ht : (P.take (0 + 1)).tail.reverse = [] := by cases P <;> simp
      simp only [ht, ends_nil_left, and_true, List.take_zero, List.reverse_nil]
      cases d with
      | zero =>
        simp
        intro _
        constructor
        · intro h; cases h; rfl
        · rintro rfl; exact .nil _
      | succ d => simp
    · unfold Prev
      simp only [h0, false_or, false_imp_iff, true_and]
      unfold Good
      simp only [if_true, take_succ_reverse hi, take_succ_tail_reverse hi h0, al_cons_cons, ends_cons_cons]
      constructor
      · rintro ((⟨e, h⟩ | ⟨j, rfl, h | h | h⟩) | ⟨j, rfl, (⟨e, h⟩ | ⟨j, rfl, h | h | h⟩)⟩)
        · exact .inl ⟨e, .inl h⟩
        · exact .inr ⟨j, rfl, .inl (.inl h)⟩
        · exact .inr ⟨j, rfl, .inr (.inl (.inl h))⟩
        · exact .inr ⟨j, rfl, .inr (.inr (.inl h))⟩
        · exact .inl ⟨e, .inr ⟨_, rfl, h⟩⟩
        · exact .inr ⟨_, rfl, .inl (.inr ⟨_, rfl, h⟩)⟩
        · exact .inr ⟨_, rfl, .inr (.inl (.inr ⟨_, rfl, h⟩))⟩
        · exact .inr ⟨_, rfl, .inr (.inr (.inr ⟨_, rfl, h⟩))⟩
      · rintro (⟨e, h | ⟨j, rfl, h⟩⟩ | ⟨j, rfl, (h | ⟨j, rfl, h⟩) | (h | ⟨j, rfl, h⟩) | (h | ⟨j, rfl, h⟩)⟩)
        · exact .inl (.inl ⟨e, h⟩)
        · exact .inr ⟨j, rfl, .inl ⟨e, h⟩⟩
        · exact .inl (.inr ⟨_, rfl, .inl h⟩)
        · exact .inr ⟨_, rfl, .inr ⟨_, rfl, .inl h⟩⟩
        · exact .inl (.inr ⟨_, rfl, .inr (.inl h)⟩)
        · exact .inr ⟨_, rfl, .inr ⟨_, rfl, .inr (.inl h)⟩⟩
        · exact .inl (.inr ⟨_, rfl, .inr (.inr h)⟩)
        · exact .inr ⟨_, rfl, .inr ⟨_, rfl, .inr (.inr h)⟩⟩

/-! ## Bits -/

theorem matchTable_getLsbD (P : Text) : ∀ (i : Nat) (a : UInt8 → BitVec 64) (c : UInt8) (b : Nat),
    b < 64 → ((matchTable P i a c).getLsbD b =
      ((a c).getLsbD b && !decide (i ≤ b ∧ P[b - i]? = some c))) := by
  induction P with
  | nil => intro i a c b _; simp [matchTable]
  | cons p ps ih =>
    intro i a c b hb
    rw [matchTable, ih _ _ _ _ hb]
    by_cases hbi : b = i
    · subst hbi
      have : ¬ (b + 1 ≤ b) := by omega
      by_cases hc : c = p
      · subst hc; simp [this, hb]
      · simp [hc, Ne.symm hc, this]
    · have e : (i ≤ b ∧ (p :: ps)[b - i]? = some c) ↔ (i + 1 ≤ b ∧ ps[b - (i + 1)]? = some c) := by
        constructor
        · rintro ⟨h1, h2⟩
          obtain ⟨j, rfl⟩ : ∃ j, b = i + 1 + j := ⟨b - (i + 1), by omega⟩
          have e1 : i + 1 + j - i = j + 1 := by omega
          have e2 : i + 1 + j - (i + 1) = j := by omega
          rw [e1] at h2; rw [e2]
          exact ⟨by omega, by simpa using h2⟩
        · rintro ⟨h1, h2⟩
          obtain ⟨j, rfl⟩ : ∃ j, b = i + 1 + j := ⟨b - (i + 1), by omega⟩
          have e1 : i + 1 + j - i = j + 1 := by omega
          have e2 : i + 1 + j - (i + 1) = j := by omega
          rw [e2] at h2; rw [e1]
          exact ⟨by omega, by simpa using h2⟩
      have hz : ((1 : BitVec 64) <<< i).getLsbD b = false := by
        have e : (1 : BitVec 64) = 1#64 := rfl
        rw [BitVec.getLsbD_shiftLeft, e, BitVec.getLsbD_one]
        have : b - i = 0 → b < i := by omega
        grind
      simp only [e]
      by_cases hc : c = p
      · simp only [hc, if_true, BitVec.getLsbD_and, BitVec.getLsbD_not, hz, hb]
        simp
      · simp [hc]


theorem shifted_bit {x : BitVec 64} {i : Nat} (hi : i < 64) :
    (x <<< 1).getLsbD i = false ↔ (i = 0 ∨ x.getLsbD (i - 1) = false) := by
  rw [BitVec.getLsbD_shiftLeft]
  by_cases h : i = 0
  · simp [h]
  · simp [h, hi]

theorem anchorBit_bit {b : Bool} {i : Nat} : (anchorBit b).getLsbD i = false ↔ (i = 0 → b = false) := by
  unfold anchorBit
  cases b with
  | false => simp
  | true =>
    have e : (1 : BitVec 64) = 1#64 := rfl
    simp only [if_true, e, BitVec.getLsbD_one]
    simp

/-- The anchor in force after the reversed text `t` has been read. -/
def anchorAt (anch : Bool) (t : Text) : BitVec 64 := if t = [] then 0 else anchorBit anch

theorem anchorAt_bit {anch : Bool} {t : Text} {i : Nat} :
    (anchorAt anch t).getLsbD i = false ↔ (i = 0 → anch = true → t = []) := by
  unfold anchorAt
  by_cases h : t = []
  · simp [h]
  · rw [if_neg h, anchorBit_bit]; cases anch <;> simp [h]

/-- The meaning of the word `r[d]` after the reversed text `t`. -/
def Means (anch : Bool) (P : Text) (d : Nat) (t : Text) (x : BitVec 64) : Prop :=
  ∀ i, i < P.length → (x.getLsbD i = false ↔ Good anch P d (i + 1) t)

theorem Means.prev {anch P d t x} (h : Means anch P d t x) {i : Nat} (hi : i < P.length) :
    (i = 0 ∨ x.getLsbD (i - 1) = false) ↔ Prev anch P d i t := by
  unfold Prev
  cases i with
  | zero => simp
  | succ i => simp only [Nat.add_sub_cancel]; rw [h i (by omega)]

/-- The table of `build_match_vector`. -/
def patTable (P : Text) : UInt8 → BitVec 64 := matchTable P 0 (fun _ => BitVec.allOnes 64)

theorem patTable_bit {P : Text} {c : UInt8} {i : Nat} (hi : i < P.length) (hP : P.length ≤ 31) :
    (patTable P c).getLsbD i = false ↔ P[i] = c := by
  unfold patTable
  rw [matchTable_getLsbD _ _ _ _ _ (by omega)]
  have : i < 64 := by omega
  rw [BitVec.getLsbD_allOnes]
  simp [this, hi]

theorem means_match {anch P d t x c} (hP : P.length ≤ 31) (h : Means anch P d t x) :
    ∀ i (hi : i < P.length),
      (((x <<< 1) ||| anchorAt anch t ||| patTable P c).getLsbD i = false ↔
        P[i] = c ∧ (i = 0 → anch = true → t = []) ∧ Prev anch P d i t) := by
  intro i hi
  rw [BitVec.getLsbD_or, BitVec.getLsbD_or, Bool.or_eq_false_iff, Bool.or_eq_false_iff,
    shifted_bit (by omega), anchorAt_bit, patTable_bit hi hP, h.prev hi]
  constructor
  · rintro ⟨⟨a, b⟩, c⟩; exact ⟨c, b, a⟩
  · rintro ⟨a, b, c⟩; exact ⟨⟨c, b⟩, a⟩

theorem means_zero {anch P t x c} (hP : P.length ≤ 31) (h : Means anch P 0 t x) :
    Means anch P 0 (c :: t) ((x <<< 1) ||| anchorAt anch t ||| patTable P c) := by
  intro i hi
  rw [means_match hP h i hi, good_step hi]
  simp

theorem means_succ {anch P d t x rp np c} (hP : P.length ≤ 31) (h : Means anch P (d + 1) t x)
    (hr : Means anch P d t rp) (hn : Means anch P d (c :: t) np) :
    Means anch P (d + 1) (c :: t)
      (((x <<< 1) ||| anchorAt anch t ||| patTable P c) &&& ((rp &&& np) <<< 1) &&& rp) := by
  intro i hi
  rw [BitVec.getLsbD_and, BitVec.getLsbD_and, Bool.and_eq_false_iff, Bool.and_eq_false_iff,
    means_match hP h i hi, shifted_bit (by omega), BitVec.getLsbD_and, Bool.and_eq_false_iff,
    good_step hi, hr i hi]
  simp only [Nat.add_right_cancel_iff, exists_eq_left', ← hr.prev hi, ← hn.prev hi]
  grind

/-- All words of the automaton mean what they should. -/
def MeansAll (anch : Bool) (P : Text) (t : Text) : Nat → List (BitVec 64) → Prop
  | _, [] => True
  | d, x :: xs => Means anch P d t x ∧ MeansAll anch P t (d + 1) xs

theorem meansAll_nrLoop {anch P t c} (hP : P.length ≤ 31) : ∀ (rs : List (BitVec 64)) (d : Nat) (rp np : BitVec 64),
    Means anch P d t rp → Means anch P d (c :: t) np → MeansAll anch P t (d + 1) rs →
    MeansAll anch P (c :: t) (d + 1) (nrLoop (anchorAt anch t) (patTable P c) rp np rs) := by
  intro rs
  induction rs with
  | nil => intros; exact True.intro
  | cons r rs ih =>
    intro d rp np h1 h2 h3
    have := means_succ hP h3.1 h1 h2
    exact ⟨this, ih _ _ _ h3.1 this h3.2⟩

theorem meansAll_nrStep {anch P t c} (hP : P.length ≤ 31) (rs : List (BitVec 64))
    (h : MeansAll anch P t 0 rs) :
    MeansAll anch P (c :: t) 0 (nrStep (anchorAt anch t) (patTable P c) rs) := by
  cases rs with
  | nil => exact True.intro
  | cons r rs => exact ⟨means_zero hP h.1, meansAll_nrLoop hP _ _ _ _ h.1 (means_zero hP h.1) h.2⟩

theorem length_nrLoop (an ac) : ∀ (rs : List (BitVec 64)) (rp np : BitVec 64),
    (nrLoop an ac rp np rs).length = rs.length := by
  intro rs
  induction rs with
  | nil => intros; rfl
  | cons r rs ih => intros; simp [nrLoop, ih]

theorem length_nrStep (an ac) (rs : List (BitVec 64)) : (nrStep an ac rs).length = rs.length := by
  cases rs with
  | nil => rfl
  | cons r rs => simp [nrStep, length_nrLoop]

theorem allOnes_shift_bit {d i : Nat} (hi : i < 64) :
    ((BitVec.allOnes 64) <<< d).getLsbD i = false ↔ i < d := by
  rw [BitVec.getLsbD_shiftLeft, BitVec.getLsbD_allOnes]
  simp [hi]; omega

theorem meansAll_init {anch P} (hP : P.length ≤ 31) : ∀ (k d : Nat),
    MeansAll anch P [] d (initErrors k ((BitVec.allOnes 64) <<< d)) := by
  have hm : ∀ d, Means anch P d [] ((BitVec.allOnes 64) <<< d) := by
    intro d i hi
    rw [allOnes_shift_bit (by omega), good_init hi]
  intro k
  induction k with
  | zero => intro d; exact ⟨hm d, True.intro⟩
  | succ k ih =>
    intro d
    refine ⟨hm d, ?_⟩
    have := ih (d + 1)
    rwa [BitVec.shiftLeft_add] at this

theorem length_initErrors : ∀ (k : Nat) (x : BitVec 64), (initErrors k x).length = k + 1 := by
  intro k
  induction k with
  | zero => intro x; rfl
  | succ k ih => intro x; simp [initErrors, ih]

theorem foldl_and_bit (ns : List (BitVec 64)) : ∀ (z : BitVec 32) (i : Nat), i < 32 →
    ((ns.foldl (fun compo n => compo &&& n.setWidth 32) z).getLsbD i = false ↔
      z.getLsbD i = false ∨ ∃ n ∈ ns, n.getLsbD i = false) := by
  induction ns with
  | nil => intro z i _; simp
  | cons n ns ih =>
    intro z i hi
    rw [List.foldl_cons, ih _ _ hi, BitVec.getLsbD_and, Bool.and_eq_false_iff, BitVec.getLsbD_setWidth]
    simp [hi, or_assoc]

theorem compoOf_bit (ns : List (BitVec 64)) (h : ns ≠ []) (i : Nat) (hi : i < 32) :
    (compoOf ns).getLsbD i = false ↔ ∃ n ∈ ns, n.getLsbD i = false := by
  cases ns with
  | nil => exact absurd rfl h
  | cons n ns => rw [compoOf, foldl_and_bit _ _ _ hi, BitVec.getLsbD_setWidth]; simp [hi]

/-- `hit`. -/
def hitWord (P : Text) : BitVec 64 := ~~~((1 : BitVec 64) <<< (P.length - 1))

theorem hit_test {P : Text} (h0 : P ≠ []) (hP : P.length ≤ 31) (x : BitVec 64) :
    ~~~(x ||| hitWord P) ≠ 0 ↔ x.getLsbD (P.length - 1) = false := by
  have hl : 0 < P.length := List.length_pos_iff.2 h0
  have hz : ∀ i, i < 64 → ((1 : BitVec 64) <<< (P.length - 1)).getLsbD i = decide (i = P.length - 1) := by
    intro i hi
    have e : (1 : BitVec 64) = 1#64 := rfl
    rw [BitVec.getLsbD_shiftLeft, e, BitVec.getLsbD_one]
    by_cases h : i = P.length - 1
    · subst h; simp; omega
    · have : i - (P.length - 1) = 0 → i < P.length - 1 := by omega
      grind
  have key : ∀ i, i < 64 → ((~~~(x ||| hitWord P)).getLsbD i = (!x.getLsbD i && decide (i = P.length - 1))) := by
    intro i hi
    simp only [hitWord, BitVec.getLsbD_not, BitVec.getLsbD_or, hi, hz i hi]
    cases x.getLsbD i <;> simp
  constructor
  · intro h
    cases hx : x.getLsbD (P.length - 1) with
    | false => rfl
    | true =>
      exfalso; apply h
      apply BitVec.eq_of_getLsbD_eq
      intro i hi
      rw [key i hi]
      by_cases e : i = P.length - 1
      · subst e; simp [hx]
      · simp [e]
  · intro h e
    have := key (P.length - 1) (by omega)
    rw [e] at this
    simp [h] at this

theorem MeansAll.mem {anch P t} : ∀ (rs : List (BitVec 64)) (d : Nat), MeansAll anch P t d rs →
    ∀ i, i < P.length → ((∃ n ∈ rs, n.getLsbD i = false) ↔ rs ≠ [] ∧ Good anch P (d + rs.length - 1) (i + 1) t) := by
  intro rs
  induction rs with
  | nil => intro d _ i hi; simp
  | cons r rs ih =>
    intro d h i hi
    have ih := ih _ h.2 i hi
    simp only [List.mem_cons, exists_eq_or_imp, ih, h.1 i hi]
    simp only [ne_eq, reduceCtorEq, not_false_eq_true, true_and, List.length_cons]
    cases rs with
    | nil => simp
    | cons r' rs =>
      simp only [reduceCtorEq, not_false_eq_true, true_and, List.length_cons]
      have e1 : d + 1 + (rs.length + 1) - 1 = d + (rs.length + 1 + 1) - 1 := by omega
      rw [e1]
      constructor
      · rintro (h | h)
        · exact h.mono (by omega)
        · exact h
      · exact .inr

theorem loopGeneral_iff {anch P} (h0 : P ≠ []) (hP : P.length ≤ 31) : ∀ (p t : Text) (rs : List (BitVec 64)),
    rs ≠ [] → MeansAll anch P t 0 rs →
    (loopGeneral (patTable P) (hitWord P) (anchorBit anch) p rs (anchorAt anch t) = true ↔
      ∃ q, q ≠ [] ∧ q <+: p ∧ Good anch P (rs.length - 1) P.length (q.reverse ++ t)) := by
  have hl : 0 < P.length := List.length_pos_iff.2 h0
  intro p
  induction p with
  | nil =>
    intro t rs _ _
    simp only [loopGeneral, Bool.false_eq_true, List.prefix_nil, false_iff]
    rintro ⟨q, h1, h2, _⟩; exact h1 h2
  | cons c p ih =>
    intro t rs hrs h
    rw [loopGeneral]
    have hm := meansAll_nrStep (c := c) hP rs h
    have hlen := length_nrStep (anchorAt anch t) (patTable P c) rs
    generalize nrStep (anchorAt anch t) (patTable P c) rs = nr at hm hlen
    have hnr : nr ≠ [] := by rintro rfl; cases rs <;> simp at hlen; exact hrs rfl
    have han : anchorBit anch = anchorAt anch (c :: t) := by simp [anchorAt]
    have htest : ~~~((compoOf nr).setWidth 64 ||| hitWord P) ≠ 0 ↔
        Good anch P (rs.length - 1) P.length (c :: t) := by
      rw [hit_test h0 hP, BitVec.getLsbD_setWidth]
      have : P.length - 1 < 64 := by omega
      simp only [this, decide_true, Bool.true_and]
      rw [compoOf_bit _ hnr _ (by omega), hm.mem _ _ _ (by omega), hlen]
      have e : P.length - 1 + 1 = P.length := by omega
      simp [hnr, e]
    have hih := ih (c :: t) nr hnr hm
    rw [← han, hlen] at hih
    by_cases hg : ~~~((compoOf nr).setWidth 64 ||| hitWord P) ≠ 0
    · rw [if_pos hg]
      simp only [true_iff]
      exact ⟨[c], by simp, by simp, by simpa using htest.1 hg⟩
    · rw [if_neg hg, hih]
      constructor
      · rintro ⟨q, h1, h2, h3⟩
        exact ⟨c :: q, by simp, List.cons_prefix_cons.2 ⟨rfl, h2⟩, by simpa using h3⟩
      · rintro ⟨q, h1, h2, h3⟩
        cases q with
        | nil => exact absurd rfl h1
        | cons d q =>
          obtain ⟨rfl, h2'⟩ := List.cons_prefix_cons.1 h2
          cases q with
          | nil => exact absurd (htest.2 (by simpa using h3)) hg
          | cons e q => exact ⟨e :: q, by simp, h2', by simpa using h3⟩

/-! ## The special cases are the general case -/

theorem hit_compo {P : Text} (h0 : P ≠ []) (hP : P.length ≤ 31) {ns : List (BitVec 64)} (hn : ns ≠ [])
    {x : BitVec 64} (hx : ∀ i, x.getLsbD i = false ↔ ∃ n ∈ ns, n.getLsbD i = false) :
    (~~~(x ||| hitWord P) ≠ 0) ↔ (~~~((compoOf ns).setWidth 64 ||| hitWord P) ≠ 0) := by
  have hl : 0 < P.length := List.length_pos_iff.2 h0
  rw [hit_test h0 hP, hit_test h0 hP, BitVec.getLsbD_setWidth, hx]
  have : P.length - 1 < 64 := by omega
  simp only [this, decide_true, Bool.true_and]
  rw [compoOf_bit _ hn _ (by omega)]

theorem ite_iff {P Q : Prop} [Decidable P] [Decidable Q] {a b : Bool} (h : P ↔ Q) :
    (if P then a else b) = (if Q then a else b) := by
  by_cases hp : P
  · rw [if_pos hp, if_pos (h.1 hp)]
  · rw [if_neg hp, if_neg (fun hq => hp (h.2 hq))]

theorem and_bits1 (x : BitVec 64) (i : Nat) : x.getLsbD i = false ↔ ∃ n ∈ [x], n.getLsbD i = false := by simp

theorem and_bits2 (x y : BitVec 64) (i : Nat) :
    (x &&& y).getLsbD i = false ↔ ∃ n ∈ [x, y], n.getLsbD i = false := by
  simp; grind

theorem and_bits3 (x y z : BitVec 64) (i : Nat) :
    (x &&& y &&& z).getLsbD i = false ↔ ∃ n ∈ [x, y, z], n.getLsbD i = false := by
  simp; grind

theorem and_bits4 (x y z w : BitVec 64) (i : Nat) :
    (x &&& y &&& z &&& w).getLsbD i = false ↔ ∃ n ∈ [x, y, z, w], n.getLsbD i = false := by
  simp; grind

theorem loop0_eq {P : Text} (h0 : P ≠ []) (hP : P.length ≤ 31) (a an1) :
    ∀ (p : Text) (r0 an : BitVec 64),
    loop0 a (hitWord P) an1 p r0 an = loopGeneral a (hitWord P) an1 p [r0] an := by
  intro p
  induction p with
  | nil => intros; rfl
  | cons c p ih =>
    intro r0 an
    rw [loop0, loopGeneral, ih]
    refine ite_iff (hit_compo h0 hP (ns := nrStep an (a c) [r0]) (by simp [nrStep]) ?_)
    intro i
    exact and_bits1 _ _

theorem loop1_eq {P : Text} (h0 : P ≠ []) (hP : P.length ≤ 31) (a an1) :
    ∀ (p : Text) (r0 r1 an : BitVec 64),
    loop1 a (hitWord P) an1 p r0 r1 an = loopGeneral a (hitWord P) an1 p [r0, r1] an := by
  intro p
  induction p with
  | nil => intros; rfl
  | cons c p ih =>
    intro r0 r1 an
    rw [loop1, loopGeneral, ih]
    refine ite_iff (hit_compo h0 hP (ns := nrStep an (a c) [r0, r1]) (by simp [nrStep]) ?_)
    intro i
    exact and_bits2 _ _ _

theorem loop2_eq {P : Text} (h0 : P ≠ []) (hP : P.length ≤ 31) (a an1) :
    ∀ (p : Text) (r0 r1 r2 an : BitVec 64),
    loop2 a (hitWord P) an1 p r0 r1 r2 an = loopGeneral a (hitWord P) an1 p [r0, r1, r2] an := by
  intro p
  induction p with
  | nil => intros; rfl
  | cons c p ih =>
    intro r0 r1 r2 an
    rw [loop2, loopGeneral, ih]
    refine ite_iff (hit_compo h0 hP (ns := nrStep an (a c) [r0, r1, r2]) (by simp [nrStep]) ?_)
    intro i
    exact and_bits3 _ _ _ _

theorem loop3_eq {P : Text} (h0 : P ≠ []) (hP : P.length ≤ 31) (a an1) :
    ∀ (p : Text) (r0 r1 r2 r3 an : BitVec 64),
    loop3 a (hitWord P) an1 p r0 r1 r2 r3 an = loopGeneral a (hitWord P) an1 p [r0, r1, r2, r3] an := by
  intro p
  induction p with
  | nil => intros; rfl
  | cons c p ih =>
    intro r0 r1 r2 r3 an
    rw [loop3, loopGeneral, ih]
    refine ite_iff (hit_compo h0 hP (ns := nrStep an (a c) [r0, r1, r2, r3]) (by simp [nrStep]) ?_)
    intro i
    exact and_bits4 _ _ _ _ _

theorem substringMatch_general {P : Text} (h0 : P ≠ []) (hP : P.length ≤ 31) (k : Nat) (anch : Bool) (token : Text) :
    substringMatch P k anch token =
      .ok (substringMatchGeneral (patTable P) (hitWord P) anch token k) := by
  have hb : buildMatchVector P = .ok (patTable P, hitWord P) := by
    have : ¬ (P.length > 31 ∨ P.length = 0) := by
      have := List.length_pos_iff.2 h0; omega
    simp only [buildMatchVector, if_neg this]; rfl
  simp only [substringMatch, hb, bind, Except.bind]
  match k with
  | 0 => simp only [substringMatch0, loop0_eq h0 hP, substringMatchGeneral, initErrors]
  | 1 => simp only [substringMatch1, loop1_eq h0 hP, substringMatchGeneral, initErrors]
  | 2 => simp only [substringMatch2, loop2_eq h0 hP, substringMatchGeneral, initErrors]
  | 3 => simp only [substringMatch3, loop3_eq h0 hP, substringMatchGeneral, initErrors]
  | k + 4 => rfl

theorem substringMatch_good {P : Text} (h0 : P ≠ []) (hP : P.length ≤ 31) (k : Nat) (anch : Bool) (token : Text) :
    ∃ b, substringMatch P k anch token = .ok b ∧
      (b = true ↔ ∃ q, q ≠ [] ∧ q <+: token ∧ Good anch P k P.length q.reverse) := by
  refine ⟨_, substringMatch_general h0 hP k anch token, ?_⟩
  have hi := meansAll_init (anch := anch) hP k 0
  rw [BitVec.shiftLeft_zero] at hi
  have := loopGeneral_iff (anch := anch) h0 hP token [] (initErrors k (BitVec.allOnes 64))
    (by cases k <;> simp [initErrors]) hi
  rw [length_initErrors] at this
  simpa [substringMatchGeneral, anchorAt] using this

end Mairix
