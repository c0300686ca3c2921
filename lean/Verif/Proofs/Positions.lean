import Verif.Proofs.NfaSets
import Verif.Proofs.Regex

/-!
# The automaton of positions of a regular expression
-/

namespace Mairix
open Spec RE

/-- Regular expressions where the classes are sets of groups of characters. -/
inductive RB where
  | none
  | eps
  | cls (m : Nat)
  | seq (a b : RB)
  | alt (a b : RB)
  | star (a : RB)

namespace RB

/-- The expression it stands for. -/
def toRE (γ : UInt8 → Nat) : RB → RE
  | none => .none
  | eps => .eps
  | cls m => .cls fun c => m.testBit (γ c)
  | seq a b => .seq (toRE γ a) (toRE γ b)
  | alt a b => .alt (toRE γ a) (toRE γ b)
  | star a => .star (toRE γ a)

/-- The number of classes. -/
def size : RB → Nat
  | none => 0
  | eps => 0
  | cls _ => 1
  | seq a b => size a + size b
  | alt a b => size a + size b
  | star a => size a

/-- Whether the empty text belongs to the language. -/
def null : RB → Bool
  | none => false
  | eps => true
  | cls _ => false
  | seq a b => null a && null b
  | alt a b => null a || null b
  | star _ => true

/-- The classes a text can begin with; the classes are numbered from `o`. -/
def first : RB → Nat → Nat
  | none, _ => 0
  | eps, _ => 0
  | cls _, o => 2 ^ o
  | seq a b, o => bif null a then Nat.lor (first a o) (first b (o + size a)) else first a o
  | alt a b, o => Nat.lor (first a o) (first b (o + size a))
  | star a, o => first a o

/-- What follows: `k` behind the expression. -/
def behind (b : RB) (o k : Nat) : Nat := bif null b then Nat.lor (first b o) k else first b o

/-- For each class the groups in it and what follows. -/
def rows : RB → Nat → Nat → List (Nat × Nat)
  | none, _, _ => []
  | eps, _, _ => []
  | cls m, _, k => [(m, k)]
  | seq a b, o, k => rows a o (behind b (o + size a) k) ++ rows b (o + size a) k
  | alt a b, o, k => rows a o k ++ rows b (o + size a) k
  | star a, o, k => rows a o (Nat.lor (first a o) k)

end RB

/-- From the class `q` the text leads to `f`. -/
inductive Acc (γ : UInt8 → Nat) (R : List (Nat × Nat)) (f : Nat) : Nat → Text → Prop
  | done : Acc γ R f f []
  | step {q m t c q' w} : R[q]? = some (m, t) → m.testBit (γ c) = true → t.testBit q' = true → Acc γ R f q' w → Acc γ R f q (c :: w)

/-- From one of the classes. -/
def AccS (γ : UInt8 → Nat) (R : List (Nat × Nat)) (f : Nat) (S : Nat) (w : Text) : Prop := ∃ q, S.testBit q = true ∧ Acc γ R f q w

theorem accS_or {γ : UInt8 → Nat} {R : List (Nat × Nat)} {f S T : Nat} {w : Text} : AccS γ R f (Nat.lor S T) w ↔ AccS γ R f S w ∨ AccS γ R f T w := by
  have : Nat.lor S T = S ||| T := rfl
  unfold AccS
  simp only [this, Nat.testBit_or, Bool.or_eq_true]
  constructor
  · rintro ⟨q, h | h, h'⟩
    · exact Or.inl ⟨q, h, h'⟩
    · exact Or.inr ⟨q, h, h'⟩
  · rintro (⟨q, h, h'⟩ | ⟨q, h, h'⟩)
    · exact ⟨q, Or.inl h, h'⟩
    · exact ⟨q, Or.inr h, h'⟩

theorem null_iff {γ : UInt8 → Nat} : ∀ {r : RB}, r.null = true ↔ Denotes (r.toRE γ) []
  | .none => by simp only [RB.null, RB.toRE, not_none]; simp
  | .eps => by exact ⟨fun _ => .eps, fun _ => rfl⟩
  | .cls m => by
    simp only [RB.null, RB.toRE, cls_iff]
    simp
  | .seq a b => by
    simp only [RB.null, RB.toRE, seq_iff, Bool.and_eq_true, null_iff (γ := γ) (r := a), null_iff (γ := γ) (r := b)]
    constructor
    · rintro ⟨h1, h2⟩; exact ⟨[], [], rfl, h1, h2⟩
    · rintro ⟨x, y, h, h1, h2⟩
      obtain ⟨rfl, rfl⟩ := List.nil_eq_append_iff.1 h
      exact ⟨h1, h2⟩
  | .alt a b => by simp only [RB.null, RB.toRE, alt_iff, Bool.or_eq_true, null_iff (γ := γ) (r := a), null_iff (γ := γ) (r := b)]
  | .star a => by exact ⟨fun _ => .nil, fun _ => rfl⟩

theorem rows_length : ∀ {r : RB} {o k : Nat}, (r.rows o k).length = r.size
  | .none, _, _ => rfl
  | .eps, _, _ => rfl
  | .cls _, _, _ => rfl
  | .seq a b, o, k => by simp only [RB.rows, RB.size, List.length_append, rows_length]
  | .alt a b, o, k => by simp only [RB.rows, RB.size, List.length_append, rows_length]
  | .star a, o, k => by simp only [RB.rows, RB.size, rows_length]

/-- The rows are in the table from `o`. -/
def Has (R : List (Nat × Nat)) (o : Nat) (l : List (Nat × Nat)) : Prop := ∀ i, i < l.length → R[o + i]? = l[i]?

theorem Has.append {R l l' : List (Nat × Nat)} {o : Nat} (h : Has R o (l ++ l')) : Has R o l ∧ Has R (o + l.length) l' := by
  constructor
  · intro i hi
    have := h i (by rw [List.length_append]; omega)
    rwa [List.getElem?_append_left hi] at this
  · intro i hi
    have := h (l.length + i) (by rw [List.length_append]; omega)
    rw [List.getElem?_append_right (by omega), Nat.add_sub_cancel_left, ← Nat.add_assoc] at this
    exact this

theorem behind_iff {γ : UInt8 → Nat} {R : List (Nat × Nat)} {f k o : Nat} {r : RB}
    (ih : ∀ {w : Text}, AccS γ R f (r.first o) w ↔ ∃ u v, u ≠ [] ∧ w = u ++ v ∧ Denotes (r.toRE γ) u ∧ AccS γ R f k v) {w : Text} :
    AccS γ R f (r.behind o k) w ↔ ∃ u v, w = u ++ v ∧ Denotes (r.toRE γ) u ∧ AccS γ R f k v := by
  unfold RB.behind
  cases hn : r.null with
  | true =>
    simp only [cond_true, accS_or, ih]
    constructor
    · rintro (⟨u, v, _, h⟩ | h)
      · exact ⟨u, v, h⟩
      · exact ⟨[], w, rfl, null_iff.1 hn, h⟩
    · rintro ⟨u, v, h1, h2, h3⟩
      by_cases hu : u = []
      · subst hu
        simp only [List.nil_append] at h1
        subst h1
        exact Or.inr h3
      · exact Or.inl ⟨u, v, hu, h1, h2, h3⟩
  | false =>
    simp only [cond_false, ih]
    constructor
    · rintro ⟨u, v, _, h⟩; exact ⟨u, v, h⟩
    · rintro ⟨u, v, h1, h2, h3⟩
      refine ⟨u, v, ?_, h1, h2, h3⟩
      rintro rfl
      rw [null_iff.2 h2] at hn
      cases hn

theorem star_nonempty {a : RE} {s : Text} (h : Denotes (.star a) s) (hs : s ≠ []) : ∃ x y, s = x ++ y ∧ x ≠ [] ∧ Denotes a x ∧ Denotes (.star a) y := by
  generalize hr : RE.star a = r at h
  induction h with
  | eps => cases hr
  | cls _ => cases hr
  | seq _ _ => cases hr
  | altl _ => cases hr
  | altr _ => cases hr
  | nil => exact absurd rfl hs
  | @more a' s t h1 h2 _ ih =>
    cases hr
    by_cases hx : s = []
    · subst hx
      exact ih hs rfl
    · exact ⟨s, t, rfl, hx, h1, h2⟩

theorem star_accS {γ : UInt8 → Nat} {R : List (Nat × Nat)} {f k : Nat} {F : Nat} {a : RE}
    (ih : ∀ {w : Text}, AccS γ R f F w ↔ ∃ u v, u ≠ [] ∧ w = u ++ v ∧ Denotes a u ∧ AccS γ R f (Nat.lor F k) v) :
    ∀ (n : Nat) {w : Text}, w.length < n → (AccS γ R f (Nat.lor F k) w ↔ ∃ u v, w = u ++ v ∧ Denotes (.star a) u ∧ AccS γ R f k v) := by
  intro n
  induction n with
  | zero => intro w hw; omega
  | succ n ihn =>
    intro w hn
    constructor
    · intro h
      rcases accS_or.1 h with h | h
      · obtain ⟨u, v, h1, h2, h3, h4⟩ := ih.1 h
        have hpos : 0 < u.length := List.length_pos_iff.2 h1
        have hlen : v.length < n := by have := congrArg List.length h2; rw [List.length_append] at this; omega
        obtain ⟨u', v', g1, g2, g3⟩ := (ihn hlen).1 h4
        exact ⟨u ++ u', v', by rw [h2, g1, List.append_assoc], .more h3 g2, g3⟩
      · exact ⟨[], w, rfl, .nil, h⟩
    · rintro ⟨u, v, h1, h2, h3⟩
      by_cases hu : u = []
      · subst hu
        simp only [List.nil_append] at h1
        subst h1
        exact accS_or.2 (Or.inr h3)
      · obtain ⟨x, y, g1, g2, g3, g4⟩ := star_nonempty h2 hu
        have hpos : 0 < x.length := List.length_pos_iff.2 g2
        have hlen : (y ++ v).length < n := by
          have e1 := congrArg List.length h1
          have e2 := congrArg List.length g1
          simp only [List.length_append] at e1 e2 ⊢
          omega
        exact accS_or.2 (Or.inl (ih.2 ⟨x, y ++ v, g2, by rw [h1, g1, List.append_assoc], g3, (ihn hlen).2 ⟨y, v, rfl, g4, h3⟩⟩))

/-- **The automaton of positions**: what leads to `f` from the first classes. -/
theorem first_iff {γ : UInt8 → Nat} {R : List (Nat × Nat)} {f : Nat} (hf : R[f]? = Option.none) : ∀ {r : RB} {o k : Nat}, Has R o (r.rows o k) → ∀ {w : Text},
    AccS γ R f (r.first o) w ↔ ∃ u v, u ≠ [] ∧ w = u ++ v ∧ Denotes (r.toRE γ) u ∧ AccS γ R f k v
  | .none, o, k, _, w => by
    simp only [RB.first, RB.toRE, AccS, Nat.zero_testBit, not_none]
    simp
  | .eps, o, k, _, w => by
    simp only [RB.first, RB.toRE, eps_iff]
    constructor
    · rintro ⟨q, h1, _⟩; rw [Nat.zero_testBit] at h1; cases h1
    · rintro ⟨u, v, h1, _, h2, _⟩; exact absurd h2 h1
  | .cls m, o, k, h, w => by
    have hrow : R[o]? = some (m, k) := h 0 Nat.zero_lt_one
    simp only [RB.first, RB.toRE, cls_iff]
    constructor
    · rintro ⟨q, h1, h2⟩
      rw [Nat.testBit_two_pow, decide_eq_true_eq] at h1
      subst h1
      cases h2 with
      | done => rw [hf] at hrow; cases hrow
      | @step _ m' t c q' w' g1 g2 g3 g4 =>
        rw [hrow] at g1
        cases g1
        exact ⟨[c], w', by simp, rfl, ⟨c, rfl, g2⟩, q', g3, g4⟩
    · rintro ⟨u, v, _, h2, ⟨c, rfl, hc⟩, q', h4, h5⟩
      subst h2
      exact ⟨o, by rw [Nat.testBit_two_pow]; simp, .step hrow hc h4 h5⟩
  | .seq a b, o, k, h, w => by
    obtain ⟨ha, hb⟩ := Has.append h
    rw [rows_length] at hb
    have iha := @first_iff γ R f hf a o _ ha
    have ihb := @first_iff γ R f hf b _ _ hb
    have hbb := fun w => behind_iff (w := w) (fun {w} => ihb (w := w))
    have hmain : AccS γ R f (RB.first (.seq a b) o) w ↔ AccS γ R f (a.first o) w ∨ (a.null = true ∧ AccS γ R f (b.first (o + a.size)) w) := by
      simp only [RB.first]
      cases hn : a.null with
      | false => simp
      | true => simp only [cond_true, accS_or, true_and]
    rw [hmain, iha, ihb]
    simp only [RB.toRE, seq_iff]
    constructor
    · rintro (⟨u, v, h1, h2, h3, h4⟩ | ⟨hn, u, v, h1, h2, h3, h4⟩)
      · obtain ⟨u', v', g1, g2, g3⟩ := (hbb _).1 h4
        exact ⟨u ++ u', v', by simp [h1], by rw [h2, g1, List.append_assoc], ⟨u, u', rfl, h3, g2⟩, g3⟩
      · exact ⟨u, v, h1, h2, ⟨[], u, rfl, null_iff.1 hn, h3⟩, h4⟩
    · rintro ⟨u, v, h1, h2, ⟨x, y, rfl, h3, h4⟩, h5⟩
      by_cases hx : x = []
      · subst hx
        exact Or.inr ⟨null_iff.2 h3, y, v, h1, h2, h4, h5⟩
      · exact Or.inl ⟨x, y ++ v, hx, by rw [h2, List.append_assoc], h3, (hbb _).2 ⟨y, v, rfl, h4, h5⟩⟩
  | .alt a b, o, k, h, w => by
    obtain ⟨ha, hb⟩ := Has.append h
    rw [rows_length] at hb
    have iha := @first_iff γ R f hf a o _ ha w
    have ihb := @first_iff γ R f hf b _ _ hb w
    simp only [RB.first, accS_or, iha, ihb, RB.toRE, alt_iff]
    constructor
    · rintro (⟨u, v, h1, h2, h3, h4⟩ | ⟨u, v, h1, h2, h3, h4⟩)
      · exact ⟨u, v, h1, h2, Or.inl h3, h4⟩
      · exact ⟨u, v, h1, h2, Or.inr h3, h4⟩
    · rintro ⟨u, v, h1, h2, h3 | h3, h4⟩
      · exact Or.inl ⟨u, v, h1, h2, h3, h4⟩
      · exact Or.inr ⟨u, v, h1, h2, h3, h4⟩
  | .star a, o, k, h, w => by
    have iha := @first_iff γ R f hf a o _ h
    have hst := fun (v : Text) => star_accS (fun {w} => iha (w := w)) (v.length + 1) (w := v) (Nat.lt_succ_self _)
    simp only [RB.first, iha, RB.toRE]
    constructor
    · rintro ⟨u, v, h1, h2, h3, h4⟩
      obtain ⟨u', v', g1, g2, g3⟩ := (hst v).1 h4
      exact ⟨u ++ u', v', by simp [h1], by rw [h2, g1, List.append_assoc], .more h3 g2, g3⟩
    · rintro ⟨u, v, h1, h2, h3, h4⟩
      obtain ⟨x, y, g1, g2, g3, g4⟩ := star_nonempty h3 h1
      exact ⟨x, y ++ v, g2, by rw [h2, g1, List.append_assoc], g3, (hst _).2 ⟨y, v, rfl, g4, h4⟩⟩

/-! ## Sets of positions -/

/-- The table for `stepSet`. -/
def asRows (R : List (Nat × Nat)) : List (List (Nat × Nat)) := R.map fun e => [e]

theorem testBit_run {γ : UInt8 → Nat} {R : List (Nat × Nat)} {f : Nat} (hf : R[f]? = Option.none) : ∀ {w : Text} {S : Nat},
    (runSet (asRows R) S (w.map γ)).testBit f = true ↔ AccS γ R f S w
  | [], S => by
    constructor
    · intro h; exact ⟨f, h, .done⟩
    · rintro ⟨q, h1, h2⟩
      cases h2
      exact h1
  | c :: w, S => by
    have : runSet (asRows R) S ((c :: w).map γ) = runSet (asRows R) (stepSet (asRows R) S (γ c)) (w.map γ) := rfl
    rw [this, testBit_run hf]
    constructor
    · rintro ⟨q, h1, h2⟩
      obtain ⟨q0, r, e, g1, g2, g3, g4, g5⟩ := testBit_stepSet.1 h1
      unfold asRows at g2
      rw [List.getElem?_map, Option.map_eq_some_iff] at g2
      obtain ⟨e', g2, rfl⟩ := g2
      rw [List.mem_singleton] at g3
      subst g3
      exact ⟨q0, g1, .step g2 g4 g5 h2⟩
    · rintro ⟨q, h1, h2⟩
      cases h2 with
      | @step _ m t _ q' _ g1 g2 g3 g4 =>
        refine ⟨q', testBit_stepSet.2 ⟨q, [(m, t)], (m, t), h1, ?_, List.mem_singleton.2 rfl, g2, g3⟩, g4⟩
        unfold asRows
        rw [List.getElem?_map, g1]
        rfl

/-- Several expressions side by side, each with its own end; they are numbered from `o`. -/
def tableOf : List (RB × Nat) → Nat → List (Nat × Nat)
  | [], _ => []
  | (r, f) :: l, o => r.rows o (2 ^ f) ++ tableOf l (o + r.size)

/-- Where they begin. -/
def startsOf : List (RB × Nat) → Nat → Nat
  | [], _ => 0
  | (r, f) :: l, o => Nat.lor (r.behind o (2 ^ f)) (startsOf l (o + r.size))

theorem accS_end {γ : UInt8 → Nat} {R : List (Nat × Nat)} {f f' : Nat} (hf' : R[f']? = Option.none) {w : Text} : AccS γ R f (2 ^ f') w ↔ f = f' ∧ w = [] := by
  constructor
  · rintro ⟨q, h1, h2⟩
    rw [Nat.testBit_two_pow, decide_eq_true_eq] at h1
    subst h1
    cases h2 with
    | done => exact ⟨rfl, rfl⟩
    | step g1 => rw [hf'] at g1; cases g1
  · rintro ⟨rfl, rfl⟩
    exact ⟨f, by rw [Nat.testBit_two_pow]; simp, .done⟩

theorem startsOf_iff {γ : UInt8 → Nat} {R : List (Nat × Nat)} {f : Nat} (hf : R[f]? = Option.none) {w : Text} : ∀ {l : List (RB × Nat)} {o : Nat}, Has R o (tableOf l o) →
    (∀ x ∈ l, R[x.2]? = Option.none) → (AccS γ R f (startsOf l o) w ↔ ∃ r, (r, f) ∈ l ∧ Denotes (r.toRE γ) w)
  | [], o, _, _ => by
    constructor
    · rintro ⟨q, h1, _⟩; unfold startsOf at h1; rw [Nat.zero_testBit] at h1; cases h1
    · rintro ⟨r, h, _⟩; cases h
  | (r, f') :: l, o, h, hl => by
    obtain ⟨h1, h2⟩ := Has.append h
    rw [rows_length] at h2
    have hr := behind_iff (γ := γ) (w := w) (fun {w} => first_iff hf h1 (w := w))
    simp only [startsOf, accS_or, hr, startsOf_iff hf h2 (fun x hx => hl x (List.mem_cons_of_mem _ hx)), accS_end (hl _ List.mem_cons_self)]
    constructor
    · rintro (⟨u, v, rfl, g1, rfl, rfl⟩ | ⟨r', g1, g2⟩)
      · exact ⟨r, List.mem_cons_self, by rwa [List.append_nil]⟩
      · exact ⟨r', List.mem_cons_of_mem _ g1, g2⟩
    · rintro ⟨r', g1, g2⟩
      rcases List.mem_cons.1 g1 with g1 | g1
      · cases g1; exact Or.inl ⟨w, [], (List.append_nil _).symm, g2, rfl, rfl⟩
      · exact Or.inr ⟨r', g1, g2⟩

/-- After reading a text the end of an expression is in the set just if the text belongs to the language of an expression with this end. -/
theorem table_run {γ : UInt8 → Nat} {l : List (RB × Nat)} {f : Nat} (hf : (tableOf l 0).length ≤ f) (hl : ∀ x ∈ l, (tableOf l 0).length ≤ x.2) (w : Text) :
    (runSet (asRows (tableOf l 0)) (startsOf l 0) (w.map γ)).testBit f = true ↔ ∃ r, (r, f) ∈ l ∧ Denotes (r.toRE γ) w := by
  have hnone : ∀ {i : Nat}, (tableOf l 0).length ≤ i → (tableOf l 0)[i]? = Option.none := fun h => List.getElem?_eq_none h
  rw [testBit_run (hnone hf), startsOf_iff (hnone hf) (o := 0) (fun i _ => by rw [Nat.zero_add]) (fun x hx => hnone (hl x hx))]

end Mairix
