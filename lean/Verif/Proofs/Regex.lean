import Verif.Spec.Regex

/-!
# Derivatives decide the language
-/

namespace Mairix
open Spec

namespace RE

theorem not_none {s : Text} : ¬ Denotes .none s := by intro h; cases h

theorem seq_iff {a b : RE} {s : Text} : Denotes (.seq a b) s ↔ ∃ x y, s = x ++ y ∧ Denotes a x ∧ Denotes b y := by
  constructor
  · intro h; cases h with
    | seq h1 h2 => exact ⟨_, _, rfl, h1, h2⟩
  · rintro ⟨x, y, rfl, h1, h2⟩; exact .seq h1 h2

theorem alt_iff {a b : RE} {s : Text} : Denotes (.alt a b) s ↔ Denotes a s ∨ Denotes b s := by
  constructor
  · intro h; cases h with
    | altl h => exact .inl h
    | altr h => exact .inr h
  · rintro (h | h)
    · exact .altl h
    · exact .altr h

theorem eps_iff {s : Text} : Denotes .eps s ↔ s = [] := by
  constructor
  · intro h; cases h; rfl
  · rintro rfl; exact .eps

theorem cls_iff {p : UInt8 → Bool} {s : Text} : Denotes (.cls p) s ↔ ∃ c, s = [c] ∧ p c = true := by
  constructor
  · intro h; cases h with
    | cls h => exact ⟨_, rfl, h⟩
  · rintro ⟨c, rfl, h⟩; exact .cls h

theorem seq'_iff {a b : RE} {s : Text} : Denotes (seq' a b) s ↔ Denotes (.seq a b) s := by
  cases a with
  | none => simp [seq', seq_iff, not_none]
  | eps =>
    simp only [seq', seq_iff, eps_iff]
    constructor
    · intro h; exact ⟨[], s, rfl, rfl, h⟩
    · rintro ⟨x, y, rfl, rfl, h⟩; exact h
  | _ => rfl

theorem alt'_iff {a b : RE} {s : Text} : Denotes (alt' a b) s ↔ Denotes (.alt a b) s := by
  cases a with
  | none => simp [alt', alt_iff, not_none]
  | _ => cases b <;> simp [alt', alt_iff, not_none]

theorem nullable_iff {r : RE} : nullable r = true ↔ Denotes r [] := by
  induction r with
  | none => simp [nullable, not_none]
  | eps => simp [nullable, eps_iff]
  | cls p => simp [nullable, cls_iff]
  | seq a b iha ihb =>
    simp only [nullable, Bool.and_eq_true, iha, ihb, seq_iff]
    constructor
    · rintro ⟨h1, h2⟩; exact ⟨[], [], rfl, h1, h2⟩
    · rintro ⟨x, y, e, h1, h2⟩
      obtain ⟨rfl, rfl⟩ := List.append_eq_nil_iff.1 e.symm
      exact ⟨h1, h2⟩
  | alt a b iha ihb => simp [nullable, alt_iff, iha, ihb]
  | star a _ => simp only [nullable, true_iff]; exact .nil

theorem star_cons {a : RE} {c : UInt8} {s : Text} (h : Denotes (.star a) (c :: s)) :
    ∃ x y, s = x ++ y ∧ Denotes a (c :: x) ∧ Denotes (.star a) y := by
  generalize hr : RE.star a = r at h
  generalize ht : c :: s = t at h
  induction h with
  | more h1 h2 ih1 ih2 =>
    cases hr
    rename_i u v
    cases u with
    | nil => exact ih2 rfl (by simpa using ht)
    | cons d x =>
      simp only [List.cons_append, List.cons.injEq] at ht
      obtain ⟨rfl, rfl⟩ := ht
      exact ⟨_, _, rfl, h1, h2⟩
  | nil => cases ht
  | _ => cases hr

theorem step_iff {c : UInt8} {r : RE} {s : Text} : Denotes (step c r) s ↔ Denotes r (c :: s) := by
  induction r generalizing s with
  | none => simp [step, not_none]
  | eps => simp [step, not_none, eps_iff]
  | cls p =>
    simp only [step, cls_iff]
    split
    · next h => simp only [eps_iff, List.cons.injEq]; constructor
                · rintro rfl; exact ⟨c, ⟨rfl, rfl⟩, h⟩
                · rintro ⟨d, ⟨_, rfl⟩, _⟩; rfl
    · next h => simp only [not_none, List.cons.injEq, false_iff]
                rintro ⟨d, ⟨rfl, _⟩, h'⟩; exact h h'
  | seq a b iha ihb =>
    have key : Denotes (.seq a b) (c :: s) ↔ Denotes (.seq (step c a) b) s ∨ (nullable a = true ∧ Denotes (step c b) s) := by
      rw [seq_iff, seq_iff, ihb]
      constructor
      · rintro ⟨x, y, e, h1, h2⟩
        cases x with
        | nil => simp only [List.nil_append] at e; subst e; exact .inr ⟨nullable_iff.2 h1, h2⟩
        | cons d x =>
          simp only [List.cons_append, List.cons.injEq] at e
          obtain ⟨rfl, rfl⟩ := e
          exact .inl ⟨x, y, rfl, iha.2 h1, h2⟩
      · rintro (⟨x, y, rfl, h1, h2⟩ | ⟨h1, h2⟩)
        · exact ⟨c :: x, y, rfl, iha.1 h1, h2⟩
        · exact ⟨[], c :: s, rfl, nullable_iff.1 h1, h2⟩
    rw [key]
    simp only [step]
    split
    · next h => rw [alt'_iff, alt_iff, seq'_iff]; simp [h]
    · next h => rw [seq'_iff]; simp [h]
  | alt a b iha ihb => simp [step, alt'_iff, alt_iff, iha, ihb]
  | star a ih =>
    rw [step, seq'_iff, seq_iff]
    constructor
    · rintro ⟨x, y, rfl, h1, h2⟩
      exact .more (ih.1 h1) h2
    · intro h
      obtain ⟨x, y, rfl, h1, h2⟩ := star_cons h
      exact ⟨x, y, rfl, ih.2 h1, h2⟩

theorem accepts_iff {r : RE} {s : Text} : accepts r s = true ↔ Denotes r s := by
  induction s generalizing r with
  | nil => simp [accepts, nullable_iff]
  | cons c s ih => rw [accepts, ih, step_iff]

theorem passes_iff {r : RE} {s : Text} : passes r s = true ↔ ∃ x y, s = x ++ y ∧ x ≠ [] ∧ Denotes r x := by
  induction s generalizing r with
  | nil =>
    simp only [passes, Bool.false_eq_true, false_iff]
    rintro ⟨x, y, e, hx, _⟩
    exact hx (List.append_eq_nil_iff.1 e.symm).1
  | cons c s ih =>
    simp only [passes, Bool.or_eq_true, ih, nullable_iff, step_iff]
    constructor
    · rintro (h | ⟨x, y, rfl, _, h⟩)
      · exact ⟨[c], s, rfl, by simp, h⟩
      · exact ⟨c :: x, y, rfl, by simp, h⟩
    · rintro ⟨x, y, e, hx, h⟩
      cases x with
      | nil => exact absurd rfl hx
      | cons d x =>
        simp only [List.cons_append, List.cons.injEq] at e
        obtain ⟨rfl, rfl⟩ := e
        cases x with
        | nil => exact .inl h
        | cons d x => exact .inr ⟨d :: x, y, rfl, by simp, h⟩

/-- Whether the byte can occur in a text of the language at all. -/
def uses (c : UInt8) : RE → Bool
  | none => false
  | eps => false
  | cls p => p c
  | seq a b => uses c a || uses c b
  | alt a b => uses c a || uses c b
  | star a => uses c a

theorem not_mem_of_uses {c : UInt8} {r : RE} {s : Text} (h : Denotes r s) (hu : uses c r = false) : c ∉ s := by
  induction h with
  | eps => simp
  | @cls p d h =>
    simp only [uses] at hu
    intro hm
    simp only [List.mem_singleton] at hm
    subst hm
    simp [h] at hu
  | seq _ _ ih1 ih2 =>
    simp only [uses, Bool.or_eq_false_iff] at hu
    simp [ih1 hu.1, ih2 hu.2]
  | altl _ ih => simp only [uses, Bool.or_eq_false_iff] at hu; exact ih hu.1
  | altr _ ih => simp only [uses, Bool.or_eq_false_iff] at hu; exact ih hu.2
  | nil => simp
  | more _ _ ih1 ih2 => simp [ih1 hu, ih2 hu]

end RE

/-! ## From lines -/

namespace From
open RE

/-- What comes before an optional end of the line. -/
def core : RE := seqs [star WHITE, alts [email, angledEmail, PLUSMINUS, eps], alt date dateOld]

/-- Whether the check passes is decided by a part of the text without a newline. -/
theorem fromCheck_core {s : Text} : fromCheck s = true ↔ ∃ x y, s = x ++ y ∧ x ≠ [] ∧ Denotes core x := by
  unfold fromCheck
  rw [passes_iff]
  constructor
  · rintro ⟨x, y, rfl, hx, h⟩
    simp only [line, seqs] at h
    rw [seq_iff] at h
    obtain ⟨a, b, rfl, ha, hb⟩ := h
    rw [seq_iff] at hb
    obtain ⟨b, d, rfl, hb, hd⟩ := hb
    have key : ∃ e f, d = e ++ f ∧ e ≠ [] ∧ Denotes (alt date dateOld) e := by
      have hne : ∀ e, Denotes (alt date dateOld) e → e ≠ [] := by
        rintro e he rfl
        have := nullable_iff.2 he
        revert this
        decide
      simp only [alts, alt_iff, seq_iff] at hd
      rcases hd with ⟨e, f, rfl, he, _⟩ | ⟨e, f, rfl, he, _⟩
      · exact ⟨e, f, rfl, hne e (alt_iff.2 he), alt_iff.2 he⟩
      · exact ⟨e, f, rfl, hne e (alt_iff.2 (.inl he)), alt_iff.2 (.inl he)⟩
    obtain ⟨e, f, rfl, hne, he⟩ := key
    refine ⟨a ++ (b ++ e), f ++ y, by simp, by simp [hne], ?_⟩
    exact .seq ha (.seq hb he)
  · rintro ⟨x, y, rfl, hx, h⟩
    refine ⟨x, y, rfl, hx, ?_⟩
    simp only [core, seqs] at h
    rw [seq_iff] at h
    obtain ⟨a, b, rfl, ha, hb⟩ := h
    rw [seq_iff] at hb
    obtain ⟨b, d, rfl, hb, hd⟩ := hb
    refine .seq ha (.seq hb (.altl ?_))
    rw [← List.append_nil d]
    exact .seq hd (.altl .eps)

theorem core_no_newline {x : Text} (h : Denotes core x) : (0x0a : UInt8) ∉ x :=
  not_mem_of_uses h (by decide)

/-- More text behind does no harm. -/
theorem fromCheck_append {s : Text} (t : Text) (h : fromCheck s = true) : fromCheck (s ++ t) = true := by
  obtain ⟨x, y, rfl, hx, hd⟩ := fromCheck_core.1 h
  exact fromCheck_core.2 ⟨x, y ++ t, by simp, hx, hd⟩

/-- What is behind a newline does not matter. -/
theorem fromCheck_line {s t : Text} (h : fromCheck (s ++ 0x0a :: t) = true) : fromCheck s = true := by
  obtain ⟨x, y, e, hx, hd⟩ := fromCheck_core.1 h
  have hn := core_no_newline hd
  rcases List.append_eq_append_iff.1 e with ⟨a, h1, h2⟩ | ⟨a, h1, h2⟩
  · cases a with
    | nil => simp at h1; subst h1; exact fromCheck_core.2 ⟨x, [], by simp, hx, hd⟩
    | cons c a =>
      simp only [List.cons_append, List.cons.injEq] at h2
      exact absurd (by rw [h1, ← h2.1]; simp) hn
  · exact fromCheck_core.2 ⟨x, a, h1, hx, hd⟩

end From

end Mairix
