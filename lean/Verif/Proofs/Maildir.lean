import Verif.Spec.Update

/-! Maildir flags in file names. -/

namespace Mairix
open Spec

theorem maildirFlags_spec : ∀ (info : Text) (f r s : Bool),
    maildirFlags info (f, r, s) =
      (f || decide ((0x46 : UInt8) ∈ info), r || decide ((0x52 : UInt8) ∈ info), s || decide ((0x53 : UInt8) ∈ info)) := by
  intro info
  induction info with
  | nil => intro f r s; simp [maildirFlags]
  | cons c info ih =>
    intro f r s
    simp only [maildirFlags]
    by_cases h1 : c = 0x46
    · subst h1; simp [ih]
    · by_cases h2 : c = 0x52
      · subst h2; simp [ih]
      · by_cases h3 : c = 0x53
        · subst h3; simp [ih]
        · have e1 : ¬ (0x46 : UInt8) = c := fun h => h1 h.symm
          have e2 : ¬ (0x52 : UInt8) = c := fun h => h2 h.symm
          have e3 : ¬ (0x53 : UInt8) = c := fun h => h3 h.symm
          rw [if_neg h1, if_neg h2, if_neg h3, ih]
          simp [e1, e2, e3]

/-- The part of a list behind the last `x`. -/
theorem behind_last {x : UInt8} {pre tail : Text} (h : x ∉ tail) :
    ((pre ++ x :: tail).reverse.takeWhile (· ≠ x)).reverse = tail := by
  have : (pre ++ x :: tail).reverse = tail.reverse ++ x :: pre.reverse := by simp
  rw [this, List.takeWhile_append_of_pos, List.takeWhile_cons_of_neg (by simp)]
  · simp
  · intro a ha
    simp only [List.mem_reverse] at ha
    simp only [ne_eq, decide_not, Bool.not_eq_eq_eq_not, Bool.not_true, decide_eq_false_iff_not]
    rintro rfl; exact h ha

theorem split_last {x : UInt8} : ∀ {l : Text}, x ∈ l → ∃ pre tail, l = pre ++ x :: tail ∧ x ∉ tail := by
  intro l
  induction l with
  | nil => intro h; cases h
  | cons y l ih =>
    intro h
    by_cases hx : x ∈ l
    · obtain ⟨p, t, e, hn⟩ := ih hx
      exact ⟨y :: p, t, by rw [e]; rfl, hn⟩
    · rcases List.mem_cons.1 h with rfl | h
      · exact ⟨[], l, rfl, hx⟩
      · exact absurd h hx

theorem last_unique {x : UInt8} {p p' t t' : Text} (h : p ++ x :: t = p' ++ x :: t') (h1 : x ∉ t) (h2 : x ∉ t') : t = t' := by
  have a := behind_last (pre := p) h1
  have b := behind_last (pre := p') h2
  rw [h] at a
  exact a.symm.trans b

theorem maildirFlag_iff {c : UInt8} {pre tail : Text} (h : (0x3a : UInt8) ∉ tail) :
    MaildirFlag c (pre ++ 0x3a :: tail) ↔ ∃ info, tail = 0x32 :: 0x2c :: info ∧ c ∈ info := by
  have hb : bs ":2," = [0x3a, 0x32, 0x2c] := by decide
  constructor
  · rintro ⟨p, info, e, h1, h2⟩
    rw [hb] at e
    refine ⟨info, ?_, h2⟩
    refine last_unique (p := pre) (p' := p) (x := 0x3a) ?_ h ?_
    · rw [e]; simp
    · simp [h1]
  · rintro ⟨info, rfl, hc⟩
    refine ⟨pre, info, by rw [hb]; simp, ?_, hc⟩
    intro h'; exact h (by simp [h'])

theorem scanMaildirFlags_spec (path : Text) :
    ((scanMaildirFlags path).1 = true ↔ MaildirFlag 0x46 path) ∧
    ((scanMaildirFlags path).2.1 = true ↔ MaildirFlag 0x52 path) ∧
    ((scanMaildirFlags path).2.2 = true ↔ MaildirFlag 0x53 path) := by
  by_cases hc : (0x3a : UInt8) ∈ path
  · obtain ⟨pre, tail, rfl, hn⟩ := split_last hc
    simp only [scanMaildirFlags, behind_last hn, if_pos hc, maildirFlag_iff hn]
    split
    · next info =>
      rw [maildirFlags_spec]
      simp
    · next hne =>
      have : ∀ c, ¬ ∃ info, tail = 0x32 :: 0x2c :: info ∧ c ∈ info := by
        rintro c ⟨info, e, _⟩
        exact hne info e
      simp [this]
  · have : ∀ c, ¬ MaildirFlag c path := by
      rintro c ⟨p, info, e, _⟩
      apply hc
      rw [e, show bs ":2," = [0x3a, 0x32, 0x2c] from by decide]
      simp
    simp [scanMaildirFlags, hc, this]

theorem isGitignore_iff {path : Text} : isGitignore path = true ↔ ∃ dir, path = dir ++ bs "/.gitignore" := by
  have hl : (bs "/.gitignore").length = 11 := by decide
  simp only [isGitignore, Bool.and_eq_true, decide_eq_true_eq, beq_iff_eq]
  constructor
  · rintro ⟨h1, h2⟩
    exact ⟨path.take (path.length - 11), by rw [← h2, List.take_append_drop]⟩
  · rintro ⟨dir, rfl⟩
    simp [hl]

end Mairix
