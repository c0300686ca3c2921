import Verif.Model.Tokenise
import Verif.Spec.Words

/-!
# C06, C07, C42: the words and identifiers found in a text
-/

namespace Mairix
open Spec

theorem charValid_word (c : UInt8) : charValid 1 c = true ↔ WordChar c := by
  unfold charValid specialTable isAlnum isAlpha isUpper isLower isDigit WordChar
  by_cases h : c = 0x5f
  · subst h; decide
  · by_cases h1 : c = 0x2b
    · subst h1; decide
    by_cases h2 : c = 0x2d
    · subst h2; decide
    by_cases h3 : c = 0x2e
    · subst h3; decide
    by_cases h4 : c = 0x40
    · subst h4; decide
    simp only [h, h1, h2, h3, h4, if_false]
    simp
    grind

theorem charValid_addr (c : UInt8) : charValid 2 c = true ↔ AddrChar c := by
  unfold charValid specialTable isAlnum isAlpha isUpper isLower isDigit AddrChar WordChar
  by_cases h : c = 0x5f
  · subst h; decide
  · by_cases h1 : c = 0x2b
    · subst h1; decide
    by_cases h2 : c = 0x2d
    · subst h2; decide
    by_cases h3 : c = 0x2e
    · subst h3; decide
    by_cases h4 : c = 0x40
    · subst h4; decide
    simp only [h, h1, h2, h3, h4, if_false]
    simp
    grind

/-- `MaximalRun` with a mark whether a run may start at the start of the text. -/
private def M (P : UInt8 → Prop) (fresh : Bool) (s w : Text) : Prop :=
  ∃ a b, RunAt P s a w b ∧ (a = [] → fresh = true)

private theorem M_true {P : UInt8 → Prop} {s w : Text} : M P true s w ↔ MaximalRun P s w := by
  simp [M, MaximalRun]

private theorem M_nil {P : UInt8 → Prop} {f : Bool} {w : Text} : ¬ M P f [] w := by
  rintro ⟨a, b, ⟨h1, h2, _⟩, _⟩
  have h3 : w = [] := by
    cases a with
    | nil => cases w with
      | nil => rfl
      | cons x w => simp at h1
    | cons x a => simp at h1
  exact h2 h3

private theorem M_invalid {P : UInt8 → Prop} {f : Bool} {c : UInt8} {s w : Text} (hc : ¬ P c) :
    M P f (c :: s) w ↔ M P true s w := by
  constructor
  · rintro ⟨a, b, ⟨h1, h2, h3, h4, h5⟩, _⟩
    cases a with
    | nil =>
      cases w with
      | nil => exact absurd rfl h2
      | cons d w => 
        simp at h1
        exact absurd (h3 d (by simp)) (h1.1 ▸ hc)
    | cons d a =>
      simp at h1
      refine ⟨a, b, ⟨by simp [h1.2], h2, h3, ?_, h5⟩, fun _ => rfl⟩
      intro x hx
      refine h4 x ?_
      rw [List.getLast?_cons, hx]; rfl
  · rintro ⟨a, b, ⟨h1, h2, h3, h4, h5⟩, _⟩
    refine ⟨c :: a, b, ⟨by simp [h1], h2, h3, ?_, h5⟩, by simp⟩
    intro x hx
    cases ha : a.getLast? with
    | none =>
      rw [List.getLast?_cons, ha] at hx
      simp at hx
      exact hx ▸ hc
    | some y =>
      rw [List.getLast?_cons, ha] at hx
      simp at hx
      subst hx
      exact h4 y ha

private theorem M_valid {P : UInt8 → Prop} {p : UInt8 → Bool} (hp : ∀ c, p c = true ↔ P c)
    {f : Bool} {c : UInt8} {s w : Text} (hc : P c) :
    M P f (c :: s) w ↔ (f = true ∧ w = c :: s.takeWhile p) ∨ M P false s w := by
  constructor
  · rintro ⟨a, b, ⟨h1, h2, h3, h4, h5⟩, h6⟩
    cases a with
    | nil =>
      cases w with
      | nil => exact absurd rfl h2
      | cons d w =>
        simp at h1
        left
        refine ⟨h6 rfl, ?_⟩
        obtain ⟨rfl, rfl⟩ := h1
        congr 1
        have hw : ∀ x ∈ w, p x = true := fun x hx => (hp x).mpr (h3 x (by simp [hx]))
        rw [List.takeWhile_append_of_pos hw]
        cases b with
        | nil => simp
        | cons y b =>
          have : p y = false := by
            have := h5 y rfl
            rw [← hp] at this
            simpa using this
          simp [this]
    | cons d a =>
      simp at h1
      right
      refine ⟨a, b, ⟨by simp [h1.2], h2, h3, ?_, h5⟩, ?_⟩
      · intro x hx
        refine h4 x ?_
        rw [List.getLast?_cons, hx]; rfl
      · rintro rfl
        exact absurd hc (h4 c (by simp [h1.1]))
  · rintro (⟨hf, rfl⟩ | ⟨a, b, ⟨h1, h2, h3, h4, h5⟩, h6⟩)
    · refine ⟨[], s.dropWhile p, ⟨by simp [List.takeWhile_append_dropWhile], by simp, ?_, by simp, ?_⟩, fun _ => hf⟩
      · intro x hx
        rcases List.mem_cons.mp hx with rfl | hx
        · exact hc
        · exact (hp x).mp (List.all_eq_true.mp List.all_takeWhile x hx)
      · intro x hx
        rw [← hp]
        have := List.head?_dropWhile_not p s
        rw [hx] at this
        simp at this
        simp [this]
    · refine ⟨c :: a, b, ⟨by simp [h1], h2, h3, ?_, h5⟩, by simp⟩
      intro x hx
      cases ha : a.getLast? with
      | none => 
        have : a = [] := List.getLast?_eq_none_iff.mp ha
        exact absurd (h6 this) (by simp)
      | some y =>
        rw [List.getLast?_cons, ha] at hx
        simp at hx
        subst hx
        exact h4 y ha

private theorem M_skip {P : UInt8 → Prop} {p : UInt8 → Bool} (hp : ∀ c, p c = true ↔ P c) {w : Text} :
    ∀ s, M P true s w ↔ M P true (s.dropWhile (fun c => !p c)) w := by
  intro s
  induction s with
  | nil => simp
  | cons c s ih =>
    cases hc : p c with
    | true => simp [hc]
    | false =>
      have : ¬ P c := by rw [← hp, hc]; simp
      rw [M_invalid this, ih]
      simp [hc]

private theorem M_rest {P : UInt8 → Prop} {p : UInt8 → Bool} (hp : ∀ c, p c = true ↔ P c) {w : Text} :
    ∀ s, M P false s w ↔ M P true (s.dropWhile p) w := by
  intro s
  induction s with
  | nil => simp [M_nil]
  | cons c s ih =>
    cases hc : p c with
    | true =>
      rw [M_valid hp ((hp c).mp hc), ih]
      simp [hc]
    | false =>
      have : ¬ P c := by rw [← hp, hc]; simp
      simp only [List.dropWhile_cons, hc]
      rw [M_invalid this]
      exact (M_invalid this).symm

private theorem filter_skip (p : UInt8 → Bool) : ∀ s : Text,
    s.filter p = (s.dropWhile (fun c => !p c)).filter p := by
  intro s
  induction s with
  | nil => rfl
  | cons c s ih => cases hc : p c <;> simp [hc, ih]

private theorem filter_word (p : UInt8 → Bool) : ∀ s : Text,
    s.filter p = s.takeWhile p ++ (s.dropWhile p).filter p := by
  intro s
  induction s with
  | nil => rfl
  | cons c s ih =>
    cases hc : p c
    · simp [hc]
    · simp [hc, ih]

private theorem dropWhile_length_le (p : UInt8 → Bool) (s : Text) : (s.dropWhile p).length ≤ s.length :=
  (List.dropWhile_sublist p).length_le

/-- The words found are the maximal runs, and put together they are all the word characters of the
text, in order. -/
private theorem scanWords_spec (mask : Nat) {P : UInt8 → Prop} (hp : ∀ c, charValid mask c = true ↔ P c) :
    ∀ fuel s, s.length < fuel → ∃ ws, scanWords mask fuel s = .ok ws ∧
      (∀ w, w ∈ ws ↔ M P true s w) ∧ ws.flatten = s.filter (charValid mask) := by
  intro fuel
  induction fuel with
  | zero => intro s h; omega
  | succ fuel ih =>
    intro s hlen
    simp only [scanWords]
    have hd := dropWhile_length_le (fun c => !charValid mask c) s
    have hfs := filter_skip (charValid mask) s
    have hM := fun w => M_skip hp (w := w) s
    have hhead := List.head?_dropWhile_not (fun c => !charValid mask c) s
    cases hs : s.dropWhile (fun c => !charValid mask c) with
    | nil =>
      refine ⟨[], rfl, ?_, ?_⟩
      · intro w; rw [hM, hs]; simp [M_nil]
      · rw [hfs, hs]; rfl
    | cons c r =>
      have hc : charValid mask c = true := by
        rw [hs] at hhead; simpa using hhead
      have hr := dropWhile_length_le (charValid mask) r
      rw [hs] at hd hfs
      simp only [List.length_cons] at hd
      obtain ⟨ws, h1, h2, h3⟩ := ih (r.dropWhile (charValid mask)) (by omega)
      have hmem : ∀ w, M P true s w ↔ w = c :: r.takeWhile (charValid mask) ∨
          M P true (r.dropWhile (charValid mask)) w := by
        intro w
        rw [hM, hs, M_valid hp ((hp c).mp hc), M_rest hp]
        simp
      have hfl : s.filter (charValid mask) = (c :: r.takeWhile (charValid mask)) ++
          (r.dropWhile (charValid mask)).filter (charValid mask) := by
        rw [hfs, List.filter_cons_of_pos hc, filter_word]; rfl
      simp only []
      split
      · next he =>
        refine ⟨_, rfl, ?_, ?_⟩
        · intro w; rw [hmem, he]; simp [M_nil]
        · rw [hfl, he]; simp
      · next he =>
        simp only [h1, bind, Except.bind]
        refine ⟨_, rfl, ?_, ?_⟩
        · intro w; rw [hmem, List.mem_cons, h2]
        · rw [List.flatten_cons, h3, hfl]

/-- **C06**. Tokenising any text (of any message, for any hash function, into any table) is: adding
to the table, for that message and no other, each of a list `ws` of words, where `ws` has exactly
the maximal runs of word characters of the text as members (with mask 1; with mask 2, those of
address characters), and has all of the text's word characters in their order, each once. -/
theorem C06_words (hash : Text → Nat) (i : Nat) (t : Table Matches) (s : Text) :
    (∃ ws, tokeniseString hash i t s 1 = addWords hash i ws t ∧
      (∀ w, w ∈ ws ↔ MaximalRun WordChar s w) ∧
      ws.flatten = s.filter (fun c => @decide (WordChar c) (Classical.propDecidable _))) ∧
    (∃ ws, tokeniseString hash i t s 2 = addWords hash i ws t ∧
      (∀ w, w ∈ ws ↔ MaximalRun AddrChar s w) ∧
      ws.flatten = s.filter (fun c => @decide (AddrChar c) (Classical.propDecidable _))) := by
  constructor
  · obtain ⟨ws, h1, h2, h3⟩ := scanWords_spec 1 charValid_word (s.length + 1) s (by omega)
    refine ⟨ws, ?_, fun w => by rw [h2, M_true], ?_⟩
    · simp only [tokeniseString, h1, bind, Except.bind]
    · rw [h3]
      congr 1
      funext c
      rw [Bool.eq_iff_iff, charValid_word]; simp
  · obtain ⟨ws, h1, h2, h3⟩ := scanWords_spec 2 charValid_addr (s.length + 1) s (by omega)
    refine ⟨ws, ?_, fun w => by rw [h2, M_true], ?_⟩
    · simp only [tokeniseString, h1, bind, Except.bind]
    · rw [h3]
      congr 1
      funext c
      rw [Bool.eq_iff_iff, charValid_addr]; simp

/-- Both readings of an address. -/
example : scanWords 1 30 (bs " joe.x_1@b-c,Z") = .ok [bs "joe", bs "x_1", bs "b", bs "c", bs "Z"] ∧
    scanWords 2 30 (bs " joe.x_1@b-c,Z") = .ok [bs "joe.x_1@b-c", bs "Z"] := by decide

/-! ## HTML -/

private theorem strip_inside (r : Text) : 
    stripTags (r.dropWhile (· ≠ 0x3e)) = (match insideTag r with
      | x => if 0x3e ∈ r then 0x3e :: x else []) := by
  induction r with
  | nil => simp [stripTags]
  | cons c r ih =>
    by_cases hc : c = 0x3e
    · subst hc; simp [insideTag, stripTags]
    · have : decide (c ≠ 0x3e) = true := by simp [hc]
      rw [List.dropWhile_cons, if_pos this, ih]
      simp only [insideTag, if_neg hc, List.mem_cons]
      have h' : ¬ (62 : UInt8) = c := fun h => hc h.symm
      simp [h']

private theorem inside_none {r : Text} (h : 0x3e ∉ r) : insideTag r = [] := by
  induction r with
  | nil => rfl
  | cons c r ih =>
    simp only [List.mem_cons, not_or] at h
    simp only [insideTag]
    rw [if_neg (fun hc => h.1 hc.symm)]
    exact ih h.2

/-- The HTML skip leaves the same text to be scanned as skipping in the stripped text. -/
private theorem skipHtml_spec : ∀ fuel s, s.length < fuel → ∃ r, skipHtml fuel s = .ok r ∧
    r.length ≤ s.length ∧
    stripTags r = (stripTags s).dropWhile (fun c => !charValid 1 c) ∧
    (∀ c x, r = c :: x → charValid 1 c = true) := by
  intro fuel
  induction fuel with
  | zero => intro s h; omega
  | succ fuel ih =>
    intro s hlen
    cases s with
    | nil => exact ⟨[], rfl, by simp, by simp [stripTags], by simp⟩
    | cons c s =>
      simp only [List.length_cons] at hlen
      simp only [skipHtml]
      cases hc : charValid 1 c with
      | true =>
        have : c ≠ 0x3c := by rintro rfl; revert hc; decide
        refine ⟨c :: s, by simp, by simp, ?_, ?_⟩
        · simp [stripTags, this, hc]
        · intro d x h; cases h; exact hc
      | false =>
        by_cases h3 : c = 0x3c
        · subst h3
          have hd := dropWhile_length_le (· ≠ 0x3e) s
          obtain ⟨r, h1, h2, h4, h5⟩ := ih (s.dropWhile (· ≠ 0x3e)) (by omega)
          refine ⟨r, by simpa using h1, by simp; omega, ?_, h5⟩
          rw [h4, strip_inside]
          simp only [stripTags, if_true]
          have hsp : charValid 1 0x20 = false := by decide
          have hgt : charValid 1 0x3e = false := by decide
          by_cases hm : (0x3e : UInt8) ∈ s
          · simp [hm, hsp, hgt]
          · simp [hm, hsp, inside_none hm]
        · obtain ⟨r, h1, h2, h4, h5⟩ := ih s (by omega)
          refine ⟨r, by simpa [h3] using h1, by simp; omega, ?_, h5⟩
          rw [h4]
          simp [stripTags, h3, hc]

private theorem strip_takeWhile : ∀ r : Text, (stripTags r).takeWhile (charValid 1) = r.takeWhile (charValid 1) ∧
    (stripTags r).dropWhile (charValid 1) = stripTags (r.dropWhile (charValid 1)) := by
  intro r
  induction r with
  | nil => simp [stripTags]
  | cons c r ih =>
    by_cases h3 : c = 0x3c
    · subst h3
      have hsp : charValid 1 0x20 = false := by decide
      have hlt : charValid 1 0x3c = false := by decide
      simp [stripTags, hsp, hlt]
    · cases hc : charValid 1 c
      · simp [stripTags, h3, hc]
      · simp [stripTags, h3, hc, ih.1, ih.2]

private theorem strip_nil {r : Text} : stripTags r = [] ↔ r = [] := by
  cases r with
  | nil => simp [stripTags]
  | cons c r => simp only [stripTags]; split <;> simp

/-- Scanning HTML is scanning the stripped text. -/
private theorem scanHtml_spec : ∀ fuel s, s.length < fuel → ∀ fuel2, (stripTags s).length < fuel2 →
    scanHtml fuel s = scanWords 1 fuel2 (stripTags s) := by
  intro fuel
  induction fuel with
  | zero => intro s h; omega
  | succ fuel ih =>
    intro s hlen fuel2 hlen2
    obtain ⟨fuel2, rfl⟩ : ∃ f, fuel2 = f + 1 := ⟨fuel2 - 1, by omega⟩
    obtain ⟨r, h1, h2, h3, h4⟩ := skipHtml_spec (s.length + 1) s (by omega)
    simp only [scanHtml, scanWords, h1, bind, Except.bind]
    rw [← h3]
    cases r with
    | nil => simp [stripTags]
    | cons c r =>
      have hc := h4 c r rfl
      have hne : c ≠ 0x3c := by rintro rfl; revert hc; decide
      simp only [stripTags, if_neg hne]
      obtain ⟨e1, e2⟩ := strip_takeWhile r
      rw [e1, e2]
      have hd := dropWhile_length_le (charValid 1) r
      simp only [List.length_cons] at h2
      have hl3 : (stripTags (r.dropWhile (charValid 1))).length < fuel2 := by
        have a1 := dropWhile_length_le (charValid 1) (stripTags r)
        have a2 := congrArg List.length h3
        have a3 := dropWhile_length_le (fun c => !charValid 1 c) (stripTags s)
        simp only [stripTags, if_neg hne, List.length_cons] at a2
        rw [e2] at a1
        omega
      rw [ih (r.dropWhile (charValid 1)) (by omega) fuel2 hl3]
      by_cases he : r.dropWhile (charValid 1) = []
      · simp only [he, stripTags, if_true]
      · rw [if_neg he, if_neg (fun h => he (strip_nil.mp h))]

/-- **C07**. Tokenising an HTML text is adding, for that message and no other, exactly the maximal
runs of word characters of the text in which each tag is replaced by a space, in order. -/
theorem C07_html (hash : Text → Nat) (i : Nat) (t : Table Matches) (s : Text) :
    ∃ ws, tokeniseHtml hash i t s = addWords hash i ws t ∧
      (∀ w, w ∈ ws ↔ MaximalRun WordChar (stripTags s) w) ∧
      ws.flatten = (stripTags s).filter (fun c => @decide (WordChar c) (Classical.propDecidable _)) := by
  obtain ⟨ws, h1, h2, h3⟩ := scanWords_spec 1 charValid_word ((stripTags s).length + 1) (stripTags s) (by omega)
  refine ⟨ws, ?_, fun w => by rw [h2, M_true], ?_⟩
  · simp only [tokeniseHtml, scanHtml_spec (s.length + 1) s (by omega) _ (Nat.lt_succ_self _), h1, bind, Except.bind]
  · rw [h3]
    congr 1
    funext c
    rw [Bool.eq_iff_iff, charValid_word]; simp

/-- A tag inside a word, adjacent tags, an unterminated tag. -/
example : scanHtml 40 (bs "a<b>c<i><u>d e<f g") = .ok [bs "a", bs "c", bs "d", bs "e"] ∧
    stripTags (bs "a<b>c<i><u>d e<f g") = bs "a c  d e " := by decide

/-! ## Angle brackets -/

private theorem scanAngled_spec : ∀ fuel s, s.length < fuel → ∃ ts, scanAngled fuel s = .ok ts ∧ AngledTerms s ts ∧
    (∀ r, s = 0x3e :: r → AngledTerms r ts) := by
  intro fuel
  induction fuel with
  | zero => intro s h; omega
  | succ fuel ih =>
    intro s hlen
    simp only [scanAngled]
    -- split at the first `<`
    have hsplit : s = s.takeWhile (· ≠ 0x3c) ++ s.dropWhile (· ≠ 0x3c) := List.takeWhile_append_dropWhile.symm
    have hpre : (0x3c : UInt8) ∉ s.takeWhile (· ≠ 0x3c) := by
      intro hm
      have := List.all_eq_true.mp (List.all_takeWhile (p := (· ≠ (0x3c : UInt8))) (l := s)) _ hm
      simp at this
    have hhead := List.head?_dropWhile_not (· ≠ (0x3c : UInt8)) s
    have hdl := dropWhile_length_le (· ≠ 0x3c) s
    have hgen : ∀ ts, AngledTerms s ts → ∀ r, s = 0x3e :: r → AngledTerms r ts := by
      intro ts h r hr
      cases h with
      | none h => exact .none (fun a b hab => h (0x3e :: a) b (by rw [hr, hab]; rfl))
      | @term pre t rest ts h1 h2 h3 =>
        cases pre with
        | nil => simp at hr
        | cons x pre =>
          simp at hr
          rw [← hr.2]
          simp only [List.mem_cons, not_or] at h1
          simpa using AngledTerms.term (pre := pre) h1.2 h2 h3
    cases hs : s.dropWhile (· ≠ 0x3c) with
    | nil =>
      have : AngledTerms s [] := .none (fun a b hab => by
        have : (0x3c : UInt8) ∈ s := by rw [hab]; simp
        rw [hsplit, hs, List.append_nil] at this
        exact absurd this hpre)
      exact ⟨[], rfl, this, hgen _ this⟩
    | cons left r =>
      rw [hs] at hhead hdl
      have hleft : left = 0x3c := by simpa using hhead
      subst hleft
      simp only [List.length_cons] at hdl
      have hdrop : ((0x3c : UInt8) :: r).dropWhile (· ≠ 0x3e) = r.dropWhile (· ≠ 0x3e) := by
        rw [List.dropWhile_cons, if_pos (by decide)]
      simp only []
      rw [hdrop]
      have hr : r = r.takeWhile (· ≠ 0x3e) ++ r.dropWhile (· ≠ 0x3e) := List.takeWhile_append_dropWhile.symm
      have ht : (0x3e : UInt8) ∉ r.takeWhile (· ≠ 0x3e) := by
        intro hm
        have := List.all_eq_true.mp (List.all_takeWhile (p := (· ≠ (0x3e : UInt8))) (l := r)) _ hm
        simp at this
      have hhead2 := List.head?_dropWhile_not (· ≠ (0x3e : UInt8)) r
      have hdl2 := dropWhile_length_le (· ≠ 0x3e) r
      cases hs2 : r.dropWhile (· ≠ 0x3e) with
      | nil =>
        have : AngledTerms s [] := .none (fun a b hab hm => by
          have hb : (0x3e : UInt8) ∈ s.dropWhile (· ≠ 0x3c) := by
            rw [hab]
            have : ∀ a : Text, (0x3e : UInt8) ∈ (a ++ 0x3c :: b).dropWhile (· ≠ 0x3c) := by
              intro a
              induction a with
              | nil => simp [hm]
              | cons x a iha =>
                by_cases hx : x = 0x3c
                · subst hx; simp [hm]
                · simp only [List.cons_append, List.dropWhile_cons]
                  rw [if_pos (by simpa using hx)]
                  exact iha
            exact this a
          rw [hs] at hb
          simp only [List.mem_cons] at hb
          rcases hb with hb | hb
          · exact absurd hb (by decide)
          · rw [hr, hs2, List.append_nil] at hb
            exact ht hb)
        exact ⟨[], rfl, this, hgen _ this⟩
      | cons right r' =>
        rw [hs2] at hhead2 hdl2
        have hright : right = 0x3e := by simpa using hhead2
        subst hright
        simp only [List.length_cons] at hdl2
        obtain ⟨ts, h1, _, h3⟩ := ih (0x3e :: r') (by simp; omega)
        refine ⟨r.takeWhile (· ≠ 0x3e) :: ts, ?_, ?_, ?_⟩
        · simp only [h1, bind, Except.bind]
        · have h4 := h3 r' rfl
          have h5 := AngledTerms.term hpre ht h4
          have : s = s.takeWhile (· ≠ 0x3c) ++ 0x3c :: r.takeWhile (· ≠ 0x3e) ++ 0x3e :: r' := by
            rw [List.append_assoc, List.cons_append, ← hs2, ← hr, ← hs, ← hsplit]
          rw [← this] at h5
          exact h5
        · refine hgen _ ?_
          have h4 := h3 r' rfl
          have h5 := AngledTerms.term hpre ht h4
          have : s = s.takeWhile (· ≠ 0x3c) ++ 0x3c :: r.takeWhile (· ≠ 0x3e) ++ 0x3e :: r' := by
            rw [List.append_assoc, List.cons_append, ← hs2, ← hr, ← hs, ← hsplit]
          rw [← this] at h5
          exact h5

/-- **C42**. The identifiers recorded for a header value are exactly its terms in angle brackets,
left to right, each for that message and no other. -/
theorem C42_angled (hash : Text → Nat) (i : Nat) (t : Table Matches2) (own : Bool) (s : Text) :
    ∃ ts, addAngledTerms hash i t own (some s) = addIds hash i own ts t ∧ AngledTerms s ts := by
  obtain ⟨ts, h1, h2, _⟩ := scanAngled_spec (s.length + 1) s (by omega)
  exact ⟨ts, by simp only [addAngledTerms, h1, bind, Except.bind], h2⟩

/-- A text has only one list of terms in angle brackets, so that the specification leaves no
choice. -/
theorem C42_angled_unique {s : Text} {ts ts' : List Text} (h : AngledTerms s ts) (h' : AngledTerms s ts') :
    ts = ts' := by
  induction h generalizing ts' with
  | none h =>
    cases h' with
    | none => rfl
    | @term pre t rest ts h1 h2 h3 =>
      exact absurd (by simp) (h pre (t ++ 0x3e :: rest) (by simp))
  | @term pre t rest ts h1 h2 h3 ih =>
    generalize hs : pre ++ 0x3c :: t ++ 0x3e :: rest = s at h'
    cases h' with
    | none h => exact absurd (by simp) (h pre (t ++ 0x3e :: rest) (by simp [← hs]))
    | @term pre' t' rest' ts' h1' h2' h3' =>
      have key : ∀ (x : UInt8) (a a' b b' : Text), x ∉ a → x ∉ a' → a ++ x :: b = a' ++ x :: b' → a = a' ∧ b = b' := by
        intro x a
        induction a with
        | nil =>
          intro a' b b' _ h2 h
          cases a' with
          | nil => simpa using h
          | cons y a' => simp at h; simp [h.1] at h2
        | cons y a iha =>
          intro a' b b' h1 h2 h
          cases a' with
          | nil => simp at h; simp [h.1] at h1
          | cons z a' =>
            simp at h
            simp only [List.mem_cons, not_or] at h1 h2
            obtain ⟨e1, e2⟩ := iha a' b b' h1.2 h2.2 h.2
            exact ⟨by rw [h.1, e1], e2⟩
      obtain ⟨rfl, e2⟩ := key 0x3c pre pre' (t ++ 0x3e :: rest) (t' ++ 0x3e :: rest') h1 h1' (by simpa using hs)
      obtain ⟨rfl, rfl⟩ := key 0x3e t t' rest rest' h2 h2' e2
      rw [ih h3']

/-- Nested and unbalanced brackets. -/
example : scanAngled 40 (bs "x> <a@b> <c<d> > y <e") = .ok [bs "a@b", bs "c<d"] := by decide

end Mairix
