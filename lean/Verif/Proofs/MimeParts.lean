import Verif.Spec.Mime

/-!
# Multiparts: the parts are found
-/

namespace Mairix
open Spec

theorem dashes (b : Text) : bs "--" ++ b = 0x2d :: 0x2d :: b := by simp [show bs "--" = [0x2d, 0x2d] from by decide]

/-- No delimiter reaches beyond the end of a line. -/
theorem prefix_in_line {b s rest : Text} (hb : 0x0a ∉ b) (h : bs "--" ++ b <+: s ++ 0x0a :: rest) : bs "--" ++ b <+: s := by
  have hp : 0x0a ∉ bs "--" ++ b := by rw [dashes]; simp [hb]
  rcases Nat.lt_or_ge s.length (bs "--" ++ b).length with hl | hl
  · exfalso
    obtain ⟨x, hx⟩ := h
    have := congrArg (fun l => l[s.length]?) hx
    rw [List.getElem?_append_left hl, List.getElem?_append_right (Nat.le_refl _)] at this
    simp at this
    exact hp (by have := List.mem_of_getElem? this; simpa using this)
  · exact List.prefix_of_prefix_length_le h (List.prefix_append _ _) hl

/-- Of a line the search finds the first occurrence, or passes it. -/
theorem findBoundary_line {b : Text} (hb : 0x0a ∉ b) : ∀ (l rest : Text),
    (findBoundary b (l ++ 0x0a :: rest) = (findBoundary b rest).map fun (p, r) => (l ++ 0x0a :: p, r)) ∨
    ∃ x y, l = x ++ (bs "--" ++ b ++ y) ∧ findBoundary b (l ++ 0x0a :: rest) = some (x, bs "--" ++ b ++ y ++ 0x0a :: rest) := by
  intro l rest
  induction l with
  | nil =>
    left
    rw [List.nil_append, findBoundary, if_neg]
    · rfl
    · rintro ⟨_, h⟩
      rw [dashes] at h
      have := List.cons_prefix_cons.1 h
      simp at this
  | cons c l ih =>
    by_cases h : bs "--" ++ b <+: c :: l ++ 0x0a :: rest
    · right
      have h1 := prefix_in_line hb h
      obtain ⟨y, hy⟩ := h1
      refine ⟨[], y, by simpa using hy.symm, ?_⟩
      rw [← hy]
      have e : bs "--" ++ b ++ y ++ 0x0a :: rest = c :: (l ++ 0x0a :: rest) := by rw [hy]; rfl
      rw [e, findBoundary, if_pos]
      refine ⟨?_, by simpa using h⟩
      rw [← e]; simp [show bs "--" = [0x2d, 0x2d] from by decide]; omega
    · rw [List.cons_append, findBoundary, if_neg (by intro h'; exact h h'.2)]
      rcases ih with ih | ⟨x, y, e, ih⟩
      · left
        rw [ih]
        cases findBoundary b rest <;> rfl
      · right
        exact ⟨c :: x, y, by rw [e]; rfl, by rw [ih]; rfl⟩

theorem newlineAt_line {l rest : Text} (h : 0x0a ∉ l) (h0 : 0 ∉ l) : newlineAt (l ++ 0x0a :: rest) = some l.length := by
  induction l with
  | nil => simp [newlineAt, List.idxOf?_cons]
  | cons c l ih =>
    simp at h h0
    have hc : c ≠ 0 := fun e => h0.1 e.symm
    have := ih h.2 h0.2
    simp only [newlineAt] at this ⊢
    rw [List.cons_append, List.takeWhile_cons_of_pos (by simpa using hc), List.idxOf?_cons, this]
    have : ¬ c = 0x0a := fun e => h.1 e.symm
    simp [this]

/-- A delimiter in front of which a line ends is one. -/
def AtDelimiter (b r : Text) : Prop := bs "--" ++ b <+: r ∧ b.length + 2 < r.length ∧ boundaryOk b [] r = true

theorem boundaryOk_start {b before r : Text} (h : before.getLast? = none ∨ before.getLast? = some 0x0a) : boundaryOk b before r = boundaryOk b [] r := by
  unfold boundaryOk
  congr 1
  rcases h with h | h <;> rw [h] <;> rfl

theorem drop_boundary (b y : Text) : (bs "--" ++ b ++ y).drop (b.length + 2) = y := by
  rw [List.drop_append_of_le_length (by simp [show bs "--" = [0x2d, 0x2d] from by decide])]
  rw [List.drop_of_length_le (by simp [show bs "--" = [0x2d, 0x2d] from by decide])]
  rfl

/-- What looks like a delimiter in a line that is none is passed. -/
theorem line_not_ok {b l x y rest before : Text} (hl : 0x0a ∉ l) (hn : NoDelimiter b l) (e : l = x ++ (bs "--" ++ b ++ y)) :
    boundaryOk b (before ++ x) (bs "--" ++ b ++ y ++ 0x0a :: rest) = false := by
  have hd : (bs "--" ++ b ++ y ++ 0x0a :: rest).drop (b.length + 2) = y ++ 0x0a :: rest := by
    rw [List.append_assoc (bs "--" ++ b)]; exact drop_boundary b _
  rcases List.eq_nil_or_concat x with rfl | ⟨x, c, rfl⟩
  · simp only [List.nil_append] at e
    obtain ⟨n1, n2, n3, -⟩ := hn
    have hy : y ≠ [] := by rintro rfl; exact n1 (by rw [e, List.append_nil])
    have hyn : 0x0a ∉ y := by rw [e] at hl; intro h; exact hl (by simp [h])
    unfold boundaryOk endBoundary
    rw [hd]
    obtain ⟨c, y', rfl⟩ := List.exists_cons_of_ne_nil hy
    have g1 : ¬ bs "--" <+: (c :: y') ++ 0x0a :: rest := by
      intro h
      apply n3
      rw [e]
      apply (List.prefix_append_right_inj _).2
      rw [show bs "--" = [0x2d, 0x2d] from by decide] at h ⊢
      rw [List.cons_append, List.cons_prefix_cons] at h
      cases y' with
      | nil => have := List.cons_prefix_cons.1 h.2; simp at this
      | cons c' y' =>
        have := List.cons_prefix_cons.1 h.2
        rw [← h.1, ← this.1]
        exact ⟨y', rfl⟩
    have g2 : ¬ bs "\n" <+: (c :: y') ++ 0x0a :: rest := by
      intro h
      rw [show bs "\n" = [0x0a] from by decide, List.cons_append, List.cons_prefix_cons] at h
      exact hyn (by rw [h.1]; simp)
    have g3 : ¬ bs "\r\n" <+: (c :: y') ++ 0x0a :: rest := by
      intro h
      rw [show bs "\r\n" = [0x0d, 0x0a] from by decide, List.cons_append, List.cons_prefix_cons] at h
      cases y' with
      | nil => exact n2 (by rw [e, ← h.1]; rfl)
      | cons c' y' =>
        have := List.cons_prefix_cons.1 h.2
        exact hyn (by rw [this.1]; simp)
    have g4 : ¬ (bs "--" ++ b ++ c :: y' ++ 0x0a :: rest).length ≤ b.length + 3 := by
      have : (bs "--").length = 2 := by decide
      simp only [List.length_append, List.length_cons]; omega
    rw [decide_eq_false g1, decide_eq_false g2, decide_eq_false g3, decide_eq_false g4]
    simp
  · have hc : c ≠ 0x0a := by rintro rfl; exact hl (by rw [e]; simp)
    unfold boundaryOk
    have : (before ++ x.concat c).getLast? = some c := by simp [List.concat_eq_append]
    rw [this]
    simp [hc]

theorem nextBoundary_skip {b : Text} (hb : 0x0a ∉ b) {r : Text} (hr : AtDelimiter b r) : ∀ (ls : List Text) (fuel : Nat) (before skipped : Text),
    (∀ l ∈ ls, 0x0a ∉ l ∧ NoDelimiter b l) → ls.length < fuel → (before.getLast? = none ∨ before.getLast? = some 0x0a) →
    nextBoundary b fuel before skipped ((ls.map (· ++ bs "\n")).flatten ++ r) = .ok (.found (skipped ++ (ls.map (· ++ bs "\n")).flatten) r) := by
  intro ls
  induction ls with
  | nil =>
    intro fuel before skipped _ hf hbef
    obtain ⟨fuel, rfl⟩ := Nat.exists_eq_succ_of_ne_zero (by omega : fuel ≠ 0)
    obtain ⟨h1, h2, h3⟩ := hr
    cases r with
    | nil => simp at h2
    | cons c t =>
      have : findBoundary b (c :: t) = some ([], c :: t) := by rw [findBoundary, if_pos ⟨h2, h1⟩]
      simp only [List.map_nil, List.flatten_nil, List.nil_append, nextBoundary, this, List.append_nil]
      rw [if_pos (by rw [boundaryOk_start hbef]; exact h3)]
  | cons l ls ih =>
    intro fuel before skipped hls hf hbef
    obtain ⟨fuel, rfl⟩ := Nat.exists_eq_succ_of_ne_zero (by omega : fuel ≠ 0)
    have hl := hls l (by simp)
    simp only [List.length_cons] at hf
    have e : ((l :: ls).map (· ++ bs "\n")).flatten ++ r = l ++ 0x0a :: ((ls.map (· ++ bs "\n")).flatten ++ r) := by
      simp [show bs "\n" = [0x0a] from by decide]
    have e2 : ((l :: ls).map (· ++ bs "\n")).flatten = l ++ 0x0a :: (ls.map (· ++ bs "\n")).flatten := by
      simp [show bs "\n" = [0x0a] from by decide]
    rw [e, e2]
    rcases findBoundary_line hb l ((ls.map (· ++ bs "\n")).flatten ++ r) with h | ⟨x, y, hx, h⟩
    · have := ih (fuel + 1) (before ++ l ++ [0x0a]) (skipped ++ l ++ [0x0a]) (fun l' h' => hls l' (by simp [h'])) (by omega) (by simp)
      simp only [nextBoundary] at this ⊢
      rw [h]
      cases hf' : findBoundary b ((ls.map (· ++ bs "\n")).flatten ++ r) with
      | none => rw [hf'] at this; cases this
      | some pr =>
        rw [hf'] at this
        obtain ⟨p, r'⟩ := pr
        simp only [Option.map_some] at this ⊢
        simp only [List.append_assoc, List.cons_append, List.nil_append] at this ⊢
        exact this
    · simp only [nextBoundary, h]
      rw [line_not_ok hl.1 hl.2 hx]
      simp only [Bool.false_eq_true, if_false]
      have hz : 0 ∉ l := hl.2.2.2.2 ⟨x, y, by rw [hx]; simp⟩
      have hs : 0x0a ∉ bs "--" ++ b ++ y ∧ 0 ∉ bs "--" ++ b ++ y := by
        constructor
        · intro hm; exact hl.1 (by rw [hx]; exact List.mem_append_right _ hm)
        · intro hm; exact hz (by rw [hx]; exact List.mem_append_right _ hm)
      rw [newlineAt_line hs.1 hs.2]
      have e3 : ∀ tail : Text, (bs "--" ++ b ++ y ++ 0x0a :: tail).take ((bs "--" ++ b ++ y).length + 1) = bs "--" ++ b ++ y ++ [0x0a] := by
        intro tail
        have : bs "--" ++ b ++ y ++ 0x0a :: tail = (bs "--" ++ b ++ y ++ [0x0a]) ++ tail := by simp
        rw [this, List.take_left' (by simp only [List.length_append, List.length_cons, List.length_nil])]
      have e4 : ∀ tail : Text, (bs "--" ++ b ++ y ++ 0x0a :: tail).drop ((bs "--" ++ b ++ y).length + 1) = tail := by
        intro tail
        have : bs "--" ++ b ++ y ++ 0x0a :: tail = (bs "--" ++ b ++ y ++ [0x0a]) ++ tail := by simp
        rw [this, List.drop_left' (by simp only [List.length_append, List.length_cons, List.length_nil])]
      simp only [e3, e4]
      rw [ih fuel _ _ (fun l' h' => hls l' (by simp [h'])) (by omega) (by simp)]
      rw [hx]; simp

theorem enclosed_length {b : Text} {ls : List Text} : ls.length ≤ (ls.map (· ++ bs "\n")).flatten.length := by
  induction ls with
  | nil => simp
  | cons l ls ih => simp [show bs "\n" = [0x0a] from by decide] at ih ⊢; omega

theorem enclosed_last {b p before : Text} (h : Enclosed b p) (hb : before.getLast? = none ∨ before.getLast? = some 0x0a) :
    (before ++ p).getLast? = none ∨ (before ++ p).getLast? = some 0x0a := by
  obtain ⟨ls, rfl, -⟩ := h
  rcases List.eq_nil_or_concat ls with rfl | ⟨ls, l, rfl⟩
  · simpa using hb
  · right
    simp [List.concat_eq_append, show bs "\n" = [0x0a] from by decide]

theorem nextBoundary_enclosed {b p r before : Text} (hb : 0x0a ∉ b) (hr : AtDelimiter b r) (hp : Enclosed b p) (hbef : before.getLast? = none ∨ before.getLast? = some 0x0a) :
    nextBoundary b ((p ++ r).length + 1) before [] (p ++ r) = .ok (.found p r) := by
  obtain ⟨ls, rfl, hls⟩ := hp
  have := enclosed_length (b := b) (ls := ls)
  rw [nextBoundary_skip hb hr ls _ before [] hls (by simp only [List.length_append]; omega) hbef]
  simp

theorem at_end (b rest : Text) : AtDelimiter b (bs "--" ++ b ++ bs "--" ++ rest) ∧ endBoundary b (bs "--" ++ b ++ bs "--" ++ rest) = true := by
  have he : endBoundary b (bs "--" ++ b ++ bs "--" ++ rest) = true := by
    unfold endBoundary
    rw [List.append_assoc (bs "--" ++ b), drop_boundary]
    simp [show bs "--" = [0x2d, 0x2d] from by decide]
    omega
  refine ⟨⟨by simp [List.append_assoc], by simp [show bs "--" = [0x2d, 0x2d] from by decide], ?_⟩, he⟩
  unfold boundaryOk
  rw [he]; rfl

theorem at_line {b eol rest : Text} (h : eol = bs "\n" ∨ eol = bs "\r\n") : AtDelimiter b (bs "--" ++ b ++ eol ++ rest) ∧ endBoundary b (bs "--" ++ b ++ eol ++ rest) = false := by
  have he : endBoundary b (bs "--" ++ b ++ eol ++ rest) = false := by
    unfold endBoundary
    rw [List.append_assoc (bs "--" ++ b), drop_boundary]
    rcases h with rfl | rfl <;>
    simp [show bs "--" = [0x2d, 0x2d] from by decide, show bs "\n" = [0x0a] from by decide, show bs "\r\n" = [0x0d, 0x0a] from by decide]
  refine ⟨⟨by simp [List.append_assoc], ?_, ?_⟩, he⟩
  · rcases h with rfl | rfl <;>
    simp [show bs "--" = [0x2d, 0x2d] from by decide, show bs "\n" = [0x0a] from by decide, show bs "\r\n" = [0x0d, 0x0a] from by decide] <;> omega
  · unfold boundaryOk
    rw [List.append_assoc (bs "--" ++ b), drop_boundary]
    rcases h with rfl | rfl <;> simp

theorem lineAfter_eol {b eol rest : Text} (hb : 0x0a ∉ b) (h0 : 0 ∉ b) (h : eol = bs "\n" ∨ eol = bs "\r\n") : lineAfter (bs "--" ++ b ++ eol ++ rest) = (bs "--" ++ b ++ eol).length := by
  unfold lineAfter
  rcases h with rfl | rfl
  · have : bs "--" ++ b ++ bs "\n" ++ rest = (bs "--" ++ b) ++ 0x0a :: rest := by simp [show bs "\n" = [0x0a] from by decide]
    rw [this, newlineAt_line (by rw [dashes]; simp [hb]) (by rw [dashes]; simp [h0])]
    simp only [List.length_append, show (bs "\n").length = 1 from by decide]
  · have : bs "--" ++ b ++ bs "\r\n" ++ rest = (bs "--" ++ b ++ [0x0d]) ++ 0x0a :: rest := by simp [show bs "\r\n" = [0x0d, 0x0a] from by decide]
    rw [this, newlineAt_line (by rw [dashes]; simp [hb]) (by rw [dashes]; simp [h0])]
    simp only [List.length_append, List.length_cons, List.length_nil, show (bs "\r\n").length = 2 from by decide]

/-- The parts as they are handed on: memory that begins with them, and their lengths. -/
inductive Handed : List (Text × Nat) → List Text → Prop
  | nil : Handed [] []
  | cons {p after ps ts} : Handed ps ts → Handed ((p ++ after, p.length) :: ps) (p :: ts)

theorem eol_last {b eol before p : Text} (h : eol = bs "\n" ∨ eol = bs "\r\n") : (before ++ p ++ (bs "--" ++ b ++ eol)).getLast? = some 0x0a := by
  rcases h with rfl | rfl <;> simp [show bs "\n" = [0x0a] from by decide, show bs "\r\n" = [0x0d, 0x0a] from by decide, List.getLast?_append]

theorem splitParts_parts {b t : Text} {ts : List Text} (hb : 0x0a ∉ b) (h0 : 0 ∉ b) (h : PartsText b t ts) : ∀ (fuel : Nat) (before : Text), t.length < fuel → before.getLast? = some 0x0a →
    ∃ ps, splitParts b fuel false before t = .ok (ps, .ok) ∧ Handed ps ts := by
  induction h with
  | @last p rest hp =>
    intro fuel before hf hbef
    obtain ⟨fuel, rfl⟩ := Nat.exists_eq_succ_of_ne_zero (by omega : fuel ≠ 0)
    have ⟨g1, g2⟩ := at_end b rest
    have e : p ++ bs "--" ++ b ++ bs "--" ++ rest = p ++ (bs "--" ++ b ++ bs "--" ++ rest) := by simp
    rw [e]
    refine ⟨[(p ++ ((bs "--" ++ b ++ bs "--" ++ rest) ++ [0]), p.length)], ?_, .cons .nil⟩
    simp only [splitParts, nextBoundary_enclosed hb g1 hp (.inr hbef), bind, Except.bind, g2, if_true, Bool.false_eq_true, if_false]
    simp
  | @more p eol t ts hp he _ ih =>
    intro fuel before hf hbef
    obtain ⟨fuel, rfl⟩ := Nat.exists_eq_succ_of_ne_zero (by omega : fuel ≠ 0)
    have ⟨g1, g2⟩ := at_line (b := b) (rest := t) he
    have e : p ++ bs "--" ++ b ++ eol ++ t = p ++ (bs "--" ++ b ++ eol ++ t) := by simp
    rw [e] at hf ⊢
    obtain ⟨ps, i1, i2⟩ := ih fuel (before ++ p ++ (bs "--" ++ b ++ eol)) (by
      have : 0 < (bs "--").length := by decide
      simp only [List.length_append] at hf; omega) (eol_last he)
    refine ⟨(p ++ ((bs "--" ++ b ++ eol ++ t) ++ [0]), p.length) :: ps, ?_, .cons i2⟩
    simp only [splitParts, nextBoundary_enclosed hb g1 hp (.inr hbef), bind, Except.bind, g2, Bool.false_eq_true, if_false, lineAfter_eol hb h0 he, List.take_left, List.drop_left, i1]
    simp

theorem splitParts_text {b t : Text} {ts : List Text} (h : MultiText b t ts) : ∃ ps, splitParts b (t.length + 1) true [] t = .ok (ps, .ok) ∧ Handed ps ts := by
  obtain ⟨hb, h0, pre, eol, rest, hp, he, hr, rfl⟩ := h
  have ⟨g1, g2⟩ := at_line (b := b) (rest := rest) he
  have e : pre ++ bs "--" ++ b ++ eol ++ rest = pre ++ (bs "--" ++ b ++ eol ++ rest) := by simp
  rw [e]
  obtain ⟨ps, i1, i2⟩ := splitParts_parts hb h0 hr (pre ++ (bs "--" ++ b ++ eol ++ rest)).length ([] ++ pre ++ (bs "--" ++ b ++ eol)) (by
      have : 0 < (bs "--").length := by decide
      simp only [List.length_append]; omega) (eol_last he)
  refine ⟨ps, ?_, i2⟩
  simp only [splitParts, nextBoundary_enclosed hb g1 hp (before := []) (.inl rfl), bind, Except.bind, g2, Bool.false_eq_true, if_false, lineAfter_eol hb h0 he, List.take_left, List.drop_left, i1]
  simp

/-- Every part is shorter than the multipart. -/
theorem partsText_length {b t : Text} {ts : List Text} (h : PartsText b t ts) : ∀ p ∈ ts, p.length ≤ t.length := by
  induction h with
  | last _ => simp only [List.mem_singleton]; rintro p rfl; simp only [List.length_append]; omega
  | more _ _ _ ih =>
    intro p hp
    rcases List.mem_cons.1 hp with rfl | hp
    · simp only [List.length_append]; omega
    · have := ih p hp; simp only [List.length_append]; omega

theorem multiText_length {b t : Text} {ts : List Text} (h : MultiText b t ts) : ∀ p ∈ ts, p.length ≤ t.length := by
  obtain ⟨-, -, pre, eol, rest, -, -, hr, rfl⟩ := h
  intro p hp
  have := partsText_length hr p hp
  simp only [List.length_append]; omega

end Mairix
