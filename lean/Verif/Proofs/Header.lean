import Verif.Spec.Header
import Verif.Props.Decode

/-!
# Lemmas about headers
-/

namespace Mairix
open Spec

/-! ## base64 in general -/

/-- What the base64 loop appends. -/
def b64Pure : Text → B64 → Text
  | [], _ => []
  | c :: rest, s =>
    let eq := s.eq + equalTable c
    match base64Table c with
    | none => b64Pure rest { s with eq := eq }
    | some dc =>
      let reg := s.reg * 64 + dc
      if s.nc + 1 = 4 then b64Bytes reg eq ++ (if eq ≠ 0 then [] else b64Pure rest ⟨0, 0, eq⟩)
      else b64Pure rest ⟨reg, s.nc + 1, eq⟩

theorem b64Pure_filter : ∀ (t : Text) (s : B64), b64Pure t s = b64Pure (t.filter B64Sign) s := by
  intro t
  induction t with
  | nil => intro s; rfl
  | cons c t ih =>
    intro s
    by_cases hc : B64Sign c = true
    · rw [List.filter_cons_of_pos hc]
      simp only [b64Pure]
      cases base64Table c with
      | none => simp only; exact ih _
      | some dc => simp only [ih]
    · simp only [Bool.not_eq_true] at hc
      rw [List.filter_cons_of_neg (by simp [hc])]
      simp only [b64Pure, (b64Junk hc).1, (b64Junk hc).2]
      exact ih _

theorem b64Value_table {c : UInt8} (h : B64Sign c = true) : base64Table c = some (b64Value c) := by
  have : ∀ c : UInt8, B64Sign c = true → base64Table c = some (b64Value c) := forall_byte (by decide +kernel)
  exact this c h

theorem b64Pure_data : ∀ (t : Text), (∀ c ∈ t, B64Sign c = true) → b64Pure t ⟨0, 0, 0⟩ = b64Data t := by
  intro t
  induction t using b64Data.induct with
  | case1 a b c d t h0 ih =>
    intro h
    have ha := b64Value_table (h a (by simp))
    have hb := b64Value_table (h b (by simp))
    have hc := b64Value_table (h c (by simp))
    have hd := b64Value_table (h d (by simp))
    have ih := ih (fun x hx => h x (by simp [hx]))
    have hcount : equalTable a + equalTable b + equalTable c + equalTable d = 0 := by
      simp only [List.count_cons, List.count_nil, beq_iff_eq] at h0
      simp only [equalTable]; omega
    simp [b64Pure, ha, hb, hc, hd, hcount, ih, b64Data, h0, b64Bytes]
  | case2 a b c d t h1 =>
    intro h
    have ha := b64Value_table (h a (by simp))
    have hb := b64Value_table (h b (by simp))
    have hc := b64Value_table (h c (by simp))
    have hd := b64Value_table (h d (by simp))
    have hcount : equalTable a + equalTable b + equalTable c + equalTable d = 1 := by
      simp only [List.count_cons, List.count_nil, beq_iff_eq] at h1
      simp only [equalTable]; omega
    simp [b64Pure, ha, hb, hc, hd, hcount, b64Data, h1, b64Bytes]
  | case3 a b c d t h0 h1 =>
    intro h
    have ha := b64Value_table (h a (by simp))
    have hb := b64Value_table (h b (by simp))
    have hc := b64Value_table (h c (by simp))
    have hd := b64Value_table (h d (by simp))
    have hcount : 2 ≤ equalTable a + equalTable b + equalTable c + equalTable d := by
      have : [a, b, c, d].count 0x3d = equalTable a + equalTable b + equalTable c + equalTable d := by
        simp only [List.count_cons, List.count_nil, beq_iff_eq, equalTable]; omega
      rw [← this]
      have a0 : [a, b, c, d].count 0x3d ≠ 0 := h0
      have a1 : [a, b, c, d].count 0x3d ≠ 1 := h1
      omega
    have hm : ∀ n, 2 ≤ n → [a, b, c, d].count 0x3d = n → b64Data (a :: b :: c :: d :: t) = [UInt8.ofNat ((((b64Value a * 64 + b64Value b) * 64 + b64Value c) * 64 + b64Value d) / 65536 % 256)] := by
      intro n hn he
      rw [b64Data]
      obtain ⟨m, rfl⟩ : ∃ m, n = m + 2 := ⟨n - 2, by omega⟩
      rw [he]
      rfl
    have hsum : [a, b, c, d].count 0x3d = equalTable a + equalTable b + equalTable c + equalTable d := by
      simp only [List.count_cons, List.count_nil, beq_iff_eq, equalTable]; omega
    rw [hm _ hcount hsum]
    have h0' : ¬ equalTable a + equalTable b + equalTable c + equalTable d = 0 := by omega
    have h1' : ¬ equalTable a + equalTable b + equalTable c + equalTable d < 2 := by omega
    have h2' : ¬ equalTable a + equalTable b + equalTable c + equalTable d = 1 := by omega
    simp only [b64Pure, ha, hb, hc, hd, b64Bytes]
    generalize he : equalTable a + equalTable b + equalTable c + equalTable d = e at *
    simp only [Nat.zero_add, he, if_neg h1', if_neg (show ¬ e < 1 by omega), if_pos h0']
    simp
  | case4 t hn =>
    intro h
    have e : b64Data t = [] := by
      unfold b64Data
      split
      · exact absurd rfl (hn _ _ _ _ _)
      · rfl
    rw [e]
    match t, hn with
    | [], _ => rfl
    | [a], _ => simp [b64Pure, b64Value_table (h a (by simp))]
    | [a, b], _ => simp [b64Pure, b64Value_table (h a (by simp)), b64Value_table (h b (by simp))]
    | [a, b, c], _ => simp [b64Pure, b64Value_table (h a (by simp)), b64Value_table (h b (by simp)), b64Value_table (h c (by simp))]
    | a :: b :: c :: d :: t, hn => exact absurd rfl (hn _ _ _ _ _)

theorem b64Pure_all (t : Text) : b64Pure t ⟨0, 0, 0⟩ = b64Data (t.filter B64Sign) := by
  rw [b64Pure_filter, b64Pure_data]
  intro c hc
  exact (List.mem_filter.1 hc).2

theorem b64Pure_length : ∀ (t : Text) (s : B64), s.nc < 4 → (b64Pure t s).length ≤ t.length + s.nc := by
  intro t
  induction t with
  | nil => intro s _; simp [b64Pure]
  | cons c t ih =>
    intro s hs
    simp only [b64Pure]
    cases base64Table c with
    | none => have := ih { s with eq := s.eq + equalTable c } hs; simp only [List.length_cons] at this ⊢; omega
    | some dc =>
      simp only
      split
      · have := b64Bytes_length (s.reg * 64 + dc) (s.eq + equalTable c)
        split
        · simp; omega
        · have := ih ⟨0, 0, s.eq + equalTable c⟩ (by simp)
          simp only [List.length_append, List.length_cons] at this ⊢
          omega
      · have := ih ⟨s.reg * 64 + dc, s.nc + 1, s.eq + equalTable c⟩ (by simp only; omega)
        simp only [List.length_cons] at this ⊢; omega

theorem bWord_pure : ∀ (t : Text) (pos : Nat) (s : B64) (out : Text), s.nc < 4 → out.length + s.nc ≤ pos → bWord t pos s out = .ok (out ++ b64Pure t s) := by
  intro t
  induction t with
  | nil => intro pos s out _ _; simp [bWord, b64Pure]
  | cons c t ih =>
    intro pos s out hs hp
    simp only [bWord, b64Pure]
    cases base64Table c with
    | none => exact ih _ _ _ hs (by simp only; omega)
    | some dc =>
      simp only
      split
      · have hb := b64Bytes_length (s.reg * 64 + dc) (s.eq + equalTable c)
        simp only [storeAll_ok (show out.length + (b64Bytes (s.reg * 64 + dc) (s.eq + equalTable c)).length ≤ pos + 1 by omega), bind, Except.bind]
        split
        · simp
        · rw [ih _ _ _ (by simp) (by simp; omega)]; simp
      · exact ih _ _ _ (by simp only; omega) (by simp only; omega)

theorem b64Loop_pure (cap : Nat) : ∀ (t after : Text) (s : B64) (out : Text), s.nc < 4 → out.length + s.nc + t.length ≤ cap → b64Loop cap (t ++ after) t.length s out = .ok (out ++ b64Pure t s) := by
  intro t after
  induction t with
  | nil => intro s out _ _; simp [b64Loop, b64Pure]
  | cons c t ih =>
    intro s out hs hp
    simp only [List.length_cons] at hp
    simp only [List.cons_append, List.length_cons, b64Loop, b64Pure]
    cases base64Table c with
    | none => exact ih _ _ hs (by simp only; omega)
    | some dc =>
      simp only
      split
      · have hb := b64Bytes_length (s.reg * 64 + dc) (s.eq + equalTable c)
        simp only [storeAll_ok (show out.length + (b64Bytes (s.reg * 64 + dc) (s.eq + equalTable c)).length ≤ cap by omega), bind, Except.bind]
        split
        · simp
        · rw [ih _ _ (by simp) (by simp; omega)]; simp
      · exact ih _ _ (by simp only; omega) (by simp only; omega)

/-! ## Searching -/

theorem strstr2_some {x y : UInt8} : ∀ {t p r : Text}, strstr2 x y t = some (p, r) → t = p ++ x :: y :: r ∧ Lacks x y (p ++ [x]) := by
  intro t
  induction t with
  | nil => intro p r h; simp [strstr2] at h
  | cons a t ih =>
    intro p r h
    cases t with
    | nil => simp [strstr2] at h
    | cons b t =>
      simp only [strstr2] at h
      split at h
      · rename_i hab
        simp at h
        obtain ⟨rfl, rfl⟩ := h
        obtain ⟨rfl, rfl⟩ := hab
        refine ⟨rfl, ?_⟩
        rintro ⟨u, v, h⟩
        have := congrArg List.length h
        simp at this
        omega
      · rename_i hab
        simp at h
        obtain ⟨p', h1, rfl⟩ := h
        obtain ⟨h2, h3⟩ := ih h1
        refine ⟨by rw [h2]; rfl, ?_⟩
        rintro ⟨u, v, h⟩
        cases u with
        | nil =>
          simp at h
          obtain ⟨rfl, h⟩ := h
          cases p' with
          | nil => simp at h2; simp at h; exact hab ⟨rfl, by rw [h2.1]; exact h.1⟩
          | cons c p' => simp at h h2; exact hab ⟨rfl, by rw [h2.1]; exact h.1⟩
        | cons c u =>
          simp at h
          exact h3 ⟨u, v, by simpa using h.2⟩

theorem strstr2_none {x y : UInt8} : ∀ {t : Text}, strstr2 x y t = none → Lacks x y t := by
  intro t
  induction t with
  | nil => rintro _ ⟨u, v, h⟩; simp at h
  | cons a t ih =>
    intro h
    cases t with
    | nil => rintro ⟨u, v, h⟩; have := congrArg List.length h; simp at this; omega
    | cons b t =>
      simp only [strstr2] at h
      split at h
      · simp at h
      · rename_i hab
        simp at h
        have := ih h
        rintro ⟨u, v, h⟩
        cases u with
        | nil => simp at h; exact hab ⟨h.1, h.2.1⟩
        | cons c u => simp at h; exact this ⟨u, v, h.2⟩

/-- The first occurrence is at one place. -/
theorem occurs_unique {x y : UInt8} : ∀ {p p' r r' : Text}, p ++ x :: y :: r = p' ++ x :: y :: r' → Lacks x y (p ++ [x]) → Lacks x y (p' ++ [x]) → p = p' ∧ r = r' := by
  intro p
  induction p with
  | nil =>
    intro p' r r' h _ h2
    cases p' with
    | nil => simp at h; exact ⟨rfl, h⟩
    | cons c p' =>
      exfalso
      apply h2
      simp at h
      cases p' with
      | nil => simp at h; exact ⟨[], [], by simp [h.1, h.2.1]⟩
      | cons d p' => simp at h; exact ⟨[], p' ++ [x], by simp [h.1, h.2.1]⟩
  | cons a p ih =>
    intro p' r r' h h1 h2
    cases p' with
    | nil =>
      exfalso
      apply h1
      simp at h
      cases p with
      | nil => simp at h; exact ⟨[], [], by simp [h.1, h.2.1]⟩
      | cons d p => simp at h; exact ⟨[], p ++ [x], by simp [h.1, h.2.1]⟩
    | cons c p' =>
      simp at h
      obtain ⟨rfl, h⟩ := h
      have hl : ∀ {q : Text}, Lacks x y (a :: q) → Lacks x y q := by
        rintro q hq ⟨u, v, h⟩
        exact hq ⟨a :: u, v, by simp [h]⟩
      obtain ⟨rfl, rfl⟩ := ih h (hl h1) (hl h2)
      exact ⟨rfl, rfl⟩

theorem strstr2_eq {x y : UInt8} {p r : Text} (h : Lacks x y (p ++ [x])) : strstr2 x y (p ++ x :: y :: r) = some (p, r) := by
  cases hs : strstr2 x y (p ++ x :: y :: r) with
  | none => exact absurd ⟨p, r, rfl⟩ (strstr2_none hs)
  | some pr =>
    obtain ⟨p', r'⟩ := pr
    obtain ⟨h1, h2⟩ := strstr2_some hs
    obtain ⟨rfl, rfl⟩ := occurs_unique h1 h h2
    rfl

theorem strchr_some {c : UInt8} : ∀ {t p r : Text}, strchr c t = some (p, r) → t = p ++ c :: r ∧ c ∉ p := by
  intro t
  induction t with
  | nil => intro p r h; simp [strchr] at h
  | cons a t ih =>
    intro p r h
    simp only [strchr] at h
    split at h
    · rename_i ha; simp at h; obtain ⟨rfl, rfl⟩ := h; subst ha; exact ⟨rfl, by simp⟩
    · rename_i ha
      simp at h
      obtain ⟨p', h1, rfl⟩ := h
      obtain ⟨h2, h3⟩ := ih h1
      exact ⟨by rw [h2]; rfl, by simp; exact ⟨fun e => ha e.symm, h3⟩⟩

theorem strchr_eq {c : UInt8} : ∀ {p r : Text}, c ∉ p → strchr c (p ++ c :: r) = some (p, r) := by
  intro p
  induction p with
  | nil => intro r _; simp [strchr]
  | cons a p ih =>
    intro r h
    simp at h
    simp only [List.cons_append, strchr, if_neg (fun e => h.1 (Eq.symm e)), ih h.2, Option.map_some]

theorem strchr_none {c : UInt8} : ∀ {t : Text}, strchr c t = none → c ∉ t := by
  intro t
  induction t with
  | nil => simp
  | cons a t ih =>
    intro h
    simp only [strchr] at h
    split at h
    · simp at h
    · rename_i ha; simp at h ⊢; exact ⟨fun e => ha e.symm, ih h⟩

/-! ## The Q encoding -/

theorem hexVal_or (x : UInt8) : HexOrZero x (hexVal x) := by
  by_cases h : HexDigit x (hexVal x)
  · exact .inl h
  · refine .inr ⟨fun u hu => ?_, ?_⟩
    · have := (hexVal_digit hu).1
      rw [← this] at hu; exact h hu
    · have : ∀ x : UInt8, ¬ HexDigit x (hexVal x) → hexVal x = 0 := forall_byte (by decide +kernel)
      exact this x h

theorem hexOrZero_eq {x : UInt8} {v : Nat} (h : HexOrZero x v) : hexVal x = v := by
  rcases h with h | ⟨h, rfl⟩
  · exact (hexVal_digit h).1
  · rcases hexVal_or x with h' | ⟨_, h'⟩
    · exact absurd h' (h _)
    · exact h'

theorem qText_total : ∀ (n : Nat) (t : Text), t.length ≤ n → ∃ d, QText t d := by
  intro n
  induction n with
  | zero => intro t h; rw [List.length_eq_zero_iff.1 (Nat.le_zero.1 h)]; exact ⟨_, .nil⟩
  | succ n ih =>
    intro t h
    match t, h with
    | [], _ => exact ⟨_, .nil⟩
    | c :: t, h =>
      simp at h
      by_cases h1 : c = 0x5f
      · subst h1; obtain ⟨d, hd⟩ := ih t h; exact ⟨_, .under hd⟩
      · by_cases h2 : c = 0x3d
        · subst h2
          match t, h with
          | [], _ => exact ⟨_, .short0⟩
          | [a], _ => exact ⟨_, .short1 (hexVal_or a)⟩
          | a :: b :: t, h => obtain ⟨d, hd⟩ := ih t (by simp at h; omega); exact ⟨_, .hex (hexVal_or a) (hexVal_or b) hd⟩
        · obtain ⟨d, hd⟩ := ih t h; exact ⟨_, .plain h1 h2 hd⟩

theorem qText_length {t d : Text} (h : QText t d) : d.length ≤ t.length := by
  induction h <;> simp_all <;> omega

theorem qWord_ok {body d : Text} (h : QText body d) : ∀ (fuel : Nat) (re : Text) (pos : Nat) (out : Text), body.length < fuel → out.length ≤ pos →
    qWord fuel (body ++ 0x3f :: 0x3d :: re) body.length pos out = .ok (out ++ d) := by
  have hs : ∀ {fuel : Nat}, 0 < fuel → ∃ f, fuel = f + 1 := fun {fuel} h => ⟨fuel - 1, by omega⟩
  induction h with
  | nil => intro fuel re pos out hf hp; obtain ⟨f, rfl⟩ := hs (Nat.lt_of_le_of_lt (Nat.zero_le _) hf); simp [qWord]
  | @under t d _ ih =>
    intro fuel re pos out hf hp
    simp at hf
    obtain ⟨f, rfl⟩ := hs (by omega : 0 < fuel)
    simp only [List.cons_append, List.length_cons, qWord, if_neg (Nat.succ_ne_zero _), if_pos, storeTo_ok (show out.length + 1 ≤ pos + 1 by omega), bind, Except.bind, Nat.add_sub_cancel]
    rw [ih f re (pos + 1) _ (by omega) (by simp; omega)]; simp
  | @plain c t d h1 h2 _ ih =>
    intro fuel re pos out hf hp
    simp at hf
    obtain ⟨f, rfl⟩ := hs (by omega : 0 < fuel)
    simp only [List.cons_append, List.length_cons, qWord, if_neg (Nat.succ_ne_zero _), if_neg h1, if_neg h2, storeTo_ok (show out.length + 1 ≤ pos + 1 by omega), bind, Except.bind, Nat.add_sub_cancel]
    rw [ih f re (pos + 1) _ (by omega) (by simp; omega)]; simp
  | @hex a b x y t d ha hb _ ih =>
    intro fuel re pos out hf hp
    simp at hf
    obtain ⟨f, rfl⟩ := hs (by omega : 0 < fuel)
    simp only [List.cons_append, List.length_cons, qWord, if_neg (Nat.succ_ne_zero _), if_neg (show ¬ (0x3d : UInt8) = 0x5f by decide), if_pos, storeTo_ok (show out.length + 1 ≤ pos + 3 by omega), bind, Except.bind,
      show t.length + 1 + 1 + 1 - 3 = t.length by omega, hexOrZero_eq ha, hexOrZero_eq hb]
    rw [ih f re (pos + 3) _ (by omega) (by simp; omega)]; simp [Nat.mul_comm]
  | @short1 a x ha =>
    intro fuel re pos out hf hp
    simp at hf
    obtain ⟨f, rfl⟩ := hs (by omega : 0 < fuel)
    obtain ⟨f, rfl⟩ := hs (by omega : 0 < f)
    simp [qWord, storeTo_ok (show out.length + 1 ≤ pos + 3 by omega), bind, Except.bind, hexOrZero_eq ha, show hexVal 0x3f = 0 from by decide, Nat.mul_comm]
  | short0 =>
    intro fuel re pos out hf hp
    simp at hf
    obtain ⟨f, rfl⟩ := hs (by omega : 0 < fuel)
    obtain ⟨f, rfl⟩ := hs (by omega : 0 < f)
    simp [qWord, storeTo_ok (show out.length + 1 ≤ pos + 3 by omega), bind, Except.bind, show hexVal 0x3f = 0 from by decide, show hexVal 0x3d = 0 from by decide]

/-! ## Encoded words -/

theorem word_text (pre cs enc body rest : Text) : pre ++ encodedWord cs enc body ++ rest = pre ++ 0x3d :: 0x3f :: (cs ++ 0x3f :: (enc ++ 0x3f :: (body ++ 0x3f :: 0x3d :: rest))) := by
  simp [encodedWord, show bs "=?" = [0x3d, 0x3f] from by decide, show bs "?" = [0x3f] from by decide, show bs "?=" = [0x3f, 0x3d] from by decide]

theorem hasWord_find {t pre cs enc body rest : Text} (h : HasEncWord t pre cs enc body rest) :
    strstr2 0x3d 0x3f t = some (pre, cs ++ 0x3f :: (enc ++ 0x3f :: (body ++ 0x3f :: 0x3d :: rest))) ∧
    strchr 0x3f (cs ++ 0x3f :: (enc ++ 0x3f :: (body ++ 0x3f :: 0x3d :: rest))) = some (cs, enc ++ 0x3f :: (body ++ 0x3f :: 0x3d :: rest)) ∧
    strchr 0x3f (enc ++ 0x3f :: (body ++ 0x3f :: 0x3d :: rest)) = some (enc, body ++ 0x3f :: 0x3d :: rest) ∧
    strstr2 0x3f 0x3d (body ++ 0x3f :: 0x3d :: rest) = some (body, rest) := by
  obtain ⟨h1, h2, h3, h4, h5⟩ := h
  rw [word_text] at h1
  refine ⟨by rw [h1]; exact strstr2_eq (by simpa [show bs "=" = [0x3d] from by decide] using h2), strchr_eq h3, strchr_eq h4,
    strstr2_eq (by simpa [show bs "?" = [0x3f] from by decide] using h5)⟩

theorem find_hasWord {t pre cs enc body rest r ra rb : Text} (h1 : strstr2 0x3d 0x3f t = some (pre, r)) (h2 : strchr 0x3f r = some (cs, ra)) (h3 : strchr 0x3f ra = some (enc, rb))
    (h4 : strstr2 0x3f 0x3d rb = some (body, rest)) : HasEncWord t pre cs enc body rest ∧ rb = body ++ 0x3f :: 0x3d :: rest := by
  obtain ⟨e1, l1⟩ := strstr2_some h1
  obtain ⟨e2, l2⟩ := strchr_some h2
  obtain ⟨e3, l3⟩ := strchr_some h3
  obtain ⟨e4, l4⟩ := strstr2_some h4
  refine ⟨⟨?_, by simpa [show bs "=" = [0x3d] from by decide] using l1, l2, l3, by simpa [show bs "?" = [0x3f] from by decide] using l4⟩, e4⟩
  rw [word_text, e1, e2, e3, e4]

theorem wordMeans_total (cs enc body : Text) : ∃ v, WordMeans cs enc body v := by
  by_cases h1 : enc = bs "q" ∨ enc = bs "Q"
  · obtain ⟨d, hd⟩ := qText_total _ body (Nat.le_refl _); exact ⟨d, .q h1 hd⟩
  · by_cases h2 : enc = bs "b" ∨ enc = bs "B"
    · exact ⟨_, .b h2⟩
    · exact ⟨_, .other (by simp; grind)⟩

theorem hasWord_length {t pre cs enc body rest : Text} (h : HasEncWord t pre cs enc body rest) : t.length = pre.length + 2 + cs.length + 1 + enc.length + 1 + body.length + 2 + rest.length := by
  rw [h.1, word_text]; simp; omega

theorem headerMeans_total : ∀ (n : Nat) (t : Text), t.length ≤ n → ∃ d, HeaderMeans t d := by
  intro n
  induction n with
  | zero =>
    intro t h
    rw [List.length_eq_zero_iff.1 (Nat.le_zero.1 h)]
    exact ⟨_, .none (fun pre cs enc body rest h => by have := hasWord_length h; simp at this; omega)⟩
  | succ n ih =>
    intro t h
    by_cases hw : ∃ pre cs enc body rest, HasEncWord t pre cs enc body rest
    · obtain ⟨pre, cs, enc, body, rest, hw⟩ := hw
      have := hasWord_length hw
      obtain ⟨d, hd⟩ := ih rest (by omega)
      obtain ⟨v, hv⟩ := wordMeans_total cs enc body
      exact ⟨_, .word hw hv hd⟩
    · exact ⟨_, .none (fun pre cs enc body rest h => hw ⟨pre, cs, enc, body, rest, h⟩)⟩

theorem headerLoop_none {t : Text} (h : ∀ pre cs enc body rest, ¬ HasEncWord t pre cs enc body rest) (fuel : Nat) (out pend : Text) (pos : Nat) :
    headerLoop (fuel + 1) out pend t pos = .ok (out ++ pend ++ t) := by
  simp only [headerLoop]
  cases h1 : strstr2 0x3d 0x3f t with
  | none => rfl
  | some pr =>
    obtain ⟨pre, r⟩ := pr
    have e1 := (strstr2_some h1).1
    have fin : out ++ pend ++ pre ++ bs "=?" ++ r = out ++ pend ++ t := by
      rw [e1]; simp [show bs "=?" = [0x3d, 0x3f] from by decide]
    simp only
    cases h2 : strchr 0x3f r with
    | none => simp only [fin]
    | some q =>
      obtain ⟨cs, ra⟩ := q
      simp only
      cases h3 : strchr 0x3f ra with
      | none => simp only [fin]
      | some q =>
        obtain ⟨enc, rb⟩ := q
        simp only
        cases h4 : strstr2 0x3f 0x3d rb with
        | none => simp only [fin]
        | some q => exact absurd (find_hasWord h1 h2 h3 h4).1 (h _ _ _ _ _)

theorem headerLoop_means {t d : Text} (h : HeaderMeans t d) : ∀ (fuel : Nat) (out pend : Text) (pos : Nat), t.length < fuel → out.length + pend.length ≤ pos →
    headerLoop fuel out pend t pos = .ok (out ++ pend ++ d) := by
  induction h with
  | none h =>
    intro fuel out pend pos hf _
    obtain ⟨fuel, rfl⟩ : ∃ f, fuel = f + 1 := ⟨fuel - 1, by omega⟩
    exact headerLoop_none h fuel out pend pos
  | @word t pre cs enc body rest v d hw hv _ ih =>
    intro fuel out pend pos hf hp
    have hlen := hasWord_length hw
    obtain ⟨fuel, rfl⟩ : ∃ f, fuel = f + 1 := ⟨fuel - 1, by omega⟩
    obtain ⟨h1, h2, h3, h4⟩ := hasWord_find hw
    simp only [headerLoop, h1, h2, h3, h4]
    cases hv with
    | q he hd =>
      have hl := qText_length hd
      simp only [if_pos he, qWord_ok hd (body.length + 1) rest (pos + pre.length + 2 + cs.length + 1 + enc.length + 1) (out ++ pend ++ pre) (by omega) (by simp; omega), bind, Except.bind]
      rw [ih fuel _ _ _ (by omega) (by simp; omega)]; simp
    | b he =>
      have hne : ¬ (enc = bs "q" ∨ enc = bs "Q") := by
        rcases he with rfl | rfl <;> decide
      simp only [if_neg hne, if_pos he, bWord_pure body (pos + pre.length + 2 + cs.length + 1 + enc.length + 1) ⟨0, 0, 0⟩ (out ++ pend ++ pre) (by simp) (by simp; omega), bind, Except.bind]
      have hl := b64Pure_length body ⟨0, 0, 0⟩ (by simp)
      simp at hl
      rw [ih fuel _ _ _ (by omega) (by simp; omega), b64Pure_all]; simp
    | other he =>
      simp only [List.mem_cons, List.not_mem_nil, or_false, not_or] at he
      rw [if_neg (by simp [he.1, he.2.1]), if_neg (by simp [he.2.2.1, he.2.2.2]),
        ih fuel _ _ _ (by omega) (by simp [show (bs "=?").length = 2 from by decide, show (bs "?").length = 1 from by decide, show (bs "?=").length = 2 from by decide]; omega)]
      simp [encodedWord]

theorem wordMeans_length {cs enc body v : Text} (h : WordMeans cs enc body v) : v.length ≤ (encodedWord cs enc body).length := by
  have hl : (encodedWord cs enc body).length = cs.length + enc.length + body.length + 6 := by
    simp [encodedWord, show (bs "=?").length = 2 from by decide, show (bs "?").length = 1 from by decide, show (bs "?=").length = 2 from by decide]; omega
  cases h with
  | q _ hd => have := qText_length hd; omega
  | b _ => rw [← b64Pure_all]; have := b64Pure_length body ⟨0, 0, 0⟩ (by simp); simp only at this; omega
  | other _ => exact Nat.le_refl _

theorem headerMeans_length {t d : Text} (h : HeaderMeans t d) : d.length ≤ t.length := by
  induction h with
  | none => exact Nat.le_refl _
  | word hw hv _ ih =>
    rw [hw.1]
    have := wordMeans_length hv
    simp; omega

end Mairix
