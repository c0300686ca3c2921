import Verif.Proofs.Header

/-!
# C35, C36, C45: the header of a message
-/

namespace Mairix
open Spec

/-! ## C35: encoded words -/

/-- **C35.** Every header value is decoded, without reading or writing outside, to the value in which each encoded word is replaced by what it stands for (a null byte that was encoded ends it); it never becomes longer. -/
theorem C35_decode (t : Text) : ∃ d, HeaderMeans t d ∧ decodeHeaderValue t = .ok (d.takeWhile (· != 0)) ∧ d.length ≤ t.length := by
  obtain ⟨d, hd⟩ := headerMeans_total _ t (Nat.le_refl _)
  refine ⟨d, hd, ?_, headerMeans_length hd⟩
  simp [decodeHeaderValue, headerLoop_means hd (t.length + 1) [] [] 0 (by omega) (by simp), bind, Except.bind]

/-- The meaning is unique, so that `C35_decode` determines the result. -/
theorem C35_meaning {t d : Text} (h : HeaderMeans t d) : decodeHeaderValue t = .ok (d.takeWhile (· != 0)) := by
  simp [decodeHeaderValue, headerLoop_means h (t.length + 1) [] [] 0 (by omega) (by simp), bind, Except.bind]

/-- Two encoded words, with text around them, and one that is not complete. -/
example : decodeHeaderValue (bs "a =?utf-8?Q?b=43_d?= =?x?b?aGVs bG8=?= =?y?q?z") = .ok (bs "a bC d hello =?y?q?z") := by decide +kernel

theorem cstr_self {t : Text} (h : 0 ∉ t) : t.takeWhile (· != 0) = t := by
  induction t with
  | nil => rfl
  | cons c t ih => simp at h; rw [List.takeWhile_cons, if_pos (by simpa using fun e => h.1 (Eq.symm e)), ih h.2]

/-- **C35.** Text in which `=?` does not occur is unchanged. -/
theorem C35_plain {t : Text} (h : ¬ ∃ a b, t = a ++ bs "=?" ++ b) (h0 : 0 ∉ t) : decodeHeaderValue t = .ok t := by
  have hm : HeaderMeans t t := .none (by
    rintro pre cs enc body rest ⟨e, _⟩
    exact h ⟨pre, cs ++ bs "?" ++ enc ++ bs "?" ++ body ++ bs "?=" ++ rest, by rw [e]; simp [encodedWord]⟩)
  rw [C35_meaning hm, cstr_self h0]

example : decodeHeaderValue (bs "no words = here?=") = .ok (bs "no words = here?=") :=
  C35_plain (by
    rintro ⟨a, b, h⟩
    have h1 : strstr2 0x3d 0x3f (bs "no words = here?=") = none := by decide
    exact strstr2_none h1 ⟨a, b, by rw [h]; simp [show bs "=?" = [0x3d, 0x3f] from by decide]⟩) (by decide)

theorem lacks_of_not_mem {x y : UInt8} {t : Text} (h : y ∉ t) : Lacks x y t := by
  rintro ⟨a, b, rfl⟩; simp at h

theorem lacks_append_last {x y : UInt8} {t : Text} (hne : x ≠ y) (h : Lacks x y t) : Lacks x y (t ++ [x]) := by
  rintro ⟨a, b, e⟩
  rcases List.eq_nil_or_concat b with rfl | ⟨b', z, rfl⟩
  · have := congrArg List.getLast? e
    simp at this
    exact hne this
  · have h2 : t ++ [x] = (a ++ x :: y :: b') ++ [z] := by rw [e]; simp
    obtain ⟨rfl, _⟩ := List.append_inj' h2 rfl
    exact h ⟨a, b', rfl⟩

/-- **C35.** An encoded word, after text without `=?`, is replaced by what it stands for, and the rest by what it means. -/
theorem C35_word {pre cs enc body rest v d : Text} (hpre : Lacks 0x3d 0x3f pre) (hcs : 0x3f ∉ cs) (henc : 0x3f ∉ enc) (hbody : 0x3f ∉ body) (hv : WordMeans cs enc body v)
    (hrest : HeaderMeans rest d) : HeaderMeans (pre ++ encodedWord cs enc body ++ rest) (pre ++ v ++ d) := by
  refine .word ⟨rfl, lacks_append_last (by decide) hpre, hcs, henc, ?_⟩ hv hrest
  rintro ⟨a, b, e⟩
  rw [show bs "?" = [0x3f] from by decide] at e
  rcases List.eq_nil_or_concat b with rfl | ⟨b', z, rfl⟩
  · have := congrArg List.getLast? e
    simp at this
  · have h2 : body ++ [0x3f] = (a ++ 0x3f :: 0x3d :: b') ++ [z] := by rw [e]; simp
    obtain ⟨rfl, _⟩ := List.append_inj' h2 rfl
    simp at hbody

/-- The Q encoding of a text that encodes every byte. -/
def Spec.qEncode : Text → Text
  | [] => []
  | c :: t => 0x3d :: hexDigit (c.toNat / 16) :: hexDigit (c.toNat % 16) :: qEncode t
where
  /-- the hexadecimal digit of a number below 16 -/
  hexDigit (n : Nat) : UInt8 := UInt8.ofNat (if n < 10 then 0x30 + n else 0x41 + n - 10)

theorem qEncode_digit : ∀ n : Nat, n < 16 → HexDigit (Spec.qEncode.hexDigit n) n := by
  intro n hn
  have : ∀ n : Fin 16, HexDigit (Spec.qEncode.hexDigit n.val) n.val := by decide +kernel
  exact this ⟨n, hn⟩

theorem qEncode_text : ∀ d : Text, QText (qEncode d) d := by
  intro d
  induction d with
  | nil => exact .nil
  | cons c d ih =>
    have := QText.hex (.inl (qEncode_digit (c.toNat / 16) (by have := c.toNat_lt; omega))) (.inl (qEncode_digit (c.toNat % 16) (by omega))) ih
    rw [show 16 * (c.toNat / 16) + c.toNat % 16 = c.toNat by omega, show UInt8.ofNat c.toNat = c from by simp] at this
    exact this

theorem qEncode_no : ∀ d : Text, 0x3f ∉ qEncode d := by
  intro d
  induction d with
  | nil => simp [qEncode]
  | cons c d ih =>
    have : ∀ n : Fin 16, (0x3f : UInt8) ≠ Spec.qEncode.hexDigit n.val := by decide +kernel
    have h1 := this ⟨c.toNat / 16, by have := c.toNat_lt; omega⟩
    have h2 := this ⟨c.toNat % 16, by omega⟩
    simp only at h1 h2
    simp only [qEncode, List.mem_cons, not_or]
    exact ⟨by decide, h1, h2, ih⟩

theorem b64Encode_signs (d : Text) : ∀ c ∈ b64Encode d, B64Sign c = true := by
  have hv : ∀ v, v < 64 → B64Sign (b64Char v) = true := by
    intro v hv
    have : ∀ v : Fin 64, B64Sign (b64Char v.val) = true := by decide +kernel
    exact this ⟨v, hv⟩
  have he : B64Sign 0x3d = true := by decide
  induction d using b64Encode.induct with
  | case1 => simp [b64Encode]
  | case2 a =>
    have := a.toNat_lt
    simp only [b64Encode, List.mem_cons, List.not_mem_nil, or_false, forall_eq_or_imp, forall_eq]
    exact ⟨hv _ (by omega), hv _ (by omega), he, he⟩
  | case3 a b =>
    have := a.toNat_lt
    have := b.toNat_lt
    simp only [b64Encode, List.mem_cons, List.not_mem_nil, or_false, forall_eq_or_imp, forall_eq]
    exact ⟨hv _ (by omega), hv _ (by omega), hv _ (by omega), he⟩
  | case4 a b c t ih =>
    have := a.toNat_lt
    have := b.toNat_lt
    have := c.toNat_lt
    rw [b64Encode]
    simp only [List.mem_cons, forall_eq_or_imp]
    exact ⟨hv _ (by omega), hv _ (by omega), hv _ (by omega), hv _ (by omega), ih⟩

/-- base64 decoded by the specification gives the data. -/
theorem b64Data_encode (d : Text) : b64Data (b64Encode d) = d := by
  have h1 : ∀ c ∈ b64Encode d, B64Sign c = true := b64Encode_signs d
  have h := b64Loop_pure ((b64Encode d).length + 1) (b64Encode d) [] ⟨0, 0, 0⟩ [] (by simp) (by simp)
  have hl := b64Encode_length d
  have h' := b64Loop_encode ((b64Encode d).length + 1) d [] (by simp; omega)
  rw [List.append_nil] at h
  rw [h] at h'
  simp only [List.nil_append, Except.ok.injEq] at h'
  rw [b64Pure_data _ h1] at h'
  exact h'

theorem b64Encode_no (d : Text) : 0x3f ∉ b64Encode d := fun h => by
  have := b64Encode_signs d _ h
  exact absurd this (by decide)

/-- **C35.** Any data, encoded in either way, put into a header after and before plain text, is recovered. -/
theorem C35_roundtrip {pre post cs d : Text} (hpre : ¬ ∃ a b, pre = a ++ bs "=?" ++ b) (hpost : ¬ ∃ a b, post = a ++ bs "=?" ++ b) (hcs : 0x3f ∉ cs) (h0 : 0 ∉ pre ++ d ++ post) :
    decodeHeaderValue (pre ++ encodedWord cs (bs "Q") (qEncode d) ++ post) = .ok (pre ++ d ++ post) ∧
    decodeHeaderValue (pre ++ encodedWord cs (bs "B") (b64Encode d) ++ post) = .ok (pre ++ d ++ post) := by
  have hm : HeaderMeans post post := .none (by
    rintro pre cs enc body rest ⟨e, _⟩
    exact hpost ⟨pre, cs ++ bs "?" ++ enc ++ bs "?" ++ body ++ bs "?=" ++ rest, by rw [e]; simp [encodedWord]⟩)
  have hl : Lacks 0x3d 0x3f pre := by
    rintro ⟨a, b, e⟩
    exact hpre ⟨a, b, by rw [e]; simp [show bs "=?" = [0x3d, 0x3f] from by decide]⟩
  have htw : (pre ++ d ++ post).takeWhile (· != 0) = pre ++ d ++ post := cstr_self h0
  constructor
  · rw [C35_meaning (C35_word hl hcs (by decide) (qEncode_no d) (.q (.inr rfl) (qEncode_text d)) hm), htw]
  · have := C35_word hl hcs (show 0x3f ∉ bs "B" by decide) (b64Encode_no d) (.b (.inr rfl)) hm
    rw [List.filter_eq_self.2 (b64Encode_signs d), b64Data_encode] at this
    rw [C35_meaning this, htw]

example : decodeHeaderValue (bs "to: " ++ encodedWord (bs "utf-8") (bs "B") (b64Encode [0xc3, 0xa4, 0x3f]) ++ bs " x") = .ok (bs "to: " ++ [0xc3, 0xa4, 0x3f] ++ bs " x") := by decide +kernel

/-! ## C36: the lines of a header -/

theorem wordColon_iff : ∀ (t : Text) (saw : Bool), wordColon saw t = true ↔ ∃ name rest, t = name ++ 0x3a :: rest ∧ (saw = true ∨ name ≠ []) ∧ ∀ c ∈ name, isSpace c = false ∧ c ≠ 0x3a := by
  intro t
  induction t with
  | nil => intro saw; simp [wordColon]
  | cons c t ih =>
    intro saw
    simp only [wordColon]
    split
    · rename_i hc
      subst hc
      constructor
      · intro h; exact ⟨[], t, rfl, .inl h, by simp⟩
      · rintro ⟨name, rest, e, h1, h2⟩
        cases name with
        | nil => simpa using h1
        | cons a name => simp at e; have := (h2 a (by simp)).2; simp [← e.1] at this
    · rename_i hc
      split
      · rename_i hs
        constructor
        · simp
        · rintro ⟨name, rest, e, h1, h2⟩
          cases name with
          | nil => simp at e; exact absurd e.1 hc
          | cons a name => simp at e; have := (h2 a (by simp)).1; rw [← e.1, hs] at this; simp at this
      · rename_i hs
        rw [ih]
        constructor
        · rintro ⟨name, rest, e, -, h2⟩
          refine ⟨c :: name, rest, by rw [e]; rfl, .inr (by simp), ?_⟩
          intro x hx
          rcases List.mem_cons.1 hx with rfl | hx
          · exact ⟨by simpa using hs, hc⟩
          · exact h2 x hx
        · rintro ⟨name, rest, e, -, h2⟩
          cases name with
          | nil => simp at e; exact absurd e.1 hc
          | cons a name => simp at e; exact ⟨name, rest, e.2, .inl rfl, fun x hx => h2 x (by simp [hx])⟩

theorem fieldLine_iff (l : Text) : FieldLine l ↔ wordColon false l = true := by
  rw [wordColon_iff]
  simp [FieldLine, show bs ":" = [0x3a] from by decide]

theorem fieldLine_not_space {l : Text} (h : FieldLine l) : ¬ SpaceLine l := by
  obtain ⟨name, rest, rfl, hn, hc⟩ := h
  rintro ⟨c, t, e, hs⟩
  cases name with
  | nil => exact hn rfl
  | cons a name => simp at e; have := (hc a (by simp)).1; rw [e.1, hs] at this; simp at this

/-- Without the first line. -/
theorem audit_rest : ∀ lines : List Text, auditHeader false lines = true ↔ ∀ l ∈ lines, MboxFromLine l ∨ FieldLine l ∨ SpaceLine l := by
  intro lines
  induction lines with
  | nil => simp [auditHeader]
  | cons x xs ih =>
    simp only [auditHeader]
    split
    · rename_i h; rw [ih]; simp [MboxFromLine, h]
    · rename_i h
      have hx : ¬ MboxFromLine x := h
      have hlead : SpaceLine x ↔ leadingSpace x = true := by
        cases x with
        | nil => simp [SpaceLine, leadingSpace]
        | cons c t => simp [SpaceLine, leadingSpace]
      simp only [Bool.false_eq_true, false_and, false_or, not_false_eq_true, true_and, List.mem_cons, forall_eq_or_imp, fieldLine_iff, hlead, hx]
      split
      · rename_i h'
        refine ⟨by simp, ?_⟩
        rintro ⟨h1, -⟩
        rcases h' with h' | h'
        · rw [List.isEmpty_iff.1 h'] at h1; simp [wordColon, leadingSpace] at h1
        · exact absurd (Or.symm h1) h'
      · rename_i h'
        rw [ih]
        simp only [fieldLine_iff]
        have : ¬ ¬ (leadingSpace x = true ∨ wordColon false x = true) := fun e => h' (.inr e)
        have := Classical.not_not.1 this
        exact ⟨fun e => ⟨this.symm, e⟩, fun e => e.2⟩

/-- **C36.** A header is accepted exactly if, besides From lines, its first line has a field name and every other has one or begins with white space. -/
theorem C36_audit (lines : List Text) : auditHeader true lines = true ↔ HeaderOk lines := by
  induction lines with
  | nil => simp [auditHeader, HeaderOk]
  | cons x xs ih =>
    simp only [auditHeader]
    split
    · rename_i h
      have hx : MboxFromLine x := h
      rw [ih]
      constructor
      · rintro ⟨h1, h2⟩
        refine ⟨by simpa [hx] using h1, ?_⟩
        intro pre l post e hp hl
        cases pre with
        | nil => simp at e; exact absurd (e.1 ▸ hx) hl
        | cons a pre => simp at e; exact h2 pre l post e.2 (fun y hy => hp y (by simp [hy])) hl
      · rintro ⟨h1, h2⟩
        refine ⟨fun l hl => h1 l (by simp [hl]), ?_⟩
        intro pre l post e hp hl
        exact h2 (x :: pre) l post (by rw [e]; rfl) (by simpa [hx] using hp) hl
    · rename_i h
      have hx : ¬ MboxFromLine x := h
      have hlead : SpaceLine x ↔ leadingSpace x = true := by
        cases x with
        | nil => simp [SpaceLine, leadingSpace]
        | cons c t => simp [SpaceLine, leadingSpace]
      have key : HeaderOk (x :: xs) ↔ FieldLine x ∧ ∀ l ∈ xs, MboxFromLine l ∨ FieldLine l ∨ SpaceLine l := by
        constructor
        · rintro ⟨h1, h2⟩
          exact ⟨h2 [] x xs rfl (by simp) hx, fun l hl => h1 l (by simp [hl])⟩
        · rintro ⟨h1, h2⟩
          refine ⟨?_, ?_⟩
          · intro l hl
            rcases List.mem_cons.1 hl with rfl | hl
            · exact .inr (.inl h1)
            · exact h2 l hl
          · intro pre l post e hp hl
            cases pre with
            | nil => simp at e; rw [← e.1]; exact h1
            | cons a pre => simp at e; exact absurd (hp a (by simp)) (e.1 ▸ hx)
      rw [key]
      simp only [not_true_eq_false, false_and, or_false, true_and]
      split
      · rename_i h'
        refine ⟨by simp, ?_⟩
        rintro ⟨h1, -⟩
        rcases h' with h' | h' | h'
        · rw [List.isEmpty_iff.1 h', fieldLine_iff] at h1; simp [wordColon] at h1
        · exact absurd (hlead.2 h') (fieldLine_not_space h1)
        · exact absurd ((fieldLine_iff x).1 h1) h'
      · rename_i h'
        rw [audit_rest]
        have : wordColon false x = true := Classical.not_not.1 (fun e => h' (.inr (.inr e)))
        exact ⟨fun e => ⟨(fieldLine_iff x).2 this, e⟩, fun e => e.2⟩

example : auditHeader true [bs "From me", bs "A: b", bs " c"] = true ∧ auditHeader true [bs " c", bs "A: b"] = false ∧ auditHeader true [bs "A b: c"] = false := by decide +kernel

theorem span_space : ∀ l : Text, ∃ ws t, l = ws ++ t ∧ (∀ c ∈ ws, isSpace c = true) ∧ (∀ c, t.head? = some c → isSpace c = false) ∧ l.takeWhile isSpace = ws := by
  intro l
  refine ⟨l.takeWhile isSpace, l.dropWhile isSpace, (List.takeWhile_append_dropWhile ..).symm, ?_, ?_, rfl⟩
  · intro c hc
    induction l with
    | nil => simp at hc
    | cons a l ih =>
      simp only [List.takeWhile_cons] at hc
      split at hc
      · rcases List.mem_cons.1 hc with rfl | hc
        · assumption
        · exact ih hc
      · simp at hc
  · intro c hc
    induction l with
    | nil => simp at hc
    | cons a l ih =>
      simp only [List.dropWhile_cons] at hc
      split at hc
      · exact ih hc
      · simp at hc; subst hc; rename_i h; simpa using h

theorem continues_glued {l : Text} (h : SpaceLine l) : Continues l (glued l) := by
  obtain ⟨ws, t, e, h1, h2, h3⟩ := span_space l
  have hne : ws ≠ [] := by
    rintro rfl
    obtain ⟨c, t', e', hc⟩ := h
    simp at e
    rw [e] at e'
    have := h2 c (by rw [e']; rfl)
    rw [hc] at this; simp at this
  rcases List.eq_nil_or_concat ws with h | ⟨ws', w, rfl⟩
  · exact absurd h hne
  · refine ⟨ws', w, t, by rw [e]; simp, fun c hc => h1 c (by simp [hc]), h1 w (by simp), h2, ?_⟩
    rw [glued, h3, e]
    simp

theorem continues_unique {l p : Text} (h : Continues l p) : SpaceLine l ∧ p = glued l := by
  obtain ⟨ws, w, t, rfl, h1, h2, h3, rfl⟩ := h
  constructor
  · cases ws with
    | nil => exact ⟨w, t, rfl, h2⟩
    | cons a ws => exact ⟨a, ws ++ w :: t, rfl, h1 a (by simp)⟩
  · have ht : t.takeWhile isSpace = [] := by
      cases t with
      | nil => rfl
      | cons c t => simp [h3 c rfl]
    have : (ws ++ w :: t).takeWhile isSpace = ws ++ [w] := by
      rw [List.takeWhile_append_of_pos h1, List.takeWhile_cons, h2, if_pos rfl, ht]
    rw [glued, this]
    simp

/-- Continuation lines are glued to the last field. -/
theorem splice_conts {conts : List Text} {ps : Text} (h : ContinueAll conts ps) : ∀ (done : List Text) (l : Text) (rest : List Text),
    spliceLines (done ++ [l]) (conts ++ rest) = spliceLines (done ++ [l ++ ps]) rest := by
  induction h with
  | nil => intro done l rest; simp
  | @cons x p ls ps hx _ ih =>
    intro done l rest
    obtain ⟨⟨c, t, rfl, hc⟩, rfl⟩ := continues_unique hx
    simp only [List.cons_append, spliceLines, if_pos hc, List.getLast?_concat, List.dropLast_concat]
    rw [ih]
    simp

/-- **C36.** If each field is a line that begins one followed by continuation lines, joining gives exactly these fields, each with what the continuation lines add. -/
theorem C36_splice {lines fields : List Text} (h : Unfolded lines fields) : spliceLines [] lines = .ok fields := by
  have : ∀ done, spliceLines done lines = .ok (done ++ fields) := by
    induction h with
    | nil => intro done; simp [spliceLines]
    | @field l conts ps rest fields hb hc _ ih =>
      intro done
      have h1 : spliceLines done (l :: conts ++ rest) = spliceLines (done ++ [l]) (conts ++ rest) := by
        cases l with
        | nil => simp [spliceLines]
        | cons c t => simp [spliceLines, hb c rfl]
      rw [h1, splice_conts hc, ih]
      simp
  simpa using this []

example : spliceLines [] [bs "A: b", bs " c", bs "\t  d", bs "E: f"] = .ok [bs "A: b c d", bs "E: f"] := by decide +kernel

/-- Each list of lines that does not begin with a continuation line has fields. -/
theorem unfolded_total : ∀ (n : Nat) (lines : List Text), lines.length ≤ n → (∀ l, lines.head? = some l → ¬ SpaceLine l) → ∃ fields, Unfolded lines fields := by
  have hconts : ∀ lines : List Text, ∃ conts rest ps, lines = conts ++ rest ∧ ContinueAll conts ps ∧ ∀ l, rest.head? = some l → ¬ SpaceLine l := by
    intro lines
    induction lines with
    | nil => exact ⟨[], [], [], rfl, .nil, by simp⟩
    | cons x xs ih =>
      by_cases hx : SpaceLine x
      · obtain ⟨conts, rest, ps, e, hc, hr⟩ := ih
        exact ⟨x :: conts, rest, _, by rw [e]; rfl, .cons (continues_glued hx) hc, hr⟩
      · exact ⟨[], x :: xs, [], rfl, .nil, by simpa using hx⟩
  intro n
  induction n with
  | zero => intro lines h _; rw [List.length_eq_zero_iff.1 (Nat.le_zero.1 h)]; exact ⟨_, .nil⟩
  | succ n ih =>
    intro lines h hb
    cases lines with
    | nil => exact ⟨_, .nil⟩
    | cons l ls =>
      obtain ⟨conts, rest, ps, rfl, hc, hr⟩ := hconts ls
      obtain ⟨fields, hf⟩ := ih rest (by simp at h; omega) hr
      refine ⟨_, .field ?_ hc hf⟩
      intro c hc
      cases hs : isSpace c with
      | false => rfl
      | true =>
        cases l with
        | nil => simp at hc
        | cons a t => simp at hc; subst hc; exact absurd ⟨a, t, rfl, hs⟩ (hb _ rfl)

theorem fromLine_not_space {l : Text} (h : MboxFromLine l) : ¬ SpaceLine l := by
  rintro ⟨c, t, rfl, hc⟩
  rcases h with h | h
  · rw [show bs "From " = [0x46, 0x72, 0x6f, 0x6d, 0x20] from by decide] at h
    obtain ⟨s, e⟩ := h
    simp at e
    rw [← e.1] at hc
    exact absurd hc (by decide)
  · rw [show bs ">From " = [0x3e, 0x46, 0x72, 0x6f, 0x6d, 0x20] from by decide] at h
    obtain ⟨s, e⟩ := h
    simp at e
    rw [← e.1] at hc
    exact absurd hc (by decide)

theorem headerOk_first {lines : List Text} (h : HeaderOk lines) : ∀ l, lines.head? = some l → ¬ SpaceLine l := by
  intro l hl
  cases lines with
  | nil => simp at hl
  | cons a ls =>
    simp at hl
    subst hl
    by_cases hf : MboxFromLine a
    · exact fromLine_not_space hf
    · exact fieldLine_not_space (h.2 [] a ls rfl (by simp) hf)

theorem takeLine_newline : ∀ {l : Text} (rest : Text), 0x0a ∉ l → 0 ∉ l → takeLine (l ++ 0x0a :: rest) = (l, .newline rest) := by
  intro l rest
  induction l with
  | nil => intro _ _; simp [takeLine]
  | cons c l ih =>
    intro h1 h2
    simp at h1 h2
    have e1 : c ≠ 0 := fun e => h2.1 e.symm
    have e2 : c ≠ 0x0a := fun e => h1.1 e.symm
    simp [takeLine, e1, e2, ih h1.2 h2.2]

theorem splitHeader_text {lines : List Text} {blank body : Text} (hl : ∀ l ∈ lines, HeaderLine l) (hb : ∀ c ∈ blank, isSpace c = true ∧ c ≠ 0x0a) :
    ∀ (fuel : Nat) (done : List Text), lines.length < fuel → splitHeader fuel (headerText lines blank body) done = .ok (some (done ++ lines, body)) := by
  have hn : bs "\n" = [0x0a] := by decide
  induction lines with
  | nil =>
    intro fuel done hf
    obtain ⟨fuel, rfl⟩ : ∃ f, fuel = f + 1 := ⟨fuel - 1, by omega⟩
    have h0 : (0 : UInt8) ∉ blank := fun h => absurd (hb _ h).1 (by decide)
    have h1 : (0x0a : UInt8) ∉ blank := fun h => (hb _ h).2 rfl
    have e : headerText [] blank body = blank ++ 0x0a :: body := by simp [headerText, hn]
    rw [e]
    have ht := takeLine_newline body h1 h0
    have hall : blank.all isSpace = true := by simp; exact fun c hc => (hb c hc).1
    cases blank with
    | nil => simp [splitHeader, takeLine]
    | cons c b =>
      have : c ≠ 0 := fun e => h0 (by simp [e])
      simp only [List.cons_append] at ht ⊢
      simp only [splitHeader, if_neg this, ht, if_pos hall, List.append_nil]
  | cons l lines ih =>
    intro fuel done hf
    obtain ⟨fuel, rfl⟩ : ∃ f, fuel = f + 1 := ⟨fuel - 1, by omega⟩
    obtain ⟨h1, h0, c', hc', hs⟩ := hl l (by simp)
    have e : headerText (l :: lines) blank body = l ++ 0x0a :: headerText lines blank body := by simp [headerText, hn]
    have ht := takeLine_newline (headerText lines blank body) h1 h0
    have hall : ¬ l.all isSpace = true := by simp; exact ⟨c', hc', hs⟩
    rw [e]
    cases l with
    | nil => simp at hc'
    | cons c b =>
      have : c ≠ 0 := fun e => h0 (by simp [e])
      simp only [List.cons_append] at ht ⊢
      simp only [splitHeader, if_neg this, ht, if_neg hall]
      rw [ih (fun l hl' => hl l (by simp [hl'])) fuel (done ++ [c :: b]) (by simp at hf; omega)]
      simp

/-- **C36.** A message that consists of header lines, a blank line and a body is read so: if the header is acceptable, its fields are found, each with its continuation lines, and the body is what follows the blank line; if it is not, the message is refused. -/
theorem C36_read {lines : List Text} {blank body : Text} (hl : ∀ l ∈ lines, HeaderLine l) (hb : ∀ c ∈ blank, isSpace c = true ∧ c ≠ 0x0a) :
    (HeaderOk lines → ∃ fields, Unfolded lines fields ∧ splitAndSplice (headerText lines blank body) = .ok (some (fields, body))) ∧
    (¬ HeaderOk lines → splitAndSplice (headerText lines blank body) = .ok none) := by
  have hs : splitHeader ((headerText lines blank body).length + 1) (headerText lines blank body) [] = .ok (some (lines, body)) := by
    apply splitHeader_text hl hb
    have : ∀ ls : List Text, ls.length ≤ ((ls.map (· ++ bs "\n")).flatten).length := by
      intro ls
      induction ls with
      | nil => simp
      | cons a ls ih => simp [show (bs "\n").length = 1 from by decide] at ih ⊢; omega
    have := this lines
    simp [headerText] at this ⊢
    omega
  constructor
  · intro hok
    obtain ⟨fields, hf⟩ := unfolded_total _ lines (Nat.le_refl _) (headerOk_first hok)
    refine ⟨fields, hf, ?_⟩
    simp only [splitAndSplice, hs, bind, Except.bind, (C36_audit lines).2 hok, if_pos, C36_splice hf]
  · intro hno
    have : ¬ auditHeader true lines = true := fun h => hno ((C36_audit lines).1 h)
    simp only [splitAndSplice, hs, bind, Except.bind, if_neg this]

example : splitAndSplice (headerText [bs "From: x", bs " y", bs "To: z"] (bs " ") (bs "body")) = .ok (some ([bs "From: x y", bs "To: z"], bs "body")) := by decide +kernel

/-- **C36.** No data whatever makes the reading of the header run outside it or glue a line to nothing, and what it takes for the body is the end of the data, less than all of it if there are any fields. -/
theorem C36_safe (data : Text) : ∃ r, splitAndSplice data = .ok r ∧ ∀ fields body, r = some (fields, body) → body <:+ data ∧ (fields = [] ∨ body.length < data.length) := by
  have hline : ∀ (d : Text) l rest, takeLine d = (l, .newline rest) → rest.length < d.length ∧ rest <:+ d := by
    intro d
    induction d with
    | nil => intro l rest h; simp [takeLine] at h
    | cons c d ih =>
      intro l rest h
      simp only [takeLine] at h
      split at h
      · simp at h
      · split at h
        · simp at h; rw [← h.2]; exact ⟨by simp, List.suffix_cons ..⟩
        · simp at h
          have := ih (takeLine d).1 rest (by rw [← h.2])
          exact ⟨by simp; omega, this.2.trans (List.suffix_cons ..)⟩
  have hsplit : ∀ (fuel : Nat) (d : Text) (done : List Text), d.length < fuel → ∃ r, splitHeader fuel d done = .ok r ∧ ∀ lines body, r = some (lines, body) → body <:+ d ∧ (lines = done ∨ body.length < d.length) := by
    intro fuel
    induction fuel with
    | zero => intro d _ h; omega
    | succ fuel ih =>
      intro d done h
      simp only [splitHeader]
      cases d with
      | nil => exact ⟨_, rfl, by rintro lines body e; simp at e; rw [← e.2]; exact ⟨List.suffix_refl _, .inl e.1.symm⟩⟩
      | cons c d =>
        simp only
        split
        · exact ⟨_, rfl, by rintro lines body e; simp at e; rw [← e.2]; exact ⟨List.suffix_refl _, .inl e.1.symm⟩⟩
        · split
          · exact ⟨none, rfl, by simp⟩
          · exact ⟨none, rfl, by simp⟩
          · rename_i l rest hrest
            obtain ⟨h1, h2⟩ := hline _ _ _ hrest
            split
            · exact ⟨_, rfl, by rintro lines body e; simp at e; rw [← e.2]; exact ⟨h2, .inr h1⟩⟩
            · obtain ⟨r, h3, h4⟩ := ih rest (done ++ [l]) (by omega)
              exact ⟨r, h3, fun lines body e => ⟨(h4 lines body e).1.trans h2, .inr (Nat.lt_of_le_of_lt (h4 lines body e).1.length_le h1)⟩⟩
  obtain ⟨r, h1, h2⟩ := hsplit (data.length + 1) data [] (by omega)
  simp only [splitAndSplice, h1, bind, Except.bind]
  cases r with
  | none => exact ⟨none, rfl, by simp⟩
  | some lb =>
    obtain ⟨lines, body⟩ := lb
    simp only
    split
    · rename_i ha
      obtain ⟨fields, hf⟩ := unfolded_total _ lines (Nat.le_refl _) (headerOk_first ((C36_audit lines).1 ha))
      rw [C36_splice hf]
      refine ⟨_, rfl, ?_⟩
      rintro fields' body' e
      simp at e
      rw [← e.2, ← e.1]
      obtain ⟨h3, h4⟩ := h2 lines body rfl
      refine ⟨h3, h4.imp_left ?_⟩
      rintro rfl
      cases hf
      rfl
    · exact ⟨none, rfl, by simp⟩

/-! ## C45: the status headers -/

/-- **C45.** A status header sets the seen, replied and flagged state of the message if `R`, `A`, `F` occur in it, leaves them otherwise, and changes nothing else. -/
theorem C45_status (t : Text) (h : Headers) :
    scanStatusFlags t h = { h with seen := h.seen || decide (0x52 ∈ t), replied := h.replied || decide (0x41 ∈ t), flagged := h.flagged || decide (0x46 ∈ t) } := by
  induction t generalizing h with
  | nil => simp [scanStatusFlags]
  | cons c t ih =>
    simp only [scanStatusFlags]
    rw [ih]
    by_cases h1 : c = 0x52
    · subst h1; simp
    · by_cases h2 : c = 0x41
      · subst h2; simp
      · by_cases h3 : c = 0x46
        · subst h3; simp
        · have e1 : ¬ (0x52 : UInt8) = c := fun e => h1 e.symm
          have e2 : ¬ (0x41 : UInt8) = c := fun e => h2 e.symm
          have e3 : ¬ (0x46 : UInt8) = c := fun e => h3 e.symm
          simp [h1, h2, h3, e1, e2, e3]

end Mairix
