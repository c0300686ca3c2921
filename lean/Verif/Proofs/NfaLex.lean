import Verif.Spec.NfaText
import Verif.Proofs.Bytes

/-! # The scanner of dfasyn reads what is laid out -/

namespace Mairix
open Spec

/-- One match after another. -/
theorem lex_one {mode mode' : LexMode} {bol : Bool} {pre rest : Text} {toks ts : List NTok} {out o : Text} {f : Nat} (hpre : pre ≠ [])
    (h : lexStep mode bol (pre ++ rest) = .ok ⟨pre.length, toks, out, mode'⟩)
    (hr : lexLoop f mode' (pre.getLast? == some 0x0a) rest = .ok (ts, o)) :
    lexLoop (f + 1) mode bol (pre ++ rest) = .ok (toks ++ ts, out ++ o) := by
  have hlast : (pre ++ rest)[pre.length - 1]? = pre.getLast? := by
    have : 0 < pre.length := List.length_pos_iff.mpr hpre
    rw [List.getElem?_append_left (by omega), List.getLast?_eq_getElem?]
  cases hp : pre ++ rest with
  | nil => exact absurd (List.append_eq_nil_iff.mp hp).1 hpre
  | cons c r =>
    rw [← hp]
    have hd : (pre ++ rest).drop pre.length = rest := List.drop_left
    unfold lexLoop
    split
    · simp_all
    · simp_all
    · rename_i heq hne
      cases heq
      rw [h]
      show (do
        let (toks', out') ← lexLoop f mode' ((pre ++ rest)[pre.length - 1]? == some 0x0a) ((pre ++ rest).drop pre.length)
        Except.ok (toks ++ toks', out ++ out')) = _
      rw [hlast, hd, hr]
      rfl

theorem lexLoop_nil (f : Nat) (mode : LexMode) (bol : Bool) : lexLoop f mode bol [] = .ok ([], []) := by
  cases f <;> rfl

theorem stop_take {p : UInt8 → Bool} {d r : Text} (hd : ∀ c ∈ d, p c = true) (hr : ∀ c, r.head? = some c → p c = false) :
    (d ++ r).takeWhile p = d := by
  induction d with
  | nil =>
    cases r with
    | nil => rfl
    | cons c r => simp [hr c rfl]
  | cons a d ih =>
    rw [List.cons_append, List.takeWhile_cons, hd a (by simp), if_pos rfl, ih (fun c hc => hd c (by simp [hc]))]

/-! ## Words -/

theorem word_char {c : UInt8} : IdChar c ↔ nfaWordChar c = true := by
  unfold IdChar nfaWordChar
  simp only [Bool.or_eq_true, Bool.and_eq_true, decide_eq_true_eq, beq_iff_eq]
  constructor
  · rintro (h | h | h | h | h)
    · exact .inl (.inl (.inl (.inl h)))
    · exact .inl (.inl (.inl (.inr h)))
    · exact .inl (.inl (.inr h))
    · exact .inl (.inr h)
    · exact .inr h
  · rintro ((((h | h) | h) | h) | h)
    · exact .inl h
    · exact .inr (.inl h)
    · exact .inr (.inr (.inl h))
    · exact .inr (.inr (.inr (.inl h)))
    · exact .inr (.inr (.inr (.inr h)))

theorem blank_char {c : UInt8} : BlankChar c ↔ nfaBlank c = true := by
  unfold BlankChar nfaBlank
  simp

/-- The spellings of the reserved words. -/
def allReserved : List (Text × NTok) :=
  reservedWords.flatMap (fun e => (spellings (bs e.1)).map fun w => (w, e.2)) ++ [(bs "EntryStruct", .entrystruct), (bs "DefAttr", .defattr)]

theorem reserved_mem {w : Text} {k : NTok} : Reserved w k ↔ (w, k) ∈ allReserved := by
  unfold Reserved allReserved
  rw [List.mem_append, List.mem_flatMap]
  constructor
  · rintro (⟨e, he, hw, rfl⟩ | ⟨rfl, rfl⟩ | ⟨rfl, rfl⟩)
    · exact .inl ⟨e, he, List.mem_map.mpr ⟨w, hw, rfl⟩⟩
    · exact .inr (by simp)
    · exact .inr (by simp)
  · rintro (⟨e, he, h⟩ | h)
    · obtain ⟨w', hw, heq⟩ := List.mem_map.mp h
      injection heq with h1 h2
      subst h1; subst h2
      exact .inl ⟨e, he, hw, rfl⟩
    · rcases List.mem_cons.mp h with h | h
      · injection h with h1 h2
        exact .inr (.inl ⟨h1, h2⟩)
      · rcases List.mem_cons.mp h with h | h
        · injection h with h1 h2
          exact .inr (.inr ⟨h1, h2⟩)
        · cases h

theorem reserved_token : ∀ e ∈ allReserved, wordToken e.1 = e.2 ∧ e.1 ≠ [] ∧ ∀ c ∈ e.1, nfaWordChar c = true := by decide +kernel

theorem keyword_reserved : ∀ e ∈ nfaKeywords, e ∈ allReserved := by decide +kernel

theorem name_token {w : Text} (h : ∀ k, ¬ Reserved w k) : wordToken w = .str w := by
  unfold wordToken
  cases hf : nfaKeywords.find? (fun e => decide (e.1 = w)) with
  | none => rfl
  | some e =>
    have hm := List.mem_of_find?_eq_some hf
    have hw : e.1 = w := by simpa using List.find?_some hf
    exact absurd (reserved_mem.mpr (show (w, e.2) ∈ allReserved by rw [← hw]; exact keyword_reserved e hm)) (h e.2)

theorem blank_not_word {c : UInt8} (h : BlankChar c) : nfaWordChar c = false := by
  rcases h with rfl | rfl <;> decide

theorem mark_not_word : ∀ e ∈ marks, ∀ c, (bs e.1).head? = some c → nfaWordChar c = false := by
  have h : ∀ e ∈ marks, ∃ c, (bs e.1).head? = some c ∧ nfaWordChar c = false := by decide +kernel
  intro e he c hc
  obtain ⟨d, hd, hn⟩ := h e he
  rw [hc] at hd
  cases hd
  exact hn

/-- After a word comes no letter. -/
theorem after_word {b : Prior} {t : Text} {ts : List NTok} {o : Text} (h : Layout b t ts o) (hb : b = .word) :
    ∀ c, t.head? = some c → nfaWordChar c = false := by
  intro c hc
  cases h with
  | nil => cases hc
  | blank _ hbl _ => cases hc; exact blank_not_word hbl
  | newline => cases hc; decide
  | comment => cases hc; decide
  | name hn => exact absurd hb hn
  | reserved hn => exact absurd hb hn
  | mark _ he _ =>
    rename_i e _ _ _
    refine mark_not_word e he c ?_
    have hne : ∀ e ∈ marks, bs e.1 ≠ [] := by decide +kernel
    cases hm : bs e.1 with
    | nil => exact absurd hm (hne e he)
    | cons a m => rw [hm] at hc; exact hc
  | quoted => cases hc; decide
  | cls => cases hc; decide
  | clsCaret => cases hc; decide
  | passed => cases hb

/-- A word is taken whole. -/
theorem lex_word {w t : Text} (bol : Bool) (hne : w ≠ []) (hw : ∀ c ∈ w, nfaWordChar c = true) (ht : ∀ c, t.head? = some c → nfaWordChar c = false) :
    lexStep .initial bol (w ++ t) = .ok ⟨w.length, [wordToken w], [], .initial⟩ := by
  have htk := stop_take hw ht
  cases w with
  | nil => exact absurd rfl hne
  | cons a w =>
    show lexInitial bol (a :: (w ++ t)) = _
    unfold lexInitial
    dsimp only
    rw [hw a (by simp), if_pos rfl]
    rw [List.cons_append] at htk
    rw [htk]

/-- The marks. -/
theorem lex_mark (bol : Bool) : ∀ e ∈ marks, ∀ t : Text, lexStep .initial bol (bs e.1 ++ t) = .ok ⟨(bs e.1).length, [e.2], [], .initial⟩ := by
  intro e he t
  simp only [marks, List.mem_cons, List.not_mem_nil, or_false] at he
  rcases he with rfl | rfl | rfl | rfl | rfl | rfl | rfl | rfl | rfl | rfl | rfl | rfl | rfl | rfl | rfl | rfl | rfl <;> rfl

/-! ## Inside the brackets -/

theorem hex_value {a : UInt8} {x : Nat} (h : Base16 a x) : hexValue a = some x := by
  obtain ⟨hx, h⟩ := h
  have key : ∀ a : UInt8, ∀ x : Fin 16, ((x.val < 10 ∧ a.toNat = 0x30 + x.val) ∨ (10 ≤ x.val ∧ a.toNat = 0x61 + (x.val - 10)) ∨
      (10 ≤ x.val ∧ a.toNat = 0x41 + (x.val - 10))) → hexValue a = some x.val := forall_byte (by decide +kernel)
  exact key a ⟨x, hx⟩ h

theorem oct_value {a : UInt8} {x : Nat} (h : Base8 a x) : octValue a = some x ∧
    ¬ (a = 0x2d ∨ a = 0x5d ∨ a = 0x5e ∨ a = 0x5c) ∧ a ≠ 0x6e ∧ a ≠ 0x72 ∧ a ≠ 0x66 ∧ a ≠ 0x74 ∧ a ≠ 0x78 := by
  obtain ⟨hx, h⟩ := h
  have key : ∀ a : UInt8, ∀ x : Fin 8, a.toNat = 0x30 + x.val → octValue a = some x.val ∧
    ¬ (a = 0x2d ∨ a = 0x5d ∨ a = 0x5e ∨ a = 0x5c) ∧ a ≠ 0x6e ∧ a ≠ 0x72 ∧ a ≠ 0x66 ∧ a ≠ 0x74 ∧ a ≠ 0x78 := forall_byte (by decide +kernel)
  exact key a ⟨x, hx⟩ h

theorem control_char {c d : UInt8} (hc : c.toNat ≤ 26) (hd : d.toNat = 0x40 + c.toNat) : (0x40 ≤ d && d ≤ 0x5a) = true ∧ d - 0x40 = c := by
  have key : ∀ d : UInt8, ∀ n : Fin 27, d.toNat = 0x40 + n.val → (0x40 ≤ d && d ≤ 0x5a) = true ∧ d - 0x40 = UInt8.ofNat n.val :=
    forall_byte (by decide +kernel)
  have h := key d ⟨c.toNat, by omega⟩ hd
  refine ⟨h.1, h.2.trans ?_⟩
  exact UInt8.ofNat_toNat

/-- A character in a class. -/
theorem lex_char {c : UInt8} {s : Text} (h : CharText c s) (bol : Bool) (t : Text) :
    s ≠ [] ∧ lexStep .charclass bol (s ++ t) = .ok ⟨s.length, [.chr c], [], .charclass⟩ := by
  cases h with
  | plain h1 h2 h3 h4 h5 =>
    refine ⟨by simp, ?_⟩
    show lexClass (c :: t) = _
    unfold lexClass
    dsimp only
    rw [if_neg h2, if_neg h1, if_neg h5, if_neg h4, if_neg h3]
    rfl
  | escaped h =>
    refine ⟨by simp, ?_⟩
    rcases h with rfl | rfl | rfl | rfl <;> rfl
  | newline => exact ⟨by decide, rfl⟩
  | «return» => exact ⟨by decide, rfl⟩
  | formfeed => exact ⟨by decide, rfl⟩
  | tab => exact ⟨by decide, rfl⟩
  | control hc hd =>
    rename_i d
    refine ⟨by simp, ?_⟩
    obtain ⟨h1, h2⟩ := control_char hc hd
    show lexClass (0x5e :: d :: t) = _
    unfold lexClass
    dsimp only
    rw [if_neg (by decide), if_neg (by decide), if_neg (by decide), if_neg (by decide), if_pos rfl, if_pos h1, h2]
    rfl
  | hex ha hb hc =>
    rename_i a b x y
    refine ⟨by simp, ?_⟩
    have he : classEscape (0x78 :: a :: b :: t) = (c, 4) := by
      unfold classEscape
      dsimp only
      rw [if_neg (by decide), if_neg (by decide), if_neg (by decide), if_neg (by decide), if_neg (by decide), if_pos rfl, hex_value ha, hex_value hb]
      dsimp only
      rw [← hc, UInt8.ofNat_toNat]
    show lexClass (0x5c :: 0x78 :: a :: b :: t) = _
    unfold lexClass
    dsimp only
    rw [if_neg (by decide), if_neg (by decide), if_neg (by decide), if_pos rfl, he]
    rfl
  | octal ha hb hd hc =>
    rename_i a b d x y z
    refine ⟨by simp, ?_⟩
    obtain ⟨hv, n1, n2, n3, n4, n5, n6⟩ := oct_value ha
    have he : classEscape (a :: b :: d :: t) = (c, 4) := by
      unfold classEscape
      dsimp only
      rw [if_neg n1, if_neg n2, if_neg n3, if_neg n4, if_neg n5, if_neg n6, hv]
      dsimp only
      rw [(oct_value hb).1, (oct_value hd).1]
      dsimp only
      rw [← hc, UInt8.ofNat_toNat]
    show lexClass (0x5c :: a :: b :: d :: t) = _
    unfold lexClass
    dsimp only
    rw [if_neg (by decide), if_neg (by decide), if_neg (by decide), if_pos rfl, he]
    rfl

/-- What is inside the brackets, up to the closing one. -/
theorem lex_body {cs : List NTok} {body : Text} (h : BodyText cs body) {t : Text} {ts : List NTok} {o : Text}
    (ht : ∀ f bol, t.length ≤ f → lexLoop f .initial bol t = .ok (ts, o)) :
    ∀ f bol, (body ++ 0x5d :: t).length ≤ f → lexLoop f .charclass bol (body ++ 0x5d :: t) = .ok (cs ++ .rsquare :: ts, o) := by
  induction h with
  | nil =>
    intro f bol hf
    cases f with
    | zero => simp at hf
    | succ f =>
      exact lex_one (pre := [0x5d]) (toks := [.rsquare]) (out := []) (by simp) rfl (ht f _ (by simpa using hf))
  | chr hc _ ih =>
    rename_i s u us _
    intro f bol hf
    rw [List.append_assoc] at hf ⊢
    obtain ⟨hne, hs⟩ := lex_char hc bol (u ++ 0x5d :: t)
    have hpos : 0 < s.length := List.length_pos_iff.mpr hne
    cases f with
    | zero => simp at hf
    | succ f => exact lex_one (toks := [.chr _]) (out := []) hne hs (ih f _ (by simp at hf ⊢; omega))
  | hyphen _ ih =>
    intro f bol hf
    cases f with
    | zero => simp at hf
    | succ f => exact lex_one (pre := [0x2d]) (toks := [.hyphen]) (out := []) (by simp) rfl (ih f _ (by simpa using hf))

/-! ## Text passed on -/

theorem mark_line {k : UInt8} {b t : Text} (hb : ∀ c ∈ b, BlankChar c) : markLine k (0x25 :: k :: b ++ 0x0a :: t) = some (b.length + 3) := by
  have htk : (b ++ 0x0a :: t).takeWhile nfaBlank = b := stop_take (fun c hc => blank_char.mp (hb c hc)) (fun c hc => by cases hc; decide)
  show (if (0x25 : UInt8) = 0x25 ∧ k = k then _ else none) = _
  rw [if_pos ⟨rfl, rfl⟩]
  show (if (b ++ 0x0a :: t)[((b ++ 0x0a :: t).takeWhile nfaBlank).length]? = some 0x0a then some (((b ++ 0x0a :: t).takeWhile nfaBlank).length + 3) else none) = _
  rw [htk, if_pos (by simp)]

theorem blanks_upto : ∀ (l r : Text), (0x0a : UInt8) ∉ l → (l ++ 0x0a :: r)[((l ++ 0x0a :: r).takeWhile nfaBlank).length]? = some 0x0a → ∀ c ∈ l, BlankChar c := by
  intro l
  induction l with
  | nil => intro r _ _ c hc; cases hc
  | cons a l ih =>
    intro r hn h c hc
    cases ha : nfaBlank a with
    | false =>
      rw [List.cons_append, List.takeWhile_cons, ha] at h
      simp only [Bool.false_eq_true, if_false, List.length_nil, List.getElem?_cons_zero, Option.some.injEq] at h
      exact absurd (by simp [h]) hn
    | true =>
      rw [List.cons_append, List.takeWhile_cons, ha, if_pos rfl, List.length_cons, List.getElem?_cons_succ] at h
      rcases List.mem_cons.mp hc with rfl | hc
      · exact blank_char.mpr ha
      · exact ih r (fun hm => hn (by simp [hm])) h c hc

theorem not_mark {l r : Text} (hn : (0x0a : UInt8) ∉ l) (he : ¬ EndMark l) : markLine 0x7d (l ++ 0x0a :: r) = none := by
  match l, hn, he with
  | [], _, _ =>
    unfold markLine
    split
    · rename_i a b t heq
      rw [List.nil_append] at heq
      injection heq with h1 h2
      rw [if_neg (fun h => absurd (h1.trans h.1) (by decide))]
    · rfl
  | [a], _, _ =>
    show (if a = 0x25 ∧ (0x0a : UInt8) = 0x7d then _ else none) = _
    rw [if_neg (fun h => absurd h.2 (by decide))]
  | a :: b :: l, hn, he =>
    show (if a = 0x25 ∧ b = 0x7d then _ else none) = _
    by_cases hab : a = 0x25 ∧ b = 0x7d
    · rw [if_pos hab]
      show (if (l ++ 0x0a :: r)[((l ++ 0x0a :: r).takeWhile nfaBlank).length]? = some 0x0a then some (((l ++ 0x0a :: r).takeWhile nfaBlank).length + 3) else none) = _
      by_cases hg : (l ++ 0x0a :: r)[((l ++ 0x0a :: r).takeWhile nfaBlank).length]? = some 0x0a
      · obtain ⟨rfl, rfl⟩ := hab
        exact absurd ⟨l, rfl, blanks_upto l r (fun hm => hn (by simp [hm])) hg⟩ he
      · rw [if_neg hg]
    · rw [if_neg hab]

theorem lex_newline_passed (bol : Bool) (r : Text) : lexStep .passthru bol ([0x0a] ++ r) = .ok ⟨1, [], [0x0a], .passthru⟩ := by
  have : markLine 0x7d (0x0a :: r) = none := by
    unfold markLine
    split
    · rename_i a b t heq
      injection heq with h1 h2
      rw [if_neg (fun h => absurd (h1.trans h.1) (by decide))]
    · rfl
  show lexPassthru bol (0x0a :: r) = _
  unfold lexPassthru
  cases bol
  · rfl
  · rw [if_pos rfl, this]
    rfl

/-- The lines up to the mark. -/
theorem lex_passed {ls : List Text} {b₂ t : Text} {ts : List NTok} {o : Text} (hb : ∀ c ∈ b₂, BlankChar c)
    (ht : ∀ f, t.length ≤ f → lexLoop f .initial true t = .ok (ts, o)) :
    (∀ l ∈ ls, (0x0a : UInt8) ∉ l ∧ ¬ EndMark l) →
    ∀ f, (joinLines ls ++ (0x25 :: 0x7d :: b₂ ++ 0x0a :: t)).length ≤ f →
      lexLoop f .passthru true (joinLines ls ++ (0x25 :: 0x7d :: b₂ ++ 0x0a :: t)) = .ok (ts, joinLines ls ++ o) := by
  induction ls with
  | nil =>
    intro _ f hf
    cases f with
    | zero => simp [joinLines] at hf
    | succ f =>
      have hst : lexStep .passthru true ((0x25 :: 0x7d :: b₂ ++ [0x0a]) ++ t) = .ok ⟨(0x25 :: 0x7d :: b₂ ++ [0x0a]).length, [], [], .initial⟩ := by
        show lexPassthru true _ = _
        unfold lexPassthru
        rw [if_pos rfl, show (0x25 :: 0x7d :: b₂ ++ [0x0a]) ++ t = 0x25 :: 0x7d :: b₂ ++ 0x0a :: t by simp, mark_line hb]
        simp
      have hlast : ((0x25 :: 0x7d :: b₂ ++ [0x0a] : Text).getLast? == some 0x0a) = true := by
        rw [List.getLast?_append]; rfl
      have h := lex_one (ts := ts) (o := o) (f := f) (by simp) hst (by rw [hlast]; exact ht f (by simp [joinLines] at hf; omega))
      rw [show (0x25 :: 0x7d :: b₂ ++ [0x0a]) ++ t = 0x25 :: 0x7d :: b₂ ++ 0x0a :: t by simp] at h
      exact h
  | cons l ls ih =>
    intro hl f hf
    obtain ⟨hn, he⟩ := hl l (by simp)
    have ih' := ih (fun l' h' => hl l' (by simp [h']))
    have hshape : joinLines (l :: ls) ++ (0x25 :: 0x7d :: b₂ ++ 0x0a :: t) = l ++ ([0x0a] ++ (joinLines ls ++ (0x25 :: 0x7d :: b₂ ++ 0x0a :: t))) := by
      simp [joinLines]
    rw [hshape] at hf ⊢
    have hlen : (l ++ ([0x0a] ++ (joinLines ls ++ (0x25 :: 0x7d :: b₂ ++ 0x0a :: t)))).length =
        l.length + 1 + (joinLines ls ++ (0x25 :: 0x7d :: b₂ ++ 0x0a :: t)).length := by
      rw [List.length_append, List.length_append]; simp only [List.length_singleton]; omega
    rw [hlen] at hf
    generalize hrest : joinLines ls ++ (0x25 :: 0x7d :: b₂ ++ 0x0a :: t) = rest at *
    have hnl : ∀ f bol, rest.length ≤ f → lexLoop (f + 1) .passthru bol ([0x0a] ++ rest) = .ok (ts, [0x0a] ++ (joinLines ls ++ o)) := by
      intro f bol hf
      exact lex_one (toks := []) (by simp) (lex_newline_passed bol rest) (ih' f hf)
    have hjo : joinLines (l :: ls) ++ o = l ++ ([0x0a] ++ (joinLines ls ++ o)) := by simp [joinLines]
    rw [hjo]
    cases l with
    | nil =>
      cases f with
      | zero => simp at hf
      | succ f => exact hnl f true (by simp at hf; omega)
    | cons a l =>
      cases f with
      | zero => simp at hf
      | succ f =>
        cases f with
        | zero => simp at hf; omega
        | succ f =>
          refine lex_one (toks := []) (out := a :: l) (by simp) ?_ (hnl f _ (by simp at hf; omega))
          show lexPassthru true _ = _
          unfold lexPassthru
          have hnm : markLine 0x7d ((a :: l) ++ ([0x0a] ++ rest)) = none := not_mark (r := rest) hn he
          rw [if_pos rfl, hnm]
          have hne : a ≠ 0x0a := fun h => hn (by simp [h])
          have htk : ((a :: l) ++ ([0x0a] ++ rest)).takeWhile (fun c => decide (c ≠ 0x0a)) = a :: l :=
            stop_take (fun c hc => decide_eq_true (fun h => hn (by rw [← h]; exact hc))) (fun c hc => by cases hc; decide)
          dsimp only
          rw [htk, if_neg (by simp [hne])]

/-! ## The whole -/

theorem lex_layout {b : Prior} {t : Text} {ts : List NTok} {o : Text} (h : Layout b t ts o) :
    ∀ f bol, t.length ≤ f → (b = .line → bol = true) → lexLoop f .initial bol t = .ok (ts, o) := by
  induction h with
  | nil => intro f bol _ _; exact lexLoop_nil f _ bol
  | blank _ hb _ ih =>
    rename_i c t ts o _
    intro f bol hf _
    cases f with
    | zero => simp at hf
    | succ f =>
      have hf' : t.length ≤ f := by simpa using hf
      have hcb := blank_char.mp hb
      have hc0 : nfaWordChar c = false ∧ c ≠ 0x23 ∧ c ≠ 0x2d ∧ c ≠ 0x5b ∧ c ≠ 0x0a := by
        rcases hb with rfl | rfl <;> decide
      have step : ∀ (a : UInt8) (u : Text) (bol : Bool), nfaBlank a = true → nfaWordChar a = false ∧ a ≠ 0x23 ∧ a ≠ 0x2d ∧ a ≠ 0x5b ∧ a ≠ 0x0a →
          lexStep .initial bol (a :: u) = .ok ⟨((a :: u).takeWhile nfaBlank).length, [], [], .initial⟩ := by
        intro a u bol ha ⟨h1, h2, h3, h4, h5⟩
        show lexInitial bol (a :: u) = _
        unfold lexInitial
        dsimp only
        rw [if_neg (by rw [h1]; decide), if_neg h2, if_neg h3, if_neg h4, if_neg h5, if_pos ha]
      have hih := ih f false hf' (fun h => by cases h)
      have hih' := ih (f + 1) false (by omega) (fun h => by cases h)
      have hsplit : (t.takeWhile nfaBlank) ++ t.dropWhile nfaBlank = t := List.takeWhile_append_dropWhile
      have hpre : (c :: t).takeWhile nfaBlank = c :: t.takeWhile nfaBlank := by rw [List.takeWhile_cons, hcb, if_pos rfl]
      have hlastb : ∀ (l : Text), l ≠ [] → (∀ x ∈ l, nfaBlank x = true) → (l.getLast? == some 0x0a) = false := by
        intro l hl hx
        cases hg : l.getLast? with
        | none => rfl
        | some x =>
          have := hx x (List.mem_of_getLast? hg)
          have : x ≠ 0x0a := fun h => by subst h; exact absurd this (by decide)
          simp [this]
      have hall : ∀ x ∈ t.takeWhile nfaBlank, nfaBlank x = true := fun x hx => by
        have : ∀ (l : Text), ∀ x ∈ l.takeWhile nfaBlank, nfaBlank x = true := by
          intro l
          induction l with
          | nil => intro x hx; cases hx
          | cons a l ih =>
            intro x hx
            rw [List.takeWhile_cons] at hx
            cases ha : nfaBlank a with
            | false => rw [ha] at hx; cases hx
            | true =>
              rw [ha, if_pos rfl] at hx
              rcases List.mem_cons.mp hx with rfl | hx
              · exact ha
              · exact ih x hx
        exact this t x hx
      -- what is left after the blanks
      have hrest : lexLoop f .initial false (t.dropWhile nfaBlank) = .ok (ts, o) := by
        cases t with
        | nil => simpa using hih
        | cons a u =>
          cases ha : nfaBlank a with
          | false =>
            have : (a :: u).dropWhile nfaBlank = a :: u := by rw [List.dropWhile_cons, ha]; rfl
            rw [this]
            exact hih
          | true =>
            have ha0 : nfaWordChar a = false ∧ a ≠ 0x23 ∧ a ≠ 0x2d ∧ a ≠ 0x5b ∧ a ≠ 0x0a := by
              rcases blank_char.mpr ha with rfl | rfl <;> decide
            have hlp : (a :: u).takeWhile nfaBlank ≠ [] := by rw [List.takeWhile_cons, ha, if_pos rfl]; simp
            have hst := step a u false ha ha0
            cases hr : lexLoop f .initial false ((a :: u).dropWhile nfaBlank) with
            | ok p =>
              obtain ⟨ts', o'⟩ := p
              have hone := lex_one (f := f) (ts := ts') (o := o') (pre := (a :: u).takeWhile nfaBlank) (rest := (a :: u).dropWhile nfaBlank) (toks := []) (out := [])
                (mode := .initial) (mode' := .initial) (bol := false) hlp (by rw [hsplit]; exact hst)
                (by rw [hlastb _ hlp hall]; exact hr)
              rw [hsplit, hih'] at hone
              exact hone.symm
            | error e =>
              exfalso
              have hd : (a :: u).drop ((a :: u).takeWhile nfaBlank).length = (a :: u).dropWhile nfaBlank := by
                conv => lhs; rw [← hsplit]
                exact List.drop_left' (by rw [hsplit])
              have hg : (a :: u)[((a :: u).takeWhile nfaBlank).length - 1]? = ((a :: u).takeWhile nfaBlank).getLast? := by
                have hp : 0 < ((a :: u).takeWhile nfaBlank).length := List.length_pos_iff.mpr hlp
                rw [List.getLast?_eq_getElem?]
                conv => lhs; rw [← hsplit]
                rw [List.getElem?_append_left (by rw [hsplit]; omega), hsplit]
              have hbad : lexLoop (f + 1) .initial false (a :: u) = .error e := by
                show (do
                  let s ← lexStep .initial false (a :: u)
                  let (toks, out) ← lexLoop f s.mode ((a :: u)[s.n - 1]? == some 0x0a) ((a :: u).drop s.n)
                  Except.ok (s.toks ++ toks, s.out ++ out)) = _
                rw [hst]
                show (do
                  let (toks, out) ← lexLoop f .initial ((a :: u)[((a :: u).takeWhile nfaBlank).length - 1]? == some 0x0a)
                    ((a :: u).drop ((a :: u).takeWhile nfaBlank).length)
                  Except.ok ([] ++ toks, [] ++ out)) = _
                rw [hg, hlastb _ hlp hall, hd, hr]
                rfl
              rw [hih'] at hbad
              cases hbad
      have hst := step c t bol hcb hc0
      have hone := lex_one (f := f) (ts := ts) (o := o) (pre := c :: t.takeWhile nfaBlank) (rest := t.dropWhile nfaBlank) (toks := []) (out := [])
        (mode := .initial) (mode' := .initial) (bol := bol) (by simp)
        (by rw [List.cons_append, hsplit, hst, hpre])
        (by
          rw [hlastb _ (by simp) (fun x hx => by
            rcases List.mem_cons.mp hx with rfl | hx
            · exact hcb
            · exact hall x hx)]
          exact hrest)
      rw [List.cons_append, hsplit] at hone
      exact hone
  | newline _ _ ih =>
    intro f bol hf _
    cases f with
    | zero => simp at hf
    | succ f => exact lex_one (pre := [0x0a]) (toks := []) (out := []) (by simp) rfl (ih f _ (by simpa using hf) (fun _ => rfl))
  | comment _ hs _ ih =>
    rename_i s t ts o _
    intro f bol hf _
    cases f with
    | zero => simp at hf
    | succ f =>
      cases f with
      | zero => simp at hf
      | succ f =>
        refine lex_one (pre := 0x23 :: s) (rest := 0x0a :: t) (toks := []) (out := []) (by simp) ?_
          (lex_one (pre := [0x0a]) (rest := t) (mode := .initial) (toks := []) (out := []) (by simp) rfl (ih f _ (by simp at hf; omega) (fun _ => rfl)))
        have htk : (s ++ 0x0a :: t).takeWhile (fun c => decide (c ≠ 0x0a)) = s :=
          stop_take (fun c hc => decide_eq_true (fun h => hs (by rw [← h]; exact hc))) (fun c hc => by cases hc; decide)
        show lexInitial bol (0x23 :: (s ++ 0x0a :: t)) = _
        unfold lexInitial
        dsimp only
        rw [if_neg (by decide), if_pos rfl, htk, if_pos (by simp)]
        rfl
  | name _ hne hw hr hl ih =>
    rename_i w t ts o _
    intro f bol hf _
    have hpos : 0 < w.length := List.length_pos_iff.mpr hne
    cases f with
    | zero => simp at hf; exact absurd hf.1 hne
    | succ f =>
      have hst := lex_word (t := t) bol hne (fun c hc => word_char.mp (hw c hc)) (after_word hl rfl)
      rw [name_token hr] at hst
      exact lex_one (out := []) hne hst (ih f _ (by simp at hf; omega) (fun h => by cases h))
  | reserved _ hr hl ih =>
    rename_i w t k ts o _
    intro f bol hf _
    obtain ⟨htok, hne, hw⟩ := reserved_token (w, k) (reserved_mem.mp hr)
    have hpos : 0 < w.length := List.length_pos_iff.mpr hne
    cases f with
    | zero => simp at hf; exact absurd hf.1 hne
    | succ f =>
      have hst := lex_word (t := t) bol hne hw (after_word hl rfl)
      rw [show wordToken w = k from htok] at hst
      exact lex_one (out := []) hne hst (ih f _ (by simp at hf; omega) (fun h => by cases h))
  | mark _ he _ ih =>
    rename_i e t ts o _
    intro f bol hf _
    have hne : bs e.1 ≠ [] := (by decide +kernel : ∀ e ∈ marks, bs e.1 ≠ []) e he
    have hpos : 0 < (bs e.1).length := List.length_pos_iff.mpr hne
    cases f with
    | zero => simp at hf; exact absurd hf.1 hne
    | succ f =>
      exact lex_one (toks := [e.2]) (out := []) hne (lex_mark bol e he t) (ih f _ (by simp at hf; omega) (fun h => by cases h))
  | quoted _ hne hq _ ih =>
    rename_i s t ts o _
    intro f bol hf _
    have hpos : 0 < s.length := List.length_pos_iff.mpr hne
    match f, hf with
    | 0, hf => simp at hf
    | 1, hf => simp at hf
    | 2, hf => simp at hf; omega
    | f + 3, hf =>
      refine lex_one (pre := [0x22]) (rest := s ++ 0x22 :: t) (toks := []) (out := []) (by simp) rfl
        (lex_one (pre := s) (rest := 0x22 :: t) (toks := [.str s]) (out := []) hne ?_
          (lex_one (pre := [0x22]) (rest := t) (mode := .str) (toks := []) (out := []) (by simp) rfl (ih f _ (by simp at hf; omega) (fun h => by cases h))))
      have htk : (s ++ 0x22 :: t).takeWhile (fun c => decide (c ≠ 0x22)) = s :=
        stop_take (fun c hc => decide_eq_true (fun h => hq (by rw [← h]; exact hc))) (fun c hc => by cases hc; decide)
      show lexStr _ = _
      unfold lexStr
      dsimp only
      rw [htk]
      cases s with
      | nil => exact absurd rfl hne
      | cons a s =>
        have : a ≠ 0x22 := fun h => hq (by simp [h])
        rw [if_neg (by simp [this])]
  | cls _ hb hh _ ih =>
    rename_i body t cs ts o _
    intro f bol hf _
    cases f with
    | zero => simp at hf
    | succ f =>
      refine lex_one (pre := [0x5b]) (rest := body ++ 0x5d :: t) (toks := [.lsquare]) (out := []) (by simp) ?_
        (lex_body hb (fun f bol hf => ih f bol hf (fun h => by cases h)) f _ (by simpa using hf))
      show lexInitial bol (0x5b :: (body ++ 0x5d :: t)) = _
      unfold lexInitial
      dsimp only
      rw [if_neg (by decide), if_neg (by decide), if_neg (by decide), if_pos rfl, if_neg ?_]
      · rfl
      · cases body with
        | nil => exact (fun h => absurd h (by simp))
        | cons a body => exact hh
  | clsCaret _ hb _ ih =>
    rename_i body t cs ts o _
    intro f bol hf _
    cases f with
    | zero => simp at hf
    | succ f =>
      exact lex_one (pre := [0x5b, 0x5e]) (rest := body ++ 0x5d :: t) (toks := [.lsquareCaret]) (out := []) (by simp) rfl
        (lex_body hb (fun f bol hf => ih f bol hf (fun h => by cases h)) f _ (by simp at hf ⊢; omega))
  | passed hb₁ hb₂ hl _ ih =>
    rename_i b₁ b₂ ls t ts o _
    intro f bol hf hbol
    have hbt := hbol rfl
    subst hbt
    have hshape : bs "%{" ++ b₁ ++ 0x0a :: joinLines ls ++ bs "%}" ++ b₂ ++ 0x0a :: t =
        (0x25 :: 0x7b :: b₁ ++ [0x0a]) ++ (joinLines ls ++ (0x25 :: 0x7d :: b₂ ++ 0x0a :: t)) := by
      simp [bs]
    rw [hshape] at hf ⊢
    cases f with
    | zero => simp at hf
    | succ f =>
      have hlast : ((0x25 :: 0x7b :: b₁ ++ [0x0a] : Text).getLast? == some 0x0a) = true := by
        rw [List.getLast?_append]; rfl
      refine lex_one (toks := []) (out := []) (mode' := .passthru) (by simp) ?_
        (by
          rw [hlast]
          exact lex_passed hb₂ (fun f hf => ih f true hf (fun _ => rfl)) hl f (by simp at hf ⊢; omega))
      show lexInitial true (0x25 :: (0x7b :: b₁ ++ [0x0a] ++ (joinLines ls ++ (0x25 :: 0x7d :: b₂ ++ 0x0a :: t)))) = _
      unfold lexInitial
      dsimp only
      rw [if_neg (by decide), if_neg (by decide), if_neg (by decide), if_neg (by decide), if_neg (by decide), if_neg (by decide), if_neg (by decide),
        if_pos rfl, if_pos rfl]
      have hm := mark_line (k := 0x7b) (t := joinLines ls ++ (0x25 :: 0x7d :: b₂ ++ 0x0a :: t)) hb₁
      rw [show (0x25 :: (0x7b :: b₁ ++ [0x0a] ++ (joinLines ls ++ (0x25 :: 0x7d :: b₂ ++ 0x0a :: t))) : Text) =
        0x25 :: 0x7b :: b₁ ++ 0x0a :: (joinLines ls ++ (0x25 :: 0x7d :: b₂ ++ 0x0a :: t)) by simp, hm]
      simp

theorem lexNfa_layout {t : Text} {ts : List NTok} {o : Text} (h : Layout .line t ts o) : lexNfa t = .ok (ts, o) :=
  lex_layout h _ _ (Nat.le_refl _) (fun _ => rfl)

end Mairix
