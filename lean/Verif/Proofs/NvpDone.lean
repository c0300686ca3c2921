import Verif.Proofs.NvpParse

/-!
# The ends of the components of a header
-/

namespace Mairix
open Spec

theorem cstr_self' {t : Text} (h : 0 ∉ t) : t.takeWhile (· != 0) = t := by
  induction t with
  | nil => rfl
  | cons a t ih => simp at h; simp [Ne.symm h.1, ih h.2]

/-! ## What a terminator does -/

/-- At a terminator. -/
theorem step_term {r : NvpRun} {c : Option UInt8} {s : List NvpState} (h : nvpNext r.state (match c with
    | none => .eos
    | some c => nvpTok c) = s) (hne : s ≠ []) (hk : nvpCopierOf s = .nowhere) (ha : nvpActionOf s = .terminator) {r' : NvpRun} (ht : NvpRun.terminate { r.flush with state := s } = .ok (some r')) :
    ∃ cop, r.step c = .ok (some { r' with lastAction := .nothing, copied := cop }) := by
  have he : NvpRun.copy { r with state := s } = { r.flush with state := s } := by
    simp only [NvpRun.copy, hk, NvpRun.flush]
    cases hl : r.lastCopier <;> simp [hl, hk]
  cases c with
  | none =>
    simp only at h
    exact ⟨r'.copied, by simp only [NvpRun.step, h, if_neg hne, he, ha, ht, bind, Except.bind, Except.map, Option.map]⟩
  | some c =>
    simp only at h
    exact ⟨r'.copied ++ [c], by simp only [NvpRun.step, h, if_neg hne, he, ha, ht, bind, Except.bind, Except.map, Option.map]⟩

theorem combine_means {n v : Text} {l l' : Nvp} (h : Combined n v l l') : nvpCombine (some n) (some v) l = .ok l' := by
  cases h with
  | new hn =>
    induction l with
    | nil => rfl
    | cons e l ih =>
      have h1 := ih (fun r hr => hn r (by simp [hr]))
      cases e with
      | nameValue a b =>
        have : a ≠ n := by rintro rfl; exact hn b (by simp)
        simp [nvpCombine, this, h1, bind, Except.bind]
      | name a => simp [nvpCombine, h1, bind, Except.bind]
      | majorMinor a b => simp [nvpCombine, h1, bind, Except.bind]
  | @old a r b hn =>
    induction a with
    | nil => simp [nvpCombine]
    | cons e l ih =>
      have h1 := ih (fun r hr => hn r (by simp [hr]))
      cases e with
      | nameValue x y =>
        have : x ≠ n := by rintro rfl; exact hn y (by simp)
        simp [nvpCombine, this, h1, bind, Except.bind]
      | name x => simp [nvpCombine, h1, bind, Except.bind]
      | majorMinor x y => simp [nvpCombine, h1, bind, Except.bind]

theorem nvpHex_digit {c : UInt8} {x : Nat} (h : HexDigit c x) : nvpHex c = some x := by
  have hv : x < 16 := by
    rcases h with h | h <;> exact (List.getElem?_eq_some_iff.mp h).1
  have key : ∀ v : Fin 16, (∀ y ∈ (bs "0123456789ABCDEF")[v.1]?, nvpHex y = some v.1) ∧ (∀ y ∈ (bs "0123456789abcdef")[v.1]?, nvpHex y = some v.1) := by decide +kernel
  rcases h with h | h
  · exact (key ⟨x, hv⟩).1 c h
  · exact (key ⟨x, hv⟩).2 c h

theorem percent_means {t d : Text} (h : PercentForm t d) : nvpPercent t = some d := by
  induction h with
  | nil => rfl
  | plain hc _ ih => unfold nvpPercent; simp only [if_neg hc, ih, Option.map]
  | @hex a b x y t d ha hb _ ih => rw [nvpPercent, if_pos rfl]; simp only [nvpHex_digit ha, nvpHex_digit hb, ih, Nat.mul_comm, Option.map]

/-- The last character of a name is not white space. -/
theorem words_last {n : Text} (h : Words n) : n ≠ [] ∧ ∀ c ∈ n.getLast?, isSpace c = false := by
  have hp : ∀ c : UInt8, (isAlnum c = true ∨ c = 0x2d ∨ c = 0x5f) → isSpace c = false := forall_byte (by decide +kernel)
  induction h with
  | one h => exact ⟨h.1, fun c hc => hp c (h.2 c (List.mem_of_getLast? hc))⟩
  | more _ _ _ _ ih =>
    refine ⟨by simp [ih.1], fun c hc => ih.2 c ?_⟩
    rw [List.getLast?_append] at hc
    rw [List.getLast?_eq_some_getLast ih.1] at hc ⊢
    simpa using hc

theorem blank_space {ws : Text} (h : Blank ws) : ∀ c ∈ ws, isSpace c = true := by
  intro c hc
  rcases h c hc with rfl | rfl <;> decide

theorem trim_means {n ws : Text} (hn : Words n) (hw : Blank ws) : nvpTrim (some (n ++ ws)) = .ok n := by
  obtain ⟨h1, h2⟩ := words_last hn
  obtain ⟨m, c, rfl⟩ := List.eq_nil_or_concat n |>.resolve_left h1
  have hc : isSpace c = false := h2 c (by simp)
  have hd : ∀ (ws : Text), (∀ c ∈ ws, isSpace c = true) → ∀ t : Text, (ws ++ c :: t).dropWhile isSpace = c :: t := by
    intro ws
    induction ws with
    | nil => intro _ t; simp [hc]
    | cons a ws ih => intro h t; simp [h a (by simp), ih (fun x hx => h x (by simp [hx])) t]
  have h3 := hd ws.reverse (fun x hx => blank_space hw x (by simpa using hx)) m.reverse
  simp only [nvpTrim]
  rw [if_neg (by simp [hc])]
  simp only [List.reverse_append, List.concat_eq_append, List.reverse_cons, List.reverse_nil, List.nil_append, List.singleton_append] at h3 ⊢
  rw [h3]
  simp

/-! ## Complete components -/

/-- A name is complete. -/
def DoneName (r : NvpRun) (n : Text) (l : Nvp) : Prop :=
  Words n ∧ r.result = l ∧ ∃ ws, Blank ws ∧
  (((r.state = sName ∨ r.state = sName') ∧ r.lastAction = .name ∧ r.lastCopier = .name ∧ ws = [] ∧ r.copied = n) ∨
   (r.state = sNameW ∧ r.lastAction = .nameSpace ∧ r.lastCopier = .name ∧ r.copied = n ++ ws) ∨
   (r.state = sNameE ∧ r.lastCopier = .nowhere ∧ r.name = some (n ++ ws) ∧ (r.lastAction = .nameSpace ∨ r.lastAction = .name ∧ ws = [])))

/-- What a value of this kind does to the list. -/
def ValueEffect : NvpKind → Text → Text → Nvp → Nvp → Prop
  | .normal, n, v, l, l' => l' = l ++ [.nameValue n v]
  | .cont, n, v, l, l' => Combined n v l l'
  | .charset, n, v, l, l' => ∃ d, PercentForm v d ∧ 0 ∉ d ∧ Combined n d l l'
  | .charsetCont, n, v, l, l' => ∃ d, PercentForm v d ∧ 0 ∉ d ∧ Combined n d l l'

/-- A component is complete; the list will be `l'`. -/
def Complete (r : NvpRun) (l' : Nvp) : Prop :=
  (∃ n l, DoneName r n l ∧ l' = l ++ [.name n]) ∨ (∃ m s l, DoneType r m s l ∧ l' = l ++ [.majorMinor m s]) ∨ (∃ k n v l, DoneValue r k n v l ∧ ValueEffect k n v l l')

theorem component_complete {t : Text} {l l' : Nvp} (h : Component t l l') {s : List NvpState} (hs : NvpReady s) {cop : Text} {nm mi va : Option Text} :
    ∃ r, NvpRun.run ⟨s, .nothing, .nowhere, cop, nm, mi, va, l⟩ t = .ok (some r) ∧ Complete r l' := by
  cases h with
  | name hn =>
    obtain ⟨s', hs', h⟩ := run_words (cop := cop) (nm := nm) (mi := mi) (va := va) (l := l) hn hs
    exact ⟨_, h, .inl ⟨t, l, ⟨hn, rfl, [], by simp [Blank], .inl ⟨hs', rfl, rfl, rfl, rfl⟩⟩, rfl⟩⟩
  | @type m s' _ hm hsub =>
    obtain ⟨r, h1, h2⟩ := run_type (cop := cop) (nm := nm) (mi := mi) (va := va) (l := l) hm hsub hs
    exact ⟨r, h1, .inr (.inl ⟨m, s', l, h2, rfl⟩)⟩
  | @plain n ws v _ hn hw hv =>
    obtain ⟨c1, h1⟩ := run_lhs (cop := cop) (nm := nm) (mi := mi) (va := va) (l := l) hn hw hs
    obtain ⟨r, h2, h3⟩ := run_value (rhs_value .normal (by decide)) hv (a := .name) (cop := c1) (n := n) (mi := mi) (va := va) (l := l)
    exact ⟨r, by rw [run_append _ _ _ _ h1, h2], .inr (.inr ⟨_, n, v, l, h3, rfl⟩)⟩
  | @quoted n ws v _ hn hw hv =>
    obtain ⟨c1, h1⟩ := run_lhs (cop := cop) (nm := nm) (mi := mi) (va := va) (l := l) hn hw hs
    obtain ⟨r, h2, h3⟩ := run_quoted (.inl rfl) hv (a := .name) (cop := c1) (n := n) (mi := mi) (va := va) (l := l)
    refine ⟨r, ?_, .inr (.inr ⟨_, n, v, l, h3, rfl⟩)⟩
    rw [show n ++ bs "=" ++ ws ++ bs "\"" ++ v ++ bs "\"" = n ++ bs "=" ++ ws ++ (bs "\"" ++ v ++ bs "\"") by simp, run_append _ _ _ _ h1, h2]
  | @escaped n ws e v _ hn hw he hv =>
    obtain ⟨c1, h1⟩ := run_lhs (cop := cop) (nm := nm) (mi := mi) (va := va) (l := l) hn hw hs
    obtain ⟨r, h2, h3⟩ := run_escaped (.inl rfl) he hv (a := .name) (cop := c1) (n := n) (mi := mi) (va := va) (l := l)
    refine ⟨r, ?_, .inr (.inr ⟨_, n, _, l, h3, rfl⟩)⟩
    rw [show n ++ bs "=" ++ ws ++ bs "\"" ++ 0x5c :: e :: v ++ bs "\"" = n ++ bs "=" ++ ws ++ (bs "\"" ++ 0x5c :: e :: v ++ bs "\"") by simp, run_append _ _ _ _ h1, h2]
  | @contPlain n ds ws ws' v _ _ hn hd hw hw' hv hc =>
    obtain ⟨c1, h1⟩ := run_lhs_cont (cop := cop) (nm := nm) (mi := mi) (va := va) (l := l) hn hd hw hw' hs
    obtain ⟨r, h2, h3⟩ := run_value (rhs_value .cont (by decide)) hv (a := .name) (cop := c1) (n := n) (mi := mi) (va := va) (l := l)
    exact ⟨r, by rw [run_append _ _ _ _ h1, h2], .inr (.inr ⟨_, n, v, l, h3, hc⟩)⟩
  | @contQuoted n ds ws ws' v _ _ hn hd hw hw' hv hc =>
    obtain ⟨c1, h1⟩ := run_lhs_cont (cop := cop) (nm := nm) (mi := mi) (va := va) (l := l) hn hd hw hw' hs
    obtain ⟨r, h2, h3⟩ := run_quoted (.inr rfl) hv (a := .name) (cop := c1) (n := n) (mi := mi) (va := va) (l := l)
    refine ⟨r, ?_, .inr (.inr ⟨_, n, v, l, h3, hc⟩)⟩
    rw [show n ++ bs "*" ++ ds ++ ws ++ bs "=" ++ ws' ++ bs "\"" ++ v ++ bs "\"" = n ++ bs "*" ++ ds ++ ws ++ bs "=" ++ ws' ++ (bs "\"" ++ v ++ bs "\"") by simp, run_append _ _ _ _ h1, h2]
  | @contEscaped n ds ws ws' e v _ _ hn hd hw hw' he hv hc =>
    obtain ⟨c1, h1⟩ := run_lhs_cont (cop := cop) (nm := nm) (mi := mi) (va := va) (l := l) hn hd hw hw' hs
    obtain ⟨r, h2, h3⟩ := run_escaped (.inr rfl) he hv (a := .name) (cop := c1) (n := n) (mi := mi) (va := va) (l := l)
    refine ⟨r, ?_, .inr (.inr ⟨_, n, _, l, h3, hc⟩)⟩
    rw [show n ++ bs "*" ++ ds ++ ws ++ bs "=" ++ ws' ++ bs "\"" ++ 0x5c :: e :: v ++ bs "\"" = n ++ bs "*" ++ ds ++ ws ++ bs "=" ++ ws' ++ (bs "\"" ++ 0x5c :: e :: v ++ bs "\"") by simp, run_append _ _ _ _ h1, h2]
  | @charset n z ws ws' cs v d _ _ hn hz hw hw' hcs hv hp h0 hc =>
    obtain ⟨c1, mi1, h1⟩ := run_lhs_charset (cop := cop) (nm := nm) (mi := mi) (va := va) (l := l) hn hz hw hw' hcs hs
    obtain ⟨r, h2, h3⟩ := run_value (k := .charset) (s0 := nvpSet [.vIn]) (all_toks (by decide +kernel)) hv (a := .name) (cop := c1) (n := n) (mi := mi1) (va := va) (l := l)
    exact ⟨r, by rw [run_append _ _ _ _ h1, h2], .inr (.inr ⟨_, n, v, l, h3, d, hp, h0, hc⟩)⟩
  | @charsetCont n x ws ws' v d _ _ hn hx hx0 hw hw' hv hp h0 hc =>
    obtain ⟨c1, h1⟩ := run_lhs_charsetCont (cop := cop) (nm := nm) (mi := mi) (va := va) (l := l) hn hx hx0 hw hw' hs
    obtain ⟨r, h2, h3⟩ := run_value (rhs_value .charsetCont (by decide)) hv (a := .name) (cop := c1) (n := n) (mi := mi) (va := va) (l := l)
    exact ⟨r, by rw [run_append _ _ _ _ h1, h2], .inr (.inr ⟨_, n, v, l, h3, d, hp, h0, hc⟩)⟩

/-! ## White space after a component -/

theorem value_white : ∀ k, ∀ t : NvpTok, t.white = true → nvpNext (nvpSet [.v1 k]) t = nvpSet [.vOws k] ∧ nvpNext (nvpSet [.vOws k]) t = nvpSet [.vOws k] := by
  intro k; cases k <;> exact all_toks (by decide +kernel)

theorem minor_white : ∀ t : NvpTok, t.white = true → nvpNext (nvpSet [.minor]) t = nvpSet [.compOut] ∧ nvpNext (nvpSet [.compOut]) t = nvpSet [.compOut] := all_toks (by decide +kernel)

theorem compOut_tags : nvpSet [.compOut] ≠ [] ∧ nvpCopierOf (nvpSet [.compOut]) = .nowhere ∧ nvpActionOf (nvpSet [.compOut]) = .nothing := by decide +kernel

theorem white_name {r : NvpRun} {l l' : Nvp} {n : Text} (h : DoneName r n l) (he : l' = l ++ [.name n]) {c : UInt8} (hc : c = 0x20 ∨ c = 0x09 ∨ c = 0x0d) : ∃ r', r.step (some c) = .ok (some r') ∧ Complete r' l' := by
  obtain ⟨s, a, k, cop, nm, mi, va, res⟩ := r
  have ht := tok_white hc
  obtain ⟨hn, hl, ws, hb, h⟩ := h
  subst he
  simp only at hl h
  subst hl
  obtain ⟨g1, g2, g3, g4, g5, g6, g7, g8, g9, g10, g11, g12⟩ := name_tags
  rcases h with ⟨hs, rfl, rfl, rfl, rfl⟩ | ⟨rfl, rfl, rfl, rfl⟩ | ⟨rfl, rfl, rfl, ha⟩
  · rcases hc with hc | hc | hc
    · have hx : nvpNext s (nvpTok c) = sNameW := by rw [tok_blank (.inl hc)]; rcases hs with rfl | rfl; exact name_ws.1; exact name_ws.2.1
      refine ⟨_, step_same hx g11 g5 (by rw [g6]; decide), .inl ⟨cop, res, ⟨hn, rfl, [c], by simp [Blank, hc], .inr (.inl ⟨rfl, by simp [g6], rfl, rfl⟩)⟩, rfl⟩⟩
    · have hx : nvpNext s (nvpTok c) = sNameW := by rw [tok_blank (.inr hc)]; rcases hs with rfl | rfl; exact name_ws.1; exact name_ws.2.1
      refine ⟨_, step_same hx g11 g5 (by rw [g6]; decide), .inl ⟨cop, res, ⟨hn, rfl, [c], by simp [Blank, hc], .inr (.inl ⟨rfl, by simp [g6], rfl, rfl⟩)⟩, rfl⟩⟩
    · have hx : nvpNext s (nvpTok c) = sNameE := by rw [hc, show nvpTok 0x0d = .cr from by decide]; rcases hs with rfl | rfl; exact name_cr.1; exact name_cr.2.1
      refine ⟨_, step_change hx g12 (by rw [g7]; simp) (by rw [g8]; decide), .inl ⟨cop, res, ⟨hn, rfl, [], by simp [Blank], .inr (.inr ⟨rfl, by simp [g7], by simp [NvpRun.flush], by simp [g8]⟩)⟩, rfl⟩⟩
  · rcases hc with hc | hc | hc
    · refine ⟨_, step_same (r := ⟨sNameW, .nameSpace, .name, n ++ ws, nm, mi, va, res⟩) (by rw [tok_blank (.inl hc)]; exact name_ws.2.2) g11 g5 (by rw [g6]; decide),
        .inl ⟨n, res, ⟨hn, rfl, ws ++ [c], by simp [Blank] at hb ⊢; grind, .inr (.inl ⟨rfl, by simp [g6], rfl, by simp⟩)⟩, rfl⟩⟩
    · refine ⟨_, step_same (r := ⟨sNameW, .nameSpace, .name, n ++ ws, nm, mi, va, res⟩) (by rw [tok_blank (.inr hc)]; exact name_ws.2.2) g11 g5 (by rw [g6]; decide),
        .inl ⟨n, res, ⟨hn, rfl, ws ++ [c], by simp [Blank] at hb ⊢; grind, .inr (.inl ⟨rfl, by simp [g6], rfl, by simp⟩)⟩, rfl⟩⟩
    · refine ⟨_, step_change (r := ⟨sNameW, .nameSpace, .name, n ++ ws, nm, mi, va, res⟩) (by rw [hc, show nvpTok 0x0d = .cr from by decide]; exact name_cr.2.2.1) g12 (by rw [g7]; simp) (by rw [g8]; decide),
        .inl ⟨n, res, ⟨hn, rfl, ws, hb, .inr (.inr ⟨rfl, by simp [g7], by simp [NvpRun.flush], by simp [g8]⟩)⟩, rfl⟩⟩
  · have hx : nvpNext sNameE (nvpTok c) = sNameE := by
      rcases hc with rfl | rfl | rfl
      · exact name_cr.2.2.2.2
      · exact name_cr.2.2.2.2
      · exact name_cr.2.2.2.1
    refine ⟨_, step_same (r := ⟨sNameE, a, .nowhere, cop, some (n ++ ws), mi, va, res⟩) hx g12 g7 (by rw [g8]; decide), .inl ⟨n, res, ⟨hn, rfl, ws, hb, .inr (.inr ⟨rfl, rfl, rfl, by simpa [g8] using ha⟩)⟩, rfl⟩⟩

theorem white_type {r : NvpRun} {l l' : Nvp} {m s' : Text} (h : DoneType r m s' l) (he : l' = l ++ [.majorMinor m s']) {c : UInt8} (hc : c = 0x20 ∨ c = 0x09 ∨ c = 0x0d) : ∃ r', r.step (some c) = .ok (some r') ∧ Complete r' l' := by
  obtain ⟨s, a, k, cop, nm, mi, va, res⟩ := r
  have ht := tok_white hc
  obtain ⟨h1, h2, h3, h⟩ := h
  subst he
  simp only at h1 h2 h3 h
  subst h1 h2 h3
  obtain ⟨g1, g2, g3⟩ := compOut_tags
  rcases h with ⟨rfl, rfl, rfl⟩ | ⟨rfl, rfl, rfl⟩
  · refine ⟨_, step_change (r := ⟨nvpSet [.minor], .majorMinor, .minor, cop, some m, mi, va, res⟩) (minor_white _ ht).1 g1 (by rw [g2]; simp) (by rw [g3]; decide), .inr (.inl ⟨m, cop, res, ⟨by simp [g3], rfl, rfl, .inr ⟨rfl, g2, by simp [NvpRun.flush]⟩⟩, rfl⟩)⟩
  · refine ⟨_, step_same (r := ⟨nvpSet [.compOut], .majorMinor, .nowhere, cop, some m, some s', va, res⟩) (minor_white _ ht).2 g1 g2 (by rw [g3]; decide), .inr (.inl ⟨m, s', res, ⟨by simp [g3], rfl, rfl, .inr ⟨rfl, rfl, rfl⟩⟩, rfl⟩)⟩

theorem white_val {r : NvpRun} {l l' : Nvp} {kd : NvpKind} {n v : Text} (h : DoneValue r kd n v l) (he : ValueEffect kd n v l l') {c : UInt8} (hc : c = 0x20 ∨ c = 0x09 ∨ c = 0x0d) : ∃ r', r.step (some c) = .ok (some r') ∧ Complete r' l' := by
  obtain ⟨s, a, k, cop, nm, mi, va, res⟩ := r
  have ht := tok_white hc
  obtain ⟨h1, h2, h3, h⟩ := h
  simp only at h1 h2 h3 h
  subst h1 h2 h3
  obtain ⟨g1, g2, g3, g4, g5, g6⟩ := value_tags kd
  have hne : actOf kd ≠ .nothing ∧ actOf kd ≠ .terminator := by cases kd <;> decide
  rcases h with ⟨rfl, rfl, rfl⟩ | ⟨rfl, rfl, rfl⟩
  · have h := step_change (r := ⟨nvpSet [.v1 kd], actOf kd, .value, cop, some n, mi, va, res⟩) (value_white kd _ ht).1 g6 (by rw [g3]; simp) (by rw [g4]; exact hne.2)
    simp only [g4, if_neg hne.1, g3, NvpRun.flush] at h
    exact ⟨_, h, .inr (.inr ⟨kd, n, cop, res, by simp [DoneValue], he⟩)⟩
  · have hx : nvpNext (nvpSet [.vOws kd]) (nvpTok c) = nvpSet [.vOws kd] := (value_white kd _ ht).2
    have hS : ∃ S, S = nvpSet [.vOws kd] := ⟨_, rfl⟩
    obtain ⟨S, hS⟩ := hS
    rw [← hS] at hx g6 g3 g4 ⊢
    have h := step_same (r := ⟨S, actOf kd, .nowhere, cop, some n, mi, some v, res⟩) hx g6 g3 (by rw [g4]; exact hne.2)
    simp only [g4, if_neg hne.1] at h
    exact ⟨_, h, .inr (.inr ⟨kd, n, v, res, by simp [DoneValue, hS], he⟩)⟩

theorem white_complete {r : NvpRun} {l' : Nvp} (h : Complete r l') {c : UInt8} (hc : c = 0x20 ∨ c = 0x09 ∨ c = 0x0d) : ∃ r', r.step (some c) = .ok (some r') ∧ Complete r' l' := by
  rcases h with ⟨n, l, h, he⟩ | ⟨m, s', l, h, he⟩ | ⟨kd, n, v, l, h, he⟩
  · exact white_name h he hc
  · exact white_type h he hc
  · exact white_val h he hc

theorem whites_complete {ws : Text} (hw : White ws) : ∀ {r : NvpRun} {l' : Nvp}, Complete r l' → ∃ r', r.run ws = .ok (some r') ∧ Complete r' l' := by
  induction ws with
  | nil => intro r l' h; exact ⟨r, rfl, h⟩
  | cons c ws ih =>
    intro r l' h
    obtain ⟨r1, h1, h2⟩ := white_complete h (hw c (by simp))
    obtain ⟨r2, h3, h4⟩ := ih (fun x hx => hw x (by simp [hx])) h2
    exact ⟨r2, by simp only [NvpRun.run, h1, bind, Except.bind]; exact h3, h4⟩

/-! ## The terminator -/

theorem complete_state {r : NvpRun} {l' : Nvp} (h : Complete r l') : nvpNext r.state .semi = nvpSet [.in2, .last] ∧ nvpNext r.state .eos = nvpSet [.out2] := by
  have f1 : ∀ k, (nvpNext (nvpSet [.v1 k]) .semi = nvpSet [.in2, .last] ∧ nvpNext (nvpSet [.v1 k]) .eos = nvpSet [.out2]) ∧ (nvpNext (nvpSet [.vOws k]) .semi = nvpSet [.in2, .last] ∧ nvpNext (nvpSet [.vOws k]) .eos = nvpSet [.out2]) := by
    intro k; cases k <;> decide +kernel
  have f2 : ∀ s ∈ [sName, sName', sNameW, sNameE, nvpSet [.minor], nvpSet [.compOut]], nvpNext s .semi = nvpSet [.in2, .last] ∧ nvpNext s .eos = nvpSet [.out2] := by decide +kernel
  rcases h with ⟨n, l, ⟨_, _, ws, _, h⟩, _⟩ | ⟨m, s', l, ⟨_, _, _, h⟩, _⟩ | ⟨kd, n, v, l, ⟨_, _, _, h⟩, _⟩
  · apply f2
    rcases h with ⟨h | h, _⟩ | ⟨h, _⟩ | ⟨h, _⟩ <;> simp [h]
  · apply f2
    rcases h with ⟨h, _⟩ | ⟨h, _⟩ <;> simp [h]
  · rcases h with ⟨h, _⟩ | ⟨h, _⟩ <;> rw [h]
    · exact (f1 kd).1
    · exact (f1 kd).2

theorem complete_terminate {r : NvpRun} {l' : Nvp} (h : Complete r l') (s : List NvpState) : ∃ r', NvpRun.terminate { r.flush with state := s } = .ok (some r') ∧ r'.result = l' ∧ r'.state = s ∧ r'.lastCopier = .nowhere := by
  obtain ⟨st, a, k, cop, nm, mi, va, res⟩ := r
  have cset : ∀ {n v : Text} {l' : Nvp} {kd : NvpKind} {cop : Text} {mi : Option Text} {res : Nvp}, kd ≠ .normal → ValueEffect kd n v res l' →
      ∃ r', NvpRun.terminate ⟨s, actOf kd, .nowhere, cop, some n, mi, some v, res⟩ = .ok (some r') ∧ r'.result = l' ∧ r'.state = s ∧ r'.lastCopier = .nowhere := by
    intro n v l' kd cop mi res hk he
    have tk : ∀ (r : NvpRun) (l : Nvp), (r.took l).result = l ∧ (r.took l).state = r.state ∧ (r.took l).lastCopier = r.lastCopier := by
      intro r l
      unfold NvpRun.took
      split <;> simp
    cases kd with
    | normal => exact absurd rfl hk
    | cont =>
      simp only [actOf, NvpRun.terminate, combine_means he, bind, Except.bind]
      exact ⟨_, rfl, (tk _ _).1, (tk _ _).2.1, (tk _ _).2.2⟩
    | charset =>
      obtain ⟨d, h1, h2, h3⟩ := he
      have h4 := combine_means h3
      rw [← cstr_self' h2] at h4
      simp only [actOf, NvpRun.terminate, percent_means h1, h4, bind, Except.bind]
      exact ⟨_, rfl, (tk _ _).1, (tk _ _).2.1, (tk _ _).2.2⟩
    | charsetCont =>
      obtain ⟨d, h1, h2, h3⟩ := he
      have h4 := combine_means h3
      rw [← cstr_self' h2] at h4
      simp only [actOf, NvpRun.terminate, percent_means h1, h4, bind, Except.bind]
      exact ⟨_, rfl, (tk _ _).1, (tk _ _).2.1, (tk _ _).2.2⟩
  rcases h with ⟨n, l, ⟨hn, hl, ws, hb, h⟩, rfl⟩ | ⟨m, s', l, ⟨h1, h2, h3, h⟩, rfl⟩ | ⟨kd, n, v, l, ⟨h1, h2, h3, h⟩, he⟩
  · simp only at hl h
    subst hl
    rcases h with ⟨hs, rfl, rfl, rfl, rfl⟩ | ⟨rfl, rfl, rfl, rfl⟩ | ⟨rfl, rfl, rfl, rfl | ⟨rfl, rfl⟩⟩
    · exact ⟨_, rfl, rfl, rfl, rfl⟩
    · simp only [NvpRun.flush, NvpRun.terminate, trim_means hn hb, bind, Except.bind]; exact ⟨_, rfl, rfl, rfl, rfl⟩
    · simp only [NvpRun.flush, NvpRun.terminate, trim_means hn hb, bind, Except.bind]; exact ⟨_, rfl, rfl, rfl, rfl⟩
    · refine ⟨_, rfl, ?_, rfl, rfl⟩; simp [NvpRun.flush]
  · simp only at h1 h2 h3 h
    subst h1 h2 h3
    rcases h with ⟨rfl, rfl, rfl⟩ | ⟨rfl, rfl, rfl⟩
    · exact ⟨_, rfl, rfl, rfl, rfl⟩
    · exact ⟨_, rfl, rfl, rfl, rfl⟩
  · simp only at h1 h2 h3 h
    subst h1 h2 h3
    rcases h with ⟨rfl, rfl, rfl⟩ | ⟨rfl, rfl, rfl⟩
    · by_cases hk : kd = .normal
      · subst hk; cases he; exact ⟨_, rfl, rfl, rfl, rfl⟩
      · exact cset hk he
    · by_cases hk : kd = .normal
      · subst hk; cases he; exact ⟨_, rfl, rfl, rfl, rfl⟩
      · exact cset hk he

/-- A semicolon after a component. -/
theorem complete_semi {r : NvpRun} {l' : Nvp} (h : Complete r l') : ∃ cop nm mi va, r.run (bs ";") = .ok (some ⟨nvpSet [.in2, .last], .nothing, .nowhere, cop, nm, mi, va, l'⟩) := by
  have f : nvpSet [.in2, .last] ≠ [] ∧ nvpCopierOf (nvpSet [.in2, .last]) = .nowhere ∧ nvpActionOf (nvpSet [.in2, .last]) = .terminator := by decide +kernel
  obtain ⟨r', h1, h2, h3, h4⟩ := complete_terminate h (nvpSet [.in2, .last])
  obtain ⟨cop, h5⟩ := step_term (c := some 0x3b) (by simp only; rw [show nvpTok 0x3b = .semi from by decide]; exact (complete_state h).1) f.1 f.2.1 f.2.2 h1
  refine ⟨cop, r'.name, r'.minor, r'.value, ?_⟩
  rw [show bs ";" = [0x3b] from by decide]
  simp only [NvpRun.run, h5, bind, Except.bind, h2, h3, h4]

/-- The end of the header after a component. -/
theorem complete_end {r : NvpRun} {l' : Nvp} (h : Complete r l') : r.loop [] = .ok (some l') := by
  have f : nvpSet [.out2] ≠ [] ∧ nvpCopierOf (nvpSet [.out2]) = .nowhere ∧ nvpActionOf (nvpSet [.out2]) = .terminator := by decide +kernel
  obtain ⟨r', h1, h2, h3, h4⟩ := complete_terminate h (nvpSet [.out2])
  obtain ⟨cop, h5⟩ := step_term (c := none) (complete_state h).2 f.1 f.2.1 f.2.2 h1
  simp only [NvpRun.loop, h5, bind, Except.bind, Option.map, h2]

/-- The whole header. -/
theorem params_loop {t : Text} {l l' : Nvp} (h : Params t l l') : ∀ {s : List NvpState}, NvpReady s → ∀ {cop : Text} {nm mi va : Option Text}, NvpRun.loop ⟨s, .nothing, .nowhere, cop, nm, mi, va, l⟩ t = .ok (some l') := by
  have semi_end : ∀ {ws : Text}, White ws → ∀ {cop : Text} {nm mi va : Option Text} {l : Nvp}, NvpRun.loop ⟨nvpSet [.in2, .last], .nothing, .nowhere, cop, nm, mi, va, l⟩ ws = .ok (some l) := by
    intro ws hw cop nm mi va l
    have f1 : ∀ s ∈ [nvpSet [.in2, .last], nvpSet [.main, .last]], nvpNext s .eos = nvpSet [.out2] := by decide +kernel
    have f2 : ∀ t : NvpTok, t.white = true → nvpNext (nvpSet [.in2, .last]) t = nvpSet [.main, .last] ∧ nvpNext (nvpSet [.main, .last]) t = nvpSet [.main, .last] := all_toks (by decide +kernel)
    have f3 : nvpSet [.main, .last] ≠ [] ∧ nvpCopierOf (nvpSet [.main, .last]) = .nowhere ∧ nvpActionOf (nvpSet [.main, .last]) = .nothing := by decide +kernel
    have f : nvpSet [.out2] ≠ [] ∧ nvpCopierOf (nvpSet [.out2]) = .nowhere ∧ nvpActionOf (nvpSet [.out2]) = .terminator := by decide +kernel
    have fin : ∀ s ∈ [nvpSet [.in2, .last], nvpSet [.main, .last]], ∀ cop, NvpRun.loop ⟨s, .nothing, .nowhere, cop, nm, mi, va, l⟩ [] = .ok (some l) := by
      intro s hs cop
      obtain ⟨cop', h5⟩ := step_term (r := ⟨s, .nothing, .nowhere, cop, nm, mi, va, l⟩) (c := none) (f1 s hs) f.1 f.2.1 f.2.2 rfl
      simp only [NvpRun.loop, h5, bind, Except.bind, Option.map, NvpRun.flush]
    cases ws with
    | nil => exact fin _ (by simp) _
    | cons c ws =>
      have h1 := run_enter_same (s0 := nvpSet [.in2, .last]) (s := nvpSet [.main, .last]) (k := .nowhere) (a0 := .nothing) (a := .nothing) (t := c :: ws) (fun x hx => (f2 _ (tok_white (hw x hx))).1)
        (fun x hx => (f2 _ (tok_white (hw x hx))).2) (by simp) f3.1 f3.2.1 (by rw [f3.2.2]; rfl) (by rw [f3.2.2]; decide) (cop := cop) (nm := nm) (mi := mi) (va := va) (l := l)
      have h2 := run_loop _ _ _ h1 []
      rw [List.append_nil] at h2
      rw [h2]
      exact fin _ (by simp) _
  have first : ∀ {ws c ws' : Text} {l l' : Nvp}, White ws → Component c l l' → White ws' → ∀ {s : List NvpState}, NvpReady s → ∀ {cop : Text} {nm mi va : Option Text},
      ∃ r, NvpRun.run ⟨s, .nothing, .nowhere, cop, nm, mi, va, l⟩ (ws ++ c ++ ws') = .ok (some r) ∧ Complete r l' := by
    intro ws c ws' l l' hw hc hw' s hs cop nm mi va
    obtain ⟨s1, cop1, hs1, h1⟩ := run_ready_white (cop := cop) (nm := nm) (mi := mi) (va := va) (l := l) hw hs
    obtain ⟨r1, h2, h3⟩ := component_complete (cop := cop1) (nm := nm) (mi := mi) (va := va) hc hs1
    obtain ⟨r2, h4, h5⟩ := whites_complete hw' h3
    exact ⟨r2, by rw [List.append_assoc, run_append _ _ _ _ h1, run_append _ _ _ _ h2, h4], h5⟩
  induction h with
  | last hw hc hw' =>
    intro s hs cop nm mi va
    obtain ⟨r, h1, h2⟩ := first (cop := cop) (nm := nm) (mi := mi) (va := va) hw hc hw' hs
    have := run_loop _ _ _ h1 []
    rw [List.append_nil] at this
    rw [this, complete_end h2]
  | lastSemi hw hc hw' hw'' =>
    intro s hs cop nm mi va
    obtain ⟨r, h1, h2⟩ := first (cop := cop) (nm := nm) (mi := mi) (va := va) hw hc hw' hs
    obtain ⟨_, _, _, _, h3⟩ := complete_semi h2
    rw [List.append_assoc, run_loop _ _ _ h1, run_loop _ _ _ h3, semi_end hw'']
  | more hw hc hw' _ ih =>
    intro s hs cop nm mi va
    obtain ⟨r, h1, h2⟩ := first (cop := cop) (nm := nm) (mi := mi) (va := va) hw hc hw' hs
    obtain ⟨_, _, _, _, h3⟩ := complete_semi h2
    rw [List.append_assoc, run_loop _ _ _ h1, run_loop _ _ _ h3, ih (.inr (.inr rfl))]

end Mairix
