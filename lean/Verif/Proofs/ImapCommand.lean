import Verif.Spec.ImapCommand
import Verif.Proofs.ImapLine

/-!
# Commands: what a server understands, the buffer they are made in, and the answers to them
-/

namespace Mairix
open Spec

/-! ## The server's view -/

theorem readQuoted_plain : ∀ (s rest : Text), (∀ c ∈ s, needsLiteral c = false ∧ c ≠ 92) → readQuoted (s ++ 34 :: rest) = some (s, rest)
  | [], rest, _ => by unfold readQuoted; simp
  | c :: s, rest, h => by
    obtain ⟨h1, h2⟩ := h c (List.mem_cons_self ..)
    simp only [needsLiteral, Bool.or_eq_false_iff, decide_eq_false_iff_not, beq_eq_false_iff_ne] at h1
    have h13 : c ≠ 13 := by rintro rfl; exact absurd h1.1.1 (by decide)
    have h10 : c ≠ 10 := by rintro rfl; exact absurd h1.1.1 (by decide)
    have ih := readQuoted_plain s rest fun c hc => h c (List.mem_cons_of_mem _ hc)
    unfold readQuoted
    simp only [List.cons_append, h1.1.2, h2, h13, h10, or_self, if_false, ih, Option.map_some]

theorem digits_takeWhile {n : Nat} {c : UInt8} (hc : isDigit c = false) (r : Text) :
    (digits n ++ c :: r).takeWhile isDigit = digits n ∧ (digits n ++ c :: r).dropWhile isDigit = c :: r := by
  constructor
  · rw [List.takeWhile_append_of_pos (fun x hx => isDigit_digits hx)]; simp [hc]
  · rw [List.dropWhile_append_of_pos (fun x hx => isDigit_digits hx)]; simp [hc]

theorem readLiteral_digits (s rest : Text) : readLiteral (digits s.length ++ 43 :: 125 :: 13 :: 10 :: (s ++ rest)) = some (s, rest) := by
  obtain ⟨h1, h2⟩ := digits_takeWhile (n := s.length) (c := 43) (by decide) (125 :: 13 :: 10 :: (s ++ rest))
  unfold readLiteral
  rw [h1, h2]
  simp [decimal_digits]

theorem word_takeWhile {w : Text} (hw : ∀ c ∈ w, wordByte c = true) {d : UInt8} (hd : wordByte d = false) (rest : Text) :
    (w ++ d :: rest).takeWhile wordByte = w ∧ (w ++ d :: rest).dropWhile wordByte = d :: rest := by
  constructor
  · rw [List.takeWhile_append_of_pos hw]; simp [hd]
  · rw [List.dropWhile_append_of_pos hw]; simp [hd]

theorem formatString_ne (s : Text) : 1 ≤ (formatString s).length := by
  unfold formatString
  split <;> simp [bs] <;> omega

theorem formatTok_ne {t : ImapTok} (h : CmdTok t) : 1 ≤ (formatTok t).length := by
  cases t with
  | atom s => simp only [CmdTok] at h; exact List.length_pos_iff.2 h.1
  | string s => exact formatString_ne s
  | list l => simp [formatTok]
  | sqlist l => simp [formatTok]

/-- The byte behind an argument. -/
def argEnd (d : UInt8) : Prop := d = 32 ∨ d = 13 ∨ d = 41

theorem argEnd.notWord {d : UInt8} (h : argEnd d) : wordByte d = false := by
  rcases h with rfl | rfl | rfl <;> decide

theorem readArg_string {s : Text} (hu : 92 ∈ s → ∃ c ∈ s, c < 32 ∨ c = 34 ∨ 126 < c) (fuel : Nat) (rest : Text) :
    readArg (fuel + 1) (formatString s ++ rest) = some (.string s, rest) := by
  unfold formatString
  split
  · have := readLiteral_digits s rest
    simp only [bs, List.append_assoc]
    show readArg (fuel + 1) (123 :: (digits s.length ++ 43 :: 125 :: 13 :: 10 :: (s ++ rest))) = _
    simp only [readArg, this, Option.map_some]
    rfl
  · rename_i h
    have hp : ∀ c ∈ s, needsLiteral c = false ∧ c ≠ 92 := by
      have h' : ∀ c ∈ s, needsLiteral c = false := by
        intro c hc
        cases hn : needsLiteral c with
        | false => rfl
        | true => exact absurd (List.any_eq_true.2 ⟨c, hc, hn⟩) h
      intro c hc
      refine ⟨h' c hc, ?_⟩
      rintro rfl
      obtain ⟨e, he, hb⟩ := hu hc
      have := h' e he
      simp only [needsLiteral, Bool.or_eq_false_iff, decide_eq_false_iff_not, beq_eq_false_iff_ne] at this
      rcases hb with hb | hb | hb
      · exact this.1.1 hb
      · exact this.1.2 hb
      · exact this.2 hb
    have := readQuoted_plain s rest hp
    simp only [List.append_assoc]
    show readArg (fuel + 1) (34 :: (s ++ 34 :: rest)) = _
    simp only [readArg, this, Option.map_some, if_true]

mutual
theorem readArg_format : ∀ (t : ImapTok), CmdTok t → Unescaped t → ∀ (fuel : Nat), 2 * (formatTok t).length ≤ fuel → ∀ (d : UInt8) (rest : Text), argEnd d →
    readArg fuel (formatTok t ++ d :: rest) = some (t, d :: rest)
  | .atom s, h, _, fuel, hf, d, rest, hd => by
    simp only [CmdTok] at h
    obtain ⟨hne, hw⟩ := h
    obtain ⟨h1, h2⟩ := word_takeWhile hw hd.notWord rest
    cases s with
    | nil => exact absurd rfl hne
    | cons c s =>
      have hc := hw c (List.mem_cons_self ..)
      have h34 : c ≠ 34 := by rintro rfl; exact absurd hc (by decide)
      have h123 : c ≠ 123 := by rintro rfl; exact absurd hc (by decide)
      have h40 : c ≠ 40 := by rintro rfl; exact absurd hc (by decide)
      cases fuel with
      | zero => simp [formatTok] at hf
      | succ fuel =>
        simp only [formatTok]
        simp only [List.cons_append] at h1 h2
        simp only [List.cons_append, readArg, h34, h123, h40, if_false]
        rw [h1, h2]
        simp
  | .string s, h, hu, fuel, hf, d, rest, _ => by
    cases fuel with
    | zero => simp only [formatTok] at hf; have := formatString_ne s; omega
    | succ fuel => exact readArg_string hu fuel (d :: rest)
  | .list [], _, _, fuel, hf, d, rest, _ => by
    cases fuel with
    | zero => simp [formatTok] at hf
    | succ fuel =>
      simp only [formatTok, formatToks, List.append_nil]
      show readArg (fuel + 1) (40 :: 41 :: d :: rest) = _
      simp [readArg]
  | .list (t :: ts), h, hu, fuel, hf, d, rest, _ => by
    simp only [CmdTok] at h
    simp only [Unescaped] at hu
    cases fuel with
    | zero => simp [formatTok] at hf
    | succ fuel =>
      simp only [formatTok, List.length_append, List.length_singleton] at hf
      have ih := readArgs_format t ts h hu fuel (by omega) 41 (d :: rest) (Or.inr (Or.inr rfl)) (by decide)
      simp only [formatTok]
      show readArg (fuel + 1) (40 :: ((formatToks (t :: ts) ++ [41]) ++ d :: rest)) = _
      have e : (formatToks (t :: ts) ++ [41]) ++ d :: rest = formatToks (t :: ts) ++ 41 :: d :: rest := by simp
      rw [e]
      have hh : (formatToks (t :: ts) ++ 41 :: d :: rest).head? ≠ some 41 := by
        intro hh
        -- an argument does not begin with a closing parenthesis
        have hr : readArgs fuel (formatToks (t :: ts) ++ 41 :: d :: rest) = none := by
          cases hl : formatToks (t :: ts) ++ 41 :: d :: rest with
          | nil => simp [hl] at hh
          | cons x xs =>
            rw [hl] at hh
            simp only [List.head?_cons, Option.some.injEq] at hh
            subst hh
            cases fuel with
            | zero => rfl
            | succ f =>
              cases f with
              | zero => rfl
              | succ f => simp [readArgs, readArg, wordByte]
        rw [ih] at hr; exact absurd hr (by simp)
      simp only [readArg, hh, ih, if_true, if_false]
      rfl
  | .sqlist l, h, _, _, _, _, _, _ => by simp only [CmdTok] at h

theorem readArgs_format : ∀ (t : ImapTok) (ts : List ImapTok), CmdToks (t :: ts) → Unescapeds (t :: ts) → ∀ (fuel : Nat),
    2 * (formatToks (t :: ts)).length + 1 ≤ fuel → ∀ (d : UInt8) (rest : Text), argEnd d → d ≠ 32 →
    readArgs fuel (formatToks (t :: ts) ++ d :: rest) = some (t :: ts, d :: rest)
  | t, [], h, hu, fuel, hf, d, rest, hd, hd' => by
    cases fuel with
    | zero => omega
    | succ fuel =>
      simp only [formatToks] at hf ⊢
      have := readArg_format t h.1 hu.1 fuel (by omega) d rest hd
      simp [readArgs, this, hd']
  | t, t' :: ts, h, hu, fuel, hf, d, rest, hd, hd' => by
    cases fuel with
    | zero => omega
    | succ fuel =>
      simp only [formatToks, List.length_append, List.length_singleton] at hf
      simp only [formatToks]
      have hne := formatTok_ne h.1
      have e : formatTok t ++ [32] ++ formatToks (t' :: ts) ++ d :: rest = formatTok t ++ 32 :: (formatToks (t' :: ts) ++ d :: rest) := by simp
      have h1 := readArg_format t h.1 hu.1 fuel (by omega) 32 (formatToks (t' :: ts) ++ d :: rest) (Or.inl rfl)
      have h2 := readArgs_format t' ts h.2 hu.2 fuel (by omega) d rest hd hd'
      rw [e]
      simp only [readArgs, h1, List.head?_cons, if_true, List.tail_cons, h2, Option.map_some]
end

theorem wordByte_digit {c : UInt8} (h : isDigit c = true) : wordByte c = true := by
  simp only [isDigit, Bool.and_eq_true, decide_eq_true_eq, UInt8.le_iff_toNat_le] at h
  have h1 : 48 ≤ c.toNat := h.1
  have h2 : c.toNat ≤ 57 := h.2
  have hne : ∀ d : UInt8, d.toNat < 48 ∨ 57 < d.toNat → c ≠ d := by
    rintro d hd rfl; omega
  simp only [wordByte, Bool.and_eq_true, decide_eq_true_eq, bne_iff_ne, UInt8.lt_iff_toNat_lt]
  refine ⟨⟨⟨⟨⟨?_, hne _ (by decide)⟩, hne _ (by decide)⟩, hne _ (by decide)⟩, hne _ (by decide)⟩, ?_⟩
  · show 32 < _; omega
  · show _ < 127; omega

theorem understood_command {n : Nat} {cmd : List ImapTok} (hne : cmd ≠ []) (h : CmdToks cmd) (hu : Unescapeds cmd) (rest : Text) :
    understood (commandBytes n cmd ++ rest) = some (bs "t" ++ digits n, cmd, rest) := by
  have hw : ∀ c ∈ bs "t" ++ digits n, wordByte c = true := by
    intro c hc
    rcases List.mem_append.1 hc with hc | hc
    · have : ∀ c ∈ bs "t", wordByte c = true := by decide
      exact this c hc
    · exact wordByte_digit (isDigit_digits hc)
  have e : commandBytes n cmd ++ rest = (bs "t" ++ digits n) ++ 32 :: (formatToks cmd ++ 13 :: 10 :: rest) := by simp [commandBytes]
  obtain ⟨h1, h2⟩ := word_takeWhile hw (d := 32) (by decide) (formatToks cmd ++ 13 :: 10 :: rest)
  unfold understood
  rw [e, h1, h2]
  cases cmd with
  | nil => exact absurd rfl hne
  | cons t ts =>
    have := readArgs_format t ts h hu (2 * (formatToks (t :: ts) ++ 13 :: 10 :: rest).length + 2) (by simp; omega) 13 (10 :: rest)
      (Or.inr (Or.inl rfl)) (by decide)
    simp only [this]

/-! ## The buffer -/

theorem digits_int {n : Nat} (h : n ≤ 2147483647) : (digits n).length ≤ 10 :=
  (digits_length_le (by decide)).2 (by omega)

mutual
theorem formatTok_le : ∀ (t : ImapTok), CmdTok t → (formatTok t).length ≤ tokLen t
  | .atom s, _ => Nat.le_refl _
  | .string s, h => by
    simp only [CmdTok] at h
    have := digits_int h
    simp only [formatTok, formatString, tokLen]
    split <;> simp [bs] <;> omega
  | .list l, h => by
    have := formatToks_le l (by simpa only [CmdTok] using h)
    simp only [formatTok, tokLen, List.length_append, List.length_singleton]; omega
  | .sqlist l, h => by simp only [CmdTok] at h

theorem formatToks_le : ∀ (l : List ImapTok), CmdToks l → (formatToks l).length ≤ toksLen l
  | [], _ => Nat.le_refl _
  | [t], h => by
    have := formatTok_le t h.1
    simp only [formatToks, toksLen]; omega
  | t :: t' :: ts, h => by
    have h1 := formatTok_le t h.1
    have h2 := formatToks_le (t' :: ts) h.2
    simp only [formatToks, List.length_append, List.length_singleton]
    rw [toksLen]
    omega
end

theorem commandBytes_le {n : Nat} (hn : n ≤ 2147483647) {cmd : List ImapTok} (h : CmdToks cmd) : (commandBytes n cmd).length ≤ commandAlloc cmd := by
  have h1 := formatToks_le cmd h
  have h2 := digits_int hn
  have : (bs "t").length = 1 := by decide
  simp only [commandBytes, commandAlloc, List.length_append, List.length_cons, List.length_nil, this]
  omega

/-! ## The answers -/

theorem waitLine_response {ll : ImapConn} {r : Response} {rest : Text} (hr : ∀ x ∈ ll.reads, x ≠ []) (hw : r.Wf)
    (ht : ∀ n, r.tag = some n → n + 1 = ll.next ∧ n ≤ 2147483647) (hs : ll.stream = r.bytes ++ rest) :
    ∃ ll', waitLine ll = .ok (some r.line, ll') ∧ ll'.stream = rest ∧ ll'.next = ll.next ∧ ll'.sent = ll.sent ∧ ∀ x ∈ ll'.reads, x ≠ [] := by
  have h1 := waitLoop_stream ll.next ll.reads {} ll.buf hr
  have h2 := feedBuf_response hw ht rest
  rw [← hs] at h2
  unfold ImapConn.stream at h2
  rw [h2] at h1
  obtain ⟨buf', reads', h3, h4, h5⟩ := h1
  refine ⟨{ ll with buf := buf', reads := reads' }, ?_, h4, rfl, rfl, h5⟩
  unfold waitLine
  rw [h3]; rfl

theorem response_bytes_pos (r : Response) : 1 ≤ r.bytes.length := by simp [Response.bytes]; omega

theorem collectLines_succ (fuel : Nat) (ll : ImapConn) (acc : List ImapLine) :
    collectLines (fuel + 1) ll acc = (waitLine ll).bind fun x =>
      match x.1 with
      | none => .ok (none, x.2)
      | some l => if l.kind = .tagged then .ok (some (acc ++ [l]), x.2) else collectLines fuel x.2 (acc ++ [l]) := rfl

theorem collectLines_responses : ∀ (rs : List Response) (last : Response) (fuel : Nat) (ll : ImapConn) (acc : List ImapLine) (rest : Text),
    (∀ x ∈ ll.reads, x ≠ []) → (∀ r ∈ rs, r.Wf ∧ r.tag = none) → last.Wf → (∃ n, last.tag = some n ∧ n + 1 = ll.next ∧ n ≤ 2147483647) →
    ll.stream = (rs.map Response.bytes).flatten ++ last.bytes ++ rest → ll.stream.length < fuel →
    ∃ ll', collectLines fuel ll acc = .ok (some (acc ++ rs.map Response.line ++ [last.line]), ll') ∧ ll'.stream = rest ∧ ll'.next = ll.next ∧
      ll'.sent = ll.sent ∧ ∀ x ∈ ll'.reads, x ≠ []
  | [], last, fuel, ll, acc, rest, hr, _, hw, ⟨n, ht1, ht2, ht3⟩, hs, hf => by
    cases fuel with
    | zero => omega
    | succ fuel =>
      obtain ⟨ll', h1, h2, h3, h4, h5⟩ := waitLine_response (rest := rest) hr hw (by
        intro m hm; rw [ht1] at hm; cases hm; exact ⟨ht2, ht3⟩) (by simpa using hs)
      refine ⟨ll', ?_, h2, h3, h4, h5⟩
      rw [collectLines_succ, h1]
      simp [Except.bind, Response.line, ht1]
  | r :: rs, last, fuel, ll, acc, rest, hr, hrs, hw, ht, hs, hf => by
    cases fuel with
    | zero => omega
    | succ fuel =>
      obtain ⟨hrw, hrt⟩ := hrs r (List.mem_cons_self ..)
      obtain ⟨ll1, h1, h2, h3, h4, h5⟩ := waitLine_response (rest := (rs.map Response.bytes).flatten ++ last.bytes ++ rest) hr hrw
        (by intro m hm; rw [hrt] at hm; cases hm) (by simpa using hs)
      have hlen : ll1.stream.length < fuel := by
        have := response_bytes_pos r
        have h6 := congrArg List.length hs
        rw [h2]
        simp only [List.map_cons, List.flatten_cons, List.length_append] at h6 ⊢
        omega
      obtain ⟨ll', g1, g2, g3, g4, g5⟩ := collectLines_responses rs last fuel ll1 (acc ++ [r.line]) rest h5
        (fun x hx => hrs x (List.mem_cons_of_mem _ hx)) hw (by rw [h3]; exact ht) h2 hlen
      refine ⟨ll', ?_, g2, by rw [g3, h3], by rw [g4, h4], g5⟩
      rw [collectLines_succ, h1]
      have hk : r.line.kind ≠ .tagged := by simp [Response.line, hrt]
      simp only [Except.bind, hk, if_false]
      rw [g1]; simp

/-! ## Whatever the server sends -/

/-- The buffer of the token that is being read is large enough. -/
structure WaitState.Fits (s : WaitState) : Prop where
  fits : ∀ b, s.cur = some b → b.text.length ≤ b.max ∧ 1 ≤ b.max
  quoted : s.linestate = .quoted → s.cur ≠ none
  literal : s.linestate = .literal → ∃ b, s.cur = some b ∧ b.text.length < b.max

theorem grow_cur (s : WaitState) (t : ImapTok) : (s.grow t).cur = s.cur ∧ (s.grow t).linestate = s.linestate := by
  unfold WaitState.grow; split <;> simp

theorem up_cur (s : WaitState) : s.up.cur = s.cur ∧ s.up.linestate = s.linestate := by
  unfold WaitState.up; split
  · simp
  · exact grow_cur _ _

theorem flush_fits {s : WaitState} (h : s.Fits) : ∃ s', s.flush = .ok s' ∧ s'.cur = none ∧ s'.linestate = s.linestate := by
  unfold WaitState.flush
  cases hc : s.cur with
  | none => exact ⟨s, rfl, hc, rfl⟩
  | some b =>
    have := (h.fits b hc).1
    refine ⟨{ s.grow (.atom b.text) with cur := none }, ?_, rfl, (grow_cur _ _).2⟩
    simp only [TokBuf.finish, Nat.lt_succ_of_le this, if_true]
    rfl

theorem endString_fits {s : WaitState} {b : TokBuf} (h : b.text.length ≤ b.max) : ∃ s', s.endString b = .ok s' ∧ s'.Fits := by
  refine ⟨{ s.grow (.string b.text) with cur := none, linestate := .things }, ?_, ?_⟩
  · simp only [WaitState.endString, TokBuf.finish, Nat.lt_succ_of_le h, if_true]; rfl
  · constructor <;> simp

theorem extend_fits {b : TokBuf} {c : UInt8} (h : b.text.length ≤ b.max ∧ 1 ≤ b.max) :
    ∃ b', b.extend c = .ok b' ∧ b'.text.length ≤ b'.max ∧ 1 ≤ b'.max := by
  unfold TokBuf.extend
  have hlt : b.text.length < (if b.text.length ≥ b.max then b.max * 2 else b.max) + 1 := by split <;> omega
  simp only [hlt, if_true]
  refine ⟨_, rfl, ?_, ?_⟩ <;> simp only [List.length_append, List.length_singleton] <;> split <;> omega

theorem fits_of_none {s : WaitState} (h : s.cur = none) (h1 : s.linestate ≠ .quoted) (h2 : s.linestate ≠ .literal) : s.Fits :=
  ⟨by simp [h], fun h => absurd h h1, fun h => absurd h h2⟩

theorem addDigit_cases (n : Nat) (c : UInt8) : (∃ m, addDigit n c = .ok m) ∨ addDigit n c = .error .overflow := by
  unfold addDigit; simp only; split
  · exact Or.inl ⟨_, rfl⟩
  · exact Or.inr rfl

/-- The outcomes of a step that are safe. -/
def SafeStep (r : Res WaitState) : Prop := (∃ s', r = .ok s' ∧ s'.Fits) ∨ r = .error .overflow

theorem feedThing_safe {s : WaitState} (h : s.Fits) (hs : s.linestate = .things) (c : UInt8) : SafeStep (feedThing s c) := by
  have keep : ∀ l, ({ s with lists := l } : WaitState).Fits := fun l => ⟨h.fits, h.quoted, h.literal⟩
  unfold feedThing
  split
  · exact Or.inl ⟨_, rfl, by constructor <;> simp⟩
  split
  · refine Or.inl ⟨_, rfl, ⟨h.fits, ?_, ?_⟩⟩ <;> intro hh <;> cases hh
  split
  · exact Or.inl ⟨_, rfl, keep _⟩
  split
  · exact Or.inl ⟨_, rfl, keep _⟩
  split
  · obtain ⟨s', h1, h2, h3⟩ := flush_fits h
    rw [h1]
    refine Or.inl ⟨_, rfl, fits_of_none ?_ ?_ ?_⟩
    · rw [(up_cur s').1, h2]
    · rw [(up_cur s').2, h3, hs]; decide
    · rw [(up_cur s').2, h3, hs]; decide
  split
  · obtain ⟨s', h1, h2, h3⟩ := flush_fits h
    exact Or.inl ⟨s', h1, fits_of_none h2 (by rw [h3, hs]; decide) (by rw [h3, hs]; decide)⟩
  · have hb : (s.cur.getD ⟨[], 25⟩).text.length ≤ (s.cur.getD ⟨[], 25⟩).max ∧ 1 ≤ (s.cur.getD ⟨[], 25⟩).max := by
      cases hc : s.cur with
      | none => simp
      | some b => exact h.fits b hc
    obtain ⟨b', h1, h2⟩ := extend_fits (c := c) hb
    rw [h1]
    refine Or.inl ⟨_, rfl, ⟨?_, ?_, ?_⟩⟩
    · intro b hb'; simp only [Option.some.injEq] at hb'; subst hb'; exact h2
    · intro _; simp
    · intro hh; simp only [hs] at hh; cases hh

theorem feedSwitch_safe {s : WaitState} (h : s.Fits) (next : Nat) (c : UInt8) : SafeStep (feedSwitch next s c) := by
  -- states without a buffer of their own
  have move : ∀ (st : LineState) (n : Nat) (l : Option LineKind), st ≠ .quoted → st ≠ .literal →
      ({ s with linestate := st, recvTag := n, line := l } : WaitState).Fits :=
    fun st n l h1 h2 => ⟨h.fits, fun hh => absurd hh h1, fun hh => absurd hh h2⟩
  unfold feedSwitch
  split
  · split
    · exact Or.inl ⟨_, rfl, move .star s.recvTag s.line (by decide) (by decide)⟩
    split
    · exact Or.inl ⟨_, rfl, move .tag 0 s.line (by decide) (by decide)⟩
    split
    · exact Or.inl ⟨_, rfl, move .discard s.recvTag (some .continuation) (by decide) (by decide)⟩
    · exact Or.inl ⟨_, rfl, move .discard s.recvTag s.line (by decide) (by decide)⟩
  · split
    · exact Or.inl ⟨_, rfl, move .things s.recvTag (some .untagged) (by decide) (by decide)⟩
    · exact Or.inl ⟨_, rfl, move .discard s.recvTag s.line (by decide) (by decide)⟩
  · rename_i hs
    split
    · split
      · exact Or.inl ⟨_, rfl, move .things s.recvTag (some .tagged) (by decide) (by decide)⟩
      · exact Or.inl ⟨_, rfl, move .discard s.recvTag s.line (by decide) (by decide)⟩
    split
    · rcases addDigit_cases s.recvTag c with ⟨m, hm⟩ | hm
      · rw [hm]; exact Or.inl ⟨_, rfl, ⟨h.fits, h.quoted, h.literal⟩⟩
      · rw [hm]; exact Or.inr rfl
    · exact Or.inl ⟨_, rfl, move .discard s.recvTag s.line (by decide) (by decide)⟩
  · exact Or.inl ⟨_, rfl, h⟩
  · rename_i hs; exact feedThing_safe h hs c
  · rename_i hs
    cases hc : s.cur with
    | none => exact absurd hc (h.quoted hs)
    | some b =>
      have hb := h.fits b hc
      simp only [Option.getD_some]
      split
      · exact Or.inl (endString_fits hb.1)
      · obtain ⟨b', h1, h2⟩ := extend_fits (c := c) hb
        rw [h1]
        refine Or.inl ⟨_, rfl, ⟨?_, ?_, ?_⟩⟩
        · intro x hx; simp only [Option.some.injEq] at hx; subst hx; exact h2
        · intro _; simp
        · intro hh; simp only [hs] at hh; cases hh
  · rename_i hs
    split
    · exact Or.inl ⟨_, rfl, move .afterCount s.recvTag s.line (by decide) (by decide)⟩
    split
    · rcases addDigit_cases s.recvTag c with ⟨m, hm⟩ | hm
      · rw [hm]; exact Or.inl ⟨_, rfl, ⟨h.fits, h.quoted, h.literal⟩⟩
      · rw [hm]; exact Or.inr rfl
    · exact Or.inl ⟨_, rfl, move .discard s.recvTag s.line (by decide) (by decide)⟩
  · split
    · exact Or.inl ⟨_, rfl, h⟩
    split
    · exact Or.inl (endString_fits (Nat.le_refl _))
    · rename_i h1 h2
      refine Or.inl ⟨_, rfl, ⟨?_, ?_, ?_⟩⟩
      · intro b hb; simp only [Option.some.injEq] at hb; subst hb; simp; omega
      · intro hh; cases hh
      · intro _; exact ⟨_, rfl, by simp; omega⟩
  · rename_i hs
    obtain ⟨b, hc, hb⟩ := h.literal hs
    simp only [hc, Option.getD_some]
    rw [if_pos (by omega)]
    split
    · exact Or.inl (endString_fits (by simp; omega))
    · refine Or.inl ⟨_, rfl, ⟨?_, ?_, ?_⟩⟩
      · intro x hx; simp only [Option.some.injEq] at hx; subst hx; simp; omega
      · intro _; simp
      · intro _; exact ⟨_, rfl, by simp; omega⟩

theorem feedBuf_safe (next : Nat) : ∀ (t : Text) (s : WaitState), s.Fits →
    (∃ s', feedBuf next s t = .ok (.inl s') ∧ s'.Fits) ∨ (∃ r, feedBuf next s t = .ok (.inr r)) ∨ feedBuf next s t = .error .overflow
  | [], s, h => Or.inl ⟨s, rfl, h⟩
  | c :: t, s, h => by
    simp only [feedBuf]
    by_cases hc : c = 10 ∧ s.linestate ≠ .afterCount ∧ s.linestate ≠ .literal
    · have : ∃ r, feed next s c = .ok (.inr r) := by
        unfold feed
        rw [if_pos hc]
        unfold WaitState.endLine
        by_cases ht : s.linestate = .things
        · obtain ⟨s', h1, -, -⟩ := flush_fits h
          rw [if_pos ht, h1]; exact ⟨_, rfl⟩
        · rw [if_neg ht]; exact ⟨_, rfl⟩
      obtain ⟨r, hr⟩ := this
      rw [hr]; exact Or.inr (Or.inl ⟨_, rfl⟩)
    · have hf : feed next s c = (feedSwitch next s c).map .inl := by unfold feed; rw [if_neg hc]
      rcases feedSwitch_safe h next c with ⟨s', h1, h2⟩ | h1
      · rw [hf, h1]; exact feedBuf_safe next t s' h2
      · rw [hf, h1]; exact Or.inr (Or.inr rfl)

theorem waitLoop_safe (next : Nat) : ∀ (reads : List Text) (s : WaitState) (buf : Text), s.Fits →
    (∃ x, waitLoop next s buf reads = .ok x) ∨ waitLoop next s buf reads = .error .overflow := by
  intro reads
  induction reads with
  | nil =>
    intro s buf h
    unfold waitLoop
    rcases feedBuf_safe next buf s h with ⟨s', h1, h2⟩ | ⟨r, h1⟩ | h1
    · rw [h1]; exact Or.inl ⟨_, rfl⟩
    · rw [h1]; exact Or.inl ⟨_, rfl⟩
    · rw [h1]; exact Or.inr rfl
  | cons r rs ih =>
    intro s buf h
    unfold waitLoop
    rcases feedBuf_safe next buf s h with ⟨s', h1, h2⟩ | ⟨r, h1⟩ | h1
    · rw [h1]
      simp only [bind, Except.bind]
      split
      · exact Or.inl ⟨_, rfl⟩
      · exact ih s' _ h2
    · rw [h1]; exact Or.inl ⟨_, rfl⟩
    · rw [h1]; exact Or.inr rfl

end Mairix
