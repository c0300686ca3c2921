import Verif.Spec.Decode
import Verif.Proofs.CullFuel
import Verif.Proofs.Bytes

/-!
# Decoding of bodies (C32, C33, C34)
-/

namespace Mairix
open Spec

theorem hexVal_digit {x : UInt8} {v : Nat} (h : HexDigit x v) : hexVal x = v ∧ isSpace x = false ∧ x ≠ 0x0a := by
  have hv : v < 16 := by
    rcases h with h | h <;> exact (List.getElem?_eq_some_iff.1 h).1
  have : ∀ v < 16, ∀ x : UInt8, (bs "0123456789ABCDEF")[v]? = some x ∨ (bs "0123456789abcdef")[v]? = some x → hexVal x = v ∧ isSpace x = false ∧ x ≠ 0x0a := by
    intro v hv x
    revert v
    revert x
    exact forall_byte (by decide +kernel)
  exact this v hv x h

theorem wsThenNewline_soft : ∀ {ws t : Text}, (∀ c ∈ ws, isSpace c = true ∧ c ≠ 0x0a) → wsThenNewline (ws ++ 0x0a :: t) = .ok (some ws.length) := by
  intro ws t h
  induction ws with
  | nil => simp [wsThenNewline]
  | cons c ws ih =>
    have hc := h c (by simp)
    simp only [List.cons_append, wsThenNewline, if_neg hc.2, if_pos hc.1]
    rw [ih (fun x hx => h x (by simp [hx]))]
    rfl

theorem storeTo_ok {cap : Nat} {out : Text} {c : UInt8} (h : out.length + 1 ≤ cap) : storeTo cap out c = .ok (out ++ [c]) := if_pos h

theorem qpForm_length {t d : Text} (h : QpForm t d) : d.length ≤ t.length := by
  induction h with
  | nil => simp
  | plain _ _ ih => simp; omega
  | hex _ _ _ ih => simp; omega
  | soft _ _ ih => simp; omega

theorem qpLoop_form {t d : Text} (h : QpForm t d) : ∀ (after out : Text) (cap fuel : Nat), t.length < fuel → out.length + d.length ≤ cap →
    qpLoop cap fuel (t ++ after) t.length out = .ok (out ++ d) := by
  induction h with
  | nil =>
    intro after out cap fuel hf hc
    obtain ⟨fuel, rfl⟩ := Nat.exists_eq_succ_of_ne_zero (by simp at hf; omega : fuel ≠ 0)
    simp [qpLoop]
  | @plain c t d hc _ ih =>
    intro after out cap fuel hf hcap
    simp only [List.length_cons] at hf hcap
    obtain ⟨fuel, rfl⟩ := Nat.exists_eq_succ_of_ne_zero (by omega : fuel ≠ 0)
    simp only [qpLoop, List.cons_append, List.length_cons, if_neg (Nat.succ_ne_zero _), if_neg hc, storeTo_ok (show out.length + 1 ≤ cap by omega), bind, Except.bind, Nat.add_sub_cancel]
    rw [ih after _ cap fuel (by omega) (by simp; omega)]; simp
  | @hex a b x y t d ha hb _ ih =>
    intro after out cap fuel hf hcap
    simp only [List.length_cons] at hf hcap
    obtain ⟨fuel, rfl⟩ := Nat.exists_eq_succ_of_ne_zero (by omega : fuel ≠ 0)
    have h1 := hexVal_digit ha
    have h2 := hexVal_digit hb
    have hw : wsThenNewline (a :: b :: (t ++ after)) = .ok none := by simp [wsThenNewline, h1.2.1, h1.2.2]
    simp only [qpLoop, List.cons_append, List.length_cons, if_neg (Nat.succ_ne_zero _), if_pos, hw, storeTo_ok (show out.length + 1 ≤ cap by omega), bind, Except.bind,
      show t.length + 1 + 1 + 1 - 3 = t.length by omega, h1.1, h2.1]
    rw [ih after _ cap fuel (by omega) (by simp; omega)]; simp [Nat.mul_comm]
  | @soft ws t d hws _ ih =>
    intro after out cap fuel hf hcap
    have e1 : (0x3d :: ws ++ bs "\n" ++ t) = 0x3d :: (ws ++ 0x0a :: t) := by simp [show bs "\n" = [0x0a] from by decide]
    rw [e1] at hf ⊢
    simp only [List.length_cons, List.length_append] at hf hcap
    obtain ⟨fuel, rfl⟩ := Nat.exists_eq_succ_of_ne_zero (by omega : fuel ≠ 0)
    have hw : wsThenNewline (ws ++ 0x0a :: t ++ after) = .ok (some ws.length) := by
      have := wsThenNewline_soft (t := t ++ after) hws
      simpa using this
    simp only [qpLoop, List.cons_append, List.length_cons, List.length_append, if_neg (Nat.succ_ne_zero _), if_pos, hw, bind, Except.bind]
    have e2 : (ws ++ 0x0a :: t ++ after).drop (ws.length + 1) = t ++ after := by
      have := List.drop_append (l₁ := ws ++ [0x0a]) (l₂ := t ++ after) (i := ws.length + 1)
      simpa using this
    rw [e2, show ws.length + (t.length + 1) + 1 - 1 - (ws.length + 1) = t.length by omega]
    exact ih after out cap fuel (by omega) (by omega)

theorem type_qp : decodeEncodingType (some (bs " quoted-printable")) = .quotedPrintable := by decide
theorem type_b64 : decodeEncodingType (some (bs " BASE64")) = .base64 := by decide
theorem type_uu : decodeEncodingType (some (bs " x-uuencode")) = .uuencode := by decide

/-- **C33** in part: whatever encodes the body, its quoted-printable form `t` of any data `d` is decoded to `d`, wherever `t` lies in memory. Missing: bodies that are not well formed (see the violations). -/
theorem C33_decode_partial {enc : Option Text} (he : decodeEncodingType enc = .quotedPrintable) {t d : Text} (h : QpForm t d) (after : Text) :
    unencodeData (t ++ after) t.length enc = .ok d := by
  have hl := qpForm_length h
  simp only [unencodeData, he, decodeAs, qpLoop_form h after [] (t.length + 1) (t.length + 1) (by omega) (by simp; omega), bind, Except.bind, List.nil_append]
  rw [if_pos (by omega)]

/-- A form with an encoded `=`, an encoded byte in small letters and a soft line break with a blank. -/
example : unencodeData (bs "a=3Db=e9= \nc--next") 12 (some (bs " quoted-printable")) = .ok (bs "a=b" ++ [0xe9] ++ bs "c") := by
  have e : bs "a=3Db=e9= \nc" = [0x61, 0x3d, 0x33, 0x44, 0x62, 0x3d, 0x65, 0x39, 0x3d, 0x20, 0x0a, 0x63] := by decide
  have h : QpForm (bs "a=3Db=e9= \nc") (bs "a=b" ++ [0xe9] ++ bs "c") := by
    rw [e]
    refine .plain (by decide) (.hex (x := 3) (y := 13) (by decide) (by decide) (.plain (by decide) (.hex (x := 14) (y := 9) (by decide) (by decide) ?_)))
    exact .soft (ws := [0x20]) (by decide) (.plain (by decide) .nil)
  exact C33_decode_partial type_qp h (bs "--next")

/-- The bytes up to a null byte that is not at the end of the memory: nothing is read outside. -/
theorem wsThenNewline_null : ∀ (q : Text) (m : Nat), q[m]? = some 0 → ∃ r, wsThenNewline q = .ok r ∧ ∀ k, r = some k → k + 1 ≤ m := by
  intro q
  induction q with
  | nil => intro m h; simp at h
  | cons c q ih =>
    intro m h
    cases m with
    | zero =>
      simp at h; subst h
      exact ⟨none, by simp [wsThenNewline, show isSpace 0 = false from by decide], by simp⟩
    | succ m =>
      simp at h
      obtain ⟨r, hr, hk⟩ := ih m h
      simp only [wsThenNewline]
      split
      · exact ⟨some 0, rfl, by intro k hk; simp at hk; omega⟩
      · split
        · refine ⟨r.map (· + 1), by rw [hr]; rfl, ?_⟩
          intro k hk'
          cases r with
          | none => simp at hk'
          | some j => simp at hk'; have := hk j rfl; omega
        · exact ⟨none, rfl, by simp⟩

theorem qpLoop_safe (cap : Nat) : ∀ (fuel : Nat) (rest : Text) (n : Nat) (out : Text), n < fuel → out.length + n < cap → (n ≠ 0 → rest[n]? = some 0 ∧ n + 2 ≤ rest.length) →
    ∃ r, qpLoop cap fuel rest n out = .ok r ∧ r.length ≤ out.length + n := by
  intro fuel
  induction fuel with
  | zero => intro _ n _ h; omega
  | succ fuel ih =>
    intro rest n out hf hc hr
    by_cases hn : n = 0
    · exact ⟨out, by simp [qpLoop, hn], by omega⟩
    · obtain ⟨h0, hlen⟩ := hr hn
      obtain ⟨m, rfl⟩ := Nat.exists_eq_succ_of_ne_zero hn
      cases rest with
      | nil => simp at h0
      | cons c q =>
        simp at h0 hlen
        simp only [qpLoop, if_neg hn]
        split
        · obtain ⟨r, hw, hk⟩ := wsThenNewline_null q m h0
          simp only [hw, bind, Except.bind]
          cases r with
          | some k =>
            have := hk k rfl
            simp only
            obtain ⟨r, h1, h2⟩ := ih (q.drop (k + 1)) (m + 1 - 1 - (k + 1)) out (by omega) (by omega) (fun _ => by
              rw [List.getElem?_drop, List.length_drop, show k + 1 + (m + 1 - 1 - (k + 1)) = m by omega]
              exact ⟨h0, by omega⟩)
            exact ⟨r, h1, by omega⟩
          | none =>
            simp only
            match q, h0, hlen with
            | a :: b :: q, h0, hlen =>
              simp only [storeTo_ok (show out.length + 1 ≤ cap by omega)]
              obtain ⟨r, h1, h2⟩ := ih q (m + 1 - 3) (out ++ [UInt8.ofNat (hexVal a * 16 + hexVal b)]) (by omega) (by simp; omega) (fun h => by
                obtain ⟨l, rfl⟩ : ∃ l, m = l + 2 := ⟨m - 2, by omega⟩
                simp at h0 hlen
                exact ⟨by rw [show l + 2 + 1 - 3 = l by omega]; exact h0, by omega⟩)
              exact ⟨r, h1, by simp at h2; omega⟩
            | [a], h0, hlen => simp at hlen
            | [], h0, hlen => simp at h0
        · simp only [storeTo_ok (show out.length + 1 ≤ cap by omega), bind, Except.bind]
          obtain ⟨r, h1, h2⟩ := ih q (m + 1 - 1) (out ++ [c]) (by omega) (by simp; omega) (fun _ => ⟨by simpa using h0, by omega⟩)
          exact ⟨r, h1, by simp at h2; omega⟩

/-- **C33** in part: for any body, well formed or not, that is followed by a null byte and one more readable byte, nothing outside the body and these two bytes is read, nothing outside the result is written, and the result is no longer
than the body. Missing: bodies followed by something else (see `C33_past_end_violation`). -/
theorem C33_safe_partial {enc : Option Text} (he : decodeEncodingType enc = .quotedPrintable) (t : Text) (x : UInt8) : ∃ r, unencodeData (t ++ [0, x]) t.length enc = .ok r ∧ r.length ≤ t.length := by
  obtain ⟨r, h1, h2⟩ := qpLoop_safe (t.length + 1) (t.length + 1) (t ++ [0, x]) t.length [] (by omega) (by simp) (fun _ => ⟨by simp, by simp⟩)
  simp at h2
  exact ⟨r, by simp only [unencodeData, he, decodeAs, h1, bind, Except.bind]; rw [if_pos (by omega)], h2⟩

example : ∃ r, unencodeData (bs "x=4" ++ [0, 0x41]) 3 (some (bs "quoted-printable")) = .ok r ∧ r.length ≤ 3 := C33_safe_partial (by decide) (bs "x=4") 0x41

/-- **C33** is false: a body that ends in `=` makes the program read behind it; if it is at the end of the mapped memory, or a null byte ends it there, that is out of bounds. -/
theorem C33_past_end_violation : unencodeData (bs "a=") 2 (some (bs "quoted-printable")) = .error .outOfBounds ∧
    unencodeData (bs "a=" ++ [0]) 2 (some (bs "quoted-printable")) = .error .outOfBounds := by decide +kernel

/-- **C33** is false: what lies behind the body is taken into the result. -/
theorem C33_beyond_violation : unencodeData (bs "a=41") 2 (some (bs "quoted-printable")) = .ok (bs "aA") ∧ unencodeData (bs "a=42") 2 (some (bs "quoted-printable")) = .ok (bs "aB") := by decide +kernel

/-! ## base64 -/

theorem b64Sign_iff (c : UInt8) : B64Sign c = false ↔ base64Table c = none := by
  revert c; exact forall_byte (by decide +kernel)

theorem b64Junk {c : UInt8} (h : B64Sign c = false) : base64Table c = none ∧ equalTable c = 0 := by
  have : ∀ c : UInt8, B64Sign c = false → base64Table c = none ∧ equalTable c = 0 := forall_byte (by decide +kernel)
  exact this c h

theorem b64Char_val : ∀ v < 64, base64Table (b64Char v) = some v ∧ equalTable (b64Char v) = 0 ∧ B64Sign (b64Char v) = true := by decide +kernel

theorem b64Eq_val : base64Table 0x3d = some 0 ∧ equalTable 0x3d = 1 ∧ B64Sign 0x3d = true := by decide +kernel

theorem b64Loop_filter (cap : Nat) : ∀ (t after : Text) (s : B64) (out : Text), b64Loop cap (t ++ after) t.length s out = b64Loop cap (t.filter B64Sign) (t.filter B64Sign).length s out := by
  intro t after
  induction t with
  | nil => intro s out; simp [b64Loop]
  | cons c t ih =>
    intro s out
    by_cases hc : B64Sign c = true
    · rw [List.filter_cons_of_pos hc]
      simp only [List.cons_append, List.length_cons, b64Loop]
      cases hd : base64Table c with
      | none => simp only; exact ih _ _
      | some dc =>
        simp only [ih]
    · simp only [Bool.not_eq_true] at hc
      rw [List.filter_cons_of_neg (by simp [hc])]
      simp only [List.cons_append, List.length_cons, b64Loop, (b64Junk hc).1, (b64Junk hc).2]
      exact ih _ _

theorem b64_arith {a b c : Nat} (ha : a < 256) (hb : b < 256) (hc : c < 256) :
    let r := ((a / 4 * 64 + (a % 4 * 16 + b / 16)) * 64 + (b % 16 * 4 + c / 64)) * 64 + c % 64
    r / 65536 % 256 = a ∧ r / 256 % 256 = b ∧ r % 256 = c := by
  simp only
  omega

theorem byte_ofNat (a : UInt8) : UInt8.ofNat a.toNat = a := by simp

theorem storeAll_ok : ∀ {bytes : Text} {cap : Nat} {out : Text}, out.length + bytes.length ≤ cap → storeAll cap out bytes = .ok (out ++ bytes) := by
  intro bytes
  induction bytes with
  | nil => intro cap out _; simp [storeAll]
  | cons c bytes ih =>
    intro cap out h
    simp only [List.length_cons] at h
    simp only [storeAll, storeTo_ok (show out.length + 1 ≤ cap by omega), bind, Except.bind]
    rw [ih (by simp; omega)]; simp

theorem b64Loop_encode (cap : Nat) : ∀ (d : Text) (out : Text), out.length + d.length ≤ cap → b64Loop cap (b64Encode d) (b64Encode d).length ⟨0, 0, 0⟩ out = .ok (out ++ d) := by
  intro d
  induction d using b64Encode.induct with
  | case1 => intro out _; simp [b64Encode, b64Loop]
  | case2 a =>
    intro out hc
    have ha := a.toNat_lt
    have h1 := b64Char_val (a.toNat / 4) (by omega)
    have h2 := b64Char_val (a.toNat % 4 * 16) (by omega)
    have hb : b64Bytes (((a.toNat / 4 * 64 + a.toNat % 4 * 16) * 64 + 0) * 64 + 0) 2 = [a] := by
      have := (b64_arith (a := a.toNat) (b := 0) (c := 0) ha (by omega) (by omega)).1
      simp only [b64Bytes]
      simp at this ⊢
      rw [this]; simp
    simp at hc
    simp [b64Encode, b64Loop, h1.1, h1.2.1, h2.1, h2.2.1, b64Eq_val.1, b64Eq_val.2.1, bind, Except.bind]
    simp at hb
    rw [hb, storeAll_ok (by simpa using hc)]
  | case3 a b =>
    intro out hc
    have ha := a.toNat_lt
    have hb := b.toNat_lt
    have h1 := b64Char_val (a.toNat / 4) (by omega)
    have h2 := b64Char_val (a.toNat % 4 * 16 + b.toNat / 16) (by omega)
    have h3 := b64Char_val (b.toNat % 16 * 4) (by omega)
    have hr : b64Bytes (((a.toNat / 4 * 64 + (a.toNat % 4 * 16 + b.toNat / 16)) * 64 + b.toNat % 16 * 4) * 64 + 0) 1 = [a, b] := by
      have := b64_arith (a := a.toNat) (b := b.toNat) (c := 0) ha (by omega) (by omega)
      simp only [b64Bytes]
      simp at this ⊢
      rw [this.1, this.2.1]; simp
    simp at hc
    simp [b64Encode, b64Loop, h1.1, h1.2.1, h2.1, h2.2.1, h3.1, h3.2.1, b64Eq_val.1, b64Eq_val.2.1, bind, Except.bind]
    simp at hr
    rw [hr, storeAll_ok (by simpa using hc)]
  | case4 a b c t ih =>
    intro out hcap
    have ha := a.toNat_lt
    have hb := b.toNat_lt
    have hc := c.toNat_lt
    have h1 := b64Char_val (a.toNat / 4) (by omega)
    have h2 := b64Char_val (a.toNat % 4 * 16 + b.toNat / 16) (by omega)
    have h3 := b64Char_val (b.toNat % 16 * 4 + c.toNat / 64) (by omega)
    have h4 := b64Char_val (c.toNat % 64) (by omega)
    have hr : b64Bytes (((a.toNat / 4 * 64 + (a.toNat % 4 * 16 + b.toNat / 16)) * 64 + (b.toNat % 16 * 4 + c.toNat / 64)) * 64 + c.toNat % 64) 0 = [a, b, c] := by
      have := b64_arith (a := a.toNat) (b := b.toNat) (c := c.toNat) ha hb hc
      simp only [b64Bytes]
      simp at this ⊢
      rw [this.1, this.2.1, this.2.2]; simp
    simp only [List.length_cons] at hcap
    rw [b64Encode]
    simp [b64Loop, h1.1, h1.2.1, h2.1, h2.2.1, h3.1, h3.2.1, h4.1, h4.2.1, bind, Except.bind]
    rw [hr, storeAll_ok (by simp; omega)]
    simp only
    rw [ih _ (by simp; omega)]; simp

theorem b64Encode_length (d : Text) : d.length ≤ (b64Encode d).length := by
  induction d using b64Encode.induct with
  | case1 => simp
  | case2 a => simp [b64Encode]
  | case3 a b => simp [b64Encode]
  | case4 a b c t ih => rw [b64Encode]; simp; omega

/-- **C32**: the base64 form of any data, broken into lines in any way and with any other meaningless characters strewn in, is decoded to the data, wherever it lies in memory. -/
theorem C32_decode {enc : Option Text} (he : decodeEncodingType enc = .base64) {t d : Text} (h : B64Form t d) (after : Text) : unencodeData (t ++ after) t.length enc = .ok d := by
  have hl : d.length ≤ t.length := by
    have h1 := b64Encode_length d
    rw [← h] at h1
    exact Nat.le_trans h1 (List.length_filter_le ..)
  have := b64Loop_encode (t.length + 1) d [] (by simp; omega)
  simp only [unencodeData, he, decodeAs, b64Loop_filter, bind, Except.bind]
  rw [show t.filter B64Sign = b64Encode d from h, this]
  simp only [List.nil_append]
  rw [if_pos (by omega)]

example : unencodeData (bs "aGVs\r\nbG8g\r\nIQ=\n=\n--next") 18 (some (bs " BASE64")) = .ok (bs "hello !") :=
  C32_decode type_b64 (t := bs "aGVs\r\nbG8g\r\nIQ=\n=\n") (d := bs "hello !") (show List.filter _ _ = _ by decide +kernel) (bs "--next")

theorem b64Bytes_length (reg eq : Nat) : (b64Bytes reg eq).length ≤ 3 := by
  unfold b64Bytes
  split <;> split <;> simp

theorem b64Loop_safe (cap : Nat) : ∀ (rest : Text) (n : Nat) (s : B64) (out : Text), n ≤ rest.length → s.nc < 4 → out.length + s.nc + n ≤ cap →
    ∃ r, b64Loop cap rest n s out = .ok r ∧ r.length ≤ out.length + s.nc + n := by
  intro rest
  induction rest with
  | nil =>
    intro n s out hn _ _
    simp at hn; subst hn
    exact ⟨out, by simp [b64Loop], by omega⟩
  | cons c rest ih =>
    intro n s out hn hs hc
    cases n with
    | zero => exact ⟨out, by simp [b64Loop], by omega⟩
    | succ n =>
      simp at hn
      simp only [b64Loop]
      cases base64Table c with
      | none =>
        obtain ⟨r, h1, h2⟩ := ih n { s with eq := s.eq + equalTable c } out hn hs (by simp only; omega)
        exact ⟨r, h1, by simp only at h2; omega⟩
      | some dc =>
        simp only
        split
        · have hb := b64Bytes_length (s.reg * 64 + dc) (s.eq + equalTable c)
          simp only [storeAll_ok (show out.length + (b64Bytes (s.reg * 64 + dc) (s.eq + equalTable c)).length ≤ cap by omega), bind, Except.bind]
          split
          · exact ⟨_, rfl, by simp; omega⟩
          · obtain ⟨r, h1, h2⟩ := ih n ⟨0, 0, s.eq + equalTable c⟩ (out ++ b64Bytes (s.reg * 64 + dc) (s.eq + equalTable c)) hn (by simp) (by simp; omega)
            exact ⟨r, h1, by simp at h2; omega⟩
        · obtain ⟨r, h1, h2⟩ := ih n ⟨s.reg * 64 + dc, s.nc + 1, s.eq + equalTable c⟩ out hn (by simp only; omega) (by simp only; omega)
          exact ⟨r, h1, by simp only at h2; omega⟩

/-- **C32**, any body whatever: decoding it as base64 reads nothing behind it and writes nothing outside the result. -/
theorem C32_safe {enc : Option Text} (he : decodeEncodingType enc = .base64) (t : Text) : ∃ r, unencodeData t t.length enc = .ok r ∧ r.length ≤ t.length := by
  obtain ⟨r, h1, h2⟩ := b64Loop_safe (t.length + 1) t t.length ⟨0, 0, 0⟩ [] (Nat.le_refl _) (by decide) (by simp)
  simp at h2
  exact ⟨r, by simp only [unencodeData, he, decodeAs, h1, bind, Except.bind]; rw [if_pos (by omega)], h2⟩

example : ∃ r, unencodeData (bs "==?a=") 5 (some (bs "base64")) = .ok r ∧ r.length ≤ 5 := C32_safe (by decide) (bs "==?a=")

/-! ## no encoding -/

/-- A body that is not encoded is taken as it is. -/
theorem C32_identity {enc : Option Text} (he : decodeEncodingType enc = .none ∨ decodeEncodingType enc = .sevenBit ∨ decodeEncodingType enc = .eightBit ∨ decodeEncodingType enc = .binary)
    (t after : Text) : unencodeData (t ++ after) t.length enc = .ok t := by
  have h : copyBody (t ++ after) t.length = .ok t := by simp [copyBody]
  rcases he with he | he | he | he <;> simp [unencodeData, he, decodeAs, h, bind, Except.bind]

example : unencodeData (bs "a=3D" ++ bs "x") 4 (some (bs " 8Bit")) = .ok (bs "a=3D") := C32_identity (by decide) (bs "a=3D") (bs "x")

/-! ## uuencode -/

theorem uuSkip_nl (x : Text) (hx : 0x0a ∉ x) (t : Text) (m : Nat) : uuSkip (x ++ 0x0a :: t) (x.length + m + 1) = .ok (0x0a :: t, m + 1) := by
  induction x with
  | nil => simp [uuSkip]
  | cons c x ih =>
    simp at hx
    have : ¬ c = 0x0a := fun e => hx.1 e.symm
    simp only [List.cons_append, List.length_cons, show x.length + 1 + m + 1 = (x.length + m + 1) + 1 by omega, uuSkip, if_neg this]
    exact ih hx.2

theorem uuSkip_ok : ∀ {q : Text} {n : Nat} {r : Text × Nat}, uuSkip q n = .ok r → r.2 = 0 ∨ ∃ t, r.1 = 0x0a :: t := by
  intro q
  induction q with
  | nil => intro n r h; cases n <;> simp [uuSkip] at h; subst h; exact .inl rfl
  | cons c q ih =>
    intro n r h
    cases n with
    | zero => simp [uuSkip] at h; subst h; exact .inl rfl
    | succ n =>
      simp only [uuSkip] at h
      split at h
      · rename_i hc; subst hc; simp at h; subst h; exact .inr ⟨q, rfl⟩
      · exact ih h

theorem storeAll_length : ∀ {bytes : Text} {cap : Nat} {out r : Text}, storeAll cap out bytes = .ok r → r.length = out.length + bytes.length := by
  intro bytes
  induction bytes with
  | nil => intro cap out r h; simp [storeAll] at h; simp [h]
  | cons c bytes ih =>
    intro cap out r h
    simp only [storeAll, bind, Except.bind, storeTo] at h
    split at h
    · simp at h
    · rename_i o ho
      split at ho
      · simp at ho; subst ho
        have := ih h
        simp at this ⊢; omega
      · simp at ho

theorem uuGroup_length {m : Nat} {q b : Text} (hm : 3 ≤ m) (h : uuGroup m q = .ok b) : b.length = 3 := by
  simp only [uuGroup, if_pos hm] at h
  split at h
  · simp at h; simp [← h]
  · simp at h

theorem uuGroups_length (cap : Nat) : ∀ (fuel m : Nat) (q : Text) (n : Nat) (out : Text) {r : Text × Nat × Text}, uuGroups cap fuel (3 * m) q n out = .ok r → r.2.2.length = out.length + 3 * m := by
  intro fuel
  induction fuel with
  | zero => intro m q n out r h; simp [uuGroups] at h
  | succ fuel ih =>
    intro m q n out r h
    cases m with
    | zero => simp [uuGroups] at h; subst h; simp
    | succ m =>
      simp only [uuGroups, if_neg (show ¬ 3 * (m + 1) = 0 by omega)] at h
      obtain ⟨b, hb, h⟩ := res_bind_ok h
      obtain ⟨o, ho, h⟩ := res_bind_ok h
      have h1 := uuGroup_length (by omega) hb
      have h2 := storeAll_length ho
      have h3 := ih m _ _ _ (by rw [show 3 * (m + 1) - 3 = 3 * m by omega] at h; exact h)
      omega

theorem uuLines_mult (cap : Nat) : ∀ (fuel : Nat) (q : Text) (n : Nat) (out : Text) {r : Text}, (n = 0 ∨ ∃ t, q = 0x0a :: t) → uuLines cap fuel q n out = .ok r →
    ∃ k, r.length = out.length + 42 * k ∧ (n ≠ 0 → 0 < k) := by
  intro fuel
  induction fuel with
  | zero => intro q n out r _ h; simp [uuLines] at h
  | succ fuel ih =>
    intro q n out r hq h
    by_cases hn : n = 0
    · simp [uuLines, hn] at h; exact ⟨0, by simp [h], by simp [hn]⟩
    · obtain ⟨t, rfl⟩ := hq.resolve_left hn
      simp only [uuLines, if_neg hn, show uuDec 0x0a = 42 from by decide, if_neg (show ¬ 42 = 0 by decide)] at h
      obtain ⟨⟨q1, n1, o1⟩, h1, h⟩ := res_bind_ok h
      obtain ⟨⟨q2, n2⟩, h2, h⟩ := res_bind_ok h
      have h3 := uuGroups_length cap 64 14 t (n - 1) out h1
      simp only at h3 h
      obtain ⟨k, h4, _⟩ := ih q2 n2 o1 (by have := uuSkip_ok h2; simpa using this) h
      exact ⟨k + 1, by omega, fun _ => by omega⟩

/-- **C34** is false, for every file: whatever a body with a `begin` line contains, if the decoding ends at all the number of bytes that come out is a positive multiple of 42, because the end of a line is taken for the length of the next. So no data of any other
length, and no empty data, is ever decoded from its uuencoded form. -/
theorem C34_never_violation {enc : Option Text} (he : decodeEncodingType enc = .uuencode) {name body after d : Text} (hn : 0x0a ∉ name)
    (h : unencodeData (bs "begin " ++ name ++ bs "\n" ++ body ++ after) (bs "begin " ++ name ++ bs "\n" ++ body).length enc = .ok d) : d.length % 42 = 0 ∧ 0 < d.length := by
  have e1 : bs "begin " ++ name ++ bs "\n" ++ body ++ after = bs "begin " ++ (name ++ 0x0a :: (body ++ after)) := by simp [show bs "\n" = [0x0a] from by decide]
  have e2 : (bs "begin " ++ name ++ bs "\n" ++ body).length = name.length + body.length + 7 := by
    simp [show (bs "begin ").length = 6 from by decide, show (bs "\n").length = 1 from by decide]; omega
  rw [e1, e2] at h
  simp only [unencodeData, he, decodeAs] at h
  obtain ⟨out, h1, h⟩ := res_bind_ok h
  have hd : out = d := by split at h <;> simp at h; exact h
  subst hd
  have hf : uuFind (bs "begin " ++ (name ++ 0x0a :: (body ++ after))) (name.length + body.length + 7) = (bs "begin " ++ (name ++ 0x0a :: (body ++ after)), name.length + body.length + 7) := by
    have : bs "begin " = 0x62 :: bs "egin " := by decide
    rw [this, List.cons_append, uuFind, if_neg]
    rintro ⟨_, h⟩
    apply h
    rw [← List.cons_append, ← this]
    exact List.take_left' (by decide)
  simp only [uuDecode, hf] at h1
  rw [List.drop_left' (by decide : (bs "begin ").length = 6)] at h1
  rw [show name.length + body.length + 7 - 6 = name.length + body.length + 1 by omega, uuSkip_nl name hn] at h1
  simp only [bind, Except.bind] at h1
  obtain ⟨k, hk, hpos⟩ := uuLines_mult _ _ _ _ _ (.inr ⟨_, rfl⟩) h1
  have := hpos (by omega)
  simp at hk
  omega

/-- The uuencoded form of a few bytes makes the program write 42 bytes into a buffer of the size of the body, or read past its end. -/
theorem C34_overflow_violation : unencodeData (uuEncodeShort (bs "hello")) (uuEncodeShort (bs "hello")).length (some (bs "x-uuencode")) = .error .outOfBounds ∧
    unencodeData (bs "begin 644 f\n" ++ List.replicate 100 0x20) 20 (some (bs "x-uuencode")) = .error .outOfBounds := by decide +kernel

/-- The case `C34_never_violation` is about exists: a longer file is decoded, wrongly. -/
example : (unencodeData (uuEncodeShort (bs "hello, this is a text of forty-five letters..") ++ List.replicate 100 0x78) 134 (some (bs "x-uuencode"))).map List.length = .ok 84 := by decide +kernel

theorem uuGroup_ok {m : Nat} {q : Text} (hm : 3 ≤ m) (h : 4 ≤ q.length) : ∃ b, uuGroup m q = .ok b := by
  match q, h with
  | a :: b :: c :: d :: _, _ =>
    simp only [uuGroup, if_pos hm]
    exact ⟨_, rfl⟩

theorem uuGroups_safe (cap : Nat) : ∀ (m fuel : Nat) (q : Text) (n : Nat) (out : Text), m < fuel → 4 * m ≤ q.length → out.length + 3 * m ≤ cap →
    ∃ o, uuGroups cap fuel (3 * m) q n out = .ok (q.drop (4 * m), n - 4 * m, o) ∧ o.length = out.length + 3 * m := by
  intro m
  induction m with
  | zero =>
    intro fuel q n out hf _ _
    obtain ⟨fuel, rfl⟩ := Nat.exists_eq_succ_of_ne_zero (by omega : fuel ≠ 0)
    exact ⟨out, by simp [uuGroups], rfl⟩
  | succ m ih =>
    intro fuel q n out hf hq hc
    obtain ⟨fuel, rfl⟩ := Nat.exists_eq_succ_of_ne_zero (by omega : fuel ≠ 0)
    obtain ⟨b, hb⟩ := uuGroup_ok (m := 3 * (m + 1)) (q := q) (by omega) (by omega)
    have hl := uuGroup_length (by omega) hb
    obtain ⟨o, h1, h2⟩ := ih fuel (q.drop 4) (n - 4) (out ++ b) (by omega) (by simp; omega) (by simp; omega)
    refine ⟨o, ?_, by simp at h2; omega⟩
    simp only [uuGroups, if_neg (show ¬ 3 * (m + 1) = 0 by omega), hb, storeAll_ok (show out.length + b.length ≤ cap by omega), bind, Except.bind]
    rw [show 3 * (m + 1) - 3 = 3 * m by omega, h1, List.drop_drop, show 4 + 4 * m = 4 * (m + 1) by omega, show n - 4 - 4 * m = n - 4 * (m + 1) by omega]

theorem uuSkip_safe : ∀ (q : Text) (n : Nat), n ≤ q.length → ∃ q' n', uuSkip q n = .ok (q', n') ∧ n' ≤ n ∧ q.length + n' = q'.length + n ∧ (n' = 0 ∨ ∃ t, q' = 0x0a :: t) := by
  intro q
  induction q with
  | nil => intro n h; simp at h; subst h; exact ⟨[], 0, by simp [uuSkip], by omega, rfl, .inl rfl⟩
  | cons c q ih =>
    intro n h
    cases n with
    | zero => exact ⟨c :: q, 0, by simp [uuSkip], by omega, rfl, .inl rfl⟩
    | succ n =>
      simp at h
      by_cases hc : c = 0x0a
      · exact ⟨c :: q, n + 1, by simp [uuSkip, hc], by omega, rfl, .inr ⟨q, by rw [hc]⟩⟩
      · obtain ⟨q', n', h1, h2, h3, h4⟩ := ih n h
        exact ⟨q', n', by simp only [uuSkip, if_neg hc]; exact h1, by omega, by simp; omega, h4⟩

theorem uuLines_safe (len : Nat) (hlen : 126 ≤ len) : ∀ (fuel : Nat) (q : Text) (n k : Nat) (out : Text), n < fuel → (n ≠ 0 → n + 56 ≤ q.length) → (n = 0 ∨ ∃ t, q = 0x0a :: t) → out.length = 42 * k →
    out.length ≤ len → (n ≠ 0 → 57 * k + 6 + n ≤ len) → ∃ r, uuLines (len + 1) fuel q n out = .ok r ∧ r.length ≤ len := by
  intro fuel
  induction fuel with
  | zero => intro q n k out h; omega
  | succ fuel ih =>
    intro q n k out hf hq hh ho hol hk
    by_cases hn : n = 0
    · exact ⟨out, by simp [uuLines, hn], hol⟩
    · obtain ⟨t, rfl⟩ := hh.resolve_left hn
      have hk := hk hn
      have hq := hq hn
      simp only [List.length_cons] at hq
      obtain ⟨o, h1, h2⟩ := uuGroups_safe (len + 1) 14 64 t (n - 1) out (by omega) (by omega) (by omega)
      have hn1 : n - 1 - 56 ≤ (t.drop 56).length := by simp; omega
      obtain ⟨q', n', h3, h4, h5, h6⟩ := uuSkip_safe (t.drop 56) (n - 1 - 56) hn1
      have hlen' : (t.drop 56).length = t.length - 56 := List.length_drop
      simp only [uuLines, if_neg hn, show uuDec 0x0a = 42 from by decide, if_neg (show ¬ 42 = 0 by decide)]
      rw [show (42 : Nat) = 3 * 14 from rfl, h1]
      simp only [bind, Except.bind, h3]
      by_cases hn' : n' = 0
      · subst hn'
        exact ⟨o, by cases fuel <;> first | omega | simp [uuLines], by omega⟩
      · exact ih q' n' (k + 1) o (by omega) (fun _ => by omega) h6 (by omega) (by omega) (fun _ => by omega)

/-- **C34** in part: for a body of at least 126 bytes that is followed by at least 56 more readable ones, nothing is read or written outside. Missing: shorter ones, which overflow (`C34_overflow_violation`), and
the right result (`C34_never_violation`). -/
theorem C34_safe_partial {enc : Option Text} (he : decodeEncodingType enc = .uuencode) {t after : Text} (ht : 126 ≤ t.length) (ha : 56 ≤ after.length) :
    ∃ r, unencodeData (t ++ after) t.length enc = .ok r ∧ r.length ≤ t.length := by
  have hfind : ∀ (q : Text) (n : Nat), n + 56 ≤ q.length → ∃ q' n', uuFind q n = (q', n') ∧ n' ≤ n ∧ q.length + n' = q'.length + n := by
    intro q
    induction q with
    | nil => intro n h; exact ⟨[], n, rfl, by omega, rfl⟩
    | cons c q ih =>
      intro n h
      simp only [uuFind]
      split
      · rename_i h6
        simp at h
        obtain ⟨q', n', h1, h2, h3⟩ := ih (n - 1) (by omega)
        exact ⟨q', n', h1, by omega, by simp; omega⟩
      · exact ⟨_, _, rfl, by omega, rfl⟩
  obtain ⟨q, n, h1, h2, h3⟩ := hfind (t ++ after) t.length (by simp; omega)
  simp only [List.length_append] at h3
  obtain ⟨q', n', h4, h5, h6, h7⟩ := uuSkip_safe (q.drop 6) (n - 6) (by simp; omega)
  have hq6 : (q.drop 6).length = q.length - 6 := List.length_drop
  obtain ⟨r, h8, h9⟩ := uuLines_safe t.length ht (t.length + 1) q' n' 0 [] (by omega) (fun _ => by omega) h7 (by simp) (by simp) (fun _ => by omega)
  exact ⟨r, by simp only [unencodeData, he, decodeAs, uuDecode, h1, h4, h8, bind, Except.bind]; rw [if_pos (by omega)], h9⟩

example : ∃ r, unencodeData (List.replicate 130 0x0a ++ List.replicate 60 0x78) 130 (some (bs "x-uuencode")) = .ok r ∧ r.length ≤ 130 :=
  C34_safe_partial (t := List.replicate 130 0x0a) (by decide) (by simp) (by simp)

end Mairix
