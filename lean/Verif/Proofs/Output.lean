import Verif.Spec.Output
import Verif.Proofs.Regex
import Verif.Proofs.Maildir
import Verif.Proofs.Bytes
import Verif.Model.Search

/-!
# Names of results, and results in an mbox
-/

namespace Mairix
open Spec

/-! ## Numbers -/

theorem digits_lt {n : Nat} (h : n < 10) : digits n = [UInt8.ofNat (48 + n)] := by
  simp [digits, Nat.toDigits_of_lt_base h, Nat.toNat_digitChar_of_lt_ten h]

theorem digits_ge {n : Nat} (h : 10 ≤ n) : digits n = digits (n / 10) ++ [UInt8.ofNat (48 + n % 10)] := by
  simp [digits, Nat.toDigits_of_base_le (by decide : 1 < 10) h, Nat.toNat_digitChar_of_lt_ten (Nat.mod_lt n (by decide : 0 < 10))]

theorem ofNat_48 {k : Nat} (h : k < 10) : (UInt8.ofNat (48 + k)).toNat = 48 + k := by
  rw [UInt8.toNat_ofNat', Nat.mod_eq_of_lt (by omega)]

theorem decimal_digits (n : Nat) : decimal (digits n) = n := by
  induction n using Nat.strongRecOn with
  | ind n ih =>
    by_cases h : n < 10
    · rw [digits_lt h]
      simp only [decimal, List.foldl_cons, List.foldl_nil, ofNat_48 h]
      omega
    · have h : 10 ≤ n := by omega
      rw [digits_ge h, decimal, List.foldl_append, ← decimal, ih _ (by omega)]
      simp only [List.foldl_cons, List.foldl_nil, ofNat_48 (Nat.mod_lt n (by decide : 0 < 10))]
      omega

theorem isDigit_digits {n : Nat} {c : UInt8} (h : c ∈ digits n) : isDigit c = true := by
  simp only [digits, List.mem_map] at h
  obtain ⟨d, hd, rfl⟩ := h
  have h := Nat.isDigit_of_mem_toDigits (by decide) (by decide) hd
  simp only [Char.isDigit, Bool.and_eq_true, decide_eq_true_eq] at h
  have h1 : 48 ≤ d.toNat := by have := h.1; exact this
  have h2 : d.toNat ≤ 57 := by have := h.2; exact this
  simp only [isDigit, Bool.and_eq_true, decide_eq_true_eq, UInt8.le_iff_toNat_le, UInt8.toNat_ofNat']
  constructor
  · show 48 ≤ _; omega
  · show _ ≤ 57; omega

theorem digits_length_le {n k : Nat} (hk : 0 < k) : (digits n).length ≤ k ↔ n < 10 ^ k := by
  simp [digits, Nat.length_toDigits_le_iff (by decide : 1 < 10) hk]

/-- A number followed by something that is not a digit can be read back. -/
theorem digits_inj_append {a b : Nat} {s t : Text} {c : UInt8} (hc : isDigit c = false)
    (h : digits a ++ c :: s = digits b ++ c :: t) : a = b := by
  have key : ∀ n (r : Text), (digits n ++ c :: r).takeWhile isDigit = digits n := by
    intro n r
    rw [List.takeWhile_append_of_pos (fun x hx => isDigit_digits hx)]
    simp [hc]
  have := congrArg (List.takeWhile isDigit) h
  rw [key, key] at this
  rw [← decimal_digits a, this, decimal_digits]

theorem digits_inj {a b : Nat} (h : digits a = digits b) : a = b := by
  rw [← decimal_digits a, h, decimal_digits]

/-! ## Names -/

/-- The letters behind the colon. -/
def flagLetters (seen replied flagged : Bool) : Text :=
  (if flagged then bs "F" else []) ++ (if replied then bs "R" else []) ++ (if seen then bs "S" else [])

theorem mkMaildirPath_ok {i : Nat} (hi : i < 2 ^ 31) (dir : Text) (new seen replied flagged : Bool) :
    mkMaildirPath i dir new seen replied flagged =
      .ok (dir ++ ((if new then bs "/new/" else bs "/cur/") ++ (bs "123456789." ++ (digits i ++ (bs ".mairix" ++
        if seen || replied || flagged then bs ":2," ++ flagLetters seen replied flagged else []))))) := by
  have hl : (digits i).length ≤ 10 := (digits_length_le (by decide)).2 (by omega)
  have e1 : (bs "123456789.").length = 10 := by decide
  have e2 : (bs ".mairix").length = 7 := by decide
  have e3 : (bs ":2,").length = 3 := by decide
  have e4 : (bs "F").length = 1 := by decide
  have e5 : (bs "R").length = 1 := by decide
  have e6 : (bs "S").length = 1 := by decide
  have e7 : (bs "/new/").length = 5 := by decide
  have e8 : (bs "/cur/").length = 5 := by decide
  have h1 : intoArray 48 (bs "123456789." ++ digits i ++ bs ".mairix") = .ok (bs "123456789." ++ digits i ++ bs ".mairix") := by
    unfold intoArray
    rw [if_pos]
    simp only [List.length_append, e1, e2]
    omega
  simp only [mkMaildirPath, h1, bind, Except.bind, flagLetters]
  cases new <;> cases seen <;> cases replied <;> cases flagged <;>
    simp only [Bool.false_eq_true, if_false, if_true, Bool.or_true, Bool.or_false, Bool.true_or, Bool.false_or] <;>
    (unfold intoArray; rw [if_pos (by simp only [List.length_append, e1, e2, e3, e4, e5, e6, e7, e8]; omega)]) <;>
    simp

theorem mkMhPath_ok {i : Nat} (hi : i + 1 < 2 ^ 31) (dir : Text) :
    mkMhPath i dir = .ok (dir ++ (bs "/" ++ digits (i + 1))) := by
  have hl : (digits (i + 1)).length ≤ 10 := (digits_length_le (by decide)).2 (by omega)
  have e1 : (bs "/").length = 1 := by decide
  have h1 : intoArray 11 (digits (i + 1)) = .ok (digits (i + 1)) := by
    unfold intoArray; rw [if_pos (by omega)]
  simp only [mkMhPath, hi, if_true, h1, bind, Except.bind]
  unfold intoArray
  rw [if_pos (by simp only [List.length_append, e1]; omega)]
  simp

theorem maildirName_ok {i : Nat} (hi : i < 2 ^ 31) (dir : Text) (m : DbMsg)
    (hm : m.type = DB_MSG_FILE ∨ m.type = DB_MSG_IMAP ∨ m.type = DB_MSG_MBOX) :
    ∃ (new : Bool), maildirName dir i m = .ok (some (dir ++ ((if new then bs "/new/" else bs "/cur/") ++ (bs "123456789." ++ (digits i ++ (bs ".mairix" ++
        if (flagsOf m).1 || (flagsOf m).2.1 || (flagsOf m).2.2 then bs ":2," ++ flagLetters (flagsOf m).1 (flagsOf m).2.1 (flagsOf m).2.2 else [])))))) := by
  rcases hm with h | h | h
  · exact ⟨looksLikeMaildirNew m.path, by simp only [maildirName, h, if_true, mkMaildirPath_ok hi]; rfl⟩
  · exact ⟨false, by simp only [maildirName, h, if_true, mkMaildirPath_ok hi, show ¬ DB_MSG_IMAP = DB_MSG_FILE from by decide, if_false]; rfl⟩
  · exact ⟨!(flagsOf m).1, by simp only [maildirName, h, if_true, mkMaildirPath_ok hi, show ¬ DB_MSG_MBOX = DB_MSG_FILE from by decide,
      show ¬ DB_MSG_MBOX = DB_MSG_IMAP from by decide, if_false]; rfl⟩

/-- The flags read from the name of a link. -/
theorem scan_name {dir mid : Text} (hd : (0x3a : UInt8) ∉ dir) (hm : (0x3a : UInt8) ∉ mid) (s r f : Bool) :
    scanMaildirFlags (dir ++ (mid ++ if s || r || f then bs ":2," ++ flagLetters s r f else [])) = (f, r, s) := by
  by_cases h : (s || r || f) = true
  · rw [if_pos h, ← List.append_assoc, show bs ":2," = [0x3a, 0x32, 0x2c] from by decide]
    have hn : (0x3a : UInt8) ∉ ([0x32, 0x2c] ++ flagLetters s r f) := by
      cases s <;> cases r <;> cases f <;> decide
    have hmem : (0x3a : UInt8) ∈ dir ++ mid ++ ([0x3a, 0x32, 0x2c] ++ flagLetters s r f) := by simp
    have e : dir ++ mid ++ ([0x3a, 0x32, 0x2c] ++ flagLetters s r f) = (dir ++ mid) ++ 0x3a :: ([0x32, 0x2c] ++ flagLetters s r f) := by simp
    simp only [scanMaildirFlags, if_pos hmem]
    rw [e, behind_last hn]
    simp only [List.cons_append, List.nil_append, maildirFlags_spec]
    cases s <;> cases r <;> cases f <;> decide
  · rw [if_neg h]
    have : (0x3a : UInt8) ∉ dir ++ (mid ++ []) := by simp [hd, hm]
    simp only [scanMaildirFlags, if_neg this]
    cases s <;> cases r <;> cases f <;> simp_all

/-! ## `looks_like_maildir_new_p` -/

theorem backToSlash_none {p : Text} : ∀ {i : Nat}, (∀ j, 0 < j → j ≤ i → p[j]? ≠ some 0x2f) → backToSlash p i = 0 := by
  intro i
  induction i with
  | zero => intro _; rfl
  | succ i ih =>
    intro h
    rw [backToSlash, if_neg (h (i + 1) (by omega) (by omega))]
    exact ih fun j h1 h2 => h j h1 (by omega)

theorem backToSlash_some {p : Text} {k : Nat} (hk : 0 < k) (hs : p[k]? = some 0x2f) :
    ∀ {i : Nat}, k ≤ i → (∀ j, k < j → j ≤ i → p[j]? ≠ some 0x2f) → backToSlash p i = k := by
  intro i
  induction i with
  | zero => intro h; omega
  | succ i ih =>
    intro h1 h2
    rw [backToSlash]
    by_cases e : k = i + 1
    · rw [if_pos (by rw [← e]; exact hs), e]
    · rw [if_neg (h2 (i + 1) (by omega) (by omega))]
      exact ih (by omega) fun j h3 h4 => h2 j h3 (by omega)

theorem backToSlash_cases (p : Text) (i : Nat) :
    (backToSlash p i = 0 ∧ ∀ j, 0 < j → j ≤ i → p[j]? ≠ some 0x2f) ∨
    (∃ k, 0 < k ∧ k ≤ i ∧ backToSlash p i = k ∧ p[k]? = some 0x2f ∧ ∀ j, k < j → j ≤ i → p[j]? ≠ some 0x2f) := by
  induction i with
  | zero => left; exact ⟨rfl, fun j h1 h2 => by omega⟩
  | succ i ih =>
    rw [backToSlash]
    by_cases h : p[i + 1]? = some 0x2f
    · right
      exact ⟨i + 1, by omega, by omega, by rw [if_pos h], h, fun j h1 h2 => by omega⟩
    · rw [if_neg h]
      rcases ih with ⟨e, hn⟩ | ⟨k, h1, h2, e, hk, hn⟩
      · left
        refine ⟨e, fun j h1 h2 => ?_⟩
        by_cases hj : j = i + 1
        · rw [hj]; exact h
        · exact hn j h1 (by omega)
      · right
        refine ⟨k, h1, by omega, e, hk, fun j h3 h4 => ?_⟩
        by_cases hj : j = i + 1
        · rw [hj]; exact h
        · exact hn j h3 (by omega)

theorem looksLikeMaildirNew_iff {p : Text} :
    looksLikeMaildirNew p = true ↔ ∃ pre name, pre ≠ [] ∧ p = pre ++ bs "/new/" ++ name ∧ 0x2f ∉ name := by
  have hb : bs "/new/" = [0x2f, 0x6e, 0x65, 0x77, 0x2f] := by decide
  constructor
  · intro h
    simp only [looksLikeMaildirNew] at h
    rcases backToSlash_cases p p.length with ⟨e, _⟩ | ⟨s2, a1, a2, e2, a3, a4⟩
    · rw [if_pos e] at h; cases h
    rw [e2, if_neg (by omega)] at h
    rcases backToSlash_cases p (s2 - 1) with ⟨e, _⟩ | ⟨s1, b1, b2, e1, b3, b4⟩
    · rw [if_pos e] at h; cases h
    rw [e1, if_neg (by omega), beq_iff_eq] at h
    have hsplit : p = p.take s1 ++ bs "/new/" ++ (p.drop s1).drop 5 := by
      rw [← h, List.append_assoc, List.take_append_drop, List.take_append_drop]
    have hlen : s1 ≤ p.length := by
      have := (List.getElem?_eq_some_iff.1 b3).1; omega
    -- the second slash of "/new/" is `s2`
    have h5 : p[s1 + 4]? = some 0x2f := by
      rw [hsplit, List.append_assoc, List.getElem?_append_right (by simp; omega), hb]
      simp [List.length_take, Nat.min_eq_left hlen]
    have hs2 : s2 = s1 + 4 := by
      have x1 : ¬ s2 < s1 + 4 := by
        intro hlt
        exact a4 (s1 + 4) hlt (by have := (List.getElem?_eq_some_iff.1 h5).1; omega) h5
      have x2 : ¬ s1 + 4 < s2 := fun hlt => b4 (s1 + 4) (by omega) (by omega) h5
      omega
    refine ⟨p.take s1, (p.drop s1).drop 5, ?_, hsplit, ?_⟩
    · intro h0
      have := congrArg List.length h0
      simp at this
      rcases this with h | h
      · omega
      · subst h; simp at b3
    · intro hm
      obtain ⟨k, hk⟩ := List.getElem?_of_mem hm
      rw [List.getElem?_drop, List.getElem?_drop] at hk
      exact a4 (s1 + (5 + k)) (by omega) (by have := (List.getElem?_eq_some_iff.1 hk).1; omega) hk
  · rintro ⟨pre, name, hpre, rfl, hn⟩
    have hpos : 0 < pre.length := List.length_pos_iff.2 hpre
    have hidx : ∀ k, (pre ++ bs "/new/" ++ name)[pre.length + k]? = (bs "/new/" ++ name)[k]? := by
      intro k
      rw [List.append_assoc, List.getElem?_append_right (by omega)]
      congr 1; omega
    have hl : (pre ++ bs "/new/" ++ name).length = pre.length + 5 + name.length := by
      rw [hb]; simp; omega
    have e2 : backToSlash (pre ++ bs "/new/" ++ name) (pre ++ bs "/new/" ++ name).length = pre.length + 4 := by
      apply backToSlash_some (by omega)
      · rw [hidx, hb]; rfl
      · rw [hl]; omega
      · intro j h1 h2
        obtain ⟨k, rfl⟩ : ∃ k, j = pre.length + (5 + k) := ⟨j - pre.length - 5, by omega⟩
        rw [hidx, List.getElem?_append_right (by rw [hb]; simp), hb]
        intro hk
        exact hn (List.mem_of_getElem? hk)
    have e1 : backToSlash (pre ++ bs "/new/" ++ name) (pre.length + 4 - 1) = pre.length := by
      apply backToSlash_some hpos
      · have := hidx 0; rw [Nat.add_zero] at this; rw [this, hb]; rfl
      · omega
      · intro j h1 h2
        obtain ⟨k, rfl, hk⟩ : ∃ k, j = pre.length + k ∧ (k = 1 ∨ k = 2 ∨ k = 3) := ⟨j - pre.length, by omega, by omega⟩
        rw [hidx, hb]
        rcases hk with rfl | rfl | rfl <;> simp
    simp only [looksLikeMaildirNew]
    rw [e2, if_neg (by omega), e1, if_neg (by omega), List.append_assoc, List.drop_left, hb]
    simp

/-! ## Results in an mbox -/

theorem fromBytes : bs "From " = [0x46, 0x72, 0x6f, 0x6d, 0x20] := by decide

/-- A From line is one already without what follows the end of its line. -/
theorem fromLine_cut {a b : Text} {base p : Nat} (hb : b = [] ∨ (∃ b', b = 0x0a :: b') ∨ ∃ a', a = a' ++ [0x0a])
    (h : FromLine fromCheck (a ++ b) base p) (hp : p < a.length) : FromLine fromCheck a base p := by
  obtain ⟨hl, rest, h1, h2⟩ := h
  refine ⟨?_, ?_⟩
  · rcases hl with h | ⟨h, h'⟩
    · exact .inl h
    · rw [List.getElem?_append_left (by omega)] at h'
      exact .inr ⟨h, h'⟩
  rw [List.drop_append_of_le_length (by omega)] at h1
  -- `x ++ newline ++ y`, where the line is inside `x`
  have key : ∀ x y r, x ++ 0x0a :: y = bs "From " ++ r → fromCheck r = true → ∃ r1, x = bs "From " ++ r1 ∧ fromCheck r1 = true := by
    intro x y r e hr
    rcases List.append_eq_append_iff.1 e with ⟨c, e1, e2⟩ | ⟨c, e1, e2⟩
    · have hn : (0x0a : UInt8) ∉ bs "From " := by decide
      rw [e1] at hn
      cases c with
      | nil =>
        simp only [List.append_nil] at e1
        simp only [List.nil_append] at e2
        refine ⟨[], by rw [e1]; simp, ?_⟩
        have := From.fromCheck_line (s := []) (t := y) (by rw [List.nil_append, e2]; exact hr)
        exact this
      | cons d c =>
        simp only [List.cons_append, List.cons.injEq] at e2
        exact absurd (by rw [← e2.1]; simp) hn
    · refine ⟨c, e1, ?_⟩
      rw [e2] at hr
      exact From.fromCheck_line hr
  rcases hb with rfl | ⟨b', rfl⟩ | ⟨a', rfl⟩
  · exact ⟨rest, by simpa using h1, h2⟩
  · exact key _ _ _ h1 h2
  · rw [List.length_append, List.length_singleton] at hp
    rw [List.drop_append_of_le_length (by omega), List.append_assoc] at h1
    obtain ⟨r1, e1, e2⟩ := key _ _ _ h1 h2
    refine ⟨r1 ++ [0x0a], ?_, From.fromCheck_append _ e2⟩
    rw [List.drop_append_of_le_length (by omega), e1, List.append_assoc]

/-- What is written for a result behind its From line. -/
def Found.written : Found → Text
  | .file path data => bs "X-source-folder: " ++ path ++ bs "\n" ++ data ++ mboxTerminate data
  | .imap data => data ++ bs "\n"
  | .mbox path data => bs "X-source-folder: " ++ path ++ bs "\n" ++ data ++ mboxTerminate data

theorem appended_eq (f : Found) : f.appended = artificialFrom ++ f.written := by
  cases f <;> simp [Found.appended, Found.written, appendMessage, appendData]

theorem terminate_cases (data : Text) : mboxTerminate data = [] ∨ mboxTerminate data = [0x0a] ∨ mboxTerminate data = [0x0a, 0x0a] := by
  unfold mboxTerminate
  split
  · exact .inr (.inl (by decide))
  split
  · split
    · exact .inr (.inl (by decide))
    · exact .inl rfl
  split
  · exact .inr (.inr (by decide))
  split
  · exact .inr (.inl (by decide))
  · exact .inl rfl

theorem last_of_getElem? {l : Text} {c : UInt8} (h : l[l.length - 1]? = some c) : ∃ l', l = l' ++ [c] := by
  rw [← List.getLast?_eq_getElem?] at h
  exact List.getLast?_eq_some_iff.1 h

theorem header_bytes : bs "\n" = [0x0a] ∧ (0x0a : UInt8) ∉ bs "X-source-folder: " ∧
    bs "X-source-folder: " = 0x58 :: bs "-source-folder: " := by decide

theorem message_ends (path data : Text) :
    ∃ x, bs "X-source-folder: " ++ path ++ bs "\n" ++ data ++ mboxTerminate data = x ++ [0x0a] := by
  have hb := header_bytes.1
  rcases terminate_cases data with e | e | e
  · rw [e, List.append_nil]
    unfold mboxTerminate at e
    split at e
    · rw [hb] at e; cases e
    split at e
    · next h0 h1 =>
      split at e
      · rw [hb] at e; cases e
      · next h2 =>
        match data, h1 with
        | [c], _ =>
          simp only [List.getElem?_cons_zero, ne_eq, Decidable.not_not, Option.some.injEq] at h2
          subst h2
          exact ⟨_, rfl⟩
    split at e
    · have : bs "\n\n" = [0x0a, 0x0a] := by decide
      rw [this] at e; cases e
    · next h =>
      obtain ⟨l, hl⟩ := last_of_getElem? (l := data) (c := 0x0a) (by simpa using h)
      exact ⟨bs "X-source-folder: " ++ path ++ bs "\n" ++ l, by rw [List.append_assoc _ l, ← hl]⟩
  · rw [e]; exact ⟨_, rfl⟩
  · rw [e]; exact ⟨bs "X-source-folder: " ++ path ++ bs "\n" ++ data ++ [0x0a], by simp⟩

theorem written_ends (f : Found) : ∃ x, f.written = x ++ [0x0a] := by
  cases f with
  | file path data => exact message_ends path data
  | mbox path data => exact message_ends path data
  | imap data => exact ⟨data, by simp [Found.written, header_bytes.1]⟩

theorem noFrom_message {path data : Text} (hp : 0x0a ∉ path) (hd : NoFrom data) :
    NoFrom (bs "X-source-folder: " ++ path ++ bs "\n" ++ data ++ mboxTerminate data) := by
  intro p h
  obtain ⟨hb, hx, hX⟩ := header_bytes
  rw [List.append_assoc, hb, List.append_assoc (bs "X-source-folder: " ++ path)] at h
  generalize hH : bs "X-source-folder: " ++ path = H at h
  have hHn : (0x0a : UInt8) ∉ H := by rw [← hH]; simp [hx, hp]
  obtain ⟨hl, rest, h1, h2⟩ := h
  rcases hl with rfl | ⟨h0, hl⟩
  · rw [List.drop_zero, ← hH, hX, fromBytes] at h1
    simp at h1
  by_cases hlt : p ≤ H.length
  · rw [List.getElem?_append_left (by omega)] at hl
    exact hHn (List.mem_of_getElem? hl)
  obtain ⟨k, rfl⟩ : ∃ k, p = H.length + 1 + k := ⟨p - H.length - 1, by omega⟩
  -- a From line of the data
  have hdrop : (H ++ ([0x0a] ++ (data ++ mboxTerminate data))).drop (H.length + 1 + k) = (data ++ mboxTerminate data).drop k := by
    rw [← List.append_assoc, ← List.drop_drop]
    congr 1
    rw [List.drop_left' (by simp)]
  rw [hdrop] at h1
  have hls : LineStart (data ++ mboxTerminate data) 0 k := by
    by_cases hk : k = 0
    · exact .inl hk
    · refine .inr ⟨by omega, ?_⟩
      have hlen : (H ++ [0x0a]).length = H.length + 1 := by simp
      rw [← hl, ← List.append_assoc, List.getElem?_append_right (l₁ := H ++ [0x0a]) (by omega)]
      congr 1
      omega
  have hlt : k < data.length := by
    apply Nat.lt_of_not_le
    intro hge
    have hlen := congrArg List.length h1
    simp only [List.length_drop, List.length_append, fromBytes, List.length_cons] at hlen
    rcases terminate_cases data with e | e | e <;> rw [e] at hlen <;> simp at hlen <;> omega
  refine hd k (fromLine_cut (b := mboxTerminate data) ?_ ⟨hls, rest, h1, h2⟩ hlt)
  rcases terminate_cases data with e | e | e
  · exact .inl e
  · exact .inr (.inl ⟨[], e⟩)
  · exact .inr (.inl ⟨[0x0a], e⟩)

theorem noFrom_written {f : Found} (h : CleanFound f) : NoFrom f.written := by
  cases f with
  | file path data => exact noFrom_message h.1 h.2
  | mbox path data => exact noFrom_message h.1 h.2
  | imap data =>
    intro p hf
    by_cases hlt : p < data.length
    · exact h p (fromLine_cut (b := bs "\n") (.inr (.inl ⟨[], by decide⟩)) hf hlt)
    · obtain ⟨_, rest, h1, _⟩ := hf
      have hlen := congrArg List.length h1
      simp only [Found.written, List.length_drop, List.length_append, fromBytes, List.length_cons, header_bytes.1, List.length_nil] at hlen
      omega

theorem artificial : ∃ r, artificialFrom = bs "From " ++ (r ++ [0x0a]) ∧ (0x0a : UInt8) ∉ bs "From " ++ r ∧ fromCheck (r ++ [0x0a]) = true :=
  ⟨bs "mairix@mairix Mon Jan  1 12:34:56 1970", by decide, by decide, by decide +kernel⟩

theorem splits_output (l : List Found) (h : ∀ f ∈ l, CleanFound f) : ∀ (pre : Text),
    ∃ ps, Splits fromCheck (pre ++ mboxOutput l) pre.length ps ∧
      ps.map (fun p => ((pre ++ mboxOutput l).drop p.1).take p.2) = l.map Found.written := by
  induction l with
  | nil =>
    intro pre
    refine ⟨[], .none ?_, rfl⟩
    rintro p hp ⟨_, rest, h1, _⟩
    rw [show mboxOutput [] = [] from rfl, List.append_nil, List.drop_eq_nil_of_le hp, fromBytes] at h1
    cases h1
  | cons f l ih =>
    intro pre
    obtain ⟨r, ar, arn, arc⟩ := artificial
    obtain ⟨wb, hwb⟩ := written_ends f
    have hva : pre ++ mboxOutput (f :: l) = (pre ++ artificialFrom) ++ (f.written ++ mboxOutput l) := by
      simp [mboxOutput, appended_eq]
    have hva' : pre ++ mboxOutput (f :: l) = (pre ++ artificialFrom ++ f.written) ++ mboxOutput l := by
      rw [hva]; simp only [List.append_assoc]
    have hdrop : (pre ++ mboxOutput (f :: l)).drop pre.length = artificialFrom ++ (f.written ++ mboxOutput l) := by
      rw [hva, List.append_assoc, List.drop_left]
    have hfirst : First (FromLine fromCheck (pre ++ mboxOutput (f :: l)) pre.length) pre.length pre.length := by
      refine ⟨Nat.le_refl _, ⟨.inl rfl, (r ++ [0x0a]) ++ (f.written ++ mboxOutput l), ?_, From.fromCheck_append _ arc⟩, fun q h1 h2 => by omega⟩
      rw [hdrop, ar]; simp
    have hnext : NextLine (pre ++ mboxOutput (f :: l)) pre.length (pre ++ artificialFrom).length := by
      refine ⟨bs "From " ++ r, f.written ++ mboxOutput l, ?_, arn, ?_⟩
      · rw [hdrop, ar]; simp
      · rw [ar]; simp; omega
    have hdrops : (pre ++ mboxOutput (f :: l)).drop (pre ++ artificialFrom).length = f.written ++ mboxOutput l := by
      rw [hva, List.drop_left]
    have hpos : 0 < f.written.length := by rw [hwb]; simp
    have hlt : (pre ++ artificialFrom).length < (pre ++ mboxOutput (f :: l)).length := by
      rw [hva, List.length_append (as := pre ++ artificialFrom), List.length_append (as := f.written)]; omega
    -- no From line inside the message
    have hno : ∀ q, (pre ++ artificialFrom).length ≤ q → q < (pre ++ artificialFrom).length + f.written.length →
        ¬ FromLine fromCheck (pre ++ mboxOutput (f :: l)) (pre ++ artificialFrom).length q := by
      intro q h1 h2 hq
      obtain ⟨k, rfl⟩ : ∃ k, q = (pre ++ artificialFrom).length + k := ⟨q - (pre ++ artificialFrom).length, by omega⟩
      refine noFrom_written (h f (by simp)) k (fromLine_cut (b := mboxOutput l) (.inr (.inr ⟨wb, hwb⟩)) ?_ (by omega))
      obtain ⟨hl, rest, e1, e2⟩ := hq
      refine ⟨?_, rest, ?_, e2⟩
      · rcases hl with hl | ⟨hl, hl'⟩
        · exact .inl (by omega)
        · refine .inr ⟨by omega, ?_⟩
          rw [hva, List.getElem?_append_right (by omega)] at hl'
          rw [← hl']
          congr 1
          omega
      · rw [← e1, hva, ← List.drop_drop, List.drop_left]
    cases l with
    | nil =>
      have hend : mboxOutput [] = [] := rfl
      have hlen : (pre ++ mboxOutput [f]).length = (pre ++ artificialFrom).length + f.written.length := by
        rw [hva, hend, List.append_nil, List.length_append (as := pre ++ artificialFrom)]
      refine ⟨_, .last hfirst hnext hlt ?_, ?_⟩
      · intro q h1 hq
        apply hno q h1 ?_ hq
        obtain ⟨_, rest, e1, _⟩ := hq
        have := congrArg List.length e1
        rw [List.length_drop, hlen, List.length_append (as := bs "From "), show (bs "From ").length = 5 from by decide] at this
        omega
      · simp only [List.map_cons, List.map_nil, hdrops, hend, List.append_nil]
        rw [List.take_of_length_le (by omega)]
    | cons g l =>
      obtain ⟨ps, hs, hm⟩ := ih (fun f hf => h f (by simp [hf])) (pre ++ artificialFrom ++ f.written)
      rw [← hva'] at hs hm
      have hg : First (FromLine fromCheck (pre ++ mboxOutput (f :: g :: l)) (pre ++ artificialFrom).length)
          (pre ++ artificialFrom).length (pre ++ artificialFrom ++ f.written).length := by
        refine ⟨by simp only [List.length_append]; omega, ⟨.inr ⟨by simp only [List.length_append] at hpos ⊢; omega, ?_⟩, (r ++ [0x0a]) ++ (g.written ++ mboxOutput l), ?_, From.fromCheck_append _ arc⟩, ?_⟩
        · rw [hva', List.getElem?_append_left (by simp only [List.length_append]; omega), hwb, ← List.append_assoc]
          have hlen : (pre ++ artificialFrom ++ wb ++ [0x0a]).length = (pre ++ artificialFrom ++ wb).length + 1 := by
            rw [List.length_append (as := pre ++ artificialFrom ++ wb)]; rfl
          rw [hlen, Nat.add_sub_cancel, List.getElem?_append_right (Nat.le_refl _), Nat.sub_self]
          rfl
        · rw [hva', List.drop_left, mboxOutput, List.flatMap_cons, appended_eq, ar]
          simp [mboxOutput]
        · intro q h1 h2
          rw [List.length_append (as := pre ++ artificialFrom)] at h2
          exact hno q h1 h2
      refine ⟨_, .more hfirst hnext hlt hg hs, ?_⟩
      rw [List.map_cons, hm, hdrops]
      simp only [List.map_cons, List.cons.injEq, and_true]
      rw [List.length_append (as := pre ++ artificialFrom), Nat.add_sub_cancel_left, List.take_left]

end Mairix
