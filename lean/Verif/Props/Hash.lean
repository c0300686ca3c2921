import Verif.Spec.Hash
import Verif.Proofs.Bytes

/-!
# C86: the hash function
-/

namespace Mairix
open Spec

theorem sub_sub_eq (x y z : UInt32) : x - y - z = x - (y + z) := by
  simp only [UInt32.sub_eq_add_neg, UInt32.neg_add, UInt32.add_assoc]

theorem hashMix_mixed (s : HashState) : hashMix s = mixed s := by
  simp only [hashMix, mixed, mixRound, sub_sub_eq]

theorem shift_byte : ∀ x : UInt8, x.toUInt32 <<< 0 = UInt32.ofNat x.toNat ∧ x.toUInt32 <<< 8 = UInt32.ofNat (256 * x.toNat) ∧ x.toUInt32 <<< 16 = UInt32.ofNat (65536 * x.toNat) ∧
    x.toUInt32 <<< 24 = UInt32.ofNat (16777216 * x.toNat) := by
  apply forall_byte
  decide +kernel

theorem hashWord_ok {mem : Text} {i : Nat} {x0 x1 x2 x3 : UInt8} (h0 : mem[i]? = some x0) (h1 : mem[i + 1]? = some x1) (h2 : mem[i + 2]? = some x2) (h3 : mem[i + 3]? = some x3) :
    hashWord mem i = .ok (UInt32.ofNat (number [x0, x1, x2, x3])) := by
  simp only [hashWord, hashByte, h0, h1, h2, h3, bind, Except.bind, (shift_byte _).1, (shift_byte _).2.1, (shift_byte _).2.2.1, (shift_byte _).2.2.2, ← UInt32.ofNat_add, number]
  congr 2
  omega

theorem hashLoop_block {mem : Text} {len : Nat} {s : HashState} {block : Text} (hb : block.length = 12) (hl : 12 ≤ len) : hashLoop (block ++ mem) len s = hashLoop mem (len - 12) (absorbed s block) := by
  match block, hb with
  | [x0, x1, x2, x3, x4, x5, x6, x7, x8, x9, x10, x11], _ =>
    rw [hashLoop, dif_pos hl]
    rw [hashWord_ok (x0 := x0) (x1 := x1) (x2 := x2) (x3 := x3) rfl rfl rfl rfl, hashWord_ok (x0 := x4) (x1 := x5) (x2 := x6) (x3 := x7) rfl rfl rfl rfl,
      hashWord_ok (x0 := x8) (x1 := x9) (x2 := x10) (x3 := x11) rfl rfl rfl rfl]
    simp only [bind, Except.bind, hashMix_mixed]
    rfl

theorem hashLoop_blocks : ∀ (blocks : List Text), (∀ b ∈ blocks, b.length = 12) → ∀ {rest : Text} {n : Nat} {s : HashState}, n < 12 →
    hashLoop (blocks.flatten ++ rest) (12 * blocks.length + n) s = .ok (rest, n, blocks.foldl absorbed s)
  | [], _, rest, n, s, hn => by
    rw [hashLoop, dif_neg (by simp; omega)]
    simp
  | b :: blocks, h, rest, n, s, hn => by
    rw [List.flatten_cons, List.append_assoc, hashLoop_block (h b (by simp)) (by simp; omega)]
    rw [show 12 * (b :: blocks).length + n - 12 = 12 * blocks.length + n by simp; omega, hashLoop_blocks blocks (fun b' h' => h b' (by simp [h'])) hn]
    rfl

/-- Byte `i`, 0 if there is none. -/
def byteOr0 (l : Text) (i : Nat) : Nat := ((l[i]?).map UInt8.toNat).getD 0

theorem number_four : ∀ l : Text, number (l.take 4) = byteOr0 l 0 + 256 * byteOr0 l 1 + 65536 * byteOr0 l 2 + 16777216 * byteOr0 l 3
  | [] => rfl
  | [_] => by simp [number, byteOr0]
  | [_, _] => by simp [number, byteOr0]
  | [_, _, _] => by simp [number, byteOr0]; omega
  | _ :: _ :: _ :: _ :: _ => by simp [number, byteOr0]; omega

theorem byteOr0_drop (l : Text) (n i : Nat) : byteOr0 (l.drop n) i = byteOr0 l (i + n) := by
  rw [Nat.add_comm]
  simp [byteOr0, List.getElem?_drop]

theorem hashCase_ok (rest after : Text) {i : Nat} {sh : UInt32} {f : Nat} (hf : ∀ x : UInt8, x.toUInt32 <<< sh = UInt32.ofNat (f * x.toNat)) :
    hashCase (rest ++ after) rest.length (i + 1) sh = .ok (UInt32.ofNat (f * byteOr0 rest i)) := by
  unfold hashCase hashByte byteOr0
  split
  · rename_i h
    rw [Nat.add_sub_cancel, List.getElem?_append_left (by omega), List.getElem?_eq_getElem (by omega)]
    simp [hf]
  · rename_i h
    rw [List.getElem?_eq_none (by omega)]
    rfl

/-- **C86, the function.** Whatever is in memory after the text, the hash of a text is that of Jenkins' function: it is determined by the bytes and the key, and no byte after the text is read. -/
theorem C86_hash {blocks : List Text} {rest : Text} (hb : ∀ b ∈ blocks, b.length = 12) (hr : rest.length < 12) (after : Text) (key : UInt32) :
    hashFunction (blocks.flatten ++ rest ++ after) (12 * blocks.length + rest.length) key = .ok (hashedState key blocks rest).c := by
  rw [hashFunction, List.append_assoc, hashLoop_blocks blocks hb hr]
  simp only [bind, Except.bind]
  unfold hashedState
  generalize blocks.foldl absorbed ⟨0x9e3779b9, 0x9e3779b9, key⟩ = s0
  rw [hashCase_ok (i := 10) (f := 16777216) _ _ fun x => (shift_byte x).2.2.2, hashCase_ok (i := 9) (f := 65536) _ _ fun x => (shift_byte x).2.2.1,
    hashCase_ok (i := 8) (f := 256) _ _ fun x => (shift_byte x).2.1, hashCase_ok (i := 7) (f := 16777216) _ _ fun x => (shift_byte x).2.2.2,
    hashCase_ok (i := 6) (f := 65536) _ _ fun x => (shift_byte x).2.2.1, hashCase_ok (i := 5) (f := 256) _ _ fun x => (shift_byte x).2.1,
    hashCase_ok (i := 4) (f := 1) _ _ fun x => by rw [Nat.one_mul]; exact (shift_byte x).1, hashCase_ok (i := 3) (f := 16777216) _ _ fun x => (shift_byte x).2.2.2,
    hashCase_ok (i := 2) (f := 65536) _ _ fun x => (shift_byte x).2.2.1, hashCase_ok (i := 1) (f := 256) _ _ fun x => (shift_byte x).2.1,
    hashCase_ok (i := 0) (f := 1) _ _ fun x => by rw [Nat.one_mul]; exact (shift_byte x).1]
  simp only [hashMix_mixed, UInt32.add_assoc, ← UInt32.ofNat_add]
  have h8 : number (rest.drop 8) = byteOr0 rest 8 + 256 * byteOr0 rest 9 + 65536 * byteOr0 rest 10 := by
    rw [← List.take_of_length_le (l := rest.drop 8) (i := 4) (by rw [List.length_drop]; omega), number_four]
    simp only [byteOr0_drop, Nat.reduceAdd]
    have : byteOr0 rest 11 = 0 := by
      unfold byteOr0
      rw [List.getElem?_eq_none (by omega)]
      rfl
    omega
  simp only [added, number_four, byteOr0_drop, h8, Nat.reduceAdd]
  congr 6 <;> omega

theorem split_blocks : ∀ (n : Nat) (t : Text), t.length < n → ∃ (blocks : List Text) (rest : Text), t = blocks.flatten ++ rest ∧ (∀ b ∈ blocks, b.length = 12) ∧ rest.length < 12
  | 0, t, h => absurd h (by omega)
  | n + 1, t, h => by
    by_cases hl : t.length < 12
    · exact ⟨[], t, rfl, by simp, hl⟩
    · obtain ⟨blocks, rest, h1, h2, h3⟩ := split_blocks n (t.drop 12) (by rw [List.length_drop]; omega)
      refine ⟨t.take 12 :: blocks, rest, ?_, ?_, h3⟩
      · rw [List.flatten_cons, List.append_assoc, ← h1, List.take_append_drop]
      · intro b hb
        rcases List.mem_cons.1 hb with rfl | hb
        · rw [List.length_take]; omega
        · exact h2 b hb

/-- **C86, nothing else is read.** The hash of any text is computed without reading outside the text, and does not depend on what comes after it. -/
theorem C86_only_text (t : Text) (key : UInt32) : ∃ v, ∀ after, hashFunction (t ++ after) t.length key = .ok v := by
  obtain ⟨blocks, rest, rfl, h2, h3⟩ := split_blocks _ t (Nat.lt_succ_self _)
  refine ⟨(hashedState key blocks rest).c, fun after => ?_⟩
  rw [List.length_append, show blocks.flatten.length = 12 * blocks.length by
    rw [List.length_flatten]
    clear h3
    induction blocks with
    | nil => rfl
    | cons b bs ih => rw [List.map_cons, List.sum_cons, ih fun b' h' => h2 b' (by simp [h']), h2 b (by simp), List.length_cons]; omega]
  exact C86_hash h2 h3 after key

/-- Undoing a round. -/
def unmixRound (i j k : UInt32) (s : HashState) : HashState :=
  let c := (s.c ^^^ (s.b >>> k)) + (s.a + s.b)
  let b := (s.b ^^^ (s.a <<< j)) + (c + s.a)
  let a := (s.a ^^^ (c >>> i)) + (b + c)
  ⟨a, b, c⟩

theorem xor_xor (x y : UInt32) : (x ^^^ y) ^^^ y = x := by rw [UInt32.xor_assoc, UInt32.xor_self, UInt32.xor_zero]

theorem unmix_mix (i j k : UInt32) (s : HashState) : unmixRound i j k (mixRound i j k s) = s := by
  simp only [unmixRound, mixRound, xor_xor, UInt32.sub_add_cancel]

theorem mix_unmix (i j k : UInt32) (s : HashState) : mixRound i j k (unmixRound i j k s) = s := by
  simp only [unmixRound, mixRound, xor_xor, UInt32.add_sub_cancel]

/-- **C86, mixing loses nothing**: each state is what becomes of exactly one state. -/
theorem C86_mix_reversible : ∃ back : HashState → HashState, ∀ s, back (hashMix s) = s ∧ hashMix (back s) = s := by
  refine ⟨fun s => unmixRound 13 8 13 (unmixRound 12 16 5 (unmixRound 3 10 15 s)), fun s => ⟨?_, ?_⟩⟩
  · rw [hashMix_mixed]
    simp only [mixed, unmix_mix]
  · rw [hashMix_mixed]
    simp only [mixed, mix_unmix]

theorem mixed_inj {s s' : HashState} (h : mixed s = mixed s') : s = s' := by
  obtain ⟨back, hb⟩ := C86_mix_reversible
  rw [← (hb s).1, ← (hb s').1, hashMix_mixed, hashMix_mixed, h]

theorem number_lt : ∀ l : Text, number l < 256 ^ l.length
  | [] => by simp [number]
  | x :: l => by
    have := number_lt l
    have hx := x.toNat_lt
    simp only [number, List.length_cons, Nat.pow_succ]
    omega

theorem number_inj : ∀ {l l' : Text}, l.length = l'.length → number l = number l' → l = l'
  | [], [], _, _ => rfl
  | x :: l, y :: l', h, e => by
    have hx := x.toNat_lt
    have hy := y.toNat_lt
    simp only [number] at e
    have h1 : x.toNat = y.toNat := by omega
    have h2 : number l = number l' := by omega
    rw [UInt8.toNat_inj.1 h1, number_inj (by simpa using h) h2]

theorem ofNat_small {n n' : Nat} (h : n < 2 ^ 32) (h' : n' < 2 ^ 32) (e : UInt32.ofNat n = UInt32.ofNat n') : n = n' := by
  have := congrArg UInt32.toNat e
  rwa [UInt32.toNat_ofNat_of_lt' h, UInt32.toNat_ofNat_of_lt' h'] at this

theorem added_inj {s s' : HashState} {x y z x' y' z' : Nat} (h : added s x y z = added s' x' y' z') :
    (s = s' → UInt32.ofNat x = UInt32.ofNat x' ∧ UInt32.ofNat y = UInt32.ofNat y' ∧ UInt32.ofNat z = UInt32.ofNat z') ∧ (x = x' → y = y' → z = z' → s = s') := by
  simp only [added, HashState.mk.injEq] at h
  obtain ⟨h1, h2, h3⟩ := h
  constructor
  · rintro rfl
    exact ⟨UInt32.add_right_inj _ |>.1 h1, UInt32.add_right_inj _ |>.1 h2, UInt32.add_right_inj _ |>.1 h3⟩
  · rintro rfl rfl rfl
    obtain ⟨a, b, c⟩ := s
    obtain ⟨a', b', c'⟩ := s'
    rw [UInt32.add_left_inj] at h1 h2 h3
    simp only at h1 h2 h3
    rw [h1, h2, h3]

theorem parts_of_block {b b' : Text} (hb : b.length = b'.length) (h1 : number (b.take 4) = number (b'.take 4)) (h2 : number ((b.drop 4).take 4) = number ((b'.drop 4).take 4))
    (h3 : number (b.drop 8) = number (b'.drop 8)) : b = b' := by
  have e1 := number_inj (by simp [hb]) h1
  have e2 := number_inj (by simp [hb]) h2
  have e3 := number_inj (by simp [hb]) h3
  have split : ∀ l : Text, l = l.take 4 ++ ((l.drop 4).take 4 ++ l.drop 8) := by
    intro l
    conv => lhs; rw [← List.take_append_drop 4 l, ← List.take_append_drop 4 (l.drop 4), List.drop_drop]
  rw [split b, split b', e1, e2, e3]

theorem number_small {l : Text} (h : l.length ≤ 4) : number l < 2 ^ 32 := by
  have := number_lt l
  have : 256 ^ l.length ≤ 256 ^ 4 := Nat.pow_le_pow_right (by decide) h
  omega

theorem small_take (l : Text) : number (l.take 4) < 2 ^ 32 := number_small (by rw [List.length_take]; omega)

theorem absorbed_inj {s s' : HashState} {b b' : Text} (hb : b.length = 12) (hb' : b'.length = 12) (h : absorbed s b = absorbed s' b') : (s = s' → b = b') ∧ (b = b' → s = s') := by
  obtain ⟨k1, k2⟩ := added_inj (mixed_inj h)
  refine ⟨fun e => ?_, fun e => by subst e; exact k2 rfl rfl rfl⟩
  obtain ⟨x, y, z⟩ := k1 e
  exact parts_of_block (by rw [hb, hb']) (ofNat_small (small_take _) (small_take _) x) (ofNat_small (small_take _) (small_take _) y)
    (ofNat_small (number_small (by simp [hb])) (number_small (by simp [hb'])) z)

theorem foldl_absorbed_inj : ∀ {blocks : List Text} {s s' : HashState}, (∀ b ∈ blocks, b.length = 12) → blocks.foldl absorbed s = blocks.foldl absorbed s' → s = s'
  | [], _, _, _, h => h
  | b :: blocks, s, s', hb, h => (absorbed_inj (hb b (by simp)) (hb b (by simp)) (foldl_absorbed_inj (fun b' h' => hb b' (by simp [h'])) h)).2 rfl

/-- **C86, states.** In the end the state (of which the hash is a third) tells different keys, texts that differ in one block, and words that differ in the bytes after the last block, apart; so it tells any two words of the same
length of less than 12 bytes apart. -/
theorem C86_states {blocks : List Text} {rest : Text} {key : UInt32} (hb : ∀ b ∈ blocks, b.length = 12) (hr : rest.length < 12) :
    (∀ key', hashedState key blocks rest = hashedState key' blocks rest → key = key') ∧
    (∀ rest', rest'.length = rest.length → hashedState key blocks rest = hashedState key blocks rest' → rest = rest') ∧
    (∀ pre b b' post, blocks = pre ++ b :: post → b'.length = 12 → hashedState key blocks rest = hashedState key (pre ++ b' :: post) rest → b = b') := by
  refine ⟨?_, ?_, ?_⟩
  · intro key' h
    have := foldl_absorbed_inj hb ((added_inj (mixed_inj h)).2 rfl rfl rfl)
    simpa using this
  · intro rest' hl h
    obtain ⟨x, y, z⟩ := (added_inj (mixed_inj h)).1 rfl
    refine parts_of_block hl.symm (ofNat_small (small_take _) (small_take _) x) (ofNat_small (small_take _) (small_take _) y) ?_
    rw [hl, UInt32.ofNat_add, UInt32.ofNat_add (12 * blocks.length + rest.length), UInt32.add_right_inj] at z
    have hlt : ∀ l : Text, l.length < 12 → 256 * number (l.drop 8) < 2 ^ 32 := by
      intro l h
      have h1 := number_lt (l.drop 8)
      have : 256 ^ (l.drop 8).length ≤ 256 ^ 3 := Nat.pow_le_pow_right (by decide) (by rw [List.length_drop]; omega)
      omega
    have := ofNat_small (hlt _ hr) (hlt _ (by omega)) z
    omega
  · rintro pre b b' post rfl hb' h
    have h := (added_inj (mixed_inj h)).2 rfl rfl (by simp)
    rw [List.foldl_append, List.foldl_append, List.foldl_cons, List.foldl_cons] at h
    exact (absorbed_inj (hb b (by simp)) hb' (foldl_absorbed_inj (fun b' h' => hb b' (by simp [h'])) h)).1 rfl

/-- Two words, in memory with something after them. -/
example : hashFunction (bs "mairix" ++ bs " more") 6 1 = .ok 3135729202 ∧ hashFunction (bs "attachment0123" ++ bs " more") 14 7 = .ok 3265250103 := by
  have h1 := C86_hash (blocks := []) (rest := bs "mairix") (by simp) (by decide) (bs " more") 1
  have h2 := C86_hash (blocks := [bs "attachment01"]) (rest := bs "23") (by decide) (by decide) (bs " more") 7
  rw [show (hashedState 1 [] (bs "mairix")).c = 3135729202 by decide +kernel] at h1
  rw [show (hashedState 7 [bs "attachment01"] (bs "23")).c = 3265250103 by decide +kernel] at h2
  exact ⟨h1, h2⟩

/-- Reading past the end of the memory would be seen. -/
example : hashFunction (bs "mairix") 7 1 = .error .outOfBounds := by
  rw [hashFunction, hashLoop]
  decide +kernel

end Mairix
