import Verif.Proofs.Md5Block

/-!
# The code of `md5.c` computes MD5
-/

namespace Mairix

open Spec

seal mdTransform md5Block md5Blocks

/-- The state of the loop after a text. -/
structure Absorbed (s : Nat × Md5) (ms : List UInt8) : Prop where
  len : s.2.inp.length = 64
  split : ∃ t rest n, ms = t ++ rest ∧ t.length = 64 * n ∧ rest.length = s.1 ∧ s.1 < 64 ∧ s.2.inp.take s.1 = rest ∧ s.2.buf.quad 0 = md5Blocks t

/-- Said apart so that nothing need be computed to check it. -/
theorem counts_kept (i mdi : Nat) (m : Md5) (b : MdRegs) (inp : List UInt8) :
    ((i, { m with inp := inp, buf := b }) : Nat × Md5).2.i0 = ((mdi, m) : Nat × Md5).2.i0 ∧ ((i, { m with inp := inp, buf := b }) : Nat × Md5).2.i1 = ((mdi, m) : Nat × Md5).2.i1 := ⟨rfl, rfl⟩

theorem byte_absorbed {s : Nat × Md5} {ms : List UInt8} (h : Absorbed s ms) (c : UInt8) : ∃ s', Md5.byte s c = .ok s' ∧ Absorbed s' (ms ++ [c]) ∧ s'.2.i0 = s.2.i0 ∧ s'.2.i1 = s.2.i1 := by
  obtain ⟨mdi, m⟩ := s
  obtain ⟨hl, t, rest, n, rfl, h1, h2, h3, h4, h5⟩ := h
  simp only at hl h2 h3 h4 h5
  have hset : (m.inp.set mdi c).take (mdi + 1) = rest ++ [c] := by
    rw [List.take_add_one, List.getElem?_set_self (by omega), List.take_set_of_le (by omega), h4]; rfl
  by_cases h6 : mdi + 1 = 0x40
  · have e : Md5.byte (mdi, m) c = .ok (0, { m with inp := m.inp.set mdi c, buf := mdTransform m.buf (mdWords (m.inp.set mdi c) 16) }) := by
      simp only [Md5.byte]
      rw [if_pos h3, if_pos h6]
    have hb : m.inp.set mdi c = rest ++ [c] := by rw [← hset, h6, List.take_of_length_le (by rw [List.length_set]; omega)]
    have hq : (mdTransform m.buf (mdWords (m.inp.set mdi c) 16)).quad 0 = md5Blocks (t ++ (rest ++ [c])) := by
      have := md5Blocks_snoc (t := t) (b := rest ++ [c]) (rest := []) h1 (by rw [← hb, List.length_set]; exact hl) (by decide)
      rw [List.append_nil] at this
      rw [this, ← h5, ← hb]
      exact transform_block (fun k hk => mdWords_eq hk) _
    generalize mdTransform m.buf (mdWords (m.inp.set mdi c) 16) = r at e hq
    refine ⟨(0, { m with inp := m.inp.set mdi c, buf := r }), e, ⟨?_, t ++ (rest ++ [c]), [], n + 1, ?_, ?_, List.length_nil, ?_, ?_, hq⟩, counts_kept ..⟩
    · simp only [List.length_set, hl]
    · simp only [List.append_assoc, List.append_nil]
    · simp only [List.length_append, List.length_singleton]; omega
    · exact Nat.zero_lt_succ 63
    · simp only [List.take_zero]
  · have e : Md5.byte (mdi, m) c = .ok (mdi + 1, { m with inp := m.inp.set mdi c }) := by
      simp only [Md5.byte]
      rw [if_pos h3, if_neg h6]
    refine ⟨_, e, ⟨?_, t, rest ++ [c], n, ?_, h1, ?_, ?_, hset, h5⟩, rfl, rfl⟩
    · simp only [List.length_set, hl]
    · simp only [List.append_assoc]
    · simp only [List.length_append, List.length_singleton, h2]
    · simp only; omega

theorem bytes_absorbed : ∀ (cs : List UInt8) {s : Nat × Md5} {ms : List UInt8}, Absorbed s ms →
    ∃ s', Md5.bytes cs s = .ok s' ∧ Absorbed s' (ms ++ cs) ∧ s'.2.i0 = s.2.i0 ∧ s'.2.i1 = s.2.i1
  | [], s, ms, h => ⟨s, rfl, by simpa using h, rfl, rfl⟩
  | c :: cs, s, ms, h => by
    obtain ⟨s', e, h', p, q⟩ := byte_absorbed h c
    obtain ⟨s'', e', h'', p', q'⟩ := bytes_absorbed cs h'
    refine ⟨s'', ?_, by simpa using h'', p'.trans p, q'.trans q⟩
    simp only [Md5.bytes, e, bind, Except.bind, e']

/-- The state of a context after a text. -/
def Took (m : Md5) (ms : List UInt8) : Prop :=
  m.i0.toNat + 2 ^ 32 * m.i1.toNat = 8 * ms.length % 2 ^ 64 ∧ Absorbed (ms.length % 64, m) ms

theorem mdi_eq {m : Md5} {n : Nat} (h : m.i0.toNat + 2 ^ 32 * m.i1.toNat = 8 * n % 2 ^ 64) : m.mdi = n % 64 := by
  have h' : ∀ n : Nat, n &&& 63 = n % 64 := fun n => Nat.and_two_pow_sub_one_eq_mod n 6
  have := m.i0.toNat_lt
  simp only [Md5.mdi, UInt32.toNat_and, UInt32.toNat_shiftRight, Nat.shiftRight_eq_div_pow]
  rw [show UInt32.toNat 63 = 63 from rfl, h', show UInt32.toNat 3 % 32 = 3 from rfl]
  omega

theorem init_took {junk : List UInt8} (h : junk.length = 64) : Took (Md5.init junk) [] :=
  ⟨rfl, h, [], [], 0, rfl, rfl, rfl, Nat.zero_lt_succ 63, rfl, by
    simp only [md5Blocks, List.length_nil, List.range_zero, Nat.zero_div, List.foldl_nil, md5Start, littleEndian]
    rfl⟩

theorem update_took {m : Md5} {ms data : List UInt8} {len : UInt32} (h : Took m ms) (hl : len.toNat ≤ data.length) :
    ∃ m', m.update data len = .ok m' ∧ Took m' (ms ++ data.take len.toNat) := by
  obtain ⟨h1, h2⟩ := h
  have hm := mdi_eq h1
  simp only [Md5.update]
  rw [if_neg (by omega), hm]
  have ha : Absorbed (ms.length % 64, { m with i0 := m.i0 + (len <<< 3), i1 := (if m.i0 + (len <<< 3) < m.i0 then m.i1 + 1 else m.i1) + (len >>> 29) }) ms := ⟨h2.len, h2.split⟩
  obtain ⟨s', e, h', p, q⟩ := bytes_absorbed (data.take len.toNat) ha
  rw [e]
  refine ⟨s'.2, rfl, ?_, ?_⟩
  · rw [p, q, List.length_append, List.length_take, Nat.min_eq_left hl]
    have k1 : (len <<< 3).toNat = len.toNat * 8 % 2 ^ 32 := by
      rw [UInt32.toNat_shiftLeft, Nat.shiftLeft_eq]; rfl
    have k2 : (len >>> 29).toNat = len.toNat / 2 ^ 29 := by
      rw [UInt32.toNat_shiftRight, Nat.shiftRight_eq_div_pow]; rfl
    have b0 := m.i0.toNat_lt
    have b1 := m.i1.toNat_lt
    have b2 := len.toNat_lt
    have k3 : (m.i0 + len <<< 3 < m.i0) ↔ (m.i0.toNat + len.toNat * 8 % 2 ^ 32) % 2 ^ 32 < m.i0.toNat := by
      rw [UInt32.lt_iff_toNat_lt, UInt32.toNat_add, k1]
    simp only [UInt32.toNat_add, k1, k2]
    by_cases hc : m.i0 + len <<< 3 < m.i0
    · rw [if_pos hc, UInt32.toNat_add, show UInt32.toNat 1 = 1 from rfl]
      have := k3.mp hc
      omega
    · rw [if_neg hc]
      have : ¬ _ := fun hh => hc (k3.mpr hh)
      omega
  · obtain ⟨i, m'⟩ := s'
    have hi : i = (ms ++ data.take len.toNat).length % 64 := by
      obtain ⟨t, rest, n, x1, x2, x3, x4, _⟩ := h'.split
      rw [x1, List.length_append]
      simp only at x3 x4
      omega
    rw [← hi]
    exact h'

/-! ## The end -/

theorem le_length (n : Nat) {j : Nat} (hj : j < 8) : UInt8.ofNat (8 * n / 256 ^ j) = UInt8.ofNat (8 * n % 2 ^ 64 / 256 ^ j) := by
  apply UInt8.toNat.inj
  have : j = 0 ∨ j = 1 ∨ j = 2 ∨ j = 3 ∨ j = 4 ∨ j = 5 ∨ j = 6 ∨ j = 7 := by omega
  rcases this with rfl | rfl | rfl | rfl | rfl | rfl | rfl | rfl <;> simp only [UInt8.toNat_ofNat'] <;> omega

theorem length_words {i0 i1 : UInt32} {n : Nat} (h : i0.toNat + 2 ^ 32 * i1.toNat = 8 * n % 2 ^ 64) :
    littleEndian ((((List.range 8).map fun j => UInt8.ofNat (8 * n / 256 ^ j)).drop 0).take 4) = i0 ∧
    littleEndian ((((List.range 8).map fun j => UInt8.ofNat (8 * n / 256 ^ j)).drop 4).take 4) = i1 := by
  have e : ((List.range 8).map fun j => UInt8.ofNat (8 * n / 256 ^ j)) = [UInt8.ofNat (8 * n / 256 ^ 0), UInt8.ofNat (8 * n / 256 ^ 1), UInt8.ofNat (8 * n / 256 ^ 2), UInt8.ofNat (8 * n / 256 ^ 3),
    UInt8.ofNat (8 * n / 256 ^ 4), UInt8.ofNat (8 * n / 256 ^ 5), UInt8.ofNat (8 * n / 256 ^ 6), UInt8.ofNat (8 * n / 256 ^ 7)] := rfl
  rw [e, le_length n (show 0 < 8 by decide), le_length n (show 1 < 8 by decide), le_length n (show 2 < 8 by decide), le_length n (show 3 < 8 by decide),
    le_length n (show 4 < 8 by decide), le_length n (show 5 < 8 by decide), le_length n (show 6 < 8 by decide), le_length n (show 7 < 8 by decide), ← h]
  have b0 := i0.toNat_lt
  have b1 := i1.toNat_lt
  constructor
  · apply UInt32.toNat.inj
    simp only [littleEndian, List.drop_zero, List.take_succ_cons, List.take_zero, List.getD_cons_zero, List.getD_cons_succ, UInt8.toNat_ofNat', UInt32.toNat_ofNat']
    omega
  · apply UInt32.toNat.inj
    simp only [littleEndian, List.drop_succ_cons, List.drop_zero, List.take_succ_cons, List.take_zero, List.getD_cons_zero, List.getD_cons_succ, UInt8.toNat_ofNat', UInt32.toNat_ofNat']
    omega

theorem blockWord_left {a b : List UInt8} {k : Nat} (h : 4 * k + 4 ≤ a.length) : blockWord (a ++ b) k = blockWord a k := by
  unfold blockWord
  rw [List.drop_append_of_le_length (by omega), List.take_append_of_le_length (by rw [List.length_drop]; omega)]

theorem blockWord_take {a : List UInt8} {k n : Nat} (h : 4 * k + 4 ≤ n) (hn : n ≤ a.length) : blockWord (a.take n) k = blockWord a k := by
  have := blockWord_left (a := a.take n) (b := a.drop n) (k := k) (by rw [List.length_take]; omega)
  rw [List.take_append_drop] at this
  exact this.symm

theorem final_md5 {m : Md5} {ms : List UInt8} (h : Took m ms) : m.final = .ok (md5 ms) := by
  have hm := mdi_eq h.1
  have hlt : ms.length % 64 < 64 := Nat.mod_lt _ (by decide)
  simp only [Md5.final, hm]
  generalize hp : (if ms.length % 64 < 56 then 56 - ms.length % 64 else 120 - ms.length % 64) = p
  have hp64 : p ≤ 64 ∧ 1 ≤ p ∧ p = 1 + (119 - ms.length % 64) % 64 := by split at hp <;> omega
  have hpn : (UInt32.ofNat p).toNat = p := by rw [UInt32.toNat_ofNat']; omega
  have hpl : mdPadding.length = 64 := by decide
  obtain ⟨m', e, h'⟩ := update_took (data := mdPadding) (len := UInt32.ofNat p) h (by rw [hpn, hpl]; omega)
  simp only [e, bind, Except.bind]
  rw [hpn] at h'
  have hpad : mdPadding.take p = [0x80] ++ List.replicate ((119 - ms.length % 64) % 64) 0 := by
    rw [hp64.2.2, Nat.add_comm 1, mdPadding, List.take_succ_cons, List.take_replicate, Nat.min_eq_left (by omega)]; rfl
  have hlen : (ms ++ mdPadding.take p).length % 64 = 56 := by
    rw [List.length_append, List.length_take, hpl]; omega
  have ha := h'.2
  rw [hlen] at ha
  obtain ⟨t, rest, n, x1, x2, x3, x4, x5, x6⟩ := ha.split
  simp only at x3 x4 x5 x6
  have hil := ha.len
  simp only at hil
  have hw := length_words h.1
  generalize hL : ((List.range 8).map fun j => UInt8.ofNat (8 * ms.length / 256 ^ j)) = L at hw
  have hLl : L.length = 8 := by rw [← hL]; simp
  have hpd : md5Padded ms = t ++ (rest ++ L) ++ [] := by
    rw [md5Padded, hL, List.append_nil, ← List.append_assoc, ← x1, hpad]; simp only [List.append_assoc]
  have hq : (mdTransform m'.buf (mdWords m'.inp 14 ++ [m.i0, m.i1])).quad 0 = md5Blocks (md5Padded ms) := by
    rw [hpd, md5Blocks_snoc x2 (by rw [List.length_append, x3, hLl]) (by simp), ← x6]
    apply transform_block
    intro k hk
    have hwl : (mdWords m'.inp 14).length = 14 := by simp [mdWords]
    by_cases h14 : k < 14
    · rw [List.getD_eq_getElem?_getD, List.getElem?_append_left (by omega), ← List.getD_eq_getElem?_getD, mdWords_eq h14, blockWord_left (by omega), ← x5, blockWord_take (by omega) (by omega)]
    · rw [List.getD_eq_getElem?_getD, List.getElem?_append_right (by omega), ← List.getD_eq_getElem?_getD, hwl]
      have : k = 14 ∨ k = 15 := by omega
      unfold blockWord
      rcases this with rfl | rfl
      · rw [show 4 * 14 = rest.length from x3.symm, List.drop_left]; exact hw.1.symm
      · rw [show 4 * 15 = rest.length + 4 by omega, List.drop_append, List.drop_of_length_le (by omega), List.nil_append, show rest.length + 4 - rest.length = 4 by omega]; exact hw.2.symm
  have hr := hq
  generalize mdTransform m'.buf (mdWords m'.inp 14 ++ [m.i0, m.i1]) = r at hr ⊢
  simp only [md5, ← hr, mdOut_eq]
  rfl

end Mairix
