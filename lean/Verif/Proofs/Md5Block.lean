import Verif.Model.Md5
import Verif.Spec.Md5
import Verif.Proofs.Sine

/-!
# The operations of `Transform` are those of MD5
-/


namespace Mairix

open Spec

/-! ## Words -/

theorem or_bytes (a b c d : Nat) (hb : b < 256) (hc : c < 256) (hd : d < 256) :
    ((a * 2 ^ 24 ||| b * 2 ^ 16) ||| c * 2 ^ 8) ||| d = d + 256 * c + 256 ^ 2 * b + 256 ^ 3 * a := by
  have h1 : a * 2 ^ 24 ||| b * 2 ^ 16 = 2 ^ 16 * (a * 256 + b) := by
    rw [Nat.mul_comm a, ← Nat.two_pow_add_eq_or_of_lt (by omega)]; omega
  rw [h1, ← Nat.two_pow_add_eq_or_of_lt (by omega), show 2 ^ 16 * (a * 256 + b) + c * 2 ^ 8 = 2 ^ 8 * ((a * 256 + b) * 256 + c) by omega, ← Nat.two_pow_add_eq_or_of_lt (by omega)]
  omega

theorem word_eq (a b c d : UInt8) : (d.toUInt32 <<< 24) ||| (c.toUInt32 <<< 16) ||| (b.toUInt32 <<< 8) ||| a.toUInt32 = littleEndian [a, b, c, d] := by
  apply UInt32.toNat.inj
  have h := or_bytes d.toNat c.toNat b.toNat a.toNat c.toNat_lt b.toNat_lt a.toNat_lt
  have ha := a.toNat_lt
  have hb := b.toNat_lt
  have hc := c.toNat_lt
  have hd := d.toNat_lt
  simp only [littleEndian, List.getD_cons_zero, List.getD_cons_succ, UInt32.toNat_ofNat', UInt32.toNat_or, UInt32.toNat_shiftLeft, UInt8.toNat_toUInt32, Nat.shiftLeft_eq]
  have e1 : d.toNat * 2 ^ (UInt32.toNat 24 % 32) % 2 ^ 32 = d.toNat * 2 ^ 24 := by simp; omega
  have e2 : c.toNat * 2 ^ (UInt32.toNat 16 % 32) % 2 ^ 32 = c.toNat * 2 ^ 16 := by simp; omega
  have e3 : b.toNat * 2 ^ (UInt32.toNat 8 % 32) % 2 ^ 32 = b.toNat * 2 ^ 8 := by simp; omega
  rw [e1, e2, e3, h]
  omega

theorem getD_drop_take {l : List UInt8} {k j : Nat} (hj : j < 4) : ((l.drop k).take 4).getD j 0 = l.getD (k + j) 0 := by
  simp only [List.getD_eq_getElem?_getD]
  rw [List.getElem?_take_of_lt hj, List.getElem?_drop]

theorem mdWords_eq {inp : List UInt8} {n k : Nat} (hk : k < n) : (mdWords inp n).getD k 0 = blockWord inp k := by
  simp only [mdWords, List.getD_eq_getElem?_getD]
  rw [List.getElem?_map, List.getElem?_range hk]
  simp only [Option.map_some, Option.getD_some, word_eq, blockWord, ← List.getD_eq_getElem?_getD]
  simp only [littleEndian, List.getD_cons_zero, List.getD_cons_succ, getD_drop_take (show 0 < 4 by decide), getD_drop_take (show 1 < 4 by decide), getD_drop_take (show 2 < 4 by decide),
    getD_drop_take (show 3 < 4 by decide), Nat.add_zero]

theorem mdOut_eq (w : UInt32) : mdOut w = bytesOf w := by
  have h : ∀ n : Nat, n &&& 255 = n % 256 := fun n => Nat.and_two_pow_sub_one_eq_mod n 8
  simp only [mdOut, bytesOf, show List.range 4 = [0, 1, 2, 3] from rfl, List.map_cons, List.map_nil, List.cons.injEq, and_true]
  refine ⟨?_, ?_, ?_, ?_⟩ <;> apply UInt8.toNat.inj <;>
    simp [UInt32.toNat_toUInt8, UInt32.toNat_shiftRight, h, Nat.shiftRight_eq_div_pow]

/-! ## The operations -/

/-- The constants of `Transform`. -/
def mdConst (i : Nat) : UInt32 := (mdCalls.getD i ⟨.ff, .a, .a, .a, .a, 0, 0, 0⟩).ac

theorem mdConst_sine {i : Nat} (hi : i < 64) : mdConst i = sineWord (i + 1) := by
  have h : ∀ i < 64, sineCheck i (mdConst i).toNat = true := by decide +kernel
  have := sineCheck_floor (h i hi)
  apply UInt32.toNat.inj
  rw [sineWord]
  push_cast
  rw [this]
  simp

def mdMacroOf (i : Nat) : MdMacro := match i / 16 with | 0 => .ff | 1 => .gg | 2 => .hh | _ => .ii

def mdRegOf (n : Nat) : MdReg := match n % 4 with | 0 => .a | 1 => .b | 2 => .c | _ => .d

theorem mdCalls_eq : mdCalls = (List.range 64).map fun i =>
    ⟨mdMacroOf i, mdRegOf (64 - i), mdRegOf (65 - i), mdRegOf (66 - i), mdRegOf (67 - i), md5Index i, UInt32.ofNat (md5Shift i), mdConst i⟩ := by decide +kernel

theorem mdMacroOf_fn (i : Nat) (x y z : UInt32) : (mdMacroOf i).fn x y z = md5Aux i x y z := by
  unfold mdMacroOf md5Aux
  generalize i / 16 = n
  match n with
  | 0 | 1 | 2 | n + 3 => rfl

theorem mdRotate_eq {i : Nat} (hi : i < 64) (x : UInt32) : mdRotate x (UInt32.ofNat (md5Shift i)) = rotl x (md5Shift i) := by
  have h : ∀ i < 64, md5Shift i = 7 ∨ md5Shift i = 12 ∨ md5Shift i = 17 ∨ md5Shift i = 22 ∨ md5Shift i = 5 ∨ md5Shift i = 9 ∨ md5Shift i = 14 ∨ md5Shift i = 20 ∨
    md5Shift i = 4 ∨ md5Shift i = 11 ∨ md5Shift i = 16 ∨ md5Shift i = 23 ∨ md5Shift i = 6 ∨ md5Shift i = 10 ∨ md5Shift i = 15 ∨ md5Shift i = 21 := by decide +kernel
  rcases h i hi with e | e | e | e | e | e | e | e | e | e | e | e | e | e | e | e <;> rw [e] <;> rfl

/-- The words as operation `i` calls them. -/
def MdRegs.quad (r : MdRegs) (i : Nat) : Quad :=
  ⟨r.get (mdRegOf (64 - i)), r.get (mdRegOf (65 - i)), r.get (mdRegOf (66 - i)), r.get (mdRegOf (67 - i))⟩

theorem call_op {words : List UInt32} {block : List UInt8} {i : Nat} (hi : i < 64) (hw : ∀ k < 16, words.getD k 0 = blockWord block k) (r : MdRegs) :
    (MdCall.run words r ⟨mdMacroOf i, mdRegOf (64 - i), mdRegOf (65 - i), mdRegOf (66 - i), mdRegOf (67 - i), md5Index i, UInt32.ofNat (md5Shift i), mdConst i⟩).quad (i + 1) =
      md5Op block (r.quad i) i := by
  have hk : md5Index i < 16 := by unfold md5Index; split <;> omega
  have hr := mdRotate_eq hi
  simp only [MdCall.run, md5Op, mdMacroOf_fn, hw _ hk, mdConst_sine hi]
  generalize md5Aux i = f
  generalize blockWord block (md5Index i) = x
  generalize sineWord (i + 1) = t
  generalize UInt32.ofNat (md5Shift i) = s at *
  generalize md5Shift i = s' at *
  obtain ⟨a, b, c, d⟩ := r
  have h4 : i % 4 = 0 ∨ i % 4 = 1 ∨ i % 4 = 2 ∨ i % 4 = 3 := by omega
  rcases h4 with h4 | h4 | h4 | h4
  · have e0 : mdRegOf (64 - i) = .a := by unfold mdRegOf; rw [show (64 - i) % 4 = 0 by omega]; rfl
    have e1 : mdRegOf (65 - i) = .b := by unfold mdRegOf; rw [show (65 - i) % 4 = 1 by omega]; rfl
    have e2 : mdRegOf (66 - i) = .c := by unfold mdRegOf; rw [show (66 - i) % 4 = 2 by omega]; rfl
    have e3 : mdRegOf (67 - i) = .d := by unfold mdRegOf; rw [show (67 - i) % 4 = 3 by omega]; rfl
    have e4 : mdRegOf (64 - (i + 1)) = .d := by unfold mdRegOf; rw [show (64 - (i + 1)) % 4 = 3 by omega]; rfl
    simp only [MdRegs.quad, show 65 - (i + 1) = 64 - i by omega, show 66 - (i + 1) = 65 - i by omega, show 67 - (i + 1) = 66 - i by omega, e0, e1, e2, e3, e4, MdRegs.put, MdRegs.get, hr]
    congr 1
    rw [UInt32.add_comm b]; simp only [UInt32.add_assoc]
  · have e0 : mdRegOf (64 - i) = .d := by unfold mdRegOf; rw [show (64 - i) % 4 = 3 by omega]; rfl
    have e1 : mdRegOf (65 - i) = .a := by unfold mdRegOf; rw [show (65 - i) % 4 = 0 by omega]; rfl
    have e2 : mdRegOf (66 - i) = .b := by unfold mdRegOf; rw [show (66 - i) % 4 = 1 by omega]; rfl
    have e3 : mdRegOf (67 - i) = .c := by unfold mdRegOf; rw [show (67 - i) % 4 = 2 by omega]; rfl
    have e4 : mdRegOf (64 - (i + 1)) = .c := by unfold mdRegOf; rw [show (64 - (i + 1)) % 4 = 2 by omega]; rfl
    simp only [MdRegs.quad, show 65 - (i + 1) = 64 - i by omega, show 66 - (i + 1) = 65 - i by omega, show 67 - (i + 1) = 66 - i by omega, e0, e1, e2, e3, e4, MdRegs.put, MdRegs.get, hr]
    congr 1
    rw [UInt32.add_comm a]; simp only [UInt32.add_assoc]
  · have e0 : mdRegOf (64 - i) = .c := by unfold mdRegOf; rw [show (64 - i) % 4 = 2 by omega]; rfl
    have e1 : mdRegOf (65 - i) = .d := by unfold mdRegOf; rw [show (65 - i) % 4 = 3 by omega]; rfl
    have e2 : mdRegOf (66 - i) = .a := by unfold mdRegOf; rw [show (66 - i) % 4 = 0 by omega]; rfl
    have e3 : mdRegOf (67 - i) = .b := by unfold mdRegOf; rw [show (67 - i) % 4 = 1 by omega]; rfl
    have e4 : mdRegOf (64 - (i + 1)) = .b := by unfold mdRegOf; rw [show (64 - (i + 1)) % 4 = 1 by omega]; rfl
    simp only [MdRegs.quad, show 65 - (i + 1) = 64 - i by omega, show 66 - (i + 1) = 65 - i by omega, show 67 - (i + 1) = 66 - i by omega, e0, e1, e2, e3, e4, MdRegs.put, MdRegs.get, hr]
    congr 1
    rw [UInt32.add_comm d]; simp only [UInt32.add_assoc]
  · have e0 : mdRegOf (64 - i) = .b := by unfold mdRegOf; rw [show (64 - i) % 4 = 1 by omega]; rfl
    have e1 : mdRegOf (65 - i) = .c := by unfold mdRegOf; rw [show (65 - i) % 4 = 2 by omega]; rfl
    have e2 : mdRegOf (66 - i) = .d := by unfold mdRegOf; rw [show (66 - i) % 4 = 3 by omega]; rfl
    have e3 : mdRegOf (67 - i) = .a := by unfold mdRegOf; rw [show (67 - i) % 4 = 0 by omega]; rfl
    have e4 : mdRegOf (64 - (i + 1)) = .a := by unfold mdRegOf; rw [show (64 - (i + 1)) % 4 = 0 by omega]; rfl
    simp only [MdRegs.quad, show 65 - (i + 1) = 64 - i by omega, show 66 - (i + 1) = 65 - i by omega, show 67 - (i + 1) = 66 - i by omega, e0, e1, e2, e3, e4, MdRegs.put, MdRegs.get, hr]
    congr 1
    rw [UInt32.add_comm c]; simp only [UInt32.add_assoc]

theorem calls_ops {words : List UInt32} {block : List UInt8} (hw : ∀ k < 16, words.getD k 0 = blockWord block k) (r : MdRegs) : ∀ n, n ≤ 64 →
    (((List.range n).map fun i => (⟨mdMacroOf i, mdRegOf (64 - i), mdRegOf (65 - i), mdRegOf (66 - i), mdRegOf (67 - i), md5Index i, UInt32.ofNat (md5Shift i), mdConst i⟩ : MdCall)).foldl
      (MdCall.run words) r).quad n = (List.range n).foldl (md5Op block) (r.quad 0)
  | 0, _ => rfl
  | n + 1, h => by
    rw [List.range_succ, List.map_append, List.foldl_append, List.foldl_append, ← calls_ops hw r n (by omega)]
    simp only [List.map_cons, List.map_nil, List.foldl_cons, List.foldl_nil]
    exact call_op (by omega) hw _

theorem transform_block {words : List UInt32} {block : List UInt8} (hw : ∀ k < 16, words.getD k 0 = blockWord block k) (r : MdRegs) :
    (mdTransform r words).quad 0 = md5Block (r.quad 0) block := by
  have h := calls_ops hw r 64 (Nat.le_refl _)
  rw [← mdCalls_eq] at h
  unfold mdTransform md5Block
  rw [← h]
  generalize mdCalls.foldl (MdCall.run words) r = r'
  rfl

/-! ## Blocks -/

theorem foldl_blocks {f : Quad → List UInt8 → Quad} {t rest : List UInt8} {n : Nat} (q : Quad) (ht : t.length = 64 * n) : ∀ m, m ≤ n →
    (List.range m).foldl (fun q j => f q (((t ++ rest).drop (64 * j)).take 64)) q = (List.range m).foldl (fun q j => f q ((t.drop (64 * j)).take 64)) q
  | 0, _ => rfl
  | m + 1, hm => by
    rw [List.range_succ, List.foldl_append, List.foldl_append, foldl_blocks q ht m (by omega)]
    simp only [List.foldl_cons, List.foldl_nil]
    rw [List.drop_append_of_le_length (by omega), List.take_append_of_le_length (by rw [List.length_drop]; omega)]

theorem md5Blocks_snoc {t b rest : List UInt8} {n : Nat} (ht : t.length = 64 * n) (hb : b.length = 64) (hr : rest.length < 64) : md5Blocks (t ++ b ++ rest) = md5Block (md5Blocks t) b := by
  have h1 : (t ++ b ++ rest).length / 64 = n + 1 := by simp only [List.length_append]; omega
  have h2 : t.length / 64 = n := by omega
  have h3 : ((t ++ (b ++ rest)).drop (64 * n)).take 64 = b := by rw [← ht, List.drop_left, ← hb, List.take_left]
  unfold md5Blocks
  rw [h1, h2, List.range_succ, List.foldl_append, List.append_assoc, foldl_blocks md5Start ht n (Nat.le_refl _)]
  simp only [List.foldl_cons, List.foldl_nil, h3]

end Mairix
