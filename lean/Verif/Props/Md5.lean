import Verif.Proofs.Md5

/-!
# C59: checksums are MD5 digests

mairix recognises the messages of an mbox by a checksum of their text. The theorems say that it is the digest that
RFC 1321 defines (`Spec/Md5.lean`), whatever the text, for all texts shorter than 4 GiB and whatever the memory held before; the constants in
the code are proved to be the leading bits of sines. For longer texts it is the digest of a part only.
-/

namespace Mairix

open Spec

theorem updates_took : ∀ (pieces : List (List UInt8)) {m : Md5} {ms : List UInt8}, (∀ p ∈ pieces, p.length < 2 ^ 32) → Took m ms →
    ∃ m', pieces.foldlM (fun (m : Md5) p => m.update p (UInt32.ofNat p.length)) m = .ok m' ∧ Took m' (ms ++ pieces.flatten)
  | [], m, ms, _, h => ⟨m, rfl, by simpa using h⟩
  | p :: ps, m, ms, hp, h => by
    have hl := hp p (by simp)
    have hn : (UInt32.ofNat p.length).toNat = p.length := by rw [UInt32.toNat_ofNat']; omega
    obtain ⟨m', e, h'⟩ := update_took (data := p) (len := UInt32.ofNat p.length) h (by omega)
    rw [hn, List.take_length] at h'
    obtain ⟨m'', e', h''⟩ := updates_took ps (fun q hq => hp q (by simp [hq])) h'
    refine ⟨m'', ?_, by simpa using h''⟩
    simp only [List.foldlM_cons, e, bind, Except.bind]
    exact e'

/-- **C59** (pieces). A text handed to `MD5Update` in any number of pieces has the digest of the whole text: `MD5Final` gives it whatever `MD5_CTX` held before `MD5Init`,
and no access is outside an array. -/
theorem C59_pieces {junk : List UInt8} (hj : junk.length = 64) (pieces : List (List UInt8)) (hp : ∀ p ∈ pieces, p.length < 2 ^ 32) :
    (do let m ← pieces.foldlM (fun (m : Md5) p => m.update p (UInt32.ofNat p.length)) (Md5.init junk); m.final) = .ok (md5 pieces.flatten) := by
  obtain ⟨m', e, h⟩ := updates_took pieces hp (init_took hj)
  simp only [e, bind, Except.bind]
  exact final_md5 (by simpa using h)

theorem checksum_take {junk : List UInt8} (hj : junk.length = 64) (data : List UInt8) : computeChecksum junk data = .ok (md5 (data.take (data.length % 2 ^ 32))) := by
  have hn : (UInt32.ofNat data.length).toNat = data.length % 2 ^ 32 := UInt32.toNat_ofNat'
  obtain ⟨m', e, h⟩ := update_took (data := data) (len := UInt32.ofNat data.length) (init_took hj) (by rw [hn]; exact Nat.mod_le _ _)
  rw [hn, List.nil_append] at h
  simp only [computeChecksum, e, bind, Except.bind]
  exact final_md5 h

/-- **C59**. The checksum of a message shorter than 4 GiB is its MD5 digest. -/
theorem C59_checksum {junk : List UInt8} (hj : junk.length = 64) {data : List UInt8} (h : data.length < 2 ^ 32) : computeChecksum junk data = .ok (md5 data) := by
  rw [checksum_take hj, Nat.mod_eq_of_lt h, List.take_length]

/-- **C59** (violation). Messages of 4 GiB all have the same checksum, that of the empty text, and more generally what comes after as many bytes
as the length exceeds 4 GiB by does not matter: the length is cut to 32 bits. -/
theorem C59_long_violation {junk : List UInt8} (hj : junk.length = 64) {data data' : List UInt8} (h : data.length = data'.length) (hl : 2 ^ 32 ≤ data.length) (hl' : data.length < 2 ^ 33)
    (hp : data.take (data.length - 2 ^ 32) = data'.take (data.length - 2 ^ 32)) : computeChecksum junk data = computeChecksum junk data' := by
  rw [checksum_take hj, checksum_take hj, ← h, show data.length % 2 ^ 32 = data.length - 2 ^ 32 by omega, hp]

/-- Two such messages. -/
example : computeChecksum (List.replicate 64 0) (List.replicate (2 ^ 32) 0x61) = computeChecksum (List.replicate 64 0) (List.replicate (2 ^ 32) 0x62) ∧
    List.replicate (2 ^ 32) (0x61 : UInt8) ≠ List.replicate (2 ^ 32) 0x62 := by
  refine ⟨C59_long_violation (by simp) (by simp only [List.length_replicate]) (by simp only [List.length_replicate]; omega) (by simp only [List.length_replicate]; omega) ?_, fun h => ?_⟩
  · rw [List.length_replicate, Nat.sub_self, List.take_zero, List.take_zero]
  · have := congrArg List.head? h
    rw [List.head?_replicate, List.head?_replicate, if_neg (by omega), if_neg (by omega)] at this
    exact absurd this (by decide)

/-- A digest has sixteen bytes, as the theorems about the database require of a checksum. -/
theorem md5_length (msg : List UInt8) : (md5 msg).length = 16 := by
  simp [md5, bytesOf]

/-- The digest of the definition can be computed. The examples below are from RFC 1321, appendix A.5. -/
theorem md5_of_checksum {junk data d : List UInt8} (hj : junk.length = 64) (h : data.length < 2 ^ 32) (e : computeChecksum junk data = .ok d) : md5 data = d := by
  rw [C59_checksum hj h] at e
  exact Except.ok.inj e

example : md5 [] = [0xd4, 0x1d, 0x8c, 0xd9, 0x8f, 0x00, 0xb2, 0x04, 0xe9, 0x80, 0x09, 0x98, 0xec, 0xf8, 0x42, 0x7e] :=
  md5_of_checksum (junk := List.replicate 64 0) (by decide) (by decide) (by decide +kernel)

example : md5 (bs "abc") = [0x90, 0x01, 0x50, 0x98, 0x3c, 0xd2, 0x4f, 0xb0, 0xd6, 0x96, 0x3f, 0x7d, 0x28, 0xe1, 0x7f, 0x72] :=
  md5_of_checksum (junk := List.replicate 64 0) (by decide) (by decide) (by decide +kernel)

example : md5 (bs "12345678901234567890123456789012345678901234567890123456789012345678901234567890") =
    [0x57, 0xed, 0xf4, 0xa2, 0x2b, 0xe3, 0xc9, 0x55, 0xac, 0x49, 0xda, 0x2e, 0x21, 0x07, 0xb6, 0x7a] :=
  md5_of_checksum (junk := List.replicate 64 0) (by decide) (by decide) (by decide +kernel)

/-- The first constant of the table, and the last. -/
example : sineWord 1 = 0xd76aa478 ∧ sineWord 64 = 0xeb86d391 :=
  ⟨(mdConst_sine (i := 0) (by decide)).symm, (mdConst_sine (i := 63) (by decide)).symm⟩

end Mairix
