import Mathlib.Analysis.Complex.Trigonometric

/-!
# The MD5 digest

As RFC 1321 describes it, for messages of whole bytes.
-/

namespace Mairix.Spec

/-- Section 3.4: element `i` of the table `T`, the integer part of 4294967296 times the absolute value of the sine of `i` radians. -/
noncomputable def sineWord (i : Nat) : UInt32 := UInt32.ofNat ⌊4294967296 * |Real.sin i|⌋₊

/-- Sections 3.1 and 3.2: a byte 0x80, as few zeros as make the length 56 modulo 64, and the number of bits in the message as eight bytes, low-order first. -/
def md5Padded (msg : List UInt8) : List UInt8 :=
  msg ++ [0x80] ++ List.replicate ((119 - msg.length % 64) % 64) 0 ++ (List.range 8).map fun j => UInt8.ofNat (8 * msg.length / 256 ^ j)

/-- Section 2: four bytes form a word, low-order byte first. -/
def littleEndian (l : List UInt8) : UInt32 :=
  UInt32.ofNat ((l.getD 0 0).toNat + 256 * (l.getD 1 0).toNat + 256 ^ 2 * (l.getD 2 0).toNat + 256 ^ 3 * (l.getD 3 0).toNat)

/-- Word `k` of a block of sixteen. -/
def blockWord (block : List UInt8) (k : Nat) : UInt32 := littleEndian ((block.drop (4 * k)).take 4)

/-- Section 3.4: the auxiliary functions. Operation `i`, counted from 0, belongs to round `i / 16`. -/
def md5Aux (i : Nat) (x y z : UInt32) : UInt32 :=
  match i / 16 with
  | 0 => (x &&& y) ||| (~~~x &&& z)
  | 1 => (x &&& z) ||| (y &&& ~~~z)
  | 2 => x ^^^ y ^^^ z
  | _ => y ^^^ (x ||| ~~~z)

/-- Section 3.4: the word of the block that operation `i` uses. In the first round they are taken in order, in the second in steps of 5 from 1,
in the third in steps of 3 from 5, in the last in steps of 7 from 0. -/
def md5Index (i : Nat) : Nat :=
  match i / 16 with
  | 0 => i % 16
  | 1 => (1 + 5 * i) % 16
  | 2 => (5 + 3 * i) % 16
  | _ => (7 * i) % 16

/-- Section 3.4: the number of bits operation `i` rotates by. -/
def md5Shift (i : Nat) : Nat :=
  ((([[7, 12, 17, 22], [5, 9, 14, 20], [4, 11, 16, 23], [6, 10, 15, 21]] : List (List Nat)).getD (i / 16) []).getD (i % 4) 0)

/-- `X <<< s`: the word obtained by circularly shifting left by `s` bits. -/
def rotl (x : UInt32) (s : Nat) : UInt32 := ⟨x.toBitVec.rotateLeft s⟩

/-- The four words A, B, C and D. -/
structure Quad where
  a : UInt32
  b : UInt32
  c : UInt32
  d : UInt32

/-- Section 3.4: operation `i`, `a = b + ((a + F(b,c,d) + X[k] + T[i+1]) <<< s)`, after which the words change places: the next operation
calls "a" what this one called "d", and so on. -/
noncomputable def md5Op (block : List UInt8) (q : Quad) (i : Nat) : Quad :=
  ⟨q.d, q.b + rotl (q.a + md5Aux i q.b q.c q.d + blockWord block (md5Index i) + sineWord (i + 1)) (md5Shift i), q.b, q.c⟩

/-- Section 3.4: one block of 64 bytes is taken in by 64 operations. -/
noncomputable def md5Block (q : Quad) (block : List UInt8) : Quad :=
  let r := (List.range 64).foldl (md5Op block) q
  ⟨q.a + r.a, q.b + r.b, q.c + r.c, q.d + r.d⟩

/-- Section 3.3: the words at first. In bytes, low-order first, they are 01 23 45 67, 89 ab cd ef, fe dc ba 98, 76 54 32 10. -/
def md5Start : Quad :=
  ⟨littleEndian [0x01, 0x23, 0x45, 0x67], littleEndian [0x89, 0xab, 0xcd, 0xef], littleEndian [0xfe, 0xdc, 0xba, 0x98], littleEndian [0x76, 0x54, 0x32, 0x10]⟩

/-- The words after the complete blocks of a text. -/
noncomputable def md5Blocks (text : List UInt8) : Quad :=
  (List.range (text.length / 64)).foldl (fun q j => md5Block q ((text.drop (64 * j)).take 64)) md5Start

/-- The bytes of a word, low-order first. -/
def bytesOf (w : UInt32) : List UInt8 := (List.range 4).map fun j => UInt8.ofNat (w.toNat / 256 ^ j)

/-- Section 3.5: the digest of a message. -/
noncomputable def md5 (msg : List UInt8) : List UInt8 :=
  let q := md5Blocks (md5Padded msg)
  bytesOf q.a ++ bytesOf q.b ++ bytesOf q.c ++ bytesOf q.d

end Mairix.Spec
