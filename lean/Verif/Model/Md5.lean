import Verif.Model.Basic

/-!
# Checksums

`md5.c`, which mairix carries with it, and `compute_checksum` of `mbox.c`, which uses it to
recognise the messages of an mbox that have not changed. `UINT4` is `uint32_t` (md5.h:44).
-/

namespace Mairix

/-- The names of the four variables of `Transform` (md5.c:221). -/
inductive MdReg where
  | a | b | c | d
  deriving DecidableEq, Repr

/-- `UINT4 buf[4]` of `MD5_CTX` (md5.h:49), and the four variables of `Transform` (md5.c:221). -/
structure MdRegs where
  a : UInt32
  b : UInt32
  c : UInt32
  d : UInt32
  deriving DecidableEq, Repr

/-- Reading one of the variables. -/
def MdRegs.get (r : MdRegs) : MdReg → UInt32
  | .a => r.a
  | .b => r.b
  | .c => r.c
  | .d => r.d

/-- Assigning to one of the variables. -/
def MdRegs.put (r : MdRegs) (v : UInt32) : MdReg → MdRegs
  | .a => { r with a := v }
  | .b => { r with b := v }
  | .c => { r with c := v }
  | .d => { r with d := v }

/-- The four macros that `Transform` is written with (md5.c:96-115). -/
inductive MdMacro where
  | ff | gg | hh | ii
  deriving DecidableEq, Repr

/-- The functions `F`, `G`, `H` and `I` (md5.c:73-76), which the four macros use. -/
def MdMacro.fn : MdMacro → UInt32 → UInt32 → UInt32 → UInt32
  | .ff, x, y, z => (x &&& y) ||| (~~~x &&& z)
  | .gg, x, y, z => (x &&& z) ||| (y &&& ~~~z)
  | .hh, x, y, z => x ^^^ y ^^^ z
  | .ii, x, y, z => y ^^^ (x ||| ~~~z)

/-- `ROTATE_LEFT` (md5.c:90). The assembly for the 68000 (md5.c:79-88) is not modelled. -/
def mdRotate (x : UInt32) (n : UInt32) : UInt32 := (x <<< n) ||| (x >>> (32 - n))

/-- A use of one of the macros: `FF(a, b, c, d, in[k], s, ac)`. -/
structure MdCall where
  op : MdMacro
  a : MdReg
  b : MdReg
  c : MdReg
  d : MdReg
  k : Nat
  s : UInt32
  ac : UInt32
  deriving DecidableEq, Repr

/-- What a use of a macro does (md5.c:96-115). `words` is the array `in` of `Transform`; the indices in
`mdCalls` are literals below 16. -/
def MdCall.run (words : List UInt32) (r : MdRegs) (m : MdCall) : MdRegs :=
  let r := r.put (r.get m.a + (m.op.fn (r.get m.b) (r.get m.c) (r.get m.d) + words.getD m.k 0 + m.ac)) m.a
  let r := r.put (mdRotate (r.get m.a) m.s) m.a
  r.put (r.get m.a + r.get m.b) m.a

/-- The body of `Transform` (md5.c:223-310), with the shifts `S11` … `S44` written out. -/
def mdCalls : List MdCall := [
  ⟨.ff, .a, .b, .c, .d, 0, 7, 0xd76aa478⟩, ⟨.ff, .d, .a, .b, .c, 1, 12, 0xe8c7b756⟩, ⟨.ff, .c, .d, .a, .b, 2, 17, 0x242070db⟩, ⟨.ff, .b, .c, .d, .a, 3, 22, 0xc1bdceee⟩,
  ⟨.ff, .a, .b, .c, .d, 4, 7, 0xf57c0faf⟩, ⟨.ff, .d, .a, .b, .c, 5, 12, 0x4787c62a⟩, ⟨.ff, .c, .d, .a, .b, 6, 17, 0xa8304613⟩, ⟨.ff, .b, .c, .d, .a, 7, 22, 0xfd469501⟩,
  ⟨.ff, .a, .b, .c, .d, 8, 7, 0x698098d8⟩, ⟨.ff, .d, .a, .b, .c, 9, 12, 0x8b44f7af⟩, ⟨.ff, .c, .d, .a, .b, 10, 17, 0xffff5bb1⟩, ⟨.ff, .b, .c, .d, .a, 11, 22, 0x895cd7be⟩,
  ⟨.ff, .a, .b, .c, .d, 12, 7, 0x6b901122⟩, ⟨.ff, .d, .a, .b, .c, 13, 12, 0xfd987193⟩, ⟨.ff, .c, .d, .a, .b, 14, 17, 0xa679438e⟩, ⟨.ff, .b, .c, .d, .a, 15, 22, 0x49b40821⟩,
  ⟨.gg, .a, .b, .c, .d, 1, 5, 0xf61e2562⟩, ⟨.gg, .d, .a, .b, .c, 6, 9, 0xc040b340⟩, ⟨.gg, .c, .d, .a, .b, 11, 14, 0x265e5a51⟩, ⟨.gg, .b, .c, .d, .a, 0, 20, 0xe9b6c7aa⟩,
  ⟨.gg, .a, .b, .c, .d, 5, 5, 0xd62f105d⟩, ⟨.gg, .d, .a, .b, .c, 10, 9, 0x2441453⟩, ⟨.gg, .c, .d, .a, .b, 15, 14, 0xd8a1e681⟩, ⟨.gg, .b, .c, .d, .a, 4, 20, 0xe7d3fbc8⟩,
  ⟨.gg, .a, .b, .c, .d, 9, 5, 0x21e1cde6⟩, ⟨.gg, .d, .a, .b, .c, 14, 9, 0xc33707d6⟩, ⟨.gg, .c, .d, .a, .b, 3, 14, 0xf4d50d87⟩, ⟨.gg, .b, .c, .d, .a, 8, 20, 0x455a14ed⟩,
  ⟨.gg, .a, .b, .c, .d, 13, 5, 0xa9e3e905⟩, ⟨.gg, .d, .a, .b, .c, 2, 9, 0xfcefa3f8⟩, ⟨.gg, .c, .d, .a, .b, 7, 14, 0x676f02d9⟩, ⟨.gg, .b, .c, .d, .a, 12, 20, 0x8d2a4c8a⟩,
  ⟨.hh, .a, .b, .c, .d, 5, 4, 0xfffa3942⟩, ⟨.hh, .d, .a, .b, .c, 8, 11, 0x8771f681⟩, ⟨.hh, .c, .d, .a, .b, 11, 16, 0x6d9d6122⟩, ⟨.hh, .b, .c, .d, .a, 14, 23, 0xfde5380c⟩,
  ⟨.hh, .a, .b, .c, .d, 1, 4, 0xa4beea44⟩, ⟨.hh, .d, .a, .b, .c, 4, 11, 0x4bdecfa9⟩, ⟨.hh, .c, .d, .a, .b, 7, 16, 0xf6bb4b60⟩, ⟨.hh, .b, .c, .d, .a, 10, 23, 0xbebfbc70⟩,
  ⟨.hh, .a, .b, .c, .d, 13, 4, 0x289b7ec6⟩, ⟨.hh, .d, .a, .b, .c, 0, 11, 0xeaa127fa⟩, ⟨.hh, .c, .d, .a, .b, 3, 16, 0xd4ef3085⟩, ⟨.hh, .b, .c, .d, .a, 6, 23, 0x4881d05⟩,
  ⟨.hh, .a, .b, .c, .d, 9, 4, 0xd9d4d039⟩, ⟨.hh, .d, .a, .b, .c, 12, 11, 0xe6db99e5⟩, ⟨.hh, .c, .d, .a, .b, 15, 16, 0x1fa27cf8⟩, ⟨.hh, .b, .c, .d, .a, 2, 23, 0xc4ac5665⟩,
  ⟨.ii, .a, .b, .c, .d, 0, 6, 0xf4292244⟩, ⟨.ii, .d, .a, .b, .c, 7, 10, 0x432aff97⟩, ⟨.ii, .c, .d, .a, .b, 14, 15, 0xab9423a7⟩, ⟨.ii, .b, .c, .d, .a, 5, 21, 0xfc93a039⟩,
  ⟨.ii, .a, .b, .c, .d, 12, 6, 0x655b59c3⟩, ⟨.ii, .d, .a, .b, .c, 3, 10, 0x8f0ccc92⟩, ⟨.ii, .c, .d, .a, .b, 10, 15, 0xffeff47d⟩, ⟨.ii, .b, .c, .d, .a, 1, 21, 0x85845dd1⟩,
  ⟨.ii, .a, .b, .c, .d, 8, 6, 0x6fa87e4f⟩, ⟨.ii, .d, .a, .b, .c, 15, 10, 0xfe2ce6e0⟩, ⟨.ii, .c, .d, .a, .b, 6, 15, 0xa3014314⟩, ⟨.ii, .b, .c, .d, .a, 13, 21, 0x4e0811a1⟩,
  ⟨.ii, .a, .b, .c, .d, 4, 6, 0xf7537e82⟩, ⟨.ii, .d, .a, .b, .c, 11, 10, 0xbd3af235⟩, ⟨.ii, .c, .d, .a, .b, 2, 15, 0x2ad7d2bb⟩, ⟨.ii, .b, .c, .d, .a, 9, 21, 0xeb86d391⟩]

/-- `Transform` (md5.c:217-316). -/
def mdTransform (buf : MdRegs) (words : List UInt32) : MdRegs :=
  let r := mdCalls.foldl (MdCall.run words) buf
  ⟨buf.a + r.a, buf.b + r.b, buf.c + r.c, buf.d + r.d⟩

/-- `MD5_CTX` without the digest, which is the result of `Md5.final` here (md5.h:47-52). -/
structure Md5 where
  i0 : UInt32
  i1 : UInt32
  buf : MdRegs
  inp : List UInt8
  deriving DecidableEq, Repr

/-- `MD5Init` (md5.c:120-131). `junk` is what the variable held before, of which the input buffer is kept. -/
def Md5.init (junk : List UInt8) : Md5 :=
  ⟨0, 0, ⟨0x67452301, 0xefcdab89, 0x98badcfe, 0x10325476⟩, junk⟩

/-- Collecting the first `n` words of the input buffer (md5.c:161-165, 196-200). The indices are below 64. -/
def mdWords (inp : List UInt8) (n : Nat) : List UInt32 :=
  (List.range n).map fun i =>
    ((inp.getD (4 * i + 3) 0).toUInt32 <<< 24) ||| ((inp.getD (4 * i + 2) 0).toUInt32 <<< 16) ||| ((inp.getD (4 * i + 1) 0).toUInt32 <<< 8) ||| (inp.getD (4 * i) 0).toUInt32

/-- The body of the loop of `MD5Update` (md5.c:156-168) for one character. -/
def Md5.byte (s : Nat × Md5) (c : UInt8) : Res (Nat × Md5) :=
  if s.1 < 64 then
    let inp := s.2.inp.set s.1 c
    if s.1 + 1 = 0x40 then .ok (0, { s.2 with inp := inp, buf := mdTransform s.2.buf (mdWords inp 16) })
    else .ok (s.1 + 1, { s.2 with inp := inp })
  else .error .outOfBounds

/-- The loop of `MD5Update` (md5.c:155-169). -/
def Md5.bytes : List UInt8 → Nat × Md5 → Res (Nat × Md5)
  | [], s => .ok s
  | c :: cs, s => do
    let s ← Md5.byte s c
    Md5.bytes cs s

/-- `mdi` at the beginning of `MD5Update` and in `MD5Final` (md5.c:147, 189). -/
def Md5.mdi (m : Md5) : Nat := ((m.i0 >>> 3) &&& 0x3F).toNat

/-- `MD5Update` (md5.c:137-170). `data` is the object that `inBuf` points into, from there on. -/
def Md5.update (m : Md5) (data : List UInt8) (inLen : UInt32) : Res Md5 :=
  let mdi := m.mdi
  let i1 := if m.i0 + (inLen <<< 3) < m.i0 then m.i1 + 1 else m.i1
  let m := { m with i0 := m.i0 + (inLen <<< 3), i1 := i1 + (inLen >>> 29) }
  if data.length < inLen.toNat then .error .outOfBounds
  else do
    let s ← Md5.bytes (data.take inLen.toNat) (mdi, m)
    .ok s.2

/-- `PADDING` (md5.c:61-70). -/
def mdPadding : List UInt8 := 0x80 :: List.replicate 63 0

/-- One word of the digest (md5.c:205-211). -/
def mdOut (w : UInt32) : List UInt8 :=
  [(w &&& 0xFF).toUInt8, ((w >>> 8) &&& 0xFF).toUInt8, ((w >>> 16) &&& 0xFF).toUInt8, ((w >>> 24) &&& 0xFF).toUInt8]

/-- `MD5Final` (md5.c:176-213); the result is `digest`. -/
def Md5.final (m : Md5) : Res (List UInt8) := do
  let mdi := m.mdi
  let padLen := if mdi < 56 then 56 - mdi else 120 - mdi
  let m' ← m.update mdPadding (UInt32.ofNat padLen)
  let buf := mdTransform m'.buf (mdWords m'.inp 14 ++ [m.i0, m.i1])
  .ok (mdOut buf.a ++ mdOut buf.b ++ mdOut buf.c ++ mdOut buf.d)

/-- `compute_checksum` (mbox.c:106-114) of `data`, whose length is a `size_t` but is handed on as an `unsigned int`. `junk` is what the
input buffer holds at first. -/
def computeChecksum (junk : List UInt8) (data : List UInt8) : Res (List UInt8) := do
  let m ← (Md5.init junk).update data (UInt32.ofNat data.length)
  m.final

end Mairix
