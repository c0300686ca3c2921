import Verif.Model.Expand

/-!
# Decoding of bodies: `unencode_data` and what it uses (rfc822.c)

The body is given by the readable memory from its first byte on (which may go on behind the body: other parts of a message, the end of the mapped page) and its length. A pointer into it is
represented by the memory from there on, together with the number of bytes up to the end of the body (zero if the pointer is at or behind the end).
-/

namespace Mairix

/-- `hex_to_val` (rfc822.c:261-294). -/
def hexVal (x : UInt8) : Nat :=
  if 0x30 ≤ x ∧ x ≤ 0x39 then x.toNat - 0x30
  else if 0x61 ≤ x ∧ x ≤ 0x66 then 10 + (x.toNat - 0x61)
  else if 0x41 ≤ x ∧ x ≤ 0x46 then 10 + (x.toNat - 0x41)
  else 0

/-- `base64_table` (rfc822.c:242-260): `none` for -1. -/
def base64Table (x : UInt8) : Option Nat :=
  if x = 0x2b then some 62
  else if x = 0x2f then some 63
  else if 0x30 ≤ x ∧ x ≤ 0x39 then some (x.toNat - 0x30 + 52)
  else if x = 0x3d then some 0
  else if 0x41 ≤ x ∧ x ≤ 0x5a then some (x.toNat - 0x41)
  else if 0x61 ≤ x ∧ x ≤ 0x7a then some (x.toNat - 0x61 + 26)
  else none

/-- `equal_table` (rfc822.c:223-240). -/
def equalTable (x : UInt8) : Nat := if x = 0x3d then 1 else 0

/-- `enum encoding_type` (rfc822.c). -/
inductive EncodingType
  | none | sevenBit | eightBit | binary | quotedPrintable | base64 | uuencode | unknown
deriving DecidableEq, Repr

/-- `match_string` (rfc822.c:216-220): `strncasecmp` over the length of the reference. -/
def matchCte (ref candidate : Text) : Bool := (candidate.take ref.length).map toLower == ref.map toLower

/-- `decode_encoding_type` (rfc822.c:389-419); the value of the header or nothing. -/
def decodeEncodingType : Option Text → EncodingType
  | .none => .none
  | some e =>
    let p := e.dropWhile isSpace
    if matchCte (bs "7bit") p || matchCte (bs "7-bit") p || matchCte (bs "7 bit") p then .sevenBit
    else if matchCte (bs "8bit") p || matchCte (bs "8-bit") p || matchCte (bs "8 bit") p then .eightBit
    else if matchCte (bs "quoted-printable") p then .quotedPrintable
    else if matchCte (bs "base64") p then .base64
    else if matchCte (bs "binary") p then .binary
    else if matchCte (bs "x-uuencode") p then .uuencode
    else .unknown

/-- `looking_at_ws_then_newline` (rfc822.c:439-451): the number of white space characters before the newline, or `none`. -/
def wsThenNewline : Text → Res (Option Nat)
  | [] => .error .outOfBounds
  | c :: rest =>
    if c = 0x0a then .ok (some 0)
    else if isSpace c then (wsThenNewline rest).map (Option.map (· + 1))
    else .ok none

/-- The loop of the quoted-printable case (rfc822.c:482-510), with fuel. `cap` is the size of `result`. -/
def qpLoop (cap : Nat) : Nat → Text → Nat → Text → Res Text
  | 0, _, _, _ => .error .diverges
  | fuel + 1, rest, n, out =>
    if n = 0 then .ok out
    else match rest with
      | [] => .error .outOfBounds
      | c :: q =>
        if c = 0x3d then do
          match ← wsThenNewline q with
          | some k => qpLoop cap fuel (q.drop (k + 1)) (n - 1 - (k + 1)) out
          | none =>
            match q with
            | a :: b :: q => do
              let out ← storeTo cap out (UInt8.ofNat (hexVal a * 16 + hexVal b))
              qpLoop cap fuel q (n - 3) out
            | _ => .error .outOfBounds
        else do
          let out ← storeTo cap out c
          qpLoop cap fuel q (n - 1) out

/-- What the base64 loop keeps: the register, the number of characters in it and the number of equals signs seen. -/
structure B64 where
  reg : Nat
  nc : Nat
  eq : Nat
deriving DecidableEq, Repr

/-- The bytes taken out of a full register (rfc822.c:530-532). -/
def b64Bytes (reg eq : Nat) : Text :=
  UInt8.ofNat (reg / 65536 % 256) :: ((if eq < 2 then [UInt8.ofNat (reg / 256 % 256)] else []) ++ (if eq < 1 then [UInt8.ofNat (reg % 256)] else []))

/-- `*p++ = ...` for each byte in turn. -/
def storeAll (cap : Nat) (out : Text) : Text → Res Text
  | [] => .ok out
  | c :: cs => do
    let out ← storeTo cap out c
    storeAll cap out cs

/-- The loop of the base64 case (rfc822.c:517-540), over the `n` bytes that are left. -/
def b64Loop (cap : Nat) : Text → Nat → B64 → Text → Res Text
  | _, 0, _, out => .ok out
  | [], _ + 1, _, _ => .error .outOfBounds
  | c :: rest, n + 1, s, out =>
    let eq := s.eq + equalTable c
    match base64Table c with
    | none => b64Loop cap rest n { s with eq := eq } out
    | some dc =>
      let reg := s.reg * 64 + dc
      if s.nc + 1 = 4 then do
        let out ← storeAll cap out (b64Bytes reg eq)
        if eq ≠ 0 then .ok out else b64Loop cap rest n ⟨0, 0, eq⟩ out
      else b64Loop cap rest n ⟨reg, s.nc + 1, eq⟩ out

/-- `DEC` (rfc822.c:557). -/
def uuDec (c : UInt8) : Nat := (c.toNat + 32) % 64

/-- Finding `begin ` (rfc822.c:549-551): the memory from `q` on and what is left of the body. -/
def uuFind : Text → Nat → Text × Nat
  | [], n => ([], n)
  | c :: rest, n => if 6 < n ∧ (c :: rest).take 6 ≠ bs "begin " then uuFind rest (n - 1) else (c :: rest, n)

/-- Skipping to the end of the line (rfc822.c:553-554, 573-574). -/
def uuSkip : Text → Nat → Res (Text × Nat)
  | rest, 0 => .ok (rest, 0)
  | [], _ + 1 => .error .outOfBounds
  | c :: rest, n + 1 => if c = 0x0a then .ok (c :: rest, n + 1) else uuSkip rest n

/-- One group of characters (rfc822.c:562-571): up to three bytes from up to four characters. -/
def uuGroup (len : Nat) (q : Text) : Res Text :=
  if 3 ≤ len then
    match q with
    | a :: b :: c :: d :: _ => .ok [UInt8.ofNat (uuDec a * 4 + uuDec b / 16), UInt8.ofNat (uuDec b % 16 * 16 + uuDec c / 4), UInt8.ofNat (uuDec c % 4 * 64 + uuDec d)]
    | _ => .error .outOfBounds
  else if len = 2 then
    match q with
    | a :: b :: c :: _ => .ok [UInt8.ofNat (uuDec a * 4 + uuDec b / 16), UInt8.ofNat (uuDec b % 16 * 16 + uuDec c / 4)]
    | _ => .error .outOfBounds
  else
    match q with
    | a :: b :: _ => .ok [UInt8.ofNat (uuDec a * 4 + uuDec b / 16)]
    | _ => .error .outOfBounds

/-- The groups of one line (rfc822.c:561-572), with fuel. -/
def uuGroups (cap : Nat) : Nat → Nat → Text → Nat → Text → Res (Text × Nat × Text)
  | 0, _, _, _, _ => .error .diverges
  | fuel + 1, len, q, n, out =>
    if len = 0 then .ok (q, n, out)
    else do
      let b ← uuGroup len q
      let out ← storeAll cap out b
      uuGroups cap fuel (len - 3) (q.drop 4) (n - 4) out

/-- The loop over lines (rfc822.c:556-575), with fuel. -/
def uuLines (cap : Nat) : Nat → Text → Nat → Text → Res Text
  | 0, _, _, _ => .error .diverges
  | fuel + 1, q, n, out =>
    if n = 0 then .ok out
    else match q with
      | [] => .error .outOfBounds
      | c :: q =>
        if uuDec c = 0 then .ok out
        else do
          let (q, n, out) ← uuGroups cap 64 (uuDec c) q (n - 1) out
          let (q, n) ← uuSkip q n
          uuLines cap fuel q n out

/-- The uuencode case (rfc822.c:545-577). -/
def uuDecode (cap : Nat) (mem : Text) (len : Nat) : Res Text := do
  let (q, n) := uuFind mem len
  let (q, n) ← uuSkip (q.drop 6) (n - 6)
  uuLines cap (len + 1) q n []

/-- `memcpy(result, input, input_len)` (rfc822.c:475). -/
def copyBody (mem : Text) (len : Nat) : Res Text := if len ≤ mem.length then .ok (mem.take len) else .error .outOfBounds

/-- The decoding proper by kind of encoding (rfc822.c:468-585). -/
def decodeAs (cap : Nat) (mem : Text) (len : Nat) : EncodingType → Res Text
  | .sevenBit => copyBody mem len
  | .eightBit => copyBody mem len
  | .binary => copyBody mem len
  | .none => copyBody mem len
  | .quotedPrintable => qpLoop cap (len + 1) mem len []
  | .base64 => b64Loop cap mem len ⟨0, 0, 0⟩ []
  | .uuencode => uuDecode cap mem len
  | .unknown => .ok []

/-- `unencode_data` (rfc822.c:454-588): the result buffer has one byte more than the input; the final null byte is stored behind the result. -/
def unencodeData (mem : Text) (len : Nat) (enc : Option Text) : Res Text := do
  let cap := len + 1
  let out ← decodeAs cap mem len (decodeEncodingType enc)
  if out.length + 1 ≤ cap then .ok out else .error .outOfBounds

end Mairix
