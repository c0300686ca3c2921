import Verif.Model.Decode

/-!
# Quoted-printable, base64 and uuencode (specification)
-/

namespace Mairix.Spec

/-- A hexadecimal digit, in either case, and its value. -/
def HexDigit (x : UInt8) (v : Nat) : Prop := (bs "0123456789ABCDEF")[v]? = some x ∨ (bs "0123456789abcdef")[v]? = some x

instance (x : UInt8) (v : Nat) : Decidable (HexDigit x v) := inferInstanceAs (Decidable (_ ∨ _))

/-- `QpForm t d`: `t` is a quoted-printable form of the data `d` (RFC 2045, 6.7): characters for themselves, bytes as `=` and two hexadecimal digits, and soft line breaks (`=`, perhaps white space added
on the way, and the end of the line). -/
inductive QpForm : Text → Text → Prop
  | nil : QpForm [] []
  | plain {c t d} : c ≠ 0x3d → QpForm t d → QpForm (c :: t) (c :: d)
  | hex {a b x y t d} : HexDigit a x → HexDigit b y → QpForm t d → QpForm (0x3d :: a :: b :: t) (UInt8.ofNat (16 * x + y) :: d)
  | soft {ws t d} : (∀ c ∈ ws, isSpace c = true ∧ c ≠ 0x0a) → QpForm t d → QpForm (0x3d :: ws ++ bs "\n" ++ t) d

/-- The alphabet of base64 (RFC 2045, 6.8). -/
def b64Alphabet : Text := bs "ABCDEFGHIJKLMNOPQRSTUVWXYZabcdefghijklmnopqrstuvwxyz0123456789+/"

/-- The character for a value below 64. -/
def b64Char (v : Nat) : UInt8 := b64Alphabet[v]?.getD 0

/-- The base64 form of data, without line breaks: each three bytes, taken as 24 bits, become four characters of 6 bits each; at the end, missing bytes are padded by `=`. -/
def b64Encode : Text → Text
  | [] => []
  | [a] => [b64Char (a.toNat / 4), b64Char (a.toNat % 4 * 16), 0x3d, 0x3d]
  | [a, b] => [b64Char (a.toNat / 4), b64Char (a.toNat % 4 * 16 + b.toNat / 16), b64Char (b.toNat % 16 * 4), 0x3d]
  | a :: b :: c :: t =>
    b64Char (a.toNat / 4) :: b64Char (a.toNat % 4 * 16 + b.toNat / 16) :: b64Char (b.toNat % 16 * 4 + c.toNat / 64) :: b64Char (c.toNat % 64) :: b64Encode t

/-- A character that has a meaning in base64. -/
def B64Sign (c : UInt8) : Bool := b64Alphabet.contains c || c == 0x3d

/-- `B64Form t d`: `t` is a base64 form of the data `d`, with line breaks and anything else that has no meaning in base64 strewn in. -/
def B64Form (t d : Text) : Prop := t.filter B64Sign = b64Encode d

/-- The character for a value below 64 in uuencode. -/
def uuChar (v : Nat) : UInt8 := UInt8.ofNat (32 + v)

/-- Three bytes as four characters. -/
def uuTriples : Text → Text
  | [] => []
  | [a] => [uuChar (a.toNat / 4), uuChar (a.toNat % 4 * 16), uuChar 0, uuChar 0]
  | [a, b] => [uuChar (a.toNat / 4), uuChar (a.toNat % 4 * 16 + b.toNat / 16), uuChar (b.toNat % 16 * 4), uuChar 0]
  | a :: b :: c :: t =>
    uuChar (a.toNat / 4) :: uuChar (a.toNat % 4 * 16 + b.toNat / 16) :: uuChar (b.toNat % 16 * 4 + c.toNat / 64) :: uuChar (c.toNat % 64) :: uuTriples t

/-- A uuencoded file of one line: at most 45 bytes. -/
def uuEncodeShort (d : Text) : Text := bs "begin 644 f\n" ++ uuChar d.length :: uuTriples d ++ bs "\n \nend\n"

end Mairix.Spec
