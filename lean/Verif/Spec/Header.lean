import Verif.Model.Header
import Verif.Spec.Decode

/-!
# Header lines and encoded words (specification)
-/

namespace Mairix.Spec

/-! ## Folding -/

/-- The line continues the field before it; `piece` is what it adds: its leading white space counts only as one character, the last one. -/
def Continues (line piece : Text) : Prop :=
  ∃ ws w t, line = ws ++ w :: t ∧ (∀ c ∈ ws, isSpace c = true) ∧ isSpace w = true ∧ (∀ c, t.head? = some c → isSpace c = false) ∧ piece = w :: t

/-- The line begins a field. -/
def Begins (line : Text) : Prop := ∀ c, line.head? = some c → isSpace c = false

/-- The continuation lines, one by one, with what they add together. -/
inductive ContinueAll : List Text → Text → Prop
  | nil : ContinueAll [] []
  | cons {l p ls ps} : Continues l p → ContinueAll ls ps → ContinueAll (l :: ls) (p ++ ps)

/-- `Unfolded lines fields`: each field is a line that begins one, followed by what all its continuation lines add, in order. -/
inductive Unfolded : List Text → List Text → Prop
  | nil : Unfolded [] []
  | field {l conts ps rest fields} : Begins l → ContinueAll conts ps → Unfolded rest fields → Unfolded (l :: conts ++ rest) ((l ++ ps) :: fields)

/-- A line with a field name: a word without white space or colons, and a colon. -/
def FieldLine (l : Text) : Prop := ∃ name rest, l = name ++ bs ":" ++ rest ∧ name ≠ [] ∧ ∀ c ∈ name, isSpace c = false ∧ c ≠ 0x3a

/-- A line that is taken for the separator of an mbox, escaped or not. -/
def MboxFromLine (l : Text) : Prop := bs "From " <+: l ∨ bs ">From " <+: l

/-- A line that begins with white space. -/
def SpaceLine (l : Text) : Prop := ∃ c t, l = c :: t ∧ isSpace c = true

/-- The lines may be a header: besides From lines, the first one has a field name, and every other has one or begins with white space. -/
def HeaderOk (lines : List Text) : Prop :=
  (∀ l ∈ lines, MboxFromLine l ∨ FieldLine l ∨ SpaceLine l) ∧
  ∀ pre l post, lines = pre ++ l :: post → (∀ x ∈ pre, MboxFromLine x) → ¬ MboxFromLine l → FieldLine l

/-- The header as it is in the message: lines, then a line of nothing but white space, then the body. -/
def headerText (lines : List Text) (blank body : Text) : Text := (lines.map (· ++ bs "\n")).flatten ++ blank ++ bs "\n" ++ body

/-- A line that can be in a header: no newline or null in it, and not only white space. -/
def HeaderLine (l : Text) : Prop := 0x0a ∉ l ∧ 0 ∉ l ∧ ∃ c ∈ l, isSpace c = false

/-! ## Encoded words (RFC 2047) -/

/-- A hexadecimal digit and its value; other characters count as zero. -/
def HexOrZero (x : UInt8) (v : Nat) : Prop := HexDigit x v ∨ ((∀ u, ¬ HexDigit x u) ∧ v = 0)

/-- `QText t d`: the body `t` of an encoded word in Q encoding stands for `d`: an underscore for a blank, `=` and two hexadecimal digits for a byte, other characters for themselves. Digits that are missing at the end count as zero. -/
inductive QText : Text → Text → Prop
  | nil : QText [] []
  | under {t d} : QText t d → QText (0x5f :: t) (0x20 :: d)
  | plain {c t d} : c ≠ 0x5f → c ≠ 0x3d → QText t d → QText (c :: t) (c :: d)
  | hex {a b x y t d} : HexOrZero a x → HexOrZero b y → QText t d → QText (0x3d :: a :: b :: t) (UInt8.ofNat (16 * x + y) :: d)
  | short1 {a x} : HexOrZero a x → QText [0x3d, a] [UInt8.ofNat (16 * x)]
  | short0 : QText [0x3d] [0]

/-- The value of a character of base64; `=` counts as zero. -/
def b64Value (c : UInt8) : Nat := (b64Alphabet.idxOf? c).getD 0

/-- The data of a sequence of base64 characters: each four of them are 24 bits, hence three bytes; a group with one `=` counts two bytes, with more one byte, and is the last one. An incomplete group at the end is left out. -/
def b64Data : Text → Text
  | a :: b :: c :: d :: t =>
    let r := ((b64Value a * 64 + b64Value b) * 64 + b64Value c) * 64 + b64Value d
    let bytes : Text := [UInt8.ofNat (r / 65536 % 256), UInt8.ofNat (r / 256 % 256), UInt8.ofNat (r % 256)]
    match [a, b, c, d].count 0x3d with
    | 0 => bytes ++ b64Data t
    | 1 => bytes.take 2
    | _ => bytes.take 1
  | _ => []

/-- `x y` occurs nowhere in the text. -/
def Lacks (x y : UInt8) (t : Text) : Prop := ¬ ∃ a b, t = a ++ x :: y :: b

/-- The text of an encoded word. -/
def encodedWord (cs enc body : Text) : Text := bs "=?" ++ cs ++ bs "?" ++ enc ++ bs "?" ++ body ++ bs "?="

/-- What an encoded word stands for; if its encoding is not known it stands for itself. -/
inductive WordMeans (cs : Text) : Text → Text → Text → Prop
  | q {enc body d} : enc = bs "q" ∨ enc = bs "Q" → QText body d → WordMeans cs enc body d
  | b {enc body} : enc = bs "b" ∨ enc = bs "B" → WordMeans cs enc body (b64Data (body.filter B64Sign))
  | other {enc body} : enc ∉ [bs "q", bs "Q", bs "b", bs "B"] → WordMeans cs enc body (encodedWord cs enc body)

/-- `t` begins, after `pre`, with an encoded word, and goes on with `rest`. -/
def HasEncWord (t pre cs enc body rest : Text) : Prop :=
  t = pre ++ encodedWord cs enc body ++ rest ∧ Lacks 0x3d 0x3f (pre ++ bs "=") ∧ 0x3f ∉ cs ∧ 0x3f ∉ enc ∧ Lacks 0x3f 0x3d (body ++ bs "?")

/-- `HeaderMeans t d`: in `t` each encoded word, from left to right, is replaced by what it stands for, to give `d`. -/
inductive HeaderMeans : Text → Text → Prop
  | none {t} : (∀ pre cs enc body rest, ¬ HasEncWord t pre cs enc body rest) → HeaderMeans t t
  | word {t pre cs enc body rest v d} : HasEncWord t pre cs enc body rest → WordMeans cs enc body v → HeaderMeans rest d → HeaderMeans t (pre ++ v ++ d)

end Mairix.Spec
