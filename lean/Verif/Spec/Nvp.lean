import Verif.Model.Nvp
import Verif.Spec.Decode

/-!
# The form of headers with parameters (specification)
-/

namespace Mairix.Spec

/-- A character of names: letters, digits, `-`, `_`. -/
def ParamChar (c : UInt8) : Prop := isAlnum c = true ∨ c = 0x2d ∨ c = 0x5f
/-- A character of subtypes. -/
def SubtypeChar (c : UInt8) : Prop := ParamChar c ∨ c = 0x2e ∨ c = 0x2b
/-- A character of values without quotes: printable, but no backslash, double quote or semicolon. -/
def ValueChar (c : UInt8) : Prop := 0x21 ≤ c ∧ c ≤ 0x7e ∧ c ≠ 0x5c ∧ c ≠ 0x22 ∧ c ≠ 0x3b
/-- A character of values in quotes that is not escaped. -/
def QuotedChar (c : UInt8) : Prop := ValueChar c ∨ c = 0x20 ∨ c = 0x09 ∨ c = 0x3b
/-- Blank, tab and carriage return. -/
def White (t : Text) : Prop := ∀ c ∈ t, c = 0x20 ∨ c = 0x09 ∨ c = 0x0d
/-- Blank and tab. -/
def Blank (t : Text) : Prop := ∀ c ∈ t, c = 0x20 ∨ c = 0x09

/-- A non-empty text of such characters. -/
def Of (P : UInt8 → Prop) (t : Text) : Prop := t ≠ [] ∧ ∀ c ∈ t, P c

/-- A name, possibly of several words. -/
inductive Words : Text → Prop
  | one {n} : Of ParamChar n → Words n
  | more {n ws m} : Of ParamChar n → Blank ws → ws ≠ [] → Words m → Words (n ++ ws ++ m)

/-- `PercentForm t d`: `t` with each `%xx` replaced is `d`. -/
inductive PercentForm : Text → Text → Prop
  | nil : PercentForm [] []
  | plain {c t d} : c ≠ 0x25 → PercentForm t d → PercentForm (c :: t) (c :: d)
  | hex {a b x y t d} : HexDigit a x → HexDigit b y → PercentForm t d → PercentForm (0x25 :: a :: b :: t) (UInt8.ofNat (16 * x + y) :: d)

/-- The value is appended to that of the first entry of that name, or a new entry is made at the end. -/
inductive Combined (n v : Text) : Nvp → Nvp → Prop
  | new {l} : (∀ r, .nameValue n r ∉ l) → Combined n v l (l ++ [.nameValue n v])
  | old {a r b} : (∀ r, .nameValue n r ∉ a) → Combined n v (a ++ .nameValue n r :: b) (a ++ .nameValue n (r ++ v) :: b)

/-- `Component t l l'`: the component `t` of a header turns the list `l` of entries into `l'`. -/
inductive Component : Text → Nvp → Nvp → Prop
  /-- a name, as in `attachment` or `7 bit` -/
  | name {n l} : Words n → Component n l (l ++ [.name n])
  /-- a type, as in `text/plain` -/
  | type {m s l} : Of ParamChar m → Of SubtypeChar s → Component (m ++ bs "/" ++ s) l (l ++ [.majorMinor m s])
  /-- a parameter, as in `name=value` -/
  | plain {n ws v l} : Words n → White ws → Of ValueChar v → Component (n ++ bs "=" ++ ws ++ v) l (l ++ [.nameValue n v])
  /-- a parameter in quotes, as in `name="value"` -/
  | quoted {n ws v l} : Words n → White ws → Of QuotedChar v → Component (n ++ bs "=" ++ ws ++ bs "\"" ++ v ++ bs "\"") l (l ++ [.nameValue n v])
  /-- the same if the value begins with a double quote or backslash, which is then written with a backslash before it -/
  | escaped {n ws e v l} : Words n → White ws → e = 0x22 ∨ e = 0x5c → (∀ c ∈ v, QuotedChar c) → Component (n ++ bs "=" ++ ws ++ bs "\"" ++ 0x5c :: e :: v ++ bs "\"") l (l ++ [.nameValue n (e :: v)])
  /-- a part of a parameter, as in `name*1=value` -/
  | contPlain {n ds ws ws' v l l'} : Words n → Of (fun c => isDigit c = true) ds → White ws → White ws' → Of ValueChar v → Combined n v l l' →
      Component (n ++ bs "*" ++ ds ++ ws ++ bs "=" ++ ws' ++ v) l l'
  /-- a part of a parameter in quotes -/
  | contQuoted {n ds ws ws' v l l'} : Words n → Of (fun c => isDigit c = true) ds → White ws → White ws' → Of QuotedChar v → Combined n v l l' →
      Component (n ++ bs "*" ++ ds ++ ws ++ bs "=" ++ ws' ++ bs "\"" ++ v ++ bs "\"") l l'
  /-- the same if the value begins with a double quote or backslash -/
  | contEscaped {n ds ws ws' e v l l'} : Words n → Of (fun c => isDigit c = true) ds → White ws → White ws' → e = 0x22 ∨ e = 0x5c → (∀ c ∈ v, QuotedChar c) → Combined n (e :: v) l l' →
      Component (n ++ bs "*" ++ ds ++ ws ++ bs "=" ++ ws' ++ bs "\"" ++ 0x5c :: e :: v ++ bs "\"") l l'
  /-- a parameter with a charset, as in `name*=utf-8''a%20b`, or `name*0*=...` -/
  | charset {n z ws ws' cs v d l l'} : Words n → z = [] ∨ z = bs "0*" → White ws → White ws' → (∀ c ∈ cs, SubtypeChar c) → Of ValueChar v → PercentForm v d → 0 ∉ d → Combined n d l l' →
      Component (n ++ bs "*" ++ z ++ ws ++ bs "=" ++ ws' ++ cs ++ bs "''" ++ v) l l'
  /-- a further part of a parameter with a charset, as in `name*1*=a%20b` -/
  | charsetCont {n x ws ws' v d l l'} : Words n → isAlnum x = true → x ≠ 0x30 → White ws → White ws' → Of ValueChar v → PercentForm v d → 0 ∉ d → Combined n d l l' →
      Component (n ++ bs "*" ++ [x] ++ bs "*" ++ ws ++ bs "=" ++ ws' ++ v) l l'

/-- `Params t l l'`: the components of `t`, separated by semicolons and white space, turn `l` into `l'`; a last semicolon does not matter. -/
inductive Params : Text → Nvp → Nvp → Prop
  | last {ws c ws' l l'} : White ws → Component c l l' → White ws' → Params (ws ++ c ++ ws') l l'
  | lastSemi {ws c ws' ws'' l l'} : White ws → Component c l l' → White ws' → White ws'' → Params (ws ++ c ++ ws' ++ bs ";" ++ ws'') l l'
  | more {ws c ws' t l l' l''} : White ws → Component c l l' → White ws' → Params t l' l'' → Params (ws ++ c ++ ws' ++ bs ";" ++ t) l l''

end Mairix.Spec
