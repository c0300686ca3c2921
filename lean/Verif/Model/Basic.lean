/-!
# Basic vocabulary of the model

Bytes, texts, C locale character classes and the outcomes a C function can have besides
returning: a failed `assert`, an access outside an object, an explicit `exit`, or a loop that
does not end.
-/

namespace Mairix

/-- A NUL-terminated C string is modelled by the list of bytes before the NUL.
`strcmp(a,b)==0` is therefore equality of lists. -/
abbrev Text := List UInt8

/-- Literal texts for use in the model and in examples (ASCII only). -/
def bs (s : String) : Text := s.toList.map fun c => UInt8.ofNat c.toNat

/-- Everything a modelled C function can do instead of returning a value. -/
inductive Fault where
  /-- a failed `assert` -/
  | assertion
  /-- a read or write outside the object it refers to (undefined behaviour in C) -/
  | outOfBounds
  /-- an arithmetic overflow of a signed type (undefined behaviour in C) -/
  | overflow
  /-- a loop that never ends -/
  | diverges
  /-- the use of a value that was never set (undefined behaviour in C) -/
  | uninitialised
  /-- `exit`/`unlock_and_exit` with a status -/
  | exit (status : Nat)
  deriving DecidableEq, Repr

/-- Result of a modelled C function that can fail. -/
abbrev Res (α : Type) := Except Fault α

instance {α : Type} [DecidableEq α] : DecidableEq (Res α) := fun a b =>
  match a, b with
  | .ok x, .ok y => if h : x = y then isTrue (by rw [h]) else isFalse (by intro hh; cases hh; exact h rfl)
  | .error x, .error y =>
    if h : x = y then isTrue (by rw [h]) else isFalse (by intro hh; cases hh; exact h rfl)
  | .ok _, .error _ => isFalse (by intro hh; cases hh)
  | .error _, .ok _ => isFalse (by intro hh; cases hh)

/-- `isdigit` in the C locale. -/
def isDigit (c : UInt8) : Bool := 0x30 ≤ c && c ≤ 0x39

/-- `isupper` in the C locale. -/
def isUpper (c : UInt8) : Bool := 0x41 ≤ c && c ≤ 0x5a

/-- `islower` in the C locale. -/
def isLower (c : UInt8) : Bool := 0x61 ≤ c && c ≤ 0x7a

/-- `isalpha` in the C locale. -/
def isAlpha (c : UInt8) : Bool := isUpper c || isLower c

/-- `isalnum` in the C locale. -/
def isAlnum (c : UInt8) : Bool := isAlpha c || isDigit c

/-- `isspace` in the C locale: space, \t, \n, \v, \f, \r. -/
def isSpace (c : UInt8) : Bool := c == 0x20 || (0x09 ≤ c && c ≤ 0x0d)

/-- `tolower` in the C locale. -/
def toLower (c : UInt8) : UInt8 := if isUpper c then c + 0x20 else c

/-- Lower-casing a whole string, as done in tok.c:253-256 and search.c:780-786. -/
def lower (t : Text) : Text := t.map toLower

end Mairix
