import Verif.Model.Basic

/-!
# Wildcard patterns and colon separated lists (specification)
-/

namespace Mairix.Spec

/-- One thing in a character class: a character or a range. -/
inductive ClassItem where
  | one (c : UInt8)
  | range (a b : UInt8)

/-- A character class: perhaps a `]` to begin with, then characters and ranges, then perhaps a `-`. -/
structure CharClass where
  bracket : Bool
  items : List ClassItem
  hyphen : Bool

/-- The parts of a pattern. -/
inductive Wild where
  | char (c : UInt8)
  | question
  | cls (k : CharClass)
  | star
  | twoStars

/-- How a part of a class is written. -/
def ClassItem.text : ClassItem → Text
  | .one c => [c]
  | .range a b => [a, 0x2d, b]

/-- How a class is written. -/
def CharClass.text (k : CharClass) : Text :=
  bs "[" ++ (if k.bracket then bs "]" else []) ++ k.items.flatMap ClassItem.text ++ (if k.hyphen then bs "-" else []) ++ bs "]"

/-- How a part of a pattern is written. -/
def Wild.text : Wild → Text
  | .char c => [c]
  | .question => bs "?"
  | .cls k => k.text
  | .star => bs "*"
  | .twoStars => bs "**"

/-- How a pattern is written. -/
def wildText (p : List Wild) : Text := p.flatMap Wild.text

/-- The character is named by this part of a class; the ends of a range may be swapped. -/
def ClassItem.has : ClassItem → UInt8 → Prop
  | .one c, d => d = c
  | .range a b, d => (a ≤ d ∧ d ≤ b) ∨ (b ≤ d ∧ d ≤ a)

/-- The character is in the class. -/
def CharClass.has (k : CharClass) (c : UInt8) : Prop :=
  (k.bracket = true ∧ c = 0x5d) ∨ (∃ i ∈ k.items, i.has c) ∨ (k.hyphen = true ∧ c = 0x2d)

/-- The text matches the pattern. -/
inductive WildMatch : List Wild → Text → Prop
  | nil : WildMatch [] []
  | char {c p s} : WildMatch p s → WildMatch (.char c :: p) (c :: s)
  | question {c p s} : WildMatch p s → WildMatch (.question :: p) (c :: s)
  | cls {k c p s} : k.has c → WildMatch p s → WildMatch (.cls k :: p) (c :: s)
  | star {x p s} : 0x2f ∉ x → WildMatch p s → WildMatch (.star :: p) (x ++ s)
  | twoStars {x p s} : WildMatch p s → WildMatch (.twoStars :: p) (x ++ s)

/-- Characters that stand for themselves inside a class wherever they are; the ends of ranges are ASCII characters. -/
def ClassItem.ok : ClassItem → Prop
  | .one c => c ≠ 0x5d ∧ c ≠ 0x2d
  | .range a b => a ≠ 0x5d ∧ a ≠ 0x2d ∧ b ≠ 0x5d ∧ b ≠ 0x2d ∧ a < 0x80 ∧ b < 0x80

/-- A part that is written without ambiguity. -/
def Wild.ok : Wild → Prop
  | .char c => c ≠ 0x2a ∧ c ≠ 0x3f ∧ c ≠ 0x5b
  | .cls k => (∀ i ∈ k.items, i.ok) ∧ (k.bracket = true ∨ k.items ≠ [] ∨ k.hyphen = true)
  | _ => True

/-- A pattern that is written without ambiguity: no `*` is directly followed by another star. -/
def WildOk : List Wild → Prop
  | [] => True
  | .star :: .star :: _ => False
  | .star :: .twoStars :: _ => False
  | w :: p => w.ok ∧ WildOk p

/-- The number of parts other than stars. -/
def solid : List Wild → Nat
  | [] => 0
  | .star :: p => solid p
  | .twoStars :: p => solid p
  | _ :: p => solid p + 1

/-! ## Colon separated lists -/

/-- Every colon in the text has a backslash directly before it. -/
def ColonsEscaped (p : Text) : Prop := ∀ a b, p = a ++ 0x3a :: b → ∃ a', a = a' ++ [0x5c]

/-- `l` are the parts of `s` between colons that are not escaped. -/
inductive SplitsAtColons : Text → List Text → Prop
  | last {p} : ColonsEscaped p → SplitsAtColons p [p]
  | more {p s l} : ColonsEscaped p → (∀ a, p ≠ a ++ [0x5c]) → SplitsAtColons s l → SplitsAtColons (p ++ 0x3a :: s) (p :: l)

/-- The text with each `\:` replaced by `:`. -/
def unescape : Text → Text
  | [] => []
  | [c] => [c]
  | c :: d :: s => if c = 0x5c ∧ d = 0x3a then unescape (d :: s) else c :: unescape (d :: s)

/-- The text with each `:` replaced by `\:`. -/
def escape (t : Text) : Text := t.flatMap fun c => if c = 0x3a then [0x5c, 0x3a] else [c]

/-- The items with their colons escaped, joined by colons. -/
def joinColons : List Text → Text
  | [] => []
  | [t] => escape t
  | t :: l => escape t ++ 0x3a :: joinColons l

/-- An empty item at the end, behind a colon, does not count. -/
def dropEmptyLast (l : List Text) : List Text := if l.length > 1 ∧ l.getLast? = some [] then l.dropLast else l

end Mairix.Spec
