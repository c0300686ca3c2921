import Verif.Model.Basic

/-!
# What the words of a text are (specification)
-/

namespace Mairix.Spec

/-- Word characters: letters, digits, underscore. -/
def WordChar (c : UInt8) : Prop :=
  (0x61 ≤ c ∧ c ≤ 0x7a) ∨ (0x41 ≤ c ∧ c ≤ 0x5a) ∨ (0x30 ≤ c ∧ c ≤ 0x39) ∨ c = 0x5f

/-- Address characters: additionally `+ - . @`. -/
def AddrChar (c : UInt8) : Prop := WordChar c ∨ c = 0x2b ∨ c = 0x2d ∨ c = 0x2e ∨ c = 0x40

/-- `w` occurs in `s` as a maximal run of characters of class `P`, with `a` before it and `b`
behind it. -/
def RunAt (P : UInt8 → Prop) (s a w b : Text) : Prop :=
  s = a ++ w ++ b ∧ w ≠ [] ∧ (∀ c ∈ w, P c) ∧ (∀ c, a.getLast? = some c → ¬ P c) ∧
    (∀ c, b.head? = some c → ¬ P c)

/-- `w` is a maximal run of `s`. -/
def MaximalRun (P : UInt8 → Prop) (s w : Text) : Prop := ∃ a b, RunAt P s a w b

mutual
/-- An HTML text with each tag replaced by a space: a tag is `<` and everything up to and including
the next `>`, or up to the end if there is none. -/
def stripTags : Text → Text
  | [] => []
  | c :: r => if c = 0x3c then 0x20 :: insideTag r else c :: stripTags r
def insideTag : Text → Text
  | [] => []
  | c :: r => if c = 0x3e then stripTags r else insideTag r
end

/-- The terms in angle brackets of `s`, from left to right: each from a `<` to the next `>`. -/
inductive AngledTerms : Text → List Text → Prop
  /-- no `<` is followed by a `>` -/
  | none {s} (h : ∀ a b, s = a ++ 0x3c :: b → 0x3e ∉ b) : AngledTerms s []
  | term {pre t rest ts} (h1 : 0x3c ∉ pre) (h2 : 0x3e ∉ t) (h3 : AngledTerms rest ts) :
      AngledTerms (pre ++ 0x3c :: t ++ 0x3e :: rest) (t :: ts)

end Mairix.Spec
