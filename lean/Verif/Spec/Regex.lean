import Verif.Model.Regex

/-!
# The meaning of regular expressions (specification)
-/

namespace Mairix.Spec

/-- The text `s` belongs to the language of the expression. -/
inductive Denotes : RE → Text → Prop
  | eps : Denotes .eps []
  | cls {p : UInt8 → Bool} {c : UInt8} : p c = true → Denotes (.cls p) [c]
  | seq {a b s t} : Denotes a s → Denotes b t → Denotes (.seq a b) (s ++ t)
  | altl {a b s} : Denotes a s → Denotes (.alt a b) s
  | altr {a b s} : Denotes b s → Denotes (.alt a b) s
  | nil {a} : Denotes (.star a) []
  | more {a s t} : Denotes a s → Denotes (.star a) t → Denotes (.star a) (s ++ t)

end Mairix.Spec
