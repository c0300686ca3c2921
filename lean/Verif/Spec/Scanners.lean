import Verif.Spec.Dates

/-!
# What kinds of dates there are
-/

namespace Mairix
namespace Spec

/-- Three letters, which may be a month. -/
def AnyMonth (t : Text) : Prop := t.length = 3 ∧ ∀ c ∈ t, (0x61 ≤ c ∧ c ≤ 0x7a) ∨ (0x41 ≤ c ∧ c ≤ 0x5a)

/-- The kind of date that a text is, by the parts that it consists of. -/
inductive DateShape : Text → DateType → Prop
  | d {t : Text} {n : Nat} : DayText t n → DateShape t .d
  | y {t : Text} {n : Nat} : YearText t n → DateShape t .y
  | m {t : Text} : AnyMonth t → DateShape t .m
  | dm {a b : Text} {n : Nat} : DayText a n → AnyMonth b → DateShape (a ++ b) .dm
  | md {a b : Text} {n : Nat} : AnyMonth a → DayText b n → DateShape (a ++ b) .md
  | ym {a b : Text} {n : Nat} : YearText a n → AnyMonth b → DateShape (a ++ b) .ym
  | my {a b : Text} {n : Nat} : AnyMonth a → YearText b n → DateShape (a ++ b) .my
  | dmy {a b c : Text} {n k : Nat} : DayText a n → AnyMonth b → YearText c k → DateShape (a ++ (b ++ c)) .dmy
  | ymd {a b c : Text} {n k : Nat} : YearText a k → AnyMonth b → DayText c n → DateShape (a ++ (b ++ c)) .ymd
  | digits {t : Text} : (∀ c ∈ t, isDigit c = true) → (t.length = 6 ∨ t.length = 8) → DateShape t .yymmdd
  | ago {t : Text} {c : UInt8} : t ≠ [] → (∀ c ∈ t, isDigit c = true) → ((0x61 ≤ c ∧ c ≤ 0x7a) ∨ (0x41 ≤ c ∧ c ≤ 0x5a)) → DateShape (t ++ [c]) .scaled

end Spec
end Mairix
