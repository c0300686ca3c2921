import Verif.Model.Basic

/-!
# How an mbox is split into messages (specification)
-/

namespace Mairix.Spec

/-- `p` is the beginning of a line of `va`; position `base`, where reading starts, counts as one. -/
def LineStart (va : Text) (base p : Nat) : Prop := p = base ∨ (base < p ∧ va[p - 1]? = some 0x0a)

/-- A From line begins at `p`: `From ` at the beginning of a line, followed by something that looks
right to `isFrom`. -/
def FromLine (isFrom : Text → Bool) (va : Text) (base p : Nat) : Prop :=
  LineStart va base p ∧ ∃ rest, va.drop p = bs "From " ++ rest ∧ isFrom rest = true

/-- A separator line of the MMDF format begins at `p`: four times control-A. -/
def MmdfLine (va : Text) (base p : Nat) : Prop :=
  LineStart va base p ∧ ∃ rest, va.drop p = [1, 1, 1, 1, 0x0a] ++ rest

/-- `p` is the first position with property `S` from `base` on. -/
def First (S : Nat → Prop) (base p : Nat) : Prop := base ≤ p ∧ S p ∧ ∀ q, base ≤ q → q < p → ¬ S q

/-- The line that begins at `p` ends with a newline, and `s` is the position after it. -/
def NextLine (va : Text) (p s : Nat) : Prop :=
  ∃ line rest, va.drop p = line ++ 0x0a :: rest ∧ 0x0a ∉ line ∧ s = p + line.length + 1

/-- The messages of an mbox from `base` on, as pairs of position and length: each begins with the line
after a From line and reaches to the next From line or to the end. A From line with nothing behind
it has no message. -/
inductive Splits (isFrom : Text → Bool) (va : Text) : Nat → List (Nat × Nat) → Prop
  | none {base} : (∀ p, base ≤ p → ¬ FromLine isFrom va base p) → Splits isFrom va base []
  | bare {base p} : First (FromLine isFrom va base) base p → (∀ s, NextLine va p s → s = va.length) →
      Splits isFrom va base []
  | last {base p s} : First (FromLine isFrom va base) base p → NextLine va p s → s < va.length →
      (∀ q, s ≤ q → ¬ FromLine isFrom va s q) → Splits isFrom va base [(s, va.length - s)]
  | more {base p s q rest} : First (FromLine isFrom va base) base p → NextLine va p s → s < va.length →
      First (FromLine isFrom va s) s q → Splits isFrom va q rest → Splits isFrom va base ((s, q - s) :: rest)

/-- The messages of an MMDF file from `base` on: `base` must be a separator line, the message begins
behind it and reaches to the next separator line, behind which there may be a further message, or to the
end. -/
inductive MmdfSplits (va : Text) : Nat → List (Nat × Nat) → Prop
  | none {base} : ¬ MmdfLine va base base → MmdfSplits va base []
  | last {base} : MmdfLine va base base → (∀ q, base + 5 ≤ q → ¬ MmdfLine va (base + 5) q) →
      MmdfSplits va base [(base + 5, va.length - (base + 5))]
  | more {base q rest} : MmdfLine va base base → First (MmdfLine va (base + 5)) (base + 5) q →
      MmdfSplits va (q + 5) rest → MmdfSplits va base ((base + 5, q - (base + 5)) :: rest)

end Mairix.Spec
