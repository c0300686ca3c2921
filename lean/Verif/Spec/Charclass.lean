import Verif.Model.Charclass
import Verif.Spec.Subset

/-!
# What character classes should mean, and scanners for characters (specification)
-/

namespace Mairix.Spec

/-- The character is one of the item's; the bounds of a range may be in any order. -/
def InItem (c : UInt8) : ClassItem → Prop
  | .single x => c = x
  | .range a b => (a ≤ c ∧ c ≤ b) ∨ (b ≤ c ∧ c ≤ a)

/-- The character is in one of the items. -/
def InItems (c : UInt8) (s : SimpleClass) : Prop := ∃ i ∈ s.items, InItem c i

/-- `[...]` and `[^...]` -/
def InSimple (c : UInt8) (s : SimpleClass) : Prop := (s.caret = false ∧ InItems c s) ∨ (s.caret = true ∧ ¬ InItems c s)

/-- The characters of a class. -/
def InClass (c : UInt8) : ClassExpr → Prop
  | .simple s => InSimple c s
  | .negated s => ¬ InSimple c s
  | .minus s t => InSimple c s ∧ ¬ InSimple c t

/-- None of the characters between the brackets is the last of a word of the bitmap: 0x1f, `?`, `_`, DEL, 0x9f, 0xbf, 0xdf, 0xff. -/
def NoTop (s : SimpleClass) : Prop := ∀ c : UInt8, c.toNat % 32 = 31 → ¬ InItems c s

/-- Classes where inversion does not meet the last character of a word. -/
def SafeClass : ClassExpr → Prop
  | .simple s => s.caret = true → NoTop s
  | .negated s => s.caret = false → NoTop s
  | .minus s t => (s.caret = true ∨ t.caret = true → NoTop s) ∧ (t.caret = true → NoTop t)

/-- What the scanner is given: a token or a character. -/
inductive Sym where
  | tok (t : Nat)
  | chr (c : UInt8)
  deriving DecidableEq, Repr

/-- The number that is passed to `next_state`. -/
def Sym.number (table : List Int) : Sym → Int
  | .tok t => t
  | .chr c => table.getD c.toNat (-1)

/-- The input file has no other tokens. -/
def Sym.Known (nt : Nat) : Sym → Prop
  | .tok t => t < nt
  | .chr _ => True

/-- What the parser sees to: the tokens of transitions have names, and the classes are safe and not empty. -/
def Proper (a : CAuto) : Prop :=
  ∀ s ∈ a.states, ∀ tr ∈ s.trans, match tr with
    | .eps _ => True
    | .token t _ => t < a.nt
    | .cls e _ => SafeClass e ∧ ∃ c, InClass c e

/-- A transition for the symbol. -/
inductive Takes : CTrans → Sym → Nat → Prop
  | token {t d} : Takes (.token t d) (.tok t) d
  | cls {e c d} : InClass c e → Takes (.cls e d) (.chr c) d

/-- The automaton can get from one state to the other with these symbols. -/
inductive CMoves (states : List CState) : Nat → List Sym → Nat → Prop
  | stay {s} : CMoves states s [] s
  | eps {s st d w e} : states[s]? = some st → .eps d ∈ st.trans → CMoves states d w e → CMoves states s w e
  | sym {s st tr x d w e} : states[s]? = some st → tr ∈ st.trans → Takes tr x d → CMoves states d w e → CMoves states s (x :: w) e

/-- A state with the tag can be reached. -/
def CTagged (states : List CState) (s : Nat) (w : List Sym) (tag : Text) : Prop :=
  ∃ e st, CMoves states s w e ∧ states[e]? = some st ∧ tag ∈ st.tags

/-- An attribute that stops the scanner holds. -/
def CStops (a : CAuto) (S : Text → Prop) : Prop :=
  ∃ ev ∈ a.evaluators, ∃ x ∈ ev.attrs, x.early = true ∧ Evals a.defs S x.expr true

/-- The scanner has not been stopped before it has read all the symbols. -/
def CNoStop (a : CAuto) (e : Nat) (w : List Sym) : Prop := ∀ p, p <+: w → p ≠ w → ¬ CStops a (CTagged a.states e p)

/-- What a table says of the symbols `w` after entry `e`. -/
inductive CGroupIs (a : CAuto) (e : Nat) (w : List Sym) (ev : Evaluator) : Text → Prop
  | attr {x y} : CMoves a.states e w y → AttrIs a.defs (CTagged a.states e w) ev (some x) → CGroupIs a e w ev x
  | default {x y} : CMoves a.states e w y → AttrIs a.defs (CTagged a.states e w) ev none → ev.default = some x → CGroupIs a e w ev x
  | stuck {x} : (∀ y, ¬ CMoves a.states e w y) → ev.default = some x → CGroupIs a e w ev x

/-- What the tables say of the symbols. -/
def COutcome (a : CAuto) (e : Nat) (w : List Sym) (xs : List Text) : Prop := Pairs (CGroupIs a e w) a.evaluators xs

/-- Nothing but defaults can follow. -/
def CHopeless (a : CAuto) (e : Nat) (w : List Sym) : Prop :=
  ∀ v ds, (∀ x ∈ v, x.Known a.nt) → Pairs (fun ev x => ev.default = some x) a.evaluators ds → CNoStop a e (w ++ v) → COutcome a e (w ++ v) ds

/-- What is wrong with an input file: some symbols for which two attributes of a table hold or a tag is set that is defined by an expression. -/
def CWrong (a : CAuto) (entries : List Nat) : Prop :=
  ∃ e ∈ entries, ∃ w, (∀ x ∈ w, x.Known a.nt) ∧ CNoStop a e w ∧ (∃ y, CMoves a.states e w y) ∧
    ((∃ ev ∈ a.evaluators, ∃ pre x mid y post, ev.attrs = pre ++ x :: (mid ++ y :: post) ∧ Evals a.defs (CTagged a.states e w) x.expr true ∧
        Evals a.defs (CTagged a.states e w) y.expr true) ∨
      ∃ t, CTagged a.states e w t ∧ ¬ Plain a.defs t)

/-- Where a transition leads. -/
def dest : CTrans → Nat
  | .eps d => d
  | .token _ d => d
  | .cls _ d => d

/-- Transitions and entries are to states that exist. -/
def InStates (a : CAuto) (entries : List Nat) : Prop :=
  (∀ s ∈ a.states, ∀ tr ∈ s.trans, dest tr < a.states.length) ∧ ∀ e ∈ entries, e < a.states.length

end Mairix.Spec
