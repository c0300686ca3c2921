import Verif.Model.Subset
import Verif.Spec.Update

/-!
# What a scanner generated by dfasyn should do (specification)
-/

namespace Mairix.Spec

/-- The automaton can get from one state to the other with these tokens. -/
inductive Moves (states : List XState) : Nat → List Nat → Nat → Prop
  | stay {s} : Moves states s [] s
  | eps {s st d w e} : states[s]? = some st → .eps d ∈ st.trans → Moves states d w e → Moves states s w e
  | token {s st t d w e} : states[s]? = some st → .token t d ∈ st.trans → Moves states d w e → Moves states s (t :: w) e

/-- A state with the tag can be reached from `s` with the tokens. -/
def Tagged (states : List XState) (s : Nat) (w : List Nat) (tag : Text) : Prop :=
  ∃ e st, Moves states s w e ∧ states[e]? = some st ∧ tag ∈ st.tags

/-- The last definition of a tag. -/
def LastDef (defs : TagDefs) (name : Text) (e : TagExpr) : Prop :=
  ∃ pre post, defs = pre ++ (name, e) :: post ∧ ∀ d ∈ post, d.1 ≠ name

/-- The tag is not defined by an expression. -/
def Plain (defs : TagDefs) (name : Text) : Prop := ∀ d ∈ defs, d.1 ≠ name

/-- The value of an expression when the tags in `S` are set. -/
inductive Evals (defs : TagDefs) (S : Text → Prop) : TagExpr → Bool → Prop
  | andTrue {a b x} : Evals defs S a true → Evals defs S b x → Evals defs S (.and a b) x
  | andFalse {a b} : Evals defs S a false → Evals defs S (.and a b) false
  | orTrue {a b} : Evals defs S a true → Evals defs S (.or a b) true
  | orFalse {a b x} : Evals defs S a false → Evals defs S b x → Evals defs S (.or a b) x
  | xor {a b x y} : Evals defs S a x → Evals defs S b y → Evals defs S (.xor a b) (Bool.xor x y)
  | condTrue {c a b x} : Evals defs S c true → Evals defs S a x → Evals defs S (.cond c a b) x
  | condFalse {c a b x} : Evals defs S c false → Evals defs S b x → Evals defs S (.cond c a b) x
  | not {a x} : Evals defs S a x → Evals defs S (.not a) (!x)
  | defined {name e x} : LastDef defs name e → Evals defs S e x → Evals defs S (.tag name) x
  | set {name} : Plain defs name → S name → Evals defs S (.tag name) true
  | unset {name} : Plain defs name → ¬ S name → Evals defs S (.tag name) false

/-- The attribute of the group when the tags in `S` are set: the only one whose expression holds, none if no expression holds. -/
inductive AttrIs (defs : TagDefs) (S : Text → Prop) (ev : Evaluator) : Option Text → Prop
  | one {pre a post} : ev.attrs = pre ++ a :: post → Evals defs S a.expr true →
      (∀ b ∈ pre ++ post, Evals defs S b.expr false) → AttrIs defs S ev (some a.name)
  | default : (∀ b ∈ ev.attrs, Evals defs S b.expr false) → AttrIs defs S ev none

/-- An attribute that stops the scanner holds. -/
def StopsAt (a : Auto) (S : Text → Prop) : Prop :=
  ∃ ev ∈ a.evaluators, ∃ x ∈ ev.attrs, x.early = true ∧ Evals a.defs S x.expr true

/-- The scanner has not been stopped before it has read all the tokens. -/
def NoStop (a : Auto) (e : Nat) (w : List Nat) : Prop := ∀ p, p <+: w → p ≠ w → ¬ StopsAt a (Tagged a.states e p)

/-- What a table says of the tokens `w` after entry `e`: the attribute whose expression holds, and its default if none does or the automaton
has no way to read the tokens. -/
inductive GroupIs (a : Auto) (e : Nat) (w : List Nat) (ev : Evaluator) : Text → Prop
  | attr {x y} : Moves a.states e w y → AttrIs a.defs (Tagged a.states e w) ev (some x) → GroupIs a e w ev x
  | default {x y} : Moves a.states e w y → AttrIs a.defs (Tagged a.states e w) ev none → ev.default = some x → GroupIs a e w ev x
  | stuck {x} : (∀ y, ¬ Moves a.states e w y) → ev.default = some x → GroupIs a e w ev x

/-- What the tables say of the tokens. -/
def Outcome (a : Auto) (e : Nat) (w : List Nat) (xs : List Text) : Prop := Pairs (GroupIs a e w) a.evaluators xs

/-- The defaults of the tables. -/
def Defaults (a : Auto) (ds : List Text) : Prop := Pairs (fun ev x => ev.default = some x) a.evaluators ds

/-- Nothing but defaults can follow. -/
def Hopeless (a : Auto) (e : Nat) (w : List Nat) : Prop :=
  ∀ v ds, Defaults a ds → NoStop a e (w ++ v) → Outcome a e (w ++ v) ds

/-- Two attributes of a table hold for the tokens. -/
def Ambiguous (a : Auto) (e : Nat) (w : List Nat) : Prop :=
  ∃ ev ∈ a.evaluators, ∃ pre x mid y post, ev.attrs = pre ++ x :: (mid ++ y :: post) ∧ Evals a.defs (Tagged a.states e w) x.expr true ∧
    Evals a.defs (Tagged a.states e w) y.expr true

/-- A state has a tag that is defined by an expression. -/
def BadTag (a : Auto) (e : Nat) (w : List Nat) : Prop := ∃ t, Tagged a.states e w t ∧ ¬ Plain a.defs t

/-- What is wrong with an input file: some tokens for which two attributes hold or a tag is defined as well. -/
def Wrong (a : Auto) (entries : List Nat) : Prop :=
  ∃ e ∈ entries, ∃ w, NoStop a e w ∧ (∃ y, Moves a.states e w y) ∧ (Ambiguous a e w ∨ BadTag a e w)

end Mairix.Spec
