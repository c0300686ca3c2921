import Verif.Model.Expand

/-!
# What a configuration value with references stands for (specification)
-/

namespace Mairix.Spec

/-- A letter, a digit or an underscore: what the name of a variable is made of if there are no braces. -/
def NameChar (c : UInt8) : Prop := isAlpha c = true ∨ isDigit c = true ∨ c = 0x5f

/-- The value of a variable, nothing if it is not set. -/
def Env.valueIs (e : Env) (name v : Text) : Prop := e.get name = some v ∨ (e.get name = none ∧ v = [])

/-- The text (after the beginning of the value) stands for the other one: each `$NAME` (with the longest possible name) and each `${NAME}` for the value of the variable, any other
character for itself. A `${` without an end is taken up to the end of the text. -/
inductive Stands (e : Env) : Text → Text → Prop
  | nil : Stands e [] []
  | char {c t r} : c ≠ 0x24 → Stands e t r → Stands e (c :: t) (c :: r)
  | braced {name v t r} : 0x7d ∉ name → Env.valueIs e name v → Stands e t r → Stands e (bs "${" ++ name ++ bs "}" ++ t) (v ++ r)
  | open {name v} : 0x7d ∉ name → Env.valueIs e name v → Stands e (bs "${" ++ name) v
  | plain {name v t r} : (∀ c ∈ name, NameChar c) → (∀ c, t.head? = some c → ¬ NameChar c) → (name = [] → t.head? ≠ some 0x7b) → Env.valueIs e name v →
      Stands e t r → Stands e (bs "$" ++ name ++ t) (v ++ r)

/-- The whole value: a `~/` at its beginning also stands for the home directory, which is `$HOME` or, if that is not set, the one in the password file. -/
inductive StandsFor (e : Env) : Text → Text → Prop
  | home {t r h} : (e.get (bs "HOME") = some h ∨ (e.get (bs "HOME") = none ∧ h = e.pwDir)) → Stands e (bs "/" ++ t) r → StandsFor e (bs "~/" ++ t) (h ++ r)
  | other {t r} : t.take 2 ≠ bs "~/" → Stands e t r → StandsFor e t r

end Mairix.Spec
