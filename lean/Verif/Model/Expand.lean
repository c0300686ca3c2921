import Verif.Model.Basic

/-!
# Expansion of home directory and environment variables in the configuration: expandstr.c
-/

namespace Mairix

/-- The environment: `getenv`, and the home directory in the password file (`getpwuid(getuid())->pw_dir`). -/
structure Env where
  get : Text → Option Text
  pwDir : Text

/-- `isenv` (expandstr.c:31-40). -/
def isEnv (x : UInt8) : Bool := isAlnum x || x == 0x5f

/-- The home directory as taken by `home_dir_len` (expandstr.c:42-52) and `append_home_dir` (expandstr.c:119-133). -/
def Env.home (e : Env) : Text := (e.get (bs "HOME")).getD e.pwDir

/-- The value that `env_lookup_len` (expandstr.c:74-84) measures and `append_env` (expandstr.c:135-148) copies. -/
def Env.value (e : Env) (name : Text) : Text := (e.get name).getD []

/-- `compute_length` (expandstr.c:86-117), with fuel. (The sum is an `int`; values that exceed it together are not modelled.) -/
def computeLength (e : Env) : Nat → Bool → Nat → Text → Res Nat
  | 0, _, _, _ => .error .diverges
  | _ + 1, _, len, [] => .ok len
  | fuel + 1, first, len, c :: rest =>
    if first ∧ c = 0x7e ∧ rest.head? = some 0x2f then computeLength e fuel false (len + e.home.length) rest
    else if c = 0x24 ∧ rest.head? = some 0x7b then
      let p := rest.drop 1
      let name := p.takeWhile (· != 0x7d)
      let q := p.drop name.length
      computeLength e fuel false (len + (e.value name).length) (if q = [] then q else q.drop 1)
    else if c = 0x24 then
      let name := rest.takeWhile isEnv
      computeLength e fuel false (len + (e.value name).length) (rest.drop name.length)
    else computeLength e fuel false (len + 1) rest

/-- `strcpy(to, t)` into a buffer of `cap` bytes of which `out` is used. -/
def copyTo (cap : Nat) (out t : Text) : Res Text := if out.length + t.length + 1 ≤ cap then .ok (out ++ t) else .error .outOfBounds

/-- `*result++ = c` (expandstr.c:174). -/
def storeTo (cap : Nat) (out : Text) (c : UInt8) : Res Text := if out.length + 1 ≤ cap then .ok (out ++ [c]) else .error .outOfBounds

/-- `append_env` (expandstr.c:135-148): nothing is copied if the variable is not set. -/
def appendEnv (e : Env) (cap : Nat) (out name : Text) : Res Text :=
  match e.get name with
  | some v => copyTo cap out v
  | none => .ok out

/-- `do_expand` (expandstr.c:150-178), with fuel, into a buffer of `cap` bytes. The result is
the string up to the final null byte. -/
def doExpand (e : Env) (cap : Nat) : Nat → Bool → Text → Text → Res Text
  | 0, _, _, _ => .error .diverges
  | _ + 1, _, out, [] => if out.length + 1 ≤ cap then .ok out else .error .outOfBounds
  | fuel + 1, first, out, c :: rest =>
    if first ∧ c = 0x7e ∧ rest.head? = some 0x2f then do
      let out ← copyTo cap out e.home
      doExpand e cap fuel false out rest
    else if c = 0x24 ∧ rest.head? = some 0x7b then do
      let p := rest.drop 1
      let name := p.takeWhile (· != 0x7d)
      let q := p.drop name.length
      let out ← appendEnv e cap out name
      doExpand e cap fuel false out (if q = [] then q else q.drop 1)
    else if c = 0x24 then do
      let name := rest.takeWhile isEnv
      let out ← appendEnv e cap out name
      doExpand e cap fuel false out (rest.drop name.length)
    else do
      let out ← storeTo cap out c
      doExpand e cap fuel false out rest

/-- `expand_string` (expandstr.c:180-195). -/
def expandString (e : Env) (p : Text) : Res Text := do
  let len ← computeLength e (p.length + 1) true 0 p
  doExpand e (len + 1) (p.length + 1) true [] p

end Mairix
