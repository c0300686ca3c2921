import Verif.Model.Basic

/-!
# Wildcard patterns and colon separated lists: glob.c
-/

namespace Mairix

/-- `struct globber` (glob.c:30-35). -/
structure Globber where
  pat : UInt8 → BitVec 32
  starpat : BitVec 32
  twostarpat : BitVec 32
  hit : BitVec 32

/-- The value of a `char`, which is signed. -/
def signedChar (c : UInt8) : Int := if c.toNat < 128 then c.toNat else (c.toNat : Int) - 256

/-- `pat[index] |= mask` for all characters in `p`. -/
def Globber.add (g : Globber) (mask : BitVec 32) (p : UInt8 → Bool) : Globber :=
  { g with pat := fun c => if p c then g.pat c ||| mask else g.pat c }

/-- The loop of `parse_charclass` (glob.c:47-84) from the text `in`, and what follows the closing bracket; `none` if the end of
the string is reached before. The loop over a range (glob.c:67-70) sets the bit for all characters whose value as a
signed `char` is in the range. -/
def charClass (mask : BitVec 32) : Bool → Int → Globber → Text → Globber × Option Text
  | _, _, g, [] => (g, none)
  | first, prev, g, c :: rest =>
    if c = 0x5d then
      if first then charClass mask false (signedChar c) (g.add mask (· == 0x5d)) rest
      else (g, some rest)
    else if c = 0x2d then
      match rest with
      | [] => charClass mask false (signedChar c) (g.add mask (· == 0x2d)) []
      | next :: rest' =>
        if prev < 0 ∨ next = 0x5d then charClass mask false (signedChar c) (g.add mask (· == 0x2d)) (next :: rest')
        else
          let lo := if prev < signedChar next then prev else signedChar next
          let hi := if prev < signedChar next then signedChar next else prev
          charClass mask false (signedChar next) (g.add mask fun c => decide (lo ≤ signedChar c) && decide (signedChar c ≤ hi)) rest'
    else charClass mask false (signedChar c) (g.add mask (· == c)) rest

/-- `1<<n` (glob.c:106, 139): undefined from the width of an `int` on. (By the letter of the standard also for `n = 31`; compilers give the
highest bit.) -/
def bitMask (n : Nat) : Res (BitVec 32) := if n < 32 then .ok (1#32 <<< n) else .error .overflow

/-- The loop of `make_globber` (glob.c:105-137), with fuel. If a class has no end, the pointer is moved beyond the end of the
string. -/
def globLoop : Nat → Nat → Globber → Text → Res (Nat × Globber)
  | 0, _, _, _ => .error .diverges
  | _ + 1, n, g, [] => .ok (n, g)
  | fuel + 1, n, g, c :: rest => do
    let mask ← bitMask n
    if c = 0x2a then
      match rest with
      | 0x2a :: rest' => globLoop fuel n { g with twostarpat := g.twostarpat ||| mask } rest'
      | _ => globLoop fuel n { g with starpat := g.starpat ||| mask } rest
    else if c = 0x5b then
      match charClass mask true (-1) g rest with
      | (_, none) => .error .outOfBounds
      | (g, some rest') => globLoop fuel (n + 1) g rest'
    else if c = 0x3f then globLoop fuel (n + 1) (g.add mask fun _ => true) rest
    else globLoop fuel (n + 1) (g.add mask (· == c)) rest

/-- `make_globber` (glob.c:89-143). -/
def makeGlobber (wildstring : Text) : Res Globber := do
  let (n, g) ← globLoop (wildstring.length + 1) 0 ⟨fun _ => 0#32, 0#32, 0#32, 0#32⟩ wildstring
  let hit ← bitMask n
  .ok { g with hit := hit }

/-- The loop of `is_glob_match` (glob.c:164-185). -/
def globRun (g : Globber) : BitVec 32 → Text → BitVec 32
  | reg, [] => reg
  | reg, c :: s =>
    let stars := reg &&& g.starpat
    let twostars := reg &&& g.twostarpat
    let stars2 := if c ≠ 0x2f then stars ||| twostars else twostars
    globRun g (((reg &&& g.pat c) <<< 1) ||| stars2) s

/-- `is_glob_match` (glob.c:154-195). -/
def isGlobMatch (g : Globber) (s : Text) : Bool := globRun g 1#32 s &&& g.hit != 0#32

/-! ## Colon separated lists -/

/-- The loop of `copy_folder_name` (glob.c:255-263), from `start` on: `n` characters are left up to `end` (or to the end of the
string, if `end` is null). What follows `end` may be looked at. -/
def copyLoop : Nat → Text → Text
  | 0, _ => []
  | _ + 1, [] => []
  | n + 1, c :: rest => if c = 0x5c ∧ rest.head? = some 0x3a then copyLoop n rest else c :: copyLoop n rest

/-- `copy_folder_name` (glob.c:237-266). -/
def copyFolderName (start : Text) (len : Option Nat) : Text := copyLoop (len.getD start.length) start

/-- `strchr(s + i, ':')`, as a position in `s`. -/
def colonFrom (s : Text) (i : Nat) : Option Nat := ((s.drop i).findIdx? (· == 0x3a)).map (· + i)

/-- The search for the first colon that is not escaped (glob.c:309-315), after a colon at `i` that is. -/
def nextColon (s : Text) : Nat → Nat → Res (Option Nat)
  | 0, _ => .error .diverges
  | fuel + 1, i =>
    match colonFrom s (i + 1) with
    | none => .ok none
    | some j => if s[j - 1]? = some 0x5c then nextColon s fuel j else .ok (some j)

/-- The search for the colon that ends an item (glob.c:307-316); `s` is `left_to_do`. -/
def itemColon (s : Text) : Res (Option Nat) :=
  match colonFrom s 0 with
  | none => .ok none
  | some i => if 0 < i ∧ s[i - 1]? = some 0x5c then nextColon s (s.length + 1) i else .ok (some i)

/-- The loop of `split_on_colons` (glob.c:303-333). -/
def splitLoop : Nat → Text → Res (List Text)
  | 0, _ => .error .diverges
  | fuel + 1, s => do
    let colon ← itemColon s
    let xx := copyFolderName s colon
    let left := match colon with
      | some i => s.drop (i + 1)
      | none => []
    if left = [] then .ok [xx]
    else do
      let l ← splitLoop fuel left
      .ok (xx :: l)

/-- `split_on_colons` (glob.c:296-336). -/
def splitOnColons (s : Text) : Res (List Text) := splitLoop (s.length + 1) s

/-- `make_globber` for each of a list of strings (glob.c:209-212). -/
def makeGlobbers : List Text → Res (List Globber)
  | [] => .ok []
  | s :: l => do
    let g ← makeGlobber s
    let gs ← makeGlobbers l
    .ok (g :: gs)

/-- `colon_sep_string_to_globber_array` (glob.c:198-216). -/
def globberArray (s : Text) : Res (List Globber) := do
  let l ← splitOnColons s
  makeGlobbers l

/-- `is_globber_array_match` (glob.c:217-225). -/
def isGlobberArrayMatch (ga : List Globber) (s : Text) : Bool := ga.any (isGlobMatch · s)

end Mairix
