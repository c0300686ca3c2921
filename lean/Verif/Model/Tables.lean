import Verif.Model.Compdfa

/-!
# dfasyn: the tables written

Model of dfasyn/tabcompr.c and of dfasyn/dfasyn.c:72-92, 113-315 (`print_attr_tables`, `print_uncompressed_tables`,
`print_compressed_tables` and the functions `next_state` they write).

Simplifications: the tables are lists of the numbers that the C compiler stores (a number that does not fit is reduced modulo the size of the
type, as gcc does); the text of the C file is left out. `-1` as a state number is `none` in the automaton, `-1` in the tables.
-/

namespace Mairix

/-- A number stored in a `short`. -/
def asShort (n : Int) : Int := (n + 32768) % 65536 - 32768

/-- A number stored in an `unsigned short`. -/
def asUShort (n : Int) : Int := n % 65536

/-- A number stored in an `unsigned char`. -/
def asUChar (n : Int) : Int := n % 256

/-- The number of a state. -/
def stateNumber (o : Option Nat) : Int := o.elim (-1) fun j => (j : Int)

/-- An element of an array; reading outside is an error. -/
def arrayAt (l : List Int) (i : Int) : Res Int := if i < 0 then .error .outOfBounds else match l[i.toNat]? with
  | some x => .ok x
  | none => .error .outOfBounds

/-- `print_attr_tables` (dfasyn.c:72-92): the attributes of a state, one for each table. -/
def attrRow (defaults : List Text) (nodes : List DfaNode) (i : Int) : Res (List Text) := if i < 0 then .error .outOfBounds else match nodes[i.toNat]? with
  | some d => .ok (fillAttrs defaults d.attrs)
  | none => .error .outOfBounds

/-! ## Uncompressed tables -/

/-- `print_uncompressed_tables` (dfasyn.c:131-166): the table `trans`. -/
def transTable (nodes : List DfaNode) : List Int := nodes.flatMap fun d => d.map.map fun o => asShort (stateNumber o)

/-- The `next_state` of uncompressed tables (dfasyn.c:113-129). -/
def nextUncompressed (nt : Nat) (trans : List Int) (s t : Int) : Res Int :=
  if t < 0 ∨ nt ≤ t then .ok (-1) else arrayAt trans (nt * s + t)

/-! ## Compressed tables -/

/-- `compute_transition_sigs` (tabcompr.c:68-83), for one state: a transition to no state counts as `0xf`. -/
def transitionSig (d : DfaNode) : UInt64 := d.map.foldl (fun sig o => incrementSig sig (o.elim 15 fun j => j % 16)) 0

/-- `count_bits_set` (tabcompr.c:45-59). -/
def countBitsSet (x : UInt64) : Nat :=
  let y := ((x >>> 1) &&& 0x55555555) + (x &&& 0x55555555)
  let y := ((y >>> 2) &&& 0x33333333) + (y &&& 0x33333333)
  let y := (y >>> 4) + y
  let y := y &&& 0x0f0f0f0f
  let y := (y >>> 8) + y
  let y := (y >>> 16) + y
  (y &&& 0x1f).toNat

/-- In how many transitions two states differ (tabcompr.c:133-138). -/
def transDiff (d e : DfaNode) : Nat := ((d.map.zip e.map).filter fun (x : Option Nat × Option Nat) => x.1 != x.2).length

/-- One candidate for the default state (tabcompr.c:112-146): the best so far and its number of differences. -/
def defaultStep (d : DfaNode) (best : Option Nat × Nat) (x : (DfaNode × Option Nat) × Nat) : Option Nat × Nat :=
  if x.1.2.isSome then best
  else if countBitsSet (transitionSig d ^^^ transitionSig x.1.1) ≥ best.2 then best
  else if countBitsSet (transitionSig d ^^^ transitionSig x.1.1) ≥ (d.map.filter Option.isSome).length then best
  else if (best.1 = none ∨ transDiff d x.1.1 < best.2) ∧ transDiff d x.1.1 + 2 < (d.map.filter Option.isSome).length then
    (some x.2, transDiff d x.1.1)
  else best

/-- `find_default_states` (tabcompr.c:89-153): the default state of each state. -/
def defaultStates : List DfaNode → List (DfaNode × Option Nat) → List (DfaNode × Option Nat)
  | [], done => done
  | d :: l, done => defaultStates l (done ++ [(d, (done.zipIdx.foldl (defaultStep d) (none, d.map.length + 1)).1)])

/-- `check_include_char` (dfasyn.c:168-177). -/
def includeChar (ds : List (DfaNode × Option Nat)) (x : DfaNode × Option Nat) (t : Nat) : Bool :=
  match x.2 with
  | some j => decide ((x.1.map[t]?).join ≠ ((ds[j]?).bind fun (y : DfaNode × Option Nat) => (y.1.map[t]?).join))
  | none => ((x.1.map[t]?).join).isSome

/-- The tables of `print_compressed_tables` (dfasyn.c:212-303). -/
structure CTables where
  token : List Int
  nextstate : List Int
  base : List Int
  defstate : List Int
  deriving DecidableEq, Repr

/-- The tokens that are listed for a state. -/
def listedTokens (nt : Nat) (ds : List (DfaNode × Option Nat)) (x : DfaNode × Option Nat) : List Nat := (List.range nt).filter (includeChar ds x)

/-- The starts of the lists of the states. -/
def basesFrom (nt : Nat) (ds : List (DfaNode × Option Nat)) : Nat → List (DfaNode × Option Nat) → List Nat
  | n, [] => [n]
  | n, x :: l => n :: basesFrom nt ds (n + (listedTokens nt ds x).length) l

/-- `print_compressed_tables` (dfasyn.c:212-303). -/
def compressedTables (nt : Nat) (nodes : List DfaNode) : CTables :=
  let ds := defaultStates nodes []
  { token := ds.flatMap fun x => (listedTokens nt ds x).map fun (t : Nat) => asUChar t
    nextstate := ds.flatMap fun x => (listedTokens nt ds x).map fun t => asShort (stateNumber (x.1.map[t]?).join)
    base := (basesFrom nt ds 0 ds).map fun (n : Nat) => asUShort n
    defstate := ds.map fun x => asShort (stateNumber x.2) }

/-- The inner loop of the `next_state` of compressed tables (dfasyn.c:192-198): where the token is. -/
def bisect (token : List Int) (t : Int) : Nat → Int → Int → Res (Option Int)
  | 0, _, _ => .error .diverges
  | fuel + 1, l, h =>
    if h > l then do
      let xm ← arrayAt token ((h + l) / 2)
      if xm = t then .ok (some ((h + l) / 2))
      else if (h + l) / 2 = l then .ok none
      else if xm > t then bisect token t fuel l ((h + l) / 2)
      else bisect token t fuel ((h + l) / 2) h
    else .ok none

/-- The `next_state` of compressed tables (dfasyn.c:179-210). -/
def nextCompressed (c : CTables) : Nat → Int → Int → Res Int
  | 0, _, _ => .error .diverges
  | fuel + 1, s, t =>
    if s ≥ 0 then do
      let l ← arrayAt c.base s
      let h ← arrayAt c.base (s + 1)
      let m ← bisect c.token t (c.token.length + 1) l h
      match m with
      | some m => arrayAt c.nextstate m
      | none => do
        let d ← arrayAt c.defstate s
        nextCompressed c fuel d t
    else .ok (-1)

/-- The scanner that a program builds on `next_state`: it goes on until there is no next state. -/
def scanWith (next : Int → Int → Res Int) : Int → List Int → Res Int
  | s, [] => .ok s
  | s, t :: w => if s < 0 then .ok s else do
    let s' ← next s t
    scanWith next s' w

end Mairix
