import Verif.Model.Subset
import Verif.Model.Update

/-!
# dfasyn: compression of the deterministic automaton

Model of dfasyn/compdfa.c and of `increment` (dfasyn/tabcompr.c:33-40).

Simplifications: the fields `eq_class`, `new_eq_class`, `is_dead`, `is_rep` and `new_index` of the states are lists with an element for each
state; `seq` is a list of state numbers; `qsort` is a parameter; what is only printed in the report (`from_state`) is left out. The classes of
attributes all have defaults, which `check_default_attrs` (dfasyn.c:93-111) makes sure of.
-/

namespace Mairix

/-- The attributes of a state, with the default where it has none (dfasyn.c:84, compdfa.c:172-174). -/
def fillAttrs (defaults : List Text) (attrs : List (Option Text)) : List Text := List.zipWith (fun a d => a.getD d) attrs defaults

/-- `has_any_nondefault_attribute` (compdfa.c:344-359). -/
def nondefault (defaults : List Text) (attrs : List (Option Text)) : Bool :=
  (attrs.zip defaults).any fun (x : Option Text × Text) => x.1.any fun a => a != x.2

/-- A state in the loop of `find_dead_states` (compdfa.c:385-404): the states that lead to a result, whether one was found. -/
def leadsStep (defaults : List Text) (s : List Bool × Bool) (x : DfaNode × Nat) : List Bool × Bool :=
  if s.1.getD x.2 true then s
  else if nondefault defaults x.1.attrs || x.1.map.any (fun o => o.any fun j => s.1.getD j false) then (s.1.set x.2 true, true)
  else s

/-- The loop of `find_dead_states` (compdfa.c:383-405). -/
def leadsLoop (defaults : List Text) (nodes : List DfaNode) : Nat → List Bool → Res (List Bool)
  | 0, _ => .error .diverges
  | fuel + 1, leads =>
    if (nodes.zipIdx.foldl (leadsStep defaults) (leads, false)).2 then
      leadsLoop defaults nodes fuel (nodes.zipIdx.foldl (leadsStep defaults) (leads, false)).1
    else .ok (nodes.zipIdx.foldl (leadsStep defaults) (leads, false)).1

/-- The states that lead to a result (compdfa.c:377-405). -/
def leadsTo (defaults : List Text) (nodes : List DfaNode) : Res (List Bool) :=
  leadsLoop defaults nodes (nodes.length + 1) (List.replicate nodes.length false)

/-- The transitions to dead states are removed (compdfa.c:409-432). -/
def pruneDead (leads : List Bool) (nodes : List DfaNode) : List DfaNode :=
  nodes.map fun d => { d with map := d.map.map fun o => o.filter fun j => leads.getD j false }

/-- The comparison of attributes in `initial_compare` (compdfa.c:164-197). The lists have the same length. -/
def compareAttrs : List Text → List Text → Ordering
  | a :: as, b :: bs => if strcmp a b = .eq then compareAttrs as bs else strcmp a b
  | [], [] => .eq
  | [], _ :: _ => .lt
  | _ :: _, [] => .gt

/-- `initial_compare` (compdfa.c:164-197). -/
def initialCompare (defaults : List Text) (nodes : List DfaNode) (i j : Nat) : Ordering :=
  compareAttrs (fillAttrs defaults ((nodes[i]?).elim [] DfaNode.attrs)) (fillAttrs defaults ((nodes[j]?).elim [] DfaNode.attrs))

/-- The loop of `assign_initial_classes` (compdfa.c:206-215): the classes of the states. -/
def assignLoop (cmp : Nat → Nat → Ordering) : Nat → Nat → List Nat → List (Nat × Nat)
  | _, _, [] => []
  | prev, last, i :: l =>
    if cmp prev i ≠ .eq then (i, last + 1) :: assignLoop cmp i (last + 1) l
    else (i, last) :: assignLoop cmp i last l

/-- The last class given out. -/
def lastClass (last : Nat) (out : List (Nat × Nat)) : Nat := out.foldl (fun m x => max m x.2) last

/-- The classes are stored in the states. -/
def storeClasses (cls : List Nat) (out : List (Nat × Nat)) : List Nat := out.foldl (fun c x => c.set x.1 x.2) cls

/-- `increment` (tabcompr.c:33-40), in 64 bits. -/
def incrementSig (x : UInt64) (field : Nat) : UInt64 :=
  x ^^^ ((if (x >>> (2 * field).toUInt64) &&& 3 = 0 ∨ (x >>> (2 * field).toUInt64) &&& 3 = 3 then 1 else 2) <<< (2 * field).toUInt64)

/-- The class of a destination, none for no transition. -/
def destClass (cls : List Nat) (o : Option Nat) : Option Nat := o.map fun j => cls.getD j 0

/-- `calculate_signatures` (compdfa.c:62-85), for one state. -/
def signatureOf (cls : List Nat) (d : DfaNode) : UInt64 :=
  d.map.foldl (fun sig o => match destClass cls o with
    | some c => incrementSig sig (c % 16)
    | none => sig) 0

/-- A comparison of numbers, one after another (compdfa.c:94-117). The lists have the same length. -/
def compareKeys : List Nat → List Nat → Ordering
  | a :: as, b :: bs => if a < b then .lt else if b < a then .gt else compareKeys as bs
  | [], [] => .eq
  | [], _ :: _ => .lt
  | _ :: _, [] => .gt

/-- What `general_compare` compares (compdfa.c:94-117): the class, the signature, the classes of the destinations from `-1` on. -/
def generalKey (cls : List Nat) (nodes : List DfaNode) (i : Nat) : List Nat :=
  cls.getD i 0 :: ((nodes[i]?).elim 0 fun d => (signatureOf cls d).toNat) ::
    (nodes[i]?).elim [] fun d => d.map.map fun o => (destClass cls o).elim 0 (· + 1)

/-- `general_compare` (compdfa.c:87-123). -/
def generalCompare (cls : List Nat) (nodes : List DfaNode) (i j : Nat) : Ordering := compareKeys (generalKey cls nodes i) (generalKey cls nodes j)

/-- The loop of `split_classes` (compdfa.c:136-155): the new classes, whether there was a split. -/
def splitStates (cls : List Nat) (cmp : Nat → Nat → Ordering) : Nat → Nat → Nat → List Nat → List (Nat × Nat) × Nat × Bool
  | _, _, last, [] => ([], last, false)
  | prev, prevNew, last, i :: l =>
    if cls.getD i 0 = cls.getD prev 0 then
      if cmp i prev ≠ .eq then
        let r := splitStates cls cmp i (last + 1) (last + 1) l
        ((i, last + 1) :: r.1, r.2.1, true)
      else
        let r := splitStates cls cmp i prevNew last l
        ((i, prevNew) :: r.1, r.2)
    else
      let r := splitStates cls cmp i (cls.getD i 0) last l
      ((i, cls.getD i 0) :: r.1, r.2)

/-- The classes, the last class given out, the sequence. -/
structure Classes where
  cls : List Nat
  last : Nat
  seq : List Nat
  deriving DecidableEq, Repr

/-- `qsort` on state numbers. -/
abbrev StateSort := (Nat → Nat → Ordering) → List Nat → List Nat

/-- `assign_initial_classes` (compdfa.c:199-216). -/
def initialClasses (sort : StateSort) (defaults : List Text) (nodes : List DfaNode) : Classes :=
  match sort (initialCompare defaults nodes) (List.range nodes.length) with
  | [] => ⟨[], 0, []⟩
  | i :: l =>
    let out := (i, 0) :: assignLoop (initialCompare defaults nodes) i 0 l
    ⟨storeClasses (List.replicate nodes.length 0) out, lastClass 0 out, i :: l⟩

/-- `split_classes` (compdfa.c:125-162). -/
def splitClasses (sort : StateSort) (nodes : List DfaNode) (c : Classes) : Classes × Bool :=
  match sort (generalCompare c.cls nodes) c.seq with
  | [] => (c, false)
  | i :: l =>
    let r := splitStates c.cls (generalCompare c.cls nodes) i (c.cls.getD i 0) c.last l
    (⟨storeClasses c.cls ((i, c.cls.getD i 0) :: r.1), r.2.1, i :: l⟩, r.2.2)

/-- The loop of `compress_dfa` (compdfa.c:462-465). -/
def refineLoop (sort : StateSort) (nodes : List DfaNode) : Nat → Classes → Res Classes
  | 0, _ => .error .diverges
  | fuel + 1, c =>
    if (splitClasses sort nodes c).2 then refineLoop sort nodes fuel (splitClasses sort nodes c).1
    else .ok (splitClasses sort nodes c).1

/-- The representative of the class of a state: its first state (compdfa.c:242-253). -/
def repOf (cls : List Nat) (i : Nat) : Nat := cls.findIdx fun c => c == cls.getD i 0

/-- The new numbers of the states (compdfa.c:255-275). -/
def newIndices (dead : List Bool) (cls : List Nat) : List Nat → Nat → List (Option Nat) → List (Option Nat)
  | [], _, idx => idx
  | i :: l, next, idx =>
    if dead.getD i false then newIndices dead cls l next (idx ++ [none])
    else if repOf cls i = i then newIndices dead cls l (next + 1) (idx ++ [some next])
    else newIndices dead cls l next (idx ++ [(idx[repOf cls i]?).join])

/-- `compress_states` (compdfa.c:219-330): the states left and the entries. -/
def compressStates (dead : List Bool) (cls : List Nat) (nodes : List DfaNode) (es : List Nat) : List DfaNode × List (Option Nat) :=
  let idx := newIndices dead cls (List.range nodes.length) 0 []
  ((nodes.zipIdx.filter fun (x : DfaNode × Nat) => !dead.getD x.2 false && decide (repOf cls x.2 = x.2)).map fun (x : DfaNode × Nat) =>
      { x.1 with map := x.1.map.map fun o => o.bind fun j => (idx[j]?).join },
    es.map fun e => (idx[e]?).join)

/-- `compress_dfa` (compdfa.c:441-478). -/
def compressDfa (sort : StateSort) (defaults : List Text) (nodes : List DfaNode) (es : List Nat) : Res (List DfaNode × List (Option Nat)) :=
  if nodes = [] then .ok (nodes, es.map some)
  else do
    let leads ← leadsTo defaults nodes
    let c ← refineLoop sort (pruneDead leads nodes) (nodes.length + 1) (initialClasses sort defaults (pruneDead leads nodes))
    .ok (compressStates (leads.map fun b => !b) c.cls (pruneDead leads nodes) es)

end Mairix
