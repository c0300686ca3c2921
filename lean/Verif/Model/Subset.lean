import Verif.Model.Basic

/-!
# dfasyn: from the automaton of the input file to a deterministic one

Model of dfasyn/n2d.c:52-145, 243-560, dfasyn/evaluator.c:40-60, 130-233 and dfasyn/expr.c. `dfasyn` generates the scanners of mairix (From
lines, parameters of headers, dates).

Simplifications: a bitmap over `N` states is a list of `N` bits (instead of words of 32 bits); `find_dfa` compares bitmaps
without first comparing signatures (which are functions of the bitmaps); what is only printed in the report
(`from_state`, `via_token`, `nfa_exit_sl`) is left out; `-1` as a state number is `none`; transitions refer to
states by number, as `fixup_state_refs` makes them; character classes have been expanded (Model/Charclass).
-/

namespace Mairix

/-- A transition to `dest`, without or with a token (dfasyn.h, `TransList` after `expand_charclass_transitions`). -/
inductive XTrans where
  | eps (dest : Nat)
  | token (t dest : Nat)
  deriving DecidableEq, Repr

/-- A state of the automaton of the input file (dfasyn.h, `State`). -/
structure XState where
  trans : List XTrans
  tags : List Text
  deriving DecidableEq, Repr

/-- Expressions over tags (expr.c:30-47). -/
inductive TagExpr where
  | and (a b : TagExpr)
  | or (a b : TagExpr)
  | xor (a b : TagExpr)
  | cond (c a b : TagExpr)
  | not (a : TagExpr)
  | tag (name : Text)
  deriving DecidableEq, Repr

/-- An attribute a state may have: it has it when the expression holds (evaluator.c, `Attr`). -/
structure AttrDef where
  name : Text
  expr : TagExpr
  early : Bool
  deriving DecidableEq, Repr

/-- A group of attributes, with the default (evaluator.c:41-49). -/
structure Evaluator where
  attrs : List AttrDef
  default : Option Text
  deriving DecidableEq, Repr

/-- Tags defined by expressions, in the order of the input file (expr.c:49-57). -/
abbrev TagDefs := List (Text × TagExpr)

/-- The definition of a tag: the last one counts (`define_tag`, expr.c:155-166). -/
def TagDefs.find (defs : TagDefs) (name : Text) : Option TagExpr := (defs.reverse.find? fun d => d.1 == name).map (·.2)

/-- The depth of an expression. -/
def TagExpr.depth : TagExpr → Nat
  | .and a b | .or a b | .xor a b => a.depth + b.depth + 1
  | .cond c a b => c.depth + a.depth + b.depth + 1
  | .not a => a.depth + 1
  | .tag _ => 1

/-- `eval` (expr.c:196-231). A tag defined by itself makes it recurse forever. -/
def evalTag (defs : TagDefs) (set : Text → Bool) : Nat → TagExpr → Res Bool
  | 0, _ => .error .diverges
  | fuel + 1, e =>
    match e with
    | .and a b => do
      let x ← evalTag defs set fuel a
      if x then evalTag defs set fuel b else .ok false
    | .or a b => do
      let x ← evalTag defs set fuel a
      if x then .ok true else evalTag defs set fuel b
    | .xor a b => do
      let x ← evalTag defs set fuel a
      let y ← evalTag defs set fuel b
      .ok (xor x y)
    | .cond c a b => do
      let x ← evalTag defs set fuel c
      if x then evalTag defs set fuel a else evalTag defs set fuel b
    | .not a => do
      let x ← evalTag defs set fuel a
      .ok (!x)
    | .tag name =>
      match defs.find name with
      | some e' => evalTag defs set fuel e'
      | none => .ok (set name)

/-- Deeper than this only an expression with a tag defined by itself gets. -/
def evalFuel (defs : TagDefs) (e : TagExpr) : Nat := e.depth + (defs.map fun d => d.2.depth).sum + 1

/-- The loop of `evaluate_attrs` over the attributes of one group (evaluator.c:201-211): the attribute found, whether there was only one. -/
def evalGroup (defs : TagDefs) (set : Text → Bool) : List AttrDef → Option AttrDef → Res (Option AttrDef × Bool)
  | [], m => .ok (m, true)
  | a :: l, m => do
    let x ← evalTag defs set (evalFuel defs a.expr) a.expr
    if x then
      match m with
      | some m' => .ok (some m', false)
      | none => evalGroup defs set l (some a)
    else evalGroup defs set l m

/-- `evaluate_attrs` (evaluator.c:181-222): the attributes, whether the scanner stops there, whether all are unambiguous. -/
def evaluateAttrs (defs : TagDefs) (set : Text → Bool) : List Evaluator → Res (List (Option Text) × Bool × Bool)
  | [] => .ok ([], false, true)
  | ev :: l => do
    let m ← evalGroup defs set ev.attrs none
    let rest ← evaluateAttrs defs set l
    .ok (m.1.map (·.name) :: rest.1, (m.1.map (·.early)).getD false || rest.2.1, m.2 && rest.2.2)

/-- A set of states, one bit for each. -/
abbrev Bits := List Bool

/-- `is_set` (n2d.c:64-70). -/
def Bits.has (b : Bits) (i : Nat) : Bool := b.getD i false

/-- The union of bitmaps. -/
def Bits.union (a b : Bits) : Bits := a.zipWith (· || ·) b

/-- `x & ~y` (n2d.c:106). -/
def Bits.minus (a b : Bits) : Bits := a.zipWith (fun x y => x && !y) b

/-- The empty set. -/
def Bits.none (n : Nat) : Bits := List.replicate n false

/-- The state of the loops of `transitively_close_eclo`: the rows, what is to do, whether something has changed. -/
structure Closing where
  rows : List Bits
  todo : Bits
  changed : Bool
  deriving DecidableEq, Repr

/-- The merging of row `idx` into row `src` (n2d.c:101-111). -/
def mergeRow (src : Nat) (c : Closing) (idx : Nat) : Closing :=
  let orig := c.rows.getD src []
  let diffs := Bits.minus (c.rows.getD idx []) orig
  { rows := c.rows.set src (Bits.union orig (c.rows.getD idx [])), todo := Bits.union c.todo diffs, changed := c.changed || diffs.any id }

/-- What is done for word `w` of `todo` (n2d.c:90-117): its bits are reset, and the rows they stand for are merged. -/
def closeWord (src : Nat) (c : Closing) (w : Nat) : Closing :=
  let now := (List.range' (w * 32) 32).filter fun i => c.todo.has i
  let c' := { c with todo := c.todo.zipIdx.map fun (x : Bool × Nat) => if x.2 / 32 = w then false else x.1 }
  now.foldl (mergeRow src) c'

/-- One turn of the `while` loop (n2d.c:88-119). -/
def closeTurn (n src : Nat) (c : Closing) : Closing :=
  (List.range ((n + 31) / 32)).foldl (closeWord src) { c with changed := false }

/-- The `while` loop (n2d.c:87-120). -/
def closeLoop (n src : Nat) : Nat → Closing → Res (List Bits)
  | 0, _ => .error .diverges
  | fuel + 1, c =>
    let c' := closeTurn n src c
    if c'.changed then closeLoop n src fuel c' else .ok c'.rows

/-- `transitively_close_eclo` (n2d.c:73-122): the rows one after the other. -/
def closeRows (n : Nat) : List Nat → List Bits → Res (List Bits)
  | [], rows => .ok rows
  | src :: l, rows => do
    let rows' ← closeLoop n src (n + 2) ⟨rows, rows.getD src [], true⟩
    closeRows n l rows'

/-- What a transition adds to the first row of its state (n2d.c:144-158). -/
def epsStep (row : Bits) : XTrans → Bits
  | .eps d => row.set d true
  | .token _ _ => row

/-- The first row of a state (n2d.c:137-160): itself, and the states its transitions without token lead to. -/
def firstRow (n i : Nat) (s : XState) : Bits :=
  s.trans.foldl epsStep ((Bits.none n).set i true)

/-- `generate_epsilon_closure` (n2d.c:124-166). -/
def generateEclo (b : List XState) : Res (List Bits) :=
  closeRows b.length (List.range b.length) (b.zipIdx.map fun (s : XState × Nat) => firstRow b.length s.2 s.1)

/-- What a transition adds to row `t` of the table of transitions of its state (n2d.c:273-286). -/
def tokStep (eclo : List Bits) (t : Nat) (row : Bits) : XTrans → Bits
  | .eps _ => row
  | .token t' d => if t' = t then Bits.union row (eclo.getD d []) else row

/-- Row `t` of the table of transitions of a state (`build_transmap`, n2d.c:243-293): where it can get with the token. -/
def transRow (n : Nat) (eclo : List Bits) (s : XState) (t : Nat) : Bits :=
  s.trans.foldl (tokStep eclo t) (Bits.none n)

/-- A state of the deterministic automaton (dfasyn.h, `DFANode`). -/
structure DfaNode where
  nfas : Bits
  map : List (Option Nat)
  attrs : List (Option Text)
  early : Bool
  deriving DecidableEq, Repr

/-- `find_dfa` (n2d.c:336-369): the state with this set. -/
def findDfa (nodes : List DfaNode) (nfas : Bits) : Option Nat := nodes.findIdx? fun d => d.nfas == nfas

/-- What is given to the construction: the states, the number of tokens (with character classes), the groups of attributes and the tags defined by
expressions. -/
structure Auto where
  states : List XState
  nt : Nat
  evaluators : List Evaluator
  defs : TagDefs
  deriving DecidableEq, Repr

/-- The tags of the states in the set (n2d.c:417-433). -/
def tagsIn (states : List XState) (nfas : Bits) : List Text :=
  states.zipIdx.flatMap fun (s : XState × Nat) => if nfas.has s.2 then s.1.tags else []

/-- `add_dfa` (n2d.c:372-455): the new state, and whether its attributes are unambiguous. A tag of a state must not be defined by an expression
(`set_tag_value`, expr.c:181-194). -/
def newNode (a : Auto) (nfas : Bits) : Res (DfaNode × Bool) :=
  if (tagsIn a.states nfas).any fun t => (a.defs.find t).isSome then .error (.exit 2)
  else do
    let r ← evaluateAttrs a.defs (fun t => (tagsIn a.states nfas).contains t) a.evaluators
    .ok (⟨nfas, List.replicate a.nt none, r.1, r.2.1⟩, r.2.2)

/-- The states so far, and whether there was an ambiguous result. -/
structure Building where
  nodes : List DfaNode
  ambiguous : Bool
  deriving DecidableEq, Repr

/-- The state for a set, added if there is none (n2d.c:500-505, 548-552). -/
def nodeFor (a : Auto) (s : Building) (nfas : Bits) : Res (Building × Nat) :=
  match findDfa s.nodes nfas with
  | some i => .ok (s, i)
  | none => do
    let r ← newNode a nfas
    .ok (⟨s.nodes ++ [r.1], s.ambiguous || !r.2⟩, s.nodes.length)

/-- The entry states (n2d.c:490-507). -/
def addEntries (a : Auto) (eclo : List Bits) : List Nat → Building → Res (Building × List Nat)
  | [], s => .ok (s, [])
  | e :: l, s => do
    let r ← nodeFor a s (eclo.getD e [])
    let rest ← addEntries a eclo l r.1
    .ok (rest.1, r.2 :: rest.2)

/-- What a state of the set adds (n2d.c:537-556). -/
def moveStep (a : Auto) (eclo : List Bits) (nfas : Bits) (t : Nat) (acc : Bits) (s : XState × Nat) : Bits :=
  if nfas.has s.2 then Bits.union acc (transRow a.states.length eclo s.1 t) else acc

/-- Where a set of states gets with a token (n2d.c:533-560): the union of the rows of its states. -/
def moveBits (a : Auto) (eclo : List Bits) (nfas : Bits) (t : Nat) : Bits :=
  a.states.zipIdx.foldl (moveStep a eclo nfas t) (Bits.none a.states.length)

/-- The transitions out of a state, token by token (n2d.c:562-573). -/
def addMoves (a : Auto) (eclo : List Bits) (nfas : Bits) : List Nat → Building → Res (Building × List (Option Nat))
  | [], s => .ok (s, [])
  | t :: l, s =>
    if (moveBits a eclo nfas t).any id then do
      let r ← nodeFor a s (moveBits a eclo nfas t)
      let rest ← addMoves a eclo nfas l r.1
      .ok (rest.1, some r.2 :: rest.2)
    else do
      let rest ← addMoves a eclo nfas l s
      .ok (rest.1, none :: rest.2)

/-- The loop over the states (n2d.c:517-576). -/
def buildLoop (a : Auto) (eclo : List Bits) : Nat → Nat → Building → Res Building
  | 0, _, _ => .error .diverges
  | fuel + 1, next, s =>
    match s.nodes[next]? with
    | none => .ok s
    | some d =>
      if d.early then buildLoop a eclo fuel (next + 1) s
      else do
        let r ← addMoves a eclo d.nfas (List.range a.nt) s
        buildLoop a eclo fuel (next + 1) { r.1 with nodes := r.1.nodes.modify next fun d => { d with map := r.2 } }

/-- The states are refered to by numbers below their number, the tokens as well (as `fixup_state_refs` and `lookup_token` make
them). -/
def Auto.inRange (a : Auto) (entries : List Nat) : Bool :=
  (a.states.all fun s => s.trans.all fun t => match t with
    | .eps d => decide (d < a.states.length)
    | .token t d => decide (t < a.nt) && decide (d < a.states.length)) && entries.all fun e => decide (e < a.states.length)

/-- `generate_epsilon_closure`, `build_transmap` and `build_dfa` (n2d.c:460-585, dfasyn.c:628-640): the states and the entries, unless there is an
ambiguous result (dfasyn.c:654-657). There are at most `2 ^ n` sets of states. -/
def buildDfa (a : Auto) (entries : List Nat) : Res (List DfaNode × List Nat) :=
  if a.inRange entries then do
    let eclo ← generateEclo a.states
    let e ← addEntries a eclo entries ⟨[], false⟩
    let s ← buildLoop a eclo (2 ^ a.states.length + 1) 0 e.1
    if s.ambiguous then .error (.exit 2) else .ok (s.nodes, e.2)
  else .error .outOfBounds

end Mairix
