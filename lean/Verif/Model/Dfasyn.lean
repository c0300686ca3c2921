import Verif.Model.Tables

/-!
# dfasyn from the automaton to the tables (dfasyn.c)

The parser of the input file (parse.y, scan.l, blocks.c) is not modelled: the automaton starts as the list of states after
`expand_charclass_transitions`.
-/

namespace Mairix

/-- What is written to the output. -/
structure Scanner where
  nt : Nat
  /-- the default of each table -/
  defaults : List Text
  nodes : List DfaNode
  /-- `print_entries_table` (dfasyn.c:305-347): the states for the entries, `none` for `-1` -/
  entries : List (Option Nat)
  deriving DecidableEq, Repr

/-- `check_default_attrs` (dfasyn.c:93-110): all groups must have a default. -/
def defaultsOf (l : List Evaluator) : Option (List Text) := l.mapM Evaluator.default

/-- `main` (dfasyn.c:632-635): the automaton is compressed unless `-ud` is given. -/
def maybeCompress (sort : StateSort) (compress : Bool) (defaults : List Text) (nodes : List DfaNode) (es : List Nat) : Res (List DfaNode × List (Option Nat)) :=
  if compress then compressDfa sort defaults nodes es else .ok (nodes, es.map some)

/-- `main` (dfasyn.c:590-674): from the check of the defaults to the tables. -/
def generate (sort : StateSort) (compress : Bool) (a : Auto) (entries : List Nat) : Res Scanner :=
  match defaultsOf a.evaluators with
  | none => .error (.exit 1)
  | some defaults => do
    let b ← buildDfa a entries
    let r ← maybeCompress sort compress defaults b.1 b.2
    .ok ⟨a.nt, defaults, r.1, r.2⟩

/-- The `next_state` of the output with `-ut` (uncompressed tables). -/
def Scanner.nextPlain (sc : Scanner) : Int → Int → Res Int := nextUncompressed sc.nt (transTable sc.nodes)

/-- The `next_state` of the output with compressed tables: a state has a default state, which has none, so that three steps are enough. -/
def Scanner.nextPacked (sc : Scanner) : Int → Int → Res Int := nextCompressed (compressedTables sc.nt sc.nodes) 3

/-- The attributes of a state in the output. -/
def Scanner.attrs (sc : Scanner) (i : Int) : Res (List Text) := attrRow sc.defaults sc.nodes i

end Mairix
