import Verif.Model.Dfasyn

/-!
# Character classes of dfasyn (charclass.c, states.c)

A class is a bitmap of eight `unsigned long`, of which 32 bits each are meant. Where `unsigned long` has 64 bits the mask `1<<31` becomes a negative `int`
whose sign is extended, so that the upper halves are set, cleared and tested together with bit 31. They are never changed but all together: the
model keeps one bit for each upper half.
-/

namespace Mairix

/-- The first `n` values of a function. -/
def tab {α : Type} (n : Nat) (f : Nat → α) : List α := (List.range n).map f

/-- The number whose bits below `n` are given. -/
def mask (n : Nat) (f : Nat → Bool) : Nat := (List.range n).foldl (fun acc i => if f i then acc ||| 1 <<< i else acc) 0

/-- A bitmap (dfasyn.h:101-105): the lower halves of the words, one behind the other, and a bit for each upper half. -/
structure CharBits where
  low : Nat
  hi : Nat
  deriving DecidableEq, Repr

namespace CharBits

/-- A bit of a lower half. -/
def lo (b : CharBits) (c : Nat) : Bool := b.low.testBit c

/-- The upper half of a word. -/
def up (b : CharBits) (i : Nat) : Bool := b.hi.testBit i

/-- `cc_test_bit` (charclass.c:57-64). -/
def test (b : CharBits) (c : Nat) : Bool := b.lo c || (c % 32 == 31 && b.up (c / 32))

/-- `memset` to zero, `clear_all` (charclass.c:66-74, 198-203). -/
def empty : CharBits := ⟨mask 256 fun _ => false, mask 8 fun _ => false⟩

/-- `set_all` (charclass.c:192-197): the upper halves are not set. -/
def all : CharBits := ⟨mask 256 fun _ => true, mask 8 fun _ => false⟩

/-- `set_bit` (charclass.c:39-47). -/
def set (b : CharBits) (c : Nat) : CharBits :=
  ⟨mask 256 fun i => b.lo i || i == c, mask 8 fun i => b.up i || (c % 32 == 31 && i == c / 32)⟩

/-- `invert_charclass` (charclass.c:109-116): the upper halves stay. -/
def invert (b : CharBits) : CharBits := ⟨mask 256 fun i => !b.lo i, b.hi⟩

/-- `diff_charclasses` (charclass.c:117-126). -/
def diff (a b : CharBits) : CharBits := ⟨mask 256 fun i => a.lo i && !b.lo i, mask 8 fun i => a.up i && !b.up i⟩

/-- `combine` (charclass.c:186-191). -/
def union (a b : CharBits) : CharBits := ⟨mask 256 fun i => a.lo i || b.lo i, mask 8 fun i => a.up i || b.up i⟩

/-- `pos[i] &= ...` (charclass.c:294). -/
def inter (a b : CharBits) : CharBits := ⟨mask 256 fun i => a.lo i && b.lo i, mask 8 fun i => a.up i && b.up i⟩

/-- `clear_bit` (charclass.c:48-56) for all bits of `p`. -/
def clear (a p : CharBits) : CharBits := ⟨mask 256 fun i => a.lo i && !p.test i, mask 8 fun i => a.up i && !p.test (32 * i + 31)⟩

/-- `find_lowest_bit_set` (charclass.c:204-221): bit 31 if only the upper half of a word is set. -/
def lowest (b : CharBits) : Option Nat := (List.range 256).find? b.test

/-- `any_left` (charclass.c:315-321). -/
def any (b : CharBits) : Bool := b.low != 0 || b.hi != 0

end CharBits

/-! ## Classes in the input file -/

/-- What stands between the brackets (parse.y:209-213). -/
inductive ClassItem where
  | single (c : UInt8)
  | range (a b : UInt8)
  deriving DecidableEq, Repr

/-- `[...]` or `[^...]` (parse.y:198-207). -/
structure SimpleClass where
  items : List ClassItem
  caret : Bool
  deriving DecidableEq, Repr

/-- A class (parse.y:182-196). -/
inductive ClassExpr where
  | simple (s : SimpleClass)
  | negated (s : SimpleClass)
  | minus (s t : SimpleClass)
  deriving DecidableEq, Repr

/-- `add_singleton_to_charclass`, `add_range_to_charclass` (charclass.c:89-108). -/
def addItem (b : CharBits) : ClassItem → CharBits
  | .single c => b.set c.toNat
  | .range x y => ((List.range 256).filter fun i => min x.toNat y.toNat ≤ i && i ≤ max x.toNat y.toNat).foldl CharBits.set b

/-- `simple_char_class` (parse.y:198-207). -/
def SimpleClass.bits (s : SimpleClass) : CharBits :=
  let b := s.items.foldl addItem .empty
  if s.caret then b.invert else b

/-- `char_class` (parse.y:182-196). -/
def ClassExpr.bits : ClassExpr → CharBits
  | .simple s => s.bits
  | .negated s => s.bits.invert
  | .minus s t => s.bits.diff t.bits

/-! ## Splitting into disjoint classes -/

/-- One class in the loop (charclass.c:292-298): the characters that are in all classes with the first one, those that are in a class without it. -/
def groupStep (first : Nat) (x : CharBits × CharBits) (cc : CharBits) : CharBits × CharBits :=
  if cc.test first then (x.1.inter cc, x.2) else (x.1, x.2.union cc)

/-- The characters that are in the same classes as the first (charclass.c:290-302). -/
def groupOf (ccs : List CharBits) (first : Nat) : CharBits :=
  let x := ccs.foldl (groupStep first) (.all, .empty)
  x.1.diff x.2

/-- The loop (charclass.c:285-322): the table `mapping` and the number of groups. Without a bit left `cc_test_bit` is called with −1; there is room
for 256 strings. -/
def groupLoop (ccs : List CharBits) : Nat → CharBits → List (Option Nat) → Nat → Res (List (Option Nat) × Nat)
  | 0, _, _, _ => .error .diverges
  | fuel + 1, u, m, n =>
    match u.lowest with
    | none => .error .outOfBounds
    | some first =>
      if 256 ≤ n then .error .outOfBounds
      else
        let pos := groupOf ccs first
        let m' := tab 256 fun i => if pos.test i then some n else m.getD i none
        let u' := u.clear pos
        if u'.any then groupLoop ccs fuel u' m' (n + 1) else .ok (m', n + 1)

/-- `split_charclasses` (charclass.c:260-336). The classes are those of the transitions (`mark_used_in_block`, `reduce_list`); their order and whether
one is there twice makes no difference. -/
def splitCharclasses (ccs : List CharBits) : Res (List (Option Nat) × Nat) :=
  if ccs = [] then .ok (tab 256 fun _ => none, 0)
  else groupLoop ccs 258 (ccs.foldl CharBits.union .empty) (tab 256 fun _ => none) 0

/-- The group bitmap of a class (charclass.c:325-332), as the list of its bits from below: a character without a group would be bit −1. -/
def groupsOf (m : List (Option Nat)) (cc : CharBits) : Res (List Nat) :=
  if (List.range 256).any fun i => cc.test i && (m.getD i none).isNone then .error .outOfBounds
  else
    let marks := (List.range 256).filterMap fun i => if cc.test i then m.getD i none else none
    .ok ((List.range 256).filter fun g => marks.contains g)

/-! ## The automaton of the input file -/

/-- A transition (dfasyn.h:130-139). -/
inductive CTrans where
  | eps (d : Nat)
  | token (t : Nat) (d : Nat)
  | cls (e : ClassExpr) (d : Nat)
  deriving DecidableEq, Repr

/-- A state. -/
structure CState where
  trans : List CTrans
  tags : List Text
  deriving DecidableEq, Repr

/-- What is given to the generator after parsing: as `Auto`, with classes; `nt` is the number of named tokens (`ntokens`). -/
structure CAuto where
  states : List CState
  nt : Nat
  evaluators : List Evaluator
  defs : TagDefs
  deriving DecidableEq, Repr

/-- The class of a transition. -/
def CTrans.cls? : CTrans → Option CharBits
  | .cls e _ => some e.bits
  | _ => none

/-- The classes that are used. -/
def CAuto.classes (a : CAuto) : List CharBits := a.states.flatMap fun s => s.trans.filterMap CTrans.cls?

/-- One transition in `expand_charclass_transitions` (states.c:268-302): the first group replaces the class, the others are inserted behind it, each at once
behind the first; a class without groups stays and is the `assert(0)` in n2d.c:155. -/
def expandTrans (nt : Nat) (m : List (Option Nat)) : CTrans → Res (List XTrans)
  | .eps d => .ok [.eps d]
  | .token t d => .ok [.token t d]
  | .cls e d => do
    let g ← groupsOf m e.bits
    match g with
    | [] => .error .assertion
    | g :: gs => .ok (.token (nt + g) d :: (gs.reverse.map fun g => .token (nt + g) d))

/-- The transitions of a state. -/
def expandState (nt : Nat) (m : List (Option Nat)) (s : CState) : Res XState := do
  let l ← s.trans.mapM (expandTrans nt m)
  .ok ⟨l.flatten, s.tags⟩

/-- A scanner for characters: the table `char2tok` and the scanner. -/
structure CharScanner where
  /-- `print_charclass_mapping` (charclass.c:336-358) -/
  char2tok : List Int
  scanner : Scanner
  deriving DecidableEq, Repr

/-- `print_charclass_mapping` (charclass.c:336-358): the table. -/
def char2tokOf (nt : Nat) (m : List (Option Nat)) : List Int := tab 256 fun i => (m.getD i none).elim (-1) fun g => ((g + nt : Nat) : Int)

/-- `main` (dfasyn.c:590-674). The number of tokens is `ntokens + n_charclasses`. Simplified: the check for defaults is done after the classes are split,
so that a file with both faults ends differently. -/
def generateChars (sort : StateSort) (compress : Bool) (a : CAuto) (entries : List Nat) : Res CharScanner := do
  let g ← splitCharclasses a.classes
  let states ← a.states.mapM (expandState a.nt g.1)
  let sc ← generate sort compress ⟨states, a.nt + g.2, a.evaluators, a.defs⟩ entries
  .ok ⟨char2tokOf a.nt g.1, sc⟩

end Mairix
