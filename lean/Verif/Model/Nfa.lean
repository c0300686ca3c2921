import Verif.Model.Charclass

/-!
# The front end of dfasyn: dfasyn/parse.y, blocks.c, states.c, stimulus.c, abbrevs.c, tokens.c

What the parser calls for the declarations of an input file, from its beginning to its end, and what is given to the generator. The grammar itself and the scanner of
the input file (scan.l) are not modelled: an input file is the list of its declarations.
-/

namespace Mairix

/-! ## Names -/

/-- The names of states, blocks and abbreviations are strings of bytes, written as one number: a 1 and then the bytes, in base 256. -/
abbrev Name := Nat

/-- The string as a number. -/
def nameOf (t : Text) : Name := t.foldl (fun n c => n * 256 + c.toNat) 1

/-- The string as a number: `nm! "in"` is the numeral for `nameOf (bs "in")`. -/
macro:max "nm!" s:str : term => return Lean.Syntax.mkNumLit (toString (s.getString.toUTF8.foldl (fun n c => n * 256 + c.toNat) 1))

example : nm! "in" = nameOf (bs "in") ∧ nm! "after_timezone_1" = nameOf (bs "after_timezone_1") := by decide

/-- `strlen` -/
def Name.len (n : Name) : Nat := Nat.log2 n / 8

/-- `strcat` -/
def Name.cat (a b : Name) : Name := a * 256 ^ Name.len b + (b - 256 ^ Name.len b)

/-- What `snprintf` leaves in a buffer for `n` characters and the NUL. -/
def Name.clip (n : Nat) (a : Name) : Name := if Name.len a ≤ n then a else a / 256 ^ (Name.len a - n)

/-- The decimal digits; `fuel` is enough for them. -/
def Name.numberOf : Nat → Nat → Name
  | 0, n => 304 + n % 10
  | fuel + 1, n => if n / 10 = 0 then 304 + n % 10 else Name.cat (numberOf fuel (n / 10)) (304 + n % 10)

/-- `%d` -/
def Name.number (n : Nat) : Name := Name.numberOf n n

example : Name.number 0 = nm! "0" ∧ Name.number 7 = nm! "7" ∧ Name.number 120 = nm! "120" ∧ Name.len (nm! "120") = 3 := by decide
example : Name.cat (nm! "ab") (nm! "cde") = nm! "abcde" ∧ Name.clip 4 (nm! "abcde") = nm! "abcd" := by decide

/-- `strcpy(namebuf, instance_name); strcat(namebuf, "."); strcat(namebuf, name)` (blocks.c:124-126, 137-139): there is room for 1024 bytes. -/
def Name.within (inst name : Name) : Res Name :=
  if Name.len inst + 1 + Name.len name < 1024 then .ok ((inst.cat (nm! ".")).cat name) else .error .outOfBounds

/-! ## The input file -/

/-- `stimulus` (parse.y:167-176): nothing, a name, a character class, a block. The classes of a file are numbered in the order in which they stand there
(`add_charclass_to_list`). -/
inductive Stim where
  | eps
  | word (s : Name)
  | cls (k : Nat)
  | inline (type inn out : Name)
  deriving DecidableEq, Repr

/-- Where a transition goes (parse.y:138-146): to states, or to an internal state with tags. -/
inductive Goal where
  | to (l : List Name)
  | tags (l : List Text)
  deriving DecidableEq, Repr

/-- `transition_decl` (parse.y:138-154): stimuli with semicolons between them, each some alternatives. -/
structure TransDecl where
  seq : List (List Stim)
  goal : Goal
  deriving DecidableEq, Repr

/-- `state_decl` (parse.y:125-130) -/
structure StateDecl where
  name : Name
  entry : Option Text := none
  trans : List TransDecl
  deriving DecidableEq, Repr

/-- `attr_decl` (parse.y:215-233). The type makes no difference. -/
inductive AttrDecl where
  | attr (name : Text) (expr : Option TagExpr) (early : Bool)
  | default (name : Text)
  deriving DecidableEq, Repr

/-- `decl` (parse.y:90-93), but for the prefix and `entrystruct`, which are about names in the output. -/
inductive Decl where
  | abbreviation (name : Name) (l : List Stim)
  | tokens (l : List Name)
  | block (name : Name) (instances : List (Name × Name)) (states : List StateDecl)
  | attr (d : AttrDecl)
  | group (name : Text) (l : List AttrDecl)
  | tag (name : Text) (e : TagExpr)
  deriving DecidableEq, Repr

/-- An input file: the classes in it and the declarations. -/
structure NfaFile where
  classes : List ClassExpr
  decls : List Decl
  deriving DecidableEq, Repr

/-! ## Blocks and states -/

/-- A stimulus with the abbreviations expanded. -/
inductive Atom where
  | eps
  | token (t : Nat)
  | cls (k : Nat)
  | inline (type inn out : Name)
  deriving DecidableEq, Repr

/-- `TransList` (dfasyn.h:130-139); the name of the state it leads to. -/
inductive BTrans where
  | eps (d : Name)
  | token (t : Nat) (d : Name)
  | cls (k : Nat) (d : Name)
  deriving DecidableEq, Repr

/-- Where it leads. -/
def BTrans.dest : BTrans → Name
  | .eps d => d
  | .token _ d => d
  | .cls _ d => d

/-- The transition within an instance (blocks.c:131-143). -/
def BTrans.within (inst : Name) : BTrans → Res BTrans
  | .eps d => (Name.within inst d).map .eps
  | .token t d => (Name.within inst d).map (.token t)
  | .cls k d => (Name.within inst d).map (.cls k)

/-- `State` (dfasyn.h:141-163): the transitions and tags in the order of the lists. -/
structure BState where
  name : Name
  trans : List BTrans
  tags : List Text
  deriving DecidableEq, Repr

/-- `Block` (dfasyn.h:172-187). -/
structure Block where
  name : Name
  states : List BState
  /-- `subcount` -/
  internals : Nat
  /-- `subblockcount` -/
  inlines : Nat
  deriving DecidableEq, Repr

/-- The position of a state in a list. -/
def posOf (n : Name) : List BState → Nat → Option Nat
  | [], _ => none
  | s :: l, i => bif Nat.beq s.name n then some i else posOf n l (i + 1)

/-- `lookup_state` with `CREATE_OR_USE_OLD`, and with `CREATE_MUST_NOT_EXIST`, which only warns (states.c:80-119). The hash table is left out. -/
def stateFor (b : Block) (n : Name) : Block × Nat :=
  match posOf n b.states 0 with
  | some i => (b, i)
  | none => ({ b with states := b.states ++ [⟨n, [], []⟩] }, b.states.length)

/-- A new transition at the head of the list (states.c:146-168). -/
def addTrans (b : Block) (i : Nat) (t : BTrans) : Block :=
  { b with states := b.states.modify i fun s => { s with trans := t :: s.trans } }

/-- The transitions of a state, copied (blocks.c:131-143): each goes to the head of the list. -/
def copyTrans (inst : Name) : List BTrans → List BTrans → Res (List BTrans)
  | [], acc => .ok acc
  | t :: l, acc => do
    let t ← t.within inst
    copyTrans inst l (t :: acc)

/-- One state in `instantiate_block` (blocks.c:118-157). -/
def copyState (inst : Name) (b : Block) (s : BState) : Res Block := do
  let n ← Name.within inst s.name
  let r := stateFor b n
  let ts ← copyTrans inst s.trans ((r.1.states[r.2]?).elim [] BState.trans)
  .ok { r.1 with states := r.1.states.modify r.2 fun x => { x with trans := ts, tags := s.tags.reverse } }

/-- The loop over the states. -/
def copyStates (inst : Name) : List BState → Block → Res Block
  | [], b => .ok b
  | s :: l, b => do
    let b ← copyState inst b s
    copyStates inst l b

/-- The block with this name (`lookup_block`, blocks.c:72-85); they are in the order of the file. -/
def findBlock (n : Name) : List Block → Option Block
  | [] => none
  | b :: l => bif Nat.beq b.name n then some b else findBlock n l

/-- `instantiate_block` (blocks.c:109-157). The current block is not among `blocks` here; an instance of it in itself gets new states all the time, the names of
which grow until the buffer is full. -/
def instantiate (blocks : List Block) (b : Block) (type inst : Name) : Res Block :=
  match findBlock type blocks with
  | some m => copyStates inst m.states b
  | none => if b.name = type then (if b.states = [] then .ok b else .error .outOfBounds) else .error (.exit 1)

/-- `add_inline_block_transition` (states.c:178-193). The number is counted before the block is looked up. -/
def addInline (blocks : List Block) (b : Block) (i : Nat) (type inn out dest : Name) : Res Block := do
  let inst := Name.clip 1022 ((Name.cat type (nm! "#")).cat (Name.number b.inlines))
  let b ← instantiate blocks { b with inlines := b.inlines + 1 } type inst
  let r := stateFor b (Name.clip 1023 ((inst.cat (nm! ".")).cat out))
  .ok (addTrans (addTrans r.1 i (.eps (Name.clip 1023 ((inst.cat (nm! ".")).cat inn)))) r.2 (.eps dest))

/-- `add_transition` (states.c:202-225). -/
def addTransition (blocks : List Block) (b : Block) (i : Nat) (dest : Name) : Atom → Res Block
  | .eps => .ok (addTrans b i (.eps dest))
  | .token t => .ok (addTrans b i (.token t dest))
  | .cls k => .ok (addTrans b i (.cls k dest))
  | .inline type inn out => addInline blocks b i type inn out dest

/-- `add_transitions` (states.c:226-233). -/
def addTransitions (blocks : List Block) (i : Nat) (dest : Name) : List Atom → Block → Res Block
  | [], b => .ok b
  | a :: l, b => do
    let b ← addTransition blocks b i dest a
    addTransitions blocks i dest l b

/-- `add_transitions_to_internal` (states.c:234-243). -/
def addInternal (blocks : List Block) (b : Block) (i : Nat) (l : List Atom) : Res (Block × Nat) := do
  let n := Name.cat (nm! "#") (Name.number b.internals)
  let r := stateFor { b with internals := b.internals + 1 } n
  let b ← addTransitions blocks i n l r.1
  .ok (b, r.2)

/-! ## The parser's actions -/

/-- What the parser has collected. -/
structure NfaEnv where
  /-- the last one first -/
  abbrevs : List (Name × List Atom)
  tokens : List Name
  blocks : List Block
  /-- `curstate`: number of the block and of the state -/
  cur : Option (Nat × Nat)
  /-- the last one first (`entries`, states.c:121-133), with the block -/
  entries : List (Text × Nat × Nat)
  /-- the last one first, with the names (evaluator.c:65-93) -/
  groups : List (Option Text × Evaluator)
  defs : TagDefs
  deriving DecidableEq, Repr

/-- The latest abbreviation with this name (abbrevs.c:49-66). -/
def findAbbrev (n : Name) : List (Name × List Atom) → Option (List Atom)
  | [] => none
  | a :: l => bif Nat.beq a.1 n then some a.2 else findAbbrev n l

/-- The number of a token (tokens.c:54-60). -/
def tokenNumber (n : Name) : List Name → Nat → Option Nat
  | [], _ => none
  | t :: l, i => bif Nat.beq t n then some i else tokenNumber n l (i + 1)

/-- `stimulus_from_string` and so on (stimulus.c:27-76). The stimuli of an abbreviation are put in its place here, not when the transitions are added
(`add_abbrev_transition`, states.c:170-176). -/
def NfaEnv.atoms (env : NfaEnv) : Stim → Res (List Atom)
  | .eps => .ok [.eps]
  | .cls k => .ok [.cls k]
  | .inline type inn out => .ok [.inline type inn out]
  | .word s =>
    match findAbbrev s env.abbrevs with
    | some l => .ok l
    | none =>
      match tokenNumber s env.tokens 0 with
      | some t => .ok [.token t]
      | none => .error (.exit 1)

/-- `stimulus_seq` (parse.y:160-164): each new one goes to the head of the list (stimulus.c:78-86). -/
def NfaEnv.stimuli (env : NfaEnv) : List Stim → List Atom → Res (List Atom)
  | [], acc => .ok acc
  | s :: l, acc => do
    let a ← env.atoms s
    env.stimuli l (a ++ acc)

/-- A list of destinations (parse.y:144-146). -/
def addGoals (blocks : List Block) (i : Nat) (l : List Atom) : List Name → Block → Res Block
  | [], b => .ok b
  | d :: ds, b => do
    let b ← addTransitions blocks i d l b
    addGoals blocks i l ds b

/-- `transition_decl` (parse.y:138-154); `i` is `addtostate`. The new tags stand before the others (`add_tags`, states.c:244-254), in reverse
(`add_string_to_list`). -/
def NfaEnv.transition (env : NfaEnv) (goal : Goal) : Nat → List (List Stim) → Block → Res Block
  | _, [], b => .ok b
  | i, [x], b => do
    let l ← env.stimuli x []
    match goal with
    | .to ds => addGoals env.blocks i l ds b
    | .tags ts => do
      let r ← addInternal env.blocks b i l
      .ok { r.1 with states := r.1.states.modify r.2 fun s => { s with tags := ts.reverse ++ s.tags } }
  | i, x :: xs, b => do
    let l ← env.stimuli x []
    let r ← addInternal env.blocks b i l
    env.transition goal r.2 xs r.1

/-- The transitions of a state (parse.y:132-134). -/
def NfaEnv.transitions (env : NfaEnv) (i : Nat) : List TransDecl → Block → Res Block
  | [], b => .ok b
  | t :: l, b => do
    let b ← env.transition t.goal i t.seq b
    env.transitions i l b

/-- A block with the current state and the entries in it. -/
structure InBlock where
  block : Block
  cur : Option Nat
  entries : List (Text × Nat)
  deriving DecidableEq, Repr

/-- The states of a block (parse.y:123-130). -/
def NfaEnv.states (env : NfaEnv) : List StateDecl → InBlock → Res InBlock
  | [], b => .ok b
  | s :: l, b => do
    let r := stateFor b.block s.name
    let es := match s.entry with
      | some e => (e, r.2) :: b.entries
      | none => b.entries
    let blk ← env.transitions r.2 s.trans r.1
    env.states l ⟨blk, some r.2, es⟩

/-- The instances at the head of a block (parse.y:121, 136). -/
def NfaEnv.instances (env : NfaEnv) : List (Name × Name) → Block → Res Block
  | [], b => .ok b
  | (inst, type) :: l, b => do
    let b ← instantiate env.blocks b type inst
    env.instances l b

/-- `fixup_state_refs` (states.c:256-268): states that are mentioned only are created. The transitions of the states, one after the other. -/
def fixup : List BTrans → Block → Block
  | [], b => b
  | t :: l, b => fixup l (stateFor b t.dest).1

/-- The declarations of tokens (parse.y:117-119). -/
def declareTokens : List Name → List Name → Res (List Name)
  | [], ts => .ok ts
  | t :: l, ts => if (tokenNumber t ts 0).isSome then .error (.exit 1) else declareTokens l (ts ++ [t])

/-- `define_attr` and `define_defattr` (evaluator.c:101-167). -/
def AttrDecl.apply (ev : Evaluator) : AttrDecl → Evaluator
  | .attr n e early => { ev with attrs := ev.attrs ++ [⟨n, e.getD (.tag n), early⟩] }
  | .default n => { ev with default := some n }

/-- `start_evaluator` (evaluator.c:65-93), and the declarations in the group. -/
def inGroup (name : Option Text) (ds : List AttrDecl) (gs : List (Option Text × Evaluator)) : List (Option Text × Evaluator) :=
  if gs.any fun g => g.1 = name then gs.map fun g => if g.1 = name then (g.1, ds.foldl AttrDecl.apply g.2) else g
  else (name, ds.foldl AttrDecl.apply ⟨[], none⟩) :: gs

/-- One declaration. -/
def NfaEnv.decl (env : NfaEnv) : Decl → Res NfaEnv
  | .abbreviation n l => do
    let a ← env.stimuli l []
    .ok { env with abbrevs := (n, a) :: env.abbrevs }
  | .tokens l => do
    let ts ← declareTokens l env.tokens
    .ok { env with tokens := ts }
  | .block n is ss =>
    if (findBlock n env.blocks).isSome then .error (.exit 1)
    else do
      let b ← env.instances is ⟨n, [], 1, 1⟩
      let r ← env.states ss ⟨b, none, []⟩
      let b := fixup (r.block.states.flatMap BState.trans) r.block
      .ok { env with
        blocks := env.blocks ++ [b]
        cur := r.cur.map fun i => (env.blocks.length, i)
        entries := (r.entries.map fun e => (e.1, env.blocks.length, e.2)) ++ env.entries }
  | .attr d => .ok { env with groups := inGroup none [d] env.groups }
  | .group n l => .ok { env with groups := inGroup (some n) l env.groups }
  | .tag n e => .ok { env with defs := env.defs ++ [(n, e)] }

/-- All declarations. -/
def NfaEnv.decls (env : NfaEnv) : List Decl → Res NfaEnv
  | [] => .ok env
  | d :: l => do
    let env ← env.decl d
    env.decls l

/-- `eval_initialise` (evaluator.c:242-246): there is a group without a name. -/
def NfaEnv.start : NfaEnv := ⟨[], [], [], none, [], [(none, ⟨[], none⟩)], []⟩

/-! ## What the generator is given -/

/-- A transition with the numbers of class and state. -/
inductive ITrans where
  | eps (d : Nat)
  | token (t : Nat) (d : Nat)
  | cls (k : Nat) (d : Nat)
  deriving DecidableEq, Repr

/-- A state. -/
structure IState where
  trans : List ITrans
  tags : List Text
  deriving DecidableEq, Repr

/-- The reference `ds_ref`. -/
def BTrans.ref (states : List BState) : BTrans → ITrans
  | .eps d => .eps ((posOf d states 0).getD 0)
  | .token t d => .token t ((posOf d states 0).getD 0)
  | .cls k d => .cls k ((posOf d states 0).getD 0)

/-- The states of a block. -/
def Block.refs (b : Block) : List IState := b.states.map fun s => ⟨s.trans.map (BTrans.ref b.states), s.tags⟩

/-- What is given to the generator, with numbers for the classes, and the states where it starts. -/
structure IAuto where
  classes : List ClassExpr
  states : List IState
  nt : Nat
  evaluators : List Evaluator
  defs : TagDefs
  entries : List Nat
  deriving DecidableEq, Repr

/-- `main` (dfasyn.c:586-617): without entries the last state that was current is the start, without one there is a null pointer; with entries the blocks that have
one are taken together. Simplified: entries must be in one block. -/
def NfaEnv.finish (env : NfaEnv) (classes : List ClassExpr) : Res IAuto :=
  match env.entries with
  | [] =>
    match env.cur with
    | none => .error .outOfBounds
    | some (bi, i) => .ok ⟨classes, (env.blocks[bi]?).elim [] Block.refs, env.tokens.length, env.groups.map (·.2), env.defs, [i]⟩
  | (n, bi, i) :: es =>
    if es.all fun e => e.2.1 = bi then
      .ok ⟨classes, (env.blocks[bi]?).elim [] Block.refs, env.tokens.length, env.groups.map (·.2), env.defs, ((n, bi, i) :: es).map fun e => e.2.2⟩
    else .error .uninitialised

/-- From the input file to what the generator is given. -/
def NfaFile.read (f : NfaFile) : Res IAuto := do
  let env ← NfaEnv.start.decls f.decls
  env.finish f.classes

/-- The class of a transition. -/
def ITrans.toC (classes : List ClassExpr) : ITrans → CTrans
  | .eps d => .eps d
  | .token t d => .token t d
  | .cls k d => .cls (classes.getD k (.simple ⟨[], false⟩)) d

/-- With the classes in their places. -/
def IAuto.toC (a : IAuto) : CAuto := ⟨a.states.map fun s => ⟨s.trans.map (ITrans.toC a.classes), s.tags⟩, a.nt, a.evaluators, a.defs⟩

/-- `dfasyn` as a whole. -/
def dfasyn (sort : StateSort) (compress : Bool) (f : NfaFile) : Res CharScanner := do
  let a ← f.read
  generateChars sort compress a.toC a.entries

end Mairix
