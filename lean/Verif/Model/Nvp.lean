import Verif.Model.Decode

/-!
# Name/value pairs of headers: nvp.c, nvp.nfa

The scanner that `dfasyn` makes of nvp.nfa is modelled by the subsets of the states of nvp.nfa that the characters read so far lead to.
That the generated tables do the same is C71 (Props/Scanners).
-/

namespace Mairix

/-! ## The scanner (nvp.nfa) -/

/-- The tokens: `EOS` and the classes of characters that nvp.nfa tells apart (`nvp_char2tok`). -/
inductive NvpTok
  /-- end of the string -/
  | eos
  /-- blank and tab -/
  | ws
  /-- carriage return -/
  | cr
  /-- `"` -/
  | dq
  /-- backslash -/
  | bsl
  /-- `;` -/
  | semi
  /-- `=` -/
  | eq
  /-- `*` -/
  | star
  /-- `/` -/
  | slash
  /-- `'` -/
  | sq
  /-- `0` -/
  | zero
  /-- `1` to `9` -/
  | digit
  /-- letters -/
  | letter
  /-- `-` and `_` -/
  | dash
  /-- `.` and `+` -/
  | dot
  /-- other printable characters -/
  | other
  /-- all that is in no class -/
  | bad
deriving DecidableEq, Repr

/-- `nvp_char2tok`. -/
def nvpTok (c : UInt8) : NvpTok :=
  if c = 0x20 ∨ c = 0x09 then .ws
  else if c = 0x0d then .cr
  else if c = 0x22 then .dq
  else if c = 0x5c then .bsl
  else if c = 0x3b then .semi
  else if c = 0x3d then .eq
  else if c = 0x2a then .star
  else if c = 0x2f then .slash
  else if c = 0x27 then .sq
  else if c = 0x30 then .zero
  else if 0x31 ≤ c ∧ c ≤ 0x39 then .digit
  else if isAlpha c then .letter
  else if c = 0x2d ∨ c = 0x5f then .dash
  else if c = 0x2e ∨ c = 0x2b then .dot
  else if 0x21 ≤ c ∧ c ≤ 0x7e then .other
  else .bad

/-- `VALUE = [\041-~]~[\\";]` (nvp.nfa:23). -/
def NvpTok.value : NvpTok → Bool
  | .eq | .star | .slash | .sq | .zero | .digit | .letter | .dash | .dot | .other => true
  | _ => false

/-- `[\011\040;]` (nvp.nfa:24) or `VALUE`: what `QVALUE` is besides escapes. -/
def NvpTok.qvalue : NvpTok → Bool
  | .ws | .semi => true
  | t => t.value

/-- `NAME1 = [0-9a-zA-Z_\-]` (nvp.nfa:25). -/
def NvpTok.name1 : NvpTok → Bool
  | .zero | .digit | .letter | .dash => true
  | _ => false

/-- `MINOR = NAME1 | [\.\-+]` (nvp.nfa:26). The first backslash between the brackets is a member (scan.l:90-103). -/
def NvpTok.minor : NvpTok → Bool
  | .dot | .bsl => true
  | t => t.name1

/-- `[ \t\r]` (nvp.nfa:43). -/
def NvpTok.white : NvpTok → Bool
  | .ws | .cr => true
  | _ => false

/-- The four kinds of right hand sides (nvp.nfa:117-142). -/
inductive NvpKind
  | normal | cont | charset | charsetCont
deriving DecidableEq, Repr

/-- The states of nvp.nfa. Copies of a block that are left for the same state are taken as one. -/
inductive NvpState
  /-- `main.in` (nvp.nfa:186), and the white space before a component -/
  | main
  /-- `component.in` (nvp.nfa:176) -/
  | comp
  /-- `namevalue.in` (nvp.nfa:107), and the white space before the name -/
  | nv
  /-- `name.in` (nvp.nfa:49), `name1`, `name2`, `out` of the names in `namevalue` -/
  | nameIn | name1 | name2 | nameOut
  /-- white space before `=` (nvp.nfa:108) -/
  | eqN
  /-- behind the star (nvp.nfa:109-112) -/
  | star
  /-- `digits.in` and `digits.out` -/
  | digIn | digOut
  /-- behind `*0` and behind `*` and another character -/
  | star0 | star1
  /-- white space before the `=` for a charset and for its continuation -/
  | eqS | eqSC
  /-- `rhs_normal` and so on (nvp.nfa:114-128), with white space -/
  | rhs (k : NvpKind)
  /-- `qvalue.qv0`, the state within an escape there, `qv1`, the state within an escape there, `qv2` (nvp.nfa:75-90) -/
  | qv0 (k : NvpKind) | esc0 (k : NvpKind) | qv1 (k : NvpKind) | esc1 (k : NvpKind) | qv2 (k : NvpKind)
  /-- the charset `minor.minor1`, and behind the first `'` -/
  | cs | sq1
  /-- `value.in` for charsets, `value.v1` (nvp.nfa:67-73) -/
  | vIn | v1 (k : NvpKind)
  /-- white space behind the value, `out_normal` and so on (nvp.nfa:130-137) -/
  | vOws (k : NvpKind) | vOut (k : NvpKind)
  /-- the name of a component by itself -/
  | cname1 | cname2
  /-- `major.name1`, `majorminor.bar`, `minor.minor1`, `majorminor.out` (nvp.nfa:140-166) -/
  | major | bar | minor | mmOut
  /-- `component.out` and the white space behind it -/
  | compOut
  /-- behind a semicolon, before the end (nvp.nfa:188) -/
  | last
  /-- `main.in2`, `main.out2`, `main.out` -/
  | in2 | out2 | out
deriving DecidableEq, Repr

/-- Transitions without input. -/
def NvpState.eps : NvpState → List NvpState
  | .main => [.comp]
  | .comp => [.nv]
  | .nv => [.nameIn]
  | .name1 => [.nameOut]
  | .name2 => [.nameOut]
  | .nameOut => [.eqN]
  | .star => [.digIn, .eqS]
  | .qv1 k => [.qv2 k]
  | .v1 k => [.vOws k]
  | .vOws k => [.vOut k]
  | .vOut _ => [.compOut]
  | .cname1 => [.compOut]
  | .cname2 => [.compOut]
  | .minor => [.mmOut]
  | .mmOut => [.compOut]
  | .in2 => [.main]
  | .out2 => [.out]
  | _ => []

/-- Transitions on a token. -/
def NvpState.on (t : NvpTok) : NvpState → List NvpState
  | .main => if t.white then [.main] else []
  | .comp => if t.name1 then [.cname1, .major] else []
  | .nv => if t.white then [.nv] else []
  | .nameIn => if t.name1 then [.name1] else []
  | .name1 => if t.name1 then [.name1] else if t = .ws then [.name2] else []
  | .name2 => if t.name1 then [.name1] else if t = .ws then [.name2] else []
  | .nameOut => if t = .star then [.star] else []
  | .eqN => if t.white then [.eqN] else if t = .eq then [.rhs .normal] else []
  | .star => if t = .zero then [.star0] else if t = .digit ∨ t = .letter then [.star1] else []
  | .digIn => if t = .zero ∨ t = .digit then [.digIn, .digOut] else []
  | .digOut => if t.white then [.digOut] else if t = .eq then [.rhs .cont] else []
  | .star0 => if t = .star then [.eqS] else []
  | .star1 => if t = .star then [.eqSC] else []
  | .eqS => if t.white then [.eqS] else if t = .eq then [.rhs .charset] else []
  | .eqSC => if t.white then [.eqSC] else if t = .eq then [.rhs .charsetCont] else []
  | .rhs .normal => if t.white then [.rhs .normal] else if t = .dq then [.qv0 .normal] else if t.value then [.v1 .normal] else if t = .eos then [.vOut .normal] else []
  | .rhs .cont => if t.white then [.rhs .cont] else if t = .dq then [.qv0 .cont] else if t.value then [.v1 .cont] else []
  | .rhs .charset => if t.white then [.rhs .charset] else if t = .sq then [.sq1] else if t.minor then [.cs] else []
  | .rhs .charsetCont => if t.white then [.rhs .charsetCont] else if t.value then [.v1 .charsetCont] else []
  | .qv0 k => if t.qvalue then [.qv1 k] else if t = .bsl then [.esc0 k] else []
  | .esc0 k => if t = .bsl ∨ t = .dq then [.qv1 k] else []
  | .qv1 k => if t.qvalue then [.qv1 k] else if t = .bsl then [.esc1 k] else []
  | .esc1 k => if t = .bsl ∨ t = .dq then [.qv1 k] else []
  | .qv2 k => if t = .dq then [.vOws k] else []
  | .cs => if t.minor then [.cs] else if t = .sq then [.sq1] else []
  | .sq1 => if t = .sq then [.vIn] else []
  | .vIn => if t.value then [.v1 .charset] else []
  | .v1 k => if t.value then [.v1 k] else []
  | .vOws k => if t.white then [.vOws k] else []
  | .vOut _ => []
  | .cname1 => if t.name1 then [.cname1] else if t = .ws then [.cname2] else []
  | .cname2 => if t.name1 then [.cname1] else if t = .ws then [.cname2] else []
  | .major => if t.name1 then [.major] else if t = .slash then [.bar] else []
  | .bar => if t.minor then [.minor] else []
  | .minor => if t.minor then [.minor] else []
  | .mmOut => []
  | .compOut => if t.white then [.compOut] else if t = .eos then [.out2] else if t = .semi then [.last, .in2] else []
  | .last => if t.white then [.last] else if t = .eos then [.out2] else []
  | .in2 => []
  | .out2 => []
  | .out => []

/-- `enum nvp_action` (nvptypes.h). -/
inductive NvpAction
  | nothing | name | nameSpace | majorMinor | nameValue | nameValueCont | nameValueCset | nameValueCcont | terminator
deriving DecidableEq, Repr

/-- `enum nvp_copier` (nvptypes.h). -/
inductive NvpCopier
  | nowhere | name | minor | value
deriving DecidableEq, Repr

/-- The tags of the group `action`. -/
def NvpState.action : NvpState → NvpAction
  | .name1 => .name
  | .name2 => .nameSpace
  | .cname1 => .name
  | .cname2 => .nameSpace
  | .vOut .normal => .nameValue
  | .vOut .cont => .nameValueCont
  | .vOut .charset => .nameValueCset
  | .vOut .charsetCont => .nameValueCcont
  | .mmOut => .majorMinor
  | .in2 => .terminator
  | .out2 => .terminator
  | _ => .nothing

/-- The tags of the group `copier`. -/
def NvpState.copier : NvpState → NvpCopier
  | .name1 => .name
  | .name2 => .name
  | .cname1 => .name
  | .cname2 => .name
  | .cs => .minor
  | .minor => .minor
  | .qv1 _ => .value
  | .v1 _ => .value
  | _ => .nowhere

/-- All states. -/
def nvpAll : List NvpState :=
  [.main, .comp, .nv, .nameIn, .name1, .name2, .nameOut, .eqN, .star, .digIn, .digOut, .star0, .star1, .eqS, .eqSC] ++
  [.normal, .cont, .charset, .charsetCont].flatMap (fun k => [.rhs k, .qv0 k, .esc0 k, .qv1 k, .esc1 k, .qv2 k, .v1 k, .vOws k, .vOut k]) ++
  [.cs, .sq1, .vIn, .cname1, .cname2, .major, .bar, .minor, .mmOut, .compOut, .last, .in2, .out2, .out]

/-- The set with all states that are reached without input in `n` steps. -/
def nvpClosure : Nat → List NvpState → List NvpState
  | 0, s => s
  | n + 1, s => nvpClosure n (s ++ s.flatMap fun x => x.eps.filter fun y => !s.contains y)

/-- A set of states, closed under transitions without input (seven steps are enough), as a list in the order of `nvpAll`. -/
def nvpSet (s : List NvpState) : List NvpState := let c := nvpClosure 7 s; nvpAll.filter fun x => c.contains x

/-- The state `nvp_in` of the generated scanner. -/
def nvpIn : List NvpState := nvpSet [.main]

/-- `nvp_next_state`; the empty set is -1. -/
def nvpNext (s : List NvpState) (t : NvpTok) : List NvpState := nvpSet (s.flatMap (NvpState.on t))

/-- `nvp_action`: `dfasyn` refuses to generate anything if two states of a set have different tags, so that the first one is as good as any. -/
def nvpActionOf (s : List NvpState) : NvpAction := ((s.map NvpState.action).find? (· ≠ .nothing)).getD .nothing

/-- `nvp_copier`. -/
def nvpCopierOf (s : List NvpState) : NvpCopier := ((s.map NvpState.copier).find? (· ≠ .nowhere)).getD .nowhere

/-! ## The list (nvp.c) -/

/-- `struct nvp_entry` (nvp.c:35-47). -/
inductive NvpEntry
  | name (lhs : Text)
  | majorMinor (lhs rhs : Text)
  | nameValue (lhs rhs : Text)
deriving DecidableEq, Repr

/-- `struct nvp` (nvp.c:49-51). -/
abbrev Nvp := List NvpEntry

/-- `combine_namevalue` (nvp.c:104-122): the value is appended to that of the first entry with the same name. Null pointers are `none`; to look at them is a fault. -/
def nvpCombine (name value : Option Text) : Nvp → Res Nvp
  | [] => .ok [.nameValue (name.getD []) (value.getD [])]
  | .nameValue l r :: rest =>
    match name with
    | none => .error .outOfBounds
    | some n =>
      if l = n then
        match value with
        | none => .error .outOfBounds
        | some v => .ok (.nameValue l (r ++ v) :: rest)
      else do
        let rest ← nvpCombine name value rest
        .ok (.nameValue l r :: rest)
  | e :: rest => do
    let rest ← nvpCombine name value rest
    .ok (e :: rest)

/-- The digit of a hexadecimal number: `hex_to_val` (nvp.c:124-133). -/
def nvpHex (c : UInt8) : Option Nat :=
  if isDigit c then some (c.toNat - 0x30)
  else if 0x61 ≤ c ∧ c ≤ 0x66 then some (10 + c.toNat - 0x61)
  else if 0x41 ≤ c ∧ c ≤ 0x46 then some (10 + c.toNat - 0x41)
  else none

/-- The value with `%xx` decoded (nvp.c:273-295), `none` if that fails. (The code shifts the -1 of `hex_to_val` to the left; the result is taken to be negative.) -/
def nvpPercent : Text → Option Text
  | [] => some []
  | c :: t =>
    if c = 0x25 then
      match t with
      | a :: b :: t =>
        match nvpHex a, nvpHex b with
        | some x, some y => (nvpPercent t).map (UInt8.ofNat (x * 16 + y) :: ·)
        | _, _ => none
      | _ => none
    else (nvpPercent t).map (c :: ·)

/-- The name without the white space at its end (nvp.c:260-262). -/
def nvpTrim (name : Option Text) : Res Text :=
  match name with
  | none => .error .outOfBounds
  | some n => if n.all isSpace then .error .outOfBounds else .ok (n.reverse.dropWhile isSpace).reverse

/-- The variables of `make_nvp` (nvp.c:149-163). -/
structure NvpRun where
  /-- `current_state` -/
  state : List NvpState
  lastAction : NvpAction
  lastCopier : NvpCopier
  /-- the characters from `copy_start` to `q` -/
  copied : Text
  name : Option Text
  minor : Option Text
  value : Option Text
  result : Nvp
deriving DecidableEq

/-- The copying (nvp.c:201-235). -/
def NvpRun.copy (r : NvpRun) : NvpRun :=
  if nvpCopierOf r.state ≠ r.lastCopier then
    let r := match r.lastCopier with
      | .nowhere => r
      | .name => { r with name := some r.copied }
      | .minor => { r with minor := some r.copied }
      | .value => { r with value := some r.copied }
    { r with lastCopier := nvpCopierOf r.state, copied := [] }
  else r

/-- The new list of entries; if the entry was appended (nvp.c:120-121), the strings are taken away. -/
def NvpRun.took (r : NvpRun) (res : Nvp) : NvpRun :=
  if res.length = r.result.length then { r with result := res } else { r with result := res, name := none, value := none }

/-- What happens at a terminator (nvp.c:255-309); `none` is the failure of decoding. In the comparison at nvp.c:296 `current_action` is the terminator, so that the values are always combined. -/
def NvpRun.terminate (r : NvpRun) : Res (Option NvpRun) :=
  match r.lastAction with
  | .name => .ok (some { r with result := r.result ++ [.name (r.name.getD [])], name := none })
  | .nameSpace => do
    let n ← nvpTrim r.name
    .ok (some { r with result := r.result ++ [.name n], name := none })
  | .majorMinor => .ok (some { r with result := r.result ++ [.majorMinor (r.name.getD []) (r.minor.getD [])], name := none, minor := none })
  | .nameValue => .ok (some { r with result := r.result ++ [.nameValue (r.name.getD []) (r.value.getD [])], name := none, value := none })
  | .nameValueCset | .nameValueCcont =>
    match r.value with
    | none => .error .outOfBounds
    | some v =>
      match nvpPercent v with
      | none => .ok none
      | some v => do
        let res ← nvpCombine r.name (some (v.takeWhile (· != 0))) r.result
        .ok (some (NvpRun.took { r with value := some (v.takeWhile (· != 0)) } res))
  | .nameValueCont => do
    let res ← nvpCombine r.name r.value r.result
    .ok (some (r.took res))
  | _ => .ok (some r)

/-- One round of the loop (nvp.c:175-316), `none` if the header cannot be parsed. -/
def NvpRun.step (r : NvpRun) (c : Option UInt8) : Res (Option NvpRun) :=
  let state := nvpNext r.state (match c with
    | none => .eos
    | some c => nvpTok c)
  if state = [] then .ok none
  else do
    let r := NvpRun.copy { r with state := state }
    let next ← match nvpActionOf state with
      | .nothing => .ok (some r)
      | .terminator => (r.terminate).map (Option.map fun r => { r with lastAction := .nothing })
      | a => .ok (some { r with lastAction := a })
    .ok (next.map fun r => match c with
      | none => r
      | some c => { r with copied := r.copied ++ [c] })

/-- The loop (nvp.c:175-316). -/
def NvpRun.loop (r : NvpRun) : Text → Res (Option Nvp)
  | [] => do
    let r ← r.step none
    .ok (r.map NvpRun.result)
  | c :: t => do
    match ← r.step (some c) with
    | none => .ok none
    | some r => r.loop t

/-- The variables at the start (nvp.c:149-174). -/
def NvpRun.start : NvpRun := ⟨nvpIn, .nothing, .nowhere, [], none, none, none, []⟩

/-- `!strncasecmp(pfx, s, strlen(pfx))`. -/
def hasPrefixCase (pfx s : Text) : Bool := lower pfx = lower (s.take pfx.length)

/-- `make_nvp` (nvp.c:147-324). -/
def makeNvp (s pfx : Text) : Res (Option Nvp) :=
  if hasPrefixCase pfx s then NvpRun.start.loop (s.drop pfx.length) else .ok none

/-- `nvp_lookup` (nvp.c:338-349). -/
def nvpLookup (name : Text) : Nvp → Option Text
  | [] => none
  | .nameValue l r :: rest => if l = name then some r else nvpLookup name rest
  | _ :: rest => nvpLookup name rest

/-- `nvp_lookupcase` (nvp.c:351-362). -/
def nvpLookupCase (name : Text) : Nvp → Option Text
  | [] => none
  | .nameValue l r :: rest => if lower l = lower name then some r else nvpLookupCase name rest
  | _ :: rest => nvpLookupCase name rest

/-- `nvp_major` (nvp.c:386-399). -/
def nvpMajor : Nvp → Option Text
  | .majorMinor l _ :: _ => some l
  | _ => none

/-- `nvp_minor` (nvp.c:401-414). -/
def nvpMinor : Nvp → Option Text
  | .majorMinor _ r :: _ => some r
  | _ => none

/-- `nvp_first` (nvp.c:416-429). -/
def nvpFirst : Nvp → Option Text
  | .name l :: _ => some l
  | _ => none

end Mairix
