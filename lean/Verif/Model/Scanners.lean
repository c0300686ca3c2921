import Verif.Model.NfaFiles
import Verif.Model.Dates

/-!
# The functions that drive the generated scanners: mbox.c, dates.c, nvp.c

`sc` is what `dfasyn` has written: the table `char2tok`, the function `next_state` and the table of attributes.
-/

namespace Mairix

/-- The token for a character: `fromcheck_char2tok[...]` (mbox.c:222), `datescan_char2tok[...]` (dates.c:39), `nvp_char2tok[...]` (nvp.c:178). -/
def CharScanner.token (sc : CharScanner) (c : UInt8) : Int := sc.char2tok.getD c.toNat (-1)

/-- The loop of `looks_like_from_separator` (mbox.c:219-238) from a state on; `t` is the text from `n` to the end of the file. -/
def fromLoop (sc : CharScanner) : Int → Text → Res Bool
  | _, [] => .ok false
  | s, c :: t => do
    let s ← sc.scanner.nextPlain s (sc.token c)
    if s < 0 then .ok false
    else do
      let attrs ← sc.scanner.attrs s
      if attrs.head? = some (bs "FROMCHECK_PASS") then .ok true else fromLoop sc s t

/-- `looks_like_from_separator` (mbox.c:209-241) with the generated scanner; `t` is what comes behind the blank. -/
def scanFrom (sc : CharScanner) (t : Text) : Res Bool := fromLoop sc 0 t

/-- The loop of `discover_type` (dates.c:38-43). -/
def dateLoop (sc : CharScanner) : Int → Text → Res Int
  | s, [] => .ok s
  | s, c :: t => do
    let s ← sc.scanner.nextPlain s (sc.token c)
    if s < 0 then .ok s else dateLoop sc s t

/-- The names that datescan.nfa and the generated header have for the types of dates. -/
def DateType.name : DateType → Text
  | .failure => bs "DS_FAILURE"
  | .d => bs "DS_D"
  | .y => bs "DS_Y"
  | .yymmdd => bs "DS_YYMMDD"
  | .scaled => bs "DS_SCALED"
  | .m => bs "DS_M"
  | .dm => bs "DS_DM"
  | .md => bs "DS_MD"
  | .ym => bs "DS_YM"
  | .my => bs "DS_MY"
  | .ymd => bs "DS_YMD"
  | .dmy => bs "DS_DMY"

/-- `discover_type` (dates.c:32-50) with the generated scanner. The result is the name of the constant. -/
def scanDateType (sc : CharScanner) (t : Text) : Res Text := do
  let s ← dateLoop sc 0 t
  if s < 0 then .ok DateType.failure.name
  else do
    let attrs ← sc.scanner.attrs s
    match attrs with
    | x :: _ => .ok x
    | [] => .error .outOfBounds

/-- The names of the copiers (nvptypes.h:38-43), in the generated tables. -/
def nvpCopierNamed (t : Text) : NvpCopier :=
  if t = bs "COPY_TO_NAME" then .name else if t = bs "COPY_TO_MINOR" then .minor else if t = bs "COPY_TO_VALUE" then .value else .nowhere

/-- The names of the actions (nvptypes.h:26-36), in the generated tables. -/
def nvpActionNamed (t : Text) : NvpAction :=
  if t = bs "GOT_NAMEVALUE" then .nameValue else if t = bs "GOT_NAMEVALUE_CONT" then .nameValueCont else if t = bs "GOT_NAMEVALUE_CSET" then .nameValueCset
  else if t = bs "GOT_NAMEVALUE_CCONT" then .nameValueCcont else if t = bs "GOT_NAME" then .name else if t = bs "GOT_NAME_TRAILING_SPACE" then .nameSpace
  else if t = bs "GOT_MAJORMINOR" then .majorMinor else if t = bs "GOT_TERMINATOR" then .terminator else .nothing

/-- The copying (nvp.c:201-235), if `k` is `nvp_copier[current_state]`. -/
def NvpRun.copyAs (r : NvpRun) (k : NvpCopier) : NvpRun :=
  if k ≠ r.lastCopier then
    let r := match r.lastCopier with
      | .nowhere => r
      | .name => { r with name := some r.copied }
      | .minor => { r with minor := some r.copied }
      | .value => { r with value := some r.copied }
    { r with lastCopier := k, copied := [] }
  else r

/-- The action (nvp.c:237-313), if `a` is `nvp_action[current_state]`, and `q++` (nvp.c:315). -/
def NvpRun.actAs (r : NvpRun) (a : NvpAction) (c : Option UInt8) : Res (Option NvpRun) := do
  let next ← match a with
    | .nothing => .ok (some r)
    | .terminator => (r.terminate).map (Option.map fun r => { r with lastAction := .nothing })
    | a => .ok (some { r with lastAction := a })
  .ok (next.map fun r => match c with
    | none => r
    | some c => { r with copied := r.copied ++ [c] })

/-- The token that is read (nvp.c:176-181): at the end of the string `nvp_EOS`, the number of which is 0. -/
def CharScanner.tokenOrEnd (sc : CharScanner) : Option UInt8 → Int
  | none => 0
  | some c => sc.token c

/-- One round of the loop of `make_nvp` (nvp.c:175-316) with the generated scanner, in state `s`. -/
def nvpRound (sc : CharScanner) (s : Int) (r : NvpRun) (c : Option UInt8) : Res (Option (Int × NvpRun)) := do
  let s ← sc.scanner.nextPlain s (sc.tokenOrEnd c)
  if s < 0 then .ok none
  else do
    let attrs ← sc.scanner.attrs s
    match attrs with
    | copier :: action :: _ => do
      let r ← (r.copyAs (nvpCopierNamed copier)).actAs (nvpActionNamed action) c
      .ok (r.map fun r => (s, r))
    | _ => .error .outOfBounds

/-- The loop of `make_nvp` (nvp.c:175-316) with the generated scanner. -/
def nvpRounds (sc : CharScanner) (s : Int) (r : NvpRun) : Text → Res (Option Nvp)
  | [] => do
    let r ← nvpRound sc s r none
    .ok (r.map fun r => r.2.result)
  | c :: t => do
    match ← nvpRound sc s r (some c) with
    | none => .ok none
    | some r => nvpRounds sc r.1 r.2 t

/-- `make_nvp` (nvp.c:147-324) with the generated scanner. Of the variables `NvpRun.state` is not used. -/
def scanNvp (sc : CharScanner) (s pfx : Text) : Res (Option Nvp) :=
  if hasPrefixCase pfx s then nvpRounds sc 0 { NvpRun.start with state := [] } (s.drop pfx.length) else .ok none

end Mairix
