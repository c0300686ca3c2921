import Verif.Model.Basic

/-!
# Approximate substring matching: search.c:80-243

`unsigned long` is taken to have 64 bits and `unsigned int` 32 bits.
-/

namespace Mairix

/-- The contents of the table `a` after the loop over the pattern (search.c:91-94), from index `i`
on. The table of 256 words is a function of the byte. -/
def matchTable : Text → Nat → (UInt8 → BitVec 64) → UInt8 → BitVec 64
  | [], _, a => a
  | p :: ps, i, a => matchTable ps (i + 1) (fun c => if c = p then a c &&& ~~~((1 : BitVec 64) <<< i) else a c)

/-- `build_match_vector` (search.c:80-97): `a` and `hit`. -/
def buildMatchVector (substring : Text) : Res ((UInt8 → BitVec 64) × BitVec 64) :=
  if substring.length > 31 ∨ substring.length = 0 then .error (.exit 2)
  else .ok (matchTable substring 0 (fun _ => BitVec.allOnes 64), ~~~((1 : BitVec 64) <<< (substring.length - 1)))

/-- `left_anchor ? 0x1 : 0x0` -/
def anchorBit (leftAnchor : Bool) : BitVec 64 := if leftAnchor then 1 else 0

/-- The loop of `substring_match_0` (search.c:110-118). -/
def loop0 (a : UInt8 → BitVec 64) (hit anchor1 : BitVec 64) : Text → BitVec 64 → BitVec 64 → Bool
  | [], _, _ => false
  | c :: p, r0, anchor =>
    let r0 := (r0 <<< 1) ||| anchor ||| a c
    if ~~~(r0 ||| hit) ≠ 0 then true else loop0 a hit anchor1 p r0 anchor1

/-- `substring_match_0` (search.c:99-120). -/
def substringMatch0 (a : UInt8 → BitVec 64) (hit : BitVec 64) (leftAnchor : Bool) (token : Text) : Bool :=
  loop0 a hit (anchorBit leftAnchor) token (BitVec.allOnes 64) 0

/-- The loop of `substring_match_1` (search.c:134-144). -/
def loop1 (a : UInt8 → BitVec 64) (hit anchor1 : BitVec 64) : Text → BitVec 64 → BitVec 64 → BitVec 64 → Bool
  | [], _, _, _ => false
  | c :: p, r0, r1, anchor =>
    let nr0 := (r0 <<< 1) ||| anchor ||| a c
    let r1 := ((r1 <<< 1) ||| anchor ||| a c) &&& ((r0 &&& nr0) <<< 1) &&& r0
    let r0 := nr0
    if ~~~((r0 &&& r1) ||| hit) ≠ 0 then true else loop1 a hit anchor1 p r0 r1 anchor1

/-- `substring_match_1` (search.c:122-146). -/
def substringMatch1 (a : UInt8 → BitVec 64) (hit : BitVec 64) (leftAnchor : Bool) (token : Text) : Bool :=
  let r0 := BitVec.allOnes 64
  let r1 := r0 <<< 1
  loop1 a hit (anchorBit leftAnchor) token r0 r1 0

/-- The loop of `substring_match_2` (search.c:161-173). -/
def loop2 (a : UInt8 → BitVec 64) (hit anchor1 : BitVec 64) :
    Text → BitVec 64 → BitVec 64 → BitVec 64 → BitVec 64 → Bool
  | [], _, _, _, _ => false
  | c :: p, r0, r1, r2, anchor =>
    let nr0 := (r0 <<< 1) ||| anchor ||| a c
    let nr1 := ((r1 <<< 1) ||| anchor ||| a c) &&& ((r0 &&& nr0) <<< 1) &&& r0
    let r2 := ((r2 <<< 1) ||| anchor ||| a c) &&& ((r1 &&& nr1) <<< 1) &&& r1
    let r0 := nr0
    let r1 := nr1
    if ~~~((r0 &&& r1 &&& r2) ||| hit) ≠ 0 then true else loop2 a hit anchor1 p r0 r1 r2 anchor1

/-- `substring_match_2` (search.c:148-175). -/
def substringMatch2 (a : UInt8 → BitVec 64) (hit : BitVec 64) (leftAnchor : Bool) (token : Text) : Bool :=
  let r0 := BitVec.allOnes 64
  let r1 := r0 <<< 1
  let r2 := r1 <<< 1
  loop2 a hit (anchorBit leftAnchor) token r0 r1 r2 0

/-- The loop of `substring_match_3` (search.c:191-205). -/
def loop3 (a : UInt8 → BitVec 64) (hit anchor1 : BitVec 64) :
    Text → BitVec 64 → BitVec 64 → BitVec 64 → BitVec 64 → BitVec 64 → Bool
  | [], _, _, _, _, _ => false
  | c :: p, r0, r1, r2, r3, anchor =>
    let nr0 := (r0 <<< 1) ||| anchor ||| a c
    let nr1 := ((r1 <<< 1) ||| anchor ||| a c) &&& ((r0 &&& nr0) <<< 1) &&& r0
    let nr2 := ((r2 <<< 1) ||| anchor ||| a c) &&& ((r1 &&& nr1) <<< 1) &&& r1
    let r3 := ((r3 <<< 1) ||| anchor ||| a c) &&& ((r2 &&& nr2) <<< 1) &&& r2
    let r0 := nr0
    let r1 := nr1
    let r2 := nr2
    if ~~~((r0 &&& r1 &&& r2 &&& r3) ||| hit) ≠ 0 then true else loop3 a hit anchor1 p r0 r1 r2 r3 anchor1

/-- `substring_match_3` (search.c:177-207). -/
def substringMatch3 (a : UInt8 → BitVec 64) (hit : BitVec 64) (leftAnchor : Bool) (token : Text) : Bool :=
  let r0 := BitVec.allOnes 64
  let r1 := r0 <<< 1
  let r2 := r1 <<< 1
  let r3 := r2 <<< 1
  loop3 a hit (anchorBit leftAnchor) token r0 r1 r2 r3 0

/-- The loop over `d` in `substring_match_general` (search.c:229-234): `rp`, `np` are `r[d-1]`,
`nr[d-1]`; the list holds `r[d..]`; the result is `nr[d..]`. -/
def nrLoop (anchor ac : BitVec 64) : BitVec 64 → BitVec 64 → List (BitVec 64) → List (BitVec 64)
  | _, _, [] => []
  | rp, np, r :: rs =>
    let n := ((r <<< 1) ||| anchor ||| ac) &&& ((rp &&& np) <<< 1) &&& rp
    n :: nrLoop anchor ac r n rs

/-- `r[0..max_errors]` to `nr[0..max_errors]` (search.c:228-234). -/
def nrStep (anchor ac : BitVec 64) : List (BitVec 64) → List (BitVec 64)
  | [] => []
  | r0 :: rs =>
    let n0 := (r0 <<< 1) ||| anchor ||| ac
    n0 :: nrLoop anchor ac r0 n0 rs

/-- `compo` after the loop (search.c:228, 233): an `unsigned int`. -/
def compoOf : List (BitVec 64) → BitVec 32
  | [] => 0
  | n0 :: ns => ns.foldl (fun compo n => compo &&& n.setWidth 32) (n0.setWidth 32)

/-- The loop of `substring_match_general` (search.c:223-241). -/
def loopGeneral (a : UInt8 → BitVec 64) (hit anchor1 : BitVec 64) :
    Text → List (BitVec 64) → BitVec 64 → Bool
  | [], _, _ => false
  | c :: p, r, anchor =>
    let nr := nrStep anchor (a c) r
    if ~~~(((compoOf nr).setWidth 64) ||| hit) ≠ 0 then true
    else loopGeneral a hit anchor1 p nr anchor1

/-- `r[j] = r[j-1] << 1` (search.c:216-221). -/
def initErrors : Nat → BitVec 64 → List (BitVec 64)
  | 0, r => [r]
  | k + 1, r => r :: initErrors k (r <<< 1)

/-- `substring_match_general` (search.c:209-243). -/
def substringMatchGeneral (a : UInt8 → BitVec 64) (hit : BitVec 64) (leftAnchor : Bool) (token : Text)
    (maxErrors : Nat) : Bool :=
  loopGeneral a hit (anchorBit leftAnchor) token (initErrors maxErrors (BitVec.allOnes 64)) 0

/-- The `switch (max_errors)` (search.c:255-283, 300-342): does a token match? -/
def substringMatch (substring : Text) (maxErrors : Nat) (leftAnchor : Bool) (token : Text) : Res Bool := do
  let (a, hit) ← buildMatchVector substring
  match maxErrors with
  | 0 => .ok (substringMatch0 a hit leftAnchor token)
  | 1 => .ok (substringMatch1 a hit leftAnchor token)
  | 2 => .ok (substringMatch2 a hit leftAnchor token)
  | 3 => .ok (substringMatch3 a hit leftAnchor token)
  | k => .ok (substringMatchGeneral a hit leftAnchor token k)

end Mairix
