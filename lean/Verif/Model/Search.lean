import Verif.Model.ReadDb
import Verif.Model.Substring

/-!
# The search: search.c:49-71, 246-557, 781-1081

A hit vector (`char *hits`) is a list of booleans, one for each message.
-/

namespace Mairix

/-- `mark_hits_in_table` and `mark_hits_in_table2` (search.c:49-71): a failed assertion if an index
is not below the number of messages. (An index of 2^31 or more, negative as an `int`, would pass
the assertion and write out of bounds.) -/
def markHits : List Nat → List Bool → Res (List Bool)
  | [], hits => .ok hits
  | idx :: l, hits =>
    if idx < hits.length then markHits l (hits.set idx true)
    else if idx < 2 ^ 31 then .error .assertion else .error .outOfBounds

/-- `match_substring_in_table` (search.c:246-290). A token that is not terminated inside the file is
skipped. -/
def matchSubstringInTable (substring : Text) (maxErrors : Nat) (leftAnchor : Bool) :
    DbTable → List Bool → Res (List Bool)
  | [], hits => .ok hits
  | (none, _) :: tt, hits => matchSubstringInTable substring maxErrors leftAnchor tt hits
  | (some token, enc) :: tt, hits => do
    let got ← substringMatch substring maxErrors leftAnchor token
    let hits ← if got then markHits (readAll enc) hits else .ok hits
    matchSubstringInTable substring maxErrors leftAnchor tt hits

/-- The same with the call of `build_match_vector` (search.c:255) before the loop, which matters if
the table is empty. -/
def matchSubstring (tt : DbTable) (substring : Text) (maxErrors : Nat) (leftAnchor : Bool)
    (hits : List Bool) : Res (List Bool) := do
  let _ ← buildMatchVector substring
  matchSubstringInTable substring maxErrors leftAnchor tt hits

/-- The token that stands for a message in a path search (search.c:307-322): `none` for a dead
message, a failed assertion for an IMAP message or an unknown type. A mailbox number outside the
table is an access out of bounds. -/
def pathToken (mboxPaths : List Text) (m : DbMsg) : Res (Option Text) :=
  if m.type = DB_MSG_FILE then .ok (some m.path)
  else if m.type = DB_MSG_MBOX then
    match mboxPaths[m.mbix]? with
    | some p => .ok (some p)
    | none => .error .outOfBounds
  else if m.type = DB_MSG_DEAD then .ok none
  else .error .assertion

/-- `match_substring_in_paths` (search.c:306-345): the loop, delivering the new hit vector. -/
def matchSubstringInPaths (mboxPaths : List Text) (substring : Text) (maxErrors : Nat) (leftAnchor : Bool) :
    List DbMsg → Res (List Bool)
  | [] => .ok []
  | m :: ms => do
    let token ← pathToken mboxPaths m
    let hit ← match token with
      | none => .ok false
      | some token => substringMatch substring maxErrors leftAnchor token
    let rest ← matchSubstringInPaths mboxPaths substring maxErrors leftAnchor ms
    .ok (hit :: rest)

/-- `match_substring_in_paths` (search.c:292-349). The old contents of `hits` are overwritten. -/
def matchPaths (db : ReadDb) (substring : Text) (maxErrors : Nat) (leftAnchor : Bool) : Res (List Bool) := do
  let _ ← buildMatchVector substring
  matchSubstringInPaths db.mboxPaths substring maxErrors leftAnchor db.msgs

/-- `match_string_in_table` (search.c:351-364). -/
def matchString (key : Text) : DbTable → List Bool → Res (List Bool)
  | [], hits => .ok hits
  | (token, enc) :: tt, hits => do
    let hits ← if token = some key then markHits (readAll enc) hits else .ok hits
    matchString key tt hits

/-- `match_string_in_table2` (search.c:366-379): `strcmp` with a NULL token. -/
def matchString2 (key : Text) : DbTable2 → List Bool → Res (List Bool)
  | [], hits => .ok hits
  | (none, _, _) :: _, _ => .error .outOfBounds
  | (some token, _, enc1) :: tt, hits => do
    let hits ← if token = key then markHits (readAll enc1) hits else .ok hits
    matchString2 key tt hits

/-! ## Sizes, dates, flags -/

/-- Value of a string of decimal digits. -/
def decimal (t : Text) : Nat := t.foldl (fun n c => 10 * n + (c.toNat - 48)) 0

/-- `sscanf(x, "%d%n", ...)` (search.c:386): white space, an optional sign, digits. Values that do
not fit an `int` are kept here and treated in `parseSizeExpr`. -/
def scanInt (x : Text) : Option (Int × Text) :=
  let x := x.dropWhile isSpace
  match x with
  | c :: r =>
    let signed := c = 0x2b ∨ c = 0x2d
    let ds := if signed then r else x
    let d := ds.takeWhile isDigit
    if d = [] then none
    else some (if c = 0x2d then - (decimal d : Int) else (decimal d : Int), ds.dropWhile isDigit)
  | [] => none

/-- Does a value fit an `int`? -/
def fitsInt (v : Int) : Bool := -(2 ^ 31) ≤ v && v < 2 ^ 31

/-- `parse_size_expr` (search.c:381-406). A number that does not fit an `int` is undefined behaviour
(of `sscanf` or of the shift). -/
def parseSizeExpr (x : Text) : Res Int :=
  match scanInt x with
  | some (v, rest) =>
    let r : Int :=
      match rest with
      | c :: _ =>
        if c = 0x6b ∨ c = 0x4b then v * 2 ^ 10
        else if c = 0x6d ∨ c = 0x4d then v * 2 ^ 20
        else v
      | [] => v
    if fitsInt v && fitsInt r then .ok r else .error .overflow
  | none => .ok (-1)

/-- A leading colon is skipped (search.c:412). -/
def skipColon : Text → Text
  | [] => []
  | c :: r => if c = 0x3a then r else c :: r

/-- `parse_size_range` (search.c:408-444): start and end, if given. -/
def parseSizeRange (sizeExpr : Text) : Res (Option Int × Option Int) := do
  let x := skipColon sizeExpr
  match x.findIdx? (· == 0x2d) with
  | some d => do
    let start ← if 0 < d then (parseSizeExpr (x.take d)).map some else .ok none
    let stop ← if x.drop (d + 1) ≠ [] then (parseSizeExpr (x.drop (d + 1))).map some else .ok none
    .ok (start, stop)
  | none => do
    let stop ← parseSizeExpr sizeExpr
    .ok (none, some stop)

/-- Swapping limits given backwards (search.c:454-461, 484-491). -/
def orderLimits : Option Int × Option Int → Option Int × Option Int
  | (some s, some e) => if s > e then (some e, some s) else (some s, some e)
  | p => p

/-- An `int` converted to `unsigned int`, as happens to the limit in `db->size_table[i] > start`. -/
def toUnsigned (v : Int) : Nat := (v % 2 ^ 32).toNat

/-- The comparisons of one message's size (search.c:463-467). -/
def sizeWithin (lim : Option Int × Option Int) (m : DbMsg) : Bool :=
  (match lim.1 with | some s => decide (m.size > toUnsigned s) | none => true) &&
  (match lim.2 with | some e => decide (m.size < toUnsigned e) | none => true)

/-- `find_size_matches_in_table` (search.c:446-470). -/
def findSize (db : ReadDb) (sizeExpr : Text) : Res (List Bool) := do
  let p ← parseSizeRange sizeExpr
  .ok (db.msgs.map (sizeWithin (orderLimits p)))

/-- The comparisons of one message's date (search.c:493-497). -/
def dateWithin (lim : Option Int × Option Int) (m : DbMsg) : Bool :=
  (match lim.1 with | some s => decide ((m.date : Int) > s) | none => true) &&
  (match lim.2 with | some e => decide ((m.date : Int) < e) | none => true)

/-- `find_date_matches_in_table` (search.c:472-500); `scan` stands for `scan_date_string`, `none` for
its failure. `db->date_table[i]` (unsigned int) is compared with a 64-bit `time_t`. -/
def findDate (scan : Text → Option (Option Int × Option Int)) (db : ReadDb) (dateExpr : Text) :
    Res (List Bool) :=
  match scan dateExpr with
  | none => .error (.exit 2)
  | some p => .ok (db.msgs.map (dateWithin (orderLimits p)))

/-- The six variables of `find_flag_matches_in_table`. -/
structure FlagWanted where
  posSeen : Bool := false
  negSeen : Bool := false
  posReplied : Bool := false
  negReplied : Bool := false
  posFlagged : Bool := false
  negFlagged : Bool := false
  deriving DecidableEq, Repr

/-- The loop over the flag characters (search.c:515-545). -/
def parseFlags : Text → Bool → FlagWanted → FlagWanted
  | [], _, w => w
  | c :: p, negate, w =>
    if c = 0x2d then parseFlags p true w
    else if c = 0x73 ∨ c = 0x53 then
      parseFlags p false (if negate then { w with negSeen := true } else { w with posSeen := true })
    else if c = 0x72 ∨ c = 0x52 then
      parseFlags p false (if negate then { w with negReplied := true } else { w with posReplied := true })
    else if c = 0x66 ∨ c = 0x46 then
      parseFlags p false (if negate then { w with negFlagged := true } else { w with posFlagged := true })
    else parseFlags p negate w

/-- `find_flag_matches_in_table` (search.c:502-557). -/
def findFlags (db : ReadDb) (flagExpr : Text) : List Bool :=
  let w := parseFlags flagExpr false {}
  db.msgs.map fun m =>
    (!w.posSeen || m.typeAndFlags &&& FLAG_SEEN != 0) &&
    (!w.negSeen || !(m.typeAndFlags &&& FLAG_SEEN != 0)) &&
    (!w.posReplied || m.typeAndFlags &&& FLAG_REPLIED != 0) &&
    (!w.negReplied || !(m.typeAndFlags &&& FLAG_REPLIED != 0)) &&
    (!w.posFlagged || m.typeAndFlags &&& FLAG_FLAGGED != 0) &&
    (!w.negFlagged || !(m.typeAndFlags &&& FLAG_FLAGGED != 0))

/-! ## Arguments -/

/-- The variables `do_to` ... `do_flags` (search.c:855-865). -/
structure Keys where
  to : Bool := false
  cc : Bool := false
  «from» : Bool := false
  subject : Bool := false
  body : Bool := false
  date : Bool := false
  size : Bool := false
  path : Bool := false
  msgid : Bool := false
  attName : Bool := false
  flags : Bool := false
  deriving DecidableEq, Repr

/-- The `switch` on one key letter (search.c:872-887). -/
def keyLetter (k : Keys) (c : UInt8) : Keys :=
  if c = 0x62 then { k with body := true }
  else if c = 0x73 then { k with subject := true }
  else if c = 0x74 then { k with to := true }
  else if c = 0x63 then { k with cc := true }
  else if c = 0x66 then { k with «from» := true }
  else if c = 0x72 then { k with to := true, cc := true }
  else if c = 0x61 then { k with to := true, cc := true, «from» := true }
  else if c = 0x64 then { k with date := true }
  else if c = 0x7a then { k with size := true }
  else if c = 0x70 then { k with path := true }
  else if c = 0x6d then { k with msgid := true }
  else if c = 0x6e then { k with attName := true }
  else if c = 0x46 then { k with flags := true }
  else k

/-- Splitting an argument at its first colon and reading the keys (search.c:867-897): the keys and
`start_words`. -/
def parseKeys (key : Text) : Res (Keys × Text) :=
  match key.findIdx? (· == 0x3a) with
  | some c =>
    let k := (key.take c).foldl keyLetter {}
    if k.msgid && decide (c > 1) then .error (.exit 2)
    else .ok (k, key.drop (c + 1))
  | none => .ok ({ body := true, subject := true, to := true, cc := true, «from» := true }, key)

/-- Taking the next word (search.c:937-966): the word, `had_orsep`, and the new `start_words`. -/
def nextWord (s : Text) : Text × Bool × Text :=
  let orsep := s.findIdx? (· == 0x2f)
  let andsep := s.findIdx? (· == 0x2c)
  let cut (k : Nat) : Text := (s.take k).filter (fun c => !isSpace c)
  match andsep, orsep with
  | some a, none => (cut a, false, s.drop (a + 1))
  | some a, some o => if a < o then (cut a, false, s.drop (a + 1)) else (cut o, true, s.drop (o + 1))
  | none, some o => (cut o, true, s.drop (o + 1))
  | none, none => (s, false, [])

/-- The decorations of a word (search.c:970-992). -/
structure WordSpec where
  negate : Bool
  leftAnchor : Bool
  /-- the word, cut at the `=` if that counts -/
  word : Text
  /-- `max_errors`, if there is an `=` that counts -/
  equal : Option Nat
  deriving DecidableEq, Repr

/-- A leading character is taken off (search.c:970-982). -/
def takeOff (c : UInt8) : Text → Bool × Text
  | [] => (false, [])
  | x :: r => if x = c then (true, r) else (false, x :: r)

/-- search.c:970-992. `atoi` reads the leading digits; a number too large for an `int` is not
modelled. -/
def parseWord (word : Text) : WordSpec :=
  let (negate, word) := takeOff 0x7e word
  let (leftAnchor, word) := takeOff 0x5e word
  match word.findIdx? (· == 0x3d) with
  | some e =>
    match word.drop (e + 1) with
    | [] => { negate, leftAnchor, word := word.take e, equal := some 0 }
    | c :: r =>
      if isDigit c then
        { negate, leftAnchor, word := word.take e, equal := some (decimal ((c :: r).takeWhile isDigit)) }
      else { negate, leftAnchor, word, equal := none }
  | none => { negate, leftAnchor, word, equal := none }

/-- `if (flag) f(hits)` -/
def onlyIf (b : Bool) (f : List Bool → Res (List Bool)) (hits : List Bool) : Res (List Bool) :=
  if b then f hits else .ok hits

/-- The searches for one word (search.c:996-1017): the vector `hit0`. -/
def wordHits (db : ReadDb) (k : Keys) (w : WordSpec) : Res (List Bool) := do
  let lowerWord := lower w.word
  let hits := List.replicate db.msgs.length false
  match w.equal with
  | some maxErrors => do
    let sub (tt : DbTable) := matchSubstring tt lowerWord maxErrors w.leftAnchor
    let hits ← onlyIf k.to (sub db.to) hits
    let hits ← onlyIf k.cc (sub db.cc) hits
    let hits ← onlyIf k.«from» (sub db.«from») hits
    let hits ← onlyIf k.subject (sub db.subject) hits
    let hits ← onlyIf k.body (sub db.body) hits
    let hits ← onlyIf k.attName (sub db.attachmentName) hits
    onlyIf k.path (fun _ => matchPaths db w.word maxErrors w.leftAnchor) hits
  | none => do
    let str (tt : DbTable) := matchString lowerWord tt
    let hits ← onlyIf k.to (str db.to) hits
    let hits ← onlyIf k.cc (str db.cc) hits
    let hits ← onlyIf k.«from» (str db.«from») hits
    let hits ← onlyIf k.subject (str db.subject) hits
    let hits ← onlyIf k.body (str db.body) hits
    let hits ← onlyIf k.attName (str db.attachmentName) hits
    onlyIf k.path (fun _ => matchPaths db w.word 0 w.leftAnchor) hits

/-- `hit1[i] &= hit0[i]` or `hit1[i] &= !hit0[i]` (search.c:1022-1028). -/
def andCombine (negate : Bool) (hit1 hit0 : List Bool) : List Bool :=
  List.zipWith (fun a b => a && (if negate then !b else b)) hit1 hit0

/-- `hit2[i] |= hit1[i]` (search.c:1032-1034, 1045-1047). -/
def orCombine (hit2 hit1 : List Bool) : List Bool := List.zipWith (· || ·) hit2 hit1

/-- The loop over the words of one argument (search.c:926-1040): `hit1` and `hit2` at its end. The
loop body always takes at least one character off a nonempty rest, so the length of the text is
enough fuel. -/
def wordLoop (db : ReadDb) (k : Keys) : Nat → Text → List Bool → List Bool → Res (List Bool × List Bool)
  | 0, _, _, _ => .error .diverges
  | fuel + 1, startWords, hit1, hit2 => do
    let (word, hadOrsep, rest) := nextWord startWords
    let w := parseWord word
    let hit0 ← wordHits db k w
    let hit1 := andCombine w.negate hit1 hit0
    let hit2' := if hadOrsep then orCombine hit2 hit1 else hit2
    let hit1' := if hadOrsep then List.replicate db.msgs.length true else hit1
    if rest ≠ [] then wordLoop db k fuel rest hit1' hit2' else .ok (hit1', hit2')

/-- One argument (search.c:849-1047): the vector `hit2`. -/
def argHits (scan : Text → Option (Option Int × Option Int)) (db : ReadDb) (key : Text) : Res (List Bool) := do
  let (k, startWords) ← parseKeys key
  let zeros := List.replicate db.msgs.length false
  let ones := List.replicate db.msgs.length true
  if k.date then do
    let hit0 ← findDate scan db startWords
    .ok (orCombine zeros (andCombine false ones hit0))
  else if k.size then do
    let hit0 ← findSize db startWords
    .ok (orCombine zeros (andCombine false ones hit0))
  else if k.flags then
    .ok (orCombine zeros (andCombine false ones (findFlags db startWords)))
  else if k.msgid then do
    let hit0 ← matchString2 (lower startWords) db.msgIds zeros
    .ok (orCombine zeros (andCombine false ones hit0))
  else do
    let (hit1, hit2) ← wordLoop db k (startWords.length + 1) startWords ones zeros
    .ok (orCombine hit2 hit1)

/-- All arguments (search.c:845-1053): the vector `hit3`. -/
def allHits (scan : Text → Option (Option Int × Option Int)) (db : ReadDb) :
    List Text → List Bool → Res (List Bool)
  | [], hit3 => .ok hit3
  | key :: args, hit3 => do
    let hit2 ← argHits scan db key
    allHits scan db args (List.zipWith (· && ·) hit3 hit2)

/-- Marking the threads of the hits (search.c:1059-1063). -/
def markThreads : List DbMsg → List Bool → List Bool → Res (List Bool)
  | m :: ms, h :: hs, tids =>
    if h then
      if m.tid < tids.length then markThreads ms hs (tids.set m.tid true) else .error .outOfBounds
    else markThreads ms hs tids
  | _, _, tids => .ok tids

/-- Adding the messages of the marked threads (search.c:1064-1068). -/
def spreadThreads (tids : List Bool) : List DbMsg → List Bool → Res (List Bool)
  | m :: ms, h :: hs =>
    match tids[m.tid]? with
    | none => .error .outOfBounds
    | some t => do
      let rest ← spreadThreads tids ms hs
      .ok ((if t then true else h) :: rest)
  | _, _ => .ok []

/-- Thread expansion (search.c:1055-1070). -/
def expandThreads (db : ReadDb) (hit3 : List Bool) : Res (List Bool) := do
  let tids ← markThreads db.msgs hit3 (List.replicate db.msgs.length false)
  spreadThreads tids db.msgs hit3

/-- Collecting the results (search.c:1073-1077), from index `i` on. -/
def collect : Nat → List DbMsg → List Bool → List Nat
  | i, m :: ms, h :: hs => if h && m.type != DB_MSG_DEAD then i :: collect (i + 1) ms hs else collect (i + 1) ms hs
  | _, _, _ => []

/-- `do_search` up to and including the sorting of the results (search.c:825-1081); `sort` stands for
`qsort(..., db_date_cmp)`. The rest of the function delivers the results, one by one. -/
def doSearch (scan : Text → Option (Option Int × Option Int)) (sort : List Nat → List Nat) (db : ReadDb)
    (args : List Text) (showThreads sortByDate : Bool) : Res (List Nat) := do
  let hit3 ← allHits scan db args (List.replicate db.msgs.length true)
  let hit3 ← if showThreads then expandThreads db hit3 else .ok hit3
  let results := collect 0 db.msgs hit3
  .ok (if sortByDate then sort results else results)

/-- `db_date_cmp` (search.c:790-796): the difference of two `unsigned int`s, returned as an `int`. -/
def dbDateCmp (db : ReadDb) (a b : Nat) : Int :=
  let date (i : Nat) : BitVec 32 := BitVec.ofNat 32 ((db.msgs[i]?.map DbMsg.date).getD 0)
  (date a - date b).toInt

end Mairix
