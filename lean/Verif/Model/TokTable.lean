import Verif.Model.Encoding

/-!
# Token tables: tok.c, and loading and purging them in db.c

`struct toktable` and `struct toktable2` are handled by textually identical code that differs only
in the payload of an entry (one message list or two), so the table is modelled once, for any
payload type `α`.
-/

namespace Mairix

/-- `struct token` / `struct token2` (mairix.h:108-122) with payload `α`. -/
structure Entry (α : Type) where
  text : Text
  hashval : Nat
  data : α
  deriving DecidableEq, Repr

/-- `struct toktable` / `struct toktable2` (mairix.h:123-139). `size` is `slots.length` and `mask`
is `size - 1` (tok.c:123, 137, db.c:279). -/
structure Table (α : Type) where
  slots : List (Option (Entry α))
  n : Nat
  hwm : Nat
  deriving DecidableEq, Repr

/-- `new_toktable` (tok.c:69-77). -/
def newTable {α : Type} : Table α := { slots := [], n := 0, hwm := 0 }

/-- `index++; index &= table->mask;` (tok.c:268-269 and everywhere else). -/
def nextIndex (size i : Nat) : Nat := (i + 1) &&& (size - 1)

/-- The loop that looks for the first free bucket (tok.c:143-146, 182-185; db.c:371-374).
A loop that has gone through `size` buckets is back in its initial state and never ends. -/
def probeFree {α : Type} (slots : List (Option (Entry α))) : Nat → Nat → Res Nat
  | 0, _ => .error .diverges
  | fuel + 1, i =>
    match slots[i]? with
    | none => .error .outOfBounds
    | some none => .ok i
    | some (some _) => probeFree slots fuel (nextIndex slots.length i)

/-- The loop that looks for a token or the first free bucket (tok.c:264-270, 310-316). -/
def probe {α : Type} (slots : List (Option (Entry α))) (text : Text) : Nat → Nat → Res Nat
  | 0, _ => .error .diverges
  | fuel + 1, i =>
    match slots[i]? with
    | none => .error .outOfBounds
    | some none => .ok i
    | some (some e) =>
      if text = e.text then .ok i else probe slots text fuel (nextIndex slots.length i)

/-- Rehashing one old bucket into the new table (tok.c:140-149, 179-188). -/
def rehashSlot {α : Type} (slots : List (Option (Entry α))) :
    Option (Entry α) → Res (List (Option (Entry α)))
  | none => .ok slots
  | some e => do
    let i ← probeFree slots slots.length (e.hashval &&& (slots.length - 1))
    .ok (slots.set i (some e))

/-- Rehashing a list of old buckets. -/
def rehash {α : Type} (slots : List (Option (Entry α))) :
    List (Option (Entry α)) → Res (List (Option (Entry α)))
  | [] => .ok slots
  | o :: os => do
    let slots ← rehashSlot slots o
    rehash slots os

/-- The new buckets of `enlarge_toktable` (tok.c:119-151) and `enlarge_toktable2` (tok.c:158-190). -/
def enlargedSlots {α : Type} (slots : List (Option (Entry α))) : Res (List (Option (Entry α))) :=
  if slots.length = 0 then .ok (List.replicate 1024 none)
  else rehash (List.replicate (slots.length <<< 1) none) slots

/-- `enlarge_toktable` (tok.c:117-154) and `enlarge_toktable2` (tok.c:156-193). -/
def enlarge {α : Type} (t : Table α) : Res (Table α) := do
  let slots ← enlargedSlots t.slots
  .ok { t with slots := slots, hwm := (slots.length >>> 2) + (slots.length >>> 3) }

/-- Enlarging if the high water mark is reached (tok.c:259-261, 305-307). -/
def maybeEnlarge {α : Type} (t : Table α) : Res (Table α) :=
  if t.n ≥ t.hwm then enlarge t else .ok t

/-- Finding or creating the entry for a lower-cased word (tok.c:253-285, 299-330): the table and
the index of the entry. `hash` is `hashfn(..., hash_key)`, `fresh` the payload of a new token. -/
def findOrInsert {α : Type} (hash : Text → Nat) (fresh : α) (text : Text) (t : Table α) :
    Res (Table α × Nat) := do
  let t ← maybeEnlarge t
  let i ← probe t.slots text t.slots.length (hash text &&& (t.slots.length - 1))
  match t.slots[i]? with
  | none => .error .outOfBounds
  | some none =>
    .ok ({ t with slots := t.slots.set i (some { text := text, hashval := hash text, data := fresh })
                  n := t.n + 1 }, i)
  | some (some _) => .ok (t, i)

/-- Updating the payload of the entry found (tok.c:285-288, 330-338). -/
def updateAt {α : Type} (f : α → Res α) (t : Table α) (i : Nat) : Res (Table α) :=
  match t.slots[i]? with
  | some (some e) => do
    let d ← f e.data
    .ok { t with slots := t.slots.set i (some { e with data := d }) }
  | _ => .error .outOfBounds

/-- `add_token_in_file` (tok.c:245-289). -/
def addToken (hash : Text → Nat) (t : Table Matches) (text : Text) (fileIndex : Nat) :
    Res (Table Matches) := do
  let (t, i) ← findOrInsert hash initMatches (lower text) t
  updateAt (fun m => addIndex m fileIndex) t i

/-- The two message lists of `struct token2` (mairix.h:115-122). -/
structure Matches2 where
  match0 : Matches
  match1 : Matches
  deriving DecidableEq, Repr

/-- The list updates of `add_token2_in_file` (tok.c:332-338). -/
def addIndex2 (toChain1 : Bool) (m : Matches2) (fileIndex : Nat) : Res Matches2 := do
  let m0 ← addIndex m.match0 fileIndex
  if toChain1 then
    let m1 ← addIndex m.match1 fileIndex
    .ok { match0 := m0, match1 := m1 }
  else .ok { match0 := m0, match1 := m.match1 }

/-- `add_token2_in_file` (tok.c:291-339). -/
def addToken2 (hash : Text → Nat) (t : Table Matches2) (text : Text) (fileIndex : Nat)
    (toChain1 : Bool) : Res (Table Matches2) := do
  let (t, i) ← findOrInsert hash { match0 := initMatches, match1 := initMatches } (lower text) t
  updateAt (fun m => addIndex2 toChain1 m fileIndex) t i

/-! ## Loading a table (db.c:268-379) -/

/-- `size = 1; while (size < n) size <<= 1;` (db.c:273-274, 334-335), with fuel `n`, which is enough
because `size` at least doubles. -/
def pow2AtLeast (n : Nat) : Nat → Nat → Nat
  | 0, size => size
  | fuel + 1, size => if size < n then pow2AtLeast n fuel (size <<< 1) else size

/-- The number of buckets allocated for `n` tokens (db.c:272-275, 333-336). -/
def importSize (n : Nat) : Nat := (pow2AtLeast n n 1) <<< 1

/-- The bucket loop of `import_toktable` (db.c:308-319): a token with the same text makes the
program exit with status 1. -/
def probeNew {α : Type} (slots : List (Option (Entry α))) (text : Text) : Nat → Nat → Res Nat
  | 0, _ => .error .diverges
  | fuel + 1, i =>
    match slots[i]? with
    | none => .error .outOfBounds
    | some none => .ok i
    | some (some e) =>
      if text = e.text then .error (.exit 1)
      else probeNew slots text fuel (nextIndex slots.length i)

/-- Where `import_toktable` puts a token (`check`, db.c:307-319) and where `import_toktable2` does
(db.c:370-374). -/
def importSlot {α : Type} (check : Bool) (slots : List (Option (Entry α))) (text : Text)
    (home : Nat) : Res Nat :=
  if check then probeNew slots text slots.length home else probeFree slots slots.length home

/-- The loop of `import_toktable` over the stored tokens (db.c:283-322, 344-377), given the text and
the message list of each. `ok` is the assertion that each `highest` is below `n_msgs`
(db.c:305, 364-365). `check` says whether duplicate texts are looked for, as only
`import_toktable` does. -/
def importLoop {α : Type} (hash : Text → Nat) (check : Bool) (ok : α → Bool) :
    List (Text × α) → List (Option (Entry α)) → Res (List (Option (Entry α)))
  | [], slots => .ok slots
  | (text, d) :: rest, slots =>
    if ok d then do
      let i ← importSlot check slots text (hash text &&& (slots.length - 1))
      importLoop hash check ok rest (slots.set i (some { text := text, hashval := hash text, data := d }))
    else .error .assertion

/-- `import_toktable` / `import_toktable2` (db.c:268-379) from the list of stored tokens. -/
def importTable {α : Type} (hash : Text → Nat) (check : Bool) (ok : α → Bool)
    (toks : List (Text × α)) : Res (Table α) := do
  let size := importSize toks.length
  let slots ← importLoop hash check ok toks (List.replicate size none)
  .ok { slots := slots, n := toks.length, hwm := (toks.length + size) >>> 1 }

/-- `import_toktable` (db.c:268-327) on what the file holds: for each token its text and the bytes of
the file from the start of its message list to the end of the file. `junk` is the indeterminate
value that `int_list_reader_copy` leaves in `highest` for an empty list. -/
def loadTable (hash : Text → Nat) (nMsgs : Nat) (junk : Text → Nat)
    (toks : List (Text × List UInt8)) : Res (Table Matches) :=
  importTable hash true (fun m => m.highest < nMsgs) (toks.map fun p => (p.1, readerCopy (junk p.1) p.2))

/-- `import_toktable2` (db.c:329-379). -/
def loadTable2 (hash : Text → Nat) (nMsgs : Nat) (junk0 junk1 : Text → Nat)
    (toks : List (Text × List UInt8 × List UInt8)) : Res (Table Matches2) :=
  importTable hash false (fun m => m.match0.highest < nMsgs && m.match1.highest < nMsgs)
    (toks.map fun p => (p.1, { match0 := readerCopy (junk0 p.1) p.2.1
                               match1 := readerCopy (junk1 p.1) p.2.2 }))

/-! ## Purging a table (db.c:1062-1249) -/

/-- The loop that numbers the messages that stay (db.c:1275-1288): `keep` is false for `MTY_DEAD`;
`none` stands for -1. -/
def buildNewIdx : List Bool → Nat → List (Option Nat)
  | [], _ => []
  | true :: ks, j => some j :: buildNewIdx ks (j + 1)
  | false :: ks, j => none :: buildNewIdx ks j

/-- Reading `new_idx[i]`. -/
def newIdxOf (keep : List Bool) (i : Nat) : Option Nat := ((buildNewIdx keep 0)[i]?).join

/-- `recode_encoding` (db.c:1062-1084): `newIdx i = none` stands for `new_idx[i] < 0`.
An index outside the array `new_idx` of `nOld` elements is an out-of-bounds read. -/
def recodeLoop (nOld : Nat) (newIdx : Nat → Option Nat) : List Nat → Matches → Res Matches
  | [], m => .ok m
  | i :: is, m =>
    if i < nOld then
      match newIdx i with
      | none => recodeLoop nOld newIdx is m
      | some j => do
        let m ← addIndex m j
        recodeLoop nOld newIdx is m
    else .error .outOfBounds

def recodeEncoding (nOld : Nat) (newIdx : Nat → Option Nat) (m : Matches) : Res Matches :=
  recodeLoop nOld newIdx (readAll m.bytes) { bytes := [], max := m.max, highest := 0 }

/-- First loop of `recode_toktable` (db.c:1093-1114) and `recode_toktable2` (db.c:1176-1197): recode
every payload with `f`, drop the entries for which `dead` then holds. Result: buckets, number of
entries dropped. -/
def recodeSlots {α : Type} (f : α → Res α) (dead : α → Bool) :
    List (Option (Entry α)) → Res (List (Option (Entry α)) × Nat)
  | [] => .ok ([], 0)
  | none :: os => do
    let (os, k) ← recodeSlots f dead os
    .ok (none :: os, k)
  | some e :: os => do
    let d ← f e.data
    let (os, k) ← recodeSlots f dead os
    if dead d then .ok (none :: os, k + 1) else .ok (some { e with data := d } :: os, k)

/-- The search for an earlier free bucket (db.c:1136-1152): from `j` up to, not including, `i`.
`none` if there is none. The fuel is the number of buckets. -/
def findGap {α : Type} (slots : List (Option (Entry α))) (i : Nat) : Nat → Nat → Res (Option Nat)
  | 0, _ => .error .diverges
  | fuel + 1, j =>
    if j = i then .ok none
    else match slots[j]? with
      | none => .error .outOfBounds
      | some none => .ok (some j)
      | some (some _) => findGap slots i fuel (nextIndex slots.length j)

/-- One iteration of the pass over the buckets (db.c:1129-1158). -/
def closeGapAt {α : Type} (slots : List (Option (Entry α))) (i : Nat) :
    Res (List (Option (Entry α)) × Bool) :=
  match slots[i]? with
  | some (some e) =>
    if e.hashval &&& (slots.length - 1) = i then .ok (slots, false)
    else do
      let g ← findGap slots i slots.length (e.hashval &&& (slots.length - 1))
      match g with
      | some j => .ok ((slots.set j (some e)).set i none, true)
      | none => .ok (slots, false)
  | some none => .ok (slots, false)
  | none => .error .outOfBounds

/-- One pass (db.c:1127-1160) over the buckets in the given order; the flag is `any_moved`. -/
def closePass {α : Type} : List Nat → List (Option (Entry α)) → Bool →
    Res (List (Option (Entry α)) × Bool)
  | [], slots, moved => .ok (slots, moved)
  | i :: is, slots, moved => do
    let (slots, m) ← closeGapAt slots i
    closePass is slots (moved || m)

/-- The `for (;;)` loop of passes (db.c:1121-1164), with fuel. -/
def closeGaps {α : Type} : Nat → List (Option (Entry α)) → Res (List (Option (Entry α)))
  | 0, _ => .error .diverges
  | fuel + 1, slots => do
    let (slots, moved) ← closePass (List.range slots.length) slots false
    if moved then closeGaps fuel slots else .ok slots

/-- `if (any_dead) ...` (db.c:1117, 1199). -/
def closeIfDead {α : Type} (fuel k : Nat) (slots : List (Option (Entry α))) :
    Res (List (Option (Entry α))) :=
  if k > 0 then closeGaps fuel slots else .ok slots

/-- `recode_toktable` (db.c:1086-1167) / `recode_toktable2` (db.c:1169-1249). -/
def recodeTable {α : Type} (fuel : Nat) (f : α → Res α) (dead : α → Bool) (t : Table α) :
    Res (Table α) := do
  let (slots, k) ← recodeSlots f dead t.slots
  let slots ← closeIfDead fuel k slots
  .ok { t with slots := slots, n := t.n - k }

/-- `recode_toktable` with `recode_encoding` on each list (db.c:1096-1098). -/
def purgeTable (fuel : Nat) (keep : List Bool) (t : Table Matches) : Res (Table Matches) :=
  recodeTable fuel (recodeEncoding keep.length (newIdxOf keep)) (fun m => m.bytes.length == 0) t

/-- Recoding both lists of a `struct token2` (db.c:1179-1180). -/
def recodeEncoding2 (nOld : Nat) (newIdx : Nat → Option Nat) (m : Matches2) : Res Matches2 := do
  let m0 ← recodeEncoding nOld newIdx m.match0
  let m1 ← recodeEncoding nOld newIdx m.match1
  .ok { match0 := m0, match1 := m1 }

/-- `recode_toktable2` (db.c:1169-1249). -/
def purgeTable2 (fuel : Nat) (keep : List Bool) (t : Table Matches2) : Res (Table Matches2) :=
  recodeTable fuel (recodeEncoding2 keep.length (newIdxOf keep))
    (fun m => m.match0.bytes.length == 0 && m.match1.bytes.length == 0) t

end Mairix
