import Verif.Model.Basic

/-!
# Message lists: the delta encoding of tok.c and its reader in reader.c
-/

namespace Mairix

/-- `struct matches` (mairix.h:101-107). `bytes` is `msginfo[0..n)`, so `n` is its length;
`max` is the number of bytes allocated. `highest` is the last index added.
Simplification: `highest` (an `unsigned long`) and indices (an `int`) are unbounded naturals. -/
structure Matches where
  bytes : List UInt8
  max : Nat
  highest : Nat
  deriving DecidableEq, Repr

/-- `init_matches` (tok.c:29-34). -/
def initMatches : Matches := { bytes := [], max := 0, highest := 0 }

/-- `insert_value` (tok.c:195-214): the bytes written. `assert(val >= 0)` holds by typing,
`assert(a <= 63)` is modelled. -/
def insertValue (val : Nat) : Res (List UInt8) :=
  if val ≤ 127 then
    .ok [UInt8.ofNat val]
  else if val ≤ 16383 then
    .ok [UInt8.ofNat ((val >>> 8) ||| 0x80), UInt8.ofNat (val &&& 0xff)]
  else
    let a := val >>> 24
    if a ≤ 63 then
      .ok [UInt8.ofNat (a ||| 0xc0), UInt8.ofNat ((val >>> 16) &&& 0xff),
           UInt8.ofNat ((val >>> 8) &&& 0xff), UInt8.ofNat (val &&& 0xff)]
    else
      .error .assertion

/-- `check_and_enlarge_encoding` (tok.c:216-226). -/
def checkAndEnlarge (m : Matches) : Matches :=
  if m.bytes.length + 4 ≥ m.max then
    if m.max = 0 then { m with max := 16 } else { m with max := m.max + (m.max >>> 1) }
  else m

/-- Storing bytes at `msginfo + n` and advancing `n` (tok.c:232, 237): undefined behaviour when
they do not fit into the `max` allocated bytes. -/
def storeBytes (m : Matches) (b : List UInt8) : Res Matches :=
  if m.bytes.length + b.length ≤ m.max then .ok { m with bytes := m.bytes ++ b }
  else .error .outOfBounds

/-- `insert_index_on_encoding` (tok.c:228-243). -/
def insertIndex (m : Matches) (idx : Nat) : Res Matches :=
  if m.bytes.length = 0 then do
    let b ← insertValue idx
    let m ← storeBytes m b
    .ok { m with highest := idx }
  else if idx < m.highest then .error .assertion
  else if idx > m.highest then do
    let b ← insertValue (idx - m.highest)
    let m ← storeBytes m b
    .ok { m with highest := idx }
  else .ok { m with highest := idx }

/-- The pair of calls made for each occurrence of a token (tok.c:287-288, 332-337,
db.c:1078-1079). -/
def addIndex (m : Matches) (idx : Nat) : Res Matches :=
  insertIndex (checkAndEnlarge m) idx

/-- A sequence of such calls. -/
def addIndices (m : Matches) : List Nat → Res Matches
  | [] => .ok m
  | i :: is => do
    let m ← addIndex m i
    addIndices m is

/-- `int_list_reader_read` (reader.c:58-88). The reader's `pos..end` is the list of remaining
bytes; the result is the value delivered (the new accumulator) and the remaining bytes, or `none`
for a return value of 0. Simplification: the accumulator is an unbounded natural. -/
def readNext (acc : Nat) : List UInt8 → Option (Nat × List UInt8)
  | [] => none
  | x0 :: r =>
    if x0 = 0xff then none
    else if x0 &&& 0xc0 = 0xc0 then
      match r with
      | x1 :: x2 :: x3 :: r =>
        some (acc + (((x0 &&& 0x3f).toNat <<< 24) + (x1.toNat <<< 16) + (x2.toNat <<< 8) + x3.toNat), r)
      | _ => none
    else if x0 &&& 0x80 ≠ 0 then
      match r with
      | x1 :: r => some (acc + (((x0 &&& 0x7f).toNat <<< 8) + x1.toNat), r)
      | _ => none
    else some (acc + x0.toNat, r)

/-- `while (int_list_reader_read(&ilr, &idx)) ...` (reader.c:93, search.c:55-58, db.c:66, 789,
1075): all values delivered, in order, from accumulator `acc`, together with the bytes not
consumed. Every successful read consumes at least one byte (`readNext_length`), so the number of
bytes is enough fuel for the loop. -/
def readLoop : Nat → Nat → List UInt8 → List Nat × List UInt8
  | 0, _, b => ([], b)
  | fuel + 1, acc, b =>
    match readNext acc b with
    | none => ([], b)
    | some (v, r) =>
      let p := readLoop fuel v r
      (v :: p.1, p.2)

/-- The indices a list reader delivers (`read_db_int_list_reader_init`, reader.c:40-48, and
`matches_int_list_reader_init`, reader.c:50-56, start with accumulator 0). -/
def readAll (b : List UInt8) : List Nat := (readLoop b.length 0 b).1

/-- `int_list_reader_copy` (reader.c:90-106) on the bytes from the list's offset to the end of the
file. `junk` is the indeterminate value of the variable `index` if the list is empty, because the
code then never assigns it. -/
def readerCopy (junk : Nat) (b : List UInt8) : Matches :=
  let p := readLoop b.length 0 b
  let n := b.length - p.2.length
  let size := n + n / 2
  { bytes := b.take n
    max := if size < 16 then 16 else size
    highest := p.1.getLast?.getD junk }

end Mairix
