import Verif.Model.TokTable

/-!
# Threading: db.c:753-827
-/

namespace Mairix

/-- `find_base` (db.c:753-761). -/
def findBase (ix : List Nat) : Nat → Nat → Res Nat
  | 0, _ => .error .diverges
  | fuel + 1, a =>
    match ix[a]? with
    | none => .error .outOfBounds
    | some b => if b = a then .ok a else findBase ix fuel b

/-- The body of the loop over one identifier's message list after the first message
(db.c:794-802): `newBase` and `ix` are updated. -/
def mergeStep (ix : List Nat) (newBase cur : Nat) : Res (List Nat × Nat) := do
  let oldBase ← findBase ix ix.length cur
  if oldBase < newBase then .ok (ix.set newBase oldBase, oldBase)
  else if oldBase > newBase then .ok (ix.set oldBase newBase, newBase)
  else .ok (ix, newBase)

/-- The rest of the loop over one identifier's message list (db.c:789-803). -/
def mergeLoop : List Nat → List Nat → Nat → Res (List Nat)
  | [], ix, _ => .ok ix
  | cur :: rest, ix, newBase => do
    let p ← mergeStep ix newBase cur
    mergeLoop rest p.1 p.2

/-- The loop over one identifier's message list (db.c:786-803). -/
def mergeList (ix : List Nat) : List Nat → Res (List Nat)
  | [] => .ok ix
  | cur :: rest => do
    let newBase ← findBase ix ix.length cur
    mergeLoop rest ix newBase

/-- The loop over the identifiers (db.c:782-805): `lists` are the message lists (chain 0) of the
occupied buckets of the message id table, in the order of the table. -/
def mergeLists : List (List Nat) → List Nat → Res (List Nat)
  | [], ix => .ok ix
  | l :: ls, ix => do
    let ix ← mergeList ix l
    mergeLists ls ix

/-- "Now make each entry point directly to its base" (db.c:808-813), from `i` on for `k`
entries. -/
def flattenIx : Nat → Nat → List Nat → Res (List Nat)
  | 0, _, ix => .ok ix
  | k + 1, i, ix =>
    match ix[i]? with
    | none => .error .outOfBounds
    | some b =>
      if b ≠ i then
        match ix[b]? with
        | none => .error .outOfBounds
        | some c => flattenIx k (i + 1) (ix.set i c)
      else flattenIx k (i + 1) ix

/-- "Now allocate contiguous thread group numbers" (db.c:816-823). `tids` are the `tid` fields of
the messages. -/
def allocTids (ix : List Nat) : Nat → Nat → Nat → List Nat → Res (List Nat)
  | 0, _, _, tids => .ok tids
  | k + 1, i, nextTid, tids =>
    match ix[i]? with
    | none => .error .outOfBounds
    | some b =>
      if b = i then allocTids ix k (i + 1) (nextTid + 1) (tids.set i nextTid)
      else match tids[b]? with
        | none => .error .outOfBounds
        | some t => allocTids ix k (i + 1) nextTid (tids.set i t)

/-- `find_threading` (db.c:763-827): from the old to the new `tid` fields. -/
def threadLists (lists : List (List Nat)) (tids : List Nat) : Res (List Nat) := do
  let np := tids.length
  let ix ← mergeLists lists (List.range np)
  let ix ← flattenIx np 0 ix
  allocTids ix np 0 0 tids

/-- `find_threading` on the message id table (db.c:775-788). -/
def findThreading (ids : Table Matches2) (tids : List Nat) : Res (List Nat) :=
  threadLists ((ids.slots.filterMap id).map fun e => readAll e.data.match0.bytes) tids

end Mairix
