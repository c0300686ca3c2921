import Verif.Model.Database

/-!
# Purging: db.c:1251-1317, mbox.c:1038-1082
-/

namespace Mairix

/-- `new_idx[i] >= 0` (db.c:1273-1285), for each message: whether it is kept. -/
def keepMarks (msgs : List Msg) : List Bool := msgs.map fun m => decide (m.src ≠ .dead)

/-- `old_to_new` (mbox.c:1053-1065): `none` stands for -1. -/
def oldToNew (mbs : List Mbox) : List (Option Nat) := newIdx (mbs.map fun mb => mb.path.isSome) 0
where
  newIdx : List Bool → Nat → List (Option Nat)
    | [], _ => []
    | true :: bs, j => some j :: newIdx bs (j + 1)
    | false :: bs, j => none :: newIdx bs j

/-- Renumbering the mbox of one message (mbox.c:1070-1074). -/
def renumberOne (table : List (Option Nat)) (m : Msg) : Res Msg :=
  match m.src with
  | .mbox fi mi =>
    match table[fi]? with
    | none => .error .outOfBounds
    | some none => .error .assertion
    | some (some j) => .ok { m with src := .mbox j mi }
  | _ => .ok m

/-- The loop that renumbers (mbox.c:1067-1075). -/
def renumberAll (table : List (Option Nat)) : List Msg → Res (List Msg)
  | [] => .ok []
  | m :: ms => do
    let m ← renumberOne table m
    let ms ← renumberAll table ms
    .ok (m :: ms)

/-- `cull_dead_mboxen` (mbox.c:1038-1082). -/
def cullDeadMboxen (db : Database) : Res Database :=
  if (db.mboxen.filter (·.path.isSome)).length = db.mboxen.length then .ok db
  else do
    let msgs ← renumberAll (oldToNew db.mboxen) db.msgs
    .ok { db with msgs := msgs, mboxen := db.mboxen.filter (·.path.isSome) }

/-- The seven calls that recode the tables (db.c:1287-1293); `fuel` bounds the passes that close gaps. -/
def purgeTables (fuel : Nat) (keep : List Bool) (d : Tables) : Res Tables := do
  let to ← purgeTable fuel keep d.to
  let cc ← purgeTable fuel keep d.cc
  let from' ← purgeTable fuel keep d.from
  let subject ← purgeTable fuel keep d.subject
  let body ← purgeTable fuel keep d.body
  let attachmentName ← purgeTable fuel keep d.attachmentName
  let msgIds ← purgeTable2 fuel keep d.msgIds
  .ok { to, cc, «from» := from', subject, body, attachmentName, msgIds }

/-- `cull_dead_messages` (db.c:1251-1317) without the integrity checks done first. The flag is the value
returned: whether there were any dead messages. -/
def cullDeadMessages (fuel : Nat) (db : Database) : Res (Database × Bool) := do
  let tables ← purgeTables fuel (keepMarks db.msgs) db.tables
  let db' ← cullDeadMboxen { db with msgs := db.msgs.filter fun m => decide (m.src ≠ .dead), tables := tables }
  .ok (db', db.msgs.any fun m => decide (m.src = .dead))

end Mairix
