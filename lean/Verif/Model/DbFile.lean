import Verif.Model.Database
import Verif.Model.ReadDb

/-!
# The database file: writer.c, reader.c:108-277, db.c:381-493

The machine is little-endian with 32-bit `int` and 64-bit pointers. The file is a list of bytes. Texts
are C strings: they hold no zero byte.
-/

namespace Mairix

/-! ## Writing -/

/-- The four bytes in which an `unsigned int` is stored; conversion to `unsigned int` reduces the value
modulo 2^32. -/
def le32 (v : Nat) : List UInt8 :=
  [UInt8.ofNat v, UInt8.ofNat (v / 256), UInt8.ofNat (v / 65536), UInt8.ofNat (v / 16777216)]

/-- A `time_t` stored in an `unsigned int`. -/
def u32 (v : Int) : Nat := (v % 4294967296).toNat

/-- A store into the mapped file: `uidata[k] = v`, or a `memcpy` to byte `off`. -/
inductive Write where
  | word (k v : Nat)
  | block (off : Nat) (b : List UInt8)
  deriving DecidableEq, Repr

/-- Storing bytes in memory. -/
def poke (data : Text) (off : Nat) (b : List UInt8) : Res Text :=
  if off + b.length ≤ data.length then .ok (data.take off ++ b ++ data.drop (off + b.length)) else .error .outOfBounds

def Write.run : Write → Text → Res Text
  | .word k v, data => poke data (4 * k) (le32 v)
  | .block off b, data => poke data off b

/-- The stores in their order. -/
def runWrites : List Write → Text → Res Text
  | [], data => .ok data
  | w :: ws, data => do
    let data ← w.run data
    runWrites ws data

/-- The tokens of a table in the order of its buckets (writer.c:143-151, 464-469). -/
def tokensOf {α : Type} (t : Table α) : List (Entry α) := t.slots.filterMap id

/-- `toktable_char_length` (writer.c:137-149). -/
def tableCharLength (t : Table Matches) : Nat :=
  ((tokensOf t).map fun e => (1 + e.text.length) + (1 + e.data.bytes.length)).sum

/-- `toktable2_char_length` (writer.c:150-163). -/
def table2CharLength (t : Table Matches2) : Nat :=
  ((tokensOf t).map fun e => (1 + e.text.length) + (1 + e.data.match0.bytes.length) + (1 + e.data.match1.bytes.length)).sum

/-- The space a message takes (writer.c:176-188). -/
def msgCharLength (m : Msg) : Nat :=
  match m.src with
  | .dead => 0
  | .mbox _ _ => 8
  | .file p _ _ => 1 + p.length
  | .imap p => 1 + p.length

/-- The space an mbox takes (writer.c:190-196); `sizeof(checksum_t)` is 16. -/
def mboxCharLength (mb : Mbox) : Nat :=
  mb.msgs.length * 16 + match mb.path with
    | some p => 1 + p.length
    | none => 0

/-- `char_length` (writer.c:164-207). -/
def charLength (db : Database) : Nat :=
  db.msgs.length + (db.msgs.map msgCharLength).sum + (db.mboxen.map mboxCharLength).sum +
  tableCharLength db.tables.to + tableCharLength db.tables.cc + tableCharLength db.tables.from +
  tableCharLength db.tables.subject + tableCharLength db.tables.body + tableCharLength db.tables.attachmentName +
  table2CharLength db.tables.msgIds

/-- `struct write_map_toktable` (writer.c:37-40). -/
structure TokMap where
  tok : Nat
  enc : Nat

/-- `struct write_map` (writer.c:48-87). -/
structure WriteMap where
  path : Nat
  mtime : Nat
  date : Nat
  size : Nat
  tid : Nat
  mboxPaths : Nat
  mboxEntries : Nat
  mboxMtime : Nat
  mboxSize : Nat
  mboxChecksum : Nat
  to : TokMap
  cc : TokMap
  «from» : TokMap
  subject : TokMap
  body : TokMap
  attachmentName : TokMap
  msgIdTok : Nat
  msgIdEnc0 : Nat
  msgIdEnc1 : Nat
  beyond : Nat

/-- `UI_HEADER_LEN` (reader.h:83). -/
abbrev headerWords : Nat := 40

/-- `map->x.tok_offset = total, total += n; map->x.enc_offset = total` (writer.c:226-241). -/
def tokMap (total n : Nat) : TokMap := { tok := total, enc := total + n }

/-- `compute_mapping` (writer.c:210-249). -/
def computeMapping (db : Database) : WriteMap :=
  let n := db.msgs.length
  let k := db.mboxen.length
  let m0 := headerWords + 5 * n
  let t0 := m0 + 5 * k
  let t1 := t0 + 2 * db.tables.to.n
  let t2 := t1 + 2 * db.tables.cc.n
  let t3 := t2 + 2 * db.tables.from.n
  let t4 := t3 + 2 * db.tables.subject.n
  let t5 := t4 + 2 * db.tables.body.n
  let t6 := t5 + 2 * db.tables.attachmentName.n
  { path := headerWords
    mtime := headerWords + n
    date := headerWords + 2 * n
    size := headerWords + 3 * n
    tid := headerWords + 4 * n
    mboxPaths := m0
    mboxEntries := m0 + k
    mboxMtime := m0 + 2 * k
    mboxSize := m0 + 3 * k
    mboxChecksum := m0 + 4 * k
    to := tokMap t0 db.tables.to.n
    cc := tokMap t1 db.tables.cc.n
    «from» := tokMap t2 db.tables.from.n
    subject := tokMap t3 db.tables.subject.n
    body := tokMap t4 db.tables.body.n
    attachmentName := tokMap t5 db.tables.attachmentName.n
    msgIdTok := t6
    msgIdEnc0 := t6 + db.tables.msgIds.n
    msgIdEnc1 := t6 + 2 * db.tables.msgIds.n
    beyond := t6 + 3 * db.tables.msgIds.n }

/-- The header entries of one table (writer.c:281-303), at the header positions of reader.h:66-72. -/
def tableHeader (base n : Nat) (m : TokMap) : List Write :=
  [.word base n, .word (base + 1) m.tok, .word (base + 2) m.enc]

/-- `write_header` (writer.c:251-310), with the positions of reader.h:34-80. -/
def writeHeader (hashKey : Nat) (db : Database) (map : WriteMap) : List Write :=
  [.block 0 [0x4d, 0x58, 0xa5, 0x04],
   .word 1 0x44332211,
   .word 2 db.msgs.length,
   .word 4 map.path,
   .word 5 map.mtime,
   .word 7 map.date,
   .word 6 map.size,
   .word 8 map.tid,
   .word 9 db.mboxen.length,
   .word 10 map.mboxPaths,
   .word 11 map.mboxEntries,
   .word 12 map.mboxMtime,
   .word 13 map.mboxSize,
   .word 14 map.mboxChecksum,
   .word 15 hashKey] ++
  tableHeader 16 db.tables.to.n map.to ++
  tableHeader 19 db.tables.cc.n map.cc ++
  tableHeader 22 db.tables.from.n map.from ++
  tableHeader 25 db.tables.subject.n map.subject ++
  tableHeader 28 db.tables.body.n map.body ++
  tableHeader 31 db.tables.attachmentName.n map.attachmentName ++
  [.word 34 db.tables.msgIds.n, .word 35 map.msgIdTok, .word 36 map.msgIdEnc0, .word 37 map.msgIdEnc1]

/-- The code of the type of a message (writer.c:317-330). -/
def typeByte (s : Src) : UInt8 :=
  match s with
  | .file _ _ _ => DB_MSG_FILE
  | .mbox _ _ => DB_MSG_MBOX
  | .dead => DB_MSG_DEAD
  | .imap _ => DB_MSG_IMAP

/-- A byte of the type and flag table (writer.c:315-335). -/
def typeAndFlagByte (m : Msg) : UInt8 :=
  typeByte m.src ||| (if m.seen then FLAG_SEEN else 0) ||| (if m.replied then FLAG_REPLIED else 0) |||
    (if m.flagged then FLAG_FLAGGED else 0)

/-- `write_type_and_flag_table` (writer.c:312-338). -/
def writeTypes (msgs : List Msg) (cdata : Nat) : List Write :=
  [.block cdata (msgs.map typeAndFlagByte), .word 3 cdata]

/-- `encode_mbox_indices` (mbox.c:1085-1092), with `struct encoded_mbox_indices` (mairix.h:385-388). -/
def encodeMboxIndices (mb msg : Nat) : List UInt8 := le32 mb ++ le32 msg

/-- One round of `write_messages` (writer.c:345-385): the stores and the number of bytes used. -/
def writeMessage (map : WriteMap) (mboxen : List Mbox) (i : Nat) (m : Msg) (cdata : Nat) : Res (List Write × Nat) :=
  match m.src with
  | .file p mtime size =>
    .ok ([.word (map.path + i) cdata, .word (map.mtime + i) (u32 mtime), .word (map.size + i) size,
      .word (map.date + i) (u32 m.date), .word (map.tid + i) m.tid, .block cdata (p ++ [0])], 1 + p.length)
  | .imap p =>
    .ok ([.word (map.path + i) cdata, .word (map.date + i) (u32 m.date), .word (map.tid + i) m.tid,
      .block cdata (p ++ [0])], 1 + p.length)
  | .mbox fi mi =>
    match mboxen[fi]? with
    | none => .error .outOfBounds
    | some mb =>
      match mb.msgs[mi]? with
      | none => .error .outOfBounds
      | some e =>
        match e.pos with
        | none => .error .uninitialised
        | some (start, len) =>
          .ok ([.word (map.path + i) cdata, .word (map.mtime + i) start, .word (map.size + i) len,
            .word (map.date + i) (u32 m.date), .word (map.tid + i) m.tid, .block cdata (encodeMboxIndices fi mi)], 8)
  | .dead =>
    .ok ([.word (map.path + i) 0, .word (map.mtime + i) 0, .word (map.size + i) 0, .word (map.tid + i) m.tid], 0)

/-- `write_messages` (writer.c:340-395) for the messages from number `i` on: the stores and the new value
of `cdata`. -/
def writeMessages (map : WriteMap) (mboxen : List Mbox) : Nat → List Msg → Nat → Res (List Write × Nat)
  | _, [], cdata => .ok ([], cdata)
  | i, m :: ms, cdata => do
    let (ws, len) ← writeMessage map mboxen i m cdata
    let (ws', cdata) ← writeMessages map mboxen (i + 1) ms (cdata + len)
    .ok (ws ++ ws', cdata)

/-- `write_mbox_headers` (writer.c:407-431) for the mboxen from number `i` on. -/
def writeMboxHeaders (map : WriteMap) : Nat → List Mbox → Nat → List Write × Nat
  | _, [], cdata => ([], cdata)
  | i, mb :: mbs, cdata =>
    let ws : List Write := [.word (map.mboxEntries + i) mb.msgs.length, .word (map.mboxMtime + i) (u32 mb.currentMtime),
      .word (map.mboxSize + i) mb.currentSize]
    match mb.path with
    | some p =>
      let (ws', c) := writeMboxHeaders map (i + 1) mbs (cdata + (1 + p.length))
      (ws ++ [.word (map.mboxPaths + i) cdata, .block cdata (p ++ [0])] ++ ws', c)
    | none =>
      let (ws', c) := writeMboxHeaders map (i + 1) mbs cdata
      (ws ++ [.word (map.mboxPaths + i) 0] ++ ws', c)

/-- The inner loop of `write_mbox_checksums` (writer.c:440-443). -/
def writeChecks : List MboxMsg → Nat → List Write × Nat
  | [], cdata => ([], cdata)
  | e :: es, cdata =>
    let (ws, c) := writeChecks es (cdata + 16)
    (.block cdata (e.check.take 16) :: ws, c)

/-- `write_mbox_checksums` (writer.c:433-451) for the mboxen from number `i` on. -/
def writeMboxChecksums (map : WriteMap) : Nat → List Mbox → Nat → List Write × Nat
  | _, [], cdata => ([], cdata)
  | i, mb :: mbs, cdata =>
    let (ws, c) := writeChecks mb.msgs cdata
    let (ws', c') := writeMboxChecksums map (i + 1) mbs c
    (.word (map.mboxChecksum + i) cdata :: ws ++ ws', c')

/-- The loop that writes the texts (writer.c:480-487, 536-543), from number `i` on. -/
def writeTexts (tok : Nat) : Nat → List Text → Nat → List Write × Nat
  | _, [], cdata => ([], cdata)
  | i, t :: ts, cdata =>
    let (ws, c) := writeTexts tok (i + 1) ts (cdata + (1 + t.length))
    (.word (tok + i) cdata :: .block cdata (t ++ [0]) :: ws, c)

/-- A loop that writes message lists (writer.c:491-498, 547-554, 556-564), from number `i` on. -/
def writeLists (enc : Nat) : Nat → List (List UInt8) → Nat → List Write × Nat
  | _, [], cdata => ([], cdata)
  | i, l :: ls, cdata =>
    let (ws, c) := writeLists enc (i + 1) ls (cdata + (l.length + 1))
    (.word (enc + i) cdata :: .block cdata (l ++ [0xff]) :: ws, c)

/-- `write_toktable` (writer.c:454-508). -/
def writeTable (t : Table Matches) (map : TokMap) (cdata : Nat) : Res (List Write × Nat) :=
  let stok := tokensOf t
  if stok.length = t.n then
    let (ws, c) := writeTexts map.tok 0 (stok.map (·.text)) cdata
    let (ws', c') := writeLists map.enc 0 (stok.map (·.data.bytes)) c
    .ok (ws ++ ws', c')
  else .error .assertion

/-- `write_toktable2` (writer.c:510-574). -/
def writeTable2 (t : Table Matches2) (tok enc0 enc1 : Nat) (cdata : Nat) : Res (List Write × Nat) :=
  let stok := tokensOf t
  if stok.length = t.n then
    let (ws, c) := writeTexts tok 0 (stok.map (·.text)) cdata
    let (ws0, c0) := writeLists enc0 0 (stok.map (·.data.match0.bytes)) c
    let (ws1, c1) := writeLists enc1 0 (stok.map (·.data.match1.bytes)) c0
    .ok (ws ++ ws0 ++ ws1, c1)
  else .error .assertion

/-- The stores made by `write_database` (writer.c:604-615), and the last value of `cdata`. -/
def allWrites (hashKey : Nat) (db : Database) : Res (List Write × Nat) := do
  let map := computeMapping db
  let c := 4 * map.beyond
  let (w0, c) ← writeMessages map db.mboxen 0 db.msgs (c + db.msgs.length)
  let (w1, c) := writeMboxHeaders map 0 db.mboxen c
  let (w2, c) := writeMboxChecksums map 0 db.mboxen c
  let (w3, c) ← writeTable db.tables.to map.to c
  let (w4, c) ← writeTable db.tables.cc map.cc c
  let (w5, c) ← writeTable db.tables.from map.from c
  let (w6, c) ← writeTable db.tables.subject map.subject c
  let (w7, c) ← writeTable db.tables.body map.body c
  let (w8, c) ← writeTable db.tables.attachmentName map.attachmentName c
  let (w9, c) ← writeTable2 db.tables.msgIds map.msgIdTok map.msgIdEnc0 map.msgIdEnc1 c
  .ok (writeHeader hashKey db map ++ writeTypes db.msgs (4 * map.beyond) ++ w0 ++ w1 ++ w2 ++ w3 ++ w4 ++ w5 ++ w6 ++
    w7 ++ w8 ++ w9, c)

/-- `verify_mbox_size_constraints` (mbox.c:1102-1120). -/
def verifyMboxSizes (db : Database) : Bool :=
  decide (db.mboxen.length ≤ 0xffffffff) && db.mboxen.all fun mb => decide (mb.msgs.length ≤ 0xffffffff)

/-- `create_rw_mapping` (writer.c:89-134): the old contents, cut or filled with zeros. -/
def resized (old : Text) (len : Nat) : Text := old.take len ++ List.replicate (len - old.length) 0

/-- The length of the file (writer.c:596-599). -/
def fileLength (db : Database) : Nat := charLength db + 4 * (computeMapping db).beyond

/-- `write_database` (writer.c:576-628) without the integrity checks (modelled in `Verif.Model.Integrity`),
onto a file with the contents `old` (empty if there is none). The length is computed as an `int`. -/
def writeDatabase (hashKey : Nat) (db : Database) (old : Text) : Res Text :=
  if verifyMboxSizes db then
    if fileLength db < 2 ^ 31 then do
      let (ws, _) ← allWrites hashKey db
      runWrites ws (resized old (fileLength db))
    else .error .overflow
  else .error (.exit 1)

/-! ## Reading -/

/-- `uidata[k]`. -/
def rd32 (data : Text) (k : Nat) : Res Nat :=
  match data[4 * k]?, data[4 * k + 1]?, data[4 * k + 2]?, data[4 * k + 3]? with
  | some a, some b, some c, some d => .ok (a.toNat + 256 * b.toNat + 65536 * c.toNat + 16777216 * d.toNat)
  | _, _, _, _ => .error .outOfBounds

/-- `get_db_token` (reader.c:108-116): `none` for NULL. -/
def tokenAt (data : Text) (off : Nat) : Option Text :=
  if 0 ∈ data.drop off then some ((data.drop off).takeWhile (· ≠ 0)) else none

/-- The C string at an offset, as copied by `new_string`: not terminated inside the file means reading
past its end. -/
def cstrAt (data : Text) (off : Nat) : Res Text :=
  match tokenAt data off with
  | some t => .ok t
  | none => .error .outOfBounds

/-- `struct toktable_db` (reader.h:127-131) as offsets. -/
structure RawTable where
  n : Nat
  tok : Nat
  enc : Nat
  deriving DecidableEq, Repr

/-- `struct toktable2_db` (reader.h:133-138) as offsets. -/
structure RawTable2 where
  n : Nat
  tok : Nat
  enc0 : Nat
  enc1 : Nat
  deriving DecidableEq, Repr

/-- `struct read_db` (reader.h:140-175), with offsets in place of pointers into the file. Counts and the
offset of the type table are in bytes, the other offsets in words. -/
structure RawDb where
  data : Text
  nMsgs : Nat
  types : Nat
  path : Nat
  mtime : Nat
  size : Nat
  date : Nat
  tid : Nat
  nMboxen : Nat
  mboxPaths : Nat
  mboxEntries : Nat
  mboxMtime : Nat
  mboxSize : Nat
  mboxChecksum : Nat
  hashKey : Nat
  to : RawTable
  cc : RawTable
  «from» : RawTable
  subject : RawTable
  body : RawTable
  attachmentName : RawTable
  msgIds : RawTable2
  deriving DecidableEq, Repr

/-- `GET_TABLE` (reader.c:215-219): the sum is computed with 32 bits. -/
def getTable (data : Text) (k size : Nat) : Res Nat := do
  let off ← rd32 data k
  if (off + size) % 4294967296 > data.length / 4 then .error (.exit 2) else .ok off

/-- One of the checks that a table ends before the end of the file (reader.c:123-125). -/
def fitsFile (data : Text) (off n : Nat) : Res Unit :=
  if 4 * (off + n) > data.length then .error (.exit 2) else .ok ()

/-- `read_toktable_db` (reader.c:118-131). -/
def readTable (data : Text) (start : Nat) : Res RawTable := do
  let n ← rd32 data start
  let tok ← rd32 data (start + 1)
  fitsFile data tok n
  let enc ← rd32 data (start + 2)
  fitsFile data enc n
  .ok { n := n, tok := tok, enc := enc }

/-- `read_toktable2_db` (reader.c:133-150). -/
def readTable2 (data : Text) (start : Nat) : Res RawTable2 := do
  let n ← rd32 data start
  let tok ← rd32 data (start + 1)
  fitsFile data tok n
  let enc0 ← rd32 data (start + 2)
  fitsFile data enc0 n
  let enc1 ← rd32 data (start + 3)
  fitsFile data enc1 n
  .ok { n := n, tok := tok, enc0 := enc0, enc1 := enc1 }

/-- The check of the magic number (reader.c:191-203). -/
def magicOk (data : Text) : Bool :=
  (data[0]? == some 0x4d || data[1]? == some 0x58 || data[2]? == some 0xa5) && data[3]? == some 0x04

/-- The endianness check (reader.c:205-212). -/
def endianOk (v : Nat) : Bool := v == 0x44332211

/-- `if (...) unlock_and_exit(2)`. -/
def require (b : Bool) : Res Unit := if b then .ok () else .error (.exit 2)

/-- `open_db` (reader.c:152-277) on a file that can be opened. A length of 2^31 or more does not fit
the `int` it is stored in. -/
def openDb (data : Text) : Res RawDb := do
  if data.length ≥ 2 ^ 31 then .error .overflow else .ok ()
  require (decide (160 ≤ data.length))
  require (magicOk data)
  let endian ← rd32 data 1
  require (endianOk endian)
  let nMsgs ← rd32 data 2
  let types ← rd32 data 3
  let path ← getTable data 4 nMsgs
  let mtime ← getTable data 5 nMsgs
  let size ← getTable data 6 nMsgs
  let date ← getTable data 7 nMsgs
  let tid ← getTable data 8 nMsgs
  let nMboxen ← rd32 data 9
  let mboxPaths ← getTable data 10 nMboxen
  let mboxEntries ← getTable data 11 nMboxen
  let mboxMtime ← getTable data 12 nMboxen
  let mboxSize ← getTable data 13 nMboxen
  let mboxChecksum ← getTable data 14 nMboxen
  let hashKey ← rd32 data 15
  let to ← readTable data 16
  let cc ← readTable data 19
  let from' ← readTable data 22
  let subject ← readTable data 25
  let body ← readTable data 28
  let attachmentName ← readTable data 31
  let msgIds ← readTable2 data 34
  .ok { data, nMsgs, types, path, mtime, size, date, tid, nMboxen, mboxPaths, mboxEntries, mboxMtime, mboxSize,
        mboxChecksum, hashKey, to, cc, «from» := from', subject, body, attachmentName, msgIds }

/-- An `unsigned int` taken as the bound of a loop over an `int`: a value of 2^31 or more is negative, and
the loop is not entered. -/
def loopBound (n : Nat) : Nat := if n < 2 ^ 31 then n else 0

/-- A loop over `int i`, `k` rounds from `i` on, gathering the results. -/
def rounds {α : Type} (f : Nat → Res α) : Nat → Nat → Res (List α)
  | _, 0 => .ok []
  | i, k + 1 => do
    let a ← f i
    let as ← rounds f (i + 1) k
    .ok (a :: as)

/-- `input->msg_type_and_flags[i]`. -/
def rdByte (data : Text) (i : Nat) : Res UInt8 :=
  match data[i]? with
  | some b => .ok b
  | none => .error .outOfBounds

/-- The four bytes at an offset as a number. -/
def rd32At (data : Text) (off : Nat) : Res Nat :=
  match data[off]?, data[off + 1]?, data[off + 2]?, data[off + 3]? with
  | some a, some b, some c, some d => .ok (a.toNat + 256 * b.toNat + 65536 * c.toNat + 16777216 * d.toNat)
  | _, _, _, _ => .error .outOfBounds

/-- `decode_mbox_indices` (mbox.c:1093-1100). -/
def decodeMboxIndices (data : Text) (off : Nat) : Res (Nat × Nat) := do
  let mb ← rd32At data off
  let msg ← rd32At data (off + 4)
  .ok (mb, msg)

/-- What is found at the path offset of a message: a C string or the numbers of a message in an mbox. -/
def pathOrIndices (data : Text) (type : UInt8) (off : Nat) : Res (Text × Nat × Nat) :=
  if type = DB_MSG_FILE ∨ type = DB_MSG_IMAP then do
    let p ← cstrAt data off
    .ok (p, 0, 0)
  else if type = DB_MSG_MBOX then do
    let (mb, msg) ← decodeMboxIndices data off
    .ok ([], mb, msg)
  else .ok ([], 0, 0)

/-- Entry `i` of the per-message tables, as used by the search and by db.c:434-478. -/
def rdMsg (r : RawDb) (i : Nat) : Res DbMsg := do
  let tf ← rdByte r.data (r.types + i)
  let off ← rd32 r.data (r.path + i)
  let (path, mbix, msgix) ← pathOrIndices r.data (tf &&& 0x7) off
  let mtime ← rd32 r.data (r.mtime + i)
  let size ← rd32 r.data (r.size + i)
  let date ← rd32 r.data (r.date + i)
  let tid ← rd32 r.data (r.tid + i)
  .ok { typeAndFlags := tf, path, mbix, msgix, mtime, size, date, tid }

/-- Entry `i` of a token table: the text and the rest of the file from the start of the list on. -/
def rdToken (data : Text) (t : RawTable) (i : Nat) : Res (Option Text × List UInt8) := do
  let off ← rd32 data (t.tok + i)
  let enc ← rd32 data (t.enc + i)
  .ok (tokenAt data off, data.drop enc)

/-- The same for the table of message ids. -/
def rdToken2 (data : Text) (t : RawTable2) (i : Nat) : Res (Option Text × List UInt8 × List UInt8) := do
  let off ← rd32 data (t.tok + i)
  let enc0 ← rd32 data (t.enc0 + i)
  let enc1 ← rd32 data (t.enc1 + i)
  .ok (tokenAt data off, data.drop enc0, data.drop enc1)

/-- Entry `i` of the mbox path table, as a C string. Simplification: a string that does not end inside
the file counts as empty. The offset is 0 for a dead mbox, whose "path" no message uses. -/
def rdMboxPath (r : RawDb) (i : Nat) : Res Text := do
  let off ← rd32 r.data (r.mboxPaths + i)
  .ok ((tokenAt r.data off).getD [])

/-- All that the search may look at (search.c), looked up at once. The bounds of the loops over the
token tables (search.c:257, 356, 371) are `unsigned`, the number of messages is an `int`. -/
def viewDb (r : RawDb) : Res ReadDb := do
  let msgs ← rounds (rdMsg r) 0 (loopBound r.nMsgs)
  let mboxPaths ← rounds (rdMboxPath r) 0 r.nMboxen
  let to ← rounds (rdToken r.data r.to) 0 r.to.n
  let cc ← rounds (rdToken r.data r.cc) 0 r.cc.n
  let from' ← rounds (rdToken r.data r.from) 0 r.from.n
  let subject ← rounds (rdToken r.data r.subject) 0 r.subject.n
  let body ← rounds (rdToken r.data r.body) 0 r.body.n
  let attachmentName ← rounds (rdToken r.data r.attachmentName) 0 r.attachmentName.n
  let msgIds ← rounds (rdToken2 r.data r.msgIds) 0 r.msgIds.n
  .ok { msgs, mboxPaths, to, cc, «from» := from', subject, body, attachmentName, msgIds }

/-! ## Loading -/

/-- The checksums of an mbox, cut into entries of 16 bytes; `start` and `len` are not set yet. -/
def splitChecks : Nat → List UInt8 → List MboxMsg
  | 0, _ => []
  | n + 1, b => { pos := none, check := b.take 16 } :: splitChecks n (b.drop 16)

/-- The `memcpy` of the checksums (db.c:420-422). -/
def rdChecks (data : Text) (off n : Nat) : Res (List MboxMsg) :=
  if off + 16 * n ≤ data.length then .ok (splitChecks n (data.drop off)) else .error .outOfBounds

/-- Reading the path of an mbox (db.c:403-408). -/
def rdMboxPath' (data : Text) (off : Nat) : Res (Option Text) :=
  if off = 0 then .ok none else do
    let p ← cstrAt data off
    .ok (some p)

/-- Reading the checksums (db.c:414-427); `nn` is an `int`. -/
def rdMboxMsgs (data : Text) (off nn : Nat) : Res (List MboxMsg) :=
  if 0 < loopBound nn then rdChecks data off nn else .ok []

/-- One round of the loop over the mboxen (db.c:401-430). Simplification: the fields `current_mtime`,
`current_size` and `n_old_msgs_valid`, which are not set here, are taken as zero. They are set before they
are used, except that the first two of a dead mbox are written back to the file, where they are never used. -/
def loadMbox (r : RawDb) (i : Nat) : Res Mbox := do
  let off ← rd32 r.data (r.mboxPaths + i)
  let path ← rdMboxPath' r.data off
  let mtime ← rd32 r.data (r.mboxMtime + i)
  let size ← rd32 r.data (r.mboxSize + i)
  let nn ← rd32 r.data (r.mboxEntries + i)
  let ck ← rd32 r.data (r.mboxChecksum + i)
  let msgs ← rdMboxMsgs r.data ck nn
  .ok { path, fileMtime := mtime, fileSize := size, currentMtime := 0, currentSize := 0, nOldValid := 0, newMsgs := [], msgs }

/-- `mb->n_so_far`: the number of entries whose place has been set so far. -/
def nSoFar (mb : Mbox) : Nat := (mb.msgs.takeWhile fun e => e.pos.isSome).length

/-- Setting `start` and `len` of the next entry (db.c:462-467). -/
def setPlace (mb : Mbox) (start len : Nat) : Res Mbox :=
  match mb.msgs[nSoFar mb]? with
  | none => .error .outOfBounds
  | some e => .ok { mb with msgs := mb.msgs.set (nSoFar mb) { e with pos := some (start, len) } }

/-- The source of a message, and the mboxen after its place in one has been set (db.c:435-470). An unknown
type leaves the memory just allocated as it was (db.c:434). -/
def loadSrc (m : DbMsg) (mboxen : List Mbox) : Res (Src × List Mbox) :=
  if m.type = DB_MSG_DEAD then .ok (.dead, mboxen)
  else if m.type = DB_MSG_FILE then .ok (.file m.path m.mtime m.size, mboxen)
  else if m.type = DB_MSG_IMAP then .ok (.imap m.path, mboxen)
  else if m.type = DB_MSG_MBOX then
    match mboxen[m.mbix]? with
    | none => .error .outOfBounds
    | some mb =>
      if nSoFar mb = m.msgix then do
        let mb' ← setPlace mb m.mtime m.size
        .ok (.mbox m.mbix m.msgix, mboxen.set m.mbix mb')
      else .error .assertion
  else .error .uninitialised

/-- One round of the loop over the messages (db.c:433-477). -/
def loadMsg (m : DbMsg) (mboxen : List Mbox) : Res (Msg × List Mbox) := do
  let (src, mboxen) ← loadSrc m mboxen
  .ok ({ src, date := m.date, tid := m.tid, seen := m.typeAndFlags &&& FLAG_SEEN != 0,
         replied := m.typeAndFlags &&& FLAG_REPLIED != 0, flagged := m.typeAndFlags &&& FLAG_FLAGGED != 0 }, mboxen)

/-- The loop over the messages (db.c:433-477). -/
def loadMsgs : List DbMsg → List Mbox → Res (List Msg × List Mbox)
  | [], mboxen => .ok ([], mboxen)
  | m :: ms, mboxen => do
    let (m, mboxen) ← loadMsg m mboxen
    let (ms, mboxen) ← loadMsgs ms mboxen
    .ok (m :: ms, mboxen)

/-- The check that a token text ends inside the file (db.c:292-302, 354-359): the program exits
otherwise. -/
def withText {α : Type} : List (Option Text × α) → Res (List (Text × α))
  | [] => .ok []
  | (none, _) :: _ => .error (.exit 1)
  | (some t, a) :: r => do
    let r ← withText r
    .ok ((t, a) :: r)

/-- `import_toktable` (db.c:268-327) from the file. -/
def loadTableFrom (hash : Text → Nat) (nMsgs : Nat) (junk : Text → Nat) (data : Text) (t : RawTable) : Res (Table Matches) := do
  let toks ← rounds (rdToken data t) 0 (loopBound t.n)
  let toks ← withText toks
  loadTable hash nMsgs junk toks

/-- `import_toktable2` (db.c:329-379) from the file. -/
def loadTable2From (hash : Text → Nat) (nMsgs : Nat) (junk0 junk1 : Text → Nat) (data : Text) (t : RawTable2) :
    Res (Table Matches2) := do
  let toks ← rounds (rdToken2 data t) 0 (loopBound t.n)
  let toks ← withText toks
  loadTable2 hash nMsgs junk0 junk1 toks

/-- The seven calls at db.c:480-486. `junk` is the indeterminate value left in `highest` for an empty
list. -/
def loadTables (hash : Text → Nat) (junk : Text → Nat) (r : RawDb) : Res Tables := do
  let n := loopBound r.nMsgs
  let to ← loadTableFrom hash n junk r.data r.to
  let cc ← loadTableFrom hash n junk r.data r.cc
  let from' ← loadTableFrom hash n junk r.data r.from
  let subject ← loadTableFrom hash n junk r.data r.subject
  let body ← loadTableFrom hash n junk r.data r.body
  let attachmentName ← loadTableFrom hash n junk r.data r.attachmentName
  let msgIds ← loadTable2From hash n junk junk r.data r.msgIds
  .ok { to, cc, «from» := from', subject, body, attachmentName, msgIds }

/-- `new_database_from_file` (db.c:381-493) from the opened file, without the integrity checks (modelled in
`Verif.Model.Integrity`). `hashfn key` is `hashfn(..., key)`. The tables of the messages are looked up before
the mboxen are read, which makes no difference. -/
def loadDatabase (hashfn : Nat → Text → Nat) (junk : Text → Nat) (r : RawDb) : Res Database := do
  let dbMsgs ← rounds (rdMsg r) 0 (loopBound r.nMsgs)
  let mboxen ← rounds (loadMbox r) 0 (loopBound r.nMboxen)
  let (msgs, mboxen) ← loadMsgs dbMsgs mboxen
  let tables ← loadTables (hashfn r.hashKey) junk r
  .ok { msgs, mboxen, tables }

end Mairix
