import Verif.Model.Folders

/-!
# Files mapped into memory, and the cache of decompressed ones: rfc822.c:1085-1445, xzfile.c

With gzip, bzip2 and xz configured. `tmpfile`, `mmap` and `close` succeed.
-/

namespace Mairix

/-- `data_alloc_type` (rfc822.c:1085-1089); 0 before it is set. -/
inductive AllocType
  | unset
  | none
  | mmap
deriving DecidableEq, Repr

/-- `COMPRESSION_...` (rfc822.c:1095-1098). -/
inductive Compression
  | none
  | gzip
  | bzip
  | xz
deriving DecidableEq, Repr

/-- `strncasecmp` with the end of the name (rfc822.c:1106, 1113, 1120); the name is longer than the ending. -/
def hasEnding (ending name : Text) : Bool := decide (name.length > ending.length) && lower (name.drop (name.length - ending.length)) == ending

/-- `get_compression_type` (rfc822.c:1100-1127). -/
def compressionType (name : Text) : Compression :=
  if hasEnding (bs ".gz") name then .gzip
  else if hasEnding (bs ".bz2") name then .bzip
  else if hasEnding (bs ".xz") name then .xz
  else .none

/-- `is_compressed` (rfc822.c:1130-1132). -/
def isCompressed (name : Text) : Bool := compressionType name ≠ .none

/-- What one call of `xx_zread` gives: some bytes, at most `SIZE_STEP`, or -1. -/
inductive ZRead
  | data (t : Text)
  | error
deriving DecidableEq, Repr

/-- What is on the disk. -/
structure ZDisc where
  /-- What `stat` tells. -/
  kind : Text → Option FileKind
  /-- The bytes of the file. -/
  raw : Text → Text
  /-- Whether `open` succeeds. -/
  opens : Text → Bool
  /-- Whether the decompressor starts. -/
  inflates : Text → Bool
  /-- What it then gives, call by call; after that no bytes. -/
  reads : Text → List ZRead

/-- The memory: which addresses are mapped, and what can be read there; and the variables of the code, `ro_mapping_cache` (rfc822.c:1240-1247) with its one slot (path, address, length) among them. -/
structure MapState where
  live : List (Nat × Text)
  alloc : AllocType
  cache : Option (Text × Nat × Nat)
deriving DecidableEq, Repr

/-- The beginning of the program. -/
def MapState.init : MapState := ⟨[], .unset, none⟩

/-- `mmap`: the address is up to the kernel, except that nothing is mapped there. -/
def MapState.mmap (fresh : List Nat → Nat) (s : MapState) (t : Text) : MapState × Nat :=
  let a := fresh (s.live.map (·.1))
  ({ s with live := (a, t) :: s.live }, a)

/-- `munmap` of a whole mapping; if there is none nothing happens and it succeeds. -/
def MapState.munmap (s : MapState) (a : Nat) : MapState := { s with live := s.live.filter fun x => x.1 ≠ a }

/-- Reading `len` bytes. -/
def MapState.read (s : MapState) (a len : Nat) : Res Text :=
  match s.live.find? (·.1 == a) with
  | some (_, t) => if len ≤ t.length then .ok (t.take len) else .error .outOfBounds
  | none => .error .outOfBounds

/-- `create_ro_mapping`, the part for files as they are (rfc822.c:1318-1323, 1400-1431): address and length. -/
def createPlain (fresh : List Nat → Nat) (d : ZDisc) (s : MapState) (name : Text) : MapState × Option (Nat × Nat) :=
  match d.kind name with
  | none => (s, none)
  | some k =>
    if (d.raw name).length = 0 then (s, none)
    else if k ≠ .regular then (s, none)
    else if d.opens name = false then (s, none)
    else
      let (s, a) := s.mmap fresh (d.raw name)
      ({ s with alloc := .mmap }, some (a, (d.raw name).length))

/-- `free_ro_mapping` (rfc822.c:1434-1449). -/
def freeRo (s : MapState) (a : Nat) : MapState :=
  match s.alloc with
  | .mmap => s.munmap a
  | _ => s

/-- `xx_zopen` (rfc822.c:1155-1187, xzfile.c:41-68): whether it succeeds, and for xz the mapping of the compressed file. -/
def zopen (fresh : List Nat → Nat) (d : ZDisc) (s : MapState) (name : Text) : MapState × Option (Option Nat) :=
  match compressionType name with
  | .xz =>
    match createPlain fresh d s name with
    | (s, some (a, _)) => (s, some (some a))
    | (s, none) => (s, none)
  | _ => if d.inflates name then (s, some none) else (s, none)

/-- `xx_zclose` (rfc822.c:1189-1211, xzfile.c:87-99). -/
def zclose (s : MapState) : Option Nat → MapState
  | some a => freeRo s a
  | none => s

/-- The reading and writing to the temporary file (rfc822.c:1356-1377): what is written, `none` for `comp_error`. As `cur_read` is unsigned an error counts as the largest number of bytes: `fwrite` leaves the buffer. -/
def inflateRest (step : Nat) : List ZRead → Text → Res Text
  | [], t => .ok t
  | .error :: _, _ => .error .outOfBounds
  | .data u :: rs, t => if u.length = 0 then .ok t else inflateRest step rs (t ++ u)

/-- See `inflateRest`. -/
def inflateAll (step : Nat) : List ZRead → Res (Option Text)
  | [] => .ok none
  | .error :: _ => .error .outOfBounds
  | .data u :: rs =>
    if u.length = 0 then .ok none
    else if u.length ≥ step then
      match inflateRest step rs u with
      | .ok t => .ok (some t)
      | .error e => .error e
    else .ok (some u)

/-- `find_ro_cache` (rfc822.c:1254-1277). -/
def findRo (s : MapState) (name : Text) : Option (Nat × Nat) :=
  match s.cache with
  | some (n, a, len) => if n = name then some (a, len) else none
  | none => none

/-- `add_ro_cache` (rfc822.c:1283-1312). -/
def addRo (fresh : List Nat → Nat) (s : MapState) (name t : Text) : MapState × Nat × Nat :=
  let s := match s.cache with
    | some (_, a, _) => s.munmap a
    | none => s
  let (s, a) := s.mmap fresh t
  ({ s with cache := some (name, a, t.length) }, a, t.length)

/-- `create_ro_mapping` with `MAP_DECOMPRESS_IF_APPLICABLE` (rfc822.c:1309-1431). The length is an `int`; that it does not overflow is left out. -/
def createRo (fresh : List Nat → Nat) (step : Nat) (d : ZDisc) (s : MapState) (name : Text) : Res (MapState × Option (Nat × Nat)) :=
  if (d.kind name).isNone then .ok (s, none)
  else if isCompressed name then
    match findRo s name with
    | some x => .ok (s, some x)
    | none =>
      match zopen fresh d s name with
      | (s, none) => .ok (s, none)
      | (s, some z) =>
        match inflateAll step (d.reads name) with
        | .error e => .error e
        | .ok none => .ok (s, none)
        | .ok (some t) =>
          let s := { zclose s z with alloc := .none }
          let (s, a, len) := addRo fresh s name t
          .ok (s, some (a, len))
  else .ok (createPlain fresh d s name)

/-- What the callers do (rfc822.c:1463-1486, search.c:638-651, 715-735, 737-760, mbox.c:877-882, 943-1029): map the file, read it, free the mapping. -/
def useFile (fresh : List Nat → Nat) (step : Nat) (d : ZDisc) (s : MapState) (name : Text) : Res (MapState × Option Text) := do
  let (s, x) ← createRo fresh step d s name
  match x with
  | none => .ok (s, none)
  | some (a, len) =>
    let t ← s.read a len
    .ok (freeRo s a, some t)

/-- One file after the other. -/
def useFiles (fresh : List Nat → Nat) (step : Nat) (d : ZDisc) : MapState → List Text → Res (MapState × List (Option Text))
  | s, [] => .ok (s, [])
  | s, n :: ns => do
    let (s, t) ← useFile fresh step d s n
    let (s, ts) ← useFiles fresh step d s ns
    .ok (s, t :: ts)

end Mairix
