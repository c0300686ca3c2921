import Verif.Model.Basic

/-!
# hash.c: the hash function of the tables of words
-/

namespace Mairix

/-- The variables `a`, `b` and `c` (hash.c:103). `unsigned int` has 32 bits. -/
structure HashState where
  a : UInt32
  b : UInt32
  c : UInt32
  deriving DecidableEq, Repr

/-- The macro `mix` (hash.c:47-58), a line at a time. -/
def hashMix (s : HashState) : HashState :=
  let a := (s.a - s.b - s.c) ^^^ (s.c >>> 13)
  let b := (s.b - s.c - a) ^^^ (a <<< 8)
  let c := (s.c - a - b) ^^^ (b >>> 13)
  let a := (a - b - c) ^^^ (c >>> 12)
  let b := (b - c - a) ^^^ (a <<< 16)
  let c := (c - a - b) ^^^ (b >>> 5)
  let a := (a - b - c) ^^^ (c >>> 3)
  let b := (b - c - a) ^^^ (a <<< 10)
  let c := (c - a - b) ^^^ (b >>> 15)
  ⟨a, b, c⟩

/-- `(unsigned int) k[i] << sh`, where `k` points to the start of `mem` (hash.c:115-117, 126-138). -/
def hashByte (mem : Text) (i : Nat) (sh : UInt32) : Res UInt32 :=
  match mem[i]? with
  | some x => .ok (x.toUInt32 <<< sh)
  | none => .error .outOfBounds

/-- Four bytes of a block (hash.c:115-117). -/
def hashWord (mem : Text) (i : Nat) : Res UInt32 := do
  let x0 ← hashByte mem i 0
  let x1 ← hashByte mem (i + 1) 8
  let x2 ← hashByte mem (i + 2) 16
  let x3 ← hashByte mem (i + 3) 24
  .ok (x0 + x1 + x2 + x3)

/-- The loop over the blocks of 12 bytes (hash.c:113-120). -/
def hashLoop (mem : Text) (len : Nat) (s : HashState) : Res (Text × Nat × HashState) :=
  if _ : 12 ≤ len then do
    let a ← hashWord mem 0
    let b ← hashWord mem 4
    let c ← hashWord mem 8
    hashLoop (mem.drop 12) (len - 12) (hashMix ⟨s.a + a, s.b + b, s.c + c⟩)
  else .ok (mem, len, s)
  termination_by len

/-- A case of the switch, which is gone through if `len` is `n` or more (hash.c:126-138). -/
def hashCase (mem : Text) (len n : Nat) (sh : UInt32) : Res UInt32 := if n ≤ len then hashByte mem (n - 1) sh else .ok 0

/-- `hashfn` (hash.c:101-143): the hash of `length` bytes of the memory. -/
def hashFunction (mem : Text) (length : Nat) (initval : UInt32) : Res UInt32 := do
  let (mem, len, s) ← hashLoop mem length ⟨0x9e3779b9, 0x9e3779b9, initval⟩
  let c := s.c + UInt32.ofNat length
  let c := c + (← hashCase mem len 11 24)
  let c := c + (← hashCase mem len 10 16)
  let c := c + (← hashCase mem len 9 8)
  let b := s.b + (← hashCase mem len 8 24)
  let b := b + (← hashCase mem len 7 16)
  let b := b + (← hashCase mem len 6 8)
  let b := b + (← hashCase mem len 5 0)
  let a := s.a + (← hashCase mem len 4 24)
  let a := a + (← hashCase mem len 3 16)
  let a := a + (← hashCase mem len 2 8)
  let a := a + (← hashCase mem len 1 0)
  .ok (hashMix ⟨a, b, c⟩).c

end Mairix
