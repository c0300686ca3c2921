import Verif.Model.Hash

/-!
# The hash function (specification)

The function `hash` of Bob Jenkins (1996): the text is cut into blocks of three words of 32 bits, the lowest byte first; each is added to the state, which is then mixed; the rest goes into a last block, in which the lowest
byte of the third word is kept for the length.
-/

namespace Mairix.Spec

/-- The number written with these bytes, the lowest first. -/
def number : Text → Nat
  | [] => 0
  | x :: l => x.toNat + 256 * number l

/-- One of the three rounds of mixing. -/
def mixRound (i j k : UInt32) (s : HashState) : HashState :=
  let a := (s.a - (s.b + s.c)) ^^^ (s.c >>> i)
  let b := (s.b - (s.c + a)) ^^^ (a <<< j)
  let c := (s.c - (a + b)) ^^^ (b >>> k)
  ⟨a, b, c⟩

/-- All three. -/
def mixed (s : HashState) : HashState := mixRound 3 10 15 (mixRound 12 16 5 (mixRound 13 8 13 s))

/-- The state with three numbers added to it. -/
def added (s : HashState) (x y z : Nat) : HashState := ⟨s.a + UInt32.ofNat x, s.b + UInt32.ofNat y, s.c + UInt32.ofNat z⟩

/-- A block of 12 bytes. -/
def absorbed (s : HashState) (block : Text) : HashState := mixed (added s (number (block.take 4)) (number ((block.drop 4).take 4)) (number (block.drop 8)))

/-- The state in the end, for a text of these blocks and this rest. -/
def hashedState (key : UInt32) (blocks : List Text) (rest : Text) : HashState :=
  mixed (added (blocks.foldl absorbed ⟨0x9e3779b9, 0x9e3779b9, key⟩) (number (rest.take 4)) (number ((rest.drop 4).take 4)) (12 * blocks.length + rest.length + 256 * number (rest.drop 8)))

end Mairix.Spec
