import Verif.Proofs.Encoding

/-!
# C01, C02: message lists

A word's message list is the byte string built by `addIndices` from the empty list
(`initMatches`), one call per occurrence of the word. `readAll` is what every consumer of the
list sees.
-/

namespace Mairix

/-- The property of C01 for one sequence `is` of message numbers: all the calls succeed, and what
is read back, from memory or from a file in which the list is followed by the terminator 0xff and
anything else, is the strictly increasing list with the same members as `is`. -/
def ListRoundTrips (is : List Nat) : Prop :=
  ∃ m, addIndices initMatches is = .ok m ∧
    ∃ l : List Nat, l.Pairwise (· < ·) ∧ (∀ x, x ∈ l ↔ x ∈ is) ∧
      readAll m.bytes = l ∧ ∀ rest, readAll (m.bytes ++ 0xff :: rest) = l

/-- **C01** (partial: the limit on gaps is 63·2²⁴, the code's own assertion admits 2³⁰). Every
non-decreasing sequence of message numbers in which each number is less than 63·2²⁴ above zero or
above another number of the sequence round-trips. -/
theorem C01_roundtrip_partial (is : List Nat) (hs : is.Pairwise (· ≤ ·))
    (hgap : ∀ i ∈ is, i < 0x3F000000 ∨ ∃ j ∈ is, j < i ∧ i < j + 0x3F000000) :
    ListRoundTrips is := by
  obtain ⟨m, h1, h2⟩ := addIndices_valid is valid_init hs (by simp) (by simpa using hgap)
  refine ⟨m, h1, _, h2.increasing, ?_, valid_readAll h2, fun rest => valid_readAll_file h2 rest⟩
  intro x; rw [mem_foldl_addAbs]; simp

/-- The hypotheses are met by a sequence with repetitions and all three code lengths. -/
example : ListRoundTrips [0, 0, 5, 5, 300, 70000, 0x3F000000 + 69999] :=
  C01_roundtrip_partial _ (by decide) (by decide)

/-- **C01 as stated is false**: a gap of 63·2²⁴ passes the code's assertions but its first byte is
the terminator, so that the message is not read back. -/
theorem C01_violation : ¬ ∀ is : List Nat, is.Pairwise (· ≤ ·) → (∀ i ∈ is, i < 2 ^ 30) →
    ListRoundTrips is := by
  intro h
  obtain ⟨m, h1, l, _, hmem, h2, _⟩ := h [0, 0x3F000000] (by decide) (by decide)
  have : addIndices initMatches [0, 0x3F000000] =
    .ok { bytes := [0, 0xff, 0, 0, 0], max := 16, highest := 0x3F000000 } := by decide
  rw [this] at h1
  cases h1
  have h3 : readAll [0, 0xff, 0, 0, 0] = [0] := by decide
  simp only [h3] at h2
  have := (hmem 0x3F000000).mpr (by simp)
  rw [← h2] at this
  simp at this

/-- **C02**. No sequence of appended indices, sorted or not, makes the code write outside the
buffer, neither from a new list nor from one copied out of any file contents `b` (with any
indeterminate value `junk` in the variable the copy may leave unset). The only failure possible is
an assertion. -/
theorem C02_no_overflow (is : List Nat) :
    addIndices initMatches is ≠ .error .outOfBounds ∧
    ∀ junk b, addIndices (readerCopy junk b) is ≠ .error .outOfBounds := by
  have key : ∀ m, Fits m → addIndices m is ≠ .error .outOfBounds := by
    intro m hm
    rcases addIndices_fits is hm with ⟨m', h, _⟩ | h <;> rw [h] <;> simp
  exact ⟨key _ (by simp [Fits, initMatches]), fun junk b => key _ (readerCopy_fits junk b)⟩

/-- Appends do succeed: 40 messages with two byte gaps need several enlargements. -/
example : (addIndices initMatches ((List.range 40).map (· * 1000))).toOption.map
    (fun m => (m.bytes.length, m.max)) = some (79, 121) := by decide +kernel

end Mairix
