import Verif.Props.Numbers
import Verif.Props.ThreadsWholeExamples

/-!
# C91: an example
-/

namespace Mairix
open Spec

/-- The second of the runs of the example for C57, without purging. -/
def keepIndexing : Indexing := { exIndexing true with purge := false }

/-- The paths and the types of the messages, by their numbers. -/
def placesAfter (xs : List Indexing) : Res (List (Text × UInt8)) := do
  match ← indexMails exHash (utc 1589800000).dayTime exMd5 xs none with
  | none => .ok []
  | some d =>
    let view ← viewDb (← openDb d)
    .ok (view.msgs.map fun m => (m.path, m.type))

/-- The numbers in the example below. -/
theorem keepRuns :
    placesAfter [exIndexing false] = .ok [(bs "/m/in/new/1.a", DB_MSG_FILE), (bs "/m/l/x/1", DB_MSG_FILE)] ∧
    placesAfter ([exIndexing false] ++ [keepIndexing]) = .ok [(bs "/m/in/new/1.a", DB_MSG_FILE), ([], DB_MSG_DEAD), (bs "/m/l/x/1", DB_MSG_FILE)] ∧
    placesAfter ([exIndexing false] ++ [exIndexing true]) = .ok [(bs "/m/in/new/1.a", DB_MSG_FILE), (bs "/m/l/x/1", DB_MSG_FILE)] := by
  refine ⟨?_, ?_, ?_⟩ <;> decide +kernel

/-- All hypotheses of `C91_numbers` are met. Between the runs one file is changed: it gets a new number, and the old one is not used again, while the other file keeps its number, as the theorem says. With purging the number is used
again (`keepRuns`). -/
example : (∀ y ∈ [] ++ [exIndexing false] ++ [keepIndexing], LibraryOk y) ∧ (∀ y ∈ [] ++ [exIndexing false] ++ [keepIndexing], DiscOk y.disc) ∧
    (∀ y ∈ [] ++ [exIndexing false] ++ [keepIndexing], ∃ s items, ∃ N < y.depth, Spec.Means y.config y.disc.fs s items ∧ PathMax y.disc.fs N) ∧
    (∀ y ∈ [keepIndexing], y.purge = false) ∧ (exIndexing false).fast = false ∧
    (∀ y ∈ [keepIndexing], (∃ s items, Spec.Means y.config y.disc.fs s items ∧ MessageFile s items (bs "/m/in/new/1.a")) ∧
      (y.fast = true ∨ IsFile y.disc.fs (bs "/m/in/new/1.a") ∧ y.disc.mtime (bs "/m/in/new/1.a") = (exIndexing false).disc.mtime (bs "/m/in/new/1.a"))) ∧
    0 ≤ (exIndexing false).disc.mtime (bs "/m/in/new/1.a") ∧ (exIndexing false).disc.mtime (bs "/m/in/new/1.a") < 2 ^ 32 := by
  have hall : ∀ {P : Indexing → Prop}, P (exIndexing false) → P keepIndexing → ∀ y ∈ [] ++ [exIndexing false] ++ [keepIndexing], P y := by
    intro P h h' y hy
    simp only [List.nil_append, List.cons_append, List.mem_cons, List.not_mem_nil, or_false] at hy
    rcases hy with rfl | rfl
    · exact h
    · exact h'
  refine ⟨hall (exLibrary false) ⟨sorts_listed, sorts_extant, sorts_strcmp, sorts_sortable⟩, hall (exDiscOk false) (exDiscOk true),
    hall ⟨exSetting, exItems, 20, by simp [exIndexing], exMeans, exPathMax⟩ ⟨exSetting, exItems, 20, by simp [keepIndexing, exIndexing], exMeans, exPathMax⟩,
    by intro y hy; rw [List.mem_singleton.1 hy]; rfl, rfl, ?_, by decide +kernel, by decide +kernel⟩
  intro y hy
  rw [List.mem_singleton.1 hy]
  exact ⟨⟨exSetting, exItems, exMeans, exFile (by decide +kernel)⟩, .inr ⟨⟨⟨.regular, 1, 31⟩, by decide +kernel, rfl⟩, by decide +kernel⟩⟩

end Mairix
