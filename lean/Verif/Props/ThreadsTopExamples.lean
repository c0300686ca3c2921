import Verif.Props.ThreadsTop
import Verif.Props.ThreadsWholeExamples
import Verif.Props.SearchTopExamples

/-!
# C87: an example
-/

namespace Mairix
open Spec

/-- `C87_maildir_partial` applies to the runs of the example for C85 and to `exampleDisk`: if the answer satisfies the query then what it answers is in the folder. -/
example : ∃ file, indexMails exHash (utc 1589800000).dayTime exMd5 ([twIndexing false] ++ [twIndexing false]) none = .ok (some file) ∧
    ∀ {scan dateRange}, ScansDates scan dateRange → ∀ {cs : List Cond} {args : List Text}, QueryWrittenAs dateRange cs args → (∀ c ∈ cs, Cond.Fits c) → ∀ imap,
      ∃ d', searchTop scan id exMd5 twDisc imap .maildir (bs "/r") true false false false file args exampleDisk = ⟨d', none⟩ ∧ Kept [3, 4] exampleDisk d' ∧
        ∀ y, Tells twAnswerKept (bs "/m/l/x/1") twAnswer.length y → (∀ c ∈ cs, c.Holds y) → LinkIn d' (maildirSubs (bs "/r")) (bs "/m/in/new/1.a") := by
  have hall : ∀ {P : Indexing → Prop}, P (twIndexing false) → ∀ y ∈ [twIndexing false] ++ [twIndexing false], P y := by
    intro P h y hy
    simp only [List.cons_append, List.nil_append, List.mem_cons, List.not_mem_nil, or_false, or_self] at hy
    rw [hy]
    exact h
  have hrun : threadsAfter ([twIndexing false] ++ [twIndexing false]) [] = .ok [] := by decide +kernel
  unfold threadsAfter at hrun
  cases e : indexMails exHash (utc 1589800000).dayTime exMd5 ([twIndexing false] ++ [twIndexing false]) none with
  | error f => rw [e] at hrun; cases hrun
  | ok o =>
    cases o with
    | none => rw [e] at hrun; simp [bind, Except.bind] at hrun
    | some file =>
      refine ⟨file, rfl, ?_⟩
      intro scan dateRange hs cs args hq hf imap
      obtain ⟨d', h1, h2, -, -, h3⟩ := C87_maildir_partial (by intro t; simp [exMd5]) (hall (⟨sorts_listed, sorts_extant, sorts_strcmp, sorts_sortable⟩ : LibraryOk (twIndexing false))) (hall twDiscOk)
        (hall ⟨exSetting, exItems, 20, by simp [twIndexing, exIndexing], exMeans, exPathMax⟩) exMeans (by intro y hy p _ _ _; rw [List.mem_singleton] at hy; subst hy; exact ⟨rfl, rfl, fun _ _ => rfl⟩) rfl e (hall rfl)
        (hall rfl) (by
          intro y z hs
          have hy := hall (P := (· = twIndexing false)) rfl y (hs.subset (by simp))
          have hz := hall (P := (· = twIndexing false)) rfl z (hs.subset (by simp))
          rw [hy, hz]
          exact twLasts) twMail hs hq hf id (fun _ => .refl _) imap
        (d0 := exampleDisk) (d := exampleDisk) (dir := bs "/r") (by decide +kernel) exampleDisk_new exampleDisk_cur (by decide) exampleDisk_roomy
      refine ⟨d', h1, h2, fun y hy hcs => (h3 _).2 ⟨_, _, y, twThread, exFile (by decide +kernel), twFiles.2, ?_, hcs⟩⟩
      rw [show (twIndexing false).disc.size (bs "/m/l/x/1") = twAnswer.length by decide +kernel]
      exact hy

end Mairix
