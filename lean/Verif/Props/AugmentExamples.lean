import Verif.Props.Augment
import Verif.Props.ThreadsTopExamples

/-!
# C88: examples
-/

namespace Mairix
open Spec

/-- What there is at some paths after the results of a search with `-a` are written. -/
def addedAt (l : List (Nat × DbMsg × Source)) (paths : List Text) : Res (List (Option Node)) := do
  let d ← searchMaildir exampleDisk (bs "/r") true false l
  .ok (paths.map d.lstat)

/-- A message file as a result. -/
def fileResult (i : Nat) (path : Text) : Nat × DbMsg × Source := (i, { typeAndFlags := DB_MSG_FILE, path := path, mbix := 0, msgix := 0, mtime := 0, size := 0, date := 0, tid := 0 }, ⟨[], none⟩)

/-- **C88 violated** if the database is changed between the searches: the name of a result is made from its number in the database. In the folder is a link to `/mail/2`, which had number 4 when it was found; now `/in/new/1` has this
number and is found, and it is not added, without any notice; with another number it is. -/
theorem C88_changed_violation : addedAt [fileResult 4 (bs "/in/new/1")] [bs "/r/new/123456789.4.mairix", bs "/r/cur/123456789.4.mairix"] = .ok [some (.link (bs "/mail/2")), none] ∧
    addedAt [fileResult 3 (bs "/in/new/1")] [bs "/r/new/123456789.4.mairix", bs "/r/new/123456789.3.mairix"] = .ok [some (.link (bs "/mail/2")), some (.link (bs "/in/new/1"))] := by
  constructor <;> decide +kernel

theorem exNoMbox (p : Text) : ¬ Configured exSetting exItems .mbox p := by
  rintro ⟨i, hi, -⟩
  cases hi

theorem exampleDisk_outside : Outside exampleDisk [3, 4] (bs "/r") ∧ Outside exampleDisk [3, 4] (bs "/r" ++ bs "/tmp") := by
  refine ⟨⟨by decide, 2, _, ?_, rfl⟩, ⟨by decide, 5, _, ?_, rfl⟩⟩
  · rw [show exampleDisk.start exampleDisk.cwd (bs "/r") = 0 from by decide +kernel, show comps (bs "/r") = [bs "r"] from by decide +kernel, show exampleDisk.steps = 49 + 1 from rfl]
    exact .step (i := 2) (x := .dir [(bs ".", 2), (bs "..", 0), (bs "new", 3), (bs "cur", 4), (bs "tmp", 5)]) (by decide) (by decide +kernel) rfl (by simp) .done
  · rw [show exampleDisk.start exampleDisk.cwd (bs "/r" ++ bs "/tmp") = 0 from by decide +kernel, show comps (bs "/r" ++ bs "/tmp") = [bs "r", bs "tmp"] from by decide +kernel, show exampleDisk.steps = 48 + 1 + 1 from rfl]
    exact .step (i := 2) (x := .dir [(bs ".", 2), (bs "..", 0), (bs "new", 3), (bs "cur", 4), (bs "tmp", 5)]) (by decide) (by decide +kernel) rfl (by simp)
      (.step (i := 5) (x := .dir [(bs ".", 5), (bs "..", 2)]) (by decide) (by decide +kernel) rfl (by simp) .done)

/-- `C88_augment_partial` applies to the runs of the example for C85 and to `exampleDisk`. -/
example : ∃ file, indexMails exHash (utc 1589800000).dayTime exMd5 ([twIndexing false] ++ [twIndexing false]) none = .ok (some file) ∧
    ∀ {scan dateRange}, ScansDates scan dateRange → ∀ {cs cs' : List Cond} {args args' : List Text}, QueryWrittenAs dateRange cs args → (∀ c ∈ cs, Cond.Fits c) → QueryWrittenAs dateRange cs' args' → (∀ c ∈ cs', Cond.Fits c) → ∀ imap,
      ∃ d1 d', searchTop scan id exMd5 twDisc imap .maildir (bs "/r") false false false false file args exampleDisk = ⟨d1, none⟩ ∧ searchTop scan id exMd5 twDisc imap .maildir (bs "/r") false true false false file args' d1 = ⟨d', none⟩ ∧
        ∀ y, Tells twAnswerKept (bs "/m/l/x/1") twAnswer.length y → (LinkIn d' (maildirSubs (bs "/r")) (bs "/m/l/x/1") ↔ (∀ c ∈ cs, c.Holds y) ∨ ∀ c ∈ cs', c.Holds y) := by
  have hall : ∀ {P : Indexing → Prop}, P (twIndexing false) → ∀ y ∈ [twIndexing false] ++ [twIndexing false], P y := by
    intro P h y hy
    simp only [List.cons_append, List.nil_append, List.mem_cons, List.not_mem_nil, or_false, or_self] at hy
    rw [hy]
    exact h
  have hrun : threadsAfter ([twIndexing false] ++ [twIndexing false]) [] = .ok [] := by decide +kernel
  unfold threadsAfter at hrun
  cases e : indexMails exHash (utc 1589800000).dayTime exMd5 ([twIndexing false] ++ [twIndexing false]) none with
  | error f => rw [e] at hrun; cases hrun
  | ok o =>
    cases o with
    | none => rw [e] at hrun; simp [bind, Except.bind] at hrun
    | some file =>
      refine ⟨file, rfl, ?_⟩
      intro scan dateRange hs cs cs' args args' hq hf hq' hf' imap
      obtain ⟨d1, d', h1, h2, -, -, -, -, h3⟩ := C88_augment_partial (by intro t; simp [exMd5]) (hall (⟨sorts_listed, sorts_extant, sorts_strcmp, sorts_sortable⟩ : LibraryOk (twIndexing false))) (hall twDiscOk)
        (hall ⟨exSetting, exItems, 20, by simp [twIndexing, exIndexing], exMeans, exPathMax⟩) exMeans (by intro y hy p _ _ _; rw [List.mem_singleton] at hy; subst hy; exact ⟨rfl, rfl, fun _ _ => rfl⟩) rfl
        (by intro y hy; rw [List.mem_singleton.1 hy]) exNoMbox e hs id (fun _ => .refl _) imap
        (d0 := exampleDisk) (d := exampleDisk) (dir := bs "/r") (by decide +kernel) exampleDisk_new exampleDisk_cur (by decide) exampleDisk_roomy exampleDisk_outside.1 exampleDisk_outside.2
        hq hf (.cons hq' .nil) (by intro c hc; rw [List.mem_singleton.1 hc]; exact hf')
      cases h2 with
      | more g1 g2 =>
        cases g2
        refine ⟨d1, d', h1, g1, fun y hy => ?_⟩
        rw [h3 _ _ (exFile (by decide +kernel)) twFiles.2 y (by rw [show (twIndexing false).disc.size (bs "/m/l/x/1") = twAnswer.length by decide +kernel]; exact hy)]
        simp

end Mairix
