import Verif.Props.AugmentBoxes
import Verif.Props.AugmentMbox
import Verif.Props.AugmentExamples

/-!
# C88: an example with messages in an mbox
-/

namespace Mairix
open Spec

/-- `C88_boxes_partial` applies to the runs of the example for C77 and to `exampleDisk`: both messages of the mbox are copied if they satisfy one of the queries, be it both. -/
example : ∃ file, ∀ {scan dateRange}, ScansDates scan dateRange → ∀ {cs cs' : List Cond} {args args' : List Text}, QueryWrittenAs dateRange cs args → (∀ c ∈ cs, Cond.Fits c) → QueryWrittenAs dateRange cs' args' →
    (∀ c ∈ cs', Cond.Fits c) → ∀ imap,
      ∃ d1 d', searchTop scan id exMd5 (pbIndexing false true).disc imap .maildir (bs "/r") false false false false file args exampleDisk = ⟨d1, none⟩ ∧
        searchTop scan id exMd5 (pbIndexing false true).disc imap .maildir (bs "/r") false true false false file args' d1 = ⟨d', none⟩ ∧
        searchTop scan id exMd5 (pbIndexing false true).disc imap .maildir (bs "/r") false true false false file args d' = ⟨d', none⟩ ∧
        ∀ m ∈ [pbFirst, pbSecond], ∀ y, TellsPosted m (bs "/m/box") y → (∀ c ∈ cs, c.Holds y) ∨ (∀ c ∈ cs', c.Holds y) → TextIn d' (maildirSubs (bs "/r")) (copyOf (bs "/m/box") m) := by
  obtain ⟨file, e⟩ := pbComplete true
  refine ⟨file, ?_⟩
  intro scan dateRange hs cs cs' args args' hq hf hq' hf' imap
  have hp := pbPrepared e hq hf
  obtain ⟨d1, d', h1, h2, -, h3, h4⟩ := C88_boxes_partial (md5 := exMd5) (by intro t; simp [exMd5]) hp.library hp.discs hp.configs hp.means hp.unchanged hp.careful hp.after hp.grown e hs id (fun _ => .refl _) imap
    (d0 := exampleDisk) (d := exampleDisk) (dir := bs "/r") (by decide +kernel) exampleDisk_new exampleDisk_cur (by decide) exampleDisk_roomy exampleDisk_outside.1 exampleDisk_outside.2
    hq hf (.cons hq' .nil) (by intro c hc; rw [List.mem_singleton.1 hc]; exact hf')
  cases h2 with
  | more g1 g2 =>
    cases g2
    refine ⟨d1, d', h1, g1, h4 _ (by simp), fun m hm y hy hcs => ?_⟩
    refine h3.boxes _ _ (pbConfigured false true) pbGrown m (by simpa [pbBox] using hm) y hy ?_
    rcases hcs with h | h
    · exact ⟨cs, by simp, h⟩
    · exact ⟨cs', by simp, h⟩

end Mairix
