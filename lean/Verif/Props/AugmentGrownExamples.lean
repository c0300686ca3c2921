import Verif.Props.AugmentGrown
import Verif.Props.AugmentExamples
import Verif.Props.NumbersExamples

/-!
# C88: an example with a run between the searches
-/

namespace Mairix
open Spec

/-- The searches of the example: one after the first of the runs of the example for C91, and one after the second, when a file has been changed. -/
def grownSearch (second : Bool) (file : Text) (cs : List Cond) (args : List Text) : BoxSearch :=
  if second then ⟨[exIndexing false], keepIndexing, exSetting, exItems, file, cs, args⟩ else ⟨[], exIndexing false, exSetting, exItems, file, cs, args⟩

theorem ran_of_places {xs : List Indexing} {l : List (Text × UInt8)} (h : placesAfter xs = .ok l) (hl : l ≠ []) : ∃ file, indexMails exHash (utc 1589800000).dayTime exMd5 xs none = .ok (some file) := by
  unfold placesAfter at h
  cases e : indexMails exHash (utc 1589800000).dayTime exMd5 xs none with
  | error f => rw [e] at h; cases h
  | ok o =>
    cases o with
    | none =>
      rw [e] at h
      simp only [bind, Except.bind, Except.ok.injEq] at h
      exact absurd h.symm hl
    | some file => exact ⟨file, rfl⟩

theorem grownFirst {file : Text} {cs : List Cond} {args : List Text} {dateRange} (e : indexMails exHash (utc 1589800000).dayTime exMd5 [exIndexing false] none = .ok (some file)) (hq : QueryWrittenAs dateRange cs args)
    (hf : ∀ c ∈ cs, Cond.Fits c) : (grownSearch false file cs args).Prepared exHash (utc 1589800000).dayTime exMd5 dateRange where
  library := by intro y hy; rw [List.mem_singleton.1 hy]; exact exLibrary false
  discs := by intro y hy; rw [List.mem_singleton.1 hy]; exact exDiscOk false
  configs := by intro y hy; rw [List.mem_singleton.1 hy]; exact ⟨exSetting, exItems, 20, by simp [grownSearch, exIndexing], exMeans, exPathMax⟩
  means := exMeans
  unchanged := by intro y hy; cases hy
  careful := rfl
  after := by intro y hy; cases hy
  grown := fun p hp => absurd hp (exNoMbox p)
  runs := e
  written := hq
  fits := hf

theorem grownSecond {file : Text} {cs : List Cond} {args : List Text} {dateRange} (e : indexMails exHash (utc 1589800000).dayTime exMd5 ([exIndexing false] ++ [keepIndexing]) none = .ok (some file)) (hq : QueryWrittenAs dateRange cs args)
    (hf : ∀ c ∈ cs, Cond.Fits c) : (grownSearch true file cs args).Prepared exHash (utc 1589800000).dayTime exMd5 dateRange := by
  have hall : ∀ {P : Indexing → Prop}, P (exIndexing false) → P keepIndexing → ∀ y ∈ [exIndexing false] ++ [keepIndexing], P y := by
    intro P h h' y hy
    simp only [List.nil_append, List.cons_append, List.mem_cons, List.not_mem_nil, or_false] at hy
    rcases hy with rfl | rfl
    · exact h
    · exact h'
  exact {
    library := hall (exLibrary false) ⟨sorts_listed, sorts_extant, sorts_strcmp, sorts_sortable⟩
    discs := hall (exDiscOk false) (exDiscOk true)
    configs := hall ⟨exSetting, exItems, 20, by simp [exIndexing], exMeans, exPathMax⟩ ⟨exSetting, exItems, 20, by simp [keepIndexing, exIndexing], exMeans, exPathMax⟩
    means := exMeans
    unchanged := by intro y hy; rw [List.mem_singleton.1 hy]; exact exUnchanged
    careful := rfl
    after := by intro y hy; rw [List.mem_singleton.1 hy]; rfl
    grown := fun p hp => absurd hp (exNoMbox p)
    runs := e
    written := hq
    fits := hf }

/-- `C88_grown_partial` applies to them and to `exampleDisk`: the file that has become a copy of the other one can be among the results of the second search. -/
example : ∃ file file', ∀ {scan dateRange}, ScansDates scan dateRange → ∀ {cs cs' : List Cond} {args args' : List Text}, QueryWrittenAs dateRange cs args → (∀ c ∈ cs, Cond.Fits c) → QueryWrittenAs dateRange cs' args' →
    (∀ c ∈ cs', Cond.Fits c) → ∀ imap, ∃ d', SearchesIntoMaildir scan id exMd5 imap (bs "/r") false [grownSearch false file cs args, grownSearch true file' cs' args'] exampleDisk d' ∧
      ∀ y, Tells (exKept exDate) (bs "/m/l/x/1") (keepIndexing.disc.size (bs "/m/l/x/1")) y → (∀ c ∈ cs', c.Holds y) → LinkIn d' (maildirSubs (bs "/r")) (bs "/m/l/x/1") := by
  obtain ⟨file, e⟩ := ran_of_places keepRuns.1 (by simp)
  obtain ⟨file', e'⟩ := ran_of_places keepRuns.2.1 (by simp)
  refine ⟨file, file', ?_⟩
  intro scan dateRange hs cs cs' args args' hq hf hq' hf' imap
  obtain ⟨d', h1, -, -, -, h2⟩ := C88_grown_partial (md5 := exMd5) (by intro t; simp [exMd5]) hs (q := grownSearch false file cs args) (qs := [grownSearch true file' cs' args'])
    (by
      intro a ha
      rcases List.mem_cons.1 ha with rfl | ha
      · exact grownFirst e hq hf
      · rw [List.mem_singleton.1 ha]; exact grownSecond e' hq' hf')
    (by
      intro a ha
      rcases List.mem_cons.1 ha with rfl | ha
      · exact exNoMbox
      · rw [List.mem_singleton.1 ha]; exact exNoMbox)
    (.cons (by intro b hb; rw [List.mem_singleton.1 hb]; exact ⟨[keepIndexing], by intro y hy; rw [List.mem_singleton.1 hy]; rfl, rfl⟩) (.cons (by simp) .nil))
    id (fun _ => .refl _) imap (d0 := exampleDisk) (d := exampleDisk) (dir := bs "/r") (by decide +kernel) exampleDisk_new exampleDisk_cur (by decide) exampleDisk_roomy exampleDisk_outside.1 exampleDisk_outside.2
  refine ⟨d', h1, fun y hy hcs => ?_⟩
  refine h2 _ (List.mem_cons_of_mem _ (List.mem_singleton.2 rfl)) _ (exKept exDate) (exFile (by decide +kernel)) ?_ y hy hcs
  show FileMeans (utc 1589800000).dayTime keepIndexing.disc (bs "/m/l/x/1") (exKept exDate)
  refine ⟨⟨⟨.regular, 1, 32⟩, by decide +kernel, rfl⟩, ?_, exMessage, by decide +kernel, by decide +kernel, by rw [← exDate_stored.1]; exact exMessage_means _⟩
  rintro ⟨dir, h⟩
  have := congrArg List.getLast? h
  rw [List.getLast?_append, show List.getLast? (bs "/m/l/x/1") = some 0x31 by decide, show List.getLast? (bs "/.gitignore") = some 0x65 by decide] at this
  simp at this

end Mairix
