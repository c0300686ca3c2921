import Verif.Props.TerminalDates
import Verif.Props.WholeExamples
import Verif.Props.PostedExamples

/-!
# C80, C81: examples
-/

namespace Mairix
open Spec

/-- What is written by searches after the runs, in Greenwich on 18 May 2020 (with a `gmtime` that is right for 3 February 2020). -/
def writtenAfter (xs : List Indexing) (disc : Disc) (args : List (List Text)) : Res (List (Res Text × Res Text)) := do
  match ← indexMails exHash (utc 1589800000).dayTime exMd5 xs none with
  | none => .ok []
  | some d => .ok (args.map fun a => (searchRaw (utc 1589800000).scan id d a false false,
      searchExcerpt (utc 1589800000).scan id (fun _ => ⟨1, 3, 1, 120⟩) (utc 1589800000).dayTime exMd5 disc (fun _ => none) d a false false))

/-- The runs of the example for C57, whose hypotheses are those of `C80_files_partial` and `C81_files_partial`, complete, and this is what is written. -/
theorem exWritten : writtenAfter ([exIndexing false] ++ [exIndexing true]) (exIndexing true).disc [[bs "b:hello"], [bs "s:soup"]] =
    .ok [(.ok (bs "/m/in/new/1.a\n/m/l/x/1\n"), .ok (bs "---------------------------------\n/m/in/new/1.a\n" ++ headerLines (fun _ => ⟨1, 3, 1, 120⟩) (exKept exDate).hdrs ++
      bs "---------------------------------\n/m/l/x/1\n" ++ headerLines (fun _ => ⟨1, 3, 1, 120⟩) (exKept exDate).hdrs)), (.ok [], .ok [])] := by decide +kernel

/-- The same for the mbox of the example for C77: the text of the second message is in bytes 92 to 100 of the file. -/
def boxWrittenAfter (xs : List Indexing) (args : List (List Text)) : Res (List (Res Text)) := do
  match ← indexMails exHash pbMk exMd5 xs none with
  | none => .ok []
  | some d => .ok (args.map fun a => searchRaw (fun _ => none) id d a false false)

theorem pbWritten : boxWrittenAfter ([pbIndexing false false] ++ [pbIndexing false true]) [[bs "b:hello"], [bs "b:noon"], []] =
    .ok [.ok (bs "mbox:/m/box [42,49)\n"), .ok (bs "mbox:/m/box [92,101)\n"), .ok (bs "mbox:/m/box [42,49)\nmbox:/m/box [92,101)\n")] := by decide +kernel

/-- `C80_files_partial` and `C81_files_partial` apply to the runs: the message `/m/l/x/1` is shown with its headers if and only if it satisfies the query. -/
example : ∃ file, indexMails exHash (utc 1589800000).dayTime exMd5 ([exIndexing false] ++ [exIndexing true]) none = .ok (some file) ∧
    ∀ {scan dateRange}, ScansDates scan dateRange → ∀ {cs : List Cond} {args : List Text}, QueryWrittenAs dateRange cs args → (∀ c ∈ cs, Cond.Fits c) → ∀ gmtime : Int → GmDate,
      ∃ parts : List (Hit × Text), searchExcerpt scan id gmtime (utc 1589800000).dayTime exMd5 (exIndexing true).disc (fun _ => none) file args false false =
          .ok (parts.flatMap fun x => List.replicate 33 0x2d ++ [0x0a] ++ x.1.line ++ x.2) ∧
        (∀ y, Tells (exKept exDate) (bs "/m/l/x/1") ((exIndexing true).disc.size (bs "/m/l/x/1")) y → (Hit.file (bs "/m/l/x/1") ∈ parts.map (·.1) ↔ ∀ c ∈ cs, c.Holds y)) := by
  have hall : ∀ {P : Indexing → Prop}, (∀ b, P (exIndexing b)) → ∀ y ∈ [exIndexing false] ++ [exIndexing true], P y := by
    intro P h y hy
    simp only [List.cons_append, List.nil_append, List.mem_cons, List.not_mem_nil, or_false] at hy
    rcases hy with rfl | rfl <;> exact h _
  have hrun := exWritten
  unfold writtenAfter at hrun
  cases e : indexMails exHash (utc 1589800000).dayTime exMd5 ([exIndexing false] ++ [exIndexing true]) none with
  | error f => rw [e] at hrun; cases hrun
  | ok o =>
    cases o with
    | none => rw [e] at hrun; simp [bind, Except.bind] at hrun
    | some file =>
      refine ⟨file, rfl, ?_⟩
      intro scan dateRange hs cs args hq hf gmtime
      obtain ⟨parts, h1, h2, h3, h4⟩ := C81_files_partial (by intro t; simp [exMd5]) (hall exLibrary) (hall exDiscOk)
        (hall fun b => ⟨exSetting, exItems, 20, by simp [exIndexing], exMeans, exPathMax⟩) exMeans
        (by intro y hy; rw [List.mem_singleton] at hy; subst hy; exact exUnchanged) rfl e hs hq hf id (fun _ => .refl _) gmtime (fun _ => none)
      have hfile : MessageFile exSetting exItems (bs "/m/l/x/1") := by
        obtain ⟨l, g1, g2⟩ := C51_messages (fuel := 21) exMeans exPathMax (by decide)
        have hm : (match listMessages exFs 21 exConfig with | .ok l => decide (⟨.file, bs "/m/l/x/1"⟩ ∈ l) | .error _ => false) = true := by decide +kernel
        rw [g1] at hm
        exact ((g2 _).1 (of_decide_eq_true hm)).2
      refine ⟨parts, h1, h3 (bs "/m/l/x/1") (exKept exDate) hfile ?_⟩
      refine ⟨⟨⟨.regular, 1, 32⟩, by decide +kernel, rfl⟩, ?_, exMessage, by decide +kernel, by decide +kernel, by rw [← exDate_stored.1]; exact exMessage_means _⟩
      rintro ⟨dir, hdir⟩
      have := congrArg List.getLast? hdir
      rw [List.getLast?_append, show (bs "/.gitignore").getLast? = some 0x65 from by decide, show (bs "/m/l/x/1").getLast? = some 0x31 from by decide] at this
      cases this

end Mairix
