import Verif.Props.ThreadsWhole
import Verif.Props.WholeExamples

/-!
# C85: a message and its answer
-/

namespace Mairix
open Spec

def twFirst : Text := headerText [bs "Message-ID: <a@x>"] [] (bs "dinner\n")
def twAnswer : Text := headerText [bs "In-Reply-To: <a@x>"] [] (bs "yes\n")

def twFirstKept : Rfc822 := .mk ⟨none, none, none, none, some (bs " <a@x>"), none, none, 0, false, false, false⟩ (.cons (.plain (bs "dinner\n")) none .nil)
def twAnswerKept : Rfc822 := .mk ⟨none, none, none, none, none, some (bs " <a@x>"), none, 0, false, false, false⟩ (.cons (.plain (bs "yes\n")) none .nil)

theorem twFirst_means (mk : Nat → Nat → Nat → Int) : MimeMeans mk (.message twFirst twFirstKept) := by
  refine .message (fields := [bs "Message-ID: <a@x>"]) (headerOf_of (by decide +kernel) (by decide +kernel) (by decide +kernel) (unfolded_plain _ (by unfold Begins; decide))) ?_
    (.inl ⟨absent_field (by decide +kernel) (by decide +kernel), rfl⟩) (.inl ⟨absent_field (by decide +kernel) (by decide +kernel), rfl⟩) (.inl ⟨absent_field (by decide +kernel) (by decide +kernel), rfl⟩) (.untyped .none)
  refine ⟨⟨[], .skip (not_name (by decide +kernel) (by decide +kernel)) .nil, rfl⟩, ⟨[], .skip (not_name (by decide +kernel) (by decide +kernel)) .nil, rfl⟩, .inl ⟨absent_field (by decide +kernel) (by decide +kernel), rfl⟩,
    .inl ⟨absent_field (by decide +kernel) (by decide +kernel), rfl⟩,
    .inr ⟨[], bs "Message-ID: <a@x>", [], bs " <a@x>", bs " <a@x>", rfl, by simp, ⟨bs "Message-ID:", by decide +kernel, by decide +kernel⟩, valueMeans_of (by decide +kernel), rfl⟩,
    .inl ⟨absent_field (by decide +kernel) (by decide +kernel), rfl⟩, .inl ⟨absent_field (by decide +kernel) (by decide +kernel), rfl⟩, .inl ⟨absent_field (by decide +kernel) (by decide +kernel), rfl⟩, ?_, ?_, ?_⟩
  all_goals
    refine ⟨fun h => by simp [twFirstKept] at h, ?_⟩
    rintro ⟨f, hf, v, hv | hv, _⟩
    · exact absurd ⟨v, hv⟩ (absent_field (n := bs "status:") (by decide +kernel) (by decide +kernel) f hf)
    · exact absurd ⟨v, hv⟩ (absent_field (n := bs "x-status:") (by decide +kernel) (by decide +kernel) f hf)

theorem twAnswer_means (mk : Nat → Nat → Nat → Int) : MimeMeans mk (.message twAnswer twAnswerKept) := by
  refine .message (fields := [bs "In-Reply-To: <a@x>"]) (headerOf_of (by decide +kernel) (by decide +kernel) (by decide +kernel) (unfolded_plain _ (by unfold Begins; decide))) ?_
    (.inl ⟨absent_field (by decide +kernel) (by decide +kernel), rfl⟩) (.inl ⟨absent_field (by decide +kernel) (by decide +kernel), rfl⟩) (.inl ⟨absent_field (by decide +kernel) (by decide +kernel), rfl⟩) (.untyped .none)
  refine ⟨⟨[], .skip (not_name (by decide +kernel) (by decide +kernel)) .nil, rfl⟩, ⟨[], .skip (not_name (by decide +kernel) (by decide +kernel)) .nil, rfl⟩, .inl ⟨absent_field (by decide +kernel) (by decide +kernel), rfl⟩,
    .inl ⟨absent_field (by decide +kernel) (by decide +kernel), rfl⟩, .inl ⟨absent_field (by decide +kernel) (by decide +kernel), rfl⟩,
    .inr ⟨[], bs "In-Reply-To: <a@x>", [], bs " <a@x>", bs " <a@x>", rfl, by simp, ⟨bs "In-Reply-To:", by decide +kernel, by decide +kernel⟩, valueMeans_of (by decide +kernel), rfl⟩,
    .inl ⟨absent_field (by decide +kernel) (by decide +kernel), rfl⟩, .inl ⟨absent_field (by decide +kernel) (by decide +kernel), rfl⟩, ?_, ?_, ?_⟩
  all_goals
    refine ⟨fun h => by simp [twAnswerKept] at h, ?_⟩
    rintro ⟨f, hf, v, hv | hv, _⟩
    · exact absurd ⟨v, hv⟩ (absent_field (n := bs "status:") (by decide +kernel) (by decide +kernel) f hf)
    · exact absurd ⟨v, hv⟩ (absent_field (n := bs "x-status:") (by decide +kernel) (by decide +kernel) f hf)

def twText (p : Text) : Text := if p = bs "/m/in/new/1.a" then twFirst else if p = bs "/m/l/x/1" then twAnswer else exMessage

def twDisc : Disc where
  fs := exFs
  mtime _ := 10
  size p := (twText p).length
  data p := some (twText p)
  after _ := []

/-- A run over the two; in `later` the maildir is configured no more. -/
def twIndexing (later : Bool) : Indexing := { exIndexing false with disc := twDisc, config := if later then { exConfig with maildirs := none } else exConfig }

theorem twDiscOk : DiscOk twDisc where
  readdir := (exDiscOk false).readdir
  lstat := (exDiscOk false).lstat
  size := by
    intro p va h
    have hs : twFirst.length < 2 ^ 31 ∧ twAnswer.length < 2 ^ 31 ∧ exMessage.length < 2 ^ 31 := by decide +kernel
    cases h
    refine ⟨rfl, ?_⟩
    unfold twText
    split
    · exact hs.1
    · split
      · exact hs.2.1
      · exact hs.2.2

/-- What threaded searches find, by path. -/
def threadsAfter (xs : List Indexing) (args : List (List Text)) : Res (List (Res (List Text))) := do
  match ← indexMails exHash (utc 1589800000).dayTime exMd5 xs none with
  | none => .error .uninitialised
  | some d =>
    let view ← viewDb (← openDb d)
    .ok (args.map fun a => do
      let f ← doSearch (utc 1589800000).scan id view a true false
      .ok (f.filterMap fun i => (view.msgs[i]?).map (·.path)))

theorem twRuns : threadsAfter ([] ++ [twIndexing false]) [[bs "b:dinner"], [bs "b:yes"], [bs "b:noon"]] =
    .ok [.ok [bs "/m/in/new/1.a", bs "/m/l/x/1"], .ok [bs "/m/in/new/1.a", bs "/m/l/x/1"], .ok []] := by decide +kernel

/-- **C85 is false** in that only messages of threads with a match are found: a message that is there no more, here because its folder is not configured any more, still counts until the database is purged, and the answer to it is
found although it does not satisfy the query, nor does any other message that is there. -/
theorem C85_deleted_violation : threadsAfter ([twIndexing false] ++ [twIndexing true]) [[bs "b:dinner"]] = .ok [.ok [bs "/m/l/x/1"]] ∧
    foundAfter ([twIndexing false] ++ [twIndexing true]) [[bs "b:dinner"]] = .ok [.ok []] := by
  refine ⟨?_, ?_⟩ <;> decide +kernel

theorem twFiles : FileMeans (utc 1589800000).dayTime twDisc (bs "/m/in/new/1.a") twFirstKept ∧ FileMeans (utc 1589800000).dayTime twDisc (bs "/m/l/x/1") twAnswerKept := by
  have hgit : ∀ p : Text, p.getLast? ≠ some 0x65 → ¬ ∃ dir, p = dir ++ bs "/.gitignore" := by
    rintro p h ⟨dir, rfl⟩
    exact h (by rw [List.getLast?_append]; rfl)
  exact ⟨⟨⟨⟨.regular, 1, 31⟩, by decide +kernel, rfl⟩, hgit _ (by decide), twFirst, by decide +kernel, by decide +kernel, twFirst_means _⟩,
    ⟨⟨.regular, 1, 32⟩, by decide +kernel, rfl⟩, hgit _ (by decide), twAnswer, by decide +kernel, by decide +kernel, twAnswer_means _⟩

theorem twAngled : Angled (bs " <a@x>") (bs "a@x") :=
  ⟨[bs "a@x"], .term (pre := bs " ") (t := bs "a@x") (rest := []) (by decide) (by decide) (.none (by intro a b h; cases a <;> cases h)), by simp⟩

theorem exFile {p : Text} (hm : (match listMessages exFs 21 exConfig with | .ok l => decide (⟨.file, p⟩ ∈ l) | .error _ => false) = true) : MessageFile exSetting exItems p := by
  obtain ⟨l, g1, g2⟩ := C51_messages (fuel := 21) exMeans exPathMax (by decide)
  rw [g1] at hm
  exact ((g2 _).1 (of_decide_eq_true hm)).2

/-- The two files are in a thread. -/
theorem twThread : SameThread (utc 1589800000).dayTime exSetting exItems twDisc (bs "/m/in/new/1.a") (bs "/m/l/x/1") :=
  .more ⟨exFile (by decide +kernel), exFile (by decide +kernel), _, _, twFiles.1, twFiles.2, lower (bs "a@x"), true, false, .own rfl twAngled, .replyTo rfl twAngled⟩ .same

/-- The theorem applies. -/
example : ∃ file raw view, indexMails exHash (utc 1589800000).dayTime exMd5 ([] ++ [twIndexing false]) none = .ok (some file) ∧ openDb file = .ok raw ∧ viewDb raw = .ok view ∧
    ∀ {scan dateRange}, ScansDates scan dateRange → ∀ {cs : List Cond} {args : List Text}, QueryWrittenAs dateRange cs args → (∀ c ∈ cs, Cond.Fits c) →
      ∃ found, doSearch scan id view args true false = .ok found ∧ ∀ y, Tells twAnswerKept (bs "/m/l/x/1") twAnswer.length y → (∀ c ∈ cs, c.Holds y) → ∃ i ∈ found, IsAt view i ⟨.file, bs "/m/in/new/1.a"⟩ := by
  have hall : ∀ {P : Indexing → Prop}, P (twIndexing false) → ∀ y ∈ [] ++ [twIndexing false], P y := by
    intro P h y hy
    simp only [List.nil_append, List.mem_singleton] at hy
    rw [hy]
    exact h
  have hrun := twRuns
  unfold threadsAfter at hrun
  cases e : indexMails exHash (utc 1589800000).dayTime exMd5 ([] ++ [twIndexing false]) none with
  | error f => rw [e] at hrun; cases hrun
  | ok o =>
    cases o with
    | none => rw [e] at hrun; simp [bind, Except.bind] at hrun
    | some file =>
      obtain ⟨raw, view, h1, h2, h3⟩ := C85_complete_partial (by intro t; simp [exMd5]) (hall (⟨sorts_listed, sorts_extant, sorts_strcmp, sorts_sortable⟩ : LibraryOk (twIndexing false))) (hall twDiscOk)
        (hall ⟨exSetting, exItems, 20, by simp [twIndexing, exIndexing], exMeans, exPathMax⟩) exMeans (by intro y hy; cases hy) rfl e (hall rfl)
      refine ⟨file, raw, view, rfl, h1, h2, ?_⟩
      intro scan dateRange hs cs args hq hf
      obtain ⟨found, f1, -, f3⟩ := h3 hs hq hf id
      refine ⟨found, f1, fun y hy hcs => ?_⟩
      exact f3 _ _ _ twThread (exFile (by decide +kernel)) twFiles.2 y
        (by rw [show (twIndexing false).disc.size (bs "/m/l/x/1") = twAnswer.length by decide +kernel]; exact hy) hcs

theorem twMail : ∀ p, MessageFile exSetting exItems p → IsFile exFs p → ∃ m, FileMeans (utc 1589800000).dayTime twDisc p m := by
  intro p hp hf
  obtain ⟨l, g1, g2⟩ := C51_messages (fuel := 21) exMeans exPathMax (by decide)
  have hl : listMessages exFs 21 exConfig = .ok [⟨.file, bs "/m/in/new/1.a"⟩, ⟨.file, bs "/m/in/cur/2.b:2,S"⟩, ⟨.file, bs "/m/l/x/1"⟩, ⟨.file, bs "/m/l/x/17"⟩] := by decide +kernel
  have hin := (g2 ⟨.file, p⟩).2 ⟨rfl, hp⟩
  rw [g1] at hl
  cases hl
  simp only [List.mem_cons, Listed.mk.injEq, true_and, List.not_mem_nil, or_false] at hin
  have hgit : ∀ p : Text, p.getLast? ≠ some 0x65 → ¬ ∃ dir, p = dir ++ bs "/.gitignore" := by
    rintro p h ⟨dir, rfl⟩
    exact h (by rw [List.getLast?_append]; rfl)
  rcases hin with rfl | rfl | rfl | rfl
  · exact ⟨_, twFiles.1⟩
  · exact ⟨_, hf, hgit _ (by decide), exMessage, by decide +kernel, by decide +kernel, exMessage_means _⟩
  · exact ⟨_, twFiles.2⟩
  · exact ⟨_, hf, hgit _ (by decide), exMessage, by decide +kernel, by decide +kernel, exMessage_means _⟩

theorem twLasts : Lasts (twIndexing false) (twIndexing false) := by
  intro s items s' items' h1 h2 p hp
  obtain ⟨l, g1, g2⟩ := C51_messages (fuel := 21) h1 exPathMax (by decide)
  obtain ⟨l', g1', g2'⟩ := C51_messages (fuel := 21) h2 exPathMax (by decide)
  rw [g1] at g1'
  cases g1'
  exact ⟨((g2' _).1 ((g2 ⟨.file, p⟩).2 ⟨rfl, hp⟩)).2, fun h => ⟨h, rfl, show (0 : Int) ≤ 10 by decide, show (10 : Int) < 2 ^ 32 by decide⟩⟩

/-- After the second of two runs that find the same messages, `C85_exact_partial` applies too. -/
example : ∃ file raw view, indexMails exHash (utc 1589800000).dayTime exMd5 ([twIndexing false] ++ [twIndexing false]) none = .ok (some file) ∧ openDb file = .ok raw ∧ viewDb raw = .ok view ∧
    ∀ {scan dateRange}, ScansDates scan dateRange → ∀ {cs : List Cond} {args : List Text}, QueryWrittenAs dateRange cs args → (∀ c ∈ cs, Cond.Fits c) →
      ∃ found, doSearch scan id view args true false = .ok found ∧ ∀ p, (∃ i ∈ found, IsAt view i ⟨.file, p⟩) ↔ ∃ q m y, SameThread (utc 1589800000).dayTime exSetting exItems twDisc p q ∧ MessageFile exSetting exItems q ∧
        FileMeans (utc 1589800000).dayTime twDisc q m ∧ Tells m q (twDisc.size q) y ∧ ∀ c ∈ cs, c.Holds y := by
  have hall : ∀ {P : Indexing → Prop}, P (twIndexing false) → ∀ y ∈ [twIndexing false] ++ [twIndexing false], P y := by
    intro P h y hy
    simp only [List.cons_append, List.nil_append, List.mem_cons, List.not_mem_nil, or_false, or_self] at hy
    rw [hy]
    exact h
  have hrun : threadsAfter ([twIndexing false] ++ [twIndexing false]) [] = .ok [] := by decide +kernel
  unfold threadsAfter at hrun
  cases e : indexMails exHash (utc 1589800000).dayTime exMd5 ([twIndexing false] ++ [twIndexing false]) none with
  | error f => rw [e] at hrun; cases hrun
  | ok o =>
    cases o with
    | none => rw [e] at hrun; simp [bind, Except.bind] at hrun
    | some file =>
      obtain ⟨raw, view, h1, h2, h3⟩ := C85_exact_partial (by intro t; simp [exMd5]) (hall (⟨sorts_listed, sorts_extant, sorts_strcmp, sorts_sortable⟩ : LibraryOk (twIndexing false))) (hall twDiscOk)
        (hall ⟨exSetting, exItems, 20, by simp [twIndexing, exIndexing], exMeans, exPathMax⟩) exMeans (by intro y hy p _ _ _; rw [List.mem_singleton] at hy; subst hy; exact ⟨rfl, rfl, fun _ _ => rfl⟩) rfl e (hall rfl)
        (hall rfl) (by
          intro y z hs
          have hy := hall (P := (· = twIndexing false)) rfl y (hs.subset (by simp))
          have hz := hall (P := (· = twIndexing false)) rfl z (hs.subset (by simp))
          rw [hy, hz]
          exact twLasts) twMail
      refine ⟨file, raw, view, rfl, h1, h2, ?_⟩
      intro scan dateRange hs cs args hq hf
      obtain ⟨found, f1, -, f3⟩ := h3 hs hq hf id
      exact ⟨found, f1, f3⟩

end Mairix
