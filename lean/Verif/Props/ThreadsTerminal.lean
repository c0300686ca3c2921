import Verif.Props.ThreadsTop
import Verif.Props.ThreadsWholeExamples
import Verif.Props.Terminal

/-!
# C89: threads, from the files to the terminal
-/

namespace Mairix
open Spec

theorem hitIs_isAt_inj {db : ReadDb} {i : Nat} {p : Text} {h : Hit} (h1 : HitIs db i h) (h2 : IsAt db i ⟨.file, p⟩) : h = .file p :=
  hitIs_unique h1 ⟨.file, h2⟩

/-- **C89 (partial).** Under the conditions of `C85_exact_partial`: a search with `-r -t` writes the paths of exactly the messages in the threads of those that satisfy the query, one line for each, and nothing else.
(Missing: mboxen, runs with purges, message files that are gone or changed.) -/
theorem C89_threads_partial {hashfn : Nat → Text → Nat} {mktime : Nat → Nat → Nat → Int} {md5 : Text → List UInt8} (hmd5 : ∀ t, (md5 t).length = 16) {xs : List Indexing} {x : Indexing} {file : Text}
    (hl : ∀ y ∈ xs ++ [x], LibraryOk y) (hd : ∀ y ∈ xs ++ [x], DiscOk y.disc)
    (hc : ∀ y ∈ xs ++ [x], ∃ s items, ∃ N < y.depth, Spec.Means y.config y.disc.fs s items ∧ PathMax y.disc.fs N)
    {s : Setting} {items : FolderType → List FolderItem} (hm : Spec.Means x.config x.disc.fs s items)
    (hu : ∀ y ∈ xs, Unchanged y.disc x.disc) (hf : x.fast = false) (e : indexMails hashfn mktime md5 (xs ++ [x]) none = .ok (some file))
    (hp : ∀ y ∈ xs ++ [x], y.purge = false) (hb : ∀ y ∈ xs ++ [x], y.config.mboxen = none) (hlast : ∀ y z, [y, z].Sublist (xs ++ [x]) → Lasts y z)
    (hmail : ∀ p, MessageFile s items p → IsFile x.disc.fs p → ∃ m, FileMeans mktime x.disc p m)
    {scan dateRange} (hsc : ScansDates scan dateRange) {cs : List Cond} {args : List Text} (hq : QueryWrittenAs dateRange cs args) (hfit : ∀ c ∈ cs, Cond.Fits c) (sort : List Nat → List Nat)
    (hsort : ∀ l, (sort l).Perm l) :
    ∃ paths : List Text, searchRaw scan sort file args true false = .ok (paths.flatMap fun p => p ++ bs "\n") ∧ paths.Nodup ∧
      ∀ p, p ∈ paths ↔
        ∃ q m y, SameThread mktime s items x.disc p q ∧ MessageFile s items q ∧ FileMeans mktime x.disc q m ∧ Tells m q (x.disc.size q) y ∧ ∀ c ∈ cs, c.Holds y := by
  obtain ⟨raw, view, a1, a2, a3⟩ := C85_exact_partial hmd5 hl hd hc hm hu hf e hp hb hlast hmail
  obtain ⟨raw', view', info, b1, b2, -, b4, b5, -⟩ := whole_view hmd5 hl hd hc hm hu hf e
  rw [a1] at b1
  cases b1
  rw [a2] at b2
  cases b2
  obtain ⟨found, f1, f2, f3⟩ := a3 hsc hq hfit sort
  obtain ⟨hits, h1, h2⟩ := raw_shown (whole_placed hmd5 hl hd hc e a1 a2) hsort f1
  obtain ⟨paths, rfl⟩ : ∃ paths : List Text, hits = paths.map .file := by
    have : ∀ h ∈ hits, ∃ p, h = .file p := by
      intro h hh
      obtain ⟨i, hi, hk⟩ := pairs_mem h1 hh
      obtain ⟨p, hat⟩ := f2 i hi
      exact ⟨p, hitIs_isAt_inj hk hat⟩
    clear h1 h2
    induction hits with
    | nil => exact ⟨[], rfl⟩
    | cons h t ih =>
      obtain ⟨p, rfl⟩ := this h (by simp)
      obtain ⟨ps, rfl⟩ := ih fun h hh => this h (by simp [hh])
      exact ⟨p :: ps, rfl⟩
  refine ⟨paths, ?_, ?_, ?_⟩
  · rw [searchRaw_ok a1 a2 f1 h2, List.flatMap_map]
    rfl
  · rw [List.nodup_iff_count]
    intro p
    exact Nat.le_trans (List.count_le_count_map (f := Hit.file) (x := p) (l := paths)) (hitIs_file_unique b4 b5 (found_live hsort f1).1 h1 (p := p))
  · intro p
    rw [← f3 p, ← hits_file b5 h1]
    simp

/-- The conditions are met: the example for C85, where the answer brings along the message it answers. -/
example : ∃ file, indexMails exHash (utc 1589800000).dayTime exMd5 ([twIndexing false] ++ [twIndexing false]) none = .ok (some file) ∧
    ∀ {scan dateRange}, ScansDates scan dateRange → ∀ {cs : List Cond} {args : List Text}, QueryWrittenAs dateRange cs args → (∀ c ∈ cs, Cond.Fits c) →
      ∃ paths : List Text, searchRaw scan id file args true false = .ok (paths.flatMap fun p => p ++ bs "\n") ∧ paths.Nodup ∧
        ∀ y, Tells twAnswerKept (bs "/m/l/x/1") twAnswer.length y → (∀ c ∈ cs, c.Holds y) → bs "/m/in/new/1.a" ∈ paths := by
  have hall : ∀ {P : Indexing → Prop}, P (twIndexing false) → ∀ y ∈ [twIndexing false] ++ [twIndexing false], P y := by
    intro P h y hy
    simp only [List.cons_append, List.nil_append, List.mem_cons, List.not_mem_nil, or_false, or_self] at hy
    rw [hy]
    exact h
  have hrun : threadsAfter ([twIndexing false] ++ [twIndexing false]) [] = .ok [] := by decide +kernel
  unfold threadsAfter at hrun
  cases e : indexMails exHash (utc 1589800000).dayTime exMd5 ([twIndexing false] ++ [twIndexing false]) none with
  | error f => rw [e] at hrun; cases hrun
  | ok o =>
    cases o with
    | none => rw [e] at hrun; simp [bind, Except.bind] at hrun
    | some file =>
      refine ⟨file, rfl, ?_⟩
      intro scan dateRange hs cs args hq hf
      obtain ⟨paths, h1, h2, h3⟩ := C89_threads_partial (by intro t; simp [exMd5]) (hall (⟨sorts_listed, sorts_extant, sorts_strcmp, sorts_sortable⟩ : LibraryOk (twIndexing false))) (hall twDiscOk)
        (hall ⟨exSetting, exItems, 20, by simp [twIndexing, exIndexing], exMeans, exPathMax⟩) exMeans (by intro y hy p _ _ _; rw [List.mem_singleton] at hy; subst hy; exact ⟨rfl, rfl, fun _ _ => rfl⟩) rfl e (hall rfl)
        (hall rfl) (by
          intro y z hs
          have hy := hall (P := (· = twIndexing false)) rfl y (hs.subset (by simp))
          have hz := hall (P := (· = twIndexing false)) rfl z (hs.subset (by simp))
          rw [hy, hz]
          exact twLasts) twMail hs hq hf id (fun _ => .refl _)
      refine ⟨paths, h1, h2, fun y hy hcs => (h3 _).2 ⟨_, _, y, twThread, exFile (by decide +kernel), twFiles.2, ?_, hcs⟩⟩
      rw [show (twIndexing false).disc.size (bs "/m/l/x/1") = twAnswer.length by decide +kernel]
      exact hy

end Mairix
