import Verif.Props.SearchTop
import Verif.Props.TerminalExamples
import Verif.Props.DiskMore
import Verif.Props.PostedExamples

/-!
# C82, C83: examples
-/

namespace Mairix
open Spec

/-- What is at some paths after a search over the database that the runs make, with results in the maildir `/r` of `exampleDisk`, and how the search ends. -/
def leftAfter (xs : List Indexing) (disc : Disc) (augment : Bool) (args paths : List Text) : Res (Option Fault × List (Option Node)) := do
  match ← indexMails exHash (utc 1589800000).dayTime exMd5 xs none with
  | none => .error .uninitialised
  | some file =>
    let E := searchTop (utc 1589800000).scan id exMd5 disc (fun _ => none) .maildir (bs "/r") false augment false false file args exampleDisk
    .ok (E.fault, paths.map E.disk.lstat)

/-- The message in a maildir, found by its body, is linked; the old results are gone. -/
example : leftAfter ([exIndexing false] ++ [exIndexing true]) (exIndexing true).disc false [bs "b:hello", bs "p:new"] [bs "/r/new/123456789.0.mairix", bs "/r/new/123456789.4.mairix", bs "/r/new/123456789.5.mairix"] =
    .ok (none, [some (.link (bs "/m/in/new/1.a")), none, none]) := by decide +kernel

/-- The message delivered last to an mbox is copied, without its last byte. -/
example : leftAfter ([pbIndexing false false] ++ [pbIndexing false true]) (pbIndexing false true).disc false [bs "b:noon"] [bs "/r/new/123456789.1.mairix", bs "/r/new/123456789.4.mairix"] =
    .ok (none, [some (.file (bs "X-source-folder: /m/box\n\nat noon")), none]) := by decide +kernel

/-- **C83 violated.** With a date that is none, the search ends with status 2, and the results of the search before, here a link and a copy, are lost. -/
theorem C83_refused_violation : leftAfter ([exIndexing false] ++ [exIndexing true]) (exIndexing true).disc false [bs "d:foo"] [bs "/r/new/123456789.4.mairix", bs "/r/new/123456789.5.mairix"] = .ok (some (.exit 2), [none, none]) ∧
    exampleDisk.lstat (bs "/r/new/123456789.4.mairix") = some (.link (bs "/mail/2")) ∧ exampleDisk.lstat (bs "/r/new/123456789.5.mairix") = some (.file (bs "Subject: c")) := by
  refine ⟨?_, ?_, ?_⟩ <;> decide +kernel

/-- With `-a` they are kept, as `C83_kept_partial` says. -/
example : makeFolder .maildir (bs "/r") exampleDisk = .ok exampleDisk ∧
    leftAfter ([exIndexing false] ++ [exIndexing true]) (exIndexing true).disc true [bs "d:foo"] [bs "/r/new/123456789.4.mairix", bs "/r/new/123456789.5.mairix"] =
      .ok (some (.exit 2), [some (.link (bs "/mail/2")), some (.file (bs "Subject: c"))]) := by
  refine ⟨?_, ?_⟩ <;> decide +kernel

theorem exampleDisk_roomy : Roomy exampleDisk (maildirSubs (bs "/r")) fun nm => bs "123456789." <+: nm := by
  intro f hf nm hnm x hx hst htaken
  obtain ⟨j, hj⟩ := lookup_of_lstat hx
  unfold Disk.lstat at hx
  rw [hj] at hx
  simp only [maildirSubs, List.mem_cons, List.not_mem_nil, or_false] at hf
  rcases hf with rfl | rfl
  · rw [exampleDisk_new.lookup hnm] at hj
    have := mem_of_lookup hj
    simp only [List.mem_cons, Prod.mk.injEq, List.not_mem_nil, or_false] at this
    rcases this with ⟨rfl, rfl⟩ | ⟨rfl, rfl⟩ | ⟨rfl, rfl⟩ | ⟨rfl, rfl⟩
    · exact absurd htaken (by decide)
    · exact absurd htaken (by decide)
    · cases hx; exact hst
    · cases hx; exact hst
  · rw [exampleDisk_cur.lookup hnm] at hj
    have := mem_of_lookup hj
    simp only [List.mem_cons, Prod.mk.injEq, List.not_mem_nil, or_false] at this
    rcases this with ⟨rfl, rfl⟩ | ⟨rfl, rfl⟩
    · exact absurd htaken (by decide)
    · exact absurd htaken (by decide)

theorem pbUnchanged : Unchanged (pbIndexing false false).disc (pbIndexing false true).disc := by
  intro p _ _ h
  exact absurd (show u32 (10 : Nat) = u32 (11 : Nat) from h) (by decide)

theorem pbGrown : GrownBox pbMk [pbIndexing false false] (pbIndexing false true) (bs "/m/box") (pbBox true) := by
  refine ⟨pbBox_at true, ?_, [pbBox false], .cons (.inr (pbBox_at false)) (.cons (.inr (pbBox_at true)) .nil), List.pairwise_pair.2 ⟨[pbSecond], rfl⟩⟩
  intro m hm
  simp only [pbBox, if_true, List.mem_cons, List.not_mem_nil, or_false] at hm
  rcases hm with rfl | rfl
  · exact pbFirst_ok _
  · exact pbSecond_ok _

theorem pbAll {p : Text} (h : Configured ⟨(pbDisc false true).fs, bs "/m", []⟩ pbItems .mbox p) : ∃ ms, GrownBox pbMk [pbIndexing false false] (pbIndexing false true) p ms := by
  have hp : p = bs "/m/box" := by
    obtain ⟨i, hi, q, h1, h2, ⟨st, h3, h4⟩, h5⟩ := h
    simp only [pbDisc] at h3
    split at h3
    · assumption
    · cases h3
  subst hp
  exact ⟨_, pbGrown⟩

/-- `C82_maildir_partial` applies to the runs of the example for C77 and to `exampleDisk`: a message in an mbox is copied if it satisfies the query. -/
example : ∃ file, indexMails exHash pbMk exMd5 ([pbIndexing false false] ++ [pbIndexing false true]) none = .ok (some file) ∧
    ∀ {scan dateRange}, ScansDates scan dateRange → ∀ {cs : List Cond} {args : List Text}, QueryWrittenAs dateRange cs args → (∀ c ∈ cs, Cond.Fits c) → ∀ imap,
      ∃ d', searchTop scan id exMd5 (pbIndexing false true).disc imap .maildir (bs "/r") false false false false file args exampleDisk = ⟨d', none⟩ ∧ Kept [3, 4] exampleDisk d' ∧
        ∀ y, TellsPosted pbSecond (bs "/m/box") y → (∀ c ∈ cs, c.Holds y) → TextIn d' (maildirSubs (bs "/r")) (bs "X-source-folder: /m/box\n\nat noon") := by
  have hall : ∀ {P : Indexing → Prop}, (∀ b, P (pbIndexing false b)) → ∀ y ∈ [pbIndexing false false] ++ [pbIndexing false true], P y := by
    intro P h y hy
    simp only [List.cons_append, List.nil_append, List.mem_cons, List.not_mem_nil, or_false] at hy
    rcases hy with rfl | rfl <;> exact h _
  have hrun := pbRuns.2
  unfold pbFound at hrun
  cases e : indexMails exHash pbMk exMd5 ([pbIndexing false false] ++ [pbIndexing false true]) none with
  | error f => rw [e] at hrun; cases hrun
  | ok o =>
    cases o with
    | none => rw [e] at hrun; simp [bind, Except.bind] at hrun
    | some file =>
      refine ⟨file, rfl, ?_⟩
      intro scan dateRange hs cs args hq hf imap
      obtain ⟨d', h1, h2, h3⟩ := C82_maildir_partial (by intro t; simp [exMd5]) (hall fun b => (⟨sorts_listed, sorts_extant, sorts_strcmp, sorts_sortable⟩ : LibraryOk (pbIndexing false b)))
        (hall (pbDiscOk false)) (hall fun b => ⟨_, pbItems, 20, by simp [pbIndexing, exIndexing], pbMeans false b, pbPathMax false b⟩) (pbMeans false true)
        (by intro y hy; rw [List.mem_singleton] at hy; subst hy; exact pbUnchanged) rfl (by intro y hy; rw [List.mem_singleton.1 hy]; rfl) (fun p hp => pbAll hp) e hs hq hf id (fun _ => .refl _) imap
        (d0 := exampleDisk) (d := exampleDisk) (dir := bs "/r") (by decide +kernel) exampleDisk_new exampleDisk_cur (by decide) exampleDisk_roomy
      refine ⟨d', h1, h2, fun y hy hcs => ?_⟩
      have := h3.boxes _ _ (pbConfigured false true) pbGrown pbSecond (by simp [pbBox]) y hy hcs
      rwa [show copyOf (bs "/m/box") pbSecond = bs "X-source-folder: /m/box\n\nat noon" by decide +kernel] at this

/-- `/mail` of `exampleDisk` meets what `C82_mh_partial` asks of a folder. -/
example : ensureDir exampleDisk (bs "/mail") = .ok exampleDisk ∧ Folder exampleDisk [1] (bs "/mail") 1 [(bs ".", 1), (bs "..", 0), (bs "1", 6), (bs "2", 7)] ∧
    Roomy exampleDisk [bs "/mail"] (fun nm => ∀ c ∈ nm, isDigit c = true) ∧ ∀ nm, NameOk nm → ∀ x, exampleDisk.lstat (child (bs "/mail") nm) = some x → ¬ Stays x → validMh nm = true := by
  have f : Folder exampleDisk [1] (bs "/mail") 1 [(bs ".", 1), (bs "..", 0), (bs "1", 6), (bs "2", 7)] := by
    refine ⟨by decide, by decide, by decide, ?_, rfl, by decide +kernel, by simp only [NameOk]; decide +kernel, ?_⟩
    · rw [show exampleDisk.start exampleDisk.cwd (bs "/mail") = 0 from by decide +kernel, show comps (bs "/mail") = [bs "mail"] from by decide +kernel,
        show exampleDisk.steps = 49 + 1 from rfl]
      exact .step (i := 1) (x := .dir [(bs ".", 1), (bs "..", 0), (bs "1", 6), (bs "2", 7)]) (by decide) (by decide +kernel) rfl (by simp) .done
    · intro x hx
      simp only [List.mem_cons, List.not_mem_nil, or_false] at hx
      rcases hx with rfl | rfl | rfl | rfl <;> exact ⟨_, rfl⟩
  have hall : ∀ nm, NameOk nm → ∀ x, exampleDisk.lstat (child (bs "/mail") nm) = some x → 0x2e ∈ nm ∧ (∃ es, x = .dir es) ∨ validMh nm = true ∧ ∃ t, x = .file t := by
    intro nm hnm x hx
    obtain ⟨j, hj⟩ := lookup_of_lstat hx
    unfold Disk.lstat at hx
    rw [hj] at hx
    rw [f.lookup hnm] at hj
    have := mem_of_lookup hj
    simp only [List.mem_cons, Prod.mk.injEq, List.not_mem_nil, or_false] at this
    rcases this with ⟨rfl, rfl⟩ | ⟨rfl, rfl⟩ | ⟨rfl, rfl⟩ | ⟨rfl, rfl⟩ <;> cases hx
    · exact .inl ⟨by decide, _, rfl⟩
    · exact .inl ⟨by decide, _, rfl⟩
    · exact .inr ⟨by decide, _, rfl⟩
    · exact .inr ⟨by decide, _, rfl⟩
  refine ⟨by decide +kernel, f, ?_, ?_⟩
  · intro g hg nm hnm x hx hst hv
    rw [List.mem_singleton] at hg
    subst hg
    rcases hall nm hnm x hx with ⟨h, -⟩ | ⟨-, t, rfl⟩
    · exact absurd (hv _ h) (by decide)
    · exact hst
  · intro nm hnm x hx hst
    rcases hall nm hnm _ hx with ⟨-, es, rfl⟩ | ⟨h, -⟩
    · exact absurd trivial hst
    · exact h

end Mairix
