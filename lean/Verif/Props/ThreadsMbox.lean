import Verif.Props.ThreadsTop
import Verif.Props.ThreadsWholeExamples
import Verif.Props.SearchMbox

/-!
# C87: threads, with an mbox for the results
-/

namespace Mairix
open Spec

/-- The file at the beginning of the chain is a message file, if the one at the end is. -/
theorem sameThread_file {mktime : Nat → Nat → Nat → Int} {s : Setting} {items : FolderType → List FolderItem} {d : Disc} {p q : Text} (h : SameThread mktime s items d p q) {m : Rfc822}
    (hq : FileMeans mktime d q m) : ∃ m', FileMeans mktime d p m' := by
  cases h with
  | same => exact ⟨m, hq⟩
  | more h _ =>
    obtain ⟨_, _, m', _, h1, _⟩ := h
    exact ⟨m', h1⟩

theorem appendedFor_file {data : Text → Option Text} {m : DbMsg} {src : Source} (h : m.type = DB_MSG_FILE) : appendedFor data m src = (data m.path).map (Found.file m.path) := by
  rw [appendedFor, if_pos h]

/-- **C87, mboxen.** Under the conditions of `C85_exact_partial`: a search with `-t`, with an mbox for the results in a directory, at whose place there is no directory, ends without a fault; on the disk nothing but the entry of
the mbox in this directory is changed; and the mbox consists of the messages in the threads of those that satisfy the query, each once, with a From line, its text, and a line that tells where it comes from. If there are no
From lines in the results, it is split as an mbox into just these. -/
theorem C87_mbox_partial {hashfn : Nat → Text → Nat} {mktime : Nat → Nat → Nat → Int} {md5 : Text → List UInt8} (hmd5 : ∀ t, (md5 t).length = 16) {xs : List Indexing} {x : Indexing} {file : Text}
    (hl : ∀ y ∈ xs ++ [x], LibraryOk y) (hd : ∀ y ∈ xs ++ [x], DiscOk y.disc)
    (hc : ∀ y ∈ xs ++ [x], ∃ s items, ∃ N < y.depth, Spec.Means y.config y.disc.fs s items ∧ PathMax y.disc.fs N)
    {s : Setting} {items : FolderType → List FolderItem} (hm : Spec.Means x.config x.disc.fs s items)
    (hu : ∀ y ∈ xs, Unchanged y.disc x.disc) (hf : x.fast = false) (e : indexMails hashfn mktime md5 (xs ++ [x]) none = .ok (some file))
    (hp : ∀ y ∈ xs ++ [x], y.purge = false) (hb : ∀ y ∈ xs ++ [x], y.config.mboxen = none) (hlast : ∀ y z, [y, z].Sublist (xs ++ [x]) → Lasts y z)
    (hmail : ∀ p, MessageFile s items p → IsFile x.disc.fs p → ∃ m, FileMeans mktime x.disc p m)
    {scan dateRange} (hsc : ScansDates scan dateRange) {cs : List Cond} {args : List Text} (hq : QueryWrittenAs dateRange cs args) (hfit : ∀ c ∈ cs, Cond.Fits c) (sort : List Nat → List Nat)
    (hsort : ∀ l, (sort l).Perm l) (imap : Text → Option Text)
    {d : Disk} {sdir : Text} {n : Nat} {es : List (Text × Nat)} (f : Folder d [n] sdir n es) {nm : Text} (hn : NameOk nm) (hnd : ∀ fs, d.lstat (child sdir nm) ≠ some (.dir fs)) :
    ∃ d' t, ∃ paths : List (Text × Text), searchTop scan sort md5 x.disc imap .mbox (child sdir nm) true false false false file args d = ⟨d', none⟩ ∧ Kept [n] d d' ∧
      (∀ a, NameOk a → a ≠ nm → d'.lookup (child sdir a) = d.lookup (child sdir a)) ∧
      d'.lstat (child sdir nm) = some (.file t) ∧ BoxOf (paths.map fun y => .file y.1 y.2) t ∧ (paths.map (·.1)).Nodup ∧ (∀ y ∈ paths, x.disc.data y.1 = some y.2) ∧
      (∀ p, p ∈ paths.map (·.1) ↔
        ∃ q m y, SameThread mktime s items x.disc p q ∧ MessageFile s items q ∧ FileMeans mktime x.disc q m ∧ Tells m q (x.disc.size q) y ∧ ∀ c ∈ cs, c.Holds y) ∧
      ((∀ y ∈ paths, CleanFound (.file y.1 y.2)) → ∃ ps, Splits fromCheck t 0 ps ∧ Pairs Recovered (paths.map fun y => .file y.1 y.2) (ps.map fun p => (t.drop p.1).take p.2)) := by
  obtain ⟨raw, view, found, l, o1, o2, hs, l1, l2, l3, l4, l5, l6, l7⟩ := thread_entries hmd5 hl hd hc hm hu hf e hp hb hlast hmail hsc hq hfit sort hsort imap
  have hdata : ∀ y ∈ l, ∃ t, x.disc.data y.2.1.path = some t := by
    intro y hy
    obtain ⟨q, m, z, h1, -, h2, -⟩ := (l7 y.2.1.path).1 ⟨y, hy, rfl⟩
    obtain ⟨m', -, -, t, h3, -⟩ := sameThread_file h1 h2
    exact ⟨t, h3⟩
  have hlist : ∀ l' : List (Nat × DbMsg × Source), (∀ y ∈ l', y ∈ l) → ∃ paths : List (Text × Text), l'.filterMap (fun y => appendedFor x.disc.data y.2.1 y.2.2) = paths.map (fun y => .file y.1 y.2) ∧
      paths.map (·.1) = l'.map (·.2.1.path) ∧ ∀ y ∈ paths, x.disc.data y.1 = some y.2 := by
    intro l'
    induction l' with
    | nil => exact fun _ => ⟨[], rfl, rfl, by simp⟩
    | cons y l' ih =>
      intro hsub
      obtain ⟨paths, g1, g2, g3⟩ := ih fun z hz => hsub z (by simp [hz])
      obtain ⟨t, ht⟩ := hdata y (hsub y (by simp))
      refine ⟨(y.2.1.path, t) :: paths, ?_, ?_, ?_⟩
      · rw [List.filterMap_cons, appendedFor_file (l5 y (hsub y (by simp))), ht, Option.map_some]
        simp only
        rw [g1]
        rfl
      · rw [List.map_cons, g2]
        rfl
      · intro z hz
        rcases List.mem_cons.1 hz with rfl | hz
        · exact ht
        · exact g3 z hz
  obtain ⟨paths, g1, g2, g3⟩ := hlist l (fun _ h => h)
  obtain ⟨d', e1, e2, e3, e4⟩ := (C56_mbox f hn (l.filterMap fun y => appendedFor x.disc.data y.2.1 y.2.2)).2 hnd
  refine ⟨d', _, paths, ?_, e2, e4, e3, ?_, ?_, g3, ?_, ?_⟩
  · unfold searchTop
    simp only [o1, o2, bind, Except.bind, makeFolder, hs, l1, clearResults, fillFolder]
    unfold searchMbox at e1
    simp only [Bool.false_eq_true, if_false] at e1 ⊢
    cases hw : (d.unlink (child sdir nm)).write (child sdir nm) true (mboxOutput (l.filterMap fun y => appendedFor x.disc.data y.2.1 y.2.2)) with
    | none => simp only [hw] at e1; cases e1
    | some d2 =>
      simp only [hw] at e1 ⊢
      cases e1
      rfl
  · rw [← g1]
    exact written_output _
  · rw [g2]
    have hn' : l.Pairwise fun y y' => y.1 ≠ y'.1 := List.pairwise_map.1 l2
    refine List.pairwise_map.2 ((List.Pairwise.and_mem.1 hn').imp ?_)
    rintro y y' ⟨hy, hy', hne⟩ h
    exact hne (by rw [l6 y hy y' hy' h])
  · intro p
    rw [g2, ← l7 p, List.mem_map]
  · intro hcl
    have hcl' : ∀ f ∈ l.filterMap fun y => appendedFor x.disc.data y.2.1 y.2.2, CleanFound f := by
      rw [g1]
      intro f hf
      obtain ⟨y, hy, rfl⟩ := List.mem_map.1 hf
      exact hcl y hy
    obtain ⟨ps, h1, h2⟩ := splits_output _ hcl' []
    simp only [List.nil_append, List.length_nil] at h1 h2
    refine ⟨ps, h1, ?_⟩
    rw [h2, ← g1]
    exact pairs_written _

/-- It applies to the runs of the example for C85, with results in the mbox `/mail/box`. -/
example : ∃ file, indexMails exHash (utc 1589800000).dayTime exMd5 ([twIndexing false] ++ [twIndexing false]) none = .ok (some file) ∧
    ∀ {scan dateRange}, ScansDates scan dateRange → ∀ {cs : List Cond} {args : List Text}, QueryWrittenAs dateRange cs args → (∀ c ∈ cs, Cond.Fits c) → ∀ imap,
      ∃ d' t, ∃ paths : List (Text × Text), searchTop scan id exMd5 twDisc imap .mbox (bs "/mail/box") true false false false file args exampleDisk = ⟨d', none⟩ ∧
        d'.lstat (bs "/mail/box") = some (.file t) ∧ BoxOf (paths.map fun y => .file y.1 y.2) t ∧
        ∀ y, Tells twAnswerKept (bs "/m/l/x/1") twAnswer.length y → (∀ c ∈ cs, c.Holds y) → bs "/m/in/new/1.a" ∈ paths.map (·.1) := by
  have hall : ∀ {P : Indexing → Prop}, P (twIndexing false) → ∀ y ∈ [twIndexing false] ++ [twIndexing false], P y := by
    intro P h y hy
    simp only [List.cons_append, List.nil_append, List.mem_cons, List.not_mem_nil, or_false, or_self] at hy
    rw [hy]
    exact h
  have hrun : threadsAfter ([twIndexing false] ++ [twIndexing false]) [] = .ok [] := by decide +kernel
  unfold threadsAfter at hrun
  cases e : indexMails exHash (utc 1589800000).dayTime exMd5 ([twIndexing false] ++ [twIndexing false]) none with
  | error f => rw [e] at hrun; cases hrun
  | ok o =>
    cases o with
    | none => rw [e] at hrun; simp [bind, Except.bind] at hrun
    | some file =>
      refine ⟨file, rfl, ?_⟩
      intro scan dateRange hs cs args hq hf imap
      obtain ⟨d', t, paths, h1, -, -, h2, h3, -, -, h4, -⟩ := C87_mbox_partial (by intro t; simp [exMd5]) (hall (⟨sorts_listed, sorts_extant, sorts_strcmp, sorts_sortable⟩ : LibraryOk (twIndexing false))) (hall twDiscOk)
        (hall ⟨exSetting, exItems, 20, by simp [twIndexing, exIndexing], exMeans, exPathMax⟩) exMeans (by intro y hy p _ _ _; rw [List.mem_singleton] at hy; subst hy; exact ⟨rfl, rfl, fun _ _ => rfl⟩) rfl e (hall rfl)
        (hall rfl) (by
          intro y z hs
          have hy := hall (P := (· = twIndexing false)) rfl y (hs.subset (by simp))
          have hz := hall (P := (· = twIndexing false)) rfl z (hs.subset (by simp))
          rw [hy, hz]
          exact twLasts) twMail hs hq hf id (fun _ => .refl _) imap
        (d := exampleDisk) (sdir := bs "/mail") exampleDisk_mail (nm := bs "box") (by simp only [NameOk]; decide +kernel) (by
          intro fs
          rw [show exampleDisk.lstat (child (bs "/mail") (bs "box")) = none by decide +kernel]
          simp)
      refine ⟨d', t, paths, h1, h2, h3, fun y hy hcs => (h4 _).2 ⟨_, _, y, twThread, exFile (by decide +kernel), twFiles.2, ?_, hcs⟩⟩
      rw [show (twIndexing false).disc.size (bs "/m/l/x/1") = twAnswer.length by decide +kernel]
      exact hy

end Mairix
