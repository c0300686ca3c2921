import Verif.Props.SearchTop
import Verif.Props.DiskMore
import Verif.Props.Output
import Verif.Props.SearchTopExamples

/-!
# C84: a whole search with an mbox for the results
-/

namespace Mairix
open Spec

theorem written_output : ∀ l : List Found, BoxOf l (mboxOutput l)
  | [] => .none
  | f :: l => by
    have h := BoxOf.more (written_recovered f) (written_output l)
    have e : mboxOutput (f :: l) = bs "From mairix@mairix Mon Jan  1 12:34:56 1970\n" ++ f.written ++ mboxOutput l := by
      rw [mboxOutput, List.flatMap_cons, appended_eq]
      rfl
    rw [e]
    exact h

theorem pairwise_filterMap_of {α β : Type} {R : α → α → Prop} {S : β → β → Prop} (f : α → Option β) (h : ∀ a a' b b', R a a' → f a = some b → f a' = some b' → S b b') :
    ∀ {l : List α}, l.Pairwise R → (l.filterMap f).Pairwise S
  | [], _ => .nil
  | a :: l, hl => by
    rw [List.pairwise_cons] at hl
    have ih := pairwise_filterMap_of f h hl.2
    rw [List.filterMap_cons]
    cases ha : f a with
    | none => exact ih
    | some b =>
      refine List.pairwise_cons.2 ⟨?_, ih⟩
      intro b' hb'
      obtain ⟨a', h1, h2⟩ := List.mem_filterMap.1 hb'
      exact h a a' b b' (hl.1 a' h1) ha h2

theorem entries_mbox {mktime : Nat → Nat → Nat → Int} {xs : List Indexing} {x : Indexing} {s : Setting} {items : FolderType → List FolderItem} {cs : List Cond} {l : List (Nat × DbMsg × Source)}
    (h : Entries mktime xs x s items cs l) : MboxResults mktime xs x s items cs (l.filterMap fun y => appendedFor x.disc.data y.2.1 y.2.2) := by
  have hmem : ∀ f, f ∈ l.filterMap (fun y => appendedFor x.disc.data y.2.1 y.2.2) ↔
      (∃ y ∈ l, y.2.1.type = DB_MSG_FILE ∧ ∃ t, x.disc.data y.2.1.path = some t ∧ f = .file y.2.1.path t) ∨
      ∃ y ∈ l, y.2.1.type = DB_MSG_MBOX ∧ ∃ t, y.2.2.data = some t ∧ f = .mbox y.2.2.folder t := by
    intro f
    rw [List.mem_filterMap]
    constructor
    · rintro ⟨y, hy, e⟩
      rcases h.kinds y hy with ⟨-, k2⟩ | ⟨p, ms, m, -, -, -, k2, -⟩
      · left
        rw [appendedFor, if_pos k2] at e
        obtain ⟨t, e1, e2⟩ := Option.map_eq_some_iff.1 e
        exact ⟨y, hy, k2, t, e1, e2.symm⟩
      · right
        rw [appendedFor, if_neg (by rw [k2]; decide), if_neg (by rw [k2]; decide), if_pos k2] at e
        obtain ⟨t, e1, e2⟩ := Option.map_eq_some_iff.1 e
        exact ⟨y, hy, k2, t, e1, e2.symm⟩
    · rintro (⟨y, hy, k2, t, e1, rfl⟩ | ⟨y, hy, k2, t, e1, rfl⟩)
      · exact ⟨y, hy, by rw [appendedFor, if_pos k2, e1]; rfl⟩
      · exact ⟨y, hy, by rw [appendedFor, if_neg (by rw [k2]; decide), if_neg (by rw [k2]; decide), if_pos k2, e1]; rfl⟩
  refine ⟨?_, ?_, ?_, ?_⟩
  · intro f hf
    rcases (hmem f).1 hf with ⟨y, hy, k2, t, e1, rfl⟩ | ⟨y, hy, k2, t, e1, rfl⟩
    · left
      rcases h.kinds y hy with ⟨k1, -⟩ | ⟨p, ms, m, -, -, -, k3, -⟩
      · exact ⟨_, t, rfl, k1, e1⟩
      · rw [k2] at k3; cases k3
    · right
      rcases h.kinds y hy with ⟨-, k1⟩ | ⟨p, ms, m, g1, g2, g3, -, g4, g5⟩
      · rw [k2] at k1; cases k1
      · rw [g4] at e1 ⊢
        cases e1
        exact ⟨p, ms, m, rfl, g1, g2, g3, g5⟩
  · refine pairwise_filterMap_of (R := fun y y' => y.2.1.type = DB_MSG_FILE → y'.2.1.type = DB_MSG_FILE → y.2.1.path ≠ y'.2.1.path) _ ?_ ?_
    · rintro y y' b b' hR e e' p t t' ⟨rfl, rfl⟩
      have key : ∀ y : Nat × DbMsg × Source, ∀ t, appendedFor x.disc.data y.2.1 y.2.2 = some (.file p t) → y.2.1.type = DB_MSG_FILE ∧ y.2.1.path = p := by
        intro y t e
        unfold appendedFor at e
        split at e
        · rename_i k
          obtain ⟨t', -, e2⟩ := Option.map_eq_some_iff.1 e
          exact ⟨k, (Found.file.inj e2).1⟩
        · split at e
          · obtain ⟨t', -, e2⟩ := Option.map_eq_some_iff.1 e
            cases e2
          · split at e
            · obtain ⟨t', -, e2⟩ := Option.map_eq_some_iff.1 e
              cases e2
            · cases e
      obtain ⟨k1, k2⟩ := key y t e
      obtain ⟨k1', k2'⟩ := key y' t' e'
      exact hR k1 k1' (k2.trans k2'.symm)
    · have hn : l.Pairwise fun y y' => y.1 ≠ y'.1 := List.pairwise_map.1 h.nodup
      refine (List.Pairwise.and_mem.1 hn).imp ?_
      rintro y y' ⟨hy, hy', hne⟩ k k' hp
      exact hne (by rw [h.once y hy y' hy' k k' hp])
  · intro p m hp hmean z hz
    rw [← h.files p m hp hmean z hz]
    constructor
    · rintro ⟨t, ht⟩
      rcases (hmem _).1 ht with ⟨y, hy, k2, t', e1, e2⟩ | ⟨y, hy, k2, t', e1, e2⟩
      · exact ⟨y, hy, k2, (Found.file.inj e2).1.symm⟩
      · cases e2
    · rintro ⟨y, hy, k2, rfl⟩
      obtain ⟨-, -, t, ht, -⟩ := hmean
      exact ⟨t, (hmem _).2 (.inl ⟨y, hy, k2, t, ht, rfl⟩)⟩
  · intro p ms hp g m hm z hz hcs
    obtain ⟨y, hy, k2, k3⟩ := h.boxes p ms hp g m hm z hz hcs
    exact (hmem _).2 (.inr ⟨y, hy, k2, m.text, by rw [k3], by rw [k3]⟩)

/-- **C84.** After any number of whole indexing runs that completed, starting without a database (with the conditions of C57 and C77, mail being only delivered to mboxen): a search for a query, with an mbox for the results
in a directory, at whose place there is no directory, ends without a fault; on the disk nothing but the entry of the mbox in this directory is changed; and the mbox consists of the results of the query, each with a From line
and a line that tells where it comes from. If there are no From lines in the results, it is split as an mbox into just these. (Missing: as for C57 and C77.) -/
theorem C84_mbox_partial {hashfn : Nat → Text → Nat} {mktime : Nat → Nat → Nat → Int} {md5 : Text → List UInt8} (hmd5 : ∀ t, (md5 t).length = 16) {xs : List Indexing} {x : Indexing} {file : Text}
    (hl : ∀ y ∈ xs ++ [x], LibraryOk y) (hd : ∀ y ∈ xs ++ [x], DiscOk y.disc)
    (hc : ∀ y ∈ xs ++ [x], ∃ s items, ∃ N < y.depth, Spec.Means y.config y.disc.fs s items ∧ PathMax y.disc.fs N)
    {s : Setting} {items : FolderType → List FolderItem} (hm : Spec.Means x.config x.disc.fs s items)
    (hu : ∀ y ∈ xs, Unchanged y.disc x.disc) (hf : x.fast = false) (hafter : ∀ y ∈ xs, y.disc.after = x.disc.after) (hgrown : ∀ p, Configured s items .mbox p → ∃ ms, GrownBox mktime xs x p ms)
    (e : indexMails hashfn mktime md5 (xs ++ [x]) none = .ok (some file))
    {scan dateRange} (hsc : ScansDates scan dateRange) {cs : List Cond} {args : List Text} (hq : QueryWrittenAs dateRange cs args) (hfit : ∀ c ∈ cs, Cond.Fits c) (sort : List Nat → List Nat)
    (hsort : ∀ l, (sort l).Perm l) (imap : Text → Option Text)
    {d : Disk} {sdir : Text} {n : Nat} {es : List (Text × Nat)} (f : Folder d [n] sdir n es) {nm : Text} (hn : NameOk nm) (hnd : ∀ fs, d.lstat (child sdir nm) ≠ some (.dir fs)) :
    ∃ d' t l, searchTop scan sort md5 x.disc imap .mbox (child sdir nm) false false false false file args d = ⟨d', none⟩ ∧ Kept [n] d d' ∧
      (∀ a, NameOk a → a ≠ nm → d'.lookup (child sdir a) = d.lookup (child sdir a)) ∧
      d'.lstat (child sdir nm) = some (.file t) ∧ BoxOf l t ∧ MboxResults mktime xs x s items cs l ∧
      ((∀ f ∈ l, CleanFound f) → ∃ ps, Splits fromCheck t 0 ps ∧ Pairs Recovered l (ps.map fun p => (t.drop p.1).take p.2)) := by
  obtain ⟨raw, view, found, l, o1, o2, hs, l1, hE⟩ := top_entries hmd5 hl hd hc hm hu hf hafter hgrown e hsc hq hfit sort hsort imap
  obtain ⟨d', e1, e2, e3, e4⟩ := (C56_mbox f hn (l.filterMap fun y => appendedFor x.disc.data y.2.1 y.2.2)).2 hnd
  refine ⟨d', _, _, ?_, e2, e4, e3, written_output _, entries_mbox hE, ?_⟩
  · unfold searchTop
    simp only [o1, o2, bind, Except.bind, makeFolder, hs, l1, clearResults, fillFolder]
    unfold searchMbox at e1
    simp only [Bool.false_eq_true, if_false] at e1 ⊢
    cases hw : (d.unlink (child sdir nm)).write (child sdir nm) true (mboxOutput (l.filterMap fun y => appendedFor x.disc.data y.2.1 y.2.2)) with
    | none => simp only [hw] at e1; cases e1
    | some d2 =>
      simp only [hw] at e1 ⊢
      cases e1
      rfl
  · intro hcl
    obtain ⟨ps, h1, h2⟩ := splits_output _ hcl []
    simp only [List.nil_append, List.length_nil] at h1 h2
    refine ⟨ps, h1, ?_⟩
    rw [h2]
    exact pairs_written _

/-! ## An example -/

theorem exampleDisk_mail : Folder exampleDisk [1] (bs "/mail") 1 [(bs ".", 1), (bs "..", 0), (bs "1", 6), (bs "2", 7)] := by
  refine ⟨by decide, by decide, by decide, ?_, rfl, by decide +kernel, by simp only [NameOk]; decide +kernel, ?_⟩
  · rw [show exampleDisk.start exampleDisk.cwd (bs "/mail") = 0 from by decide +kernel, show comps (bs "/mail") = [bs "mail"] from by decide +kernel,
      show exampleDisk.steps = 49 + 1 from rfl]
    exact .step (i := 1) (x := .dir [(bs ".", 1), (bs "..", 0), (bs "1", 6), (bs "2", 7)]) (by decide) (by decide +kernel) rfl (by simp) .done
  · intro x hx
    simp only [List.mem_cons, List.not_mem_nil, or_false] at hx
    rcases hx with rfl | rfl | rfl | rfl <;> exact ⟨_, rfl⟩

/-- The theorem applies to the runs of the example for C77, with results in the mbox `/mail/box`. -/
example : ∃ file, indexMails exHash pbMk exMd5 ([pbIndexing false false] ++ [pbIndexing false true]) none = .ok (some file) ∧
    ∀ {scan dateRange}, ScansDates scan dateRange → ∀ {cs : List Cond} {args : List Text}, QueryWrittenAs dateRange cs args → (∀ c ∈ cs, Cond.Fits c) → ∀ imap,
      ∃ d' t l, searchTop scan id exMd5 (pbIndexing false true).disc imap .mbox (bs "/mail/box") false false false false file args exampleDisk = ⟨d', none⟩ ∧ Kept [1] exampleDisk d' ∧
        d'.lstat (bs "/mail/box") = some (.file t) ∧ BoxOf l t ∧ ∀ y, TellsPosted pbSecond (bs "/m/box") y → (∀ c ∈ cs, c.Holds y) → Found.mbox (bs "/m/box") (bs "\nat noon\n") ∈ l := by
  have hall : ∀ {P : Indexing → Prop}, (∀ b, P (pbIndexing false b)) → ∀ y ∈ [pbIndexing false false] ++ [pbIndexing false true], P y := by
    intro P h y hy
    simp only [List.cons_append, List.nil_append, List.mem_cons, List.not_mem_nil, or_false] at hy
    rcases hy with rfl | rfl <;> exact h _
  have hrun := pbRuns.2
  unfold pbFound at hrun
  cases e : indexMails exHash pbMk exMd5 ([pbIndexing false false] ++ [pbIndexing false true]) none with
  | error f => rw [e] at hrun; cases hrun
  | ok o =>
    cases o with
    | none => rw [e] at hrun; simp [bind, Except.bind] at hrun
    | some file =>
      refine ⟨file, rfl, ?_⟩
      intro scan dateRange hs cs args hq hf imap
      obtain ⟨d', t, l, h1, h2, -, h3, h4, h5, -⟩ := C84_mbox_partial (by intro t; simp [exMd5]) (hall fun b => (⟨sorts_listed, sorts_extant, sorts_strcmp, sorts_sortable⟩ : LibraryOk (pbIndexing false b)))
        (hall (pbDiscOk false)) (hall fun b => ⟨_, pbItems, 20, by simp [pbIndexing, exIndexing], pbMeans false b, pbPathMax false b⟩) (pbMeans false true)
        (by intro y hy; rw [List.mem_singleton] at hy; subst hy; exact pbUnchanged) rfl (by intro y hy; rw [List.mem_singleton.1 hy]; rfl) (fun p hp => pbAll hp) e hs hq hf id (fun _ => .refl _) imap
        exampleDisk_mail (nm := bs "box") (by constructor <;> decide) (by
          have h : exampleDisk.lstat (child (bs "/mail") (bs "box")) = none := by decide +kernel
          intro fs hfs
          rw [h] at hfs
          cases hfs)
      rw [show child (bs "/mail") (bs "box") = bs "/mail/box" by decide] at h1 h3
      refine ⟨d', t, l, h1, h2, h3, h4, fun y hy hcs => ?_⟩
      have := h5.boxes _ _ (pbConfigured false true) pbGrown pbSecond (by simp [pbBox]) y hy hcs
      rwa [show pbSecond.text = bs "\nat noon\n" by decide +kernel] at this

/-- What a search writes to an mbox. -/
def boxAfter (xs : List Indexing) (disc : Disc) (args : List Text) : Res (Option Fault × Option Node) := do
  match ← indexMails exHash (utc 1589800000).dayTime exMd5 xs none with
  | none => .error .uninitialised
  | some file =>
    let E := searchTop (utc 1589800000).scan id exMd5 disc (fun _ => none) .mbox (bs "/mail/box") false false false false file args exampleDisk
    .ok (E.fault, E.disk.lstat (bs "/mail/box"))

example : boxAfter ([pbIndexing false false] ++ [pbIndexing false true]) (pbIndexing false true).disc [bs "b:noon"] =
    .ok (none, some (.file (bs "From mairix@mairix Mon Jan  1 12:34:56 1970\nX-source-folder: /m/box\n\nat noon\n\n"))) := by decide +kernel

end Mairix
