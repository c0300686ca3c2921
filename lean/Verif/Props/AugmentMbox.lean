import Verif.Spec.AugmentMbox
import Verif.Props.SearchMbox

/-!
# C90: searches with `-a` with an mbox for the results
-/

namespace Mairix
open Spec

/-- What a search writes to the mbox. -/
theorem search_box {hashfn : Nat → Text → Nat} {mktime : Nat → Nat → Nat → Int} {md5 : Text → List UInt8} (hmd5 : ∀ t, (md5 t).length = 16) {scan dateRange} (hsc : ScansDates scan dateRange)
    {q : BoxSearch} (hq : q.Prepared hashfn mktime md5 dateRange) (sort : List Nat → List Nat) (hsort : ∀ l, (sort l).Perm l) (imap : Text → Option Text) :
    ∃ l, MboxResults mktime q.xs q.x q.setting q.items q.query l ∧ ∀ path augment d d', searchMbox d path augment l = .ok d' →
      searchTop scan sort md5 q.x.disc imap .mbox path false augment false false q.file q.args d = ⟨d', none⟩ := by
  obtain ⟨raw, view, found, l, o1, o2, hs, l1, hE⟩ := top_entries hmd5 hq.library hq.discs hq.configs hq.means hq.unchanged hq.careful hq.after hq.grown hq.runs hsc hq.written hq.fits sort hsort imap
  refine ⟨_, entries_mbox hE, ?_⟩
  intro path augment d d' e1
  unfold searchTop
  simp only [o1, o2, bind, Except.bind, makeFolder, hs, l1, clearResults, fillFolder]
  unfold searchMbox at e1
  dsimp only at e1 ⊢
  cases hw : (if augment = true then d else d.unlink path).write path true (mboxOutput (l.filterMap fun y => appendedFor q.x.disc.data y.2.1 y.2.2)) with
  | none => rw [hw] at e1; cases e1
  | some d2 =>
    rw [hw] at e1
    cases e1
    rfl

/-- On disk `D` there is a new file with the text `t` named `nm`; apart from that `D` is as `d`. -/
structure HasBox (d : Disk) (sdir : Text) (n : Nat) (nm : Text) (D : Disk) (t : Text) : Prop where
  kept : Kept [n] d D
  others : ∀ a, NameOk a → a ≠ nm → D.lookup (child sdir a) = d.lookup (child sdir a)
  file : ∃ es i, Folder D [n] sdir n es ∧ es.lookup nm = some i ∧ D.nodes[i]? = some (.file t) ∧ d.nodes.length ≤ i

theorem HasBox.lstat {d D : Disk} {sdir : Text} {n : Nat} {nm : Text} {t : Text} (hn : NameOk nm) (h : HasBox d sdir n nm D t) : D.lstat (child sdir nm) = some (.file t) := by
  obtain ⟨es, i, f, h1, h2, -⟩ := h.file
  simp only [Disk.lstat, f.lookup hn, h1, h2]

theorem box_first {d : Disk} {sdir : Text} {p : Nat} {es : List (Text × Nat)} (f : Folder d [p] sdir p es) {nm : Text} (hn : NameOk nm) (h : ∀ fs, d.lstat (child sdir nm) ≠ some (.dir fs)) (l : List Found) :
    ∃ D, searchMbox d (child sdir nm) false l = .ok D ∧ HasBox d sdir p nm D (mboxOutput l) := by
  have hu : d.unlink (child sdir nm) = d.put p (.dir (es.filter fun x => x.1 != nm)) := by
    cases hl : es.lookup nm with
    | none =>
      have : (es.filter fun x => x.1 != nm) = es := by
        rw [List.filter_eq_self]
        intro x hx
        have : x.1 ≠ nm := fun he => lookup_none_iff.1 hl (he ▸ List.mem_map_of_mem hx)
        simpa using this
      rw [this, put_self f.dir]
      simp only [Disk.unlink, f.parent hn, f.entry, hl]
    | some i =>
      have hnd : ∀ fs, d.nodes[i]? ≠ some (.dir fs) := by
        intro fs hi
        refine h fs ?_
        simp only [Disk.lstat, f.lookup hn, hl, hi]
      unfold Disk.unlink
      simp only [f.parent hn, f.entry, hl]
      cases hi : d.nodes[i]? with
      | none => simp only [Disk.removeEntry, f.dir]
      | some n =>
        cases n with
        | dir fs => exact absurd hi (hnd fs)
        | _ => simp only [Disk.removeEntry, f.dir]
  have f1 := f.filter fun x => x.1 != nm
  have hnone : (es.filter fun x => x.1 != nm).lookup nm = none := by
    rw [lookup_none_iff]
    intro hm
    obtain ⟨x, hx, he⟩ := List.mem_map.1 hm
    have := (List.mem_filter.1 hx).2
    simp [he] at this
  have hw := write_new f1 hn hnone true (mboxOutput l)
  obtain ⟨es', f2, _⟩ := folder_added f1 hn hnone (i := (d.put p (.dir (es.filter fun x => x.1 != nm))).nodes.length) (extra := [.file (mboxOutput l)]) ⟨.file (mboxOutput l), by simp⟩ f1
  have he := f2.dir.symm.trans (added_get f1.dir nm (d.put p (.dir (es.filter fun x => x.1 != nm))).nodes.length [.file (mboxOutput l)])
  rw [Option.some.injEq, Node.dir.injEq] at he
  rw [he] at f2
  refine ⟨_, by simp only [searchMbox, Bool.false_eq_true, if_false, hu, hw], ⟨(kept_put f.mem f.dir).trans (kept_added f1.mem f1.dir nm _ _), ?_, _, (d.put p (.dir (es.filter fun x => x.1 != nm))).nodes.length, f2, ?_, ?_, ?_⟩⟩
  · intro a ha hne
    rw [f2.lookup ha, f.lookup ha, lookup_more (by simpa using Ne.symm hne), lookup_filter_ne hne]
  · rw [lookup_append, hnone]
    simp only [List.lookup, beq_self_eq_true, Option.none_or]
  · have h0 := (List.getElem?_eq_some_iff.1 f1.dir).1
    exact added_get_ne (by omega) (by simp)
  · simp [Disk.put]

theorem box_more {d D : Disk} {sdir : Text} {p : Nat} {es : List (Text × Nat)} (f : Folder d [p] sdir p es) {nm : Text} (hn : NameOk nm) {t : Text} (h : HasBox d sdir p nm D t) (l : List Found) :
    ∃ D', searchMbox D (child sdir nm) true l = .ok D' ∧ HasBox d sdir p nm D' (t ++ mboxOutput l) := by
  obtain ⟨fs, i, f', h1, h2, h3⟩ := h.file
  have hp : D.place D.steps (D.start D.cwd (child sdir nm)) (comps (child sdir nm)) = some (p, nm) := by
    have := f'.steps
    cases hs : D.steps with
    | zero => omega
    | succ k =>
      unfold Disk.place
      simp only [f'.parent hn, f'.entry, h1, h2]
  have hlt : p < d.nodes.length := (List.getElem?_eq_some_iff.1 f.dir).1
  have hne : ∀ j, j ≠ i → (D.put i (.file (t ++ mboxOutput l))).nodes[j]? = D.nodes[j]? := fun j hj => by simp [Disk.put, List.getElem?_set_ne (Ne.symm hj)]
  have hold : ∀ j n, d.nodes[j]? = some n → j ≠ i := fun j n hj => by have := (List.getElem?_eq_some_iff.1 hj).1; omega
  have hk : Kept [p] d (D.put i (.file (t ++ mboxOutput l))) := by
    refine ⟨h.kept.root, h.kept.cwd, h.kept.steps, ?_, ?_⟩
    · intro j n hj hR
      rw [hne j (hold j n hj)]
      exact h.kept.same j n hj hR
    · intro j es hj
      rw [hne j (hold j _ hj)]
      exact h.kept.dirs j es hj
  have f2 : Folder (D.put i (.file (t ++ mboxOutput l))) [p] sdir p fs := by
    refine f.kept hk (by rw [hne p (by omega)]; exact f'.dir) f'.names f'.ok ?_
    intro x hx
    by_cases he : x.2 = i
    · rw [he]
      exact ⟨_, put_get h2⟩
    · rw [hne _ he]
      exact f'.inodes x hx
  refine ⟨D.put i (.file (t ++ mboxOutput l)), ?_, hk, ?_, fs, i, f2, h1, put_get h2, h3⟩
  · simp only [searchMbox, if_true, Disk.write, hp, f'.entry, h1, h2]
  · intro a ha hne
    rw [f2.lookup ha, ← f'.lookup ha]
    exact h.others a ha hne

theorem mboxOutput_append (l l' : List Found) : mboxOutput (l ++ l') = mboxOutput l ++ mboxOutput l' := by
  simp [mboxOutput]

theorem boxes_more {hashfn : Nat → Text → Nat} {mktime : Nat → Nat → Nat → Int} {md5 : Text → List UInt8} (hmd5 : ∀ t, (md5 t).length = 16) {scan dateRange} (hsc : ScansDates scan dateRange)
    (sort : List Nat → List Nat) (hsort : ∀ l, (sort l).Perm l) (imap : Text → Option Text)
    {d : Disk} {sdir : Text} {n : Nat} {es : List (Text × Nat)} (f : Folder d [n] sdir n es) {nm : Text} (hn : NameOk nm) :
    ∀ {qs : List BoxSearch}, (∀ q ∈ qs, q.Prepared hashfn mktime md5 dateRange) → ∀ {D : Disk} {l : List Found}, HasBox d sdir n nm D (mboxOutput l) →
      ∃ d' ls, SearchesInto scan sort md5 imap (child sdir nm) true qs D d' ∧ HasBox d sdir n nm d' (mboxOutput (l ++ ls.flatten)) ∧
        Pairs (fun q l => MboxResults mktime q.xs q.x q.setting q.items q.query l) qs ls
  | [], _, D, l, h => ⟨D, [], .done, by simpa using h, .nil⟩
  | q :: qs, hq, D, l, h => by
    obtain ⟨l', r1, r2⟩ := search_box hmd5 hsc (hq q (by simp)) sort hsort imap
    obtain ⟨D', e1, h'⟩ := box_more f hn h l'
    rw [← mboxOutput_append] at h'
    obtain ⟨d', ls, s1, s2, s3⟩ := boxes_more hmd5 hsc sort hsort imap f hn (qs := qs) (fun q hx => hq q (by simp [hx])) h'
    exact ⟨d', l' :: ls, .more (r2 _ _ _ _ e1) s1, by simpa [List.append_assoc] using s2, .cons r1 s3⟩

/-- **C90.** A search and any number of searches with `-a` after it, with an mbox for the results, in a directory and at a place where there is no directory; between the searches there may be any number of indexing runs
(those before each search as for C84, mail being only delivered to mboxen): all of them end without a fault; on the disk nothing but the entry of the mbox is changed; and the mbox consists of the results of the first query,
then those of the second and so on, each with a From line and a line that tells where it comes from. If there are no From lines in the results, it is split as an mbox into just these. (Missing: as for C57 and C77.) -/
theorem C90_augment_partial {hashfn : Nat → Text → Nat} {mktime : Nat → Nat → Nat → Int} {md5 : Text → List UInt8} (hmd5 : ∀ t, (md5 t).length = 16) {scan dateRange} (hsc : ScansDates scan dateRange)
    {q : BoxSearch} {qs : List BoxSearch} (hq : ∀ a ∈ q :: qs, a.Prepared hashfn mktime md5 dateRange) (sort : List Nat → List Nat) (hsort : ∀ l, (sort l).Perm l) (imap : Text → Option Text)
    {d : Disk} {sdir : Text} {n : Nat} {es : List (Text × Nat)} (f : Folder d [n] sdir n es) {nm : Text} (hn : NameOk nm) (hnd : ∀ fs, d.lstat (child sdir nm) ≠ some (.dir fs)) :
    ∃ d' t ls, SearchesInto scan sort md5 imap (child sdir nm) false (q :: qs) d d' ∧ Kept [n] d d' ∧
      (∀ a, NameOk a → a ≠ nm → d'.lookup (child sdir a) = d.lookup (child sdir a)) ∧
      d'.lstat (child sdir nm) = some (.file t) ∧ BoxOf ls.flatten t ∧ Pairs (fun a l => MboxResults mktime a.xs a.x a.setting a.items a.query l) (q :: qs) ls ∧
      ((∀ f ∈ ls.flatten, CleanFound f) → ∃ ps, Splits fromCheck t 0 ps ∧ Pairs Recovered ls.flatten (ps.map fun p => (t.drop p.1).take p.2)) := by
  obtain ⟨l, r1, r2⟩ := search_box hmd5 hsc (hq q (by simp)) sort hsort imap
  obtain ⟨D, e1, h⟩ := box_first f hn hnd l
  obtain ⟨d', ls, s1, s2, s3⟩ := boxes_more hmd5 hsc sort hsort imap f hn (qs := qs) (fun a ha => hq a (by simp [ha])) h
  refine ⟨d', _, l :: ls, .more (r2 _ _ _ _ e1) s1, s2.kept, s2.others, s2.lstat hn, written_output _, .cons r1 s3, ?_⟩
  intro hcl
  obtain ⟨ps, h1, h2⟩ := splits_output _ hcl []
  simp only [List.nil_append, List.length_nil] at h1 h2
  refine ⟨ps, h1, ?_⟩
  rw [show l ++ ls.flatten = (l :: ls).flatten from rfl] at *
  rw [h2]
  exact pairs_written _

/-! ## An example -/

theorem pbGrown_first : GrownBox pbMk [] (pbIndexing false false) (bs "/m/box") (pbBox false) := by
  refine ⟨pbBox_at false, ?_, [], .cons (.inr (pbBox_at false)) .nil, List.pairwise_singleton _ _⟩
  intro m hm
  simp only [pbBox, Bool.false_eq_true, if_false, List.mem_cons, List.not_mem_nil, or_false] at hm
  subst hm
  exact pbFirst_ok _

theorem pbAll_first {p : Text} (h : Configured ⟨(pbDisc false false).fs, bs "/m", []⟩ pbItems .mbox p) : ∃ ms, GrownBox pbMk [] (pbIndexing false false) p ms := by
  have hp : p = bs "/m/box" := by
    obtain ⟨i, hi, q, h1, h2, ⟨st, h3, h4⟩, h5⟩ := h
    simp only [pbDisc] at h3
    split at h3
    · assumption
    · cases h3
  subst hp
  exact ⟨_, pbGrown_first⟩

/-- The searches of the example: one after the first of the runs of the example for C77, and one after the second, when a message more has been delivered. -/
def pbSearch (second : Bool) (file : Text) (cs : List Cond) (args : List Text) : BoxSearch :=
  ⟨if second then [pbIndexing false false] else [], pbIndexing false second, ⟨(pbDisc false second).fs, bs "/m", []⟩, pbItems, file, cs, args⟩

theorem pbPrepared {second : Bool} {file : Text} {cs : List Cond} {args : List Text} {dateRange}
    (e : indexMails exHash pbMk exMd5 ((if second then [pbIndexing false false] else []) ++ [pbIndexing false second]) none = .ok (some file)) (hq : QueryWrittenAs dateRange cs args)
    (hf : ∀ c ∈ cs, Cond.Fits c) : (pbSearch second file cs args).Prepared exHash pbMk exMd5 dateRange := by
  have hall : ∀ {P : Indexing → Prop}, (∀ b, P (pbIndexing false b)) → ∀ y ∈ (if second then [pbIndexing false false] else []) ++ [pbIndexing false second], P y := by
    intro P h y hy
    cases second
    · rw [List.mem_singleton.1 hy]
      exact h _
    · simp only [if_true, List.cons_append, List.nil_append, List.mem_cons, List.not_mem_nil, or_false] at hy
      rcases hy with rfl | rfl <;> exact h _
  refine ⟨hall fun b => (⟨sorts_listed, sorts_extant, sorts_strcmp, sorts_sortable⟩ : LibraryOk (pbIndexing false b)), hall (pbDiscOk false),
    hall fun b => ⟨_, pbItems, 20, by simp [pbIndexing, exIndexing], pbMeans false b, pbPathMax false b⟩, pbMeans false second, ?_, rfl, ?_, ?_, e, hq, hf⟩
  · intro y hy
    cases second
    · cases hy
    · rw [List.mem_singleton.1 hy]
      exact pbUnchanged
  · intro y hy
    cases second
    · cases hy
    · rw [List.mem_singleton.1 hy]
      rfl
  · intro p hp
    cases second
    · exact pbAll_first hp
    · exact pbAll hp

/-- The runs complete. -/
theorem pbComplete (second : Bool) : ∃ file, indexMails exHash pbMk exMd5 ((if second then [pbIndexing false false] else []) ++ [pbIndexing false second]) none = .ok (some file) := by
  have hrun : ∃ l, l ≠ [] ∧ pbFound ((if second then [pbIndexing false false] else []) ++ [pbIndexing false second]) [[bs "b:hello"], [bs "b:noon"]] = .ok l := by
    cases second
    · exact ⟨_, by simp, pbRuns.1⟩
    · exact ⟨_, by simp, pbRuns.2⟩
  obtain ⟨l, hl, hrun⟩ := hrun
  unfold pbFound at hrun
  cases e : indexMails exHash pbMk exMd5 ((if second then [pbIndexing false false] else []) ++ [pbIndexing false second]) none with
  | error f => rw [e] at hrun; cases hrun
  | ok o =>
    cases o with
    | none =>
      rw [e] at hrun
      simp only [bind, Except.bind, Except.ok.injEq] at hrun
      exact absurd hrun.symm hl
    | some file => exact ⟨file, rfl⟩

/-- The theorem applies to them: the first message can be among the results of the first search, both among those of the second. -/
example : ∃ file file', ∀ {scan dateRange}, ScansDates scan dateRange → ∀ {cs cs' : List Cond} {args args' : List Text}, QueryWrittenAs dateRange cs args → QueryWrittenAs dateRange cs' args' →
    (∀ c ∈ cs, Cond.Fits c) → (∀ c ∈ cs', Cond.Fits c) → ∀ imap, ∃ d' t l l',
      SearchesInto scan id exMd5 imap (bs "/mail/box") false [pbSearch false file cs args, pbSearch true file' cs' args'] exampleDisk d' ∧ d'.lstat (bs "/mail/box") = some (.file t) ∧ BoxOf (l ++ l') t ∧
      (∀ y, TellsPosted pbFirst (bs "/m/box") y → (∀ c ∈ cs, c.Holds y) → Found.mbox (bs "/m/box") pbFirst.text ∈ l) ∧
      ∀ m ∈ [pbFirst, pbSecond], ∀ y, TellsPosted m (bs "/m/box") y → (∀ c ∈ cs', c.Holds y) → Found.mbox (bs "/m/box") m.text ∈ l' := by
  obtain ⟨file, e⟩ := pbComplete false
  obtain ⟨file', e'⟩ := pbComplete true
  refine ⟨file, file', ?_⟩
  intro scan dateRange hs cs cs' args args' hq hq' hf hf' imap
  obtain ⟨d', t, ls, h1, -, -, h3, h4, h5, -⟩ := C90_augment_partial (md5 := exMd5) (by intro t; simp [exMd5]) hs (q := pbSearch false file cs args) (qs := [pbSearch true file' cs' args'])
    (by
      intro a ha
      simp only [List.mem_cons, List.not_mem_nil, or_false] at ha
      rcases ha with rfl | rfl
      · exact pbPrepared e hq hf
      · exact pbPrepared e' hq' hf') id (fun _ => .refl _) imap exampleDisk_mail (nm := bs "box") (by constructor <;> decide) (by
      have h : exampleDisk.lstat (child (bs "/mail") (bs "box")) = none := by decide +kernel
      intro fs hfs
      rw [h] at hfs
      cases hfs)
  rw [show child (bs "/mail") (bs "box") = bs "/mail/box" by decide] at h1 h3
  obtain _ | ⟨r1, _ | ⟨r2, _ | _⟩⟩ := h5
  refine ⟨d', t, _, _, h1, h3, by simpa using h4, fun y hy hcs => ?_, fun m hm y hy hcs => ?_⟩
  · exact r1.boxes _ _ (pbConfigured false false) pbGrown_first pbFirst (by simp [pbBox]) y hy hcs
  · exact r2.boxes _ _ (pbConfigured false true) pbGrown m (by simpa [pbBox] using hm) y hy hcs

end Mairix
