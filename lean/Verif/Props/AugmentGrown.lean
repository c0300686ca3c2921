import Verif.Props.Augment
import Verif.Props.Numbers
import Verif.Spec.AugmentGrown

/-!
# C88: searches with `-a` with indexing runs between them
-/

namespace Mairix
open Spec

theorem indexMails_append {hashfn : Nat → Text → Nat} {mktime : Nat → Nat → Nat → Int} {md5 : Text → List UInt8} : ∀ {xs ys : List Indexing} {f g h : Option Text}, indexMails hashfn mktime md5 (xs ++ ys) f = .ok h →
    indexMails hashfn mktime md5 xs f = .ok g → indexMails hashfn mktime md5 ys g = .ok h
  | [], ys, f, g, h, e, e' => by
    cases e'
    exact e
  | x :: xs, ys, f, g, h, e, e' => by
    obtain ⟨f1, a1, a2⟩ := res_bind_ok e
    obtain ⟨f2, b1, b2⟩ := res_bind_ok e'
    rw [a1] at b1
    cases b1
    exact indexMails_append a2 b2

/-- The numbers of results of different searches. -/
theorem later_path {hashfn : Nat → Text → Nat} {mktime : Nat → Nat → Nat → Int} {md5 : Text → List UInt8} (hmd5 : ∀ t, (md5 t).length = 16) {dateRange} {a b : BoxSearch}
    (ha : a.Prepared hashfn mktime md5 dateRange) (hb : b.Prepared hashfn mktime md5 dateRange) (h : Later a b) {raw raw' : RawDb} {view view' : ReadDb}
    (a1 : openDb a.file = .ok raw) (a2 : viewDb raw = .ok view) (b1 : openDb b.file = .ok raw') (b2 : viewDb raw' = .ok view') {i : Nat} {m m' : DbMsg}
    (hm : view.msgs[i]? = some m) (ht : m.type = DB_MSG_FILE) (hm' : view'.msgs[i]? = some m') (ht' : m'.type = DB_MSG_FILE) : m.path = m'.path := by
  obtain ⟨ys, hp, heq⟩ := h
  have hrun := hb.runs
  rw [heq] at hrun
  obtain ⟨raw1, view1, raw2, view2, c1, c2, c3, c4, -, c5, -⟩ := C91_numbers hmd5 (fun y hy => hb.library y (heq ▸ hy)) (fun y hy => hb.discs y (heq ▸ hy)) (fun y hy => hb.configs y (heq ▸ hy)) hp ha.runs
    (indexMails_append hrun ha.runs)
  rw [a1] at c1
  cases c1
  rw [a2] at c2
  cases c2
  rw [b1] at c3
  cases c3
  rw [b2] at c4
  cases c4
  obtain ⟨m1, d1, d2, -⟩ := c5 i (List.getElem?_eq_some_iff.1 hm).1 ⟨.file, m'.path⟩ ⟨m', hm', rfl, ht'⟩
  rw [hm] at d1
  cases d1
  exact d2

/-- Only links, and those of the list. -/
theorem filled_linked {R d d' folders T} {l : List (Nat × DbMsg × Source)} (hF : Filled R d d' folders T l) (ht : ∀ y ∈ l, y.2.1.type = DB_MSG_FILE) :
    (∀ p, LinkIn d' folders p ↔ ∃ y ∈ l, y.2.1.path = p) ∧ ∀ t, ¬ TextIn d' folders t := by
  refine ⟨fun p => ⟨?_, ?_⟩, ?_⟩
  · rintro ⟨f, hf, nm, hnm, hx⟩
    obtain ⟨y, h1, h2, h3⟩ := hF.only f hf nm hnm _ hx id
    rw [delivered, if_pos (ht y h1)] at h3
    have h3 : d'.lstat (child f nm) = some (.link y.2.1.path) := h3
    rw [hx] at h3
    exact ⟨y, h1, (Node.link.inj (Option.some.inj h3)).symm⟩
  · rintro ⟨y, hy, k2⟩
    obtain ⟨f, hf, nm, hnm, -, h3⟩ := hF.each _ hy (.inl (ht y hy))
    simp only [delivered, if_pos (ht y hy), k2] at h3
    exact ⟨f, hf, nm, hnm, h3⟩
  · rintro t ⟨f, hf, nm, hnm, hx⟩
    obtain ⟨y, h1, h2, h3⟩ := hF.only f hf nm hnm _ hx id
    rw [delivered, if_pos (ht y h1)] at h3
    have h3 : d'.lstat (child f nm) = some (.link y.2.1.path) := h3
    rw [hx] at h3
    cases h3

/-- What the searches so far have delivered. -/
structure Gathers (mktime : Nat → Nat → Nat → Int) (done : List BoxSearch) (U : List (Nat × DbMsg × Source)) : Prop where
  small : ∀ y ∈ U, y.1 < 2 ^ 31
  kinds : ∀ y ∈ U, y.2.1.type = DB_MSG_FILE
  of : ∀ y ∈ U, ∃ a ∈ done, FoundThen mktime a y.2.1.path ∧ ∃ raw view, openDb a.file = .ok raw ∧ viewDb raw = .ok view ∧ view.msgs[y.1]? = some y.2.1
  files : ∀ a ∈ done, ∀ p m, MessageFile a.setting a.items p → FileMeans mktime a.x.disc p m → ∀ z, Tells m p (a.x.disc.size p) z → (∀ c ∈ a.query, c.Holds z) → ∃ y ∈ U, y.2.1.path = p

/-- One search more. -/
theorem gathers_step {hashfn : Nat → Text → Nat} {mktime : Nat → Nat → Nat → Int} {md5 : Text → List UInt8} (hmd5 : ∀ t, (md5 t).length = 16) {scan dateRange} (hsc : ScansDates scan dateRange)
    {done : List BoxSearch} {b : BoxSearch} (hdone : ∀ a ∈ done, a.Prepared hashfn mktime md5 dateRange) (hb : b.Prepared hashfn mktime md5 dateRange) (hnone : ∀ p, ¬ Configured b.setting b.items .mbox p)
    (hlater : ∀ a ∈ done, Later a b) (sort : List Nat → List Nat) (hsort : ∀ l, (sort l).Perm l) (imap : Text → Option Text) {d D : Disk} {dir : Text} {n c : Nat} (hnc : n ≠ c)
    {U : List (Nat × DbMsg × Source)} (hC : Collected n c dir d D U) (hG : Gathers mktime done U) :
    ∃ raw view found l D', openDb b.file = .ok raw ∧ viewDb raw = .ok view ∧ doSearch scan sort view b.args false false = .ok found ∧
      resultEntries view (sourceOf md5 b.x.disc imap raw view) found = .ok l ∧ deliverMaildir dir false D l = .ok D' ∧ Collected n c dir d D' (U ++ l) ∧ Gathers mktime (done ++ [b]) (U ++ l) := by
  obtain ⟨raw, view, found, l, b1, b2, b3, b4, hE⟩ := top_entries hmd5 hb.library hb.discs hb.configs hb.means hb.unchanged hb.careful hb.after hb.grown hb.runs hsc hb.written hb.fits sort hsort imap
  have hk : ∀ y ∈ l, y.2.1.type = DB_MSG_FILE ∧ MessageFile b.setting b.items y.2.1.path := by
    intro y hy
    rcases hE.kinds y hy with ⟨h1, h2⟩ | ⟨p, _, _, h, _⟩
    · exact ⟨h2, h1⟩
    · exact absurd h (hnone p)
  have hv := resultEntries_view b4
  obtain ⟨D', c1, c2⟩ := collected_step hnc hC hG.kinds (fun y hy => (hk y hy).1) hG.small hE.small hE.nodup (by
    intro y hy y' hy' he
    obtain ⟨a, h1, -, raw0, view0, h2, h3, h4⟩ := hG.of y hy
    refine later_path hmd5 (hdone a h1) hb (hlater a h1) h2 h3 b1 b2 h4 (hG.kinds y hy) (m' := y'.2.1) ?_ (hk y' hy').1
    rw [he]
    exact (hv y' hy').1)
  refine ⟨raw, view, found, l, D', b1, b2, b3, b4, c1, c2, ?_, ?_, ?_, ?_⟩
  · intro y hy
    rcases List.mem_append.1 hy with h | h
    · exact hG.small y h
    · exact hE.small y h
  · intro y hy
    rcases List.mem_append.1 hy with h | h
    · exact hG.kinds y h
    · exact (hk y h).1
  · intro y hy
    rcases List.mem_append.1 hy with h | h
    · obtain ⟨a, h1, h2⟩ := hG.of y h
      exact ⟨a, by simp [h1], h2⟩
    · refine ⟨b, by simp, ⟨(hk y h).2, ?_⟩, raw, view, b1, b2, (hv y h).1⟩
      intro m z hm hz
      exact (hE.files _ m (hk y h).2 hm z hz).1 ⟨y, h, (hk y h).1, rfl⟩
  · intro a ha p m hp hm z hz hcs
    rcases List.mem_append.1 ha with h | h
    · obtain ⟨y, hy, g⟩ := hG.files a h p m hp hm z hz hcs
      exact ⟨y, by simp [hy], g⟩
    · rw [List.mem_singleton] at h
      subst h
      obtain ⟨y, hy, -, g⟩ := (hE.files p m hp hm z hz).2 hcs
      exact ⟨y, by simp [hy], g⟩

/-- All of those with `-a`. -/
theorem gathers_more {hashfn : Nat → Text → Nat} {mktime : Nat → Nat → Nat → Int} {md5 : Text → List UInt8} (hmd5 : ∀ t, (md5 t).length = 16) {scan dateRange} (hsc : ScansDates scan dateRange)
    (sort : List Nat → List Nat) (hsort : ∀ l, (sort l).Perm l) (imap : Text → Option Text) {d : Disk} {dir : Text} {n c : Nat} (hnc : n ≠ c) (ho : Outside d [n, c] dir) (ho' : Outside d [n, c] (dir ++ bs "/tmp")) :
    ∀ {qs done : List BoxSearch}, (∀ a ∈ done ++ qs, a.Prepared hashfn mktime md5 dateRange) → (∀ a ∈ qs, ∀ p, ¬ Configured a.setting a.items .mbox p) → (done ++ qs).Pairwise Later →
      ∀ {D U}, Collected n c dir d D U → Gathers mktime done U →
      ∃ D' U', SearchesIntoMaildir scan sort md5 imap dir true qs D D' ∧ Collected n c dir d D' U' ∧ Gathers mktime (done ++ qs) U'
  | [], done, _, _, _, D, U, hC, hG => ⟨D, U, .done, hC, by rw [List.append_nil]; exact hG⟩
  | b :: qs, done, hq, hnone, hp, D, U, hC, hG => by
    obtain ⟨raw, view, found, l, D1, b1, b2, b3, b4, b5, b6, b7⟩ := gathers_step hmd5 hsc (fun a ha => hq a (by simp [ha])) (hq b (by simp)) (hnone b (by simp))
      (fun a ha => (List.pairwise_append.1 hp).2.2 a ha b (by simp)) sort hsort imap hnc hC hG
    obtain ⟨D', U', c1, c2, c3⟩ := gathers_more hmd5 hsc sort hsort imap hnc ho ho' (qs := qs) (done := done ++ [b]) (fun a ha => hq a (by simpa using ha)) (fun a ha => hnone a (by simp [ha])) (by simpa using hp) b6 b7
    refine ⟨D', U', .more ?_ c1, c2, by simpa using c3⟩
    unfold searchTop
    simp only [b1, b2, bind, Except.bind, makeFolder, collected_again hC ho ho', b3, b4, fillFolder, if_true, b5]

/-- **C88, with indexing runs between the searches.** A search and any number of searches with `-a` after it, with a maildir for the results; before each of them any number of indexing runs over mail in which there are no mboxen, those after
the first search without `-p`, whatever is delivered, changed or deleted in between: all searches end without a fault; on the disk nothing but the entries of `new` and `cur` is changed; and in the end there is a link to every message
file that satisfied one of the queries as it was at the time of that search, and there are no links to others and no files. (There can be two links to a file that was changed between the searches. With `-p` it is false, `C88_changed_violation`. Missing: mboxen,
for which see `C88_boxes_partial`, and IMAP.) -/
theorem C88_grown_partial {hashfn : Nat → Text → Nat} {mktime : Nat → Nat → Nat → Int} {md5 : Text → List UInt8} (hmd5 : ∀ t, (md5 t).length = 16) {scan dateRange} (hsc : ScansDates scan dateRange)
    {q : BoxSearch} {qs : List BoxSearch} (hq : ∀ a ∈ q :: qs, a.Prepared hashfn mktime md5 dateRange) (hnone : ∀ a ∈ q :: qs, ∀ p, ¬ Configured a.setting a.items .mbox p) (hlater : (q :: qs).Pairwise Later)
    (sort : List Nat → List Nat) (hsort : ∀ l, (sort l).Perm l) (imap : Text → Option Text)
    {d0 d : Disk} {dir : Text} (h1 : maybeCreateMaildir d0 dir = .ok d) {n c : Nat} {en ec : List (Text × Nat)}
    (fn : Folder d [n, c] (dir ++ bs "/new") n en) (fc : Folder d [n, c] (dir ++ bs "/cur") c ec) (hnc : n ≠ c) (hr : Roomy d (maildirSubs dir) fun nm => bs "123456789." <+: nm)
    (ho : Outside d [n, c] dir) (ho' : Outside d [n, c] (dir ++ bs "/tmp")) :
    ∃ d', SearchesIntoMaildir scan sort md5 imap dir false (q :: qs) d0 d' ∧ Kept [n, c] d d' ∧ (∀ t, ¬ TextIn d' (maildirSubs dir) t) ∧
      (∀ p, LinkIn d' (maildirSubs dir) p → ∃ a ∈ q :: qs, FoundThen mktime a p) ∧
      ∀ a ∈ q :: qs, ∀ p m, MessageFile a.setting a.items p → FileMeans mktime a.x.disc p m → ∀ z, Tells m p (a.x.disc.size p) z → (∀ c ∈ a.query, c.Holds z) → LinkIn d' (maildirSubs dir) p := by
  obtain ⟨raw, view, found, l, D1, b1, b2, b3, b4, b5, b6, b7⟩ := gathers_step hmd5 hsc (done := []) (by simp) (hq q (by simp)) (hnone q (by simp)) (by simp) sort hsort imap hnc (collected_clear fn fc hnc hr)
    ⟨by simp, by simp, by simp, by simp⟩
  obtain ⟨D', U', c1, c2, c3⟩ := gathers_more hmd5 hsc sort hsort imap hnc ho ho' (qs := qs) (done := [] ++ [q]) (by simpa using hq) (fun a ha => hnone a (by simp [ha])) (by simpa using hlater) b6 b7
  obtain ⟨k1, k2⟩ := filled_linked c2.filled c3.kinds
  refine ⟨D', .more ?_ c1, c2.kept, k2, ?_, ?_⟩
  · unfold searchTop
    simp only [b1, b2, bind, Except.bind, makeFolder, h1, b3, b4, fillFolder, Bool.false_eq_true, if_false, b5]
  · intro p hp
    obtain ⟨y, hy, rfl⟩ := (k1 p).1 hp
    obtain ⟨a, g1, g2, -⟩ := c3.of y hy
    exact ⟨a, by simpa using g1, g2⟩
  · intro a ha p m hp hm z hz hcs
    exact (k1 p).2 (c3.files a (by simpa using ha) p m hp hm z hz hcs)

end Mairix
