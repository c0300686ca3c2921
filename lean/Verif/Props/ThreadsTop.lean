import Verif.Props.ThreadsWhole
import Verif.Props.SearchTop

/-!
# C87: whole searches with `-t` and a results folder
-/

namespace Mairix
open Spec

/-- What is delivered if all that is found are message files. -/
theorem file_entries {scan} {sort : List Nat → List Nat} (hsort : ∀ l, (sort l).Perm l) {raw : RawDb} {view : ReadDb} {args : List Text} {found : List Nat} {threads sorted : Bool} (h2 : viewDb raw = .ok view)
    (hs : doSearch scan sort view args threads sorted = .ok found) (hf : ∀ i ∈ found, ∃ p, IsAt view i ⟨.file, p⟩) (md5 : Text → List UInt8) (disc : Disc) (imap : Text → Option Text) :
    ∃ l, resultEntries view (sourceOf md5 disc imap raw view) found = .ok l ∧ (l.map (·.1)).Nodup ∧ (∀ y ∈ l, y.1 < 2 ^ 31) ∧ l.length < 2 ^ 31 ∧ (∀ y ∈ l, y.2.1.type = DB_MSG_FILE ∧ IsAt view y.1 ⟨.file, y.2.1.path⟩) ∧
      (∀ y ∈ l, ∀ y' ∈ l, y.1 = y'.1 → y = y') ∧ ∀ p, (∃ y ∈ l, y.2.1.path = p) ↔ ∃ i ∈ found, IsAt view i ⟨.file, p⟩ := by
  have hany : ∀ i ∈ found, ∃ m src, view.msgs[i]? = some m ∧ sourceOf md5 disc imap raw view m = .ok src := by
    intro i hi
    obtain ⟨p, m, k1, k2, k3⟩ := hf i hi
    exact ⟨m, _, k1, by unfold sourceOf; rw [if_pos (show m.type = DB_MSG_FILE from k3)]⟩
  obtain ⟨l, l1, l2, l3⟩ := resultEntries_ok hany
  obtain ⟨hnd, -⟩ := found_live hsort hs
  have hv := view_length h2
  refine ⟨l, l1, by rw [l2]; exact hnd, ?_, ?_, ?_, ?_, ?_⟩
  · rintro ⟨i, m, s⟩ hx
    have := (List.getElem?_eq_some_iff.1 ((l3 i m s).1 hx).2.1).1
    show i < 2 ^ 31
    omega
  · have h3 := found_length hsort hs
    have : l.length = found.length := by rw [← l2]; simp
    omega
  · rintro ⟨i, m, s⟩ hx
    obtain ⟨j1, j2, -⟩ := (l3 i m s).1 hx
    obtain ⟨p, m', k1, k2, k3⟩ := hf i j1
    rw [j2] at k1
    cases k1
    exact ⟨k3, m, j2, rfl, k3⟩
  · rintro ⟨i, m, s⟩ hx ⟨i', m', s'⟩ hx' rfl
    obtain ⟨-, j1, j2⟩ := (l3 i m s).1 hx
    obtain ⟨-, j1', j2'⟩ := (l3 i m' s').1 hx'
    rw [j1] at j1'
    cases j1'
    rw [j2] at j2'
    cases j2'
    rfl
  · intro p
    constructor
    · rintro ⟨⟨i, m, s⟩, hx, rfl⟩
      obtain ⟨j1, j2, -⟩ := (l3 i m s).1 hx
      obtain ⟨p, m', k1, k2, k3⟩ := hf i j1
      rw [j2] at k1
      cases k1
      exact ⟨i, j1, m, j2, rfl, k3⟩
    · rintro ⟨i, hi, m', k1, k2, k3⟩
      obtain ⟨m, src, g1, g2⟩ := hany i hi
      rw [g1] at k1
      cases k1
      exact ⟨(i, m', src), (l3 i m' src).2 ⟨hi, g1, g2⟩, k2⟩

/-- The links in the folder if all that is delivered are message files. -/
theorem filled_links {R d d' folders T} {l : List (Nat × DbMsg × Source)} (hF : Filled R d d' folders T l) (ht : ∀ y ∈ l, y.2.1.type = DB_MSG_FILE) (honce : ∀ y ∈ l, ∀ y' ∈ l, y.2.1.path = y'.2.1.path → y = y') :
    (∀ p, LinkIn d' folders p ↔ ∃ y ∈ l, y.2.1.path = p) ∧ LinkedOnce d' folders ∧ ∀ t, ¬ TextIn d' folders t := by
  have hlink : ∀ p, ∀ f ∈ folders, ∀ nm, NameOk nm → d'.lstat (child f nm) = some (.link p) → ∃ y ∈ l, T y (child f nm) ∧ y.2.1.path = p := by
    intro p f hf nm hnm hx
    obtain ⟨y, h1, h2, h3⟩ := hF.only f hf nm hnm _ hx id
    rw [delivered, if_pos (ht y h1)] at h3
    have h3 : d'.lstat (child f nm) = some (.link y.2.1.path) := h3
    rw [hx] at h3
    exact ⟨y, h1, h2, (Node.link.inj (Option.some.inj h3)).symm⟩
  refine ⟨fun p => ⟨?_, ?_⟩, ?_, ?_⟩
  · rintro ⟨f, hf, nm, hnm, hx⟩
    obtain ⟨y, h1, -, h2⟩ := hlink p f hf nm hnm hx
    exact ⟨y, h1, h2⟩
  · rintro ⟨y, hy, k2⟩
    obtain ⟨f, hf, nm, hnm, -, h3⟩ := hF.each _ hy (.inl (ht y hy))
    simp only [delivered, if_pos (ht y hy), k2] at h3
    exact ⟨f, hf, nm, hnm, h3⟩
  · intro p f hf nm hnm f' hf' nm' hnm' h1 h2
    obtain ⟨y, k1, k2, k4⟩ := hlink p f hf nm hnm h1
    obtain ⟨y', k1', k2', k4'⟩ := hlink p f' hf' nm' hnm' h2
    obtain rfl := honce y k1 y' k1' (k4.trans k4'.symm)
    exact hF.one _ k1 _ _ k2 k2'
  · rintro t ⟨f, hf, nm, hnm, hx⟩
    obtain ⟨y, h1, h2, h3⟩ := hF.only f hf nm hnm _ hx id
    rw [delivered, if_pos (ht y h1)] at h3
    have h3 : d'.lstat (child f nm) = some (.link y.2.1.path) := h3
    rw [hx] at h3
    cases h3

/-- What the search delivers, under the conditions of `C85_exact_partial`. -/
theorem thread_entries {hashfn : Nat → Text → Nat} {mktime : Nat → Nat → Nat → Int} {md5 : Text → List UInt8} (hmd5 : ∀ t, (md5 t).length = 16) {xs : List Indexing} {x : Indexing} {file : Text}
    (hl : ∀ y ∈ xs ++ [x], LibraryOk y) (hd : ∀ y ∈ xs ++ [x], DiscOk y.disc)
    (hc : ∀ y ∈ xs ++ [x], ∃ s items, ∃ N < y.depth, Spec.Means y.config y.disc.fs s items ∧ PathMax y.disc.fs N)
    {s : Setting} {items : FolderType → List FolderItem} (hm : Spec.Means x.config x.disc.fs s items)
    (hu : ∀ y ∈ xs, Unchanged y.disc x.disc) (hf : x.fast = false) (e : indexMails hashfn mktime md5 (xs ++ [x]) none = .ok (some file))
    (hp : ∀ y ∈ xs ++ [x], y.purge = false) (hb : ∀ y ∈ xs ++ [x], y.config.mboxen = none) (hlast : ∀ y z, [y, z].Sublist (xs ++ [x]) → Lasts y z)
    (hmail : ∀ p, MessageFile s items p → IsFile x.disc.fs p → ∃ m, FileMeans mktime x.disc p m)
    {scan dateRange} (hsc : ScansDates scan dateRange) {cs : List Cond} {args : List Text} (hq : QueryWrittenAs dateRange cs args) (hfit : ∀ c ∈ cs, Cond.Fits c) (sort : List Nat → List Nat)
    (hsort : ∀ l, (sort l).Perm l) (imap : Text → Option Text) :
    ∃ raw view found l, openDb file = .ok raw ∧ viewDb raw = .ok view ∧ doSearch scan sort view args true false = .ok found ∧ resultEntries view (sourceOf md5 x.disc imap raw view) found = .ok l ∧
      (l.map (·.1)).Nodup ∧ (∀ y ∈ l, y.1 < 2 ^ 31) ∧ l.length < 2 ^ 31 ∧ (∀ y ∈ l, y.2.1.type = DB_MSG_FILE) ∧ (∀ y ∈ l, ∀ y' ∈ l, y.2.1.path = y'.2.1.path → y = y') ∧
      ∀ p, (∃ y ∈ l, y.2.1.path = p) ↔
        ∃ q m y, SameThread mktime s items x.disc p q ∧ MessageFile s items q ∧ FileMeans mktime x.disc q m ∧ Tells m q (x.disc.size q) y ∧ ∀ c ∈ cs, c.Holds y := by
  obtain ⟨raw, view, a1, a2, a3⟩ := C85_exact_partial hmd5 hl hd hc hm hu hf e hp hb hlast hmail
  obtain ⟨raw', view', info, b1, b2, -, b4, -⟩ := whole_view hmd5 hl hd hc hm hu hf e
  rw [a1] at b1
  cases b1
  rw [a2] at b2
  cases b2
  obtain ⟨found, f1, f2, f3⟩ := a3 hsc hq hfit sort
  obtain ⟨l, l1, l2, l3, l4, l5, l6, l7⟩ := file_entries hsort a2 f1 f2 md5 x.disc imap
  refine ⟨raw, view, found, l, a1, a2, f1, l1, l2, l3, l4, fun y hy => (l5 y hy).1, ?_, fun p => by rw [l7]; exact f3 p⟩
  intro y hy y' hy' h
  refine l6 y hy y' hy' (b4 _ _ _ (l5 y hy).2 ?_)
  rw [h]
  exact (l5 y' hy').2

/-- **C87, maildirs.** Under the conditions of `C85_exact_partial`: a search with `-t`, with a maildir for the results whose `new` and `cur` are different directories, ends without a fault; on the disk nothing but the entries of
these two is changed; and then there are links to exactly the messages in the threads of those that satisfy the query, one to each, and nothing of earlier searches. -/
theorem C87_maildir_partial {hashfn : Nat → Text → Nat} {mktime : Nat → Nat → Nat → Int} {md5 : Text → List UInt8} (hmd5 : ∀ t, (md5 t).length = 16) {xs : List Indexing} {x : Indexing} {file : Text}
    (hl : ∀ y ∈ xs ++ [x], LibraryOk y) (hd : ∀ y ∈ xs ++ [x], DiscOk y.disc)
    (hc : ∀ y ∈ xs ++ [x], ∃ s items, ∃ N < y.depth, Spec.Means y.config y.disc.fs s items ∧ PathMax y.disc.fs N)
    {s : Setting} {items : FolderType → List FolderItem} (hm : Spec.Means x.config x.disc.fs s items)
    (hu : ∀ y ∈ xs, Unchanged y.disc x.disc) (hf : x.fast = false) (e : indexMails hashfn mktime md5 (xs ++ [x]) none = .ok (some file))
    (hp : ∀ y ∈ xs ++ [x], y.purge = false) (hb : ∀ y ∈ xs ++ [x], y.config.mboxen = none) (hlast : ∀ y z, [y, z].Sublist (xs ++ [x]) → Lasts y z)
    (hmail : ∀ p, MessageFile s items p → IsFile x.disc.fs p → ∃ m, FileMeans mktime x.disc p m)
    {scan dateRange} (hsc : ScansDates scan dateRange) {cs : List Cond} {args : List Text} (hq : QueryWrittenAs dateRange cs args) (hfit : ∀ c ∈ cs, Cond.Fits c) (sort : List Nat → List Nat)
    (hsort : ∀ l, (sort l).Perm l) (imap : Text → Option Text)
    {d0 d : Disk} {dir : Text} (h1 : maybeCreateMaildir d0 dir = .ok d) {n c : Nat} {en ec : List (Text × Nat)}
    (fn : Folder d [n, c] (dir ++ bs "/new") n en) (fc : Folder d [n, c] (dir ++ bs "/cur") c ec) (hnc : n ≠ c) (hr : Roomy d (maildirSubs dir) fun nm => bs "123456789." <+: nm) :
    ∃ d', searchTop scan sort md5 x.disc imap .maildir dir true false false false file args d0 = ⟨d', none⟩ ∧ Kept [n, c] d d' ∧ LinkedOnce d' (maildirSubs dir) ∧ (∀ t, ¬ TextIn d' (maildirSubs dir) t) ∧
      ∀ p, LinkIn d' (maildirSubs dir) p ↔
        ∃ q m y, SameThread mktime s items x.disc p q ∧ MessageFile s items q ∧ FileMeans mktime x.disc q m ∧ Tells m q (x.disc.size q) y ∧ ∀ c ∈ cs, c.Holds y := by
  obtain ⟨raw, view, found, l, o1, o2, hs, l1, l2, l3, l4, l5, l6, l7⟩ := thread_entries hmd5 hl hd hc hm hu hf e hp hb hlast hmail hsc hq hfit sort hsort imap
  obtain ⟨d', e1, e2, e3⟩ := maildir_filled l2 l3 h1 fn fc hnc hr
  obtain ⟨k1, k2, k3⟩ := filled_links e3 l5 l6
  refine ⟨d', ?_, e2, k2, k3, fun p => by rw [k1]; exact l7 p⟩
  unfold searchTop
  simp only [o1, o2, bind, Except.bind, makeFolder, h1, hs, l1, clearResults, fillFolder]
  unfold searchMaildir at e1
  simp only [h1, bind, Except.bind] at e1
  simp only [Bool.false_eq_true, if_false] at e1 ⊢
  rw [e1]

/-- **C87, MH folders.** The same for an MH folder. -/
theorem C87_mh_partial {hashfn : Nat → Text → Nat} {mktime : Nat → Nat → Nat → Int} {md5 : Text → List UInt8} (hmd5 : ∀ t, (md5 t).length = 16) {xs : List Indexing} {x : Indexing} {file : Text}
    (hl : ∀ y ∈ xs ++ [x], LibraryOk y) (hd : ∀ y ∈ xs ++ [x], DiscOk y.disc)
    (hc : ∀ y ∈ xs ++ [x], ∃ s items, ∃ N < y.depth, Spec.Means y.config y.disc.fs s items ∧ PathMax y.disc.fs N)
    {s : Setting} {items : FolderType → List FolderItem} (hm : Spec.Means x.config x.disc.fs s items)
    (hu : ∀ y ∈ xs, Unchanged y.disc x.disc) (hf : x.fast = false) (e : indexMails hashfn mktime md5 (xs ++ [x]) none = .ok (some file))
    (hp : ∀ y ∈ xs ++ [x], y.purge = false) (hb : ∀ y ∈ xs ++ [x], y.config.mboxen = none) (hlast : ∀ y z, [y, z].Sublist (xs ++ [x]) → Lasts y z)
    (hmail : ∀ p, MessageFile s items p → IsFile x.disc.fs p → ∃ m, FileMeans mktime x.disc p m)
    {scan dateRange} (hsc : ScansDates scan dateRange) {cs : List Cond} {args : List Text} (hq : QueryWrittenAs dateRange cs args) (hfit : ∀ c ∈ cs, Cond.Fits c) (sort : List Nat → List Nat)
    (hsort : ∀ l, (sort l).Perm l) (imap : Text → Option Text)
    {d0 d : Disk} {dir : Text} (h1 : ensureDir d0 dir = .ok d) {r : Nat} {es : List (Text × Nat)}
    (f : Folder d [r] dir r es) (hr : Roomy d [dir] fun nm => ∀ c ∈ nm, isDigit c = true) (hold : ∀ nm, NameOk nm → ∀ x, d.lstat (child dir nm) = some x → ¬ Stays x → validMh nm = true) :
    ∃ d', searchTop scan sort md5 x.disc imap .mh dir true false false false file args d0 = ⟨d', none⟩ ∧ Kept [r] d d' ∧ LinkedOnce d' [dir] ∧ (∀ t, ¬ TextIn d' [dir] t) ∧
      ∀ p, LinkIn d' [dir] p ↔
        ∃ q m y, SameThread mktime s items x.disc p q ∧ MessageFile s items q ∧ FileMeans mktime x.disc q m ∧ Tells m q (x.disc.size q) y ∧ ∀ c ∈ cs, c.Holds y := by
  obtain ⟨raw, view, found, l, o1, o2, hs, l1, l2, l3, l4, l5, l6, l7⟩ := thread_entries hmd5 hl hd hc hm hu hf e hp hb hlast hmail hsc hq hfit sort hsort imap
  obtain ⟨d', e1, e2, e3⟩ := mh_filled l2 l4 h1 f hr hold
  obtain ⟨k1, k2, k3⟩ := filled_links e3 l5 l6
  refine ⟨d', ?_, e2, k2, k3, fun p => by rw [k1]; exact l7 p⟩
  unfold searchTop
  simp only [o1, o2, bind, Except.bind, makeFolder, h1, hs, l1, clearResults, fillFolder]
  unfold searchMh at e1
  simp only [h1, bind, Except.bind] at e1
  simp only [Bool.false_eq_true, if_false] at e1 ⊢
  rw [e1]

end Mairix
