import Verif.Props.ThreadsTop
import Verif.Spec.Augment

/-!
# C88: searches with `-a` after one without
-/

namespace Mairix
open Spec

theorem resultEntries_view {view : ReadDb} {source : DbMsg → Res Source} : ∀ {found : List Nat} {l : List (Nat × DbMsg × Source)}, resultEntries view source found = .ok l →
    ∀ y ∈ l, view.msgs[y.1]? = some y.2.1 ∧ source y.2.1 = .ok y.2.2
  | [], l, h => by
    cases h
    intro y hy
    cases hy
  | i :: found, l, h => by
    unfold resultEntries at h
    cases hm : view.msgs[i]? with
    | none => simp only [hm] at h; cases h
    | some m =>
      simp only [hm] at h
      obtain ⟨s, h1, h⟩ := res_bind_ok h
      obtain ⟨r, h2, h⟩ := res_bind_ok h
      cases h
      intro y hy
      rcases List.mem_cons.1 hy with rfl | hy
      · exact ⟨hm, h1⟩
      · exact resultEntries_view h2 y hy

/-- The maildir holds links for `U` and nothing else. -/
structure Collected (n c : Nat) (dir : Text) (d e : Disk) (U : List (Nat × DbMsg × Source)) : Prop where
  kept : Kept [n, c] d e
  new : ∃ en, Folder e [n, c] (dir ++ bs "/new") n en
  cur : ∃ ec, Folder e [n, c] (dir ++ bs "/cur") c ec
  roomy : Roomy e (maildirSubs dir) fun nm => bs "123456789." <+: nm
  filled : Filled [n, c] d e (maildirSubs dir) (fun y t => maildirName dir y.1 y.2.1 = .ok (some t)) U

theorem collected_clear {d : Disk} {dir : Text} {n c : Nat} {en ec : List (Text × Nat)} (fn : Folder d [n, c] (dir ++ bs "/new") n en) (fc : Folder d [n, c] (dir ++ bs "/cur") c ec) (hnc : n ≠ c)
    (hr : Roomy d (maildirSubs dir) fun nm => bs "123456789." <+: nm) : Collected n c dir d (clearResults .maildir dir d) [] := by
  obtain ⟨k, c1, c2⟩ := clearedOf_two fn fc hnc fun _ => true
  have hS : ∀ s ∈ maildirSubs dir, ClearedOf [n, c] d (clearResults .maildir dir d) (fun _ => true) s := by
    intro s hs
    rcases List.mem_cons.1 hs with rfl | hs
    · exact c1
    · rcases List.mem_cons.1 hs with rfl | hs
      · exact c2
      · cases hs
  have hstay : ∀ f ∈ maildirSubs dir, ∀ nm, NameOk nm → ∀ x, (clearResults .maildir dir d).lstat (child f nm) = some x → Stays x ∧ ∃ y, d.lstat (child f nm) = some y ∧ Stays y := by
    intro f hf nm hnm x hx
    obtain ⟨r, es, f1, f2⟩ := hS f hf
    obtain ⟨j, hj⟩ := lookup_of_lstat hx
    unfold Disk.lstat at hx
    rw [hj] at hx
    rw [f2.lookup hnm] at hj
    obtain ⟨h1, h2⟩ := (lookup_filter f1.names _).1 hj
    obtain ⟨y, hy⟩ := f1.inodes _ (mem_of_lookup h1)
    simp only [Bool.true_and, Bool.not_eq_true'] at h2
    have hst := (removable_false_iff hy).1 h2
    obtain ⟨z, hz, hzs⟩ := stays_kept k hy hst
    have hz : (clearResults .maildir dir d).nodes[j]? = some z := hz
    have hx : (clearResults .maildir dir d).nodes[j]? = some x := hx
    rw [hx] at hz
    cases hz
    exact ⟨hzs, y, by simp only [Disk.lstat, f1.lookup hnm, h1]; exact hy, hst⟩
  refine ⟨k, ?_, ?_, ?_, ?_, by simp, by simp⟩
  · obtain ⟨r, es, f1, f2⟩ := c1
    obtain rfl := f1.unique fn
    exact ⟨_, f2⟩
  · obtain ⟨r, es, f1, f2⟩ := c2
    obtain rfl := f1.unique fc
    exact ⟨_, f2⟩
  · intro f hf nm hnm x hx _
    obtain ⟨-, y, hy, hst⟩ := hstay f hf nm hnm x hx
    exact hr f hf nm hnm y hy hst
  · intro f hf nm hnm x hx hns
    exact absurd (hstay f hf nm hnm x hx).1 hns

theorem collected_step {d e : Disk} {dir : Text} {n c : Nat} (hnc : n ≠ c) {U l : List (Nat × DbMsg × Source)} (hC : Collected n c dir d e U) (hUt : ∀ y ∈ U, y.2.1.type = DB_MSG_FILE) (hlt : ∀ y ∈ l, y.2.1.type = DB_MSG_FILE)
    (hUs : ∀ y ∈ U, y.1 < 2 ^ 31) (hls : ∀ y ∈ l, y.1 < 2 ^ 31) (hnd : (l.map (·.1)).Nodup) (hone : ∀ y ∈ U, ∀ y' ∈ l, y.1 = y'.1 → y.2.1.path = y'.2.1.path) :
    ∃ e', deliverMaildir dir false e l = .ok e' ∧ Collected n c dir d e' (U ++ l) := by
  obtain ⟨en, fn⟩ := hC.new
  obtain ⟨ec, fc⟩ := hC.cur
  obtain ⟨items, h1, h2, hit, hall⟩ := maildir_items dir false l e hnd hls
  have hfold : ∀ s ∈ maildirSubs dir, ∃ r es, Folder e [n, c] s r es := by
    intro s hs
    rcases List.mem_cons.1 hs with rfl | hs
    · exact ⟨_, _, fn⟩
    · rcases List.mem_cons.1 hs with rfl | hs
      · exact ⟨_, _, fc⟩
      · cases hs
  have hmem : ∀ it ∈ items, it.1 ∈ maildirSubs dir := by
    intro it h
    rcases (hit it h).1 with h | h
    · exact List.mem_cons.2 (.inl h)
    · exact List.mem_cons.2 (.inr (List.mem_cons.2 (.inl h)))
  have hok : ∀ it ∈ items, ItemOk [n, c] e it := by
    intro it h
    obtain ⟨-, h4, i, m, s, hm, -, hdel, -⟩ := hit it h
    obtain ⟨r, es, f⟩ := hfold _ (hmem it h)
    refine ⟨h4, r, es, f, fun hc => ?_⟩
    rw [hdel, delivered, if_pos (hlt _ hm)] at hc
    cases hc
  obtain ⟨k, hff, hres⟩ := deliverAll_spec false items hC.kept hok h2
  generalize he' : deliverAll false e items = e' at k hff hres h1
  -- what was there stays
  have hold : ∀ f ∈ maildirSubs dir, ∀ nm, NameOk nm → ∀ j, e.lookup (child f nm) = some j → e'.lookup (child f nm) = some j ∧ ∃ x, e.nodes[j]? = some x := by
    intro f hf nm hnm j hj
    obtain ⟨r, es, g⟩ := hfold f hf
    obtain ⟨es', g', -⟩ := hff _ _ _ g
    rw [g.lookup hnm] at hj
    rw [g'.lookup hnm, lookup_append, hj]
    exact ⟨rfl, g.inodes _ (mem_of_lookup hj)⟩
  have hlink : ∀ f ∈ maildirSubs dir, ∀ nm, NameOk nm → ∀ p, e.lstat (child f nm) = some (.link p) → e'.lstat (child f nm) = some (.link p) := by
    intro f hf nm hnm p h
    obtain ⟨j, hj⟩ := lookup_of_lstat h
    obtain ⟨g, -⟩ := hold f hf nm hnm j hj
    simp only [Disk.lstat, hj] at h
    simp only [Disk.lstat, g]
    exact k.same _ _ h (by simp)
  have hU : ∀ y ∈ U, ∀ f ∈ maildirSubs dir, ∀ nm, NameOk nm → maildirName dir y.1 y.2.1 = .ok (some (child f nm)) → ResultAt [n, c] d e' false (child f nm) (delivered y.2.1 y.2.2) := by
    intro y hy f hf nm hnm hT
    obtain ⟨f', hf', nm', hnm', h6, h7⟩ := hC.filled.each y hy (.inl (hUt y hy))
    have := hC.filled.one y hy _ _ hT h6
    rw [delivered, if_pos (hUt y hy)] at h7 ⊢
    have h7 : e.lstat (child f' nm') = some (.link y.2.1.path) := h7
    show e'.lstat (child f nm) = some (.link y.2.1.path)
    rw [← this] at h7
    exact hlink f hf nm hnm _ h7
  have hl : ∀ y ∈ l, ∀ f ∈ maildirSubs dir, ∀ nm, NameOk nm → maildirName dir y.1 y.2.1 = .ok (some (child f nm)) → ResultAt [n, c] d e' false (child f nm) (delivered y.2.1 y.2.2) := by
    rintro ⟨i, m, s⟩ hy f hf nm hnm hT
    obtain ⟨r, es, g⟩ := hfold f hf
    cases hlk : e.lookup (child f nm) with
    | none =>
      obtain ⟨it, hi, h3, h4⟩ := hall i m s hy _ hT
      obtain ⟨hn', r', es', g', -⟩ := hok it hi
      rw [← h3] at hlk ⊢
      rw [← h4]
      rw [g'.lookup hn'] at hlk
      exact hres it hi _ _ g' hlk
    | some j =>
      obtain ⟨-, x, hx⟩ := hold f hf nm hnm j hlk
      have hx : e.lstat (child f nm) = some x := by simp only [Disk.lstat, hlk]; exact hx
      by_cases hst : Stays x
      · refine absurd ?_ (hC.roomy f hf nm hnm x hx hst)
        rcases maildirName_cases (hls _ hy) dir m with h | ⟨sub, nm', h, h5, h6, tail, h7⟩
        · rw [hT] at h; cases h
        · rw [hT] at h
          have he := congrArg comps (Option.some.inj (Except.ok.inj h))
          rw [comps_child _ hnm, comps_child _ h6] at he
          have he := List.append_inj_right' he rfl
          rw [List.cons.inj he |>.1, h7]
          exact ⟨_, rfl⟩
      · obtain ⟨y, hyU, hT', -⟩ := hC.filled.only f hf nm hnm x hx hst
        have hp := hone y hyU _ hy (maildirName_inj (hUs y hyU) (hls _ hy) hT' hT)
        have := hU _ hyU f hf nm hnm hT'
        rw [delivered, if_pos (hUt y hyU), hp] at this
        rw [delivered, if_pos (hlt _ hy)]
        exact this
  have hnew : ∀ f ∈ maildirSubs dir, ∀ nm, NameOk nm → ∀ j, e'.lookup (child f nm) = some j → e.lookup (child f nm) = some j ∨ e.lookup (child f nm) = none ∧ ∃ y ∈ l, maildirName dir y.1 y.2.1 = .ok (some (child f nm)) := by
    intro f hf nm hnm j hj
    cases hlk : e.lookup (child f nm) with
    | some j' =>
      obtain ⟨g, -⟩ := hold f hf nm hnm j' hlk
      rw [g] at hj
      exact .inl hj
    | none =>
      refine .inr ⟨rfl, ?_⟩
      obtain ⟨r, es, g⟩ := hfold f hf
      obtain ⟨es', g', h6⟩ := hff _ _ _ g
      rw [g.lookup hnm] at hlk
      rw [g'.lookup hnm, lookup_append, hlk, Option.none_or] at hj
      obtain ⟨it, hi, h7, esi, g''⟩ := h6 _ (mem_of_lookup hj)
      obtain ⟨-, -, i, m, s, hm, h8, -⟩ := hit it hi
      refine ⟨_, hm, ?_⟩
      have hsame : it.1 = f := by
        have hi' := hmem it hi
        simp only [maildirSubs, List.mem_cons, List.not_mem_nil, or_false] at hf hi'
        rcases hf with rfl | rfl <;> rcases hi' with h | h <;> rw [h] at g'' ⊢
        · exact absurd ((fn.unique g).trans (g''.unique fc)) hnc
        · exact absurd ((fn.unique g'').trans (g.unique fc)) hnc
      rw [hsame, h7] at h8
      exact h8
  refine ⟨e', h1, hC.kept.trans k, ?_, ?_, ?_, ?_, ?_, ?_⟩
  · obtain ⟨es', g', -⟩ := hff _ _ _ fn
    exact ⟨_, g'⟩
  · obtain ⟨es', g', -⟩ := hff _ _ _ fc
    exact ⟨_, g'⟩
  · intro f hf nm hnm x hx hst
    obtain ⟨j, hj⟩ := lookup_of_lstat hx
    rcases hnew f hf nm hnm j hj with h | ⟨h, y, hy, hT⟩
    · obtain ⟨-, z, hz⟩ := hold f hf nm hnm j h
      have hz' : e.lstat (child f nm) = some z := by simp only [Disk.lstat, h]; exact hz
      simp only [Disk.lstat, hj] at hx
      refine hC.roomy f hf nm hnm z hz' ?_
      cases z with
      | dir _ => trivial
      | other => trivial
      | file t => rw [k.same _ _ hz (by simp)] at hx; cases hx; exact hst
      | link t => rw [k.same _ _ hz (by simp)] at hx; cases hx; exact hst
    · have := hl y hy f hf nm hnm hT
      rw [delivered, if_pos (hlt y hy)] at this
      have this : e'.lstat (child f nm) = some (.link y.2.1.path) := this
      rw [hx] at this
      cases this
      cases hst
  · intro f hf nm hnm x hx hns
    obtain ⟨j, hj⟩ := lookup_of_lstat hx
    rcases hnew f hf nm hnm j hj with h | ⟨h, y, hy, hT⟩
    · obtain ⟨-, z, hz⟩ := hold f hf nm hnm j h
      have hz' : e.lstat (child f nm) = some z := by simp only [Disk.lstat, h]; exact hz
      have hzs : ¬ Stays z := by
        intro hzs
        obtain ⟨w, hw, hws⟩ := stays_kept k hz hzs
        simp only [Disk.lstat, hj] at hx
        rw [hx] at hw
        cases hw
        exact hns hws
      obtain ⟨y, hy, hT, -⟩ := hC.filled.only f hf nm hnm z hz' hzs
      exact ⟨y, by simp [hy], hT, hU y hy f hf nm hnm hT⟩
    · exact ⟨y, by simp [hy], hT, hl y hy f hf nm hnm hT⟩
  · intro y hy hty
    rcases List.mem_append.1 hy with hy | hy
    · obtain ⟨f, hf, nm, hnm, h6, -⟩ := hC.filled.each y hy hty
      exact ⟨f, hf, nm, hnm, h6, hU y hy f hf nm hnm h6⟩
    · rcases maildirName_cases (hls _ hy) dir y.2.1 with h | ⟨sub, nm, h, h5, h6, -⟩
      · obtain ⟨new, h'⟩ := maildirName_ok (hls _ hy) dir y.2.1 hty
        rw [h] at h'
        cases h'
      · have hsub : dir ++ sub ∈ maildirSubs dir := by rcases h5 with rfl | rfl <;> simp [maildirSubs]
        exact ⟨dir ++ sub, hsub, nm, h6, h, hl y hy _ hsub nm h6 h⟩
  · intro y _ t t' h h'
    rw [h] at h'
    exact Option.some.inj (Except.ok.inj h')

/-- The folders are not made again. -/
theorem ensureDir_outside {R : List Nat} {d e : Disk} (k : Kept R d e) {path : Text} (h : Outside d R path) : ensureDir e path = .ok e := by
  obtain ⟨h1, r, es, h2, h3⟩ := h
  obtain ⟨es', h4⟩ := k.dirs _ _ h3
  have h5 := (h2.kept k).walk
  have h6 : e.stat path = some (.dir es') := by
    unfold Disk.stat
    rw [if_neg (by simpa using h1), k.steps, k.start, k.cwd, h5]
    exact h4
  simp only [ensureDir, directoryExists, h6, if_true]

theorem folder_outside {R : List Nat} {d : Disk} {sdir : Text} {r : Nat} {es : List (Text × Nat)} (f : Folder d R sdir r es) : Outside d R sdir := ⟨f.nonempty, r, es, f.route, f.dir⟩

theorem collected_again {d e : Disk} {dir : Text} {n c : Nat} {U : List (Nat × DbMsg × Source)} (hC : Collected n c dir d e U) (h1 : Outside d [n, c] dir) (h2 : Outside d [n, c] (dir ++ bs "/tmp")) : maybeCreateMaildir e dir = .ok e := by
  obtain ⟨en, fn⟩ := hC.new
  obtain ⟨ec, fc⟩ := hC.cur
  unfold maybeCreateMaildir
  simp only [ensureDir_outside hC.kept h1, ensureDir_outside hC.kept h2, ensureDir_outside (Kept.refl _ e) (folder_outside fn), ensureDir_outside (Kept.refl _ e) (folder_outside fc), bind, Except.bind]

/-- What the searches deliver. -/
structure Delivers (mktime : Nat → Nat → Nat → Int) (x : Indexing) (s : Setting) (items : FolderType → List FolderItem) (view : ReadDb) (source : DbMsg → Res Source) (css : List (List Cond)) (U : List (Nat × DbMsg × Source)) : Prop where
  small : ∀ y ∈ U, y.1 < 2 ^ 31
  kinds : ∀ y ∈ U, y.2.1.type = DB_MSG_FILE ∧ MessageFile s items y.2.1.path
  of : ∀ y ∈ U, view.msgs[y.1]? = some y.2.1 ∧ source y.2.1 = .ok y.2.2
  files : ∀ p m, MessageFile s items p → FileMeans mktime x.disc p m → ∀ z, Tells m p (x.disc.size p) z → ((∃ y ∈ U, y.2.1.path = p) ↔ ∃ cs ∈ css, ∀ c ∈ cs, c.Holds z)

theorem Delivers.inj {mktime x s items view source css U} (h : Delivers mktime x s items view source css U) {y y'} (hy : y ∈ U) (h1 : view.msgs[y'.1]? = some y'.2.1) (h2 : source y'.2.1 = .ok y'.2.2) (he : y.1 = y'.1) : y = y' := by
  obtain ⟨i, m, t⟩ := y
  obtain ⟨i', m', t'⟩ := y'
  obtain ⟨g1, g2⟩ := h.of _ hy
  simp only at he g1 g2 h1 h2
  subst he
  rw [g1] at h1
  cases h1
  rw [g2] at h2
  cases h2
  rfl

/-- **C88.** Any number of indexing runs over mail in which there are no mboxen, then a search and any number of searches with `-a`, with a maildir for the results: all of them end without a fault; on the disk nothing but the
entries of `new` and `cur` is changed; and in the end there is exactly one link to every message file that satisfies one of the queries, and there are no links to others. (With mboxen: `C88_boxes_partial`. Missing: IMAP servers;
MH folders, where it is false, `C56_augment_lost_violation`; databases that are changed between the searches, where it is false too, `C88_changed_violation`.) -/
theorem C88_augment_partial {hashfn : Nat → Text → Nat} {mktime : Nat → Nat → Nat → Int} {md5 : Text → List UInt8} (hmd5 : ∀ t, (md5 t).length = 16) {xs : List Indexing} {x : Indexing} {file : Text}
    (hl : ∀ y ∈ xs ++ [x], LibraryOk y) (hd : ∀ y ∈ xs ++ [x], DiscOk y.disc)
    (hc : ∀ y ∈ xs ++ [x], ∃ s items, ∃ N < y.depth, Spec.Means y.config y.disc.fs s items ∧ PathMax y.disc.fs N)
    {s : Setting} {items : FolderType → List FolderItem} (hm : Spec.Means x.config x.disc.fs s items)
    (hu : ∀ y ∈ xs, Unchanged y.disc x.disc) (hf : x.fast = false) (hafter : ∀ y ∈ xs, y.disc.after = x.disc.after) (hnone : ∀ p, ¬ Configured s items .mbox p)
    (e : indexMails hashfn mktime md5 (xs ++ [x]) none = .ok (some file))
    {scan dateRange} (hsc : ScansDates scan dateRange) (sort : List Nat → List Nat) (hsort : ∀ l, (sort l).Perm l) (imap : Text → Option Text)
    {d0 d : Disk} {dir : Text} (h1 : maybeCreateMaildir d0 dir = .ok d) {n c : Nat} {en ec : List (Text × Nat)}
    (fn : Folder d [n, c] (dir ++ bs "/new") n en) (fc : Folder d [n, c] (dir ++ bs "/cur") c ec) (hnc : n ≠ c) (hr : Roomy d (maildirSubs dir) fun nm => bs "123456789." <+: nm)
    (ho : Outside d [n, c] dir) (ho' : Outside d [n, c] (dir ++ bs "/tmp"))
    {cs : List Cond} {args : List Text} (hq : QueryWrittenAs dateRange cs args) (hfit : ∀ c ∈ cs, Cond.Fits c)
    {css : List (List Cond)} {qs : List (List Text)} (hqs : Pairs (fun cs args => QueryWrittenAs dateRange cs args) css qs) (hfits : ∀ cs ∈ css, ∀ c ∈ cs, Cond.Fits c) :
    ∃ d1 d', searchTop scan sort md5 x.disc imap .maildir dir false false false false file args d0 = ⟨d1, none⟩ ∧ Augmented scan sort md5 x.disc imap dir file qs d1 d' ∧
      Kept [n, c] d d' ∧ LinkedOnce d' (maildirSubs dir) ∧ (∀ t, ¬ TextIn d' (maildirSubs dir) t) ∧ (∀ p, LinkIn d' (maildirSubs dir) p → MessageFile s items p) ∧
      ∀ p m, MessageFile s items p → FileMeans mktime x.disc p m → ∀ y, Tells m p (x.disc.size p) y → (LinkIn d' (maildirSubs dir) p ↔ ∃ cs' ∈ cs :: css, ∀ c ∈ cs', c.Holds y) := by
  obtain ⟨raw, view, info, a1, a2, -, a4, -⟩ := whole_view hmd5 hl hd hc hm hu hf e
  -- one search more
  have hstep : ∀ {cs args}, QueryWrittenAs dateRange cs args → (∀ c ∈ cs, Cond.Fits c) → ∀ {D U css}, Collected n c dir d D U → Delivers mktime x s items view (sourceOf md5 x.disc imap raw view) css U →
      ∃ found l D', doSearch scan sort view args false false = .ok found ∧ resultEntries view (sourceOf md5 x.disc imap raw view) found = .ok l ∧ deliverMaildir dir false D l = .ok D' ∧
        Collected n c dir d D' (U ++ l) ∧ Delivers mktime x s items view (sourceOf md5 x.disc imap raw view) (css ++ [cs]) (U ++ l) := by
    intro cs args hq hfit D U css hC hD
    obtain ⟨raw', view', found, l, b1, b2, b3, b4, hE⟩ := top_entries hmd5 hl hd hc hm hu hf hafter (fun p hp => absurd hp (hnone p)) e hsc hq hfit sort hsort imap
    rw [a1] at b1
    cases b1
    rw [a2] at b2
    cases b2
    have hk : ∀ y ∈ l, y.2.1.type = DB_MSG_FILE ∧ MessageFile s items y.2.1.path := by
      intro y hy
      rcases hE.kinds y hy with ⟨h1, h2⟩ | ⟨p, _, _, h, _⟩
      · exact ⟨h2, h1⟩
      · exact absurd h (hnone p)
    have hv := resultEntries_view b4
    obtain ⟨D', c1, c2⟩ := collected_step hnc hC (fun y hy => (hD.kinds y hy).1) (fun y hy => (hk y hy).1) hD.small hE.small hE.nodup (fun y hy y' hy' he => by rw [hD.inj hy (hv y' hy').1 (hv y' hy').2 he])
    refine ⟨found, l, D', b3, b4, c1, c2, ?_, ?_, ?_, ?_⟩
    · intro y hy
      rcases List.mem_append.1 hy with h | h
      · exact hD.small y h
      · exact hE.small y h
    · intro y hy
      rcases List.mem_append.1 hy with h | h
      · exact hD.kinds y h
      · exact hk y h
    · intro y hy
      rcases List.mem_append.1 hy with h | h
      · exact hD.of y h
      · exact hv y h
    · intro p m hp hm' z hz
      constructor
      · rintro ⟨y, hy, rfl⟩
        rcases List.mem_append.1 hy with h | h
        · obtain ⟨cs', g1, g2⟩ := (hD.files _ m hp hm' z hz).1 ⟨y, h, rfl⟩
          exact ⟨cs', by simp [g1], g2⟩
        · exact ⟨cs, by simp, (hE.files _ m hp hm' z hz).1 ⟨y, h, (hk y h).1, rfl⟩⟩
      · rintro ⟨cs', h, g⟩
        rcases List.mem_append.1 h with h | h
        · obtain ⟨y, hy, h⟩ := (hD.files _ m hp hm' z hz).2 ⟨cs', h, g⟩
          exact ⟨y, by simp [hy], h⟩
        · rw [List.mem_singleton] at h
          subst h
          obtain ⟨y, hy, -, h⟩ := (hE.files _ m hp hm' z hz).2 g
          exact ⟨y, by simp [hy], h⟩
  -- all of those with `-a`
  have hmore : ∀ {css qs}, Pairs (fun cs args => QueryWrittenAs dateRange cs args) css qs → (∀ cs ∈ css, ∀ c ∈ cs, Cond.Fits c) → ∀ {D U css0}, Collected n c dir d D U →
      Delivers mktime x s items view (sourceOf md5 x.disc imap raw view) css0 U →
      ∃ D' U', Augmented scan sort md5 x.disc imap dir file qs D D' ∧ Collected n c dir d D' U' ∧ Delivers mktime x s items view (sourceOf md5 x.disc imap raw view) (css0 ++ css) U' := by
    intro css qs hqs
    induction hqs with
    | nil =>
      intro _ D U css0 hC hD
      exact ⟨D, U, .done, hC, by rw [List.append_nil]; exact hD⟩
    | @cons cs args css qs hq hqs ih =>
      intro hfits D U css0 hC hD
      obtain ⟨found, l, D1, b1, b2, b3, b4, b5⟩ := hstep hq (hfits cs (by simp)) hC hD
      obtain ⟨D', U', c1, c2, c3⟩ := ih (fun cs' h => hfits cs' (by simp [h])) b4 b5
      refine ⟨D', U', .more ?_ c1, c2, by rw [List.append_assoc] at c3; exact c3⟩
      unfold searchTop
      simp only [a1, a2, bind, Except.bind, makeFolder, collected_again hC ho ho', b1, b2, fillFolder, if_true, b3]
  obtain ⟨found, l, D1, b1, b2, b3, b4, b5⟩ := hstep hq hfit (collected_clear fn fc hnc hr) (css := []) ⟨by simp, by simp, by simp, by simp⟩
  obtain ⟨D', U', c1, c2, c3⟩ := hmore hqs hfits b4 b5
  obtain ⟨k1, k2, k3⟩ := filled_links c2.filled (fun y hy => (c3.kinds y hy).1) (by
    intro y hy y' hy' he
    obtain ⟨g1, g2⟩ := c3.of y' hy'
    refine c3.inj hy g1 g2 (a4 _ _ ⟨.file, y.2.1.path⟩ ⟨_, (c3.of y hy).1, rfl, (c3.kinds y hy).1⟩ ?_)
    rw [he]
    exact ⟨_, g1, rfl, (c3.kinds y' hy').1⟩)
  refine ⟨D1, D', ?_, c1, c2.kept, k2, k3, ?_, ?_⟩
  · unfold searchTop
    simp only [a1, a2, bind, Except.bind, makeFolder, h1, b1, b2, fillFolder, Bool.false_eq_true, if_false, b3]
  · intro p hp
    obtain ⟨y, hy, rfl⟩ := (k1 p).1 hp
    exact (c3.kinds y hy).2
  · intro p m hp hm' y hy
    rw [k1]
    exact c3.files p m hp hm' y hy

end Mairix
