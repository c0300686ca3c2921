import Verif.Proofs.SearchTop
import Verif.Spec.SearchTop
import Verif.Props.Terminal

/-!
# C82, C83: whole searches
-/

namespace Mairix
open Spec

theorem lookup_of_lstat {e : Disk} {t : Text} {x : Node} (h : e.lstat t = some x) : ∃ j, e.lookup t = some j := by
  unfold Disk.lstat at h
  cases hj : e.lookup t with
  | none => rw [hj] at h; cases h
  | some j => exact ⟨j, rfl⟩

/-- The folders hold the results, each at a place of its own, and no other links and files. -/
structure Filled (R : List Nat) (d d' : Disk) (folders : List Text) (T : Nat × DbMsg × Source → Text → Prop) (l : List (Nat × DbMsg × Source)) : Prop where
  only : ∀ f ∈ folders, ∀ nm, NameOk nm → ∀ x, d'.lstat (child f nm) = some x → ¬ Stays x → ∃ y ∈ l, T y (child f nm) ∧ ResultAt R d d' false (child f nm) (delivered y.2.1 y.2.2)
  each : ∀ y ∈ l, y.2.1.type = DB_MSG_FILE ∨ y.2.1.type = DB_MSG_IMAP ∨ y.2.1.type = DB_MSG_MBOX →
    ∃ f ∈ folders, ∃ nm, NameOk nm ∧ T y (child f nm) ∧ ResultAt R d d' false (child f nm) (delivered y.2.1 y.2.2)
  one : ∀ y ∈ l, ∀ t t', T y t → T y t' → t = t'

theorem maildir_filled {l : List (Nat × DbMsg × Source)} (hnd : (l.map (·.1)).Nodup) (hlt : ∀ x ∈ l, x.1 < 2 ^ 31) {d0 d : Disk} {dir : Text} (h1 : maybeCreateMaildir d0 dir = .ok d) {n c : Nat}
    {en ec : List (Text × Nat)} (fn : Folder d [n, c] (dir ++ bs "/new") n en) (fc : Folder d [n, c] (dir ++ bs "/cur") c ec) (hnc : n ≠ c)
    (hr : Roomy d (maildirSubs dir) fun nm => bs "123456789." <+: nm) :
    ∃ d', searchMaildir d0 dir false false l = .ok d' ∧ Kept [n, c] d d' ∧ Filled [n, c] d d' (maildirSubs dir) (fun y t => maildirName dir y.1 y.2.1 = .ok (some t)) l := by
  obtain ⟨d', e1, e2, e3, e4, e5⟩ := C56_maildir h1 fn fc hnc false hnd hlt
  have hname : ∀ i m s, (i, m, s) ∈ l → ∀ t, maildirName dir i m = .ok (some t) → ∀ x, d.lstat t = some x → ¬ Stays x := by
    intro i m s hm t ht x hx hst
    rcases maildirName_cases (hlt _ hm) dir m with h | ⟨sub, nm, h, h2, h3, tail, h4⟩
    · rw [h] at ht; cases ht
    · rw [h] at ht
      cases ht
      refine hr (dir ++ sub) ?_ nm h3 x hx hst ⟨_, h4.symm⟩
      rcases h2 with rfl | rfl <;> simp [maildirSubs]
  refine ⟨d', e1, e2, ?_, ?_, ?_⟩
  · intro f hf nm hnm x hl hnst
    obtain ⟨j, hj⟩ := lookup_of_lstat hl
    rcases e4 f hf nm hnm j hj with ⟨-, y, hy, hst⟩ | ⟨i, m, s, h2, h3⟩
    · obtain ⟨z, hz, hzs⟩ := stays_stays e2 (e5 f hf nm hnm y hy hst) hy hst
      rw [hl] at hz
      cases hz
      exact absurd hzs hnst
    · exact ⟨(i, m, s), h2, h3, e3 i m s h2 _ h3 (hname i m s h2 _ h3)⟩
  · rintro ⟨i, m, s⟩ hm hty
    rcases maildirName_cases (hlt _ hm) dir m with h | ⟨sub, nm, h, h5, h6, -⟩
    · obtain ⟨new, h'⟩ := maildirName_ok (hlt _ hm) dir m hty
      rw [h] at h'
      cases h'
    · exact ⟨dir ++ sub, by rcases h5 with rfl | rfl <;> simp [maildirSubs], nm, h6, h, e3 i m _ hm _ h (hname i m _ hm _ h)⟩
  · intro y _ t t' h h'
    rw [h] at h'
    exact Option.some.inj (Except.ok.inj h')

theorem mh_filled {l : List (Nat × DbMsg × Source)} (hnd : (l.map (·.1)).Nodup) (hlen : l.length < 2 ^ 31) {d0 d : Disk} {dir : Text} (h1 : ensureDir d0 dir = .ok d) {r : Nat} {es : List (Text × Nat)}
    (f : Folder d [r] dir r es) (hr : Roomy d [dir] fun nm => ∀ c ∈ nm, isDigit c = true)
    (hold : ∀ nm, NameOk nm → ∀ x, d.lstat (child dir nm) = some x → ¬ Stays x → validMh nm = true) :
    ∃ d', searchMh d0 dir false false (l.map (·.2)) = .ok d' ∧ Kept [r] d d' ∧
      Filled [r] d d' [dir] (fun y t => ∃ k : Nat, l[k]? = some y ∧ k + 1 < 2 ^ 31 ∧ mhName dir k y.2.1 = .ok (some t)) l := by
  obtain ⟨d', e1, e2, e3, e4, e5⟩ := C56_mh h1 f false (l := l.map (·.2)) (by rw [List.length_map]; exact hlen)
  have hget : ∀ {k : Nat} {m s}, (l.map (·.2))[k]? = some (m, s) → ∃ i, l[k]? = some (i, m, s) := by
    intro k m s h
    rw [List.getElem?_map] at h
    cases hk : l[k]? with
    | none => rw [hk] at h; cases h
    | some x =>
      rw [hk] at h
      obtain ⟨i, m', s'⟩ := x
      cases h
      exact ⟨i, rfl⟩
  have hlt : ∀ {k : Nat} {y}, l[k]? = some y → k + 1 < 2 ^ 31 := by
    intro k y h
    have := (List.getElem?_eq_some_iff.1 h).1
    omega
  have hname : ∀ (k : Nat) y, l[k]? = some y → ∀ t, mhName dir k y.2.1 = .ok (some t) → ∀ x, d.lstat t = some x → ¬ Stays x := by
    intro k y hm t ht x hx hst
    rcases mhName_cases (hlt hm) dir y.2.1 with h | ⟨h, h2, h3⟩
    · rw [h] at ht; cases ht
    · rw [h] at ht
      cases ht
      exact hr dir (by simp) _ h2 x hx hst fun c hc => isDigit_digits hc
  refine ⟨d', e1, e2, ?_, ?_, ?_⟩
  · intro g hg nm hnm x hl hnst
    rw [List.mem_singleton] at hg
    subst hg
    obtain ⟨j, hj⟩ := lookup_of_lstat hl
    have hstays : ∀ y, d.lstat (child g nm) = some y → Stays y → False := by
      intro y hy hst
      obtain ⟨z, hz, hzs⟩ := stays_stays e2 (e5 nm hnm y hy (.inl hst)) hy hst
      rw [hl] at hz
      cases hz
      exact hnst hzs
    rcases e4 nm hnm j hj with ⟨hj', hv | ⟨y, hy, hst⟩⟩ | ⟨k, m, s, h2, h3⟩
    · exfalso
      have hmem : (nm, j) ∈ es := by
        have h3 := f.lookup hnm
        rw [hj'] at h3
        exact mem_of_lookup h3.symm
      obtain ⟨y, hy⟩ := f.inodes _ hmem
      have hy' : d.lstat (child g nm) = some y := by
        unfold Disk.lstat
        rw [hj']
        exact hy
      by_cases hst : Stays y
      · exact hstays y hy' hst
      · rw [hold nm hnm y hy' hst] at hv
        cases hv
    · exact absurd hst fun h => hstays y hy h
    · obtain ⟨i, hi⟩ := hget h2
      exact ⟨(i, m, s), List.mem_of_getElem? hi, ⟨k, hi, hlt hi, h3⟩, e3 k m s h2 _ h3 (hname k _ hi _ h3)⟩
  · rintro ⟨i, m, s⟩ hm hty
    obtain ⟨k, hk⟩ := List.getElem?_of_mem hm
    have hk' : (l.map (·.2))[k]? = some (m, s) := by rw [List.getElem?_map, hk]; rfl
    rcases mhName_cases (hlt hk) dir m with h | ⟨h, h5, h6⟩
    · exfalso
      simp only at hty
      simp only [mhName, if_pos hty, mkMhPath_ok (hlt hk)] at h
      cases h
    · exact ⟨dir, by simp, _, h5, ⟨k, hk, hlt hk, h⟩, e3 k m _ hk' _ h (hname k _ hk _ h)⟩
  · rintro y _ t t' ⟨k, hk, -, h⟩ ⟨k', hk', -, h'⟩
    have hkk : k = k' := by
      have g1 : (l.map (·.1))[k]? = some y.1 := by rw [List.getElem?_map, hk]; rfl
      have g2 : (l.map (·.1))[k']? = some y.1 := by rw [List.getElem?_map, hk']; rfl
      obtain ⟨u1, u2⟩ := List.getElem?_eq_some_iff.1 g1
      obtain ⟨v1, v2⟩ := List.getElem?_eq_some_iff.1 g2
      exact (List.getElem_inj hnd (h₀ := u1) (h₁ := v1)).1 (u2.trans v2.symm)
    subst hkk
    rw [h] at h'
    exact Option.some.inj (Except.ok.inj h')


/-- The results of a search with what is found of them, before anything is written. -/
structure Entries (mktime : Nat → Nat → Nat → Int) (xs : List Indexing) (x : Indexing) (s : Setting) (items : FolderType → List FolderItem) (cs : List Cond) (l : List (Nat × DbMsg × Source)) : Prop where
  nodup : (l.map (·.1)).Nodup
  small : ∀ y ∈ l, y.1 < 2 ^ 31
  short : l.length < 2 ^ 31
  kinds : ∀ y ∈ l, (MessageFile s items y.2.1.path ∧ y.2.1.type = DB_MSG_FILE) ∨ ∃ p ms m, Configured s items .mbox p ∧ GrownBox mktime xs x p ms ∧ m ∈ ms ∧ y.2.1.type = DB_MSG_MBOX ∧ y.2.2 = ⟨p, some m.text⟩ ∧
    ∀ z, TellsPosted m p z → ∀ c ∈ cs, c.Holds z
  once : ∀ y ∈ l, ∀ y' ∈ l, y.2.1.type = DB_MSG_FILE → y'.2.1.type = DB_MSG_FILE → y.2.1.path = y'.2.1.path → y = y'
  files : ∀ p m, MessageFile s items p → FileMeans mktime x.disc p m → ∀ z, Tells m p (x.disc.size p) z → ((∃ y ∈ l, y.2.1.type = DB_MSG_FILE ∧ y.2.1.path = p) ↔ ∀ c ∈ cs, c.Holds z)
  boxes : ∀ p ms, Configured s items .mbox p → GrownBox mktime xs x p ms → ∀ m ∈ ms, ∀ z, TellsPosted m p z → (∀ c ∈ cs, c.Holds z) → ∃ y ∈ l, y.2.1.type = DB_MSG_MBOX ∧ y.2.2 = ⟨p, some m.text⟩

theorem top_entries {hashfn : Nat → Text → Nat} {mktime : Nat → Nat → Nat → Int} {md5 : Text → List UInt8} (hmd5 : ∀ t, (md5 t).length = 16) {xs : List Indexing} {x : Indexing} {file : Text}
    (hl : ∀ y ∈ xs ++ [x], LibraryOk y) (hd : ∀ y ∈ xs ++ [x], DiscOk y.disc)
    (hc : ∀ y ∈ xs ++ [x], ∃ s items, ∃ N < y.depth, Spec.Means y.config y.disc.fs s items ∧ PathMax y.disc.fs N)
    {s : Setting} {items : FolderType → List FolderItem} (hm : Spec.Means x.config x.disc.fs s items)
    (hu : ∀ y ∈ xs, Unchanged y.disc x.disc) (hf : x.fast = false) (hafter : ∀ y ∈ xs, y.disc.after = x.disc.after) (hgrown : ∀ p, Configured s items .mbox p → ∃ ms, GrownBox mktime xs x p ms)
    (e : indexMails hashfn mktime md5 (xs ++ [x]) none = .ok (some file))
    {scan dateRange} (hsc : ScansDates scan dateRange) {cs : List Cond} {args : List Text} (hq : QueryWrittenAs dateRange cs args) (hfit : ∀ c ∈ cs, Cond.Fits c) (sort : List Nat → List Nat)
    (hsort : ∀ l, (sort l).Perm l) (imap : Text → Option Text) :
    ∃ raw view found l, openDb file = .ok raw ∧ viewDb raw = .ok view ∧ doSearch scan sort view args false false = .ok found ∧ resultEntries view (sourceOf md5 x.disc imap raw view) found = .ok l ∧
      Entries mktime xs x s items cs l := by
  obtain ⟨raw, view, info, a1, a2, a3, a4, a5, a6, a7⟩ := whole_view hmd5 hl hd hc hm hu hf e
  obtain ⟨raw', view', b1, b2, b3⟩ := C57_found_partial hmd5 hl hd hc hm hu hf e
  rw [a1] at b1
  cases b1
  rw [a2] at b2
  cases b2
  obtain ⟨found, c1, c2, c3⟩ := b3 hsc hq hfit sort
  obtain ⟨hnd, hlive⟩ := found_live hsort c1
  have hpl := whole_placed hmd5 hl hd hc e a1 a2
  have hck := whole_checked hmd5 hl hd hc e a1 a2
  -- what is known of a result in an mbox
  have hbox : ∀ (i : Nat) (m : DbMsg), view.msgs[i]? = some m → m.type = DB_MSG_MBOX → ∃ p ms k y, view.mboxPaths[m.mbix]? = some p ∧ Configured s items .mbox p ∧ GrownBox mktime xs x p ms ∧ ms[k]? = some y ∧
      (m.mtime, m.size) = placeOf ms k y ∧ mboxMsgData md5 x.disc raw view m = .ok (some y.text) := by
    intro i m h1 h2
    obtain ⟨p, h3, h4⟩ := whole_boxes hmd5 hl hd hc hm e a1 a2 h1 h2
    obtain ⟨ms, g⟩ := hgrown p h4
    obtain ⟨boxes, g1, g2⟩ := g.before
    obtain ⟨k, y, j1, j2, j3⟩ := posted_data hmd5 hl hd hc hm hafter g1 g.now g2 g.ok h4 e a1 a2 h1 h2 h3
    exact ⟨p, ms, k, y, h3, h4, g, j1, j2, j3⟩
  have hsrc : ∀ (m : DbMsg) (p y : Text), m.type = DB_MSG_MBOX → view.mboxPaths[m.mbix]? = some p → mboxMsgData md5 x.disc raw view m = .ok (some y) → sourceOf md5 x.disc imap raw view m = .ok ⟨p, some y⟩ := by
    intro m p y h1 h2 h3
    unfold sourceOf
    rw [if_neg (by rw [h1]; decide), if_neg (by rw [h1]; decide), if_pos h1]
    simp only [h3, bind, Except.bind, List.getD_eq_getElem?_getD, h2, Option.getD_some]
  have hany : ∀ i ∈ found, ∃ m src, view.msgs[i]? = some m ∧ sourceOf md5 x.disc imap raw view m = .ok src := by
    intro i hi
    obtain ⟨m, h1, -⟩ := hlive i hi
    refine ⟨m, ?_⟩
    by_cases h2 : m.type = DB_MSG_FILE
    · exact ⟨_, h1, by unfold sourceOf; rw [if_pos h2]⟩
    by_cases h3 : m.type = DB_MSG_IMAP
    · exact ⟨_, h1, by unfold sourceOf; rw [if_neg h2, if_pos h3]⟩
    by_cases h4 : m.type = DB_MSG_MBOX
    · obtain ⟨p, ms, k, y, j1, j2, j3, j4, j5, j6⟩ := hbox i m h1 h4
      exact ⟨_, h1, hsrc m p _ h4 j1 j6⟩
    · exact ⟨_, h1, by unfold sourceOf; rw [if_neg h2, if_neg h3, if_neg h4]⟩
  obtain ⟨l, l1, l2, l3⟩ := resultEntries_ok hany
  have hlt : ∀ y ∈ l, y.1 < 2 ^ 31 := by
    rintro ⟨i, m, s⟩ hx
    obtain ⟨-, h2, -⟩ := (l3 i m s).1 hx
    have := (List.getElem?_eq_some_iff.1 h2).1
    have := view_length a2
    show i < 2 ^ 31
    omega
  have hlen : l.length < 2 ^ 31 := by
    have h2 := found_length hsort c1
    have h3 := view_length a2
    have : l.length = found.length := by rw [← l2]; simp
    omega
  have hfile : ∀ i m src, (i, m, src) ∈ l → m.type = DB_MSG_FILE → IsAt view i ⟨.file, m.path⟩ := by
    intro i m src hmem ht
    obtain ⟨-, h2, -⟩ := (l3 i m src).1 hmem
    exact ⟨m, h2, rfl, ht⟩
  have hat : ∀ p, (∃ y ∈ l, y.2.1.type = DB_MSG_FILE ∧ y.2.1.path = p) ↔ ∃ i ∈ found, IsAt view i ⟨.file, p⟩ := by
    intro p
    constructor
    · rintro ⟨⟨i, m, src⟩, h1, h2, rfl⟩
      exact ⟨i, ((l3 i m src).1 h1).1, hfile i m src h1 h2⟩
    · rintro ⟨i, hi, m', k1, k2, k3⟩
      obtain ⟨m, src, h1, h2⟩ := hany i hi
      rw [h1] at k1
      cases k1
      exact ⟨(i, m', src), (l3 i m' src).2 ⟨hi, h1, h2⟩, k3, k2⟩
  refine ⟨raw, view, found, l, a1, a2, c1, l1, by rw [l2]; exact hnd, hlt, hlen, ?_, ?_, ?_, ?_⟩
  · rintro ⟨i, m, src⟩ hmem
    obtain ⟨h1, h2, h3⟩ := (l3 i m src).1 hmem
    obtain ⟨m', h4, h5⟩ := hlive i h1
    rw [h2] at h4
    cases h4
    rcases hpl i m h2 h5 with ⟨e', he⟩ | ⟨h6, -⟩
    · left
      have hk := a5 _ _ he
      obtain ⟨kind, p⟩ := e'
      simp only at hk
      subst hk
      have hmf := c2 i h1 p he
      obtain ⟨m', k1, k2, k3⟩ := he
      rw [h2] at k1
      cases k1
      simp only at k2 k3 ⊢
      exact ⟨by rw [k2]; exact hmf, k3⟩
    · right
      obtain ⟨p, ms, k, y, j1, j2, g, j4, j5, j6⟩ := hbox i m h2 h6
      rw [hsrc m p _ h6 j1 j6] at h3
      cases h3
      refine ⟨p, ms, y, j2, g, List.mem_of_getElem? j4, h6, rfl, ?_⟩
      intro z hz
      obtain ⟨boxes, w1, w2⟩ := g.before
      obtain ⟨raw', view', b1, b2, b3⟩ := C77_found_partial hmd5 hl hd hc hm hafter w1 g.now w2 g.ok j2 e
      rw [a1] at b1
      cases b1
      rw [a2] at b2
      cases b2
      obtain ⟨found', c1', -, c3'⟩ := b3 hsc hq hfit sort
      rw [c1] at c1'
      cases c1'
      exact (c3' k y j4 z hz).1 ⟨i, h1, m, h2, h6, j1, j5⟩
  · rintro ⟨i, m, src⟩ h1 ⟨i', m', src'⟩ h1' h2 h2' h3
    simp only at h2 h2' h3
    have k3 := hfile i m src h1 h2
    rw [h3] at k3
    obtain rfl := a4 i i' _ k3 (hfile i' m' src' h1' h2')
    obtain ⟨-, j1, j2⟩ := (l3 i m src).1 h1
    obtain ⟨-, j1', j2'⟩ := (l3 i m' src').1 h1'
    rw [j1] at j1'
    cases j1'
    rw [j2] at j2'
    cases j2'
    rfl
  · intro p m hp hmean y hy
    rw [hat]
    exact c3 p m hp hmean y hy
  · intro p ms hp g y hy z hz hcs
    obtain ⟨k, hk⟩ := List.getElem?_of_mem hy
    obtain ⟨boxes, w1, w2⟩ := g.before
    obtain ⟨raw', view', b1, b2, b3⟩ := C77_found_partial hmd5 hl hd hc hm hafter w1 g.now w2 g.ok hp e
    rw [a1] at b1
    cases b1
    rw [a2] at b2
    cases b2
    obtain ⟨found', c1', -, c3'⟩ := b3 hsc hq hfit sort
    rw [c1] at c1'
    cases c1'
    obtain ⟨i, hi, m, k1, k2, k3, k4⟩ := (c3' k y hk z hz).2 hcs
    obtain ⟨k', y', j1, j2, j3⟩ := posted_data hmd5 hl hd hc hm hafter w1 g.now w2 g.ok hp e a1 a2 k1 k2 k3
    rw [k4] at j2
    have htext : y'.text = y.text := by
      have h1 := placeOf_text hk
      have h2 := placeOf_text j1
      have h3 := congrArg Prod.fst j2
      have h4 := congrArg Prod.snd j2
      rw [← h3, h1] at h2
      exact ((List.append_inj h2 h4).1).symm
    rw [htext] at j3
    exact ⟨(i, m, _), (l3 i m _).2 ⟨hi, k1, hsrc m p _ k2 k3 j3⟩, k2, rfl⟩

theorem filled_results {mktime : Nat → Nat → Nat → Int} {xs : List Indexing} {x : Indexing} {s : Setting} {items : FolderType → List FolderItem} {cs : List Cond} {l : List (Nat × DbMsg × Source)}
    (h : Entries mktime xs x s items cs l) {R d d' folders T} (hF : Filled R d d' folders T l) : Results mktime xs x s items cs d' folders := by
  have hlink : ∀ p, ∀ f ∈ folders, ∀ nm, NameOk nm → d'.lstat (child f nm) = some (.link p) → ∃ y ∈ l, T y (child f nm) ∧ y.2.1.type = DB_MSG_FILE ∧ y.2.1.path = p := by
    intro p f hf nm hnm hx
    obtain ⟨y, h1, h2, h3⟩ := hF.only f hf nm hnm _ hx id
    rcases h.kinds y h1 with ⟨-, k2⟩ | ⟨p', ms, m, -, -, -, k2, k3, -⟩
    · rw [delivered, if_pos k2] at h3
      have h3 : d'.lstat (child f nm) = some (.link y.2.1.path) := h3
      rw [hx] at h3
      exact ⟨y, h1, h2, k2, (Node.link.inj (Option.some.inj h3)).symm⟩
    · rw [delivered, if_neg (by rw [k2]; decide), if_neg (by rw [k2]; decide), k3] at h3
      have h3 : d'.lstat (child f nm) = some (.file (copiedMessage p' m.text)) := h3
      rw [hx] at h3
      cases h3
  have htype : ∀ y ∈ l, y.2.1.type = DB_MSG_FILE ∨ y.2.1.type = DB_MSG_IMAP ∨ y.2.1.type = DB_MSG_MBOX := by
    intro y hy
    rcases h.kinds y hy with ⟨-, k2⟩ | ⟨p', ms, m, -, -, -, k2, -⟩
    · exact .inl k2
    · exact .inr (.inr k2)
  have hlinks : ∀ p, LinkIn d' folders p ↔ ∃ y ∈ l, y.2.1.type = DB_MSG_FILE ∧ y.2.1.path = p := by
    intro p
    constructor
    · rintro ⟨f, hf, nm, hnm, hx⟩
      obtain ⟨y, h1, -, h2⟩ := hlink p f hf nm hnm hx
      exact ⟨y, h1, h2⟩
    · rintro ⟨y, hy, k3, k2⟩
      obtain ⟨f, hf, nm, hnm, -, h3⟩ := hF.each _ hy (htype _ hy)
      simp only [delivered, if_pos k3, k2] at h3
      exact ⟨f, hf, nm, hnm, h3⟩
  refine ⟨?_, ?_, ?_, ?_, ?_⟩
  · intro p hp
    obtain ⟨y, hy, k1, rfl⟩ := (hlinks p).1 hp
    rcases h.kinds y hy with ⟨k2, -⟩ | ⟨p', ms, m, -, -, -, k2, -⟩
    · exact k2
    · rw [k1] at k2; cases k2
  · intro p f hf nm hnm f' hf' nm' hnm' h1 h2
    obtain ⟨y, k1, k2, k3, k4⟩ := hlink p f hf nm hnm h1
    obtain ⟨y', k1', k2', k3', k4'⟩ := hlink p f' hf' nm' hnm' h2
    obtain rfl := h.once y k1 y' k1' k3 k3' (k4.trans k4'.symm)
    exact hF.one _ k1 _ _ k2 k2'
  · intro p m hp hmean y hy
    rw [hlinks]
    exact h.files p m hp hmean y hy
  · rintro t ⟨f, hf, nm, hnm, hx⟩
    obtain ⟨y, h1, h2, h3⟩ := hF.only f hf nm hnm _ hx id
    rcases h.kinds y h1 with ⟨-, k2⟩ | ⟨p', ms, m, g1, g2, g3, k2, k3, k4⟩
    · rw [delivered, if_pos k2] at h3
      have h3 : d'.lstat (child f nm) = some (.link y.2.1.path) := h3
      rw [hx] at h3
      cases h3
    · rw [delivered, if_neg (by rw [k2]; decide), if_neg (by rw [k2]; decide), k3] at h3
      have h3 : d'.lstat (child f nm) = some (.file (copiedMessage p' m.text)) := h3
      rw [hx] at h3
      cases h3
      exact ⟨p', ms, m, g1, g2, g3, copiedMessage_copyOf .., k4⟩
  · intro p ms hp g m hm z hz hcs
    obtain ⟨y, hy, k2, k3⟩ := h.boxes p ms hp g m hm z hz hcs
    obtain ⟨f, hf, nm, hnm, -, h3⟩ := hF.each _ hy (htype _ hy)
    rw [delivered, if_neg (by rw [k2]; decide), if_neg (by rw [k2]; decide), k3] at h3
    have h3 : d'.lstat (child f nm) = some (.file (copiedMessage p m.text)) := h3
    rw [copiedMessage_copyOf] at h3
    exact ⟨f, hf, nm, hnm, h3⟩

/-- **C82, maildirs.** After any number of whole indexing runs that completed, starting without a database (with the conditions of C57 and C77, mail being only delivered to mboxen): a search for a query, with a maildir for
the results whose `new` and `cur` are different directories, ends without a fault; on the disk nothing but the entries of these two is changed; and then the results of the query are in the folder, and nothing of earlier
searches. (Missing: as for C57 and C77.) -/
theorem C82_maildir_partial {hashfn : Nat → Text → Nat} {mktime : Nat → Nat → Nat → Int} {md5 : Text → List UInt8} (hmd5 : ∀ t, (md5 t).length = 16) {xs : List Indexing} {x : Indexing} {file : Text}
    (hl : ∀ y ∈ xs ++ [x], LibraryOk y) (hd : ∀ y ∈ xs ++ [x], DiscOk y.disc)
    (hc : ∀ y ∈ xs ++ [x], ∃ s items, ∃ N < y.depth, Spec.Means y.config y.disc.fs s items ∧ PathMax y.disc.fs N)
    {s : Setting} {items : FolderType → List FolderItem} (hm : Spec.Means x.config x.disc.fs s items)
    (hu : ∀ y ∈ xs, Unchanged y.disc x.disc) (hf : x.fast = false) (hafter : ∀ y ∈ xs, y.disc.after = x.disc.after) (hgrown : ∀ p, Configured s items .mbox p → ∃ ms, GrownBox mktime xs x p ms)
    (e : indexMails hashfn mktime md5 (xs ++ [x]) none = .ok (some file))
    {scan dateRange} (hsc : ScansDates scan dateRange) {cs : List Cond} {args : List Text} (hq : QueryWrittenAs dateRange cs args) (hfit : ∀ c ∈ cs, Cond.Fits c) (sort : List Nat → List Nat)
    (hsort : ∀ l, (sort l).Perm l) (imap : Text → Option Text)
    {d0 d : Disk} {dir : Text} (h1 : maybeCreateMaildir d0 dir = .ok d) {n c : Nat} {en ec : List (Text × Nat)}
    (fn : Folder d [n, c] (dir ++ bs "/new") n en) (fc : Folder d [n, c] (dir ++ bs "/cur") c ec) (hnc : n ≠ c) (hr : Roomy d (maildirSubs dir) fun nm => bs "123456789." <+: nm) :
    ∃ d', searchTop scan sort md5 x.disc imap .maildir dir false false false false file args d0 = ⟨d', none⟩ ∧ Kept [n, c] d d' ∧ Results mktime xs x s items cs d' (maildirSubs dir) := by
  obtain ⟨raw, view, found, l, o1, o2, hs, l1, hE⟩ := top_entries hmd5 hl hd hc hm hu hf hafter hgrown e hsc hq hfit sort hsort imap
  obtain ⟨d', e1, e2, e3⟩ := maildir_filled hE.nodup hE.small h1 fn fc hnc hr
  refine ⟨d', ?_, e2, filled_results hE e3⟩
  unfold searchTop
  simp only [o1, o2, bind, Except.bind, makeFolder, h1, hs, l1, clearResults, fillFolder]
  unfold searchMaildir at e1
  simp only [h1, bind, Except.bind] at e1
  simp only [Bool.false_eq_true, if_false] at e1 ⊢
  rw [e1]

/-- **C82, MH folders.** The same for an MH folder, provided that its directories do not have numbers for names and the links and files in it do. -/
theorem C82_mh_partial {hashfn : Nat → Text → Nat} {mktime : Nat → Nat → Nat → Int} {md5 : Text → List UInt8} (hmd5 : ∀ t, (md5 t).length = 16) {xs : List Indexing} {x : Indexing} {file : Text}
    (hl : ∀ y ∈ xs ++ [x], LibraryOk y) (hd : ∀ y ∈ xs ++ [x], DiscOk y.disc)
    (hc : ∀ y ∈ xs ++ [x], ∃ s items, ∃ N < y.depth, Spec.Means y.config y.disc.fs s items ∧ PathMax y.disc.fs N)
    {s : Setting} {items : FolderType → List FolderItem} (hm : Spec.Means x.config x.disc.fs s items)
    (hu : ∀ y ∈ xs, Unchanged y.disc x.disc) (hf : x.fast = false) (hafter : ∀ y ∈ xs, y.disc.after = x.disc.after) (hgrown : ∀ p, Configured s items .mbox p → ∃ ms, GrownBox mktime xs x p ms)
    (e : indexMails hashfn mktime md5 (xs ++ [x]) none = .ok (some file))
    {scan dateRange} (hsc : ScansDates scan dateRange) {cs : List Cond} {args : List Text} (hq : QueryWrittenAs dateRange cs args) (hfit : ∀ c ∈ cs, Cond.Fits c) (sort : List Nat → List Nat)
    (hsort : ∀ l, (sort l).Perm l) (imap : Text → Option Text)
    {d0 d : Disk} {dir : Text} (h1 : ensureDir d0 dir = .ok d) {r : Nat} {es : List (Text × Nat)}
    (f : Folder d [r] dir r es) (hr : Roomy d [dir] fun nm => ∀ c ∈ nm, isDigit c = true) (hold : ∀ nm, NameOk nm → ∀ x, d.lstat (child dir nm) = some x → ¬ Stays x → validMh nm = true) :
    ∃ d', searchTop scan sort md5 x.disc imap .mh dir false false false false file args d0 = ⟨d', none⟩ ∧ Kept [r] d d' ∧ Results mktime xs x s items cs d' [dir] := by
  obtain ⟨raw, view, found, l, o1, o2, hs, l1, hE⟩ := top_entries hmd5 hl hd hc hm hu hf hafter hgrown e hsc hq hfit sort hsort imap
  obtain ⟨d', e1, e2, e3⟩ := mh_filled hE.nodup hE.short h1 f hr hold
  refine ⟨d', ?_, e2, filled_results hE e3⟩
  unfold searchTop
  simp only [o1, o2, bind, Except.bind, makeFolder, h1, hs, l1, clearResults, fillFolder]
  unfold searchMh at e1
  simp only [h1, bind, Except.bind] at e1
  simp only [Bool.false_eq_true, if_false] at e1 ⊢
  rw [e1]

/-! ## Searches that are refused -/

/-- **C83, a search that is refused loses nothing,** where this holds: if the database is not valid, or the folder cannot be made, the disk is as it was; with `-a`, and the folder there, it is as it was whatever goes wrong. -/
theorem C83_kept_partial (scan : Text → Option (Option Int × Option Int)) (sort : List Nat → List Nat) (md5 : Text → List UInt8) (disc : Disc) (imap : Text → Option Text) (format : FolderFormat) (dir : Text)
    (threads augment hard sorted : Bool) (file : Text) (args : List Text) (d : Disk)
    (h : (∃ f, openDb file = .error f) ∨ (∃ raw f, openDb file = .ok raw ∧ viewDb raw = .error f) ∨ (∃ f, makeFolder format dir d = .error f) ∨ (augment = true ∧ makeFolder format dir d = .ok d))
    (hf : (searchTop scan sort md5 disc imap format dir threads augment hard sorted file args d).fault ≠ none) :
    (searchTop scan sort md5 disc imap format dir threads augment hard sorted file args d).disk = d := by
  revert hf
  unfold searchTop
  split
  · intro; rfl
  · rename_i raw hraw
    split
    · intro; rfl
    · rename_i view hv
      rcases h with ⟨f, h⟩ | ⟨raw', f, h, h'⟩ | ⟨f, h⟩ | ⟨rfl, h⟩
      · rw [hraw] at h; cases h
      · rw [hraw] at h
        cases h
        rw [hv] at h'
        cases h'
      · rw [h]; intro; rfl
      · rw [h]
        simp only [if_true]
        split
        · intro; rfl
        · split
          · intro; rfl
          · intro hf; exact absurd rfl hf

/-- **C83 violated, in general:** without `-a`, a search whose expression is refused, over a valid database, ends with that fault after it has removed all old results: of what was in `new` and `cur`, only directories and
special files are left. -/
theorem C83_lost {scan : Text → Option (Option Int × Option Int)} {sort : List Nat → List Nat} {args : List Text} {file : Text} {raw : RawDb} {view : ReadDb} (o1 : openDb file = .ok raw) (o2 : viewDb raw = .ok view)
    {threads sorted : Bool} {fault : Fault} (hs : doSearch scan sort view args threads sorted = .error fault) (md5 : Text → List UInt8) (disc : Disc) (imap : Text → Option Text) (hard : Bool)
    {d0 d : Disk} {dir : Text} (h1 : maybeCreateMaildir d0 dir = .ok d) {n c : Nat} {en ec : List (Text × Nat)}
    (fn : Folder d [n, c] (dir ++ bs "/new") n en) (fc : Folder d [n, c] (dir ++ bs "/cur") c ec) (hnc : n ≠ c) :
    ∃ d', searchTop scan sort md5 disc imap .maildir dir threads false hard sorted file args d0 = ⟨d', some fault⟩ ∧
      ∀ f ∈ maildirSubs dir, ∀ nm, NameOk nm → ∀ j, d'.lookup (child f nm) = some j → ∃ x, d.lstat (child f nm) = some x ∧ Stays x := by
  obtain ⟨d', e1, -, -, e4, -⟩ := C56_maildir h1 fn fc hnc hard (l := []) List.nodup_nil (by intro x hx; cases hx)
  refine ⟨d', ?_, ?_⟩
  · unfold searchTop
    simp only [o1, o2, bind, Except.bind, makeFolder, h1, hs, clearResults]
    unfold searchMaildir at e1
    simp only [h1, bind, Except.bind, deliverMaildir, Bool.false_eq_true, if_false] at e1 ⊢
    cases e1
    rfl
  · intro f hf nm hnm j hj
    rcases e4 f hf nm hnm j hj with ⟨-, x, h2, h3⟩ | ⟨i, m, s, h2, -⟩
    · exact ⟨x, h2, h3⟩
    · cases h2

end Mairix
