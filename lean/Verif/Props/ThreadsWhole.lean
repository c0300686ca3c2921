import Verif.Props.Whole
import Verif.Spec.ThreadsWhole

/-!
# C85: threads, from the files to the results
-/

namespace Mairix
open Spec

/-- `C24_history_partial` with the times of the files. -/
theorem threads_history {hashfn : Nat → Text → Nat} {rs : List Run} {r : Run} {d : Text} (hs : ∀ r' ∈ rs ++ [r], Sane r')
    (hp : ∀ r' ∈ rs ++ [r], r'.purge = false) (hf : r.fast = false) (ht : TimesTell rs r) (e : indexRuns hashfn (rs ++ [r]) none = .ok (some d)) :
    ∃ raw view info, ∃ mentions : Mail, openDb d = .ok raw ∧ viewDb raw = .ok view ∧ Shows view info ∧ ((∀ i e, IsAt view i e → e.kind = .file) → PathsKnown view info) ∧
      (∀ i p, IsAt view i ⟨.file, p⟩ → ∃ ids, mentions[i]? = some ids ∧ ∀ w, w ∈ ids ↔ ∃ m own, Reads r.world ⟨.file, p⟩ m ∧ HasId m own w) ∧
      (¬ Lost (rs ++ [r]) → ∀ (i : Nat) x, info[i]? = some x → ∃ e, IsAt view i e) ∧
      (∀ (i : Nat) ids, mentions[i]? = some ids → i < info.length) ∧
      ∀ {scan dateRange}, ScansDates scan dateRange → ∀ {cs : List Cond} {args : List Text}, QueryWrittenAs dateRange cs args →
        (∀ c ∈ cs, Cond.Searchable view info c) → ∀ sort : List Nat → List Nat,
        ∃ found, doSearch scan sort view args true false = .ok found ∧
          ∀ i, i ∈ found ↔ ∃ x, info[i]? = some x ∧ x.path ≠ none ∧
            ∃ (j : Nat) (x' : Info), info[j]? = some x' ∧ Spec.Chain (ShareId mentions) i j ∧ ∀ c ∈ cs, c.Holds x' := by
  obtain ⟨db, ix, ⟨⟨hash, hm⟩, key, ws, hw⟩, hcur⟩ := indexRuns_ok (rs ++ [r]) [] (holds_none []) (by simp) hs e
  have hc := hcur r (by simp)
  simp only [List.nil_append] at hm
  have hcs := cstrings_of hm.good hm.words hm.paths
  obtain ⟨view, info, v1, v2, v3, v4, _, vt, v5, v6⟩ := viewDb_spec hw hcs hm.good
  obtain ⟨ht1, ht2⟩ := hm.threads hp
  have hlen : view.msgs.length = db.msgs.length := by rw [v2.len, v3]
  obtain ⟨s0, s1, _⟩ := table_small hw.small
  have htid : ∀ (i : Nat) y, view.msgs[i]? = some y → ∃ m, db.msgs[i]? = some m ∧ y.tid = m.tid := by
    intro i y hy
    obtain ⟨m, h3, h4⟩ := pairs_get' v5 i y hy
    have := congrArg (·[i]?) vt
    simp only [List.getElem?_map, hy, h3, Option.map_some, Option.some.injEq] at this
    refine ⟨m, h3, ?_⟩
    rw [this, Nat.mod_eq_of_lt]
    have := ht2 m (List.mem_of_getElem? h3)
    omega
  refine ⟨_, view, info, idsMentioned (ix.map (·.ids)), openDb_spec hw, v1, v2, agrees_paths (agrees_view hm hc hs v3 v4 v5 v6) v2, ?_, ?_, ?_, ?_⟩
  · rintro i p ⟨y, h1, h2⟩
    obtain ⟨m, h3, h4⟩ := pairs_get' v5 i y h1
    have hpl := (isAt_place h4 ⟨.file, p⟩).1 h2
    obtain ⟨mw, h5, h6⟩ := pairs_get hm.prov i m h3
    obtain ⟨r', g1, g2, g3⟩ := h6.place _ hpl
    have hread : r'.world.read .file p = r.world.read .file p := by
      rcases List.mem_append.1 g1 with g1 | g1
      · obtain ⟨t, s, mt, sz, a, b, c, _⟩ := g2.src
        obtain ⟨t', s', a', c'⟩ := hc.fresh hf m (List.mem_of_getElem? h3) p mt sz b
        exact (ht.file r' g1 p t s t' s' a a' (by rw [← c, c'])).2
      · rw [List.mem_singleton.1 g1]
    refine ⟨mw.ids.map Prod.fst, by simp [idsMentioned, h5], ?_⟩
    intro w
    rw [List.mem_map]
    constructor
    · rintro ⟨⟨v, own⟩, h, rfl⟩
      obtain ⟨m, h7, h8⟩ := (g3.2 v own).1 h
      exact ⟨m, own, ⟨h7.1, by rw [← h7.2]; exact hread.symm⟩, h8⟩
    · rintro ⟨m, own, h7, h8⟩
      exact ⟨(w, own), (g3.2 w own).2 ⟨m, ⟨h7.1, by rw [← h7.2]; exact hread⟩, h8⟩, rfl⟩
  · intro hnl i x hx
    have hi : i < view.msgs.length := by rw [v2.len]; exact (List.getElem?_eq_some_iff.1 hx).1
    have hy := List.getElem?_eq_getElem hi
    obtain ⟨m, h3, h4⟩ := pairs_get' v5 i _ hy
    obtain ⟨mw, h5, h6⟩ := pairs_get hm.prov i m h3
    cases hsr : m.src with
    | dead => exact absurd (h6.died hsr) hnl
    | mbox fi mi => exact absurd (.inl (h6.boxed fi mi hsr)) hnl
    | file p mt sz => exact ⟨⟨.file, p⟩, _, hy, (isAt_place h4 ⟨.file, p⟩).2 (place_file hsr)⟩
    | imap p => exact ⟨⟨.imap, p⟩, _, hy, (isAt_place h4 ⟨.imap, p⟩).2 (place_imap hsr)⟩
  · intro i ids hi
    have h0 := (List.getElem?_eq_some_iff.1 hi).1
    rw [← v2.len, hlen, ← hm.good.length]
    simpa [idsMentioned] using h0
  · intro scan dateRange hsc cs args hq hc sort
    obtain ⟨found, f1, f2⟩ := C24_threads_partial v2 hsc hq hc sort (by
      intro y hy
      obtain ⟨i, hi⟩ := List.getElem?_of_mem hy
      obtain ⟨m, h3, h4⟩ := htid i y hi
      rw [h4, hlen]
      exact ht2 m (List.mem_of_getElem? h3))
    refine ⟨found, f1, ?_⟩
    intro i
    rw [f2]
    constructor
    · rintro ⟨m, x, a1, a2, a3, j, m', x', b1, b2, b3, b4⟩
      refine ⟨x, a2, a3, j, x', b2, ?_, b4⟩
      obtain ⟨n, c1, c2⟩ := htid i m a1
      obtain ⟨n', c3, c4⟩ := htid j m' b1
      exact (ht1 i j n n' c1 c3).1 (by rw [← c2, ← c4, b3])
    · rintro ⟨x, a2, a3, j, x', b2, b3, b4⟩
      have hi : i < view.msgs.length := by rw [v2.len]; exact (List.getElem?_eq_some_iff.1 a2).1
      have hj : j < view.msgs.length := by rw [v2.len]; exact (List.getElem?_eq_some_iff.1 b2).1
      have a1 := List.getElem?_eq_getElem hi
      have b1 := List.getElem?_eq_getElem hj
      obtain ⟨n, c1, c2⟩ := htid i _ a1
      obtain ⟨n', c3, c4⟩ := htid j _ b1
      refine ⟨_, x, a1, a2, a3, j, _, x', b1, b2, ?_, b4⟩
      rw [c2, c4]
      exact ((ht1 i j n n' c1 c3).2 b3).symm

theorem times_tell {mktime : Nat → Nat → Nat → Int} {md5 : Text → List UInt8} (hmd5 : ∀ t, (md5 t).length = 16) {xs : List Indexing} {x : Indexing} {rs : List Run} {r : Run}
    (hl : ∀ y ∈ xs ++ [x], LibraryOk y) (hd : ∀ y ∈ xs ++ [x], DiscOk y.disc)
    (hc : ∀ y ∈ xs ++ [x], ∃ s items, ∃ N < y.depth, Spec.Means y.config y.disc.fs s items ∧ PathMax y.disc.fs N) (hu : ∀ y ∈ xs, Unchanged y.disc x.disc)
    (h3 : Pairs (fun y r => y.run mktime md5 = .ok r) xs rs) (h4 : x.run mktime md5 = .ok r) : TimesTell rs r := by
  obtain ⟨s0, items0, N, hN, hm, g2⟩ := hc x (by simp)
  obtain ⟨_, w1, w2, _, w4⟩ := indexing_sane hmd5 (hl x (by simp)) (hd x (by simp)) hm g2 hN h4
  constructor
  · intro r' hr' p t sz t' sz' a b c
    obtain ⟨y, hy, ey⟩ := pairs_mem h3 hr'
    obtain ⟨s', items', N, hN, g1, g2⟩ := hc y (by simp [hy])
    obtain ⟨_, v1, _⟩ := indexing_sane hmd5 (hl y (by simp [hy])) (hd y (by simp [hy])) g1 g2 hN ey
    rw [v1] at a ⊢
    rw [w1] at b ⊢
    exact disc_times (hu y hy) a b c
  · intro r' hr' p
    obtain ⟨y, hy, ey⟩ := pairs_mem h3 hr'
    obtain ⟨s', items', N, hN, g1, g2⟩ := hc y (by simp [hy])
    obtain ⟨_, v1, _⟩ := indexing_sane hmd5 (hl y (by simp [hy])) (hd y (by simp [hy])) g1 g2 hN ey
    rw [v1, w1]
    rfl

theorem run_purge {mktime : Nat → Nat → Nat → Int} {md5 : Text → List UInt8} {x : Indexing} {r : Run} (e : x.run mktime md5 = .ok r) : r.purge = x.purge := by
  unfold Indexing.run at e
  obtain ⟨l, -, e⟩ := res_bind_ok e
  obtain ⟨l', -, e⟩ := res_bind_ok e
  cases e
  rfl

theorem chain_head {R : Nat → Nat → Prop} {i j k : Nat} (h : R i j) (h' : Spec.Chain R j k) : Spec.Chain R i k := by
  induction h' with
  | refl => exact .step (.refl i) h
  | step _ h2 ih => exact .step ih h2

/-- **C85, all of a thread.** After any number of whole indexing runs without purges that completed, starting without a database (with the conditions of C57): a search with `-t` finds, of the messages in files of their own,
only those in the folders that are configured now, and it finds all messages in the threads of those that satisfy the query: whatever is linked to one of them by a chain of messages in which neighbours mention a common
identifier. (Missing: that it finds no others, which is false in general, see `C85_deleted_violation` and `C85_exact_partial`; runs with purges, see `C24_purged_violation`; chains through messages of mboxen.) -/
theorem C85_complete_partial {hashfn : Nat → Text → Nat} {mktime : Nat → Nat → Nat → Int} {md5 : Text → List UInt8} (hmd5 : ∀ t, (md5 t).length = 16) {xs : List Indexing} {x : Indexing} {file : Text}
    (hl : ∀ y ∈ xs ++ [x], LibraryOk y) (hd : ∀ y ∈ xs ++ [x], DiscOk y.disc)
    (hc : ∀ y ∈ xs ++ [x], ∃ s items, ∃ N < y.depth, Spec.Means y.config y.disc.fs s items ∧ PathMax y.disc.fs N)
    {s : Setting} {items : FolderType → List FolderItem} (hm : Spec.Means x.config x.disc.fs s items)
    (hu : ∀ y ∈ xs, Unchanged y.disc x.disc) (hf : x.fast = false) (e : indexMails hashfn mktime md5 (xs ++ [x]) none = .ok (some file))
    (hp : ∀ y ∈ xs ++ [x], y.purge = false) :
    ∃ raw view, openDb file = .ok raw ∧ viewDb raw = .ok view ∧
      ∀ {scan dateRange}, ScansDates scan dateRange → ∀ {cs : List Cond} {args : List Text}, QueryWrittenAs dateRange cs args → (∀ c ∈ cs, Cond.Fits c) → ∀ sort : List Nat → List Nat,
        ∃ found, doSearch scan sort view args true false = .ok found ∧
          (∀ i ∈ found, ∀ p, IsAt view i ⟨.file, p⟩ → MessageFile s items p) ∧
          ∀ p q m, SameThread mktime s items x.disc p q → MessageFile s items q → FileMeans mktime x.disc q m → ∀ y, Tells m q (x.disc.size q) y → (∀ c ∈ cs, c.Holds y) →
            ∃ i ∈ found, IsAt view i ⟨.file, p⟩ := by
  obtain ⟨raw, view, info, a1, a2, a3, hpk, a4, a5, a6, a7⟩ := whole_view_paths hmd5 hl hd hc hm hu hf e
  obtain ⟨rs', h1, h2⟩ := indexMails_runs e
  obtain ⟨rs, r, rfl, h3, h4⟩ := pairs_snoc h1
  have hsane : ∀ r' ∈ rs ++ [r], Sane r' := by
    intro r' hr'
    obtain ⟨y, hy, ey⟩ := pairs_mem h1 hr'
    obtain ⟨s', items', N, hN, g1, g2⟩ := hc y hy
    exact (indexing_sane hmd5 (hl y hy) (hd y hy) g1 g2 hN ey).1
  have hpurge : ∀ r' ∈ rs ++ [r], r'.purge = false := by
    intro r' hr'
    obtain ⟨y, hy, ey⟩ := pairs_mem h1 hr'
    rw [← hp y hy]
    exact run_purge ey
  obtain ⟨_, _, N, hN, _, g2⟩ := hc x (by simp)
  obtain ⟨_, w1, w2, _, w4⟩ := indexing_sane hmd5 (hl x (by simp)) (hd x (by simp)) hm g2 hN h4
  obtain ⟨raw', view', info', mentions, b1, b2, b3, hpk', b4, -, -, b5⟩ := threads_history hsane hpurge (by rw [w2, hf]) (times_tell hmd5 hl hd hc hu h3 h4) h2
  rw [a1] at b1
  cases b1
  rw [a2] at b2
  cases b2
  have hsome : ∀ i p, IsAt view i ⟨.file, p⟩ → ∃ z, info'[i]? = some z ∧ z.path ≠ none := by
    rintro i p ⟨m, k1, -, k3⟩
    have hlt : i < info'.length := by rw [← b3.len]; exact (List.getElem?_eq_some_iff.1 k1).1
    have hz := List.getElem?_eq_getElem hlt
    exact ⟨_, hz, fun h => by have := (b3.each i m _ k1 hz).dead.2 h; rw [show m.type = DB_MSG_FILE from k3] at this; cases this⟩
  refine ⟨raw, view, a1, a2, ?_⟩
  intro scan dateRange hsc cs args hq hfit sort
  obtain ⟨found, f1, f2⟩ := b5 hsc hq (fits_searchable (hpk' a5) hfit) sort
  refine ⟨found, f1, ?_, ?_⟩
  · intro i _ p hp
    exact ((a6 p).1 ⟨i, hp⟩).1
  · intro p q m hth hq' hmean y hy hcs
    obtain ⟨j, hj⟩ := (a6 q).2 ⟨hq', hmean.1⟩
    obtain ⟨z, g4, g5⟩ := a7 j q m hj hmean
    obtain ⟨found0, e1, e2⟩ := C18_query_partial a3 hsc hq (fits_searchable hpk hfit) sort
    obtain ⟨found0', e1', e2'⟩ := C18_query_partial b3 hsc hq (fits_searchable (hpk' a5) hfit) sort
    rw [e1] at e1'
    cases e1'
    obtain ⟨z0, s1, s2, s3⟩ := (e2' j).1 ((e2 j).2 ⟨z, g4, by rw [g5.path]; simp, fun c hc => (holds_tells g5 hy c).2 (hcs c hc)⟩)
    -- the messages of the chain have entries
    have hchain : ∃ i, IsAt view i ⟨.file, p⟩ ∧ Spec.Chain (ShareId mentions) i j := by
      clear hcs hy
      induction hth with
      | same => exact ⟨j, hj, .refl j⟩
      | @more p q' r hlk hrest ih =>
        obtain ⟨i', k1, k4⟩ := ih hq' hmean hj g5
        obtain ⟨l1, l2, m1, m2, l3, l4, w, o, o', l5, l6⟩ := hlk
        obtain ⟨i, n1⟩ := (a6 p).2 ⟨l1, l3.1⟩
        refine ⟨i, n1, chain_head ?_ k4⟩
        obtain ⟨ids, q1, q2⟩ := b4 i p n1
        obtain ⟨ids', q1', q2'⟩ := b4 i' q' k1
        refine ⟨ids, ids', q1, q1', w, (q2 w).2 ⟨m1, o, ?_, l5⟩, (q2' w).2 ⟨m2, o', ?_, l6⟩⟩
        · rw [w1]; exact (disc_read (hd x (by simp)) l3 m1).2 rfl
        · rw [w1]; exact (disc_read (hd x (by simp)) l4 m2).2 rfl
    obtain ⟨i, k1, k4⟩ := hchain
    obtain ⟨z', k2, k3⟩ := hsome i p k1
    exact ⟨i, (f2 i).2 ⟨z', k2, k3, j, z0, s1, k4, s3⟩, k1⟩

theorem thread_snoc {mk : Nat → Nat → Nat → Int} {s : Setting} {items : FolderType → List FolderItem} {d : Disc} {p q r : Text} (h : SameThread mk s items d p q) (h' : LinkedFiles mk s items d q r) :
    SameThread mk s items d p r := by
  induction h with
  | same => exact .more h' .same
  | more h1 _ ih => exact .more h1 (ih h')

theorem thread_symm {mk : Nat → Nat → Nat → Int} {s : Setting} {items : FolderType → List FolderItem} {d : Disc} {p q : Text} (h : SameThread mk s items d p q) : SameThread mk s items d q p := by
  induction h with
  | same => exact .same
  | more h1 _ ih =>
    obtain ⟨a, b, m, m', c, c', w, o, o', i, i'⟩ := h1
    exact thread_snoc ih ⟨b, a, m', m, c', c, w, o', o, i', i⟩

/-- Parts of a list and of what belongs to it. -/
theorem pairs_part {α β : Type} {R : α → β → Prop} {a : List α} {b l : List β} (h : Pairs R a b) (hs : l.Sublist b) : ∃ l', l'.Sublist a ∧ Pairs R l' l := by
  induction hs generalizing a with
  | slnil => exact ⟨[], List.nil_sublist _, .nil⟩
  | cons _ _ ih =>
    cases h with
    | cons h1 h2 =>
      obtain ⟨l', h3, h4⟩ := ih h2
      exact ⟨l', h3.cons _, h4⟩
  | cons_cons _ _ ih =>
    cases h with
    | cons h1 h2 =>
      obtain ⟨l', h3, h4⟩ := ih h2
      exact ⟨_ :: l', h3.cons_cons _, .cons h1 h4⟩

theorem no_mboxen {mktime : Nat → Nat → Nat → Int} {md5 : Text → List UInt8} {x : Indexing} {r : Run} (e : x.run mktime md5 = .ok r) (h : x.config.mboxen = none) : r.extant = [] := by
  unfold Indexing.run at e
  obtain ⟨l, -, e⟩ := res_bind_ok e
  obtain ⟨l', e', e⟩ := res_bind_ok e
  cases e
  unfold listMboxen at e'
  obtain ⟨og, -, e'⟩ := res_bind_ok e'
  rw [h] at e'
  obtain ⟨ps, e1, e'⟩ := res_bind_ok e'
  simp only [foldersOf] at e1
  cases e1
  cases e'
  rfl

/-- **C85, exactly the threads.** If moreover there are no mboxen, all the message files are messages, and no message file has gone or changed since it was indexed: a search with `-t` finds exactly the messages in the threads of
those that satisfy the query. -/
theorem C85_exact_partial {hashfn : Nat → Text → Nat} {mktime : Nat → Nat → Nat → Int} {md5 : Text → List UInt8} (hmd5 : ∀ t, (md5 t).length = 16) {xs : List Indexing} {x : Indexing} {file : Text}
    (hl : ∀ y ∈ xs ++ [x], LibraryOk y) (hd : ∀ y ∈ xs ++ [x], DiscOk y.disc)
    (hc : ∀ y ∈ xs ++ [x], ∃ s items, ∃ N < y.depth, Spec.Means y.config y.disc.fs s items ∧ PathMax y.disc.fs N)
    {s : Setting} {items : FolderType → List FolderItem} (hm : Spec.Means x.config x.disc.fs s items)
    (hu : ∀ y ∈ xs, Unchanged y.disc x.disc) (hf : x.fast = false) (e : indexMails hashfn mktime md5 (xs ++ [x]) none = .ok (some file))
    (hp : ∀ y ∈ xs ++ [x], y.purge = false) (hb : ∀ y ∈ xs ++ [x], y.config.mboxen = none) (hlast : ∀ y z, [y, z].Sublist (xs ++ [x]) → Lasts y z)
    (hmail : ∀ p, MessageFile s items p → IsFile x.disc.fs p → ∃ m, FileMeans mktime x.disc p m) :
    ∃ raw view, openDb file = .ok raw ∧ viewDb raw = .ok view ∧
      ∀ {scan dateRange}, ScansDates scan dateRange → ∀ {cs : List Cond} {args : List Text}, QueryWrittenAs dateRange cs args → (∀ c ∈ cs, Cond.Fits c) → ∀ sort : List Nat → List Nat,
        ∃ found, doSearch scan sort view args true false = .ok found ∧ (∀ i ∈ found, ∃ p, IsAt view i ⟨.file, p⟩) ∧
          ∀ p, (∃ i ∈ found, IsAt view i ⟨.file, p⟩) ↔
            ∃ q m y, SameThread mktime s items x.disc p q ∧ MessageFile s items q ∧ FileMeans mktime x.disc q m ∧ Tells m q (x.disc.size q) y ∧ ∀ c ∈ cs, c.Holds y := by
  obtain ⟨raw, view, a1, a2, a3⟩ := C85_complete_partial hmd5 hl hd hc hm hu hf e hp
  obtain ⟨raw', view', info, a1', a2', c3, hpk, c4, c5, c6, c7⟩ := whole_view_paths hmd5 hl hd hc hm hu hf e
  rw [a1] at a1'
  cases a1'
  rw [a2] at a2'
  cases a2'
  obtain ⟨rs', h1, h2⟩ := indexMails_runs e
  obtain ⟨rs, r, rfl, h3, h4⟩ := pairs_snoc h1
  have hsane : ∀ r' ∈ rs ++ [r], Sane r' := by
    intro r' hr'
    obtain ⟨y, hy, ey⟩ := pairs_mem h1 hr'
    obtain ⟨s', items', N, hN, g1, g2⟩ := hc y hy
    exact (indexing_sane hmd5 (hl y hy) (hd y hy) g1 g2 hN ey).1
  have hpurge : ∀ r' ∈ rs ++ [r], r'.purge = false := by
    intro r' hr'
    obtain ⟨y, hy, ey⟩ := pairs_mem h1 hr'
    rw [← hp y hy]
    exact run_purge ey
  obtain ⟨_, _, N, hN, _, g2⟩ := hc x (by simp)
  obtain ⟨_, w1, w2, _, w4⟩ := indexing_sane hmd5 (hl x (by simp)) (hd x (by simp)) hm g2 hN h4
  obtain ⟨raw', view', info', mentions, b1, b2, b3, hpk', b4, b6, b7, b5⟩ := threads_history hsane hpurge (by rw [w2, hf]) (times_tell hmd5 hl hd hc hu h3 h4) h2
  rw [a1] at b1
  cases b1
  rw [a2] at b2
  cases b2
  have hnl : ¬ Lost (rs ++ [r]) := by
    rintro (⟨r', h5, h6⟩ | ⟨r1, r2, h5, ⟨k, p⟩, h6, h7⟩)
    · obtain ⟨y, hy, ey⟩ := pairs_mem h1 h5
      exact h6 (no_mboxen ey (hb y hy))
    · obtain ⟨l', h8, h9⟩ := pairs_part h1 h5
      cases h9 with
      | @cons y1 _ _ _ i1 h10 =>
        cases h10 with
        | @cons y2 _ _ _ i2 h11 =>
          cases h11
          have m1 : y1 ∈ xs ++ [x] := h8.subset (by simp)
          have m2 : y2 ∈ xs ++ [x] := h8.subset (by simp)
          obtain ⟨s1, items1, N1, hN1, n1, o1⟩ := hc y1 m1
          obtain ⟨s2, items2, N2, hN2, n2, o2⟩ := hc y2 m2
          obtain ⟨_, u1, _, _, u2⟩ := indexing_sane hmd5 (hl y1 m1) (hd y1 m1) n1 o1 hN1 i1
          obtain ⟨_, v1, _, _, v2⟩ := indexing_sane hmd5 (hl y2 m2) (hd y2 m2) n2 o2 hN2 i2
          obtain ⟨k1, k2⟩ := hlast y1 y2 h8 s1 items1 s2 items2 n1 n2 p ((u2 _).1 h6).2
          rcases h7 with h7 | ⟨t, sz, -, h12, h13⟩
          · exact h7 ((v2 _).2 ⟨((u2 _).1 h6).1, k1⟩)
          · apply h13
            rw [u1] at h12
            simp only [Disc.world] at h12
            cases hst : y1.disc.fs.stat p with
            | none => rw [hst] at h12; cases h12
            | some sb =>
              rw [hst] at h12
              simp only at h12
              cases hk : sb.kind with
              | regular =>
                rw [hk] at h12
                simp only [StatResult.file.injEq] at h12
                obtain ⟨⟨sb', k3, k4⟩, k5, k6, k7⟩ := k2 ⟨sb, hst, hk⟩
                refine ⟨⟨y2.disc.size p, ?_⟩, by rw [← h12.1]; exact k6, by rw [← h12.1]; exact k7⟩
                rw [v1]
                simp only [Disc.world, k3, k4, k5, ← h12.1]
              | _ => rw [hk] at h12; cases h12
  have hat : ∀ (i : Nat) z, info'[i]? = some z → ∃ p, IsAt view i ⟨.file, p⟩ := by
    intro i z hz
    obtain ⟨⟨k, p⟩, he⟩ := b6 hnl i z hz
    have := c5 i _ he
    simp only at this
    subst this
    exact ⟨p, he⟩
  refine ⟨raw, view, a1, a2, ?_⟩
  intro scan dateRange hsc cs args hq hfit sort
  obtain ⟨found, f1, f2, f3⟩ := a3 hsc hq hfit sort
  obtain ⟨found', f1', f4⟩ := b5 hsc hq (fits_searchable (hpk' c5) hfit) sort
  rw [f1] at f1'
  cases f1'
  refine ⟨found, f1, ?_, ?_⟩
  · intro i hi
    obtain ⟨z, hz, _⟩ := (f4 i).1 hi
    exact hat i z hz
  · intro p
    constructor
    · rintro ⟨i, hi, hip⟩
      obtain ⟨z, hz, _, j, z', hz', hch, hcs⟩ := (f4 i).1 hi
      obtain ⟨q, hjq⟩ := hat j z' hz'
      have hmsg : ∀ i p, IsAt view i ⟨.file, p⟩ → MessageFile s items p ∧ ∃ m, FileMeans mktime x.disc p m := by
        intro i p h
        obtain ⟨h5, h6⟩ := (c6 p).1 ⟨i, h⟩
        exact ⟨h5, hmail p h5 h6⟩
      obtain ⟨hq1, m, hq2⟩ := hmsg j q hjq
      obtain ⟨y, g4, g5⟩ := c7 j q m hjq hq2
      -- the query holds of what is told about the message
      obtain ⟨found0, e1, e2⟩ := C18_query_partial c3 hsc hq (fits_searchable hpk hfit) sort
      obtain ⟨found0', e1', e2'⟩ := C18_query_partial b3 hsc hq (fits_searchable (hpk' c5) hfit) sort
      rw [e1] at e1'
      cases e1'
      have hz'' : z'.path ≠ none := by
        obtain ⟨mm, k1, -, k3⟩ := hjq
        exact fun h => by have := (b3.each j mm _ k1 hz').dead.2 h; rw [show mm.type = DB_MSG_FILE from k3] at this; cases this
      obtain ⟨y', s1, s2, s3⟩ := (e2 j).1 ((e2' j).2 ⟨z', hz', hz'', hcs⟩)
      rw [g4] at s1
      cases s1
      refine ⟨q, m, y, ?_, hq1, hq2, g5, s3⟩
      -- the chain
      have hthread : ∀ i j, Spec.Chain (ShareId mentions) i j → ∀ p q, IsAt view i ⟨.file, p⟩ → IsAt view j ⟨.file, q⟩ → SameThread mktime s items x.disc q p := by
        intro i j h
        induction h with
        | refl =>
          intro p q h5 h6
          obtain ⟨m1, k1, k2, -⟩ := h5
          obtain ⟨m2, k3, k4, -⟩ := h6
          rw [k1] at k3
          cases k3
          rw [show p = q from k2.symm.trans k4]
          exact .same
        | @step j' k' _ h6 ih =>
          intro p q h7 h8
          obtain ⟨ids, ids', q1, q1', w, q3, q4⟩ := h6
          have hlt := b7 _ _ q1
          obtain ⟨p', h9⟩ := hat j' _ (List.getElem?_eq_getElem hlt)
          refine .more ?_ (ih p p' h7 h9)
          obtain ⟨t1, m1, t2⟩ := hmsg _ _ h8
          obtain ⟨t3, m2, t4⟩ := hmsg _ _ h9
          obtain ⟨ids2, x1, x2⟩ := b4 _ _ h9
          obtain ⟨ids3, x3, x4⟩ := b4 _ _ h8
          rw [q1] at x1
          cases x1
          rw [q1'] at x3
          cases x3
          obtain ⟨n1, o1, l1, l2⟩ := (x2 w).1 q3
          obtain ⟨n2, o2, l3, l4⟩ := (x4 w).1 q4
          rw [w1] at l1 l3
          rw [(disc_read (hd x (by simp)) t4 n1).1 l1] at l2
          rw [(disc_read (hd x (by simp)) t2 n2).1 l3] at l4
          exact ⟨t1, t3, m1, m2, t2, t4, w, o2, o1, l4, l2⟩
      exact thread_symm (hthread i j hch p q hip hjq)
    · rintro ⟨q, m, y, h5, h6, h7, h8, h9⟩
      exact f3 p q m h5 h6 h7 y h8 h9

end Mairix
