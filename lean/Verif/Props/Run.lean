import Verif.Proofs.RunView
import Verif.Proofs.ISort
import Verif.Props.Search

/-!
# C46, C43, C10, C11: whole indexing runs
-/

namespace Mairix
open Spec

/-! ## C46: histories -/

theorem agrees_view {hist : List Run} {r : Run} {hash : Text → Nat} {db : Database} {ix : List MsgWords} {view : ReadDb} {info : List Info}
    (hm : Mem hist hash db ix) (hc : Current r db) (hs : ∀ r' ∈ hist, Sane r') (v3 : info.length = db.msgs.length)
    (v4 : ∀ (i : Nat) x, info[i]? = some x → ∃ m mw, db.msgs[i]? = some m ∧ ix[i]? = some mw ∧ InfoOf db.mboxen m mw x)
    (v5 : Pairs (MsgStored db.mboxen) db.msgs view.msgs)
    (v6 : Pairs (fun (mb : Mbox) p => ∀ q, mb.path = some q → p = q) db.mboxen view.mboxPaths) : Agrees hist r view info := by
  have hat : ∀ i e, IsAt view i e ↔ ∃ m, db.msgs[i]? = some m ∧ Place m = some e := by
    intro i e
    constructor
    · rintro ⟨y, h1, h2⟩
      obtain ⟨m, h3, h4⟩ := pairs_get' v5 i y h1
      exact ⟨m, h3, (isAt_place h4 e).1 h2⟩
    · rintro ⟨m, h1, h2⟩
      obtain ⟨y, h3, h4⟩ := pairs_get v5 i m h1
      exact ⟨y, h3, (isAt_place h4 e).2 h2⟩
  have hinfo : ∀ (i : Nat) m, db.msgs[i]? = some m → ∃ mw x, ix[i]? = some mw ∧ info[i]? = some x ∧ InfoOf db.mboxen m mw x ∧
      Prov hist db.mboxen m mw := by
    intro i m hi
    have hlt := (List.getElem?_eq_some_iff.1 hi).1
    have hx : info[i]? = some (info[i]'(by omega)) := List.getElem?_eq_getElem _
    obtain ⟨m', mw, h1, h2, h3⟩ := v4 i _ hx
    rw [hi] at h1
    cases h1
    obtain ⟨mw', h4, h5⟩ := pairs_get hm.prov i m hi
    rw [h2] at h4
    cases h4
    exact ⟨mw, _, h2, hx, h3, h5⟩
  refine ⟨?_, ?_, ?_, ?_, ?_⟩
  · intro i j e h1 h2
    obtain ⟨m, h3, h4⟩ := (hat i e).1 h1
    obtain ⟨m', h5, h6⟩ := (hat j e).1 h2
    exact place_unique hm.good.places i j m m' e h3 h5 h4 h6
  · intro i e h1
    obtain ⟨m, h3, h4⟩ := (hat i e).1 h1
    exact hc.listed m (List.mem_of_getElem? h3) e h4
  · intro e he ha
    obtain ⟨m, h1, h2⟩ := hc.all e he ha
    obtain ⟨i, hi⟩ := List.getElem?_of_mem h1
    exact ⟨i, (hat i e).2 ⟨m, hi, h2⟩⟩
  · intro i e h1
    obtain ⟨m, h3, h4⟩ := (hat i e).1 h1
    obtain ⟨mw, x, h5, h6, h7, h8⟩ := hinfo i m h3
    obtain ⟨r', g1, g2, g3⟩ := h8.place e h4
    refine ⟨r', g1, x, h6, describes_of h4 g2 g3 h7, ?_⟩
    intro hf hk
    have := g2.src
    obtain ⟨k, p⟩ := e
    simp only at hk
    subst hk
    obtain ⟨t, s, mt, sz, a, b, c, _⟩ := this
    obtain ⟨t', s', a', c'⟩ := hc.fresh hf m (List.mem_of_getElem? h3) p mt sz b
    exact ⟨t, s, t', s', a, a', by rw [← c, c']⟩
  · intro i y hy
    obtain ⟨m, h3, h4⟩ := pairs_get' v5 i y hy
    have hty : y.type = typeByte m.src := by rw [DbMsg.type, h4.1, type_of_byte]
    cases hsrc : m.src with
    | file p mt sz => exact .inl ⟨_, (hat i _).2 ⟨m, h3, place_file hsrc⟩⟩
    | imap p => exact .inl ⟨_, (hat i _).2 ⟨m, h3, place_imap hsrc⟩⟩
    | dead => exact .inr (.inl (by rw [hty, hsrc]; rfl))
    | mbox fi mi =>
      refine .inr (.inr ⟨by rw [hty, hsrc]; rfl, ?_⟩)
      obtain ⟨mw, x, h5, h6, h7, h8⟩ := hinfo i m h3
      obtain ⟨r', g1, mb, p, va, c, s, l, a1, a2, a3, a4, a5, a6, a7, a8, a9⟩ := h8.box fi mi hsrc
      obtain ⟨_, _, h4⟩ := h4
      rw [hsrc] at h4
      obtain ⟨b1, b2, b3, mb', c', s', l', b4, b5, b6, b7, b8⟩ := h4
      rw [a1] at b4
      cases b4
      rw [a4] at b5
      cases b5
      rw [a5] at b6
      cases b6
      have hlt := (hs r' g1).contents p va a3
      rw [Nat.mod_eq_of_lt (by omega)] at b7 b8
      obtain ⟨mb'', p', w1, w2, w3⟩ := hc.boxes m (List.mem_of_getElem? h3) fi mi hsrc
      rw [a1] at w1
      cases w1
      rw [a2] at w2
      cases w2
      obtain ⟨q, q1, q2⟩ := pairs_get v6 fi mb a1
      rw [q2 p a2, ← b1] at q1
      refine ⟨p, x, q1, h6, w3, r', g1, va, a3, by rw [b7, b8]; exact a6, ?_, ?_, ?_⟩
      · rw [h7.path, hsrc]
        simp [pathOf, a1, a2]
      · have := h7.size
        rw [hsrc] at this
        obtain ⟨mb1, c1, s1, l1, k1, k2, k3, k4⟩ := this
        rw [a1] at k1
        cases k1
        rw [a4] at k2
        cases k2
        rw [a5] at k3
        cases k3
        rw [k4, b8, Nat.mod_eq_of_lt (by omega)]
      · rw [b7, b8]
        constructor
        · intro f v; rw [h7.words]; exact a9.1 f v
        · intro v
          rw [h7.ids, List.mem_map]
          constructor
          · rintro ⟨⟨v', own⟩, h, rfl⟩
            obtain ⟨h, ho⟩ := List.mem_filter.1 h
            simp only at ho
            subst ho
            exact (a9.2 v' true).1 h
          · intro h
            exact ⟨(v, true), List.mem_filter.2 ⟨(a9.2 v true).2 h, rfl⟩, rfl⟩
        · intro q hq
          obtain ⟨z1, z2, z3, z4⟩ := a8 q hq
          rw [h7.date (by rw [hsrc]; simp), h7.seen, h7.replied, h7.flagged]
          exact ⟨z1, z2, z3, z4⟩

theorem holds_agrees {hist : List Run} {r : Run} {d : Text} {db : Database} {ix : List MsgWords} (h : Holds hist (some d) db ix)
    (hc : Current r db) (hs : ∀ r' ∈ hist, Sane r') :
    ∃ raw view info, openDb d = .ok raw ∧ viewDb raw = .ok view ∧ Shows view info ∧ Agrees hist r view info := by
  obtain ⟨⟨hash, hm⟩, key, ws, hw⟩ := h
  have hcs := cstrings_of hm.good hm.words hm.paths
  obtain ⟨view, info, v1, v2, v3, v4, _, _, v5, v6⟩ := viewDb_spec hw hcs hm.good
  exact ⟨_, view, info, openDb_spec hw, v1, v2, agrees_view hm hc hs v3 v4 v5 v6⟩

/-- Without messages on IMAP servers, the paths are known when searching. -/
theorem agrees_paths {hist : List Run} {r : Run} {view : ReadDb} {info : List Info} (h : Agrees hist r view info) (hs : Shows view info)
    (hno : ∀ i e, IsAt view i e → e.kind = .file) : PathsKnown view info := by
  intro i m x hm hx
  unfold pathToken
  rcases h.rest i m hm with ⟨e, he⟩ | hd | ⟨hb, p, x', hp, hx', _, r', _, va, _, _, hxp, _⟩
  · obtain ⟨r', _, x', hx', hdesc, _⟩ := h.entry i e he
    have hk := hno i e he
    obtain ⟨m', hm', h1, h2⟩ := he
    rw [hm] at hm'
    cases hm'
    rw [hx] at hx'
    cases hx'
    rw [hk] at h2
    rw [if_pos h2, hdesc.path, h1]
  · rw [if_neg (by rw [hd]; decide), if_neg (by rw [hd]; decide), if_pos hd, (hs.each i m x hm hx).dead.1 hd]
  · rw [hx] at hx'
    cases hx'
    rw [if_neg (by rw [hb]; decide), if_pos hb, hp, hxp]

/-- **C46.** After any number of indexing runs that completed, starting without a database, the file written
can be opened and read, and what a search sees agrees with the mail. -/
theorem C46_history {hashfn : Nat → Text → Nat} {rs : List Run} {r : Run} {d : Text} (hs : ∀ r' ∈ rs ++ [r], Sane r')
    (e : indexRuns hashfn (rs ++ [r]) none = .ok (some d)) :
    ∃ raw view info, openDb d = .ok raw ∧ viewDb raw = .ok view ∧ Shows view info ∧ Agrees (rs ++ [r]) r view info := by
  obtain ⟨db, ix, h, hcur⟩ := indexRuns_ok (rs ++ [r]) [] (holds_none []) (by simp) hs e
  rw [List.nil_append] at h
  exact holds_agrees h (hcur r (by simp)) hs

theorem agrees_up_to_date {rs : List Run} {r : Run} {view : ReadDb} {info : List Info} (h4 : Agrees (rs ++ [r]) r view info)
    (hf : r.fast = false) (ht : TimesTell rs r) :
      (∀ i j e, IsAt view i e → IsAt view j e → i = j) ∧
      (∀ e, (∃ i, IsAt view i e) ↔ e ∈ r.listed ∧ addable r.world e = true) ∧
      ∀ i e, IsAt view i e → ∃ x, info[i]? = some x ∧ Describes r.world e x := by
  refine ⟨h4.once, ?_, ?_⟩
  · intro e
    constructor
    · rintro ⟨i, hi⟩
      refine ⟨h4.listed i e hi, ?_⟩
      obtain ⟨r', _, x, _, _, h5⟩ := h4.entry i e hi
      unfold addable
      cases hk : e.kind with
      | imap => rfl
      | file =>
        obtain ⟨_, _, t', s', _, h6, _⟩ := h5 hf hk
        simp [modified, h6]
    · rintro ⟨hl, ha⟩
      exact h4.all e hl ha
  · intro i e hi
    obtain ⟨r', hr', x, hx, hd, h5⟩ := h4.entry i e hi
    refine ⟨x, hx, ?_⟩
    rcases List.mem_append.1 hr' with hr' | hr'
    · cases hk : e.kind with
      | imap =>
        refine describes_congr hd (by rw [hk]; exact ht.imap r' hr' e.path) ?_
        intro _ _ h; rw [hk] at h; cases h
      | file =>
        obtain ⟨t, s, t', s', a, b, c⟩ := h5 hf hk
        obtain ⟨h6, h7⟩ := ht.file r' hr' e.path t s t' s' a b c
        refine describes_congr hd (by rw [hk]; exact h7) ?_
        intro t2 s2 _ hst
        rw [b] at hst
        cases hst
        exact ⟨t, s, a, h6⟩
    · rw [List.mem_singleton] at hr'
      rw [← hr']
      exact hd

/-- **C46, when modification times tell.** If files with an unchanged modification time are unchanged and the
last run was not a fast one, then the messages in files of their own and on IMAP servers that a search sees are
exactly those listed in the last run, each once and described as it is found now. -/
theorem C46_up_to_date {hashfn : Nat → Text → Nat} {rs : List Run} {r : Run} {d : Text} (hs : ∀ r' ∈ rs ++ [r], Sane r')
    (e : indexRuns hashfn (rs ++ [r]) none = .ok (some d)) (hf : r.fast = false) (ht : TimesTell rs r) :
    ∃ raw view info, openDb d = .ok raw ∧ viewDb raw = .ok view ∧ Shows view info ∧
      (∀ i j e, IsAt view i e → IsAt view j e → i = j) ∧
      (∀ e, (∃ i, IsAt view i e) ↔ e ∈ r.listed ∧ addable r.world e = true) ∧
      ∀ i e, IsAt view i e → ∃ x, info[i]? = some x ∧ Describes r.world e x := by
  obtain ⟨raw, view, info, h1, h2, h3, h4⟩ := C46_history hs e
  exact ⟨raw, view, info, h1, h2, h3, agrees_up_to_date h4 hf ht⟩

theorem search_up_to_date {w0 : World} {listed : List Listed} {view : ReadDb} {info : List Info} (h3 : Shows view info)
    (h5 : ∀ e, (∃ i, IsAt view i e) ↔ e ∈ listed ∧ addable w0 e = true)
    (h6 : ∀ i e, IsAt view i e → ∃ x, info[i]? = some x ∧ Describes w0 e x)
    (scan) (sort : List Nat → List Nat) (letters w : Text) (hl : ∀ c ∈ letters, c ∈ bs "tcfsbnra") (hw : PlainWord w) :
    ∃ found, doSearch scan sort view [letters ++ bs ":" ++ w] false false = .ok found ∧
      ∀ e, (∃ i ∈ found, IsAt view i e) ↔ e ∈ listed ∧ addable w0 e = true ∧
        ∃ m, Reads w0 e m ∧ ∃ c ∈ letters, ∃ f, LetterMeans c f ∧ HasWord m f (lower w) := by
  obtain ⟨found, e1, h7⟩ := C15_exact_word h3 scan sort letters w hl hw
  refine ⟨found, e1, ?_⟩
  intro e
  constructor
  · rintro ⟨i, hi, hat⟩
    obtain ⟨x, hx, _, c, hc, f, hm, hwd⟩ := (h7 i).1 hi
    obtain ⟨x', hx', hd⟩ := h6 i e hat
    rw [hx] at hx'
    cases hx'
    obtain ⟨m, hr, hh⟩ := (hd.words f _).1 hwd
    obtain ⟨g1, g2⟩ := (h5 e).1 ⟨i, hat⟩
    exact ⟨g1, g2, m, hr, c, hc, f, hm, hh⟩
  · rintro ⟨hl, ha, m, hr, c, hc, f, hm, hh⟩
    obtain ⟨i, hat⟩ := (h5 e).2 ⟨hl, ha⟩
    obtain ⟨x, hx, hd⟩ := h6 i e hat
    refine ⟨i, (h7 i).2 ⟨x, hx, by rw [hd.path]; simp, c, hc, f, hm, (hd.words f _).2 ⟨m, hr, hh⟩⟩, hat⟩

/-- **C46, searching for a word.** Under the same conditions, searching for a word finds, among the messages in
files of their own and on IMAP servers, exactly those that were listed in the last run and have the word, now, in
one of the fields. -/
theorem C46_search {hashfn : Nat → Text → Nat} {rs : List Run} {r : Run} {d : Text} (hs : ∀ r' ∈ rs ++ [r], Sane r')
    (e : indexRuns hashfn (rs ++ [r]) none = .ok (some d)) (hf : r.fast = false) (ht : TimesTell rs r)
    (scan) (sort : List Nat → List Nat) (letters w : Text) (hl : ∀ c ∈ letters, c ∈ bs "tcfsbnra") (hw : PlainWord w) :
    ∃ raw view found, openDb d = .ok raw ∧ viewDb raw = .ok view ∧
      doSearch scan sort view [letters ++ bs ":" ++ w] false false = .ok found ∧
      ∀ e, (∃ i ∈ found, IsAt view i e) ↔ e ∈ r.listed ∧ addable r.world e = true ∧
        ∃ m, Reads r.world e m ∧ ∃ c ∈ letters, ∃ f, LetterMeans c f ∧ HasWord m f (lower w) := by
  obtain ⟨raw, view, info, h1, h2, h3, h4, h5, h6⟩ := C46_up_to_date hs e hf ht
  obtain ⟨found, e1, h7⟩ := search_up_to_date h3 h5 h6 scan sort letters w hl hw
  exact ⟨raw, view, found, h1, h2, e1, h7⟩

/-! ## C24: threads after a history of runs -/

/-- **C24 (partial).** After any number of indexing runs without a purge, a threaded search finds exactly the live
messages that are linked to a message satisfying the query by a chain of messages in which neighbours mention a
common identifier. The identifiers mentioned by message `i` are `mentions[i]`: those of a message in a file of its own or
on an IMAP server are as found there in some run. Missing: runs with a purge, see `C24_purged_violation`. -/
theorem C24_history_partial {hashfn : Nat → Text → Nat} {rs : List Run} {d : Text} (hs : ∀ r' ∈ rs, Sane r')
    (hp : ∀ r' ∈ rs, r'.purge = false) (e : indexRuns hashfn rs none = .ok (some d)) :
    ∃ raw view info, ∃ mentions : Mail, openDb d = .ok raw ∧ viewDb raw = .ok view ∧ Shows view info ∧
      mentions.length = view.msgs.length ∧
      (∀ i e, IsAt view i e → ∃ r' ∈ rs, ∃ ids, mentions[i]? = some ids ∧
        ∀ w, w ∈ ids ↔ ∃ m own, Reads r'.world e m ∧ HasId m own w) ∧
      ∀ {scan dateRange}, ScansDates scan dateRange → ∀ {cs : List Cond} {args : List Text}, QueryWrittenAs dateRange cs args →
        (∀ c ∈ cs, Cond.Searchable view info c) → ∀ sort : List Nat → List Nat,
        ∃ found, doSearch scan sort view args true false = .ok found ∧
          ∀ i, i ∈ found ↔ ∃ x, info[i]? = some x ∧ x.path ≠ none ∧
            ∃ (j : Nat) (x' : Info), info[j]? = some x' ∧ Spec.Chain (ShareId mentions) i j ∧ ∀ c ∈ cs, c.Holds x' := by
  obtain ⟨db, ix, ⟨⟨hash, hm⟩, key, ws, hw⟩, _⟩ := indexRuns_ok rs [] (holds_none []) (by simp) hs e
  simp only [List.nil_append] at hm
  have hcs := cstrings_of hm.good hm.words hm.paths
  obtain ⟨view, info, v1, v2, v3, v4, _, vt, v5, v6⟩ := viewDb_spec hw hcs hm.good
  obtain ⟨ht1, ht2⟩ := hm.threads hp
  have hlen : view.msgs.length = db.msgs.length := by rw [v2.len, v3]
  obtain ⟨s0, s1, _⟩ := table_small hw.small
  have htid : ∀ (i : Nat) y, view.msgs[i]? = some y → ∃ m, db.msgs[i]? = some m ∧ y.tid = m.tid := by
    intro i y hy
    obtain ⟨m, h3, h4⟩ := pairs_get' v5 i y hy
    have := congrArg (·[i]?) vt
    simp only [List.getElem?_map, hy, h3, Option.map_some, Option.some.injEq] at this
    refine ⟨m, h3, ?_⟩
    rw [this, Nat.mod_eq_of_lt]
    have := ht2 m (List.mem_of_getElem? h3)
    omega
  refine ⟨_, view, info, idsMentioned (ix.map (·.ids)), openDb_spec hw, v1, v2, ?_, ?_, ?_⟩
  · simp [idsMentioned, hm.good.length, hlen]
  · rintro i e ⟨y, h1, h2⟩
    obtain ⟨m, h3, h4⟩ := pairs_get' v5 i y h1
    have hpl := (isAt_place h4 e).1 h2
    obtain ⟨mw, h5, h6⟩ := pairs_get hm.prov i m h3
    obtain ⟨r', g1, g2, g3⟩ := h6.place e hpl
    refine ⟨r', g1, mw.ids.map Prod.fst, by simp [idsMentioned, h5], ?_⟩
    intro w
    rw [List.mem_map]
    constructor
    · rintro ⟨⟨v, own⟩, h, rfl⟩
      obtain ⟨m, h7, h8⟩ := (g3.2 v own).1 h
      exact ⟨m, own, h7, h8⟩
    · rintro ⟨m, own, h7, h8⟩
      exact ⟨(w, own), (g3.2 w own).2 ⟨m, h7, h8⟩, rfl⟩
  · intro scan dateRange hsc cs args hq hc sort
    obtain ⟨found, f1, f2⟩ := C24_threads_partial v2 hsc hq hc sort (by
      intro y hy
      obtain ⟨i, hi⟩ := List.getElem?_of_mem hy
      obtain ⟨m, h3, h4⟩ := htid i y hi
      rw [h4, hlen]
      exact ht2 m (List.mem_of_getElem? h3))
    refine ⟨found, f1, ?_⟩
    intro i
    rw [f2]
    constructor
    · rintro ⟨m, x, a1, a2, a3, j, m', x', b1, b2, b3, b4⟩
      refine ⟨x, a2, a3, j, x', b2, ?_, b4⟩
      obtain ⟨n, c1, c2⟩ := htid i m a1
      obtain ⟨n', c3, c4⟩ := htid j m' b1
      exact (ht1 i j n n' c1 c3).1 (by rw [← c2, ← c4, b3])
    · rintro ⟨x, a2, a3, j, x', b2, b3, b4⟩
      have hi : i < view.msgs.length := by rw [v2.len]; exact (List.getElem?_eq_some_iff.1 a2).1
      have hj : j < view.msgs.length := by rw [v2.len]; exact (List.getElem?_eq_some_iff.1 b2).1
      have a1 := List.getElem?_eq_getElem hi
      have b1 := List.getElem?_eq_getElem hj
      obtain ⟨n, c1, c2⟩ := htid i _ a1
      obtain ⟨n', c3, c4⟩ := htid j _ b1
      refine ⟨_, x, a1, a2, a3, j, _, x', b1, b2, ?_, b4⟩
      rw [c2, c4]
      exact ((ht1 i j n n' c1 c3).2 b3).symm

end Mairix
