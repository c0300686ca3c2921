import Verif.Props.Whole
import Verif.Props.Update

/-!
# C91: the numbers of messages
-/

namespace Mairix
open Spec

/-- What an update does to the messages that are there already (C10, from any state that runs lead to). -/
theorem update_aged {hashfn : Nat → Text → Nat} {hist : List Run} {r : Run} {key : Nat} {db0 db : Database} {ix0 : List MsgWords} {b : Bool}
    (h1 : Mem hist (hashfn key) db0 ix0) (h2 : Loaded db0) (hr : Sane r) (hn : r.listed.Nodup) (e : updateStep hashfn r key db0 = .ok (db, b)) :
    ∃ l mboxen rest, (∀ e, e ∈ l ↔ e ∈ r.listed) ∧
      db.msgs.map ({ · with tid := 0 }) = (db0.msgs.map (aged r.world r.fast l mboxen) ++ rest).map ({ · with tid := 0 }) := by
  obtain ⟨db1, e1, e⟩ := res_bind_ok e
  split at e
  case isFalse => cases e
  rename_i hsz
  have hse : SortedExtant (r.sortExtant r.extant) := by
    apply sortExtant_spec hr.sortExtant
    unfold buildMboxLists at e1
    cases hc : checkMboxDuplicates (r.sortExtant r.extant) with
    | false => rfl
    | true => rw [hc] at e1; cases e1
  obtain ⟨hsl, hpl⟩ := sortListed_spec hr.sortListed hn
  obtain ⟨_, hm2, _⟩ := good_mboxLists h1.good h2 hse e1
  obtain ⟨db3, new, box, xs, ys, e3, hu, hg3, _, _⟩ := good_updateStep (w := r.world) (junk := r.junkMsg) (fast := r.fast)
    h1.good h2 hse hsl e1 (by
      rw [hpl.length_eq, ← hm2]
      exact hsz)
  rw [e3] at e
  cases e
  refine ⟨r.sortListed r.listed, db1.mboxen, new ++ box, fun _ => hpl.mem_iff, ?_⟩
  have := hu.msgs
  rw [hm2] at this
  rw [← List.append_assoc]
  exact this

theorem aged_at {w : World} {fast : Bool} {l : List Listed} {mboxen : List Mbox} {ms ms' rest : List Msg}
    (h : ms'.map ({ · with tid := 0 }) = (ms.map (aged w fast l mboxen) ++ rest).map ({ · with tid := 0 })) {i : Nat} {m : Msg} (hm : ms[i]? = some m) :
    ∃ m', ms'[i]? = some m' ∧ m'.src = (aged w fast l mboxen m).src := by
  have hlt := (List.getElem?_eq_some_iff.1 hm).1
  have := congrArg (·[i]?) h
  simp only [List.getElem?_map] at this
  rw [List.getElem?_append_left (by simpa using hlt), List.getElem?_map, hm] at this
  simp only [Option.map_some] at this
  cases hm' : ms'[i]? with
  | none => rw [hm'] at this; cases this
  | some m' =>
    rw [hm'] at this
    simp only [Option.map_some, Option.some.injEq] at this
    have h2 := congrArg Msg.src this
    exact ⟨m', rfl, h2⟩

theorem place_of_src {m m' : Msg} (h : m'.src = m.src) : Place m' = Place m := by
  obtain ⟨s, _, _, _, _, _⟩ := m
  obtain ⟨s', _, _, _, _, _⟩ := m'
  simp only at h
  subst h
  cases s' <;> rfl

theorem aged_place {w : World} {fast : Bool} {l : List Listed} {mboxen : List Mbox} {m : Msg} {e : Listed} (h : Place (aged w fast l mboxen m) = some e) : Place m = some e := by
  unfold aged at h
  split at h
  · exact h
  · cases h

/-- Of what is in the second database, the entries that were in the first at all are those that they were; and what has stayed on the disk is where it was. -/
structure Advances (rs : List Run) (db db' : Database) : Prop where
  length : db.msgs.length ≤ db'.msgs.length
  same : ∀ (i : Nat) m m' e, db.msgs[i]? = some m → db'.msgs[i]? = some m' → Place m' = some e → Place m = some e
  stays : ∀ (i : Nat) (p : Text) (T : Int), 0 ≤ T → T < 2 ^ 32 → (∃ m mt sz, db.msgs[i]? = some m ∧ m.src = .file p mt sz ∧ u32 mt = u32 T) →
    (∀ r ∈ rs, ⟨.file, p⟩ ∈ r.listed ∧ (r.fast = true ∨ modified r.world p = some T)) → ∃ m mt sz, db'.msgs[i]? = some m ∧ m.src = .file p mt sz ∧ u32 mt = u32 T

theorem advances_refl (rs : List Run) (db : Database) : Advances rs db db := by
  refine ⟨Nat.le_refl _, ?_, fun _ _ _ _ _ h _ => h⟩
  intro i m m' e h h' he
  rw [h] at h'
  cases h'
  exact he

theorem u32_self {T : Int} (h0 : 0 ≤ T) (h1 : T < 2 ^ 32) : ((u32 T : Nat) : Int) = T := by
  unfold u32
  omega

theorem advances_run {hashfn : Nat → Text → Nat} {hist : List Run} {r : Run} {f f' : Option Text} {db : Database} {ix : List MsgWords}
    (h : Holds hist f db ix) (hh : ∀ r ∈ hist, Sane r) (hr : Sane r) (hp : r.purge = false) (e : indexRun hashfn r f = .ok f') :
    ∃ db' ix', Holds (hist ++ [r]) f' db' ix' ∧ Advances [r] db db' := by
  obtain ⟨db', ix', a1, -, key, db1, db2, db3, b2, b3, ix2, a2, a3, a4, a5, a6, a7, -, a8, a9⟩ := indexRun_steps h hh hr e
  refine ⟨db', ix', a1, ?_⟩
  simp only [purgeStep, hp, Bool.false_eq_true, if_false, Except.ok.injEq, Prod.mk.injEq] at a4
  obtain ⟨rfl, rfl⟩ := a4
  cases b2 with
  | false =>
    rw [a9 rfl]
    exact advances_refl _ _
  | true =>
    rw [a8 rfl]
    obtain ⟨-, -, o3, -⟩ := open_ok h hh a2
    obtain ⟨l, mboxen, rest, u1, u2⟩ := update_aged a5 a6 hr a7 a3
    refine ⟨?_, ?_, ?_⟩
    · have := congrArg List.length u2
      simp only [List.length_map, List.length_append] at this
      have := pairs_length o3
      omega
    · intro i m m' x hm hm' hx
      obtain ⟨m1, g1, g2⟩ := pairs_get o3 i m hm
      obtain ⟨m2, g3, g4⟩ := aged_at u2 g1
      rw [hm'] at g3
      cases g3
      rw [place_of_src g4] at hx
      rw [← saved_place g2]
      exact aged_place hx
    · rintro i p T h0 h1 ⟨m, mt, sz, hm, hsrc, hT⟩ hst
      obtain ⟨k1, k2⟩ := hst r (by simp)
      obtain ⟨m1, g1, g2⟩ := pairs_get o3 i m hm
      obtain ⟨sz', g5⟩ := (saved_src_inv g2).2.2.1 p mt sz hsrc
      obtain ⟨m2, g3, g4⟩ := aged_at u2 g1
      have hs : stays r.world r.fast l mboxen m1 = true := by
        unfold stays
        rw [g5]
        simp only [Bool.and_eq_true, decide_eq_true_eq, Bool.or_eq_true, beq_iff_eq]
        refine ⟨(u1 _).2 k1, ?_⟩
        rcases k2 with k2 | k2
        · exact .inl k2
        · right
          rw [k2, hT, u32_self h0 h1]
      rw [aged, if_pos hs, g5] at g4
      exact ⟨m2, _, _, g3, g4, by rw [u32_u32, hT]⟩

theorem advances_runs {hashfn : Nat → Text → Nat} : ∀ (rs : List Run) {hist : List Run} {f f' : Option Text} {db : Database} {ix : List MsgWords},
    Holds hist f db ix → (∀ r ∈ hist, Sane r) → (∀ r ∈ rs, Sane r) → (∀ r ∈ rs, r.purge = false) → indexRuns hashfn rs f = .ok f' →
    ∃ db' ix', Holds (hist ++ rs) f' db' ix' ∧ Advances rs db db'
  | [], hist, f, f', db, ix, h, _, _, _, e => by
    cases e
    exact ⟨db, ix, by simpa using h, advances_refl _ _⟩
  | r :: rs, hist, f, f', db, ix, h, hh, hs, hp, e => by
    obtain ⟨f1, e1, e⟩ := res_bind_ok e
    obtain ⟨db1, ix1, h1, c1⟩ := advances_run h hh (hs r (by simp)) (hp r (by simp)) e1
    have hh' : ∀ r' ∈ hist ++ [r], Sane r' := by
      intro r' hr'
      rcases List.mem_append.1 hr' with h2 | h2
      · exact hh r' h2
      · rw [List.mem_singleton] at h2; rw [h2]; exact hs r (by simp)
    obtain ⟨db2, ix2, h2, c2⟩ := advances_runs rs h1 hh' (fun r' hr' => hs r' (by simp [hr'])) (fun r' hr' => hp r' (by simp [hr'])) e
    refine ⟨db2, ix2, by simpa using h2, Nat.le_trans c1.length c2.length, ?_, ?_⟩
    · intro i m m' x hm hm' hx
      have hlt : i < db1.msgs.length := Nat.lt_of_lt_of_le (List.getElem?_eq_some_iff.1 hm).1 c1.length
      have hg := List.getElem?_eq_getElem hlt
      exact c1.same i m _ x hm hg (c2.same i _ m' x hg hm' hx)
    · intro i p T h0 hT hm hst
      exact c2.stays i p T h0 hT (c1.stays i p T h0 hT hm (by
        intro r' hr'
        rw [List.mem_singleton] at hr'
        exact hst r' (by simp [hr']))) fun r' hr' => hst r' (by simp [hr'])

/-- What the file tells about where the messages are. -/
theorem holds_places {hist : List Run} {d : Text} {db : Database} {ix : List MsgWords} (h : Holds hist (some d) db ix) :
    ∃ raw view, openDb d = .ok raw ∧ viewDb raw = .ok view ∧ view.msgs.length = db.msgs.length ∧ ∀ i e, IsAt view i e ↔ ∃ m, db.msgs[i]? = some m ∧ Place m = some e := by
  obtain ⟨⟨hash, hm⟩, key, ws, hw⟩ := h
  have hcs := cstrings_of hm.good hm.words hm.paths
  obtain ⟨view, info, v1, v2, v3, v4, _, _, v5, v6⟩ := viewDb_spec hw hcs hm.good
  refine ⟨_, view, openDb_spec hw, v1, (pairs_length v5).symm, ?_⟩
  intro i e
  constructor
  · rintro ⟨y, h1, h2⟩
    obtain ⟨m, h3, h4⟩ := pairs_get' v5 i y h1
    exact ⟨m, h3, (isAt_place h4 e).1 h2⟩
  · rintro ⟨m, h1, h2⟩
    obtain ⟨y, h3, h4⟩ := pairs_get v5 i m h1
    exact ⟨y, h3, (isAt_place h4 e).2 h2⟩

theorem place_file_inv {m : Msg} {p : Text} (h : Place m = some ⟨.file, p⟩) : ∃ mt sz, m.src = .file p mt sz := by
  obtain ⟨s, _, _, _, _, _⟩ := m
  cases s with
  | file q mt sz =>
    simp only [Place, Option.some.injEq, Listed.mk.injEq, true_and] at h
    subst h
    exact ⟨_, _, rfl⟩
  | imap q => simp [Place] at h
  | mbox fi mi => simp [Place] at h
  | dead => simp [Place] at h

/-- **C91.** After any number of indexing runs that completed, and any number of further ones without `-p`: the database has become no shorter; a number that was there before does not belong to another message file
afterwards, be it in use before or not; and a message file that was there before, that was configured all the time and whose modification time has stayed what it was (one that 32 bits can hold), still has its number. -/
theorem C91_numbers {hashfn : Nat → Text → Nat} {mktime : Nat → Nat → Nat → Int} {md5 : Text → List UInt8} (hmd5 : ∀ t, (md5 t).length = 16) {xs : List Indexing} {x : Indexing} {ys : List Indexing} {file file' : Text}
    (hl : ∀ y ∈ xs ++ [x] ++ ys, LibraryOk y) (hd : ∀ y ∈ xs ++ [x] ++ ys, DiscOk y.disc)
    (hc : ∀ y ∈ xs ++ [x] ++ ys, ∃ s items, ∃ N < y.depth, Spec.Means y.config y.disc.fs s items ∧ PathMax y.disc.fs N)
    (hp : ∀ y ∈ ys, y.purge = false) (e : indexMails hashfn mktime md5 (xs ++ [x]) none = .ok (some file)) (e' : indexMails hashfn mktime md5 ys (some file) = .ok (some file')) :
    ∃ raw view raw' view', openDb file = .ok raw ∧ viewDb raw = .ok view ∧ openDb file' = .ok raw' ∧ viewDb raw' = .ok view' ∧
      view.msgs.length ≤ view'.msgs.length ∧
      (∀ i < view.msgs.length, ∀ e, IsAt view' i e → IsAt view i e) ∧
      (x.fast = false → ∀ i p, IsAt view i ⟨.file, p⟩ → 0 ≤ x.disc.mtime p → x.disc.mtime p < 2 ^ 32 →
        (∀ y ∈ ys, (∃ s items, Spec.Means y.config y.disc.fs s items ∧ MessageFile s items p) ∧ (y.fast = true ∨ IsFile y.disc.fs p ∧ y.disc.mtime p = x.disc.mtime p)) →
        IsAt view' i ⟨.file, p⟩) := by
  obtain ⟨rs, h1, h2⟩ := indexMails_runs e
  obtain ⟨rs', h1', h2'⟩ := indexMails_runs e'
  have hsane : ∀ r ∈ rs, Sane r := by
    intro r' hr'
    obtain ⟨y, hy, ey⟩ := pairs_mem h1 hr'
    obtain ⟨s', items', N, hN, g1, g2⟩ := hc y (by simp only [List.mem_append] at hy ⊢; exact .inl hy)
    exact (indexing_sane hmd5 (hl y (by simp only [List.mem_append] at hy ⊢; exact .inl hy)) (hd y (by simp only [List.mem_append] at hy ⊢; exact .inl hy)) g1 g2 hN ey).1
  have hsane' : ∀ r ∈ rs', Sane r := by
    intro r' hr'
    obtain ⟨y, hy, ey⟩ := pairs_mem h1' hr'
    obtain ⟨s', items', N, hN, g1, g2⟩ := hc y (by simp [hy])
    exact (indexing_sane hmd5 (hl y (by simp [hy])) (hd y (by simp [hy])) g1 g2 hN ey).1
  have hpurge : ∀ r ∈ rs', r.purge = false := by
    intro r' hr'
    obtain ⟨y, hy, ey⟩ := pairs_mem h1' hr'
    obtain ⟨l, e1, ey⟩ := res_bind_ok ey
    obtain ⟨l', e2, ey⟩ := res_bind_ok ey
    cases ey
    exact hp y hy
  obtain ⟨rs1, r, rfl, h3, h4⟩ := pairs_snoc h1
  obtain ⟨db, ix, k1, k2⟩ := indexRuns_ok (rs1 ++ [r]) [] (holds_none []) (by simp) hsane h2
  rw [List.nil_append] at k1
  have hcur := k2 r (by simp)
  obtain ⟨db', ix', k3, k4⟩ := advances_runs rs' k1 hsane hsane' hpurge h2'
  obtain ⟨raw, view, a1, a2, a3, a4⟩ := holds_places k1
  obtain ⟨raw', view', b1, b2, b3, b4⟩ := holds_places k3
  refine ⟨raw, view, raw', view', a1, a2, b1, b2, by rw [a3, b3]; exact k4.length, ?_, ?_⟩
  · intro i hi x hx
    obtain ⟨m', c1, c2⟩ := (b4 i x).1 hx
    have hg := List.getElem?_eq_getElem (l := db.msgs) (i := i) (by omega)
    exact (a4 i x).2 ⟨_, hg, k4.same i _ m' x hg c1 c2⟩
  · intro hf i p hi h0 hT hst
    obtain ⟨m, c1, c2⟩ := (a4 i _).1 hi
    obtain ⟨mt, sz, c3⟩ := place_file_inv c2
    obtain ⟨_, _, N, hN, g1, g2⟩ := hc x (by simp)
    obtain ⟨_, w1, w2, _, _⟩ := indexing_sane hmd5 (hl x (by simp)) (hd x (by simp)) g1 g2 hN h4
    obtain ⟨t, s, c4, c5⟩ := hcur.fresh (by rw [w2, hf]) m (List.mem_of_getElem? c1) p mt sz c3
    rw [w1] at c4
    obtain ⟨-, c6, -⟩ := disc_stat.1 c4
    subst c6
    obtain ⟨m', mt', sz', d1, d2, -⟩ := k4.stays i p _ h0 hT ⟨m, mt, sz, c1, c3, c5⟩ (by
      intro r' hr'
      obtain ⟨y, hy, ey⟩ := pairs_mem h1' hr'
      obtain ⟨⟨s, items, f1, f2⟩, f3⟩ := hst y hy
      obtain ⟨_, _, N, hN, -, g2⟩ := hc y (by simp [hy])
      obtain ⟨_, v1, v2, _, v4⟩ := indexing_sane hmd5 (hl y (by simp [hy])) (hd y (by simp [hy])) f1 g2 hN ey
      refine ⟨(v4 _).2 ⟨rfl, f2⟩, ?_⟩
      rcases f3 with f3 | ⟨f3, f4⟩
      · exact .inl (by rw [v2, f3])
      · right
        rw [v1]
        simp only [modified, disc_stat.2 ⟨f3, rfl, rfl⟩, f4])
    exact (b4 i _).2 ⟨m', d1, place_file d2⟩

end Mairix
