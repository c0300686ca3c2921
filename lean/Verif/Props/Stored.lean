import Verif.Model.Stored
import Verif.Props.Posted

/-!
# Messages of mboxen are found again
-/

namespace Mairix
open Spec

theorem at_take {d : Text} {off : Nat} {b : List UInt8} (h : At d off b) : (d.drop off).take b.length = b := by
  apply List.ext_getElem?
  intro i
  rw [List.getElem?_take, List.getElem?_drop]
  split
  · rename_i hi
    exact h i hi
  · rename_i hi
    rw [List.getElem?_eq_none (by omega)]

theorem storedCheck_ok {key : Nat} {db : Database} {d : Text} {ws : List Write} (h : Written key db d ws) {m : DbMsg} {mb : Mbox} {e : MboxMsg} (hm : db.mboxen[m.mbix]? = some mb)
    (he : mb.msgs[m.msgix]? = some e) (hl : e.check.length = 16) : storedCheck (rawOf key db d) m = .ok e.check := by
  obtain ⟨o, o1, o2⟩ := h.file.checks _ _ hm
  have hb := h.block (o2 _ _ he)
  have hin := at_inside hb (by intro h0; rw [h0] at hl; cases hl)
  have hfit := h.fits
  unfold storedCheck
  have hoff : rd32 (rawOf key db d).data ((rawOf key db d).mboxChecksum + m.mbix) = .ok o := by
    have := rd32_at (h.word o1)
    rw [Nat.mod_eq_of_lt (by omega)] at this
    exact this
  rw [hoff]
  simp only [bind, Except.bind]
  rw [if_pos (show o + 16 * m.msgix + 16 ≤ (rawOf key db d).data.length by show _ ≤ d.length; omega)]
  show Except.ok ((d.drop (o + 16 * m.msgix)).take 16) = _
  have := at_take hb
  rw [hl] at this
  rw [this]

/-- The checksum noted for a message of the mbox is that of its text. -/
theorem box_checks {hashfn : Nat → Text → Nat} {rs : List Run} {r : Run} {d : Text} (hs : ∀ r' ∈ rs ++ [r], Sane r')
    (e : indexRuns hashfn (rs ++ [r]) none = .ok (some d)) {x : Extant} (hx : x ∈ r.extant) (hst : Steady (rs ++ [r]) x.path)
    {gs : List BoxMsg} (hgs : BoxHolds r x.path gs) (hmd5 : ∀ t, (r.mboxWorld.md5 t).length = 16) {raw : RawDb} {view : ReadDb} (o1 : openDb d = .ok raw) (o2 : viewDb raw = .ok view) {i : Nat} {m : DbMsg}
    (h1 : view.msgs[i]? = some m) (h2 : m.type = DB_MSG_MBOX) (h3 : view.mboxPaths[m.mbix]? = some x.path) :
    storedCheck raw m = .ok (r.mboxWorld.md5 (between (boxText r x.path) m.mtime (m.mtime + m.size))) := by
  obtain ⟨db, ix, ⟨⟨hash, hm⟩, key, ws, hw⟩, _, h4⟩ := indexRuns_box (p := x.path) (rs ++ [r]) hs hst e
  obtain ⟨hc, hsh⟩ := h4 r (by simp)
  have hcs := cstrings_of hm.good hm.words hm.paths
  obtain ⟨view', info, v1, v2, v3, v4, _, _, v5, v6⟩ := viewDb_spec hw hcs hm.good
  rw [openDb_spec hw] at o1
  cases o1
  rw [v1] at o2
  cases o2
  obtain ⟨m0, k1, k2⟩ := pairs_get' v5 i m h1
  have hty : m.type = typeByte m0.src := by rw [DbMsg.type, k2.1, type_of_byte]
  cases hsrc : m0.src with
  | mbox fi mi =>
    obtain ⟨_, _, k3⟩ := k2
    rw [hsrc] at k3
    obtain ⟨b1, b2, b3, mb, c, s, l, b4, b5, b6, b7, b8⟩ := k3
    obtain ⟨k, hk, hk'⟩ := hm.good.boxes fi
    have hmi := mem_boxIdx (List.mem_of_getElem? k1) hsrc
    rw [hk, List.mem_range] at hmi
    obtain ⟨mb', b9, b10, _⟩ := hk' (by omega)
    rw [b4] at b9
    cases b9
    obtain ⟨q, hq⟩ := Option.ne_none_iff_exists'.1 b10
    obtain ⟨q', w1, w2⟩ := pairs_get v6 fi mb b4
    rw [w2 q hq] at w1
    rw [b1, w1] at h3
    cases h3
    rcases hsh x hx rfl gs hgs with ⟨rfl, hno⟩ | ⟨fi', mb', hat⟩
    · exact absurd hq (hno mb (List.mem_of_getElem? b4))
    · have hf : fi = fi' := filterMap_nodup_index hm.good.paths fi fi' mb mb' b4 hat.get hq hat.path
      subst hf
      rw [hat.get] at b4
      cases b4
      have b5' := b5
      rw [hat.msgs, recsOf, List.getElem?_map, Option.map_eq_some_iff] at b5'
      obtain ⟨g, hg, rfl⟩ := b5'
      simp only [boxRecord, Option.some.injEq] at b6
      have hsmall := boxText_small (hs r (by simp)) x.path
      have hb := (boxHolds_text hgs g (List.mem_of_getElem? hg)).1
      rw [b6] at hb
      simp only at hb
      rw [Nat.mod_eq_of_lt (by omega)] at b7 b8
      rw [storedCheck_ok hw (m := m) (by rw [b1]; exact hat.get) (by rw [b2]; exact b5) (hmd5 _)]
      simp only [boxRecord, b6, b7, b8]
  | _ =>
    rw [hty, hsrc] at h2
    simp only [typeByte] at h2
    exact absurd h2 (by decide)

/-- A message delivered to the mbox is found again for output as it was delivered. -/
theorem posted_data {hashfn : Nat → Text → Nat} {mktime : Nat → Nat → Nat → Int} {md5 : Text → List UInt8} (hmd5 : ∀ t, (md5 t).length = 16) {xs : List Indexing} {x : Indexing} {file : Text}
    (hl : ∀ y ∈ xs ++ [x], LibraryOk y) (hd : ∀ y ∈ xs ++ [x], DiscOk y.disc)
    (hc : ∀ y ∈ xs ++ [x], ∃ s items, ∃ N < y.depth, Spec.Means y.config y.disc.fs s items ∧ PathMax y.disc.fs N)
    {s : Setting} {items : FolderType → List FolderItem} (hm : Spec.Means x.config x.disc.fs s items)
    (hafter : ∀ y ∈ xs, y.disc.after = x.disc.after) {p : Text} {boxes : List (List Posted)} {ms : List Posted}
    (hb : Pairs (fun y ms => MboxNow y.disc p ms) (xs ++ [x]) (boxes ++ [ms])) (hx : MboxAt x.disc p ms)
    (hgrow : (boxes ++ [ms]).Pairwise (· <+: ·)) (hms : ∀ m ∈ ms, m.Ok mktime) (hp : Configured s items .mbox p)
    (e : indexMails hashfn mktime md5 (xs ++ [x]) none = .ok (some file)) {raw : RawDb} {view : ReadDb} (o1 : openDb file = .ok raw) (o2 : viewDb raw = .ok view)
    {i : Nat} {m : DbMsg} (h1 : view.msgs[i]? = some m) (h2 : m.type = DB_MSG_MBOX) (h3 : view.mboxPaths[m.mbix]? = some p) :
    ∃ k y, ms[k]? = some y ∧ (m.mtime, m.size) = placeOf ms k y ∧ mboxMsgData md5 x.disc raw view m = .ok (some y.text) := by
  obtain ⟨rs, r, z, hsane, e', hex, rfl, hst, hholds, hw, htext, -⟩ := posted_runs hmd5 hl hd hc hm hafter hb hx hgrow hms hp e
  have hmd : r.mboxWorld.md5 = md5 := by rw [hw]; rfl
  have hck := box_checks hsane e' hex hst hholds (by rw [hmd]; exact hmd5) o1 o2 h1 h2 h3
  obtain ⟨raw', view', info, a1, a2, a3, _, a5⟩ := C61_mbox_partial hsane e' hex hst hholds
  rw [o1] at a1
  cases a1
  rw [o2] at a2
  cases a2
  obtain ⟨g, g1, g2, -⟩ := a5.each i m h1 h2 h3
  obtain ⟨y, hy, rfl⟩ := List.mem_map.1 g1
  obtain ⟨k, hk, hk'⟩ := placesFrom_mem hy
  simp only [Nat.zero_add] at hk'
  obtain ⟨t1, t2⟩ := placesFrom_text ms [] y hy
  simp only [List.nil_append] at t1
  have hbound := (boxHolds_text hholds _ g1).1
  rw [htext] at hck hbound
  simp only at g2 hbound
  rw [g2] at hbound t1 hk'
  simp only at hbound
  refine ⟨k, y.2, hk, hk', ?_⟩
  have hne : ms ≠ [] := by rintro rfl; cases hk
  have hmap : x.disc.map z.path = .data (boxBytes ms) := by
    have := (boxNow_holds (md5 := md5) (hd x (by simp)) hx hms).1
    rw [if_neg hne] at this
    exact this
  have hpos : 0 < m.size := by
    have h4 := congrArg Prod.snd hk'
    obtain ⟨t, ht⟩ := (hms y.2 t2).ends
    simp only [placeOf, ht, List.length_append, List.length_singleton] at h4
    omega
  have hsmall := boxText_small (hsane r (by simp)) z.path
  rw [htext] at hsmall
  unfold mboxMsgData
  rw [h3]
  simp only [hmap, hck, bind, Except.bind, hmd]
  unfold validatedMsg
  have hlen : (if m.mtime ≥ (boxBytes ms).length then 0 else if (m.mtime + m.size) % 2 ^ 32 ≥ (boxBytes ms).length then (boxBytes ms).length - m.mtime else m.size) = m.size := by
    rw [if_neg (by omega), Nat.mod_eq_of_lt (by omega)]
    split <;> omega
  simp only [hlen]
  rw [if_pos (.inr hbound)]
  have htake : ((boxBytes ms).drop m.mtime).take m.size = between (boxBytes ms) m.mtime (m.mtime + m.size) := by simp [between]
  simp only [BoxMsg.text] at t1
  rw [htake, if_pos rfl, t1]

/-- Each message of an mbox has its checksum in the file. -/
def Checked (raw : RawDb) (view : ReadDb) : Prop := ∀ (i : Nat) m, view.msgs[i]? = some m → m.type = DB_MSG_MBOX → ∃ c, storedCheck raw m = .ok c

theorem runs_checked {hashfn : Nat → Text → Nat} {rs : List Run} {r : Run} {d : Text} (hs : ∀ r' ∈ rs ++ [r], Sane r')
    (e : indexRuns hashfn (rs ++ [r]) none = .ok (some d)) {raw : RawDb} {view : ReadDb} (o1 : openDb d = .ok raw) (o2 : viewDb raw = .ok view) : Checked raw view := by
  obtain ⟨db, ix, ⟨⟨hash, hm⟩, key, ws, hw⟩, _⟩ := indexRuns_ok (rs ++ [r]) [] (holds_none []) (by simp) hs e
  have hcs := cstrings_of hm.good hm.words hm.paths
  obtain ⟨view', info, v1, v2, v3, v4, _, _, v5, v6⟩ := viewDb_spec hw hcs hm.good
  rw [openDb_spec hw] at o1
  cases o1
  rw [v1] at o2
  cases o2
  intro i m h1 h2
  obtain ⟨m0, k1, k2⟩ := pairs_get' v5 i m h1
  have hty : m.type = typeByte m0.src := by rw [DbMsg.type, k2.1, type_of_byte]
  cases hsrc : m0.src with
  | mbox fi mi =>
    obtain ⟨_, _, k3⟩ := k2
    rw [hsrc] at k3
    obtain ⟨b1, b2, b3, mb, c, s, l, b4, b5, b6, b7, b8⟩ := k3
    obtain ⟨mw, g4, g5⟩ := pairs_get hm.prov i m0 k1
    obtain ⟨r', g6, mb', p', va, c', s', l', a1, a2, a3, a4, a5, a6, a7, a8, a9⟩ := g5.box fi mi hsrc
    rw [b4] at a1
    cases a1
    rw [b5] at a4
    cases a4
    exact ⟨_, storedCheck_ok hw (m := m) (by rw [b1]; exact b4) (by rw [b2]; exact b5) (by rw [a7]; exact (hs r' g6).md5 _)⟩
  | _ =>
    rw [hty, hsrc] at h2
    simp only [typeByte] at h2
    exact absurd h2 (by decide)

theorem whole_checked {hashfn : Nat → Text → Nat} {mktime : Nat → Nat → Nat → Int} {md5 : Text → List UInt8} (hmd5 : ∀ t, (md5 t).length = 16) {xs : List Indexing} {x : Indexing} {file : Text}
    (hl : ∀ y ∈ xs ++ [x], LibraryOk y) (hd : ∀ y ∈ xs ++ [x], DiscOk y.disc)
    (hc : ∀ y ∈ xs ++ [x], ∃ s items, ∃ N < y.depth, Spec.Means y.config y.disc.fs s items ∧ PathMax y.disc.fs N)
    (e : indexMails hashfn mktime md5 (xs ++ [x]) none = .ok (some file)) {raw view} (h1 : openDb file = .ok raw) (h2 : viewDb raw = .ok view) : Checked raw view := by
  obtain ⟨rs', g1, g2⟩ := indexMails_runs e
  obtain ⟨rs, r, rfl, -, -⟩ := pairs_snoc g1
  refine runs_checked ?_ g2 h1 h2
  intro r' hr'
  obtain ⟨y, hy, ey⟩ := pairs_mem g1 hr'
  obtain ⟨s', items', N, hN, k1, k2⟩ := hc y hy
  exact (indexing_sane hmd5 (hl y hy) (hd y hy) k1 k2 hN ey).1

end Mairix
