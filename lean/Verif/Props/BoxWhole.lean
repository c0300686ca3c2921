import Verif.Proofs.BoxAppend
import Verif.Props.Crash

/-!
# C61: all messages of an mbox are found
-/

namespace Mairix
open Spec

theorem filterMap_range (gs : List BoxMsg) : ((List.range gs.length).filterMap fun mi => gs[mi]?.map (·.1)) = gs.map (·.1) := by
  induction gs with
  | nil => rfl
  | cons g gs ih =>
    rw [List.length_cons, List.range_succ_eq_map, List.filterMap_cons, List.filterMap_map]
    simp only [List.getElem?_cons_zero, Option.map_some, List.map_cons, List.cons.injEq, true_and]
    exact ih

theorem boxIndexed_view {hist : List Run} {r : Run} {hash : Text → Nat} {db : Database} {ix : List MsgWords} {view : ReadDb} {info : List Info}
    (hm : Mem hist hash db ix) (hr : r ∈ hist) (hs : ∀ r' ∈ hist, Sane r') (v3 : info.length = db.msgs.length)
    (v4 : ∀ (i : Nat) x, info[i]? = some x → ∃ m mw, db.msgs[i]? = some m ∧ ix[i]? = some mw ∧ InfoOf db.mboxen m mw x)
    (v5 : Pairs (MsgStored db.mboxen) db.msgs view.msgs)
    (v6 : Pairs (fun (mb : Mbox) p => ∀ q, mb.path = some q → p = q) db.mboxen view.mboxPaths) {p : Text} (hst : Steady hist p)
    (hsh : Shown r p db) {x : Extant} (hx : x ∈ r.extant) (hxp : x.path = p) {gs : List BoxMsg} (hgs : BoxHolds r p gs) :
    BoxIndexed view info p gs := by
  -- the mbox of a message
  have hbox : ∀ m ∈ db.msgs, ∀ y, MsgStored db.mboxen m y → (y.type = DB_MSG_MBOX ∧ view.mboxPaths[y.mbix]? = some p ↔
      ∃ fi mi mb, m.src = .mbox fi mi ∧ db.mboxen[fi]? = some mb ∧ mb.path = some p) := by
    intro m hmm y hy
    have hty : y.type = typeByte m.src := by rw [DbMsg.type, hy.1, type_of_byte]
    cases hsrc : m.src with
    | mbox fi mi =>
      obtain ⟨_, _, h4⟩ := hy
      rw [hsrc] at h4
      obtain ⟨b1, _, _, mb, c, s, l, b4, b5, b6, _⟩ := h4
      obtain ⟨k, hk, hk'⟩ := hm.good.boxes fi
      have hmi := mem_boxIdx hmm hsrc
      rw [hk, List.mem_range] at hmi
      obtain ⟨mb', b7, b8, _⟩ := hk' (by omega)
      rw [b4] at b7
      cases b7
      obtain ⟨q, hq⟩ := Option.ne_none_iff_exists'.1 b8
      obtain ⟨q', w1, w2⟩ := pairs_get v6 fi mb b4
      rw [w2 q hq] at w1
      rw [hty, hsrc, b1, w1]
      constructor
      · rintro ⟨_, h⟩
        cases h
        exact ⟨fi, mi, mb, rfl, b4, hq⟩
      · rintro ⟨fi', mi', mb', h1, h2, h3⟩
        cases h1
        rw [b4] at h2
        cases h2
        rw [hq] at h3
        exact ⟨rfl, h3⟩
    | _ =>
      rw [hty, hsrc]
      constructor
      · rintro ⟨h, _⟩; simp only [typeByte] at h; exact absurd h (by decide)
      · rintro ⟨fi, mi, mb, h, _⟩; cases h
  rcases hsh x hx hxp gs hgs with ⟨rfl, hno⟩ | ⟨fi, mb, hat⟩
  · have hnone : ∀ m ∈ db.msgs, ∀ y, MsgStored db.mboxen m y → ¬ (y.type = DB_MSG_MBOX ∧ view.mboxPaths[y.mbix]? = some p) := by
      intro m hmm y hy hc
      obtain ⟨fi, mi, mb, _, h2, h3⟩ := (hbox m hmm y hy).1 hc
      exact hno mb (List.mem_of_getElem? h2) h3
    constructor
    · rw [List.map_nil, boxPlaces, List.filterMap_eq_nil_iff]
      intro y hy
      obtain ⟨m, h1, h2⟩ := pairs_right v5 hy
      rw [if_neg (hnone m h1 y h2)]
    · intro i y hy h1 h2
      obtain ⟨m, h3, h4⟩ := pairs_get' v5 i y hy
      exact absurd ⟨h1, h2⟩ (hnone m (List.mem_of_getElem? h3) y h4)
  · have hsmall := boxText_small (hs r hr) p
    have hown : ∀ m ∈ db.msgs, ∀ y, MsgStored db.mboxen m y → ∀ mi, m.src = .mbox fi mi → ∃ g, gs[mi]? = some g ∧ g.1 = (y.mtime, y.size) := by
      intro m hmm y hy mi hsrc
      obtain ⟨_, _, h4⟩ := hy
      rw [hsrc] at h4
      obtain ⟨_, _, _, mb', c, s, l, b4, b5, b6, b7, b8⟩ := h4
      rw [hat.get] at b4
      cases b4
      rw [hat.msgs, recsOf, List.getElem?_map, Option.map_eq_some_iff] at b5
      obtain ⟨g, hg, rfl⟩ := b5
      simp only [boxRecord, Option.some.injEq] at b6
      have hb := (boxHolds_text hgs g (List.mem_of_getElem? hg)).1
      rw [b6] at hb
      simp only at hb
      rw [Nat.mod_eq_of_lt (by omega)] at b7 b8
      exact ⟨g, hg, by rw [b6, b7, b8]⟩
    have hmine : ∀ m ∈ db.msgs, ∀ y, MsgStored db.mboxen m y → y.type = DB_MSG_MBOX ∧ view.mboxPaths[y.mbix]? = some p → ∃ mi, m.src = .mbox fi mi := by
      intro m hmm y hy hc
      obtain ⟨fi', mi, mb', h1, h2, h3⟩ := (hbox m hmm y hy).1 hc
      have : fi' = fi := filterMap_nodup_index hm.good.paths fi' fi mb' mb h2 hat.get h3 hat.path
      exact ⟨mi, by rw [h1, this]⟩
    constructor
    · have key : boxPlaces view p = (boxIdx db.msgs fi).filterMap fun mi => gs[mi]?.map (·.1) := by
        unfold boxPlaces boxIdx
        rw [List.filterMap_filterMap]
        have hgetmb := hat.get
        have hpathmb := hat.path
        clear v3 v4 hat
        generalize view.msgs = ys at v5
        generalize db.msgs = ms at v5 hbox hown hmine
        induction v5 with
        | nil => rfl
        | @cons m y ms ys h1 _ ih =>
          have ih := ih (fun m' h' => hbox m' (by simp [h'])) (fun m' h' => hown m' (by simp [h'])) (fun m' h' => hmine m' (by simp [h']))
          have hhead : (if y.type = DB_MSG_MBOX ∧ view.mboxPaths[y.mbix]? = some p then some (y.mtime, y.size) else none) =
              (boxNo fi m.src).bind fun mi => gs[mi]?.map (·.1) := by
            by_cases hc : y.type = DB_MSG_MBOX ∧ view.mboxPaths[y.mbix]? = some p
            · obtain ⟨mi, hsrc⟩ := hmine m (by simp) y h1 hc
              obtain ⟨g, h2, h3⟩ := hown m (by simp) y h1 mi hsrc
              rw [if_pos hc, hsrc]
              simp [boxNo, h2, h3]
            · rw [if_neg hc]
              cases hb : boxNo fi m.src with
              | none => rfl
              | some mi =>
                exfalso
                have hsrc : m.src = .mbox fi mi := by
                  unfold boxNo at hb
                  split at hb
                  · rename_i f mi' hs'
                    split at hb
                    · rename_i hf
                      cases hb
                      rw [hs', hf]
                    · cases hb
                  · cases hb
                exact hc ((hbox m (by simp) y h1).2 ⟨fi, mi, mb, hsrc, hgetmb, hpathmb⟩)
          rw [List.filterMap_cons, List.filterMap_cons, hhead, ih]
      rw [key, hat.idx, show (recsOf r p gs).length = gs.length by simp [recsOf]]
      exact filterMap_range gs
    · intro i y hy h1 h2
      obtain ⟨m, h3, h4⟩ := pairs_get' v5 i y hy
      obtain ⟨mi, hsrc⟩ := hmine m (List.mem_of_getElem? h3) y h4 ⟨h1, h2⟩
      obtain ⟨g, hg, hgy⟩ := hown m (List.mem_of_getElem? h3) y h4 mi hsrc
      have hgm := List.mem_of_getElem? hg
      have hlt := (List.getElem?_eq_some_iff.1 h3).1
      have hxi : info[i]? = some (info[i]'(by omega)) := List.getElem?_eq_getElem _
      generalize (info[i]'(by omega)) = x at hxi
      obtain ⟨m', mw, g1, g2, h7⟩ := v4 i _ hxi
      rw [h3] at g1
      cases g1
      obtain ⟨mw', g4, g5⟩ := pairs_get hm.prov i m h3
      rw [g2] at g4
      cases g4
      obtain ⟨r', g6, mb', p', va, c, s, l, a1, a2, a3, a4, a5, a6, a7, a8, a9⟩ := g5.box fi mi hsrc
      rw [hat.get] at a1
      cases a1
      rw [hat.path] at a2
      cases a2
      rw [hat.msgs, recsOf, List.getElem?_map, hg] at a4
      cases a4
      simp only [boxRecord, Option.some.injEq] at a5 a7
      have hb := boxHolds_text hgs g hgm
      have hva : boxText r' p = va := by simp [boxText, a3]
      obtain ⟨t1, t2, _⟩ := hst.tools r' g6 r hr
      have htext : between va s (s + l) = g.text (boxText r p) := by
        have := hst.sums r hr r' g6 gs hgs g hgm
        rw [hva] at this
        rw [a5, ← t2] at a7
        have ha : between va s (s + l) = g.text va := by simp only [BoxMsg.text, a5]
        rw [ha]
        refine (this (by rw [a5]; exact a6) ?_).symm
        rw [← ha]
        simp only [BoxMsg.text, a5]
        exact a7
      have hparse : (r'.mboxWorld.parse (between va s (s + l))).1 = g.2 := by rw [htext, hb.2, t1]
      rw [hparse] at a8 a9
      refine ⟨g, hgm, hgy, x, hxi, ?_, ?_, ?_⟩
      · rw [h7.path, hsrc]
        simp [pathOf, hat.get, hat.path]
      · have := h7.size
        rw [hsrc] at this
        obtain ⟨mb1, c1, s1, l1, k1, k2, k3, k4⟩ := this
        rw [hat.get] at k1
        cases k1
        rw [hat.msgs, recsOf, List.getElem?_map, hg] at k2
        cases k2
        simp only [boxRecord, Option.some.injEq] at k3
        have hb1 := hb.1
        rw [k3] at hb1 ⊢
        simp only at hb1 ⊢
        rw [k4, Nat.mod_eq_of_lt (by omega)]
      · constructor
        · intro f v; rw [h7.words]; exact a9.1 f v
        · intro v
          rw [h7.ids, List.mem_map]
          constructor
          · rintro ⟨⟨v', own⟩, h, rfl⟩
            obtain ⟨h, ho⟩ := List.mem_filter.1 h
            simp only at ho
            subst ho
            exact (a9.2 v' true).1 h
          · intro h
            exact ⟨(v, true), List.mem_filter.2 ⟨(a9.2 v true).2 h, rfl⟩, rfl⟩
        · intro q hq
          obtain ⟨z1, z2, z3, z4⟩ := a8 q hq
          rw [h7.date (by rw [hsrc]; simp), h7.seen, h7.replied, h7.flagged]
          exact ⟨z1, z2, z3, z4⟩

/-- **C61 (partial).** After any number of indexing runs that completed, starting without a database, the messages a
search sees in an mbox found in the last run are exactly the messages the mbox held then, each once, in their order and
rightly described. Missing: mboxen in MMDF format; and mboxen that change in other ways than by an edit that
leaves a number of messages at the beginning alone, see `C30_truncated_violation` and
`C30_changed_in_place_violation`. -/
theorem C61_mbox_partial {hashfn : Nat → Text → Nat} {rs : List Run} {r : Run} {d : Text} (hs : ∀ r' ∈ rs ++ [r], Sane r')
    (e : indexRuns hashfn (rs ++ [r]) none = .ok (some d)) {x : Extant} (hx : x ∈ r.extant) (hst : Steady (rs ++ [r]) x.path)
    {gs : List BoxMsg} (hgs : BoxHolds r x.path gs) :
    ∃ raw view info, openDb d = .ok raw ∧ viewDb raw = .ok view ∧ Shows view info ∧ Agrees (rs ++ [r]) r view info ∧
      BoxIndexed view info x.path gs := by
  obtain ⟨db, ix, ⟨⟨hash, hm⟩, key, ws, hw⟩, _, h3⟩ := indexRuns_box (p := x.path) (rs ++ [r]) hs hst e
  obtain ⟨hc, hsh⟩ := h3 r (by simp)
  have hcs := cstrings_of hm.good hm.words hm.paths
  obtain ⟨view, info, v1, v2, v3, v4, _, _, v5, v6⟩ := viewDb_spec hw hcs hm.good
  exact ⟨_, view, info, openDb_spec hw, v1, v2, agrees_view hm hc hs v3 v4 v5 v6,
    boxIndexed_view hm (by simp) hs v3 v4 v5 v6 hst hsh hx rfl hgs⟩

theorem boxIndexed_isInBox {view : ReadDb} {info : List Info} {p : Text} {gs : List BoxMsg} (h : BoxIndexed view info p gs) (pl : Nat × Nat) :
    (∃ i, IsInBox view i p pl) ↔ ∃ g ∈ gs, g.1 = pl := by
  have : pl ∈ boxPlaces view p ↔ pl ∈ gs.map (·.1) := by rw [h.places]
  rw [List.mem_map] at this
  rw [← this]
  unfold boxPlaces
  rw [List.mem_filterMap]
  constructor
  · rintro ⟨i, m, h1, h2, h3, h4⟩
    exact ⟨m, List.mem_of_getElem? h1, by rw [if_pos ⟨h2, h3⟩, h4]⟩
  · rintro ⟨m, h1, h2⟩
    obtain ⟨i, hi⟩ := List.getElem?_of_mem h1
    split at h2
    · rename_i h3
      cases h2
      exact ⟨i, m, hi, h3.1, h3.2, rfl⟩
    · cases h2

/-- **C61, searching for a word (partial).** Under the same conditions searching for a word finds, of the messages the
mbox holds, exactly those that have the word in one of the fields. -/
theorem C61_search_partial {hashfn : Nat → Text → Nat} {rs : List Run} {r : Run} {d : Text} (hs : ∀ r' ∈ rs ++ [r], Sane r')
    (e : indexRuns hashfn (rs ++ [r]) none = .ok (some d)) {x : Extant} (hx : x ∈ r.extant) (hst : Steady (rs ++ [r]) x.path)
    {gs : List BoxMsg} (hgs : BoxHolds r x.path gs)
    (scan) (sort : List Nat → List Nat) (letters w : Text) (hl : ∀ c ∈ letters, c ∈ bs "tcfsbnra") (hw : PlainWord w) :
    ∃ raw view found, openDb d = .ok raw ∧ viewDb raw = .ok view ∧
      doSearch scan sort view [letters ++ bs ":" ++ w] false false = .ok found ∧
      ∀ pl, (∃ i ∈ found, IsInBox view i x.path pl) ↔
        ∃ g ∈ gs, g.1 = pl ∧ ∃ m, g.2 = some m ∧ ∃ c ∈ letters, ∃ f, LetterMeans c f ∧ HasWord m f (lower w) := by
  obtain ⟨raw, view, info, h1, h2, h3, _, h5⟩ := C61_mbox_partial hs e hx hst hgs
  obtain ⟨found, e1, h7⟩ := C15_exact_word h3 scan sort letters w hl hw
  refine ⟨raw, view, found, h1, h2, e1, ?_⟩
  have hsame : ∀ g ∈ gs, ∀ g' ∈ gs, g.1 = g'.1 → g.2 = g'.2 := by
    intro g hg g' hg' he
    rw [(boxHolds_text hgs g hg).2, (boxHolds_text hgs g' hg').2]
    simp only [BoxMsg.text, he]
  intro pl
  constructor
  · rintro ⟨i, hi, m, q1, q2, q3, rfl⟩
    obtain ⟨y, hy, _, c, hc, f, hm, hwd⟩ := (h7 i).1 hi
    obtain ⟨g, g1, g2, y', g3, g4, _, g5⟩ := h5.each i m q1 q2 q3
    rw [hy] at g3
    cases g3
    obtain ⟨m8, w1, w2⟩ := (g5.words f _).1 hwd
    exact ⟨g, g1, g2, m8, w1, c, hc, f, hm, w2⟩
  · rintro ⟨g, g1, rfl, m8, w1, c, hc, f, hm, w2⟩
    obtain ⟨i, m, q1, q2, q3, q4⟩ := (boxIndexed_isInBox h5 g.1).2 ⟨g, g1, rfl⟩
    obtain ⟨g', z1, z2, y, z3, z4, _, z5⟩ := h5.each i m q1 q2 q3
    refine ⟨i, (h7 i).2 ⟨y, z3, by rw [z4]; simp, c, hc, f, hm, (z5.words f _).2 ⟨m8, ?_, w2⟩⟩, m, q1, q2, q3, q4⟩
    rw [hsame g' z1 g g1 (by rw [z2, q4])]
    exact w1

theorem pairwise_mem {α : Type} {R : α → α → Prop} {l : List α} (h : l.Pairwise R) {a b : α} (ha : a ∈ l) (hb : b ∈ l) : a = b ∨ R a b ∨ R b a := by
  induction h with
  | nil => cases ha
  | cons h1 _ ih =>
    rcases List.mem_cons.1 ha with ha' | ha'
    · rcases List.mem_cons.1 hb with hb | hb
      · exact .inl (ha'.trans hb.symm)
      · exact .inr (.inl (ha' ▸ h1 _ hb))
    · rcases List.mem_cons.1 hb with hb | hb
      · exact .inr (.inr (hb ▸ h1 _ (by assumption)))
      · exact ih (by assumption) hb

/-- **C61, mboxen that grow.** The conditions are met when messages are only ever added to the mbox at its end. -/
theorem C61_grows {hist : List Run} {p : Text} (hs : ∀ r ∈ hist, Sane r) (h : Grows hist p) : Steady hist p := by
  have hlt : ∀ r ∈ hist, (boxText r p).length < 2 ^ 31 := by
    intro r hr
    rcases h.lines r hr with ⟨h1, _⟩ | h1 | ⟨va, v, h1, _⟩
    · unfold boxText; rw [h1]; simp
    · unfold boxText; rw [h1]; simp
    · have := (hs r hr).contents p va h1
      unfold boxText; rw [h1]; exact this
  have hnil : ∀ r ∈ hist, ∀ x ∈ r.extant, x.path = p → boxText r p = [] → r.mboxWorld.contents p = .empty := by
    intro r hr x hx hxp hn
    rcases h.lines r hr with ⟨_, h1⟩ | h1 | ⟨va, v, h1, h2, _⟩
    · exact absurd hxp (h1 x hx)
    · exact h1
    · unfold boxText at hn; rw [h1] at hn; simp only at hn; rw [hn] at h2; simp at h2
  refine ⟨h.tools, ?_, ?_, ?_, ?_, ?_⟩
  · intro r hr
    rcases h.lines r hr with ⟨h1, _⟩ | h1 | ⟨va, v, h1, _, h2⟩
    · unfold boxText; rw [h1]; rintro ⟨h3, _⟩; simp at h3
    · unfold boxText; rw [h1]; rintro ⟨h3, _⟩; simp at h3
    · unfold boxText; rw [h1]; exact h2
  · intro r hr x hx hp h0
    apply hnil r hr x hx hp
    rw [h.size r hr x hx hp] at h0
    exact List.length_eq_zero_iff.1 h0
  · intro r hr r' hr' gs hgs g hg hfit _
    have hfit' := (boxHolds_text hgs g hg).1
    rcases pairwise_mem h.added hr hr' with rfl | h1 | h1
    · rfl
    · rcases h1 with h1 | ⟨rest, h1, _⟩
      · rw [h1]
      · rw [h1]; exact (between_append _ _ hfit').symm
    · rcases h1 with h1 | ⟨rest, h1, _⟩
      · rw [h1]
      · rw [h1]; exact between_append _ _ hfit
  · refine (List.Pairwise.and_mem.1 h.added).imp ?_
    rintro r r' ⟨hr, hr', ha⟩ x hx x' hx' hp hp' _ hsz _ _
    rw [h.size r hr x hx hp, h.size r' hr' x' hx' hp', Nat.mod_eq_of_lt (by have := hlt r hr; omega),
      Nat.mod_eq_of_lt (by have := hlt r' hr'; omega)] at hsz
    have heq : boxText r' p = boxText r p := by
      rcases ha with ha | ⟨rest, ha, _⟩
      · exact ha
      · have := congrArg List.length ha
        simp only [List.length_append] at this
        have h5 : (bs "From ").length = 5 := by decide
        omega
    rcases h.lines r hr with ⟨_, h1⟩ | h1 | ⟨va, v, h1, h2, _⟩
    · exact absurd hp (h1 x hx)
    · rw [h1]
      apply hnil r' hr' x' hx' hp'
      rw [heq]; unfold boxText; rw [h1]
    · rcases h.lines r' hr' with ⟨_, h3⟩ | h3 | ⟨va', v', h3, _⟩
      · exact absurd hp' (h3 x' hx')
      · have : boxText r p = [] := by rw [← heq]; unfold boxText; rw [h3]
        rw [hnil r hr x hx hp this] at h1; cases h1
      · unfold boxText at heq
        rw [h1, h3] at heq
        simp only at heq
        rw [h1, h3, heq]
  · refine (List.Pairwise.and_mem.1 h.added).imp ?_
    rintro r r' ⟨hr, hr', ha⟩ gs gs' hgs hgs' hne
    have hc := h.complete r hr gs hgs
    rcases hgs with ⟨_, rfl⟩ | ⟨va, h1, h2⟩
    · exact ⟨0, Nat.le_refl _, rfl, by simp, by simp, Or.inl rfl⟩
    · have hva : boxText r p = va := by unfold boxText; rw [h1]
      rcases hgs' with ⟨h3, _⟩ | ⟨va', h3, h4⟩
      · exact absurd h3 hne
      · have hva' : boxText r' p = va' := by unfold boxText; rw [h3]
        obtain ⟨t1, t2, t3⟩ := h.tools r hr r' hr'
        rw [hva] at hc ha
        rw [hva'] at ha
        rw [hva, hva']
        have h4' : BoxMessages r.mboxWorld va' gs' := by
          obtain ⟨parts, g1, g2⟩ := h4
          obtain ⟨gs2, g3⟩ := grouped_exists r.mboxWorld va' _ parts (Nat.le_refl _)
          obtain rfl := grouped_tools t1 g2 g3
          exact ⟨parts, by rw [← t3]; exact g1, g3⟩
        rcases ha with rfl | ⟨rest, rfl, hf⟩
        · obtain rfl := boxMessages_unique h2 h4'
          exact ⟨gs.length, Nat.le_refl _, rfl, fun _ _ => rfl, by simp, Or.inl rfl⟩
        · rcases h.lines r hr with ⟨h5, _⟩ | h5 | ⟨va2, v, h5, h6, _⟩
          · rw [h5] at h1; cases h1
          · rw [h5] at h1; cases h1
          · rw [h5] at h1; cases h1
            exact ⟨gs.length, edited_append (h.byLine r hr) h6 rfl hf h2 h4' hc⟩

/-! An example: an mbox with one message, to which another one is added. -/

def gbJan : Text := bs "From x\njan\n"
def gbBoth : Text := bs "From x\njan\nFrom x\nfeb\n"

def gbBoxes (va : Text) : MboxWorld where
  contents p := if p = bs "/m" then .data va else .failed
  parse t := (if 0 ∈ t then none else some (smMail t), false)
  md5 t := (t ++ List.replicate 16 0).take 16
  isFrom t := t.head? == some 0x78

def gbRun (va : Text) : Run :=
  { smRun [] false with extant := [⟨bs "/m", 5, va.length⟩], mboxWorld := gbBoxes va }

theorem gbRun_sane {va : Text} (h : va.length < 2 ^ 31) : Sane (gbRun va) := by
  have hs : Sane (smRun [] false) := smRun_sane (by intro p hp; cases hp)
  exact { hs with
    extant := by
      intro e he
      simp only [gbRun, List.mem_singleton] at he
      subst he
      change 0 ∉ bs "/m"
      decide
    parse := by
      intro t m h
      simp only [gbRun, gbBoxes] at h
      split at h
      · cases h
      · rename_i h0
        cases h
        refine ⟨?_, ?_, ?_, ?_⟩
        · intro s hs; cases hs
        · intro s hs; cases hs
        · intro s hs; cases hs
        · refine ⟨trivial, ?_, trivial⟩; intro s hs; cases hs
    md5 := by intro t; simp [gbRun, gbBoxes]
    contents := by
      intro p va' h'
      simp only [gbRun, gbBoxes] at h'
      split at h'
      · cases h'; exact h
      · cases h' }

theorem gbText (va : Text) : boxText (gbRun va) (bs "/m") = va := by
  simp [boxText, gbRun, gbBoxes]

def gbMsgs1 : List BoxMsg := [((7, 4), some (smMail (bs "jan\n")))]
def gbMsgs2 : List BoxMsg := [((7, 4), some (smMail (bs "jan\n"))), ((18, 4), some (smMail (bs "feb\n")))]

/-- The messages, from what the scanner finds. -/
theorem gbHolds (va : Text) (hm : isMmdf va = false) (parts : List (Nat × Nat))
    (e : buildNewMessageList (gbBoxes va) (newMbox ⟨[], 0, 0⟩) va = .ok parts) :
    BoxHolds (gbRun va) (bs "/m") (parts.map fun c => (c, if 0 ∈ between va c.1 (c.1 + c.2) then none else some (smMail (between va c.1 (c.1 + c.2))))) := by
  refine Or.inr ⟨va, by simp [gbRun, gbBoxes], parts, ?_, ?_⟩
  · obtain ⟨parts', e', h1, _⟩ := C29_split (gbBoxes va) (newMbox ⟨[], 0, 0⟩) va 0 ((C29_start _ va).1 rfl)
    rw [e] at e'
    cases e'
    exact h1 hm
  · clear e
    induction parts with
    | nil => exact .nil
    | cons c l ih =>
      obtain ⟨s, n⟩ := c
      have := Grouped.joined (w := (gbRun va).mboxWorld) (va := va) (s := s) (l := n) (rest := l) (j := 0) (c := (s, n)) rfl (by omega)
        (by intro i c' h; omega) rfl ih
      simpa [gbRun, gbBoxes] using this

theorem gbHolds1 : BoxHolds (gbRun gbJan) (bs "/m") gbMsgs1 := gbHolds gbJan (by decide) [(7, 4)] (by decide)
theorem gbHolds2 : BoxHolds (gbRun gbBoth) (bs "/m") gbMsgs2 := gbHolds gbBoth (by decide) [(7, 4), (18, 4)] (by decide)

theorem gbGrows : Grows ([gbRun gbJan] ++ [gbRun gbBoth]) (bs "/m") := by
  have hmem : ∀ r ∈ [gbRun gbJan] ++ [gbRun gbBoth], (r = gbRun gbJan ∨ r = gbRun gbBoth) := by
    intro r hr; simpa using hr
  have hone : ∀ r ∈ [gbRun gbJan] ++ [gbRun gbBoth], ∃ va, r = gbRun va := by
    intro r hr
    rcases hmem r hr with rfl | rfl
    · exact ⟨_, rfl⟩
    · exact ⟨_, rfl⟩
  refine ⟨?_, ?_, ?_, ?_, ?_, ?_⟩
  · intro r hr r' hr'
    obtain ⟨va, rfl⟩ := hone r hr
    obtain ⟨va', rfl⟩ := hone r' hr'
    exact ⟨rfl, rfl, rfl⟩
  · intro r hr
    obtain ⟨va, rfl⟩ := hone r hr
    intro a b b' _
    cases a <;> rfl
  · intro r hr x hx hp
    obtain ⟨va, rfl⟩ := hone r hr
    rw [gbText]
    simp only [gbRun, List.mem_singleton] at hx
    subst hx
    rfl
  · intro r hr
    rcases hmem r hr with rfl | rfl
    · exact Or.inr <| Or.inr ⟨gbJan, gbJan.dropLast, by simp [gbRun, gbBoxes], by decide, by unfold Mmdf; decide⟩
    · exact Or.inr <| Or.inr ⟨gbBoth, gbBoth.dropLast, by simp [gbRun, gbBoxes], by decide, by unfold Mmdf; decide⟩
  · intro r hr gs _ g _
    obtain ⟨va, rfl⟩ := hone r hr
    rfl
  · refine List.pairwise_pair.2 (Or.inr ⟨bs "x\nfeb\n", ?_, by decide⟩)
    rw [gbText, gbText]
    decide

/-- What searches find after runs. -/
def gbSearches (queries : List (List Text)) (rs : List Run) : Res (List (Res (List Nat))) := do
  let y ← indexRuns exHash rs none
  searchesIn queries y

def gbQueries : List (List Text) := [[bs "b:jan"], [bs "b:feb"], [bs "b:mar"]]

/-- Both runs succeed, and both messages are found. -/
theorem gbRuns : gbSearches gbQueries ([gbRun gbJan] ++ [gbRun gbBoth]) = .ok [.ok [0], .ok [1], .ok []] := by decide +kernel

/-- The theorems apply to these runs. -/
example : ∃ d raw view info, indexRuns exHash ([gbRun gbJan] ++ [gbRun gbBoth]) none = .ok (some d) ∧ openDb d = .ok raw ∧
    viewDb raw = .ok view ∧ Shows view info ∧ BoxIndexed view info (bs "/m") gbMsgs2 := by
  have hs : ∀ r ∈ [gbRun gbJan] ++ [gbRun gbBoth], Sane r := by
    intro r hr
    simp only [List.cons_append, List.nil_append, List.mem_cons, List.not_mem_nil, or_false] at hr
    rcases hr with rfl | rfl
    · exact gbRun_sane (by decide)
    · exact gbRun_sane (by decide)
  have h := gbRuns
  unfold gbSearches at h
  cases e : indexRuns exHash ([gbRun gbJan] ++ [gbRun gbBoth]) none with
  | error f => rw [e] at h; cases h
  | ok o =>
    cases o with
    | none => rw [e] at h; cases h
    | some d =>
      obtain ⟨raw, view, info, h1, h2, h3, _, h5⟩ := C61_mbox_partial hs e (x := ⟨bs "/m", 5, gbBoth.length⟩) List.mem_cons_self
        (C61_grows hs gbGrows) gbHolds2
      exact ⟨d, raw, view, info, rfl, h1, h2, h3, h5⟩

/-- The same run some seconds later. -/
def gbLater (n : Int) (r : Run) : Run := { r with extant := r.extant.map fun x => { x with mtime := x.mtime + n } }

/-- **C61 is false when a message is changed in place.** The modification time has changed, but the last message has not: the changed first
message is still found by the word that is no longer in it, and not by the one that is. -/
theorem C61_changed_violation :
    gbSearches gbQueries [gbRun gbBoth, gbLater 1 (gbRun (bs "From x\nmar\nFrom x\nfeb\n"))] = .ok [.ok [0], .ok [1], .ok []] := by
  decide +kernel

/-- **C61 is false when messages are removed at the end.** The next run still succeeds, but what it stores has the number of messages of
before; the run after it uses their places, which were never set. -/
theorem C61_shortened_violation :
    gbSearches gbQueries [gbRun (gbBoth ++ bs "From x\nmar\n"), gbRun gbBoth] = .ok [.ok [0], .ok [1], .ok []] ∧
    gbSearches gbQueries [gbRun (gbBoth ++ bs "From x\nmar\n"), gbRun gbBoth, gbLater 1 (gbRun (gbBoth ++ bs "From x\nmar\n"))] =
      .error .uninitialised :=
  ⟨by decide +kernel, by decide +kernel⟩

end Mairix
