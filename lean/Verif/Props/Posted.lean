import Verif.Proofs.Posted

/-!
# C77: mail delivered to an mbox is found
-/

namespace Mairix
open Spec

theorem pairs_imp {α β : Type} {R S : α → β → Prop} (h : ∀ a b, R a b → S a b) {l : List α} {l' : List β} (hp : Pairs R l l') : Pairs S l l' := by
  induction hp with
  | nil => exact .nil
  | cons h1 _ ih => exact .cons (h _ _ h1) ih

theorem pairs_both {α β γ : Type} {R : α → β → Prop} {S : α → γ → Prop} {l : List α} {a : List β} (h : Pairs R l a) : ∀ {b : List γ}, Pairs S l b →
    Pairs (fun r m => ∃ y ∈ l, R y r ∧ S y m) a b := by
  induction h with
  | nil => intro b h; cases h; exact .nil
  | cons h1 _ ih =>
    intro b h
    cases h with
    | cons h2 h3 =>
      exact .cons ⟨_, by simp, h1, h2⟩ (pairs_imp (fun _ _ ⟨y, h4, h5⟩ => ⟨y, by simp [h4], h5⟩) (ih h3))

theorem pairs_pairwise {α β : Type} {T : α → β → Prop} {Q : β → β → Prop} {P : α → α → Prop} (hP : ∀ r r' m m', T r m → T r' m' → Q m m' → P r r')
    {a : List α} {b : List β} (h : Pairs T a b) : b.Pairwise Q → a.Pairwise P := by
  induction h with
  | nil => intro _; exact .nil
  | cons h1 h2 ih =>
    intro hb
    rw [List.pairwise_cons] at hb
    refine List.pairwise_cons.2 ⟨?_, ih hb.2⟩
    intro r' hr'
    obtain ⟨hb1, -⟩ := hb
    clear ih
    induction h2 with
    | nil => cases hr'
    | cons h3 _ ih =>
      rcases List.mem_cons.1 hr' with rfl | hr'
      · exact hP _ _ _ _ h1 h3 (hb1 _ (by simp))
      · exact ih hr' (fun m hm => hb1 m (by simp [hm]))

theorem pairs_mem' {α β : Type} {R : α → β → Prop} {l : List α} {l' : List β} (h : Pairs R l l') {a : α} (ha : a ∈ l) : ∃ b ∈ l', R a b := by
  induction h with
  | nil => simp at ha
  | cons h1 _ ih =>
    rcases List.mem_cons.1 ha with rfl | ha
    · exact ⟨_, List.mem_cons_self .., h1⟩
    · obtain ⟨b, h2, h3⟩ := ih ha
      exact ⟨b, List.mem_cons_of_mem _ h2, h3⟩

/-- The mboxen considered in a run. -/
theorem indexing_extant {mktime : Nat → Nat → Nat → Int} {md5 : Text → List UInt8} {x : Indexing} {r : Run} {s : Setting} {items : FolderType → List FolderItem} {N : Nat}
    (hm : Spec.Means x.config x.disc.fs s items) (hN : PathMax x.disc.fs N) (hf : N < x.depth) (e : x.run mktime md5 = .ok r) :
    r.mboxWorld = x.disc.mboxWorld mktime md5 ∧
      ∀ e, e ∈ r.extant ↔ Configured s items .mbox e.path ∧ ∃ sb, x.disc.fs.lstat e.path = some sb ∧ (sb.link = true → x.config.followLinks = true) ∧ e.mtime = sb.mtime ∧ e.size = sb.size := by
  obtain ⟨l, e1, h1⟩ := C51_messages hm hN hf
  obtain ⟨l2, e2, h2⟩ := C51_mboxen hm hN hf
  simp only [Indexing.run, e1, e2, bind, Except.bind, Except.ok.injEq] at e
  subst e
  exact ⟨rfl, h2⟩

/-- What a run sees of the mbox. -/
structure SeenIn (mktime : Nat → Nat → Nat → Int) (md5 : Text → List UInt8) (after : Text → Text) (p : Text) (r : Run) (ms : List Posted) : Prop where
  parse : r.mboxWorld.parse = fun t => outcome (parseMessage mktime t (after t))
  md5 : r.mboxWorld.md5 = md5
  isFrom : r.mboxWorld.isFrom = fromCheck
  text : boxText r p = boxBytes ms
  size : ∀ x ∈ r.extant, x.path = p → x.size = (boxBytes ms).length
  cases : (ms = [] ∧ r.mboxWorld.contents p = .failed ∧ ∀ x ∈ r.extant, x.path ≠ p) ∨
    (r.mboxWorld.contents p = (if ms = [] then .empty else .data (boxBytes ms)) ∧
      BoxHolds r p ((placesFrom 0 ms).map fun x => (x.1, some x.2.meaning)))

theorem seen_in {mktime : Nat → Nat → Nat → Int} {md5 : Text → List UInt8} {x : Indexing} {r : Run} {s : Setting} {items : FolderType → List FolderItem} {N : Nat} {p : Text} {ms : List Posted}
    (hd : DiscOk x.disc) (hm : Spec.Means x.config x.disc.fs s items) (hN : PathMax x.disc.fs N) (hf : N < x.depth) (e : x.run mktime md5 = .ok r)
    (h : MboxNow x.disc p ms) (hms : ∀ m ∈ ms, m.Ok mktime) : SeenIn mktime md5 x.disc.after p r ms := by
  obtain ⟨h1, h2⟩ := indexing_extant hm hN hf e
  have hcon : r.mboxWorld.contents p = x.disc.map p := by rw [h1]; rfl
  rcases h with ⟨rfl, hl, hst⟩ | h
  · have hfail : r.mboxWorld.contents p = .failed := by rw [hcon]; simp only [Disc.map, hst]
    have hno : ∀ y ∈ r.extant, y.path ≠ p := by
      rintro y hy rfl
      obtain ⟨_, sb, h3, _⟩ := (h2 y).1 hy
      rw [hl] at h3
      cases h3
    exact ⟨by rw [h1]; rfl, by rw [h1]; rfl, by rw [h1]; rfl, by simp [boxText, hfail, boxBytes], fun y hy hp => absurd hp (hno y hy), .inl ⟨rfl, hfail, hno⟩⟩
  · obtain ⟨h3, h4⟩ := boxNow_holds (md5 := md5) hd h hms
    rw [← hcon] at h3
    rw [← h1] at h4
    refine ⟨by rw [h1]; rfl, by rw [h1]; rfl, by rw [h1]; rfl, ?_, ?_, .inr ⟨h3, ?_⟩⟩
    · unfold boxText
      rw [h3]
      cases ms with
      | nil => rfl
      | cons m ms => rfl
    · rintro y hy rfl
      obtain ⟨_, sb, h5, _, _, h6⟩ := (h2 y).1 hy
      obtain ⟨sb', h7, _, h8⟩ := h.plain
      rw [h7] at h5
      cases h5
      exact h6.trans h8
    · cases ms with
      | nil => exact .inl ⟨h3, rfl⟩
      | cons m ms => exact .inr ⟨_, h3, h4⟩

theorem posted_grows {mktime : Nat → Nat → Nat → Int} {md5 : Text → List UInt8} {after : Text → Text} {p : Text} {rs : List Run} {boxes : List (List Posted)}
    (h : Pairs (SeenIn mktime md5 after p) rs boxes) (hgrow : boxes.Pairwise (· <+: ·)) (hms : ∀ ms ∈ boxes, ∀ m ∈ ms, m.Ok mktime) : Grows rs p := by
  refine ⟨?_, ?_, ?_, ?_, ?_, ?_⟩
  · intro r hr r' hr'
    obtain ⟨_, _, h1⟩ := pairs_mem' h hr
    obtain ⟨_, _, h2⟩ := pairs_mem' h hr'
    exact ⟨by rw [h1.parse, h2.parse], by rw [h1.md5, h2.md5], by rw [h1.isFrom, h2.isFrom]⟩
  · intro r hr
    obtain ⟨_, _, h1⟩ := pairs_mem' h hr
    rw [h1.isFrom]
    exact fromCheck_byLine
  · intro r hr x hx hp
    obtain ⟨_, _, h1⟩ := pairs_mem' h hr
    rw [h1.text]
    exact h1.size x hx hp
  · intro r hr
    obtain ⟨ms, hmem, h1⟩ := pairs_mem' h hr
    rcases h1.cases with ⟨_, h2, h3⟩ | ⟨h2, _⟩
    · exact .inl ⟨h2, h3⟩
    · by_cases he : ms = []
      · rw [if_pos he] at h2
        exact .inr (.inl h2)
      · rw [if_neg he] at h2
        have hend : ∃ v, boxBytes ms = v ++ [0x0a] := by
          rw [← List.dropLast_concat_getLast he]
          obtain ⟨t, ht⟩ := (hms ms hmem _ (List.getLast_mem he)).ends
          refine ⟨boxBytes ms.dropLast ++ (bs "From " ++ ((ms.getLast he).line ++ 0x0a :: t)), ?_⟩
          simp [boxBytes, Posted.bytes, ht]
        obtain ⟨v, hv⟩ := hend
        exact .inr (.inr ⟨_, v, h2, hv, boxBytes_mmdf ms⟩)
  · intro r hr gs hgs g hg
    obtain ⟨ms, hmem, h1⟩ := pairs_mem' h hr
    rcases h1.cases with ⟨_, h2, _⟩ | ⟨_, h2⟩
    · rcases hgs with ⟨h3, _⟩ | ⟨_, h3, _⟩ <;> rw [h2] at h3 <;> cases h3
    · rw [boxHolds_unique hgs h2, List.mem_map] at hg
      obtain ⟨x, hx, rfl⟩ := hg
      obtain ⟨h3, h4⟩ := placesFrom_text ms [] x hx
      simp only [List.nil_append] at h3
      simp only [BoxMsg.text, h1.text, h3, h1.parse, C47_parse_partial (hms ms hmem _ h4).means]
      rfl
  · refine pairs_pairwise (Q := fun a b => a <+: b ∧ ∀ m ∈ b, m.Ok mktime) ?_ h ?_
    · rintro r r' ms ms' h1 h2 ⟨⟨more, rfl⟩, h3⟩
      rw [h1.text, h2.text]
      cases more with
      | nil => left; simp
      | cons m more =>
        right
        refine ⟨m.line ++ (0x0a :: m.text ++ boxBytes more), ?_, ?_⟩
        · simp [boxBytes, Posted.bytes]
        · rw [h1.isFrom]
          exact From.fromCheck_append _ (h3 m (by simp)).isFrom
    · exact (List.Pairwise.and_mem.1 hgrow).imp fun ⟨_, h1, h2⟩ => ⟨h2, hms _ h1⟩

theorem holds_posted {m : Posted} {p : Text} {x x' : Info} (h : TellsPosted m p x) (h' : TellsPosted m p x') (c : Cond) : c.Holds x ↔ c.Holds x' := by
  cases c with
  | words fields e =>
    have hin : ∀ (t : Term) f, t.HoldsIn x f ↔ t.HoldsIn x' f := by
      intro t f
      have hw : ∀ f v, v ∈ x.words f ↔ v ∈ x'.words f := fun f v => by rw [h.words, h'.words]
      cases f <;> simp only [Term.HoldsIn, h.path, h'.path, hw]
    simp only [Cond.Holds, Expr.Holds, Term.Holds, hin]
  | msgid id => simp only [Cond.Holds, h.ids, h'.ids]
  | dates a b => simp only [Cond.Holds, h.date, h'.date]
  | sizes a b => simp only [Cond.Holds, h.size, h'.size]
  | flags l =>
    have hf : ∀ f, x.has f = x'.has f := by
      intro f
      cases f
      · rw [h.seen, h'.seen]
      · rw [h.replied, h'.replied]
      · rw [h.flagged, h'.flagged]
    simp only [Cond.Holds, hf]

theorem pairs_mem_imp {α β : Type} {R S : α → β → Prop} {l : List α} {l' : List β} (hp : Pairs R l l') (h : ∀ a ∈ l, ∀ b ∈ l', R a b → S a b) : Pairs S l l' := by
  induction hp with
  | nil => exact .nil
  | cons h1 _ ih => exact .cons (h _ (by simp) _ (by simp) h1) (ih fun a ha b hb => h a (by simp [ha]) b (by simp [hb]))

/-- The runs, and what the last one sees of the mbox. -/
theorem posted_runs {hashfn : Nat → Text → Nat} {mktime : Nat → Nat → Nat → Int} {md5 : Text → List UInt8} (hmd5 : ∀ t, (md5 t).length = 16) {xs : List Indexing} {x : Indexing} {file : Text}
    (hl : ∀ y ∈ xs ++ [x], LibraryOk y) (hd : ∀ y ∈ xs ++ [x], DiscOk y.disc)
    (hc : ∀ y ∈ xs ++ [x], ∃ s items, ∃ N < y.depth, Spec.Means y.config y.disc.fs s items ∧ PathMax y.disc.fs N)
    {s : Setting} {items : FolderType → List FolderItem} (hm : Spec.Means x.config x.disc.fs s items)
    (hafter : ∀ y ∈ xs, y.disc.after = x.disc.after) {p : Text} {boxes : List (List Posted)} {ms : List Posted}
    (hb : Pairs (fun y ms => MboxNow y.disc p ms) (xs ++ [x]) (boxes ++ [ms])) (hx : MboxAt x.disc p ms)
    (hgrow : (boxes ++ [ms]).Pairwise (· <+: ·)) (hms : ∀ m ∈ ms, m.Ok mktime) (hp : Configured s items .mbox p)
    (e : indexMails hashfn mktime md5 (xs ++ [x]) none = .ok (some file)) :
    ∃ (rs : List Run) (r : Run) (y : Extant), (∀ r' ∈ rs ++ [r], Sane r') ∧ indexRuns hashfn (rs ++ [r]) none = .ok (some file) ∧ y ∈ r.extant ∧ y.path = p ∧ Steady (rs ++ [r]) p ∧
      BoxHolds r p ((placesFrom 0 ms).map fun x => (x.1, some x.2.meaning)) ∧ r.mboxWorld = x.disc.mboxWorld mktime md5 ∧ boxText r p = boxBytes ms ∧
      ∀ e ∈ r.listed, e.kind = .file := by
  have hmsall : ∀ l ∈ boxes ++ [ms], ∀ m ∈ l, m.Ok mktime := by
    intro l hl m hml
    rcases List.mem_append.1 hl with h1 | h1
    · have := (List.pairwise_append.1 hgrow).2.2 l h1 ms (by simp)
      exact hms m (this.subset hml)
    · rw [List.mem_singleton.1 h1] at hml
      exact hms m hml
  obtain ⟨rs', h1, h2⟩ := indexMails_runs e
  have hafter' : ∀ y ∈ xs ++ [x], y.disc.after = x.disc.after := by
    intro y hy
    rcases List.mem_append.1 hy with h3 | h3
    · exact hafter y h3
    · rw [List.mem_singleton.1 h3]
  have hseen : Pairs (SeenIn mktime md5 x.disc.after p) rs' (boxes ++ [ms]) := by
    refine pairs_mem_imp (pairs_both h1 hb) ?_
    rintro r _ l hl' ⟨y, hy, h3, h4⟩
    obtain ⟨s', items', N, hN, g1, g2⟩ := hc y hy
    rw [← hafter' y hy]
    exact seen_in (hd y hy) g1 g2 hN h3 h4 (hmsall l hl')
  have hgr := posted_grows hseen hgrow hmsall
  obtain ⟨rs, r, rfl, h3, h4⟩ := pairs_snoc h1
  have hsane : ∀ r' ∈ rs ++ [r], Sane r' := by
    intro r' hr'
    obtain ⟨y, hy, ey⟩ := pairs_mem h1 hr'
    obtain ⟨s', items', N, hN, g1, g2⟩ := hc y hy
    exact (indexing_sane hmd5 (hl y hy) (hd y hy) g1 g2 hN ey).1
  obtain ⟨_, _, N, hN, _, g2⟩ := hc x (by simp)
  obtain ⟨w1, w2⟩ := indexing_extant hm g2 hN h4
  obtain ⟨sb, k1, k2, k3⟩ := hx.plain
  have hex : (⟨p, sb.mtime, sb.size⟩ : Extant) ∈ r.extant := (w2 _).2 ⟨hp, sb, k1, by simp [k2], rfl, rfl⟩
  have hsr := seen_in (hd x (by simp)) hm g2 hN h4 (.inr hx) hms
  have hholds : BoxHolds r p ((placesFrom 0 ms).map fun x => (x.1, some x.2.meaning)) := by
    rcases hsr.cases with ⟨_, _, h5⟩ | ⟨_, h5⟩
    · exact absurd rfl (h5 _ hex)
    · exact h5
  exact ⟨rs, r, ⟨p, sb.mtime, sb.size⟩, hsane, h2, hex, rfl, C61_grows hsane hgr, hholds, w1, hsr.text,
    fun e he => (((indexing_sane hmd5 (hl x (by simp)) (hd x (by simp)) hm g2 hN h4).2.2.2.2 e).1 he).1⟩

/-- What a search sees of the mbox. -/
theorem posted_view {hashfn : Nat → Text → Nat} {mktime : Nat → Nat → Nat → Int} {md5 : Text → List UInt8} (hmd5 : ∀ t, (md5 t).length = 16) {xs : List Indexing} {x : Indexing} {file : Text}
    (hl : ∀ y ∈ xs ++ [x], LibraryOk y) (hd : ∀ y ∈ xs ++ [x], DiscOk y.disc)
    (hc : ∀ y ∈ xs ++ [x], ∃ s items, ∃ N < y.depth, Spec.Means y.config y.disc.fs s items ∧ PathMax y.disc.fs N)
    {s : Setting} {items : FolderType → List FolderItem} (hm : Spec.Means x.config x.disc.fs s items)
    (hafter : ∀ y ∈ xs, y.disc.after = x.disc.after) {p : Text} {boxes : List (List Posted)} {ms : List Posted}
    (hb : Pairs (fun y ms => MboxNow y.disc p ms) (xs ++ [x]) (boxes ++ [ms])) (hx : MboxAt x.disc p ms)
    (hgrow : (boxes ++ [ms]).Pairwise (· <+: ·)) (hms : ∀ m ∈ ms, m.Ok mktime) (hp : Configured s items .mbox p)
    (e : indexMails hashfn mktime md5 (xs ++ [x]) none = .ok (some file)) :
    ∃ raw view info, openDb file = .ok raw ∧ viewDb raw = .ok view ∧ Shows view info ∧ PathsKnown view info ∧
      BoxIndexed view info p ((placesFrom 0 ms).map fun x => (x.1, some x.2.meaning)) := by
  obtain ⟨rs, r, y, hsane, h2, hex, rfl, hst, hholds, -, -, hfile⟩ := posted_runs hmd5 hl hd hc hm hafter hb hx hgrow hms hp e
  obtain ⟨raw, view, info, a1, a2, a3, a4, a5⟩ := C61_mbox_partial hsane h2 hex hst hholds
  exact ⟨raw, view, info, a1, a2, a3, agrees_paths a4 a3 (fun i e hi => hfile e (a4.listed i e hi)), a5⟩

/-- **C77 (partial).** After any number of whole indexing runs that completed, starting without a database, whatever was configured in the earlier ones: if mail was only delivered to the mbox, a query finds, of the messages in
it, exactly those delivered so far that satisfy the query. (Missing: mboxen that are symbolic links, see `C77_link_violation`, and mboxen in MMDF format; mboxen that are edited: see C61.) -/
theorem C77_found_partial {hashfn : Nat → Text → Nat} {mktime : Nat → Nat → Nat → Int} {md5 : Text → List UInt8} (hmd5 : ∀ t, (md5 t).length = 16) {xs : List Indexing} {x : Indexing} {file : Text}
    (hl : ∀ y ∈ xs ++ [x], LibraryOk y) (hd : ∀ y ∈ xs ++ [x], DiscOk y.disc)
    (hc : ∀ y ∈ xs ++ [x], ∃ s items, ∃ N < y.depth, Spec.Means y.config y.disc.fs s items ∧ PathMax y.disc.fs N)
    {s : Setting} {items : FolderType → List FolderItem} (hm : Spec.Means x.config x.disc.fs s items)
    (hafter : ∀ y ∈ xs, y.disc.after = x.disc.after) {p : Text} {boxes : List (List Posted)} {ms : List Posted}
    (hb : Pairs (fun y ms => MboxNow y.disc p ms) (xs ++ [x]) (boxes ++ [ms])) (hx : MboxAt x.disc p ms)
    (hgrow : (boxes ++ [ms]).Pairwise (· <+: ·)) (hms : ∀ m ∈ ms, m.Ok mktime) (hp : Configured s items .mbox p)
    (e : indexMails hashfn mktime md5 (xs ++ [x]) none = .ok (some file)) :
    ∃ raw view, openDb file = .ok raw ∧ viewDb raw = .ok view ∧
      ∀ {scan dateRange}, ScansDates scan dateRange → ∀ {cs : List Cond} {args : List Text}, QueryWrittenAs dateRange cs args → (∀ c ∈ cs, Cond.Fits c) → ∀ sort : List Nat → List Nat,
        ∃ found, doSearch scan sort view args false false = .ok found ∧
          (∀ i ∈ found, ∀ pl, IsInBox view i p pl → ∃ k m, ms[k]? = some m ∧ pl = placeOf ms k m) ∧
          ∀ k m, ms[k]? = some m → ∀ y, TellsPosted m p y →
            ((∃ i ∈ found, IsInBox view i p (placeOf ms k m)) ↔ ∀ c ∈ cs, c.Holds y) := by
  obtain ⟨raw, view, info, a1, a2, a3, hpk, a4⟩ := posted_view hmd5 hl hd hc hm hafter hb hx hgrow hms hp e
  refine ⟨raw, view, a1, a2, ?_⟩
  intro scan dateRange hsc cs args hq hfit sort
  have hcs : ∀ c ∈ cs, Cond.Searchable view info c := fits_searchable hpk hfit
  obtain ⟨found, f1, f2⟩ := C18_query_partial a3 hsc hq hcs sort
  -- what is known of a message in the mbox
  have hknown : ∀ i pl, IsInBox view i p pl → ∃ k m z, ms[k]? = some m ∧ pl = placeOf ms k m ∧ info[i]? = some z ∧ TellsPosted m p z := by
    rintro i pl ⟨m, q1, q2, q3, q4⟩
    obtain ⟨g, g1, g2, z, g3, g4, g5, g6⟩ := a4.each i m q1 q2 q3
    obtain ⟨y, hy, rfl⟩ := List.mem_map.1 g1
    obtain ⟨k, hk, hk'⟩ := placesFrom_mem hy
    simp only [Nat.zero_add] at hk'
    refine ⟨k, y.2, z, hk, by rw [← q4, ← g2]; exact hk', g3, ?_⟩
    obtain ⟨d1, d2, d3, d4⟩ := g6.hdrs y.2.meaning rfl
    exact ⟨fun f v => by rw [g6.words]; simp, fun v => by rw [g6.ids]; simp, g4, d1, by rw [g5]; show y.1.2 = _; rw [hk']; rfl, d2, d3, d4⟩
  have hplace : ∀ k m k' m', ms[k]? = some m → ms[k']? = some m' → placeOf ms k m = placeOf ms k' m' → k = k' := by
    have hlt : ∀ k k', k < k' → ∀ m m', ms[k]? = some m → ms[k']? = some m' → (placeOf ms k m).1 < (placeOf ms k' m').1 := by
      intro k k' hk m m' h1 h2
      have hsplit : ms.take k' = ms.take k ++ m :: (ms.take k').drop (k + 1) := by
        have hlt1 : k < (ms.take k').length := by rw [List.length_take]; have := (List.getElem?_eq_some_iff.1 h1).1; omega
        have h3 : (ms.take k')[k]? = some m := by rw [List.getElem?_take, if_pos hk]; exact h1
        have h4 : (ms.take k').take k = ms.take k := by rw [List.take_take]; congr 1; omega
        rw [← h4]
        conv => lhs; rw [← List.take_append_drop k (ms.take k')]
        rw [List.drop_eq_getElem_cons hlt1]
        congr 2
        have := List.getElem?_eq_getElem hlt1
        rw [h3] at this
        exact (Option.some.inj this).symm
      simp only [placeOf]
      rw [hsplit]
      have : boxBytes (ms.take k ++ m :: (ms.take k').drop (k + 1)) = boxBytes (ms.take k) ++ (m.bytes ++ boxBytes ((ms.take k').drop (k + 1))) := by
        simp [boxBytes]
      rw [this, posted_from]
      simp only [List.length_append, List.length_singleton]
      omega
    intro k m k' m' h1 h2 h3
    rcases Nat.lt_trichotomy k k' with h | h | h
    · have := hlt k k' h m m' h1 h2; rw [h3] at this; omega
    · exact h
    · have := hlt k' k h m' m h2 h1; rw [h3] at this; omega
  refine ⟨found, f1, ?_, ?_⟩
  · intro i _ pl hpl
    obtain ⟨k, m, _, h1, h2, _⟩ := hknown i pl hpl
    exact ⟨k, m, h1, h2⟩
  · intro k m hk y hy
    constructor
    · rintro ⟨i, hi, hat⟩ c hc
      obtain ⟨z, g1, g2, g3⟩ := (f2 i).1 hi
      obtain ⟨k', m', z', b1, b2, b3, b4⟩ := hknown i _ hat
      obtain rfl := hplace k m k' m' hk b1 b2
      rw [hk] at b1
      cases b1
      rw [g1] at b3
      cases b3
      exact (holds_posted b4 hy c).1 (g3 c hc)
    · intro h
      have hin : ∃ i, IsInBox view i p (placeOf ms k m) := by
        refine (boxIndexed_isInBox a4 _).2 ⟨_, List.mem_map.2 ⟨_, List.mem_of_getElem? (placesFrom_get hk 0), rfl⟩, by simp⟩
      obtain ⟨i, hat⟩ := hin
      obtain ⟨k', m', z, b1, b2, b3, b4⟩ := hknown i _ hat
      obtain rfl := hplace k m k' m' hk b1 b2
      rw [hk] at b1
      cases b1
      exact ⟨i, (f2 i).2 ⟨z, b3, by rw [b4.path]; simp, fun c hc => (holds_posted b4 hy c).2 (h c hc)⟩, hat⟩

end Mairix
