import Verif.Proofs.ImapList

/-!
# Listing, fetching and storing on an IMAP server
-/

namespace Mairix
open Spec

variable {σ : Type} {exec : Exec σ} {view : σ → Server}

theorem answer_lines {st : Text} {body r : List ImapLine} (h : Answer st body r) : ∀ l ∈ body, NoNuls l.items := by
  obtain ⟨_, _, _, _, _, h⟩ := h
  exact fun l hl => (h l hl).1

theorem coherent_view {s : Sess σ} (hs : Coherent view s) {c : σ} (h : view c = view s.conn) : Coherent view { s with conn := c } := by
  intro x hx
  obtain ⟨h1, h2⟩ := hs x hx
  simp only [h]
  exact ⟨h1, h2⟩

/-! ## Listing -/

theorem pseudopath_digits (v u : Nat) (f : Text) : pseudopath (digits v) (digits u) f = mailName v u f := by
  simp only [pseudopath, mailName, cstr_plain (digits_noNul u)]

theorem scanFolder_some (hc : Conforms exec view) {s : Sess σ} {f : Text} (hx : ∀ x, s.sel = some x → x.name ≠ f)
    {b : Box} (hb : (view s.conn).boxes f = some b) (hpl : b.Plain) :
    ∃ ps s', scanFolder exec s f = .ok (ps, s') ∧ ps.Perm ((view s.conn).names f) ∧ (view s'.conn).boxes = (view s.conn).boxes ∧
      Coherent view s' ∧ ∀ x, s'.sel = some x → x.name = f := by
  obtain ⟨n, s1, e1, hb1, hc1, ⟨w', hsel, -⟩, hn⟩ := select_some hc (w := false) (fun x h1 h2 => absurd h2 (hx x h1)) hb
  obtain ⟨rfl, x, hx1, hx2⟩ := hn hx
  have hnm : ∀ y, s1.sel = some y → y.name = f := fun y hy => by rw [hx1] at hy; cases hy; exact hx2
  simp only [scanFolder, e1, bind, Except.bind]
  split
  · next hlt =>
    refine ⟨[], s1, rfl, ?_, hb1, hc1, hnm⟩
    have : b.msgs = [] := List.length_eq_zero_iff.mp (by omega)
    simp only [Server.names, hb, this]
    exact .refl _
  · obtain ⟨ls, c', e2, ⟨body, ms, ha, hp, hr⟩, hv⟩ := hc.list s1.conn f w' b hsel (by rw [hb1]; exact hb) hpl
    obtain ⟨ps, e3, e4⟩ := listLines (v := digits b.validity) (f := f) hr (answer_lines ha)
    refine ⟨ps.filterMap id, { s1 with conn := c' }, ?_, ?_, ?_, coherent_view hc1 hv, hnm⟩
    · simp only [e2, answer_status ha, ne_eq, not_true_eq_false, if_false, answer_body ha, e3]
    · rw [e4]
      simp only [Server.names, hb, pseudopath_digits]
      exact (hp.filter _).map _
    · simp only [hv, hb1]

theorem scanFolder_none (hc : Conforms exec view) {s : Sess σ} {f : Text} (hx : ∀ x, s.sel = some x → x.name ≠ f)
    (hb : (view s.conn).boxes f = none) :
    ∃ s', scanFolder exec s f = .ok ([], s') ∧ (view s'.conn).boxes = (view s.conn).boxes ∧ s'.sel = s.sel := by
  obtain ⟨s', e, h1, h2⟩ := select_none hc (w := false) hx hb
  exact ⟨s', by simp only [scanFolder, e, bind, Except.bind], h1, h2⟩

theorem names_congr {a b : Server} (h : a.boxes = b.boxes) (f : Text) : a.names f = b.names f := by simp only [Server.names, h]

theorem scanFolders_all (hc : Conforms exec view) {skip : Text → Bool} : ∀ (fs : List Text) (s : Sess σ), (fs.filter (!skip ·)).Nodup →
    (∀ f b, (view s.conn).boxes f = some b → b.Plain) →
    (∀ x, s.sel = some x → x.name ∉ fs.filter (!skip ·)) →
    ∃ ps s', scanFolders exec skip s fs = .ok (ps, s') ∧ ps.Perm ((fs.filter (!skip ·)).flatMap (view s.conn).names) ∧
      (view s'.conn).boxes = (view s.conn).boxes := by
  intro fs
  induction fs with
  | nil => intro s _ _ _; exact ⟨[], s, rfl, .refl _, rfl⟩
  | cons f fs ih =>
    intro s hd hpl hx
    simp only [scanFolders]
    by_cases hsk : skip f = true
    · rw [List.filter_cons_of_neg (by simp [hsk])] at hd hx ⊢
      rw [if_pos hsk]
      exact ih s hd hpl hx
    · rw [List.filter_cons_of_pos (by simpa using hsk)] at hd hx ⊢
      rw [if_neg hsk]
      rw [List.nodup_cons] at hd
      have hxf : ∀ x, s.sel = some x → x.name ≠ f := fun x h e => hx x h (e ▸ List.mem_cons_self)
      cases hb : (view s.conn).boxes f with
      | none =>
        obtain ⟨s1, e1, h1, h2⟩ := scanFolder_none hc hxf hb
        obtain ⟨ps, s2, e3, h3, h4⟩ := ih s1 hd.2 (by rw [h1]; exact hpl) (by rw [h2]; exact fun x h e => hx x h (List.mem_cons_of_mem _ e))
        refine ⟨ps, s2, ?_, ?_, h4.trans h1⟩
        · simp only [e1, e3, bind, Except.bind, List.nil_append]
        · rw [List.flatMap_cons]
          have : (view s.conn).names f = [] := by simp only [Server.names, hb]
          rw [this, List.nil_append]
          have hn : (view s1.conn).names = (view s.conn).names := funext fun g => names_congr h1 g
          rw [← hn]
          exact h3
      | some b =>
        obtain ⟨p1, s1, e1, hp1, h1, -, h2⟩ := scanFolder_some hc hxf hb (hpl f b hb)
        obtain ⟨ps, s2, e3, h3, h4⟩ := ih s1 hd.2 (by rw [h1]; exact hpl) fun x h e => hd.1 (h2 x h ▸ e)
        refine ⟨p1 ++ ps, s2, ?_, ?_, h4.trans h1⟩
        · simp only [e1, e3, bind, Except.bind]
        · rw [List.flatMap_cons]
          have hn : (view s1.conn).names = (view s.conn).names := funext fun g => names_congr h1 g
          rw [hn] at h3
          exact hp1.append h3

/-! ## Fetching -/

theorem split_mailName (v u : Nat) (f : Text) : splitPseudopath (mailName v u f) = some (digits v, digits u, f) := by
  have hc : ∀ n, (58 : UInt8) ∉ digits n := fun n h => absurd (isDigit_digits h) (by decide)
  have e : mailName v u f = digits v ++ 58 :: (digits u ++ 58 :: f) := by
    simp only [mailName, show bs ":" = [58] from rfl, List.append_assoc, List.cons_append, List.nil_append]
  simp only [splitPseudopath, e, strchr_eq (hc v), strchr_eq (hc u)]

theorem fetchRaw_some (hc : Conforms exec view) {s : Sess σ} {f : Text} (hs : CoherentAt view s f) {b : Box}
    (hb : (view s.conn).boxes f = some b) (hd : (b.msgs.map (·.uid)).Nodup) (v u : Nat) :
    ∃ s', fetchRaw exec s (mailName v u f) =
        .ok (if b.validity = v then (b.msgs.find? (·.uid == u)).map (·.body) else none, s') ∧
      (view s'.conn).boxes = (view s.conn).boxes ∧ Coherent view s' := by
  obtain ⟨n, s1, e1, hb1, hc1, ⟨w', hsel, -⟩, -⟩ := select_some hc (w := false) hs hb
  simp only [fetchRaw, split_mailName, e1, bind, Except.bind]
  by_cases hv : b.validity = v
  · subst hv
    rw [if_neg (by simp), if_pos rfl]
    obtain ⟨ls, c', e2, ⟨body, ha, h1, h2⟩, hvw⟩ := hc.fetch s1.conn f w' b u hsel (by rw [hb1]; exact hb)
    have h3 := findRaw_lines hd body (answer_lines ha) h1 h2
    refine ⟨{ s1 with conn := c' }, ?_, ?_, coherent_view hc1 hvw⟩
    · simp only [e2, answer_status ha, ne_eq, not_true_eq_false, if_false, answer_body ha, h3]
    · simp only [hvw, hb1]
  · rw [if_pos (fun e => hv (digits_inj e)), if_neg hv]
    exact ⟨s1, rfl, hb1, hc1⟩

theorem fetchRaw_none (hc : Conforms exec view) {s : Sess σ} {f : Text} (hs : ∀ x, s.sel = some x → x.name ≠ f)
    (hb : (view s.conn).boxes f = none) (v u : Nat) :
    ∃ s', fetchRaw exec s (mailName v u f) = .ok (none, s') ∧ (view s'.conn).boxes = (view s.conn).boxes := by
  obtain ⟨s1, e1, h1, -⟩ := select_none hc (w := false) hs hb
  exact ⟨s1, by simp only [fetchRaw, split_mailName, e1, bind, Except.bind], h1⟩

/-! ## Storing -/

theorem coherent_put {s : Sess σ} (hs : Coherent view s) {c : σ} {g : Text} {d d' : Box} (hg : (view s.conn).boxes g = some d)
    (hv : d'.validity = d.validity) (h : view c = (view s.conn).put g d') : Coherent view { s with conn := c } := by
  intro x hx
  obtain ⟨h1, b, h2, h3⟩ := hs x hx
  simp only [h, Server.put]
  refine ⟨h1, ?_⟩
  by_cases e : x.name = g
  · rw [if_pos e]
    rw [e, hg] at h2
    cases h2
    exact ⟨d', rfl, by rw [hv]; exact h3⟩
  · rw [if_neg e]
    exact ⟨b, h2, h3⟩

theorem coherent_new {s : Sess σ} (hs : Coherent view s) {c : σ} {g : Text} {d : Box} (hg : (view s.conn).boxes g = none)
    (h : view c = (view s.conn).put g d) : Coherent view { s with conn := c } := by
  intro x hx
  obtain ⟨h1, b, h2, h3⟩ := hs x hx
  simp only [h, Server.put]
  refine ⟨h1, b, ?_, h3⟩
  have : x.name ≠ g := fun e => by rw [e, hg] at h2; cases h2
  rw [if_neg this]
  exact h2

/-- What `s'` has in the output folder, with all else as in `s`. -/
def StoredMail (view : σ → Server) (out : Text) (s s' : Sess σ) (mails : List (List Text × Text)) : Prop :=
  Coherent view s' ∧ (view s'.conn).contents out = (view s.conn).contents out ++ mails ∧
    (∀ f, f ≠ out → (view s'.conn).boxes f = (view s.conn).boxes f)

theorem storedMail_trans {out : Text} {s s1 s2 : Sess σ} {a b : List (List Text × Text)} (h1 : StoredMail view out s s1 a)
    (h2 : StoredMail view out s1 s2 b) : StoredMail view out s s2 (a ++ b) :=
  ⟨h2.1, by rw [h2.2.1, h1.2.1, List.append_assoc], fun f hf => (h2.2.2 f hf).trans (h1.2.2 f hf)⟩

theorem storedMail_put {out : Text} {s : Sess σ} (hs : Coherent view s) {c : σ} {d : Box} {new : List MailMsg}
    (hg : (view s.conn).boxes out = some d) (h : view c = (view s.conn).put out { d with msgs := d.msgs ++ new }) :
    StoredMail view out s { s with conn := c } (new.map fun m => (m.flags, m.body)) := by
  refine ⟨coherent_put (d' := { d with msgs := d.msgs ++ new }) hs hg rfl h, ?_, ?_⟩
  · simp only [Server.contents, h, Server.put, if_true, hg, List.map_append]
  · intro f hf
    simp only [h, Server.put, if_neg hf]

theorem appendImap_some (hc : Conforms exec view) {s : Sess σ} (hs : Coherent view s) {out d : Text} {fl : MsgFlags} {b : Box}
    (hb : (view s.conn).boxes out = some b) :
    ∃ s', appendImap exec s out d fl = .ok s' ∧ StoredMail view out s s' [(flagNames fl, d)] ∧ (view s'.conn).boxes out ≠ none := by
  obtain ⟨n, s1, e1, hb1, hc1, -, -⟩ := select_some hc (w := true) (hs.at out) hb
  obtain ⟨ls, c', e2, h1, -⟩ := hc.append s1.conn out fl d
  obtain ⟨⟨body, ha⟩, u, hu⟩ := h1 b (by rw [hb1]; exact hb)
  refine ⟨{ s1 with conn := c' }, ?_, ?_, ?_⟩
  · simp only [appendImap, e1, bind, Except.bind, tryCreate, e2, answer_not_trycreate ha, answer_status ha, Bool.false_eq_true, if_false]
  · obtain ⟨h2, h3, h4⟩ := storedMail_put hc1 (by rw [hb1]; exact hb) hu
    refine ⟨h2, ?_, ?_⟩
    · rw [h3]
      simp only [Server.contents, hb1, List.map_cons, List.map_nil]
    · intro f hf
      rw [h4 f hf, hb1]
  · simp only [hu, Server.put, if_true]
    simp

theorem copyMessage_some (hc : Conforms exec view) {s : Sess σ} (hs : Coherent view s) {out f : Text} {b : Box} (v u : Nat)
    (hb : (view s.conn).boxes f = some b) (hf : f ≠ out) :
    ∃ s', copyMessage exec s (mailName v u f) out = .ok s' ∧ StoredMail view out s s' (FoundMail.mail (view s.conn) (.remote v u f)) ∧
      ((view s.conn).boxes out ≠ none → (view s'.conn).boxes out ≠ none) := by
  obtain ⟨n, s1, e1, hb1, hc1, ⟨w', hsel, -⟩, -⟩ := select_some hc (w := false) (hs.at f) hb
  simp only [copyMessage, split_mailName, e1, bind, Except.bind, FoundMail.mail, hb]
  by_cases hv : b.validity = v
  · subst hv
    rw [if_neg (by simp), if_pos rfl]
    obtain ⟨ls, c', e2, h1, h2⟩ := hc.copy s1.conn f w' b u out hsel (by rw [hb1]; exact hb)
    cases ho : (view s1.conn).boxes out with
    | some d =>
      obtain ⟨⟨body, ha⟩, new, hview, hnew⟩ := h1 d ho
      obtain ⟨h3, h4, h5⟩ := storedMail_put hc1 ho hview
      refine ⟨{ s1 with conn := c' }, ?_, ⟨h3, ?_, ?_⟩, ?_⟩
      · simp only [bind, Except.bind, tryCreate, e2, answer_not_trycreate ha, answer_status ha, Bool.false_eq_true, if_false]
      · rw [h4, hnew]
        simp only [Server.contents, hb1]
      · intro g hg
        rw [h5 g hg, hb1]
      · intro _
        simp only [hview, Server.put, if_true]
        simp
    | none =>
      obtain ⟨h3, hview⟩ := h2 ho
      rcases h3 with h3 | ⟨hnil, body, ha⟩
      · obtain ⟨ht, hst⟩ := trycreate_status h3
        obtain ⟨r2, c2, e3, hcr⟩ := hc.create c' out
        obtain ⟨v2, hv2⟩ := hcr (by rw [hview]; exact ho)
        have hsel2 : (view c2).selected = some (f, w') := by rw [hv2, hview]; exact hsel
        have hbf : (view c2).boxes f = some b := by
          rw [hv2, hview]
          simp only [Server.put, if_neg hf, hb1]
          exact hb
        have hbo : (view c2).boxes out = some ⟨v2, []⟩ := by
          rw [hv2]
          simp only [Server.put, if_true]
        obtain ⟨ls3, c3, e4, h5, -⟩ := hc.copy c2 f w' b u out hsel2 hbf
        obtain ⟨⟨body, ha⟩, new, hview3, hnew⟩ := h5 _ hbo
        have hco2 : Coherent view { s1 with conn := c2 } := coherent_new hc1 ho (by rw [hv2, hview])
        obtain ⟨h6, h7, h8⟩ := storedMail_put (s := { s1 with conn := c2 }) hco2 hbo hview3
        refine ⟨{ s1 with conn := c3 }, ?_, ⟨h6, ?_, ?_⟩, ?_⟩
        · simp only [bind, Except.bind, tryCreate, e2, ht, if_true, e3, e4, answer_status ha]
        · rw [hb1] at ho
          simp only at h7
          rw [h7, hnew]
          simp only [Server.contents, hbo, ho, List.map_nil]
        · intro g hg
          simp only at h8
          rw [h8 g hg, hv2, hview]
          simp only [Server.put, if_neg hg, hb1]
        · intro _
          simp only [hview3, Server.put, if_true]
          simp
      · refine ⟨{ s1 with conn := c' }, ?_, ⟨coherent_view hc1 hview, ?_, ?_⟩, ?_⟩
        · simp only [bind, Except.bind, tryCreate, e2, answer_not_trycreate ha, answer_status ha, Bool.false_eq_true, if_false]
        · simp only [hnil, List.map_nil, List.append_nil, Server.contents, hview, hb1]
        · intro g _
          simp only [hview, hb1]
        · simp only [hview, hb1]
          exact id
  · rw [if_pos (fun e => hv (digits_inj e)), if_neg hv]
    refine ⟨s1, rfl, ⟨hc1, ?_, ?_⟩, ?_⟩
    · simp only [Server.contents, hb1, List.append_nil]
    · intro g _
      rw [hb1]
    · rw [hb1]
      exact id

/-- A hit can be stored: its folder exists and is not the one for the results. -/
def Storable (srv : Server) (out : Text) : FoundMail → Prop
  | .remote _ _ f => f ≠ out ∧ srv.boxes f ≠ none
  | _ => srv.boxes out ≠ none

theorem mail_congr {a b : Server} {out : Text} (h : ∀ f, f ≠ out → a.boxes f = b.boxes f) {x : FoundMail} (hx : Storable a out x) :
    x.mail a = x.mail b := by
  cases x with
  | file => rfl
  | mbox => rfl
  | remote v u f =>
    have := h f hx.1
    simp only [FoundMail.mail, this]

theorem outputHit_some (hc : Conforms exec view) {s : Sess σ} (hs : Coherent view s) {out : Text} {x : FoundMail}
    (hx : Storable (view s.conn) out x) :
    ∃ s', outputHit exec out s x.hit = .ok s' ∧ StoredMail view out s s' (x.mail (view s.conn)) ∧
      ((view s.conn).boxes out ≠ none → (view s'.conn).boxes out ≠ none) := by
  cases x with
  | file d fl =>
    obtain ⟨b, hb⟩ := Option.ne_none_iff_exists'.mp (show (view s.conn).boxes out ≠ none from hx)
    obtain ⟨s', h1, h2, h3⟩ := appendImap_some (d := d) (fl := fl) hc hs hb
    exact ⟨s', h1, h2, fun _ => h3⟩
  | mbox d fl =>
    obtain ⟨b, hb⟩ := Option.ne_none_iff_exists'.mp (show (view s.conn).boxes out ≠ none from hx)
    obtain ⟨s', h1, h2, h3⟩ := appendImap_some (d := d) (fl := fl) hc hs hb
    exact ⟨s', h1, h2, fun _ => h3⟩
  | remote v u f =>
    obtain ⟨b, hb⟩ := Option.ne_none_iff_exists'.mp hx.2
    obtain ⟨s', h1, h2, h3⟩ := copyMessage_some hc hs v u hb hx.1
    exact ⟨s', h1, h2, h3⟩

theorem outputHits_some (hc : Conforms exec view) {out : Text} : ∀ (hits : List FoundMail) (s : Sess σ), Coherent view s →
    (∀ x ∈ hits, Storable (view s.conn) out x) →
    ∃ s', outputHits exec out s (hits.map FoundMail.hit) = .ok s' ∧ StoredMail view out s s' (hits.flatMap (FoundMail.mail (view s.conn))) := by
  intro hits
  induction hits with
  | nil =>
    intro s hs _
    exact ⟨s, rfl, hs, by simp, fun _ _ => rfl⟩
  | cons x hits ih =>
    intro s hs h
    have hx := h x List.mem_cons_self
    obtain ⟨s1, e1, h1, hne⟩ := outputHit_some hc hs hx
    have hst : ∀ y ∈ hits, Storable (view s.conn) out y := fun y hy => h y (List.mem_cons_of_mem _ hy)
    have hst1 : ∀ y ∈ hits, Storable (view s1.conn) out y := by
      intro y hy
      have := hst y hy
      cases y with
      | file => exact hne this
      | mbox => exact hne this
      | remote v u f =>
        refine ⟨this.1, ?_⟩
        rw [h1.2.2 f this.1]
        exact this.2
    obtain ⟨s2, e2, h2⟩ := ih s1 h1.1 hst1
    refine ⟨s2, ?_, ?_⟩
    · simp only [List.map_cons, outputHits, e1, e2, bind, Except.bind]
    · rw [List.flatMap_cons]
      have : hits.flatMap (FoundMail.mail (view s1.conn)) = hits.flatMap (FoundMail.mail (view s.conn)) := by
        rw [List.flatMap_def, List.flatMap_def]
        congr 1
        apply List.map_congr_left
        intro y hy
        exact mail_congr h1.2.2 (hst1 y hy)
      rw [this] at h2
      exact storedMail_trans h1 h2

theorem expunge_deleteAll (b : Box) : b.deleteAll.expunge = { b with msgs := [] } := by
  simp only [Box.deleteAll, Box.expunge]
  congr 1
  rw [List.filter_eq_nil_iff]
  intro m hm
  obtain ⟨m', -, rfl⟩ := List.mem_map.mp hm
  simp

theorem clearFolder_some (hc : Conforms exec view) {s : Sess σ} (hs : Coherent view s) {out : Text} {b : Box}
    (hb : (view s.conn).boxes out = some b) :
    ∃ s', clearFolder exec s out = .ok s' ∧ Coherent view s' ∧ (view s'.conn).boxes = ((view s.conn).put out { b with msgs := [] }).boxes := by
  obtain ⟨n, s1, e1, hb1, hc1, ⟨w', hsel, hw⟩, -⟩ := select_some hc (w := true) (hs.at out) hb
  have hw := hw rfl
  subst hw
  have hb' : (view s1.conn).boxes out = some b := by rw [hb1]; exact hb
  obtain ⟨r1, c1, e2, h1⟩ := hc.store s1.conn out b hsel hb'
  have hsel1 : (view c1).selected = some (out, true) := by rw [h1]; exact hsel
  have hb2 : (view c1).boxes out = some b.deleteAll := by rw [h1]; simp only [Server.put, if_true]
  obtain ⟨r2, c2, e3, h2⟩ := hc.expunge c1 out b.deleteAll hsel1 hb2
  refine ⟨{ s1 with conn := c2 }, ?_, ?_, ?_⟩
  · rw [show deletedFlag = bs "\\Deleted" from rfl] at e2
    simp only [clearFolder, e1, e2, e3, bind, Except.bind]
  · have := coherent_put (s := { s1 with conn := c1 }) (c := c2) (coherent_put (d' := b.deleteAll) hc1 hb' rfl h1) (d' := b.deleteAll.expunge) hb2 rfl h2
    exact this
  · simp only [h2, h1, expunge_deleteAll, Server.put, hb1]
    funext g
    by_cases e : g = out <;> simp [e]

end Mairix
