import Verif.Proofs.RunChecks

/-! How a run can end. -/

namespace Mairix
open Spec

/-- The result is a value, or a value that was never initialised was used. -/
def OkOrJunk {α : Type} (x : Res α) (P : α → Prop) : Prop := (∃ a, x = .ok a ∧ P a) ∨ x = .error .uninitialised

/-- Places, where known, are as read from the file. -/
def SmallPlaces (mb : Mbox) : Prop := ∀ e ∈ mb.msgs, ∀ s l, e.pos = some (s, l) → s + l < 2 ^ 64

theorem isIntact_junk {w : MboxWorld} {mb : Mbox} {va : Text} (h : SmallPlaces mb) {i : Nat} (hi : i < mb.msgs.length) :
    OkOrJunk (isIntact w mb i va) fun _ => True := by
  have hg : mb.msgs[i]? = some mb.msgs[i] := by simp [hi]
  simp only [isIntact, hg]
  cases hp : mb.msgs[i].pos with
  | none => exact .inr rfl
  | some sl =>
    obtain ⟨s, l⟩ := sl
    have := h _ (List.getElem_mem hi) s l hp
    simp only
    rw [Nat.mod_eq_of_lt this]
    by_cases h : s + l > va.length
    · exact .inl ⟨false, by rw [if_pos h], trivial⟩
    · exact .inl ⟨_, by rw [if_neg h, if_neg h], trivial⟩

theorem chopLoop_junk {w : MboxWorld} {mb : Mbox} {va : Text} (hs : SmallPlaces mb) : ∀ (fuel l h : Nat), l < h →
    h - l < fuel → h ≤ mb.msgs.length → OkOrJunk (chopLoop w mb va fuel l h) fun r => r < h := by
  intro fuel
  induction fuel with
  | zero => intro l h _ hf; omega
  | succ fuel ih =>
    intro l h hl hf hh
    simp only [chopLoop, hl, if_true, bind, Except.bind]
    by_cases hm : (h + l) / 2 = l
    · exact .inl ⟨l, by rw [if_pos hm], hl⟩
    · rw [if_neg hm]
      rcases isIntact_junk (w := w) (va := va) hs (i := (h + l) / 2) (by omega) with ⟨b, e, _⟩ | e
      · rw [e]
        simp only
        cases b with
        | true => exact ih ((h + l) / 2) h (by omega) (by omega) hh
        | false =>
          rcases ih l ((h + l) / 2) (by omega) (by omega) (by omega) with ⟨r, e', hr⟩ | e'
          · exact .inl ⟨r, by simpa using e', by omega⟩
          · exact .inr (by simpa using e')
      · rw [e]; exact .inr rfl

theorem findNumberIntact_junk (w : MboxWorld) (mb : Mbox) (va : Text) (hs : SmallPlaces mb) :
    OkOrJunk (findNumberIntact w mb va) fun n => n ≤ mb.msgs.length := by
  unfold findNumberIntact
  by_cases h0 : mb.msgs.length = 0
  · rw [if_pos h0]
    exact .inl ⟨0, rfl, by omega⟩
  · rw [if_neg h0]
    rcases isIntact_junk (w := w) (va := va) hs (i := mb.msgs.length - 1) (by omega) with ⟨b, e, _⟩ | e
    · simp only [e, bind, Except.bind]
      cases b with
      | true => exact .inl ⟨_, by rw [if_pos rfl], Nat.le_refl _⟩
      | false =>
        rw [if_neg (by simp)]
        rcases isIntact_junk (w := w) (va := va) hs (i := 0) (by omega) with ⟨b', e', _⟩ | e'
        · rw [e']
          simp only
          cases b' with
          | false => exact .inl ⟨0, by rw [if_pos (by simp)], by omega⟩
          | true =>
            rw [if_neg (by simp)]
            rcases chopLoop_junk (w := w) (va := va) hs (mb.msgs.length + 1) 0 mb.msgs.length (by omega) (by omega)
              (Nat.le_refl _) with ⟨r, e2, hr⟩ | e2
            · rw [e2]; exact .inl ⟨r + 1, rfl, by omega⟩
            · rw [e2]; exact .inr rfl
        · rw [e']; exact .inr rfl
    · simp only [e, bind, Except.bind]; exact .inr rfl

theorem refreshMbox_junk (w : MboxWorld) (mb : Mbox) (hs : SmallPlaces mb) : OkOrJunk (refreshMbox w mb) fun _ => True := by
  unfold refreshMbox
  simp only
  cases hp : mb.path with
  | none => exact .inl ⟨_, rfl, trivial⟩
  | some p =>
    simp only
    split
    · exact .inl ⟨_, rfl, trivial⟩
    · cases w.contents p with
      | empty => exact .inl ⟨_, rfl, trivial⟩
      | failed => exact .inl ⟨_, rfl, trivial⟩
      | data va =>
        simp only [rescanMbox]
        rcases findNumberIntact_junk w { mb with newMsgs := [] } va hs with ⟨n, e, hn⟩ | e
        · have hn' : n ≤ mb.msgs.length := hn
          simp only [hp] at e
          simp only [e, bind, Except.bind]
          have hst : OkOrJunk (scanStart { mb with newMsgs := [], nOldValid := n, path := some p } va) fun _ => True := by
            unfold scanStart
            by_cases h0 : n = 0
            · exact .inl ⟨0, by rw [if_pos h0], trivial⟩
            · rw [if_neg (by exact h0)]
              have hg : mb.msgs[n - 1]? = some mb.msgs[n - 1] := List.getElem?_eq_getElem (by omega)
              simp only [hg]
              cases mb.msgs[n - 1].pos with
              | none => exact .inr rfl
              | some sl => exact .inl ⟨_, rfl, trivial⟩
          rcases hst with ⟨base, eb, _⟩ | eb
          · obtain ⟨l, el, _⟩ := C29_split w _ va base eb
            simp only [hp, el]
            exact .inl ⟨_, rfl, trivial⟩
          · simp only [hp, buildNewMessageList, eb, bind, Except.bind]
            exact .inr rfl
        · simp only [hp] at e
          simp only [e, bind, Except.bind]
          exact .inr rfl

theorem refreshAll_junk (w : MboxWorld) : ∀ mbs : List Mbox, (∀ mb ∈ mbs, SmallPlaces mb) →
    OkOrJunk (refreshAll w mbs) fun _ => True := by
  intro mbs
  induction mbs with
  | nil => intro _; exact .inl ⟨[], rfl, trivial⟩
  | cons mb mbs ih =>
    intro h
    simp only [refreshAll]
    rcases refreshMbox_junk w mb (h mb (by simp)) with ⟨mb', e, _⟩ | e
    · simp only [e, bind, Except.bind]
      rcases ih (fun mb hmb => h mb (by simp [hmb])) with ⟨mbs', e', _⟩ | e'
      · rw [e']; exact .inl ⟨_, rfl, trivial⟩
      · rw [e']; exact .inr rfl
    · simp only [e, bind, Except.bind]
      exact .inr rfl

theorem buildMboxLists_junk {w : MboxWorld} {extant : List Extant} {db : Database} (hs : checkMboxDuplicates extant = false → SortedExtant extant)
    (h : ∀ mb ∈ db.mboxen, SmallPlaces mb) :
    (checkMboxDuplicates extant = true ∧ buildMboxLists w extant db = .error (.exit 1)) ∨
      (checkMboxDuplicates extant = false ∧ OkOrJunk (buildMboxLists w extant db) fun _ => True) := by
  unfold buildMboxLists
  cases hc : checkMboxDuplicates extant with
  | true => exact .inl ⟨rfl, by simp⟩
  | false =>
    refine .inr ⟨rfl, ?_⟩
    obtain ⟨used, e, hu⟩ := marryAll_spec (hs hc) db.mboxen
    have ha := appendNew_spec (used := used) (paths := db.mboxen.map (·.path)) extant 0 (by simpa using hu)
    simp only [Bool.false_eq_true, if_false, e, bind, Except.bind, ha]
    rcases refreshAll_junk w (db.mboxen.map (married extant) ++ newBoxes extant db.mboxen) (by
      intro mb hmb
      rcases List.mem_append.1 hmb with hmb | hmb
      · obtain ⟨mb0, h0, rfl⟩ := List.mem_map.1 hmb
        unfold married
        split
        · exact h mb0 h0
        · intro e he; cases he
      · obtain ⟨e, _, rfl⟩ := List.mem_map.1 hmb
        intro e he; cases he) with ⟨mbs, e', _⟩ | e'
    · unfold newBoxes at e'
      rw [e']
      exact .inl ⟨_, rfl, trivial⟩
    · unfold newBoxes at e'
      rw [e']
      exact .inr rfl

/-- How a run can end other than by completing. -/
def Stops (e : Fault) : Prop := e = .exit 1 ∨ e = .exit 2 ∨ e = .overflow ∨ e = .uninitialised

/-- A run that finds a file as left by earlier ones either completes or stops. -/
theorem indexRun_progress {hashfn : Nat → Text → Nat} {hist : List Run} {r : Run} {f : Option Text} {db : Database} {ix : List MsgWords}
    (h : Holds hist f db ix) (hh : ∀ r ∈ hist, Sane r) (hr : Sane r) (hj : ∀ w, r.junkHighest w = 0) :
    ∃ fuel0, ∀ fuel ≥ fuel0, (∃ f', indexRun hashfn { r with fuel := fuel } f = .ok f') ∨
      ∃ e, indexRun hashfn { r with fuel := fuel } f = .error e ∧ Stops e := by
  cases hd : checkDuplicates r.sortTexts r.listed with
  | true =>
    refine ⟨0, fun fuel _ => .inr ⟨.exit 2, ?_, .inr (.inl rfl)⟩⟩
    unfold indexRun
    simp only [hd, if_true]
  | false =>
    have hn : r.listed.Nodup := (checkDuplicates_spec hr.sortTexts r.listed).1 hd
    -- opening
    have hopen : ∃ key db1, openOrNew hashfn r f = .ok (key, db1) ∧ ∀ mb ∈ db1.mboxen, SmallPlaces mb := by
      obtain ⟨⟨hash, hm⟩, hf⟩ := h
      cases f with
      | none =>
        exact ⟨r.freshKey, newDatabase, rfl, fun mb hmb => by cases hmb⟩
      | some d =>
        obtain ⟨key, ws, hw⟩ := hf
        have hc := cstrings_of hm.good hm.words hm.paths
        obtain ⟨db1, e1, l1, l2, l3, l4, l5⟩ := loadDatabase_spec hw hc hm.paths.checks hm.good hashfn r.junkHighest (by
          intro hne w
          rw [hj w]
          exact List.length_pos_iff.2 hne)
        refine ⟨(rawOf key db d).hashKey, db1, ?_, ?_⟩
        · simp only [openOrNew, openDb_spec hw, e1, bind, Except.bind, check_good hr l4]
        · intro mb' hmb' e' he' s l hp
          obtain ⟨fi, hfi⟩ := List.getElem?_of_mem hmb'
          have hlt := (List.getElem?_eq_some_iff.1 hfi).1
          rw [l2] at hlt
          obtain ⟨mb'', h1, h2⟩ := l3 fi db.mboxen[fi] (List.getElem?_eq_getElem hlt)
          rw [hfi] at h1
          cases h1
          obtain ⟨j, hjj⟩ := List.getElem?_of_mem he'
          have hlt' := (List.getElem?_eq_some_iff.1 hjj).1
          rw [h2.length] at hlt'
          obtain ⟨e'', h3, _, h4, h5⟩ := h2.each j _ (List.getElem?_eq_getElem hlt')
          rw [hjj] at h3
          cases h3
          by_cases hjk : j < (boxIdx db.msgs fi).length
          · obtain ⟨s0, l0, _, h6⟩ := h5 hjk
            rw [hp] at h6
            cases h6
            omega
          · rw [h4 (by omega)] at hp
            cases hp
    obtain ⟨key, db1, e1, hsm⟩ := hopen
    obtain ⟨o1, o2, _, _⟩ := open_ok h hh e1
    have hcut : ∀ fuel x, (∀ key db1, openOrNew hashfn r f = .ok (key, db1) → updateStep hashfn r key db1 = x) → ∀ e, x = .error e →
        indexRun hashfn { r with fuel := fuel } f = .error e := by
      intro fuel x hx e he
      unfold indexRun
      simp only [hd, Bool.false_eq_true, if_false]
      rw [show openOrNew hashfn { r with fuel := fuel } f = openOrNew hashfn r f from rfl, e1]
      simp only [bind, Except.bind]
      rw [show updateStep hashfn { r with fuel := fuel } key db1 = updateStep hashfn r key db1 from rfl, hx key db1 e1, he]
    have hx : ∀ x, updateStep hashfn r key db1 = x → ∀ key db1, openOrNew hashfn r f = .ok (key, db1) → updateStep hashfn r key db1 = x := by
      intro x hx k d hk
      rw [e1] at hk
      cases hk
      exact hx
    -- looking for mboxen
    rcases buildMboxLists_junk (w := r.mboxWorld) (extant := r.sortExtant r.extant) (fun hc => sortExtant_spec hr.sortExtant hc) hsm
      with ⟨_, eb⟩ | ⟨hc, ⟨db2, eb, _⟩ | eb⟩
    · refine ⟨0, fun fuel _ => .inr ⟨.exit 1, hcut fuel _ (hx _ rfl) _ ?_, .inl rfl⟩⟩
      simp only [updateStep, eb, bind, Except.bind]
    · by_cases hsz : db2.msgs.length + r.listed.length + (db2.mboxen.map (·.newMsgs.length)).sum ≤ 0x3F000000
      · -- updating
        have hse : SortedExtant (r.sortExtant r.extant) := sortExtant_spec hr.sortExtant hc
        obtain ⟨hsl, hpl⟩ := sortListed_spec hr.sortListed hn
        obtain ⟨_, hm2, _⟩ := good_mboxLists o1.good o2 hse eb
        obtain ⟨db3, new, box, xs, ys, e3, _, hg3, _, _⟩ := good_updateStep (w := r.world) (junk := r.junkMsg) (fast := r.fast)
          o1.good o2 hse hsl eb (by
            rw [hpl.length_eq, ← hm2]
            exact hsz)
        have eu : ∃ b, updateStep hashfn r key db1 = .ok (db3, b) := by
          refine ⟨findsNew r.world r.fast (r.sortListed r.listed) db2 || loses r.world r.fast (r.sortListed r.listed) db2, ?_⟩
          simp only [updateStep, eb, bind, Except.bind]
          rw [if_pos hsz]
          exact e3
        obtain ⟨b3, eu⟩ := eu
        obtain ⟨ix3, u1, u2, _⟩ := update_ok o1 o2 hr hh hn eu
        -- purging
        obtain ⟨fuel0, hcull⟩ := cull_spec u1.good
        refine ⟨fuel0, fun fuel hge => ?_⟩
        have ep : ∃ db4 b4, purgeStep { r with fuel := fuel } db3 = .ok (db4, b4) := by
          unfold purgeStep
          by_cases hp : r.purge
          · obtain ⟨db4, e4, _⟩ := hcull fuel hge
            rw [show ({ r with fuel := fuel } : Run).check db3 = r.check db3 from rfl, check_good hr u1.good]
            simp only [hp, if_true]
            simp only [bind, Except.bind, e4]
            exact ⟨_, _, rfl⟩
          · simp only [hp, if_false]
            exact ⟨_, _, rfl⟩
        obtain ⟨db4, b4, ep⟩ := ep
        have hr' : Sane { r with fuel := fuel } := ⟨hr.1, hr.2, hr.3, hr.4, hr.5, hr.6, hr.7, hr.8, hr.9, hr.10⟩
        have hh' : ∀ r' ∈ hist ++ [{ r with fuel := fuel }], Sane r' := by
          intro r' hr''
          rcases List.mem_append.1 hr'' with h1 | h1
          · exact hh r' h1
          · rw [List.mem_singleton] at h1; rw [h1]; exact hr'
        obtain ⟨ix3', u1', u2', _⟩ := update_ok (r := { r with fuel := fuel }) o1 o2 hr' hh hn eu
        obtain ⟨ix4, p1, _⟩ := purge_ok u1' u2' (by simp) hh' ep
        have hrun : indexRun hashfn { r with fuel := fuel } f = writeStep { r with fuel := fuel } key db4 f (b3 || b4) := by
          unfold indexRun
          simp only [hd, Bool.false_eq_true, if_false]
          rw [show openOrNew hashfn { r with fuel := fuel } f = openOrNew hashfn r f from rfl, e1]
          simp only [bind, Except.bind]
          rw [show updateStep hashfn { r with fuel := fuel } key db1 = updateStep hashfn r key db1 from rfl, eu]
          simp only [ep]
        rw [hrun]
        unfold writeStep
        cases b3 || b4 with
        | false => exact .inl ⟨f, rfl⟩
        | true =>
          simp only [if_true, check_good hr' p1.good, bind, Except.bind]
          have hw := writable_of p1.good p1.paths
          by_cases hv : verifyMboxSizes db4 = true
          · by_cases hl : fileLength db4 < 2 ^ 31
            · obtain ⟨d', ws, e', _⟩ := writeDatabase_spec key (f.getD []) hw hv hl
              rw [e']
              exact .inl ⟨_, rfl⟩
            · refine .inr ⟨.overflow, ?_, .inr (.inr (.inl rfl))⟩
              simp only [writeDatabase, hv, hl, if_true, if_false]
          · refine .inr ⟨.exit 1, ?_, .inl rfl⟩
            simp only [writeDatabase, hv, if_false]
            rfl
      · refine ⟨0, fun fuel _ => .inr ⟨.overflow, hcut fuel _ (hx _ rfl) _ ?_, .inr (.inr (.inl rfl))⟩⟩
        simp only [updateStep, eb, bind, Except.bind]
        rw [if_neg hsz]
    · refine ⟨0, fun fuel _ => .inr ⟨.uninitialised, hcut fuel _ (hx _ rfl) _ ?_, .inr (.inr (.inr rfl))⟩⟩
      simp only [updateStep, eb, bind, Except.bind]

end Mairix
