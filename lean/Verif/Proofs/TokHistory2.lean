import Verif.Proofs.TokHistory

/-! The message id table represents the ids of the mail: each operation preserves it. -/

namespace Mairix
open Spec

theorem addId_eq : ∀ {mail mail' : IdMail} {p : Text × Bool}, addId p mail = some mail' →
    ∃ ms ws, mail = ms ++ [ws] ∧ mail' = ms ++ [p :: ws] := by
  intro mail
  induction mail with
  | nil => intro mail' w h; simp [addId] at h
  | cons m ms ih =>
    intro mail' w h
    cases ms with
    | nil => simp [addId] at h; exact ⟨[], m, rfl, by simp [← h]⟩
    | cons m2 ms2 =>
      simp only [addId, Option.map_eq_some_iff] at h
      obtain ⟨r, h1, h2⟩ := h
      obtain ⟨ms', ws, h3, h4⟩ := ih h1
      exact ⟨m :: ms', ws, by rw [h3]; rfl, by rw [← h2, h4]; rfl⟩

theorem keepOnly_map {α β : Type} (f : α → β) : ∀ (keep : List Bool) (ms : List α),
    keepOnly keep (ms.map f) = (keepOnly keep ms).map f := by
  intro keep
  induction keep with
  | nil => intro ms; cases ms <;> simp [keepOnly]
  | cons k ks ih =>
    intro ms
    cases ms with
    | nil => cases k <;> simp [keepOnly]
    | cons m ms => cases k <;> simp [keepOnly, ih]

/-- The two listings of an id; `none` if no message mentions it. -/
def idLists (mail : IdMail) (w : Text) : Option (List Nat × List Nat) :=
  if listing (idsMentioned mail) w = [] then none
  else some (listing (idsMentioned mail) w, listing (idsOwn mail) w)

theorem idLists_some {mail : IdMail} {w : Text} {b : List Nat × List Nat} :
    idLists mail w = some b ↔ b.1 = listing (idsMentioned mail) w ∧ b.2 = listing (idsOwn mail) w ∧
      b.1 ≠ [] := by
  unfold idLists
  split
  · next h =>
    simp only [reduceCtorEq, false_iff]
    rintro ⟨h1, _, h3⟩
    exact h3 (h1.trans h)
  · next h =>
    obtain ⟨b1, b2⟩ := b
    simp only [Option.some.injEq, Prod.mk.injEq]
    constructor
    · rintro ⟨rfl, rfl⟩; exact ⟨rfl, rfl, h⟩
    · rintro ⟨rfl, rfl, _⟩; exact ⟨rfl, rfl⟩

theorem idLists_none {mail : IdMail} {w : Text} :
    idLists mail w = none ↔ listing (idsMentioned mail) w = [] := by
  unfold idLists; split <;> simp_all

theorem own_sub {mail : IdMail} {w : Text} {i : Nat} (h : i ∈ listing (idsOwn mail) w) :
    i ∈ listing (idsMentioned mail) w := by
  rw [mem_listing] at *
  obtain ⟨ws, h1, h2⟩ := h
  simp only [idsOwn, List.getElem?_map, Option.map_eq_some_iff] at h1
  obtain ⟨ids, h3, rfl⟩ := h1
  refine ⟨ids.map Prod.fst, by simp [idsMentioned, h3], ?_⟩
  obtain ⟨p, hp, rfl⟩ := List.mem_map.mp h2
  exact List.mem_map.mpr ⟨p, (List.mem_filter.mp hp).1, rfl⟩

def Valid2 (m : Matches2) (l : List Nat × List Nat) : Prop :=
  Valid m.match0 l.1 ∧ Valid m.match1 l.2

/-- The table `t` is the index of the ids of `mail`. -/
def RepIds (hash : Text → Nat) (t : Table Matches2) (mail : IdMail) : Prop :=
  Rep hash Valid2 t (idLists mail)

theorem RepIds.new (hash : Text → Nat) : RepIds hash newTable [] :=
  (Rep.new hash Valid2).congr (by intro w; simp [idLists, listing, idsMentioned])

theorem RepIds.newMessage {hash : Text → Nat} {t : Table Matches2} {mail : IdMail}
    (h : RepIds hash t mail) : RepIds hash t (mail ++ [[]]) :=
  Rep.congr h (by
    intro w
    have e0 : listing (idsMentioned (mail ++ [[]])) w = listing (idsMentioned mail) w := by
      simp [idsMentioned, listing_new]
    have e1 : listing (idsOwn (mail ++ [[]])) w = listing (idsOwn mail) w := by
      simp [idsOwn, listing_new]
    unfold idLists
    rw [e0, e1])

theorem RepIds.addId {hash : Text → Nat} {t : Table Matches2} {mail mail' : IdMail}
    (h : RepIds hash t mail) {w : Text} {own : Bool} (hw : addId (lower w, own) mail = some mail')
    (hsmall : mail.length ≤ maxMsgs) :
    ∃ t', addToken2 hash t w (mail.length - 1) own = .ok t' ∧ RepIds hash t' mail' := by
  obtain ⟨ms, ws, h1, h2⟩ := addId_eq hw
  subst h1 h2
  have hlen : (ms ++ [ws]).length - 1 = ms.length := by simp
  rw [hlen]
  have hsm : ms.length + 1 ≤ maxMsgs := by simpa using hsmall
  have hle0 : ∀ x ∈ listing (idsMentioned (ms ++ [ws])) (lower w), x ≤ ms.length := by
    intro x hx; have := listing_lt x hx; simp [idsMentioned] at this; omega
  have hle1 : ∀ x ∈ listing (idsOwn (ms ++ [ws])) (lower w), x ≤ ms.length := by
    intro x hx; have := listing_lt x hx; simp [idsOwn] at this; omega
  have m0 : ∀ x, idsMentioned (ms ++ [x]) = idsMentioned ms ++ [x.map Prod.fst] := by
    intro x; simp [idsMentioned]
  have m1 : ∀ x, idsOwn (ms ++ [x]) = idsOwn ms ++ [(x.filter (·.2)).map Prod.fst] := by
    intro x; simp [idsOwn]
  have l0 : (idsMentioned ms).length = ms.length := by simp [idsMentioned]
  have l1 : (idsOwn ms).length = ms.length := by simp [idsOwn]
  let upd : List Nat × List Nat → List Nat × List Nat := fun b =>
    (addAbs b.1 ms.length, if own then addAbs b.2 ms.length else b.2)
  have key : ∀ (d : Matches2) (b : List Nat × List Nat),
      (∀ x ∈ b.1, x ≤ ms.length) → (∀ x ∈ b.2, x ≤ ms.length) →
      Valid2 d b → ∃ d', addIndex2 own d ms.length = .ok d' ∧ Valid2 d' (upd b) := by
    intro d b hb0 hb1 hv
    obtain ⟨d0, a0, v0, _⟩ := addIndex_valid hv.1 (i := ms.length) hb0 (by unfold maxMsgs at hsm; omega)
    unfold addIndex2
    simp only [a0, bind, Except.bind]
    cases own with
    | false => exact ⟨_, rfl, v0, hv.2⟩
    | true =>
      obtain ⟨d1, a1, v1, _⟩ := addIndex_valid hv.2 (i := ms.length) hb1 (by unfold maxMsgs at hsm; omega)
      simp only [a1]
      exact ⟨_, rfl, v0, v1⟩
  obtain ⟨t1, i, t', h3, h4, h5⟩ := Rep.add h
    (fresh := { match0 := initMatches, match1 := initMatches }) (text := lower w)
    (upd := fun m => addIndex2 own m ms.length)
    (a := fun o => upd (o.getD ([], [])))
    (fun _ => key _ ([], []) (by simp) (by simp) ⟨valid_init, valid_init⟩)
    (fun d b hb hv => by
      obtain ⟨e1, e2, _⟩ := idLists_some.mp hb
      exact key d b (by rw [e1]; exact hle0) (by rw [e2]; exact hle1) hv)
  refine ⟨t', ?_, ?_⟩
  · unfold addToken2
    simp only [h3, bind, Except.bind]
    exact h4
  · refine Rep.congr h5 ?_
    intro w'
    split
    · next heq =>
      subst heq
      have hg : (idLists (ms ++ [ws]) (lower w)).getD ([], []) =
          (listing (idsMentioned (ms ++ [ws])) (lower w), listing (idsOwn (ms ++ [ws])) (lower w)) := by
        unfold idLists
        split
        · next hc =>
          rw [hc]
          have : listing (idsOwn (ms ++ [ws])) (lower w) = [] := by
            rw [List.eq_nil_iff_forall_not_mem]
            intro x hx
            have := own_sub hx
            rw [hc] at this; simp at this
          rw [this]; rfl
        · rfl
      symm
      rw [hg, idLists_some]
      refine ⟨?_, ?_, ?_⟩
      · simp only [upd, m0, List.map_cons]
        rw [listing_addWord_self, l0]
      · simp only [upd, m1]
        cases own with
        | false => simp
        | true =>
          simp only [if_true, List.filter_cons_of_pos, List.map_cons]
          rw [listing_addWord_self, l1]
      · simp only [upd]
        unfold addAbs
        split
        · next hm => intro hc; rw [hc] at hm; simp at hm
        · simp
    · next heq =>
      have e0 : listing (idsMentioned (ms ++ [(lower w, own) :: ws])) w' = listing (idsMentioned (ms ++ [ws])) w' := by
        rw [m0, m0, List.map_cons]
        exact listing_addWord_ne heq
      have e1 : listing (idsOwn (ms ++ [(lower w, own) :: ws])) w' = listing (idsOwn (ms ++ [ws])) w' := by
        rw [m1, m1]
        cases own with
        | false => simp
        | true =>
          simp only [List.filter_cons_of_pos, List.map_cons]
          exact listing_addWord_ne heq
      unfold idLists
      rw [e0, e1]

/-- What the file holds of the message id table. -/
def fileTokens2 (t : Table Matches2) (tail0 tail1 : Text → List UInt8) :
    List (Text × List UInt8 × List UInt8) :=
  (ents t.slots).map fun e => (e.text, e.data.match0.bytes ++ 0xff :: tail0 e.text,
    e.data.match1.bytes ++ 0xff :: tail1 e.text)

theorem RepIds.reload' {hash : Text → Nat} {t : Table Matches2} {mail : IdMail}
    (h : RepIds hash t mail) (hash' : Text → Nat) (junk0 junk1 : Text → Nat)
    (hj : mail ≠ [] → ∀ w, junk1 w < mail.length)
    (tail0 tail1 : Text → List UInt8)
    (toks : List (Text × List UInt8 × List UInt8)) (hperm : toks.Perm (fileTokens2 t tail0 tail1)) :
    ∃ t', loadTable2 hash' mail.length junk0 junk1 toks = .ok t' ∧ RepIds hash' t' mail := by
  let conv : Text × List UInt8 × List UInt8 → Text × Matches2 := fun p =>
    (p.1, { match0 := readerCopy (junk0 p.1) p.2.1, match1 := readerCopy (junk1 p.1) p.2.2 })
  have hmem : ∀ p ∈ toks.map conv, ∃ e ∈ ents t.slots,
      p = conv (e.text, e.data.match0.bytes ++ 0xff :: tail0 e.text,
            e.data.match1.bytes ++ 0xff :: tail1 e.text) := by
    intro p hp
    obtain ⟨q, hq, rfl⟩ := List.mem_map.mp hp
    have hq2 := hperm.mem_iff.mp hq
    unfold fileTokens2 at hq2
    obtain ⟨e, he, rfl⟩ := List.mem_map.mp hq2
    exact ⟨e, he, rfl⟩
  refine Rep.import (hash := hash') (check := false) (toks := toks.map conv) ?_ ?_ ?_ ?_
  · have : ((toks.map conv).map Prod.fst).Perm ((ents t.slots).map Entry.text) := by
      rw [List.map_map]
      have := hperm.map Prod.fst
      unfold fileTokens2 at this
      rw [List.map_map] at this
      exact this
    exact this.nodup_iff.mpr h.ok.nodup
  · intro p hp
    obtain ⟨e, he, rfl⟩ := hmem p hp
    obtain ⟨b, hb, hv⟩ := h.sound e he
    obtain ⟨e1, e2, e3⟩ := idLists_some.mp hb
    obtain ⟨_, _, hh0⟩ := readerCopy_valid hv.1 (junk0 e.text) (tail0 e.text)
    obtain ⟨_, _, hh1⟩ := readerCopy_valid hv.2 (junk1 e.text) (tail1 e.text)
    simp only [conv, hh0, hh1, Bool.and_eq_true, decide_eq_true_eq]
    constructor
    · cases hl : b.1.getLast? with
      | none => exact absurd (List.getLast?_eq_none_iff.mp hl) e3
      | some x =>
        simp only [Option.getD_some]
        have := listing_lt x (e1 ▸ List.mem_of_getLast? hl)
        simpa [idsMentioned] using this
    · cases hl : b.2.getLast? with
      | none => simp only [Option.getD_none]; exact hj (by rintro rfl; rw [e1] at e3; exact e3 rfl) _
      | some x =>
        simp only [Option.getD_some]
        have := listing_lt x (e2 ▸ List.mem_of_getLast? hl)
        simpa [idsOwn] using this
  · intro p hp
    obtain ⟨e, he, rfl⟩ := hmem p hp
    obtain ⟨b, hb, hv⟩ := h.sound e he
    exact ⟨b, hb, (readerCopy_valid hv.1 _ _).1, (readerCopy_valid hv.2 _ _).1⟩
  · intro w b hw
    obtain ⟨e, he, rfl⟩ := h.complete w b hw
    refine ⟨conv (e.text, e.data.match0.bytes ++ 0xff :: tail0 e.text,
            e.data.match1.bytes ++ 0xff :: tail1 e.text), ?_, rfl⟩
    refine List.mem_map.mpr ⟨_, ?_, rfl⟩
    exact hperm.mem_iff.mpr (List.mem_map.mpr ⟨e, he, rfl⟩)

theorem RepIds.purge {hash : Text → Nat} {t : Table Matches2} {mail : IdMail}
    (h : RepIds hash t mail) {keep : List Bool} (hk : keep.length = mail.length)
    (hsmall : mail.length ≤ maxMsgs) :
    ∃ fuel0, ∀ fuel ≥ fuel0, ∃ t', purgeTable2 fuel keep t = .ok t' ∧
      RepIds hash t' (keepOnly keep mail) := by
  have hk0 : keep.length = (idsMentioned mail).length := by simp [idsMentioned, hk]
  have hk1 : keep.length = (idsOwn mail).length := by simp [idsOwn, hk]
  have hp0 : ∀ w, listing (idsMentioned (keepOnly keep mail)) w = (listing (idsMentioned mail) w).filterMap (newIdxOf keep) := by
    intro w
    rw [← listing_purge hk0]
    unfold idsMentioned
    rw [keepOnly_map]
  have hp1 : ∀ w, listing (idsOwn (keepOnly keep mail)) w = (listing (idsOwn mail) w).filterMap (newIdxOf keep) := by
    intro w
    rw [← listing_purge hk1]
    unfold idsOwn
    rw [keepOnly_map]
  obtain ⟨fuel0, hf⟩ := Rep.recode h (g := recodeEncoding2 keep.length (newIdxOf keep))
    (dead := fun m => m.match0.bytes.length == 0 && m.match1.bytes.length == 0)
    (a := fun l => if l.1.filterMap (newIdxOf keep) = [] then none
      else some (l.1.filterMap (newIdxOf keep), l.2.filterMap (newIdxOf keep)))
    (fun d b hb hv => by
      obtain ⟨w, hw⟩ := hb
      obtain ⟨e1, e2, e3⟩ := idLists_some.mp hw
      obtain ⟨d0, h1, h2⟩ := recodeEncoding_valid (keep := keep) hv.1
        (fun x hx => by rw [hk0]; exact listing_lt x (e1 ▸ hx)) (by rw [hk]; exact hsmall)
      obtain ⟨d1, h3, h4⟩ := recodeEncoding_valid (keep := keep) hv.2
        (fun x hx => by rw [hk1]; exact listing_lt x (e2 ▸ hx)) (by rw [hk]; exact hsmall)
      refine ⟨{ match0 := d0, match1 := d1 }, ?_, ?_⟩
      · simp only [recodeEncoding2, h1, h3, bind, Except.bind]
      by_cases hl : b.1.filterMap (newIdxOf keep) = []
      · simp only [hl, if_true]
        have hl2 : b.2.filterMap (newIdxOf keep) = [] := by
          rw [List.eq_nil_iff_forall_not_mem] at hl ⊢
          intro y hy
          obtain ⟨x, hx, hxy⟩ := List.mem_filterMap.mp hy
          refine hl y (List.mem_filterMap.mpr ⟨x, ?_, hxy⟩)
          rw [e1]; rw [e2] at hx
          exact own_sub hx
        rw [hl] at h2; rw [hl2] at h4
        simp [h2.empty.mpr rfl, h4.empty.mpr rfl]
      · simp only [hl, if_false]
        refine ⟨?_, h2, h4⟩
        have : d0.bytes ≠ [] := fun hc => hl (h2.empty.mp hc)
        simp [this])
  refine ⟨fuel0, fun fuel hge => ?_⟩
  obtain ⟨t', h1, h2⟩ := hf fuel hge
  refine ⟨t', h1, Rep.congr h2 ?_⟩
  intro w
  unfold idLists
  rw [hp0, hp1]
  by_cases h0 : listing (idsMentioned mail) w = []
  · simp [h0]
  · simp [h0]

/-- The ids of a table with their two message lists. -/
def tableIds (t : Table Matches2) : List (Text × List Nat × List Nat) :=
  (ents t.slots).map fun e => (e.text, readAll e.data.match0.bytes, readAll e.data.match1.bytes)

theorem RepIds.ids {hash : Text → Nat} {t : Table Matches2} {mail : IdMail}
    (h : RepIds hash t mail) :
    ((tableIds t).map Prod.fst).Nodup ∧
    ∀ w l0 l1, (w, l0, l1) ∈ tableIds t ↔
      l0 ≠ [] ∧ IsListing (idsMentioned mail) w l0 ∧ IsListing (idsOwn mail) w l1 := by
  constructor
  · unfold tableIds
    rw [List.map_map]
    exact h.ok.nodup
  · intro w l0 l1
    unfold tableIds
    rw [List.mem_map]
    constructor
    · rintro ⟨e, he, h1⟩
      obtain ⟨b, hb, hv⟩ := h.sound e he
      obtain ⟨e1, e2, e3⟩ := idLists_some.mp hb
      rw [valid_readAll hv.1, valid_readAll hv.2] at h1
      cases h1
      rw [e1] at e3
      rw [e1, e2]
      exact ⟨e3, listing_isListing _ _, listing_isListing _ _⟩
    · rintro ⟨h1, h2, h3⟩
      have h2' := isListing_eq h2
      have h3' := isListing_eq h3
      obtain ⟨e, he, h4⟩ := h.complete w (l0, l1) (idLists_some.mpr ⟨h2', h3', h1⟩)
      obtain ⟨b, hb, hv⟩ := h.sound e he
      obtain ⟨e1, e2, e3⟩ := idLists_some.mp hb
      refine ⟨e, he, ?_⟩
      rw [valid_readAll hv.1, valid_readAll hv.2, e1, e2, h4, ← h2', ← h3']

end Mairix
