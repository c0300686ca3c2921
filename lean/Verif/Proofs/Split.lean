import Verif.Proofs.Classes

/-!
# dfasyn: the splitting of classes
-/

namespace Mairix
open Spec

theorem general_le {cls : List Nat} {nodes : List DfaNode} {a b : Nat} (h : generalCompare cls nodes a b ≠ .gt) : cls.getD a 0 ≤ cls.getD b 0 := by
  unfold generalCompare generalKey at h
  rw [compareKeys] at h
  split at h
  · omega
  · split at h
    · exact absurd rfl h
    · omega

/-- What a pass over the sorted states makes of the classes. -/
structure SplitOk (cls : List Nat) (nodes : List DfaNode) (L0 prev prevNew last : Nat) (l : List Nat) (r : List (Nat × Nat) × Nat × Bool) : Prop where
  fst : r.1.map Prod.fst = l
  mono : last ≤ r.2.1
  bound : ∀ x ∈ r.1, x.2 ≤ r.2.1
  old : ∀ x ∈ r.1, x.2 ≤ L0 → x.2 = cls.getD x.1 0
  cont : ∀ x ∈ r.1, L0 < x.2 → x.2 ≤ last → x.2 = prevNew ∧ cls.getD x.1 0 = cls.getD prev 0
  refines : ∀ x ∈ r.1, ∀ y ∈ r.1, x.2 = y.2 → cls.getD x.1 0 = cls.getD y.1 0
  fresh : ∀ k, last < k → k ≤ r.2.1 → ∃ x ∈ r.1, x.2 = k
  first : ∀ i ∈ l, cls.getD i 0 ≠ cls.getD prev 0 → ∃ x ∈ r.1, x.2 = cls.getD i 0
  split : r.2.2 = true → last < r.2.1
  stays : r.2.2 = false → r.2.1 = last ∧ (prevNew = cls.getD prev 0 → ∀ x ∈ r.1, x.2 = cls.getD x.1 0) ∧
    ((prev :: l).Pairwise (fun a b => generalCompare cls nodes a b ≠ .gt) →
      (∀ x ∈ l, cls.getD x 0 = cls.getD prev 0 → generalKey cls nodes x = generalKey cls nodes prev) ∧
      (∀ x ∈ l, ∀ y ∈ l, cls.getD x 0 = cls.getD y 0 → generalKey cls nodes x = generalKey cls nodes y))

theorem splitStates_spec {cls : List Nat} {nodes : List DfaNode} {L0 : Nat} : ∀ (l : List Nat) (prev prevNew last : Nat),
    (∀ i ∈ l, cls.getD i 0 ≤ L0) → L0 ≤ last → prevNew ≤ last → (prevNew ≤ L0 → prevNew = cls.getD prev 0) →
    SplitOk cls nodes L0 prev prevNew last l (splitStates cls (generalCompare cls nodes) prev prevNew last l)
  | [], prev, prevNew, last, _, _, _, _ => by
    unfold splitStates
    constructor <;> simp
  | i :: l, prev, prevNew, last, hb, hL, hp, hpn => by
    have hb' : ∀ j ∈ l, cls.getD j 0 ≤ L0 := fun j hj => hb j (List.mem_cons_of_mem _ hj)
    have hbi := hb i List.mem_cons_self
    unfold splitStates
    by_cases hc : cls.getD i 0 = cls.getD prev 0
    · rw [if_pos hc]
      by_cases hcmp : generalCompare cls nodes i prev ≠ .eq
      · rw [if_pos hcmp]
        have ih := splitStates_spec (nodes := nodes) l i (last + 1) (last + 1) hb' (by omega) (Nat.le_refl _) (by omega)
        generalize splitStates cls (generalCompare cls nodes) i (last + 1) (last + 1) l = r at ih
        simp only
        constructor
        · simp only [List.map_cons, ih.fst]
        · have := ih.mono; simp only; omega
        · intro x hx
          rcases List.mem_cons.1 hx with rfl | hx
          · exact ih.mono
          · exact ih.bound x hx
        · intro x hx hle
          rcases List.mem_cons.1 hx with rfl | hx
          · simp only at hle; omega
          · exact ih.old x hx hle
        · intro x hx h1 h2
          rcases List.mem_cons.1 hx with rfl | hx
          · simp only at h2; omega
          · obtain ⟨e, _⟩ := ih.cont x hx h1 (by omega)
            omega
        · intro x hx y hy hxy
          rcases List.mem_cons.1 hx with rfl | hx <;> rcases List.mem_cons.1 hy with rfl | hy
          · rfl
          · simp only at hxy
            exact ((ih.cont y hy (by omega) (by omega)).2).symm
          · simp only at hxy
            exact (ih.cont x hx (by omega) (by omega)).2
          · exact ih.refines x hx y hy hxy
        · intro k h1 h2
          simp only at h2
          by_cases hk : k = last + 1
          · exact ⟨_, List.mem_cons_self, hk.symm⟩
          · obtain ⟨x, hx, e⟩ := ih.fresh k (by omega) h2
            exact ⟨x, List.mem_cons_of_mem _ hx, e⟩
        · intro j hj hne
          rcases List.mem_cons.1 hj with rfl | hj
          · exact absurd hc hne
          · obtain ⟨x, hx, e⟩ := ih.first j hj (by rw [hc]; exact hne)
            exact ⟨x, List.mem_cons_of_mem _ hx, e⟩
        · intro _; have := ih.mono; simp only; omega
        · intro h; cases h
      · rw [if_neg hcmp]
        have hcmp : generalKey cls nodes i = generalKey cls nodes prev := compareKeys_eq.1 (Decidable.of_not_not hcmp)
        have ih := splitStates_spec (nodes := nodes) l i prevNew last hb' hL hp (by rw [hc]; exact hpn)
        generalize splitStates cls (generalCompare cls nodes) i prevNew last l = r at ih
        simp only
        constructor
        · simp only [List.map_cons, ih.fst]
        · exact ih.mono
        · intro x hx
          rcases List.mem_cons.1 hx with rfl | hx
          · have := ih.mono; simp only; omega
          · exact ih.bound x hx
        · intro x hx hle
          rcases List.mem_cons.1 hx with rfl | hx
          · simp only at hle ⊢; rw [hc]; exact hpn hle
          · exact ih.old x hx hle
        · intro x hx h1 h2
          rcases List.mem_cons.1 hx with rfl | hx
          · exact ⟨rfl, hc⟩
          · rw [← hc]; exact ih.cont x hx h1 h2
        · intro x hx y hy hxy
          have key : ∀ y ∈ r.1, prevNew = y.2 → cls.getD i 0 = cls.getD y.1 0 := by
            intro y hy h
            rcases Nat.lt_or_ge L0 y.2 with h1 | h1
            · exact ((ih.cont y hy h1 (by omega)).2).symm
            · rw [← ih.old y hy h1, ← h, hc]; exact (hpn (by omega)).symm
          rcases List.mem_cons.1 hx with rfl | hx <;> rcases List.mem_cons.1 hy with rfl | hy
          · rfl
          · exact key y hy hxy
          · exact (key x hx hxy.symm).symm
          · exact ih.refines x hx y hy hxy
        · intro k h1 h2
          obtain ⟨x, hx, e⟩ := ih.fresh k h1 h2
          exact ⟨x, List.mem_cons_of_mem _ hx, e⟩
        · intro j hj hne
          rcases List.mem_cons.1 hj with rfl | hj
          · exact absurd hc hne
          · obtain ⟨x, hx, e⟩ := ih.first j hj (by rw [hc]; exact hne)
            exact ⟨x, List.mem_cons_of_mem _ hx, e⟩
        · exact ih.split
        · intro h
          obtain ⟨s1, s2, s3⟩ := ih.stays h
          refine ⟨s1, ?_, ?_⟩
          · intro he x hx
            rcases List.mem_cons.1 hx with rfl | hx
            · simp only; rw [hc]; exact he
            · exact s2 (by rw [hc]; exact he) x hx
          · intro hs
            obtain ⟨t1, t2⟩ := s3 (List.pairwise_cons.1 hs).2
            constructor
            · intro x hx hxp
              rcases List.mem_cons.1 hx with rfl | hx
              · exact hcmp
              · rw [t1 x hx (by rw [hc]; exact hxp), hcmp]
            · intro x hx y hy hxy
              rcases List.mem_cons.1 hx with rfl | hx' <;> rcases List.mem_cons.1 hy with rfl | hy'
              · rfl
              · exact (t1 y hy' hxy.symm).symm
              · exact t1 x hx' hxy
              · exact t2 x hx' y hy' hxy
    · rw [if_neg hc]
      have ih := splitStates_spec (nodes := nodes) l i (cls.getD i 0) last hb' hL (by omega) (fun _ => rfl)
      generalize splitStates cls (generalCompare cls nodes) i (cls.getD i 0) last l = r at ih
      simp only
      have key : ∀ y ∈ r.1, cls.getD i 0 = y.2 → cls.getD i 0 = cls.getD y.1 0 := by
        intro y hy h
        rw [← ih.old y hy (by omega), ← h]
      constructor
      · simp only [List.map_cons, ih.fst]
      · exact ih.mono
      · intro x hx
        rcases List.mem_cons.1 hx with rfl | hx
        · have := ih.mono; simp only; omega
        · exact ih.bound x hx
      · intro x hx hle
        rcases List.mem_cons.1 hx with rfl | hx
        · rfl
        · exact ih.old x hx hle
      · intro x hx h1 h2
        rcases List.mem_cons.1 hx with rfl | hx
        · simp only at h1; omega
        · obtain ⟨e, _⟩ := ih.cont x hx h1 h2
          omega
      · intro x hx y hy hxy
        rcases List.mem_cons.1 hx with rfl | hx <;> rcases List.mem_cons.1 hy with rfl | hy
        · rfl
        · exact key y hy hxy
        · exact (key x hx hxy.symm).symm
        · exact ih.refines x hx y hy hxy
      · intro k h1 h2
        obtain ⟨x, hx, e⟩ := ih.fresh k h1 h2
        exact ⟨x, List.mem_cons_of_mem _ hx, e⟩
      · intro j hj hne
        rcases List.mem_cons.1 hj with rfl | hj
        · exact ⟨_, List.mem_cons_self, rfl⟩
        · by_cases hji : cls.getD j 0 = cls.getD i 0
          · exact ⟨_, List.mem_cons_self, hji.symm⟩
          · obtain ⟨x, hx, e⟩ := ih.first j hj hji
            exact ⟨x, List.mem_cons_of_mem _ hx, e⟩
      · exact ih.split
      · intro h
        obtain ⟨s1, s2, s3⟩ := ih.stays h
        refine ⟨s1, ?_, ?_⟩
        · intro he x hx
          rcases List.mem_cons.1 hx with rfl | hx
          · rfl
          · exact s2 rfl x hx
        · intro hs
          rw [List.pairwise_cons] at hs
          obtain ⟨t1, t2⟩ := s3 hs.2
          have hlt : cls.getD prev 0 < cls.getD i 0 := by
            have := general_le (hs.1 i List.mem_cons_self)
            omega
          constructor
          · intro x hx hxp
            rcases List.mem_cons.1 hx with rfl | hx
            · exact absurd hxp hc
            · have := general_le ((List.pairwise_cons.1 hs.2).1 x hx)
              omega
          · intro x hx y hy hxy
            rcases List.mem_cons.1 hx with rfl | hx' <;> rcases List.mem_cons.1 hy with rfl | hy'
            · rfl
            · exact (t1 y hy' hxy.symm).symm
            · exact t1 x hx' hxy
            · exact t2 x hx' y hy' hxy

theorem classInv_split {sort : StateSort} (hsort : SortsStates sort) {defaults : List Text} {nodes : List DfaNode} (hne : nodes ≠ []) {c : Classes}
    (hi : ClassInv defaults nodes c) :
    ClassInv defaults nodes (splitClasses sort nodes c).1 ∧
    ((splitClasses sort nodes c).2 = true → c.last < (splitClasses sort nodes c).1.last) ∧
    ((splitClasses sort nodes c).2 = false → ∀ i j, i < nodes.length → j < nodes.length →
      (splitClasses sort nodes c).1.cls.getD i 0 = (splitClasses sort nodes c).1.cls.getD j 0 →
      generalKey (splitClasses sort nodes c).1.cls nodes i = generalKey (splitClasses sort nodes c).1.cls nodes j) := by
  obtain ⟨hperm', hsorted⟩ := hsort _ (orders_general c.cls nodes) c.seq
  have hperm := hperm'.trans hi.seq
  unfold splitClasses
  cases hs : sort (generalCompare c.cls nodes) c.seq with
  | nil =>
    rw [hs] at hperm
    have := hperm.length_eq
    simp only [List.length_nil, List.length_range] at this
    exact absurd (List.length_eq_zero_iff.1 this.symm) hne
  | cons i l =>
    rw [hs] at hperm hsorted
    simp only
    have hlt : ∀ k ∈ i :: l, k < nodes.length := fun k hk => List.mem_range.1 (hperm.mem_iff.1 hk)
    have ok := splitStates_spec (cls := c.cls) (nodes := nodes) (L0 := c.last) l i (c.cls.getD i 0) c.last
      (fun k hk => hi.bound k (hlt k (List.mem_cons_of_mem _ hk))) (Nat.le_refl _) (hi.bound i (hlt i List.mem_cons_self)) (fun _ => rfl)
    generalize splitStates c.cls (generalCompare c.cls nodes) i (c.cls.getD i 0) c.last l = r at ok
    have hmap : ((i, c.cls.getD i 0) :: r.1).map Prod.fst = i :: l := by rw [List.map_cons, ok.fst]
    have hnd : (((i, c.cls.getD i 0) :: r.1).map Prod.fst).Nodup := by rw [hmap]; exact hperm.symm.nodup List.nodup_range
    have hlt' : ∀ x ∈ (i, c.cls.getD i 0) :: r.1, x.1 < c.cls.length := by
      intro x hx
      rw [hi.len]
      apply hlt
      rw [← hmap]; exact List.mem_map_of_mem hx
    have hmem : ∀ k, k < nodes.length → ∃ x ∈ (i, c.cls.getD i 0) :: r.1, x.1 = k := by
      intro k hk
      have : k ∈ i :: l := hperm.mem_iff.2 (List.mem_range.2 hk)
      rw [← hmap] at this
      obtain ⟨x, hx, e⟩ := List.mem_map.1 this
      exact ⟨x, hx, e⟩
    have hget : ∀ x ∈ (i, c.cls.getD i 0) :: r.1, (storeClasses c.cls ((i, c.cls.getD i 0) :: r.1)).getD x.1 0 = x.2 := fun x hx =>
      getD_of_getElem? (storeClasses_mem _ _ hnd hlt' x hx)
    have key : ∀ y ∈ r.1, c.cls.getD i 0 = y.2 → c.cls.getD i 0 = c.cls.getD y.1 0 := by
      intro y hy h
      rw [← ok.old y hy (by have := hi.bound i (hlt i List.mem_cons_self); omega), ← h]
    have href : ∀ x ∈ (i, c.cls.getD i 0) :: r.1, ∀ y ∈ (i, c.cls.getD i 0) :: r.1, x.2 = y.2 → c.cls.getD x.1 0 = c.cls.getD y.1 0 := by
      intro x hx y hy hxy
      rcases List.mem_cons.1 hx with rfl | hx <;> rcases List.mem_cons.1 hy with rfl | hy
      · rfl
      · exact key y hy hxy
      · exact (key x hx hxy.symm).symm
      · exact ok.refines x hx y hy hxy
    refine ⟨⟨by rw [storeClasses_length]; exact hi.len, hperm, ?_, ?_, ?_⟩, ok.split, ?_⟩
    · intro a b ha hb hab
      obtain ⟨x, hx, rfl⟩ := hmem a ha
      obtain ⟨y, hy, rfl⟩ := hmem b hb
      simp only at hab
      rw [hget x hx, hget y hy] at hab
      exact hi.same _ _ ha hb (href x hx y hy hab)
    · intro a ha
      obtain ⟨x, hx, rfl⟩ := hmem a ha
      simp only
      rw [hget x hx]
      rcases List.mem_cons.1 hx with rfl | hx
      · have := ok.mono; have := hi.bound i (hlt i List.mem_cons_self); simp only; omega
      · exact ok.bound x hx
    · intro k hk
      simp only at hk
      have hex : ∃ x ∈ (i, c.cls.getD i 0) :: r.1, x.2 = k := by
        rcases Nat.lt_or_ge c.last k with h | h
        · obtain ⟨x, hx, e⟩ := ok.fresh k h hk
          exact ⟨x, List.mem_cons_of_mem _ hx, e⟩
        · obtain ⟨a, ha, e⟩ := hi.used k h
          by_cases hak : c.cls.getD a 0 = c.cls.getD i 0
          · exact ⟨_, List.mem_cons_self, by simp only; omega⟩
          · have hal : a ∈ l := by
              have : a ∈ i :: l := hperm.mem_iff.2 (List.mem_range.2 ha)
              rcases List.mem_cons.1 this with rfl | this
              · exact absurd rfl hak
              · exact this
            obtain ⟨x, hx, e'⟩ := ok.first a hal hak
            exact ⟨x, List.mem_cons_of_mem _ hx, by omega⟩
      obtain ⟨x, hx, e⟩ := hex
      refine ⟨x.1, by have := hlt' x hx; rwa [hi.len] at this, ?_⟩
      simp only
      rw [hget x hx, e]
    · intro hf a b ha hb hab
      obtain ⟨_, s2, s3⟩ := ok.stays hf
      have hsame : storeClasses c.cls ((i, c.cls.getD i 0) :: r.1) = c.cls := by
        apply List.ext_getElem?
        intro k
        rcases Nat.lt_or_ge k nodes.length with hk | hk
        · obtain ⟨x, hx, rfl⟩ := hmem k hk
          rw [storeClasses_mem _ _ hnd hlt' x hx]
          have he : x.2 = c.cls.getD x.1 0 := by
            rcases List.mem_cons.1 hx with rfl | hx
            · rfl
            · exact s2 rfl x hx
          rw [he, List.getD_eq_getElem?_getD, List.getElem?_eq_getElem (hlt' x hx)]
          rfl
        · rw [List.getElem?_eq_none (by rw [storeClasses_length, hi.len]; exact hk), List.getElem?_eq_none (by rw [hi.len]; exact hk)]
      simp only [hsame] at hab ⊢
      obtain ⟨t1, t2⟩ := s3 hsorted
      have ha' : a ∈ i :: l := hperm.mem_iff.2 (List.mem_range.2 ha)
      have hb' : b ∈ i :: l := hperm.mem_iff.2 (List.mem_range.2 hb)
      rcases List.mem_cons.1 ha' with rfl | ha'' <;> rcases List.mem_cons.1 hb' with rfl | hb''
      · rfl
      · exact (t1 b hb'' hab.symm).symm
      · exact t1 a ha'' hab
      · exact t2 a ha'' b hb'' hab

theorem nodup_subset_length : ∀ (l m : List Nat), l.Nodup → (∀ x ∈ l, x ∈ m) → l.length ≤ m.length
  | [], _, _, _ => Nat.zero_le _
  | x :: l, m, hn, hm => by
    rw [List.nodup_cons] at hn
    have hx := hm x List.mem_cons_self
    have := nodup_subset_length l (m.erase x) hn.2 (fun y hy => by
      have hyx : y ≠ x := by
        intro e
        subst e
        exact hn.1 hy
      rw [List.mem_erase_of_ne hyx]
      exact hm y (List.mem_cons_of_mem _ hy))
    rw [List.length_erase_of_mem hx] at this
    have := List.length_pos_of_mem hx
    rw [List.length_cons]
    omega

theorem classInv_last {defaults : List Text} {nodes : List DfaNode} {c : Classes} (hi : ClassInv defaults nodes c) : c.last < nodes.length := by
  have := nodup_subset_length (List.range (c.last + 1)) c.cls List.nodup_range (fun k hk => by
    obtain ⟨i, hil, e⟩ := hi.used k (by have := List.mem_range.1 hk; omega)
    rw [List.getD_eq_getElem?_getD, List.getElem?_eq_getElem (by rw [hi.len]; exact hil)] at e
    simp only [Option.getD_some] at e
    rw [← e]
    exact List.getElem_mem _)
  rw [List.length_range, hi.len] at this
  omega

/-- The classes in the end: states of one class have the same attributes, and with each token they go to states of one class. -/
theorem refineLoop_spec {sort : StateSort} (hsort : SortsStates sort) {defaults : List Text} {nodes : List DfaNode} (hne : nodes ≠ []) :
    ∀ (fuel : Nat) (c : Classes), ClassInv defaults nodes c → nodes.length ≤ fuel + c.last →
    ∃ c', refineLoop sort nodes fuel c = .ok c' ∧ ClassInv defaults nodes c' ∧
      ∀ i j, i < nodes.length → j < nodes.length → c'.cls.getD i 0 = c'.cls.getD j 0 → generalKey c'.cls nodes i = generalKey c'.cls nodes j
  | 0, c, hi, h => by have := classInv_last hi; omega
  | fuel + 1, c, hi, h => by
    obtain ⟨h1, h2, h3⟩ := classInv_split hsort hne hi
    unfold refineLoop
    split
    · rename_i hs
      have := h2 hs
      exact refineLoop_spec hsort hne fuel _ h1 (by omega)
    · rename_i hs
      exact ⟨_, rfl, h1, h3 (by simpa using hs)⟩

end Mairix
