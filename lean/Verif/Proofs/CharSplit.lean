import Verif.Proofs.CharBits

/-!
# Splitting character classes
-/

namespace Mairix

attribute [local irreducible] mask

open Spec CharBits

/-- The two characters are in the same classes. -/
def SameClasses (ccs : List CharBits) (c d : Nat) : Prop := ∀ cc ∈ ccs, cc.lo c = cc.lo d

theorem groupStep_fold {first : Nat} (hf : first < 256) : ∀ (ccs : List CharBits) (x : CharBits × CharBits), (∀ cc ∈ ccs, Clean cc) →
    (∀ i, i < 8 → x.1.up i = false) →
    (∀ i, i < 8 → (ccs.foldl (groupStep first) x).1.up i = false) ∧
    ∀ c, c < 256 → ((ccs.foldl (groupStep first) x).1.lo c = true ∧ (ccs.foldl (groupStep first) x).2.lo c = false ↔
      (x.1.lo c = true ∧ x.2.lo c = false) ∧ ∀ cc ∈ ccs, cc.lo c = cc.lo first)
  | [], x, _, hu => ⟨hu, fun c _ => by simp⟩
  | cc :: ccs, x, hcl, hu => by
    have hcc := hcl cc List.mem_cons_self
    have hu' : ∀ i, i < 8 → (groupStep first x cc).1.up i = false := by
      intro i hi
      unfold groupStep
      split
      · rw [up_inter hi, hu i hi]; rfl
      · exact hu i hi
    obtain ⟨h1, h2⟩ := groupStep_fold hf ccs (groupStep first x cc) (fun y hy => hcl y (List.mem_cons_of_mem _ hy)) hu'
    refine ⟨h1, fun c hc => ?_⟩
    rw [List.foldl_cons, h2 c hc]
    simp only [List.mem_cons, forall_eq_or_imp]
    rw [← and_assoc]
    refine and_congr_left fun _ => ?_
    unfold groupStep
    rw [test_clean hcc hf]
    cases hb : cc.lo first with
    | true =>
      simp only [if_true]
      rw [lo_inter hc, Bool.and_eq_true]
      constructor
      · rintro ⟨⟨e1, e2⟩, e3⟩; exact ⟨⟨e1, e3⟩, e2⟩
      · rintro ⟨⟨e1, e3⟩, e2⟩; exact ⟨⟨e1, e2⟩, e3⟩
    | false =>
      simp only [Bool.false_eq_true, if_false]
      rw [lo_union hc, Bool.or_eq_false_iff]
      constructor
      · rintro ⟨e1, e2, e3⟩; exact ⟨⟨e1, e2⟩, e3⟩
      · rintro ⟨⟨e1, e2⟩, e3⟩; exact ⟨e1, e2, e3⟩

theorem groupOf_test {ccs : List CharBits} (hcl : ∀ cc ∈ ccs, Clean cc) {first : Nat} (hf : first < 256) {c : Nat} (hc : c < 256) :
    (groupOf ccs first).test c = true ↔ SameClasses ccs c first := by
  obtain ⟨h1, h2⟩ := groupStep_fold hf ccs (.all, .empty) hcl (fun i _ => up_all)
  have hclean : Clean (groupOf ccs first) := by
    intro i hi hu
    unfold groupOf at hu
    simp only at hu
    rw [up_diff hi, h1 i hi] at hu
    cases hu
  rw [test_clean hclean hc]
  unfold groupOf
  simp only
  rw [lo_diff hc, Bool.and_eq_true, Bool.not_eq_true']
  rw [h2 c hc]
  simp only
  rw [lo_all hc, lo_empty]
  simp [SameClasses]

theorem union_fold : ∀ (ccs : List CharBits) (u : CharBits), (∀ cc ∈ ccs, Clean cc) → Clean u →
    Clean (ccs.foldl CharBits.union u) ∧ ∀ c, c < 256 → ((ccs.foldl CharBits.union u).lo c = true ↔ u.lo c = true ∨ ∃ cc ∈ ccs, cc.lo c = true)
  | [], u, _, hu => ⟨hu, fun c _ => by simp⟩
  | cc :: ccs, u, hcl, hu => by
    have hcc := hcl cc List.mem_cons_self
    have : Clean (u.union cc) := by
      intro i hi h
      rw [up_union hi, Bool.or_eq_true] at h
      rw [lo_union (by omega), Bool.or_eq_true]
      rcases h with h | h
      · exact Or.inl (hu i hi h)
      · exact Or.inr (hcc i hi h)
    obtain ⟨h1, h2⟩ := union_fold ccs _ (fun y hy => hcl y (List.mem_cons_of_mem _ hy)) this
    refine ⟨h1, fun c hc => ?_⟩
    rw [List.foldl_cons, h2 c hc, lo_union hc, Bool.or_eq_true]
    simp only [List.mem_cons, exists_eq_or_imp]
    rw [or_assoc]

/-- How many characters have a group. -/
def mapped (m : List (Option Nat)) : Nat := ((List.range 256).filter fun i => (m.getD i none).isSome).length

theorem filter_length_le {α : Type} {p q : α → Bool} : ∀ (l : List α), (∀ x ∈ l, p x = true → q x = true) → (l.filter p).length ≤ (l.filter q).length
  | [], _ => Nat.le_refl _
  | x :: l, h => by
    have ih := filter_length_le l fun y hy => h y (List.mem_cons_of_mem _ hy)
    have hx := h x List.mem_cons_self
    cases hp : p x with
    | false => rw [List.filter_cons_of_neg (by simp [hp])]; exact Nat.le_trans ih (by rw [List.filter_cons]; split <;> simp)
    | true => rw [List.filter_cons_of_pos (by simp [hp]), List.filter_cons_of_pos (by simp [hx hp])]; simpa using ih

theorem filter_length_lt {α : Type} {p q : α → Bool} : ∀ (l : List α), (∀ x ∈ l, p x = true → q x = true) → (∃ x ∈ l, p x = false ∧ q x = true) →
    (l.filter p).length < (l.filter q).length
  | [], _, h => by obtain ⟨x, h, _⟩ := h; cases h
  | x :: l, h, ⟨y, hy, hp, hq⟩ => by
    have hl := fun y hy => h y (List.mem_cons_of_mem _ hy)
    rcases List.mem_cons.1 hy with rfl | hy
    · rw [List.filter_cons_of_neg (by simp [hp]), List.filter_cons_of_pos (by simp [hq])]
      exact Nat.lt_succ_of_le (filter_length_le l hl)
    · have ih := filter_length_lt l hl ⟨y, hy, hp, hq⟩
      have hx := h x List.mem_cons_self
      cases hpx : p x with
      | false => rw [List.filter_cons_of_neg (by simp [hpx])]; exact Nat.lt_of_lt_of_le ih (by rw [List.filter_cons]; split <;> simp)
      | true => rw [List.filter_cons_of_pos (by simp [hpx]), List.filter_cons_of_pos (by simp [hx hpx])]; simpa using ih

/-- What the loop keeps. -/
structure GroupInv (ccs : List CharBits) (m : List (Option Nat)) (n : Nat) : Prop where
  covered : ∀ c, c < 256 → (m.getD c none).isSome = true → ∃ cc ∈ ccs, cc.lo c = true
  same : ∀ c d g, c < 256 → d < 256 → m.getD c none = some g → (m.getD d none = some g ↔ SameClasses ccs d c)
  bound : ∀ c g, c < 256 → m.getD c none = some g → g < n
  used : ∀ g, g < n → ∃ c, c < 256 ∧ m.getD c none = some g
  few : n ≤ mapped m

/-- The groups in the end. -/
structure Groups (ccs : List CharBits) (m : List (Option Nat)) (n : Nat) : Prop extends GroupInv ccs m n where
  all : ∀ c, c < 256 → (∃ cc ∈ ccs, cc.lo c = true) → (m.getD c none).isSome = true
  room : n ≤ 256

theorem mapped_le (m : List (Option Nat)) : mapped m ≤ 256 := by
  unfold mapped
  exact Nat.le_trans (List.length_filter_le _ _) (by simp)

theorem groupLoop_spec {ccs : List CharBits} (hcl : ∀ cc ∈ ccs, Clean cc) : ∀ (fuel : Nat) (u : CharBits) (m : List (Option Nat)) (n : Nat),
    Clean u → (∀ c, c < 256 → (u.lo c = true ↔ (∃ cc ∈ ccs, cc.lo c = true) ∧ m.getD c none = none)) → GroupInv ccs m n →
    (∃ c, c < 256 ∧ u.lo c = true) → 256 < fuel + mapped m →
    ∃ m' n', groupLoop ccs fuel u m n = .ok (m', n') ∧ Groups ccs m' n'
  | 0, u, m, n, _, _, _, _, hf => by have := mapped_le m; omega
  | fuel + 1, u, m, n, hcu, hu, hi, hne, hf => by
    unfold groupLoop
    cases hlow : u.lowest with
    | none =>
      exfalso
      obtain ⟨c, hc, hl⟩ := hne
      unfold lowest at hlow
      rw [List.find?_eq_none] at hlow
      exact hlow c (by simpa using hc) (by rw [test_clean hcu hc]; exact hl)
    | some first =>
      simp only
      have hfirst : first < 256 := by
        have := List.mem_of_find?_eq_some hlow
        simpa using this
      have hft : u.lo first = true := by
        have := List.find?_some hlow
        rwa [test_clean hcu hfirst] at this
      obtain ⟨hcov, hnone⟩ := (hu first hfirst).1 hft
      have hpos : ∀ {c : Nat}, c < 256 → ((groupOf ccs first).test c = true ↔ SameClasses ccs c first) := fun hc => groupOf_test hcl hfirst hc
      have hsame0 : SameClasses ccs first first := fun _ _ => rfl
      have hm' : ∀ {i : Nat}, i < 256 → (tab 256 fun i => if (groupOf ccs first).test i then some n else m.getD i none).getD i none =
          if (groupOf ccs first).test i then some n else m.getD i none := fun hi => getD_tab hi
      -- a character of the new group had none
      have hnew : ∀ {c : Nat}, c < 256 → SameClasses ccs c first → m.getD c none = none := by
        intro c hc hs
        cases hmc : m.getD c none with
        | none => rfl
        | some g =>
          have := (hi.same c first g hc hfirst hmc).2 (fun cc hcc => (hs cc hcc).symm)
          rw [hnone] at this; cases this
      have hlt : mapped m < mapped (tab 256 fun i => if (groupOf ccs first).test i then some n else m.getD i none) := by
        unfold mapped
        apply filter_length_lt
        · intro x hx hp
          have hx' : x < 256 := by simpa using hx
          rw [hm' hx']
          split
          · rfl
          · exact hp
        · refine ⟨first, by simpa using hfirst, by rw [hnone]; rfl, ?_⟩
          rw [hm' hfirst, if_pos ((hpos hfirst).2 hsame0)]; rfl
      have hn256 : ¬ 256 ≤ n := by
        have h1 := hi.few
        have h2 := mapped_le (tab 256 fun i => if (groupOf ccs first).test i then some n else m.getD i none)
        omega
      rw [if_neg hn256]
      have hinv : GroupInv ccs (tab 256 fun i => if (groupOf ccs first).test i then some n else m.getD i none) (n + 1) := by
        constructor
        · intro c hc hs
          rw [hm' hc] at hs
          by_cases ht : (groupOf ccs first).test c = true
          · obtain ⟨cc, h1, h2⟩ := hcov
            exact ⟨cc, h1, by rw [(hpos hc).1 ht cc h1]; exact h2⟩
          · rw [if_neg ht] at hs
            exact hi.covered c hc hs
        · intro c d g hc hd hg
          rw [hm' hc] at hg
          rw [hm' hd]
          by_cases ht : (groupOf ccs first).test c = true
          · rw [if_pos ht] at hg
            cases hg
            by_cases htd : (groupOf ccs first).test d = true
            · rw [if_pos htd]
              simp only [true_iff]
              exact fun cc hcc => ((hpos hd).1 htd cc hcc).trans ((hpos hc).1 ht cc hcc).symm
            · rw [if_neg htd]
              constructor
              · intro h
                have := hi.bound d n hd h
                omega
              · intro h
                exact absurd ((hpos hd).2 fun cc hcc => (h cc hcc).trans ((hpos hc).1 ht cc hcc)) htd
          · rw [if_neg ht] at hg
            have hgn := hi.bound c g hc hg
            by_cases htd : (groupOf ccs first).test d = true
            · rw [if_pos htd]
              constructor
              · intro h; cases h; omega
              · intro h
                exact absurd ((hpos hc).2 fun cc hcc => (h cc hcc).symm.trans ((hpos hd).1 htd cc hcc)) ht
            · rw [if_neg htd]
              exact hi.same c d g hc hd hg
        · intro c g hc hg
          rw [hm' hc] at hg
          split at hg
          · cases hg; omega
          · have := hi.bound c g hc hg; omega
        · intro g hg
          by_cases hgn : g = n
          · subst hgn
            exact ⟨first, hfirst, by rw [hm' hfirst, if_pos ((hpos hfirst).2 hsame0)]⟩
          · obtain ⟨c, hc, hmc⟩ := hi.used g (by omega)
            refine ⟨c, hc, ?_⟩
            rw [hm' hc, if_neg]
            · exact hmc
            · intro ht
              rw [hnew hc ((hpos hc).1 ht)] at hmc; cases hmc
        · have := hi.few; omega
      have hcu' : Clean (u.clear (groupOf ccs first)) := by
        intro i hi8 h
        rw [up_clear hi8, Bool.and_eq_true] at h
        rw [lo_clear (by omega), hcu i hi8 h.1, h.2]; rfl
      have hu' : ∀ c, c < 256 → ((u.clear (groupOf ccs first)).lo c = true ↔ (∃ cc ∈ ccs, cc.lo c = true) ∧
          (tab 256 fun i => if (groupOf ccs first).test i then some n else m.getD i none).getD c none = none) := by
        intro c hc
        rw [lo_clear hc, Bool.and_eq_true, hu c hc, hm' hc]
        cases ht : (groupOf ccs first).test c with
        | true => simp
        | false => simp
      split
      · rename_i hany
        refine groupLoop_spec hcl fuel _ _ _ hcu' hu' hinv ?_ (by omega)
        unfold CharBits.any at hany
        rw [Bool.or_eq_true, bne_iff_ne, bne_iff_ne] at hany
        rcases hany with hx | hx
        · obtain ⟨c, hlo⟩ := Nat.exists_testBit_of_ne_zero hx
          refine ⟨c, ?_, hlo⟩
          rcases Nat.lt_or_ge c 256 with h | h
          · exact h
          · have : (u.clear (groupOf ccs first)).lo c = false := testBit_mask_ge h
            have hlo' : (u.clear (groupOf ccs first)).lo c = true := hlo
            rw [this] at hlo'; cases hlo'
        · obtain ⟨c, hup⟩ := Nat.exists_testBit_of_ne_zero hx
          have hup' : (u.clear (groupOf ccs first)).up c = true := hup
          have hc8 : c < 8 := by
            rcases Nat.lt_or_ge c 8 with h | h
            · exact h
            · have : (u.clear (groupOf ccs first)).up c = false := testBit_mask_ge h
              rw [this] at hup'; cases hup'
          exact ⟨_, by omega, hcu' c hc8 hup'⟩
      · rename_i hany
        refine ⟨_, _, rfl, ⟨hinv, ?_, by omega⟩⟩
        intro c hc hcc
        cases hmc : (tab 256 fun i => if (groupOf ccs first).test i then some n else m.getD i none).getD c none with
        | some g => rfl
        | none =>
          exfalso
          apply hany
          have := (hu' c hc).2 ⟨hcc, hmc⟩
          unfold CharBits.any
          rw [Bool.or_eq_true, bne_iff_ne]
          left
          intro h0
          unfold lo at this
          rw [h0, Nat.zero_testBit] at this
          cases this

/-- The classes are split into groups. -/
theorem split_spec {ccs : List CharBits} (hcl : ∀ cc ∈ ccs, Clean cc) (hne : ∀ cc ∈ ccs, ∃ c, c < 256 ∧ cc.lo c = true) :
    ∃ m n, splitCharclasses ccs = .ok (m, n) ∧ Groups ccs m n := by
  have h0 : ∀ {c : Nat}, (tab 256 fun _ => (none : Option Nat)).getD c none = none := by
    intro c
    rcases Nat.lt_or_ge c 256 with h | h
    · exact getD_tab h
    · exact getD_tab_ge h
  have hm0 : mapped (tab 256 fun _ => (none : Option Nat)) = 0 := by
    unfold mapped
    rw [List.length_eq_zero_iff, List.filter_eq_nil_iff]
    intro c _
    rw [h0]; simp
  have hinv : GroupInv ccs (tab 256 fun _ => (none : Option Nat)) 0 :=
    ⟨(fun c _ h => by rw [h0] at h; cases h), (fun c d g _ _ h => by rw [h0] at h; cases h), (fun c g _ h => by rw [h0] at h; cases h),
      (fun g h => by omega), by rw [hm0]; omega⟩
  unfold splitCharclasses
  split
  · rename_i he
    subst he
    exact ⟨_, _, rfl, ⟨hinv, (fun c _ h => by obtain ⟨cc, h, _⟩ := h; cases h), by omega⟩⟩
  · rename_i hccs
    have hce : Clean CharBits.empty := fun i _ h => by rw [up_empty] at h; cases h
    obtain ⟨h1, h2⟩ := union_fold ccs .empty hcl hce
    refine groupLoop_spec hcl _ _ _ _ h1 ?_ hinv ?_ (by omega)
    · intro c hc
      rw [h2 c hc, lo_empty, h0]
      simp
    · cases ccs with
      | nil => exact absurd rfl hccs
      | cons cc l =>
        obtain ⟨c, hc, hl⟩ := hne cc List.mem_cons_self
        exact ⟨c, hc, (h2 c hc).2 (Or.inr ⟨cc, List.mem_cons_self, hl⟩)⟩

/-- An upper half that is set without bit 31 is never removed. -/
theorem groupLoop_stuck {cc : CharBits} {i : Nat} (hi : i < 8) (hlo : cc.lo (32 * i + 31) = false) :
    ∀ (fuel : Nat) (u : CharBits) (m : List (Option Nat)) (n : Nat), u.up i = true → (∀ c, c < 256 → u.test c = true → cc.test c = true) → 256 < fuel + n → n ≤ 256 →
    groupLoop [cc] fuel u m n = .error .outOfBounds
  | 0, u, m, n, hu, _, hf, hn => by omega
  | fuel + 1, u, m, n, hu, hsub, hf, hn => by
    unfold groupLoop
    cases hlow : u.lowest with
    | none => rfl
    | some first =>
      simp only
      have hfirst : first < 256 := by
        have := List.mem_of_find?_eq_some hlow
        simpa using this
      have hcf := hsub first hfirst (List.find?_some hlow)
      split
      · rfl
      · have hpos : (groupOf [cc] first).test (32 * i + 31) = false := by
          have hx : groupOf [cc] first = (CharBits.all.inter cc).diff .empty := by
            unfold groupOf
            simp only [List.foldl_cons, List.foldl_nil, groupStep, hcf, if_true]
          rw [hx]
          unfold CharBits.test
          rw [show (32 * i + 31) / 32 = i by omega, lo_diff (by omega), lo_inter (by omega), hlo, up_diff hi, up_inter hi, up_all]
          simp
        have hup' : (u.clear (groupOf [cc] first)).up i = true := by
          rw [up_clear hi, hu, hpos]; rfl
        have hany : (u.clear (groupOf [cc] first)).any = true := by
          unfold CharBits.any
          rw [Bool.or_eq_true, bne_iff_ne, bne_iff_ne]
          right
          intro h0
          unfold up at hup'
          rw [h0, Nat.zero_testBit] at hup'
          cases hup'
        rw [if_pos hany]
        refine groupLoop_stuck hi hlo fuel _ _ _ hup' ?_ (by omega) (by omega)
        intro c hc ht
        refine hsub c hc ?_
        unfold CharBits.test at ht ⊢
        rw [lo_clear hc] at ht
        rw [Bool.or_eq_true, Bool.and_eq_true, Bool.and_eq_true] at ht
        rw [Bool.or_eq_true, Bool.and_eq_true]
        rcases ht with ⟨h1, _⟩ | ⟨h1, h2⟩
        · exact Or.inl h1
        · rw [up_clear (by omega), Bool.and_eq_true] at h2
          exact Or.inr ⟨h1, h2.1⟩

theorem split_stuck {cc : CharBits} {i : Nat} (hi : i < 8) (hup : cc.up i = true) (hlo : cc.lo (32 * i + 31) = false) :
    splitCharclasses [cc] = .error .outOfBounds := by
  unfold splitCharclasses
  rw [if_neg (by simp)]
  refine groupLoop_stuck hi hlo _ _ _ _ ?_ ?_ (by omega) (by omega)
  · simp only [List.foldl_cons, List.foldl_nil]
    rw [up_union hi, hup, Bool.or_true]
  · intro c hc ht
    simp only [List.foldl_cons, List.foldl_nil] at ht
    unfold CharBits.test at ht ⊢
    rw [lo_union hc, lo_empty, Bool.false_or, Bool.or_eq_true, Bool.and_eq_true] at ht
    rw [Bool.or_eq_true, Bool.and_eq_true]
    rcases ht with h1 | ⟨h1, h2⟩
    · exact Or.inl h1
    · rw [up_union (by omega), up_empty, Bool.false_or] at h2
      exact Or.inr ⟨h1, h2⟩

end Mairix
