import Verif.Model.Threading
import Verif.Spec.Threads

/-! Union-find of `find_threading`. -/

namespace Mairix
open Spec

theorem Spec.Chain.trans {R : Nat → Nat → Prop} {i j k : Nat} (h1 : Chain R i j) (h2 : Chain R j k) :
    Chain R i k := by
  induction h2 with
  | refl => exact h1
  | step _ hr ih => exact .step ih hr

theorem Spec.Chain.symm {R : Nat → Nat → Prop} (hs : ∀ a b, R a b → R b a) {i j : Nat} (h : Chain R i j) :
    Chain R j i := by
  induction h with
  | refl => exact .refl _
  | step _ hr ih => exact Chain.trans (.step (.refl _) (hs _ _ hr)) ih

/-- `r` is the end of the chain of pointers from `i`. -/
inductive Root (ix : List Nat) : Nat → Nat → Prop
  | base {i} : ix[i]? = some i → Root ix i i
  | step {i j r} : ix[i]? = some j → j < i → Root ix j r → Root ix i r

theorem Root.det {ix : List Nat} {i r r' : Nat} (h : Root ix i r) (h' : Root ix i r') : r = r' := by
  induction h with
  | base h =>
    cases h' with
    | base => rfl
    | step h1 h2 _ => rw [h] at h1; cases h1; omega
  | step h hlt _ ih =>
    cases h' with
    | base h1 => rw [h] at h1; cases h1; omega
    | step h1 _ h3 => rw [h] at h1; cases h1; exact ih h3

theorem Root.isRoot {ix : List Nat} {i r : Nat} (h : Root ix i r) : ix[r]? = some r ∧ r ≤ i := by
  induction h with
  | base h => exact ⟨h, Nat.le_refl _⟩
  | step _ hlt _ ih => exact ⟨ih.1, by omega⟩

/-- Pointers go downwards. -/
def Down (ix : List Nat) : Prop := ∀ (i j : Nat), ix[i]? = some j → j ≤ i

theorem Down.root {ix : List Nat} (hd : Down ix) : ∀ i, i < ix.length → ∃ r, Root ix i r := by
  intro i
  induction i using Nat.strongRecOn with
  | ind i ih =>
    intro hi
    have hle := hd i ix[i] (List.getElem?_eq_getElem hi)
    by_cases he : ix[i] = i
    · exact ⟨i, .base (by rw [List.getElem?_eq_getElem hi, he])⟩
    · obtain ⟨r, hr⟩ := ih ix[i] (by omega) (by omega)
      exact ⟨r, .step (List.getElem?_eq_getElem hi) (by omega) hr⟩

theorem findBase_root {ix : List Nat} {i r : Nat} (h : Root ix i r) : ∀ fuel, i < fuel →
    findBase ix fuel i = .ok r := by
  induction h with
  | base h =>
    intro fuel hf
    obtain ⟨f, rfl⟩ : ∃ f, fuel = f + 1 := ⟨fuel - 1, by omega⟩
    simp [findBase, h]
  | @step i j r h hlt _ ih =>
    intro fuel hf
    obtain ⟨f, rfl⟩ : ∃ f, fuel = f + 1 := ⟨fuel - 1, by omega⟩
    have : j ≠ i := by omega
    simp only [findBase, h, this, if_false]
    exact ih f (by omega)

/-- Hanging root `B` below the smaller root `A`. -/
theorem Root.link {ix : List Nat} {A B : Nat} (hA : ix[A]? = some A) (hB : ix[B]? = some B) (hlt : A < B)
    {i r : Nat} (h : Root ix i r) : Root (ix.set B A) i (if r = B then A else r) := by
  have hBl := (List.getElem?_eq_some_iff.mp hB).1
  have hA' : (ix.set B A)[A]? = some A := by
    rw [List.getElem?_set_ne (by omega)]; exact hA
  induction h with
  | @base i h =>
    split
    · next he =>
      subst he
      exact .step (by rw [List.getElem?_set_self hBl]) hlt (.base hA')
    · next he => exact .base (by rw [List.getElem?_set_ne (Ne.symm he)]; exact h)
  | @step i j r h hji _ ih =>
    have : i ≠ B := by rintro rfl; rw [hB] at h; cases h; omega
    exact .step (by rw [List.getElem?_set_ne (Ne.symm this)]; exact h) hji ih

/-- The invariant of the union-find table, for link relation `R`. -/
structure UF (R : Nat → Nat → Prop) (np : Nat) (ix : List Nat) : Prop where
  len : ix.length = np
  down : Down ix
  sound : ∀ i r, Root ix i r → Chain R i r

def SameRoot (ix : List Nat) (i j : Nat) : Prop := ∃ r, Root ix i r ∧ Root ix j r

theorem UF.link {R : Nat → Nat → Prop} {np : Nat} {ix : List Nat} (h : UF R np ix) {A B : Nat}
    (hA : ix[A]? = some A) (hB : ix[B]? = some B) (hlt : A < B) (hc : Chain R B A) :
    UF R np (ix.set B A) ∧ ∀ i j, SameRoot ix i j → SameRoot (ix.set B A) i j := by
  have hdown : Down (ix.set B A) := by
    intro i j hij
    by_cases he : i = B
    · subst he
      rw [List.getElem?_set_self (List.getElem?_eq_some_iff.mp hB).1] at hij
      cases hij; omega
    · rw [List.getElem?_set_ne (Ne.symm he)] at hij
      exact h.down i j hij
  refine ⟨⟨by simp [h.len], hdown, ?_⟩, ?_⟩
  · intro i r hr
    have hi : i < ix.length := by
      cases hr with
      | base h1 => simpa using (List.getElem?_eq_some_iff.mp h1).1
      | step h1 _ _ => simpa using (List.getElem?_eq_some_iff.mp h1).1
    obtain ⟨r0, hr0⟩ := h.down.root i hi
    have := (hr0.link hA hB hlt).det hr
    rw [← this]
    split
    · next he => subst he; exact Chain.trans (h.sound _ _ hr0) hc
    · exact h.sound _ _ hr0
  · rintro i j ⟨r, h1, h2⟩
    exact ⟨_, h1.link hA hB hlt, h2.link hA hB hlt⟩

theorem mergeLoop_spec {R : Nat → Nat → Prop} (hs : ∀ a b, R a b → R b a) {np : Nat} :
    ∀ (rest : List Nat) (ix : List Nat) (c nb : Nat), UF R np ix → Root ix c nb →
      (∀ x ∈ rest, x < np ∧ Chain R c x) →
      ∃ ix', mergeLoop rest ix nb = .ok ix' ∧ UF R np ix' ∧ (∀ i j, SameRoot ix i j → SameRoot ix' i j) ∧
        ∀ x ∈ rest, SameRoot ix' c x := by
  intro rest
  induction rest with
  | nil => intro ix c nb h _ _; exact ⟨ix, rfl, h, fun _ _ h => h, by simp⟩
  | cons x rest ih =>
    intro ix c nb h hroot hx
    obtain ⟨hxn, hxc⟩ := hx x (by simp)
    obtain ⟨ob, hob⟩ := h.down.root x (by rw [h.len]; exact hxn)
    have hfb := findBase_root hob ix.length (by rw [h.len]; exact hxn)
    have hcn := h.sound _ _ hroot
    have hxo := h.sound _ _ hob
    have hno : Chain R nb ob := Chain.trans (Chain.trans (hcn.symm hs) hxc) hxo
    -- one step
    have step : ∃ ix1 nb1, mergeStep ix nb x = .ok (ix1, nb1) ∧ UF R np ix1 ∧ Root ix1 c nb1 ∧
        SameRoot ix1 c x ∧ ∀ i j, SameRoot ix i j → SameRoot ix1 i j := by
      simp only [mergeStep, hfb, bind, Except.bind]
      split
      · next hlt =>
        obtain ⟨h1, h2⟩ := h.link hob.isRoot.1 hroot.isRoot.1 hlt hno
        have h3 := hroot.link hob.isRoot.1 hroot.isRoot.1 hlt
        have h4 := hob.link hob.isRoot.1 hroot.isRoot.1 hlt
        rw [if_pos rfl] at h3
        rw [if_neg (by omega)] at h4
        exact ⟨_, _, rfl, h1, h3, ⟨_, h3, h4⟩, h2⟩
      · split
        · next hlt =>
          obtain ⟨h1, h2⟩ := h.link hroot.isRoot.1 hob.isRoot.1 hlt (hno.symm hs)
          have h3 := hroot.link hroot.isRoot.1 hob.isRoot.1 hlt
          have h4 := hob.link hroot.isRoot.1 hob.isRoot.1 hlt
          rw [if_pos rfl] at h4
          rw [if_neg (by omega)] at h3
          exact ⟨_, _, rfl, h1, h3, ⟨_, h3, h4⟩, h2⟩
        · have : ob = nb := by omega
          subst this
          exact ⟨_, _, rfl, h, hroot, ⟨_, hroot, hob⟩, fun _ _ h => h⟩
    obtain ⟨ix1, nb1, e1, u1, r1, s1, m1⟩ := step
    obtain ⟨ix2, e2, u2, m2, s2⟩ := ih ix1 c nb1 u1 r1 (fun y hy => hx y (by simp [hy]))
    refine ⟨ix2, ?_, u2, fun i j h => m2 i j (m1 i j h), ?_⟩
    · simp only [mergeLoop, e1, bind, Except.bind]; exact e2
    · intro y hy
      rcases List.mem_cons.mp hy with rfl | hy
      · exact m2 _ _ s1
      · exact s2 y hy

theorem mergeLists_spec {R : Nat → Nat → Prop} (hs : ∀ a b, R a b → R b a) {np : Nat} :
    ∀ (ls : List (List Nat)) (ix : List Nat), UF R np ix →
      (∀ l ∈ ls, ∀ x ∈ l, x < np) → (∀ l ∈ ls, ∀ x ∈ l, ∀ y ∈ l, R x y) →
      ∃ ix', mergeLists ls ix = .ok ix' ∧ UF R np ix' ∧ (∀ i j, SameRoot ix i j → SameRoot ix' i j) ∧
        ∀ l ∈ ls, ∀ x ∈ l, ∀ y ∈ l, SameRoot ix' x y := by
  intro ls
  induction ls with
  | nil => intro ix h _ _; exact ⟨ix, rfl, h, fun _ _ h => h, by simp⟩
  | cons l ls ih =>
    intro ix h hb hR
    have step : ∃ ix1, mergeList ix l = .ok ix1 ∧ UF R np ix1 ∧ (∀ i j, SameRoot ix i j → SameRoot ix1 i j) ∧
        ∀ x ∈ l, ∀ y ∈ l, SameRoot ix1 x y := by
      cases l with
      | nil => exact ⟨ix, rfl, h, fun _ _ h => h, by simp⟩
      | cons c rest =>
        have hcn := hb (c :: rest) (by simp) c (by simp)
        obtain ⟨nb, hnb⟩ := h.down.root c (by rw [h.len]; exact hcn)
        have hfb := findBase_root hnb ix.length (by rw [h.len]; exact hcn)
        obtain ⟨ix1, e1, u1, m1, s1⟩ := mergeLoop_spec hs rest ix c nb h hnb
          (fun x hx => ⟨hb (c :: rest) (by simp) x (by simp [hx]),
            .step (.refl _) (hR (c :: rest) (by simp) c (by simp) x (by simp [hx]))⟩)
        refine ⟨ix1, ?_, u1, m1, ?_⟩
        · simp only [mergeList, hfb, bind, Except.bind]; exact e1
        · have hc : ∀ x ∈ c :: rest, SameRoot ix1 c x := by
            intro x hx
            rcases List.mem_cons.mp hx with rfl | hx
            · exact m1 _ _ ⟨nb, hnb, hnb⟩
            · exact s1 x hx
          intro x hx y hy
          obtain ⟨r, a, b⟩ := hc x hx
          obtain ⟨r', a', b'⟩ := hc y hy
          have := a.det a'
          subst this
          exact ⟨r, b, b'⟩
    obtain ⟨ix1, e1, u1, m1, s1⟩ := step
    obtain ⟨ix2, e2, u2, m2, s2⟩ := ih ix1 u1 (fun l hl => hb l (by simp [hl])) (fun l hl => hR l (by simp [hl]))
    refine ⟨ix2, ?_, u2, fun i j h => m2 i j (m1 i j h), ?_⟩
    · simp only [mergeLists, e1, bind, Except.bind]; exact e2
    · intro l' hl'
      rcases List.mem_cons.mp hl' with rfl | hl'
      · exact fun x hx y hy => m2 _ _ (s1 x hx y hy)
      · exact s2 l' hl'

/-- Making each entry point to its root. -/
theorem flattenIx_spec {ix0 : List Nat} (hd : Down ix0) :
    ∀ k i (ix : List Nat), i + k = ix0.length → ix.length = ix0.length →
      (∀ j r, j < i → Root ix0 j r → ix[j]? = some r) → (∀ j, i ≤ j → ix[j]? = ix0[j]?) →
      ∃ ix', flattenIx k i ix = .ok ix' ∧ ix'.length = ix0.length ∧ ∀ j r, Root ix0 j r → ix'[j]? = some r := by
  intro k
  induction k with
  | zero =>
    intro i ix hik hl hlow _
    refine ⟨ix, rfl, hl, fun j r hr => hlow j r ?_ hr⟩
    have : j < ix0.length := by
      cases hr with
      | base h1 => exact (List.getElem?_eq_some_iff.mp h1).1
      | step h1 _ _ => exact (List.getElem?_eq_some_iff.mp h1).1
    omega
  | succ k ih =>
    intro i ix hik hl hlow hhigh
    have hi : i < ix0.length := by omega
    have hget : ix[i]? = some ix0[i] := by rw [hhigh i (Nat.le_refl _), List.getElem?_eq_getElem hi]
    have hle := hd i ix0[i] (List.getElem?_eq_getElem hi)
    simp only [flattenIx, hget]
    split
    · next hne =>
      obtain ⟨r, hr⟩ := hd.root ix0[i] (by omega)
      have hb := hlow ix0[i] r (by omega) hr
      simp only [hb]
      have hri : Root ix0 i r := .step (List.getElem?_eq_getElem hi) (by omega) hr
      refine ih (i + 1) (ix.set i r) (by omega) (by simp [hl]) ?_ ?_
      · intro j r' hj hr'
        by_cases he : j = i
        · subst he
          rw [List.getElem?_set_self (by omega), hri.det hr']
        · rw [List.getElem?_set_ne (Ne.symm he)]
          exact hlow j r' (by omega) hr'
      · intro j hj
        rw [List.getElem?_set_ne (by omega)]
        exact hhigh j (by omega)
    · next heq =>
      simp only [ne_eq, Decidable.not_not] at heq
      have hri : Root ix0 i i := .base (by rw [List.getElem?_eq_getElem hi, heq])
      refine ih (i + 1) ix (by omega) hl ?_ (fun j hj => hhigh j (by omega))
      intro j r' hj hr'
      by_cases he : j = i
      · subst he
        rw [hget, heq, hri.det hr']
      · exact hlow j r' (by omega) hr'

/-- The number of roots below `n`. -/
def rootsBelow (ix : List Nat) (n : Nat) : Nat := ((List.range n).filter (fun k => ix[k]? = some k)).length

theorem rootsBelow_succ (ix : List Nat) (n : Nat) :
    rootsBelow ix (n + 1) = rootsBelow ix n + (if ix[n]? = some n then 1 else 0) := by
  simp only [rootsBelow, List.range_succ, List.filter_append, List.length_append]
  by_cases h : ix[n]? = some n <;> simp [h]

theorem rootsBelow_mono (ix : List Nat) {a b : Nat} (h : a ≤ b) : rootsBelow ix a ≤ rootsBelow ix b := by
  induction b with
  | zero => have : a = 0 := by omega
            subst this; exact Nat.le_refl _
  | succ b ih =>
    by_cases he : a = b + 1
    · subst he; exact Nat.le_refl _
    · have := ih (by omega)
      rw [rootsBelow_succ]; omega

theorem rootsBelow_le (ix : List Nat) (n : Nat) : rootsBelow ix n ≤ n := by
  induction n with
  | zero => simp [rootsBelow]
  | succ n ih => rw [rootsBelow_succ]; split <;> omega

theorem allocTids_spec {ix : List Nat} (hflat : ∀ (i b : Nat), ix[i]? = some b → b ≤ i ∧ ix[b]? = some b) :
    ∀ k i (tids : List Nat), i + k = ix.length → tids.length = ix.length →
      (∀ (j b : Nat), j < i → ix[j]? = some b → tids[j]? = some (rootsBelow ix b)) →
      ∃ tids', allocTids ix k i (rootsBelow ix i) tids = .ok tids' ∧ tids'.length = ix.length ∧
        ∀ (j b : Nat), ix[j]? = some b → tids'[j]? = some (rootsBelow ix b) := by
  intro k
  induction k with
  | zero =>
    intro i tids hik hl hlow
    refine ⟨tids, rfl, hl, fun j b hb => hlow j b ?_ hb⟩
    have := (List.getElem?_eq_some_iff.mp hb).1
    omega
  | succ k ih =>
    intro i tids hik hl hlow
    have hi : i < ix.length := by omega
    have hget := List.getElem?_eq_getElem hi
    obtain ⟨hle, hroot⟩ := hflat i _ hget
    simp only [allocTids, hget]
    split
    · next he =>
      have hrs : rootsBelow ix i + 1 = rootsBelow ix (i + 1) := by
        rw [rootsBelow_succ, if_pos (by rw [hget, he])]
      rw [hrs]
      refine ih (i + 1) _ (by omega) (by simp [hl]) ?_
      intro j b hj hb
      by_cases hji : j = i
      · subst hji
        rw [List.getElem?_set_self (by omega)]
        rw [hget] at hb; cases hb
        rw [he]
      · rw [List.getElem?_set_ne (Ne.symm hji)]
        exact hlow j b (by omega) hb
    · next he =>
      have htb := hlow ix[i] ix[i] (by omega) hroot
      simp only [htb]
      have hrs : rootsBelow ix i = rootsBelow ix (i + 1) := by
        rw [rootsBelow_succ, if_neg (by rw [hget]; simpa using he)]; rfl
      rw [hrs]
      refine ih (i + 1) _ (by omega) (by simp [hl]) ?_
      intro j b hj hb
      by_cases hji : j = i
      · subst hji
        rw [List.getElem?_set_self (by omega)]
        rw [hget] at hb; cases hb; rfl
      · rw [List.getElem?_set_ne (Ne.symm hji)]
        exact hlow j b (by omega) hb

/-- The result of threading, for lists with numbers below the number of messages. -/
theorem threadLists_spec {R : Nat → Nat → Prop} (hs : ∀ a b, R a b → R b a) (lists : List (List Nat))
    (tids : List Nat) (hb : ∀ l ∈ lists, ∀ x ∈ l, x < tids.length)
    (hR : ∀ x y, R x y ↔ ∃ l ∈ lists, x ∈ l ∧ y ∈ l) :
    ∃ tids', threadLists lists tids = .ok tids' ∧ tids'.length = tids.length ∧
      (∀ (i j ti tj : Nat), tids'[i]? = some ti → tids'[j]? = some tj → (ti = tj ↔ Chain R i j)) ∧
      ∃ first : Nat → Bool, (∀ i, i < tids.length → (first i = true ↔ FirstInThread R i)) ∧
        ∀ (i ti : Nat), tids'[i]? = some ti → first i = true → ti = ((List.range i).filter first).length := by
  have hrange : ∀ (i j : Nat), (List.range tids.length)[i]? = some j → j = i := by
    intro i j h
    rw [List.getElem?_range] at h
    · cases h; rfl
    · have := (List.getElem?_eq_some_iff.mp h).1; simpa using this
  have h0 : UF R tids.length (List.range tids.length) := by
    refine ⟨by simp, fun i j h => by rw [hrange i j h]; exact Nat.le_refl _, ?_⟩
    intro i r h
    cases h with
    | base => exact .refl _
    | step h1 h2 _ => have := hrange _ _ h1; omega
  obtain ⟨ix, e1, u, _, same⟩ := mergeLists_spec hs lists _ h0 hb
    (fun l hl x hx y hy => (hR x y).mpr ⟨l, hl, hx, hy⟩)
  obtain ⟨fx, e2, fl, froot⟩ := flattenIx_spec u.down tids.length 0 ix (by simp [u.len]) rfl (by simp) (by simp)
  have hfx : ∀ (i b : Nat), fx[i]? = some b → Root ix i b := by
    intro i b h
    have hi := (List.getElem?_eq_some_iff.mp h).1
    obtain ⟨r, hr⟩ := u.down.root i (by omega)
    rw [froot i r hr] at h; cases h; exact hr
  have hflat : ∀ (i b : Nat), fx[i]? = some b → b ≤ i ∧ fx[b]? = some b := by
    intro i b h
    have hr := hfx i b h
    exact ⟨hr.isRoot.2, froot b b (.base hr.isRoot.1)⟩
  have hlen : fx.length = tids.length := by rw [fl, u.len]
  obtain ⟨tids', e3, tl, tspec⟩ := allocTids_spec hflat tids.length 0 tids (by omega) hlen.symm (by simp)
  have hsameChain : ∀ i j ri rj, Root ix i ri → Root ix j rj → (ri = rj ↔ Chain R i j) := by
    intro i j ri rj hri hrj
    constructor
    · rintro rfl
      exact Chain.trans (u.sound _ _ hri) ((u.sound _ _ hrj).symm hs)
    · intro hc
      have : ∀ {j}, Chain R i j → i = j ∨ SameRoot ix i j := by
        intro j hc
        induction hc with
        | refl => exact Or.inl rfl
        | @step j k h1 h2 ihc =>
          obtain ⟨l, hl, hj, hk⟩ := (hR j k).mp h2
          obtain ⟨r, a, b⟩ := same l hl j hj k hk
          right
          rcases ihc with rfl | ⟨r', a', b'⟩
          · exact ⟨r, a, b⟩
          · have := b'.det a
            subst this
            exact ⟨r', a', b⟩
      rcases this hc with rfl | ⟨r, a, b⟩
      · exact hri.det hrj
      · rw [hri.det a, hrj.det b]
  have hroots : ∀ {a b : Nat}, fx[a]? = some a → a < b → rootsBelow fx a < rootsBelow fx b := by
    intro a b h1 h2
    have h3 := rootsBelow_mono fx (show a + 1 ≤ b from h2)
    rw [rootsBelow_succ, if_pos h1] at h3
    omega
  have hz : rootsBelow fx 0 = 0 := by simp [rootsBelow]
  rw [hz] at e3
  have hget : ∀ (i t : Nat), tids'[i]? = some t → ∃ b, fx[i]? = some b ∧ t = rootsBelow fx b := by
    intro i t h
    have hi := (List.getElem?_eq_some_iff.mp h).1
    have hb := List.getElem?_eq_getElem (l := fx) (i := i) (by omega)
    refine ⟨_, hb, ?_⟩
    rw [tspec i _ hb] at h
    cases h; rfl
  refine ⟨tids', ?_, by omega, ?_, fun i => fx[i]? = some i, ?_, ?_⟩
  · simp only [threadLists, e1, e2, bind, Except.bind]
    exact e3
  · intro i j ti tj hti htj
    obtain ⟨bi, h1, rfl⟩ := hget i ti hti
    obtain ⟨bj, h2, rfl⟩ := hget j tj htj
    rw [← hsameChain i j bi bj (hfx i bi h1) (hfx j bj h2)]
    constructor
    · intro h
      rcases Nat.lt_trichotomy bi bj with hlt | heq | hlt
      · have := hroots (hflat i bi h1).2 hlt; omega
      · exact heq
      · have := hroots (hflat j bj h2).2 hlt; omega
    · intro h; rw [h]
  · intro i hi
    simp only [decide_eq_true_eq]
    have hb := List.getElem?_eq_getElem (l := fx) (i := i) (by omega)
    have hr := hfx i _ hb
    constructor
    · intro h j hj
      -- `i` is its own root, `j` has the same root
      have hri := hfx i i h
      by_cases hjl : j < ix.length
      · obtain ⟨r, hrj⟩ := u.down.root j hjl
        have := (hsameChain j i r i hrj hri).mpr hj
        subst this
        exact hrj.isRoot.2
      · rw [u.len] at hjl; omega
    · intro h
      have hc := u.sound _ _ hr
      have := h _ (hc.symm hs)
      have h2 := hr.isRoot.2
      rw [hb]
      congr 1
      omega
  · intro i ti hti hfi
    simp only [decide_eq_true_eq] at hfi
    obtain ⟨b, h1, rfl⟩ := hget i ti hti
    rw [hfi] at h1
    cases h1
    rfl

end Mairix
