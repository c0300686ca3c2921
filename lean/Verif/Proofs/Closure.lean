import Verif.Spec.Subset

/-!
# The closure without tokens
-/

namespace Mairix
open Spec

theorem has_union {a b : Bits} (h : a.length = b.length) (i : Nat) : (Bits.union a b).has i = (a.has i || b.has i) := by
  unfold Bits.union Bits.has
  rw [List.getD_eq_getElem?_getD, List.getD_eq_getElem?_getD, List.getD_eq_getElem?_getD, List.getElem?_zipWith]
  by_cases hi : i < a.length
  · rw [List.getElem?_eq_getElem hi, List.getElem?_eq_getElem (by omega)]; rfl
  · rw [List.getElem?_eq_none (by omega), List.getElem?_eq_none (by omega)]; rfl

theorem has_minus {a b : Bits} (h : a.length = b.length) (i : Nat) : (Bits.minus a b).has i = (a.has i && !b.has i) := by
  unfold Bits.minus Bits.has
  rw [List.getD_eq_getElem?_getD, List.getD_eq_getElem?_getD, List.getD_eq_getElem?_getD, List.getElem?_zipWith]
  by_cases hi : i < a.length
  · rw [List.getElem?_eq_getElem hi, List.getElem?_eq_getElem (by omega)]; rfl
  · rw [List.getElem?_eq_none (by omega), List.getElem?_eq_none (by omega)]; rfl

theorem length_union {a b : Bits} (h : a.length = b.length) : (Bits.union a b).length = a.length := by
  unfold Bits.union; simp [h]

theorem length_minus {a b : Bits} (h : a.length = b.length) : (Bits.minus a b).length = a.length := by
  unfold Bits.minus; simp [h]

theorem has_lt {a : Bits} {i : Nat} (h : a.has i = true) : i < a.length := by
  by_cases hi : i < a.length
  · exact hi
  · unfold Bits.has at h
    rw [List.getD_eq_getElem?_getD, List.getElem?_eq_none (by omega)] at h
    cases h

theorem has_set {a : Bits} {i : Nat} (hi : i < a.length) (j : Nat) : Bits.has (a.set i true) j = (decide (i = j) || a.has j) := by
  unfold Bits.has
  rw [List.getD_eq_getElem?_getD, List.getD_eq_getElem?_getD, List.getElem?_set]
  by_cases h : i = j
  · subst h; simp [hi]
  · simp [h]

theorem has_none (n i : Nat) : (Bits.none n).has i = false := by
  unfold Bits.none Bits.has
  rw [List.getD_eq_getElem?_getD, List.getElem?_replicate]
  split <;> rfl

theorem bits_any {a : Bits} : a.any id = true ↔ ∃ i, a.has i = true := by
  rw [List.any_eq_true]
  constructor
  · rintro ⟨x, hx, h⟩
    obtain ⟨i, hi, rfl⟩ := List.getElem_of_mem hx
    refine ⟨i, ?_⟩
    unfold Bits.has
    rw [List.getD_eq_getElem?_getD, List.getElem?_eq_getElem hi]
    exact h
  · rintro ⟨i, h⟩
    have hi := has_lt h
    refine ⟨a[i], List.getElem_mem hi, ?_⟩
    unfold Bits.has at h
    rw [List.getD_eq_getElem?_getD, List.getElem?_eq_getElem hi] at h
    exact h

theorem bits_ext {a b : Bits} (hl : a.length = b.length) (h : ∀ i, a.has i = b.has i) : a = b := by
  apply List.ext_getElem hl
  intro i h1 h2
  have := h i
  unfold Bits.has at this
  rw [List.getD_eq_getElem?_getD, List.getD_eq_getElem?_getD, List.getElem?_eq_getElem h1, List.getElem?_eq_getElem h2] at this
  exact this

/-- A transition without token. -/
def EpsEdge (states : List XState) (s d : Nat) : Prop := ∃ st, states[s]? = some st ∧ .eps d ∈ st.trans

theorem moves_trans {states : List XState} {s d e : Nat} {v w : List Nat} (h : Moves states s v d) (h' : Moves states d w e) :
    Moves states s (v ++ w) e := by
  induction h with
  | stay => exact h'
  | eps h1 h2 _ ih => exact .eps h1 h2 (ih h')
  | token h1 h2 _ ih => exact .token h1 h2 (ih h')

theorem moves_edge {states : List XState} {s d : Nat} (h : EpsEdge states s d) : Moves states s [] d := by
  obtain ⟨st, h1, h2⟩ := h
  exact .eps h1 h2 .stay

/-- What holds of the rows all the time. -/
structure RowsInv (states : List XState) (n : Nat) (rows : List Bits) : Prop where
  len : rows.length = n
  each : ∀ x, x < n → (rows.getD x []).length = n
  refl : ∀ x, x < n → (rows.getD x []).has x = true
  edge : ∀ x y, x < n → EpsEdge states x y → (rows.getD x []).has y = true
  sound : ∀ x y, x < n → (rows.getD x []).has y = true → Moves states x [] y

/-- What holds while row `src` is closed, with the rows `rem` yet to be merged. -/
structure CloseInv (states : List XState) (n src : Nat) (rem : List Nat) (c : Closing) : Prop where
  rows : RowsInv states n c.rows
  todo : c.todo.length = n
  sub : ∀ x, c.todo.has x = true → (c.rows.getD src []).has x = true
  remSub : ∀ x ∈ rem, (c.rows.getD src []).has x = true
  done : ∀ x, (c.rows.getD src []).has x = true → c.todo.has x = false → x ∉ rem → ∀ y, (c.rows.getD x []).has y = true →
    (c.rows.getD src []).has y = true

theorem getD_set_eq {α : Type} {l : List α} {i : Nat} (hi : i < l.length) (x d : α) : (l.set i x).getD i d = x := by
  rw [List.getD_eq_getElem?_getD, List.getElem?_set_self hi]; rfl

theorem getD_set_ne {α : Type} {l : List α} {i j : Nat} (h : i ≠ j) (x d : α) : (l.set i x).getD j d = l.getD j d := by
  rw [List.getD_eq_getElem?_getD, List.getD_eq_getElem?_getD, List.getElem?_set_ne h]

theorem mergeRow_inv {states : List XState} {n src idx : Nat} {rem : List Nat} {c : Closing} (hs : src < n)
    (h : CloseInv states n src (idx :: rem) c) :
    CloseInv states n src rem (mergeRow src c idx) ∧ (∀ x, x ≠ src → (mergeRow src c idx).rows.getD x [] = c.rows.getD x []) := by
  have hidx : (c.rows.getD src []).has idx = true := h.remSub idx List.mem_cons_self
  have hl := h.rows.each src hs
  have hin : idx < n := by have := has_lt hidx; omega
  have hli := h.rows.each idx hin
  have hlm : (Bits.minus (c.rows.getD idx []) (c.rows.getD src [])).length = n := by rw [length_minus (by omega)]; exact hli
  have hrow : (mergeRow src c idx).rows.getD src [] = Bits.union (c.rows.getD src []) (c.rows.getD idx []) := by
    unfold mergeRow; exact getD_set_eq (by rw [h.rows.len]; exact hs) _ _
  have hrow' : ∀ x, x ≠ src → (mergeRow src c idx).rows.getD x [] = c.rows.getD x [] := by
    intro x hx; unfold mergeRow; exact getD_set_ne (Ne.symm hx) _ _
  have hhas : ∀ y, ((mergeRow src c idx).rows.getD src []).has y = ((c.rows.getD src []).has y || (c.rows.getD idx []).has y) := by
    intro y; rw [hrow, has_union (by omega)]
  have htodo : ∀ y, (mergeRow src c idx).todo.has y = (c.todo.has y || ((c.rows.getD idx []).has y && !(c.rows.getD src []).has y)) := by
    intro y
    unfold mergeRow
    simp only
    rw [has_union (by rw [h.todo, hlm]), has_minus (by omega)]
  have hmono : ∀ y, (c.rows.getD src []).has y = true → ((mergeRow src c idx).rows.getD src []).has y = true := by
    intro y hy; rw [hhas, hy]; rfl
  refine ⟨⟨⟨?_, ?_, ?_, ?_, ?_⟩, ?_, ?_, ?_, ?_⟩, hrow'⟩
  · unfold mergeRow; simp [h.rows.len]
  · intro x hx
    by_cases hxs : x = src
    · subst hxs; rw [hrow, length_union (by omega)]; exact hl
    · rw [hrow' x hxs]; exact h.rows.each x hx
  · intro x hx
    by_cases hxs : x = src
    · subst hxs; exact hmono _ (h.rows.refl _ hx)
    · rw [hrow' x hxs]; exact h.rows.refl x hx
  · intro x y hx he
    by_cases hxs : x = src
    · subst hxs; exact hmono _ (h.rows.edge _ _ hx he)
    · rw [hrow' x hxs]; exact h.rows.edge x y hx he
  · intro x y hx hy
    by_cases hxs : x = src
    · subst hxs
      rw [hhas, Bool.or_eq_true] at hy
      rcases hy with hy | hy
      · exact h.rows.sound _ _ hx hy
      · exact moves_trans (h.rows.sound _ _ hx hidx) (h.rows.sound _ _ hin hy)
    · rw [hrow' x hxs] at hy; exact h.rows.sound x y hx hy
  · unfold mergeRow
    simp only
    rw [length_union (by rw [h.todo, hlm]), h.todo]
  · intro x hx
    rw [htodo, Bool.or_eq_true, Bool.and_eq_true] at hx
    rcases hx with hx | ⟨hx, _⟩
    · exact hmono _ (h.sub x hx)
    · rw [hhas, hx]; simp
  · intro x hx
    exact hmono _ (h.remSub x (List.mem_cons_of_mem _ hx))
  · intro x hx ht hr y hy
    by_cases hxs : x = src
    · subst hxs; exact hy
    · rw [hrow' x hxs] at hy
      rw [htodo, Bool.or_eq_false_iff] at ht
      rw [hhas] at hx
      have hxo : (c.rows.getD src []).has x = true := by
        cases hc : (c.rows.getD src []).has x with
        | true => rfl
        | false =>
          rw [hc] at hx ht
          simp only [Bool.false_or] at hx
          rw [hx] at ht
          simp at ht
      by_cases hxi : x = idx
      · subst hxi; rw [hhas, hy]; simp
      · exact hmono _ (h.done x hxo ht.1 (by simp [hxi, hr]) y hy)

theorem mergeRow_changed {states : List XState} {n src idx : Nat} {rem : List Nat} {c : Closing} (hs : src < n)
    (h : CloseInv states n src (idx :: rem) c) (hc : (mergeRow src c idx).changed = false) :
    c.changed = false ∧ ∀ y, (mergeRow src c idx).todo.has y = c.todo.has y := by
  have hidx : (c.rows.getD src []).has idx = true := h.remSub idx List.mem_cons_self
  have hl := h.rows.each src hs
  have hin : idx < n := by have := has_lt hidx; omega
  have hli := h.rows.each idx hin
  unfold mergeRow at hc
  simp only [Bool.or_eq_false_iff] at hc
  refine ⟨hc.1, ?_⟩
  intro y
  unfold mergeRow
  simp only
  rw [has_union (by rw [h.todo, length_minus (by omega)]; omega)]
  have : (Bits.minus (c.rows.getD idx []) (c.rows.getD src [])).has y = false := by
    cases hb : (Bits.minus (c.rows.getD idx []) (c.rows.getD src [])).has y with
    | false => rfl
    | true => rw [bits_any.2 ⟨y, hb⟩] at hc; exact absurd hc.2 (by simp)
  rw [this]; simp

theorem mergeRows_inv {states : List XState} {n src : Nat} (hs : src < n) : ∀ (l : List Nat) (c : Closing), CloseInv states n src l c →
    CloseInv states n src [] (l.foldl (mergeRow src) c) ∧ (∀ x, x ≠ src → (l.foldl (mergeRow src) c).rows.getD x [] = c.rows.getD x []) ∧
    ((l.foldl (mergeRow src) c).changed = false → c.changed = false ∧ ∀ y, (l.foldl (mergeRow src) c).todo.has y = c.todo.has y)
  | [], c, h => ⟨h, fun _ _ => rfl, fun hc => ⟨hc, fun _ => rfl⟩⟩
  | i :: l, c, h => by
    obtain ⟨h1, h2⟩ := mergeRow_inv hs h
    obtain ⟨i1, i2, i3⟩ := mergeRows_inv hs l _ h1
    refine ⟨i1, fun x hx => by rw [List.foldl_cons, i2 x hx, h2 x hx], ?_⟩
    intro hc
    obtain ⟨j1, j2⟩ := i3 hc
    obtain ⟨k1, k2⟩ := mergeRow_changed hs h j1
    exact ⟨k1, fun y => by rw [List.foldl_cons, j2, k2]⟩

theorem has_clearWord (b : Bits) (w i : Nat) :
    Bits.has (b.zipIdx.map fun (x : Bool × Nat) => if x.2 / 32 = w then false else x.1) i = if i / 32 = w then false else b.has i := by
  unfold Bits.has
  rw [List.getD_eq_getElem?_getD, List.getD_eq_getElem?_getD, List.getElem?_map, List.getElem?_zipIdx]
  cases h : b[i]? with
  | none => simp
  | some x => simp

theorem closeWord_mid {states : List XState} {n src : Nat} {c : Closing} (w : Nat) (h : CloseInv states n src [] c) :
    CloseInv states n src ((List.range' (w * 32) 32).filter fun i => c.todo.has i)
      { c with todo := c.todo.zipIdx.map fun (x : Bool × Nat) => if x.2 / 32 = w then false else x.1 } := by
  refine ⟨h.rows, by simp [h.todo], ?_, ?_, ?_⟩
  · intro x hx
    rw [has_clearWord] at hx
    split at hx
    · cases hx
    · exact h.sub x hx
  · intro x hx
    exact h.sub x (List.mem_filter.1 hx).2
  · intro x hx ht hr y hy
    refine h.done x hx ?_ (by simp) y hy
    rw [has_clearWord] at ht
    split at ht
    · rename_i hw
      cases hb : c.todo.has x with
      | false => rfl
      | true =>
        refine absurd (List.mem_filter.2 ⟨?_, hb⟩) hr
        rw [List.mem_range'_1]
        omega
    · exact ht

theorem closeWord_inv {states : List XState} {n src : Nat} (hs : src < n) {c : Closing} (w : Nat) (h : CloseInv states n src [] c) :
    CloseInv states n src [] (closeWord src c w) ∧ (∀ x, x ≠ src → (closeWord src c w).rows.getD x [] = c.rows.getD x []) ∧
    ((closeWord src c w).changed = false → c.changed = false ∧
      ∀ y, (closeWord src c w).todo.has y = if y / 32 = w then false else c.todo.has y) := by
  obtain ⟨h1, h2, h3⟩ := mergeRows_inv hs _ _ (closeWord_mid w h)
  refine ⟨h1, h2, ?_⟩
  intro hc
  obtain ⟨h4, h5⟩ := h3 hc
  refine ⟨h4, fun y => ?_⟩
  unfold closeWord
  rw [h5, has_clearWord]

theorem closeWords_inv {states : List XState} {n src : Nat} (hs : src < n) : ∀ (l : List Nat) (c : Closing), CloseInv states n src [] c →
    CloseInv states n src [] (l.foldl (closeWord src) c) ∧ (∀ x, x ≠ src → (l.foldl (closeWord src) c).rows.getD x [] = c.rows.getD x []) ∧
    ((l.foldl (closeWord src) c).changed = false → c.changed = false ∧
      ∀ y, (l.foldl (closeWord src) c).todo.has y = if y / 32 ∈ l then false else c.todo.has y)
  | [], c, h => ⟨h, fun _ _ => rfl, fun hc => ⟨hc, fun y => by simp⟩⟩
  | w :: l, c, h => by
    obtain ⟨h1, h2, h3⟩ := closeWord_inv hs w h
    obtain ⟨i1, i2, i3⟩ := closeWords_inv hs l _ h1
    refine ⟨i1, fun x hx => by rw [List.foldl_cons, i2 x hx, h2 x hx], ?_⟩
    intro hc
    obtain ⟨j1, j2⟩ := i3 hc
    obtain ⟨k1, k2⟩ := h3 j1
    refine ⟨k1, fun y => ?_⟩
    rw [List.foldl_cons, j2, k2]
    by_cases h1 : y / 32 ∈ l
    · simp [h1]
    · by_cases h2 : y / 32 = w
      · simp [h2]
      · simp [h1, h2]

/-- When a turn changes nothing, the row is complete. -/
theorem closeTurn_spec {states : List XState} {n src : Nat} (hs : src < n) {c : Closing} (h : CloseInv states n src [] c) :
    CloseInv states n src [] (closeTurn n src c) ∧ (∀ x, x ≠ src → (closeTurn n src c).rows.getD x [] = c.rows.getD x []) ∧
    ((closeTurn n src c).changed = false → ∀ y, Moves states src [] y → y < n → ((closeTurn n src c).rows.getD src []).has y = true) := by
  have h0 : CloseInv states n src [] { c with changed := false } := ⟨h.rows, h.todo, h.sub, h.remSub, h.done⟩
  obtain ⟨h1, h2, h3⟩ := closeWords_inv hs (List.range ((n + 31) / 32)) _ h0
  have h1 : CloseInv states n src [] (closeTurn n src c) := h1
  refine ⟨h1, h2, ?_⟩
  intro hc
  obtain ⟨_, h4⟩ := h3 hc
  have hempty : ∀ y, (closeTurn n src c).todo.has y = false := by
    intro y
    unfold closeTurn
    rw [h4]
    split
    · rfl
    · rename_i hy
      cases hb : c.todo.has y with
      | false => rfl
      | true =>
        have := has_lt hb
        rw [h.todo] at this
        exact absurd (List.mem_range.2 (by omega)) hy
  have hclosed : ∀ x y, Moves states x [] y → ((closeTurn n src c).rows.getD src []).has x = true →
      ((closeTurn n src c).rows.getD src []).has y = true := by
    intro x y hm
    generalize hw : ([] : List Nat) = w at hm
    induction hm with
    | stay => exact id
    | @eps s st d w e g1 g2 _ ih =>
      intro hx
      apply ih hw
      have hxn := has_lt hx
      rw [h1.rows.each src hs] at hxn
      exact h1.done s hx (hempty s) (by simp) d (h1.rows.edge s d hxn ⟨st, g1, g2⟩)
    | token _ _ _ _ => cases hw
  intro y hy _
  exact hclosed src y hy (h1.rows.refl src hs)

theorem count_union : ∀ (a b : Bits), a.length = b.length → a.count true ≤ (Bits.union a b).count true ∧
    ((∃ y, b.has y = true ∧ a.has y = false) → a.count true < (Bits.union a b).count true)
  | [], [], _ => by
    refine ⟨Nat.le_refl _, ?_⟩
    rintro ⟨y, hy, _⟩
    simp [Bits.has] at hy
  | x :: a, z :: b, h => by
    simp only [List.length_cons, Nat.add_right_cancel_iff] at h
    obtain ⟨i1, i2⟩ := count_union a b h
    have hu : Bits.union (x :: a) (z :: b) = (x || z) :: Bits.union a b := rfl
    rw [hu, List.count_cons, List.count_cons]
    constructor
    · cases x <;> cases z <;> simp <;> omega
    · rintro ⟨y, h1, h2⟩
      cases y with
      | zero =>
        have hz : z = true := h1
        have hx : x = false := h2
        subst hz hx
        simp
        omega
      | succ y =>
        have := i2 ⟨y, h1, h2⟩
        cases x <;> cases z <;> simp <;> omega
  | [], _ :: _, h => by simp at h
  | _ :: _, [], h => by simp at h

theorem mergeRow_count {states : List XState} {n src idx : Nat} {rem : List Nat} {c : Closing} (hs : src < n)
    (h : CloseInv states n src (idx :: rem) c) :
    (c.rows.getD src []).count true ≤ ((mergeRow src c idx).rows.getD src []).count true ∧
    ((mergeRow src c idx).changed = true → c.changed = true ∨
      (c.rows.getD src []).count true < ((mergeRow src c idx).rows.getD src []).count true) := by
  have hidx : (c.rows.getD src []).has idx = true := h.remSub idx List.mem_cons_self
  have hl := h.rows.each src hs
  have hin : idx < n := by have := has_lt hidx; omega
  have hli := h.rows.each idx hin
  have hrow : (mergeRow src c idx).rows.getD src [] = Bits.union (c.rows.getD src []) (c.rows.getD idx []) := by
    unfold mergeRow; exact getD_set_eq (by rw [h.rows.len]; exact hs) _ _
  obtain ⟨c1, c2⟩ := count_union (c.rows.getD src []) (c.rows.getD idx []) (by omega)
  rw [hrow]
  refine ⟨c1, ?_⟩
  intro hc
  unfold mergeRow at hc
  simp only [Bool.or_eq_true] at hc
  rcases hc with hc | hc
  · exact Or.inl hc
  · right
    apply c2
    obtain ⟨y, hy⟩ := bits_any.1 hc
    rw [has_minus (by omega)] at hy
    simp only [Bool.and_eq_true, Bool.not_eq_true'] at hy
    exact ⟨y, hy⟩

theorem mergeRows_count {states : List XState} {n src : Nat} (hs : src < n) : ∀ (l : List Nat) (c : Closing), CloseInv states n src l c →
    (c.rows.getD src []).count true ≤ ((l.foldl (mergeRow src) c).rows.getD src []).count true ∧
    ((l.foldl (mergeRow src) c).changed = true → c.changed = true ∨
      (c.rows.getD src []).count true < ((l.foldl (mergeRow src) c).rows.getD src []).count true)
  | [], c, _ => ⟨Nat.le_refl _, Or.inl⟩
  | i :: l, c, h => by
    obtain ⟨h1, _⟩ := mergeRow_inv hs h
    obtain ⟨h2, h3⟩ := mergeRow_count hs h
    obtain ⟨i1, i2⟩ := mergeRows_count hs l _ h1
    rw [List.foldl_cons]
    refine ⟨by omega, ?_⟩
    intro hc
    rcases i2 hc with h4 | h4
    · rcases h3 h4 with h5 | h5
      · exact Or.inl h5
      · right; omega
    · right; omega

theorem closeWord_count {states : List XState} {n src : Nat} (hs : src < n) {c : Closing} (w : Nat) (h : CloseInv states n src [] c) :
    (c.rows.getD src []).count true ≤ ((closeWord src c w).rows.getD src []).count true ∧
    ((closeWord src c w).changed = true → c.changed = true ∨
      (c.rows.getD src []).count true < ((closeWord src c w).rows.getD src []).count true) :=
  mergeRows_count hs _ _ (closeWord_mid w h)

theorem closeWords_count {states : List XState} {n src : Nat} (hs : src < n) : ∀ (l : List Nat) (c : Closing), CloseInv states n src [] c →
    (c.rows.getD src []).count true ≤ ((l.foldl (closeWord src) c).rows.getD src []).count true ∧
    ((l.foldl (closeWord src) c).changed = true → c.changed = true ∨
      (c.rows.getD src []).count true < ((l.foldl (closeWord src) c).rows.getD src []).count true)
  | [], c, _ => ⟨Nat.le_refl _, Or.inl⟩
  | w :: l, c, h => by
    obtain ⟨h1, _⟩ := closeWord_inv hs w h
    obtain ⟨h2, h3⟩ := closeWord_count hs w h
    obtain ⟨i1, i2⟩ := closeWords_count hs l _ h1
    rw [List.foldl_cons]
    refine ⟨by omega, ?_⟩
    intro hc
    rcases i2 hc with h4 | h4
    · rcases h3 h4 with h5 | h5
      · exact Or.inl h5
      · right; omega
    · right; omega

theorem closeLoop_spec {states : List XState} {n src : Nat} (hs : src < n) : ∀ (fuel : Nat) (c : Closing), CloseInv states n src [] c →
    n < fuel + (c.rows.getD src []).count true →
    ∃ rows, closeLoop n src fuel c = .ok rows ∧ RowsInv states n rows ∧ (∀ x, x ≠ src → rows.getD x [] = c.rows.getD x []) ∧
      ∀ y, y < n → Moves states src [] y → (rows.getD src []).has y = true
  | 0, c, h, hf => by
    have := List.count_le_length (a := true) (l := c.rows.getD src [])
    rw [h.rows.each src hs] at this
    omega
  | fuel + 1, c, h, hf => by
    obtain ⟨h1, h2, h3⟩ := closeTurn_spec hs h
    have h0 : CloseInv states n src [] { c with changed := false } := ⟨h.rows, h.todo, h.sub, h.remSub, h.done⟩
    obtain ⟨_, h4⟩ := closeWords_count hs (List.range ((n + 31) / 32)) _ h0
    unfold closeLoop
    simp only
    cases hc : (closeTurn n src c).changed with
    | false => exact ⟨_, rfl, h1.rows, h2, fun y hy hm => h3 hc y hm hy⟩
    | true =>
      rcases h4 hc with h5 | h5
      · cases h5
      · obtain ⟨rows, e, i1, i2, i3⟩ := closeLoop_spec hs fuel (closeTurn n src c) h1 (by unfold closeTurn; simp only at h5; omega)
        exact ⟨rows, e, i1, fun x hx => by rw [i2 x hx, h2 x hx], i3⟩

theorem closeRows_spec {states : List XState} {n : Nat} : ∀ (l : List Nat) (rows : List Bits), (∀ x ∈ l, x < n) → RowsInv states n rows →
    ∃ rows', closeRows n l rows = .ok rows' ∧ RowsInv states n rows' ∧
      ∀ x, x < n → (x ∈ l ∨ ∀ y, y < n → Moves states x [] y → (rows.getD x []).has y = true) →
        ∀ y, y < n → Moves states x [] y → (rows'.getD x []).has y = true
  | [], rows, _, h => by
    refine ⟨rows, rfl, h, ?_⟩
    rintro x hx (h1 | h1)
    · cases h1
    · exact h1
  | src :: l, rows, hl, h => by
    have hs := hl src List.mem_cons_self
    have h0 : CloseInv states n src [] ⟨rows, rows.getD src [], true⟩ := by
      refine ⟨h, h.each src hs, fun x hx => hx, (fun x hx => by cases hx), ?_⟩
      intro x hx ht
      simp only at hx ht
      rw [hx] at ht
      cases ht
    obtain ⟨rows1, e1, h1, h2, h3⟩ := closeLoop_spec hs (n + 2) _ h0 (by omega)
    obtain ⟨rows', e2, i1, i2⟩ := closeRows_spec l rows1 (fun x hx => hl x (List.mem_cons_of_mem _ hx)) h1
    refine ⟨rows', ?_, i1, ?_⟩
    · unfold closeRows
      rw [e1]
      exact e2
    · intro x hx hor
      apply i2 x hx
      by_cases hxs : x = src
      · subst hxs; exact Or.inr h3
      · rcases hor with hm | hm
        · rcases List.mem_cons.1 hm with rfl | hm
          · exact absurd rfl hxs
          · exact Or.inl hm
        · right
          intro y hy hmv
          rw [h2 x hxs]
          exact hm y hy hmv

theorem length_firstRow (n i : Nat) (s : XState) : (firstRow n i s).length = n := by
  unfold firstRow
  have : ∀ (l : List XTrans) (row : Bits), (l.foldl epsStep row).length = row.length := by
    intro l
    induction l with
    | nil => intro row; rfl
    | cons t l ih =>
      intro row
      rw [List.foldl_cons, ih]
      cases t <;> simp [epsStep]
  rw [this]
  simp [Bits.none]

theorem has_firstRow {n i : Nat} (hi : i < n) {s : XState} (hd : ∀ d, .eps d ∈ s.trans → d < n) (y : Nat) :
    (firstRow n i s).has y = true ↔ y = i ∨ .eps y ∈ s.trans := by
  unfold firstRow
  have : ∀ (l : List XTrans) (row : Bits), row.length = n → (∀ d, .eps d ∈ l → d < n) →
      (Bits.has (l.foldl epsStep row) y = true ↔ row.has y = true ∨ .eps y ∈ l) := by
    intro l
    induction l with
    | nil => intro row _ _; simp
    | cons t l ih =>
      intro row hr hl
      rw [List.foldl_cons]
      cases t with
      | eps d =>
        have he : epsStep row (.eps d) = row.set d true := rfl
        rw [he, ih _ (by simp [hr]) (fun d hd => hl d (List.mem_cons_of_mem _ hd)), has_set (by rw [hr]; exact hl d List.mem_cons_self)]
        simp only [Bool.or_eq_true, decide_eq_true_eq, List.mem_cons, XTrans.eps.injEq]
        constructor
        · rintro ((rfl | h) | h)
          · exact Or.inr (Or.inl rfl)
          · exact Or.inl h
          · exact Or.inr (Or.inr h)
        · rintro (h | rfl | h)
          · exact Or.inl (Or.inr h)
          · exact Or.inl (Or.inl rfl)
          · exact Or.inr h
      | token t d =>
        have he : epsStep row (.token t d) = row := rfl
        rw [he, ih _ hr (fun d hd => hl d (List.mem_cons_of_mem _ hd))]
        simp
  rw [this _ _ (by simp [Bits.none]) hd, has_set (by simp [Bits.none]; exact hi), has_none]
  simp [eq_comm]

/-- The closure holds exactly what can be reached without a token. -/
theorem generateEclo_spec {states : List XState} (hd : ∀ s ∈ states, ∀ d, .eps d ∈ s.trans → d < states.length) :
    ∃ eclo, generateEclo states = .ok eclo ∧ (∀ x, x < states.length → (eclo.getD x []).length = states.length) ∧
      ∀ x, x < states.length → ∀ y, (eclo.getD x []).has y = true ↔ Moves states x [] y := by
  have hrow : ∀ x (hx : x < states.length), (states.zipIdx.map fun (s : XState × Nat) => firstRow states.length s.2 s.1).getD x [] =
      firstRow states.length x states[x] := by
    intro x hx
    rw [List.getD_eq_getElem?_getD, List.getElem?_map, List.getElem?_zipIdx, List.getElem?_eq_getElem hx]
    simp
  have h0 : RowsInv states states.length (states.zipIdx.map fun (s : XState × Nat) => firstRow states.length s.2 s.1) := by
    refine ⟨by simp, ?_, ?_, ?_, ?_⟩
    · intro x hx; rw [hrow x hx, length_firstRow]
    · intro x hx; rw [hrow x hx]; exact (has_firstRow hx (hd _ (List.getElem_mem hx)) x).2 (Or.inl rfl)
    · intro x y hx ⟨st, h1, h2⟩
      rw [List.getElem?_eq_getElem hx] at h1
      cases h1
      rw [hrow x hx]
      exact (has_firstRow hx (hd _ (List.getElem_mem hx)) y).2 (Or.inr h2)
    · intro x y hx hy
      rw [hrow x hx] at hy
      rcases (has_firstRow hx (hd _ (List.getElem_mem hx)) y).1 hy with rfl | h
      · exact .stay
      · exact moves_edge ⟨_, List.getElem?_eq_getElem hx, h⟩
  obtain ⟨eclo, e, h1, h2⟩ := closeRows_spec (List.range states.length) _ (by intro x hx; exact List.mem_range.1 hx) h0
  refine ⟨eclo, e, h1.each, ?_⟩
  intro x hx y
  constructor
  · exact h1.sound x y hx
  · intro hm
    refine h2 x hx (Or.inl (List.mem_range.2 hx)) y ?_ hm
    have : ∀ {x w y}, Moves states x w y → x < states.length → y < states.length ∨ w ≠ [] := by
      intro x w y hm
      induction hm with
      | stay => exact Or.inl
      | eps g1 g2 _ ih => intro _; exact ih (hd _ (List.mem_of_getElem? g1) _ g2)
      | token _ _ _ _ => intro _; right; simp
    rcases this hm hx with h | h
    · exact h
    · exact absurd rfl h

end Mairix
