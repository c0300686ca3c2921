import Verif.Proofs.Closure
import Verif.Spec.Update

/-!
# The construction of the deterministic automaton
-/

namespace Mairix
open Spec

/-! ## Sets of states -/

theorem moves_snoc {states : List XState} {s y : Nat} {w : List Nat} {t : Nat} :
    Moves states s (w ++ [t]) y ↔ ∃ m st d, Moves states s w m ∧ states[m]? = some st ∧ .token t d ∈ st.trans ∧ Moves states d [] y := by
  constructor
  · intro h
    generalize hv : w ++ [t] = v at h
    induction h generalizing w with
    | stay => simp at hv
    | eps h1 h2 _ ih =>
      obtain ⟨m, st, d, g1, g2⟩ := ih hv
      exact ⟨m, st, d, .eps h1 h2 g1, g2⟩
    | @token s st t' d w' e h1 h2 h3 ih =>
      cases w with
      | nil =>
        simp only [List.nil_append, List.cons.injEq] at hv
        obtain ⟨rfl, rfl⟩ := hv
        exact ⟨s, st, d, .stay, h1, h2, h3⟩
      | cons x w =>
        simp only [List.cons_append, List.cons.injEq] at hv
        obtain ⟨rfl, hv⟩ := hv
        obtain ⟨m, st', d', g1, g2⟩ := ih hv
        exact ⟨m, st', d', .token h1 h2 g1, g2⟩
  · rintro ⟨m, st, d, h1, h2, h3, h4⟩
    exact moves_trans h1 (.token h2 h3 h4)

theorem foldl_tokStep_length {eclo : List Bits} {n : Nat} (he : ∀ x, x < n → (eclo.getD x []).length = n) (t : Nat) : ∀ (l : List XTrans) (row : Bits),
    row.length = n → (∀ t d, .token t d ∈ l → d < n) → (l.foldl (tokStep eclo t) row).length = n
  | [], row, h, _ => h
  | x :: l, row, h, hd => by
    rw [List.foldl_cons]
    apply foldl_tokStep_length he t l _ _ fun t d hm => hd t d (List.mem_cons_of_mem _ hm)
    cases x with
    | eps d => exact h
    | token t' d =>
      have e : tokStep eclo t row (.token t' d) = if t' = t then Bits.union row (eclo.getD d []) else row := rfl
      rw [e]
      split
      · rw [length_union (by rw [h, he d (hd t' d List.mem_cons_self)]), h]
      · exact h

theorem foldl_tokStep_has {eclo : List Bits} {n : Nat} (he : ∀ x, x < n → (eclo.getD x []).length = n) (t y : Nat) : ∀ (l : List XTrans) (row : Bits),
    row.length = n → (∀ t d, .token t d ∈ l → d < n) →
    (Bits.has (l.foldl (tokStep eclo t) row) y = true ↔ row.has y = true ∨ ∃ d, .token t d ∈ l ∧ (eclo.getD d []).has y = true)
  | [], row, _, _ => by simp
  | x :: l, row, h, hd => by
    rw [List.foldl_cons]
    have hd' : ∀ t d, .token t d ∈ l → d < n := fun t d hm => hd t d (List.mem_cons_of_mem _ hm)
    cases x with
    | eps d =>
      have e : tokStep eclo t row (.eps d) = row := rfl
      rw [e, foldl_tokStep_has he t y l row h hd']
      simp
    | token t' d =>
      have hl := he d (hd t' d List.mem_cons_self)
      have e : tokStep eclo t row (.token t' d) = if t' = t then Bits.union row (eclo.getD d []) else row := rfl
      rw [e]
      by_cases ht : t' = t
      · subst ht
        rw [if_pos rfl, foldl_tokStep_has he t' y l _ (by rw [length_union (by omega)]; exact h) hd', has_union (by omega), Bool.or_eq_true]
        constructor
        · rintro ((h1 | h1) | ⟨d', h1, h2⟩)
          · exact Or.inl h1
          · exact Or.inr ⟨d, List.mem_cons_self, h1⟩
          · exact Or.inr ⟨d', List.mem_cons_of_mem _ h1, h2⟩
        · rintro (h1 | ⟨d', h1, h2⟩)
          · exact Or.inl (Or.inl h1)
          · rcases List.mem_cons.1 h1 with h1 | h1
            · cases h1; exact Or.inl (Or.inr h2)
            · exact Or.inr ⟨d', h1, h2⟩
      · rw [if_neg ht, foldl_tokStep_has he t y l row h hd']
        constructor
        · rintro (h1 | ⟨d', h1, h2⟩)
          · exact Or.inl h1
          · exact Or.inr ⟨d', List.mem_cons_of_mem _ h1, h2⟩
        · rintro (h1 | ⟨d', h1, h2⟩)
          · exact Or.inl h1
          · rcases List.mem_cons.1 h1 with h1 | h1
            · cases h1; exact absurd rfl ht
            · exact Or.inr ⟨d', h1, h2⟩

/-- The destinations are states. -/
structure InRange (a : Auto) : Prop where
  eps : ∀ s ∈ a.states, ∀ d, .eps d ∈ s.trans → d < a.states.length
  token : ∀ s ∈ a.states, ∀ t d, .token t d ∈ s.trans → t < a.nt ∧ d < a.states.length

theorem inRange_iff {a : Auto} {entries : List Nat} : a.inRange entries = true ↔ InRange a ∧ ∀ e ∈ entries, e < a.states.length := by
  unfold Auto.inRange
  rw [Bool.and_eq_true, List.all_eq_true, List.all_eq_true]
  constructor
  · rintro ⟨h1, h2⟩
    refine ⟨⟨?_, ?_⟩, ?_⟩
    · intro s hs d hd
      have := List.all_eq_true.1 (h1 s hs) _ hd
      simpa using this
    · intro s hs t d hd
      have := List.all_eq_true.1 (h1 s hs) _ hd
      simpa using this
    · intro e he; simpa using h2 e he
  · rintro ⟨⟨h1, h2⟩, h3⟩
    refine ⟨?_, fun e he => by simpa using h3 e he⟩
    intro s hs
    rw [List.all_eq_true]
    intro t ht
    cases t with
    | eps d => simpa using h1 s hs d ht
    | token t d => simpa using h2 s hs t d ht

/-- What is known of the closure. -/
structure EcloOk (a : Auto) (eclo : List Bits) : Prop where
  len : ∀ x, x < a.states.length → (eclo.getD x []).length = a.states.length
  has : ∀ x, x < a.states.length → ∀ y, (eclo.getD x []).has y = true ↔ Moves a.states x [] y

theorem length_transRow {a : Auto} (hr : InRange a) {eclo : List Bits} (he : EcloOk a eclo) {s : XState} (hs : s ∈ a.states) (t : Nat) :
    (transRow a.states.length eclo s t).length = a.states.length :=
  foldl_tokStep_length he.len t _ _ (by simp [Bits.none]) fun t d h => (hr.token s hs t d h).2

theorem has_transRow {a : Auto} (hr : InRange a) {eclo : List Bits} (he : EcloOk a eclo) {s : XState} (hs : s ∈ a.states) (t y : Nat) :
    (transRow a.states.length eclo s t).has y = true ↔ ∃ d, .token t d ∈ s.trans ∧ Moves a.states d [] y := by
  unfold transRow
  rw [foldl_tokStep_has he.len t y _ _ (by simp [Bits.none]) fun t d h => (hr.token s hs t d h).2, has_none]
  constructor
  · rintro (h | ⟨d, h1, h2⟩)
    · cases h
    · exact ⟨d, h1, (he.has d (hr.token s hs t d h1).2 y).1 h2⟩
  · rintro ⟨d, h1, h2⟩
    exact Or.inr ⟨d, h1, (he.has d (hr.token s hs t d h1).2 y).2 h2⟩

theorem foldl_moveStep_length {a : Auto} (hr : InRange a) {eclo : List Bits} (he : EcloOk a eclo) (nfas : Bits) (t : Nat) :
    ∀ (l : List (XState × Nat)) (acc : Bits), acc.length = a.states.length → (∀ x ∈ l, x.1 ∈ a.states) →
      (l.foldl (moveStep a eclo nfas t) acc).length = a.states.length
  | [], acc, h, _ => h
  | x :: l, acc, h, hl => by
    rw [List.foldl_cons]
    apply foldl_moveStep_length hr he nfas t l _ _ fun x hx => hl x (List.mem_cons_of_mem _ hx)
    unfold moveStep
    split
    · rw [length_union (by rw [h, length_transRow hr he (hl x List.mem_cons_self)]), h]
    · exact h

theorem foldl_moveStep_has {a : Auto} (hr : InRange a) {eclo : List Bits} (he : EcloOk a eclo) (nfas : Bits) (t y : Nat) :
    ∀ (l : List (XState × Nat)) (acc : Bits), acc.length = a.states.length → (∀ x ∈ l, x.1 ∈ a.states) →
      (Bits.has (l.foldl (moveStep a eclo nfas t) acc) y = true ↔ acc.has y = true ∨
        ∃ x ∈ l, nfas.has x.2 = true ∧ ∃ d, .token t d ∈ x.1.trans ∧ Moves a.states d [] y)
  | [], acc, _, _ => by simp
  | x :: l, acc, h, hl => by
    rw [List.foldl_cons]
    have hx := hl x List.mem_cons_self
    have hl' : ∀ x ∈ l, x.1 ∈ a.states := fun x hx => hl x (List.mem_cons_of_mem _ hx)
    have hlen := length_transRow hr he hx t
    unfold moveStep
    by_cases hn : nfas.has x.2 = true
    · rw [if_pos hn]
      have := foldl_moveStep_has hr he nfas t y l (Bits.union acc (transRow a.states.length eclo x.1 t)) (by rw [length_union (by omega)]; exact h) hl'
      unfold moveStep at this
      rw [this, has_union (by omega), Bool.or_eq_true, has_transRow hr he hx]
      constructor
      · rintro ((h1 | h1) | ⟨z, h1, h2⟩)
        · exact Or.inl h1
        · exact Or.inr ⟨x, List.mem_cons_self, hn, h1⟩
        · exact Or.inr ⟨z, List.mem_cons_of_mem _ h1, h2⟩
      · rintro (h1 | ⟨z, h1, h2, h3⟩)
        · exact Or.inl (Or.inl h1)
        · rcases List.mem_cons.1 h1 with rfl | h1
          · exact Or.inl (Or.inr h3)
          · exact Or.inr ⟨z, h1, h2, h3⟩
    · rw [if_neg hn]
      have := foldl_moveStep_has hr he nfas t y l acc h hl'
      unfold moveStep at this
      rw [this]
      constructor
      · rintro (h1 | ⟨z, h1, h2⟩)
        · exact Or.inl h1
        · exact Or.inr ⟨z, List.mem_cons_of_mem _ h1, h2⟩
      · rintro (h1 | ⟨z, h1, h2, h3⟩)
        · exact Or.inl h1
        · rcases List.mem_cons.1 h1 with rfl | h1
          · exact absurd h2 hn
          · exact Or.inr ⟨z, h1, h2, h3⟩

theorem mem_zipIdx_states {α : Type} {l : List α} {x : α × Nat} : x ∈ l.zipIdx ↔ l[x.2]? = some x.1 := by
  obtain ⟨a, i⟩ := x
  rw [List.mem_zipIdx_iff_getElem?]

theorem length_moveBits {a : Auto} (hr : InRange a) {eclo : List Bits} (he : EcloOk a eclo) (nfas : Bits) (t : Nat) :
    (moveBits a eclo nfas t).length = a.states.length :=
  foldl_moveStep_length hr he nfas t _ _ (by simp [Bits.none]) fun _ hx => List.mem_of_getElem? (mem_zipIdx_states.1 hx)

/-- The set holds the states that can be reached from `e` with the tokens. -/
def SetIs (a : Auto) (e : Nat) (w : List Nat) (nfas : Bits) : Prop :=
  nfas.length = a.states.length ∧ ∀ y, nfas.has y = true ↔ Moves a.states e w y

theorem setIs_move {a : Auto} (hr : InRange a) {eclo : List Bits} (he : EcloOk a eclo) {e : Nat} {w : List Nat} {nfas : Bits}
    (h : SetIs a e w nfas) (t : Nat) : SetIs a e (w ++ [t]) (moveBits a eclo nfas t) := by
  refine ⟨length_moveBits hr he nfas t, ?_⟩
  intro y
  unfold moveBits
  rw [foldl_moveStep_has hr he nfas t y _ _ (by simp [Bits.none]) fun _ hx => List.mem_of_getElem? (mem_zipIdx_states.1 hx), has_none, moves_snoc]
  constructor
  · rintro (h1 | ⟨x, h1, h2, d, h3, h4⟩)
    · cases h1
    · exact ⟨x.2, x.1, d, (h.2 _).1 h2, mem_zipIdx_states.1 h1, h3, h4⟩
  · rintro ⟨m, st, d, h1, h2, h3, h4⟩
    exact Or.inr ⟨(st, m), mem_zipIdx_states.2 h2, (h.2 m).2 h1, d, h3, h4⟩

theorem setIs_unique {a : Auto} {e : Nat} {w : List Nat} {nfas nfas' : Bits} (h : SetIs a e w nfas) (h' : SetIs a e w nfas') : nfas = nfas' := by
  apply bits_ext (by rw [h.1, h'.1])
  intro i
  rw [Bool.eq_iff_iff, h.2, h'.2]

/-! ## Attributes -/

theorem tagDefs_find {defs : TagDefs} {name : Text} :
    (∀ e, defs.find name = some e → LastDef defs name e) ∧ (defs.find name = none → Plain defs name) := by
  unfold TagDefs.find
  cases h : defs.reverse.find? fun d => d.1 == name with
  | none =>
    refine ⟨(fun e he => by cases he), fun _ => ?_⟩
    rw [List.find?_eq_none] at h
    intro d hd hn
    exact h d (List.mem_reverse.2 hd) (by simpa using hn)
  | some d =>
    refine ⟨?_, fun he => by cases he⟩
    intro e he
    simp only [Option.map_some, Option.some.injEq] at he
    subst he
    obtain ⟨h1, as, bs, h2, h3⟩ := List.find?_eq_some_iff_append.1 h
    simp only [beq_iff_eq] at h1
    refine ⟨bs.reverse, as.reverse, ?_, ?_⟩
    · have := congrArg List.reverse h2
      rw [List.reverse_reverse] at this
      rw [this, ← h1]
      simp
    · intro x hx
      have := h3 x (List.mem_reverse.1 hx)
      simpa using this

theorem evalTag_spec {defs : TagDefs} {set : Text → Bool} {S : Text → Prop} (hS : ∀ t, set t = true ↔ S t) : ∀ (fuel : Nat) (e : TagExpr) (b : Bool),
    evalTag defs set fuel e = .ok b → Evals defs S e b
  | 0, _, _, h => by cases h
  | fuel + 1, e, b, h => by
    have ih := evalTag_spec (defs := defs) hS fuel
    unfold evalTag at h
    cases e with
    | and x y =>
      simp only [bind, Except.bind] at h
      cases h1 : evalTag defs set fuel x with
      | error f => rw [h1] at h; cases h
      | ok v =>
        rw [h1] at h
        cases v with
        | true => exact .andTrue (ih x true h1) (ih y b h)
        | false => cases h; exact .andFalse (ih x false h1)
    | or x y =>
      simp only [bind, Except.bind] at h
      cases h1 : evalTag defs set fuel x with
      | error f => rw [h1] at h; cases h
      | ok v =>
        rw [h1] at h
        cases v with
        | true => cases h; exact .orTrue (ih x true h1)
        | false => exact .orFalse (ih x false h1) (ih y b h)
    | xor x y =>
      simp only [bind, Except.bind] at h
      cases h1 : evalTag defs set fuel x with
      | error f => rw [h1] at h; cases h
      | ok v =>
        rw [h1] at h
        simp only at h
        cases h2 : evalTag defs set fuel y with
        | error f => rw [h2] at h; cases h
        | ok v' => rw [h2] at h; cases h; exact .xor (ih x v h1) (ih y v' h2)
    | cond c x y =>
      simp only [bind, Except.bind] at h
      cases h1 : evalTag defs set fuel c with
      | error f => rw [h1] at h; cases h
      | ok v =>
        rw [h1] at h
        cases v with
        | true => exact .condTrue (ih c true h1) (ih x b h)
        | false => exact .condFalse (ih c false h1) (ih y b h)
    | not x =>
      simp only [bind, Except.bind] at h
      cases h1 : evalTag defs set fuel x with
      | error f => rw [h1] at h; cases h
      | ok v => rw [h1] at h; cases h; exact .not (ih x v h1)
    | tag name =>
      simp only at h
      cases h1 : defs.find name with
      | some e' => rw [h1] at h; exact .defined (tagDefs_find.1 e' h1) (ih e' b h)
      | none =>
        rw [h1] at h
        cases h
        have hp := tagDefs_find.2 h1
        cases hb : set name with
        | true => exact .set hp ((hS name).1 hb)
        | false => exact .unset hp fun hs => by rw [(hS name).2 hs] at hb; cases hb

theorem evalGroup_spec {defs : TagDefs} {set : Text → Bool} {S : Text → Prop} (hS : ∀ t, set t = true ↔ S t) : ∀ (l : List AttrDef)
    (m r : Option AttrDef) (b : Bool), evalGroup defs set l m = .ok (r, b) →
    (r = m ∨ ∃ x ∈ l, r = some x ∧ Evals defs S x.expr true) ∧
    (b = true → (∃ v, m = some v ∧ r = m ∧ ∀ x ∈ l, Evals defs S x.expr false) ∨
      (m = none ∧ ((r = none ∧ ∀ x ∈ l, Evals defs S x.expr false) ∨
        ∃ pre x post, l = pre ++ x :: post ∧ r = some x ∧ Evals defs S x.expr true ∧ ∀ y ∈ pre ++ post, Evals defs S y.expr false)))
  | [], m, r, b, h => by
    cases h
    refine ⟨Or.inl rfl, fun _ => ?_⟩
    cases m with
    | none => exact Or.inr ⟨rfl, Or.inl ⟨rfl, fun x hx => by cases hx⟩⟩
    | some v => exact Or.inl ⟨v, rfl, rfl, fun x hx => by cases hx⟩
  | a :: l, m, r, b, h => by
    unfold evalGroup at h
    simp only [bind, Except.bind] at h
    cases h1 : evalTag defs set (evalFuel defs a.expr) a.expr with
    | error f => rw [h1] at h; cases h
    | ok v =>
      have hv := evalTag_spec hS _ _ _ h1
      rw [h1] at h
      cases v with
      | true =>
        simp only [if_true] at h
        cases m with
        | some m' =>
          cases h
          exact ⟨Or.inl rfl, fun hb => by cases hb⟩
        | none =>
          simp only at h
          obtain ⟨i1, i2⟩ := evalGroup_spec hS l (some a) r b h
          constructor
          · rcases i1 with rfl | ⟨x, hx, i1⟩
            · exact Or.inr ⟨a, List.mem_cons_self, rfl, hv⟩
            · exact Or.inr ⟨x, List.mem_cons_of_mem _ hx, i1⟩
          · intro hb
            rcases i2 hb with ⟨v, e1, e2, e3⟩ | ⟨e1, _⟩
            · refine Or.inr ⟨rfl, Or.inr ⟨[], a, l, rfl, e2, hv, by simpa using e3⟩⟩
            · cases e1
      | false =>
        simp only [Bool.false_eq_true, if_false] at h
        obtain ⟨i1, i2⟩ := evalGroup_spec hS l m r b h
        constructor
        · rcases i1 with i1 | ⟨x, hx, i1⟩
          · exact Or.inl i1
          · exact Or.inr ⟨x, List.mem_cons_of_mem _ hx, i1⟩
        · intro hb
          rcases i2 hb with ⟨v, e1, e2, e3⟩ | ⟨e1, ⟨e2, e3⟩ | ⟨pre, x, post, e2, e3, e4, e5⟩⟩
          · refine Or.inl ⟨v, e1, e2, ?_⟩
            intro x hx
            rcases List.mem_cons.1 hx with rfl | hx
            · exact hv
            · exact e3 x hx
          · refine Or.inr ⟨e1, Or.inl ⟨e2, ?_⟩⟩
            intro x hx
            rcases List.mem_cons.1 hx with rfl | hx
            · exact hv
            · exact e3 x hx
          · refine Or.inr ⟨e1, Or.inr ⟨a :: pre, x, post, by rw [e2]; rfl, e3, e4, ?_⟩⟩
            intro y hy
            rcases List.mem_cons.1 hy with rfl | hy
            · exact hv
            · exact e5 y hy

theorem lastDef_find {defs : TagDefs} {name : Text} {e : TagExpr} (h : LastDef defs name e) : defs.find name = some e := by
  obtain ⟨pre, post, rfl, h2⟩ := h
  unfold TagDefs.find
  rw [List.reverse_append, List.reverse_cons, List.append_assoc, List.find?_append]
  have : post.reverse.find? (fun d => d.1 == name) = none := by
    rw [List.find?_eq_none]
    intro d hd
    have := h2 d (List.mem_reverse.1 hd)
    simpa using this
  rw [this]
  simp

theorem plain_find {defs : TagDefs} {name : Text} (h : Plain defs name) : defs.find name = none := by
  unfold TagDefs.find
  rw [List.find?_eq_none.2]
  · rfl
  · intro d hd
    have := h d (List.mem_reverse.1 hd)
    simpa using this

/-- An expression has one value. -/
theorem evals_det {defs : TagDefs} {S : Text → Prop} {e : TagExpr} {b b' : Bool} (h : Evals defs S e b) (h' : Evals defs S e b') : b = b' := by
  induction h generalizing b' with
  | andTrue _ _ ih1 ih2 =>
    cases h' with
    | andTrue g1 g2 => exact ih2 g2
    | andFalse g1 => cases ih1 g1
  | andFalse _ ih1 =>
    cases h' with
    | andTrue g1 g2 => cases ih1 g1
    | andFalse g1 => rfl
  | orTrue _ ih1 =>
    cases h' with
    | orTrue g1 => rfl
    | orFalse g1 g2 => cases ih1 g1
  | orFalse _ _ ih1 ih2 =>
    cases h' with
    | orTrue g1 => cases ih1 g1
    | orFalse g1 g2 => exact ih2 g2
  | xor _ _ ih1 ih2 =>
    cases h' with
    | xor g1 g2 => rw [ih1 g1, ih2 g2]
  | condTrue _ _ ih1 ih2 =>
    cases h' with
    | condTrue g1 g2 => exact ih2 g2
    | condFalse g1 g2 => cases ih1 g1
  | condFalse _ _ ih1 ih2 =>
    cases h' with
    | condTrue g1 g2 => cases ih1 g1
    | condFalse g1 g2 => exact ih2 g2
  | not _ ih =>
    cases h' with
    | not g => rw [ih g]
  | defined hd _ ih =>
    cases h' with
    | defined g1 g2 =>
      have := (lastDef_find hd).symm.trans (lastDef_find g1)
      cases this
      exact ih g2
    | set g1 g2 => have := (lastDef_find hd).symm.trans (plain_find g1); cases this
    | unset g1 g2 => have := (lastDef_find hd).symm.trans (plain_find g1); cases this
  | set hp hs =>
    cases h' with
    | defined g1 g2 => have := (lastDef_find g1).symm.trans (plain_find hp); cases this
    | set g1 g2 => rfl
    | unset g1 g2 => exact absurd hs g2
  | unset hp hs =>
    cases h' with
    | defined g1 g2 => have := (lastDef_find g1).symm.trans (plain_find hp); cases this
    | set g1 g2 => exact absurd g2 hs
    | unset g1 g2 => rfl

theorem evaluateAttrs_spec {defs : TagDefs} {set : Text → Bool} {S : Text → Prop} (hS : ∀ t, set t = true ↔ S t) : ∀ (l : List Evaluator)
    (r : List (Option Text)) (early one : Bool), evaluateAttrs defs set l = .ok (r, early, one) →
    (one = true → Pairs (AttrIs defs S) l r) ∧
    (early = true → ∃ ev ∈ l, ∃ x ∈ ev.attrs, x.early = true ∧ Evals defs S x.expr true) ∧
    (one = true → early = false → ¬ ∃ ev ∈ l, ∃ x ∈ ev.attrs, x.early = true ∧ Evals defs S x.expr true)
  | [], r, early, one, h => by
    cases h
    exact ⟨fun _ => .nil, (fun h => by cases h), fun _ _ h => by obtain ⟨ev, h, _⟩ := h; cases h⟩
  | ev :: l, r, early, one, h => by
    unfold evaluateAttrs at h
    simp only [bind, Except.bind] at h
    cases h1 : evalGroup defs set ev.attrs none with
    | error f => rw [h1] at h; cases h
    | ok m =>
      rw [h1] at h
      simp only at h
      obtain ⟨m, b⟩ := m
      cases h2 : evaluateAttrs defs set l with
      | error f => rw [h2] at h; cases h
      | ok rest =>
        rw [h2] at h
        obtain ⟨r', early', one'⟩ := rest
        cases h
        obtain ⟨i1, i2, i3⟩ := evaluateAttrs_spec hS l r' early' one' h2
        obtain ⟨g1, g2⟩ := evalGroup_spec hS _ _ _ _ h1
        refine ⟨?_, ?_, ?_⟩
        · intro hb
          rw [Bool.and_eq_true] at hb
          refine .cons ?_ (i1 hb.2)
          rcases g2 hb.1 with ⟨v, e1, _⟩ | ⟨_, ⟨rfl, e3⟩ | ⟨pre, x, post, e2, rfl, e4, e5⟩⟩
          · cases e1
          · exact .default e3
          · exact .one e2 e4 e5
        · intro hb
          rw [Bool.or_eq_true] at hb
          rcases hb with hb | hb
          · rcases g1 with rfl | ⟨x, hx, rfl, hv⟩
            · cases hb
            · exact ⟨ev, List.mem_cons_self, x, hx, hb, hv⟩
          · obtain ⟨ev', h3, h4⟩ := i2 hb
            exact ⟨ev', List.mem_cons_of_mem _ h3, h4⟩
        · intro hb he
          rw [Bool.and_eq_true] at hb
          rw [Bool.or_eq_false_iff] at he
          rintro ⟨ev', h3, x, h4, h5, h6⟩
          rcases List.mem_cons.1 h3 with rfl | h3
          · rcases g2 hb.1 with ⟨v, e1, _⟩ | ⟨_, ⟨rfl, e3⟩ | ⟨pre, y, post, e2, rfl, e4, e5⟩⟩
            · cases e1
            · cases evals_det (e3 x h4) h6
            · rw [e2] at h4
              simp only [List.mem_append, List.mem_cons] at h4
              rcases h4 with h4 | rfl | h4
              · cases evals_det (e5 x (List.mem_append_left _ h4)) h6
              · have := he.1
                simp only [Option.map_some, Option.getD_some] at this
                rw [h5] at this; cases this
              · cases evals_det (e5 x (List.mem_append_right _ h4)) h6
          · exact i3 hb.2 he.2 ⟨ev', h3, x, h4, h5, h6⟩

end Mairix
