import Verif.Model.Compdfa
import Verif.Proofs.SubsetRun

/-!
# dfasyn: dead states
-/

namespace Mairix
open Spec

/-- From the state the automaton can get to a state with an attribute that is not a default. -/
def Leads (defaults : List Text) (nodes : List DfaNode) (i : Nat) : Prop :=
  ∃ v j d, runNodes nodes (some i) v = some j ∧ nodes[j]? = some d ∧ nondefault defaults d.attrs = true

theorem runNodes_cons {nodes : List DfaNode} {s : Option Nat} {t : Nat} {w : List Nat} :
    runNodes nodes s (t :: w) = runNodes nodes (stepNode nodes s t) w := rfl

theorem runNodes_append {nodes : List DfaNode} {s : Option Nat} {v w : List Nat} :
    runNodes nodes s (v ++ w) = runNodes nodes (runNodes nodes s v) w := by
  unfold runNodes; rw [List.foldl_append]

theorem runNodes_none {nodes : List DfaNode} : ∀ {w : List Nat}, runNodes nodes none w = none
  | [] => rfl
  | _ :: w => by rw [runNodes_cons]; exact runNodes_none (w := w)

theorem leads_step {defaults : List Text} {nodes : List DfaNode} {i j : Nat} {d : DfaNode} (hd : nodes[i]? = some d) (hj : some j ∈ d.map)
    (h : Leads defaults nodes j) : Leads defaults nodes i := by
  obtain ⟨v, k, e, h1, h2, h3⟩ := h
  obtain ⟨t, ht⟩ := List.getElem?_of_mem hj
  refine ⟨t :: v, k, e, ?_, h2, h3⟩
  rw [runNodes_cons]
  have : stepNode nodes (some i) t = some j := by
    unfold stepNode
    simp [hd, ht]
  rw [this]; exact h1

theorem leads_inv {defaults : List Text} {nodes : List DfaNode} {i : Nat} (h : Leads defaults nodes i) :
    ∃ d, nodes[i]? = some d ∧ (nondefault defaults d.attrs = true ∨ ∃ j, some j ∈ d.map ∧ Leads defaults nodes j) := by
  obtain ⟨v, k, e, h1, h2, h3⟩ := h
  cases v with
  | nil =>
    simp only [runNodes, List.foldl_nil, Option.some.injEq] at h1
    subst h1
    exact ⟨e, h2, Or.inl h3⟩
  | cons t v =>
    rw [runNodes_cons] at h1
    cases hs : stepNode nodes (some i) t with
    | none => rw [hs, runNodes_none] at h1; cases h1
    | some j =>
      rw [hs] at h1
      unfold stepNode at hs
      simp only [Option.bind_some] at hs
      cases hd : nodes[i]? with
      | none => rw [hd] at hs; cases hs
      | some d =>
        rw [hd] at hs
        simp only [Option.bind_some] at hs
        refine ⟨d, rfl, Or.inr ⟨j, ?_, v, k, e, h1, h2, h3⟩⟩
        cases hm : d.map[t]? with
        | none => rw [hm] at hs; cases hs
        | some o => rw [hm] at hs; simp only [Option.join_some] at hs; subst hs; exact List.mem_of_getElem? hm

/-- How many flags are set. -/
def flags (l : List Bool) : Nat := (l.filter id).length

theorem flags_set : ∀ (l : List Bool) (i : Nat), l[i]? = some false → flags (l.set i true) = flags l + 1
  | [], i, h => by simp at h
  | b :: l, 0, h => by
    simp only [List.getElem?_cons_zero, Option.some.injEq] at h
    subst h
    simp [flags]
  | b :: l, i + 1, h => by
    rw [List.getElem?_cons_succ] at h
    have := flags_set l i h
    unfold flags at this ⊢
    cases b <;> simp [this]

theorem flags_le (l : List Bool) : flags l ≤ l.length := List.length_filter_le _ _

/-- The state adds nothing. -/
def Closed (defaults : List Text) (leads : List Bool) (x : DfaNode × Nat) : Prop :=
  leads.getD x.2 true = true ∨ (nondefault defaults x.1.attrs = false ∧ ∀ j, some j ∈ x.1.map → leads.getD j false = false)

theorem leadsStep_spec {defaults : List Text} {nodes : List DfaNode} {leads : List Bool} {ch : Bool} (hl : leads.length = nodes.length)
    (hs : ∀ i, leads.getD i false = true → Leads defaults nodes i) {x : DfaNode × Nat} (hx : nodes[x.2]? = some x.1) :
    (leadsStep defaults (leads, ch) x = (leads, ch) ∧ Closed defaults leads x) ∨
    ∃ leads', leadsStep defaults (leads, ch) x = (leads', true) ∧ leads'.length = nodes.length ∧ flags leads' = flags leads + 1 ∧
      ∀ i, leads'.getD i false = true → Leads defaults nodes i := by
  unfold leadsStep
  simp only
  split
  · rename_i h; exact Or.inl ⟨rfl, Or.inl h⟩
  · rename_i h
    have hlt : x.2 < leads.length := by rw [hl]; exact (List.getElem?_eq_some_iff.1 hx).1
    split
    · rename_i h2
      refine Or.inr ⟨_, rfl, by simp [hl], ?_, ?_⟩
      · apply flags_set
        rw [List.getElem?_eq_getElem hlt]
        rw [List.getD_eq_getElem?_getD, List.getElem?_eq_getElem hlt] at h
        simpa using h
      · intro i hi
        by_cases hix : i = x.2
        · subst hix
          rw [Bool.or_eq_true] at h2
          rcases h2 with h2 | h2
          · exact ⟨[], x.2, x.1, rfl, hx, h2⟩
          · rw [List.any_eq_true] at h2
            obtain ⟨o, h3, h4⟩ := h2
            cases o with
            | none => cases h4
            | some j => exact leads_step hx h3 (hs j (by simpa using h4))
        · apply hs
          rw [List.getD_eq_getElem?_getD, List.getElem?_set_ne (fun h => hix h.symm)] at hi
          rw [List.getD_eq_getElem?_getD]; exact hi
    · rename_i h2
      rw [Bool.or_eq_true, not_or] at h2
      refine Or.inl ⟨rfl, Or.inr ⟨by simpa using h2.1, ?_⟩⟩
      intro j hj
      have := h2.2
      rw [List.any_eq_true] at this
      cases hb : leads.getD j false with
      | false => rfl
      | true => exact absurd ⟨some j, hj, by simpa using hb⟩ this

theorem leadsFold_spec {defaults : List Text} {nodes : List DfaNode} : ∀ (l : List (DfaNode × Nat)) (leads : List Bool) (ch : Bool),
    leads.length = nodes.length → (∀ i, leads.getD i false = true → Leads defaults nodes i) → (∀ x ∈ l, nodes[x.2]? = some x.1) →
    ∃ leads' ch', l.foldl (leadsStep defaults) (leads, ch) = (leads', ch') ∧ leads'.length = nodes.length ∧
      (∀ i, leads'.getD i false = true → Leads defaults nodes i) ∧ flags leads ≤ flags leads' ∧
      (ch' = false → leads' = leads ∧ ch = false ∧ ∀ x ∈ l, Closed defaults leads x) ∧
      (ch' = true → ch = false → flags leads < flags leads')
  | [], leads, ch, hl, hs, _ => ⟨leads, ch, rfl, hl, hs, Nat.le_refl _, fun h => ⟨rfl, h, fun x hx => by cases hx⟩, fun h h' => by rw [h] at h'; cases h'⟩
  | x :: l, leads, ch, hl, hs, hx => by
    rw [List.foldl_cons]
    rcases leadsStep_spec (ch := ch) hl hs (hx x List.mem_cons_self) with ⟨h1, h2⟩ | ⟨leads1, h1, h2, h3, h4⟩
    · rw [h1]
      obtain ⟨l', ch', g1, g2, g3, g4, g5, g6⟩ := leadsFold_spec l leads ch hl hs fun y hy => hx y (List.mem_cons_of_mem _ hy)
      refine ⟨l', ch', g1, g2, g3, g4, ?_, g6⟩
      intro hc
      obtain ⟨k1, k2, k3⟩ := g5 hc
      refine ⟨k1, k2, ?_⟩
      intro y hy
      rcases List.mem_cons.1 hy with rfl | hy
      · exact h2
      · exact k3 y hy
    · rw [h1]
      obtain ⟨l', ch', g1, g2, g3, g4, g5, g6⟩ := leadsFold_spec l leads1 true h2 h4 fun y hy => hx y (List.mem_cons_of_mem _ hy)
      refine ⟨l', ch', g1, g2, g3, by omega, ?_, fun _ _ => by omega⟩
      intro hc
      have := (g5 hc).2.1
      cases this

theorem leadsLoop_spec {defaults : List Text} {nodes : List DfaNode} : ∀ (fuel : Nat) (leads : List Bool), leads.length = nodes.length →
    (∀ i, leads.getD i false = true → Leads defaults nodes i) → nodes.length < fuel + flags leads →
    ∃ leads', leadsLoop defaults nodes fuel leads = .ok leads' ∧ leads'.length = nodes.length ∧
      (∀ i, leads'.getD i false = true → Leads defaults nodes i) ∧ ∀ x ∈ nodes.zipIdx, Closed defaults leads' x
  | 0, leads, hl, _, h => by have := flags_le leads; omega
  | fuel + 1, leads, hl, hs, h => by
    obtain ⟨l', ch', g1, g2, g3, g4, g5, g6⟩ := leadsFold_spec nodes.zipIdx leads false hl hs fun x hx => mem_zipIdx_states.1 hx
    unfold leadsLoop
    rw [g1]
    cases ch' with
    | false =>
      simp only [Bool.false_eq_true, if_false]
      obtain ⟨k1, _, k3⟩ := g5 rfl
      subst k1
      exact ⟨l', rfl, g2, g3, k3⟩
    | true =>
      simp only [if_true]
      have := g6 rfl rfl
      exact leadsLoop_spec fuel l' g2 g3 (by omega)

theorem leadsTo_spec (defaults : List Text) (nodes : List DfaNode) :
    ∃ leads, leadsTo defaults nodes = .ok leads ∧ leads.length = nodes.length ∧ ∀ i, leads.getD i false = true ↔ Leads defaults nodes i := by
  unfold leadsTo
  obtain ⟨leads, h1, h2, h3, h4⟩ := leadsLoop_spec (defaults := defaults) (nodes := nodes) (nodes.length + 1) (List.replicate nodes.length false) (by simp)
    (fun i hi => by
      rw [List.getD_eq_getElem?_getD, List.getElem?_replicate] at hi
      split at hi <;> simp at hi) (by omega)
  refine ⟨leads, h1, h2, fun i => ⟨h3 i, ?_⟩⟩
  rintro ⟨v, j, d, g1, g2, g3⟩
  induction v generalizing i with
  | nil =>
    simp only [runNodes, List.foldl_nil, Option.some.injEq] at g1
    subst g1
    rcases h4 (d, i) (mem_zipIdx_states.2 g2) with h | ⟨h, _⟩
    · have hlt : i < leads.length := by rw [h2]; exact (List.getElem?_eq_some_iff.1 g2).1
      rw [List.getD_eq_getElem?_getD, List.getElem?_eq_getElem hlt] at h ⊢
      simpa using h
    · simp only at h; rw [g3] at h; cases h
  | cons t v ih =>
    rw [runNodes_cons] at g1
    cases hs : stepNode nodes (some i) t with
    | none => rw [hs, runNodes_none] at g1; cases g1
    | some k =>
      rw [hs] at g1
      have hk := ih k g1
      unfold stepNode at hs
      simp only [Option.bind_some] at hs
      cases hd : nodes[i]? with
      | none => rw [hd] at hs; cases hs
      | some e =>
        rw [hd] at hs
        simp only [Option.bind_some] at hs
        have hmem : some k ∈ e.map := by
          cases hm : e.map[t]? with
          | none => rw [hm] at hs; cases hs
          | some o => rw [hm] at hs; simp only [Option.join_some] at hs; subst hs; exact List.mem_of_getElem? hm
        rcases h4 (e, i) (mem_zipIdx_states.2 hd) with h | ⟨_, h⟩
        · have hlt : i < leads.length := by rw [h2]; exact (List.getElem?_eq_some_iff.1 hd).1
          rw [List.getD_eq_getElem?_getD, List.getElem?_eq_getElem hlt] at h ⊢
          simpa using h
        · have := h k hmem
          rw [hk] at this; cases this

/-! ## Without the transitions to dead states -/

theorem step_prune {leads : List Bool} {nodes : List DfaNode} {s : Option Nat} {t : Nat} :
    stepNode (pruneDead leads nodes) s t = (stepNode nodes s t).filter fun j => leads.getD j false := by
  unfold stepNode pruneDead
  cases s with
  | none => rfl
  | some i =>
    simp only [Option.bind_some, List.getElem?_map]
    cases nodes[i]? with
    | none => rfl
    | some d =>
      simp only [Option.map_some, Option.bind_some, List.getElem?_map]
      cases d.map[t]? with
      | none => rfl
      | some o => simp

theorem run_prune {leads : List Bool} {nodes : List DfaNode} {defaults : List Text} (hl : ∀ i, leads.getD i false = true ↔ Leads defaults nodes i) :
    ∀ (w : List Nat) (s : Option Nat), runNodes (pruneDead leads nodes) s w = runNodes nodes s w ∨
      (runNodes (pruneDead leads nodes) s w = none ∧ ∀ j, runNodes nodes s w = some j → ¬ Leads defaults nodes j)
  | [], s => Or.inl rfl
  | t :: w, s => by
    rw [runNodes_cons, runNodes_cons, step_prune]
    cases hs : stepNode nodes s t with
    | none => simp only [Option.filter_none, runNodes_none]; exact Or.inl trivial
    | some j =>
      rw [Option.filter_some]
      split
      · exact run_prune hl w (some j)
      · rename_i hd
        refine Or.inr ⟨runNodes_none, ?_⟩
        intro k hk hlk
        apply hd
        rw [hl]
        obtain ⟨v, m, d, h1, h2, h3⟩ := hlk
        exact ⟨w ++ v, m, d, by rw [runNodes_append, hk]; exact h1, h2, h3⟩

end Mairix
