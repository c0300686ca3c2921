import Verif.Proofs.Split

/-!
# dfasyn: the compressed automaton does what the automaton does
-/

namespace Mairix
open Spec

/-- The attributes after some tokens; the defaults if the automaton has stopped. -/
def stateAttrs (defaults : List Text) (nodes : List DfaNode) (s : Option Nat) : List Text :=
  match s.bind fun i => nodes[i]? with
  | some d => fillAttrs defaults d.attrs
  | none => defaults

theorem nondefault_iff : ∀ {defaults : List Text} {attrs : List (Option Text)}, attrs.length = defaults.length →
    (nondefault defaults attrs = false ↔ fillAttrs defaults attrs = defaults)
  | [], [], _ => by simp [nondefault, fillAttrs]
  | [], _ :: _, h => by simp at h
  | _ :: _, [], h => by simp at h
  | d :: defaults, a :: attrs, h => by
    have ih := nondefault_iff (defaults := defaults) (attrs := attrs) (by simpa using h)
    unfold nondefault fillAttrs at ih ⊢
    rw [List.zip_cons_cons, List.any_cons, List.zipWith_cons_cons, Bool.or_eq_false_iff, ih, List.cons.injEq]
    apply and_congr_left
    intro _
    cases a with
    | none => simp
    | some x => simp

/-! ## The new numbers -/

/-- The state stays. -/
def liveRep (dead : List Bool) (cls : List Nat) (i : Nat) : Bool := !dead.getD i false && decide (repOf cls i = i)

/-- How many states before this one stay. -/
def nextOf (dead : List Bool) (cls : List Nat) (i : Nat) : Nat := ((List.range i).filter (liveRep dead cls)).length

/-- The new number of a state. -/
def newOf (dead : List Bool) (cls : List Nat) (i : Nat) : Option Nat :=
  if dead.getD i false then none else if dead.getD (repOf cls i) false then none else some (nextOf dead cls (repOf cls i))

theorem repOf_le {cls : List Nat} {i : Nat} (hi : i < cls.length) : repOf cls i ≤ i ∧ cls.getD (repOf cls i) 0 = cls.getD i 0 := by
  unfold repOf
  have hp : (cls[i] == cls.getD i 0) = true := by
    rw [List.getD_eq_getElem?_getD, List.getElem?_eq_getElem hi]; simp
  have hle : cls.findIdx (fun c => c == cls.getD i 0) ≤ i := by
    rcases Nat.lt_or_ge i (cls.findIdx fun c => c == cls.getD i 0) with h | h
    · have := List.not_of_lt_findIdx h
      rw [hp] at this; cases this
    · exact h
  refine ⟨hle, ?_⟩
  have hlt : cls.findIdx (fun c => c == cls.getD i 0) < cls.length := by omega
  have := List.findIdx_getElem (w := hlt)
  rw [List.getD_eq_getElem?_getD, List.getElem?_eq_getElem hlt]
  simpa using this

theorem repOf_repOf {cls : List Nat} {i : Nat} (hi : i < cls.length) : repOf cls (repOf cls i) = repOf cls i := by
  have := (repOf_le hi).2
  unfold repOf at this ⊢
  rw [this]

theorem nextOf_succ (dead : List Bool) (cls : List Nat) (i : Nat) :
    nextOf dead cls (i + 1) = nextOf dead cls i + if liveRep dead cls i then 1 else 0 := by
  unfold nextOf
  rw [List.range_succ, List.filter_append, List.length_append]
  cases h : liveRep dead cls i <;> simp [h]

theorem newIndices_spec {dead : List Bool} {cls : List Nat} : ∀ (m i : Nat) (idx : List (Option Nat)), i + m = cls.length →
    idx.length = i → (∀ k, k < i → idx[k]? = some (newOf dead cls k)) →
    ∀ k, k < cls.length → (newIndices dead cls (List.range' i m) (nextOf dead cls i) idx)[k]? = some (newOf dead cls k)
  | 0, i, idx, hm, hl, h => by
    intro k hk
    exact h k (by omega)
  | m + 1, i, idx, hm, hl, h => by
    rw [List.range'_succ]
    have hstep : ∀ (o : Option Nat), o = newOf dead cls i → (∀ k, k < i + 1 → (idx ++ [o])[k]? = some (newOf dead cls k)) := by
      intro o ho k hk
      rcases Nat.lt_or_ge k i with hki | hki
      · rw [List.getElem?_append_left (by omega)]; exact h k hki
      · have : k = i := by omega
        subst this
        rw [List.getElem?_append_right (by omega), hl, Nat.sub_self, ho]; rfl
    have hn := nextOf_succ dead cls i
    unfold newIndices
    by_cases hd : dead.getD i false = true
    · rw [if_pos hd]
      have e : nextOf dead cls i = nextOf dead cls (i + 1) := by rw [hn]; unfold liveRep; rw [hd]; simp
      rw [e]
      exact newIndices_spec m (i + 1) _ (by omega) (by simp [hl]) (hstep none (by unfold newOf; rw [if_pos hd]))
    · rw [if_neg hd]
      by_cases hr : repOf cls i = i
      · rw [if_pos hr]
        have e : nextOf dead cls i + 1 = nextOf dead cls (i + 1) := by
          rw [hn]; unfold liveRep; simp only [Bool.not_eq_true] at hd; rw [hd]; simp [hr]
        rw [e]
        exact newIndices_spec m (i + 1) _ (by omega) (by simp [hl]) (hstep _ (by unfold newOf; rw [if_neg hd, hr, if_neg hd]))
      · rw [if_neg hr]
        have e : nextOf dead cls i = nextOf dead cls (i + 1) := by rw [hn]; unfold liveRep; simp [hr]
        rw [e]
        have hle := repOf_le (cls := cls) (i := i) (by omega)
        refine newIndices_spec m (i + 1) _ (by omega) (by simp [hl]) (hstep _ ?_)
        rw [h (repOf cls i) (by omega)]
        simp only [Option.join_some]
        unfold newOf
        rw [if_neg hd, repOf_repOf (by omega)]
        split <;> rfl

theorem get_filter {α : Type} (p : α → Bool) : ∀ (l : List α) (i : Nat) (x : α), l[i]? = some x → p x = true →
    (l.filter p)[((l.take i).filter p).length]? = some x
  | [], i, x, h, _ => by simp at h
  | y :: l, 0, x, h, hp => by
    simp only [List.getElem?_cons_zero, Option.some.injEq] at h
    subst h
    simp [hp]
  | y :: l, i + 1, x, h, hp => by
    rw [List.getElem?_cons_succ] at h
    have ih := get_filter p l i x h hp
    rw [List.take_succ_cons, List.filter_cons, List.filter_cons]
    split
    · rw [List.length_cons, List.getElem?_cons_succ]; exact ih
    · exact ih

theorem filter_zipIdx_length (nodes : List DfaNode) (q : Nat → Bool) (i : Nat) (hi : i ≤ nodes.length) :
    ((nodes.zipIdx.take i).filter fun x => q x.2).length = ((List.range i).filter q).length := by
  have h1 : (nodes.zipIdx.take i).map Prod.snd = List.range i := by
    rw [List.map_take]
    rw [List.zipIdx_map_snd, ← List.range_eq_range', List.take_range, Nat.min_eq_left hi]
  rw [← h1, List.filter_map, List.length_map]
  rfl

/-! ## The automaton with one state for each class -/

/-- What is needed to put the classes together. -/
structure Stable (defaults : List Text) (leads : List Bool) (cls : List Nat) (nodes : List DfaNode) : Prop where
  len : cls.length = nodes.length
  lenLeads : leads.length = nodes.length
  attrs : ∀ (i j : Nat) (d e : DfaNode), nodes[i]? = some d → nodes[j]? = some e → cls.getD i 0 = cls.getD j 0 → fillAttrs defaults d.attrs = fillAttrs defaults e.attrs
  moves : ∀ (i j : Nat) (d e : DfaNode), nodes[i]? = some d → nodes[j]? = some e → cls.getD i 0 = cls.getD j 0 →
    d.map.map (destClass cls) = e.map.map (destClass cls)
  live : ∀ i j, i < nodes.length → j < nodes.length → cls.getD i 0 = cls.getD j 0 → leads.getD i false = leads.getD j false
  pruned : ∀ (i : Nat) (d : DfaNode), nodes[i]? = some d → ∀ k, some k ∈ d.map → leads.getD i false = true ∧ leads.getD k false = true

theorem dead_getD {leads : List Bool} {i : Nat} (h : i < leads.length) : (leads.map fun b => !b).getD i false = !leads.getD i false := by
  rw [List.getD_eq_getElem?_getD, List.getD_eq_getElem?_getD, List.getElem?_map, List.getElem?_eq_getElem h]; rfl

theorem compress_get {defaults : List Text} {leads : List Bool} {cls : List Nat} {nodes : List DfaNode} (hs : Stable defaults leads cls nodes) (es : List Nat)
    {i : Nat} (hi : i < nodes.length) :
    (leads.getD i false = false → newOf (leads.map fun b => !b) cls i = none) ∧
    (leads.getD i false = true → ∃ k d, newOf (leads.map fun b => !b) cls i = some k ∧ nodes[repOf cls i]? = some d ∧
      (compressStates (leads.map fun b => !b) cls nodes es).1[k]? =
        some { d with map := d.map.map fun o => o.bind (newOf (leads.map fun b => !b) cls) }) := by
  have hic : i < cls.length := by rw [hs.len]; exact hi
  obtain ⟨hle, hcls⟩ := repOf_le hic
  have hrl : repOf cls i < nodes.length := by omega
  constructor
  · intro h
    unfold newOf
    rw [dead_getD (by rw [hs.lenLeads]; exact hi), h]
    rfl
  · intro h
    have hlr := hs.live _ _ hrl hi hcls
    have hlr' : leads.getD (repOf cls i) false = true := by rw [hlr, h]
    refine ⟨nextOf (leads.map fun b => !b) cls (repOf cls i), nodes[repOf cls i], ?_, List.getElem?_eq_getElem hrl, ?_⟩
    · unfold newOf
      rw [dead_getD (by rw [hs.lenLeads]; exact hi), h, dead_getD (by rw [hs.lenLeads]; exact hrl), hlr']
      rfl
    · unfold compressStates
      simp only
      rw [List.getElem?_map]
      have hg := get_filter (fun x : DfaNode × Nat => liveRep (leads.map fun b => !b) cls x.2) nodes.zipIdx (repOf cls i)
        (nodes[repOf cls i], repOf cls i) (by rw [List.getElem?_zipIdx, List.getElem?_eq_getElem hrl]; simp)
        (by
          unfold liveRep
          simp only
          rw [dead_getD (by rw [hs.lenLeads]; exact hrl), hlr', repOf_repOf hic]
          simp)
      rw [filter_zipIdx_length nodes (liveRep (leads.map fun b => !b) cls) _ (by omega)] at hg
      have hg' : (nodes.zipIdx.filter fun (x : DfaNode × Nat) => !(leads.map fun b => !b).getD x.2 false && decide (repOf cls x.2 = x.2))[
          nextOf (leads.map fun b => !b) cls (repOf cls i)]? = some (nodes[repOf cls i], repOf cls i) := hg
      rw [hg']
      simp only [Option.map_some, Option.some.injEq]
      have hm : ∀ o ∈ nodes[repOf cls i].map, (o.bind fun j => ((newIndices (leads.map fun b => !b) cls (List.range nodes.length) 0 [])[j]?).join) =
          o.bind (newOf (leads.map fun b => !b) cls) := by
        intro o ho
        cases o with
        | none => rfl
        | some j =>
          simp only [Option.bind_some]
          have hj : j < nodes.length := by
            have := (hs.pruned _ _ (List.getElem?_eq_getElem hrl) j ho).2
            rcases Nat.lt_or_ge j leads.length with h | h
            · rw [← hs.lenLeads]; exact h
            · rw [List.getD_eq_getElem?_getD, List.getElem?_eq_none h] at this; cases this
          have := newIndices_spec (dead := leads.map fun b => !b) (cls := cls) nodes.length 0 [] (by simp [hs.len]) rfl (fun k hk => by omega) j
            (by rw [hs.len]; exact hj)
          rw [← List.range_eq_range'] at this
          have e0 : nextOf (leads.map fun b => !b) cls 0 = 0 := by simp [nextOf]
          rw [e0] at this
          rw [this]
          rfl
      rw [List.map_congr_left hm]

theorem newOf_congr {defaults : List Text} {leads : List Bool} {cls : List Nat} {nodes : List DfaNode} (hs : Stable defaults leads cls nodes)
    {i j : Nat} (hi : i < nodes.length) (hj : j < nodes.length) (h : cls.getD i 0 = cls.getD j 0) :
    newOf (leads.map fun b => !b) cls i = newOf (leads.map fun b => !b) cls j := by
  have : repOf cls i = repOf cls j := by unfold repOf; rw [h]
  have hd : (leads.map fun b => !b).getD i false = (leads.map fun b => !b).getD j false := by
    rw [dead_getD (by rw [hs.lenLeads]; exact hi), dead_getD (by rw [hs.lenLeads]; exact hj), hs.live i j hi hj h]
  unfold newOf
  rw [this, hd]

theorem step_compress {defaults : List Text} {leads : List Bool} {cls : List Nat} {nodes : List DfaNode} (hs : Stable defaults leads cls nodes) (es : List Nat)
    {i t : Nat} (hi : i < nodes.length) :
    stepNode (compressStates (leads.map fun b => !b) cls nodes es).1 (newOf (leads.map fun b => !b) cls i) t =
      (stepNode nodes (some i) t).bind (newOf (leads.map fun b => !b) cls) := by
  obtain ⟨h1, h2⟩ := compress_get hs es hi
  have hd := List.getElem?_eq_getElem hi
  cases hl : leads.getD i false with
  | false =>
    rw [h1 hl]
    have : stepNode nodes (some i) t = none := by
      cases hst : stepNode nodes (some i) t with
      | none => rfl
      | some k =>
        exfalso
        unfold stepNode at hst
        simp only [Option.bind_some, hd] at hst
        have hm : some k ∈ nodes[i].map := by
          cases hm : nodes[i].map[t]? with
          | none => rw [hm] at hst; cases hst
          | some o => rw [hm] at hst; simp only [Option.join_some] at hst; subst hst; exact List.mem_of_getElem? hm
        have := (hs.pruned i _ hd k hm).1
        rw [hl] at this; cases this
    rw [this]; rfl
  | true =>
    obtain ⟨k, d, e1, e2, e3⟩ := h2 hl
    rw [e1]
    have hic : i < cls.length := by rw [hs.len]; exact hi
    have hcls := (repOf_le hic).2
    have hmv := hs.moves _ _ _ _ e2 hd hcls
    unfold stepNode
    simp only [Option.bind_some, e3, hd, List.getElem?_map]
    have hmt := congrArg (fun l => l[t]?) hmv
    simp only [List.getElem?_map] at hmt
    have hrange : ∀ (r : Nat) (x : DfaNode), nodes[r]? = some x → ∀ j, some j ∈ x.map → j < nodes.length := by
      intro r x hx j hj
      have := (hs.pruned r x hx j hj).2
      rcases Nat.lt_or_ge j leads.length with h | h
      · rw [← hs.lenLeads]; exact h
      · rw [List.getD_eq_getElem?_getD, List.getElem?_eq_none h] at this; cases this
    cases ha : d.map[t]? with
    | none =>
      rw [ha] at hmt
      cases hb : nodes[i].map[t]? with
      | none => rfl
      | some o => rw [hb] at hmt; cases hmt
    | some o =>
      rw [ha] at hmt
      cases hb : nodes[i].map[t]? with
      | none => rw [hb] at hmt; cases hmt
      | some o' =>
        rw [hb] at hmt
        simp only [Option.map_some, Option.some.injEq] at hmt
        simp only [Option.map_some, Option.join_some]
        unfold destClass at hmt
        cases o with
        | none =>
          cases o' with
          | none => rfl
          | some j' => cases hmt
        | some j =>
          cases o' with
          | none => cases hmt
          | some j' =>
            simp only [Option.map_some, Option.some.injEq] at hmt
            simp only [Option.bind_some]
            exact newOf_congr hs (hrange _ _ e2 j (List.mem_of_getElem? ha)) (hrange _ _ hd j' (List.mem_of_getElem? hb)) hmt

theorem run_compress {defaults : List Text} {leads : List Bool} {cls : List Nat} {nodes : List DfaNode} (hs : Stable defaults leads cls nodes) (es : List Nat) :
    ∀ (w : List Nat) (s : Option Nat), (∀ i, s = some i → i < nodes.length) →
    runNodes (compressStates (leads.map fun b => !b) cls nodes es).1 (s.bind (newOf (leads.map fun b => !b) cls)) w =
      (runNodes nodes s w).bind (newOf (leads.map fun b => !b) cls)
  | [], s, _ => rfl
  | t :: w, s, hi => by
    rw [runNodes_cons, runNodes_cons]
    cases s with
    | none =>
      have e : stepNode nodes none t = none := rfl
      have e' : stepNode (compressStates (leads.map fun b => !b) cls nodes es).1 none t = none := rfl
      simp only [Option.bind_none, e, e', runNodes_none]
    | some i =>
      have hi' := hi i rfl
      rw [Option.bind_some, step_compress hs es hi']
      refine run_compress hs es w _ ?_
      intro k hk
      unfold stepNode at hk
      simp only [Option.bind_some, List.getElem?_eq_getElem hi'] at hk
      have hm : some k ∈ nodes[i].map := by
        cases hm : nodes[i].map[t]? with
        | none => rw [hm] at hk; cases hk
        | some o => rw [hm] at hk; simp only [Option.join_some] at hk; subst hk; exact List.mem_of_getElem? hm
      have := (hs.pruned i _ (List.getElem?_eq_getElem hi') k hm).2
      rcases Nat.lt_or_ge k leads.length with h | h
      · rw [← hs.lenLeads]; exact h
      · rw [List.getD_eq_getElem?_getD, List.getElem?_eq_none h] at this; cases this

/-! ## Dead and live states are in different classes -/

theorem pruneDead_get {leads : List Bool} {nodes : List DfaNode} {i : Nat} {d : DfaNode} (h : (pruneDead leads nodes)[i]? = some d) :
    ∃ d0, nodes[i]? = some d0 ∧ d.attrs = d0.attrs ∧ d.map = d0.map.map fun o => o.filter fun j => leads.getD j false := by
  unfold pruneDead at h
  rw [List.getElem?_map] at h
  cases h0 : nodes[i]? with
  | none => rw [h0] at h; cases h
  | some d0 => rw [h0] at h; cases h; exact ⟨d0, rfl, rfl, rfl⟩

/-- The classes in the end and the automaton without transitions to dead states. -/
theorem stable_pruned {defaults : List Text} {leads : List Bool} {nodes : List DfaNode} (hlen : ∀ d ∈ nodes, d.attrs.length = defaults.length)
    (hll : leads.length = nodes.length) (hl : ∀ i, leads.getD i false = true ↔ Leads defaults nodes i) {c : Classes}
    (hi : ClassInv defaults (pruneDead leads nodes) c)
    (hk : ∀ i j, i < (pruneDead leads nodes).length → j < (pruneDead leads nodes).length → c.cls.getD i 0 = c.cls.getD j 0 →
      generalKey c.cls (pruneDead leads nodes) i = generalKey c.cls (pruneDead leads nodes) j) :
    Stable defaults leads c.cls (pruneDead leads nodes) := by
  have hpl : (pruneDead leads nodes).length = nodes.length := by simp [pruneDead]
  have hget : ∀ {i : Nat} {d : DfaNode}, (pruneDead leads nodes)[i]? = some d → i < (pruneDead leads nodes).length := fun h =>
    (List.getElem?_eq_some_iff.1 h).1
  have hattrs : ∀ (i j : Nat) (d e : DfaNode), (pruneDead leads nodes)[i]? = some d → (pruneDead leads nodes)[j]? = some e →
      c.cls.getD i 0 = c.cls.getD j 0 → fillAttrs defaults d.attrs = fillAttrs defaults e.attrs := by
    intro i j d e hd he hij
    have := hi.same i j (hget hd) (hget he) hij
    unfold initialCompare at this
    rw [compareAttrs_eq, hd, he] at this
    exact this
  have hmoves : ∀ (i j : Nat) (d e : DfaNode), (pruneDead leads nodes)[i]? = some d → (pruneDead leads nodes)[j]? = some e →
      c.cls.getD i 0 = c.cls.getD j 0 → d.map.map (destClass c.cls) = e.map.map (destClass c.cls) := by
    intro i j d e hd he hij
    have := hk i j (hget hd) (hget he) hij
    unfold generalKey at this
    simp only [List.cons.injEq, hd, he, Option.elim_some] at this
    have h := this.2.2
    have inj : ∀ o o' : Option Nat, o.elim 0 (· + 1) = o'.elim 0 (· + 1) → o = o' := by
      intro o o' h
      cases o <;> cases o' <;> simp at h ⊢
      exact h
    have hl : d.map.length = e.map.length := by
      have := congrArg List.length h
      simpa using this
    apply List.ext_getElem?
    intro t
    have ht := congrArg (fun l => l[t]?) h
    simp only [List.getElem?_map] at ht ⊢
    cases ha : d.map[t]? with
    | none =>
      rw [ha] at ht
      cases hb : e.map[t]? with
      | none => rfl
      | some o => rw [hb] at ht; cases ht
    | some o =>
      rw [ha] at ht
      cases hb : e.map[t]? with
      | none => rw [hb] at ht; cases ht
      | some o' =>
        rw [hb] at ht
        simp only [Option.map_some, Option.some.injEq] at ht ⊢
        exact inj _ _ ht
  -- a state in the class of a live state is live
  have hlive : ∀ (v : List Nat) (i j k : Nat) (d : DfaNode), i < nodes.length → j < nodes.length → c.cls.getD i 0 = c.cls.getD j 0 →
      runNodes nodes (some i) v = some k → nodes[k]? = some d → nondefault defaults d.attrs = true → Leads defaults nodes j := by
    intro v
    induction v with
    | nil =>
      intro i j k d hi' hj' hij h1 h2 h3
      simp only [runNodes, List.foldl_nil, Option.some.injEq] at h1
      subst h1
      have g1 : (pruneDead leads nodes)[i]? = some { d with map := d.map.map fun o => o.filter fun j => leads.getD j false } := by
        unfold pruneDead; rw [List.getElem?_map, h2]; rfl
      have g2 : (pruneDead leads nodes)[j]? = some { nodes[j] with map := nodes[j].map.map fun o => o.filter fun j => leads.getD j false } := by
        unfold pruneDead; rw [List.getElem?_map, List.getElem?_eq_getElem hj']; rfl
      have he := hattrs i j _ _ g1 g2 hij
      simp only at he
      refine ⟨[], j, nodes[j], rfl, List.getElem?_eq_getElem hj', ?_⟩
      cases hb : nondefault defaults nodes[j].attrs with
      | true => rfl
      | false =>
        rw [nondefault_iff (hlen _ (List.getElem_mem hj'))] at hb
        rw [hb, ← nondefault_iff (hlen d (List.mem_of_getElem? h2)), h3] at he
        cases he
    | cons t v ih =>
      intro i j k d hi' hj' hij h1 h2 h3
      rw [runNodes_cons] at h1
      cases hst : stepNode nodes (some i) t with
      | none => rw [hst, runNodes_none] at h1; cases h1
      | some m =>
        rw [hst] at h1
        have hm : Leads defaults nodes m := ⟨v, k, d, h1, h2, h3⟩
        have hml := (hl m).2 hm
        have hmlt : m < nodes.length := by
          rcases Nat.lt_or_ge m leads.length with h | h
          · rw [← hll]; exact h
          · rw [List.getD_eq_getElem?_getD, List.getElem?_eq_none h] at hml; cases hml
        -- in the automaton without dead states both step to the same class
        have g1 : (pruneDead leads nodes)[i]? = some { nodes[i] with map := nodes[i].map.map fun o => o.filter fun j => leads.getD j false } := by
          unfold pruneDead; rw [List.getElem?_map, List.getElem?_eq_getElem hi']; rfl
        have g2 : (pruneDead leads nodes)[j]? = some { nodes[j] with map := nodes[j].map.map fun o => o.filter fun j => leads.getD j false } := by
          unfold pruneDead; rw [List.getElem?_map, List.getElem?_eq_getElem hj']; rfl
        have hmv := hmoves i j _ _ g1 g2 hij
        have hmt := congrArg (fun l => l[t]?) hmv
        simp only [List.getElem?_map] at hmt
        unfold stepNode at hst
        simp only [Option.bind_some, List.getElem?_eq_getElem hi'] at hst
        have hm' : nodes[i].map[t]? = some (some m) := by
          cases hm : nodes[i].map[t]? with
          | none => rw [hm] at hst; cases hst
          | some o => rw [hm] at hst; simp only [Option.join_some] at hst; rw [hst]
        rw [hm'] at hmt
        simp only [Option.map_some, Option.filter_some, hml, if_true] at hmt
        cases hb : nodes[j].map[t]? with
        | none => rw [hb] at hmt; cases hmt
        | some o =>
          rw [hb] at hmt
          simp only [Option.map_some, Option.some.injEq] at hmt
          cases o with
          | none => simp [destClass] at hmt
          | some m' =>
            rw [Option.filter_some] at hmt
            split at hmt
            · rename_i hm'l
              have hm'lt : m' < nodes.length := by
                rcases Nat.lt_or_ge m' leads.length with h | h
                · rw [← hll]; exact h
                · rw [List.getD_eq_getElem?_getD, List.getElem?_eq_none h] at hm'l; cases hm'l
              exact leads_step (List.getElem?_eq_getElem hj') (List.mem_of_getElem? hb) ((hl m').1 hm'l)
            · simp [destClass] at hmt
  refine ⟨hi.len, by rw [hpl]; exact hll, hattrs, hmoves, ?_, ?_⟩
  · intro i j hi' hj' hij
    rw [hpl] at hi' hj'
    rw [Bool.eq_iff_iff, hl, hl]
    constructor
    · rintro ⟨v, k, d, h1, h2, h3⟩; exact hlive v i j k d hi' hj' hij h1 h2 h3
    · rintro ⟨v, k, d, h1, h2, h3⟩; exact hlive v j i k d hj' hi' hij.symm h1 h2 h3
  · intro i d hd k hk'
    obtain ⟨d0, e1, e2, e3⟩ := pruneDead_get hd
    rw [e3] at hk'
    obtain ⟨o, ho, e4⟩ := List.mem_map.1 hk'
    cases o with
    | none => cases e4
    | some m =>
      rw [Option.filter_some] at e4
      split at e4
      · rename_i hml
        cases e4
        exact ⟨(hl i).2 (leads_step e1 ho ((hl k).1 hml)), hml⟩
      · cases e4

theorem stateAttrs_prune {defaults : List Text} {leads : List Bool} {nodes : List DfaNode} (hlen : ∀ d ∈ nodes, d.attrs.length = defaults.length)
    (hl : ∀ i, leads.getD i false = true ↔ Leads defaults nodes i) (s : Option Nat) (w : List Nat) :
    stateAttrs defaults (pruneDead leads nodes) (runNodes (pruneDead leads nodes) s w) = stateAttrs defaults nodes (runNodes nodes s w) := by
  rcases run_prune hl w s with h | ⟨h1, h2⟩
  · rw [h]
    unfold stateAttrs
    cases runNodes nodes s w with
    | none => rfl
    | some j =>
      simp only [Option.bind_some]
      unfold pruneDead
      rw [List.getElem?_map]
      cases nodes[j]? with
      | none => rfl
      | some d => rfl
  · rw [h1]
    unfold stateAttrs
    cases hj : runNodes nodes s w with
    | none => rfl
    | some j =>
      simp only [Option.bind_none, Option.bind_some]
      cases hd : nodes[j]? with
      | none => rfl
      | some d =>
        simp only
        have := h2 j hj
        cases hb : nondefault defaults d.attrs with
        | true => exact absurd ⟨[], j, d, rfl, hd, hb⟩ this
        | false => exact ((nondefault_iff (hlen d (List.mem_of_getElem? hd))).1 hb).symm

theorem newOf_lt {defaults : List Text} {leads : List Bool} {cls : List Nat} {nodes : List DfaNode} (hs : Stable defaults leads cls nodes) (es : List Nat)
    {i k : Nat} (hi : i < nodes.length) (h : newOf (leads.map fun b => !b) cls i = some k) :
    k < (compressStates (leads.map fun b => !b) cls nodes es).1.length := by
  obtain ⟨h1, h2⟩ := compress_get hs es hi
  cases hl : leads.getD i false with
  | false => rw [h1 hl] at h; cases h
  | true =>
    obtain ⟨k', d, e1, _, e3⟩ := h2 hl
    rw [h] at e1
    cases e1
    rcases Nat.lt_or_ge k (compressStates (leads.map fun b => !b) cls nodes es).1.length with h | h
    · exact h
    · rw [List.getElem?_eq_none h] at e3; cases e3

theorem idx_newOf {defaults : List Text} {leads : List Bool} {cls : List Nat} {nodes : List DfaNode} (hs : Stable defaults leads cls nodes)
    {j : Nat} (hj : j < nodes.length) :
    ((newIndices (leads.map fun b => !b) cls (List.range nodes.length) 0 [])[j]?).join = newOf (leads.map fun b => !b) cls j := by
  have := newIndices_spec (dead := leads.map fun b => !b) (cls := cls) nodes.length 0 [] (by simp [hs.len]) rfl (fun k hk => by omega) j
    (by rw [hs.len]; exact hj)
  rw [← List.range_eq_range'] at this
  have e0 : nextOf (leads.map fun b => !b) cls 0 = 0 := by simp [nextOf]
  rw [e0] at this
  rw [this]
  rfl

theorem compress_shape {defaults : List Text} {leads : List Bool} {cls : List Nat} {nodes : List DfaNode} (hs : Stable defaults leads cls nodes) (es : List Nat)
    {nt : Nat} (hw : ∀ d ∈ nodes, d.map.length = nt) (hes : ∀ e ∈ es, e < nodes.length) :
    (compressStates (leads.map fun b => !b) cls nodes es).1.length ≤ nodes.length ∧
    (∀ d ∈ (compressStates (leads.map fun b => !b) cls nodes es).1, d.map.length = nt ∧
      ∀ j, some j ∈ d.map → j < (compressStates (leads.map fun b => !b) cls nodes es).1.length) ∧
    (∀ k, some k ∈ (compressStates (leads.map fun b => !b) cls nodes es).2 → k < (compressStates (leads.map fun b => !b) cls nodes es).1.length) := by
  refine ⟨?_, ?_, ?_⟩
  · unfold compressStates
    simp only [List.length_map]
    exact Nat.le_trans (List.length_filter_le _ _) (by simp)
  · intro d hd
    have hd' := hd
    unfold compressStates at hd'
    simp only [List.mem_map, List.mem_filter] at hd'
    obtain ⟨⟨d0, i⟩, ⟨h1, _⟩, rfl⟩ := hd'
    rw [List.mem_zipIdx_iff_getElem?] at h1
    have hd0 := List.mem_of_getElem? h1
    refine ⟨by simp [hw d0 hd0], ?_⟩
    intro k hk
    simp only [List.mem_map] at hk
    obtain ⟨o, h3, h4⟩ := hk
    cases o with
    | none => cases h4
    | some j =>
      simp only [Option.bind_some] at h4
      have hj : j < nodes.length := by
        have := (hs.pruned _ _ h1 j h3).2
        rcases Nat.lt_or_ge j leads.length with h | h
        · rw [← hs.lenLeads]; exact h
        · rw [List.getD_eq_getElem?_getD, List.getElem?_eq_none h] at this; cases this
      rw [idx_newOf hs hj] at h4
      exact newOf_lt hs es hj h4
  · intro k hk
    have hk' := hk
    unfold compressStates at hk'
    simp only [List.mem_map] at hk'
    obtain ⟨e, h1, h2⟩ := hk'
    rw [idx_newOf hs (hes e h1)] at h2
    exact newOf_lt hs es (hes e h1) h2

/-- The compressed automaton has the attributes of the automaton after all tokens; it has stopped when no attributes but the defaults can
follow. -/
theorem compress_spec {sort : StateSort} (hsort : SortsStates sort) {defaults : List Text} {nodes : List DfaNode} {es : List Nat}
    (hlen : ∀ d ∈ nodes, d.attrs.length = defaults.length) (hes : ∀ e ∈ es, e < nodes.length) {nt : Nat} (hw : ∀ d ∈ nodes, d.map.length = nt) :
    ∃ nodes' es', compressDfa sort defaults nodes es = .ok (nodes', es') ∧ nodes'.length ≤ nodes.length ∧
      (∀ d ∈ nodes', d.map.length = nt ∧ ∀ j, some j ∈ d.map → j < nodes'.length) ∧ (∀ k, some k ∈ es' → k < nodes'.length) ∧
      Pairs (fun e e' => ∀ w, stateAttrs defaults nodes' (runNodes nodes' e' w) = stateAttrs defaults nodes (runNodes nodes (some e) w) ∧
        (runNodes nodes' e' w = none ↔ ∀ v, stateAttrs defaults nodes (runNodes nodes (some e) (w ++ v)) = defaults)) es es' := by
  unfold compressDfa
  by_cases hne : nodes = []
  · rw [if_pos hne]
    refine ⟨_, _, rfl, Nat.le_refl _, (fun d hd => by rw [hne] at hd; cases hd), ?_⟩
    have : es = [] := by
      cases es with
      | nil => rfl
      | cons e es => have := hes e List.mem_cons_self; rw [hne] at this; simp at this
    subst this
    exact ⟨(fun k hk => by cases hk), .nil⟩
  · rw [if_neg hne]
    obtain ⟨leads, h1, h2, h3⟩ := leadsTo_spec defaults nodes
    simp only [bind, Except.bind, h1]
    have hpl : (pruneDead leads nodes).length = nodes.length := by simp [pruneDead]
    have hpne : pruneDead leads nodes ≠ [] := by
      intro h
      rw [h] at hpl
      exact hne (List.length_eq_zero_iff.1 hpl.symm)
    obtain ⟨c, g1, g2, g3⟩ := refineLoop_spec hsort hpne (nodes.length + 1) _ (classInv_initial hsort defaults hpne) (by omega)
    simp only [g1]
    have hs := stable_pruned hlen h2 h3 g2 g3
    have hwp : ∀ d ∈ pruneDead leads nodes, d.map.length = nt := by
      intro d hd
      obtain ⟨i, hi⟩ := List.mem_iff_getElem?.1 hd
      obtain ⟨d0, e0, _, e2⟩ := pruneDead_get hi
      rw [e2, List.length_map]
      exact hw d0 (List.mem_of_getElem? e0)
    obtain ⟨q1, q2, q3⟩ := compress_shape hs es hwp (fun e he => by rw [hpl]; exact hes e he)
    rw [hpl] at q1
    refine ⟨_, _, rfl, q1, q2, q3, ?_⟩
    have key : ∀ e, e < nodes.length → ∀ w,
        stateAttrs defaults (compressStates (leads.map fun b => !b) c.cls (pruneDead leads nodes) es).1
          (runNodes (compressStates (leads.map fun b => !b) c.cls (pruneDead leads nodes) es).1 (newOf (leads.map fun b => !b) c.cls e) w) =
            stateAttrs defaults nodes (runNodes nodes (some e) w) ∧
        (runNodes (compressStates (leads.map fun b => !b) c.cls (pruneDead leads nodes) es).1 (newOf (leads.map fun b => !b) c.cls e) w = none ↔
          ∀ v, stateAttrs defaults nodes (runNodes nodes (some e) (w ++ v)) = defaults) := by
      intro e he w
      have hrun := run_compress hs es w (some e) (fun i h => by cases h; rw [hpl]; exact he)
      rw [Option.bind_some] at hrun
      rw [hrun, ← stateAttrs_prune hlen h3]
      cases hj : runNodes (pruneDead leads nodes) (some e) w with
      | none =>
        refine ⟨rfl, ?_⟩
        simp only [Option.bind_none, true_iff]
        intro v
        rw [← stateAttrs_prune hlen h3, runNodes_append, hj, runNodes_none]
        rfl
      | some j =>
        have hjlt : j < (pruneDead leads nodes).length := by
          rcases Nat.lt_or_ge j (pruneDead leads nodes).length with h | h
          · exact h
          · -- every state reached is a state
            exfalso
            have hrange : ∀ (w : List Nat) (s : Option Nat), (∀ i, s = some i → i < (pruneDead leads nodes).length) →
                ∀ j, runNodes (pruneDead leads nodes) s w = some j → j < (pruneDead leads nodes).length := by
              intro w
              induction w with
              | nil => intro s hs' j hj; exact hs' j hj
              | cons t w ih =>
                intro s hs' j hj
                rw [runNodes_cons] at hj
                refine ih _ ?_ j hj
                intro i hi
                rw [step_prune] at hi
                cases hst : stepNode nodes s t with
                | none => rw [hst] at hi; cases hi
                | some m =>
                  rw [hst, Option.filter_some] at hi
                  split at hi
                  · rename_i hml
                    cases hi
                    rcases Nat.lt_or_ge i leads.length with h | h
                    · rw [hpl, ← h2]; exact h
                    · rw [List.getD_eq_getElem?_getD, List.getElem?_eq_none h] at hml; cases hml
                  · cases hi
            have := hrange w (some e) (fun i h => by cases h; rw [hpl]; exact he) j hj
            omega
        obtain ⟨k1, k2⟩ := compress_get hs es hjlt
        have hlj : leads.getD j false = leads.getD j false := rfl
        simp only [Option.bind_some]
        cases hb : leads.getD j false with
        | false =>
          rw [k1 hb]
          have hnl : ¬ Leads defaults nodes j := by rw [← h3, hb]; simp
          have hrunj : runNodes nodes (some e) w = some j := by
            rcases run_prune h3 w (some e) with h | ⟨h, _⟩
            · rw [← h, hj]
            · rw [hj] at h; cases h
          have hall : ∀ v, stateAttrs defaults nodes (runNodes nodes (some j) v) = defaults := by
            intro v
            unfold stateAttrs
            cases hv : runNodes nodes (some j) v with
            | none => rfl
            | some k =>
              simp only [Option.bind_some]
              cases hd : nodes[k]? with
              | none => rfl
              | some d =>
                simp only
                cases hn : nondefault defaults d.attrs with
                | true => exact absurd ⟨v, k, d, hv, hd, hn⟩ hnl
                | false => exact (nondefault_iff (hlen d (List.mem_of_getElem? hd))).1 hn
          refine ⟨?_, ?_⟩
          · have := stateAttrs_prune hlen h3 (some e) w
            rw [hj] at this
            rw [this, hrunj]
            exact (hall []).symm
          · simp only [true_iff]
            intro v
            rw [runNodes_append, hrunj]
            exact hall v
        | true =>
          obtain ⟨k, d, e1, e2, e3⟩ := k2 hb
          rw [e1]
          refine ⟨?_, ?_⟩
          · unfold stateAttrs
            simp only [Option.bind_some, e3, List.getElem?_eq_getElem hjlt]
            exact hs.attrs _ _ _ _ e2 (List.getElem?_eq_getElem hjlt) (repOf_le (by rw [hs.len]; exact hjlt)).2
          · simp only [reduceCtorEq, false_iff]
            intro hall
            obtain ⟨v, m, dm, q1, q2, q3⟩ := (h3 j).1 hb
            have hrunj : runNodes nodes (some e) w = some j := by
              rcases run_prune h3 w (some e) with h | ⟨h, _⟩
              · rw [← h, hj]
              · rw [hj] at h; cases h
            have := hall v
            rw [runNodes_append, hrunj, q1] at this
            unfold stateAttrs at this
            simp only [Option.bind_some, q2] at this
            rw [← nondefault_iff (hlen dm (List.mem_of_getElem? q2)), q3] at this
            cases this
    have hidx : ∀ e, e < nodes.length → ((newIndices (leads.map fun b => !b) c.cls (List.range (pruneDead leads nodes).length) 0 [])[e]?).join =
        newOf (leads.map fun b => !b) c.cls e := by
      intro e he
      have := newIndices_spec (dead := leads.map fun b => !b) (cls := c.cls) (pruneDead leads nodes).length 0 [] (by simp [hs.len]) rfl
        (fun k hk => by omega) e (by rw [hs.len, hpl]; exact he)
      rw [← List.range_eq_range'] at this
      have e0 : nextOf (leads.map fun b => !b) c.cls 0 = 0 := by simp [nextOf]
      rw [e0] at this
      rw [this]; rfl
    have aux : ∀ (l : List Nat), (∀ e ∈ l, e < nodes.length) → Pairs (fun e e' => ∀ w,
        stateAttrs defaults (compressStates (leads.map fun b => !b) c.cls (pruneDead leads nodes) es).1
          (runNodes (compressStates (leads.map fun b => !b) c.cls (pruneDead leads nodes) es).1 e' w) = stateAttrs defaults nodes (runNodes nodes (some e) w) ∧
        (runNodes (compressStates (leads.map fun b => !b) c.cls (pruneDead leads nodes) es).1 e' w = none ↔
          ∀ v, stateAttrs defaults nodes (runNodes nodes (some e) (w ++ v)) = defaults)) l
        (l.map fun e => ((newIndices (leads.map fun b => !b) c.cls (List.range (pruneDead leads nodes).length) 0 [])[e]?).join) := by
      intro l
      induction l with
      | nil => intro _; exact .nil
      | cons e l ih =>
        intro hl
        refine .cons ?_ (ih fun x hx => hl x (List.mem_cons_of_mem _ hx))
        simp only
        rw [hidx e (hl e List.mem_cons_self)]
        exact key e (hl e List.mem_cons_self)
    exact aux es hes

end Mairix
