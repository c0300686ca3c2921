import Verif.Proofs.Scanner
import Verif.Proofs.SubsetEnds
import Verif.Proofs.DbView

/-!
# When dfasyn rejects an input file
-/

namespace Mairix
open Spec

theorem evalGroup_two {defs : TagDefs} {set : Text → Bool} {S : Text → Prop} (hS : ∀ t, set t = true ↔ S t) : ∀ (l : List AttrDef)
    (m r : Option AttrDef), evalGroup defs set l m = .ok (r, false) →
    (∃ v x, m = some v ∧ x ∈ l ∧ Evals defs S x.expr true) ∨
    (∃ pre x mid y post, l = pre ++ x :: (mid ++ y :: post) ∧ Evals defs S x.expr true ∧ Evals defs S y.expr true)
  | [], m, r, h => by cases h
  | a :: l, m, r, h => by
    unfold evalGroup at h
    simp only [bind, Except.bind] at h
    cases h1 : evalTag defs set (evalFuel defs a.expr) a.expr with
    | error f => rw [h1] at h; cases h
    | ok x =>
      rw [h1] at h
      simp only at h
      have hx := evalTag_spec hS _ _ _ h1
      cases x with
      | false =>
        simp only [Bool.false_eq_true, if_false] at h
        rcases evalGroup_two hS l m r h with ⟨v, x, e1, e2, e3⟩ | ⟨pre, x, mid, y, post, e1, e2⟩
        · exact Or.inl ⟨v, x, e1, List.mem_cons_of_mem _ e2, e3⟩
        · exact Or.inr ⟨a :: pre, x, mid, y, post, by rw [e1]; rfl, e2⟩
      | true =>
        simp only [if_true] at h
        cases m with
        | some v => exact Or.inl ⟨v, a, rfl, List.mem_cons_self, hx⟩
        | none =>
          simp only at h
          rcases evalGroup_two hS l _ r h with ⟨v, x, e1, e2, e3⟩ | ⟨pre, x, mid, y, post, e1, e2⟩
          · cases e1
            obtain ⟨mid, post, rfl⟩ := List.append_of_mem e2
            exact Or.inr ⟨[], _, mid, x, post, rfl, hx, e3⟩
          · exact Or.inr ⟨a :: pre, x, mid, y, post, by rw [e1]; rfl, e2⟩

theorem evaluateAttrs_two {defs : TagDefs} {set : Text → Bool} {S : Text → Prop} (hS : ∀ t, set t = true ↔ S t) : ∀ (l : List Evaluator)
    (r : List (Option Text)) (early : Bool), evaluateAttrs defs set l = .ok (r, early, false) →
    ∃ ev ∈ l, ∃ pre x mid y post, ev.attrs = pre ++ x :: (mid ++ y :: post) ∧ Evals defs S x.expr true ∧ Evals defs S y.expr true
  | [], r, early, h => by cases h
  | ev :: l, r, early, h => by
    unfold evaluateAttrs at h
    simp only [bind, Except.bind] at h
    cases h1 : evalGroup defs set ev.attrs none with
    | error f => rw [h1] at h; cases h
    | ok m =>
      obtain ⟨m, b⟩ := m
      rw [h1] at h
      simp only at h
      cases h2 : evaluateAttrs defs set l with
      | error f => rw [h2] at h; cases h
      | ok rest =>
        obtain ⟨r', early', one'⟩ := rest
        rw [h2] at h
        simp only [Except.ok.injEq, Prod.mk.injEq] at h
        cases b with
        | false =>
          rcases evalGroup_two hS _ _ _ h1 with ⟨v, x, e1, _⟩ | e
          · cases e1
          · exact ⟨ev, List.mem_cons_self, e⟩
        | true =>
          have : one' = false := by simpa using h.2.2
          subst this
          obtain ⟨ev', e1, e2⟩ := evaluateAttrs_two hS l r' early' h2
          exact ⟨ev', List.mem_cons_of_mem _ e1, e2⟩

/-- All sets are reached from an entry, before an attribute stops the scanner. -/
def ReachedSet (a : Auto) (entries : List Nat) (nfas : Bits) : Prop :=
  ∃ e ∈ entries, ∃ w, NoStop a e w ∧ SetIs a e w nfas ∧ ∃ y, Moves a.states e w y

theorem find_none_plain {defs : TagDefs} {name : Text} (h : defs.find name = none) : Plain defs name := by
  intro d hd hn
  unfold TagDefs.find at h
  cases hf : defs.reverse.find? (fun d => d.1 == name) with
  | none =>
    rw [List.find?_eq_none] at hf
    exact hf d (List.mem_reverse.2 hd) (by simp [hn])
  | some x => rw [hf] at h; cases h

/-- A set is given attributes unless something is wrong. -/
theorem newNode_clear {a : Auto} (hd : Acyclic a.defs) {entries : List Nat} {nfas : Bits} (hr : ReachedSet a entries nfas) :
    Wrong a entries ∨ ∃ d, newNode a nfas = .ok (d, true) := by
  obtain ⟨e, he, w, hw, h, hm⟩ := hr
  unfold newNode
  split
  · rename_i ht
    rw [List.any_eq_true] at ht
    obtain ⟨t, ht1, ht2⟩ := ht
    refine Or.inl ⟨e, he, w, hw, hm, Or.inr ⟨t, (tagsIn_iff h t).1 (by simpa using ht1), ?_⟩⟩
    intro hp
    rw [plain_find hp] at ht2
    cases ht2
  · obtain ⟨⟨r, early, one⟩, h1⟩ := evaluateAttrs_ok hd (fun t => (tagsIn a.states nfas).contains t) a.evaluators
    simp only [h1, bind, Except.bind]
    cases one with
    | true => exact Or.inr ⟨_, rfl⟩
    | false => exact Or.inl ⟨e, he, w, hw, hm, Or.inl (evaluateAttrs_two (tagsIn_iff h) _ _ _ h1)⟩

theorem nodeFor_reached {a : Auto} (ha : Acyclic a.defs) {entries : List Nat} {s : Building} {nfas : Bits} (hr : ReachedSet a entries nfas)
    (hs : s.ambiguous = false) (hd : ∀ d ∈ s.nodes, ReachedSet a entries d.nfas) :
    Wrong a entries ∨ ∃ s' i, nodeFor a s nfas = .ok (s', i) ∧ s'.ambiguous = false ∧ ∀ d ∈ s'.nodes, ReachedSet a entries d.nfas := by
  unfold nodeFor
  cases hf : findDfa s.nodes nfas with
  | some k => exact Or.inr ⟨_, _, rfl, hs, hd⟩
  | none =>
    rcases newNode_clear ha hr with hw | ⟨d, h1⟩
    · exact Or.inl hw
    · simp only [h1, bind, Except.bind]
      refine Or.inr ⟨_, _, rfl, by simp [hs], ?_⟩
      intro d' hd'
      simp only [List.mem_append, List.mem_singleton] at hd'
      rcases hd' with hd' | rfl
      · exact hd d' hd'
      · rw [(newNode_shape h1).1]; exact hr

theorem addEntries_reached {a : Auto} (ha : Acyclic a.defs) {entries : List Nat} {eclo : List Bits} (he : EcloOk a eclo) : ∀ (l : List Nat) (s : Building),
    (∀ e ∈ l, e ∈ entries ∧ e < a.states.length) → s.ambiguous = false → (∀ d ∈ s.nodes, ReachedSet a entries d.nfas) →
    Wrong a entries ∨ ∃ s' r, addEntries a eclo l s = .ok (s', r) ∧ s'.ambiguous = false ∧ ∀ d ∈ s'.nodes, ReachedSet a entries d.nfas
  | [], s, _, hs, hd => Or.inr ⟨_, _, rfl, hs, hd⟩
  | e :: l, s, hl, hs, hd => by
    unfold addEntries
    obtain ⟨hl1, hl2⟩ := hl e List.mem_cons_self
    have hr : ReachedSet a entries (eclo.getD e []) := by
      refine ⟨e, hl1, [], ?_, ⟨he.len e hl2, he.has e hl2⟩, e, .stay⟩
      intro p hp hne
      exact absurd (List.prefix_nil.1 hp) hne
    rcases nodeFor_reached ha hr hs hd with hu | ⟨s1, i, h1, g1, g2⟩
    · exact Or.inl hu
    · rcases addEntries_reached ha he l s1 (fun e' he' => hl e' (List.mem_cons_of_mem _ he')) g1 g2 with hu | ⟨s2, r, h2, k1, k2⟩
      · exact Or.inl hu
      · simp only [h1, h2, bind, Except.bind]
        exact Or.inr ⟨_, _, rfl, k1, k2⟩

theorem addMoves_reached {a : Auto} (ha : Acyclic a.defs) (hr : InRange a) {entries : List Nat} {eclo : List Bits} (he : EcloOk a eclo) {nfas : Bits} {e : Nat}
    {w : List Nat} (hent : e ∈ entries) (hset : SetIs a e w nfas) (hns : ∀ t, NoStop a e (w ++ [t])) : ∀ (l : List Nat) (s : Building),
    s.ambiguous = false → (∀ d ∈ s.nodes, ReachedSet a entries d.nfas) →
    Wrong a entries ∨ ∃ s' r, addMoves a eclo nfas l s = .ok (s', r) ∧ s'.ambiguous = false ∧ ∀ d ∈ s'.nodes, ReachedSet a entries d.nfas
  | [], s, hs, hd => Or.inr ⟨_, _, rfl, hs, hd⟩
  | t :: l, s, hs, hd => by
    unfold addMoves
    split
    · rename_i hany
      have hmv := setIs_move hr he hset t
      have hreach : ReachedSet a entries (moveBits a eclo nfas t) := by
        refine ⟨e, hent, w ++ [t], hns t, hmv, ?_⟩
        rw [List.any_eq_true] at hany
        obtain ⟨x, hx, hxt⟩ := hany
        obtain ⟨y, hy⟩ := List.mem_iff_getElem?.1 hx
        refine ⟨y, (hmv.2 y).1 ?_⟩
        unfold Bits.has
        rw [List.getD_eq_getElem?_getD, hy]
        exact hxt
      rcases nodeFor_reached ha hreach hs hd with hu | ⟨s1, i, h1, g1, g2⟩
      · exact Or.inl hu
      · rcases addMoves_reached ha hr he hent hset hns l s1 g1 g2 with hu | ⟨s2, r, h2, k1, k2⟩
        · exact Or.inl hu
        · simp only [h1, h2, bind, Except.bind]
          exact Or.inr ⟨_, _, rfl, k1, k2⟩
    · rcases addMoves_reached ha hr he hent hset hns l s hs hd with hu | ⟨s2, r, h2, k1, k2⟩
      · exact Or.inl hu
      · simp only [h2, bind, Except.bind]
        exact Or.inr ⟨_, _, rfl, k1, k2⟩

theorem buildLoop_reached {a : Auto} (ha : Acyclic a.defs) (hr : InRange a) {entries : List Nat} {eclo : List Bits} (he : EcloOk a eclo) :
    ∀ (fuel next : Nat) (s : Building), BInv a s → s.ambiguous = false → (∀ d ∈ s.nodes, ReachedSet a entries d.nfas) →
    next ≤ s.nodes.length → 2 ^ a.states.length < fuel + next →
    Wrong a entries ∨ ∃ s', buildLoop a eclo fuel next s = .ok s' ∧ s'.ambiguous = false ∧ (s'.nodes.map DfaNode.nfas).Nodup ∧
      ∀ d ∈ s'.nodes, ReachedSet a entries d.nfas
  | 0, next, s, hi, _, _, hle, h => by have := nodes_bound hi; omega
  | fuel + 1, next, s, hi, hs, hd, hle, hf => by
    unfold buildLoop
    cases hn : s.nodes[next]? with
    | none => exact Or.inr ⟨s, rfl, hs, hi.nodup, hd⟩
    | some d =>
      simp only
      have hmem := List.mem_of_getElem? hn
      have hlt := (List.getElem?_eq_some_iff.1 hn).1
      split
      · exact buildLoop_reached ha hr he fuel _ s hi hs hd (by omega) (by omega)
      · rename_i hearly
        obtain ⟨e, hent, w, hw, hset, hm⟩ := hd d hmem
        have hnst : ¬ StopsAt a (Tagged a.states e w) := fun hst => hearly ((node_attrs hi hs hmem hset).2.2 hst)
        have hns : ∀ t, NoStop a e (w ++ [t]) := by
          intro t p hp hpne
          rcases List.prefix_concat_iff.1 hp with h | h
          · exact absurd h hpne
          · by_cases hpv : p = w
            · subst hpv; exact hnst
            · exact hw p h hpv
        rcases addMoves_reached ha hr he hent hset hns (List.range a.nt) s hs hd with hu | ⟨s1, r, h1, g1, g2⟩
        · exact Or.inl hu
        · obtain ⟨k1, ⟨ext, k2, _⟩, _⟩ := addMoves_spec hr he d.nfas _ _ _ _ hi h1
          simp only [h1, bind, Except.bind]
          refine buildLoop_reached ha hr he fuel _ _ (bInv_modify k1 next r) g1 ?_ ?_ (by omega)
          · intro d' hd'
            have : d'.nfas ∈ (s1.nodes.modify next fun d => { d with map := r }).map DfaNode.nfas := List.mem_map_of_mem hd'
            rw [nfas_modify] at this
            obtain ⟨d0, hd0, e0⟩ := List.mem_map.1 this
            rw [← e0]
            exact g2 d0 hd0
          · simp only [List.length_modify]
            rw [k2, List.length_append]
            omega

/-- The automaton is built unless something is wrong. -/
theorem build_ok {a : Auto} {entries : List Nat} (hr : a.inRange entries = true) (ha : Acyclic a.defs) :
    Wrong a entries ∨ ∃ r, buildDfa a entries = .ok r ∧ (r.1.map DfaNode.nfas).Nodup ∧ ∀ d ∈ r.1, ReachedSet a entries d.nfas := by
  unfold buildDfa
  rw [if_pos hr]
  obtain ⟨hr, hent⟩ := inRange_iff.1 hr
  obtain ⟨eclo, h1, h2, h3⟩ := generateEclo_spec (states := a.states) hr.eps
  have he : EcloOk a eclo := ⟨h2, h3⟩
  simp only [bind, Except.bind, h1]
  rcases addEntries_reached ha he entries ⟨[], false⟩ (fun e hee => ⟨hee, hent e hee⟩) rfl (fun d hd => by cases hd) with hu | ⟨s, r, h4, k1, k2⟩
  · exact Or.inl hu
  · obtain ⟨g1, _, _⟩ := addEntries_spec he _ _ _ _ ⟨by simp, fun d hd => by cases hd⟩ hent h4
    simp only [h4]
    rcases buildLoop_reached ha hr he (2 ^ a.states.length + 1) 0 s g1 k1 k2 (Nat.zero_le _) (by omega) with hu | ⟨s', h5, h6, h7⟩
    · exact Or.inl hu
    · simp only [h5, h6]
      exact Or.inr ⟨_, rfl, h7⟩

/-- If the automaton is built, nothing is wrong. -/
theorem build_not_wrong {a : Auto} {entries : List Nat} {r : List DfaNode × List Nat} (h : buildDfa a entries = .ok r) : ¬ Wrong a entries := by
  rintro ⟨e, he, w, hw, hm, hbad⟩
  have key : ∃ d : DfaNode, SetIs a e w d.nfas ∧ ∃ d', newNode a d.nfas = .ok (d', true) := by
    unfold buildDfa at h
    split at h
    · rename_i hr
      obtain ⟨hr, hent⟩ := inRange_iff.1 hr
      obtain ⟨eclo, h1, h2, h3⟩ := generateEclo_spec (states := a.states) hr.eps
      have heo : EcloOk a eclo := ⟨h2, h3⟩
      rw [h1] at h
      simp only [bind, Except.bind] at h
      cases h4 : addEntries a eclo entries ⟨[], false⟩ with
      | error f => rw [h4] at h; cases h
      | ok q =>
        obtain ⟨s, r⟩ := q
        rw [h4] at h
        simp only at h
        cases h5 : buildLoop a eclo (2 ^ a.states.length + 1) 0 s with
        | error f => rw [h5] at h; cases h
        | ok s' =>
          rw [h5] at h
          simp only at h
          split at h
          · cases h
          · rename_i hamb
            have ha : s'.ambiguous = false := by simpa using hamb
            obtain ⟨g1, g2, g3⟩ := addEntries_spec heo _ _ _ _ ⟨by simp, fun d hd => by cases hd⟩ hent h4
            have hfresh : ∀ (i : Nat) (d : DfaNode), 0 ≤ i → s.nodes[i]? = some d → d.map = List.replicate a.nt none := by
              intro i d _ hd
              obtain ⟨ext, e1, e2⟩ := g2
              rw [e1] at hd
              exact e2 d (List.mem_of_getElem? (by simpa using hd))
            obtain ⟨k1, k2, k3⟩ := buildLoop_spec hr heo _ 0 s s' ⟨g1, (fun i d hid => by omega), hfresh⟩ h5
            obtain ⟨i, _, hi⟩ := pairs_left g3 he
            have hrun := run_spec hr heo k1 ha k2 (hent e he) (k3 i _ hi) _ w rfl hw
            cases hj : runNodes s'.nodes (some i) w with
            | none =>
              rw [hj] at hrun
              obtain ⟨y, hy⟩ := hm
              exact absurd hy (hrun y)
            | some j =>
              rw [hj] at hrun
              obtain ⟨d, hd, hset, _⟩ := hrun
              obtain ⟨_, b, q1, q2⟩ := k1.good d (List.mem_of_getElem? hd)
              rw [q2 ha] at q1
              exact ⟨d, hset, _, q1⟩
    · cases h
  obtain ⟨d, hset, d', hn⟩ := key
  unfold newNode at hn
  split at hn
  · cases hn
  · rename_i hnt
    rcases hbad with ⟨ev, hev, pre, x, mid, y, post, e1, e2, e3⟩ | ⟨t, ht, hp⟩
    · obtain ⟨⟨r', early, one⟩, h1, hn⟩ := res_bind_ok hn
      simp only [Except.ok.injEq, Prod.mk.injEq] at hn
      obtain ⟨_, rfl⟩ := hn
      obtain ⟨g1, _⟩ := evaluateAttrs_spec (tagsIn_iff hset) _ _ _ _ h1
      obtain ⟨o, _, ho⟩ := pairs_left (g1 rfl) hev
      cases ho with
      | @one pre' x' post' f1 f2 f3 =>
        have two : ∀ (l1 : List AttrDef) (l2 l3 : List AttrDef), pre' ++ x' :: post' = l1 ++ x :: (l2 ++ y :: l3) → False := by
          intro l1 l2 l3 hh
          rcases List.append_eq_append_iff.1 hh with ⟨as, q1, q2⟩ | ⟨bs, q1, q2⟩
          · cases as with
            | nil =>
              simp only [List.nil_append, List.cons.injEq] at q2
              cases evals_det (f3 y (by rw [q2.2]; simp)) e3
            | cons z as =>
              simp only [List.cons_append, List.cons.injEq] at q2
              cases evals_det (f3 x (by rw [q2.2]; simp)) e2
          · cases bs with
            | nil =>
              simp only [List.nil_append, List.cons.injEq] at q2
              cases evals_det (f3 y (by rw [← q2.2]; simp)) e3
            | cons z bs' =>
              simp only [List.cons_append, List.cons.injEq] at q2
              cases evals_det (f3 x (by rw [q1, ← q2.1]; simp)) e2
        exact two pre mid post (f1.symm.trans e1)
      | default f => cases evals_det (f x (by rw [e1]; simp)) e2
    · apply hp
      apply find_none_plain
      cases hf : a.defs.find t with
      | none => rfl
      | some x =>
        exfalso
        apply hnt
        rw [List.any_eq_true]
        refine ⟨t, ?_, by rw [hf]; rfl⟩
        have := (tagsIn_iff hset t).2 ht
        simpa using this

end Mairix
