import Verif.Proofs.Subset

/-!
# The construction of the deterministic automaton: the states and what the automaton does
-/

namespace Mairix
open Spec

/-- What is known of the states so far. -/
structure BInv (a : Auto) (s : Building) : Prop where
  nodup : (s.nodes.map DfaNode.nfas).Nodup
  good : ∀ d ∈ s.nodes, d.nfas.length = a.states.length ∧
    ∃ b, newNode a d.nfas = .ok ({ d with map := List.replicate a.nt none }, b) ∧ (s.ambiguous = false → b = true)

theorem newNode_shape {a : Auto} {nfas : Bits} {d : DfaNode} {b : Bool} (h : newNode a nfas = .ok (d, b)) :
    d.nfas = nfas ∧ d.map = List.replicate a.nt none := by
  unfold newNode at h
  split at h
  · cases h
  · cases h1 : evaluateAttrs a.defs (fun t => (tagsIn a.states nfas).contains t) a.evaluators with
    | error f => simp only [h1, bind, Except.bind] at h; cases h
    | ok r => simp only [h1, bind, Except.bind] at h; cases h; exact ⟨rfl, rfl⟩

theorem nodeFor_spec {a : Auto} {s s' : Building} {nfas : Bits} {i : Nat} (hi : BInv a s) (hl : nfas.length = a.states.length)
    (h : nodeFor a s nfas = .ok (s', i)) :
    BInv a s' ∧ (∃ ext, s'.nodes = s.nodes ++ ext ∧ ∀ d ∈ ext, d.map = List.replicate a.nt none) ∧
      (s'.nodes.map DfaNode.nfas)[i]? = some nfas := by
  unfold nodeFor at h
  cases hf : findDfa s.nodes nfas with
  | some j =>
    rw [hf] at h
    cases h
    refine ⟨hi, ⟨[], by simp⟩, ?_⟩
    unfold findDfa at hf
    rw [List.findIdx?_eq_some_iff_getElem] at hf
    obtain ⟨h1, h2, _⟩ := hf
    simp only [beq_iff_eq] at h2
    rw [List.getElem?_map, List.getElem?_eq_getElem h1, Option.map_some, h2]
  | none =>
    rw [hf] at h
    simp only [bind, Except.bind] at h
    cases h1 : newNode a nfas with
    | error f => rw [h1] at h; cases h
    | ok r =>
      obtain ⟨d, b⟩ := r
      rw [h1] at h
      cases h
      obtain ⟨e1, e2⟩ := newNode_shape h1
      refine ⟨⟨?_, ?_⟩, ⟨[d], rfl, ?_⟩, ?_⟩
      · rw [List.map_append, List.nodup_append]
        refine ⟨hi.nodup, by simp, ?_⟩
        intro x hx y hy hxy
        simp only [List.map_cons, List.map_nil, List.mem_singleton] at hy
        subst hxy
        rw [hy, e1] at hx
        unfold findDfa at hf
        rw [List.findIdx?_eq_none_iff] at hf
        obtain ⟨z, hz, hz'⟩ := List.mem_map.1 hx
        have := hf z hz
        simp [hz'] at this
      · intro x hx
        rcases List.mem_append.1 hx with hx | hx
        · obtain ⟨g1, b', g2, g3⟩ := hi.good x hx
          refine ⟨g1, b', g2, ?_⟩
          intro ha
          simp only [Bool.or_eq_false_iff] at ha
          exact g3 ha.1
        · rw [List.mem_singleton] at hx
          subst hx
          refine ⟨by rw [e1]; exact hl, b, ?_, ?_⟩
          · rw [e1, h1]; cases x; cases e1; cases e2; rfl
          · intro ha
            simp only [Bool.or_eq_false_iff, Bool.not_eq_false'] at ha
            exact ha.2
      · intro x hx
        rw [List.mem_singleton] at hx
        rw [hx, e2]
      · simp [e1]

/-- The later states are added at the end; the earlier ones stay. -/
def Extends (nt : Nat) (s s' : Building) : Prop := ∃ ext, s'.nodes = s.nodes ++ ext ∧ ∀ d ∈ ext, d.map = List.replicate nt none

theorem Extends.refl {nt : Nat} (s : Building) : Extends nt s s := ⟨[], by simp, by simp⟩

theorem Extends.trans {nt : Nat} {s s' s'' : Building} (h : Extends nt s s') (h' : Extends nt s' s'') : Extends nt s s'' := by
  obtain ⟨e1, h1, g1⟩ := h
  obtain ⟨e2, h2, g2⟩ := h'
  refine ⟨e1 ++ e2, by rw [h2, h1, List.append_assoc], ?_⟩
  intro d hd
  rcases List.mem_append.1 hd with hd | hd
  · exact g1 d hd
  · exact g2 d hd

theorem Extends.get {nt : Nat} {s s' : Building} (h : Extends nt s s') {i : Nat} {x : Bits} (hx : (s.nodes.map DfaNode.nfas)[i]? = some x) :
    (s'.nodes.map DfaNode.nfas)[i]? = some x := by
  obtain ⟨ext, h1, _⟩ := h
  rw [h1, List.map_append, List.getElem?_append_left]
  · exact hx
  · rcases Nat.lt_or_ge i (s.nodes.map DfaNode.nfas).length with h | h
    · exact h
    · rw [List.getElem?_eq_none h] at hx; cases hx

theorem addEntries_spec {a : Auto} {eclo : List Bits} (he : EcloOk a eclo) : ∀ (l : List Nat) (s s' : Building) (r : List Nat),
    BInv a s → (∀ e ∈ l, e < a.states.length) → addEntries a eclo l s = .ok (s', r) →
    BInv a s' ∧ Extends a.nt s s' ∧ Pairs (fun e i => (s'.nodes.map DfaNode.nfas)[i]? = some (eclo.getD e [])) l r
  | [], s, s', r, hi, _, h => by cases h; exact ⟨hi, .refl s, .nil⟩
  | e :: l, s, s', r, hi, hl, h => by
    unfold addEntries at h
    simp only [bind, Except.bind] at h
    cases h1 : nodeFor a s (eclo.getD e []) with
    | error f => rw [h1] at h; cases h
    | ok q =>
      obtain ⟨s1, i⟩ := q
      rw [h1] at h
      simp only at h
      cases h2 : addEntries a eclo l s1 with
      | error f => rw [h2] at h; cases h
      | ok rest =>
        obtain ⟨s2, r'⟩ := rest
        rw [h2] at h
        cases h
        obtain ⟨g1, g2, g3⟩ := nodeFor_spec hi (he.len e (hl e List.mem_cons_self)) h1
        obtain ⟨k1, k2, k3⟩ := addEntries_spec he l s1 s2 r' g1 (fun e h => hl e (List.mem_cons_of_mem _ h)) h2
        exact ⟨k1, Extends.trans g2 k2, .cons (k2.get g3) k3⟩

/-- Where a state should go with a token. -/
def MoveIs (a : Auto) (eclo : List Bits) (nodes : List DfaNode) (nfas : Bits) (t : Nat) (o : Option Nat) : Prop :=
  match o with
  | some j => (nodes.map DfaNode.nfas)[j]? = some (moveBits a eclo nfas t) ∧ (moveBits a eclo nfas t).any id = true
  | none => (moveBits a eclo nfas t).any id = false

theorem MoveIs.mono {a : Auto} {eclo : List Bits} {s s' : Building} {nfas : Bits} {t : Nat} {o : Option Nat} (hx : Extends a.nt s s')
    (h : MoveIs a eclo s.nodes nfas t o) : MoveIs a eclo s'.nodes nfas t o := by
  cases o with
  | none => exact h
  | some j => exact ⟨hx.get h.1, h.2⟩

theorem addMoves_spec {a : Auto} (hr : InRange a) {eclo : List Bits} (he : EcloOk a eclo) (nfas : Bits) : ∀ (l : List Nat) (s s' : Building)
    (r : List (Option Nat)), BInv a s → addMoves a eclo nfas l s = .ok (s', r) →
    BInv a s' ∧ Extends a.nt s s' ∧ Pairs (MoveIs a eclo s'.nodes nfas) l r
  | [], s, s', r, hi, h => by cases h; exact ⟨hi, .refl s, .nil⟩
  | t :: l, s, s', r, hi, h => by
    unfold addMoves at h
    split at h
    · rename_i hany
      simp only [bind, Except.bind] at h
      cases h1 : nodeFor a s (moveBits a eclo nfas t) with
      | error f => rw [h1] at h; cases h
      | ok q =>
        obtain ⟨s1, i⟩ := q
        rw [h1] at h
        simp only at h
        cases h2 : addMoves a eclo nfas l s1 with
        | error f => rw [h2] at h; cases h
        | ok rest =>
          obtain ⟨s2, r'⟩ := rest
          rw [h2] at h
          cases h
          obtain ⟨g1, g2, g3⟩ := nodeFor_spec hi (length_moveBits hr he nfas t) h1
          obtain ⟨k1, k2, k3⟩ := addMoves_spec hr he nfas l s1 s2 r' g1 h2
          exact ⟨k1, Extends.trans g2 k2, .cons ⟨k2.get g3, hany⟩ k3⟩
    · rename_i hany
      simp only [bind, Except.bind] at h
      cases h2 : addMoves a eclo nfas l s with
      | error f => rw [h2] at h; cases h
      | ok rest =>
        obtain ⟨s2, r'⟩ := rest
        rw [h2] at h
        cases h
        obtain ⟨k1, k2, k3⟩ := addMoves_spec hr he nfas l s s2 r' hi h2
        exact ⟨k1, k2, .cons (by simpa [MoveIs] using hany) k3⟩

/-- The transitions of a state are those of its set. -/
def DoneNode (a : Auto) (eclo : List Bits) (nodes : List DfaNode) (d : DfaNode) : Prop :=
  (d.early = true → d.map = List.replicate a.nt none) ∧
  (d.early = false → Pairs (MoveIs a eclo nodes d.nfas) (List.range a.nt) d.map)

/-- What the loop keeps. -/
structure LoopInv (a : Auto) (eclo : List Bits) (next : Nat) (s : Building) : Prop where
  inv : BInv a s
  done : ∀ (i : Nat) (d : DfaNode), i < next → s.nodes[i]? = some d → DoneNode a eclo s.nodes d
  fresh : ∀ (i : Nat) (d : DfaNode), next ≤ i → s.nodes[i]? = some d → d.map = List.replicate a.nt none

theorem pairs_mono {α β : Type} {R S : α → β → Prop} (hRS : ∀ x y, R x y → S x y) {l : List α} {l' : List β} (h : Pairs R l l') : Pairs S l l' := by
  induction h with
  | nil => exact .nil
  | cons h1 _ ih => exact .cons (hRS _ _ h1) ih

theorem nfas_modify (l : List DfaNode) (i : Nat) (m : List (Option Nat)) :
    (l.modify i fun d => { d with map := m }).map DfaNode.nfas = l.map DfaNode.nfas := by
  apply List.ext_getElem?
  intro k
  rw [List.getElem?_map, List.getElem?_map, List.getElem?_modify]
  cases l[k]? with
  | none => simp
  | some d => simp only [Option.map_eq_map, Option.map_some]; split <;> rfl

theorem buildLoop_spec {a : Auto} (hr : InRange a) {eclo : List Bits} (he : EcloOk a eclo) : ∀ (fuel next : Nat) (s s' : Building),
    LoopInv a eclo next s → buildLoop a eclo fuel next s = .ok s' →
    BInv a s' ∧ (∀ d ∈ s'.nodes, DoneNode a eclo s'.nodes d) ∧
      (∀ (i : Nat) (x : Bits), (s.nodes.map DfaNode.nfas)[i]? = some x → (s'.nodes.map DfaNode.nfas)[i]? = some x)
  | 0, _, _, _, _, h => by cases h
  | fuel + 1, next, s, s', hi, h => by
    unfold buildLoop at h
    cases hd : s.nodes[next]? with
    | none =>
      rw [hd] at h
      cases h
      refine ⟨hi.inv, ?_, fun _ _ h => h⟩
      intro d hm
      obtain ⟨i, hi'⟩ := List.getElem?_of_mem hm
      refine hi.done i d ?_ hi'
      rw [List.getElem?_eq_none_iff] at hd
      have := (List.getElem?_eq_some_iff.1 hi').1
      omega
    | some d =>
      rw [hd] at h
      simp only at h
      split at h
      · rename_i hearly
        refine buildLoop_spec hr he fuel (next + 1) s s' ⟨hi.inv, ?_, fun i x hx => hi.fresh i x (by omega)⟩ h
        intro i x hix hx
        rcases Nat.lt_or_ge i next with hlt | hge
        · exact hi.done i x hlt hx
        · have : i = next := by omega
          subst this
          rw [hd] at hx; cases hx
          exact ⟨fun _ => hi.fresh i d (Nat.le_refl _) hd, fun hh => by rw [hearly] at hh; cases hh⟩
      · rename_i hearly
        simp only [bind, Except.bind] at h
        cases h1 : addMoves a eclo d.nfas (List.range a.nt) s with
        | error f => rw [h1] at h; cases h
        | ok q =>
          obtain ⟨s1, r⟩ := q
          rw [h1] at h
          simp only at h
          obtain ⟨g1, g2, g3⟩ := addMoves_spec hr he d.nfas _ s s1 r hi.inv h1
          have hmap := nfas_modify s1.nodes next r
          have hkeep : ∀ (x : DfaNode), DoneNode a eclo s1.nodes x → DoneNode a eclo (s1.nodes.modify next fun d => { d with map := r }) x := by
            intro x hx
            refine ⟨hx.1, fun hh => pairs_mono ?_ (hx.2 hh)⟩
            intro t o ho
            cases o with
            | none => exact ho
            | some j => unfold MoveIs at ho ⊢; rw [hmap]; exact ho
          have hgrow : ∀ (x : DfaNode), DoneNode a eclo s.nodes x → DoneNode a eclo s1.nodes x :=
            fun x hx => ⟨hx.1, fun hh => pairs_mono (fun _ _ => MoveIs.mono g2) (hx.2 hh)⟩
          have hnext : s1.nodes[next]? = some d := by
            obtain ⟨ext, e1, _⟩ := g2
            rw [e1, List.getElem?_append_left (List.getElem?_eq_some_iff.1 hd).1]
            exact hd
          have := buildLoop_spec hr he fuel (next + 1) _ s' ⟨⟨?_, ?_⟩, ?_, ?_⟩ h
          · obtain ⟨k1, k2, k3⟩ := this
            refine ⟨k1, k2, ?_⟩
            intro i x hx
            apply k3
            rw [hmap]
            exact g2.get hx
          · show (List.map _ _).Nodup
            rw [hmap]; exact g1.nodup
          · intro x hx
            obtain ⟨i, hi'⟩ := List.getElem?_of_mem hx
            simp only [List.getElem?_modify] at hi'
            cases hy : s1.nodes[i]? with
            | none => rw [hy] at hi'; cases hi'
            | some y =>
              rw [hy] at hi'
              simp only [Option.map_eq_map, Option.map_some, Option.some.injEq] at hi'
              obtain ⟨q1, b, q2, q3⟩ := g1.good y (List.mem_of_getElem? hy)
              by_cases hn : next = i
              · rw [if_pos hn] at hi'
                subst hi'
                exact ⟨q1, b, q2, q3⟩
              · rw [if_neg hn] at hi'
                subst hi'
                exact ⟨q1, b, q2, q3⟩
          · intro i x hix hx
            simp only [List.getElem?_modify] at hx
            cases hy : s1.nodes[i]? with
            | none => rw [hy] at hx; cases hx
            | some y =>
              rw [hy] at hx
              simp only [Option.map_eq_map, Option.map_some, Option.some.injEq] at hx
              apply hkeep
              by_cases hn : next = i
              · subst hn
                rw [if_pos rfl] at hx
                rw [hnext] at hy; cases hy
                subst hx
                exact ⟨fun hh => absurd hh hearly, fun _ => g3⟩
              · rw [if_neg hn] at hx
                subst hx
                apply hgrow
                refine hi.done i y (by omega) ?_
                obtain ⟨ext, e1, _⟩ := g2
                rw [e1, List.getElem?_append_left] at hy
                · exact hy
                · have := (List.getElem?_eq_some_iff.1 hd).1; omega
          · intro i x hix hx
            simp only [List.getElem?_modify] at hx
            cases hy : s1.nodes[i]? with
            | none => rw [hy] at hx; cases hx
            | some y =>
              rw [hy] at hx
              simp only [Option.map_eq_map, Option.map_some, Option.some.injEq] at hx
              rw [if_neg (by omega)] at hx
              subst hx
              obtain ⟨ext, e1, e2⟩ := g2
              rcases Nat.lt_or_ge i s.nodes.length with hlt | hge
              · rw [e1, List.getElem?_append_left hlt] at hy
                exact hi.fresh i y (by omega) hy
              · rw [e1, List.getElem?_append_right hge] at hy
                exact e2 y (List.mem_of_getElem? hy)

theorem evaluateAttrs_length {defs : TagDefs} {set : Text → Bool} : ∀ (l : List Evaluator) (r : List (Option Text) × Bool × Bool),
    evaluateAttrs defs set l = .ok r → r.1.length = l.length
  | [], r, h => by cases h; rfl
  | ev :: l, r, h => by
    unfold evaluateAttrs at h
    simp only [bind, Except.bind] at h
    cases h1 : evalGroup defs set ev.attrs none with
    | error f => rw [h1] at h; cases h
    | ok m =>
      rw [h1] at h
      simp only at h
      cases h2 : evaluateAttrs defs set l with
      | error f => rw [h2] at h; cases h
      | ok rest =>
        rw [h2] at h
        cases h
        simp [evaluateAttrs_length l rest h2]

/-! ## What the automaton does -/

/-- One step of the automaton. -/
def stepNode (nodes : List DfaNode) (s : Option Nat) (t : Nat) : Option Nat :=
  s.bind fun i => (nodes[i]?).bind fun d => (d.map[t]?).join

/-- The state after the tokens. -/
def runNodes (nodes : List DfaNode) (s : Option Nat) (w : List Nat) : Option Nat := w.foldl (stepNode nodes) s

theorem tagsIn_iff {a : Auto} {e : Nat} {w : List Nat} {nfas : Bits} (h : SetIs a e w nfas) (t : Text) :
    (tagsIn a.states nfas).contains t = true ↔ Tagged a.states e w t := by
  rw [List.contains_iff_mem]
  unfold tagsIn Tagged
  rw [List.mem_flatMap]
  constructor
  · rintro ⟨x, h1, h2⟩
    split at h2
    · rename_i hn
      exact ⟨x.2, x.1, (h.2 _).1 hn, mem_zipIdx_states.1 h1, h2⟩
    · cases h2
  · rintro ⟨m, st, h1, h2, h3⟩
    refine ⟨(st, m), mem_zipIdx_states.2 h2, ?_⟩
    simp only
    rw [if_pos ((h.2 m).2 h1)]
    exact h3

/-- The attributes of a state built for the set reached with the tokens. -/
theorem node_attrs {a : Auto} {s : Building} (hi : BInv a s) (ha : s.ambiguous = false) {d : DfaNode} (hd : d ∈ s.nodes) {e : Nat} {w : List Nat}
    (h : SetIs a e w d.nfas) :
    Pairs (AttrIs a.defs (Tagged a.states e w)) a.evaluators d.attrs ∧ (d.early = true ↔ StopsAt a (Tagged a.states e w)) := by
  obtain ⟨_, b, h1, h2⟩ := hi.good d hd
  have hb := h2 ha
  subst hb
  unfold newNode at h1
  split at h1
  · cases h1
  · cases h3 : evaluateAttrs a.defs (fun t => (tagsIn a.states d.nfas).contains t) a.evaluators with
    | error f => simp only [h3, bind, Except.bind] at h1; cases h1
    | ok r =>
      obtain ⟨r1, r2, r3⟩ := r
      simp only [h3, bind, Except.bind, Except.ok.injEq, Prod.mk.injEq, DfaNode.mk.injEq] at h1
      obtain ⟨⟨_, _, e1, e2⟩, e3⟩ := h1
      subst e1 e2 e3
      obtain ⟨g1, g2, g3⟩ := evaluateAttrs_spec (tagsIn_iff h) _ _ _ _ h3
      refine ⟨g1 rfl, g2, ?_⟩
      intro hst
      cases hb : d.early with
      | true => rfl
      | false => exact absurd hst (g3 rfl hb)

theorem pairs_range_get {α : Type} {R : Nat → α → Prop} : ∀ {n : Nat} {l : List α}, Pairs R (List.range n) l →
    l.length = n ∧ ∀ t < n, ∃ x, l[t]? = some x ∧ R t x := by
  have aux : ∀ (m k : Nat) (l : List α), Pairs R (List.range' k m) l → l.length = m ∧ ∀ t < m, ∃ x, l[t]? = some x ∧ R (k + t) x := by
    intro m
    induction m with
    | zero => intro k l h; cases h; exact ⟨rfl, fun t ht => by omega⟩
    | succ m ih =>
      intro k l h
      rw [List.range'_succ] at h
      cases h with
      | @cons _ x _ l h1 h2 =>
        obtain ⟨g1, g2⟩ := ih (k + 1) l h2
        refine ⟨by rw [List.length_cons, g1], ?_⟩
        intro t ht
        cases t with
        | zero => exact ⟨x, rfl, h1⟩
        | succ t =>
          obtain ⟨y, e1, e2⟩ := g2 t (by omega)
          exact ⟨y, by rw [List.getElem?_cons_succ]; exact e1, by rw [show k + (t + 1) = k + 1 + t by omega]; exact e2⟩
  intro n l h
  rw [List.range_eq_range'] at h
  obtain ⟨g1, g2⟩ := aux n 0 l h
  exact ⟨g1, fun t ht => by simpa using g2 t ht⟩

theorem run_spec {a : Auto} (hr : InRange a) {eclo : List Bits} (he : EcloOk a eclo) {s : Building} (hi : BInv a s) (ha : s.ambiguous = false)
    (hdone : ∀ d ∈ s.nodes, DoneNode a eclo s.nodes d) {e i : Nat} (hel : e < a.states.length)
    (hs : (s.nodes.map DfaNode.nfas)[i]? = some (eclo.getD e [])) : ∀ (n : Nat) (w : List Nat), w.length = n → NoStop a e w →
    match runNodes s.nodes (some i) w with
    | some j => ∃ d, s.nodes[j]? = some d ∧ SetIs a e w d.nfas ∧ ∃ y, d.nfas.has y = true
    | none => ∀ y, ¬ Moves a.states e w y
  | 0, w, hn, _ => by
    cases w with
    | cons => cases hn
    | nil =>
      simp only [runNodes, List.foldl_nil]
      rw [List.getElem?_map] at hs
      cases hd : s.nodes[i]? with
      | none => rw [hd] at hs; cases hs
      | some d =>
        rw [hd] at hs
        simp only [Option.map_some, Option.some.injEq] at hs
        refine ⟨d, rfl, ?_⟩
        rw [hs]
        exact ⟨⟨he.len e hel, he.has e hel⟩, e, (he.has e hel e).2 .stay⟩
  | n + 1, w, hn, hstop => by
    have hne : w ≠ [] := by intro h; rw [h] at hn; cases hn
    obtain ⟨v, t, rfl⟩ : ∃ v t, w = v ++ [t] := ⟨w.dropLast, w.getLast hne, (List.dropLast_concat_getLast hne).symm⟩
    have hv : v.length = n := by simpa using hn
    have hstop' : NoStop a e v := fun p hp hpv => hstop p (List.IsPrefix.trans hp (List.prefix_append _ _)) (by
      intro hh
      subst hh
      have := hp.length_le
      rw [List.length_append, List.length_singleton] at this
      omega)
    have ih := run_spec hr he hi ha hdone hel hs n v hv hstop'
    have hrun : runNodes s.nodes (some i) (v ++ [t]) = stepNode s.nodes (runNodes s.nodes (some i) v) t := by
      unfold runNodes; rw [List.foldl_append]; rfl
    rw [hrun]
    cases hj : runNodes s.nodes (some i) v with
    | none =>
      rw [hj] at ih
      simp only at ih
      show ∀ y, _
      intro y hy
      obtain ⟨m, _, _, h1, _⟩ := moves_snoc.1 hy
      exact ih m h1
    | some j =>
      rw [hj] at ih
      simp only at ih
      obtain ⟨d, hd, hset, _⟩ := ih
      have hmem := List.mem_of_getElem? hd
      have hearly : d.early = false := by
        cases hh : d.early with
        | false => rfl
        | true =>
          refine absurd ((node_attrs hi ha hmem hset).2.1 hh) (hstop v (List.prefix_append _ _) ?_)
          intro hvv
          have := congrArg List.length hvv
          simp at this
      obtain ⟨hlen, hget⟩ := pairs_range_get ((hdone d hmem).2 hearly)
      have hnextset := setIs_move hr he hset t
      have hstep : stepNode s.nodes (some j) t = (d.map[t]?).join := by
        unfold stepNode; simp only [Option.bind_some, hd]
      rw [hstep]
      rcases Nat.lt_or_ge t a.nt with ht | ht
      · obtain ⟨o, ho, hm⟩ := hget t ht
        rw [ho]
        simp only [Option.join_some]
        cases o with
        | none =>
          simp only
          intro y hy
          have := (hnextset.2 y).2 hy
          unfold MoveIs at hm
          simp only at hm
          rw [show (moveBits a eclo d.nfas t).any id = true from bits_any.2 ⟨y, this⟩] at hm
          cases hm
        | some k =>
          simp only
          unfold MoveIs at hm
          simp only at hm
          obtain ⟨hm, hany⟩ := hm
          rw [List.getElem?_map] at hm
          cases hk : s.nodes[k]? with
          | none => rw [hk] at hm; cases hm
          | some d' =>
            rw [hk] at hm
            simp only [Option.map_some, Option.some.injEq] at hm
            exact ⟨d', rfl, by rw [hm]; exact hnextset, by rw [hm]; exact bits_any.1 hany⟩
      · rw [List.getElem?_eq_none (by omega)]
        simp only [Option.join_none]
        intro y hy
        obtain ⟨m, st, dd, _, h2, h3, _⟩ := moves_snoc.1 hy
        have := (hr.token st (List.mem_of_getElem? h2) t dd h3).1
        omega

/-- After the scanner should have stopped it does not go on. -/
theorem run_stopped {a : Auto} (hr : InRange a) {eclo : List Bits} (he : EcloOk a eclo) {s : Building} (hi : BInv a s) (ha : s.ambiguous = false)
    (hdone : ∀ d ∈ s.nodes, DoneNode a eclo s.nodes d) {e i : Nat} (hel : e < a.states.length)
    (hs : (s.nodes.map DfaNode.nfas)[i]? = some (eclo.getD e [])) : ∀ (n : Nat) (w : List Nat), w.length = n → ¬ NoStop a e w →
    runNodes s.nodes (some i) w = none
  | 0, w, hn, hst => by
    cases w with
    | cons => cases hn
    | nil =>
      exfalso
      apply hst
      intro p hp hne
      exact absurd (List.prefix_nil.1 hp) hne
  | n + 1, w, hn, hst => by
    have hne : w ≠ [] := by intro h; rw [h] at hn; cases hn
    obtain ⟨v, t, rfl⟩ : ∃ v t, w = v ++ [t] := ⟨w.dropLast, w.getLast hne, (List.dropLast_concat_getLast hne).symm⟩
    have hv : v.length = n := by simpa using hn
    have hrun : runNodes s.nodes (some i) (v ++ [t]) = stepNode s.nodes (runNodes s.nodes (some i) v) t := by
      unfold runNodes; rw [List.foldl_append]; rfl
    rw [hrun]
    by_cases hvs : NoStop a e v
    · have hstop : StopsAt a (Tagged a.states e v) := by
        apply Classical.byContradiction
        intro hns
        apply hst
        intro p hp hpne
        rcases List.prefix_concat_iff.1 hp with h | h
        · exact absurd h hpne
        · by_cases hpv : p = v
          · subst hpv; exact hns
          · exact hvs p h hpv
      have ih := run_spec hr he hi ha hdone hel hs n v hv hvs
      cases hj : runNodes s.nodes (some i) v with
      | none => rfl
      | some j =>
        rw [hj] at ih
        simp only at ih
        obtain ⟨d, hd, hset, _⟩ := ih
        have hmem := List.mem_of_getElem? hd
        have hearly := (node_attrs hi ha hmem hset).2.2 hstop
        unfold stepNode
        simp only [Option.bind_some, hd, (hdone d hmem).1 hearly]
        cases hm : (List.replicate a.nt (none : Option Nat))[t]? with
        | none => rfl
        | some o =>
          have := List.mem_of_getElem? hm
          rw [List.mem_replicate] at this
          rw [this.2]; rfl
    · rw [run_stopped hr he hi ha hdone hel hs n v hv hvs]
      rfl

/-- The automaton built does what the file says. -/
theorem build_run {a : Auto} {entries : List Nat} {nodes : List DfaNode} {es : List Nat} (h : buildDfa a entries = .ok (nodes, es)) :
    (∀ d ∈ nodes, d.map.length = a.nt ∧ ∀ j, some j ∈ d.map → j < nodes.length) ∧ (∀ i ∈ es, i < nodes.length) ∧
    (∀ d ∈ nodes, d.attrs.length = a.evaluators.length) ∧
    Pairs (fun e i => ∀ w, (¬ NoStop a e w → runNodes nodes (some i) w = none) ∧ (NoStop a e w →
      match runNodes nodes (some i) w with
      | some j => ∃ d, nodes[j]? = some d ∧ (∃ y, Moves a.states e w y) ∧ Pairs (AttrIs a.defs (Tagged a.states e w)) a.evaluators d.attrs
      | none => ∀ y, ¬ Moves a.states e w y)) entries es := by
  unfold buildDfa at h
  split at h
  · rename_i hr
    obtain ⟨hr, hent⟩ := inRange_iff.1 hr
    obtain ⟨eclo, h1, h2, h3⟩ := generateEclo_spec (states := a.states) hr.eps
    rw [h1] at h
    simp only [bind, Except.bind] at h
    have he : EcloOk a eclo := ⟨h2, h3⟩
    cases h4 : addEntries a eclo entries ⟨[], false⟩ with
    | error f => rw [h4] at h; cases h
    | ok q =>
      obtain ⟨s, r⟩ := q
      rw [h4] at h
      simp only at h
      cases h5 : buildLoop a eclo (2 ^ a.states.length + 1) 0 s with
      | error f => rw [h5] at h; cases h
      | ok s' =>
        rw [h5] at h
        simp only at h
        split at h
        · cases h
        · rename_i hamb
          cases h
          have ha : s'.ambiguous = false := by simpa using hamb
          obtain ⟨g1, g2, g3⟩ := addEntries_spec he _ _ _ _ ⟨by simp, fun d hd => by cases hd⟩ hent h4
          have hfresh : ∀ (i : Nat) (d : DfaNode), 0 ≤ i → s.nodes[i]? = some d → d.map = List.replicate a.nt none := by
            intro i d _ hd
            obtain ⟨ext, e1, e2⟩ := g2
            rw [e1] at hd
            exact e2 d (List.mem_of_getElem? (by simpa using hd))
          obtain ⟨k1, k2, k3⟩ := buildLoop_spec hr he _ 0 s s' ⟨g1, (fun i d hid => by omega), hfresh⟩ h5
          · have hidx : ∀ {j : Nat} {x : Bits}, (s'.nodes.map DfaNode.nfas)[j]? = some x → j < s'.nodes.length := by
              intro j x hx
              have := (List.getElem?_eq_some_iff.1 hx).1
              simpa using this
            refine ⟨?_, ?_, ?_, ?_⟩
            · intro d hd
              cases hearly : d.early with
              | true =>
                rw [(k2 d hd).1 hearly]
                refine ⟨by simp, ?_⟩
                intro j hj
                rw [List.mem_replicate] at hj
                cases hj.2
              | false =>
                obtain ⟨q1, q2⟩ := pairs_range_get ((k2 d hd).2 hearly)
                refine ⟨q1, ?_⟩
                intro j hj
                obtain ⟨t, ht⟩ := List.getElem?_of_mem hj
                obtain ⟨o, ho, hm⟩ := q2 t (by have := (List.getElem?_eq_some_iff.1 ht).1; omega)
                rw [ht] at ho; cases ho
                exact hidx hm.1
            · intro i hi
              have : ∀ {l : List Nat} {r : List Nat}, Pairs (fun e i => (s.nodes.map DfaNode.nfas)[i]? = some (eclo.getD e [])) l r → ∀ i ∈ r, i < s'.nodes.length := by
                intro l r hp
                induction hp with
                | nil => intro i hi; cases hi
                | cons h1 _ ih =>
                  intro i hi
                  rcases List.mem_cons.1 hi with rfl | hi
                  · exact hidx (k3 _ _ h1)
                  · exact ih i hi
              exact this g3 i hi
            · intro d hd
              obtain ⟨_, b, q1, _⟩ := k1.good d hd
              unfold newNode at q1
              split at q1
              · cases q1
              · cases q2 : evaluateAttrs a.defs (fun t => (tagsIn a.states d.nfas).contains t) a.evaluators with
                | error f => simp only [q2, bind, Except.bind] at q1; cases q1
                | ok r =>
                  simp only [q2, bind, Except.bind, Except.ok.injEq, Prod.mk.injEq, DfaNode.mk.injEq] at q1
                  rw [← q1.1.2.2.1]
                  exact evaluateAttrs_length _ _ q2
            · have aux : ∀ {l r : List Nat}, (∀ e ∈ l, e < a.states.length) →
                  Pairs (fun e i => (s.nodes.map DfaNode.nfas)[i]? = some (eclo.getD e [])) l r →
                  Pairs (fun e i => e < a.states.length ∧ (s.nodes.map DfaNode.nfas)[i]? = some (eclo.getD e [])) l r := by
                intro l r hl hp
                induction hp with
                | nil => exact .nil
                | cons h1 _ ih => exact .cons ⟨hl _ List.mem_cons_self, h1⟩ (ih fun e h => hl e (List.mem_cons_of_mem _ h))
              refine pairs_mono ?_ (aux hent g3)
              rintro e i ⟨hel, hs⟩ w
              refine ⟨run_stopped hr he k1 ha k2 hel (k3 i _ hs) _ w rfl, ?_⟩
              intro hw
              have hrun := run_spec hr he k1 ha k2 hel (k3 i _ hs) _ w rfl hw
              cases hj : runNodes s'.nodes (some i) w with
              | none => rw [hj] at hrun; exact hrun
              | some j =>
                rw [hj] at hrun
                simp only at hrun ⊢
                obtain ⟨d, hd, hset, y, hy⟩ := hrun
                exact ⟨d, hd, ⟨y, (hset.2 y).1 hy⟩, (node_attrs k1 ha (List.mem_of_getElem? hd) hset).1⟩
  · cases h

end Mairix
