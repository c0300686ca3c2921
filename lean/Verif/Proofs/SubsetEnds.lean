import Verif.Proofs.SubsetRun

/-!
# The construction of the deterministic automaton ends
-/

namespace Mairix
open Spec

/-- The tags an expression names. -/
def TagExpr.tags : TagExpr → List Text
  | .and a b | .or a b | .xor a b => a.tags ++ b.tags
  | .cond c a b => c.tags ++ a.tags ++ b.tags
  | .not a => a.tags
  | .tag n => [n]

/-- The depths of the definitions below a rank. -/
def rankedSum (rank : Text → Nat) (r : Nat) (defs : TagDefs) : Nat := ((defs.filter fun d => rank d.1 < r).map fun d => d.2.depth).sum

theorem rankedSum_le (rank : Text → Nat) (r : Nat) : ∀ (defs : TagDefs), rankedSum rank r defs ≤ (defs.map fun d => d.2.depth).sum
  | [] => Nat.le_refl _
  | d :: l => by
    have ih := rankedSum_le rank r l
    unfold rankedSum at ih ⊢
    rw [List.filter_cons]
    split <;> simp only [List.map_cons, List.sum_cons] <;> omega

theorem rankedSum_mono (rank : Text → Nat) {k r : Nat} (hkr : k ≤ r) : ∀ (defs : TagDefs), rankedSum rank k defs ≤ rankedSum rank r defs
  | [] => Nat.le_refl _
  | d :: l => by
    have ih := rankedSum_mono rank hkr l
    unfold rankedSum at ih ⊢
    rw [List.filter_cons, List.filter_cons]
    by_cases h1 : rank d.1 < k
    · rw [if_pos (by simpa using h1), if_pos (by simp; omega)]
      simp only [List.map_cons, List.sum_cons]; omega
    · rw [if_neg (by simpa using h1)]
      split
      · simp only [List.map_cons, List.sum_cons]; omega
      · exact ih

theorem rankedSum_mem (rank : Text → Nat) {k r : Nat} (hkr : k < r) {n : Text} {e : TagExpr} (hk : rank n = k) : ∀ (defs : TagDefs), (n, e) ∈ defs →
    e.depth + rankedSum rank k defs ≤ rankedSum rank r defs
  | [], h => by cases h
  | d :: l, h => by
    have hm := rankedSum_mono rank (Nat.le_of_lt hkr) l
    rcases List.mem_cons.1 h with rfl | h
    · unfold rankedSum at hm ⊢
      rw [List.filter_cons, List.filter_cons, if_neg (by simp [hk]), if_pos (by simp [hk, hkr])]
      simp only [List.map_cons, List.sum_cons]; omega
    · have ih := rankedSum_mem rank hkr hk l h
      unfold rankedSum at ih ⊢
      rw [List.filter_cons, List.filter_cons]
      by_cases h1 : rank d.1 < k
      · rw [if_pos (by simpa using h1), if_pos (by simp; omega)]
        simp only [List.map_cons, List.sum_cons]; omega
      · rw [if_neg (by simpa using h1)]
        split
        · simp only [List.map_cons, List.sum_cons]; omega
        · exact ih

theorem tagDefs_find_mem {defs : TagDefs} {name : Text} {e : TagExpr} (h : defs.find name = some e) : (name, e) ∈ defs := by
  obtain ⟨pre, post, h1, _⟩ := tagDefs_find.1 e h
  rw [h1]; simp

theorem evalTag_ends {defs : TagDefs} (set : Text → Bool) {rank : Text → Nat} (hd : ∀ d ∈ defs, ∀ t ∈ d.2.tags, rank t < rank d.1) :
    ∀ (fuel r : Nat) (e : TagExpr), (∀ t ∈ e.tags, rank t < r) → e.depth + rankedSum rank r defs < fuel → ∃ b, evalTag defs set fuel e = .ok b
  | 0, _, _, _, h => by omega
  | fuel + 1, r, e, ht, h => by
    have ih := evalTag_ends set hd fuel
    unfold evalTag
    cases e with
    | and x y =>
      simp only [TagExpr.tags, List.mem_append, TagExpr.depth] at ht h
      obtain ⟨b, hb⟩ := ih r x (fun t h => ht t (Or.inl h)) (by omega)
      obtain ⟨c, hc⟩ := ih r y (fun t h => ht t (Or.inr h)) (by omega)
      simp only [bind, Except.bind, hb]
      split
      · exact ⟨c, hc⟩
      · exact ⟨_, rfl⟩
    | or x y =>
      simp only [TagExpr.tags, List.mem_append, TagExpr.depth] at ht h
      obtain ⟨b, hb⟩ := ih r x (fun t h => ht t (Or.inl h)) (by omega)
      obtain ⟨c, hc⟩ := ih r y (fun t h => ht t (Or.inr h)) (by omega)
      simp only [bind, Except.bind, hb]
      split
      · exact ⟨_, rfl⟩
      · exact ⟨c, hc⟩
    | xor x y =>
      simp only [TagExpr.tags, List.mem_append, TagExpr.depth] at ht h
      obtain ⟨b, hb⟩ := ih r x (fun t h => ht t (Or.inl h)) (by omega)
      obtain ⟨c, hc⟩ := ih r y (fun t h => ht t (Or.inr h)) (by omega)
      simp only [bind, Except.bind, hb, hc]
      exact ⟨_, rfl⟩
    | cond c x y =>
      simp only [TagExpr.tags, List.mem_append, TagExpr.depth] at ht h
      obtain ⟨a, ha⟩ := ih r c (fun t h => ht t (Or.inl (Or.inl h))) (by omega)
      obtain ⟨b, hb⟩ := ih r x (fun t h => ht t (Or.inl (Or.inr h))) (by omega)
      obtain ⟨c, hc⟩ := ih r y (fun t h => ht t (Or.inr h)) (by omega)
      simp only [bind, Except.bind, ha]
      split
      · exact ⟨b, hb⟩
      · exact ⟨c, hc⟩
    | not x =>
      simp only [TagExpr.tags, TagExpr.depth] at ht h
      obtain ⟨b, hb⟩ := ih r x ht (by omega)
      simp only [bind, Except.bind, hb]
      exact ⟨_, rfl⟩
    | tag name =>
      simp only [TagExpr.tags, List.mem_singleton, TagExpr.depth, forall_eq] at ht h
      cases h1 : defs.find name with
      | none => simp only [h1]; exact ⟨_, rfl⟩
      | some e' =>
        simp only [h1]
        have hm := tagDefs_find_mem h1
        have := rankedSum_mem rank ht rfl defs hm
        exact ih (rank name) e' (hd _ hm) (by omega)

theorem rank_bound (rank : Text → Nat) : ∀ (l : List Text), ∃ r, ∀ t ∈ l, rank t < r
  | [] => ⟨0, fun t h => by cases h⟩
  | x :: l => by
    obtain ⟨r, hr⟩ := rank_bound rank l
    refine ⟨max r (rank x + 1), ?_⟩
    intro t ht
    rcases List.mem_cons.1 ht with rfl | ht
    · omega
    · have := hr t ht; omega

/-- No tag is defined by itself, through any number of definitions. -/
def Acyclic (defs : TagDefs) : Prop := ∃ rank : Text → Nat, ∀ d ∈ defs, ∀ t ∈ d.2.tags, rank t < rank d.1

theorem evalTag_ok {defs : TagDefs} (hd : Acyclic defs) (set : Text → Bool) (e : TagExpr) : ∃ b, evalTag defs set (evalFuel defs e) e = .ok b := by
  obtain ⟨rank, hd⟩ := hd
  obtain ⟨r, hr⟩ := rank_bound rank e.tags
  refine evalTag_ends set hd _ r e hr ?_
  have := rankedSum_le rank r defs
  unfold evalFuel; omega

theorem evalGroup_ok {defs : TagDefs} (hd : Acyclic defs) (set : Text → Bool) : ∀ (l : List AttrDef) (m : Option AttrDef),
    ∃ r, evalGroup defs set l m = .ok r
  | [], m => ⟨_, rfl⟩
  | a :: l, m => by
    obtain ⟨b, hb⟩ := evalTag_ok hd set a.expr
    unfold evalGroup
    simp only [bind, Except.bind, hb]
    split
    · cases m with
      | some m' => exact ⟨_, rfl⟩
      | none => exact evalGroup_ok hd set l (some a)
    · exact evalGroup_ok hd set l m

theorem evaluateAttrs_ok {defs : TagDefs} (hd : Acyclic defs) (set : Text → Bool) : ∀ (l : List Evaluator),
    ∃ r, evaluateAttrs defs set l = .ok r
  | [] => ⟨_, rfl⟩
  | ev :: l => by
    obtain ⟨b, hb⟩ := evalGroup_ok hd set ev.attrs none
    obtain ⟨c, hc⟩ := evaluateAttrs_ok hd set l
    unfold evaluateAttrs
    simp only [bind, Except.bind, hb, hc]
    exact ⟨_, rfl⟩

theorem newNode_ends {a : Auto} (hd : Acyclic a.defs) (nfas : Bits) : newNode a nfas = .error (.exit 2) ∨ ∃ r, newNode a nfas = .ok r := by
  unfold newNode
  split
  · exact Or.inl rfl
  · obtain ⟨r, hr⟩ := evaluateAttrs_ok hd (fun t => (tagsIn a.states nfas).contains t) a.evaluators
    simp only [bind, Except.bind, hr]
    exact Or.inr ⟨_, rfl⟩

theorem nodeFor_ends {a : Auto} (hd : Acyclic a.defs) (s : Building) (nfas : Bits) :
    nodeFor a s nfas = .error (.exit 2) ∨ ∃ r, nodeFor a s nfas = .ok r := by
  unfold nodeFor
  cases findDfa s.nodes nfas with
  | some i => exact Or.inr ⟨_, rfl⟩
  | none =>
    rcases newNode_ends hd nfas with h | ⟨r, h⟩
    · simp only [bind, Except.bind, h]; exact Or.inl trivial
    · simp only [bind, Except.bind, h]; exact Or.inr ⟨_, rfl⟩

theorem addEntries_ends {a : Auto} (hd : Acyclic a.defs) (eclo : List Bits) : ∀ (l : List Nat) (s : Building),
    addEntries a eclo l s = .error (.exit 2) ∨ ∃ r, addEntries a eclo l s = .ok r
  | [], s => Or.inr ⟨_, rfl⟩
  | e :: l, s => by
    unfold addEntries
    rcases nodeFor_ends hd s (eclo.getD e []) with h | ⟨r, h⟩
    · simp only [bind, Except.bind, h]; exact Or.inl trivial
    · simp only [bind, Except.bind, h]
      rcases addEntries_ends hd eclo l r.1 with h | ⟨r, h⟩
      · simp only [h]; exact Or.inl trivial
      · simp only [h]; exact Or.inr ⟨_, rfl⟩

theorem addMoves_ends {a : Auto} (hd : Acyclic a.defs) (eclo : List Bits) (nfas : Bits) : ∀ (l : List Nat) (s : Building),
    addMoves a eclo nfas l s = .error (.exit 2) ∨ ∃ r, addMoves a eclo nfas l s = .ok r
  | [], s => Or.inr ⟨_, rfl⟩
  | t :: l, s => by
    unfold addMoves
    split
    · rcases nodeFor_ends hd s (moveBits a eclo nfas t) with h | ⟨r, h⟩
      · simp only [bind, Except.bind, h]; exact Or.inl trivial
      · simp only [bind, Except.bind, h]
        rcases addMoves_ends hd eclo nfas l r.1 with h | ⟨r, h⟩
        · simp only [h]; exact Or.inl trivial
        · simp only [h]; exact Or.inr ⟨_, rfl⟩
    · rcases addMoves_ends hd eclo nfas l s with h | ⟨r, h⟩
      · simp only [bind, Except.bind, h]; exact Or.inl trivial
      · simp only [bind, Except.bind, h]; exact Or.inr ⟨_, rfl⟩

/-! ## There are at most `2 ^ n` sets -/

theorem nodup_map_tail {b : Bool} : ∀ (l : List Bits), l.Nodup → (∀ x ∈ l, ∃ y, x = b :: y) → (l.map List.tail).Nodup
  | [], _, _ => by simp
  | x :: l, h, hx => by
    rw [List.nodup_cons] at h
    rw [List.map_cons, List.nodup_cons]
    refine ⟨?_, nodup_map_tail l h.2 fun y hy => hx y (List.mem_cons_of_mem _ hy)⟩
    intro hm
    obtain ⟨z, hz, hzx⟩ := List.mem_map.1 hm
    obtain ⟨x', rfl⟩ := hx x List.mem_cons_self
    obtain ⟨z', rfl⟩ := hx z (List.mem_cons_of_mem _ hz)
    simp only [List.tail_cons] at hzx
    subst hzx
    exact h.1 hz

theorem length_filter_add {α : Type} (p : α → Bool) : ∀ (l : List α), l.length = (l.filter p).length + (l.filter fun x => !p x).length
  | [] => rfl
  | x :: l => by
    have ih := length_filter_add p l
    cases h : p x <;> simp [h] <;> omega

theorem sets_bound : ∀ (n : Nat) (l : List Bits), l.Nodup → (∀ x ∈ l, x.length = n) → l.length ≤ 2 ^ n
  | 0, l, h, hl => by
    match l with
    | [] => simp
    | [x] => simp
    | x :: y :: l =>
      have h1 := hl x (by simp)
      have h2 := hl y (by simp)
      rw [List.length_eq_zero_iff] at h1 h2
      subst h1 h2
      simp at h
  | n + 1, l, h, hl => by
    have e := length_filter_add (fun x : Bits => x.headD false) l
    have hshape : ∀ x ∈ l, ∃ b y, x = b :: y ∧ y.length = n := by
      intro x hx
      have := hl x hx
      cases x with
      | nil => simp at this
      | cons b y => exact ⟨b, y, rfl, by simpa using this⟩
    have key : ∀ (b : Bool) (l' : List Bits), l'.Nodup → (∀ x ∈ l', x ∈ l ∧ x.headD false = b) → l'.length ≤ 2 ^ n := by
      intro b l' hn hx
      have h1 := nodup_map_tail (b := b) l' hn (fun x hh => by
        obtain ⟨b', y, rfl, _⟩ := hshape x (hx x hh).1
        have := (hx _ hh).2
        simp only [List.headD_cons] at this
        subst this
        exact ⟨y, rfl⟩)
      have := sets_bound n (l'.map List.tail) h1 (fun x hh => by
        obtain ⟨z, hz, rfl⟩ := List.mem_map.1 hh
        obtain ⟨b', y, rfl, hy⟩ := hshape z (hx z hz).1
        exact hy)
      simpa using this
    have k1 := key true (l.filter fun x : Bits => x.headD false) (h.filter _) (fun x hx => by
      rw [List.mem_filter] at hx; exact hx)
    have k2 := key false (l.filter fun x : Bits => !x.headD false) (h.filter _) (fun x hx => by
      rw [List.mem_filter] at hx; exact ⟨hx.1, by simpa using hx.2⟩)
    rw [Nat.pow_succ]
    omega

theorem nodes_bound {a : Auto} {s : Building} (hi : BInv a s) : s.nodes.length ≤ 2 ^ a.states.length := by
  have := sets_bound a.states.length (s.nodes.map DfaNode.nfas) hi.nodup (fun x hx => by
    obtain ⟨d, hd, rfl⟩ := List.mem_map.1 hx
    exact (hi.good d hd).1)
  simpa using this

theorem bInv_modify {a : Auto} {s1 : Building} (g1 : BInv a s1) (next : Nat) (r : List (Option Nat)) :
    BInv a { s1 with nodes := s1.nodes.modify next fun d => { d with map := r } } := by
  constructor
  · show (List.map _ _).Nodup
    rw [nfas_modify]; exact g1.nodup
  · intro x hx
    obtain ⟨i, hi'⟩ := List.getElem?_of_mem hx
    simp only [List.getElem?_modify] at hi'
    cases hy : s1.nodes[i]? with
    | none => rw [hy] at hi'; cases hi'
    | some y =>
      rw [hy] at hi'
      simp only [Option.map_eq_map, Option.map_some, Option.some.injEq] at hi'
      obtain ⟨q1, b, q2, q3⟩ := g1.good y (List.mem_of_getElem? hy)
      by_cases hn : next = i
      · rw [if_pos hn] at hi'
        subst hi'
        exact ⟨q1, b, q2, q3⟩
      · rw [if_neg hn] at hi'
        subst hi'
        exact ⟨q1, b, q2, q3⟩

theorem buildLoop_ends {a : Auto} (hr : InRange a) (hd : Acyclic a.defs) {eclo : List Bits} (he : EcloOk a eclo) : ∀ (fuel next : Nat) (s : Building),
    BInv a s → next ≤ s.nodes.length → 2 ^ a.states.length < fuel + next → buildLoop a eclo fuel next s = .error (.exit 2) ∨ ∃ r, buildLoop a eclo fuel next s = .ok r
  | 0, next, s, hi, hle, h => by
    have := nodes_bound hi
    omega
  | fuel + 1, next, s, hi, hle, h => by
    unfold buildLoop
    cases hn : s.nodes[next]? with
    | none => exact Or.inr ⟨_, rfl⟩
    | some d =>
      have hlt := (List.getElem?_eq_some_iff.1 hn).1
      simp only
      split
      · exact buildLoop_ends hr hd he fuel (next + 1) s hi (by omega) (by omega)
      · rcases addMoves_ends hd eclo d.nfas (List.range a.nt) s with h1 | ⟨⟨s1, r⟩, h1⟩
        · simp only [bind, Except.bind, h1]; exact Or.inl trivial
        · simp only [bind, Except.bind, h1]
          obtain ⟨g1, ⟨ext, g2, _⟩, _⟩ := addMoves_spec hr he d.nfas _ s s1 r hi h1
          refine buildLoop_ends hr hd he fuel (next + 1) _ (bInv_modify g1 next r) ?_ (by omega)
          simp only [List.length_modify, g2, List.length_append]
          omega

/-- The construction ends: with an automaton, or because a state has two attributes of one group or a tag that is defined by an expression as well. -/
theorem build_ends {a : Auto} {entries : List Nat} (hr : a.inRange entries = true) (hd : Acyclic a.defs) :
    buildDfa a entries = .error (.exit 2) ∨ ∃ r, buildDfa a entries = .ok r := by
  unfold buildDfa
  rw [if_pos hr]
  obtain ⟨hr, hent⟩ := inRange_iff.1 hr
  obtain ⟨eclo, h1, h2, h3⟩ := generateEclo_spec (states := a.states) hr.eps
  have he : EcloOk a eclo := ⟨h2, h3⟩
  simp only [bind, Except.bind, h1]
  rcases addEntries_ends hd eclo entries ⟨[], false⟩ with h4 | ⟨⟨s, r⟩, h4⟩
  · simp only [h4]; exact Or.inl trivial
  · simp only [h4]
    obtain ⟨g1, _, _⟩ := addEntries_spec he _ _ _ _ ⟨by simp, fun d hd => by cases hd⟩ hent h4
    rcases buildLoop_ends hr hd he (2 ^ a.states.length + 1) 0 s g1 (Nat.zero_le _) (by omega) with h5 | ⟨s', h5⟩
    · simp only [h5]; exact Or.inl trivial
    · simp only [h5]
      split
      · exact Or.inl rfl
      · exact Or.inr ⟨_, rfl⟩

end Mairix
