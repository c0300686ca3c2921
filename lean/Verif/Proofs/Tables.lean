import Verif.Model.Tables
import Verif.Proofs.Compdfa

/-!
# dfasyn: the tables do what the automaton does
-/

namespace Mairix
open Spec

/-- The automaton fits in tables for `nt` tokens. -/
structure InTables (nt : Nat) (nodes : List DfaNode) : Prop where
  width : ∀ d ∈ nodes, d.map.length = nt
  target : ∀ d ∈ nodes, ∀ j, some j ∈ d.map → j < nodes.length
  states : nodes.length ≤ 32768

theorem asShort_state {n : Nat} (hn : n ≤ 32768) {o : Option Nat} (h : ∀ j, o = some j → j < n) : asShort (stateNumber o) = stateNumber o := by
  cases o with
  | none => rfl
  | some j =>
    have := h j rfl
    simp only [stateNumber, Option.elim_some, asShort]
    omega

theorem arrayAt_ok {l : List Int} {i : Nat} {x : Int} (h : l[i]? = some x) : arrayAt l (i : Int) = .ok x := by
  unfold arrayAt
  rw [if_neg (by omega), Int.toNat_natCast, h]

theorem flatMap_rows {α : Type} (f : α → List Int) {k : Nat} : ∀ (l : List α), (∀ x ∈ l, (f x).length = k) → ∀ (i : Nat) (x : α), l[i]? = some x →
    ∀ p, p < k → (l.flatMap f)[k * i + p]? = (f x)[p]?
  | [], _, i, x, h, _, _ => by simp at h
  | y :: l, hk, 0, x, h, p, hp => by
    simp only [List.getElem?_cons_zero, Option.some.injEq] at h
    subst h
    rw [List.flatMap_cons, List.getElem?_append_left (by rw [hk y List.mem_cons_self]; omega)]
    congr 1
    omega
  | y :: l, hk, i + 1, x, h, p, hp => by
    rw [List.getElem?_cons_succ] at h
    have ih := flatMap_rows f l (fun z hz => hk z (List.mem_cons_of_mem _ hz)) i x h p hp
    have hy := hk y List.mem_cons_self
    have e : k * (i + 1) + p = (f y).length + (k * i + p) := by rw [hy, Nat.mul_succ]; omega
    rw [List.flatMap_cons, e, List.getElem?_append_right (by omega), Nat.add_sub_cancel_left, ih]

theorem join_target {nt : Nat} {nodes : List DfaNode} (hf : InTables nt nodes) {d : DfaNode} (hd : d ∈ nodes) {t : Nat} :
    ∀ j, (d.map[t]?).join = some j → j < nodes.length := by
  intro j hj
  cases hm : d.map[t]? with
  | none => rw [hm] at hj; cases hj
  | some o => rw [hm] at hj; simp only [Option.join_some] at hj; subst hj; exact hf.target d hd j (List.mem_of_getElem? hm)

/-- The `next_state` of uncompressed tables. -/
theorem next_uncompressed {nt : Nat} {nodes : List DfaNode} (hf : InTables nt nodes) {i : Nat} (hi : i < nodes.length) (t : Nat) :
    nextUncompressed nt (transTable nodes) (i : Int) (t : Int) = .ok (stateNumber (stepNode nodes (some i) t)) := by
  have hd := List.getElem?_eq_getElem hi
  have hmem := List.getElem_mem hi
  have hw := hf.width _ hmem
  unfold nextUncompressed stepNode
  simp only [Option.bind_some, hd]
  by_cases ht : (t : Int) < 0 ∨ (nt : Int) ≤ t
  · rw [if_pos ht, List.getElem?_eq_none (by omega)]
    rfl
  · rw [if_neg ht]
    have ht' : t < nt := by omega
    have hrow := flatMap_rows (fun d : DfaNode => d.map.map fun o => asShort (stateNumber o)) (k := nt) nodes (fun d hd => by simp [hf.width d hd]) i _ hd t ht'
    have he : ((nt : Int) * (i : Int) + (t : Int)) = ((nt * i + t : Nat) : Int) := by simp
    rw [he]
    apply arrayAt_ok
    unfold transTable
    rw [hrow, List.getElem?_map]
    have htl : t < nodes[i].map.length := by omega
    rw [List.getElem?_eq_getElem htl, Option.map_some, Option.join_some]
    congr 1
    apply asShort_state hf.states
    intro j hj
    exact hf.target _ hmem j (by rw [← hj]; exact List.getElem_mem htl)

/-! ## Compressed tables -/

/-- A default state comes before and has no default state itself. -/
def DefaultsOk (ds : List (DfaNode × Option Nat)) : Prop :=
  ∀ (i : Nat) (d : DfaNode) (j : Nat), ds[i]? = some (d, some j) → ∃ e, ds[j]? = some (e, none)

theorem defaultFold {d : DfaNode} {done : List (DfaNode × Option Nat)} : ∀ (l : List ((DfaNode × Option Nat) × Nat)) (best : Option Nat × Nat),
    (∀ x ∈ l, done[x.2]? = some x.1) → (∀ j, best.1 = some j → ∃ e, done[j]? = some (e, none)) →
    ∀ j, (l.foldl (defaultStep d) best).1 = some j → ∃ e, done[j]? = some (e, none)
  | [], _, _, hb => hb
  | x :: l, best, hx, hb => by
    rw [List.foldl_cons]
    refine defaultFold l _ (fun y hy => hx y (List.mem_cons_of_mem _ hy)) ?_
    unfold defaultStep
    split
    · exact hb
    · rename_i hn
      split
      · exact hb
      · split
        · exact hb
        · split
          · intro j hj
            cases hj
            have := hx x List.mem_cons_self
            refine ⟨x.1.1, ?_⟩
            rw [this]
            obtain ⟨⟨e, o⟩, k⟩ := x
            cases o with
            | none => rfl
            | some o => exact absurd rfl hn
          · exact hb

theorem defaultStates_spec : ∀ (l : List DfaNode) (done : List (DfaNode × Option Nat)), DefaultsOk done →
    DefaultsOk (defaultStates l done) ∧ (defaultStates l done).map Prod.fst = done.map Prod.fst ++ l
  | [], done, h => ⟨h, by simp [defaultStates]⟩
  | d :: l, done, h => by
    unfold defaultStates
    have hok : DefaultsOk (done ++ [(d, (done.zipIdx.foldl (defaultStep d) (none, d.map.length + 1)).1)]) := by
      intro i e j hi
      have hleft : ∀ (j : Nat) (x : DfaNode × Option Nat), done[j]? = some x → (done ++ [(d, (done.zipIdx.foldl (defaultStep d) (none, d.map.length + 1)).1)])[j]? = some x := by
        intro j x hj
        rw [List.getElem?_append_left (List.getElem?_eq_some_iff.1 hj).1]
        exact hj
      rcases Nat.lt_or_ge i done.length with hlt | hge
      · rw [List.getElem?_append_left hlt] at hi
        obtain ⟨e', he'⟩ := h i e j hi
        exact ⟨e', hleft j _ he'⟩
      · rw [List.getElem?_append_right hge] at hi
        have hi0 : i - done.length = 0 := by
          have := (List.getElem?_eq_some_iff.1 hi).1
          simp only [List.length_singleton] at this
          omega
        rw [hi0] at hi
        simp only [List.getElem?_cons_zero, Option.some.injEq, Prod.mk.injEq] at hi
        obtain ⟨e', he'⟩ := defaultFold (d := d) (done := done) done.zipIdx (none, d.map.length + 1) (fun x hx => mem_zipIdx_states.1 hx) (fun j hj => by cases hj) j hi.2
        exact ⟨e', hleft j _ he'⟩
    obtain ⟨h1, h2⟩ := defaultStates_spec l _ hok
    exact ⟨h1, by rw [h2]; simp⟩

theorem basesFrom_get {nt : Nat} {ds : List (DfaNode × Option Nat)} : ∀ (l : List (DfaNode × Option Nat)) (n i : Nat), i ≤ l.length →
    (basesFrom nt ds n l)[i]? = some (n + ((l.take i).flatMap (listedTokens nt ds)).length)
  | [], n, i, h => by
    have : i = 0 := by simpa using h
    subst this
    simp [basesFrom]
  | x :: l, n, 0, h => by simp [basesFrom]
  | x :: l, n, i + 1, h => by
    unfold basesFrom
    rw [List.getElem?_cons_succ, basesFrom_get l _ i (by simpa using h), List.take_succ_cons, List.flatMap_cons, List.length_append, Nat.add_assoc]

theorem flatMap_segment {α β : Type} (f : α → List Nat) (g : α → Nat → β) : ∀ (l : List α) (i : Nat) (x : α), l[i]? = some x → ∀ p, p < (f x).length →
    (l.flatMap fun x => (f x).map (g x))[((l.take i).flatMap f).length + p]? = ((f x)[p]?).map (g x)
  | [], i, x, h, _, _ => by simp at h
  | y :: l, 0, x, h, p, hp => by
    simp only [List.getElem?_cons_zero, Option.some.injEq] at h
    subst h
    simp only [List.take_zero, List.flatMap_nil, List.length_nil, Nat.zero_add, List.flatMap_cons]
    rw [List.getElem?_append_left (by simpa using hp), List.getElem?_map]
  | y :: l, i + 1, x, h, p, hp => by
    rw [List.getElem?_cons_succ] at h
    have e : ((y :: l).take (i + 1)).flatMap f = f y ++ (l.take i).flatMap f := by rw [List.take_succ_cons, List.flatMap_cons]
    rw [e, List.length_append, List.flatMap_cons, Nat.add_assoc,
      List.getElem?_append_right (by rw [List.length_map]; omega), List.length_map, Nat.add_sub_cancel_left]
    exact flatMap_segment f g l i x h p hp

theorem take_flatMap_succ {α : Type} (f : α → List Nat) : ∀ (l : List α) (i : Nat) (x : α), l[i]? = some x →
    ((l.take (i + 1)).flatMap f).length = ((l.take i).flatMap f).length + (f x).length
  | [], i, x, h => by simp at h
  | y :: l, 0, x, h => by
    simp only [List.getElem?_cons_zero, Option.some.injEq] at h
    subst h
    simp
  | y :: l, i + 1, x, h => by
    rw [List.getElem?_cons_succ] at h
    have := take_flatMap_succ f l i x h
    rw [List.take_succ_cons, List.take_succ_cons, List.flatMap_cons, List.flatMap_cons, List.length_append, List.length_append, this]
    omega

theorem take_flatMap_le {α : Type} (f : α → List Nat) (l : List α) (i : Nat) : ((l.take i).flatMap f).length ≤ (l.flatMap f).length := by
  have : l.flatMap f = (l.take i).flatMap f ++ (l.drop i).flatMap f := by rw [← List.flatMap_append, List.take_append_drop]
  rw [this, List.length_append]
  omega

/-- The search by bisection in a part of the table where the tokens are in order. -/
theorem bisect_spec {token : List Int} {t : Int} {L H : Nat} (hsort : ∀ p q x y, L ≤ p → p < q → q < H → token[p]? = some x → token[q]? = some y → x < y)
    (hH : H ≤ token.length) : ∀ (fuel l h : Nat), L ≤ l → l ≤ h → h ≤ H → h < fuel + l →
    (∃ m : Nat, bisect token t fuel l h = .ok (some (m : Int)) ∧ l ≤ m ∧ m < h ∧ token[m]? = some t) ∨
    (bisect token t fuel l h = .ok none ∧ ∀ p, l ≤ p → p < h → token[p]? ≠ some t)
  | 0, l, h, hl, hlh, hh, hf => by omega
  | fuel + 1, l, h, hl, hlh, hh, hf => by
    unfold bisect
    by_cases hlt : (h : Int) > l
    · rw [if_pos hlt]
      have hlt' : l < h := by omega
      have hm : ((h : Int) + (l : Int)) / 2 = (((h + l) / 2 : Nat) : Int) := by omega
      rw [hm]
      generalize hmm : (h + l) / 2 = m
      have hml : l ≤ m ∧ m < h := by omega
      have hmt : m < token.length := by omega
      rw [arrayAt_ok (List.getElem?_eq_getElem hmt)]
      simp only [bind, Except.bind]
      split
      · rename_i he
        exact Or.inl ⟨m, rfl, hml.1, hml.2, by rw [List.getElem?_eq_getElem hmt, he]⟩
      · rename_i hne
        split
        · rename_i hmle
          refine Or.inr ⟨rfl, ?_⟩
          intro p h1 h2 h3
          have : p = m := by omega
          subst this
          rw [List.getElem?_eq_getElem hmt] at h3
          exact hne (by simpa using h3)
        · rename_i hmne
          split
          · rename_i hgt
            rcases bisect_spec hsort hH fuel l m hl (by omega) (by omega) (by omega) with ⟨k, h1, h2, h3, h4⟩ | ⟨h1, h2⟩
            · exact Or.inl ⟨k, h1, h2, by omega, h4⟩
            · refine Or.inr ⟨h1, ?_⟩
              intro p g1 g2 g3
              rcases Nat.lt_or_ge p m with hp | hp
              · exact h2 p g1 hp g3
              · by_cases hpm : p = m
                · subst hpm
                  rw [List.getElem?_eq_getElem hmt] at g3
                  exact hne (by simpa using g3)
                · have := hsort m p _ _ (by omega) (by omega) (by omega) (List.getElem?_eq_getElem hmt) g3
                  omega
          · rename_i hgt
            rcases bisect_spec hsort hH fuel m h (by omega) (by omega) hh (by omega) with ⟨k, h1, h2, h3, h4⟩ | ⟨h1, h2⟩
            · exact Or.inl ⟨k, h1, by omega, h3, h4⟩
            · refine Or.inr ⟨h1, ?_⟩
              intro p g1 g2 g3
              rcases Nat.lt_or_ge p m with hp | hp
              · have := hsort p m _ _ (by omega) hp (by omega) g3 (List.getElem?_eq_getElem hmt)
                omega
              · exact h2 p hp g2 g3
    · rw [if_neg hlt]
      exact Or.inr ⟨rfl, fun p h1 h2 => by omega⟩

theorem listedTokens_sorted {nt : Nat} {ds : List (DfaNode × Option Nat)} {x : DfaNode × Option Nat} : (listedTokens nt ds x).Pairwise (· < ·) :=
  List.Pairwise.filter _ List.pairwise_lt_range

theorem listedTokens_mem {nt : Nat} {ds : List (DfaNode × Option Nat)} {x : DfaNode × Option Nat} {t : Nat} :
    t ∈ listedTokens nt ds x ↔ t < nt ∧ includeChar ds x t = true := by
  unfold listedTokens
  rw [List.mem_filter, List.mem_range]

/-- How many transitions are listed in the compressed tables. -/
def listedCount (nt : Nat) (nodes : List DfaNode) : Nat := ((defaultStates nodes []).flatMap (listedTokens nt (defaultStates nodes []))).length

theorem nextCompressed_succ (c : CTables) (fuel : Nat) (s t : Int) : nextCompressed c (fuel + 1) s t = if s ≥ 0 then do
      let l ← arrayAt c.base s
      let h ← arrayAt c.base (s + 1)
      let m ← bisect c.token t (c.token.length + 1) l h
      match m with
      | some m => arrayAt c.nextstate m
      | none => do
        let d ← arrayAt c.defstate s
        nextCompressed c fuel d t
    else .ok (-1) := rfl

/-- The `next_state` of compressed tables: one state. -/
theorem next_one_int {nt : Nat} {nodes : List DfaNode} (hf : InTables nt nodes) (hnt : nt ≤ 256) (hc : listedCount nt nodes ≤ 65535) {i : Nat} {x : DfaNode × Option Nat}
    (hx : (defaultStates nodes [])[i]? = some x) (z : Int) (fuel : Nat) :
    nextCompressed (compressedTables nt nodes) (fuel + 1) (i : Int) z =
      if 0 ≤ z ∧ z.toNat < nt ∧ includeChar (defaultStates nodes []) x z.toNat = true then .ok (stateNumber (x.1.map[z.toNat]?).join)
      else nextCompressed (compressedTables nt nodes) fuel (stateNumber x.2) z := by
  obtain ⟨hds, hmap⟩ := defaultStates_spec nodes [] (fun i d j h => by simp at h)
  have hnode : x.1 ∈ nodes := by
    have : x.1 ∈ (defaultStates nodes []).map Prod.fst := List.mem_map_of_mem (List.mem_of_getElem? hx)
    rw [hmap] at this; simpa using this
  have hlen : (defaultStates nodes []).length = nodes.length := by
    have := congrArg List.length hmap
    simpa using this
  unfold listedCount at hc
  have hil := (List.getElem?_eq_some_iff.1 hx).1
  -- the tables
  have hbase : ∀ k, k ≤ (defaultStates nodes []).length → (compressedTables nt nodes).base[k]? =
      some ((((defaultStates nodes []).take k).flatMap (listedTokens nt (defaultStates nodes []))).length : Int) := by
    intro k hk
    show (List.map _ _)[k]? = _
    rw [List.getElem?_map, basesFrom_get _ _ _ hk, Option.map_some, Nat.zero_add]
    have := take_flatMap_le (listedTokens nt (defaultStates nodes [])) (defaultStates nodes []) k
    congr 1
    unfold asUShort
    omega
  have hb1 := hbase i (by omega)
  have hb2 := hbase (i + 1) (by omega)
  rw [take_flatMap_succ _ _ _ _ hx] at hb2
  have hH := take_flatMap_le (listedTokens nt (defaultStates nodes [])) (defaultStates nodes []) (i + 1)
  rw [take_flatMap_succ _ _ _ _ hx] at hH
  generalize hds' : defaultStates nodes [] = ds at *
  generalize hB : ((ds.take i).flatMap (listedTokens nt ds)).length = B at *
  have htok : ∀ p, p < (listedTokens nt ds x).length → (compressedTables nt nodes).token[B + p]? = ((listedTokens nt ds x)[p]?).map fun (t : Nat) => (t : Int) := by
    intro p hp
    have : (compressedTables nt nodes).token = ds.flatMap fun x => (listedTokens nt ds x).map fun (t : Nat) => asUChar t := by
      unfold compressedTables; rw [hds']
    rw [this, ← hB, flatMap_segment (listedTokens nt ds) (fun _ (t : Nat) => asUChar t) ds i x hx p hp]
    rw [List.getElem?_eq_getElem hp, Option.map_some, Option.map_some]
    have hlt := (listedTokens_mem.1 (List.getElem_mem hp)).1
    congr 1
    unfold asUChar
    omega
  have hnext : ∀ p, p < (listedTokens nt ds x).length →
      (compressedTables nt nodes).nextstate[B + p]? = ((listedTokens nt ds x)[p]?).map fun t => stateNumber (x.1.map[t]?).join := by
    intro p hp
    have : (compressedTables nt nodes).nextstate = ds.flatMap fun x => (listedTokens nt ds x).map fun t => asShort (stateNumber (x.1.map[t]?).join) := by
      unfold compressedTables; rw [hds']
    rw [this, ← hB, flatMap_segment (listedTokens nt ds) (fun (x : DfaNode × Option Nat) (t : Nat) => asShort (stateNumber (x.1.map[t]?).join)) ds i x hx p hp]
    rw [List.getElem?_eq_getElem hp, Option.map_some, Option.map_some]
    congr 1
    exact asShort_state hf.states (join_target hf hnode)
  have htl : (compressedTables nt nodes).token.length = (ds.flatMap (listedTokens nt ds)).length := by
    have : (compressedTables nt nodes).token = ds.flatMap fun x => (listedTokens nt ds x).map fun (t : Nat) => asUChar t := by
      unfold compressedTables; rw [hds']
    rw [this]
    simp [List.length_flatMap]
  have hdef : (compressedTables nt nodes).defstate[i]? = some (stateNumber x.2) := by
    have : (compressedTables nt nodes).defstate = ds.map fun x => asShort (stateNumber x.2) := by
      unfold compressedTables; rw [hds']
    rw [this, List.getElem?_map, hx, Option.map_some]
    congr 1
    apply asShort_state hf.states
    intro j hj
    obtain ⟨d, o⟩ := x
    simp only at hj
    subst hj
    obtain ⟨e, he⟩ := hds i d j hx
    have := (List.getElem?_eq_some_iff.1 he).1
    omega
  have hsorted : ∀ p q x' y, B ≤ p → p < q → q < B + (listedTokens nt ds x).length → (compressedTables nt nodes).token[p]? = some x' →
      (compressedTables nt nodes).token[q]? = some y → x' < y := by
    intro p q x' y h1 h2 h3 h4 h5
    have e1 : p = B + (p - B) := by omega
    have e2 : q = B + (q - B) := by omega
    rw [e1, htok _ (by omega), List.getElem?_eq_getElem (show p - B < (listedTokens nt ds x).length by omega)] at h4
    rw [e2, htok _ (by omega), List.getElem?_eq_getElem (show q - B < (listedTokens nt ds x).length by omega)] at h5
    simp only [Option.map_some, Option.some.injEq] at h4 h5
    have := List.pairwise_iff_getElem.1 (listedTokens_sorted (nt := nt) (ds := ds) (x := x)) (p - B) (q - B) (by omega) (by omega) (by omega)
    omega
  have hbis := bisect_spec (t := z) hsorted (by rw [htl]; exact hH) ((compressedTables nt nodes).token.length + 1) B
    (B + (listedTokens nt ds x).length) (Nat.le_refl _) (Nat.le_add_right _ _) (Nat.le_refl _) (by rw [htl]; omega)
  rw [nextCompressed_succ, if_pos (by omega)]
  have hi1 : ((i : Int) + 1) = ((i + 1 : Nat) : Int) := by simp
  rw [arrayAt_ok hb1, hi1, arrayAt_ok hb2]
  simp only [bind, Except.bind]
  rcases hbis with ⟨m, h1, h2, h3, h4⟩ | ⟨h1, h2⟩
  · rw [h1]
    have e : m = B + (m - B) := by omega
    have hp : m - B < (listedTokens nt ds x).length := by omega
    rw [e, htok _ hp, List.getElem?_eq_getElem hp] at h4
    simp only [Option.map_some, Option.some.injEq] at h4
    have hmem := List.getElem_mem hp
    have ht : (listedTokens nt ds x)[m - B] = z.toNat := by omega
    rw [ht] at hmem
    rw [if_pos ⟨by omega, listedTokens_mem.1 hmem⟩]
    apply arrayAt_ok
    rw [e, hnext _ hp, List.getElem?_eq_getElem hp, Option.map_some, ht]
  · rw [h1]
    simp only
    rw [arrayAt_ok hdef]
    have hnot : ¬ (0 ≤ z ∧ z.toNat < nt ∧ includeChar ds x z.toNat = true) := by
      rintro ⟨hz, hh⟩
      obtain ⟨p, hp, hpe⟩ := List.getElem_of_mem (listedTokens_mem.2 hh)
      apply h2 (B + p) (by omega) (by omega)
      rw [htok p hp, List.getElem?_eq_getElem hp, hpe, Option.map_some, Int.toNat_of_nonneg hz]
    rw [if_neg hnot]

/-- The same for a token. -/
theorem next_one {nt : Nat} {nodes : List DfaNode} (hf : InTables nt nodes) (hnt : nt ≤ 256) (hc : listedCount nt nodes ≤ 65535) {i : Nat} {x : DfaNode × Option Nat}
    (hx : (defaultStates nodes [])[i]? = some x) (t fuel : Nat) :
    nextCompressed (compressedTables nt nodes) (fuel + 1) (i : Int) (t : Int) =
      if t < nt ∧ includeChar (defaultStates nodes []) x t = true then .ok (stateNumber (x.1.map[t]?).join)
      else nextCompressed (compressedTables nt nodes) fuel (stateNumber x.2) (t : Int) := by
  rw [next_one_int hf hnt hc hx]
  simp

/-- What is no token leads nowhere. -/
theorem next_compressed_neg {nt : Nat} {nodes : List DfaNode} (hf : InTables nt nodes) (hnt : nt ≤ 256) (hc : listedCount nt nodes ≤ 65535) {i : Nat} (hi : i < nodes.length)
    {z : Int} (hz : z < 0) (fuel : Nat) : nextCompressed (compressedTables nt nodes) (fuel + 3) (i : Int) z = .ok (-1) := by
  obtain ⟨hds, hmap⟩ := defaultStates_spec nodes [] (fun i d j h => by simp at h)
  have hlen : (defaultStates nodes []).length = nodes.length := by
    have := congrArg List.length hmap
    simpa using this
  have hx := List.getElem?_eq_getElem (show i < (defaultStates nodes []).length by omega)
  generalize hxx : (defaultStates nodes [])[i]'(by omega) = x at hx
  have hneg : ∀ f, nextCompressed (compressedTables nt nodes) (f + 1) (-1) z = .ok (-1) := by
    intro f
    unfold nextCompressed
    rw [if_neg (by omega)]
  rw [next_one_int hf hnt hc hx, if_neg (by omega)]
  obtain ⟨d, o⟩ := x
  cases o with
  | none => exact hneg (fuel + 1)
  | some j =>
    obtain ⟨e, he⟩ := hds i d j hx
    have hsn : stateNumber (some j) = ((j : Nat) : Int) := rfl
    simp only
    rw [hsn, next_one_int hf hnt hc he, if_neg (by omega)]
    exact hneg fuel

/-- The `next_state` of compressed tables. -/
theorem next_compressed {nt : Nat} {nodes : List DfaNode} (hf : InTables nt nodes) (hnt : nt ≤ 256) (hc : listedCount nt nodes ≤ 65535) {i : Nat} (hi : i < nodes.length)
    (t fuel : Nat) : nextCompressed (compressedTables nt nodes) (fuel + 3) (i : Int) (t : Int) = .ok (stateNumber (stepNode nodes (some i) t)) := by
  obtain ⟨hds, hmap⟩ := defaultStates_spec nodes [] (fun i d j h => by simp at h)
  have hlen : (defaultStates nodes []).length = nodes.length := by
    have := congrArg List.length hmap
    simpa using this
  have hfst : ∀ (k : Nat) (x : DfaNode × Option Nat), (defaultStates nodes [])[k]? = some x → nodes[k]? = some x.1 := by
    intro k x hx
    have := congrArg (fun l => l[k]?) hmap
    simp only [List.getElem?_map, hx, Option.map_some, List.map_nil, List.nil_append] at this
    exact this.symm
  have hx := List.getElem?_eq_getElem (show i < (defaultStates nodes []).length by omega)
  generalize hxx : (defaultStates nodes [])[i]'(by omega) = x at hx
  have hnode := hfst i x hx
  have hmem := List.mem_of_getElem? hnode
  have hout : ∀ {k : Nat} {y : DfaNode}, nodes[k]? = some y → ¬ t < nt → (y.map[t]?).join = none := by
    intro k y hy ht
    rw [List.getElem?_eq_none (by rw [hf.width y (List.mem_of_getElem? hy)]; omega)]
    rfl
  have hstep : ∀ {k : Nat} {y : DfaNode}, nodes[k]? = some y → stepNode nodes (some k) t = (y.map[t]?).join := by
    intro k y hy
    unfold stepNode
    simp only [Option.bind_some, hy]
  have hneg : ∀ f, nextCompressed (compressedTables nt nodes) (f + 1) (-1) (t : Int) = .ok (-1) := by
    intro f
    unfold nextCompressed
    rw [if_neg (by omega)]
  rw [hstep hnode, next_one hf hnt hc hx]
  split
  · rfl
  · rename_i hinc
    obtain ⟨d, o⟩ := x
    cases o with
    | none =>
      have : (d.map[t]?).join = none := by
        by_cases ht : t < nt
        · have : includeChar (defaultStates nodes []) (d, none) t = false := by
            cases hb : includeChar (defaultStates nodes []) (d, none) t with
            | false => rfl
            | true => exact absurd ⟨ht, hb⟩ hinc
          unfold includeChar at this
          simpa using this
        · exact hout hnode ht
      simp only at this ⊢
      rw [this]
      exact hneg (fuel + 1)
    | some j =>
      obtain ⟨e, he⟩ := hds i d j hx
      have hej := hfst j _ he
      have hsame : (d.map[t]?).join = (e.map[t]?).join := by
        by_cases ht : t < nt
        · have : includeChar (defaultStates nodes []) (d, some j) t = false := by
            cases hb : includeChar (defaultStates nodes []) (d, some j) t with
            | false => rfl
            | true => exact absurd ⟨ht, hb⟩ hinc
          unfold includeChar at this
          simp only [he, Option.bind_some, decide_eq_false_iff_not, ne_eq, Decidable.not_not] at this
          exact this
        · rw [hout hnode ht, hout hej ht]
      have hsn : stateNumber (some j) = ((j : Nat) : Int) := rfl
      simp only
      rw [hsn, next_one hf hnt hc he, hsame]
      split
      · rfl
      · rename_i hinc'
        have : (e.map[t]?).join = none := by
          by_cases ht : t < nt
          · have : includeChar (defaultStates nodes []) (e, none) t = false := by
              cases hb : includeChar (defaultStates nodes []) (e, none) t with
              | false => rfl
              | true => exact absurd ⟨ht, hb⟩ hinc'
            unfold includeChar at this
            simpa using this
          · exact hout hej ht
        simp only
        rw [this]
        exact hneg fuel

/-- A scanner with a `next_state` that does what the automaton does. -/
theorem scan_spec {next : Int → Int → Res Int} {nt : Nat} {nodes : List DfaNode} (hf : InTables nt nodes)
    (hn : ∀ i, i < nodes.length → ∀ t : Nat, next (i : Int) (t : Int) = .ok (stateNumber (stepNode nodes (some i) t))) :
    ∀ (w : List Nat) (s : Option Nat), (∀ i, s = some i → i < nodes.length) →
    scanWith next (stateNumber s) (w.map fun (t : Nat) => (t : Int)) = .ok (stateNumber (runNodes nodes s w))
  | [], s, _ => rfl
  | t :: w, s, hs => by
    rw [List.map_cons, runNodes_cons]
    unfold scanWith
    cases s with
    | none =>
      rw [if_pos (by simp [stateNumber])]
      have e : stepNode nodes none t = none := rfl
      rw [e, runNodes_none]
    | some i =>
      have hi := hs i rfl
      rw [if_neg (by simp [stateNumber])]
      have := hn i hi t
      have hsn : stateNumber (some i) = ((i : Nat) : Int) := rfl
      rw [hsn, this]
      simp only [bind, Except.bind]
      refine scan_spec hf hn w _ ?_
      intro j hj
      unfold stepNode at hj
      simp only [Option.bind_some, List.getElem?_eq_getElem hi] at hj
      exact join_target hf (List.getElem_mem hi) j hj

end Mairix
