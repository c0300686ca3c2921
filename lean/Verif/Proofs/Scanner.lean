import Verif.Model.Dfasyn
import Verif.Proofs.Compdfa
import Verif.Proofs.Tables
import Verif.Proofs.CullFuel

/-!
# The scanners that dfasyn generates
-/

namespace Mairix
open Spec

theorem attrIs_det {defs : TagDefs} {S : Text → Prop} {ev : Evaluator} {o o' : Option Text} (h : AttrIs defs S ev o) (h' : AttrIs defs S ev o') : o = o' := by
  have key : ∀ {pre : List AttrDef} {x : AttrDef} {post : List AttrDef} {pre' x' post'}, ev.attrs = pre ++ x :: post → Evals defs S x.expr true →
      (∀ b ∈ pre ++ post, Evals defs S b.expr false) → ev.attrs = pre' ++ x' :: post' → Evals defs S x'.expr true → x'.name = x.name := by
    intro pre x post pre' x' post' h1 h2 h3 h4 h5
    have hm : x' ∈ ev.attrs := by rw [h4]; simp
    rw [h1] at hm
    simp only [List.mem_append, List.mem_cons] at hm
    rcases hm with hm | rfl | hm
    · cases evals_det (h3 x' (List.mem_append_left _ hm)) h5
    · rfl
    · cases evals_det (h3 x' (List.mem_append_right _ hm)) h5
  cases h with
  | one h1 h2 h3 =>
    cases h' with
    | one g1 g2 g3 => rw [key h1 h2 h3 g1 g2]
    | default g => cases evals_det (g _ (by rw [h1]; simp)) h2
  | default g' =>
    cases h' with
    | one g1 g2 g3 => cases evals_det (g' _ (by rw [g1]; simp)) g2
    | default g => rfl

theorem groupIs_det {a : Auto} {e : Nat} {w : List Nat} {ev : Evaluator} {x y : Text} (h : GroupIs a e w ev x) (h' : GroupIs a e w ev y) : x = y := by
  cases h with
  | attr h1 h2 =>
    cases h' with
    | attr g1 g2 => cases attrIs_det h2 g2; rfl
    | default g1 g2 g3 => cases attrIs_det h2 g2
    | stuck g1 g2 => exact absurd h1 (g1 _)
  | default h1 h2 h3 =>
    cases h' with
    | attr g1 g2 => cases attrIs_det h2 g2
    | default g1 g2 g3 => rw [h3] at g3; cases g3; rfl
    | stuck g1 g2 => exact absurd h1 (g1 _)
  | stuck h1 h2 =>
    cases h' with
    | attr g1 g2 => exact absurd g1 (h1 _)
    | default g1 g2 g3 => exact absurd g1 (h1 _)
    | stuck g1 g2 => rw [h2] at g2; cases g2; rfl

theorem outcome_det {a : Auto} {e : Nat} {w : List Nat} {xs ys : List Text} (h : Outcome a e w xs) (h' : Outcome a e w ys) : xs = ys := by
  unfold Outcome at h h'
  generalize a.evaluators = l at h h'
  induction h generalizing ys with
  | nil => cases h'; rfl
  | cons hx _ ih =>
    cases h' with
    | cons hy hs => rw [groupIs_det hx hy, ih hs]

theorem defaultsOf_spec : ∀ {l : List Evaluator} {ds : List Text}, defaultsOf l = some ds → Pairs (fun ev x => ev.default = some x) l ds
  | [], ds, h => by cases h; exact .nil
  | ev :: l, ds, h => by
    unfold defaultsOf at h
    rw [List.mapM_cons] at h
    cases h1 : ev.default with
    | none => rw [h1] at h; cases h
    | some d =>
      cases h2 : l.mapM Evaluator.default with
      | none => rw [h1, h2] at h; cases h
      | some r =>
        rw [h1, h2] at h
        cases h
        exact .cons h1 (defaultsOf_spec h2)

theorem pairs_det {α β : Type} {R : α → β → Prop} (hR : ∀ x y z, R x y → R x z → y = z) {l : List α} {m m' : List β} (h : Pairs R l m)
    (h' : Pairs R l m') : m = m' := by
  induction h generalizing m' with
  | nil => cases h'; rfl
  | cons h1 _ ih =>
    cases h' with
    | cons g1 g2 => rw [hR _ _ _ h1 g1, ih g2]

theorem fill_outcome {a : Auto} {e : Nat} {w : List Nat} (hm : ∃ y, Moves a.states e w y) : ∀ {l : List Evaluator} {os : List (Option Text)} {ds : List Text},
    Pairs (AttrIs a.defs (Tagged a.states e w)) l os → Pairs (fun ev x => ev.default = some x) l ds → Pairs (GroupIs a e w) l (fillAttrs ds os)
  | _, _, _, .nil, .nil => .nil
  | _, _, _, .cons (b := o) ho hos, .cons hd hds => by
    obtain ⟨y, hy⟩ := hm
    unfold fillAttrs
    rw [List.zipWith_cons_cons]
    refine .cons ?_ (fill_outcome ⟨y, hy⟩ hos hds)
    cases o with
    | none => exact .default hy ho hd
    | some x => exact .attr hy ho

/-- The attributes of the automaton built from the file are what the file says. -/
theorem build_outcome {a : Auto} {ds : List Text} (hds : Defaults a ds) {nodes : List DfaNode} {e i : Nat} {w : List Nat}
    (h : match runNodes nodes (some i) w with
      | some j => ∃ d, nodes[j]? = some d ∧ (∃ y, Moves a.states e w y) ∧ Pairs (AttrIs a.defs (Tagged a.states e w)) a.evaluators d.attrs
      | none => ∀ y, ¬ Moves a.states e w y) : Outcome a e w (stateAttrs ds nodes (runNodes nodes (some i) w)) := by
  unfold stateAttrs
  cases hj : runNodes nodes (some i) w with
  | none =>
    rw [hj] at h
    simp only at h
    simp only [Option.bind_none]
    exact pairs_mono (fun _ _ hx => .stuck h hx) hds
  | some j =>
    rw [hj] at h
    obtain ⟨d, hd, hm, hp⟩ := h
    simp only [Option.bind_some, hd]
    exact fill_outcome hm hp hds

/-- What a scanner does from an entry, in terms of states. -/
def ScansTo (a : Auto) (compress : Bool) (ds : List Text) (nodes : List DfaNode) (e : Nat) (s : Option Nat) : Prop :=
  ∀ w, (runNodes nodes s w = none ∧ Hopeless a e w) ∨
    (∃ j d, runNodes nodes s w = some j ∧ nodes[j]? = some d ∧ NoStop a e w ∧ Outcome a e w (fillAttrs ds d.attrs) ∧ (compress = true → ¬ Hopeless a e w))

theorem run_lt {nodes : List DfaNode} (ht : ∀ d ∈ nodes, ∀ j, some j ∈ d.map → j < nodes.length) : ∀ (w : List Nat) (s : Option Nat),
    (∀ i, s = some i → i < nodes.length) → ∀ j, runNodes nodes s w = some j → j < nodes.length
  | [], s, hs, j, h => hs j h
  | t :: w, s, hs, j, h => by
    rw [runNodes_cons] at h
    refine run_lt ht w _ ?_ j h
    intro k hk
    cases s with
    | none => cases hk
    | some i =>
      have hi := hs i rfl
      unfold stepNode at hk
      simp only [Option.bind_some, List.getElem?_eq_getElem hi] at hk
      cases hm : nodes[i].map[t]? with
      | none => rw [hm] at hk; cases hk
      | some o =>
        rw [hm] at hk
        simp only [Option.join_some] at hk
        rw [hk] at hm
        exact ht _ (List.getElem_mem hi) k (List.mem_of_getElem? hm)

/-- The generator's result. -/
theorem generate_spec {sort : StateSort} (hsort : SortsStates sort) {compress : Bool} {a : Auto} {entries : List Nat} {sc : Scanner}
    (h : generate sort compress a entries = .ok sc) :
    sc.nt = a.nt ∧ Defaults a sc.defaults ∧ (∀ d ∈ sc.nodes, d.map.length = a.nt ∧ ∀ j, some j ∈ d.map → j < sc.nodes.length) ∧
    (∀ k, some k ∈ sc.entries → k < sc.nodes.length) ∧ Pairs (ScansTo a compress sc.defaults sc.nodes) entries sc.entries := by
  unfold generate at h
  cases hd : defaultsOf a.evaluators with
  | none => rw [hd] at h; cases h
  | some ds =>
    rw [hd] at h
    simp only [bind, Except.bind] at h
    cases hb : buildDfa a entries with
    | error f => rw [hb] at h; cases h
    | ok b =>
      obtain ⟨nodes, es⟩ := b
      rw [hb] at h
      simp only at h
      have hds : Defaults a ds := defaultsOf_spec hd
      obtain ⟨b1, b2, b3, b4⟩ := build_run hb
      have hlen : ∀ d ∈ nodes, d.attrs.length = ds.length := fun d hdm => by rw [b3 d hdm, pairs_length hds]
      have hout : ∀ e i, (∀ w, (¬ NoStop a e w → runNodes nodes (some i) w = none) ∧ (NoStop a e w →
          match runNodes nodes (some i) w with
          | some j => ∃ d, nodes[j]? = some d ∧ (∃ y, Moves a.states e w y) ∧ Pairs (AttrIs a.defs (Tagged a.states e w)) a.evaluators d.attrs
          | none => ∀ y, ¬ Moves a.states e w y)) → ∀ w, NoStop a e w → Outcome a e w (stateAttrs ds nodes (runNodes nodes (some i) w)) :=
        fun e i hei w hw => build_outcome hds ((hei w).2 hw)
      cases compress with
      | false =>
        simp only [maybeCompress, Bool.false_eq_true, if_false, Except.ok.injEq] at h
        subst h
        refine ⟨rfl, hds, b1, ?_, ?_⟩
        · intro k hk
          simp only [List.mem_map, Option.some.injEq, exists_eq_right] at hk
          exact b2 k hk
        · clear hb b2
          simp only
          induction b4 with
          | nil => exact .nil
          | @cons e i l l' hei _ ih =>
            rw [List.map_cons]
            refine .cons ?_ ih
            intro w
            have hnone : ∀ v, runNodes nodes (some i) v = none → stateAttrs ds nodes (runNodes nodes (some i) v) = ds := fun v hv => by rw [hv]; rfl
            cases hj : runNodes nodes (some i) w with
            | none =>
              refine Or.inl ⟨rfl, ?_⟩
              intro v ds' hds' hns
              have hdd : ds' = ds := pairs_det (fun _ _ _ h1 h2 => by rw [h1] at h2; cases h2; rfl) hds' hds
              subst hdd
              have := hout e i hei _ hns
              rwa [hnone _ (by rw [runNodes_append, hj, runNodes_none])] at this
            | some j =>
              have hns : NoStop a e w := by
                apply Classical.byContradiction
                intro hc
                rw [(hei w).1 hc] at hj; cases hj
              have hw := (hei w).2 hns
              rw [hj] at hw
              obtain ⟨d, hdj, _, _⟩ := hw
              have hout' := hout e i hei w hns
              rw [hj] at hout'
              unfold stateAttrs at hout'
              simp only [Option.bind_some, hdj] at hout'
              exact Or.inr ⟨j, d, rfl, hdj, hns, hout', fun h => by cases h⟩
      | true =>
        obtain ⟨nodes', es', c1, c2, c3, c4, c5⟩ := compress_spec hsort hlen b2 (fun d hdm => (b1 d hdm).1)
        simp only [maybeCompress, if_true, c1, Except.ok.injEq] at h
        subst h
        refine ⟨rfl, hds, c3, c4, ?_⟩
        simp only
        clear hb b2 c1
        induction c5 generalizing entries with
        | nil => cases b4; exact .nil
        | @cons i s l l' his _ ih =>
          cases b4 with
          | @cons e _ le _ hei hes' =>
            refine .cons ?_ (ih hes' (fun k hk => c4 k (List.mem_cons_of_mem _ hk)))
            have hhope : ∀ w, Hopeless a e w ↔ ∀ v, stateAttrs ds nodes (runNodes nodes (some i) (w ++ v)) = ds := by
              intro w
              constructor
              · intro hh v
                by_cases hns : NoStop a e (w ++ v)
                · exact outcome_det (hout e i hei _ hns) (hh v ds hds hns)
                · rw [(hei _).1 hns]; rfl
              · intro hh v ds' hds' hns
                have hdd : ds' = ds := pairs_det (fun _ _ _ h1 h2 => by rw [h1] at h2; cases h2; rfl) hds' hds
                subst hdd
                have := hout e i hei _ hns
                rwa [hh v] at this
            intro w
            obtain ⟨h1, h2⟩ := his w
            rw [← hhope] at h2
            cases hj : runNodes nodes' s w with
            | none => exact Or.inl ⟨rfl, h2.1 hj⟩
            | some j =>
              have hnh : ¬ Hopeless a e w := fun hh => by rw [h2.2 hh] at hj; cases hj
              have hjl := run_lt (fun d hdm => (c3 d hdm).2) w s (fun k hk => c4 k (by rw [hk]; exact List.mem_cons_self)) j hj
              have hns : NoStop a e w := by
                apply Classical.byContradiction
                intro hc
                apply hnh
                intro v ds' _ hv
                exfalso
                apply hc
                intro p hp hpw
                refine hv p (hp.trans (List.prefix_append _ _)) ?_
                intro he
                rw [he] at hp
                have h1 := hp.length_le
                rw [List.length_append] at h1
                have : v = [] := List.length_eq_zero_iff.1 (by omega)
                rw [this, List.append_nil] at he
                exact hpw he
              have hout' := hout e i hei w hns
              rw [← h1, hj] at hout'
              unfold stateAttrs at hout'
              simp only [Option.bind_some, List.getElem?_eq_getElem hjl] at hout'
              exact Or.inr ⟨j, _, rfl, List.getElem?_eq_getElem hjl, hns, hout', fun _ => hnh⟩

/-- What the program that uses the scanner sees. -/
def Scans (a : Auto) (compress : Bool) (sc : Scanner) (next : Int → Int → Res Int) (e : Nat) (s : Option Nat) : Prop :=
  ∀ w : List Nat, (scanWith next (stateNumber s) (w.map fun (t : Nat) => (t : Int)) = .ok (-1) ∧ Hopeless a e w) ∨
    (∃ (j : Nat) (xs : List Text), scanWith next (stateNumber s) (w.map fun (t : Nat) => (t : Int)) = .ok (j : Int) ∧ sc.attrs j = .ok xs ∧ NoStop a e w ∧
      Outcome a e w xs ∧ (compress = true → ¬ Hopeless a e w))

theorem scans_of {a : Auto} {compress : Bool} {sc : Scanner} {entries : List Nat} (hp : Pairs (ScansTo a compress sc.defaults sc.nodes) entries sc.entries)
    (hk : ∀ k, some k ∈ sc.entries → k < sc.nodes.length) {nt : Nat} (hf : InTables nt sc.nodes) {next : Int → Int → Res Int}
    (hn : ∀ i, i < sc.nodes.length → ∀ t : Nat, next (i : Int) (t : Int) = .ok (stateNumber (stepNode sc.nodes (some i) t))) :
    Pairs (Scans a compress sc next) entries sc.entries := by
  generalize hes : sc.entries = es at hp hk
  clear hes
  induction hp with
  | nil => exact .nil
  | @cons e s l l' h _ ih =>
    refine .cons ?_ (ih fun k hk' => hk k (List.mem_cons_of_mem _ hk'))
    intro w
    have hs := scan_spec hf hn w s (fun i hi => hk i (by rw [hi]; exact List.mem_cons_self))
    rw [hs]
    rcases h w with ⟨h1, h2⟩ | ⟨j, d, h1, h2, h3, h4, h5⟩
    · rw [h1]; exact Or.inl ⟨rfl, h2⟩
    · rw [h1]
      refine Or.inr ⟨j, _, rfl, ?_, h3, h4, h5⟩
      unfold Scanner.attrs attrRow
      rw [if_neg (by omega)]
      simp only [Int.toNat_natCast, h2]

theorem newIndices_head {dead : List Bool} {cls : List Nat} : ∀ (l : List Nat) (next : Nat) (x : Option Nat) (idx : List (Option Nat)),
    (newIndices dead cls l next (x :: idx))[0]? = some x
  | [], _, _, _ => rfl
  | i :: l, next, x, idx => by
    unfold newIndices
    split
    · exact newIndices_head l _ x _
    · split
      · exact newIndices_head l _ x _
      · exact newIndices_head l _ x _

/-- The only entry of an automaton is state 0, or it is dead. -/
theorem single_entry {sort : StateSort} {compress : Bool} {a : Auto} {e : Nat} {sc : Scanner} (h : generate sort compress a [e] = .ok sc) :
    sc.entries = [some 0] ∨ sc.entries = [none] := by
  unfold generate at h
  cases hd : defaultsOf a.evaluators with
  | none => rw [hd] at h; cases h
  | some ds =>
    rw [hd] at h
    simp only [bind, Except.bind] at h
    cases hb : buildDfa a [e] with
    | error f => rw [hb] at h; cases h
    | ok b =>
      obtain ⟨nodes, es⟩ := b
      rw [hb] at h
      simp only at h
      have hes : es = [0] := by
        unfold buildDfa at hb
        split at hb
        · obtain ⟨eclo, _, hb⟩ := res_bind_ok hb
          obtain ⟨r, h1, hb⟩ := res_bind_ok hb
          obtain ⟨s, _, hb⟩ := res_bind_ok hb
          split at hb
          · cases hb
          · cases hb
            unfold addEntries at h1
            obtain ⟨r1, g1, h1⟩ := res_bind_ok h1
            cases h1
            unfold nodeFor findDfa at g1
            simp only [List.findIdx?_nil] at g1
            obtain ⟨r2, _, g1⟩ := res_bind_ok g1
            cases g1
            rfl
        · cases hb
      subst hes
      cases compress with
      | false =>
        simp only [maybeCompress, Bool.false_eq_true, if_false, Except.ok.injEq] at h
        subst h
        exact Or.inl rfl
      | true =>
        simp only [maybeCompress, if_true] at h
        cases hc : compressDfa sort ds nodes [0] with
        | error f => rw [hc] at h; cases h
        | ok r =>
          rw [hc] at h
          cases h
          unfold compressDfa at hc
          split at hc
          · cases hc; exact Or.inl rfl
          · rename_i hne
            obtain ⟨leads, _, hc⟩ := res_bind_ok hc
            obtain ⟨c, _, hc⟩ := res_bind_ok hc
            cases hc
            have hpl : (pruneDead leads nodes).length = nodes.length := by simp [pruneDead]
            obtain ⟨m, hm⟩ : ∃ m, nodes.length = m + 1 := by
              cases nodes with
              | nil => exact absurd rfl hne
              | cons x l => exact ⟨_, rfl⟩
            have hr0 : repOf c.cls 0 = 0 := by
              unfold repOf
              cases c.cls with
              | nil => rfl
              | cons x l => simp [List.findIdx_cons]
            unfold compressStates
            simp only [List.map_cons, List.map_nil, hpl, hm, List.range_succ_eq_map]
            unfold newIndices
            split
            · rw [List.nil_append, newIndices_head]; exact Or.inr rfl
            · rw [List.nil_append, newIndices_head]; exact Or.inl rfl

end Mairix
