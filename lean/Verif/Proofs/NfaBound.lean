import Verif.Proofs.NfaScan

/-!
# A bound for the number of states of a scanner

The sets of states the generator makes are among those of the certificate, so that it makes no more of them.
-/

namespace Mairix
open Spec

theorem inj_length {α : Type} {R : α → Nat → Prop} {n : Nat} {l : List α} (hl : l.Nodup) (h : ∀ x ∈ l, ∃ i, i < n ∧ R x i)
    (hi : ∀ x ∈ l, ∀ y ∈ l, ∀ i, R x i → R y i → x = y) : l.length ≤ n := by
  classical
  let f : α → Nat := fun x => if h : ∃ i, i < n ∧ R x i then Classical.choose h else 0
  have hf : ∀ x ∈ l, f x < n ∧ R x (f x) := by
    intro x hx
    have hx := h x hx
    show (if h : ∃ i, i < n ∧ R x i then Classical.choose h else 0) < n ∧ R x (if h : ∃ i, i < n ∧ R x i then Classical.choose h else 0)
    rw [dif_pos hx]
    exact Classical.choose_spec hx
  have hnd : (l.map f).Nodup := by
    unfold List.Nodup
    rw [List.pairwise_map]
    refine List.Pairwise.imp_of_mem ?_ hl
    intro x y hx hy hne he
    exact hne (hi x hx y hy (f x) (hf x hx).2 (by rw [he]; exact (hf y hy).2))
  have := nodup_subset_length (l.map f) (List.range n) hnd (fun i hi => by
    obtain ⟨x, hx, rfl⟩ := List.mem_map.1 hi
    exact List.mem_range.2 (hf x hx).1)
  simpa using this

theorem maybeCompress_length {sort : StateSort} {compress : Bool} {ds : List Text} {nodes : List DfaNode} {es : List Nat} {r : List DfaNode × List (Option Nat)}
    (h : maybeCompress sort compress ds nodes es = .ok r) : r.1.length ≤ nodes.length := by
  unfold maybeCompress at h
  split at h
  · unfold compressDfa at h
    split at h
    · cases h; exact Nat.le_refl _
    · obtain ⟨leads, _, h⟩ := res_bind_ok h
      obtain ⟨c, _, h⟩ := res_bind_ok h
      cases h
      unfold compressStates
      simp only [List.length_map]
      refine Nat.le_trans (List.length_filter_le _ _) ?_
      simp [pruneDead]
  · cases h; exact Nat.le_refl _

section
variable {μ : Type} {eq : μ → μ → Bool} {step : μ → Nat → μ} {rows : List (List (Nat × Nat))} {Ts : List TagTable} {ok : Nat → μ → Bool}
  {a : IAuto} {G : Grouping} {cl : Tree (Nat × Nat)} (hr : RowsOk a G cl rows) {e : Nat} (he : e < a.states.length) {reps : List Nat} (ht : TablesOk a G reps Ts)
  (heq : ∀ x y, eq x y = true → x = y) {T : Tree (PairNode μ)} {n : Nat} {m0 : μ} (h : PairsOk eq step rows Ts ok T n (G.n + a.nt) (cl.get e).1 m0)

include hr he ht heq h

theorem states_bound {sort : StateSort} {compress : Bool} {sc : CharScanner} (hg : generateChars sort compress a.toC [e] = .ok sc) : sc.scanner.nodes.length ≤ n := by
  have hp := proper_of hr ht
  obtain ⟨m, k, states, hex, hq⟩ := generateChars_eq hp
  rw [hq] at hg
  cases hgen : generate sort compress (a.toC.expanded k states) [e] with
  | error f => rw [hgen] at hg; cases hg
  | ok sc' =>
    rw [hgen] at hg
    cases hg
    unfold generate at hgen
    cases hd : defaultsOf (a.toC.expanded k states).evaluators with
    | none => rw [hd] at hgen; cases hgen
    | some ds =>
      rw [hd] at hgen
      simp only at hgen
      obtain ⟨b, hb, hgen⟩ := res_bind_ok hgen
      obtain ⟨r, hr', hgen⟩ := res_bind_ok hgen
      cases hgen
      refine Nat.le_trans (maybeCompress_length hr') ?_
      have hdefs : a.toC.defs = [] := ht.defs
      have hac : Acyclic (a.toC.expanded k states).defs := by
        show Acyclic a.toC.defs
        rw [hdefs]
        exact ⟨fun _ => 0, fun d hd => by cases hd⟩
      rcases build_ok (hex.inRange (inStates_of hr he)) hac with hw | ⟨r', h1, h2, h3⟩
      · exact absurd ((hex.wrong [e]).1 hw) (not_wrong hr he ht heq h)
      · rw [hb] at h1
        cases h1
        rw [← List.length_map (f := DfaNode.nfas)]
        refine inj_length (R := fun (x : Bits) i => x.length = states.length ∧ ∀ y, x.has y = (T.get i).1.testBit y) h2 ?_ ?_
        · intro x hx
          obtain ⟨d, hd, rfl⟩ := List.mem_map.1 hx
          obtain ⟨e', he', ks, -, hset, ⟨y, hy⟩⟩ := h3 d hd
          cases List.mem_singleton.1 he'
          obtain ⟨w, hw⟩ := hex.symbols ks (hex.decode hy)
          obtain ⟨j, g1, g2, -⟩ := h.reach heq (known_groups hr.groups (coded_known hw))
          refine ⟨j, g1, hset.1, fun z => ?_⟩
          rw [Bool.eq_iff_iff, hset.2, ← g2, hr.run he w z]
          exact (hex.moves_iff hw e z).symm
        · intro x hx y hy i hxi hyi
          apply bits_ext (by rw [hxi.1, hyi.1])
          intro z
          rw [hxi.2, hyi.2]

/-- What the scanner of an accepted file does. -/
theorem scans (hn : Nat.ble n 32768 = true) (h0 : Nat.beq (cl.get e).1 0 = false) {sort : StateSort} (hsort : SortsStates sort) (compress : Bool) :
    ∃ sc, generateChars sort compress a.toC [e] = .ok sc ∧ sc.scanner.entries = [some 0] ∧ ∀ {w : List Sym}, (∀ x ∈ w, x.Known a.nt) →
    ((scanWith sc.scanner.nextPlain 0 (w.map (Sym.number sc.char2tok)) = .ok (-1) ∧ setAfter G cl rows e w = 0) ∨
     (∃ j : Nat, scanWith sc.scanner.nextPlain 0 (w.map (Sym.number sc.char2tok)) = .ok (j : Int) ∧
       sc.scanner.attrs j = .ok (Ts.map fun U => U.value (setAfter G cl rows e w)) ∧ (compress = true → setAfter G cl rows e w ≠ 0))) := by
  obtain ⟨sc, hg⟩ := accepted hr he ht heq h hsort compress
  have hb := Nat.le_trans (states_bound hr he ht heq h hg) (Nat.le_of_ble_eq_true hn)
  have h0' : (cl.get e).1 ≠ 0 := fun hz => by rw [hz] at h0; cases h0
  have key : ∀ {w : List Sym}, (∀ x ∈ w, x.Known a.nt) → _ := fun {w} hw => scans_sets hr he ht heq h hsort hg hb h0' (w := w) hw
  exact ⟨sc, hg, (key (w := []) (fun x hx => by cases hx)).1, fun hw => (key hw).2⟩

end
end Mairix
