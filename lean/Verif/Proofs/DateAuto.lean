import Verif.Proofs.DateCert
import Verif.Proofs.FromScan

/-!
# The scanner generated from datescan.nfa
-/

namespace Mairix
open Spec

theorem dateLoop_eq {sc : CharScanner} : ∀ {t : Text} {s : Int}, 0 ≤ s → dateLoop sc s t = scanWith sc.scanner.nextPlain s ((syms t).map (Sym.number sc.char2tok))
  | [], s, _ => rfl
  | c :: t, s, hs => by
    simp only [List.map_cons, number_chr]
    unfold dateLoop scanWith
    rw [if_neg (by omega)]
    cases h : sc.scanner.nextPlain s (sc.token c) with
    | error f => rfl
    | ok s' =>
      simp only [bind, Except.bind]
      split
      · rename_i hneg
        rw [scanWith_neg hneg]
      · rename_i hneg
        exact dateLoop_eq (by omega)

/-- The set of states after a text. -/
def dateSet (w : Text) : Nat := setAfter dateGroups dateClosure dateRows 0 (syms w)

theorem date_reach (w : Text) : (∀ t ∈ dateTables, hits (dateSet w) t.attrs ≤ 1) ∧
    ∀ x ∈ dateEnds, meets (dateSet w) x.1 = true ↔ ∃ r, (r, x.2) ∈ dateExprs ∧ Denotes (r.toRE dateGroup) w := by
  have hsym : (syms w).map dateGroups.of = w.map dateGroup := by rw [List.map_map]; rfl
  obtain ⟨j, h1, h2, h3⟩ := date_pairs.reach (fun _ _ h => Nat.eq_of_beq_eq_true h) (known_groups (a := dateAuto) date_rows.groups (syms_known 0 w))
  have hset : dateSet w = runSet dateRows (dateClosure.get 0).1 (w.map dateGroup) := by unfold dateSet setAfter; rw [hsym]
  rw [hsym] at h2 h3
  refine ⟨?_, ?_⟩
  · rw [hset, h2]
    exact (date_pairs.good h1).2
  · intro x hx
    have hag := agree_iff (date_pairs.good h1).1 hx
    rw [← h2, ← h3] at hag
    rw [hset, hag]
    have hge : ∀ y ∈ dateEnds, dateTable.length ≤ y.2 := by decide +kernel
    have hge' : ∀ y ∈ dateExprs.map Prod.snd, dateTable.length ≤ y := by decide +kernel
    have := table_run (γ := dateGroup) (l := dateExprs) (f := x.2) (by rw [date_table]; exact hge x hx)
      (fun y hy => by rw [date_table]; exact hge' y.2 (List.mem_map_of_mem hy)) w
    rw [date_table, date_start] at this
    exact this

/-- The attributes of datescan.nfa are the types of dates. -/
theorem date_each {w : Text} : Pairs (fun (x : RB × DateType) (y : Nat × Nat) => (x.2.name, y.1) ∈ (dateTables.getD 0 ⟨[], []⟩).attrs ∧
    (meets (dateSet w) y.1 = true ↔ Denotes (x.1.toRE dateGroup) w)) dateMasks.types dateEnds := by
  have h := (date_reach w).2
  have key : ∀ {a : RB} {m f : Nat}, (m, f) ∈ dateEnds → (∀ r, (r, f) ∈ dateExprs ↔ r = a) → (meets (dateSet w) m = true ↔ Denotes (a.toRE dateGroup) w) := by
    intro a m f hm ha
    rw [h _ hm]
    simp only [ha, exists_eq_left]
  refine .cons ⟨by decide +kernel, key (f := 103) (by decide +kernel) ?_⟩ (.cons ⟨by decide +kernel, key (f := 104) (by decide +kernel) ?_⟩ (.cons ⟨by decide +kernel, key (f := 105) (by decide +kernel) ?_⟩
    (.cons ⟨by decide +kernel, key (f := 106) (by decide +kernel) ?_⟩ (.cons ⟨by decide +kernel, key (f := 107) (by decide +kernel) ?_⟩ (.cons ⟨by decide +kernel, key (f := 108) (by decide +kernel) ?_⟩
    (.cons ⟨by decide +kernel, key (f := 109) (by decide +kernel) ?_⟩ (.cons ⟨by decide +kernel, key (f := 110) (by decide +kernel) ?_⟩ (.cons ⟨by decide +kernel, key (f := 111) (by decide +kernel) ?_⟩
    (.cons ⟨by decide +kernel, key (f := 112) (by decide +kernel) ?_⟩ (.cons ⟨by decide +kernel, key (f := 113) (by decide +kernel) ?_⟩ .nil)))))))))) <;>
  · intro r
    simp [dateExprs, DateMasks.types]

theorem date_value (w : Text) : dateTables.map (fun U => U.value (dateSet w)) = [(discoverType w).name] := by
  have hone : ∃ U, dateTables = [U] ∧ U.default = DateType.failure.name ∧ U = dateTables.getD 0 ⟨[], []⟩ ∧ U.attrs.map Prod.snd = [6, 4224, 2155872256, 4294967296, 68719476736, 4507997673881600, 299759591197780213760, 633825602345569604405645279232, 649037416801863274911380765933568, 1569658557731886750328358170184068135878314874358187687936, 210627797213202897222572094576725464762866851818399053610070573056] :=
    ⟨_, rfl, rfl, rfl, rfl⟩
  obtain ⟨U, hU, hd, hg, hm⟩ := hone
  have hp := date_each (w := w)
  rw [← hg] at hp
  have hh := (date_reach w).1
  rw [hU] at hh ⊢
  rw [List.map_cons, List.map_nil]
  congr 1
  rcases date_fit.type w with ⟨x, h1, h2, h3⟩ | ⟨h1, h2⟩
  · obtain ⟨y, _, h4, h5⟩ := pairs_left hp h1
    rw [h3]
    exact value_of_hit (hh U (List.mem_singleton.2 rfl)) h4 (h5.2 h2)
  · rw [h2, ← hd]
    apply value_of_none
    intro x hx
    have hx' : x.2 ∈ dateEnds.map Prod.fst := by
      have : x.2 ∈ U.attrs.map Prod.snd := List.mem_map_of_mem hx
      rw [hm] at this
      revert this
      have hall : ∀ z ∈ [6, 4224, 2155872256, 4294967296, 68719476736, 4507997673881600, 299759591197780213760, 633825602345569604405645279232, 649037416801863274911380765933568, 1569658557731886750328358170184068135878314874358187687936, 210627797213202897222572094576725464762866851818399053610070573056], z ∈ dateEnds.map Prod.fst := by decide +kernel
      exact hall x.2
    obtain ⟨y, hy, he⟩ := List.mem_map.1 hx'
    obtain ⟨z, hz, -, h5⟩ := pairs_right hp hy
    rw [he] at h5
    cases hmt : meets (dateSet w) x.2 with
    | false => rfl
    | true => exact absurd (h5.1 hmt) (h1 z hz)

theorem date_entries : dateAuto.entries = [0] := by decide +kernel

theorem date_scans {sort : StateSort} (hsort : SortsStates sort) (compress : Bool) : ∃ sc, dfasyn sort compress datescanFile = .ok sc ∧
    sc.scanner.entries = [some 0] ∧ ∀ t, scanDateType sc t = .ok (discoverType t).name := by
  obtain ⟨sc, h1, h2, h3⟩ := scans date_rows (e := 0) (by decide +kernel) date_tables (fun _ _ h => Nat.eq_of_beq_eq_true h) date_pairs (by decide +kernel) (by decide +kernel) hsort compress
  refine ⟨sc, ?_, h2, ?_⟩
  · rw [dfasyn_of_read date_read, date_entries]
    exact h1
  · intro t
    have hv := date_value t
    unfold scanDateType
    rw [dateLoop_eq (Int.le_refl _)]
    rcases h3 (w := syms t) (syms_known _ _) with ⟨g1, g2⟩ | ⟨j, g1, g2, -⟩
    · simp only [g1, bind, Except.bind]
      rw [if_pos (by omega)]
      have hz : dateSet t = 0 := g2
      rw [hz] at hv
      have h0 : dateTables.map (fun U => U.value 0) = [DateType.failure.name] := by decide +kernel
      rw [h0] at hv
      rw [List.singleton_inj.1 hv]
    · simp only [g1, bind, Except.bind]
      rw [if_neg (by omega)]
      simp only [g2]
      show (match dateTables.map (fun U => U.value (dateSet t)) with
        | x :: _ => .ok x
        | [] => .error .outOfBounds : Res Text) = _
      rw [hv]

end Mairix
