import Verif.Model.Scanners
import Verif.Proofs.FromCert
import Verif.Proofs.NfaBound
import Verif.Proofs.Regex

/-!
# The scanner generated from fromcheck.nfa
-/

namespace Mairix
open Spec

theorem scan_snoc {next : Int → Int → Res Int} {u : List Int} {s : Int} (h : scanWith next 0 u = .ok s) (hs : 0 ≤ s) (t : Int) :
    scanWith next 0 (u ++ [t]) = next s t := by
  rcases scanWith_append u [t] 0 s h with h1 | ⟨h1, -⟩
  · rw [h1]
    unfold scanWith
    rw [if_neg (by omega)]
    cases next s t with
    | error f => rfl
    | ok x => rfl
  · omega

/-- The symbols of a text. -/
abbrev syms (w : Text) : List Sym := w.map Sym.chr

theorem syms_known (nt : Nat) (w : Text) : ∀ x ∈ syms w, x.Known nt := by
  intro x hx
  obtain ⟨c, _, rfl⟩ := List.mem_map.1 hx
  trivial

theorem number_chr (sc : CharScanner) (c : UInt8) : Sym.number sc.char2tok (.chr c) = sc.token c := rfl

/-- The set of states after a text. -/
def fromSet (w : Text) : Nat := setAfter fromGroups fromClosure fromRows 0 (syms w)

theorem from_denotes (w : Text) : Denotes From.line w ↔ meets (fromSet w) fromPass = true := by
  have hsym : (syms w).map fromGroups.of = w.map fromGroup := by rw [List.map_map]; rfl
  obtain ⟨j, h1, h2, h3⟩ := from_pairs.reach (fun _ _ h => Nat.eq_of_beq_eq_true h) (known_groups (a := fromAuto) from_rows.groups (syms_known 0 w))
  have hag := agree_iff (from_pairs.good h1).1 (x := (fromPass, 353)) List.mem_cons_self
  rw [← h2, ← h3, hsym] at hag
  have hset : fromSet w = runSet fromRows (fromClosure.get 0).1 (w.map fromGroup) := by unfold fromSet setAfter; rw [hsym]
  rw [hset, hag]
  have := table_run (γ := fromGroup) (l := [(fromMasks.bLine, 353)]) (f := 353) (by rw [from_table]; decide +kernel) (fun x hx => by
    cases List.mem_singleton.1 hx; rw [from_table]; decide +kernel) w
  rw [from_table, from_start] at this
  show _ ↔ (runSet (asRows fromTable) fromStart (w.map fromGroup)).testBit 353 = true
  rw [this, from_fit.line]
  constructor
  · intro h; exact ⟨_, List.mem_singleton.2 rfl, h⟩
  · rintro ⟨r, h, h'⟩
    cases List.mem_singleton.1 h
    exact h'

/-- The attribute after a text. -/
theorem from_attr (w : Text) : fromTables.map (fun U => U.value (fromSet w)) = [bs "FROMCHECK_PASS"] ∨
    fromTables.map (fun U => U.value (fromSet w)) = [bs "FROMCHECK_FAIL"] := by
  unfold fromTables
  simp only [List.map_cons, List.map_nil, TagTable.value, TagTable.value.go]
  cases meets (fromSet w) 157968437502835780048304289218211608359400929070273162017849212928 <;> cases meets (fromSet w) 0 <;> simp

theorem from_attr_iff (w : Text) : (fromTables.map (fun U => U.value (fromSet w))).head? = some (bs "FROMCHECK_PASS") ↔ meets (fromSet w) fromPass = true := by
  have hne : bs "FROMCHECK_FAIL" ≠ bs "FROMCHECK_PASS" := by decide +kernel
  unfold fromTables fromPass
  simp only [List.map_cons, List.map_nil, TagTable.value, TagTable.value.go, List.head?_cons, Option.some.injEq]
  cases meets (fromSet w) 157968437502835780048304289218211608359400929070273162017849212928 <;> cases meets (fromSet w) 0 <;> simp [hne]

theorem fromSet_append_zero {w : Text} (h : fromSet w = 0) (v : Text) : fromSet (w ++ v) = 0 := by
  unfold fromSet at h ⊢
  rw [show syms (w ++ v) = syms w ++ syms v from List.map_append, setAfter_append, h, runSet_zero]

theorem dfasyn_of_read {f : NfaFile} {a : IAuto} (h : f.read = .ok a) {sort : StateSort} {compress : Bool} :
    dfasyn sort compress f = generateChars sort compress a.toC a.entries := by
  unfold dfasyn
  rw [h]
  rfl

theorem from_entries : fromAuto.entries = [0] := by decide +kernel

theorem from_scans {sort : StateSort} (hsort : SortsStates sort) (compress : Bool) : ∃ sc, dfasyn sort compress fromcheckFile = .ok sc ∧
    sc.scanner.entries = [some 0] ∧ ∀ t, scanFrom sc t = .ok (fromCheck t) := by
  obtain ⟨sc, h1, h2, h3⟩ := scans from_rows (e := 0) (by decide +kernel) from_tables (fun _ _ h => Nat.eq_of_beq_eq_true h) from_pairs (by decide +kernel) (by decide +kernel) hsort compress
  refine ⟨sc, ?_, h2, ?_⟩
  · rw [dfasyn_of_read from_read, from_entries]
    exact h1
  · have key : ∀ (t u : Text) (s : Int), scanWith sc.scanner.nextPlain 0 ((syms u).map (Sym.number sc.char2tok)) = .ok s → 0 ≤ s →
        ∃ b, fromLoop sc s t = .ok b ∧ (b = true ↔ ∃ x y, t = x ++ y ∧ x ≠ [] ∧ Denotes From.line (u ++ x)) := by
      intro t
      induction t with
      | nil =>
        intro u s _ _
        refine ⟨false, rfl, (fun h => by cases h), ?_⟩
        rintro ⟨x, y, hx, hne, -⟩
        exact absurd (List.append_eq_nil_iff.1 hx.symm).1 hne
      | cons c t ih =>
        intro u s hs hpos
        have hstep : scanWith sc.scanner.nextPlain 0 ((syms (u ++ [c])).map (Sym.number sc.char2tok)) = sc.scanner.nextPlain s (sc.token c) := by
          have := scan_snoc hs hpos (sc.token c)
          rw [← this]
          simp only [List.map_append, List.map_cons, List.map_nil, number_chr]
        have hsplit : ∀ x y : Text, c :: t = x ++ y → x ≠ [] → ∃ x', x = c :: x' ∧ t = x' ++ y := by
          intro x y hx hne
          cases x with
          | nil => exact absurd rfl hne
          | cons d x => cases hx; exact ⟨x, rfl, rfl⟩
        unfold fromLoop
        rcases h3 (w := syms (u ++ [c])) (syms_known _ _) with ⟨g1, g2⟩ | ⟨j, g1, g2, -⟩
        · rw [hstep] at g1
          simp only [g1, bind, Except.bind]
          refine ⟨false, rfl, (fun h => by cases h), ?_⟩
          rintro ⟨x, y, hx, hne, hd⟩
          obtain ⟨x', rfl, -⟩ := hsplit x y hx hne
          have hz : fromSet (u ++ [c] ++ x') = 0 := fromSet_append_zero g2 x'
          rw [List.append_assoc] at hz
          rw [from_denotes, show u ++ c :: x' = u ++ ([c] ++ x') from rfl, hz] at hd
          exact absurd hd (by decide +kernel)
        · have g1' := g1
          rw [hstep] at g1'
          simp only [g1', bind, Except.bind]
          rw [if_neg (by omega)]
          simp only [g2]
          have hiff := from_attr_iff (u ++ [c])
          by_cases hp : (fromTables.map (fun U => U.value (fromSet (u ++ [c])))).head? = some (bs "FROMCHECK_PASS")
          · refine ⟨true, if_pos hp, fun _ => ⟨[c], t, rfl, (fun h => by cases h), (from_denotes _).2 (hiff.1 hp)⟩, fun _ => rfl⟩
          · obtain ⟨b, k1, k2⟩ := ih (u ++ [c]) j g1 (by omega)
            refine ⟨b, (if_neg hp).trans k1, ?_⟩
            rw [k2]
            constructor
            · rintro ⟨x, y, rfl, hne, hd⟩
              exact ⟨c :: x, y, rfl, (fun h => by cases h), by rw [show u ++ c :: x = u ++ [c] ++ x by simp]; exact hd⟩
            · rintro ⟨x, y, hx, hne, hd⟩
              obtain ⟨x', rfl, rfl⟩ := hsplit x y hx hne
              cases x' with
              | nil => exact absurd (hiff.2 ((from_denotes _).1 hd)) hp
              | cons d x' =>
                exact ⟨d :: x', y, rfl, (fun h => by cases h), by rw [show u ++ [c] ++ d :: x' = u ++ c :: d :: x' by simp]; exact hd⟩
    intro t
    obtain ⟨b, h4, h5⟩ := key t [] 0 rfl (Int.le_refl _)
    have h6 : b = fromCheck t := by
      rw [Bool.eq_iff_iff, h5]
      unfold fromCheck
      rw [RE.passes_iff]
      simp only [List.nil_append]
    rw [← h6]
    exact h4

end Mairix
