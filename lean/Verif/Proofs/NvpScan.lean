import Verif.Proofs.NvpCert
import Verif.Proofs.NvpRead
import Verif.Proofs.FromScan

/-!
# The scanner generated from nvp.nfa
-/

namespace Mairix
open Spec

/-! ## The variables other than the state -/

theorem copyAs_state (r : NvpRun) (x : List NvpState) (k : NvpCopier) : NvpRun.copyAs { r with state := x } k = { r.copyAs k with state := x } := by
  unfold NvpRun.copyAs
  split
  · cases h : r.lastCopier <;> simp [h]
  · rfl

theorem took_state (r : NvpRun) (x : List NvpState) (res : Nvp) : NvpRun.took { r with state := x } res = { r.took res with state := x } := by
  unfold NvpRun.took
  simp only
  split <;> rfl

theorem terminate_state (r : NvpRun) (x : List NvpState) :
    NvpRun.terminate { r with state := x } = r.terminate.map (Option.map fun r => { r with state := x }) := by
  unfold NvpRun.terminate
  cases h : r.lastAction
  case nameSpace =>
    simp only [bind, Except.bind]
    cases nvpTrim r.name <;> simp [Except.map, h]
  case nameValueCont =>
    simp only [bind, Except.bind]
    cases nvpCombine r.name r.value r.result with
    | error f => simp [Except.map]
    | ok l => simp only [Except.map, Option.map_some]; rw [← took_state, h]
  case nameValueCset | nameValueCcont =>
    simp only
    cases r.value with
    | none => rfl
    | some v =>
      simp only
      cases nvpPercent v with
      | none => rfl
      | some v =>
        simp only [bind, Except.bind]
        cases nvpCombine r.name (some (v.takeWhile (· != 0))) r.result with
        | error f => rfl
        | ok l =>
          simp only [Except.map, Option.map_some]
          have := took_state { r with value := some (v.takeWhile (· != 0)) } x l
          simp only [h] at this
          rw [← this]
  all_goals simp [Except.map, h]

theorem actAs_state (r : NvpRun) (x : List NvpState) (a : NvpAction) (c : Option UInt8) :
    NvpRun.actAs { r with state := x } a c = (r.actAs a c).map (Option.map fun r => { r with state := x }) := by
  unfold NvpRun.actAs
  cases a
  case terminator =>
    simp only [terminate_state]
    cases r.terminate with
    | error f => rfl
    | ok o => cases o with
      | none => rfl
      | some r => cases c <;> rfl
  all_goals cases c <;> rfl

theorem copy_eq (r : NvpRun) : r.copy = r.copyAs (nvpCopierOf r.state) := by
  unfold NvpRun.copy NvpRun.copyAs
  split
  · cases h : r.lastCopier <;> rfl
  · rfl

/-- What is read in a round. -/
def nvpReads : Option UInt8 → NvpTok
  | none => .eos
  | some c => nvpTok c

theorem step_eq (r : NvpRun) (c : Option UInt8) {st : List NvpState} (h : nvpNext r.state (nvpReads c) = st) : r.step c =
    if st = [] then .ok none else (NvpRun.copyAs { r with state := st } (nvpCopierOf st)).actAs (nvpActionOf st) c := by
  cases c with
  | none =>
    have h' : nvpNext r.state .eos = st := h
    unfold NvpRun.step
    simp only [h']
    split
    · rfl
    · rw [copy_eq]
      unfold NvpRun.actAs
      rfl
  | some c =>
    have h' : nvpNext r.state (nvpTok c) = st := h
    unfold NvpRun.step
    simp only [h']
    split
    · rfl
    · rw [copy_eq]
      unfold NvpRun.actAs
      rfl

/-! ## The names in the tables -/

/-- The first name with its bit in `m`. -/
def byMarks (d : Text) (m : Nat) : List (Text × Nat × Nat) → Text
  | [] => d
  | x :: l => bif Nat.testBit m x.2.2 then x.1 else byMarks d m l

theorem value_byMarks {T : TagTable} {S m : Nat} {L : List (Text × Nat × Nat)} (h : T.attrs = L.map fun x => (x.1, x.2.1))
    (ha : ∀ x ∈ L, meets S x.2.1 = m.testBit x.2.2) : T.value S = byMarks T.default m L := by
  unfold TagTable.value
  rw [h]
  clear h
  induction L with
  | nil => rfl
  | cons x L ih =>
    simp only [List.map_cons, TagTable.value.go, byMarks, ha x List.mem_cons_self]
    rw [ih fun y hy => ha y (List.mem_cons_of_mem _ hy)]

theorem three_of_length {α : Type} {l : List α} (h : l.length = 3) (d : α) : l = [l.getD 0 d, l.getD 1 d, l.getD 2 d] := by
  match l, h with
  | [a, b, c], _ => rfl

/-- The table for the copiers. -/
def nvpCopiers : TagTable := nvpTables.getD 0 ⟨[], []⟩

/-- The table for the actions. -/
def nvpActions : TagTable := nvpTables.getD 1 ⟨[], []⟩

theorem nvp_three : nvpTables = [nvpCopiers, nvpActions, nvpTables.getD 2 ⟨[], []⟩] := three_of_length (by decide +kernel) _

/-- The names and bits of the copiers. -/
def nvpCopierBits : List (Text × Nat × Nat) := List.zipWith (fun a e => (a.1, e)) nvpCopiers.attrs nvpEnds

/-- The names and bits of the actions. -/
def nvpActionBits : List (Text × Nat × Nat) := List.zipWith (fun a e => (a.1, e)) nvpActions.attrs (nvpEnds.drop 3)

theorem nvp_copier_bits : nvpCopiers.attrs = nvpCopierBits.map fun x => (x.1, x.2.1) := by decide +kernel

theorem nvp_action_bits : nvpActions.attrs = nvpActionBits.map fun x => (x.1, x.2.1) := by decide +kernel

theorem nvp_copier_ends : ∀ x ∈ nvpCopierBits, x.2 ∈ nvpEnds := by decide +kernel

theorem nvp_action_ends : ∀ x ∈ nvpActionBits, x.2 ∈ nvpEnds := by decide +kernel

theorem nvp_copier_named : ∀ i < 44, nvpCopierNamed (byMarks nvpCopiers.default (nvpMarks.getD i 0) nvpCopierBits) = nvpCopierOf (nvpModel.getD i []) := by decide +kernel

theorem nvp_action_named : ∀ i < 44, nvpActionNamed (byMarks nvpActions.default (nvpMarks.getD i 0) nvpActionBits) = nvpActionOf (nvpModel.getD i []) := by decide +kernel

theorem nvp_named {S i : Nat} (hi : i < 44) (ha : nvpAgree S i = true) : ∃ c a r, nvpTables.map (fun T => T.value S) = c :: a :: r ∧
    nvpCopierNamed c = nvpCopierOf (nvpModel.getD i []) ∧ nvpActionNamed a = nvpActionOf (nvpModel.getD i []) := by
  unfold nvpAgree at ha
  rw [Bool.and_eq_true] at ha
  refine ⟨nvpCopiers.value S, nvpActions.value S, [(nvpTables.getD 2 ⟨[], []⟩).value S], ?_, ?_, ?_⟩
  · rw [nvp_three]
    rfl
  · rw [value_byMarks nvp_copier_bits fun x hx => agree_iff ha.1 (nvp_copier_ends x hx)]
    exact nvp_copier_named i hi
  · rw [value_byMarks nvp_action_bits fun x hx => agree_iff ha.1 (nvp_action_ends x hx)]
    exact nvp_action_named i hi

theorem nvp_empty {S i : Nat} (hi : i < 44) (ha : nvpAgree S i = true) : S = 0 ↔ nvpModel.getD i [] = [] := by
  unfold nvpAgree at ha
  rw [Bool.and_eq_true] at ha
  have h := (nvp_marks i hi).2.2
  have h2 := ha.2
  rw [beq_iff_eq, ← h] at h2
  rw [← List.isEmpty_iff, ← h2, Nat.beq_eq]

/-! ## One round -/

/-- What is read in a round, as a symbol. -/
def nvpSym : Option UInt8 → Sym
  | none => .tok 0
  | some c => .chr c

theorem nvp_sym (c : Option UInt8) : nvpReads c = nvpToks.getD (nvpTokOf.getD (nvpGroups.of (nvpSym c)) 0) .bad := by
  cases c with
  | none => exact nvp_eos.symm
  | some c => exact nvp_toks c

/-- The number of the set of the model after `w`. -/
def nvpIdx (w : List Sym) : Nat := (w.map nvpGroups.of).foldl nvpModelStep 0

theorem nvpTok_lt (g : Nat) : nvpTokOf.getD g 0 < 17 := by
  rw [List.getD_eq_getElem?_getD]
  cases h : nvpTokOf[g]? with
  | none => decide
  | some k => exact nvp_toks_lt k (List.mem_of_getElem? h)

theorem foldl_idx {gs : List Nat} {i : Nat} (hi : i < 44) : gs.foldl nvpModelStep i < 44 := by
  induction gs generalizing i with
  | nil => exact hi
  | cons g gs ih => exact ih (nvp_model i hi _ (nvpTok_lt g)).2

theorem nvpIdx_lt (w : List Sym) : nvpIdx w < 44 := foldl_idx (by decide)

theorem nvpIdx_snoc (w : List Sym) (c : Option UInt8) :
    nvpNext (nvpModel.getD (nvpIdx w) []) (nvpReads c) = nvpModel.getD (nvpIdx (w ++ [nvpSym c])) [] := by
  rw [nvp_sym, (nvp_model _ (nvpIdx_lt w) _ (nvpTok_lt _)).1]
  unfold nvpIdx
  rw [List.map_append, List.foldl_append]
  rfl

/-- What is known of the scanner. -/
def NvpScans (sc : CharScanner) : Prop := ∀ {w : List Sym}, (∀ x ∈ w, x.Known nvpAuto.nt) →
    ((scanWith sc.scanner.nextPlain 0 (w.map (Sym.number sc.char2tok)) = .ok (-1) ∧ setAfter nvpGroups nvpClosures nvpRows 0 w = 0) ∨
     (∃ j : Nat, scanWith sc.scanner.nextPlain 0 (w.map (Sym.number sc.char2tok)) = .ok (j : Int) ∧
       sc.scanner.attrs j = .ok (nvpTables.map fun U => U.value (setAfter nvpGroups nvpClosures nvpRows 0 w)) ∧ (true = true → setAfter nvpGroups nvpClosures nvpRows 0 w ≠ 0)))

theorem nvp_agrees {w : List Sym} (hw : ∀ x ∈ w, x.Known nvpAuto.nt) : nvpAgree (setAfter nvpGroups nvpClosures nvpRows 0 w) (nvpIdx w) = true := by
  obtain ⟨j, h1, h2, h3⟩ := nvp_pairs.reach (fun _ _ h => Nat.eq_of_beq_eq_true h) (known_groups (a := nvpAuto) nvp_rows.groups hw)
  have h4 := (nvp_pairs.good h1).1
  rw [← h2, ← h3] at h4
  exact h4

theorem nvpRound_eq {sc : CharScanner} (hsc : NvpScans sc) {w : List Sym} (hw : ∀ x ∈ w, x.Known nvpAuto.nt) {s : Int}
    (hs : scanWith sc.scanner.nextPlain 0 (w.map (Sym.number sc.char2tok)) = .ok s) (hpos : 0 ≤ s) (r : NvpRun)
    (hr : r.state = nvpModel.getD (nvpIdx w) []) (c : Option UInt8) :
    ∃ s' : Int, (∀ o, r.step c = .ok (some o) → 0 ≤ s' ∧ o.state = nvpModel.getD (nvpIdx (w ++ [nvpSym c])) [] ∧
      scanWith sc.scanner.nextPlain 0 ((w ++ [nvpSym c]).map (Sym.number sc.char2tok)) = .ok s') ∧
    nvpRound sc s { r with state := [] } c = (r.step c).map (Option.map fun o => (s', { o with state := [] })) := by
  have hw' : ∀ x ∈ w ++ [nvpSym c], x.Known nvpAuto.nt := by
    intro x hx
    rcases List.mem_append.1 hx with hx | hx
    · exact hw x hx
    · cases List.mem_singleton.1 hx
      cases c with
      | none => exact (by decide : 0 < 1)
      | some c => trivial
  have hstep : scanWith sc.scanner.nextPlain 0 ((w ++ [nvpSym c]).map (Sym.number sc.char2tok)) = sc.scanner.nextPlain s (sc.tokenOrEnd c) := by
    have := scan_snoc hs hpos (sc.tokenOrEnd c)
    rw [← this, List.map_append]
    cases c <;> rfl
  have hag := nvp_agrees hw'
  have hnext := nvpIdx_snoc w c
  rw [← hr] at hnext
  rw [step_eq r c hnext]
  unfold nvpRound
  rcases hsc hw' with ⟨g1, g2⟩ | ⟨j, g1, g2, g3⟩
  · have he := (nvp_empty (nvpIdx_lt _) hag).1 g2
    refine ⟨0, ?_, ?_⟩
    · intro o ho
      rw [if_pos he] at ho
      cases ho
    · rw [if_pos he, ← hstep, g1]
      rfl
  · have he : nvpModel.getD (nvpIdx (w ++ [nvpSym c])) [] ≠ [] := fun h => g3 rfl ((nvp_empty (nvpIdx_lt _) hag).2 h)
    obtain ⟨cp, ac, rest, k1, k2, k3⟩ := nvp_named (nvpIdx_lt _) hag
    rw [k1] at g2
    rw [if_neg he, ← hstep, g1]
    generalize nvpModel.getD (nvpIdx (w ++ [nvpSym c])) [] = st at he k2 k3
    refine ⟨j, ?_, ?_⟩
    · intro o ho
      refine ⟨by omega, ?_, rfl⟩
      rw [copyAs_state, actAs_state] at ho
      cases ha : (r.copyAs (nvpCopierOf st)).actAs (nvpActionOf st) c with
      | error f => rw [ha] at ho; cases ho
      | ok o' =>
        rw [ha] at ho
        cases o' with
        | none => cases ho
        | some o' => cases ho; rfl
    · simp only [bind, Except.bind, g2]
      rw [if_neg (by omega), k2, k3, copyAs_state r [], copyAs_state r st, actAs_state _ [], actAs_state _ st]
      cases (r.copyAs (nvpCopierOf st)).actAs (nvpActionOf st) c with
      | error f => rfl
      | ok o => cases o <;> rfl

theorem nvpRounds_eq {sc : CharScanner} (hsc : NvpScans sc) : ∀ (t : Text) {w : List Sym}, (∀ x ∈ w, x.Known nvpAuto.nt) → ∀ {s : Int},
    scanWith sc.scanner.nextPlain 0 (w.map (Sym.number sc.char2tok)) = .ok s → 0 ≤ s → ∀ (r : NvpRun), r.state = nvpModel.getD (nvpIdx w) [] →
    nvpRounds sc s { r with state := [] } t = r.loop t
  | [], w, hw, s, hs, hpos, r, hr => by
    obtain ⟨s', -, h2⟩ := nvpRound_eq hsc hw hs hpos r hr none
    unfold nvpRounds NvpRun.loop
    rw [h2]
    cases r.step none with
    | error f => rfl
    | ok o => cases o <;> rfl
  | c :: t, w, hw, s, hs, hpos, r, hr => by
    obtain ⟨s', h1, h2⟩ := nvpRound_eq hsc hw hs hpos r hr (some c)
    unfold nvpRounds NvpRun.loop
    rw [h2]
    cases ho : r.step (some c) with
    | error f => rfl
    | ok o => cases o with
      | none => rfl
      | some o =>
        obtain ⟨h3, h4, h5⟩ := h1 o ho
        refine nvpRounds_eq hsc t ?_ h5 h3 o h4
        intro x hx
        rcases List.mem_append.1 hx with hx | hx
        · exact hw x hx
        · cases List.mem_singleton.1 hx
          trivial

theorem nvp_entries : nvpAuto.entries = [0] := by decide +kernel

theorem nvp_scans {sort : StateSort} (hsort : SortsStates sort) : ∃ sc, dfasyn sort true nvpscanFile = .ok sc ∧
    sc.scanner.entries = [some 0] ∧ ∀ s pfx, scanNvp sc s pfx = makeNvp s pfx := by
  obtain ⟨sc, h1, h2, h3⟩ := scans nvp_rows (e := 0) (by decide +kernel) nvp_tables (fun _ _ h => Nat.eq_of_beq_eq_true h) nvp_pairs (by decide +kernel) (by decide +kernel) hsort true
  refine ⟨sc, ?_, h2, ?_⟩
  · rw [dfasyn_of_read nvp_read, nvp_entries]
    exact h1
  · intro s pfx
    unfold scanNvp makeNvp
    split
    · exact nvpRounds_eq (w := []) (fun {w} hw => h3 (w := w) hw) _ (fun x hx => by cases hx) rfl (Int.le_refl _) NvpRun.start nvp_model_in.symm
    · rfl

end Mairix
