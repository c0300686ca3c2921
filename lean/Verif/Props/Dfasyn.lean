import Verif.Proofs.Ambiguous
import Verif.Proofs.ISort

/-!
# C62: the scanners that dfasyn generates
-/

namespace Mairix
open Spec

/-- An automaton for `a b* c`: tokens 0, 1 and 2. -/
def sampleAuto : Auto where
  states := [⟨[.token 0 1], []⟩, ⟨[.eps 2], []⟩, ⟨[.token 1 2, .token 2 3], []⟩, ⟨[], [bs "done"]⟩]
  nt := 3
  evaluators := [⟨[⟨bs "PASS", .tag (bs "done"), false⟩], some (bs "FAIL")⟩]
  defs := []

/-- A sort function for the compression. -/
theorem sorts_isort : SortsStates isort := fun _ h => isort_sorts h.swap h.trans

/-- **C62.** With uncompressed tables, as mairix is built: let the generator accept the file. Then for all sequences of tokens, from all entries, the
scanner ends without reading outside its tables, and either it is in a state whose row in the tables is what the input file says of the tokens
(`Outcome`), or it has stopped (state −1) and for no continuation the file says anything but the defaults. If the automaton was compressed, it
has stopped as soon as that is so. Missing: more than 32768 states, which do not fit into the `short` of the tables. -/
theorem C62_plain_partial {sort : StateSort} (hsort : SortsStates sort) {compress : Bool} {a : Auto} {entries : List Nat} {sc : Scanner}
    (h : generate sort compress a entries = .ok sc) (hn : sc.nodes.length ≤ 32768) :
    Pairs (fun e s => ∀ w : List Nat,
      (scanWith sc.nextPlain (stateNumber s) (w.map fun (t : Nat) => (t : Int)) = .ok (-1) ∧ Hopeless a e w) ∨
      (∃ (j : Nat) (xs : List Text), scanWith sc.nextPlain (stateNumber s) (w.map fun (t : Nat) => (t : Int)) = .ok (j : Int) ∧
        sc.attrs j = .ok xs ∧ NoStop a e w ∧ Outcome a e w xs ∧ (compress = true → ¬ Hopeless a e w))) entries sc.entries := by
  obtain ⟨h1, _, h3, h4, h5⟩ := generate_spec hsort h
  have hf : InTables a.nt sc.nodes := ⟨fun d hd => (h3 d hd).1, fun d hd => (h3 d hd).2, hn⟩
  refine scans_of h5 h4 hf ?_
  intro i hi t
  unfold Scanner.nextPlain
  rw [h1]
  exact next_uncompressed hf hi t

/-- **C62.** The same with compressed tables. Missing: more than 256 tokens (`C62_token_violation`), 65535 transitions or 32768 states. -/
theorem C62_packed_partial {sort : StateSort} (hsort : SortsStates sort) {compress : Bool} {a : Auto} {entries : List Nat} {sc : Scanner}
    (h : generate sort compress a entries = .ok sc) (hn : sc.nodes.length ≤ 32768) (ht : a.nt ≤ 256) (hc : listedCount a.nt sc.nodes ≤ 65535) :
    Pairs (fun e s => ∀ w : List Nat,
      (scanWith sc.nextPacked (stateNumber s) (w.map fun (t : Nat) => (t : Int)) = .ok (-1) ∧ Hopeless a e w) ∨
      (∃ (j : Nat) (xs : List Text), scanWith sc.nextPacked (stateNumber s) (w.map fun (t : Nat) => (t : Int)) = .ok (j : Int) ∧
        sc.attrs j = .ok xs ∧ NoStop a e w ∧ Outcome a e w xs ∧ (compress = true → ¬ Hopeless a e w))) entries sc.entries := by
  obtain ⟨h1, _, h3, h4, h5⟩ := generate_spec hsort h
  have hf : InTables a.nt sc.nodes := ⟨fun d hd => (h3 d hd).1, fun d hd => (h3 d hd).2, hn⟩
  refine scans_of h5 h4 hf ?_
  intro i hi t
  unfold Scanner.nextPacked
  rw [h1]
  exact next_compressed hf ht hc hi t 0

example : ∃ sc, generate isort true sampleAuto [0] = .ok sc ∧ sc.nodes.length ≤ 32768 ∧ sampleAuto.nt ≤ 256 ∧ listedCount sampleAuto.nt sc.nodes ≤ 65535 ∧
    scanWith sc.nextPlain 0 [0, 1, 1, 2] = .ok 2 ∧ sc.attrs 2 = .ok [bs "PASS"] ∧ sc.attrs 1 = .ok [bs "FAIL"] ∧
    scanWith sc.nextPacked 0 [0, 1, 1, 2] = .ok 2 ∧ scanWith sc.nextPlain 0 [0, 1, 0] = .ok (-1) := by
  refine ⟨_, rfl, ?_⟩
  decide +kernel

/-- **C62.** A file with a single entry, as those of mairix for dates and From lines: the scanner starts in state 0, unless nothing but the defaults
can ever be the result. -/
theorem C62_single {sort : StateSort} (hsort : SortsStates sort) {compress : Bool} {a : Auto} {e : Nat} {sc : Scanner}
    (h : generate sort compress a [e] = .ok sc) : sc.entries = [some 0] ∨ Hopeless a e [] := by
  rcases single_entry h with h1 | h1
  · exact Or.inl h1
  · obtain ⟨_, _, _, _, h5⟩ := generate_spec hsort h
    rw [h1] at h5
    cases h5 with
    | cons h6 _ =>
      rcases h6 [] with ⟨_, h7⟩ | ⟨j, d, h7, _⟩
      · exact Or.inr h7
      · cases h7

example : ∃ sc, generate isort true sampleAuto [0] = .ok sc ∧ sc.entries = [some 0] := ⟨_, rfl, by decide +kernel⟩

/-- **C62.** The generator always ends. It rejects a file without a default for a table (exit 1); otherwise it accepts the file just if for no
tokens two attributes of a table hold at once, and no state has a tag that is defined by an expression (else exit 2). -/
theorem C62_accepts {sort : StateSort} (hsort : SortsStates sort) (compress : Bool) {a : Auto} {entries : List Nat} (hr : a.inRange entries = true)
    (hd : Acyclic a.defs) :
    ((∃ ev ∈ a.evaluators, ev.default = none) ∧ generate sort compress a entries = .error (.exit 1)) ∨
    ((∃ ds, Defaults a ds) ∧ Wrong a entries ∧ generate sort compress a entries = .error (.exit 2)) ∨
    ((∃ ds, Defaults a ds) ∧ ¬ Wrong a entries ∧ ∃ sc, generate sort compress a entries = .ok sc) := by
  unfold generate
  cases hdef : defaultsOf a.evaluators with
  | none =>
    refine Or.inl ⟨?_, rfl⟩
    unfold defaultsOf at hdef
    generalize a.evaluators = l at hdef
    induction l with
    | nil => cases hdef
    | cons ev l ih =>
      cases h1 : ev.default with
      | none => exact ⟨ev, List.mem_cons_self, h1⟩
      | some d =>
        rw [List.mapM_cons, h1] at hdef
        cases h2 : l.mapM Evaluator.default with
        | some r => rw [h2] at hdef; cases hdef
        | none =>
          obtain ⟨ev', h3, h4⟩ := ih h2
          exact ⟨ev', List.mem_cons_of_mem _ h3, h4⟩
  | some ds =>
    have hds : Defaults a ds := defaultsOf_spec hdef
    simp only [bind, Except.bind]
    right
    cases hb : buildDfa a entries with
    | error f =>
      refine Or.inl ⟨⟨ds, hds⟩, ?_⟩
      have hw : Wrong a entries := by
        rcases build_ok hr hd with h | ⟨r, h, -⟩
        · exact h
        · rw [h] at hb; cases hb
      rcases build_ends hr hd with h | ⟨r, h⟩
      · rw [h] at hb; cases hb; exact ⟨hw, rfl⟩
      · rw [h] at hb; cases hb
    | ok r =>
      refine Or.inr ⟨⟨ds, hds⟩, build_not_wrong hb, ?_⟩
      obtain ⟨nodes, es⟩ := r
      obtain ⟨b1, b2, b3, _⟩ := build_run hb
      simp only
      cases compress with
      | false => exact ⟨_, rfl⟩
      | true =>
        obtain ⟨nodes', es', c1, _⟩ := compress_spec hsort (fun d hdm => by rw [b3 d hdm, pairs_length hds]) b2 (fun d hdm => (b1 d hdm).1)
        simp only [maybeCompress, if_true, c1]
        exact ⟨_, rfl⟩

example : sampleAuto.inRange [0] = true ∧ Acyclic sampleAuto.defs := ⟨by decide +kernel, fun _ => 0, fun d hd => by cases hd⟩

/-- Two attributes for the same tokens. -/
def unclearAuto : Auto where
  states := [⟨[.token 0 1, .token 0 2], []⟩, ⟨[], [bs "one"]⟩, ⟨[], [bs "two"]⟩]
  nt := 1
  evaluators := [⟨[⟨bs "ONE", .tag (bs "one"), false⟩, ⟨bs "TWO", .tag (bs "two"), false⟩], some (bs "NONE")⟩]
  defs := []

example : generate isort true unclearAuto [0] = .error (.exit 2) ∧ unclearAuto.inRange [0] = true := by decide +kernel

/-- 257 tokens; tokens 0 and 256 mean something. -/
def wideAuto : Auto where
  states := [⟨[.token 0 1, .token 256 2], []⟩, ⟨[], [bs "one"]⟩, ⟨[], [bs "two"]⟩]
  nt := 257
  evaluators := [⟨[⟨bs "ONE", .tag (bs "one"), false⟩, ⟨bs "TWO", .tag (bs "two"), false⟩], some (bs "NONE")⟩]
  defs := []

/-- The scanner for it. -/
def wideScanner : Scanner :=
  match generate isort true wideAuto [0] with
  | .ok sc => sc
  | .error _ => ⟨0, [], [], []⟩

/-- **C62.** With more than 256 tokens the compressed tables are wrong: their `unsigned char` can not hold the last. The scanner stops although the
file says `TWO`, where that with uncompressed tables gives `TWO`. -/
theorem C62_token_violation : ∃ sc, generate isort true wideAuto [0] = .ok sc ∧ sc.entries = [some 0] ∧
    Outcome wideAuto 0 [256] [bs "TWO"] ∧ scanWith sc.nextPacked 0 [256] = .ok (-1) ∧
    scanWith sc.nextPlain 0 [256] = .ok 2 ∧ sc.attrs 2 = .ok [bs "TWO"] := by
  refine ⟨wideScanner, by decide +kernel, by decide +kernel, ?_, by decide +kernel⟩
  have hp : ∀ t, Plain wideAuto.defs t := fun t d hd => by cases hd
  have hm : ∀ y, Moves wideAuto.states 0 [256] y → y = 2 := by
    intro y h
    cases h with
    | eps h1 h2 _ => cases h1; simp at h2
    | token h1 h2 h3 =>
      cases h1
      simp at h2
      subst h2
      cases h3 with
      | stay => rfl
      | eps h1 h2 _ => cases h1; simp at h2
  have h2 : Moves wideAuto.states 0 [256] 2 := .token (t := 256) (d := 2) rfl (by decide) .stay
  have ht : Tagged wideAuto.states 0 [256] (bs "two") := ⟨2, _, h2, rfl, by decide⟩
  have hn : ¬ Tagged wideAuto.states 0 [256] (bs "one") := by
    rintro ⟨e, st, h1, h3, h4⟩
    cases hm e h1
    cases h3
    exact absurd h4 (by decide)
  refine .cons (.attr h2 (.one (pre := [⟨bs "ONE", .tag (bs "one"), false⟩]) (a := ⟨bs "TWO", .tag (bs "two"), false⟩) (post := []) rfl
    (.set (hp _) ht) ?_)) .nil
  intro b hb
  simp only [List.append_nil, List.mem_singleton] at hb
  subst hb
  exact .unset (hp _) hn

end Mairix
