import Verif.Proofs.NfaSets
import Verif.Proofs.Ambiguous
import Verif.Props.Charclass

/-!
# Scanners for files whose attributes are tags

The input files of mairix define no tags by expressions, have no attributes that stop the scanner, and name attributes after tags. What
a scanner generated from such a file does is described by sets of states as numbers.
-/

namespace Mairix
open Spec

/-- The states with the tag, from number `q` on. -/
def tagMask (tag : Text) : List IState → Nat → Nat
  | [], _ => 0
  | s :: ss, q => bif s.tags.contains tag then Nat.lor (2 ^ q) (tagMask tag ss (q + 1)) else tagMask tag ss (q + 1)

theorem testBit_tagMask {tag : Text} {x : Nat} : ∀ {ss : List IState} {q : Nat}, (tagMask tag ss q).testBit x = true ↔ ∃ i s, x = q + i ∧ ss[i]? = some s ∧ tag ∈ s.tags
  | [], q => by simp [tagMask]
  | s :: ss, q => by
    have ih := testBit_tagMask (tag := tag) (x := x) (ss := ss) (q := q + 1)
    have tail : (∃ i t, x = q + 1 + i ∧ ss[i]? = some t ∧ tag ∈ t.tags) ↔ ∃ i t, x = q + (i + 1) ∧ (s :: ss)[i + 1]? = some t ∧ tag ∈ t.tags := by
      constructor <;> rintro ⟨i, t, h1, h2, h3⟩ <;> exact ⟨i, t, by omega, h2, h3⟩
    unfold tagMask
    cases hc : s.tags.contains tag with
    | false =>
      have hn : tag ∉ s.tags := fun h => by rw [List.contains_iff_mem.2 h] at hc; cases hc
      rw [cond_false, ih, tail]
      constructor
      · rintro ⟨i, t, h⟩; exact ⟨i + 1, t, h⟩
      · rintro ⟨i, t, h1, h2, h3⟩
        cases i with
        | zero => cases h2; exact absurd h3 hn
        | succ i => exact ⟨i, t, h1, h2, h3⟩
    | true =>
      rw [cond_true]
      show (2 ^ q ||| tagMask tag ss (q + 1)).testBit x = true ↔ _
      rw [Nat.testBit_or, Bool.or_eq_true, ih, tail, Nat.testBit_two_pow, decide_eq_true_eq]
      constructor
      · rintro (h | ⟨i, t, h⟩)
        · exact ⟨0, s, by omega, rfl, List.contains_iff_mem.1 hc⟩
        · exact ⟨i + 1, t, h⟩
      · rintro ⟨i, t, h1, h2, h3⟩
        cases i with
        | zero => exact Or.inl (by omega)
        | succ i => exact Or.inr ⟨i, t, h1, h2, h3⟩

/-- The sets have a state in common. -/
def meets (s m : Nat) : Bool := !Nat.beq (Nat.land s m) 0

theorem meets_iff {s m : Nat} : meets s m = true ↔ ∃ x, s.testBit x = true ∧ m.testBit x = true := by
  unfold meets
  rw [Bool.not_eq_true']
  constructor
  · intro h
    have h0 : s &&& m ≠ 0 := by
      intro h'
      have : Nat.beq (Nat.land s m) 0 = true := by rw [Nat.beq_eq]; exact h'
      rw [this] at h; cases h
    obtain ⟨x, hx⟩ := Nat.exists_testBit_of_ne_zero h0
    rw [Nat.testBit_and, Bool.and_eq_true] at hx
    exact ⟨x, hx⟩
  · rintro ⟨x, h1, h2⟩
    cases h : Nat.beq (Nat.land s m) 0 with
    | false => rfl
    | true =>
      have h' : s &&& m = 0 := Nat.eq_of_beq_eq_true h
      have : (s &&& m).testBit x = true := by rw [Nat.testBit_and, h1, h2]; rfl
      rw [h', Nat.zero_testBit] at this
      cases this

/-- A table of the scanner: for each attribute the states with its tag, and the default. -/
structure TagTable where
  attrs : List (Text × Nat)
  default : Text

/-- What the table says of a set of states. -/
def TagTable.value (T : TagTable) (s : Nat) : Text := go T.attrs
where
  /-- the first attribute -/
  go : List (Text × Nat) → Text
    | [] => T.default
    | x :: l => bif meets s x.2 then x.1 else go l

/-- How many attributes there are. -/
def hits (s : Nat) : List (Text × Nat) → Nat
  | [] => 0
  | x :: l => bif meets s x.2 then hits s l + 1 else hits s l

/-- The table belongs to the group of attributes. -/
def TagTable.check (states : List IState) (ev : Evaluator) (T : TagTable) : Bool :=
  ev.default == some T.default && ev.attrs == T.attrs.map (fun x => ⟨x.1, .tag x.1, false⟩) && T.attrs.all fun x => Nat.beq x.2 (tagMask x.1 states 0)

/-- The tables belong to the groups. -/
def checkTables (states : List IState) : List Evaluator → List TagTable → Bool
  | [], [] => true
  | ev :: evs, T :: Ts => T.check states ev && checkTables states evs Ts
  | _, _ => false

theorem checkTables_pairs {states : List IState} : ∀ {evs : List Evaluator} {Ts : List TagTable}, checkTables states evs Ts = true →
    Pairs (fun ev T => T.check states ev = true) evs Ts
  | [], [], _ => .nil
  | [], _ :: _, h => by cases h
  | _ :: _, [], h => by cases h
  | ev :: evs, T :: Ts, h => by
    simp only [checkTables, Bool.and_eq_true] at h
    exact .cons h.1 (checkTables_pairs h.2)

theorem TagTable.check_iff {states : List IState} {ev : Evaluator} {T : TagTable} (h : T.check states ev = true) :
    ev.default = some T.default ∧ ev.attrs = T.attrs.map (fun x => ⟨x.1, .tag x.1, false⟩) ∧ ∀ x ∈ T.attrs, x.2 = tagMask x.1 states 0 := by
  simp only [TagTable.check, Bool.and_eq_true, beq_iff_eq, List.all_eq_true] at h
  exact ⟨h.1.1, h.1.2, fun x hx => Nat.eq_of_beq_eq_true (h.2 x hx)⟩

/-- The items are safe. -/
def noTopB (s : SimpleClass) : Bool := [31, 63, 95, 127, 159, 191, 223, 255].all fun c => !s.items.any (itemB c)

/-- The class is safe. -/
def safeB : ClassExpr → Bool
  | .simple s => !s.caret || noTopB s
  | .negated s => s.caret || noTopB s
  | .minus s t => (!(s.caret || t.caret) || noTopB s) && (!t.caret || noTopB t)

theorem noTopB_sound {s : SimpleClass} (h : noTopB s = true) : NoTop s := by
  intro c hc hin
  have hlt := c.toNat_lt
  unfold noTopB at h
  rw [List.all_eq_true] at h
  have hm : c.toNat ∈ [31, 63, 95, 127, 159, 191, 223, 255] := by
    simp only [List.mem_cons, List.not_mem_nil, or_false]
    omega
  have := h _ hm
  rw [Bool.not_eq_true'] at this
  obtain ⟨i, hi, hci⟩ := hin
  have h2 : s.items.any (itemB c.toNat) = true := List.any_eq_true.2 ⟨i, hi, itemB_iff.2 hci⟩
  rw [this] at h2
  cases h2

theorem safeB_sound {e : ClassExpr} (h : safeB e = true) : SafeClass e := by
  cases e with
  | simple s =>
    simp only [safeB, Bool.or_eq_true, Bool.not_eq_true'] at h
    intro hc
    rcases h with h | h
    · rw [hc] at h; cases h
    · exact noTopB_sound h
  | negated s =>
    simp only [safeB, Bool.or_eq_true] at h
    intro hc
    rcases h with h | h
    · rw [hc] at h; cases h
    · exact noTopB_sound h
  | minus s t =>
    simp only [safeB, Bool.or_eq_true, Bool.and_eq_true, Bool.not_eq_true', Bool.or_eq_false_iff] at h
    refine ⟨fun hc => ?_, fun hc => ?_⟩
    · rcases h.1 with h | h
      · rcases hc with hc | hc
        · rw [hc] at h; cases h.1
        · rw [hc] at h; cases h.2
      · exact noTopB_sound h
    · rcases h.2 with h | h
      · rw [hc] at h; cases h
      · exact noTopB_sound h

/-- The tables, and what dfasyn demands of the classes; `reps` has a character of each group. -/
structure TablesOk (a : IAuto) (G : Grouping) (reps : List Nat) (Ts : List TagTable) : Prop where
  defs : a.defs = []
  tables : checkTables a.states a.evaluators Ts = true
  safe : a.classes.all safeB = true
  nonempty : G.masks.all (fun m => !Nat.beq m 0) = true
  reps : (List.range G.n).all (fun g => Nat.blt (reps.getD g 0) 256 && Nat.beq (G.chars.getD (reps.getD g 0) 0) g) = true

theorem TablesOk.char {a : IAuto} {G : Grouping} {reps : List Nat} {Ts : List TagTable} (h : TablesOk a G reps Ts) {g : Nat} (hg : g < G.n) : ∃ c, G.of (.chr c) = g := by
  have := List.all_eq_true.1 h.reps g (List.mem_range.2 hg)
  rw [Bool.and_eq_true] at this
  refine ⟨UInt8.ofNat (reps.getD g 0), ?_⟩
  show G.chars.getD (UInt8.ofNat (reps.getD g 0)).toNat 0 = g
  rw [UInt8.toNat_ofNat_of_lt' (blt_iff.1 this.1)]
  exact Nat.eq_of_beq_eq_true this.2

theorem TablesOk.sym {a : IAuto} {G : Grouping} {reps : List Nat} {Ts : List TagTable} (h : TablesOk a G reps Ts) {g : Nat} (hg : g < G.n + a.nt) :
    ∃ x : Sym, x.Known a.nt ∧ G.of x = g := by
  rcases Nat.lt_or_ge g G.n with h1 | h1
  · obtain ⟨c, hc⟩ := h.char h1
    exact ⟨.chr c, trivial, hc⟩
  · exact ⟨.tok (g - G.n), by show g - G.n < a.nt; omega, by show G.n + (g - G.n) = g; omega⟩

theorem proper_of {a : IAuto} {G : Grouping} {cl : Tree (Nat × Nat)} {rows : List (List (Nat × Nat))} (hr : RowsOk a G cl rows) {reps : List Nat} {Ts : List TagTable}
    (h : TablesOk a G reps Ts) : Proper a.toC := by
  intro s hs tr htr
  simp only [IAuto.toC, List.mem_map] at hs
  obtain ⟨s0, hs0, rfl⟩ := hs
  simp only [List.mem_map] at htr
  obtain ⟨t0, ht0, rfl⟩ := htr
  obtain ⟨q, hq⟩ := List.getElem?_of_mem hs0
  obtain ⟨r, _, hf⟩ := hr.facts hq
  obtain ⟨h1, h2, h3⟩ := mem_transIn hf.inside ht0
  cases t0 with
  | eps d => trivial
  | token t d => exact h3 t d rfl
  | cls k d =>
    have hk := h2 k d rfl
    show SafeClass _ ∧ ∃ c, InClass c _
    have hget : a.classes[k]? = some (a.classes.getD k (.simple ⟨[], false⟩)) := by
      rw [List.getD_eq_getElem?_getD, List.getElem?_eq_getElem hk]
      rfl
    refine ⟨safeB_sound (List.all_eq_true.1 h.safe _ (List.mem_of_getElem? hget)), ?_⟩
    have hne : G.masks.getD k 0 ≠ 0 := by
      have hg := hr.groups
      simp only [Grouping.check, Bool.and_eq_true] at hg
      obtain ⟨m, hm, _⟩ := checkClasses_get hg.2 hget
      have := List.all_eq_true.1 h.nonempty _ (List.mem_of_getElem? hm)
      rw [List.getD_eq_getElem?_getD, hm]
      intro h0
      simp only [Option.getD_some] at h0
      rw [h0] at this
      cases this
    obtain ⟨g, hg⟩ := Nat.exists_testBit_of_ne_zero hne
    have hlt : g < G.n := by
      have hgr := hr.groups
      simp only [Grouping.check, Bool.and_eq_true] at hgr
      obtain ⟨m, hm, _, hlt⟩ := checkClasses_get hgr.2 hget
      rw [List.getD_eq_getElem?_getD, hm, Option.getD_some] at hg
      rcases Nat.lt_or_ge g G.n with h | h
      · exact h
      · have : m < 2 ^ g := Nat.lt_of_lt_of_le hlt (Nat.pow_le_pow_right (by omega) h)
        rw [Nat.testBit_lt_two_pow this] at hg
        cases hg
    obtain ⟨c, hc⟩ := h.char hlt
    rw [← hc] at hg
    obtain ⟨c', h4, h5⟩ := (Grouping.class_iff hr.groups hget (.chr c)).1 hg
    cases h4
    exact ⟨c, h5⟩

theorem inStates_of {a : IAuto} {G : Grouping} {cl : Tree (Nat × Nat)} {rows : List (List (Nat × Nat))} (hr : RowsOk a G cl rows) {e : Nat} (he : e < a.states.length) :
    InStates a.toC [e] := by
  have hl : a.toC.states.length = a.states.length := by simp [IAuto.toC]
  refine ⟨?_, fun x hx => by cases List.mem_singleton.1 hx; rw [hl]; exact he⟩
  intro s hs tr htr
  simp only [IAuto.toC, List.mem_map] at hs
  obtain ⟨s0, hs0, rfl⟩ := hs
  simp only [List.mem_map] at htr
  obtain ⟨t0, ht0, rfl⟩ := htr
  obtain ⟨q, hq⟩ := List.getElem?_of_mem hs0
  obtain ⟨r, _, hf⟩ := hr.facts hq
  obtain ⟨h1, _⟩ := mem_transIn hf.inside ht0
  rw [hl]
  cases t0 <;> exact h1

section
variable {a : IAuto} {G : Grouping} {cl : Tree (Nat × Nat)} {rows : List (List (Nat × Nat))} (hr : RowsOk a G cl rows) {e : Nat} (he : e < a.states.length)
include hr he

theorem tagged_iff (w : List Sym) (t : Text) : CTagged a.toC.states e w t ↔ meets (runSet rows (cl.get e).1 (w.map G.of)) (tagMask t a.states 0) = true := by
  rw [meets_iff]
  unfold CTagged
  have get : ∀ x : Nat, a.toC.states[x]? = (a.states[x]?).map fun s => (⟨s.trans.map (ITrans.toC a.classes), s.tags⟩ : CState) := fun x => by simp [IAuto.toC]
  constructor
  · rintro ⟨x, st, h1, h2, h3⟩
    rw [get, Option.map_eq_some_iff] at h2
    obtain ⟨s, h2, rfl⟩ := h2
    exact ⟨x, (hr.run he w x).2 h1, testBit_tagMask.2 ⟨x, s, (Nat.zero_add x).symm, h2, h3⟩⟩
  · rintro ⟨x, h1, h2⟩
    obtain ⟨i, s, h3, h4, h5⟩ := testBit_tagMask.1 h2
    rw [Nat.zero_add] at h3
    subst h3
    exact ⟨x, _, (hr.run he w x).1 h1, by rw [get, h4]; rfl, h5⟩

variable {reps : List Nat} {Ts : List TagTable} (ht : TablesOk a G reps Ts)
include ht

theorem evals_tag {w : List Sym} {n : Text} {b : Bool} : Evals a.toC.defs (CTagged a.toC.states e w) (.tag n) b ↔
    meets (runSet rows (cl.get e).1 (w.map G.of)) (tagMask n a.states 0) = b := by
  have hd : a.toC.defs = [] := ht.defs
  rw [hd]
  constructor
  · intro h
    cases h with
    | defined h1 => obtain ⟨pre, post, h2, _⟩ := h1; cases pre <;> cases h2
    | set _ h1 => exact (tagged_iff hr he w n).1 h1
    | unset _ h1 =>
      cases hm : meets (runSet rows (cl.get e).1 (w.map G.of)) (tagMask n a.states 0) with
      | false => rfl
      | true => exact absurd ((tagged_iff hr he w n).2 hm) h1
  · intro h
    cases b with
    | true => exact .set (fun d hd => by cases hd) ((tagged_iff hr he w n).2 h)
    | false => exact .unset (fun d hd => by cases hd) (fun h' => by rw [(tagged_iff hr he w n).1 h'] at h; cases h)

theorem group_value {w : List Sym} {ev : Evaluator} {T : TagTable} (hT : T.check a.states ev = true) {x : Text} (h : CGroupIs a.toC e w ev x) :
    x = T.value (runSet rows (cl.get e).1 (w.map G.of)) := by
  obtain ⟨h1, h2, h3⟩ := TagTable.check_iff hT
  unfold TagTable.value
  have hdef : ev.default = some x → (∀ y ∈ T.attrs, meets (runSet rows (cl.get e).1 (w.map G.of)) y.2 = false) →
      x = TagTable.value.go T (runSet rows (cl.get e).1 (w.map G.of)) T.attrs := by
    intro g1 g2
    rw [h1] at g1
    cases g1
    generalize T.attrs = l at g2
    induction l with
    | nil => rfl
    | cons y l ih =>
      unfold TagTable.value.go
      rw [g2 y List.mem_cons_self, cond_false]
      exact ih fun z hz => g2 z (List.mem_cons_of_mem _ hz)
  cases h with
  | stuck g1 g2 =>
    refine hdef g2 fun y _ => ?_
    cases hm : meets (runSet rows (cl.get e).1 (w.map G.of)) y.2 with
    | false => rfl
    | true =>
      obtain ⟨q, g3, _⟩ := meets_iff.1 hm
      exact absurd ((hr.run he w q).1 g3) (g1 q)
  | default g1 g2 g3 =>
    refine hdef g3 fun y hy => ?_
    cases g2 with
    | default g4 =>
      have := g4 ⟨y.1, .tag y.1, false⟩ (by rw [h2]; exact List.mem_map.2 ⟨y, hy, rfl⟩)
      rw [h3 y hy]
      exact (evals_tag hr he ht).1 this
  | attr g1 g2 =>
    cases g2 with
    | @one pre x post g3 g4 g5 =>
      rw [h2] at g3
      have key : ∀ (l : List (Text × Nat)) (pre : List AttrDef), l.map (fun x => (⟨x.1, .tag x.1, false⟩ : AttrDef)) = pre ++ x :: post → (∀ y ∈ l, y.2 = tagMask y.1 a.states 0) →
          (∀ b ∈ pre ++ post, Evals a.toC.defs (CTagged a.toC.states e w) b.expr false) →
          x.name = TagTable.value.go T (runSet rows (cl.get e).1 (w.map G.of)) l := by
        intro l
        induction l with
        | nil => intro pre h _ _; cases pre <;> cases h
        | cons y l ih =>
          intro pre h hm hb
          unfold TagTable.value.go
          cases pre with
          | nil =>
            simp only [List.map_cons, List.nil_append, List.cons.injEq] at h
            obtain ⟨rfl, _⟩ := h
            rw [hm y List.mem_cons_self, (evals_tag hr he ht).1 g4, cond_true]
          | cons p pre =>
            simp only [List.map_cons, List.cons_append, List.cons.injEq] at h
            obtain ⟨rfl, h⟩ := h
            rw [hm y List.mem_cons_self, (evals_tag hr he ht).1 (hb ⟨y.1, .tag y.1, false⟩ (by simp)), cond_false]
            exact ih pre h (fun z hz => hm z (List.mem_cons_of_mem _ hz)) fun b hb' => hb b (by simp only [List.cons_append]; exact List.mem_cons_of_mem _ hb')
      exact key _ _ g3 h3 g5

theorem outcome_values {w : List Sym} {xs : List Text} (h : COutcome a.toC e w xs) : xs = Ts.map fun T => T.value (runSet rows (cl.get e).1 (w.map G.of)) := by
  have key : ∀ (evs : List Evaluator) (Us : List TagTable) (xs : List Text), Pairs (fun ev T => T.check a.states ev = true) evs Us → Pairs (CGroupIs a.toC e w) evs xs →
      xs = Us.map fun T => T.value (runSet rows (cl.get e).1 (w.map G.of)) := by
    intro evs Us xs hT
    induction hT generalizing xs with
    | nil => intro h; cases h; rfl
    | cons h1 _ ih =>
      intro h
      cases h with
      | cons h2 h3 => rw [List.map_cons, ← ih _ h3, group_value hr he ht h1 h2]
  exact key _ _ _ (checkTables_pairs ht.tables) h

end
end Mairix
