import Verif.Model.Nfa
import Verif.Spec.Charclass

/-!
# Sets of states of an automaton as numbers

Rows: for each state a list of masks of groups of symbols, each with the set of states it leads to, transitions without input included.
-/

namespace Mairix
open Spec

theorem blt_iff {a b : Nat} : Nat.blt a b = true ↔ a < b := by rw [Nat.blt_eq]

/-! ## Steps of sets -/

/-- The rows of the states in the set. -/
def collectRows : List (List (Nat × Nat)) → Nat → List (Nat × Nat)
  | [], _ => []
  | r :: rs, s => bif Nat.beq (s % 2) 1 then r ++ collectRows rs (s / 2) else collectRows rs (s / 2)

/-- The union of the sets for the group. -/
def unionFor (g : Nat) : List (Nat × Nat) → Nat
  | [] => 0
  | e :: l => bif Nat.testBit e.1 g then Nat.lor e.2 (unionFor g l) else unionFor g l

/-- One step. -/
def stepSet (rows : List (List (Nat × Nat))) (s g : Nat) : Nat := unionFor g (collectRows rows s)

theorem mem_collectRows {rows : List (List (Nat × Nat))} : ∀ {s : Nat} {e : Nat × Nat}, e ∈ collectRows rows s ↔ ∃ q r, s.testBit q = true ∧ rows[q]? = some r ∧ e ∈ r := by
  induction rows with
  | nil => intro s e; simp [collectRows]
  | cons r rs ih =>
    intro s e
    have h0 : s.testBit 0 = Nat.beq (s % 2) 1 := by
      rw [Nat.testBit_zero]
      cases h : Nat.beq (s % 2) 1
      · have := Nat.ne_of_beq_eq_false h
        simp [this]
      · have := Nat.eq_of_beq_eq_true h
        simp [this]
    have hrest : e ∈ collectRows rs (s / 2) ↔ ∃ q r', s.testBit (q + 1) = true ∧ (r :: rs)[q + 1]? = some r' ∧ e ∈ r' := by
      rw [ih]
      simp only [Nat.testBit_succ, List.getElem?_cons_succ]
    unfold collectRows
    constructor
    · intro h
      cases hb : Nat.beq (s % 2) 1 with
      | false =>
        rw [hb] at h
        obtain ⟨q, r', h1⟩ := hrest.1 h
        exact ⟨q + 1, r', h1⟩
      | true =>
        rw [hb] at h
        rcases List.mem_append.1 h with h | h
        · exact ⟨0, r, by rw [h0, hb], rfl, h⟩
        · obtain ⟨q, r', h1⟩ := hrest.1 h
          exact ⟨q + 1, r', h1⟩
    · rintro ⟨q, r', h1, h2, h3⟩
      cases q with
      | zero =>
        rw [h0] at h1
        rw [h1]
        cases h2
        exact List.mem_append_left _ h3
      | succ q =>
        have := hrest.2 ⟨q, r', h1, h2, h3⟩
        cases Nat.beq (s % 2) 1
        · exact this
        · exact List.mem_append_right _ this

theorem testBit_unionFor {g x : Nat} : ∀ {l : List (Nat × Nat)}, (unionFor g l).testBit x = true ↔ ∃ e ∈ l, e.1.testBit g = true ∧ e.2.testBit x = true
  | [] => by simp [unionFor]
  | e :: l => by
    have ih := testBit_unionFor (g := g) (x := x) (l := l)
    unfold unionFor
    cases hb : e.1.testBit g with
    | false =>
      simp only [cond_false, ih, List.mem_cons]
      constructor
      · rintro ⟨e', h1, h2⟩; exact ⟨e', Or.inr h1, h2⟩
      · rintro ⟨e', rfl | h1, h2⟩
        · rw [hb] at h2; cases h2.1
        · exact ⟨e', h1, h2⟩
    | true =>
      have : Nat.lor e.2 (unionFor g l) = e.2 ||| unionFor g l := rfl
      simp only [cond_true, this, Nat.testBit_or, Bool.or_eq_true, ih, List.mem_cons]
      constructor
      · rintro (h | ⟨e', h1, h2⟩)
        · exact ⟨e, Or.inl rfl, hb, h⟩
        · exact ⟨e', Or.inr h1, h2⟩
      · rintro ⟨e', rfl | h1, h2⟩
        · exact Or.inl h2.2
        · exact Or.inr ⟨e', h1, h2⟩

theorem testBit_stepSet {rows : List (List (Nat × Nat))} {s g x : Nat} :
    (stepSet rows s g).testBit x = true ↔ ∃ q r e, s.testBit q = true ∧ rows[q]? = some r ∧ e ∈ r ∧ e.1.testBit g = true ∧ e.2.testBit x = true := by
  unfold stepSet
  rw [testBit_unionFor]
  constructor
  · rintro ⟨e, h1, h2, h3⟩
    obtain ⟨q, r, h4, h5, h6⟩ := mem_collectRows.1 h1
    exact ⟨q, r, e, h4, h5, h6, h2, h3⟩
  · rintro ⟨q, r, e, h4, h5, h6, h2, h3⟩
    exact ⟨e, mem_collectRows.2 ⟨q, r, h4, h5, h6⟩, h2, h3⟩

/-- All steps. -/
def runSet (rows : List (List (Nat × Nat))) (s : Nat) (gs : List Nat) : Nat := gs.foldl (stepSet rows) s

/-! ## Tables as trees -/

/-- A table; `n` is the number of entries on the left. -/
inductive Tree (α : Type) where
  | leaf (a : α)
  | node (n : Nat) (l r : Tree α)

/-- The entries. -/
def Tree.toList {α : Type} : Tree α → List α
  | .leaf a => [a]
  | .node _ l r => l.toList ++ r.toList

/-- The numbers are right. -/
def Tree.wf {α : Type} : Tree α → Bool
  | .leaf _ => true
  | .node n l r => n == l.toList.length && l.wf && r.wf

/-- An entry. -/
def Tree.get {α : Type} : Tree α → Nat → α
  | .leaf a, _ => a
  | .node n l r, i => bif Nat.blt i n then l.get i else r.get (i - n)

theorem tree_get {α : Type} : ∀ {t : Tree α}, t.wf = true → ∀ {i : Nat}, i < t.toList.length → t.toList[i]? = some (t.get i)
  | .leaf a, _, i, hi => by
    simp only [Tree.toList, List.length_cons, List.length_nil, Nat.zero_add, Nat.lt_one_iff] at hi
    subst hi
    rfl
  | .node n l r, h, i, hi => by
    simp only [Tree.wf, Bool.and_eq_true, beq_iff_eq] at h
    obtain ⟨⟨h1, h2⟩, h3⟩ := h
    simp only [Tree.toList, List.length_append] at hi ⊢
    unfold Tree.get
    cases hb : Nat.blt i n with
    | true =>
      have hlt : i < n := blt_iff.1 hb
      rw [List.getElem?_append_left (by omega), tree_get h2 (by omega)]
      rfl
    | false =>
      have hge : ¬ i < n := by intro hlt; rw [blt_iff.2 hlt] at hb; cases hb
      rw [List.getElem?_append_right (by omega), ← h1, tree_get h3 (by omega)]
      rfl

/-! ## The rows of an automaton -/

/-- Is the character in the item? -/
def itemB (c : Nat) : ClassItem → Bool
  | .single x => Nat.beq c x.toNat
  | .range a b => (Nat.ble a.toNat c && Nat.ble c b.toNat) || (Nat.ble b.toNat c && Nat.ble c a.toNat)

/-- Is the character in the class? -/
def simpleB (c : Nat) (s : SimpleClass) : Bool := Bool.xor s.caret (s.items.any (itemB c))

/-- Is the character in the class? -/
def classB (c : Nat) : ClassExpr → Bool
  | .simple s => simpleB c s
  | .negated s => !simpleB c s
  | .minus s t => simpleB c s && !simpleB c t

theorem itemB_iff {c : UInt8} {i : ClassItem} : itemB c.toNat i = true ↔ InItem c i := by
  cases i with
  | single x =>
    unfold itemB InItem
    rw [Nat.beq_eq]
    exact UInt8.toNat_inj
  | range a b =>
    unfold itemB InItem
    simp only [Bool.or_eq_true, Bool.and_eq_true, Nat.ble_eq, UInt8.le_iff_toNat_le]

theorem simpleB_iff {c : UInt8} {s : SimpleClass} : simpleB c.toNat s = true ↔ InSimple c s := by
  have h : s.items.any (itemB c.toNat) = true ↔ InItems c s := by
    rw [List.any_eq_true]
    constructor
    · rintro ⟨i, h1, h2⟩; exact ⟨i, h1, itemB_iff.1 h2⟩
    · rintro ⟨i, h1, h2⟩; exact ⟨i, h1, itemB_iff.2 h2⟩
  unfold simpleB InSimple
  rw [← h]
  cases s.caret <;> cases s.items.any (itemB c.toNat) <;> simp

theorem classB_iff {c : UInt8} {e : ClassExpr} : classB c.toNat e = true ↔ InClass c e := by
  cases e with
  | simple s => exact simpleB_iff
  | negated s => simp only [classB, InClass, ← simpleB_iff, Bool.not_eq_true', Bool.not_eq_true]
  | minus s t => simp only [classB, InClass, ← simpleB_iff, Bool.not_eq_true', Bool.not_eq_true, Bool.and_eq_true]

/-- How symbols are grouped: the number of groups of characters, the group of each character, the groups of each class. -/
structure Grouping where
  n : Nat
  chars : List Nat
  masks : List Nat

/-- The group of a symbol; tokens are groups by themselves. -/
def Grouping.of (G : Grouping) : Sym → Nat
  | .chr c => G.chars.getD c.toNat 0
  | .tok t => G.n + t

/-- One class. -/
def checkClass (G : Grouping) (e : ClassExpr) (m : Nat) : List Nat → Nat → Bool
  | [], _ => true
  | g :: l, c => (classB c e == Nat.testBit m g) && checkClass G e m l (c + 1)

/-- All classes. -/
def checkClasses (G : Grouping) : List ClassExpr → List Nat → Bool
  | [], [] => true
  | e :: es, m :: ms => checkClass G e m G.chars 0 && Nat.blt m (2 ^ G.n) && checkClasses G es ms
  | _, _ => false

/-- The grouping is right. -/
def Grouping.check (G : Grouping) (classes : List ClassExpr) : Bool :=
  Nat.beq G.chars.length 256 && G.chars.all (fun g => Nat.blt g G.n) && checkClasses G classes G.masks

theorem checkClass_get {G : Grouping} {e : ClassExpr} {m : Nat} : ∀ {l : List Nat} {c : Nat}, checkClass G e m l c = true → ∀ {i : Nat} {g : Nat}, l[i]? = some g →
    classB (c + i) e = m.testBit g
  | [], _, _, i, g, hg => by simp at hg
  | x :: l, c, h, i, g, hg => by
    simp only [checkClass, Bool.and_eq_true, beq_iff_eq] at h
    cases i with
    | zero => cases hg; exact h.1
    | succ i =>
      have := checkClass_get h.2 (i := i) hg
      rwa [show c + (i + 1) = c + 1 + i by omega]

theorem checkClasses_get {G : Grouping} : ∀ {es : List ClassExpr} {ms : List Nat}, checkClasses G es ms = true → ∀ {k : Nat} {e : ClassExpr}, es[k]? = some e →
    ∃ m, ms[k]? = some m ∧ checkClass G e m G.chars 0 = true ∧ m < 2 ^ G.n
  | [], [], _, k, e, he => by simp at he
  | [], _ :: _, h, _, _, _ => by cases h
  | _ :: _, [], h, _, _, _ => by cases h
  | x :: es, m :: ms, h, k, e, he => by
    simp only [checkClasses, Bool.and_eq_true] at h
    cases k with
    | zero => cases he; exact ⟨m, rfl, h.1.1, blt_iff.1 h.1.2⟩
    | succ k => exact checkClasses_get h.2 he

theorem Grouping.class_iff {G : Grouping} {classes : List ClassExpr} (h : G.check classes = true) {k : Nat} {e : ClassExpr} (he : classes[k]? = some e) (s : Sym) :
    (G.masks.getD k 0).testBit (G.of s) = true ↔ ∃ c, s = .chr c ∧ InClass c e := by
  simp only [Grouping.check, Bool.and_eq_true] at h
  obtain ⟨⟨h1, h2⟩, h3⟩ := h
  obtain ⟨m, hm, hc, hlt⟩ := checkClasses_get h3 he
  have hmd : G.masks.getD k 0 = m := by rw [List.getD_eq_getElem?_getD, hm]; rfl
  rw [hmd]
  cases s with
  | tok t =>
    have : m.testBit (G.n + t) = false := Nat.testBit_lt_two_pow (Nat.lt_of_lt_of_le hlt (Nat.pow_le_pow_right (by decide) (by omega)))
    show m.testBit (G.n + t) = true ↔ _
    rw [this]
    simp
  | chr c =>
    have hlen := Nat.eq_of_beq_eq_true h1
    have hc' := c.toNat_lt
    have hget : G.chars[c.toNat]? = some (G.chars.getD c.toNat 0) := by
      rw [List.getD_eq_getElem?_getD, List.getElem?_eq_getElem (by omega)]
      rfl
    have := checkClass_get hc hget
    rw [Nat.zero_add] at this
    show m.testBit (G.chars.getD c.toNat 0) = true ↔ _
    rw [← this, classB_iff]
    constructor
    · intro hin; exact ⟨c, rfl, hin⟩
    · rintro ⟨c', hcc, hin⟩; cases hcc; exact hin

theorem Grouping.char_lt {G : Grouping} {classes : List ClassExpr} (h : G.check classes = true) (c : UInt8) : G.of (.chr c) < G.n := by
  simp only [Grouping.check, Bool.and_eq_true] at h
  have hlen := Nat.eq_of_beq_eq_true h.1.1
  have hc' := c.toNat_lt
  have hget : G.chars.getD c.toNat 0 ∈ G.chars := by
    rw [List.getD_eq_getElem?_getD, List.getElem?_eq_getElem (by omega)]
    exact List.getElem_mem _
  exact blt_iff.1 (List.all_eq_true.1 h.1.2 _ hget)

/-- The masks of a transition, and where it leads. -/
def rowOf (G : Grouping) (cl : Tree (Nat × Nat)) : List ITrans → List (Nat × Nat)
  | [] => []
  | .eps _ :: l => rowOf G cl l
  | .token t d :: l => (2 ^ (G.n + t), (cl.get d).1) :: rowOf G cl l
  | .cls k d :: l => (G.masks.getD k 0, (cl.get d).1) :: rowOf G cl l

/-- What is reached without input, by the table. -/
def epsUnion (cl : Tree (Nat × Nat)) : List ITrans → Nat
  | [] => 0
  | .eps d :: l => Nat.lor (cl.get d).1 (epsUnion cl l)
  | _ :: l => epsUnion cl l

/-- Transitions without input lead to lower ranks. -/
def epsRank (cl : Tree (Nat × Nat)) (r : Nat) : List ITrans → Bool
  | [] => true
  | .eps d :: l => Nat.blt (cl.get d).2 r && epsRank cl r l
  | _ :: l => epsRank cl r l

/-- The transitions are right: to states below `n`, with classes and tokens that exist. -/
def transIn (n nc nt : Nat) : List ITrans → Bool
  | [] => true
  | .eps d :: l => Nat.blt d n && transIn n nc nt l
  | .token t d :: l => Nat.blt t nt && Nat.blt d n && transIn n nc nt l
  | .cls k d :: l => Nat.blt k nc && Nat.blt d n && transIn n nc nt l

/-- The rows and the sets are right. -/
def checkRows (G : Grouping) (cl : Tree (Nat × Nat)) (n nc nt : Nat) : List IState → List (List (Nat × Nat)) → Nat → Bool
  | [], [], _ => true
  | s :: ss, r :: rs, q =>
    Nat.beq (cl.get q).1 (Nat.lor (2 ^ q) (epsUnion cl s.trans)) && epsRank cl (cl.get q).2 s.trans && transIn n nc nt s.trans && (r == rowOf G cl s.trans) &&
      checkRows G cl n nc nt ss rs (q + 1)
  | _, _, _ => false

/-- The facts about a state. -/
structure RowFacts (G : Grouping) (cl : Tree (Nat × Nat)) (n nc nt : Nat) (s : IState) (r : List (Nat × Nat)) (q : Nat) : Prop where
  eps : (cl.get q).1 = 2 ^ q ||| epsUnion cl s.trans
  rank : epsRank cl (cl.get q).2 s.trans = true
  inside : transIn n nc nt s.trans = true
  row : r = rowOf G cl s.trans

theorem checkRows_get {G : Grouping} {cl : Tree (Nat × Nat)} {n nc nt : Nat} : ∀ {ss : List IState} {rs : List (List (Nat × Nat))} {q : Nat}, checkRows G cl n nc nt ss rs q = true →
    ∀ {i : Nat} {s : IState}, ss[i]? = some s → ∃ r, rs[i]? = some r ∧ RowFacts G cl n nc nt s r (q + i)
  | [], [], _, _, i, s, hs => by simp at hs
  | [], _ :: _, _, h, _, _, _ => by cases h
  | _ :: _, [], _, h, _, _, _ => by cases h
  | x :: ss, r :: rs, q, h, i, s, hs => by
    simp only [checkRows, Bool.and_eq_true, beq_iff_eq] at h
    obtain ⟨⟨⟨⟨h1, h2⟩, h3⟩, h4⟩, h5⟩ := h
    cases i with
    | zero => cases hs; exact ⟨r, rfl, Nat.eq_of_beq_eq_true h1, h2, h3, h4⟩
    | succ i =>
      obtain ⟨r', g1, g2⟩ := checkRows_get h5 (i := i) hs
      exact ⟨r', g1, by rwa [show q + (i + 1) = q + 1 + i by omega]⟩

theorem checkRows_length {G : Grouping} {cl : Tree (Nat × Nat)} {n nc nt : Nat} : ∀ {ss : List IState} {rs : List (List (Nat × Nat))} {q : Nat}, checkRows G cl n nc nt ss rs q = true →
    rs.length = ss.length
  | [], [], _, _ => rfl
  | [], _ :: _, _, h => by cases h
  | _ :: _, [], _, h => by cases h
  | x :: ss, r :: rs, q, h => by
    simp only [checkRows, Bool.and_eq_true] at h
    simp only [List.length_cons, checkRows_length h.2]

/-- The grouping, the sets and the rows are right for the automaton. -/
structure RowsOk (a : IAuto) (G : Grouping) (cl : Tree (Nat × Nat)) (rows : List (List (Nat × Nat))) : Prop where
  groups : G.check a.classes = true
  tree : cl.wf = true
  length : cl.toList.length = a.states.length
  rows : checkRows G cl a.states.length a.classes.length a.nt a.states rows 0 = true

theorem mem_epsUnion {cl : Tree (Nat × Nat)} {x : Nat} : ∀ {l : List ITrans}, (epsUnion cl l).testBit x = true ↔ ∃ d, .eps d ∈ l ∧ (cl.get d).1.testBit x = true
  | [] => by simp [epsUnion]
  | .eps d :: l => by
    have : epsUnion cl (.eps d :: l) = (cl.get d).1 ||| epsUnion cl l := rfl
    rw [this, Nat.testBit_or, Bool.or_eq_true, mem_epsUnion (l := l)]
    constructor
    · rintro (h | ⟨d', h1, h2⟩)
      · exact ⟨d, List.mem_cons_self, h⟩
      · exact ⟨d', List.mem_cons_of_mem _ h1, h2⟩
    · rintro ⟨d', h1, h2⟩
      rcases List.mem_cons.1 h1 with h | h
      · cases h; exact Or.inl h2
      · exact Or.inr ⟨d', h, h2⟩
  | .token t d :: l => by
    have : epsUnion cl (.token t d :: l) = epsUnion cl l := rfl
    rw [this, mem_epsUnion (l := l)]
    simp
  | .cls k d :: l => by
    have : epsUnion cl (.cls k d :: l) = epsUnion cl l := rfl
    rw [this, mem_epsUnion (l := l)]
    simp

theorem mem_epsRank {cl : Tree (Nat × Nat)} {r : Nat} : ∀ {l : List ITrans}, epsRank cl r l = true → ∀ {d}, .eps d ∈ l → (cl.get d).2 < r
  | [], _, d, hd => by cases hd
  | .eps d :: l, h, d', hd => by
    simp only [epsRank, Bool.and_eq_true] at h
    rcases List.mem_cons.1 hd with hd | hd
    · cases hd; exact blt_iff.1 h.1
    · exact mem_epsRank h.2 hd
  | .token t d :: l, h, d', hd => by
    rcases List.mem_cons.1 hd with hd | hd
    · cases hd
    · exact mem_epsRank (show epsRank cl r l = true from h) hd
  | .cls k d :: l, h, d', hd => by
    rcases List.mem_cons.1 hd with hd | hd
    · cases hd
    · exact mem_epsRank (show epsRank cl r l = true from h) hd

/-- The state a transition leads to. -/
def ITrans.dest : ITrans → Nat
  | .eps d => d
  | .token _ d => d
  | .cls _ d => d

theorem mem_transIn {n nc nt : Nat} : ∀ {l : List ITrans}, transIn n nc nt l = true → ∀ {t : ITrans}, t ∈ l → t.dest < n ∧ (∀ k d, t = .cls k d → k < nc) ∧ (∀ k d, t = .token k d → k < nt)
  | [], _, t, ht => by cases ht
  | .eps d :: l, h, t, ht => by
    simp only [transIn, Bool.and_eq_true] at h
    rcases List.mem_cons.1 ht with ht | ht
    · subst ht; exact ⟨blt_iff.1 h.1, (fun _ _ h => by cases h), (fun _ _ h => by cases h)⟩
    · exact mem_transIn h.2 ht
  | .token k d :: l, h, t, ht => by
    simp only [transIn, Bool.and_eq_true] at h
    rcases List.mem_cons.1 ht with ht | ht
    · subst ht; exact ⟨blt_iff.1 h.1.2, (fun _ _ h => by cases h), (fun _ _ he => by cases he; exact blt_iff.1 h.1.1)⟩
    · exact mem_transIn h.2 ht
  | .cls k d :: l, h, t, ht => by
    simp only [transIn, Bool.and_eq_true] at h
    rcases List.mem_cons.1 ht with ht | ht
    · subst ht; exact ⟨blt_iff.1 h.1.2, (fun _ _ he => by cases he; exact blt_iff.1 h.1.1), (fun _ _ h => by cases h)⟩
    · exact mem_transIn h.2 ht

theorem mem_rowOf {G : Grouping} {cl : Tree (Nat × Nat)} {e : Nat × Nat} : ∀ {l : List ITrans}, e ∈ rowOf G cl l ↔
    (∃ t d, .token t d ∈ l ∧ e = (2 ^ (G.n + t), (cl.get d).1)) ∨ (∃ k d, .cls k d ∈ l ∧ e = (G.masks.getD k 0, (cl.get d).1))
  | [] => by simp [rowOf]
  | .eps d :: l => by
    have := mem_rowOf (G := G) (cl := cl) (e := e) (l := l)
    simp only [rowOf, this, List.mem_cons, reduceCtorEq, false_or]
  | .token t d :: l => by
    have := mem_rowOf (G := G) (cl := cl) (e := e) (l := l)
    simp only [rowOf, List.mem_cons, this, reduceCtorEq, false_or]
    constructor
    · rintro (h | ⟨t', d', h1, h2⟩ | h)
      · exact Or.inl ⟨t, d, Or.inl rfl, h⟩
      · exact Or.inl ⟨t', d', Or.inr h1, h2⟩
      · exact Or.inr h
    · rintro (⟨t', d', h1, h2⟩ | h)
      · rcases h1 with h1 | h1
        · cases h1; exact Or.inl h2
        · exact Or.inr (Or.inl ⟨t', d', h1, h2⟩)
      · exact Or.inr (Or.inr h)
  | .cls k d :: l => by
    have := mem_rowOf (G := G) (cl := cl) (e := e) (l := l)
    simp only [rowOf, List.mem_cons, this, reduceCtorEq, false_or]
    constructor
    · rintro (h | h | ⟨t', d', h1, h2⟩)
      · exact Or.inr ⟨k, d, Or.inl rfl, h⟩
      · exact Or.inl h
      · exact Or.inr ⟨t', d', Or.inr h1, h2⟩
    · rintro (h | ⟨t', d', h1, h2⟩)
      · exact Or.inr (Or.inl h)
      · rcases h1 with h1 | h1
        · cases h1; exact Or.inl h2
        · exact Or.inr (Or.inr ⟨t', d', h1, h2⟩)

/-! ## Moves and sets -/

theorem cmoves_trans {states : List CState} {s d e : Nat} {v w : List Sym} (h : CMoves states s v d) (h' : CMoves states d w e) : CMoves states s (v ++ w) e := by
  induction h with
  | stay => exact h'
  | eps h1 h2 _ ih => exact .eps h1 h2 (ih h')
  | sym h1 h2 h3 _ ih => exact .sym h1 h2 h3 (ih h')

theorem cmoves_snoc {states : List CState} {s y : Nat} {w : List Sym} {x : Sym} :
    CMoves states s (w ++ [x]) y ↔ ∃ q st tr d, CMoves states s w q ∧ states[q]? = some st ∧ tr ∈ st.trans ∧ Takes tr x d ∧ CMoves states d [] y := by
  constructor
  · intro h
    generalize hv : w ++ [x] = v at h
    induction h generalizing w with
    | stay => simp at hv
    | eps h1 h2 _ ih =>
      obtain ⟨q, st, tr, d, g1, g⟩ := ih hv
      exact ⟨q, st, tr, d, .eps h1 h2 g1, g⟩
    | @sym s st tr x' d w' e h1 h2 h3 h4 ih =>
      cases w with
      | nil =>
        simp only [List.nil_append, List.cons.injEq] at hv
        obtain ⟨rfl, rfl⟩ := hv
        exact ⟨s, st, tr, d, .stay, h1, h2, h3, h4⟩
      | cons z w =>
        simp only [List.cons_append, List.cons.injEq] at hv
        obtain ⟨rfl, hv⟩ := hv
        obtain ⟨q, st', tr', d', g1, g⟩ := ih hv
        exact ⟨q, st', tr', d', .sym h1 h2 h3 g1, g⟩
  · rintro ⟨q, st, tr, d, g1, g2, g3, g4, g5⟩
    exact cmoves_trans g1 (.sym g2 g3 g4 g5)

theorem toC_get {a : IAuto} {q : Nat} {st : CState} : a.toC.states[q]? = some st ↔ ∃ s, a.states[q]? = some s ∧ st = ⟨s.trans.map (ITrans.toC a.classes), s.tags⟩ := by
  unfold IAuto.toC
  simp only [List.getElem?_map, Option.map_eq_some_iff]
  constructor
  · rintro ⟨s, h1, h2⟩; exact ⟨s, h1, h2.symm⟩
  · rintro ⟨s, h1, h2⟩; exact ⟨s, h1, h2.symm⟩

theorem RowsOk.facts {a : IAuto} {G : Grouping} {cl : Tree (Nat × Nat)} {rows : List (List (Nat × Nat))} (h : RowsOk a G cl rows) {q : Nat} {s : IState}
    (hs : a.states[q]? = some s) : ∃ r, rows[q]? = some r ∧ RowFacts G cl a.states.length a.classes.length a.nt s r q := by
  obtain ⟨r, h1, h2⟩ := checkRows_get h.rows hs
  rw [Nat.zero_add] at h2
  exact ⟨r, h1, h2⟩

theorem eps_mem_toC {classes : List ClassExpr} {l : List ITrans} {d : Nat} : CTrans.eps d ∈ l.map (ITrans.toC classes) ↔ ITrans.eps d ∈ l := by
  rw [List.mem_map]
  constructor
  · rintro ⟨t, h1, h2⟩
    cases t with
    | eps d' => simp only [ITrans.toC, CTrans.eps.injEq] at h2; subst h2; exact h1
    | token t d' => cases h2
    | cls k d' => cases h2
  · intro h; exact ⟨_, h, rfl⟩

/-- The sets of the table are what is reached without input. -/
theorem RowsOk.closure {a : IAuto} {G : Grouping} {cl : Tree (Nat × Nat)} {rows : List (List (Nat × Nat))} (h : RowsOk a G cl rows) {q x : Nat} (hq : q < a.states.length) :
    (cl.get q).1.testBit x = true ↔ CMoves a.toC.states q [] x := by
  generalize hr : (cl.get q).2 = r
  induction r using Nat.strongRecOn generalizing q with
  | ind r ih =>
    subst hr
    have hs : a.states[q]? = some a.states[q] := List.getElem?_eq_getElem hq
    obtain ⟨row, _, hf⟩ := h.facts hs
    rw [hf.eps, Nat.testBit_or, Bool.or_eq_true, Nat.testBit_two_pow, decide_eq_true_eq, mem_epsUnion]
    constructor
    · rintro (rfl | ⟨d, h1, h2⟩)
      · exact .stay
      · have hd : d < a.states.length := (mem_transIn hf.inside h1).1
        exact .eps (toC_get.2 ⟨_, hs, rfl⟩) (eps_mem_toC.2 h1) ((ih _ (mem_epsRank hf.rank h1) hd rfl).1 h2)
    · intro hm
      generalize hw : ([] : List Sym) = w at hm
      cases hm with
      | stay => exact Or.inl rfl
      | @eps _ st d _ _ h1 h2 h3 =>
        subst hw
        obtain ⟨s, hs', rfl⟩ := toC_get.1 h1
        rw [hs] at hs'
        cases hs'
        have hmem := eps_mem_toC.1 h2
        have hd : d < a.states.length := (mem_transIn hf.inside hmem).1
        exact Or.inr ⟨d, hmem, (ih _ (mem_epsRank hf.rank hmem) hd rfl).2 h3⟩
      | sym => cases hw

/-- One symbol. -/
theorem RowsOk.step {a : IAuto} {G : Grouping} {cl : Tree (Nat × Nat)} {rows : List (List (Nat × Nat))} (h : RowsOk a G cl rows) {e : Nat} {w : List Sym} {S : Nat}
    (hS : ∀ x, S.testBit x = true ↔ CMoves a.toC.states e w x) (s : Sym) (x : Nat) :
    (stepSet rows S (G.of s)).testBit x = true ↔ CMoves a.toC.states e (w ++ [s]) x := by
  rw [testBit_stepSet, cmoves_snoc]
  have hlen := checkRows_length h.rows
  constructor
  · rintro ⟨q, r, en, h1, h2, h3, h4, h5⟩
    have hq : q < a.states.length := by rw [← hlen]; exact (List.getElem?_eq_some_iff.1 h2).1
    have hs : a.states[q]? = some a.states[q] := List.getElem?_eq_getElem hq
    obtain ⟨r', g1, hf⟩ := h.facts hs
    rw [h2] at g1
    cases g1
    rw [hf.row, mem_rowOf] at h3
    rcases h3 with ⟨t, d, hmem, rfl⟩ | ⟨k, d, hmem, rfl⟩
    · obtain ⟨hd, _, _⟩ := mem_transIn hf.inside hmem
      refine ⟨q, _, .token t d, d, (hS q).1 h1, toC_get.2 ⟨_, hs, rfl⟩, List.mem_map.2 ⟨_, hmem, rfl⟩, ?_, (h.closure hd).1 h5⟩
      rw [Nat.testBit_two_pow, decide_eq_true_eq] at h4
      cases s with
      | tok t' =>
        have : t = t' := Nat.add_left_cancel h4
        subst this
        exact .token
      | chr c =>
        have hlt := Grouping.char_lt h.groups c
        omega
    · obtain ⟨hd, hk, _⟩ := mem_transIn hf.inside hmem
      have hk := hk k d rfl
      have hget : a.classes[k]? = some a.classes[k] := List.getElem?_eq_getElem hk
      obtain ⟨c, rfl, hin⟩ := (Grouping.class_iff h.groups hget s).1 h4
      refine ⟨q, _, .cls a.classes[k] d, d, (hS q).1 h1, toC_get.2 ⟨_, hs, rfl⟩, List.mem_map.2 ⟨_, hmem, ?_⟩, .cls hin, (h.closure hd).1 h5⟩
      unfold ITrans.toC
      simp only [CTrans.cls.injEq, and_true]
      rw [List.getD_eq_getElem?_getD, hget]
      rfl
  · rintro ⟨q, st, tr, d, h1, h2, h3, h4, h5⟩
    obtain ⟨s', hs, rfl⟩ := toC_get.1 h2
    obtain ⟨r, g1, hf⟩ := h.facts hs
    obtain ⟨t, hmem, rfl⟩ := List.mem_map.1 h3
    have hin := mem_transIn hf.inside hmem
    cases t with
    | eps d' => cases h4
    | token t d' =>
      cases h4
      exact ⟨q, r, _, (hS q).2 h1, g1, by rw [hf.row, mem_rowOf]; exact Or.inl ⟨_, _, hmem, rfl⟩, by
        show (2 ^ (G.n + t)).testBit (G.n + t) = true
        rw [Nat.testBit_two_pow]; simp, (h.closure hin.1).2 h5⟩
    | cls k d' =>
      have hk := hin.2.1 k d' rfl
      have hget : a.classes[k]? = some a.classes[k] := List.getElem?_eq_getElem hk
      have hcls : a.classes.getD k (.simple ⟨[], false⟩) = a.classes[k] := by rw [List.getD_eq_getElem?_getD, hget]; rfl
      simp only [ITrans.toC] at h4
      rw [hcls] at h4
      cases h4 with
      | cls hin' =>
        exact ⟨q, r, _, (hS q).2 h1, g1, by rw [hf.row, mem_rowOf]; exact Or.inr ⟨_, _, hmem, rfl⟩, (Grouping.class_iff h.groups hget _).2 ⟨_, rfl, hin'⟩, (h.closure hin.1).2 h5⟩

/-- The set after some symbols. -/
theorem RowsOk.run {a : IAuto} {G : Grouping} {cl : Tree (Nat × Nat)} {rows : List (List (Nat × Nat))} (h : RowsOk a G cl rows) {e : Nat} (he : e < a.states.length)
    (w : List Sym) (x : Nat) : (runSet rows (cl.get e).1 (w.map G.of)).testBit x = true ↔ CMoves a.toC.states e w x := by
  revert x
  have key : ∀ v : List Sym, ∀ x, (runSet rows (cl.get e).1 (v.reverse.map G.of)).testBit x = true ↔ CMoves a.toC.states e v.reverse x := by
    intro v
    induction v with
    | nil => intro x; exact h.closure he
    | cons s v ih =>
      intro x
      rw [List.reverse_cons]
      have : runSet rows (cl.get e).1 ((v.reverse ++ [s]).map G.of) = stepSet rows (runSet rows (cl.get e).1 (v.reverse.map G.of)) (G.of s) := by
        unfold runSet
        rw [List.map_append, List.foldl_append]
        rfl
      rw [this]
      exact h.step ih s x
  have := key w.reverse
  rwa [List.reverse_reverse] at this

end Mairix
