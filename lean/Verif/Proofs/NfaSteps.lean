import Verif.Model.Nfa

/-!
# Reading an input file of dfasyn in steps
-/

namespace Mairix

/-! ## In steps -/

theorem decls_append {env env' : NfaEnv} {l l' : List Decl} (h : env.decls l = .ok env') : env.decls (l ++ l') = env'.decls l' := by
  induction l generalizing env with
  | nil => cases h; rfl
  | cons d l ih =>
    simp only [NfaEnv.decls, List.cons_append, bind, Except.bind] at h ⊢
    cases hd : env.decl d with
    | error f => rw [hd] at h; cases h
    | ok e => rw [hd] at h; exact ih h

theorem decls_cons {env env' : NfaEnv} {d : Decl} {l : List Decl} (h : env.decl d = .ok env') : env.decls (d :: l) = env'.decls l := by
  simp only [NfaEnv.decls, bind, Except.bind, h]

theorem transitions_cons {env : NfaEnv} {i : Nat} {t : TransDecl} {l : List TransDecl} {b b' : Block} (h : env.transition t.goal i t.seq b = .ok b') :
    env.transitions i (t :: l) b = env.transitions i l b' := by
  simp only [NfaEnv.transitions, bind, Except.bind, h]

theorem states_cons {env : NfaEnv} {s : StateDecl} {l : List StateDecl} {x : InBlock} {b' blk : Block} {i : Nat} (hf : stateFor x.block s.name = (b', i))
    (h : env.transitions i s.trans b' = .ok blk) : env.states (s :: l) x = env.states l ⟨blk, some i, match s.entry with
      | some e => (e, i) :: x.entries
      | none => x.entries⟩ := by
  simp only [NfaEnv.states, hf, bind, Except.bind, h]
  rfl

theorem decl_block {env : NfaEnv} {n : Name} {ss : List StateDecl} {r : InBlock} {b : Block} (hn : (findBlock n env.blocks).isSome = false)
    (hs : env.states ss ⟨⟨n, [], 1, 1⟩, none, []⟩ = .ok r) (hf : fixup (r.block.states.flatMap BState.trans) r.block = b) :
    env.decl (.block n [] ss) = .ok { env with
        blocks := env.blocks ++ [b]
        cur := r.cur.map fun i => (env.blocks.length, i)
        entries := (r.entries.map fun e => (e.1, env.blocks.length, e.2)) ++ env.entries } := by
  simp only [NfaEnv.decl, hn, NfaEnv.instances, bind, Except.bind, hs, hf]
  rfl

/-! ## Where the transitions lead -/

/-- The transition with the name of the state is the one with its number. -/
def refOk (S : List BState) : BTrans → ITrans → Bool
  | .eps d, .eps i => posOf d S 0 == some i
  | .token t d, .token t' i => Nat.beq t t' && posOf d S 0 == some i
  | .cls k d, .cls k' i => Nat.beq k k' && posOf d S 0 == some i
  | _, _ => false

/-- All transitions of a state. -/
def refsOk (S : List BState) : List BTrans → List ITrans → Bool
  | [], [] => true
  | t :: l, t' :: l' => refOk S t t' && refsOk S l l'
  | _, _ => false

/-- Some states. -/
def statesOk (S : List BState) : List BState → List IState → Bool
  | [], [] => true
  | s :: l, s' :: l' => refsOk S s.trans s'.trans && (s.tags == s'.tags && statesOk S l l')
  | _, _ => false

theorem refOk_spec {S : List BState} {t : BTrans} {t' : ITrans} (h : refOk S t t' = true) : t.ref S = t' ∧ (posOf t.dest S 0).isSome = true := by
  cases t <;> cases t' <;> simp [refOk, BTrans.ref, BTrans.dest] at h ⊢ <;> simp [h]

theorem refsOk_spec {S : List BState} {l : List BTrans} {l' : List ITrans} (h : refsOk S l l' = true) :
    l.map (BTrans.ref S) = l' ∧ ∀ t ∈ l, (posOf t.dest S 0).isSome = true := by
  induction l generalizing l' with
  | nil => cases l' with
    | nil => exact ⟨rfl, fun _ h => by cases h⟩
    | cons => cases h
  | cons t l ih => cases l' with
    | nil => cases h
    | cons t' l' =>
      simp only [refsOk, Bool.and_eq_true] at h
      obtain ⟨h1, h2⟩ := ih h.2
      obtain ⟨h3, h4⟩ := refOk_spec h.1
      exact ⟨by rw [List.map_cons, h1, h3], fun u hu => (List.mem_cons.1 hu).elim (fun e => e ▸ h4) (h2 u)⟩

theorem statesOk_spec {S : List BState} {l : List BState} {l' : List IState} (h : statesOk S l l' = true) :
    (l.map fun s => (⟨s.trans.map (BTrans.ref S), s.tags⟩ : IState)) = l' ∧ ∀ t ∈ l.flatMap BState.trans, (posOf t.dest S 0).isSome = true := by
  induction l generalizing l' with
  | nil => cases l' with
    | nil => exact ⟨rfl, fun _ h => by cases h⟩
    | cons => cases h
  | cons s l ih => cases l' with
    | nil => cases h
    | cons s' l' =>
      simp only [statesOk, Bool.and_eq_true, beq_iff_eq] at h
      obtain ⟨h1, h2⟩ := ih h.2.2
      obtain ⟨h3, h4⟩ := refsOk_spec h.1
      refine ⟨by rw [List.map_cons, h1, h3, h.2.1], fun t ht => ?_⟩
      rw [List.flatMap_cons, List.mem_append] at ht
      exact ht.elim (h4 t) (h2 t)

theorem statesOk_append {S l m : List BState} {l' m' : List IState} (h : statesOk S l l' = true) (h' : statesOk S m m' = true) : statesOk S (l ++ m) (l' ++ m') = true := by
  induction l generalizing l' with
  | nil => cases l' with
    | nil => exact h'
    | cons => cases h
  | cons s l ih => cases l' with
    | nil => cases h
    | cons s' l' =>
      simp only [statesOk, List.cons_append, Bool.and_eq_true] at h ⊢
      exact ⟨h.1, h.2.1, ih h.2.2⟩

theorem statesOk_from {S l : List BState} {l' : List IState} {k n j : Nat} (hj : k + n = j) (h : statesOk S ((l.drop k).take n) ((l'.drop k).take n) = true)
    (h' : statesOk S (l.drop j) (l'.drop j) = true) : statesOk S (l.drop k) (l'.drop k) = true := by
  subst hj
  have := statesOk_append h h'
  rwa [← List.drop_drop, ← List.drop_drop, List.take_append_drop, List.take_append_drop] at this

theorem posOf_append {n : Name} {l m : List BState} {i : Nat} : posOf n (l ++ m) i = match posOf n l i with
    | some j => some j
    | none => posOf n m (i + l.length) := by
  induction l generalizing i with
  | nil => rfl
  | cons s l ih =>
    simp only [List.cons_append, posOf]
    cases Nat.beq s.name n with
    | true => rfl
    | false => simp only [cond_false, ih, List.length_cons]; rw [Nat.add_assoc, Nat.add_comm 1]

theorem fixup_old {l : List BTrans} {b : Block} (h : ∀ t ∈ l, (posOf t.dest b.states 0).isSome = true) : fixup l b = b := by
  induction l with
  | nil => rfl
  | cons t l ih =>
    obtain ⟨i, hi⟩ := Option.isSome_iff_exists.1 (h t List.mem_cons_self)
    simp only [fixup, stateFor, hi]
    exact ih fun t ht => h t (List.mem_cons_of_mem _ ht)

/-- One state is added, if there is a transition to it. -/
theorem fixup_one {l : List BTrans} {b b' : Block} {n : Name} (hb : b' = { b with states := b.states ++ [⟨n, [], []⟩] })
    (h : ∀ t ∈ l, (posOf t.dest b'.states 0).isSome = true) (hn : ∃ t ∈ l, t.dest = n ∧ posOf t.dest b.states 0 = none) : fixup l b = b' := by
  induction l with
  | nil => obtain ⟨t, ht, -⟩ := hn; cases ht
  | cons t l ih =>
    cases hp : posOf t.dest b.states 0 with
    | some i =>
      simp only [fixup, stateFor, hp]
      refine ih (fun t ht => h t (List.mem_cons_of_mem _ ht)) ?_
      obtain ⟨u, hu, h1, h2⟩ := hn
      rcases List.mem_cons.1 hu with rfl | hu
      · rw [hp] at h2; cases h2
      · exact ⟨u, hu, h1, h2⟩
    | none =>
      have hd : t.dest = n := by
        have := h t List.mem_cons_self
        rw [hb] at this
        simp only [posOf_append, hp, posOf] at this
        cases hq : Nat.beq n t.dest with
        | true => exact (Nat.eq_of_beq_eq_true hq).symm
        | false => rw [hq] at this; cases this
      have hs : (stateFor b t.dest).1 = b' := by
        rw [stateFor, hp, hb, hd]
      rw [fixup, hs]
      exact fixup_old fun t ht => h t (List.mem_cons_of_mem _ ht)

end Mairix
