import Verif.Proofs.CharSplit
import Verif.Proofs.Ambiguous

/-!
# Scanners for characters
-/

namespace Mairix

attribute [local irreducible] mask

open Spec CharBits

/-- The token of a symbol. -/
def symCode (nt : Nat) (m : List (Option Nat)) : Sym → Option Nat
  | .tok t => some t
  | .chr c => (m.getD c.toNat none).map fun g => nt + g

theorem number_code {nt : Nat} {m : List (Option Nat)} (x : Sym) :
    x.number (char2tokOf nt m) = match symCode nt m x with | some k => (k : Int) | none => -1 := by
  cases x with
  | tok t => rfl
  | chr c =>
    show (tab 256 _).getD c.toNat (-1) = _
    rw [getD_tab c.toNat_lt]
    show _ = match (m.getD c.toNat none).map fun g => nt + g with | some k => (k : Int) | none => -1
    cases m.getD c.toNat none with
    | none => rfl
    | some g =>
      simp only [Option.elim_some, Option.map_some]
      rw [Nat.add_comm]

theorem mapM_pairs {α β : Type} {f : α → Res β} : ∀ {l : List α} {l' : List β}, l.mapM f = .ok l' → Pairs (fun x y => f x = .ok y) l l'
  | [], l', h => by
    rw [List.mapM_nil] at h
    cases h
    exact .nil
  | x :: l, l', h => by
    rw [List.mapM_cons] at h
    obtain ⟨y, h1, h⟩ := res_bind_ok h
    obtain ⟨ys, h2, h⟩ := res_bind_ok h
    cases h
    exact .cons h1 (mapM_pairs h2)

theorem mapM_exists {α β : Type} {f : α → Res β} : ∀ {l : List α}, (∀ x ∈ l, ∃ y, f x = .ok y) → ∃ l', l.mapM f = .ok l'
  | [], _ => ⟨[], rfl⟩
  | x :: l, h => by
    obtain ⟨y, hy⟩ := h x List.mem_cons_self
    obtain ⟨ys, hys⟩ := mapM_exists fun z hz => h z (List.mem_cons_of_mem _ hz)
    exact ⟨y :: ys, by rw [List.mapM_cons, hy, hys]; rfl⟩

theorem groupsOf_spec {m : List (Option Nat)} {cc : CharBits} (hcl : Clean cc) {n : Nat} (hn : n ≤ 256) (hb : ∀ c g, c < 256 → m.getD c none = some g → g < n)
    {gs : List Nat} (h : groupsOf m cc = .ok gs) (g : Nat) : g ∈ gs ↔ ∃ i, i < 256 ∧ cc.lo i = true ∧ m.getD i none = some g := by
  unfold groupsOf at h
  split at h
  · cases h
  · cases h
    simp only [List.mem_filter, List.mem_range, List.contains_iff_mem, List.mem_filterMap]
    constructor
    · rintro ⟨_, i, hi, h1⟩
      split at h1
      · rename_i h2
        exact ⟨i, hi, by rwa [test_clean hcl hi] at h2, h1⟩
      · cases h1
    · rintro ⟨i, hi, h1, h2⟩
      have := hb i g hi h2
      exact ⟨by omega, i, hi, by rw [test_clean hcl hi, if_pos h1]; exact h2⟩

theorem groupsOf_ok {m : List (Option Nat)} {cc : CharBits} (hcl : Clean cc) (hb : ∀ c, c < 256 → cc.lo c = true → (m.getD c none).isSome = true) :
    ∃ gs, groupsOf m cc = .ok gs := by
  unfold groupsOf
  rw [if_neg]
  · exact ⟨_, rfl⟩
  · intro h
    rw [List.any_eq_true] at h
    obtain ⟨i, hi, h⟩ := h
    rw [List.mem_range] at hi
    rw [Bool.and_eq_true, test_clean hcl hi] at h
    have := hb i hi h.1
    cases hm : m.getD i none with
    | none => rw [hm] at this; cases this
    | some g => rw [hm] at h; cases h.2

/-- A proper transition. -/
def ProperTrans (nt : Nat) : CTrans → Prop
  | .eps _ => True
  | .token t _ => t < nt
  | .cls e _ => SafeClass e ∧ ∃ c, InClass c e

theorem mem_classes {a : CAuto} {s : CState} (hs : s ∈ a.states) {e : ClassExpr} {d : Nat} (he : .cls e d ∈ s.trans) : e.bits ∈ a.classes := by
  unfold CAuto.classes
  rw [List.mem_flatMap]
  exact ⟨s, hs, List.mem_filterMap.2 ⟨_, he, rfl⟩⟩

theorem classes_from {a : CAuto} {cc : CharBits} (h : cc ∈ a.classes) : ∃ s ∈ a.states, ∃ e d, .cls e d ∈ s.trans ∧ cc = e.bits := by
  unfold CAuto.classes at h
  rw [List.mem_flatMap] at h
  obtain ⟨s, hs, h⟩ := h
  rw [List.mem_filterMap] at h
  obtain ⟨tr, htr, h⟩ := h
  cases tr with
  | eps d => cases h
  | token t d => cases h
  | cls e d => cases h; exact ⟨s, hs, e, d, htr, rfl⟩

theorem expand_token {ccs : List CharBits} {nt n : Nat} {m : List (Option Nat)} (hg : Groups ccs m n) {tr : CTrans} (hp : ProperTrans nt tr)
    (hcc : ∀ e d, tr = .cls e d → e.bits ∈ ccs) {l : List XTrans} (h : expandTrans nt m tr = .ok l) {x : Sym} (hx : x.Known nt) {k : Nat}
    (hk : symCode nt m x = some k) (d : Nat) : .token k d ∈ l ↔ Takes tr x d := by
  cases tr with
  | eps d' =>
    cases h
    constructor
    · intro h; simp at h
    · intro h; cases h
  | token t d' =>
    cases h
    cases x with
    | tok t' =>
      cases hk
      constructor
      · intro h
        simp only [List.mem_singleton, XTrans.token.injEq] at h
        obtain ⟨h1, h2⟩ := h
        subst h1; subst h2
        exact .token
      · intro h; cases h; exact List.mem_singleton.2 rfl
    | chr c =>
      constructor
      · intro h
        simp only [List.mem_singleton, XTrans.token.injEq] at h
        obtain ⟨h1, h2⟩ := h
        have hlt : t < nt := hp
        change (m.getD c.toNat none).map (fun g => nt + g) = some k at hk
        cases hm : m.getD c.toNat none with
        | none => rw [hm] at hk; cases hk
        | some g =>
          rw [hm] at hk
          simp only [Option.map_some, Option.some.injEq] at hk
          omega
      · intro h; cases h
  | cls e d' =>
    obtain ⟨hsafe, _⟩ : SafeClass e ∧ ∃ c, InClass c e := hp
    obtain ⟨hcl, hin⟩ := class_bits hsafe
    unfold expandTrans at h
    obtain ⟨gs, h1, h⟩ := res_bind_ok h
    have hmem : ∀ g, g ∈ gs ↔ ∃ i, i < 256 ∧ e.bits.lo i = true ∧ m.getD i none = some g := groupsOf_spec hcl hg.room hg.bound h1
    have hl : ∀ k d, .token k d ∈ l ↔ d = d' ∧ ∃ g ∈ gs, k = nt + g := by
      intro k d
      cases gs with
      | nil => cases h
      | cons g gs =>
        cases h
        simp only [List.mem_cons, XTrans.token.injEq, List.mem_map, List.mem_reverse]
        constructor
        · rintro (⟨h1, h2⟩ | ⟨g', h1, h2, h3⟩)
          · exact ⟨h2, g, Or.inl rfl, h1⟩
          · exact ⟨h3.symm, g', Or.inr h1, h2.symm⟩
        · rintro ⟨k1, g', k2 | k2, k3⟩
          · subst k2; exact Or.inl ⟨k3, k1⟩
          · exact Or.inr ⟨g', k2, k3.symm, k1.symm⟩
    rw [hl]
    cases x with
    | tok t =>
      cases hk
      constructor
      · rintro ⟨_, g, _, h3⟩
        have : k < nt := hx
        omega
      · intro h; cases h
    | chr c =>
      change (m.getD c.toNat none).map (fun g => nt + g) = some k at hk
      cases hm : m.getD c.toNat none with
      | none => rw [hm] at hk; cases hk
      | some g =>
        rw [hm] at hk
        cases hk
        constructor
        · rintro ⟨h1, g', h2, h3⟩
          have : g' = g := by simp only at h3; omega
          subst this
          obtain ⟨i, hi, hlo, hmi⟩ := (hmem g').1 h2
          have hs := (hg.same c.toNat i g' c.toNat_lt hi hm).1 hmi
          have := hs _ (hcc e d' rfl)
          rw [hlo] at this
          subst h1
          exact .cls ((hin c).1 this.symm)
        · intro ht
          cases ht with
          | cls hc => exact ⟨rfl, g, (hmem g).2 ⟨c.toNat, c.toNat_lt, (hin c).2 hc, hm⟩, rfl⟩

theorem expand_eps {nt : Nat} {m : List (Option Nat)} {tr : CTrans} {l : List XTrans} (h : expandTrans nt m tr = .ok l) (d : Nat) :
    .eps d ∈ l ↔ tr = .eps d := by
  cases tr with
  | eps d' =>
    cases h
    simp only [List.mem_singleton, XTrans.eps.injEq, CTrans.eps.injEq]
    exact eq_comm
  | token t d' => cases h; simp
  | cls e d' =>
    unfold expandTrans at h
    obtain ⟨gs, _, h⟩ := res_bind_ok h
    cases gs with
    | nil => cases h
    | cons g gs => cases h; simp

/-- A token of the expansion is one the file has or a group. -/
theorem expand_range {nt n : Nat} {m : List (Option Nat)} (hb : ∀ c g, c < 256 → m.getD c none = some g → g < n) {tr : CTrans} (hp : ProperTrans nt tr)
    {l : List XTrans} (h : expandTrans nt m tr = .ok l) {k d : Nat} (hk : .token k d ∈ l) : k < nt + n := by
  cases tr with
  | eps d' => cases h; simp at hk
  | token t d' =>
    cases h
    simp only [List.mem_singleton, XTrans.token.injEq] at hk
    have : t < nt := hp
    omega
  | cls e d' =>
    unfold expandTrans at h
    obtain ⟨gs, h1, h⟩ := res_bind_ok h
    have hgs : ∀ g ∈ gs, g < n := by
      intro g hg
      unfold groupsOf at h1
      split at h1
      · cases h1
      · cases h1
        simp only [List.mem_filter, List.mem_range, List.contains_iff_mem, List.mem_filterMap] at hg
        obtain ⟨_, i, hi, hm⟩ := hg
        split at hm
        · exact hb i g hi hm
        · cases hm
    cases gs with
    | nil => cases h
    | cons g gs =>
      cases h
      simp only [List.mem_cons, XTrans.token.injEq, List.mem_map, List.mem_reverse] at hk
      rcases hk with ⟨h1, _⟩ | ⟨g', h1, h2, _⟩
      · have := hgs g List.mem_cons_self; omega
      · have := hgs g' (List.mem_cons_of_mem _ h1); omega

/-- What is known of the expanded automaton. -/
structure Expanded (a : CAuto) (m : List (Option Nat)) (n : Nat) (states : List XState) : Prop where
  proper : Proper a
  groups : Groups a.classes m n
  same : Pairs (fun s x => expandState a.nt m s = .ok x) a.states states

theorem mem_flatten_pairs {α β : Type} {R : α → List β → Prop} {l : List α} {l' : List (List β)} (h : Pairs R l l') (y : β) :
    y ∈ l'.flatten ↔ ∃ x ∈ l, ∃ ys, R x ys ∧ ys ∈ l' ∧ y ∈ ys := by
  constructor
  · intro hy
    obtain ⟨ys, h1, h2⟩ := List.mem_flatten.1 hy
    obtain ⟨x, h3, h4⟩ := pairs_right h h1
    exact ⟨x, h3, ys, h4, h1, h2⟩
  · rintro ⟨_, _, ys, _, h1, h2⟩
    exact List.mem_flatten.2 ⟨ys, h1, h2⟩

theorem Expanded.trans {a : CAuto} {m : List (Option Nat)} {n : Nat} {states : List XState} (h : Expanded a m n states) {s : CState} (hs : s ∈ a.states) {x : XState}
    (hx : expandState a.nt m s = .ok x) : x.tags = s.tags ∧ (∀ d, .eps d ∈ x.trans ↔ .eps d ∈ s.trans) ∧
    (∀ y : Sym, y.Known a.nt → ∀ k, symCode a.nt m y = some k → ∀ d, .token k d ∈ x.trans ↔ ∃ tr ∈ s.trans, Takes tr y d) ∧
    ∀ k d, .token k d ∈ x.trans → k < a.nt + n := by
  unfold expandState at hx
  obtain ⟨l, h1, hx⟩ := res_bind_ok hx
  cases hx
  have hp := mapM_pairs h1
  have hpt : ∀ tr ∈ s.trans, ProperTrans a.nt tr := by
    intro tr htr
    have := h.proper s hs tr htr
    cases tr <;> exact this
  refine ⟨rfl, fun d => ?_, fun y hy k hk d => ?_, fun k d hk => ?_⟩
  · rw [mem_flatten_pairs hp]
    constructor
    · rintro ⟨tr, htr, ys, h2, _, h3⟩
      rw [← (expand_eps h2 d).1 h3]; exact htr
    · intro hd
      obtain ⟨ys, h2, h3⟩ := pairs_left hp hd
      exact ⟨_, hd, ys, h3, h2, (expand_eps h3 d).2 rfl⟩
  · rw [mem_flatten_pairs hp]
    constructor
    · rintro ⟨tr, htr, ys, h2, _, h3⟩
      exact ⟨tr, htr, (expand_token h.groups (hpt tr htr) (fun e d' he => mem_classes hs (he ▸ htr)) h2 hy hk d).1 h3⟩
    · rintro ⟨tr, htr, ht⟩
      obtain ⟨ys, h2, h3⟩ := pairs_left hp htr
      exact ⟨tr, htr, ys, h3, h2, (expand_token h.groups (hpt tr htr) (fun e d' he => mem_classes hs (he ▸ htr)) h3 hy hk d).2 ht⟩
  · obtain ⟨tr, htr, ys, h2, _, h3⟩ := (mem_flatten_pairs hp _).1 hk
    exact expand_range h.groups.bound (hpt tr htr) h2 h3

/-- The tokens of all symbols. -/
inductive Coded (nt : Nat) (m : List (Option Nat)) : List Sym → List Nat → Prop
  | nil : Coded nt m [] []
  | cons {x k w ks} : x.Known nt → symCode nt m x = some k → Coded nt m w ks → Coded nt m (x :: w) (k :: ks)

theorem Coded.append {nt : Nat} {m : List (Option Nat)} {w v : List Sym} {ks js : List Nat} (h : Coded nt m w ks) (h' : Coded nt m v js) :
    Coded nt m (w ++ v) (ks ++ js) := by
  induction h with
  | nil => exact h'
  | cons h1 h2 _ ih => exact .cons h1 h2 ih

theorem Expanded.moves {a : CAuto} {m : List (Option Nat)} {n : Nat} {states : List XState} (h : Expanded a m n states) {w : List Sym} {s e : Nat}
    (hm : CMoves a.states s w e) : ∀ {ks : List Nat}, Coded a.nt m w ks → Moves states s ks e := by
  induction hm with
  | stay => intro ks hk; cases hk; exact .stay
  | @eps s st d w e hst hd _ ih =>
    intro ks hk
    obtain ⟨x, hx, hex⟩ := pairs_get h.same s st hst
    exact .eps hx (((h.trans (List.mem_of_getElem? hst) hex).2.1 d).2 hd) (ih hk)
  | @sym s st tr y d w e hst htr ht _ ih =>
    intro ks hk
    cases hk with
    | cons k1 k2 k3 =>
      obtain ⟨x, hx, hex⟩ := pairs_get h.same s st hst
      exact .token hx (((h.trans (List.mem_of_getElem? hst) hex).2.2.1 y k1 _ k2 d).2 ⟨tr, htr, ht⟩) (ih k3)

theorem Expanded.moves_back {a : CAuto} {m : List (Option Nat)} {n : Nat} {states : List XState} (h : Expanded a m n states) {ks : List Nat} {s e : Nat}
    (hm : Moves states s ks e) : ∀ {w : List Sym}, Coded a.nt m w ks → CMoves a.states s w e := by
  induction hm with
  | stay => intro ks hk; cases hk; exact .stay
  | @eps s x d w e hx hd _ ih =>
    intro ks hk
    obtain ⟨st, hst, hex⟩ := pairs_get' h.same s x hx
    exact .eps hst (((h.trans (List.mem_of_getElem? hst) hex).2.1 d).1 hd) (ih hk)
  | @token s x t d w e hx ht _ ih =>
    intro ks hk
    cases hk with
    | @cons y _ _ _ k1 k2 k3 =>
      obtain ⟨st, hst, hex⟩ := pairs_get' h.same s x hx
      obtain ⟨tr, htr, htk⟩ := ((h.trans (List.mem_of_getElem? hst) hex).2.2.1 y k1 _ k2 d).1 ht
      exact .sym hst htr htk (ih k3)

theorem Expanded.moves_iff {a : CAuto} {m : List (Option Nat)} {n : Nat} {states : List XState} (h : Expanded a m n states) {w : List Sym} {ks : List Nat}
    (hc : Coded a.nt m w ks) (s e : Nat) : CMoves a.states s w e ↔ Moves states s ks e := ⟨fun hm => h.moves hm hc, fun hm => h.moves_back hm hc⟩

theorem Expanded.tagged {a : CAuto} {m : List (Option Nat)} {n : Nat} {states : List XState} (h : Expanded a m n states) {w : List Sym} {ks : List Nat}
    (hc : Coded a.nt m w ks) (s : Nat) : CTagged a.states s w = Tagged states s ks := by
  funext t
  apply propext
  constructor
  · rintro ⟨e, st, h1, h2, h3⟩
    obtain ⟨x, hx, hex⟩ := pairs_get h.same e st h2
    exact ⟨e, x, h.moves h1 hc, hx, by rw [(h.trans (List.mem_of_getElem? h2) hex).1]; exact h3⟩
  · rintro ⟨e, x, h1, h2, h3⟩
    obtain ⟨st, hst, hex⟩ := pairs_get' h.same e x h2
    exact ⟨e, st, h.moves_back h1 hc, hst, by rw [← (h.trans (List.mem_of_getElem? hst) hex).1]; exact h3⟩

/-- Without a token for one of the symbols nothing can be reached. -/
theorem Expanded.stuck {a : CAuto} {m : List (Option Nat)} {n : Nat} {states : List XState} (h : Expanded a m n states) {w : List Sym} {s e : Nat}
    (hm : CMoves a.states s w e) : ∀ x ∈ w, symCode a.nt m x ≠ none := by
  induction hm with
  | stay => intro x hx; cases hx
  | eps _ _ _ ih => exact ih
  | @sym s st tr y d w e hst htr ht _ ih =>
    intro x hx
    rcases List.mem_cons.1 hx with rfl | hx
    · cases ht with
      | token => intro h; cases h
      | @cls ex c d hin =>
        have hs := List.mem_of_getElem? hst
        have hp := h.proper st hs _ htr
        obtain ⟨_, hb⟩ := class_bits hp.1
        have := h.groups.all c.toNat c.toNat_lt ⟨_, mem_classes hs htr, (hb c).2 hin⟩
        intro hn
        change (m.getD c.toNat none).map (fun g => a.nt + g) = none at hn
        cases hm : m.getD c.toNat none with
        | none => rw [hm] at this; cases this
        | some g => rw [hm] at hn; cases hn
    · exact ih x hx

/-- The automaton over tokens. -/
def CAuto.expanded (a : CAuto) (n : Nat) (states : List XState) : Auto := ⟨states, a.nt + n, a.evaluators, a.defs⟩

theorem Expanded.stops {a : CAuto} {m : List (Option Nat)} {n : Nat} {states : List XState} (h : Expanded a m n states) {w : List Sym} {ks : List Nat}
    (hc : Coded a.nt m w ks) (s : Nat) : CStops a (CTagged a.states s w) ↔ StopsAt (a.expanded n states) (Tagged (a.expanded n states).states s ks) := by
  rw [h.tagged hc s]
  rfl

theorem coded_prefix {nt : Nat} {m : List (Option Nat)} {w : List Sym} {ks : List Nat} (h : Coded nt m w ks) : ∀ {p : List Sym}, p <+: w →
    ∃ js, js <+: ks ∧ Coded nt m p js ∧ (p ≠ w → js ≠ ks) := by
  induction h with
  | nil => intro p hp; rw [List.prefix_nil] at hp; subst hp; exact ⟨[], List.prefix_refl _, .nil, fun h => absurd rfl h⟩
  | @cons x k w ks h1 h2 _ ih =>
    intro p hp
    cases p with
    | nil => exact ⟨[], List.nil_prefix, .nil, fun _ h => by cases h⟩
    | cons y p =>
      rw [List.cons_prefix_cons] at hp
      obtain ⟨h3, h4⟩ := hp
      subst h3
      obtain ⟨js, i1, i2, i3⟩ := ih h4
      refine ⟨k :: js, List.cons_prefix_cons.2 ⟨rfl, i1⟩, .cons h1 h2 i2, fun hne heq => ?_⟩
      simp only [List.cons.injEq, true_and] at heq
      exact i3 (fun hpw => hne (by rw [hpw])) heq

theorem coded_prefix_back {nt : Nat} {m : List (Option Nat)} {w : List Sym} {ks : List Nat} (h : Coded nt m w ks) : ∀ {js : List Nat}, js <+: ks →
    ∃ p, p <+: w ∧ Coded nt m p js ∧ (js ≠ ks → p ≠ w) := by
  induction h with
  | nil => intro p hp; rw [List.prefix_nil] at hp; subst hp; exact ⟨[], List.prefix_refl _, .nil, fun h => absurd rfl h⟩
  | @cons x k w ks h1 h2 _ ih =>
    intro p hp
    cases p with
    | nil => exact ⟨[], List.nil_prefix, .nil, fun _ h => by cases h⟩
    | cons y p =>
      rw [List.cons_prefix_cons] at hp
      obtain ⟨h3, h4⟩ := hp
      subst h3
      obtain ⟨js, i1, i2, i3⟩ := ih h4
      refine ⟨x :: js, List.cons_prefix_cons.2 ⟨rfl, i1⟩, .cons h1 h2 i2, fun hne heq => ?_⟩
      simp only [List.cons.injEq, true_and] at heq
      exact i3 (fun hpw => hne (by rw [hpw])) heq

theorem Expanded.noStop {a : CAuto} {m : List (Option Nat)} {n : Nat} {states : List XState} (h : Expanded a m n states) {w : List Sym} {ks : List Nat}
    (hc : Coded a.nt m w ks) (s : Nat) : CNoStop a s w ↔ NoStop (a.expanded n states) s ks := by
  constructor
  · intro hn js hjs hne hst
    obtain ⟨p, h1, h2, h3⟩ := coded_prefix_back hc hjs
    exact hn p h1 (h3 hne) ((h.stops h2 s).2 hst)
  · intro hn p hp hne hst
    obtain ⟨js, h1, h2, h3⟩ := coded_prefix hc hp
    exact hn js h1 (h3 hne) ((h.stops h2 s).1 hst)

theorem Expanded.group {a : CAuto} {m : List (Option Nat)} {n : Nat} {states : List XState} (h : Expanded a m n states) {w : List Sym} {ks : List Nat}
    (hc : Coded a.nt m w ks) (s : Nat) (ev : Evaluator) (x : Text) : CGroupIs a s w ev x ↔ GroupIs (a.expanded n states) s ks ev x := by
  constructor
  · intro hg
    cases hg with
    | attr h1 h2 => exact .attr (h.moves h1 hc) (by rw [h.tagged hc s] at h2; exact h2)
    | default h1 h2 h3 => exact .default (h.moves h1 hc) (by rw [h.tagged hc s] at h2; exact h2) h3
    | stuck h1 h2 => exact .stuck (fun y hy => h1 y (h.moves_back hy hc)) h2
  · intro hg
    cases hg with
    | attr h1 h2 => exact .attr (h.moves_back h1 hc) (by rw [h.tagged hc s]; exact h2)
    | default h1 h2 h3 => exact .default (h.moves_back h1 hc) (by rw [h.tagged hc s]; exact h2) h3
    | stuck h1 h2 => exact .stuck (fun y hy => h1 y (h.moves hy hc)) h2

theorem Expanded.outcome {a : CAuto} {m : List (Option Nat)} {n : Nat} {states : List XState} (h : Expanded a m n states) {w : List Sym} {ks : List Nat}
    (hc : Coded a.nt m w ks) (s : Nat) (xs : List Text) : COutcome a s w xs ↔ Outcome (a.expanded n states) s ks xs :=
  ⟨fun hp => pairs_mono (fun ev x hx => (h.group hc s ev x).1 hx) hp, fun hp => pairs_mono (fun ev x hx => (h.group hc s ev x).2 hx) hp⟩

theorem coded_or {nt : Nat} (m : List (Option Nat)) : ∀ (w : List Sym), (∀ x ∈ w, x.Known nt) →
    (∃ ks, Coded nt m w ks) ∨ ∃ u x v ks, w = u ++ x :: v ∧ Coded nt m u ks ∧ symCode nt m x = none
  | [], _ => Or.inl ⟨[], .nil⟩
  | x :: w, h => by
    cases hx : symCode nt m x with
    | none => exact Or.inr ⟨[], x, w, [], rfl, .nil, hx⟩
    | some k =>
      have hk := h x List.mem_cons_self
      rcases coded_or m w (fun y hy => h y (List.mem_cons_of_mem _ hy)) with ⟨ks, h1⟩ | ⟨u, y, v, ks, h1, h2, h3⟩
      · exact Or.inl ⟨k :: ks, .cons hk hx h1⟩
      · exact Or.inr ⟨x :: u, y, v, k :: ks, by rw [h1]; rfl, .cons hk hx h2, h3⟩

/-- A token that is no symbol's leads nowhere. -/
theorem Expanded.decode {a : CAuto} {m : List (Option Nat)} {n : Nat} {states : List XState} (h : Expanded a m n states) {ks : List Nat} {s e : Nat}
    (hm : Moves states s ks e) : ∀ k ∈ ks, k < a.nt + n := by
  induction hm with
  | stay => intro k hk; cases hk
  | eps _ _ _ ih => exact ih
  | @token s x t d w e hx ht _ ih =>
    intro k hk
    rcases List.mem_cons.1 hk with rfl | hk
    · obtain ⟨st, hst, hex⟩ := pairs_get' h.same s x hx
      exact (h.trans (List.mem_of_getElem? hst) hex).2.2.2 _ _ ht
    · exact ih k hk

theorem Expanded.symbols {a : CAuto} {m : List (Option Nat)} {n : Nat} {states : List XState} (h : Expanded a m n states) : ∀ (ks : List Nat),
    (∀ k ∈ ks, k < a.nt + n) → ∃ w, Coded a.nt m w ks
  | [], _ => ⟨[], .nil⟩
  | k :: ks, hk => by
    obtain ⟨w, hw⟩ := h.symbols ks fun j hj => hk j (List.mem_cons_of_mem _ hj)
    by_cases hlt : k < a.nt
    · exact ⟨.tok k :: w, .cons hlt rfl hw⟩
    · obtain ⟨c, hc, hmc⟩ := h.groups.used (k - a.nt) (by have := hk k List.mem_cons_self; omega)
      refine ⟨.chr (UInt8.ofNat c) :: w, .cons trivial ?_ hw⟩
      have : (UInt8.ofNat c).toNat = c := by rw [UInt8.toNat_ofNat']; omega
      unfold symCode
      simp only
      rw [this, hmc]
      simp only [Option.map_some, Option.some.injEq]
      omega

theorem Expanded.hopeless {a : CAuto} {m : List (Option Nat)} {n : Nat} {states : List XState} (h : Expanded a m n states) {w : List Sym} {ks : List Nat}
    (hc : Coded a.nt m w ks) (s : Nat) : Hopeless (a.expanded n states) s ks ↔ CHopeless a s w := by
  constructor
  · intro hh v ds hv hds hns
    rcases coded_or m v hv with ⟨js, hj⟩ | ⟨u, x, v', js, h1, _, h3⟩
    · have hcj := hc.append hj
      exact (h.outcome hcj s ds).2 (hh js ds hds ((h.noStop hcj s).1 hns))
    · refine pairs_mono ?_ hds
      intro ev x' hx'
      refine .stuck (fun y hy => ?_) hx'
      exact h.stuck hy x (by rw [h1]; simp) h3
  · intro hh v ds hds hns
    by_cases hm : ∃ y, Moves states s (ks ++ v) y
    · obtain ⟨y, hy⟩ := hm
      have hr := h.decode hy
      obtain ⟨v', hv'⟩ := h.symbols v fun k hk => hr k (List.mem_append.2 (Or.inr hk))
      have hcj := hc.append hv'
      refine (h.outcome hcj s ds).1 (hh v' ds ?_ hds ((h.noStop hcj s).2 hns))
      clear hcj hr hy hns
      induction hv' with
      | nil => intro x hx; cases hx
      | cons h1 _ _ ih =>
        intro x hx
        rcases List.mem_cons.1 hx with rfl | hx
        · exact h1
        · exact ih x hx
    · refine pairs_mono ?_ hds
      intro ev x' hx'
      exact .stuck (fun y hy => hm ⟨y, hy⟩) hx'

theorem split_expanded {a : CAuto} (hp : Proper a) : ∃ m n states, splitCharclasses a.classes = .ok (m, n) ∧ a.states.mapM (expandState a.nt m) = .ok states ∧
    Expanded a m n states := by
  have hcls : ∀ cc ∈ a.classes, Clean cc ∧ ∃ c, c < 256 ∧ cc.lo c = true := by
    intro cc hcc
    obtain ⟨s, hs, e, d, htr, rfl⟩ := classes_from hcc
    have := hp s hs _ htr
    obtain ⟨h1, h2⟩ := class_bits this.1
    obtain ⟨c, hc⟩ := this.2
    exact ⟨h1, c.toNat, c.toNat_lt, (h2 c).2 hc⟩
  obtain ⟨m, n, h1, hg⟩ := split_spec (fun cc h => (hcls cc h).1) (fun cc h => (hcls cc h).2)
  have hex : ∀ s ∈ a.states, ∃ x, expandState a.nt m s = .ok x := by
    intro s hs
    have : ∀ tr ∈ s.trans, ∃ l, expandTrans a.nt m tr = .ok l := by
      intro tr htr
      cases tr with
      | eps d => exact ⟨_, rfl⟩
      | token t d => exact ⟨_, rfl⟩
      | cls e d =>
        have hcc := mem_classes hs htr
        obtain ⟨hcl, c, hc, hlo⟩ := hcls _ hcc
        obtain ⟨gs, hgs⟩ := groupsOf_ok (m := m) hcl fun c hc hlo => hg.all c hc ⟨_, hcc, hlo⟩
        have hmem : ∀ g, g ∈ gs ↔ _ := groupsOf_spec hcl hg.room hg.bound hgs
        simp only [expandTrans, hgs, bind, Except.bind]
        cases gs with
        | cons g gs => exact ⟨_, rfl⟩
        | nil =>
          have := hg.all c hc ⟨_, hcc, hlo⟩
          cases hmc : m.getD c none with
          | none => rw [hmc] at this; cases this
          | some g =>
            have := (hmem g).2 ⟨c, hc, hlo, hmc⟩
            cases this
    obtain ⟨l, hl⟩ := mapM_exists this
    exact ⟨⟨l.flatten, s.tags⟩, by unfold expandState; rw [hl]; rfl⟩
  obtain ⟨states, hst⟩ := mapM_exists hex
  exact ⟨m, n, states, h1, hst, hp, hg, mapM_pairs hst⟩

/-- What the generator does for a proper file. -/
theorem generateChars_eq {a : CAuto} (hp : Proper a) : ∃ m n states, Expanded a m n states ∧ ∀ sort compress entries,
    generateChars sort compress a entries = (generate sort compress (a.expanded n states) entries).map fun sc => ⟨char2tokOf a.nt m, sc⟩ := by
  obtain ⟨m, n, states, h1, h2, h3⟩ := split_expanded hp
  refine ⟨m, n, states, h3, fun sort compress entries => ?_⟩
  unfold generateChars
  rw [h1]
  simp only [bind, Except.bind]
  rw [h2]
  simp only
  unfold CAuto.expanded
  cases generate sort compress ⟨states, a.nt + n, a.evaluators, a.defs⟩ entries <;> rfl

theorem scanWith_append {next : Int → Int → Res Int} : ∀ (u v : List Int) (s s' : Int), scanWith next s u = .ok s' →
    (scanWith next s (u ++ v) = scanWith next s' v ∨ (s' < 0 ∧ scanWith next s (u ++ v) = .ok s'))
  | [], v, s, s', h => by cases h; exact Or.inl rfl
  | x :: u, v, s, s', h => by
    unfold scanWith at h
    split at h
    · rename_i hs
      cases h
      refine Or.inr ⟨hs, ?_⟩
      rw [List.cons_append]
      unfold scanWith
      rw [if_pos hs]
    · rename_i hs
      obtain ⟨s1, h1, h2⟩ := res_bind_ok h
      have : scanWith next s (x :: u ++ v) = scanWith next s1 (u ++ v) := by
        rw [List.cons_append]
        conv => lhs; unfold scanWith
        rw [if_neg hs, h1]; rfl
      rw [this]
      exact scanWith_append u v s1 s' h2

theorem scanWith_neg {next : Int → Int → Res Int} {s : Int} (hs : s < 0) : ∀ (w : List Int), scanWith next s w = .ok s
  | [] => rfl
  | _ :: _ => by unfold scanWith; rw [if_pos hs]

theorem coded_numbers {nt : Nat} {m : List (Option Nat)} {w : List Sym} {ks : List Nat} (h : Coded nt m w ks) :
    w.map (Sym.number (char2tokOf nt m)) = ks.map fun (t : Nat) => (t : Int) := by
  induction h with
  | nil => rfl
  | @cons x k w ks _ h2 _ ih =>
    rw [List.map_cons, List.map_cons, ih, number_code, h2]

/-- From scanners for tokens to scanners for characters. -/
theorem Expanded.scans {a : CAuto} {m : List (Option Nat)} {n : Nat} {states : List XState} (h : Expanded a m n states) {compress : Bool} {sc : Scanner}
    {next : Int → Int → Res Int} (hnone : ∀ j : Nat, j < sc.nodes.length → next j (-1) = .ok (-1)) {e : Nat} {s : Option Nat} (hs : Scans (a.expanded n states) compress sc next e s) (w : List Sym) (hw : ∀ x ∈ w, x.Known a.nt) :
    (scanWith next (stateNumber s) (w.map (Sym.number (char2tokOf a.nt m))) = .ok (-1) ∧ CHopeless a e w) ∨
    (∃ (j : Nat) (xs : List Text), scanWith next (stateNumber s) (w.map (Sym.number (char2tokOf a.nt m))) = .ok (j : Int) ∧
      sc.attrs j = .ok xs ∧ CNoStop a e w ∧ COutcome a e w xs ∧ (compress = true → ¬ CHopeless a e w)) := by
  rcases coded_or m w hw with ⟨ks, hk⟩ | ⟨u, x, v, ks, h1, h2, h3⟩
  · rw [coded_numbers hk]
    rcases hs ks with ⟨h1, h2⟩ | ⟨j, xs, h1, h2, h3, h4, h5⟩
    · exact Or.inl ⟨h1, (h.hopeless hk e).1 h2⟩
    · exact Or.inr ⟨j, xs, h1, h2, (h.noStop hk e).2 h3, (h.outcome hk e xs).2 h4, fun hc hh => h5 hc ((h.hopeless hk e).2 hh)⟩
  · left
    constructor
    · have hx : Sym.number (char2tokOf a.nt m) x = -1 := by rw [number_code, h3]
      rw [h1, List.map_append, List.map_cons, hx, coded_numbers h2]
      have key : ∀ s' : Int, scanWith next (stateNumber s) (ks.map fun (t : Nat) => (t : Int)) = .ok s' → (s' < 0 → s' = -1) → (0 ≤ s' → s'.toNat < sc.nodes.length) →
          scanWith next (stateNumber s) ((ks.map fun (t : Nat) => (t : Int)) ++ -1 :: v.map (Sym.number (char2tokOf a.nt m))) = .ok (-1) := by
        intro s' hs' hneg hin
        rcases scanWith_append _ (-1 :: v.map (Sym.number (char2tokOf a.nt m))) _ _ hs' with h4 | ⟨h4, h5⟩
        · rw [h4]
          by_cases hlt : s' < 0
          · rw [hneg hlt]; exact scanWith_neg (by omega) _
          · unfold scanWith
            rw [if_neg hlt]
            have : next s' (-1) = .ok (-1) := by
              have := hnone s'.toNat (hin (by omega))
              rwa [Int.toNat_of_nonneg (by omega)] at this
            rw [this]
            exact scanWith_neg (by omega) _
        · rw [h5, hneg h4]
      rcases hs ks with ⟨h4, _⟩ | ⟨j, xs, h4, h5, _⟩
      · exact key _ h4 (fun _ => rfl) fun h => by omega
      · refine key _ h4 (fun hn => by omega) fun _ => ?_
        unfold Scanner.attrs attrRow at h5
        rw [if_neg (by omega)] at h5
        split at h5
        · rename_i d hd
          exact (List.getElem?_eq_some_iff.1 hd).1
        · cases h5
    · intro v' ds hv hds _
      refine pairs_mono ?_ hds
      intro ev x' hx'
      refine .stuck (fun y hy => ?_) hx'
      exact h.stuck hy x (by rw [h1]; simp) h3

theorem coded_known {nt : Nat} {m : List (Option Nat)} {w : List Sym} {ks : List Nat} (h : Coded nt m w ks) : ∀ x ∈ w, x.Known nt := by
  induction h with
  | nil => intro x hx; cases hx
  | cons h1 _ _ ih =>
    intro x hx
    rcases List.mem_cons.1 hx with rfl | hx
    · exact h1
    · exact ih x hx

theorem Expanded.wrong {a : CAuto} {m : List (Option Nat)} {n : Nat} {states : List XState} (h : Expanded a m n states) (entries : List Nat) :
    Wrong (a.expanded n states) entries ↔ CWrong a entries := by
  constructor
  · rintro ⟨e, he, ks, h1, ⟨y, h2⟩, h3⟩
    obtain ⟨w, hw⟩ := h.symbols ks (h.decode h2)
    refine ⟨e, he, w, coded_known hw, (h.noStop hw e).2 h1, ⟨y, h.moves_back h2 hw⟩, ?_⟩
    rw [h.tagged hw e]
    exact h3
  · rintro ⟨e, he, w, hk, h1, ⟨y, h2⟩, h3⟩
    rcases coded_or m w hk with ⟨ks, hc⟩ | ⟨u, x, v, ks, k1, k2, k3⟩
    · refine ⟨e, he, ks, (h.noStop hc e).1 h1, ⟨y, h.moves h2 hc⟩, ?_⟩
      rw [h.tagged hc e] at h3
      exact h3
    · exact absurd k3 (h.stuck h2 x (by rw [k1]; simp))

/-- The expanded automaton is in range. -/
theorem Expanded.inRange {a : CAuto} {m : List (Option Nat)} {n : Nat} {states : List XState} (h : Expanded a m n states) {entries : List Nat}
    (ht : InStates a entries) : (a.expanded n states).inRange entries = true := by
  have hlen : states.length = a.states.length := (pairs_length h.same).symm
  unfold Auto.inRange
  rw [Bool.and_eq_true, List.all_eq_true, List.all_eq_true]
  constructor
  · intro x hx
    obtain ⟨s, hs, hex⟩ := pairs_right h.same hx
    rw [List.all_eq_true]
    intro t htm
    have hex' := hex
    unfold expandState at hex'
    obtain ⟨l, h1, h2⟩ := res_bind_ok hex'
    cases h2
    have hp := mapM_pairs h1
    obtain ⟨tr, htr, ys, k1, _, k2⟩ := (mem_flatten_pairs hp t).1 htm
    have hd : ∀ d, (t = .eps d ∨ ∃ k, t = .token k d) → d < a.states.length := by
      intro d hd
      have hdest := ht.1 s hs tr htr
      cases tr with
      | eps d' =>
        cases k1
        rw [List.mem_singleton] at k2
        subst k2
        rcases hd with hd | ⟨k, hd⟩
        · cases hd; exact hdest
        · cases hd
      | token t' d' =>
        cases k1
        rw [List.mem_singleton] at k2
        subst k2
        rcases hd with hd | ⟨k, hd⟩
        · cases hd
        · cases hd; exact hdest
      | cls e d' =>
        simp only [expandTrans] at k1
        obtain ⟨gs, _, k3⟩ := res_bind_ok k1
        cases gs with
        | nil => cases k3
        | cons g gs =>
          cases k3
          simp only [List.mem_cons, List.mem_map, List.mem_reverse] at k2
          rcases k2 with k2 | ⟨g', _, k2⟩
          · subst k2
            rcases hd with hd | ⟨k, hd⟩
            · cases hd
            · cases hd; exact hdest
          · subst k2
            rcases hd with hd | ⟨k, hd⟩
            · cases hd
            · cases hd; exact hdest
    cases t with
    | eps d =>
      simp only [decide_eq_true_eq]
      show d < states.length
      rw [hlen]; exact hd d (Or.inl rfl)
    | token k d =>
      simp only [Bool.and_eq_true, decide_eq_true_eq]
      refine ⟨(h.trans hs hex).2.2.2 k d htm, ?_⟩
      show d < states.length
      rw [hlen]; exact hd d (Or.inr ⟨k, rfl⟩)
  · intro e he
    simp only [decide_eq_true_eq]
    show e < states.length
    rw [hlen]; exact ht.2 e he

end Mairix
