import Verif.Model.MboxScan
import Verif.Spec.Mbox

namespace Mairix
open Spec

/-- The characters of `"\nFrom "`. -/
def fromPat : List UInt8 := [0x0a, 0x46, 0x72, 0x6f, 0x6d, 0x20]

/-- The first `k + 1` characters of the pattern end at position `n`, where the first may be the imagined
newline before `base`. -/
def PatAt (va : Text) (base : Nat) : Nat → Nat → Prop
  | 0, n => LineStart va base n
  | k + 1, n => base < n ∧ PatAt va base k (n - 1) ∧ va[n - 1]? = fromPat[k + 1]?

theorem fromtab_bit (c : UInt8) (k : Nat) (hk : k ≤ 5) : (fromtab c).getLsbD k = false ↔ fromPat[k]? = some c := by
  have hk' : k = 0 ∨ k = 1 ∨ k = 2 ∨ k = 3 ∨ k = 4 ∨ k = 5 := by omega
  unfold fromtab
  rcases hk' with rfl | rfl | rfl | rfl | rfl | rfl <;>
    (repeat' split) <;> simp_all [fromPat] <;> first | decide | (intro h; simp_all)

theorem bit5 : ∀ i : Fin 64, (1#64 <<< 5).getLsbD i = decide (i.val = 5) := by decide

theorem hit_bit (r : BitVec 64) : ~~~(r ||| ~~~(1#64 <<< 5)) ≠ 0#64 ↔ r.getLsbD 5 = false := by
  have key : ∀ i : Nat, i < 64 → (~~~(r ||| ~~~(1#64 <<< 5))).getLsbD i = (decide (i = 5) && !r.getLsbD i) := by
    intro i hi
    have := bit5 ⟨i, hi⟩
    simp only at this
    simp only [BitVec.getLsbD_not, BitVec.getLsbD_or, hi, this, decide_true, Bool.true_and]
    cases decide (i = 5) <;> cases r.getLsbD i <;> rfl
  constructor
  · intro h
    cases hb : r.getLsbD 5 with
    | false => rfl
    | true =>
      exfalso; apply h
      apply BitVec.eq_of_getLsbD_eq
      intro i hi
      rw [key i hi]
      by_cases h5 : i = 5
      · subst h5; simp only [hb]; rfl
      · simp [h5]
  · intro h hc
    have := key 5 (by omega)
    rw [hc, h] at this
    simp at this

theorem step_bit (r : BitVec 64) (c : UInt8) (k : Nat) (hk : k + 1 ≤ 5) :
    ((r <<< 1) ||| fromtab c).getLsbD (k + 1) = false ↔ r.getLsbD k = false ∧ fromPat[k + 1]? = some c := by
  rw [← fromtab_bit c (k + 1) hk]
  simp
  omega

theorem step_bit0 (r : BitVec 64) (c : UInt8) :
    ((r <<< 1) ||| fromtab c).getLsbD 0 = false ↔ c = 0x0a := by
  have := fromtab_bit c 0 (by omega)
  simp [fromPat] at this
  simp
  rw [this]
  exact eq_comm

/-- What the register means before position `n`. -/
def RegOk (va : Text) (base n : Nat) (r : BitVec 64) : Prop :=
  ∀ k, k ≤ 4 → (r.getLsbD k = false ↔ PatAt va base k n)

theorem regOk_start (va : Text) (base : Nat) : RegOk va base base (fromtab 0x0a) := by
  intro k hk
  rw [fromtab_bit _ _ (by omega)]
  cases k with
  | zero => simp [fromPat, PatAt, LineStart]
  | succ k =>
    simp only [PatAt, Nat.lt_irrefl, false_and, iff_false]
    have hk' : k = 0 ∨ k = 1 ∨ k = 2 ∨ k = 3 := by omega
    rcases hk' with rfl | rfl | rfl | rfl <;> simp [fromPat]

theorem regOk_step {va : Text} {base n : Nat} {r : BitVec 64} {c : UInt8} (h : RegOk va base n r) (hb : base ≤ n)
    (hc : va[n]? = some c) :
    RegOk va base (n + 1) ((r <<< 1) ||| fromtab c) ∧
      (((r <<< 1) ||| fromtab c).getLsbD 5 = false ↔ PatAt va base 5 (n + 1)) := by
  constructor
  · intro k hk
    cases k with
    | zero =>
      rw [step_bit0]
      simp only [PatAt, LineStart, Nat.add_sub_cancel, hc, Option.some.injEq]
      constructor
      · intro e; exact .inr ⟨by omega, e⟩
      · rintro (e | e)
        · omega
        · exact e.2
    | succ k =>
      rw [step_bit _ _ _ (by omega), h k (by omega)]
      simp only [PatAt, Nat.add_sub_cancel, hc]
      constructor
      · rintro ⟨a, b⟩; exact ⟨by omega, a, b.symm⟩
      · rintro ⟨_, a, b⟩; exact ⟨a, b.symm⟩
  · rw [step_bit _ _ 4 (by omega), h 4 (by omega)]
    simp only [PatAt, Nat.add_sub_cancel, hc]
    constructor
    · rintro ⟨a, b⟩; exact ⟨by omega, a, b.symm⟩
    · rintro ⟨_, a, b⟩; exact ⟨a, b.symm⟩

theorem patAt_from {va : Text} {base n : Nat} : PatAt va base 5 n ↔
    ∃ p, n = p + 5 ∧ base ≤ p ∧ LineStart va base p ∧ ∃ rest, va.drop p = bs "From " ++ rest := by
  have e : bs "From " = [0x46, 0x72, 0x6f, 0x6d, 0x20] := by decide
  rw [e]
  constructor
  · intro h
    simp only [PatAt, fromPat] at h
    obtain ⟨b5, ⟨b4, ⟨b3, ⟨b2, ⟨b1, h0, h1⟩, h2⟩, h3⟩, h4⟩, h5⟩ := h
    refine ⟨n - 5, by omega, by omega, ?_, ?_⟩
    · have : n - 1 - 1 - 1 - 1 - 1 = n - 5 := by omega
      rwa [this] at h0
    · have g : ∀ j, (va.drop (n - 5))[j]? = va[n - 5 + j]? := fun j => by rw [List.getElem?_drop]
      have g0 := g 0; have g1 := g 1; have g2 := g 2; have g3 := g 3; have g4 := g 4
      rw [show n - 5 + 0 = n - 1 - 1 - 1 - 1 - 1 by omega, h1] at g0
      rw [show n - 5 + 1 = n - 1 - 1 - 1 - 1 by omega, h2] at g1
      rw [show n - 5 + 2 = n - 1 - 1 - 1 by omega, h3] at g2
      rw [show n - 5 + 3 = n - 1 - 1 by omega, h4] at g3
      rw [show n - 5 + 4 = n - 1 by omega, h5] at g4
      generalize va.drop (n - 5) = l at *
      match l, g0, g1, g2, g3, g4 with
      | a :: b :: c :: d :: e :: rest, g0, g1, g2, g3, g4 =>
        simp at g0 g1 g2 g3 g4
        exact ⟨rest, by simp [g0, g1, g2, g3, g4]⟩
      | [], g0, _, _, _, _ => simp at g0
      | [_], _, g1, _, _, _ => simp at g1
      | [_, _], _, _, g2, _, _ => simp at g2
      | [_, _, _], _, _, _, g3, _ => simp at g3
      | [_, _, _, _], _, _, _, _, g4 => simp at g4
  · rintro ⟨p, rfl, hb, hl, rest, hr⟩
    have g : ∀ j, va[p + j]? = (va.drop p)[j]? := fun j => by rw [List.getElem?_drop]
    have g0 := g 0; have g1 := g 1; have g2 := g 2; have g3 := g 3; have g4 := g 4
    rw [hr] at g0 g1 g2 g3 g4
    simp only [PatAt, fromPat]
    refine ⟨by omega, ⟨by omega, ⟨by omega, ⟨by omega, ⟨by omega, ?_, ?_⟩, ?_⟩, ?_⟩, ?_⟩, ?_⟩
    · rw [show p + 5 - 1 - 1 - 1 - 1 - 1 = p by omega]; exact hl
    · rw [show p + 5 - 1 - 1 - 1 - 1 - 1 = p + 0 by omega, g0]; rfl
    · rw [show p + 5 - 1 - 1 - 1 - 1 = p + 1 by omega, g1]; rfl
    · rw [show p + 5 - 1 - 1 - 1 = p + 2 by omega, g2]; rfl
    · rw [show p + 5 - 1 - 1 = p + 3 by omega, g3]; rfl
    · rw [show p + 5 - 1 = p + 4 by omega, g4]; rfl

/-- After a space no shorter part of the pattern has been read. -/
theorem regOk_space {va : Text} {base n : Nat} (hb : base ≤ n) (hc : va[n]? = some 0x20) (r : BitVec 64) :
    RegOk va base (n + 1) ((r <<< 1) ||| fromtab 0x20) := by
  intro k hk
  cases k with
  | zero =>
    rw [step_bit0]
    simp only [PatAt, LineStart, Nat.add_sub_cancel, hc, Option.some.injEq]
    constructor
    · intro h; cases h
    · rintro (h | ⟨_, h⟩)
      · omega
      · cases h
  | succ k =>
    rw [step_bit _ _ _ (by omega)]
    simp only [PatAt, Nat.add_sub_cancel, hc]
    have hk' : k = 0 ∨ k = 1 ∨ k = 2 ∨ k = 3 := by omega
    rcases hk' with rfl | rfl | rfl | rfl <;> simp [fromPat]

theorem findNextFromLoop_spec (isFrom : Text → Bool) (va : Text) (base : Nat) : ∀ (fuel n : Nat) (r : BitVec 64),
    base ≤ n → 2 * (va.length - n) + 1 ≤ fuel → RegOk va base n r →
    (∀ p, base ≤ p → p + 5 ≤ n → ¬ FromLine isFrom va base p) →
    (∃ p, findNextFromLoop isFrom va fuel n r = .ok (some p) ∧ First (FromLine isFrom va base) base p) ∨
    (findNextFromLoop isFrom va fuel n r = .ok none ∧ ∀ p, base ≤ p → ¬ FromLine isFrom va base p) := by
  intro fuel
  induction fuel using Nat.strongRecOn with
  | ind fuel ih =>
  intro n r hb hf hr hno
  match fuel, hf, ih with
  | 0, hf, _ => omega
  | fuel + 1, hf, ih =>
  by_cases hn : n < va.length
  · obtain ⟨c, hc⟩ : ∃ c, va[n]? = some c := ⟨va[n], by simp [hn]⟩
    obtain ⟨hr', h5⟩ := regOk_step hr hb hc
    have nofrom : ∀ p, base ≤ p → p + 5 = n + 1 → FromLine isFrom va base p → PatAt va base 5 (n + 1) := by
      rintro p hp hpn ⟨hl, rest, hrest, _⟩
      exact patAt_from.2 ⟨p, hpn.symm, hp, hl, rest, hrest⟩
    by_cases hhit : PatAt va base 5 (n + 1)
    · -- a candidate
      obtain ⟨p, hpn, hp, hl, rest, hrest⟩ := patAt_from.1 hhit
      have hn4 : ¬ n < 4 := by omega
      have hnp : n - 4 = p := by omega
      have hdrop : va.drop (n + 1) = rest := by
        rw [hpn, ← List.drop_drop, hrest]
        rfl
      have e : bs "From " = [0x46, 0x72, 0x6f, 0x6d, 0x20] := by decide
      have hc20 : c = 0x20 := by
        have : va[p + 4]? = (va.drop p)[4]? := by rw [List.getElem?_drop]
        rw [hrest, e, show p + 4 = n by omega, hc] at this
        simpa using this
      by_cases hlook : isFrom rest = true
      · left
        refine ⟨p, ?_, hp, ⟨hl, rest, hrest, hlook⟩, ?_⟩
        · simp only [findNextFromLoop, hn, if_true, charAt, hc, bind, Except.bind]
          rw [if_pos ((hit_bit _).2 (h5.2 hhit))]
          simp only [looksLikeFrom, hdrop, hlook, if_true, hn4, if_false, hnp]
        · intro q hq hqp; exact hno q hq (by omega)
      · have hnop : ∀ q, base ≤ q → q + 5 ≤ n + 1 → ¬ FromLine isFrom va base q := by
          intro q hq hqn hF
          by_cases hq' : q + 5 ≤ n
          · exact hno q hq hq' hF
          · have : q = p := by omega
            subst this
            obtain ⟨_, rest', hr1, hr2⟩ := hF
            rw [hrest] at hr1
            have := List.append_cancel_left hr1
            subst this
            exact hlook hr2
        -- the same position is read again
        match fuel, hf, ih with
        | 0, hf, _ => omega
        | fuel + 1, hf, ih =>
        have hrestart : findNextFromLoop isFrom va (fuel + 1 + 1) n r =
            findNextFromLoop isFrom va fuel (n + 1) ((fromtab 0x0a <<< 1) ||| fromtab c) := by
          conv => lhs; unfold findNextFromLoop
          simp only [hn, if_true, charAt, hc, bind, Except.bind]
          rw [if_pos ((hit_bit _).2 (h5.2 hhit))]
          simp only [looksLikeFrom, hdrop]
          rw [if_neg hlook]
          conv => lhs; unfold findNextFromLoop
          simp only [hn, if_true, charAt, hc, bind, Except.bind]
          rw [if_neg]
          rw [hit_bit]
          rw [step_bit _ _ 4 (by omega), fromtab_bit _ _ (by omega)]
          simp [fromPat]
        rw [hrestart]
        subst hc20
        exact ih fuel (by omega) (n + 1) _ (by omega) (by omega) (regOk_space hb hc _) hnop
    · have hstep : findNextFromLoop isFrom va (fuel + 1) n r =
          findNextFromLoop isFrom va fuel (n + 1) ((r <<< 1) ||| fromtab c) := by
        conv => lhs; unfold findNextFromLoop
        simp only [hn, if_true, charAt, hc, bind, Except.bind]
        rw [if_neg]
        rw [hit_bit, h5]
        exact hhit
      rw [hstep]
      refine ih fuel (by omega) (n + 1) _ (by omega) (by omega) hr' ?_
      intro p hp hpn hF
      by_cases h : p + 5 ≤ n
      · exact hno p hp h hF
      · exact hhit (nofrom p hp (by omega) hF)
  · right
    refine ⟨by simp [findNextFromLoop, hn], ?_⟩
    rintro p hp hF
    obtain ⟨hl, rest, hrest, hi⟩ := hF
    by_cases h : p + 5 ≤ n
    · exact hno p hp h ⟨hl, rest, hrest, hi⟩
    · have e : bs "From " = [0x46, 0x72, 0x6f, 0x6d, 0x20] := by decide
      have := congrArg List.length hrest
      rw [e] at this
      simp at this
      omega

theorem findNextFrom_spec (isFrom : Text → Bool) (va : Text) (base : Nat) :
    (∃ p, findNextFrom isFrom va base = .ok (some p) ∧ First (FromLine isFrom va base) base p) ∨
    (findNextFrom isFrom va base = .ok none ∧ ∀ p, base ≤ p → ¬ FromLine isFrom va base p) :=
  findNextFromLoop_spec isFrom va base _ base _ (Nat.le_refl _) (by omega) (regOk_start va base)
    (fun p _ h => by omega)

theorem nextLineLoop_spec (va : Text) : ∀ (fuel n : Nat), n < va.length → va.length - n < fuel →
    ∃ s, nextLineLoop va fuel n = .ok s ∧ n < s ∧ s ≤ va.length ∧
      (NextLine va n s ∨ (s = va.length ∧ 0x0a ∉ va.drop n)) := by
  intro fuel
  induction fuel with
  | zero => intro n h1 h2; omega
  | succ fuel ih =>
    intro n h1 h2
    have hc : va[n]? = some va[n] := by simp [h1]
    have hd : va.drop n = va[n] :: va.drop (n + 1) := by rw [List.drop_eq_getElem_cons h1]
    simp only [nextLineLoop, charAt, hc, bind, Except.bind]
    by_cases h : n + 1 < va.length ∧ va[n] ≠ 0x0a
    · rw [if_pos h]
      obtain ⟨s, e, a, b, c⟩ := ih (n + 1) h.1 (by omega)
      refine ⟨s, e, by omega, b, ?_⟩
      rcases c with ⟨line, rest, c1, c2, c3⟩ | ⟨c1, c2⟩
      · left
        refine ⟨va[n] :: line, rest, by rw [hd, c1]; rfl, ?_, by simp; omega⟩
        simp only [List.mem_cons, not_or]
        exact ⟨fun e => h.2 e.symm, c2⟩
      · right
        refine ⟨c1, ?_⟩
        rw [hd]
        simp only [List.mem_cons, not_or]
        exact ⟨fun e => h.2 e.symm, c2⟩
    · rw [if_neg h]
      refine ⟨n + 1, rfl, by omega, by omega, ?_⟩
      by_cases hnl : va[n] = 0x0a
      · left
        exact ⟨[], va.drop (n + 1), by rw [hd, hnl]; rfl, by simp, by simp⟩
      · right
        have : n + 1 = va.length := by
          have : ¬ (n + 1 < va.length) := fun h' => h ⟨h', hnl⟩
          omega
        refine ⟨this, ?_⟩
        rw [hd, this, List.drop_length]
        simp only [List.mem_singleton]
        exact fun e => hnl e.symm

theorem nextLine_unique {va : Text} {p s s' : Nat} (h : NextLine va p s) (h' : NextLine va p s') : s = s' := by
  obtain ⟨l, r, h1, h2, h3⟩ := h
  obtain ⟨l', r', h1', h2', h3'⟩ := h'
  rw [h1] at h1'
  have : l = l' := by
    have key : ∀ (l : Text) (r : Text), 0x0a ∉ l → (l ++ 0x0a :: r).takeWhile (· ≠ 0x0a) = l := by
      intro l r hl
      induction l with
      | nil => simp
      | cons a l ih =>
        simp only [List.mem_cons, not_or] at hl
        simp only [List.cons_append]
        rw [List.takeWhile_cons_of_pos (by simp; exact fun e => hl.1 e.symm), ih hl.2]
    have := congrArg (List.takeWhile (· ≠ 0x0a)) h1'
    rwa [key l r h2, key l' r' h2'] at this
  subst this
  omega

theorem fromLine_lt {isFrom : Text → Bool} {va : Text} {base p : Nat} (h : FromLine isFrom va base p) : p + 5 ≤ va.length := by
  obtain ⟨_, rest, hr, _⟩ := h
  have e : bs "From " = [0x46, 0x72, 0x6f, 0x6d, 0x20] := by decide
  have := congrArg List.length hr
  rw [e] at this
  simp at this
  omega

theorem startOfNextLine_spec (va : Text) (p : Nat) (hp : p < va.length) :
    (∃ s, startOfNextLine va p = .ok (some s) ∧ NextLine va p s ∧ s < va.length ∧ p < s) ∨
    (startOfNextLine va p = .ok none ∧ ∀ s, NextLine va p s → s = va.length) := by
  obtain ⟨s, e, a, b, c⟩ := nextLineLoop_spec va (va.length + 1) p hp (by omega)
  simp only [startOfNextLine, e, bind, Except.bind]
  by_cases h : s = va.length
  · right
    refine ⟨by rw [if_pos h], ?_⟩
    intro s' hs'
    rcases c with c | ⟨_, c2⟩
    · rw [← nextLine_unique c hs', h]
    · obtain ⟨l, r, h1, _⟩ := hs'
      rw [h1] at c2
      simp at c2
  · left
    rcases c with c | ⟨c1, _⟩
    · exact ⟨s, by rw [if_neg h], c, by omega, a⟩
    · exact absurd c1 h

theorem messagesLoop_spec (isFrom : Text → Bool) (va : Text) (hm : isMmdf va = false) : ∀ (fuel p base : Nat),
    First (FromLine isFrom va base) base p → va.length - p < fuel →
    ∃ l, messagesLoop isFrom va fuel (some p) = .ok l ∧ Splits isFrom va base l := by
  intro fuel
  induction fuel with
  | zero => intro p base _ h; omega
  | succ fuel ih =>
    intro p base hF hf
    have hpl := fromLine_lt hF.2.1
    simp only [messagesLoop, messageStart, hm, findNextSeparator, sepWidth, bind, Except.bind, Bool.false_eq_true, if_false]
    rcases startOfNextLine_spec va p (by omega) with ⟨s, e, hs, hsl, hps⟩ | ⟨e, hs⟩
    · rw [e]
      simp only
      rcases findNextFrom_spec isFrom va s with ⟨q, e', hq⟩ | ⟨e', hq⟩
      · rw [e']
        simp only [Nat.add_zero]
        have hF' : First (FromLine isFrom va q) q q := by
          refine ⟨Nat.le_refl _, ?_, fun x h1 h2 => by omega⟩
          exact ⟨.inl rfl, hq.2.1.2⟩
        obtain ⟨l, e2, hl⟩ := ih q q hF' (by have := hq.1; omega)
        rw [e2]
        exact ⟨_, rfl, .more hF hs hsl hq hl⟩
      · rw [e']
        simp only
        cases fuel with
        | zero => omega
        | succ fuel =>
          simp only [messagesLoop]
          exact ⟨_, rfl, .last hF hs hsl hq⟩
    · rw [e]
      exact ⟨[], rfl, .bare hF hs⟩

/-! ## MMDF -/

/-- A newline (or the beginning) and `k` control-As end at `n`. -/
def MmAt (va : Text) (base : Nat) : Nat → Nat → Prop
  | 0, n => LineStart va base n
  | k + 1, n => base < n ∧ MmAt va base k (n - 1) ∧ va[n - 1]? = some 1

theorem mmAt_unique {va : Text} {base : Nat} : ∀ {k j n : Nat}, MmAt va base k n → MmAt va base j n → k = j := by
  have key : ∀ {k n : Nat}, MmAt va base 0 n → ¬ MmAt va base (k + 1) n := by
    rintro k n h ⟨h1, _, h2⟩
    rcases h with h | ⟨_, h⟩
    · omega
    · rw [h2] at h; cases h
  intro k
  induction k with
  | zero =>
    intro j n h1 h2
    cases j with
    | zero => rfl
    | succ j => exact absurd h2 (key h1)
  | succ k ih =>
    intro j n h1 h2
    cases j with
    | zero => exact absurd h1 (key h2)
    | succ j => rw [ih h1.2.1 h2.2.1]

/-- What the state means before position `n`. -/
def StOk (va : Text) (base n st : Nat) : Prop := st ≤ 5 ∧ ∀ k, k ≤ 4 → (st = k + 1 ↔ MmAt va base k n)

theorem stOk_start (va : Text) (base : Nat) : StOk va base base (mmdftab 0x0a &&& 15) := by
  have : mmdftab 0x0a &&& 15 = 1 := by decide
  rw [this]
  refine ⟨by omega, fun k hk => ?_⟩
  cases k with
  | zero => simp [MmAt, LineStart]
  | succ k => simp [MmAt]

theorem mm_newline : ∀ st, st ≤ 5 → (mmdftab 0x0a >>> (st * 4)) &&& 15 = if st = 5 then 15 else 1 := by
  intro st h
  have : st = 0 ∨ st = 1 ∨ st = 2 ∨ st = 3 ∨ st = 4 ∨ st = 5 := by omega
  rcases this with rfl | rfl | rfl | rfl | rfl | rfl <;> decide

theorem mm_one : ∀ st, st ≤ 5 → (mmdftab 1 >>> (st * 4)) &&& 15 = if 1 ≤ st ∧ st ≤ 4 then st + 1 else 0 := by
  intro st h
  have : st = 0 ∨ st = 1 ∨ st = 2 ∨ st = 3 ∨ st = 4 ∨ st = 5 := by omega
  rcases this with rfl | rfl | rfl | rfl | rfl | rfl <;> decide

theorem mm_other (c : UInt8) (st : Nat) (h1 : c ≠ 0x0a) (h2 : c ≠ 1) : (mmdftab c >>> (st * 4)) &&& 15 = 0 := by
  simp [mmdftab, h1, h2]

theorem stOk_step {va : Text} {base n st : Nat} {c : UInt8} (h : StOk va base n st) (hb : base ≤ n)
    (hc : va[n]? = some c) (hno : ¬ (c = 0x0a ∧ st = 5)) :
    StOk va base (n + 1) ((mmdftab c >>> (st * 4)) &&& 15) ∧ (mmdftab c >>> (st * 4)) &&& 15 ≠ 15 := by
  obtain ⟨h5, hk⟩ := h
  have hz : MmAt va base 0 (n + 1) ↔ c = 0x0a := by
    simp only [MmAt, LineStart, Nat.add_sub_cancel, hc, Option.some.injEq]
    constructor
    · rintro (h | h)
      · omega
      · exact h.2
    · intro h; exact .inr ⟨by omega, h⟩
  have hs : ∀ k, MmAt va base (k + 1) (n + 1) ↔ MmAt va base k n ∧ c = 1 := by
    intro k
    simp only [MmAt, Nat.add_sub_cancel, hc, Option.some.injEq]
    constructor
    · rintro ⟨_, a, b⟩; exact ⟨a, b⟩
    · rintro ⟨a, b⟩; exact ⟨by omega, a, b⟩
  by_cases h1 : c = 0x0a
  · subst h1
    have hst : st ≠ 5 := fun h => hno ⟨rfl, h⟩
    rw [mm_newline st h5, if_neg hst]
    refine ⟨⟨by omega, fun k hk => ?_⟩, by omega⟩
    cases k with
    | zero => simp [hz]
    | succ k => rw [hs]; simp
  · by_cases h2 : c = 1
    · subst h2
      rw [mm_one st h5]
      refine ⟨⟨by split <;> omega, fun k hk' => ?_⟩, by split <;> omega⟩
      cases k with
      | zero => rw [hz]; split <;> simp; omega
      | succ k =>
        rw [hs, ← hk k (by omega)]
        split <;> simp <;> omega
    · rw [mm_other c st h1 h2]
      refine ⟨⟨by omega, fun k hk' => ?_⟩, by omega⟩
      cases k with
      | zero => rw [hz]; simp [h1]
      | succ k => rw [hs]; simp [h2]

theorem drop_five {va : Text} {p : Nat} : (∃ rest, va.drop p = [1, 1, 1, 1, 0x0a] ++ rest) ↔
    va[p]? = some 1 ∧ va[p + 1]? = some 1 ∧ va[p + 2]? = some 1 ∧ va[p + 3]? = some 1 ∧ va[p + 4]? = some 0x0a := by
  have g : ∀ j, va[p + j]? = (va.drop p)[j]? := fun j => by rw [List.getElem?_drop]
  have g0 := g 0
  rw [Nat.add_zero] at g0
  rw [g0, g 1, g 2, g 3, g 4]
  generalize va.drop p = l
  constructor
  · rintro ⟨rest, rfl⟩; simp
  · rintro ⟨g0, g1, g2, g3, g4⟩
    match l, g0, g1, g2, g3, g4 with
    | a :: b :: c :: d :: e :: rest, g0, g1, g2, g3, g4 =>
      simp at g0 g1 g2 g3 g4
      exact ⟨rest, by simp [g0, g1, g2, g3, g4]⟩
    | [], g0, _, _, _, _ => simp at g0
    | [_], _, g1, _, _, _ => simp at g1
    | [_, _], _, _, g2, _, _ => simp at g2
    | [_, _, _], _, _, _, g3, _ => simp at g3
    | [_, _, _, _], _, _, _, _, g4 => simp at g4

theorem mmdfLine_iff {va : Text} {base n : Nat} (hb : base ≤ n) : (MmAt va base 4 n ∧ va[n]? = some 0x0a) ↔
    ∃ p, n = p + 4 ∧ base ≤ p ∧ MmdfLine va base p := by
  constructor
  · rintro ⟨⟨b4, ⟨b3, ⟨b2, ⟨b1, h0, h1⟩, h2⟩, h3⟩, h4⟩, h5⟩
    refine ⟨n - 4, by omega, by omega, ?_, drop_five.2 ⟨?_, ?_, ?_, ?_, ?_⟩⟩
    · have : n - 1 - 1 - 1 - 1 = n - 4 := by omega
      rwa [this] at h0
    · rw [show n - 4 = n - 1 - 1 - 1 - 1 by omega]; exact h1
    · rw [show n - 4 + 1 = n - 1 - 1 - 1 by omega]; exact h2
    · rw [show n - 4 + 2 = n - 1 - 1 by omega]; exact h3
    · rw [show n - 4 + 3 = n - 1 by omega]; exact h4
    · rw [show n - 4 + 4 = n by omega]; exact h5
  · rintro ⟨p, rfl, hp, hl, hr⟩
    obtain ⟨g0, g1, g2, g3, g4⟩ := drop_five.1 hr
    refine ⟨⟨by omega, ⟨by omega, ⟨by omega, ⟨by omega, ?_, ?_⟩, ?_⟩, ?_⟩, ?_⟩, g4⟩
    · rw [show p + 4 - 1 - 1 - 1 - 1 = p by omega]; exact hl
    · rw [show p + 4 - 1 - 1 - 1 - 1 = p by omega]; exact g0
    · rw [show p + 4 - 1 - 1 - 1 = p + 1 by omega]; exact g1
    · rw [show p + 4 - 1 - 1 = p + 2 by omega]; exact g2
    · rw [show p + 4 - 1 = p + 3 by omega]; exact g3

theorem findMmdfLoop_spec (va : Text) (base : Nat) : ∀ (fuel n st : Nat),
    base ≤ n → va.length - n < fuel → StOk va base n st →
    (∀ p, base ≤ p → p + 4 < n → ¬ MmdfLine va base p) →
    (∃ p, findMmdfLoop va fuel n st = .ok (some p) ∧ First (MmdfLine va base) base p) ∨
    (findMmdfLoop va fuel n st = .ok none ∧ ∀ p, base ≤ p → ¬ MmdfLine va base p) := by
  intro fuel
  induction fuel with
  | zero => intro n st _ h; omega
  | succ fuel ih =>
    intro n st hb hf hst hno
    by_cases hn : n < va.length
    · obtain ⟨c, hc⟩ : ∃ c, va[n]? = some c := ⟨va[n], by simp [hn]⟩
      by_cases hend : c = 0x0a ∧ st = 5
      · obtain ⟨rfl, rfl⟩ := hend
        obtain ⟨p, rfl, hp, hm⟩ := (mmdfLine_iff hb).1 ⟨(hst.2 4 (by omega)).1 rfl, hc⟩
        left
        refine ⟨p, ?_, hp, hm, fun q h1 h2 => hno q h1 (by omega)⟩
        simp only [findMmdfLoop, hn, if_true, charAt, hc, bind, Except.bind]
        rw [if_pos (by decide), if_neg (by omega)]
        simp
      · obtain ⟨h1, h2⟩ := stOk_step hst hb hc hend
        have : findMmdfLoop va (fuel + 1) n st = findMmdfLoop va fuel (n + 1) ((mmdftab c >>> (st * 4)) &&& 15) := by
          conv => lhs; unfold findMmdfLoop
          simp only [hn, if_true, charAt, hc, bind, Except.bind]
          rw [if_neg h2]
        rw [this]
        refine ih (n + 1) _ (by omega) (by omega) h1 ?_
        intro p hp hpn hm
        by_cases h : p + 4 < n
        · exact hno p hp h hm
        · have : n = p + 4 := by omega
          obtain ⟨a, b⟩ := (mmdfLine_iff hb).2 ⟨p, this, hp, hm⟩
          rw [hc] at b
          cases b
          exact hend ⟨rfl, (hst.2 4 (by omega)).2 a⟩
    · right
      refine ⟨by simp [findMmdfLoop, hn], ?_⟩
      intro p hp hm
      obtain ⟨_, _, _, _, h4⟩ := drop_five.1 hm.2
      have : p + 4 < va.length := (List.getElem?_eq_some_iff.1 h4).1
      exact hno p hp (by omega) hm

theorem findNextMmdfsep_spec (va : Text) (base : Nat) :
    (∃ p, findNextMmdfsep va base = .ok (some p) ∧ First (MmdfLine va base) base p) ∨
    (findNextMmdfsep va base = .ok none ∧ ∀ p, base ≤ p → ¬ MmdfLine va base p) :=
  findMmdfLoop_spec va base _ base _ (Nat.le_refl _) (by omega) (stOk_start va base)
    (fun p _ h => by omega)

theorem skipMmdfsep_spec (va : Text) (n : Nat) :
    (skipMmdfsep va n = .ok (some (n + 5)) ∧ MmdfLine va n n ∧ n + 5 ≤ va.length) ∨
    (skipMmdfsep va n = .ok none ∧ ¬ MmdfLine va n n) := by
  unfold skipMmdfsep
  have key : (n + 5 ≤ va.length ∧ (va.drop n).take 5 = mmdfSep) ↔ MmdfLine va n n := by
    constructor
    · rintro ⟨_, h⟩
      refine ⟨.inl rfl, (va.drop n).drop 5, ?_⟩
      have := List.take_append_drop 5 (va.drop n)
      rw [h] at this
      exact this.symm
    · rintro ⟨_, rest, h⟩
      have := congrArg List.length h
      simp at this
      refine ⟨by omega, ?_⟩
      rw [h]
      rfl
  by_cases h : n + 5 ≤ va.length ∧ (va.drop n).take 5 = mmdfSep
  · left; rw [if_pos h]; exact ⟨rfl, key.1 h, h.1⟩
  · right; rw [if_neg h]; exact ⟨rfl, fun h' => h (key.2 h')⟩

theorem mmdfLoop_spec (isFrom : Text → Bool) (va : Text) (hm : isMmdf va = true) : ∀ (fuel base : Nat),
    va.length - base < fuel → ∃ l, messagesLoop isFrom va (fuel + 1) (some base) = .ok l ∧ MmdfSplits va base l := by
  have h4 : ¬ MmdfLine va 4 4 := by
    rintro ⟨_, h⟩
    obtain ⟨h1, _⟩ := drop_five.1 h
    simp only [isMmdf, Bool.and_eq_true, beq_iff_eq] at hm
    have := hm.2
    have h2 : va[4]? = (va.take 5)[4]? := by rw [List.getElem?_take_of_lt (by omega)]
    rw [this, h1] at h2
    simp [mmdfSep] at h2
  intro fuel
  induction fuel with
  | zero => intro base h; omega
  | succ fuel ih =>
    intro base hf
    rw [messagesLoop]
    simp only [messageStart, hm, findNextSeparator, sepWidth, bind, Except.bind, if_true]
    rcases skipMmdfsep_spec va base with ⟨e, h1, h2⟩ | ⟨e, h1⟩
    · rw [e]
      simp only
      rcases findNextMmdfsep_spec va (base + 5) with ⟨q, e', hq⟩ | ⟨e', hq⟩
      · rw [e']
        simp only
        obtain ⟨l, e2, hl⟩ := ih (q + 5) (by have := hq.1; omega)
        rw [e2]
        exact ⟨_, rfl, .more h1 hq hl⟩
      · rw [e']
        simp only
        rw [messagesLoop]
        simp only [messageStart, hm, bind, Except.bind, if_true]
        rcases skipMmdfsep_spec va 4 with ⟨_, h, _⟩ | ⟨e4, _⟩
        · exact absurd h h4
        · rw [e4]
          exact ⟨_, rfl, .last h1 hq⟩
    · rw [e]
      exact ⟨[], rfl, .none h1⟩

end Mairix
