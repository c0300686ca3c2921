import Verif.Proofs.NvpDone

/-!
# The scanner of headers with parameters does not go wrong
-/

namespace Mairix
open Spec

/-- The states outside of components. -/
def nvpDead (s : List NvpState) : Bool := s = nvpIn || s = nvpSet [.main, .last] || s = nvpSet [.in2, .last] || s = nvpSet [.out2]

/-- The states with a value. -/
def nvpValued (s : List NvpState) : Bool := ([.normal, .cont, .charset, .charsetCont] : List NvpKind).any fun k => s = nvpSet [.v1 k] || s = nvpSet [.vOws k]

def NvpAction.isValue : NvpAction → Bool
  | .nameValue | .nameValueCont | .nameValueCset | .nameValueCcont => true
  | _ => false

theorem nvp_step_facts : ∀ s ∈ nvpSets, ∀ t ∈ nvpToks, nvpNext s t = [] ∨
    (nvpDead s = true → nvpDead (nvpNext s t) = false → nvpCopierOf (nvpNext s t) = .name ∧ t.name1 = true ∧ nvpCopierOf s = .nowhere) ∧
    (nvpDead s = false → nvpCopierOf (nvpNext s t) = .name → nvpCopierOf s = .name) ∧
    (nvpDead (nvpNext s t) = true → nvpCopierOf (nvpNext s t) = .nowhere ∧ (nvpActionOf (nvpNext s t) = .terminator ∨ nvpActionOf (nvpNext s t) = .nothing ∧ nvpDead s = true) ∧ nvpValued (nvpNext s t) = false) ∧
    (nvpValued (nvpNext s t) = true → nvpCopierOf (nvpNext s t) = .value ∨ nvpCopierOf (nvpNext s t) = .nowhere ∧ (nvpCopierOf s = .value ∨ nvpValued s = true ∧ nvpCopierOf s = .nowhere)) := by
  decide +kernel

theorem nvp_step_facts' : ∀ s ∈ nvpSets, ∀ t ∈ nvpToks, nvpNext s t = [] ∨
    (nvpDead (nvpNext s t) = false → nvpActionOf (nvpNext s t) ≠ .terminator ∧ (t ≠ .eos → (nvpActionOf (nvpNext s t)).isValue = true → nvpValued (nvpNext s t) = true) ∧ (nvpValued s = true → nvpValued (nvpNext s t) = true)) := by
  decide +kernel

theorem name1_nonspace : ∀ c : UInt8, (nvpTok c).name1 = true → isSpace c = false := forall_byte (by decide +kernel)

/-- The invariant of the loop. -/
structure NvpInv (r : NvpRun) : Prop where
  state : r.state ∈ nvpSets
  copier : r.lastCopier = nvpCopierOf r.state
  name : nvpDead r.state = false → ∃ n, r.flush.name = some n ∧ n.all isSpace = false
  dead : nvpDead r.state = true → r.lastAction = .nothing
  valued : r.lastAction.isValue = true → nvpValued r.state = true
  value : nvpValued r.state = true → ∃ v, r.flush.value = some v

theorem combine_ok (n v : Text) (l : Nvp) : ∃ l', nvpCombine (some n) (some v) l = .ok l' := by
  induction l with
  | nil => exact ⟨_, rfl⟩
  | cons e l ih =>
    obtain ⟨l', h⟩ := ih
    cases e with
    | nameValue a b =>
      simp only [nvpCombine, h, bind, Except.bind]
      split <;> exact ⟨_, rfl⟩
    | name a => simp only [nvpCombine, h, bind, Except.bind]; exact ⟨_, rfl⟩
    | majorMinor a b => simp only [nvpCombine, h, bind, Except.bind]; exact ⟨_, rfl⟩

theorem terminate_ok {r : NvpRun} (h1 : r.lastAction = .nothing ∨ (∃ n, r.name = some n ∧ n.all isSpace = false)) (h2 : r.lastAction.isValue = true → ∃ v, r.value = some v) :
    r.terminate = .ok none ∨ ∃ r', r.terminate = .ok (some r') ∧ r'.state = r.state ∧ r'.lastCopier = r.lastCopier := by
  have tk : ∀ (r : NvpRun) (l : Nvp), (r.took l).state = r.state ∧ (r.took l).lastCopier = r.lastCopier := by
    intro r l
    unfold NvpRun.took
    split <;> simp
  obtain ⟨s, a, k, cop, nm, mi, va, res⟩ := r
  simp only at h1 h2 ⊢
  rcases h1 with rfl | ⟨n, rfl, hn⟩
  · exact .inr ⟨_, rfl, rfl, rfl⟩
  · cases a with
    | nothing => exact .inr ⟨_, rfl, rfl, rfl⟩
    | terminator => exact .inr ⟨_, rfl, rfl, rfl⟩
    | name => exact .inr ⟨_, rfl, rfl, rfl⟩
    | nameSpace =>
      simp only [NvpRun.terminate, nvpTrim, hn, Bool.false_eq_true, if_false, bind, Except.bind]
      exact .inr ⟨_, rfl, rfl, rfl⟩
    | majorMinor => exact .inr ⟨_, rfl, rfl, rfl⟩
    | nameValue => exact .inr ⟨_, rfl, rfl, rfl⟩
    | nameValueCont =>
      obtain ⟨v, rfl⟩ := h2 rfl
      obtain ⟨l', hl⟩ := combine_ok n v res
      simp only [NvpRun.terminate, hl, bind, Except.bind]
      exact .inr ⟨_, rfl, (tk _ _).1, (tk _ _).2⟩
    | nameValueCset =>
      obtain ⟨v, rfl⟩ := h2 rfl
      cases hp : nvpPercent v with
      | none => exact .inl (by simp only [NvpRun.terminate, hp])
      | some d =>
        obtain ⟨l', hl⟩ := combine_ok n (d.takeWhile (· != 0)) res
        simp only [NvpRun.terminate, hp, hl, bind, Except.bind]
        exact .inr ⟨_, rfl, (tk _ _).1, (tk _ _).2⟩
    | nameValueCcont =>
      obtain ⟨v, rfl⟩ := h2 rfl
      cases hp : nvpPercent v with
      | none => exact .inl (by simp only [NvpRun.terminate, hp])
      | some d =>
        obtain ⟨l', hl⟩ := combine_ok n (d.takeWhile (· != 0)) res
        simp only [NvpRun.terminate, hp, hl, bind, Except.bind]
        exact .inr ⟨_, rfl, (tk _ _).1, (tk _ _).2⟩

/-- The strings after `copy`. -/
theorem copy_flush (r : NvpRun) (s : List NvpState) : NvpRun.copy { r with state := s } = if nvpCopierOf s = r.lastCopier then { r with state := s } else { r.flush with state := s, lastCopier := nvpCopierOf s, copied := [] } := by
  unfold NvpRun.copy NvpRun.flush
  simp only
  by_cases h : nvpCopierOf s = r.lastCopier
  · simp [h]
  · simp only [ne_eq, h, not_false_eq_true, if_true, if_false]
    cases hl : r.lastCopier <;> simp

theorem tok_not_eos : ∀ c : UInt8, nvpTok c ≠ .eos := forall_byte (by decide +kernel)

/-- The strings after a character has been copied. -/
theorem flush_grow {r : NvpRun} (h : r.lastCopier ≠ .nowhere) (c : UInt8) :
    NvpRun.flush { r with copied := r.copied ++ [c] } = (match r.lastCopier with
      | .nowhere => r
      | .name => { r with name := some (r.copied ++ [c]), lastCopier := .nowhere, copied := [] }
      | .minor => { r with minor := some (r.copied ++ [c]), lastCopier := .nowhere, copied := [] }
      | .value => { r with value := some (r.copied ++ [c]), lastCopier := .nowhere, copied := [] }) := by
  unfold NvpRun.flush
  cases hl : r.lastCopier <;> simp_all

theorem step_term_none {r : NvpRun} {c : UInt8} {s : List NvpState} (h : nvpNext r.state (nvpTok c) = s) (hne : s ≠ []) (hk : nvpCopierOf s = .nowhere) (ha : nvpActionOf s = .terminator)
    (ht : NvpRun.terminate { r.flush with state := s } = .ok none) : r.step (some c) = .ok none := by
  have he : NvpRun.copy { r with state := s } = { r.flush with state := s } := by
    simp only [NvpRun.copy, hk, NvpRun.flush]
    cases hl : r.lastCopier <;> simp [hl, hk]
  simp only [NvpRun.step, h, if_neg hne, he, ha, ht, bind, Except.bind, Except.map, Option.map]

theorem step_end_none {r : NvpRun} {s : List NvpState} (h : nvpNext r.state .eos = s) (hne : s ≠ []) (hk : nvpCopierOf s = .nowhere) (ha : nvpActionOf s = .terminator)
    (ht : NvpRun.terminate { r.flush with state := s } = .ok none) : r.step none = .ok none := by
  have he : NvpRun.copy { r with state := s } = { r.flush with state := s } := by
    simp only [NvpRun.copy, hk, NvpRun.flush]
    cases hl : r.lastCopier <;> simp [hl, hk]
  simp only [NvpRun.step, h, if_neg hne, he, ha, ht, bind, Except.bind, Except.map, Option.map]

theorem inv_terminate {r : NvpRun} (h : NvpInv r) (s : List NvpState) : NvpRun.terminate { r.flush with state := s } = .ok none ∨
    ∃ r', NvpRun.terminate { r.flush with state := s } = .ok (some r') ∧ r'.state = s ∧ r'.lastCopier = .nowhere := by
  obtain ⟨st, a, k, cop, nm, mi, va, res⟩ := r
  obtain ⟨i1, i2, i3, i4, i5, i6⟩ := h
  simp only at *
  have := @terminate_ok { (NvpRun.flush ⟨st, a, k, cop, nm, mi, va, res⟩) with state := s } (by
    cases hds : nvpDead st with
    | true => left; simp [i4 hds]; unfold NvpRun.flush; cases k <;> rfl
    | false => right; exact i3 hds) (by
    intro hv
    apply i6
    apply i5
    rw [← hv]
    unfold NvpRun.flush; cases k <;> rfl)
  rcases this with h | ⟨r', h1, h2, h3⟩
  · exact .inl h
  · refine .inr ⟨r', h1, h2, ?_⟩
    rw [h3]
    unfold NvpRun.flush; cases k <;> rfl

/-- A step with a character keeps the invariant, or the header cannot be parsed. -/
theorem step_inv {r : NvpRun} (h : NvpInv r) (c : UInt8) : r.step (some c) = .ok none ∨ ∃ r', r.step (some c) = .ok (some r') ∧ NvpInv r' := by
  have hc := nvpSets_closed _ h.state _ (mem_nvpToks (nvpTok c))
  have hf := nvp_step_facts _ h.state _ (mem_nvpToks (nvpTok c))
  have hf' := nvp_step_facts' _ h.state _ (mem_nvpToks (nvpTok c))
  have hne := tok_not_eos c
  have hsp := name1_nonspace c
  have hit := inv_terminate h
  generalize ht : nvpTok c = t at hc hf hf' hne hsp
  by_cases hn : nvpNext r.state t = []
  · left; simp [NvpRun.step, ht, hn]
  replace hc := hc.resolve_left hn
  obtain ⟨f1, f2, f3, f4⟩ := hf.resolve_left hn
  have f5 := hf'.resolve_left hn
  have hx : nvpNext r.state (nvpTok c) = nvpNext r.state t := by rw [ht]
  generalize nvpNext r.state t = s at *
  cases hd : nvpDead s with
  | true =>
    obtain ⟨g1, g2, g3⟩ := f3 hd
    rcases g2 with g2 | ⟨g2, g4⟩
    · rcases hit s with h1 | ⟨r', h1, h2, h3⟩
      · exact .inl (step_term_none hx hn g1 g2 h1)
      · obtain ⟨cop, h4⟩ := step_term (c := some c) hx hn g1 g2 h1
        refine .inr ⟨_, h4, ⟨by simpa [h2] using hc, by simp [h2, h3, g1], by simp [h2, hd], by simp, by simp [NvpAction.isValue], by simp [h2, g3]⟩⟩
    · have ha := h.dead g4
      by_cases hk : nvpCopierOf s = r.lastCopier
      · refine .inr ⟨_, step_same hx hn hk (by rw [g2]; decide), ⟨hc, hk.symm, by simp [hd], by simp [g2, ha], by simp [g2, ha, NvpAction.isValue], by simp [g3]⟩⟩
      · refine .inr ⟨_, step_change hx hn hk (by rw [g2]; decide), ⟨hc, rfl, by simp [hd], by simp [g2, ha], by simp [g2, ha, NvpAction.isValue], by simp [g3]⟩⟩
  | false =>
    obtain ⟨g1, g2, g3⟩ := f5 hd
    have g2 := g2 hne
    obtain ⟨st, a, k, cop, nm, mi, va, res⟩ := r
    obtain ⟨i1, i2, i3, i4, i5, i6⟩ := h
    simp only at i1 i2 i3 i4 i5 i6 hx f1 f2 f3 f4 g3
    have hact : (if nvpActionOf s = .nothing then a else nvpActionOf s).isValue = true → nvpValued s = true := by
      intro hv
      split at hv
      · exact g3 (i5 hv)
      · exact g2 hv
    have hname : nvpCopierOf s = .name → k = .name ∨ k = .nowhere ∧ isSpace c = false := by
      intro he
      cases hds : nvpDead st with
      | true => exact .inr ⟨by rw [i2]; exact (f1 hds hd).2.2, hsp (f1 hds hd).2.1⟩
      | false => exact .inl (by rw [i2]; exact f2 hds he)
    have hlive : nvpCopierOf s ≠ .name → ∃ n, (NvpRun.flush ⟨st, a, k, cop, nm, mi, va, res⟩).name = some n ∧ n.all isSpace = false := by
      intro he
      cases hds : nvpDead st with
      | true => exact absurd (f1 hds hd).1 he
      | false => exact i3 hds
    have hnm : k = .name → ∃ n, (NvpRun.flush ⟨st, a, k, cop, nm, mi, va, res⟩).name = some n ∧ n.all isSpace = false := by
      intro he
      cases hds : nvpDead st with
      | true => rw [i2, (f1 hds hd).2.2] at he; simp at he
      | false => exact i3 hds
    by_cases hk : nvpCopierOf s = k
    · refine .inr ⟨_, step_same hx hn hk g1, ⟨hc, hk.symm, ?_, by simp [hd], hact, ?_⟩⟩
      · intro _
        cases k with
        | name => obtain ⟨n, h1, h2⟩ := hnm rfl; simp only [NvpRun.flush, Option.some.injEq] at h1 ⊢; subst h1; exact ⟨_, rfl, by simp [List.all_append, h2]⟩
        | nowhere => simpa [NvpRun.flush] using hlive (by rw [hk]; simp)
        | minor => simpa [NvpRun.flush] using hlive (by rw [hk]; simp)
        | value => simpa [NvpRun.flush] using hlive (by rw [hk]; simp)
      · intro hv
        simp only at hv
        rcases f4 hv with h | ⟨h, h' | ⟨h', _⟩⟩
        · rw [h] at hk; subst hk; exact ⟨_, rfl⟩
        · rw [← i2, ← hk, h] at h'; simp at h'
        · obtain ⟨v, hv⟩ := i6 h'
          rw [h] at hk; subst hk; exact ⟨v, hv⟩
    · refine .inr ⟨_, step_change hx hn hk g1, ⟨hc, rfl, ?_, by simp [hd], hact, ?_⟩⟩
      · intro _
        cases hcs : nvpCopierOf s with
        | name =>
          rcases hname hcs with h | ⟨_, h⟩
          · rw [hcs, h] at hk; simp at hk
          · exact ⟨[c], by simp [NvpRun.flush], by simp [h]⟩
        | nowhere => simpa [NvpRun.flush] using hlive (by rw [hcs]; simp)
        | minor => simpa [NvpRun.flush] using hlive (by rw [hcs]; simp)
        | value => simpa [NvpRun.flush] using hlive (by rw [hcs]; simp)
      · intro hv
        simp only at hv
        rcases f4 hv with h | ⟨h, h' | ⟨_, h'⟩⟩
        · rw [h]; exact ⟨[c], rfl⟩
        · rw [← i2] at h'; subst h'; rw [h]; exact ⟨cop, rfl⟩
        · rw [← i2] at h'; rw [h, h'] at hk; simp at hk

/-- Reading never goes wrong. -/
theorem loop_ok (t : Text) : ∀ {r : NvpRun}, NvpInv r → ∃ o, r.loop t = .ok o := by
  induction t with
  | nil =>
    intro r h
    have hx : ∃ o, r.step none = .ok o := by
      have hc := nvpSets_closed _ h.state _ (mem_nvpToks .eos)
      have hf := nvp_step_facts _ h.state _ (mem_nvpToks .eos)
      have hf' := nvp_step_facts' _ h.state _ (mem_nvpToks .eos)
      by_cases hn : nvpNext r.state .eos = []
      · exact ⟨none, by simp [NvpRun.step, hn]⟩
      obtain ⟨_, _, f3, _⟩ := hf.resolve_left hn
      have f5 := hf'.resolve_left hn
      cases ha : nvpActionOf (nvpNext r.state .eos) with
      | terminator =>
        cases hd : nvpDead (nvpNext r.state .eos) with
        | false => exact absurd ha (f5 hd).1
        | true =>
          obtain ⟨g1, _, _⟩ := f3 hd
          rcases inv_terminate h (nvpNext r.state .eos) with h1 | ⟨r', h1, _⟩
          · exact ⟨_, step_end_none rfl hn g1 ha h1⟩
          · obtain ⟨_, h4⟩ := step_term (c := none) rfl hn g1 ha h1
            exact ⟨_, h4⟩
      | _ => simp only [NvpRun.step, if_neg hn, ha, bind, Except.bind]; exact ⟨_, rfl⟩
    obtain ⟨o, hx⟩ := hx
    simp only [NvpRun.loop, hx, bind, Except.bind]
    exact ⟨_, rfl⟩
  | cons c t ih =>
    intro r h
    simp only [NvpRun.loop, bind, Except.bind]
    rcases step_inv h c with h1 | ⟨r', h1, h2⟩
    · rw [h1]; exact ⟨_, rfl⟩
    · rw [h1]; exact ih h2

theorem start_inv : NvpInv NvpRun.start := by
  have h1 : nvpDead NvpRun.start.state = true ∧ nvpValued NvpRun.start.state = false := by decide +kernel
  exact ⟨by decide +kernel, by decide +kernel, by simp [h1.1], fun _ => rfl, by simp [NvpRun.start, NvpAction.isValue], by simp [h1.2]⟩

end Mairix
