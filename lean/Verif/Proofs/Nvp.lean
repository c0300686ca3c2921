import Verif.Spec.Nvp
import Verif.Proofs.Bytes
import Verif.Props.Decode

/-!
# Lemmas about the scanner of nvp.nfa
-/

namespace Mairix
open Spec

def nvpToks : List NvpTok := [.eos, .ws, .cr, .dq, .bsl, .semi, .eq, .star, .slash, .sq, .zero, .digit, .letter, .dash, .dot, .other, .bad]

theorem mem_nvpToks (t : NvpTok) : t ∈ nvpToks := by cases t <;> decide

/-- What the states of the generated scanner are the closures of. -/
def nvpKernels : List (List NvpState) :=
  [[.main], [.main, .last], [.in2, .last], [.name1, .cname1, .major], [.name1, .cname1], [.name2, .cname2], [.eqN, .compOut], [.star], [.eqS], [.eqSC], [.star0, .digIn, .digOut], [.star1, .digIn, .digOut], [.star1],
    [.digIn, .digOut], [.digOut], [.cs], [.sq1], [.vIn], [.bar], [.minor], [.compOut], [.out2], [.vOut .normal]] ++
  ([.normal, .cont, .charset, .charsetCont] : List NvpKind).flatMap (fun k => [[.rhs k], [.v1 k], [.vOws k]]) ++
  ([.normal, .cont] : List NvpKind).flatMap (fun k => [[.qv0 k], [.esc0 k], [.qv1 k], [.esc1 k]])

/-- The states of the generated scanner. -/
def nvpSets : List (List NvpState) := nvpKernels.map nvpSet

theorem nvpSets_closed : ∀ s ∈ nvpSets, ∀ t ∈ nvpToks, nvpNext s t = [] ∨ nvpNext s t ∈ nvpSets := by decide +kernel

/-- `dfasyn` finds no contradictory tags. -/
theorem nvpSets_unambiguous : ∀ s ∈ nvpSets, ∀ x ∈ s, (x.action = .nothing ∨ x.action = nvpActionOf s) ∧ (x.copier = .nowhere ∨ x.copier = nvpCopierOf s) := by decide +kernel

/-! ## Steps -/

/-- What `copied` is stored to. -/
def NvpRun.flush (r : NvpRun) : NvpRun :=
  match r.lastCopier with
  | .nowhere => r
  | .name => { r with name := some r.copied, lastCopier := .nowhere, copied := [] }
  | .minor => { r with minor := some r.copied, lastCopier := .nowhere, copied := [] }
  | .value => { r with value := some r.copied, lastCopier := .nowhere, copied := [] }

/-- A step that goes on with copying. -/
theorem step_same {r : NvpRun} {c : UInt8} {s : List NvpState} (h : nvpNext r.state (nvpTok c) = s) (hne : s ≠ []) (hk : nvpCopierOf s = r.lastCopier) (hnt : nvpActionOf s ≠ .terminator) :
    r.step (some c) = .ok (some { r with state := s, lastAction := if nvpActionOf s = .nothing then r.lastAction else nvpActionOf s, copied := r.copied ++ [c] }) := by
  simp only [NvpRun.step, h, if_neg hne, NvpRun.copy, hk, ne_eq, not_true_eq_false, if_false, bind, Except.bind]
  cases ha : nvpActionOf s <;> simp_all

/-- A step that begins or ends copying. -/
theorem step_change {r : NvpRun} {c : UInt8} {s : List NvpState} (h : nvpNext r.state (nvpTok c) = s) (hne : s ≠ []) (hk : nvpCopierOf s ≠ r.lastCopier) (hnt : nvpActionOf s ≠ .terminator) :
    r.step (some c) = .ok (some { r.flush with state := s, lastAction := if nvpActionOf s = .nothing then r.lastAction else nvpActionOf s, lastCopier := nvpCopierOf s, copied := [c] }) := by
  simp only [NvpRun.step, h, if_neg hne, NvpRun.copy, hk, ne_eq, not_false_eq_true, if_true, bind, Except.bind, NvpRun.flush]
  cases ha : nvpActionOf s <;> cases hl : r.lastCopier <;> simp_all

/-- The loop without the end of the string. -/
def NvpRun.run (r : NvpRun) : Text → Res (Option NvpRun)
  | [] => .ok (some r)
  | c :: t => do
    match ← r.step (some c) with
    | none => .ok none
    | some r => r.run t

theorem run_append (r r' : NvpRun) (t u : Text) (h : r.run t = .ok (some r')) : r.run (t ++ u) = r'.run u := by
  induction t generalizing r with
  | nil => simp [NvpRun.run] at h; rw [h]; rfl
  | cons c t ih =>
    simp only [List.cons_append, NvpRun.run, bind, Except.bind] at h ⊢
    cases hs : r.step (some c) with
    | error e => rw [hs] at h; simp at h
    | ok o =>
      rw [hs] at h
      cases o with
      | none => simp at h
      | some r1 => simp only at h ⊢; exact ih r1 h

theorem run_loop (r r' : NvpRun) (t : Text) (h : r.run t = .ok (some r')) : ∀ u, r.loop (t ++ u) = r'.loop u := by
  induction t generalizing r with
  | nil => intro u; simp [NvpRun.run] at h; rw [h]; rfl
  | cons c t ih =>
    intro u
    simp only [List.cons_append, NvpRun.run, NvpRun.loop, bind, Except.bind] at h ⊢
    cases hs : r.step (some c) with
    | error e => rw [hs] at h; simp at h
    | ok o =>
      rw [hs] at h
      cases o with
      | none => simp at h
      | some r1 => simp only at h ⊢; exact ih r1 h u

/-! ## Characters -/

theorem tok_param {c : UInt8} (h : ParamChar c) : (nvpTok c).name1 = true := by
  have : ∀ c : UInt8, (isAlnum c = true ∨ c = 0x2d ∨ c = 0x5f) → (nvpTok c).name1 = true := forall_byte (by decide +kernel)
  exact this c h

theorem tok_subtype {c : UInt8} (h : SubtypeChar c) : (nvpTok c).minor = true := by
  have : ∀ c : UInt8, ((isAlnum c = true ∨ c = 0x2d ∨ c = 0x5f) ∨ c = 0x2e ∨ c = 0x2b) → (nvpTok c).minor = true := forall_byte (by decide +kernel)
  exact this c h

theorem tok_value {c : UInt8} (h : ValueChar c) : (nvpTok c).value = true := by
  have : ∀ c : UInt8, (0x21 ≤ c ∧ c ≤ 0x7e ∧ c ≠ 0x5c ∧ c ≠ 0x22 ∧ c ≠ 0x3b) → (nvpTok c).value = true := forall_byte (by decide +kernel)
  exact this c h

theorem tok_quoted {c : UInt8} (h : QuotedChar c) : (nvpTok c).qvalue = true := by
  have : ∀ c : UInt8, ((0x21 ≤ c ∧ c ≤ 0x7e ∧ c ≠ 0x5c ∧ c ≠ 0x22 ∧ c ≠ 0x3b) ∨ c = 0x20 ∨ c = 0x09 ∨ c = 0x3b) → (nvpTok c).qvalue = true := forall_byte (by decide +kernel)
  exact this c h

theorem tok_digit {c : UInt8} (h : isDigit c = true) : nvpTok c = .zero ∨ nvpTok c = .digit := by
  have : ∀ c : UInt8, isDigit c = true → nvpTok c = .zero ∨ nvpTok c = .digit := forall_byte (by decide +kernel)
  exact this c h

theorem tok_alnum {c : UInt8} (h : isAlnum c = true) (h0 : c ≠ 0x30) : nvpTok c = .digit ∨ nvpTok c = .letter := by
  have : ∀ c : UInt8, isAlnum c = true → c ≠ 0x30 → nvpTok c = .digit ∨ nvpTok c = .letter := forall_byte (by decide +kernel)
  exact this c h h0

theorem tok_white {c : UInt8} (h : c = 0x20 ∨ c = 0x09 ∨ c = 0x0d) : (nvpTok c).white = true := by
  rcases h with rfl | rfl | rfl <;> decide

theorem tok_blank {c : UInt8} (h : c = 0x20 ∨ c = 0x09) : nvpTok c = .ws := by
  rcases h with rfl | rfl <;> decide

end Mairix
