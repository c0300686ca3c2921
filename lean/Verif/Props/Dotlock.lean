import Verif.Spec.Dotlock

/-!
# Locking the database (C28)
-/

namespace Mairix
open Spec

/-- The temporary file has been opened. -/
def LockPc.opened : LockPc → Bool
  | .idle => false
  | .force => false
  | .create => false
  | .done => false
  | _ => true

/-- The lock is owned. -/
def LockPc.owns : LockPc → Bool
  | .tidy => true
  | .inside => true
  | _ => false

/-- The temporary file is there. -/
def LockPc.hasTmp : LockPc → Bool
  | .link => true
  | .stat => true
  | .read => true
  | .refuse => true
  | .tidy => true
  | _ => false

/-- The invariant about the files. -/
structure LockFiles (s : LockState) : Prop where
  inj : ∀ m n a, s.tmp m = some a → s.tmp n = some a → m = n
  tmpNew : ∀ m a, s.tmp m = some a → a < s.next
  lockNew : ∀ a, s.lock = some a → a < s.next
  inoNew : ∀ i, (s.proc i).pc.opened = true → (s.proc i).ino < s.next
  mine : ∀ i m, (s.proc i).pc.opened = true → s.tmp m = some (s.proc i).ino → m = (s.proc i).name
  inoInj : ∀ i j, i ≠ j → (s.proc i).pc.opened = true → (s.proc j).pc.opened = true → (s.proc i).ino ≠ (s.proc j).ino
  nameInj : ∀ i j, i ≠ j → (s.proc i).pc.live = true → (s.proc j).pc.live = true → (s.proc i).name ≠ (s.proc j).name
  hasTmp : ∀ i, (s.proc i).pc.hasTmp = true → s.tmp (s.proc i).name = some (s.proc i).ino

/-- The invariant about the lock: whoever owns it has linked it. -/
def LockOwned (s : LockState) : Prop := ∀ i, (s.proc i).pc.owns = true → s.lock = some (s.proc i).ino

theorem opened_live {pc : LockPc} (h : pc.opened = true) : pc.live = true := by cases pc <;> simp_all [LockPc.opened, LockPc.live]
theorem hasTmp_opened {pc : LockPc} (h : pc.hasTmp = true) : pc.opened = true := by cases pc <;> simp_all [LockPc.opened, LockPc.hasTmp]
theorem owns_opened {pc : LockPc} (h : pc.owns = true) : pc.opened = true := by cases pc <;> simp_all [LockPc.opened, LockPc.owns]

theorem at_proc (s : LockState) (i : Nat) (pc : LockPc) (k : Nat) : (s.at i pc).proc k = if k = i then { s.proc i with pc := pc } else s.proc k := rfl

/-- Moving on keeps the invariant about the files if nothing new is claimed. -/
theorem files_at {s : LockState} (h : LockFiles s) {i : Nat} {pc : LockPc} (ho : pc.opened = true → (s.proc i).pc.opened = true) (hl : pc.live = true → (s.proc i).pc.live = true)
    (ht : pc.hasTmp = true → (s.proc i).pc.hasTmp = true) : LockFiles (s.at i pc) := by
  constructor
  · exact h.inj
  · exact h.tmpNew
  · exact h.lockNew
  · intro k hk
    by_cases e : k = i
    · subst e; simp only [at_proc, if_pos] at hk ⊢; exact h.inoNew _ (ho hk)
    · simp only [at_proc, if_neg e] at hk ⊢; exact h.inoNew _ hk
  · intro k m hk hm
    by_cases e : k = i
    · subst e; simp only [at_proc, if_pos] at hk hm ⊢; exact h.mine _ m (ho hk) hm
    · simp only [at_proc, if_neg e] at hk hm ⊢; exact h.mine _ m hk hm
  · intro k l hkl hk hl'
    simp only [at_proc] at hk hl' ⊢
    have := h.inoInj k l hkl
    by_cases e : k = i <;> by_cases e' : l = i <;> simp_all
  · intro k l hkl hk hl'
    simp only [at_proc] at hk hl' ⊢
    have := h.nameInj k l hkl
    by_cases e : k = i <;> by_cases e' : l = i <;> simp_all
  · intro k hk
    by_cases e : k = i
    · subst e; simp only [at_proc, if_pos] at hk ⊢; exact h.hasTmp _ (ht hk)
    · simp only [at_proc, if_neg e] at hk ⊢; exact h.hasTmp _ hk

theorem files_unlock {s : LockState} (h : LockFiles s) : LockFiles s.unlock :=
  ⟨h.inj, h.tmpNew, by simp [LockState.unlock], h.inoNew, h.mine, h.inoInj, h.nameInj, h.hasTmp⟩

theorem files_lock {s : LockState} (h : LockFiles s) {a : Nat} (ha : a < s.next) : LockFiles { s with lock := some a } :=
  ⟨h.inj, h.tmpNew, by intro b hb; simp at hb; subst hb; exact ha, h.inoNew, h.mine, h.inoInj, h.nameInj, h.hasTmp⟩

/-- Removing the temporary file and moving on. -/
theorem files_untmp {s : LockState} (h : LockFiles s) {i : Nat} {pc : LockPc} (ho : pc.opened = true → (s.proc i).pc.opened = true) (hlive : (s.proc i).pc.live = true)
    (ht : pc.hasTmp = false) : LockFiles ((s.untmp (s.proc i).name).at i pc) := by
  have hm : ∀ n m a, (s.untmp n).tmp m = some a → m ≠ n ∧ s.tmp m = some a := by
    intro n m a hm
    simp only [LockState.untmp] at hm
    split at hm
    · simp at hm
    · rename_i hmn; exact ⟨hmn, hm⟩
  constructor
  · intro m n a h1 h2; exact h.inj m n a (hm _ _ _ h1).2 (hm _ _ _ h2).2
  · intro m a h1; exact h.tmpNew m a (hm _ _ _ h1).2
  · exact h.lockNew
  · intro k hk
    by_cases e : k = i
    · subst e; simp only [at_proc, if_pos] at hk ⊢; exact h.inoNew _ (ho hk)
    · simp only [at_proc, if_neg e] at hk ⊢; exact h.inoNew _ hk
  · intro k m hk h1
    have h1 := (hm _ _ _ h1).2
    by_cases e : k = i
    · subst e; simp only [at_proc, if_pos] at hk h1 ⊢; exact h.mine _ m (ho hk) h1
    · simp only [at_proc, if_neg e] at hk h1 ⊢; exact h.mine _ m hk h1
  · intro k l hkl hk hl'
    simp only [at_proc, LockState.untmp] at hk hl' ⊢
    have := h.inoInj k l hkl
    by_cases e : k = i <;> by_cases e' : l = i <;> simp_all
  · intro k l hkl hk hl'
    simp only [at_proc, LockState.untmp] at hk hl' ⊢
    have := h.nameInj k l hkl
    by_cases e : k = i <;> by_cases e' : l = i <;> simp_all
  · intro k hk
    by_cases e : k = i
    · subst e; simp only [at_proc, if_pos] at hk ⊢; rw [ht] at hk; simp at hk
    · simp only [at_proc, if_neg e] at hk ⊢
      have h1 := h.nameInj k i e (opened_live (hasTmp_opened hk)) hlive
      have h2 : ((s.untmp (s.proc i).name).at i pc).tmp (s.proc k).name = s.tmp (s.proc k).name := by
        simp only [LockState.at, LockState.untmp, if_neg h1]
      exact h2.trans (h.hasTmp k hk)

theorem files_open {s : LockState} (h : LockFiles s) {i : Nat} (hpc : (s.proc i).pc = .create) : LockFiles ((s.openTmp i).at i .link) := by
  have hlive : (s.proc i).pc.live = true := by rw [hpc]; rfl
  have hpc' : ∀ k, k ≠ i → ∀ pc : LockPc, True := fun _ _ _ => trivial
  cases ha : s.tmp (s.proc i).name with
  | some a =>
    have hs : (s.openTmp i).at i .link = { s with proc := fun k => if k = i then { s.proc i with ino := a, pc := .link } else s.proc k } := by
      simp only [LockState.openTmp, ha, LockState.at]
      congr 1
      funext k
      by_cases e : k = i <;> simp [e]
    rw [hs]
    have hne : ∀ k, k ≠ i → (s.proc k).pc.opened = true → (s.proc k).ino ≠ a := by
      intro k hk ho e
      have := h.mine k (s.proc i).name ho (by rw [e]; exact ha)
      exact h.nameInj i k (fun e => hk e.symm) hlive (opened_live ho) this
    constructor
    · exact h.inj
    · exact h.tmpNew
    · exact h.lockNew
    · intro k hk
      by_cases e : k = i
      · subst e; simp only [if_pos]; exact h.tmpNew _ _ ha
      · simp only [if_neg e] at hk ⊢; exact h.inoNew _ hk
    · intro k m hk hm
      by_cases e : k = i
      · subst e; simp only [if_pos] at hm ⊢; exact h.inj _ _ a hm ha
      · simp only [if_neg e] at hk hm ⊢; exact h.mine _ m hk hm
    · intro k l hkl hk hl'
      have := h.inoInj k l hkl
      by_cases e : k = i
      · subst e
        have e' : ¬ l = k := fun e => hkl e.symm
        simp only [if_pos, if_neg e'] at hl' ⊢
        exact fun e => hne l e' hl' e.symm
      · by_cases e' : l = i
        · subst e'
          simp only [if_pos, if_neg e] at hk ⊢
          exact hne k e hk
        · simp only [if_neg e, if_neg e'] at hk hl' ⊢; exact this hk hl'
    · intro k l hkl hk hl'
      have := h.nameInj k l hkl
      by_cases e : k = i <;> by_cases e' : l = i <;> simp_all
    · intro k hk
      by_cases e : k = i
      · subst e; simp only [if_pos]; exact ha
      · simp only [if_neg e] at hk ⊢; exact h.hasTmp _ hk
  | none =>
    have hs : (s.openTmp i).at i .link = { s with
        proc := fun k => if k = i then { s.proc i with ino := s.next, pc := .link } else s.proc k
        tmp := fun k => if k = (s.proc i).name then some s.next else s.tmp k
        next := s.next + 1 } := by
      simp only [LockState.openTmp, ha, LockState.at]
      congr 1
      funext k
      by_cases e : k = i <;> simp [e]
    rw [hs]
    constructor
    · intro m n a h1 h2
      simp only at h1 h2
      split at h1 <;> split at h2
      · simp_all
      · simp at h1; subst h1; exact absurd (h.tmpNew _ _ h2) (by omega)
      · simp at h2; subst h2; exact absurd (h.tmpNew _ _ h1) (by omega)
      · exact h.inj m n a h1 h2
    · intro m a h1
      simp only at h1 ⊢
      split at h1
      · simp at h1; omega
      · have := h.tmpNew _ _ h1; omega
    · intro a h1
      have := h.lockNew a h1
      simp only; omega
    · intro k hk
      by_cases e : k = i
      · subst e; simp only [if_pos]; omega
      · simp only [if_neg e] at hk ⊢; have := h.inoNew _ hk; omega
    · intro k m hk hm
      by_cases e : k = i
      · subst e
        simp only [if_pos] at hm ⊢
        split at hm
        · assumption
        · exact absurd (h.tmpNew _ _ hm) (by omega)
      · simp only [if_neg e] at hk hm ⊢
        split at hm
        · simp at hm
          exact absurd (h.inoNew _ hk) (by omega)
        · exact h.mine _ m hk hm
    · intro k l hkl hk hl'
      by_cases e : k = i
      · subst e
        have e' : ¬ l = k := fun e => hkl e.symm
        simp only [if_pos, if_neg e'] at hl' ⊢
        have := h.inoNew _ hl'; omega
      · by_cases e' : l = i
        · subst e'
          simp only [if_pos, if_neg e] at hk ⊢
          have := h.inoNew _ hk; omega
        · simp only [if_neg e, if_neg e'] at hk hl' ⊢; exact h.inoInj k l hkl hk hl'
    · intro k l hkl hk hl'
      have := h.nameInj k l hkl
      by_cases e : k = i <;> by_cases e' : l = i <;> simp_all
    · intro k hk
      by_cases e : k = i
      · subst e; simp
      · simp only [if_neg e] at hk ⊢
        rw [if_neg (h.nameInj k i e (opened_live (hasTmp_opened hk)) hlive)]
        exact h.hasTmp _ hk

theorem files_step {s s' : LockState} {e : LockEvent} (h : LockFiles s) (hs : s.step e s') : LockFiles s' := by
  cases e with
  | start i n forced =>
    obtain ⟨hi, hn, rfl⟩ := hs
    have hpc : (if forced = true then LockPc.force else LockPc.create).opened = false ∧ (if forced = true then LockPc.force else LockPc.create).hasTmp = false := by
      cases forced <;> exact ⟨rfl, rfl⟩
    constructor
    · exact h.inj
    · exact h.tmpNew
    · exact h.lockNew
    · intro k hk
      by_cases e : k = i
      · subst e; simp only [if_pos, hpc] at hk; exact absurd hk (by simp)
      · simp only [if_neg e] at hk ⊢; exact h.inoNew _ hk
    · intro k m hk hm
      by_cases e : k = i
      · subst e; simp only [if_pos, hpc] at hk; exact absurd hk (by simp)
      · simp only [if_neg e] at hk hm ⊢; exact h.mine _ m hk hm
    · intro k l hkl hk hl'
      by_cases e : k = i
      · subst e; simp only [if_pos, hpc] at hk; exact absurd hk (by simp)
      · by_cases e' : l = i
        · subst e'; simp only [if_pos, hpc] at hl'; exact absurd hl' (by simp)
        · simp only [if_neg e, if_neg e'] at hk hl' ⊢; exact h.inoInj k l hkl hk hl'
    · intro k l hkl hk hl'
      by_cases e : k = i
      · subst e
        have e' : ¬ l = k := fun e => hkl e.symm
        simp only [if_pos, if_neg e'] at hl' ⊢
        exact fun e => hn l hl' e.symm
      · by_cases e' : l = i
        · subst e'; simp only [if_pos, if_neg e] at hk ⊢; exact hn k hk
        · simp only [if_neg e, if_neg e'] at hk hl' ⊢; exact h.nameInj k l hkl hk hl'
    · intro k hk
      by_cases e : k = i
      · subst e; simp only [if_pos, hpc] at hk; exact absurd hk (by simp)
      · simp only [if_neg e] at hk ⊢; exact h.hasTmp _ hk
  | go i =>
    obtain ⟨hl, rfl⟩ := hs
    unfold LockState.go
    cases hpc : (s.proc i).pc with
    | idle => exact h
    | force => exact files_at (files_unlock h) (by simp [LockPc.opened]) (fun _ => hl) (by simp [LockPc.hasTmp])
    | create => exact files_open h hpc
    | link =>
      simp only
      split
      · rename_i a ha _
        exact files_at (files_lock h (h.tmpNew _ _ ha)) (by simp [hpc, LockPc.opened]) (fun _ => hl) (by simp [hpc, LockPc.hasTmp])
      · exact files_at h (by simp [hpc, LockPc.opened]) (fun _ => hl) (by simp [hpc, LockPc.hasTmp])
    | stat =>
      simp only
      split
      · exact files_at h (by simp [LockPc.opened]) (by simp [LockPc.live]) (by simp [LockPc.hasTmp])
      · split <;> exact files_at h (by simp [hpc, LockPc.opened]) (fun _ => hl) (by simp [hpc, LockPc.hasTmp])
    | read =>
      simp only
      split <;> exact files_at h (by simp [hpc, LockPc.opened]) (fun _ => hl) (by simp [hpc, LockPc.hasTmp])
    | refuse => exact files_untmp h (by simp [LockPc.opened]) hl rfl
    | tidy => exact files_untmp h (by simp [hpc, LockPc.opened]) hl rfl
    | inside => exact files_at (files_unlock h) (by simp [LockPc.opened]) (fun _ => hl) (by simp [LockPc.hasTmp])
    | done => exact h
  | crash i =>
    obtain ⟨hl, rfl⟩ := hs
    exact files_at h (by simp [LockPc.opened]) (by simp [LockPc.live]) (by simp [LockPc.hasTmp])
  | signal i =>
    obtain ⟨hl, rfl⟩ := hs
    exact files_at (files_unlock h) (by simp [LockPc.opened]) (by simp [LockPc.live]) (by simp [LockPc.hasTmp])

theorem owner_iff {s : LockState} {i : Nat} : OtherOwner s i ↔ ∃ j, j ≠ i ∧ (s.proc j).pc.owns = true := by
  unfold OtherOwner
  constructor
  · rintro ⟨j, hj, h | h⟩ <;> exact ⟨j, hj, by rw [h]; rfl⟩
  · rintro ⟨j, hj, h⟩
    refine ⟨j, hj, ?_⟩
    cases hp : (s.proc j).pc <;> rw [hp] at h <;> first | exact .inl rfl | exact .inr rfl | exact absurd h (by decide)

/-- Moving on without touching the lock. -/
theorem owned_at {s : LockState} (h : LockOwned s) {i : Nat} {pc : LockPc} (ho : pc.owns = true → (s.proc i).pc.owns = true ∨ s.lock = some (s.proc i).ino) : LockOwned (s.at i pc) := by
  intro k hk
  by_cases e : k = i
  · subst e
    simp only [at_proc, if_pos] at hk ⊢
    rcases ho hk with h1 | h1
    · exact h _ h1
    · exact h1
  · simp only [at_proc, if_neg e] at hk ⊢; exact h _ hk

/-- No other process owns the lock: any change of it is allowed if this process does not own it afterwards. -/
theorem owned_change {s : LockState} {i : Nat} {l : Option Nat} {pc : LockPc} (hno : ¬ OtherOwner s i) (hp : pc.owns = true → l = some (s.proc i).ino) :
    LockOwned ({ s with lock := l }.at i pc) := by
  intro k hk
  by_cases e : k = i
  · subst e
    simp only [at_proc, if_pos] at hk ⊢
    exact hp hk
  · simp only [at_proc, if_neg e] at hk
    exact absurd (owner_iff.2 ⟨k, e, hk⟩) hno

theorem owned_step {s s' : LockState} {e : LockEvent} (hf : LockFiles s) (h : LockOwned s) (hs : s.step e s') (hp : Polite s e) : LockOwned s' := by
  cases e with
  | start i n forced =>
    obtain ⟨hi, hn, rfl⟩ := hs
    intro k hk
    by_cases e : k = i
    · subst e; simp only [if_pos] at hk; cases forced <;> exact absurd hk (by decide)
    · simp only [if_neg e] at hk ⊢; exact h _ hk
  | go i =>
    obtain ⟨hl, rfl⟩ := hs
    unfold LockState.go
    cases hpc : (s.proc i).pc with
    | idle => exact h
    | force => exact owned_change (hp.2 hpc) (by simp [LockPc.owns])
    | create =>
      intro k hk
      by_cases e : k = i
      · subst e; simp only [at_proc, if_pos] at hk; exact absurd hk (by decide)
      · have h1 : ((s.openTmp i).at i .link).proc k = s.proc k := by
          simp only [at_proc, if_neg e, LockState.openTmp]
          cases s.tmp (s.proc i).name <;> simp [e]
        have h2 : ((s.openTmp i).at i .link).lock = s.lock := by
          simp only [LockState.at, LockState.openTmp]
          cases s.tmp (s.proc i).name <;> rfl
        rw [h1] at hk ⊢; rw [h2]; exact h _ hk
    | link =>
      simp only
      split
      · rename_i a ha hlock
        have hno : ¬ OtherOwner s i := by
          rw [owner_iff]
          rintro ⟨j, _, hj⟩
          have := h j hj
          rw [hlock] at this; simp at this
        have := hf.hasTmp i (by rw [hpc]; rfl)
        rw [ha] at this
        exact owned_change hno (fun _ => this)
      · exact owned_at h (by simp [LockPc.owns])
    | stat =>
      simp only
      split
      · exact owned_at h (by simp [LockPc.owns])
      · rename_i a ha
        have := hf.hasTmp i (by rw [hpc]; rfl)
        rw [ha] at this
        split
        · rename_i hlock
          exact owned_at h (fun _ => .inr (by rw [hlock]; exact this))
        · exact owned_at h (by simp [LockPc.owns])
    | read =>
      simp only
      rw [if_neg (hp.1 hpc)]
      exact owned_at h (by simp [LockPc.owns])
    | refuse =>
      have : LockOwned (s.untmp (s.proc i).name) := h
      exact owned_at this (by simp [LockPc.owns])
    | tidy =>
      have : LockOwned (s.untmp (s.proc i).name) := h
      exact owned_at this (fun _ => .inl (by show (s.proc i).pc.owns = true; rw [hpc]; rfl))
    | inside =>
      have hno : ¬ OtherOwner s i := by
        rw [owner_iff]
        rintro ⟨j, hne, hj⟩
        have h1 := h j hj
        have h2 := h i (by rw [hpc]; rfl)
        rw [h1] at h2
        exact hf.inoInj j i hne (owns_opened hj) (by rw [hpc]; rfl) (Option.some.inj h2)
      exact owned_change hno (by simp [LockPc.owns])
    | done => exact h
  | crash i =>
    obtain ⟨hl, rfl⟩ := hs
    exact owned_at h (by simp [LockPc.owns])
  | signal i =>
    obtain ⟨hl, rfl⟩ := hs
    exact owned_change hp (by simp [LockPc.owns])

theorem files_initial {lock : Option Nat} {tmp : Nat → Option Nat} {next : Nat} (h : FilesFit lock tmp next) : LockFiles (.initial lock tmp next) :=
  ⟨h.1, h.2.1, h.2.2, by simp [LockState.initial, LockPc.opened], by simp [LockState.initial, LockPc.opened], by simp [LockState.initial, LockPc.opened],
    by simp [LockState.initial, LockPc.live], by simp [LockState.initial, LockPc.hasTmp]⟩

theorem polite_inv {s s' : LockState} {es : List LockEvent} (hr : PoliteRun s es s') (hf : LockFiles s) (ho : LockOwned s) : LockFiles s' ∧ LockOwned s' := by
  induction hr with
  | nil => exact ⟨hf, ho⟩
  | cons hs hp _ ih => exact ih (files_step hf hs) (owned_step hf ho hs hp)

theorem owned_one {s : LockState} (hf : LockFiles s) (ho : LockOwned s) : AtMostOneInside s := by
  intro i j hi hj
  apply Classical.byContradiction
  intro hne
  have h1 := ho i (by rw [hi]; rfl)
  have h2 := ho j (by rw [hj]; rfl)
  rw [h1] at h2
  exact hf.inoInj i j hne (by rw [hi]; rfl) (by rw [hj]; rfl) (Option.some.inj h2)

/-- **C28** in part: any number of processes, started at any time, interleaved in any way and killed at any time, on files left in any state by earlier ones: at most one at a time is past the locking step,
provided that no process finds the lock gone between its failed `link` and reading it, and that neither `--unlock` nor a signal to one process removes the lock of another. The three provisos
are what the code gets wrong: see the violations below. -/
theorem C28_exclusion_partial {lock : Option Nat} {tmp : Nat → Option Nat} {next : Nat} (h0 : FilesFit lock tmp next) {es : List LockEvent} {s : LockState}
    (hr : PoliteRun (.initial lock tmp next) es s) : AtMostOneInside s := by
  have := polite_inv hr (files_initial h0) (by intro i hi; exact absurd hi (by simp [LockState.initial, LockPc.owns]))
  exact owned_one this.1 this.2

/-- Without crashes a lock always has an owner. -/
theorem crashfree_inv {s s' : LockState} {es : List LockEvent} (hr : LockRun s es s') (hc : ∀ i, LockEvent.crash i ∉ es) (hf : LockFiles s)
    (ho : ∀ a, s.lock = some a → ∃ i, (s.proc i).pc.owns = true) : ∀ a, s'.lock = some a → ∃ i, (s'.proc i).pc.owns = true := by
  induction hr with
  | nil => exact ho
  | @cons s e s1 es s2 hs _ ih =>
    refine ih (fun i hi => hc i (by simp [hi])) (files_step hf hs) ?_
    have keep : ∀ (s : LockState) (i : Nat) (pc : LockPc), (∀ a, s.lock = some a → ∃ i, (s.proc i).pc.owns = true) → ((s.proc i).pc.owns = true → pc.owns = true) →
        ∀ a, (s.at i pc).lock = some a → ∃ j, ((s.at i pc).proc j).pc.owns = true := by
      intro s i pc ho h a ha
      obtain ⟨j, hj⟩ := ho a ha
      by_cases e : j = i
      · subst e; exact ⟨j, by simp only [at_proc, if_pos]; exact h hj⟩
      · exact ⟨j, by simp only [at_proc, if_neg e]; exact hj⟩
    cases e with
    | start i n forced =>
      obtain ⟨hi, hn, rfl⟩ := hs
      intro a ha
      obtain ⟨j, hj⟩ := ho a ha
      have : j ≠ i := by rintro rfl; rw [hi] at hj; exact absurd hj (by decide)
      exact ⟨j, by simp only [if_neg this]; exact hj⟩
    | go i =>
      obtain ⟨hl, rfl⟩ := hs
      unfold LockState.go
      cases hpc : (s.proc i).pc with
      | idle => exact ho
      | force => simp [LockState.unlock, LockState.at]
      | create =>
        intro a ha
        have h2 : ((s.openTmp i).at i .link).lock = s.lock := by
          simp only [LockState.at, LockState.openTmp]
          cases s.tmp (s.proc i).name <;> rfl
        simp only [h2] at ha
        obtain ⟨j, hj⟩ := ho a ha
        have e : j ≠ i := by rintro rfl; rw [hpc] at hj; exact absurd hj (by decide)
        have h1 : ((s.openTmp i).at i .link).proc j = s.proc j := by
          simp only [at_proc, if_neg e, LockState.openTmp]
          cases s.tmp (s.proc i).name <;> simp [e]
        exact ⟨j, by rw [h1]; exact hj⟩
      | link =>
        simp only
        split
        · intro a _; exact ⟨i, by simp only [at_proc, if_pos]; rfl⟩
        · exact keep s i _ ho (by simp [hpc, LockPc.owns])
      | stat =>
        simp only
        split
        · exact keep s i _ ho (by simp [hpc, LockPc.owns])
        · split <;> exact keep s i _ ho (by simp [hpc, LockPc.owns])
      | read =>
        simp only
        split <;> exact keep s i _ ho (by simp [hpc, LockPc.owns])
      | refuse => exact keep (s.untmp _) i _ ho (by show (s.proc i).pc.owns = true → _; simp [hpc, LockPc.owns])
      | tidy => exact keep (s.untmp _) i _ ho (by simp [LockPc.owns])
      | inside => simp [LockState.unlock, LockState.at]
      | done => exact ho
    | crash i => exact absurd (List.mem_cons_self) (hc i)
    | signal i =>
      obtain ⟨hl, rfl⟩ := hs
      simp [LockState.unlock, LockState.at]

/-- **C28**, nothing is left behind: if the lock is not there at first and no process is killed outright (signals that are handled are allowed), then whenever no process is past its `link`, the lock is
not there, so that the next process is not refused. -/
theorem C28_no_stale {tmp : Nat → Option Nat} {next : Nat} (h0 : FilesFit none tmp next) {es : List LockEvent} {s : LockState} (hr : LockRun (.initial none tmp next) es s)
    (hc : ∀ i, LockEvent.crash i ∉ es) (hn : ∀ i, (s.proc i).pc.owns = false) : s.lock = none := by
  have := crashfree_inv hr hc (files_initial h0) (by simp [LockState.initial])
  cases hl : s.lock with
  | none => rfl
  | some a =>
    obtain ⟨i, hi⟩ := this a hl
    rw [hn i] at hi; exact absurd hi (by simp)

/-- A process that makes its calls undisturbed. -/
def alone (s : LockState) (i n : Nat) : Nat → LockState
  | 0 => { s with proc := fun k => if k = i then ⟨.create, n, 0⟩ else s.proc k }
  | k + 1 => (alone s i n k).go i

theorem alone_runs {s : LockState} {i n : Nat} (hi : (s.proc i).pc = .idle) (hn : ∀ j, (s.proc j).pc.live = true → (s.proc j).name ≠ n) {k : Nat}
    (hl : ∀ l, l < k → ((alone s i n l).proc i).pc.live = true) : LockRun s (.start i n false :: List.replicate k (.go i)) (alone s i n k) := by
  refine .cons (s' := alone s i n 0) ⟨hi, hn, rfl⟩ ?_
  have : ∀ k m, (∀ l, l < m + k → ((alone s i n l).proc i).pc.live = true) → LockRun (alone s i n m) (List.replicate k (.go i)) (alone s i n (m + k)) := by
    intro k
    induction k with
    | zero => intro m _; exact .nil _
    | succ k ih =>
      intro m h
      rw [List.replicate_succ]
      refine .cons (s' := alone s i n (m + 1)) ⟨h m (by omega), rfl⟩ ?_
      have := ih (m + 1) (fun l hl => h l (by omega))
      rwa [show m + 1 + k = m + (k + 1) by omega] at this
  simpa using this k 0 (by simpa using hl)

/-- **C28**, a process that finds no lock and is not disturbed gets the lock: after three calls it is inside, and it alone if nobody was. -/
theorem C28_free (s : LockState) {i n : Nat} (hl : s.lock = none) : Inside (alone s i n 3) i ∧ (alone s i n 3).lock ≠ none := by
  cases ht : s.tmp n with
  | none => simp [Inside, alone, LockState.go, LockState.openTmp, LockState.at, LockState.untmp, ht, hl]
  | some a => simp [Inside, alone, LockState.go, LockState.openTmp, LockState.at, LockState.untmp, ht, hl]

/-- **C28**, a process that finds a lock that is not of its own making is refused, and leaves the lock as it was and no temporary file. -/
theorem C28_refused (s : LockState) {i n a : Nat} (hl : s.lock = some a) (hn : a < s.next) (ht : s.tmp n ≠ some a) :
    ((alone s i n 5).proc i).pc = .done ∧ (alone s i n 5).lock = some a ∧ (alone s i n 5).tmp n = none ∧
      ∀ k, k ≤ 5 → ¬ Inside (alone s i n k) i := by
  have h5 : ∀ k, k ≤ 5 → k = 0 ∨ k = 1 ∨ k = 2 ∨ k = 3 ∨ k = 4 ∨ k = 5 := by omega
  cases ht' : s.tmp n with
  | none =>
    have : a ≠ s.next := by omega
    refine ⟨by simp [alone, LockState.go, LockState.openTmp, LockState.at, LockState.untmp, ht', hl, this],
      by simp [alone, LockState.go, LockState.openTmp, LockState.at, LockState.untmp, ht', hl, this],
      by simp [alone, LockState.go, LockState.openTmp, LockState.at, LockState.untmp, ht', hl, this], ?_⟩
    intro k hk
    rcases h5 k hk with rfl | rfl | rfl | rfl | rfl | rfl <;>
      simp [Inside, alone, LockState.go, LockState.openTmp, LockState.at, LockState.untmp, ht', hl, this]
  | some b =>
    have : a ≠ b := by rintro rfl; exact ht ht'
    refine ⟨by simp [alone, LockState.go, LockState.openTmp, LockState.at, LockState.untmp, ht', hl, this],
      by simp [alone, LockState.go, LockState.openTmp, LockState.at, LockState.untmp, ht', hl, this],
      by simp [alone, LockState.go, LockState.openTmp, LockState.at, LockState.untmp, ht', hl, this], ?_⟩
    intro k hk
    rcases h5 k hk with rfl | rfl | rfl | rfl | rfl | rfl <;>
      simp [Inside, alone, LockState.go, LockState.openTmp, LockState.at, LockState.untmp, ht', hl, this]

/-- Executes events for the examples, in which process `i` has the temporary name `i`; `strict` allows only events that are polite for obvious reasons. -/
def lockExec (strict : Bool) : LockState → List LockEvent → Option LockState
  | s, [] => some s
  | s, .start i n forced :: es =>
    if (s.proc i).pc = .idle ∧ n = i then lockExec strict { s with proc := fun k => if k = i then ⟨if forced then .force else .create, n, 0⟩ else s.proc k } es else none
  | s, .go i :: es =>
    if (s.proc i).pc.live = true ∧ (strict = true → (s.proc i).pc ≠ .force ∧ ((s.proc i).pc = .read → s.lock ≠ none)) then lockExec strict (s.go i) es else none
  | s, .crash i :: es => if (s.proc i).pc.live = true then lockExec strict (s.at i .done) es else none
  | s, .signal i :: es => if (s.proc i).pc.live = true ∧ strict = false then lockExec strict (s.unlock.at i .done) es else none

theorem go_name (s : LockState) (i j : Nat) : ((s.go i).proc j).name = (s.proc j).name := by
  by_cases e : j = i
  · subst e
    unfold LockState.go LockState.openTmp
    cases (s.proc j).pc <;> simp only [] <;> (repeat' split) <;> simp [LockState.at, LockState.unlock, LockState.untmp]
  · unfold LockState.go LockState.openTmp
    cases (s.proc i).pc <;> simp only [] <;> (repeat' split) <;> simp [LockState.at, LockState.unlock, LockState.untmp, e]

theorem go_live (s : LockState) (i j : Nat) (h : ((s.go i).proc j).pc.live = true) : (s.proc j).pc.live = true := by
  by_cases e : j = i
  · subst e
    cases hp : (s.proc j).pc <;> first | rfl | (unfold LockState.go at h; rw [hp] at h; simp only [hp] at h; exact h)
  · have : ((s.go i).proc j) = s.proc j := by
      unfold LockState.go LockState.openTmp
      cases (s.proc i).pc <;> simp only [] <;> (repeat' split) <;> simp [LockState.at, LockState.unlock, LockState.untmp, e]
    rwa [this] at h

theorem lockExec_ok {strict : Bool} : ∀ {es : List LockEvent} {s s' : LockState}, (∀ j, (s.proc j).pc.live = true → (s.proc j).name = j) → lockExec strict s es = some s' →
    LockRun s es s' ∧ (strict = true → PoliteRun s es s') := by
  intro es
  induction es with
  | nil => intro s s' _ h; simp [lockExec] at h; subst h; exact ⟨.nil _, fun _ => .nil _⟩
  | cons e es ih =>
    intro s s' hn h
    cases e with
    | start i n forced =>
      simp only [lockExec] at h
      split at h
      · rename_i hc
        obtain ⟨hi, rfl⟩ := hc
        have hstep : s.step (.start n n forced) { s with proc := fun k => if k = n then ⟨if forced then .force else .create, n, 0⟩ else s.proc k } :=
          ⟨hi, fun j hj e => by
            have := hn j hj
            rw [e] at this; subst this; rw [hi] at hj; exact absurd hj (by decide), rfl⟩
        have := ih (by
          intro j hj
          by_cases e : j = n
          · simp [e]
          · simp only [if_neg e] at hj ⊢; exact hn j hj) h
        exact ⟨.cons hstep this.1, fun hs => .cons hstep trivial (this.2 hs)⟩
      · simp at h
    | go i =>
      simp only [lockExec] at h
      split at h
      · rename_i hc
        have hstep : s.step (.go i) (s.go i) := ⟨hc.1, rfl⟩
        have := ih (fun j hj => by rw [go_name]; exact hn j (go_live s i j hj)) h
        exact ⟨.cons hstep this.1, fun hs => .cons hstep ⟨(hc.2 hs).2, fun e => absurd e (hc.2 hs).1⟩ (this.2 hs)⟩
      · simp at h
    | crash i =>
      simp only [lockExec] at h
      split at h
      · rename_i hc
        have hstep : s.step (.crash i) (s.at i .done) := ⟨hc, rfl⟩
        have := ih (by
          intro j hj
          by_cases e : j = i
          · subst e; simp [at_proc, LockPc.live] at hj
          · simp only [at_proc, if_neg e] at hj ⊢; exact hn j hj) h
        exact ⟨.cons hstep this.1, fun hs => .cons hstep trivial (this.2 hs)⟩
      · simp at h
    | signal i =>
      simp only [lockExec] at h
      split at h
      · rename_i hc
        have hstep : s.step (.signal i) (s.unlock.at i .done) := ⟨hc.1, rfl⟩
        have := ih (by
          intro j hj
          by_cases e : j = i
          · subst e; simp [at_proc, LockPc.live] at hj
          · simp only [at_proc, if_neg e] at hj ⊢; exact hn j hj) h
        exact ⟨.cons hstep this.1, fun hs => absurd hs (by simp [hc.2])⟩
      · simp at h

theorem lockExec_found {strict : Bool} {es : List LockEvent} {P : LockState → Prop} [DecidablePred P]
    (h : (lockExec strict (.initial none (fun _ => none) 0) es).map (fun s => decide (P s)) = some true) :
    ∃ s, LockRun (.initial none (fun _ => none) 0) es s ∧ (strict = true → PoliteRun (.initial none (fun _ => none) 0) es s) ∧ P s := by
  cases hs : lockExec strict (.initial none (fun _ => none) 0) es with
  | none => rw [hs] at h; simp at h
  | some s =>
    rw [hs] at h; simp at h
    have := lockExec_ok (by simp [LockState.initial, LockPc.live]) hs
    exact ⟨s, this.1, this.2, h⟩

/-- Process 0 gets in, process 1 is refused, process 0 leaves, process 2 gets in. -/
def exPolite : List LockEvent :=
  [.start 0 0 false, .go 0, .start 1 1 false, .go 1, .go 0, .go 1, .go 1, .go 0, .go 1, .go 1, .go 0, .start 2 2 false, .go 2, .go 2, .go 2]

/-- The hypotheses of `C28_exclusion_partial` are met by a history in which two processes compete. -/
example : ∃ s, PoliteRun (.initial none (fun _ => none) 0) exPolite s ∧ Inside s 2 ∧ (s.proc 0).pc = .done ∧ (s.proc 1).pc = .done := by
  obtain ⟨s, _, h, h'⟩ := lockExec_found (strict := true) (es := exPolite) (P := fun s => (s.proc 2).pc = .inside ∧ (s.proc 0).pc = .done ∧ (s.proc 1).pc = .done) (by decide +kernel)
  exact ⟨s, h rfl, h'⟩

/-- The hypotheses of `C28_no_stale` are met by the same history, up to where nobody is inside. -/
example : ∃ s, LockRun (.initial none (fun _ => none) 0) (exPolite.take 11) s ∧ (∀ i, LockEvent.crash i ∉ exPolite.take 11) ∧ s.lock = none := by
  obtain ⟨s, h, _, h'⟩ := lockExec_found (strict := true) (es := exPolite.take 11) (P := fun s => s.lock = none) (by decide +kernel)
  exact ⟨s, h, by intro i hi; simp [exPolite] at hi, h'⟩

/-- **C28** is false: the lock disappears between the failed `link` of process 1 and its `fopen` of the lock, and process 1 goes on without a lock; process 2 then gets in as well. No signal, no
`--unlock` and no crash is involved. -/
theorem C28_race_violation : ∃ es s, LockRun (.initial none (fun _ => none) 0) es s ∧ ¬ AtMostOneInside s ∧
    (∀ i, LockEvent.crash i ∉ es ∧ LockEvent.signal i ∉ es) ∧ ∀ i n, LockEvent.start i n true ∉ es := by
  obtain ⟨s, h, _, h1, h2⟩ := lockExec_found (strict := false)
    (es := [.start 0 0 false, .go 0, .go 0, .go 0, .start 1 1 false, .go 1, .go 1, .go 1, .go 0, .go 1, .go 1, .start 2 2 false, .go 2, .go 2, .go 2])
    (P := fun s => (s.proc 1).pc = .inside ∧ (s.proc 2).pc = .inside) (by decide +kernel)
  exact ⟨_, s, h, fun ha => absurd (ha 1 2 h1 h2) (by decide), by simp, by simp⟩

/-- **C28** is false: an interrupt of process 1, which waits for nothing and owns nothing, removes the lock of process 0, and process 2 gets in while process 0 still is. -/
theorem C28_signal_violation : ∃ es s, LockRun (.initial none (fun _ => none) 0) es s ∧ ¬ AtMostOneInside s ∧
    (∀ i, LockEvent.crash i ∉ es) ∧ (∀ i n, LockEvent.start i n true ∉ es) ∧ (s.proc 1).pc = .done ∧ Inside s 0 ∧ Inside s 2 := by
  obtain ⟨s, h, _, h1, h2, h3⟩ := lockExec_found (strict := false)
    (es := [.start 0 0 false, .go 0, .go 0, .go 0, .start 1 1 false, .go 1, .signal 1, .start 2 2 false, .go 2, .go 2, .go 2])
    (P := fun s => (s.proc 1).pc = .done ∧ (s.proc 0).pc = .inside ∧ (s.proc 2).pc = .inside) (by decide +kernel)
  exact ⟨_, s, h, fun ha => absurd (ha 0 2 h2 h3) (by decide), by simp, by simp, h1, h2, h3⟩

/-- `--unlock` while another process is running lets two in (this is documented as the user's responsibility). -/
theorem C28_unlock_violation : ∃ es s, LockRun (.initial none (fun _ => none) 0) es s ∧ ¬ AtMostOneInside s ∧ ∀ i, LockEvent.crash i ∉ es ∧ LockEvent.signal i ∉ es := by
  obtain ⟨s, h, _, h1, h2⟩ := lockExec_found (strict := false)
    (es := [.start 0 0 false, .go 0, .go 0, .go 0, .start 1 1 true, .go 1, .go 1, .go 1, .go 1])
    (P := fun s => (s.proc 0).pc = .inside ∧ (s.proc 1).pc = .inside) (by decide +kernel)
  exact ⟨_, s, h, fun ha => absurd (ha 0 1 h1 h2) (by decide), by simp⟩

end Mairix
