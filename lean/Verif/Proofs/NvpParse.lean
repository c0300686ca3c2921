import Verif.Proofs.Nvp

/-!
# Reading the components of a header
-/

namespace Mairix
open Spec

/-- A run of characters that all lead to the same state, with copying already going on. -/
theorem run_same {s : List NvpState} {k : NvpCopier} {a : NvpAction} {t : Text} (hs : ∀ c ∈ t, nvpNext s (nvpTok c) = s) (hk : nvpCopierOf s = k) (ha : nvpActionOf s = .nothing ∨ nvpActionOf s = a)
    (hnt : nvpActionOf s ≠ .terminator) : ∀ {cop : Text} {nm mi va : Option Text} {l : Nvp}, s ≠ [] →
    NvpRun.run ⟨s, a, k, cop, nm, mi, va, l⟩ t = .ok (some ⟨s, a, k, cop ++ t, nm, mi, va, l⟩) := by
  induction t with
  | nil => intro cop nm mi va l _; simp [NvpRun.run]
  | cons c t ih =>
    intro cop nm mi va l hne
    have h1 := step_same (r := ⟨s, a, k, cop, nm, mi, va, l⟩) (hs c (by simp)) hne hk hnt
    have h2 : (if nvpActionOf s = .nothing then a else nvpActionOf s) = a := by
      rcases ha with h | h
      · simp [h]
      · split
        · rfl
        · exact h
    simp only [h2] at h1
    simp only [NvpRun.run, h1, bind, Except.bind]
    rw [ih (fun x hx => hs x (by simp [hx])) hne]
    simp

/-- A run of characters that begins with a change of the state, but not of copying. -/
theorem run_enter_same {s0 s : List NvpState} {k : NvpCopier} {a0 a : NvpAction} {t : Text} (hs0 : ∀ c ∈ t, nvpNext s0 (nvpTok c) = s) (hs : ∀ c ∈ t, nvpNext s (nvpTok c) = s) (ht : t ≠ []) (hne : s ≠ [])
    (hk : nvpCopierOf s = k) (ha : (if nvpActionOf s = .nothing then a0 else nvpActionOf s) = a) (hnt : nvpActionOf s ≠ .terminator) {cop : Text} {nm mi va : Option Text} {l : Nvp} :
    NvpRun.run ⟨s0, a0, k, cop, nm, mi, va, l⟩ t = .ok (some ⟨s, a, k, cop ++ t, nm, mi, va, l⟩) := by
  cases t with
  | nil => exact absurd rfl ht
  | cons c t =>
    have h1 := step_same (r := ⟨s0, a0, k, cop, nm, mi, va, l⟩) (hs0 c (by simp)) hne hk hnt
    simp only [ha] at h1
    simp only [NvpRun.run, h1, bind, Except.bind]
    rw [run_same (fun x hx => hs x (by simp [hx])) hk (by rw [← ha]; split <;> simp_all) hnt hne]
    simp

/-- A run of characters that begins with a change of the state and of copying. -/
theorem run_enter_change {s0 s : List NvpState} {k0 k : NvpCopier} {a0 a : NvpAction} {t : Text} (hs0 : ∀ c ∈ t, nvpNext s0 (nvpTok c) = s) (hs : ∀ c ∈ t.tail, nvpNext s (nvpTok c) = s) (ht : t ≠ []) (hne : s ≠ [])
    (hk : nvpCopierOf s = k) (hkk : k ≠ k0) (ha : (if nvpActionOf s = .nothing then a0 else nvpActionOf s) = a) (hnt : nvpActionOf s ≠ .terminator) {cop : Text} {nm mi va : Option Text} {l : Nvp} :
    NvpRun.run ⟨s0, a0, k0, cop, nm, mi, va, l⟩ t =
      .ok (some ⟨s, a, k, t, if k0 = .name then some cop else nm, if k0 = .minor then some cop else mi, if k0 = .value then some cop else va, l⟩) := by
  cases t with
  | nil => exact absurd rfl ht
  | cons c t =>
    have h1 := step_change (r := ⟨s0, a0, k0, cop, nm, mi, va, l⟩) (hs0 c (by simp)) hne (by rw [hk]; exact hkk) hnt
    simp only [ha, hk] at h1
    simp only [NvpRun.run, h1, bind, Except.bind]
    have h2 := @run_same s k a t hs hk (by rw [← ha]; split <;> simp_all) hnt
    cases k0 <;> simp only [NvpRun.flush] <;> rw [h2 hne] <;> simp

/-! ## The states -/

abbrev sName : List NvpState := nvpSet [.name1, .cname1, .major]
abbrev sName' : List NvpState := nvpSet [.name1, .cname1]
abbrev sNameW : List NvpState := nvpSet [.name2, .cname2]
abbrev sNameE : List NvpState := nvpSet [.eqN, .compOut]

/-- The states in which a component can begin. -/
def NvpReady (s : List NvpState) : Prop := s = nvpIn ∨ s = nvpSet [.main, .last] ∨ s = nvpSet [.in2, .last]

theorem all_toks {P : NvpTok → Prop} (h : ∀ t ∈ nvpToks, P t) : ∀ t, P t := fun t => h t (mem_nvpToks t)

theorem ready_name {s : List NvpState} (h : NvpReady s) : ∀ t : NvpTok, t.name1 = true → nvpNext s t = sName := by
  rcases h with rfl | rfl | rfl <;> exact all_toks (by decide +kernel)

theorem ready_white {s : List NvpState} (h : NvpReady s) : ∀ t : NvpTok, t.white = true → NvpReady (nvpNext s t) := by
  have h1 : ∀ t : NvpTok, t.white = true → nvpNext nvpIn t = nvpIn := all_toks (by decide +kernel)
  have h2 : ∀ t : NvpTok, t.white = true → nvpNext (nvpSet [.main, .last]) t = nvpSet [.main, .last] := all_toks (by decide +kernel)
  have h3 : ∀ t : NvpTok, t.white = true → nvpNext (nvpSet [.in2, .last]) t = nvpSet [.main, .last] := all_toks (by decide +kernel)
  intro t ht
  rcases h with rfl | rfl | rfl
  · rw [h1 t ht]; exact .inl rfl
  · rw [h2 t ht]; exact .inr (.inl rfl)
  · rw [h3 t ht]; exact .inr (.inl rfl)

theorem name_name : ∀ t : NvpTok, t.name1 = true → nvpNext sName t = sName ∧ nvpNext sName' t = sName' ∧ nvpNext sNameW t = sName' := all_toks (by decide +kernel)
theorem name_ws : nvpNext sName .ws = sNameW ∧ nvpNext sName' .ws = sNameW ∧ nvpNext sNameW .ws = sNameW := by decide +kernel
theorem name_cr : nvpNext sName .cr = sNameE ∧ nvpNext sName' .cr = sNameE ∧ nvpNext sNameW .cr = sNameE ∧ nvpNext sNameE .cr = sNameE ∧ nvpNext sNameE .ws = sNameE := by decide +kernel

theorem name_tags : nvpCopierOf sName = .name ∧ nvpActionOf sName = .name ∧ nvpCopierOf sName' = .name ∧ nvpActionOf sName' = .name ∧ nvpCopierOf sNameW = .name ∧ nvpActionOf sNameW = .nameSpace ∧
    nvpCopierOf sNameE = .nowhere ∧ nvpActionOf sNameE = .nothing ∧ sName ≠ [] ∧ sName' ≠ [] ∧ sNameW ≠ [] ∧ sNameE ≠ [] := by decide +kernel

theorem name_eq : nvpNext sName .eq = nvpSet [.rhs .normal] ∧ nvpNext sName' .eq = nvpSet [.rhs .normal] := by decide +kernel
theorem name_star : nvpNext sName .star = nvpSet [.star] ∧ nvpNext sName' .star = nvpSet [.star] := by decide +kernel
theorem name_slash : nvpNext sName .slash = nvpSet [.bar] := by decide +kernel

/-- The action for a kind of value. -/
def actOf : NvpKind → NvpAction
  | .normal => .nameValue
  | .cont => .nameValueCont
  | .charset => .nameValueCset
  | .charsetCont => .nameValueCcont

/-- White space before a component. -/
theorem run_ready_white {ws : Text} (hw : White ws) : ∀ {s : List NvpState}, NvpReady s → ∀ {cop : Text} {nm mi va : Option Text} {l : Nvp}, ∃ s' cop', NvpReady s' ∧
    NvpRun.run ⟨s, .nothing, .nowhere, cop, nm, mi, va, l⟩ ws = .ok (some ⟨s', .nothing, .nowhere, cop', nm, mi, va, l⟩) := by
  have hw1 : ∀ s, NvpReady s → nvpCopierOf s = .nowhere ∧ s ≠ [] := by
    rintro s (rfl | rfl | rfl) <;> decide +kernel
  have hw3 : ∀ t : NvpTok, t.white = true → nvpActionOf (nvpNext nvpIn t) = .nothing ∧ nvpActionOf (nvpNext (nvpSet [.main, .last]) t) = .nothing ∧ nvpActionOf (nvpNext (nvpSet [.in2, .last]) t) = .nothing :=
    all_toks (by decide +kernel)
  have hw2 : ∀ s, NvpReady s → ∀ t : NvpTok, t.white = true → nvpActionOf (nvpNext s t) = .nothing := by
    rintro s (rfl | rfl | rfl) t ht
    · exact (hw3 t ht).1
    · exact (hw3 t ht).2.1
    · exact (hw3 t ht).2.2
  induction ws with
  | nil => intro s hs cop nm mi va l; exact ⟨s, cop, hs, by simp [NvpRun.run]⟩
  | cons c ws ih =>
    intro s hs cop nm mi va l
    have ht := tok_white (hw c (by simp))
    have hr := ready_white hs _ ht
    have ha := hw2 s hs _ ht
    have h1 := step_same (r := ⟨s, .nothing, .nowhere, cop, nm, mi, va, l⟩) rfl (hw1 _ hr).2 (hw1 _ hr).1 (by simp only; rw [ha]; decide)
    simp only [ha, if_pos] at h1
    obtain ⟨s', cop', h2, h3⟩ := ih (fun x hx => hw x (by simp [hx])) hr
    exact ⟨s', cop', h2, by simp only [NvpRun.run, h1, bind, Except.bind]; exact h3⟩

/-- A word of a name. -/
theorem run_word {n : Text} (hn : Of ParamChar n) {s : List NvpState} (hs : NvpReady s) {cop : Text} {nm mi va : Option Text} {l : Nvp} :
    NvpRun.run ⟨s, .nothing, .nowhere, cop, nm, mi, va, l⟩ n = .ok (some ⟨sName, .name, .name, n, nm, mi, va, l⟩) := by
  have := run_enter_change (s0 := s) (s := sName) (k0 := .nowhere) (k := .name) (a0 := .nothing) (a := .name) (fun c hc => ready_name hs _ (tok_param (hn.2 c hc)))
    (fun c hc => (name_name _ (tok_param (hn.2 c (List.mem_of_mem_tail hc)))).1) hn.1 name_tags.2.2.2.2.2.2.2.2.1 name_tags.1 (by decide) (by rw [name_tags.2.1]; rfl) (by rw [name_tags.2.1]; decide)
    (cop := cop) (nm := nm) (mi := mi) (va := va) (l := l)
  simpa using this

/-- More words. -/
theorem run_more {n : Text} (hn : Words n) : ∀ {ws : Text}, Blank ws → ws ≠ [] → ∀ {s : List NvpState}, s = sName ∨ s = sName' → ∀ {cop : Text} {nm mi va : Option Text} {l : Nvp},
    NvpRun.run ⟨s, .name, .name, cop, nm, mi, va, l⟩ (ws ++ n) = .ok (some ⟨sName', .name, .name, cop ++ ws ++ n, nm, mi, va, l⟩) := by
  have hblank : ∀ {ws : Text}, Blank ws → ws ≠ [] → ∀ {s : List NvpState}, s = sName ∨ s = sName' → ∀ {cop : Text} {nm mi va : Option Text} {l : Nvp},
      NvpRun.run ⟨s, .name, .name, cop, nm, mi, va, l⟩ ws = .ok (some ⟨sNameW, .nameSpace, .name, cop ++ ws, nm, mi, va, l⟩) := by
    intro ws hb hne s hs cop nm mi va l
    have h0 : ∀ c ∈ ws, nvpNext s (nvpTok c) = sNameW := by
      intro c hc
      rw [tok_blank (hb c hc)]
      rcases hs with rfl | rfl
      · exact name_ws.1
      · exact name_ws.2.1
    have h1 : ∀ c ∈ ws, nvpNext sNameW (nvpTok c) = sNameW := by
      intro c hc
      rw [tok_blank (hb c hc)]
      exact name_ws.2.2
    exact run_enter_same h0 h1 hne name_tags.2.2.2.2.2.2.2.2.2.2.1 name_tags.2.2.2.2.1 (by rw [name_tags.2.2.2.2.2.1]; rfl) (by rw [name_tags.2.2.2.2.2.1]; decide)
  have hword : ∀ {n : Text}, Of ParamChar n → ∀ {cop : Text} {nm mi va : Option Text} {l : Nvp},
      NvpRun.run ⟨sNameW, .nameSpace, .name, cop, nm, mi, va, l⟩ n = .ok (some ⟨sName', .name, .name, cop ++ n, nm, mi, va, l⟩) := by
    intro n hn cop nm mi va l
    exact run_enter_same (fun c hc => (name_name _ (tok_param (hn.2 c hc))).2.2) (fun c hc => (name_name _ (tok_param (hn.2 c hc))).2.1) hn.1 name_tags.2.2.2.2.2.2.2.2.2.1 name_tags.2.2.1
      (by rw [name_tags.2.2.2.1]; rfl) (by rw [name_tags.2.2.2.1]; decide)
  induction hn with
  | one hn =>
    intro ws hb hne s hs cop nm mi va l
    rw [run_append _ _ _ _ (hblank hb hne hs), hword hn]
  | @more n ws' m hn hb' hne' _ ih =>
    intro ws hb hne s hs cop nm mi va l
    rw [run_append _ _ _ _ (hblank hb hne hs), List.append_assoc, run_append _ _ _ _ (hword hn), ih hb' hne' (.inr rfl)]
    simp

/-- A name. -/
theorem run_words {n : Text} (hn : Words n) {s : List NvpState} (hs : NvpReady s) {cop : Text} {nm mi va : Option Text} {l : Nvp} : ∃ s', (s' = sName ∨ s' = sName') ∧
    NvpRun.run ⟨s, .nothing, .nowhere, cop, nm, mi, va, l⟩ n = .ok (some ⟨s', .name, .name, n, nm, mi, va, l⟩) := by
  cases hn with
  | one hn => exact ⟨sName, .inl rfl, run_word hn hs⟩
  | @more n ws m hn hb hne hm =>
    refine ⟨sName', .inr rfl, ?_⟩
    rw [List.append_assoc, run_append _ _ _ _ (run_word hn hs), run_more hm hb hne (.inl rfl)]
    simp

/-- One character that ends copying, if any, and begins none. -/
theorem run_char {s0 s : List NvpState} {a0 : NvpAction} {c : UInt8} (h : nvpNext s0 (nvpTok c) = s) (hs : s ≠ [] ∧ nvpCopierOf s = .nowhere ∧ nvpActionOf s = .nothing) {k0 : NvpCopier} {cop : Text}
    {nm mi va : Option Text} {l : Nvp} : ∃ cop', NvpRun.run ⟨s0, a0, k0, cop, nm, mi, va, l⟩ [c] =
      .ok (some ⟨s, a0, .nowhere, cop', if k0 = .name then some cop else nm, if k0 = .minor then some cop else mi, if k0 = .value then some cop else va, l⟩) := by
  by_cases hk : k0 = .nowhere
  · subst hk
    refine ⟨cop ++ [c], ?_⟩
    have h1 := step_same (r := ⟨s0, a0, .nowhere, cop, nm, mi, va, l⟩) h hs.1 hs.2.1 (by rw [hs.2.2]; decide)
    simp only [hs.2.2, if_pos] at h1
    simp [NvpRun.run, h1, bind, Except.bind]
  · refine ⟨[c], ?_⟩
    exact run_enter_change (by simpa using h) (by simp) (by simp) hs.1 hs.2.1 (fun e => hk e.symm) (by simp [hs.2.2]) (by rw [hs.2.2]; decide)

/-- White space that changes nothing. -/
theorem run_loop_white {ws : Text} (hw : White ws) {s : List NvpState} (hs : ∀ t : NvpTok, t.white = true → nvpNext s t = s) (ht : s ≠ [] ∧ nvpCopierOf s = .nowhere ∧ nvpActionOf s = .nothing) {a : NvpAction} {cop : Text}
    {nm mi va : Option Text} {l : Nvp} : NvpRun.run ⟨s, a, .nowhere, cop, nm, mi, va, l⟩ ws = .ok (some ⟨s, a, .nowhere, cop ++ ws, nm, mi, va, l⟩) :=
  run_same (fun c hc => hs _ (tok_white (hw c hc))) ht.2.1 (.inl ht.2.2) (by rw [ht.2.2]; decide) ht.1

theorem rhs_white : ∀ k, (∀ t : NvpTok, t.white = true → nvpNext (nvpSet [.rhs k]) t = nvpSet [.rhs k]) ∧ nvpSet [.rhs k] ≠ [] ∧ nvpCopierOf (nvpSet [.rhs k]) = .nowhere ∧ nvpActionOf (nvpSet [.rhs k]) = .nothing := by
  intro k
  cases k <;> exact ⟨all_toks (by decide +kernel), by decide +kernel⟩

/-- `DoneValue r k n v l`: a value of this kind is complete. -/
def DoneValue (r : NvpRun) (k : NvpKind) (n v : Text) (l : Nvp) : Prop :=
  r.lastAction = actOf k ∧ r.name = some n ∧ r.result = l ∧
  ((r.state = nvpSet [.v1 k] ∧ r.lastCopier = .value ∧ r.copied = v) ∨ (r.state = nvpSet [.vOws k] ∧ r.lastCopier = .nowhere ∧ r.value = some v))

theorem value_tags : ∀ k, nvpCopierOf (nvpSet [.v1 k]) = .value ∧ nvpActionOf (nvpSet [.v1 k]) = actOf k ∧ nvpCopierOf (nvpSet [.vOws k]) = .nowhere ∧ nvpActionOf (nvpSet [.vOws k]) = actOf k ∧
    nvpSet [.v1 k] ≠ [] ∧ nvpSet [.vOws k] ≠ [] := by
  intro k; cases k <;> decide +kernel

theorem value_value : ∀ k, ∀ t : NvpTok, t.value = true → nvpNext (nvpSet [.v1 k]) t = nvpSet [.v1 k] := by
  intro k; cases k <;> exact all_toks (by decide +kernel)

/-- A value without quotes. -/
theorem run_value {k : NvpKind} {s0 : List NvpState} (h0 : ∀ t : NvpTok, t.value = true → nvpNext s0 t = nvpSet [.v1 k]) {v : Text} (hv : Of ValueChar v) {a : NvpAction} {cop : Text} {n : Text} {mi va : Option Text} {l : Nvp} :
    ∃ r, NvpRun.run ⟨s0, a, .nowhere, cop, some n, mi, va, l⟩ v = .ok (some r) ∧ DoneValue r k n v l := by
  obtain ⟨t1, t2, _, _, t5, _⟩ := value_tags k
  have hne : actOf k ≠ .nothing ∧ actOf k ≠ .terminator := by cases k <;> decide
  have := run_enter_change (s0 := s0) (s := nvpSet [.v1 k]) (k0 := .nowhere) (k := .value) (a0 := a) (a := actOf k) (fun c hc => h0 _ (tok_value (hv.2 c hc)))
    (fun c hc => value_value k _ (tok_value (hv.2 c (List.mem_of_mem_tail hc)))) hv.1 t5 t1 (by decide) (by rw [t2, if_neg hne.1]) (by rw [t2]; exact hne.2)
    (cop := cop) (nm := some n) (mi := mi) (va := va) (l := l)
  exact ⟨_, this, by simp [DoneValue]⟩

theorem rhs_value : ∀ k, k ≠ .charset → ∀ t : NvpTok, t.value = true → nvpNext (nvpSet [.rhs k]) t = nvpSet [.v1 k] := by
  intro k hk
  cases k
  · exact all_toks (by decide +kernel)
  · exact all_toks (by decide +kernel)
  · exact absurd rfl hk
  · exact all_toks (by decide +kernel)

/-- A value in quotes. -/
theorem run_quoted {k : NvpKind} (hk : k = .normal ∨ k = .cont) {v : Text} (hv : Of QuotedChar v) {a : NvpAction} {cop : Text} {n : Text} {mi va : Option Text} {l : Nvp} :
    ∃ r, NvpRun.run ⟨nvpSet [.rhs k], a, .nowhere, cop, some n, mi, va, l⟩ (bs "\"" ++ v ++ bs "\"") = .ok (some r) ∧ DoneValue r k n v l := by
  have f1 : nvpNext (nvpSet [.rhs k]) (nvpTok 0x22) = nvpSet [.qv0 k] := by rcases hk with rfl | rfl <;> decide +kernel
  have f2 : nvpSet [.qv0 k] ≠ [] ∧ nvpCopierOf (nvpSet [.qv0 k]) = .nowhere ∧ nvpActionOf (nvpSet [.qv0 k]) = .nothing := by rcases hk with rfl | rfl <;> decide +kernel
  have f3 : ∀ t : NvpTok, t.qvalue = true → nvpNext (nvpSet [.qv0 k]) t = nvpSet [.qv1 k] ∧ nvpNext (nvpSet [.qv1 k]) t = nvpSet [.qv1 k] := by rcases hk with rfl | rfl <;> exact all_toks (by decide +kernel)
  have f4 : nvpSet [.qv1 k] ≠ [] ∧ nvpCopierOf (nvpSet [.qv1 k]) = .value ∧ nvpActionOf (nvpSet [.qv1 k]) = .nothing := by rcases hk with rfl | rfl <;> decide +kernel
  have f5 : nvpNext (nvpSet [.qv1 k]) (nvpTok 0x22) = nvpSet [.vOws k] := by rcases hk with rfl | rfl <;> decide +kernel
  obtain ⟨_, _, t3, t4, _, t6⟩ := value_tags k
  have hne : actOf k ≠ .nothing ∧ actOf k ≠ .terminator := by cases k <;> decide
  obtain ⟨cop', h1⟩ := run_char (a0 := a) (k0 := .nowhere) (cop := cop) (nm := some n) (mi := mi) (va := va) (l := l) f1 f2
  have h2 := run_enter_change (s0 := nvpSet [.qv0 k]) (s := nvpSet [.qv1 k]) (k0 := .nowhere) (k := .value) (a0 := a) (a := a) (fun c hc => (f3 _ (tok_quoted (hv.2 c hc))).1)
    (fun c hc => (f3 _ (tok_quoted (hv.2 c (List.mem_of_mem_tail hc)))).2) hv.1 f4.1 f4.2.1 (by decide) (by rw [f4.2.2]; rfl) (by rw [f4.2.2]; decide)
    (cop := cop') (nm := some n) (mi := mi) (va := va) (l := l)
  have h3 := run_enter_change (s0 := nvpSet [.qv1 k]) (s := nvpSet [.vOws k]) (k0 := .value) (k := .nowhere) (a0 := a) (a := actOf k) (t := [0x22]) (by simpa using f5) (by simp) (by simp) t6 t3 (by decide)
    (by rw [t4, if_neg hne.1]) (by rw [t4]; exact hne.2) (cop := v) (nm := some n) (mi := mi) (va := va) (l := l)
  rw [show bs "\"" = [0x22] from by decide, List.append_assoc, run_append _ _ _ _ h1]
  simp only [reduceCtorEq, if_false] at h2 ⊢
  rw [run_append _ _ _ _ h2, h3]
  exact ⟨_, rfl, by simp [DoneValue]⟩

/-- A value in quotes that begins with an escaped character. -/
theorem run_escaped {k : NvpKind} (hk : k = .normal ∨ k = .cont) {e : UInt8} {v : Text} (he : e = 0x22 ∨ e = 0x5c) (hv : ∀ c ∈ v, QuotedChar c) {a : NvpAction} {cop : Text} {n : Text} {mi va : Option Text} {l : Nvp} :
    ∃ r, NvpRun.run ⟨nvpSet [.rhs k], a, .nowhere, cop, some n, mi, va, l⟩ (bs "\"" ++ 0x5c :: e :: v ++ bs "\"") = .ok (some r) ∧ DoneValue r k n (e :: v) l := by
  have f1 : nvpNext (nvpSet [.rhs k]) (nvpTok 0x22) = nvpSet [.qv0 k] := by rcases hk with rfl | rfl <;> decide +kernel
  have f2 : nvpSet [.qv0 k] ≠ [] ∧ nvpCopierOf (nvpSet [.qv0 k]) = .nowhere ∧ nvpActionOf (nvpSet [.qv0 k]) = .nothing := by rcases hk with rfl | rfl <;> decide +kernel
  have e1 : nvpNext (nvpSet [.qv0 k]) (nvpTok 0x5c) = nvpSet [.esc0 k] := by rcases hk with rfl | rfl <;> decide +kernel
  have e2 : nvpSet [.esc0 k] ≠ [] ∧ nvpCopierOf (nvpSet [.esc0 k]) = .nowhere ∧ nvpActionOf (nvpSet [.esc0 k]) = .nothing := by rcases hk with rfl | rfl <;> decide +kernel
  have e3 : nvpNext (nvpSet [.esc0 k]) (nvpTok e) = nvpSet [.qv1 k] := by rcases hk with rfl | rfl <;> rcases he with rfl | rfl <;> decide +kernel
  have f3 : ∀ t : NvpTok, t.qvalue = true → nvpNext (nvpSet [.qv1 k]) t = nvpSet [.qv1 k] := by rcases hk with rfl | rfl <;> exact all_toks (by decide +kernel)
  have f4 : nvpSet [.qv1 k] ≠ [] ∧ nvpCopierOf (nvpSet [.qv1 k]) = .value ∧ nvpActionOf (nvpSet [.qv1 k]) = .nothing := by rcases hk with rfl | rfl <;> decide +kernel
  have f5 : nvpNext (nvpSet [.qv1 k]) (nvpTok 0x22) = nvpSet [.vOws k] := by rcases hk with rfl | rfl <;> decide +kernel
  obtain ⟨_, _, t3, t4, _, t6⟩ := value_tags k
  have hne : actOf k ≠ .nothing ∧ actOf k ≠ .terminator := by cases k <;> decide
  obtain ⟨cop1, h1⟩ := run_char (a0 := a) (k0 := .nowhere) (cop := cop) (nm := some n) (mi := mi) (va := va) (l := l) f1 f2
  obtain ⟨cop2, h1'⟩ := run_char (a0 := a) (k0 := .nowhere) (cop := cop1) (nm := some n) (mi := mi) (va := va) (l := l) e1 e2
  have h2 := run_enter_change (s0 := nvpSet [.esc0 k]) (s := nvpSet [.qv1 k]) (k0 := .nowhere) (k := .value) (a0 := a) (a := a) (t := [e]) (by simpa using e3)
    (by simp) (by simp) f4.1 f4.2.1 (by decide) (by rw [f4.2.2]; rfl) (by rw [f4.2.2]; decide)
    (cop := cop2) (nm := some n) (mi := mi) (va := va) (l := l)
  have h2' := @run_same (nvpSet [.qv1 k]) .value a v (fun c hc => f3 _ (tok_quoted (hv c hc))) f4.2.1 (.inl f4.2.2) (by rw [f4.2.2]; decide) [e] (some n) mi va l f4.1
  have h3 := run_enter_change (s0 := nvpSet [.qv1 k]) (s := nvpSet [.vOws k]) (k0 := .value) (k := .nowhere) (a0 := a) (a := actOf k) (t := [0x22]) (by simpa using f5) (by simp) (by simp) t6 t3 (by decide)
    (by rw [t4, if_neg hne.1]) (by rw [t4]; exact hne.2) (cop := e :: v) (nm := some n) (mi := mi) (va := va) (l := l)
  rw [show bs "\"" = [0x22] from by decide, show [0x22] ++ 0x5c :: e :: v ++ [0x22] = [0x22] ++ ([0x5c] ++ ([e] ++ (v ++ [0x22]))) by simp, run_append _ _ _ _ h1]
  simp only [reduceCtorEq, if_false] at h1' h2 h2' ⊢
  rw [run_append _ _ _ _ h1', run_append _ _ _ _ h2, run_append _ _ _ _ h2']
  simp only [List.singleton_append]
  rw [h3]
  exact ⟨_, rfl, by simp [DoneValue]⟩

/-! ## Types -/

/-- A type is complete. -/
def DoneType (r : NvpRun) (m s : Text) (l : Nvp) : Prop :=
  r.lastAction = .majorMinor ∧ r.name = some m ∧ r.result = l ∧
  ((r.state = nvpSet [.minor] ∧ r.lastCopier = .minor ∧ r.copied = s) ∨ (r.state = nvpSet [.compOut] ∧ r.lastCopier = .nowhere ∧ r.minor = some s))

theorem run_type {m sub : Text} (hm : Of ParamChar m) (hsub : Of SubtypeChar sub) {s : List NvpState} (hs : NvpReady s) {cop : Text} {nm mi va : Option Text} {l : Nvp} :
    ∃ r, NvpRun.run ⟨s, .nothing, .nowhere, cop, nm, mi, va, l⟩ (m ++ bs "/" ++ sub) = .ok (some r) ∧ DoneType r m sub l := by
  have f0 : nvpSet [.bar] ≠ [] ∧ nvpCopierOf (nvpSet [.bar]) = .nowhere ∧ nvpActionOf (nvpSet [.bar]) = .nothing := by decide +kernel
  have f1 : ∀ t : NvpTok, t.minor = true → nvpNext (nvpSet [.bar]) t = nvpSet [.minor] ∧ nvpNext (nvpSet [.minor]) t = nvpSet [.minor] := all_toks (by decide +kernel)
  have f2 : nvpSet [.minor] ≠ [] ∧ nvpCopierOf (nvpSet [.minor]) = .minor ∧ nvpActionOf (nvpSet [.minor]) = .majorMinor := by decide +kernel
  obtain ⟨cop', h1⟩ := run_char (s0 := sName) (c := 0x2f) (a0 := .name) (k0 := .name) (cop := m) (nm := nm) (mi := mi) (va := va) (l := l) (by rw [show nvpTok 0x2f = .slash from by decide]; exact name_slash) f0
  have h2 := run_enter_change (s0 := nvpSet [.bar]) (s := nvpSet [.minor]) (k0 := .nowhere) (k := .minor) (a0 := .name) (a := .majorMinor) (fun c hc => (f1 _ (tok_subtype (hsub.2 c hc))).1)
    (fun c hc => (f1 _ (tok_subtype (hsub.2 c (List.mem_of_mem_tail hc)))).2) hsub.1 f2.1 f2.2.1 (by decide) (by rw [f2.2.2]; rfl) (by rw [f2.2.2]; decide)
    (cop := cop') (nm := some m) (mi := mi) (va := va) (l := l)
  rw [show bs "/" = [0x2f] from by decide, List.append_assoc, run_append _ _ _ _ (run_word hm hs), run_append _ _ _ _ h1]
  simp only [reduceCtorEq, if_false, if_true] at h2 ⊢
  rw [h2]
  exact ⟨_, rfl, by simp [DoneType]⟩

/-! ## The left hand sides of parameters -/

theorem rhs_tags (k : NvpKind) : nvpSet [.rhs k] ≠ [] ∧ nvpCopierOf (nvpSet [.rhs k]) = .nowhere ∧ nvpActionOf (nvpSet [.rhs k]) = .nothing := (rhs_white k).2

/-- `name=` and white space. -/
theorem run_lhs {n ws : Text} (hn : Words n) (hw : White ws) {s : List NvpState} (hs : NvpReady s) {cop : Text} {nm mi va : Option Text} {l : Nvp} :
    ∃ cop', NvpRun.run ⟨s, .nothing, .nowhere, cop, nm, mi, va, l⟩ (n ++ bs "=" ++ ws) = .ok (some ⟨nvpSet [.rhs .normal], .name, .nowhere, cop', some n, mi, va, l⟩) := by
  obtain ⟨s', hs', h1⟩ := run_words (cop := cop) (nm := nm) (mi := mi) (va := va) (l := l) hn hs
  have he : nvpNext s' (nvpTok 0x3d) = nvpSet [.rhs .normal] := by
    rw [show nvpTok 0x3d = .eq from by decide]
    rcases hs' with rfl | rfl
    · exact name_eq.1
    · exact name_eq.2
  obtain ⟨cop', h2⟩ := run_char (a0 := .name) (k0 := .name) (cop := n) (nm := nm) (mi := mi) (va := va) (l := l) he (rhs_tags _)
  rw [show bs "=" = [0x3d] from by decide, List.append_assoc, run_append _ _ _ _ h1, run_append _ _ _ _ h2]
  simp only [reduceCtorEq, if_false, if_true]
  exact ⟨_, run_loop_white hw (rhs_white _).1 (rhs_white _).2⟩

/-- `name*`. -/
theorem run_star {n : Text} (hn : Words n) {s : List NvpState} (hs : NvpReady s) {cop : Text} {nm mi va : Option Text} {l : Nvp} :
    ∃ cop', NvpRun.run ⟨s, .nothing, .nowhere, cop, nm, mi, va, l⟩ (n ++ bs "*") = .ok (some ⟨nvpSet [.star], .name, .nowhere, cop', some n, mi, va, l⟩) := by
  obtain ⟨s', hs', h1⟩ := run_words (cop := cop) (nm := nm) (mi := mi) (va := va) (l := l) hn hs
  have he : nvpNext s' (nvpTok 0x2a) = nvpSet [.star] := by
    rw [show nvpTok 0x2a = .star from by decide]
    rcases hs' with rfl | rfl
    · exact name_star.1
    · exact name_star.2
  obtain ⟨cop', h2⟩ := run_char (a0 := .name) (k0 := .name) (cop := n) (nm := nm) (mi := mi) (va := va) (l := l) he (by decide +kernel)
  rw [show bs "*" = [0x2a] from by decide, run_append _ _ _ _ h1, h2]
  exact ⟨cop', rfl⟩

/-- White space, `=`, and white space, in a state that leads to a right hand side. -/
theorem run_eq {s : List NvpState} {k : NvpKind} {s1 : List NvpState} (hsw : ∀ t : NvpTok, t.white = true → nvpNext s t = s1 ∧ nvpNext s1 t = s1) (ht : s1 ≠ [] ∧ nvpCopierOf s1 = .nowhere ∧ nvpActionOf s1 = .nothing)
    (hse : nvpNext s .eq = nvpSet [.rhs k] ∧ nvpNext s1 .eq = nvpSet [.rhs k]) {ws ws' : Text} (hw : White ws) (hw' : White ws') {a : NvpAction} {cop : Text} {nm mi va : Option Text} {l : Nvp} :
    ∃ cop', NvpRun.run ⟨s, a, .nowhere, cop, nm, mi, va, l⟩ (ws ++ bs "=" ++ ws') = .ok (some ⟨nvpSet [.rhs k], a, .nowhere, cop', nm, mi, va, l⟩) := by
  have hend : ∀ s, nvpNext s .eq = nvpSet [.rhs k] → ∀ cop, ∃ cop', NvpRun.run ⟨s, a, .nowhere, cop, nm, mi, va, l⟩ (bs "=" ++ ws') = .ok (some ⟨nvpSet [.rhs k], a, .nowhere, cop', nm, mi, va, l⟩) := by
    intro s hs cop
    obtain ⟨cop', h2⟩ := run_char (c := 0x3d) (a0 := a) (k0 := .nowhere) (cop := cop) (nm := nm) (mi := mi) (va := va) (l := l) (by rw [show nvpTok 0x3d = .eq from by decide]; exact hs) (rhs_tags k)
    rw [show bs "=" = [0x3d] from by decide, run_append _ _ _ _ h2]
    simp only [reduceCtorEq, if_false]
    exact ⟨_, run_loop_white hw' (rhs_white _).1 (rhs_white _).2⟩
  cases ws with
  | nil => simpa using hend s hse.1 cop
  | cons c ws =>
    have h1 := run_enter_same (s0 := s) (s := s1) (k := .nowhere) (a0 := a) (a := a) (t := c :: ws) (fun x hx => (hsw _ (tok_white (hw x hx))).1) (fun x hx => (hsw _ (tok_white (hw x hx))).2) (by simp) ht.1 ht.2.1
      (by rw [ht.2.2]; rfl) (by rw [ht.2.2]; decide) (cop := cop) (nm := nm) (mi := mi) (va := va) (l := l)
    rw [List.append_assoc, run_append _ _ _ _ h1]
    exact hend s1 hse.2 _

/-- The digits of a part. -/
theorem run_digits {ds : Text} (hd : Of (fun c => isDigit c = true) ds) {a : NvpAction} {cop : Text} {nm mi va : Option Text} {l : Nvp} :
    ∃ s cop', (s = nvpSet [.star0, .digIn, .digOut] ∨ s = nvpSet [.star1, .digIn, .digOut] ∨ s = nvpSet [.digIn, .digOut]) ∧
      NvpRun.run ⟨nvpSet [.star], a, .nowhere, cop, nm, mi, va, l⟩ ds = .ok (some ⟨s, a, .nowhere, cop', nm, mi, va, l⟩) := by
  have f1 : nvpNext (nvpSet [.star]) .zero = nvpSet [.star0, .digIn, .digOut] ∧ nvpNext (nvpSet [.star]) .digit = nvpSet [.star1, .digIn, .digOut] := by decide +kernel
  have f2 : ∀ s ∈ [nvpSet [.star0, .digIn, .digOut], nvpSet [.star1, .digIn, .digOut], nvpSet [.digIn, .digOut]], nvpNext s .zero = nvpSet [.digIn, .digOut] ∧ nvpNext s .digit = nvpSet [.digIn, .digOut] ∧
      s ≠ [] ∧ nvpCopierOf s = .nowhere ∧ nvpActionOf s = .nothing := by decide +kernel
  obtain ⟨hne, hd⟩ := hd
  cases ds with
  | nil => exact absurd rfl hne
  | cons c ds =>
    obtain ⟨s1, hs1, h1⟩ : ∃ s1, s1 ∈ [nvpSet [.star0, .digIn, .digOut], nvpSet [.star1, .digIn, .digOut]] ∧ nvpNext (nvpSet [.star]) (nvpTok c) = s1 := by
      rcases tok_digit (hd c (by simp)) with h | h <;> rw [h]
      · exact ⟨_, by simp, f1.1⟩
      · exact ⟨_, by simp, f1.2⟩
    have g1 := f2 s1 (by simp at hs1 ⊢; rcases hs1 with h | h <;> simp [h])
    obtain ⟨cop', h2⟩ := run_char (a0 := a) (k0 := .nowhere) (cop := cop) (nm := nm) (mi := mi) (va := va) (l := l) h1 g1.2.2
    simp only [reduceCtorEq, if_false] at h2
    rw [show c :: ds = [c] ++ ds from rfl, run_append _ _ _ _ h2]
    cases ds with
    | nil => exact ⟨s1, cop', by simp at hs1; rcases hs1 with h | h <;> simp [h], rfl⟩
    | cons d ds =>
      have g2 := f2 (nvpSet [.digIn, .digOut]) (by simp)
      have e1 : ∀ x ∈ d :: ds, nvpNext s1 (nvpTok x) = nvpSet [.digIn, .digOut] := by
        intro x hx
        rcases tok_digit (hd x (by simp at hx ⊢; exact .inr hx)) with h | h <;> rw [h]
        · exact g1.1
        · exact g1.2.1
      have e2 : ∀ x ∈ d :: ds, nvpNext (nvpSet [.digIn, .digOut]) (nvpTok x) = nvpSet [.digIn, .digOut] := by
        intro x hx
        rcases tok_digit (hd x (by simp at hx ⊢; exact .inr hx)) with h | h <;> rw [h]
        · exact g2.1
        · exact g2.2.1
      exact ⟨_, _, .inr (.inr rfl), run_enter_same e1 e2 (by simp) g2.2.2.1 g2.2.2.2.1 (by rw [g2.2.2.2.2]; rfl) (by rw [g2.2.2.2.2]; decide)⟩

/-- `name*1=` and white space. -/
theorem run_lhs_cont {n ds ws ws' : Text} (hn : Words n) (hd : Of (fun c => isDigit c = true) ds) (hw : White ws) (hw' : White ws') {s : List NvpState} (hs : NvpReady s) {cop : Text} {nm mi va : Option Text} {l : Nvp} :
    ∃ cop', NvpRun.run ⟨s, .nothing, .nowhere, cop, nm, mi, va, l⟩ (n ++ bs "*" ++ ds ++ ws ++ bs "=" ++ ws') = .ok (some ⟨nvpSet [.rhs .cont], .name, .nowhere, cop', some n, mi, va, l⟩) := by
  obtain ⟨cop1, h1⟩ := run_star (cop := cop) (nm := nm) (mi := mi) (va := va) (l := l) hn hs
  obtain ⟨s2, cop2, hs2, h2⟩ := run_digits (a := .name) (cop := cop1) (nm := some n) (mi := mi) (va := va) (l := l) hd
  have f : nvpSet [.digOut] ≠ [] ∧ nvpCopierOf (nvpSet [.digOut]) = .nowhere ∧ nvpActionOf (nvpSet [.digOut]) = .nothing := by decide +kernel
  obtain ⟨cop3, h3⟩ := run_eq (s := s2) (s1 := nvpSet [.digOut]) (k := .cont) (by rcases hs2 with rfl | rfl | rfl <;> exact all_toks (by decide +kernel)) f (by rcases hs2 with rfl | rfl | rfl <;> decide +kernel) hw hw'
    (a := .name) (cop := cop2) (nm := some n) (mi := mi) (va := va) (l := l)
  refine ⟨cop3, ?_⟩
  rw [show n ++ bs "*" ++ ds ++ ws ++ bs "=" ++ ws' = (n ++ bs "*") ++ (ds ++ (ws ++ bs "=" ++ ws')) by simp, run_append _ _ _ _ h1, run_append _ _ _ _ h2, h3]

/-- `name*=` or `name*0*=`, with white space, the charset and two `'`. -/
theorem run_lhs_charset {n z ws ws' cs : Text} (hn : Words n) (hz : z = [] ∨ z = bs "0*") (hw : White ws) (hw' : White ws') (hcs : ∀ c ∈ cs, SubtypeChar c) {s : List NvpState} (hs : NvpReady s) {cop : Text}
    {nm mi va : Option Text} {l : Nvp} :
    ∃ cop' mi', NvpRun.run ⟨s, .nothing, .nowhere, cop, nm, mi, va, l⟩ (n ++ bs "*" ++ z ++ ws ++ bs "=" ++ ws' ++ cs ++ bs "''") = .ok (some ⟨nvpSet [.vIn], .name, .nowhere, cop', some n, mi', va, l⟩) := by
  obtain ⟨cop1, h1⟩ := run_star (cop := cop) (nm := nm) (mi := mi) (va := va) (l := l) hn hs
  have f : nvpSet [.eqS] ≠ [] ∧ nvpCopierOf (nvpSet [.eqS]) = .nowhere ∧ nvpActionOf (nvpSet [.eqS]) = .nothing := by decide +kernel
  obtain ⟨s2, cop2, hs2, h2⟩ : ∃ s2 cop2, (s2 = nvpSet [.star] ∨ s2 = nvpSet [.eqS]) ∧ NvpRun.run ⟨nvpSet [.star], .name, .nowhere, cop1, some n, mi, va, l⟩ z = .ok (some ⟨s2, .name, .nowhere, cop2, some n, mi, va, l⟩) := by
    rcases hz with rfl | rfl
    · exact ⟨_, cop1, .inl rfl, rfl⟩
    · obtain ⟨c1, g1⟩ := run_char (s0 := nvpSet [.star]) (c := 0x30) (s := nvpSet [.star0, .digIn, .digOut]) (a0 := .name) (k0 := .nowhere) (cop := cop1) (nm := some n) (mi := mi) (va := va) (l := l) (by decide +kernel) (by decide +kernel)
      obtain ⟨c2, g2⟩ := run_char (s0 := nvpSet [.star0, .digIn, .digOut]) (c := 0x2a) (s := nvpSet [.eqS]) (a0 := .name) (k0 := .nowhere) (cop := c1) (nm := some n) (mi := mi) (va := va) (l := l) (by decide +kernel) f
      simp only [reduceCtorEq, if_false] at g1 g2
      exact ⟨_, c2, .inr rfl, by rw [show bs "0*" = [0x30] ++ [0x2a] from by decide, run_append _ _ _ _ g1, g2]⟩
  obtain ⟨cop3, h3⟩ := run_eq (s := s2) (s1 := nvpSet [.eqS]) (k := .charset) (by rcases hs2 with rfl | rfl <;> exact all_toks (by decide +kernel)) f (by rcases hs2 with rfl | rfl <;> decide +kernel) hw hw'
    (a := .name) (cop := cop2) (nm := some n) (mi := mi) (va := va) (l := l)
  have g0 : nvpSet [.sq1] ≠ [] ∧ nvpCopierOf (nvpSet [.sq1]) = .nowhere ∧ nvpActionOf (nvpSet [.sq1]) = .nothing := by decide +kernel
  have gv : nvpSet [.vIn] ≠ [] ∧ nvpCopierOf (nvpSet [.vIn]) = .nowhere ∧ nvpActionOf (nvpSet [.vIn]) = .nothing := by decide +kernel
  obtain ⟨cop4, mi4, h4⟩ : ∃ cop4 mi4, NvpRun.run ⟨nvpSet [.rhs .charset], .name, .nowhere, cop3, some n, mi, va, l⟩ (cs ++ [0x27]) = .ok (some ⟨nvpSet [.sq1], .name, .nowhere, cop4, some n, mi4, va, l⟩) := by
    cases cs with
    | nil =>
      obtain ⟨c1, g1⟩ := run_char (s0 := nvpSet [.rhs .charset]) (c := 0x27) (s := nvpSet [.sq1]) (a0 := .name) (k0 := .nowhere) (cop := cop3) (nm := some n) (mi := mi) (va := va) (l := l) (by decide +kernel) g0
      exact ⟨c1, mi, by simpa using g1⟩
    | cons c cs =>
      have e1 : ∀ t : NvpTok, t.minor = true → nvpNext (nvpSet [.rhs .charset]) t = nvpSet [.cs] ∧ nvpNext (nvpSet [.cs]) t = nvpSet [.cs] := all_toks (by decide +kernel)
      have e2 : nvpSet [.cs] ≠ [] ∧ nvpCopierOf (nvpSet [.cs]) = .minor ∧ nvpActionOf (nvpSet [.cs]) = .nothing := by decide +kernel
      have g1 := run_enter_change (s0 := nvpSet [.rhs .charset]) (s := nvpSet [.cs]) (k0 := .nowhere) (k := .minor) (a0 := .name) (a := .name) (t := c :: cs) (fun c hc => (e1 _ (tok_subtype (hcs c hc))).1)
        (fun x hx => (e1 _ (tok_subtype (hcs x (List.mem_of_mem_tail hx)))).2) (by simp) e2.1 e2.2.1 (by decide) (by rw [e2.2.2]; rfl) (by rw [e2.2.2]; decide)
        (cop := cop3) (nm := some n) (mi := mi) (va := va) (l := l)
      simp only [reduceCtorEq, if_false] at g1
      obtain ⟨c2, g2⟩ := run_char (s0 := nvpSet [.cs]) (c := 0x27) (s := nvpSet [.sq1]) (a0 := .name) (k0 := .minor) (cop := c :: cs) (nm := some n) (mi := mi) (va := va) (l := l) (by decide +kernel) g0
      exact ⟨c2, some (c :: cs), by rw [run_append _ _ _ _ g1, g2]; rfl⟩
  obtain ⟨cop5, h5⟩ := run_char (s0 := nvpSet [.sq1]) (c := 0x27) (s := nvpSet [.vIn]) (a0 := .name) (k0 := .nowhere) (cop := cop4) (nm := some n) (mi := mi4) (va := va) (l := l) (by decide +kernel) gv
  refine ⟨cop5, mi4, ?_⟩
  rw [show bs "''" = [0x27, 0x27] from by decide, show n ++ bs "*" ++ z ++ ws ++ bs "=" ++ ws' ++ cs ++ [0x27, 0x27] = (n ++ bs "*") ++ (z ++ ((ws ++ bs "=" ++ ws') ++ ((cs ++ [0x27]) ++ [0x27]))) by simp,
    run_append _ _ _ _ h1, run_append _ _ _ _ h2, run_append _ _ _ _ h3, run_append _ _ _ _ h4, h5]
  simp

/-- `name*1*=` and white space. -/
theorem run_lhs_charsetCont {n ws ws' : Text} {x : UInt8} (hn : Words n) (hx : isAlnum x = true) (hx0 : x ≠ 0x30) (hw : White ws) (hw' : White ws') {s : List NvpState} (hs : NvpReady s) {cop : Text}
    {nm mi va : Option Text} {l : Nvp} :
    ∃ cop', NvpRun.run ⟨s, .nothing, .nowhere, cop, nm, mi, va, l⟩ (n ++ bs "*" ++ [x] ++ bs "*" ++ ws ++ bs "=" ++ ws') = .ok (some ⟨nvpSet [.rhs .charsetCont], .name, .nowhere, cop', some n, mi, va, l⟩) := by
  obtain ⟨cop1, h1⟩ := run_star (cop := cop) (nm := nm) (mi := mi) (va := va) (l := l) hn hs
  have f : nvpSet [.eqSC] ≠ [] ∧ nvpCopierOf (nvpSet [.eqSC]) = .nowhere ∧ nvpActionOf (nvpSet [.eqSC]) = .nothing := by decide +kernel
  obtain ⟨s2, hs2, e2, f2⟩ : ∃ s2, nvpNext (nvpSet [.star]) (nvpTok x) = s2 ∧ nvpNext s2 .star = nvpSet [.eqSC] ∧ s2 ≠ [] ∧ nvpCopierOf s2 = .nowhere ∧ nvpActionOf s2 = .nothing := by
    rcases tok_alnum hx hx0 with h | h <;> rw [h] <;> exact ⟨_, rfl, by decide +kernel⟩
  obtain ⟨c1, g1⟩ := run_char (a0 := .name) (k0 := .nowhere) (cop := cop1) (nm := some n) (mi := mi) (va := va) (l := l) hs2 f2
  obtain ⟨c2, g2⟩ := run_char (s0 := s2) (c := 0x2a) (s := nvpSet [.eqSC]) (a0 := .name) (k0 := .nowhere) (cop := c1) (nm := some n) (mi := mi) (va := va) (l := l)
    (by rw [show nvpTok 0x2a = .star from by decide]; exact e2) f
  obtain ⟨cop3, h3⟩ := run_eq (s := nvpSet [.eqSC]) (s1 := nvpSet [.eqSC]) (k := .charsetCont) (all_toks (by decide +kernel)) f (by decide +kernel) hw hw'
    (a := .name) (cop := c2) (nm := some n) (mi := mi) (va := va) (l := l)
  simp only [reduceCtorEq, if_false] at g1 g2
  refine ⟨cop3, ?_⟩
  rw [show bs "*" = [0x2a] from by decide] at h1 ⊢
  rw [show n ++ [0x2a] ++ [x] ++ [0x2a] ++ ws ++ bs "=" ++ ws' = (n ++ [0x2a]) ++ ([x] ++ ([0x2a] ++ (ws ++ bs "=" ++ ws'))) by simp,
    run_append _ _ _ _ h1, run_append _ _ _ _ g1, run_append _ _ _ _ g2, h3]

end Mairix
