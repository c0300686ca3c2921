import Verif.Model.Mime
import Verif.Spec.Run

/-!
# The texts of a parsed message are C strings
-/

namespace Mairix
open Spec

/-- No null character in it. -/
def OptNZ (o : Option Text) : Prop := ∀ s, o = some s → (0 : UInt8) ∉ s

def NvpEntry.NZ : NvpEntry → Prop
  | .name l => 0 ∉ l
  | .majorMinor l r => 0 ∉ l ∧ 0 ∉ r
  | .nameValue l r => 0 ∉ l ∧ 0 ∉ r

def NvpNZ (n : Nvp) : Prop := ∀ e ∈ n, e.NZ

structure RunNZ (r : NvpRun) : Prop where
  copied : 0 ∉ r.copied
  name : OptNZ r.name
  minor : OptNZ r.minor
  value : OptNZ r.value
  result : NvpNZ r.result

theorem OptNZ.getD {o : Option Text} (h : OptNZ o) : (0 : UInt8) ∉ o.getD [] := by
  cases o with
  | none => simp
  | some s => exact h s rfl

theorem optNZ_none : OptNZ none := fun _ h => by cases h

theorem optNZ_some {s : Text} (h : 0 ∉ s) : OptNZ (some s) := fun _ e => by cases e; exact h

theorem takeWhile_nz (t : Text) : (0 : UInt8) ∉ t.takeWhile (· != 0) := by
  intro h
  have := List.all_takeWhile (p := fun c : UInt8 => c != 0) (l := t)
  rw [List.all_eq_true] at this
  exact absurd (this 0 h) (by decide)

theorem nvpNZ_snoc {n : Nvp} {e : NvpEntry} (h : NvpNZ n) (he : e.NZ) : NvpNZ (n ++ [e]) := by
  intro x hx
  rcases List.mem_append.1 hx with hx | hx
  · exact h x hx
  · rw [List.mem_singleton.1 hx]; exact he

theorem nvpCombine_nz {name value : Option Text} (hn : OptNZ name) (hv : OptNZ value) : ∀ {n n' : Nvp}, NvpNZ n → nvpCombine name value n = .ok n' → NvpNZ n'
  | [], n', _, e => by
    simp only [nvpCombine, Except.ok.injEq] at e
    subst e
    intro x hx
    rw [List.mem_singleton.1 hx]
    exact ⟨hn.getD, hv.getD⟩
  | .nameValue l r :: rest, n', h, e => by
    simp only [nvpCombine] at e
    have hl := h _ (List.mem_cons_self ..)
    split at e
    · cases e
    · split at e
      · split at e
        · cases e
        · rename_i v
          cases e
          intro x hx
          rcases List.mem_cons.1 hx with rfl | hx
          · refine ⟨hl.1, ?_⟩
            have := hv v rfl
            simp [hl.2, this]
          · exact h x (List.mem_cons_of_mem _ hx)
      · simp only [bind, Except.bind] at e
        split at e
        · cases e
        · rename_i n2 e2
          cases e
          intro x hx
          rcases List.mem_cons.1 hx with rfl | hx
          · exact hl
          · exact nvpCombine_nz hn hv (fun y hy => h y (List.mem_cons_of_mem _ hy)) e2 x hx
  | .name l :: rest, n', h, e => by
    simp only [nvpCombine, bind, Except.bind] at e
    split at e
    · cases e
    · rename_i n2 e2
      cases e
      intro x hx
      rcases List.mem_cons.1 hx with rfl | hx
      · exact h _ (List.mem_cons_self ..)
      · exact nvpCombine_nz hn hv (fun y hy => h y (List.mem_cons_of_mem _ hy)) e2 x hx
  | .majorMinor l r :: rest, n', h, e => by
    simp only [nvpCombine, bind, Except.bind] at e
    split at e
    · cases e
    · rename_i n2 e2
      cases e
      intro x hx
      rcases List.mem_cons.1 hx with rfl | hx
      · exact h _ (List.mem_cons_self ..)
      · exact nvpCombine_nz hn hv (fun y hy => h y (List.mem_cons_of_mem _ hy)) e2 x hx

theorem runNZ_copy {r : NvpRun} (h : RunNZ r) : RunNZ r.copy := by
  unfold NvpRun.copy
  split
  · dsimp only
    split
    · exact ⟨by simp, h.name, h.minor, h.value, h.result⟩
    · exact ⟨by simp, optNZ_some h.copied, h.minor, h.value, h.result⟩
    · exact ⟨by simp, h.name, optNZ_some h.copied, h.value, h.result⟩
    · exact ⟨by simp, h.name, h.minor, optNZ_some h.copied, h.result⟩
  · exact h

theorem runNZ_took {r : NvpRun} (h : RunNZ r) {res : Nvp} (hr : NvpNZ res) : RunNZ (r.took res) := by
  unfold NvpRun.took
  split
  · exact ⟨h.copied, h.name, h.minor, h.value, hr⟩
  · exact ⟨h.copied, optNZ_none, h.minor, optNZ_none, hr⟩

theorem runNZ_percent {r r' : NvpRun} (h : RunNZ r) (e : (match r.value with
    | none => .error .outOfBounds
    | some v =>
      match nvpPercent v with
      | none => .ok none
      | some v => do
        let res ← nvpCombine r.name (some (v.takeWhile (· != 0))) r.result
        .ok (some (NvpRun.took { r with value := some (v.takeWhile (· != 0)) } res)) : Res (Option NvpRun)) = .ok (some r')) : RunNZ r' := by
  cases hv : r.value with
  | none => rw [hv] at e; cases e
  | some v =>
    rw [hv] at e
    dsimp only at e
    cases hp : nvpPercent v with
    | none => rw [hp] at e; cases e
    | some w =>
      rw [hp] at e
      simp only [bind, Except.bind] at e
      split at e
      · cases e
      · rename_i res er
        cases e
        exact runNZ_took (r := { r with value := some (w.takeWhile (· != 0)) }) ⟨h.copied, h.name, h.minor, optNZ_some (takeWhile_nz _), h.result⟩ (nvpCombine_nz h.name (optNZ_some (takeWhile_nz _)) h.result er)

theorem runNZ_terminate {r r' : NvpRun} (h : RunNZ r) (e : r.terminate = .ok (some r')) : RunNZ r' := by
  unfold NvpRun.terminate at e
  split at e
  · cases e
    exact ⟨h.copied, optNZ_none, h.minor, h.value, nvpNZ_snoc h.result h.name.getD⟩
  · simp only [bind, Except.bind] at e
    split at e
    · cases e
    · rename_i n en
      cases e
      refine ⟨h.copied, optNZ_none, h.minor, h.value, nvpNZ_snoc h.result ?_⟩
      unfold nvpTrim at en
      split at en
      · cases en
      · rename_i s hs
        split at en
        · cases en
        · cases en
          intro hz
          exact h.name s hs (by simpa using (List.dropWhile_sublist isSpace).subset (List.mem_reverse.1 hz))
  · cases e
    exact ⟨h.copied, optNZ_none, optNZ_none, h.value, nvpNZ_snoc h.result ⟨h.name.getD, h.minor.getD⟩⟩
  · cases e
    exact ⟨h.copied, optNZ_none, h.minor, optNZ_none, nvpNZ_snoc h.result ⟨h.name.getD, h.value.getD⟩⟩
  · exact runNZ_percent h e
  · exact runNZ_percent h e
  · simp only [bind, Except.bind] at e
    split at e
    · cases e
    · rename_i res er
      cases e
      exact runNZ_took h (nvpCombine_nz h.name h.value h.result er)
  · cases e; exact h

/-- The part of a step that depends on the action. -/
theorem runNZ_act {r1 r2 : NvpRun} {a : NvpAction} (h1 : RunNZ r1) (e : (match a with
      | .nothing => .ok (some r1)
      | .terminator => (r1.terminate).map (Option.map fun r => { r with lastAction := .nothing })
      | a => .ok (some { r1 with lastAction := a }) : Res (Option NvpRun)) = .ok (some r2)) : RunNZ r2 := by
  split at e
  · cases e; exact h1
  · simp only [Except.map] at e
    split at e
    · cases e
    · rename_i o2 e2
      cases o2 with
      | none => cases e
      | some r3 =>
        simp only [Option.map_some, Except.ok.injEq, Option.some.injEq] at e
        rw [← e]
        have := runNZ_terminate h1 e2
        exact ⟨this.copied, this.name, this.minor, this.value, this.result⟩
  · cases e
    exact ⟨h1.copied, h1.name, h1.minor, h1.value, h1.result⟩

theorem runNZ_step {r r' : NvpRun} {c : Option UInt8} (h : RunNZ r) (hc : c ≠ some 0) (e : r.step c = .ok (some r')) : RunNZ r' := by
  have h1 : ∀ s, RunNZ (NvpRun.copy { r with state := s }) := fun s => runNZ_copy ⟨h.copied, h.name, h.minor, h.value, h.result⟩
  cases c with
  | none =>
    simp only [NvpRun.step] at e
    by_cases hs : nvpNext r.state .eos = []
    · rw [if_pos hs] at e; cases e
    · rw [if_neg hs] at e
      generalize hr1 : NvpRun.copy { r with state := nvpNext r.state .eos } = r1 at e
      have g1 : RunNZ r1 := by rw [← hr1]; exact h1 _
      generalize nvpActionOf (nvpNext r.state .eos) = a at e
      cases a
      case terminator =>
        simp only [bind, Except.bind, Except.map] at e
        split at e
        · cases e
        · rename_i o eo
          cases o with
          | none => cases e
          | some r2 =>
            cases e
            exact runNZ_act (a := .terminator) g1 eo
      all_goals
        cases e
        exact ⟨g1.copied, g1.name, g1.minor, g1.value, g1.result⟩
  | some c =>
    simp only [NvpRun.step] at e
    by_cases hs : nvpNext r.state (nvpTok c) = []
    · rw [if_pos hs] at e; cases e
    · rw [if_neg hs] at e
      generalize hr1 : NvpRun.copy { r with state := nvpNext r.state (nvpTok c) } = r1 at e
      have g1 : RunNZ r1 := by rw [← hr1]; exact h1 _
      generalize nvpActionOf (nvpNext r.state (nvpTok c)) = a at e
      have hc' : c ≠ 0 := fun h0 => hc (by rw [h0])
      have fin : ∀ r2 : NvpRun, RunNZ r2 → RunNZ { r2 with copied := r2.copied ++ [c] } := by
        intro r2 h2
        exact ⟨by simp [h2.copied, hc'.symm], h2.name, h2.minor, h2.value, h2.result⟩
      cases a
      case terminator =>
        simp only [bind, Except.bind, Except.map] at e
        split at e
        · cases e
        · rename_i o eo
          cases o with
          | none => cases e
          | some r2 =>
            cases e
            refine fin _ (runNZ_act (a := .terminator) g1 ?_)
            exact eo
      all_goals
        cases e
        exact fin _ ⟨g1.copied, g1.name, g1.minor, g1.value, g1.result⟩

theorem runNZ_loop : ∀ {t : Text} {r : NvpRun} {n : Nvp}, RunNZ r → 0 ∉ t → r.loop t = .ok (some n) → NvpNZ n
  | [], r, n, h, _, e => by
    simp only [NvpRun.loop, bind, Except.bind] at e
    split at e
    · cases e
    · rename_i o eo
      cases o with
      | none => cases e
      | some r2 =>
        simp only [Option.map_some, Except.ok.injEq, Option.some.injEq] at e
        rw [← e]
        exact (runNZ_step h (by simp) eo).result
  | c :: t, r, n, h, h0, e => by
    simp only [NvpRun.loop, bind, Except.bind] at e
    rw [List.mem_cons, not_or] at h0
    split at e
    · cases e
    · rename_i o eo
      cases o with
      | none => cases e
      | some r2 =>
        exact runNZ_loop (runNZ_step h (fun hc => h0.1 (Option.some.inj hc).symm) eo) h0.2 e

theorem makeNvp_nz {s pfx : Text} {n : Nvp} (h0 : 0 ∉ s) (e : makeNvp s pfx = .ok (some n)) : NvpNZ n := by
  unfold makeNvp at e
  split at e
  · refine runNZ_loop ⟨by simp [NvpRun.start], optNZ_none, optNZ_none, optNZ_none, ?_⟩ ?_ e
    · intro x hx; simp [NvpRun.start] at hx
    · exact fun h => h0 (List.drop_subset _ _ h)
  · cases e

/-! ## The header -/

theorem copyHeaderValue_nz {t : Text} {o : Option Text} (e : copyHeaderValue t = .ok o) : OptNZ o := by
  unfold copyHeaderValue at e
  split at e
  · cases e; exact optNZ_none
  · simp only [decodeHeaderValue, bind, Except.bind, Except.map] at e
    split at e
    · cases e
    · rename_i r er
      split at er
      · cases er
      · cases er
        cases e
        exact optNZ_some (takeWhile_nz _)

structure ScanNZ (st : HeaderScan) : Prop where
  messageId : OptNZ st.hdrs.messageId
  inReplyTo : OptNZ st.hdrs.inReplyTo
  references : OptNZ st.hdrs.references
  ct : ∀ n, st.ct = some n → NvpNZ n
  cd : ∀ n, st.cd = some n → NvpNZ n

theorem firstNvp_nz {cur : Option Nvp} {x pfx : Text} {n : Nvp} (h0 : 0 ∉ x) (e : firstNvp cur x pfx = .ok (some n)) : NvpNZ n := by
  unfold firstNvp at e
  split at e
  · cases e
  · exact makeNvp_nz h0 e

theorem scanStatus_same (t : Text) : ∀ h : Headers, (scanStatusFlags t h).messageId = h.messageId ∧ (scanStatusFlags t h).inReplyTo = h.inReplyTo ∧ (scanStatusFlags t h).references = h.references := by
  induction t with
  | nil => intro h; exact ⟨rfl, rfl, rfl⟩
  | cons c t ih =>
    intro h
    unfold scanStatusFlags
    obtain ⟨h1, h2, h3⟩ := ih (if c = 0x52 then { h with seen := true } else if c = 0x41 then { h with replied := true } else if c = 0x46 then { h with flagged := true } else h)
    rw [h1, h2, h3]
    split
    · exact ⟨rfl, rfl, rfl⟩
    · split
      · exact ⟨rfl, rfl, rfl⟩
      · split <;> exact ⟨rfl, rfl, rfl⟩

theorem scanRest_nz {mktime : Nat → Nat → Nat → Int} {st st' : HeaderScan} {x : Text} (h : ScanNZ st) (e : scanRest mktime st x = .ok st') : ScanNZ st' := by
  unfold scanRest at e
  split at e
  · simp only [bind, Except.bind] at e
    split at e
    · cases e
    · split at e
      · cases e
      · split at e
        · cases e
        · cases e
          exact ⟨h.messageId, h.inReplyTo, h.references, h.ct, h.cd⟩
  · split at e
    · simp only [bind, Except.bind] at e
      split at e
      · cases e
      · rename_i v ev
        cases e
        exact ⟨copyHeaderValue_nz ev, h.inReplyTo, h.references, h.ct, h.cd⟩
    · split at e
      · simp only [bind, Except.bind] at e
        split at e
        · cases e
        · rename_i v ev
          cases e
          exact ⟨h.messageId, copyHeaderValue_nz ev, h.references, h.ct, h.cd⟩
      · split at e
        · simp only [bind, Except.bind] at e
          split at e
          · cases e
          · rename_i v ev
            cases e
            exact ⟨h.messageId, h.inReplyTo, copyHeaderValue_nz ev, h.ct, h.cd⟩
        · have key : ∀ t, ScanNZ { st with hdrs := scanStatusFlags t st.hdrs } := by
            intro t
            obtain ⟨h1, h2, h3⟩ := scanStatus_same t st.hdrs
            exact ⟨by rw [h1]; exact h.messageId, by rw [h2]; exact h.inReplyTo, by rw [h3]; exact h.references, h.ct, h.cd⟩
          split at e
          · cases e; exact key _
          · split at e
            · cases e; exact key _
            · cases e; exact h

theorem scanLine_nz {mktime : Nat → Nat → Nat → Int} {st st' : HeaderScan} {x : Text} (h0 : 0 ∉ x) (h : ScanNZ st) (e : scanLine mktime st x = .ok st') : ScanNZ st' := by
  unfold scanLine at e
  split at e
  · simp only [bind, Except.bind] at e
    split at e
    · cases e
    · cases e; exact ⟨h.messageId, h.inReplyTo, h.references, h.ct, h.cd⟩
  split at e
  · simp only [bind, Except.bind] at e
    split at e
    · cases e
    · cases e; exact ⟨h.messageId, h.inReplyTo, h.references, h.ct, h.cd⟩
  split at e
  · simp only [bind, Except.bind] at e
    split at e
    · cases e
    · cases e; exact ⟨h.messageId, h.inReplyTo, h.references, h.ct, h.cd⟩
  split at e
  · simp only [bind, Except.bind] at e
    split at e
    · cases e
    · cases e; exact ⟨h.messageId, h.inReplyTo, h.references, h.ct, h.cd⟩
  simp only [bind, Except.bind] at e
  split at e
  · cases e
  · rename_i o1 e1
    split at e
    · cases e
      exact ⟨h.messageId, h.inReplyTo, h.references, fun n hn => by cases hn; exact firstNvp_nz h0 e1, h.cd⟩
    · split at e
      · cases e
      · split at e
        · cases e
          exact ⟨h.messageId, h.inReplyTo, h.references, h.ct, h.cd⟩
        · split at e
          · cases e
          · rename_i o3 e3
            split at e
            · cases e
              exact ⟨h.messageId, h.inReplyTo, h.references, h.ct, fun n hn => by cases hn; exact firstNvp_nz h0 e3⟩
            · exact scanRest_nz h e

theorem scanHeader_nz {mktime : Nat → Nat → Nat → Int} : ∀ {xs : List Text} {st st' : HeaderScan}, (∀ x ∈ xs, 0 ∉ x) → ScanNZ st → scanHeader mktime st xs = .ok st' → ScanNZ st'
  | [], st, st', _, h, e => by cases e; exact h
  | x :: xs, st, st', h0, h, e => by
    simp only [scanHeader, bind, Except.bind] at e
    split at e
    · cases e
    · rename_i s1 e1
      exact scanHeader_nz (fun y hy => h0 y (List.mem_cons_of_mem _ hy)) (scanLine_nz (h0 x (List.mem_cons_self ..)) h e1) e

theorem scanPart_nz : ∀ {xs : List Text} {st st' : HeaderScan}, (∀ x ∈ xs, 0 ∉ x) → ScanNZ st → scanPart st xs = .ok st' → ScanNZ st'
  | [], st, st', _, h, e => by cases e; exact h
  | x :: xs, st, st', h0, h, e => by
    simp only [scanPart, bind, Except.bind] at e
    split at e
    · cases e
    · rename_i s1 e1
      refine scanPart_nz (fun y hy => h0 y (List.mem_cons_of_mem _ hy)) ?_ e
      have hx := h0 x (List.mem_cons_self ..)
      simp only [scanPartLine, bind, Except.bind] at e1
      split at e1
      · cases e1
      · rename_i o1 g1
        split at e1
        · cases e1
          exact ⟨h.messageId, h.inReplyTo, h.references, fun n hn => by cases hn; exact makeNvp_nz hx g1, h.cd⟩
        · split at e1
          · cases e1
          · split at e1
            · cases e1
              exact ⟨h.messageId, h.inReplyTo, h.references, h.ct, h.cd⟩
            · split at e1
              · cases e1
              · rename_i o3 g3
                split at e1
                · cases e1
                  exact ⟨h.messageId, h.inReplyTo, h.references, h.ct, fun n hn => by cases hn; exact makeNvp_nz hx g3⟩
                · cases e1; exact h

theorem takeLine_nz : ∀ (t : Text), 0 ∉ (takeLine t).1
  | [] => by simp [takeLine]
  | c :: t => by
    unfold takeLine
    split
    · simp
    · rename_i hc
      split
      · simp
      · have := takeLine_nz t
        simp only [List.mem_cons, not_or]
        exact ⟨fun h => hc h.symm, this⟩

theorem splitHeader_nz : ∀ {fuel : Nat} {data : Text} {lines : List Text} {r : List Text × Text}, (∀ x ∈ lines, 0 ∉ x) → splitHeader fuel data lines = .ok (some r) → ∀ x ∈ r.1, 0 ∉ x
  | 0, data, lines, r, _, e => by cases e
  | fuel + 1, data, lines, r, h, e => by
    unfold splitHeader at e
    split at e
    · cases e; exact h
    · split at e
      · cases e; exact h
      · split at e
        · cases e
        · cases e
        · rename_i l rest el
          split at e
          · cases e; exact h
          · refine splitHeader_nz ?_ e
            intro x hx
            rcases List.mem_append.1 hx with hx | hx
            · exact h x hx
            · rw [List.mem_singleton.1 hx]
              have h2 := congrArg Prod.fst el
              dsimp only at h2
              rw [← h2]
              exact takeLine_nz _

theorem spliceLines_nz : ∀ {xs done r : List Text}, (∀ x ∈ xs, 0 ∉ x) → (∀ x ∈ done, 0 ∉ x) → spliceLines done xs = .ok r → ∀ x ∈ r, 0 ∉ x
  | [], done, r, _, h, e => by cases e; exact h
  | [] :: xs, done, r, h1, h, e => by
    simp only [spliceLines] at e
    refine spliceLines_nz (fun y hy => h1 y (List.mem_cons_of_mem _ hy)) ?_ e
    intro x hx
    rcases List.mem_append.1 hx with hx | hx
    · exact h x hx
    · rw [List.mem_singleton.1 hx]; simp
  | (c :: t) :: xs, done, r, h1, h, e => by
    simp only [spliceLines] at e
    have hx1 := h1 _ (List.mem_cons_self ..)
    have hrest := fun y hy => h1 y (List.mem_cons_of_mem _ hy)
    split at e
    · split at e
      · cases e
      · rename_i y hy
        refine spliceLines_nz hrest ?_ e
        intro x hx
        rcases List.mem_append.1 hx with hx | hx
        · exact h x (List.dropLast_subset _ hx)
        · rw [List.mem_singleton.1 hx]
          have h2 := h y (List.mem_of_getLast? hy)
          have h3 : 0 ∉ glued (c :: t) := fun hz => hx1 (List.drop_subset _ _ hz)
          simp [h2, h3]
    · refine spliceLines_nz hrest ?_ e
      intro x hx
      rcases List.mem_append.1 hx with hx | hx
      · exact h x hx
      · rw [List.mem_singleton.1 hx]; exact hx1

theorem splitAndSplice_nz {data : Text} {r : List Text × Text} (e : splitAndSplice data = .ok (some r)) : ∀ x ∈ r.1, 0 ∉ x := by
  simp only [splitAndSplice, bind, Except.bind] at e
  split at e
  · cases e
  · rename_i o eo
    split at e
    · cases e
    · rename_i lines body
      split at e
      · split at e
        · cases e
        · rename_i ls el
          cases e
          exact spliceLines_nz (splitHeader_nz (by simp) eo) (by simp) el
      · cases e

/-! ## Parts -/

theorem nvpLookup_nz {name v : Text} : ∀ {n : Nvp}, NvpNZ n → nvpLookup name n = some v → 0 ∉ v
  | [], _, e => by cases e
  | .nameValue l r :: rest, h, e => by
    simp only [nvpLookup] at e
    split at e
    · cases e; exact (h _ (List.mem_cons_self ..)).2
    · exact nvpLookup_nz (fun y hy => h y (List.mem_cons_of_mem _ hy)) e
  | .name _ :: rest, h, e => nvpLookup_nz (fun y hy => h y (List.mem_cons_of_mem _ hy)) (by simpa only [nvpLookup] using e)
  | .majorMinor _ _ :: rest, h, e => nvpLookup_nz (fun y hy => h y (List.mem_cons_of_mem _ hy)) (by simpa only [nvpLookup] using e)

theorem nvpLookupCase_nz {name v : Text} : ∀ {n : Nvp}, NvpNZ n → nvpLookupCase name n = some v → 0 ∉ v
  | [], _, e => by cases e
  | .nameValue l r :: rest, h, e => by
    simp only [nvpLookupCase] at e
    split at e
    · cases e; exact (h _ (List.mem_cons_self ..)).2
    · exact nvpLookupCase_nz (fun y hy => h y (List.mem_cons_of_mem _ hy)) e
  | .name _ :: rest, h, e => nvpLookupCase_nz (fun y hy => h y (List.mem_cons_of_mem _ hy)) (by simpa only [nvpLookupCase] using e)
  | .majorMinor _ _ :: rest, h, e => nvpLookupCase_nz (fun y hy => h y (List.mem_cons_of_mem _ hy)) (by simpa only [nvpLookupCase] using e)

theorem attFilename_nz {ct : Nvp} {cd : Option Nvp} (h1 : NvpNZ ct) (h2 : ∀ n, cd = some n → NvpNZ n) : OptNZ (attFilename ct cd) := by
  intro s e
  unfold attFilename at e
  split at e
  · cases e
  · rename_i cd
    split at e
    · split at e
      · rename_i f hf
        cases e
        exact nvpLookupCase_nz (h2 _ rfl) hf
      · exact nvpLookup_nz h1 e
    · cases e

theorem ctext_append : ∀ {a b : Attachments}, CTextParts a → CTextParts b → CTextParts (a.append b)
  | .nil, b, _, h => by simpa only [Attachments.append] using h
  | .cons x f rest, b, h1, h => by
    simp only [CTextParts, Attachments.append] at h1 ⊢
    exact ⟨h1.1, h1.2.1, ctext_append h1.2.2 h⟩

/-- The functions for what is inside give C strings. -/
structure MimeNZ (m : Mime) : Prop where
  message : ∀ mem len r e, m.message mem len = .ok (some r, e) → CText r
  part : ∀ mem len a, m.part mem len = .ok a → CTextParts a

theorem parts_nz {m : Mime} (hm : MimeNZ m) : ∀ {ps : List (Text × Nat)} {a : Attachments}, m.parts ps = .ok a → CTextParts a
  | [], a, e => by cases e; simp only [CTextParts]
  | (mem, len) :: ps, a, e => by
    simp only [Mime.parts, bind, Except.bind] at e
    split at e
    · cases e
    · rename_i a1 e1
      split at e
      · cases e
      · rename_i a2 e2
        cases e
        exact ctext_append (hm.part _ _ _ e1) (parts_nz hm e2)

theorem ctext_one {b : Body} {f : Option Text} (hb : CTextBody b) (hf : OptNZ f) : CTextParts (.cons b f .nil) := by
  simp only [CTextParts]
  exact ⟨hb, hf, trivial⟩

theorem doBody_nz {m : Mime} (hm : MimeNZ m) {mem : Text} {len : Nat} {ct cte cd : Option Nvp} (h1 : ∀ n, ct = some n → NvpNZ n) (h2 : ∀ n, cd = some n → NvpNZ n)
    {r : Attachments × MimeError} (e : doBody m mem len ct cte cd = .ok r) : CTextParts r.1 := by
  unfold doBody at e
  split at e
  · cases e; simp only [CTextParts]
  · simp only [bind, Except.bind] at e
    split at e
    · cases e
    · rename_i decoded _
      split at e
      · cases e
        exact ctext_one (by simp only [CTextBody]) optNZ_none
      · rename_i ct
        have hf := attFilename_nz (h1 _ rfl) h2
        split at e
        · unfold doMultipart at e
          split at e
          · cases e; simp only [CTextParts]
          · simp only [bind, Except.bind] at e
            split at e
            · cases e
            · split at e
              · cases e
              · rename_i a ea
                cases e
                exact parts_nz hm ea
        · unfold doUnipart at e
          split at e
          · split at e
            · cases e; exact ctext_one (by simp only [CTextBody]) hf
            · split at e
              · cases e; exact ctext_one (by simp only [CTextBody]) hf
              · cases e; exact ctext_one (by simp only [CTextBody]) hf
          · split at e
            · simp only [bind, Except.bind] at e
              split at e
              · cases e
              · rename_i o eo
                obtain ⟨o1, o2⟩ := o
                dsimp only at e
                split at e
                · cases e; exact ctext_one (by simp only [CTextBody]) hf
                · cases e
                  exact ctext_one (by simp only [CTextBody]; exact hm.message _ _ _ _ eo) hf
            · cases e; exact ctext_one (by simp only [CTextBody]) hf

theorem initScan_nz : ScanNZ ⟨initHeaders, none, none, none⟩ :=
  ⟨optNZ_none, optNZ_none, optNZ_none, (fun _ h => by cases h), (fun _ h => by cases h)⟩

theorem mime_nz (mktime : Nat → Nat → Nat → Int) : ∀ n, MimeNZ (mime mktime n)
  | 0 => ⟨(fun _ _ _ _ e => by cases e), (fun _ _ _ e => by cases e)⟩
  | n + 1 => by
    have ih := mime_nz mktime n
    constructor
    · intro mem len r e h
      simp only [mime, dataToRfc822, bind, Except.bind] at h
      split at h
      · cases h
      · rename_i o eo
        split at h
        · cases h
        · rename_i lines body
          split at h
          · cases h
          · rename_i st est
            have hst := scanHeader_nz (splitAndSplice_nz eo) initScan_nz est
            split at h
            · cases h
            · rename_i a ea
              cases h
              simp only [CText]
              exact ⟨hst.messageId, hst.inReplyTo, hst.references, doBody_nz ih hst.ct hst.cd ea⟩
    · intro mem len a h
      simp only [mime, doAttachment, bind, Except.bind] at h
      split at h
      · cases h
      · rename_i o eo
        split at h
        · cases h; simp only [CTextParts]
        · rename_i lines body
          split at h
          · cases h
          · rename_i st est
            have hst := scanPart_nz (splitAndSplice_nz eo) initScan_nz est
            split at h
            · cases h
            · rename_i a ea
              cases h
              exact doBody_nz ih hst.ct hst.cd ea

/-- What is made of any data consists of C strings. -/
theorem parse_ctext {mktime : Nat → Nat → Nat → Int} {data after : Text} {r : Rfc822} {e : MimeError} (h : parseMessage mktime data after = .ok (some r, e)) : CText r :=
  (mime_nz mktime _).message _ _ _ _ h

end Mairix
