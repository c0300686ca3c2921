import Verif.Spec.Expand
import Verif.Proofs.CullFuel

/-!
# Expansion of configuration values (C31)
-/

namespace Mairix
open Spec

theorem valueIs_value (e : Env) (name : Text) : Env.valueIs e name (e.value name) := by
  unfold Env.valueIs Env.value
  cases h : e.get name <;> simp

theorem valueIs_eq {e : Env} {name v : Text} (h : Env.valueIs e name v) : e.value name = v := by
  unfold Env.valueIs Env.value at *
  rcases h with h | ⟨h, rfl⟩ <;> simp [h]

theorem isEnv_iff (c : UInt8) : isEnv c = true ↔ NameChar c := by
  simp [isEnv, NameChar, isAlnum, or_assoc]

theorem drop_takeWhile_len {α : Type} (p : α → Bool) (l : List α) : l.drop (l.takeWhile p).length = l.dropWhile p := by
  induction l with
  | nil => rfl
  | cons a l ih => by_cases ha : p a = true <;> simp [ha, ih]

theorem dropWhile_head {α : Type} {p : α → Bool} {l : List α} {c : α} (h : (l.dropWhile p).head? = some c) : p c = false := by
  induction l with
  | nil => simp at h
  | cons a l ih =>
    by_cases ha : p a = true
    · rw [List.dropWhile_cons_of_pos ha] at h; exact ih h
    · rw [List.dropWhile_cons_of_neg ha] at h
      simp at h
      subst h; simpa using ha

theorem takeWhile_to {α : Type} {p : α → Bool} {a b : List α} (ha : ∀ c ∈ a, p c = true) (hb : ∀ c, b.head? = some c → p c = false) :
    (a ++ b).takeWhile p = a := by
  induction a with
  | nil =>
    cases b with
    | nil => rfl
    | cons c b => simp [hb c rfl]
  | cons c a ih =>
    simp only [List.cons_append]
    rw [List.takeWhile_cons_of_pos (ha c (by simp)), ih (fun x hx => ha x (by simp [hx]))]

/-- The copy of a value of a variable as `append_env` makes it. -/
theorem appendEnv_ok {e : Env} {cap : Nat} {out name v : Text} (h : Env.valueIs e name v) (hc : out.length + v.length + 1 ≤ cap) :
    appendEnv e cap out name = .ok (out ++ v) := by
  unfold appendEnv
  rcases h with h | ⟨h, rfl⟩
  · simp [h, copyTo, hc]
  · simp [h]

theorem stands_runs {e : Env} {p r : Text} (h : Stands e p r) : ∀ fuel first, p.length < fuel → (first = true → p.take 2 ≠ bs "~/") →
    (∀ len, computeLength e fuel first len p = .ok (len + r.length)) ∧
    (∀ cap out, out.length + r.length + 1 ≤ cap → doExpand e cap fuel first out p = .ok (out ++ r)) := by
  induction h with
  | nil =>
    intro fuel first hf _
    obtain ⟨fuel, rfl⟩ := Nat.exists_eq_succ_of_ne_zero (by simp at hf; omega : fuel ≠ 0)
    refine ⟨fun len => rfl, fun cap out hc => ?_⟩
    simp at hc
    simp [doExpand, hc]
  | @char c t r hc _ ih =>
    intro fuel first hf hfirst
    simp only [List.length_cons] at hf
    obtain ⟨fuel, rfl⟩ := Nat.exists_eq_succ_of_ne_zero (by omega : fuel ≠ 0)
    have hno : ¬ (first = true ∧ c = 0x7e ∧ t.head? = some 0x2f) := by
      rintro ⟨h1, h2, h3⟩
      cases t with
      | nil => simp at h3
      | cons d t =>
        simp at h3
        exact hfirst h1 (by subst h2 h3; rfl)
    have hi := ih fuel false (by omega) (by simp)
    refine ⟨fun len => ?_, fun cap out hcap => ?_⟩
    · simp only [computeLength, if_neg hno, if_neg (show ¬ (c = 0x24 ∧ _) from fun h => hc h.1), if_neg hc]
      rw [hi.1]; simp; omega
    · simp only [List.length_cons] at hcap
      simp only [doExpand, if_neg hno, if_neg (show ¬ (c = 0x24 ∧ _) from fun h => hc h.1), if_neg hc, storeTo, if_pos (show out.length + 1 ≤ cap by omega), bind, Except.bind]
      rw [hi.2 cap _ (by simp; omega)]; simp
  | @braced name v t r hn hv _ ih =>
    intro fuel first hf hfirst
    obtain ⟨fuel, rfl⟩ := Nat.exists_eq_succ_of_ne_zero (by omega : fuel ≠ 0)
    have e1 : bs "${" ++ name ++ bs "}" ++ t = 0x24 :: 0x7b :: (name ++ 0x7d :: t) := by simp [show bs "${" = [0x24, 0x7b] from by decide, show bs "}" = [0x7d] from by decide]
    rw [e1] at hf ⊢
    simp only [List.length_cons, List.length_append] at hf
    have hi := ih fuel false (by omega) (by simp)
    have ht : (name ++ 0x7d :: t).takeWhile (· != 0x7d) = name := takeWhile_to (fun c hc => by
      simp; rintro rfl; exact hn hc) (by simp)
    refine ⟨fun len => ?_, fun cap out hcap => ?_⟩
    · simp only [computeLength]
      simp [ht, valueIs_eq hv, hi.1]
      omega
    · simp only [List.length_append] at hcap
      have := appendEnv_ok (cap := cap) (out := out) hv (by omega)
      simp only [doExpand]
      simp [ht, bind, Except.bind]
      rw [this]
      simp only
      rw [hi.2 cap _ (by simp; omega)]; simp
  | @«open» name v hn hv =>
    intro fuel first hf hfirst
    have e1 : bs "${" ++ name = 0x24 :: 0x7b :: name := by simp [show bs "${" = [0x24, 0x7b] from by decide]
    rw [e1] at hf ⊢
    simp only [List.length_cons] at hf
    obtain ⟨fuel, rfl⟩ := Nat.exists_eq_succ_of_ne_zero (by omega : fuel ≠ 0)
    obtain ⟨fuel, rfl⟩ := Nat.exists_eq_succ_of_ne_zero (by omega : fuel ≠ 0)
    have ht : name.takeWhile (· != 0x7d) = name := by
      have := takeWhile_to (p := (· != 0x7d)) (a := name) (b := []) (fun c hc => by
        simp; rintro rfl; exact hn hc) (by simp)
      simpa using this
    refine ⟨fun len => ?_, fun cap out hcap => ?_⟩
    · simp only [computeLength]
      simp [ht, valueIs_eq hv, computeLength]
    · have := appendEnv_ok (cap := cap) (out := out) hv (by omega)
      simp only [doExpand]
      simp [ht, bind, Except.bind]
      rw [this]
      simp only [doExpand, List.length_append, if_pos hcap]
  | @plain name v t r hn ht0 hb hv _ ih =>
    intro fuel first hf hfirst
    have e1 : bs "$" ++ name ++ t = 0x24 :: (name ++ t) := by simp [show bs "$" = [0x24] from by decide]
    rw [e1] at hf ⊢
    simp only [List.length_cons, List.length_append] at hf
    obtain ⟨fuel, rfl⟩ := Nat.exists_eq_succ_of_ne_zero (by omega : fuel ≠ 0)
    have hi := ih fuel false (by omega) (by simp)
    have ht : (name ++ t).takeWhile isEnv = name := takeWhile_to (fun c hc => (isEnv_iff c).2 (hn c hc)) (fun c hc => by
      have := ht0 c hc
      rw [← isEnv_iff] at this; simpa using this)
    have hno : (name ++ t).head? ≠ some 0x7b := by
      cases name with
      | nil => simpa using hb rfl
      | cons c name =>
        simp
        rintro rfl
        exact absurd ((isEnv_iff _).2 (hn 0x7b (by simp))) (by decide)
    refine ⟨fun len => ?_, fun cap out hcap => ?_⟩
    · simp only [computeLength, hno, ht]
      simp [valueIs_eq hv, hi.1]
      omega
    · simp only [List.length_append] at hcap
      have := appendEnv_ok (cap := cap) (out := out) hv (by omega)
      simp only [doExpand, hno, ht]
      simp [bind, Except.bind]
      rw [this]
      simp only
      rw [hi.2 cap _ (by simp; omega)]; simp

theorem stands_total (e : Env) : ∀ n (p : Text), p.length ≤ n → ∃ r, Stands e p r := by
  intro n
  induction n with
  | zero => intro p hp; exact ⟨[], by rw [List.length_eq_zero_iff.1 (Nat.le_zero.1 hp)]; exact .nil⟩
  | succ n ih =>
    intro p hp
    cases p with
    | nil => exact ⟨[], .nil⟩
    | cons c rest =>
      simp only [List.length_cons] at hp
      by_cases hc : c = 0x24
      · subst hc
        by_cases hb : rest.head? = some 0x7b
        · cases rest with
          | nil => simp at hb
          | cons d p =>
            simp at hb; subst hb
            have hnm : (0x7d : UInt8) ∉ p.takeWhile (· != 0x7d) := fun h => by
              simpa using (List.all_eq_true.1 (List.all_takeWhile (l := p) (p := (· != 0x7d)))) _ h
            have hs := List.takeWhile_append_dropWhile (p := (· != 0x7d)) (l := p)
            generalize hq : p.dropWhile (· != 0x7d) = q at hs
            generalize p.takeWhile (· != 0x7d) = name at hs hnm
            subst hs
            cases q with
            | nil => exact ⟨_, by simpa [show bs "${" = [0x24, 0x7b] from by decide] using Stands.open (e := e) hnm (valueIs_value e name)⟩
            | cons d t =>
              have hd := dropWhile_head (p := (· != 0x7d)) (c := d) (by rw [hq]; rfl)
              simp at hd; subst hd
              obtain ⟨r, hr⟩ := ih t (by simp at hp; omega)
              exact ⟨_, by simpa [show bs "${" = [0x24, 0x7b] from by decide, show bs "}" = [0x7d] from by decide] using Stands.braced (e := e) hnm (valueIs_value e name) hr⟩
        · have hall : ∀ c ∈ rest.takeWhile isEnv, NameChar c := fun c h => (isEnv_iff c).1 ((List.all_eq_true.1 (List.all_takeWhile (l := rest) (p := isEnv))) _ h)
          have hs := List.takeWhile_append_dropWhile (p := isEnv) (l := rest)
          have hd : ∀ c, (rest.dropWhile isEnv).head? = some c → ¬ NameChar c := fun c h => by
            rw [← isEnv_iff, dropWhile_head h]; simp
          generalize rest.dropWhile isEnv = t at hs hd
          generalize rest.takeWhile isEnv = name at hs hall
          subst hs
          obtain ⟨r, hr⟩ := ih t (by simp at hp; omega)
          exact ⟨_, by simpa [show bs "$" = [0x24] from by decide] using Stands.plain (e := e) hall hd (fun h => by subst h; simpa using hb) (valueIs_value e name) hr⟩
      · obtain ⟨r, hr⟩ := ih rest (by omega)
        exact ⟨_, .char hc hr⟩

theorem standsFor_runs {e : Env} {p r : Text} (h : StandsFor e p r) : computeLength e (p.length + 1) true 0 p = .ok r.length ∧ expandString e p = .ok r := by
  have key : computeLength e (p.length + 1) true 0 p = .ok r.length ∧ doExpand e (r.length + 1) (p.length + 1) true [] p = .ok r := by
    cases h with
    | @home t r h hh hr =>
      have e1 : bs "~/" ++ t = 0x7e :: 0x2f :: t := by simp [show bs "~/" = [0x7e, 0x2f] from by decide]
      have e2 : bs "/" ++ t = 0x2f :: t := by simp [show bs "/" = [0x2f] from by decide]
      have hv : e.home = h := by
        unfold Env.home
        rcases hh with hh | ⟨hh, rfl⟩ <;> simp [hh]
      rw [e1]; rw [e2] at hr
      have hi := stands_runs hr (t.length + 2) false (by simp) (by simp)
      simp only [List.length_cons]
      constructor
      · rw [computeLength, if_pos (by simp), hi.1, hv]; simp
      · rw [doExpand, if_pos (by simp)]
        simp only [hv, copyTo, List.length_nil, List.length_append, if_pos (show 0 + h.length + 1 ≤ h.length + r.length + 1 by omega), bind, Except.bind, List.nil_append]
        exact hi.2 _ _ (by simp)
    | other hn hr =>
      have hi := stands_runs hr (p.length + 1) true (by omega) (fun _ => hn)
      exact ⟨by simpa using hi.1 0, by simpa using hi.2 (r.length + 1) [] (by simp)⟩
  exact ⟨key.1, by simp only [expandString, key.1, bind, Except.bind]; exact key.2⟩

/-- **C31**: whatever the environment, the expansion of a configuration value always succeeds, writes no byte beyond the memory that the first pass asked for and no less than all of it, and gives
exactly what the value stands for. -/
theorem C31_expand (e : Env) (p : Text) :
    ∃ r, expandString e p = .ok r ∧ StandsFor e p r ∧ computeLength e (p.length + 1) true 0 p = .ok r.length ∧ ∀ r', StandsFor e p r' → r' = r := by
  have : ∃ r, StandsFor e p r := by
    by_cases h : p.take 2 = bs "~/"
    · have hp := List.take_append_drop 2 p
      rw [h] at hp
      obtain ⟨r, hr⟩ := stands_total e _ (bs "/" ++ p.drop 2) (Nat.le_refl _)
      have := StandsFor.home (e := e) (h := e.home) (by unfold Env.home; cases hh : e.get (bs "HOME") <;> simp) hr
      rw [hp] at this
      exact ⟨_, this⟩
    · obtain ⟨r, hr⟩ := stands_total e _ p (Nat.le_refl _)
      exact ⟨r, .other h hr⟩
  obtain ⟨r, hr⟩ := this
  refine ⟨r, (standsFor_runs hr).2, hr, (standsFor_runs hr).1, fun r' hr' => ?_⟩
  have := (standsFor_runs hr').2
  rw [(standsFor_runs hr).2] at this
  exact (Except.ok.inj this).symm

/-- Home directory, both forms of reference, an unset variable and a `~` that is not at the beginning. -/
def exEnv : Env := ⟨fun n => if n = bs "HOME" then some (bs "/home/u") else if n = bs "M_1" then some (bs "mail") else none, bs "/root"⟩

example : expandString exEnv (bs "~/$M_1/${M_1}x/$NONE~/a") = .ok (bs "/home/u/mail/mailx/~/a") := by decide +kernel

/-- **C31**, a text that has no `$` and does not begin with `~/` is left alone. -/
theorem C31_plain (e : Env) {p : Text} (h : 0x24 ∉ p) (hh : p.take 2 ≠ bs "~/") : expandString e p = .ok p := by
  have : ∀ p : Text, 0x24 ∉ p → Stands e p p := by
    intro p
    induction p with
    | nil => intro _; exact .nil
    | cons c p ih => intro h; simp at h; exact .char (fun e => h.1 e.symm) (ih h.2)
  exact (standsFor_runs (.other hh (this p h))).2

example : expandString exEnv (bs "/var/mail:~x") = .ok (bs "/var/mail:~x") := C31_plain _ (by decide) (by decide)

/-- What was read as a shell would read it is not always so: a single `$` vanishes (there is no way to write one), and a `${` with no end is accepted silently. -/
theorem C31_no_dollar (e : Env) {p r : Text} (hr : expandString e p = .ok r) (hv : ∀ n v, e.get n = some v → 0x24 ∉ v) (hw : 0x24 ∉ e.pwDir) : 0x24 ∉ r := by
  obtain ⟨r', h1, h2, _⟩ := C31_expand e p
  rw [hr] at h1
  obtain rfl := Except.ok.inj h1
  have hval : ∀ n v, Env.valueIs e n v → 0x24 ∉ v := by
    rintro n v (h | ⟨_, rfl⟩)
    · exact hv n v h
    · simp
  have main : ∀ p r, Stands e p r → 0x24 ∉ r := by
    intro p r h
    induction h with
    | nil => simp
    | char hc _ ih => simp; exact ⟨fun e => hc e.symm, ih⟩
    | braced _ h _ ih => simp; exact ⟨hval _ _ h, ih⟩
    | «open» _ h => exact hval _ _ h
    | plain _ _ _ h _ ih => simp; exact ⟨hval _ _ h, ih⟩
  cases h2 with
  | home hh hs =>
    simp
    refine ⟨?_, main _ _ hs⟩
    rcases hh with hh | ⟨_, rfl⟩
    · exact hv _ _ hh
    · exact hw
  | other _ hs => exact main _ _ hs

example : expandString exEnv (bs "a$$b${M_1") = .ok (bs "amail") := by decide +kernel

end Mairix
