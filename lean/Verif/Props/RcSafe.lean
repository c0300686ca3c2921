import Verif.Props.Rc

/-!
# C54: no configuration file does harm
-/

namespace Mairix
open Spec

namespace Spec
/-- Somewhere in the file a line begins (after blanks) with the outdated word `folders`, and has no `=` before its end or a comment. -/
def BareFolders (t : Text) : Prop :=
  ∃ a ind w v b, t = a ++ ind ++ w ++ v ++ b ∧ (a = [] ∨ a.getLast? = some 0x0a) ∧ (∀ c ∈ ind, isSpace c = true) ∧ lower w = bs "folders" ∧ 0x3d ∉ v ∧
    (∀ c, b.head? = some c → c = 0x0a ∨ c ∈ bs "#!;%")
end Spec

theorem copyValue_eq (e : Env) {p : Text} (h : 0x3d ∈ p) : ∃ r, copyValue e p = .ok (some r) := by
  unfold copyValue
  cases hd : p.dropWhile (· != 0x3d) with
  | nil =>
    exfalso
    have : ∀ c ∈ p, (c != 0x3d) = true := by
      have h1 := List.takeWhile_append_dropWhile (p := (· != 0x3d)) (l := p)
      rw [hd, List.append_nil] at h1
      intro c hc
      rw [← h1] at hc
      exact List.all_eq_true.1 List.all_takeWhile c hc
    have := this _ h
    simp at this
  | cons c l =>
    obtain ⟨r, hr, _⟩ := C31_expand e l
    exact ⟨r, by simp [hr, Except.map]⟩

theorem copyValue_total (e : Env) (p : Text) : ∃ v, copyValue e p = .ok v := by
  unfold copyValue
  split
  · exact ⟨_, rfl⟩
  · rename_i l _
    obtain ⟨r, hr, _⟩ := C31_expand e l
    exact ⟨some r, by simp [hr, Except.map]⟩

theorem starts_eq {p L : Text} (h : startsNoCase p L = true) (hL : 0x3d ∈ L) : 0x3d ∈ p := by
  unfold startsNoCase at h
  have h := beq_iff_eq.1 h
  rw [← h] at hL
  obtain ⟨c, hc, e⟩ := List.mem_map.1 hL
  have := forall_byte (P := fun c => toLower c = 0x3d → c = 0x3d) (by decide +kernel) c
  rw [← this e]
  exact List.mem_of_mem_take hc

theorem rcOption_fault (e : Env) (rc : Rc) (p : Text) {f : Fault} (h : rcOption e rc p = .error f) :
    f = .outOfBounds ∧ startsNoCase p (bs "folders") = true ∧ 0x3d ∉ p := by
  unfold rcOption at h
  split at h
  · cases h
  · rename_i k hk
    have hs := List.find?_some hk
    have key : ∀ L : Text, k.lit = L → 0x3d ∈ L → ∃ r, copyValue e p = .ok (some r) := fun L hl hL => copyValue_eq e (starts_eq (hl ▸ hs) hL)
    obtain ⟨v, hv⟩ := copyValue_total e p
    cases k
    case base => simp [rcDo, hv, bind, Except.bind] at h
    case folders =>
      by_cases hp : 0x3d ∈ p
      · obtain ⟨r, hr⟩ := copyValue_eq e hp
        simp [rcDo, hr, bind, Except.bind, addFolders_some] at h
      · refine ⟨?_, hs, hp⟩
        simp only [rcDo, hv, bind, Except.bind] at h
        unfold addFolders at h
        cases hm : rc.maildirs with
        | none => rw [hm] at h; simp at h
        | some o =>
          rw [hm] at h
          cases v with
          | none => simp at h; exact h.symm
          | some x => simp at h
    case followLinks => simp [rcDo] at h
    case nochecks => simp [rcDo] at h
    case sortByDate => simp [rcDo] at h
    all_goals
      obtain ⟨r, hr⟩ := key _ rfl (by decide +kernel)
      simp [rcDo, hr, bind, Except.bind, addFolders_some] at h

theorem rcLine_fault (e : Env) (rc : Rc) (got : Text) (h0 : 0 ∉ got) (hne : got ≠ []) {f : Fault} (h : rcLine e rc got = .error f) :
    f = .exit 2 ∨ (f = .outOfBounds ∧ ∃ ind w v b, got = ind ++ w ++ v ++ b ∧ (∀ c ∈ ind, isSpace c = true) ∧ lower w = bs "folders" ∧ 0x3d ∉ v ∧
      (∀ c, b.head? = some c → c = 0x0a ∨ c ∈ bs "#!;%") ∧ (got.getLast? = some 0x0a → b ≠ [])) := by
  have hz : got.takeWhile (· != 0) = got := takeWhile_self fun c hc => by
    simp only [bne_iff_ne, ne_eq]; rintro rfl; exact h0 hc
  unfold rcLine at h
  simp only [hz] at h
  split at h
  · left; cases h; rfl
  · rw [if_neg (by simpa using hne)] at h
    right
    generalize hl : (if got.getLast? = some 0x0a then got.dropLast else got) = line at h
    have hgot : ∃ b, got = line ++ b ∧ (b = [] ∨ b = [0x0a]) ∧ (got.getLast? = some 0x0a → b ≠ []) := by
      subst hl
      split
      · rename_i hh
        refine ⟨[0x0a], ?_, .inr rfl, fun _ => by simp⟩
        obtain ⟨x, hx⟩ := List.getLast?_eq_some_iff.1 hh
        rw [hx]; simp
      · rename_i hh
        exact ⟨[], by simp, .inl rfl, fun h => absurd h hh⟩
    obtain ⟨b, hb, hb', hb2⟩ := hgot
    have h1 := List.takeWhile_append_dropWhile (p := fun c => !rcComment c) (l := line)
    generalize hx : line.takeWhile (fun c => !rcComment c) = x at h h1
    have h2 := List.takeWhile_append_dropWhile (p := isSpace) (l := x)
    split at h
    · cases h
    · rename_i c p hp
      obtain ⟨e1, e2, e3⟩ := rcOption_fault e rc _ h
      rw [← hp] at e2 e3
      refine ⟨e1, x.takeWhile isSpace, (x.dropWhile isSpace).take 7, (x.dropWhile isSpace).drop 7, line.dropWhile (fun c => !rcComment c) ++ b, ?_, ?_, ?_, ?_, ?_, fun hh => by simp [hb2 hh]⟩
      · rw [hb]
        conv => lhs; rw [← h1, ← h2]
        simp
      · intro c hc
        have := List.all_takeWhile (p := isSpace) (l := x)
        exact List.all_eq_true.1 this c hc
      · exact beq_iff_eq.1 e2
      · intro hh; exact e3 (List.mem_of_mem_drop hh)
      · intro c hc
        cases hd : line.dropWhile (fun c => !rcComment c) with
        | nil =>
          rw [hd] at hc
          rcases hb' with rfl | rfl
          · simp at hc
          · simp at hc; exact .inl hc.symm
        | cons d l =>
          rw [hd] at hc
          simp at hc
          subst hc
          right
          have := dropWhile_head (p := fun c => !rcComment c) (l := line) (c := d) (by rw [hd]; rfl)
          have h3 := forall_byte (P := fun c => (!rcComment c) = false → c ∈ bs "#!;%") (by decide +kernel) d
          exact h3 this

theorem fgets_spec : ∀ (n : Nat) (t : Text), (fgetsLine n t).1 ++ (fgetsLine n t).2 = t ∧ ((fgetsLine n t).2 ≠ [] → (fgetsLine n t).1.getLast? = some 0x0a ∨ (fgetsLine n t).1.length = n)
  | n, [] => by simp [fgetsLine]
  | 0, c :: t => by simp [fgetsLine]
  | n + 1, c :: t => by
    simp only [fgetsLine]
    split
    · rename_i h; subst h; simp
    · obtain ⟨h1, h2⟩ := fgets_spec n t
      refine ⟨by simp [h1], fun h => ?_⟩
      rcases h2 h with h | h
      · left
        cases hq : (fgetsLine n t).1 with
        | nil => rw [hq] at h; simp at h
        | cons a b => rw [hq] at h; simpa using h
      · right; simp [h]

theorem fgets_nonempty (n : Nat) (c : UInt8) (t : Text) : (fgetsLine (n + 1) (c :: t)).1 ≠ [] := by
  simp only [fgetsLine]
  split <;> simp

theorem rcLoop_fault (e : Env) : ∀ (fuel : Nat) (a t : Text) (rc : Rc) (f : Fault), 0 ∉ t → (a = [] ∨ a.getLast? = some 0x0a) → t.length < fuel →
    rcLoop e fuel rc t = .error f → f = .exit 2 ∨ (f = .outOfBounds ∧ BareFolders (a ++ t))
  | 0, _, _, _, _, _, _, hf, _ => by omega
  | fuel + 1, a, [], rc, f, _, _, _, h => by simp [rcLoop] at h
  | fuel + 1, a, c :: t, rc, f, h0, ha, hf, h => by
    obtain ⟨h1, h2⟩ := fgets_spec 4095 (c :: t)
    have h3 := fgets_nonempty 4094 c t
    rw [rcLoop] at h
    generalize hg : fgetsLine 4095 (c :: t) = g at h h1 h2 h3
    obtain ⟨got, rest⟩ := g
    dsimp only at h h1 h2 h3
    have h0g : 0 ∉ got := by intro hh; apply h0; rw [← h1]; simp [hh]
    cases hr : rcLine e rc got with
    | error f' =>
      rw [hr] at h
      cases h
      rcases rcLine_fault e rc got h0g h3 hr with rfl | ⟨rfl, ind, w, v, b, e1, e2, e3, e4, e5, e6⟩
      · exact .inl rfl
      · right
        refine ⟨rfl, ?_⟩
        by_cases hb : rest = [] ∨ b ≠ []
        · refine ⟨a, ind, w, v, b ++ rest, ?_, ha, e2, e3, e4, ?_⟩
          · rw [← h1, e1]; simp
          · intro c hc
            cases b with
            | nil =>
              rcases hb with rfl | hb
              · simp at hc
              · exact absurd rfl hb
            | cons d b => exact e5 c hc
        · exfalso
          simp only [not_or, ne_eq, Decidable.not_not] at hb
          have h4 := h2 hb.1
          have hlen : ¬ got.length = 4095 := by
            intro hh
            have hz : got.takeWhile (· != 0) = got := takeWhile_self fun c hc => by
              simp only [bne_iff_ne, ne_eq]; rintro rfl; exact h0g hc
            unfold rcLine at hr
            simp only [hz] at hr
            rw [if_pos (by omega)] at hr
            cases hr
          exact e6 (h4.resolve_right hlen) hb.2
    | ok rc' =>
      rw [hr] at h
      have hlen : rest.length < fuel := by
        have := congrArg List.length h1
        have h5 : 0 < got.length := List.length_pos_iff.2 h3
        simp at this hf; omega
      have hnl : rest = [] ∨ got.getLast? = some 0x0a := by
        by_cases hrs : rest = []
        · exact .inl hrs
        · right
          rcases h2 hrs with h | h
          · exact h
          · exfalso
            have hz : got.takeWhile (· != 0) = got := takeWhile_self fun c hc => by
              simp only [bne_iff_ne, ne_eq]; rintro rfl; exact h0g hc
            unfold rcLine at hr
            simp only [hz] at hr
            rw [if_pos (by omega)] at hr
            cases hr
      rcases hnl with rfl | hnl
      · cases fuel with
        | zero => simp at hlen
        | succ fuel => simp [rcLoop] at h
      · have := rcLoop_fault e fuel (a ++ got) rest rc' f (by intro hh; apply h0; rw [← h1]; simp [hh])
          (.inr (by rw [List.getLast?_append, hnl]; rfl)) hlen h
        rw [List.append_assoc, h1] at this
        exact this

/-- **C54**: a configuration file that has no NUL either gives settings or ends mairix with status 2, whatever else is in it, unless the outdated word `folders` has no value
(see `C54_folders_violation`). -/
theorem C54_safe_partial (e : Env) {t : Text} (h0 : 0 ∉ t) (hb : ¬ BareFolders t) :
    (∃ rc, parseRcFile e (some t) = .ok rc) ∨ parseRcFile e (some t) = .error (.exit 2) := by
  cases h : parseRcFile e (some t) with
  | ok rc => exact .inl ⟨rc, rfl⟩
  | error f =>
    right
    rcases rcLoop_fault e (t.length + 1) [] t {} f h0 (.inl rfl) (Nat.lt_succ_self _) h with rfl | ⟨_, h2⟩
    · rfl
    · exact absurd h2 hb

/-- A file with unknown lines, a name without a value, and bytes that are no characters. -/
example : (∃ rc, parseRcFile exEnv (some (bs "base\nno such line = 3\nmaildir=\nmformat=none\n" ++ [200, 1, 10])) = .ok rc) ∨
    parseRcFile exEnv (some (bs "base\nno such line = 3\nmaildir=\nmformat=none\n" ++ [200, 1, 10])) = .error (.exit 2) := by
  apply C54_safe_partial _ (by decide +kernel)
  rintro ⟨a, ind, w, v, b, h, _, _, hw, _⟩
  have h2 := congrArg lower h
  simp only [lower_append, hw] at h2
  have h3 : (0x66 : UInt8) :: 0x6f :: [0x6c] <:+: lower (bs "base\nno such line = 3\nmaildir=\nmformat=none\n" ++ [200, 1, 10]) := by
    refine ⟨lower a ++ lower ind, bs "ders" ++ lower v ++ lower b, ?_⟩
    rw [lower_append] 
    rw [h2]
    simp [bs]
  revert h3
  decide +kernel

/-- **C54** fails for a NUL at the beginning of a line: the byte before the array is read. -/
theorem C54_nul_violation : parseRcFile exEnv (some [0, 10]) = .error .outOfBounds := by decide +kernel

/-- **C54** fails for the outdated `folders` without a value after a list: a null pointer is read. -/
theorem C54_folders_violation : parseRcFile exEnv (some (bs "maildir=inbox\nfolders\n")) = .error .outOfBounds := by decide +kernel

/-- A line of more than 4092 bytes is refused, not cut. -/
theorem C54_long (e : Env) {t r : Text} (h0 : 0 ∉ t) (hn : 0x0a ∉ t) (hl : 4092 ≤ t.length) : parseRcFile e (some (t ++ 0x0a :: r)) = .error (.exit 2) := by
  have key : ∀ n (t : Text), 0x0a ∉ t → n ≤ t.length + 1 → ∃ rest, fgetsLine n (t ++ 0x0a :: r) = ((t ++ [0x0a]).take n, rest) := by
    intro n
    induction n with
    | zero => intro t _ _; cases t <;> exact ⟨_, rfl⟩
    | succ n ih =>
      intro t h1 h2
      cases t with
      | nil =>
        have : n = 0 := by simpa using h2
        subst this
        exact ⟨_, rfl⟩
      | cons c t =>
        simp only [List.mem_cons, not_or] at h1
        obtain ⟨rest, hr⟩ := ih t h1.2 (by simpa using h2)
        refine ⟨rest, ?_⟩
        simp only [List.cons_append, fgetsLine]
        rw [if_neg (fun e => h1.1 e.symm), hr]
        rfl
  have : ∃ rest, fgetsLine 4095 (t ++ 0x0a :: r) = ((t ++ [0x0a]).take 4095, rest) := by
    by_cases h : 4095 ≤ t.length + 1
    · exact key _ t hn h
    · refine ⟨r, ?_⟩
      rw [fgets_line t 4095 r hn (by omega), List.take_of_length_le (by simp; omega)]
  obtain ⟨rest, hr⟩ := this
  have hlen : 4092 < ((t ++ [0x0a]).take 4095).length := by simp; omega
  have hz : ((t ++ [0x0a]).take 4095).takeWhile (· != 0) = (t ++ [0x0a]).take 4095 := takeWhile_self fun c hc => by
    have hc := List.mem_of_mem_take hc
    simp only [bne_iff_ne, ne_eq]
    rintro rfl
    simp at hc
    exact h0 hc
  unfold parseRcFile
  cases hq : t ++ 0x0a :: r with
  | nil => simp at hq
  | cons c x =>
    rw [hq] at hr
    dsimp only
    rw [rcLoop, hr]
    dsimp only
    have : rcLine e {} ((t ++ [0x0a]).take 4095) = .error (.exit 2) := by
      unfold rcLine
      simp only [hz]
      rw [if_pos hlen]
    rw [this]

end Mairix
