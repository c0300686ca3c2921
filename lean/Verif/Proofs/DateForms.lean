import Verif.Spec.Dates
import Verif.Props.MessageDate

/-!
# How the written forms of dates are recognised
-/

namespace Mairix

open Spec

/-- The text goes one of the ways. -/
def Ways (ps : List (List CharClass)) (t : Text) : Prop := ∃ w ∈ ps, follows w t = true

theorem follows_append {w v : List CharClass} {s t : Text} (hs : follows w s = true) (ht : follows v t = true) : follows (w ++ v) (s ++ t) = true := by
  induction w generalizing s with
  | nil => cases s with
    | nil => exact ht
    | cons _ _ => simp [follows] at hs
  | cons p w ih => cases s with
    | nil => simp [follows] at hs
    | cons c s =>
      simp only [follows, Bool.and_eq_true] at hs
      simp only [List.cons_append, follows, Bool.and_eq_true]
      exact ⟨hs.1, ih hs.2⟩

theorem ways_then {a b : List (List CharClass)} {s t : Text} (hs : Ways a s) (ht : Ways b t) : Ways (thenPaths a b) (s ++ t) := by
  obtain ⟨w, hw, hws⟩ := hs
  obtain ⟨v, hv, hvt⟩ := ht
  refine ⟨w ++ v, ?_, follows_append hws hvt⟩
  simp only [thenPaths, List.mem_flatMap, List.mem_map]
  exact ⟨w, hw, v, hv, rfl⟩

theorem follows_length {w : List CharClass} {t : Text} (h : follows w t = true) : w.length = t.length := by
  induction w generalizing t with
  | nil => cases t with
    | nil => rfl
    | cons _ _ => simp [follows] at h
  | cons p w ih =>
    cases t with
    | nil => simp [follows] at h
    | cons c t => simp only [follows, Bool.and_eq_true] at h; simp [ih h.2]

/-- One character for each of the classes of characters that datescan.nfa tells apart. -/
def rep (c : UInt8) : UInt8 := if crange 0x34 0x39 c then 0x34 else if cLetter c then 0x61 else c
/-- The characters that stand for digits and letters. -/
def reps : List UInt8 := [0x30, 0x31, 0x32, 0x33, 0x34, 0x61]

/-- The class does not tell more, and contains digits and letters only. -/
structure Blind (p : CharClass) : Prop where
  same : ∀ c, p (rep c) = p c
  small : ∀ c, p c = true → rep c ∈ reps

/-- The same, as checked for all characters. -/
theorem blind_of {p : CharClass} (h : ∀ n : Fin 256, p (rep (UInt8.ofNat n.val)) = p (UInt8.ofNat n.val) ∧ (p (UInt8.ofNat n.val) = true → rep (UInt8.ofNat n.val) ∈ reps)) : Blind p := by
  have := forall_byte (P := fun c => p (rep c) = p c ∧ (p c = true → rep c ∈ reps)) h
  exact ⟨fun c => (this c).1, fun c => (this c).2⟩

theorem blind_digit : Blind cDigit := blind_of (by decide +kernel)
theorem blind_pos : Blind cPos := blind_of (by decide +kernel)
theorem blind_letter : Blind cLetter := blind_of (by decide +kernel)
theorem blind_12 : Blind (crange 0x31 0x32) := blind_of (by decide +kernel)
theorem blind_33 : Blind (crange 0x33 0x33) := blind_of (by decide +kernel)
theorem blind_01 : Blind (crange 0x30 0x31) := blind_of (by decide +kernel)
theorem blind_29 : Blind (crange 0x32 0x39) := blind_of (by decide +kernel)
theorem blind_049 : Blind (fun c => c = 0x30 || crange 0x34 0x39 c) := blind_of (by decide +kernel)

/-- All the classes on the ways are like that. -/
def BlindAll (ps : List (List CharClass)) : Prop := ∀ w ∈ ps, ∀ p ∈ w, Blind p

theorem blind_day : BlindAll dayPaths := by
  intro w hw p hp
  simp only [dayPaths, List.mem_cons, List.not_mem_nil, or_false] at hw
  rcases hw with rfl | rfl | rfl <;> simp only [List.mem_cons, List.not_mem_nil, or_false] at hp
  · subst hp; exact blind_pos
  · rcases hp with rfl | rfl
    · exact blind_12
    · exact blind_digit
  · rcases hp with rfl | rfl
    · exact blind_33
    · exact blind_01

theorem blind_year : BlindAll yearPaths := by
  intro w hw p hp
  simp only [yearPaths, List.mem_cons, List.not_mem_nil, or_false] at hw
  rcases hw with rfl | rfl | rfl <;> simp only [List.mem_cons, List.not_mem_nil, or_false] at hp
  · rcases hp with rfl | rfl
    · exact blind_049
    · exact blind_digit
  · rcases hp with rfl | rfl
    · exact blind_33
    · exact blind_29
  · rcases hp with rfl | rfl | rfl | rfl
    · exact blind_pos
    all_goals exact blind_digit

theorem blind_month : BlindAll monthPaths := by
  intro w hw p hp
  simp only [monthPaths, List.mem_cons, List.not_mem_nil, or_false] at hw
  subst hw
  simp only [List.mem_cons, List.not_mem_nil, or_false, or_self] at hp
  subst hp; exact blind_letter

theorem blind_digits : BlindAll digitPaths := by
  intro w hw p hp
  simp only [digitPaths, List.mem_cons, List.not_mem_nil, or_false] at hw
  rcases hw with rfl | rfl <;> (rw [List.mem_replicate] at hp; rw [hp.2]; exact blind_digit)

theorem blind_then {a b : List (List CharClass)} (ha : BlindAll a) (hb : BlindAll b) : BlindAll (thenPaths a b) := by
  intro w hw p hp
  simp only [thenPaths, List.mem_flatMap, List.mem_map] at hw
  obtain ⟨x, hx, y, hy, rfl⟩ := hw
  rw [List.mem_append] at hp
  rcases hp with h | h
  · exact ha x hx p h
  · exact hb y hy p h

theorem blind_paths : ∀ q ∈ datePaths, BlindAll q.1 := by
  intro q hq
  simp only [datePaths, List.mem_cons, List.not_mem_nil, or_false] at hq
  rcases hq with rfl | rfl | rfl | rfl | rfl | rfl | rfl | rfl | rfl | rfl
  · exact blind_day
  · exact blind_year
  · exact blind_digits
  · exact blind_month
  · exact blind_then blind_day blind_month
  · exact blind_then blind_month blind_day
  · exact blind_then blind_year blind_month
  · exact blind_then blind_month blind_year
  · exact blind_then blind_year (blind_then blind_month blind_day)
  · exact blind_then blind_day (blind_then blind_month blind_year)

/-- The ways part: at some place they have no character in common. -/
def part : List CharClass → List CharClass → Bool
  | [], [] => false
  | p :: w, q :: v => reps.all (fun c => !(p c && q c)) || part w v
  | _, _ => true

theorem part_sound {w v : List CharClass} {t : Text} (hw : ∀ p ∈ w, Blind p) (hv : ∀ p ∈ v, Blind p) (hp : part w v = true) (h : follows w t = true) : follows v t = false := by
  induction w generalizing v t with
  | nil =>
    cases t with
    | cons _ _ => simp [follows] at h
    | nil => cases v with
      | nil => simp [part] at hp
      | cons _ _ => rfl
  | cons p w ih =>
    cases t with
    | nil => simp [follows] at h
    | cons c t =>
      cases v with
      | nil => rfl
      | cons q v =>
        simp only [follows, Bool.and_eq_true] at h
        simp only [part, Bool.or_eq_true] at hp
        simp only [follows, Bool.and_eq_false_iff]
        rcases hp with hp | hp
        · left
          have hc := List.all_eq_true.mp hp (rep c) ((hw p (by simp)).small c h.1)
          rw [(hw p (by simp)).same, (hv q (by simp)).same, h.1] at hc
          simpa using hc
        · right
          exact ih (fun x hx => hw x (by simp [hx])) (fun x hx => hv x (by simp [hx])) hp h.2

/-- The way of a relative date of the given length. -/
def scaledWay (n : Nat) : List CharClass := List.replicate n cDigit ++ [cLetter]

theorem scaled_rest_way : ∀ {t : Text}, isScaled.rest t = true → follows (scaledWay (t.length - 1)) t = true
  | [], h => by simp [isScaled.rest] at h
  | [c], h => by simpa [scaledWay, follows, isScaled.rest] using h
  | c :: d :: t, h => by
    simp only [isScaled.rest, Bool.and_eq_true] at h
    have := scaled_rest_way h.2
    simp only [List.length_cons, Nat.add_sub_cancel] at this ⊢
    simp only [scaledWay, List.replicate_succ, List.cons_append, follows, Bool.and_eq_true]
    exact ⟨h.1, this⟩

theorem scaled_way {t : Text} (h : isScaled t = true) : 2 ≤ t.length ∧ follows (scaledWay (t.length - 1)) t = true := by
  cases t with
  | nil => simp [isScaled] at h
  | cons c t =>
    simp only [isScaled, Bool.and_eq_true] at h
    have := scaled_rest_way h.2
    cases t with
    | nil => simp [isScaled.rest] at h
    | cons d t =>
      refine ⟨by simp, ?_⟩
      simp only [List.length_cons, Nat.add_sub_cancel] at this ⊢
      simp only [scaledWay, List.replicate_succ, List.cons_append, follows, Bool.and_eq_true]
      exact ⟨h.1, this⟩

theorem blind_scaled (n : Nat) : ∀ p ∈ scaledWay n, Blind p := by
  intro p hp
  simp only [scaledWay, List.mem_append, List.mem_replicate, List.mem_cons, List.not_mem_nil, or_false] at hp
  rcases hp with ⟨_, rfl⟩ | rfl
  · exact blind_digit
  · exact blind_letter

/-- The ways to different types part; none goes together with a relative date. -/
theorem paths_part : (datePaths.all fun q => q.1.all fun w => (w.length < 2 || part w (scaledWay (w.length - 1))) && datePaths.all fun r => r.2 = q.2 || r.1.all fun v => part w v) = true := by
  decide +kernel

/-- The type is that of any way that the text goes. -/
theorem discover_way {q : List (List CharClass) × DateType} {t : Text} (hq : q ∈ datePaths) (h : Ways q.1 t) : discoverType t = q.2 := by
  obtain ⟨w, hw, hf⟩ := h
  have hp := List.all_eq_true.mp (List.all_eq_true.mp paths_part q hq) w hw
  simp only [Bool.and_eq_true, Bool.or_eq_true, decide_eq_true_eq, List.all_eq_true] at hp
  have hs : isScaled t = false := by
    cases e : isScaled t with
    | false => rfl
    | true =>
      obtain ⟨h2, h3⟩ := scaled_way e
      rw [← follows_length hf] at h2 h3
      rcases hp.1 with h | h
      · omega
      · rw [part_sound (blind_paths q hq w hw) (blind_scaled _) h hf] at h3; simp at h3
  unfold discoverType
  rw [hs]
  simp only [Bool.false_eq_true, if_false]
  cases e : datePaths.find? (fun p => p.1.any (fun w => follows w t)) with
  | none =>
    exfalso
    have := List.find?_eq_none.mp e q hq
    exact this (List.any_eq_true.mpr ⟨w, hw, hf⟩)
  | some r =>
    have hr := List.mem_of_find?_eq_some e
    have hrt := List.find?_some e
    obtain ⟨v, hv, hvt⟩ := List.any_eq_true.mp hrt
    rcases hp.2 r hr with h | h
    · exact h
    · exfalso
      rw [part_sound (blind_paths q hq w hw) (blind_paths r hr v hv) (h v hv) hf] at hvt
      simp at hvt

/-! ## What the forms look like -/

theorem digit_cases {c : UInt8} (h : isDigit c = true) : c = 0x30 ∨ c = 0x31 ∨ c = 0x32 ∨ c = 0x33 ∨ c = 0x34 ∨ c = 0x35 ∨ c = 0x36 ∨ c = 0x37 ∨ c = 0x38 ∨ c = 0x39 := by
  revert h
  exact forall_byte (P := fun c => isDigit c = true → c = 0x30 ∨ c = 0x31 ∨ c = 0x32 ∨ c = 0x33 ∨ c = 0x34 ∨ c = 0x35 ∨ c = 0x36 ∨ c = 0x37 ∨ c = 0x38 ∨ c = 0x39) (by decide +kernel) c

theorem foldl_digits_le (t : Text) (n : Nat) : n * 10 ^ t.length ≤ t.foldl (fun n c => 10 * n + (c.toNat - 0x30)) n := by
  induction t generalizing n with
  | nil => simp
  | cons c t ih =>
    simp only [List.foldl_cons, List.length_cons]
    refine Nat.le_trans ?_ (ih _)
    rw [Nat.pow_succ]
    have : n * (10 ^ t.length * 10) = 10 * n * 10 ^ t.length := by rw [Nat.mul_comm (10 ^ t.length), ← Nat.mul_assoc, Nat.mul_comm n]
    rw [this]
    exact Nat.mul_le_mul_right _ (by omega)

theorem foldl_digits_lt (t : Text) (n : Nat) (h : ∀ c ∈ t, isDigit c = true) : t.foldl (fun n c => 10 * n + (c.toNat - 0x30)) n < (n + 1) * 10 ^ t.length := by
  induction t generalizing n with
  | nil => simp
  | cons c t ih =>
    simp only [List.foldl_cons, List.length_cons]
    refine Nat.lt_of_lt_of_le (ih _ fun x hx => h x (by simp [hx])) ?_
    have hc : c.toNat - 0x30 ≤ 9 := by
      rcases digit_cases (h c (by simp)) with rfl | rfl | rfl | rfl | rfl | rfl | rfl | rfl | rfl | rfl <;> decide
    rw [Nat.pow_succ]
    have : (n + 1) * (10 ^ t.length * 10) = 10 * (n + 1) * 10 ^ t.length := by rw [Nat.mul_comm (10 ^ t.length), ← Nat.mul_assoc, Nat.mul_comm (n + 1)]
    rw [this]
    exact Nat.mul_le_mul_right _ (by omega)

theorem dateDigits_lt {t : Text} {n : Nat} (h : DigitsOf t n) : n < 10 ^ t.length := by
  rw [h.2.2]; simpa using foldl_digits_lt t 0 h.2.1

theorem digits_short {t : Text} {n : Nat} (h : DigitsOf t n) (h0 : t.head? ≠ some 0x30) (hn : n ≤ 99) : t.length ≤ 2 := by
  obtain ⟨h1, h2, h3⟩ := h
  match t, h1, h2, h3, h0 with
  | [_], _, _, _, _ => simp
  | [_, _], _, _, _, _ => simp
  | a :: b :: c :: t, _, h2, h3, h0 =>
    exfalso
    simp only [List.foldl_cons] at h3
    have := foldl_digits_le t (10 * (10 * (10 * 0 + (a.toNat - 0x30)) + (b.toNat - 0x30)) + (c.toNat - 0x30))
    have hp : 1 ≤ 10 ^ t.length := Nat.one_le_pow _ _ (by decide)
    have ha : 1 ≤ a.toNat - 0x30 := by
      rcases digit_cases (h2 a (by simp)) with rfl | rfl | rfl | rfl | rfl | rfl | rfl | rfl | rfl | rfl <;> first | decide | exact absurd rfl h0
    have := Nat.le_trans (Nat.mul_le_mul_left _ hp) this
    omega

theorem dayText_ways {t : Text} {d : Nat} (h : DayText t d) : Ways dayPaths t := by
  obtain ⟨hd, h1, h2, h0⟩ := h
  have hl := digits_short hd h0 (by omega)
  obtain ⟨hn, hall, hv⟩ := hd
  match t, hn, hall, hv, h0, hl with
  | [a], _, hall, hv, h0, _ =>
    refine ⟨[cPos], by simp [dayPaths], ?_⟩
    rcases digit_cases (hall a (by simp)) with rfl | rfl | rfl | rfl | rfl | rfl | rfl | rfl | rfl | rfl <;> first | decide | exact absurd rfl h0
  | [a, b], _, hall, hv, h0, _ =>
    have ha := digit_cases (hall a (by simp))
    have hb := hall b (by simp)
    have hbl := digit_cases hb
    simp only [List.foldl_cons, List.foldl_nil] at hv
    have h3 : a = 0x31 ∨ a = 0x32 ∨ a = 0x33 := by
      rcases ha with rfl | rfl | rfl | rfl | rfl | rfl | rfl | rfl | rfl | rfl <;> first | decide | exact absurd rfl h0 | (exfalso; simp at hv; omega)
    rcases h3 with rfl | rfl | rfl
    · exact ⟨[crange 0x31 0x32, cDigit], by simp [dayPaths], by simp only [follows, Bool.and_true, Bool.and_eq_true]; exact ⟨by decide, hb⟩⟩
    · exact ⟨[crange 0x31 0x32, cDigit], by simp [dayPaths], by simp only [follows, Bool.and_true, Bool.and_eq_true]; exact ⟨by decide, hb⟩⟩
    · refine ⟨[crange 0x33 0x33, crange 0x30 0x31], by simp [dayPaths], ?_⟩
      rcases hbl with rfl | rfl | rfl | rfl | rfl | rfl | rfl | rfl | rfl | rfl <;> first | decide | (exfalso; simp at hv; omega)
  | _ :: _ :: _ :: _, _, _, _, _, hl => simp at hl

theorem yearText_ways {t : Text} {y : Nat} (h : YearText t y) : Ways yearPaths t := by
  cases h with
  | short hd hl hs =>
    rename_i n
    obtain ⟨hn, hall, hv⟩ := hd
    match t, hall, hv, hs, hl with
    | [a, b], hall, hv, hs, _ =>
      have hb := hall b (by simp)
      have hbl := digit_cases hb
      simp only [List.foldl_cons, List.foldl_nil] at hv
      have h049 : ∀ a : UInt8, (decide (a = 0x30) || crange 0x34 0x39 a) = true → Ways yearPaths [a, b] := fun a ha =>
        ⟨[fun c => c = 0x30 || crange 0x34 0x39 c, cDigit], by simp [yearPaths], by simp only [follows, Bool.and_true, Bool.and_eq_true]; exact ⟨ha, hb⟩⟩
      rcases digit_cases (hall a (by simp)) with rfl | rfl | rfl | rfl | rfl | rfl | rfl | rfl | rfl | rfl
      · exact h049 _ (by decide)
      · exfalso
        rcases hs with hs | hs
        · exact absurd hs (by simp)
        · rcases hbl with rfl | rfl | rfl | rfl | rfl | rfl | rfl | rfl | rfl | rfl <;> (simp at hv; omega)
      · exfalso
        rcases hs with hs | hs
        · exact absurd hs (by simp)
        · rcases hbl with rfl | rfl | rfl | rfl | rfl | rfl | rfl | rfl | rfl | rfl <;> (simp at hv; omega)
      · refine ⟨[crange 0x33 0x33, crange 0x32 0x39], by simp [yearPaths], ?_⟩
        rcases hs with hs | hs
        · exact absurd hs (by simp)
        · rcases hbl with rfl | rfl | rfl | rfl | rfl | rfl | rfl | rfl | rfl | rfl <;> first | decide | (exfalso; simp at hv; omega)
      all_goals exact h049 _ (by decide)
  | long hd hl h0 =>
    obtain ⟨hn, hall, hv⟩ := hd
    match t, hall, h0, hl with
    | [a, b, c, d], hall, h0, _ =>
      refine ⟨[cPos, cDigit, cDigit, cDigit], by simp [yearPaths], ?_⟩
      simp only [follows, Bool.and_true, Bool.and_eq_true]
      refine ⟨?_, hall b (by simp), hall c (by simp), hall d (by simp)⟩
      rcases digit_cases (hall a (by simp)) with rfl | rfl | rfl | rfl | rfl | rfl | rfl | rfl | rfl | rfl <;> first | decide | exact absurd rfl h0

theorem letter_of_lower : ∀ {x : UInt8}, cLetter (toLower x) = true → cLetter x = true := by
  intro x
  exact forall_byte (P := fun x => cLetter (toLower x) = true → cLetter x = true) (by decide +kernel) x

theorem monthText_mem {t : Text} {m : Nat} (h : MonthText t m) : lower t ∈ months ∧ 1 ≤ m ∧ m ≤ 12 := by
  obtain ⟨h1, h2⟩ := h
  refine ⟨List.mem_of_getElem? h2, h1, ?_⟩
  have := List.getElem?_eq_some_iff.mp h2
  obtain ⟨hl, _⟩ := this
  have : months.length = 12 := by decide
  omega

theorem months_letters : ∀ x ∈ months, x.length = 3 ∧ ∀ c ∈ x, cLetter c = true := by decide +kernel

theorem monthText_letters {t : Text} {m : Nat} (h : MonthText t m) : t.length = 3 ∧ ∀ c ∈ t, cLetter c = true := by
  have hm := months_letters _ (monthText_mem h).1
  refine ⟨by have := hm.1; simpa [lower] using this, fun c hc => letter_of_lower (hm.2 _ ?_)⟩
  simp only [lower, List.mem_map]; exact ⟨c, hc, rfl⟩

theorem monthText_ways {t : Text} {m : Nat} (h : MonthText t m) : Ways monthPaths t := by
  obtain ⟨hl, hc⟩ := monthText_letters h
  refine ⟨[cLetter, cLetter, cLetter], by simp [monthPaths], ?_⟩
  match t, hl, hc with
  | [a, b, c], _, hc => simp [follows, hc a (by simp), hc b (by simp), hc c (by simp)]

theorem follows_digits {t : Text} (h : ∀ c ∈ t, isDigit c = true) : follows (List.replicate t.length cDigit) t = true := by
  induction t with
  | nil => rfl
  | cons c t ih =>
    simp only [List.length_cons, List.replicate_succ, follows, Bool.and_eq_true]
    exact ⟨h c (by simp), ih fun x hx => h x (by simp [hx])⟩

/-! ## The types -/

theorem type_d {t : Text} {d : Nat} (h : DayText t d) : discoverType t = .d :=
  discover_way (q := (dayPaths, .d)) (by simp [datePaths]) (dayText_ways h)

theorem type_y {t : Text} {y : Nat} (h : YearText t y) : discoverType t = .y :=
  discover_way (q := (yearPaths, .y)) (by simp [datePaths]) (yearText_ways h)

theorem type_m {t : Text} {m : Nat} (h : MonthText t m) : discoverType t = .m :=
  discover_way (q := (monthPaths, .m)) (by simp [datePaths]) (monthText_ways h)

theorem type_dm {a b : Text} {d m : Nat} (ha : DayText a d) (hb : MonthText b m) : discoverType (a ++ b) = .dm :=
  discover_way (q := (thenPaths dayPaths monthPaths, .dm)) (by simp [datePaths]) (ways_then (dayText_ways ha) (monthText_ways hb))

theorem type_md {a b : Text} {d m : Nat} (ha : MonthText a m) (hb : DayText b d) : discoverType (a ++ b) = .md :=
  discover_way (q := (thenPaths monthPaths dayPaths, .md)) (by simp [datePaths]) (ways_then (monthText_ways ha) (dayText_ways hb))

theorem type_my {a b : Text} {m y : Nat} (ha : MonthText a m) (hb : YearText b y) : discoverType (a ++ b) = .my :=
  discover_way (q := (thenPaths monthPaths yearPaths, .my)) (by simp [datePaths]) (ways_then (monthText_ways ha) (yearText_ways hb))

theorem type_ym {a b : Text} {m y : Nat} (ha : YearText a y) (hb : MonthText b m) : discoverType (a ++ b) = .ym :=
  discover_way (q := (thenPaths yearPaths monthPaths, .ym)) (by simp [datePaths]) (ways_then (yearText_ways ha) (monthText_ways hb))

theorem type_dmy {a b c : Text} {d m y : Nat} (ha : DayText a d) (hb : MonthText b m) (hc : YearText c y) : discoverType (a ++ b ++ c) = .dmy := by
  rw [List.append_assoc]
  exact discover_way (q := (thenPaths dayPaths (thenPaths monthPaths yearPaths), .dmy)) (by simp [datePaths]) (ways_then (dayText_ways ha) (ways_then (monthText_ways hb) (yearText_ways hc)))

theorem type_ymd {a b c : Text} {d m y : Nat} (ha : YearText a y) (hb : MonthText b m) (hc : DayText c d) : discoverType (a ++ b ++ c) = .ymd := by
  rw [List.append_assoc]
  exact discover_way (q := (thenPaths yearPaths (thenPaths monthPaths dayPaths), .ymd)) (by simp [datePaths]) (ways_then (yearText_ways ha) (ways_then (monthText_ways hb) (dayText_ways hc)))

theorem type_yymmdd {t : Text} (h : ∀ c ∈ t, isDigit c = true) (hl : t.length = 6 ∨ t.length = 8) : discoverType t = .yymmdd := by
  refine discover_way (q := (digitPaths, .yymmdd)) (by simp [datePaths]) ⟨List.replicate t.length cDigit, ?_, follows_digits h⟩
  rcases hl with hl | hl <;> simp [digitPaths, hl]

theorem type_scaled {t : Text} {c : UInt8} (h0 : t ≠ []) (h : ∀ c ∈ t, isDigit c = true) (hc : cLetter c = true) : discoverType (t ++ [c]) = .scaled := by
  have hr : ∀ t : Text, (∀ c ∈ t, isDigit c = true) → isScaled.rest (t ++ [c]) = true := by
    intro t
    induction t with
    | nil => intro _; exact hc
    | cons d t ih =>
      intro h
      cases t with
      | nil => simp only [List.cons_append, List.nil_append, isScaled.rest, hc, Bool.and_true]; exact h d (by simp)
      | cons e t =>
        have := ih fun x hx => h x (List.mem_cons_of_mem d hx)
        simp only [List.cons_append] at this
        simp only [List.cons_append, isScaled.rest, this, Bool.and_true]
        exact h d (by simp)
  have : isScaled (t ++ [c]) = true := by
    cases t with
    | nil => exact absurd rfl h0
    | cons d t =>
      simp only [List.cons_append, isScaled, hr t fun x hx => h x (List.mem_cons_of_mem d hx), Bool.and_true]
      exact h d (by simp)
  simp only [discoverType, this, if_true]

end Mairix
