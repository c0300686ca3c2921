import Verif.Proofs.DateForms

/-!
# What is read from the written forms of dates
-/

namespace Mairix

open Spec

theorem scanNumber_digits {d r : Text} (hd : ∀ c ∈ d, isDigit c = true) (hr : ∀ c, r.head? = some c → isDigit c = false) (v : Nat)
    (hn : d.foldl (fun n c => 10 * n + (c.toNat - 0x30)) v < 2147483648) : scanNumber v (d ++ r) = .ok (d.foldl (fun n c => 10 * n + (c.toNat - 0x30)) v) := by
  induction d generalizing v with
  | nil =>
    cases r with
    | nil => rfl
    | cons c r => simp [scanNumber, hr c rfl]
  | cons c d ih =>
    simp only [List.cons_append, scanNumber, hd c (by simp), if_true]
    have hle := foldl_digits_le d (10 * v + (c.toNat - 0x30))
    have hp : 1 ≤ 10 ^ d.length := Nat.one_le_pow _ _ (by decide)
    have := Nat.le_trans (Nat.mul_le_mul_left (10 * v + (c.toNat - 0x30)) hp) hle
    simp only [List.foldl_cons] at hn ⊢
    rw [if_pos (by omega), show v * 10 + (c.toNat - 0x30) = 10 * v + (c.toNat - 0x30) by omega]
    exact ih (fun x hx => hd x (by simp [hx])) _ hn

theorem scan_digits {d r : Text} {n : Nat} (h : DigitsOf d n) (hr : ∀ c, r.head? = some c → isDigit c = false) (hn : n < 2147483648) : scanNumber 0 (d ++ r) = .ok n := by
  rw [h.2.2] at hn ⊢
  exact scanNumber_digits h.2.1 hr 0 hn

theorem scan_none {r : Text} (hr : ∀ c, r.head? = some c → isDigit c = false) : scanNumber 0 r = .ok 0 := by
  cases r with
  | nil => rfl
  | cons c r => simp [scanNumber, hr c rfl]

theorem letter_not_digit : ∀ {c : UInt8}, cLetter c = true → isDigit c = false := by
  intro c
  exact forall_byte (P := fun c => cLetter c = true → isDigit c = false) (by decide +kernel) c

theorem month_head {t : Text} {m : Nat} (h : MonthText t m) (r : Text) : ∀ c, (t ++ r).head? = some c → isDigit c = false := by
  obtain ⟨hl, hc⟩ := monthText_letters h
  match t, hl, hc with
  | [a, b, d], _, hc =>
    intro c e
    simp only [List.cons_append, List.head?_cons, Option.some.injEq] at e
    subst e
    exact letter_not_digit (hc a (by simp))

theorem matchMonth_text {t r : Text} {m : Nat} (h : MonthText t m) : matchMonth (t ++ r) = m := by
  obtain ⟨hm, h1, h12⟩ := monthText_mem h
  have hl := (monthText_letters h).1
  have ht : (t ++ r).take 3 = t := by rw [← hl]; simp
  have key : ∀ q : Text, q.length = 3 → hasPrefixCase q (t ++ r) = decide (lower q = lower t) := by
    intro q hq; simp only [hasPrefixCase, hq, ht]
  have e := h.2
  unfold matchMonth
  have hfun : [bs "jan", bs "feb", bs "mar", bs "apr", bs "may", bs "jun", bs "jul", bs "aug", bs "sep", bs "oct", bs "nov", bs "dec"].findIdx? (fun q => hasPrefixCase q (t ++ r)) =
      [bs "jan", bs "feb", bs "mar", bs "apr", bs "may", bs "jun", bs "jul", bs "aug", bs "sep", bs "oct", bs "nov", bs "dec"].findIdx? (fun q => decide (lower q = lower t)) := by
    simp only [List.findIdx?_cons, List.findIdx?_nil, key (bs "jan") rfl, key (bs "feb") rfl, key (bs "mar") rfl, key (bs "apr") rfl, key (bs "may") rfl, key (bs "jun") rfl, key (bs "jul") rfl,
      key (bs "aug") rfl, key (bs "sep") rfl, key (bs "oct") rfl, key (bs "nov") rfl, key (bs "dec") rfl]
  rw [hfun]
  generalize lower t = u at e
  match m, h1, h12 with
  | 1, _, _ | 2, _, _ | 3, _, _ | 4, _, _ | 5, _, _ | 6, _, _ | 7, _, _ | 8, _, _ | 9, _, _ | 10, _, _ | 11, _, _ | 12, _, _ =>
    simp only [months] at e
    have e := Option.some.inj e
    rw [← e]
    decide +kernel

theorem scanMonth_text {t r : Text} {m : Nat} (h : MonthText t m) : scanMonth (t ++ r) = some (m, r) := by
  have hl := (monthText_letters h).1
  have hm := (monthText_mem h).2.1
  have hne : (t ++ r).isEmpty = false := by
    match t, hl with
    | _ :: _, _ => rfl
  simp only [scanMonth, hne, Bool.false_eq_true, if_false, matchMonth_text h]
  rw [if_neg (by omega), ← hl]
  simp

theorem month_dropDigits {t r : Text} {m : Nat} (h : MonthText t m) : (t ++ r).dropWhile isDigit = t ++ r := by
  have hh := month_head h r
  cases e : t ++ r with
  | nil => rfl
  | cons c u => rw [e] at hh; rw [List.dropWhile_cons, hh c rfl]; rfl

theorem dropDigits_all {d : Text} {n : Nat} (h : DigitsOf d n) : d.dropWhile isDigit = [] := by
  have := (takeDigits (r := []) h (by simp)).2
  simpa using this

/-- The types of dates with digits and month names in them. -/
def plainType : DateType → Bool
  | .failure | .scaled => false
  | _ => true

/-- What is read: a number (or none) in front of a month (or none), and a number (or none) behind it. -/
theorem scan_parts {now : Int} {t p : Text} {ty : DateType} {v1 m2 v3 : Nat} (ht : discoverType t = ty) (hp : plainType ty = true) (h1 : scanNumber 0 t = .ok v1)
    (h2 : scanMonth (t.dropWhile isDigit) = some (m2, p)) (h3 : scanNumber 0 p = .ok v3) (h4 : p.dropWhile isDigit = []) : scanExpr now t = .ok (some (.absolute ty v1 m2 v3)) := by
  unfold scanExpr
  rw [ht]
  cases ty <;> first | (simp [plainType] at hp; done) | (simp only [h1, h2, h3, h4, bind, Except.bind, List.isEmpty_nil, if_true])

/-- Numbers that dates are written with. -/
structure NumText (t : Text) (n : Nat) : Prop where
  digits : DigitsOf t n
  fits : n < 2147483648

/-- What is read from a year. -/
theorem yearText_num {t : Text} {y : Nat} (h : YearText t y) : ∃ n, NumText t n ∧ yearFix n = (y : Int) - 1900 := by
  cases h with
  | @short n hd hl hs =>
    have := dateDigits_lt hd
    rw [hl] at this
    refine ⟨n, ⟨hd, by omega⟩, ?_⟩
    unfold yearFix fullYear
    rw [if_neg (by omega)]
    split <;> split <;> omega
  | long hd hl h0 =>
    have hlt := dateDigits_lt hd
    rw [hl] at hlt
    have hge : 1000 ≤ y := by
      obtain ⟨_, hall, hv⟩ := hd
      match t, hall, hv, hl, h0 with
      | [a, b, c, d], hall, hv, _, h0 =>
        simp only [List.foldl_cons, List.foldl_nil] at hv
        have ha : 1 ≤ a.toNat - 0x30 := by
          rcases digit_cases (hall a (by simp)) with rfl | rfl | rfl | rfl | rfl | rfl | rfl | rfl | rfl | rfl <;> first | decide | exact absurd rfl h0
        omega
    refine ⟨y, ⟨hd, by omega⟩, ?_⟩
    unfold yearFix
    rw [if_pos (by omega)]

theorem dayText_num {t : Text} {d : Nat} (h : DayText t d) : NumText t d := ⟨h.1, by have := h.2.2.1; omega⟩

section
variable {now : Int} {a b c : Text} {n k m : Nat} {ty : DateType}

theorem scan_n (hp : plainType ty = true) (ha : NumText a n) (ht : discoverType a = ty) : scanExpr now a = .ok (some (.absolute ty n 0 0)) := by
  have h1 := scan_digits (r := []) ha.digits (by simp) ha.fits
  rw [List.append_nil] at h1
  exact scan_parts (p := []) ht hp h1 (by rw [dropDigits_all ha.digits]; rfl) rfl rfl

theorem scan_m (hp : plainType ty = true) (ha : MonthText a m) (ht : discoverType a = ty) : scanExpr now a = .ok (some (.absolute ty 0 m 0)) := by
  have hh := month_head ha []
  have hd := month_dropDigits (r := []) ha
  have hs := scanMonth_text (r := []) ha
  rw [List.append_nil] at hh hd hs
  exact scan_parts (p := []) ht hp (scan_none hh) (by rw [hd, hs]) rfl rfl

theorem scan_nm (hp : plainType ty = true) (ha : NumText a n) (hb : MonthText b m) (ht : discoverType (a ++ b) = ty) : scanExpr now (a ++ b) = .ok (some (.absolute ty n m 0)) := by
  have hh := month_head hb []
  have hs := scanMonth_text (r := []) hb
  rw [List.append_nil] at hh hs
  exact scan_parts (p := []) ht hp (scan_digits ha.digits hh ha.fits) (by rw [(takeDigits ha.digits hh).2, hs]) rfl rfl

theorem scan_mn (hp : plainType ty = true) (ha : MonthText a m) (hb : NumText b n) (ht : discoverType (a ++ b) = ty) : scanExpr now (a ++ b) = .ok (some (.absolute ty 0 m n)) := by
  have h3 := scan_digits (r := []) hb.digits (by simp) hb.fits
  rw [List.append_nil] at h3
  exact scan_parts (p := b) ht hp (scan_none (month_head ha b)) (by rw [month_dropDigits ha, scanMonth_text ha]) h3 (dropDigits_all hb.digits)

theorem scan_nmn (hp : plainType ty = true) (ha : NumText a n) (hb : MonthText b m) (hc : NumText c k) (ht : discoverType (a ++ b ++ c) = ty) :
    scanExpr now (a ++ b ++ c) = .ok (some (.absolute ty n m k)) := by
  have h3 := scan_digits (r := []) hc.digits (by simp) hc.fits
  rw [List.append_nil] at h3
  rw [List.append_assoc] at ht ⊢
  exact scan_parts (p := c) ht hp (scan_digits ha.digits (month_head hb c) ha.fits) (by rw [(takeDigits ha.digits (month_head hb c)).2, scanMonth_text hb]) h3 (dropDigits_all hc.digits)

end

/-! ## What days this gives -/

theorem digits_append {a b : Text} {n m : Nat} (ha : DigitsOf a n) (hb : DigitsOf b m) : DigitsOf (a ++ b) (n * 10 ^ b.length + m) := by
  refine ⟨by simp [ha.1], ?_, ?_⟩
  · intro c hc
    rw [List.mem_append] at hc
    exact hc.elim (ha.2.1 c) (hb.2.1 c)
  · have key : ∀ (t : Text) (v : Nat), t.foldl (fun n c => 10 * n + (c.toNat - 0x30)) v = v * 10 ^ t.length + t.foldl (fun n c => 10 * n + (c.toNat - 0x30)) 0 := by
      intro t
      induction t with
      | nil => simp
      | cons c t ih =>
        intro v
        simp only [List.foldl_cons, List.length_cons]
        rw [ih, ih (10 * 0 + (c.toNat - 0x30)), Nat.pow_succ, ← Nat.add_assoc]
        congr 1
        rw [Nat.add_mul, Nat.mul_zero, Nat.zero_add, Nat.mul_comm (10 ^ t.length), ← Nat.mul_assoc, Nat.mul_comm v]
    rw [List.foldl_append, key, ← ha.2.2, ← hb.2.2]

theorem lastDay_eq {m : Nat} {y : Int} (h1 : 1 ≤ m) (h12 : m ≤ 12) (h : m = 2 → y % 100 = 0 → y % 400 = 0) : lastDayOf (m - 1) (y - 1900) = monthLength y m := by
  unfold lastDayOf monthLength
  by_cases h2 : m = 2
  · subst h2
    have h := h rfl
    simp only [Nat.reduceSub, ne_eq, not_true, if_false, if_true]
    have ht : (y - 1900).tmod 4 = 0 ↔ y % 4 = 0 := by
      rw [← Int.dvd_iff_tmod_eq_zero]; omega
    by_cases h4 : y % 4 = 0
    · have : Leap y := ⟨h4, by omega⟩
      simp [ht, h4, this]
    · have : ¬ Leap y := fun h => h4 h.1
      simp [ht, h4, this]
  · rw [if_pos (by omega), if_neg h2]
    match m, h1, h12, h2 with
    | 1, _, _, _ | 3, _, _, _ | 4, _, _, _ | 5, _, _, _ | 6, _, _, _ | 7, _, _, _ | 8, _, _, _ | 9, _, _, _ | 10, _, _, _ | 11, _, _, _ | 12, _, _, _ => decide

theorem upTo_antisymm {a b : Day} (h1 : a.UpTo b) (h2 : b.UpTo a) : a = b := by
  cases a; cases b
  simp only [Day.UpTo] at h1 h2
  simp only [Day.mk.injEq]
  omega

/-- There is only one most recent day. -/
theorem recent_unique {P : Day → Prop} {ref a b : Day} (ha : MostRecent P ref a) (hb : MostRecent P ref b) : a = b :=
  upTo_antisymm (hb.last a ha.has ha.isDay ha.before) (ha.last b hb.has hb.isDay hb.before)

theorem monthLength_le (y : Int) (m : Nat) : 28 ≤ monthLength y m ∧ monthLength y m ≤ 31 := by
  unfold monthLength; repeat' split
  all_goals omega

theorem setDay_recent {ref first : Day} {d : Nat} {h mi s z : Int} (hr : ref.Exists) (hm : MostRecent (fun x => x.day = d) ref first)
    (hn : ref.year * 12 + ref.month ≤ first.year * 12 + first.month + 1) : setDay (ref.tm h mi s z) d = first.tm h mi s z := by
  obtain ⟨hd, hf, hb, hl⟩ := hm
  obtain ⟨y, m, dd⟩ := first
  obtain ⟨ry, rm, rd⟩ := ref
  dsimp only at hd
  subst hd
  simp only [Day.Exists] at hf hr
  simp only [Day.UpTo] at hb
  dsimp only at hn
  have hthis : dd ≤ rd → y = ry ∧ m = rm := by
    intro hle
    have := hl ⟨ry, rm, dd⟩ rfl ⟨hr.1, hr.2.1, hf.2.2.1, by simp only; omega⟩ (.inr ⟨rfl, .inr ⟨rfl, hle⟩⟩)
    simp only [Day.UpTo] at this
    omega
  have hnot : rd < dd → ¬ (y = ry ∧ m = rm) := by intro hlt; omega
  unfold setDay
  split
  · rename_i hgt
    simp only [Day.tm] at hgt
    have := hnot (by omega)
    split
    · rename_i h0
      simp only [Day.tm] at h0 ⊢
      simp only [Tm.mk.injEq]
      simp
      omega
    · rename_i h0
      simp only [Day.tm] at h0 ⊢
      simp only [Tm.mk.injEq]
      simp
      omega
  · rename_i hgt
    simp only [Day.tm] at hgt ⊢
    have := hthis (by omega)
    simp only [Tm.mk.injEq]
    simp
    omega

theorem monthLength_other {y y' : Int} {m : Nat} (h : m ≠ 2) : monthLength y m = monthLength y' m := by
  unfold monthLength; simp only [h, if_false]

/-- A day of the year that exists in one year exists in every year unless it is 29 February. -/
theorem exists_yearly {y y' : Int} {m d : Nat} (h : d ≤ monthLength y m) (hn : ¬ (d = 29 ∧ m = 2)) : d ≤ monthLength y' m := by
  by_cases h2 : m = 2
  · have h' := (monthLength_le y' m).1
    have : monthLength y m ≤ 29 := by unfold monthLength; rw [if_pos h2]; split <;> omega
    omega
  · rw [monthLength_other (y := y') (y' := y) h2]; exact h

theorem later_recent {ref first : Day} {d m : Nat} {h mi s z : Int} (hr : ref.Exists) (hm : MostRecent (fun x => x.day = d ∧ x.month = m) ref first)
    (hn : d = 29 → m = 2 → first.year = ref.year ∨ (first.year + 1 = ref.year ∧ ref.month ≤ 2)) :
    (if isLaterDm (ref.tm h mi s z) m d then (ref.tm h mi s z).year - 1 else (ref.tm h mi s z).year) = first.year - 1900 := by
  obtain ⟨hd, hf, hb, hl⟩ := hm
  obtain ⟨y, mm, dd⟩ := first
  obtain ⟨ry, rm, rd⟩ := ref
  dsimp only at hd
  obtain ⟨rfl, rfl⟩ := hd
  simp only [Day.Exists] at hf hr
  dsimp only at hn
  have hin : ∀ z : Int, dd ≤ monthLength z mm → Day.UpTo ⟨z, mm, dd⟩ ⟨ry, rm, rd⟩ → z ≤ y := by
    intro z hz hu
    have := hl ⟨z, mm, dd⟩ ⟨rfl, rfl⟩ ⟨hf.1, hf.2.1, hf.2.2.1, hz⟩ hu
    simp only [Day.UpTo] at this
    omega
  simp only [Day.UpTo] at hb hin
  split
  · rename_i hlater
    simp only [isLaterDm, Bool.or_eq_true, Bool.and_eq_true, decide_eq_true_eq] at hlater
    simp only [Day.tm] at hlater ⊢
    by_cases h29 : dd = 29 ∧ mm = 2
    · have := hn h29.1 h29.2
      omega
    · have := hin (ry - 1) (exists_yearly hf.2.2.2 h29) (by omega)
      omega
  · rename_i hlater
    simp only [isLaterDm, Bool.or_eq_true, Bool.and_eq_true, decide_eq_true_eq, not_or] at hlater
    simp only [Day.tm] at hlater ⊢
    by_cases h29 : dd = 29 ∧ mm = 2
    · have := hn h29.1 h29.2
      obtain ⟨rfl, rfl⟩ := h29
      by_cases hm2 : rm = 2
      · subst hm2
        have : 29 ≤ monthLength ry 2 := by omega
        have := hin ry this (by omega)
        omega
      · omega
    · have := hin ry (exists_yearly hf.2.2.2 h29) (by omega)
      omega

theorem month_recent {ref first : Day} {m : Nat} {h mi s z : Int} (hr : ref.Exists) (hm : MostRecent (fun x => x.day = 1 ∧ x.month = m) ref first) :
    (if (m : Int) - 1 > (ref.tm h mi s z).mon then (ref.tm h mi s z).year - 1 else (ref.tm h mi s z).year) = first.year - 1900 := by
  obtain ⟨hd, hf, hb, hl⟩ := hm
  obtain ⟨y, mm, dd⟩ := first
  obtain ⟨ry, rm, rd⟩ := ref
  dsimp only at hd
  obtain ⟨rfl, rfl⟩ := hd
  simp only [Day.Exists] at hf hr
  simp only [Day.UpTo] at hb
  have hML := monthLength_le
  split
  · rename_i hlater
    simp only [Day.tm] at hlater ⊢
    have := hl ⟨ry - 1, mm, 1⟩ ⟨rfl, rfl⟩ ⟨hf.1, hf.2.1, Nat.le_refl 1, by have := hML (ry - 1) mm; dsimp only; omega⟩ (by simp only [Day.UpTo]; omega)
    simp only [Day.UpTo] at this
    omega
  · rename_i hlater
    simp only [Day.tm] at hlater ⊢
    have := hl ⟨ry, mm, 1⟩ ⟨rfl, rfl⟩ ⟨hf.1, hf.2.1, Nat.le_refl 1, by have := hML ry mm; dsimp only; omega⟩ (.inr ⟨rfl, by dsimp only; omega⟩)
    simp only [Day.UpTo] at this
    omega

/-! ## The expressions -/

/-- What is read, and what it makes of a time on the day `ref`. -/
structure Yields (ref first last : Day) (s : Scanned) : Prop where
  starts : ∀ (clk : Clock) (h mi s' z : Int), s.start clk (ref.tm h mi s' z) = first.tm h mi s' z
  ends : ∀ (clk : Clock) (h mi s' z : Int), s.end clk (ref.tm h mi s' z) = last.tm h mi s' z

theorem yields_date {ref d : Day} {s : Scanned} (h1 : ∀ (clk : Clock) (x : Tm), s.start clk x = { x with year := d.year - 1900, mon := (d.month : Int) - 1, mday := d.day })
    (h2 : ∀ (clk : Clock) (x : Tm), s.end clk x = { x with year := d.year - 1900, mon := (d.month : Int) - 1, mday := d.day }) : Yields ref d d s :=
  ⟨fun clk _ _ _ _ => h1 clk _, fun clk _ _ _ _ => h2 clk _⟩

theorem yields_recent {ref first : Day} {d m : Nat} {ty : DateType} {v1 v3 : Nat} (hr : ref.Exists) (hm : MostRecent (fun x => x.day = d ∧ x.month = m) ref first)
    (hn : d = 29 → m = 2 → first.year = ref.year ∨ (first.year + 1 = ref.year ∧ ref.month ≤ 2))
    (hs : ∀ x, startOf ty v1 m v3 x = { x with year := if isLaterDm x m d then x.year - 1 else x.year, mon := (m : Int) - 1, mday := d })
    (he : ∀ x, endOf ty v1 m v3 x = { x with year := if isLaterDm x m d then x.year - 1 else x.year, mon := (m : Int) - 1, mday := d }) :
    Yields ref first first (.absolute ty v1 m v3) := by
  have key : ∀ h mi s z : Int, ({ ref.tm h mi s z with year := if isLaterDm (ref.tm h mi s z) m d then (ref.tm h mi s z).year - 1 else (ref.tm h mi s z).year, mon := (m : Int) - 1, mday := d } : Tm) = first.tm h mi s z := by
    intro h mi s z
    rw [later_recent hr hm hn]
    simp only [Day.tm, hm.has.1, hm.has.2]
  refine ⟨fun clk h mi s z => ?_, fun clk h mi s z => ?_⟩
  · simp only [Scanned.start]; rw [hs, key]
  · simp only [Scanned.end]; rw [he, key]

theorem date_split {a b c : Text} {n m d : Nat} (ha : DigitsOf a n) (hb : DigitsOf b m) (hc : DigitsOf c d) (hbl : b.length = 2) (hcl : c.length = 2) :
    DigitsOf (a ++ b ++ c) (n * 10000 + m * 100 + d) ∧ m < 100 ∧ d < 100 := by
  have h := digits_append (digits_append ha hb) hc
  have h2 := dateDigits_lt hb
  have h3 := dateDigits_lt hc
  rw [hbl] at h h2
  rw [hcl] at h h3
  refine ⟨?_, by omega, by omega⟩
  have e : (n * 10 ^ 2 + m) * 10 ^ 2 + d = n * 10000 + m * 100 + d := by omega
  rw [e] at h; exact h

theorem yields_digits {ref : Day} {n m d : Nat} {y : Nat} (hm : m < 100) (hd : d < 100) (hy : yearFix n = (y : Int) - 1900) :
    Yields ref ⟨y, m, d⟩ ⟨y, m, d⟩ (.absolute .yymmdd (n * 10000 + m * 100 + d) 0 0) := by
  have e1 : (n * 10000 + m * 100 + d) % 100 = d := by omega
  have e2 : (n * 10000 + m * 100 + d) / 100 % 100 = m := by omega
  have e3 : (n * 10000 + m * 100 + d) / 10000 = n := by omega
  apply yields_date
  · intro clk x; simp only [Scanned.start, startOf, e1, e2, e3, hy]
  · intro clk x; simp only [Scanned.end, endOf, e1, e2, e3, hy]

theorem yearFix_full {n : Nat} (h : n < 100) : yearFix n = (fullYear n : Int) - 1900 := by
  unfold yearFix fullYear
  rw [if_neg (by omega)]
  split <;> split <;> omega

theorem digits_all {a b c : Text} {n m d : Nat} (ha : DigitsOf a n) (hb : DigitsOf b m) (hc : DigitsOf c d) : ∀ x ∈ a ++ b ++ c, isDigit x = true :=
  (digits_append (digits_append ha hb) hc).2.1

/-- Every way to write a period is read, and yields the days that the period covers. -/
theorem period_yields {now : Int} {t : Text} {p : Period} {ref first last : Day} (ht : PeriodText t p) (hr : ref.Exists) (hc : Covers ref first last p) (hn : Reached ref first p) :
    ∃ s, scanExpr now t = .ok (some s) ∧ Yields ref first last s := by
  cases ht with
  | day h =>
    obtain ⟨hm, rfl⟩ := hc
    refine ⟨_, scan_n rfl (dayText_num h) (type_d h), ⟨fun clk hh mi s z => ?_, fun clk hh mi s z => ?_⟩⟩
    · exact setDay_recent hr hm hn
    · exact setDay_recent hr hm hn
  | month h =>
    obtain ⟨hm, rfl⟩ := hc
    refine ⟨_, scan_m rfl h (type_m h), ⟨fun clk hh mi s z => ?_, fun clk hh mi s z => ?_⟩⟩
    · simp only [Scanned.start, startOf]
      rw [month_recent hr hm]
      simp only [Day.tm, hm.has.1, hm.has.2]
      rfl
    · simp only [Scanned.end, endOf]
      rw [month_recent hr hm]
      obtain ⟨_, h1, h12⟩ := monthText_mem h
      rw [lastDay_eq h1 h12 hn]
      simp only [Day.tm, hm.has.2]
  | dayMonth ha hb =>
    obtain ⟨hm, rfl⟩ := hc
    exact ⟨_, scan_nm rfl (dayText_num ha) hb (type_dm ha hb), yields_recent hr hm hn (fun _ => rfl) (fun _ => rfl)⟩
  | monthDay ha hb =>
    obtain ⟨hm, rfl⟩ := hc
    exact ⟨_, scan_mn rfl ha (dayText_num hb) (type_md ha hb), yields_recent hr hm hn (fun _ => rfl) (fun _ => rfl)⟩
  | year h =>
    obtain ⟨rfl, rfl⟩ := hc
    obtain ⟨n, hn, hy⟩ := yearText_num h
    refine ⟨_, scan_n rfl hn (type_y h), ⟨fun clk hh mi s z => ?_, fun clk hh mi s z => ?_⟩⟩
    · simp only [Scanned.start, startOf, hy, Day.tm]; rfl
    · simp only [Scanned.end, endOf, hy, Day.tm]; rfl
  | monthYear ha hb =>
    obtain ⟨rfl, rfl⟩ := hc
    obtain ⟨n, hnn, hy⟩ := yearText_num hb
    refine ⟨_, scan_mn rfl ha hnn (type_my ha hb), ⟨fun clk hh mi s z => ?_, fun clk hh mi s z => ?_⟩⟩
    · simp only [Scanned.start, startOf, hy, Day.tm]; rfl
    · obtain ⟨_, h1, h12⟩ := monthText_mem ha
      simp only [Scanned.end, endOf, hy, Day.tm]
      rw [lastDay_eq h1 h12 (by have := hn; simp only [Reached] at this; omega)]
  | yearMonth ha hb =>
    obtain ⟨rfl, rfl⟩ := hc
    obtain ⟨n, hnn, hy⟩ := yearText_num ha
    refine ⟨_, scan_nm rfl hnn hb (type_ym ha hb), ⟨fun clk hh mi s z => ?_, fun clk hh mi s z => ?_⟩⟩
    · simp only [Scanned.start, startOf, hy, Day.tm]; rfl
    · obtain ⟨_, h1, h12⟩ := monthText_mem hb
      simp only [Scanned.end, endOf, hy, Day.tm]
      rw [lastDay_eq h1 h12 (by have := hn; simp only [Reached] at this; omega)]
  | dayMonthYear ha hb hc' =>
    obtain ⟨rfl, rfl, _⟩ := hc
    obtain ⟨n, hnn, hy⟩ := yearText_num hc'
    refine ⟨_, scan_nmn rfl (dayText_num ha) hb hnn (type_dmy ha hb hc'), yields_date ?_ ?_⟩
    · intro clk x; simp only [Scanned.start, startOf, hy]
    · intro clk x; simp only [Scanned.end, endOf, hy]
  | yearMonthDay ha hb hc' =>
    obtain ⟨rfl, rfl, _⟩ := hc
    obtain ⟨n, hnn, hy⟩ := yearText_num ha
    refine ⟨_, scan_nmn rfl hnn hb (dayText_num hc') (type_ymd ha hb hc'), yields_date ?_ ?_⟩
    · intro clk x; simp only [Scanned.start, startOf, hy]
    · intro clk x; simp only [Scanned.end, endOf, hy]
  | digits6 ha hb hc' hal hbl hcl =>
    obtain ⟨rfl, rfl, _⟩ := hc
    obtain ⟨hd, hm, hdd⟩ := date_split ha hb hc' hbl hcl
    have hlt := dateDigits_lt ha
    rw [hal] at hlt
    exact ⟨_, scan_n rfl ⟨hd, by omega⟩ (type_yymmdd (digits_all ha hb hc') (.inl (by simp [hal, hbl, hcl]))), yields_digits hm hdd (yearFix_full (by omega))⟩
  | digits8 ha hb hc' hal hbl hcl hy =>
    obtain ⟨rfl, rfl, _⟩ := hc
    obtain ⟨hd, hm, hdd⟩ := date_split ha hb hc' hbl hcl
    have hlt := dateDigits_lt ha
    rw [hal] at hlt
    refine ⟨_, scan_n rfl ⟨hd, by omega⟩ (type_yymmdd (digits_all ha hb hc') (.inr (by simp [hal, hbl, hcl]))), yields_digits hm hdd ?_⟩
    unfold yearFix
    rw [if_pos (by omega)]

theorem ago_yields {now : Int} {t : Text} {n : Nat} (ht : AgoText t n) (hn : n * 86400 < 2147483648) : scanExpr now t = .ok (some (.relative (now - n * 86400))) := by
  cases ht with
  | mk hd hu =>
    rename_i t n k c
    have hc : cLetter c = true := by cases hu <;> decide
    have hk : 1 ≤ k := by cases hu <;> decide
    have hle : n ≤ n * k := Nat.le_mul_of_pos_right n hk
    have hc' : ∀ x, [c].head? = some x → isDigit x = false := by
      intro x hx; simp only [List.head?_cons, Option.some.injEq] at hx; subst hx; exact letter_not_digit hc
    have hs := scan_digits (n := n) hd hc' (by omega)
    have hdw := (takeDigits hd hc').2
    have hscale : scaleNumber n c = .ok (some (n * k * 86400)) := by
      have hb : ∀ f, f = k * 86400 → scaleBy n f = .ok (some (n * k * 86400)) := by
        intro f hf
        unfold scaleBy
        rw [hf, ← Nat.mul_assoc, if_pos hn]
      cases hu with
      | day =>
        unfold scaleNumber
        rw [if_pos rfl]; exact hb _ (by omega)
      | week =>
        unfold scaleNumber
        rw [if_neg (by decide), if_pos rfl]; exact hb _ (by omega)
      | month =>
        unfold scaleNumber
        rw [if_neg (by decide), if_neg (by decide), if_pos rfl]; exact hb _ (by omega)
      | year =>
        unfold scaleNumber
        rw [if_neg (by decide), if_neg (by decide), if_neg (by decide), if_pos rfl]; exact hb _ (by omega)
    unfold scanExpr
    rw [type_scaled hd.1 hd.2.1 hc]
    simp only [hs, hdw, hscale, bind, Except.bind]
    simp

end Mairix
