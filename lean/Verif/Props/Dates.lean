import Verif.Proofs.Calendar
import Verif.Proofs.DateRefuse
import Verif.Model.Search

/-!
# C20: dates in searches
-/

namespace Mairix

open Spec

/-! ## Texts without a hyphen -/

theorem strchr_absent {c : UInt8} {t : Text} (h : c ∉ t) : strchr c t = none := by
  induction t with
  | nil => rfl
  | cons a t ih =>
    simp only [List.mem_cons, not_or] at h
    simp only [strchr]
    rw [if_neg (fun e => h.1 e.symm), ih h.2]
    rfl

theorem strchr_at {c : UInt8} {a b : Text} (h : c ∉ a) : strchr c (a ++ c :: b) = some (a, b) := by
  induction a with
  | nil => simp [strchr]
  | cons x a ih =>
    simp only [List.mem_cons, not_or] at h
    simp only [List.cons_append, strchr]
    rw [if_neg (fun e => h.1 e.symm), ih h.2]
    rfl

theorem digits_noHyphen {t : Text} {n : Nat} (h : DigitsOf t n) : (0x2d : UInt8) ∉ t := by
  intro hc; have := h.2.1 _ hc; revert this; decide

theorem month_noHyphen {t : Text} {m : Nat} (h : MonthText t m) : (0x2d : UInt8) ∉ t := by
  intro hc; have := (monthText_letters h).2 _ hc; revert this; decide

theorem year_noHyphen {t : Text} {y : Nat} (h : YearText t y) : (0x2d : UInt8) ∉ t := by
  obtain ⟨n, hn, _⟩ := yearText_num h
  exact digits_noHyphen hn.digits

theorem period_noHyphen {t : Text} {p : Period} (h : PeriodText t p) : (0x2d : UInt8) ∉ t ∧ t ≠ [] := by
  have hd : ∀ {t n}, DayText t n → (0x2d : UInt8) ∉ t := fun h => digits_noHyphen h.1
  have hm : ∀ {t m}, MonthText t m → t ≠ [] := by intro t m h e; have := (monthText_letters h).1; rw [e] at this; simp at this
  cases h with
  | day h => exact ⟨hd h, h.1.1⟩
  | month h => exact ⟨month_noHyphen h, hm h⟩
  | dayMonth ha hb => simp [hd ha, month_noHyphen hb, hm hb]
  | monthDay ha hb => simp [hd hb, month_noHyphen ha, hm ha]
  | year h => obtain ⟨n, hn, _⟩ := yearText_num h; exact ⟨year_noHyphen h, hn.digits.1⟩
  | monthYear ha hb => simp [year_noHyphen hb, month_noHyphen ha, hm ha]
  | yearMonth ha hb => simp [year_noHyphen ha, month_noHyphen hb, hm hb]
  | dayMonthYear ha hb hc => simp [year_noHyphen hc, month_noHyphen hb, hd ha, hm hb]
  | yearMonthDay ha hb hc => simp [year_noHyphen ha, month_noHyphen hb, hd hc, hm hb]
  | digits6 ha hb hc => simp [digits_noHyphen ha, digits_noHyphen hb, digits_noHyphen hc, ha.1]
  | digits8 ha hb hc => simp [digits_noHyphen ha, digits_noHyphen hb, digits_noHyphen hc, ha.1]

theorem ago_noHyphen {t : Text} {n : Nat} (h : AgoText t n) : (0x2d : UInt8) ∉ t ∧ t ≠ [] := by
  cases h with
  | mk hd hu =>
    simp only [List.mem_append, digits_noHyphen hd, List.mem_cons, List.not_mem_nil, or_false, false_or]
    refine ⟨?_, by simp⟩
    cases hu <;> decide

theorem starts_scan {clk : Clock} {ref : Day} {h mi s z : Int} {t : Text} {x : Tm} (hr : ref.Exists) (hs : StartsAt clk ref h mi s z t x) :
    ∃ sc, scanExpr clk.now t = .ok (some sc) ∧ sc.start clk (ref.tm h mi s z) = x ∧ (0x2d : UInt8) ∉ t ∧ t ≠ [] := by
  cases hs with
  | period hp hc hn =>
    obtain ⟨sc, h1, h2⟩ := period_yields (now := clk.now) hp hr hc hn
    exact ⟨sc, h1, h2.starts clk _ _ _ _, period_noHyphen hp⟩
  | ago ha hn => exact ⟨_, ago_yields ha hn, rfl, ago_noHyphen ha⟩

theorem ends_scan {clk : Clock} {ref : Day} {h mi s z : Int} {t : Text} {x : Tm} (hr : ref.Exists) (hs : EndsAt clk ref h mi s z t x) :
    ∃ sc, scanExpr clk.now t = .ok (some sc) ∧ sc.end clk (ref.tm h mi s z) = x ∧ (0x2d : UInt8) ∉ t ∧ t ≠ [] := by
  cases hs with
  | period hp hc hn =>
    obtain ⟨sc, h1, h2⟩ := period_yields (now := clk.now) hp hr hc hn
    exact ⟨sc, h1, h2.ends clk _ _ _ _, period_noHyphen hp⟩
  | ago ha hn => exact ⟨_, ago_yields ha hn, rfl, ago_noHyphen ha⟩

theorem startTm_day {clk : Clock} {today : Day} {h mi s z : Int} (ht : clk.localtime clk.now = today.tm h mi s z) : startTm clk = today.tm 0 0 0 (-1) := by
  simp only [startTm, ht, Day.tm]

theorem endTm_day {clk : Clock} {today : Day} {h mi s z : Int} (ht : clk.localtime clk.now = today.tm h mi s z) : endTm clk = today.tm 23 59 59 (-1) := by
  simp only [endTm, ht, Day.tm]

/-! ## Expressions -/

section
variable {clk : Clock} {today : Day} {h mi s z : Int}

/-- **C20** for a period on its own, `d:period`: it is read, and gives the beginning of the first day and the end of the last day that the period covers, seen from today. Missing: where `Reached` does not hold (see the violations),
and a relative date, which is a moment rather than a day (`C20_ago_violation`). -/
theorem C20_period_partial {t : Text} {x y : Tm} (htoday : today.Exists) (hnow : clk.localtime clk.now = today.tm h mi s z) (hs : StartsAt clk today 0 0 0 (-1) t x) (he : EndsAt clk today 23 59 59 (-1) t y) :
    scanDateString clk t = .ok (some (some (clk.mktime x).1, some (clk.mktime y).1)) := by
  obtain ⟨sc, h1, h2, hh, _⟩ := starts_scan htoday hs
  obtain ⟨sc', h1', h2', _⟩ := ends_scan htoday he
  rw [h1] at h1'
  obtain rfl : sc = sc' := by injection h1' with e; injection e
  unfold scanDateString
  rw [strchr_absent hh, startTm_day hnow, endTm_day hnow]
  simp only [h1, bind, Except.bind, h2, h2']

/-- **C20** for `d:start-`: the beginning of the first day, and no end. -/
theorem C20_from_partial {t : Text} {x : Tm} (htoday : today.Exists) (hnow : clk.localtime clk.now = today.tm h mi s z) (hs : StartsAt clk today 0 0 0 (-1) t x) :
    scanDateString clk (t ++ [0x2d]) = .ok (some (some (clk.mktime x).1, none)) := by
  obtain ⟨sc, h1, h2, hh, hne⟩ := starts_scan htoday hs
  have hemp : t.isEmpty = false := by simp [hne]
  unfold scanDateString
  rw [strchr_at hh]
  simp only [List.isEmpty_nil, if_true, rangeStart, hemp, Bool.false_eq_true, if_false, h1, bind, Except.bind]
  rw [startTm_day hnow, h2]

/-- **C20** for `d:-end`: the end of the last day, and no start. -/
theorem C20_until_partial {t : Text} {y : Tm} (htoday : today.Exists) (hnow : clk.localtime clk.now = today.tm h mi s z) (he : EndsAt clk today 23 59 59 (-1) t y) :
    scanDateString clk (0x2d :: t) = .ok (some (none, some (clk.mktime y).1)) := by
  obtain ⟨sc, h1, h2, hh, hne⟩ := ends_scan htoday he
  have hemp : t.isEmpty = false := by simp [hne]
  unfold scanDateString
  rw [show (0x2d : UInt8) :: t = [] ++ 0x2d :: t from rfl, strchr_at (by simp)]
  simp only [hemp, Bool.false_eq_true, if_false, h1, bind, Except.bind, rangeStart, List.isEmpty_nil, if_true]
  rw [endTm_day hnow, h2]

/-- **C20** for `d:start-end`: the end is that of the last day of its period, seen from today; the start is on the first day of its period, seen from the end. (`mktime` makes `y` the time `e.tm h' mi' s' z'`: the same day if it exists.) Missing: the start is not
at the beginning of its day but at the end's time of day, which leaves that day out (`C20_range_first_day_violation`). -/
theorem C20_range_partial {a b : Text} {x y : Tm} {e : Day} {h' mi' s' z' : Int} (htoday : today.Exists) (hnow : clk.localtime clk.now = today.tm h mi s z) (he : EndsAt clk today 23 59 59 (-1) b y)
    (hm : (clk.mktime y).2 = e.tm h' mi' s' z') (hee : e.Exists) (hs : StartsAt clk e h' mi' s' z' a x) :
    scanDateString clk (a ++ 0x2d :: b) = .ok (some (some (clk.mktime x).1, some (clk.mktime y).1)) := by
  obtain ⟨sc, h1, h2, hh, hne⟩ := starts_scan hee hs
  obtain ⟨sc', h1', h2', hh', hne'⟩ := ends_scan htoday he
  have hemp : a.isEmpty = false := by simp [hne]
  have hemp' : b.isEmpty = false := by simp [hne']
  unfold scanDateString
  rw [strchr_at hh]
  simp only [hemp', Bool.false_eq_true, if_false, h1', bind, Except.bind, rangeStart, hemp, h1]
  rw [endTm_day hnow, h2', hm, h2]

end

/-! ## Searches -/

theorem upTo_total (a b : Day) : a.UpTo b ∨ b.UpTo a := by
  simp only [Day.UpTo]; omega

theorem upTo_trans {a b c : Day} (h1 : a.UpTo b) (h2 : b.UpTo c) : a.UpTo c := by
  simp only [Day.UpTo] at *; omega

theorem upTo_refl (a : Day) : a.UpTo a := .inr ⟨rfl, .inr ⟨rfl, Nat.le_refl _⟩⟩

theorem within_iff {lo hi : Int} (hle : lo ≤ hi) (m : DbMsg) : dateWithin (orderLimits (some lo, some hi)) m = true ↔ lo < m.date ∧ (m.date : Int) < hi := by
  have : orderLimits (some lo, some hi) = (some lo, some hi) := by simp only [orderLimits]; rw [if_neg (by omega)]
  rw [this]
  simp [dateWithin]

/-- What a period covers are days of the calendar. -/
theorem covers_days {today first last : Day} {t : Text} {p : Period} (hp : PeriodText t p) (hc : Covers today first last p) : first.Exists ∧ last.Exists ∧ first.UpTo last := by
  have hML := monthLength_le
  have hmy : ∀ (y : Int) (m : Nat), 1 ≤ m → m ≤ 12 → Day.Exists ⟨y, m, 1⟩ ∧ Day.Exists ⟨y, m, monthLength y m⟩ ∧ Day.UpTo ⟨y, m, 1⟩ ⟨y, m, monthLength y m⟩ := by
    intro y m h1 h2
    have := hML y m
    refine ⟨⟨h1, h2, Nat.le_refl 1, by dsimp only; omega⟩, ⟨h1, h2, by dsimp only; omega, Nat.le_refl _⟩, .inr ⟨rfl, .inr ⟨rfl, by dsimp only; omega⟩⟩⟩
  have hday : first.Exists → last = first → first.Exists ∧ last.Exists ∧ first.UpTo last := by
    rintro h rfl; exact ⟨h, h, upTo_refl _⟩
  cases hp with
  | day h => exact hday hc.1.isDay hc.2
  | dayMonth ha hb => exact hday hc.1.isDay hc.2
  | monthDay ha hb => exact hday hc.1.isDay hc.2
  | dayMonthYear ha hb hc' => exact hday hc.2.2 hc.2.1
  | yearMonthDay ha hb hc' => exact hday hc.2.2 hc.2.1
  | digits6 ha hb hc' => exact hday hc.2.2 hc.2.1
  | digits8 ha hb hc' => exact hday hc.2.2 hc.2.1
  | year h =>
    obtain ⟨rfl, rfl⟩ := hc
    exact ⟨⟨by simp, by simp, by simp, by simp [monthLength]⟩, ⟨by simp, by simp, by simp, by simp [monthLength]⟩, .inr ⟨rfl, .inl (by simp)⟩⟩
  | monthYear ha hb =>
    obtain ⟨rfl, rfl⟩ := hc
    exact hmy _ _ (monthText_mem ha).2.1 (monthText_mem ha).2.2
  | yearMonth ha hb =>
    obtain ⟨rfl, rfl⟩ := hc
    exact hmy _ _ (monthText_mem hb).2.1 (monthText_mem hb).2.2
  | month h =>
    obtain ⟨hm, rfl⟩ := hc
    obtain ⟨y, m, d⟩ := first
    obtain ⟨rfl, rfl⟩ := hm.has
    exact hmy _ _ (monthText_mem h).2.1 (monthText_mem h).2.2

/-- **C20** for the messages: `d:period` finds the messages of the days from the first to the last one of the period – except those of the first day, which are found only while clocks show summer time. -/
theorem C20_days_partial {clk : Clock} {today first last day : Day} {h mi s z : Int} {t : Text} {p : Period} {m : DbMsg} (hz : Zone clk) (htoday : today.Exists) (hnow : clk.localtime clk.now = today.tm h mi s z)
    (hp : PeriodText t p) (hc : Covers today first last p) (hn : Reached today first p) (hd : day.Exists) (hm : (m.date : Int) = storedDate clk day) :
    ∃ limits, scanDateString clk t = .ok (some limits) ∧
      (dateWithin (orderLimits limits) m = true ↔ first.UpTo day ∧ day.UpTo last ∧ (day = first → morning clk first < storedDate clk first)) := by
  obtain ⟨hf, hl, hfl⟩ := covers_days hp hc
  refine ⟨_, C20_period_partial htoday hnow (.period hp hc hn) (.period hp hc hn), ?_⟩
  have hfl' : morning clk first ≤ evening clk last := by
    have h1 := hz.inDay hf
    have h2 := hz.inDay hl
    by_cases e : first = last
    · subst e; omega
    · have := hz.next hf hl hfl e; omega
  change dateWithin (orderLimits (some (morning clk first), some (evening clk last))) m = true ↔ _
  rw [within_iff hfl', hm]
  have hday := hz.inDay hd
  have hfd := hz.inDay hf
  have hld := hz.inDay hl
  constructor
  · rintro ⟨h1, h2⟩
    have hA : first.UpTo day := by
      rcases upTo_total first day with h | h
      · exact h
      · by_cases e : day = first
        · subst e; exact upTo_refl _
        · have := hz.next hd hf h e; omega
    have hB : day.UpTo last := by
      rcases upTo_total day last with h | h
      · exact h
      · by_cases e : last = day
        · subst e; exact upTo_refl _
        · have := hz.next hl hd h e; omega
    exact ⟨hA, hB, fun e => by subst e; exact h1⟩
  · rintro ⟨hA, hB, hE⟩
    constructor
    · by_cases e : day = first
      · subst e; exact hE rfl
      · have := hz.next hf hd hA (Ne.symm e); omega
    · by_cases e : day = last
      · subst e; omega
      · have := hz.next hd hl hB e; omega

/-- **C20** is false of the first day: wherever clocks show standard time at its beginning, `d:period` does not find the messages of the period's first day; so `d:20200203` finds nothing of that day at all. -/
theorem C20_first_day_violation {clk : Clock} {today first last : Day} {h mi s z : Int} {t : Text} {p : Period} {m : DbMsg} (hz : Zone clk) (htoday : today.Exists) (hnow : clk.localtime clk.now = today.tm h mi s z)
    (hp : PeriodText t p) (hc : Covers today first last p) (hn : Reached today first p) (hm : (m.date : Int) = storedDate clk first) (hstd : storedDate clk first = morning clk first) :
    ∃ limits, scanDateString clk t = .ok (some limits) ∧ dateWithin (orderLimits limits) m = false := by
  obtain ⟨hf, hl, hfl⟩ := covers_days hp hc
  obtain ⟨lim, h1, h2⟩ := C20_days_partial hz htoday hnow hp hc hn hf hm
  refine ⟨lim, h1, ?_⟩
  cases e : dateWithin (orderLimits lim) m with
  | false => rfl
  | true => have := (h2.mp e).2.2 rfl; omega

/-- **C20** is false of the first day of a range, even in summer: `d:start-end` with periods does not find the messages of the first day if `mktime` leaves the end's day and time alone, since the start is then at the end of its day. -/
theorem C20_range_first_day_violation {clk : Clock} {today firstA lastA firstB lastB : Day} {h mi s z z' : Int} {a b : Text} {p q : Period} {m : DbMsg} (htoday : today.Exists)
    (hnow : clk.localtime clk.now = today.tm h mi s z) (hq : PeriodText b q) (hcq : Covers today firstB lastB q) (hnq : Reached today firstB q)
    (hm : (clk.mktime (lastB.tm 23 59 59 (-1))).2 = lastB.tm 23 59 59 z') (hp : PeriodText a p) (hcp : Covers lastB firstA lastA p) (hnp : Reached lastB firstA p)
    (hin : storedDate clk firstA ≤ (clk.mktime (firstA.tm 23 59 59 z')).1) (hle : (clk.mktime (firstA.tm 23 59 59 z')).1 ≤ evening clk lastB) (hd : (m.date : Int) = storedDate clk firstA) :
    ∃ limits, scanDateString clk (a ++ 0x2d :: b) = .ok (some limits) ∧ dateWithin (orderLimits limits) m = false := by
  obtain ⟨_, hl, _⟩ := covers_days hq hcq
  refine ⟨_, C20_range_partial htoday hnow (.period hq hcq hnq) hm hl (.period hp hcp hnp), ?_⟩
  have := within_iff hle m
  change dateWithin (orderLimits (some (clk.mktime (firstA.tm 23 59 59 z')).1, some (evening clk lastB))) m = false
  cases e : dateWithin (orderLimits (some (clk.mktime (firstA.tm 23 59 59 z')).1, some (evening clk lastB))) m with
  | false => rfl
  | true => have := this.mp e; omega

/-- **C20** is false of relative dates as periods: `d:3d` is from three days ago, to the second, until the same second, and finds nothing. -/
theorem C20_ago_violation {clk : Clock} {today : Day} {h mi s z : Int} {t : Text} {n : Nat} (htoday : today.Exists) (hnow : clk.localtime clk.now = today.tm h mi s z) (ha : AgoText t n) (hn : n * 86400 < 2147483648) :
    ∃ limits, scanDateString clk t = .ok (some limits) ∧ ∀ m : DbMsg, dateWithin (orderLimits limits) m = false := by
  refine ⟨_, C20_period_partial htoday hnow (.ago ha hn) (.ago ha hn), fun m => ?_⟩
  generalize (clk.mktime (clk.localtime (clk.now - n * 86400))).1 = v
  cases e : dateWithin (orderLimits (some v, some v)) m with
  | false => rfl
  | true => have := (within_iff (Int.le_refl v) m).mp e; omega

/-- **C20** is false of a day that the month before does not have: on 1 March 2021 `d:31` is 31 February, that is 3 March, which is still to come, rather than 31 January. -/
theorem C20_day_violation : ∃ clk : Clock, Zone clk ∧ clk.localtime clk.now = (Day.mk 2021 3 1).tm 12 0 0 0 ∧ Covers ⟨2021, 3, 1⟩ ⟨2021, 1, 31⟩ ⟨2021, 1, 31⟩ (.day 31) ∧
    scanDateString clk (bs "31") = .ok (some (some (morning clk ⟨2021, 3, 3⟩), some (evening clk ⟨2021, 3, 3⟩))) ∧ clk.now < morning clk ⟨2021, 3, 3⟩ := by
  refine ⟨utc 1614600000, utc_zone _, by decide +kernel, ⟨⟨rfl, by decide, by decide, ?_⟩, rfl⟩, by decide +kernel, by decide +kernel⟩
  rintro ⟨y, m, d⟩ (hd : d = 31) ⟨h1, h2, _, h3⟩ hu
  subst hd
  dsimp only at h1 h2 h3
  simp only [Day.UpTo] at hu ⊢
  have : m ≠ 2 := by
    rintro rfl
    have : monthLength y 2 ≤ 29 := by unfold monthLength; simp only [if_true]; split <;> omega
    omega
  omega

/-- **C20** is false of 29 February: on 15 March 2021 `d:29feb` is 1 March 2021 rather than 29 February 2020. -/
theorem C20_leap_day_violation : ∃ clk : Clock, Zone clk ∧ clk.localtime clk.now = (Day.mk 2021 3 15).tm 12 0 0 0 ∧ Covers ⟨2021, 3, 15⟩ ⟨2020, 2, 29⟩ ⟨2020, 2, 29⟩ (.dayMonth 29 2) ∧
    scanDateString clk (bs "29feb") = .ok (some (some (morning clk ⟨2021, 3, 1⟩), some (evening clk ⟨2021, 3, 1⟩))) := by
  refine ⟨utc 1615809600, utc_zone _, by decide +kernel, ⟨⟨⟨rfl, rfl⟩, by decide, by decide, ?_⟩, rfl⟩, by decide +kernel⟩
  rintro ⟨y, m, d⟩ ⟨(hd : d = 29), (hm : m = 2)⟩ ⟨_, _, _, h3⟩ hu
  subst hd hm
  have hy : y ≠ 2021 := by rintro rfl; revert h3; decide
  have hy : y ≤ 2020 := by simp [Day.UpTo] at hu; omega
  rcases Int.lt_or_eq_of_le hy with h | h
  · exact .inl h
  · exact .inr ⟨h, .inr ⟨rfl, Nat.le_refl _⟩⟩

/-- **C20** is false of the centuries: `d:feb2100` goes until the end of 1 March 2100, since every fourth year is taken for a leap year. -/
theorem C20_century_violation : ∃ clk : Clock, Zone clk ∧ Covers ⟨2100, 6, 1⟩ ⟨2100, 2, 1⟩ ⟨2100, 2, 28⟩ (.monthYear 2 2100) ∧
    scanDateString clk (bs "feb2100") = .ok (some (some (morning clk ⟨2100, 2, 1⟩), some (evening clk ⟨2100, 3, 1⟩))) :=
  ⟨utc 4115534400, utc_zone _, ⟨rfl, by decide⟩, by decide +kernel⟩

/-- **C20** is false of long times: 69 years do not fit an `int` of seconds, which is undefined behaviour. -/
theorem C20_overflow_violation (clk : Clock) : scanDateString clk (bs "69y-") = .error .overflow := rfl

/-! ## Everything else -/

theorem first_split {c : UInt8} {t : Text} (h : c ∈ t) : ∃ a b, t = a ++ c :: b ∧ c ∉ a := by
  induction t with
  | nil => simp at h
  | cons x t ih =>
    by_cases e : c = x
    · exact ⟨[], t, by rw [e]; rfl, by simp⟩
    · obtain ⟨a, b, rfl, ha⟩ := ih (by simpa [e] using h)
      exact ⟨x :: a, b, rfl, by simp [e, ha]⟩

theorem rangeStart_cases (clk : Clock) (x : Tm) (a : Text) (hi : Option Int) : rangeStart clk x a hi = .ok none ∨ (∃ lo, rangeStart clk x a hi = .ok (some (lo, hi)) ∧ (a = [] ∨ DateForm a)) ∨
    (rangeStart clk x a hi = .error .overflow ∧ ∃ d c, a = d ++ [c] ∧ d ≠ [] ∧ (∀ x ∈ d, isDigit x = true) ∧ cLetter c = true) := by
  unfold rangeStart
  split
  · rename_i h; exact .inr (.inl ⟨none, rfl, .inl (by simpa using h)⟩)
  · rcases scan_cases clk.now a with h | ⟨s, h, hf⟩ | ⟨h, hd⟩
    · left; rw [h]; rfl
    · right; left; rw [h]; exact ⟨_, rfl, .inr hf⟩
    · right; right; rw [h]; exact ⟨rfl, hd⟩

/-- **C20**: nothing but the documented forms is accepted. If a date expression is read, it is a date, or dates (or nothing) on both sides of a hyphen. Any other makes the search end with an error (`findDate`). -/
theorem C20_refused {clk : Clock} {t : Text} {limits : Option Int × Option Int} (h : scanDateString clk t = .ok (some limits)) :
    ((0x2d : UInt8) ∉ t ∧ DateForm t) ∨ ∃ a b, t = a ++ 0x2d :: b ∧ (0x2d : UInt8) ∉ a ∧ (a = [] ∨ DateForm a) ∧ (b = [] ∨ DateForm b) := by
  by_cases hin : (0x2d : UInt8) ∈ t
  · right
    obtain ⟨a, b, rfl, ha⟩ := first_split hin
    refine ⟨a, b, rfl, ha, ?_⟩
    unfold scanDateString at h
    rw [strchr_at ha] at h
    dsimp only at h
    split at h
    · rename_i hb
      rcases rangeStart_cases clk (startTm clk) a none with h' | ⟨lo, h', hf⟩ | ⟨h', _⟩
      · rw [h'] at h; simp at h
      · exact ⟨hf, .inl (by simpa using hb)⟩
      · rw [h'] at h; simp at h
    · rcases scan_cases clk.now b with h' | ⟨s, h', hf⟩ | ⟨h', _⟩
      · rw [h'] at h; simp [bind, Except.bind] at h
      · rw [h'] at h
        simp only [bind, Except.bind] at h
        rcases rangeStart_cases clk (clk.mktime (s.end clk (endTm clk))).2 a (some (clk.mktime (s.end clk (endTm clk))).1) with h2 | ⟨lo, h2, hf2⟩ | ⟨h2, _⟩
        · rw [h2] at h; simp at h
        · exact ⟨hf2, .inr hf⟩
        · rw [h2] at h; simp at h
      · rw [h'] at h; simp [bind, Except.bind] at h
  · left
    refine ⟨hin, ?_⟩
    unfold scanDateString at h
    rw [strchr_absent hin] at h
    rcases scan_cases clk.now t with h' | ⟨s, h', hf⟩ | ⟨h', _⟩
    · rw [h'] at h; simp [bind, Except.bind] at h
    · exact hf
    · rw [h'] at h; simp [bind, Except.bind] at h

/-- **C20**: whatever text is given, no assertion fails and nothing is read beyond it; the only undefined behaviour is the overflow of a number in front of a letter. -/
theorem C20_safe {clk : Clock} {t : Text} {f : Fault} (h : scanDateString clk t = .error f) : f = .overflow ∧ ∃ d c, d ++ [c] <:+: t ∧ d ≠ [] ∧ (∀ x ∈ d, isDigit x = true) ∧ cLetter c = true := by
  by_cases hin : (0x2d : UInt8) ∈ t
  · obtain ⟨a, b, rfl, ha⟩ := first_split hin
    have inA : ∀ d c, a = d ++ [c] → d ++ [c] <:+: a ++ 0x2d :: b := by rintro d c rfl; exact ⟨[], 0x2d :: b, by simp⟩
    have inB : ∀ d c, b = d ++ [c] → d ++ [c] <:+: a ++ 0x2d :: b := by rintro d c rfl; exact ⟨a ++ [0x2d], [], by simp⟩
    unfold scanDateString at h
    rw [strchr_at ha] at h
    dsimp only at h
    split at h
    · rcases rangeStart_cases clk (startTm clk) a none with h' | ⟨lo, h', hf⟩ | ⟨h', d, c, e, hd⟩
      · rw [h'] at h; simp at h
      · rw [h'] at h; simp at h
      · rw [h'] at h; injection h with h; exact ⟨h.symm, d, c, inA d c e, hd⟩
    · rcases scan_cases clk.now b with h' | ⟨s, h', hf⟩ | ⟨h', d, c, e, hd⟩
      · rw [h'] at h; simp [bind, Except.bind] at h
      · rw [h'] at h
        simp only [bind, Except.bind] at h
        rcases rangeStart_cases clk (clk.mktime (s.end clk (endTm clk))).2 a (some (clk.mktime (s.end clk (endTm clk))).1) with h2 | ⟨lo, h2, hf2⟩ | ⟨h2, d, c, e, hd⟩
        · rw [h2] at h; simp at h
        · rw [h2] at h; simp at h
        · rw [h2] at h; injection h with h; exact ⟨h.symm, d, c, inA d c e, hd⟩
      · rw [h'] at h; simp only [bind, Except.bind] at h; injection h with h; exact ⟨h.symm, d, c, inB d c e, hd⟩
  · unfold scanDateString at h
    rw [strchr_absent hin] at h
    rcases scan_cases clk.now t with h' | ⟨s, h', hf⟩ | ⟨h', d, c, e, hd⟩
    · rw [h'] at h; simp [bind, Except.bind] at h
    · rw [h'] at h; simp [bind, Except.bind] at h
    · rw [h'] at h; simp only [bind, Except.bind] at h; injection h with h; exact ⟨h.symm, d, c, ⟨[], [], by simp [e]⟩, hd⟩

/-- The search itself: an expression that is not read makes mairix exit with code 2 (search.c:472-479), and one that is read selects the messages within the limits. -/
theorem C20_search {clk : Clock} {t : Text} (db : ReadDb) {r : Option (Option Int × Option Int)} (h : scanDateString clk t = .ok r) :
    findDate (fun t => (scanDateString clk t).toOption.join) db t = match r with | none => .error (.exit 2) | some p => .ok (db.msgs.map (dateWithin (orderLimits p))) := by
  simp only [findDate, h, Except.toOption]
  cases r <;> rfl

/-! ## Examples: the table in mairix.1:555-597, on 18 May 2003 -/

/-- 18 May 2003 at noon. -/
def exClock : Clock := utc 1053259200
/-- The day. -/
def exToday : Day := ⟨2003, 5, 18⟩

example : exToday.Exists ∧ exClock.localtime exClock.now = exToday.tm 12 0 0 0 := by decide +kernel

theorem ex_dayText : DayText (bs "21") 21 := ⟨⟨by decide, by decide, by decide⟩, by decide, by decide, by decide⟩
theorem ex_monthText : MonthText (bs "Oct") 10 := ⟨by decide, by decide⟩

theorem ex_covers : Covers exToday ⟨2002, 10, 21⟩ ⟨2002, 10, 21⟩ (.dayMonth 21 10) := by
  refine ⟨⟨⟨rfl, rfl⟩, by decide, by decide, ?_⟩, rfl⟩
  rintro ⟨y, m, d⟩ ⟨(hd : d = 21), (hm : m = 10)⟩ _ hu
  subst hd hm
  have hy : y ≤ 2002 := by simp [Day.UpTo, exToday] at hu; omega
  rcases Int.lt_or_eq_of_le hy with h | h
  · exact .inl h
  · exact .inr ⟨h, .inr ⟨rfl, Nat.le_refl _⟩⟩

/-- `d:21Oct` is 21 October 2002, and finds the messages of no other day. -/
example : ∃ limits, scanDateString exClock (bs "21Oct") = .ok (some limits) ∧ ∀ (m : DbMsg) (day : Day), day.Exists → day ≠ ⟨2002, 10, 21⟩ → (m.date : Int) = storedDate exClock day → dateWithin (orderLimits limits) m = false := by
  refine ⟨_, C20_period_partial (today := exToday) (h := 12) (mi := 0) (s := 0) (z := 0) (by decide +kernel) (by decide +kernel) (.period (.dayMonth ex_dayText ex_monthText) ex_covers (by simp [Reached])) (.period (.dayMonth ex_dayText ex_monthText) ex_covers (by simp [Reached])), ?_⟩
  intro m day hd hne hm
  obtain ⟨lim, h1, h2⟩ := C20_days_partial (utc_zone 1053259200) (today := exToday) (h := 12) (mi := 0) (s := 0) (z := 0) (by decide +kernel) (by decide +kernel) (.dayMonth ex_dayText ex_monthText) ex_covers (by simp [Reached]) hd hm
  have h0 := C20_period_partial (clk := exClock) (today := exToday) (h := 12) (mi := 0) (s := 0) (z := 0) (by decide +kernel) (by decide +kernel) (.period (.dayMonth ex_dayText ex_monthText) ex_covers (by simp [Reached])) (.period (.dayMonth ex_dayText ex_monthText) ex_covers (by simp [Reached]))
  have : exClock = utc 1053259200 := rfl
  rw [← this, h0] at h1
  injection h1 with h1; injection h1 with h1
  rw [h1]
  cases e : dateWithin (orderLimits lim) m with
  | false => rfl
  | true =>
    have := h2.mp e
    exact absurd (upTo_antisymm this.2.1 this.1) hne

/-- `d:21apr-mar` in the table: from 21 April 2002 to 31 March 2003 (but at the end of the first day). -/
example : scanDateString exClock (bs "21apr-mar") = .ok (some (some ((exClock.mktime ((Day.mk 2002 4 21).tm 23 59 59 0)).1), some (evening exClock ⟨2003, 3, 31⟩))) := by decide +kernel
example : scanDateString exClock (bs "2002") = .ok (some (some (morning exClock ⟨2002, 1, 1⟩), some (evening exClock ⟨2002, 12, 31⟩))) := by decide +kernel
example : scanDateString exClock (bs "oct") = .ok (some (some (morning exClock ⟨2002, 10, 1⟩), some (evening exClock ⟨2002, 10, 31⟩))) := by decide +kernel
example : scanDateString exClock (bs "-01oct") = .ok (some (none, some (evening exClock ⟨2001, 10, 31⟩))) := by decide +kernel
example : scanDateString exClock (bs "oct1-") = .ok (some (some (morning exClock ⟨2002, 10, 1⟩), none)) := by decide +kernel
example : scanDateString exClock (bs "6w-2w") = .ok (some (some (exClock.now - 42 * 86400), some (exClock.now - 14 * 86400))) := by decide +kernel
example : scanDateString exClock (bs "6x") = .ok none ∧ scanDateString exClock (bs "0mar") = .ok none ∧ scanDateString exClock (bs "2-3-4") = .ok none := by decide +kernel

/-- A message of 21 October 2002, and `d:21oct` on 18 May 2003 in Greenwich: the hypotheses of `C20_first_day_violation` are met. -/
example : ∃ limits, scanDateString exClock (bs "21Oct") = .ok (some limits) ∧ ∀ m : DbMsg, m.date = 1035158400 → dateWithin (orderLimits limits) m = false := by
  have key : ∀ m : DbMsg, m.date = 1035158400 → ∃ limits, scanDateString exClock (bs "21Oct") = .ok (some limits) ∧ dateWithin (orderLimits limits) m = false := by
    intro m hm
    exact C20_first_day_violation (utc_zone 1053259200) (today := exToday) (h := 12) (mi := 0) (s := 0) (z := 0) (by decide +kernel) (by decide +kernel) (.dayMonth ex_dayText ex_monthText) ex_covers (by simp [Reached])
      (by rw [hm]; decide +kernel) (by decide +kernel)
  refine ⟨_, rfl, fun m hm => ?_⟩
  obtain ⟨lim, h1, h2⟩ := key m hm
  injection h1 with h1; injection h1 with h1
  rw [h1]; exact h2

end Mairix
