import Verif.Proofs.DateScan

/-!
# Days in Greenwich come one after the other
-/

namespace Mairix

open Spec

/-- Days before the month in its year. -/
def dayOffset (y : Int) (m : Nat) : Int := ([0, 31, 59, 90, 120, 151, 181, 212, 243, 273, 304, 334].getD (m - 1) 0 : Nat) + (if 2 < m ∧ Leap y then 1 else 0)

theorem offset_next {y : Int} {m m' : Nat} (h1 : 1 ≤ m) (h : m < m') (h12 : m' ≤ 12) : dayOffset y m + monthLength y m ≤ dayOffset y m' := by
  have step : ∀ n, 1 ≤ n → n < 12 → dayOffset y n + monthLength y n = dayOffset y (n + 1) := by
    intro n hn hn'
    unfold dayOffset monthLength
    by_cases hl : Leap y
    · match n, hn, hn' with
      | 1, _, _ | 2, _, _ | 3, _, _ | 4, _, _ | 5, _, _ | 6, _, _ | 7, _, _ | 8, _, _ | 9, _, _ | 10, _, _ | 11, _, _ => simp [hl]
    · match n, hn, hn' with
      | 1, _, _ | 2, _, _ | 3, _, _ | 4, _, _ | 5, _, _ | 6, _, _ | 7, _, _ | 8, _, _ | 9, _, _ | 10, _, _ | 11, _, _ => simp [hl]
  obtain ⟨k, rfl⟩ : ∃ k, m' = m + 1 + k := ⟨m' - (m + 1), by omega⟩
  clear h
  induction k with
  | zero => exact Int.le_of_eq (step m h1 (by omega))
  | succ k ih =>
    have := ih (by omega)
    have h2 := step (m + 1 + k) (by omega) (by omega)
    have := (monthLength_le y (m + 1 + k)).1
    have e : m + 1 + (k + 1) = m + 1 + k + 1 := by omega
    rw [e]; omega

theorem offset_year {y : Int} {m : Nat} (h1 : 1 ≤ m) (h12 : m ≤ 12) : 0 ≤ dayOffset y m ∧ dayOffset y m + monthLength y m ≤ 365 + (if Leap y then 1 else 0) := by
  unfold dayOffset monthLength
  by_cases hl : Leap y
  · match m, h1, h12 with
    | 1, _, _ | 2, _, _ | 3, _, _ | 4, _, _ | 5, _, _ | 6, _, _ | 7, _, _ | 8, _, _ | 9, _, _ | 10, _, _ | 11, _, _ | 12, _, _ => simp [hl]
  · match m, h1, h12 with
    | 1, _, _ | 2, _, _ | 3, _, _ | 4, _, _ | 5, _, _ | 6, _, _ | 7, _, _ | 8, _, _ | 9, _, _ | 10, _, _ | 11, _, _ | 12, _, _ => simp [hl]

/-- Days before the year. -/
def yearStart (y : Int) : Int := (y - 1) * 365 + (y - 1) / 4 - (y - 1) / 100 + (y - 1) / 400

theorem year_next (y : Int) : yearStart (y + 1) = yearStart y + 365 + (if Leap y then 1 else 0) := by
  unfold yearStart
  split <;> rename_i h <;> simp only [Leap] at h <;> omega

theorem year_mono {y z : Int} (h : y ≤ z) : yearStart y ≤ yearStart z := by
  unfold yearStart; omega

theorem dayNumber_eq (d : Day) : dayNumber d = yearStart d.year + dayOffset d.year d.month + d.day - 1 := by
  unfold dayNumber yearStart dayOffset; omega

theorem dayNumber_lt {a b : Day} (ha : a.Exists) (hb : b.Exists) (h : a.UpTo b) (hne : a ≠ b) : dayNumber a < dayNumber b := by
  rw [dayNumber_eq, dayNumber_eq]
  obtain ⟨y, m, d⟩ := a
  obtain ⟨y', m', d'⟩ := b
  simp only [Day.Exists] at ha hb
  simp only [Day.UpTo] at h
  dsimp only
  rcases h with h | ⟨rfl, h | ⟨rfl, h⟩⟩
  · have h1 := offset_year (y := y) ha.1 ha.2.1
    have h2 := offset_year (y := y') hb.1 hb.2.1
    have h3 := year_next y
    have h4 := year_mono (y := y + 1) (z := y') (by omega)
    omega
  · have := offset_next (y := y) ha.1 h hb.2.1
    omega
  · have : d ≠ d' := by intro e; subst e; exact hne rfl
    omega

theorem utc_day {d : Day} (h : d.Exists) (now hour min sec z : Int) : ((utc now).mktime (d.tm hour min sec z)).1 = (dayNumber d - 719162) * 86400 + hour * 3600 + min * 60 + sec := by
  obtain ⟨y, m, dd⟩ := d
  simp only [Day.Exists] at h
  simp only [utc, Day.tm, utcMonth]
  have e1 : ((m : Int) - 1) / 12 = 0 := by omega
  have e2 : (((m : Int) - 1) % 12).toNat + 1 = m := by omega
  rw [e1, e2, dayNumber_eq, dayNumber_eq]
  have : y - 1900 + 1900 + 0 = y := by omega
  rw [this]
  dsimp only
  omega

/-- There is a clock for which what is assumed about time zones holds. -/
theorem utc_zone (now : Int) : Zone (utc now) where
  next ha hb h hne := by
    have := dayNumber_lt ha hb h hne
    simp only [morning, evening, utc_day ha, utc_day hb]
    omega
  inDay ha := by
    simp only [morning, evening, storedDate, utc_day ha]
    omega

end Mairix
