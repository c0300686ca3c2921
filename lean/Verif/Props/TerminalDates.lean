import Verif.Props.Terminal

/-!
# C81: the day shown for a message
-/

namespace Mairix
open Spec

theorem gmText_day {gmtime : Int → GmDate} (hg : Greenwich gmtime) {d : Day} (hd : d.Exists) (hy : 0 ≤ d.year) {s : Int} (h0 : 0 ≤ s) (h1 : s < 86400) :
    ShowsDay d (gmText (gmtime ((dayNumber d - 719162) * 86400 + s))) := by
  rw [hg d hd s h0 h1]
  obtain ⟨n, hn⟩ := Int.eq_ofNat_of_zero_le hy
  have hw : ∃ w, weekdays[(dayNumber d % 7).toNat]? = some w ∧ [bs "Sun", bs "Mon", bs "Tue", bs "Wed", bs "Thu", bs "Fri", bs "Sat"].getD ((dayNumber d + 1) % 7).toNat (bs "?") = w := by
    have h : dayNumber d % 7 = 0 ∨ dayNumber d % 7 = 1 ∨ dayNumber d % 7 = 2 ∨ dayNumber d % 7 = 3 ∨ dayNumber d % 7 = 4 ∨ dayNumber d % 7 = 5 ∨ dayNumber d % 7 = 6 := by omega
    rw [Int.add_emod]
    rcases h with h | h | h | h | h | h | h <;> rw [h] <;> exact ⟨_, rfl, rfl⟩
  obtain ⟨w, hw1, hw2⟩ := hw
  have hmon : ∃ m, shortMonths[d.month - 1]? = some m ∧ [bs "Jan", bs "Feb", bs "Mar", bs "Apr", bs "May", bs "Jun", bs "Jul", bs "Aug", bs "Sep", bs "Oct", bs "Nov", bs "Dec"].getD (d.month - 1) (bs "?") = m := by
    have h2 := hd.1
    have h3 := hd.2.1
    have h : d.month - 1 < shortMonths.length := by show d.month - 1 < 12; omega
    refine ⟨_, List.getElem?_eq_getElem h, ?_⟩
    show shortMonths.getD _ _ = _
    rw [List.getD_eq_getElem?_getD, List.getElem?_eq_getElem h]
    rfl
  obtain ⟨m, hm1, hm2⟩ := hmon
  refine ⟨w, m, n, hw1, hm1, hn, ?_⟩
  unfold gmText
  dsimp only
  rw [hw2, hm2, show (1900 : Int) + (d.year - 1900) = (n : Int) by rw [← hn]; omega, intText_nat]
  simp only [twoDigits, List.append_assoc]

theorem showsDay_weekday {d d' : Day} {t : Text} (h : ShowsDay d t) (h' : ShowsDay d' t) : dayNumber d % 7 = dayNumber d' % 7 := by
  obtain ⟨w, _, _, h1, _, _, h2⟩ := h
  obtain ⟨w', _, _, h3, _, _, h4⟩ := h'
  have hlen : ∀ x ∈ weekdays, x.length = 3 := by decide
  have e : w = w' := by
    have e1 := congrArg (List.take 3) h2
    have e2 := congrArg (List.take 3) h4
    rw [List.take_left' (hlen _ (List.mem_of_getElem? h1))] at e1
    rw [List.take_left' (hlen _ (List.mem_of_getElem? h3))] at e2
    rw [← e1, ← e2]
  subst e
  have hnd : weekdays.Nodup := by decide
  obtain ⟨l1, g1⟩ := List.getElem?_eq_some_iff.1 h1
  obtain ⟨l2, g2⟩ := List.getElem?_eq_some_iff.1 h3
  have := (List.getElem_inj hnd (h₀ := l1) (h₁ := l2)).1 (g1.trans g2.symm)
  omega

/-- The day before. -/
theorem day_before {d : Day} (hd : d.Exists) : ∃ d', d'.Exists ∧ dayNumber d' + 1 = dayNumber d ∧ d.year ≤ d'.year + 1 := by
  obtain ⟨y, m, k⟩ := d
  obtain ⟨h1, h2, h3, h4⟩ := hd
  simp only at h1 h2 h3 h4
  by_cases hk : 1 < k
  · refine ⟨⟨y, m, k - 1⟩, ⟨h1, h2, ?_, ?_⟩, ?_, ?_⟩ <;> simp only [dayNumber] <;> omega
  by_cases hm : 1 < m
  · refine ⟨⟨y, m - 1, monthLength y (m - 1)⟩, ⟨by simp only; omega, by simp only; omega, ?_, Nat.le_refl _⟩, ?_, by simp only; omega⟩
    · have : m = 2 ∨ m = 3 ∨ m = 4 ∨ m = 5 ∨ m = 6 ∨ m = 7 ∨ m = 8 ∨ m = 9 ∨ m = 10 ∨ m = 11 ∨ m = 12 := by omega
      rcases this with rfl | rfl | rfl | rfl | rfl | rfl | rfl | rfl | rfl | rfl | rfl <;> simp [monthLength] <;> (try split) <;> omega
    · have hk : k = 1 := by omega
      subst hk
      have : m = 2 ∨ m = 3 ∨ m = 4 ∨ m = 5 ∨ m = 6 ∨ m = 7 ∨ m = 8 ∨ m = 9 ∨ m = 10 ∨ m = 11 ∨ m = 12 := by omega
      rcases this with rfl | rfl | rfl | rfl | rfl | rfl | rfl | rfl | rfl | rfl | rfl <;> simp [monthLength, dayNumber] <;> by_cases hl : Leap y <;> simp [hl] <;> omega
  · have hk : k = 1 := by omega
    have hm : m = 1 := by omega
    subst hk hm
    refine ⟨⟨y - 1, 12, 31⟩, by simp [Day.Exists, monthLength], ?_, by simp⟩
    have := year_next (y - 1)
    rw [show y - 1 + 1 = y by omega] at this
    simp only [dayNumber]
    unfold yearStart at this
    by_cases hl : Leap (y - 1) <;> simp [hl] at this ⊢ <;> omega

/-- **C81, days (partial).** Where standard time is that of Greenwich or behind it, the day shown is that of the message. (Missing: zones ahead of it, see `C81_date_violation`.) -/
theorem C81_date_partial {gmtime : Int → GmDate} (hg : Greenwich gmtime) {clk : Clock} {d : Day} (hd : d.Exists) (hy : 0 ≤ d.year) {o : Int} (ho : AheadBy clk d o) (h0 : o ≤ 0) (h1 : -86400 < o) :
    ShowsDay d (gmText (gmtime (storedDate clk d))) := by
  rw [ho, show (dayNumber d - 719162) * 86400 - o = (dayNumber d - 719162) * 86400 + -o by omega]
  exact gmText_day hg hd hy (by omega) (by omega)

/-- **C81 does not hold in full**: wherever standard time is ahead of that of Greenwich, the day shown is never that of the message but the day before. -/
theorem C81_date_violation {gmtime : Int → GmDate} (hg : Greenwich gmtime) {clk : Clock} {d : Day} (hd : d.Exists) (hy : 1 ≤ d.year) {o : Int} (ho : AheadBy clk d o) (h0 : 0 < o) (h1 : o ≤ 86400) :
    ¬ ShowsDay d (gmText (gmtime (storedDate clk d))) ∧ ∃ d', d'.Exists ∧ dayNumber d' + 1 = dayNumber d ∧ ShowsDay d' (gmText (gmtime (storedDate clk d))) := by
  obtain ⟨d', e1, e2, e3⟩ := day_before hd
  have h : ShowsDay d' (gmText (gmtime (storedDate clk d))) := by
    rw [ho, show (dayNumber d - 719162) * 86400 - o = (dayNumber d' - 719162) * 86400 + (86400 - o) by omega]
    exact gmText_day hg e1 (by omega) (by omega) (by omega)
  exact ⟨fun h' => by have := showsDay_weekday h h'; omega, d', e1, e2, h⟩

/-! ## Examples -/

theorem dayNumber_inj {a b : Day} (ha : a.Exists) (hb : b.Exists) (h : dayNumber a = dayNumber b) : a = b := by
  by_cases hab : a.UpTo b
  · exact Decidable.byContradiction fun hne => by have := dayNumber_lt ha hb hab hne; omega
  · refine Decidable.byContradiction fun hne => ?_
    have hba : b.UpTo a := by simp only [Day.UpTo] at hab ⊢; omega
    have := dayNumber_lt hb ha hba (Ne.symm hne)
    omega

open Classical in
/-- A `gmtime` that knows the calendar. -/
noncomputable def someGmtime (t : Int) : GmDate :=
  if h : ∃ d : Day, d.Exists ∧ dayNumber d = t / 86400 + 719162 then ⟨((dayNumber h.choose + 1) % 7).toNat, h.choose.day, h.choose.month - 1, h.choose.year - 1900⟩ else ⟨0, 0, 0, 0⟩

/-- There is one. -/
theorem greenwich_some : Greenwich someGmtime := by
  intro d hd s h0 h1
  have h : ∃ d' : Day, d'.Exists ∧ dayNumber d' = ((dayNumber d - 719162) * 86400 + s) / 86400 + 719162 := ⟨d, hd, by omega⟩
  have e : h.choose = d := dayNumber_inj h.choose_spec.1 hd (by rw [h.choose_spec.2]; omega)
  unfold someGmtime
  rw [dif_pos h, e]

/-- A clock ahead of that of Greenwich. -/
def aheadClock (o : Int) : Clock := { utc 0 with mktime := fun x => (((utc 0).mktime x).1 - o, x) }

theorem aheadClock_by {d : Day} (hd : d.Exists) (o : Int) : AheadBy (aheadClock o) d o := by
  have := utc_day hd 0 0 0 0 0
  simp only [AheadBy, storedDate, aheadClock, this]
  omega

/-- The hypotheses are met: in Greenwich and in New York 3 February 2020 is shown, a Monday; in Berlin it is 2 February, a Sunday. -/
example : ShowsDay ⟨2020, 2, 3⟩ (gmText (someGmtime (storedDate (aheadClock 0) ⟨2020, 2, 3⟩))) ∧ ShowsDay ⟨2020, 2, 3⟩ (gmText (someGmtime (storedDate (aheadClock (-18000)) ⟨2020, 2, 3⟩))) ∧
    ¬ ShowsDay ⟨2020, 2, 3⟩ (gmText (someGmtime (storedDate (aheadClock 3600) ⟨2020, 2, 3⟩))) ∧
    ShowsDay ⟨2020, 2, 3⟩ (bs "Mon, 03 Feb 2020") ∧ ShowsDay ⟨2020, 2, 2⟩ (bs "Sun, 02 Feb 2020") ∧ gmText ⟨0, 2, 1, 120⟩ = bs "Sun, 02 Feb 2020" :=
  ⟨C81_date_partial greenwich_some (by decide) (by decide) (aheadClock_by (by decide) 0) (by decide) (by decide),
    C81_date_partial greenwich_some (by decide) (by decide) (aheadClock_by (by decide) (-18000)) (by decide) (by decide),
    (C81_date_violation greenwich_some (by decide) (by decide) (aheadClock_by (by decide) 3600) (by decide) (by decide)).1,
    ⟨bs "Mon", bs "Feb", 2020, by decide +kernel, by decide +kernel, by decide +kernel, by decide +kernel⟩,
    ⟨bs "Sun", bs "Feb", 2020, by decide +kernel, by decide +kernel, by decide +kernel, by decide +kernel⟩, by decide +kernel⟩

end Mairix
