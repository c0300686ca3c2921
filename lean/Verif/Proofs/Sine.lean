/-
Sines of whole numbers of radians, computed with integers.

`D` is a factorial, by which everything is scaled: `D * sin 1` and `D * cos 1` are within 1 of sums of whole numbers, and
those of the following angles are found by the addition theorems. The error at most a little more than doubles
each time.
-/
import Mathlib.Analysis.Complex.Trigonometric
import Mathlib.Data.Nat.Cast.Field

namespace Mairix

/-- The first `n` terms of the series of `cos 1` and `sin 1`, times `D`. -/
def trigSums (D : Nat) : Nat → Int × Int
  | 0 => (0, 0)
  | n + 1 =>
    let (c, s) := trigSums D n
    let t : Int := (D / n.factorial : Nat)
    if n % 4 = 0 then (c + t, s) else if n % 4 = 1 then (c, s + t) else if n % 4 = 2 then (c - t, s) else (c, s - t)

theorem trigSums_eq {N : Nat} : ∀ {n : Nat}, n ≤ N + 1 →
    (N.factorial : ℂ) * ∑ m ∈ Finset.range n, Complex.I ^ m / m.factorial = ((trigSums N.factorial n).1 : ℂ) + ((trigSums N.factorial n).2 : ℂ) * Complex.I
  | 0, _ => by simp [trigSums]
  | n + 1, h => by
    have hn : n ≤ N := by omega
    rw [Finset.sum_range_succ, mul_add, trigSums_eq (by omega)]
    have hd : (n.factorial) ∣ N.factorial := Nat.factorial_dvd_factorial hn
    have h0 : (n.factorial : ℂ) ≠ 0 := by exact_mod_cast Nat.factorial_ne_zero n
    have ht : (((N.factorial / n.factorial : Nat) : Int) : ℂ) = (N.factorial : ℂ) / n.factorial := by
      rw [Int.cast_natCast, Nat.cast_div hd h0]
    have he : (N.factorial : ℂ) * (Complex.I ^ n / n.factorial) = (((N.factorial / n.factorial : Nat) : Int) : ℂ) * Complex.I ^ (n % 4) := by
      rw [ht, ← Complex.I_pow_eq_pow_mod]; ring
    rw [he]
    have h4 : n % 4 = 0 ∨ n % 4 = 1 ∨ n % 4 = 2 ∨ n % 4 = 3 := by omega
    rcases h4 with h4 | h4 | h4 | h4 <;> simp only [trigSums, h4, if_true, if_false, Int.cast_add, Int.cast_sub] <;> norm_num [Complex.I_sq, pow_succ, ← mul_assoc] <;> ring

/-- The scale. -/
def trigScale : Nat := Nat.factorial 45

theorem trig_one :
    |(trigScale : ℝ) * Real.cos 1 - ((trigSums trigScale 46).1 : ℝ)| ≤ 1 ∧ |(trigScale : ℝ) * Real.sin 1 - ((trigSums trigScale 46).2 : ℝ)| ≤ 1 := by
  have h := Complex.exp_bound (x := Complex.I) (by simp) (n := 46) (by decide)
  have h1 : ‖(trigScale : ℂ) * Complex.exp Complex.I - (((trigSums trigScale 46).1 : ℂ) + ((trigSums trigScale 46).2 : ℂ) * Complex.I)‖ ≤ 1 := by
    unfold trigScale
    rw [← trigSums_eq (by omega), ← mul_sub, Complex.norm_mul]
    have hp : (0 : ℝ) < (Nat.factorial 45 : ℝ) := by exact_mod_cast Nat.factorial_pos 45
    calc _ ≤ ‖((Nat.factorial 45 : ℕ) : ℂ)‖ * (‖Complex.I‖ ^ 46 * ((Nat.succ 46 : ℝ) * (Nat.factorial 46 * (46 : ℕ) : ℝ)⁻¹)) := by gcongr
      _ ≤ 1 := by
        have h46 : (Nat.factorial 46 : ℝ) = 46 * (Nat.factorial 45 : ℝ) := by
          exact_mod_cast Nat.factorial_succ 45
        rw [Complex.norm_natCast, Complex.norm_I, h46]
        generalize (Nat.factorial 45 : ℝ) = x at hp
        have : x * (1 ^ 46 * ((Nat.succ 46 : ℝ) * (46 * x * (46 : ℕ))⁻¹)) = 47 / (46 * 46) := by push_cast; field_simp
        rw [this]; norm_num
  have hx : Complex.exp Complex.I = Real.cos 1 + Real.sin 1 * Complex.I := by
    have := Complex.exp_ofReal_mul_I 1
    simpa using this
  rw [hx] at h1
  have hz : (trigScale : ℂ) * ((Real.cos 1 : ℂ) + Real.sin 1 * Complex.I) - (((trigSums trigScale 46).1 : ℂ) + ((trigSums trigScale 46).2 : ℂ) * Complex.I) =
      (((trigScale : ℝ) * Real.cos 1 - ((trigSums trigScale 46).1 : ℝ) : ℝ) : ℂ) + (((trigScale : ℝ) * Real.sin 1 - ((trigSums trigScale 46).2 : ℝ) : ℝ) : ℂ) * Complex.I := by
    push_cast; ring
  rw [hz] at h1
  generalize (trigScale : ℝ) * Real.cos 1 - ((trigSums trigScale 46).1 : ℝ) = a at h1 ⊢
  generalize (trigScale : ℝ) * Real.sin 1 - ((trigSums trigScale 46).2 : ℝ) = b at h1 ⊢
  constructor
  · have := (Complex.abs_re_le_norm _).trans h1
    simpa using this
  · have := (Complex.abs_im_le_norm _).trans h1
    simpa using this

/-- Whole numbers near the cosine and sine of `k + 1`, times the scale, and a bound for their error. -/
def trigAt : Nat → Int × Int × Nat
  | 0 => ((trigSums trigScale 46).1, (trigSums trigScale 46).2, 1)
  | k + 1 =>
    let (c1, s1) := trigSums trigScale 46
    let (c, s, e) := trigAt k
    ((c * c1 - s * s1) / trigScale, (s * c1 + c * s1) / trigScale, 2 * (e + 1) + 1)

theorem div_near (a : Int) {d : Nat} (hd : 0 < d) : |(a : ℝ) / d - ((a / d : Int) : ℝ)| ≤ 1 := by
  have hp : (0 : ℝ) < d := by exact_mod_cast hd
  have h1 : (a / d : Int) * (d : Int) ≤ a := Int.ediv_mul_le a (by omega)
  have h2 : a < ((a / d : Int) + 1) * (d : Int) := Int.lt_ediv_add_one_mul_self a (by omega)
  have h1' : (((a / d : Int) : ℝ)) * d ≤ a := by exact_mod_cast h1
  have h2' : (a : ℝ) < (((a / d : Int) : ℝ) + 1) * d := by exact_mod_cast h2
  have g1 := (le_div_iff₀ hp).mpr h1'
  have g2 := (div_lt_iff₀ hp).mpr h2'
  rw [abs_le]; constructor <;> linarith

theorem near_mul {M x y p q e : ℝ} (hM : 0 < M) (hx : |x| ≤ 1) (hq : |q| ≤ M) (h1 : |M * x - p| ≤ e) (h2 : |M * y - q| ≤ 1) : |M * (x * y) - p * q / M| ≤ e + 1 := by
  have hE : M * (x * y) - p * q / M = x * (M * y - q) + (M * x - p) * (q / M) := by field_simp; ring
  rw [hE]
  have hqM : |q / M| ≤ 1 := by rw [abs_div, abs_of_pos hM]; exact (div_le_one hM).mpr hq
  have he : 0 ≤ e := (abs_nonneg _).trans h1
  calc _ ≤ |x * (M * y - q)| + |(M * x - p) * (q / M)| := abs_add_le _ _
    _ = |x| * |M * y - q| + |M * x - p| * |q / M| := by rw [abs_mul, abs_mul]
    _ ≤ 1 * 1 + e * 1 := by gcongr
    _ = e + 1 := by ring

theorem trigAt_near : ∀ k : Nat,
    |(trigScale : ℝ) * Real.cos (k + 1) - ((trigAt k).1 : ℝ)| ≤ ((trigAt k).2.2 : ℝ) ∧ |(trigScale : ℝ) * Real.sin (k + 1) - ((trigAt k).2.1 : ℝ)| ≤ ((trigAt k).2.2 : ℝ)
  | 0 => by simpa [trigAt] using trig_one
  | k + 1 => by
    obtain ⟨hc, hs⟩ := trigAt_near k
    obtain ⟨hc1, hs1⟩ := trig_one
    have hMn : 0 < trigScale := Nat.factorial_pos 45
    have hM : (0 : ℝ) < (trigScale : ℝ) := by exact_mod_cast hMn
    have b1 : |((trigSums trigScale 46).1 : ℝ)| ≤ trigScale := by
      have : |(trigSums trigScale 46).1| ≤ (trigScale : Int) := by decide +kernel
      exact_mod_cast this
    have b2 : |((trigSums trigScale 46).2 : ℝ)| ≤ trigScale := by
      have : |(trigSums trigScale 46).2| ≤ (trigScale : Int) := by decide +kernel
      exact_mod_cast this
    have e1 : ((k + 1 : Nat) : ℝ) + 1 = (k + 1 : ℝ) + 1 := by push_cast; ring
    rw [e1, Real.cos_add (k + 1) 1, Real.sin_add (k + 1) 1]
    simp only [trigAt]
    generalize trigSums trigScale 46 = w at *
    obtain ⟨c1, s1⟩ := w
    generalize trigAt k = v at *
    obtain ⟨c, s, e⟩ := v
    have x1 := Real.abs_cos_le_one (k + 1 : ℝ)
    have x2 := Real.abs_sin_le_one (k + 1 : ℝ)
    generalize Real.cos (k + 1 : ℝ) = ck at *
    generalize Real.sin (k + 1 : ℝ) = sk at *
    generalize Real.cos 1 = co at *
    generalize Real.sin 1 = so at *
    simp only at hc hs hc1 hs1 b1 b2 ⊢
    have m1 := near_mul hM x1 b1 hc hc1
    have m2 := near_mul hM x2 b2 hs hs1
    have m3 := near_mul hM x2 b1 hs hc1
    have m4 := near_mul hM x1 b2 hc hs1
    have d1 := div_near (c * c1 - s * s1) hMn
    have d2 := div_near (s * c1 + c * s1) hMn
    push_cast at d1 d2 ⊢
    rw [sub_div] at d1
    rw [add_div] at d2
    simp only [abs_le] at *
    constructor <;> constructor <;> linarith

/-- The check that settles the leading 32 bits of the sine of `k + 1`. -/
def sineCheck (k t : Nat) : Bool :=
  let (_, s, e) := trigAt k
  decide (t * trigScale + 2 ^ 32 * e ≤ 2 ^ 32 * s.natAbs ∧ 2 ^ 32 * s.natAbs + 2 ^ 32 * e < (t + 1) * trigScale)

theorem sineCheck_floor {k t : Nat} (h : sineCheck k t = true) : ⌊4294967296 * |Real.sin (k + 1)|⌋₊ = t := by
  have hs := (trigAt_near k).2
  unfold sineCheck at h
  have hMn : 0 < trigScale := Nat.factorial_pos 45
  have hM : (0 : ℝ) < (trigScale : ℝ) := by exact_mod_cast hMn
  generalize trigAt k = v at *
  obtain ⟨c, s, e⟩ := v
  simp only [decide_eq_true_eq] at h hs
  obtain ⟨h1, h2⟩ := h
  have h1' : (t : ℝ) * trigScale + 2 ^ 32 * e ≤ 2 ^ 32 * |(s : ℝ)| := by
    rw [← Int.cast_abs, ← Int.natCast_natAbs]; exact_mod_cast h1
  have h2' : (2 : ℝ) ^ 32 * |(s : ℝ)| + 2 ^ 32 * e < (t + 1) * trigScale := by
    rw [← Int.cast_abs, ← Int.natCast_natAbs]; exact_mod_cast h2
  have hA : abs ((trigScale : ℝ) * |Real.sin (k + 1)| - |(s : ℝ)|) ≤ e := by
    have : (trigScale : ℝ) * |Real.sin (k + 1)| = |(trigScale : ℝ) * Real.sin (k + 1)| := by rw [abs_mul, abs_of_pos hM]
    rw [this]
    exact (abs_abs_sub_abs_le_abs_sub _ _).trans hs
  rw [abs_le] at hA
  rw [Nat.floor_eq_iff (by positivity)]
  generalize |Real.sin (k + 1)| = z at *
  generalize |(s : ℝ)| = y at *
  constructor
  · by_contra hc
    push Not at hc
    nlinarith [mul_lt_mul_of_pos_right hc hM]
  · by_contra hc
    push Not at hc
    nlinarith [mul_le_mul_of_nonneg_right hc hM.le]

end Mairix
