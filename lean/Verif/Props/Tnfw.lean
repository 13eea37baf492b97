import Verif.Model.Tnfw
import Mathlib.Tactic.FieldSimp
import Mathlib.Tactic.LinearCombination
import Mathlib.Tactic.Linarith
import Mathlib.Tactic.Positivity
import Mathlib.Tactic.NormNum
import Mathlib.Analysis.SpecialFunctions.Log.Deriv
import Mathlib.Topology.Order.IntermediateValue
import Mathlib.MeasureTheory.Integral.IntervalIntegral.FundThmCalculus

/-!
# C27, C28: cubic solver and inversion of the profile slope
-/

namespace PyHalo.Props
open PyHalo PyHalo.Tnfw
open scoped Classical

/-! ## Cube roots -/

theorem rpow_third_cube {x : ℝ} (h : 0 ≤ x) : (x ^ ((1 : ℝ) / 3)) ^ 3 = x := by
  rw [← Real.rpow_natCast, ← Real.rpow_mul h]
  norm_num

theorem cbrt_cube (x : ℝ) : cbrt x ^ 3 = x := by
  unfold cbrt
  split_ifs with h
  · exact rpow_third_cube h
  · have := rpow_third_cube (x := -x) (by linarith)
    have e : (-(-x) ^ ((1 : ℝ) / 3)) ^ 3 = -(((-x) ^ ((1 : ℝ) / 3)) ^ 3) := by ring
    rw [e, this]; ring

theorem cube_inj {x y : ℝ} (h : x ^ 3 = y ^ 3) : x = y := by
  have : Odd 3 := by decide
  exact this.strictMono_pow.injective h

/-! ## The depressed cubic -/

/-- One real root: Cardano. -/
theorem cardano {p q t : ℝ} (hd : 0 < (q / 2) ^ 2 + (p / 3) ^ 3) :
    t ^ 3 + p * t + q = 0 ↔
      t = cbrt (-q / 2 + Real.sqrt ((q / 2) ^ 2 + (p / 3) ^ 3))
        + cbrt (-q / 2 - Real.sqrt ((q / 2) ^ 2 + (p / 3) ^ 3)) := by
  set s := Real.sqrt ((q / 2) ^ 2 + (p / 3) ^ 3) with hs
  have hs0 : 0 < s := Real.sqrt_pos.2 hd
  have hs2 : s ^ 2 = (q / 2) ^ 2 + (p / 3) ^ 3 := Real.sq_sqrt hd.le
  have hu := cbrt_cube (-q / 2 + s)
  have hv := cbrt_cube (-q / 2 - s)
  set u := cbrt (-q / 2 + s)
  set v := cbrt (-q / 2 - s)
  have huv : u * v = -p / 3 := by
    apply cube_inj
    have : (u * v) ^ 3 = u ^ 3 * v ^ 3 := by ring
    rw [this, hu, hv]
    nlinarith
  have hfac : t ^ 3 + p * t + q
      = (t - (u + v)) * (((t + u) ^ 2 + (t + v) ^ 2 + (u - v) ^ 2) / 2) := by
    have hp : p = -3 * (u * v) := by rw [huv]; ring
    have hq : q = -(u ^ 3 + v ^ 3) := by rw [hu, hv]; ring
    rw [hp, hq]; ring
  rw [hfac]
  constructor
  · intro h
    rcases mul_eq_zero.1 h with h | h
    · linarith
    · exfalso
      have h1 : (u - v) ^ 2 = 0 := by nlinarith [sq_nonneg (t + u), sq_nonneg (t + v)]
      have h2 : u = v := by
        have := pow_eq_zero_iff (two_ne_zero) |>.1 h1
        linarith
      rw [h2, hv] at hu
      linarith
  · intro h
    rw [h]; ring

/-- Three real roots: the trigonometric form. -/
theorem viete {p q t : ℝ} (hp : p < 0) (hd : (q / 2) ^ 2 + (p / 3) ^ 3 ≤ 0) :
    let r := Real.sqrt (-(p / 3))
    let phi := Real.arccos (max (-1) (min 1 ((-q / 2) / r ^ 3)))
    t ^ 3 + p * t + q = 0 ↔
      t = 2 * r * Real.cos (phi / 3) ∨ t = 2 * r * Real.cos ((phi + 2 * Real.pi) / 3) ∨
      t = 2 * r * Real.cos ((phi + 4 * Real.pi) / 3) := by
  intro r phi
  have hr0 : 0 < r := Real.sqrt_pos.2 (by linarith)
  have hr2 : r ^ 2 = -(p / 3) := Real.sq_sqrt (by linarith)
  have hr6 : (q / 2) ^ 2 ≤ (r ^ 3) ^ 2 := by
    have : (r ^ 3) ^ 2 = (r ^ 2) ^ 3 := by ring
    rw [this, hr2]; nlinarith
  have hr3 : 0 < r ^ 3 := by positivity
  have habs : |q / 2| ≤ r ^ 3 := by
    rw [← abs_of_pos hr3]; exact sq_le_sq.1 hr6
  have hb := abs_le.1 habs
  have h1 : -1 ≤ (-q / 2) / r ^ 3 := by
    rw [le_div_iff₀ hr3]; linarith
  have h2 : (-q / 2) / r ^ 3 ≤ 1 := by
    rw [div_le_iff₀ hr3]; linarith
  have hcos : Real.cos phi = (-q / 2) / r ^ 3 := by
    show Real.cos (Real.arccos _) = _
    rw [min_eq_right h2, max_eq_right h1, Real.cos_arccos h1 h2]
  have hq : q = -2 * r ^ 3 * Real.cos phi := by
    rw [hcos]; field_simp
  have e1 : (phi + 2 * Real.pi) / 3 = phi / 3 + 2 * Real.pi / 3 := by ring
  have e2 : (phi + 4 * Real.pi) / 3 = phi / 3 + 4 * Real.pi / 3 := by ring
  have c1 : Real.cos (2 * Real.pi / 3) = -1 / 2 := by
    have : 2 * Real.pi / 3 = Real.pi - Real.pi / 3 := by ring
    rw [this, Real.cos_pi_sub, Real.cos_pi_div_three]; norm_num
  have s1 : Real.sin (2 * Real.pi / 3) = Real.sqrt 3 / 2 := by
    have : 2 * Real.pi / 3 = Real.pi - Real.pi / 3 := by ring
    rw [this, Real.sin_pi_sub, Real.sin_pi_div_three]
  have c2 : Real.cos (4 * Real.pi / 3) = -1 / 2 := by
    have : 4 * Real.pi / 3 = Real.pi / 3 + Real.pi := by ring
    rw [this, Real.cos_add_pi, Real.cos_pi_div_three]; norm_num
  have s2 : Real.sin (4 * Real.pi / 3) = -(Real.sqrt 3 / 2) := by
    have : 4 * Real.pi / 3 = Real.pi / 3 + Real.pi := by ring
    rw [this, Real.sin_add_pi, Real.sin_pi_div_three]
  have h3 : Real.sqrt 3 ^ 2 = 3 := Real.sq_sqrt (by norm_num)
  have htr : Real.cos phi = 4 * Real.cos (phi / 3) ^ 3 - 3 * Real.cos (phi / 3) := by
    rw [← Real.cos_three_mul]; congr 1; ring
  have hsc := Real.sin_sq_add_cos_sq (phi / 3)
  rw [e1, e2, Real.cos_add, Real.cos_add, c1, s1, c2, s2]
  set C := Real.cos (phi / 3)
  set S := Real.sin (phi / 3)
  set w := Real.sqrt 3
  have hp' : p = -3 * r ^ 2 := by rw [hr2]; ring
  have hS : S ^ 2 = 1 - C ^ 2 := by linarith
  have hfac : t ^ 3 + p * t + q = (t - 2 * r * C) * ((t - 2 * r * (C * (-1 / 2) - S * (w / 2)))
      * (t - 2 * r * (C * (-1 / 2) - S * -(w / 2)))) := by
    rw [hq, htr, hp']
    linear_combination (t - 2 * r * C) * r ^ 2 * (S ^ 2 * h3 + 3 * hS)
  rw [hfac, mul_eq_zero, mul_eq_zero, sub_eq_zero, sub_eq_zero, sub_eq_zero]

/-! ## C27 -/

/-- **C27**. For every cubic whose leading coefficient is at least `1e-14` in size, the solver returns
exactly the real roots. -/
theorem c27_roots (a b c d : ℝ) (ha : 1e-14 ≤ |a|) (x : ℝ) :
    x ∈ cubicRealRoots a b c d ↔ a * x ^ 3 + b * x ^ 2 + c * x + d = 0 := by
  have ha0 : a ≠ 0 := by
    rintro rfl; norm_num at ha
  have hnorm : a * x ^ 3 + b * x ^ 2 + c * x + d = 0 ↔
      x ^ 3 + b / a * x ^ 2 + c / a * x + d / a = 0 := by
    have : a * x ^ 3 + b * x ^ 2 + c * x + d
        = a * (x ^ 3 + b / a * x ^ 2 + c / a * x + d / a) := by field_simp
    rw [this, mul_eq_zero]; tauto
  rw [hnorm]
  unfold cubicRealRoots
  rw [if_neg (not_lt.2 ha)]
  simp only
  generalize b / a = b
  generalize c / a = c
  generalize d / a = d
  have hdep : x ^ 3 + b * x ^ 2 + c * x + d = (x + b / 3) ^ 3 + (c - b * b / 3) * (x + b / 3)
      + (2 * b ^ 3 / 27 - b * c / 3 + d) := by ring
  rw [hdep]
  have hx : ∀ y, x = y + -b / 3 ↔ x + b / 3 = y := fun y => by
    constructor <;> intro h <;> linarith
  generalize hpq : c - b * b / 3 = p
  generalize 2 * b ^ 3 / 27 - b * c / 3 + d = q
  split_ifs with hd hp hr
  · rw [List.mem_singleton, cardano hd, hx]
  · exfalso
    have : 0 < Real.sqrt (-(p / 3)) := Real.sqrt_pos.2 (by linarith)
    linarith
  · have := viete (t := x + b / 3) hp (not_lt.1 hd)
    simp only at this
    rw [this]
    simp only [List.mem_map, List.mem_range]
    constructor
    · rintro ⟨k, hk, rfl⟩
      interval_cases k
      · left; push_cast; rw [show ∀ y : ℝ, y + 2 * Real.pi * 0 = y from fun y => by ring]; ring
      · right; left; push_cast
        rw [mul_one]; ring
      · right; right; push_cast
        rw [show (2 * Real.pi * 2) = 4 * Real.pi by ring]; ring
    · rintro (h | h | h)
      · refine ⟨0, by norm_num, ?_⟩
        push_cast
        rw [show ∀ y : ℝ, y + 2 * Real.pi * 0 = y from fun y => by ring]; linarith
      · refine ⟨1, by norm_num, ?_⟩
        push_cast
        rw [mul_one]; linarith
      · refine ⟨2, by norm_num, ?_⟩
        push_cast
        rw [show (2 * Real.pi * 2) = 4 * Real.pi by ring]; linarith
  · push Not at hp hd
    have h1 : (p / 3) ^ 3 ≥ 0 := by positivity
    have h2 : (q / 2) ^ 2 = 0 := le_antisymm (by linarith) (sq_nonneg _)
    have hq : q = 0 := by
      have := pow_eq_zero_iff (two_ne_zero) |>.1 h2
      linarith
    have h3 : (p / 3) ^ 3 = 0 := le_antisymm (by linarith [sq_nonneg (q / 2)]) h1
    have hp0 : p = 0 := by
      have := pow_eq_zero_iff (three_ne_zero) |>.1 h3
      linarith
    subst hq hp0
    simp only [List.mem_cons, List.not_mem_nil, or_false, or_self, zero_mul, add_zero]
    rw [pow_eq_zero_iff (three_ne_zero)]
    constructor <;> intro h <;> linarith
  · exact absurd rfl ‹¬ (0 : ℝ) = 0›

/-- **C27**, the degenerate branches: a vanishing leading coefficient is treated exactly, as long as
the next coefficients are zero or not tiny and the polynomial is not identically zero. -/
theorem c27_degenerate (b c d : ℝ) (hb : b = 0 ∨ 1e-14 ≤ |b|) (hc : b ≠ 0 ∨ c = 0 ∨ 1e-14 ≤ |c|)
    (hz : ¬ (b = 0 ∧ c = 0 ∧ d = 0)) (x : ℝ) :
    x ∈ cubicRealRoots 0 b c d ↔ b * x ^ 2 + c * x + d = 0 := by
  unfold cubicRealRoots
  rw [if_pos (by norm_num)]
  rcases hb with rfl | hb
  · rw [if_pos (by norm_num)]
    rcases hc with hc | rfl | hc
    · exact absurd rfl hc
    · rw [if_pos (by norm_num)]
      simp only [List.not_mem_nil, zero_mul, zero_add, false_iff]
      intro h; exact hz ⟨rfl, rfl, h⟩
    · rw [if_neg (not_lt.2 hc), List.mem_singleton]
      have hc0 : c ≠ 0 := by rintro rfl; norm_num at hc
      rw [eq_div_iff hc0]
      constructor <;> intro h <;> linarith
  · have hb0 : b ≠ 0 := by rintro rfl; norm_num at hb
    rw [if_neg (not_lt.2 hb)]
    simp only
    have hsq : b * x ^ 2 + c * x + d = 0 ↔ (2 * b * x + c) ^ 2 = c * c - 4 * b * d := by
      have : (2 * b * x + c) ^ 2 - (c * c - 4 * b * d) = 4 * b * (b * x ^ 2 + c * x + d) := by ring
      constructor
      · intro h; rw [h] at this; linarith
      · intro h
        rw [h, sub_self] at this
        rcases mul_eq_zero.1 this.symm with h | h
        · exact absurd (by linarith) hb0
        · exact h
    rw [hsq]
    split_ifs with hd
    · simp only [List.not_mem_nil, false_iff]
      intro h; nlinarith [sq_nonneg (2 * b * x + c)]
    · have h0 : 0 ≤ c * c - 4 * b * d := not_lt.1 hd
      have hs := Real.sq_sqrt h0
      set s := Real.sqrt (c * c - 4 * b * d)
      simp only [List.mem_cons, List.not_mem_nil, or_false]
      rw [← hs, sq_eq_sq_iff_eq_or_eq_neg]
      have h2 : 2 * b ≠ 0 := by simpa using hb0
      rw [eq_div_iff h2, eq_div_iff h2]
      constructor
      · rintro (h | h)
        · left; linarith
        · right; linarith
      · rintro (h | h)
        · left; linarith
        · right; linarith

/-- **C27, disagreement**. Below the tolerance a true cubic loses roots: `1e-15 x³ - 1` has the root
`1e5`, the solver returns no root. -/
theorem c27_tiny_leading_coefficient :
    ∃ a b c d x : ℝ, a ≠ 0 ∧ a * x ^ 3 + b * x ^ 2 + c * x + d = 0 ∧ cubicRealRoots a b c d = [] := by
  refine ⟨1e-15, 0, 0, -1, 1e5, by norm_num, by norm_num, ?_⟩
  unfold cubicRealRoots
  rw [if_pos (by rw [abs_of_pos] <;> norm_num), if_pos (by norm_num), if_pos (by norm_num)]

example : (1e-14 : ℝ) ≤ |(1 : ℝ)| ∧ (2 : ℝ) ∈ cubicRealRoots 1 (-6) 11 (-6) := by
  have h : (1e-14 : ℝ) ≤ |(1 : ℝ)| := by norm_num
  exact ⟨h, (c27_roots 1 (-6) 11 (-6) h 2).2 (by norm_num)⟩

example : (1 : ℝ) ∈ cubicRealRoots 0 1 1 (-2) :=
  (c27_degenerate 1 1 (-2) (.inr (by norm_num)) (.inl one_ne_zero) (by norm_num) 1).2 (by norm_num)

/-! ## C28 -/

/-- The slope function is the logarithmic derivative of the density profile. -/
theorem c28_slope_is_log_derivative (r rhos rs rt : ℝ) (hr : 0 < r) (hs : 0 < rs) (ht : 0 < rt)
    (hrho : 0 < rhos) :
    HasDerivAt (fun u => Real.log (densityProfile (Real.exp u) rhos rs rt))
      (logProfileSlope r rs rt) (Real.log r) := by
  have hfun : (fun u => Real.log (densityProfile (Real.exp u) rhos rs rt)) =
      fun u => Real.log rhos - (u - Real.log rs) - 2 * Real.log (1 + Real.exp u / rs)
        + Real.log ((rt / rs) ^ 2) - Real.log ((Real.exp u / rs) ^ 2 + (rt / rs) ^ 2) := by
    funext u
    have hx : 0 < Real.exp u / rs := div_pos (Real.exp_pos u) hs
    have ht' : 0 < rt / rs := div_pos ht hs
    unfold densityProfile
    simp only
    rw [Real.log_mul (by positivity) (by positivity), Real.log_div hrho.ne' (by positivity),
      Real.log_div (by positivity) (by positivity), Real.log_mul hx.ne' (by positivity),
      Real.log_div (Real.exp_pos u).ne' hs.ne', Real.log_exp, Real.log_pow]
    push_cast
    ring
  rw [hfun]
  have he : Real.exp (Real.log r) = r := Real.exp_log hr
  have h1 : HasDerivAt (fun u => Real.exp u / rs) (r / rs) (Real.log r) := by
    have := (Real.hasDerivAt_exp (Real.log r)).div_const rs
    rwa [he] at this
  have hx : 0 < r / rs := div_pos hr hs
  have ht' : 0 < rt / rs := div_pos ht hs
  have h2 : HasDerivAt (fun u => Real.log (1 + Real.exp u / rs)) (r / rs / (1 + r / rs))
      (Real.log r) := by
    have := (h1.const_add 1).log (by rw [he]; positivity)
    rwa [he] at this
  have h3 : HasDerivAt (fun u => Real.log ((Real.exp u / rs) ^ 2 + (rt / rs) ^ 2))
      (2 * (r / rs) * (r / rs) / ((r / rs) ^ 2 + (rt / rs) ^ 2)) (Real.log r) := by
    have := ((h1.pow 2).add_const ((rt / rs) ^ 2)).log (by
      simp only [Pi.pow_apply, he]; positivity)
    refine this.congr_deriv ?_
    simp only [Pi.pow_apply, he]
    norm_num
  have h4 := (((((hasDerivAt_id (Real.log r)).sub_const (Real.log rs)).const_sub
    (Real.log rhos)).sub (h2.const_mul 2)).add_const (Real.log ((rt / rs) ^ 2))).sub h3
  refine h4.congr_deriv ?_
  unfold logProfileSlope
  simp only
  generalize r / rs = x at *
  generalize rt / rs = t at *
  have hA : 1 + x ≠ 0 := by positivity
  have hB : x ^ 2 + t ^ 2 ≠ 0 := by positivity
  have hC : t ^ 2 + x ^ 2 ≠ 0 := by positivity
  rw [show t ^ 2 + x ^ 2 = x ^ 2 + t ^ 2 by ring]
  field_simp
  ring

example := c28_slope_is_log_derivative 0.3 (10 ^ 7) 0.5 2 (by norm_num) (by norm_num) (by norm_num) (by norm_num)

/-- The cubic whose roots the inversion asks for. -/
theorem slope_iff_cubic {gamma t x : ℝ} (hx : 0 < x) (ht : 0 < t) :
    -5 + 2 / (1 + x) + (2 * t ^ 2) / (t ^ 2 + x ^ 2) = gamma ↔
    (-gamma - 5) * x ^ 3 + (-gamma - 5 + 2) * x ^ 2 + (-gamma - 5 + 2) * t ^ 2 * x
      + (-gamma - 5 + 4) * t ^ 2 = 0 := by
  have hA : (1 + x) ≠ 0 := by positivity
  have hC : t ^ 2 + x ^ 2 ≠ 0 := by positivity
  have : ((-gamma - 5) * x ^ 3 + (-gamma - 5 + 2) * x ^ 2 + (-gamma - 5 + 2) * t ^ 2 * x
      + (-gamma - 5 + 4) * t ^ 2)
      = (-5 + 2 / (1 + x) + (2 * t ^ 2) / (t ^ 2 + x ^ 2) - gamma)
        * ((1 + x) * (t ^ 2 + x ^ 2)) := by
    field_simp; ring
  rw [this, mul_eq_zero, sub_eq_zero]
  constructor
  · intro h; exact .inl h
  · rintro (h | h)
    · exact h
    · exact absurd h (mul_ne_zero hA hC)

/-- The slope decreases strictly. -/
theorem slope_strictAnti {t : ℝ} (ht : 0 < t) :
    StrictAntiOn (fun x : ℝ => -5 + 2 / (1 + x) + (2 * t ^ 2) / (t ^ 2 + x ^ 2)) (Set.Ioi 0) := by
  intro x hx y hy hxy
  have hx' : 0 < x := hx
  have h1 : 2 / (1 + y) < 2 / (1 + x) := by
    apply div_lt_div_of_pos_left <;> linarith
  have h2 : 2 * t ^ 2 / (t ^ 2 + y ^ 2) < 2 * t ^ 2 / (t ^ 2 + x ^ 2) := by
    apply div_lt_div_of_pos_left
    · positivity
    · positivity
    · nlinarith
  simp only
  linarith

/-- Existence of a positive root. -/
theorem exists_root {A t : ℝ} (h1 : -4 < A) (h2 : A < 0) (ht : 0 < t) :
    ∃ x, 0 < x ∧ A * x ^ 3 + (A + 2) * x ^ 2 + (A + 2) * t ^ 2 * x + (A + 4) * t ^ 2 = 0 := by
  set f : ℝ → ℝ := fun x => A * x ^ 3 + (A + 2) * x ^ 2 + (A + 2) * t ^ 2 * x + (A + 4) * t ^ 2
  have hf : Continuous f := by fun_prop
  have hf0 : 0 < f 0 := by
    show 0 < A * 0 ^ 3 + (A + 2) * 0 ^ 2 + (A + 2) * t ^ 2 * 0 + (A + 4) * t ^ 2
    have : 0 < (A + 4) * t ^ 2 := mul_pos (by linarith) (by positivity)
    linarith
  obtain ⟨K, hK⟩ : ∃ K, K = 2 + 2 * t ^ 2 + 4 * t ^ 2 := ⟨_, rfl⟩
  have hK0 : 0 < K := by rw [hK]; positivity
  set M := 1 + K / (-A)
  have hM1 : 1 ≤ M := by
    have : 0 ≤ K / (-A) := div_nonneg hK0.le (by linarith)
    simp only [M]; linarith
  have hAM : A * M + K < 0 := by
    have : A * M = A - K := by
      simp only [M]
      have : A ≠ 0 := h2.ne
      field_simp
      ring
    rw [this]; linarith
  have hfM : f M < 0 := by
    have hM2 : 1 ≤ M ^ 2 := by nlinarith
    have hMM : M ≤ M ^ 2 := by nlinarith
    have ht2 : 0 < t ^ 2 := by positivity
    have e1 : (A + 2) * M ^ 2 ≤ 2 * M ^ 2 := by nlinarith
    have e2 : (A + 2) * t ^ 2 * M ≤ 2 * t ^ 2 * M ^ 2 := by
      have : (A + 2) * t ^ 2 * M ≤ 2 * t ^ 2 * M := by
        have : 0 < t ^ 2 * M := by positivity
        nlinarith
      have : 2 * t ^ 2 * M ≤ 2 * t ^ 2 * M ^ 2 := by
        apply mul_le_mul_of_nonneg_left hMM; positivity
      linarith
    have e3 : (A + 4) * t ^ 2 ≤ 4 * t ^ 2 * M ^ 2 := by
      have : (A + 4) * t ^ 2 ≤ 4 * t ^ 2 := by nlinarith
      have : 4 * t ^ 2 * 1 ≤ 4 * t ^ 2 * M ^ 2 := by
        apply mul_le_mul_of_nonneg_left hM2; positivity
      linarith
    have e4 : f M ≤ M ^ 2 * (A * M + K) := by
      show A * M ^ 3 + (A + 2) * M ^ 2 + (A + 2) * t ^ 2 * M + (A + 4) * t ^ 2 ≤ _
      rw [hK]
      nlinarith
    have : M ^ 2 * (A * M + K) < 0 := mul_neg_of_pos_of_neg (by positivity) hAM
    linarith
  have hM0 : (0 : ℝ) ≤ M := by linarith
  obtain ⟨x, hx, hfx⟩ := intermediate_value_Icc' hM0 hf.continuousOn
    (show (0 : ℝ) ∈ Set.Icc (f M) (f 0) from ⟨hfM.le, hf0.le⟩)
  refine ⟨x, lt_of_le_of_ne hx.1 ?_, hfx⟩
  rintro rfl
  rw [hfx] at hf0
  exact lt_irrefl _ hf0

/-- **C28**. For every slope between `-5 + 1e-14` and `-1` (exclusive) the inversion returns a
positive radius at which the profile has that slope, and no other positive radius has it. -/
theorem c28_inverse_partial (gamma rs rt : ℝ) (hs : 0 < rs) (ht : 0 < rt) (h1 : gamma < -1)
    (h2 : -5 + 1e-14 ≤ gamma) :
    ∃ r, logDerivativeInverse gamma rs rt = .ok r ∧ 0 < r ∧ logProfileSlope r rs rt = gamma ∧
      ∀ r', 0 < r' → logProfileSlope r' rs rt = gamma → r' = r := by
  have htau : 0 < rt / rs := div_pos ht hs
  have habs : (1e-14 : ℝ) ≤ |(-gamma - 5)| := by
    rw [abs_of_neg (by norm_num at h2; linarith)]; linarith
  have hroots := c27_roots (-gamma - 5) (-gamma - 5 + 2) ((-gamma - 5 + 2) * (rt / rs) ^ 2)
    ((-gamma - 5 + 4) * (rt / rs) ^ 2) habs
  obtain ⟨x0, hx0, hx0'⟩ := exists_root (A := -gamma - 5) (t := rt / rs) (by linarith)
    (by norm_num at h2; linarith) htau
  have hm0 := (hroots x0).2 hx0'
  have huniq : ∀ x y, 0 < x → 0 < y →
      -5 + 2 / (1 + x) + (2 * (rt / rs) ^ 2) / ((rt / rs) ^ 2 + x ^ 2) = gamma →
      -5 + 2 / (1 + y) + (2 * (rt / rs) ^ 2) / ((rt / rs) ^ 2 + y ^ 2) = gamma → x = y := by
    intro x y hx hy ex ey
    exact (slope_strictAnti htau).injOn (Set.mem_Ioi.2 hx) (Set.mem_Ioi.2 hy)
      (ex.trans ey.symm)
  unfold logDerivativeInverse
  simp only
  cases hf : (cubicRealRoots (-gamma - 5) (-gamma - 5 + 2) ((-gamma - 5 + 2) * (rt / rs) ^ 2)
    ((-gamma - 5 + 4) * (rt / rs) ^ 2)).filter (fun r => decide (0 < r)) with
  | nil =>
    exfalso
    have : x0 ∈ ([] : List ℝ) := by
      rw [← hf]; exact List.mem_filter.2 ⟨hm0, by simpa using hx0⟩
    simp at this
  | cons x l =>
    have hx : x ∈ _ := hf ▸ List.mem_cons_self
    rw [List.mem_filter] at hx
    have hxpos : 0 < x := by simpa using hx.2
    have hxs := (slope_iff_cubic hxpos htau).2 ((hroots x).1 hx.1)
    have hxr : x * rs / rs = x := by field_simp
    refine ⟨x * rs, rfl, by positivity, ?_, ?_⟩
    · unfold logProfileSlope
      simp only [hxr]
      exact hxs
    · intro r' hr' hr's
      have h0 : 0 < r' / rs := div_pos hr' hs
      have := huniq _ _ h0 hxpos hr's hxs
      rw [← this]; field_simp

/-- **C28**, refusal. For all other slopes (at least `-1`, or less than `-5 + 1e-14`) the inversion
raises; every slope outside `(-5, -1)` is indeed not attained. -/
theorem c28_refused (gamma rs rt : ℝ) (hs : 0 < rs) (ht : 0 < rt)
    (h : -1 ≤ gamma ∨ gamma < -5 + 1e-14) :
    logDerivativeInverse gamma rs rt = .error (.exception "IndexError") := by
  have htau : 0 < rt / rs := div_pos ht hs
  have ht2 : 0 < (rt / rs) ^ 2 := by positivity
  have hno : ∀ x ∈ cubicRealRoots (-gamma - 5) (-gamma - 5 + 2) ((-gamma - 5 + 2) * (rt / rs) ^ 2)
      ((-gamma - 5 + 4) * (rt / rs) ^ 2), ¬ 0 < x := by
    intro x hx hx0
    by_cases ha : (1e-14 : ℝ) ≤ |(-gamma - 5)|
    · have hroot := (c27_roots _ _ _ _ ha x).1 hx
      rcases h with h | h
      · have e1 : (-gamma - 5) * x ^ 3 < 0 := mul_neg_of_neg_of_pos (by linarith) (by positivity)
        have e2 : (-gamma - 5 + 2) * x ^ 2 < 0 :=
          mul_neg_of_neg_of_pos (by linarith) (by positivity)
        have e3 : (-gamma - 5 + 2) * (rt / rs) ^ 2 * x < 0 := by
          rw [mul_assoc]; exact mul_neg_of_neg_of_pos (by linarith) (by positivity)
        have e4 : (-gamma - 5 + 4) * (rt / rs) ^ 2 ≤ 0 :=
          mul_nonpos_of_nonpos_of_nonneg (by linarith) ht2.le
        linarith
      · have hA : 0 ≤ -gamma - 5 := by
          by_contra hA
          push Not at hA
          rw [abs_of_neg hA] at ha
          linarith
        have e1 : 0 ≤ (-gamma - 5) * x ^ 3 := mul_nonneg hA (by positivity)
        have e2 : 0 < (-gamma - 5 + 2) * x ^ 2 := mul_pos (by linarith) (by positivity)
        have e3 : 0 < (-gamma - 5 + 2) * (rt / rs) ^ 2 * x := by
          rw [mul_assoc]; exact mul_pos (by linarith) (by positivity)
        have e4 : 0 < (-gamma - 5 + 4) * (rt / rs) ^ 2 := mul_pos (by linarith) ht2
        linarith
    · push Not at ha
      generalize -gamma - 5 = A at *
      have hb := abs_lt.1 ha
      have hb1 : -1 < A := by have := hb.1; norm_num at this ⊢; linarith
      unfold cubicRealRoots at hx
      rw [if_pos ha, if_neg (by
        rw [abs_of_pos (by linarith)]; norm_num; linarith)] at hx
      simp only at hx
      have hB : 0 < A + 2 := by linarith
      have hD : 0 < (A + 4) * (rt / rs) ^ 2 := mul_pos (by linarith) ht2
      have hC : 0 < (A + 2) * (rt / rs) ^ 2 := mul_pos hB ht2
      split_ifs at hx with hd
      · simp at hx
      · have h0 := not_lt.1 hd
        set s := Real.sqrt ((A + 2) * (rt / rs) ^ 2 * ((A + 2) * (rt / rs) ^ 2)
          - 4 * (A + 2) * ((A + 4) * (rt / rs) ^ 2))
        have hs2 := Real.sq_sqrt h0
        have hs0 : 0 ≤ s := Real.sqrt_nonneg _
        have hsC : s < (A + 2) * (rt / rs) ^ 2 := by
          have : 0 < (A + 2) * ((A + 4) * (rt / rs) ^ 2) := mul_pos hB hD
          apply lt_of_pow_lt_pow_left₀ 2 hC.le
          show s ^ 2 < _
          rw [hs2]; nlinarith
        simp only [List.mem_cons, List.not_mem_nil, or_false] at hx
        rcases hx with rfl | rfl
        · have := (div_pos_iff_of_pos_right (by linarith : 0 < 2 * (A + 2))).1 hx0
          linarith
        · have := (div_pos_iff_of_pos_right (by linarith : 0 < 2 * (A + 2))).1 hx0
          linarith
  unfold logDerivativeInverse
  simp only
  rw [List.filter_eq_nil_iff.2 (by simpa using hno)]

/-- **C28, disagreement**. Within `1e-14` of the limiting slope -5 the inversion raises although the
profile does have that slope at some radius. (This is what is missing from `c28_inverse_partial`.) -/
theorem c28_near_limit (gamma rs rt : ℝ) (hs : 0 < rs) (ht : 0 < rt) (h1 : -5 < gamma)
    (h2 : gamma < -5 + 1e-14) :
    (∃ r, 0 < r ∧ logProfileSlope r rs rt = gamma) ∧
    logDerivativeInverse gamma rs rt = .error (.exception "IndexError") := by
  refine ⟨?_, c28_refused gamma rs rt hs ht (.inr h2)⟩
  have htau : 0 < rt / rs := div_pos ht hs
  obtain ⟨x, hx, he⟩ := exists_root (A := -gamma - 5) (t := rt / rs)
    (by norm_num at h2; linarith) (by linarith) htau
  refine ⟨x * rs, by positivity, ?_⟩
  have hxr : x * rs / rs = x := by field_simp
  unfold logProfileSlope
  simp only [hxr]
  exact (slope_iff_cubic hx htau).2 he

example := c28_near_limit (-5 + 1e-15) 0.5 2 (by norm_num) (by norm_num) (by norm_num) (by norm_num)

example : (-5 : ℝ) < -5 + 1e-15 ∧ (-5 + 1e-15 : ℝ) < -5 + 1e-14 := by norm_num

/-- **C28**. Every slope of the profile lies strictly between -5 and -1, so outside that range there
is nothing to find; between `-5` and `-5 + 1e-14` the refusal of `c28_refused` is wrong in principle
(and the reason why C28 is only claimed from `-5 + 1e-14` on). -/
theorem c28_slope_range (r rs rt : ℝ) (hr : 0 < r) (hs : 0 < rs) (ht : 0 < rt) :
    -5 < logProfileSlope r rs rt ∧ logProfileSlope r rs rt < -1 := by
  unfold logProfileSlope
  simp only
  have hx : 0 < r / rs := div_pos hr hs
  have htau : 0 < rt / rs := div_pos ht hs
  generalize r / rs = x at *
  generalize rt / rs = t at *
  have h1 : 0 < 2 / (1 + x) := by positivity
  have h2 : 0 < 2 * t ^ 2 / (t ^ 2 + x ^ 2) := by positivity
  have h3 : 2 / (1 + x) < 2 := by rw [div_lt_iff₀ (by linarith)]; linarith
  have h4 : 2 * t ^ 2 / (t ^ 2 + x ^ 2) < 2 := by
    rw [div_lt_iff₀ (by positivity)]; nlinarith [sq_pos_of_pos hx]
  constructor <;> linarith

example := c28_slope_range 0.3 0.5 2 (by norm_num) (by norm_num) (by norm_num)

example : ∃ r, logDerivativeInverse (-3) 1 10 = .ok r ∧ 0 < r ∧ logProfileSlope r 1 10 = -3 := by
  obtain ⟨r, h1, h2, h3, -⟩ := c28_inverse_partial (-3) 1 10 one_pos (by norm_num) (by norm_num)
    (by norm_num)
  exact ⟨r, h1, h2, h3⟩

example : logDerivativeInverse (-1) 1 10 = .error (.exception "IndexError") :=
  c28_refused (-1) 1 10 one_pos (by norm_num) (.inl le_rfl)

/-! ## C67: the mass fraction of a truncated profile -/

/-- **C67**. The mass fraction of a truncated profile is strictly between 0 and 1 and increases with
the truncation radius. -/
theorem c67_mass_fraction (tau tau' c : ℝ) (hc : 0 < c) (ht : 0 < tau) (htt : tau < tau') :
    0 < massFraction tau c ∧ massFraction tau c < massFraction tau' c ∧
      massFraction tau' c < 1 := by
  have hden : 0 < Real.log (1 + c) - c / (1 + c) := by
    have h1 := Real.one_sub_inv_le_log_of_pos (x := 1 + c) (by linarith)
    have h2 : 1 - (1 + c)⁻¹ = c / (1 + c) := by field_simp; ring
    have hne : (1 + c)⁻¹ ≠ 1 := by
      intro h
      have := inv_eq_one.1 h
      linarith
    have h3 := Real.log_lt_sub_one_of_pos (x := (1 + c)⁻¹) (by positivity) hne
    rw [Real.log_inv] at h3
    rw [← h2]; linarith
  have hint : ∀ t > 0, massFraction t c * (Real.log (1 + c) - c / (1 + c))
      = ∫ r in (0 : ℝ)..c, r / (1 + r) ^ 2 * (t ^ 2 / (r ^ 2 + t ^ 2)) := by
    intro t ht
    unfold massFraction mass3d
    simp only
    rw [div_mul_cancel₀ _ hden.ne']
    apply intervalIntegral.integral_congr_ae
    filter_upwards with r
    intro hr
    rw [Set.uIoc_of_le hc.le] at hr
    have hr0 : 0 < r := hr.1
    unfold densityProfile
    have := Real.pi_pos
    simp only [div_one]
    field_simp
  have hcont : ∀ t > 0, ContinuousOn (fun r : ℝ => r / (1 + r) ^ 2 * (t ^ 2 / (r ^ 2 + t ^ 2)))
      (Set.Icc 0 c) := by
    intro t ht
    apply ContinuousOn.mul
    · apply ContinuousOn.div (by fun_prop) (by fun_prop)
      intro r hr
      have : 0 ≤ r := hr.1
      positivity
    · apply ContinuousOn.div (by fun_prop) (by fun_prop)
      intro r hr
      positivity
  have hcont' : ContinuousOn (fun r : ℝ => r / (1 + r) ^ 2) (Set.Icc 0 c) := by
    apply ContinuousOn.div (by fun_prop) (by fun_prop)
    intro r hr
    have : 0 ≤ r := hr.1
    positivity
  have hnfw : ∫ r in (0 : ℝ)..c, r / (1 + r) ^ 2 = Real.log (1 + c) - c / (1 + c) := by
    have hd : ∀ r ∈ Set.uIcc 0 c, HasDerivAt (fun r => Real.log (1 + r) - r / (1 + r))
        (r / (1 + r) ^ 2) r := by
      intro r hr
      rw [Set.uIcc_of_le hc.le] at hr
      have h0 : 1 + r ≠ 0 := by have := hr.1; positivity
      have h1 := ((hasDerivAt_id r).const_add 1)
      have h2 := (h1.log h0).sub ((hasDerivAt_id r).div h1 h0)
      refine h2.congr_deriv ?_
      simp only [id]
      field_simp
      ring
    rw [intervalIntegral.integral_eq_sub_of_hasDerivAt hd
      (hcont'.intervalIntegrable_of_Icc hc.le)]
    simp
  have ht' : 0 < tau' := ht.trans htt
  have hI0 : 0 < ∫ r in (0 : ℝ)..c, r / (1 + r) ^ 2 * (tau ^ 2 / (r ^ 2 + tau ^ 2)) := by
    apply intervalIntegral.intervalIntegral_pos_of_pos_on
      ((hcont tau ht).intervalIntegrable_of_Icc hc.le) _ hc
    intro r hr
    have : 0 < r := hr.1
    positivity
  have hlt : ∀ r > 0, tau ^ 2 / (r ^ 2 + tau ^ 2) < tau' ^ 2 / (r ^ 2 + tau' ^ 2) := by
    intro r hr
    rw [div_lt_div_iff₀ (by positivity) (by positivity)]
    have : tau ^ 2 < tau' ^ 2 := by nlinarith
    nlinarith [sq_pos_of_pos hr]
  have hI1 : ∫ r in (0 : ℝ)..c, r / (1 + r) ^ 2 * (tau ^ 2 / (r ^ 2 + tau ^ 2))
      < ∫ r in (0 : ℝ)..c, r / (1 + r) ^ 2 * (tau' ^ 2 / (r ^ 2 + tau' ^ 2)) := by
    apply intervalIntegral.integral_lt_integral_of_continuousOn_of_le_of_exists_lt hc
      (hcont tau ht) (hcont tau' ht')
    · intro r hr
      have h0 : 0 < r := hr.1
      exact mul_le_mul_of_nonneg_left (hlt r h0).le (by positivity)
    · exact ⟨c, ⟨hc.le, le_rfl⟩, mul_lt_mul_of_pos_left (hlt c hc) (by positivity)⟩
  have hI2 : ∫ r in (0 : ℝ)..c, r / (1 + r) ^ 2 * (tau' ^ 2 / (r ^ 2 + tau' ^ 2))
      < ∫ r in (0 : ℝ)..c, r / (1 + r) ^ 2 := by
    have hlt1 : ∀ r > 0, tau' ^ 2 / (r ^ 2 + tau' ^ 2) < 1 := by
      intro r hr
      rw [div_lt_one (by positivity)]
      nlinarith [sq_pos_of_pos hr]
    apply intervalIntegral.integral_lt_integral_of_continuousOn_of_le_of_exists_lt hc
      (hcont tau' ht') hcont'
    · intro r hr
      have h0 : 0 < r := hr.1
      have : 0 < r / (1 + r) ^ 2 := by positivity
      nlinarith [hlt1 r h0]
    · refine ⟨c, ⟨hc.le, le_rfl⟩, ?_⟩
      have : 0 < c / (1 + c) ^ 2 := by positivity
      nlinarith [hlt1 c hc]
  rw [← hint tau ht, ← hint tau' ht'] at hI1
  rw [← hint tau ht] at hI0
  rw [← hint tau' ht', hnfw] at hI2
  refine ⟨by by_contra h; push Not at h; nlinarith, by by_contra h; push Not at h; nlinarith, ?_⟩
  by_contra h; push Not at h; nlinarith

example : 0 < massFraction 1 10 :=
  (c67_mass_fraction 1 2 10 (by norm_num) one_pos (by norm_num)).1

end PyHalo.Props
