import Verif.Model.MassFunction
import Verif.Lemmas.Numpy
import Verif.Lemmas.Rounding
import Mathlib.Analysis.SpecialFunctions.Integrals.Basic

/-! # Mass functions (C19, C20, C52, C53, C54, C59) -/

namespace PyHalo.Props
open PyHalo Np

/-- The count a Poisson generator may return for this mass function: zero when the mean is zero. -/
def CountPossible (p : PowerLaw) (k : ℕ) : Prop := p.nMean = 0 → k = 0

theorem pow10_pos (x : ℝ) : (0 : ℝ) < (10 : ℝ) ^ x := Real.rpow_pos_of_pos (by norm_num) x

theorem rpow_inv_exp {L e : ℝ} (hL : 0 < L) (he : e ≠ 0) : (L ^ e) ^ e⁻¹ = L := by
  rw [← Real.rpow_mul hL.le, mul_inv_cancel₀ he, Real.rpow_one]

theorem invert_range (p : PowerLaw) (h : p.logMlow ≤ p.logMhigh) (x : ℝ) (h0 : 0 ≤ x) (h1 : x ≤ 1) :
    (10 : ℝ) ^ p.logMlow ≤ p.invert x ∧ p.invert x ≤ (10 : ℝ) ^ p.logMhigh := by
  have hL := pow10_pos p.logMlow
  have hH := pow10_pos p.logMhigh
  have hLH : (10 : ℝ) ^ p.logMlow ≤ (10 : ℝ) ^ p.logMhigh :=
    Real.rpow_le_rpow_of_exponent_le (by norm_num) h
  unfold PowerLaw.invert
  simp only
  generalize (10 : ℝ) ^ p.logMlow = L at *
  generalize (10 : ℝ) ^ p.logMhigh = H at *
  split_ifs with hi
  · have hlog : 0 ≤ Real.log (H / L) := Real.log_nonneg (by rw [le_div_iff₀ hL]; linarith)
    constructor
    · have : 1 ≤ Real.exp (Real.log (H / L) * x) := Real.one_le_exp (by positivity)
      nlinarith
    · have : Real.exp (Real.log (H / L) * x) ≤ H / L := by
        calc _ ≤ Real.exp (Real.log (H / L)) := Real.exp_le_exp.2 (by nlinarith)
          _ = H / L := Real.exp_log (by positivity)
      rw [le_div_iff₀ hL] at this
      linarith
  · have he : (1 + p.index) ≠ 0 := by intro hc; apply hi; linarith
    generalize 1 + p.index = e at *
    have hLe : 0 < L ^ e := Real.rpow_pos_of_pos hL e
    have hHe : 0 < H ^ e := Real.rpow_pos_of_pos hH e
    rcases lt_or_gt_of_ne he with hneg | hpos
    · have hle : H ^ e ≤ L ^ e := Real.rpow_le_rpow_of_nonpos hL hLH hneg.le
      have y1 : H ^ e ≤ x * (H ^ e - L ^ e) + L ^ e := by nlinarith
      have y2 : x * (H ^ e - L ^ e) + L ^ e ≤ L ^ e := by nlinarith
      have hinv : e⁻¹ ≤ 0 := (inv_lt_zero.2 hneg).le
      constructor
      · calc L = (L ^ e) ^ e⁻¹ := (rpow_inv_exp hL he).symm
          _ ≤ _ := Real.rpow_le_rpow_of_nonpos (lt_of_lt_of_le hHe y1) y2 hinv
      · calc _ ≤ (H ^ e) ^ e⁻¹ := Real.rpow_le_rpow_of_nonpos hHe y1 hinv
          _ = H := rpow_inv_exp hH he
    · have hle : L ^ e ≤ H ^ e := Real.rpow_le_rpow hL.le hLH hpos.le
      have y1 : L ^ e ≤ x * (H ^ e - L ^ e) + L ^ e := by nlinarith
      have y2 : x * (H ^ e - L ^ e) + L ^ e ≤ H ^ e := by nlinarith
      have hinv : 0 ≤ e⁻¹ := (inv_pos.2 hpos).le
      constructor
      · calc L = (L ^ e) ^ e⁻¹ := (rpow_inv_exp hL he).symm
          _ ≤ _ := Real.rpow_le_rpow hLe.le y1 hinv
      · calc _ ≤ (H ^ e) ^ e⁻¹ := Real.rpow_le_rpow (hLe.le.trans y1) y2 hinv
          _ = H := rpow_inv_exp hH he

theorem draw_length (p : PowerLaw) (k : ℕ) (u : ℕ → ℝ) (l : List ℝ) (h : p.draw k u = .ok l) :
    p.ndraw k = .ok l.length ∧ l = (List.range l.length).map fun i => p.invert (u i) := by
  unfold PowerLaw.draw at h
  cases hn : p.ndraw k with
  | error e => rw [hn] at h; simp [bind, Except.bind] at h
  | ok n =>
    rw [hn] at h
    simp only [bind, Except.bind, pure, Except.pure] at h
    cases h
    simp

theorem ndraw_zero_of_empty (p : PowerLaw) (h : p.logMhigh ≤ p.logMlow) (k n : ℕ)
    (hk : CountPossible p k) (hn : p.ndraw k = .ok n) : n = 0 := by
  have h0 : p.nMean = 0 := by simp [PowerLaw.nMean, h]
  have hk0 := hk h0
  unfold PowerLaw.ndraw at hn
  have hr : rint 0 = 0 := by simpa using rint_int 0
  rw [h0] at hn
  simp [hr, hk0] at hn
  exact hn.symm

/-- **C19.** Every mass drawn from a power-law mass function lies in the requested range, for every
slope (also the special slope -1), every range and all variates. -/
theorem c19_draws_in_range (p : PowerLaw) (k : ℕ) (u : ℕ → ℝ) (l : List ℝ)
    (hk : CountPossible p k) (hu : ∀ i, 0 ≤ u i ∧ u i ≤ 1) (h : p.draw k u = .ok l) :
    ∀ m ∈ l, (10 : ℝ) ^ p.logMlow ≤ m ∧ m ≤ (10 : ℝ) ^ p.logMhigh := by
  obtain ⟨h1, h2⟩ := draw_length p k u l h
  intro m hm
  rcases le_or_gt p.logMlow p.logMhigh with hle | hlt
  · rw [h2] at hm
    obtain ⟨i, _, rfl⟩ := List.mem_map.1 hm
    exact invert_range p hle (u i) (hu i).1 (hu i).2
  · have := ndraw_zero_of_empty p hlt.le k _ hk h1
    rw [List.eq_nil_of_length_eq_zero this] at hm
    simp at hm

/-- When it draws: with a Poisson count unless the mean is negative; otherwise unless the mean
rounds to a negative number. -/
theorem c19_draw_succeeds (p : PowerLaw) (k : ℕ) (u : ℕ → ℝ) (hn : 0 ≤ p.nMean) :
    ∃ l, p.draw k u = .ok l ∧
      l.length = if p.drawPoisson then k else (rint p.nMean).toNat := by
  have hr : ¬ rint p.nMean < 0 := by
    have := rint_mono hn
    rw [show rint 0 = 0 by simpa using rint_int 0] at this
    omega
  unfold PowerLaw.draw PowerLaw.ndraw
  cases p.drawPoisson
  · simp [hr, bind, Except.bind, pure, Except.pure]
  · simp [not_lt.2 hn, bind, Except.bind, pure, Except.pure]

/-- A mass function with slope -1.9 between 10^6 and 10^9. -/
noncomputable def demoPL : PowerLaw := ⟨6, 9, -1.9, true, 10 ^ 8⟩

theorem nMean_nonneg (p : PowerLaw) (h : 0 ≤ p.norm) : 0 ≤ p.nMean := by
  unfold PowerLaw.nMean integratePowerLaw
  simp only
  split_ifs with hge hf
  · exact le_refl 0
  · apply mul_nonneg h
    apply Real.log_nonneg
    rw [le_div_iff₀ (pow10_pos _), one_mul]
    exact Real.rpow_le_rpow_of_exponent_le (by norm_num) (by linarith)
  · apply mul_nonneg h
    have hLH : (10 : ℝ) ^ p.logMlow ≤ (10 : ℝ) ^ p.logMhigh :=
      Real.rpow_le_rpow_of_exponent_le (by norm_num) (by linarith)
    rcases lt_or_gt_of_ne hf with hneg | hpos
    · apply div_nonneg_of_nonpos _ hneg.le
      have := Real.rpow_le_rpow_of_nonpos (pow10_pos p.logMlow) hLH hneg.le
      linarith
    · apply div_nonneg _ hpos.le
      have := Real.rpow_le_rpow (pow10_pos p.logMlow).le hLH hpos.le
      linarith

example : ∃ l, demoPL.draw 3 (fun _ => 1 / 2) = .ok l ∧ l.length = 3 := by
  obtain ⟨l, h1, h2⟩ := c19_draw_succeeds demoPL 3 (fun _ => 1 / 2)
    (nMean_nonneg demoPL (by norm_num [demoPL]))
  exact ⟨l, h1, by simpa [demoPL] using h2⟩

theorem integratePowerLaw_eq (norm L H n index : ℝ) (hL : 0 < L) (hH : 0 < H) :
    integratePowerLaw norm L H n index = ∫ m in L..H, norm * m ^ (n + index) := by
  have h0 : (0 : ℝ) ∉ Set.uIcc L H := by
    rw [Set.mem_uIcc]
    rintro (h | h) <;> linarith [h.1, h.2]
  unfold integratePowerLaw
  simp only
  rw [intervalIntegral.integral_const_mul]
  congr 1
  split_ifs with hf
  · have : n + index = -1 := by linarith
    rw [this]
    simp_rw [Real.rpow_neg_one]
    rw [integral_inv h0]
  · rw [integral_rpow (Or.inr ⟨fun hc => hf (by linarith), h0⟩)]
    rw [show n + index + 1 = n + 1 + index by ring]

/-- **C52.** The mean number of objects is the integral of the mass function over the mass range,
and the first moment is the integral of mass times mass function, for every slope (including the
ones where the antiderivative is a logarithm). -/
theorem c52_moments (p : PowerLaw) (h : p.logMlow < p.logMhigh) :
    p.nMean = (∫ m in (10 : ℝ) ^ p.logMlow..(10 : ℝ) ^ p.logMhigh, p.evaluate m) ∧
    p.firstMoment = ∫ m in (10 : ℝ) ^ p.logMlow..(10 : ℝ) ^ p.logMhigh, m * p.evaluate m := by
  have hL := pow10_pos p.logMlow
  have hH := pow10_pos p.logMhigh
  unfold PowerLaw.nMean PowerLaw.firstMoment
  rw [if_neg (not_le.2 h), if_neg (not_le.2 h), integratePowerLaw_eq _ _ _ _ _ hL hH,
    integratePowerLaw_eq _ _ _ _ _ hL hH]
  refine ⟨by simp [PowerLaw.evaluate], ?_⟩
  apply intervalIntegral.integral_congr
  intro m hm
  have hm0 : 0 < m := by
    have : (10 : ℝ) ^ p.logMlow ≤ (10 : ℝ) ^ p.logMhigh :=
      Real.rpow_le_rpow_of_exponent_le (by norm_num) h.le
    rw [Set.uIcc_of_le this] at hm
    exact lt_of_lt_of_le hL hm.1
  simp only [PowerLaw.evaluate]
  rw [Real.rpow_add hm0, Real.rpow_one]
  ring

example := c52_moments ⟨6, 9, -1.9, true, 10 ^ 8⟩ (by norm_num)

example : demoPL.logMlow < demoPL.logMhigh := by norm_num [demoPL]

/-- An empty or inverted mass range has mean and first moment zero. -/
theorem c52_moments_empty (p : PowerLaw) (h : p.logMhigh ≤ p.logMlow) :
    p.nMean = 0 ∧ p.firstMoment = 0 := by
  simp [PowerLaw.nMean, PowerLaw.firstMoment, h]

example := c52_moments_empty ⟨9, 9, -1.9, true, 10 ^ 8⟩ (by norm_num)

/-- **C53.** The drawn mass is the quantile of the mass function: the expected number of objects
below the mass that belongs to the variate `u` is the fraction `u` of the expected number of all
objects.  So uniform variates give masses distributed like the mass function. -/
theorem c53_quantile (p : PowerLaw) (h : p.logMlow < p.logMhigh) (u : ℝ) (h0 : 0 ≤ u) (h1 : u ≤ 1) :
    (∫ m in (10 : ℝ) ^ p.logMlow..p.invert u, p.evaluate m) = u * p.nMean := by
  obtain ⟨r1, r2⟩ := invert_range p h.le u h0 h1
  have hL := pow10_pos p.logMlow
  have hH := pow10_pos p.logMhigh
  have hX : 0 < p.invert u := lt_of_lt_of_le hL r1
  have e1 := integratePowerLaw_eq p.norm _ _ 0 p.index hL hX
  simp only [zero_add] at e1
  simp only [PowerLaw.evaluate]
  rw [← e1]
  unfold PowerLaw.nMean
  rw [if_neg (not_le.2 h)]
  unfold integratePowerLaw
  simp only [zero_add]
  have hLH : (10 : ℝ) ^ p.logMlow ≤ (10 : ℝ) ^ p.logMhigh :=
    Real.rpow_le_rpow_of_exponent_le (by norm_num) h.le
  by_cases hi : p.index = -1
  · have hc : 1 + p.index = 0 := by linarith
    rw [if_pos hc, if_pos hc]
    unfold PowerLaw.invert
    simp only [if_pos hi]
    rw [mul_div_cancel_left₀ _ hL.ne']
    rw [Real.log_exp]
    ring
  · have hc : 1 + p.index ≠ 0 := by intro hc; apply hi; linarith
    rw [if_neg hc, if_neg hc]
    have hy : p.invert u ^ (1 + p.index) = u * (((10 : ℝ) ^ p.logMhigh) ^ (1 + p.index)
        - ((10 : ℝ) ^ p.logMlow) ^ (1 + p.index)) + ((10 : ℝ) ^ p.logMlow) ^ (1 + p.index) := by
      unfold PowerLaw.invert
      simp only [if_neg hi]
      rw [← Real.rpow_mul, inv_mul_cancel₀ hc, Real.rpow_one]
      have a1 : 0 < ((10 : ℝ) ^ p.logMhigh) ^ (1 + p.index) := Real.rpow_pos_of_pos hH _
      have a2 : 0 < ((10 : ℝ) ^ p.logMlow) ^ (1 + p.index) := Real.rpow_pos_of_pos hL _
      nlinarith
    rw [hy]
    ring

example := c53_quantile ⟨6, 9, -1.9, true, 10 ^ 8⟩ (by norm_num) 0.5 (by norm_num) (by norm_num)

/-- Larger variates give larger masses. -/
theorem c53_monotone (p : PowerLaw) (h : p.logMlow < p.logMhigh) (hn : 0 < p.norm) (u v : ℝ)
    (h0 : 0 ≤ u) (huv : u < v) (h1 : v ≤ 1) : p.invert u < p.invert v := by
  by_contra hc
  push Not at hc
  have e1 := c53_quantile p h u h0 (by linarith)
  have e2 := c53_quantile p h v (by linarith) h1
  obtain ⟨r1, _⟩ := invert_range p h.le v (by linarith) h1
  obtain ⟨r2, _⟩ := invert_range p h.le u h0 (by linarith)
  have hL := pow10_pos p.logMlow
  have hpos : 0 < p.nMean := by
    rw [(c52_moments p h).1]
    have hlt : (10 : ℝ) ^ p.logMlow < (10 : ℝ) ^ p.logMhigh :=
      Real.rpow_lt_rpow_of_exponent_lt (by norm_num) h
    apply intervalIntegral.intervalIntegral_pos_of_pos_on _ _ hlt
    · apply ContinuousOn.intervalIntegrable
      intro x hx
      rw [Set.uIcc_of_le hlt.le] at hx
      have hx0 : x ≠ 0 := (lt_of_lt_of_le hL hx.1).ne'
      exact ((Real.continuousAt_rpow_const x _ (Or.inl hx0)).continuousWithinAt).const_mul _ |>.congr
        (fun _ _ => rfl) rfl
    · intro x hx
      exact mul_pos hn (Real.rpow_pos_of_pos (hL.trans hx.1) _)
  have hsub : (∫ m in (10 : ℝ) ^ p.logMlow..p.invert v, p.evaluate m)
      ≤ ∫ m in (10 : ℝ) ^ p.logMlow..p.invert u, p.evaluate m := by
    have hint : ∀ a b : ℝ, 0 < a → 0 < b → IntervalIntegrable p.evaluate MeasureTheory.volume a b := by
      intro a b ha hb
      apply ContinuousOn.intervalIntegrable
      intro x hx
      have hx0 : x ≠ 0 := by
        rintro rfl
        rw [Set.mem_uIcc] at hx
        rcases hx with hx | hx <;> linarith [hx.1, hx.2]
      exact ((Real.continuousAt_rpow_const x _ (Or.inl hx0)).continuousWithinAt).const_mul _ |>.congr
        (fun _ _ => rfl) rfl
    have hv : 0 < p.invert v := lt_of_lt_of_le hL r1
    have hu : 0 < p.invert u := lt_of_lt_of_le hL r2
    rw [← intervalIntegral.integral_add_adjacent_intervals (hint _ _ hL hv) (hint _ _ hv hu)]
    have : 0 ≤ ∫ m in p.invert v..p.invert u, p.evaluate m := by
      apply intervalIntegral.integral_nonneg hc
      intro x hx
      exact (mul_pos hn (Real.rpow_pos_of_pos (lt_of_lt_of_le hv hx.1) _)).le
    linarith
  rw [e1, e2] at hsub
  nlinarith

example := c53_monotone ⟨6, 9, -1.9, true, 10 ^ 8⟩ (by norm_num) (by norm_num) 0.2 0.7 (by norm_num) (by norm_num) (by norm_num)

example : demoPL.logMlow < demoPL.logMhigh ∧ 0 < demoPL.norm := by norm_num [demoPL]

/-- **C54.** Without Poisson noise the number of drawn objects is within one half of the expected
number. -/
theorem c54_count_near_mean (p : PowerLaw) (k : ℕ) (u : ℕ → ℝ) (l : List ℝ)
    (hp : p.drawPoisson = false) (h : p.draw k u = .ok l) : |(l.length : ℝ) - p.nMean| ≤ 1 / 2 := by
  obtain ⟨h1, _⟩ := draw_length p k u l h
  unfold PowerLaw.ndraw at h1
  simp only [hp, Bool.false_eq_true, if_false] at h1
  split at h1
  · cases h1
  · rename_i hneg
    have h1 : (rint p.nMean).toNat = l.length := by injection h1
    have : ((rint p.nMean).toNat : ℤ) = rint p.nMean := Int.toNat_of_nonneg (by omega)
    have h2 : (l.length : ℝ) = (rint p.nMean : ℝ) := by
      rw [← h1]
      exact_mod_cast this
    rw [h2]
    exact abs_rint_sub _

example : ∃ l, (PowerLaw.mk 6 9 (-1.9) false (10 ^ 8)).draw 0 (fun _ => 0) = .ok l := by
  obtain ⟨l, h, _⟩ := c19_draw_succeeds (PowerLaw.mk 6 9 (-1.9) false (10 ^ 8)) 0 (fun _ => 0)
    (nMean_nonneg _ (by norm_num))
  exact ⟨l, h⟩

/-! ### Suppression -/

/-- **C20.** The warm dark matter suppression factor lies in (0, 1] for the documented signs of its
parameters. -/
theorem c20_wdm_factor (logMc a b c m : ℝ) (ha : 0 ≤ a) (hc : c ≤ 0) (hm : 0 < m) :
    0 < turnoverWDM logMc a b c m ∧ turnoverWDM logMc a b c m ≤ 1 := by
  have h1 : 0 ≤ a * ((10 : ℝ) ^ logMc / m) ^ b :=
    mul_nonneg ha (Real.rpow_nonneg (div_nonneg (pow10_pos _).le hm.le) _)
  unfold turnoverWDM
  refine ⟨Real.rpow_pos_of_pos (by linarith) _, ?_⟩
  exact Real.rpow_le_one_of_one_le_of_nonpos (by linarith) hc

example := c20_wdm_factor 8 2.3 0.8 (-1) (10 ^ 7) (by norm_num) (by norm_num) (by norm_num)

/-- **C20.** The mixed dark matter suppression factor lies between the square of the cold fraction
and 1. -/
theorem c20_mixed_factor (logMc a b c f m : ℝ) (ha : 0 ≤ a) (hc : c ≤ 0) (hm : 0 < m)
    (hf0 : 0 ≤ f) (hf1 : f ≤ 1) :
    f ^ 2 ≤ turnoverMixed logMc a b c f m ∧ turnoverMixed logMc a b c f m ≤ 1 := by
  obtain ⟨h1, h2⟩ := c20_wdm_factor logMc a b c m ha hc hm
  have s1 : Real.sqrt ((1 + a * ((10 : ℝ) ^ logMc / m) ^ b) ^ c) ≤ 1 := by
    rw [Real.sqrt_le_one]; exact h2
  have s0 := Real.sqrt_nonneg ((1 + a * ((10 : ℝ) ^ logMc / m) ^ b) ^ c)
  unfold turnoverMixed
  generalize Real.sqrt ((1 + a * ((10 : ℝ) ^ logMc / m) ^ b) ^ c) = s at *
  constructor
  · have : f ≤ f + (1 - f) * s := by nlinarith
    nlinarith
  · have : f + (1 - f) * s ≤ 1 := by nlinarith
    have : 0 ≤ f + (1 - f) * s := by nlinarith
    nlinarith

example := c20_mixed_factor 8 2.3 0.8 (-1) 0.4 (10 ^ 7) (by norm_num) (by norm_num) (by norm_num) (by norm_num) (by norm_num)

example : (0 : ℝ) ≤ 2.3 ∧ (-2.6 : ℝ) ≤ 0 ∧ (0 : ℝ) < 10 ^ 7 ∧ (0 : ℝ) ≤ 0.3 ∧ (0.3 : ℝ) ≤ 1 := by
  norm_num

/-- A pure cold component is not suppressed; no cold component is the warm case. -/
theorem c20_mixed_limits (logMc a b c m : ℝ) (ha : 0 ≤ a) (hm : 0 < m) :
    turnoverMixed logMc a b c 1 m = 1 ∧ turnoverMixed logMc a b c 0 m = turnoverWDM logMc a b c m := by
  have h1 : 0 ≤ a * ((10 : ℝ) ^ logMc / m) ^ b :=
    mul_nonneg ha (Real.rpow_nonneg (div_nonneg (pow10_pos _).le hm.le) _)
  refine ⟨by simp [turnoverMixed], ?_⟩
  simp only [turnoverMixed, turnoverWDM, zero_add, sub_zero, one_mul]
  exact Real.sq_sqrt (Real.rpow_nonneg (by linarith) _)

example := c20_mixed_limits 8 2.3 0.8 (-1) (10 ^ 7) (by norm_num) (by norm_num)

/-- The suppression is stronger at lower masses. -/
theorem c20_wdm_monotone (logMc a b c m m' : ℝ) (ha : 0 ≤ a) (hb : 0 ≤ b) (hc : c ≤ 0) (hm : 0 < m)
    (hmm : m ≤ m') : turnoverWDM logMc a b c m ≤ turnoverWDM logMc a b c m' := by
  have hm' : 0 < m' := by linarith
  have h1 : ∀ x : ℝ, 0 < x → 0 ≤ a * ((10 : ℝ) ^ logMc / x) ^ b := fun x hx =>
    mul_nonneg ha (Real.rpow_nonneg (div_nonneg (pow10_pos _).le hx.le) _)
  unfold turnoverWDM
  apply Real.rpow_le_rpow_of_nonpos (by linarith [h1 m' hm']) _ hc
  have : ((10 : ℝ) ^ logMc / m') ^ b ≤ ((10 : ℝ) ^ logMc / m) ^ b := by
    apply Real.rpow_le_rpow (div_nonneg (pow10_pos _).le hm'.le) _ hb
    exact div_le_div_of_nonneg_left (pow10_pos _).le hm hmm
  nlinarith

example := c20_wdm_monotone 8 2.3 0.8 (-1) (10 ^ 7) (10 ^ 8) (by norm_num) (by norm_num) (by norm_num) (by norm_num) (by norm_num)

theorem zipWith_range_filter (m : List ℝ) (v : ℕ → ℝ) (t : ℝ → ℝ) :
    Np.gather m (Np.whereTrue (List.zipWith (fun a f => decide (a < f))
      ((List.range m.length).map v) (m.map t)))
      = .ok ((m.zipIdx.filter fun p => decide (v p.2 < t p.1)).map Prod.fst) := by
  have h1 : List.zipWith (fun a f => decide (a < f)) ((List.range m.length).map v) (m.map t)
      = m.zipIdx.map fun p => decide (v p.2 < t p.1) := by
    apply List.ext_getElem?
    intro i
    simp only [List.getElem?_zipWith, List.getElem?_map, List.getElem?_zipIdx]
    by_cases hi : i < m.length
    · simp [hi]
    · simp [hi]
  have h2 : m = m.zipIdx.map Prod.fst := by simp
  rw [h1]
  conv_lhs => rw [h2]
  have := Np.gather_whereTrue (α := ℝ × ℕ) (β := ℝ) Prod.fst (fun p => decide (v p.2 < t p.1)) m.zipIdx
  simpa using this

/-- **C20, the draws.** A suppressed mass function returns exactly those unsuppressed draws whose
second variate is below the suppression factor of their mass, in their order, with their masses. -/
theorem c20_suppressed_draws (p : PowerLaw) (t : ℝ → ℝ) (k : ℕ) (u v : ℕ → ℝ) (l : List ℝ)
    (h : p.draw k u = .ok l) :
    drawSuppressed p t k u v
      = .ok ((l.zipIdx.filter fun q => decide (v q.2 < t q.1)).map Prod.fst) := by
  unfold drawSuppressed
  rw [h]
  simp only [bind, Except.bind]
  by_cases hl : l.length = 0
  · have : l = [] := List.eq_nil_of_length_eq_zero hl
    subst this
    simp [pure, Except.pure]
  · rw [if_neg hl]
    exact zipWith_range_filter l v t

/-- **C20.** The suppressed draws are a sub-sequence of the unsuppressed ones. -/
theorem c20_only_removes (p : PowerLaw) (t : ℝ → ℝ) (k : ℕ) (u v : ℕ → ℝ) (l s : List ℝ)
    (h : p.draw k u = .ok l) (hs : drawSuppressed p t k u v = .ok s) : List.Sublist s l := by
  rw [c20_suppressed_draws p t k u v l h] at hs
  injection hs with hs
  rw [← hs]
  have : List.Sublist ((l.zipIdx.filter fun q => decide (v q.2 < t q.1)).map Prod.fst)
      (l.zipIdx.map Prod.fst) := List.filter_sublist.map _
  simpa using this

/-- With the same random numbers, a stronger suppression keeps a sub-sequence of what a weaker one
keeps. -/
theorem c20_stronger_suppression (p : PowerLaw) (t t' : ℝ → ℝ) (k : ℕ) (u v : ℕ → ℝ)
    (l s s' : List ℝ) (h : p.draw k u = .ok l) (ht : ∀ m ∈ l, t m ≤ t' m)
    (hs : drawSuppressed p t k u v = .ok s) (hs' : drawSuppressed p t' k u v = .ok s') :
    List.Sublist s s' := by
  rw [c20_suppressed_draws p t k u v l h] at hs
  rw [c20_suppressed_draws p t' k u v l h] at hs'
  injection hs with hs
  injection hs' with hs'
  rw [← hs, ← hs']
  apply List.Sublist.map
  have : (l.zipIdx.filter fun q => decide (v q.2 < t q.1))
      = ((l.zipIdx.filter fun q => decide (v q.2 < t' q.1)).filter
          fun q => decide (v q.2 < t q.1)) := by
    rw [List.filter_filter]
    apply List.filter_congr
    intro q hq
    have hm := ht q.1 (List.fst_mem_of_mem_zipIdx hq)
    by_cases hv : v q.2 < t q.1
    · simp [hv, lt_of_lt_of_le hv hm]
    · simp [hv]
  rw [this]
  exact List.filter_sublist

/-- No suppression (factor 1) removes nothing, since variates are below 1. -/
theorem c20_no_suppression (p : PowerLaw) (k : ℕ) (u v : ℕ → ℝ) (l : List ℝ) (hv : ∀ i, v i < 1)
    (h : p.draw k u = .ok l) : drawSuppressed p (fun _ => 1) k u v = .ok l := by
  rw [c20_suppressed_draws p _ k u v l h]
  congr 1
  rw [List.filter_eq_self.2]
  · simp
  · intro q _
    simpa using hv q.2

example : ∃ l s, demoPL.draw 3 (fun _ => 1 / 2) = .ok l ∧
    drawSuppressed demoPL (fun _ => 1 / 2) 3 (fun _ => 1 / 2) (fun i => if i = 0 then 0 else 0.9) = .ok s ∧
    s.length = 1 := by
  obtain ⟨l, h1, h2⟩ := c19_draw_succeeds demoPL 3 (fun _ => 1 / 2)
    (nMean_nonneg demoPL (by norm_num [demoPL]))
  have h2 : l.length = 3 := by simpa [demoPL] using h2
  refine ⟨l, _, h1, c20_suppressed_draws demoPL _ 3 _ _ l h1, ?_⟩
  match l, h2 with
  | [a, b, c], _ => norm_num [List.zipIdx, List.filter]

/-- **C59.** The mass scale returned for a suppression level `frac` is the mass at which the
suppression `(1 + (a/m)^b)^c` equals `frac`. -/
theorem c59_suppression_scale (a b c frac : ℝ) (ha : 0 < a) (hb : 0 < b) (hc : c < 0)
    (h0 : 0 < frac) (h1 : frac < 1) :
    ∃ m, suppMscale a b c frac = some m ∧ 0 < m ∧ (1 + (a / m) ^ b) ^ c = frac := by
  have hg : 1 < frac ^ (1 / c) :=
    Real.one_lt_rpow_of_pos_of_lt_one_of_neg h0 h1 (by rw [one_div]; exact inv_lt_zero.2 hc)
  have hg' : 0 < frac ^ (1 / c) - 1 := by linarith
  have hp : 0 < (frac ^ (1 / c) - 1) ^ (1 / b) := Real.rpow_pos_of_pos hg' _
  refine ⟨a / (frac ^ (1 / c) - 1) ^ (1 / b), ?_, div_pos ha hp, ?_⟩
  · unfold suppMscale
    rw [if_neg]
    push Not
    exact ⟨ha.le, hb.le, hc.le⟩
  · rw [div_div_cancel₀ ha.ne', ← Real.rpow_mul hg'.le, one_div_mul_cancel hb.ne', Real.rpow_one,
      add_sub_cancel, ← Real.rpow_mul h0.le, one_div_mul_cancel hc.ne, Real.rpow_one]

example := c59_suppression_scale 2.3 0.8 (-1) 0.3 (by norm_num) (by norm_num) (by norm_num) (by norm_num) (by norm_num)

example : (0 : ℝ) < 0.3 ∧ (0 : ℝ) < 2 ∧ (-1 : ℝ) < 0 ∧ (0 : ℝ) < 0.5 ∧ (0.5 : ℝ) < 1 := by norm_num

end PyHalo.Props
