import Verif.Model.Host
import Verif.Model.Uldm
import Verif.Props.LensCosmo
import Mathlib.MeasureTheory.Integral.IntervalIntegral.Basic
import Mathlib.Analysis.SpecialFunctions.Integrals.Basic

/-!
# C107: fluctuations and velocity dispersion of the host halo
-/

namespace PyHalo.Props

open PyHalo Host LensCosmo MeasureTheory

/-- The integral along the whole line of sight at projected radius `R` of the square of a spherical density that ends at `rmax`. -/
noncomputable def Spec107.column (ρ : ℝ → ℝ) (rmax R : ℝ) : ℝ :=
  ∫ z : ℝ, if Real.sqrt (R ^ 2 + z ^ 2) ≤ rmax then ρ (Real.sqrt (R ^ 2 + z ^ 2)) ^ 2 else 0

theorem los_continuous (rhos rs R : ℝ) (hs : 0 < rs) (hR : 0 < R) :
    Continuous fun z : ℝ => nfwDensity rhos rs (Real.sqrt (R ^ 2 + z ^ 2)) ^ 2 := by
  unfold nfwDensity
  apply Continuous.pow
  apply Continuous.div continuous_const (by fun_prop)
  intro z
  have : 0 < Real.sqrt (R ^ 2 + z ^ 2) := Real.sqrt_pos.2 (by positivity)
  positivity

theorem column_eq (rhos rs R rmax : ℝ) (hs : 0 < rs) (hR : 0 < R) (hr : R ≤ rmax) :
    Spec107.column (nfwDensity rhos rs) rmax R =
      2 * ∫ z in (0 : ℝ)..Real.sqrt (rmax ^ 2 - R ^ 2), nfwDensity rhos rs (Real.sqrt (R ^ 2 + z ^ 2)) ^ 2 := by
  set Z := Real.sqrt (rmax ^ 2 - R ^ 2) with hZ
  have hZ0 : 0 ≤ Z := Real.sqrt_nonneg _
  have hZ2 : Z ^ 2 = rmax ^ 2 - R ^ 2 := Real.sq_sqrt (by nlinarith)
  have hc := los_continuous rhos rs R hs hR
  set f := fun z : ℝ => nfwDensity rhos rs (Real.sqrt (R ^ 2 + z ^ 2)) ^ 2 with hf
  have e : (fun z : ℝ => if Real.sqrt (R ^ 2 + z ^ 2) ≤ rmax then nfwDensity rhos rs (Real.sqrt (R ^ 2 + z ^ 2)) ^ 2 else 0) =
      Set.indicator (Set.Icc (-Z) Z) f := by
    funext z
    have : Real.sqrt (R ^ 2 + z ^ 2) ≤ rmax ↔ z ∈ Set.Icc (-Z) Z := by
      rw [Real.sqrt_le_left (by linarith), Set.mem_Icc, ← abs_le]
      constructor
      · intro h; exact abs_le_of_sq_le_sq (by nlinarith) hZ0
      · intro h
        have := sq_abs z
        have h0 := abs_nonneg z
        nlinarith
    rw [Set.indicator_apply]
    simp only [this, hf]
  unfold Spec107.column
  rw [e, integral_indicator measurableSet_Icc, integral_Icc_eq_integral_Ioc, ← intervalIntegral.integral_of_le (by linarith),
    ← intervalIntegral.integral_add_adjacent_intervals (hc.intervalIntegrable (-Z) 0) (hc.intervalIntegrable 0 Z)]
  have : ∫ z in -Z..0, f z = ∫ z in 0..Z, f z := by
    have h1 := intervalIntegral.integral_comp_neg (a := 0) (b := Z) f
    rw [neg_zero] at h1
    rw [← h1]
    apply intervalIntegral.integral_congr
    intro z _
    simp [hf]
  rw [this]; ring

/-- **C107**. The projected squared density is the integral along the line of sight of the square of the NFW density inside of
`c rs`. -/
theorem c107_line_of_sight (rhos rs c R : ℝ) (hs : 0 < rs) (hR : 0 < R) (hr : R ≤ c * rs) :
    projectedDensitySquared R rhos rs c = Spec107.column (nfwDensity rhos rs) (c * rs) R := by
  rw [column_eq rhos rs R (c * rs) hs hR hr]
  simp only [projectedDensitySquared, nfwDensity, div_pow]

/-- **C107**. It decreases with projected radius. -/
theorem c107_decreasing (rhos rs c R₁ R₂ : ℝ) (hs : 0 < rs) (h1 : 0 < R₁) (h12 : R₁ ≤ R₂) :
    projectedDensitySquared R₂ rhos rs c ≤ projectedDensitySquared R₁ rhos rs c := by
  have e : ∀ R, projectedDensitySquared R rhos rs c =
      2 * ∫ z in (0 : ℝ)..Real.sqrt ((c * rs) ^ 2 - R ^ 2), nfwDensity rhos rs (Real.sqrt (R ^ 2 + z ^ 2)) ^ 2 := by
    intro R; simp only [projectedDensitySquared, nfwDensity, div_pow]
  rw [e, e]
  have c1 := los_continuous rhos rs R₁ hs h1
  have c2 := los_continuous rhos rs R₂ hs (by linarith)
  have hz : Real.sqrt ((c * rs) ^ 2 - R₂ ^ 2) ≤ Real.sqrt ((c * rs) ^ 2 - R₁ ^ 2) := Real.sqrt_le_sqrt (by nlinarith)
  have i1 : ∫ z in (0 : ℝ)..Real.sqrt ((c * rs) ^ 2 - R₂ ^ 2), nfwDensity rhos rs (Real.sqrt (R₂ ^ 2 + z ^ 2)) ^ 2 ≤
      ∫ z in (0 : ℝ)..Real.sqrt ((c * rs) ^ 2 - R₂ ^ 2), nfwDensity rhos rs (Real.sqrt (R₁ ^ 2 + z ^ 2)) ^ 2 := by
    apply intervalIntegral.integral_mono_on (Real.sqrt_nonneg _) (c2.intervalIntegrable _ _) (c1.intervalIntegrable _ _)
    intro z _
    have q1 : 0 < Real.sqrt (R₁ ^ 2 + z ^ 2) := Real.sqrt_pos.2 (by positivity)
    have q : Real.sqrt (R₁ ^ 2 + z ^ 2) ≤ Real.sqrt (R₂ ^ 2 + z ^ 2) := Real.sqrt_le_sqrt (by nlinarith)
    have q3 : Real.sqrt (R₁ ^ 2 + z ^ 2) / rs ≤ Real.sqrt (R₂ ^ 2 + z ^ 2) / rs := by gcongr
    have q4 : 0 < Real.sqrt (R₁ ^ 2 + z ^ 2) / rs := by positivity
    unfold nfwDensity
    rw [div_pow, div_pow]
    apply div_le_div_of_nonneg_left (sq_nonneg _) (by positivity)
    gcongr
  have i2 : ∫ z in (0 : ℝ)..Real.sqrt ((c * rs) ^ 2 - R₂ ^ 2), nfwDensity rhos rs (Real.sqrt (R₁ ^ 2 + z ^ 2)) ^ 2 ≤
      ∫ z in (0 : ℝ)..Real.sqrt ((c * rs) ^ 2 - R₁ ^ 2), nfwDensity rhos rs (Real.sqrt (R₁ ^ 2 + z ^ 2)) ^ 2 := by
    apply intervalIntegral.integral_mono_interval le_rfl (Real.sqrt_nonneg _) hz
    · exact Filter.Eventually.of_forall fun z => sq_nonneg _
    · exact c1.intervalIntegrable _ _
  linarith

/-- **C107**. The amplitude of the fluctuations for a host of mass `m`: there is an NFW profile of mass `m` inside of `r200`, the radius
with mean density 200 times critical, such that the square of `delta_sigma` is the square root of π times the wavelength times the squared
density along the line of sight inside of `r200`; `delta_kappa` is `delta_sigma` over the critical surface density (in solar masses per
square kiloparsec). Radii in kpc. -/
theorem c107_amplitude (e : Env) (conc : ℝ → ℝ → ℝ) (m z : ℝ) (hm : 0 < m) (hc : 0 < conc m z) (hh : 0 < e.h) (hr : 0 < e.rhoc z) :
    ∃ rhos rs r200 : ℝ, 0 < rhos ∧ 0 < rs ∧ r200 = conc m z * rs ∧ sphereMass (nfwDensity rhos rs) r200 = m ∧
      m = 200 * (e.rhoc z * e.h ^ 2 / 1000 ^ 3) * (4 / 3 * Real.pi * r200 ^ 3) ∧
      ∀ R lambda, 0 < R → R ≤ r200 → 0 ≤ lambda →
        ∃ ds, deltaSigma e conc m z R lambda = .ok ds ∧ 0 ≤ ds ∧
          ds ^ 2 = Real.sqrt Real.pi * lambda * Spec107.column (nfwDensity rhos rs) r200 R ∧
          ∀ zs, deltaKappa e conc z zs m R lambda = .ok (ds / (sigmaCrit e z zs / 10 ^ 6)) := by
  obtain ⟨rho0, rs, r200, h1, hp, hs, hrc, hmean, hM⟩ := c25_nfw_mass e m (conc m z) z hm hc hh hr false
  have hrs : 0 < r200 := by rw [← hrc]; positivity
  refine ⟨rho0 * ((1000 : ℝ) ^ 3)⁻¹, rs * 1000, r200 * 1000, by positivity, by positivity, by rw [← hrc]; ring, ?_, ?_, ?_⟩
  · simp only [Bool.false_eq_true, if_false] at hM
    rw [nfw_sphereMass _ _ _ hs hrs.le] at hM
    rw [nfw_sphereMass _ _ _ (by positivity) (by positivity), ← hM, mul_div_mul_right _ _ (by norm_num : (1000 : ℝ) ≠ 0)]
    ring
  · rw [hmean]; ring
  · intro R lambda hR hR2 hl
    have hcol := c107_line_of_sight (rho0 * ((1000 : ℝ) ^ 3)⁻¹) (rs * 1000) (conc m z) R (by positivity) hR (by rw [← hrc] at hR2; linarith)
    have e0 : deltaSigma e conc m z R lambda = .ok ((Real.sqrt Real.pi * projectedDensitySquared R (rho0 * ((1000 : ℝ) ^ 3)⁻¹) (rs * 1000) (conc m z)
        * lambda) ^ (0.5 : ℝ)) := by
      unfold deltaSigma nfwParamKpc
      simp only [h1, bind, Except.bind, pure, Except.pure]
    have hcol0 : 0 ≤ projectedDensitySquared R (rho0 * ((1000 : ℝ) ^ 3)⁻¹) (rs * 1000) (conc m z) := by
      rw [hcol]
      apply integral_nonneg
      intro z
      simp only
      split
      · positivity
      · simp
    refine ⟨_, e0, by positivity, ?_, ?_⟩
    · rw [← Real.rpow_natCast, ← Real.rpow_mul (by positivity), hcol, show conc m z * (rs * 1000) = r200 * 1000 by rw [← hrc]; ring]
      norm_num
      ring
    · intro zs
      unfold deltaKappa
      simp only [e0, bind, Except.bind, pure, Except.pure]
      norm_num
      ring_nf

/-- **C107**. The amplitude falls with the square root of the particle's mass and of its velocity: for the wavelength of a particle of
mass `10 ^ l` at speed `v`, one that is `a` decades heavier has an amplitude smaller by `10 ^ (a / 2)`. -/
theorem c107_particle_mass (e : Env) (conc : ℝ → ℝ → ℝ) (m z R l v a b : ℝ) (ha : 0 < a) (hb : 0 < b) (hv : 0 < v) (ds : ℝ) (hR : 0 < R)
    (hm : 0 < m) (hc : 0 < conc m z) (hh : 0 < e.h) (hr : 0 < e.rhoc z)
    (h : deltaSigma e conc m z R (Uldm.deBroglie l v) = .ok ds) :
    deltaSigma e conc m z R (Uldm.deBroglie (l + Real.logb 10 a) (b * v)) = .ok (ds / Real.sqrt (a * b)) := by
  obtain ⟨rho0, rs, r200, h1, hp, hs, hrc, -, -⟩ := c25_nfw_mass e m (conc m z) z hm hc hh hr false
  have hw : Uldm.deBroglie (l + Real.logb 10 a) (b * v) = Uldm.deBroglie l v / (a * b) := by
    unfold Uldm.deBroglie
    rw [Real.rpow_add (by norm_num), Real.rpow_logb (by norm_num) (by norm_num) ha]
    have : (0 : ℝ) < 10 ^ l := Real.rpow_pos_of_pos (by norm_num) _
    field_simp
  have hp0 : 0 ≤ projectedDensitySquared R (rho0 * ((1000 : ℝ) ^ 3)⁻¹) (rs * 1000) (conc m z) := by
    unfold projectedDensitySquared
    simp only
    apply mul_nonneg (by norm_num)
    apply intervalIntegral.integral_nonneg (Real.sqrt_nonneg _)
    intro z _
    positivity
  have hl0 : 0 < Uldm.deBroglie l v := by
    unfold Uldm.deBroglie
    have : (0 : ℝ) < 10 ^ l := Real.rpow_pos_of_pos (by norm_num) _
    positivity
  unfold deltaSigma nfwParamKpc at h ⊢
  simp only [h1, bind, Except.bind, pure, Except.pure] at h ⊢
  cases h
  rw [hw, ← mul_div_assoc, Real.div_rpow (by positivity) (by positivity), Real.sqrt_eq_rpow (a * b)]
  norm_num

/-- **C107**. The velocity dispersion solves the equation of Jeans with zero pressure at `c rs`, up to the error of the quadrature rule:
the density times the squared dispersion at `x rs` is the integral from there to `c rs` of the density times `G M(r) / r²`. -/
theorem c107_jeans (simps : List ℝ → List ℝ → ℝ) (rhos rs c x ε : ℝ) (hρ : 0 < rhos) (hs : 0 < rs) (hx : 0 < x) (hxc : x ≤ c)
    (hpos : 0 ≤ simps ((Np.linspace x c 150).map fun u => (Real.log (1 + u) - u / (1 + u)) / (u * (1 + u) ^ 2) / u ^ 2) (Np.linspace x c 150))
    (hε : |simps ((Np.linspace x c 150).map fun u => (Real.log (1 + u) - u / (1 + u)) / (u * (1 + u) ^ 2) / u ^ 2) (Np.linspace x c 150) -
      ∫ u in x..c, (Real.log (1 + u) - u / (1 + u)) / (u * (1 + u) ^ 2) / u ^ 2| ≤ ε) :
    |nfwDensity rhos rs (x * rs) * nfwVelocityDispersion simps rhos rs c x ^ 2 -
      ∫ r in (x * rs)..(c * rs), nfwDensity rhos rs r * (4.3e-6 * sphereMass (nfwDensity rhos rs) r / r ^ 2)| ≤
      4 * Real.pi * 4.3e-6 * rhos ^ 2 * rs ^ 2 * ε := by
  set K := simps ((Np.linspace x c 150).map fun u => (Real.log (1 + u) - u / (1 + u)) / (u * (1 + u) ^ 2) / u ^ 2) (Np.linspace x c 150) with hK
  have hd : nfwDensity rhos rs (x * rs) = rhos / (x * (1 + x) ^ 2) := by
    unfold nfwDensity; rw [mul_div_cancel_right₀ _ hs.ne']
  have hd0 : 0 < rhos / (x * (1 + x) ^ 2) := by positivity
  have h1 : nfwVelocityDispersion simps rhos rs c x ^ 2 = 4 * Real.pi * 4.3e-6 * rhos ^ 2 * rs ^ 2 * K / (rhos / (x * (1 + x) ^ 2)) := by
    unfold nfwVelocityDispersion
    simp only [← hK]
    exact Real.sq_sqrt (by positivity)
  have h2 : ∫ r in (x * rs)..(c * rs), nfwDensity rhos rs r * (4.3e-6 * sphereMass (nfwDensity rhos rs) r / r ^ 2) =
      4 * Real.pi * 4.3e-6 * rhos ^ 2 * rs ^ 2 * ∫ u in x..c, (Real.log (1 + u) - u / (1 + u)) / (u * (1 + u) ^ 2) / u ^ 2 := by
    have h3 := intervalIntegral.smul_integral_comp_mul_right
      (a := x) (b := c) (fun r => nfwDensity rhos rs r * (4.3e-6 * sphereMass (nfwDensity rhos rs) r / r ^ 2)) rs
    rw [← h3, smul_eq_mul, ← intervalIntegral.integral_const_mul, ← intervalIntegral.integral_const_mul]
    apply intervalIntegral.integral_congr
    intro u hu
    rw [Set.uIcc_of_le hxc, Set.mem_Icc] at hu
    have hu0 : 0 < u := by linarith [hu.1]
    simp only
    rw [nfw_sphereMass _ _ _ hs (by positivity)]
    unfold nfwDensity
    rw [mul_div_cancel_right₀ _ hs.ne']
    field_simp
  rw [h1, h2, hd, mul_div_cancel₀ _ hd0.ne', ← mul_sub, abs_mul, abs_of_nonneg (by positivity)]
  gcongr

/-! ### Concrete cases -/

example := c107_line_of_sight 3e6 25 8 6 (by norm_num) (by norm_num) (by norm_num)

example := c107_decreasing 3e6 25 8 6 12 (by norm_num) (by norm_num) (by norm_num)

example := c107_amplitude demoEnv (fun _ _ => 8) 1e13 0.5 (by norm_num) (by norm_num) (by norm_num [demoEnv]) (by norm_num [demoEnv])

example (ds : ℝ) (h : deltaSigma demoEnv (fun _ _ => 8) 1e13 0.5 6 (Uldm.deBroglie (-22) 200) = .ok ds) :
    deltaSigma demoEnv (fun _ _ => 8) 1e13 0.5 6 (Uldm.deBroglie (-22 + Real.logb 10 100) (1 * 200)) = .ok (ds / Real.sqrt (100 * 1)) :=
  c107_particle_mass demoEnv (fun _ _ => 8) 1e13 0.5 6 (-22) 200 100 1 (by norm_num) (by norm_num) (by norm_num) ds (by norm_num) (by norm_num)
    (by norm_num) (by norm_num [demoEnv]) (by norm_num [demoEnv]) h

/-- The amplitude of the last example exists. -/
example : ∃ ds, deltaSigma demoEnv (fun _ _ => 8) 1e13 0.5 6 (Uldm.deBroglie (-22) 200) = .ok ds := by
  simp [deltaSigma, nfwParamKpc, nfwParam, bind, Except.bind, pure, Except.pure]

/-- A rectangle rule from one to five scale radii. -/
example := c107_jeans (fun y _ => 4 / 150 * y.sum) 3e6 25 5 1 _ (by norm_num) (by norm_num) (by norm_num) (by norm_num)
  (by
    apply mul_nonneg (by norm_num)
    apply List.sum_nonneg
    intro v hv
    obtain ⟨u, hu, rfl⟩ := List.mem_map.1 hv
    obtain ⟨i, -, rfl⟩ := List.mem_map.1 hu
    simp only [show ¬ (150 = 1) by norm_num, if_false]
    have hu0 : (0 : ℝ) < 1 + i * ((5 - 1) / ((150 : ℕ) - 1)) := by norm_num; positivity
    have := nfw_factor_pos _ hu0
    positivity) le_rfl

end PyHalo.Props
