import Verif.Model.Uldm
import Verif.Props.Profiles
import Verif.Props.PresetRequests
import Mathlib.Analysis.SpecialFunctions.ImproperIntegrals
import Mathlib.MeasureTheory.Integral.IntegralEqImproper
import Mathlib.Analysis.SpecialFunctions.Log.Deriv
import Mathlib.Analysis.SpecialFunctions.Trigonometric.Bounds
import Mathlib.Analysis.Complex.ExponentialBounds
import Mathlib.Analysis.Real.Pi.Bounds

/-!
# Ultra-light dark matter (C84, C85, C86)
-/

namespace PyHalo.Props
open Uldm LensCosmo

/-! ## The column density of a soliton -/

section Soliton
open MeasureTheory Filter Topology

theorem integrable_pow_inv (n : ℕ) : Integrable (fun x : ℝ => ((1 + x ^ 2) ^ (n + 1))⁻¹) := by
  refine Integrable.mono' integrable_inv_one_add_sq ?_ ?_
  · apply Continuous.aestronglyMeasurable
    apply Continuous.inv₀ (by fun_prop)
    intro x; positivity
  · refine ae_of_all _ fun x => ?_
    rw [Real.norm_eq_abs, abs_of_nonneg (by positivity)]
    apply inv_anti₀ (by positivity)
    have : (1:ℝ) ≤ 1 + x ^ 2 := by nlinarith [sq_nonneg x]
    calc 1 + x^2 = (1+x^2)^1 := (pow_one _).symm
      _ ≤ _ := pow_le_pow_right₀ this (by omega)

theorem tendsto_bound (n : ℕ) (l : Filter ℝ) (hl : Tendsto (fun x : ℝ => x⁻¹) l (𝓝 0)) :
    Tendsto (fun x : ℝ => x * ((1 + x ^ 2) ^ (n + 1))⁻¹) l (𝓝 0) := by
  rw [tendsto_zero_iff_abs_tendsto_zero] at hl ⊢
  refine squeeze_zero (fun x => abs_nonneg _) (fun x => ?_) hl
  simp only [Function.comp]
  rw [abs_mul, abs_inv, abs_inv, abs_of_pos (show (0:ℝ) < (1 + x ^ 2) ^ (n + 1) by positivity)]
  rcases eq_or_ne x 0 with rfl | hx
  · simp
  have h1 : (1:ℝ) ≤ 1 + x ^ 2 := by nlinarith [sq_nonneg x]
  have h2 : 1 + x^2 ≤ (1 + x ^ 2) ^ (n + 1) := by
    calc 1 + x^2 = (1+x^2)^1 := (pow_one _).symm
      _ ≤ _ := pow_le_pow_right₀ h1 (by omega)
  have h3 : |x| * |x| ≤ (1 + x ^ 2) ^ (n + 1) := by
    rw [← abs_mul, abs_mul_self]; nlinarith
  have hx' : 0 < |x| := abs_pos.2 hx
  rw [← div_eq_mul_inv, ← one_div |x|, div_le_div_iff₀ (by positivity) hx']
  linarith

theorem integral_step (n : ℕ) : (2 * (n + 1 : ℝ)) * ∫ x : ℝ, ((1 + x ^ 2) ^ (n + 2))⁻¹ =
    (2 * (n + 1 : ℝ) - 1) * ∫ x : ℝ, ((1 + x ^ 2) ^ (n + 1))⁻¹ := by
  have hd : ∀ x : ℝ, HasDerivAt (fun x : ℝ => x * ((1 + x ^ 2) ^ (n + 1))⁻¹)
      ((2 * (n + 1 : ℝ)) * ((1 + x ^ 2) ^ (n + 2))⁻¹ - (2 * (n + 1 : ℝ) - 1) * ((1 + x ^ 2) ^ (n + 1))⁻¹) x := by
    intro x
    have hp : (1:ℝ) + x ^ 2 ≠ 0 := by positivity
    have h := (hasDerivAt_id x).mul ((((hasDerivAt_id x).pow 2).const_add 1).pow (n + 1) |>.inv (pow_ne_zero _ hp))
    refine h.congr_deriv ?_
    simp only [id, Pi.pow_apply, Pi.inv_apply]
    have hp : (1:ℝ) + x ^ 2 ≠ 0 := by positivity
    push_cast
    rw [pow_succ _ (n+1), pow_succ _ n]
    generalize hA : (1 + x ^ 2) ^ n = A
    have hA0 : A ≠ 0 := by rw [← hA]; exact pow_ne_zero _ hp
    field_simp
    ring
  have := integral_of_hasDerivAt_of_tendsto hd
    (((integrable_pow_inv (n + 1)).const_mul _).sub ((integrable_pow_inv n).const_mul _))
    (tendsto_bound n atBot tendsto_inv_atBot_zero) (tendsto_bound n atTop tendsto_inv_atTop_zero)
  rw [integral_sub ((integrable_pow_inv (n + 1)).const_mul _) ((integrable_pow_inv n).const_mul _), integral_const_mul, integral_const_mul] at this
  linarith

theorem integral_eight : ∫ x : ℝ, ((1 + x ^ 2) ^ 8)⁻¹ = 429 * Real.pi / 2048 := by
  have h1 : ∫ x : ℝ, ((1 + x ^ 2) ^ 1)⁻¹ = Real.pi := by simp only [pow_one]; exact integral_univ_inv_one_add_sq
  have s1 := integral_step 0
  have s2 := integral_step 1
  have s3 := integral_step 2
  have s4 := integral_step 3
  have s5 := integral_step 4
  have s6 := integral_step 5
  have s7 := integral_step 6
  norm_num at s1 s2 s3 s4 s5 s6 s7 h1
  linarith

theorem soliton_column (rho rc : ℝ) (hrc : 0 < rc) :
    ∫ l : ℝ, rho / (1 + 0.091 * (l / rc) ^ 2) ^ 8 = 429 * Real.pi / 2048 * (rho * (rc / Real.sqrt 0.091)) := by
  have hs : 0 < Real.sqrt 0.091 := Real.sqrt_pos.2 (by norm_num)
  have hq : Real.sqrt 0.091 ^ 2 = 0.091 := Real.sq_sqrt (by norm_num)
  have h : ∀ l : ℝ, rho / (1 + 0.091 * (l / rc) ^ 2) ^ 8 =
      rho * (fun x : ℝ => ((1 + x ^ 2) ^ 8)⁻¹) ((Real.sqrt 0.091 / rc) * l) := by
    intro l
    have : 0.091 * (l / rc) ^ 2 = (Real.sqrt 0.091 / rc * l) ^ 2 := by
      have : (Real.sqrt 0.091 / rc * l) ^ 2 = Real.sqrt 0.091 ^ 2 * (l / rc) ^ 2 := by ring
      rw [this, hq]
    rw [this, div_eq_mul_inv]
  simp_rw [h]
  rw [integral_const_mul, Measure.integral_comp_mul_left (fun x : ℝ => ((1 + x ^ 2) ^ 8)⁻¹), integral_eight, inv_div,
    abs_of_pos (div_pos hrc hs), smul_eq_mul]
  ring

end Soliton

/-! ## The soliton (C84) -/

theorem zeta_pos (om : ℝ → ℝ) (z : ℝ) (h0 : 0 < om z) (h1 : om z ≤ 1) : 0 < zeta om z := by
  unfold zeta
  apply div_pos _ h0
  have := Real.pi_gt_three
  nlinarith [sq_nonneg (om z), mul_pos h0 h0]

theorem coreRadius_eq (om : ℝ → ℝ) (z log10m M plaw : ℝ) (hM : 0 < M) :
    coreRadius om z log10m M plaw = 1.6 * (10 ^ log10m / 1e-22)⁻¹ * (1 / (1 + z)) ^ (1 / 2 : ℝ) *
      (zeta om z / zeta om 0) ^ (-1 / 6 : ℝ) * (M / 10 ^ 9) ^ (-plaw) := by
  unfold coreRadius
  have h1 : (10 : ℝ) ^ (log10m + 22) = 10 ^ log10m / 1e-22 := by
    rw [Real.rpow_add (by norm_num)]; norm_num; ring
  have h2 : (10 : ℝ) ^ (Real.logb 10 M - 9) = M / 10 ^ 9 := by
    rw [Real.rpow_sub (by norm_num), Real.rpow_logb (by norm_num) (by norm_num) hM]; norm_num
  simp only [h1, h2, Real.rpow_neg_one]

theorem coreRadius_pos (om : ℝ → ℝ) (z log10m M plaw : ℝ) (hM : 0 < M) (hz : -1 < z) (h0 : ∀ z, -1 < z → 0 < om z ∧ om z ≤ 1) :
    0 < coreRadius om z log10m M plaw := by
  rw [coreRadius_eq om z log10m M plaw hM]
  have : 0 < 1 + z := by linarith
  have := zeta_pos om z (h0 z hz).1 (h0 z hz).2
  have := zeta_pos om 0 (h0 0 (by norm_num)).1 (h0 0 (by norm_num)).2
  positivity

/-- C84. The core of an ultra-light dark matter halo: 1.6 kpc today for a particle of 10⁻²² eV in a halo of 10⁹ solar masses,
inversely proportional to the particle mass, and with the requested power of the halo mass. -/
theorem c84_core_radius (om : ℝ → ℝ) (z log10m M plaw : ℝ) (hM : 0 < M) (hz : -1 < z)
    (h0 : ∀ z, -1 < z → 0 < om z ∧ om z ≤ 1) :
    0 < coreRadius om z log10m M plaw ∧
    coreRadius om 0 (-22) (10 ^ 9) plaw = 1.6 ∧
    (∀ k, 0 < k → coreRadius om z log10m (k * M) plaw = k ^ (-plaw) * coreRadius om z log10m M plaw) ∧
    (∀ δ, coreRadius om z (log10m + δ) M plaw = coreRadius om z log10m M plaw / 10 ^ δ) ∧
    (∀ M', 0 < plaw → M < M' → coreRadius om z log10m M' plaw < coreRadius om z log10m M plaw) := by
  refine ⟨coreRadius_pos om z log10m M plaw hM hz h0, ?_, ?_, ?_, ?_⟩
  · rw [coreRadius_eq om 0 (-22) (10 ^ 9) plaw (by norm_num), div_self (zeta_pos om 0 (h0 0 (by norm_num)).1 (h0 0 (by norm_num)).2).ne',
      div_self (by norm_num), Real.one_rpow, Real.one_rpow]
    norm_num
  · intro k hk
    rw [coreRadius_eq om z log10m (k * M) plaw (by positivity), coreRadius_eq om z log10m M plaw hM, mul_div_assoc,
      Real.mul_rpow hk.le (by positivity)]
    ring
  · intro δ
    rw [coreRadius_eq om z _ M plaw hM, coreRadius_eq om z log10m M plaw hM, Real.rpow_add (by norm_num)]
    have : (0 : ℝ) < 10 ^ δ := Real.rpow_pos_of_pos (by norm_num) _
    have : (0 : ℝ) < 10 ^ log10m := Real.rpow_pos_of_pos (by norm_num) _
    generalize (1 / (1 + z)) ^ (1 / 2 : ℝ) = u
    generalize (zeta om z / zeta om 0) ^ (-1 / 6 : ℝ) = v
    generalize (M / 10 ^ 9) ^ (-plaw) = w
    field_simp
  · intro M' hp hMM
    rw [coreRadius_eq om z _ M' plaw (by linarith), coreRadius_eq om z log10m M plaw hM]
    have : 0 < 1 + z := by linarith
    have := zeta_pos om z (h0 z hz).1 (h0 z hz).2
    have := zeta_pos om 0 (h0 0 (by norm_num)).1 (h0 0 (by norm_num)).2
    apply mul_lt_mul_of_pos_left _ (by positivity)
    apply Real.rpow_lt_rpow_of_neg (by positivity) _ (by linarith)
    exact div_lt_div_of_pos_right hMM (by norm_num)

example := c84_core_radius (fun _ => 0.3) 0.5 (-21) (10 ^ 8) (1 / 3) (by norm_num) (by norm_num) (fun _ => by norm_num)

namespace Spec84

/-- The overdensity of a virialised halo over the mean matter density, for the matter density parameter `Om`, by Bryan & Norman
(1998). -/
noncomputable def virialContrast (Om : ℝ) : ℝ := (18 * Real.pi ^ 2 + 82 * (Om - 1) - 39 * (Om - 1) ^ 2) / Om

end Spec84

/-- C84. The core shrinks with redshift as `(1 + z)^(-1/2)` times the virial overdensity, relative to today's, to the power
-1/6. -/
theorem c84_redshift (om : ℝ → ℝ) (z log10m M plaw : ℝ) (hM : 0 < M) (hz : -1 < z) (h0 : ∀ z, -1 < z → 0 < om z ∧ om z ≤ 1) :
    coreRadius om z log10m M plaw = coreRadius om 0 log10m M plaw * ((1 + z) ^ (-1 / 2 : ℝ) *
      (Spec84.virialContrast (om z) / Spec84.virialContrast (om 0)) ^ (-1 / 6 : ℝ)) := by
  rw [coreRadius_eq om z log10m M plaw hM, coreRadius_eq om 0 log10m M plaw hM,
    div_self (zeta_pos om 0 (h0 0 (by norm_num)).1 (h0 0 (by norm_num)).2).ne', Real.one_rpow]
  have h1 : (1 / (1 + z)) ^ (1 / 2 : ℝ) = (1 + z) ^ (-1 / 2 : ℝ) := by
    rw [one_div, Real.inv_rpow (by linarith), ← Real.rpow_neg (by linarith)]; norm_num
  have h2 : zeta om z / zeta om 0 = Spec84.virialContrast (om z) / Spec84.virialContrast (om 0) := rfl
  rw [h1, h2]
  norm_num
  ring

example := c84_redshift (fun _ => 0.3) 0.5 (-21) (10 ^ 8) (1 / 3) (by norm_num) (by norm_num) (fun _ => by norm_num)

/-- C84. The central density times the fourth power of the core radius (kpc) and the square of the particle mass (in
10⁻²³ eV) is 1.9 solar masses per cubic parsec today. -/
theorem c84_central_density (z log10m rc : ℝ) (hrc : 0 < rc) (hz : -1 < z) :
    centralDensity z log10m rc * rc ^ 4 * (10 ^ log10m / 1e-23) ^ 2 = 1.9 / (1 + z) ^ 3 := by
  unfold centralDensity
  have h1 : (10 : ℝ) ^ (log10m + 23) = 10 ^ log10m / 1e-23 := by
    rw [Real.rpow_add (by norm_num)]; norm_num; ring
  have : (0 : ℝ) < 10 ^ log10m := Real.rpow_pos_of_pos (by norm_num) _
  have hz' : 0 < 1 + z := by linarith
  have e2 : ∀ x : ℝ, 0 < x → x ^ (-2 : ℝ) = (x ^ 2)⁻¹ := by
    intro x hx; rw [Real.rpow_neg hx.le]; norm_num
  have e4 : ∀ x : ℝ, 0 < x → x ^ (-4 : ℝ) = (x ^ 4)⁻¹ := by
    intro x hx; rw [Real.rpow_neg hx.le]; norm_num
  simp only [h1, Real.rpow_neg_one]
  rw [e2 _ (by positivity), e4 _ (by positivity)]
  generalize (10 : ℝ) ^ log10m = m at *
  generalize 1 + z = w at *
  field_simp

example := c84_central_density 0.5 (-21) 0.3 (by norm_num) (by norm_num)

/-- The same soliton - the same particle and the same core radius - is given a density that falls with redshift as
(1 + z)⁻³: it is the comoving density of Schive et al., and it is used with the physical radius. -/
theorem c84_density_comoving (z z' log10m rc : ℝ) (hrc : 0 < rc) (hz : -1 < z) (hz' : -1 < z') :
    centralDensity z log10m rc * (1 + z) ^ 3 = centralDensity z' log10m rc * (1 + z') ^ 3 ∧
    (z < z' → centralDensity z' log10m rc < centralDensity z log10m rc) := by
  have h := c84_central_density z log10m rc hrc hz
  have h' := c84_central_density z' log10m rc hrc hz'
  have hm : (0 : ℝ) < 10 ^ log10m := Real.rpow_pos_of_pos (by norm_num) _
  have w : 0 < 1 + z := by linarith
  have w' : 0 < 1 + z' := by linarith
  have hK : 0 < rc ^ 4 * ((10 : ℝ) ^ log10m / 1e-23) ^ 2 := by positivity
  rw [mul_assoc] at h h'
  generalize rc ^ 4 * ((10 : ℝ) ^ log10m / 1e-23) ^ 2 = K at *
  have e : centralDensity z log10m rc = 1.9 / (1 + z) ^ 3 / K := by rw [← h]; field_simp
  have e' : centralDensity z' log10m rc = 1.9 / (1 + z') ^ 3 / K := by rw [← h']; field_simp
  refine ⟨by rw [e, e']; field_simp, fun hzz => ?_⟩
  rw [e, e']
  apply div_lt_div_of_pos_right _ hK
  apply div_lt_div_of_pos_left (by norm_num) (by positivity)
  exact pow_lt_pow_left₀ (by linarith) w.le (by norm_num)

example := c84_density_comoving 0.5 0.7 (-21) 0.3 (by norm_num) (by norm_num) (by norm_num)

/-- C84. The convergence at the centre, times the critical density of the main lens plane (solar masses per square parsec), is
the mass per area along the line of sight through the centre of the soliton `ρ / (1 + 0.091 (r / r_c)²)⁸`; and the angular
core radius is the physical one at the distance of the main lens plane. -/
theorem c84_column_density (e : Env) (om : ℝ → ℝ) (zLens z log10m M plaw : ℝ) (hM : 0 < M) (hz : -1 < z)
    (h0 : ∀ z, -1 < z → 0 < om z ∧ om z ≤ 1) (hs : 0 < sigmaCrit e zLens e.zSource) (hD : 0 < e.DAz zLens) :
    let rc := 1000 * coreRadius om z log10m M plaw
    let rho := centralDensity z log10m (coreRadius om z log10m M plaw)
    (uldmArgs e om zLens z log10m M plaw).2 * (sigmaCrit e zLens e.zSource / 10 ^ 12) =
      ∫ l : ℝ, rho / (1 + 0.091 * (l / rc) ^ 2) ^ 8 ∧
    (uldmArgs e om zLens z log10m M plaw).1 * arcsec * (e.DAz zLens * 10 ^ 6) = rc := by
  intro rc rho
  have hr := coreRadius_pos om z log10m M plaw hM hz h0
  have hrc : 0 < rc := by positivity
  have hq : 0 < Real.sqrt 0.091 := Real.sqrt_pos.2 (by norm_num)
  have ha : 0 < arcsec := by unfold arcsec; have := Real.pi_pos; positivity
  constructor
  · rw [soliton_column rho rc hrc]
    unfold uldmArgs
    simp only [rc, rho]
    generalize centralDensity z log10m (coreRadius om z log10m M plaw) = r at *
    generalize coreRadius om z log10m M plaw = c at *
    norm_num
    field_simp
  · unfold uldmArgs
    simp only [rc]
    field_simp
    norm_num

/-- A halo in front of or behind the main lens plane is rendered with another core radius than its own: the angle is computed
with the distance of the main lens. -/
theorem c84_wrong_distance (e : Env) (om : ℝ → ℝ) (zLens z log10m M plaw : ℝ) (hM : 0 < M) (hz : -1 < z)
    (h0 : ∀ z, -1 < z → 0 < om z ∧ om z ≤ 1) (hD : 0 < e.DAz zLens) :
    (uldmArgs e om zLens z log10m M plaw).1 * arcsec * (e.DAz z * 10 ^ 3) =
      coreRadius om z log10m M plaw * (e.DAz z / e.DAz zLens) ∧
    (e.DAz z ≠ e.DAz zLens →
      (uldmArgs e om zLens z log10m M plaw).1 * arcsec * (e.DAz z * 10 ^ 3) ≠ coreRadius om z log10m M plaw) := by
  have hr := coreRadius_pos om z log10m M plaw hM hz h0
  have ha : 0 < arcsec := by unfold arcsec; have := Real.pi_pos; positivity
  have h : (uldmArgs e om zLens z log10m M plaw).1 * arcsec * (e.DAz z * 10 ^ 3) =
      coreRadius om z log10m M plaw * (e.DAz z / e.DAz zLens) := by
    unfold uldmArgs
    field_simp
  refine ⟨h, fun hne heq => hne ?_⟩
  rw [h] at heq
  have := mul_left_cancel₀ hr.ne' (heq.trans (mul_one _).symm)
  rwa [div_eq_one_iff_eq hD.ne'] at this

example : (0 : ℝ) < 1e8 ∧ (-1 : ℝ) < 0.7 ∧ (∀ z : ℝ, -1 < z → 0 < (fun _ : ℝ => (0.3 : ℝ)) z ∧ (fun _ : ℝ => (0.3 : ℝ)) z ≤ 1) ∧
    0 < sigmaCrit demoEnv 0.5 demoEnv.zSource ∧ 0 < demoEnv.DAz 0.5 ∧ demoEnv.DAz 0.7 ≠ demoEnv.DAz 0.5 := by
  refine ⟨by norm_num, by norm_num, fun _ => by norm_num, ?_, by norm_num [demoEnv], by norm_num [demoEnv]⟩
  have := Real.pi_pos
  simp only [sigmaCrit, demoEnv]
  norm_num
  positivity

/-! ## The mass budget (C85) -/

theorem budget (N U total mass : ℝ) (ht : total = N * (mass / (N + U)) + U) (hN : 0 < N) (hU : 0 < U) :
    total - mass = U / (N + U) * (N + U - mass) ∧ |total - mass| ≤ |N + U - mass| ∧ (total = mass ↔ N + U = mass) := by
  have he : total - mass = U / (N + U) * (N + U - mass) := by
    rw [ht]; field_simp; ring
  have hf : 0 < U / (N + U) := by positivity
  refine ⟨he, ?_, ?_⟩
  · rw [he, abs_mul, abs_of_pos hf]
    apply mul_le_of_le_one_left (abs_nonneg _)
    rw [div_le_one (by positivity)]; linarith
  · constructor
    · intro hm
      rw [hm, sub_self] at he
      rcases mul_eq_zero.1 he.symm with h | h <;> linarith
    · intro hm
      rw [hm, sub_self, mul_zero] at he; linarith

/-- C85. With `scale_nfw` (which the preset requests) the mass inside r200 of the two components together is the mass of the
halo up to a fraction of the error the minimiser left: the fraction of the mass that is in the soliton. It is exact if the
minimiser left no error. -/
theorem c85_mass (L : Lib) (argmin : (ℝ × ℝ → ℝ) → ℝ × ℝ) (sigma mass c : ℝ) (p p' : Params)
    (h : rescaled L argmin sigma mass c true p = .ok p') :
    ∃ p₀, rescaled L argmin sigma mass c false p = .ok p₀ ∧ p'.Rs = p.Rs ∧ p'.thetaC = p.thetaC ∧ p'.kappa0 = p₀.kappa0 ∧
      p'.rCore = p₀.rCore ∧
      (let N := p₀.alphaRs * sigma * L.cnfw (c * p.Rs) p.Rs p₀.rCore
       let U := p₀.kappa0 * sigma * L.uldm (c * p.Rs) p.thetaC
       let total := p'.alphaRs * sigma * L.cnfw (c * p.Rs) p.Rs p'.rCore + p'.kappa0 * sigma * L.uldm (c * p.Rs) p.thetaC
       0 < N → 0 < U → total - mass = U / (N + U) * (N + U - mass) ∧ |total - mass| ≤ |N + U - mass| ∧
        (total = mass ↔ N + U = mass)) := by
  unfold rescaled at h ⊢
  dsimp only at h ⊢
  by_cases h1 : (argmin (objective L sigma (c * p.Rs) mass p)).1 < 0
  · rw [if_pos h1] at h; cases h
  rw [if_neg h1] at h ⊢
  by_cases h2 : (argmin (objective L sigma (c * p.Rs) mass p)).2 < 0
  · rw [if_pos h2] at h; cases h
  rw [if_neg h2] at h ⊢
  rw [if_pos rfl] at h
  generalize argmin (objective L sigma (c * p.Rs) mass p) = bq at *
  cases h
  refine ⟨_, rfl, rfl, rfl, rfl, rfl, ?_⟩
  exact fun hN hU => budget _ _ _ _ (by simp only [Lib.cnfwMass, Lib.uldmMass]; ring) hN hU

/-- The minimiser solves another equation than the one needed: even where it finds an exact zero of both constraints, with the
two core radii coinciding, the halo does not have the requested mass - before or after the rescaling - unless `q = 1`. The
masses are compared for a soliton multiplied by `q`, and then it is divided by `q`. -/
theorem c85_wrong_equation (L : Lib) (argmin : (ℝ × ℝ → ℝ) → ℝ × ℝ) (sigma mass c beta q : ℝ) (p : Params)
    (hmin : argmin (objective L sigma (c * p.Rs) mass p) = (beta, q))
    (hzero : objective L sigma (c * p.Rs) mass p (beta, q) = 0) (hb : 0 < beta) (hq : 0 < q) (hq1 : q ≠ 1)
    (hcore : beta * p.Rs = p.rCore / beta) (hm : 0 < mass) (hN : 0 < p.alphaRs * sigma * L.cnfw (c * p.Rs) p.Rs (beta * p.Rs))
    (hU : 0 < p.kappa0 * sigma * L.uldm (c * p.Rs) p.thetaC) (scale : Bool) :
    ∃ p', rescaled L argmin sigma mass c scale p = .ok p' ∧
      p'.alphaRs * sigma * L.cnfw (c * p.Rs) p.Rs p'.rCore + p'.kappa0 * sigma * L.uldm (c * p.Rs) p.thetaC ≠ mass := by
  have hmass : p.alphaRs * sigma * L.cnfw (c * p.Rs) p.Rs (beta * p.Rs) +
      q * (p.kappa0 * sigma * L.uldm (c * p.Rs) p.thetaC) = mass := by
    unfold objective constraintMass constraintDensity at hzero
    dsimp only at hzero
    have h1 := abs_nonneg (p.alphaRs * sigma * L.cnfw (c * p.Rs) p.Rs (beta * p.Rs) / mass +
      q * (p.kappa0 * sigma * L.uldm (c * p.Rs) p.thetaC) / mass - 1)
    have h2 := abs_nonneg (L.cnfw0 p.Rs p.alphaRs p.rCore - beta * L.uldm0 p.kappa0 p.thetaC * (q - 1))
    have h3 := abs_eq_zero.1 (le_antisymm (by linarith) h1)
    rw [← add_div, sub_eq_zero, div_eq_one_iff_eq hm.ne'] at h3
    exact h3
  have hne : p.alphaRs * sigma * L.cnfw (c * p.Rs) p.Rs (p.rCore / beta) +
      p.kappa0 / q * sigma * L.uldm (c * p.Rs) p.thetaC ≠ mass := by
    rw [← hcore]
    intro h
    have e : p.kappa0 / q * sigma * L.uldm (c * p.Rs) p.thetaC = p.kappa0 * sigma * L.uldm (c * p.Rs) p.thetaC / q := by
      ring
    rw [e] at h
    generalize p.kappa0 * sigma * L.uldm (c * p.Rs) p.thetaC = U at *
    have h4 : U / q = q * U := by linarith
    rw [div_eq_iff hq.ne'] at h4
    have : q * q = 1 := by
      have h5 : U * 1 = U * (q * q) := by linarith
      exact (mul_left_cancel₀ hU.ne' h5).symm
    exact hq1 (by nlinarith)
  have h0 : rescaled L argmin sigma mass c false p =
      .ok { p with rCore := p.rCore / beta, kappa0 := p.kappa0 / q } := by
    simp [rescaled, hmin, hb.le, hq.le, not_lt.2]
  cases scale with
  | false => exact ⟨_, h0, hne⟩
  | true =>
    have h1 : ∃ p', rescaled L argmin sigma mass c true p = .ok p' := by
      simp [rescaled, hmin, hb.le, hq.le, not_lt.2]
    obtain ⟨p', h1⟩ := h1
    refine ⟨p', h1, ?_⟩
    obtain ⟨p₀, g0, -, -, -, -, g⟩ := c85_mass L argmin sigma mass c p p' h1
    rw [h0] at g0
    cases g0
    dsimp only at g
    have := (g (by rw [← hcore]; exact hN) (by
      have e : p.kappa0 / q * sigma * L.uldm (c * p.Rs) p.thetaC = p.kappa0 * sigma * L.uldm (c * p.Rs) p.thetaC / q := by
        ring
      rw [e]; exact div_pos hU hq)).2.2
    exact fun h => hne (this.1 h)

/-- A minimiser that finds an exact zero at `(1, 5/4)`. -/
example : let L : Lib := ⟨fun _ _ _ => 1, fun _ _ => 1, fun _ _ _ => 1, fun _ _ => 4⟩
    let p : Params := ⟨1, 1, 1, 1 / 3, 1⟩
    objective L 1 (10 * p.Rs) (9 / 4) p (1, 5 / 4) = 0 ∧ (1 : ℝ) * p.Rs = p.rCore / 1 ∧ p.rCore = 3 * p.thetaC ∧
    (0.5 : ℝ) ≤ 5 / 4 ∧ (5 / 4 : ℝ) ≤ 1.5 := by
  norm_num [objective, constraintMass, constraintDensity]

/-- C85. The two errors cannot occur as long as scipy's minimiser respects the bounds it is given. -/
theorem c85_never_refused (L : Lib) (argmin : (ℝ × ℝ → ℝ) → ℝ × ℝ) (sigma mass c : ℝ) (scale : Bool) (p : Params)
    (h : ∀ f, 0.5 ≤ (argmin f).1 ∧ (argmin f).1 ≤ 10 ∧ 0.5 ≤ (argmin f).2 ∧ (argmin f).2 ≤ 1.5) :
    ∃ p', rescaled L argmin sigma mass c scale p = .ok p' ∧ p'.rCore ≤ 2 * |p.rCore| ∧ |p'.kappa0| ≤ 2 * |p.kappa0| := by
  have h1 := h (objective L sigma (c * p.Rs) mass p)
  generalize hbq : argmin (objective L sigma (c * p.Rs) mass p) = bq at *
  obtain ⟨b, q⟩ := bq
  dsimp only at h1
  have hb : 0 < b := by norm_num at h1; linarith
  have hq : 0 < q := by norm_num at h1; linarith
  have k1 : p.rCore / b ≤ 2 * |p.rCore| := by
    rw [div_le_iff₀ hb]
    have := le_abs_self p.rCore
    have := abs_nonneg p.rCore
    norm_num at h1
    nlinarith
  have k2 : |p.kappa0 / q| ≤ 2 * |p.kappa0| := by
    rw [abs_div, abs_of_pos hq, div_le_iff₀ hq]
    have := abs_nonneg p.kappa0
    norm_num at h1
    nlinarith
  cases scale <;> simp [rescaled, hbq, not_lt.2 hb.le, not_lt.2 hq.le, k1, k2]

example := c85_never_refused ⟨fun _ _ _ => 1, fun _ _ => 1, fun _ _ _ => 1, fun _ _ => 4⟩ (fun _ => (1, 1)) 1 2 10 true ⟨1, 1, 1, 1 / 3, 1⟩
  (fun _ => by norm_num)

/-- The masses are evaluated with the critical density of the main lens plane. A halo at another redshift, where the critical
density per square arcsecond is `sigma'`, has not the requested mass even when the code finds it exact. -/
theorem c85_other_plane (L : Lib) (argmin : (ℝ × ℝ → ℝ) → ℝ × ℝ) (sigma sigma' mass c : ℝ) (scale : Bool) (p p' : Params)
    (_h : rescaled L argmin sigma mass c scale p = .ok p') (hm : 0 < mass) (hs : 0 < sigma) (hne : sigma' ≠ sigma)
    (hcode : L.cnfwMass sigma (c * p.Rs) p' + L.uldmMass sigma (c * p.Rs) p' = mass) :
    p'.alphaRs * sigma' * L.cnfw (c * p.Rs) p'.Rs p'.rCore + p'.kappa0 * sigma' * L.uldm (c * p.Rs) p'.thetaC =
      mass * (sigma' / sigma) ∧ mass * (sigma' / sigma) ≠ mass := by
  unfold Lib.cnfwMass Lib.uldmMass at hcode
  constructor
  · rw [← hcode]; field_simp
  · intro h
    have := mul_left_cancel₀ hm.ne' (h.trans (mul_one _).symm)
    rw [div_eq_one_iff_eq hs.ne'] at this
    exact hne this

/-- C85. What the lensing code is given: the two components that the mass budget was computed for, with the critical density
per square arcsecond of the main lens plane; the soliton has the angular core radius of `c84_column_density`, whatever the
minimiser answers. -/
theorem c85_lens_params (L : Lib) (argmin : (ℝ × ℝ → ℝ) → ℝ × ℝ) (e : Env) (om : ℝ → ℝ)
    (zLens kpaLens z zEval mass c log10m plaw : ℝ) (scale : Bool) (x y : ℝ) (ds : List Collapsed.Dict)
    (h : lensParams L argmin e om zLens kpaLens z zEval mass c log10m plaw scale x y = .ok ds) :
    ∃ p p' cn so, rescaled L argmin (sigmaCrit e zLens e.zSource * (kpaLens / 1000) ^ 2) mass c scale p = .ok p' ∧
      ds = [cn, so] ∧ cn.lookup "alpha_Rs" = some p'.alphaRs ∧ cn.lookup "Rs" = some p'.Rs ∧
      cn.lookup "r_core" = some p'.rCore ∧ so.lookup "kappa_0" = some p'.kappa0 ∧
      so.lookup "theta_c" = some (uldmArgs e om zLens z log10m mass plaw).1 ∧ p'.Rs = p.Rs ∧
      cn.lookup "center_x" = so.lookup "center_x" ∧ cn.lookup "center_y" = so.lookup "center_y" ∧
      p.kappa0 = (uldmArgs e om zLens z log10m mass plaw).2 ∧ p.rCore = 3 * (uldmArgs e om zLens z log10m mass plaw).1 := by
  unfold lensParams at h
  obtain ⟨⟨rhos, rs, r2⟩, -, h⟩ := bind_ok h
  obtain ⟨p', hp, h⟩ := bind_ok h
  cases h
  have hs : sigmaCrit e zLens e.zSource * 0.001 ^ 2 * kpaLens ^ 2 = sigmaCrit e zLens e.zSource * (kpaLens / 1000) ^ 2 := by
    ring
  rw [hs] at hp
  have hk : ∀ p, rescaled L argmin (sigmaCrit e zLens e.zSource * (kpaLens / 1000) ^ 2) mass c scale p = .ok p' →
      p'.Rs = p.Rs ∧ p'.thetaC = p.thetaC := by
    intro p h
    unfold rescaled at h
    dsimp only at h
    split at h
    · cases h
    · split at h
      · cases h
      · split at h <;> (cases h; exact ⟨rfl, rfl⟩)
  refine ⟨_, p', _, _, hp, rfl, rfl, rfl, rfl, rfl, ?_, (hk _ hp).1, rfl, rfl, rfl, rfl⟩
  exact congrArg some (hk _ hp).2

/-! ## The preset (C86) -/

theorem mMin_eq (om : ℝ → ℝ) (log10m z : ℝ) (hz : -1 < z) :
    mMin om log10m z = (1 + z) ^ (3 / 4 : ℝ) * (zeta om z / zeta om 0) ^ (1 / 4 : ℝ) *
      (4.4e7 * (10 ^ log10m / 1e-22) ^ (-3 / 2 : ℝ)) := by
  unfold mMin
  have h1 : (10 : ℝ) ^ (log10m + 22) = 10 ^ log10m / 1e-22 := by
    rw [Real.rpow_add (by norm_num)]; norm_num; ring
  rw [h1, ← Real.rpow_mul (by linarith)]
  norm_num

theorem mMin_pos (om : ℝ → ℝ) (log10m z : ℝ) (hz : -1 < z) (h0 : ∀ z, -1 < z → 0 < om z ∧ om z ≤ 1) : 0 < mMin om log10m z := by
  rw [mMin_eq om log10m z hz]
  have : 0 < 1 + z := by linarith
  have := zeta_pos om z (h0 z hz).1 (h0 z hz).2
  have := zeta_pos om 0 (h0 0 (by norm_num)).1 (h0 0 (by norm_num)).2
  have : (0 : ℝ) < 10 ^ log10m := Real.rpow_pos_of_pos (by norm_num) _
  positivity

/-- C86. The lowest mass that is rendered at a redshift: never below the requested one, never below the smallest mass of a
halo of such particles, and one of the two. That smallest mass is 4.4·10⁷ solar masses today for 10⁻²² eV, grows with
redshift as `(1 + z)^(3/4) (ζ(z)/ζ(0))^(1/4)`, and goes with the particle mass to the power -3/2; a heavier particle never
raises the limit. -/
theorem c86_minimum_mass (om : ℝ → ℝ) (log10m logMlow z : ℝ) (hz : -1 < z) (h0 : ∀ z, -1 < z → 0 < om z ∧ om z ≤ 1) :
    logMlow ≤ minMass om log10m logMlow z ∧ mMin om log10m z ≤ 10 ^ minMass om log10m logMlow z ∧
    (minMass om log10m logMlow z = logMlow ∨ 10 ^ minMass om log10m logMlow z = mMin om log10m z) ∧
    mMin om (-22) 0 = 4.4e7 ∧
    mMin om log10m z = mMin om log10m 0 * ((1 + z) ^ (3 / 4 : ℝ) *
      (Spec84.virialContrast (om z) / Spec84.virialContrast (om 0)) ^ (1 / 4 : ℝ)) ∧
    (∀ δ, mMin om (log10m + δ) z = mMin om log10m z * (10 ^ δ) ^ (-3 / 2 : ℝ)) ∧
    (∀ δ, 0 ≤ δ → minMass om (log10m + δ) logMlow z ≤ minMass om log10m logMlow z) := by
  have hp := mMin_pos om log10m z hz h0
  have hl : (10 : ℝ) ^ Real.logb 10 (mMin om log10m z) = mMin om log10m z :=
    Real.rpow_logb (by norm_num) (by norm_num) hp
  have hs : ∀ δ, mMin om (log10m + δ) z = mMin om log10m z * (10 ^ δ) ^ (-3 / 2 : ℝ) := by
    intro δ
    have h1 : (0 : ℝ) < 10 ^ log10m := Real.rpow_pos_of_pos (by norm_num) _
    have h2 : (0 : ℝ) < 10 ^ δ := Real.rpow_pos_of_pos (by norm_num) _
    rw [mMin_eq om _ z hz, mMin_eq om log10m z hz, Real.rpow_add (by norm_num),
      show (10 : ℝ) ^ log10m * 10 ^ δ / 1e-22 = 10 ^ log10m / 1e-22 * 10 ^ δ by ring,
      Real.mul_rpow (by positivity) h2.le]
    ring
  have hz0 := zeta_pos om 0 (h0 0 (by norm_num)).1 (h0 0 (by norm_num)).2
  refine ⟨le_max_right _ _, ?_, ?_, ?_, ?_, hs, ?_⟩
  · refine hl.symm.le.trans ?_
    exact (Real.rpow_le_rpow_left_iff (by norm_num)).2 (le_max_left _ _)
  · unfold minMass
    rcases le_total (Real.logb 10 (mMin om log10m z)) logMlow with h | h
    · left; rw [max_eq_right h]
    · right; rw [max_eq_left h, hl]
  · rw [mMin_eq om (-22) 0 (by norm_num), div_self hz0.ne', Real.one_rpow]
    have : (10 : ℝ) ^ (-22 : ℝ) / 1e-22 = 1 := by norm_num
    rw [this, Real.one_rpow]
    norm_num
  · have hv : Spec84.virialContrast (om z) / Spec84.virialContrast (om 0) = zeta om z / zeta om 0 := rfl
    rw [hv, mMin_eq om log10m z hz, mMin_eq om log10m 0 (by norm_num), div_self hz0.ne']
    norm_num
    ring
  · intro δ hδ
    unfold minMass
    apply max_le_max_right
    apply Real.logb_le_logb_of_le (by norm_num) (mMin_pos om _ z hz h0)
    rw [hs]
    apply mul_le_of_le_one_right hp.le
    apply Real.rpow_le_one_of_one_le_of_nonpos
    · exact Real.one_le_rpow (by norm_num) hδ
    · norm_num

example := c86_minimum_mass (fun _ => 0.3) (-21) 6 0.5 (by norm_num) (fun _ => by norm_num)

/-- C86. The mass below which halos are suppressed, as handed to the mass functions and concentrations, is
`1.6·10¹⁰ (m / 10⁻²² eV)^(-4/3)`; and the de Broglie wavelength is 1.2 kpc for 10⁻²² eV at 100 km/s, inversely proportional
to mass and velocity. -/
theorem c86_scales (log10m v : ℝ) (hv : 0 < v) :
    (10 : ℝ) ^ logM0 log10m = 1.6e10 * (10 ^ log10m / 1e-22) ^ (-4 / 3 : ℝ) ∧
    deBroglie (-22) 100 = 1.2 ∧ deBroglie log10m v * (10 ^ log10m * v) = deBroglie (-22) 100 * (1e-22 * 100) := by
  have h1 : (10 : ℝ) ^ (log10m + 22) = 10 ^ log10m / 1e-22 := by
    rw [Real.rpow_add (by norm_num)]; norm_num; ring
  have h2 : (0 : ℝ) < 10 ^ log10m := Real.rpow_pos_of_pos (by norm_num) _
  have h3 : deBroglie (-22) 100 = 1.2 := by unfold deBroglie; norm_num
  refine ⟨?_, h3, ?_⟩
  · unfold logM0
    rw [h1, Real.rpow_logb (by norm_num) (by norm_num) (by positivity)]
  · rw [h3]
    unfold deBroglie
    field_simp

example := c86_scales (-21) 200 (by norm_num)

open Preset

theorem uldm_ok {E : Preset.Env} {a : Args} {d : Dicts} {r : Request} (h : (uldm E a d).1 = .ok r) :
    (wdm E (toWdm a) d).1 = .ok r ∧ ¬ (a.flucs = true ∧ a.flucsArgsEmpty = true) := by
  unfold uldm at h
  dsimp only at h
  split at h
  · cases h
  · rename_i req hreq
    split at h
    · split at h
      · cases h
      · rename_i h2
        cases h
        exact ⟨hreq, fun hh => h2 hh.2⟩
    · rename_i h1
      cases h
      exact ⟨hreq, fun hh => h1 hh.1⟩

/-- C86. Where the preset returns, every population is rendered down to the mass of `c86_minimum_mass`, up to the requested
mass, with the suppression mass of `c86_scales`; subhalos and field halos have the requested profile; and the profile is
given the particle mass and the exponent. -/
theorem c86_request (E : Preset.Env) (a : Args) (d : Dicts) (r : Request) (h : (uldm E a d).1 = .ok r) :
    r.populations = ["SUBHALOS", "LINE_OF_SIGHT", "TWO_HALO"] ∧ r.massKwargs.length = 3 ∧
    (∀ kw ∈ r.massKwargs, kw "log_mlow" = some (.minMass a.log10m a.kwargsCosmo a.logMlow) ∧
      kw "log_mhigh" = some (.num a.logMhigh) ∧ kw "log_mc" = some (.num (logM0 a.log10m)) ∧
      kw "log_m_host" = some (.num a.logMHost)) ∧
    (∀ kw ∈ r.massKwargs.tail, kw "LOS_normalization" = some (.num a.losNormalization)) ∧
    r.spatials = [.named "ProjectedNFW", .named "LensConeUniform", .named "LensConeUniform"] ∧
    (∃ kw los, r.spatialKwargs = [kw, los, los] ∧ kw "m_host" = some (.num (10 ^ a.logMHost)) ∧
      kw "zlens" = some (.num a.zLens) ∧ kw "rmax2d_arcsec" = some (.num (a.cone / 2)) ∧
      kw "r_core_units_rs" = some (.num a.rTidal) ∧ los "cone_opening_angle" = some (.num a.cone) ∧
      los "geometry" = some (.geometry a.zLens a.zSource a.cone a.geometryType a.kwargsCosmo)) ∧
    r.mdefSub = a.mdef ∧ r.mdefField = a.mdef ∧ r.density = .uldmProfile a.log10m true a.plaw := by
  obtain ⟨hw, -⟩ := uldm_ok h
  obtain ⟨h1, h2, h3, -, -, h4, h5⟩ := c79_wdm E (toWdm a) d r hw
  have h1' : r.populations = ["SUBHALOS", "LINE_OF_SIGHT", "TWO_HALO"] := h1
  refine ⟨h1', by rw [h3, h1']; rfl, fun kw hk => ?_, h5, ?_⟩
  · obtain ⟨k1, k2, k3, -, -, k6⟩ := h4 kw hk
    exact ⟨k1, k2, k6, k3⟩
  · obtain ⟨-, inf, ms, mf, cs, cf, cHost, -, -, -, ha⟩ := wdm_ok hw
    unfold wdmAssemble at ha
    obtain ⟨⟨ts, tf⟩, -, ha⟩ := bind_ok ha
    obtain ⟨⟨sp, spKw⟩, hs, ha⟩ := bind_ok ha
    cases ha
    have hs' := hs
    simp only [spatialPart, toWdm] at hs
    cases hs
    exact ⟨rfl, ⟨_, _, rfl, rfl, rfl, rfl, rfl, rfl, rfl⟩, rfl, rfl, rfl⟩

/-- With its default arguments the preset never returns: fluctuations are asked for and their arguments are missing. -/
theorem c86_default_refused (E : Preset.Env) (a : Args) (d : Dicts) (h1 : a.flucs = true) (h2 : a.flucsArgsEmpty = true) (r : Request) :
    (uldm E a d).1 ≠ .ok r := fun h => (uldm_ok h).2 ⟨h1, h2⟩

/-- `sigma_sub` has no effect unless `log10_sigma_sub`, whose default is -1, is set to `None`; the amplitude used by default is
0.1 and not 0.025. -/
theorem c86_sigma_sub_ignored (E : Preset.Env) (a : Args) (d : Dicts) (s x : ℝ) (h : a.log10SigmaSub = some x) :
    uldm E { a with sigmaSub := s } d = uldm E a d ∧
    ∀ r, (uldm E a d).1 = .ok r → a.massSubKw "sigma_sub" = none → a.massSubKw "dndA" = none → a.log10dNdA = none →
      ∃ kw rest, r.massKwargs = kw :: rest ∧ kw "sigma_sub" = some (.num (10 ^ x)) := by
  constructor
  · have hw : ∀ E d, wdm E (toWdm { a with sigmaSub := s }) d = wdm E (toWdm a) d := by
      intro E d
      have hs : ∀ kw, wdmSubKwargs (toWdm { a with sigmaSub := s }) kw = wdmSubKwargs (toWdm a) kw := by
        intro kw
        simp only [wdmSubKwargs, toWdm, h, amplitude]
      have ha : ∀ inf ms mf cs cf cHost dS dF, wdmAssemble (toWdm { a with sigmaSub := s }) inf ms mf cs cf cHost dS dF =
          wdmAssemble (toWdm a) inf ms mf cs cf cHost dS dF := by
        intro inf ms mf cs cf cHost dS dF
        unfold wdmAssemble
        simp only [hs]
        rfl
      unfold wdm
      simp only [ha]
      rfl
    unfold uldm
    rw [hw]
  · intro r hr k1 k2 k3
    obtain ⟨hw, -⟩ := uldm_ok hr
    obtain ⟨kw, rest, g1, -, g2, -⟩ := c47_wdm_partial E (toWdm a) d r hw 1 k1 k2
    refine ⟨kw, rest, g1, ?_⟩
    have : Spec47.chosen (toWdm a).log10dNdA (toWdm a).log10SigmaSub (toWdm a).sigmaSub = (false, (10 : ℝ) ^ x) := by
      simp [Spec47.chosen, toWdm, h, k3]
    rw [this] at g2
    exact g2.1

/-- The default arguments, without fluctuations. -/
noncomputable def plainArgs (zl zs mc : ℝ) : Args := { zLens := zl, zSource := zs, log10m := mc, flucs := false }

theorem uldm_plain_ok (E : Preset.Env) (zl zs mc : ℝ) :
    ∃ r, (wdm E (toWdm (plainArgs zl zs mc)) freshDicts).1 = .ok r := by
  have hi : (setupInfall E (toWdm (plainArgs zl zs mc)).zLens (toWdm (plainArgs zl zs mc)).infall
      (writeHost (toWdm (plainArgs zl zs mc)).infall (toWdm (plainArgs zl zs mc)).logMHost freshDicts.infall)).1 =
      .ok (.hybrid zl 13.3) := by
    simp [setupInfall, writeHost, convertHost, defaultHost, Kwargs.set, Kwargs.num, freshDicts, Kwargs.empty, toWdm,
      plainArgs]
  have hm : ∃ ms mf, wdmMass E (toWdm (plainArgs zl zs mc)) = .ok (ms, mf) := ⟨_, _, rfl⟩
  obtain ⟨ms, mf, hm⟩ := hm
  have hb : ∀ k : Kwargs, concentrationModel E "LAROCHE2022" (some k) = .ok (.named "ConcentrationWDMPolynomial",
      setBose k "ConcentrationDiemerJoyce" 21.42 (-0.42) 1.62) := fun _ => rfl
  have hc : ∃ cs cf cHost, wdmConc E (toWdm (plainArgs zl zs mc))
      ((Kwargs.empty.set "cosmo" (.cosmo 0)).set "log_mc" (.num (logM0 mc)))
      ((Kwargs.empty.set "cosmo" (.cosmo 0)).set "log_mc" (.num (logM0 mc))) = .ok (cs, cf, cHost) := by
    unfold wdmConc
    have e1 : (toWdm (plainArgs zl zs mc)).concSub = "LAROCHE2022" := rfl
    have e2 : (toWdm (plainArgs zl zs mc)).concField = "LAROCHE2022" := rfl
    rw [e1, e2, hb]
    dsimp only [bind, Except.bind]
    rw [construct_poly]
    · dsimp only
      rw [construct_poly]
      · exact ⟨_, _, _, rfl⟩
      · intro s hs
        simp only [Kwargs.set, setBose, Kwargs.empty] at hs
        by_contra hn
        simp only [List.mem_cons, List.not_mem_nil, or_false, not_or] at hn
        simp [hn] at hs
      all_goals simp [Kwargs.set]
    · intro s hs
      simp only [Kwargs.set, setBose, Kwargs.empty] at hs
      by_contra hn
      simp only [List.mem_cons, List.not_mem_nil, or_false, not_or] at hn
      simp [hn] at hs
    all_goals simp [Kwargs.set, setBose]
  obtain ⟨cs, cf, cHost, hc⟩ := hc
  have ht : ∀ c, truncPart (toWdm (plainArgs zl zs mc)).truncSub (toWdm (plainArgs zl zs mc)).truncField
      (Kwargs.empty.set "lens_cosmo" (.lensCosmo zl zs 0)) (Kwargs.empty.set "lens_cosmo" (.lensCosmo zl zs 0)) c =
      .ok ((.named "TruncationGalacticus", (Kwargs.empty.update
        (Kwargs.empty.set "lens_cosmo" (.lensCosmo zl zs 0))).set "c_host" (.num c)),
        (.named "TruncationRN", Kwargs.empty.update (Kwargs.empty.set "lens_cosmo" (.lensCosmo zl zs 0)))) := by
    intro c
    have k1 : truncationModel (toWdm (plainArgs zl zs mc)).truncSub =
      .ok (.named "TruncationGalacticus", Kwargs.empty) := rfl
    have k2 : truncationModel (toWdm (plainArgs zl zs mc)).truncField = .ok (.named "TruncationRN", Kwargs.empty) := rfl
    have k3 : (toWdm (plainArgs zl zs mc)).truncSub = .name "TRUNCATION_GALACTICUS" := rfl
    unfold truncPart
    rw [k1, k2, k3]
    dsimp only [bind, Except.bind]
    rw [if_pos (by simp), construct_galacticus]
    dsimp only
    rw [construct_rn]
    rfl
  unfold wdm
  rw [if_neg (by simp [geometryOk, toWdm, plainArgs])]
  dsimp only
  rw [hi]
  dsimp only
  rw [hm]
  dsimp only
  have hc' : wdmConc E (toWdm (plainArgs zl zs mc))
      ((freshDicts.concSub.set "cosmo" (.cosmo (toWdm (plainArgs zl zs mc)).kwargsCosmo)).set "log_mc"
        (.num (toWdm (plainArgs zl zs mc)).logMc))
      ((freshDicts.concField.set "cosmo" (.cosmo (toWdm (plainArgs zl zs mc)).kwargsCosmo)).set "log_mc"
        (.num (toWdm (plainArgs zl zs mc)).logMc)) = .ok (cs, cf, cHost) := hc
  rw [hc']
  dsimp only
  unfold wdmAssemble
  have ht' : truncPart (toWdm (plainArgs zl zs mc)).truncSub (toWdm (plainArgs zl zs mc)).truncField
      (freshDicts.truncSub.set "lens_cosmo" (.lensCosmo (toWdm (plainArgs zl zs mc)).zLens
        (toWdm (plainArgs zl zs mc)).zSource (toWdm (plainArgs zl zs mc)).kwargsCosmo))
      (freshDicts.truncField.set "lens_cosmo" (.lensCosmo (toWdm (plainArgs zl zs mc)).zLens
        (toWdm (plainArgs zl zs mc)).zSource (toWdm (plainArgs zl zs mc)).kwargsCosmo)) cHost = _ := ht cHost
  rw [ht']
  exact ⟨_, rfl⟩

/-- The preset returns when fluctuations are turned off, and all its other arguments have their defaults. -/
example (E : Preset.Env) : ∃ r, (uldm E (plainArgs 0.5 1.5 (-21)) freshDicts).1 = .ok r ∧
    (plainArgs 0.5 1.5 (-21)).log10SigmaSub = some (-1.0) := by
  obtain ⟨r, h⟩ := uldm_plain_ok E 0.5 1.5 (-21)
  refine ⟨r, ?_, rfl⟩
  unfold uldm
  simp only [h]
  rfl

/-- With all its default arguments it renders the halos and then raises. -/
example (E : Preset.Env) : (∃ r, (wdm E (toWdm { zLens := 0.5, zSource := 1.5, log10m := -21 }) freshDicts).1 = .ok r) ∧
    ∀ r, (uldm E { zLens := 0.5, zSource := 1.5, log10m := -21 } freshDicts).1 ≠ .ok r :=
  ⟨uldm_plain_ok E 0.5 1.5 (-21), c86_default_refused E _ _ rfl rfl⟩

/-! ## The amplitude of the fluctuations -/

theorem sigmaHost_pos (rhos rs x : ℝ) (h1 : 0 < rhos) (h2 : 0 < rs) (hx : 0 < x) (hx1 : x ≠ 1) : 0 < sigmaHost rhos rs x := by
  unfold sigmaHost
  rcases lt_or_gt_of_ne hx1 with h | h
  · rw [if_pos h]
    have hy : 0 < 1 - x ^ 2 := by nlinarith
    have hs : 0 < Real.sqrt (1 - x ^ 2) := Real.sqrt_pos.2 hy
    have hq : Real.sqrt (1 - x ^ 2) ^ 2 = 1 - x ^ 2 := Real.sq_sqrt hy.le
    have hlt : Real.sqrt (1 - x ^ 2) < 1 := by
      rw [Real.sqrt_lt' one_pos]; nlinarith
    generalize Real.sqrt (1 - x ^ 2) = y at *
    have hF : 1 < Real.artanh y / y := by
      rw [lt_div_iff₀ hs, one_mul, Real.artanh_eq_half_log ⟨by linarith, hlt.le⟩]
      have hu : 0 < 2 * y / (1 - y) := div_pos (by linarith) (by linarith)
      have := Real.lt_log_one_add_of_pos hu
      have e1 : 1 + 2 * y / (1 - y) = (1 + y) / (1 - y) := by
        have : 1 - y ≠ 0 := by linarith
        field_simp; ring
      have e2 : 2 * (2 * y / (1 - y)) / (2 * y / (1 - y) + 2) = 2 * y := by
        have : 1 - y ≠ 0 := by linarith
        field_simp; ring
      rw [e1, e2] at this
      linarith
    have hn : x ^ 2 - 1 < 0 := by linarith
    have hm : 1 - Real.artanh y / y < 0 := by linarith
    exact div_pos_of_neg_of_neg (mul_neg_of_pos_of_neg (by positivity) hm) hn
  · rw [if_neg (not_lt.2 h.le)]
    have hy : 0 < -1 + x ^ 2 := by nlinarith
    have hs : 0 < Real.sqrt (-1 + x ^ 2) := Real.sqrt_pos.2 hy
    generalize Real.sqrt (-1 + x ^ 2) = y at *
    have hF : Real.arctan y / y < 1 := by
      rw [div_lt_one hs]
      have := Real.lt_tan (Real.arctan_pos.2 hs) (Real.arctan_lt_pi_div_two y)
      rwa [Real.tan_arctan] at this
    exact div_pos (mul_pos (by positivity) (by linarith)) (by linarith)

/-- C86. The amplitude of the fluctuations is proportional to the requested one and to the particle mass to the power -1/2, and times the
critical density it does not depend on the source. For
the reference lens (redshift 0.5, source at 2, host of 10^13.3, Einstein radius of one arcsecond) it is the requested
amplitude times `(m / 10⁻²² eV)^(-1/2)` - if the concentration model gives the same concentration twice. -/
theorem c86_fluctuation_amplitude (e : LensCosmo.Env) (kpa : ℝ → ℝ) (conc : ℕ → ℝ → ℝ → ℝ)
    (zLens zSource logMHost rEin log10Amp log10m A : ℝ)
    (h : flucAmplitude e kpa conc zLens zSource logMHost rEin log10Amp log10m = .ok A) :
    (∀ δ, flucAmplitude e kpa conc zLens zSource logMHost rEin (log10Amp + δ) log10m = .ok (A * 10 ^ δ)) ∧
    (∀ δ, flucAmplitude e kpa conc zLens zSource logMHost rEin log10Amp (log10m + δ) =
      .ok (A * (10 ^ δ) ^ (-1 / 2 : ℝ))) ∧
    (∀ zSource' A', flucAmplitude e kpa conc zLens zSource' logMHost rEin log10Amp log10m = .ok A' →
      sigmaCrit e zLens zSource ≠ 0 → sigmaCrit e zLens zSource' ≠ 0 →
      A' * sigmaCrit e zLens zSource' = A * sigmaCrit e zLens zSource) ∧
    (zLens = 0.5 → zSource = 2 → logMHost = 13.3 → rEin = 1 → conc 0 = conc 1 → 0 < e.h → 0 < e.rhoc 0.5 → 0 < kpa 0.5 →
      sigmaCrit e 0.5 2 ≠ 0 → 0 < conc 0 (10 ^ (13.3 : ℝ)) 0.5 →
      (∀ rhos rs r200, nfwParamKpc e (10 ^ (13.3 : ℝ)) (conc 0 (10 ^ (13.3 : ℝ)) 0.5) 0.5 (some false) =
        .ok (rhos, rs, r200) → kpa 0.5 ≠ rs) →
      A = 10 ^ log10Amp * (10 ^ log10m / 1e-22) ^ (-1 / 2 : ℝ)) := by
  have hm : (0 : ℝ) < 10 ^ log10m := Real.rpow_pos_of_pos (by norm_num) _
  have half : (-0.5 : ℝ) = -1 / 2 := by norm_num
  unfold flucAmplitude at h ⊢
  obtain ⟨⟨rhosRef, rsRef, r2⟩, e1, h⟩ := bind_ok h
  obtain ⟨⟨rhos, rs, r3⟩, e2, h⟩ := bind_ok h
  dsimp only at e1 e2 h
  injection h with h
  refine ⟨fun δ => ?_, fun δ => ?_, fun zs' A' h' n1 n2 => ?_, ?_⟩
  on_goal 3 =>
    simp only [e1, e2, bind, Except.bind, pure, Except.pure] at h'
    injection h' with h'
    rw [← h, ← h']
    field_simp
  · simp only [e1, e2, bind, Except.bind, pure, Except.pure]
    rw [← h, Real.rpow_add (by norm_num)]
    congr 1; ring
  · simp only [e1, e2, bind, Except.bind, pure, Except.pure]
    have hd : (0 : ℝ) < 10 ^ δ := Real.rpow_pos_of_pos (by norm_num) _
    rw [← h, Real.rpow_add (by norm_num), half,
      show (10 : ℝ) ^ log10m * 10 ^ δ / 1e-22 = 10 ^ log10m / 1e-22 * 10 ^ δ by ring,
      Real.mul_rpow (by positivity) hd.le]
    congr 1; ring
  · rintro rfl rfl rfl rfl hc hh hr hk hs hcp hx
    rw [← hc] at e2
    rw [e1] at e2
    cases e2
    obtain ⟨ρ, s, R, k1, k2, k3, -⟩ := nfwParamKpc_facts e (10 ^ (13.3 : ℝ)) (conc 0 (10 ^ (13.3 : ℝ)) 0.5) 0.5
      (Real.rpow_pos_of_pos (by norm_num) _) hcp hh hr
    have hne := hx _ _ _ e1
    rw [k1] at e1
    cases e1
    have hp : 0 < sigmaHost rhosRef rsRef (1.0 * kpa 0.5 / rsRef) := by
      apply sigmaHost_pos _ _ _ k2 k3
      · exact div_pos (by linarith) k3
      · rw [ne_eq, div_eq_one_iff_eq k3.ne']
        rwa [show (1.0 : ℝ) * kpa 0.5 = kpa 0.5 by norm_num]
    rw [← h, half]
    have e3 : (1 : ℝ) * kpa 0.5 / rsRef = 1.0 * kpa 0.5 / rsRef := by norm_num
    have e4 : sigmaCrit e 0.5 2.0 = sigmaCrit e 0.5 2 := by norm_num
    rw [e3, e4, div_self hp.ne', div_self hs]
    ring

/-- The concentration model of the hosts has scatter, and it is asked twice. With concentrations of 1 and 3 for the same host the
amplitude for the reference lens is not the requested one. -/
theorem c86_reference_scatter : ∃ (e : LensCosmo.Env) (kpa : ℝ → ℝ) (conc : ℕ → ℝ → ℝ → ℝ),
    0 < e.h ∧ 0 < e.rhoc 0.5 ∧ 0 < kpa 0.5 ∧ sigmaCrit e 0.5 2 ≠ 0 ∧
    ∀ log10Amp log10m A, flucAmplitude e kpa conc 0.5 2 13.3 1 log10Amp log10m = .ok A →
      A < 10 ^ log10Amp * (10 ^ log10m / 1e-22) ^ (-1 / 2 : ℝ) := by
  set R := r200M demoEnv ((10 : ℝ) ^ (13.3 : ℝ) * demoEnv.h) 0.5 / demoEnv.h with hR
  have hRp : 0 < R := by
    rw [hR]
    have := Real.pi_pos
    have : (0 : ℝ) < 10 ^ (13.3 : ℝ) := Real.rpow_pos_of_pos (by norm_num) _
    unfold r200M demoEnv
    dsimp only
    positivity
  have hs0 : 0 < sigmaCrit demoEnv 0.5 2 := by
    have := Real.pi_pos
    simp only [sigmaCrit, demoEnv]
    norm_num
    positivity
  have h8 : 0 < Real.sqrt 8 := Real.sqrt_pos.2 (by norm_num)
  have q8 : Real.sqrt 8 ^ 2 = 8 := Real.sq_sqrt (by norm_num)
  refine ⟨demoEnv, fun _ => Real.sqrt 8 / 3 * (R * 1000), fun n _ _ => if n = 0 then 1 else 3, by norm_num [demoEnv],
    by norm_num [demoEnv], by positivity, hs0.ne', ?_⟩
  intro log10Amp log10m A h
  have hamp : (0 : ℝ) < 10 ^ log10Amp * (10 ^ log10m / 1e-22) ^ (-1 / 2 : ℝ) := by
    have : (0 : ℝ) < 10 ^ log10Amp := Real.rpow_pos_of_pos (by norm_num) _
    have : (0 : ℝ) < 10 ^ log10m := Real.rpow_pos_of_pos (by norm_num) _
    positivity
  have x1 : Real.sqrt 8 / 3 * (R * 1000) / (R * 1000) = Real.sqrt 8 / 3 := by field_simp
  have x3 : Real.sqrt 8 / 3 * (R * 1000) / (R / 3 * 1000) = Real.sqrt 8 := by field_simp
  simp only [flucAmplitude, nfwParamKpc, nfwParam, bind, Except.bind, pure, Except.pure, Bool.false_eq_true, if_false, if_true,
    Except.ok.injEq, one_ne_zero, ← hR] at h
  rw [show (-0.5 : ℝ) = -1 / 2 by norm_num, show (2.0 : ℝ) = 2 by norm_num, div_self hs0.ne', mul_one,
    show (1.0 : ℝ) * (Real.sqrt 8 / 3 * (R * 1000)) / (R / 1 * 1000) = Real.sqrt 8 / 3 by
      rw [div_one, show (1.0 : ℝ) = 1 by norm_num, one_mul]; exact x1,
    one_mul, x3] at h
  rw [← h]
  apply mul_lt_of_lt_one_right hamp
  have l2 := Real.log_two_gt_d9
  have l2' := Real.log_two_lt_d9
  -- the two densities times scale radii
  set K := demoEnv.rhoc 0.5 * demoEnv.h ^ 2 * ((1000 : ℝ) ^ 3)⁻¹ * (R * 1000) * (200 / 3) with hK
  have hKp : 0 < K := by rw [hK]; unfold demoEnv; dsimp only; positivity
  have hlog4 : Real.log (1 + 3) = 2 * Real.log 2 := by
    rw [show (1 + 3 : ℝ) = 2 ^ (2 : ℕ) by norm_num, Real.log_pow]; norm_num
  have s1 : sigmaHost (rho0c demoEnv 1 0.5 * demoEnv.h ^ 2 * ((1000 : ℝ) ^ 3)⁻¹) (R / 1 * 1000) (Real.sqrt 8 / 3) =
      2 * K / (Real.log 2 - 1 / 2) * (9 * (3 / 2 * Real.log 2 - 1)) := by
    have hlt : Real.sqrt 8 / 3 < 1 := by
      rw [div_lt_one (by norm_num), Real.sqrt_lt' (by norm_num)]; norm_num
    have e1 : 1 - (Real.sqrt 8 / 3) ^ 2 = (1 / 3) ^ 2 := by rw [div_pow, q8]; norm_num
    have e2 : (Real.sqrt 8 / 3) ^ 2 - 1 = -(1 / 9) := by rw [div_pow, q8]; norm_num
    unfold sigmaHost
    simp only [if_pos hlt, e1, e2, Real.sqrt_sq (show (0 : ℝ) ≤ 1 / 3 by norm_num)]
    rw [Real.artanh_eq_half_log ⟨by norm_num, by norm_num⟩, show ((1 : ℝ) + 1 / 3) / (1 - 1 / 3) = 2 by norm_num, hK]
    unfold rho0c
    rw [show (1 : ℝ) + 1 = 2 by norm_num]
    have : Real.log 2 - 1 / 2 ≠ 0 := by linarith
    field_simp
    ring
  have s3 : sigmaHost (rho0c demoEnv 3 0.5 * demoEnv.h ^ 2 * ((1000 : ℝ) ^ 3)⁻¹) (R / 3 * 1000) (Real.sqrt 8) =
      2 * K / (2 * Real.log 2 - 3 / 4) * (9 * (1 - Real.arctan (Real.sqrt 7) / Real.sqrt 7) / 7) := by
    have hge : ¬ Real.sqrt 8 < 1 := by
      rw [not_lt]; exact Real.le_sqrt_of_sq_le (by norm_num)
    have e1 : -1 + Real.sqrt 8 ^ 2 = 7 := by rw [q8]; norm_num
    have e2 : Real.sqrt 8 ^ 2 - 1 = 7 := by rw [q8]; norm_num
    unfold sigmaHost
    simp only [if_neg hge, e1, e2, hK]
    unfold rho0c
    rw [hlog4, show (1 : ℝ) + 3 = 4 by norm_num]
    have : 2 * Real.log 2 - 3 / 4 ≠ 0 := by linarith
    generalize Real.arctan (Real.sqrt 7) / Real.sqrt 7 = F
    field_simp
    ring
  have hF : 0.29 < Real.arctan (Real.sqrt 7) / Real.sqrt 7 := by
    have a1 : Real.pi / 4 < Real.arctan (Real.sqrt 7) := by
      rw [← Real.arctan_one]; exact Real.arctan_strictMono (Real.lt_sqrt_of_sq_lt (by norm_num))
    have a2 : Real.sqrt 7 < 2.65 := by rw [Real.sqrt_lt' (by norm_num)]; norm_num
    have a3 : 0 < Real.sqrt 7 := Real.sqrt_pos.2 (by norm_num)
    have a4 := Real.pi_gt_d2
    rw [lt_div_iff₀ a3]
    norm_num at a2 a4 ⊢
    nlinarith
  rw [s1, s3]
  generalize Real.arctan (Real.sqrt 7) / Real.sqrt 7 = F at *
  generalize Real.log 2 = l at *
  clear_value K
  have d1 : 0 < l - 1 / 2 := by linarith
  have d2 : 0 < 2 * l - 3 / 4 := by linarith
  have d3 : 0 < 3 / 2 * l - 1 := by linarith
  rw [div_lt_one (by positivity), div_mul_eq_mul_div, div_mul_eq_mul_div, div_lt_div_iff₀ d2 d1]
  have : 9 * (1 - F) / 7 * (l - 1 / 2) < 9 * (3 / 2 * l - 1) * (2 * l - 3 / 4) := by
    have b1 : 9 * (1 - F) / 7 < 0.913 := by norm_num at hF ⊢; linarith
    have b2 : 9 * (1 - F) / 7 * (l - 1 / 2) < 0.913 * (l - 1 / 2) := mul_lt_mul_of_pos_right b1 d1
    have b3 : (0.6362 : ℝ) < 2 * l - 3 / 4 := by norm_num at l2 ⊢; linarith
    have b4 : (0.0397 : ℝ) < 3 / 2 * l - 1 := by norm_num at l2 ⊢; linarith
    have b5 : (0.0397 : ℝ) * 0.6362 < (3 / 2 * l - 1) * (2 * l - 3 / 4) :=
      mul_lt_mul'' b4 b3 (by norm_num) (by norm_num)
    norm_num at b2 b5 l2' ⊢
    nlinarith
  nlinarith

example : 0 < demoEnv.h ∧ 0 < demoEnv.rhoc 0.5 ∧ sigmaCrit demoEnv 0.5 2 ≠ 0 ∧
    ∃ A, flucAmplitude demoEnv (fun _ => 6) (fun _ _ _ => 6) 0.5 2 13.3 1 (-0.8) (-21) = .ok A := by
  refine ⟨by norm_num [demoEnv], by norm_num [demoEnv], ?_, ⟨_, rfl⟩⟩
  have := Real.pi_pos
  simp only [sigmaCrit, demoEnv]
  norm_num

end PyHalo.Props
