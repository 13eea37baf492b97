import Verif.Model.Profiles
import Verif.Props.LensCosmo
import Verif.Props.Collapsed
import Mathlib.Analysis.SpecialFunctions.Trigonometric.ArctanDeriv
import Mathlib.MeasureTheory.Integral.IntervalIntegral.FundThmCalculus
import Mathlib.Analysis.Real.Pi.Bounds

/-!
# C83: every halo profile has the mass it was normalised to
-/

namespace PyHalo.Props
open Prof LensCosmo
open Collapsed (Dict trapezoid)
open HaloObj (round4 round10)

/-- The density in solar masses per cubic kpc of a profile with the density `dens` (per arcsecond, in units of the critical
surface density) of lenstronomy: the critical surface density is `sigmaCrit` solar masses per square Mpc, one arcsecond is
`kpa` kpc. -/
noncomputable def physical (s : Scale) (dens : ℝ → ℝ) (r : ℝ) : ℝ := s.sigmaCrit / 1000 ^ 2 / s.kpa * dens (r / s.kpa)

theorem factor_eq (s : Scale) : s.factor = s.sigmaCrit / 1000 ^ 2 / s.kpa := by
  unfold Scale.factor
  norm_num
  ring

theorem sphereMass_congr {f g : ℝ → ℝ} {R : ℝ} (hR : 0 ≤ R) (h : ∀ r, 0 < r → r ≤ R → f r = g r) :
    sphereMass f R = sphereMass g R := by
  unfold sphereMass
  apply intervalIntegral.integral_congr
  intro r hr
  rw [Set.uIcc_of_le hR] at hr
  rcases hr.1.eq_or_lt with h0 | h0
  · simp [← h0]
  · simp only [h r h0 hr.2]

theorem sphereMass_mul (k : ℝ) (f : ℝ → ℝ) (R : ℝ) : sphereMass (fun r => k * f r) R = k * sphereMass f R := by
  unfold sphereMass
  rw [← intervalIntegral.integral_const_mul]
  apply intervalIntegral.integral_congr
  intro r _
  simp only
  ring

/-- The mass of the physical profile is the mass of the profile in angular units, times the mass of a square arcsecond of
critical surface density. -/
theorem sphereMass_physical (s : Scale) (hk : 0 < s.kpa) (f : ℝ → ℝ) (R : ℝ) :
    sphereMass (physical s f) R = s.sigmaCrit / 1000 ^ 2 * s.kpa ^ 2 * sphereMass f (R / s.kpa) := by
  have h := intervalIntegral.integral_comp_div (a := 0) (b := R) (fun u => 4 * Real.pi * u ^ 2 * f u) hk.ne'
  unfold sphereMass physical
  rw [zero_div, smul_eq_mul] at h
  rw [mul_assoc, pow_two s.kpa, mul_assoc, ← h, ← intervalIntegral.integral_const_mul, ← intervalIntegral.integral_const_mul]
  apply intervalIntegral.integral_congr
  intro r _
  simp only
  field_simp

theorem sigmaArcsec_eq (s : Scale) : s.sigmaArcsec = s.sigmaCrit / 1000 ^ 2 * s.kpa ^ 2 := by
  unfold Scale.sigmaArcsec
  rw [show (0.001 : ℝ) = 1 / 1000 by norm_num]
  ring

/-- The facts about the NFW parameters used below. -/
theorem nfwParamKpc_facts (e : Env) (m c z : ℝ) (hm : 0 < m) (hc : 0 < c) (hh : 0 < e.h) (hr : 0 < e.rhoc z) :
    ∃ rhos rs r200, nfwParamKpc e m c z (some false) = .ok (rhos, rs, r200) ∧ 0 < rhos ∧ 0 < rs ∧ r200 = rs * c ∧
      4 * Real.pi * rs ^ 3 * rhos * (Real.log (1 + r200 / rs) - r200 / rs / (1 + r200 / rs)) = m := by
  obtain ⟨rhos, rs, r200, h1, h2, h3⟩ := c25_nfw_mass_kpc e m c z hm hc hh hr false
  obtain ⟨rho0', rs', r200', g1, g2, g3, g4, -, -⟩ := c25_nfw_mass e m c z hm hc hh hr false
  have : nfwParamKpc e m c z (some false) = .ok (rho0' * ((1000 : ℝ) ^ 3)⁻¹, rs' * 1000, r200' * 1000) := by
    simp [nfwParamKpc, g1, bind, Except.bind, pure, Except.pure]
  rw [h1] at this
  injection this with this
  injection this with ha this
  injection this with hb _
  have hrs : 0 < rs := by rw [hb]; linarith
  have hrho : 0 < rhos := by rw [ha]; positivity
  have hr200 : 0 < r200 := by rw [← h2]; positivity
  simp only [Bool.false_eq_true, if_false] at h3
  rw [nfw_sphereMass _ _ _ hrs hr200.le] at h3
  exact ⟨rhos, rs, r200, h1, hrho, hrs, h2.symm, by rw [← h3]; ring⟩

/-! ### Pseudo-Jaffe halos -/

theorem pj_sphereMass (rho Ra Rs R : ℝ) (ha : 0 < Ra) (hs : 0 < Rs) (h : Ra ≠ Rs) :
    sphereMass (pjDensity rho Ra Rs) R
      = 4 * Real.pi * Ra ^ 2 * Rs ^ 2 * rho * ((Ra * Real.arctan (R / Ra) - Rs * Real.arctan (R / Rs)) / (Ra ^ 2 - Rs ^ 2)) := by
  have hne : Ra ^ 2 - Rs ^ 2 ≠ 0 := by
    intro h0
    have : (Ra - Rs) * (Ra + Rs) = 0 := by linarith
    rcases mul_eq_zero.mp this with h1 | h1
    · exact h (by linarith)
    · linarith
  have hd : ∀ r ∈ Set.uIcc 0 R, HasDerivAt
      (fun r => 4 * Real.pi * Ra ^ 2 * Rs ^ 2 * rho * ((Ra * Real.arctan (r / Ra) - Rs * Real.arctan (r / Rs)) / (Ra ^ 2 - Rs ^ 2)))
      (4 * Real.pi * r ^ 2 * pjDensity rho Ra Rs r) r := by
    intro r _
    have d1 : ∀ a : ℝ, HasDerivAt (fun r => Real.arctan (r / a)) (1 / (1 + (r / a) ^ 2) * (1 / a)) r := fun a =>
      ((hasDerivAt_id r).div_const a).arctan
    have d2 := ((((d1 Ra).const_mul Ra).sub ((d1 Rs).const_mul Rs)).div_const (Ra ^ 2 - Rs ^ 2)).const_mul
      (4 * Real.pi * Ra ^ 2 * Rs ^ 2 * rho)
    refine HasDerivAt.congr_deriv d2 ?_
    unfold pjDensity
    have e1 : 0 < 1 + (r / Ra) ^ 2 := by positivity
    have e2 : 0 < 1 + (r / Rs) ^ 2 := by positivity
    have e3 : Ra ^ 2 + r ^ 2 ≠ 0 := by positivity
    have e4 : Rs ^ 2 + r ^ 2 ≠ 0 := by positivity
    have e5 : 1 + (r / Ra) ^ 2 = (Ra ^ 2 + r ^ 2) / Ra ^ 2 := by field_simp
    have e6 : 1 + (r / Rs) ^ 2 = (Rs ^ 2 + r ^ 2) / Rs ^ 2 := by field_simp
    rw [e5, e6]
    field_simp
    ring
  unfold sphereMass
  rw [intervalIntegral.integral_eq_sub_of_hasDerivAt hd]
  · simp
  · apply Continuous.intervalIntegrable
    unfold pjDensity
    refine Continuous.mul (by fun_prop) (Continuous.div continuous_const (by fun_prop) fun r => ?_)
    positivity

/-- The arctangent terms do not cancel. -/
theorem pj_pos (Ra Rs R : ℝ) (ha : 0 < Ra) (hs : 0 < Rs) (h : Ra ≠ Rs) (hR : 0 < R) :
    0 < (Ra * Real.arctan (R / Ra) - Rs * Real.arctan (R / Rs)) / (Ra ^ 2 - Rs ^ 2) := by
  have key : 0 < sphereMass (pjDensity 1 Ra Rs) R := by
    unfold sphereMass
    apply intervalIntegral.intervalIntegral_pos_of_pos_on
    · apply Continuous.intervalIntegrable
      unfold pjDensity
      refine Continuous.mul (by fun_prop) (Continuous.div continuous_const (by fun_prop) fun r => ?_)
      positivity
    · intro r hr
      have := hr.1
      have := Real.pi_pos
      unfold pjDensity
      positivity
    · exact hR
  rw [pj_sphereMass 1 Ra Rs R ha hs h] at key
  have hp := Real.pi_pos
  have : 0 < 4 * Real.pi * Ra ^ 2 * Rs ^ 2 * 1 := by positivity
  exact (mul_pos_iff_of_pos_left this).mp key

/-- C83. A pseudo-Jaffe halo of mass `m` has this mass within its virial radius (that of the NFW halo of the same mass), the scale
radius of the NFW halo, and a core of one hundredth of it. -/
theorem c83_pseudo_jaffe (e : Env) (s : Scale) (m c zEval x y : ℝ) (hm : 0 < m) (hc : 0 < c) (hh : 0 < e.h)
    (hr : 0 < e.rhoc zEval) (hk : 0 < s.kpa) (hs : 0 < s.sigmaCrit) :
    ∃ Ra Rs sigma0 rhos rs r200,
      pjaffe e s m c zEval x y = .ok [[("center_x", x), ("center_y", y), ("Ra", Ra), ("Rs", Rs), ("sigma0", sigma0)]] ∧
      nfwParamKpc e m c zEval (some false) = .ok (rhos, rs, r200) ∧
      Rs * s.kpa = rs ∧ Ra * s.kpa = rs / 100 ∧ 0 < sigma0 ∧
      sphereMass (physical s (pjDensity (pjSigma2rho sigma0 Ra Rs) Ra Rs)) r200 = m := by
  obtain ⟨rhos, rs, r200, h1, hrho, hrs, h2, h3⟩ := nfwParamKpc_facts e m c zEval hm hc hh hr
  have hr200 : 0 < r200 := by rw [h2]; positivity
  have hpi := Real.pi_pos
  have hRs : 0 < rs * (1 / s.kpa) := by positivity
  have hRa : 0 < 0.01 * rs * (1 / s.kpa) := by positivity
  have hne : 0.01 * rs * (1 / s.kpa) ≠ rs * (1 / s.kpa) := by
    intro h
    nlinarith
  have hF := pj_pos _ _ _ hRa hRs hne (show 0 < r200 * (1 / s.kpa) by positivity)
  have hrho' : 0 < pjRho m (rs * (1 / s.kpa)) (0.01 * rs * (1 / s.kpa)) (r200 * (1 / s.kpa)) := by
    unfold pjRho
    positivity
  refine ⟨0.01 * rs * (1 / s.kpa), rs * (1 / s.kpa),
    pjRho2sigma (pjRho m (rs * (1 / s.kpa)) (0.01 * rs * (1 / s.kpa)) (r200 * (1 / s.kpa))) (0.01 * rs * (1 / s.kpa))
      (rs * (1 / s.kpa)) * (s.sigmaCrit * 0.001 ^ 2 / (1 / s.kpa) ^ 2)⁻¹, rhos, rs, r200, ?_, h1, ?_, ?_, ?_, ?_⟩
  · simp only [pjaffe, h1, bind, Except.bind, pure, Except.pure]
    rw [h3]
  · field_simp
  · field_simp
    norm_num
  · unfold pjRho2sigma
    positivity
  · rw [sphereMass_physical s hk, pj_sphereMass _ _ _ _ hRa hRs hne]
    have e1 : r200 / s.kpa = r200 * (1 / s.kpa) := by ring
    rw [e1]
    unfold pjRho2sigma pjSigma2rho
    unfold pjRho
    simp only
    set F := (0.01 * rs * (1 / s.kpa) * Real.arctan (r200 * (1 / s.kpa) / (0.01 * rs * (1 / s.kpa))) -
      rs * (1 / s.kpa) * Real.arctan (r200 * (1 / s.kpa) / (rs * (1 / s.kpa)))) /
      ((0.01 * rs * (1 / s.kpa)) ^ 2 - (rs * (1 / s.kpa)) ^ 2) with hFdef
    clear_value F
    set Ra := 0.01 * rs * (1 / s.kpa)
    set Rs := rs * (1 / s.kpa)
    clear_value Ra Rs
    have hsum : Ra + Rs ≠ 0 := by positivity
    have hsum' : Rs + Ra ≠ 0 := by positivity
    have e2 : (s.sigmaCrit * 0.001 ^ 2 / (1 / s.kpa) ^ 2)⁻¹ = (s.sigmaCrit / 1000 ^ 2 * s.kpa ^ 2)⁻¹ := by
      rw [show (0.001 : ℝ) = 1 / 1000 by norm_num]
      congr 1
      field_simp
    rw [e2]
    have hF0 := hF.ne'
    have hu : s.sigmaCrit / 1000 ^ 2 * s.kpa ^ 2 ≠ 0 := by positivity
    generalize s.sigmaCrit / 1000 ^ 2 * s.kpa ^ 2 = u at hu ⊢
    field_simp
    try ring

/-- C83. But the density in the dictionary of physical parameters is not a number, for every halo: scale radius and core radius
are taken to be equal. -/
theorem c83_pseudo_jaffe_physical (e : Env) (m c z : ℝ) : pjPhysicalRho e m c z = .ok none := by
  simp [pjPhysicalRho, nfwParamKpc, nfwParam, pjRhoNp, bind, Except.bind, pure, Except.pure]

example : ∃ Ra Rs sigma0 rhos rs r200, pjaffe demoEnv ⟨6, 2e15⟩ 1e8 15 2 0.1 0.2 =
      .ok [[("center_x", 0.1), ("center_y", 0.2), ("Ra", Ra), ("Rs", Rs), ("sigma0", sigma0)]] ∧
      nfwParamKpc demoEnv 1e8 15 2 (some false) = .ok (rhos, rs, r200) ∧
      Rs * 6 = rs ∧ Ra * 6 = rs / 100 ∧ 0 < sigma0 ∧
      sphereMass (physical ⟨6, 2e15⟩ (pjDensity (pjSigma2rho sigma0 Ra Rs) Ra Rs)) r200 = 1e8 :=
  c83_pseudo_jaffe demoEnv ⟨6, 2e15⟩ 1e8 15 2 0.1 0.2 (by norm_num) (by norm_num) (by norm_num [demoEnv])
    (by norm_num [demoEnv]) (by norm_num) (by norm_num)

/-! ### Cored power laws -/

theorem spl_integrable (rho rc gamma a b : ℝ) (hc : 0 < rc) :
    IntervalIntegrable (fun r => 4 * Real.pi * r ^ 2 * splDensity rho rc gamma r) MeasureTheory.volume a b := by
  apply Continuous.intervalIntegrable
  unfold splDensity
  refine Continuous.mul (by fun_prop) (Continuous.div continuous_const ?_ fun r => ?_)
  · refine Continuous.rpow_const (by fun_prop) fun r => Or.inl ?_
    positivity
  · have : 0 < rc ^ 2 + r ^ 2 := by positivity
    positivity

theorem splMass_eq (R rho rc gamma : ℝ) : splMass R rho rc gamma = sphereMass (splDensity rho rc gamma) R := rfl

theorem splMass_mul (R k rho rc gamma : ℝ) : splMass R (k * rho) rc gamma = k * splMass R rho rc gamma := by
  rw [splMass_eq, splMass_eq, ← sphereMass_mul]
  congr 1
  funext r
  unfold splDensity
  ring

theorem spl_pos {rho rc : ℝ} (gamma r : ℝ) (hrho : 0 < rho) (hc : 0 < rc) : 0 < splDensity rho rc gamma r := by
  unfold splDensity
  have : 0 < rc ^ 2 + r ^ 2 := by positivity
  positivity

theorem splMass_strict {rho rc : ℝ} (gamma : ℝ) (hrho : 0 < rho) (hc : 0 < rc) {a b : ℝ} (ha : 0 ≤ a) (hab : a < b) :
    splMass a rho rc gamma < splMass b rho rc gamma := by
  have h : splMass b rho rc gamma - splMass a rho rc gamma
      = ∫ r in a..b, 4 * Real.pi * r ^ 2 * splDensity rho rc gamma r :=
    intervalIntegral.integral_interval_sub_left (spl_integrable _ _ _ _ _ hc) (spl_integrable _ _ _ _ _ hc)
  have hp : 0 < ∫ r in a..b, 4 * Real.pi * r ^ 2 * splDensity rho rc gamma r := by
    apply intervalIntegral.intervalIntegral_pos_of_pos_on (spl_integrable _ _ _ _ _ hc) _ hab
    intro r hr
    have h1 : 0 < r := lt_of_le_of_lt ha hr.1
    have := spl_pos gamma r hrho hc
    have := Real.pi_pos
    positivity
  linarith

theorem splMass_zero (rho rc gamma : ℝ) : splMass 0 rho rc gamma = 0 := by simp [splMass]

theorem splMass_pos {R rho rc : ℝ} (gamma : ℝ) (hrho : 0 < rho) (hc : 0 < rc) (hR : 0 < R) : 0 < splMass R rho rc gamma := by
  have := splMass_strict gamma hrho hc le_rfl hR
  rwa [splMass_zero] at this

theorem splDensity_scale {rc k : ℝ} (rho gamma r : ℝ) (hc : 0 < rc) (hk : 0 < k) :
    splDensity rho (rc / k) gamma (r / k) = splDensity rho rc gamma r := by
  unfold splDensity
  have h0 : 0 < rc ^ 2 + r ^ 2 := by positivity
  have e1 : (rc / k) ^ 2 + (r / k) ^ 2 = (rc ^ 2 + r ^ 2) / k ^ 2 := by field_simp
  have e2 : (k ^ 2) ^ (gamma / 2) = k ^ gamma := by
    rw [← Real.rpow_natCast, ← Real.rpow_mul hk.le]
    congr 1
    push_cast
    ring
  rw [e1, Real.div_rpow h0.le (by positivity), Real.div_rpow hc.le hk.le, e2]
  have : 0 < k ^ gamma := Real.rpow_pos_of_pos hk _
  have h3 : 0 < (rc ^ 2 + r ^ 2) ^ (gamma / 2) := Real.rpow_pos_of_pos h0 _
  field_simp

/-- C83. A power-law halo has the mass of the NFW halo of the same mass and concentration within the matching radius (2.16 scale
radii, the virial radius or the requested multiple of the scale radius). lenstronomy's central density is `sigma0 / r_core`. -/
theorem c83_power_law (e : Env) (s : Scale) (m c zEval gamma xCore x y : ℝ) (xm : XMatch) (hm : 0 < m) (hc : 0 < c) (hh : 0 < e.h)
    (hr : 0 < e.rhoc zEval) (hk : 0 < s.kpa) (hs : 0 < s.sigmaCrit) (hx : 0 < xCore) (hxm : ∀ v, xm = .value v → 0 < v) :
    ∃ sigma0 rCore rhos rs r200,
      powerLaw e s m c zEval gamma xCore xm x y =
        .ok [[("sigma0", sigma0), ("gamma", gamma), ("center_x", x), ("center_y", y), ("r_core", rCore)]] ∧
      nfwParamKpc e m c zEval (some false) = .ok (rhos, rs, r200) ∧ rCore * s.kpa = xCore * rs ∧ 0 < sigma0 ∧
      (∀ X, (xm = .absent ∧ X = 2.16 ∨ xm = .c ∧ X = c ∨ xm = .value X) →
        sphereMass (physical s (splDensity (sigma0 / rCore) rCore gamma)) (X * rs) = sphereMass (nfwDensity rhos rs) (X * rs)) ∧
      (xm = .c → sphereMass (physical s (splDensity (sigma0 / rCore) rCore gamma)) r200 = m) := by
  obtain ⟨rhos, rs, r200, h1, hrho, hrs, h2, h3⟩ := nfwParamKpc_facts e m c zEval hm hc hh hr
  have hX : 0 < xm.get c := by
    cases xm with
    | absent => norm_num [XMatch.get]
    | c => exact hc
    | value v => exact hxm v rfl
  have hget : ∀ Y, (xm = .absent ∧ Y = 2.16 ∨ xm = .c ∧ Y = c ∨ xm = .value Y) → Y = xm.get c := by
    rintro Y (⟨h, h'⟩ | ⟨h, h'⟩ | h)
    · rw [h, h']; rfl
    · rw [h, h']; rfl
    · rw [h]; rfl
  set X := xm.get c with hXd
  have hpi := Real.pi_pos
  have hrc : 0 < xCore * (X * rs / s.kpa) / X := by positivity
  have hrm : 0 < X * rs / s.kpa := by positivity
  have hsa : 0 < s.sigmaArcsec := by unfold Scale.sigmaArcsec; positivity
  have hM := splMass_pos gamma hsa hrc hrm
  set M := splMass (X * rs / s.kpa) s.sigmaArcsec (xCore * (X * rs / s.kpa) / X) gamma with hMd
  set m' := 4 * Real.pi * rs ^ 3 * rhos * (Real.log (1 + X) - X / (1 + X)) with hm'
  have hf : 0 < Real.log (1 + X) - X / (1 + X) := by
    have h0 := Real.one_sub_inv_le_log_of_pos (show 0 < 1 + X by linarith)
    have h1 : Real.log (1 + X)⁻¹ < (1 + X)⁻¹ - 1 := Real.log_lt_sub_one_of_pos (by positivity) (by
      intro h
      have : 1 + X = 1 := by rw [← inv_inv (1 + X), h, inv_one]
      linarith)
    rw [Real.log_inv] at h1
    have : X / (1 + X) = 1 - (1 + X)⁻¹ := by field_simp; ring
    linarith
  have hm'pos : 0 < m' := by positivity
  have key : sphereMass (physical s (splDensity (m' / M * (xCore * (X * rs / s.kpa) / X) / (xCore * (X * rs / s.kpa) / X))
      (xCore * (X * rs / s.kpa) / X) gamma)) (X * rs) = m' := by
    rw [sphereMass_physical s hk, ← splMass_eq, mul_div_cancel_right₀ _ hrc.ne', ← sigmaArcsec_eq, ← splMass_mul,
      mul_comm s.sigmaArcsec, splMass_mul, ← hMd, div_mul_cancel₀ _ hM.ne']
  refine ⟨m' / M * (xCore * (X * rs / s.kpa) / X), xCore * (X * rs / s.kpa) / X, rhos, rs, r200, ?_, h1, ?_, ?_, ?_, ?_⟩
  · simp only [powerLaw, h1, bind, Except.bind, pure, Except.pure, ← hXd, ← hMd, ← hm']
  · field_simp
  · positivity
  · intro Y hY
    rw [hget Y hY, key, nfw_sphereMass _ _ _ hrs (by positivity), mul_div_assoc, div_self hrs.ne', mul_one, hm']
    ring
  · intro h
    have : X = c := by rw [hXd, h]; rfl
    rw [show r200 = X * rs by rw [h2, this]; ring, key, hm', ← h3, h2, this]
    rw [show rs * c / rs = c by field_simp]

/-- C83. The field halos of this class ignore the concentration given in the profile arguments; subhalos use it. -/
theorem c83_power_law_concentration (c model : ℝ) (h : c ≠ model) :
    powerLawConcentration false (some c) model = c ∧ powerLawConcentration true (some c) model ≠ c ∧
    ∀ field, powerLawConcentration field none model = model := by
  refine ⟨rfl, ?_, fun field => by cases field <;> rfl⟩
  simpa [powerLawConcentration] using h.symm

example := c83_power_law_concentration 12 10 (by norm_num)

example : ∃ sigma0 rCore rhos rs r200,
      powerLaw demoEnv ⟨6, 2e15⟩ 1e8 15 0.5 2.5 0.1 .c 0.1 0.2 =
        .ok [[("sigma0", sigma0), ("gamma", 2.5), ("center_x", 0.1), ("center_y", 0.2), ("r_core", rCore)]] ∧
      nfwParamKpc demoEnv 1e8 15 0.5 (some false) = .ok (rhos, rs, r200) ∧ rCore * 6 = 0.1 * rs ∧ 0 < sigma0 ∧
      sphereMass (physical ⟨6, 2e15⟩ (splDensity (sigma0 / rCore) rCore 2.5)) r200 = 1e8 := by
  obtain ⟨a, b, c, d, f, h1, h2, h3, h4, -, h5⟩ := c83_power_law demoEnv ⟨6, 2e15⟩ 1e8 15 0.5 2.5 0.1 0.1 0.2 .c (by norm_num)
    (by norm_num) (by norm_num [demoEnv]) (by norm_num [demoEnv]) (by norm_num) (by norm_num) (by norm_num) (by simp)
  exact ⟨a, b, c, d, f, h1, h2, h3, h4, h5 rfl⟩

/-! ### Globular clusters -/

theorem gc_radius (s : Scale) (R rho rc gamma : ℝ) (hk : 0 < s.kpa) (hc : 0 < rc) :
    splMass (R / s.kpa) rho (rc / s.kpa) gamma * s.kpa ^ 3 = splMass R rho rc gamma := by
  have h := intervalIntegral.integral_comp_div (a := 0) (b := R)
    (fun u => 4 * Real.pi * u ^ 2 * splDensity rho (rc / s.kpa) gamma u) hk.ne'
  rw [zero_div, smul_eq_mul] at h
  unfold splMass
  rw [pow_succ, mul_comm, mul_assoc, ← h, ← intervalIntegral.integral_const_mul]
  apply intervalIntegral.integral_congr
  intro r _
  simp only
  rw [splDensity_scale _ _ _ hc hk]
  field_simp

/-- C83. A globular cluster has its mass within its size, and the density of the lensing profile is the density of the physical
profile (`rho0`, size, slope, core radius in kpc) at every radius. -/
theorem c83_globular_cluster (s : Scale) (mass gamma sizePc conc x y : ℝ) (hm : 0 < mass) (hsz : 0 < sizePc) (hc : 0 < conc)
    (hk : 0 < s.kpa) (hs : 0 < s.sigmaCrit) :
    ∃ sigma0 rCore rho0 size rCoreKpc,
      globularCluster s mass gamma sizePc conc x y =
        [[("sigma0", sigma0), ("gamma", gamma), ("center_x", x), ("center_y", y), ("r_core", rCore)]] ∧
      gcProfileArgs mass gamma sizePc conc = (rho0, size, gamma, rCoreKpc) ∧
      size * 1000 = sizePc ∧ rCoreKpc * conc = size ∧ rCore * s.kpa = rCoreKpc ∧ 0 < sigma0 ∧
      sphereMass (physical s (splDensity (sigma0 / rCore) rCore gamma)) size = mass ∧
      sphereMass (splDensity rho0 rCoreKpc gamma) size = mass ∧
      ∀ r, physical s (splDensity (sigma0 / rCore) rCore gamma) r = splDensity rho0 rCoreKpc gamma r := by
  set size := sizePc * 1e-3 with hsize
  have hsize0 : 0 < size := by positivity
  have hrck : 0 < size / conc := by positivity
  have hrc : 0 < size / s.kpa / conc := by positivity
  have e1 : size / s.kpa / conc = size / conc / s.kpa := by ring
  have hsa : 0 < s.sigmaArcsec := by unfold Scale.sigmaArcsec; positivity
  have hM1 : 0 < splMass size 1.0 (size / conc) gamma := splMass_pos gamma (by norm_num) hrck hsize0
  have hM2 : 0 < splMass (size / s.kpa) s.sigmaArcsec (size / s.kpa / conc) gamma :=
    splMass_pos gamma hsa hrc (by positivity)
  set M1 := splMass size 1.0 (size / conc) gamma with hM1d
  set M2 := splMass (size / s.kpa) s.sigmaArcsec (size / s.kpa / conc) gamma with hM2d
  have hM12 : M2 * s.kpa ^ 3 = s.sigmaArcsec * M1 := by
    rw [hM2d, e1, gc_radius s _ _ _ _ hk hrck, hM1d, ← splMass_mul]
    norm_num
  have m1 : sphereMass (splDensity (mass / M1) (size / conc) gamma) size = mass := by
    rw [← splMass_eq, show mass / M1 = mass / M1 * 1.0 by norm_num, splMass_mul, ← hM1d, div_mul_cancel₀ _ hM1.ne']
  have dens : ∀ r, physical s (splDensity (mass / M2 * (size / s.kpa / conc) / (size / s.kpa / conc)) (size / s.kpa / conc) gamma) r
      = splDensity (mass / M1) (size / conc) gamma r := by
    intro r
    rw [mul_div_cancel_right₀ _ hrc.ne']
    unfold physical
    rw [e1, splDensity_scale _ _ _ hrck hk]
    have : s.sigmaCrit / 1000 ^ 2 / s.kpa * (mass / M2) = mass / M1 := by
      rw [sigmaArcsec_eq] at hM12
      have hM12' : M1 = M2 * s.kpa / (s.sigmaCrit / 1000 ^ 2) := by
        rw [eq_div_iff (by positivity)]
        have hk2 : s.kpa ^ 2 ≠ 0 := by positivity
        apply mul_right_cancel₀ hk2
        linear_combination -hM12
      rw [hM12']
      field_simp
    unfold splDensity
    rw [← this]
    ring
  refine ⟨mass / M2 * (size / s.kpa / conc), size / s.kpa / conc, mass / M1, size, size / conc, rfl, rfl, ?_, ?_, ?_, ?_, ?_, m1, dens⟩
  · rw [hsize]; norm_num; ring
  · field_simp
  · field_simp
  · positivity
  · rw [show physical s _ = _ from funext dens]
    exact m1

example : ∃ sigma0 rCore, globularCluster ⟨6, 2e15⟩ 1e6 3 100 5 0.1 0.2 =
        [[("sigma0", sigma0), ("gamma", 3), ("center_x", 0.1), ("center_y", 0.2), ("r_core", rCore)]] ∧
      sphereMass (physical ⟨6, 2e15⟩ (splDensity (sigma0 / rCore) rCore 3)) 0.1 = 1e6 := by
  obtain ⟨a, b, c, d, e, h1, h2, h3, h4, h5, h6, h7, -, -⟩ := c83_globular_cluster ⟨6, 2e15⟩ 1e6 3 100 5 0.1 0.2 (by norm_num)
    (by norm_num) (by norm_num) (by norm_num) (by norm_num)
  have hd : d = 0.1 := by norm_num at h3 ⊢; linarith
  exact ⟨a, b, h1, hd ▸ h7⟩

/-- Mass of a uniform sphere. -/
theorem uniform_integral (k R : ℝ) : ∫ r in (0 : ℝ)..R, 4 * Real.pi * r ^ 2 * k = 4 * Real.pi / 3 * R ^ 3 * k := by
  have : ∀ r : ℝ, 4 * Real.pi * r ^ 2 * k = (4 * Real.pi * k) * r ^ 2 := fun r => by ring
  simp only [this]
  rw [intervalIntegral.integral_const_mul, integral_pow]
  norm_num
  ring

theorem splDensity_le {rho rc gamma : ℝ} (r : ℝ) (hrho : 0 < rho) (hc : 0 < rc) (hg : 0 ≤ gamma) :
    splDensity rho rc gamma r ≤ rho := by
  unfold splDensity
  have h0 : 0 < rc ^ 2 + r ^ 2 := by positivity
  rw [div_le_iff₀ (by positivity)]
  have e : rc ^ gamma = (rc ^ 2) ^ (gamma / 2) := by
    rw [← Real.rpow_natCast, ← Real.rpow_mul hc.le]
    congr 1
    push_cast
    ring
  rw [e]
  apply mul_le_mul_of_nonneg_left _ hrho.le
  exact Real.rpow_le_rpow (by positivity) (by nlinarith [sq_nonneg r]) (by linarith)

theorem splDensity_ge {rho rc gamma r : ℝ} (hrho : 0 < rho) (hc : 0 < rc) (hg : 0 ≤ gamma) (hg' : gamma ≤ 16) (hr : 0 ≤ r)
    (hrc : r ≤ rc) : rho / 256 ≤ splDensity rho rc gamma r := by
  unfold splDensity
  have h0 : 0 < rc ^ 2 + r ^ 2 := by positivity
  rw [le_div_iff₀ (by positivity)]
  have e : rc ^ gamma = (rc ^ 2) ^ (gamma / 2) := by
    rw [← Real.rpow_natCast, ← Real.rpow_mul hc.le]
    congr 1
    push_cast
    ring
  have h1 : (rc ^ 2 + r ^ 2) ^ (gamma / 2) ≤ (2 * rc ^ 2) ^ (gamma / 2) :=
    Real.rpow_le_rpow h0.le (by nlinarith) (by linarith)
  rw [Real.mul_rpow (by norm_num) (by positivity)] at h1
  have h2 : (2 : ℝ) ^ (gamma / 2) ≤ 256 := by
    calc (2 : ℝ) ^ (gamma / 2) ≤ 2 ^ (8 : ℝ) := Real.rpow_le_rpow_of_exponent_le (by norm_num) (by linarith)
      _ = 256 := by norm_num
  have h3 : 0 < (rc ^ 2) ^ (gamma / 2) := by positivity
  rw [e]
  calc rho / 256 * (rc ^ 2 + r ^ 2) ^ (gamma / 2) ≤ rho / 256 * (256 * (rc ^ 2) ^ (gamma / 2)) := by
        apply mul_le_mul_of_nonneg_left _ (by positivity)
        exact h1.trans (mul_le_mul_of_nonneg_right h2 h3.le)
    _ = rho * (rc ^ 2) ^ (gamma / 2) := by ring

/-- C83. The bracket in which the half-mass radius of a globular cluster is looked for is always valid: the difference of the
enclosed mass and half of the mass is negative at its lower end, positive at its upper end, and it has exactly one zero
between, where the enclosed mass is half of the mass (slopes up to 16, size up to a thousand core radii). -/
theorem c83_globular_cluster_half_mass (mass gamma sizePc conc : ℝ) (hm : 0 < mass) (hsz : 0 < sizePc) (hc : 0 < conc)
    (hc' : conc ≤ 1000) (hg : 0 ≤ gamma) (hg' : gamma ≤ 16) :
    ∃ rho0 size rCore, gcProfileArgs mass gamma sizePc conc = (rho0, size, gamma, rCore) ∧ 0 < rho0 ∧ size = sizePc / 1000 ∧
      gcHalfMass mass gamma sizePc conc (1e-4 * size) < 0 ∧ 0 < gcHalfMass mass gamma sizePc conc size ∧
      (∃! r, 0 ≤ r ∧ gcHalfMass mass gamma sizePc conc r = 0) ∧
      ∀ r, gcHalfMass mass gamma sizePc conc r = 0 → 0 ≤ r →
        1e-4 * size < r ∧ r < size ∧ sphereMass (splDensity rho0 rCore gamma) r = mass / 2 := by
  set size := sizePc * 1e-3 with hsize
  have hsize0 : 0 < size := by positivity
  have hrck : 0 < size / conc := by positivity
  set rc := size / conc with hrcd
  have hM1 : 0 < splMass size 1.0 rc gamma := splMass_pos gamma (by norm_num) hrck hsize0
  set rho0 := mass / splMass size 1.0 rc gamma with hrho
  have hrho0 : 0 < rho0 := by positivity
  have hmass : splMass size rho0 rc gamma = mass := by
    have h := splMass_mul size rho0 1.0 rc gamma
    rw [hrho, div_mul_cancel₀ _ hM1.ne', show mass / splMass size 1.0 rc gamma * 1.0 = mass / splMass size 1.0 rc gamma by norm_num,
      ← hrho] at h
    exact h
  have hf : ∀ r, gcHalfMass mass gamma sizePc conc r = splMass r rho0 rc gamma - 0.5 * mass := fun r => rfl
  have hpi := Real.pi_pos
  have lo : splMass (1e-4 * size) rho0 rc gamma ≤ 4 * Real.pi / 3 * (1e-4 * size) ^ 3 * rho0 := by
    rw [← uniform_integral]
    apply intervalIntegral.integral_mono_on (by positivity) (spl_integrable _ _ _ _ _ hrck)
      (Continuous.intervalIntegrable (by fun_prop) _ _)
    intro r _
    apply mul_le_mul_of_nonneg_left (splDensity_le r hrho0 hrck hg) (by positivity)
  have hq0 : 0 < min rc size := lt_min hrck hsize0
  have hi : 4 * Real.pi / 3 * (min rc size) ^ 3 * (rho0 / 256) ≤ splMass (min rc size) rho0 rc gamma := by
    rw [← uniform_integral]
    apply intervalIntegral.integral_mono_on hq0.le
      (Continuous.intervalIntegrable (by fun_prop) _ _) (spl_integrable _ _ _ _ _ hrck)
    intro r hr
    apply mul_le_mul_of_nonneg_left (splDensity_ge hrho0 hrck hg hg' hr.1 (hr.2.trans (min_le_left _ _))) (by positivity)
  have hmono : ∀ {a b}, 0 ≤ a → a < b → splMass a rho0 rc gamma < splMass b rho0 rc gamma :=
    fun ha hab => splMass_strict gamma hrho0 hrck ha hab
  have hi2 : splMass (min rc size) rho0 rc gamma ≤ mass := by
    rw [← hmass]
    rcases (min_le_right rc size).lt_or_eq with h | h
    · exact (hmono hq0.le h).le
    · rw [h]
  have hq : size / 1000 ≤ min rc size := by
    apply le_min
    · rw [hrcd]
      exact div_le_div_of_nonneg_left hsize0.le hc hc'
    · linarith
  have hlow : splMass (1e-4 * size) rho0 rc gamma < 0.5 * mass := by
    have h3 : (size / 1000) ^ 3 ≤ (min rc size) ^ 3 := pow_le_pow_left₀ (by positivity) hq 3
    have h4 : 4 * Real.pi / 3 * (size / 1000) ^ 3 * (rho0 / 256) ≤ mass := by
      refine le_trans ?_ (hi.trans hi2)
      apply mul_le_mul_of_nonneg_right _ (by positivity)
      exact mul_le_mul_of_nonneg_left h3 (by positivity)
    have h5 : 0 < 4 * Real.pi / 3 * size ^ 3 * rho0 := by positivity
    set K := 4 * Real.pi / 3 * size ^ 3 * rho0 with hK
    have e1 : 4 * Real.pi / 3 * (1e-4 * size) ^ 3 * rho0 = K * 1e-12 := by rw [hK]; norm_num; ring
    have e2 : 4 * Real.pi / 3 * (size / 1000) ^ 3 * (rho0 / 256) = K * (1e-9 / 256) := by rw [hK]; norm_num; ring
    rw [e1] at lo
    rw [e2] at h4
    norm_num at lo h4 ⊢
    linarith
  have hcont : ContinuousOn (fun r => splMass r rho0 rc gamma) (Set.Icc (1e-4 * size) size) := by
    have : Continuous fun r => splMass r rho0 rc gamma :=
      intervalIntegral.continuous_primitive (fun a b => spl_integrable rho0 rc gamma a b hrck) 0
    exact this.continuousOn
  obtain ⟨r0, hr0, hr0'⟩ := intermediate_value_Icc (show 1e-4 * size ≤ size by norm_num; linarith) hcont
    (show 0.5 * mass ∈ Set.Icc (splMass (1e-4 * size) rho0 rc gamma) (splMass size rho0 rc gamma) from
      ⟨hlow.le, by rw [hmass]; norm_num; linarith⟩)
  have hr00 : 0 ≤ r0 := le_trans (by positivity) hr0.1
  have huniq : ∀ r, 0 ≤ r → splMass r rho0 rc gamma = 0.5 * mass → r = r0 := by
    intro r hr h
    rcases lt_trichotomy r r0 with h' | h' | h'
    · have := hmono hr h'
      simp only at hr0'
      linarith
    · exact h'
    · have := hmono hr00 h'
      simp only at hr0'
      linarith
  refine ⟨rho0, size, rc, rfl, hrho0, by rw [hsize]; norm_num; ring, ?_, ?_, ⟨r0, ⟨hr00, ?_⟩, ?_⟩, ?_⟩
  · rw [hf]; linarith
  · rw [hf, hmass]; norm_num; linarith
  · rw [hf]; simp only at hr0'; linarith
  · rintro r ⟨h1, h2⟩
    rw [hf] at h2
    exact huniq r h1 (by linarith)
  · intro r h2 h1
    rw [hf] at h2
    have h3 : splMass r rho0 rc gamma = 0.5 * mass := by linarith
    have h4 := huniq r h1 h3
    refine ⟨?_, ?_, ?_⟩
    · rw [h4]
      refine lt_of_le_of_ne hr0.1 fun h => ?_
      rw [← h] at hr0'
      simp only at hr0'
      linarith
    · rw [h4]
      refine lt_of_le_of_ne hr0.2 fun h => ?_
      rw [h] at hr0'
      simp only [hmass] at hr0'
      norm_num at hr0'
      linarith
    · rw [← splMass_eq, h3]
      norm_num
      ring

example : gcHalfMass 1e6 3 100 5 (1e-4 * 0.1) < 0 ∧ 0 < gcHalfMass 1e6 3 100 5 0.1 := by
  obtain ⟨a, b, c, h1, h2, h3, h4, h5, -⟩ := c83_globular_cluster_half_mass 1e6 3 100 5 (by norm_num)
    (by norm_num) (by norm_num) (by norm_num) (by norm_num) (by norm_num)
  have hb : b = 0.1 := by norm_num at h3 ⊢; linarith
  exact hb ▸ ⟨h4, h5⟩

/-! ### Generalised NFW halos -/

theorem dplMass_eq (R Rs rho gi go : ℝ) : dplMass R Rs rho gi go = sphereMass (dplDensity rho Rs gi go) R := rfl

theorem dplMass_mul (R Rs k rho gi go : ℝ) : dplMass R Rs (k * rho) gi go = k * dplMass R Rs rho gi go := by
  rw [dplMass_eq, dplMass_eq, ← sphereMass_mul]
  congr 1
  funext r
  unfold dplDensity
  ring

theorem dpl_pos {rho Rs r : ℝ} (gi go : ℝ) (hrho : 0 < rho) (hRs : 0 < Rs) (hr : 0 < r) : 0 < dplDensity rho Rs gi go r := by
  unfold dplDensity
  have : 0 < r / Rs := by positivity
  have h1 : 0 < (r / Rs) ^ gi := Real.rpow_pos_of_pos this _
  have h2 : (0 : ℝ) < 1 + (r / Rs) ^ 2 := by positivity
  have h3 : 0 < (1 + (r / Rs) ^ 2) ^ ((go - gi) / 2) := Real.rpow_pos_of_pos h2 _
  positivity

theorem dpl_integrable {Rs : ℝ} (rho gi go R : ℝ) (hRs : 0 < Rs) (hgi : gi < 3) (hR : 0 ≤ R) :
    IntervalIntegrable (fun r => 4 * Real.pi * r ^ 2 * dplDensity rho Rs gi go r) MeasureTheory.volume 0 R := by
  have h1 : IntervalIntegrable (fun r : ℝ => r ^ (2 - gi)) MeasureTheory.volume 0 R :=
    intervalIntegral.intervalIntegrable_rpow' (by linarith)
  have hc : Continuous fun r : ℝ => 4 * Real.pi * rho * Rs ^ gi / (1 + (r / Rs) ^ 2) ^ ((go - gi) / 2) := by
    refine Continuous.div continuous_const ?_ fun r => ?_
    · refine Continuous.rpow_const (by fun_prop) fun r => Or.inl ?_
      positivity
    · have : 0 < 1 + (r / Rs) ^ 2 := by positivity
      positivity
  refine (h1.mul_continuousOn hc.continuousOn).congr ?_
  rw [Set.uIoc_of_le hR]
  intro r hr
  have hr0 : 0 < r := hr.1
  simp only
  unfold dplDensity
  rw [Real.div_rpow hr0.le hRs.le, Real.rpow_sub hr0, Real.rpow_two]
  have h1 : 0 < r ^ gi := Real.rpow_pos_of_pos hr0 _
  have h2 : 0 < Rs ^ gi := Real.rpow_pos_of_pos hRs _
  have h3 : 0 < 1 + (r / Rs) ^ 2 := by positivity
  have h4 : 0 < (1 + (r / Rs) ^ 2) ^ ((go - gi) / 2) := Real.rpow_pos_of_pos h3 _
  field_simp

theorem dplMass_pos {R Rs rho gi : ℝ} (go : ℝ) (hR : 0 < R) (hRs : 0 < Rs) (hrho : 0 < rho) (hgi : gi < 3) :
    0 < dplMass R Rs rho gi go := by
  apply intervalIntegral.intervalIntegral_pos_of_pos_on (dpl_integrable rho gi go R hRs hgi hR.le) _ hR
  intro r hr
  have := dpl_pos gi go hrho hRs hr.1
  have := Real.pi_pos
  have := hr.1
  positivity

theorem dplMass_scale {k : ℝ} (R Rs rho gi go : ℝ) (hk : 0 < k) : dplMass (k * R) (k * Rs) rho gi go = k ^ 3 * dplMass R Rs rho gi go := by
  have h := intervalIntegral.integral_comp_div (a := 0) (b := k * R)
    (fun u => 4 * Real.pi * u ^ 2 * dplDensity rho Rs gi go u) hk.ne'
  rw [zero_div, smul_eq_mul, mul_div_cancel_left₀ _ hk.ne'] at h
  unfold dplMass
  rw [pow_succ, mul_assoc, ← h, ← intervalIntegral.integral_const_mul]
  apply intervalIntegral.integral_congr
  intro r _
  simp only
  unfold dplDensity
  rw [show r / (k * Rs) = r / k / Rs by field_simp]
  field_simp

theorem gnfw_mass3d (kpa sigma rho Rs gi go R : ℝ) (hk : 0 < kpa) :
    sphereMass (gnfwDensity3d kpa sigma rho Rs gi go) R = sigma * dplMass (R / kpa) Rs rho gi go := by
  have h := sphereMass_physical ⟨kpa, sigma / kpa ^ 2 * 1000 ^ 2⟩ hk (dplDensity rho Rs gi go) R
  have e : physical ⟨kpa, sigma / kpa ^ 2 * 1000 ^ 2⟩ (dplDensity rho Rs gi go) = gnfwDensity3d kpa sigma rho Rs gi go := by
    funext r
    unfold physical gnfwDensity3d
    simp only
    rw [mul_div_cancel_right₀ _ (by norm_num)]
  rw [e] at h
  rw [h, dplMass_eq]
  simp only
  rw [mul_div_cancel_right₀ _ (by norm_num)]
  field_simp

/-- The scale radius does not depend on the kind of NFW profile. -/
theorem nfwParamKpc_rs {e : Env} {m c z rhos rs r200 : ℝ} (h : nfwParamKpc e m c z (some false) = .ok (rhos, rs, r200)) :
    ∃ rho', nfwParamKpc e m c z (some true) = .ok (rho', rs, r200) := by
  simp only [nfwParamKpc, nfwParam, bind, Except.bind, pure, Except.pure, Except.ok.injEq, Prod.mk.injEq, Bool.false_eq_true,
    if_false] at h
  refine ⟨rho0cPseudo e c z * e.h ^ 2 * ((1000 : ℝ) ^ 3)⁻¹, ?_⟩
  simp only [nfwParamKpc, nfwParam, bind, Except.bind, pure, Except.pure, if_true, h.2.1, h.2.2]

/-- C83. A generalised NFW halo (inner slope below 3) has, within the matching radius, the mass of the NFW halo of the same mass
and concentration - whatever transition radius an earlier reader of the shared dictionary left in it. Its entries are that
profile's to ten digits. -/
theorem c83_generalised_nfw (toAlpha toRho : ℝ → ℝ → ℝ → ℝ → ℝ) (e : Env) (kpa sigma m c zEval x y : ℝ) (a : GnfwArgs)
    (hinv : ∀ rho Rs, 0 < Rs → toRho (toAlpha rho Rs a.gi a.go) Rs a.gi a.go = rho)
    (hm : 0 < m) (hc : 0 < c) (hh : 0 < e.h) (hr : 0 < e.rhoc zEval) (hk : 0 < kpa) (hs : 0 < sigma)
    (hxm : ∀ v, a.xMatch = .value v → 0 < v) (hgi : a.gi < 3) (hrt : ∀ r, a.rTransition = some r → 0 < r)
    (hmc : a.massConservation = none) :
    ∃ d a' alpha Rs rhos rs r200, gnfw toAlpha e kpa sigma m c zEval x y a = .ok ([d], a') ∧
      nfwParamKpc e m c zEval (some false) = .ok (rhos, rs, r200) ∧
      Has d "alpha_Rs" alpha 10 ∧ Has d "Rs" Rs 10 ∧ Rs * kpa = rs ∧
      (∀ X, (a.xMatch = .absent ∧ X = 2.16 ∨ a.xMatch = .c ∧ X = c ∨ a.xMatch = .value X) →
        sphereMass (gnfwDensity3d kpa sigma (toRho alpha Rs a.gi a.go) Rs a.gi a.go) (X * rs)
          = sphereMass (nfwDensity rhos rs) (X * rs)) ∧
      (∃ r, 0 < r ∧ a' = { a with rTransition := some r }) := by
  obtain ⟨rhos, rs, r200, h1, hrho, hrs, h2, h3⟩ := nfwParamKpc_facts e m c zEval hm hc hh hr
  obtain ⟨rho', h1'⟩ := nfwParamKpc_rs h1
  have hX : 0 < a.xMatch.get c := by
    cases hx : a.xMatch with
    | absent => norm_num [XMatch.get]
    | c => exact hc
    | value v => exact hxm v hx
  have hget : ∀ Y, (a.xMatch = .absent ∧ Y = 2.16 ∨ a.xMatch = .c ∧ Y = c ∨ a.xMatch = .value Y) → Y = a.xMatch.get c := by
    rintro Y (⟨h, h'⟩ | ⟨h, h'⟩ | h)
    · rw [h, h']; rfl
    · rw [h, h']; rfl
    · rw [h]; rfl
  have hrt' : ∃ rt, 0 < rt ∧ (match a.rTransition with | some r => r | none => rs) = rt := by
    cases hx : a.rTransition with
    | none => exact ⟨rs, hrs, rfl⟩
    | some r => exact ⟨r, hrt r hx, rfl⟩
  obtain ⟨rt, hrt0, hrteq⟩ := hrt'
  set X := a.xMatch.get c with hXd
  set rho := 4 * Real.pi * rt ^ 3 * rhos * (Real.log (1 + X) - X / (1 + X)) / dplMass (X * rt / kpa) (rt / kpa) sigma a.gi a.go
    with hrhod
  have hpi := Real.pi_pos
  have hnorm : gnfwNorm e kpa sigma m c zEval a = .ok (rho, { a with rTransition := some rt }) := by
    simp only [gnfwNorm, h1, bind, Except.bind, pure, Except.pure, hmc, ← hXd]
    rw [hrhod, ← hrteq]
    rfl
  refine ⟨[("alpha_Rs", round10 (toAlpha rho (rs / kpa) a.gi a.go)), ("Rs", round10 (rs / kpa)), ("gamma_inner", a.gi),
    ("center_x", round4 x), ("center_y", round4 y), ("gamma_outer", a.go)], { a with rTransition := some rt },
    toAlpha rho (rs / kpa) a.gi a.go, rs / kpa, rhos, rs, r200, ?_, h1, has10 rfl, has10 rfl, ?_, ?_, rt, hrt0, rfl⟩
  · simp only [gnfw, h1', hnorm, bind, Except.bind, pure, Except.pure]
  · field_simp
  · intro Y hY
    rw [hget Y hY, hinv _ _ (by positivity), gnfw_mass3d _ _ _ _ _ _ _ hk, nfw_sphereMass _ _ _ hrs (by positivity), mul_div_assoc X rs rs,
      div_self hrs.ne', mul_one, hrhod]
    have hM := dplMass_pos (R := X * rs / kpa) (Rs := rs / kpa) a.go (by positivity) (by positivity) hs hgi
    have e1 : dplMass (X * rt / kpa) (rt / kpa) sigma a.gi a.go
        = (rt / rs) ^ 3 * dplMass (X * rs / kpa) (rs / kpa) sigma a.gi a.go := by
      rw [← dplMass_scale _ _ _ _ _ (by positivity)]
      congr 1 <;> field_simp
    rw [e1]
    set M := dplMass (X * rs / kpa) (rs / kpa) sigma a.gi a.go with hMd
    set F := Real.log (1 + X) - X / (1 + X)
    have e2 : ∀ u, sigma * dplMass (X * rs / kpa) (rs / kpa) u a.gi a.go = u * M := by
      intro u
      rw [hMd, ← dplMass_mul, ← dplMass_mul, mul_comm u]
    rw [e2]
    field_simp

/-- C83. With a prescribed mass the result does depend on the transition radius: the enclosed mass is the prescribed mass times
the cube of the ratio of the scale radius and the transition radius. -/
theorem c83_generalised_nfw_prescribed (e : Env) (kpa sigma m c zEval M : ℝ) (a : GnfwArgs) (hm : 0 < m) (hc : 0 < c)
    (hh : 0 < e.h) (hr : 0 < e.rhoc zEval) (hk : 0 < kpa) (hs : 0 < sigma) (hxm : ∀ v, a.xMatch = .value v → 0 < v)
    (hgi : a.gi < 3) (hM : 0 < M) (hmc : a.massConservation = some M) (rhos rs r200 : ℝ)
    (hp : nfwParamKpc e m c zEval (some false) = .ok (rhos, rs, r200)) (rt : ℝ) (hrt0 : 0 < rt)
    (hrt : a.rTransition = some rt ∨ a.rTransition = none ∧ rt = rs) :
    ∃ rho a', gnfwNorm e kpa sigma m c zEval a = .ok (rho, a') ∧
      ∀ X, (a.xMatch = .absent ∧ X = 2.16 ∨ a.xMatch = .c ∧ X = c ∨ a.xMatch = .value X) →
        sphereMass (gnfwDensity3d kpa sigma rho (rs / kpa) a.gi a.go) (X * rs) = M * (rs / rt) ^ 3 ∧
        (rt ≠ rs → sphereMass (gnfwDensity3d kpa sigma rho (rs / kpa) a.gi a.go) (X * rs) ≠ M) := by
  obtain ⟨rhos', rs', r200', h1, hrho, hrs, h2, h3⟩ := nfwParamKpc_facts e m c zEval hm hc hh hr
  rw [hp] at h1
  injection h1 with h1
  injection h1 with ha h1
  injection h1 with hb _
  subst ha hb
  have hX : 0 < a.xMatch.get c := by
    cases hx : a.xMatch with
    | absent => norm_num [XMatch.get]
    | c => exact hc
    | value v => exact hxm v hx
  have hget : ∀ Y, (a.xMatch = .absent ∧ Y = 2.16 ∨ a.xMatch = .c ∧ Y = c ∨ a.xMatch = .value Y) → Y = a.xMatch.get c := by
    rintro Y (⟨h, h'⟩ | ⟨h, h'⟩ | h)
    · rw [h, h']; rfl
    · rw [h, h']; rfl
    · rw [h]; rfl
  have hrteq : (match a.rTransition with | some r => r | none => rs) = rt := by
    rcases hrt with h | ⟨h, h'⟩
    · rw [h]
    · rw [h, h']
  set X := a.xMatch.get c with hXd
  refine ⟨M / dplMass (X * rt / kpa) (rt / kpa) sigma a.gi a.go, { a with rTransition := some rt }, ?_, ?_⟩
  · simp only [gnfwNorm, hp, bind, Except.bind, pure, Except.pure, hmc, ← hXd]
    rw [← hrteq]
    rfl
  · intro Y hY
    have hM' := dplMass_pos (R := X * rs / kpa) (Rs := rs / kpa) a.go (by positivity) (by positivity) hs hgi
    have e1 : dplMass (X * rt / kpa) (rt / kpa) sigma a.gi a.go
        = (rt / rs) ^ 3 * dplMass (X * rs / kpa) (rs / kpa) sigma a.gi a.go := by
      rw [← dplMass_scale _ _ _ _ _ (by positivity)]
      congr 1 <;> field_simp
    have key : sphereMass (gnfwDensity3d kpa sigma (M / dplMass (X * rt / kpa) (rt / kpa) sigma a.gi a.go) (rs / kpa) a.gi a.go)
        (Y * rs) = M * (rs / rt) ^ 3 := by
      rw [hget Y hY, gnfw_mass3d _ _ _ _ _ _ _ hk, e1]
      set W := dplMass (X * rs / kpa) (rs / kpa) sigma a.gi a.go with hMd
      have e2 : ∀ u, sigma * dplMass (X * rs / kpa) (rs / kpa) u a.gi a.go = u * W := by
        intro u
        rw [hMd, ← dplMass_mul, ← dplMass_mul, mul_comm u]
      rw [e2]
      field_simp
    refine ⟨key, fun hne h => hne ?_⟩
    rw [key] at h
    have h4 : (rs / rt) ^ 3 = 1 := by
      have := mul_left_cancel₀ hM.ne' (show M * (rs / rt) ^ 3 = M * 1 by linarith)
      exact this
    have h5 : rs / rt = 1 := (pow_eq_one_iff_of_nonneg (by positivity) (by norm_num)).mp h4
    field_simp at h5
    exact h5.symm

/-- The arguments of the examples. -/
noncomputable def demoGnfw : GnfwArgs := ⟨2, 4, .c, some 3, none⟩

example : ∃ d a', gnfw (fun rho _ _ _ => 2 * rho) demoEnv 6 1e11 1e8 15 0.5 0.1 0.2 demoGnfw = .ok ([d], a') ∧
    ∃ alpha, Has d "alpha_Rs" alpha 10 := by
  obtain ⟨d, a', al, Rs, rhos, rs, r200, h1, h2, h3, -⟩ := c83_generalised_nfw
    (fun rho _ _ _ => 2 * rho) (fun alpha _ _ _ => alpha / 2) demoEnv 6 1e11 1e8 15 0.5 0.1 0.2 demoGnfw
    (fun rho Rs _ => by ring) (by norm_num) (by norm_num) (by norm_num [demoEnv]) (by norm_num [demoEnv])
    (by norm_num) (by norm_num) (by simp [demoGnfw]) (by norm_num [demoGnfw]) (by simp [demoGnfw]) rfl
  exact ⟨d, a', h1, al, h3⟩

example (rhos rs r200 : ℝ) (hp : nfwParamKpc demoEnv 1e8 15 0.5 (some false) = .ok (rhos, rs, r200)) (h : (3 : ℝ) ≠ rs) :
    ∃ rho a', gnfwNorm demoEnv 6 1e11 1e8 15 0.5 { demoGnfw with massConservation := some 1e7 } = .ok (rho, a') ∧
      sphereMass (gnfwDensity3d 6 1e11 rho (rs / 6) 2 4) (15 * rs) ≠ 1e7 := by
  obtain ⟨rho, a', h1, h2⟩ := c83_generalised_nfw_prescribed demoEnv 6 1e11 1e8 15 0.5 1e7
    { demoGnfw with massConservation := some 1e7 } (by norm_num) (by norm_num) (by norm_num [demoEnv]) (by norm_num [demoEnv])
    (by norm_num) (by norm_num) (by simp [demoGnfw]) (by norm_num [demoGnfw]) (by norm_num) rfl rhos rs r200 hp 3 (by norm_num)
    (Or.inl rfl)
  exact ⟨rho, a', h1, (h2 15 (Or.inr (Or.inl ⟨rfl, rfl⟩))).2 h⟩

/-- The density of a generalised NFW halo whatever the transition radius. -/
theorem gnfwNorm_any (e : Env) (kpa sigma m c zEval : ℝ) (a : GnfwArgs) (hm : 0 < m) (hc : 0 < c) (hh : 0 < e.h)
    (hr : 0 < e.rhoc zEval) (hk : 0 < kpa) (hrt : ∀ r, a.rTransition = some r → 0 < r) (hmc : a.massConservation = none) :
    ∃ rho, (∃ r, 0 < r ∧ gnfwNorm e kpa sigma m c zEval a = .ok (rho, { a with rTransition := some r })) ∧
      ∃ r, 0 < r ∧ gnfwNorm e kpa sigma m c zEval { a with rTransition := none } = .ok (rho, { a with rTransition := some r }) := by
  obtain ⟨rhos, rs, r200, h1, hrho, hrs, h2, h3⟩ := nfwParamKpc_facts e m c zEval hm hc hh hr
  set X := a.xMatch.get c with hXd
  set F := 4 * Real.pi * rhos * (Real.log (1 + X) - X / (1 + X)) with hF
  have hscale : ∀ rt, 0 < rt → 4 * Real.pi * rt ^ 3 * rhos * (Real.log (1 + X) - X / (1 + X))
      / dplMass (X * rt / kpa) (rt / kpa) sigma a.gi a.go = F / dplMass (X / kpa) (1 / kpa) sigma a.gi a.go := by
    intro rt h
    have e1 : dplMass (X * rt / kpa) (rt / kpa) sigma a.gi a.go = rt ^ 3 * dplMass (X / kpa) (1 / kpa) sigma a.gi a.go := by
      rw [← dplMass_scale _ _ _ _ _ h]
      congr 1 <;> ring
    rw [e1, show 4 * Real.pi * rt ^ 3 * rhos * (Real.log (1 + X) - X / (1 + X)) = rt ^ 3 * F by rw [hF]; ring,
      mul_div_mul_left _ _ (by positivity)]
  refine ⟨F / dplMass (X / kpa) (1 / kpa) sigma a.gi a.go, ?_, rs, hrs, ?_⟩
  · cases hx : a.rTransition with
    | none =>
      refine ⟨rs, hrs, ?_⟩
      simp only [gnfwNorm, h1, bind, Except.bind, pure, Except.pure, hmc, hx, ← hXd]
      rw [hscale rs hrs]
    | some r =>
      refine ⟨r, hrt r hx, ?_⟩
      simp only [gnfwNorm, h1, bind, Except.bind, pure, Except.pure, hmc, hx, ← hXd]
      rw [hscale r (hrt r hx)]
  · simp only [gnfwNorm, h1, bind, Except.bind, pure, Except.pure, hmc, ← hXd]
    rw [hscale rs hrs]

/-- C83. The halos of a realisation share one dictionary of profile arguments, and the first one read writes its transition
radius into it. For halos without a prescribed mass this has no effect: reading any list of halos in turn gives each of them the
parameters it has alone. -/
theorem c83_generalised_nfw_order (toAlpha : ℝ → ℝ → ℝ → ℝ → ℝ) (e : Env) (hh : 0 < e.h) :
    ∀ (l : List (ℝ × ℝ × ℝ × ℝ × ℝ × ℝ × ℝ)) (a : GnfwArgs),
      (∀ h ∈ l, 0 < h.1 ∧ 0 < h.2.2.1 ∧ 0 < h.2.2.2.1 ∧ 0 < e.rhoc h.2.2.2.2.1) →
      (∀ r, a.rTransition = some r → 0 < r) → a.massConservation = none →
      ∃ ds, gnfwAll toAlpha e l a = .ok ds ∧
        List.Forall₂ (fun (h : ℝ × ℝ × ℝ × ℝ × ℝ × ℝ × ℝ) d => ∃ a',
          gnfw toAlpha e h.1 h.2.1 h.2.2.1 h.2.2.2.1 h.2.2.2.2.1 h.2.2.2.2.2.1 h.2.2.2.2.2.2 { a with rTransition := none }
            = .ok (d, a')) l ds
  | [], a, _, _, _ => ⟨[], rfl, .nil⟩
  | (kpa, sigma, m, c, zEval, x, y) :: l, a, hl, hrt, hmc => by
    obtain ⟨hk, hm, hc, hr⟩ := hl _ (List.mem_cons_self)
    simp only at hk hm hc hr
    obtain ⟨rhos, rs, r200, h1, -⟩ := nfwParamKpc_facts e m c zEval hm hc hh hr
    obtain ⟨rho', h1'⟩ := nfwParamKpc_rs h1
    obtain ⟨rho, ⟨r, hr0, g1⟩, r', hr0', g2⟩ := gnfwNorm_any e kpa sigma m c zEval a hm hc hh hr hk hrt hmc
    obtain ⟨ds, i1, i2⟩ := c83_generalised_nfw_order toAlpha e hh l { a with rTransition := some r }
      (fun h hh' => hl h (List.mem_cons_of_mem _ hh')) (fun q hq => by
        injection hq with hq
        rw [← hq]
        exact hr0) hmc
    set d : List Dict := [[("alpha_Rs", round10 (toAlpha rho (rs / kpa) a.gi a.go)), ("Rs", round10 (rs / kpa)),
      ("gamma_inner", a.gi), ("center_x", round4 x), ("center_y", round4 y), ("gamma_outer", a.go)]] with hd
    refine ⟨d :: ds, ?_, List.Forall₂.cons ⟨{ a with rTransition := some r' }, ?_⟩ i2⟩
    · simp only [gnfwAll, gnfw, h1', g1, i1, bind, Except.bind, pure, Except.pure]
      rfl
    · simp only [gnfw, h1', g2, bind, Except.bind, pure, Except.pure]
      rfl

example : ∃ ds, gnfwAll (fun rho _ _ _ => 2 * rho) demoEnv [(6, 1e11, 1e8, 15, 0.5, 0.1, 0.2), (6, 1e11, 1e9, 12, 0.5, 0.3, 0.2)]
    { demoGnfw with rTransition := none } = .ok ds ∧ ds.length = 2 := by
  obtain ⟨ds, h1, h2⟩ := c83_generalised_nfw_order (fun rho _ _ _ => 2 * rho) demoEnv (by norm_num [demoEnv])
    [(6, 1e11, 1e8, 15, 0.5, 0.1, 0.2), (6, 1e11, 1e9, 12, 0.5, 0.3, 0.2)] { demoGnfw with rTransition := none }
    (by simp [demoEnv]; norm_num) (by simp) rfl
  exact ⟨ds, h1, h2.length_eq.symm⟩

/-- C83. The logarithmic slope of the generalised NFW profile is its derivative: `inner` slope in the centre, towards the outer
slope outside. -/
theorem c83_generalised_nfw_slope (rho rs gi go r : ℝ) (hrho : 0 < rho) (hrs : 0 < rs) (hr : 0 < r) :
    HasDerivAt (fun t => Real.log (dplDensity rho rs gi go (Real.exp t))) (gnfwLogSlope r rs gi go) (Real.log r) := by
  have hfun : (fun t => Real.log (dplDensity rho rs gi go (Real.exp t)))
      = fun t => Real.log rho - (gi * (t - Real.log rs) + (go - gi) / 2 * Real.log (1 + (Real.exp t / rs) ^ 2)) := by
    funext t
    unfold dplDensity
    have h0 : 0 < Real.exp t / rs := by positivity
    have h1 : 0 < (Real.exp t / rs) ^ gi := Real.rpow_pos_of_pos h0 _
    have h2 : 0 < 1 + (Real.exp t / rs) ^ 2 := by positivity
    have h3 : 0 < (1 + (Real.exp t / rs) ^ 2) ^ ((go - gi) / 2) := Real.rpow_pos_of_pos h2 _
    rw [Real.log_div hrho.ne' (by positivity), Real.log_mul h1.ne' h3.ne', Real.log_rpow h0, Real.log_rpow h2,
      Real.log_div (Real.exp_pos t).ne' hrs.ne', Real.log_exp]
  rw [hfun]
  have he : HasDerivAt (fun t : ℝ => Real.exp t / rs) (r / rs) (Real.log r) := by
    have := (Real.hasDerivAt_exp (Real.log r)).div_const rs
    rwa [Real.exp_log hr] at this
  have h1 := (he.pow 2).const_add 1
  have h2 : 0 < 1 + (Real.exp (Real.log r) / rs) ^ 2 := by positivity
  have h3 := h1.log h2.ne'
  have h4 := ((((hasDerivAt_id (Real.log r)).sub_const (Real.log rs)).const_mul gi).add (h3.const_mul ((go - gi) / 2))).const_sub
    (Real.log rho)
  refine h4.congr_deriv ?_
  simp only [gnfwLogSlope, Real.exp_log hr, Pi.pow_apply]
  have : 1 + (r / rs) ^ 2 ≠ 0 := by positivity
  clear h4 h3 h2 h1 he hfun
  generalize r / rs = u at this ⊢
  push_cast
  field_simp
  ring

example : HasDerivAt (fun t => Real.log (dplDensity 2 3 1 4 (Real.exp t))) (gnfwLogSlope 5 3 1 4) (Real.log 5) :=
  c83_generalised_nfw_slope 2 3 1 4 5 (by norm_num) (by norm_num) (by norm_num)

/-! ### Point masses, isothermal spheres, massive galaxies -/

/-- C83. The mass of a critical surface density within the Einstein radius of a black hole is its mass. -/
theorem c83_black_hole (e : Env) (mass z x y : ℝ) (hM : 0 ≤ mass) (hG : 0 < e.G) (hc : 0 < e.c) (h1 : 0 < e.DA z e.zSource)
    (h2 : 0 < e.DAz z) (h3 : 0 < e.DAz e.zSource) :
    ∃ thetaE, blackHole e mass z x y = [[("center_x", x), ("center_y", y), ("theta_E", thetaE)]] ∧ 0 ≤ thetaE ∧
      sigmaCritMass e z (Real.pi * (thetaE * arcsec * e.DAz z) ^ 2) = mass := by
  refine ⟨pointMassFactor e z * Real.sqrt mass, rfl, ?_, ?_⟩
  · have : 0 ≤ pointMassFactor e z := by
      have hpi := Real.pi_pos
      unfold pointMassFactor arcsec
      positivity
    positivity
  · rw [mul_comm (pointMassFactor e z)]
    exact c60_point_mass e z mass hM hG hc h1 h2 h3

example : ∃ thetaE, blackHole demoEnv 1e6 0.5 0.1 0.2 = [[("center_x", 0.1), ("center_y", 0.2), ("theta_E", thetaE)]] ∧
    0 ≤ thetaE ∧ sigmaCritMass demoEnv 0.5 (Real.pi * (thetaE * arcsec * demoEnv.DAz 0.5) ^ 2) = 1e6 :=
  c83_black_hole demoEnv 1e6 0.5 0.1 0.2 (by norm_num) (by norm_num [demoEnv]) (by norm_num [demoEnv]) (by norm_num [demoEnv])
    (by norm_num [demoEnv]) (by norm_num [demoEnv])

/-- C83. The Einstein radius of an isothermal sphere is that of the velocity dispersion `0.646 vmax`: `4π (σ/c)² D_ds / D_s` in
arcseconds, to one part in a million (the code rounds the speed of light and the number of arcseconds in a radian). -/
theorem c83_isothermal (e : Env) (z vmax x y : ℝ) (h1 : 0 < e.DA z e.zSource) (h2 : 0 < e.DA 0 e.zSource) :
    ∃ d thetaE exact, sis e z vmax x y = [d] ∧ d.lookup "theta_E" = some thetaE ∧ Has d "center_x" x 4 ∧ Has d "center_y" y 4 ∧
      exact = 4 * Real.pi * (0.646 * vmax / 299792.458) ^ 2 * (e.DA z e.zSource / e.DA 0 e.zSource) * (180 * 3600 / Real.pi) ∧
      |thetaE - exact| ≤ 1e-6 * exact := by
  refine ⟨[("theta_E", thetaE e z (0.646 * vmax)), ("center_x", round4 x), ("center_y", round4 y)], thetaE e z (0.646 * vmax), _,
    rfl, rfl, has4 rfl, has4 rfl, rfl, ?_⟩
  have hp1 := Real.pi_gt_d6
  have hp2 := Real.pi_lt_d6
  have hpi := Real.pi_pos
  set K := (0.646 * vmax) ^ 2 * (e.DA z e.zSource / e.DA 0 e.zSource) with hK
  have hK0 : 0 ≤ K := by positivity
  have e1 : thetaE e z (0.646 * vmax) = K * (4 * Real.pi * 206265 / 299792.5 ^ 2) := by
    unfold thetaE
    rw [hK, div_pow]
    ring
  have e2 : 4 * Real.pi * (0.646 * vmax / 299792.458) ^ 2 * (e.DA z e.zSource / e.DA 0 e.zSource) * (180 * 3600 / Real.pi)
      = K * (4 * 648000 / 299792.458 ^ 2) := by
    rw [hK, div_pow]
    field_simp
    ring
  rw [e1, e2, ← mul_sub, abs_mul, abs_of_nonneg hK0]
  rw [show 1e-6 * (K * (4 * 648000 / 299792.458 ^ 2)) = K * (1e-6 * (4 * 648000 / (299792.458 : ℝ) ^ 2)) by ring]
  apply mul_le_mul_of_nonneg_left _ hK0
  rw [abs_le]
  constructor <;> norm_num <;> linarith

example : ∃ d thetaE, sis demoEnv 0.5 100 0.1 0.2 = [d] ∧ d.lookup "theta_E" = some thetaE ∧ 0 < thetaE := by
  obtain ⟨d, t, ex, h1, h2, -, -, h3, h4⟩ := c83_isothermal demoEnv 0.5 100 0.1 0.2 (by norm_num [demoEnv]) (by norm_num [demoEnv])
  have hpi := Real.pi_pos
  have : 0 < ex := by rw [h3]; norm_num [demoEnv]; positivity
  refine ⟨d, t, h1, h2, ?_⟩
  have := (abs_le.mp h4).1
  norm_num at this
  linarith

/-- C83. A massive galaxy has, within the virial radius of the halo it replaces, the mass of that halo there; its scale radius is
the truncation radius of a subhalo and the scale radius of a field halo. The enclosed mass of the library is linear in the
amplitude. -/
theorem c83_massive_galaxy (mass3dLens : ℝ → ℝ → ℝ → ℝ → ℝ → ℝ) (s : Scale) (h : Replaced) (x y : ℝ)
    (hlin : ∀ r Rs k gi go, mass3dLens r Rs k gi go = k * mass3dLens r Rs 1 gi go)
    (hpos : ∀ r Rs, 0 < r → 0 < Rs → 0 < mass3dLens r Rs 1 2 5) (hk : 0 < s.kpa) (hs : 0 < s.sigmaCrit)
    (hr : 0 < h.r200) (hrt : 0 < h.rt) (hrs : 0 < h.rs) :
    ∃ d alpha Rs, massiveGalaxy mass3dLens s h x y = [d] ∧ Has d "alpha_Rs" alpha 10 ∧ Has d "Rs" Rs 10 ∧
      d.lookup "gamma_inner" = some 2 ∧ d.lookup "gamma_outer" = some 5 ∧ Has d "center_x" x 4 ∧ Has d "center_y" y 4 ∧
      (h.isSubhalo = true → Rs * s.kpa = h.rt) ∧ (h.isSubhalo = false → Rs * s.kpa = h.rs) ∧
      s.sigmaCrit / 1000 ^ 2 * s.kpa ^ 2 * mass3dLens (h.r200 / s.kpa) Rs alpha 2 5 = h.mass := by
  have hsc : 0 < h.scaleRadius := by unfold Replaced.scaleRadius; split_ifs <;> assumption
  refine ⟨_, alphaRs mass3dLens s h, h.scaleRadius / s.kpa, rfl, has10 rfl, has10 rfl, ?_, ?_, has4 rfl, has4 rfl, ?_, ?_, ?_⟩
  · show some (2.0 : ℝ) = some 2
    norm_num
  · show some (5.0 : ℝ) = some 5
    norm_num
  · intro h1
    rw [div_mul_cancel₀ _ hk.ne', Replaced.scaleRadius, if_pos h1]
  · intro h1
    rw [div_mul_cancel₀ _ hk.ne', Replaced.scaleRadius, if_neg (by simp [h1])]
  · rw [hlin]
    unfold alphaRs
    rw [sigmaArcsec_eq, show (2.0 : ℝ) = 2 by norm_num, show (5.0 : ℝ) = 5 by norm_num, show (1.0 : ℝ) = 1 by norm_num]
    have := hpos (h.r200 / s.kpa) (h.scaleRadius / s.kpa) (by positivity) (by positivity)
    field_simp

example : ∃ (d : Dict) (alpha Rs : ℝ), massiveGalaxy (fun r Rs k _ _ => k * (r * Rs)) ⟨6, 2e15⟩ ⟨true, 1e11, 30, 20, 200⟩ 0.1 0.2 = [d] ∧
    Has d "alpha_Rs" alpha 10 ∧ Rs * 6 = 30 := by
  obtain ⟨d, a, R, h1, h2, -, -, -, -, -, h3, -⟩ := c83_massive_galaxy (fun r Rs k _ _ => k * (r * Rs)) ⟨6, 2e15⟩
    ⟨true, 1e11, 30, 20, 200⟩ 0.1 0.2 (fun r Rs k _ _ => by ring) (fun r Rs h1 h2 => by positivity) (by norm_num)
    (by norm_num) (by norm_num) (by norm_num) (by norm_num)
  exact ⟨d, a, R, h1, h2, h3 rfl⟩

/-! ### Cored NFW halos -/

/-- C83. The density of a cored NFW halo (before its parameters are rounded) is that of the NFW halo of the same mass with the
cusp replaced by a core of `beta` scale radii, times a number `(1 - ln 2) / G(1, 1e-4)` close to one that does not depend on the
core (`G` is the library's function for the deflection). The enclosed mass is therefore not that of the halo: it is smaller by
at least the factor `c / (c + beta)`. -/
theorem c83_cored (e : Env) (G : ℝ → ℝ → ℝ) (s : Scale) (m c zEval beta z : ℝ) (hm : 0 < m) (hc : 0 < c) (hh : 0 < e.h)
    (hr : 0 < e.rhoc zEval) (hb : 0 < beta) (hG : ∀ b, 0 < b → 0 < G 1 b)
    (hD : 0 < e.DAz z) (hk : s.kpa = e.DAz z * 1000 * arcsec) (hs : s.sigmaCrit = sigmaCrit e z e.zSource)
    (hs0 : 0 < s.sigmaCrit) :
    ∃ rhos rs r200 alpha Rs rc, nfwParamKpc e m c zEval (some false) = .ok (rhos, rs, r200) ∧
      cnfwExact e G s rhos rs beta z = (alpha, Rs, rc) ∧ Rs * s.kpa = rs ∧ rc * s.kpa = beta * rs ∧
      (∀ norm x y, ∃ d, cnfw e G s m c zEval beta z norm x y = .ok [d] ∧ (norm = 1 → Has d "alpha_Rs" alpha 10) ∧ Has d "Rs" Rs 10 ∧
        Has d "r_core" rc 10 ∧ Has d "center_x" x 4 ∧ Has d "center_y" y 4) ∧
      (∀ r, 0 < r → physical s (cnfwDensity (cnfwAlpha2rho G alpha Rs rc) Rs rc) r
        = (1 - Real.log 2) / G 1 1e-4 * (r / (r + beta * rs) * nfwDensity rhos rs r)) ∧
      sphereMass (physical s (cnfwDensity (cnfwAlpha2rho G alpha Rs rc) Rs rc)) r200
        ≤ (1 - Real.log 2) / G 1 1e-4 * (c / (c + beta) * m) := by
  obtain ⟨rhos, rs, r200, h1, hrho, hrs, h2, h3⟩ := nfwParamKpc_facts e m c zEval hm hc hh hr
  have hpi := Real.pi_pos
  have harc : 0 < arcsec := by unfold arcsec; positivity
  have hkpa : 0 < s.kpa := by rw [hk]; positivity
  have hGb := hG beta hb
  have hG4 := hG 1e-4 (by norm_num)
  have hlog : Real.log (1 / 2) = -Real.log 2 := by rw [one_div, Real.log_inv]
  have hl2 : Real.log 2 < 1 := by
    have := Real.log_two_lt_d9
    linarith
  have hr200 : 0 < r200 := by rw [h2]; positivity
  set al := (cnfwExact e G s rhos rs beta z).1 with hal
  have hratio : cnfwMass2d G rs rs 1.0 (beta * rs) / cnfwMass2d G rs rs 1.0 (1e-4 * rs) = G 1 beta / G 1 1e-4 := by
    unfold cnfwMass2d
    rw [div_self hrs.ne', mul_div_cancel_right₀ _ hrs.ne', mul_div_cancel_right₀ _ hrs.ne']
    field_simp
  have hal2 : al = 4 * rhos * 1e9 * (rs * 1e-3) ^ 2 * (1 - Real.log 2) / s.sigmaCrit / e.DAz z / arcsec * (G 1 beta / G 1 1e-4) := by
    have : al = (nfwAngles e (rhos * 1e9) (rs * 1e-3) z false).2 * cnfwMass2d G rs rs 1.0 (beta * rs)
        / cnfwMass2d G rs rs 1.0 (1e-4 * rs) := rfl
    rw [this, mul_div_assoc, hratio]
    simp only [nfwAngles, Bool.false_eq_true, if_false, ← hs, hlog]
    ring
  have hdens : ∀ r, 0 < r → physical s (cnfwDensity (cnfwAlpha2rho G al (rs / s.kpa) (rs / s.kpa * beta)) (rs / s.kpa)
      (rs / s.kpa * beta)) r = (1 - Real.log 2) / G 1 1e-4 * (r / (r + beta * rs) * nfwDensity rhos rs r) := by
    intro r hr0
    unfold physical cnfwDensity cnfwAlpha2rho nfwDensity
    have e1 : rs / s.kpa * beta / (rs / s.kpa) = beta := by field_simp
    rw [e1, hal2]
    have e2 : rs / s.kpa * beta + r / s.kpa = (r + beta * rs) / s.kpa := by ring
    have e3 : r / s.kpa + rs / s.kpa = (r + rs) / s.kpa := by ring
    rw [e2, e3]
    have h5 : 0 < r + beta * rs := by positivity
    have h6 : 0 < r + rs := by positivity
    have e4 : e.DAz z = s.kpa / 1000 / arcsec := by rw [hk]; field_simp
    have e5 : 1 + r / rs = (r + rs) / rs := by field_simp; ring
    rw [e4, e5]
    norm_num
    field_simp
    norm_num
  refine ⟨rhos, rs, r200, al, rs / s.kpa, rs / s.kpa * beta, h1, rfl, ?_, ?_, ?_, hdens, ?_⟩
  · field_simp
  · field_simp
  · intro norm x y
    refine ⟨[("alpha_Rs", norm * round10 al), ("Rs", round10 (rs / s.kpa)), ("r_core", round10 (rs / s.kpa * beta)),
      ("center_x", round4 x), ("center_y", round4 y)], ?_, ?_, has10 rfl, has10 rfl, has4 rfl, has4 rfl⟩
    · simp only [cnfw, h1, bind, Except.bind, pure, Except.pure]
      rfl
    · intro hn
      refine has10 ?_
      rw [hn, one_mul]
      rfl
  · rw [sphereMass_congr hr200.le (fun r hr0 _ => hdens r hr0), sphereMass_mul]
    apply mul_le_mul_of_nonneg_left _ (by have : 0 < 1 - Real.log 2 := by linarith
                                          positivity)
    have hnfw : sphereMass (nfwDensity rhos rs) r200 = m := by
      rw [nfw_sphereMass _ _ _ hrs hr200.le, ← h3]
      ring
    rw [← hnfw, ← sphereMass_mul]
    unfold sphereMass
    have hcont : ∀ f : ℝ → ℝ, ContinuousOn f (Set.Icc 0 r200) → IntervalIntegrable f MeasureTheory.volume 0 r200 := by
      intro f hf
      apply ContinuousOn.intervalIntegrable
      rwa [Set.uIcc_of_le hr200.le]
    have heq1 : Set.EqOn (fun r => 4 * Real.pi * r ^ 2 * (r / (r + beta * rs) * (rhos * rs ^ 3 / (r + rs) ^ 2 / r)))
        (fun r => 4 * Real.pi * r ^ 2 / (r + beta * rs) * (rhos * rs ^ 3 / (r + rs) ^ 2)) (Set.Icc 0 r200) := by
      intro r hr0
      have := hr0.1
      rcases this.eq_or_lt with h | h
      · rw [← h]; simp
      · have : 0 < r + rs := by linarith
        have : 0 < r + beta * rs := by positivity
        simp only
        field_simp
    have heq2 : Set.EqOn (fun r => 4 * Real.pi * r ^ 2 * (c / (c + beta) * (rhos * rs ^ 3 / (r + rs) ^ 2 / r)))
        (fun r => 4 * Real.pi * r * (c / (c + beta) * (rhos * rs ^ 3 / (r + rs) ^ 2))) (Set.Icc 0 r200) := by
      intro r hr0
      have := hr0.1
      rcases this.eq_or_lt with h | h
      · rw [← h]; simp
      · have : 0 < r + rs := by linarith
        simp only
        field_simp
    have hden : ∀ r, 0 ≤ r → nfwDensity rhos rs r = rhos * rs ^ 3 / (r + rs) ^ 2 / r := by
      intro r hr0
      unfold nfwDensity
      rcases hr0.eq_or_lt with h | h
      · rw [← h]; simp
      · have : 0 < r + rs := by linarith
        have e5 : 1 + r / rs = (r + rs) / rs := by field_simp; ring
        rw [e5]
        field_simp
    have hi1 : IntervalIntegrable (fun r => 4 * Real.pi * r ^ 2 * (r / (r + beta * rs) * nfwDensity rhos rs r))
        MeasureTheory.volume 0 r200 := by
      apply hcont
      refine ContinuousOn.congr (f := fun r => 4 * Real.pi * r ^ 2 / (r + beta * rs) * (rhos * rs ^ 3 / (r + rs) ^ 2)) ?_ ?_
      · refine ContinuousOn.mul (ContinuousOn.div (by fun_prop) (by fun_prop) ?_) (ContinuousOn.div (by fun_prop) (by fun_prop) ?_)
        · intro r hr0
          have := hr0.1
          positivity
        · intro r hr0
          have := hr0.1
          positivity
      · intro r hr0
        simp only
        rw [hden r hr0.1]
        exact heq1 hr0
    have hi2 : IntervalIntegrable (fun r => 4 * Real.pi * r ^ 2 * (c / (c + beta) * nfwDensity rhos rs r))
        MeasureTheory.volume 0 r200 := by
      apply hcont
      refine ContinuousOn.congr (f := fun r => 4 * Real.pi * r * (c / (c + beta) * (rhos * rs ^ 3 / (r + rs) ^ 2))) ?_ ?_
      · refine ContinuousOn.mul (by fun_prop) (ContinuousOn.mul (by fun_prop) (ContinuousOn.div (by fun_prop) (by fun_prop) ?_))
        intro r hr0
        have := hr0.1
        positivity
      · intro r hr0
        simp only
        rw [hden r hr0.1]
        exact heq2 hr0
    apply intervalIntegral.integral_mono_on hr200.le hi1 hi2
    intro r hr0
    have h0 := hr0.1
    have hn : 0 ≤ nfwDensity rhos rs r := by rw [hden r h0]; positivity
    apply mul_le_mul_of_nonneg_left _ (by positivity)
    apply mul_le_mul_of_nonneg_right _ hn
    rw [div_le_div_iff₀ (by positivity) (by positivity)]
    have := hr0.2
    rw [h2] at this
    nlinarith [mul_pos hb hc]

/-- C83. Hence the cored halo has less than its mass within its virial radius, as soon as `(1 - ln 2) / G(1, 1e-4)` is less than
`1 + beta / c`. -/
theorem c83_cored_loses_mass (e : Env) (G : ℝ → ℝ → ℝ) (s : Scale) (m c zEval beta z : ℝ) (hm : 0 < m) (hc : 0 < c) (hh : 0 < e.h)
    (hr : 0 < e.rhoc zEval) (hb : 0 < beta) (hG : ∀ b, 0 < b → 0 < G 1 b)
    (hD : 0 < e.DAz z) (hk : s.kpa = e.DAz z * 1000 * arcsec) (hs : s.sigmaCrit = sigmaCrit e z e.zSource)
    (hs0 : 0 < s.sigmaCrit) (hK : (1 - Real.log 2) / G 1 1e-4 < 1 + beta / c) :
    ∃ rhos rs r200 alpha Rs rc, nfwParamKpc e m c zEval (some false) = .ok (rhos, rs, r200) ∧
      cnfwExact e G s rhos rs beta z = (alpha, Rs, rc) ∧
      sphereMass (physical s (cnfwDensity (cnfwAlpha2rho G alpha Rs rc) Rs rc)) r200 < m := by
  obtain ⟨rhos, rs, r200, al, Rs, rc, h1, h2, -, -, -, -, h3⟩ := c83_cored e G s m c zEval beta z hm hc hh hr hb hG hD hk hs hs0
  refine ⟨rhos, rs, r200, al, Rs, rc, h1, h2, lt_of_le_of_lt h3 ?_⟩
  calc (1 - Real.log 2) / G 1 1e-4 * (c / (c + beta) * m) < (1 + beta / c) * (c / (c + beta) * m) :=
        mul_lt_mul_of_pos_right hK (by positivity)
    _ = m := by field_simp

example : ∃ (s : Scale) (rhos rs r200 alpha Rs rc : ℝ), nfwParamKpc demoEnv 1e8 15 0.5 (some false) = .ok (rhos, rs, r200) ∧
      cnfwExact demoEnv (fun _ b => (1 - Real.log 2) / (1 + b)) s rhos rs 0.5 0.5 = (alpha, Rs, rc) ∧
      sphereMass (physical s (cnfwDensity (cnfwAlpha2rho (fun _ b => (1 - Real.log 2) / (1 + b)) alpha Rs rc) Rs rc)) r200 < 1e8 := by
  have hl : 0 < 1 - Real.log 2 := by
    have := Real.log_two_lt_d9
    linarith
  refine ⟨⟨demoEnv.DAz 0.5 * 1000 * arcsec, sigmaCrit demoEnv 0.5 demoEnv.zSource⟩, ?_⟩
  refine c83_cored_loses_mass demoEnv (fun _ b => (1 - Real.log 2) / (1 + b)) _ 1e8 15 0.5 0.5 0.5 (by norm_num)
    (by norm_num) (by norm_num [demoEnv]) (by norm_num [demoEnv]) (by norm_num) (fun b hb => by positivity)
    (by norm_num [demoEnv]) rfl rfl ?_ ?_
  · exact (c60_sigma_crit demoEnv 0.5 (by norm_num [demoEnv]) (by norm_num [demoEnv]) (by norm_num [demoEnv])
      (by norm_num [demoEnv]) (by norm_num [demoEnv])).1
  · rw [div_div_eq_mul_div, mul_comm, mul_div_assoc, div_self hl.ne']
    norm_num

/-! ### Cored and truncated NFW halos -/

theorem trapezoid_mul (k : ℝ) : ∀ f r : List ℝ, trapezoid (f.map (k * ·)) r = k * trapezoid f r
  | [], _ => by simp [trapezoid]
  | [_], _ => by simp [trapezoid]
  | _ :: _ :: _, [] => by simp [trapezoid]
  | _ :: _ :: _, [_] => by simp [trapezoid]
  | f₀ :: f₁ :: f, r₀ :: r₁ :: r => by
    have ih := trapezoid_mul k (f₁ :: f) (r₁ :: r)
    simp only [List.map_cons] at ih ⊢
    rw [trapezoid, trapezoid, ih]
    ring

theorem trapezoid_nonneg (f : ℝ → ℝ) (hf : ∀ r, 0 < r → 0 < f r) : ∀ r : List ℝ, r.Pairwise (· < ·) → (∀ q ∈ r, 0 < q) →
    0 ≤ trapezoid (r.map f) r ∧ (2 ≤ r.length → 0 < trapezoid (r.map f) r)
  | [], _, _ => by simp [trapezoid]
  | [_], _, _ => by simp [trapezoid]
  | r₀ :: r₁ :: r, h, hp => by
    have ih := trapezoid_nonneg f hf (r₁ :: r) (List.pairwise_cons.mp h).2 fun q hq => hp q (List.mem_cons_of_mem _ hq)
    have h1 : r₀ < r₁ := (List.pairwise_cons.mp h).1 r₁ (by simp)
    have h2 := hf r₀ (hp r₀ (by simp))
    have h3 := hf r₁ (hp r₁ (by simp))
    have h4 : 0 < (r₁ - r₀) * (f r₀ + f r₁) / 2 := by
      have : 0 < r₁ - r₀ := by linarith
      positivity
    simp only [List.map_cons] at ih ⊢
    rw [trapezoid]
    exact ⟨by linarith [ih.1], fun _ => by linarith [ih.1]⟩

theorem radii_facts {c rs0 : ℝ} (hc : 1e-4 < c) (hr : 0 < rs0) :
    (radii c rs0).Pairwise (· < ·) ∧ (∀ q ∈ radii c rs0, 0 < q) ∧ (radii c rs0).length = 250 ∧
    (∀ q ∈ radii c rs0, rs0 / 10 ^ 4 ≤ q ∧ q ≤ c * rs0) := by
  have hc0 : 0 < c := lt_trans (by norm_num) hc
  have hlog : -4 < Real.logb 10 c := by
    rw [Real.lt_logb_iff_rpow_lt (by norm_num) hc0]
    have : (10 : ℝ) ^ (-4 : ℝ) = 1e-4 := by
      rw [Real.rpow_neg (by norm_num)]
      norm_num
    rw [this]
    exact hc
  have hmono : StrictMono fun u : ℝ => (10 : ℝ) ^ u * rs0 := by
    intro u v h
    exact mul_lt_mul_of_pos_right (Real.rpow_lt_rpow_of_exponent_lt (by norm_num) h) hr
  have hstep : 0 < (Real.logb 10 c - -4) / ((250 : ℕ) - 1) := by
    have : 0 < Real.logb 10 c - -4 := by linarith
    norm_num
    linarith
  have hlin : (Np.linspace (-4) (Real.logb 10 c) 250) =
      (List.range 250).map fun i : ℕ => -4 + (i : ℝ) * ((Real.logb 10 c - -4) / ((250 : ℕ) - 1)) := by
    unfold Np.linspace
    simp
  refine ⟨?_, ?_, ?_, ?_⟩
  · unfold radii
    rw [hlin, List.map_map]
    refine List.Pairwise.map _ ?_ List.pairwise_lt_range
    intro i j hij
    apply hmono
    have : (i : ℝ) < j := by exact_mod_cast hij
    simp only
    linarith [mul_lt_mul_of_pos_right this hstep]
  · intro q hq
    unfold radii at hq
    rw [List.mem_map] at hq
    obtain ⟨u, -, rfl⟩ := hq
    positivity
  · simp [radii, Np.linspace]
  · intro q hq
    unfold radii at hq
    rw [hlin, List.map_map, List.mem_map] at hq
    obtain ⟨i, hi, rfl⟩ := hq
    rw [List.mem_range] at hi
    have hi' : (i : ℝ) ≤ 249 := by exact_mod_cast Nat.le_of_lt_succ hi
    simp only [Function.comp]
    set st := (Real.logb 10 c - -4) / ((250 : ℕ) - 1) with hst
    have e1 : -4 + 249 * st = Real.logb 10 c := by rw [hst]; norm_num; ring
    constructor
    · have : (10 : ℝ) ^ (-4 : ℝ) ≤ (10 : ℝ) ^ (-4 + (i : ℝ) * st) :=
        Real.rpow_le_rpow_of_exponent_le (by norm_num) (by have := mul_nonneg (Nat.cast_nonneg (α := ℝ) i) hstep.le; linarith)
      have e : (10 : ℝ) ^ (-4 : ℝ) = 1 / 10 ^ 4 := by
        rw [Real.rpow_neg (by norm_num)]
        norm_num
      rw [e] at this
      calc rs0 / 10 ^ 4 = 1 / 10 ^ 4 * rs0 := by ring
        _ ≤ _ := mul_le_mul_of_nonneg_right this hr.le
    · have : (10 : ℝ) ^ (-4 + (i : ℝ) * st) ≤ (10 : ℝ) ^ Real.logb 10 c :=
        Real.rpow_le_rpow_of_exponent_le (by norm_num) (by rw [← e1]; linarith [mul_le_mul_of_nonneg_right hi' hstep.le])
      rw [Real.rpow_logb (by norm_num) (by norm_num) hc0] at this
      exact mul_le_mul_of_nonneg_right this hr.le

/-- C83. The cored, truncated halos (collapsed halos with given core, and evolving ones): the mass integrated by the trapezoidal
rule over 250 radii between `1e-4 rs` and the virial radius is the mass that was to be conserved. The density of the library is
linear in the amplitude and positive. -/
theorem c83_cored_truncated (dens : ℝ → ℝ → ℝ → ℝ → ℝ → ℝ) (s : Scale) (c rs0 : ℝ) (radii : ℝ × ℝ) (rt mass : ℝ)
    (hlin : ∀ r Rs k rc rt, dens r Rs k rc rt = k * dens r Rs 1 rc rt)
    (hpos : ∀ r Rs rc rt, 0 < r → 0 < Rs → 0 < rc → 0 < rt → 0 < dens r Rs 1 rc rt) (hk : 0 < s.kpa) (hs : 0 < s.sigmaCrit)
    (hc : 1e-4 < c) (hrs0 : 0 < rs0) (h1 : 0 < radii.1) (h2 : 0 < radii.2) (hrt : 0 < rt) :
    (∀ x y, ∃ d, (tnfwc dens s c rs0 radii rt mass).dict x y = [d] ∧
      d.lookup "alpha_Rs" = some (tnfwc dens s c rs0 radii rt mass).alpha ∧
      d.lookup "Rs" = some (radii.1 / s.kpa) ∧ d.lookup "r_core" = some (radii.2 / s.kpa) ∧
      d.lookup "r_trunc" = some (rt / s.kpa) ∧ Has d "center_x" x 4 ∧ Has d "center_y" y 4) ∧
    ∃ grid : List ℝ, grid.length = 250 ∧ grid.Pairwise (· < ·) ∧ (∀ q ∈ grid, rs0 / 10 ^ 4 ≤ q ∧ q ≤ c * rs0) ∧
      ∃ p, tnfwc dens s c rs0 radii rt mass = p ∧ p.Rs * s.kpa = radii.1 ∧ p.rc * s.kpa = radii.2 ∧ p.rt * s.kpa = rt ∧
      trapezoid (grid.map fun q => 4 * Real.pi * q ^ 2 * physical s (fun r => dens r p.Rs p.alpha p.rc p.rt) q) grid = mass := by
  obtain ⟨g1, g2, g3, g4⟩ := radii_facts hc hrs0
  refine ⟨fun x y => ⟨_, rfl, rfl, rfl, rfl, rfl, has4 rfl, has4 rfl⟩, ?_⟩
  refine ⟨Prof.radii c rs0, g3, g1, g4, _, rfl, ?_, ?_, ?_, ?_⟩
  · simp only [tnfwc]; field_simp
  · simp only [tnfwc]; field_simp
  · simp only [tnfwc]; field_simp
  · have hpi := Real.pi_pos
    set al := tnfwcAlpha dens s c rs0 radii.1 radii.2 rt mass with hal
    set f := fun q : ℝ => 4 * Real.pi * q ^ 2 * tnfwcDensity dens s ⟨1.0, radii.1 / s.kpa, radii.2 / s.kpa, rt / s.kpa⟩ q with hf
    have hfpos : ∀ q, 0 < q → 0 < f q := by
      intro q hq
      have := hpos (q / s.kpa) (radii.1 / s.kpa) (radii.2 / s.kpa) (rt / s.kpa) (by positivity) (by positivity) (by positivity)
        (by positivity)
      rw [hf]
      simp only [tnfwcDensity, Scale.factor, show (1.0 : ℝ) = 1 by norm_num]
      positivity
    have hT := (trapezoid_nonneg f hfpos (Prof.radii c rs0) g1 g2).2 (by rw [g3]; norm_num)
    have hal2 : al = mass / trapezoid ((Prof.radii c rs0).map f) (Prof.radii c rs0) := rfl
    have hmap : ((Prof.radii c rs0).map fun q => 4 * Real.pi * q ^ 2 *
        physical s (fun r => dens r (radii.1 / s.kpa) al (radii.2 / s.kpa) (rt / s.kpa)) q)
        = ((Prof.radii c rs0).map f).map (al * ·) := by
      rw [List.map_map]
      apply List.map_congr_left
      intro q _
      rw [hf]
      simp only [Function.comp, physical, tnfwcDensity, factor_eq]
      rw [hlin _ _ al, show (1.0 : ℝ) = 1 by norm_num]
      ring
    show trapezoid ((Prof.radii c rs0).map fun q => 4 * Real.pi * q ^ 2 *
        physical s (fun r => dens r (radii.1 / s.kpa) al (radii.2 / s.kpa) (rt / s.kpa)) q) (Prof.radii c rs0) = mass
    rw [hmap, trapezoid_mul, hal2, div_mul_cancel₀ _ hT.ne']

example : ∃ p, tnfwc (fun r Rs k rc rt => k * (Rs + rc + rt) / r) ⟨6, 2e15⟩ 15 2 (parametricRadii 2 0.05 10) 10 1e8 = p ∧
    p.rt * 6 = 10 := by
  obtain ⟨-, g, -, -, -, p, h1, -, -, h2, -⟩ := c83_cored_truncated (fun r Rs k rc rt => k * (Rs + rc + rt) / r) ⟨6, 2e15⟩ 15 2
    (parametricRadii 2 0.05 10) 10 1e8 (fun r Rs k rc rt => by ring) (fun r Rs rc rt h1 h2 h3 h4 => by positivity)
    (by norm_num) (by norm_num) (by norm_num) (by norm_num) (by norm_num [parametricRadii]) (by norm_num [parametricRadii])
    (by norm_num)
  exact ⟨p, h1, h2⟩

/-- C83. A collapsed halo with a given core: the scale radius is the requested multiple of the NFW one unless the truncation
radius is smaller, when it is 99% of that; it never exceeds the truncation radius, and the core radius is 99% of it. -/
theorem c83_collapsed_radii (rs0 xCore rt : ℝ) (h0 : 0 < rs0) (hx : 0 < xCore) (hrt : 0 < rt) :
    let (rs, rc) := parametricRadii rs0 xCore rt
    0 < rc ∧ rc < rs ∧ rs ≤ rt ∧ rs ≤ xCore * rs0 ∧ rc = 0.99 * rs ∧ (xCore * rs0 ≤ rt → rs = xCore * rs0) ∧
      (rt < xCore * rs0 → rs = 0.99 * rt) := by
  have h1 : 0 < xCore * rs0 := by positivity
  unfold parametricRadii
  simp only
  split_ifs with h
  · refine ⟨by positivity, by norm_num; linarith, by norm_num; linarith, by norm_num; linarith, by ring, fun h' => by linarith,
      fun _ => by ring⟩
  · push Not at h
    refine ⟨by positivity, by norm_num; linarith, h, le_refl _, by ring, fun _ => rfl, fun h' => by linarith⟩

example := c83_collapsed_radii 2 0.05 3 (by norm_num) (by norm_num) (by norm_num)

example : parametricRadii 2 0.05 10 = (0.1, 0.099) ∧ parametricRadii 2 0.05 0.05 = (0.0495, 0.049005) := by
  constructor <;> norm_num [parametricRadii]

/-- C83. A hybrid halo is the weighted sum of its two halos: each dictionary keeps its entries except the amplitude, which is
multiplied by `1 - f` for the first and by `f` for the second. -/
theorem c83_hybrid (f : ℝ) (d1 d2 : Dict) :
    ∃ e1 e2, hybrid f d1 d2 = [e1, e2] ∧
      (∀ k, k ≠ "alpha_Rs" → e1.lookup k = d1.lookup k ∧ e2.lookup k = d2.lookup k) ∧
      e1.lookup "alpha_Rs" = (d1.lookup "alpha_Rs").map (· * (1 - f)) ∧
      e2.lookup "alpha_Rs" = (d2.lookup "alpha_Rs").map (· * f) ∧ e1.map (·.1) = d1.map (·.1) ∧ e2.map (·.1) = d2.map (·.1) := by
  have key : ∀ (g : ℝ) (d : Dict),
      (∀ k, k ≠ "alpha_Rs" → (d.map fun p => if p.1 = "alpha_Rs" then (p.1, p.2 * g) else p).lookup k = d.lookup k) ∧
      (d.map fun p => if p.1 = "alpha_Rs" then (p.1, p.2 * g) else p).lookup "alpha_Rs" = (d.lookup "alpha_Rs").map (· * g) ∧
      (d.map fun p => if p.1 = "alpha_Rs" then (p.1, p.2 * g) else p).map (·.1) = d.map (·.1) := by
    intro g d
    induction d with
    | nil => exact ⟨fun _ _ => rfl, rfl, rfl⟩
    | cons p d ih =>
      obtain ⟨i1, i2, i3⟩ := ih
      refine ⟨fun k hk => ?_, ?_, ?_⟩
      · rw [List.map_cons]
        by_cases h : p.1 = "alpha_Rs"
        · rw [if_pos h, List.lookup_cons, List.lookup_cons, i1 k hk, h]
          have : (k == "alpha_Rs") = false := by simpa using hk
          simp [this]
        · rw [if_neg h, List.lookup_cons, List.lookup_cons, i1 k hk]
      · rw [List.map_cons]
        by_cases h : p.1 = "alpha_Rs"
        · rw [if_pos h, List.lookup_cons, List.lookup_cons, h]
          simp
        · rw [if_neg h, List.lookup_cons, List.lookup_cons, i2]
          have : ("alpha_Rs" == p.1) = false := by simpa using fun h' => h h'.symm
          simp [this]
      · rw [List.map_cons, List.map_cons, i3, List.map_cons]
        by_cases h : p.1 = "alpha_Rs"
        · rw [if_pos h]
        · rw [if_neg h]
  exact ⟨_, _, rfl, fun k hk => ⟨(key _ d1).1 k hk, (key _ d2).1 k hk⟩, (key _ d1).2.1, (key _ d2).2.1, (key _ d1).2.2, (key _ d2).2.2⟩

example : hybrid 0.25 [("alpha_Rs", 2), ("Rs", 1)] [("alpha_Rs", 8), ("Rs", 1)]
    = [[("alpha_Rs", 1.5), ("Rs", 1)], [("alpha_Rs", 2), ("Rs", 1)]] := by
  have h : ¬ ("Rs" = "alpha_Rs") := by decide
  norm_num [hybrid, h]

end PyHalo.Props
