import Verif.Props.LensCosmo
import Verif.Props.Tnfw
import Mathlib.Analysis.Calculus.Deriv.MeanValue
import Mathlib.Analysis.Complex.ExponentialBounds

/-!
# C111: circular velocities and the dynamical time
-/

namespace PyHalo.Props

open PyHalo LensCosmo

/-- The mass of a profile `rhos / ((s/rs) (1 + s/rs)^2)` inside `r`. -/
noncomputable def Spec111.mass (rhos rs r : ℝ) : ℝ :=
  ∫ s in (0 : ℝ)..r, 4 * Real.pi * s ^ 2 * (rhos / (s / rs * (1 + s / rs) ^ 2))

/-- The circular velocity in km/s at `r` kpc, with `G` in kpc (km/s)^2 per solar mass. -/
noncomputable def Spec111.circular (rhos rs r : ℝ) : ℝ := Real.sqrt (4.3e-6 * Spec111.mass rhos rs r / r)

theorem nfw_mass {rhos rs r : ℝ} (hs : 0 < rs) (hr : 0 < r) :
    Spec111.mass rhos rs r = 4 * Real.pi * rhos * rs ^ 3 * (Real.log (1 + r / rs) - r / rs / (1 + r / rs)) := by
  unfold Spec111.mass
  have e : ∀ s ∈ Set.uIcc 0 r, 4 * Real.pi * s ^ 2 * (rhos / (s / rs * (1 + s / rs) ^ 2)) = 4 * Real.pi * rhos * rs * (s / (1 + s / rs) ^ 2) := by
    intro s hs'
    rw [Set.uIcc_of_le hr.le] at hs'
    rcases hs'.1.eq_or_lt with h | h
    · rw [← h]; simp
    · have : 0 < 1 + s / rs := by positivity
      field_simp
  rw [intervalIntegral.integral_congr e, intervalIntegral.integral_const_mul]
  have hd : ∀ s ∈ Set.uIcc 0 r, HasDerivAt (fun s => rs ^ 2 * (Real.log (1 + s / rs) - s / rs / (1 + s / rs))) (s / (1 + s / rs) ^ 2) s := by
    intro s hs'
    rw [Set.uIcc_of_le hr.le] at hs'
    have h0 : 1 + s / rs ≠ 0 := by have := hs'.1; positivity
    have h1 := ((hasDerivAt_id s).div_const rs)
    have h2 := h1.const_add 1
    have h3 := ((h2.log h0).sub (h1.div h2 h0)).const_mul (rs ^ 2)
    refine h3.congr_deriv ?_
    simp only [id]
    field_simp
    ring
  have hc : ContinuousOn (fun s : ℝ => s / (1 + s / rs) ^ 2) (Set.Icc 0 r) := by
    apply ContinuousOn.div (by fun_prop) (by fun_prop)
    intro s hs'
    have := hs'.1
    positivity
  rw [intervalIntegral.integral_eq_sub_of_hasDerivAt hd (hc.intervalIntegrable_of_Icc hr.le)]
  simp
  ring

/-- The height of the rotation curve. -/
theorem rotation_top {x : ℝ} (hx : 0 < x) : Real.log (1 + x) - x / (1 + x) ≤ 2 / 9 * x := by
  set h : ℝ → ℝ := fun x => x / (1 + x) + 2 / 9 * x - Real.log (1 + x) with hh
  have hd : ∀ y, 0 ≤ y → HasDerivAt h ((1 / (1 + y) - 1 / 3) * (1 / (1 + y) - 2 / 3)) y := by
    intro y hy
    have h0 : 1 + y ≠ 0 := by positivity
    have h1 := (hasDerivAt_id y).const_add 1
    have := (((hasDerivAt_id y).div h1 h0).add ((hasDerivAt_id y).const_mul (2 / 9))).sub (h1.log h0)
    refine this.congr_deriv ?_
    simp only [id]
    field_simp
    ring
  have hcont : ContinuousOn h (Set.Ici 0) := fun y hy => (hd y hy).continuousAt.continuousWithinAt
  suffices 0 ≤ h x by rw [hh] at this; linarith
  have mono : ∀ a b, 0 ≤ a → a ≤ b → (∀ y, a < y → y < b → 0 ≤ (1 / (1 + y) - 1 / 3) * (1 / (1 + y) - 2 / 3)) → h a ≤ h b := by
    intro a b ha hab hy
    have : MonotoneOn h (Set.Icc a b) := by
      apply monotoneOn_of_deriv_nonneg (convex_Icc a b) (hcont.mono fun y hy => ha.trans hy.1)
      · intro y hy
        rw [interior_Icc] at hy
        exact (hd y (ha.trans hy.1.le)).differentiableAt.differentiableWithinAt
      · intro y hy'
        rw [interior_Icc] at hy'
        rw [(hd y (ha.trans hy'.1.le)).deriv]
        exact hy y hy'.1 hy'.2
    exact this ⟨le_rfl, hab⟩ ⟨hab, le_rfl⟩ hab
  have anti : ∀ a b, 0 ≤ a → a ≤ b → (∀ y, a < y → y < b → (1 / (1 + y) - 1 / 3) * (1 / (1 + y) - 2 / 3) ≤ 0) → h b ≤ h a := by
    intro a b ha hab hy
    have : AntitoneOn h (Set.Icc a b) := by
      apply antitoneOn_of_deriv_nonpos (convex_Icc a b) (hcont.mono fun y hy => ha.trans hy.1)
      · intro y hy
        rw [interior_Icc] at hy
        exact (hd y (ha.trans hy.1.le)).differentiableAt.differentiableWithinAt
      · intro y hy'
        rw [interior_Icc] at hy'
        rw [(hd y (ha.trans hy'.1.le)).deriv]
        exact hy y hy'.1 hy'.2
    exact this ⟨le_rfl, hab⟩ ⟨hab, le_rfl⟩ hab
  have h0 : h 0 = 0 := by simp [hh]
  have h2 : 0 ≤ h 2 := by
    have h3 : Real.log 3 ≤ 10 / 9 := by
      have l2 := Real.log_two_lt_d9
      have e3 : Real.log (9 / 8) = 2 * Real.log 3 - 3 * Real.log 2 := by
        rw [Real.log_div (by norm_num) (by norm_num), show (9 : ℝ) = 3 ^ 2 by norm_num, show (8 : ℝ) = 2 ^ 3 by norm_num, Real.log_pow,
          Real.log_pow]
        norm_num
      have e4 := Real.log_le_sub_one_of_pos (show (0 : ℝ) < 9 / 8 by norm_num)
      norm_num at *
      linarith
    rw [hh]
    norm_num
    linarith
  rcases le_total x (1 / 2) with c1 | c1
  · rw [← h0]
    apply mono 0 x le_rfl hx.le
    intro y hy hy'
    have a : 2 / 3 ≤ 1 / (1 + y) := by rw [le_div_iff₀ (by linarith)]; linarith
    exact mul_nonneg (by linarith) (by linarith)
  · rcases le_total x 2 with c2 | c2
    · refine h2.trans (anti x 2 hx.le c2 ?_)
      intro y hy hy'
      have a : 1 / (1 + y) ≤ 2 / 3 := by rw [div_le_iff₀ (by linarith)]; linarith
      have b : 1 / 3 ≤ 1 / (1 + y) := by rw [le_div_iff₀ (by linarith)]; linarith
      exact mul_nonpos_of_nonneg_of_nonpos (by linarith) (by linarith)
    · refine h2.trans (mono 2 x (by norm_num) c2 ?_)
      intro y hy hy'
      have b : 1 / (1 + y) ≤ 1 / 3 := by rw [div_le_iff₀ (by linarith)]; linarith
      exact mul_nonneg_of_nonpos_of_nonpos (by linarith) (by linarith)

/-- **C111**. The maximum circular velocity of an NFW halo is the top of its rotation curve, up to two percent: no radius has
a circular velocity more than two percent above it, and some radius reaches it. -/
theorem c111_vmax {rhos rs : ℝ} (hρ : 0 < rhos) (hs : 0 < rs) :
    (∀ r, 0 < r → Spec111.circular rhos rs r ≤ 1.02 * nfwVmax rhos rs) ∧
      ∃ r, 0 < r ∧ nfwVmax rhos rs ≤ Spec111.circular rhos rs r := by
  have hv : nfwVmax rhos rs = Real.sqrt (1.64 ^ 2 * (4.3e-6 * rhos * rs ^ 2)) := by
    unfold nfwVmax
    rw [Real.sqrt_mul (x := 1.64 ^ 2) (by norm_num), Real.sqrt_sq (by norm_num)]
  have hpi := Real.pi_lt_d4
  have hpi' := Real.pi_gt_d4
  have hf : ∀ x : ℝ, 0 < x → 4.3e-6 * Spec111.mass rhos rs (rs * x) / (rs * x) =
      4 * Real.pi * ((Real.log (1 + x) - x / (1 + x)) / x) * (4.3e-6 * rhos * rs ^ 2) := by
    intro x hx
    rw [nfw_mass hs (by positivity), mul_div_cancel_left₀ _ hs.ne']
    field_simp
  have hA : 0 < 4.3e-6 * rhos * rs ^ 2 := by positivity
  constructor
  · intro r hr
    obtain ⟨x, hx, rfl⟩ : ∃ x, 0 < x ∧ r = rs * x := ⟨r / rs, by positivity, by field_simp⟩
    unfold Spec111.circular
    rw [hf x hx, hv, show (1.02 : ℝ) = Real.sqrt (1.02 ^ 2) by rw [Real.sqrt_sq (by norm_num)], ← Real.sqrt_mul (by norm_num)]
    apply Real.sqrt_le_sqrt
    have h1 : (Real.log (1 + x) - x / (1 + x)) / x ≤ 2 / 9 := by
      rw [div_le_iff₀ hx]; exact rotation_top hx
    have h2 : 4 * Real.pi * ((Real.log (1 + x) - x / (1 + x)) / x) ≤ 1.02 ^ 2 * 1.64 ^ 2 := by
      have : 4 * Real.pi * ((Real.log (1 + x) - x / (1 + x)) / x) ≤ 4 * Real.pi * (2 / 9) := by
        have := Real.pi_pos
        gcongr
      norm_num at hpi this ⊢
      linarith
    calc _ ≤ 1.02 ^ 2 * 1.64 ^ 2 * (4.3e-6 * rhos * rs ^ 2) := by gcongr
      _ = _ := by ring
  · refine ⟨rs * 2, by positivity, ?_⟩
    unfold Spec111.circular
    rw [hf 2 two_pos, hv]
    apply Real.sqrt_le_sqrt
    have h3 : 1.096 ≤ Real.log (1 + 2) := by
      have l2 := Real.log_two_gt_d9
      have e3 : Real.log (8 / 9) = 3 * Real.log 2 - 2 * Real.log (1 + 2) := by
        rw [Real.log_div (by norm_num) (by norm_num), show (9 : ℝ) = (1 + 2) ^ 2 by norm_num, show (8 : ℝ) = 2 ^ 3 by norm_num, Real.log_pow,
          Real.log_pow]
        norm_num
      have e5 : Real.log (8 / 9) = 2 * Real.log (Real.sqrt (8 / 9)) := by
        rw [← Real.log_rpow (by positivity)]
        congr 1
        rw [Real.rpow_two, Real.sq_sqrt (by norm_num)]
      have e4 := Real.log_le_sub_one_of_pos (show (0 : ℝ) < Real.sqrt (8 / 9) by positivity)
      have e6 : Real.sqrt (8 / 9) ≤ 0.943 := by
        rw [Real.sqrt_le_left (by norm_num)]
        norm_num
      norm_num at l2 e6 ⊢
      norm_num at e3 e4 e5
      linarith
    have : 1.64 ^ 2 ≤ 4 * Real.pi * ((Real.log (1 + 2) - 2 / (1 + 2)) / 2) := by
      have : 0.2146 ≤ (Real.log (1 + 2) - 2 / (1 + 2)) / 2 := by norm_num at h3 ⊢; linarith
      nlinarith
    gcongr

example := c111_vmax (rhos := 1e7) (rs := 2) (by norm_num) two_pos

/-- **C111**. The dynamical time is the time to travel the virial radius at that velocity (3.086e16 km in a kpc, 1e17/3.17 s in a Gyr);
it is positive and the same for hosts of every mass, so it depends on redshift and concentration only. -/
theorem c111_dynamical_time (e : Env) (z c : ℝ) (hh : 0 < e.h) (hr : 0 < e.rhoc z) (hc : 0 < c) :
    ∃ t, 0 < t ∧ ∀ m, 0 < m → dynamicalTime e m z c = .ok t ∧
      ∃ rhos rs r200, nfwParamKpc e m c z (some false) = .ok (rhos, rs, r200) ∧ 0 < nfwVmax rhos rs ∧
        nfwVmax rhos rs * (t * (1e17 / 3.17)) = r200 * 3.086e16 := by
  have hm := nfw_factor_pos c hc
  set K : ℝ := e.rhoc z * 200 with hK
  have hK0 : 0 < K := by positivity
  have form : ∀ m, 0 < m → ∃ rhos rs r200, nfwParamKpc e m c z (some false) = .ok (rhos, rs, r200) ∧ 0 < rhos ∧ 0 < rs ∧ r200 = c * rs ∧
      rhos = 200 / 3 * e.rhoc z * c ^ 3 / (Real.log (1 + c) - c / (1 + c)) * e.h ^ 2 * ((1000 : ℝ) ^ 3)⁻¹ := by
    intro m hm0
    refine ⟨_, _, _, rfl, ?_, ?_, ?_, ?_⟩
    · simp only [Bool.false_eq_true, if_false, rho0c]
      positivity
    · unfold r200M
      have : 0 < 3 * (m * e.h) / (4 * Real.pi * e.rhoc z * 200) := by have := Real.pi_pos; positivity
      have := Real.rpow_pos_of_pos this (1 / 3)
      positivity
    · field_simp
    · simp [rho0c]
  set rho : ℝ := 200 / 3 * e.rhoc z * c ^ 3 / (Real.log (1 + c) - c / (1 + c)) * e.h ^ 2 * ((1000 : ℝ) ^ 3)⁻¹ with hrho
  have hrho0 : 0 < rho := by positivity
  have vm : ∀ rs, 0 < rs → nfwVmax rho rs = 1.64 * Real.sqrt (4.3e-6 * rho) * rs := by
    intro rs hrs
    unfold nfwVmax
    rw [Real.sqrt_mul (by positivity), Real.sqrt_sq hrs.le]
    ring
  have hsq : 0 < Real.sqrt (4.3e-6 * rho) := Real.sqrt_pos.2 (by positivity)
  refine ⟨3.086 * 10 ^ 16 * 3.17e-17 * c / (1.64 * Real.sqrt (4.3e-6 * rho)), by positivity, fun m hm0 => ?_⟩
  obtain ⟨rhos, rs, r200, h1, h2, h3, h4, h5⟩ := form m hm0
  subst h5
  have hvp : 0 < nfwVmax rho rs := by rw [vm rs h3]; positivity
  refine ⟨?_, rho, rs, r200, h1, hvp, ?_⟩
  · unfold dynamicalTime
    rw [h1]
    simp only [bind, Except.bind, pure, Except.pure]
    rw [vm rs h3, h4]
    congr 1
    field_simp
  · rw [vm rs h3, h4]
    field_simp
    norm_num

example := c111_dynamical_time demoEnv 0.5 6 (by norm_num [demoEnv]) (by norm_num [demoEnv]) (by norm_num)

/-- Where the code differs from its documentation: the time is documented as twice the virial radius over the velocity, the
factor two is missing for every host. -/
theorem c111_half_of_documented (e : Env) (m z c : ℝ) (hm : 0 < m) (hh : 0 < e.h) (hr : 0 < e.rhoc z) (hc : 0 < c) :
    ∃ t rhos rs r200, dynamicalTime e m z c = .ok t ∧ nfwParamKpc e m c z (some false) = .ok (rhos, rs, r200) ∧
      t * (1e17 / 3.17) < 2 * (r200 * 3.086e16) / nfwVmax rhos rs := by
  obtain ⟨t, ht, h⟩ := c111_dynamical_time e z c hh hr hc
  obtain ⟨h1, rhos, rs, r200, h2, h3, h4⟩ := h m hm
  refine ⟨t, rhos, rs, r200, h1, h2, ?_⟩
  rw [lt_div_iff₀ h3, ← h4]
  have : 0 < nfwVmax rhos rs * (t * (1e17 / 3.17)) := by positivity
  linarith

example := c111_half_of_documented demoEnv 1e13 0.5 6 (by norm_num) (by norm_num [demoEnv]) (by norm_num [demoEnv]) (by norm_num)

end PyHalo.Props
