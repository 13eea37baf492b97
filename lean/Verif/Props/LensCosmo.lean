import Mathlib.Analysis.Real.Pi.Bounds
import Verif.Model.LensCosmo
import Verif.Props.Cosmology
import Mathlib.Analysis.SpecialFunctions.Integrals.Basic
import Mathlib.MeasureTheory.Integral.IntervalIntegral.FundThmCalculus
import Mathlib.Analysis.SpecialFunctions.Pow.Deriv
import Mathlib.Analysis.Complex.ExponentialBounds

/-!
# C25, C32, C60-C62: halo structure and lensing quantities of `LensCosmo`
-/

namespace PyHalo.Props
open PyHalo LensCosmo

/-- The NFW density profile. -/
noncomputable def nfwDensity (rho0 rs r : ℝ) : ℝ := rho0 / (r / rs * (1 + r / rs) ^ 2)

/-- The pseudo-NFW profile, with `1 + x²` instead of `(1 + x)²`. -/
noncomputable def pseudoDensity (rho0 rs r : ℝ) : ℝ := rho0 / (r / rs * (1 + (r / rs) ^ 2))

/-- **C60**. The unit of angle used in the statements about deflections, Einstein radii, cone radii and core radii: half a turn is
180 degrees of 3600 arcseconds. -/
theorem c60_arcsec : 180 * 3600 * arcsec = Real.pi := by unfold arcsec; ring

example : arcsec < 4.9e-6 := by
  have := c60_arcsec
  have := Real.pi_lt_d2
  linarith

/-- The mass of a spherical profile inside radius `R`. -/
noncomputable def sphereMass (ρ : ℝ → ℝ) (R : ℝ) : ℝ :=
  ∫ r in (0 : ℝ)..R, 4 * Real.pi * r ^ 2 * ρ r

theorem nfw_sphereMass (rho0 rs R : ℝ) (hs : 0 < rs) (hR : 0 ≤ R) :
    sphereMass (nfwDensity rho0 rs) R
      = 4 * Real.pi * rho0 * rs ^ 3 * (Real.log (1 + R / rs) - R / rs / (1 + R / rs)) := by
  have hpos : ∀ r ∈ Set.uIcc 0 R, 0 < 1 + r / rs := by
    intro r hr
    rw [Set.uIcc_of_le hR] at hr
    have := div_nonneg hr.1 hs.le
    linarith
  have h1 : sphereMass (nfwDensity rho0 rs) R
      = ∫ r in (0 : ℝ)..R, 4 * Real.pi * rho0 * rs * (r / (1 + r / rs) ^ 2) := by
    unfold sphereMass
    apply intervalIntegral.integral_congr
    intro r hr
    have hp := hpos r hr
    simp only [nfwDensity]
    by_cases h0 : r = 0
    · simp [h0]
    · field_simp
  rw [h1]
  have hd : ∀ r ∈ Set.uIcc 0 R, HasDerivAt
      (fun r => 4 * Real.pi * rho0 * rs ^ 3 * (Real.log (1 + r / rs) + (1 + r / rs)⁻¹))
      (4 * Real.pi * rho0 * rs * (r / (1 + r / rs) ^ 2)) r := by
    intro r hr
    have hp := hpos r hr
    have e1 : HasDerivAt (fun r => 1 + r / rs) (1 / rs) r :=
      ((hasDerivAt_id r).div_const rs).const_add 1
    have e2 := ((e1.log hp.ne').add (e1.inv hp.ne')).const_mul (4 * Real.pi * rho0 * rs ^ 3)
    refine HasDerivAt.congr_deriv e2 ?_
    have hne := hp.ne'
    have hs' := hs.ne'
    have : 1 + r / rs = (rs + r) / rs := by field_simp
    rw [this] at hne ⊢
    have hne2 : rs + r ≠ 0 := by
      intro h; rw [h] at hne; simp at hne
    field_simp
    ring
  have hc : ContinuousOn (fun r => 4 * Real.pi * rho0 * rs * (r / (1 + r / rs) ^ 2))
      (Set.uIcc 0 R) := by
    apply ContinuousOn.mul continuousOn_const
    apply ContinuousOn.div continuousOn_id
    · exact ((continuousOn_const.add (continuousOn_id.div_const rs)).pow 2)
    · intro r hr
      exact pow_ne_zero 2 (hpos r hr).ne'
  rw [intervalIntegral.integral_eq_sub_of_hasDerivAt hd hc.intervalIntegrable]
  have hp := (hpos R Set.right_mem_uIcc).ne'
  simp only [zero_div, add_zero, Real.log_one, inv_one, zero_add]
  field_simp
  ring

theorem pseudo_sphereMass (rho0 rs R : ℝ) (hs : 0 < rs) :
    sphereMass (pseudoDensity rho0 rs) R
      = 4 * Real.pi * rho0 * rs ^ 3 * (Real.log (1 + (R / rs) ^ 2) / 2) := by
  have hpos : ∀ r : ℝ, 0 < 1 + (r / rs) ^ 2 := fun r => by positivity
  have h1 : sphereMass (pseudoDensity rho0 rs) R
      = ∫ r in (0 : ℝ)..R, 4 * Real.pi * rho0 * rs * (r / (1 + (r / rs) ^ 2)) := by
    unfold sphereMass
    apply intervalIntegral.integral_congr
    intro r _
    have hp := hpos r
    simp only [pseudoDensity]
    by_cases h0 : r = 0
    · simp [h0]
    · field_simp
  rw [h1]
  have hd : ∀ r ∈ Set.uIcc 0 R, HasDerivAt
      (fun r => 4 * Real.pi * rho0 * rs ^ 3 * (Real.log (1 + (r / rs) ^ 2) / 2))
      (4 * Real.pi * rho0 * rs * (r / (1 + (r / rs) ^ 2))) r := by
    intro r _
    have hp := hpos r
    have e1 : HasDerivAt (fun r => 1 + (r / rs) ^ 2) (2 * (r / rs) * (1 / rs)) r := by
      have := (((hasDerivAt_id r).div_const rs).pow 2).const_add 1
      simpa using this
    have e2 := ((e1.log hp.ne').div_const 2).const_mul (4 * Real.pi * rho0 * rs ^ 3)
    refine HasDerivAt.congr_deriv e2 ?_
    have hne := hp.ne'
    field_simp
  have hc : ContinuousOn (fun r => 4 * Real.pi * rho0 * rs * (r / (1 + (r / rs) ^ 2)))
      (Set.uIcc 0 R) := by
    apply ContinuousOn.mul continuousOn_const
    apply ContinuousOn.div continuousOn_id
    · exact (continuousOn_const.add ((continuousOn_id.div_const rs).pow 2))
    · intro r _
      exact (hpos r).ne'
  rw [intervalIntegral.integral_eq_sub_of_hasDerivAt hd hc.intervalIntegrable]
  simp

/-- The cube of the radius computed by `rN_M`. -/
theorem cube_root_cube (x : ℝ) (hx : 0 ≤ x) : (x ^ (1 / 3 : ℝ)) ^ 3 = x := by
  rw [← Real.rpow_natCast, ← Real.rpow_mul hx]
  norm_num

/-- `log (1 + c) > c / (1 + c)`. -/
theorem nfw_factor_pos (c : ℝ) (hc : 0 < c) : 0 < Real.log (1 + c) - c / (1 + c) := by
  have h1 : (0 : ℝ) < 1 + c := by linarith
  have := Real.one_sub_inv_le_log_of_pos h1
  have hne : (1 + c)⁻¹ ≠ 1 := by
    intro h
    rw [inv_eq_one] at h
    linarith
  have hlt : Real.log (1 + c)⁻¹ < (1 + c)⁻¹ - 1 := Real.log_lt_sub_one_of_pos (by positivity) hne
  rw [Real.log_inv] at hlt
  have e : c / (1 + c) = 1 - (1 + c)⁻¹ := by field_simp; ring
  rw [e]
  linarith

/-- **C25**. The NFW parameters returned for a mass and a concentration describe a profile with that
mass inside `r200`, whose mean density there is 200 times the critical density, and whose scale
radius is `r200 / c`; and likewise for the pseudo-NFW profile. Masses and radii in Mpc units;
`rhoc z * h²` is the physical critical density. -/
theorem c25_nfw_mass (e : Env) (m c z : ℝ) (hm : 0 < m) (hc : 0 < c) (hh : 0 < e.h)
    (hr : 0 < e.rhoc z) (pseudo : Bool) :
    ∃ rho0 rs r200, nfwParam e m c z (some pseudo) = .ok (rho0, rs, r200) ∧
      0 < rho0 ∧ 0 < rs ∧ rs * c = r200 ∧
      m = 200 * (e.rhoc z * e.h ^ 2) * (4 / 3 * Real.pi * r200 ^ 3) ∧
      sphereMass (if pseudo then pseudoDensity rho0 rs else nfwDensity rho0 rs) r200 = m := by
  have hpi := Real.pi_pos
  set r200 := r200M e (m * e.h) z / e.h with hr200
  have hx : 0 < 3 * (m * e.h) / (4 * Real.pi * e.rhoc z * 200) := by positivity
  have hr0 : 0 < r200 := by
    rw [hr200]
    exact div_pos (Real.rpow_pos_of_pos hx _) hh
  have hcube : r200 ^ 3 = 3 * m / (4 * Real.pi * (e.rhoc z * e.h ^ 2) * 200) := by
    rw [hr200, div_pow, r200M, cube_root_cube _ hx.le]
    field_simp
  have hf := nfw_factor_pos c hc
  have hl : 0 < Real.log (1 + c ^ 2) := Real.log_pos (by nlinarith)
  have hmean : m = 200 * (e.rhoc z * e.h ^ 2) * (4 / 3 * Real.pi * r200 ^ 3) := by
    rw [hcube]; field_simp
  have hq : r200 / (r200 / c) = c := by field_simp
  cases pseudo with
  | false =>
    have hrho : 0 < rho0c e c z * e.h ^ 2 := by
      unfold rho0c
      apply mul_pos _ (by positivity)
      exact div_pos (by positivity) hf
    refine ⟨rho0c e c z * e.h ^ 2, r200 / c, r200, rfl, hrho, div_pos hr0 hc,
      by field_simp, hmean, ?_⟩
    simp only [Bool.false_eq_true, if_false]
    rw [nfw_sphereMass _ _ _ (div_pos hr0 hc) hr0.le, hq]
    unfold rho0c
    generalize hF : Real.log (1 + c) - c / (1 + c) = F at hf ⊢
    rw [div_pow, hcube]
    field_simp
  | true =>
    have hrho : 0 < rho0cPseudo e c z * e.h ^ 2 := by
      unfold rho0cPseudo
      apply mul_pos _ (by positivity)
      exact div_pos (by positivity) (by positivity)
    refine ⟨rho0cPseudo e c z * e.h ^ 2, r200 / c, r200, rfl, hrho, div_pos hr0 hc,
      by field_simp, hmean, ?_⟩
    simp only [if_true]
    rw [pseudo_sphereMass _ _ _ (div_pos hr0 hc), hq]
    unfold rho0cPseudo
    rw [div_pow, hcube]
    generalize Real.log (1 + c ^ 2) = F at hl ⊢
    field_simp

/-- **C25**. The kpc version describes the same profile: its mass inside `r200` is the same number
of solar masses. -/
theorem c25_nfw_mass_kpc (e : Env) (m c z : ℝ) (hm : 0 < m) (hc : 0 < c) (hh : 0 < e.h)
    (hr : 0 < e.rhoc z) (pseudo : Bool) :
    ∃ rho0 rs r200, nfwParamKpc e m c z (some pseudo) = .ok (rho0, rs, r200) ∧ rs * c = r200 ∧
      sphereMass (if pseudo then pseudoDensity rho0 rs else nfwDensity rho0 rs) r200 = m := by
  obtain ⟨rho0, rs, r200, h1, h2, h3, h4, h5, h6⟩ := c25_nfw_mass e m c z hm hc hh hr pseudo
  refine ⟨rho0 * ((1000 : ℝ) ^ 3)⁻¹, rs * 1000, r200 * 1000, ?_, ?_, ?_⟩
  · simp [nfwParamKpc, h1, bind, Except.bind, pure, Except.pure]
  · rw [← h4]; ring
  · have hr200 : 0 < r200 := by rw [← h4]; exact mul_pos h3 hc
    have hq : r200 * 1000 / (rs * 1000) = r200 / rs := by field_simp
    cases pseudo with
    | false =>
      simp only [Bool.false_eq_true, if_false] at h6 ⊢
      rw [nfw_sphereMass _ _ _ (by linarith) (by linarith), hq]
      rw [nfw_sphereMass _ _ _ h3 hr200.le] at h6
      rw [← h6]
      ring
    | true =>
      simp only [if_true] at h6 ⊢
      rw [pseudo_sphereMass _ _ _ (by linarith), hq]
      rw [pseudo_sphereMass _ _ _ h3] at h6
      rw [← h6]
      ring

/-- **C25**. `rN_M` gives the radius inside which the mean density is `N` times critical (mass in
`M_sun/h`, critical density physical). -/
theorem c25_radius (e : Env) (M z N : ℝ) (hM : 0 < M) (hN : 0 < N) (hh : 0 < e.h)
    (hr : 0 < e.rhoc z) :
    0 < rNM e M z N ∧
      M / e.h = N * (e.rhoc z * e.h ^ 2) * (4 / 3 * Real.pi * rNM e M z N ^ 3) := by
  have hpi := Real.pi_pos
  have hx : 0 < 3 * M / (4 * Real.pi * e.rhoc z * N) := by positivity
  refine ⟨div_pos (Real.rpow_pos_of_pos hx _) hh, ?_⟩
  unfold rNM
  rw [div_pow, cube_root_cube _ hx.le]
  field_simp

/-- **C25**. Without a decision between the two profiles the parameters are refused. -/
theorem c25_refused (e : Env) (m c z : ℝ) : ∃ msg, nfwParam e m c z none = .error (.exception msg) :=
  ⟨_, rfl⟩

/-- A universe for the examples. -/
noncomputable def demoEnv : Env :=
  ⟨0.7, fun _ => 2.8e11, fun a b => b - a, fun z => z, 2, 1, 1, 0.3⟩

example : (0 : ℝ) < 1e8 ∧ (0 : ℝ) < 12 ∧ 0 < demoEnv.h ∧ 0 < demoEnv.rhoc 0.5 := by
  norm_num [demoEnv]

/-! ### C32: SIDM effective ages -/

/-- The age function of the cosmology object (C49: it does not depend on earlier queries). -/
noncomputable def ageOf (A : AstropyI) (z zform : ℝ) : Except Err ℝ :=
  answer A (.age z zform)

open Cosmo Np in
theorem ageInterp_spec (A : AstropyI) (hA : ∀ a b, 0 ≤ a → a ≤ b → A.age b ≤ A.age a) :
    ∃ T : ℝ → ℝ, (∀ z, 0 ≤ z → z ≤ 20 → ageInterp A z = .ok (T z)) ∧
      (∀ z z', 0 ≤ z → z ≤ z' → z' ≤ 20 → T z' ≤ T z) ∧
      ((∀ a b, 0 ≤ a → a < b → A.age b < A.age a) →
        ∀ z z', 0 ≤ z → z < z' → z' ≤ 20 → T z' < T z) := by
  have hg : linspace 0 20 250 = (List.range (249 + 1)).map fun i : ℕ =>
      0 + (i : ℝ) * ((20 - 0) / ((250 : ℕ) - 1)) := by
    unfold linspace
    norm_num
  obtain ⟨h1, h2, h3⟩ := grid_spec 249 (fun i : ℕ => 0 + (i : ℝ) * ((20 - 0) / ((250 : ℕ) - 1)))
    (by
      intro i j h
      have : (i : ℝ) < j := by exact_mod_cast h
      norm_num; linarith)
  rw [← hg] at h1 h2 h3
  norm_num at h1 h2
  have hmem : ∀ x ∈ linspace 0 20 250, 0 ≤ x := by
    intro x hx
    rw [hg, List.mem_map] at hx
    obtain ⟨i, _, rfl⟩ := hx
    positivity
  have hneg : (linspace 0 20 250).map (fun x => (x, -A.age x))
      = ((linspace 0 20 250).zip ((linspace 0 20 250).map A.age)).map fun p => (p.1, -p.2) := by
    rw [zip_map_eq, List.map_map]
    rfl
  refine ⟨fun z => segInterp ((linspace 0 20 250).zip ((linspace 0 20 250).map A.age)) z, ?_, ?_,
    ?_⟩
  · intro z a b
    exact (interp1d_eq _ _ z 0 20 h1 h2).1 a b
  · intro z z' a b c
    have := segInterp_mono ((linspace 0 20 250).map (fun x => (x, -A.age x))) (0, -A.age 0)
      (20, -A.age 20) z z' (by
        unfold Nondecreasing
        rw [List.pairwise_map]
        apply h3.imp_of_mem
        intro p q hp hq hpq
        exact ⟨hpq, neg_le_neg (hA p q (hmem p hp) hpq.le)⟩)
      (by rw [List.head?_map, h1]; rfl) (by rw [List.getLast?_map, h2]; rfl) a b c
    rw [hneg, segInterp_neg, segInterp_neg] at this
    linarith
  · intro hS z z' a b c
    have := segInterp_strict ((linspace 0 20 250).map (fun x => (x, -A.age x))) (0, -A.age 0)
      (20, -A.age 20) z z' (by
        rw [List.pairwise_map]
        apply h3.imp_of_mem
        intro p q hp hq hpq
        exact ⟨hpq, neg_lt_neg (hS p q (hmem p hp) hpq)⟩)
      (by rw [List.head?_map, h1]; rfl) (by rw [List.getLast?_map, h2]; rfl) a b c
    rw [hneg, segInterp_neg, segInterp_neg] at this
    linarith

/-- The age in terms of the interpolated cosmic time `T`. -/
theorem ageOf_eq (A : AstropyI) (T : ℝ → ℝ)
    (hT : ∀ z, 0 ≤ z → z ≤ 20 → Cosmo.ageInterp A z = .ok (T z)) (z zf : ℝ) (h0 : 0 ≤ z)
    (h1 : z ≤ 20) (g0 : 0 ≤ zf) (g1 : zf ≤ 20) :
    ageOf A z zf = .ok (if zf < z then 0 else T z - T zf) := by
  simp only [ageOf, answer, hT zf g0 g1, hT z h0 h1]
  split_ifs <;> rfl

/-- **C32**. If the universe ages, a halo seen at `z` that fell in at `z_infall ≥ z` (with formation
at 10 or earlier, the default): with unit time scaling its effective age is the age of a field halo;
the effective age never decreases with the scaling and is never negative. -/
theorem c32_effective_age_partial (A : AstropyI) (hA : ∀ a b, 0 ≤ a → a ≤ b → A.age b ≤ A.age a)
    (z zi zform : ℝ) (hz0 : 0 ≤ z) (hz10 : z ≤ 10) (hzi : z ≤ zi) (hf : 10 ≤ zform)
    (hf20 : zform ≤ 20) :
    (∃ t, ageOf A z zform = .ok t ∧ effectiveAge (ageOf A) z zi 1 zform = .ok t) ∧
    (∀ l, 0 ≤ l → ∃ t, effectiveAge (ageOf A) z zi l zform = .ok t ∧ 0 ≤ t) ∧
    (∀ l l' t t', l ≤ l' → effectiveAge (ageOf A) z zi l zform = .ok t →
      effectiveAge (ageOf A) z zi l' zform = .ok t' → t ≤ t') := by
  obtain ⟨T, hT, hm, _⟩ := ageInterp_spec A hA
  set w := (if zi > 10 then 10 else zi) with hw
  have hw10 : w ≤ 10 := by rw [hw]; split_ifs <;> linarith
  have hzw : z ≤ w := by rw [hw]; split_ifs <;> linarith
  have e1 : ageOf A w zform = .ok (T w - T zform) := by
    rw [ageOf_eq A T hT w zform (by linarith) (by linarith) (by linarith) hf20,
      if_neg (by linarith)]
  have e2 : ageOf A z w = .ok (T z - T w) := by
    rw [ageOf_eq A T hT z w hz0 (by linarith) (by linarith) (by linarith), if_neg (by linarith)]
  have e3 : ageOf A z zform = .ok (T z - T zform) := by
    rw [ageOf_eq A T hT z zform hz0 (by linarith) (by linarith) hf20, if_neg (by linarith)]
  have eff : ∀ l, effectiveAge (ageOf A) z zi l zform
      = .ok (T w - T zform + l * (T z - T w)) := by
    intro l
    unfold effectiveAge
    simp only [bind, Except.bind, pure, Except.pure]
    rw [← hw, e1]
    simp only [e2]
  have b1 := hm w zform (by linarith) (by linarith) hf20
  have b2 := hm z w hz0 hzw (by linarith)
  refine ⟨⟨_, e3, by rw [eff]; congr 1; ring⟩, fun l hl => ⟨_, eff l, ?_⟩, ?_⟩
  · have := mul_nonneg hl (sub_nonneg.2 b2)
    linarith
  · intro l l' t t' hll h h'
    rw [eff] at h h'
    injection h with h
    injection h' with h'
    rw [← h, ← h']
    have := mul_le_mul_of_nonneg_right hll (sub_nonneg.2 b2)
    linarith

example : (∀ a b : ℝ, 0 ≤ a → a ≤ b → (⟨fun a b => b - a, id, fun z => 13 / (1 + z), id⟩ :
    AstropyI).age b ≤ (⟨fun a b => b - a, id, fun z => 13 / (1 + z), id⟩ : AstropyI).age a) ∧
    (0 : ℝ) ≤ 0.5 ∧ (0.5 : ℝ) ≤ 10 ∧ (0.5 : ℝ) ≤ 3 := by
  refine ⟨fun a b ha hab => ?_, by norm_num, by norm_num, by norm_num⟩
  exact div_le_div_of_nonneg_left (by norm_num) (by linarith) (by linarith)

/-- **C32, disagreement**. For a halo that formed after redshift 10 the infall redshift is not
limited to the formation redshift: with infall before formation and unit time scaling the effective
age is larger than the age of a field halo, in every universe that ages. -/
theorem c32_late_formation_fails (A : AstropyI) (hA : ∀ a b, 0 ≤ a → a < b → A.age b < A.age a)
    (z zi zform : ℝ) (hz0 : 0 ≤ z) (hzf : z ≤ zform) (hfi : zform < zi) (hi : zi ≤ 10) :
    ∃ t t', ageOf A z zform = .ok t ∧ effectiveAge (ageOf A) z zi 1 zform = .ok t' ∧ t < t' := by
  obtain ⟨T, hT, _, hs⟩ := ageInterp_spec A fun a b ha hab => by
    rcases hab.eq_or_lt with rfl | h
    · exact le_rfl
    · exact (hA a b ha h).le
  have hlt := hs hA zform zi (by linarith) hfi (by linarith)
  refine ⟨T z - T zform, 0 + 1 * (T z - T zi), ?_, ?_, by linarith⟩
  · rw [ageOf_eq A T hT z zform hz0 (by linarith) (by linarith) (by linarith),
      if_neg (by linarith)]
  · unfold effectiveAge
    simp only [bind, Except.bind, pure, Except.pure]
    rw [if_neg (by linarith), ageOf_eq A T hT zi zform (by linarith) (by linarith) (by linarith)
      (by linarith), if_pos hfi]
    simp only
    rw [ageOf_eq A T hT z zi hz0 (by linarith) (by linarith) (by linarith), if_neg (by linarith)]

/-- **C32, disagreement**. With the infall model that sets the infall redshift to 0, every subhalo
gets the age it will have today, whatever its own redshift and the time scaling: the age is
that of a field halo observed at redshift 0, and larger than that of a field halo at its redshift. -/
theorem c32_infall_zero (A : AstropyI) (hA : ∀ a b, 0 ≤ a → a < b → A.age b < A.age a)
    (z l zform : ℝ) (hz0 : 0 < z) (hzf : z ≤ zform) (hf : zform ≤ 20) :
    ∃ t t', ageOf A z zform = .ok t ∧ ageOf A 0 zform = .ok t' ∧
      effectiveAge (ageOf A) z 0 l zform = .ok t' ∧ t < t' := by
  obtain ⟨T, hT, _, hs⟩ := ageInterp_spec A fun a b ha hab => by
    rcases hab.eq_or_lt with rfl | h
    · exact le_rfl
    · exact (hA a b ha h).le
  have hlt := hs hA 0 z le_rfl hz0 (by linarith)
  have e0 : ageOf A 0 zform = .ok (T 0 - T zform) := by
    rw [ageOf_eq A T hT 0 zform le_rfl (by norm_num) (by linarith) hf, if_neg (by linarith)]
  refine ⟨T z - T zform, T 0 - T zform, ?_, e0, ?_, by linarith⟩
  · rw [ageOf_eq A T hT z zform hz0.le (by linarith) (by linarith) hf, if_neg (by linarith)]
  · unfold effectiveAge
    simp only [bind, Except.bind, pure, Except.pure]
    rw [if_neg (by linarith), e0]
    simp only
    rw [ageOf_eq A T hT z 0 hz0.le (by linarith) le_rfl (by norm_num), if_pos hz0]
    simp

example : (∀ a b : ℝ, 0 ≤ a → a < b → (⟨fun a b => b - a, id, fun z => 13 / (1 + z), id⟩ :
    AstropyI).age b < (⟨fun a b => b - a, id, fun z => 13 / (1 + z), id⟩ : AstropyI).age a) ∧
    (0.5 : ℝ) ≤ 5 ∧ (5 : ℝ) < 8 ∧ (8 : ℝ) ≤ 10 := by
  refine ⟨fun a b ha hab => ?_, by norm_num, by norm_num, by norm_num⟩
  exact div_lt_div_of_pos_left (by norm_num) (by linarith) (by linarith)

/-! ### C60: lensing quantities -/

/-- **C60**. The Einstein radius `sqrt(M) * point_mass_factor_z` of a point mass is the radius whose
disc, at the distance of the mass, contains exactly `M` at the critical surface density. -/
theorem c60_point_mass (e : Env) (z M : ℝ) (hM : 0 ≤ M) (hG : 0 < e.G) (hc : 0 < e.c)
    (h1 : 0 < e.DA z e.zSource) (h2 : 0 < e.DAz z) (h3 : 0 < e.DAz e.zSource) :
    let thetaE := Real.sqrt M * pointMassFactor e z
    sigmaCritMass e z (Real.pi * (thetaE * arcsec * e.DAz z) ^ 2) = M := by
  intro thetaE
  have hpi := Real.pi_pos
  have ha : arcsec ≠ 0 := by unfold arcsec; positivity
  set f := 4 * e.G * (e.c ^ 2)⁻¹ * (e.DA z e.zSource / e.DAz z / e.DAz e.zSource) with hf
  have hf0 : 0 ≤ f := by rw [hf]; positivity
  have hsq : (thetaE * arcsec) ^ 2 = M * f := by
    show (Real.sqrt M * (f ^ (0.5 : ℝ) / arcsec) * arcsec) ^ 2 = M * f
    have : Real.sqrt M * (f ^ (0.5 : ℝ) / arcsec) * arcsec = Real.sqrt M * f ^ (0.5 : ℝ) := by
      field_simp
    rw [this, mul_pow, Real.sq_sqrt hM]
    congr 1
    rw [← Real.rpow_natCast, ← Real.rpow_mul hf0]
    norm_num
  unfold sigmaCritMass sigmaCrit
  rw [mul_pow, hsq, hf]
  field_simp

/-- **C60**. The critical surface density is positive, and the critical mass is proportional to the
area. -/
theorem c60_sigma_crit (e : Env) (z : ℝ) (hG : 0 < e.G) (hc : 0 < e.c)
    (h1 : 0 < e.DA z e.zSource) (h2 : 0 < e.DAz z) (h3 : 0 < e.DAz e.zSource) :
    0 < sigmaCrit e z e.zSource ∧
    (∀ a, 0 < a → 0 < sigmaCritMass e z a) ∧
    (∀ a b, sigmaCritMass e z (a + b) = sigmaCritMass e z a + sigmaCritMass e z b) := by
  have hpi := Real.pi_pos
  have hs : 0 < sigmaCrit e z e.zSource := by unfold sigmaCrit; positivity
  exact ⟨hs, fun a ha => mul_pos ha hs, fun a b => by unfold sigmaCritMass; ring⟩

/-- **C60**. The deflection at the scale radius is proportional to the density normalisation, and
positive for both profiles. -/
theorem c60_deflection (e : Env) (z rho0 rs k : ℝ) (pseudo : Bool) (hG : 0 < e.G) (hc : 0 < e.c)
    (h1 : 0 < e.DA z e.zSource) (h2 : 0 < e.DAz z) (h3 : 0 < e.DAz e.zSource) (hrho : 0 < rho0)
    (hrs : 0 < rs) :
    0 < (nfwAngles e rho0 rs z pseudo).1 ∧ 0 < (nfwAngles e rho0 rs z pseudo).2 ∧
    (nfwAngles e (k * rho0) rs z pseudo).2 = k * (nfwAngles e rho0 rs z pseudo).2 ∧
    (nfwAngles e (k * rho0) rs z pseudo).1 = (nfwAngles e rho0 rs z pseudo).1 := by
  have hpi := Real.pi_pos
  have ha : 0 < arcsec := by unfold arcsec; positivity
  have hs := (c60_sigma_crit e z hG hc h1 h2 h3).1
  have hlog : Real.log (1 / 2) = -Real.log 2 := by
    rw [one_div, Real.log_inv]
  have hl2 := Real.log_two_lt_d9
  refine ⟨by unfold nfwAngles; positivity, ?_, ?_, rfl⟩
  · unfold nfwAngles
    apply div_pos _ ha
    apply div_pos _ h2
    apply div_pos _ hs
    cases pseudo with
    | false =>
      simp only [Bool.false_eq_true, if_false, hlog]
      have : 0 < 1 + -Real.log 2 := by linarith
      positivity
    | true =>
      simp only [if_true, hlog]
      have h2 : 1 < Real.sqrt 2 := by
        rw [show (1 : ℝ) = Real.sqrt 1 by simp]
        exact Real.sqrt_lt_sqrt (by norm_num) (by norm_num)
      have h3 : Real.log 2 < Real.log (1 + Real.sqrt 2) :=
        Real.log_lt_log (by norm_num) (by linarith)
      have h4 : 0 < Real.log 2 := Real.log_pos (by norm_num)
      have : 0 < Real.sqrt 2 * Real.log (1 + Real.sqrt 2) + -Real.log 2 := by nlinarith
      positivity
  · unfold nfwAngles
    cases pseudo <;> simp <;> ring

example : 0 < demoEnv.G ∧ 0 < demoEnv.c ∧ 0 < demoEnv.DA 0.5 demoEnv.zSource ∧
    0 < demoEnv.DAz 0.5 ∧ 0 < demoEnv.DAz demoEnv.zSource := by norm_num [demoEnv]

/-! ### C61: half-mode mass and thermal relic mass -/

theorem halfmode_strictAnti (e : Env) (hO : 0 < e.Om0) (hh : 0 < e.h) (a b : ℝ) (ha : 0 < a)
    (hab : a < b) : halfmodeToThermal e b < halfmodeToThermal e a := by
  unfold halfmodeToThermal
  have h1 : 0 < (e.Om0 / 0.25) ^ (0.4 : ℝ) := Real.rpow_pos_of_pos (by positivity) _
  have h2 : 0 < (e.h / 0.7) ^ (0.8 : ℝ) := Real.rpow_pos_of_pos (by positivity) _
  apply mul_lt_mul_of_pos_left _ (by positivity)
  apply Real.rpow_lt_rpow_of_neg (by positivity) _ (by norm_num)
  exact div_lt_div_of_pos_right hab (by norm_num)

/-- **C61**. The half-mode mass determines the thermal relic mass and conversely: the conversion is
positive, strictly decreasing, and for every relic mass there is exactly one half-mode mass at which
the function minimised by the inverse conversion vanishes, so its minimum is unique. -/
theorem c61_halfmode (e : Env) (hO : 0 < e.Om0) (hh : 0 < e.h) :
    (∀ m, 0 < m → 0 < halfmodeToThermal e m) ∧
    (∀ a b, 0 < a → a < b → halfmodeToThermal e b < halfmodeToThermal e a) ∧
    (∀ t, 0 < t → ∃! m, 0 < m ∧ thermalObjective e t m = 0) ∧
    (∀ t m, 0 < t → 0 < m → 0 ≤ thermalObjective e t m) := by
  have h1 : 0 < (e.Om0 / 0.25) ^ (0.4 : ℝ) := Real.rpow_pos_of_pos (by positivity) _
  have h2 : 0 < (e.h / 0.7) ^ (0.8 : ℝ) := Real.rpow_pos_of_pos (by positivity) _
  refine ⟨fun m hm => ?_, fun a b => halfmode_strictAnti e hO hh a b, ?_, ?_⟩
  · unfold halfmodeToThermal
    have : 0 < (m / 10 ^ 9) ^ (-0.3 : ℝ) := Real.rpow_pos_of_pos (by positivity) _
    positivity
  · intro t ht
    set K := 2.32 * (e.Om0 / 0.25) ^ (0.4 : ℝ) * (e.h / 0.7) ^ (0.8 : ℝ) with hK
    have hKpos : 0 < K := by rw [hK]; positivity
    have hq : 0 < (t / K) ^ (-(0.3 : ℝ)⁻¹) := Real.rpow_pos_of_pos (by positivity) _
    have hzero : ∀ m, thermalObjective e t m = 0 ↔ halfmodeToThermal e m = t := by
      intro m
      unfold thermalObjective
      rw [div_eq_zero_iff, abs_eq_zero, sub_eq_zero]
      norm_num
    refine ⟨10 ^ 9 * (t / K) ^ (-(0.3 : ℝ)⁻¹), ⟨by positivity, ?_⟩, ?_⟩
    · rw [hzero]
      unfold halfmodeToThermal
      rw [← hK, mul_div_cancel_left₀ _ (by norm_num), ← Real.rpow_mul (by positivity)]
      norm_num
      field_simp
    · rintro m ⟨hm, hm'⟩
      rw [hzero] at hm'
      by_contra hne
      have hw : halfmodeToThermal e (10 ^ 9 * (t / K) ^ (-(0.3 : ℝ)⁻¹)) = t := by
        unfold halfmodeToThermal
        rw [← hK, mul_div_cancel_left₀ _ (by norm_num), ← Real.rpow_mul (by positivity)]
        norm_num
        field_simp
      rcases lt_or_gt_of_ne hne with h | h
      · have := halfmode_strictAnti e hO hh _ _ hm h
        linarith
      · have := halfmode_strictAnti e hO hh _ _ (by positivity) h
        linarith
  · intro t m _ _
    unfold thermalObjective
    positivity

example : 0 < demoEnv.Om0 ∧ 0 < demoEnv.h := by norm_num [demoEnv]

/-- C61 for the free-streaming length: a sphere whose diameter is 13.93 free-streaming lengths (the half-mode length) holds
the half-mode mass at the given density, and the length grows with the mass. -/
theorem c61_free_streaming (rho : ℝ) (hr : 0 < rho) :
    (∀ m, 0 < m → 0 < mhmToFsl rho m ∧ 4 / 3 * Real.pi * (13.93 * mhmToFsl rho m / 2) ^ 3 * rho = m) ∧
      ∀ m m', 0 < m → m < m' → mhmToFsl rho m < mhmToFsl rho m' := by
  have hpi := Real.pi_pos
  constructor
  · intro m hm
    have hx : 0 < 3 * m / (4 * Real.pi * rho) := by positivity
    have h0 := Real.rpow_pos_of_pos hx (1 / 3)
    constructor
    · unfold mhmToFsl
      positivity
    · unfold mhmToFsl
      have e : ((3 * m / (4 * Real.pi * rho)) ^ (1 / 3 : ℝ)) ^ 3 = 3 * m / (4 * Real.pi * rho) := by
        rw [← Real.rpow_natCast, ← Real.rpow_mul hx.le]
        norm_num
      have e2 : 13.93 * (2 * (3 * m / (4 * Real.pi * rho)) ^ (1 / 3 : ℝ) / 13.93) / 2 = (3 * m / (4 * Real.pi * rho)) ^ (1 / 3 : ℝ) := by
        field_simp
      rw [e2, e]
      field_simp
  · intro m m' hm h
    unfold mhmToFsl
    have : (3 * m / (4 * Real.pi * rho)) ^ (1 / 3 : ℝ) < (3 * m' / (4 * Real.pi * rho)) ^ (1 / 3 : ℝ) := by
      apply Real.rpow_lt_rpow (by positivity) _ (by norm_num)
      gcongr
    apply div_lt_div_of_pos_right _ (by norm_num)
    linarith

example := c61_free_streaming 4e10 (by norm_num)

/-! ### C62: collapse timescales -/

/-- **C62**. The SIDM collapse timescale is positive, inversely proportional to the cross section
and to the scale radius, and scales as density to the power -3/2 (so it decreases with all three). -/
theorem c62_timescale (rhos rs s : ℝ) (h1 : 0 < rhos) (h2 : 0 < rs) (h3 : 0 < s) :
    0 < collapseTimescale rhos rs s ∧
    (∀ k, 0 < k → collapseTimescale rhos rs (k * s) = collapseTimescale rhos rs s / k) ∧
    (∀ k, 0 < k → collapseTimescale rhos (k * rs) s = collapseTimescale rhos rs s / k) ∧
    (∀ k, 0 < k → collapseTimescale (k ^ 2 * rhos) rs s = collapseTimescale rhos rs s / k ^ 3) := by
  have hpi := Real.pi_pos
  have hs : 0 < Real.sqrt (4 * Real.pi * 4.3e-6 * rhos * 1.05e-33) :=
    Real.sqrt_pos.2 (by positivity)
  refine ⟨by unfold collapseTimescale; positivity, ?_, ?_, ?_⟩
  · intro k hk
    unfold collapseTimescale
    field_simp
  · intro k hk
    unfold collapseTimescale
    field_simp
  · intro k hk
    unfold collapseTimescale
    have : Real.sqrt (4 * Real.pi * 4.3e-6 * (k ^ 2 * rhos) * 1.05e-33)
        = k * Real.sqrt (4 * Real.pi * 4.3e-6 * rhos * 1.05e-33) := by
      rw [show 4 * Real.pi * 4.3e-6 * (k ^ 2 * rhos) * 1.05e-33
        = k ^ 2 * (4 * Real.pi * 4.3e-6 * rhos * 1.05e-33) by ring,
        Real.sqrt_mul (by positivity), Real.sqrt_sq hk.le]
    rw [this]
    generalize Real.sqrt (4 * Real.pi * 4.3e-6 * rhos * 1.05e-33) = S at hs
    field_simp

example := c62_timescale (10 ^ 7) 0.5 20 (by norm_num) (by norm_num) (by norm_num)

end PyHalo.Props
