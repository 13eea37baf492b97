import Verif.Lemmas.Transfer
import Mathlib.MeasureTheory.Integral.IntegralEqImproper
import Mathlib.MeasureTheory.Measure.Lebesgue.Basic

namespace PyHalo
namespace Transfer
open PyHalo.Spec Filter Topology MeasureTheory

/-- Antiderivatives of the truncated densities with outer slope three. -/
noncomputable def prim (a b c e tau x : ℝ) : ℝ :=
  a * (Real.log (1 + x) - Real.log (x ^ 2 + tau ^ 2) / 2) + b / (1 + x) + c / (1 + x) ^ 2 + e * Real.arctan (x / tau)

theorem prim_deriv (a b c e : ℝ) {tau x : ℝ} (ht : 0 < tau) (hx : 0 ≤ x) :
    HasDerivAt (prim a b c e tau) (a * (1 / (1 + x) - x / (x ^ 2 + tau ^ 2)) - b / (1 + x) ^ 2 - 2 * c / (1 + x) ^ 3
      + e * tau / (x ^ 2 + tau ^ 2)) x := by
  have hx1 : 0 < 1 + x := by linarith
  have h1 : HasDerivAt (fun x : ℝ => 1 + x) 1 x := by simpa using (hasDerivAt_id x).const_add 1
  have hq : HasDerivAt (fun x : ℝ => (1 + x) ^ 2) (2 * (1 + x)) x := by
    refine (h1.pow 2).congr_deriv ?_
    simp
  have h2 : HasDerivAt (fun x : ℝ => x ^ 2 + tau ^ 2) (2 * x) x := by
    simpa using ((hasDerivAt_id x).pow 2).add_const (tau ^ 2)
  have h3 : HasDerivAt (fun x : ℝ => x / tau) (1 / tau) x := by simpa using (hasDerivAt_id x).div_const tau
  have h4 := (Real.hasDerivAt_arctan (x / tau)).comp x h3
  have hpos : 0 < x ^ 2 + tau ^ 2 := by positivity
  refine ((((((h1.log hx1.ne').sub ((h2.log hpos.ne').div_const 2)).const_mul a).add
    ((hasDerivAt_const x b).div h1 hx1.ne')).add ((hasDerivAt_const x c).div hq (by positivity))).add
    (h4.const_mul e)).congr_deriv ?_
  have hpos2 : 0 < 1 + (x / tau) ^ 2 := by positivity
  have e5 : (1 + (x / tau) ^ 2) = (x ^ 2 + tau ^ 2) / tau ^ 2 := by field_simp; ring
  rw [e5]
  field_simp
  ring

theorem prim_zero (a b c e tau : ℝ) : prim a b c e tau 0 = -a * Real.log tau + b + c := by
  simp [prim]

theorem prim_tendsto (a b c e : ℝ) {tau : ℝ} (ht : 0 < tau) :
    Tendsto (prim a b c e tau) atTop (𝓝 (e * (Real.pi / 2))) := by
  have hinv : Tendsto (fun x : ℝ => 1 / (1 + x)) atTop (𝓝 0) := by
    have := tendsto_inv_atTop_zero.comp (tendsto_atTop_add_const_left atTop (1 : ℝ) tendsto_id)
    refine this.congr fun x => ?_
    simp [Function.comp]
  have hlog : Tendsto (fun x : ℝ => Real.log (1 + x) - Real.log (x ^ 2 + tau ^ 2) / 2) atTop (𝓝 0) := by
    have h1 : Tendsto (fun x : ℝ => 1 - 2 * (1 / (1 + x)) + (1 + tau ^ 2) * (1 / (1 + x)) ^ 2) atTop (𝓝 1) := by
      have := (tendsto_const_nhds (x := (1 : ℝ))).sub (hinv.const_mul 2) |>.add ((hinv.pow 2).const_mul (1 + tau ^ 2))
      simpa using this
    have h2 := (h1.log one_ne_zero).const_mul (-(1 / 2))
    rw [Real.log_one, mul_zero] at h2
    refine h2.congr' ?_
    filter_upwards [eventually_gt_atTop 0] with x hx
    have hx1 : 0 < 1 + x := by linarith
    have e1 : 1 - 2 * (1 / (1 + x)) + (1 + tau ^ 2) * (1 / (1 + x)) ^ 2 = (x ^ 2 + tau ^ 2) / (1 + x) ^ 2 := by
      field_simp; ring
    rw [e1, Real.log_div (by positivity) (by positivity), Real.log_pow]
    push_cast
    ring
  have hat : Tendsto (fun x : ℝ => Real.arctan (x / tau)) atTop (𝓝 (Real.pi / 2)) := by
    have h1 : Tendsto (fun x : ℝ => x / tau) atTop atTop := tendsto_id.atTop_div_const ht
    exact (Real.tendsto_arctan_atTop.mono_right nhdsWithin_le_nhds).comp h1
  have := (((hlog.const_mul a).add (hinv.const_mul b)).add ((hinv.pow 2).const_mul c)).add (hat.const_mul e)
  simp only [mul_zero, ne_eq, OfNat.ofNat_ne_zero, not_false_eq_true, zero_pow, zero_add] at this
  refine this.congr fun x => ?_
  rw [prim, div_pow, one_pow]
  ring

theorem truncated_nonneg {a b g tau x : ℝ} (hx : 0 < x) : 0 ≤ shellTruncated a b g tau x := by
  have := (shell_pos (a := a) (b := b) (g := g) hx).le
  rw [shellTruncated]; positivity

theorem gnfw_130 {x : ℝ} (_hx : 0 < x) : gnfw 1 3 0 x = 1 / (1 + x) ^ 3 := by
  rw [gnfw, Real.rpow_zero, Real.rpow_one, one_mul, show ((3 - 0) / 1 : ℝ) = (3 : ℕ) by norm_num, Real.rpow_natCast]

theorem gnfw_131 {x : ℝ} (_hx : 0 < x) : gnfw 1 3 1 x = 1 / (x * (1 + x) ^ 2) := by
  rw [gnfw, Real.rpow_one, show ((3 - 1) / 1 : ℝ) = (2 : ℕ) by norm_num, Real.rpow_natCast]

theorem gnfw_240 {x : ℝ} (_hx : 0 < x) : gnfw 2 4 0 x = 1 / (1 + x ^ 2) ^ 2 := by
  rw [gnfw, Real.rpow_zero, one_mul, pow_nat, show ((4 - 0) / 2 : ℝ) = (2 : ℕ) by norm_num, Real.rpow_natCast]

/-- The integral of a truncated density from an antiderivative. -/
theorem total_of_prim {a b g tau l : ℝ} {F : ℝ → ℝ} (hc : ContinuousWithinAt F (Set.Ici 0) 0)
    (hd : ∀ x, 0 < x → HasDerivAt F (shellTruncated a b g tau x) x) (hl : Tendsto F atTop (𝓝 l)) :
    IntegrableOn (shellTruncated a b g tau) (Set.Ioi 0)
      ∧ ∫ x in Set.Ioi 0, shellTruncated a b g tau x = l - F 0 :=
  ⟨integrableOn_Ioi_deriv_of_nonneg hc (fun x hx => hd x hx) (fun _ hx => truncated_nonneg hx) hl,
    integral_Ioi_of_hasDerivAt_of_nonneg hc (fun x hx => hd x hx) (fun _ hx => truncated_nonneg hx) hl⟩

theorem total_131 {tau : ℝ} (ht : 0 < tau) :
    IntegrableOn (shellTruncated 1 3 1 tau) (Set.Ioi 0)
    ∧ ∫ x in Set.Ioi 0, shellTruncated 1 3 1 tau x
      = 4 * Real.pi * tau ^ 2 / (tau ^ 2 + 1) ^ 2 * ((tau ^ 2 - 1) * Real.log tau + tau * Real.pi - (tau ^ 2 + 1)) := by
  obtain ⟨N, hN⟩ : ∃ N, N = tau ^ 2 + 1 := ⟨_, rfl⟩
  have hN0 : 0 < N := by rw [hN]; positivity
  have hp : ∀ x, 0 ≤ x → HasDerivAt (fun x => 4 * Real.pi * tau ^ 2 * prim ((tau ^ 2 - 1) / N ^ 2) (1 / N) 0 (2 * tau / N ^ 2) tau x)
      (4 * Real.pi * tau ^ 2 * (x / ((1 + x) ^ 2 * (x ^ 2 + tau ^ 2)))) x := by
    intro x hx
    refine ((prim_deriv _ _ _ _ ht hx).const_mul _).congr_deriv ?_
    have hpos : 0 < x ^ 2 + tau ^ 2 := by positivity
    have hx1 : 0 < 1 + x := by linarith
    congr 1
    rw [hN]
    field_simp
    ring
  have := total_of_prim (a := 1) (b := 3) (g := 1) (tau := tau) (F := fun x => 4 * Real.pi * tau ^ 2 * prim ((tau ^ 2 - 1) / N ^ 2) (1 / N) 0 (2 * tau / N ^ 2) tau x)
    (hp 0 le_rfl).continuousAt.continuousWithinAt (fun x hx => (hp x hx.le).congr_deriv ?_)
    ((prim_tendsto _ _ _ _ ht).const_mul _)
  · refine ⟨this.1, this.2.trans ?_⟩
    rw [prim_zero, ← hN]
    field_simp
    rw [hN]
    ring
  · rw [shellTruncated, shell, gnfw_131 hx]
    field_simp
    ring

theorem total_130 {tau : ℝ} (ht : 0 < tau) :
    IntegrableOn (shellTruncated 1 3 0 tau) (Set.Ioi 0)
    ∧ ∫ x in Set.Ioi 0, shellTruncated 1 3 0 tau x
      = 4 * Real.pi * tau ^ 2 / (tau ^ 2 + 1) ^ 3
        * (0.5 * (-1 + (Real.pi - tau) * tau) * (3 * tau ^ 2 - 1) + tau ^ 2 * (tau ^ 2 - 3) * Real.log tau) := by
  obtain ⟨N, hN⟩ : ∃ N, N = tau ^ 2 + 1 := ⟨_, rfl⟩
  have hN0 : 0 < N := by rw [hN]; positivity
  obtain ⟨a, ha⟩ : ∃ a, a = tau ^ 2 * (tau ^ 2 - 3) / N ^ 3 := ⟨_, rfl⟩
  obtain ⟨b, hb⟩ : ∃ b, b = -2 * tau ^ 2 / N ^ 2 := ⟨_, rfl⟩
  obtain ⟨c, hc⟩ : ∃ c, c = 1 / N := ⟨_, rfl⟩
  have hp : ∀ x, 0 ≤ x → HasDerivAt (fun x => 4 * Real.pi * tau ^ 2 * prim a (-b) (-c / 2) (-tau * (a + b + c)) tau x)
      (4 * Real.pi * tau ^ 2 * (x ^ 2 / ((1 + x) ^ 3 * (x ^ 2 + tau ^ 2)))) x := by
    intro x hx
    refine ((prim_deriv _ _ _ _ ht hx).const_mul _).congr_deriv ?_
    have hpos : 0 < x ^ 2 + tau ^ 2 := by positivity
    have hx1 : 0 < 1 + x := by linarith
    congr 1
    rw [ha, hb, hc, hN]
    field_simp
    ring
  have := total_of_prim (a := 1) (b := 3) (g := 0) (tau := tau) (F := fun x => 4 * Real.pi * tau ^ 2 * prim a (-b) (-c / 2) (-tau * (a + b + c)) tau x)
    (hp 0 le_rfl).continuousAt.continuousWithinAt (fun x hx => (hp x hx.le).congr_deriv ?_)
    ((prim_tendsto _ _ _ _ ht).const_mul _)
  · refine ⟨this.1, this.2.trans ?_⟩
    rw [prim_zero, ← hN, ha, hb, hc]
    field_simp
    rw [hN]
    ring
  · rw [shellTruncated, shell, gnfw_130 hx]
    field_simp
    ring

theorem total_240 {tau : ℝ} (ht : 0 < tau) :
    IntegrableOn (shellTruncated 2 4 0 tau) (Set.Ioi 0)
    ∧ ∫ x in Set.Ioi 0, shellTruncated 2 4 0 tau x = Real.pi ^ 2 * tau ^ 2 / (tau + 1) ^ 2 := by
  have hat : Tendsto (fun x : ℝ => Real.arctan x) atTop (𝓝 (Real.pi / 2)) :=
    Real.tendsto_arctan_atTop.mono_right nhdsWithin_le_nhds
  have hinv : Tendsto (fun x : ℝ => x⁻¹) atTop (𝓝 0) := tendsto_inv_atTop_zero
  by_cases h1 : tau = 1
  · subst h1
    have hp : ∀ x : ℝ, HasDerivAt (fun x => 4 * Real.pi * (Real.arctan x / 8 + (x ^ 3 - x) / (8 * (1 + x ^ 2) ^ 2)))
        (4 * Real.pi * (x ^ 2 / (1 + x ^ 2) ^ 3)) x := by
      intro x
      have e1 : HasDerivAt (fun x : ℝ => x ^ 3 - x) (3 * x ^ 2 - 1) x := by
        refine (((hasDerivAt_id x).pow 3).sub (hasDerivAt_id x)).congr_deriv ?_
        simp
      have e0 : HasDerivAt (fun x : ℝ => 1 + x ^ 2) (2 * x) x := by
        simpa using ((hasDerivAt_id x).pow 2).const_add 1
      have e2 : HasDerivAt (fun x : ℝ => 8 * (1 + x ^ 2) ^ 2) (8 * (2 * (1 + x ^ 2) * (2 * x))) x := by
        refine ((e0.pow 2).const_mul 8).congr_deriv ?_
        simp
      refine ((((Real.hasDerivAt_arctan x).div_const 8).add (e1.div e2 (by positivity))).const_mul _).congr_deriv ?_
      field_simp
      ring
    have hl : Tendsto (fun x : ℝ => 4 * Real.pi * (Real.arctan x / 8 + (x ^ 3 - x) / (8 * (1 + x ^ 2) ^ 2))) atTop
        (𝓝 (4 * Real.pi * (Real.pi / 2 / 8 + 0))) := by
      refine ((hat.div_const 8).add ?_).const_mul _
      have h2 : Tendsto (fun x : ℝ => (x⁻¹ - x⁻¹ ^ 3) / (8 * (x⁻¹ ^ 2 + 1) ^ 2)) atTop (𝓝 ((0 - 0 ^ 3) / (8 * (0 ^ 2 + 1) ^ 2))) :=
        (hinv.sub (hinv.pow 3)).div ((((hinv.pow 2).add tendsto_const_nhds).pow 2).const_mul 8) (by norm_num)
      norm_num at h2
      refine h2.congr' ?_
      filter_upwards [eventually_gt_atTop 0] with x hx
      field_simp
    have := total_of_prim (a := 2) (b := 4) (g := 0) (tau := 1) (hp 0).continuousAt.continuousWithinAt
      (fun x hx => (hp x).congr_deriv ?_) hl
    · refine ⟨this.1, this.2.trans ?_⟩
      simp
      ring
    · rw [shellTruncated, shell, gnfw_240 hx]
      field_simp
  · have hk : tau ^ 2 - 1 ≠ 0 := by
      intro h0
      have : (tau - 1) * (tau + 1) = 0 := by linarith
      rcases mul_eq_zero.mp this with h | h
      · exact h1 (by linarith)
      · linarith
    obtain ⟨k, hkd⟩ : ∃ k, k = tau ^ 2 - 1 := ⟨_, rfl⟩
    rw [← hkd] at hk
    have hp : ∀ x : ℝ, HasDerivAt (fun x => 4 * Real.pi * tau ^ 2 * (tau ^ 2 / k ^ 2 * Real.arctan x
        + (-1 / k) * ((x / (1 + x ^ 2) + Real.arctan x) / 2) + (-tau / k ^ 2) * Real.arctan (x / tau)))
        (4 * Real.pi * tau ^ 2 * (x ^ 2 / ((1 + x ^ 2) ^ 2 * (x ^ 2 + tau ^ 2)))) x := by
      intro x
      have e0 : HasDerivAt (fun x : ℝ => 1 + x ^ 2) (2 * x) x := by
        simpa using ((hasDerivAt_id x).pow 2).const_add 1
      have e1 := ((hasDerivAt_id x).div e0 (by positivity))
      have h3 : HasDerivAt (fun x : ℝ => x / tau) (1 / tau) x := by simpa using (hasDerivAt_id x).div_const tau
      have h4 := (Real.hasDerivAt_arctan (x / tau)).comp x h3
      have ha := Real.hasDerivAt_arctan x
      refine ((((ha.const_mul (tau ^ 2 / k ^ 2)).add (((e1.add ha).div_const 2).const_mul (-1 / k))).add
        (h4.const_mul (-tau / k ^ 2))).const_mul (4 * Real.pi * tau ^ 2)).congr_deriv ?_
      have e5 : (1 + (x / tau) ^ 2) = (x ^ 2 + tau ^ 2) / tau ^ 2 := by field_simp; ring
      have hpos : 0 < x ^ 2 + tau ^ 2 := by positivity
      rw [e5]
      simp only [id]
      congr 1
      field_simp
      rw [hkd]
      ring
    have hl : Tendsto (fun x : ℝ => 4 * Real.pi * tau ^ 2 * (tau ^ 2 / k ^ 2 * Real.arctan x
        + (-1 / k) * ((x / (1 + x ^ 2) + Real.arctan x) / 2) + (-tau / k ^ 2) * Real.arctan (x / tau))) atTop
        (𝓝 (4 * Real.pi * tau ^ 2 * (tau ^ 2 / k ^ 2 * (Real.pi / 2)
        + (-1 / k) * ((0 + Real.pi / 2) / 2) + (-tau / k ^ 2) * (Real.pi / 2)))) := by
      refine (((hat.const_mul _).add (((Tendsto.add ?_ hat).div_const 2).const_mul _)).add
        ((hat.comp (tendsto_id.atTop_div_const ht)).const_mul _)).const_mul _
      have h2 : Tendsto (fun x : ℝ => x⁻¹ / (x⁻¹ ^ 2 + 1)) atTop (𝓝 (0 / (0 ^ 2 + 1))) :=
        hinv.div ((hinv.pow 2).add tendsto_const_nhds) (by norm_num)
      norm_num at h2
      refine h2.congr' ?_
      filter_upwards [eventually_gt_atTop 0] with x hx
      field_simp
    have := total_of_prim (a := 2) (b := 4) (g := 0) (tau := tau) (hp 0).continuousAt.continuousWithinAt
      (fun x hx => (hp x).congr_deriv ?_) hl
    · refine ⟨this.1, this.2.trans ?_⟩
      simp
      have hk2 : k = (tau - 1) * (tau + 1) := by rw [hkd]; ring
      have h3 : tau + 1 ≠ 0 := by positivity
      have h4 : tau - 1 ≠ 0 := sub_ne_zero.mpr h1
      rw [hk2]
      field_simp
      ring
    · rw [shellTruncated, shell, gnfw_240 hx]
      field_simp
      ring

theorem closed_pos (hyp : ℝ → ℝ → ℝ → ℝ → ℝ) {a b g t : ℝ} (hc : ClosedForm a b g) (ht : 0 < t) :
    0 < mEnclosed hyp t a b g := by
  obtain ⟨hint, hi⟩ := closed_integral hyp hc ht.le
  rw [← hi]
  exact intervalIntegral.intervalIntegral_pos_of_pos_on hint (fun x hx => shell_pos hx.1) ht

/-- The total mass as a function of the truncation radius covers all masses. -/
structure Covering (f : ℝ → ℝ) : Prop where
  mono : StrictMonoOn f (Set.Ioi 0)
  pos : ∀ x, 0 < x → 0 < f x
  small : ∀ m, 0 < m → ∃ d, 0 < d ∧ ∀ x, 0 < x → x < d → f x < m
  large : ∀ m, ∃ d, 0 < d ∧ ∀ x, d < x → m < f x

theorem truncated_lt {a b g s t x : ℝ} (hs : 0 < s) (hst : s < t) (hx : 0 < x) :
    shellTruncated a b g s x < shellTruncated a b g t x := by
  rw [shellTruncated, shellTruncated]
  refine mul_lt_mul_of_pos_left ?_ (shell_pos hx)
  refine one_div_lt_one_div_of_lt (by positivity) ?_
  have : x / t < x / s := div_lt_div_of_pos_left hx hs hst
  have h0 : 0 < x / t := div_pos hx (hs.trans hst)
  nlinarith

theorem total_lt {a b g s t : ℝ} (hs : 0 < s) (hst : s < t)
    (h1 : IntegrableOn (shellTruncated a b g s) (Set.Ioi 0)) (h2 : IntegrableOn (shellTruncated a b g t) (Set.Ioi 0)) :
    ∫ x in Set.Ioi 0, shellTruncated a b g s x < ∫ x in Set.Ioi 0, shellTruncated a b g t x := by
  rw [← sub_pos, ← integral_sub h2 h1]
  have hnn : ∀ x ∈ Set.Ioi (0 : ℝ), 0 < shellTruncated a b g t x - shellTruncated a b g s x :=
    fun x hx => sub_pos.mpr (truncated_lt hs hst hx)
  rw [setIntegral_pos_iff_support_of_nonneg_ae]
  · have : Function.support (fun x => shellTruncated a b g t x - shellTruncated a b g s x) ∩ Set.Ioi 0 = Set.Ioi 0 := by
      apply Set.inter_eq_right.mpr
      intro x hx
      exact (hnn x hx).ne'
    rw [this, Real.volume_Ioi]
    exact ENNReal.zero_lt_top
  · filter_upwards [ae_restrict_mem measurableSet_Ioi] with x hx
    exact (hnn x hx).le
  · exact h2.sub h1

/-- At least half of the mass inside the truncation radius remains. -/
theorem total_ge (hyp : ℝ → ℝ → ℝ → ℝ → ℝ) {a b g t : ℝ} (hc : ClosedForm a b g) (ht : 0 < t)
    (h : IntegrableOn (shellTruncated a b g t) (Set.Ioi 0)) :
    mEnclosed hyp t a b g / 2 ≤ ∫ x in Set.Ioi 0, shellTruncated a b g t x := by
  obtain ⟨hint, hi⟩ := closed_integral hyp hc ht.le
  have h1 : ∫ x in Set.Ioc 0 t, shellTruncated a b g t x ≤ ∫ x in Set.Ioi 0, shellTruncated a b g t x := by
    apply setIntegral_mono_set h
    · filter_upwards [ae_restrict_mem measurableSet_Ioi] with x hx
      exact truncated_nonneg hx
    · exact Set.Ioc_subset_Ioi_self.eventuallyLE
  refine le_trans ?_ h1
  rw [← hi, intervalIntegral.integral_of_le ht.le, ← integral_div]
  refine setIntegral_mono_on ?_ ?_ measurableSet_Ioc fun x hx => ?_
  · exact (((intervalIntegrable_iff_integrableOn_Ioc_of_le ht.le).mp hint).div_const 2)
  · exact h.mono_set Set.Ioc_subset_Ioi_self
  · rw [shellTruncated, div_eq_mul_one_div]
    refine mul_le_mul_of_nonneg_left ?_ (shell_pos hx.1).le
    refine one_div_le_one_div_of_le (by have := hx.1; positivity) ?_
    have h3 : x / t ≤ 1 := (div_le_one ht).mpr hx.2
    have h4 : 0 ≤ x / t := div_nonneg hx.1.le ht.le
    nlinarith

theorem integral_inv_sq : IntegrableOn (fun x : ℝ => 1 / (1 + x) ^ 2) (Set.Ioi 0)
    ∧ ∫ x in Set.Ioi (0 : ℝ), 1 / (1 + x) ^ 2 = 1 := by
  have hd : ∀ x : ℝ, 0 ≤ x → HasDerivAt (fun x : ℝ => -(1 / (1 + x))) (1 / (1 + x) ^ 2) x := by
    intro x hx
    have hx1 : (1 + x) ≠ 0 := by positivity
    have h1 : HasDerivAt (fun x : ℝ => 1 + x) 1 x := by simpa using (hasDerivAt_id x).const_add 1
    refine ((hasDerivAt_const x (1 : ℝ)).div h1 hx1).neg.congr_deriv ?_
    field_simp
    ring
  have hl : Tendsto (fun x : ℝ => -(1 / (1 + x))) atTop (𝓝 0) := by
    have := (tendsto_inv_atTop_zero.comp (tendsto_atTop_add_const_left atTop (1 : ℝ) tendsto_id)).neg
    rw [neg_zero] at this
    refine this.congr fun x => ?_
    simp [Function.comp]
  have hnn : ∀ x ∈ Set.Ioi (0 : ℝ), 0 ≤ 1 / (1 + x) ^ 2 := fun x _ => by positivity
  refine ⟨integrableOn_Ioi_deriv_of_nonneg (hd 0 le_rfl).continuousAt.continuousWithinAt
    (fun x hx => hd x (le_of_lt hx)) hnn hl, ?_⟩
  rw [integral_Ioi_of_hasDerivAt_of_nonneg (hd 0 le_rfl).continuousAt.continuousWithinAt
    (fun x hx => hd x (le_of_lt hx)) hnn hl]
  norm_num

theorem total_le {g t : ℝ} (hb : ∀ x, 0 < x → shell 1 3 g x ≤ 4 * Real.pi * (x / (1 + x) ^ 2)) (ht : 0 < t)
    (h : IntegrableOn (shellTruncated 1 3 g t) (Set.Ioi 0)) :
    ∫ x in Set.Ioi 0, shellTruncated 1 3 g t x ≤ 2 * Real.pi * t := by
  have h1 : ∫ x in Set.Ioi 0, shellTruncated 1 3 g t x ≤ ∫ x in Set.Ioi (0 : ℝ), 2 * Real.pi * t * (1 / (1 + x) ^ 2) := by
    refine setIntegral_mono_on h (integral_inv_sq.1.const_mul _) measurableSet_Ioi fun x hx => ?_
    have hx : 0 < x := hx
    rw [shellTruncated]
    have h2 : 1 / (1 + (x / t) ^ 2) ≤ t / (2 * x) := by
      rw [div_le_div_iff₀ (by positivity) (by positivity)]
      have e : (t : ℝ) * (1 + (x / t) ^ 2) - 1 * (2 * x) = (t - x) ^ 2 / t := by field_simp; ring
      have : 0 ≤ (t - x) ^ 2 / t := by positivity
      linarith
    calc shell 1 3 g x * (1 / (1 + (x / t) ^ 2)) ≤ 4 * Real.pi * (x / (1 + x) ^ 2) * (t / (2 * x)) := by
          have := Real.pi_pos
          exact mul_le_mul (hb x hx) h2 (by positivity) (by positivity)
      _ = 2 * Real.pi * t * (1 / (1 + x) ^ 2) := by field_simp; ring
  rwa [integral_const_mul, integral_inv_sq.2, mul_one] at h1

theorem covering_of {g : ℝ} {f : ℝ → ℝ} (hyp : ℝ → ℝ → ℝ → ℝ → ℝ) (hc : ClosedForm 1 3 g)
    (hb : ∀ x, 0 < x → shell 1 3 g x ≤ 4 * Real.pi * (x / (1 + x) ^ 2))
    (hf : ∀ t, 0 < t → IntegrableOn (shellTruncated 1 3 g t) (Set.Ioi 0)
      ∧ ∫ x in Set.Ioi 0, shellTruncated 1 3 g t x = f t)
    (hlarge : ∀ t, 0 < t → 4 * Real.pi * (Real.log (1 + t) - 2) ≤ mEnclosed hyp t 1 3 g) : Covering f where
  mono := by
    intro s hs t ht hst
    have hs : 0 < s := hs
    rw [← (hf s hs).2, ← (hf t (hs.trans hst)).2]
    exact total_lt hs hst (hf s hs).1 (hf t (hs.trans hst)).1
  pos t ht := by
    rw [← (hf t ht).2]
    have := total_ge hyp hc ht (hf t ht).1
    linarith [closed_pos hyp hc ht]
  small m hm := by
    have hpi := Real.pi_pos
    refine ⟨m / (2 * Real.pi), by positivity, fun x hx hxd => ?_⟩
    rw [← (hf x hx).2]
    refine lt_of_le_of_lt (total_le hb hx (hf x hx).1) ?_
    rw [lt_div_iff₀ (by positivity)] at hxd
    linarith
  large m := by
    have hpi := Real.pi_pos
    refine ⟨Real.exp (m / (2 * Real.pi) + 2), Real.exp_pos _, fun x hx => ?_⟩
    have hx0 : 0 < x := (Real.exp_pos _).trans hx
    rw [← (hf x hx0).2]
    refine lt_of_lt_of_le ?_ (total_ge hyp hc hx0 (hf x hx0).1)
    have h1 := hlarge x hx0
    have h2 : m / (2 * Real.pi) + 2 < Real.log (1 + x) := by
      rw [Real.lt_log_iff_exp_lt (by linarith)]; linarith
    have h3 : m < 2 * Real.pi * (Real.log (1 + x) - 2) := by
      have : m / (2 * Real.pi) < Real.log (1 + x) - 2 := by linarith
      rw [div_lt_iff₀ (by positivity)] at this
      linarith
    linarith

/-- The formulas for the total mass. -/
noncomputable def total130 (tau : ℝ) : ℝ := 4 * Real.pi * tau ^ 2 / (tau ^ 2 + 1) ^ 3
  * (0.5 * (-1 + (Real.pi - tau) * tau) * (3 * tau ^ 2 - 1) + tau ^ 2 * (tau ^ 2 - 3) * Real.log tau)

/-- The formulas for the total mass. -/
noncomputable def total131 (tau : ℝ) : ℝ := 4 * Real.pi * tau ^ 2 / (tau ^ 2 + 1) ^ 2
  * ((tau ^ 2 - 1) * Real.log tau + tau * Real.pi - (tau ^ 2 + 1))

theorem mTotal_130 (special : ℝ → ℝ → ℝ) : mTotal special 1 3 0 2 = some total130 := by
  simp only [mTotal, if_true]; rfl

theorem mTotal_131 (special : ℝ → ℝ → ℝ) : mTotal special 1 3 1 2 = some total131 := by
  have h1 : (1 : ℝ) ≠ 0 := by norm_num
  have h2 : (1 : ℝ) ≠ 0.5 := by norm_num
  simp only [mTotal, if_true, if_neg h1, if_neg h2]; rfl

theorem covering_131 : Covering total131 := by
  refine covering_of (fun _ _ _ _ => 0) ClosedForm.b3g1 (fun x hx => ?_) (fun t ht => total_131 ht) fun t ht => ?_
  · rw [shell, gnfw_131 hx]
    apply le_of_eq
    field_simp
  · rw [mEnclosed_131]
    have := Real.pi_pos
    refine mul_le_mul_of_nonneg_left ?_ (by positivity)
    have : t / (1 + t) ≤ 1 := (div_le_one (by linarith)).mpr (by linarith)
    linarith

theorem covering_130 : Covering total130 := by
  refine covering_of (fun _ _ _ _ => 0) ClosedForm.b3g0 (fun x hx => ?_) (fun t ht => total_130 ht) fun t ht => ?_
  · rw [shell, gnfw_130 hx, mul_assoc]
    have := Real.pi_pos
    refine mul_le_mul_of_nonneg_left ?_ (by positivity)
    rw [mul_one_div, div_le_div_iff₀ (by positivity) (by positivity)]
    nlinarith [pow_pos (by linarith : 0 < 1 + x) 2, mul_pos hx (pow_pos (by linarith : 0 < 1 + x) 2)]
  · rw [mEnclosed_130]
    have := Real.pi_pos
    refine mul_le_mul_of_nonneg_left ?_ (by positivity)
    have : t * (2 + 3 * t) / 2 / (1 + t) ^ 2 ≤ 2 := by
      rw [div_le_iff₀ (by positivity)]
      nlinarith
    linarith

end Transfer
end PyHalo
