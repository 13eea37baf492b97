import Verif.Lemmas.Transfer
import Mathlib.MeasureTheory.Integral.IntervalIntegral.FundThmCalculus
import Mathlib.MeasureTheory.Integral.IntervalIntegral.IntegrationByParts
import Mathlib.Analysis.Calculus.Deriv.MeanValue
import Mathlib.Analysis.MeanInequalities

/-!
# C43, C44: density profiles of tidally stripped subhalos
-/

namespace PyHalo.Props
open PyHalo PyHalo.Transfer PyHalo.Spec

/-! ## C43: enclosed mass -/

variable (hyp : ℝ → ℝ → ℝ → ℝ → ℝ)

/-- C43. For the profiles with closed forms, the enclosed mass is zero at the centre, its derivative is the mass of
a shell, it is the integral of the density, and it increases with the radius. -/
theorem c43_enclosed_mass {a b g : ℝ} (h : ClosedForm a b g) :
    mEnclosed hyp 0 a b g = 0
    ∧ (∀ x, 0 < x → HasDerivAt (fun y => mEnclosed hyp y a b g) (shell a b g x) x)
    ∧ (∀ x, 0 ≤ x → ∫ y in (0 : ℝ)..x, shell a b g y = mEnclosed hyp x a b g)
    ∧ StrictMonoOn (fun x => mEnclosed hyp x a b g) (Set.Ici 0) := by
  refine ⟨closed_zero hyp h, fun x hx => closed_deriv hyp h hx, fun x hx => (closed_integral hyp h hx).2, ?_⟩
  · refine strictMonoOn_of_deriv_pos (convex_Ici 0) (closed_cont hyp h) fun x hx => ?_
    rw [interior_Ici] at hx
    rw [(closed_deriv hyp h hx).deriv]
    exact shell_pos hx

example : mEnclosed hyp 1 1 3 1 = ∫ y in (0 : ℝ)..1, 4 * Real.pi * y ^ 2 * gnfw 1 3 1 y :=
  ((c43_enclosed_mass hyp ClosedForm.b3g1).2.2.1 1 zero_le_one).symm

/-- C43. The radius of the maximum of the circular velocity (`M(x)/x`) for outer slope 4. -/
theorem c43_radius_of_maximum {g : ℝ} (hg : g < 2) :
    ∃ r, rMax 1 4 g = .ok r ∧ 0 < r
      ∧ ∀ x, 0 < x → mEnclosed hyp x 1 4 g / x ≤ mEnclosed hyp r 1 4 g / r := by
  refine ⟨2 - g, by simp [rMax, hg], by linarith, fun x hx => ?_⟩
  obtain ⟨p, hp⟩ : ∃ p, p = 2 - g := ⟨_, rfl⟩
  have hp0 : 0 < p := by linarith
  have key : ∀ y : ℝ, 0 < y → mEnclosed hyp y 1 4 g / y
      = 4 * Real.pi / (p + 1) * ((y / (1 + y)) ^ p * (1 / (1 + y))) := by
    intro y hy
    have h1 : 0 < y / (1 + y) := by positivity
    rw [mEnclosed_14, show 3 - g = p + 1 by linarith, Real.rpow_add h1, Real.rpow_one]
    field_simp
  rw [← hp, key x hx, key p hp0]
  refine mul_le_mul_of_nonneg_left ?_ (by have := Real.pi_pos; positivity)
  have am := Real.geom_mean_le_arith_mean2_weighted (w₁ := 1 / (1 + p)) (w₂ := p / (1 + p)) (p₁ := 1) (p₂ := x / p)
    (by positivity) (by positivity) zero_le_one (by positivity) (by field_simp)
  rw [Real.one_rpow, one_mul] at am
  have e1 : 1 / (1 + p) * 1 + p / (1 + p) * (x / p) = (1 + x) / (1 + p) := by field_simp
  rw [e1] at am
  have am2 := Real.rpow_le_rpow (by positivity) am (by positivity : 0 ≤ 1 + p)
  rw [← Real.rpow_mul (by positivity), div_mul_cancel₀ _ (by positivity), Real.div_rpow hx.le hp0.le,
    Real.div_rpow (by positivity) (by positivity), Real.rpow_add (by positivity), Real.rpow_add (by positivity),
    Real.rpow_one, Real.rpow_one] at am2
  rw [Real.div_rpow hx.le (by positivity), Real.div_rpow hp0.le (by positivity)]
  have hA : 0 < (1 + x) ^ p := by positivity
  have hB : 0 < (1 + p) ^ p := by positivity
  have hC : 0 < p ^ p := by positivity
  have hD : 0 < x ^ p := by positivity
  rw [div_le_div_iff₀ hC (by positivity)] at am2
  rw [div_mul_div_comm, div_mul_div_comm, div_le_div_iff₀ (by positivity) (by positivity)]
  linarith

example : ∃ r, rMax 1 4 1 = .ok r ∧ 0 < r ∧ ∀ x, 0 < x → mEnclosed hyp x 1 4 1 / x ≤ mEnclosed hyp r 1 4 1 / r :=
  c43_radius_of_maximum hyp (by norm_num)

/-- The maximum is not available for the cored profiles with `alpha = 2`, although they are supported by the fits:
the result is stored under a misspelt name. -/
theorem c43_radius_of_maximum_cored {b : ℝ} (hb : b = 3 ∨ b = 4) : rMax 2 b 0 = .error (.nameError "Rmax") := by
  have h21 : (2 : ℝ) ≠ 1 := by norm_num
  rcases hb with rfl | rfl <;> simp [rMax, h21]

example := c43_radius_of_maximum_cored (b := 3) (.inl rfl)

/-! ## C44: the amplitude -/

/-- C44. For all supported profiles the amplitude is defined for every bound fraction, it is positive and at most one, it is
one when the bound fraction is at least one, and it does not decrease with the bound fraction. -/
theorem c44_fraction {a b g d : ℝ} (h : Fitted a b g) (hd : d = 2 ∨ d = 3) :
    ∃ f : ℝ → ℝ, (∀ x, ftDu x a b g d = .ok (f x)) ∧ (∀ x, 0 < x → 0 < f x ∧ f x ≤ 1) ∧ (∀ x, 1 ≤ x → f x = 1)
      ∧ MonotoneOn f (Set.Ioi 0) := by
  obtain ⟨D, E, hc, hDE⟩ := ftCoeffs_fitted h hd
  refine ⟨ftValue D E, fun x => by simp [ftDu, hc, ftValue, bind, Except.bind, pure, Except.pure],
    fun x hx => ftValue_mem hDE hx, fun x hx => ftValue_one hDE hx, ftValue_mono hDE⟩

example : ∃ f : ℝ → ℝ, (∀ x, ftDu x 1 3 1 2 = .ok (f x)) ∧ (∀ x, 0 < x → 0 < f x ∧ f x ≤ 1) ∧ (∀ x, 1 ≤ x → f x = 1)
    ∧ MonotoneOn f (Set.Ioi 0) := c44_fraction (Fitted.a1 3 1 (Or.inl rfl) (by simp)) (Or.inl rfl)

/-- C44. Every other profile and every other truncation exponent is refused. -/
theorem c44_refused (x a b g d : ℝ) :
    ((∃ f, ftDu x a b g d = .ok f) ↔ Fitted a b g ∧ (d = 2 ∨ d = 3))
    ∧ ((∃ r, rteDu x a b g d = .ok r) ↔ Fitted a b g ∧ (d = 2 ∨ d = 3)) := by
  constructor
  · constructor
    · rintro ⟨f, hf⟩
      cases hc : ftCoeffs a b g d with
      | error e => simp [ftDu, hc, bind, Except.bind] at hf
      | ok v => exact ftCoeffs_ok hc
    · rintro ⟨h, hd⟩
      obtain ⟨f, hf, -⟩ := c44_fraction h hd
      exact ⟨f x, hf x⟩
  · constructor
    · rintro ⟨f, hf⟩
      cases hc : rteCoeffs a b g d with
      | error e => simp [rteDu, hc, bind, Except.bind] at hf
      | ok v => exact rteCoeffs_ok hc
    · rintro ⟨h, hd⟩
      obtain ⟨v, hv⟩ := rteCoeffs_fitted h hd
      exact ⟨_, by rw [rteDu, hv]; rfl⟩

/-- C44. A halo that has lost nothing has the full fitted radius. -/
theorem c44_radius_of_unstripped {a b g d : ℝ} (h : Fitted a b g) (hd : d = 2 ∨ d = 3) : rteDu 1 a b g d = .ok 1 := by
  obtain ⟨v, hv⟩ := rteCoeffs_fitted h hd
  have hne := rteCoeffs_ne hv
  simp [rteDu, hv, bind, Except.bind, pure, Except.pure, hne]

/-- The fitted radius is negative for small bound fractions of the cored profile (2, 3, 0). -/
theorem c44_radius_negative : ∃ x r, 0 < x ∧ x < 1 ∧ rteDu x 2 3 0 2 = .ok r ∧ r < 0 := by
  have h21 : (2 : ℝ) ≠ 1 := by norm_num
  obtain ⟨B, hB⟩ : ∃ B : ℝ, B = 1.64345425e-03 := ⟨_, rfl⟩
  have hB0 : 0 < B := by rw [hB]; norm_num
  obtain ⟨x, hx⟩ : ∃ x : ℝ, x = (1 / 2 : ℝ) ^ (1 / (2 * B)) := ⟨_, rfl⟩
  have hx0 : 0 < x := by rw [hx]; positivity
  have hx1 : x ^ (2 * B) = 1 / 2 := by
    rw [hx, ← Real.rpow_mul (by norm_num), one_div_mul_cancel (by positivity), Real.rpow_one]
  refine ⟨x, _, hx0, ?_, by simp only [rteDu, rteCoeffs, if_true, if_neg h21]; rfl, ?_⟩
  · rw [hx]; exact Real.rpow_lt_one (by norm_num) (by norm_num) (by positivity)
  · rw [← hB, hx1]
    apply div_neg_of_neg_of_pos _ (Real.exp_pos _)
    apply div_neg_of_neg_of_pos
    · exact mul_neg_of_neg_of_pos (by norm_num) (by positivity)
    · norm_num

end PyHalo.Props
