import Verif.Model.Transfer
import Verif.Spec.Transfer
import Mathlib.Analysis.SpecialFunctions.Sqrt
import Mathlib.Analysis.SpecialFunctions.Pow.Deriv
import Mathlib.Analysis.SpecialFunctions.Log.Deriv
import Mathlib.Analysis.SpecialFunctions.Trigonometric.ArctanDeriv
import Mathlib.MeasureTheory.Integral.IntervalIntegral.FundThmCalculus
import Mathlib.MeasureTheory.Integral.IntervalIntegral.IntegrationByParts
import Mathlib.Tactic

namespace PyHalo
namespace Transfer
open PyHalo.Spec

variable (hyp : ℝ → ℝ → ℝ → ℝ → ℝ)

theorem pow15 {y : ℝ} (hy : 0 < y) : y ^ (1.5 : ℝ) = y * Real.sqrt y := by
  rw [show (1.5 : ℝ) = 1 + 1 / 2 by norm_num, Real.rpow_add hy, Real.rpow_one, Real.sqrt_eq_rpow]

theorem pow25 {y : ℝ} (hy : 0 < y) : y ^ (2.5 : ℝ) = y ^ 2 * Real.sqrt y := by
  rw [show (2.5 : ℝ) = 2 + 1 / 2 by norm_num, Real.rpow_add hy, Real.sqrt_eq_rpow]
  norm_cast

/-! ### Formulas of the single cases -/

theorem mEnclosed_130 (x : ℝ) : mEnclosed hyp x 1 3 0 =
    4 * Real.pi * (Real.log (1 + x) - x * (2 + 3 * x) / 2 / (1 + x) ^ 2) := by
  simp [mEnclosed]
theorem mEnclosed_1305 (x : ℝ) : mEnclosed hyp x 1 3 0.5 =
    (-8 * Real.pi * Real.sqrt x * (3 + 4 * x)) / (3 * (1 + x) ^ (1.5 : ℝ)) + 8 * Real.pi * Real.arsinh (Real.sqrt x) := by
  have : (0.5 : ℝ) ≠ 0 := by norm_num
  simp only [mEnclosed, if_true, if_neg this]
theorem mEnclosed_131 (x : ℝ) : mEnclosed hyp x 1 3 1 = 4 * Real.pi * (Real.log (1 + x) - x / (1 + x)) := by
  have h1 : (1 : ℝ) ≠ 0 := by norm_num
  have h2 : (1 : ℝ) ≠ 0.5 := by norm_num
  simp only [mEnclosed, if_true, if_neg h1, if_neg h2]
theorem mEnclosed_1315 (x : ℝ) : mEnclosed hyp x 1 3 1.5 =
    8 * Real.pi * (-Real.sqrt (x / (1 + x)) + Real.arsinh (Real.sqrt x)) := by
  have h1 : (1.5 : ℝ) ≠ 0 := by norm_num
  have h2 : (1.5 : ℝ) ≠ 0.5 := by norm_num
  have h3 : (1.5 : ℝ) ≠ 1 := by norm_num
  simp only [mEnclosed, if_true, if_neg h1, if_neg h2, if_neg h3]
theorem mEnclosed_14 (x gamma : ℝ) : mEnclosed hyp x 1 4 gamma =
    4 * Real.pi / (3 - gamma) * (x / (1 + x)) ^ (3 - gamma) := by
  have h1 : (4 : ℝ) ≠ 3 := by norm_num
  simp only [mEnclosed, if_true, if_neg h1]
theorem mEnclosed_230 (x : ℝ) : mEnclosed hyp x 2 3 0 =
    -4 * Real.pi * (x / Real.sqrt (1 + x ^ 2) + Real.log (Real.sqrt (1 + x ^ 2) - x)) := by
  have h1 : (2 : ℝ) ≠ 1 := by norm_num
  simp only [mEnclosed, if_true, if_neg h1]
theorem mEnclosed_231 (x : ℝ) : mEnclosed hyp x 2 3 1 = 2 * Real.pi * Real.log (1 + x ^ 2) := by
  have h1 : (2 : ℝ) ≠ 1 := by norm_num
  have h2 : (1 : ℝ) ≠ 0 := by norm_num
  simp only [mEnclosed, if_true, if_neg h1, if_neg h2]
theorem mEnclosed_240 (x : ℝ) : mEnclosed hyp x 2 4 0 = 2 * Real.pi * (Real.arctan x - x / (1 + x ^ 2)) := by
  have h1 : (2 : ℝ) ≠ 1 := by norm_num
  have h2 : (4 : ℝ) ≠ 3 := by norm_num
  simp only [mEnclosed, if_true, if_neg h1, if_neg h2]
theorem mEnclosed_241 (x : ℝ) : mEnclosed hyp x 2 4 1 = 4 * Real.pi * (1 - 1 / Real.sqrt (1 + x ^ 2)) := by
  have h1 : (2 : ℝ) ≠ 1 := by norm_num
  have h2 : (4 : ℝ) ≠ 3 := by norm_num
  have h3 : (1 : ℝ) ≠ 0 := by norm_num
  simp only [mEnclosed, if_true, if_neg h1, if_neg h2, if_neg h3]

/-! ### Derivatives -/

theorem deriv_130 {x : ℝ} (hx : 0 < x) :
    HasDerivAt (fun x => mEnclosed hyp x 1 3 0) (shell 1 3 0 x) x := by
  simp only [mEnclosed_130]
  have h1 : HasDerivAt (fun x : ℝ => 1 + x) 1 x := by simpa using (hasDerivAt_id x).const_add 1
  have h2 := h1.log (by positivity)
  have h3 : HasDerivAt (fun x : ℝ => x * (2 + 3 * x)) (2 + 6 * x) x := by
    have := (hasDerivAt_id x).mul (((hasDerivAt_id x).const_mul 3).const_add 2)
    refine this.congr_deriv ?_
    simp; ring
  have hq : HasDerivAt (fun x : ℝ => (1 + x) ^ 2) (2 * (1 + x)) x := by
    refine (h1.pow 2).congr_deriv ?_
    simp
  have h4 := (h3.div_const 2).div hq (by positivity)
  refine ((h2.sub h4).const_mul (4 * Real.pi)).congr_deriv ?_
  have e : (1 + x ^ (1 : ℝ)) ^ ((3 - 0) / 1 : ℝ) = (1 + x) ^ 3 := by
    rw [Real.rpow_one, show ((3 - 0) / 1 : ℝ) = (3 : ℕ) by norm_num, Real.rpow_natCast]
  rw [shell, gnfw, e, Real.rpow_zero]
  field_simp
  ring

theorem sq_rpow_half (y : ℝ) : y ^ (0.5 : ℝ) = Real.sqrt y := by
  rw [Real.sqrt_eq_rpow]; norm_num

theorem deriv_arsinh_sqrt {x : ℝ} (hx : 0 < x) :
    HasDerivAt (fun x => Real.arsinh (Real.sqrt x)) (1 / (2 * Real.sqrt x * Real.sqrt (1 + x))) x := by
  have := (Real.hasDerivAt_arsinh (Real.sqrt x)).comp x (Real.hasDerivAt_sqrt hx.ne')
  refine this.congr_deriv ?_
  rw [Real.sq_sqrt hx.le]
  have h1 : Real.sqrt x ≠ 0 := (Real.sqrt_pos.mpr hx).ne'
  have h2 : Real.sqrt (1 + x) ≠ 0 := (Real.sqrt_pos.mpr (by linarith)).ne'
  field_simp

theorem deriv_1305 {x : ℝ} (hx : 0 < x) :
    HasDerivAt (fun x => mEnclosed hyp x 1 3 0.5) (shell 1 3 0.5 x) x := by
  have hx1 : 0 < 1 + x := by linarith
  simp only [mEnclosed_1305]
  have h1 : HasDerivAt (fun x : ℝ => 1 + x) 1 x := by simpa using (hasDerivAt_id x).const_add 1
  have hs := Real.hasDerivAt_sqrt hx.ne'
  have h3 : HasDerivAt (fun x : ℝ => 3 + 4 * x) 4 x := by
    have := ((hasDerivAt_id x).const_mul 4).const_add 3
    simpa using this
  have hp : HasDerivAt (fun x : ℝ => 3 * (1 + x) ^ (1.5 : ℝ)) (3 * (1.5 * Real.sqrt (1 + x))) x := by
    have := (h1.rpow_const (p := 1.5) (Or.inl hx1.ne')).const_mul 3
    refine this.congr_deriv ?_
    rw [show (1.5 - 1 : ℝ) = 0.5 by norm_num, sq_rpow_half]; ring
  have hne : (3 * (1 + x) ^ (1.5 : ℝ)) ≠ 0 := by positivity
  have hd := (((hs.const_mul (-8 * Real.pi)).mul h3).div hp hne).add ((deriv_arsinh_sqrt hx).const_mul (8 * Real.pi))
  refine hd.congr_deriv ?_
  rw [shell, gnfw, Real.rpow_one, show ((3 - 0.5) / 1 : ℝ) = 2.5 by norm_num, pow25 hx1, sq_rpow_half, pow15 hx1]
  simp only [Pi.mul_apply]
  clear hd hp hne hs h3 h1
  set s := Real.sqrt x with hsd
  set w := Real.sqrt (1 + x) with hw
  have e1 : x = s ^ 2 := (Real.sq_sqrt hx.le).symm
  have e2 : w ^ 2 = 1 + s ^ 2 := by rw [hw, Real.sq_sqrt hx1.le, ← e1]
  have hs0 : 0 < s := Real.sqrt_pos.mpr hx
  have hw0 : 0 < w := Real.sqrt_pos.mpr hx1
  rw [e1]
  rw [e2.symm]
  clear_value s w
  field_simp
  have e4 : w ^ 4 = (1 + s ^ 2) ^ 2 := by rw [← e2]; ring
  rw [e2, e4]
  norm_num
  ring

theorem deriv_131 {x : ℝ} (hx : 0 < x) :
    HasDerivAt (fun x => mEnclosed hyp x 1 3 1) (shell 1 3 1 x) x := by
  have hx1 : 0 < 1 + x := by linarith
  simp only [mEnclosed_131]
  have h1 : HasDerivAt (fun x : ℝ => 1 + x) 1 x := by simpa using (hasDerivAt_id x).const_add 1
  refine (((h1.log hx1.ne').sub ((hasDerivAt_id x).div h1 hx1.ne')).const_mul (4 * Real.pi)).congr_deriv ?_
  have e : (1 + x ^ (1 : ℝ)) ^ ((3 - 1) / 1 : ℝ) = (1 + x) ^ 2 := by
    rw [Real.rpow_one, show ((3 - 1) / 1 : ℝ) = (2 : ℕ) by norm_num, Real.rpow_natCast]
  rw [shell, gnfw, e, Real.rpow_one]
  simp only [id]
  field_simp
  ring

theorem deriv_1315 {x : ℝ} (hx : 0 < x) :
    HasDerivAt (fun x => mEnclosed hyp x 1 3 1.5) (shell 1 3 1.5 x) x := by
  have hx1 : 0 < 1 + x := by linarith
  simp only [mEnclosed_1315]
  have h1 : HasDerivAt (fun x : ℝ => 1 + x) 1 x := by simpa using (hasDerivAt_id x).const_add 1
  have hq := (hasDerivAt_id x).div h1 hx1.ne'
  have hs := HasDerivAt.sqrt hq (by positivity : (id x / (1 + x)) ≠ 0)
  refine ((hs.neg.add (deriv_arsinh_sqrt hx)).const_mul (8 * Real.pi)).congr_deriv ?_
  rw [shell, gnfw, Real.rpow_one, show ((3 - 1.5) / 1 : ℝ) = 1.5 by norm_num, pow15 hx1, pow15 hx]
  simp only [id, Pi.div_apply]
  rw [Real.sqrt_div hx.le]
  set s := Real.sqrt x with hsd
  set w := Real.sqrt (1 + x) with hw
  have e1 : x = s ^ 2 := (Real.sq_sqrt hx.le).symm
  have e2 : w ^ 2 = 1 + s ^ 2 := by rw [hw, Real.sq_sqrt hx1.le, ← e1]
  have hs0 : 0 < s := Real.sqrt_pos.mpr hx
  have hw0 : 0 < w := Real.sqrt_pos.mpr hx1
  rw [e1, e2.symm]
  field_simp
  grind

theorem deriv_14 {x gamma : ℝ} (hx : 0 < x) (hg : gamma < 3) :
    HasDerivAt (fun x => mEnclosed hyp x 1 4 gamma) (shell 1 4 gamma x) x := by
  have hx1 : 0 < 1 + x := by linarith
  simp only [mEnclosed_14]
  have h1 : HasDerivAt (fun x : ℝ => 1 + x) 1 x := by simpa using (hasDerivAt_id x).const_add 1
  have hq : HasDerivAt (fun x : ℝ => x / (1 + x)) (1 / (1 + x) ^ 2) x := by
    refine ((hasDerivAt_id x).div h1 hx1.ne').congr_deriv ?_
    simp only [id]
    field_simp
    ring
  have hr := hq.rpow_const (p := 3 - gamma) (Or.inl (by positivity))
  refine (hr.const_mul (4 * Real.pi / (3 - gamma))).congr_deriv ?_
  have hg3 : 3 - gamma ≠ 0 := by linarith
  rw [shell, gnfw, Real.rpow_one, show (3 - gamma - 1 : ℝ) = 2 - gamma by ring,
    show ((4 - gamma) / 1 : ℝ) = 2 + (2 - gamma) by ring, Real.rpow_add hx1, Real.div_rpow hx.le hx1.le,
    Real.rpow_sub hx]
  norm_cast
  have ha : x ^ gamma ≠ 0 := by positivity
  have hb : (1 + x) ^ (2 - gamma) ≠ 0 := by positivity
  field_simp

theorem deriv_sqrt1 (x : ℝ) : HasDerivAt (fun x : ℝ => Real.sqrt (1 + x ^ 2)) (x / Real.sqrt (1 + x ^ 2)) x := by
  have h1 : HasDerivAt (fun x : ℝ => 1 + x ^ 2) (2 * x) x := by
    simpa using ((hasDerivAt_id x).pow 2).const_add 1
  refine (HasDerivAt.sqrt h1 (by positivity)).congr_deriv ?_
  field_simp

theorem sqrt1_gt {x : ℝ} : x < Real.sqrt (1 + x ^ 2) :=
  Real.lt_sqrt_of_sq_lt (by linarith)

theorem pow_nat (x : ℝ) : x ^ (2 : ℝ) = x ^ 2 := by norm_cast

theorem deriv_230 {x : ℝ} (hx : 0 < x) :
    HasDerivAt (fun x => mEnclosed hyp x 2 3 0) (shell 2 3 0 x) x := by
  simp only [mEnclosed_230]
  have hw0 : 0 < Real.sqrt (1 + x ^ 2) := Real.sqrt_pos.mpr (by positivity)
  have h1 := deriv_sqrt1 x
  have hlt := @sqrt1_gt x
  have h2 := HasDerivAt.log (h1.sub (hasDerivAt_id x)) (by simp only [id, Pi.sub_apply]; linarith)
  refine ((((hasDerivAt_id x).div h1 hw0.ne').add h2).const_mul (-4 * Real.pi)).congr_deriv ?_
  have e : (1 + x ^ (2 : ℝ)) ^ ((3 - 0) / 2 : ℝ) = (1 + x ^ 2) * Real.sqrt (1 + x ^ 2) := by
    rw [pow_nat, show ((3 - 0) / 2 : ℝ) = 1.5 by norm_num, pow15 (by positivity)]
  rw [shell, gnfw, e, Real.rpow_zero]
  simp only [id, Pi.sub_apply]
  set w := Real.sqrt (1 + x ^ 2) with hw
  have e2 : w ^ 2 = 1 + x ^ 2 := Real.sq_sqrt (by positivity)
  have hne : w - x ≠ 0 := by linarith
  rw [← e2]
  field_simp
  grind

theorem deriv_231 {x : ℝ} (hx : 0 < x) :
    HasDerivAt (fun x => mEnclosed hyp x 2 3 1) (shell 2 3 1 x) x := by
  simp only [mEnclosed_231]
  have h1 : HasDerivAt (fun x : ℝ => 1 + x ^ 2) (2 * x) x := by
    simpa using ((hasDerivAt_id x).pow 2).const_add 1
  refine ((h1.log (by positivity)).const_mul (2 * Real.pi)).congr_deriv ?_
  rw [shell, gnfw, pow_nat, show ((3 - 1) / 2 : ℝ) = 1 by norm_num, Real.rpow_one, Real.rpow_one]
  field_simp
  ring

theorem deriv_240 {x : ℝ} (hx : 0 < x) :
    HasDerivAt (fun x => mEnclosed hyp x 2 4 0) (shell 2 4 0 x) x := by
  simp only [mEnclosed_240]
  have h1 : HasDerivAt (fun x : ℝ => 1 + x ^ 2) (2 * x) x := by
    simpa using ((hasDerivAt_id x).pow 2).const_add 1
  refine (((Real.hasDerivAt_arctan x).sub ((hasDerivAt_id x).div h1 (by positivity))).const_mul
    (2 * Real.pi)).congr_deriv ?_
  rw [shell, gnfw, pow_nat, show ((4 - 0) / 2 : ℝ) = (2 : ℕ) by norm_num, Real.rpow_natCast, Real.rpow_zero]
  simp only [id]
  field_simp
  ring

theorem deriv_241 {x : ℝ} (hx : 0 < x) :
    HasDerivAt (fun x => mEnclosed hyp x 2 4 1) (shell 2 4 1 x) x := by
  simp only [mEnclosed_241]
  have hw0 : 0 < Real.sqrt (1 + x ^ 2) := Real.sqrt_pos.mpr (by positivity)
  have h1 := (hasDerivAt_const x (1 : ℝ)).div (deriv_sqrt1 x) hw0.ne'
  refine ((h1.const_sub 1).const_mul (4 * Real.pi)).congr_deriv ?_
  rw [shell, gnfw, pow_nat, show ((4 - 1) / 2 : ℝ) = 1.5 by norm_num, pow15 (by positivity), Real.rpow_one]
  set w := Real.sqrt (1 + x ^ 2) with hw
  have e2 : w ^ 2 = 1 + x ^ 2 := Real.sq_sqrt (by positivity)
  rw [← e2]
  field_simp
  ring

theorem closed_deriv {a b g x : ℝ} (h : ClosedForm a b g) (hx : 0 < x) :
    HasDerivAt (fun x => mEnclosed hyp x a b g) (shell a b g x) x := by
  cases h with
  | b3g0 => exact deriv_130 hyp hx
  | b3g05 => exact deriv_1305 hyp hx
  | b3g1 => exact deriv_131 hyp hx
  | b3g15 => exact deriv_1315 hyp hx
  | b4 _ h => exact deriv_14 hyp hx h
  | a2b3g0 => exact deriv_230 hyp hx
  | a2b3g1 => exact deriv_231 hyp hx
  | a2b4g0 => exact deriv_240 hyp hx
  | a2b4g1 => exact deriv_241 hyp hx

theorem closed_zero {a b g : ℝ} (h : ClosedForm a b g) : mEnclosed hyp 0 a b g = 0 := by
  cases h with
  | b3g0 => simp [mEnclosed_130]
  | b3g05 => simp [mEnclosed_1305]
  | b3g1 => simp [mEnclosed_131]
  | b3g15 => simp [mEnclosed_1315]
  | b4 _ h => rw [mEnclosed_14, zero_div, Real.zero_rpow (by linarith), mul_zero]
  | a2b3g0 => simp [mEnclosed_230]
  | a2b3g1 => simp [mEnclosed_231]
  | a2b4g0 => simp [mEnclosed_240]
  | a2b4g1 => simp [mEnclosed_241]

theorem closed_cont {a b g : ℝ} (h : ClosedForm a b g) :
    ContinuousOn (fun x => mEnclosed hyp x a b g) (Set.Ici 0) := by
  have hp : ∀ x ∈ Set.Ici (0 : ℝ), (1 + x) ≠ 0 := fun x hx => by have : (0 : ℝ) ≤ x := hx; positivity
  have hc1 : ContinuousOn (fun x : ℝ => 1 + x) (Set.Ici 0) := by fun_prop
  have hs1 : Continuous (fun x : ℝ => Real.sqrt (1 + x ^ 2)) := by fun_prop
  have hs0 : ∀ x : ℝ, Real.sqrt (1 + x ^ 2) ≠ 0 := fun x => (Real.sqrt_pos.mpr (by positivity)).ne'
  have ha : Continuous (fun x : ℝ => Real.arsinh (Real.sqrt x)) := Real.continuous_arsinh.comp Real.continuous_sqrt
  cases h with
  | b3g0 =>
    simp only [mEnclosed_130]
    refine continuousOn_const.mul ((hc1.log hp).sub (ContinuousOn.div (by fun_prop) (by fun_prop) ?_))
    exact fun x hx => pow_ne_zero 2 (hp x hx)
  | b3g05 =>
    simp only [mEnclosed_1305]
    refine (ContinuousOn.div (by fun_prop) ?_ ?_).add (continuousOn_const.mul ha.continuousOn)
    · exact continuousOn_const.mul (hc1.rpow_const fun x hx => Or.inl (hp x hx))
    · intro x hx
      have : (0 : ℝ) ≤ x := hx
      positivity
  | b3g1 =>
    simp only [mEnclosed_131]
    exact continuousOn_const.mul ((hc1.log hp).sub (ContinuousOn.div (by fun_prop) (by fun_prop) hp))
  | b3g15 =>
    simp only [mEnclosed_1315]
    exact continuousOn_const.mul (ContinuousOn.add
      (ContinuousOn.neg (Real.continuous_sqrt.comp_continuousOn (ContinuousOn.div (by fun_prop) (by fun_prop) hp)))
      ha.continuousOn)
  | b4 g h =>
    simp only [mEnclosed_14]
    exact continuousOn_const.mul (ContinuousOn.rpow_const (ContinuousOn.div (by fun_prop) (by fun_prop) hp)
      fun x _ => Or.inr (by linarith))
  | a2b3g0 =>
    simp only [mEnclosed_230]
    refine continuousOn_const.mul (ContinuousOn.add
      (ContinuousOn.div (by fun_prop) (by fun_prop) fun x _ => hs0 x) (ContinuousOn.log (by fun_prop) ?_))
    intro x _
    have := @sqrt1_gt x
    linarith
  | a2b3g1 =>
    simp only [mEnclosed_231]
    exact continuousOn_const.mul (ContinuousOn.log (by fun_prop) fun x _ => by positivity)
  | a2b4g0 =>
    simp only [mEnclosed_240]
    exact continuousOn_const.mul ((Real.continuous_arctan.continuousOn).sub
      (ContinuousOn.div (by fun_prop) (by fun_prop) fun x _ => by positivity))
  | a2b4g1 =>
    simp only [mEnclosed_241]
    exact continuousOn_const.mul (continuousOn_const.sub
      (ContinuousOn.div (by fun_prop) (by fun_prop) fun x _ => hs0 x))

theorem shell_pos {a b g x : ℝ} (hx : 0 < x) : 0 < shell a b g x := by
  rw [shell, gnfw]; have := Real.pi_pos; positivity

theorem closed_integral {a b g x : ℝ} (h : ClosedForm a b g) (hx : 0 ≤ x) :
    IntervalIntegrable (shell a b g) MeasureTheory.volume 0 x
    ∧ ∫ y in (0 : ℝ)..x, shell a b g y = mEnclosed hyp x a b g := by
  have hcont : ContinuousOn (fun x => mEnclosed hyp x a b g) (Set.Icc 0 x) :=
    (closed_cont hyp h).mono fun y hy => hy.1
  have hder : ∀ y ∈ Set.Ioo 0 x, HasDerivAt (fun x => mEnclosed hyp x a b g) (shell a b g y) y :=
    fun y hy => closed_deriv hyp h hy.1
  have hint : IntervalIntegrable (shell a b g) MeasureTheory.volume 0 x := by
    apply intervalIntegral.intervalIntegrable_deriv_of_nonneg (g := fun x => mEnclosed hyp x a b g)
    · rwa [Set.uIcc_of_le hx]
    · rwa [min_eq_left hx, max_eq_right hx]
    · rw [min_eq_left hx, max_eq_right hx]
      exact fun y hy => (shell_pos hy.1).le
  have := intervalIntegral.integral_eq_sub_of_hasDerivAt_of_le hx hcont hder hint
  simp only [closed_zero hyp h, sub_zero] at this
  exact ⟨hint, this⟩

/-! ### The fits -/

/-- The amplitude for coefficients `D` and `E`. -/
noncomputable def ftValue (D E x : ℝ) : ℝ :=
  let f := if x ≤ 1 then (1 + D) * x ^ E / (1 + D * x ^ (2 * E)) else 1
  if f ≤ 1 then f else 1

/-- The signs of the coefficients. -/
def FtGood (D E : ℝ) : Prop := (-1 < D ∧ 0 < E) ∨ (1 < D ∧ E < 0)

theorem ftCoeffs_fitted {a b g d : ℝ} (h : Fitted a b g) (hd : d = 2 ∨ d = 3) :
    ∃ D E, ftCoeffs a b g d = .ok (D, E) ∧ FtGood D E := by
  have h21 : (2 : ℝ) ≠ 1 := by norm_num
  have h32 : (3 : ℝ) ≠ 2 := by norm_num
  have h43 : (4 : ℝ) ≠ 3 := by norm_num
  have h5 : (0.5 : ℝ) ≠ 0 := by norm_num
  have h15 : (1 : ℝ) ≠ 0.5 := by norm_num
  have h10 : (1 : ℝ) ≠ 0 := by norm_num
  have ha : (1.5 : ℝ) ≠ 0 := by norm_num
  have hb' : (1.5 : ℝ) ≠ 0.5 := by norm_num
  have hc : (1.5 : ℝ) ≠ 1 := by norm_num
  cases h with
  | a1 b g hb hg =>
    rcases hd with rfl | rfl <;> rcases hb with rfl | rfl <;> rcases hg with rfl | rfl | rfl | rfl <;>
      simp only [ftCoeffs, if_true, if_neg h32, if_neg h43, if_neg h5, if_neg h15, if_neg h10, if_neg ha, if_neg hb',
        if_neg hc] <;> refine ⟨_, _, rfl, ?_⟩ <;> unfold FtGood <;> norm_num
  | a2 b hb =>
    rcases hd with rfl | rfl <;> rcases hb with rfl | rfl <;>
      simp only [ftCoeffs, if_true, if_neg h32, if_neg h43, if_neg h21] <;>
      refine ⟨_, _, rfl, ?_⟩ <;> unfold FtGood <;> norm_num

theorem ftCoeffs_ok {a b g d : ℝ} {v : ℝ × ℝ} (h : ftCoeffs a b g d = .ok v) : Fitted a b g ∧ (d = 2 ∨ d = 3) := by
  unfold ftCoeffs at h
  split_ifs at h <;> first
    | (cases h; done)
    | (subst_vars; exact ⟨Fitted.a1 _ _ (by simp) (by simp), by simp⟩)
    | (subst_vars; exact ⟨Fitted.a2 _ (by simp), by simp⟩)

theorem rteCoeffs_ok {a b g d : ℝ} {v : ℝ × ℝ × ℝ} (h : rteCoeffs a b g d = .ok v) :
    Fitted a b g ∧ (d = 2 ∨ d = 3) := by
  unfold rteCoeffs at h
  split_ifs at h <;> first
    | (cases h; done)
    | (subst_vars; exact ⟨Fitted.a1 _ _ (by simp) (by simp), by simp⟩)
    | (subst_vars; exact ⟨Fitted.a2 _ (by simp), by simp⟩)

theorem rteCoeffs_ne {a b g d : ℝ} {v : ℝ × ℝ × ℝ} (h : rteCoeffs a b g d = .ok v) : 1 + v.1 ≠ 0 := by
  unfold rteCoeffs at h
  split_ifs at h <;> first
    | (cases h; done)
    | (cases h; norm_num)

theorem rteCoeffs_fitted {a b g d : ℝ} (h : Fitted a b g) (hd : d = 2 ∨ d = 3) :
    ∃ v, rteCoeffs a b g d = .ok v := by
  have h21 : (2 : ℝ) ≠ 1 := by norm_num
  have h32 : (3 : ℝ) ≠ 2 := by norm_num
  have h43 : (4 : ℝ) ≠ 3 := by norm_num
  have h5 : (0.5 : ℝ) ≠ 0 := by norm_num
  have h15 : (1 : ℝ) ≠ 0.5 := by norm_num
  have h10 : (1 : ℝ) ≠ 0 := by norm_num
  have ha : (1.5 : ℝ) ≠ 0 := by norm_num
  have hb' : (1.5 : ℝ) ≠ 0.5 := by norm_num
  have hc : (1.5 : ℝ) ≠ 1 := by norm_num
  cases h with
  | a1 b g hb hg =>
    rcases hd with rfl | rfl <;> rcases hb with rfl | rfl <;> rcases hg with rfl | rfl | rfl | rfl <;>
      simp only [rteCoeffs, if_true, if_neg h32, if_neg h43, if_neg h5, if_neg h15, if_neg h10, if_neg ha, if_neg hb',
        if_neg hc] <;> exact ⟨_, rfl⟩
  | a2 b hb =>
    rcases hd with rfl | rfl <;> rcases hb with rfl | rfl <;>
      simp only [rteCoeffs, if_true, if_neg h32, if_neg h43, if_neg h21] <;> exact ⟨_, rfl⟩

/-- The function of `t = x^E`. -/
theorem ft_pow {x E : ℝ} (hx : 0 < x) : x ^ (2 * E) = (x ^ E) ^ 2 := by
  rw [mul_comm, Real.rpow_mul hx.le]; norm_cast

theorem ft_den {D E x : ℝ} (h : FtGood D E) (hx : 0 < x) (hx1 : x ≤ 1) : 0 < 1 + D * (x ^ E) ^ 2 := by
  have ht : 0 < x ^ E := by positivity
  rcases h with ⟨hD, hE⟩ | ⟨hD, hE⟩
  · have ht1 : x ^ E ≤ 1 := Real.rpow_le_one hx.le hx1 hE.le
    have : (x ^ E) ^ 2 ≤ 1 := by nlinarith
    have h2 : 0 < (x ^ E) ^ 2 := by positivity
    nlinarith [mul_pos (by linarith : 0 < 1 + D) h2]
  · positivity

theorem ftValue_mem {D E x : ℝ} (h : FtGood D E) (hx : 0 < x) : 0 < ftValue D E x ∧ ftValue D E x ≤ 1 := by
  unfold ftValue
  dsimp only
  by_cases hx1 : x ≤ 1
  · rw [if_pos hx1, ft_pow hx]
    have hd := ft_den h hx hx1
    have hD : 0 < 1 + D := by rcases h with ⟨hD, _⟩ | ⟨hD, _⟩ <;> linarith
    have ht : 0 < x ^ E := by positivity
    split_ifs with hf
    · exact ⟨by positivity, hf⟩
    · exact ⟨one_pos, le_rfl⟩
  · simp [hx1]

theorem ftValue_one {D E x : ℝ} (h : FtGood D E) (hx : 1 ≤ x) : ftValue D E x = 1 := by
  unfold ftValue
  rcases hx.eq_or_lt with rfl | hx
  · have hD : 1 + D ≠ 0 := by rcases h with ⟨hD, _⟩ | ⟨hD, _⟩ <;> linarith
    simp [hD]
  · simp [hx.not_ge]

theorem ftValue_mono {D E : ℝ} (h : FtGood D E) : MonotoneOn (ftValue D E) (Set.Ioi 0) := by
  intro x hx y hy hxy
  have hx : 0 < x := hx
  have hy : 0 < y := hy
  by_cases hy1 : y ≤ 1
  · by_cases hfy : ftValue D E y = 1
    · rw [hfy]; exact (ftValue_mem h hx).2
    have hx1 := hxy.trans hy1
    have hdy := ft_den h hy hy1
    have hdx := ft_den h hx hx1
    have hs : 0 < x ^ E := by positivity
    have ht : 0 < y ^ E := by positivity
    have hD : 0 < 1 + D := by rcases h with ⟨hD, _⟩ | ⟨hD, _⟩ <;> linarith
    have hy2 : ftValue D E y = (1 + D) * y ^ E / (1 + D * (y ^ E) ^ 2) ∧
        (1 + D) * y ^ E / (1 + D * (y ^ E) ^ 2) ≤ 1 := by
      unfold ftValue at hfy ⊢
      simp only [if_pos hy1, ft_pow hy] at hfy ⊢
      split_ifs at hfy ⊢ with hf
      · exact ⟨rfl, hf⟩
      · exact absurd rfl hfy
    have hxle : ftValue D E x ≤ (1 + D) * x ^ E / (1 + D * (x ^ E) ^ 2) := by
      unfold ftValue
      simp only [if_pos hx1, ft_pow hx]
      split_ifs with hf
      · exact le_rfl
      · exact (not_le.mp hf).le
    refine hxle.trans ?_
    rw [hy2.1, div_le_div_iff₀ hdx hdy]
    have hle := hy2.2
    rw [div_le_one hdy] at hle
    rcases h with ⟨hD1, hE⟩ | ⟨hD1, hE⟩
    · have hst : x ^ E ≤ y ^ E := Real.rpow_le_rpow hx.le hxy hE.le
      have ht1 : y ^ E ≤ 1 := Real.rpow_le_one hy.le hy1 hE.le
      generalize x ^ E = s at *
      generalize y ^ E = t at *
      have h1 : D * (s * t) ≤ 1 := by
        rcases ht1.eq_or_lt with rfl | ht1
        · by_cases hD0 : 0 ≤ D
          · by_contra hcon
            push Not at hcon
            have : ftValue D E y = 1 := by
              rw [hy2.1]; field_simp
            exact hfy this
          · nlinarith [mul_pos hs ht]
        · have h2 : D * t ≤ 1 := by nlinarith
          by_cases hD0 : 0 ≤ D
          · nlinarith
          · nlinarith [mul_pos hs ht]
      nlinarith [mul_nonneg hD.le (mul_nonneg (sub_nonneg.mpr hst) (sub_nonneg.mpr h1))]
    · have hst : y ^ E ≤ x ^ E := Real.rpow_le_rpow_of_nonpos hx hxy hE.le
      have ht1 : 1 ≤ y ^ E := Real.one_le_rpow_of_pos_of_le_one_of_nonpos hy hy1 hE.le
      generalize x ^ E = s at *
      generalize y ^ E = t at *
      have h1 : 0 ≤ D * (s * t) - 1 := by nlinarith [mul_pos hs ht]
      nlinarith [mul_nonneg hD.le (mul_nonneg (sub_nonneg.mpr hst) h1)]
  · rw [ftValue_one h (not_le.mp hy1).le]; exact (ftValue_mem h hx).2

end Transfer
end PyHalo
