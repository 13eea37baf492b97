import Verif.Model.Smooth
import Verif.Props.Sidm
import Mathlib.Analysis.SpecialFunctions.Exp
import Mathlib.Analysis.SpecialFunctions.Log.Basic
import Mathlib.Analysis.SpecialFunctions.Sqrt
import Mathlib.Analysis.Complex.ExponentialBounds

/-!
# C118: the SIDM profile as a function of time
-/

namespace PyHalo
namespace Props
open Sidm

theorem rsEarly_continuous : ContinuousOn rsEarly (Set.Ici 0) := by
  unfold rsEarly
  have hl : ContinuousOn (fun t : ℝ => Real.log (0.001 + t)) (Set.Ici 0) := by
    apply ContinuousOn.log (by fun_prop)
    intro t ht
    have : (0 : ℝ) ≤ t := ht
    positivity
  exact ContinuousOn.add (by fun_prop) ((continuousOn_const.mul hl).div_const _)

theorem rcEarly_continuous : Continuous rcEarly := by
  unfold rcEarly
  fun_prop

theorem rsEvolution_continuous_early : ContinuousOn rsEvolution (Set.Icc 0 1) :=
  (rsEarly_continuous.mono Set.Icc_subset_Ici_self).congr fun t ht => by simp [rsEvolution, ht.2]

theorem rcEvolution_continuous_early : ContinuousOn rcEvolution (Set.Icc 0 1) :=
  rcEarly_continuous.continuousOn.congr fun t ht => by simp [rcEvolution, ht.2]

theorem rsEvolution_continuous_late : ContinuousOn rsEvolution (Set.Ioi 1) := by
  have : ContinuousOn (fun t : ℝ => rsEarly 0.5 * Real.exp (-0.47 * (t - 0.5) - 2.4 * (t - 0.5) ^ 3)) (Set.Ioi 1) := by fun_prop
  exact this.congr fun t ht => by simp [rsEvolution, not_le.2 (show (1 : ℝ) < t from ht)]

theorem rcEvolution_continuous_late : ContinuousOn rcEvolution (Set.Ioi 1) := by
  have : ContinuousOn (fun t : ℝ => max (rcEarly 0.5 - 0.28 * (t - 0.5)) 0.0001) (Set.Ioi 1) := by fun_prop
  refine this.congr fun t ht => ?_
  simp only [rcEvolution, not_le.2 (show (1 : ℝ) < t from ht), if_false]
  split_ifs with h
  · rw [max_eq_right h.le]
  · rw [max_eq_left (not_lt.1 h)]

/-- **C118**. The scale radius and the core radius are continuous functions of time up to the collapse time (time 1, included) and
after it. Missing: continuity at the collapse time, see `c118_scale_jumps` and `c118_core_jumps`. -/
theorem c118_continuous_partial (rs0 : ℝ) :
    ContinuousOn (fun t => evolveProfile t rs0) (Set.Icc 0 1) ∧ ContinuousOn (fun t => evolveProfile t rs0) (Set.Ioi 1) := by
  have hmin : ∀ S : Set ℝ, ContinuousOn (fun t : ℝ => min 1.6 t) S := fun S => by fun_prop
  constructor
  · have hm : Set.MapsTo (fun t : ℝ => min 1.6 t) (Set.Icc 0 1) (Set.Icc 0 1) :=
      fun t ht => ⟨le_min (by norm_num) ht.1, (min_le_right _ _).trans ht.2⟩
    have h1 := rsEvolution_continuous_early.comp (hmin _) hm
    have h2 := rcEvolution_continuous_early.comp (hmin _) hm
    have h3 : ContinuousOn (fun t => rs0 * rsEvolution (min 1.6 t)) (Set.Icc 0 1) := continuousOn_const.mul h1
    have h4 : ContinuousOn (fun t => rs0 * rcEvolution (min 1.6 t)) (Set.Icc 0 1) := continuousOn_const.mul h2
    exact h3.prodMk ((continuousOn_const.mul h3).sup h4)
  · have hm : Set.MapsTo (fun t : ℝ => min 1.6 t) (Set.Ioi 1) (Set.Ioi 1) :=
      fun t ht => lt_min (show (1 : ℝ) < 1.6 by norm_num) ht
    have h1 := rsEvolution_continuous_late.comp (hmin _) hm
    have h2 := rcEvolution_continuous_late.comp (hmin _) hm
    have h3 : ContinuousOn (fun t => rs0 * rsEvolution (min 1.6 t)) (Set.Ioi 1) := continuousOn_const.mul h1
    have h4 : ContinuousOn (fun t => rs0 * rcEvolution (min 1.6 t)) (Set.Ioi 1) := continuousOn_const.mul h2
    exact h3.prodMk ((continuousOn_const.mul h3).sup h4)

example : ContinuousAt (fun t => evolveProfile t 2) 0.5 :=
  (c118_continuous_partial 2).1.continuousAt (Icc_mem_nhds (by norm_num) (by norm_num))

theorem log_thousandth : Real.log 0.001 ≤ -6.238 := by
  have h : (0.001 : ℝ) ≤ (2 ^ 9)⁻¹ := by norm_num
  have h1 := Real.log_le_log (by norm_num) h
  rw [Real.log_inv, Real.log_pow] at h1
  have := Real.log_two_gt_d9
  push_cast at h1
  linarith

theorem rsEarly_half : 0.8845 ≤ rsEarly 0.5 := by
  have h1 := log_thousandth
  have h2 : -0.6932 ≤ Real.log 0.501 := by
    have h : ((2 : ℝ))⁻¹ ≤ 0.501 := by norm_num
    have h3 := Real.log_le_log (by norm_num) h
    rw [Real.log_inv] at h3
    linarith [Real.log_two_lt_d9]
  have h3 : Real.log 0.501 / Real.log 0.001 ≤ 0.11113 := by
    rw [div_le_iff_of_neg (by linarith)]
    linarith
  unfold rsEarly
  have e : (1 - 1.13293) * Real.log (0.001 + 0.5) / Real.log 0.001 = (1 - 1.13293) * (Real.log 0.501 / Real.log 0.001) := by
    rw [mul_div_assoc]; norm_num
  rw [e]
  nlinarith

theorem rsEarly_one : rsEarly 1 ≤ 0.51697 := by
  have h1 := log_thousandth
  have h2 : Real.log 1.001 ≤ 0.001 := by
    have := Real.log_le_sub_one_of_pos (show (0 : ℝ) < 1.001 by norm_num)
    linarith
  have h3 : -0.00017 ≤ Real.log 1.001 / Real.log 0.001 := by
    rw [le_div_iff_of_neg (by linarith)]
    linarith
  unfold rsEarly
  have e : (1 - 1.13293) * Real.log (0.001 + 1) / Real.log 0.001 = (1 - 1.13293) * (Real.log 1.001 / Real.log 0.001) := by
    rw [mul_div_assoc]; norm_num
  rw [e]
  nlinarith

theorem exp_collapse {t : ℝ} (h1 : 1 < t) (h2 : t ≤ 1.0001) : 0.5852 ≤ Real.exp (-0.47 * (t - 0.5) - 2.4 * (t - 0.5) ^ 3) := by
  have h3 : (t - 0.5) ^ 3 ≤ 0.5001 ^ 3 := pow_le_pow_left₀ (by linarith) (by linarith) 3
  have h4 : (-0.5353 : ℝ) ≤ -0.47 * (t - 0.5) - 2.4 * (t - 0.5) ^ 3 := by
    norm_num at h3 ⊢
    linarith
  refine le_trans ?_ (Real.exp_le_exp.2 h4)
  rw [Real.exp_neg, le_inv_comm₀ (by norm_num) (Real.exp_pos _)]
  have := Real.exp_bound' (x := 0.5353) (by norm_num) (by norm_num) (n := 8) (by norm_num)
  refine this.trans ?_
  norm_num [Finset.sum_range_succ, Nat.factorial]

/-- **C118**. After collapse the scale radius shrinks with time (`c33_contracts`), but at the collapse time it jumps up: shortly after it
the scale radius is larger than at it. -/
theorem c118_scale_jumps {t rs0 : ℝ} (hr : 0 < rs0) (h1 : 1 < t) (h2 : t ≤ 1.0001) :
    1.001 * (evolveProfile 1 rs0).1 < (evolveProfile t rs0).1 := by
  have m1 : min (1.6 : ℝ) 1 = 1 := by norm_num
  have mt : min 1.6 t = t := min_eq_right (by linarith)
  simp only [evolveProfile, m1, mt, rsEvolution, le_refl, if_true, not_le.2 h1, if_false]
  have a := rsEarly_half
  have b := rsEarly_one
  have c := exp_collapse h1 h2
  have d : 0.8845 * 0.5852 ≤ rsEarly 0.5 * Real.exp (-0.47 * (t - 0.5) - 2.4 * (t - 0.5) ^ 3) :=
    mul_le_mul a c (by norm_num) (by linarith)
  nlinarith

example : 1.001 * (evolveProfile 1 2).1 < (evolveProfile 1.00005 2).1 := c118_scale_jumps (by norm_num) (by norm_num) (by norm_num)

/-- **C118**. At the collapse time the core radius drops at once by more than five percent. -/
theorem c118_core_jumps {t rs0 : ℝ} (hr : 0 < rs0) (h1 : 1 < t) (h2 : t ≤ 1.0001) :
    (evolveProfile t rs0).2 < 0.95 * (evolveProfile 1 rs0).2 := by
  have m1 : min (1.6 : ℝ) 1 = 1 := by norm_num
  have mt : min 1.6 t = t := min_eq_right (by linarith)
  have hs : Real.sqrt 0.5 ≤ 0.70711 := by
    rw [Real.sqrt_le_left (by norm_num)]
    norm_num
  have hhalf : rcEarly 0.5 ≤ 0.17727 := by
    unfold rcEarly
    norm_num at hs ⊢
    linarith
  have hone : rcEarly 1 = 0.039621 := by
    unfold rcEarly
    rw [Real.sqrt_one]
    norm_num
  have hrs : rsEvolution t ≤ 2 := by
    rw [rsEvolution, if_neg (not_le.2 h1)]
    have hle : Real.exp (-0.47 * (t - 0.5) - 2.4 * (t - 0.5) ^ 3) ≤ 1 := by
      rw [Real.exp_le_one_iff]
      have : 0 ≤ (t - 0.5) ^ 3 := pow_nonneg (by linarith) 3
      linarith
    have hup : rsEarly 0.5 ≤ 2 := by
      unfold rsEarly
      have e : (1 - 1.13293) * Real.log (0.001 + 0.5) / Real.log 0.001 = (1 - 1.13293) * (Real.log 0.501 / Real.log 0.001) := by
        rw [mul_div_assoc]; norm_num
      have : 0 ≤ Real.log 0.501 / Real.log 0.001 :=
        div_nonneg_of_nonpos (Real.log_nonpos (by norm_num) (by norm_num)) (Real.log_nonpos (by norm_num) (by norm_num))
      rw [e]
      nlinarith
    have := rsEarly_half
    nlinarith [Real.exp_pos (-0.47 * (t - 0.5) - 2.4 * (t - 0.5) ^ 3)]
  have hrc : rcEvolution t ≤ 0.03727 := by
    simp only [rcEvolution, not_le.2 h1, if_false]
    split_ifs
    · norm_num
    · linarith
  have hrc1 : rcEvolution 1 = 0.039621 := by simp [rcEvolution, hone]
  have big : rs0 * 0.039621 ≤ (evolveProfile 1 rs0).2 := by
    simp only [evolveProfile, m1, hrc1]
    exact le_max_right _ _
  have small : (evolveProfile t rs0).2 ≤ rs0 * 0.03727 := by
    simp only [evolveProfile, mt]
    apply max_le
    · nlinarith
    · exact mul_le_mul_of_nonneg_left hrc hr.le
  nlinarith

example : (evolveProfile 1.00005 2).2 < 0.95 * (evolveProfile 1 2).2 := c118_core_jumps (by norm_num) (by norm_num) (by norm_num)

/-- **C118**. The density of the profile starts at that of the NFW halo, and until collapse it is at least 0.69 times it. -/
theorem c118_density : rhoEvolution 0 = 1 ∧ ∀ t, 0 ≤ t → t ≤ 1 → 0.69 ≤ rhoEvolution t := by
  have hl := log_thousandth
  constructor
  · unfold rhoEvolution
    have : Real.log 0.001 ≠ 0 := by linarith
    norm_num at this ⊢
  · intro t h0 h1
    unfold rhoEvolution
    have h2 : Real.log (0.001 + t) ≤ 0.001 := by
      have := Real.log_le_sub_one_of_pos (show (0 : ℝ) < 0.001 + t by positivity)
      linarith
    have h3 : -0.001 ≤ (1 - 0.692896) / Real.log 0.001 * Real.log (0.001 + t) := by
      rw [div_mul_eq_mul_div, le_div_iff_of_neg (by linarith)]
      linarith
    have h4 : 0 ≤ 4.08729 - 5.78038 * t ^ 2 + 5.30498 * (t ^ 2) ^ 2 := by nlinarith [sq_nonneg (t ^ 2 - 0.5448)]
    have h5 : 0 ≤ t ^ 5 * (4.08729 - 5.78038 * t ^ 2 + 5.30498 * (t ^ 2) ^ 2) := mul_nonneg (by positivity) h4
    have e : t ^ 5 * (4.08729 - 5.78038 * t ^ 2 + 5.30498 * (t ^ 2) ^ 2) = 4.08729 * t ^ 5 - 5.78038 * t ^ 7 + 5.30498 * t ^ 9 := by ring
    rw [e] at h5
    linarith

example : 0.69 ≤ rhoEvolution 0.1 := c118_density.2 _ (by norm_num) (by norm_num)

end Props
end PyHalo
