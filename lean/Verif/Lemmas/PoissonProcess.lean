import Mathlib.Probability.Distributions.Poisson.Basic
import Mathlib.Probability.Independence.InfinitePi
import Mathlib.Probability.Independence.Integration
import Mathlib.MeasureTheory.Integral.Prod

/-!
# A Poisson number of independent draws
-/

namespace PyHalo.Props
open MeasureTheory ProbabilityTheory

/-- The random numbers of a sampler: a Poisson variate with the given mean and a stream of independent variates with law `ν`. -/
noncomputable def Spec102.variates {α : Type*} [MeasurableSpace α] (mean : ℝ) (ν : Measure α) [IsProbabilityMeasure ν] :
    Measure (ℕ × (ℕ → α)) :=
  (poissonMeasure mean.toNNReal).prod (Measure.infinitePi fun _ => ν)

variable {α : Type*} [MeasurableSpace α] (ν : Measure α) [IsProbabilityMeasure ν]

theorem stream_prod (h : α → ℝ) (hm : Measurable h) (k : ℕ) :
    ∫ x, ∏ i ∈ Finset.range k, h (x i) ∂(Measure.infinitePi fun _ : ℕ => ν) = (∫ a, h a ∂ν) ^ k := by
  have hi : iIndepFun (fun (i : ℕ) (x : ℕ → α) => x i) (Measure.infinitePi fun _ : ℕ => ν) :=
    iIndepFun_infinitePi (X := fun _ a => a) (by fun_prop)
  have hi' : iIndepFun (fun (i : Fin k) (x : ℕ → α) => x i) (Measure.infinitePi fun _ : ℕ => ν) :=
    hi.precomp Fin.val_injective
  have e := hi'.integral_fun_prod_comp (f := fun _ => h) (fun i => (measurable_pi_apply _).aemeasurable) (fun i => hm.aestronglyMeasurable)
  have e1 : ∀ i : ℕ, ∫ x : ℕ → α, h (x i) ∂(Measure.infinitePi fun _ : ℕ => ν) = ∫ a, h a ∂ν := by
    intro i
    have := integral_map (μ := Measure.infinitePi fun _ : ℕ => ν) (φ := fun x : ℕ → α => x i)
      (measurable_pi_apply _).aemeasurable (f := h) hm.aestronglyMeasurable
    rw [← this]
    have m : Measure.map (fun x : ℕ → α => x i) (Measure.infinitePi fun _ : ℕ => ν) = ν :=
      Measure.infinitePi_map_eval (fun _ : ℕ => ν) i
    rw [m]
  simp only [Finset.prod_range]
  rw [e]
  simp only [e1, Finset.prod_const, Finset.card_univ, Fintype.card_fin]

theorem stream_lintegral (g : α → ENNReal) (hm : Measurable g) (i : ℕ) :
    ∫⁻ x, g (x i) ∂(Measure.infinitePi fun _ : ℕ => ν) = ∫⁻ a, g a ∂ν := by
  have m : Measure.map (fun x : ℕ → α => x i) (Measure.infinitePi fun _ : ℕ => ν) = ν :=
    Measure.infinitePi_map_eval (fun _ : ℕ => ν) i
  conv_rhs => rw [← m]
  rw [lintegral_map hm (by fun_prop)]

theorem poisson_lintegral_id (r : NNReal) : ∫⁻ k : ℕ, (k : ENNReal) ∂(poissonMeasure r) = r := by
  rw [poissonMeasure, lintegral_sum_measure]
  simp only [lintegral_smul_measure, lintegral_dirac, smul_eq_mul]
  have hs : HasSum (fun n : ℕ => Real.exp (-r) * (r : ℝ) ^ n / n.factorial * n) r := by
    have h1 : HasSum (fun n : ℕ => r * (Real.exp (-r) * (r : ℝ) ^ n / n.factorial)) (r * 1) :=
      (hasSum_one_poissonMeasure r).mul_left _
    rw [mul_one] at h1
    rw [← hasSum_nat_add_iff' 1]
    simp only [Finset.range_one, Finset.sum_singleton, Nat.cast_zero, mul_zero, sub_zero]
    refine h1.congr_fun ?_ |> fun h => h
    intro n
    rw [Nat.factorial_succ]
    push_cast
    have : (n.factorial : ℝ) ≠ 0 := by positivity
    have : (n : ℝ) + 1 ≠ 0 := by positivity
    field_simp
    ring
  have : (r : ENNReal) = ENNReal.ofReal (r : ℝ) := by simp
  conv_rhs => rw [this, ← hs.tsum_eq]
  rw [ENNReal.ofReal_tsum_of_nonneg (fun n => by positivity) hs.summable]
  refine tsum_congr fun n => ?_
  rw [ENNReal.ofReal_mul (by positivity)]
  simp

/-- The generating functional of a Poisson number of independent draws. -/
theorem poisson_functional (mean : ℝ) (h0 : 0 ≤ mean) (h : α → ℝ) (hm : Measurable h) (hb : ∀ a, 0 ≤ h a ∧ h a ≤ 1) :
    ∫ ω, ∏ i ∈ Finset.range ω.1, h (ω.2 i) ∂(Spec102.variates mean ν) = Real.exp (-(mean * ∫ a, (1 - h a) ∂ν)) := by
  unfold Spec102.variates
  have hmeas : Measurable fun ω : ℕ × (ℕ → α) => ∏ i ∈ Finset.range ω.1, h (ω.2 i) := by
    refine measurable_from_prod_countable_right fun k => ?_
    simp only
    fun_prop
  have hint : Integrable (fun ω : ℕ × (ℕ → α) => ∏ i ∈ Finset.range ω.1, h (ω.2 i))
      ((poissonMeasure mean.toNNReal).prod (Measure.infinitePi fun _ => ν)) := by
    refine Integrable.of_bound hmeas.aestronglyMeasurable 1 (Filter.Eventually.of_forall fun ω => ?_)
    rw [Real.norm_of_nonneg (Finset.prod_nonneg fun i _ => (hb _).1)]
    exact Finset.prod_le_one (fun i _ => (hb _).1) fun i _ => (hb _).2
  rw [integral_prod _ hint]
  simp only
  simp_rw [stream_prod ν h hm]
  rw [integral_poissonMeasure]
  have hih : Integrable h ν := Integrable.of_bound hm.aestronglyMeasurable 1 (Filter.Eventually.of_forall fun a => by
    rw [Real.norm_of_nonneg (hb a).1]; exact (hb a).2)
  have e1 : ∫ a, (1 - h a) ∂ν = 1 - ∫ a, h a ∂ν := by
    rw [integral_sub (integrable_const _) hih]; simp
  rw [e1]
  set c := ∫ a, h a ∂ν
  have hr : (mean.toNNReal : ℝ) = mean := Real.coe_toNNReal _ h0
  simp only [hr, smul_eq_mul]
  have e2 : ∀ n : ℕ, Real.exp (-mean) * mean ^ n / n.factorial * c ^ n = Real.exp (-mean) * ((mean * c) ^ n / n.factorial) := by
    intro n; rw [mul_pow]; ring
  simp_rw [e2]
  rw [tsum_mul_left, show -(mean * (1 - c)) = -mean + mean * c by ring, Real.exp_add]
  congr 1
  rw [Real.exp_eq_exp_ℝ, NormedSpace.exp_eq_tsum_div]

/-- Campbell's formula for a Poisson number of independent draws. -/
theorem poisson_campbell (mean : ℝ) (g : α → ENNReal) (hm : Measurable g) :
    ∫⁻ ω, ∑ i ∈ Finset.range ω.1, g (ω.2 i) ∂(Spec102.variates mean ν) = ENNReal.ofReal mean * ∫⁻ a, g a ∂ν := by
  unfold Spec102.variates
  have hmeas : Measurable fun ω : ℕ × (ℕ → α) => ∑ i ∈ Finset.range ω.1, g (ω.2 i) := by
    refine measurable_from_prod_countable_right fun k => ?_
    simp only
    fun_prop
  rw [lintegral_prod _ hmeas.aemeasurable]
  simp only
  have e : ∀ k : ℕ, ∫⁻ x, ∑ i ∈ Finset.range k, g (x i) ∂(Measure.infinitePi fun _ : ℕ => ν) = k * ∫⁻ a, g a ∂ν := by
    intro k
    rw [lintegral_finsetSum _ (fun i _ => by fun_prop)]
    simp only [stream_lintegral ν g hm, Finset.sum_const, Finset.card_range, nsmul_eq_mul]
  simp_rw [e]
  rw [lintegral_mul_const _ (by fun_prop), poisson_lintegral_id]
  rfl

end PyHalo.Props
