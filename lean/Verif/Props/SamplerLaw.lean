import Verif.Props.MassFunction
import Verif.Lemmas.PoissonProcess
import Mathlib.Probability.Distributions.Gaussian.Real
import Mathlib.MeasureTheory.Measure.Lebesgue.Basic

/-!
# C102: the masses drawn are a Poisson process with the requested mass function

The statements are about the generating functional: the mean of the product of `h` over the masses drawn. For a Poisson process
with rate `dN` it is `exp (-∫ (1 - h) dN)`, and no other random set of masses has this generating functional. With `h` zero in a
mass range and one outside it is the probability that no halo falls in the range. The second statement of each theorem is the mean
of a sum over the masses (Campbell's formula): with `g = 1` in a mass range the mean number of halos there, with `g m = m` the
mean mass.
-/

namespace PyHalo.Props
open PyHalo Np MeasureTheory ProbabilityTheory

/-- The law of `numpy.random.uniform(0, 1)`. -/
noncomputable def Spec102.uniform : Measure ℝ := volume.restrict (Set.Icc 0 1)

instance : IsProbabilityMeasure Spec102.uniform := ⟨by simp [Spec102.uniform]⟩

/-- The lists `L`, functions of the random numbers `ω`, are a Poisson process with rate `dN` under the law `P`. -/
def Spec102.IsPoissonProcess {Ω : Type*} [MeasurableSpace Ω] (P : Measure Ω) (L : Ω → List ℝ) (dN : Measure ℝ) : Prop :=
  (∀ h : ℝ → ℝ, Measurable h → (∀ m, 0 ≤ h m ∧ h m ≤ 1) →
    ∫ ω, ((L ω).map h).prod ∂P = Real.exp (-∫ m, (1 - h m) ∂dN)) ∧
  ∀ g : ℝ → ENNReal, Measurable g → ∫⁻ ω, ((L ω).map g).sum ∂P = ∫⁻ m, g m ∂dN

/-- The number of halos per mass `norm * m ^ index` between two masses, times a suppression factor. -/
noncomputable def Spec102.rate (norm index mLow mHigh : ℝ) (suppression : ℝ → ℝ) : Measure ℝ :=
  (volume.restrict (Set.Icc mLow mHigh)).withDensity fun m => ENNReal.ofReal (norm * m ^ index * suppression m)

theorem range_prod (f : ℕ → ℝ) (k : ℕ) : ((List.range k).map f).prod = ∏ i ∈ Finset.range k, f i := by
  induction k with
  | zero => simp
  | succ k ih => rw [List.range_succ, List.map_append, List.prod_append, ih, Finset.prod_range_succ]; simp

theorem range_sum (f : ℕ → ENNReal) (k : ℕ) : ((List.range k).map f).sum = ∑ i ∈ Finset.range k, f i := by
  induction k with
  | zero => simp
  | succ k ih => rw [List.range_succ, List.map_append, List.sum_append, ih, Finset.sum_range_succ]; simp

/-- A Poisson number of independent draws, with a law and a choice whether to keep the draw. -/
theorem process_of {α : Type*} [MeasurableSpace α] (ν : Measure α) [IsProbabilityMeasure ν] (mean : ℝ) (h0 : 0 ≤ mean)
    (f : α → ℝ) (hf : Measurable f) (L : ℕ × (ℕ → α) → List ℝ)
    (hL : ∀ ω, L ω = (List.range ω.1).map fun i => f (ω.2 i)) (dN : Measure ℝ)
    (hN : ENNReal.ofReal mean • ν.map f = dN) : Spec102.IsPoissonProcess (Spec102.variates mean ν) L dN := by
  subst hN
  constructor
  · intro h hm hb
    have e := poisson_functional ν mean h0 (fun a => h (f a)) (hm.comp hf) (fun a => hb _)
    simp only [hL, List.map_map, range_prod, Function.comp_def]
    rw [e, integral_smul_measure, ENNReal.toReal_ofReal h0,
      integral_map hf.aemeasurable (f := fun m => 1 - h m) (by fun_prop), smul_eq_mul]
  · intro g hm
    have e := poisson_campbell ν mean (fun a => g (f a)) (hm.comp hf)
    simp only [hL, List.map_map, range_sum, Function.comp_def]
    rw [e, lintegral_smul_measure, lintegral_map hm hf, smul_eq_mul]

/-! ### Power laws -/

theorem invert_measurable (p : PowerLaw) : Measurable p.invert := by
  unfold PowerLaw.invert
  by_cases h : p.index = -1
  · simp only [h, if_true]; fun_prop
  · simp only [h, if_false]; fun_prop

theorem evaluate_integrable (p : PowerLaw) (a b : ℝ) (ha : 0 < a) (hb : 0 < b) :
    IntervalIntegrable p.evaluate volume a b := by
  unfold PowerLaw.evaluate
  apply IntervalIntegrable.const_mul
  apply intervalIntegral.intervalIntegrable_rpow
  right
  intro h
  rw [Set.mem_uIcc] at h
  rcases h with h | h <;> linarith [h.1]

/-- The mean number below a mass, as a measure and as an integral. -/
theorem rate_below (p : PowerLaw) (hn : 0 ≤ p.norm) (s : ℝ) (hs : (10 : ℝ) ^ p.logMlow ≤ s) :
    ∫⁻ m in Set.Icc ((10 : ℝ) ^ p.logMlow) s, ENNReal.ofReal (p.norm * m ^ p.index) =
      ENNReal.ofReal (∫ m in (10 : ℝ) ^ p.logMlow..s, p.evaluate m) := by
  have hL := pow10_pos p.logMlow
  rw [intervalIntegral.integral_of_le hs, ← integral_Icc_eq_integral_Ioc, ofReal_integral_eq_lintegral_ofReal]
  · rfl
  · have := (intervalIntegrable_iff_integrableOn_Icc_of_le hs).1 (evaluate_integrable p _ _ hL (lt_of_lt_of_le hL hs))
    exact this
  · refine (ae_restrict_iff' measurableSet_Icc).2 (Filter.Eventually.of_forall fun m hm => ?_)
    exact mul_nonneg hn (Real.rpow_nonneg (le_trans hL.le hm.1) _)

theorem nMean_pos (p : PowerLaw) (h : p.logMlow < p.logMhigh) (hn : 0 < p.norm) : 0 < p.nMean := by
  rw [(c52_moments p h).1]
  have hL := pow10_pos p.logMlow
  have hlt : (10 : ℝ) ^ p.logMlow < (10 : ℝ) ^ p.logMhigh := Real.rpow_lt_rpow_of_exponent_lt (by norm_num) h
  apply intervalIntegral.intervalIntegral_pos_of_pos_on (evaluate_integrable p _ _ hL (pow10_pos _)) _ hlt
  intro m hm
  exact mul_pos hn (Real.rpow_pos_of_pos (lt_trans hL hm.1) _)

/-- Inverting the cumulative mass function turns a uniform variate into one with the law of the mass function. -/
theorem invert_law (p : PowerLaw) (h : p.logMlow < p.logMhigh) (hn : 0 < p.norm) :
    ENNReal.ofReal p.nMean • Spec102.uniform.map p.invert =
      Spec102.rate p.norm p.index ((10 : ℝ) ^ p.logMlow) ((10 : ℝ) ^ p.logMhigh) fun _ => 1 := by
  have hL := pow10_pos p.logMlow
  have hlt : (10 : ℝ) ^ p.logMlow < (10 : ℝ) ^ p.logMhigh := Real.rpow_lt_rpow_of_exponent_lt (by norm_num) h
  have hpos := nMean_pos p h hn
  have hfin : IsFiniteMeasure (ENNReal.ofReal p.nMean • Spec102.uniform.map p.invert) := by
    have := Measure.isProbabilityMeasure_map (μ := Spec102.uniform) (invert_measurable p).aemeasurable
    exact Measure.smul_finite _ ENNReal.ofReal_ne_top
  apply Measure.ext_of_Iic
  intro s
  rw [Measure.smul_apply, Measure.map_apply (invert_measurable p) measurableSet_Iic, Spec102.uniform,
    Measure.restrict_apply (invert_measurable p measurableSet_Iic), Spec102.rate, withDensity_apply _ measurableSet_Iic,
    Measure.restrict_restrict measurableSet_Iic]
  simp only [mul_one, smul_eq_mul]
  rcases lt_or_ge s ((10 : ℝ) ^ p.logMlow) with hs | hs
  · have e1 : p.invert ⁻¹' Set.Iic s ∩ Set.Icc 0 1 = ∅ := by
      ext u
      simp only [Set.mem_inter_iff, Set.mem_preimage, Set.mem_Iic, Set.mem_Icc, Set.mem_empty_iff_false, iff_false]
      rintro ⟨h1, h2, h3⟩
      have := (invert_range p h.le u h2 h3).1
      linarith
    have e2 : Set.Iic s ∩ Set.Icc ((10 : ℝ) ^ p.logMlow) ((10 : ℝ) ^ p.logMhigh) = ∅ := by
      ext m
      simp only [Set.mem_inter_iff, Set.mem_Iic, Set.mem_Icc, Set.mem_empty_iff_false, iff_false]
      rintro ⟨h1, h2, h3⟩
      linarith
    rw [e1, e2]
    simp
  · set t := min s ((10 : ℝ) ^ p.logMhigh) with ht
    have ht0 : (10 : ℝ) ^ p.logMlow ≤ t := le_min hs hlt.le
    have ht1 : t ≤ (10 : ℝ) ^ p.logMhigh := min_le_right _ _
    have e2 : Set.Iic s ∩ Set.Icc ((10 : ℝ) ^ p.logMlow) ((10 : ℝ) ^ p.logMhigh) = Set.Icc ((10 : ℝ) ^ p.logMlow) t := by
      ext m
      simp only [Set.mem_inter_iff, Set.mem_Iic, Set.mem_Icc, ht, le_min_iff]
      tauto
    rw [e2, rate_below p hn.le t ht0]
    -- the variate that belongs to `t`
    have htp : 0 < t := lt_of_lt_of_le hL ht0
    have i1 := evaluate_integrable p _ t hL htp
    have i2 := evaluate_integrable p t _ htp (pow10_pos p.logMhigh)
    have nn : ∀ a b : ℝ, 0 < a → a ≤ b → 0 ≤ ∫ m in a..b, p.evaluate m := by
      intro a b ha hab
      apply intervalIntegral.integral_nonneg hab
      intro m hm
      exact mul_nonneg hn.le (Real.rpow_nonneg (le_trans ha.le hm.1) _)
    have n1 := nn _ _ hL ht0
    have n2 := nn _ _ htp ht1
    have hsum := intervalIntegral.integral_add_adjacent_intervals i1 i2
    rw [← (c52_moments p h).1] at hsum
    set w := (∫ m in (10 : ℝ) ^ p.logMlow..t, p.evaluate m) / p.nMean with hw
    have w0 : 0 ≤ w := div_nonneg n1 hpos.le
    have w1 : w ≤ 1 := by rw [hw, div_le_one hpos]; linarith
    have hwt : p.invert w = t := by
      have q := c53_quantile p h w w0 w1
      obtain ⟨r1, r2⟩ := invert_range p h.le w w0 w1
      have hwn : w * p.nMean = ∫ m in (10 : ℝ) ^ p.logMlow..t, p.evaluate m := by rw [hw]; field_simp
      rw [hwn] at q
      have hip : 0 < p.invert w := lt_of_lt_of_le hL r1
      have e := intervalIntegral.integral_add_adjacent_intervals (evaluate_integrable p _ _ hL hip)
        (evaluate_integrable p _ t hip htp)
      have z : ∫ m in p.invert w..t, p.evaluate m = 0 := by linarith
      have strict : ∀ a b : ℝ, 0 < a → a < b → 0 < ∫ m in a..b, p.evaluate m := by
        intro a b ha hab
        apply intervalIntegral.intervalIntegral_pos_of_pos_on (evaluate_integrable p _ _ ha (lt_trans ha hab)) _ hab
        intro m hm
        exact mul_pos hn (Real.rpow_pos_of_pos (lt_trans ha hm.1) _)
      rcases lt_trichotomy (p.invert w) t with hc | hc | hc
      · have := strict _ _ hip hc; linarith
      · exact hc
      · have := strict _ _ htp hc
        rw [intervalIntegral.integral_symm] at z
        linarith
    have e1 : p.invert ⁻¹' Set.Iic s ∩ Set.Icc 0 1 = Set.Icc 0 w := by
      ext u
      simp only [Set.mem_inter_iff, Set.mem_preimage, Set.mem_Iic, Set.mem_Icc]
      constructor
      · rintro ⟨h1, h2, h3⟩
        refine ⟨h2, ?_⟩
        by_contra hc
        push Not at hc
        have := c53_monotone p h hn w u w0 hc h3
        have b := (invert_range p h.le u h2 h3).2
        have : p.invert u ≤ t := le_min h1 b
        linarith
      · rintro ⟨h1, h2⟩
        refine ⟨?_, h1, by linarith⟩
        rcases eq_or_lt_of_le h2 with rfl | h2
        · rw [hwt]; exact min_le_left _ _
        · have := c53_monotone p h hn u w h1 h2 w1
          have : t ≤ s := min_le_left _ _
          linarith
    rw [e1, Real.volume_Icc, sub_zero, ← ENNReal.ofReal_mul hpos.le]
    congr 1
    rw [hw]; field_simp

theorem rate_zero (norm index a b : ℝ) (t : ℝ → ℝ) (h : norm = 0 ∨ b ≤ a) : Spec102.rate norm index a b t = 0 := by
  unfold Spec102.rate
  rcases h with rfl | h
  · have : (fun m : ℝ => ENNReal.ofReal (0 * m ^ index * t m)) = 0 := by funext m; simp
    rw [this, withDensity_zero]
  · have : volume.restrict (Set.Icc a b) = 0 := by
      rw [Measure.restrict_eq_zero, Real.volume_Icc]
      simp [h]
    rw [this]
    simp

theorem nMean_zero (p : PowerLaw) (h : p.norm = 0 ∨ p.logMhigh ≤ p.logMlow) : p.nMean = 0 := by
  rcases h with h | h
  · unfold PowerLaw.nMean integratePowerLaw
    simp [h]
  · exact (c52_moments_empty p h).1

theorem nMean_nonneg' (p : PowerLaw) (hn : 0 ≤ p.norm) : 0 ≤ p.nMean := by
  rcases lt_or_ge p.logMlow p.logMhigh with h | h
  · rcases eq_or_lt_of_le hn with e | e
    · exact (nMean_zero p (Or.inl e.symm)).ge
    · exact (nMean_pos p h e).le
  · exact (nMean_zero p (Or.inr h)).ge

theorem invert_law' (p : PowerLaw) (hn : 0 ≤ p.norm) : ENNReal.ofReal p.nMean • Spec102.uniform.map p.invert =
    Spec102.rate p.norm p.index ((10 : ℝ) ^ p.logMlow) ((10 : ℝ) ^ p.logMhigh) fun _ => 1 := by
  by_cases h : p.norm = 0 ∨ p.logMhigh ≤ p.logMlow
  · rw [nMean_zero p h, rate_zero]
    · simp
    · rcases h with h | h
      · exact Or.inl h
      · exact Or.inr (Real.rpow_le_rpow_of_exponent_le (by norm_num) h)
  · push Not at h
    exact invert_law p h.2 (lt_of_le_of_ne hn (Ne.symm h.1))

/-- **C102**. The masses drawn from a power law are a Poisson process whose rate is the mass function between the two masses. -/
theorem c102_power_law (p : PowerLaw) (hp : p.drawPoisson = true) (hn : 0 ≤ p.norm) :
    ∃ L : ℕ × (ℕ → ℝ) → List ℝ, (∀ ω, p.draw ω.1 ω.2 = .ok (L ω)) ∧
      Spec102.IsPoissonProcess (Spec102.variates p.nMean Spec102.uniform) L
        (Spec102.rate p.norm p.index ((10 : ℝ) ^ p.logMlow) ((10 : ℝ) ^ p.logMhigh) fun _ => 1) := by
  refine ⟨fun ω => (List.range ω.1).map fun i => p.invert (ω.2 i), fun ω => ?_, ?_⟩
  · have : ¬ p.nMean < 0 := not_lt.2 (nMean_nonneg' p hn)
    simp [PowerLaw.draw, PowerLaw.ndraw, hp, this, bind, Except.bind, pure, Except.pure]
  · exact process_of Spec102.uniform p.nMean (nMean_nonneg' p hn) p.invert (invert_measurable p) _ (fun ω => rfl) _ (invert_law' p hn)

example := c102_power_law ⟨6, 10, -1.9, true, 10 ^ 8⟩ rfl (by norm_num)

/-! ### Suppressed power laws -/

theorem filter_prod (l : List ℝ) (v : ℕ → ℝ) (t h : ℝ → ℝ) (k : ℕ) :
    ((((l.zipIdx k).filter fun q => decide (v q.2 < t q.1)).map Prod.fst).map h).prod =
      ((l.zipIdx k).map fun q => if v q.2 < t q.1 then h q.1 else 1).prod := by
  induction l generalizing k with
  | nil => simp
  | cons a l ih =>
    simp only [List.zipIdx_cons, List.filter_cons, List.map_cons, List.prod_cons]
    rw [← ih (k + 1)]
    by_cases hv : v k < t a <;> simp [hv]

theorem filter_sum (l : List ℝ) (v : ℕ → ℝ) (t : ℝ → ℝ) (g : ℝ → ENNReal) (k : ℕ) :
    ((((l.zipIdx k).filter fun q => decide (v q.2 < t q.1)).map Prod.fst).map g).sum =
      ((l.zipIdx k).map fun q => if v q.2 < t q.1 then g q.1 else 0).sum := by
  induction l generalizing k with
  | nil => simp
  | cons a l ih =>
    simp only [List.zipIdx_cons, List.filter_cons, List.map_cons, List.sum_cons]
    rw [← ih (k + 1)]
    by_cases hv : v k < t a <;> simp [hv]

theorem zipIdx_map_range (f : ℕ → ℝ) (k : ℕ) : ((List.range k).map f).zipIdx = (List.range k).map fun i => (f i, i) := by
  apply List.ext_getElem
  · simp
  · intro i h1 h2; simp

/-- Keeping each draw with a probability that depends on its mass. -/
theorem thinned_process {α : Type*} [MeasurableSpace α] (ν : Measure α) [IsProbabilityMeasure ν] (mean : ℝ) (h0 : 0 ≤ mean)
    (f : α → ℝ) (hf : Measurable f) (t : ℝ → ℝ) (ht : Measurable t) (htb : ∀ᵐ a ∂ν, 0 ≤ t (f a) ∧ t (f a) ≤ 1)
    (L : ℕ × (ℕ → α × ℝ) → List ℝ)
    (hL : ∀ ω, L ω = ((((List.range ω.1).map fun i => f (ω.2 i).1).zipIdx).filter fun q =>
      decide ((ω.2 q.2).2 < t q.1)).map Prod.fst)
    (dN : Measure ℝ) (hN : ENNReal.ofReal mean • ν.map f = dN) :
    Spec102.IsPoissonProcess (Spec102.variates mean (ν.prod Spec102.uniform)) L
      (dN.withDensity fun m => ENNReal.ofReal (t m)) := by
  subst hN
  have hset : MeasurableSet {a : α × ℝ | a.2 < t (f a.1)} := measurableSet_lt (by fun_prop) (by fun_prop)
  have hvol : ∀ x, 0 ≤ x → x ≤ 1 → Spec102.uniform {v | v < x} = ENNReal.ofReal x := by
    intro x h0 h1
    have hI : MeasurableSet {v : ℝ | v < x} := measurableSet_Iio
    rw [Spec102.uniform, Measure.restrict_apply hI]
    have : {v | v < x} ∩ Set.Icc 0 1 = Set.Ico 0 x := by
      ext v
      simp only [Set.mem_inter_iff, Set.mem_ofPred_eq, Set.mem_Icc, Set.mem_Ico]
      constructor
      · rintro ⟨h1, h2, -⟩; exact ⟨h2, h1⟩
      · rintro ⟨h2, h3⟩; exact ⟨h3, h2, by linarith⟩
    rw [this, Real.volume_Ico, sub_zero]
  constructor
  · intro h hm hb
    have hmm : Measurable fun a : α × ℝ => if a.2 < t (f a.1) then h (f a.1) else 1 :=
      Measurable.ite hset (by fun_prop) (by fun_prop)
    have e := poisson_functional (ν.prod Spec102.uniform) mean h0
      (fun a => if a.2 < t (f a.1) then h (f a.1) else 1) hmm (fun a => by
        split
        · exact hb _
        · norm_num)
    have eω : ∀ ω, ((L ω).map h).prod = ∏ i ∈ Finset.range ω.1, if (ω.2 i).2 < t (f (ω.2 i).1) then h (f (ω.2 i).1) else 1 := by
      intro ω
      rw [hL, filter_prod _ (fun i => (ω.2 i).2) t h 0, zipIdx_map_range, List.map_map, range_prod]
      rfl
    simp only [eω]
    rw [e]
    congr 2
    have hd : Measurable fun m => (ENNReal.ofReal (t m)) := by fun_prop
    rw [integral_withDensity_eq_integral_toReal_smul hd (Filter.Eventually.of_forall fun _ => ENNReal.ofReal_lt_top),
      integral_smul_measure, ENNReal.toReal_ofReal h0, integral_map hf.aemeasurable (by fun_prop), smul_eq_mul]
    congr 1
    have hint : Integrable (fun a : α × ℝ => 1 - if a.2 < t (f a.1) then h (f a.1) else 1) (ν.prod Spec102.uniform) := by
      refine Integrable.of_bound (by fun_prop) 1 (Filter.Eventually.of_forall fun a => ?_)
      split
      · rw [Real.norm_of_nonneg (by linarith [(hb (f a.1)).2])]; linarith [(hb (f a.1)).1]
      · simp
    rw [integral_prod _ hint]
    refine integral_congr_ae (htb.mono fun a ha => ?_)
    simp only
    have e1 : (fun v : ℝ => 1 - if v < t (f a) then h (f a) else 1) =
        Set.indicator {v | v < t (f a)} fun _ => 1 - h (f a) := by
      funext v
      by_cases hv : v < t (f a) <;> simp [hv, Set.indicator]
    have hI : MeasurableSet {v : ℝ | v < t (f a)} := measurableSet_Iio
    rw [e1, integral_indicator hI, setIntegral_const, measureReal_def]
    rw [hvol _ ha.1 ha.2]
  · intro g hm
    have hmm : Measurable fun a : α × ℝ => if a.2 < t (f a.1) then g (f a.1) else 0 :=
      Measurable.ite hset (by fun_prop) (by fun_prop)
    have e := poisson_campbell (ν.prod Spec102.uniform) mean
      (fun a => if a.2 < t (f a.1) then g (f a.1) else 0) hmm
    have eω : ∀ ω, ((L ω).map g).sum = ∑ i ∈ Finset.range ω.1, if (ω.2 i).2 < t (f (ω.2 i).1) then g (f (ω.2 i).1) else 0 := by
      intro ω
      rw [hL, filter_sum _ (fun i => (ω.2 i).2) t g 0, zipIdx_map_range, List.map_map, range_sum]
      rfl
    simp only [eω]
    have hd : Measurable fun m => (ENNReal.ofReal (t m)) := by fun_prop
    rw [e, lintegral_withDensity_eq_lintegral_mul _ hd hm, lintegral_smul_measure, lintegral_map (by fun_prop) hf, smul_eq_mul]
    congr 1
    rw [lintegral_prod _ hmm.aemeasurable]
    refine lintegral_congr_ae (htb.mono fun a ha => ?_)
    simp only
    have e1 : (fun v : ℝ => if v < t (f a) then g (f a) else 0) =
        Set.indicator {v | v < t (f a)} fun _ => g (f a) := by
      funext v
      by_cases hv : v < t (f a) <;> simp [hv, Set.indicator]
    have hI : MeasurableSet {v : ℝ | v < t (f a)} := measurableSet_Iio
    rw [e1, lintegral_indicator hI, setLIntegral_const, hvol _ ha.1 ha.2, mul_comm]
    rfl

/-- **C102** for a suppressed mass function (warm, mixed or fuzzy dark matter): a Poisson process whose rate is the mass function
times the suppression factor. -/
theorem c102_suppressed (p : PowerLaw) (hp : p.drawPoisson = true) (hn : 0 ≤ p.norm) (t : ℝ → ℝ) (ht : Measurable t)
    (htb : ∀ m, (10 : ℝ) ^ p.logMlow ≤ m → m ≤ (10 : ℝ) ^ p.logMhigh → 0 ≤ t m ∧ t m ≤ 1) (hlm : p.logMlow ≤ p.logMhigh) :
    ∃ L : ℕ × (ℕ → ℝ × ℝ) → List ℝ,
      (∀ ω, drawSuppressed p t ω.1 (fun i => (ω.2 i).1) (fun i => (ω.2 i).2) = .ok (L ω)) ∧
      Spec102.IsPoissonProcess (Spec102.variates p.nMean (Spec102.uniform.prod Spec102.uniform)) L
        (Spec102.rate p.norm p.index ((10 : ℝ) ^ p.logMlow) ((10 : ℝ) ^ p.logMhigh) t) := by
  have hd : ∀ k (u : ℕ → ℝ), p.draw k u = .ok ((List.range k).map fun i => p.invert (u i)) := by
    intro k u
    have : ¬ p.nMean < 0 := not_lt.2 (nMean_nonneg' p hn)
    simp [PowerLaw.draw, PowerLaw.ndraw, hp, this, bind, Except.bind, pure, Except.pure]
  have hr : Spec102.rate p.norm p.index ((10 : ℝ) ^ p.logMlow) ((10 : ℝ) ^ p.logMhigh) t =
      (Spec102.rate p.norm p.index ((10 : ℝ) ^ p.logMlow) ((10 : ℝ) ^ p.logMhigh) fun _ => 1).withDensity
        fun m => ENNReal.ofReal (t m) := by
    unfold Spec102.rate
    rw [← withDensity_mul _ (by fun_prop) (by fun_prop)]
    apply withDensity_congr_ae
    refine (ae_restrict_iff' measurableSet_Icc).2 (Filter.Eventually.of_forall fun m hm => ?_)
    simp only [Pi.mul_apply, mul_one]
    rw [← ENNReal.ofReal_mul]
    exact mul_nonneg hn (Real.rpow_nonneg (le_trans (pow10_pos _).le hm.1) _)
  refine ⟨_, fun ω => c20_suppressed_draws p t _ _ _ _ (hd _ _), ?_⟩
  rw [hr]
  refine thinned_process Spec102.uniform p.nMean (nMean_nonneg' p hn) p.invert (invert_measurable p) t ht ?_ _ (fun ω => rfl) _
    (invert_law' p hn)
  refine (ae_restrict_iff' measurableSet_Icc).2 (Filter.Eventually.of_forall fun u hu => ?_)
  obtain ⟨r1, r2⟩ := invert_range p hlm u hu.1 hu.2
  exact htb _ r1 r2

example : ∃ L : ℕ × (ℕ → ℝ × ℝ) → List ℝ,
    (∀ ω, drawSuppressed ⟨6, 10, -1.9, true, 10 ^ 8⟩ (turnoverWDM 8 2.3 0.8 (-1)) ω.1 (fun i => (ω.2 i).1) (fun i => (ω.2 i).2) =
      .ok (L ω)) ∧
    Spec102.IsPoissonProcess (Spec102.variates (PowerLaw.nMean ⟨6, 10, -1.9, true, 10 ^ 8⟩) (Spec102.uniform.prod Spec102.uniform)) L
      (Spec102.rate (10 ^ 8) (-1.9) ((10 : ℝ) ^ (6 : ℝ)) ((10 : ℝ) ^ (10 : ℝ)) (turnoverWDM 8 2.3 0.8 (-1))) :=
  c102_suppressed ⟨6, 10, -1.9, true, 10 ^ 8⟩ rfl (by norm_num) _ (by unfold turnoverWDM; fun_prop)
    (fun m h1 _ => by
      have := c20_wdm_factor 8 2.3 0.8 (-1) m (by norm_num) (by norm_num) (lt_of_lt_of_le (pow10_pos _) h1)
      exact ⟨this.1.le, this.2⟩) (by norm_num)

/-- **C102**. The suppression factors of warm and mixed dark matter meet the hypotheses of the preceding theorem. -/
theorem c102_suppression_factors (logMc a b c frac : ℝ) (ha : 0 ≤ a) (hc : c ≤ 0) (hf0 : 0 ≤ frac) (hf1 : frac ≤ 1) :
    (Measurable (turnoverWDM logMc a b c) ∧ ∀ m, 0 < m → 0 ≤ turnoverWDM logMc a b c m ∧ turnoverWDM logMc a b c m ≤ 1) ∧
    Measurable (turnoverMixed logMc a b c frac) ∧
      ∀ m, 0 < m → 0 ≤ turnoverMixed logMc a b c frac m ∧ turnoverMixed logMc a b c frac m ≤ 1 := by
  refine ⟨⟨by unfold turnoverWDM; fun_prop, fun m hm => ?_⟩, by unfold turnoverMixed; fun_prop, fun m hm => ?_⟩
  · have := c20_wdm_factor logMc a b c m ha hc hm
    exact ⟨this.1.le, this.2⟩
  · have := c20_mixed_factor logMc a b c frac m ha hc hm hf0 hf1
    exact ⟨le_trans (sq_nonneg _) this.1, this.2⟩

example := c102_suppression_factors 8 2.3 0.8 (-1) 0.3 (by norm_num) (by norm_num) (by norm_num) (by norm_num)

/-! ### What the two functionals say -/

/-- **C102**. In a Poisson process the mean number of masses in a set is the rate of the set, the mean mass in it is the integral of
the mass, and the probability that there are none is `exp` of minus the rate. -/
theorem c102_reading {Ω : Type*} [MeasurableSpace Ω] (P : Measure Ω) (L : Ω → List ℝ) (dN : Measure ℝ) [IsFiniteMeasure dN]
    (h : Spec102.IsPoissonProcess P L dN) (A : Set ℝ) [DecidablePred (· ∈ A)] (hA : MeasurableSet A) :
    ∫⁻ ω, (((L ω).filter (· ∈ A)).length : ENNReal) ∂P = dN A ∧
    ∫⁻ ω, (((L ω).filter (· ∈ A)).map ENNReal.ofReal).sum ∂P = ∫⁻ m in A, ENNReal.ofReal m ∂dN ∧
    ∫ ω, (if (L ω).filter (· ∈ A) = [] then 1 else 0) ∂P = Real.exp (-(dN A).toReal) := by
  have l1 : ∀ (g : ℝ → ENNReal) (l : List ℝ), ((l.filter (· ∈ A)).map g).sum = (l.map (A.indicator g)).sum := by
    intro g l
    induction l with
    | nil => simp
    | cons a l ih =>
      by_cases ha : a ∈ A
      · simp [List.filter_cons, ha, ih]
      · simp [List.filter_cons, ha, ih]
  have l2 : ∀ l : List ℝ, (if l.filter (· ∈ A) = [] then (1 : ℝ) else 0) = (l.map (Aᶜ.indicator fun _ => (1 : ℝ))).prod := by
    intro l
    induction l with
    | nil => simp
    | cons a l ih =>
      by_cases ha : a ∈ A
      · simp [List.filter_cons, ha]
      · simp only [List.filter_cons, ha, decide_false, Bool.false_eq_true, if_false, ih, List.map_cons, List.prod_cons]
        simp [ha]
  refine ⟨?_, ?_, ?_⟩
  · have e := h.2 (A.indicator fun _ => 1) (measurable_const.indicator hA)
    rw [lintegral_indicator hA, setLIntegral_const, one_mul] at e
    rw [← e]
    refine lintegral_congr fun ω => ?_
    rw [← l1]
    simp
  · have e := h.2 (A.indicator ENNReal.ofReal) (ENNReal.measurable_ofReal.indicator hA)
    rw [lintegral_indicator hA] at e
    rw [← e]
    exact lintegral_congr fun ω => l1 _ _
  · have e := h.1 (Aᶜ.indicator fun _ => 1) (measurable_const.indicator hA.compl) (fun m => by
      by_cases hm : m ∈ A <;> simp [hm])
    simp only [l2]
    rw [e]
    congr 2
    have : (fun m => 1 - Aᶜ.indicator (fun _ => (1 : ℝ)) m) = A.indicator fun _ => (1 : ℝ) := by
      funext m
      by_cases hm : m ∈ A <;> simp [hm]
    rw [this, integral_indicator hA]
    simp [measureReal_def]

/-- **C102**. The rate of a range of masses is the integral of the mass function over the part of the range that was asked for. -/
theorem c102_rate (norm index mLow mHigh a b : ℝ) (h0 : 0 < a) (hab : a ≤ b) (ha : mLow ≤ a) (hb : b ≤ mHigh) (hn : 0 ≤ norm) :
    (Spec102.rate norm index mLow mHigh fun _ => 1) (Set.Icc a b) = ENNReal.ofReal (∫ m in a..b, norm * m ^ index) := by
  unfold Spec102.rate
  rw [withDensity_apply _ measurableSet_Icc, Measure.restrict_restrict measurableSet_Icc,
    Set.inter_eq_left.2 (Set.Icc_subset_Icc ha hb), intervalIntegral.integral_of_le hab, ← integral_Icc_eq_integral_Ioc,
    ofReal_integral_eq_lintegral_ofReal]
  · simp
  · have := (intervalIntegrable_iff_integrableOn_Icc_of_le hab).1
      (evaluate_integrable ⟨0, 0, index, true, norm⟩ a b h0 (lt_of_lt_of_le h0 hab))
    exact this
  · refine (ae_restrict_iff' measurableSet_Icc).2 (Filter.Eventually.of_forall fun m hm => ?_)
    exact mul_nonneg hn (Real.rpow_nonneg (le_trans h0.le hm.1) _)

example := c102_rate (10 ^ 8) (-1.9) (10 ^ 6) (10 ^ 10) (10 ^ 7) (10 ^ 8) (by norm_num) (by norm_num) (by norm_num) (by norm_num)
  (by norm_num)

theorem rate_finite (p : PowerLaw) (hn : 0 ≤ p.norm) :
    IsFiniteMeasure (Spec102.rate p.norm p.index ((10 : ℝ) ^ p.logMlow) ((10 : ℝ) ^ p.logMhigh) fun _ => 1) := by
  rw [← invert_law' p hn]
  have := Measure.isProbabilityMeasure_map (μ := Spec102.uniform) (invert_measurable p).aemeasurable
  exact Measure.smul_finite _ ENNReal.ofReal_ne_top

/-- **C102**. For a power law: the mean number of halos drawn between two masses is the integral of the mass function, the
probability that there are none is `exp` of minus this integral, and the mean mass drawn is the first moment that sets the
convergence sheets. -/
theorem c102_power_law_counts (p : PowerLaw) (hp : p.drawPoisson = true) (hn : 0 ≤ p.norm) (h : p.logMlow < p.logMhigh)
    (a b : ℝ) (ha : (10 : ℝ) ^ p.logMlow ≤ a) (hab : a ≤ b) (hb : b ≤ (10 : ℝ) ^ p.logMhigh) :
    ∃ L : ℕ × (ℕ → ℝ) → List ℝ, (∀ ω, p.draw ω.1 ω.2 = .ok (L ω)) ∧
      ∫⁻ ω, (((L ω).filter fun m => decide (a ≤ m ∧ m ≤ b)).length : ENNReal) ∂(Spec102.variates p.nMean Spec102.uniform) =
        ENNReal.ofReal (∫ m in a..b, p.norm * m ^ p.index) ∧
      ∫ ω, (if (L ω).filter (fun m => decide (a ≤ m ∧ m ≤ b)) = [] then 1 else 0) ∂(Spec102.variates p.nMean Spec102.uniform) =
        Real.exp (-∫ m in a..b, p.norm * m ^ p.index) ∧
      ∫⁻ ω, ((L ω).map ENNReal.ofReal).sum ∂(Spec102.variates p.nMean Spec102.uniform) = ENNReal.ofReal p.firstMoment := by
  classical
  obtain ⟨L, h1, h2⟩ := c102_power_law p hp hn
  have hfin := rate_finite p hn
  have hL := pow10_pos p.logMlow
  have hlt : (10 : ℝ) ^ p.logMlow < (10 : ℝ) ^ p.logMhigh := Real.rpow_lt_rpow_of_exponent_lt (by norm_num) h
  have r := c102_reading _ L _ h2 (Set.Icc a b) measurableSet_Icc
  rw [c102_rate _ _ _ _ _ _ (lt_of_lt_of_le hL ha) hab ha hb hn] at r
  have hnn : 0 ≤ ∫ m in a..b, p.norm * m ^ p.index := by
    apply intervalIntegral.integral_nonneg hab
    intro m hm
    exact mul_nonneg hn (Real.rpow_nonneg (le_trans hL.le (le_trans ha hm.1)) _)
  rw [ENNReal.toReal_ofReal hnn] at r
  simp only [Set.mem_Icc] at r
  refine ⟨L, h1, ?_, ?_, ?_⟩
  · exact r.1
  · exact r.2.2
  · rw [h2.2 _ ENNReal.measurable_ofReal, Spec102.rate, lintegral_withDensity_eq_lintegral_mul _ (by fun_prop) (by fun_prop),
      (c52_moments p h).2, intervalIntegral.integral_of_le hlt.le, ← integral_Icc_eq_integral_Ioc,
      ofReal_integral_eq_lintegral_ofReal]
    · refine setLIntegral_congr_fun measurableSet_Icc fun m hm => ?_
      have hm0 : 0 < m := lt_of_lt_of_le hL hm.1
      simp only [Pi.mul_apply, mul_one]
      rw [← ENNReal.ofReal_mul (mul_nonneg hn (Real.rpow_nonneg hm0.le _)), mul_comm]
      rfl
    · have := (intervalIntegrable_iff_integrableOn_Icc_of_le hlt.le).1
        ((evaluate_integrable p _ _ hL (pow10_pos p.logMhigh)).continuousOn_mul continuousOn_id)
      exact this
    · refine (ae_restrict_iff' measurableSet_Icc).2 (Filter.Eventually.of_forall fun m hm => ?_)
      have hm0 : 0 < m := lt_of_lt_of_le hL hm.1
      exact mul_nonneg hm0.le (mul_nonneg hn (Real.rpow_nonneg hm0.le _))

example := c102_power_law_counts ⟨6, 10, -1.9, true, 10 ^ 8⟩ rfl (by norm_num) (by norm_num) (10 ^ 7) (10 ^ 8)
  (by norm_num) (by norm_num) (by norm_num)

/-! ### One mass, and log-normal masses -/

/-- **C102** for a single mass: a Poisson number of objects of this mass, whose mean mass is density times volume. -/
theorem c102_delta (d : DeltaFn) (hp : d.drawPoisson = true) (hm : 0 < d.mass) (hv : 0 ≤ d.volume) (hr : 0 ≤ d.rho) :
    ∃ L : ℕ × (ℕ → ℝ) → List ℝ, (∀ ω, d.draw ω.1 = .ok (L ω)) ∧
      Spec102.IsPoissonProcess (Spec102.variates d.nMean Spec102.uniform) L
        (ENNReal.ofReal (d.rho * d.volume / d.mass) • Measure.dirac d.mass) ∧
      ∫⁻ ω, ((L ω).map ENNReal.ofReal).sum ∂(Spec102.variates d.nMean Spec102.uniform) = ENNReal.ofReal (d.rho * d.volume) := by
  have h0 : 0 ≤ d.nMean := div_nonneg (mul_nonneg hr hv) hm.le
  have hproc := process_of Spec102.uniform d.nMean h0 (fun _ => d.mass) measurable_const
    (fun ω => List.replicate ω.1 d.mass) (fun ω => by
      rw [List.map_const', List.length_range]) (ENNReal.ofReal (d.rho * d.volume / d.mass) • Measure.dirac d.mass) (by
      rw [Measure.map_const]
      simp [DeltaFn.nMean])
  refine ⟨_, fun ω => ?_, hproc, ?_⟩
  · simp [DeltaFn.draw, hp, not_lt.2 h0]
  · rw [hproc.2 _ ENNReal.measurable_ofReal, lintegral_smul_measure, lintegral_dirac, smul_eq_mul, ← ENNReal.ofReal_mul
      (div_nonneg (mul_nonneg hr hv) hm.le)]
    congr 1
    field_simp

example := c102_delta ⟨10 ^ 6, 2, 3 * 10 ^ 6, true⟩ rfl (by norm_num) (by norm_num) (by norm_num)

/-- **C102**, without Poisson noise: the mass is density times volume to within half an object. -/
theorem c102_delta_rounded (d : DeltaFn) (hp : d.drawPoisson = false) (hm : 0 < d.mass) (hv : 0 ≤ d.volume) (hr : 0 ≤ d.rho) (k : ℕ) :
    ∃ l, d.draw k = .ok l ∧ (∀ m ∈ l, m = d.mass) ∧ |l.sum - d.rho * d.volume| ≤ d.mass / 2 := by
  have h0 : 0 ≤ d.nMean := div_nonneg (mul_nonneg hr hv) hm.le
  have hnn : d.nMean * d.mass = d.rho * d.volume := by rw [DeltaFn.nMean]; field_simp
  have hrint := abs_rint_sub d.nMean
  have key : ∀ n : ℕ, (n : ℝ) = (rint d.nMean : ℝ) → |(List.replicate n d.mass).sum - d.rho * d.volume| ≤ d.mass / 2 := by
    intro n e
    rw [List.sum_replicate, nsmul_eq_mul, e, ← hnn, ← sub_mul, abs_mul, abs_of_pos hm]
    nlinarith
  by_cases hpos : rint d.nMean > 0
  · refine ⟨List.replicate (rint d.nMean).toNat d.mass, by simp [DeltaFn.draw, hp, hpos], fun m h => (List.mem_replicate.1 h).2, ?_⟩
    apply key
    have : ((rint d.nMean).toNat : ℤ) = rint d.nMean := Int.toNat_of_nonneg hpos.le
    exact_mod_cast this
  · refine ⟨[], by simp [DeltaFn.draw, hp, hpos], by simp, ?_⟩
    have h2 := key 0 (by
      have hge : 0 ≤ rint d.nMean := le_trans (Int.floor_nonneg.2 h0) (floor_le_rint _)
      have : rint d.nMean = 0 := by omega
      rw [this]; simp)
    simpa using h2

example := c102_delta_rounded ⟨10 ^ 6, 2, 3 * 10 ^ 6, false⟩ rfl (by norm_num) (by norm_num) (by norm_num) 7

/-- **C102** for log-normal masses: the decimal logarithms of the masses are a Poisson number of normal variates, and the reported
first moment is the mean mass. -/
theorem c102_gaussian (g : GaussianMF) (hp : g.drawPoisson = true) (hn : 0 ≤ g.n) :
    (∃ L : ℕ × (ℕ → ℝ) → List ℝ, (∀ ω, g.draw ω.1 ω.2 = .ok (L ω)) ∧
      Spec102.IsPoissonProcess (Spec102.variates g.n (gaussianReal 0 1)) L
        (ENNReal.ofReal g.n • (gaussianReal g.mean (g.sigma ^ 2).toNNReal).map fun x => (10 : ℝ) ^ x)) ∧
    g.firstMoment = ∫ x, (10 : ℝ) ^ x ∂(gaussianReal g.mean (g.sigma ^ 2).toNNReal) := by
  have hG : (gaussianReal 0 1).map (fun w => g.mean + g.sigma * w) = gaussianReal g.mean (g.sigma ^ 2).toNNReal := by
    have e1 : (gaussianReal 0 1).map (g.sigma * ·) = gaussianReal 0 (g.sigma ^ 2).toNNReal := by
      rw [gaussianReal_map_const_mul]
      congr 1
      · ring
      · ext; simp [Real.coe_toNNReal _ (sq_nonneg g.sigma)]
    have e2 : (gaussianReal 0 (g.sigma ^ 2).toNNReal).map (g.mean + ·) = gaussianReal g.mean (g.sigma ^ 2).toNNReal := by
      rw [gaussianReal_map_const_add, zero_add]
    rw [← e2, ← e1, Measure.map_map (by fun_prop) (by fun_prop)]
    rfl
  constructor
  · refine ⟨fun ω => (List.range ω.1).map fun i => (10 : ℝ) ^ (g.mean + g.sigma * ω.2 i), fun ω => ?_, ?_⟩
    · simp [GaussianMF.draw, hp, not_lt.2 hn]
    · refine process_of (gaussianReal 0 1) g.n hn (fun x => (10 : ℝ) ^ (g.mean + g.sigma * x)) (by fun_prop) _ (fun ω => rfl) _ ?_
      rw [← hG, Measure.map_map (by fun_prop) (by fun_prop)]
      rfl
  · have e := mgf_gaussianReal (p := gaussianReal g.mean (g.sigma ^ 2).toNNReal) (X := id) (Measure.map_id) (Real.log 10)
    simp only [mgf, id] at e
    have e1 : ∀ x : ℝ, (10 : ℝ) ^ x = Real.exp (Real.log 10 * x) := fun x => Real.rpow_def_of_pos (by norm_num) x
    simp only [e1]
    rw [e, GaussianMF.firstMoment, e1, Real.coe_toNNReal _ (sq_nonneg g.sigma)]
    congr 1
    ring

example := c102_gaussian ⟨150, 5.3, 0.6, true⟩ rfl (by norm_num)

end PyHalo.Props
