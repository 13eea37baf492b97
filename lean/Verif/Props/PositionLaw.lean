import Verif.Props.Spatial
import Verif.Props.SamplerLaw
import Verif.Props.InfallLaw
import Mathlib.Analysis.SpecialFunctions.PolarCoord

/-!
# C103: halos are spread uniformly over the disc
-/

namespace PyHalo.Props
open PyHalo Np MeasureTheory ProbabilityTheory

/-- The disc about a point. -/
def Spec103.disc (cx cy R : ℝ) : Set (ℝ × ℝ) := {p | (p.1 - cx) ^ 2 + (p.2 - cy) ^ 2 ≤ R ^ 2}

/-- A point chosen uniformly from the disc. -/
noncomputable def Spec103.uniformDisc (cx cy R : ℝ) : Measure (ℝ × ℝ) :=
  (ENNReal.ofReal (Real.pi * R ^ 2))⁻¹ • volume.restrict (Spec103.disc cx cy R)

/-- The radius of the code has density `2 r / R ^ 2`. -/
theorem radius_law (R : ℝ) (hR : 0 < R) : Spec102.uniform.map (fun v => Real.sqrt (R ^ 2 * v)) =
    (volume.restrict (Set.Ioc 0 R)).withDensity fun r => ENNReal.ofReal (2 * r / R ^ 2) := by
  have hmeas : Measurable fun v : ℝ => Real.sqrt (R ^ 2 * v) := by fun_prop
  have hfin : IsFiniteMeasure (Spec102.uniform.map (fun v => Real.sqrt (R ^ 2 * v))) := by
    have := Measure.isProbabilityMeasure_map (μ := Spec102.uniform) hmeas.aemeasurable
    infer_instance
  apply Measure.ext_of_Iic
  intro s
  rw [Measure.map_apply hmeas measurableSet_Iic, Spec102.uniform, Measure.restrict_apply (hmeas measurableSet_Iic),
    withDensity_apply _ measurableSet_Iic, Measure.restrict_restrict measurableSet_Iic]
  rcases lt_or_ge s 0 with hs | hs
  · have e1 : (fun v => Real.sqrt (R ^ 2 * v)) ⁻¹' Set.Iic s ∩ Set.Icc 0 1 = ∅ := by
      ext v
      simp only [Set.mem_inter_iff, Set.mem_preimage, Set.mem_Iic, Set.mem_empty_iff_false, iff_false, not_and]
      intro h
      have := Real.sqrt_nonneg (R ^ 2 * v)
      linarith
    have e2 : Set.Iic s ∩ Set.Ioc 0 R = ∅ := by
      ext v
      simp only [Set.mem_inter_iff, Set.mem_Iic, Set.mem_Ioc, Set.mem_empty_iff_false, iff_false]
      rintro ⟨h1, h2, h3⟩
      linarith
    rw [e1, e2]; simp
  · set t := min s R with ht
    have ht0 : 0 ≤ t := le_min hs hR.le
    have e1 : (fun v => Real.sqrt (R ^ 2 * v)) ⁻¹' Set.Iic s ∩ Set.Icc 0 1 = Set.Icc 0 (t ^ 2 / R ^ 2) := by
      ext v
      simp only [Set.mem_inter_iff, Set.mem_preimage, Set.mem_Iic, Set.mem_Icc]
      rw [Real.sqrt_le_left hs, le_div_iff₀ (by positivity)]
      have hR2 : 0 < R ^ 2 := by positivity
      constructor
      · rintro ⟨h1, h2, h3⟩
        refine ⟨h2, ?_⟩
        rcases le_total s R with h | h
        · rw [ht, min_eq_left h]; linarith
        · rw [ht, min_eq_right h]; nlinarith
      · rintro ⟨h1, h2⟩
        have a1 : t ^ 2 ≤ s ^ 2 := pow_le_pow_left₀ ht0 (min_le_left _ _) 2
        have a2 : t ^ 2 ≤ R ^ 2 := pow_le_pow_left₀ ht0 (min_le_right _ _) 2
        refine ⟨by linarith, h1, ?_⟩
        by_contra hc
        push Not at hc
        nlinarith
    have e2 : Set.Iic s ∩ Set.Ioc 0 R = Set.Ioc 0 t := by
      ext v
      simp only [Set.mem_inter_iff, Set.mem_Iic, Set.mem_Ioc, ht, le_min_iff]
      tauto
    rw [e1, e2, Real.volume_Icc, sub_zero]
    have e3 : ∫ r in (0 : ℝ)..t, 2 * r / R ^ 2 = t ^ 2 / R ^ 2 := by
      rw [intervalIntegral.integral_div, intervalIntegral.integral_const_mul, integral_id]
      ring
    rw [← e3, intervalIntegral.integral_of_le ht0, ofReal_integral_eq_lintegral_ofReal]
    · have : IntervalIntegrable (fun r : ℝ => 2 * r / R ^ 2) volume 0 t := by
        apply Continuous.intervalIntegrable; fun_prop
      exact (intervalIntegrable_iff_integrableOn_Ioc_of_le ht0).1 this
    · refine (ae_restrict_iff' measurableSet_Ioc).2 (Filter.Eventually.of_forall fun r hr => ?_)
      have := hr.1
      positivity

/-- The angle of the code, turned by half a circle. -/
theorem angle_law : Spec102.uniform.map (fun u => 2 * Real.pi * u - Real.pi) =
    (ENNReal.ofReal (2 * Real.pi))⁻¹ • volume.restrict (Set.Ioo (-Real.pi) Real.pi) := by
  have hpi := Real.pi_pos
  have hmeas : Measurable fun u : ℝ => 2 * Real.pi * u - Real.pi := by fun_prop
  have hfin : IsFiniteMeasure (Spec102.uniform.map (fun u => 2 * Real.pi * u - Real.pi)) := by
    have := Measure.isProbabilityMeasure_map (μ := Spec102.uniform) hmeas.aemeasurable
    infer_instance
  apply Measure.ext_of_Iic
  intro s
  rw [Measure.map_apply hmeas measurableSet_Iic, Spec102.uniform, Measure.restrict_apply (hmeas measurableSet_Iic),
    Measure.smul_apply, restrict_Ioo_eq_restrict_Icc, Measure.restrict_apply measurableSet_Iic]
  have e1 : (fun u => 2 * Real.pi * u - Real.pi) ⁻¹' Set.Iic s ∩ Set.Icc 0 1 =
      Set.Icc 0 ((min s Real.pi + Real.pi) / (2 * Real.pi)) := by
    ext u
    simp only [Set.mem_inter_iff, Set.mem_preimage, Set.mem_Iic, Set.mem_Icc]
    rw [le_div_iff₀ (by positivity), ← sub_le_iff_le_add, le_min_iff]
    constructor
    · rintro ⟨h1, h2, h3⟩; exact ⟨h2, by linarith, by nlinarith⟩
    · rintro ⟨h1, h2, h3⟩; exact ⟨by linarith, h1, by nlinarith⟩
  have e2 : Set.Iic s ∩ Set.Icc (-Real.pi) Real.pi = Set.Icc (-Real.pi) (min s Real.pi) := by
    ext u
    simp only [Set.mem_inter_iff, Set.mem_Iic, Set.mem_Icc, le_min_iff]
    tauto
  rw [e1, e2, Real.volume_Icc, Real.volume_Icc, smul_eq_mul, ← ENNReal.ofReal_inv_of_pos (by positivity), ← ENNReal.ofReal_mul (by positivity)]
  congr 1
  field_simp
  ring

/-- Uniform variates turned into a point of the disc. -/
theorem disc_law (cx cy R : ℝ) (hR : 0 < R) :
    (Spec102.uniform.prod Spec102.uniform).map (fun w => (Real.sqrt (R ^ 2 * w.2) * Real.cos (2 * Real.pi * w.1) + cx,
      Real.sqrt (R ^ 2 * w.2) * Real.sin (2 * Real.pi * w.1) + cy)) = Spec103.uniformDisc cx cy R := by
  have hpi := Real.pi_pos
  have hm : Measurable fun w : ℝ × ℝ => (Real.sqrt (R ^ 2 * w.2) * Real.cos (2 * Real.pi * w.1) + cx,
      Real.sqrt (R ^ 2 * w.2) * Real.sin (2 * Real.pi * w.1) + cy) := by fun_prop
  refine Measure.ext_of_lintegral _ fun f hf => ?_
  rw [lintegral_map hf hm, lintegral_prod_symm _ (by exact (hf.comp hm).aemeasurable)]
  -- the point as a function of radius and turned angle
  set F : ℝ → ℝ → ENNReal := fun r θ => f (cx - r * Real.cos θ, cy - r * Real.sin θ) with hF
  have hFm : Measurable fun q : ℝ × ℝ => F q.1 q.2 := by
    rw [hF]; exact hf.comp (by fun_prop)
  have hFr : ∀ r, Measurable fun θ => F r θ := fun r => hFm.comp (by fun_prop : Measurable fun θ : ℝ => (r, θ))
  have a1 : ∀ v, ∫⁻ u, f (Real.sqrt (R ^ 2 * v) * Real.cos (2 * Real.pi * u) + cx,
      Real.sqrt (R ^ 2 * v) * Real.sin (2 * Real.pi * u) + cy) ∂Spec102.uniform =
      ∫⁻ θ, F (Real.sqrt (R ^ 2 * v)) θ ∂(Spec102.uniform.map (fun u => 2 * Real.pi * u - Real.pi)) := by
    intro v
    rw [lintegral_map (hFr _) (by fun_prop)]
    refine lintegral_congr fun u => ?_
    simp only [hF, Real.cos_sub_pi, Real.sin_sub_pi]
    congr 2 <;> ring
  simp only [a1, angle_law, lintegral_smul_measure, smul_eq_mul]
  have hG : Measurable fun r => ∫⁻ θ in Set.Ioo (-Real.pi) Real.pi, F r θ := Measurable.lintegral_prod_right hFm
  have hG' : Measurable fun y => ∫⁻ θ in Set.Ioo (-Real.pi) Real.pi, F (Real.sqrt (R ^ 2 * y)) θ :=
    hG.comp (by fun_prop : Measurable fun y : ℝ => Real.sqrt (R ^ 2 * y))
  rw [lintegral_const_mul _ hG', ← lintegral_map (f := fun r => ∫⁻ θ in Set.Ioo (-Real.pi) Real.pi, F r θ) hG
    (by fun_prop : Measurable fun v : ℝ => Real.sqrt (R ^ 2 * v)), radius_law R hR,
    lintegral_withDensity_eq_lintegral_mul _ (by fun_prop) hG]
  -- polar coordinates
  have hdisc : MeasurableSet (Spec103.disc cx cy R) := measurableSet_le (by fun_prop) (by fun_prop)
  set g : ℝ × ℝ → ENNReal := fun p => (Spec103.disc cx cy R).indicator f ((cx, cy) - p) with hg
  have b1 : ∫⁻ p, g p = ∫⁻ p in Spec103.disc cx cy R, f p := by
    rw [hg, lintegral_sub_left_eq_self (fun p => (Spec103.disc cx cy R).indicator f p) (cx, cy), lintegral_indicator hdisc]
  have b2 := lintegral_comp_polarCoord_symm g
  unfold Spec103.uniformDisc
  rw [lintegral_smul_measure, ← b1, ← b2, polarCoord_target, Measure.volume_eq_prod, ← Measure.prod_restrict, lintegral_prod]
  · have b3 : ∀ r ∈ Set.Ioi (0 : ℝ), ∫⁻ θ in Set.Ioo (-Real.pi) Real.pi, ENNReal.ofReal r • g (polarCoord.symm (r, θ)) =
        (Set.Ioc 0 R).indicator (fun r => ENNReal.ofReal r * ∫⁻ θ in Set.Ioo (-Real.pi) Real.pi, F r θ) r := by
      intro r hr
      have hr : 0 < r := hr
      have c1 : ∀ θ, g (polarCoord.symm (r, θ)) = (Set.Ioc 0 R).indicator (fun r => F r θ) r := by
        intro θ
        rw [hg]
        have c2 : ((cx, cy) - polarCoord.symm (r, θ)) ∈ Spec103.disc cx cy R ↔ r ∈ Set.Ioc 0 R := by
          simp only [Spec103.disc, polarCoord_symm_apply, Prod.mk_sub_mk, Set.mem_ofPred_eq, Set.mem_Ioc]
          have : (cx - r * Real.cos θ - cx) ^ 2 + (cy - r * Real.sin θ - cy) ^ 2 = r ^ 2 := by
            have := Real.sin_sq_add_cos_sq θ
            nlinarith
          rw [this]
          constructor
          · intro h; exact ⟨hr, (pow_le_pow_iff_left₀ hr.le hR.le (by norm_num)).1 h⟩
          · intro h; exact pow_le_pow_left₀ hr.le h.2 2
        by_cases hc : r ∈ Set.Ioc 0 R
        · simp only [Set.indicator_of_mem hc, Set.indicator_of_mem (c2.2 hc)]
          rfl
        · simp only [Set.indicator_of_notMem hc, Set.indicator_of_notMem (fun h => hc (c2.1 h))]
      simp only [c1, smul_eq_mul]
      by_cases hc : r ∈ Set.Ioc 0 R
      · simp only [Set.indicator_of_mem hc]
        rw [lintegral_const_mul _ (hFr _)]
      · simp [Set.indicator_of_notMem hc]
    simp only
    rw [setLIntegral_congr_fun measurableSet_Ioi b3, lintegral_indicator measurableSet_Ioc,
      Measure.restrict_restrict measurableSet_Ioc, Set.inter_eq_left.2 (fun r hr => hr.1)]
    rw [← lintegral_const_mul _ (by fun_prop), smul_eq_mul, ← lintegral_const_mul _ (by fun_prop)]
    refine setLIntegral_congr_fun measurableSet_Ioc fun r hr => ?_
    simp only [Pi.mul_apply]
    rw [← mul_assoc, ← mul_assoc]
    congr 1
    have hr0 := hr.1
    rw [← ENNReal.ofReal_inv_of_pos (by positivity), ← ENNReal.ofReal_inv_of_pos (by positivity), ← ENNReal.ofReal_mul (by positivity),
      ← ENNReal.ofReal_mul (by positivity)]
    congr 1
    field_simp
  · have : Measurable g := (hf.indicator hdisc).comp (by fun_prop)
    fun_prop

/-- **C103**. The positions of uniformly placed halos are independent points chosen uniformly from the disc of the requested radius
about the requested centre: each is the same function of its own two variates, and this function turns the uniform law into the
uniform law of the disc. -/
theorem c103_uniform (rmax kpc rescale cx cy : ℝ) (hr : 0 < rmax) (hk : 0 < kpc) (hs : 0 < rescale) :
    ∃ pos : ℝ × ℝ → ℝ × ℝ,
      (∀ N u v, uniformDraw rmax kpc rescale cx cy N u v =
        ((List.range N).map fun i => (pos (u i, v i)).1, (List.range N).map fun i => (pos (u i, v i)).2)) ∧
      (Spec102.uniform.prod Spec102.uniform).map pos = Spec103.uniformDisc (cx * kpc) (cy * kpc) (rmax * rescale * kpc) := by
  refine ⟨fun w => (Real.sqrt ((rmax * rescale * kpc) ^ 2 * w.2) * Real.cos (2 * Real.pi * w.1) + cx * kpc,
    Real.sqrt ((rmax * rescale * kpc) ^ 2 * w.2) * Real.sin (2 * Real.pi * w.1) + cy * kpc), fun N u v => ?_,
    disc_law _ _ _ (by positivity)⟩
  have e : ∀ x : ℝ, Real.sqrt ((rmax * rescale * kpc) ^ 2 * x) = Real.sqrt ((rmax * rescale) ^ 2 * x) * kpc := by
    intro x
    rw [show (rmax * rescale * kpc) ^ 2 * x = ((rmax * rescale) ^ 2 * x) * kpc ^ 2 by ring, Real.sqrt_mul' _ (sq_nonneg _),
      Real.sqrt_sq hk.le]
  unfold uniformDraw
  by_cases hN : N = 0
  · simp [hN]
  · rw [if_neg hN]
    simp only [e]
    congr 1
    · apply List.map_congr_left; intro i _; ring
    · apply List.map_congr_left; intro i _; ring

example := c103_uniform 3 6 0.7 0.1 (-0.2) (by norm_num) (by norm_num) (by norm_num)

/-- **C103** for the line of sight: the disc has half the opening angle times the rendering scale as its radius. -/
theorem c103_line_of_sight (angle kpc scale cx cy : ℝ) (hr : 0 < angle) (hk : 0 < kpc) (hs : 0 < scale) :
    ∃ pos : ℝ × ℝ → ℝ × ℝ,
      (∀ N u v, lensConeDraw angle kpc scale cx cy N u v =
        ((List.range N).map fun i => (pos (u i, v i)).1, (List.range N).map fun i => (pos (u i, v i)).2)) ∧
      (Spec102.uniform.prod Spec102.uniform).map pos = Spec103.uniformDisc (cx * kpc) (cy * kpc) (angle / 2 * scale * kpc) := by
  obtain ⟨pos, h1, h2⟩ := c103_uniform (angle / 2) kpc scale cx cy (by positivity) hk hs
  refine ⟨pos, fun N u v => ?_, h2⟩
  unfold lensConeDraw
  rw [show (0.5 : ℝ) * angle = angle / 2 by norm_num; ring]
  by_cases hN : N = 0
  · simp [hN]
  · rw [if_neg hN, h1]

example := c103_line_of_sight 6 5 0.8 0 0 (by norm_num) (by norm_num) (by norm_num)

/-- **C103**. The expected number of points of a region of the disc is proportional to its area. -/
theorem c103_area (cx cy R : ℝ) (A : Set (ℝ × ℝ)) (hA : A ⊆ Spec103.disc cx cy R) :
    Spec103.uniformDisc cx cy R A = volume A / ENNReal.ofReal (Real.pi * R ^ 2) := by
  have hd : MeasurableSet (Spec103.disc cx cy R) := measurableSet_le (by fun_prop) (by fun_prop)
  rw [Spec103.uniformDisc, Measure.smul_apply, Measure.restrict_apply' hd, Set.inter_eq_left.2 hA, smul_eq_mul, mul_comm,
    ENNReal.div_eq_inv_mul, mul_comm]

example : Spec103.uniformDisc 0 0 2 (Set.Icc 0 1 ×ˢ Set.Icc 0 1) = 1 / ENNReal.ofReal (Real.pi * 2 ^ 2) := by
  rw [c103_area 0 0 2]
  · rw [Measure.volume_eq_prod, Measure.prod_prod]
    simp
  · rintro ⟨x, y⟩ ⟨⟨h1, h2⟩, h3, h4⟩
    simp only [Spec103.disc, Set.mem_ofPred_eq]
    simp only at h1 h2 h3 h4
    nlinarith

/-! ### The projected NFW profile -/

/-- Inverting an interpolated table: the probabilities at its nodes. -/
theorem interp_prob (l : List (ℝ × ℝ)) (a b p : ℝ × ℝ) (hpw : l.Pairwise (fun a b => a.1 ≤ b.1 ∧ a.2 < b.2))
    (ha : l.head? = some a) (hb : l.getLast? = some b) (hab : a.1 < b.1) (hp : p ∈ l) (h1 : a.1 ≤ p.1) (h2 : p.1 ≤ b.1) :
    Spec101.prob (fun u => segInterp l (a.1 + (b.1 - a.1) * u)) p.2 = ENNReal.ofReal ((p.1 - a.1) / (b.1 - a.1)) := by
  have hd : 0 < b.1 - a.1 := by linarith
  have e1 : Set.Ico 0 ((p.1 - a.1) / (b.1 - a.1)) ⊆ {u : ℝ | (0 ≤ u ∧ u ≤ 1) ∧ segInterp l (a.1 + (b.1 - a.1) * u) ≤ p.2} := by
    rintro u ⟨g0, g1⟩
    rw [lt_div_iff₀ hd] at g1
    refine ⟨⟨g0, ?_⟩, segInterp_below l a p _ hpw ha (by nlinarith) hp (by linarith)⟩
    by_contra hc
    push Not at hc
    nlinarith
  have e2 : {u : ℝ | (0 ≤ u ∧ u ≤ 1) ∧ segInterp l (a.1 + (b.1 - a.1) * u) ≤ p.2} ⊆ Set.Icc 0 ((p.1 - a.1) / (b.1 - a.1)) := by
    rintro u ⟨⟨g0, g1⟩, h⟩
    refine ⟨g0, ?_⟩
    by_contra hc
    rw [not_le, div_lt_iff₀ hd] at hc
    have := segInterp_above l b p _ hpw hb (by nlinarith : a.1 + (b.1 - a.1) * u ≤ b.1) hp (by linarith)
    linarith
  unfold Spec101.prob
  apply le_antisymm
  · refine (measure_mono e2).trans ?_
    rw [Real.volume_Icc, sub_zero]
  · refine le_trans ?_ (measure_mono e1)
    rw [Real.volume_Ico, sub_zero]

theorem cumsumFrom_getElem (s : ℝ) (l : List ℝ) (i : ℕ) (h : i < (cumsumFrom s l).length) :
    (cumsumFrom s l)[i] = s + (l.take (i + 1)).sum := by
  induction l generalizing s i with
  | nil => simp [cumsumFrom] at h
  | cons a t ih =>
    cases i with
    | zero => simp [cumsumFrom]
    | succ i => simp only [cumsumFrom, List.getElem_cons_succ, List.take_succ_cons, List.sum_cons]; rw [ih]; ring

theorem inverseTransform_law (x y : List ℝ) (hlen : x.length = y.length) (hx : x.Pairwise (· < ·)) (hy : ∀ v ∈ y, 0 < v)
    (h2 : 2 ≤ x.length) :
    ∃ r : ℝ → ℝ, (∀ N u, (∀ i, 0 ≤ u i ∧ u i ≤ 1) → inverseTransform x y N u = .ok ((List.range N).map fun i => r (u i))) ∧
      ∀ j (hj : j < x.length), Spec101.prob r x[j] =
        ENNReal.ofReal (((y.take (j + 1)).sum - (y.take 1).sum) / (y.sum - (y.take 1).sum)) := by
  have hcl : (cumsum y).length = y.length := cumsumFrom_length 0 y
  have hcp : (cumsum y).Pairwise (· < ·) := cumsumFrom_pairwise hy
  have hcg : ∀ c ∈ cumsum y, 0 < c := cumsumFrom_gt hy
  have hne : cumsum y ≠ [] := by
    intro h; rw [h] at hcl; simp at hcl; omega
  obtain ⟨M, hM⟩ : ∃ M, (cumsum y).getLast? = some M := ⟨_, List.getLast?_eq_some_getLast hne⟩
  have hM0 : 0 < M := hcg M (List.mem_of_getLast? hM)
  have hMi := inv_pos.2 hM0
  unfold inverseTransform itsFromCdf
  simp only [hM, Option.getD_some]
  set c := (cumsum y).map fun v => v * M⁻¹ with hc
  have hcp' : c.Pairwise (· < ·) := by
    rw [hc, List.pairwise_map]
    exact hcp.imp fun h => mul_lt_mul_of_pos_right h hMi
  have hcl' : c.length = x.length := by rw [hc, List.length_map, hcl, hlen]
  have hget : ∀ i (hi : i < c.length), c[i] = (y.take (i + 1)).sum * M⁻¹ := by
    intro i hi
    simp only [hc, List.getElem_map, cumsum]
    rw [cumsumFrom_getElem, zero_add]
  have hp : c.head? = some ((y.take 1).sum * M⁻¹) := by
    rw [List.head?_eq_getElem?, List.getElem?_eq_getElem (by omega), hget 0 (by omega)]
  have hq : c.getLast? = some (y.sum * M⁻¹) := by
    rw [List.getLast?_eq_getElem?, List.getElem?_eq_getElem (by omega), hget _ (by omega), List.take_of_length_le (by omega)]
  set p := (y.take 1).sum * M⁻¹ with hpd
  set q := y.sum * M⁻¹ with hqd
  have hmono : ∀ i j (hi : i < c.length) (hj : j < c.length), i < j → c[i] < c[j] := fun i j hi hj hij =>
    List.pairwise_iff_getElem.1 hcp' i j hi hj hij
  have hp0 : c[0]'(by omega) = p := by rw [hget 0 (by omega)]
  have hql : c[c.length - 1]'(by omega) = q := by rw [hget _ (by omega), List.take_of_length_le (by omega)]
  have hpq : p < q := by
    rw [← hp0, ← hql]
    exact hmono 0 (c.length - 1) (by omega) (by omega) (by omega)
  have hzl : (c.zip x).length = x.length := by rw [List.length_zip, hcl', min_self]
  have hzg : ∀ i (hi : i < (c.zip x).length), (c.zip x)[i] = (c[i]'(by omega), x[i]'(by omega)) := by
    intro i hi; exact List.getElem_zip
  have hinc : (c.zip x).Pairwise (fun a b => a.1 ≤ b.1 ∧ a.2 < b.2) := by
    rw [List.pairwise_iff_getElem]
    intro i j hi hj hij
    rw [hzg i hi, hzg j hj]
    exact ⟨(hmono i j _ _ hij).le, List.pairwise_iff_getElem.1 hx i j _ _ hij⟩
  have hhead : (c.zip x).head? = some (p, x[0]'(by omega)) := by
    rw [List.head?_eq_getElem?, List.getElem?_eq_getElem (by omega), hzg 0 (by omega), hp0]
  have hlast : (c.zip x).getLast? = some (q, x[x.length - 1]'(by omega)) := by
    rw [List.getLast?_eq_getElem?, List.getElem?_eq_getElem (by omega), hzg _ (by omega)]
    congr 2
    · rw [← hql]; congr 1; omega
    · congr 1; omega
  refine ⟨fun u => segInterp (c.zip x) (p + (q - p) * u), ?_, ?_⟩
  · intro N u hu
    rw [hp, hq]
    simp only
    apply mapM_ok
    intro i _
    unfold interp1d
    rw [hp, hq]
    simp only
    rw [if_neg, if_neg]
    · have := (hu i).2; push Not; nlinarith
    · have := (hu i).1; push Not; nlinarith
  · intro j hj
    have hle : p ≤ c[j]'(by omega) ∧ c[j]'(by omega) ≤ q := by
      constructor
      · rcases Nat.eq_zero_or_pos j with rfl | h
        · exact hp0.ge
        · rw [← hp0]; exact (hmono 0 j _ _ h).le
      · rcases Nat.lt_or_ge j (c.length - 1) with h | h
        · rw [← hql]; exact (hmono j _ _ _ h).le
        · have : j = c.length - 1 := by omega
          subst this
          exact hql.le
    have hmem : (c[j]'(by omega), x[j]) ∈ c.zip x := by
      rw [← hzg j (by omega)]; exact List.getElem_mem _
    have e := interp_prob (c.zip x) (p, _) (q, _) (c[j]'(by omega), x[j]) hinc hhead hlast hpq hmem hle.1 hle.2
    simp only at e
    rw [e]
    congr 1
    rw [hget j (by omega), hpd, hqd]
    rw [← sub_mul, ← sub_mul, mul_div_mul_right _ _ hMi.ne']

/-- The radii at which the profile is tabulated. -/
noncomputable def Spec103.grid (lo hi : ℝ) (i : ℕ) : ℝ := lo + i * ((hi - lo) / 19999)

/-- The mass, or number, that a profile `f` in `k` dimensions puts into the shells `1` to `n` between tabulated radii, up to a
common factor. -/
noncomputable def Spec103.shells (k : ℕ) (f : ℝ → ℝ) (lo hi : ℝ) (n : ℕ) : ℝ :=
  ∑ i ∈ Finset.Icc 1 n, f (Spec103.grid lo hi i) * (Spec103.grid lo hi (i + 1) ^ k - Spec103.grid lo hi i ^ k)

theorem shellTable_getElem (k : ℕ) (f : ℝ → ℝ) : ∀ (x : List ℝ) (i : ℕ) (h : i + 1 < x.length),
    (shellTable k x (x.map f))[i]? = some (f x[i] * (x[i + 1] ^ k - x[i] ^ k))
  | [], _, h => by simp at h
  | [a], _, h => by simp at h
  | a :: b :: t, 0, _ => by simp [shellTable]
  | a :: b :: t, i + 1, h => by
    have := shellTable_getElem k f (b :: t) i (by simpa using h)
    simp only [List.map_cons, shellTable] at this ⊢
    simpa using this

theorem radial_law (k : ℕ) (hk : k ≠ 0) (f : ℝ → ℝ) (lo hi : ℝ) (h0 : 0 ≤ lo) (h : lo < hi) (hf : ∀ r, 0 ≤ r → 0 < f r) :
    ∃ r : ℝ → ℝ, (∀ N u, (∀ i, 0 ≤ u i ∧ u i ≤ 1) → inverseTransform (linspace lo hi 20000).dropLast
        (shellTable k (linspace lo hi 20000) ((linspace lo hi 20000).map f)) N u = .ok ((List.range N).map fun i => r (u i))) ∧
      ∀ j < 19999, Spec101.prob r (Spec103.grid lo hi j) =
        ENNReal.ofReal (Spec103.shells k f lo hi j / Spec103.shells k f lo hi 19998) := by
  obtain ⟨l1, l2, l3, l4⟩ := linspace_spec lo hi 19998 h
  norm_num at l1 l2 l3 l4
  set x := linspace lo hi 20000 with hx
  have hg : ∀ i (hi' : i < x.length), x[i] = Spec103.grid lo hi i := by
    intro i hi'
    simp only [hx, linspace, List.getElem_map, List.getElem_range, Spec103.grid]
    norm_num
  obtain ⟨s1, s2⟩ := shellTable_spec k hk f x l2 (fun r hr => h0.trans (l4 r hr).1) (fun r hr => hf r (h0.trans (l4 r hr).1))
  have hdl : x.dropLast.length = 19999 := by simp [l1]
  obtain ⟨r, r1, r2⟩ := inverseTransform_law x.dropLast (shellTable k x (x.map f))
    (by rw [hdl, s1, l1]) (l2.sublist (List.dropLast_sublist x)) s2 (by omega)
  refine ⟨r, r1, fun j hj => ?_⟩
  have e := r2 j (by omega)
  rw [List.getElem_dropLast, hg j (by omega)] at e
  rw [e]
  have htake : ∀ n, n < 19999 → ((shellTable k x (x.map f)).take (n + 1)).sum - ((shellTable k x (x.map f)).take 1).sum =
      Spec103.shells k f lo hi n := by
    intro n hn
    induction n with
    | zero => simp [Spec103.shells]
    | succ n ih =>
      have ih := ih (by omega)
      rw [Spec103.shells, Finset.sum_Icc_succ_top (by omega), ← Spec103.shells, ← ih, List.take_add_one (i := n + 1),
        List.sum_append, shellTable_getElem k f x (n + 1) (by omega)]
      simp only [Option.toList_some, List.sum_singleton]
      rw [hg _ (by omega), hg _ (by omega)]
      ring
  have hall : (shellTable k x (x.map f)).sum = ((shellTable k x (x.map f)).take (19998 + 1)).sum := by
    rw [List.take_of_length_le (by rw [s1, l1])]
  rw [htake j hj, hall, htake 19998 (by norm_num)]

/-- **C103** for subhalos that follow the host profile. The projected radius and the three-dimensional radius of a subhalo are
functions of one uniform variate each, the angle is uniform, and at every tabulated radius the probability of a smaller projected
(three-dimensional) radius is the share of the projected (three-dimensional) profile in the rings (shells) `1` to `j`. Ring `i` lies
between the tabulated radii `i` and `i + 1`: the sample is therefore shifted inwards by one cell of the table (`1/20000` of the
range), and the innermost ring is left out. -/
theorem c103_projected_nfw (p : ProjNFW) (hp : GoodNFW p) : ∃ r2 r3 : ℝ → ℝ,
    (∀ N u θ w, (∀ i, 0 ≤ u i ∧ u i ≤ 1) → (∀ i, 0 ≤ w i ∧ w i ≤ 1) → p.draw N u θ w = .ok
      ((List.range N).map (fun i => r2 (u i) * p.kpc * Real.cos (2 * Real.pi * θ i)),
       (List.range N).map (fun i => r2 (u i) * p.kpc * Real.sin (2 * Real.pi * θ i)),
       (List.range N).map (fun i => r3 (w i) * p.kpc))) ∧
    (∀ j < 19999, Spec101.prob r2 (Spec103.grid (p.rmax2d / 1000) p.rmax2d j) = ENNReal.ofReal
      (Spec103.shells 2 p.density2d (p.rmax2d / 1000) p.rmax2d j / Spec103.shells 2 p.density2d (p.rmax2d / 1000) p.rmax2d 19998)) ∧
    ∀ j < 19999, Spec101.prob r3 (Spec103.grid (p.rmax2d / 1000) p.rmax3d j) = ENNReal.ofReal
      (Spec103.shells 3 p.density3d (p.rmax2d / 1000) p.rmax3d j / Spec103.shells 3 p.density3d (p.rmax2d / 1000) p.rmax3d 19998) := by
  have hr := hp.rmax
  have hv := hp.rvir
  have e : p.rmax2d / 1000 = 1 / 1000 * p.rmax2d := by ring
  rw [e]
  obtain ⟨r2, h2, g2⟩ := radial_law 2 (by norm_num) p.density2d (1 / 1000 * p.rmax2d) p.rmax2d (by linarith) (by linarith) hp.d2
  obtain ⟨r3, h3, g3⟩ := radial_law 3 (by norm_num) p.density3d (1 / 1000 * p.rmax2d) p.rmax3d (by linarith) hv hp.d3
  refine ⟨r2, r3, fun N u θ w hu hw => ?_, g2, g3⟩
  unfold ProjNFW.draw
  by_cases hN : N = 0
  · simp [hN]
  · rw [if_neg hN]
    simp only [h2 N u hu, h3 N w hw, bind, Except.bind, pure, Except.pure]
    congr 2
    · simp [List.zipWith_map]
    · congr 1
      · simp [List.zipWith_map]
      · simp

example := c103_projected_nfw ⟨3, 50, 6, fun r => 1 / (1 + r), fun r => 1 / (1 + r) ^ 3⟩
  ⟨by norm_num, by norm_num, by norm_num, fun r hr => by positivity, fun r hr => by positivity⟩

end PyHalo.Props
