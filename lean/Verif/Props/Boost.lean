import Verif.Model.Boost
import Verif.Props.RunExamples
import Verif.Props.LensCosmo

/-!
# C117: the two-halo boost, and C25 for parameters from mass and redshift
-/

namespace PyHalo.Props

open PyHalo LensCosmo MeasureTheory

/-- The mean of a falling function lies between its values at the ends. -/
theorem mean_between {f : ℝ → ℝ} {a b : ℝ} (hab : a < b) (hf : AntitoneOn f (Set.Icc a b)) :
    f b ≤ (∫ r in a..b, f r) / (b - a) ∧ (∫ r in a..b, f r) / (b - a) ≤ f a := by
  have hi : IntervalIntegrable f volume a b := by
    apply AntitoneOn.intervalIntegrable
    rwa [Set.uIcc_of_le hab.le]
  have hc : ∀ k : ℝ, ∫ _ in a..b, k = (b - a) * k := by intro k; simp
  have hp : 0 < b - a := by linarith
  constructor
  · rw [le_div_iff₀ hp, mul_comm, ← hc]
    apply intervalIntegral.integral_mono_on hab.le (by simp) hi
    intro x hx
    exact hf hx (Set.right_mem_Icc.2 hab.le) hx.2
  · rw [div_le_iff₀ hp, mul_comm, ← hc]
    apply intervalIntegral.integral_mono_on hab.le hi (by simp)
    intro x hx
    exact hf (Set.left_mem_Icc.2 hab.le) hx hx.1

/-- The mean of a falling function falls when the interval grows outwards. -/
theorem mean_wider {f : ℝ → ℝ} {a b c : ℝ} (hab : a < b) (hbc : b ≤ c) (hf : AntitoneOn f (Set.Icc a c)) :
    (∫ r in a..c, f r) / (c - a) ≤ (∫ r in a..b, f r) / (b - a) := by
  rcases hbc.eq_or_lt with rfl | hbc
  · exact le_rfl
  have h1 := (mean_between hab (hf.mono (Set.Icc_subset_Icc_right hbc.le))).1
  have h2 := (mean_between hbc (hf.mono (Set.Icc_subset_Icc_left hab.le))).2
  have i1 : IntervalIntegrable f volume a b := by
    apply AntitoneOn.intervalIntegrable
    rw [Set.uIcc_of_le hab.le]
    exact hf.mono (Set.Icc_subset_Icc_right hbc.le)
  have i2 : IntervalIntegrable f volume b c := by
    apply AntitoneOn.intervalIntegrable
    rw [Set.uIcc_of_le hbc.le]
    exact hf.mono (Set.Icc_subset_Icc_left hab.le)
  rw [← intervalIntegral.integral_add_adjacent_intervals i1 i2]
  have hp : 0 < b - a := by linarith
  have hq : 0 < c - b := by linarith
  have hr : 0 < c - a := by linarith
  set A := ∫ r in a..b, f r
  set B := ∫ r in b..c, f r
  have h3 : B / (c - b) ≤ A / (b - a) := h2.trans h1
  rw [div_le_div_iff₀ hq hp] at h3
  rw [div_le_div_iff₀ hr hp]
  nlinarith

/-- The excess density at distance `r` (Mpc) of a host of mass `M` (solar masses): colossus' function, whose arguments are in units with
little h, over the mean density. -/
noncomputable def Spec117.excess (K : Correlated) (h M z r : ℝ) : ℝ := K.term (r * h) (M * h) z / K.rhoM z

/-- **C117**. Where the excess density around the host falls outwards, `two_halo_boost` lies between one plus twice the excess at the
outer and one plus twice the excess at the inner limit; in particular it is at least one for an excess that is not negative. -/
theorem c117_bounds {K : Correlated} {h m z a b : ℝ} (hab : a < b) (hf : AntitoneOn (Spec117.excess K h m z) (Set.Icc a b)) :
    ∃ v, twoHaloMeanBoost K h m z a b = .ok v ∧ 1 + 2 * Spec117.excess K h m z b ≤ v ∧ v ≤ 1 + 2 * Spec117.excess K h m z a := by
  have hn : b - a ≠ 0 := by linarith
  refine ⟨_, by rw [twoHaloMeanBoost, if_neg hn], ?_⟩
  have := mean_between hab hf
  have e : (∫ r in a..b, twoHaloTerm K h r m z) = ∫ r in a..b, Spec117.excess K h m z r := rfl
  rw [e, mul_div_assoc]
  constructor <;> linarith [this.1, this.2]

/-- **C117**. The boost falls when the slice is made thicker. -/
theorem c117_thicker {K : Correlated} {h m z a b c : ℝ} (hab : a < b) (hbc : b ≤ c)
    (hf : AntitoneOn (Spec117.excess K h m z) (Set.Icc a c)) :
    ∃ v w, twoHaloMeanBoost K h m z a b = .ok v ∧ twoHaloMeanBoost K h m z a c = .ok w ∧ w ≤ v := by
  have hn : b - a ≠ 0 := by linarith
  have hn' : c - a ≠ 0 := by linarith
  refine ⟨_, _, by rw [twoHaloMeanBoost, if_neg hn], by rw [twoHaloMeanBoost, if_neg hn'], ?_⟩
  have := mean_wider hab hbc hf
  have e : ∀ x y, (∫ r in x..y, twoHaloTerm K h r m z) = ∫ r in x..y, Spec117.excess K h m z r := fun _ _ => rfl
  rw [e, e, mul_div_assoc, mul_div_assoc]
  linarith

/-- **C117**. The order of the limits does not matter. -/
theorem c117_swapped (K : Correlated) (h m z a b : ℝ) : twoHaloMeanBoost K h m z a b = twoHaloMeanBoost K h m z b a := by
  unfold twoHaloMeanBoost
  by_cases hab : a = b
  · rw [hab]
  have h1 : b - a ≠ 0 := fun h => hab (by linarith)
  have h2 : a - b ≠ 0 := fun h => hab (by linarith)
  rw [if_neg h1, if_neg h2, intervalIntegral.integral_symm b a]
  congr 1
  have e : b - a = -(a - b) := by ring
  rw [e, mul_neg, neg_div_neg_eq]

/-- An excess of `1 / r` in units of the mean density. -/
example : ∃ v, twoHaloMeanBoost ⟨fun r _ _ => 3 / r, fun _ => 3⟩ 0.5 (10 ^ 13) 0.5 0.5 10 = .ok v ∧ 1.4 ≤ v ∧ v ≤ 9 := by
  have hf : AntitoneOn (Spec117.excess ⟨fun r _ _ => 3 / r, fun _ => 3⟩ 0.5 (10 ^ 13) 0.5) (Set.Icc 0.5 10) := by
    intro x hx y hy hxy
    have hx0 : (0 : ℝ) < x := by have := hx.1; norm_num at this; linarith
    simp only [Spec117.excess]
    apply div_le_div_of_nonneg_right _ (by norm_num)
    apply div_le_div_of_nonneg_left (by norm_num) (by positivity)
    linarith
  obtain ⟨v, h1, h2, h3⟩ := c117_bounds (by norm_num) hf
  refine ⟨v, h1, ?_, ?_⟩
  · norm_num [Spec117.excess] at h2 ⊢
    linarith
  · norm_num [Spec117.excess] at h3 ⊢
    linarith

/-- A thicker slice around the same host. -/
example : ∃ v w, twoHaloMeanBoost ⟨fun r _ _ => 3 / r, fun _ => 3⟩ 0.5 (10 ^ 13) 0.5 0.5 10 = .ok v ∧
    twoHaloMeanBoost ⟨fun r _ _ => 3 / r, fun _ => 3⟩ 0.5 (10 ^ 13) 0.5 0.5 20 = .ok w ∧ w ≤ v := by
  refine c117_thicker (by norm_num) (by norm_num) ?_
  intro x hx y hy hxy
  have hx0 : (0 : ℝ) < x := by have := hx.1; norm_num at this; linarith
  simp only [Spec117.excess]
  apply div_le_div_of_nonneg_right _ (by norm_num)
  apply div_le_div_of_nonneg_left (by norm_num) (by positivity)
  linarith

/-- The excess used by the two-halo population of a realization: colossus' term, with the correction of Lazar et al. if requested. -/
noncomputable def Spec117.populated (W : Run.World) (kc : ℕ) (m z r200 : ℝ) (lazar : Bool) (r : ℝ) : ℝ :=
  W.twoHaloTerm kc r m z + if lazar then 0.1 * (r200 * 5 / r) ^ 4 else 0

/-- **C117**. The factor that scales the two-halo population of a realization: when the neighbouring plane is farther than 0.5 Mpc and
colossus' term falls outwards, it lies between `2 scale` times the excess at that plane and `2 scale` times the excess at 0.5 Mpc. -/
theorem c117_population {W : Run.World} {kc : ℕ} {z dz m r200 scale D : ℝ} (hD : D = (W.dist kc).DCt (z + dz) - (W.dist kc).DCt z)
    (hfar : 0.5 < D) (hr : 0 < r200) (hs : 0 ≤ scale) (lazar : Bool)
    (hf : AntitoneOn (fun r => W.twoHaloTerm kc r m z) (Set.Icc 0.5 D)) :
    ∃ v, Run.twoHaloBoost W kc z dz m r200 lazar scale = .ok v ∧
      2 * scale * Spec117.populated W kc m z r200 lazar D ≤ v ∧ v ≤ 2 * scale * Spec117.populated W kc m z r200 lazar 0.5 := by
  have e : ∀ r ∈ Set.Icc 0.5 D, Run.boostIntegrand W kc m z r200 lazar r = Spec117.populated W kc m z r200 lazar r := by
    intro r hx
    have hr0 : 0 < r := by have := hx.1; norm_num at this; linarith
    cases lazar with
    | false => simp [Run.boostIntegrand, Spec117.populated]
    | true =>
      simp only [Run.boostIntegrand, Spec117.populated, Run.lazarTerm, if_true]
      have : (r / r200 / 5) ^ (-4 : ℝ) = (r200 * 5 / r) ^ 4 := by
        rw [Real.rpow_neg (by positivity)]
        have h4 : (4 : ℝ) = ((4 : ℕ) : ℝ) := by norm_num
        rw [h4, Real.rpow_natCast, ← inv_pow]
        congr 1
        field_simp
      rw [this]
  have hanti : AntitoneOn (Run.boostIntegrand W kc m z r200 lazar) (Set.Icc 0.5 D) := by
    intro x hx y hy hxy
    rw [e x hx, e y hy]
    have hx0 : 0 < x := by have := hx.1; norm_num at this; linarith
    have h1 := hf hx hy hxy
    simp only at h1
    unfold Spec117.populated
    cases lazar with
    | false => simpa using h1
    | true =>
      simp only [if_true]
      have h2 : r200 * 5 / y ≤ r200 * 5 / x := div_le_div_of_nonneg_left (by positivity) hx0 hxy
      have h3 : (r200 * 5 / y) ^ 4 ≤ (r200 * 5 / x) ^ 4 := by
        have hy0 : 0 < y := lt_of_lt_of_le hx0 hxy
        exact pow_le_pow_left₀ (by positivity) h2 4
      linarith
  obtain ⟨g1, g2⟩ := mean_between hfar hanti
  have hmin : min D 0.5 = 0.5 := min_eq_right hfar.le
  have hne : D ≠ 0.5 := hfar.ne'
  refine ⟨scale * (2 * (∫ r in (0.5 : ℝ)..D, Run.boostIntegrand W kc m z r200 lazar r) / (D - 0.5)), ?_, ?_⟩
  · unfold Run.twoHaloBoost
    simp only
    rw [← hD, hmin, if_neg hne]
  · rw [e D (Set.right_mem_Icc.2 hfar.le)] at g1
    rw [e 0.5 (Set.left_mem_Icc.2 hfar.le)] at g2
    rw [mul_div_assoc]
    constructor <;> nlinarith

/-- Planes 60 Mpc apart, with the correction: a host of 0.5 Mpc. -/
example : ∃ v, Run.twoHaloBoost demoWorld 0 0.5 0.02 (10 ^ 13) 0.5 true 1 = .ok v ∧ 2 ≤ v ∧ v ≤ 127 := by
  obtain ⟨v, h1, h2, h3⟩ := c117_population (W := demoWorld) (kc := 0) (z := 0.5) (dz := 0.02) (m := 10 ^ 13) (r200 := 0.5) (scale := 1)
    (D := 60) (by norm_num [demoWorld]) (by norm_num) (by norm_num) (by norm_num) true (fun _ _ _ _ _ => le_rfl)
  refine ⟨v, h1, ?_, ?_⟩
  · norm_num [Spec117.populated, demoWorld] at h2
    linarith
  · norm_num [Spec117.populated, demoWorld] at h3
    linarith

/-- **C25**. The parameters computed from mass and redshift alone: the mass inside `r200` is the given mass, and the concentration
`r200 / rs` is the given factor times the median concentration, which is at least 1.2. -/
theorem c25_from_mass (e : Env) (dj : ℝ → ℝ → ℝ) (m z scale : ℝ) (hm : 0 < m) (hs : 0 < scale) (hh : 0 < e.h) (hr : 0 < e.rhoc z)
    (pseudo : Bool) :
    ∃ rho0 rs r200, nfwParamFromMZ e dj m z scale (some pseudo) = .ok (rho0, rs, r200) ∧
      (∃ c, rs * c = r200 ∧ 1.2 * scale ≤ c ∧ (1.2 ≤ dj m z → c = scale * dj m z)) ∧
      sphereMass (if pseudo then pseudoDensity rho0 rs else nfwDensity rho0 rs) r200 = m := by
  have hc : 1.2 ≤ medianConcentration dj m z := le_max_right _ _
  have hc0 : 0 < medianConcentration dj m z := lt_of_lt_of_le (by norm_num) hc
  obtain ⟨rho0, rs, r200, h1, h2, h3⟩ := c25_nfw_mass_kpc e m (scale * medianConcentration dj m z) z hm (mul_pos hs hc0) hh hr pseudo
  refine ⟨rho0, rs, r200, h1, ⟨_, h2, by nlinarith, ?_⟩, h3⟩
  intro h
  rw [medianConcentration, max_eq_left h]

example : ∃ rho0 rs r200, nfwParamFromMZ ⟨0.7, fun _ => 2.77e11, fun _ _ => 1, fun _ => 1, 2, 3e5, 4.3e-9, 0.3⟩
    (fun m z => 10 * (m / 10 ^ 8) / (1 + z)) (10 ^ 8) 1 0.5 (some false) = .ok (rho0, rs, r200) ∧
      (∃ c, rs * c = r200 ∧ 1.2 * 0.5 ≤ c ∧ (1.2 ≤ 10 * ((10 : ℝ) ^ 8 / 10 ^ 8) / (1 + 1) → c = 0.5 * (10 * (10 ^ 8 / 10 ^ 8) / (1 + 1)))) ∧
      sphereMass (if false then pseudoDensity rho0 rs else nfwDensity rho0 rs) r200 = 10 ^ 8 :=
  c25_from_mass _ _ _ _ _ (by norm_num) (by norm_num) (by norm_num) (by norm_num) false

end PyHalo.Props
