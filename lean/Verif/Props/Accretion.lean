import Verif.Model.Accretion
import Verif.Lemmas.Interp
import Mathlib.Probability.Distributions.Gaussian.Real
import Mathlib.Probability.CDF

/-!
# C23, C24: infall redshifts
-/

namespace PyHalo.Props
open PyHalo Np MeasureTheory ProbabilityTheory

/-- What is assumed of `ndtr`/`ndtri`: a strictly increasing function into `(0, 1)` and a right
inverse of it on `(0, 1)`. -/
structure NormalLike (N : NormalI) : Prop where
  mono : StrictMono N.ndtr
  pos : ∀ x, 0 < N.ndtr x
  lt_one : ∀ x, N.ndtr x < 1
  inv : ∀ u, 0 < u → u < 1 → N.ndtr (N.ndtri u) = u

/-- The mass ratio is always in the calibrated range, where `-log10` is between 1/2 and 5. -/
theorem massRatio_bounds (q : ℝ) :
    0.5 ≤ -Real.logb 10 (massRatioInBounds q) ∧ -Real.logb 10 (massRatioInBounds q) ≤ 5 := by
  have h1 : massRatioInBounds q ≤ (10 : ℝ) ^ (-0.5 : ℝ) := min_le_left _ _
  have h2 : (10 : ℝ) ^ (-5.0 : ℝ) ≤ massRatioInBounds q := by
    apply le_min
    · exact Real.rpow_le_rpow_of_exponent_le (by norm_num) (by norm_num)
    · exact le_max_left _ _
  have h0 : (0 : ℝ) < (10 : ℝ) ^ (-5.0 : ℝ) := by positivity
  have g1 := Real.logb_le_logb_of_le (b := 10) (by norm_num) (by linarith) h1
  have g2 := Real.logb_le_logb_of_le (b := 10) (by norm_num) h0 h2
  rw [Real.logb_rpow (by norm_num) (by norm_num)] at g1 g2
  constructor
  · linarith
  · norm_num at g2 ⊢; linarith

theorem infallFit_pos (a b c q : ℝ) (ha : 0 < a) (hb : 0 < b) :
    0 < infallFit a b c (massRatioInBounds q) ∧ infallFit a b c (massRatioInBounds q) < a := by
  obtain ⟨h1, _⟩ := massRatio_bounds q
  have hp : 0 < (-Real.logb 10 (massRatioInBounds q)) ^ c :=
    Real.rpow_pos_of_pos (by norm_num at h1 ⊢; linarith) _
  unfold infallFit
  have hbp := mul_pos hb hp
  refine ⟨div_pos ha (by linarith), ?_⟩
  rw [div_lt_iff₀ (by linarith)]
  nlinarith

/-- **C23**. With positive dispersion coefficients the sampled infall redshift lies between the lens
redshift and 15 above it, whatever the masses, the mean and the variate. -/
theorem c23_infall_range (N : NormalI) (hN : NormalLike N) (k : InfallCoeffs) (ha : 0 < k.aStd)
    (hb : 0 < k.bStd) (zLens mHost mSub u : ℝ) (h0 : 0 ≤ u) (h1 : u ≤ 1) :
    zLens ≤ truncNormalInfall N k zLens mHost mSub u ∧
      truncNormalInfall N k zLens mHost mSub u ≤ zLens + 15 := by
  unfold truncNormalInfall
  simp only
  generalize infallFit k.aMean k.bMean k.cMean (massRatioInBounds (mSub / mHost)) = mu
  have hsig := (infallFit_pos k.aStd k.bStd k.cStd (mSub / mHost) ha hb).1
  generalize infallFit k.aStd k.bStd k.cStd (massRatioInBounds (mSub / mHost)) = sig at hsig
  have hab : (0 - mu) / sig < (15 - mu) / sig := by
    rw [div_lt_div_iff_of_pos_right hsig]; linarith
  have hn := hN.mono hab
  set p := N.ndtr ((0 - mu) / sig) with hp
  set q := N.ndtr ((15 - mu) / sig) with hq
  have hp0 : 0 < p := hN.pos _
  have hq1 : q < 1 := hN.lt_one _
  have hu1 : p ≤ p + (q - p) * u := by nlinarith
  have hu2 : p + (q - p) * u ≤ q := by nlinarith
  have hinv := hN.inv (p + (q - p) * u) (by linarith) (by linarith)
  set w := N.ndtri (p + (q - p) * u) with hw
  have e1 : (0 - mu) / sig ≤ w := hN.mono.le_iff_le.1 (by rw [hinv]; exact hu1)
  have e2 : w ≤ (15 - mu) / sig := hN.mono.le_iff_le.1 (by rw [hinv]; exact hu2)
  rw [div_le_iff₀ hsig] at e1
  rw [le_div_iff₀ hsig] at e2
  constructor <;> linarith

/-- **C23**. Larger variates give larger infall redshifts. -/
theorem c23_infall_monotone (N : NormalI) (hN : NormalLike N) (k : InfallCoeffs) (ha : 0 < k.aStd)
    (hb : 0 < k.bStd) (zLens mHost mSub u v : ℝ) (h0 : 0 ≤ u) (huv : u < v) (h1 : v ≤ 1) :
    truncNormalInfall N k zLens mHost mSub u < truncNormalInfall N k zLens mHost mSub v := by
  unfold truncNormalInfall
  simp only
  generalize infallFit k.aMean k.bMean k.cMean (massRatioInBounds (mSub / mHost)) = mu
  have hsig := (infallFit_pos k.aStd k.bStd k.cStd (mSub / mHost) ha hb).1
  generalize infallFit k.aStd k.bStd k.cStd (massRatioInBounds (mSub / mHost)) = sig at hsig
  have hab : (0 - mu) / sig < (15 - mu) / sig := by
    rw [div_lt_div_iff_of_pos_right hsig]; linarith
  have hn := hN.mono hab
  set p := N.ndtr ((0 - mu) / sig) with hp
  set q := N.ndtr ((15 - mu) / sig) with hq
  have hp0 : 0 < p := hN.pos _
  have hq1 : q < 1 := hN.lt_one _
  have e1 := hN.inv (p + (q - p) * u) (by nlinarith) (by nlinarith)
  have e2 := hN.inv (p + (q - p) * v) (by nlinarith) (by nlinarith)
  have : N.ndtri (p + (q - p) * u) < N.ndtri (p + (q - p) * v) := by
    apply hN.mono.lt_iff_lt.1
    rw [e1, e2]
    nlinarith
  have := mul_lt_mul_of_pos_left this hsig
  linarith

/-- The coefficient sets of the six classes meet the hypotheses of `c23_infall_range`. -/
theorem c23_all_classes (k : InfallCoeffs)
    (hk : k ∈ [hybridCoeffs, directCoeffs, clusterCoeffs, mw30Coeffs, mw50Coeffs, mw200Coeffs]) :
    0 < k.aStd ∧ 0 < k.bStd := by
  simp only [List.mem_cons, List.not_mem_nil, or_false] at hk
  rcases hk with rfl | rfl | rfl | rfl | rfl | rfl <;>
    norm_num [hybridCoeffs, directCoeffs, clusterCoeffs, mw30Coeffs, mw50Coeffs, mw200Coeffs]

example := c23_all_classes mw30Coeffs (by simp)

/-- **C23** (before truncation). For the hybrid, direct, cluster and 200 kpc models the fitted mean
and dispersion are positive and at most their leading coefficient, for every mass ratio. -/
theorem c23_fits_positive (k : InfallCoeffs)
    (hk : k ∈ [hybridCoeffs, directCoeffs, clusterCoeffs, mw200Coeffs]) (q : ℝ) :
    (0 < infallFit k.aMean k.bMean k.cMean (massRatioInBounds q) ∧
      infallFit k.aMean k.bMean k.cMean (massRatioInBounds q) < k.aMean) ∧
    (0 < infallFit k.aStd k.bStd k.cStd (massRatioInBounds q) ∧
      infallFit k.aStd k.bStd k.cStd (massRatioInBounds q) < k.aStd) := by
  have : (0 < k.aMean ∧ 0 < k.bMean) ∧ 0 < k.aStd ∧ 0 < k.bStd := by
    simp only [List.mem_cons, List.not_mem_nil, or_false] at hk
    rcases hk with rfl | rfl | rfl | rfl <;>
      norm_num [hybridCoeffs, directCoeffs, clusterCoeffs, mw200Coeffs]
  exact ⟨infallFit_pos _ _ _ _ this.1.1 this.1.2, infallFit_pos _ _ _ _ this.2.1 this.2.2⟩

example := c23_fits_positive clusterCoeffs (by simp) (1 / 2)

/-- **C23, disagreement**. In the two Milky Way models for the inner 30 and 50 kpc the fitted mean
infall redshift is negative (relative to the host redshift) for every subhalo above a tenth of the
host mass. -/
theorem c23_milky_way_mean_negative (k : InfallCoeffs) (hk : k ∈ [mw30Coeffs, mw50Coeffs]) (q : ℝ)
    (hq : 1 / 10 ≤ q) : infallFit k.aMean k.bMean k.cMean (massRatioInBounds q) < 0 := by
  obtain ⟨h1, _⟩ := massRatio_bounds q
  have h2 : -Real.logb 10 (massRatioInBounds q) ≤ 1 := by
    have : (10 : ℝ) ^ (-1 : ℝ) ≤ massRatioInBounds q := by
      apply le_min
      · exact Real.rpow_le_rpow_of_exponent_le (by norm_num) (by norm_num)
      · apply le_max_of_le_right
        rw [Real.rpow_neg_one]; linarith
    have g := Real.logb_le_logb_of_le (b := 10) (by norm_num) (by positivity) this
    rw [Real.logb_rpow (by norm_num) (by norm_num)] at g
    linarith
  have hL : 0 < -Real.logb 10 (massRatioInBounds q) := by norm_num at h1 ⊢; linarith
  have hp : 1 ≤ (-Real.logb 10 (massRatioInBounds q)) ^ (-3 : ℝ) :=
    Real.one_le_rpow_of_pos_of_le_one_of_nonpos hL h2 (by norm_num)
  simp only [List.mem_cons, List.not_mem_nil, or_false] at hk
  rcases hk with rfl | rfl
  · apply div_neg_of_pos_of_neg
    · norm_num [mw30Coeffs]
    · simp only [mw30Coeffs]; linarith
  · apply div_neg_of_pos_of_neg
    · norm_num [mw50Coeffs]
    · have e : (mw50Coeffs.cMean) = -3 := by norm_num [mw50Coeffs]
      rw [e]
      simp only [mw50Coeffs]
      linarith

example := c23_milky_way_mean_negative mw50Coeffs (by simp) 0.5 (by norm_num)

theorem galacticusCdf_eq : galacticusCdf =
    ([50, 143, 268, 448, 623, 767, 887, 1004, 1101, 1183, 1235, 1286, 1321, 1341, 1350, 1354, 1358,
      1358, 1359, 1360] : List ℝ).map (· / 1360) := by
  norm_num [galacticusCdf, galacticusCounts, cumsum, cumsumFrom]

/-- **C23** (`GALACTICUS_2024`). Sampling never leaves the interpolation table: it succeeds for every
variate, and the infall redshift lies between 0.038 and 15.92 above the lens redshift. -/
theorem c23_galacticus_range (zLens u : ℝ) (h0 : 0 ≤ u) (h1 : u ≤ 1) :
    ∃ z, galacticusInfall zLens u = .ok z ∧ zLens + 0.038 ≤ z ∧ z ≤ zLens + 15.92 := by
  have hh : galacticusCdf.head? = some (50 / 1360) := by rw [galacticusCdf_eq]; rfl
  have hl : galacticusCdf.getLast? = some (1360 / 1360) := by rw [galacticusCdf_eq]; rfl
  have hz : galacticusZ.head? = some (0.53836189 - 0.5) := rfl
  have hzl : galacticusZ.getLast? = some (16.41097052 - 0.5) := rfl
  have hs := segInterp_weak (galacticusCdf.zip galacticusZ) (50 / 1360, 0.53836189 - 0.5)
    (1360 / 1360, 16.41097052 - 0.5) (50 / 1360 + (1360 / 1360 - 50 / 1360) * u)
    (by rw [galacticusCdf_eq]; simp only [galacticusZ, List.map, List.zip, List.zipWith]
        norm_num)
    (by rw [galacticusCdf_eq]; rfl) (by rw [galacticusCdf_eq]; rfl)
    (by simp only; linarith) (by simp only; linarith)
  refine ⟨zLens + segInterp (galacticusCdf.zip galacticusZ)
    (50 / 1360 + (1360 / 1360 - 50 / 1360) * u), ?_, ?_, ?_⟩
  · unfold galacticusInfall interp1d
    simp only [hh, hl, Option.getD_some]
    rw [if_neg (by linarith), if_neg (by linarith)]
    rfl
  · have := hs.1; norm_num at this ⊢; linarith
  · have := hs.2; norm_num at this ⊢; linarith

example := c23_galacticus_range 0.5 0.3 (by norm_num) (by norm_num)

/-! ### The normal distribution meets the assumption -/

/-- The standard normal distribution function, with any right inverse, is `NormalLike`: the
assumption is about the actual functions scipy computes. -/
theorem c23_normal_meets_assumption (ndtri : ℝ → ℝ)
    (hinv : ∀ u, 0 < u → u < 1 → cdf (gaussianReal 0 1) (ndtri u) = u) :
    NormalLike ⟨fun x => cdf (gaussianReal 0 1) x, ndtri⟩ := by
  have hlt : ∀ a b : ℝ, a < b → cdf (gaussianReal 0 1) a < cdf (gaussianReal 0 1) b := by
    intro a b hab
    rw [cdf_eq_real, cdf_eq_real]
    have hd : Set.Iic b = Set.Iic a ∪ Set.Ioc a b := by
      rw [Set.Iic_union_Ioc_eq_Iic hab.le]
    rw [hd, measureReal_union (by
      rw [Set.disjoint_left]; intro x hx hx'; exact absurd hx'.1 (not_lt.2 hx)) measurableSet_Ioc]
    have hpos : 0 < (gaussianReal 0 1).real (Set.Ioc a b) := by
      rw [measureReal_def, ENNReal.toReal_pos_iff]
      refine ⟨?_, measure_lt_top _ _⟩
      rw [pos_iff_ne_zero]
      intro h
      have := (gaussianReal_absolutelyContinuous' 0 (one_ne_zero)) h
      rw [Real.volume_Ioc] at this
      simp at this
      linarith
    linarith
  refine ⟨hlt, fun x => ?_, fun x => ?_, hinv⟩
  · have := hlt (x - 1) x (by linarith)
    have := cdf_nonneg (gaussianReal 0 1) (x - 1)
    simp only
    linarith
  · have := hlt x (x + 1) (by linarith)
    have := cdf_le_one (gaussianReal 0 1) (x + 1)
    simp only
    linarith

/-- Such an inverse exists. -/
theorem normal_inverse_exists : ∃ ndtri : ℝ → ℝ, ∀ u, 0 < u → u < 1 →
    cdf (gaussianReal 0 1) (ndtri u) = u := by
  have hc : Continuous (cdf (gaussianReal 0 1)) := by
    have : NullSingletonClass (gaussianReal 0 1) := nullSingletonClass_gaussianReal one_ne_zero
    rw [continuous_iff_continuousAt]
    intro x
    rw [(monotone_cdf _).continuousAt_iff_leftLim_eq_rightLim, StieltjesFunction.rightLim_eq]
    have := (cdf (gaussianReal 0 1)).measure_singleton x
    rw [measure_cdf, measure_singleton, eq_comm, ENNReal.ofReal_eq_zero] at this
    have h2 := (monotone_cdf (gaussianReal 0 1)).leftLim_le (le_refl x)
    linarith
  have hsurj : ∀ u, 0 < u → u < 1 → ∃ x, cdf (gaussianReal 0 1) x = u := by
    intro u h0 h1
    obtain ⟨a, ha⟩ := ((tendsto_cdf_atBot (gaussianReal 0 1)).eventually_lt_const h0).exists
    obtain ⟨b, hb⟩ := ((tendsto_cdf_atTop (gaussianReal 0 1)).eventually_const_lt h1).exists
    exact mem_range_of_exists_le_of_exists_ge hc ⟨a, ha.le⟩ ⟨b, hb.le⟩
  choose! f hf using hsurj
  exact ⟨f, hf⟩

example : ∃ N : NormalI, NormalLike N :=
  ⟨_, c23_normal_meets_assumption _ normal_inverse_exists.choose_spec⟩

/-! ### C24 -/

/-- **C24**. The cluster model can be built exactly for hosts between 10¹⁴ and 10¹⁵ solar masses,
ends included. -/
theorem c24_cluster_range (zLens logM : ℝ) :
    (14 ≤ logM ∧ logM ≤ 15 ↔ ∃ m, mkCluster zLens logM = .ok m) ∧
    (14 ≤ logM ∧ logM ≤ 15 → mkCluster zLens logM = .ok (.cluster zLens (10 ^ logM))) := by
  unfold mkCluster
  norm_num
  by_cases h : 15 < logM ∨ logM < 14
  · simp only [h, if_true]
    refine ⟨⟨fun h' => ?_, fun h' => ?_⟩, fun h' h'' => ?_⟩
    · rcases h with h | h <;> linarith [h'.1, h'.2]
    · obtain ⟨m, hm⟩ := h'; exact absurd hm (by simp)
    · rcases h with h | h <;> linarith
  · rw [if_neg h]
    push Not at h
    refine ⟨⟨fun _ => ⟨_, rfl⟩, fun _ => ⟨h.2, h.1⟩⟩, fun _ _ h' => ?_⟩
    rcases h' with h' | h' <;> linarith [h.1, h.2]

/-- The host mass the caller asked for: `m_host` if given, else `10**log_m_host`. -/
noncomputable def wantedHost (kw : InfallKwargs) : Option ℝ :=
  match kw.mHost, kw.logMHost with
  | some m, _ => some m
  | none, some l => some ((10 : ℝ) ^ l)
  | none, none => none

/-- Every given host mass is positive. -/
def GoodKwargs (kw : InfallKwargs) : Prop := ∀ m, kw.mHost = some m → 0 < m

/-- **C24**. The documented names give the documented models with the requested host mass (10¹³ by
default; the cluster model has no default and refuses hosts outside its range). -/
theorem c24_dispatch (zLens : ℝ) (kw : InfallKwargs) (hk : GoodKwargs kw) :
    (∃ kw', setupInfallModel zLens (.name "HYBRID_INFALL") kw
      = .ok (.hybrid zLens ((wantedHost kw).getD (10 ^ (13 : ℝ))), kw')) ∧
    (∃ kw', setupInfallModel zLens (.name "DIRECT_INFALL") kw
      = .ok (.direct zLens ((wantedHost kw).getD (10 ^ (13 : ℝ))), kw')) ∧
    (setupInfallModel zLens (.name "GALACTICUS_2024") kw = .ok (.galacticus zLens, kw)) ∧
    (∀ M, wantedHost kw = some M → 10 ^ 14 ≤ M → M ≤ 10 ^ 15 →
      ∃ kw', setupInfallModel zLens (.name "DIRECT_INFALL_CLUSTER") kw
        = .ok (.cluster zLens M, kw')) ∧
    (∀ M, wantedHost kw = some M → (M < 10 ^ 14 ∨ 10 ^ 15 < M) →
      ∃ msg, setupInfallModel zLens (.name "DIRECT_INFALL_CLUSTER") kw
        = .error (.valueError msg)) ∧
    (wantedHost kw = none → setupInfallModel zLens (.name "DIRECT_INFALL_CLUSTER") kw
        = .error (.keyError "log_m_host")) ∧
    (setupInfallModel zLens (.name "INFALL_ZLENS") kw = .ok (.atZlens zLens, kw)) ∧
    (setupInfallModel zLens (.name "INFALL_0") kw = .ok (.zero, kw)) := by
  obtain ⟨m, l⟩ := kw
  have key : ∀ M, wantedHost ⟨m, l⟩ = some M → ∃ L, (InfallKwargs.convert ⟨m, l⟩).logMHost = some L ∧
      (10 : ℝ) ^ L = M := by
    intro M hM
    cases m with
    | some m =>
      simp only [wantedHost, Option.some.injEq] at hM
      subst hM
      exact ⟨Real.logb 10 m, rfl, Real.rpow_logb (by norm_num) (by norm_num) (hk m rfl)⟩
    | none =>
      cases l with
      | none => simp [wantedHost] at hM
      | some l =>
        simp only [wantedHost, Option.some.injEq] at hM
        exact ⟨l, rfl, hM⟩
  have key2 : ∃ L, ((InfallKwargs.convert ⟨m, l⟩).default13).logMHost = some L ∧
      (10 : ℝ) ^ L = (wantedHost ⟨m, l⟩).getD (10 ^ (13 : ℝ)) := by
    cases hw : wantedHost ⟨m, l⟩ with
    | some M =>
      obtain ⟨L, h1, h2⟩ := key M hw
      refine ⟨L, ?_, by simpa using h2⟩
      simp [InfallKwargs.default13, h1]
    | none =>
      cases m with
      | some m => simp [wantedHost] at hw
      | none =>
        cases l with
        | some l => simp [wantedHost] at hw
        | none => exact ⟨13.0, rfl, by norm_num⟩
  obtain ⟨L2, hL2, hL2'⟩ := key2
  refine ⟨⟨(InfallKwargs.convert ⟨m, l⟩).default13, ?_⟩,
    ⟨(InfallKwargs.convert ⟨m, l⟩).default13, ?_⟩, ?_, ?_, ?_, ?_, ?_, ?_⟩
  · simp [setupInfallModel, InfallKwargs.getLog, hL2, hL2', bind, Except.bind, pure, Except.pure]
  · simp [setupInfallModel, InfallKwargs.getLog, hL2, hL2', bind, Except.bind, pure, Except.pure]
  · simp [setupInfallModel]
  · intro M hM h1 h2
    obtain ⟨L, hL, hL'⟩ := key M hM
    have b1 : 14 ≤ L := by
      rw [← hL', ← Real.rpow_natCast] at h1
      exact_mod_cast (Real.rpow_le_rpow_left_iff (by norm_num)).1 h1
    have b2 : L ≤ 15 := by
      rw [← hL', ← Real.rpow_natCast] at h2
      exact_mod_cast (Real.rpow_le_rpow_left_iff (by norm_num)).1 h2
    refine ⟨InfallKwargs.convert ⟨m, l⟩, ?_⟩
    simp [setupInfallModel, InfallKwargs.getLog, hL, (c24_cluster_range zLens L).2 ⟨b1, b2⟩, hL',
      bind, Except.bind, pure, Except.pure]
  · intro M hM h1
    obtain ⟨L, hL, hL'⟩ := key M hM
    have b1 : L > 15.0 ∨ L < 14.0 := by
      norm_num
      rcases h1 with h1 | h1
      · right
        rw [← hL', ← Real.rpow_natCast] at h1
        exact_mod_cast (Real.rpow_lt_rpow_left_iff (by norm_num)).1 h1
      · left
        rw [← hL', ← Real.rpow_natCast] at h1
        exact_mod_cast (Real.rpow_lt_rpow_left_iff (by norm_num)).1 h1
    refine ⟨"infall redshift distribution for cluster-mass halos only valid", ?_⟩
    have hm : mkCluster zLens L = .error (.valueError
        "infall redshift distribution for cluster-mass halos only valid") := if_pos b1
    simp [setupInfallModel, InfallKwargs.getLog, hL, hm, bind, Except.bind]
  · intro hw
    cases m with
    | some m => simp [wantedHost] at hw
    | none =>
      cases l with
      | some l => simp [wantedHost] at hw
      | none => simp [setupInfallModel, InfallKwargs.convert, InfallKwargs.getLog, bind,
          Except.bind]
  · simp [setupInfallModel]
  · simp [setupInfallModel]

/-- **C24**. Every other string is refused. -/
theorem c24_unknown_name (zLens : ℝ) (kw : InfallKwargs) (s : String)
    (h : s ∉ ["HYBRID_INFALL", "DIRECT_INFALL", "GALACTICUS_2024", "DIRECT_INFALL_CLUSTER",
      "INFALL_ZLENS", "INFALL_0"]) :
    setupInfallModel zLens (.name s) kw
      = .error (.exception (s ++ " not a valid infall redshift model.")) := by
  simp only [List.mem_cons, List.not_mem_nil, or_false, not_or] at h
  obtain ⟨h1, h2, h3, h4, h5, h6⟩ := h
  simp [setupInfallModel, h1, h2, h3, h4, h5, h6]

example := c24_unknown_name 0.5 ⟨none, some 13⟩ "HYBRID" (by decide)

/-- **C24**. The dictionary the caller passed is changed, but setting up the same model again with
the changed dictionary gives the same model and changes nothing further. -/
theorem c24_setup_again (zLens : ℝ) (s : String) (kw kw' : InfallKwargs) (m : InfallModel)
    (h : setupInfallModel zLens (.name s) kw = .ok (m, kw')) :
    setupInfallModel zLens (.name s) kw' = .ok (m, kw') := by
  have hconv : ∀ kw : InfallKwargs, kw.convert.convert = kw.convert := by
    rintro ⟨_ | m, l⟩ <;> rfl
  have hdef : ∀ kw : InfallKwargs, kw.convert.default13.convert.default13 = kw.convert.default13 := by
    rintro ⟨_ | m, _ | l⟩ <;> rfl
  have hconv' : ∀ kw : InfallKwargs, kw.convert.default13.convert = kw.convert.default13 := by
    rintro ⟨_ | m, _ | l⟩ <;> rfl
  unfold setupInfallModel at h ⊢
  simp only [bind, Except.bind, pure, Except.pure] at h ⊢
  by_cases h1 : s = "HYBRID_INFALL"
  · subst h1
    simp at h ⊢
    cases hg : kw.convert.default13.getLog with
    | error e => rw [hg] at h; simp at h
    | ok l =>
      rw [hg] at h
      simp at h
      rw [← h.2, hdef, hg]
      simp [h.1]
  by_cases h2 : s = "DIRECT_INFALL"
  · subst h2
    simp at h ⊢
    cases hg : kw.convert.default13.getLog with
    | error e => rw [hg] at h; simp at h
    | ok l =>
      rw [hg] at h
      simp at h
      rw [← h.2, hdef, hg]
      simp [h.1]
  simp only [h1, h2, or_self, if_false] at h ⊢
  by_cases h3 : s = "GALACTICUS_2024"
  · simp only [h3, if_true] at h ⊢
    simp at h; simp [h.1]
  by_cases h4 : s = "DIRECT_INFALL_CLUSTER"
  · subst h4
    simp at h ⊢
    cases hg : kw.convert.getLog with
    | error e => rw [hg] at h; simp at h
    | ok l =>
      rw [hg] at h
      simp only at h
      cases hm : mkCluster zLens l with
      | error e => rw [hm] at h; simp at h
      | ok m' =>
        rw [hm] at h
        simp at h
        rw [← h.2, hconv, hg]
        simp [h.1, hm]
  by_cases h5 : s = "INFALL_ZLENS"
  · simp only [h3, h4, h5, if_true, if_false] at h ⊢
    simp at h; simp [h.1]
  by_cases h6 : s = "INFALL_0"
  · simp only [h3, h4, h5, h6, if_true, if_false] at h ⊢
    simp at h; simp [h.1]
  · simp [h3, h4, h5, h6] at h

example : GoodKwargs ⟨some (3 * 10 ^ 14), none⟩ ∧
    wantedHost ⟨some (3 * 10 ^ 14), none⟩ = some (3 * 10 ^ 14) ∧
    (10 : ℝ) ^ 14 ≤ 3 * 10 ^ 14 ∧ (3 * 10 ^ 14 : ℝ) ≤ 10 ^ 15 := by
  refine ⟨?_, rfl, by norm_num, by norm_num⟩
  intro m h
  simp at h
  rw [← h]; norm_num

/-- **C23/C24 together**: whatever documented model is installed, an accretion redshift below the
lens redshift is only possible with `INFALL_0`. -/
theorem c23_installed_models (N : NormalI) (hN : NormalLike N) (zLens : ℝ) (s : String)
    (kw kw' : InfallKwargs) (m : InfallModel)
    (h : setupInfallModel zLens (.name s) kw = .ok (m, kw')) (hs : s ≠ "INFALL_0")
    (mSub u : ℝ) (h0 : 0 ≤ u) (h1 : u ≤ 1) :
    ∃ z, zAccreted N (some m) mSub u = .ok z ∧ zLens ≤ z ∧ z ≤ zLens + 15.92 := by
  have mem : (∃ M, m = .hybrid zLens M) ∨ (∃ M, m = .direct zLens M) ∨ m = .galacticus zLens ∨
      (∃ M, m = .cluster zLens M) ∨ m = .atZlens zLens := by
    unfold setupInfallModel at h
    simp only [bind, Except.bind, pure, Except.pure] at h
    by_cases h1 : s = "HYBRID_INFALL"
    · subst h1
      simp at h
      split at h <;> simp at h
      exact .inl ⟨_, h.1.symm⟩
    by_cases h2 : s = "DIRECT_INFALL"
    · subst h2
      simp at h
      split at h <;> simp at h
      exact .inr (.inl ⟨_, h.1.symm⟩)
    by_cases h3 : s = "GALACTICUS_2024"
    · subst h3
      simp at h
      exact .inr (.inr (.inl h.1.symm))
    by_cases h4 : s = "DIRECT_INFALL_CLUSTER"
    · subst h4
      simp at h
      split at h <;> try (simp at h; done)
      split at h <;> simp at h
      rename_i hm
      unfold mkCluster at hm
      split_ifs at hm
      injection hm with hm
      exact .inr (.inr (.inr (.inl ⟨_, by rw [← h.1, ← hm]⟩)))
    by_cases h5 : s = "INFALL_ZLENS"
    · subst h5
      simp at h
      exact .inr (.inr (.inr (.inr h.1.symm)))
    simp [h1, h2, h3, h4, h5, hs] at h
  have fin : ∀ k ∈ [hybridCoeffs, directCoeffs, clusterCoeffs], ∀ M,
      zLens ≤ truncNormalInfall N k zLens M mSub u ∧
        truncNormalInfall N k zLens M mSub u ≤ zLens + 15.92 := by
    intro k hk M
    obtain ⟨a, b⟩ := c23_all_classes k (by
      simp only [List.mem_cons, List.not_mem_nil, or_false] at hk ⊢; tauto)
    obtain ⟨c, d⟩ := c23_infall_range N hN k a b zLens M mSub u h0 h1
    refine ⟨c, d.trans ?_⟩
    norm_num
  rcases mem with ⟨M, rfl⟩ | ⟨M, rfl⟩ | rfl | ⟨M, rfl⟩ | rfl
  · exact ⟨_, rfl, fin _ (by simp) M⟩
  · exact ⟨_, rfl, fin _ (by simp) M⟩
  · obtain ⟨z, hz, b1, b2⟩ := c23_galacticus_range zLens u h0 h1
    refine ⟨z, hz, ?_, b2⟩
    norm_num at b1 ⊢; linarith
  · exact ⟨_, rfl, fin _ (by simp) M⟩
  · refine ⟨_, rfl, le_refl _, ?_⟩
    norm_num

end PyHalo.Props
