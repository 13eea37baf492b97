import Verif.Props.RunMore

/-!
# Abundance of field halos (C92) and the two-halo term (C93)
-/

namespace PyHalo.Props
open PyHalo.Run Preset Spec

/-! ## The straight-line fit -/

/-- The sum of squared distances of the points from the line `a x + b`. -/
noncomputable def Spec92.residual (x y : List ℝ) (a b : ℝ) : ℝ := ((x.zip y).map fun q => (q.2 - (a * q.1 + b)) ^ 2).sum

/-- The numpy normal equations, as sums over the list. -/
theorem residual_expand : ∀ (x y : List ℝ) (a b : ℝ), y.length = x.length → Spec92.residual x y a b =
    (y.map fun t => t * t).sum - 2 * a * (List.zipWith (· * ·) x y).sum - 2 * b * y.sum + a ^ 2 * (x.map fun t => t * t).sum +
      2 * a * b * x.sum + x.length * b ^ 2
  | [], [], a, b, _ => by simp [Spec92.residual]
  | [], _ :: _, a, b, h => by simp at h
  | _ :: _, [], a, b, h => by simp at h
  | u :: x, v :: y, a, b, h => by
    have ih := residual_expand x y a b (by simpa using h)
    unfold Spec92.residual at ih ⊢
    simp only [List.zip_cons_cons, List.map_cons, List.sum_cons, List.zipWith_cons_cons, List.length_cons] at ih ⊢
    rw [ih]
    push_cast
    ring

/-- The abscissas are not all equal. -/
def Spec92.spread (x : List ℝ) : Prop := (x.length : ℝ) * (x.map fun t => t * t).sum - x.sum * x.sum ≠ 0

theorem fit_normal {x y : List ℝ} (hs : Spec92.spread x) (hn : x ≠ []) :
    (List.zipWith (· * ·) x y).sum = (polyfit1 x y).1 * (x.map fun t => t * t).sum + (polyfit1 x y).2 * x.sum ∧
      y.sum = (polyfit1 x y).1 * x.sum + (polyfit1 x y).2 * x.length := by
  have hn' : (x.length : ℝ) ≠ 0 := by simpa using hn
  unfold Spec92.spread at hs
  unfold polyfit1
  simp only
  generalize (x.length : ℝ) = n at *
  generalize (x.map fun t => t * t).sum = sxx at *
  generalize (List.zipWith (· * ·) x y).sum = sxy at *
  generalize x.sum = sx at *
  generalize y.sum = sy at *
  obtain ⟨t, ht⟩ : ∃ t, t = (n * sxy - sx * sy) / (n * sxx - sx * sx) := ⟨_, rfl⟩
  have ht' : t * (n * sxx - sx * sx) = n * sxy - sx * sy := by rw [ht, div_mul_cancel₀ _ hs]
  rw [← ht]
  constructor
  · field_simp
    linarith
  · field_simp
    ring

/-- **C92, the fit.** The straight line used for the mass function is the best one: no other line has a smaller sum of
squared distances from the points. -/
theorem c92_least_squares (x y : List ℝ) (h : y.length = x.length) (hs : Spec92.spread x) (a b : ℝ) :
    Spec92.residual x y (polyfit1 x y).1 (polyfit1 x y).2 ≤ Spec92.residual x y a b := by
  have hn : x ≠ [] := by rintro rfl; simp [Spec92.spread] at hs
  obtain ⟨e1, e2⟩ := fit_normal (y := y) hs hn
  have hq : ∀ (l : List ℝ) (c d : ℝ), 0 ≤ c ^ 2 * (l.map fun t => t * t).sum + 2 * c * d * l.sum + l.length * d ^ 2 := by
    intro l c d
    induction l with
    | nil => simp
    | cons u l ih =>
      simp only [List.map_cons, List.sum_cons, List.length_cons]
      push_cast
      nlinarith [sq_nonneg (c * u + d)]
  have := hq x (a - (polyfit1 x y).1) (b - (polyfit1 x y).2)
  rw [residual_expand x y _ _ h, residual_expand x y _ _ h, e1, e2]
  nlinarith

example := c92_least_squares [1, 2, 4] [1, 0, 5] rfl (by norm_num [Spec92.spread])

example : Spec92.spread [1, 2, 4] := by norm_num [Spec92.spread]

/-- Points on a line are fitted by that line. -/
theorem c92_exact_fit (x y : List ℝ) (a b : ℝ) (hs : Spec92.spread x) (hy : y = x.map fun t => a * t + b) :
    polyfit1 x y = (a, b) := by
  have hn : x ≠ [] := by rintro rfl; simp [Spec92.spread] at hs
  have hn' : (x.length : ℝ) ≠ 0 := by simpa using hn
  have h1 : ∀ l : List ℝ, (l.map fun t => a * t + b).sum = a * l.sum + l.length * b := by
    intro l
    induction l with
    | nil => simp
    | cons u l ih => simp only [List.map_cons, List.sum_cons, ih, List.length_cons]; push_cast; ring
  have h2 : ∀ l : List ℝ, (List.zipWith (· * ·) l (l.map fun t => a * t + b)).sum = a * (l.map fun t => t * t).sum + b * l.sum := by
    intro l
    induction l with
    | nil => simp
    | cons u l ih => simp only [List.map_cons, List.zipWith_cons_cons, List.sum_cons, ih]; ring
  have hsl : (polyfit1 x y).1 = a := by
    unfold polyfit1
    simp only
    rw [hy, h1, h2, div_eq_iff hs]
    ring
  refine Prod.ext hsl ?_
  have : (polyfit1 x y).2 = (y.sum - (polyfit1 x y).1 * x.sum) / x.length := rfl
  rw [this, hsl, hy, h1, div_eq_iff hn']
  ring

example := c92_exact_fit [1, 2, 4] [3, 5, 9] 2 1 (by norm_num [Spec92.spread]) (by norm_num)

/-! ## The abundance of field halos -/

theorem spread_linspace {lo hi c : ℝ} (h : lo < hi) : Spec92.spread ((Np.linspace lo hi 10).map fun t => t - c) := by
  unfold Spec92.spread Np.linspace
  simp [List.range_succ]
  have : 0 < hi - lo := by linarith
  intro h0
  nlinarith

/-- The mass function of colossus, converted to halos per comoving cubic megaparsec and solar mass, is a power law. -/
def Spec92.powerLaw (W : Run.World) (kc : ℕ) (z A s p : ℝ) : Prop :=
  ∀ m, 0 < m → W.dndlnM kc (m * W.h kc) z / m * W.h kc ^ 3 = A * (m / p) ^ s

/-- **C92, the fit of a power law** finds its slope and amplitude, whatever the mass range and the pivot. -/
theorem c92_fit_power_law (W : Run.World) (kc : ℕ) (z A s p lo hi : ℝ) (hA : 0 < A) (hp : 0 < p) (h : lo < hi)
    (hf : Spec92.powerLaw W kc z A s p) : massFit W kc z p lo hi = (s, Real.logb 10 A) := by
  have e1 : ((Np.linspace lo hi 10).map fun t => (10 : ℝ) ^ t).map (fun t => Real.logb 10 (t / p)) =
      (Np.linspace lo hi 10).map fun t => t - Real.logb 10 p := by
    rw [List.map_map]
    refine List.map_congr_left fun t _ => ?_
    simp only [Function.comp]
    rw [Real.logb_div (by positivity) hp.ne', Real.logb_rpow (by norm_num) (by norm_num)]
  unfold massFit
  simp only
  rw [e1]
  refine c92_exact_fit _ _ s (Real.logb 10 A) (spread_linspace h) ?_
  rw [List.map_map, List.map_map]
  refine List.map_congr_left fun t _ => ?_
  have ht : (0 : ℝ) < 10 ^ t := by positivity
  simp only [Function.comp, evaluateMassFunction]
  rw [hf _ ht, Real.logb_mul hA.ne' (by positivity), Real.logb_rpow_eq_mul_logb_of_pos (by positivity),
    Real.logb_div ht.ne' hp.ne', Real.logb_rpow (by norm_num) (by norm_num)]
  ring

/-- **C92.** If the mass function is a power law, then the mean number of halos of a field population on the plane from `z`
to `z + dz` is `LOS_normalization` times the comoving volume times the integral of the mass function over the mass range,
and the mean mass is the same with the integral of mass times mass function. -/
theorem c92_mean_number (W : Run.World) (S : Setup) (c : Cls) (kw : Kwargs) (z dz lo hi A s n p : ℝ) (q : PowerLaw)
    (t : Option (ℝ → ℝ)) (hA : 0 < A) (hp : 0 < p) (h : lo < hi) (hf : Spec92.powerLaw W S.kc z A s p)
    (k1 : kw "delta_power_law_index" = some (.num 0)) (k2 : kw "LOS_normalization" = some (.num n))
    (k3 : kw "m_pivot" = some (.num p)) (hq : losModel W S c kw z dz lo hi = .ok (q, t)) :
    q.nMean = n * volumeElement W S.kc S.geometry z dz *
      (∫ m in (10 : ℝ) ^ lo..(10 : ℝ) ^ hi, W.dndlnM S.kc (m * W.h S.kc) z / m * W.h S.kc ^ 3) ∧
    q.firstMoment = n * volumeElement W S.kc S.geometry z dz *
      ∫ m in (10 : ℝ) ^ lo..(10 : ℝ) ^ hi, m * (W.dndlnM S.kc (m * W.h S.kc) z / m * W.h S.kc ^ 3) := by
  obtain ⟨v, a1, a2, -⟩ := losModel_ok hq
  obtain ⟨l1, l2⟩ := losPowerLaw_limits a2
  have hv : v = p := by
    unfold Kwargs.num at a1
    rw [k3] at a1
    cases a1
    rfl
  subst hv
  have hidx : q.index = s ∧ q.norm = n * (A / v ^ s) * volumeElement W S.kc S.geometry z dz := by
    simp only [losPowerLaw, Kwargs.num, k1, k2, k3, bind, Except.bind, pure, Except.pure] at a2
    cases a2
    simp only [losAmplitude]
    rw [c92_fit_power_law W S.kc z A s v lo hi hA hp h hf]
    simp only [add_zero, Real.rpow_logb (by norm_num : (0 : ℝ) < 10) (by norm_num) hA]
    trivial
  have hev : ∀ m, 0 < m → q.evaluate m =
      n * volumeElement W S.kc S.geometry z dz * (W.dndlnM S.kc (m * W.h S.kc) z / m * W.h S.kc ^ 3) := by
    intro m hm
    unfold PowerLaw.evaluate
    rw [hf m hm, hidx.1, hidx.2, Real.div_rpow hm.le hp.le]
    have : v ^ s ≠ 0 := (Real.rpow_pos_of_pos hp s).ne'
    field_simp
  obtain ⟨m1, m2⟩ := c52_moments q (by rw [l1, l2]; exact h)
  have hle : (10 : ℝ) ^ lo ≤ (10 : ℝ) ^ hi := Real.rpow_le_rpow_of_exponent_le (by norm_num) h.le
  have hpos : ∀ m ∈ Set.uIcc ((10 : ℝ) ^ lo) ((10 : ℝ) ^ hi), 0 < m := by
    intro m hm
    rw [Set.uIcc_of_le hle] at hm
    exact lt_of_lt_of_le (by positivity) hm.1
  rw [l1, l2] at m1 m2
  constructor
  · rw [m1, ← intervalIntegral.integral_const_mul]
    exact intervalIntegral.integral_congr fun m hm => hev m (hpos m hm)
  · rw [m2, ← intervalIntegral.integral_const_mul]
    refine intervalIntegral.integral_congr fun m hm => ?_
    rw [hev m (hpos m hm)]
    ring

/-- The comoving volumes of neighbouring slices add up. -/
theorem c92_volume_adds (W : Run.World) (kc : ℕ) (g : Geometry) (z d e : ℝ) (hd : 1e-4 < d) (he : 1e-4 < e)
    (hi : IntervalIntegrable (volumeIntegrand W kc g (0.5 * g.openingAngle)) MeasureTheory.volume z (z + (d + e))) :
    volumeElement W kc g z (d + e) = volumeElement W kc g z d + volumeElement W kc g (z + d) e := by
  have h1 : 0 < d := lt_trans (by norm_num) hd
  have h2 : 0 < e := lt_trans (by norm_num) he
  have ha : IntervalIntegrable (volumeIntegrand W kc g (0.5 * g.openingAngle)) MeasureTheory.volume z (z + d) :=
    hi.mono_set (by rw [Set.uIcc_of_le (by linarith), Set.uIcc_of_le (by linarith)]; exact Set.Icc_subset_Icc_right (by linarith))
  have hb : IntervalIntegrable (volumeIntegrand W kc g (0.5 * g.openingAngle)) MeasureTheory.volume (z + d) (z + d + e) :=
    hi.mono_set (by rw [Set.uIcc_of_le (by linarith), Set.uIcc_of_le (by linarith)]; exact Set.Icc_subset_Icc (by linarith) (by linarith))
  unfold volumeElement
  simp only
  rw [if_pos (show d + e > 1e-4 by norm_num at hd he ⊢; linarith), if_pos hd, if_pos he,
    intervalIntegral.integral_add_adjacent_intervals ha hb, add_assoc]

/-! ## The two-halo term -/

/-- **C93.** The dictionary of the two-halo population is the one of the field halos with `LOS_normalization` multiplied by
the boost, which is twice the mean of the two-halo term (and of the correction of Lazar et al.) over the distances from half
a megaparsec to the back of the slice; the slice is that of the first plane nearest to the lens. -/
theorem c93_setup (W : Run.World) (S : Setup) (lazar : Bool) (scale : ℝ) (planes gaps : List ℝ) (kw kw' : Kwargs) (dz : ℝ)
    (h : twoHaloSetup W S lazar scale planes gaps kw = .ok (dz, kw')) :
    ∃ (i : ℕ) (p m n d : ℝ), planes[i]? = some p ∧ gaps[i]? = some dz ∧ (∀ q ∈ planes, |p - S.zLens| ≤ |q - S.zLens|) ∧
      (∀ (j : ℕ) q, j < i → planes[j]? = some q → |p - S.zLens| < |q - S.zLens|) ∧
      (kw "host_m200" = some (.num m) ∨ kw "host_m200" = none ∧ ∃ l, kw "log_m_host" = some (.num l) ∧ m = 10 ^ l) ∧
      kw "LOS_normalization" = some (.num n) ∧ d = (W.dist S.kc).DCt (S.zLens + dz) - (W.dist S.kc).DCt S.zLens ∧ 0.5 < d ∧
      (∀ k, k ≠ "LOS_normalization" → kw' k = kw k) ∧
      kw' "LOS_normalization" = some (.num (n * (scale * (2 * (∫ r in (0.5 : ℝ)..d, (W.twoHaloTerm S.kc r m S.zLens +
        if lazar then 0.1 * (r / W.hostR200 S.kc m S.zLens / 5) ^ (-4 : ℝ) else 0)) / (d - 0.5))))) := by
  unfold twoHaloSetup at h
  obtain ⟨m, hm, h⟩ := bind_ok h
  obtain ⟨i, hi, h⟩ := bind_ok h
  obtain ⟨z, hz, h⟩ := bind_ok h
  obtain ⟨b, hb, h⟩ := bind_ok h
  obtain ⟨n, hn, h⟩ := bind_ok h
  cases h
  have hne : planes ≠ [] := by rintro rfl; cases hi
  obtain ⟨i', p, e1, e2, e3, e4⟩ := nearestPlane_spec S.zLens planes hne
  rw [hi] at e1
  cases e1
  have num : ∀ {k : String} {x : ℝ}, kw.num k = .ok x → kw k = some (.num x) := by
    intro k x hx
    unfold Kwargs.num at hx
    split at hx
    · rename_i y hy; cases hx; exact hy
    · cases hx
    · cases hx
  refine ⟨i, p, m, n, _, e2, item_ok.1 hz, e3, e4, ?_, num hn, rfl, ?_, ?_, ?_⟩
  · unfold twoHaloHost at hm
    by_cases h1 : kw "host_m200" = none
    · rw [if_neg (by simp [h1])] at hm
      by_cases h2 : kw "log_m_host" = none
      · rw [if_neg (by simp [h2])] at hm; cases hm
      · rw [if_pos h2] at hm
        obtain ⟨l, hl, hm⟩ := bind_ok hm
        cases hm
        exact .inr ⟨h1, l, num hl, rfl⟩
    · rw [if_pos h1] at hm
      exact .inl (num hm)
  · unfold twoHaloBoost at hb
    simp only at hb
    split at hb
    · cases hb
    · rename_i hne
      by_contra hle
      exact hne (min_eq_left (not_lt.1 hle)).symm
  · intro k hk
    simp [Kwargs.set, hk]
  · unfold twoHaloBoost at hb
    simp only at hb
    split at hb
    · cases hb
    · rename_i hne
      have hlt : 0.5 < (W.dist S.kc).DCt (S.zLens + dz) - (W.dist S.kc).DCt S.zLens := by
        by_contra hle
        exact hne (min_eq_left (not_lt.1 hle)).symm
      cases hb
      rw [min_eq_right hlt.le]
      simp only [Kwargs.set, if_true]
      have : ∀ r, boostIntegrand W S.kc m S.zLens (W.hostR200 S.kc m S.zLens) lazar r = W.twoHaloTerm S.kc r m S.zLens +
          if lazar then 0.1 * (r / W.hostR200 S.kc m S.zLens / 5) ^ (-4 : ℝ) else 0 := by
        intro r
        simp only [boostIntegrand, lazarTerm]
        cases lazar <;> simp
      simp only [this]

/-- The two-halo population has the slope of the field halos in its slice, and its mean number is theirs times the boost. -/
theorem c93_mean_number (W : Run.World) (S : Setup) (c : Cls) (kw : Kwargs) (z dz lo hi n b : ℝ) (q q' : PowerLaw)
    (t t' : Option (ℝ → ℝ)) (k2 : kw "LOS_normalization" = some (.num n)) (h : losModel W S c kw z dz lo hi = .ok (q, t))
    (h' : losModel W S c (kw.set "LOS_normalization" (.num (n * b))) z dz lo hi = .ok (q', t')) :
    q'.index = q.index ∧ t' = t ∧ q'.nMean = b * q.nMean := by
  obtain ⟨v, a1, a2, a3⟩ := losModel_ok h
  obtain ⟨v', b1, b2, b3⟩ := losModel_ok h'
  obtain ⟨l1, l2⟩ := losPowerLaw_limits a2
  obtain ⟨l1', l2'⟩ := losPowerLaw_limits b2
  rw [turnoverOf_set, a3] at b3
  cases b3
  have e : v' = v := by
    have : (kw.set "LOS_normalization" (.num (n * b))).num "m_pivot" = kw.num "m_pivot" := by simp [Kwargs.num, Kwargs.set]
    rw [this, a1] at b1
    cases b1
    rfl
  subst e
  unfold losPowerLaw at a2 b2
  simp only [bind, Except.bind, pure, Except.pure] at a2 b2
  have d1 : (kw.set "LOS_normalization" (.num (n * b))).num "delta_power_law_index" = kw.num "delta_power_law_index" := by
    simp [Kwargs.num, Kwargs.set]
  have d2 : (kw.set "LOS_normalization" (.num (n * b))).num "m_pivot" = kw.num "m_pivot" := by simp [Kwargs.num, Kwargs.set]
  have d3 : (kw.set "LOS_normalization" (.num (n * b))).num "LOS_normalization" = .ok (n * b) := by simp [Kwargs.num, Kwargs.set]
  have d4 : kw.num "LOS_normalization" = .ok n := by simp [Kwargs.num, k2]
  rw [d1, d2, d3] at b2
  rw [d4] at a2
  cases hd : kw.num "delta_power_law_index" with
  | error e => rw [hd] at a2; cases a2
  | ok d =>
    rw [hd] at a2 b2
    rw [a1] at a2 b2
    simp only [losAmplitude] at a2 b2
    cases a2
    cases b2
    refine ⟨rfl, rfl, ?_⟩
    unfold PowerLaw.nMean integratePowerLaw
    simp only
    split
    · simp
    · ring

end PyHalo.Props
