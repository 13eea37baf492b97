import Verif.Model.Sidm
import Verif.Props.Cosmology
import Verif.Lemmas.Interp
import Mathlib.Tactic
import Mathlib.Analysis.SpecialFunctions.Log.Basic
import Mathlib.Analysis.Complex.ExponentialBounds

/-!
# C33: radii of the evolving SIDM profile.  C31: batched routines
-/

namespace PyHalo
namespace Props
open Sidm

/-! ## C33 -/

theorem rsEarly_pos {t : ℝ} (h0 : 0 ≤ t) (h1 : t ≤ 1) : 0.38 ≤ rsEarly t := by
  unfold rsEarly
  have hl : Real.log 0.001 < 0 := Real.log_neg (by norm_num) (by norm_num)
  have hle : Real.log 0.001 ≤ Real.log (0.001 + t) := Real.log_le_log (by norm_num) (by linarith)
  have hr : Real.log (0.001 + t) / Real.log 0.001 ≤ 1 := by
    rw [div_le_one_of_neg hl]; exact hle
  have e : (1 - 1.13293) * Real.log (0.001 + t) / Real.log 0.001
      = (1 - 1.13293) * (Real.log (0.001 + t) / Real.log 0.001) := by ring
  rw [e]
  have h2 : (1 - 1.13293) * (Real.log (0.001 + t) / Real.log 0.001) ≥ (1 - 1.13293 : ℝ) := by
    nlinarith
  have h3 : t ^ 2 ≤ t := by nlinarith
  have h4 : t ^ 3 ≤ t ^ 2 := by nlinarith [sq_nonneg t]
  nlinarith [sq_nonneg t, mul_nonneg h0 (sub_nonneg.mpr h1)]

theorem rcEarly_pos {t : ℝ} (h0 : 0 < t) (h1 : t ≤ 1) : 0 < rcEarly t := by
  unfold rcEarly
  set s := Real.sqrt t with hs
  have s0 : 0 < s := Real.sqrt_pos.mpr h0
  have s1 : s ≤ 1 := by rw [hs]; exact Real.sqrt_le_one.mpr h1
  have ht : t = s ^ 2 := (Real.sq_sqrt h0.le).symm
  rw [ht]
  have hg : 0 < 1.06419 - 1.33207 * s + 0.431133 * s ^ 3 - 0.148087 * s ^ 5 + 0.024455 * s ^ 7 := by
    have h5 : s ^ 5 ≤ s ^ 3 := pow_le_pow_of_le_one s0.le s1 (by norm_num)
    have h7 : 0 ≤ s ^ 7 := by positivity
    have h3 : 1.06419 - 1.33207 * s + 0.283046 * s ^ 3 ≥ 0.015 := by
      have : 0 ≤ (1 - s) * (1 - s * (1 + s) / 2) := by
        refine mul_nonneg (by linarith) ?_
        nlinarith
      nlinarith [mul_nonneg (sub_nonneg.mpr s1) s0.le, mul_nonneg (sub_nonneg.mpr s1) (sq_nonneg s)]
    linarith
  have e : 1.06419 * s - 1.33207 * s ^ 2 + 0.431133 * (s ^ 2) ^ 2 - 0.148087 * (s ^ 2) ^ 3
      + 0.024455 * (s ^ 2) ^ 4
      = s * (1.06419 - 1.33207 * s + 0.431133 * s ^ 3 - 0.148087 * s ^ 5 + 0.024455 * s ^ 7) := by
    ring
  rw [e]
  positivity

theorem rsEvolution_pos {t : ℝ} (h0 : 0 ≤ t) : 0 < rsEvolution t := by
  unfold rsEvolution
  split_ifs with h
  · linarith [rsEarly_pos h0 h]
  · have := rsEarly_pos (t := 0.5) (by norm_num) (by norm_num)
    positivity

/-- C33.  At every evolution time - before, at and beyond core collapse - a profile that starts with
a positive scale radius has a positive scale radius and a positive core radius, the core radius being
at least 1e-7 of the scale radius. -/
theorem c33_radii {t rs0 : ℝ} (ht : 0 ≤ t) (hr : 0 < rs0) :
    0 < (evolveProfile t rs0).1 ∧ 0 < (evolveProfile t rs0).2 ∧
    1e-7 * (evolveProfile t rs0).1 ≤ (evolveProfile t rs0).2 := by
  have h1 : 0 < rs0 * rsEvolution (min 1.6 t) :=
    mul_pos hr (rsEvolution_pos (le_min (by norm_num) ht))
  unfold evolveProfile
  simp only
  refine ⟨h1, ?_, le_max_left _ _⟩
  exact lt_of_lt_of_le (by positivity) (le_max_left _ _)

example := c33_radii (t := 3) (rs0 := 2) (by norm_num) (by norm_num)

/-- C33: up to core collapse the core radius is the positive value of the published fit (or the floor
when the fit is smaller). -/
theorem c33_core {t rs0 : ℝ} (ht : 0 < t) (ht1 : t ≤ 1) (hr : 0 < rs0) :
    0 < 1.06419 * Real.sqrt t - 1.33207 * t + 0.431133 * t ^ 2 - 0.148087 * t ^ 3 + 0.024455 * t ^ 4 ∧
    (evolveProfile t rs0).2 = max (1e-7 * (evolveProfile t rs0).1)
      (rs0 * (1.06419 * Real.sqrt t - 1.33207 * t + 0.431133 * t ^ 2 - 0.148087 * t ^ 3
        + 0.024455 * t ^ 4)) ∧
    0.38 * rs0 ≤ (evolveProfile t rs0).1 := by
  have hm : min 1.6 t = t := min_eq_right (by linarith)
  refine ⟨rcEarly_pos ht ht1, ?_, ?_⟩
  · unfold evolveProfile
    simp only [hm]
    unfold rcEvolution
    rw [if_pos ht1]
    rfl
  · unfold evolveProfile
    simp only [hm]
    unfold rsEvolution
    rw [if_pos ht1]
    nlinarith [rsEarly_pos ht.le ht1]

example := c33_core (t := 0.5) (rs0 := 2) (by norm_num) (by norm_num) (by norm_num)

theorem rcEarly_lt {t : ℝ} (h0 : 0 ≤ t) (h1 : t ≤ 1) : rcEarly t < 0.38 := by
  unfold rcEarly
  set u := Real.sqrt t with hu
  have u0 : 0 ≤ u := Real.sqrt_nonneg t
  have u1 : u ≤ 1 := by rw [hu]; exact Real.sqrt_le_one.mpr h1
  have ht : t = u ^ 2 := (Real.sq_sqrt h0).symm
  rw [ht]
  have h4 : (u ^ 2) ^ 2 ≤ u ^ 2 := by
    rw [← pow_mul]; exact pow_le_pow_of_le_one u0 u1 (by norm_num)
  have h8 : (u ^ 2) ^ 4 ≤ u ^ 2 := by
    rw [← pow_mul]; exact pow_le_pow_of_le_one u0 u1 (by norm_num)
  have h6 : 0 ≤ (u ^ 2) ^ 3 := by positivity
  nlinarith [sq_nonneg (u - 0.607)]

/-- C33: at every time the core is smaller than the scale radius. -/
theorem c33_core_below_scale {t rs0 : ℝ} (ht : 0 ≤ t) (hr : 0 < rs0) : (evolveProfile t rs0).2 < (evolveProfile t rs0).1 := by
  have key : ∀ t : ℝ, 0 ≤ t → t ≤ 1.6 → rcEvolution t < rsEvolution t := by
    intro t h0 h16
    unfold rcEvolution rsEvolution
    split_ifs with h1
    · linarith [rcEarly_lt h0 h1, rsEarly_pos h0 h1]
    · push Not at h1
      have hs := rsEarly_pos (t := 0.5) (by norm_num) (by norm_num)
      have hr5 : rcEarly 0.5 < 0.18 := by
        unfold rcEarly
        have : Real.sqrt 0.5 < 0.708 := by
          rw [Real.sqrt_lt' (by norm_num)]
          norm_num
        norm_num at this ⊢
        linarith
      simp only
      by_cases h2 : t ≤ 1.15
      · have hexp : (0.1 : ℝ) ≤ Real.exp (-0.47 * (t - 0.5) - 2.4 * (t - 0.5) ^ 3) := by
          have h3 : (t - 0.5) ^ 3 ≤ 0.65 ^ 3 := pow_le_pow_left₀ (by linarith) (by linarith) 3
          have h4 : (-1 : ℝ) ≤ -0.47 * (t - 0.5) - 2.4 * (t - 0.5) ^ 3 := by
            norm_num at h3 ⊢
            linarith
          have h5 := Real.exp_le_exp.mpr h4
          have h6 : (0.1 : ℝ) ≤ Real.exp (-1) := by
            rw [Real.exp_neg]
            have := Real.exp_one_lt_d9
            rw [show (0.1 : ℝ) = 10⁻¹ by norm_num]
            apply inv_anti₀ (Real.exp_pos 1)
            linarith
          linarith
        have hm : (0.038 : ℝ) ≤ rsEarly 0.5 * Real.exp (-0.47 * (t - 0.5) - 2.4 * (t - 0.5) ^ 3) := by
          calc (0.038 : ℝ) = 0.38 * 0.1 := by norm_num
            _ ≤ _ := mul_le_mul hs hexp (by norm_num) (by linarith)
        have hlt : rcEarly 0.5 - 0.28 * (t - 0.5) < rsEarly 0.5 * Real.exp (-0.47 * (t - 0.5) - 2.4 * (t - 0.5) ^ 3) := by
          have hexp2 : (0.3 : ℝ) ≤ Real.exp (-0.47 * (t - 0.5) - 2.4 * (t - 0.5) ^ 3) := by
            have h3 : (t - 0.5) ^ 3 ≤ 0.65 ^ 3 := pow_le_pow_left₀ (by linarith) (by linarith) 3
            have h4 : (-1 : ℝ) ≤ -0.47 * (t - 0.5) - 2.4 * (t - 0.5) ^ 3 := by
              norm_num at h3 ⊢
              linarith
            have h5 := Real.exp_le_exp.mpr h4
            have h6 : (0.3 : ℝ) ≤ Real.exp (-1) := by
              rw [Real.exp_neg]
              have := Real.exp_one_lt_d9
              rw [show (0.3 : ℝ) = (10 / 3)⁻¹ by norm_num]
              apply inv_anti₀ (Real.exp_pos 1)
              linarith
            linarith
          have : (0.114 : ℝ) ≤ rsEarly 0.5 * Real.exp (-0.47 * (t - 0.5) - 2.4 * (t - 0.5) ^ 3) := by
            calc (0.114 : ℝ) = 0.38 * 0.3 := by norm_num
              _ ≤ _ := mul_le_mul hs hexp2 (by norm_num) (by linarith)
          linarith
        split_ifs with h6
        · linarith
        · exact hlt
      · push Not at h2
        rw [if_pos (by norm_num at h2 ⊢; linarith)]
        have h3 : (t - 0.5) ^ 3 ≤ 1.1 ^ 3 := pow_le_pow_left₀ (by linarith) (by linarith) 3
        have h4 : (-4 : ℝ) ≤ -0.47 * (t - 0.5) - 2.4 * (t - 0.5) ^ 3 := by
          norm_num at h3 ⊢
          linarith
        have h5 := Real.exp_le_exp.mpr h4
        have h6 : (0.01 : ℝ) ≤ Real.exp (-4) := by
          have e : Real.exp 4 = Real.exp 1 ^ 4 := by rw [← Real.exp_nat_mul]; norm_num
          rw [Real.exp_neg, e, show (0.01 : ℝ) = 100⁻¹ by norm_num]
          apply inv_anti₀ (by positivity)
          have h7 := Real.exp_one_lt_d9
          calc Real.exp 1 ^ 4 ≤ 2.72 ^ 4 := pow_le_pow_left₀ (Real.exp_pos 1).le (by linarith) 4
            _ ≤ 100 := by norm_num
        calc (0.0001 : ℝ) < 0.38 * 0.01 := by norm_num
          _ ≤ _ := mul_le_mul hs (h6.trans h5) (by norm_num) (by linarith)
  have h0 : 0 ≤ min 1.6 t := le_min (by norm_num) ht
  have h1 := key (min 1.6 t) h0 (min_le_left _ _)
  have h2 := rsEvolution_pos h0
  unfold evolveProfile
  simp only
  refine max_lt ?_ (mul_lt_mul_of_pos_left h1 hr)
  have : 0 < rs0 * rsEvolution (min 1.6 t) := mul_pos hr h2
  norm_num at this ⊢
  linarith

example : (evolveProfile 1.2 2).2 < (evolveProfile 1.2 2).1 := c33_core_below_scale (by norm_num) (by norm_num)

/-- C33: at the start the scale radius is the initial one and the core is at its floor. -/
theorem c33_start {rs0 : ℝ} (hr : 0 < rs0) : evolveProfile 0 rs0 = (rs0, 1e-7 * rs0) := by
  have hl : Real.log 0.001 ≠ 0 := (Real.log_neg (by norm_num) (by norm_num)).ne
  have h1 : rsEvolution 0 = 1 := by
    unfold rsEvolution rsEarly
    rw [if_pos (by norm_num)]
    rw [add_zero, mul_div_assoc, div_self hl]
    norm_num
  have h2 : rcEvolution 0 = 0 := by
    unfold rcEvolution rcEarly
    rw [if_pos (by norm_num)]
    simp
  have hm : min (1.6 : ℝ) 0 = 0 := min_eq_right (by norm_num)
  unfold evolveProfile
  simp only [hm, h1, h2, mul_one, mul_zero]
  rw [max_eq_left (by positivity)]

/-- C33: the evolution stops at 1.6 collapse times. -/
theorem c33_frozen {t rs0 : ℝ} (ht : 1.6 ≤ t) : evolveProfile t rs0 = evolveProfile 1.6 rs0 := by
  unfold evolveProfile
  rw [min_eq_left ht, min_self]

example := c33_frozen (t := 3) (rs0 := 2) (by norm_num)

/-- C33: between collapse and 1.6 collapse times the scale radius shrinks with time. -/
theorem c33_contracts {t t' rs0 : ℝ} (h1 : 1 < t) (h : t < t') (h2 : t' ≤ 1.6) (hr : 0 < rs0) :
    (evolveProfile t' rs0).1 < (evolveProfile t rs0).1 := by
  unfold evolveProfile
  simp only
  rw [min_eq_right (show t ≤ 1.6 by linarith), min_eq_right h2]
  refine mul_lt_mul_of_pos_left ?_ hr
  unfold rsEvolution
  rw [if_neg (by linarith), if_neg (by linarith)]
  refine mul_lt_mul_of_pos_left ?_ (by linarith [rsEarly_pos (t := 0.5) (by norm_num) (by norm_num)])
  refine Real.exp_lt_exp.mpr ?_
  have : (t - 0.5) ^ 3 < (t' - 0.5) ^ 3 :=
    pow_lt_pow_left₀ (by linarith) (by linarith) (by norm_num)
  linarith

example := c33_contracts (t := 1.1) (t' := 1.3) (rs0 := 2) (by norm_num) (by norm_num) (by norm_num) (by norm_num)

/-- C33: the evolution acts on lengths, so it commutes with a change of units. -/
theorem c33_units {t rs0 k : ℝ} (hk : 0 < k) :
    evolveProfile t (k * rs0) = (k * (evolveProfile t rs0).1, k * (evolveProfile t rs0).2) := by
  unfold evolveProfile
  simp only
  rw [Prod.ext_iff]
  refine ⟨by ring, ?_⟩
  simp only
  rw [mul_max_of_nonneg _ _ hk.le]
  congr 1 <;> ring

example := c33_units (t := 1.1) (rs0 := 2) (k := 3) (by norm_num)

example : (0 : ℝ) ≤ 3 ∧ (0 : ℝ) < 2.5 := by norm_num
example : (1 : ℝ) < 1.1 ∧ (1.1 : ℝ) < 1.3 ∧ (1.3 : ℝ) ≤ 1.6 := by norm_num

/-! ## C31 -/

/-- C31 for the SIDM evolution: the batched routine gives the scalar result for every halo. -/
theorem c31_evolution (ts rs0 : List ℝ) :
    evolveVectorized ts rs0 = List.zipWith evolveProfile ts rs0 := by
  have key : ∀ t : ℝ, (if t ≤ 1 then rcEarly t else max (rcEarly 0.5 - 0.28 * (t - 0.5)) 0.0001)
      = rcEvolution t := by
    intro t
    unfold rcEvolution
    simp only
    split_ifs with h h'
    · rfl
    · exact max_eq_right h'.le
    · exact max_eq_left (not_lt.mp h')
  unfold evolveVectorized
  induction ts generalizing rs0 with
  | nil => cases rs0 <;> simp
  | cons t ts ih =>
    cases rs0 with
    | nil => simp
    | cons r rs0 =>
      have := ih rs0
      simp only at this
      simp only [List.map_cons, List.zipWith_cons_cons, List.zip_cons_cons, decide_eq_true_eq, this,
        key]
      congr 1
      unfold evolveProfile
      simp only
      rw [max_comm]
      rfl

/-- C31 for the NFW parameters: `rhos`, `rs`, `r200` of the batched routine are those of the scalar
routine, halo by halo. -/
theorem c31_nfw (e : LensCosmo.Env) (hs : List (ℝ × ℝ × ℝ × Bool)) :
    (Batch.nfwVectorized e (hs.map (·.1)) (hs.map (·.2.1)) (hs.map (·.2.2.1))
      (hs.map (·.2.2.2))).map Except.ok
    = hs.map fun o => LensCosmo.nfwParamKpc e o.1 o.2.1 o.2.2.1 (some o.2.2.2) := by
  unfold Batch.nfwVectorized
  induction hs with
  | nil => simp
  | cons o hs ih =>
    simp only [List.map_cons, List.zipWith_cons_cons, List.zip_cons_cons] at ih ⊢
    rw [ih]
    congr 1
    obtain ⟨m, c, z, p⟩ := o
    cases p <;>
      simp [LensCosmo.nfwParamKpc, LensCosmo.nfwParam, LensCosmo.r200M, LensCosmo.rho0c,
        LensCosmo.rho0cPseudo, bind, Except.bind, pure, Except.pure]

/-- C31 for infall redshifts: with the same uniform variates the batched routine draws the infall
redshift the scalar model draws. -/
theorem c31_infall (N : NormalI) (k : InfallCoeffs) (zLens mHost : ℝ) (ms us : List ℝ) :
    Batch.infallVectorized N k zLens mHost ms us
      = List.zipWith (fun m u => truncNormalInfall N k zLens mHost m u) ms us := by
  unfold Batch.infallVectorized
  induction ms generalizing us with
  | nil => cases us <;> simp
  | cons m ms ih =>
    cases us with
    | nil => simp
    | cons u us =>
      have := ih us
      simp only at this
      simp only [List.map_cons, List.zipWith_cons_cons, List.zip_cons_cons, this]
      congr 1
      have e : Np.clip (m / mHost) ((10 : ℝ) ^ (-5.0 : ℝ)) ((10 : ℝ) ^ (-0.5 : ℝ))
          = massRatioInBounds (m / mHost) := by
        unfold Np.clip massRatioInBounds
        rw [min_comm, max_comm]
      rw [e]
      rfl

/-- The value of a computation that succeeds. -/
noncomputable def valOf (f : ℝ → Except Err ℝ) (x : ℝ) : ℝ :=
  match f x with
  | .ok v => v
  | .error _ => 0

theorem mapM_ok {f : ℝ → Except Err ℝ} : ∀ {xs ys : List ℝ}, xs.mapM f = .ok ys →
    ys = xs.map (valOf f) ∧ ∀ x ∈ xs, f x = .ok (valOf f x)
  | [], ys, h => by
    rw [List.mapM_nil] at h
    have : [] = ys := by injection h
    subst this
    simp
  | x :: xs, ys, h => by
    rw [List.mapM_cons] at h
    cases hx : f x with
    | error e => simp [hx, bind, Except.bind] at h
    | ok y =>
      have hv : valOf f x = y := by simp [valOf, hx]
      cases hxs : xs.mapM f with
      | error e => simp [hx, hxs, bind, Except.bind] at h
      | ok l =>
        simp [hx, hxs, bind, Except.bind, pure, Except.pure] at h
        subst h
        obtain ⟨h1, h2⟩ := mapM_ok hxs
        refine ⟨by rw [h1, List.map_cons, hv], ?_⟩
        intro a ha
        rcases List.mem_cons.mp ha with rfl | ha
        · rw [hv]; exact hx
        · exact h2 a ha

theorem mapM_of_ok {α β : Type} {f : α → Except Err β} {g : α → β} : ∀ {xs : List α},
    (∀ x ∈ xs, f x = .ok (g x)) → xs.mapM f = .ok (xs.map g)
  | [], _ => rfl
  | x :: xs, h => by
    rw [List.mapM_cons, h x (by simp), mapM_of_ok fun a ha => h a (by simp [ha])]
    rfl

theorem ageInterp_ok (A : AstropyI) {z : ℝ} (h0 : 0 ≤ z) (h1 : z ≤ 20) :
    ∃ v, Cosmo.ageInterp A z = .ok v := by
  have hg : Np.linspace 0 20 250
      = (List.range (249 + 1)).map fun i : ℕ => (i : ℝ) * (20 / 249) := by
    unfold Np.linspace
    refine List.map_congr_left fun i _ => ?_
    norm_num
  obtain ⟨g1, g2, _⟩ := Np.grid_spec 249 (fun i : ℕ => (i : ℝ) * (20 / 249)) (by
    intro i j h
    have : (i : ℝ) < j := by exact_mod_cast h
    nlinarith)
  unfold Cosmo.ageInterp
  simp only
  rw [hg]
  refine ⟨_, (Np.interp1d_eq _ _ z _ _ g1 g2).1 (by norm_num; exact h0) (by norm_num; exact h1)⟩

theorem haloAge_eq (A : AstropyI) (z zform : ℝ) : Batch.haloAge A z zform =
    (match Cosmo.ageInterp A zform with
    | .error e => .error e
    | .ok form => if zform < z then .ok 0 else
      match Cosmo.ageInterp A z with
      | .error e => .error e
      | .ok t => .ok (t - form)) := by
  unfold Batch.haloAge Cosmo.haloAge
  simp only [CosmoCache.empty]
  cases h1 : Cosmo.ageInterp A zform with
  | error e => simp [bind, Except.bind]
  | ok f =>
    by_cases hz : zform < z
    · simp [hz, bind, Except.bind, pure, Except.pure]
    · cases h2 : Cosmo.ageInterp A z with
      | error e => simp [hz, bind, Except.bind]
      | ok t => simp [hz, bind, Except.bind, pure, Except.pure]

/-- C31 for times since infall: if the batched routine succeeds, every halo gets the time the scalar
routine computes; and it succeeds whenever all redshifts are between 0 and 20 and cosmic time does
not run backwards. -/
theorem c31_times (A : AstropyI) (hs : List (ℝ × ℝ)) :
    (∀ l, Batch.timesSinceInfall A (hs.map (·.1)) (hs.map (·.2)) = .ok l →
      hs.mapM (fun o => Batch.timeSinceInfall A o.1 o.2) = .ok l) ∧
    ((∀ o ∈ hs, 0 ≤ o.1 ∧ o.1 ≤ 20 ∧ 0 ≤ o.2 ∧ o.2 ≤ 20) →
      (∀ a b u v, a ≤ b → Cosmo.ageInterp A a = .ok u → Cosmo.ageInterp A b = .ok v → v ≤ u) →
      ∃ l, Batch.timesSinceInfall A (hs.map (·.1)) (hs.map (·.2)) = .ok l) := by
  have zw : ∀ (T : ℝ → ℝ), List.zipWith (fun (p : ℝ × ℝ) (q : ℝ × ℝ) =>
        if p.1 > p.2 then 0 else q.1 - q.2)
      ((hs.map (·.1)).zip (hs.map (·.2))) (((hs.map (·.1)).map T).zip ((hs.map (·.2)).map T))
      = hs.map fun o => if o.1 > o.2 then 0 else T o.1 - T o.2 := by
    intro T
    induction hs with
    | nil => simp
    | cons o hs ih => simp only [List.map_cons, List.zip_cons_cons, List.zipWith_cons_cons, ih]
  constructor
  · intro l h
    unfold Batch.timesSinceInfall Batch.ageArray at h
    cases h1 : (hs.map (·.1)).mapM (Cosmo.ageInterp A) with
    | error e => simp [h1, bind, Except.bind] at h
    | ok tz =>
      cases h2 : (hs.map (·.2)).mapM (Cosmo.ageInterp A) with
      | error e => simp [h1, h2, bind, Except.bind] at h
      | ok ti =>
        obtain ⟨e1, f1⟩ := mapM_ok h1
        obtain ⟨e2, f2⟩ := mapM_ok h2
        simp only [h1, h2, bind, Except.bind] at h
        rw [e1, e2, zw] at h
        split_ifs at h with hall
        · have hl : (hs.map fun o => if o.1 > o.2 then 0
              else valOf (Cosmo.ageInterp A) o.1 - valOf (Cosmo.ageInterp A) o.2) = l := by
            injection h
          rw [← hl]
          refine mapM_of_ok fun o ho => ?_
          have g1 := f1 o.1 (List.mem_map_of_mem ho)
          have g2 := f2 o.2 (List.mem_map_of_mem ho)
          rw [List.all_eq_true] at hall
          have hpos := hall _ (List.mem_map_of_mem ho)
          simp only [decide_eq_true_eq] at hpos
          unfold Batch.timeSinceInfall
          rw [haloAge_eq, g2]
          simp only [g1]
          by_cases hz : o.2 < o.1
          · simp [hz, bind, Except.bind, pure, Except.pure]
          · simp only [gt_iff_lt, hz, if_false] at hpos ⊢
            simp [hpos, bind, Except.bind, pure, Except.pure]
  · intro hr hA
    have h1 : (hs.map (·.1)).mapM (Cosmo.ageInterp A)
        = .ok ((hs.map (·.1)).map (valOf (Cosmo.ageInterp A))) := by
      refine mapM_of_ok fun x hx => ?_
      obtain ⟨o, ho, rfl⟩ := List.mem_map.mp hx
      obtain ⟨v, hv⟩ := ageInterp_ok A (hr o ho).1 (hr o ho).2.1
      rw [hv]; simp [valOf, hv]
    have h2 : (hs.map (·.2)).mapM (Cosmo.ageInterp A)
        = .ok ((hs.map (·.2)).map (valOf (Cosmo.ageInterp A))) := by
      refine mapM_of_ok fun x hx => ?_
      obtain ⟨o, ho, rfl⟩ := List.mem_map.mp hx
      obtain ⟨v, hv⟩ := ageInterp_ok A (hr o ho).2.2.1 (hr o ho).2.2.2
      rw [hv]; simp [valOf, hv]
    unfold Batch.timesSinceInfall Batch.ageArray
    simp only [h1, h2, bind, Except.bind]
    rw [zw, if_pos]
    · exact ⟨_, rfl⟩
    · rw [List.all_eq_true]
      intro t ht
      obtain ⟨o, ho, rfl⟩ := List.mem_map.mp ht
      simp only [decide_eq_true_eq]
      split_ifs with hz
      · exact le_rfl
      · obtain ⟨v, hv⟩ := ageInterp_ok A (hr o ho).1 (hr o ho).2.1
        obtain ⟨w, hw⟩ := ageInterp_ok A (hr o ho).2.2.1 (hr o ho).2.2.2
        have := hA _ _ _ _ (not_lt.mp hz) hv hw
        simp only [valOf, hv, hw]
        linarith

theorem merge_eq {α : Type} (hs : List Batch.SidmHalo) (g k : Batch.SidmHalo → α) :
    Batch.merge (hs.map (·.isSub)) ((hs.filter (·.isSub)).map g)
      ((hs.filter fun o => !o.isSub).map k) = hs.map fun o => if o.isSub then g o else k o := by
  induction hs with
  | nil => rfl
  | cons o hs ih =>
    cases ho : o.isSub with
    | true => simp [ho, Batch.merge, ih]
    | false => simp [ho, Batch.merge, ih]

/-- C31 for SIDM effective ages: if the batched routine succeeds, every halo - subhalos and field
halos mixed in any order - gets the age the scalar routine computes; and it succeeds whenever all
redshifts are between 0 and 20. -/
theorem c31_ages (A : AstropyI) (hs : List Batch.SidmHalo) :
    (∀ l, Batch.sidmAges A hs = .ok l → hs.mapM (Batch.SidmHalo.age A) = .ok l) ∧
    ((∀ o ∈ hs, 0 ≤ o.z ∧ o.z ≤ 20 ∧ (o.isSub = true → 0 ≤ o.zInfall)) →
      ∃ l, Batch.sidmAges A hs = .ok l) := by
  set T := valOf (Cosmo.ageInterp A) with hT
  obtain ⟨v10, h10⟩ := ageInterp_ok A (show (0 : ℝ) ≤ 10 by norm_num) (by norm_num)
  have T10 : T 10 = v10 := by simp [hT, valOf, h10]
  -- closed form of the two branches
  have subs_eq : ∀ subs : List Batch.SidmHalo,
      ((subs.map fun o => min o.zInfall 10).mapM (Cosmo.ageInterp A)
        = .ok ((subs.map fun o => min o.zInfall 10).map T)) →
      ((subs.map (·.z)).mapM (Cosmo.ageInterp A) = .ok ((subs.map (·.z)).map T)) →
      Batch.subAges A subs = .ok (subs.map fun o =>
        (if min o.zInfall 10 > 10 then 0 else T (min o.zInfall 10) - T 10)
          + o.lambdaT * (if o.z > min o.zInfall 10 then 0 else T o.z - T (min o.zInfall 10))) := by
    intro subs h1 h2
    unfold Batch.subAges Batch.ageArray
    simp only [h1, h2, h10, bind, Except.bind, pure, Except.pure, ← T10]
    congr 1
    clear h1 h2
    induction subs with
    | nil => rfl
    | cons o subs ih =>
      simp only [List.map_cons, List.zipWith_cons_cons, List.zip_cons_cons, ih]
  have fields_eq : ∀ fs : List Batch.SidmHalo,
      ((fs.map (·.z)).mapM (Cosmo.ageInterp A) = .ok ((fs.map (·.z)).map T)) →
      Batch.fieldAges A fs = .ok (fs.map fun o => if o.z > 10 then 0 else T o.z - T 10) := by
    intro fs h1
    unfold Batch.fieldAges Batch.ageArray
    simp only [h1, h10, bind, Except.bind, pure, Except.pure, ← T10]
    congr 1
    clear h1
    induction fs with
    | nil => rfl
    | cons o fs ih => simp only [List.map_cons, List.zipWith_cons_cons, ih]
  -- scalar values
  have sub_scalar : ∀ o : Batch.SidmHalo, o.isSub = true →
      Cosmo.ageInterp A (min o.zInfall 10) = .ok (T (min o.zInfall 10)) →
      Cosmo.ageInterp A o.z = .ok (T o.z) →
      Batch.SidmHalo.age A o = .ok (
        (if min o.zInfall 10 > 10 then 0 else T (min o.zInfall 10) - T 10)
          + o.lambdaT * (if o.z > min o.zInfall 10 then 0 else T o.z - T (min o.zInfall 10))) := by
    intro o ho h1 h2
    have em : (if o.zInfall > 10 then 10 else o.zInfall) = min o.zInfall 10 := by
      split_ifs with h
      · rw [min_eq_right h.le]
      · rw [min_eq_left (not_lt.mp h)]
    unfold Batch.SidmHalo.age LensCosmo.effectiveAge
    rw [if_pos ho]
    simp only [em]
    rw [haloAge_eq, haloAge_eq, h10, h1]
    simp only [h2]
    rw [if_neg (not_lt.mpr (min_le_right _ _)), if_neg (not_lt.mpr (min_le_right _ _)), T10]
    by_cases hz : min o.zInfall 10 < o.z
    · simp [hz, bind, Except.bind, pure, Except.pure]
    · simp [hz, bind, Except.bind, pure, Except.pure]
  have field_scalar : ∀ o : Batch.SidmHalo, o.isSub = false →
      Cosmo.ageInterp A o.z = .ok (T o.z) →
      Batch.SidmHalo.age A o = .ok (if o.z > 10 then 0 else T o.z - T 10) := by
    intro o ho h2
    unfold Batch.SidmHalo.age
    rw [if_neg (by simp [ho]), haloAge_eq, h10]
    simp only [h2]
    by_cases hz : 10 < o.z <;> simp [hz, T10]
  set subs := hs.filter (·.isSub) with hsubs
  set fields := hs.filter (fun o => !o.isSub) with hfields
  set g : Batch.SidmHalo → ℝ := fun o =>
        (if min o.zInfall 10 > 10 then 0 else T (min o.zInfall 10) - T 10)
          + o.lambdaT * (if o.z > min o.zInfall 10 then 0 else T o.z - T (min o.zInfall 10)) with hg
  set k : Batch.SidmHalo → ℝ := fun o => if o.z > 10 then 0 else T o.z - T 10 with hk
  constructor
  · intro l h
    -- what success of each branch means
    have hsub : ∀ a, (if subs = [] then Except.ok [] else Batch.subAges A subs) = .ok a →
        a = subs.map g ∧ ∀ o ∈ subs, Cosmo.ageInterp A (min o.zInfall 10) = .ok (T (min o.zInfall 10))
          ∧ Cosmo.ageInterp A o.z = .ok (T o.z) := by
      intro a ha
      split_ifs at ha with hn
      · injection ha with ha
        rw [hn]; exact ⟨ha.symm, by simp⟩
      · cases h1 : (subs.map fun o => min o.zInfall 10).mapM (Cosmo.ageInterp A) with
        | error e => simp [Batch.subAges, Batch.ageArray, h1, bind, Except.bind] at ha
        | ok l1 =>
          cases h2 : (subs.map (·.z)).mapM (Cosmo.ageInterp A) with
          | error e =>
            simp [Batch.subAges, Batch.ageArray, h1, h2, h10, bind, Except.bind] at ha
          | ok l2 =>
            obtain ⟨e1, f1⟩ := mapM_ok h1
            obtain ⟨e2, f2⟩ := mapM_ok h2
            rw [e1] at h1; rw [e2] at h2
            rw [subs_eq subs h1 h2] at ha
            injection ha with ha
            refine ⟨ha.symm, fun o ho => ⟨f1 _ ?_, f2 _ ?_⟩⟩
            · exact List.mem_map_of_mem (f := fun o : Batch.SidmHalo => min o.zInfall 10) ho
            · exact List.mem_map_of_mem (f := fun o : Batch.SidmHalo => o.z) ho
    have hfld : ∀ b, (if fields = [] then Except.ok [] else Batch.fieldAges A fields) = .ok b →
        b = fields.map k ∧ ∀ o ∈ fields, Cosmo.ageInterp A o.z = .ok (T o.z) := by
      intro b hb
      split_ifs at hb with hn
      · injection hb with hb
        rw [hn]; exact ⟨hb.symm, by simp⟩
      · cases h2 : (fields.map (·.z)).mapM (Cosmo.ageInterp A) with
        | error e => simp [Batch.fieldAges, Batch.ageArray, h2, bind, Except.bind] at hb
        | ok l2 =>
          obtain ⟨e2, f2⟩ := mapM_ok h2
          rw [e2] at h2
          rw [fields_eq fields h2] at hb
          injection hb with hb
          exact ⟨hb.symm, fun o ho => f2 _
            (List.mem_map_of_mem (f := fun o : Batch.SidmHalo => o.z) ho)⟩
    unfold Batch.sidmAges at h
    simp only [← hsubs, ← hfields] at h
    cases ha : (if subs = [] then Except.ok [] else Batch.subAges A subs) with
    | error e => simp [ha, bind, Except.bind] at h
    | ok a =>
      cases hb : (if fields = [] then Except.ok [] else Batch.fieldAges A fields) with
      | error e => simp [ha, hb, bind, Except.bind] at h
      | ok b =>
        simp only [ha, hb, bind, Except.bind, pure, Except.pure] at h
        obtain ⟨ea, fa⟩ := hsub a ha
        obtain ⟨eb, fb⟩ := hfld b hb
        rw [ea, eb, hsubs, hfields, merge_eq] at h
        injection h with h
        rw [← h]
        refine mapM_of_ok fun o ho => ?_
        cases hso : o.isSub with
        | true =>
          have hm : o ∈ subs := by rw [hsubs]; exact List.mem_filter.mpr ⟨ho, hso⟩
          rw [if_pos rfl]
          exact sub_scalar o hso (fa o hm).1 (fa o hm).2
        | false =>
          have hm : o ∈ fields := by rw [hfields]; exact List.mem_filter.mpr ⟨ho, by simp [hso]⟩
          rw [if_neg (by simp)]
          exact field_scalar o hso (fb o hm)
  · intro hr
    have okT : ∀ z, 0 ≤ z → z ≤ 20 → Cosmo.ageInterp A z = .ok (T z) := by
      intro z h0 h1
      obtain ⟨v, hv⟩ := ageInterp_ok A h0 h1
      rw [hv]; simp [hT, valOf, hv]
    have hs1 : (subs.map fun o => min o.zInfall 10).mapM (Cosmo.ageInterp A)
        = .ok ((subs.map fun o => min o.zInfall 10).map T) := by
      refine mapM_of_ok fun x hx => ?_
      obtain ⟨o, ho, rfl⟩ := List.mem_map.mp hx
      have hm := List.mem_filter.mp ho
      exact okT _ (le_min ((hr o hm.1).2.2 hm.2) (by norm_num))
        (le_trans (min_le_right _ _) (by norm_num))
    have hz : ∀ l : List Batch.SidmHalo, (∀ o ∈ l, o ∈ hs) →
        (l.map (·.z)).mapM (Cosmo.ageInterp A) = .ok ((l.map (·.z)).map T) := by
      intro l hl
      refine mapM_of_ok fun x hx => ?_
      obtain ⟨o, ho, rfl⟩ := List.mem_map.mp hx
      exact okT _ (hr o (hl o ho)).1 (hr o (hl o ho)).2.1
    have hs2 := hz subs (fun o ho => (List.mem_filter.mp ho).1)
    have hs3 := hz fields (fun o ho => (List.mem_filter.mp ho).1)
    unfold Batch.sidmAges
    simp only [← hsubs, ← hfields, subs_eq subs hs1 hs2, fields_eq fields hs3]
    by_cases n1 : subs = [] <;> by_cases n2 : fields = [] <;>
      simp [n1, n2, bind, Except.bind, pure, Except.pure]

/-- The scalar routine is more tolerant than the batched one: a field halo above redshift 20 has age
0, but makes the batched routine fail. -/
theorem c31_ages_out_of_range (A : AstropyI) :
    Batch.SidmHalo.age A ⟨25, false, 0, 0⟩ = .ok 0 ∧
    ∃ e, Batch.sidmAges A [⟨25, false, 0, 0⟩] = .error e := by
  obtain ⟨v10, h10⟩ := ageInterp_ok A (show (0 : ℝ) ≤ 10 by norm_num) (by norm_num)
  have hg : Np.linspace 0 20 250
      = (List.range (249 + 1)).map fun i : ℕ => (i : ℝ) * (20 / 249) := by
    unfold Np.linspace
    refine List.map_congr_left fun i _ => ?_
    norm_num
  obtain ⟨g1, g2, _⟩ := Np.grid_spec 249 (fun i : ℕ => (i : ℝ) * (20 / 249)) (by
    intro i j h
    have : (i : ℝ) < j := by exact_mod_cast h
    nlinarith)
  have h25 : ∃ e, Cosmo.ageInterp A 25 = .error e := by
    unfold Cosmo.ageInterp
    simp only
    rw [hg]
    exact (Np.interp1d_eq _ _ 25 _ _ g1 g2).2 (by norm_num)
  obtain ⟨e, he⟩ := h25
  constructor
  · unfold Batch.SidmHalo.age
    simp only [Bool.false_eq_true, if_false]
    rw [haloAge_eq, h10]
    norm_num
  · refine ⟨e, ?_⟩
    simp [Batch.sidmAges, Batch.fieldAges, Batch.ageArray, he, bind, Except.bind, pure, Except.pure]

example : ∀ o ∈ [(⟨0.5, true, 2, 1⟩ : Batch.SidmHalo), ⟨0.7, false, 0, 0⟩],
    0 ≤ o.z ∧ o.z ≤ 20 ∧ (o.isSub = true → 0 ≤ o.zInfall) := by
  intro o ho
  simp at ho
  rcases ho with rfl | rfl <;> norm_num

end Props
end PyHalo
