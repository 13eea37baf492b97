import Verif.Props.Correlation
import Mathlib.RingTheory.Polynomial.Chebyshev
import Mathlib.Analysis.SpecialFunctions.Integrals.Basic
import Mathlib.Analysis.SpecialFunctions.Trigonometric.Chebyshev.Basic

/-!
# C106: multipoles of the correlation function
-/

namespace PyHalo.Props

open PyHalo Corr MeasureTheory intervalIntegral

/-- The factor in front of the integral over angles that makes the multipoles the coefficients of the Chebyshev series. -/
noncomputable def Spec106.factor (l : ℕ) : ℝ := if l = 0 then 1 / Real.pi else 2 / Real.pi

/-- The multipole of order `l` of a function of the cosine of the angle. -/
noncomputable def Spec106.multipole (l : ℕ) (c : ℝ → ℝ) : ℝ :=
  Spec106.factor l * ∫ θ in (0 : ℝ)..Real.pi, c (Real.cos θ) * Real.cos (l * θ)

theorem cheb_cos (l : ℕ) (θ : ℝ) : (Polynomial.Chebyshev.T ℝ l).eval (Real.cos θ) = Real.cos (l * θ) := by
  have := Polynomial.Chebyshev.T_real_cos θ l
  simpa using this

theorem zip_map_self {α : Type*} (f : ℝ → ℝ → α) (c : ℝ → ℝ) (l : List ℝ) : List.zipWith f (l.map c) l = l.map fun m => f (c m) m := by
  induction l with
  | nil => rfl
  | cons a t ih => simp [ih]

/-- The angles at which the integrand is taken to be known: those of the cosines in reverse order. -/
noncomputable def Spec106.angles (μ : List ℝ) : List ℝ := (μ.map Real.arccos).reverse

theorem angles_symmetric (μ : List ℝ) (hs : μ.reverse = μ.map (- ·)) : Spec106.angles μ = μ.map fun m => Real.pi - Real.arccos m := by
  unfold Spec106.angles
  rw [← List.map_reverse, hs, List.map_map]
  simp [Function.comp_def, Real.arccos_neg]

/-- **C106**. On cosines that are symmetric about zero, the multipole is the value of the quadrature rule on the angles for the function
`c (cos θ) cos (l θ)`, seen from the other end of the interval. -/
theorem c106_rule_partial (S : Scipy) (l : ℕ) (μ : List ℝ) (hs : μ.reverse = μ.map (- ·)) (hμ : ∀ m ∈ μ, -1 ≤ m ∧ m ≤ 1) (cs : List (ℝ → ℝ)) :
    xiL S l (cs.map fun c => μ.map c) μ = cs.map fun c => Spec106.factor l *
      simps S ((Spec106.angles μ).map fun θ => c (Real.cos (Real.pi - θ)) * Real.cos (l * (Real.pi - θ))) (Spec106.angles μ) := by
  unfold xiL Spec106.factor
  simp only [List.map_map]
  apply List.map_congr_left
  intro c _
  simp only [Function.comp_def]
  congr 2
  rw [zip_map_self, angles_symmetric μ hs, List.map_map]
  apply List.map_congr_left
  intro m hm
  simp only [Function.comp_def, sub_sub_cancel]
  rw [Real.cos_arccos (hμ m hm).1 (hμ m hm).2, ← cheb_cos, Real.cos_arccos (hμ m hm).1 (hμ m hm).2]

/-- **C106**. Wherever the rule is exact for that function, the result is the multipole. -/
theorem c106_multipole_partial (S : Scipy) (l : ℕ) (μ : List ℝ) (hs : μ.reverse = μ.map (- ·)) (hμ : ∀ m ∈ μ, -1 ≤ m ∧ m ≤ 1)
    (cs : List (ℝ → ℝ)) (hx : ∀ c ∈ cs, simps S ((Spec106.angles μ).map fun θ => c (Real.cos (Real.pi - θ)) * Real.cos (l * (Real.pi - θ)))
      (Spec106.angles μ) = ∫ θ in (0 : ℝ)..Real.pi, c (Real.cos (Real.pi - θ)) * Real.cos (l * (Real.pi - θ))) :
    xiL S l (cs.map fun c => μ.map c) μ = cs.map (Spec106.multipole l) := by
  rw [c106_rule_partial S l μ hs hμ cs]
  apply List.map_congr_left
  intro c hc
  rw [hx c hc]
  unfold Spec106.multipole
  rw [intervalIntegral.integral_comp_sub_left (fun θ => c (Real.cos θ) * Real.cos (l * θ)) Real.pi]
  simp

theorem integral_cos_int (n : ℤ) : ∫ θ in (0 : ℝ)..Real.pi, Real.cos (n * θ) = if n = 0 then Real.pi else 0 := by
  by_cases h : n = 0
  · simp [h]
  · have hn : (n : ℝ) ≠ 0 := by exact_mod_cast h
    rw [if_neg h, intervalIntegral.integral_comp_mul_left (fun x => Real.cos x) hn, integral_cos]
    simp [Real.sin_int_mul_pi]

theorem integral_cos_cos (k l : ℕ) : ∫ θ in (0 : ℝ)..Real.pi, Real.cos (k * θ) * Real.cos (l * θ) =
    if k = l then (if l = 0 then Real.pi else Real.pi / 2) else 0 := by
  have e : ∀ θ : ℝ, Real.cos (k * θ) * Real.cos (l * θ) =
      (1 / 2) * Real.cos (((k : ℤ) - (l : ℤ) : ℤ) * θ) + (1 / 2) * Real.cos (((k : ℤ) + (l : ℤ) : ℤ) * θ) := by
    intro θ
    push_cast
    rw [sub_mul, add_mul, Real.cos_sub, Real.cos_add]; ring
  simp only [e]
  rw [intervalIntegral.integral_add, intervalIntegral.integral_const_mul, intervalIntegral.integral_const_mul, integral_cos_int,
    integral_cos_int]
  · by_cases hkl : k = l
    · subst hkl
      by_cases hk : k = 0
      · simp [hk]; ring
      · have : ¬ ((k : ℤ) + k = 0) := by omega
        simp [hk, this]; ring
    · have h1 : ¬ ((k : ℤ) - l = 0) := by omega
      have h2 : ¬ ((k : ℤ) + l = 0) := by omega
      simp only [h1, h2, hkl, if_false]; ring
  · exact (Continuous.intervalIntegrable (by fun_prop) _ _)
  · exact (Continuous.intervalIntegrable (by fun_prop) _ _)

/-- **C106**. The multipoles are the coefficients of the series in Chebyshev polynomials: the multipole of order `l` of a sum of
`a k T_k` is `a l`. -/
theorem c106_coefficients (n l : ℕ) (hl : l < n) (a : ℕ → ℝ) :
    Spec106.multipole l (fun m => ∑ k ∈ Finset.range n, a k * (Polynomial.Chebyshev.T ℝ k).eval m) = a l := by
  unfold Spec106.multipole
  simp only [cheb_cos, Finset.sum_mul, mul_assoc]
  rw [intervalIntegral.integral_finsetSum]
  · simp only [intervalIntegral.integral_const_mul, integral_cos_cos]
    rw [Finset.sum_eq_single l]
    · unfold Spec106.factor
      have := Real.pi_ne_zero
      by_cases h : l = 0
      · simp only [h, if_true]; field_simp
      · simp only [h, if_true, if_false]; field_simp
    · intro k _ hk; simp [hk]
    · intro h; exact absurd (Finset.mem_range.2 hl) h
  · intro k _
    exact (Continuous.intervalIntegrable (by fun_prop) _ _)

example : Spec106.multipole 2 (fun m => ∑ k ∈ Finset.range 3, ((k : ℝ) + 1) * (Polynomial.Chebyshev.T ℝ k).eval m) = 3 := by
  rw [c106_coefficients 3 2 (by norm_num)]; norm_num

/-- **C106** (what the code does with cosines on one side of zero). The integrand is paired with the angles in the wrong order. For the
cosines 0, 1/2 and 1, a constant correlation function of one and Simpson's rule for the angles 0, π/3 and π/2, the dipole is 3/8 where the
rule applied to the cosine of the angle gives 5/8. -/
theorem c106_one_sided (S : Scipy)
    (hw : S.weights [0, Real.pi / 3, Real.pi / 2] = [Real.pi / 12 * (3 / 2), Real.pi / 12 * (9 / 2), 0]) :
    xiL S 1 [[1, 1, 1]] [0, 1 / 2, 1] = [3 / 8] ∧
      Spec106.factor 1 * simps S ((Spec106.angles [0, 1 / 2, 1]).map fun θ => 1 * Real.cos θ) (Spec106.angles [0, 1 / 2, 1]) = 5 / 8 := by
  have h3 : Real.arccos (1 / 2) = Real.pi / 3 := by
    rw [← Real.cos_pi_div_three, Real.arccos_cos (by positivity) (by linarith [Real.pi_pos])]
  have ha : ([0, 1 / 2, 1].map Real.arccos).reverse = [0, Real.pi / 3, Real.pi / 2] := by
    simp only [List.map_cons, List.map_nil, h3]
    simp
  have := Real.pi_ne_zero
  constructor
  · unfold xiL
    simp only [ha]
    simp only [List.map_cons, List.map_nil, simps, hw]
    simp
    field_simp
    norm_num
  · unfold Spec106.angles Spec106.factor
    simp only [ha]
    simp only [List.map_cons, List.map_nil, simps, hw]
    simp
    field_simp
    norm_num

/-- Simpson's rule on the symmetric cosines -1, 0, 1: the angles are 0, π/2, π, and the rule is exact for the dipole of a constant and
of the cosine's cube. -/
noncomputable def Spec106.simpson : Scipy where
  spline5 _ _ _ _ _ := 0
  spline1 _ _ _ _ _ := 0
  weights x := if x.length = 3 then [Real.pi / 6, 4 * Real.pi / 6, Real.pi / 6] else []

example := c106_rule_partial Spec106.simpson 2 [-1, 0, 1] (by simp) (by simp) [fun m => m, fun m => 1 + m ^ 2]

/-- The dipole of a constant: Simpson's rule is exact by symmetry. -/
example : xiL Spec106.simpson 1 [[7, 7, 7]] [-1, 0, 1] = [Spec106.multipole 1 fun _ => 7] := by
  have := c106_multipole_partial Spec106.simpson 1 [-1, 0, 1] (by simp) (by simp) [fun _ => 7] (by
    intro c hc
    rw [List.mem_singleton] at hc
    subst hc
    have : Spec106.angles [-1, 0, 1] = [0, Real.pi / 2, Real.pi] := by simp [Spec106.angles]
    rw [this, intervalIntegral.integral_comp_sub_left (fun θ => 7 * Real.cos ((1 : ℕ) * θ)) Real.pi, intervalIntegral.integral_const_mul]
    simp [simps, Spec106.simpson, integral_cos])
  simpa using this

end PyHalo.Props
