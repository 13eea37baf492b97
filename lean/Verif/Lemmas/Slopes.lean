import Verif.Model.Slopes
import Mathlib.Analysis.Calculus.MeanValue
import Mathlib.Analysis.SpecialFunctions.Integrals.Basic
import Mathlib.Tactic.Linarith
import Mathlib.Tactic.Positivity
import Mathlib.Tactic.FieldSimp
import Mathlib.Tactic.Ring

/-!
# Difference quotients and trapezoids
-/

namespace PyHalo.Slopes
open Collapsed (trapezoid)

/-- A difference quotient is between bounds of the derivative. -/
theorem secant_between {φ σ : ℝ → ℝ} {x y a b : ℝ} (h : x < y)
    (hd : ∀ t ∈ Set.Icc x y, HasDerivAt φ (σ t) t ∧ a ≤ σ t ∧ σ t ≤ b) :
    a ≤ (φ y - φ x) / (y - x) ∧ (φ y - φ x) / (y - x) ≤ b := by
  obtain ⟨c, hc, e⟩ := exists_hasDerivAt_eq_slope φ σ h
    (fun t ht => (hd t ht).1.continuousAt.continuousWithinAt)
    (fun t ht => (hd t ⟨ht.1.le, ht.2.le⟩).1)
  rw [← e]
  exact (hd c ⟨hc.1.le, hc.2.le⟩).2

/-- The three-point formula is a weighted mean of two difference quotients. -/
theorem three_point {f₀ f₁ f₂ d₁ d₂ : ℝ} (h₁ : 0 < d₁) (h₂ : 0 < d₂) :
    -d₂ / (d₁ * (d₁ + d₂)) * f₀ + (d₂ - d₁) / (d₁ * d₂) * f₁ + d₁ / (d₂ * (d₁ + d₂)) * f₂
      = (d₂ * ((f₁ - f₀) / d₁) + d₁ * ((f₂ - f₁) / d₂)) / (d₁ + d₂) := by
  have : d₁ + d₂ ≠ 0 := by positivity
  field_simp
  ring

theorem mean_between {d₁ d₂ s₁ s₂ a b : ℝ} (h₁ : 0 < d₁) (h₂ : 0 < d₂) (hs₁ : a ≤ s₁ ∧ s₁ ≤ b) (hs₂ : a ≤ s₂ ∧ s₂ ≤ b) :
    a ≤ (d₂ * s₁ + d₁ * s₂) / (d₁ + d₂) ∧ (d₂ * s₁ + d₁ * s₂) / (d₁ + d₂) ≤ b := by
  have h : 0 < d₁ + d₂ := by positivity
  constructor
  · rw [le_div_iff₀ h]
    nlinarith [mul_le_mul_of_nonneg_left hs₁.1 h₂.le, mul_le_mul_of_nonneg_left hs₂.1 h₁.le]
  · rw [div_le_iff₀ h]
    nlinarith [mul_le_mul_of_nonneg_left hs₁.2 h₂.le, mul_le_mul_of_nonneg_left hs₂.2 h₁.le]

theorem tail_between {φ σ : ℝ → ℝ} (rest : List ℝ) : ∀ x₀ x₁ : ℝ, (x₀ :: x₁ :: rest).Pairwise (· < ·) →
    (gradientTail ((x₀ :: x₁ :: rest).map φ) (x₀ :: x₁ :: rest)).length = rest.length + 1 ∧
    ∀ j < rest.length + 1, ∀ a b : ℝ,
      (∀ t ∈ Set.Icc ((x₀ :: x₁ :: rest).getD j 0) ((x₀ :: x₁ :: rest).getD (min (j + 2) (rest.length + 1)) 0),
        HasDerivAt φ (σ t) t ∧ a ≤ σ t ∧ σ t ≤ b) →
      a ≤ (gradientTail ((x₀ :: x₁ :: rest).map φ) (x₀ :: x₁ :: rest)).getD j 0 ∧
      (gradientTail ((x₀ :: x₁ :: rest).map φ) (x₀ :: x₁ :: rest)).getD j 0 ≤ b := by
  induction rest with
  | nil =>
    intro x₀ x₁ h
    have h01 : x₀ < x₁ := by simpa using h
    refine ⟨by simp [gradientTail], ?_⟩
    intro j hj a b hb
    obtain rfl : j = 0 := by simpa using hj
    simpa [gradientTail] using secant_between h01 (by simpa using hb)
  | cons x₂ rest ih =>
    intro x₀ x₁ h
    have h01 : x₀ < x₁ := by simp at h; exact h.1.1
    have h12 : x₁ < x₂ := by simp at h; exact h.2.1.1
    obtain ⟨hl, hi⟩ := ih x₁ x₂ (List.pairwise_cons.1 h).2
    refine ⟨by simpa [gradientTail] using hl, ?_⟩
    intro j hj a b hb
    rcases j with _ | j
    · have hb' : ∀ t ∈ Set.Icc x₀ x₂, HasDerivAt φ (σ t) t ∧ a ≤ σ t ∧ σ t ≤ b := by
        have e : min (0 + 2) ((x₂ :: rest).length + 1) = 2 := by simp
        rw [e] at hb
        simpa using hb
      have s1 := secant_between h01 (fun t ht => hb' t ⟨ht.1, ht.2.trans h12.le⟩)
      have s2 := secant_between h12 (fun t ht => hb' t ⟨h01.le.trans ht.1, ht.2⟩)
      have d1 : 0 < x₁ - x₀ := by linarith
      have d2 : 0 < x₂ - x₁ := by linarith
      have m := mean_between d1 d2 s1 s2
      rw [← three_point d1 d2] at m
      simpa [gradientTail] using m
    · have e : min (j + 1 + 2) ((x₂ :: rest).length + 1) = min (j + 2) (rest.length + 1) + 1 := by
        simp only [List.length_cons]; omega
      rw [e] at hb
      have := hi j (by simpa using hj) a b (by simpa using hb)
      simpa [gradientTail] using this

/-- `np.gradient` of a differentiable function on increasing points: every value is between all bounds of the
derivative on the neighbouring intervals. -/
theorem gradient_between {φ σ : ℝ → ℝ} {x : List ℝ} (hx : x.Pairwise (· < ·)) (h2 : 2 ≤ x.length) :
    ∃ g : List ℝ, gradient (x.map φ) x = .ok g ∧ g.length = x.length ∧ ∀ i < x.length, ∀ a b : ℝ,
      (∀ t ∈ Set.Icc (x.getD (i - 1) 0) (x.getD (min (i + 1) (x.length - 1)) 0),
        HasDerivAt φ (σ t) t ∧ a ≤ σ t ∧ σ t ≤ b) → a ≤ g.getD i 0 ∧ g.getD i 0 ≤ b := by
  match x, h2 with
  | x₀ :: x₁ :: rest, _ =>
    obtain ⟨hl, hi⟩ := tail_between (φ := φ) (σ := σ) rest x₀ x₁ hx
    refine ⟨_, by simp [gradient]; rfl, by simpa using hl, ?_⟩
    intro i hii a b hb
    have h01 : x₀ < x₁ := by simp at hx; exact hx.1.1
    rcases i with _ | i
    · simp at hb
      simpa using secant_between h01 (fun t ht => hb t ht.1 ht.2)
    · have e : min (i + 1 + 1) ((x₀ :: x₁ :: rest).length - 1) = min (i + 2) (rest.length + 1) := by
        simp only [List.length_cons]; omega
      rw [e] at hb
      have := hi i (by simpa using hii) a b hb
      simpa using this

/-- One interval of the trapezoidal rule for `R Σ(R)` with a decreasing `Σ`. -/
theorem panel {f : ℝ → ℝ} {a b : ℝ} (ha : 0 < a) (h : a ≤ b) (hf : AntitoneOn f (Set.Ioi 0)) :
    IntervalIntegrable (fun r => 2 * Real.pi * r * f r) MeasureTheory.volume a b ∧
    Real.pi * (b ^ 2 - a ^ 2) * f b ≤ (∫ r in a..b, 2 * Real.pi * r * f r) ∧
    (∫ r in a..b, 2 * Real.pi * r * f r) ≤ Real.pi * (b ^ 2 - a ^ 2) * f a := by
  have hpi := Real.pi_pos
  have hsub : Set.uIcc a b ⊆ Set.Ioi 0 := by
    rw [Set.uIcc_of_le h]
    intro t ht
    exact lt_of_lt_of_le ha ht.1
  have hi : IntervalIntegrable f MeasureTheory.volume a b := (hf.mono hsub).intervalIntegrable
  have hint : IntervalIntegrable (fun r => 2 * Real.pi * r * f r) MeasureTheory.volume a b := by
    have := hi.continuousOn_mul (g := fun r : ℝ => 2 * Real.pi * r) (by fun_prop)
    simpa using this
  have hc : ∀ c : ℝ, (∫ r in a..b, 2 * Real.pi * r * c) = Real.pi * (b ^ 2 - a ^ 2) * c := by
    intro c
    have : ∀ r : ℝ, 2 * Real.pi * r * c = 2 * Real.pi * c * r := fun r => by ring
    simp_rw [this]
    rw [intervalIntegral.integral_const_mul, integral_id]
    ring
  have hic : ∀ c : ℝ, IntervalIntegrable (fun r => 2 * Real.pi * r * c) MeasureTheory.volume a b := fun c =>
    Continuous.intervalIntegrable (by fun_prop) _ _
  refine ⟨hint, ?_, ?_⟩
  · rw [← hc]
    apply intervalIntegral.integral_mono_on h (hic _) hint
    intro r hr
    have h0 : 0 < r := lt_of_lt_of_le ha hr.1
    have := hf (show r ∈ Set.Ioi 0 from h0) (show b ∈ Set.Ioi 0 from ha.trans_le h) hr.2
    exact mul_le_mul_of_nonneg_left this (by positivity)
  · rw [← hc]
    apply intervalIntegral.integral_mono_on h hint (hic _)
    intro r hr
    have h0 : 0 < r := lt_of_lt_of_le ha hr.1
    have := hf (show a ∈ Set.Ioi 0 from ha) (show r ∈ Set.Ioi 0 from h0) hr.1
    exact mul_le_mul_of_nonneg_left this (by positivity)

/-- The trapezoidal rule for `2 π R Σ(R)` with a decreasing `Σ ≥ 0` on points whose ratio is `q`. -/
theorem trapezoid_geometric {f : ℝ → ℝ} {q : ℝ} (hq : 1 < q) (hf : AntitoneOn f (Set.Ioi 0)) (rest : List ℝ) :
    ∀ x : ℝ, 0 < x → (x :: rest).IsChain (fun a b => b = q * a) →
    trapezoid ((x :: rest).map fun r => f r * 2 * Real.pi * r) (x :: rest)
      ≤ q ^ 2 * ∫ r in (x / q)..((x :: rest).getLast (by simp) / q), 2 * Real.pi * r * f r ∧
    (∫ r in (q * x)..(q * (x :: rest).getLast (by simp)), 2 * Real.pi * r * f r)
      ≤ q ^ 2 * trapezoid ((x :: rest).map fun r => f r * 2 * Real.pi * r) (x :: rest) ∧
    x ≤ (x :: rest).getLast (by simp) := by
  have hpi := Real.pi_pos
  have hq0 : 0 < q := by linarith
  induction rest with
  | nil => intro x hx _; simp [trapezoid]
  | cons y rest ih =>
    intro x hx hc
    obtain ⟨hy, hc'⟩ := List.isChain_cons_cons.1 hc
    have hxy : x < y := by rw [hy]; nlinarith
    have hy0 : 0 < y := hx.trans hxy
    obtain ⟨i1, i2, i3⟩ := ih y hy0 hc'
    have hlast : (x :: y :: rest).getLast (by simp) = (y :: rest).getLast (by simp) := by simp
    rw [hlast]
    set L := (y :: rest).getLast (by simp) with hL
    have hmono : f y ≤ f x := hf (show x ∈ Set.Ioi 0 from hx) (show y ∈ Set.Ioi 0 from hy0) hxy.le
    have et : trapezoid ((x :: y :: rest).map fun r => f r * 2 * Real.pi * r) (x :: y :: rest)
        = Real.pi * (y - x) * (x * f x + y * f y) + trapezoid ((y :: rest).map fun r => f r * 2 * Real.pi * r) (y :: rest) := by
      simp only [List.map_cons, trapezoid]
      ring
    have hup : Real.pi * (y - x) * (x * f x + y * f y) ≤ Real.pi * (y ^ 2 - x ^ 2) * f x := by
      have : 0 ≤ Real.pi * (y - x) * y * (f x - f y) := by
        have : 0 ≤ y - x := by linarith
        have : 0 ≤ f x - f y := by linarith
        positivity
      nlinarith
    have hlo : Real.pi * (y ^ 2 - x ^ 2) * f y ≤ Real.pi * (y - x) * (x * f x + y * f y) := by
      have : 0 ≤ Real.pi * (y - x) * x * (f x - f y) := by
        have : 0 ≤ y - x := by linarith
        have : 0 ≤ f x - f y := by linarith
        positivity
      nlinarith
    have hxq : y / q = x := by rw [hy]; field_simp
    obtain ⟨p1, p2, _⟩ := panel (f := f) (a := x / q) (b := x) (by positivity)
      ((div_le_iff₀ hq0).2 (by nlinarith)) hf
    obtain ⟨r1, _, r3⟩ := panel (f := f) (a := y) (b := q * y) hy0 (by nlinarith) hf
    have j1 : IntervalIntegrable (fun r => 2 * Real.pi * r * f r) MeasureTheory.volume x (L / q) :=
      (panel hx (by rw [← hxq]; gcongr) hf).1
    have j2 : IntervalIntegrable (fun r => 2 * Real.pi * r * f r) MeasureTheory.volume (q * y) (q * L) :=
      (panel (by positivity) (by gcongr) hf).1
    rw [et]
    refine ⟨?_, ?_, hxy.le.trans i3⟩
    · rw [← intervalIntegral.integral_add_adjacent_intervals p1 j1]
      rw [hxq] at i1
      have e : Real.pi * (y ^ 2 - x ^ 2) * f x = q ^ 2 * (Real.pi * (x ^ 2 - (x / q) ^ 2) * f x) := by
        rw [hy]; field_simp
      nlinarith [mul_le_mul_of_nonneg_left p2 (sq_nonneg q)]
    · have hyx : q * x = y := hy.symm
      rw [hyx, ← intervalIntegral.integral_add_adjacent_intervals r1 j2]
      have e : Real.pi * ((q * y) ^ 2 - y ^ 2) * f y = q ^ 2 * (Real.pi * (y ^ 2 - x ^ 2) * f y) := by
        rw [hy]; ring
      nlinarith [mul_le_mul_of_nonneg_left hlo (sq_nonneg q)]

end PyHalo.Slopes
