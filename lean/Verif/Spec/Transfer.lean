import Mathlib.Analysis.SpecialFunctions.Pow.Real
import Mathlib.MeasureTheory.Integral.IntervalIntegral.Basic

/-!
# Specification vocabulary for density profiles
-/

namespace PyHalo.Spec

/-- The density of the generalized NFW profile in units of the scale density, at radius `x` in units of the scale
radius: `1 / (x^γ (1 + x^α)^((β - γ)/α))`. -/
noncomputable def gnfw (alpha beta gamma x : ℝ) : ℝ := 1 / (x ^ gamma * (1 + x ^ alpha) ^ ((beta - gamma) / alpha))

/-- The exponents for which closed forms of the enclosed mass are used. -/
inductive ClosedForm : ℝ → ℝ → ℝ → Prop
  | b3g0 : ClosedForm 1 3 0
  | b3g05 : ClosedForm 1 3 0.5
  | b3g1 : ClosedForm 1 3 1
  | b3g15 : ClosedForm 1 3 1.5
  | b4 (gamma : ℝ) (h : gamma < 3) : ClosedForm 1 4 gamma
  | a2b3g0 : ClosedForm 2 3 0
  | a2b3g1 : ClosedForm 2 3 1
  | a2b4g0 : ClosedForm 2 4 0
  | a2b4g1 : ClosedForm 2 4 1

/-- The mass of a shell per unit radius. -/
noncomputable def shell (alpha beta gamma x : ℝ) : ℝ := 4 * Real.pi * x ^ 2 * gnfw alpha beta gamma x

/-- The same for the profile truncated at `tau`. -/
noncomputable def shellTruncated (alpha beta gamma tau x : ℝ) : ℝ :=
  shell alpha beta gamma x * (1 / (1 + (x / tau) ^ 2))

/-- The exponents supported by the fitting functions. -/
inductive Fitted : ℝ → ℝ → ℝ → Prop
  | a1 (beta gamma : ℝ) (hb : beta = 3 ∨ beta = 4) (hg : gamma = 0 ∨ gamma = 0.5 ∨ gamma = 1 ∨ gamma = 1.5) :
      Fitted 1 beta gamma
  | a2 (beta : ℝ) (hb : beta = 3 ∨ beta = 4) : Fitted 2 beta 0

end PyHalo.Spec
