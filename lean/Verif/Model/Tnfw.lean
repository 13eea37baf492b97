import Verif.Model.Realization
import Mathlib.Analysis.SpecialFunctions.Pow.Real
import Mathlib.Analysis.SpecialFunctions.Trigonometric.Inverse
import Mathlib.MeasureTheory.Integral.IntervalIntegral.Basic

/-!
# Truncated NFW profiles: density, slope, cubic solver, mass fraction

Models `pyHalo/Halos/tnfw_halo_util.py` and the static methods of
`pyHalo/Halos/HaloModels/TNFW.py` that use it.
-/

namespace PyHalo
namespace Tnfw

/-- `numpy.cbrt`: the real cube root. Used in `tnfw_halo_util.py` 84. -/
noncomputable def cbrt (x : ℝ) : ℝ :=
  if 0 ≤ x then x ^ ((1 : ℝ) / 3) else -(-x) ^ ((1 : ℝ) / 3)

/-- `tnfw_density_profile`, `tnfw_halo_util.py` 7-20. -/
noncomputable def densityProfile (r rhos rs rt : ℝ) : ℝ :=
  let x := r / rs
  let tau := rt / rs
  let nfw := rhos / (x * (1 + x) ^ 2)
  let truncation := tau ^ 2 / (x ^ 2 + tau ^ 2)
  nfw * truncation

/-- `cubic_real_roots`, `tnfw_halo_util.py` 63-89. `x ** 0.5` of a non-negative number is
`Real.sqrt`. -/
noncomputable def cubicRealRoots (a b c d : ℝ) : List ℝ :=
  if |a| < 1e-14 then
    if |b| < 1e-14 then
      if |c| < 1e-14 then [] else [-d / c]
    else
      let disc := c * c - 4 * b * d
      if disc < 0 then []
      else
        let s := Real.sqrt disc
        [(-c + s) / (2 * b), (-c - s) / (2 * b)]
  else
    let b := b / a
    let c := c / a
    let d := d / a
    let p := c - b * b / 3
    let q := 2 * b ^ 3 / 27 - b * c / 3 + d
    let off := -b / 3
    let disc := (q / 2) ^ 2 + (p / 3) ^ 3
    if 0 < disc then
      let s := Real.sqrt disc
      [cbrt (-q / 2 + s) + cbrt (-q / 2 - s) + off]
    else
      let r := if p < 0 then Real.sqrt (-(p / 3)) else 0
      if r = 0 then [off, off, off]
      else
        let phi := Real.arccos (max (-1) (min 1 ((-q / 2) / r ^ 3)))
        (List.range 3).map fun (k : ℕ) => 2 * r * Real.cos ((phi + 2 * Real.pi * k) / 3) + off

/-- `TNFWFieldHalo.log_profile_slope`, `TNFW.py` 253-264. -/
noncomputable def logProfileSlope (r rs rt : ℝ) : ℝ :=
  let x := r / rs
  let t := rt / rs
  (-5) + 2 / (1 + x) + (2 * t ^ 2) / (t ^ 2 + x ^ 2)

/-- `TNFWFieldHalo.log_derivative_inverse`, `TNFW.py` 244-251: `x[0]` of an empty list raises an
`IndexError`. -/
noncomputable def logDerivativeInverse (gamma rs rt : ℝ) : Except Err ℝ :=
  let tau := rt / rs
  let A := -gamma - 5
  let roots := cubicRealRoots A (A + 2) ((A + 2) * tau ^ 2) ((A + 4) * tau ^ 2)
  match roots.filter (fun r => 0 < r) with
  | [] => .error (.exception "IndexError")
  | x :: _ => .ok (x * rs)

/-- `lenstronomy`'s `TNFW().mass_3d(R, Rs, rho0, r_trunc)`: external code, taken to be the mass of
the truncated density inside `R` (lenstronomy's documented meaning); `r_trunc` and `R` in the same
unit as `Rs`. Used in `TNFW.py` 134-146. -/
noncomputable def mass3d (R rs rho0 rt : ℝ) : ℝ :=
  ∫ r in (0 : ℝ)..R, 4 * Real.pi * r ^ 2 * densityProfile r rho0 rs rt

/-- `tnfw_mass_fraction`, `tnfw_halo_util.py` 22-36. -/
noncomputable def massFraction (tau c : ℝ) : ℝ :=
  let rs := 1
  let rho0 := 1 / (4 * Real.pi * rs ^ 3)
  let m := mass3d c rs rho0 tau
  let nfw := Real.log (1 + c) - c / (1 + c)
  m / nfw

end Tnfw
end PyHalo
