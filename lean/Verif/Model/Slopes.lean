import Verif.Model.Profiles
import Verif.Model.Tnfw

/-!
# Numerical slopes, convergences and projected masses of halos

Models `logarithmic_profile_slope` of `pyHalo/Halos/halo_base.py`, `mass_2d` and `log_slope_2d` of
`pyHalo/Halos/HaloModels/NFW_core_trunc.py` and `kappa` of `pyHalo/Halos/HaloModels/core_collapsed_halo.py`.
The profiles of lenstronomy they evaluate are parameters. Radii are arrays; only the slope of the density accepts a number.
-/

namespace PyHalo
namespace Slopes
open Prof (Scale Tnfwc)

/-- The values of `np.gradient(f, x)` after the first one: inside, the weighted mean of the two neighbouring difference
quotients that numpy writes as `a f[i-1] + b f[i] + c f[i+1]` (for equal steps the same number is written
`(f[i+1] - f[i-1]) / (2 dx)`); at the end the last difference quotient. Used in `halo_base.py` 263,
`NFW_core_trunc.py` 103, `core_collapsed_halo.py` 94. -/
noncomputable def gradientTail : List ℝ → List ℝ → List ℝ
  | f₀ :: f₁ :: f₂ :: f, x₀ :: x₁ :: x₂ :: x =>
    let d₁ := x₁ - x₀
    let d₂ := x₂ - x₁
    (-d₂ / (d₁ * (d₁ + d₂)) * f₀ + (d₂ - d₁) / (d₁ * d₂) * f₁ + d₁ / (d₂ * (d₁ + d₂)) * f₂)
      :: gradientTail (f₁ :: f₂ :: f) (x₁ :: x₂ :: x)
  | [f₀, f₁], [x₀, x₁] => [(f₁ - f₀) / (x₁ - x₀)]
  | _, _ => []

/-- `np.gradient(f, x)` for arrays of one dimension. Used in `halo_base.py` 263, `NFW_core_trunc.py` 103,
`core_collapsed_halo.py` 94. -/
noncomputable def gradient (f x : List ℝ) : Except Err (List ℝ) :=
  if f.length ≠ x.length then .error (.valueError "when 1d, distances must match the length of the corresponding dimension")
  else
    match f, x with
    | f₀ :: f₁ :: _, x₀ :: x₁ :: _ => .ok ((f₁ - f₀) / (x₁ - x₀) :: gradientTail f x)
    | _, _ => .error (.valueError "Shape of array too small to calculate a numerical gradient")

/-- `_logarithmic_profile_slope_array`, `halo_base.py` 252-263, for positive radii and densities. -/
noncomputable def logSlopeArray (density : ℝ → ℝ) (r : List ℝ) : Except Err (List ℝ) :=
  gradient ((r.map density).map Real.log) (r.map Real.log)

/-- `logarithmic_profile_slope` for a number, `halo_base.py` 238-248. -/
noncomputable def logSlope (density : ℝ → ℝ) (r : ℝ) : Except Err ℝ := do
  let l ← logSlopeArray density [r, r + 0.001 * r]
  match l with
  | [] => .error .indexError
  | v :: _ => pure v

/-- `density_profile_3d` of `NFWFieldHalo`, `NFW.py` 28-36, without `scaling`. -/
noncomputable def nfwDensity (rhos rs r : ℝ) : ℝ := rhos / (r / rs) / (1 + r / rs) ^ 2

/-- `Hybrid.density_profile_3d`, `NFW_core_trunc.py` 385-393. -/
noncomputable def hybridDensity (w : ℝ) (tnfw tnfwc : ℝ → ℝ) (r : ℝ) : ℝ := tnfw r * (1 - w) + tnfwc r * w

/-- `CoreCollapsedHalo.kappa`, `core_collapsed_halo.py` 86-95: `deflection` is `deflection_angle` (63-84), `r` in kpc. -/
noncomputable def kappa (s : Scale) (deflection : ℝ → ℝ) (r : List ℝ) : Except Err (List ℝ) := do
  let ra := r.map (· / s.kpa)
  let alpha := ra.map deflection
  let g ← gradient alpha ra
  pure ((List.zip (List.zip alpha ra) g).map fun p => 0.5 * (p.1.1 / p.1.2 + p.2))

/-- The convergence `NFW_core_trunc.py` 74-79 and 94-100 form of the second derivatives at `(x, 0)`. -/
noncomputable def convergence (hessian : ℝ → ℝ → Tnfwc → ℝ × ℝ) (p : Tnfwc) (x : ℝ) : ℝ :=
  0.5 * ((hessian x 0 p).1 + (hessian x 0 p).2)

/-- The radii of `NFW_core_trunc.py` 71: `np.logspace(-3.5, 0, 5000) * rmax / kpc_per_arcsec`. -/
noncomputable def radii2d (s : Scale) (rmax : ℝ) : List ℝ :=
  (Np.linspace (-3.5) 0 5000).map fun u => (10 : ℝ) ^ u * rmax / s.kpa

/-- `mass_2d`, `NFW_core_trunc.py` 61-82, for a number `rmax` in kpc. -/
noncomputable def mass2d (hessian : ℝ → ℝ → Tnfwc → ℝ × ℝ) (s : Scale) (p : Tnfwc) (rmax : ℝ) : ℝ :=
  let x := radii2d s rmax
  let sigmaArcsec := s.sigmaCrit * 1e-6 * s.kpa ^ 2
  Collapsed.trapezoid (x.map fun q => convergence hessian p q * 2 * Real.pi * q) x * sigmaArcsec

/-- `log_slope_2d`, `NFW_core_trunc.py` 84-104. -/
noncomputable def logSlope2d (hessian : ℝ → ℝ → Tnfwc → ℝ × ℝ) (s : Scale) (p : Tnfwc) (r : List ℝ) : Except Err (List ℝ) :=
  let ra := r.map (· / s.kpa)
  gradient ((ra.map (convergence hessian p)).map Real.log) (ra.map Real.log)

end Slopes
end PyHalo
