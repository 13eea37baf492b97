import Verif.Model.LensCosmo
import Mathlib.MeasureTheory.Integral.IntervalIntegral.Basic

/-!
# Fluctuations of the host halo made of ultra-light dark matter

Models `delta_kappa`, `delta_sigma`, `projected_density_squared` and `nfw_velocity_dispersion` of `pyHalo/utilities.py`. scipy's `quad` is
the integral; `simps` is a parameter.
-/

namespace PyHalo
namespace Host

open LensCosmo

/-- `projected_density_squared`, `utilities.py` 270-288. For a radius outside of `r200` python's square root is nan; here it is zero. -/
noncomputable def projectedDensitySquared (rEin rhos rs concentration : ℝ) : ℝ :=
  let r200 := concentration * rs
  let zmax := Real.sqrt (r200 ^ 2 - rEin ^ 2)
  let x := fun z : ℝ => Real.sqrt (rEin ^ 2 + z ^ 2) / rs
  2 * ∫ z in (0 : ℝ)..zmax, rhos ^ 2 / (x z * (1 + x z) ^ 2) ^ 2

/-- `delta_sigma`, `utilities.py` 250-268: `conc` is the concentration-mass relation of Diemer and Joyce without scatter. -/
noncomputable def deltaSigma (e : Env) (conc : ℝ → ℝ → ℝ) (m z rein lambda : ℝ) : Except Err ℝ := do
  let c := conc m z
  let (rhos, rs, _) ← nfwParamKpc e m c z (some false)
  pure ((Real.sqrt Real.pi * projectedDensitySquared rein rhos rs c * lambda) ^ (0.5 : ℝ))

/-- `delta_kappa`, `utilities.py` 234-248. Its lens cosmology differs from that of `delta_sigma` only in the source redshift, which the
latter does not use. -/
noncomputable def deltaKappa (e : Env) (conc : ℝ → ℝ → ℝ) (zLens zSource m rein lambda : ℝ) : Except Err ℝ := do
  let sigma := sigmaCrit e zLens zSource * (1e-3) ^ 2
  let ds ← deltaSigma e conc m zLens rein lambda
  pure (ds / sigma)

/-- `nfw_velocity_dispersion`, `utilities.py` 290-304; `simps y x` is scipy's. -/
noncomputable def nfwVelocityDispersion (simps : List ℝ → List ℝ → ℝ) (rhos rs c x : ℝ) : ℝ :=
  let G := 4.3e-6
  let prefactor := 4 * Real.pi * G * rhos ^ 2 * rs ^ 2
  let density := rhos / (x * (1 + x) ^ 2)
  let integrand := fun x : ℝ => (Real.log (1 + x) - x / (1 + x)) / (x * (1 + x) ^ 2) / x ^ 2
  let xs := Np.linspace x c 150
  Real.sqrt (prefactor * simps (xs.map integrand) xs / density)

end Host
end PyHalo
