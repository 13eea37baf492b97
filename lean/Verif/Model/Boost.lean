import Verif.Model.LensCosmo
import Mathlib.MeasureTheory.Integral.IntervalIntegral.Basic

/-!
# The two-halo boost and NFW parameters from mass and redshift

Models `two_halo_boost`, `twohaloterm` and `NFW_params_physical_fromMZ` of `pyHalo/Halos/lens_cosmo.py`. The two-halo term and mean
density of colossus and its concentration-mass relation are parameters.
-/

namespace PyHalo
namespace LensCosmo

/-- colossus' `twoHaloTerm(r, M, z)` (lengths in Mpc/h as passed, masses in `M_sun / h`) and `rho_m(z)`, called in `lens_cosmo.py` 173. -/
structure Correlated where
  term : ℝ → ℝ → ℝ → ℝ
  rhoM : ℝ → ℝ

/-- `twohaloterm`, `lens_cosmo.py` 159-174. -/
noncomputable def twoHaloTerm (K : Correlated) (h r M z : ℝ) : ℝ :=
  let mh := M * h
  let rh := r * h
  K.term rh mh z / K.rhoM z

/-- `two_halo_boost`, `lens_cosmo.py` 140-157. The quadrature is the exact integral. Equal limits divide by zero. -/
noncomputable def twoHaloMeanBoost (K : Correlated) (h m200 z rmin rmax : ℝ) : Except Err ℝ :=
  if rmax - rmin = 0 then .error (.exception "float division by zero")
  else .ok (1 + 2 * (∫ r in rmin..rmax, twoHaloTerm K h r m200 z) / (rmax - rmin))

/-- `_mc_model` without scatter, `lens_cosmo.py` 246-256 and `concentration.py` 36-59 for a number: `dj` is the relation of Diemer &
Joyce in colossus. -/
noncomputable def medianConcentration (dj : ℝ → ℝ → ℝ) (m z : ℝ) : ℝ := max (dj m z) 1.2

/-- `NFW_params_physical_fromMZ`, `lens_cosmo.py` 258-271. -/
noncomputable def nfwParamFromMZ (e : Env) (dj : ℝ → ℝ → ℝ) (m z scale : ℝ) (pseudo : Option Bool) : Except Err (ℝ × ℝ × ℝ) :=
  let c := scale * medianConcentration dj m z
  nfwParamKpc e m c z pseudo

end LensCosmo
end PyHalo
