import Verif.Model.Realization
import Verif.Model.Numpy
import Mathlib.Analysis.SpecialFunctions.Pow.Real
import Mathlib.Data.Complex.Basic

/-!
# Power spectra, power-law fits and multi-plane convergence maps

Models `xi_l_to_Pk_l` and `fit_correlation_multipole` of `pyHalo/realization_extensions.py` and `multiplane_convergence` of
`pyHalo/utilities.py`. The Hankel transform of mcfit, the fit of scipy and the lens model of lenstronomy are parameters.
-/

namespace PyHalo
namespace Spectrum

/-- mcfit's `Hankel(r, nu=l, lowring=True)` applied to real values (`extrap` is the last argument): wavenumbers and real values.
Used in `realization_extensions.py` 1431-1432. -/
abbrev Hankel : Type := List ℝ → ℕ → List ℝ → Bool → List ℝ × List ℝ

/-- `xi_l_to_Pk_l`, `realization_extensions.py` 1412-1436, for arrays of the same length. -/
noncomputable def xiToPk (H : Hankel) (r xi : List ℝ) (l : ℕ) (extrapolate : Bool) : List ℝ × List ℝ :=
  let kept := (List.zip r xi).filter fun p => decide (p.1 ≠ 0)
  let prefactor : ℂ := 2 * Real.pi * (-Complex.I) ^ l
  let out := H (kept.map Prod.fst) l (kept.map Prod.snd) extrapolate
  (out.1, out.2.map fun v : ℝ => ((v : ℂ) * prefactor).re)

/-- scipy's `curve_fit(func, x, y)` for a function with two parameters: it refuses fewer than two points.
Used in `realization_extensions.py` 1457. -/
noncomputable def curveFit (solver : (ℝ → ℝ → ℝ → ℝ) → List (ℝ × ℝ) → ℝ × ℝ) (f : ℝ → ℝ → ℝ → ℝ) (pts : List (ℝ × ℝ)) :
    Except Err (ℝ × ℝ) :=
  if pts = [] then .error (.valueError "`ydata` must not be empty!")
  else if pts.length < 2 then .error (.typeError "The number of func parameters=2 must not exceed the number of data points")
  else .ok (solver f pts)

/-- `fit_correlation_multipole`, `realization_extensions.py` 1438-1461, for arrays of the same length. -/
noncomputable def fitMultipole (solver : (ℝ → ℝ → ℝ → ℝ) → List (ℝ × ℝ) → ℝ × ℝ) (r xi : List ℝ) (rMin rMax : ℝ) :
    Except Err (ℝ × ℝ) :=
  let rPivot := (rMin + rMax) / 2
  let pts := (List.zip r xi).filter fun p => decide (rMin < p.1 ∧ p.1 < rMax)
  let func := fun x As n : ℝ => As * (x / rPivot) ^ n
  curveFit solver func pts

/-- lenstronomy's `LensModel`, used in `utilities.py` 365-373: the convergence of a single-plane model at a point, and of a multi-plane
model with the redshift of each component and the redshift of the source. -/
structure Lens (Kw : Type) where
  kappa : List String → List Kw → ℝ → ℝ → ℝ
  kappaMulti : List String → List ℝ → ℝ → List Kw → ℝ → ℝ → ℝ

/-- `realization.lensing_quantities()` as used in `utilities.py` 357: names, redshifts and keyword arguments. -/
structure Quantities (Kw : Type) where
  names : List String
  redshifts : List ℝ
  kwargs : List Kw

/-- The three optional arguments of `multiplane_convergence` that describe the main deflector. `utilities.py` 340-341. -/
structure Macro (Kw : Type) where
  names : Option (List String)
  kwargs : Option (List Kw)
  redshifts : Option (List ℝ)

/-- What `multiplane_convergence` returns: the map, the names and redshifts in its lens model, their keyword arguments, and the names and
keyword arguments of the main deflector alone. `utilities.py` 375. -/
structure Map (Kw : Type) where
  delta : List (List ℝ)
  names : List String
  redshifts : List ℝ
  kwargs : List Kw
  macroNames : List String
  macroKwargs : List Kw

/-- The main deflector that is used, `utilities.py` 358-363: `epl`, `shear` are the two dictionaries written there. Without keyword
arguments or redshifts for given names a list is added to `None`; the macromodel is evaluated with `None` before (372), which is not
modelled apart from the exception. -/
def macroOf {Kw : Type} (epl shear : Kw) (zLens : ℝ) (m : Macro Kw) : Except Err (List String × List Kw × List ℝ) :=
  match m.names with
  | none => .ok (["EPL", "SHEAR"], [epl, shear], List.replicate 2 zLens)
  | some names =>
    match m.redshifts, m.kwargs with
    | some z, some kw => .ok (names, kw, z)
    | _, _ => .error (.typeError "unsupported operand type(s) for +: 'NoneType' and 'list'")

/-- `multiplane_convergence`, `utilities.py` 340-375. Row `i` of the map has the ordinate `_r[i]`, column `j` the abscissa `_r[j]`
(`meshgrid`, `ravel`, `reshape`). -/
noncomputable def multiplane {Kw : Type} (L : Lens Kw) (epl shear : Kw) (q : Quantities Kw) (zLens zSource : ℝ) (m : Macro Kw)
    (angle : ℝ) (npix : ℕ) : Except Err (Map Kw) := do
  let (names, kw, z) ← macroOf epl shear zLens m
  let allNames := names ++ q.names
  let allZ := z ++ q.redshifts
  let allKw := kw ++ q.kwargs
  let r := Np.linspace (-angle / 2) (angle / 2) npix
  let delta := r.map fun y => r.map fun x => L.kappaMulti allNames allZ zSource allKw x y - L.kappa names kw x y
  pure ⟨delta, allNames, allZ, allKw, names, kw⟩

end Spectrum
end PyHalo
