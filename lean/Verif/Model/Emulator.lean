import Verif.Model.MassLoss
import Verif.Model.Tnfw
import Verif.Model.LensCosmo
import Verif.Model.HaloObject
import Mathlib.Analysis.SpecialFunctions.Trigonometric.Arctan

/-!
# Truncation radii looked up from bound masses, and subhalos from an emulator

Models `tau_mf_interpolation` of `pyHalo/Halos/tnfw_halo_util.py` and
`pyHalo/Halos/HaloModels/TNFWemulator.py`.
-/

namespace PyHalo
namespace Emulator

/-- `scipy.interpolate.interp1d(x, y, fill_value='extrapolate')`: linear between the nodes, the first and last
segments continued outside. Used in `tnfw_halo_util.py` 54-56, `TNFWemulator.py` 38-41. -/
noncomputable def interp1d (X : Np.Axis) (y : ℕ → ℝ) (x : ℝ) : ℝ :=
  Np.lerp (X.frac x) (y (X.cell x)) (y (X.cell x + 1))

/-- `RegularGridInterpolator` on two axes with `bounds_error=False, fill_value=None`.
Used in `tnfw_halo_util.py` 58-59, `TNFWemulator.py` 43-44. -/
noncomputable def grid2 (A B : Np.Axis) (v : ℕ → ℕ → ℝ) (x y : ℝ) : ℝ :=
  Np.lerp (A.frac x) (interp1d B (v (A.cell x)) y) (interp1d B (v (A.cell x + 1)) y)

/-- The two nested loops that fill a table of `log10 tau`, `tnfw_halo_util.py` 52-56, `TNFWemulator.py` 35-41:
`T` holds `log10 tau`, `C` the concentration axis (`con` turns a node into a concentration), `F` the `log10` of the
mass fractions, `mf` is the mass fraction of a truncated profile. -/
noncomputable def fill (T C F : Np.Axis) (con : ℝ → ℝ) (mf : ℝ → ℝ → ℝ) (i j : ℕ) : ℝ :=
  interp1d ⟨T.n, fun k => Real.logb 10 (mf ((10 : ℝ) ^ T.g k) (con (C.g i)))⟩ T.g (F.g j)

/-- `np.log10(tau)` of `tau_mf_interpolation`, `tnfw_halo_util.py` 44-45. -/
noncomputable def tauNodes : Np.Axis := .linspace (-4.1) 2.3 100

/-- `tau_mf_interpolation` evaluated at a point, `tnfw_halo_util.py` 37-60. -/
noncomputable def log10Tau (log10c log10f : ℝ) : ℝ :=
  grid2 MassLoss.tauAxes.1 MassLoss.tauAxes.2
    (fill tauNodes MassLoss.tauAxes.1 MassLoss.tauAxes.2 (fun l => (10 : ℝ) ^ l) Tnfw.massFraction) log10c log10f

/-- The truncation radius in units of the scale radius that the Galacticus models give a halo,
`tidal_truncation.py` 258-262: the point is made to lie in bounds and looked up. -/
noncomputable def tauOfBound (log10c log10f : ℝ) : ℝ :=
  let p := MassLoss.tauPoint log10c log10f
  (10 : ℝ) ^ log10Tau p.1 p.2

/-- `tnfw_mass_fraction` of the emulator, `TNFWemulator.py` 7-23. -/
noncomputable def massFraction (tau c : ℝ) : ℝ :=
  let x := c
  let rs : ℝ := 1
  let t := tau * rs
  let func := (t ^ 2 * (-2 * x * (1 + t ^ 2) + 4 * (1 + x) * t * Real.arctan (x / t)
      - 2 * (1 + x) * (-1 + t ^ 2) * Real.log rs + 2 * (1 + x) * (-1 + t ^ 2) * Real.log (rs * (1 + x))
      + 2 * (1 + x) * (-1 + t ^ 2) * Real.log (rs * t)
      - (1 + x) * (-1 + t ^ 2) * Real.log (rs ^ 2 * (x ^ 2 + t ^ 2)))) / (2 * (1 + x) * (1 + t ^ 2) ^ 2)
  func / (Real.log (1 + c) - c / (1 + c))

/-- The axes of `tau_mf_interpolator`, `TNFWemulator.py` 27-31: `log10 tau`, concentration, `log10` of the mass
fraction. -/
noncomputable def axes : Np.Axis × Np.Axis × Np.Axis :=
  (.linspace (-3.5) 2.5 250, .linspace 1 200 250, .linspace (-4) (-0.001) 250)

/-- `_truncation_radius_interpolator(point)`, `TNFWemulator.py` 26-47. -/
noncomputable def log10TauEmu (c log10f : ℝ) : ℝ :=
  grid2 axes.2.1 axes.2.2 (fill axes.1 axes.2.1 axes.2.2 (fun c => c) massFraction) c log10f

/-- What a `TNFWSubhaloEmulator` is made from, `TNFWemulator.py` 54-76; `kpa` is `kpc_proper_per_asec(redshift)`,
`x`, `y` in kpc. -/
structure Sub where
  infallMass : ℝ
  x : ℝ
  y : ℝ
  boundMass : ℝ
  conc : ℝ
  z : ℝ
  kpa : ℝ

/-- The positions in arcsec handed to the base class, `TNFWemulator.py` 72-76. -/
noncomputable def Sub.pos (s : Sub) : ℝ × ℝ := (s.x / s.kpa, s.y / s.kpa)

/-- `nfw_physical2angle(mass, c, z)`, `lens_cosmo.py` 176-189, with the default `pseudo_nfw=False`. -/
noncomputable def Sub.angles (s : Sub) (e : LensCosmo.Env) : Except Err (ℝ × ℝ) := do
  let (rho0, rs, _) ← LensCosmo.nfwParam e s.infallMass s.conc s.z (some false)
  pure (LensCosmo.nfwAngles e rho0 rs s.z false)

/-- `profile_args`, `TNFWemulator.py` 117-131 (the cache `_profile_args` is left out: it stores this value). -/
noncomputable def Sub.profileArgs (s : Sub) (e : LensCosmo.Env) : Except Err (ℝ × ℝ) := do
  let (rsAngle, _) ← s.angles e
  let log10tau := log10TauEmu s.conc (Real.logb 10 (s.boundMass / s.infallMass))
  let rtOverRs := (10 : ℝ) ^ log10tau
  pure (s.conc, rsAngle * rtOverRs * s.kpa)

/-- `lenstronomy_params`, `TNFWemulator.py` 93-115, as `(alpha_Rs, Rs, center_x, center_y, r_trunc)`; `norm` is
`_rescale_norm`. (The cache is left out.) -/
noncomputable def Sub.lensParams (s : Sub) (e : LensCosmo.Env) (norm : ℝ) : Except Err (ℝ × ℝ × ℝ × ℝ × ℝ) := do
  let (_, rt) ← s.profileArgs e
  let (rsAngle, thetaRs) ← s.angles e
  pure (norm * HaloObj.round10 thetaRs, HaloObj.round10 rsAngle, HaloObj.round4 s.pos.1, HaloObj.round4 s.pos.2, rt / s.kpa)

end Emulator
end PyHalo
