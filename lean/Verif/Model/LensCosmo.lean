import Verif.Model.Cosmology
import Verif.Model.Geometry

/-!
# Model of `pyHalo/Halos/lens_cosmo.py` (structural parameters and lensing quantities)

`rhoc z` is lenstronomy's `NFWParam.rhoc_z` (critical density in `h² M_sun / Mpc³`); `r200_M` and
`rho0_c` are lenstronomy's formulas, reproduced from its documentation.
-/

namespace PyHalo
namespace LensCosmo

/-- What the modelled methods use of a `LensCosmo`: the Hubble parameter, the critical density, the
distances, physical constants. `lens_cosmo.py` 30-73. -/
structure Env where
  h : ℝ
  rhoc : ℝ → ℝ
  DA : ℝ → ℝ → ℝ
  DAz : ℝ → ℝ
  zSource : ℝ
  c : ℝ
  G : ℝ
  Om0 : ℝ

/-- lenstronomy `NFWParam.r200_M` (library formula, `M` in `M_sun / h`). Called in `lens_cosmo.py` 237. -/
noncomputable def r200M (e : Env) (M z : ℝ) : ℝ :=
  (3 * M / (4 * Real.pi * e.rhoc z * 200)) ^ (1 / 3 : ℝ)

/-- lenstronomy `NFWParam.rho0_c` (library formula). Called in `lens_cosmo.py` 241. -/
noncomputable def rho0c (e : Env) (c z : ℝ) : ℝ :=
  200 / 3 * e.rhoc z * c ^ 3 / (Real.log (1 + c) - c / (1 + c))

/-- `rho0_c_pseudoNFW`, `lens_cosmo.py` 17-26. -/
noncomputable def rho0cPseudo (e : Env) (c z : ℝ) : ℝ :=
  2 * c ^ 3 * e.rhoc z * 200 / (3 * Real.log (1 + c ^ 2))

/-- `rN_M`, `lens_cosmo.py` 211-222. -/
noncomputable def rNM (e : Env) (M z N : ℝ) : ℝ :=
  (3 * M / (4 * Real.pi * e.rhoc z * N)) ^ (1 / 3 : ℝ) / e.h

/-- `nfwParam_physical`, `lens_cosmo.py` 224-243: `(rho0, Rs, r200)` in Mpc units. The argument
`pseudo_nfw` is `none` for python's `None`. -/
noncomputable def nfwParam (e : Env) (m c z : ℝ) (pseudo : Option Bool) : Except Err (ℝ × ℝ × ℝ) :=
  match pseudo with
  | none => .error (.exception "psuedo_nfw must be specified in Halo class when accessing nfw parameters!")
  | some p =>
    let r200 := r200M e (m * e.h) z / e.h
    let rho0 := if p then rho0cPseudo e c z * e.h ^ 2 else rho0c e c z * e.h ^ 2
    .ok (rho0, r200 / c, r200)

/-- `NFW_params_physical`, `lens_cosmo.py` 273-285: the same in kpc units. -/
noncomputable def nfwParamKpc (e : Env) (m c z : ℝ) (pseudo : Option Bool) :
    Except Err (ℝ × ℝ × ℝ) := do
  let (rho0, rs, r200) ← nfwParam e m c z pseudo
  pure (rho0 * ((1000 : ℝ) ^ 3)⁻¹, rs * 1000, r200 * 1000)

/-- `get_sigma_crit_lensing`, `lens_cosmo.py` 347-360. -/
noncomputable def sigmaCrit (e : Env) (z1 z2 : ℝ) : ℝ :=
  let dInv := e.DAz z2 * (e.DA z1 z2)⁻¹ * (e.DAz z1)⁻¹
  (e.c ^ 2 * (4 * Real.pi * e.G)⁻¹) * dInv

/-- `sigma_crit_mass`, `lens_cosmo.py` 287-296. -/
noncomputable def sigmaCritMass (e : Env) (z area : ℝ) : ℝ := area * sigmaCrit e z e.zSource

/-- `point_mass_factor_z`, `lens_cosmo.py` 374-390 (`self.D_s` is `D_A_z(z_source)`, line 59). -/
noncomputable def pointMassFactor (e : Env) (z : ℝ) : ℝ :=
  let factor := 4 * e.G * (e.c ^ 2)⁻¹ * (e.DA z e.zSource / e.DAz z / e.DAz e.zSource)
  factor ^ (0.5 : ℝ) / arcsec

/-- `nfw_physical2angle_fromNFWparams`, `lens_cosmo.py` 191-209. -/
noncomputable def nfwAngles (e : Env) (rho0 rs z : ℝ) (pseudo : Bool) : ℝ × ℝ :=
  let dd := e.DAz z
  let rsAngle := rs / dd / arcsec
  let alpha := if pseudo then
      rho0 * (4 * rs ^ 2 * (Real.sqrt 2 * Real.log (1 + Real.sqrt 2) + Real.log (1 / 2)))
    else rho0 * (4 * rs ^ 2 * (1 + Real.log (1 / 2)))
  (rsAngle, alpha / sigmaCrit e z e.zSource / dd / arcsec)

/-- `halfmode_to_thermal`, `lens_cosmo.py` 317-328. -/
noncomputable def halfmodeToThermal (e : Env) (mhm : ℝ) : ℝ :=
  2.32 * (e.Om0 / 0.25) ^ (0.4 : ℝ) * (e.h / 0.7) ^ (0.8 : ℝ) * (mhm / 10 ^ 9) ^ (-0.3 : ℝ)

/-- The function minimised by `mthermal_to_halfmode`, `lens_cosmo.py` 313-314 (the minimiser itself
is scipy's). -/
noncomputable def thermalObjective (e : Env) (mThermal m : ℝ) : ℝ :=
  |halfmodeToThermal e m - mThermal| / 0.01

/-- `mhm_to_fsl`, `lens_cosmo.py` 330-341; `rho` is `self.rhoc * self.cosmo.h ** 2`. -/
noncomputable def mhmToFsl (rho mhm : ℝ) : ℝ :=
  2 * (3 * mhm / (4 * Real.pi * rho)) ^ (1 / 3 : ℝ) / 13.93

/-- `sidm_halo_effective_age`, `lens_cosmo.py` 409-423, on top of an age function `age z zform`
(`cosmo.halo_age`). -/
noncomputable def effectiveAge (age : ℝ → ℝ → Except Err ℝ) (z zInfall lambdaT zform : ℝ) :
    Except Err ℝ := do
  let zi := if zInfall > 10 then 10 else zInfall
  let t1 ← age zi zform
  let t2 ← age z zi
  pure (t1 + lambdaT * t2)

/-- `sidm_collapse_timescale`, `lens_cosmo.py` 425-440. -/
noncomputable def collapseTimescale (rhos rs sigma : ℝ) : ℝ :=
  let denom := 2.0889e-10 * sigma * rhos * rs * Real.sqrt (4 * Real.pi * 4.3e-6 * rhos * 1.05e-33)
  150 / 0.75 / denom * 3.171e-17

/-- `nfw_vmax`, `lens_cosmo.py` 442-452. -/
noncomputable def nfwVmax (rhos rs : ℝ) : ℝ := 1.64 * Real.sqrt (4.3e-6 * rhos * rs ^ 2)

/-- `halo_dynamical_time`, `lens_cosmo.py` 392-407. -/
noncomputable def dynamicalTime (e : Env) (mHost z cHost : ℝ) : Except Err ℝ := do
  let (rhos, rs, r200) ← nfwParamKpc e mHost cHost z (some false)
  pure (3.086 * 10 ^ 16 * (3.17e-17) * r200 / nfwVmax rhos rs)

/-- `mean_free_path`, `lens_cosmo.py` 454-466. -/
noncomputable def meanFreePath (density cross : ℝ) : ℝ :=
  1.0 / (density * 1.99e33 / (3.086e21) ^ 3 * cross) / 3.086e21

end LensCosmo
end PyHalo
