import Verif.Model.Profiles
import Verif.Model.Presets
import Mathlib.Analysis.SpecialFunctions.Log.Base
import Mathlib.Analysis.SpecialFunctions.Artanh

/-!
# Model of ultra-light dark matter

The composite halos of `pyHalo/Halos/HaloModels/ULDM.py`, `de_broglie_wavelength` and `MinHaloMassULDM` in
`pyHalo/utilities.py` and the preset `pyHalo/PresetModels/uldm.py`. The enclosed masses and densities of lenstronomy's
profiles `CNFW` and `ULDM` and scipy's minimiser are parameters; the masses are proportional to the amplitude, as in the
library.
-/

namespace PyHalo
namespace Uldm
open LensCosmo (nfwParamKpc nfwAngles sigmaCrit)
open HaloObj (round4)
open Collapsed (Dict)
open Preset

/-- `_zeta`, `ULDM.py` 119-126 and `utilities.py` 337-338; `om` is astropy's `Om(z)`. -/
noncomputable def zeta (om : ℝ → ℝ) (z : ℝ) : ℝ :=
  (18 * Real.pi ^ 2 + 82 * (om z - 1) - 39 * (om z - 1) ^ 2) / om z

/-- `_core_radius`, `ULDM.py` 93-105 (kpc). -/
noncomputable def coreRadius (om : ℝ → ℝ) (z log10m M plaw : ℝ) : ℝ :=
  let m22 := (10 : ℝ) ^ (log10m + 22)
  let a := 1 / (1 + z)
  let M9 := (10 : ℝ) ^ (Real.logb 10 M - 9)
  let Z := zeta om z / zeta om 0
  1.6 * m22 ^ (-1 : ℝ) * a ^ (1 / 2 : ℝ) * Z ^ (-1 / 6 : ℝ) * M9 ^ (-plaw)

/-- `_central_density`, `ULDM.py` 107-117. -/
noncomputable def centralDensity (z log10m rc : ℝ) : ℝ :=
  let m23 := (10 : ℝ) ^ (log10m + 23)
  let a := 1 / (1 + z)
  let xc := rc / a
  1.9 * a ^ (-1 : ℝ) * m23 ^ (-2 : ℝ) * xc ^ (-4 : ℝ)

/-- `_uldm_args`, `ULDM.py` 76-91: `theta_c` and `kappa_0`. `lens_cosmo.sigma_crit_lensing` and `lens_cosmo.D_d` are those of
the main lens plane at `zLens` (`lens_cosmo.py` 53, 59). -/
noncomputable def uldmArgs (e : LensCosmo.Env) (om : ℝ → ℝ) (zLens z log10m M plaw : ℝ) : ℝ × ℝ :=
  let rcKpc := coreRadius om z log10m M plaw
  let rhoc := centralDensity z log10m rcKpc
  let rc := rcKpc * 10 ^ 3
  let sigma := sigmaCrit e zLens e.zSource * 10 ^ (-12 : ℤ)
  let D := e.DAz zLens * 10 ^ 6
  (rc / D / arcsec, 429 * Real.pi * rhoc * rc / (2048 * Real.sqrt 0.091 * sigma))

/-! ## The mass budget -/

/-- The entries of the two dictionaries, without the centre. `ULDM.py` 43-62. -/
structure Params where
  alphaRs : ℝ
  Rs : ℝ
  rCore : ℝ
  thetaC : ℝ
  kappa0 : ℝ

/-- lenstronomy: `cnfw r Rs rCore` is `CNFW().mass_3d_lens(r, Rs, 1, rCore)` and `uldm r thetaC` is
`Uldm().mass_3d_lens(r, 1, thetaC)`; both masses are proportional to the amplitude. `cnfw0 Rs alpha rCore` and
`uldm0 kappa thetaC` are the densities `density_lens(0, …)`. Used in `ULDM.py` 128-215. -/
structure Lib where
  cnfw : ℝ → ℝ → ℝ → ℝ
  uldm : ℝ → ℝ → ℝ
  cnfw0 : ℝ → ℝ → ℝ → ℝ
  uldm0 : ℝ → ℝ → ℝ

/-- `CNFW().mass_3d_lens(r, Rs, alpha_Rs * sigma, r_core)`. Used in `ULDM.py` 128-202. -/
def Lib.cnfwMass (L : Lib) (sigma r : ℝ) (p : Params) : ℝ := p.alphaRs * sigma * L.cnfw r p.Rs p.rCore

/-- `Uldm().mass_3d_lens(r, kappa_0 * sigma, theta_c)`. Used in `ULDM.py` 128-202. -/
def Lib.uldmMass (L : Lib) (sigma r : ℝ) (p : Params) : ℝ := p.kappa0 * sigma * L.uldm r p.thetaC

/-- `_constraint_mass`, `ULDM.py` 176-202, without the branch for `nan`. -/
noncomputable def constraintMass (L : Lib) (sigma r m : ℝ) (p : Params) (beta q : ℝ) : ℝ :=
  let rCore := beta * p.Rs
  let mNfw := p.alphaRs * sigma * L.cnfw r p.Rs rCore / m
  let mUldm := q * (p.kappa0 * sigma * L.uldm r p.thetaC) / m
  |mNfw + mUldm - 1|

/-- `_constraint_density`, `ULDM.py` 204-215. -/
def constraintDensity (rhoTarget rhos beta q : ℝ) : ℝ := |rhos - beta * rhoTarget * (q - 1)|

/-- `_function_to_minimize`, `ULDM.py` 217-238. -/
noncomputable def objective (L : Lib) (sigma r m : ℝ) (p : Params) (bq : ℝ × ℝ) : ℝ :=
  constraintMass L sigma r m p bq.1 bq.2 +
    20 * constraintDensity (L.uldm0 p.kappa0 p.thetaC) (L.cnfw0 p.Rs p.alphaRs p.rCore) bq.1 bq.2

open scoped Classical in
/-- `_rescaled_cnfw_params`, `ULDM.py` 128-174: `c` is `self._c`, `sigma` is `lens_cosmo.sigmacrit`, `argmin` is
`scipy.optimize.minimize` with its starting point, bounds and tolerance. -/
noncomputable def rescaled (L : Lib) (argmin : (ℝ × ℝ → ℝ) → ℝ × ℝ) (sigma mass c : ℝ) (scaleNfw : Bool) (p : Params) :
    Except Err Params :=
  let r200 := c * p.Rs
  let bq := argmin (objective L sigma r200 mass p)
  if bq.1 < 0 then .error (.valueError "Negative CNFW core radius, tweak your parameters.")
  else if bq.2 < 0 then .error (.valueError "Negative ULDM profile mass, tweak your parameters.")
  else
    let p := { p with rCore := p.rCore / bq.1, kappa0 := p.kappa0 / bq.2 }
    let mNfw := L.cnfwMass sigma r200 p
    let mUldm := L.uldmMass sigma r200 p
    if scaleNfw then .ok { p with alphaRs := p.alphaRs * (mass / (mNfw + mUldm)) } else .ok p

/-- `lenstronomy_params`, `ULDM.py` 42-62, of a halo of mass `mass` and concentration `c` at redshift `z`; `kpaLens` is
`kpc_proper_per_asec(z_lens)` and `sigmacrit` is line 57 of `lens_cosmo.py`. -/
noncomputable def lensParams (L : Lib) (argmin : (ℝ × ℝ → ℝ) → ℝ × ℝ) (e : LensCosmo.Env) (om : ℝ → ℝ)
    (zLens kpaLens z zEval mass c log10m plaw : ℝ) (scaleNfw : Bool) (x y : ℝ) : Except Err (List Dict) := do
  let (thetaC, kappa0) := uldmArgs e om zLens z log10m mass plaw
  let (rhos, rs, _) ← nfwParamKpc e mass c zEval (some false)
  let (Rs, alphaRs) := nfwAngles e (rhos * 1e9) (rs * 1e-3) z false
  let sigma := sigmaCrit e zLens e.zSource * 0.001 ^ 2 * kpaLens ^ 2
  let p ← rescaled L argmin sigma mass c scaleNfw ⟨alphaRs, Rs, 3 * thetaC, thetaC, kappa0⟩
  pure [[("alpha_Rs", p.alphaRs), ("Rs", p.Rs), ("center_x", round4 x), ("center_y", round4 y), ("r_core", p.rCore)],
    [("theta_c", p.thetaC), ("kappa_0", p.kappa0), ("center_x", round4 x), ("center_y", round4 y)]]

/-! ## Masses and lengths of the preset -/

/-- `MinHaloMassULDM.m_min`, `utilities.py` 318-338. -/
noncomputable def mMin (om : ℝ → ℝ) (log10m z : ℝ) : ℝ :=
  ((1 + z) ^ (-1 : ℝ)) ^ (-3 / 4 : ℝ) * (zeta om z / zeta om 0) ^ (1 / 4 : ℝ) *
    (4.4e7 * ((10 : ℝ) ^ (log10m + 22)) ^ (-3 / 2 : ℝ))

/-- `MinHaloMassULDM.__call__`, `utilities.py` 323-326. -/
noncomputable def minMass (om : ℝ → ℝ) (log10m logMlow z : ℝ) : ℝ := max (Real.logb 10 (mMin om log10m z)) logMlow

/-- `de_broglie_wavelength`, `utilities.py` 224-232. -/
noncomputable def deBroglie (log10m v : ℝ) : ℝ := 1.2 * (1e-22 / (10 : ℝ) ^ log10m) * (100 / v)

/-- `log_m0`, `uldm.py` 136-137. -/
noncomputable def logM0 (log10m : ℝ) : ℝ := Real.logb 10 (1.6e10 * ((10 : ℝ) ^ (log10m + 22)) ^ (-4 / 3 : ℝ))

/-- Lines 191-195 and 202-206 of `PresetModels/uldm.py`: the projected density of the host. At `x = 1` numpy divides by zero. -/
noncomputable def sigmaHost (rhos rs x : ℝ) : ℝ :=
  let F := if x < 1 then Real.artanh (Real.sqrt (1 - x ^ 2)) / Real.sqrt (1 - x ^ 2)
    else Real.arctan (Real.sqrt (-1 + x ^ 2)) / Real.sqrt (-1 + x ^ 2)
  2 * rhos * rs * (1 - F) / (x ^ 2 - 1)

/-- `fluctuation_amplitude`, `uldm.py` 177-209. `conc n m z` is the answer of the concentration model, which has scatter, to
its `n`-th call; both calls are made at `z_lens`. `kpa` is `kpc_proper_per_asec`. -/
noncomputable def flucAmplitude (e : LensCosmo.Env) (kpa : ℝ → ℝ) (conc : ℕ → ℝ → ℝ → ℝ)
    (zLens zSource logMHost rEin log10Amp log10m : ℝ) : Except Err ℝ := do
  let aFluc := (10 : ℝ) ^ log10Amp
  let mPsi := (10 : ℝ) ^ log10m
  let zRef : ℝ := 0.5
  let mRef := (10 : ℝ) ^ (13.3 : ℝ)
  let rPerpRef := 1.0 * kpa zRef
  let sigmaRef := sigmaCrit e zRef 2.0
  let cRef := conc 0 mRef zLens
  let (rhosRef, rsRef, _) ← nfwParamKpc e mRef cRef zRef (some false)
  let hostRef := sigmaHost rhosRef rsRef (rPerpRef / rsRef)
  let rPerp := rEin * kpa zLens
  let sigma := sigmaCrit e zLens zSource
  let c := conc 1 ((10 : ℝ) ^ logMHost) zLens
  let (rhos, rs, _) ← nfwParamKpc e ((10 : ℝ) ^ logMHost) c zLens (some false)
  let host := sigmaHost rhos rs (rPerp / rs)
  pure (aFluc * (mPsi / 1e-22) ^ (-0.5 : ℝ) * (sigmaRef / sigma) * (host / hostRef))

/-! ## The preset -/

/-- The arguments of `ULDM`, `uldm.py` 10-23, except the dictionaries and the properties of the fluctuations. -/
structure Args where
  zLens : ℝ
  zSource : ℝ
  log10m : ℝ
  sigmaSub : ℝ := 0.025
  log10SigmaSub : Option ℝ := some (-1.0)
  log10dNdA : Option ℝ := none
  logMlow : ℝ := 6
  logMhigh : ℝ := 10
  massSub : String := "SHMF_SCHIVE2016"
  massSubKw : Kwargs := Kwargs.empty
  massField : String := "SCHIVE2016"
  massFieldKw : Kwargs := Kwargs.empty
  concSub : String := "LAROCHE2022"
  concField : String := "LAROCHE2022"
  truncSub : TruncSpec := .name "TRUNCATION_GALACTICUS"
  truncField : TruncSpec := .name "TRUNCATION_RN"
  shmfLogSlope : ℝ := -1.9
  cone : ℝ := 6
  logMHost : ℝ := 13.3
  rTidal : ℝ := 0.25
  losNormalization : ℝ := 1
  geometryType : String := "DOUBLE_CONE"
  kwargsCosmo : ℕ := 0
  plaw : ℝ := 1 / 3
  flucs : Bool := true
  flucsArgsEmpty : Bool := true
  mdef : String := "ULDM"

/-- The call of `WDM`, `uldm.py` 143-169. -/
noncomputable def toWdm (a : Args) : WdmArgs :=
  { zLens := a.zLens, zSource := a.zSource, logMc := logM0 a.log10m, sigmaSub := a.sigmaSub,
    log10SigmaSub := a.log10SigmaSub, log10dNdA := a.log10dNdA, logMlow := .minMass a.log10m a.kwargsCosmo a.logMlow,
    logMhigh := a.logMhigh, massSub := a.massSub, massSubKw := a.massSubKw, massField := a.massField,
    massFieldKw := a.massFieldKw, concSub := a.concSub, concField := a.concField, truncSub := a.truncSub,
    truncField := a.truncField, shmfLogSlope := a.shmfLogSlope, cone := a.cone, logMHost := a.logMHost,
    rTidal := a.rTidal, losNormalization := a.losNormalization, geometryType := a.geometryType,
    kwargsCosmo := a.kwargsCosmo, mdefSub := a.mdef, mdefField := a.mdef, density := .uldmProfile a.log10m true a.plaw }

/-- `ULDM`, `uldm.py` 10-221, up to the fluctuations: the request handed to the renderer if the call returns, and the
dictionaries afterwards. The halos are rendered by `WDM` before the fluctuation arguments are looked at. -/
noncomputable def uldm (E : Env) (a : Args) (d : Dicts) : Except Err Request × Dicts :=
  let r := wdm E (toWdm a) d
  match r.1 with
  | .error e => (.error e, r.2)
  | .ok req =>
    if a.flucs then
      if a.flucsArgsEmpty then
        (.error (.exception "Must specify fluctuation arguments, see realization_extensions.add_ULDM_fluctuations"), r.2)
      else (.ok req, r.2)
    else (.ok req, r.2)

end Uldm
end PyHalo
