import Verif.Model.LensCosmo
import Verif.Model.HaloObject
import Verif.Model.Sidm
import Verif.Model.Collapsed
import Mathlib.Analysis.SpecialFunctions.Trigonometric.Arctan
import Mathlib.MeasureTheory.Integral.IntervalIntegral.Basic

/-!
# Model of the normalisation of the halo profiles in `pyHalo/Halos/HaloModels`

The parameter dictionaries computed by `PsuedoJaffe.py`, `powerlaw.py`, `globular_cluster.py`, `blackhole.py`, `sis.py`,
`NFW_core.py`, `NFW_core_trunc.py`, `generalized_nfw.py` and `gaussianhalo.py` when they are read for the first time.
Caching is in `Model/HaloObject.lean`; the composite core-collapsed halos are in `Model/Collapsed.lean`.

Densities of lenstronomy profiles are reproduced from the library where they are elementary (`PseudoJaffe`, `SPLCORE`,
`CNFW`), and are parameters elsewhere.
-/

namespace PyHalo
namespace Prof
open HaloObj (round4 round10)
open Collapsed (Dict trapezoid)

/-- The two numbers of the cosmology at the redshift of the halo: `kpc_proper_per_asec(z)` and
`get_sigma_crit_lensing(z, z_source)` (solar masses per square Mpc). `cosmology.py` 89-98, `lens_cosmo.py` 347-360. -/
structure Scale where
  kpa : ℝ
  sigmaCrit : ℝ

/-- The factor of the methods `density_profile_3d_lenstronomy`/`density_profile_3d` (`NFW_core_trunc.py` 52-54,
`globular_cluster.py` 51-53, `sis.py` 105-107, `NFW_core.py` 37-39): `sigma_crit_kpc / kpc_per_arcsec`. -/
noncomputable def Scale.factor (s : Scale) : ℝ := s.sigmaCrit * 1e-6 / s.kpa

/-- `sigma_crit_arcsec` (`powerlaw.py` 48, `globular_cluster.py` 85, `sis.py` 199). -/
noncomputable def Scale.sigmaArcsec (s : Scale) : ℝ := s.sigmaCrit * (0.001 * s.kpa) ^ 2

/-! ## Pseudo-Jaffe halos -/

/-- lenstronomy `PseudoJaffe.rho2sigma` (library formula). Used in `PsuedoJaffe.py` 54-85. -/
noncomputable def pjRho2sigma (rho Ra Rs : ℝ) : ℝ := Real.pi * rho * Ra * Rs / (Rs + Ra)

/-- lenstronomy `PseudoJaffe.sigma2rho` (library formula). Used in `PsuedoJaffe.py` 29-41. -/
noncomputable def pjSigma2rho (sigma Ra Rs : ℝ) : ℝ := (Ra + Rs) / Ra / Rs / Real.pi * sigma

/-- lenstronomy `PseudoJaffe.density` (library formula). Used in `PsuedoJaffe.py` 87-98. -/
noncomputable def pjDensity (rho Ra Rs r : ℝ) : ℝ := rho / ((1 + (r / Ra) ^ 2) * (1 + (r / Rs) ^ 2))

/-- `_rho`, `PsuedoJaffe.py` 87-98. -/
noncomputable def pjRho (m rs ra rMatch : ℝ) : ℝ :=
  let f := (ra * Real.arctan (rMatch / ra) - rs * Real.arctan (rMatch / rs)) / (ra ^ 2 - rs ^ 2)
  m / (4 * Real.pi * ra ^ 2 * rs ^ 2 * f)

/-- `_rho` in numpy: a division by zero gives `nan` or `inf`, here `none`. `PsuedoJaffe.py` 87-98. -/
noncomputable def pjRhoNp (m rs ra rMatch : ℝ) : Option ℝ :=
  if ra ^ 2 - rs ^ 2 = 0 then none
  else
    let f := (ra * Real.arctan (rMatch / ra) - rs * Real.arctan (rMatch / rs)) / (ra ^ 2 - rs ^ 2)
    if 4 * Real.pi * ra ^ 2 * rs ^ 2 * f = 0 then none else some (pjRho m rs ra rMatch)

/-- `lenstronomy_params` of `PJaffeSubhalo`, `PsuedoJaffe.py` 53-85, for a concentration `c` (`profile_args`, 107-117 and
123-131) and the redshift `z_eval`. -/
noncomputable def pjaffe (e : LensCosmo.Env) (s : Scale) (mass c zEval x y : ℝ) : Except Err (List Dict) := do
  let kpcToArcsec := 1 / s.kpa
  let (rhos, rs, r200) ← LensCosmo.nfwParamKpc e mass c zEval (some false)
  let ra := 0.01 * rs
  let raArcsec := ra * kpcToArcsec
  let rsArcsec := rs * kpcToArcsec
  let rMatchArcsec := r200 * kpcToArcsec
  let xMatch := r200 / rs
  let fx := Real.log (1 + xMatch) - xMatch / (1 + xMatch)
  let mNfw := 4 * Real.pi * rs ^ 3 * rhos * fx
  let rho := pjRho mNfw rsArcsec raArcsec rMatchArcsec
  let sigma0 := pjRho2sigma rho raArcsec rsArcsec
  let sigmaCritKpc := s.sigmaCrit * 0.001 ^ 2
  pure [[("center_x", x), ("center_y", y), ("Ra", raArcsec), ("Rs", rsArcsec),
    ("sigma0", sigma0 * (sigmaCritKpc / kpcToArcsec ^ 2)⁻¹)]]

/-- The entry `rho` of `params_physical`, `PsuedoJaffe.py` 28-41. -/
noncomputable def pjPhysicalRho (e : LensCosmo.Env) (mass c zEval : ℝ) : Except Err (Option ℝ) := do
  let (_, rs, _) ← LensCosmo.nfwParamKpc e mass c zEval (some false)
  let ra := 0.01 * rs
  pure (pjRhoNp mass ra ra (c * rs))

/-! ## Cored power laws: `PowerLawSubhalo`, `GlobularCluster` -/

/-- lenstronomy `SPLCORE.density` (library formula). Used in `powerlaw.py` 25-54. -/
noncomputable def splDensity (rho rc gamma r : ℝ) : ℝ := rho * rc ^ gamma / (rc ^ 2 + r ^ 2) ^ (gamma / 2)

/-- lenstronomy `SPLCORE.mass_3d(r, rho0, r_core, gamma)`: the library evaluates the integral of the density in closed form
(with a hypergeometric function); here it is the integral. Used in `powerlaw.py` 25-54. -/
noncomputable def splMass (R rho rc gamma : ℝ) : ℝ :=
  ∫ r in (0 : ℝ)..R, 4 * Real.pi * r ^ 2 * splDensity rho rc gamma r

/-- The entry `x_match` of the profile arguments. `powerlaw.py` 78-92, `generalized_nfw.py` 81-122. -/
inductive XMatch where
  | absent
  | c
  | value (x : ℝ)

/-- `powerlaw.py` 35-42, `generalized_nfw.py` 105-112. -/
noncomputable def XMatch.get (c : ℝ) : XMatch → ℝ
  | .absent => 2.16
  | .c => c
  | .value x => x

/-- `lenstronomy_params` of `PowerLawSubhalo`, `powerlaw.py` 24-54, for `profile_args = (c, gamma, x_core)`. -/
noncomputable def powerLaw (e : LensCosmo.Env) (s : Scale) (mass c zEval gamma xCore : ℝ) (xm : XMatch) (x y : ℝ) :
    Except Err (List Dict) := do
  let (rhos, rs, _) ← LensCosmo.nfwParamKpc e mass c zEval (some false)
  let xMatch := xm.get c
  let rMatch := xMatch * rs / s.kpa
  let fx := Real.log (1 + xMatch) - xMatch / (1 + xMatch)
  let m := 4 * Real.pi * rs ^ 3 * rhos * fx
  let rCore := xCore * rMatch / xMatch
  let rho0 := m / splMass rMatch s.sigmaArcsec rCore gamma
  pure [[("sigma0", rho0 * rCore), ("gamma", gamma), ("center_x", x), ("center_y", y), ("r_core", rCore)]]

/-- The concentration of `PowerLawSubhalo` (`powerlaw.py` 77-91) and `PowerLawFieldHalo` (98-110): `arg` is the entry `c` of
the profile arguments, `model` the value of the concentration model. -/
noncomputable def powerLawConcentration (field : Bool) (arg : Option ℝ) (model : ℝ) : ℝ :=
  if field then model else
    match arg with
    | none => model
    | some c => c

/-- `lenstronomy_params` of `GlobularCluster`, `globular_cluster.py` 73-90. -/
noncomputable def globularCluster (s : Scale) (mass gamma sizePc conc x y : ℝ) : List Dict :=
  let size := sizePc * 1e-3 / s.kpa
  let rCore := size / conc
  let rho0 := mass / splMass size s.sigmaArcsec rCore gamma
  [[("sigma0", rho0 * rCore), ("gamma", gamma), ("center_x", x), ("center_y", y), ("r_core", rCore)]]

/-- `profile_args` of `GlobularCluster`, `globular_cluster.py` 92-105: `rho0, gc_size_kpc, gamma, r_core_kpc`. -/
noncomputable def gcProfileArgs (mass gamma sizePc conc : ℝ) : ℝ × ℝ × ℝ × ℝ :=
  let size := sizePc * 1e-3
  let rCore := size / conc
  (mass / splMass size 1.0 rCore gamma, size, gamma, rCore)

/-- The function whose zero `half_mass_radius` looks for between `1e-4 * size` and `size`,
`globular_cluster.py` 59-71. -/
noncomputable def gcHalfMass (mass gamma sizePc conc r : ℝ) : ℝ :=
  let (rho0, _, gamma, rCore) := gcProfileArgs mass gamma sizePc conc
  splMass r rho0 rCore gamma - 0.5 * mass

/-! ## Point masses, isothermal spheres, massive galaxies, Gaussian fluctuations -/

/-- `lenstronomy_params` of `BlackHole`, `blackhole.py` 36-51. -/
noncomputable def blackHole (e : LensCosmo.Env) (mass z x y : ℝ) : List Dict :=
  [[("center_x", x), ("center_y", y), ("theta_E", LensCosmo.pointMassFactor e z * Real.sqrt mass)]]

/-- `thetaE_from_sigma`, `lens_cosmo.py` 362-372. -/
noncomputable def thetaE (e : LensCosmo.Env) (z sigma : ℝ) : ℝ :=
  4 * Real.pi * (sigma / 299792.5) ^ 2 * e.DA z e.zSource / e.DA 0 e.zSource * 206265

/-- `lenstronomy_params` of `SIS`, `sis.py` 33-70, for an object whose `vmax_nfw` is `vmax`. -/
noncomputable def sis (e : LensCosmo.Env) (z vmax x y : ℝ) : List Dict :=
  [[("theta_E", thetaE e z (0.646 * vmax)), ("center_x", round4 x), ("center_y", round4 y)]]

/-- What `MassiveGalaxy` reads from the halo it replaces. `sis.py` 74-94. -/
structure Replaced where
  isSubhalo : Bool
  /-- `mass_3d('r200')` -/
  mass : ℝ
  /-- `profile_args[1]`: the truncation radius -/
  rt : ℝ
  /-- `nfw_params[1]`, `nfw_params[2]` -/
  rs : ℝ
  r200 : ℝ

/-- The radius that becomes the scale radius, `sis.py` 143-146 and 189-192. -/
noncomputable def Replaced.scaleRadius (h : Replaced) : ℝ := if h.isSubhalo then h.rt else h.rs

/-- `_alphaRs`, `sis.py` 181-205, for the enclosed mass `mass3dLens r Rs alpha gamma_inner gamma_outer` of lenstronomy's
`PseudoDoublePowerlaw`. -/
noncomputable def alphaRs (mass3dLens : ℝ → ℝ → ℝ → ℝ → ℝ → ℝ) (s : Scale) (h : Replaced) : ℝ :=
  h.mass / mass3dLens (h.r200 / s.kpa) (h.scaleRadius / s.kpa) 1.0 2.0 5.0 / s.sigmaArcsec

/-- `lenstronomy_params` of `MassiveGalaxy`, `sis.py` 135-157. -/
noncomputable def massiveGalaxy (mass3dLens : ℝ → ℝ → ℝ → ℝ → ℝ → ℝ) (s : Scale) (h : Replaced) (x y : ℝ) : List Dict :=
  [[("alpha_Rs", round10 (alphaRs mass3dLens s h)), ("Rs", round10 (h.scaleRadius / s.kpa)), ("gamma_inner", 2.0),
    ("center_x", round4 x), ("center_y", round4 y), ("gamma_outer", 5.0)]]

/-! ## Generalised NFW halos -/

/-- lenstronomy `PseudoDoublePowerlaw.density(R, Rs, rho0, gamma_inner, gamma_outer)` (library formula).
Used in `generalized_nfw.py` 26-42, `sis.py` 96-113. -/
noncomputable def dplDensity (rho Rs gi go r : ℝ) : ℝ :=
  rho / ((r / Rs) ^ gi * (1 + (r / Rs) ^ 2) ^ ((go - gi) / 2))

/-- lenstronomy `PseudoDoublePowerlaw.mass_3d(r, Rs, rho0, gamma_inner, gamma_outer)`: the library evaluates the integral with
a hypergeometric function; here it is the integral. Used in `generalized_nfw.py` 94-122. -/
noncomputable def dplMass (R Rs rho gi go : ℝ) : ℝ :=
  ∫ r in (0 : ℝ)..R, 4 * Real.pi * r ^ 2 * dplDensity rho Rs gi go r

/-- The entries of the profile arguments `_args` that `GeneralNFWSubhalo` reads. `generalized_nfw.py` 81-122. -/
structure GnfwArgs where
  gi : ℝ
  go : ℝ
  xMatch : XMatch
  rTransition : Option ℝ
  massConservation : Option ℝ

/-- `_density_norm` of `GeneralNFWSubhalo`, `generalized_nfw.py` 91-122: the density, and the profile arguments after line 103
(the dictionary belongs to whoever passed it in). `sigma` is `sigma_crit_arcsecond_interp(z)`. -/
noncomputable def gnfwNorm (e : LensCosmo.Env) (kpa sigma mass c zEval : ℝ) (a : GnfwArgs) : Except Err (ℝ × GnfwArgs) := do
  let (rhos, rsNfw, _) ← LensCosmo.nfwParamKpc e mass c zEval (some false)
  let rt := match a.rTransition with
    | some r => r
    | none => rsNfw
  let xMatch := a.xMatch.get c
  let m := match a.massConservation with
    | some m => m
    | none => 4 * Real.pi * rt ^ 3 * rhos * (Real.log (1 + xMatch) - xMatch / (1 + xMatch))
  pure (m / dplMass (xMatch * rt / kpa) (rt / kpa) sigma a.gi a.go, { a with rTransition := some rt })

/-- `lenstronomy_params` of `GeneralNFWSubhalo`, `generalized_nfw.py` 53-71, with lenstronomy's
`rho02alpha rho0 Rs gamma_inner gamma_outer`. -/
noncomputable def gnfw (toAlpha : ℝ → ℝ → ℝ → ℝ → ℝ) (e : LensCosmo.Env) (kpa sigma mass c zEval x y : ℝ) (a : GnfwArgs) :
    Except Err (List Dict × GnfwArgs) := do
  let (_, rs, _) ← LensCosmo.nfwParamKpc e mass c zEval (some true)
  let rsArcsec := rs / kpa
  let (rho0, a) ← gnfwNorm e kpa sigma mass c zEval a
  let alpha := toAlpha rho0 rsArcsec a.gi a.go
  pure ([[("alpha_Rs", round10 alpha), ("Rs", round10 rsArcsec), ("gamma_inner", a.gi), ("center_x", round4 x),
    ("center_y", round4 y), ("gamma_outer", a.go)]], a)

/-- `density_profile_3d` of `GeneralNFWSubhalo`, `generalized_nfw.py` 26-42, for the density and the scale radius before
conversion and rounding (`density_lens` converts back). -/
noncomputable def gnfwDensity3d (kpa sigma rho RsArcsec gi go r : ℝ) : ℝ :=
  sigma / kpa ^ 2 / kpa * dplDensity rho RsArcsec gi go (r / kpa)

/-- `log_profile_slope`, `generalized_nfw.py` 124-136. -/
noncomputable def gnfwLogSlope (r rs gi go : ℝ) : ℝ := -(gi + go * (r / rs) ^ 2) / (1 + (r / rs) ^ 2)

/-- The halos of a list read in turn, with the one dictionary of profile arguments that `_load_halo_model` hands to all of
them (`single_realization.py` 725). -/
noncomputable def gnfwAll (toAlpha : ℝ → ℝ → ℝ → ℝ → ℝ) (e : LensCosmo.Env) :
    List (ℝ × ℝ × ℝ × ℝ × ℝ × ℝ × ℝ) → GnfwArgs → Except Err (List (List Dict))
  | [], _ => pure []
  | (kpa, sigma, mass, c, zEval, x, y) :: l, a => do
    let (d, a) ← gnfw toAlpha e kpa sigma mass c zEval x y a
    let ds ← gnfwAll toAlpha e l a
    pure (d :: ds)

/-- `lenstronomy_params` of `GaussianHalo`, `gaussianhalo.py` 36-45: the entries of the profile arguments. -/
def gaussian (amp sigma cx cy : ℝ) : List Dict :=
  [[("amp", amp), ("sigma", sigma), ("center_x", cx), ("center_y", cy)]]

/-! ## Cored NFW halos -/

/-- lenstronomy `CNFW.density` (library formula). Used in `NFW_core.py` 28-43. -/
noncomputable def cnfwDensity (rho Rs rc r : ℝ) : ℝ := rho * Rs ^ 3 / ((rc + r) * (r + Rs) ^ 2)

/-- lenstronomy `CNFW.mass_2d(R, Rs, rho0, r_core)` (library formula) with the function `G` of the library.
Used in `NFW_core.py` 53-75. -/
noncomputable def cnfwMass2d (G : ℝ → ℝ → ℝ) (R Rs rho rc : ℝ) : ℝ :=
  4 * rho * Rs * R ^ 2 * G (R / Rs) (rc / Rs) / (R / Rs) ^ 2 * Real.pi

/-- lenstronomy `CNFW._alpha2rho0` (library formula). Used in `NFW_core.py` 28-43. -/
noncomputable def cnfwAlpha2rho (G : ℝ → ℝ → ℝ) (alpha Rs rc : ℝ) : ℝ := alpha * (4 * Rs ^ 2 * G 1 (rc / Rs))⁻¹

/-- Amplitude, scale radius and core radius of `CoreNFWHalo` before rounding, `NFW_core.py` 56-66. -/
noncomputable def cnfwExact (e : LensCosmo.Env) (G : ℝ → ℝ → ℝ) (s : Scale) (rhos rs beta z : ℝ) : ℝ × ℝ × ℝ :=
  let RsAngle := rs / s.kpa
  let alphaNfw := (LensCosmo.nfwAngles e (rhos * 1e9) (rs * 1e-3) z false).2
  let core := cnfwMass2d G rs rs 1.0 (beta * rs)
  let nfw := cnfwMass2d G rs rs 1.0 (1e-4 * rs)
  (alphaNfw * core / nfw, RsAngle, RsAngle * beta)

/-- `lenstronomy_params` of `CoreNFWHalo`, `NFW_core.py` 52-75. -/
noncomputable def cnfw (e : LensCosmo.Env) (G : ℝ → ℝ → ℝ) (s : Scale) (mass c zEval beta z norm x y : ℝ) :
    Except Err (List Dict) := do
  let (rhos, rs, _) ← LensCosmo.nfwParamKpc e mass c zEval (some false)
  let p := cnfwExact e G s rhos rs beta z
  pure [[("alpha_Rs", norm * round10 p.1), ("Rs", round10 p.2.1), ("r_core", round10 p.2.2), ("center_x", round4 x),
    ("center_y", round4 y)]]

/-! ## Cored and truncated NFW halos -/

/-- The parameters `alpha_Rs, Rs, r_core, r_trunc` of lenstronomy's `TNFWC`. `NFW_core_trunc.py` 125-142. -/
structure Tnfwc where
  alpha : ℝ
  Rs : ℝ
  rc : ℝ
  rt : ℝ

/-- `density_profile_3d_lenstronomy`, `NFW_core_trunc.py` 43-59, with lenstronomy's `TNFWC.density_lens(r, Rs, alpha, rc, rt)`. -/
noncomputable def tnfwcDensity (dens : ℝ → ℝ → ℝ → ℝ → ℝ → ℝ) (s : Scale) (p : Tnfwc) (r : ℝ) : ℝ :=
  s.factor * dens (r / s.kpa) p.Rs p.alpha p.rc p.rt

/-- The radii of `NFW_core_trunc.py` 162-165 and 257-260: `np.logspace(-4, log10 c, 250) * rs_0`. -/
noncomputable def radii (c rs0 : ℝ) : List ℝ :=
  (Np.linspace (-4) (Real.logb 10 c) 250).map fun u => (10 : ℝ) ^ u * rs0

/-- The amplitude for given radii, `NFW_core_trunc.py` 166-175 and 261-267. -/
noncomputable def tnfwcAlpha (dens : ℝ → ℝ → ℝ → ℝ → ℝ → ℝ) (s : Scale) (c rs0 rs rc rt mass : ℝ) : ℝ :=
  let p : Tnfwc := ⟨1.0, rs / s.kpa, rc / s.kpa, rt / s.kpa⟩
  let r := radii c rs0
  mass / trapezoid (r.map fun q => 4 * Real.pi * q ^ 2 * tnfwcDensity dens s p q) r

/-- Scale and core radius of `TNFWCHaloParametric`, `NFW_core_trunc.py` 157-161. -/
noncomputable def parametricRadii (rs0 xCore rt : ℝ) : ℝ × ℝ :=
  let rs := if rt < xCore * rs0 then rt * 0.99 else xCore * rs0
  (rs, rs * 0.99)

/-- `profile_args`, `NFW_core_trunc.py` 144-181 and 242-271, and the parameters made of them, 124-142; the scale and the
core radius are those of `parametricRadii` or of `evolve_profile`. -/
noncomputable def tnfwc (dens : ℝ → ℝ → ℝ → ℝ → ℝ → ℝ) (s : Scale) (c rs0 : ℝ) (radii : ℝ × ℝ) (rt mass : ℝ) : Tnfwc :=
  ⟨tnfwcAlpha dens s c rs0 radii.1 radii.2 rt mass, radii.1 / s.kpa, radii.2 / s.kpa, rt / s.kpa⟩

/-- `lenstronomy_params`, `NFW_core_trunc.py` 124-142. -/
noncomputable def Tnfwc.dict (p : Tnfwc) (x y : ℝ) : List Dict :=
  [[("alpha_Rs", p.alpha), ("Rs", p.Rs), ("center_x", round4 x), ("center_y", round4 y), ("r_trunc", p.rt),
    ("r_core", p.rc)]]

/-- `Hybrid.lenstronomy_params`, `NFW_core_trunc.py` 341-352: the dictionaries of the two halos, amplitudes weighted. -/
noncomputable def hybrid (f : ℝ) (tnfw tnfwc : Dict) : List Dict :=
  [tnfw.map fun p => if p.1 = "alpha_Rs" then (p.1, p.2 * (1 - f)) else p,
   tnfwc.map fun p => if p.1 = "alpha_Rs" then (p.1, p.2 * f) else p]

end Prof
end PyHalo
