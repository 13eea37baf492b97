import Verif.Model.LensCosmo
import Verif.Model.Accretion

/-!
# SIDM profile evolution and the batched routines

Models the evolution functions of `pyHalo/Halos/HaloModels/NFW_core_trunc.py` and the parts of
`pyHalo/Halos/batch_halo_util.py` that recompute, for whole lists, what the halo classes compute one
by one (the batched concentrations are in `Model/Concentration.lean`, the batched mass loss in
`Model/MassLoss.lean`).
-/

namespace PyHalo
namespace Sidm

/-- `_rs_evolution`, `NFW_core_trunc.py` 427-435. -/
noncomputable def rsEarly (t : ℝ) : ℝ :=
  1.13293 - 0.518186 * t + 0.30265 * t ^ 2 - 0.400463 * t ^ 3
    + (1 - 1.13293) * Real.log (0.001 + t) / Real.log 0.001

/-- `_rc_evolution`, `NFW_core_trunc.py` 438-445. -/
noncomputable def rcEarly (t : ℝ) : ℝ :=
  1.06419 * Real.sqrt t - 1.33207 * t + 0.431133 * t ^ 2 - 0.148087 * t ^ 3 + 0.024455 * t ^ 4

/-- `rs_evolution` and `rs_extrapolation`, `NFW_core_trunc.py` 403-407 and 448-454. -/
noncomputable def rsEvolution (t : ℝ) : ℝ :=
  if t ≤ 1 then rsEarly t
  else rsEarly 0.5 * Real.exp (-0.47 * (t - 0.5) - 2.4 * (t - 0.5) ^ 3)

/-- `rc_evolution` and `rc_extrapolation`, `NFW_core_trunc.py` 410-414 and 457-468. -/
noncomputable def rcEvolution (t : ℝ) : ℝ :=
  if t ≤ 1 then rcEarly t
  else
    let rc := rcEarly 0.5 - 0.28 * (t - 0.5)
    if rc < 0.0001 then 0.0001 else rc

/-- `evolve_profile`, `NFW_core_trunc.py` 395-401. -/
noncomputable def evolveProfile (t rs0 : ℝ) : ℝ × ℝ :=
  let t := min 1.6 t
  let rs := rs0 * rsEvolution t
  let rc := rs0 * rcEvolution t
  (rs, max (1e-7 * rs) rc)

/-- `_evolve_profile_vectorized`, `batch_halo_util.py` 496-513, on the entries of two arrays. -/
noncomputable def evolveVectorized (ts rs0 : List ℝ) : List (ℝ × ℝ) :=
  let ts := ts.map fun t => min 1.6 t
  let below := ts.map fun t => decide (t ≤ 1)
  let rsEvo := List.zipWith (fun (b : Bool) t => if b then rsEarly t
    else rsEarly 0.5 * Real.exp (-0.47 * (t - 0.5) - 2.4 * (t - 0.5) ^ 3)) below ts
  let rcEvo := List.zipWith (fun (b : Bool) t => if b then rcEarly t
    else max (rcEarly 0.5 - 0.28 * (t - 0.5)) 0.0001) below ts
  let rs := List.zipWith (· * ·) rs0 rsEvo
  let rc := List.zipWith (fun r s => max r (1e-7 * s)) (List.zipWith (· * ·) rs0 rcEvo) rs
  rs.zip rc

end Sidm

namespace Batch
open Cosmo LensCosmo

/-- `halo_age` of the cosmology as a function of its arguments: a fresh object is asked. (The answer
does not depend on what was asked before, `c49_order_irrelevant`.). `cosmology.py` 103-125. -/
noncomputable def haloAge (A : AstropyI) (z zform : ℝ) : Except Err ℝ := do
  let (v, _) ← Cosmo.haloAge A CosmoCache.empty z zform
  pure v

/-- The age table applied to an array: scipy raises if any entry is outside. `cosmology.py` 119-125. -/
noncomputable def ageArray (A : AstropyI) (zs : List ℝ) : Except Err (List ℝ) := zs.mapM (ageInterp A)

/-- `Halo.time_since_infall`, `halo_base.py` 145-158, for a subhalo. -/
noncomputable def timeSinceInfall (A : AstropyI) (z zInfall : ℝ) : Except Err ℝ := do
  let t ← haloAge A z zInfall
  if 0 ≤ t then pure t else .error (.assertionError)

/-- `precompute_infall_times`, `batch_halo_util.py` 202-217: the times, given redshifts and infall
redshifts. The second `np.where` operand is evaluated everywhere. -/
noncomputable def timesSinceInfall (A : AstropyI) (zs zInfall : List ℝ) : Except Err (List ℝ) := do
  let tz ← ageArray A zs
  let ti ← ageArray A zInfall
  let dt := List.zipWith (fun (p : ℝ × ℝ) (q : ℝ × ℝ) => if p.1 > p.2 then 0 else q.1 - q.2)
    (zs.zip zInfall) (tz.zip ti)
  if dt.all fun t => decide (0 ≤ t) then pure dt else .error (.assertionError)

/-- What the age computation of `precompute_sidm_evolving_profiles` uses of a halo. `batch_halo_util.py` 515-607. -/
structure SidmHalo where
  z : ℝ
  isSub : Bool
  zInfall : ℝ
  lambdaT : ℝ

/-- `TNFWCHaloEvolving.halo_effective_age`, `NFW_core_trunc.py` 215-224, with
`sidm_halo_effective_age`, `lens_cosmo.py` 409-423, and `Halo.halo_age`, `halo_base.py` 185-192. -/
noncomputable def SidmHalo.age (A : AstropyI) (o : SidmHalo) : Except Err ℝ :=
  if o.isSub then effectiveAge (haloAge A) o.z o.zInfall o.lambdaT 10 else haloAge A o.z 10

/-- `precompute_sidm_evolving_profiles`, `batch_halo_util.py` 548-559: the subhalos (list `subs`). -/
noncomputable def subAges (A : AstropyI) (subs : List SidmHalo) : Except Err (List ℝ) := do
  let zInf := subs.map fun o => min o.zInfall 10
  let aInf ← ageArray A zInf
  let a10 ← ageInterp A 10
  let t1 := List.zipWith (fun z a => if z > 10 then 0 else a - a10) zInf aInf
  let aZ ← ageArray A (subs.map (·.z))
  let t2 := List.zipWith (fun (p : ℝ × ℝ) (q : ℝ × ℝ) => if p.1 > p.2 then 0 else q.1 - q.2)
    ((subs.map (·.z)).zip zInf) (aZ.zip aInf)
  pure (List.zipWith (fun (l : ℝ) (p : ℝ × ℝ) => p.1 + l * p.2) (subs.map (·.lambdaT)) (t1.zip t2))

/-- `precompute_sidm_evolving_profiles`, `batch_halo_util.py` 560-561: the field halos. -/
noncomputable def fieldAges (A : AstropyI) (fs : List SidmHalo) : Except Err (List ℝ) := do
  let aZ ← ageArray A (fs.map (·.z))
  let a10 ← ageInterp A 10
  pure (List.zipWith (fun z a => if z > 10 then 0 else a - a10) (fs.map (·.z)) aZ)

/-- Put the entries of `subs` and `fields` back into the positions given by a boolean mask
(`eff_age[is_sub] = ...`). `batch_halo_util.py` 515-607. -/
def merge {α : Type} : List Bool → List α → List α → List α
  | true :: m, s :: ss, fs => s :: merge m ss fs
  | false :: m, ss, f :: fs => f :: merge m ss fs
  | _, _, _ => []

/-- `precompute_sidm_evolving_profiles`, `batch_halo_util.py` 548-561: effective ages of a list of
halos. -/
noncomputable def sidmAges (A : AstropyI) (hs : List SidmHalo) : Except Err (List ℝ) := do
  let subs := hs.filter (·.isSub)
  let fields := hs.filter fun o => !o.isSub
  let a ← (if subs = [] then .ok [] else subAges A subs)
  let b ← (if fields = [] then .ok [] else fieldAges A fields)
  pure (merge (hs.map (·.isSub)) a b)

/-- `nfw_params_physical_vectorized`, `batch_halo_util.py` 36-64: `rhos`, `rs`, `r200` in kpc units. -/
noncomputable def nfwVectorized (e : Env) (ms cs zs : List ℝ) (pseudo : List Bool) :
    List (ℝ × ℝ × ℝ) :=
  let rhoc := zs.map e.rhoc
  let r200 := List.zipWith (fun m r => (3 * (m * e.h) / (4 * Real.pi * r * 200)) ^ (1 / 3 : ℝ) / e.h)
    ms rhoc
  let nfw := List.zipWith (fun r c => 200 / 3 * r * c ^ 3 / (Real.log (1 + c) - c / (1 + c))) rhoc cs
  let pse := List.zipWith (fun r c => 2 * c ^ 3 * r * 200 / (3 * Real.log (1 + c ^ 2))) rhoc cs
  let rho0 := List.zipWith (fun (b : Bool) (p : ℝ × ℝ) => (if b then p.1 else p.2) * e.h ^ 2) pseudo
    (pse.zip nfw)
  let rs := List.zipWith (fun r c => r / c) r200 cs
  List.zipWith (fun r (p : ℝ × ℝ) => (r * ((1000 : ℝ) ^ 3)⁻¹, p.1 * 1000, p.2 * 1000)) rho0
    (rs.zip r200)

/-- The radius of `precompute_tnfw_field_halos` for `TruncationRN`, `batch_halo_util.py` 446-456. -/
noncomputable def rnVectorized (e : Env) (N : ℝ) (ms zs : List ℝ) : List ℝ :=
  List.zipWith (fun m z =>
    (3 * m * e.h / (4 * Real.pi * e.rhoc z * N)) ^ (1 / 3 : ℝ) / e.h * 1000) ms zs

/-- `_sample_infall_redshifts`, `batch_halo_util.py` 220-246, for the models it treats at once
(`hybrid` and `direct`), with the uniform variates of the truncated normal sampler. -/
noncomputable def infallVectorized (N : NormalI) (k : InfallCoeffs) (zLens mHost : ℝ)
    (ms us : List ℝ) : List ℝ :=
  let q := ms.map fun m => Np.clip (m / mHost) ((10 : ℝ) ^ (-5.0 : ℝ)) ((10 : ℝ) ^ (-0.5 : ℝ))
  let mu := q.map (infallFit k.aMean k.bMean k.cMean)
  let sig := q.map (infallFit k.aStd k.bStd k.cStd)
  List.zipWith (fun (p : ℝ × ℝ) u =>
    zLens + (p.1 + p.2 * N.ndtri (N.ndtr ((0 - p.1) / p.2)
      + (N.ndtr ((15 - p.1) / p.2) - N.ndtr ((0 - p.1) / p.2)) * u))) (mu.zip sig) us

end Batch
end PyHalo
