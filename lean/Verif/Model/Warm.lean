import Verif.Model.Sidm
import Verif.Model.MassLoss
import Verif.Model.Truncation
import Verif.Model.Concentration
import Verif.Model.HaloObject
import Verif.Model.Accretion

/-!
# Warming the caches of halo objects

Models the functions `precompute_*` of `pyHalo/Halos/batch_halo_util.py` (67-86, 139-217, 366-460,
607-644) next to the per-halo reads they replace: `halo_base.py` 119-235, `NFW.py` 38-92,
`TNFW.py` 167-239 and 304-348, `TNFWFromParams.py` 17-34 and 57-65, and the truncation classes of
`tidal_truncation.py`.

Simplifications. Every halo carries the random variates it would consume, so that the two ways of
computing can be compared on the same draws. All halos share one `LensCosmo` instance.
`compute_r_te_and_f_t` and its array version are one parameter `rte` (they are compared in
`Props/TransferTable.lean`). The interpolation table inside a concentration class is the median
relation `med` (its state is the subject of C29). The SIDM stage of `precompute_realization` (638-639)
is left out: its array routines are treated in `Model/Sidm.lean`.
-/

namespace PyHalo
namespace Warm
open HaloObj
open scoped Classical

/-- The truncation classes, `tidal_truncation.py`: `TruncationGalacticus` (271-375),
`TruncationGalacticusZinfall` (377-481), `Multiple_RS` (170-183), `TruncationRN` (46-77); any other
class is a number and asks for a function in `World.other`. -/
inductive Tr where
  | galacticus (chost : ℝ)
  | zinfall (chost : ℝ)
  | multipleRs (tau : ℝ)
  | rn (N : ℝ)
  | other (id : ℕ)

/-- What the halos ask of the rest of the package. `batch_halo_util.py` 36-494. -/
structure World where
  A : AstropyI
  e : LensCosmo.Env
  N : NormalI
  k : InfallCoeffs
  zLens : ℝ
  mHost : ℝ
  /-- the median relation of a concentration class (`_evaluate_concentration`) -/
  med : ℕ → ℝ → ℝ → ℝ
  opts : ℕ → Conc.Opts
  /-- the suppression function of the classes with a turnover -/
  supp : ℕ → Option (ℝ → ℝ → ℝ)
  /-- `_ARRAY_SAFE_CONCENTRATION_MODELS` -/
  arraySafe : ℕ → Bool
  /-- `compute_r_te_and_f_t(m_bound, m, r200, c)` -/
  rte : ℝ → ℝ → ℝ → ℝ → ℝ × ℝ
  /-- radius of any other class, from mass, concentration, `z_eval` and a variate -/
  other : ℕ → ℝ → ℝ → ℝ → ℝ → ℝ
  /-- `nfw_physical2angle_fromNFWparams(rhos, rs, z)` -/
  angles : ℝ → ℝ → ℝ → ℝ × ℝ
  kpcPerArcsec : ℝ → ℝ
  vmax : ℝ → ℝ → ℝ
  fraction : ℝ → ℝ → ℝ
  /-- lenstronomy `TNFW.mass_3d(r, rs, rho0, tau)` -/
  mass3d : ℝ → ℝ → ℝ → ℝ → ℝ

/-- The classes: `NFWFieldHalo`/`NFWSubhhalo`; `TNFWFieldHalo`/`TNFWSubhalo`; `TNFWFromParams`, which
also has mass definition `'TNFW'`; anything else. `batch_halo_util.py` 609-644. -/
inductive Kind where
  | nfw
  | tnfw
  | prescribed
  | other
  deriving DecidableEq

/-- A halo object: the data given at construction, the variates it consumes, the lazily filled
attributes. `halo_base.py` 10-47, `TNFW.py` 14-27. -/
structure Halo where
  kind : Kind
  mass : ℝ
  x : ℝ
  y : ℝ
  z : ℝ
  isSub : Bool
  /-- `id(_concentration_class)` -/
  conc : ℕ
  /-- `_truncation_class` -/
  trunc : Tr
  /-- variates: infall redshift, concentration, and the draws of the truncation model -/
  vz : ℝ
  vc : ℝ
  vb : ℕ → ℝ
  drawn : ℕ
  /-- `_z_infall`, `_time_since_infall`, `_zeval`, `_c`, `_nfw_params` -/
  zInf : Option ℝ
  time : Option ℝ
  zEval : Option ℝ
  c : Option ℝ
  nfw : Option (ℝ × ℝ × ℝ)
  /-- `_mbound_galacticus_definition`, `_profile_args`, `_params_physical`, `_kwargs_lenstronomy`,
  `_vmax`, `_bound_mass`; physical parameters in the order `rhos, rs, r200, r_trunc_kpc` -/
  mb : Option ℝ
  prof : Option (ℝ × ℝ)
  phys : Option (ℝ × ℝ × ℝ × ℝ)
  kw : Option TnfwKw
  vmaxC : Option ℝ
  boundC : Option ℝ
  norm : Norm

/-! ## The per-halo reads -/

/-- `nfw_concentration(m, z)` for a number: `_ConcentrationCDM`, `concentration.py` 36-59, or
`_ConcentrationTurnover`, 180-193. -/
noncomputable def World.conc1 (W : World) (i : ℕ) (m z u : ℝ) : ℝ :=
  match W.supp i with
  | none => Conc.finish (W.opts i) false (W.med i m z) z u
  | some s => Conc.turnover (Conc.finish (W.opts i) false (W.med i m z) z u) (s m z)

/-- `NFW_params_physical(m, c, z)`, `lens_cosmo.py` 273-285, with the value `False` of
`_pseudo_nfw` that all classes here have (`NFW.py` 7, `TNFW.py`). -/
noncomputable def World.nfw1 (W : World) (m c z : ℝ) : ℝ × ℝ × ℝ :=
  match LensCosmo.nfwParamKpc W.e m c z (some false) with
  | .ok p => p
  | .error _ => (0, 0, 0)

/-- `z_infall`, `halo_base.py` 119-137. -/
noncomputable def Halo.readZ (W : World) (h : Halo) : Halo × ℝ :=
  match h.zInf with
  | some z => (h, z)
  | none =>
    let z := truncNormalInfall W.N W.k W.zLens W.mHost h.mass h.vz
    ({ h with zInf := some z }, z)

/-- `time_since_infall`, `halo_base.py` 139-153: nothing for field halos. -/
noncomputable def Halo.readTime (W : World) (h : Halo) : Halo × Except Err (Option ℝ) :=
  if h.isSub then
    match h.time with
    | some t => (h, .ok (some t))
    | none =>
      let (h, z) := h.readZ W
      match Batch.timeSinceInfall W.A h.z z with
      | .ok t => ({ h with time := some t }, .ok (some t))
      | .error e => (h, .error e)
  else (h, .ok none)

/-- `z_eval`, `halo_base.py` 204-214. -/
noncomputable def Halo.readZEval (W : World) (h : Halo) : Halo × ℝ :=
  match h.zEval with
  | some z => (h, z)
  | none =>
    if h.isSub then
      let (h, z) := h.readZ W
      ({ h with zEval := some z }, z)
    else ({ h with zEval := some h.z }, h.z)

/-- `c`, `NFW.py` 67-75, `TNFW.py` 172-179. -/
noncomputable def Halo.readC (W : World) (h : Halo) : Halo × ℝ :=
  match h.c with
  | some c => (h, c)
  | none =>
    let (h, z) := h.readZEval W
    let c := W.conc1 h.conc h.mass z h.vc
    ({ h with c := some c }, c)

/-- `nfw_params`, `halo_base.py` 216-225. -/
noncomputable def Halo.readNfw (W : World) (h : Halo) : Halo × (ℝ × ℝ × ℝ) :=
  match h.nfw with
  | some p => (h, p)
  | none =>
    let (h, c) := h.readC W
    let (h, z) := h.readZEval W
    let p := W.nfw1 h.mass c z
    ({ h with nfw := some p }, p)

/-- `rescale_normalization`, `halo_base.py` 64-93. -/
noncomputable def Halo.rescale (h : Halo) (c : Call) : Halo :=
  let r := h.norm.rescale c.factor c.force c.log
  if r.2 then { h with norm := r.1, phys := none, kw := none, nfw := none } else { h with norm := r.1 }

/-- What the truncation models that need a time do with `None`. `interp_mass_loss.py` 94-111, 133-150. -/
def noTime : Err := .typeError "'NoneType'"

/-- `calculate_mbound`, `tidal_truncation.py` 303-314 (`TruncationGalacticus`): concentration, time
since infall, one draw. -/
noncomputable def Halo.mboundGalacticus (W : World) (chost : ℝ) (h : Halo) : Halo × Except Err ℝ :=
  let (h, c) := h.readC W
  match h.readTime W with
  | (h, .ok (some t)) =>
    let loss := MassLoss.galacticus.call (Real.logb 10 c) t chost (h.vb h.drawn)
    ({ h with drawn := h.drawn + 1 }, .ok (h.mass * (10 : ℝ) ^ loss))
  | (h, .ok none) => (h, .error noTime)
  | (h, .error e) => (h, .error e)

/-- `calculate_mbound`, `tidal_truncation.py` 410-422 (`TruncationGalacticusZinfall`). -/
noncomputable def Halo.mboundZinfall (W : World) (chost : ℝ) (h : Halo) : Halo × Except Err ℝ :=
  let (h, c) := h.readC W
  let (h, z) := h.readZ W
  let loss := MassLoss.zinfall.call (Real.logb 10 c) (z - W.zLens) chost (h.vb h.drawn)
  ({ h with drawn := h.drawn + 1 }, .ok (h.mass * (10 : ℝ) ^ loss))

/-- `bound_mass_galacticus_definition`, `TNFW.py` 319-334. -/
noncomputable def Halo.readMb (W : World) (h : Halo) : Halo × Except Err ℝ :=
  let draw := match h.trunc with
    | .galacticus ch => some (h.mboundGalacticus W ch)
    | .zinfall ch => some (h.mboundZinfall W ch)
    | _ => none
  match draw with
  | none => (h, .error (.exception
      "this method can only be called when using one of the TruncationGalacticus class"))
  | some r =>
    match h.mb with
    | some m => (h, .ok m)
    | none =>
      match r with
      | (h, .ok m) => ({ h with mb := some m }, .ok m)
      | (h, .error e) => (h, .error e)

/-- `truncation_radius_from_bound_mass`, `tidal_truncation.py` 337-353: the radius, and the
normalisation of the halo is rescaled. -/
noncomputable def Halo.radiusFromBound (W : World) (h : Halo) (m : ℝ) : Halo × ℝ :=
  let (h, c) := h.readC W
  let (h, z) := h.readZEval W
  let (_, _, r200) := W.nfw1 h.mass c z
  let (r, f) := W.rte m h.mass r200 c
  (h.rescale ⟨f, false, true⟩, r)

/-- `truncation_radius_halo` of the class `t`, `tidal_truncation.py` 61-67, 316-335, 424-443,
178-181. -/
noncomputable def Halo.radiusHalo (W : World) (t : Tr) (h : Halo) : Halo × Except Err ℝ :=
  match t with
  | .galacticus ch =>
    match h.mboundGalacticus W ch with
    | (h, .ok m) =>
      let (h, r) := h.radiusFromBound W m
      (h, .ok r)
    | (h, .error e) => (h, .error e)
  | .zinfall ch =>
    match h.mboundZinfall W ch with
    | (h, .ok m) =>
      let (h, r) := h.radiusFromBound W m
      (h, .ok r)
    | (h, .error e) => (h, .error e)
  | .multipleRs tau =>
    let (h, p) := h.readNfw W
    (h, .ok (tau * p.2.1))
  | .rn N =>
    let (h, z) := h.readZEval W
    (h, .ok (Trunc.rn W.e N h.mass z))
  | .other i =>
    let (h, c) := h.readC W
    let (h, z) := h.readZEval W
    ({ h with drawn := h.drawn + 1 }, .ok (W.other i h.mass c z (h.vb h.drawn)))

/-- The truncation radius asked for by `profile_args`: `TNFWSubhalo`, `TNFW.py` 343-347;
`TNFWFieldHalo`, 225. -/
noncomputable def Halo.askRadius (W : World) (h : Halo) : Halo × Except Err ℝ :=
  match h.isSub, h.trunc with
  | true, .galacticus _ =>
    match h.readMb W with
    | (h, .ok m) =>
      let (h, r) := h.radiusFromBound W m
      (h, .ok r)
    | (h, .error e) => (h, .error e)
  | _, t => h.radiusHalo W t

/-- `profile_args` of the truncated classes, `TNFW.py` 219-227 and 336-348, and of
`TNFWFromParams` (57-65; `params_physical` there is set by the constructor, reading it after it was
deleted recurses without end). -/
noncomputable def Halo.readProf (W : World) (h : Halo) : Halo × Except Err (ℝ × ℝ) :=
  match h.prof with
  | some p => (h, .ok p)
  | none =>
    if h.kind = .prescribed then
      match h.phys with
      | none => (h, .error (.exception "RecursionError"))
      | some p =>
        let (h, c) := h.readC W
        ({ h with prof := some (c, p.2.2.2) }, .ok (c, p.2.2.2))
    else
      match h.askRadius W with
      | (h, .ok r) =>
        let (h, c) := h.readC W
        ({ h with prof := some (c, r) }, .ok (c, r))
      | (h, .error e) => (h, .error e)

/-- `params_physical`, `TNFW.py` 181-193. -/
noncomputable def Halo.readPhys (W : World) (h : Halo) : Halo × Except Err (ℝ × ℝ × ℝ × ℝ) :=
  match h.phys with
  | some p => (h, .ok p)
  | none =>
    match h.readProf W with
    | (h, .ok p) =>
      let (h, q) := h.readNfw W
      let v := (q.1 * h.norm.norm, q.2.1, q.2.2, p.2)
      ({ h with phys := some v }, .ok v)
    | (h, .error e) => (h, .error e)

/-- `lenstronomy_params`, `TNFW.py` 195-217. -/
noncomputable def Halo.readLens (W : World) (h : Halo) : Halo × Except Err TnfwKw :=
  match h.kw with
  | some k => (h, .ok k)
  | none =>
    match h.readProf W with
    | (h, .ok p) =>
      let (h, q) := h.readNfw W
      let a := W.angles (q.1 * 1e9) (q.2.1 * 1e-3) h.z
      let k : TnfwKw := ⟨h.norm.norm * round10 a.2, round10 a.1, round4 h.x, round4 h.y,
        round10 (p.2 / W.kpcPerArcsec h.z)⟩
      ({ h with kw := some k }, .ok k)
    | (h, .error e) => (h, .error e)

/-- `lenstronomy_params` of the untruncated classes, `NFW.py` 46-65, not kept. -/
noncomputable def Halo.readLensNfw (W : World) (h : Halo) : Halo × TnfwKw :=
  let (h, q) := h.readNfw W
  let a := W.angles (q.1 * 1e9) (q.2.1 * 1e-3) h.z
  (h, ⟨h.norm.norm * round10 a.2, round10 a.1, round4 h.x, round4 h.y, 0⟩)

/-- `lenstronomy_params` of `TNFWFromParams`, `TNFWFromParams.py` 68-93. -/
noncomputable def Halo.readLensPrescribed (W : World) (h : Halo) : Halo × Except Err TnfwKw :=
  match h.kw with
  | some k => (h, .ok k)
  | none =>
    match h.readPhys W with
    | (h, .ok p) =>
      let a := W.angles (p.1 * 1 / (1e-3) ^ 3) (p.2.1 * 1e-3) h.z
      let k : TnfwKw := ⟨h.norm.norm * round10 a.2, round10 a.1, round4 h.x, round4 h.y,
        p.2.2.2 / W.kpcPerArcsec h.z⟩
      ({ h with kw := some k }, .ok k)
    | (h, .error e) => (h, .error e)

/-- `vmax_nfw` of the untruncated classes, `NFW.py` 87-97. -/
noncomputable def Halo.readVmaxNfw (W : World) (h : Halo) : Halo × ℝ :=
  match h.vmaxC with
  | some v => (h, v)
  | none =>
    let (h, q) := h.readNfw W
    let (h, _) := h.readC W
    let v := W.vmax (h.norm.norm * q.1) q.2.1
    ({ h with vmaxC := some v }, v)

/-- `vmax_nfw`, `TNFW.py` 229-239. -/
noncomputable def Halo.readVmax (W : World) (h : Halo) : Halo × Except Err ℝ :=
  match h.vmaxC with
  | some v => (h, .ok v)
  | none =>
    let (h, q) := h.readNfw W
    match h.readProf W with
    | (h, .ok _) =>
      let v := W.vmax (h.norm.norm * q.1) q.2.1
      ({ h with vmaxC := some v }, .ok v)
    | (h, .error e) => (h, .error e)

/-- `bound_mass` of `TNFWSubhalo`, `TNFW.py` 304-317. -/
noncomputable def Halo.readBound (W : World) (h : Halo) : Halo × Except Err ℝ :=
  match h.kw with
  | some k =>
    let (h, c) := h.readC W
    (h, .ok (W.fraction (k.rTrunc / k.Rs) c * h.mass * h.norm.norm))
  | none =>
    match h.readPhys W with
    | (h, .ok p) =>
      let (h, c) := h.readC W
      (h, .ok (W.fraction (p.2.2.2 / p.2.1) c * h.mass * h.norm.norm))
    | (h, .error e) => (h, .error e)

/-- `mass_3d(rmax)`, `TNFW.py` 131-146, for a number: the normalisation is taken before the
truncation radius is asked for. -/
noncomputable def Halo.readMass3d (W : World) (h : Halo) (rmax : ℝ) : Halo × Except Err ℝ :=
  let (h, q) := h.readNfw W
  let rho := q.1 * h.norm.norm
  match h.readProf W with
  | (h, .ok p) => (h, .ok (W.mass3d rmax q.2.1 rho (p.2 / q.2.1)))
  | (h, .error e) => (h, .error e)

/-- The properties a user reads. `TNFW.py` 166-243, 306-349; `NFW.py` 28-116. -/
inductive Read where
  | zInfall
  | time
  | zEval
  | c
  | nfw
  | profile
  | phys
  | lens
  | vmax
  | bound
  | boundGalacticus

/-- The numbers in the lensing parameters. `TNFW.py` 196-217, `NFW.py` 47-63. -/
def kwList (k : TnfwKw) : List ℝ := [k.alphaRs, k.Rs, k.x, k.y, k.rTrunc]

/-- The error of a property that a class does not have. `halo_base.py` 104-105, 178-184. -/
def noAttribute : Err := .exception "this class does not have this attribute"

/-- One read, and the numbers it returns. `TNFW.py` 166-243, 306-349; `NFW.py` 28-116. -/
noncomputable def Halo.read (W : World) (h : Halo) : Read → Halo × Except Err (List ℝ)
  | .zInfall => let (h, z) := h.readZ W; (h, .ok [z])
  | .time => match h.readTime W with
    | (h, .ok none) => (h, .ok [])
    | (h, .ok (some t)) => (h, .ok [t])
    | (h, .error e) => (h, .error e)
  | .zEval => let (h, z) := h.readZEval W; (h, .ok [z])
  | .c => let (h, c) := h.readC W; (h, .ok [c])
  | .nfw => let (h, p) := h.readNfw W; (h, .ok [p.1, p.2.1, p.2.2])
  | .profile =>
    if h.kind = .nfw then let (h, c) := h.readC W; (h, .ok [c])
    else match h.readProf W with
      | (h, .ok p) => (h, .ok [p.1, p.2])
      | (h, .error e) => (h, .error e)
  | .phys =>
    if h.kind = .nfw then (h, .error noAttribute)
    else match h.readPhys W with
      | (h, .ok p) => (h, .ok [p.1, p.2.1, p.2.2.1, p.2.2.2])
      | (h, .error e) => (h, .error e)
  | .lens =>
    if h.kind = .nfw then let (h, k) := h.readLensNfw W; (h, .ok (kwList k))
    else match (if h.kind = .prescribed then h.readLensPrescribed W else h.readLens W) with
      | (h, .ok k) => (h, .ok (kwList k))
      | (h, .error e) => (h, .error e)
  | .vmax =>
    if h.kind = .nfw then let (h, v) := h.readVmaxNfw W; (h, .ok [v])
    else match h.readVmax W with
      | (h, .ok v) => (h, .ok [v])
      | (h, .error e) => (h, .error e)
  | .bound =>
    if h.kind = .nfw ∨ h.isSub = false then
      match h.boundC with
      | some m => (h, .ok [m])
      | none => (h, .error noAttribute)
    else match h.readBound W with
      | (h, .ok v) => (h, .ok [v])
      | (h, .error e) => (h, .error e)
  | .boundGalacticus =>
    if h.kind = .nfw ∨ h.isSub = false then (h, .error noAttribute)
    else match h.readMb W with
      | (h, .ok v) => (h, .ok [v])
      | (h, .error e) => (h, .error e)

/-- What a sequence of reads returns; a read that raises does not end the sequence.
`TNFW.py` 166-243, 306-349; `NFW.py` 28-116. -/
noncomputable def Halo.reports (W : World) : Halo → List Read → List (Except Err (List ℝ))
  | _, [] => []
  | h, r :: rs => (h.read W r).2 :: Halo.reports W (h.read W r).1 rs

/-- A newly constructed halo: `NFW.py` 15-26, `TNFW.py`. -/
def Halo.new (kind : Kind) (mass x y z : ℝ) (isSub : Bool) (conc : ℕ) (trunc : Tr) (vz vc : ℝ)
    (vb : ℕ → ℝ) : Halo :=
  { kind, mass, x, y, z, isSub, conc, trunc, vz, vc, vb, drawn := 0, zInf := none, time := none,
    zEval := none, c := none, nfw := none, mb := none, prof := none, phys := none, kw := none,
    vmaxC := none, boundC := none, norm := .fresh }

/-- A newly constructed `TNFWFromParams` halo, `TNFWFromParams.py` 17-34: physical parameters
`rhos, rs, rv, r_trunc_kpc` and the infall redshift are given, the concentration is `rv / rs`. -/
noncomputable def Halo.fromParams (mass x y z zInfall rhos rs rv rt : ℝ) (vz vc : ℝ) (vb : ℕ → ℝ) : Halo :=
  { Halo.new .prescribed mass x y z true 0 (.other 0) vz vc vb with
    zInf := some zInfall, c := some (rv / rs), phys := some (rhos, rs, rv, rt) }

/-- What may happen to a halo before its caches are warmed. `halo_base.py` 64-94, 160-176. -/
inductive Op where
  | read (r : Read)
  | mass3d (r : ℝ)
  | rescale (c : Call)
  /-- `set_infall_redshift`, `halo_base.py` 155-163, on a subhalo -/
  | setInfall (z : ℝ)
  /-- `_mbound_galacticus_definition = m`, as `TNFW.py` 300 does -/
  | assignBound (m : ℝ)
  /-- `set_bound_mass`, `halo_base.py` 165-170 -/
  | setBound (m : ℝ)

/-- One operation. `halo_base.py` 64-94, 160-176. -/
noncomputable def Halo.step (W : World) (h : Halo) : Op → Halo
  | .read r => (h.read W r).1
  | .mass3d r => if h.kind = .nfw then h else (h.readMass3d W r).1
  | .rescale c => h.rescale c
  | .setInfall z => if h.isSub then { h with zInf := some z } else h
  | .assignBound m => { h with mb := some m }
  | .setBound m => { h with boundC := some m }

/-- A history. `halo_base.py` 64-94, 160-176. -/
noncomputable def Halo.run (W : World) (h : Halo) (ops : List Op) : Halo := ops.foldl (Halo.step W) h

/-! ## The batched versions -/

/-- Let `f` work on the objects selected by `p`; the others stay. The lists of `batch_halo_util.py` 628-632. -/
noncomputable def onSel (p : Halo → Bool) (f : List Halo → Except Err (List Halo)) (hs : List Halo) :
    Except Err (List Halo) := do
  let l ← f (hs.filter p)
  pure (Batch.merge (hs.map p) l (hs.filter fun h => !p h))

/-- `batch_nfw_concentration`, `batch_halo_util.py` 103-136: masses and variates of a group at one
redshift. -/
noncomputable def concGroup (W : World) (i : ℕ) (z : ℝ) (ms us : List ℝ) : List ℝ :=
  if W.arraySafe i then
    let cs := Conc.finishArray (W.opts i) false (ms.map fun m => W.med i m z) z us
    match W.supp i with
    | none => cs
    | some s => (List.zipWith (fun c m => c * s m z) cs ms).map fun w =>
        if w < Conc.floorC then Conc.floorC else w
  else List.zipWith (fun m u => W.conc1 i m z u) ms us

/-- One group of `precompute_concentrations`, `batch_halo_util.py` 164-173. -/
noncomputable def concOneGroup (W : World) (k : ℕ × ℝ) (group : List Halo) : Except Err (List Halo) :=
  match group with
  | [h] => .ok [{ h with c := some (W.conc1 k.1 h.mass k.2 h.vc) }]
  | _ => .ok (List.zipWith (fun h c => { h with c := some c }) group
      (concGroup W k.1 k.2 (group.map (·.mass)) (group.map (·.vc))))

/-- The key of a halo, `batch_halo_util.py` 160-163 (`z_eval` has been read). -/
noncomputable def Halo.key (W : World) (h : Halo) : ℕ × ℝ := (h.conc, (h.readZEval W).2)

/-- `precompute_concentrations`, `batch_halo_util.py` 139-173. The groups are worked through in the
order of a list of the keys; they are disjoint. -/
noncomputable def precomputeConcentrations (W : World) (hs : List Halo) : Except Err (List Halo) := do
  let todo (h : Halo) : Bool := h.c.isNone
  let hs := hs.map fun h => if todo h then (h.readZEval W).1 else h
  let keys := ((hs.filter todo).map (Halo.key W)).dedup
  keys.foldlM (fun hs k => onSel (fun h => todo h && decide (h.key W = k)) (concOneGroup W k) hs) hs

/-- `precompute_infall_times`, `batch_halo_util.py` 176-217. The infall models other than `hybrid`
and `direct` are asked one halo at a time there, which is what the array routine computes
(`c31_infall`). -/
noncomputable def precomputeInfallTimes (W : World) (hs : List Halo) : Except Err (List Halo) :=
  onSel (·.isSub) (fun subs => do
    let subs ← onSel (fun h => h.zInf.isNone) (fun l =>
      .ok (List.zipWith (fun h z => { h with zInf := some z }) l
        (Batch.infallVectorized W.N W.k W.zLens W.mHost (l.map (·.mass)) (l.map (·.vz))))) subs
    onSel (fun h => h.time.isNone) (fun l => do
      let dt ← Batch.timesSinceInfall W.A (l.map (·.z)) (l.map fun h => (h.readZ W).2)
      pure (List.zipWith (fun h t => { h with time := some t }) l dt)) subs) hs

/-- `precompute_nfw_params`, `batch_halo_util.py` 67-86. -/
noncomputable def precomputeNfw (W : World) (hs : List Halo) : Except Err (List Halo) := do
  if hs = [] then pure [] else
    let hs ← precomputeConcentrations W hs
    let cs := hs.map fun h => (h.readC W).2
    let hs := hs.map fun h => (h.readC W).1
    let zs := hs.map fun h => (h.readZEval W).2
    let hs := hs.map fun h => (h.readZEval W).1
    let ps := Batch.nfwVectorized W.e (hs.map (·.mass)) cs zs (hs.map fun _ => false)
    pure (List.zipWith (fun h p => { h with nfw := some p }) hs ps)

/-- The array of `t_or_dz`, `batch_halo_util.py` 397-404. -/
noncomputable def timesOrDz (W : World) (t : Tr) (hs : List Halo) : Except Err (List Halo × List ℝ) :=
  match t with
  | .galacticus _ => do
    let ts ← hs.mapM fun h => match (h.readTime W).2 with
      | .ok (some t) => .ok t
      | .ok none => .error noTime
      | .error e => .error e
    pure (hs.map fun h => (h.readTime W).1, ts)
  | .zinfall _ => .ok (hs.map fun h => (h.readZ W).1, hs.map fun h => (h.readZ W).2 - W.zLens)
  | _ => .error (.exception
      "precompute_tnfw_subhalos supports the TruncationGalacticus and TruncationGalacticusZinfall models")

/-- The draws of `batch_halo_util.py` 406-415, for the halos without a bound mass. -/
noncomputable def batchLoss (t : Tr) (log10c ts : List ℝ) (us : List ℝ) : List ℝ :=
  match t with
  | .galacticus ch => MassLoss.vectorized false log10c ts ch us
  | .zinfall ch => MassLoss.vectorized true log10c ts ch us
  | _ => []

/-- The bound masses, `batch_halo_util.py` 406-420: halo, concentration and time of each halo
without an assigned bound mass enter one array draw; the others keep theirs. -/
noncomputable def batchBound (t : Tr) (l : List (Halo × ℝ × ℝ)) : List (Halo × ℝ × ℝ) × List ℝ :=
  let need := l.filter fun p => p.1.mb.isNone
  let have' := l.filter fun p => !p.1.mb.isNone
  let loss := batchLoss t (need.map fun p => Real.logb 10 p.2.1) (need.map fun p => p.2.2)
    (need.map fun p => p.1.vb p.1.drawn)
  let drawn := List.zipWith (fun m x => m * (10 : ℝ) ^ x) (need.map fun p => p.1.mass) loss
  let kept := have'.map fun p => p.1.mb.getD 0
  let ms := Batch.merge (l.map fun p => p.1.mb.isNone) drawn kept
  (List.zipWith (fun p m => ({ p.1 with
      mb := some m, drawn := if p.1.mb.isNone then p.1.drawn + 1 else p.1.drawn }, p.2)) l ms, ms)

/-- `precompute_tnfw_subhalos`, `batch_halo_util.py` 366-430. -/
noncomputable def precomputeSubs (W : World) (t : Tr) (hs : List Halo) : Except Err (List Halo) :=
  onSel (fun h => h.isSub && h.prof.isNone) (fun subs => do
    if subs = [] then pure [] else
      let subs ← precomputeInfallTimes W subs
      let subs ← precomputeConcentrations W subs
      let cs := subs.map fun h => (h.readC W).2
      let subs := subs.map fun h => (h.readC W).1
      let (subs, ts) ← timesOrDz W t subs
      let (l, mbs) := batchBound t (subs.zip (cs.zip ts))
      let subs := l.map (·.1)
      let zs := subs.map fun h => (h.readZEval W).2
      let subs := subs.map fun h => (h.readZEval W).1
      let ms := subs.map (·.mass)
      let ps := Batch.nfwVectorized W.e ms cs zs (subs.map fun _ => false)
      let rf := List.zipWith (fun (q : ℝ × ℝ) (r : (ℝ × ℝ × ℝ) × ℝ) => W.rte q.1 q.2 r.1.2.2 r.2)
        (mbs.zip ms) (ps.zip cs)
      pure (List.zipWith (fun h (q : ((ℝ × ℝ) × (ℝ × ℝ × ℝ)) × ℝ) =>
        { h.rescale ⟨q.1.1.2, false, true⟩ with nfw := some q.1.2, prof := some (q.2, q.1.1.1) })
        subs ((rf.zip ps).zip cs))) hs

/-- `precompute_tnfw_field_halos`, `batch_halo_util.py` 433-463. -/
noncomputable def precomputeField (W : World) (t : Tr) (hs : List Halo) : Except Err (List Halo) :=
  onSel (fun h => !h.isSub && h.prof.isNone) (fun fs => do
    if fs = [] then pure [] else
      let fs ← precomputeNfw W fs
      match t with
      | .multipleRs tau =>
        pure (fs.map fun h =>
          let (h, c) := h.readC W
          { h with prof := some (c, tau * (h.nfw.getD (0, 0, 0)).2.1) })
      | .rn N =>
        let zs := fs.map fun h => (h.readZEval W).2
        let fs := fs.map fun h => (h.readZEval W).1
        let rn := Batch.rnVectorized W.e N (fs.map (·.mass)) zs
        pure (List.zipWith (fun h r =>
          let (h, c) := h.readC W
          { h with prof := some (c, r) }) fs rn)
      | t =>
        fs.mapM fun h =>
          let (h, c) := h.readC W
          match h.radiusHalo W t with
          | (h, .ok r) => .ok { h with prof := some (c, r) }
          | (_, .error e) => .error e) hs

/-- `precompute_tnfw_bound_masses`, `batch_halo_util.py` 468-491; `W.fraction` is
`tnfw_mass_fraction`. -/
noncomputable def precomputeBound (W : World) (hs : List Halo) : Except Err (List Halo) :=
  onSel (fun h => h.isSub && h.boundC.isNone) (fun subs => subs.mapM fun h =>
    let (h, c) := h.readC W
    match h.readProf W with
    | (h, .ok p) =>
      let (h, q) := h.readNfw W
      .ok { h with boundC := some (W.fraction (p.2 / q.2.1) c * h.mass * h.norm.norm) }
    | (_, .error e) => .error e) hs

/-- The truncation classes in `kwargs_halo_model`. `batch_halo_util.py` 609-627. -/
structure KwModel where
  all : Option Tr
  subs : Option Tr
  field : Option Tr

/-- `_truncation_for`, `batch_halo_util.py` 619-623. -/
def KwModel.get (k : KwModel) (isSub : Bool) : Option Tr :=
  match k.all with
  | some t => some t
  | none => if isSub then k.subs else k.field

/-- `precompute_realization`, `batch_halo_util.py` 607-644, without the SIDM stage. -/
noncomputable def precomputeRealization (W : World) (k : KwModel) (hs : List Halo) :
    Except Err (List Halo) := do
  let tnfw (h : Halo) : Bool := decide (h.kind = .tnfw) || decide (h.kind = .prescribed)
  let hs ← (match k.get true with
    | some (.galacticus ch) => onSel (fun h => tnfw h && h.isSub) (precomputeSubs W (.galacticus ch)) hs
    | some (.zinfall ch) => onSel (fun h => tnfw h && h.isSub) (precomputeSubs W (.zinfall ch)) hs
    | _ => .ok hs)
  let hs ← (match k.get false with
    | some t => onSel (fun h => tnfw h && !h.isSub) (precomputeField W t) hs
    | none => .ok hs)
  onSel (fun h => decide (h.kind = .nfw)) (precomputeNfw W) hs

end Warm
end PyHalo
