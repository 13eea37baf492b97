import Verif.Model.Numpy

/-!
# Model of halo objects: `pyHalo/Halos/halo_base.py` and the caching in `pyHalo/Halos/HaloModels`

Python objects with lazily filled attributes: the object is a structure, a lazily filled attribute
is an `Option`, a property is a function from the object to the object after the read and the value.
-/

namespace PyHalo
namespace HaloObj

/-! ## The rescaling of the normalisation -/

/-- The attributes `_rescale_norm`, `_rescaled_once` (`halo_base.py` 41-43). -/
structure Norm where
  norm : ℝ
  once : Bool

/-- The state after `__init__` (`halo_base.py` 41-43). -/
def Norm.fresh : Norm := ⟨1, false⟩

/-- `rescale_normalization`, `halo_base.py` 64-93.  The second component says whether the branch
that deletes the caches `_params_physical`, `_kwargs_lenstronomy`, `_nfw_params` was taken. -/
noncomputable def Norm.rescale (n : Norm) (factor : ℝ) (force log : Bool) : Norm × Bool :=
  if force then (⟨n.norm * factor, if log then true else n.once⟩, true)
  else if n.once then (n, false)
  else (⟨n.norm * factor, if log then true else n.once⟩, true)

/-- A call `rescale_normalization(factor, force, log)`. `halo_base.py` 64-94. -/
structure Call where
  factor : ℝ
  force : Bool
  log : Bool

/-- A sequence of calls. `halo_base.py` 64-94. -/
noncomputable def Norm.run (n : Norm) (cs : List Call) : Norm :=
  cs.foldl (fun n c => (n.rescale c.factor c.force c.log).1) n

/-! ## What the halo classes do with position and normalisation -/

/-- Where `lenstronomy_params` keeps its result. `TNFW.py` 196-217 and the methods of the same name of the other classes. -/
inductive CacheKind where
  /-- recomputed at every read -/
  | none
  /-- in `_kwargs_lenstronomy`, which `rescale_normalization` deletes -/
  | cleared
  /-- in `_lenstronomy_args` or `_lenstronomy_params`, which nothing deletes -/
  | kept
  deriving DecidableEq

/-- The position written into the lensing parameters.
`NFW_core_trunc.py` 125-142, 342-353 and the methods of the same name of the other classes. -/
inductive PosKind where
  /-- `np.round(self.x, 4)` -/
  | rounded
  /-- `self.x` -/
  | exact
  /-- the position of the wrapped halo objects (`Hybrid`) -/
  | component
  /-- the `center_x`, `center_y` of the profile arguments (`GaussianHalo`) -/
  | args
  deriving DecidableEq

/-- A halo class, as far as position and normalisation of its lensing parameters go.
The methods `lenstronomy_params`, e.g. `TNFW.py` 196-217. -/
structure Cls where
  name : String
  cache : CacheKind
  pos : PosKind
  /-- the amplitude is multiplied by `_rescale_norm` -/
  usesNorm : Bool
  /-- created with `fixed_position=True` by default -/
  fixed : Bool

/-- `NFW.py` 46-63. -/
def nfw : Cls := ⟨"NFW", .none, .rounded, true, false⟩
/-- `TNFW.py` 195-217. -/
def tnfw : Cls := ⟨"TNFW", .cleared, .rounded, true, false⟩
/-- `TNFWemulator.py` 92-112. -/
def tnfwEmulator : Cls := ⟨"TNFWSubhaloEmulator", .cleared, .rounded, true, false⟩
/-- `NFW_core.py` 51-75. -/
def cnfw : Cls := ⟨"CNFW", .none, .rounded, true, false⟩
/-- `NFW_core_trunc.py` 122-141 (`TNFWCHaloParametric`, inherited by `TNFWCHaloEvolving`); the
amplitude is not multiplied by `_rescale_norm`. -/
def tnfwc : Cls := ⟨"TNFWC", .cleared, .rounded, false, false⟩
/-- `NFW_core_trunc.py` 340-352 (`Hybrid`): the parameters of the two wrapped objects. -/
def hybrid : Cls := ⟨"TNFWC_HYBRID", .cleared, .component, false, false⟩
/-- `ULDM.py` 43-64. -/
def uldm : Cls := ⟨"ULDM", .none, .rounded, false, false⟩
/-- `generalized_nfw.py` 55-72. -/
def gnfw : Cls := ⟨"GNFW", .kept, .rounded, false, false⟩
/-- `sis.py` 141-163. -/
def massiveGalaxy : Cls := ⟨"MassiveGalaxy", .kept, .rounded, false, false⟩
/-- `sis.py` 61-73. -/
def sis : Cls := ⟨"SIS", .cleared, .rounded, false, false⟩
/-- `powerlaw.py` 24-52. -/
def powerLaw : Cls := ⟨"SPL_CORE", .kept, .exact, false, false⟩
/-- `globular_cluster.py` 76-93. -/
def globularCluster : Cls := ⟨"GlobularCluster", .kept, .exact, false, true⟩
/-- `PsuedoJaffe.py` 54-84. -/
def pjaffe : Cls := ⟨"PJAFFE", .kept, .exact, false, false⟩
/-- `blackhole.py` 36-51. -/
def blackHole : Cls := ⟨"PT_MASS", .kept, .exact, false, true⟩
/-- `gaussianhalo.py` 37-46. -/
def gaussian : Cls := ⟨"GAUSSIAN_KAPPA", .none, .args, false, true⟩
/-- `core_collapsed_halo.py` 154-176. -/
def coreCollapsed : Cls := ⟨"CORE_COLLAPSED", .kept, .rounded, false, false⟩
/-- `core_collapsed_halo.py` 333-353; `lenstronomy_params_split` (308-331), which writes into the
same attribute, is a separate method and not part of the histories considered here. -/
def coreCollapsedBH : Cls := ⟨"CORE_COLLAPSED_BH", .kept, .rounded, false, false⟩

/-- All classes above. The methods `lenstronomy_params`, e.g. `TNFW.py` 196-217. -/
def allClasses : List Cls :=
  [nfw, tnfw, tnfwEmulator, cnfw, tnfwc, hybrid, uldm, gnfw, massiveGalaxy, sis, powerLaw,
    globularCluster, pjaffe, blackHole, gaussian, coreCollapsed, coreCollapsedBH]

/-- `np.round(x, 4)`. E.g. `NFW.py` 58. -/
noncomputable def round4 (x : ℝ) : ℝ := (Np.rint (10000 * x) : ℝ) / 10000

/-- `np.round(x, 10)`. E.g. `NFW.py` 59-60. -/
noncomputable def round10 (x : ℝ) : ℝ := (Np.rint (10 ^ 10 * x) : ℝ) / 10 ^ 10

/-- The part of `lenstronomy_params` that depends on the state: the centre, and the multiple of
the unrescaled amplitude. E.g. `TNFW.py` 196-217. -/
structure Emitted where
  x : ℝ
  y : ℝ
  amp : ℝ

/-- A halo object. `px`, `py`: position of wrapped halos or of the profile arguments, which shifts
do not touch. `halo_base.py` 10-47. -/
structure Obj where
  x : ℝ
  y : ℝ
  px : ℝ
  py : ℝ
  fixed : Bool
  norm : Norm
  cache : Option Emitted

/-- A new object: a wrapper is built at the position of the wrapped halo (`NFW_core_trunc.py` 292). -/
def Obj.new (cls : Cls) (x y : ℝ) : Obj := ⟨x, y, x, y, cls.fixed, .fresh, none⟩

/-- The parameters computed from the current attributes. E.g. `TNFW.py` 196-217. -/
noncomputable def Obj.compute (cls : Cls) (o : Obj) : Emitted :=
  let amp := if cls.usesNorm then o.norm.norm else 1
  match cls.pos with
  | .rounded => ⟨round4 o.x, round4 o.y, amp⟩
  | .exact => ⟨o.x, o.y, amp⟩
  | .component => ⟨round4 o.px, round4 o.py, amp⟩
  | .args => ⟨o.px, o.py, amp⟩

/-- Reading `lenstronomy_params`. E.g. `TNFW.py` 196-217. -/
noncomputable def Obj.read (cls : Cls) (o : Obj) : Obj × Emitted :=
  match cls.cache with
  | .none => (o, o.compute cls)
  | _ =>
    match o.cache with
    | some e => (o, e)
    | none => ({ o with cache := some (o.compute cls) }, o.compute cls)

/-- Operations on a halo: a read, a displacement by `shift_background_to_source`
(`single_realization.py` 399-418, skips halos with a fixed position), a rescaling. -/
inductive Op where
  | read
  | shift (dx dy : ℝ)
  | rescale (c : Call)

/-- One operation. `halo_base.py` 64-94, `TNFW.py` 196-217, `single_realization.py` 410-418. -/
noncomputable def Obj.step (cls : Cls) (o : Obj) : Op → Obj
  | .read => (o.read cls).1
  | .shift dx dy => if o.fixed then o else { o with x := o.x + dx, y := o.y + dy }
  | .rescale c =>
    let r := o.norm.rescale c.factor c.force c.log
    { o with norm := r.1, cache := if r.2 ∧ cls.cache = .cleared then none else o.cache }

/-- A history. The methods of `Obj.step`: `halo_base.py` 64-94, `TNFW.py` 196-217. -/
noncomputable def Obj.run (cls : Cls) (o : Obj) (ops : List Op) : Obj :=
  ops.foldl (Obj.step cls) o

/-! ## The truncated NFW halo in detail -/

/-- What the methods of `TNFWFieldHalo`/`TNFWSubhalo` compute from immutable data and library
calls.  The concentration and the infall redshift are drawn once and kept (`TNFW.py` 176-179,
`halo_base.py` 126-137), so they are constants here; `nfw_params` is a function of constants. -/
structure TnfwI where
  mass : ℝ
  c : ℝ
  /-- `NFW_params_physical(mass, c, z_eval)`: rhos, rs, r200 -/
  rhos : ℝ
  rs : ℝ
  r200 : ℝ
  /-- what the truncation model returns for this halo [kpc] -/
  rt : ℝ
  /-- the factor it passes to `rescale_normalization`, for the models that do
  (`tidal_truncation.py` 334, 352, 442, 460, 543, 561, 615, 684, 702) -/
  ft : Option ℝ
  /-- `nfw_physical2angle_fromNFWparams(rhos * 1e9, rs * 1e-3, z)` -/
  angles : ℝ → ℝ → ℝ × ℝ
  kpcPerArcsec : ℝ
  /-- lenstronomy `TNFW.mass_3d(r, rs, rho0, tau)` -/
  mass3d : ℝ → ℝ → ℝ → ℝ → ℝ
  /-- `nfw_vmax` -/
  vmax : ℝ → ℝ → ℝ
  /-- `tnfw_mass_fraction(tau, c)` -/
  fraction : ℝ → ℝ → ℝ

/-- The lensing parameters of a TNFW halo. `TNFW.py` 196-217. -/
structure TnfwKw where
  alphaRs : ℝ
  Rs : ℝ
  x : ℝ
  y : ℝ
  rTrunc : ℝ

/-- The physical parameters of a TNFW halo. `TNFW.py` 183-193. -/
structure TnfwPhys where
  rhos : ℝ
  rs : ℝ
  r200 : ℝ
  rTrunc : ℝ

/-- A TNFW object. `TNFW.py` 14-27. -/
structure Tnfw where
  x : ℝ
  y : ℝ
  norm : Norm
  profileArgs : Option (ℝ × ℝ)
  phys : Option TnfwPhys
  kw : Option TnfwKw
  vmaxC : Option ℝ

/-- A new object. `TNFW.py` 14-27. -/
def Tnfw.new (x y : ℝ) : Tnfw := ⟨x, y, .fresh, none, none, none, none⟩

/-- `rescale_normalization` on the object. `halo_base.py` 64-94. -/
noncomputable def Tnfw.rescale (s : Tnfw) (c : Call) : Tnfw :=
  let r := s.norm.rescale c.factor c.force c.log
  if r.2 then { s with norm := r.1, phys := none, kw := none } else { s with norm := r.1 }

/-- `profile_args`, `TNFW.py` 219-227 and 337-349: the first read asks the truncation model, which
may rescale the halo. -/
noncomputable def Tnfw.readProfile (I : TnfwI) (s : Tnfw) : Tnfw × (ℝ × ℝ) :=
  match s.profileArgs with
  | some p => (s, p)
  | none =>
    let s1 := match I.ft with
      | some f => s.rescale ⟨f, false, true⟩
      | none => s
    ({ s1 with profileArgs := some (I.c, I.rt) }, (I.c, I.rt))

/-- `params_physical`, `TNFW.py` 181-193. -/
noncomputable def Tnfw.readPhys (I : TnfwI) (s : Tnfw) : Tnfw × TnfwPhys :=
  match s.phys with
  | some p => (s, p)
  | none =>
    let (s1, (_, rt)) := s.readProfile I
    let p : TnfwPhys := ⟨I.rhos * s1.norm.norm, I.rs, I.r200, rt⟩
    ({ s1 with phys := some p }, p)

/-- `lenstronomy_params`, `TNFW.py` 195-217. -/
noncomputable def Tnfw.readLens (I : TnfwI) (s : Tnfw) : Tnfw × TnfwKw :=
  match s.kw with
  | some k => (s, k)
  | none =>
    let (s1, (_, rt)) := s.readProfile I
    let a := I.angles (I.rhos * 1e9) (I.rs * 1e-3)
    let k : TnfwKw := ⟨s1.norm.norm * round10 a.2, round10 a.1, round4 s1.x, round4 s1.y,
      round10 (rt / I.kpcPerArcsec)⟩
    ({ s1 with kw := some k }, k)

/-- `mass_3d(rmax)`, `TNFW.py` 131-146, for a number `rmax`: the density normalisation is read
before the truncation radius. -/
noncomputable def Tnfw.readMass3d (I : TnfwI) (s : Tnfw) (rmax : ℝ) : Tnfw × ℝ :=
  let rho0 := I.rhos * s.norm.norm
  let (s1, (_, rt)) := s.readProfile I
  (s1, I.mass3d rmax I.rs rho0 (rt / I.rs))

/-- `density_profile_3d(r)`, `TNFW.py` 112-129, with the default arguments. -/
noncomputable def Tnfw.readDensity (I : TnfwI) (s : Tnfw) (r : ℝ) : Tnfw × ℝ :=
  let (s1, (_, rt)) := s.readProfile I
  let tau := rt / I.rs
  let x := r / I.rs
  (s1, 1 * (I.rhos / x / (1 + x) ^ 2) * tau ^ 2 / (tau ^ 2 + x ^ 2))

/-- `vmax_nfw`, `TNFW.py` 229-239. -/
noncomputable def Tnfw.readVmax (I : TnfwI) (s : Tnfw) : Tnfw × ℝ :=
  match s.vmaxC with
  | some v => (s, v)
  | none =>
    let (s1, _) := s.readProfile I
    let v := I.vmax (s1.norm.norm * I.rhos) I.rs
    ({ s1 with vmaxC := some v }, v)

/-- `bound_mass`, `TNFW.py` 304-317. -/
noncomputable def Tnfw.readBound (I : TnfwI) (s : Tnfw) : Tnfw × ℝ :=
  match s.kw with
  | some k => (s, I.fraction (k.rTrunc / k.Rs) I.c * I.mass * s.norm.norm)
  | none =>
    let (s1, p) := s.readPhys I
    (s1, I.fraction (p.rTrunc / p.rs) I.c * I.mass * s1.norm.norm)

/-- Operations on a TNFW object. Methods of `TNFW.py` 58-265. -/
inductive TOp where
  | profile
  | phys
  | lens
  | mass3d (r : ℝ)
  | density (r : ℝ)
  | vmax
  | bound
  | shift (dx dy : ℝ)
  | rescale (c : Call)

/-- One operation. Methods of `TNFW.py` 58-265. -/
noncomputable def Tnfw.step (I : TnfwI) (s : Tnfw) : TOp → Tnfw
  | .profile => (s.readProfile I).1
  | .phys => (s.readPhys I).1
  | .lens => (s.readLens I).1
  | .mass3d r => (s.readMass3d I r).1
  | .density r => (s.readDensity I r).1
  | .vmax => (s.readVmax I).1
  | .bound => (s.readBound I).1
  | .shift dx dy => { s with x := s.x + dx, y := s.y + dy }
  | .rescale c => s.rescale c

/-- A history. Methods of `TNFW.py` 58-265. -/
noncomputable def Tnfw.run (I : TnfwI) (s : Tnfw) (ops : List TOp) : Tnfw :=
  ops.foldl (Tnfw.step I) s

/-! ## `TNFWFromParams` -/

/-- What `TNFWFromParams` uses. `TNFWFromParams.py` 1-93. -/
structure FromParamsI where
  /-- the parameters given by the user: density, scale radius, virial radius, truncation radius -/
  rhos : ℝ
  rs : ℝ
  rv : ℝ
  rt : ℝ
  /-- `NFW_params_physical(mass, rv / rs, z_eval)` -/
  nfwRhos : ℝ
  nfwRs : ℝ
  nfwR200 : ℝ
  angles : ℝ → ℝ → ℝ × ℝ
  kpcPerArcsec : ℝ

/-- The object: `_params_physical` is filled by `__init__` (`TNFWFromParams.py` 28-29). -/
structure FromParams where
  x : ℝ
  y : ℝ
  norm : Norm
  profileArgs : Option (ℝ × ℝ)
  /-- `rhos, rs, r_trunc_kpc` -/
  phys : Option (ℝ × ℝ × ℝ)
  kw : Option TnfwKw

/-- `__init__`, `TNFWFromParams.py` 17-34. -/
def FromParams.new (I : FromParamsI) (x y : ℝ) : FromParams :=
  ⟨x, y, .fresh, none, some (I.rhos, I.rs, I.rt), none⟩

/-- `rescale_normalization` inherited from `halo_base.py` 64-93. -/
noncomputable def FromParams.rescale (s : FromParams) (c : Call) : FromParams :=
  let r := s.norm.rescale c.factor c.force c.log
  if r.2 then { s with norm := r.1, phys := none, kw := none } else { s with norm := r.1 }

/-- `params_physical`, inherited from `TNFW.py` 181-193, with `profile_args` of
`TNFWFromParams.py` 57-65: when both caches are empty each of the two properties reads the other,
which python ends with a `RecursionError`. -/
noncomputable def FromParams.readPhys (I : FromParamsI) (s : FromParams) :
    Except Err (FromParams × (ℝ × ℝ × ℝ)) :=
  match s.phys with
  | some p => .ok (s, p)
  | none =>
    match s.profileArgs with
    | none => .error (.exception "RecursionError")
    | some (_, rt) =>
      let p := (I.nfwRhos * s.norm.norm, I.nfwRs, rt)
      .ok ({ s with phys := some p }, p)

/-- `profile_args`, `TNFWFromParams.py` 57-65. -/
noncomputable def FromParams.readProfile (I : FromParamsI) (s : FromParams) :
    Except Err (FromParams × (ℝ × ℝ)) :=
  match s.profileArgs with
  | some p => .ok (s, p)
  | none => do
    let (s1, (_, _, rt)) ← s.readPhys I
    pure ({ s1 with profileArgs := some (I.rv / I.rs, rt) }, (I.rv / I.rs, rt))

/-- `lenstronomy_params`, `TNFWFromParams.py` 68-93. -/
noncomputable def FromParams.readLens (I : FromParamsI) (s : FromParams) :
    Except Err (FromParams × TnfwKw) :=
  match s.kw with
  | some k => .ok (s, k)
  | none => do
    let (s1, (rhos, rs, rt)) ← s.readPhys I
    let a := I.angles (rhos * 1 / (1e-3) ^ 3) (rs * 1e-3)
    let k : TnfwKw := ⟨s1.norm.norm * round10 a.2, round10 a.1, round4 s1.x, round4 s1.y,
      rt / I.kpcPerArcsec⟩
    pure ({ s1 with kw := some k }, k)

end HaloObj
end PyHalo
