import Verif.Model.Run
import Verif.Model.Extensions
import Verif.Model.Populations
import Verif.Model.Galacticus

/-!
# From rows to halo objects, and the presets that transform a cold dark matter realization

Models `Realization.__init__` and `_load_halo_model` (`single_realization.py` 65-124, 702-771), the extensions at the end of
`CDM` (`cdm.py` 197-203), `SIDM_core_collapse`, `SIDM_parametric` and `SIDM_parametric_fixedbins` (`sidm.py`), `CDM_plus_BH`
(`mbh.py`), and the combination of subhalos from outside with a preset (`external.py` 86-96, 156-163, 216-246).
-/

namespace PyHalo
namespace Whole
open Preset Run

/-! ## Halo classes -/

/-- The halo classes imported by `single_realization.py` and used by `_load_halo_model`.
`single_realization.py` 1-14, 732-768. -/
inductive HaloClass
  | nfwField | nfwSub | tnfwField | tnfwSub | blackHole | pjaffe | uldmField | uldmSub | gaussian | gnfwField | gnfwSub
  | powerLawField | powerLawSub
  deriving DecidableEq

/-- The mass definition the constructor hands to the base class: `NFW.py` 24, `TNFW.py` 24, `blackhole.py` 18,
`PsuedoJaffe.py` 24, `ULDM.py` 22, `gaussianhalo.py` 21, `generalized_nfw.py` 22, `powerlaw.py` 20. -/
def HaloClass.mdef : HaloClass → String
  | nfwField | nfwSub => "NFW"
  | tnfwField | tnfwSub => "TNFW"
  | blackHole => "PT_MASS"
  | pjaffe => "PJAFFE"
  | uldmField | uldmSub => "ULDM"
  | gaussian => "GAUSSIAN_KAPPA"
  | gnfwField | gnfwSub => "PSEUDO_DPL"
  | powerLawField | powerLawSub => "SPL_CORE"

/-- `lenstronomy_ID`: `NFW.py` 44, `TNFW.py` 171, `blackhole.py` 34, `PsuedoJaffe.py` 105, `ULDM.py` 31, `gaussianhalo.py` 34,
`generalized_nfw.py` 78, `powerlaw.py` 61. -/
def HaloClass.lensIDs : HaloClass → List String
  | nfwField | nfwSub => ["NFW"]
  | tnfwField | tnfwSub => ["TNFW"]
  | blackHole => ["POINT_MASS"]
  | pjaffe => ["PJAFFE"]
  | uldmField | uldmSub => ["CNFW", "ULDM"]
  | gaussian => ["GAUSSIAN"]
  | gnfwField | gnfwSub => ["PSEUDO_DPL"]
  | powerLawField | powerLawSub => ["SPL_CORE"]

/-- `fixed_position`: `True` for `BlackHole` (`blackhole.py` 11) and `GaussianHalo` (`gaussianhalo.py` 23), else the default of
`halo_base.py` 11. -/
def HaloClass.fixed : HaloClass → Bool
  | blackHole | gaussian => true
  | _ => false

/-- Whether `bound_mass` of a new object can be read: only `TNFWSubhalo` computes it (`TNFW.py` 306-317), the base class raises
(`halo_base.py` 177-183). -/
def HaloClass.hasBound : HaloClass → Bool
  | tnfwSub => true
  | _ => false

/-- The class as the conversion routines see it. `realization_extensions.py` 1-26. -/
def HaloClass.ext : HaloClass → Ext.Cls
  | tnfwField | tnfwSub => .tnfw
  | gnfwField | gnfwSub => .gnfw
  | powerLawField | powerLawSub => .powerLaw
  | _ => .other

/-- The choice of the class, `single_realization.py` 732-769. `TNFWCHaloEvolving` is not imported. -/
def selectClass (mdef : String) (sub : Bool) : Except Err HaloClass :=
  if mdef = "NFW" then .ok (if sub then .nfwSub else .nfwField)
  else if mdef = "TNFW" then .ok (if sub then .tnfwSub else .tnfwField)
  else if mdef = "TNFWC_SIDM" then .error (.nameError "TNFWCHaloEvolving")
  else if mdef = "PT_MASS" then .ok .blackHole
  else if mdef = "PJAFFE" then .ok .pjaffe
  else if mdef = "ULDM" then .ok (if sub then .uldmSub else .uldmField)
  else if mdef = "GAUSSIAN_KAPPA" then .ok .gaussian
  else if mdef = "GNFW" then .ok (if sub then .gnfwSub else .gnfwField)
  else if mdef = "SPL_CORE" then .ok (if sub then .powerLawSub else .powerLawField)
  else .error (.valueError "halo profile not recongnized.")

/-- `kwargs_halo_model`: the models (of any type `M`) under the keys `truncation_model`, `truncation_model_subhalos`,
`truncation_model_field_halos`, `concentration_model`, `concentration_model_subhalos`, `concentration_model_field_halos`, and
the reference of the dictionary `kwargs_density_profile`. `single_realization.py` 703-731. -/
structure HaloKw (M : Type) where
  trunc : Option M
  truncSub : Option M
  truncField : Option M
  conc : Option M
  concSub : Option M
  concField : Option M
  density : Option ℕ

/-- `kwargs[key]`. `single_realization.py` 703-731. -/
def entry {M : Type} (o : Option M) (key : String) : Except Err M :=
  match o with
  | some m => .ok m
  | none => .error (.keyError key)

/-- The truncation model of a halo, `single_realization.py` 715-721. -/
def HaloKw.truncation {M : Type} (kw : HaloKw M) (sub : Bool) : Except Err M :=
  match kw.trunc with
  | some m => .ok m
  | none => if sub then entry kw.truncSub "truncation_model_subhalos" else entry kw.truncField "truncation_model_field_halos"

/-- The concentration model of a halo, `single_realization.py` 722-728. -/
def HaloKw.concentration {M : Type} (kw : HaloKw M) (sub : Bool) : Except Err M :=
  match kw.conc with
  | some m => .ok m
  | none =>
    if sub then entry kw.concSub "concentration_model_subhalos" else entry kw.concField "concentration_model_field_halos"

/-- What the properties `bound_mass` and `lenstronomy_params` of a new object will return. `halo_base.py` 122-128, 178-184. -/
structure View where
  boundMass : HaloClass → HaloArgs → ℝ
  lensParams : HaloClass → HaloArgs → List Kw

/-- A new halo object, its class and its models. `single_realization.py` 703-771. -/
structure Loaded (M : Type) where
  obj : Ext.Obj
  cls : HaloClass
  trunc : M
  conc : M

/-- `_load_halo_model`, `single_realization.py` 702-771, and the constructor of the class with `halo_base.py` 32-46. -/
noncomputable def load {M : Type} (V : View) (kw : HaloKw M) (a : HaloArgs) (tag : Tag) : Except Err (Loaded M) := do
  let t ← kw.truncation a.isSubhalo
  let c ← kw.concentration a.isSubhalo
  let args ← entry kw.density "kwargs_density_profile"
  let cls ← selectClass a.mdef a.isSubhalo
  if a.z > 0 then
    pure {
      obj := {
        mass := a.mass
        x := a.x
        y := a.y
        r3d := a.r3d
        z := a.z
        mdef := cls.mdef
        tag := tag
        isSubhalo := a.isSubhalo
        fixedPosition := cls.fixed
        boundMass := V.boundMass cls a
        lensIDs := cls.lensIDs
        lensParams := V.lensParams cls a
        cls := cls.ext
        args := args
        zInfall := none
        hasBound := cls.hasBound
        note := none }
      cls := cls
      trunc := t
      conc := c }
  else throw .assertionError

/-- The loop of `Realization.__init__`, `single_realization.py` 106-112; `tags i` is the random number drawn for the `i`-th
halo. -/
noncomputable def loadAll {M : Type} (V : View) (kw : HaloKw M) (tags : ℕ → Tag) :
    ℕ → List HaloArgs → Except Err (List (Loaded M))
  | _, [] => .ok []
  | i, a :: t => do
    let o ← load V kw a (tags i)
    let os ← loadAll V kw tags (i + 1) t
    pure (o :: os)

/-- Contents of unused references. No object of `single_realization.py` 703-771 is there. -/
def blank : Ext.Obj :=
  { mass := 0, x := 0, y := 0, r3d := none, z := 0, mdef := "", tag := 0, isSubhalo := false, fixedPosition := false,
    boundMass := 0, lensIDs := [], lensParams := [], cls := .other, args := 0, zInfall := none, hasBound := false, note := none }

/-- The store with the new objects; they share dictionary 0. `single_realization.py` 97-124. -/
def storeOf (d : Kw) (os : List Ext.Obj) : Ext.Store where
  obj := fun i => (os[i]?).getD blank
  next := os.length
  dict := fun _ => d
  nextDict := 1

/-- `Realization.__init__` for the new objects, `single_realization.py` 97-124, with `mass_sheet_correction=True`
(`pyhalo.py` 131-134). -/
noncomputable def newRealization {M : Type} (d : Kw) (os : List (Loaded M)) (lc : LensCosmoI) (keys : List String)
    (classes : List (Option RClass)) (g : GeometryI) : Ext.Store × Realization :=
  let s := storeOf d (os.map (·.obj))
  (s, Realization.fromHalos s.heap (List.range os.length) lc keys true classes none none (some g))

/-! ## Whole calls -/

/-- What whole calls get from outside besides `Run.World`: the properties of halo objects, the random tags, `D_C_z` and
`sigma_crit_mass` (of the lens and source redshifts and `kwargs_cosmo`), the scale radius `nfw_params[1]`,
`sidm_collapse_timescale`, `point_mass_factor_z`, and for globular clusters the arguments and the centres behind each
`kwargs_globular_clusters`, the lensing parameters and the random numbers; for black holes the random numbers.
`single_realization.py` 97-124; `realization_extensions.py` 72-260. -/
structure Kit where
  phys : Ext.Phys
  view : View
  tags : ℕ → Tag
  DC : ℕ → ℝ → ℝ
  sigmaCritMass : ℝ → ℝ → ℕ → ℝ → ℝ → ℝ
  scaleRadius : Halo → Except Err ℝ
  collapseTime : ℕ → ℝ → ℝ → ℝ → ℝ
  pointMass : ℕ → ℝ → ℝ
  gc : ℕ → Pop.GCArgs × List ℝ × List ℝ
  gcParams : ℝ → ℝ → ℝ → Kw → List Kw
  gcDraw : ℕ → Pop.GCDraw
  seed : ℕ → Pop.Seed
  bhTag : ℕ → ℕ → Tag

/-- The `LensCosmo` of a call. `pyhalo.py` 56-135. -/
def lensCosmoOf (K : Kit) (S : Setup) : LensCosmoI := ⟨S.zLens, S.zSource, K.DC S.kc, K.sigmaCritMass S.zLens S.zSource S.kc⟩

/-- The geometry as a realization sees it. `pyhalo.py` 56-135. -/
noncomputable def geometryView (g : Geometry) : GeometryI := ⟨g.openingAngle, g.physicalArea⟩

/-- The rendering class of a population, `halo_population.py` 50-66, for the sheets; the names are class attributes
(`line_of_sight.py` 11 and 66, `subhalos.py` 10, `two_halo.py` 10). -/
noncomputable def renderingClass (W : Run.World) (K : Kit) (S : Setup) (planes gaps : List ℝ) (i : ℕ) (name : String) (mc : Cls)
    (mkw : Kwargs) (sc : Cls) (skw : Kwargs) : Except Err RClass :=
  let g := geometryView S.geometry
  let lc := lensCosmoOf K S
  if name = "SUBHALOS" then do
    let lo ← limit W mkw "log_mlow"
    let hi ← limit W mkw "log_mhigh"
    pure (subhalosRClass (fun x y => massFnOf W i (subModel W S mc mkw x y)) g lc (lo S.zLens) (hi S.zLens))
  else if name = "LINE_OF_SIGHT" then do
    let s ← flatSpatial W i sc skw
    let c ← losClassOf W S i planes gaps mc mkw s
    pure (c.toRClass g lc)
  else if name = "LINE_OF_SIGHT_NOSHEET" then .ok (noSheetRClass "LINE_OF_SIGHT_NO_SHEET")
  else if name = "TWO_HALO" then .ok (noSheetRClass "TWO_HALO_TERM")
  else .error (.exception "model not recognized. ")

/-- The rendering class of population `i`, `halo_population.py` 37-66. -/
noncomputable def renderingClassAt (W : Run.World) (K : Kit) (S : Setup) (r : Request) (planes gaps : List ℝ) (p : String × ℕ) :
    Except Err (Option RClass) := do
  let mc ← item r.massFunctions p.2
  let mkw ← item r.massKwargs p.2
  let sc ← item r.spatials p.2
  let skw ← item r.spatialKwargs p.2
  let c ← renderingClass W K S planes gaps p.2 p.1 mc mkw sc skw
  pure (some c)

/-- All rendering classes, `pyhalo.py` 104-118. -/
noncomputable def renderingClasses (W : Run.World) (K : Kit) (S : Setup) (r : Request) : Except Err (List (Option RClass)) := do
  let (planes, gaps) ← lensPlanes (some S.zLens) S.zSource r.planeSpacing
  r.populations.zipIdx.mapM (renderingClassAt W K S r planes gaps)

/-- `kwargs_halo_model` of a request, `cdm.py` 187-191: models by status, one density dictionary. -/
def haloKw (r : Request) : HaloKw (Cls × Kwargs) :=
  { trunc := none, truncSub := some r.truncSub, truncField := some r.truncField,
    conc := none, concSub := some r.concSub, concField := some r.concField, density := some 0 }

/-- The keys of `kwargs_halo_model`, `cdm.py` 187-191. -/
def haloKeys : List String :=
  ["truncation_model_subhalos", "concentration_model_subhalos", "truncation_model_field_halos",
    "concentration_model_field_halos", "kwargs_density_profile"]

/-- The numbers in `kwargs_density_profile`; the dictionary of `ULDM` (`uldm.py`) with its entries.
`cdm.py` 191, `uldm.py` 144-167. -/
noncomputable def densityDict : Val → Kw
  | .uldmProfile m b p => [("log10_m_uldm", m), ("scale_nfw", if b then 1 else 0), ("uldm_plaw", p)]
  | _ => []

/-- `pyHalo.render` with one realization, `pyhalo.py` 56-135, up to the realization. -/
noncomputable def realize (W : Run.World) (K : Kit) (S : Setup) (r : Request) : Except Err (Ext.Store × Realization) := do
  let rows ← render W S 1 r
  let classes ← renderingClasses W K S r
  let os ← loadAll K.view (haloKw r) K.tags 0 rows
  pure (newRealization (densityDict r.density) os (lensCosmoOf K S) haloKeys classes (geometryView S.geometry))

/-- The store after objects have been created in a heap at references from `s.next` on. The dictionaries of the new objects are
not modelled. `realization_extensions.py` 72-260. -/
def lift (s : Ext.Store) (σ : Heap) (r : Realization) : Ext.Store :=
  { s with
    obj := fun k => if k < s.next then s.obj k
      else { σ k with cls := .other, args := 0, zInfall := none, hasBound := false, note := none }
    next := r.halos.foldl (fun n k => max n (k + 1)) s.next }

/-- `add_globular_clusters(**kwargs_globular_clusters)`, `cdm.py` 200-202, `sidm.py` 180-182, `mbh.py` 60-62. -/
noncomputable def addClusters (W : Run.World) (K : Kit) (kc n : ℕ) (p : Ext.Store × Realization) :
    Except Err (Ext.Store × Realization) := do
  let (a, cx, cy) := K.gc n
  let (σ, r) ← Pop.addGlobularClusters a K.gcParams (K.pointMass kc) (W.kpc kc p.2.lensCosmo.zLens) p.1.heap p.1.next p.2 cx cy
    K.gcDraw
  pure (lift p.1 σ r, r)

/-- One of the extensions at the end of `CDM`, `cdm.py` 197-202. -/
noncomputable def applyPost (W : Run.World) (K : Kit) (kc : ℕ) (p : Ext.Store × Realization) :
    Post → Except Err (Ext.Store × Realization)
  | .sis t m => Ext.sisInjection K.phys t m p.1 p.2
  | .globularClusters n => addClusters W K kc n p

/-- A whole call of `CDM`, `cdm.py` 13-203. -/
noncomputable def cdmCall (W : Run.World) (K : Kit) (E : Preset.Env) (a : CdmArgs) (d : Dicts) :
    Except Err (Ext.Store × Realization) := do
  let r ← (cdm E a d).1
  let g ← geometryOf W a.zLens a.zSource a.cone a.geometryType a.kwargsCosmo
  let p ← realize W K ⟨a.zLens, a.zSource, a.kwargsCosmo, g⟩ r
  r.post.foldlM (applyPost W K a.kwargsCosmo) p

/-- A whole call of `WDM`, `wdm.py` 10-220. -/
noncomputable def wdmCall (W : Run.World) (K : Kit) (E : Preset.Env) (a : WdmArgs) (d : Dicts) :
    Except Err (Ext.Store × Realization) := do
  let r ← (Preset.wdm E a d).1
  let g ← geometryOf W a.zLens a.zSource a.cone a.geometryType a.kwargsCosmo
  let p ← realize W K ⟨a.zLens, a.zSource, a.kwargsCosmo, g⟩ r
  r.post.foldlM (applyPost W K a.kwargsCosmo) p

/-! ## Self-interacting dark matter -/

/-- The arguments that the three presets of `sidm.py` share, with the defaults of 5-16, 102-111 and 185-194, except the five
dictionaries. -/
structure SidmCommon where
  zLens : ℝ
  zSource : ℝ
  sigmaSub : ℝ := 0.025
  log10SigmaSub : Option ℝ := none
  log10dNdA : Option ℝ := none
  logMlow : ℝ := 6
  logMhigh : ℝ := 10
  concSub : String := "DIEMERJOYCE19"
  concField : String := "DIEMERJOYCE19"
  truncSub : TruncSpec := .name "TRUNCATION_GALACTICUS"
  infall : InfallArg := .name "HYBRID_INFALL"
  truncField : TruncSpec := .name "TRUNCATION_RN"
  shmfLogSlope : ℝ := -1.9
  cone : ℝ := 6
  logMHost : ℝ := 13.3
  rTidal : ℝ := 0.25
  losNormalization : ℝ := 1
  geometryType : String := "DOUBLE_CONE"
  kwargsCosmo : ℕ := 0
  globularClusters : Option ℕ := none

/-- The positional arguments of `CDM` up to `kwargs_cosmo`, `sidm.py` 82-92 and 162-173. The clusters are not among them. -/
def SidmCommon.cdm (a : SidmCommon) : CdmArgs :=
  { zLens := a.zLens, zSource := a.zSource, sigmaSub := a.sigmaSub, logMlow := a.logMlow, logMhigh := a.logMhigh,
    log10SigmaSub := a.log10SigmaSub, log10dNdA := a.log10dNdA, concSub := a.concSub, concField := a.concField,
    truncSub := a.truncSub, truncField := a.truncField, infall := a.infall, spatial := "UNIFORM",
    shmfLogSlope := a.shmfLogSlope, cone := a.cone, logMHost := a.logMHost, rTidal := a.rTidal,
    losNormalization := a.losNormalization, twoHalo := true, deltaPowerLawIndex := 0, geometryType := a.geometryType,
    kwargsCosmo := a.kwargsCosmo }

/-- The arguments of `SIDM_core_collapse`, `sidm.py` 5-16. A probability is a number or a function of the halo. -/
structure CollapseArgs extends SidmCommon where
  rangesSub : List (ℝ × ℝ)
  rangesField : List (ℝ × ℝ)
  probSub : List (Ext.Obj → ℝ)
  probField : List (Ext.Obj → ℝ)
  hostScaling : ℝ := 0.55
  redshiftScaling : ℝ := 0.37
  lazar : Bool := true
  drawPoisson : Bool := true
  cHost : Option ℝ := some 6
  sisThreshold : Option ℝ := some (5 * 10 ^ 10)
  galaxyModel : String := "GNFW"
  profile : String := "TNFWC"
  kwargsProfile : Kw := []

/-- The call of `CDM`, `sidm.py` 82-95. -/
def CollapseArgs.cdm (a : CollapseArgs) : CdmArgs :=
  { a.toSidmCommon.cdm with
    hostScaling := a.hostScaling
    redshiftScaling := a.redshiftScaling
    lazar := a.lazar
    drawPoisson := a.drawPoisson
    cHost := a.cHost
    globularClusters := a.globularClusters
    sisThreshold := a.sisThreshold
    galaxyModel := a.galaxyModel }

/-- `SIDM_core_collapse`, `sidm.py` 5-100; `us` are the uniform variates. -/
noncomputable def sidmCoreCollapse (W : Run.World) (K : Kit) (E : Preset.Env) (a : CollapseArgs) (d : Dicts) (us : ℕ → ℝ) :
    Except Err (Ext.Store × Realization) := do
  let (s, r) ← cdmCall W K E a.cdm d
  let idx ← Ext.coreCollapseByMass s r a.rangesSub a.rangesField a.probSub a.probField us
  Ext.addCoreCollapsed K.phys idx a.profile a.kwargsProfile s r

/-- The arguments of `SIDM_parametric`, `sidm.py` 102-111. -/
structure ParametricArgs extends SidmCommon where
  ranges : List (ℝ × ℝ)
  sections : List ℝ
  logScaling : ℝ := 0
  evolving : Bool := true
  xCore : Option ℝ := none

/-- The options of `toSIDM_from_cross_section` in the call `sidm.py` 175-179, with the defaults of
`realization_extensions.py` 691-702. -/
noncomputable def ParametricArgs.options (a : ParametricArgs) : Ext.SidmArgs :=
  { xCore := a.xCore, evolving := a.evolving, prob := 1, profile := "TNFWC", gammaInner := 2.5, scaleMatch := 2,
    slopeMatch := -2, threshold := 1 }

/-- `add_globular_clusters` if requested, `sidm.py` 180-182, `mbh.py` 60-62. -/
noncomputable def optClusters (W : Run.World) (K : Kit) (kc : ℕ) (o : Option ℕ) (p : Ext.Store × Realization) :
    Except Err (Ext.Store × Realization) :=
  match o with
  | some n => addClusters W K kc n p
  | none => .ok p

/-- `SIDM_parametric`, `sidm.py` 102-183; `us` are the uniform variates. -/
noncomputable def sidmParametric (W : Run.World) (K : Kit) (E : Preset.Env) (a : ParametricArgs) (d : Dicts) (us : ℕ → ℝ) :
    Except Err (Ext.Store × Realization) := do
  let (s, r) ← cdmCall W K E a.toSidmCommon.cdm d
  let p ← Ext.fromCrossSection K.phys a.options a.ranges a.sections (K.collapseTime a.kwargsCosmo) a.logScaling s r us
  optClusters W K a.kwargsCosmo a.globularClusters p

/-- The arguments of `SIDM_parametric_fixedbins`, `sidm.py` 185-194. -/
structure FixedBinsArgs extends SidmCommon where
  sectionLow : ℝ
  sectionHigh : ℝ
  logScaling : ℝ := 0
  evolving : Bool := true
  xCore : Option ℝ := none

/-- The call of `SIDM_parametric`, `sidm.py` 206-218. -/
def FixedBinsArgs.parametric (a : FixedBinsArgs) : ParametricArgs :=
  { a.toSidmCommon with
    ranges := [(a.logMlow, 8), (8, a.logMhigh)]
    sections := [a.sectionLow, a.sectionHigh]
    logScaling := a.logScaling
    evolving := a.evolving
    xCore := a.xCore }

/-- `SIDM_parametric_fixedbins`, `sidm.py` 185-218. -/
noncomputable def sidmFixedBins (W : Run.World) (K : Kit) (E : Preset.Env) (a : FixedBinsArgs) (d : Dicts) (us : ℕ → ℝ) :
    Except Err (Ext.Store × Realization) :=
  if a.logMlow > 8 then .error (.exception "to use this function log_mlow must be < 8")
  else sidmParametric W K E a.parametric d us

/-! ## Black holes -/

/-- The arguments of `CDM_plus_BH`, `mbh.py` 4-21. -/
structure BHCallArgs where
  zLens : ℝ
  zSource : ℝ
  logRatio : ℝ
  logOccupation : ℝ
  logSubres : ℝ := 5
  logMin : ℝ := 4.5
  logMax : ℝ := 6.7
  sigmaSub : ℝ := 0.025
  logMlow : ℝ := 6
  logMhigh : ℝ := 10
  log10SigmaSub : Option ℝ := none
  shmfLogSlope : ℝ := -1.9
  cone : ℝ := 6
  logMHost : ℝ := 13.3
  losNormalization : ℝ := 1
  geometryType : String := "DOUBLE_CONE"
  globularClusters : Option ℕ := none

/-- The call of `CDM`, `mbh.py` 48-50. -/
def BHCallArgs.cdm (a : BHCallArgs) : CdmArgs :=
  { zLens := a.zLens, zSource := a.zSource, sigmaSub := a.sigmaSub, logMlow := a.logMlow, logMhigh := a.logMhigh,
    log10SigmaSub := a.log10SigmaSub, shmfLogSlope := a.shmfLogSlope, cone := a.cone, logMHost := a.logMHost,
    losNormalization := a.losNormalization, geometryType := a.geometryType }

/-- The arguments of `add_black_holes`, `mbh.py` 52-58. -/
noncomputable def BHCallArgs.seeds (a : BHCallArgs) : Pop.BHArgs :=
  { logRatio := a.logRatio, f := (10 : ℝ) ^ a.logOccupation, logSubres := a.logSubres, logMin := a.logMin,
    logMlow := a.logMlow, logMax := a.logMax, losNorm := a.losNormalization }

/-- `kwargs_model_subres`, `realization_extensions.py` 128-133; the mass limits are handed over separately. -/
noncomputable def subresKw (norm : ℝ) : Kwargs :=
  Kwargs.ofList [("m_pivot", .num (10 ^ 8)), ("LOS_normalization", .num norm), ("delta_power_law_index", .num 0),
    ("draw_poisson", .bool true)]

/-- `ShethTormen.from_redshift` for the unresolved halos, `realization_extensions.py` 134-137, with the random numbers of
population 3 (the populations of `CDM` are 0, 1, 2). -/
noncomputable def subresModel (W : Run.World) (S : Setup) : Pop.SubresModel := fun z dz lo hi norm =>
  massFnOf W 3 (losModel W S (.named "ShethTormen") (subresKw norm) z dz lo hi)

/-- `LensConeUniform(cone_opening_angle, geometry).draw`, `realization_extensions.py` 138-141. -/
noncomputable def subresSpatial (W : Run.World) (S : Setup) (k n : ℕ) (z : ℝ) : List ℝ × List ℝ :=
  lensConeDraw S.geometry.openingAngle (W.kpc S.kc z) (S.geometry.renderingScale z) 0 0 n (W.angle 3 k) (W.radius 3 k)

/-- `CDM_plus_BH`, `mbh.py` 4-63. The cosmology is the default one. -/
noncomputable def cdmPlusBH (W : Run.World) (K : Kit) (E : Preset.Env) (a : BHCallArgs) (d : Dicts) :
    Except Err (Ext.Store × Realization) := do
  let (s, r) ← cdmCall W K E a.cdm d
  let g ← geometryOf W a.zLens a.zSource a.cone a.geometryType 0
  let S : Setup := ⟨a.zLens, a.zSource, 0, g⟩
  let (σ, mbh) ← Pop.addBlackHoles a.seeds (K.pointMass 0) (W.kpc 0) K.scaleRadius (subresModel W S) (subresSpatial W S)
    s.heap s.next r K.seed K.bhTag
  let joined := r.join σ mbh false
  optClusters W K 0 a.globularClusters (lift s σ joined, joined)

/-! ## Subhalos from outside -/

/-- `TNFWFromParams.__init__`, `TNFWFromParams.py` 17-32 and `TNFW.py` 14-26: positions in kpc become angles. No caller gives a
tag; the default `None` is the tag `noTag`. `bound` and `params` stand for `bound_mass` and `lenstronomy_params`. -/
noncomputable def fromParams (kpc z : ℝ) (noTag : Tag) (bound : ℝ) (params : List Kw) (mass x y : ℝ) (r3d : Option ℝ) : Halo where
  mass := mass
  x := x / kpc
  y := y / kpc
  r3d := r3d
  z := z
  mdef := "TNFW"
  tag := noTag
  isSubhalo := true
  fixedPosition := false
  boundMass := bound
  lensIDs := ["TNFW"]
  lensParams := params

/-- The subhalos that `DMFromGalacticus` makes of the selected nodes, `external.py` 156-160. -/
noncomputable def galacticusHalos (kpc z : ℝ) (noTag : Tag) (bound : Galacticus.Sub → ℝ) (params : Galacticus.Sub → List Kw)
    (l : List Galacticus.Sub) : List Halo :=
  l.map fun q => fromParams kpc z noTag (bound q) (params q) q.mass q.x q.y (some q.r3d)

/-- The subhalos that `DMSubhalosFromEmulator` makes, `external.py` 217-219: without a three-dimensional distance. -/
noncomputable def emulatorHalos (kpc z : ℝ) (noTag : Tag) (bound : Galacticus.EmulatorSub → ℝ)
    (params : Galacticus.EmulatorSub → List Kw) (l : List Galacticus.EmulatorSub) : List Halo :=
  l.map fun q => fromParams kpc z noTag (bound q) (params q) q.mass q.x q.y none

/-- `Realization.from_halos(halo_list, lens_cosmo, kwargs_halo_model={}, msheet_correction=False, rendering_classes=None)`,
`external.py` 161-162 and 221-222: `None` becomes a list with one entry (`single_realization.py` 337-338). `n` is the first
free reference. -/
noncomputable def externalRealization (σ : Heap) (n : Oid) (l : List Halo) (lc : LensCosmoI) (g : Option GeometryI) :
    Heap × Realization :=
  let σ' := Pop.place σ n l
  (σ', Realization.fromHalos σ' (Pop.refs n l) lc [] false [none] none none g)

/-- The end of `DMFromGalacticus`, `external.py` 161-163, for the realization `los` of the preset. -/
noncomputable def joinGalacticus (σ : Heap) (n : Oid) (los : Realization) (l : List Halo) : Heap × Realization :=
  let (σ', sub) := externalRealization σ n l los.lensCosmo none
  (σ', los.join σ' sub false)

/-- `JointLOSWithEmulator`, `external.py` 242-246: `los` is the realization of the preset; the emulator's realization has its own
`LensCosmo` and geometry. -/
noncomputable def joinEmulator (σ : Heap) (n : Oid) (los : Realization) (l : List Halo) (lc : LensCosmoI) (g : GeometryI) :
    Heap × Realization :=
  let (σ', sub) := externalRealization σ n l lc (some g)
  (σ', sub.join σ' los false)

/-- The call of the preset by `DMFromGalacticus`, `external.py` 86-96, for `CDM`: the keyword arguments of the user with four of
them overwritten. The lens redshift is 0.5. -/
noncomputable def losArgs (a : CdmArgs) (zSource cone : ℝ) : CdmArgs :=
  { a with sigmaSub := 0, cone := cone, zLens := 0.5, zSource := zSource }

/-- `DMFromGalacticus` with `preset_model_los="CDM"`, `external.py` 12-163; `nodes` are the selected nodes as a function of the
scale at the lens (`Galacticus.subhalos`). -/
noncomputable def fromGalacticus (W : Run.World) (K : Kit) (E : Preset.Env) (a : CdmArgs) (d : Dicts) (zSource cone : ℝ)
    (noTag : Tag) (bound : Galacticus.Sub → ℝ) (params : Galacticus.Sub → List Kw)
    (nodes : ℝ → Except Err (List Galacticus.Sub)) : Except Err (Ext.Store × Realization) := do
  let (s, los) ← cdmCall W K E (losArgs a zSource cone) d
  let kpc := W.kpc a.kwargsCosmo 0.5
  let l ← nodes kpc
  let (σ, r) := joinGalacticus s.heap s.next los (galacticusHalos kpc 0.5 noTag bound params l)
  pure (lift s σ r, r)

/-- `JointLOSWithEmulator` with the preset `CDM`, `external.py` 226-246: the opening angle is not handed to the preset, and the
emulator uses the default cosmology. -/
noncomputable def jointWithEmulator (W : Run.World) (K : Kit) (E : Preset.Env) (a : CdmArgs) (d : Dicts) (cone : ℝ)
    (noTag : Tag) (bound : Galacticus.EmulatorSub → ℝ) (params : Galacticus.EmulatorSub → List Kw)
    (l : List Galacticus.EmulatorSub) : Except Err (Ext.Store × Realization) := do
  let g ← geometryOf W a.zLens a.zSource cone "DOUBLE_CONE" 0
  let (s, los) ← cdmCall W K E a d
  let (σ, r) := joinEmulator s.heap s.next los (emulatorHalos (W.kpc 0 a.zLens) a.zLens noTag bound params l)
    (lensCosmoOf K ⟨a.zLens, a.zSource, 0, g⟩) (geometryView g)
  pure (lift s σ r, r)

end Whole
end PyHalo
