import Verif.Model.PresetsMore
import Verif.Model.Uldm
import Mathlib.MeasureTheory.Integral.IntervalIntegral.Basic

/-!
# From the request of a preset to the halos

Models `pyHalo.render` (`pyhalo.py` 56-135) with everything it calls: the populations made by `HaloPopulation.__init__`
(`halo_population.py` 15-66) from the names, classes and dictionaries of a `Request`, the mass functions made from the
dictionaries (`density_peaks.py`, `subhalos.py`, `mass_function_base.py`), the spatial distributions and the two-halo term
(`two_halo.py`).
-/

namespace PyHalo
namespace Run
open Preset

/-- What a call gets from outside: the distances, the scale `kpc_proper_per_asec`, the Hubble constant divided by 100, the
Hubble distance and `efunc` of astropy, `Om(z)`, the mass function of colossus (`dndlnM` of the mass in `M_sun/h`), the
two-halo term of colossus over the mean density (`twohaloterm`, `lens_cosmo.py` 159-174), the scale and virial radii of the
host, the densities of lenstronomy's cored NFW profile (of the scale radius, core radius and radius), and the random
numbers. The first natural number is `kwargs_cosmo`; for random numbers it is the number of the population, and the second
the number of the plane. -/
structure World where
  dist : ℕ → Distances
  kpc : ℕ → ℝ → ℝ
  h : ℕ → ℝ
  hubble : ℕ → ℝ
  efunc : ℕ → ℝ → ℝ
  om : ℕ → ℝ → ℝ
  dndlnM : ℕ → ℝ → ℝ → ℝ
  twoHaloTerm : ℕ → ℝ → ℝ → ℝ → ℝ
  hostR200 : ℕ → ℝ → ℝ → ℝ
  hostRs : ℕ → ℝ → ℝ → ℝ → ℝ
  density2d : ℝ → ℝ → ℝ → ℝ
  density3d : ℝ → ℝ → ℝ → ℝ
  pois : ℕ → ℕ → ℕ
  mass : ℕ → ℕ → ℕ → ℝ
  accept : ℕ → ℕ → ℕ → ℝ
  angle : ℕ → ℕ → ℕ → ℝ
  radius : ℕ → ℕ → ℕ → ℝ
  radius3d : ℕ → ℕ → ℕ → ℝ

/-- The `pyHalo` instance and the argument `geometry_class`. `pyhalo.py` 27-47. -/
structure Setup where
  zLens : ℝ
  zSource : ℝ
  kc : ℕ
  geometry : Geometry

/-! ## Volumes -/

/-- `_volume_integrand_comoving`, `geometry.py` 102-113. -/
noncomputable def volumeIntegrand (W : World) (kc : ℕ) (g : Geometry) (r z : ℝ) : ℝ :=
  g.comovingArea r z * (W.hubble kc * (W.efunc kc z)⁻¹)

/-- `volume_element_comoving`, `geometry.py` 83-100, without `radius`. The quadrature is the exact integral. -/
noncomputable def volumeElement (W : World) (kc : ℕ) (g : Geometry) (z dz : ℝ) : ℝ :=
  let r := 0.5 * g.openingAngle
  if dz > 1e-4 then ∫ t in z..(z + dz), volumeIntegrand W kc g r t else volumeIntegrand W kc g r z * dz

/-! ## Mass functions of field halos -/

/-- `np.polyfit(x, y, 1)`: slope and intercept of the least squares line, without the rounding of the algorithm.
Used in `density_peaks.py` 53, 95, 138. -/
noncomputable def polyfit1 (x y : List ℝ) : ℝ × ℝ :=
  let n : ℝ := x.length
  let sx := x.sum
  let sy := y.sum
  let sxx := (x.map fun t => t * t).sum
  let sxy := (List.zipWith (· * ·) x y).sum
  let slope := (n * sxy - sx * sy) / (n * sxx - sx * sx)
  (slope, (sy - slope * sx) / n)

/-- `evaluate_mass_function`, `density_peaks.py` 8-25. -/
noncomputable def evaluateMassFunction (W : World) (kc : ℕ) (m z : ℝ) : ℝ :=
  W.dndlnM kc (m * W.h kc) z / m * W.h kc ^ 3

/-- The fit to ten masses, `density_peaks.py` 48-52 (90-94, 133-137). -/
noncomputable def massFit (W : World) (kc : ℕ) (z mPivot lo hi : ℝ) : ℝ × ℝ :=
  let m := (Np.linspace lo hi 10).map fun t => (10 : ℝ) ^ t
  polyfit1 (m.map fun t => Real.logb 10 (t / mPivot)) (m.map fun t => Real.logb 10 (evaluateMassFunction W kc t z))

/-- The suppression of a mass function class: none for `CDMPowerLaw` and `ShethTormen`; the arguments of the other
constructors, `mass_function_base.py` 140-160 and 194-212. -/
noncomputable def turnoverOf (c : Cls) (kw : Kwargs) : Except Err (Option (ℝ → ℝ)) :=
  if c = .named "CDMPowerLaw" ∨ c = .named "ShethTormen" then .ok none
  else if c = .named "WDMPowerLaw" ∨ c = .named "ShethTormenTurnover" then do
    let mc ← kw.num "log_mc"
    let a ← kw.num "a_wdm"
    let b ← kw.num "b_wdm"
    let c ← kw.num "c_wdm"
    pure (some (turnoverWDM mc a b c))
  else if c = .named "MixedWDMPowerLaw" ∨ c = .named "ShethTormenMixedWDM" then do
    let mc ← kw.num "log_mc"
    let a ← kw.num "a_wdm"
    let b ← kw.num "b_wdm"
    let c ← kw.num "c_wdm"
    let f ← kw.num "mixed_DM_frac"
    pure (some (turnoverMixed mc a b c f))
  else .error (.typeError "mass function class")

/-- A draw from an unsuppressed or suppressed power law with the random numbers of population `i` and plane `k`.
`mass_function_base.py` 40-60, 102-113, 163-174. -/
noncomputable def drawFrom (W : World) (i k : ℕ) (p : PowerLaw) : Option (ℝ → ℝ) → Except Err (List ℝ)
  | none => p.draw (W.pois i k) (W.mass i k)
  | some t => drawSuppressed p t (W.pois i k) (W.mass i k) (W.accept i k)

/-- `first_moment`: `mass_function_base.py` 23-30, and `integrate_power_law_quad` (89-95) as the exact integral. -/
noncomputable def firstMomentOf (p : PowerLaw) : Option (ℝ → ℝ) → ℝ
  | none => p.firstMoment
  | some t => ∫ m in ((10 : ℝ) ^ p.logMlow)..((10 : ℝ) ^ p.logMhigh), turnoverIntegrand p.norm 1 p.index t m

/-- The mass function made of a power law and a suppression, or of the error of the constructor.
Used for `line_of_sight.py` 39-58 and `subhalos.py` 63-98. -/
noncomputable def massFnOf (W : World) (i : ℕ) (m : Except Err (PowerLaw × Option (ℝ → ℝ))) : MassFn :=
  match m with
  | .ok (p, t) => ⟨fun k => drawFrom W i k p t, firstMomentOf p t⟩
  | .error e => ⟨fun _ => .error e, 0⟩

/-- `_redshift_dependent_mass_range`, `rendering_class_base.py` 62-84: a number, or the callable of `ULDM`. -/
noncomputable def limit (W : World) (kw : Kwargs) (key : String) : Except Err (ℝ → ℝ) :=
  match kw key with
  | some (.num x) => .ok fun _ => x
  | some (.minMass m kc lo) => .ok fun z => Uldm.minMass (W.om kc) m lo z
  | some _ => .error (.typeError "number or callable expected")
  | none => .error (.keyError key)

/-- `from_redshift` of the three classes of `density_peaks.py` (39-61, 81-104, 123-148); the other classes do not have this
method. -/
noncomputable def losModel (W : World) (S : Setup) (c : Cls) (kw : Kwargs) (z dz lo hi : ℝ) :
    Except Err (PowerLaw × Option (ℝ → ℝ)) :=
  if c ∉ [.named "ShethTormen", .named "ShethTormenTurnover", .named "ShethTormenMixedWDM"] then
    .error (.attributeError "from_redshift")
  else do
    let pivot ← kw.num "m_pivot"
    let p ← losPowerLaw (massFit W S.kc z pivot) (volumeElement W S.kc S.geometry z dz) kw (some lo) (some hi)
    let t ← turnoverOf c kw
    pure (p, t)

/-- `Subhalos._get_mass_function_model`, `subhalos.py` 63-98. -/
noncomputable def subModel (W : World) (S : Setup) (c : Cls) (kw : Kwargs) (lo hi : ℝ) :
    Except Err (PowerLaw × Option (ℝ → ℝ)) := do
  let p ← subPowerLaw kw S.zLens (W.kpc S.kc S.zLens) S.geometry.openingAngle (some lo) (some hi)
  let t ← turnoverOf c kw
  pure (p, t)

/-! ## Spatial distributions -/

/-- `Geometry.__init__`, `geometry.py` 8-46, with the default `angle_pad`. -/
noncomputable def geometryOf (W : World) (zLens zSource cone : ℝ) (type : String) (kc : ℕ) : Except Err Geometry := do
  let v ← volumeOfName type
  pure ⟨W.dist kc, zLens, zSource, cone, v, 0.95⟩

/-- The constructors `LensConeUniform(cone_opening_angle, geometry)` and `Uniform(rmax2d_arcsec, geometry)`
(`uniform.py` 17-33, 66-76) as `draw(N, z)`, with the random numbers of population `i`. Other classes are not modelled
here. -/
noncomputable def flatSpatial (W : World) (i : ℕ) (c : Cls) (kw : Kwargs) : Except Err Spatial :=
  match kw "geometry" with
  | some (.geometry zl zs cone type kc) => do
    let g ← geometryOf W zl zs cone type kc
    if c = .named "LensConeUniform" then
      let angle ← kw.num "cone_opening_angle"
      pure fun k n z => .ok (lensConeDraw angle (W.kpc kc z) (g.renderingScale z) 0 0 n (W.angle i k) (W.radius i k))
    else if c = .named "Uniform" then
      let r ← kw.num "rmax2d_arcsec"
      pure fun k n z => .ok (uniformDraw r (W.kpc kc z) 1 0 0 n (W.angle i k) (W.radius i k))
    else .error (.typeError "unexpected keyword argument 'geometry'")
  | some _ => .error (.typeError "geometry expected")
  | none => .error (.typeError "missing required argument 'geometry'")

/-- `ProjectedNFW.from_Mhost`, `nfw.py` 37-58, with a given `c_host` (the presets always give it). -/
noncomputable def projectedNFW (W : World) (i : ℕ) (kw : Kwargs) : Except Err SubSpatial :=
  match kw "lens_cosmo" with
  | some (.lensCosmo _ _ kc) => do
    let m ← kw.num "m_host"
    let z ← kw.num "zlens"
    let r ← kw.num "rmax2d_arcsec"
    let core ← kw.num "r_core_units_rs"
    let c ← kw.num "c_host"
    let scale := W.kpc kc z
    let rs := W.hostRs kc m c z * 1000 / scale
    let r200 := W.hostR200 kc m z * 1000 / scale
    let p : ProjNFW := ⟨r, r200, scale, W.density2d rs (core * rs), W.density3d rs (core * rs)⟩
    pure (.threeD fun n => p.draw n (W.radius i 0) (W.angle i 0) (W.radius3d i 0))
  | _ => .error (.typeError "lens_cosmo expected")

/-- The spatial distribution of a subhalo population, `halo_population.py` 43-48. -/
noncomputable def subSpatial (W : World) (i : ℕ) (zLens : ℝ) (c : Cls) (kw : Kwargs) : Except Err SubSpatial :=
  if c = .named "Uniform" ∨ c = .named "LensConeUniform" then do
    let s ← flatSpatial W i c kw
    pure (.flat fun n => s 0 n zLens)
  else if c = .named "ProjectedNFW" then projectedNFW W i kw
  else .error (.typeError "spatial distribution class")

/-! ## The two-halo term -/

/-- `np.argmin(abs(np.array(planes) - z))`, `two_halo.py` 49: the first position of the smallest value. -/
noncomputable def nearestPlane (z : ℝ) : List ℝ → Except Err ℕ
  | [] => .error (.valueError "attempt to get argmin of an empty sequence")
  | a :: t => .ok ((t.foldl (fun (s : ℕ × ℕ × ℝ) b =>
      (s.1 + 1, if |b - z| < s.2.2 then (s.1 + 1, |b - z|) else s.2)) (0, 0, |a - z|)).2.1)

/-- `modificationLazar2021`, `two_halo.py` 74-84, with its default parameters. -/
noncomputable def lazarTerm (r r200 : ℝ) : ℝ := 0.1 * (r / r200 / 5) ^ (-4 : ℝ)

/-- `_boost_integrand`, `two_halo.py` 86-100. -/
noncomputable def boostIntegrand (W : World) (kc : ℕ) (m200 z r200 : ℝ) (lazar : Bool) (r : ℝ) : ℝ :=
  if lazar then W.twoHaloTerm kc r m200 z + lazarTerm r r200 else W.twoHaloTerm kc r m200 z

/-- `two_halo_enhancement_factor`, `two_halo.py` 102-119. The quadrature is the exact integral. For planes closer than 0.5
Mpc the code divides zero by zero; the NaN is refused by `np.random.poisson` (or by `int`), which is where the model
raises. -/
noncomputable def twoHaloBoost (W : World) (kc : ℕ) (z dz m200 r200 : ℝ) (lazar : Bool) (scale : ℝ) : Except Err ℝ :=
  let rmax := (W.dist kc).DCt (z + dz) - (W.dist kc).DCt z
  let rmin := min rmax 0.5
  if rmax = rmin then .error (.valueError "lam < 0 or lam is NaN")
  else .ok (scale * (2 * (∫ r in rmin..rmax, boostIntegrand W kc m200 z r200 lazar r) / (rmax - rmin)))

/-- The mass of the host, `two_halo.py` 37-43. -/
noncomputable def twoHaloHost (kw : Kwargs) : Except Err ℝ :=
  if kw "host_m200" ≠ none then kw.num "host_m200"
  else if kw "log_m_host" ≠ none then do
    let l ← kw.num "log_m_host"
    pure ((10 : ℝ) ^ l)
  else .error (.exception "must specify the host halo mass through keyword argument host_m200 or log_m_host (base 10)")

/-- `l[i]`. Used for `halo_population.py` 36-66. -/
def item {α : Type} (l : List α) (i : ℕ) : Except Err α :=
  match l[i]? with
  | some a => .ok a
  | none => .error .indexError

/-- The width of the slice and the scaled dictionary, `TwoHaloContribution.__init__`, `two_halo.py` 37-57. -/
noncomputable def twoHaloSetup (W : World) (S : Setup) (lazar : Bool) (scale : ℝ) (planes gaps : List ℝ) (kw : Kwargs) :
    Except Err (ℝ × Kwargs) := do
  let m200 ← twoHaloHost kw
  let r200 := W.hostR200 S.kc m200 S.zLens
  let idx ← nearestPlane S.zLens planes
  let dz ← item gaps idx
  let boost ← twoHaloBoost W S.kc S.zLens dz m200 r200 lazar scale
  let n ← kw.num "LOS_normalization"
  pure (dz, kw.set "LOS_normalization" (.num (n * boost)))

/-! ## Rendering -/

/-- A line-of-sight population, `halo_population.py` 52-57 and `line_of_sight.py` 12-57. -/
noncomputable def losClassOf (W : World) (S : Setup) (i : ℕ) (planes gaps : List ℝ) (c : Cls) (kw : Kwargs)
    (s : Spatial) : Except Err LosClass := do
  let lo ← limit W kw "log_mlow"
  let hi ← limit W kw "log_mhigh"
  pure { planes := planes
         deltaZ := gaps
         model := fun z dz x y => massFnOf W i (losModel W S c kw z dz x y)
         logMlow := lo
         logMhigh := hi
         spatial := s
         kpc := W.kpc S.kc }

/-- One population, `halo_population.py` 37-64, and its `render`. `i` is its number. -/
noncomputable def population (W : World) (S : Setup) (lazar : Bool) (scale : ℝ) (planes gaps : List ℝ) (i : ℕ)
    (name : String) (mc : Cls) (mkw : Kwargs) (sc : Cls) (skw : Kwargs) : Except Err PopOut :=
  if name = "SUBHALOS" then do
    let s ← subSpatial W i S.zLens sc skw
    let lo ← limit W mkw "log_mlow"
    let hi ← limit W mkw "log_mhigh"
    subhalosRender S.zLens (massFnOf W i (subModel W S mc mkw (lo S.zLens) (hi S.zLens))) s (W.kpc S.kc S.zLens)
  else do
    let s ← flatSpatial W i sc skw
    if name = "LINE_OF_SIGHT" ∨ name = "LINE_OF_SIGHT_NOSHEET" then
      let c ← losClassOf W S i planes gaps mc mkw s
      c.render
    else if name = "TWO_HALO" then
      let (dz, kw) ← twoHaloSetup W S lazar scale planes gaps mkw
      let lo ← limit W kw "log_mlow"
      let hi ← limit W kw "log_mhigh"
      twoHaloRender S.zLens (massFnOf W i (losModel W S mc kw S.zLens dz (lo S.zLens) (hi S.zLens))) s (W.kpc S.kc)
    else .error (.exception "model not recognized. ")

/-- Population `i` of a request: the entries `i` of the lists, `halo_population.py` 38-48. -/
noncomputable def populationAt (W : World) (S : Setup) (scale : ℝ) (r : Request) (planes gaps : List ℝ)
    (p : String × ℕ) : Except Err PopOut := do
  let mc ← item r.massFunctions p.2
  let mkw ← item r.massKwargs p.2
  let sc ← item r.spatials p.2
  let skw ← item r.spatialKwargs p.2
  population W S r.lazar scale planes gaps p.2 p.1 mc mkw sc skw

/-- `_render_masses_positions`, `pyhalo.py` 91-118. All populations are made before the first one is rendered; which of two
errors is raised first is not modelled. -/
noncomputable def renderMasses (W : World) (S : Setup) (scale : ℝ) (r : Request) : Except Err PopOut := do
  let (planes, gaps) ← lensPlanes (some S.zLens) S.zSource r.planeSpacing
  haloPopulationRender (r.populations.zipIdx.map (populationAt W S scale r planes gaps))

/-- `pyHalo.render`, `pyhalo.py` 56-89, with one realization. -/
noncomputable def render (W : World) (S : Setup) (scale : ℝ) (r : Request) : Except Err (List HaloArgs) := do
  let o ← renderMasses W S scale r
  createRealization r.mdefSub r.mdefField o

/-- A whole call of `CDM`, `cdm.py` 13-203, up to the halos, before the extensions of `post`. -/
noncomputable def runCdm (W : World) (E : Preset.Env) (a : CdmArgs) (d : Dicts) : Except Err (List HaloArgs) := do
  let r ← (cdm E a d).1
  let g ← geometryOf W a.zLens a.zSource a.cone a.geometryType a.kwargsCosmo
  render W ⟨a.zLens, a.zSource, a.kwargsCosmo, g⟩ 1 r

/-- A whole call of `WDM`, `wdm.py` 10-220, up to the halos, before the extensions of `post`. -/
noncomputable def runWdm (W : World) (E : Preset.Env) (a : WdmArgs) (d : Dicts) : Except Err (List HaloArgs) := do
  let r ← (Preset.wdm E a d).1
  let g ← geometryOf W a.zLens a.zSource a.cone a.geometryType a.kwargsCosmo
  render W ⟨a.zLens, a.zSource, a.kwargsCosmo, g⟩ 1 r

end Run
end PyHalo
