import Verif.Model.MassFunction
import Verif.Model.Geometry
import Verif.Model.Realization

/-!
# Model of `pyHalo/Rendering/` (populations) and of `pyHalo/pyhalo.py`

Randomness: a mass function draws with a numbered source of randomness (`draw k` is the result of
the `k`-th call made by the population), and so does a spatial distribution.  Nothing is assumed
about how the results for different `k` are related.
-/

namespace PyHalo

/-- An instantiated mass function: what `draw` returns, and `first_moment`. `mass_function_base.py` 23-60. -/
structure MassFn where
  draw : ℕ → Except Err (List ℝ)
  firstMoment : ℝ

/-- `spatial_distribution_model.draw(N, z)` for line-of-sight classes: `(call number, N, z)`.
`rendering_class_base.py` 29-46. -/
abbrev Spatial := ℕ → ℕ → ℝ → Except Err (List ℝ × List ℝ)

/-- What `render` returns: masses, x, y, r3d, redshifts, subhalo flags. `halo_population.py` 68-94. -/
structure PopOut where
  masses : List ℝ
  x : List ℝ
  y : List ℝ
  r3d : List (Option ℝ)
  z : List ℝ
  flags : List Bool

/-- `RenderingClassBase.render_positions_at_z`, `rendering_class_base.py` 29-46. -/
noncomputable def renderPositionsAtZ (spatial : Spatial) (kpc : ℝ → ℝ) (k : ℕ) (z : ℝ) (n : ℕ) :
    Except Err (List ℝ × List ℝ) := do
  let p ← spatial k n z
  if p.1.length > 0 then
    pure (p.1.map (· * (kpc z)⁻¹), p.2.map (· * (kpc z)⁻¹))
  else pure ([], [])

/-- A line-of-sight class (`LineOfSightNoSheet` and `LineOfSight`): constructor arguments of
`rendering_class_base.py` 6-27.  `model z dz mlow mhigh` is
`mass_function_model.from_redshift(z, dz, geometry, kwargs)` with these mass limits.
`logMlow`/`logMhigh` are the entries of the keyword dictionary; a plain number is the constant
function. -/
structure LosClass where
  planes : List ℝ
  deltaZ : List ℝ
  model : ℝ → ℝ → ℝ → ℝ → MassFn
  logMlow : ℝ → ℝ
  logMhigh : ℝ → ℝ
  spatial : Spatial
  kpc : ℝ → ℝ

/-- `_get_mass_function_model(z, delta_z)`, `line_of_sight.py` 39-57, mass limits from the class;
`_redshift_dependent_mass_range`, `rendering_class_base.py` 63-84. -/
def LosClass.massFn (c : LosClass) (z dz : ℝ) : MassFn := c.model z dz (c.logMlow z) (c.logMhigh z)

/-- The loop of `LineOfSightNoSheet.render`, `line_of_sight.py` 24-33: accumulated masses, x, y and
redshifts; `k` counts the planes. -/
noncomputable def LosClass.loop (c : LosClass) : ℕ → List (ℝ × ℝ) →
    (List ℝ × List ℝ × List ℝ × List ℝ) → Except Err (List ℝ × List ℝ × List ℝ × List ℝ)
  | _, [], acc => .ok acc
  | k, (z, dz) :: t, (m0, x0, y0, z0) => do
    let m ← (c.massFn z dz).draw k
    let n := m.length
    let p ← renderPositionsAtZ c.spatial c.kpc k z n
    let zz := List.replicate p.1.length z
    c.loop (k + 1) t (m0 ++ m, x0 ++ p.1, y0 ++ p.2, z0 ++ zz)

/-- `LineOfSightNoSheet.render`, `line_of_sight.py` 12-37. -/
noncomputable def LosClass.render (c : LosClass) : Except Err PopOut := do
  let (m, x, y, z) ← c.loop 0 (c.planes.zip c.deltaZ) ([], [], [], [])
  pure { masses := m, x := x, y := y, r3d := List.replicate m.length none, z := z,
         flags := List.replicate m.length false }

/-- `TwoHaloContribution.render`, `two_halo.py` 59-72. `mf` is the mass function at the lens
redshift with the boosted normalisation. -/
noncomputable def twoHaloRender (zLens : ℝ) (mf : MassFn) (spatial : Spatial) (kpc : ℝ → ℝ) :
    Except Err PopOut := do
  let m ← mf.draw 0
  let n := m.length
  let p ← renderPositionsAtZ spatial kpc 0 zLens n
  pure { masses := m, x := p.1, y := p.2, r3d := List.replicate n none,
         z := List.replicate n zLens, flags := List.replicate n false }

/-- The spatial distribution of a subhalo class: two coordinates for the uniform classes, three
otherwise. `subhalos.py` 41-61. -/
inductive SubSpatial
  | flat (draw : ℕ → Except Err (List ℝ × List ℝ))
  | threeD (draw : ℕ → Except Err (List ℝ × List ℝ × List ℝ))

/-- `Subhalos.render_positions_at_z`, `subhalos.py` 41-61. -/
noncomputable def subPositions (s : SubSpatial) (kpcLens : ℝ) (n : ℕ) :
    Except Err (List ℝ × List ℝ × List (Option ℝ)) := do
  let (x, y, r) ← (match s with
    | .flat d => do
        let o ← d n
        pure (o.1, o.2, List.replicate o.1.length none)
    | .threeD d => do
        let o ← d n
        pure (o.1, o.2.1, o.2.2.map some))
  if x.length > 0 then pure (x.map (· * kpcLens⁻¹), y.map (· * kpcLens⁻¹), r)
  else pure ([], [], [])

/-- `Subhalos.render`, `subhalos.py` 28-39. -/
noncomputable def subhalosRender (zLens : ℝ) (mf : MassFn) (s : SubSpatial) (kpcLens : ℝ) :
    Except Err PopOut := do
  let m ← mf.draw 0
  let (x, y, r) ← subPositions s kpcLens m.length
  pure { masses := m, x := x, y := y, r3d := r, z := List.replicate m.length zLens,
         flags := List.replicate m.length true }

/-- The loop of `HaloPopulation.render`, `halo_population.py` 77-94, over the `render` results of
the classes. -/
def populationRender : List (Except Err PopOut) → PopOut → Except Err PopOut
  | [], acc => .ok acc
  | c :: t, acc => do
    let o ← c
    populationRender t
      { masses := acc.masses ++ o.masses, x := acc.x ++ o.x, y := acc.y ++ o.y,
        r3d := acc.r3d ++ o.r3d, z := acc.z ++ o.z, flags := acc.flags ++ o.flags }

/-- `HaloPopulation.render`, `halo_population.py` 68-94. -/
def haloPopulationRender (cs : List (Except Err PopOut)) : Except Err PopOut :=
  populationRender cs { masses := [], x := [], y := [], r3d := [], z := [], flags := [] }

/-- The kinds of population `HaloPopulation.__init__` knows, `halo_population.py` 50-64. -/
inductive PopKind
  | lineOfSight | lineOfSightNoSheet | subhalos | twoHalo
  deriving DecidableEq

/-- The dispatch on the model name, `halo_population.py` 50-64. -/
def popKindOfName (name : String) : Except Err PopKind :=
  if name = "LINE_OF_SIGHT" then .ok .lineOfSight
  else if name = "LINE_OF_SIGHT_NOSHEET" then .ok .lineOfSightNoSheet
  else if name = "SUBHALOS" then .ok .subhalos
  else if name = "TWO_HALO" then .ok .twoHalo
  else .error (.exception "model not recognized. ")

/-- The arguments of one call of `_load_halo_model`, `single_realization.py` 106-112. -/
structure HaloArgs where
  mass : ℝ
  x : ℝ
  y : ℝ
  r3d : Option ℝ
  mdef : String
  z : ℝ
  isSubhalo : Bool

/-- The `zip` of seven arrays of `Realization.__init__`, `single_realization.py` 106-112. -/
def zipArgs : List ℝ → List ℝ → List ℝ → List (Option ℝ) → List String → List ℝ → List Bool →
    List HaloArgs
  | m :: ms, x :: xs, y :: ys, r :: rs, d :: ds, z :: zs, f :: fs =>
    ⟨m, x, y, r, d, z, f⟩ :: zipArgs ms xs ys rs ds zs fs
  | _, _, _, _, _, _, _ => []

/-- The loop over `range(0, len(masses))`, `pyhalo.py` 125-130: `subhalo_flag[i]` raises when the
list is too short. -/
def mdefLoop (mdefSub mdefField : String) : List ℝ → List Bool → Except Err (List String)
  | [], _ => .ok []
  | _ :: _, [] => .error .indexError
  | _ :: ms, f :: fs => do
    let rest ← mdefLoop mdefSub mdefField ms fs
    pure ((if f then mdefField else mdefSub) :: rest)

/-- `_create_realization`, `pyhalo.py` 120-135: the arguments from which the halos of the new
realization are made. -/
def createRealization (mdefSub mdefField : String) (o : PopOut) : Except Err (List HaloArgs) := do
  let mdefs ← mdefLoop mdefSub mdefField o.masses o.flags
  pure (zipArgs o.masses o.x o.y o.r3d mdefs o.z o.flags)

/-- `pyHalo.render`, `pyhalo.py` 56-89; `pops i` are the populations of the `i`-th realization. -/
def pyHaloRender (mdefSub mdefField : String) (pops : ℕ → List (Except Err PopOut)) (n : ℕ) :
    Except Err (List (List HaloArgs)) :=
  (List.range n).mapM fun i => do
    let o ← haloPopulationRender (pops i)
    createRealization mdefSub mdefField o

/-! ## Convergence sheets -/

/-- `_convergence_at_z`, `line_of_sight.py` 111-116. -/
noncomputable def convergenceAtZ (g : GeometryI) (lc : LensCosmoI) (z mtheory : ℝ) : ℝ :=
  mtheory / lc.sigmaCritMass z (g.angleToPhysicalArea (0.5 * g.coneOpeningAngle) z)

/-- `LineOfSight.convergence_sheet_correction`, `line_of_sight.py` 67-109.
With `use_class_mass_ranges` the limits are those of the class (possibly functions of redshift),
otherwise the two numbers given. -/
noncomputable def LosClass.sheets (c : LosClass) (g : GeometryI) (lc : LensCosmoI)
    (kappaScale mlow mhigh : ℝ) (zmin zmax : Option ℝ) (useClass : Bool) : Sheets :=
  let lo : ℝ → ℝ := if useClass then c.logMlow else fun _ => mlow
  let hi : ℝ → ℝ := if useClass then c.logMhigh else fun _ => mhigh
  let z0 := zmin.getD 0
  let z1 := zmax.getD lc.zSource
  (c.planes.zip c.deltaZ).foldl (fun (acc : Sheets) p =>
    if p.1 < z0 then acc
    else if p.1 > z1 then acc
    else
      let kappa := convergenceAtZ g lc p.1 (c.model p.1 p.2 (lo p.1) (hi p.1)).firstMoment
      if kappa > 0 then
        (acc.1 ++ [[("kappa", -kappaScale * kappa)]], acc.2.1 ++ ["CONVERGENCE"],
          acc.2.2 ++ [p.1])
      else acc) ([], [], [])

/-- `Subhalos.convergence_sheet_correction`, `subhalos.py` 100-123; `model mlow mhigh` is
`_get_mass_function_model(log_mlow, log_mhigh)`. -/
noncomputable def subhaloSheets (model : ℝ → ℝ → MassFn) (g : GeometryI) (lc : LensCosmoI)
    (classLow classHigh kappaScale mlow mhigh : ℝ) (useClass : Bool) : Sheets :=
  let m := (if useClass then model classLow classHigh else model mlow mhigh).firstMoment
  if m = 0 then ([], [], [])
  else
    let area := g.angleToPhysicalArea (0.5 * g.coneOpeningAngle) lc.zLens
    let kappa := m / lc.sigmaCritMass lc.zLens area
    ([[("kappa", -1 * kappaScale * kappa)]], ["CONVERGENCE"], [lc.zLens])

/-- The class `LineOfSight` as `single_realization.py` sees it (`name` 66). -/
noncomputable def LosClass.toRClass (c : LosClass) (g : GeometryI) (lc : LensCosmoI) : RClass where
  name := "LINE_OF_SIGHT"
  sheetSub := fun κ lo hi u => c.sheets g lc κ lo hi none none u
  sheetLos := fun κ lo hi zmin zmax u => c.sheets g lc κ lo hi zmin zmax u

/-- The class `Subhalos` as `single_realization.py` sees it (`name` 10). -/
noncomputable def subhalosRClass (model : ℝ → ℝ → MassFn) (g : GeometryI) (lc : LensCosmoI)
    (classLow classHigh : ℝ) : RClass where
  name := "SUBHALOS"
  sheetSub := fun κ lo hi u => subhaloSheets model g lc classLow classHigh κ lo hi u
  sheetLos := fun κ lo hi _ _ u => subhaloSheets model g lc classLow classHigh κ lo hi u

/-- `LineOfSightNoSheet` and `TwoHaloContribution`: the base class correction,
`rendering_class_base.py` 86-87. -/
def noSheetRClass (name : String) : RClass where
  name := name
  sheetSub := fun _ _ _ _ => ([], [], [])
  sheetLos := fun _ _ _ _ _ _ => ([], [], [])

/-! ## Amplitudes of the mass functions -/

/-- `host_scaling_function`, `subhalos.py` 125-141. -/
noncomputable def hostScaling (mhalo z k1 k2 : ℝ) : ℝ :=
  (10 : ℝ) ^ (k1 * Real.logb 10 (mhalo / 10 ^ 13) + k2 * Real.logb 10 (z + 0.5))

/-- `normalization_sigmasub`, `subhalos.py` 143-165. -/
noncomputable def normalizationSigmaSub (sigmaSub hostM200 zLens kpc cone index mPivot k1 k2 : ℝ) :
    ℝ :=
  let a0 := sigmaSub * hostScaling hostM200 zLens k1 k2
  let R := kpc * (0.5 * cone)
  let area := Real.pi * R ^ 2
  area * a0 * mPivot ^ (-(index + 1))

/-- The keyword dictionary of a subhalo mass function, as far as `_get_mass_function_model`
(`subhalos.py` 63-98) reads it. -/
structure SubKwargs where
  powerLawIndex : ℝ
  deltaPowerLawIndex : ℝ
  sigmaSub : Option ℝ
  dndA : Option ℝ
  hostM200 : ℝ
  mPivot : ℝ
  k1 : ℝ
  k2 : ℝ

/-- The slope and the normalisation computed by `_get_mass_function_model`, `subhalos.py`
80-97. -/
noncomputable def subNormalization (kw : SubKwargs) (zLens kpc cone : ℝ) : Except Err (ℝ × ℝ) :=
  let index := kw.powerLawIndex + kw.deltaPowerLawIndex
  match kw.sigmaSub, kw.dndA with
  | some s, _ =>
    .ok (index, normalizationSigmaSub s kw.hostM200 zLens kpc cone index kw.mPivot kw.k1 kw.k2)
  | none, some d =>
    let R := kpc * (0.5 * cone)
    let area := Real.pi * R ^ 2
    .ok (index, area * d * kw.mPivot ^ (-(index + 1)))
  | none, none => .error (.exception "only subhalo mass function amplitudes specified through dndA or sigma_sub")

/-- `ShethTormen.from_redshift`, `density_peaks.py` 53-59 (the same lines in the other two
classes, 95-102 and 138-146): slope and normalisation from the coefficients of the straight-line
fit (`coeffs`), which is an input here. -/
noncomputable def losAmplitude (slope intercept dIndex losNorm volume mPivot : ℝ) : ℝ × ℝ :=
  let index := slope + dIndex
  let normDv := (10 : ℝ) ^ intercept / mPivot ^ index
  (index, losNorm * normDv * volume)

end PyHalo
