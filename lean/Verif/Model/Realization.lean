import Verif.Model.Numpy
import Mathlib.Analysis.SpecialFunctions.Log.Base

/-!
# Model of `pyHalo/single_realization.py`

Halos are python objects shared by reference between realizations, so a
realization holds object ids and the contents live in a store (`Heap`).
-/

namespace PyHalo

/-- Identity of a halo object. Objects are shared between realizations: `single_realization.py` 175-201, 341-382. -/
abbrev Oid := ℕ

/-- `unique_tag` (a random float in the code).  Only equality of tags is ever used,
so any type with decidable equality does. Used in `single_realization.py` 341-382 and 773-789. -/
abbrev Tag := ℕ

/-- Keyword dictionary handed to lenstronomy. `single_realization.py` 476-486. -/
abbrev Kw := List (String × ℝ)

/-- `scipy.interpolate.interp1d` of a ray: angle as a function of comoving distance.
Used in `single_realization.py` 286-287 and 399-418. -/
abbrev Interp := ℝ → ℝ

/-- A halo instance: the attributes of `Halos/halo_base.py` 20-62 that
`single_realization.py` reads.
Simplification: `bound_mass`, `lenstronomy_ID` and `lenstronomy_params` are python
properties computed by the profile class; here they are the values those properties return
(their computation and caching is modelled elsewhere). -/
structure Halo where
  mass : ℝ
  x : ℝ
  y : ℝ
  r3d : Option ℝ
  z : ℝ
  mdef : String
  tag : Tag
  isSubhalo : Bool
  fixedPosition : Bool
  boundMass : ℝ
  lensIDs : List String
  lensParams : List Kw

/-- The store of halo objects. The objects of the list `halos`, `single_realization.py` 97-124. -/
abbrev Heap := Oid → Halo

/-- The part of `LensCosmo` that `single_realization.py` uses:
`z_lens`, `z_source`, `cosmo.D_C_z`, `sigma_crit_mass(z, area)`. `single_realization.py` 97-124, 571-591. -/
structure LensCosmoI where
  zLens : ℝ
  zSource : ℝ
  DC : ℝ → ℝ
  sigmaCritMass : ℝ → ℝ → ℝ

/-- The part of `Geometry` that `single_realization.py` uses. `single_realization.py` 97-124, 665-673. -/
structure GeometryI where
  coneOpeningAngle : ℝ
  angleToPhysicalArea : ℝ → ℝ → ℝ

/-- What `convergence_sheet_correction` returns: keyword dictionaries, profile names, redshifts.
Called in `single_realization.py` 675-686. -/
abbrev Sheets := List Kw × List String × List ℝ

/-- A rendering class as seen from `_mass_sheet_correction` (677-683): a `name` and a method
`convergence_sheet_correction`.  `sheetSub κ mlow mhigh useClass` is the four-argument call made
for `'SUBHALOS'`, `sheetLos κ mlow mhigh zmin zmax useClass` the six-argument call made otherwise.
File: `single_realization.py`. -/
structure RClass where
  name : String
  sheetSub : ℝ → ℝ → ℝ → Bool → Sheets
  sheetLos : ℝ → ℝ → ℝ → Option ℝ → Option ℝ → Bool → Sheets

/-- A `Realization` instance (`__init__` 97-124, `_reset` 797-809): the list of halo objects and
the arrays that `_reset` computed from them when the instance was built. File: `single_realization.py`. -/
structure Realization where
  halos : List Oid
  lensCosmo : LensCosmoI
  kwargsHaloModel : List String
  applyMassSheet : Bool
  renderingClasses : List (Option RClass)
  centerX : Interp
  centerY : Interp
  geometry : Option GeometryI
  hasBeenShifted : Bool
  masses : List ℝ
  xs : List ℝ
  ys : List ℝ
  r3d : List (Option ℝ)
  redshifts : List ℝ
  mdefs : List String
  haloTags : List Tag
  subhaloFlags : List Bool
  uniqueRedshifts : List ℝ

namespace Realization

/-- `Realization.from_halos` 174-201 followed by `__init__` 97-124 (branch `halos is not None`)
and `_reset` 797-809.
`rendering_classes` is already a list for every caller modelled here (337-338 wraps a bare
instance).  The default centre (117-122) is the interpolant of zeros, i.e. the constant 0.
`_has_been_shifted` starts as `False` (104). File: `single_realization.py`. -/
noncomputable def fromHalos (σ : Heap) (halos : List Oid) (lc : LensCosmoI) (kw : List String)
    (msc : Bool) (rcs : List (Option RClass)) (cx cy : Option Interp)
    (g : Option GeometryI) : Realization :=
  let c : Interp × Interp :=
    match cx, cy with
    | some a, some b => (a, b)
    | _, _ => (fun _ => 0, fun _ => 0)
  { halos := halos
    lensCosmo := lc
    kwargsHaloModel := kw
    applyMassSheet := msc
    renderingClasses := rcs
    centerX := c.1
    centerY := c.2
    geometry := g
    hasBeenShifted := false
    masses := halos.map fun h => (σ h).mass
    xs := halos.map fun h => (σ h).x
    ys := halos.map fun h => (σ h).y
    r3d := halos.map fun h => (σ h).r3d
    redshifts := halos.map fun h => (σ h).z
    mdefs := halos.map fun h => (σ h).mdef
    haloTags := halos.map fun h => (σ h).tag
    subhaloFlags := halos.map fun h => (σ h).isSubhalo
    uniqueRedshifts := Np.unique (halos.map fun h => (σ h).z) }

/-- A new realization with the same context (cosmology, classes, centre, geometry) as `r`.
The calls of `from_halos` in `single_realization.py` 168-172, 228-232, 316-320. -/
noncomputable def rebuild (σ : Heap) (r : Realization) (halos : List Oid) : Realization :=
  fromHalos σ halos r.lensCosmo r.kwargsHaloModel r.applyMassSheet r.renderingClasses
    (some r.centerX) (some r.centerY) r.geometry

/-- `subhalos` 132-136. File: `single_realization.py`. -/
def subhalos (σ : Heap) (r : Realization) : List Oid :=
  r.halos.foldl (fun acc h => if (σ h).isSubhalo then acc ++ [h] else acc) []

/-- `field_halos` 144-148. File: `single_realization.py`. -/
def fieldHalos (σ : Heap) (r : Realization) : List Oid :=
  r.halos.foldl (fun acc h => if !(σ h).isSubhalo then acc ++ [h] else acc) []

/-- `filter_bound_mass` 158-172. File: `single_realization.py`. -/
noncomputable def filterBoundMass (σ : Heap) (r : Realization) (mmin : ℝ) : Realization :=
  let halosNew := r.halos.foldl (fun acc h =>
    if (σ h).isSubhalo then
      (if (σ h).boundMass ≥ mmin then acc ++ [h] else acc)
    else acc ++ [h]) []
  { rebuild σ r halosNew with hasBeenShifted := r.hasBeenShifted }

/-- `filter_subhalos` 222-232.  The mask is computed from the arrays stored at construction,
the halos are then picked by index.  `np.hypot` is the Euclidean norm. File: `single_realization.py`. -/
noncomputable def filterSubhalos (σ : Heap) (r : Realization) (aperture log10MassMin : ℝ)
    (xCoords yCoords : List ℝ) : Except Err Realization := do
  let keep0 : List Bool := List.zipWith (fun sub m => !sub || decide (|m| > (10 : ℝ) ^ log10MassMin))
    r.subhaloFlags r.masses
  let check := Np.whereTrue (keep0.map not)
  let keep ← (if check.length ≠ 0 then do
      let xc ← Np.gather r.xs check
      let yc ← Np.gather r.ys check
      let rows ← (xc.zip yc).mapM (fun p => do
        let pairs ← Np.broadcast2 (xCoords.map (p.1 - ·)) (yCoords.map (p.2 - ·))
        pure (pairs.any fun d => decide (Real.sqrt (d.1 ^ 2 + d.2 ^ 2) < aperture)))
      pure (Np.scatter keep0 check rows)
    else pure keep0)
  let halos ← Np.gather r.halos (Np.whereTrue keep)
  pure (rebuild σ r halos)

/-- `ARCSEC_TO_RAD` 261. File: `single_realization.py`. -/
noncomputable def arcsecToRad : ℝ := Real.pi / (180 * 3600)

/-- `w_eff` 279-283 for one halo at comoving distance `D`. File: `single_realization.py`. -/
noncomputable def wEff (geometricWeighting : Bool) (wMin chiS D : ℝ) : ℝ :=
  if geometricWeighting then Np.clip ((D * (chiS - D)) / (chiS / 2) ^ 2) wMin 1 else 1

/-- `halos_at_z` 562-569: halos and their indexes. `i` is the running `enumerate` index. File: `single_realization.py`. -/
noncomputable def halosAtZFrom (σ : Heap) (z : ℝ) : ℕ → List Oid → List Oid × List ℕ
  | _, [] => ([], [])
  | i, h :: t =>
    let rest := halosAtZFrom σ z (i + 1) t
    if (σ h).z ≠ z then rest else (h :: rest.1, i :: rest.2)

/-- `halos_at_z` 556-569. File: `single_realization.py`. -/
noncomputable def halosAtZ (σ : Heap) (r : Realization) (z : ℝ) : List Oid × List ℕ :=
  halosAtZFrom σ z 0 r.halos

/-- One row of the aperture test of `filter` 285-305: a halo at `(x, y)`, comoving distance `D`,
against all rays.  `np.column_stack` of an empty list raises. File: `single_realization.py`. -/
noncomputable def rowWithin (aperture : ℝ) (raysX raysY : List Interp) (units : String)
    (w D x y : ℝ) : Except Err Bool := do
  if raysX.length = 0 then throw (.valueError "need at least one array to concatenate")
  if raysY.length = 0 then throw (.valueError "need at least one array to concatenate")
  let pairs ← Np.broadcast2 (raysX.map fun f => x - f D) (raysY.map fun f => y - f D)
  if units = "ANGLES" then
    pure (pairs.any fun d => decide (Real.sqrt (d.1 ^ 2 + d.2 ^ 2) ≤ aperture * w))
  else if units = "KPC" then
    pure (pairs.any fun d => decide (Real.sqrt ((d.1 * arcsecToRad * D * 1000) ^ 2
      + (d.2 * arcsecToRad * D * 1000) ^ 2) ≤ aperture * w))
  else throw (.exception "aperture units must be either KPC or ANGLES")

/-- The per-plane regrouping of `filter` 308-316. File: `single_realization.py`. -/
noncomputable def regroup (σ : Heap) (r : Realization) (keepGlobal : List ℕ) :
    List ℝ → Except Err (List Oid)
  | [] => .ok []
  | zi :: zs => do
    let planeHalos := (halosAtZ σ r zi).1
    let indsAtZ := Np.whereTrue (r.redshifts.map fun z => decide (z = zi))
    let keepAtZ := Np.intersect1d indsAtZ keepGlobal
    let indsKeep := keepAtZ.map (Np.searchsorted1 indsAtZ)
    let here ← Np.gather planeHalos indsKeep
    let rest ← regroup σ r keepGlobal zs
    pure (here ++ rest)

/-- `filter` 234-320. File: `single_realization.py`. -/
noncomputable def filter (σ : Heap) (r : Realization) (aperture log10MassGlobal : ℝ)
    (raysX raysY : List Interp) (units : String) (geometricWeighting : Bool) (wMin : ℝ) :
    Except Err Realization := do
  let masses := r.masses.map fun m => |m|
  let thresh := (10 : ℝ) ^ log10MassGlobal
  let keepMass := masses.map fun m => decide (m ≥ thresh)
  let check := Np.whereTrue (keepMass.map not)
  let zCheck ← Np.gather r.redshifts check
  let within0 := List.replicate masses.length false
  let chiS := r.lensCosmo.DC r.lensCosmo.zSource
  let within ← (if check.length > 0 then do
      let xc ← Np.gather r.xs check
      let yc ← Np.gather r.ys check
      let rows ← (zCheck.zip (xc.zip yc)).mapM (fun q =>
        let D := r.lensCosmo.DC q.1
        rowWithin aperture raysX raysY units (wEff geometricWeighting wMin chiS D) D q.2.1 q.2.2)
      pure (Np.scatter within0 check rows)
    else pure within0)
  let keepInds := List.zipWith (fun a b => a || b) keepMass within
  let keepGlobal := Np.whereTrue keepInds
  let halos ← regroup σ r keepGlobal r.uniqueRedshifts
  pure (rebuild σ r halos)

/-- `_tags` 773-789. File: `single_realization.py`. -/
def tags (σ : Heap) (halos : List Oid) : List Tag := halos.map fun h => (σ h).tag

/-- The second loop of `join` 367-370. File: `single_realization.py`. -/
def joinLong (σ : Heap) (short : List Tag) (halosLong : List Oid) : List Oid :=
  halosLong.foldl (fun acc h => if (σ h).tag ∈ short then acc else acc ++ [h]) []

/-- `join` 341-382. File: `single_realization.py`. -/
noncomputable def join (σ : Heap) (r real : Realization) (joinClasses : Bool) : Realization :=
  let t := tags σ r.halos
  let rt := tags σ real.halos
  let p : List Tag × List Oid × List Oid :=
    if t.length ≥ rt.length then (rt, r.halos, real.halos) else (t, real.halos, r.halos)
  let halos := p.2.2 ++ joinLong σ p.1 p.2.1
  let rcs := if joinClasses then r.renderingClasses ++ real.renderingClasses
    else r.renderingClasses
  { rebuild σ r halos with renderingClasses := rcs }

/-- The selection loop of `shift_background_to_source` 399-408: `(halos_out, to_shift)`. File: `single_realization.py`. -/
noncomputable def shiftSelect (σ : Heap) (zmin : ℝ) (halos : List Oid) : List Oid × List Oid :=
  halos.foldl (fun acc h =>
    if (σ h).fixedPosition then (acc.1 ++ [h], acc.2)
    else if (σ h).z < zmin then acc
    else (acc.1 ++ [h], acc.2 ++ [h])) ([], [])

/-- Write the attributes `x` and `y` of one object. `single_realization.py` 410-418. -/
def moveBy (σ : Heap) (h : Oid) (dx dy : ℝ) : Heap :=
  Function.update σ h { σ h with x := (σ h).x + dx, y := (σ h).y + dy }

/-- The mutation loop of `shift_background_to_source` 410-418.  The displacements are computed
from the redshifts before any object is written. File: `single_realization.py`. -/
noncomputable def shiftMutate (σ : Heap) (lc : LensCosmoI) (fx fy : Interp) (toShift : List Oid) :
    Heap :=
  (toShift.map fun h => (h, lc.DC (σ h).z)).foldl
    (fun s p => moveBy s p.1 (fx p.2) (fy p.2)) σ

/-- `shift_background_to_source` 384-425: new store and returned realization. File: `single_realization.py`. -/
noncomputable def shift (σ : Heap) (r : Realization) (fx fy : Interp) (zmin : ℝ) :
    Heap × Realization :=
  if r.hasBeenShifted then (σ, r)
  else
    let sel := shiftSelect σ zmin r.halos
    let σ' := shiftMutate σ r.lensCosmo fx fy sel.2
    (σ', { fromHalos σ' sel.1 r.lensCosmo r.kwargsHaloModel r.applyMassSheet r.renderingClasses
            (some fx) (some fy) r.geometry with hasBeenShifted := true })

/-- `split_at_z` 510-535. File: `single_realization.py`. -/
noncomputable def splitAtZ (σ : Heap) (r : Realization) (z : ℝ) : Realization × Realization :=
  let p := r.halos.foldl (fun (acc : List Oid × List Oid) h =>
    if (σ h).z ≤ z then (acc.1 ++ [h], acc.2) else (acc.1, acc.2 ++ [h])) ([], [])
  (rebuild σ r p.1, rebuild σ r p.2)

/-- `halo_comoving_coordinates` 543-554. `log10 m` is `Real.logb 10 m`. File: `single_realization.py`. -/
noncomputable def haloComovingCoordinates (σ : Heap) (r : Realization) :
    List ℝ × List ℝ × List ℝ × List ℝ :=
  (r.halos.map fun h => r.lensCosmo.DC (σ h).z * (σ h).x,
   r.halos.map fun h => r.lensCosmo.DC (σ h).z * (σ h).y,
   r.halos.map fun h => Real.logb 10 (σ h).mass,
   r.halos.map fun h => (σ h).z)

/-- `mass_at_z_exact` 571-591.  In the main lens plane the loop reads the halo objects, elsewhere
the arrays stored at construction. File: `single_realization.py`. -/
noncomputable def massAtZExact (σ : Heap) (r : Realization) (z : ℝ) : Except Err ℝ :=
  if z = r.lensCosmo.zLens then
    .ok ((halosAtZ σ r z).1.foldl (fun m h =>
      if (σ h).isSubhalo then m + (σ h).boundMass else m + (σ h).mass) 0)
  else do
    let sel ← Np.gather r.masses (Np.whereTrue (r.redshifts.map fun zi => decide (zi = z)))
    pure (Np.sum sel)

/-- `number_of_halos_before_redshift` 600-604. File: `single_realization.py`. -/
noncomputable def numBefore (σ : Heap) (r : Realization) (z : ℝ) : ℕ :=
  r.halos.foldl (fun n h => if (σ h).z < z then n + 1 else n) 0

/-- `number_of_halos_after_redshift` 613-617. File: `single_realization.py`. -/
noncomputable def numAfter (σ : Heap) (r : Realization) (z : ℝ) : ℕ :=
  r.halos.foldl (fun n h => if (σ h).z > z then n + 1 else n) 0

/-- `number_of_halos_at_redshift` 627-631. File: `single_realization.py`. -/
noncomputable def numAt (σ : Heap) (r : Realization) (z : ℝ) : ℕ :=
  r.halos.foldl (fun n h => if (σ h).z = z then n + 1 else n) 0

/-- Keyword arguments of `_mass_sheet_correction` 633-641 (with the defaults of the code). File: `single_realization.py`. -/
structure SheetArgs where
  subtractExact : Bool := false
  kappaScaleSubhalos : ℝ := 1
  kappaScale : ℝ := 1
  logMlow : ℝ := 7
  logMhigh : ℝ := 10
  zmin : Option ℝ := none
  zmax : Option ℝ := none

/-- The exact branch of `_mass_sheet_correction` 665-673; `self.geometry` may be `None`. File: `single_realization.py`. -/
noncomputable def exactSheets (σ : Heap) (r : Realization) : List ℝ → Except Err (List (ℝ × Kw))
  | [] => .ok []
  | zi :: zs =>
    match r.geometry with
    | none => .error (.attributeError "angle_to_physical_area")
    | some g => do
      let area := g.angleToPhysicalArea (1 / 2 * g.coneOpeningAngle) zi
      let m ← massAtZExact σ r zi
      let kappa := -m / r.lensCosmo.sigmaCritMass zi area
      let rest ← exactSheets σ r zs
      pure ((zi, [("kappa", kappa)]) :: rest)

/-- The rendering-class branch 675-686. File: `single_realization.py`. -/
def classSheets (a : SheetArgs) (useClass : Bool) (rcs : List (Option RClass)) : Sheets :=
  rcs.foldl (fun acc rc =>
    match rc with
    | none => acc
    | some c =>
      let new := if c.name = "SUBHALOS" then
          c.sheetSub a.kappaScaleSubhalos a.logMlow a.logMhigh useClass
        else c.sheetLos a.kappaScale a.logMlow a.logMhigh a.zmin a.zmax useClass
      (acc.1 ++ new.1, acc.2.1 ++ new.2.1, acc.2.2 ++ new.2.2)) ([], [], [])

/-- Dictionary assignment `kw[key] = v`. `single_realization.py` 689-698. -/
def kwSet (kw : Kw) (key : String) (v : ℝ) : Kw :=
  if kw.any (fun p => p.1 == key) then kw.map (fun p => if p.1 == key then (key, v) else p)
  else kw ++ [(key, v)]

/-- The centring loop 689-698, over `zip(redshifts_out, profiles_out)`, writing into
`kwargs_mass_sheets_out[i]`. File: `single_realization.py`. -/
noncomputable def centreSheets (lc : LensCosmoI) (cx cy : Interp) :
    List (ℝ × String) → List Kw → Except Err (List Kw)
  | [], kws => .ok kws
  | _ :: _, [] => .error .indexError
  | (zi, name) :: t, kw :: kws => do
    let d := lc.DC zi
    let kw' := if name = "CONVERGENCE" then kwSet (kwSet kw "ra_0" (cx d)) "dec_0" (cy d)
      else kwSet (kwSet kw "center_x" (cx d)) "center_y" (cy d)
    let rest ← centreSheets lc cx cy t kws
    pure (kw' :: rest)

/-- `_mass_sheet_correction` 633-700. File: `single_realization.py`. -/
noncomputable def massSheetCorrection (σ : Heap) (r : Realization) (a : SheetArgs)
    (useClass : Bool) : Except Err Sheets := do
  let s : Sheets ← (if a.subtractExact then do
      let e ← exactSheets σ r r.uniqueRedshifts
      pure (e.map Prod.snd, List.replicate e.length "CONVERGENCE", e.map Prod.fst)
    else pure (classSheets a useClass r.renderingClasses))
  let kws ← centreSheets r.lensCosmo r.centerX r.centerY (s.2.2.zip s.2.1) s.1
  pure (kws, s.2.1, s.2.2)

/-- `lensing_quantities` 467-508: lens model list, redshift array, keyword list.
Simplification: the fourth output (`numerical_interp`) is dropped.  `self.rendering_classes` is
never `None` (337-339 turns `None` into `[None]`), so the exception at 497 cannot occur. File: `single_realization.py`. -/
noncomputable def lensingQuantities (σ : Heap) (r : Realization) (addSheets useClass : Bool)
    (a : SheetArgs) : Except Err (List String × List ℝ × List Kw) := do
  let acc := r.halos.foldl (fun (acc : List String × List ℝ × List Kw) h =>
    (acc.1 ++ (σ h).lensIDs,
     acc.2.1 ++ List.replicate (σ h).lensIDs.length (σ h).z,
     acc.2.2 ++ (σ h).lensParams)) ([], [], [])
  if r.applyMassSheet && addSheets then do
    let s ← massSheetCorrection σ r a useClass
    pure (acc.1 ++ s.2.1, acc.2.1 ++ s.2.2, acc.2.2 ++ s.1)
  else pure acc

/-- `__eq__` 811-824. File: `single_realization.py`. -/
def eqRealization (σ : Heap) (r other : Realization) : Bool :=
  (tags σ other.halos).all fun t => decide (t ∈ tags σ r.halos)

/-- `realization_at_z` 16-56. File: `single_realization.py`. -/
noncomputable def realizationAtZ (σ : Heap) (r : Realization) (z : ℝ) (cx cy : ℝ)
    (maxRange : Option ℝ) (msc : Bool) : Realization × List ℕ :=
  let p := halosAtZ σ r z
  let q : List Oid × List ℕ :=
    match maxRange with
    | some R =>
      (p.1.zip p.2).foldl (fun (acc : List Oid × List ℕ) hi =>
        if Real.sqrt (((σ hi.1).x - cx) ^ 2 + ((σ hi.1).y - cy) ^ 2) < R
        then (acc.1 ++ [hi.1], acc.2 ++ [hi.2]) else acc) ([], [])
    | none => p
  ({ rebuild σ r q.1 with applyMassSheet := msc }, q.2)

end Realization
end PyHalo
