import Verif.Model.Realization

/-!
# Specification vocabulary for realizations

Plain predicates used to state the properties.  None of them refers to the way the code
computes its results.
-/

namespace PyHalo.Spec
open PyHalo

/-- The arrays stored in a realization describe its halo objects as they are now.
This is the situation right after construction. -/
structure Fresh (σ : Heap) (r : Realization) : Prop where
  masses : r.masses = r.halos.map fun h => (σ h).mass
  xs : r.xs = r.halos.map fun h => (σ h).x
  ys : r.ys = r.halos.map fun h => (σ h).y
  redshifts : r.redshifts = r.halos.map fun h => (σ h).z
  flags : r.subhaloFlags = r.halos.map fun h => (σ h).isSubhalo
  zsIncreasing : r.uniqueRedshifts.Pairwise (· < ·)
  zsMem : ∀ z, z ∈ r.uniqueRedshifts ↔ ∃ h ∈ r.halos, (σ h).z = z

/-- The tags of the halos of a realization are pairwise different. -/
def DistinctTags (σ : Heap) (r : Realization) : Prop :=
  r.halos.Pairwise fun a b => (σ a).tag ≠ (σ b).tag

/-- Some halo of the realization carries tag `t`. -/
def HasTag (σ : Heap) (r : Realization) (t : Tag) : Prop := ∃ h ∈ r.halos, (σ h).tag = t

/-- Two realizations were built with the same cosmology, classes, centre and geometry. -/
structure SameContext (r r' : Realization) : Prop where
  lensCosmo : r'.lensCosmo = r.lensCosmo
  kwargs : r'.kwargsHaloModel = r.kwargsHaloModel
  sheets : r'.applyMassSheet = r.applyMassSheet
  classes : r'.renderingClasses = r.renderingClasses
  centerX : r'.centerX = r.centerX
  centerY : r'.centerY = r.centerY
  geometry : r'.geometry = r.geometry

/-- Euclidean distance in the plane. -/
noncomputable def dist2 (x₁ y₁ x₂ y₂ : ℝ) : ℝ := Real.sqrt ((x₁ - x₂) ^ 2 + (y₁ - y₂) ^ 2)

/-- Lensing-kernel weight of a plane at comoving distance `D` for a source at `S`, relative to
its maximum at `S/2`, limited to `[wMin, 1]`; it is 1 if weighting is switched off. -/
noncomputable def kernelWeight (weighted : Bool) (wMin S D : ℝ) : ℝ :=
  match weighted with
  | false => 1
  | true => min 1 (max wMin (4 * D * (S - D) / S ^ 2))

/-- Conversion from an angle in arcseconds at comoving distance `D` (Mpc) to comoving kpc. -/
noncomputable def kpcPerArcsec (D : ℝ) : ℝ := Real.pi / 648000 * (1000 * D)

/-- How far a halo is from a ray position, in the units of the aperture. -/
noncomputable def separation (kpc : Bool) (D x₁ y₁ x₂ y₂ : ℝ) : ℝ :=
  match kpc with
  | false => dist2 x₁ y₁ x₂ y₂
  | true => |kpcPerArcsec D| * dist2 x₁ y₁ x₂ y₂

/-- The documented selection of `filter`: the halo is massive enough, or it is inside the weighted
aperture around one of the rays `(fx, fy)`. -/
def Selected (lc : LensCosmoI) (aperture log10M : ℝ) (rays : List (Interp × Interp))
    (kpc weighted : Bool) (wMin : ℝ) (h : Halo) : Prop :=
  (10 : ℝ) ^ log10M ≤ |h.mass| ∨
  ∃ f ∈ rays, separation kpc (lc.DC h.z) h.x h.y (f.1 (lc.DC h.z)) (f.2 (lc.DC h.z))
    ≤ aperture * kernelWeight weighted wMin (lc.DC lc.zSource) (lc.DC h.z)

/-- Name of the aperture unit. -/
def unitName (kpc : Bool) : String := if kpc then "KPC" else "ANGLES"

/-- The documented selection of `filter_subhalos`. -/
def SelectedSub (R log10M : ℝ) (coords : List (ℝ × ℝ)) (h : Halo) : Prop :=
  h.isSubhalo = false ∨ (10 : ℝ) ^ log10M < |h.mass| ∨ ∃ c ∈ coords, dist2 h.x h.y c.1 c.2 < R

/-- The sum of the masses of the halos at redshift `z`, as documented for exact sheets: the bound
mass for subhalos in the main lens plane, the halo mass otherwise. -/
noncomputable def planeMass (σ : Heap) (r : Realization) (z : ℝ) : ℝ :=
  ((r.halos.filter fun h => decide ((σ h).z = z)).map fun h =>
    if z = r.lensCosmo.zLens ∧ (σ h).isSubhalo = true then (σ h).boundMass else (σ h).mass).sum

/-- The lens components of the halos: every halo contributes its named profiles with its own
redshift and the matching parameters. -/
def haloComponents (σ : Heap) (r : Realization) : List (String × ℝ × Kw) :=
  r.halos.flatMap fun h => List.zipWith (fun n k => (n, (σ h).z, k)) (σ h).lensIDs (σ h).lensParams

/-- Three parallel lists as one list of triples `(name, redshift, parameters)`. -/
def triples (ns : List String) (zs : List ℝ) (ks : List Kw) : List (String × ℝ × Kw) :=
  List.zipWith (fun n p => (n, p.1, p.2)) ns (zs.zip ks)

/-- Three lists have the same length. -/
def SameLengths (ns : List String) (zs : List ℝ) (ks : List Kw) : Prop :=
  ns.length = zs.length ∧ zs.length = ks.length

/-- The sheets one rendering class provides: subhalo classes get the scaling for subhalos, all
others the scaling and redshift limits for the line of sight. -/
noncomputable def sheetsOf (a : Realization.SheetArgs) (useClass : Bool) (c : RClass) : Sheets :=
  if c.name = "SUBHALOS" then c.sheetSub a.kappaScaleSubhalos a.logMlow a.logMhigh useClass
  else c.sheetLos a.kappaScale a.logMlow a.logMhigh a.zmin a.zmax useClass

/-- The total mass used for exact sheets: bound mass for subhalos in the main lens plane. -/
noncomputable def totalMass (σ : Heap) (r : Realization) : ℝ :=
  (r.halos.map fun h => if (σ h).z = r.lensCosmo.zLens ∧ (σ h).isSubhalo = true
    then (σ h).boundMass else (σ h).mass).sum

/-- `kw'` is `kw` with the centre of the sheet set to `(x, y)`, under the names that the profile
uses for its centre. -/
def Centred (name : String) (x y : ℝ) (kw kw' : Kw) : Prop :=
  ∀ key, kw'.lookup key =
    if key = (if name = "CONVERGENCE" then "ra_0" else "center_x") then some x
    else if key = (if name = "CONVERGENCE" then "dec_0" else "center_y") then some y
    else kw.lookup key

end PyHalo.Spec
