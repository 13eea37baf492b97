import Verif.Model.Numpy
import Mathlib.Analysis.SpecialFunctions.Trigonometric.Basic

/-!
# Model of `Cosmology/geometry.py`, `Rendering/SpatialDistributions/` and the lens planes of
`utilities.py`
-/

namespace PyHalo

/-- The distances a geometry asks the cosmology for: transverse comoving distance
`D_C_transverse`, angular diameter distance `D_A(z1, z2)` and its tabulated version `D_A_z`. Used in `geometry.py` 8-139. -/
structure Distances where
  DCt : ℝ → ℝ
  DA : ℝ → ℝ → ℝ
  DAz : ℝ → ℝ

/-- The rendering volume, `Geometry.__init__`, `geometry.py` 8-46. -/
inductive VolumeType
  | doubleCone | cylinder | cone
  deriving DecidableEq

/-- `Geometry.__init__`, `geometry.py` 28-39: the name decides the class.  The attribute `volume_type` is not
set for `'CONE'`. -/
def volumeOfName (name : String) : Except Err VolumeType :=
  if name = "DOUBLE_CONE" then .ok .doubleCone
  else if name = "CYLINDER" then .ok .cylinder
  else if name = "CONE" then .ok .cone
  else .error (.exception "geometry type not recognized.")

/-- A geometry instance. `geometry.py` 8-47. -/
structure Geometry where
  dist : Distances
  zLens : ℝ
  zSource : ℝ
  openingAngle : ℝ
  volume : VolumeType
  anglePad : ℝ

/-- `Cosmology.arcsec`, `cosmology.py` 15. -/
noncomputable def arcsec : ℝ := 2 * Real.pi / 360 / 3600

namespace Geometry

/-- `DoubleCone.__init__`, `geometry.py` 213: `_reduced_to_phys`. -/
noncomputable def reducedToPhys (g : Geometry) : ℝ :=
  g.dist.DA 0 g.zSource / g.dist.DA g.zLens g.zSource

/-- `rendering_scale`, `geometry.py`: `DoubleCone` 219-235, `Cylinder` 190-202, `Cone` 160-169. -/
noncomputable def renderingScale (g : Geometry) (z : ℝ) : ℝ :=
  match g.volume with
  | .doubleCone =>
    if z ≤ g.zLens then 1
    else 1 - g.anglePad * g.reducedToPhys * (g.dist.DA g.zLens z / g.dist.DAz z)
  | .cylinder => g.dist.DCt g.zLens / g.dist.DCt z
  | .cone => 1

/-- `Cosmology.scale_factor`, `cosmology.py` 127-129. -/
noncomputable def scaleFactor (z : ℝ) : ℝ := (1 + z)⁻¹

/-- `angle_to_physicalradius`, `geometry.py` 69-72. -/
noncomputable def physicalRadius (g : Geometry) (r z : ℝ) : ℝ :=
  r * arcsec * g.renderingScale z * g.dist.DAz z

/-- `angle_to_comovingradius`, `geometry.py` 74-81. -/
noncomputable def comovingRadius (g : Geometry) (r z : ℝ) : ℝ :=
  g.physicalRadius r z / scaleFactor z

/-- `angle_to_comoving_area`, `geometry.py` 115-124. -/
noncomputable def comovingArea (g : Geometry) (r z : ℝ) : ℝ :=
  Real.pi * g.comovingRadius r z ^ 2

/-- `angle_to_physical_area`, `geometry.py` 126-139. -/
noncomputable def physicalArea (g : Geometry) (r z : ℝ) : ℝ :=
  g.comovingArea r z * scaleFactor z ^ 2

end Geometry

/-! ## Spatial distributions -/

/-- `Uniform.draw`, `SpatialDistributions/uniform.py` 90-119.  `u`, `v` are uniform variates in
`[0, 1)` for the angle and the squared radius; `kpc` is `geometry.kpc_per_arcsec(z_plane)`. -/
noncomputable def uniformDraw (rmax2d kpc rescale cx cy : ℝ) (N : ℕ) (u v : ℕ → ℝ) :
    List ℝ × List ℝ :=
  if N = 0 then ([], [])
  else
    let rmax := rmax2d * rescale
    ((List.range N).map fun i =>
        (Real.sqrt (rmax ^ 2 * v i) * Real.cos (2 * Real.pi * u i) + cx) * kpc,
     (List.range N).map fun i =>
        (Real.sqrt (rmax ^ 2 * v i) * Real.sin (2 * Real.pi * u i) + cy) * kpc)

/-- `LensConeUniform.draw`, `uniform.py` 44-61; `Uniform` is built with half the opening angle
(31). -/
noncomputable def lensConeDraw (openingAngle kpc scale cx cy : ℝ) (N : ℕ) (u v : ℕ → ℝ) :
    List ℝ × List ℝ :=
  if N = 0 then ([], [])
  else uniformDraw (0.5 * openingAngle) kpc scale cx cy N u v

/-- `inverse_transform_sampling_from_cdf`, `utilities.py` 64-75; `u` are uniform variates in
`[0, 1)`, stretched to `[cdf[0], cdf[-1])` by `np.random.uniform`. -/
noncomputable def itsFromCdf (x cdf : List ℝ) (cmax : ℝ) (N : ℕ) (u : ℕ → ℝ) :
    Except Err (List ℝ) :=
  let c := cdf.map fun v => v * cmax⁻¹
  match c.head?, c.getLast? with
  | some a, some b => (List.range N).mapM fun i => Np.interp1d c x (a + (b - a) * u i)
  | _, _ => .error .indexError

/-- `inverse_transform_sampling`, `utilities.py` 51-62.  `y` are the values of the density on `x`.
`np.max(cdf)` is the last entry because the increments are not negative. -/
noncomputable def inverseTransform (x y : List ℝ) (N : ℕ) (u : ℕ → ℝ) : Except Err (List ℝ) :=
  let cdf := Np.cumsum y
  itsFromCdf x cdf (cdf.getLast?.getD 0) N u

/-- The table of mass in shells: `[rho[i] * (x[i+1]**k - x[i]**k) ...]`, `nfw.py` 68 and 78. -/
noncomputable def shellTable (k : ℕ) : List ℝ → List ℝ → List ℝ
  | x₀ :: x₁ :: xs, r₀ :: rs => r₀ * (x₁ ^ k - x₀ ^ k) :: shellTable k (x₁ :: xs) rs
  | _, _ => []

/-- `ProjectedNFW`, `nfw.py` 18-35. -/
structure ProjNFW where
  rmax2d : ℝ
  rmax3d : ℝ
  kpc : ℝ
  density2d : ℝ → ℝ
  density3d : ℝ → ℝ

/-- `ProjectedNFW.draw`, `nfw.py` 60-83: 2-d radii, angles, 3-d radii are three independent
samples.  `interp1d(x[0:-1], table)(x[0:-1])` returns the table itself. -/
noncomputable def ProjNFW.draw (p : ProjNFW) (N : ℕ) (u θ w : ℕ → ℝ) :
    Except Err (List ℝ × List ℝ × List ℝ) :=
  if N = 0 then .ok ([], [], [])
  else do
    let x2 := Np.linspace (1 / 1000 * p.rmax2d) p.rmax2d 20000
    let r2 ← inverseTransform x2.dropLast (shellTable 2 x2 (x2.map p.density2d)) N u
    let x3 := Np.linspace (1 / 1000 * p.rmax2d) p.rmax3d 20000
    let r3 ← inverseTransform x3.dropLast (shellTable 3 x3 (x3.map p.density3d)) N w
    let ang := (List.range N).map fun i => 2 * Real.pi * θ i
    pure (List.zipWith (fun r a => r * p.kpc * Real.cos a) r2 ang,
          List.zipWith (fun r a => r * p.kpc * Real.sin a) r2 ang,
          r3.map (· * p.kpc))

/-! ## Lens planes -/

/-- Differences of neighbours followed by the distance of the last entry to `zs`,
`utilities.py` 93-96. -/
noncomputable def planeGaps (zs : ℝ) : List ℝ → Except Err (List ℝ)
  | [] => .error .indexError
  | [a] => .ok [zs - a]
  | a :: b :: t => do
    let rest ← planeGaps zs (b :: t)
    pure ((b - a) :: rest)

/-- The planes before rounding, `utilities.py` 84-92 (defaults 0.02 and 0.01 from
`LensConeDefaults`). -/
noncomputable def rawPlanes (zLens : Option ℝ) (zSource : ℝ) (spacing : Option ℝ) : List ℝ :=
  let s := spacing.getD 0.02
  let zmin : ℝ := 0.01
  match zLens with
  | none => Np.arange zmin zSource s
  | some zl => Np.arange zmin zl s ++ Np.arange zl zSource s

/-- `generate_lens_plane_redshifts`, `utilities.py` 77-97. -/
noncomputable def lensPlanes (zLens : Option ℝ) (zSource : ℝ) (spacing : Option ℝ) :
    Except Err (List ℝ × List ℝ) := do
  let raw := rawPlanes zLens zSource spacing
  let gaps ← planeGaps zSource raw
  pure (raw.map Np.round2, gaps.map Np.round2)

end PyHalo
