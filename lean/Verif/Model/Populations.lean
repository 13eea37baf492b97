import Verif.Model.Realization
import Verif.Model.Render
import Verif.Model.Geometry
import Verif.Model.MassFunction

/-!
# Objects added to a realization

`add_black_holes`, `add_globular_clusters`, `add_ULDM_fluctuations`, `add_correlated_structure` and
`add_primordial_black_holes` of `realization_extensions.py`, with `CorrelatedStructure` and
`Correlated2D`. Random numbers are explicit: uniform variates in `[0, 1)`, standard normal variates,
Poisson counts and tags are functions of the position of the draw in its loop.
-/

namespace PyHalo
namespace Pop

/-- New objects are created at the references `n, n + 1, …`. `realization_extensions.py` 72-260 and 926-1160. -/
def place (σ : Heap) (n : Oid) (l : List Halo) : Heap := fun k =>
  if n ≤ k then (l[k - n]?).getD (σ k) else σ k

/-- The references of the new objects. `realization_extensions.py` 72-260 and 926-1160. -/
def refs (n : Oid) (l : List Halo) : List Oid := List.range' n l.length

/-! ## Point masses -/

/-- `BlackHole.__init__` and `lenstronomy_params`, `blackhole.py` 8-53; `factor` is
`point_mass_factor_z`. (`bound_mass` of an object that is not a subhalo is not read; it is set to the
mass here.) -/
noncomputable def blackHole (factor : ℝ → ℝ) (m x y z : ℝ) (tag : Tag) (fixed : Bool) : Halo where
  mass := m
  x := x
  y := y
  r3d := none
  z := z
  mdef := "PT_MASS"
  tag := tag
  isSubhalo := false
  fixedPosition := fixed
  boundMass := m
  lensIDs := ["POINT_MASS"]
  lensParams := [[("center_x", x), ("center_y", y), ("theta_E", factor z * Real.sqrt m)]]

/-- The arguments of `add_black_holes`, `realization_extensions.py` 72-78. -/
structure BHArgs where
  logRatio : ℝ
  f : ℝ
  logSubres : ℝ := 5
  logMin : ℝ := 4.5
  logMlow : ℝ := 6
  logMax : ℝ := 6.7
  losNorm : ℝ := 1

/-- The random numbers used for one halo: acceptance, angle, squared radius and tag. `realization_extensions.py` 122-168. -/
structure Seed where
  u : ℝ
  angle : ℝ
  radius : ℝ
  tag : Tag

/-- One turn of the loop over halos, `realization_extensions.py` 93-119; `rs` is `nfw_params[1]` (kpc),
which not every class has. -/
noncomputable def seedHalo (a : BHArgs) (factor kpc : ℝ → ℝ) (rs : Halo → Except Err ℝ) (h : Halo)
    (v : Seed) : Except Err (List Halo) :=
  if v.u > a.f then .ok []
  else do
    let m := min ((10 : ℝ) ^ a.logMax) (h.mass * (10 : ℝ) ^ a.logRatio)
    let r ← rs h
    let R := Real.sqrt (v.radius * (r / kpc h.z) ^ 2)
    let θ := 2 * Real.pi * v.angle
    let x := h.x + R * Real.cos θ
    let y := h.y + R * Real.sin θ
    if m > (10 : ℝ) ^ a.logMin then pure [blackHole factor m x y h.z v.tag false] else pure []

/-- The loop over halos, `realization_extensions.py` 93-119. -/
noncomputable def seedHalos (a : BHArgs) (factor kpc : ℝ → ℝ) (rs : Halo → Except Err ℝ) :
    List (Halo × Seed) → Except Err (List Halo)
  | [] => .ok []
  | (h, v) :: rest => do
    let l ← seedHalo a factor kpc rs h v
    let ls ← seedHalos a factor kpc rs rest
    pure (l ++ ls)

/-- The black holes made of the sub-resolution masses of one plane, `realization_extensions.py`
145-159: `ms` are the masses drawn from the halo mass function, `p` the positions in kpc. -/
noncomputable def subresPlane (a : BHArgs) (factor kpc : ℝ → ℝ) (z : ℝ) (ms : List ℝ)
    (p : List ℝ × List ℝ) (tag : ℕ → Tag) : List Halo :=
  ((ms.zip (p.1.zip p.2)).zipIdx.filter fun q => decide (q.1.1 > (10 : ℝ) ^ a.logMin)).map fun q =>
    blackHole factor (q.1.1 * (10 : ℝ) ^ a.logRatio) (q.1.2.1 / kpc z) (q.1.2.2 / kpc z) z (tag q.2) false

/-- The mass function of the unresolved halos, `realization_extensions.py` 128-137:
`ShethTormen.from_redshift(z, dz, geometry, …)` with mass limits `log10_mlow_halos_subres` and
`log_mlow_halos` and normalisation `f · LOS_normalization`. -/
abbrev SubresModel := ℝ → ℝ → ℝ → ℝ → ℝ → MassFn

/-- The loop over planes, `realization_extensions.py` 127-159; `k` counts the planes. -/
noncomputable def subresLoop (a : BHArgs) (factor kpc : ℝ → ℝ) (model : SubresModel)
    (spatial : ℕ → ℕ → ℝ → List ℝ × List ℝ) (tag : ℕ → ℕ → Tag) :
    ℕ → List (ℝ × ℝ) → Except Err (List Halo)
  | _, [] => .ok []
  | k, (z, dz) :: rest => do
    let ms ← (model z dz a.logSubres a.logMlow (a.f * a.losNorm)).draw k
    let l := subresPlane a factor kpc z ms (spatial k ms.length z) (tag k)
    let ls ← subresLoop a factor kpc model spatial tag (k + 1) rest
    pure (l ++ ls)

/-- `add_black_holes`, `realization_extensions.py` 72-168: the black holes alone form the new
realization. The spacing of the planes fails on a realization without halos (125). `n` is the first
free reference. -/
noncomputable def addBlackHoles (a : BHArgs) (factor kpc : ℝ → ℝ) (rs : Halo → Except Err ℝ)
    (model : SubresModel) (spatial : ℕ → ℕ → ℝ → List ℝ × List ℝ) (σ : Heap) (n : Oid)
    (r : Realization) (v : ℕ → Seed) (tag : ℕ → ℕ → Tag) : Except Err (Heap × Realization) := do
  let l ← seedHalos a factor kpc rs (r.halos.zipIdx.map fun p => (σ p.1, v p.2))
  let dz ← planeGaps r.lensCosmo.zSource r.uniqueRedshifts
  let l' ← subresLoop a factor kpc model spatial tag 0 (r.uniqueRedshifts.zip dz)
  let σ' := place σ n (l ++ l')
  pure (σ', Realization.rebuild σ' r (refs n (l ++ l')))

/-! ## Globular clusters -/

/-- The arguments of `add_globular_clusters`, `realization_extensions.py` 170-175. -/
structure GCArgs where
  logMean : ℝ
  logSigma : ℝ
  radius : ℝ
  profile : String := "SPL_CORE"
  gammaMean : ℝ := 6
  gammaSigma : ℝ := 0.3
  sizeMean : ℝ := 3
  sizeSigma : ℝ := 1
  surface : ℝ

/-- The mean mass of a cluster, `realization_extensions.py` 206. -/
noncomputable def gcMeanMass (a : GCArgs) : ℝ :=
  Real.exp (Real.log ((10 : ℝ) ^ a.logMean) + Real.log ((10 : ℝ) ^ a.logSigma) ^ 2 / 2)

/-- The mean number of clusters per centre, `realization_extensions.py` 206-208 (`int` of a
non-negative number). -/
noncomputable def gcNumber (a : GCArgs) (kpc : ℝ) : ℤ :=
  ⌊Real.pi * a.surface * (a.radius * kpc) ^ 2 / gcMeanMass a⌋

/-- The random numbers used for one cluster: slope, size and tag. `realization_extensions.py` 214-250. -/
structure GCVar where
  slope : ℝ
  size : ℝ
  tag : Tag

/-- `gc_profile_args`, `realization_extensions.py` 220-229: slope, size (pc), concentration. -/
noncomputable def gcProfile (a : GCArgs) (m : ℝ) (v : GCVar) : Kw :=
  let gamma := (a.gammaMean - a.gammaSigma) + v.slope * ((a.gammaMean + a.gammaSigma) - (a.gammaMean - a.gammaSigma))
  let core := ((a.sizeMean - a.sizeSigma) + v.size * ((a.sizeMean + a.sizeSigma) - (a.sizeMean - a.sizeSigma)))
    * (m / 10 ^ 5) ^ (1 / 3 : ℝ)
  [("gamma", gamma), ("gc_size_pc", 20 * core), ("gc_concentration", 20)]

/-- `GlobularCluster.__init__`, `globular_cluster.py` 7-32; `params` stands for `lenstronomy_params`. -/
noncomputable def cluster (params : ℝ → ℝ → ℝ → Kw → List Kw) (m x y z : ℝ) (d : Kw) (tag : Tag) : Halo where
  mass := m
  x := x
  y := y
  r3d := none
  z := z
  mdef := "SPL_CORE"
  tag := tag
  isSubhalo := false
  fixedPosition := true
  boundMass := m
  lensIDs := ["SPL_CORE"]
  lensParams := params m x y d

/-- One turn of the inner loop, `realization_extensions.py` 218-246. -/
noncomputable def gcObject (a : GCArgs) (params : ℝ → ℝ → ℝ → Kw → List Kw) (factor : ℝ → ℝ) (z m x y : ℝ)
    (v : GCVar) : Except Err Halo :=
  if a.profile = "SPL_CORE" then .ok (cluster params m x y z (gcProfile a m v) v.tag)
  else if a.profile = "PTMASS" then .ok (blackHole factor m x y z v.tag true)
  else .error (.exception "Unknown gc density profile")

/-- The inner loop, `realization_extensions.py` 217-246. -/
noncomputable def gcObjects (a : GCArgs) (params : ℝ → ℝ → ℝ → Kw → List Kw) (factor : ℝ → ℝ) (z : ℝ) :
    List ((ℝ × ℝ × ℝ) × GCVar) → Except Err (List Halo)
  | [] => .ok []
  | ((m, x, y), v) :: rest => do
    let h ← gcObject a params factor z m x y v
    let hs ← gcObjects a params factor z rest
    pure (h :: hs)

/-- The random numbers for one centre: Poisson count, normal variates of the masses, angles, squared
radii, and those of the single clusters. `realization_extensions.py` 170-260. -/
structure GCDraw where
  count : ℕ
  normal : ℕ → ℝ
  angle : ℕ → ℝ
  radius : ℕ → ℝ
  var : ℕ → GCVar

/-- The clusters around one centre, `realization_extensions.py` 211-246. -/
noncomputable def gcCentre (a : GCArgs) (params : ℝ → ℝ → ℝ → Kw → List Kw) (factor : ℝ → ℝ) (z kpc cx cy : ℝ)
    (d : GCDraw) : Except Err (List Halo) := do
  let m ← (GaussianMF.mk (gcNumber a kpc) a.logMean a.logSigma true).draw d.count d.normal
  let p := uniformDraw a.radius kpc 1 cx cy m.length d.angle d.radius
  gcObjects a params factor z
    ((m.zip ((p.1.map (· / kpc)).zip (p.2.map (· / kpc)))).zipIdx.map fun q => (q.1, d.var q.2))

/-- The loop over centres, `realization_extensions.py` 210-257: every centre gives a realization, which
is joined to the previous ones. `k` counts the centres. -/
noncomputable def gcLoop (a : GCArgs) (params : ℝ → ℝ → ℝ → Kw → List Kw) (factor : ℝ → ℝ) (z kpc : ℝ)
    (r : Realization) (d : ℕ → GCDraw) :
    ℕ → Heap → Oid → Option Realization → List (ℝ × ℝ) → Except Err (Heap × Oid × Option Realization)
  | _, σ, n, acc, [] => .ok (σ, n, acc)
  | k, σ, n, acc, (cx, cy) :: rest => do
    let l ← gcCentre a params factor z kpc cx cy (d k)
    let σ' := place σ n l
    let new := Realization.rebuild σ' r (refs n l)
    let acc' := match acc with
      | none => new
      | some old => old.join σ' new false
    gcLoop a params factor z kpc r d (k + 1) σ' (n + l.length) (some acc') rest

/-- `add_globular_clusters`, `realization_extensions.py` 170-260, for lists of centres. Without a
centre the realization is joined with `None`. -/
noncomputable def addGlobularClusters (a : GCArgs) (params : ℝ → ℝ → ℝ → Kw → List Kw) (factor : ℝ → ℝ)
    (kpc : ℝ) (σ : Heap) (n : Oid) (r : Realization) (cx cy : List ℝ) (d : ℕ → GCDraw) :
    Except Err (Heap × Realization) := do
  if cx.length ≠ cy.length then throw .assertionError
  let (σ', _, acc) ← gcLoop a params factor r.lensCosmo.zLens kpc r d 0 σ n none (cx.zip cy)
  match acc with
  | none => throw (.attributeError "_tags")
  | some gcs => pure (σ', r.join σ' gcs false)

/-- `profile_args` of a cluster, `globular_cluster.py` 93-105; `m3d r rho rc gamma` is lenstronomy's
`SPLCORE.mass_3d`. -/
noncomputable def clusterProfileArgs (m3d : ℝ → ℝ → ℝ → ℝ → ℝ) (m gamma sizePc c : ℝ) : ℝ × ℝ × ℝ × ℝ :=
  let size := sizePc * 1e-3
  let core := size / c
  (m / m3d size 1 core gamma, size, gamma, core)

/-- `lenstronomy_params` of a cluster, `globular_cluster.py` 74-90: amplitude and core radius in
arcseconds; `sigma` is `get_sigma_crit_lensing` per Mpc². -/
noncomputable def clusterLensArgs (m3d : ℝ → ℝ → ℝ → ℝ → ℝ) (m gamma sizePc c kpc sigma : ℝ) : ℝ × ℝ :=
  let size := sizePc * 1e-3 / kpc
  let core := size / c
  let sc := sigma * (0.001 * kpc) ^ 2
  let rho0 := m / m3d size sc core gamma
  (rho0 * core, core)

/-! ## Density fluctuations -/

/-- The shapes of `add_ULDM_fluctuations`, `realization_extensions.py` 940-947. -/
inductive Shape
  | ring (rmin rmax : ℝ)
  | ellipse (amin amax bmin bmax angle : ℝ)
  | aperture (xs ys : List ℝ) (radius : ℝ)

/-- The area in which fluctuations are placed (per image for apertures) in kpc²,
`_get_number_flucs`, `realization_extensions.py` 1180-1198; `toKpc` converts arcseconds. -/
noncomputable def flucArea (toKpc : ℝ) : Shape → ℝ
  | .ring rmin rmax => Real.pi * ((rmax * toKpc) ^ 2 - (rmin * toKpc) ^ 2)
  | .ellipse amin amax bmin bmax _ =>
    Real.pi * ((amax * toKpc) * (bmax * toKpc) - (amin * toKpc) * (bmin * toKpc))
  | .aperture _ _ r => Real.pi * (r * toKpc) ^ 2

/-- The mean number of fluctuations (per image), `realization_extensions.py` 1176-1200. -/
noncomputable def flucMean (toKpc lambda sizeScale nScale : ℝ) (s : Shape) : ℝ :=
  nScale * flucArea toKpc s / (Real.pi * (lambda * sizeScale) ^ 2)

/-- The counts per region that `_get_number_flucs` returns, `realization_extensions.py` 1163-1203: one
number for rings and ellipses; for apertures one per image, **without the zeros** (1201). `pois` are the
Poisson draws. -/
def flucCounts (s : Shape) (pois : ℕ → ℕ) : List ℕ :=
  match s with
  | .aperture xs _ _ => ((List.range xs.length).map pois).filter (· ≠ 0)
  | _ => [pois 0]

/-- The amplitude and the counts after the rescaling, `realization_extensions.py` 973-979. -/
noncomputable def flucRescale (s : Shape) (rescale : Bool) (nCut amp : ℝ) (counts : List ℕ) : ℝ × List ℕ :=
  if rescale then
    match s with
    | .aperture _ _ _ =>
      let mean := (counts.map (fun n : ℕ => (n : ℝ))).sum / counts.length
      if mean > nCut then
        (amp / Real.sqrt (mean / nCut), List.replicate counts.length ⌊nCut⌋.toNat)
      else (amp, counts)
    | _ =>
      match counts with
      | [n] => if (n : ℝ) > nCut then (amp / Real.sqrt (n / nCut), [⌊nCut⌋.toNat]) else (amp, counts)
      | _ => (amp, counts)
  else (amp, counts)

/-- The random numbers of one fluctuation: width, peak convergence (standard normal), angle, radial
variates, tag. `realization_extensions.py` 1205-1262. -/
structure FlucVar where
  width : ℝ
  kappa : ℝ
  angle : ℝ
  r1 : ℝ
  r2 : ℝ
  tag : Tag

/-- Position of a fluctuation, `realization_extensions.py` 1229-1253; `i` is the index of the image for
apertures, an index beyond the lists raises. -/
noncomputable def flucPosition (s : Shape) (i : ℕ) (v : FlucVar) : Except Err (ℝ × ℝ) :=
  let θ := 2 * Real.pi * v.angle
  match s with
  | .ring rmin rmax =>
    let r := rmin + Real.sqrt v.r1 * (rmax - rmin)
    .ok (r * Real.cos θ, r * Real.sin θ)
  | .ellipse amin amax bmin bmax φ =>
    let a := Real.sqrt v.r1 * (amax - amin) + amin
    let b := Real.sqrt v.r2 * (bmax - bmin) + bmin
    .ok (a * Real.cos θ * Real.cos φ - b * Real.sin θ * Real.sin φ,
      a * Real.cos θ * Real.sin φ + b * Real.sin θ * Real.cos φ)
  | .aperture xs ys ap =>
    match xs[i]?, ys[i]? with
    | some x, some y =>
      let r := v.r1 * ap ^ 2
      .ok (r ^ (0.5 : ℝ) * Real.sin θ + x, r ^ (0.5 : ℝ) * Real.cos θ + y)
    | _, _ => .error .indexError

/-- `GaussianHalo` with its arguments, `gaussianhalo.py` 12-47 and `realization_extensions.py`
1222-1227, 1242-1248, 1255-1262: width and amplitude in arcseconds. -/
noncomputable def fluctuation (z size sizeVar kpc amp : ℝ) (p : ℝ × ℝ) (v : FlucVar) : Halo :=
  let sigma := |size / kpc + sizeVar / kpc * v.width|
  let a := amp * v.kappa * 2 * Real.pi * sigma ^ 2
  { mass := |a|
    x := p.1
    y := p.2
    r3d := none
    z := z
    mdef := "GAUSSIAN_KAPPA"
    tag := v.tag
    isSubhalo := true
    fixedPosition := true
    boundMass := |a|
    lensIDs := ["GAUSSIAN"]
    lensParams := [[("amp", a), ("sigma", sigma), ("center_x", p.1), ("center_y", p.2)]] }

/-- The fluctuations of region `i`. `realization_extensions.py` 1205-1262. -/
noncomputable def flucRegion (s : Shape) (z size sizeVar kpc amp : ℝ) (i : ℕ) (vs : ℕ → FlucVar) :
    List ℕ → Except Err (List Halo)
  | [] => .ok []
  | k :: ks => do
    let p ← flucPosition s i (vs k)
    let rest ← flucRegion s z size sizeVar kpc amp i vs ks
    pure (fluctuation z size sizeVar kpc amp p (vs k) :: rest)

/-- `_get_fluctuation_halos`, `realization_extensions.py` 1205-1262. -/
noncomputable def flucHalos (s : Shape) (z size sizeVar kpc amp : ℝ) (vs : ℕ → ℕ → FlucVar) :
    ℕ → List ℕ → Except Err (List Halo)
  | _, [] => .ok []
  | i, c :: cs => do
    let l ← flucRegion s z size sizeVar kpc amp i (vs i) (List.range c)
    let rest ← flucHalos s z size sizeVar kpc amp vs (i + 1) cs
    pure (l ++ rest)

/-- `add_ULDM_fluctuations`, `realization_extensions.py` 926-1003. The mass-sheet flag handed to the
intermediate realization is a bound method (line 992), that is, true; the join discards it. -/
noncomputable def addFluctuations (s : Shape) (size sizeVar amp nCut kpc : ℝ) (rescale : Bool)
    (pois : ℕ → ℕ) (vs : ℕ → ℕ → FlucVar) (σ : Heap) (n : Oid) (r : Realization) :
    Except Err (Heap × Realization) :=
  let counts := flucCounts s pois
  if counts.all (· == 0) then .ok (σ, r)
  else do
    let (amp', counts') := flucRescale s rescale nCut amp counts
    let l ← flucHalos s r.lensCosmo.zLens size sizeVar kpc amp' vs 0 counts'
    let σ' := place σ n l
    let new := Realization.fromHalos σ' (refs n l) r.lensCosmo [] true r.renderingClasses
      (some r.centerX) (some r.centerY) r.geometry
    pure (σ', r.join σ' new false)

/-! ## Correlated structure -/

/-- One call of `render_at_z`, `correlated_structure.py` 82-107: masses, positions in arcseconds and
the factor for the original halos. -/
structure PlaneDraw where
  masses : List ℝ
  xs : List ℝ
  ys : List ℝ
  factor : ℝ

/-- `render_at_z`, `correlated_structure.py` 82-107. `halos` is the number of halos near the ray,
`mass` the mass in the area, `draw` the masses drawn from the mass function, `positions` what the spatial
model draws (arcseconds). -/
def renderAtZ (halos : ℕ) (fraction : ℝ) (draw : List ℝ) (positions : List ℝ × List ℝ) : PlaneDraw :=
  if halos = 0 then ⟨[], [], [], 1⟩
  else if draw.length > 0 then ⟨draw, positions.1, positions.2, 1 - fraction⟩
  else ⟨[], [], [], 1⟩

/-- `CorrelatedStructure.render`, `correlated_structure.py` 35-80. The positions returned by
`render_at_z` are overwritten by those of all halos of the realization (line 68). The result: masses,
x, y, redshifts and the factor of the last plane. -/
def renderCorrelated (haloXs haloYs : List ℝ) (plane : ℕ → ℝ → PlaneDraw) :
    ℕ → List ℝ → ℝ → List ℝ × List ℝ × List ℝ × List ℝ × ℝ
  | _, [], f => ([], [], [], [], f)
  | k, z :: zs, _ =>
    let d := plane k z
    let rest := renderCorrelated haloXs haloYs plane (k + 1) zs d.factor
    if d.masses.length > 0 then
      (d.masses ++ rest.1, haloXs ++ rest.2.1, haloYs ++ rest.2.2.1,
        List.replicate haloXs.length z ++ rest.2.2.2.1, rest.2.2.2.2)
    else rest

/-- The halos made of the rendered arrays, `realization_extensions.py` 1027-1037 and
`single_realization.py` 106-112 (the `zip` cuts to the shortest array). -/
def correlatedArgs (mdef : String) (o : List ℝ × List ℝ × List ℝ × List ℝ × ℝ) : List HaloArgs :=
  zipArgs o.1 o.2.1 o.2.2.1 (List.replicate o.1.length none) (List.replicate o.1.length mdef)
    o.2.2.2.1 (List.replicate o.1.length false)

/-- `render_masses_at_z`, `correlated_structure.py` 109-135: masses and the factor for the original
halos; `kind` is the `name` of the mass function class. -/
noncomputable def correlatedMasses (kind : String) (fraction logM sigma area : ℝ) (poisson : Bool)
    (pois : ℕ) (nrm : ℕ → ℝ) : Except Err (List ℝ × ℝ) :=
  if kind = "DELTA_FUNCTION" then do
    let m ← (DeltaFn.mk ((10 : ℝ) ^ logM) 1 (fraction * area) poisson).draw pois
    pure (m, 1 - fraction)
  else if kind = "GAUSSIAN" then do
    let mean := Real.exp (Real.log ((10 : ℝ) ^ logM) + Real.log ((10 : ℝ) ^ sigma) ^ 2 / 2)
    let m ← (GaussianMF.mk (fraction * area / mean) logM sigma poisson).draw pois nrm
    pure (m, 1 - fraction)
  else .error (.exception "this class is only implemented for DELTA_FUNCTION and GAUSSIAN mass functions")

/-- The indexes of the halos to rescale, `correlated_structure.py` 69-71: those at redshift `z` closer
than `rmax` to the ray. -/
noncomputable def rescaleIndexes (σ : Heap) (halos : List Oid) (z ax ay rmax : ℝ) : List ℕ :=
  ((halos.zipIdx).filter fun p => decide ((σ p.1).z = z ∧
    Real.sqrt (((σ p.1).x - ax) ^ 2 + ((σ p.1).y - ay) ^ 2) < rmax)).map (·.2)

/-- What is drawn along one ray: the planes and the position of the ray at each redshift.
`realization_extensions.py` 1045-1160. -/
structure RayDraw where
  plane : ℕ → ℝ → PlaneDraw
  angle : ℝ → ℝ × ℝ
  tag : ℕ → Tag

/-- The objects of one ray, `realization_extensions.py` 1026-1038, made by `_load_halo_model` with
`mdef = 'PT_MASS'` (`fixed_position` defaults to true), and the factor. -/
noncomputable def rayObjects (factor : ℝ → ℝ) (xs ys zs : List ℝ) (d : RayDraw) : List Halo × ℝ :=
  let o := renderCorrelated xs ys d.plane 0 zs 1
  ((correlatedArgs "PT_MASS" o).zipIdx.map fun p =>
    blackHole factor p.1.mass p.1.x p.1.y p.1.z (d.tag p.2) true, o.2.2.2.2)

/-- The loop over rays, `realization_extensions.py` 1026-1038: the realization of the objects, which
is joined to those of the earlier rays, and the factor of the last ray. -/
noncomputable def rayLoop (factor : ℝ → ℝ) (r : Realization) (xs ys : List ℝ) :
    Heap → Oid → Option (Realization × ℝ) → List RayDraw → Heap × Oid × Option (Realization × ℝ)
  | σ, n, acc, [] => (σ, n, acc)
  | σ, n, acc, d :: rest =>
    let p := rayObjects factor xs ys r.uniqueRedshifts d
    let σ' := place σ n p.1
    let new := Realization.fromHalos σ' (refs n p.1) r.lensCosmo
      ["truncation_model", "concentration_model", "kwargs_density_profile"] true [none] none none none
    let acc' := match acc with
      | none => new
      | some old => old.1.join σ' new false
    rayLoop factor r xs ys σ' (n + p.1.length) (some (acc', p.2)) rest

/-- `add_correlated_structure`, `realization_extensions.py` 1005-1043, with point masses. The original
realization is copied with its halos (1021); the copies at the indexes near a ray are rescaled with the
factor of the **last** ray (1039-1041); `rescale f` stands for `rescale_normalization(f)`, which every
halo is taken to have. Without a ray
`realization_pbh` is unbound; without halos the spacing of the planes fails. -/
noncomputable def addCorrelated (factor : ℝ → ℝ) (rescale : ℝ → Halo → Halo) (rescaleOn : Bool) (rmax : ℝ)
    (σ : Heap) (n : Oid) (r : Realization) (rays : List RayDraw) : Except Err (Heap × Oid × Realization) :=
  let copies := r.halos.map σ
  let σ₁ := place σ n copies
  let rc := { r with halos := refs n copies }
  if r.uniqueRedshifts = [] ∧ rays ≠ [] then .error .indexError
  else
    let out := rayLoop factor r (copies.map (·.x)) (copies.map (·.y)) σ₁ (n + copies.length) none rays
    match out.2.2 with
    | none => .error (.nameError "realization_pbh")
    | some (pbh, f) =>
      let idx := rays.flatMap fun d => r.uniqueRedshifts.flatMap fun z =>
        rescaleIndexes σ r.halos z (d.angle z).1 (d.angle z).2 rmax
      let σ₂ : Heap := fun k =>
        if rescaleOn ∧ n ≤ k ∧ k < n + copies.length ∧ k - n ∈ idx then rescale f (out.1 k) else out.1 k
      .ok (σ₂, out.2.1, rc.join σ₂ pbh false)

/-- The mass in the area, `_kappa_at_lens_plane` and `_mass_in_area`, `correlated_structure.py`
164-190: pixels further than the radius from the centre are set to zero, and the area per pixel is that
of the disc divided by **their** number (175-176). Undefined values of the convergence (173-174) do not occur here. `grid` are the coordinates relative to the ray. -/
noncomputable def massInArea (radius sigma : ℝ) (kappa : ℝ × ℝ → ℝ) (grid : List (ℝ × ℝ)) : ℝ :=
  let out := grid.filter fun p => decide (Real.sqrt (p.1 ^ 2 + p.2 ^ 2) > radius)
  let pdf := grid.map fun p => if Real.sqrt (p.1 ^ 2 + p.2 ^ 2) > radius then 0 else kappa p
  (pdf.map (· * sigma)).sum * (Real.pi * radius ^ 2 / out.length)

/-- The grid of the convergence map, `correlated_structure.py` 164-168 (`ravel` of `meshgrid`: the first
coordinate runs fastest). -/
noncomputable def kappaGrid (radius : ℝ) (npix : ℕ) : List (ℝ × ℝ) :=
  let r := Np.linspace (-radius) radius npix
  r.flatMap fun y => r.map fun x => (x, y)

/-- `Correlated2D.draw`, `correlated.py` 20-68: the pixel `i` of the flattened map gives the pair
`pairs.reshape(-1, 2)[i]`, that is (`i mod s`, `i div s`); `n₁`, `n₂` are standard normal variates.
Arcseconds, before the conversion to kpc. -/
noncomputable def correlatedDraw (rmax sx sy smooth : ℝ) (s i : ℕ) (n₁ n₂ : ℝ) : Except Err (ℝ × ℝ) :=
  let c := Np.linspace (-rmax) rmax s
  match c[i % s]?, c[i / s]? with
  | some x, some y =>
    .ok (x + smooth * rmax / s * n₁ + sx, y + smooth * rmax / s * n₂ + sy)
  | _, _ => .error .indexError

/-! ## Primordial black holes -/

/-- The two mass fractions, `realization_extensions.py` 1087-1088. -/
def pbhFractions (fraction inHalos : ℝ) : ℝ × ℝ := ((1 - inHalos) * fraction, fraction * inHalos)

/-- The mass function of the smooth component at one plane, `realization_extensions.py` 1107-1125:
masses drawn for a Poisson count and normal variates. -/
noncomputable def pbhSmooth (kind : String) (logM sigma volume rho : ℝ) (pois : ℕ) (nrm : ℕ → ℝ) :
    Except Err (List ℝ) :=
  if kind = "DELTA" then (DeltaFn.mk ((10 : ℝ) ^ logM) volume rho true).draw pois
  else if kind = "GAUSSIAN" then
    let mean := Real.exp (Real.log ((10 : ℝ) ^ logM) + Real.log ((10 : ℝ) ^ sigma) ^ 2 / 2)
    (GaussianMF.mk (volume * rho / mean) logM sigma true).draw pois nrm
  else .error (.valueError "this class is only implemented for DELTA mass functions")

/-- The smooth component of one ray at one plane, `realization_extensions.py` 1101-1138: masses and
positions in arcseconds. -/
noncomputable def pbhPlane (masses : List ℝ) (rmax scale kpc ax ay : ℝ) (u v : ℕ → ℝ) :
    List (ℝ × ℝ × ℝ) :=
  if masses.length > 0 then
    let p := uniformDraw (rmax * scale) kpc 1 ax ay masses.length u v
    masses.zip ((p.1.map (· / kpc)).zip (p.2.map (· / kpc)))
  else []

/-- The arguments of `add_primordial_black_holes`, `realization_extensions.py` 1045-1055, and of the
geometry: `scale` is `rendering_scale`, `volume angle z dz` is `volume_element_comoving` for a double
cone of that opening angle, `rho` is `rho_dark_matter_crit`. -/
structure PBHArgs where
  fraction : ℝ
  logM : ℝ
  inHalos : ℝ
  kind : String := "DELTA"
  sigma : ℝ
  rescaleOn : Bool := true
  kpc : ℝ → ℝ
  scale : ℝ → ℝ
  volume : ℝ → ℝ → ℝ → ℝ
  rho : ℝ

/-- The random numbers of the smooth component of one ray at one plane. `realization_extensions.py` 1045-1160. -/
structure PBHDraw where
  pois : ℕ
  nrm : ℕ → ℝ
  u : ℕ → ℝ
  v : ℕ → ℝ

/-- The loop over the planes, `realization_extensions.py` 1100-1132: masses, positions, redshift. -/
noncomputable def pbhPlanes (a : PBHArgs) (rmax : ℝ) (angle : ℝ → ℝ × ℝ) (d : ℕ → PBHDraw) :
    ℕ → List (ℝ × ℝ) → Except Err (List ((ℝ × ℝ × ℝ) × ℝ))
  | _, [] => .ok []
  | k, (z, dz) :: rest => do
    let m ← pbhSmooth a.kind a.logM a.sigma (a.volume (2 * rmax) z dz)
      ((pbhFractions a.fraction a.inHalos).1 * a.rho) (d k).pois (d k).nrm
    let l := (pbhPlane m rmax (a.scale z) (a.kpc z) (angle z).1 (angle z).2 (d k).u (d k).v).map (·, z)
    let ls ← pbhPlanes a rmax angle d (k + 1) rest
    pure (l ++ ls)

/-- The loop over the rays, `realization_extensions.py` 1094-1132; every ray has its own radius. -/
noncomputable def pbhRays (a : PBHArgs) (planes : List (ℝ × ℝ)) (d : ℕ → ℕ → PBHDraw) :
    ℕ → List ((ℝ → ℝ × ℝ) × ℝ) → Except Err (List ((ℝ × ℝ × ℝ) × ℝ))
  | _, [] => .ok []
  | i, (angle, rmax) :: rest => do
    let l ← pbhPlanes a rmax angle (d i) 0 planes
    let ls ← pbhRays a planes d (i + 1) rest
    pure (l ++ ls)

/-- `add_primordial_black_holes`, `realization_extensions.py` 1045-1161. `rays` are the rays of the smooth
component with their radii, `clustered` what is drawn for the clustered component, for which the radius
of the last ray is used (1158). `clustered` is rendered with `DeltaFunction` for both types (1151). -/
noncomputable def addPBH (a : PBHArgs) (factor : ℝ → ℝ) (rescale : ℝ → Halo → Halo) (σ : Heap) (n : Oid)
    (r : Realization) (rays : List ((ℝ → ℝ × ℝ) × ℝ)) (d : ℕ → ℕ → PBHDraw) (tag : ℕ → Tag)
    (clustered : List RayDraw) : Except Err (Heap × Realization) := do
  let dz ← planeGaps r.lensCosmo.zSource r.uniqueRedshifts
  let l ← pbhRays a (r.uniqueRedshifts.zip dz) d 0 rays
  let objs := l.zipIdx.map fun p => blackHole factor p.1.1.1 p.1.1.2.1 p.1.1.2.2 p.1.2 (tag p.2) true
  let σ₁ := place σ n objs
  let smooth := Realization.fromHalos σ₁ (refs n objs) r.lensCosmo
    ["truncation_model", "concentration_model", "kwargs_density_profile"] false [none] none none none
  if a.kind ≠ "DELTA" ∧ a.kind ≠ "GAUSSIAN" then
    throw (.valueError "mass_function_type must be either DELTA or GAUSSIAN")
  let rmax ← (match rays.getLast? with
    | none => throw (.nameError "r_max")
    | some p => pure p.2 : Except Err ℝ)
  let (σ₂, _, rc) ← addCorrelated factor rescale a.rescaleOn rmax σ₁ (n + objs.length) r clustered
  pure (σ₂, rc.join σ₂ smooth false)

end Pop
end PyHalo
