import Verif.Model.HaloObject

/-!
# Core-collapsed composite halos

Models `pyHalo/Halos/HaloModels/core_collapsed_halo.py`: a truncated NFW envelope and a cuspy centre (or a black hole).
The profiles of lenstronomy are parameters.
-/

namespace PyHalo
namespace Collapsed
open scoped Classical
open HaloObj (round4 round10)

/-- The functions of lenstronomy that are used: `TNFW.mass_3d(r, Rs, rho0, tau)`, `TNFW.alpha2rho0(alpha, Rs)`,
`PseudoDoublePowerlaw.mass_3d_lens(r, Rs, alpha, gamma_inner, gamma_outer)`, and the densities.
Used in `core_collapsed_halo.py` 31-51 and 192-235. -/
structure Lenstronomy where
  envMass : ℝ → ℝ → ℝ → ℝ → ℝ
  alpha2rho0 : ℝ → ℝ → ℝ
  cenMass : ℝ → ℝ → ℝ → ℝ → ℝ → ℝ

/-- What the halo knows: the arguments (`_args`), the scale at its redshift (`kpc_proper_per_asec`), the critical surface
density, the NFW radii of the base class and the point mass factor. `core_collapsed_halo.py` 181-237. -/
structure Inst where
  gammaInner : ℝ
  gammaOuter : ℝ
  rtKpc : ℝ
  rsInnerKpc : ℝ
  rMatchKpc : ℝ
  mTargetR : ℝ
  mTargetR200 : ℝ
  kpcPerArcsec : ℝ
  sigmaCritMpc : ℝ
  rs : ℝ
  r200 : ℝ
  pointFactor : ℝ

/-- `sigma_crit_arcsec`, lines 192-194. File: `core_collapsed_halo.py`. -/
noncomputable def sigmaCritArcsec (I : Inst) : ℝ := I.sigmaCritMpc * (0.001 * I.kpcPerArcsec) ^ 2

/-- Mass of the envelope with amplitude one within `rKpc`, lines 196-206 and 212-215, in units of the critical density.
File: `core_collapsed_halo.py`. -/
noncomputable def unitEnvelope (L : Lenstronomy) (I : Inst) (rKpc : ℝ) : ℝ :=
  let RsAngle := I.rs / I.kpcPerArcsec
  let rTruncAngle := I.rtKpc / I.kpcPerArcsec
  L.envMass (rKpc / I.kpcPerArcsec) RsAngle (L.alpha2rho0 1 RsAngle) (rTruncAngle / RsAngle)

/-- Mass of the centre with amplitude one within `rKpc`, lines 207-211 and 216-220. File: `core_collapsed_halo.py`. -/
noncomputable def unitCentre (L : Lenstronomy) (I : Inst) (rKpc : ℝ) : ℝ :=
  L.cenMass (rKpc / I.kpcPerArcsec) (I.rsInnerKpc / I.kpcPerArcsec) 1 I.gammaInner I.gammaOuter

/-- The amplitudes of envelope and centre, lines 200-233 and 377-407. A vanishing determinant gives infinite numbers or
NaN, and one of the two checks fails. File: `core_collapsed_halo.py`. -/
noncomputable def solve (L : Lenstronomy) (I : Inst) : Except Err (ℝ × ℝ) :=
  let a := unitEnvelope L I I.rMatchKpc
  let b := unitCentre L I I.rMatchKpc
  let c := unitEnvelope L I I.r200
  let d := unitCentre L I I.r200
  if a * d - b * c = 0 then .error .assertionError
  else
    let y0 := (1 / (a * d - b * c) * d * I.mTargetR + 1 / (a * d - b * c) * -b * I.mTargetR200) / sigmaCritArcsec I
    let y1 := (1 / (a * d - b * c) * -c * I.mTargetR + 1 / (a * d - b * c) * a * I.mTargetR200) / sigmaCritArcsec I
    if y1 < 0 ∨ y0 < 0 then .error (.exception "alpha_Rs_envelope and alpha_Rs_center cannot be negative")
    else .ok (y0, y1)

/-- The tuple of `CoreCollapsedHalo.profile_args`, lines 234-235. File: `core_collapsed_halo.py`. -/
structure Args where
  alphaCentre : ℝ
  RsAngle : ℝ
  RsAngleInner : ℝ
  gammaInner : ℝ
  gammaOuter : ℝ
  alphaEnvelope : ℝ
  rTruncAngle : ℝ

/-- `CoreCollapsedHalo.profile_args`, lines 181-237, when it is not stored yet. File: `core_collapsed_halo.py`. -/
noncomputable def profileArgs (L : Lenstronomy) (I : Inst) : Except Err Args := do
  let (env, cen) ← solve L I
  pure ⟨cen, I.rs / I.kpcPerArcsec, I.rsInnerKpc / I.kpcPerArcsec, I.gammaInner, I.gammaOuter, env,
    I.rtKpc / I.kpcPerArcsec⟩

/-- The tuple of `CoreCollapsedHaloBH.profile_args`, line 410. File: `core_collapsed_halo.py`. -/
structure ArgsBH where
  thetaE : ℝ
  RsAngle : ℝ
  alphaEnvelope : ℝ
  rTruncAngle : ℝ

/-- `CoreCollapsedHaloBH.profile_args`, lines 358-412, when it is not stored yet. File: `core_collapsed_halo.py`. -/
noncomputable def profileArgsBH (L : Lenstronomy) (I : Inst) : Except Err ArgsBH := do
  let (env, _) ← solve L I
  pure ⟨I.pointFactor * Real.sqrt I.mTargetR, I.rs / I.kpcPerArcsec, env, I.rtKpc / I.kpcPerArcsec⟩

/-- A dictionary of parameters. `core_collapsed_halo.py` 132-170. -/
abbrev Dict := List (String × ℝ)

/-- The dictionary of lines 162-170. File: `core_collapsed_halo.py`. -/
noncomputable def joint (x y : ℝ) (p : Args) : List Dict :=
  [[("center_x", round4 x), ("center_y", round4 y), ("Rs_inner", round10 p.RsAngleInner), ("Rs_outer", round10 p.RsAngle),
    ("alpha_Rs_inner", round10 p.alphaCentre), ("alpha_Rs_outer", round10 p.alphaEnvelope),
    ("r_trunc", round10 p.rTruncAngle), ("gamma_inner", p.gammaInner), ("gamma_outer", p.gammaOuter)]]

/-- The dictionaries of lines 132-150. File: `core_collapsed_halo.py`. -/
noncomputable def split (x y : ℝ) (p : Args) : List Dict :=
  [[("alpha_Rs", round10 p.alphaCentre), ("Rs", round10 p.RsAngleInner), ("center_x", round4 x), ("center_y", round4 y),
    ("gamma_inner", p.gammaInner), ("gamma_outer", p.gammaOuter)],
   [("alpha_Rs", round10 p.alphaEnvelope), ("Rs", round10 p.RsAngle), ("center_x", round4 x), ("center_y", round4 y),
    ("r_trunc", round10 p.rTruncAngle)]]

/-- The dictionary of lines 338-348. File: `core_collapsed_halo.py`. -/
noncomputable def jointBH (x y : ℝ) (p : ArgsBH) : List Dict :=
  [[("center_x", round4 x), ("center_y", round4 y), ("Rs_outer", round10 p.RsAngle), ("theta_E_inner", round10 p.thetaE),
    ("alpha_Rs_outer", round10 p.alphaEnvelope), ("r_trunc", round10 p.rTruncAngle)]]

/-- The dictionaries of lines 316-327; one key is misspelt. File: `core_collapsed_halo.py`. -/
noncomputable def splitBH (x y : ℝ) (p : ArgsBH) : List Dict :=
  [[("theta_E", round10 p.thetaE), ("center_x", round4 x), ("cetner_y", round4 y)],
   [("center_x", round4 x), ("center_y", round4 y), ("Rs", round10 p.RsAngle), ("alpha_Rs", round10 p.alphaEnvelope),
    ("r_trunc", round10 p.rTruncAngle)]]

/-- The attributes: `_profile_args`, `_lenstronomy_args`, `_lenstronomy_args_split`. `A` is `Args` or `ArgsBH`.
`core_collapsed_halo.py` 123-172, 308-349. -/
structure St (A : Type) where
  args : Option A := none
  lens : Option (List Dict) := none
  splitArgs : Option (List Dict) := none

/-- The two properties. `core_collapsed_halo.py` 123-172. -/
inductive Read where
  | params
  | split
  deriving DecidableEq

/-- Reading `profile_args`. `core_collapsed_halo.py` 181-237, 358-412. -/
def readArgs {A : Type} (compute : Except Err A) (s : St A) : Except Err (A × St A) :=
  match s.args with
  | some p => .ok (p, s)
  | none =>
    match compute with
    | .ok p => .ok (p, { s with args := some p })
    | .error e => .error e

/-- Reading a property of `CoreCollapsedHalo` at `x`, `y`: `lenstronomy_params` (153-172) or
`lenstronomy_params_split` (123-151). File: `core_collapsed_halo.py`. -/
noncomputable def readProp (L : Lenstronomy) (I : Inst) (x y : ℝ) (s : St Args) : Read → Except Err (List Dict × St Args)
  | .params =>
    match s.lens with
    | some l => .ok (l, s)
    | none => do
      let (p, s) ← readArgs (profileArgs L I) s
      pure (joint x y p, { s with lens := some (joint x y p) })
  | .split =>
    match s.splitArgs with
    | some l => .ok (l, s)
    | none => do
      let (p, s) ← readArgs (profileArgs L I) s
      pure (split x y p, { s with splitArgs := some (split x y p) })

/-- Reading a property of `CoreCollapsedHaloBH`: `lenstronomy_params` (330-349) or `lenstronomy_params_split` (308-328),
which tests for one attribute and sets the other. File: `core_collapsed_halo.py`. -/
noncomputable def readBH (L : Lenstronomy) (I : Inst) (x y : ℝ) (s : St ArgsBH) :
    Read → Except Err (List Dict × St ArgsBH)
  | .params =>
    match s.lens with
    | some l => .ok (l, s)
    | none => do
      let (p, s) ← readArgs (profileArgsBH L I) s
      pure (jointBH x y p, { s with lens := some (jointBH x y p) })
  | .split =>
    match s.splitArgs with
    | some l => .ok (l, s)
    | none => do
      let (p, s) ← readArgs (profileArgsBH L I) s
      pure (splitBH x y p, { s with lens := some (splitBH x y p) })

/-- `kwargs[key]` or `del kwargs[key]`: the error for a missing key. Used for `core_collapsed_halo.py` 31-51, 279-297. -/
def need (d : Dict) (k : String) : Except Err ℝ :=
  match d.lookup k with
  | some v => .ok v
  | none => .error (.keyError k)

/-- The keys read by `CoreCollapsedHaloBH.deflection_angle`, lines 286-297. File: `core_collapsed_halo.py`. -/
def deflectionKeysBH (l : List Dict) : Except Err (List ℝ) :=
  match l with
  | d :: _ => ["Rs_outer", "theta_E_inner", "alpha_Rs_outer", "r_trunc"].mapM (need d)
  | [] => .error .indexError

/-- The keys removed by `component_density_profile_3d`, lines 42-45, from the two dictionaries of the split version.
File: `core_collapsed_halo.py`. -/
def densityKeys (l : List Dict) : Except Err Unit :=
  match l with
  | d0 :: d1 :: _ => do
    let _ ← need d0 "center_x"
    let _ ← need d0 "center_y"
    let _ ← need d1 "center_x"
    let _ ← need d1 "center_y"
    pure ()
  | _ => .error .indexError

/-- `np.trapezoid(f, r)`. Used in `core_collapsed_halo.py` 111. -/
noncomputable def trapezoid : List ℝ → List ℝ → ℝ
  | f₀ :: f₁ :: f, r₀ :: r₁ :: r => (r₁ - r₀) * (f₀ + f₁) / 2 + trapezoid (f₁ :: f) (r₁ :: r)
  | _, _ => 0

/-- `mass_2d`, lines 97-111: radii `u * rmax` (kpc) for the grid `u` and the convergence there.
File: `core_collapsed_halo.py`. -/
noncomputable def mass2d (I : Inst) (grid : List ℝ) (kappa : ℝ → ℝ) (rmax : ℝ) : ℝ :=
  let r := grid.map (· * rmax)
  let sigmaCritKpc := I.sigmaCritMpc * 1e-6
  trapezoid (r.map fun q => kappa q * 2 * Real.pi * q) r * (sigmaCritKpc * I.kpcPerArcsec ^ 2)

/-- The factor of `component_density_profile_3d`, lines 38-41, between densities of lenstronomy and solar masses per
cubic kpc. File: `core_collapsed_halo.py`. -/
noncomputable def densityFactor (I : Inst) : ℝ := I.sigmaCritMpc * 1e-6 / I.kpcPerArcsec

end Collapsed
end PyHalo
