import Verif.Model.Numpy

/-!
# Light rays through a realization

Models `interpolate_ray_paths` and `compute_comoving_ray_path` of `pyHalo/utilities.py`. The ray shooting of lenstronomy is a
parameter.
-/

namespace PyHalo
namespace Rays

/-- State of a ray that `ray_shooting_partial_comoving` takes and returns, `utilities.py` 208-210: comoving transverse position and
angles. -/
structure Ray where
  x : ℝ
  y : ℝ
  ax : ℝ
  ay : ℝ

/-- The lens model object, `utilities.py` 190 and 208-210: its list of redshifts, and lenstronomy's
`ray_shooting_partial_comoving(x, y, alpha_x, alpha_y, z_start, z_stop, kwargs_lens)`, which is a parameter. -/
structure Lens where
  redshifts : List ℝ
  shoot : Ray → ℝ → ℝ → Ray

/-- `all_redshifts_sorted`, `utilities.py` 190-195 with `default_z_step` of `defaults.py` 49. The result of `np.unique` is already
sorted, hence `argsort` (195) leaves it as it is. -/
noncomputable def allRedshifts (L : Lens) (zsource : ℝ) : List ℝ :=
  Np.unique ((L.redshifts ++ [zsource]) ++ Np.linspace 0.02 (zsource - 0.02) 50)

/-- The loop of `compute_comoving_ray_path`, `utilities.py` 206-215: position and distance after every step. -/
noncomputable def trace (L : Lens) (D : ℝ → ℝ) : Ray → ℝ → List ℝ → List (ℝ × ℝ × ℝ)
  | _, _, [] => []
  | s, z₀, z :: t =>
    let s' := L.shoot s z₀ z
    (s'.x, s'.y, D z) :: trace L D s' z t

/-- `l[-1] = v`, `utilities.py` 219-220. -/
def setLast (l : List ℝ) (v : ℝ) : List ℝ := l.dropLast ++ [v]

/-- `compute_comoving_ray_path`, `utilities.py` 169-222; `D` is `cosmo.D_C_transverse`, `source` is `(source_x, source_y)`. Multiplying
`None` raises a `TypeError`. -/
noncomputable def comovingPath (L : Lens) (D : ℝ → ℝ) (zsource : ℝ) (terminate : Bool) (source : Option ℝ × Option ℝ) (x y : ℝ) :
    Except Err (List ℝ × List ℝ × List ℝ) :=
  let tr := trace L D ⟨0, 0, x, y⟩ 0 (allRedshifts L zsource)
  let xl := 0 :: tr.map (·.1)
  let yl := 0 :: tr.map (·.2.1)
  let dl := 0 :: tr.map (·.2.2)
  if terminate then
    match source with
    | (some sx, some sy) => .ok (setLast xl (sx * D zsource), setLast yl (sy * D zsource), dl)
    | _ => .error (.typeError "unsupported operand type(s) for *: 'NoneType' and 'float'")
  else .ok (xl, yl, dl)

/-- An `interp1d` object made from distances and angles, `utilities.py` 143-144. -/
abbrev AngleInterp := ℝ → Except Err ℝ

/-- The body of the loop over images of `interpolate_ray_paths`, `utilities.py` 126-144. -/
noncomputable def imagePath (L : Lens) (D : ℝ → ℝ) (zsource : ℝ) (terminate : Bool) (source : Option ℝ × Option ℝ) (x y : ℝ) :
    Except Err (AngleInterp × AngleInterp) := do
  let (rx, ry, d) ← comovingPath L D zsource terminate source x y
  let θx := x :: List.zipWith (· / ·) rx.tail d.tail
  let θy := y :: List.zipWith (· / ·) ry.tail d.tail
  let distances := 0 :: d.tail
  pure (Np.interp1d distances θx, Np.interp1d distances θy)

/-- `np.mean` of a list, `utilities.py` 157-158. The mean of no values is `nan` in numpy and zero here. -/
noncomputable def mean (l : List ℝ) : ℝ := l.sum / l.length

/-- The mean of several interpolations, `utilities.py` 146-165. -/
noncomputable def meanPath (D : ℝ → ℝ) (zsource : ℝ) (angles : List AngleInterp) : Except Err AngleInterp := do
  let distances := (Np.linspace 0 zsource 100).map D
  let centres ← distances.mapM fun di => do
    let coords ← angles.mapM fun ray => ray di
    pure (mean coords)
  pure (Np.interp1d distances centres)

/-- `interpolate_ray_paths`, `utilities.py` 99-167: the lists of interpolations for the two coordinates. -/
noncomputable def interpolateRayPaths (xs ys : List ℝ) (L : Lens) (D : ℝ → ℝ) (zsource : ℝ) (terminate : Bool)
    (source : Option ℝ × Option ℝ) (evaluateAtMean : Bool) : Except Err (List AngleInterp × List AngleInterp) := do
  let paths ← (xs.zip ys).mapM fun p => imagePath L D zsource terminate source p.1 p.2
  let ax := paths.map (·.1)
  let ay := paths.map (·.2)
  if evaluateAtMean then do
    let mx ← meanPath D zsource ax
    let my ← meanPath D zsource ay
    pure ([mx], [my])
  else pure (ax, ay)

end Rays
end PyHalo
