import Verif.Model.Numpy
import Mathlib.Analysis.SpecialFunctions.Complex.Arg
import Mathlib.RingTheory.Polynomial.Chebyshev

/-!
# Correlation functions of convergence maps

Models `mask_annular` of `pyHalo/utilities.py` and `corr_kappa_with_mask`, `xi_l` of `pyHalo/realization_extensions.py`. The splines and
the weights of Simpson's rule of scipy are parameters. Real arithmetic: a division by zero, which gives `nan` or `inf` in numpy, gives zero
here.
-/

namespace PyHalo
namespace Corr

/-- scipy, as used by `realization_extensions.py` 1312-1315 and 1353-1356: `RectBivariateSpline(x, y, z, kx=5, ky=5, s=0)` and
`RectBivariateSpline(x, y, z, kx=1, ky=1, s=0)` evaluated at a point, and the weights of `simpson` for given abscissae. -/
structure Scipy where
  spline5 : List ℝ → List ℝ → List (List ℝ) → ℝ → ℝ → ℝ
  spline1 : List ℝ → List ℝ → List (List ℝ) → ℝ → ℝ → ℝ
  weights : List ℝ → List ℝ

/-- `simps(y, x)`: scipy's rule is linear in the values, with weights that depend on the abscissae. Used in `realization_extensions.py`
1353-1356 and 1408. -/
noncomputable def simps (S : Scipy) (y x : List ℝ) : ℝ := (List.zipWith (· * ·) (S.weights x) y).sum

/-- One entry of `mask_annular`, `utilities.py` 378-400: `x`, `y` are the coordinates of the pixel. -/
noncomputable def maskAnnular (cx cy x y rMin : ℝ) (rMax : Option ℝ) : ℝ :=
  let R := Real.sqrt ((x - cx) * (x - cx) + (y - cy) * (y - cy))
  match rMax with
  | none => if R ≤ rMin then 0 else 1
  | some M => if R ≥ M then 0 else if R ≤ rMin then 0 else 1

/-- `np.max` of a list, `realization_extensions.py` 1292. An empty array raises. -/
noncomputable def maxOf (l : List ℝ) : Except Err ℝ :=
  match l with
  | [] => .error (.valueError "zero-size array to reduction operation maximum which has no identity")
  | a :: t => .ok (t.foldl max a)

/-- `np.min` of a list, `realization_extensions.py` 1308. An empty array raises. -/
noncomputable def minOf (l : List ℝ) : Except Err ℝ :=
  match l with
  | [] => .error (.valueError "zero-size array to reduction operation minimum which has no identity")
  | a :: t => .ok (t.foldl min a)

/-- `int(x)`: truncation towards zero. `realization_extensions.py` 1295. -/
noncomputable def truncInt (x : ℝ) : ℤ := if 0 ≤ x then ⌊x⌋ else ⌈x⌉

/-- The displacement of the first point, `realization_extensions.py` 1325-1326; `arctan2` (1302) is the argument of the complex number.
The second point (1328-1329) has the opposite one. -/
noncomputable def offset (r μ x y : ℝ) : ℝ × ℝ :=
  let φ := Complex.arg ⟨x, y⟩
  (r / 2 * (Real.cos φ * μ + Real.sin φ * Real.sqrt (1 - μ ^ 2)),
   r / 2 * (Real.sin φ * μ - Real.cos φ * Real.sqrt (1 - μ ^ 2)))

/-- The two assignments `mask[mask<0.9] = 0`, `mask[mask>0.9] = 1`, `realization_extensions.py` 1351-1355. -/
noncomputable def binarise (m : ℝ) : ℝ := if m < 0.9 then 0 else if m > 0.9 then 1 else m

/-- `simps(simps(A, x_, axis=0), y_, axis=-1)` for an array given by its entries (row `y`, column `x`), `realization_extensions.py`
1360-1363. -/
noncomputable def simps2 (S : Scipy) (g : List ℝ) (A : ℝ → ℝ → ℝ) : ℝ := simps S (g.map fun x => simps S (g.map fun y => A x y) g) g

/-- One entry of the result, `realization_extensions.py` 1324-1381. `K`, `M` are the interpolations of the map and of the mask, in the
order `(y, x)` of the code; `g` is the grid of both axes. -/
noncomputable def corrEntry (S : Scipy) (g : List ℝ) (K M : ℝ → ℝ → ℝ) (area : ℝ) (normalization : Bool) (r μ : ℝ) : ℝ :=
  let m1 := fun x y => binarise (M (y - (offset r μ x y).2) (x - (offset r μ x y).1))
  let m2 := fun x y => binarise (M (y + (offset r μ x y).2) (x + (offset r μ x y).1))
  let k1 := fun x y => K (y - (offset r μ x y).2) (x - (offset r μ x y).1) * m1 x y
  let k2 := fun x y => K (y + (offset r μ x y).2) (x + (offset r μ x y).1) * m2 x y
  let term1 := simps2 S g fun x y => k1 x y * k2 x y
  let term21 := simps2 S g fun x y => k1 x y * m2 x y
  let term22 := simps2 S g fun x y => m1 x y * k2 x y
  let term3 := simps2 S g fun x y => m1 x y * m2 x y
  let num := (term1 - term21 * term22 / term3) / area
  let term4 := simps2 S g fun x y => k1 x y ^ 2 * m2 x y
  let den1 := (term4 - term21 ^ 2 / term3) / area
  let term7 := simps2 S g fun x y => m1 x y * k2 x y ^ 2
  let den2 := (term7 - term22 ^ 2 / term3) / area
  if normalization then num / Real.sqrt (den1 * den2) else num

/-- The area, `realization_extensions.py` 1331-1337: `w` is the width of the grid. -/
noncomputable def areaOf (applyMask : Bool) (rMin : ℝ) (rMax : Option ℝ) (w : ℝ) : ℝ :=
  if applyMask then
    match rMax with
    | none => w * w - Real.pi * rMin ^ 2
    | some M => Real.pi * (M ^ 2 - rMin ^ 2)
  else w * w

/-- `corr_kappa_with_mask`, `realization_extensions.py` 1264-1384 without its printed message. A spline of degree five needs six
points (FITPACK raises otherwise). A map size of zero divides by zero (1295) and is refused here. -/
noncomputable def corrKappaWithMask (S : Scipy) (κ : List (List ℝ)) (mapSize : ℝ) (r μ : List ℝ) (applyMask : Bool) (rMin : ℝ)
    (rMax : Option ℝ) (normalization : Bool) : Except Err (List (List ℝ)) := do
  let n := κ.length
  let X := Np.linspace (-mapSize / 2) (mapSize / 2) n
  if ¬ ∀ row ∈ κ, row.length = n then .error .assertionError
  else do
    let xMax ← maxOf X
    let xMin ← minOf X
    let rTop ← maxOf r
    let half := xMax - rTop
    if xMax = 0 then .error (.valueError "cannot convert float NaN to integer")
    else do
      let npix := truncInt (n / xMax * half)
      if npix < 0 then .error (.valueError "Number of samples must be non-negative")
      else if npix = 0 then .error .indexError
      else if n < 6 then .error (.valueError "m > k must hold")
      else do
        let g := Np.linspace (-half) half npix.toNat
        let centre := (xMax + xMin) / 2
        let K := S.spline5 X X κ
        let M := if applyMask then S.spline1 X X (X.map fun y => X.map fun x => maskAnnular centre centre x y rMin rMax)
          else fun _ _ => 1
        let gMax ← maxOf g
        let gMin ← minOf g
        let area := areaOf applyMask rMin rMax (gMax - gMin)
        pure (r.map fun ri => μ.map fun μj => corrEntry S g K M area normalization ri μj)

/-- `xi_l`, `realization_extensions.py` 1386-1410: the multipoles (the separations are returned unchanged). `eval_chebyt` is the
Chebyshev polynomial. -/
noncomputable def xiL (S : Scipy) (l : ℕ) (corr : List (List ℝ)) (μ : List ℝ) : List ℝ :=
  let prefactor := if l = 0 then 1 / Real.pi else 2 / Real.pi
  corr.map fun row => prefactor * simps S (List.zipWith (fun c m => c * (Polynomial.Chebyshev.T ℝ l).eval m) row μ)
    (μ.map Real.arccos).reverse

end Corr
end PyHalo
