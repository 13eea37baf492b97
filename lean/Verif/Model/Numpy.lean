import Mathlib.Data.Finset.Sort
import Mathlib.Data.Real.Basic
import Mathlib.Analysis.SpecialFunctions.Pow.Real
import Mathlib.Algebra.Order.Floor.Ring
import Mathlib.Algebra.Group.Int.Even

/-!
# Python and numpy primitives used by the modelled code

These are not pyHalo code.  They are the library operations the modelled
functions are written with, given their documented numpy meaning on lists.
They belong to the trusted base.
-/

namespace PyHalo

/-- Python exceptions raised by the modelled code, as values. E.g. the exceptions of `halo_base.py` 104-105, 178-184. -/
inductive Err where
  | exception (msg : String)
  | valueError (msg : String)
  | indexError
  | keyError (key : String)
  | nameError (name : String)
  | typeError (msg : String)
  | attributeError (name : String)
  | assertionError
  deriving Repr, DecidableEq

namespace Np

/-- `np.where(mask)[0]`: ascending indexes of the true entries.
`i` is the index of the head of the list. Used in `mass_function_base.py` 102-113. -/
def whereFrom (i : ℕ) : List Bool → List ℕ
  | [] => []
  | b :: t => if b then i :: whereFrom (i + 1) t else whereFrom (i + 1) t

/-- `np.where(mask)[0]`. Used in `mass_function_base.py` 102-113. -/
def whereTrue (mask : List Bool) : List ℕ := whereFrom 0 mask

/-- Fancy-index read `a[idx]`; numpy raises `IndexError` when an index is out of range.
Used in `mass_function_base.py` 102-113, `single_realization.py` 308-316. -/
def gather {α : Type} (a : List α) : List ℕ → Except Err (List α)
  | [] => .ok []
  | i :: t =>
    match a[i]? with
    | none => .error .indexError
    | some v =>
      match gather a t with
      | .error e => .error e
      | .ok vs => .ok (v :: vs)

/-- Fancy-index assignment `a[idx] = vals` (one value per index, later writes win). Used in `batch_halo_util.py` 176-218. -/
def scatter {α : Type} (a : List α) : List ℕ → List α → List α
  | i :: is, v :: vs => scatter (a.set i v) is vs
  | _, _ => a

/-- `np.unique(a)` (sorted, without repetition); `np.sort` of it is the same list. Used in `single_realization.py` 809. -/
noncomputable def unique (a : List ℝ) : List ℝ := a.toFinset.sort (· ≤ ·)

/-- `np.intersect1d(a, b)` on index arrays: sorted common values without repetition. Used in `single_realization.py` 313. -/
def intersect1d (a b : List ℕ) : List ℕ := (a.toFinset ∩ b.toFinset).sort (· ≤ ·)

/-- `np.searchsorted(a, v)` (side `left`) on an ascending array: how many entries are
strictly smaller than `v`. Used in `single_realization.py` 314. -/
def searchsorted1 (a : List ℕ) (v : ℕ) : ℕ := a.countP (· < v)

/-- `np.clip(v, lo, hi)` is `minimum(maximum(v, lo), hi)`. Used in `batch_halo_util.py` 232, 271-276. -/
noncomputable def clip (v lo hi : ℝ) : ℝ := min (max v lo) hi

/-- Broadcast two rows against each other the way numpy does for the last axis:
equal lengths pair up, a row of length one is repeated, anything else is an error. Used for `single_realization.py` 285-305. -/
def broadcast2 {α β : Type} (a : List α) (b : List β) : Except Err (List (α × β)) :=
  if a.length = b.length then .ok (a.zip b)
  else match a, b with
    | [x], b => .ok (b.map fun y => (x, y))
    | a, [y] => .ok (a.map fun x => (x, y))
    | _, _ => .error (.valueError "operands could not be broadcast together")

/-- Python `sum` over a list of numbers. Used for `single_realization.py` 571-591. -/
def sum (a : List ℝ) : ℝ := a.foldl (· + ·) 0

/-- Round to the nearest integer, ties to the even one (`np.rint`, `np.round`, python `round`).
Used in `utilities.py` 77-97, `mass_function_base.py` 48-51. -/
noncomputable def rint (x : ℝ) : ℤ :=
  if x - ⌊x⌋ < 1 / 2 then ⌊x⌋
  else if 1 / 2 < x - ⌊x⌋ then ⌊x⌋ + 1
  else if Even ⌊x⌋ then ⌊x⌋ else ⌊x⌋ + 1

/-- `np.round(x, 2)`. Used in `utilities.py` 77-97. -/
noncomputable def round2 (x : ℝ) : ℝ := (rint (100 * x) : ℝ) / 100

/-- `np.arange(a, b, s)` for a positive step: `ceil((b - a)/s)` values starting at `a`.
Real arithmetic; numpy evaluates the same formula in floating point. Used in `utilities.py` 88-91, `cosmology.py` 159-180. -/
noncomputable def arange (a b s : ℝ) : List ℝ :=
  (List.range ⌈(b - a) / s⌉₊).map fun i : ℕ => a + (i : ℝ) * s

/-- `np.linspace(a, b, n)`. Used in `interp_mass_loss.py` 17. -/
noncomputable def linspace (a b : ℝ) (n : ℕ) : List ℝ :=
  (List.range n).map fun i : ℕ => if n = 1 then a else a + (i : ℝ) * ((b - a) / (n - 1))

/-- `np.cumsum`. Used in `accretion.py` 19, `utilities.py` 34 and 61. -/
def cumsumFrom (s : ℝ) : List ℝ → List ℝ
  | [] => []
  | a :: t => (s + a) :: cumsumFrom (s + a) t

/-- `np.cumsum`. Used in `accretion.py` 19, `utilities.py` 34 and 61. -/
def cumsum (a : List ℝ) : List ℝ := cumsumFrom 0 a

/-- Piecewise linear interpolation through knots with increasing abscissae: the first segment
whose right end is not left of `q` (this is `searchsorted` with side `left`).
Used for `accretion.py` 23, `cosmology.py` 156-182. -/
noncomputable def segInterp : List (ℝ × ℝ) → ℝ → ℝ
  | (x₀, y₀) :: (x₁, y₁) :: t, q =>
    if q ≤ x₁ ∨ t = [] then y₀ + (y₁ - y₀) / (x₁ - x₀) * (q - x₀)
    else segInterp ((x₁, y₁) :: t) q
  | [(_, y)], _ => y
  | [], _ => 0

/-- `scipy.interpolate.interp1d(xs, ys)(q)` with the default settings: linear inside the table,
`ValueError` outside.  The table is assumed to be sorted (scipy sorts it). Used in `accretion.py` 23, `cosmology.py` 156-182. -/
noncomputable def interp1d (xs ys : List ℝ) (q : ℝ) : Except Err ℝ :=
  match xs.head?, xs.getLast? with
  | some a, some b =>
    if q < a then .error (.valueError "below the interpolation range")
    else if b < q then .error (.valueError "above the interpolation range")
    else .ok (segInterp (xs.zip ys) q)
  | _, _ => .error (.valueError "empty table")

end Np
end PyHalo
