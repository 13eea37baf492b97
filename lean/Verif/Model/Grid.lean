import Verif.Model.Numpy
import Mathlib.Data.Nat.Find

/-!
# `scipy.interpolate.RegularGridInterpolator` (linear)

Library code used by pyHalo, with its documented meaning; part of the trusted base.
-/

namespace PyHalo
namespace Np

/-- One axis of a grid: `n` nodes `g 0 < g 1 < ... < g (n - 1)`.
Used in `interp_mass_loss.py` 23-24, `concentration.py` 460-461. -/
structure Axis where
  n : ℕ
  g : ℕ → ℝ

/-- The axis made of the entries of a list. Used in `interp_mass_loss.py` 23-24, `concentration.py` 460-461. -/
def Axis.ofList (l : List ℝ) : Axis := ⟨l.length, fun i => l.getD i 0⟩

/-- `np.linspace(a, b, n)` as an axis. Used in `interp_mass_loss.py` 23-24, `concentration.py` 460-461. -/
noncomputable def Axis.linspace (a b : ℝ) (n : ℕ) : Axis :=
  ⟨n, fun i => a + i * ((b - a) / ((n : ℝ) - 1))⟩

/-- A proper axis: at least two nodes, increasing. Used in `interp_mass_loss.py` 23-24, `concentration.py` 460-461. -/
def Axis.Ok (A : Axis) : Prop := 2 ≤ A.n ∧ ∀ i j, i < j → j < A.n → A.g i < A.g j

/-- `x` is inside the axis. Used in `interp_mass_loss.py` 23-24, `concentration.py` 460-461. -/
def Axis.Inside (A : Axis) (x : ℝ) : Prop := A.g 0 ≤ x ∧ x ≤ A.g (A.n - 1)

open Classical in
/-- Index of the cell used for `x`: the last node not above `x`, kept between 0 and `n - 2`.
Used in `interp_mass_loss.py` 23-24, `concentration.py` 460-461. -/
noncomputable def Axis.cell (A : Axis) (x : ℝ) : ℕ :=
  min (Nat.findGreatest (fun i => A.g i ≤ x) (A.n - 1)) (A.n - 2)

/-- Position in the cell (outside `[0, 1]` when extrapolating).
Used in `interp_mass_loss.py` 23-24, `concentration.py` 460-461. -/
noncomputable def Axis.frac (A : Axis) (x : ℝ) : ℝ :=
  (x - A.g (A.cell x)) / (A.g (A.cell x + 1) - A.g (A.cell x))

/-- Linear interpolation with weight `t`. Used in `interp_mass_loss.py` 23-24, `concentration.py` 460-461. -/
def lerp (t a b : ℝ) : ℝ := a * (1 - t) + b * t

/-- Evaluation on three axes with `bounds_error=False, fill_value=None`: linear inside, linear
extrapolation of the boundary cell outside.  (scipy adds up the eight weighted corner values; the
nested form is the same number.). Used in `interp_mass_loss.py` 23-24, `concentration.py` 460-461. -/
noncomputable def grid3 (A B C : Axis) (v : ℕ → ℕ → ℕ → ℝ) (x y z : ℝ) : ℝ :=
  let i := A.cell x
  let j := B.cell y
  let k := C.cell z
  lerp (A.frac x)
    (lerp (B.frac y) (lerp (C.frac z) (v i j k) (v i j (k + 1)))
      (lerp (C.frac z) (v i (j + 1) k) (v i (j + 1) (k + 1))))
    (lerp (B.frac y) (lerp (C.frac z) (v (i + 1) j k) (v (i + 1) j (k + 1)))
      (lerp (C.frac z) (v (i + 1) (j + 1) k) (v (i + 1) (j + 1) (k + 1))))

open Classical in
/-- Evaluation with the default `bounds_error=True`. Used in `interp_mass_loss.py` 23-24, `concentration.py` 460-461. -/
noncomputable def grid3Strict (A B C : Axis) (v : ℕ → ℕ → ℕ → ℝ) (x y z : ℝ) : Except Err ℝ :=
  if A.Inside x ∧ B.Inside y ∧ C.Inside z then .ok (grid3 A B C v x y z)
  else .error (.valueError "One of the requested xi is out of bounds")

end Np
end PyHalo
