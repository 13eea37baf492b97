import Verif.Model.Numpy

/-!
# Samples from the histogram of given samples

Models the class `ITSampling` of `pyHalo/utilities.py`. `np.histogram` and `interp1d` have their documented meaning.
-/

namespace PyHalo
namespace Resample

/-- `self._cdf_inverse`, `self._umin` and `self._umax` are determined by the abscissae and the cumulative distribution.
`utilities.py` 14-22. -/
structure Sampler where
  xs : List ℝ
  cdf : List ℝ

/-- `ITSampling.__init__`, `utilities.py` 14-22. `np.max(cdf)` is the last entry of a cumulative distribution. -/
noncomputable def mk (xs cdf : List ℝ) : Sampler := ⟨xs, cdf.map fun v => v / cdf.getLast?.getD 0⟩

/-- The bin of `np.histogram` that a value in the range falls into: the last bin is closed. `utilities.py` 32. -/
noncomputable def bin (lo w v : ℝ) : ℕ := min ⌊(v - lo) / w⌋₊ 149

/-- `ITSampling.from_samples`, `utilities.py` 24-36. `np.histogram` widens an empty range by a half on either side; `np.min` refuses an
empty array. -/
noncomputable def fromSamples (samples : List ℝ) : Except Err Sampler :=
  match samples with
  | [] => .error (.valueError "zero-size array to reduction operation minimum which has no identity")
  | v :: vs =>
    let a := vs.foldl min v
    let b := vs.foldl max v
    let (lo, hi) := if a = b then (a - 0.5, b + 0.5) else (a, b)
    let w := (hi - lo) / 150
    let h := (List.range 150).map fun i => ((samples.countP fun s => decide (bin lo w s = i) : ℕ) : ℝ)
    let x := (List.range 150).map fun i : ℕ => lo + i * w + w / 2
    let cdf := Np.cumsum h
    .ok (mk x (cdf.map fun v => v / cdf.getLast?.getD 0))

/-- `ITSampling.__call__`, `utilities.py` 38-49; `u` are uniform variates in `[0, 1)`, stretched by `np.random.uniform`. A single sample is
returned as a number, which is not distinguished here. -/
noncomputable def draw (s : Sampler) (n : ℕ) (u : ℕ → ℝ) : Except Err (List ℝ) :=
  match s.cdf.head?, s.cdf.getLast? with
  | some a, some b => (List.range n).mapM fun i => Np.interp1d s.cdf s.xs (a + (b - a) * u i)
  | _, _ => .error .indexError

end Resample
end PyHalo
