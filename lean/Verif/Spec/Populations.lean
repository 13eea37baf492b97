import Verif.Spec.Realization

/-!
# Specification vocabulary for added populations
-/

namespace PyHalo.Spec
open PyHalo

/-- The realization `r'` (with heap `σ'`) holds the objects `l`, created one after the other at the
references `n, n + 1, …`, besides the halos of `r`, none of which has been changed; it has the same
context as `r`. -/
structure Added (σ σ' : Heap) (n : Oid) (l : List Halo) (r r' : Realization) : Prop where
  old : ∀ k < n, σ' k = σ k
  new : ∀ (k : ℕ) (h : Halo), l[k]? = some h → σ' (n + k) = h
  halos : r'.halos.Perm (r.halos ++ List.range' n l.length)
  fresh : Fresh σ' r'
  context : SameContext r r'

/-- The halos of a realization live at references below `n`. -/
def Below (n : Oid) (r : Realization) : Prop := ∀ h ∈ r.halos, h < n

/-- The mean of a log-normal distribution whose base-10 logarithm has mean `μ` and standard
deviation `s`. -/
noncomputable def logNormalMean (μ s : ℝ) : ℝ := (10 : ℝ) ^ (μ + s ^ 2 * Real.log 10 / 2)

/-- The share of the area of the annulus `rmin … rmax` that lies inside radius `r`. -/
noncomputable def annulusShare (rmin rmax r : ℝ) : ℝ := (r ^ 2 - rmin ^ 2) / (rmax ^ 2 - rmin ^ 2)

/-- The point `(x, y)` in axes rotated by `φ`. -/
noncomputable def rotated (φ x y : ℝ) : ℝ × ℝ :=
  (x * Real.cos φ + y * Real.sin φ, -x * Real.sin φ + y * Real.cos φ)

/-- A point mass that is not a subhalo, without three-dimensional position. -/
structure PointMass (h : Halo) : Prop where
  profile : h.lensIDs = ["POINT_MASS"]
  kind : h.mdef = "PT_MASS"
  r3d : h.r3d = none
  field : h.isSubhalo = false

end PyHalo.Spec
