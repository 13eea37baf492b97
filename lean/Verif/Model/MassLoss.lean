import Verif.Model.Grid
import Verif.Model.MassLossTables
import Mathlib.Analysis.SpecialFunctions.Log.Base
import Mathlib.Analysis.SpecialFunctions.Arsinh

/-!
# Tidal mass loss

Models `pyHalo/Halos/galacticus_truncation/interp_mass_loss.py`, the bound masses of
`pyHalo/Halos/tidal_truncation.py` and `galacticus_mass_loss_vectorized` of
`pyHalo/Halos/batch_halo_util.py`.  A standard normal variate is an argument (`u`).
-/

namespace PyHalo
namespace MassLoss
open MassLossTables

/-- Entry `[i, j, k]` of a table reshaped to `n × n × n`. `interp_mass_loss.py` 10-25, 80-92, 118-131, 157-179. -/
noncomputable def entry (n : ℕ) (l : List ℕ) (i j k : ℕ) : ℝ := (l.getD ((i * n + j) * n + k) 0 : ℝ) / 1000

/-- One of the classes that interpolate Johnson-SU parameters: axes (time or redshift since infall,
`log10 c`, host concentration), tables, and the intervals the arguments are clamped to. `interp_mass_loss.py` 75-198. -/
structure Johnson where
  t : Np.Axis
  c : Np.Axis
  h : Np.Axis
  a : List ℕ
  b : List ℕ
  tLo : ℝ
  tHi : ℝ
  cLo : ℝ
  cHi : ℝ
  hLo : ℝ
  hHi : ℝ

/-- The interpolated parameters at a point that has been clamped. `interp_mass_loss.py` 94-111, 133-150, 181-198. -/
noncomputable def Johnson.params (J : Johnson) (t log10c chost : ℝ) : ℝ × ℝ :=
  (Np.grid3 J.t J.c J.h (entry 15 J.a) t log10c chost,
   Np.grid3 J.t J.c J.h (entry 15 J.b) t log10c chost)

/-- A Johnson-SU draw cut at 0: `min(sinh((N - a) / b), 0)`. `interp_mass_loss.py` 94-111, 133-150, 181-198. -/
noncomputable def johnsonDraw (p : ℝ × ℝ) (u : ℝ) : ℝ := min (Real.sinh ((u - p.1) / p.2)) 0

/-- `__call__`, `interp_mass_loss.py` 94-112, 133-151 and 181-199: the same code with different
limits. -/
noncomputable def Johnson.call (J : Johnson) (log10c t chost u : ℝ) : ℝ :=
  johnsonDraw (J.params (Np.clip t J.tLo J.tHi) (Np.clip log10c J.cLo J.cHi)
    (Np.clip chost J.hLo J.hHi)) u

/-- `InterpGalacticus`, `interp_mass_loss.py` 113-151. -/
noncomputable def galacticus : Johnson where
  t := .linspace 0 8.1 15
  c := .linspace (Real.logb 10 2) (Real.logb 10 384) 15
  h := .linspace 4 9 15
  a := aFit
  b := bFit
  tLo := 0
  tHi := 8.1
  cLo := Real.logb 10 2
  cHi := Real.logb 10 384
  hLo := 4
  hHi := 8

/-- `InterpGalacticusZinfall`, `interp_mass_loss.py` 75-112. -/
noncomputable def zinfall : Johnson where
  t := .linspace 0 8.1 15
  c := .linspace (Real.logb 10 2) (Real.logb 10 384) 15
  h := .linspace 4 9 15
  a := aFitZ
  b := bFitZ
  tLo := 0.001
  tHi := 9.5
  cLo := Real.logb 10 2
  cHi := Real.logb 10 384
  hLo := 4
  hHi := 8

/-- `InterpGalacticusMW.__init__`, `interp_mass_loss.py` 157-180. -/
noncomputable def milkyWay (rmax : ℝ) : Except Err Johnson :=
  let mk (a b : List ℕ) : Johnson :=
    { t := .linspace 0 12.9 15
      c := .linspace (Real.logb 10 2) (Real.logb 10 128) 15
      h := .linspace 6 12 15
      a := a
      b := b
      tLo := 0
      tHi := 12.9
      cLo := Real.logb 10 2
      cHi := Real.logb 10 128
      hLo := 6
      hHi := 12 }
  if rmax = 30 then .ok (mk aFit30 bFit30)
  else if rmax = 50 then .ok (mk aFit50 bFit50)
  else if rmax = 200 then .ok (mk aFit200 bFit200)
  else .error (.valueError "rmax must be 30 or 80 kpc")

/-- `galacticus_mass_loss_vectorized`, `batch_halo_util.py` 254-287, for the two classes it clips
for; `zinf` tells which. One variate per halo (`johnsonsu.rvs(a, b)` is `sinh((N - a) / b)`). -/
noncomputable def vectorized (zinf : Bool) (log10c t : List ℝ) (chost : ℝ) (us : List ℝ) : List ℝ :=
  let J := if zinf then zinfall else galacticus
  let lc := log10c.map fun x => Np.clip x (Real.logb 10 2) (Real.logb 10 384)
  let tt := t.map fun x => if zinf then Np.clip x 0.001 9.5 else Np.clip x 0 8.1
  let ch := if zinf then min (max chost 4) 8 else min (max chost 4) 9
  List.zipWith (fun p u => johnsonDraw (J.params p.1 p.2 ch) u) (tt.zip lc) us

/-! ## `InterpGalacticusKeeley24` -/

/-- Axes of `InterpGalacticusKeeley24`, `interp_mass_loss.py` 10-25. -/
noncomputable def keeleyT : Np.Axis := .linspace 0 7.658449372663094 20
/-- The same. `interp_mass_loss.py` 10-25. -/
noncomputable def keeleyH : Np.Axis := .linspace 2 8 20
/-- The same. `interp_mass_loss.py` 10-25. -/
noncomputable def keeleyC : Np.Axis := .linspace 0.3010299956639812 2.3010299956639813 20

/-- `evaluate_mean_mass_loss`, `interp_mass_loss.py` 41-56 (the table holds minus 1000 times the
entries). -/
noncomputable def keeleyMean (log10c t chost : ℝ) : ℝ :=
  Np.grid3 keeleyT keeleyH keeleyC (fun i j k => -entry 20 meanKeeley i j k) t chost log10c

/-- `evaluate_scatter_dex`, `interp_mass_loss.py` 58-73. -/
noncomputable def keeleyScatter (log10c t chost : ℝ) : ℝ :=
  Np.grid3 keeleyT keeleyH keeleyC (entry 20 scatterKeeley) t chost log10c

/-- `__call__`, `interp_mass_loss.py` 27-39. -/
noncomputable def keeleyCall (log10c t chost u : ℝ) : ℝ :=
  keeleyMean log10c t chost + max (keeleyScatter log10c t chost) 0.001 * u

/-! ## Bound masses -/

/-- `calculate_mbound`, `tidal_truncation.py` 222-234, 302-314, 410-422 and 652-664; `loss` is the value of the
mass loss model. -/
noncomputable def boundMass (mass loss : ℝ) : ℝ := mass * (10 : ℝ) ^ loss

/-- `TruncationGalacticusApproxCDM.__init__`, `tidal_truncation.py` 489-505: location and scale. -/
noncomputable def approxParams (zLens : ℝ) : Except Err (ℝ × ℝ) := do
  let z := min (max zLens 0.2) 1.2
  let scale ← Np.interp1d [0.2, 0.5, 0.8, 1.2] [2.5, 1.8, 1.2, 0.6] z
  let loc ← Np.interp1d [0.2, 0.5, 0.8, 1.2] [-4.0, -1.3, -1.0, -1.0] z
  pure (loc, scale)

/-- `compute_f_bound`, `tidal_truncation.py` 508-517: `truncnorm.rvs(a, b, loc, scale)` is
`loc + scale * v` with a variate `v` between `a` and `b`. -/
noncomputable def approxFraction (loc scale v : ℝ) : ℝ := (10 : ℝ) ^ (loc + scale * v)

/-- The limits `a`, `b` handed to `truncnorm`. `tidal_truncation.py` 484-517. -/
noncomputable def approxLimits (loc scale : ℝ) : ℝ × ℝ := ((-10 - loc) / scale, (0 - loc) / scale)

/-- `TruncationBoundMassPDF.truncation_radius_halo`, `tidal_truncation.py` 602-605: the bound
fraction. -/
noncomputable def pdfFraction (mean sigma u : ℝ) : ℝ :=
  let f := (10 : ℝ) ^ (mean + sigma * u)
  if f ≥ 1 then 0.999 else f

/-- `_make_params_in_bounds_tau_evaluate`, `tidal_truncation.py` 210-219 (and in the other
classes). -/
noncomputable def tauPoint (log10c log10f : ℝ) : ℝ × ℝ :=
  (min (max log10c (Real.logb 10 1)) (Real.logb 10 ((10 : ℝ) ^ (2.7 : ℝ))),
   min (max log10f (-8)) (-0.001))

/-- The axes of the table of `tau_mf_interpolation`, `tnfw_halo_util.py` 37-60: `log10 c` and
`log10` of the mass fraction (the second is `log10` of `np.logspace`, i.e. `linspace` again). -/
noncomputable def tauAxes : Np.Axis × Np.Axis :=
  (.linspace 0 2.7 100, .linspace (-6) (Real.logb 10 0.9999) 100)

end MassLoss
end PyHalo
