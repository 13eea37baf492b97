import Verif.Model.Whole
import Verif.Model.Uldm

/-!
# Whole calls of `ULDM`

`pyHalo/PresetModels/uldm.py` 8-224 with `add_ULDM_fluctuations` of `pyHalo/realization_extensions.py` 926-1003.
-/

namespace PyHalo
namespace Whole
open Preset

/-- The arguments of `ULDM` that describe the fluctuations, `uldm.py` 18-23, with their defaults. Simplification: `flucs_shape`
and `flucs_args` come together as a shape, so names that are not shapes and dictionaries that lack an entry are left out. -/
structure FlucArgs where
  shape : Pop.Shape
  log10Amp : ℝ := -0.8
  sizeScale : ℝ := 0.05
  dispersion : ℝ := 0.2
  nScale : ℝ := 1
  velocity : ℝ := 200
  nCut : ℕ := 50000
  rEin : ℝ := 1

/-- What a call of `ULDM` takes from outside, `uldm.py` 171-221: distances of a cosmology, the answers of the concentration model of the host
(with scatter), the Poisson draws for a given mean, the random numbers of the fluctuations. -/
structure FlucKit where
  env : ℕ → LensCosmo.Env
  conc : ℕ → ℝ → ℝ → ℝ
  pois : ℝ → ℕ → ℕ
  vars : ℕ → ℕ → Pop.FlucVar

/-- The mean number of fluctuations per region, `realization_extensions.py` 961-962 and 1176-1200 with the arguments of `uldm.py`
173 and 212-220. -/
noncomputable def uldmMean (U : FlucKit) (a : Uldm.Args) (f : FlucArgs) : ℝ :=
  let lambda := Uldm.deBroglie a.log10m f.velocity
  let size := lambda * f.sizeScale
  Pop.flucMean ((U.env a.kwargsCosmo).DAz a.zLens * arcsec * 1e3) lambda (size / lambda) f.nScale f.shape

/-- A whole call of `ULDM`, `uldm.py` 8-224. -/
noncomputable def uldmCall (W : Run.World) (K : Kit) (U : FlucKit) (E : Preset.Env) (a : Uldm.Args) (f : FlucArgs) (d : Dicts) :
    Except Err (Ext.Store × Realization) := do
  let p ← wdmCall W K E (Uldm.toWdm a) d
  if a.flucs then
    if a.flucsArgsEmpty then
      .error (.exception "Must specify fluctuation arguments, see realization_extensions.add_ULDM_fluctuations")
    else
      let lambda := Uldm.deBroglie a.log10m f.velocity
      let amp ← Uldm.flucAmplitude (U.env a.kwargsCosmo) (W.kpc a.kwargsCosmo) U.conc a.zLens a.zSource a.logMHost f.rEin
        f.log10Amp a.log10m
      let q ← Pop.addFluctuations f.shape (lambda * f.sizeScale) (lambda * f.sizeScale * f.dispersion) amp f.nCut
        (W.kpc a.kwargsCosmo a.zLens) true (U.pois (uldmMean U a f)) U.vars p.1.heap p.1.next p.2
      pure (lift p.1 q.1 q.2, q.2)
  else pure p

end Whole
end PyHalo
