import Verif.Model.Run

/-!
# The comoving volume of the rendered region

Models `Geometry.volume_MPC3` of `pyHalo/Cosmology/geometry.py`.
-/

namespace PyHalo
namespace Run

/-- `volume_MPC3`, `geometry.py` 48-60: the elements of thickness 0.01 at all but the last entry of
`np.arange(0.0, zsource, 0.01)`. -/
noncomputable def volumeMpc3 (W : World) (kc : ℕ) (g : Geometry) : ℝ :=
  let dz : ℝ := 0.01
  let z := Np.arange 0 g.zSource dz
  (List.range (z.length - 1)).foldl (fun v i => v + volumeElement W kc g (z.getD i 0) dz) 0

end Run
end PyHalo
