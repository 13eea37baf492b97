import Verif.Model.Sidm

/-!
# The density of the evolving SIDM profile

Models `rho_s_evolution` of `pyHalo/Halos/HaloModels/NFW_core_trunc.py`; the radii are in `Model/Sidm.lean`.
-/

namespace PyHalo
namespace Sidm

/-- `rho_s_evolution`, `NFW_core_trunc.py` 417-424. -/
noncomputable def rhoEvolution (t : ℝ) : ℝ :=
  0.692896 + 1.11215 * t + 4.08729 * t ^ 5 - 5.78038 * t ^ 7 + 5.30498 * t ^ 9
    + (1 - 0.692896) / Real.log 0.001 * Real.log (0.001 + t)

end Sidm
end PyHalo
