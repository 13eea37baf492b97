import Verif.Model.Extensions
import Verif.Model.Render

/-!
# Specification vocabulary for halo objects made from rows of numbers
-/

namespace PyHalo.Spec94
open PyHalo

/-- The mass definitions for which there is a halo class. -/
def profiles : List String := ["NFW", "TNFW", "PT_MASS", "PJAFFE", "ULDM", "GAUSSIAN_KAPPA", "GNFW", "SPL_CORE"]

/-- The lens models of a mass definition. -/
def lensModels (mdef : String) : List String :=
  if mdef = "PT_MASS" then ["POINT_MASS"] else if mdef = "ULDM" then ["CNFW", "ULDM"]
  else if mdef = "GAUSSIAN_KAPPA" then ["GAUSSIAN"] else if mdef = "GNFW" then ["PSEUDO_DPL"] else [mdef]

/-- The object `o` is the halo described by the row `a`: all numbers are taken over, it is lensed by the models of the mass
definition, and is free to be moved unless it is a point mass or a Gaussian fluctuation. -/
structure Created (a : HaloArgs) (o : Ext.Obj) : Prop where
  mass : o.mass = a.mass
  x : o.x = a.x
  y : o.y = a.y
  r3d : o.r3d = a.r3d
  z : o.z = a.z
  positive : 0 < a.z
  sub : o.isSubhalo = a.isSubhalo
  known : a.mdef ∈ profiles
  models : o.lensIDs = lensModels a.mdef
  kind : o.mdef = if a.mdef = "GNFW" then "PSEUDO_DPL" else a.mdef
  moves : o.fixedPosition = true ↔ a.mdef = "PT_MASS" ∨ a.mdef = "GAUSSIAN_KAPPA"

/-- The names that the rendering classes of the four kinds of populations go by. -/
def className (population : String) : String :=
  if population = "LINE_OF_SIGHT_NOSHEET" then "LINE_OF_SIGHT_NO_SHEET" else if population = "TWO_HALO" then "TWO_HALO_TERM"
  else population

end PyHalo.Spec94
