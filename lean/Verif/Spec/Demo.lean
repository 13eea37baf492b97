import Verif.Spec.Realization

/-!
# A small concrete realization

Used by the examples that show hypotheses of theorems can be met.
-/

namespace PyHalo.Demo
open PyHalo

/-- A halo with one lens component. -/
noncomputable def mk (mass x y z : ℝ) (tag : Tag) (sub fixed : Bool) (bound : ℝ) : Halo :=
  { mass := mass, x := x, y := y, r3d := none, z := z, mdef := "TNFW", tag := tag,
    isSubhalo := sub, fixedPosition := fixed, boundMass := bound,
    lensIDs := ["TNFW"], lensParams := [[("center_x", x), ("center_y", y)]] }

/-- Four halos: a subhalo and a globular-cluster-like fixed object in the lens plane (z = 1/2),
one halo in front and one behind. -/
noncomputable def heap : Heap
  | 0 => mk 100 0 0 (1 / 2) 10 true false 40
  | 1 => mk 1000 1 1 (1 / 4) 11 false false 1000
  | 2 => mk 10 2 0 (3 / 4) 12 false false 10
  | _ => mk 50 (1 / 10) 0 (1 / 2) 13 true true 50

/-- A cosmology interface: comoving distance `1000 z`. -/
noncomputable def cosmo : LensCosmoI :=
  { zLens := 1 / 2, zSource := 2, DC := fun z => 1000 * z, sigmaCritMass := fun _ _ => 5 }

/-- A geometry interface. -/
noncomputable def geom : GeometryI :=
  { coneOpeningAngle := 6, angleToPhysicalArea := fun a _ => a ^ 2 }

/-- The realization holding the four halos. -/
noncomputable def real : Realization :=
  Realization.fromHalos heap [0, 1, 2, 3] cosmo [] true [none] none none (some geom)

end PyHalo.Demo
