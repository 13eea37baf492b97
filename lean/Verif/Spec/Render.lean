import Verif.Model.Render

/-! Vocabulary for the statements about rendering. -/

namespace PyHalo.Spec
open PyHalo

/-- The six arrays have one common length. -/
def Aligned (o : PopOut) : Prop :=
  o.x.length = o.masses.length ∧ o.y.length = o.masses.length ∧
  o.r3d.length = o.masses.length ∧ o.z.length = o.masses.length ∧
  o.flags.length = o.masses.length

/-- One rendered object: mass, x, y, r3d, redshift, subhalo flag. -/
abbrev Row := ℝ × ℝ × ℝ × Option ℝ × ℝ × Bool

/-- The objects of a population: entry `k` of every array belongs to object `k`. -/
def rows (o : PopOut) : List Row :=
  o.masses.zip (o.x.zip (o.y.zip (o.r3d.zip (o.z.zip o.flags))))

/-- A spatial distribution that returns as many positions as it is asked for. -/
def DrawsN (s : Spatial) : Prop :=
  ∀ k n z p, s k n z = .ok p → p.1.length = n ∧ p.2.length = n

/-- The same for the spatial distribution of subhalos. -/
def SubDrawsN : SubSpatial → Prop
  | .flat d => ∀ n p, d n = .ok p → p.1.length = n ∧ p.2.length = n
  | .threeD d => ∀ n p, d n = .ok p → p.1.length = n ∧ p.2.1.length = n ∧ p.2.2.length = n

/-- A population of any of the four kinds. -/
inductive Population
  | los (c : LosClass)
  | twoHalo (zLens : ℝ) (mf : MassFn) (s : Spatial) (kpc : ℝ → ℝ)
  | sub (zLens : ℝ) (mf : MassFn) (s : SubSpatial) (kpc : ℝ)

/-- Its `render` method. -/
noncomputable def Population.render : Population → Except Err PopOut
  | .los c => c.render
  | .twoHalo zl mf s kpc => twoHaloRender zl mf s kpc
  | .sub zl mf s kpc => subhalosRender zl mf s kpc

/-- Its spatial distribution returns as many positions as it is asked for. -/
def Population.GoodSpatial : Population → Prop
  | .los c => DrawsN c.spatial
  | .twoHalo _ _ s _ => DrawsN s
  | .sub _ _ s _ => SubDrawsN s

/-- The profile name a user asked for. -/
def wantedMdef (mdefSub mdefField : String) (isSubhalo : Bool) : String :=
  if isSubhalo then mdefSub else mdefField

end PyHalo.Spec
