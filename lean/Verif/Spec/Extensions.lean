import Verif.Model.Extensions
import Verif.Spec.Realization

/-!
# Specification vocabulary for replacing halos
-/

namespace PyHalo.Spec
open PyHalo PyHalo.Ext

/-- Two halo objects describe the same halo: same mass, position, redshift, identity and kind. -/
structure SameHalo (o o' : Halo) : Prop where
  mass : o'.mass = o.mass
  x : o'.x = o.x
  y : o'.y = o.y
  r3d : o'.r3d = o.r3d
  z : o'.z = o.z
  tag : o'.tag = o.tag
  sub : o'.isSubhalo = o.isSubhalo

/-- The references of a list exist in the store. -/
def Live (s : Store) (hs : List Oid) : Prop := ∀ h ∈ hs, h < s.next

/-- The objects of store `s` are what they were in store `s'`, apart from attached ages. -/
def Unchanged (s s' : Store) : Prop :=
  ∀ k < s.next, s'.obj k = { s.obj k with note := (s'.obj k).note }

/-- The log-mass bins (lower edge included, upper edge excluded) that contain a mass. -/
def InBin (m : ℝ) (b : ℝ × ℝ) : Prop := (10 : ℝ) ^ b.1 ≤ m ∧ m < (10 : ℝ) ^ b.2

/-- `i` is the first bin that contains the mass. -/
def FirstBin (m : ℝ) (bins : List (ℝ × ℝ)) (i : ℕ) : Prop :=
  (∃ b, bins[i]? = some b ∧ InBin m b) ∧ ∀ j < i, ∀ b, bins[j]? = some b → ¬ InBin m b

/-- The effective age (C32) of a halo whose evolution since infall runs `lambda` times faster. -/
noncomputable def effAge (P : Phys) (o : Obj) (lambda : ℝ) : Except Err ℝ :=
  if o.isSubhalo then LensCosmo.effectiveAge (Batch.haloAge P.A) o.z (P.zEval o) lambda 10
  else Batch.haloAge P.A o.z 10

end PyHalo.Spec
