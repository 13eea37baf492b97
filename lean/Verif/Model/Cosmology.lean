import Verif.Model.Numpy

/-!
# Model of `pyHalo/Cosmology/cosmology.py`: the memoised distance and age queries

astropy is an input.  Scalar queries go through five dictionaries (`_cache_*`); array queries do
not.  The dictionaries are functions from keys to optional values.
-/

namespace PyHalo

/-- The astropy functions used by `Cosmology`: angular diameter distance between two redshifts,
transverse comoving distance, age of the universe, proper kpc per arcsecond. Used in `cosmology.py` 47-182. -/
structure AstropyI where
  DA : ℝ → ℝ → ℝ
  DCt : ℝ → ℝ
  age : ℝ → ℝ
  kpc : ℝ → ℝ

/-- The five caches, `cosmology.py` 34-38. -/
structure CosmoCache where
  da2 : ℝ → ℝ → Option ℝ
  daz : ℝ → Option ℝ
  dcz : ℝ → Option ℝ
  kpc : ℝ → Option ℝ
  age : ℝ → ℝ → Option ℝ

/-- Empty dictionaries, `cosmology.py` 34-38. -/
def CosmoCache.empty : CosmoCache :=
  ⟨fun _ _ => none, fun _ => none, fun _ => none, fun _ => none, fun _ _ => none⟩

namespace Cosmo
variable (A : AstropyI)

/-- The redshifts of the distance tables, `cosmology.py` 166-168 and 178-180. -/
noncomputable def distGrid : List ℝ := Np.arange 0.02 (4 + 0.02) 0.02

/-- `_DA_interp`, `cosmology.py` 164-173. -/
noncomputable def daInterp (z : ℝ) : Except Err ℝ :=
  Np.interp1d distGrid (distGrid.map (A.DA 0)) z

/-- `_DC_interp`, `cosmology.py` 175-184. -/
noncomputable def dcInterp (z : ℝ) : Except Err ℝ := Np.interp1d distGrid (distGrid.map A.DCt) z

/-- `_kpc_per_asec_interp`, `cosmology.py` 155-162. -/
noncomputable def kpcInterp (z : ℝ) : Except Err ℝ :=
  let grid := Np.arange 0.001 (4 + 0.025) 0.025
  Np.interp1d grid (grid.map A.kpc) z

/-- `_halo_age_interp`, `cosmology.py` 117-124. -/
noncomputable def ageInterp (z : ℝ) : Except Err ℝ :=
  let grid := Np.linspace 0 20 250
  Np.interp1d grid (grid.map A.age) z

/-- `D_A` for scalars, `cosmology.py` 47-55. -/
noncomputable def DA (s : CosmoCache) (z1 z2 : ℝ) : ℝ × CosmoCache :=
  match s.da2 z1 z2 with
  | some v => (v, s)
  | none =>
    let v := A.DA z1 z2
    (v, { s with da2 := fun a b => if a = z1 ∧ b = z2 then some v else s.da2 a b })

/-- `D_A_z` for scalars, `cosmology.py` 57-71. -/
noncomputable def DAz (s : CosmoCache) (z : ℝ) : ℝ × CosmoCache :=
  match s.daz z with
  | some v => (v, s)
  | none =>
    match daInterp A z with
    | .ok v => (v, { s with daz := fun a => if a = z then some v else s.daz a })
    | .error _ =>
      let r := DA A s 0 z
      (r.1, { r.2 with daz := fun a => if a = z then some r.1 else r.2.daz a })

/-- `D_C_z` for scalars, `cosmology.py` 73-87; `scale_factor` 127-129. -/
noncomputable def DCz (s : CosmoCache) (z : ℝ) : ℝ × CosmoCache :=
  match s.dcz z with
  | some v => (v, s)
  | none =>
    match dcInterp A z with
    | .ok v => (v, { s with dcz := fun a => if a = z then some v else s.dcz a })
    | .error _ =>
      let r := DAz A s z
      let v := r.1 / (1 + z)⁻¹
      (v, { r.2 with dcz := fun a => if a = z then some v else r.2.dcz a })

/-- `kpc_proper_per_asec` for scalars, `cosmology.py` 89-97. -/
noncomputable def kpcPerAsec (s : CosmoCache) (z : ℝ) : Except Err (ℝ × CosmoCache) :=
  match s.kpc z with
  | some v => .ok (v, s)
  | none => do
    let v ← kpcInterp A z
    pure (v, { s with kpc := fun a => if a = z then some v else s.kpc a })

/-- `halo_age` for scalars, `cosmology.py` 103-115. -/
noncomputable def haloAge (s : CosmoCache) (z zform : ℝ) : Except Err (ℝ × CosmoCache) :=
  match s.age z zform with
  | some v => .ok (v, s)
  | none => do
    let form ← ageInterp A zform
    let v ← (if z > zform then .ok 0 else do
      let t ← ageInterp A z
      pure (t - form))
    pure (v, { s with age := fun a b => if a = z ∧ b = zform then some v else s.age a b })

/-- The queries a user can make. The methods of `cosmology.py` 47-125. -/
inductive Query
  | DA (z1 z2 : ℝ)
  | DAz (z : ℝ)
  | DCz (z : ℝ)
  | kpc (z : ℝ)
  | age (z zform : ℝ)

/-- One query: its answer and the caches afterwards (unchanged when it raises). The methods of `cosmology.py` 47-125. -/
noncomputable def exec (s : CosmoCache) : Query → Except Err ℝ × CosmoCache
  | .DA z1 z2 => (.ok (DA A s z1 z2).1, (DA A s z1 z2).2)
  | .DAz z => (.ok (DAz A s z).1, (DAz A s z).2)
  | .DCz z => (.ok (DCz A s z).1, (DCz A s z).2)
  | .kpc z =>
    match kpcPerAsec A s z with
    | .ok r => (.ok r.1, r.2)
    | .error e => (.error e, s)
  | .age z zform =>
    match haloAge A s z zform with
    | .ok r => (.ok r.1, r.2)
    | .error e => (.error e, s)

/-- The answers of a sequence of queries. The methods of `cosmology.py` 47-125. -/
noncomputable def run (s : CosmoCache) : List Query → List (Except Err ℝ) × CosmoCache
  | [] => ([], s)
  | q :: t => ((exec A s q).1 :: (run (exec A s q).2 t).1, (run (exec A s q).2 t).2)

/-- The caches after `__init__`, `cosmology.py` 34-44: building the distance table asks `D_A(0, z)`
for every node. -/
noncomputable def init : CosmoCache :=
  distGrid.foldl (fun s z => (DA A s 0 z).2) CosmoCache.empty

/-- `D_A_z` for an array, `cosmology.py` 68-71: one entry outside the table sends the whole array to
astropy. -/
noncomputable def DAzArray (zs : List ℝ) : List ℝ :=
  match zs.mapM (daInterp A) with
  | .ok v => v
  | .error _ => zs.map (A.DA 0)

end Cosmo
end PyHalo
