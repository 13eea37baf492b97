import Verif.Model.Numpy
import Mathlib.Analysis.SpecialFunctions.Trigonometric.Basic
import Mathlib.Algebra.Order.Floor.Semiring

/-!
# Reading and filtering output of Galacticus

Models `pyHalo/Halos/galacticus_util/galacticus_util.py` (cited as `util.py`),
`pyHalo/Halos/galacticus_util/galacticus_filter.py` (`filter.py`) and `DMFromGalacticus` in
`pyHalo/PresetModels/external.py`. HDF5 files are nested dictionaries of one-dimensional arrays. All columns hold real
numbers; integers are the real numbers they are equal to. Arithmetic of columns with different lengths is an error
(the repetition of columns of length one is left out).
-/

namespace PyHalo
namespace Galacticus
open scoped Classical

/-- Node data: a dictionary of columns. `galacticus_util.py` 188-243. -/
abbrev Data := List (String × List ℝ)

/-- The names of columns used, `util.py` 12-61; a user can change them in a subclass. -/
structure Util where
  x : String
  y : String
  z : String
  massBound : String
  massInfall : String
  isolated : String
  rVirial : String
  rScale : String
  zLast : String
  rTrunc : String
  rhoS : String
  treeOrder : String
  treeIndex : String
  nodeId : String
  conc : String

/-- The default names, `util.py` 12-61. -/
def Util.default : Util where
  x := "positionOrbitalX"
  y := "positionOrbitalY"
  z := "positionOrbitalZ"
  massBound := "satelliteBoundMass"
  massInfall := "massHaloEnclosedCurrent"
  isolated := "nodeIsIsolated"
  rVirial := "darkMatterOnlyRadiusVirial"
  rScale := "darkMatterProfileScaleRadius"
  zLast := "redshiftLastIsolated"
  rTrunc := "radiusTidalTruncationNFW"
  rhoS := "densityNormalizationTidalTruncationNFW"
  treeOrder := "custom_treeOutputOrder"
  treeIndex := "custom_treeIndex"
  nodeId := "id"
  conc := "concentration"

/-- `nodedata[key]`. E.g. `galacticus_filter.py` 4-31. -/
def col (d : Data) (k : String) : Except Err (List ℝ) :=
  match d.lookup k with
  | some c => .ok c
  | none => .error (.keyError k)

/-- `a[n]`. E.g. `galacticus_filter.py` 9-13. -/
def entry {α : Type} (c : List α) (n : ℕ) : Except Err α :=
  match c[n]? with
  | some v => .ok v
  | none => .error .indexError

/-- `a[mask]`. `galacticus_filter.py` 4-7. -/
def maskList {α : Type} (mask : List Bool) (c : List α) : Except Err (List α) :=
  if mask.length = c.length then .ok ((c.zip mask).filter (·.2) |>.map (·.1)) else .error .indexError

/-- An operation of two columns, element by element. E.g. `galacticus_filter.py` 20-31. -/
def zip2 {α β γ : Type} (f : α → β → γ) (a : List α) (b : List β) : Except Err (List γ) :=
  if a.length = b.length then .ok (List.zipWith f a b)
  else .error (.valueError "operands could not be broadcast together")

/-! ## Reading -/

/-- `a[start:stop] = v`. `galacticus_util.py` 123-153. -/
def setSlice {α : Type} (a : List α) (start stop : ℕ) (v : α) : List α :=
  a.mapIdx fun i x => if start ≤ i ∧ i < stop then v else x

/-- The loop of `hdf5_read_custom_nodedata`, `util.py` 141-144, from step `n` on with start indexes `prev :: rest`;
returns the two columns and the last stop. -/
def customLoop (treeIndex : List ℝ) (n : ℕ) (prev : ℕ) : List ℕ → List ℝ × List ℝ → Except Err (List ℝ × List ℝ)
  | [], (idx, ord) =>
    match treeIndex[n - 1]? with
    | some t => .ok (setSlice idx prev idx.length t, setSlice ord prev ord.length (n - 1 : ℕ))
    | none => .error .indexError
  | stop :: rest, (idx, ord) =>
    match treeIndex[n - 1]? with
    | some t => customLoop treeIndex (n + 1) stop rest (setSlice idx prev stop t, setSlice ord prev stop (n - 1 : ℕ))
    | none => .error .indexError

/-- `hdf5_read_custom_nodedata`, `util.py` 123-153, for the tree indexes, the start indexes and the number of nodes: index
of the tree, its order, and number of the node. With less than two trees the variable `stop` is not bound after the
loop (146). -/
def readCustom (u : Util) (treeIndex : List ℝ) (treeStart : List ℕ) (total : ℕ) : Except Err Data :=
  match treeStart with
  | s :: s' :: rest => do
    let (idx, ord) ← customLoop treeIndex 1 s (s' :: rest) (List.replicate total 0, List.replicate total 0)
    pure [(u.treeIndex, idx), (u.treeOrder, ord), (u.nodeId, (List.range total).map fun i : ℕ => (i : ℝ))]
  | _ => .error (.nameError "stop")

/-- One output group: the three arrays about trees and the group of node data (`none` where the entry is not a
dataset). `galacticus_util.py` 105-167. -/
structure Output where
  treeIndex : List ℝ
  treeStart : List ℕ
  treeCount : List ℕ
  nodeData : List (String × Option (List ℝ))

/-- `hdf5_read_output_indices`, `util.py` 81-102; `int` is Python's conversion. -/
def outputIndices (int : List Char → Option ℤ) (keys : List String) : List ℤ :=
  keys.filterMap (β := ℤ) fun (k : String) => if k.toList.take 6 ≠ "Output".toList then none else int (k.toList.drop 6)

/-- `np.max` of a non-empty list. `galacticus_util.py` 215. -/
def maxInt : List ℤ → Option ℤ
  | [] => none
  | i :: t => some (t.foldl max i)

/-- `a | b` for dictionaries. `galacticus_util.py` 188-243. -/
def merge (a b : Data) : Data := a.filter (fun kv => (b.lookup kv.1).isNone) ++ b

/-- `hdf5_read_galacticus_nodedata`, `util.py` 155-167 and 188-242. `params` is a list of names (a single string is turned into a
list before). `none` if there is no output. -/
def read (u : Util) (int : List Char → Option ℤ) (file : List (String × Output)) (outputIndex : Option ℤ)
    (params : Option (List String)) (nodesOnly : Bool) : Except Err (Option Data) :=
  let n := match outputIndex with
    | some n => some n
    | none => maxInt (outputIndices int (file.map Prod.fst))
  match n with
  | none => .ok none
  | some n =>
    match file.lookup ("Output" ++ toString n) with
    | none => .error (.keyError ("Output" ++ toString n))
    | some o => do
      let nodecount := o.treeCount.sum
      let nodedata := o.nodeData.filterMap fun (kv : String × Option (List ℝ)) =>
        match kv.2 with
        | some c =>
          if (∀ p, params = some p → kv.1 ∈ p) ∧ (nodesOnly = false ∨ c.length = nodecount) then some (kv.1, c) else none
        | none => none
      let custom ← readCustom u o.treeIndex o.treeStart nodecount
      pure (some (merge nodedata custom))

/-! ## Filters -/

/-- `nodedata_apply_filter`, `filter.py` 4-7. -/
def applyFilter (d : Data) (mask : List Bool) : Except Err Data :=
  d.mapM fun (k, c) => (maskList mask c).map fun c' => (k, c')

/-- `nodedata_select_subhalo`, `filter.py` 9-13: the dictionary is indexed by an array. -/
def selectSubhalo (d : Data) (u : Util) (_id : ℝ) : Except Err (List (String × ℝ)) := do
  let _ ← col d u.nodeId
  .error (.typeError "unhashable type: 'numpy.ndarray'")

/-- `nodedata_filter_tree`, `filter.py` 15-18. -/
noncomputable def filterTree (d : Data) (tree : ℝ) (u : Util) : Except Err (List Bool) :=
  (col d u.treeIndex).map fun c => c.map fun v => decide (v = tree)

/-- `nodedata_filter_subhalos`, `filter.py` 20-23. -/
noncomputable def filterSubhalos (d : Data) (u : Util) : Except Err (List Bool) :=
  (col d u.isolated).map fun c => c.map fun v => decide (v = 0)

/-- `nodedata_filter_halos`, `filter.py` 25-27; the argument with the names is not used. -/
noncomputable def filterHalos (d : Data) (_u : Util) : Except Err (List Bool) :=
  (filterSubhalos d Util.default).map fun c => c.map not

/-- `nodedata_filter_range`, `filter.py` 29-31. -/
noncomputable def filterRange (d : Data) (lo hi : ℝ) (key : String) : Except Err (List Bool) :=
  (col d key).map fun c => c.map fun v => decide (lo < v ∧ v < hi)

/-- Columns of coordinates to rows. `galacticus_filter.py` 68-91. -/
def coords (d : Data) (u : Util) : Except Err (List (ℝ × ℝ × ℝ)) := do
  let x ← col d u.x
  let y ← col d u.y
  let z ← col d u.z
  let yz ← zip2 (fun a b => (a, b)) y z
  zip2 (fun a b => (a, b)) x yz

/-- `np.linalg.norm` of three numbers. `galacticus_filter.py` 85-89. -/
noncomputable def norm3 (r : ℝ × ℝ × ℝ) : ℝ := Real.sqrt (r.1 ^ 2 + r.2.1 ^ 2 + r.2.2 ^ 2)

/-- `np.dot` of three numbers. `galacticus_filter.py` 90. -/
def dot3 (a b : ℝ × ℝ × ℝ) : ℝ := a.1 * b.1 + a.2.1 * b.2.1 + a.2.2 * b.2.2

/-- `nodedata_filter_virialized`, `filter.py` 33-52. Indexes are the natural numbers in the column. -/
noncomputable def filterVirialized (d : Data) (u : Util) : Except Err (List Bool) := do
  let rows ← coords d u
  let halos ← filterHalos d u
  let rv ← col d u.rVirial
  let rvHalos ← maskList halos rv
  let order ← col d u.treeOrder
  let host ← Np.gather rvHalos (order.map fun o => ⌊o⌋₊)
  zip2 (fun r h => decide (norm3 r < h)) rows host

/-- `project_r2d`, `filter.py` 68-91, for one point. -/
noncomputable def projectR2d (r normal : ℝ × ℝ × ℝ) : ℝ :=
  let n := norm3 normal
  let un := (normal.1 / n, normal.2.1 / n, normal.2.2 / n)
  Real.sqrt (norm3 r ^ 2 - dot3 un r ^ 2)

/-- `nodedata_filter_r2d`, `filter.py` 54-66. -/
noncomputable def filterR2d (d : Data) (r2dMax : ℝ) (normal : ℝ × ℝ × ℝ) (u : Util) : Except Err (List Bool) :=
  (coords d u).map fun rows => rows.map fun r => decide (projectR2d r normal < r2dMax)

/-! ## `DMFromGalacticus` -/

/-- The unit vectors of the plane, `external.py` 105, 109-110: the rotations about the fixed y axis by `theta` and then
about the fixed z axis by `phi`, applied to the x and y axes. -/
noncomputable def planeX (theta phi : ℝ) : ℝ × ℝ × ℝ :=
  (Real.cos theta * Real.cos phi, Real.cos theta * Real.sin phi, -Real.sin theta)

/-- See `planeX`. `external.py` 100-139. -/
noncomputable def planeY (phi : ℝ) : ℝ × ℝ × ℝ := (-Real.sin phi, Real.cos phi, 0)

/-- The arguments of the constructor of a subhalo, `external.py` 157-160: mass, position in kpc, distance in kpc, and
the parameters of 141-152 (density, scale, truncation and virial radius, infall redshift, number). -/
structure Sub where
  mass : ℝ
  x : ℝ
  y : ℝ
  r3d : ℝ
  rhoS : ℝ
  rs : ℝ
  rt : ℝ
  rv : ℝ
  zInfall : ℝ
  nodeId : ℝ

/-- `DMFromGalacticus`, `external.py` 101-160: the selected subhalos, with the default filter and the default table of
parameters. `kpcPerArcsec` is the scale at the lens. -/
noncomputable def subhalos (d : Data) (u : Util) (kpcPerArcsec opening tree logLow logHigh : ℝ) (bound : Bool)
    (theta phi : ℝ) : Except Err (List Sub) := do
  let rows ← coords d u
  let cs := rows.map fun r => (r.1 * 1000, r.2.1 * 1000, r.2.2 * 1000)
  let xy := cs.map fun r => (dot3 (planeX theta phi) r, dot3 (planeY phi) r)
  let r2dMax := opening / 2 * kpcPerArcsec
  let f2d := xy.map fun p => decide (Real.sqrt (p.1 ^ 2 + p.2 ^ 2) < r2dMax)
  let key := if bound then u.massBound else u.massInfall
  let fsub ← filterSubhalos d u
  let fvir ← filterVirialized d u
  let fmass ← filterRange d (10 ^ logLow) (10 ^ logHigh) key
  let ftree ← filterTree d (Np.rint tree) u
  let f1 ← zip2 (· && ·) fsub fvir
  let f2 ← zip2 (· && ·) f1 fmass
  let f3 ← zip2 (· && ·) f2 ftree
  let mask ← zip2 (· && ·) f3 f2d
  let nd ← applyFilter d mask
  let xy' ← maskList mask xy
  let cs' ← maskList mask cs
  let rhoS ← col nd u.rhoS
  let rs ← col nd u.rScale
  let rt ← col nd u.rTrunc
  let conc ← col nd u.conc
  let zl ← col nd u.zLast
  let ids ← col nd u.nodeId
  let mi ← col nd u.massInfall
  (List.range mi.length).mapM fun n => do
    let m ← entry mi n
    let p ← entry xy' n
    let r ← entry cs' n
    let rho ← entry rhoS n
    let s ← entry rs n
    let t ← entry rt n
    let c ← entry conc n
    let zi ← entry zl n
    let i ← entry ids n
    pure ⟨m, p.1, p.2, norm3 r, 4 * rho / 1000 ^ 3, s * 1000, t * 1000, c * s * 1000, zi, i⟩

/-! ## `DMSubhalosFromEmulator` -/

/-- One row of the emulator's data, `external.py` 186-193 (the bound mass is read and not used): infall mass,
concentration, redshift of infall, truncation radius and position in Mpc. -/
structure EmulatorRow where
  massInfall : ℝ
  conc : ℝ
  zLast : ℝ
  rt : ℝ
  x : ℝ
  y : ℝ

/-- The arguments of the constructor, `external.py` 207-219; there is no three-dimensional distance. -/
structure EmulatorSub where
  mass : ℝ
  x : ℝ
  y : ℝ
  rhoS : ℝ
  rs : ℝ
  rt : ℝ
  rv : ℝ
  zInfall : ℝ

/-- `external.py` 182-219 for one row: `h` and the critical density `rhoc` at the redshift of the lens. -/
noncomputable def emulatorSub (h rhoc : ℝ) (e : EmulatorRow) : EmulatorSub :=
  let rvir := ((3 * h * e.massInfall) / (4 * 200 * Real.pi * rhoc)) ^ ((1 : ℝ) / 3) / h
  let rs := rvir / e.conc
  let rhos := h ^ 2 * 200 / 3 * rhoc * e.conc ^ 3 / (Real.log (1 + e.conc) - e.conc / (1 + e.conc))
  ⟨e.massInfall, e.x * 1000, e.y * 1000, rhos / 1000 ^ 3, rs * 1000, e.rt * 1000, rvir * 1000, e.zLast⟩

/-- `DMSubhalosFromEmulator`, `external.py` 165-224: the constructed subhalos. -/
noncomputable def emulatorSubs (h rhoc : ℝ) (rows : List EmulatorRow) : List EmulatorSub :=
  rows.map (emulatorSub h rhoc)

/-- Where `TNFWFromParams.__init__` puts a subhalo given in kpc, `TNFWFromParams.py` 22-31, in arcseconds. -/
noncomputable def angle (kpcPerArcsec : ℝ) (p : ℝ × ℝ) : ℝ × ℝ := (p.1 / kpcPerArcsec, p.2 / kpcPerArcsec)

end Galacticus
end PyHalo
