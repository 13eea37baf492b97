import Verif.Model.Grid
import Mathlib.Analysis.SpecialFunctions.Log.Base
import Mathlib.Analysis.SpecialFunctions.Trigonometric.Basic

/-!
# Concentration-mass relations

Models `pyHalo/Halos/concentration.py`. The colossus functions are parameters. A lognormal draw is
`exp (log c + sigma * u)` for the standard normal variate `u`, the next element of the random stream.
-/

namespace PyHalo
namespace Conc

/-- `_universal_minimum`, `concentration.py` 23 and 172. -/
noncomputable def floorC : ℝ := 1.2

/-! ## Base class -/

/-- Options of a concentration object, `concentration.py` 24-35. -/
structure Opts where
  scatter : Bool
  dex : ℝ
  dexZ : ℝ

/-- `_ConcentrationCDM.nfw_concentration` for a number `m`, `concentration.py` 36-59; `c` is the
value of `_evaluate_concentration`, `u` the normal variate. -/
noncomputable def finish (o : Opts) (noScatter : Bool) (c z u : ℝ) : ℝ :=
  let c' := if o.scatter then
      if noScatter then c else Real.exp (Real.log c + (o.dex + o.dexZ * z) * u)
    else c
  max c' floorC

/-- The array branch of the same lines: one variate per entry, entries below the minimum replaced. `concentration.py` 36-59. -/
noncomputable def finishArray (o : Opts) (noScatter : Bool) (cs : List ℝ) (z : ℝ) (us : List ℝ) :
    List ℝ :=
  let c' := if o.scatter then
      if noScatter then cs
      else (cs.zip us).map fun p => Real.exp (Real.log p.1 + (o.dex + o.dexZ * z) * p.2)
    else cs
  c'.map fun c => if c < floorC then floorC else c

/-! ## The interpolation table -/

/-- `_table`: the nodes are `linspace`s and are stored by their end points and numbers. `concentration.py` 86-101. -/
structure Table where
  mLo : ℝ
  mHi : ℝ
  uLo : ℝ
  uHi : ℝ
  nM : ℕ
  nU : ℕ
  /-- `log10c[i, j]` -/
  val : ℕ → ℕ → ℝ

/-- Nodes in `log10 m`. `concentration.py` 86-101. -/
noncomputable def Table.mAxis (t : Table) : Np.Axis := Np.Axis.linspace t.mLo t.mHi t.nM
/-- Nodes in `u = log10(1 + z)`. `concentration.py` 86-101. -/
noncomputable def Table.uAxis (t : Table) : Np.Axis := Np.Axis.linspace t.uLo t.uHi t.nU

/-- `_build_table`, `concentration.py` 86-101. `int` of a positive number is the floor. -/
noncomputable def buildTable (col : ℝ → ℝ → ℝ) (mLo mHi uLo uHi : ℝ) : Table :=
  let nM := max 4 (⌊(mHi - mLo) * 16⌋₊ + 1)
  let nU := max 4 (⌊(uHi - uLo) * 60⌋₊ + 1)
  { mLo, mHi, uLo, uHi, nM, nU
    val := fun i j => Real.logb 10
      (col ((10 : ℝ) ^ (Np.Axis.linspace mLo mHi nM).g i)
        ((10 : ℝ) ^ (Np.Axis.linspace uLo uHi nU).g j - 1)) }

/-- The weighted sum of the four corners, `concentration.py` 133-136 and 162-165. -/
noncomputable def corners (t : Table) (i j : ℕ) (tm tu : ℝ) : ℝ :=
  t.val i j * (1 - tm) * (1 - tu) + t.val (i + 1) j * tm * (1 - tu)
    + t.val i (j + 1) * (1 - tm) * tu + t.val (i + 1) (j + 1) * tm * tu

/-- Fast scalar evaluation, `concentration.py` 117-137; `none` when outside the table. `int` of a
non-negative number is the floor. -/
noncomputable def fastEval (t : Table) (x y : ℝ) : Option ℝ :=
  if t.mAxis.g 0 ≤ x ∧ x ≤ t.mAxis.g (t.nM - 1) ∧ t.uAxis.g 0 ≤ y ∧ y ≤ t.uAxis.g (t.nU - 1) then
    let dm := t.mAxis.g 1 - t.mAxis.g 0
    let du := t.uAxis.g 1 - t.uAxis.g 0
    let i := min ⌊(x - t.mAxis.g 0) / dm⌋₊ (t.nM - 2)
    let j := min ⌊(y - t.uAxis.g 0) / du⌋₊ (t.nU - 2)
    let tm := (x - t.mAxis.g 0 - i * dm) / dm
    let tu := (y - t.uAxis.g 0 - j * du) / du
    some ((10 : ℝ) ^ corners t i j tm tu)
  else none

/-- Array evaluation of one entry, `concentration.py` 153-166. `astype(int)` truncates and the clip
at 0 removes negative values: together `⌊·⌋₊` and the upper clip. -/
noncomputable def arrayEval (t : Table) (x y : ℝ) : ℝ :=
  let dm := t.mAxis.g 1 - t.mAxis.g 0
  let du := t.uAxis.g 1 - t.uAxis.g 0
  let i := min ⌊(x - t.mAxis.g 0) / dm⌋₊ (t.nM - 2)
  let j := min ⌊(y - t.uAxis.g 0) / du⌋₊ (t.nU - 2)
  let tm := (x - t.mAxis.g i) / dm
  let tu := (y - t.uAxis.g j) / du
  (10 : ℝ) ^ corners t i j tm tu

/-- `x.min()` of a non-empty array. Used in `concentration.py` 103-169. -/
noncomputable def amin (a : ℝ) (l : List ℝ) : ℝ := l.foldl min a
/-- `x.max()` of a non-empty array. Used in `concentration.py` 103-169. -/
noncomputable def amax (a : ℝ) (l : List ℝ) : ℝ := l.foldl max a

/-- The table after a query with coordinates `q :: qs`, `concentration.py` 138-152. -/
noncomputable def refresh (col : ℝ → ℝ → ℝ) (tab : Option Table) (q : ℝ × ℝ) (qs : List (ℝ × ℝ)) :
    Table :=
  let xmin := amin q.1 (qs.map Prod.fst)
  let xmax := amax q.1 (qs.map Prod.fst)
  let ymin := amin q.2 (qs.map Prod.snd)
  let ymax := amax q.2 (qs.map Prod.snd)
  let lmLo := min (xmin - 0.5) 5
  let lmHi := max (xmax + 0.5) 11.5
  let uLo := min (max 0 (ymin - 0.1)) 0
  let uHi := max (ymax + 0.1) 1.05
  match tab with
  | none => buildTable col lmLo lmHi uLo uHi
  | some t =>
    if xmin < t.mAxis.g 0 ∨ t.mAxis.g (t.nM - 1) < xmax ∨ ymin < t.uAxis.g 0 ∨
        t.uAxis.g (t.nU - 1) < ymax then
      buildTable col (min lmLo (t.mAxis.g 0)) (max lmHi (t.mAxis.g (t.nM - 1)))
        (min uLo (t.uAxis.g 0)) (max uHi (t.uAxis.g (t.nU - 1)))
    else t

/-- Coordinates of a query. `concentration.py` 103-169. -/
noncomputable def coord (q : ℝ × ℝ) : ℝ × ℝ := (Real.logb 10 q.1, Real.logb 10 (1 + q.2))

/-- `_evaluate_concentration_from_table` for an array of masses with their redshifts (a single
redshift is repeated by lines 140-141), `concentration.py` 103-169. `min()` of an empty array
raises. -/
noncomputable def evalArray (col : ℝ → ℝ → ℝ) (tab : Option Table) (qs : List (ℝ × ℝ)) :
    Except Err (Table × List ℝ) :=
  match qs.map coord with
  | [] => .error (.valueError "zero-size array to reduction operation minimum which has no identity")
  | q :: rest =>
    let t := refresh col tab q rest
    .ok (t, (q :: rest).map fun p => arrayEval t p.1 p.2)

/-- The same method for a number. `concentration.py` 103-169. -/
noncomputable def evalScalar (col : ℝ → ℝ → ℝ) (tab : Option Table) (m z : ℝ) : Table × ℝ :=
  let q := coord (m, z)
  let slow :=
    let t := refresh col tab q []
    (t, arrayEval t q.1 q.2)
  match tab with
  | none => slow
  | some t =>
    match fastEval t q.1 q.2 with
    | some c => (t, c)
    | none => slow

/-- Queries a user can send to one object. Calls of `concentration.py` 103-169. -/
inductive Query where
  | scalar (m z : ℝ)
  | array (qs : List (ℝ × ℝ))

/-- State after a query; a raising query leaves the state alone. Calls of `concentration.py` 103-169. -/
noncomputable def step (col : ℝ → ℝ → ℝ) (tab : Option Table) : Query → Option Table
  | .scalar m z => some (evalScalar col tab m z).1
  | .array qs =>
    match evalArray col tab qs with
    | .ok r => some r.1
    | .error _ => tab

/-- State after a history. Calls of `concentration.py` 103-169. -/
noncomputable def history (col : ℝ → ℝ → ℝ) (qs : List Query) : Option Table :=
  qs.foldl (step col) none

/-! ## Suppression by warm dark matter -/

/-- `_zEvolutionBose2016.__call__`, `concentration.py` 650-660. -/
noncomputable def boseZ (z : ℝ) : ℝ := (1 + z) ^ (0.026 * z - 0.04)

/-- `ConcentrationWDMPolynomial.suppression`, `concentration.py` 384-399. -/
noncomputable def polySuppression (logMc cScale cPower cInner : ℝ) (zEvol : Bool) (m z : ℝ) : ℝ :=
  let mhm := (10 : ℝ) ^ logMc
  let rescale := (1 + cScale * (mhm / m) ^ cInner) ^ cPower
  (if zEvol then boseZ z else 1) * rescale

/-- `ConcentrationWDMPolynomial.__init__`, the parameter checks, `concentration.py` 370-373. -/
noncomputable def polyCheck (cScale cPower : ℝ) : Except Err Unit :=
  if 0 < cPower then .error (.exception "c_power parameters > 0 are unphysical")
  else if cScale < 0 then .error (.exception "c_scale parameters < 0 are unphysical")
  else .ok ()

/-- Hyperbolic suppression, `concentration.py` 421-433 and 525-538. -/
noncomputable def tanhSuppression (logMc a b m : ℝ) : ℝ :=
  let mhm := (10 : ℝ) ^ logMc
  let log10u := Real.logb 10 (m / mhm)
  0.5 * (1 + Real.tanh ((log10u - a) / (2 * b)))

/-- `_ConcentrationTurnover.nfw_concentration`, `concentration.py` 180-194: `c` is the CDM
concentration, `s` the suppression. -/
noncomputable def turnover (c s : ℝ) : ℝ := max (c * s) floorC

/-- The dictionary `kwargs_cdm` as far as the constructor looks at it. `concentration.py` 351-369, 402-416. -/
structure CdmKw where
  scatter : Option Bool
  dex : Option ℝ

/-- Constructor of `ConcentrationWDMPolynomial` and `ConcentrationWDMHyperbolic`,
`concentration.py` 365-369 and 412-416. `dflt` is the default dictionary of the constructor, an object
shared by all calls; `given` is the dictionary passed by the caller. The result is the pair of options
handed to the CDM class, and the new contents of the default dictionary. -/
def construct (dflt : CdmKw) (given : Option CdmKw) (scatter : Bool) (dex : ℝ) :
    (Bool × ℝ) × CdmKw :=
  let fill (k : CdmKw) : CdmKw := ⟨some (k.scatter.getD scatter), some (k.dex.getD dex)⟩
  let eff (k : CdmKw) : Bool × ℝ := (k.scatter.getD scatter, k.dex.getD dex)
  match given with
  | some k => (eff k, dflt)
  | none => (eff dflt, fill dflt)

/-! ## `ConcentrationLudlowWDM` -/

/-- `points`, `concentration.py` 438-440. -/
noncomputable def lwPoints : Np.Axis × Np.Axis × Np.Axis :=
  (.ofList [1.0, 2.0, 2.7, 3.2, 4.0], .ofList [6.0, 7.0, 8.0], .ofList [0.0, 1.0, 2.0, 3.0, 4.0])

/-- `values_a`, `concentration.py` 441-450, in thousandths. -/
def lwA : List ℤ := [554, 484, 432, 276, 116, 474, 460, 376, 206, 53, 486, 429, 319, 120, -48, 497,
  457, 370, 288, 131, 472, 446, 350, 216, 57, 477, 393, 329, 134, -21, 490, 412, 367, 268, 121, 454,
  406, 343, 240, 74, 455, 388, 287, 123, -17, 453, 428, 363, 271, 128, 442, 412, 337, 225, 72, 409,
  392, 282, 146, 4, 432, 414, 348, 255, 103, 425, 419, 318, 166, 65, 412, 379, 283, 119, 10]

/-- `values_b`, `concentration.py` 451-459, in thousandths. -/
def lwB : List ℤ := [805, 766, 850, 927, 938, 739, 782, 868, 952, 1015, 782, 778, 892, 946, 1045,
  545, 513, 552, 617, 715, 533, 574, 606, 711, 721, 549, 560, 638, 702, 749, 499, 460, 495, 543, 646,
  468, 485, 553, 570, 686, 498, 509, 560, 640, 684, 457, 464, 499, 492, 631, 445, 471, 499, 555, 657,
  450, 504, 518, 641, 685, 420, 447, 477, 483, 584, 420, 476, 501, 565, 622, 424, 473, 514, 590, 665]

/-- `values.reshape(5, 3, 5)[i, j, k]`. `concentration.py` 460-461. -/
noncomputable def lwVal (l : List ℤ) (i j k : ℕ) : ℝ := ((l.getD (15 * i + 5 * j + k) 0 : ℤ) : ℝ) / 1000

/-- `_make_in_bounds`, `concentration.py` 481-495. -/
noncomputable def makeInBounds (logMhm dlogT z : ℝ) : ℝ × ℝ × ℝ :=
  (min 8 (max 6 logMhm), min 4 (max 1 (-1 * dlogT)), min (max z 0) 4)

/-- `suppression_fit`, `concentration.py` 497-512; the interpolators raise out of bounds. -/
noncomputable def suppressionFit (logMhm dlogT z : ℝ) : Except Err (ℝ × ℝ) :=
  let (lm, dt, ze) := makeInBounds logMhm dlogT z
  let (A, B, C) := lwPoints
  match Np.grid3Strict A B C (lwVal lwA) dt lm ze with
  | .error e => .error e
  | .ok a =>
    match Np.grid3Strict A B C (lwVal lwB) dt lm ze with
    | .error e => .error e
    | .ok b => .ok (a, b)

/-- `ConcentrationLudlowWDM.suppression`, `concentration.py` 525-538. -/
noncomputable def ludlowSuppression (logMc dlogT m z : ℝ) : Except Err ℝ :=
  match suppressionFit logMc dlogT z with
  | .error e => .error e
  | .ok (a, b) => .ok (tanhSuppression logMc a b m)

/-- `ConcentrationLudlowWDM.__init__`, the check of lines 471-472. File: `concentration.py`. -/
noncomputable def ludlowCheck (dlogT : ℝ) : Except Err Unit :=
  if 0 < dlogT then .error (.exception "positive logarithmic derivatives are unphysical") else .ok ()

/-! ## `BinnedHaloMass` and `ConcentrationPeakHeight` -/

/-- `ConcentrationPeakHeight._evaluate_concentration`, `concentration.py` 329-345; `nu` is colossus'
peak height, `zf` the redshift factor. -/
noncomputable def peakHeight (nu : ℝ → ℝ → ℝ) (zf : ℝ → ℝ → ℝ) (h c0 zeta beta pivot m z : ℝ) : ℝ :=
  c0 * (nu (m * h) z / nu (pivot * h) z) ^ (-beta) * zf m z ^ zeta

/-- `BinnedHaloMass._evaluate_concentration`, `concentration.py` 575-614. Bins are
`(log10 low, log10 high, model)`; indexing `[0]`, `[-1]` of an empty bin list raises. -/
noncomputable def binned (bins : List (ℝ × ℝ × (ℝ → ℝ → ℝ))) (m z : ℝ) : Except Err ℝ :=
  match bins.head?, bins.getLast? with
  | some first, some last =>
    if m < (10 : ℝ) ^ first.1 then .error (.valueError "below the minimum halo mass bin")
    else if (10 : ℝ) ^ last.2.1 < m then .error (.valueError "above the maximum halo mass bin")
    else
      match bins.find? (fun b => decide (m < (10 : ℝ) ^ b.2.1)) with
      | some b => .ok (b.2.2 m z)
      | none => .error (.valueError "M did not fall inside any specified mass bins!")
  | _, _ => .error .indexError

end Conc
end PyHalo
