import Verif.Model.Numpy
import Mathlib.Analysis.SpecialFunctions.Trigonometric.Arctan
import Mathlib.Analysis.SpecialFunctions.Arsinh
import Mathlib.Analysis.SpecialFunctions.Pow.Real
import Mathlib.Analysis.SpecialFunctions.Log.Base
import Mathlib.Algebra.Order.Floor.Ring

/-!
# The transfer function of the density profile of tidally stripped subhalos

Models `pyHalo/Halos/galacticus_truncation/transfer_function_density_profile.py` (cited as `transfer.py`) and the
vectorised version in `pyHalo/Halos/batch_halo_util.py` 289-364. `scipy.special.hyp2f1` and the cubic spline of
`scipy.interpolate.interp1d` are parameters. Numbers are real numbers: comparisons like `gamma == 0.5` are exact.
-/

namespace PyHalo
namespace Transfer
open scoped Classical

/-- The message of an unsupported profile. `transfer_function_density_profile.py` 310-408, 480-656. -/
def unsupported : Err := .exception "unsupported combination of [alpha, beta, gamma]"

/-- The coefficients A, B, C of `_r_te_Du_2024`, `transfer.py` 22-160. The warnings for small bound fractions
are not modelled. -/
noncomputable def rteCoeffs (alpha beta gamma delta : ℝ) : Except Err (ℝ × ℝ × ℝ) :=
  if delta = 2 then
    if alpha = 1 then
      if beta = 3 then
        if gamma = 0 then .ok (-9.98429803e-01, 5.50290877e-04, 1.23471540e+00)
        else if gamma = 0.5 then .ok (-0.19210388, 0.42676044, 1.46250084)
        else if gamma = 1 then .ok (0.68492777, 0.66438857, 2.07766512)
        else if gamma = 1.5 then .ok (0.9839032, 0.76882264, 2.51841765)
        else .error unsupported
      else if beta = 4 then
        if gamma = 0 then .ok (39.42152817, 0.58827911, 4.05363252)
        else if gamma = 0.5 then .ok (2.06550731, 0.38713431, 3.63592324)
        else if gamma = 1 then .ok (13.98955016, 0.72217703, 5.00880454)
        else if gamma = 1.5 then .ok (83.39811168, 1.21616656, 6.62016776)
        else .error unsupported
      else .error unsupported
    else if alpha = 2 then
      if beta = 3 then
        if gamma = 0 then .ok (-1.02415147e+00, 1.64345425e-03, 2.41297704e+00) else .error unsupported
      else if beta = 4 then
        if gamma = 0 then .ok (3.27271231e-06, -1.94602678e+00, 5.84716369e+00) else .error unsupported
      else .error unsupported
    else .error unsupported
  else if delta = 3 then
    if alpha = 1 then
      if beta = 3 then
        if gamma = 0 then .ok (-0.93094144, 0.04703346, 0.76842857)
        else if gamma = 0.5 then .ok (-0.2290658, 0.41234666, 1.39936438)
        else if gamma = 1 then .ok (0.90933265, 0.63676731, 2.18508243)
        else if gamma = 1.5 then .ok (0.83533898, 0.73399035, 2.43215333)
        else .error unsupported
      else if beta = 4 then
        if gamma = 0 then .ok (41.3266337, 0.60818104, 4.07045865)
        else if gamma = 0.5 then .ok (0.42123475, -0.38164340, 3.62931001)
        else if gamma = 1 then .ok (15.91886121, 0.71939954, 4.98186081)
        else if gamma = 1.5 then .ok (104.0534991, 1.24696989, 6.62957129)
        else .error unsupported
      else .error unsupported
    else if alpha = 2 then
      if beta = 3 then
        if gamma = 0 then .ok (-9.64566747e-01, -2.37053865e-03, 2.51094575e+00) else .error unsupported
      else if beta = 4 then
        if gamma = 0 then .ok (5.79321402e-07, -1.62255246e+00, 5.47069835e+00) else .error unsupported
      else .error unsupported
    else .error unsupported
  else .error (.exception "[delta] value not supported yet, set [delta] = 2 or 3")

/-- `_r_te_Du_2024`, `transfer.py` 11-162. -/
noncomputable def rteDu (x alpha beta gamma delta : ℝ) : Except Err ℝ := do
  let (A, B, C) ← rteCoeffs alpha beta gamma delta
  pure ((1 + A) * x ^ B / (1 + A * x ^ (2 * B)) / Real.exp (C * (1 - x)))

/-- The coefficients D, E of `_f_t_Du_2024`, `transfer.py` 177-282. -/
noncomputable def ftCoeffs (alpha beta gamma delta : ℝ) : Except Err (ℝ × ℝ) :=
  if delta = 2 then
    if alpha = 1 then
      if beta = 3 then
        if gamma = 0 then .ok (1.48242247, 0.63639230)
        else if gamma = 0.5 then .ok (1.17122717, 0.45000174)
        else if gamma = 1 then .ok (0.75826635, 0.23376409)
        else if gamma = 1.5 then .ok (-9.95103536e-01, 1.31454694e-04)
        else .error unsupported
      else if beta = 4 then
        if gamma = 0 then .ok (1.18519061, 0.73729078)
        else if gamma = 0.5 then .ok (0.75235790, 0.47771706)
        else if gamma = 1 then .ok (0.36838147, 0.22307797)
        else if gamma = 1.5 then .ok (0.28500656, 0.10528364)
        else .error unsupported
      else .error unsupported
    else if alpha = 2 then
      if beta = 3 then
        if gamma = 0 then .ok (1.37068893, 0.83149579) else .error unsupported
      else if beta = 4 then
        if gamma = 0 then .ok (0.83836120, 1.23071929) else .error unsupported
      else .error unsupported
    else .error unsupported
  else if delta = 3 then
    if alpha = 1 then
      if beta = 3 then
        if gamma = 0 then .ok (1.40209850, 0.63252747)
        else if gamma = 0.5 then .ok (1.08663071, 0.45228951)
        else if gamma = 1 then .ok (1.43637351, -0.24907289)
        else if gamma = 1.5 then .ok (0.08092773, 0.08490512)
        else .error unsupported
      else if beta = 4 then
        if gamma = 0 then .ok (1.08789526, 0.72799030)
        else if gamma = 0.5 then .ok (0.68794863, 0.48619566)
        else if gamma = 1 then .ok (0.33591171, 0.25084764)
        else if gamma = 1.5 then .ok (0.15135479, 0.12838997)
        else .error unsupported
      else .error unsupported
    else if alpha = 2 then
      if beta = 3 then
        if gamma = 0 then .ok (1.31446961, 0.82402378) else .error unsupported
      else if beta = 4 then
        if gamma = 0 then .ok (0.77798730, 1.21267992) else .error unsupported
      else .error unsupported
    else .error unsupported
  else .error (.exception "[delta] value not supported yet, set [delta] = 2 or 3")

/-- `_f_t_Du_2024`, `transfer.py` 166-293 (for one number; the two `np.where` act element by element). -/
noncomputable def ftDu (x alpha beta gamma delta : ℝ) : Except Err ℝ := do
  let (D, E) ← ftCoeffs alpha beta gamma delta
  let f := if x ≤ 1 then (1 + D) * x ^ E / (1 + D * x ^ (2 * E)) else 1
  pure (if f ≤ 1 then f else 1)

/-- `_M_enclosed_generalized_NFW_dimensionless`, `transfer.py` 310-408; `hyp` is `hyp2f1`. -/
noncomputable def mEnclosed (hyp : ℝ → ℝ → ℝ → ℝ → ℝ) (x alpha beta gamma : ℝ) : ℝ :=
  let general := 4 * Real.pi * x ^ (3 - gamma)
    * hyp ((3 - gamma) / alpha) ((beta - gamma) / alpha) (1 + (3 - gamma) / alpha) (-x ^ alpha) / (3 - gamma)
  if alpha = 1 then
    if beta = 3 then
      if gamma = 0 then 4 * Real.pi * (Real.log (1 + x) - x * (2 + 3 * x) / 2 / (1 + x) ^ 2)
      else if gamma = 0.5 then
        (-8 * Real.pi * Real.sqrt x * (3 + 4 * x)) / (3 * (1 + x) ^ (1.5 : ℝ))
          + 8 * Real.pi * Real.arsinh (Real.sqrt x)
      else if gamma = 1 then 4 * Real.pi * (Real.log (1 + x) - x / (1 + x))
      else if gamma = 1.5 then
        8 * Real.pi * (-Real.sqrt (x / (1 + x)) + Real.arsinh (Real.sqrt x))
      else general
    else if beta = 4 then 4 * Real.pi / (3 - gamma) * (x / (1 + x)) ^ (3 - gamma)
    else general
  else if alpha = 2 then
    if beta = 3 then
      if gamma = 0 then
        -4 * Real.pi * (x / Real.sqrt (1 + x ^ 2) + Real.log (Real.sqrt (1 + x ^ 2) - x))
      else if gamma = 1 then 2 * Real.pi * Real.log (1 + x ^ 2)
      else general
    else if beta = 4 then
      if gamma = 0 then 2 * Real.pi * (Real.arctan x - x / (1 + x ^ 2))
      else if gamma = 1 then 4 * Real.pi * (1 - 1 / Real.sqrt (1 + x ^ 2))
      else general
    else general
  else general

/-- `_R_max_generalized_NFW_dimensionless`, `transfer.py` 411-477. For `alpha = 2`, `gamma = 0` the result is
assigned to a misspelt name (455, 463); elsewhere the solver `newton` is not imported (475). The cache does not
change the result. -/
noncomputable def rMax (alpha beta gamma : ℝ) : Except Err ℝ :=
  let solver : Except Err ℝ := .error (.nameError "newton")
  let missing : Except Err ℝ := .error (.exception "Rmax does not exist")
  if alpha = 1 then
    if beta = 3 then
      if gamma < 2 then
        if gamma = 0 then .ok 4.424700646872270
        else if gamma = 0.5 then .ok 3.289276561384110
        else if gamma = 1 then .ok 2.162581587064612
        else if gamma = 1.5 then .ok 1.054966571869124
        else solver
      else missing
    else if beta = 4 then if gamma < 2 then .ok (2 - gamma) else missing
    else solver
  else if alpha = 2 then
    if beta = 3 then
      if gamma < 2 then
        if gamma = 0 then .error (.nameError "Rmax") else solver
      else missing
    else if beta = 4 then
      if gamma < 2 then
        if gamma = 0 then .error (.nameError "Rmax") else solver
      else missing
    else solver
  else solver

/-- `_M_total_generalized_NFW_Truncated_dimensionless`, `transfer.py` 480-656. `none` where the result of
`quad` is returned, which is a pair (654). `special gamma tau` are the long expressions for `gamma` = 0.5 and
1.5 with `alpha` = 1, `beta` = 3, `delta` = 2 (505-573, 582-620), which are not transcribed. -/
noncomputable def mTotal (special : ℝ → ℝ → ℝ) (alpha beta gamma delta : ℝ) : Option (ℝ → ℝ) :=
  if delta = 2 then
    if alpha = 1 then
      if beta = 3 then
        if gamma = 0 then some fun tau =>
          4 * Real.pi * tau ^ 2 / (tau ^ 2 + 1) ^ 3
            * (0.5 * (-1 + (Real.pi - tau) * tau) * (3 * tau ^ 2 - 1) + tau ^ 2 * (tau ^ 2 - 3) * Real.log tau)
        else if gamma = 0.5 then some (special 0.5)
        else if gamma = 1 then some fun tau =>
          4 * Real.pi * tau ^ 2 / (tau ^ 2 + 1) ^ 2
            * ((tau ^ 2 - 1) * Real.log tau + tau * Real.pi - (tau ^ 2 + 1))
        else if gamma = 1.5 then some (special 1.5)
        else none
      else none
    else if alpha = 2 then
      if beta = 4 then
        if gamma = 0 then some fun tau => Real.pi ^ 2 * tau ^ 2 / (tau + 1) ^ 2 else none
      else none
    else none
  else if delta = 3 then
    if alpha = 1 ∧ beta = 3 ∧ gamma = 1 then some fun tau =>
      4 * Real.pi * tau ^ 2 / (tau ^ 3 - 1) ^ 2
        * (-tau * (tau ^ 3 - 1) + 2 * Real.sqrt 3 * Real.pi / 9 * (tau - 1) ^ 2 * (2 * tau + 1)
          + tau * (tau ^ 3 + 2) * Real.log tau)
    else none
  else none

/-- The four parameters of a profile. `transfer_function_density_profile.py` 310-408, 480-656. -/
structure Shape where
  alpha : ℝ
  beta : ℝ
  gamma : ℝ
  delta : ℝ

/-- The module variables of `_Truncation_Radius`, `transfer.py` 660-674. `limits` are `M_min` and `M_max`:
`none` when they hold pairs. `table` are the abscissae and ordinates of the interpolation. -/
structure Table where
  xMin : ℝ
  xMax : ℝ
  used : Option Shape
  limits : Option (ℝ × ℝ)
  table : List ℝ × List ℝ

/-- The initial values, `transfer.py` 660-674. `M_min` is infinite there; it is not read before it is set. -/
noncomputable def Table.init : Table := ⟨1e-6, 1e4, none, some (0, 0), ([], [])⟩

/-- How often a loop runs that stops the first time `stop` holds; `none` if it never does.
The loops of `transfer_function_density_profile.py` 700-713. -/
noncomputable def turns (stop : ℕ → Prop) : Option ℕ := if h : ∃ k, stop k then some (Nat.find h) else none

/-- `np.geomspace(a, b, n)`. `transfer_function_density_profile.py` 714. -/
noncomputable def geomspace (a b : ℝ) (n : ℕ) : List ℝ :=
  (List.range n).map fun i : ℕ => Real.exp (Real.log a + i * ((Real.log b - Real.log a) / (n - 1)))

/-- The table of `_Truncation_Radius`, `transfer.py` 711-716: logarithms of masses and radii. -/
noncomputable def buildTable (mtot : ℝ → ℝ) (xMin xMax : ℝ) : List ℝ × List ℝ :=
  let n := ⌊Real.logb 10 (xMax / xMin) * 10⌋.toNat
  let xs := geomspace xMin xMax n
  (xs.map fun x => Real.log (mtot x), xs.map Real.log)

/-- `interp1d(..., kind='cubic')` with the default bounds check; `spline` is the value inside the range.
`transfer_function_density_profile.py` 719. -/
noncomputable def evalSpline (spline : List ℝ → List ℝ → ℝ → ℝ) (t : List ℝ × List ℝ) (q : ℝ) : Except Err ℝ :=
  match t.1.head?, t.1.getLast? with
  | some a, some b =>
    if q < a ∨ b < q then .error (.valueError "A value in x_new is outside the interpolation range.")
    else .ok (spline t.1 t.2 q)
  | _, _ => .error (.valueError "empty table")

/-- What a call does: a result with new module variables, an exception with new module variables, or nothing at all.
`transfer_function_density_profile.py` 677-727. -/
inductive Outcome (α : Type)
  | done (t : Table) (v : α)
  | raised (t : Table) (e : Err)
  | loops

/-- The evaluation at the end of `_Truncation_Radius`, `transfer.py` 727. -/
noncomputable def finish (spline : List ℝ → List ℝ → ℝ → ℝ) (t : Table) (ms : List ℝ) : Outcome (List ℝ) :=
  match ms.mapM fun m => evalSpline spline t.table (Real.log m) with
  | .ok l => .done t (l.map Real.exp)
  | .error e => .raised t e

/-- The comparison of a number with a pair in a condition, `transfer.py` 698, 703. -/
def ambiguous : Err := .valueError "The truth value of an array with more than one element is ambiguous"

/-- `_Truncation_Radius`, `transfer.py` 677-727, for arrays of masses divided by `f_t` (line 695); "the smallest
is less" is written as "one is less". For profiles with a pair as total mass the limits are overwritten before
the comparison fails. -/
noncomputable def truncationRadius (special : ℝ → ℝ → ℝ) (spline : List ℝ → List ℝ → ℝ → ℝ) (t : Table)
    (ms : List ℝ) (p : Shape) : Outcome (List ℝ) :=
  if t.used = some p ∧ t.limits = none then .raised t ambiguous
  else if t.used = some p ∧ ∃ l, t.limits = some l ∧ (∀ m ∈ ms, l.1 ≤ m) ∧ ∀ m ∈ ms, m ≤ l.2 then finish spline t ms
  else
    match mTotal special p.alpha p.beta p.gamma p.delta with
    | none => .raised { t with limits := none } ambiguous
    | some mtot =>
      match turns (fun k => ¬ ∃ m ∈ ms, m < mtot (t.xMin / 2 ^ k)),
        turns (fun k => ¬ ∃ m ∈ ms, mtot (t.xMax * 2 ^ k) < m) with
      | some i, some j =>
        let a := t.xMin / 2 ^ i
        let b := t.xMax * 2 ^ j
        finish spline ⟨a, b, some p, some (mtot a, mtot b), buildTable mtot a b⟩ ms
      | _, _ => .loops

/-- The bound masses of the reference models, `transfer.py` 743-783. -/
noncomputable def refMass (alpha beta gamma : ℝ) : Except Err ℝ :=
  if alpha = 1 then
    if beta = 3 then
      if gamma = 0 then .ok 1.1969934e9
      else if gamma = 0.5 then .ok 1.1793903e9
      else if gamma = 1 then .ok 1.1605002e9
      else if gamma = 1.5 then .ok 1.1395515e9
      else .error unsupported
    else if beta = 4 then
      if gamma = 0 then .ok 1.0426536e9
      else if gamma = 0.5 then .ok 1.0353760e9
      else if gamma = 1 then .ok 1.0281669e9
      else if gamma = 1.5 then .ok 1.0210254e9
      else .error unsupported
    else .error unsupported
  else if alpha = 2 then
    if beta = 3 then (if gamma = 0 then .ok 1.1343262e9 else .error unsupported)
    else if beta = 4 then (if gamma = 0 then .ok 1.0194281e9 else .error unsupported)
    else .error unsupported
  else .error unsupported

/-- `Convert_to_reference_model`, `transfer.py` 730-795. -/
noncomputable def convert (hyp : ℝ → ℝ → ℝ → ℝ → ℝ) (alpha beta gamma : ℝ) : Except Err (ℝ × ℝ) := do
  let mb ← refMass alpha beta gamma
  let c : ℝ := 20.587820037799197
  let rvir : ℝ := 0.02632439488393568
  let r ← rMax alpha beta gamma
  let mmx := mEnclosed hyp r alpha beta gamma / mEnclosed hyp c alpha beta gamma * 1e9
  pure (mmx / mb, r / c * rvir / rvir)

/-- The first part of `compute_r_te_and_f_t`, `transfer.py` 813-842: scale radius, mass unit and `f_t`. -/
noncomputable def prepare (hyp : ℝ → ℝ → ℝ → ℝ → ℝ) (mb m r c : ℝ) (p : Shape) : Except Err (ℝ × ℝ × ℝ) := do
  let rs := r / c
  let rm ← rMax p.alpha p.beta p.gamma
  let m0 := m / mEnclosed hyp c p.alpha p.beta p.gamma
  let mmx := m0 * mEnclosed hyp rm p.alpha p.beta p.gamma
  let y := mb / mmx
  let (ys, _) ← convert hyp p.alpha p.beta p.gamma
  let f ← ftDu (y * ys) p.alpha p.beta p.gamma p.delta
  pure (rs, m0, f)

/-- `compute_r_te_and_f_t`, `transfer.py` 798-847. The parameter `delta` is not passed to the inversion (845). -/
noncomputable def compute (hyp : ℝ → ℝ → ℝ → ℝ → ℝ) (special : ℝ → ℝ → ℝ) (spline : List ℝ → List ℝ → ℝ → ℝ)
    (t : Table) (mb m r c : ℝ) (p : Shape) : Outcome (ℝ × ℝ) :=
  match prepare hyp mb m r c p with
  | .error e => .raised t e
  | .ok (rs, m0, f) =>
    match truncationRadius special spline t [mb / m0 / f] { p with delta := 2 } with
    | .done t' (x :: _) => .done t' (rs * x, f)
    | .done t' [] => .raised t' .indexError
    | .raised t' e => .raised t' e
    | .loops => .loops

/-! ## The vectorised version -/

/-- The module variable `_TRUNC_TABLE`, `batch_halo_util.py` 333: the table and its limits, which are those of
the masses in it. -/
abbrev BatchTable := Option (List ℝ × List ℝ)

/-- The limits of a table cover the masses, `batch_halo_util.py` 347-348 (negated). -/
def covers (t : List ℝ × List ℝ) (logs : List ℝ) : Prop :=
  ∃ a b, t.1.head? = some a ∧ t.1.getLast? = some b ∧ (∀ q ∈ logs, a ≤ q) ∧ ∀ q ∈ logs, q ≤ b

/-- `_truncation_radius_cached`, `batch_halo_util.py` 335-364, for masses divided by `f_t`: `none` if a loop
does not end. A new table starts again from 1e-6 and 1e4. -/
noncomputable def truncationRadiusCached (special : ℝ → ℝ → ℝ) (spline : List ℝ → List ℝ → ℝ → ℝ) (t : BatchTable)
    (ms : List ℝ) : Option (BatchTable × Except Err (List ℝ)) :=
  let eval := fun tab : List ℝ × List ℝ =>
    (ms.mapM fun m => evalSpline spline tab (Real.log m)).map (·.map Real.exp)
  match t with
  | some tab =>
    if covers tab (ms.map Real.log) then some (t, eval tab)
    else build eval
  | none => build eval
where
  /-- Lines 349-363. -/
  build (eval : List ℝ × List ℝ → Except Err (List ℝ)) : Option (BatchTable × Except Err (List ℝ)) :=
    match mTotal special 1 3 1 2 with
    | none => none
    | some mtot =>
      match turns (fun k => ¬ ∃ m ∈ ms, m < mtot (1e-6 / 2 ^ k)), turns (fun k => ¬ ∃ m ∈ ms, mtot (1e4 * 2 ^ k) < m) with
      | some i, some j =>
        let tab := buildTable mtot (1e-6 / 2 ^ i) (1e4 * 2 ^ j)
        some (some tab, eval tab)
      | _, _ => none

/-- `compute_r_te_and_f_t_vectorized`, `batch_halo_util.py` 289-321, for halos given by bound mass, infall mass, radius
and concentration; `none` if a loop does not end. The remembered conversion factor (324-331) is a constant. -/
noncomputable def computeVectorized (hyp : ℝ → ℝ → ℝ → ℝ → ℝ) (special : ℝ → ℝ → ℝ) (spline : List ℝ → List ℝ → ℝ → ℝ)
    (t : BatchTable) (halos : List (ℝ × ℝ × ℝ × ℝ)) : Option (BatchTable × Except Err (List (ℝ × ℝ))) :=
  match halos.mapM fun (mb, m, r, c) => (prepare hyp mb m r c ⟨1, 3, 1, 2⟩).map fun v => (mb, v) with
  | .error e => some (t, .error e)
  | .ok l =>
    match truncationRadiusCached special spline t (l.map fun (mb, _, m0, f) => mb / m0 / f) with
    | none => none
    | some (t', .error e) => some (t', .error e)
    | some (t', .ok xs) => some (t', .ok (List.zipWith (fun (_, rs, _, f) x => (rs * x, f)) l xs))

end Transfer
end PyHalo
