import Verif.Model.Concentration

/-!
# Concentrations evaluated with and without the table

Models `_evaluate_concentration` and `_evaluate_concentration_colossus` of `ConcentrationDiemerJoyce` and `ConcentrationLudlow` in
`pyHalo/Halos/concentration.py`. The function `concentration` of colossus for the model of the class is the parameter `colossus`; its
arguments are a mass in `M_sun / h` and a redshift, and it works on arrays of masses entry by entry.
-/

namespace PyHalo
namespace Conc

/-- A direct call of colossus for a number, `concentration.py` 238-241 and 297-299. -/
def direct (colossus : ℝ → ℝ → ℝ) (h m z : ℝ) : ℝ :=
  let mh := m * h
  colossus mh z

/-- The redshift argument: a number or an array. `concentration.py` 243-252, 291-296. -/
inductive Redshift where
  | one (z : ℝ)
  | many (zs : List ℝ)

/-- A direct call of colossus for an array of masses, `concentration.py` 242-253 and 291-299. -/
def directArray (colossus : ℝ → ℝ → ℝ) (h : ℝ) (ms : List ℝ) (z : Redshift) : Except Err (List ℝ) :=
  match z with
  | .many zs =>
    if zs.length = ms.length then .ok (List.zipWith (fun m z => colossus (m * h) z) ms zs)
    else .error .assertionError
  | .one z => .ok (ms.map fun m => colossus (m * h) z)

/-- `_evaluate_concentration` for a number, `concentration.py` 217-228 and 272-282: the new table and the concentration. -/
noncomputable def evaluate (colossus : ℝ → ℝ → ℝ) (h : ℝ) (useTable : Bool) (tab : Option Table) (m z : ℝ) : Option Table × ℝ :=
  if useTable then
    let r := evalScalar (direct colossus h) tab m z
    (some r.1, r.2)
  else (tab, direct colossus h m z)

/-- The table after a history of calls on an object made with `use_interpolation_table = useTable`. Calls of `concentration.py` 217-228 and
272-282. -/
noncomputable def tableAfter (colossus : ℝ → ℝ → ℝ) (h : ℝ) (useTable : Bool) (qs : List Query) : Option Table :=
  if useTable then history (direct colossus h) qs else none

end Conc
end PyHalo
