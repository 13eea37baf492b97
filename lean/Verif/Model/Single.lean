import Verif.Model.Whole

/-!
# Realizations of one halo

Models `SingleHalo` of `pyHalo/single_realization.py`.
-/

namespace PyHalo
namespace Whole

/-- `SingleHalo.__init__`, `single_realization.py` 948-953, with `Realization.__init__` 97-124 for a list of one entry. `kw` and `keys` are
`kwargs_halo_model`, `tag` the random tag, `lc` the lens cosmology given or made, `n` a free reference. No rendering classes become a
list with one empty entry (337-338). -/
noncomputable def singleHalo {M : Type} (V : View) (kw : HaloKw M) (keys : List String) (a : HaloArgs) (tag : Tag) (lc : LensCosmoI) (σ : Heap)
    (n : Oid) : Except Err (Heap × Realization) := do
  let os ← loadAll V kw (fun _ => tag) 0 [a]
  let l := os.map (·.obj.toHalo)
  let σ' := Pop.place σ n l
  pure (σ', Realization.fromHalos σ' (Pop.refs n l) lc keys false [none] none none none)

/-- The default `kwargs_halo_model={}`, `single_realization.py` 928. -/
def noKw (M : Type) : HaloKw M := ⟨none, none, none, none, none, none, none⟩

end Whole
end PyHalo
