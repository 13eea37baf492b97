import Verif.Model.Populations
import Verif.Spec.Populations
import Verif.Props.Realization
import Mathlib.Tactic

namespace PyHalo
namespace Pop
open PyHalo.Spec PyHalo.Props

theorem place_old (σ : Heap) (n : Oid) (l : List Halo) (k : Oid) (h : k < n) : place σ n l k = σ k := by
  simp [place, Nat.not_le.mpr h]

theorem place_new (σ : Heap) (n : Oid) (l : List Halo) (k : ℕ) (h : Halo) (hk : l[k]? = some h) :
    place σ n l (n + k) = h := by
  simp [place, hk]

theorem place_nil (σ : Heap) (n : Oid) : place σ n [] = σ := by
  funext k; simp [place]

theorem place_append (σ : Heap) (n : ℕ) (l l' : List Halo) :
    place (place σ n l) (n + l.length : ℕ) l' = place σ n (l ++ l') := by
  funext k
  revert k
  intro (k : ℕ)
  have e1 : ∀ (τ : Heap) (m : ℕ) (q : List Halo), place τ m q k = if m ≤ k then (q[k - m]?).getD (τ k) else τ k :=
    fun _ _ _ => rfl
  rw [e1, e1, e1]
  rcases Nat.lt_or_ge k n with h | h
  · rw [if_neg (Nat.not_le.mpr h), if_neg (Nat.not_le.mpr (by omega)), if_neg (Nat.not_le.mpr h)]
  · rw [if_pos h, if_pos h]
    rcases Nat.lt_or_ge k (n + l.length) with h2 | h2
    · rw [if_neg (Nat.not_le.mpr h2), List.getElem?_append_left (by omega)]
    · rw [if_pos h2, List.getElem?_append_right (by omega),
        List.getElem?_eq_none (l := l) (by omega), show k - n - l.length = k - (n + l.length) by omega]
      rfl

theorem map_place (σ : Heap) (n : Oid) (l : List Halo) : (refs n l).map (place σ n l) = l := by
  apply List.ext_getElem
  · simp [refs]
  · intro i h1 h2
    simp only [refs, List.getElem_map, List.getElem_range', one_mul]
    exact place_new σ n l i _ (List.getElem?_eq_getElem h2)

theorem map_place_old (σ : Heap) (n : Oid) (l : List Halo) (hs : List Oid) (h : ∀ k ∈ hs, k < n) :
    hs.map (place σ n l) = hs.map σ :=
  List.map_congr_left fun k hk => place_old σ n l k (h k hk)

theorem tags_eq (σ : Heap) (hs : List Oid) : Realization.tags σ hs = (hs.map σ).map (·.tag) := by
  simp [Realization.tags]

/-- Joining realizations without a common tag concatenates them up to the order. -/
theorem join_perm (σ : Heap) (a b : Realization) (jc : Bool)
    (h : ∀ x ∈ a.halos, ∀ y ∈ b.halos, (σ x).tag ≠ (σ y).tag) :
    (a.join σ b jc).halos.Perm (a.halos ++ b.halos) := by
  obtain ⟨s, l, hsl, hj⟩ := join_halos' σ a b jc
  have hf : ∀ x ∈ l.halos, ∀ y ∈ s.halos, (σ y).tag ≠ (σ x).tag := by
    rcases hsl with ⟨rfl, rfl, -⟩ | ⟨rfl, rfl, -⟩
    · exact fun x hx y hy => (h x hx y hy).symm
    · exact fun x hx y hy => h y hy x hx
  rw [hj, List.filter_eq_self.mpr]
  · rcases hsl with ⟨rfl, rfl, -⟩ | ⟨rfl, rfl, -⟩
    · exact List.perm_append_comm
    · exact List.Perm.refl _
  · intro x hx
    simp only [Realization.tags, List.mem_map, not_exists, not_and, Bool.not_eq_true',
      decide_eq_false_iff_not]
    intro y hy
    exact hf x hx y hy

theorem fresh_fromHalos (σ : Heap) (hs : List Oid) (lc kw msc rcs cx cy g) :
    Fresh σ (Realization.fromHalos σ hs lc kw msc rcs cx cy g) := by
  refine ⟨rfl, rfl, rfl, rfl, rfl, ?_, ?_⟩
  · exact Np.pairwise_unique _
  · intro z
    simp [Realization.fromHalos, Np.mem_unique]

theorem fresh_join (σ : Heap) (a b : Realization) (jc : Bool) : Fresh σ (a.join σ b jc) := by
  have := fresh_fromHalos σ (a.join σ b jc).halos a.lensCosmo a.kwargsHaloModel a.applyMassSheet
    a.renderingClasses (some a.centerX) (some a.centerY) a.geometry
  exact ⟨this.masses, this.xs, this.ys, this.redshifts, this.flags, this.zsIncreasing, this.zsMem⟩

end Pop
end PyHalo
