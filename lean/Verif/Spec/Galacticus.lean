import Verif.Model.Galacticus

/-!
# What reading and selecting Galacticus nodes should do
-/

namespace PyHalo
namespace Spec
namespace Galacticus
open PyHalo.Galacticus

/-- Tree `n` is the last one that starts at node `i` or before. -/
def LastStart (starts : List ℕ) (i n : ℕ) : Prop :=
  (∃ s, starts[n]? = some s ∧ s ≤ i) ∧ ∀ m s, n < m → starts[m]? = some s → i < s

/-- The three components of the cross product. -/
def cross (a b : ℝ × ℝ × ℝ) : ℝ × ℝ × ℝ :=
  (a.2.1 * b.2.2 - a.2.2 * b.2.1, a.2.2 * b.1 - a.1 * b.2.2, a.1 * b.2.1 - a.2.1 * b.1)

/-- Squared length of a vector. -/
def normSq (a : ℝ × ℝ × ℝ) : ℝ := a.1 ^ 2 + a.2.1 ^ 2 + a.2.2 ^ 2

/-- The unit vector with spherical angles `theta` and `phi`. -/
noncomputable def direction (theta phi : ℝ) : ℝ × ℝ × ℝ :=
  (Real.sin theta * Real.cos phi, Real.sin theta * Real.sin phi, Real.cos theta)

/-- A table with `N` nodes: the value of column `k` at node `i` is `v k i`. Every column has one value per node. -/
structure IsTable (d : Data) (keys : List String) (N : ℕ) (v : String → ℕ → ℝ) : Prop where
  val : ∀ k ∈ keys, d.lookup k = some ((List.range N).map (v k))
  len : ∀ kc ∈ d, kc.2.length = N

/-- The position of a node. -/
def pos (u : Util) (v : String → ℕ → ℝ) (i : ℕ) : ℝ × ℝ × ℝ := (v u.x i, v u.y i, v u.z i)

/-- Every tree has one host, the trees come one after the other and are numbered from 0 without gaps: `host t` is the
host of tree `t`, and the number of the tree of node `i` is `tree i`. -/
structure OneHost (u : Util) (v : String → ℕ → ℝ) (N T : ℕ) (tree : ℕ → ℕ) (host : ℕ → ℕ) : Prop where
  num : ∀ i < N, v u.treeOrder i = tree i ∧ tree i < T
  ordered : ∀ i j, i ≤ j → j < N → tree i ≤ tree j
  one : ∀ t < T, host t < N ∧ tree (host t) = t ∧ v u.isolated (host t) ≠ 0
  only : ∀ i < N, v u.isolated i ≠ 0 → i = host (tree i)

/-- The nodes that should be selected: subhalos of the requested tree with the mass in the range, within the virial
radius of their host and closer to the line of sight with direction `n` through the centre than `rmax` (in Mpc). -/
structure Wanted (u : Util) (v : String → ℕ → ℝ) (tree host : ℕ → ℕ) (wantedTree lo hi : ℝ) (key : String)
    (n : ℝ × ℝ × ℝ) (rmax : ℝ) (i : ℕ) : Prop where
  isSub : v u.isolated i = 0
  inTree : v u.treeIndex i = wantedTree
  above : lo < v key i
  below : v key i < hi
  bound : Real.sqrt (normSq (pos u v i)) < v u.rVirial (host (tree i))
  near : Real.sqrt (normSq (cross (pos u v i) n)) < rmax

/-- Mass of an NFW profile with the given density, scale radius within `c` scale radii. -/
noncomputable def nfwMass (rho rs c : ℝ) : ℝ :=
  4 * Real.pi * rho * rs ^ 3 * (Real.log (1 + c) - c / (1 + c))

end Galacticus
end Spec
end PyHalo
