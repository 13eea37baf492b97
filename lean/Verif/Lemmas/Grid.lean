import Verif.Model.Grid
import Mathlib.Tactic.FieldSimp
import Mathlib.Tactic.Linarith
import Mathlib.Tactic.Positivity
import Mathlib.Tactic.NormNum
import Mathlib.Tactic.Ring
import Mathlib.Tactic.GCongr

/-! Lemmas about grids and linear interpolation. -/

namespace PyHalo.Np

theorem linspace_zero (a b : ℝ) (n : ℕ) : (Axis.linspace a b n).g 0 = a := by
  simp [Axis.linspace]

theorem linspace_last (a b : ℝ) {n : ℕ} (h : 2 ≤ n) : (Axis.linspace a b n).g (n - 1) = b := by
  have : ((n - 1 : ℕ) : ℝ) = (n : ℝ) - 1 := by
    rw [Nat.cast_sub (by omega)]; simp
  have h2 : (2 : ℝ) ≤ n := by exact_mod_cast h
  have h3 : (n : ℝ) - 1 ≠ 0 := by linarith
  simp only [Axis.linspace, this]
  field_simp
  ring

theorem linspace_ok {a b : ℝ} (hab : a < b) {n : ℕ} (h : 2 ≤ n) : (Axis.linspace a b n).Ok := by
  refine ⟨h, fun i j hij _ => ?_⟩
  have h2 : (2 : ℝ) ≤ n := by exact_mod_cast h
  have hd : 0 < (b - a) / ((n : ℝ) - 1) := div_pos (by linarith) (by linarith)
  have : (i : ℝ) < j := by exact_mod_cast hij
  simp only [Axis.linspace]
  nlinarith

theorem Axis.Ok.cell_spec {A : Axis} (h : A.Ok) {x : ℝ} (hx : A.Inside x) :
    A.cell x + 1 < A.n ∧ A.g (A.cell x) ≤ x ∧ x ≤ A.g (A.cell x + 1) := by
  classical
  obtain ⟨h2, hm⟩ := h
  obtain ⟨h0, h1⟩ := hx
  have hle : Nat.findGreatest (fun i => A.g i ≤ x) (A.n - 1) ≤ A.n - 1 := Nat.findGreatest_le _
  have hsp : A.g (Nat.findGreatest (fun i => A.g i ≤ x) (A.n - 1)) ≤ x :=
    Nat.findGreatest_spec (P := fun i => A.g i ≤ x) (Nat.zero_le _) h0
  have hup : ∀ k, Nat.findGreatest (fun i => A.g i ≤ x) (A.n - 1) < k → k ≤ A.n - 1 → ¬ A.g k ≤ x :=
    fun k hk hk' => Nat.findGreatest_is_greatest hk hk'
  have hc : A.cell x = min (Nat.findGreatest (fun i => A.g i ≤ x) (A.n - 1)) (A.n - 2) := by
    unfold Axis.cell
    congr
  rw [hc]
  generalize Nat.findGreatest (fun i => A.g i ≤ x) (A.n - 1) = k at *
  rcases le_total k (A.n - 2) with hk | hk
  · rw [min_eq_left hk]
    refine ⟨by omega, hsp, ?_⟩
    exact (not_le.1 (hup (k + 1) (by omega) (by omega))).le
  · rw [min_eq_right hk]
    refine ⟨by omega, ?_, ?_⟩
    · rcases Nat.lt_or_ge (A.n - 2) k with hlt | hge
      · exact ((hm _ _ hlt (by omega)).le).trans hsp
      · have : k = A.n - 2 := by omega
        rw [← this]; exact hsp
    · have : A.n - 2 + 1 = A.n - 1 := by omega
      rw [this]; exact h1

theorem Axis.Ok.frac_mem {A : Axis} (h : A.Ok) {x : ℝ} (hx : A.Inside x) :
    0 ≤ A.frac x ∧ A.frac x ≤ 1 := by
  obtain ⟨h1, h2, h3⟩ := h.cell_spec hx
  have hlt := h.2 (A.cell x) (A.cell x + 1) (by omega) h1
  unfold Axis.frac
  constructor
  · exact div_nonneg (by linarith) (by linarith)
  · rw [div_le_one (by linarith)]; linarith

theorem lerp_mem {t a b lo hi : ℝ} (h0 : 0 ≤ t) (h1 : t ≤ 1) (ha : lo ≤ a ∧ a ≤ hi)
    (hb : lo ≤ b ∧ b ≤ hi) : lo ≤ lerp t a b ∧ lerp t a b ≤ hi := by
  unfold lerp
  constructor <;> nlinarith

/-- Inside the grid the interpolated value stays in the range of the tabulated values. -/
theorem grid3_mem {A B C : Axis} (hA : A.Ok) (hB : B.Ok) (hC : C.Ok) {v : ℕ → ℕ → ℕ → ℝ}
    {lo hi : ℝ} (hv : ∀ i j k, i < A.n → j < B.n → k < C.n → lo ≤ v i j k ∧ v i j k ≤ hi)
    {x y z : ℝ} (hx : A.Inside x) (hy : B.Inside y) (hz : C.Inside z) :
    lo ≤ grid3 A B C v x y z ∧ grid3 A B C v x y z ≤ hi := by
  obtain ⟨a1, -, -⟩ := hA.cell_spec hx
  obtain ⟨b1, -, -⟩ := hB.cell_spec hy
  obtain ⟨c1, -, -⟩ := hC.cell_spec hz
  obtain ⟨fa, fa'⟩ := hA.frac_mem hx
  obtain ⟨fb, fb'⟩ := hB.frac_mem hy
  obtain ⟨fc, fc'⟩ := hC.frac_mem hz
  unfold grid3
  simp only
  refine lerp_mem fa fa' (lerp_mem fb fb' (lerp_mem fc fc' ?_ ?_) (lerp_mem fc fc' ?_ ?_))
    (lerp_mem fb fb' (lerp_mem fc fc' ?_ ?_) (lerp_mem fc fc' ?_ ?_)) <;>
  apply hv <;> omega

theorem ofList_ok {l : List ℝ} (h : 2 ≤ l.length) (hs : l.Pairwise (· < ·)) : (Axis.ofList l).Ok := by
  refine ⟨h, fun i j hij hj => ?_⟩
  have hj' : j < l.length := hj
  have hi' : i < l.length := hij.trans hj'
  simp only [Axis.ofList, List.getD_eq_getElem?_getD, List.getElem?_eq_getElem hi',
    List.getElem?_eq_getElem hj', Option.getD_some]
  exact List.pairwise_iff_getElem.1 hs i j hi' hj' hij

end PyHalo.Np

namespace PyHalo.Np

theorem Axis.Ok.mono {A : Axis} (h : A.Ok) {i j : ℕ} (hij : i ≤ j) (hj : j < A.n) : A.g i ≤ A.g j := by
  rcases Nat.lt_or_ge i j with h1 | h1
  · exact (h.2 i j h1 hj).le
  · have : i = j := by omega
    rw [this]

/-- The cell of a point between two neighbouring nodes. -/
theorem Axis.Ok.cell_eq {A : Axis} (h : A.Ok) {i : ℕ} (hi : i + 1 < A.n) {x : ℝ} (h0 : A.g i ≤ x)
    (h1 : x < A.g (i + 1)) : A.cell x = i := by
  classical
  have hc : A.cell x = min (Nat.findGreatest (fun i => A.g i ≤ x) (A.n - 1)) (A.n - 2) := by
    unfold Axis.cell
    congr
  have hf : Nat.findGreatest (fun i => A.g i ≤ x) (A.n - 1) = i := by
    rw [Nat.findGreatest_eq_iff]
    refine ⟨by omega, fun _ => h0, fun k hk hk' hle => ?_⟩
    have := h.mono (show i + 1 ≤ k by omega) (show k < A.n by omega)
    linarith
  rw [hc, hf]
  omega

/-- Beyond the last node the last cell is used. -/
theorem Axis.Ok.cell_above {A : Axis} (_h : A.Ok) {x : ℝ} (h0 : A.g (A.n - 1) ≤ x) :
    A.cell x = A.n - 2 := by
  classical
  have hc : A.cell x = min (Nat.findGreatest (fun i => A.g i ≤ x) (A.n - 1)) (A.n - 2) := by
    unfold Axis.cell
    congr
  have hf : Nat.findGreatest (fun i => A.g i ≤ x) (A.n - 1) = A.n - 1 := by
    rw [Nat.findGreatest_eq_iff]
    exact ⟨le_rfl, fun _ => h0, fun k hk hk' => absurd hk' (by omega)⟩
  rw [hc, hf]
  omega

/-- Interpolation along an axis is exact at the nodes. -/
theorem Axis.Ok.lerp_node {A : Axis} (h : A.Ok) {i : ℕ} (hi : i < A.n) (f : ℕ → ℝ) :
    lerp (A.frac (A.g i)) (f (A.cell (A.g i))) (f (A.cell (A.g i) + 1)) = f i := by
  have h2 := h.1
  rcases Nat.lt_or_ge (i + 1) A.n with h1 | h1
  · have hc : A.cell (A.g i) = i := h.cell_eq h1 le_rfl (h.2 i (i + 1) (by omega) h1)
    unfold Axis.frac
    rw [hc]
    simp [lerp]
  · have hi' : i = A.n - 1 := by omega
    have hc : A.cell (A.g i) = A.n - 2 := by
      rw [hi']; exact h.cell_above le_rfl
    have hne : A.g (A.n - 2) < A.g (A.n - 2 + 1) := h.2 _ _ (by omega) (by omega)
    have e : A.n - 2 + 1 = i := by omega
    unfold Axis.frac
    rw [hc, e]
    rw [e] at hne
    rw [div_self (by linarith)]
    simp [lerp]

/-- The table values are reproduced at the nodes. -/
theorem grid3_node {A B C : Axis} (hA : A.Ok) (hB : B.Ok) (hC : C.Ok) (v : ℕ → ℕ → ℕ → ℝ)
    {i j k : ℕ} (hi : i < A.n) (hj : j < B.n) (hk : k < C.n) :
    grid3 A B C v (A.g i) (B.g j) (C.g k) = v i j k := by
  unfold grid3
  simp only
  rw [hC.lerp_node hk (fun k' => v _ _ k'), hC.lerp_node hk (fun k' => v _ _ k'),
    hC.lerp_node hk (fun k' => v _ _ k'), hC.lerp_node hk (fun k' => v _ _ k'),
    hB.lerp_node hj (fun j' => v _ j' k), hB.lerp_node hj (fun j' => v _ j' k),
    hA.lerp_node hi (fun i' => v i' j k)]

/-- At a node of the last two axes only the first one is interpolated. -/
theorem grid3_first {A B C : Axis} (hB : B.Ok) (hC : C.Ok) (v : ℕ → ℕ → ℕ → ℝ) (x : ℝ)
    {j k : ℕ} (hj : j < B.n) (hk : k < C.n) :
    grid3 A B C v x (B.g j) (C.g k)
      = lerp (A.frac x) (v (A.cell x) j k) (v (A.cell x + 1) j k) := by
  unfold grid3
  simp only
  rw [hC.lerp_node hk (fun k' => v _ _ k'), hC.lerp_node hk (fun k' => v _ _ k'),
    hC.lerp_node hk (fun k' => v _ _ k'), hC.lerp_node hk (fun k' => v _ _ k'),
    hB.lerp_node hj (fun j' => v _ j' k), hB.lerp_node hj (fun j' => v _ j' k)]

/-- At a node of the first two axes only the last one is interpolated. -/
theorem grid3_last {A B C : Axis} (hA : A.Ok) (hB : B.Ok) (v : ℕ → ℕ → ℕ → ℝ) (z : ℝ)
    {i j : ℕ} (hi : i < A.n) (hj : j < B.n) :
    grid3 A B C v (A.g i) (B.g j) z
      = lerp (C.frac z) (v i j (C.cell z)) (v i j (C.cell z + 1)) := by
  unfold grid3
  simp only
  rw [hB.lerp_node hj
      (fun j' => lerp (C.frac z) (v (A.cell (A.g i)) j' (C.cell z)) (v (A.cell (A.g i)) j' (C.cell z + 1))),
    hB.lerp_node hj (fun j' => lerp (C.frac z) (v (A.cell (A.g i) + 1) j' (C.cell z))
      (v (A.cell (A.g i) + 1) j' (C.cell z + 1))),
    hA.lerp_node hi (fun i' => lerp (C.frac z) (v i' j (C.cell z)) (v i' j (C.cell z + 1)))]

end PyHalo.Np
