import Verif.Model.Geometry
import Mathlib.Tactic.Linarith
import Mathlib.Tactic.NormNum
import Mathlib.Tactic.Positivity
import Mathlib.Tactic.FieldSimp
import Mathlib.Tactic.Ring

namespace PyHalo.Np

theorem rint_int (n : ℤ) : rint (n : ℝ) = n := by
  unfold rint
  rw [if_pos] <;> simp

theorem rint_le_floor_add_one (x : ℝ) : rint x ≤ ⌊x⌋ + 1 := by
  unfold rint
  split_ifs <;> omega

theorem floor_le_rint (x : ℝ) : ⌊x⌋ ≤ rint x := by
  unfold rint
  split_ifs <;> omega

theorem abs_rint_sub (x : ℝ) : |(rint x : ℝ) - x| ≤ 1 / 2 := by
  have h1 := Int.floor_le x
  have h2 := Int.lt_floor_add_one x
  unfold rint
  rw [abs_le]
  split_ifs <;> push_cast <;> constructor <;> linarith

theorem rint_mono {x y : ℝ} (h : x ≤ y) : rint x ≤ rint y := by
  have hf := Int.floor_mono h
  rcases lt_or_eq_of_le hf with hlt | heq
  · exact (rint_le_floor_add_one x).trans (le_trans (by omega) (floor_le_rint y))
  · unfold rint
    rw [← heq]
    split_ifs <;> first | omega | (exfalso; linarith)

/-- Ties go to the even neighbour. -/
theorem rint_tie (n : ℤ) : Even (rint (n + 1 / 2)) := by
  have hf : ⌊(n : ℝ) + 1 / 2⌋ = n := by
    rw [Int.floor_eq_iff]
    constructor <;> linarith
  unfold rint
  rw [hf, if_neg (by linarith), if_neg (by linarith)]
  split_ifs with h
  · exact h
  · exact (Int.not_even_iff_odd.1 h).add_one

theorem round2_mono {x y : ℝ} (h : x ≤ y) : round2 x ≤ round2 y := by
  unfold round2
  have := rint_mono (show 100 * x ≤ 100 * y by linarith)
  have : (rint (100 * x) : ℝ) ≤ rint (100 * y) := by exact_mod_cast this
  linarith

theorem abs_round2_sub (x : ℝ) : |round2 x - x| ≤ 1 / 200 := by
  have := abs_rint_sub (100 * x)
  unfold round2
  rw [abs_le] at *
  constructor <;> linarith [this.1, this.2]

/-- A number with two decimals is not changed by `np.round(·, 2)`. -/
theorem round2_of_decimal {x : ℝ} {n : ℤ} (h : x = n / 100) : round2 x = x := by
  unfold round2
  rw [show 100 * x = (n : ℝ) by rw [h]; ring, rint_int, h]

theorem round2_nonneg {x : ℝ} (h : 0 ≤ x) : 0 ≤ round2 x := by
  have h0 : round2 0 = 0 := by simpa using round2_of_decimal (x := 0) (n := 0) (by simp)
  rw [← h0]
  exact round2_mono h

theorem mem_arange {a b s x : ℝ} (hs : 0 < s) (h : x ∈ arange a b s) :
    a ≤ x ∧ x < b ∧ ∃ i : ℕ, x = a + i * s := by
  unfold arange at h
  obtain ⟨i, hi, rfl⟩ := List.mem_map.1 h
  rw [List.mem_range, Nat.lt_ceil, lt_div_iff₀ hs] at hi
  refine ⟨?_, by linarith, i, rfl⟩
  have : (0 : ℝ) ≤ i * s := by positivity
  linarith

theorem arange_pairwise {a b s : ℝ} (hs : 0 < s) : (arange a b s).Pairwise (· < ·) := by
  unfold arange
  rw [List.pairwise_map]
  apply List.pairwise_lt_range.imp
  intro i j hij
  have : (i : ℝ) < j := by exact_mod_cast hij
  nlinarith

theorem head_mem_arange {a b s : ℝ} (hs : 0 < s) (h : a < b) : (arange a b s).head? = some a := by
  unfold arange
  have : 0 < ⌈(b - a) / s⌉₊ := Nat.ceil_pos.2 (div_pos (by linarith) hs)
  obtain ⟨n, hn⟩ := Nat.exists_eq_succ_of_ne_zero this.ne'
  rw [hn, List.range_succ_eq_map]
  simp

/-- Neighbouring values of `arange` are one step apart, and the end is less than one step away
from the last one. -/
theorem arange_last {a b s x : ℝ} (hs : 0 < s) (h : (arange a b s).getLast? = some x) :
    b ≤ x + s := by
  unfold arange at h
  rw [List.getLast?_map] at h
  obtain ⟨i, hi, rfl⟩ := Option.map_eq_some_iff.1 h
  have hlen : i + 1 = ⌈(b - a) / s⌉₊ := by
    generalize ⌈(b - a) / s⌉₊ = n at hi
    cases n with
    | zero => simp at hi
    | succ n => simp [List.range_succ] at hi; omega
  have := Nat.le_ceil ((b - a) / s)
  rw [← hlen, div_le_iff₀ hs] at this
  push_cast at this
  linarith

end PyHalo.Np

namespace PyHalo

theorem planeGaps_spec (zs : ℝ) : ∀ (l : List ℝ), l ≠ [] → l.Pairwise (· < ·) → (∀ x ∈ l, x < zs) →
    ∃ g, planeGaps zs l = .ok g ∧ g.length = l.length ∧ (∀ d ∈ g, 0 < d) ∧
      (∀ a, l.head? = some a → g.sum = zs - a) ∧
      (∀ (i : ℕ) (a b : ℝ), l[i]? = some a → (l ++ [zs])[i + 1]? = some b → g[i]? = some (b - a))
  | [], h, _, _ => absurd rfl h
  | [a], _, _, hz => by
    refine ⟨[zs - a], rfl, rfl, ?_, ?_, ?_⟩
    · simpa using hz a (by simp)
    · simp
    · intro i x y hx hy
      cases i with
      | zero => simp at hx hy ⊢; rw [hx, hy]
      | succ i => simp at hx
  | a :: b :: t, _, hp, hz => by
    rw [List.pairwise_cons] at hp
    obtain ⟨g, h1, h2, h3, h4, h5⟩ := planeGaps_spec zs (b :: t) (by simp) hp.2
      (fun x hx => hz x (by simp [List.mem_cons.1 hx]))
    refine ⟨(b - a) :: g, by simp [planeGaps, h1, bind, Except.bind, pure, Except.pure],
      by simp [h2], ?_, ?_, ?_⟩
    · intro d hd
      rcases List.mem_cons.1 hd with rfl | hd
      · exact sub_pos.2 (hp.1 b (by simp))
      · exact h3 d hd
    · intro x hx
      simp only [List.head?_cons, Option.some.injEq] at hx
      rw [List.sum_cons, h4 b rfl, ← hx]
      ring
    · intro i x y hx hy
      cases i with
      | zero => simp at hx hy ⊢; rw [hx, hy]
      | succ i =>
        simp only [List.getElem?_cons_succ, List.cons_append] at hx hy ⊢
        exact h5 i x y hx (by simpa using hy)

end PyHalo
