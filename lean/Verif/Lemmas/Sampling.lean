import Verif.Model.Geometry
import Verif.Lemmas.Numpy
import Verif.Lemmas.Rounding

namespace PyHalo.Np

/-- Knots increasing in both coordinates. -/
def Increasing (l : List (ℝ × ℝ)) : Prop := l.Pairwise fun a b => a.1 < b.1 ∧ a.2 < b.2

theorem segInterp_bounds : ∀ (l : List (ℝ × ℝ)) (a b : ℝ × ℝ) (q : ℝ), Increasing l →
    l.head? = some a → l.getLast? = some b → a.1 ≤ q → q ≤ b.1 →
    a.2 ≤ segInterp l q ∧ segInterp l q ≤ b.2 ∧ (a.1 < q → a.2 < segInterp l q) ∧
      (q = a.1 → segInterp l q = a.2)
  | [], a, b, q, _, h, _, _, _ => by simp at h
  | [(x, y)], a, b, q, _, h, h', h1, h2 => by
    simp at h h'
    subst h; subst h'
    simp only at h1 h2
    refine ⟨le_refl _, le_refl _, fun h => absurd h (not_lt.2 h2), fun _ => rfl⟩
  | (x₀, y₀) :: (x₁, y₁) :: t, a, b, q, hp, h, h', h1, h2 => by
    simp at h
    subst h
    have hp' := List.pairwise_cons.1 hp
    have h01 := hp'.1 (x₁, y₁) (by simp)
    simp only at h01 h1
    have hx : 0 < x₁ - x₀ := by linarith [h01.1]
    have hy : 0 < y₁ - y₀ := by linarith [h01.2]
    have hs : 0 < (y₁ - y₀) / (x₁ - x₀) := div_pos hy hx
    have hlast : ((x₁, y₁) :: t).getLast? = some b := by simpa using h'
    have hb : y₁ ≤ b.2 := by
      have hm : b ∈ (x₁, y₁) :: t := List.mem_of_getLast? hlast
      rcases List.mem_cons.1 hm with rfl | hm
      · exact le_refl _
      · exact ((List.pairwise_cons.1 hp'.2).1 b hm).2.le
    unfold segInterp
    by_cases hc : q ≤ x₁ ∨ t = []
    · have hq : q ≤ x₁ := by
        rcases hc with hc | hc
        · exact hc
        · subst hc
          simp at hlast
          subst hlast
          exact h2
      rw [if_pos hc]
      refine ⟨?_, ?_, ?_, ?_⟩
      · have : 0 ≤ (y₁ - y₀) / (x₁ - x₀) * (q - x₀) := mul_nonneg hs.le (by linarith)
        linarith
      · have : (y₁ - y₀) / (x₁ - x₀) * (q - x₀) ≤ y₁ - y₀ := by
          rw [div_mul_eq_mul_div, div_le_iff₀ hx]
          nlinarith
        linarith
      · intro hlt
        have : 0 < (y₁ - y₀) / (x₁ - x₀) * (q - x₀) := mul_pos hs (by simpa using hlt)
        simp only
        linarith
      · intro he
        simp only at he ⊢
        rw [he]
        ring
    · rw [if_neg hc]
      push Not at hc
      obtain ⟨g1, g2, g3, _⟩ := segInterp_bounds ((x₁, y₁) :: t) (x₁, y₁) b q hp'.2 rfl hlast
        hc.1.le h2
      simp only at g1
      refine ⟨by simp only; linarith [h01.2], g2, fun _ => by simp only; linarith [h01.2], ?_⟩
      intro he
      simp only at he
      linarith [h01.1, hc.1]

theorem cumsumFrom_length (s : ℝ) (l : List ℝ) : (cumsumFrom s l).length = l.length := by
  induction l generalizing s with
  | nil => rfl
  | cons a t ih => simp [cumsumFrom, ih]

theorem cumsumFrom_gt {s : ℝ} {l : List ℝ} (h : ∀ y ∈ l, 0 < y) : ∀ c ∈ cumsumFrom s l, s < c := by
  induction l generalizing s with
  | nil => simp [cumsumFrom]
  | cons a t ih =>
    intro c hc
    have ha := h a (by simp)
    rcases List.mem_cons.1 hc with rfl | hc
    · linarith
    · have := ih (s := s + a) (fun y hy => h y (by simp [hy])) c hc
      linarith

theorem cumsumFrom_pairwise {s : ℝ} {l : List ℝ} (h : ∀ y ∈ l, 0 < y) :
    (cumsumFrom s l).Pairwise (· < ·) := by
  induction l generalizing s with
  | nil => simp [cumsumFrom]
  | cons a t ih =>
    rw [cumsumFrom, List.pairwise_cons]
    exact ⟨cumsumFrom_gt fun y hy => h y (by simp [hy]), ih fun y hy => h y (by simp [hy])⟩

theorem zip_increasing : ∀ (c x : List ℝ), c.Pairwise (· < ·) → x.Pairwise (· < ·) →
    Increasing (c.zip x)
  | [], _, _, _ => by simp [Increasing]
  | _ :: _, [], _, _ => by simp [Increasing]
  | a :: c, b :: x, h1, h2 => by
    rw [List.pairwise_cons] at h1 h2
    refine List.pairwise_cons.2 ⟨?_, zip_increasing c x h1.2 h2.2⟩
    rintro ⟨p, q⟩ hm
    obtain ⟨hp, hq⟩ := List.of_mem_zip hm
    exact ⟨h1.1 p hp, h2.1 q hq⟩

end PyHalo.Np

namespace PyHalo
open Np

theorem zip_getLast? {α β : Type} : ∀ (l : List α) (m : List β) (a : α) (b : β),
    l.length = m.length → l.getLast? = some a → m.getLast? = some b →
    (l.zip m).getLast? = some (a, b)
  | [], m, a, b, _, h, _ => by simp at h
  | [x], [y], a, b, _, h, h' => by simp at h h'; simp [h, h']
  | x :: x' :: l, y :: y' :: m, a, b, hl, h, h' => by
    have := zip_getLast? (x' :: l) (y' :: m) a b (by simpa using hl) (by simpa using h)
      (by simpa using h')
    simpa using this
  | [x], [], _, _, hl, _, _ => by simp at hl
  | [x], _ :: _ :: _, _, _, hl, _, _ => by simp at hl
  | _ :: _ :: _, [], _, _, hl, _, _ => by simp at hl
  | _ :: _ :: _, [_], _, _, hl, _, _ => by simp at hl

/-- Inverse transform sampling never fails and never leaves the table: samples lie between the
first and the last abscissa; the variate 0 gives the first one, larger variates larger samples
than that. -/
theorem inverseTransform_spec (x y : List ℝ) (N : ℕ) (u : ℕ → ℝ) (a b : ℝ)
    (hlen : x.length = y.length) (hx : x.Pairwise (· < ·)) (hy : ∀ v ∈ y, 0 < v)
    (ha : x.head? = some a) (hb : x.getLast? = some b) (h2 : 2 ≤ x.length)
    (hu : ∀ i, 0 ≤ u i ∧ u i ≤ 1) :
    ∃ r : ℕ → ℝ, inverseTransform x y N u = .ok ((List.range N).map r) ∧
      ∀ i, a ≤ r i ∧ r i ≤ b ∧ (0 < u i → a < r i) ∧ (u i = 0 → r i = a) := by
  have hcl : (cumsum y).length = y.length := cumsumFrom_length 0 y
  have hcp : (cumsum y).Pairwise (· < ·) := cumsumFrom_pairwise hy
  have hcg : ∀ c ∈ cumsum y, 0 < c := cumsumFrom_gt hy
  have hne : cumsum y ≠ [] := by
    intro h; rw [h] at hcl; simp at hcl; omega
  obtain ⟨M, hM⟩ : ∃ M, (cumsum y).getLast? = some M := ⟨_, List.getLast?_eq_some_getLast hne⟩
  have hM0 : 0 < M := hcg M (List.mem_of_getLast? hM)
  unfold inverseTransform itsFromCdf
  simp only [hM, Option.getD_some]
  set c := (cumsum y).map fun v => v * M⁻¹ with hc
  have hcp' : c.Pairwise (· < ·) := by
    rw [hc, List.pairwise_map]
    exact hcp.imp fun h => mul_lt_mul_of_pos_right h (inv_pos.2 hM0)
  have hcl' : c.length = x.length := by rw [hc, List.length_map, hcl, hlen]
  have hcne : c ≠ [] := by intro h; rw [h] at hcl'; simp at hcl'; omega
  obtain ⟨p, hp⟩ : ∃ p, c.head? = some p := ⟨_, List.head?_eq_some_head hcne⟩
  obtain ⟨q, hq⟩ : ∃ q, c.getLast? = some q := ⟨_, List.getLast?_eq_some_getLast hcne⟩
  have hpq : p < q := by
    match c, hcl', hp, hq, hcp' with
    | c0 :: c1 :: t, _, hp, hq, hcp' =>
      have hqm : q ∈ c1 :: t := List.mem_of_getLast? (by simpa using hq)
      simp at hp
      rw [← hp]
      exact (List.pairwise_cons.1 hcp').1 q hqm
    | [], h, _, _, _ => simp at h; omega
    | [_], h, _, _, _ => simp at h; omega
  have hinc := zip_increasing c x hcp' hx
  have hhead : (c.zip x).head? = some (p, a) := by
    match c, x, hp, ha with
    | _ :: _, _ :: _, hp, ha => simp at hp ha; simp [hp, ha]
  have hlast : (c.zip x).getLast? = some (q, b) := zip_getLast? c x q b hcl' hq hb
  refine ⟨fun i => segInterp (c.zip x) (p + (q - p) * u i), ?_, ?_⟩
  · rw [hp, hq]
    simp only
    apply mapM_ok
    intro i _
    unfold interp1d
    rw [hp, hq]
    simp only
    rw [if_neg, if_neg]
    · have := (hu i).2; push Not; nlinarith
    · have := (hu i).1; push Not; nlinarith
  · intro i
    have h0 := (hu i).1
    have h1 := (hu i).2
    obtain ⟨g1, g2, g3, g4⟩ := segInterp_bounds (c.zip x) (p, a) (q, b) (p + (q - p) * u i) hinc hhead
      hlast (by simp only; nlinarith) (by simp only; nlinarith)
    refine ⟨g1, g2, fun h => g3 (by simp only; nlinarith), fun h => g4 (by simp [h])⟩

end PyHalo
