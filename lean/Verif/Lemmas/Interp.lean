import Verif.Lemmas.Sampling

/-!
# Facts about piecewise linear interpolation
-/

namespace PyHalo.Np

/-- Linear interpolation stays between the outermost ordinates when the knots are ordered. -/
theorem segInterp_weak : ∀ (l : List (ℝ × ℝ)) (a b : ℝ × ℝ) (q : ℝ),
    l.Pairwise (fun a b => a.1 ≤ b.1 ∧ a.2 ≤ b.2) →
    l.head? = some a → l.getLast? = some b → a.1 ≤ q → q ≤ b.1 →
    a.2 ≤ segInterp l q ∧ segInterp l q ≤ b.2
  | [], a, b, q, _, h, _, _, _ => by simp at h
  | [(x, y)], a, b, q, _, h, h', _, _ => by
    simp at h h'
    subst h; subst h'
    exact ⟨le_refl _, le_refl _⟩
  | (x₀, y₀) :: (x₁, y₁) :: t, a, b, q, hp, h, h', h1, h2 => by
    simp at h
    subst h
    have hp' := List.pairwise_cons.1 hp
    have h01 := hp'.1 (x₁, y₁) (by simp)
    simp only at h01 h1
    have hlast : ((x₁, y₁) :: t).getLast? = some b := by simpa using h'
    have hb : y₁ ≤ b.2 := by
      have hm : b ∈ (x₁, y₁) :: t := List.mem_of_getLast? hlast
      rcases List.mem_cons.1 hm with rfl | hm
      · exact le_refl _
      · exact ((List.pairwise_cons.1 hp'.2).1 b hm).2
    unfold segInterp
    by_cases hc : q ≤ x₁ ∨ t = []
    · have hq : q ≤ x₁ := by
        rcases hc with hc | hc
        · exact hc
        · subst hc
          simp at hlast
          subst hlast
          exact h2
      rw [if_pos hc]
      rcases h01.1.eq_or_lt with he | hlt
      · have : q = x₀ := le_antisymm (by linarith) h1
        rw [this]
        simp only [sub_self, mul_zero, add_zero]
        exact ⟨le_refl _, by linarith [h01.2]⟩
      · have hx : 0 < x₁ - x₀ := by linarith
        have hs : 0 ≤ (y₁ - y₀) / (x₁ - x₀) := div_nonneg (by linarith [h01.2]) hx.le
        constructor
        · have : 0 ≤ (y₁ - y₀) / (x₁ - x₀) * (q - x₀) := mul_nonneg hs (by linarith)
          linarith
        · have : (y₁ - y₀) / (x₁ - x₀) * (q - x₀) ≤ y₁ - y₀ := by
            rw [div_mul_eq_mul_div, div_le_iff₀ hx]
            nlinarith [h01.2]
          linarith
    · rw [if_neg hc]
      push Not at hc
      obtain ⟨g1, g2⟩ := segInterp_weak ((x₁, y₁) :: t) (x₁, y₁) b q hp'.2 rfl hlast
        hc.1.le h2
      simp only at g1
      exact ⟨by simp only; linarith [h01.2], g2⟩

/-- Knots with strictly increasing abscissae and weakly increasing ordinates. -/
def Nondecreasing (l : List (ℝ × ℝ)) : Prop := l.Pairwise fun a b => a.1 < b.1 ∧ a.2 ≤ b.2

theorem Nondecreasing.weak {l : List (ℝ × ℝ)} (h : Nondecreasing l) :
    l.Pairwise (fun a b => a.1 ≤ b.1 ∧ a.2 ≤ b.2) := h.imp fun h => ⟨h.1.le, h.2⟩

/-- Interpolation reproduces the table at its knots. -/
theorem segInterp_node : ∀ (l : List (ℝ × ℝ)), l.Pairwise (fun a b => a.1 < b.1) →
    ∀ p ∈ l, segInterp l p.1 = p.2
  | [], _, p, h => by simp at h
  | [(x, y)], _, p, h => by
    simp at h; subst h; rfl
  | (x₀, y₀) :: (x₁, y₁) :: t, hp, p, h => by
    have hp' := List.pairwise_cons.1 hp
    have h01 := hp'.1 (x₁, y₁) (by simp)
    simp only at h01
    unfold segInterp
    rcases List.mem_cons.1 h with rfl | h
    · rw [if_pos (.inl (by simp only; linarith))]
      simp
    · rcases List.mem_cons.1 h with rfl | h'
      · rw [if_pos (.inl (le_refl _))]
        have : x₁ - x₀ ≠ 0 := by linarith
        simp only
        field_simp
        ring
      · have h1p := (List.pairwise_cons.1 hp'.2).1 p h'
        simp only at h1p
        rw [if_neg]
        · exact segInterp_node _ hp'.2 p h
        · push Not
          exact ⟨h1p, fun e => by rw [e] at h'; simp at h'⟩

/-- Interpolation through a non-decreasing table is non-decreasing. -/
theorem segInterp_mono : ∀ (l : List (ℝ × ℝ)) (a b : ℝ × ℝ) (q q' : ℝ), Nondecreasing l →
    l.head? = some a → l.getLast? = some b → a.1 ≤ q → q ≤ q' → q' ≤ b.1 →
    segInterp l q ≤ segInterp l q'
  | [], a, b, q, q', _, h, _, _, _, _ => by simp at h
  | [(x, y)], a, b, q, q', _, h, h', _, _, _ => le_refl _
  | (x₀, y₀) :: (x₁, y₁) :: t, a, b, q, q', hp, h, h', h1, h2, h3 => by
    simp at h
    subst h
    have hp' := List.pairwise_cons.1 hp
    have h01 := hp'.1 (x₁, y₁) (by simp)
    simp only at h01 h1
    have hlast : ((x₁, y₁) :: t).getLast? = some b := by simpa using h'
    have hx : 0 < x₁ - x₀ := by linarith [h01.1]
    have hs : 0 ≤ (y₁ - y₀) / (x₁ - x₀) := div_nonneg (by linarith [h01.2]) hx.le
    unfold segInterp
    by_cases hc' : q' ≤ x₁ ∨ t = []
    · have hc : q ≤ x₁ ∨ t = [] := hc'.imp (fun h => h2.trans h) id
      rw [if_pos hc, if_pos hc']
      have := mul_le_mul_of_nonneg_left (show q - x₀ ≤ q' - x₀ by linarith) hs
      linarith
    · rw [if_neg hc']
      push Not at hc'
      by_cases hc : q ≤ x₁ ∨ t = []
      · have hq : q ≤ x₁ := hc.resolve_right hc'.2
        rw [if_pos hc]
        have e1 : (y₁ - y₀) / (x₁ - x₀) * (q - x₀) ≤ y₁ - y₀ := by
          rw [div_mul_eq_mul_div, div_le_iff₀ hx]
          nlinarith [h01.2]
        have e2 := (segInterp_weak ((x₁, y₁) :: t) (x₁, y₁) b q' (Nondecreasing.weak hp'.2) rfl
          hlast hc'.1.le h3).1
        simp only at e2
        linarith
      · rw [if_neg hc]
        push Not at hc
        exact segInterp_mono ((x₁, y₁) :: t) (x₁, y₁) b q q' hp'.2 rfl hlast hc.1.le h2 h3

/-- Interpolation through a strictly increasing table is strictly increasing. -/
theorem segInterp_strict : ∀ (l : List (ℝ × ℝ)) (a b : ℝ × ℝ) (q q' : ℝ),
    l.Pairwise (fun a b => a.1 < b.1 ∧ a.2 < b.2) →
    l.head? = some a → l.getLast? = some b → a.1 ≤ q → q < q' → q' ≤ b.1 →
    segInterp l q < segInterp l q'
  | [], a, b, q, q', _, h, _, _, _, _ => by simp at h
  | [(x, y)], a, b, q, q', _, h, h', g1, g2, g3 => by
    simp at h h'
    subst h; subst h'
    simp only at g1 g3
    linarith
  | (x₀, y₀) :: (x₁, y₁) :: t, a, b, q, q', hp, h, h', h1, h2, h3 => by
    simp at h
    subst h
    have hp' := List.pairwise_cons.1 hp
    have h01 := hp'.1 (x₁, y₁) (by simp)
    simp only at h01 h1
    have hlast : ((x₁, y₁) :: t).getLast? = some b := by simpa using h'
    have hx : 0 < x₁ - x₀ := by linarith [h01.1]
    have hs : 0 < (y₁ - y₀) / (x₁ - x₀) := div_pos (by linarith [h01.2]) hx
    have ih := fun u v => segInterp_strict ((x₁, y₁) :: t) (x₁, y₁) b u v hp'.2 rfl hlast
    unfold segInterp
    by_cases hc' : q' ≤ x₁ ∨ t = []
    · have hc : q ≤ x₁ ∨ t = [] := hc'.imp (fun h => h2.le.trans h) id
      rw [if_pos hc, if_pos hc']
      have := mul_lt_mul_of_pos_left (show q - x₀ < q' - x₀ by linarith) hs
      linarith
    · rw [if_neg hc']
      push Not at hc'
      by_cases hc : q ≤ x₁ ∨ t = []
      · have hq : q ≤ x₁ := hc.resolve_right hc'.2
        rw [if_pos hc]
        have e1 : (y₁ - y₀) / (x₁ - x₀) * (q - x₀) ≤ y₁ - y₀ := by
          rw [div_mul_eq_mul_div, div_le_iff₀ hx]
          nlinarith [h01.2]
        have e2 := ih x₁ q' le_rfl hc'.1 h3
        have e3 := segInterp_node ((x₁, y₁) :: t) (hp'.2.imp fun h => h.1) (x₁, y₁) (by simp)
        simp only at e3
        rw [e3] at e2
        linarith
      · rw [if_neg hc]
        push Not at hc
        exact ih q q' hc.1.le h2 h3

/-- Interpolation commutes with negating the ordinates. -/
theorem segInterp_neg : ∀ (l : List (ℝ × ℝ)) (q : ℝ),
    segInterp (l.map fun p => (p.1, -p.2)) q = -segInterp l q
  | [], q => by simp [segInterp]
  | [(x, y)], q => by simp [segInterp]
  | (x₀, y₀) :: (x₁, y₁) :: t, q => by
    have ih := segInterp_neg ((x₁, y₁) :: t) q
    simp only [List.map_cons] at ih ⊢
    unfold segInterp
    by_cases h : q ≤ x₁ ∨ t = []
    · have h' : q ≤ x₁ ∨ t.map (fun p : ℝ × ℝ => (p.1, -p.2)) = [] := by simpa using h
      rw [if_pos h, if_pos h']
      ring
    · have h' : ¬(q ≤ x₁ ∨ t.map (fun p : ℝ × ℝ => (p.1, -p.2)) = []) := by simpa using h
      rw [if_neg h, if_neg h', ih]

/-- `interp1d` succeeds exactly inside the table. -/
theorem interp1d_eq (xs ys : List ℝ) (q a b : ℝ) (ha : xs.head? = some a)
    (hb : xs.getLast? = some b) :
    (a ≤ q → q ≤ b → interp1d xs ys q = .ok (segInterp (xs.zip ys) q)) ∧
    ((q < a ∨ b < q) → ∃ e, interp1d xs ys q = .error e) := by
  unfold interp1d
  rw [ha, hb]
  refine ⟨fun h1 h2 => ?_, fun h => ?_⟩
  · simp only
    rw [if_neg (not_lt.2 h1), if_neg (not_lt.2 h2)]
  · simp only
    by_cases h1 : q < a
    · exact ⟨_, if_pos h1⟩
    · rw [if_neg h1, if_pos (h.resolve_left h1)]
      exact ⟨_, rfl⟩

/-- A table sampled from a function on a strictly increasing grid. -/
theorem zip_map_pairwise (xs : List ℝ) (f : ℝ → ℝ) (h : xs.Pairwise (· < ·)) :
    (xs.zip (xs.map f)).Pairwise (fun a b => a.1 < b.1) := by
  have : xs.zip (xs.map f) = xs.map fun x => (x, f x) := by
    induction xs with
    | nil => rfl
    | cons a t ih => simp [ih (List.pairwise_cons.1 h).2]
  rw [this, List.pairwise_map]
  exact h

theorem zip_map_eq (xs : List ℝ) (f : ℝ → ℝ) : xs.zip (xs.map f) = xs.map fun x => (x, f x) := by
  induction xs with
  | nil => rfl
  | cons a t ih => simp [ih]

/-- A grid with positive step: ends, order. -/
theorem grid_spec (n : ℕ) (f : ℕ → ℝ) (hf : ∀ i j, i < j → f i < f j) :
    ((List.range (n + 1)).map f).head? = some (f 0) ∧
    ((List.range (n + 1)).map f).getLast? = some (f n) ∧
    ((List.range (n + 1)).map f).Pairwise (· < ·) := by
  refine ⟨?_, ?_, ?_⟩
  · rw [List.head?_map, List.head?_range]; simp
  · rw [List.getLast?_map, List.getLast?_range]; simp
  · rw [List.pairwise_map]
    exact List.pairwise_lt_range.imp fun h => hf _ _ h

end PyHalo.Np
