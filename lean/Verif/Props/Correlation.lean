import Verif.Model.Correlation
import Verif.Props.Rays
import Mathlib.Algebra.QuadraticDiscriminant
import Mathlib.Analysis.Real.Pi.Bounds

/-!
# C105: correlation functions of convergence maps
-/

namespace PyHalo.Props

open PyHalo Corr Np

/-! ### Sums with weights -/

/-- What an average over the grid does: it is linear. -/
structure LinearSum (F : (ℝ → ℝ → ℝ) → ℝ) : Prop where
  add : ∀ a b, F (fun x y => a x y + b x y) = F a + F b
  smul : ∀ (c : ℝ) a, F (fun x y => c * a x y) = c * F a

theorem zipSum_add (f h : ℝ → ℝ) : ∀ ws l : List ℝ, (List.zipWith (· * ·) ws (l.map fun a => f a + h a)).sum =
    (List.zipWith (· * ·) ws (l.map f)).sum + (List.zipWith (· * ·) ws (l.map h)).sum
  | [], _ => by simp
  | _ :: _, [] => by simp
  | w :: ws, a :: l => by
    simp only [List.map_cons, List.zipWith_cons_cons, List.sum_cons]
    rw [zipSum_add f h ws l]; ring

theorem zipSum_smul (c : ℝ) (f : ℝ → ℝ) : ∀ ws l : List ℝ, (List.zipWith (· * ·) ws (l.map fun a => c * f a)).sum =
    c * (List.zipWith (· * ·) ws (l.map f)).sum
  | [], _ => by simp
  | _ :: _, [] => by simp
  | w :: ws, a :: l => by
    simp only [List.map_cons, List.zipWith_cons_cons, List.sum_cons]
    rw [zipSum_smul c f ws l]; ring

theorem zipSum_nonneg (f : ℝ → ℝ) : ∀ ws l : List ℝ, (∀ w ∈ ws, 0 ≤ w) → (∀ a ∈ l, 0 ≤ f a) →
    0 ≤ (List.zipWith (· * ·) ws (l.map f)).sum
  | [], _, _, _ => by simp
  | _ :: _, [], _, _ => by simp
  | w :: ws, a :: l, hw, hf => by
    simp only [List.map_cons, List.zipWith_cons_cons, List.sum_cons]
    have := zipSum_nonneg f ws l (fun v hv => hw v (by simp [hv])) (fun v hv => hf v (by simp [hv]))
    have := mul_nonneg (hw w (by simp)) (hf a (by simp))
    linarith

theorem simps2_linear (S : Scipy) (g : List ℝ) : LinearSum (simps2 S g) where
  add a b := by
    unfold simps2 simps
    simp only [zipSum_add]
  smul c a := by
    unfold simps2 simps
    simp only [zipSum_smul]

theorem simps2_nonneg (S : Scipy) (g : List ℝ) (hw : ∀ w ∈ S.weights g, 0 ≤ w) (A : ℝ → ℝ → ℝ)
    (hA : ∀ x ∈ g, ∀ y ∈ g, 0 ≤ A x y) : 0 ≤ simps2 S g A := by
  unfold simps2 simps
  exact zipSum_nonneg _ _ _ hw fun x hx => zipSum_nonneg _ _ _ hw fun y hy => hA x hx y hy

theorem simps2_congr (S : Scipy) (g : List ℝ) (A B : ℝ → ℝ → ℝ) (h : ∀ x ∈ g, ∀ y ∈ g, A x y = B x y) :
    simps2 S g A = simps2 S g B := by
  unfold simps2
  congr 1
  apply List.map_congr_left
  intro x hx
  congr 1
  exact List.map_congr_left fun y hy => h x hx y hy

/-- The covariance of `a` and `b` under the weight `W`, in terms of a sum `F` over the grid; not divided by the total weight. -/
noncomputable def Spec105.cov (F : (ℝ → ℝ → ℝ) → ℝ) (W a b : ℝ → ℝ → ℝ) : ℝ :=
  F (fun x y => W x y * (a x y * b x y)) - F (fun x y => W x y * a x y) * F (fun x y => W x y * b x y) / F W

theorem LinearSum.sub_const {F} (hF : LinearSum F) (W a b : ℝ → ℝ → ℝ) (p q : ℝ) :
    F (fun x y => W x y * ((a x y - p) * (b x y - q))) =
      F (fun x y => W x y * (a x y * b x y)) - q * F (fun x y => W x y * a x y) - p * F (fun x y => W x y * b x y) + p * q * F W := by
  rw [← hF.smul (p * q) W]
  have e : (fun x y => W x y * ((a x y - p) * (b x y - q))) = fun x y =>
      (W x y * (a x y * b x y) + (-q) * (W x y * a x y)) + ((-p) * (W x y * b x y) + p * q * W x y) := by
    funext x y; ring
  rw [e, hF.add, hF.add, hF.add, hF.smul, hF.smul, hF.smul]
  ring

/-- A covariance is a sum over the grid of products of deviations. -/
theorem cov_centred {F} (hF : LinearSum F) (W a b : ℝ → ℝ → ℝ) :
    Spec105.cov F W a b = F (fun x y => W x y * ((a x y - F (fun x y => W x y * a x y) / F W) *
      (b x y - F (fun x y => W x y * b x y) / F W))) := by
  rw [hF.sub_const, Spec105.cov]
  by_cases h : F W = 0
  · simp [h]
  · field_simp; ring

theorem cauchy {F} (hF : LinearSum F) (W a b : ℝ → ℝ → ℝ) (hp : ∀ u : ℝ → ℝ → ℝ, 0 ≤ F (fun x y => W x y * (u x y * u x y))) :
    F (fun x y => W x y * (a x y * b x y)) ^ 2 ≤
      F (fun x y => W x y * (a x y * a x y)) * F (fun x y => W x y * (b x y * b x y)) := by
  set A := F (fun x y => W x y * (a x y * a x y)) with hA
  set B := F (fun x y => W x y * (b x y * b x y)) with hB
  set C := F (fun x y => W x y * (a x y * b x y)) with hC
  have h : ∀ t : ℝ, 0 ≤ B * (t * t) + (2 * C) * t + A := by
    intro t
    have := hp fun x y => a x y + t * b x y
    have e : (fun x y => W x y * ((a x y + t * b x y) * (a x y + t * b x y))) = fun x y =>
        (W x y * (a x y * a x y) + (2 * t) * (W x y * (a x y * b x y))) + (t * t) * (W x y * (b x y * b x y)) := by
      funext x y; ring
    rw [e, hF.add, hF.add, hF.smul, hF.smul, ← hA, ← hB, ← hC] at this
    linarith
  have := discrim_le_zero h
  unfold discrim at this
  nlinarith

theorem cov_sq_le {F} (hF : LinearSum F) (W a b : ℝ → ℝ → ℝ) (hp : ∀ u : ℝ → ℝ → ℝ, 0 ≤ F (fun x y => W x y * (u x y * u x y))) :
    Spec105.cov F W a b ^ 2 ≤ Spec105.cov F W a a * Spec105.cov F W b b := by
  rw [cov_centred hF W a b, cov_centred hF W a a, cov_centred hF W b b]
  exact cauchy hF W (fun x y => a x y - F (fun x y => W x y * a x y) / F W) (fun x y => b x y - F (fun x y => W x y * b x y) / F W) hp

theorem cov_add_const {F} (hF : LinearSum F) (W a b : ℝ → ℝ → ℝ) (p q : ℝ) (h : F W ≠ 0) :
    Spec105.cov F W (fun x y => a x y + p) (fun x y => b x y + q) = Spec105.cov F W a b := by
  unfold Spec105.cov
  have e := hF.sub_const W a b (-p) (-q)
  have e1 : ∀ (c : ℝ → ℝ → ℝ) (s : ℝ), F (fun x y => W x y * (c x y + s)) = F (fun x y => W x y * c x y) + s * F W := by
    intro c s
    rw [← hF.smul, ← hF.add]; congr 1; funext x y; ring
  simp only [sub_neg_eq_add] at e
  rw [e, e1, e1]
  field_simp
  ring

theorem cov_scale {F} (hF : LinearSum F) (W a b : ℝ → ℝ → ℝ) (p q : ℝ) :
    Spec105.cov F W (fun x y => p * a x y) (fun x y => q * b x y) = p * q * Spec105.cov F W a b := by
  unfold Spec105.cov
  have e1 : ∀ (c : ℝ → ℝ → ℝ) (s : ℝ), F (fun x y => W x y * (s * c x y)) = s * F (fun x y => W x y * c x y) := by
    intro c s
    rw [← hF.smul]; congr 1; funext x y; ring
  have e : F (fun x y => W x y * (p * a x y * (q * b x y))) = p * q * F (fun x y => W x y * (a x y * b x y)) := by
    rw [← hF.smul]; congr 1; funext x y; ring
  rw [e, e1, e1]
  ring

/-! ### The entries -/

/-- The two points at which the map is read for the grid point `(x, y)`, the separation `r` and the cosine `μ`: `sign` is `-1` for the
first and `1` for the second. -/
noncomputable def Spec105.point (sign r μ x y : ℝ) : ℝ × ℝ := (x + sign * (offset r μ x y).1, y + sign * (offset r μ x y).2)

/-- What the mask, a number, counts: a pixel is used if it exceeds 0.9. -/
noncomputable def Spec105.used (m : ℝ) : ℝ := if 0.9 < m then 1 else 0

theorem binarise_used (m : ℝ) (h : m ≠ 0.9) : binarise m = Spec105.used m := by
  unfold binarise Spec105.used
  rcases lt_or_gt_of_ne h with h | h
  · rw [if_pos h, if_neg (not_lt.2 h.le)]
  · rw [if_neg (not_lt.2 h.le), if_pos h, if_pos h]

theorem corrEntry_eq (S : Scipy) (g : List ℝ) (K M : ℝ → ℝ → ℝ) (area : ℝ) (nrm : Bool) (r μ : ℝ)
    (hM : ∀ x ∈ g, ∀ y ∈ g, ∀ s : ℝ, (s = 1 ∨ s = -1) → M (Spec105.point s r μ x y).2 (Spec105.point s r μ x y).1 ≠ 0.9) :
    let a := fun x y => K (Spec105.point (-1) r μ x y).2 (Spec105.point (-1) r μ x y).1
    let b := fun x y => K (Spec105.point 1 r μ x y).2 (Spec105.point 1 r μ x y).1
    let W := fun x y => Spec105.used (M (Spec105.point (-1) r μ x y).2 (Spec105.point (-1) r μ x y).1) *
      Spec105.used (M (Spec105.point 1 r μ x y).2 (Spec105.point 1 r μ x y).1)
    corrEntry S g K M area nrm r μ = if nrm then Spec105.cov (simps2 S g) W a b / area /
      Real.sqrt (Spec105.cov (simps2 S g) W a a / area * (Spec105.cov (simps2 S g) W b b / area))
      else Spec105.cov (simps2 S g) W a b / area := by
  intro a b W
  have hsq : ∀ t : ℝ, Spec105.used t ^ 2 = Spec105.used t := by intro t; unfold Spec105.used; split <;> norm_num
  have p1 : ∀ x y, (y - (offset r μ x y).2) = (Spec105.point (-1) r μ x y).2 ∧ (x - (offset r μ x y).1) = (Spec105.point (-1) r μ x y).1 := by
    intro x y; constructor <;> simp only [Spec105.point] <;> ring
  have p2 : ∀ x y, (y + (offset r μ x y).2) = (Spec105.point 1 r μ x y).2 ∧ (x + (offset r μ x y).1) = (Spec105.point 1 r μ x y).1 := by
    intro x y; constructor <;> simp only [Spec105.point] <;> ring
  let n1 := fun x y => binarise (M (Spec105.point (-1) r μ x y).2 (Spec105.point (-1) r μ x y).1)
  let n2 := fun x y => binarise (M (Spec105.point 1 r μ x y).2 (Spec105.point 1 r μ x y).1)
  have hW : ∀ x ∈ g, ∀ y ∈ g, n1 x y * n2 x y = W x y ∧ n1 x y ^ 2 = n1 x y ∧ n2 x y ^ 2 = n2 x y := by
    intro x hx y hy
    simp only [n1, n2, W, binarise_used _ (hM x hx y hy _ (Or.inr rfl)), binarise_used _ (hM x hx y hy _ (Or.inl rfl)), hsq, and_self]
  have e1 : simps2 S g (fun x y => (a x y * n1 x y) * (b x y * n2 x y)) = simps2 S g fun x y => W x y * (a x y * b x y) :=
    simps2_congr S g _ _ fun x hx y hy => by rw [← (hW x hx y hy).1]; ring
  have e2 : simps2 S g (fun x y => (a x y * n1 x y) * n2 x y) = simps2 S g fun x y => W x y * a x y :=
    simps2_congr S g _ _ fun x hx y hy => by rw [← (hW x hx y hy).1]; ring
  have e3 : simps2 S g (fun x y => n1 x y * (b x y * n2 x y)) = simps2 S g fun x y => W x y * b x y :=
    simps2_congr S g _ _ fun x hx y hy => by rw [← (hW x hx y hy).1]; ring
  have e4 : simps2 S g (fun x y => n1 x y * n2 x y) = simps2 S g W := simps2_congr S g _ _ fun x hx y hy => (hW x hx y hy).1
  have e5 : simps2 S g (fun x y => (a x y * n1 x y) ^ 2 * n2 x y) = simps2 S g fun x y => W x y * (a x y * a x y) :=
    simps2_congr S g _ _ fun x hx y hy => by rw [← (hW x hx y hy).1, mul_pow, (hW x hx y hy).2.1]; ring
  have e6 : simps2 S g (fun x y => n1 x y * (b x y * n2 x y) ^ 2) = simps2 S g fun x y => W x y * (b x y * b x y) :=
    simps2_congr S g _ _ fun x hx y hy => by rw [← (hW x hx y hy).1, mul_pow, (hW x hx y hy).2.2]; ring
  unfold corrEntry
  simp only [(p1 _ _).1, (p1 _ _).2, (p2 _ _).1, (p2 _ _).2]
  simp only [n1, n2, a, b] at e1 e2 e3 e4 e5 e6
  rw [e1, e2, e3, e4, e5, e6]
  simp only [Spec105.cov, pow_two, a, b]

/-- What the arguments of a call must satisfy: a square map of at least six pixels a side, a positive size, and separations the largest of
which leaves room for at least two grid points. -/
structure Spec105.Input (κ : List (List ℝ)) (mapSize : ℝ) (r : List ℝ) (rTop : ℝ) : Prop where
  square : ∀ row ∈ κ, row.length = κ.length
  pixels : 6 ≤ κ.length
  size : 0 < mapSize
  top : rTop ∈ r
  largest : ∀ a ∈ r, a ≤ rTop
  room : 2 ≤ κ.length / (mapSize / 2) * (mapSize / 2 - rTop)

/-- The coordinates, on either axis, of the grid over which pairs of points are summed. -/
noncomputable def Spec105.grid (n : ℕ) (mapSize rTop : ℝ) : List ℝ :=
  linspace (-(mapSize / 2 - rTop)) (mapSize / 2 - rTop) ⌊n / (mapSize / 2) * (mapSize / 2 - rTop)⌋₊

/-- The coordinates, on either axis, of the pixels of the map. -/
noncomputable def Spec105.pixels (n : ℕ) (mapSize : ℝ) : List ℝ := linspace (-mapSize / 2) (mapSize / 2) n

/-- The interpolated mask: one between the two radii about the centre, zero elsewhere. -/
noncomputable def Spec105.mask (S : Scipy) (n : ℕ) (mapSize : ℝ) (applyMask : Bool) (rMin : ℝ) (rMax : Option ℝ) (y x : ℝ) : ℝ :=
  if applyMask then S.spline1 (Spec105.pixels n mapSize) (Spec105.pixels n mapSize)
    ((Spec105.pixels n mapSize).map fun y => (Spec105.pixels n mapSize).map fun x =>
      if rMin < Real.sqrt (x ^ 2 + y ^ 2) ∧ ∀ M ∈ rMax, Real.sqrt (x ^ 2 + y ^ 2) < M then 1 else 0) y x
  else 1

/-- The area by which the code divides: that of the square of grid points, less the inner disc if masked; with an outer radius that of the
annulus. -/
noncomputable def Spec105.area (mapSize rTop : ℝ) (applyMask : Bool) (rMin : ℝ) (rMax : Option ℝ) : ℝ :=
  match applyMask, rMax with
  | false, _ => (mapSize - 2 * rTop) ^ 2
  | true, none => (mapSize - 2 * rTop) ^ 2 - Real.pi * rMin ^ 2
  | true, some M => Real.pi * M ^ 2 - Real.pi * rMin ^ 2

theorem area_eq (mapSize rTop : ℝ) (applyMask : Bool) (rMin : ℝ) (rMax : Option ℝ) :
    areaOf applyMask rMin rMax (2 * (mapSize / 2 - rTop)) = Spec105.area mapSize rTop applyMask rMin rMax := by
  cases applyMask <;> cases rMax <;> simp [areaOf, Spec105.area] <;> ring

theorem foldl_max_eq (l : List ℝ) (a M : ℝ) (h : a = M ∨ M ∈ l) (ha : a ≤ M) (hl : ∀ x ∈ l, x ≤ M) : l.foldl max a = M := by
  induction l generalizing a with
  | nil => rcases h with h | h <;> simp_all
  | cons b t ih =>
    rw [List.foldl_cons]
    apply ih
    · rcases h with h | h
      · left; rw [h]; exact max_eq_left (hl b (by simp))
      · rcases List.mem_cons.1 h with h | h
        · left; rw [← h]; exact max_eq_right ha
        · right; exact h
    · exact max_le ha (hl b (by simp))
    · exact fun x hx => hl x (by simp [hx])

theorem foldl_min_eq (l : List ℝ) (a M : ℝ) (h : a = M ∨ M ∈ l) (ha : M ≤ a) (hl : ∀ x ∈ l, M ≤ x) : l.foldl min a = M := by
  induction l generalizing a with
  | nil => rcases h with h | h <;> simp_all
  | cons b t ih =>
    rw [List.foldl_cons]
    apply ih
    · rcases h with h | h
      · left; rw [h]; exact min_eq_left (hl b (by simp))
      · rcases List.mem_cons.1 h with h | h
        · left; rw [← h]; exact min_eq_right ha
        · right; exact h
    · exact le_min ha (hl b (by simp))
    · exact fun x hx => hl x (by simp [hx])

theorem maxOf_eq (l : List ℝ) (M : ℝ) (h : M ∈ l) (hl : ∀ x ∈ l, x ≤ M) : maxOf l = .ok M := by
  cases l with
  | nil => simp at h
  | cons a t =>
    simp only [maxOf]
    rw [foldl_max_eq t a M (by rcases List.mem_cons.1 h with h | h <;> tauto) (hl a (by simp)) fun x hx => hl x (by simp [hx])]

theorem minOf_eq (l : List ℝ) (M : ℝ) (h : M ∈ l) (hl : ∀ x ∈ l, M ≤ x) : minOf l = .ok M := by
  cases l with
  | nil => simp at h
  | cons a t =>
    simp only [minOf]
    rw [foldl_min_eq t a M (by rcases List.mem_cons.1 h with h | h <;> tauto) (hl a (by simp)) fun x hx => hl x (by simp [hx])]

theorem linspace_ends (a b : ℝ) (n : ℕ) (hn : 2 ≤ n) (h : a ≤ b) :
    a ∈ linspace a b n ∧ b ∈ linspace a b n ∧ ∀ x ∈ linspace a b n, a ≤ x ∧ x ≤ b := by
  have h1 : (0 : ℝ) < (n : ℝ) - 1 := by
    have : (2 : ℝ) ≤ n := by exact_mod_cast hn
    linarith
  simp only [linspace, List.mem_map, List.mem_range, if_neg (show ¬ n = 1 by omega)]
  refine ⟨⟨0, by omega, by simp⟩, ⟨n - 1, by omega, ?_⟩, ?_⟩
  · rw [Nat.cast_sub (by omega)]; push_cast; field_simp; ring
  · rintro x ⟨i, hi, rfl⟩
    have h2 : (i : ℝ) ≤ (n : ℝ) - 1 := by
      have : ((i + 1 : ℕ) : ℝ) ≤ n := by exact_mod_cast hi
      push_cast at this; linarith
    have h3 : (i : ℝ) * ((b - a) / ((n : ℝ) - 1)) = (i : ℝ) / ((n : ℝ) - 1) * (b - a) := by ring
    have h4 : (i : ℝ) / ((n : ℝ) - 1) ≤ 1 := by rw [div_le_one h1]; exact h2
    have h5 : 0 ≤ (i : ℝ) / ((n : ℝ) - 1) := by positivity
    rw [h3]
    constructor <;> nlinarith

theorem mask_eq (c x y rMin : ℝ) (rMax : Option ℝ) (hc : c = 0) : maskAnnular c c x y rMin rMax =
    if rMin < Real.sqrt (x ^ 2 + y ^ 2) ∧ ∀ M ∈ rMax, Real.sqrt (x ^ 2 + y ^ 2) < M then 1 else 0 := by
  subst hc
  unfold maskAnnular
  simp only [sub_zero, ← pow_two]
  cases rMax with
  | none =>
    by_cases h : Real.sqrt (x ^ 2 + y ^ 2) ≤ rMin
    · simp [h, not_lt.2 h]
    · simp [h, not_le.1 h]
  | some M =>
    by_cases h1 : M ≤ Real.sqrt (x ^ 2 + y ^ 2)
    · simp [h1, not_lt.2 h1]
    · by_cases h : Real.sqrt (x ^ 2 + y ^ 2) ≤ rMin
      · simp [h, not_lt.2 h]
      · simp [h, h1, not_le.1 h, not_le.1 h1]

theorem corr_form (S : Scipy) (κ : List (List ℝ)) (mapSize : ℝ) (r μ : List ℝ) (rTop : ℝ) (h : Spec105.Input κ mapSize r rTop)
    (applyMask : Bool) (rMin : ℝ) (rMax : Option ℝ) (nrm : Bool) :
    corrKappaWithMask S κ mapSize r μ applyMask rMin rMax nrm = .ok (r.map fun ri => μ.map fun μj =>
      corrEntry S (Spec105.grid κ.length mapSize rTop)
        (S.spline5 (Spec105.pixels κ.length mapSize) (Spec105.pixels κ.length mapSize) κ)
        (Spec105.mask S κ.length mapSize applyMask rMin rMax) (Spec105.area mapSize rTop applyMask rMin rMax) nrm ri μj) := by
  have hS := h.size
  have hn := h.pixels
  have hX := linspace_ends (-mapSize / 2) (mapSize / 2) κ.length (by omega) (by linarith)
  have e1 := maxOf_eq _ _ hX.2.1 fun x hx => (hX.2.2 x hx).2
  have e2 := minOf_eq _ _ hX.1 fun x hx => (hX.2.2 x hx).1
  have e3 := maxOf_eq _ _ h.top h.largest
  have hroom := h.room
  have hnpos : (0 : ℝ) < κ.length / (mapSize / 2) := by
    have : (0 : ℝ) < κ.length := by exact_mod_cast (by omega : 0 < κ.length)
    positivity
  have hhalf : 0 < mapSize / 2 - rTop := by
    by_contra hc
    push Not at hc
    nlinarith
  set N := κ.length / (mapSize / 2) * (mapSize / 2 - rTop) with hN
  have hfl : (2 : ℤ) ≤ ⌊N⌋ := Int.le_floor.2 (by exact_mod_cast hroom)
  have htr : truncInt N = ⌊N⌋ := by unfold truncInt; rw [if_pos (by linarith)]
  have hnat : (⌊N⌋).toNat = ⌊N⌋₊ := rfl
  have hg := linspace_ends (-(mapSize / 2 - rTop)) (mapSize / 2 - rTop) ⌊N⌋₊ (by rw [← hnat]; omega) (by linarith)
  have e4 := maxOf_eq _ _ hg.2.1 fun x hx => (hg.2.2 x hx).2
  have e5 := minOf_eq _ _ hg.1 fun x hx => (hg.2.2 x hx).1
  unfold corrKappaWithMask
  simp only
  rw [if_neg (not_not.2 h.square), e1, e2, e3]
  simp only [bind, Except.bind, pure, Except.pure]
  rw [if_neg (by linarith : ¬ mapSize / 2 = 0)]
  simp only [← hN, htr]
  rw [if_neg (by omega), if_neg (by omega), if_neg (by omega), hnat, e4, e5]
  simp only
  have em : (if applyMask = true then S.spline1 (linspace (-mapSize / 2) (mapSize / 2) κ.length)
      (linspace (-mapSize / 2) (mapSize / 2) κ.length) ((linspace (-mapSize / 2) (mapSize / 2) κ.length).map fun y =>
        (linspace (-mapSize / 2) (mapSize / 2) κ.length).map fun x =>
          maskAnnular ((mapSize / 2 + -mapSize / 2) / 2) ((mapSize / 2 + -mapSize / 2) / 2) x y rMin rMax)
      else fun _ _ => 1) = Spec105.mask S κ.length mapSize applyMask rMin rMax := by
    funext y x
    unfold Spec105.mask Spec105.pixels
    simp only [mask_eq _ _ _ _ _ (show (mapSize / 2 + -mapSize / 2) / 2 = 0 by ring)]
    split <;> rfl
  have ea : mapSize / 2 - rTop - -(mapSize / 2 - rTop) = 2 * (mapSize / 2 - rTop) := by ring
  rw [em, ea, area_eq]
  rfl

/-- No interpolated value of the mask that is read is exactly 0.9 (such values are neither set to zero nor to one). -/
def Spec105.NoTie (S : Scipy) (n : ℕ) (mapSize rTop : ℝ) (r μ : List ℝ) (applyMask : Bool) (rMin : ℝ) (rMax : Option ℝ) : Prop :=
  ∀ x ∈ Spec105.grid n mapSize rTop, ∀ y ∈ Spec105.grid n mapSize rTop, ∀ ri ∈ r, ∀ μj ∈ μ, ∀ s : ℝ, (s = 1 ∨ s = -1) →
    Spec105.mask S n mapSize applyMask rMin rMax (Spec105.point s ri μj x y).2 (Spec105.point s ri μj x y).1 ≠ 0.9

theorem noTie_unmasked (S : Scipy) (n : ℕ) (mapSize rTop : ℝ) (r μ : List ℝ) (rMin : ℝ) (rMax : Option ℝ) :
    Spec105.NoTie S n mapSize rTop r μ false rMin rMax := by
  intro x _ y _ ri _ μj _ s _
  simp [Spec105.mask]; norm_num

/-- The covariance, over the grid, of the map at the two points of each pair, counting only pairs of points that the mask leaves. `s`, `t`
say which point of the pair is meant. -/
noncomputable def Spec105.pairCov (S : Scipy) (κ : List (List ℝ)) (mapSize rTop : ℝ) (applyMask : Bool) (rMin : ℝ) (rMax : Option ℝ)
    (r μ s t : ℝ) : ℝ :=
  let K := S.spline5 (Spec105.pixels κ.length mapSize) (Spec105.pixels κ.length mapSize) κ
  let M := Spec105.mask S κ.length mapSize applyMask rMin rMax
  Spec105.cov (simps2 S (Spec105.grid κ.length mapSize rTop))
    (fun x y => Spec105.used (M (Spec105.point (-1) r μ x y).2 (Spec105.point (-1) r μ x y).1) *
      Spec105.used (M (Spec105.point 1 r μ x y).2 (Spec105.point 1 r μ x y).1))
    (fun x y => K (Spec105.point s r μ x y).2 (Spec105.point s r μ x y).1)
    (fun x y => K (Spec105.point t r μ x y).2 (Spec105.point t r μ x y).1)

/-- **C105**. The entry of the correlation function for a separation and a direction is the masked covariance of the map at pairs of points
divided by the area; with normalisation, the correlation coefficient. -/
theorem c105_covariance (S : Scipy) (κ : List (List ℝ)) (mapSize : ℝ) (r μ : List ℝ) (rTop : ℝ) (h : Spec105.Input κ mapSize r rTop)
    (applyMask : Bool) (rMin : ℝ) (rMax : Option ℝ) (nrm : Bool) (ht : Spec105.NoTie S κ.length mapSize rTop r μ applyMask rMin rMax) :
    let C := Spec105.pairCov S κ mapSize rTop applyMask rMin rMax
    let A := Spec105.area mapSize rTop applyMask rMin rMax
    corrKappaWithMask S κ mapSize r μ applyMask rMin rMax nrm = .ok (r.map fun ri => μ.map fun μj =>
      if nrm then C ri μj (-1) 1 / A / Real.sqrt (C ri μj (-1) (-1) / A * (C ri μj 1 1 / A)) else C ri μj (-1) 1 / A) := by
  intro C A
  rw [corr_form S κ mapSize r μ rTop h]
  congr 1
  apply List.map_congr_left
  intro ri hri
  apply List.map_congr_left
  intro μj hμj
  exact corrEntry_eq S _ _ _ _ nrm ri μj fun x hx y hy s hs => ht x hx y hy ri hri μj hμj s hs

/-- **C105**. The two points of a pair have the requested separation, lie symmetrically about the grid point, enclose the requested angle
with the direction from the centre of the map to the grid point, and lie within the map. -/
theorem c105_pairs (n : ℕ) (mapSize rTop r μ x y : ℝ) (hr : 0 ≤ r) (hrt : r ≤ rTop) (hμ : -1 ≤ μ ∧ μ ≤ 1)
    (hroom : 2 ≤ n / (mapSize / 2) * (mapSize / 2 - rTop)) (hS : 0 < mapSize)
    (hx : x ∈ Spec105.grid n mapSize rTop) (hy : y ∈ Spec105.grid n mapSize rTop) :
    let p := Spec105.point (-1) r μ x y
    let q := Spec105.point 1 r μ x y
    (q.1 - p.1) ^ 2 + (q.2 - p.2) ^ 2 = r ^ 2 ∧ (p.1 + q.1) / 2 = x ∧ (p.2 + q.2) / 2 = y ∧
    (q.1 - p.1) * x + (q.2 - p.2) * y = r * μ * Real.sqrt (x ^ 2 + y ^ 2) ∧
    (|p.1| ≤ mapSize / 2 ∧ |p.2| ≤ mapSize / 2) ∧ (|q.1| ≤ mapSize / 2 ∧ |q.2| ≤ mapSize / 2) := by
  intro p q
  set φ := Complex.arg ⟨x, y⟩ with hφ
  set s := Real.sqrt (1 - μ ^ 2) with hs
  have hs2 : s ^ 2 = 1 - μ ^ 2 := Real.sq_sqrt (by nlinarith)
  have hcs := Real.sin_sq_add_cos_sq φ
  have hnorm : ‖(⟨x, y⟩ : ℂ)‖ = Real.sqrt (x ^ 2 + y ^ 2) := by
    rw [Complex.norm_def, Complex.normSq_mk]; congr 1; ring
  have hc : Real.sqrt (x ^ 2 + y ^ 2) * Real.cos φ = x := by rw [← hnorm]; exact Complex.norm_mul_cos_arg _
  have hsn : Real.sqrt (x ^ 2 + y ^ 2) * Real.sin φ = y := by rw [← hnorm]; exact Complex.norm_mul_sin_arg _
  set dx := Real.cos φ * μ + Real.sin φ * s with hdx
  set dy := Real.sin φ * μ - Real.cos φ * s with hdy
  have hd : dx ^ 2 + dy ^ 2 = 1 := by
    rw [hdx, hdy]
    linear_combination (μ ^ 2 + s ^ 2) * hcs + hs2
  have hdot : dx * Real.cos φ + dy * Real.sin φ = μ := by
    rw [hdx, hdy]; linear_combination μ * hcs
  have p1 : p.1 = x - r / 2 * dx := by simp only [p, Spec105.point, offset, ← hφ, ← hs, hdx]; ring
  have p2 : p.2 = y - r / 2 * dy := by simp only [p, Spec105.point, offset, ← hφ, ← hs, hdy]; ring
  have q1 : q.1 = x + r / 2 * dx := by simp only [q, Spec105.point, offset, ← hφ, ← hs, hdx]; ring
  have q2 : q.2 = y + r / 2 * dy := by simp only [q, Spec105.point, offset, ← hφ, ← hs, hdy]; ring
  have hn0 : (0 : ℝ) ≤ n / (mapSize / 2) := by positivity
  have hhalf : 0 ≤ mapSize / 2 - rTop := by
    by_contra hc
    push Not at hc
    nlinarith
  have hnn : 2 ≤ ⌊n / (mapSize / 2) * (mapSize / 2 - rTop)⌋₊ := Nat.le_floor (by exact_mod_cast hroom)
  have hg := (linspace_ends (-(mapSize / 2 - rTop)) (mapSize / 2 - rTop) _ hnn (by linarith)).2.2
  have gx := hg x hx
  have gy := hg y hy
  have b1 : |dx| ≤ 1 := abs_le_one_iff_mul_self_le_one.2 (by nlinarith [sq_nonneg dy])
  have b2 : |dy| ≤ 1 := abs_le_one_iff_mul_self_le_one.2 (by nlinarith [sq_nonneg dx])
  rw [abs_le] at b1 b2
  rw [p1, p2, q1, q2]
  refine ⟨?_, by ring, by ring, ?_, ⟨?_, ?_⟩, ?_, ?_⟩
  · linear_combination r ^ 2 * hd
  · have : (x + r / 2 * dx - (x - r / 2 * dx)) * x + (y + r / 2 * dy - (y - r / 2 * dy)) * y = r * (dx * x + dy * y) := by ring
    rw [this]
    have e : dx * x + dy * y = Real.sqrt (x ^ 2 + y ^ 2) * μ := by
      rw [← hdot]
      linear_combination (-dx) * hc - dy * hsn
    rw [e]; ring
  all_goals
    have m1 := mul_le_mul_of_nonneg_left b1.1 hr
    have m2 := mul_le_mul_of_nonneg_left b1.2 hr
    have m3 := mul_le_mul_of_nonneg_left b2.1 hr
    have m4 := mul_le_mul_of_nonneg_left b2.2 hr
    clear hφ hs hdx hdy hd hdot hcs hs2 hc hsn hnorm p1 p2 q1 q2
    rw [abs_le]
    constructor <;> linarith

/-- What is assumed of scipy: Simpson's rule has non-negative weights on equidistant points, and interpolating splines of degree five
commute with adding a constant to all values and with multiplying them by one. -/
structure Spec105.Good (S : Scipy) : Prop where
  weights : ∀ a b n, a ≤ b → ∀ w ∈ S.weights (linspace a b n), 0 ≤ w
  shift : ∀ X κ, 6 ≤ κ.length → (∀ row ∈ κ, row.length = κ.length) → ∀ c y x,
    S.spline5 X X (κ.map fun row => row.map (· + c)) y x = S.spline5 X X κ y x + c
  scale : ∀ X κ, 6 ≤ κ.length → (∀ row ∈ κ, row.length = κ.length) → ∀ c y x,
    S.spline5 X X (κ.map fun row => row.map (c * ·)) y x = c * S.spline5 X X κ y x

theorem Spec105.Input.half {κ mapSize r rTop} (h : Spec105.Input κ mapSize r rTop) : 0 < mapSize / 2 - rTop := by
  have hS := h.size
  have hroom := h.room
  have hn0 : (0 : ℝ) ≤ κ.length / (mapSize / 2) := by positivity
  by_contra hc
  push Not at hc
  nlinarith

theorem grid_weights {S : Scipy} (hS : Spec105.Good S) {κ mapSize r rTop} (h : Spec105.Input κ mapSize r rTop) :
    ∀ w ∈ S.weights (Spec105.grid κ.length mapSize rTop), 0 ≤ w :=
  hS.weights _ _ _ (by linarith [h.half])

theorem used_nonneg (m : ℝ) : 0 ≤ Spec105.used m := by unfold Spec105.used; split <;> norm_num

theorem cov_add_const' {F} (hF : LinearSum F) (W a b : ℝ → ℝ → ℝ) (p q : ℝ)
    (hp : ∀ u : ℝ → ℝ → ℝ, 0 ≤ F (fun x y => W x y * (u x y * u x y))) :
    Spec105.cov F W (fun x y => a x y + p) (fun x y => b x y + q) = Spec105.cov F W a b := by
  by_cases h : F W = 0
  · have z : ∀ c : ℝ → ℝ → ℝ, F (fun x y => W x y * c x y) = 0 := by
      intro c
      have := cauchy hF W c (fun _ _ => 1) hp
      simp only [mul_one] at this
      rw [h, mul_zero] at this
      exact pow_eq_zero_iff (two_ne_zero) |>.1 (le_antisymm this (sq_nonneg _))
    simp only [Spec105.cov, z, h]
  · exact cov_add_const hF W a b p q h

theorem pairs_pos {S : Scipy} (hS : Spec105.Good S) {κ mapSize r rTop} (h : Spec105.Input κ mapSize r rTop) (M N : ℝ → ℝ → ℝ)
    (u : ℝ → ℝ → ℝ) : 0 ≤ simps2 S (Spec105.grid κ.length mapSize rTop)
      (fun x y => Spec105.used (M x y) * Spec105.used (N x y) * (u x y * u x y)) :=
  simps2_nonneg S _ (grid_weights hS h) _ fun _ _ _ _ =>
    mul_nonneg (mul_nonneg (used_nonneg _) (used_nonneg _)) (mul_self_nonneg _)

/-- **C105**. Adding a constant convergence to the whole map does not change the correlation function. -/
theorem c105_constant (S : Scipy) (hS : Spec105.Good S) (κ : List (List ℝ)) (mapSize : ℝ) (r μ : List ℝ) (rTop : ℝ)
    (h : Spec105.Input κ mapSize r rTop) (applyMask : Bool) (rMin : ℝ) (rMax : Option ℝ) (nrm : Bool)
    (ht : Spec105.NoTie S κ.length mapSize rTop r μ applyMask rMin rMax) (c : ℝ) :
    corrKappaWithMask S (κ.map fun row => row.map (· + c)) mapSize r μ applyMask rMin rMax nrm =
      corrKappaWithMask S κ mapSize r μ applyMask rMin rMax nrm := by
  have hl : (κ.map fun row => row.map (· + c)).length = κ.length := by simp
  have h' : Spec105.Input (κ.map fun row => row.map (· + c)) mapSize r rTop := by
    refine ⟨?_, by rw [hl]; exact h.pixels, h.size, h.top, h.largest, by rw [hl]; exact h.room⟩
    intro row hrow
    obtain ⟨q, hq, rfl⟩ := List.mem_map.1 hrow
    rw [hl, List.length_map]; exact h.square q hq
  rw [c105_covariance S _ mapSize r μ rTop h' applyMask rMin rMax nrm (by rw [hl]; exact ht),
    c105_covariance S κ mapSize r μ rTop h applyMask rMin rMax nrm ht]
  have key : ∀ ri μj s t, Spec105.pairCov S (κ.map fun row => row.map (· + c)) mapSize rTop applyMask rMin rMax ri μj s t =
      Spec105.pairCov S κ mapSize rTop applyMask rMin rMax ri μj s t := by
    intro ri μj s t
    unfold Spec105.pairCov
    simp only [hl, hS.shift _ κ h.pixels h.square]
    exact cov_add_const' (simps2_linear S _) _ _ _ c c fun u => pairs_pos hS h _ _ u
  simp only [key]

/-- **C105**. Multiplying the map by a factor multiplies the correlation function by its square, and leaves the normalised one as it is. -/
theorem c105_scale (S : Scipy) (hS : Spec105.Good S) (κ : List (List ℝ)) (mapSize : ℝ) (r μ : List ℝ) (rTop : ℝ)
    (h : Spec105.Input κ mapSize r rTop) (applyMask : Bool) (rMin : ℝ) (rMax : Option ℝ)
    (ht : Spec105.NoTie S κ.length mapSize rTop r μ applyMask rMin rMax) (c : ℝ) (hc : c ≠ 0) :
    (∃ corr, corrKappaWithMask S κ mapSize r μ applyMask rMin rMax false = .ok corr ∧
      corrKappaWithMask S (κ.map fun row => row.map (c * ·)) mapSize r μ applyMask rMin rMax false =
        .ok (corr.map fun row => row.map (c ^ 2 * ·))) ∧
    corrKappaWithMask S (κ.map fun row => row.map (c * ·)) mapSize r μ applyMask rMin rMax true =
      corrKappaWithMask S κ mapSize r μ applyMask rMin rMax true := by
  have hl : (κ.map fun row => row.map (c * ·)).length = κ.length := by simp
  have h' : Spec105.Input (κ.map fun row => row.map (c * ·)) mapSize r rTop := by
    refine ⟨?_, by rw [hl]; exact h.pixels, h.size, h.top, h.largest, by rw [hl]; exact h.room⟩
    intro row hrow
    obtain ⟨q, hq, rfl⟩ := List.mem_map.1 hrow
    rw [hl, List.length_map]; exact h.square q hq
  have key : ∀ ri μj s t, Spec105.pairCov S (κ.map fun row => row.map (c * ·)) mapSize rTop applyMask rMin rMax ri μj s t =
      c ^ 2 * Spec105.pairCov S κ mapSize rTop applyMask rMin rMax ri μj s t := by
    intro ri μj s t
    unfold Spec105.pairCov
    simp only [hl, hS.scale _ κ h.pixels h.square]
    rw [cov_scale (simps2_linear S _), pow_two]
  refine ⟨⟨_, c105_covariance S κ mapSize r μ rTop h applyMask rMin rMax false ht, ?_⟩, ?_⟩
  · rw [c105_covariance S _ mapSize r μ rTop h' applyMask rMin rMax false (by rw [hl]; exact ht)]
    simp [key, Function.comp_def, mul_div_assoc]
  · rw [c105_covariance S _ mapSize r μ rTop h' applyMask rMin rMax true (by rw [hl]; exact ht),
      c105_covariance S κ mapSize r μ rTop h applyMask rMin rMax true ht]
    simp only [key, if_true]
    have hc2 : 0 < c ^ 2 := by positivity
    congr 1
    apply List.map_congr_left
    intro ri _
    apply List.map_congr_left
    intro μj _
    have e : ∀ A C D E : ℝ, c ^ 2 * C / A / Real.sqrt (c ^ 2 * D / A * (c ^ 2 * E / A)) = C / A / Real.sqrt (D / A * (E / A)) := by
      intro A C D E
      have : c ^ 2 * D / A * (c ^ 2 * E / A) = (D / A * (E / A)) * (c ^ 2) ^ 2 := by ring
      rw [this, Real.sqrt_mul' _ (sq_nonneg _), Real.sqrt_sq hc2.le, mul_div_assoc, mul_comm (Real.sqrt _), mul_div_mul_left _ _ hc2.ne']
    exact e _ _ _ _

/-- **C105**. The normalised correlation function lies between minus one and one. -/
theorem c105_bounded (S : Scipy) (hS : Spec105.Good S) (κ : List (List ℝ)) (mapSize : ℝ) (r μ : List ℝ) (rTop : ℝ)
    (h : Spec105.Input κ mapSize r rTop) (applyMask : Bool) (rMin : ℝ) (rMax : Option ℝ)
    (ht : Spec105.NoTie S κ.length mapSize rTop r μ applyMask rMin rMax) :
    ∃ corr, corrKappaWithMask S κ mapSize r μ applyMask rMin rMax true = .ok corr ∧ ∀ row ∈ corr, ∀ v ∈ row, |v| ≤ 1 := by
  refine ⟨_, c105_covariance S κ mapSize r μ rTop h applyMask rMin rMax true ht, ?_⟩
  intro row hrow v hv
  obtain ⟨ri, -, rfl⟩ := List.mem_map.1 hrow
  obtain ⟨μj, -, rfl⟩ := List.mem_map.1 hv
  simp only [if_true]
  rw [abs_div, abs_of_nonneg (Real.sqrt_nonneg _)]
  apply div_le_one_of_le₀ _ (Real.sqrt_nonneg _)
  apply Real.le_sqrt_of_sq_le
  rw [sq_abs]
  have := cov_sq_le (simps2_linear S (Spec105.grid κ.length mapSize rTop)) _
    (fun x y => S.spline5 (Spec105.pixels κ.length mapSize) (Spec105.pixels κ.length mapSize) κ
      (Spec105.point (-1) ri μj x y).2 (Spec105.point (-1) ri μj x y).1)
    (fun x y => S.spline5 (Spec105.pixels κ.length mapSize) (Spec105.pixels κ.length mapSize) κ
      (Spec105.point 1 ri μj x y).2 (Spec105.point 1 ri μj x y).1)
    fun u => pairs_pos hS h
      (fun x y => Spec105.mask S κ.length mapSize applyMask rMin rMax (Spec105.point (-1) ri μj x y).2 (Spec105.point (-1) ri μj x y).1)
      (fun x y => Spec105.mask S κ.length mapSize applyMask rMin rMax (Spec105.point 1 ri μj x y).2 (Spec105.point 1 ri μj x y).1) u
  have key : Spec105.pairCov S κ mapSize rTop applyMask rMin rMax ri μj (-1) 1 ^ 2 ≤
      Spec105.pairCov S κ mapSize rTop applyMask rMin rMax ri μj (-1) (-1) *
        Spec105.pairCov S κ mapSize rTop applyMask rMin rMax ri μj 1 1 := this
  set A := Spec105.area mapSize rTop applyMask rMin rMax
  rw [div_pow, div_mul_div_comm, ← pow_two A]
  exact div_le_div_of_nonneg_right key (sq_nonneg A)

theorem point_zero (s μ x y : ℝ) : Spec105.point s 0 μ x y = (x, y) := by
  simp [Spec105.point, offset]

/-- **C105**. At separation zero the correlation function is the variance of the map over the area, and the normalised one is the sign of
the area: one if the area is positive. -/
theorem c105_zero_separation (S : Scipy) (κ : List (List ℝ)) (mapSize : ℝ) (r : List ℝ) (rTop : ℝ)
    (h : Spec105.Input κ mapSize r rTop) (applyMask : Bool) (rMin : ℝ) (rMax : Option ℝ) (μ : List ℝ)
    (ht : Spec105.NoTie S κ.length mapSize rTop r μ applyMask rMin rMax) (i j : ℕ) (hi : r[i]? = some 0) (m : ℝ) (hj : μ[j]? = some m)
    (hv : 0 < Spec105.pairCov S κ mapSize rTop applyMask rMin rMax 0 m 1 1) :
    ∃ corr, corrKappaWithMask S κ mapSize r μ applyMask rMin rMax true = .ok corr ∧
      (0 < Spec105.area mapSize rTop applyMask rMin rMax → ∃ row, corr[i]? = some row ∧ row[j]? = some 1) ∧
      (Spec105.area mapSize rTop applyMask rMin rMax < 0 → ∃ row, corr[i]? = some row ∧ row[j]? = some (-1)) := by
  refine ⟨_, c105_covariance S κ mapSize r μ rTop h applyMask rMin rMax true ht, ?_⟩
  have e : ∀ s t, Spec105.pairCov S κ mapSize rTop applyMask rMin rMax 0 m s t =
      Spec105.pairCov S κ mapSize rTop applyMask rMin rMax 0 m 1 1 := by
    intro s t; unfold Spec105.pairCov; simp only [point_zero]
  set V := Spec105.pairCov S κ mapSize rTop applyMask rMin rMax 0 m 1 1 with hV
  set A := Spec105.area mapSize rTop applyMask rMin rMax
  constructor
  · intro hA
    refine ⟨_, by rw [List.getElem?_map, hi]; rfl, ?_⟩
    rw [List.getElem?_map, hj]
    simp only [Option.map_some, if_true, e (-1) 1, e (-1) (-1), ← hV]
    rw [Real.sqrt_mul_self (by positivity), div_self (by positivity)]
  · intro hA
    refine ⟨_, by rw [List.getElem?_map, hi]; rfl, ?_⟩
    rw [List.getElem?_map, hj]
    simp only [Option.map_some, if_true, e (-1) 1, e (-1) (-1), ← hV]
    have hneg : V / A < 0 := div_neg_of_pos_of_neg hv hA
    rw [Real.sqrt_mul_self_eq_abs, abs_of_neg hneg, div_neg, div_self hneg.ne]

/-- **C105** (what the code does with a large inner radius and no outer one). The area is negative as soon as the excluded disc is larger
than the square of grid points, although the mask leaves pixels outside of the disc; by `c105_zero_separation` the map is then fully
anticorrelated with itself. -/
theorem c105_negative_area (mapSize rTop rMin : ℝ) :
    Spec105.area mapSize rTop true rMin none < 0 ↔ (mapSize - 2 * rTop) ^ 2 < Real.pi * rMin ^ 2 := by
  unfold Spec105.area
  rw [sub_neg]

/-- The defaults for a map of three arcseconds and separations up to one: the area is negative. -/
example : Spec105.area 3 1.2 true 0.5 none < 0 := by
  rw [c105_negative_area]
  nlinarith [Real.pi_gt_three]

/-- **C105**. The mask selects the annulus: a pixel counts if and only if its distance from the centre is larger than the inner radius and
smaller than the outer one, if there is one. -/
theorem c105_mask (cx cy x y rMin : ℝ) (rMax : Option ℝ) :
    maskAnnular cx cy x y rMin rMax = if rMin < Real.sqrt ((x - cx) ^ 2 + (y - cy) ^ 2) ∧
      ∀ M ∈ rMax, Real.sqrt ((x - cx) ^ 2 + (y - cy) ^ 2) < M then 1 else 0 := by
  have := mask_eq 0 (x - cx) (y - cy) rMin rMax rfl
  rw [← this]
  simp [maskAnnular]

example : maskAnnular 0 0 0.6 0.8 0.5 (some 1.5) = 1 ∧ maskAnnular 0 0 0.6 0.8 1 (some 1.5) = 0 ∧
    maskAnnular 0 0 0.6 0.8 0.5 (some 1) = 0 := by
  have e : Real.sqrt ((0.6 - 0) ^ 2 + (0.8 - 0) ^ 2) = 1 := by norm_num
  refine ⟨?_, ?_, ?_⟩ <;> rw [c105_mask, e] <;> norm_num

/-- **C105**. Maps that are not square are refused, and so are separations larger than half of the map, or smaller by less than a
pixel. -/
theorem c105_refused (S : Scipy) (κ : List (List ℝ)) (mapSize : ℝ) (r μ : List ℝ) (applyMask : Bool) (rMin : ℝ) (rMax : Option ℝ)
    (nrm : Bool) :
    ((∃ row ∈ κ, row.length ≠ κ.length) →
      corrKappaWithMask S κ mapSize r μ applyMask rMin rMax nrm = .error .assertionError) ∧
    ((∀ row ∈ κ, row.length = κ.length) → 2 ≤ κ.length → 0 < mapSize → ∀ rTop ∈ r, (∀ a ∈ r, a ≤ rTop) →
      κ.length / (mapSize / 2) * (mapSize / 2 - rTop) ≤ -1 →
      ∃ e, corrKappaWithMask S κ mapSize r μ applyMask rMin rMax nrm = .error (.valueError e)) ∧
    ((∀ row ∈ κ, row.length = κ.length) → 2 ≤ κ.length → 0 < mapSize → ∀ rTop ∈ r, (∀ a ∈ r, a ≤ rTop) →
      -1 < κ.length / (mapSize / 2) * (mapSize / 2 - rTop) → κ.length / (mapSize / 2) * (mapSize / 2 - rTop) < 1 →
      corrKappaWithMask S κ mapSize r μ applyMask rMin rMax nrm = .error .indexError) := by
  refine ⟨?_, ?_, ?_⟩
  · rintro ⟨row, h1, h2⟩
    unfold corrKappaWithMask
    simp only
    rw [if_pos (by push Not; exact ⟨row, h1, h2⟩)]
  · intro hsq hn hS rTop hr hl hneg
    have hX := linspace_ends (-mapSize / 2) (mapSize / 2) κ.length hn (by linarith)
    have e1 := maxOf_eq _ _ hX.2.1 fun x hx => (hX.2.2 x hx).2
    have e2 := minOf_eq _ _ hX.1 fun x hx => (hX.2.2 x hx).1
    have e3 := maxOf_eq _ _ hr hl
    unfold corrKappaWithMask
    simp only
    rw [if_neg (not_not.2 hsq), e1, e2, e3]
    simp only [bind, Except.bind]
    rw [if_neg (by linarith : ¬ mapSize / 2 = 0)]
    have : truncInt (κ.length / (mapSize / 2) * (mapSize / 2 - rTop)) < 0 := by
      unfold truncInt
      rw [if_neg (by linarith)]
      have : ⌈(κ.length : ℝ) / (mapSize / 2) * (mapSize / 2 - rTop)⌉ ≤ -1 := Int.ceil_le.2 (by exact_mod_cast hneg)
      omega
    rw [if_pos this]
    exact ⟨_, rfl⟩
  · intro hsq hn hS rTop hr hl hneg hpos
    have hX := linspace_ends (-mapSize / 2) (mapSize / 2) κ.length hn (by linarith)
    have e1 := maxOf_eq _ _ hX.2.1 fun x hx => (hX.2.2 x hx).2
    have e2 := minOf_eq _ _ hX.1 fun x hx => (hX.2.2 x hx).1
    have e3 := maxOf_eq _ _ hr hl
    unfold corrKappaWithMask
    simp only
    rw [if_neg (not_not.2 hsq), e1, e2, e3]
    simp only [bind, Except.bind]
    rw [if_neg (by linarith : ¬ mapSize / 2 = 0)]
    have : truncInt (κ.length / (mapSize / 2) * (mapSize / 2 - rTop)) = 0 := by
      unfold truncInt
      split
      · rw [Int.floor_eq_iff]; push_cast; constructor <;> linarith
      · rw [Int.ceil_eq_iff]; push_cast; constructor <;> linarith
    rw [this]
    simp

/-! ### A concrete case -/

/-- Interpolation by one of the first six pixels, for the examples. -/
noncomputable def Spec105.pick (κ : List (List ℝ)) (y x : ℝ) : ℝ := (κ.getD (min 5 ⌊y⌋₊) []).getD (min 5 ⌊x⌋₊) 0

/-- A rectangle rule and an interpolation by single pixels, for the examples. -/
noncomputable def Spec105.simple : Scipy where
  spline5 _ _ κ y x := Spec105.pick κ y x
  spline1 _ _ κ y x := Spec105.pick κ y x
  weights x := x.map fun _ => 1

theorem pick_map (f : ℝ → ℝ) (κ : List (List ℝ)) (h : 6 ≤ κ.length) (hs : ∀ row ∈ κ, row.length = κ.length) (y x : ℝ) :
    Spec105.pick (κ.map fun row => row.map f) y x = f (Spec105.pick κ y x) := by
  unfold Spec105.pick
  have h1 : min 5 ⌊y⌋₊ < κ.length := by omega
  have h2 : min 5 ⌊x⌋₊ < (κ[min 5 ⌊y⌋₊]'h1).length := by
    rw [hs _ (List.getElem_mem h1)]; omega
  simp [List.getD_eq_getElem?_getD, List.getElem?_eq_getElem h1, List.getElem?_eq_getElem h2]

theorem simple_good : Spec105.Good Spec105.simple where
  weights := by
    intro a b n _ w hw
    simp [Spec105.simple] at hw
    rw [hw.2]; norm_num
  shift := fun X κ h hs c y x => pick_map (· + c) κ h hs y x
  scale := fun X κ h hs c y x => pick_map (c * ·) κ h hs y x

/-- A map of 100 pixels a side, 20 arcseconds wide. -/
noncomputable def Spec105.map : List (List ℝ) :=
  (List.range 100).map fun i => (List.range 100).map fun j => (i : ℝ) + 2 * j

theorem map_input : Spec105.Input Spec105.map 20 [0, 1, 2] 2 := by
  refine ⟨?_, by simp [Spec105.map], by norm_num, by simp, by simp, by simp [Spec105.map]; norm_num⟩
  intro row hrow
  simp only [Spec105.map, List.mem_map] at hrow
  obtain ⟨i, -, rfl⟩ := hrow
  simp [Spec105.map]

example := c105_covariance Spec105.simple Spec105.map 20 [0, 1, 2] [-1, 0, 1] 2 map_input false 0.5 none true (noTie_unmasked _ _ _ _ _ _ _ _)

example := c105_constant Spec105.simple simple_good Spec105.map 20 [0, 1, 2] [-1, 0, 1] 2 map_input false 0.5 none true
  (noTie_unmasked _ _ _ _ _ _ _ _) 3

example := c105_scale Spec105.simple simple_good Spec105.map 20 [0, 1, 2] [-1, 0, 1] 2 map_input false 0.5 none
  (noTie_unmasked _ _ _ _ _ _ _ _) (-2) (by norm_num)

/-- Masked: no value of the interpolated mask is 0.9, since this interpolation takes the values zero and one. -/
example := c105_bounded Spec105.simple simple_good Spec105.map 20 [0, 1, 2] [-1, 0, 1] 2 map_input true 0.5 (some 4) (by
  intro x _ y _ ri _ μj _ s _
  simp only [Spec105.mask, if_true, Spec105.simple, Spec105.pick]
  simp only [List.getD_eq_getElem?_getD]
  rw [List.getElem?_map]
  cases (Spec105.pixels Spec105.map.length 20)[min 5 ⌊(Spec105.point s ri μj x y).2⌋₊]? with
  | none => simp; norm_num
  | some v =>
    simp only [Option.map_some, Option.getD_some]
    rw [List.getElem?_map]
    cases (Spec105.pixels Spec105.map.length 20)[min 5 ⌊(Spec105.point s ri μj x y).1⌋₊]? with
    | none => simp; norm_num
    | some w => simp only [Option.map_some, Option.getD_some]; split <;> norm_num)

/-- A map of six pixels a side, six arcseconds wide, with two grid points a side. -/
noncomputable def Spec105.small : List (List ℝ) :=
  (List.range 6).map fun i => (List.range 6).map fun j => (i : ℝ) + 2 * j

theorem small_input : Spec105.Input Spec105.small 6 [0, 2] 2 := by
  refine ⟨?_, by simp [Spec105.small], by norm_num, by simp, by simp, by simp [Spec105.small]; norm_num⟩
  intro row hrow
  simp only [Spec105.small, List.mem_map] at hrow
  obtain ⟨i, -, rfl⟩ := hrow
  simp [Spec105.small]

theorem small_grid : Spec105.grid Spec105.small.length 6 2 = [-1, 1] := by
  have : Spec105.small.length = 6 := by simp [Spec105.small]
  rw [this]
  unfold Spec105.grid
  norm_num [linspace, List.range_succ]

/-- The values at the four grid points are 0, 2, 1 and 3. -/
theorem small_variance : 0 < Spec105.pairCov Spec105.simple Spec105.small 6 2 false 0.5 none 0 1 1 1 := by
  unfold Spec105.pairCov
  rw [small_grid]
  simp only [point_zero]
  have e : min 5 ⌊(-1 : ℝ)⌋₊ = 0 := by rw [Nat.floor_of_nonpos (by norm_num)]; rfl
  simp [e, Spec105.cov, simps2, simps, Spec105.simple, Spec105.mask, Spec105.used, Spec105.pick, Spec105.small, List.range_succ]
  norm_num

example := c105_zero_separation Spec105.simple Spec105.small 6 [0, 2] 2 small_input false 0.5 none [0, 1] (noTie_unmasked _ _ _ _ _ _ _ _)
  0 1 rfl 1 rfl small_variance

example (x y : ℝ) (hx : x ∈ Spec105.grid 100 20 2) (hy : y ∈ Spec105.grid 100 20 2) :=
  c105_pairs 100 20 2 1 (1 / 2) x y (by norm_num) (by norm_num) (by norm_num) (by norm_num) (by norm_num) hx hy

example : ∃ e, corrKappaWithMask Spec105.simple Spec105.map 20 [11] [0] false 0.5 none false = .error (.valueError e) :=
  (c105_refused Spec105.simple Spec105.map 20 [11] [0] false 0.5 none false).2.1 map_input.square (by simp [Spec105.map]) (by norm_num) 11
    (by simp) (by simp) (by simp [Spec105.map]; norm_num)

example : corrKappaWithMask Spec105.simple Spec105.map 20 [10] [0] false 0.5 none false = .error .indexError :=
  (c105_refused Spec105.simple Spec105.map 20 [10] [0] false 0.5 none false).2.2 map_input.square (by simp [Spec105.map]) (by norm_num) 10
    (by simp) (by simp) (by norm_num) (by norm_num)

end PyHalo.Props
