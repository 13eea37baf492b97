import Verif.Lemmas.Sampling
import Verif.Lemmas.Render
import Mathlib.Topology.ContinuousOn
import Mathlib.Topology.Algebra.Order.LiminfLimsup
import Mathlib.Topology.Algebra.Order.Field

/-! # Spatial distributions and rendering geometry (C21, C22, C57, C58) -/

namespace PyHalo.Props
open PyHalo Np Spec

/-! ### Uniform placement -/

/-- **C21.** Every position drawn by the uniform distribution lies within the rendering radius of
the centre: distances in kpc are at most `rmax · rescale · kpc/arcsec`; and as many positions are
drawn as asked for. -/
theorem c21_uniform_in_disc (rmax kpc rescale cx cy : ℝ) (N : ℕ) (u v : ℕ → ℝ)
    (hv : ∀ i, 0 ≤ v i ∧ v i ≤ 1) :
    (uniformDraw rmax kpc rescale cx cy N u v).1.length = N ∧
    (uniformDraw rmax kpc rescale cx cy N u v).2.length = N ∧
    ∀ p ∈ (uniformDraw rmax kpc rescale cx cy N u v).1.zip (uniformDraw rmax kpc rescale cx cy N u v).2,
      (p.1 - cx * kpc) ^ 2 + (p.2 - cy * kpc) ^ 2 ≤ (rmax * rescale * kpc) ^ 2 := by
  unfold uniformDraw
  by_cases hN : N = 0
  · simp [hN]
  · rw [if_neg hN]
    refine ⟨by simp, by simp, ?_⟩
    intro p hp
    simp only [List.zip_map', List.mem_map] at hp
    obtain ⟨i, _, rfl⟩ := hp
    have hs : Real.sqrt ((rmax * rescale) ^ 2 * v i) ^ 2 = (rmax * rescale) ^ 2 * v i :=
      Real.sq_sqrt (mul_nonneg (sq_nonneg _) (hv i).1)
    have hcs := Real.cos_sq_add_sin_sq (2 * Real.pi * u i)
    simp only
    generalize Real.sqrt ((rmax * rescale) ^ 2 * v i) = s at *
    generalize Real.cos (2 * Real.pi * u i) = c at *
    generalize Real.sin (2 * Real.pi * u i) = d at *
    have : ((s * c + cx) * kpc - cx * kpc) ^ 2 + ((s * d + cy) * kpc - cy * kpc) ^ 2
        = s ^ 2 * kpc ^ 2 * (c ^ 2 + d ^ 2) := by ring
    rw [this, hcs, hs]
    have h1 := (hv i).2
    have h2 : 0 ≤ (rmax * rescale) ^ 2 * kpc ^ 2 := by positivity
    nlinarith

example := c21_uniform_in_disc 3 5 0.8 0.1 0.2 4 (fun _ => 0.3) (fun _ => 0.6) (fun _ => by norm_num)

/-- **C21, on the sky.** After the conversion to arcseconds done by the rendering classes, halos of
a line-of-sight population lie within half the opening angle times the rendering scale of their
plane. -/
theorem c21_cone_in_disc_arcsec (angle : ℝ) (kpc scale : ℝ → ℝ) (u v : ℕ → ℕ → ℝ) (k n : ℕ) (z : ℝ)
    (hk : kpc z ≠ 0) (hv : ∀ k i, 0 ≤ v k i ∧ v k i ≤ 1) :
    ∃ x y, renderPositionsAtZ
        (fun k n z => .ok (lensConeDraw angle (kpc z) (scale z) 0 0 n (u k) (v k))) kpc k z n
        = .ok (x, y) ∧ x.length = n ∧ y.length = n ∧
      ∀ p ∈ x.zip y, p.1 ^ 2 + p.2 ^ 2 ≤ (0.5 * angle * scale z) ^ 2 := by
  by_cases hn : n = 0
  · refine ⟨[], [], ?_, by simp [hn], by simp [hn], by simp⟩
    simp [renderPositionsAtZ, lensConeDraw, hn, bind, Except.bind, pure, Except.pure]
  · obtain ⟨h1, h2, h3⟩ := c21_uniform_in_disc (0.5 * angle) (kpc z) (scale z) 0 0 n (u k) (v k) (hv k)
    have hpos : ((lensConeDraw angle (kpc z) (scale z) 0 0 n (u k) (v k)).1.length > 0) := by
      rw [lensConeDraw, if_neg hn, h1]; omega
    refine ⟨(lensConeDraw angle (kpc z) (scale z) 0 0 n (u k) (v k)).1.map (· * (kpc z)⁻¹),
      (lensConeDraw angle (kpc z) (scale z) 0 0 n (u k) (v k)).2.map (· * (kpc z)⁻¹), by
      simp only [renderPositionsAtZ, bind, Except.bind, if_pos hpos, pure, Except.pure], ?_, ?_, ?_⟩
    · simp [lensConeDraw, if_neg hn, h1]
    · simp [lensConeDraw, if_neg hn, h2]
    · intro p hp
      simp only [lensConeDraw, if_neg hn] at hp
      rw [List.zip_map, List.mem_map] at hp
      obtain ⟨q, hq, rfl⟩ := hp
      have := h3 q hq
      simp only [Prod.map, zero_mul, sub_zero] at this ⊢
      have hkk : 0 < kpc z ^ 2 := by positivity
      have e : (q.1 * (kpc z)⁻¹) ^ 2 + (q.2 * (kpc z)⁻¹) ^ 2 = (q.1 ^ 2 + q.2 ^ 2) / kpc z ^ 2 := by
        field_simp
      rw [e, div_le_iff₀ hkk]
      calc _ ≤ _ := this
        _ = _ := by ring

example := c21_cone_in_disc_arcsec 6 (fun _ => 5) (fun _ => 0.8) (fun _ _ => 0.3) (fun _ _ => 0.6) 0 3 0.5 (by norm_num)
  (fun _ _ => by norm_num)

/-- The uniform distributions return as many positions as asked for: this discharges the assumption
of the alignment theorems of C16. -/
theorem c21_uniform_draws_n (angle : ℝ) (kpc scale : ℝ → ℝ) (u v : ℕ → ℕ → ℝ) :
    DrawsN (fun k n z => .ok (lensConeDraw angle (kpc z) (scale z) 0 0 n (u k) (v k))) := by
  intro k n z p h
  injection h with h
  rw [← h]
  unfold lensConeDraw uniformDraw
  by_cases hn : n = 0
  · simp [hn]
  · simp [hn]

/-- **C21, equal areas.** The squared distance from the centre is the variate times the squared
radius: the fraction of the disc inside the drawn position is the uniform variate. -/
theorem c21_equal_area (rmax kpc rescale cx cy : ℝ) (N : ℕ) (u v : ℕ → ℝ) (hv : ∀ i, 0 ≤ v i)
    (i : ℕ) (hi : i < N) :
    ∃ x y, (uniformDraw rmax kpc rescale cx cy N u v).1[i]? = some x ∧
      (uniformDraw rmax kpc rescale cx cy N u v).2[i]? = some y ∧
      (x - cx * kpc) ^ 2 + (y - cy * kpc) ^ 2 = v i * (rmax * rescale * kpc) ^ 2 := by
  have hN : N ≠ 0 := by omega
  unfold uniformDraw
  rw [if_neg hN]
  refine ⟨_, _, by simp [hi]; rfl, by simp [hi]; rfl, ?_⟩
  have hs : Real.sqrt ((rmax * rescale) ^ 2 * v i) ^ 2 = (rmax * rescale) ^ 2 * v i :=
    Real.sq_sqrt (mul_nonneg (sq_nonneg _) (hv i))
  have hcs := Real.cos_sq_add_sin_sq (2 * Real.pi * u i)
  generalize Real.sqrt ((rmax * rescale) ^ 2 * v i) = s at *
  generalize Real.cos (2 * Real.pi * u i) = c at *
  generalize Real.sin (2 * Real.pi * u i) = d at *
  have : ((s * c + cx) * kpc - cx * kpc) ^ 2 + ((s * d + cy) * kpc - cy * kpc) ^ 2
      = s ^ 2 * kpc ^ 2 * (c ^ 2 + d ^ 2) := by ring
  rw [this, hcs, hs]
  ring

example := c21_equal_area 3 5 0.8 0.1 0.2 4 (fun _ => 0.3) (fun _ => 0.6) (fun _ => by norm_num) 2 (by norm_num)

example : ∀ i : ℕ, 0 ≤ (fun i : ℕ => (1 : ℝ) / (i + 2)) i ∧ (fun i : ℕ => (1 : ℝ) / (i + 2)) i ≤ 1 := by
  intro i
  have : (0 : ℝ) ≤ i := Nat.cast_nonneg i
  refine ⟨by positivity, ?_⟩
  rw [div_le_one (by positivity)]
  linarith

/-! ### Projected NFW -/

theorem linspace_spec (a b : ℝ) (n : ℕ) (h : a < b) :
    (linspace a b (n + 2)).length = n + 2 ∧ (linspace a b (n + 2)).Pairwise (· < ·) ∧
    (linspace a b (n + 2)).head? = some a ∧ (∀ x ∈ linspace a b (n + 2), a ≤ x ∧ x ≤ b) := by
  have hne : ¬ (n + 2 = 1) := by omega
  have hpos : (0 : ℝ) < (((n + 2 : ℕ) : ℝ) - 1) := by push_cast; linarith [(Nat.cast_nonneg n : (0:ℝ) ≤ n)]
  have hstep : 0 < (b - a) / (((n + 2 : ℕ) : ℝ) - 1) := div_pos (by linarith) hpos
  refine ⟨by simp [linspace], ?_, ?_, ?_⟩
  · unfold linspace
    simp only [if_neg hne]
    rw [List.pairwise_map]
    apply List.pairwise_lt_range.imp
    intro i j hij
    have : (i : ℝ) < j := by exact_mod_cast hij
    nlinarith
  · unfold linspace
    simp only [if_neg hne]
    rw [List.range_succ_eq_map]
    simp
  · intro x hx
    unfold linspace at hx
    simp only [if_neg hne] at hx
    obtain ⟨i, hi, rfl⟩ := List.mem_map.1 hx
    rw [List.mem_range] at hi
    have h0 : (0 : ℝ) ≤ i := Nat.cast_nonneg i
    have h1 : (i : ℝ) ≤ ((n + 2 : ℕ) : ℝ) - 1 := by
      have : i + 1 ≤ n + 2 := hi
      have : ((i + 1 : ℕ) : ℝ) ≤ ((n + 2 : ℕ) : ℝ) := by exact_mod_cast this
      push_cast at this ⊢
      linarith
    constructor
    · nlinarith
    · have : (i : ℝ) * ((b - a) / (((n + 2 : ℕ) : ℝ) - 1)) ≤ b - a := by
        rw [mul_div_assoc', div_le_iff₀ hpos]
        nlinarith
      linarith

theorem shellTable_spec (k : ℕ) (hk : k ≠ 0) (f : ℝ → ℝ) : ∀ (x : List ℝ), x.Pairwise (· < ·) →
    (∀ r ∈ x, 0 ≤ r) → (∀ r ∈ x, 0 < f r) →
    (shellTable k x (x.map f)).length = x.length - 1 ∧ ∀ v ∈ shellTable k x (x.map f), 0 < v
  | [], _, _, _ => by simp [shellTable]
  | [a], _, _, _ => by simp [shellTable]
  | a :: b :: t, hp, h0, hf => by
    rw [List.pairwise_cons] at hp
    obtain ⟨h1, h2⟩ := shellTable_spec k hk f (b :: t) hp.2 (fun r hr => h0 r (by simp [List.mem_cons.1 hr]))
      (fun r hr => hf r (by simp [List.mem_cons.1 hr]))
    simp only [List.map_cons, shellTable] at h1 h2 ⊢
    refine ⟨by simp [h1], ?_⟩
    intro v hv
    rcases List.mem_cons.1 hv with rfl | hv
    · apply mul_pos (hf a (by simp))
      rw [sub_pos]
      exact pow_lt_pow_left₀ (hp.1 b (by simp)) (h0 a (by simp)) hk
    · exact h2 v hv

/-- One radial sample of the projected NFW distribution. -/
theorem radial_sample (k : ℕ) (hk : k ≠ 0) (f : ℝ → ℝ) (lo hi : ℝ) (h0 : 0 ≤ lo) (h : lo < hi)
    (hf : ∀ r, 0 ≤ r → 0 < f r) (N : ℕ) (u : ℕ → ℝ) (hu : ∀ i, 0 ≤ u i ∧ u i ≤ 1) :
    ∃ r : ℕ → ℝ, inverseTransform (linspace lo hi 20000).dropLast
        (shellTable k (linspace lo hi 20000) ((linspace lo hi 20000).map f)) N u
        = .ok ((List.range N).map r) ∧
      ∀ i, lo ≤ r i ∧ r i ≤ hi ∧ (0 < u i → lo < r i) ∧ (u i = 0 → r i = lo) := by
  obtain ⟨l1, l2, l3, l4⟩ := linspace_spec lo hi 19998 h
  norm_num at l1 l2 l3 l4
  set x := linspace lo hi 20000 with hx
  obtain ⟨s1, s2⟩ := shellTable_spec k hk f x l2 (fun r hr => h0.trans (l4 r hr).1)
    (fun r hr => hf r (h0.trans (l4 r hr).1))
  have hdl : x.dropLast.length = 19999 := by simp [l1]
  have hne : x.dropLast ≠ [] := by intro hc; rw [hc] at hdl; simp at hdl
  obtain ⟨b, hb⟩ : ∃ b, x.dropLast.getLast? = some b := ⟨_, List.getLast?_eq_some_getLast hne⟩
  have hhead : x.dropLast.head? = some lo := by
    match hx' : x, l1, l3 with
    | [], h, _ => simp at h
    | [_], h, _ => simp at h
    | p :: q :: t, _, h => simpa using h
  have hbmem : b ∈ x := List.dropLast_subset _ (List.mem_of_getLast? hb)
  obtain ⟨r, r1, r2⟩ := inverseTransform_spec x.dropLast (shellTable k x (x.map f)) N u lo b
    (by rw [hdl, s1, l1]) (l2.sublist (List.dropLast_sublist x)) s2 hhead hb (by omega) hu
  refine ⟨r, r1, fun i => ?_⟩
  obtain ⟨q1, q2, q3, q4⟩ := r2 i
  exact ⟨q1, q2.trans (l4 b hbmem).2, q3, q4⟩

/-- The parameters of a projected NFW distribution make sense: positive sizes, the virial radius is
larger than the innermost sampled radius, positive densities. -/
structure GoodNFW (p : ProjNFW) : Prop where
  rmax : 0 < p.rmax2d
  rvir : 1 / 1000 * p.rmax2d < p.rmax3d
  kpc : 0 < p.kpc
  d2 : ∀ r, 0 ≤ r → 0 < p.density2d r
  d3 : ∀ r, 0 ≤ r → 0 < p.density3d r

theorem projNFW_draw (p : ProjNFW) (hp : GoodNFW p) (N : ℕ) (u θ w : ℕ → ℝ)
    (hu : ∀ i, 0 ≤ u i ∧ u i ≤ 1) (hw : ∀ i, 0 ≤ w i ∧ w i ≤ 1) :
    ∃ r2 r3 : ℕ → ℝ, p.draw N u θ w = .ok
        ((List.range N).map (fun i => r2 i * p.kpc * Real.cos (2 * Real.pi * θ i)),
         (List.range N).map (fun i => r2 i * p.kpc * Real.sin (2 * Real.pi * θ i)),
         (List.range N).map (fun i => r3 i * p.kpc)) ∧
      (∀ i, 1 / 1000 * p.rmax2d ≤ r2 i ∧ r2 i ≤ p.rmax2d ∧
        (0 < u i → 1 / 1000 * p.rmax2d < r2 i) ∧ (u i = 0 → r2 i = 1 / 1000 * p.rmax2d)) ∧
      (∀ i, 1 / 1000 * p.rmax2d ≤ r3 i ∧ r3 i ≤ p.rmax3d ∧
        (0 < w i → 1 / 1000 * p.rmax2d < r3 i) ∧ (w i = 0 → r3 i = 1 / 1000 * p.rmax2d)) := by
  have hr := hp.rmax
  obtain ⟨r2, h2, g2⟩ := radial_sample 2 (by norm_num) p.density2d (1 / 1000 * p.rmax2d) p.rmax2d
    (by linarith) (by linarith) hp.d2 N u hu
  obtain ⟨r3, h3, g3⟩ := radial_sample 3 (by norm_num) p.density3d (1 / 1000 * p.rmax2d) p.rmax3d
    (by linarith) hp.rvir hp.d3 N w hw
  refine ⟨r2, r3, ?_, g2, g3⟩
  unfold ProjNFW.draw
  by_cases hN : N = 0
  · subst hN
    simp
  · rw [if_neg hN]
    generalize linspace (1 / 1000 * p.rmax2d) p.rmax2d 20000 = x2 at h2 ⊢
    generalize linspace (1 / 1000 * p.rmax2d) p.rmax3d 20000 = x3 at h3 ⊢
    simp only [h2, h3, bind, Except.bind, pure, Except.pure, List.map_map]
    congr 2
    · apply List.ext_getElem?; intro i
      by_cases hi : i < N <;> simp [List.getElem?_zipWith, hi]
    · congr 1
      apply List.ext_getElem?; intro i
      by_cases hi : i < N <;> simp [List.getElem?_zipWith, hi]

/-- **C57, the part that holds.** Subhalos placed with the projected NFW distribution lie inside
the projected rendering radius, their 3-d radius is positive and at most the virial radius, and as
many are placed as asked for.  Missing: that the 3-d radius is at least the projected one. -/
theorem c57_projected_nfw_partial (p : ProjNFW) (hp : GoodNFW p) (N : ℕ) (u θ w : ℕ → ℝ)
    (hu : ∀ i, 0 ≤ u i ∧ u i ≤ 1) (hw : ∀ i, 0 ≤ w i ∧ w i ≤ 1) :
    ∃ x y r, p.draw N u θ w = .ok (x, y, r) ∧ x.length = N ∧ y.length = N ∧ r.length = N ∧
      (∀ q ∈ x.zip y, q.1 ^ 2 + q.2 ^ 2 ≤ (p.rmax2d * p.kpc) ^ 2) ∧
      ∀ t ∈ r, 0 < t ∧ t ≤ p.rmax3d * p.kpc := by
  obtain ⟨r2, r3, h, g2, g3⟩ := projNFW_draw p hp N u θ w hu hw
  have hr := hp.rmax
  have hk := hp.kpc
  refine ⟨_, _, _, h, by simp, by simp, by simp, ?_, ?_⟩
  · intro q hq
    simp only [List.zip_map', List.mem_map] at hq
    obtain ⟨i, _, rfl⟩ := hq
    have hcs := Real.cos_sq_add_sin_sq (2 * Real.pi * θ i)
    simp only
    rw [mul_pow, mul_pow (r2 i * p.kpc) (Real.sin _), ← mul_add, hcs, mul_one]
    apply pow_le_pow_left₀
    · have := (g2 i).1; exact mul_nonneg (by linarith) hk.le
    · exact mul_le_mul_of_nonneg_right (g2 i).2.1 hk.le
  · intro t ht
    obtain ⟨i, _, rfl⟩ := List.mem_map.1 ht
    obtain ⟨q1, q2, _⟩ := g3 i
    refine ⟨mul_pos (by linarith) hk, mul_le_mul_of_nonneg_right q2 hk.le⟩

/-- **C57 is false**: whatever the parameters, there are variates for which the 3-d radius of a
subhalo is smaller than its projected distance from the centre (the two are sampled
independently). -/
theorem c57_r3d_below_projected (p : ProjNFW) (hp : GoodNFW p) :
    ∃ (u θ w : ℕ → ℝ) (x y r : ℝ), (∀ i, 0 ≤ u i ∧ u i < 1 ∧ 0 ≤ w i ∧ w i < 1) ∧
      p.draw 1 u θ w = .ok ([x], [y], [r]) ∧ r ^ 2 < x ^ 2 + y ^ 2 := by
  obtain ⟨r2, r3, h, g2, g3⟩ := projNFW_draw p hp 1 (fun _ => 1 / 2) (fun _ => 0) (fun _ => 0)
    (fun _ => by norm_num) (fun _ => by norm_num)
  simp only [List.range_one, List.map_cons, List.map_nil] at h
  refine ⟨fun _ => 1 / 2, fun _ => 0, fun _ => 0, _, _, _, fun _ => by norm_num, h, ?_⟩
  have hr := hp.rmax
  have hk := hp.kpc
  have e1 := (g2 0).2.2.1 (by norm_num)
  have e2 := (g3 0).2.2.2 rfl
  simp only [mul_zero, Real.cos_zero, Real.sin_zero, mul_one]
  rw [e2]
  have h0 : 0 < 1 / 1000 * p.rmax2d := by positivity
  have : 1 / 1000 * p.rmax2d * p.kpc < r2 0 * p.kpc := mul_lt_mul_of_pos_right e1 hk
  have h1 : 0 < 1 / 1000 * p.rmax2d * p.kpc := mul_pos h0 hk
  nlinarith

example : GoodNFW ⟨3, 50, 6, fun _ => 1, fun _ => 1⟩ :=
  ⟨by norm_num, by norm_num, by norm_num, fun _ _ => by norm_num, fun _ _ => by norm_num⟩

/-- The projected NFW distribution also returns as many positions as asked for. -/
theorem c57_draws_n (p : ProjNFW) (hp : GoodNFW p) (u θ w : ℕ → ℝ)
    (hu : ∀ i, 0 ≤ u i ∧ u i ≤ 1) (hw : ∀ i, 0 ≤ w i ∧ w i ≤ 1) :
    SubDrawsN (.threeD fun n => p.draw n u θ w) := by
  intro n q h
  obtain ⟨x, y, r, h1, h2, h3, h4, _⟩ := c57_projected_nfw_partial p hp n u θ w hu hw
  simp only [h1] at h
  injection h with h
  rw [← h]
  exact ⟨h2, h3, h4⟩

/-! ### Geometry -/

/-- Distances of a flat universe with transverse comoving distance `χ`. -/
noncomputable def flatDistances (χ : ℝ → ℝ) : Distances where
  DCt := χ
  DA := fun z1 z2 => (χ z2 - χ z1) / (1 + z2)
  DAz := fun z => χ z / (1 + z)

/-- A double cone in a flat universe. -/
structure FlatDoubleCone (g : Geometry) (χ : ℝ → ℝ) : Prop where
  dist : g.dist = flatDistances χ
  vol : g.volume = .doubleCone
  zero : χ 0 = 0
  mono : StrictMonoOn χ (Set.Ici 0)
  lens : 0 < g.zLens
  source : g.zLens < g.zSource

theorem doubleCone_scale {g : Geometry} {χ : ℝ → ℝ} (h : FlatDoubleCone g χ) {z : ℝ}
    (hz : g.zLens < z) :
    g.renderingScale z = 1 - g.anglePad * (χ g.zSource / (χ g.zSource - χ g.zLens)) *
      (1 - χ g.zLens / χ z) := by
  have hl := h.lens
  have hs := h.source
  have hχz : 0 < χ z := by
    rw [← h.zero]; exact h.mono (by simp) (by simp; linarith) (by linarith)
  have hχls : 0 < χ g.zSource - χ g.zLens := sub_pos.2 (h.mono (by simp; linarith) (by simp; linarith) hs)
  unfold Geometry.renderingScale Geometry.reducedToPhys
  rw [h.vol]
  simp only [if_neg (not_le.2 hz), h.dist, flatDistances, h.zero, sub_zero]
  have h1 : (1 + z) ≠ 0 := by linarith
  have h2 : (1 + g.zSource) ≠ 0 := by linarith
  field_simp

/-- **C22.** The double-cone rendering scale is 1 up to the lens; behind it it decreases strictly
(for a positive closing fraction) and never leaves `[1 - pad, 1]`; at the source it is `1 - pad`. -/
theorem c22_double_cone (g : Geometry) (χ : ℝ → ℝ) (h : FlatDoubleCone g χ) (hp : 0 < g.anglePad) :
    (∀ z, z ≤ g.zLens → g.renderingScale z = 1) ∧
    (∀ z z', g.zLens ≤ z → z < z' → g.renderingScale z' < g.renderingScale z) ∧
    g.renderingScale g.zSource = 1 - g.anglePad ∧
    (∀ z, z ≤ g.zSource → 1 - g.anglePad ≤ g.renderingScale z ∧ g.renderingScale z ≤ 1) := by
  have hl := h.lens
  have hs := h.source
  have hpos : ∀ z, 0 < z → 0 < χ z := fun z hz => by
    rw [← h.zero]; exact h.mono (by simp) (by simp; linarith) hz
  have hχls : 0 < χ g.zSource - χ g.zLens :=
    sub_pos.2 (h.mono (by simp; linarith) (by simp; linarith) hs)
  have hfac : 0 < g.anglePad * (χ g.zSource / (χ g.zSource - χ g.zLens)) :=
    mul_pos hp (div_pos (hpos _ (by linarith)) hχls)
  have h1 : ∀ z, z ≤ g.zLens → g.renderingScale z = 1 := by
    intro z hz
    simp [Geometry.renderingScale, h.vol, hz]
  have hsrc : g.renderingScale g.zSource = 1 - g.anglePad := by
    rw [doubleCone_scale h hs]
    have := (hpos g.zSource (by linarith)).ne'
    have := hχls.ne'
    field_simp
  have hdec : ∀ z z', g.zLens ≤ z → z < z' → g.renderingScale z' < g.renderingScale z := by
    intro z z' hz hzz
    have hmz' : χ z < χ z' := h.mono (by simp; linarith) (by simp; linarith) hzz
    have hz0 := hpos z (by linarith)
    have hz0' := hpos z' (by linarith)
    have hl0 := hpos g.zLens hl
    have key : χ g.zLens / χ z' < χ g.zLens / χ z := div_lt_div_of_pos_left hl0 hz0 hmz'
    rw [doubleCone_scale h (by linarith : g.zLens < z')]
    rcases eq_or_lt_of_le hz with he | hlt
    · rw [h1 z he.symm.le]
      have : χ g.zLens / χ z = 1 := by rw [← he]; exact div_self hl0.ne'
      rw [this] at key
      have := mul_pos hfac (sub_pos.2 key)
      linarith
    · rw [doubleCone_scale h hlt]
      have := mul_lt_mul_of_pos_left key hfac
      linarith
  refine ⟨h1, hdec, hsrc, ?_⟩
  intro z hz
  rcases le_or_gt z g.zLens with hzl | hzl
  · rw [h1 z hzl]; exact ⟨by linarith, le_refl _⟩
  · constructor
    · rw [← hsrc]
      rcases eq_or_lt_of_le hz with he | hlt
      · rw [he]
      · exact (hdec z _ hzl.le hlt).le
    · rw [← h1 g.zLens le_rfl]
      exact (hdec g.zLens z le_rfl hzl).le

/-- **C22, continuity.** The rendering scale is continuous, also at the lens, if the comoving
distance is. -/
theorem c22_double_cone_continuous (g : Geometry) (χ : ℝ → ℝ) (h : FlatDoubleCone g χ)
    (hc : ContinuousOn χ (Set.Ici 0)) : Continuous g.renderingScale := by
  have hl := h.lens
  have hpos : ∀ z, 0 < z → 0 < χ z := fun z hz => by
    rw [← h.zero]; exact h.mono (by simp) (by simp; linarith) hz
  have e : g.renderingScale = fun z => if z ≤ g.zLens then (1 : ℝ) else
      1 - g.anglePad * (χ g.zSource / (χ g.zSource - χ g.zLens)) * (1 - χ g.zLens / χ z) := by
    funext z
    by_cases hz : z ≤ g.zLens
    · simp [Geometry.renderingScale, h.vol, hz]
    · rw [if_neg hz, doubleCone_scale h (not_le.1 hz)]
  rw [e]
  apply continuous_if_le continuous_id continuous_const continuousOn_const
  · apply ContinuousOn.sub continuousOn_const
    apply ContinuousOn.mul continuousOn_const
    apply ContinuousOn.sub continuousOn_const
    apply ContinuousOn.div continuousOn_const
    · apply hc.mono
      intro z hz
      simp only [id, Set.mem_ofPred_eq] at hz
      simp only [Set.mem_Ici]
      linarith
    · intro z hz
      simp only [id, Set.mem_ofPred_eq] at hz
      exact (hpos z (by linarith)).ne'
  · intro z hz
    simp only [id] at hz
    rw [hz, div_self (hpos _ hl).ne']
    ring

/-- The rendered area never exceeds that of the single cone. -/
theorem c22_area_below_cone (g g' : Geometry) (χ : ℝ → ℝ) (h : FlatDoubleCone g χ)
    (hp : 0 < g.anglePad) (hp1 : g.anglePad ≤ 1) (hg : g'.dist = g.dist) (hv : g'.volume = .cone)
    (r z : ℝ) (hz : z ≤ g.zSource) : g.comovingArea r z ≤ g'.comovingArea r z := by
  obtain ⟨_, _, _, h4⟩ := c22_double_cone g χ h hp
  obtain ⟨b1, b2⟩ := h4 z hz
  have b0 : 0 ≤ g.renderingScale z := by linarith
  unfold Geometry.comovingArea Geometry.comovingRadius Geometry.physicalRadius
  rw [hg]
  have e : g'.renderingScale z = 1 := by simp [Geometry.renderingScale, hv]
  rw [e]
  apply mul_le_mul_of_nonneg_left _ Real.pi_pos.le
  have : (r * arcsec * g.renderingScale z * g.dist.DAz z / Geometry.scaleFactor z) ^ 2
      = (r * arcsec * 1 * g.dist.DAz z / Geometry.scaleFactor z) ^ 2 * g.renderingScale z ^ 2 := by
    ring
  rw [this]
  have hs : g.renderingScale z ^ 2 ≤ 1 := by nlinarith
  have := sq_nonneg (r * arcsec * 1 * g.dist.DAz z / Geometry.scaleFactor z)
  nlinarith

/-- A universe with comoving distance `z`, lens at 1/2, source at 2, closing fraction 0.95. -/
noncomputable def demoGeometry : Geometry where
  dist := flatDistances id
  zLens := 1 / 2
  zSource := 2
  openingAngle := 6
  volume := .doubleCone
  anglePad := 0.95

example : FlatDoubleCone demoGeometry id ∧ 0 < demoGeometry.anglePad ∧ demoGeometry.anglePad ≤ 1 :=
  ⟨⟨rfl, rfl, rfl, strictMono_id.strictMonoOn _, by norm_num [demoGeometry],
    by norm_num [demoGeometry]⟩, by norm_num [demoGeometry], by norm_num [demoGeometry]⟩

/-- **C58.** In the cylinder geometry the comoving radius of the rendered disc is the same at every
redshift: half the opening angle times the comoving distance of the lens. -/
theorem c58_cylinder_radius (g : Geometry) (χ : ℝ → ℝ) (hd : g.dist = flatDistances χ)
    (hv : g.volume = .cylinder) (r z : ℝ) (hz : 0 < z) (hχ : χ z ≠ 0) :
    g.comovingRadius r z = r * arcsec * χ g.zLens := by
  unfold Geometry.comovingRadius Geometry.physicalRadius Geometry.renderingScale
    Geometry.scaleFactor
  rw [hv]
  simp only [hd, flatDistances]
  have h1 : (1 + z) ≠ 0 := by linarith
  field_simp

/-- Physical and comoving radius and area differ by powers of `1 + z`; the area is that of the
disc. -/
theorem c58_area_is_disc (g : Geometry) (r z : ℝ) (hz : 0 ≤ z) :
    g.physicalArea r z = Real.pi * g.physicalRadius r z ^ 2 ∧
    g.comovingArea r z = Real.pi * (g.physicalRadius r z * (1 + z)) ^ 2 := by
  have h1 : (1 + z) ≠ 0 := by linarith
  unfold Geometry.physicalArea Geometry.comovingArea Geometry.comovingRadius Geometry.scaleFactor
  constructor
  · field_simp
  · rw [div_inv_eq_mul]

example : ∃ g : Geometry, g.dist = flatDistances id ∧ g.volume = .cylinder ∧ (id (0.5 : ℝ)) ≠ 0 :=
  ⟨⟨flatDistances id, 1 / 2, 2, 6, .cylinder, 1⟩, rfl, rfl, by norm_num⟩

/-- Every geometry name other than the three documented ones is refused. -/
theorem c22_unknown_geometry (name : String) :
    (∃ v, volumeOfName name = .ok v) ↔
      name = "DOUBLE_CONE" ∨ name = "CYLINDER" ∨ name = "CONE" := by
  unfold volumeOfName
  split_ifs <;> simp_all

end PyHalo.Props
