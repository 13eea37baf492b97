import Verif.Model.Emulator
import Verif.Lemmas.Grid
import Verif.Props.Tnfw
import Mathlib.Analysis.SpecialFunctions.Trigonometric.ArctanDeriv
import Mathlib.Analysis.SpecialFunctions.Integrals.Basic
import Mathlib.Analysis.Complex.ExponentialBounds

/-! Lemmas about the mass fraction of a truncated profile and about tables that invert it. -/

namespace PyHalo.Emulator

open Np

/-! ## Interpolation along one axis, also outside of it -/

theorem cell_any {A : Axis} (h : A.Ok) (x : ℝ) : A.cell x + 1 < A.n ∧ (A.cell x = 0 ∨ A.g (A.cell x) ≤ x) ∧
    (A.cell x = A.n - 2 ∨ x < A.g (A.cell x + 1)) := by
  classical
  obtain ⟨h2, hm⟩ := h
  have hc : A.cell x = min (Nat.findGreatest (fun i => A.g i ≤ x) (A.n - 1)) (A.n - 2) := by
    unfold Axis.cell
    congr
  have hup : ∀ k, Nat.findGreatest (fun i => A.g i ≤ x) (A.n - 1) < k → k ≤ A.n - 1 → ¬ A.g k ≤ x :=
    fun k hk hk' => Nat.findGreatest_is_greatest hk hk'
  have hsp : Nat.findGreatest (fun i => A.g i ≤ x) (A.n - 1) = 0 ∨
      A.g (Nat.findGreatest (fun i => A.g i ≤ x) (A.n - 1)) ≤ x := by
    by_cases hz : Nat.findGreatest (fun i => A.g i ≤ x) (A.n - 1) = 0
    · exact .inl hz
    · exact .inr (Nat.findGreatest_of_ne_zero (P := fun i => A.g i ≤ x) rfl hz)
  have hle : Nat.findGreatest (fun i => A.g i ≤ x) (A.n - 1) ≤ A.n - 1 := Nat.findGreatest_le _
  rw [hc]
  generalize Nat.findGreatest (fun i => A.g i ≤ x) (A.n - 1) = k at *
  rcases le_total k (A.n - 2) with hk | hk
  · rw [min_eq_left hk]
    refine ⟨by omega, hsp, ?_⟩
    exact .inr (not_le.1 (hup (k + 1) (by omega) (by omega)))
  · rw [min_eq_right hk]
    refine ⟨by omega, ?_, .inl rfl⟩
    rcases hsp with h0 | h0
    · left; omega
    · right
      rcases Nat.lt_or_ge (A.n - 2) k with hlt | hge
      · exact ((hm _ _ hlt (by omega)).le).trans h0
      · have : k = A.n - 2 := by omega
        rw [← this]; exact h0

theorem interp1d_line {A : Axis} (h : A.Ok) (y : ℕ → ℝ) (x : ℝ) :
    interp1d A y x = y (A.cell x) + (y (A.cell x + 1) - y (A.cell x)) / (A.g (A.cell x + 1) - A.g (A.cell x)) *
      (x - A.g (A.cell x)) := by
  have h1 := h.2 _ _ (Nat.lt_succ_self (A.cell x)) (cell_any h x).1
  have : A.g (A.cell x + 1) - A.g (A.cell x) ≠ 0 := by
    have : A.g (A.cell x) < A.g (A.cell x + 1) := h1
    linarith
  unfold interp1d lerp Axis.frac
  field_simp
  ring

/-- Piecewise linear interpolation of increasing values, continued outside the nodes, is increasing. -/
theorem interp1d_strictMono {A : Axis} (h : A.Ok) {y : ℕ → ℝ} (hy : ∀ i j, i < j → j < A.n → y i < y j) {x x' : ℝ}
    (hx : x < x') : interp1d A y x < interp1d A y x' := by
  obtain ⟨a1, a2, a3⟩ := cell_any h x
  obtain ⟨b1, b2, b3⟩ := cell_any h x'
  have slope : ∀ i, i + 1 < A.n → 0 < (y (i + 1) - y i) / (A.g (i + 1) - A.g i) := fun i hi =>
    div_pos (sub_pos.2 (hy _ _ (Nat.lt_succ_self i) hi)) (sub_pos.2 (h.2 _ _ (Nat.lt_succ_self i) hi))
  have key : ∀ i, i + 1 < A.n → y i + (y (i + 1) - y i) / (A.g (i + 1) - A.g i) * (A.g (i + 1) - A.g i) = y (i + 1) := by
    intro i hi
    have : A.g (i + 1) - A.g i ≠ 0 := by
      have := h.2 _ _ (Nat.lt_succ_self i) hi
      have : A.g i < A.g (i + 1) := this
      linarith
    field_simp
    ring
  rw [interp1d_line h, interp1d_line h]
  have s1 := slope _ a1
  have s2 := slope _ b1
  have k1 := key _ a1
  rcases lt_trichotomy (A.cell x) (A.cell x') with hlt | heq | hgt
  · have c1 : x < A.g (A.cell x + 1) := a3.resolve_left (by omega)
    have c2 : A.g (A.cell x') ≤ x' := b2.resolve_left (by omega)
    have c3 : y (A.cell x + 1) ≤ y (A.cell x') := by
      rcases Nat.lt_or_ge (A.cell x + 1) (A.cell x') with q | q
      · exact (hy _ _ q (by omega)).le
      · have : A.cell x + 1 = A.cell x' := by omega
        rw [this]
    have p1 := mul_lt_mul_of_pos_left (sub_lt_sub_right c1 (A.g (A.cell x))) s1
    have p2 := mul_nonneg s2.le (sub_nonneg.2 c2)
    linarith
  · rw [heq] at *
    have := mul_lt_mul_of_pos_left (sub_lt_sub_right hx (A.g (A.cell x'))) s2
    linarith
  · exfalso
    have c1 : x' < A.g (A.cell x' + 1) := b3.resolve_left (by omega)
    have c2 : A.g (A.cell x) ≤ x := a2.resolve_left (by omega)
    have := h.mono (show A.cell x' + 1 ≤ A.cell x by omega) (by omega)
    linarith

theorem grid2_strictMono {A B : Axis} (hA : A.Ok) (hB : B.Ok) {v : ℕ → ℕ → ℝ}
    (hv : ∀ i j j', i < A.n → j < j' → j' < B.n → v i j < v i j') {x y y' : ℝ} (hx : A.Inside x) (hy : y < y') :
    grid2 A B v x y < grid2 A B v x y' := by
  obtain ⟨a1, -, -⟩ := hA.cell_spec hx
  obtain ⟨f0, f1⟩ := hA.frac_mem hx
  have r1 := interp1d_strictMono hB (hv (A.cell x) · · (by omega)) hy
  have r2 := interp1d_strictMono hB (hv (A.cell x + 1) · · a1) hy
  unfold grid2 lerp
  rcases eq_or_lt_of_le f0 with h | h
  · rw [← h]; linarith
  · nlinarith

theorem interp1d_mem {A : Axis} (h : A.Ok) {y : ℕ → ℝ} {x lo hi : ℝ} (hx : A.Inside x)
    (h0 : lo ≤ y (A.cell x) ∧ y (A.cell x) ≤ hi) (h1 : lo ≤ y (A.cell x + 1) ∧ y (A.cell x + 1) ≤ hi) :
    lo ≤ interp1d A y x ∧ interp1d A y x ≤ hi :=
  lerp_mem (h.frac_mem hx).1 (h.frac_mem hx).2 h0 h1

/-! ## The mass fraction -/

/-- The mass of an untruncated profile, in its own unit. -/
theorem m_pos {c : ℝ} (hc : 0 < c) : 0 < Real.log (1 + c) - c / (1 + c) := by
  have h2 : 1 - (1 + c)⁻¹ = c / (1 + c) := by field_simp; ring
  have hne : (1 + c)⁻¹ ≠ 1 := by
    intro h
    have := inv_eq_one.1 h
    linarith
  have h3 := Real.log_lt_sub_one_of_pos (x := (1 + c)⁻¹) (by positivity) hne
  rw [Real.log_inv] at h3
  rw [← h2]; linarith

theorem cont_p (c : ℝ) : ContinuousOn (fun r : ℝ => r / (1 + r) ^ 2) (Set.Icc 0 c) := by
  apply ContinuousOn.div (by fun_prop) (by fun_prop)
  intro r hr
  have : 0 ≤ r := hr.1
  positivity

theorem cont_w {t : ℝ} (ht : 0 < t) (c : ℝ) : ContinuousOn (fun r : ℝ => t ^ 2 / (r ^ 2 + t ^ 2)) (Set.Icc 0 c) := by
  apply ContinuousOn.div (by fun_prop) (by fun_prop)
  intro r hr
  positivity

theorem m_eq {c : ℝ} (hc : 0 < c) : ∫ r in (0 : ℝ)..c, r / (1 + r) ^ 2 = Real.log (1 + c) - c / (1 + c) := by
  have hd : ∀ r ∈ Set.uIcc 0 c, HasDerivAt (fun r => Real.log (1 + r) - r / (1 + r)) (r / (1 + r) ^ 2) r := by
    intro r hr
    rw [Set.uIcc_of_le hc.le] at hr
    have h0 : 1 + r ≠ 0 := by have := hr.1; positivity
    have h1 := ((hasDerivAt_id r).const_add 1)
    have h2 := (h1.log h0).sub ((hasDerivAt_id r).div h1 h0)
    refine h2.congr_deriv ?_
    simp only [id]
    field_simp
    ring
  rw [intervalIntegral.integral_eq_sub_of_hasDerivAt hd ((cont_p c).intervalIntegrable_of_Icc hc.le)]
  simp

theorem mf_eq {t c : ℝ} (ht : 0 < t) (hc : 0 < c) : Tnfw.massFraction t c =
    (∫ r in (0 : ℝ)..c, r / (1 + r) ^ 2 * (t ^ 2 / (r ^ 2 + t ^ 2))) / (Real.log (1 + c) - c / (1 + c)) := by
  unfold Tnfw.massFraction Tnfw.mass3d
  simp only
  congr 1
  apply intervalIntegral.integral_congr_ae
  filter_upwards with r
  intro hr
  rw [Set.uIoc_of_le hc.le] at hr
  have hr0 : 0 < r := hr.1
  unfold Tnfw.densityProfile
  have := Real.pi_pos
  simp only [div_one]
  field_simp

/-- Chebyshev: weighting with a decreasing function lowers the share of the outer part. -/
theorem share {p w : ℝ → ℝ} {c c' : ℝ} (hc : 0 < c) (hcc : c ≤ c') (hp : ContinuousOn p (Set.Icc 0 c'))
    (hw : ContinuousOn w (Set.Icc 0 c')) (p0 : ∀ r, 0 ≤ r → r ≤ c' → 0 ≤ p r)
    (wa : ∀ r s, 0 ≤ r → r ≤ s → s ≤ c' → w s ≤ w r) :
    (∫ r in (0 : ℝ)..c', p r * w r) * (∫ r in (0 : ℝ)..c, p r) ≤ (∫ r in (0 : ℝ)..c, p r * w r) * (∫ r in (0 : ℝ)..c', p r) := by
  have hpw : ContinuousOn (fun r => p r * w r) (Set.Icc 0 c') := hp.mul hw
  have s1 : Set.Icc 0 c ⊆ Set.Icc 0 c' := Set.Icc_subset_Icc_right hcc
  have s2 : Set.Icc c c' ⊆ Set.Icc 0 c' := Set.Icc_subset_Icc_left hc.le
  have i1 := (hp.mono s1).intervalIntegrable_of_Icc (μ := MeasureTheory.volume) hc.le
  have i2 := (hp.mono s2).intervalIntegrable_of_Icc (μ := MeasureTheory.volume) hcc
  have i3 := (hpw.mono s1).intervalIntegrable_of_Icc (μ := MeasureTheory.volume) hc.le
  have i4 := (hpw.mono s2).intervalIntegrable_of_Icc (μ := MeasureTheory.volume) hcc
  rw [← intervalIntegral.integral_add_adjacent_intervals i1 i2, ← intervalIntegral.integral_add_adjacent_intervals i3 i4]
  have a1 : (∫ r in (0 : ℝ)..c, p r) * w c ≤ ∫ r in (0 : ℝ)..c, p r * w r := by
    rw [← intervalIntegral.integral_mul_const]
    apply intervalIntegral.integral_mono_on hc.le (i1.mul_const _) i3
    intro r hr
    exact mul_le_mul_of_nonneg_left (wa r c hr.1 hr.2 hcc) (p0 r hr.1 (hr.2.trans hcc))
  have a2 : (∫ r in c..c', p r * w r) ≤ (∫ r in c..c', p r) * w c := by
    rw [← intervalIntegral.integral_mul_const]
    apply intervalIntegral.integral_mono_on hcc i4 (i2.mul_const _)
    intro r hr
    exact mul_le_mul_of_nonneg_left (wa c r hc.le hr.1 hr.2) (p0 r (hc.le.trans hr.1) hr.2)
  have b1 : 0 ≤ ∫ r in (0 : ℝ)..c, p r :=
    intervalIntegral.integral_nonneg hc.le fun r hr => p0 r hr.1 (hr.2.trans hcc)
  have b2 : 0 ≤ ∫ r in c..c', p r :=
    intervalIntegral.integral_nonneg hcc fun r hr => p0 r (hc.le.trans hr.1) hr.2
  nlinarith [mul_le_mul_of_nonneg_right a2 b1, mul_le_mul_of_nonneg_right a1 b2]

theorem w_anti {t : ℝ} (ht : 0 < t) {r s : ℝ} (hr : 0 ≤ r) (hs : r ≤ s) :
    t ^ 2 / (s ^ 2 + t ^ 2) ≤ t ^ 2 / (r ^ 2 + t ^ 2) := by
  apply div_le_div_of_nonneg_left (by positivity) (by positivity)
  have : r ^ 2 ≤ s ^ 2 := by gcongr
  linarith

theorem mf_anti_c {t c c' : ℝ} (ht : 0 < t) (hc : 0 < c) (hcc : c ≤ c') : Tnfw.massFraction t c' ≤ Tnfw.massFraction t c := by
  have hc' : 0 < c' := hc.trans_le hcc
  have := share hc hcc (cont_p c') (cont_w ht c') (fun r h0 _ => by positivity) (fun r s h0 h1 _ => w_anti ht h0 h1)
  rw [m_eq hc, m_eq hc'] at this
  rw [mf_eq ht hc, mf_eq ht hc', div_le_div_iff₀ (m_pos hc') (m_pos hc)]
  exact this

theorem m_ratio {c c' : ℝ} (hc : 0 < c) (hcc : c ≤ c') :
    Real.log (1 + c') - c' / (1 + c') ≤ (c' / c) ^ 2 * (Real.log (1 + c) - c / (1 + c)) := by
  have hc' : 0 < c' := hc.trans_le hcc
  have hw : ContinuousOn (fun r : ℝ => 1 / (1 + r) ^ 2) (Set.Icc 0 c') := by
    apply ContinuousOn.div (by fun_prop) (by fun_prop)
    intro r hr
    have : 0 ≤ r := hr.1
    positivity
  have := share (p := fun r => r) hc hcc (by fun_prop) hw (fun r h0 _ => h0) (fun r s h0 h1 _ => by
    apply one_div_le_one_div_of_le (by positivity)
    gcongr)
  simp only [mul_one_div, integral_id] at this
  rw [m_eq hc, m_eq hc'] at this
  rw [div_pow, div_mul_eq_mul_div, le_div_iff₀ (by positivity)]
  nlinarith

theorem mf_pos {t c : ℝ} (ht : 0 < t) (hc : 0 < c) : 0 < Tnfw.massFraction t c :=
  (Props.c67_mass_fraction t (t + 1) c hc ht (by linarith)).1

theorem mf_strict {t t' c : ℝ} (ht : 0 < t) (htt : t < t') (hc : 0 < c) : Tnfw.massFraction t c < Tnfw.massFraction t' c :=
  (Props.c67_mass_fraction t t' c hc ht htt).2.1

theorem mf_mono {t t' c : ℝ} (ht : 0 < t) (htt : t ≤ t') (hc : 0 < c) : Tnfw.massFraction t c ≤ Tnfw.massFraction t' c := by
  rcases htt.lt_or_eq with h | h
  · exact (mf_strict ht h hc).le
  · rw [h]

theorem int_gw {t : ℝ} (ht : 0 < t) {c : ℝ} (hc : 0 < c) :
    IntervalIntegrable (fun r : ℝ => r / (1 + r) ^ 2 * (t ^ 2 / (r ^ 2 + t ^ 2))) MeasureTheory.volume 0 c :=
  ((cont_p c).mul (cont_w ht c)).intervalIntegrable_of_Icc hc.le

/-- A larger concentration holds more mass. -/
theorem mf_ratio_c {t c c' : ℝ} (ht : 0 < t) (hc : 0 < c) (hcc : c ≤ c') :
    Tnfw.massFraction t c ≤ (c' / c) ^ 2 * Tnfw.massFraction t c' := by
  have hc' : 0 < c' := hc.trans_le hcc
  have hm := m_pos hc
  have hm' := m_pos hc'
  have hr := m_ratio hc hcc
  have hI : (∫ r in (0 : ℝ)..c, r / (1 + r) ^ 2 * (t ^ 2 / (r ^ 2 + t ^ 2))) ≤
      ∫ r in (0 : ℝ)..c', r / (1 + r) ^ 2 * (t ^ 2 / (r ^ 2 + t ^ 2)) := by
    rw [← intervalIntegral.integral_add_adjacent_intervals (int_gw ht hc)
      ((((cont_p c').mul (cont_w ht c')).mono (Set.Icc_subset_Icc_left hc.le)).intervalIntegrable_of_Icc hcc)]
    have : 0 ≤ ∫ r in c..c', r / (1 + r) ^ 2 * (t ^ 2 / (r ^ 2 + t ^ 2)) :=
      intervalIntegral.integral_nonneg hcc fun r hr => by
        have : 0 ≤ r := hc.le.trans hr.1
        positivity
    linarith
  have hI0 : 0 ≤ ∫ r in (0 : ℝ)..c', r / (1 + r) ^ 2 * (t ^ 2 / (r ^ 2 + t ^ 2)) :=
    intervalIntegral.integral_nonneg hc'.le fun r hr => by
      have : 0 ≤ r := hr.1
      positivity
  rw [mf_eq ht hc, mf_eq ht hc', ← mul_div_assoc, div_le_div_iff₀ hm hm']
  calc _ ≤ (∫ r in (0 : ℝ)..c', r / (1 + r) ^ 2 * (t ^ 2 / (r ^ 2 + t ^ 2))) * (Real.log (1 + c') - c' / (1 + c')) := by gcongr
    _ ≤ (∫ r in (0 : ℝ)..c', r / (1 + r) ^ 2 * (t ^ 2 / (r ^ 2 + t ^ 2))) * ((c' / c) ^ 2 * (Real.log (1 + c) - c / (1 + c))) := by
        gcongr
    _ = _ := by ring

theorem mf_ratio_t {t t' c : ℝ} (ht : 0 < t) (htt : t ≤ t') (hc : 0 < c) :
    Tnfw.massFraction t' c ≤ (t' / t) ^ 2 * Tnfw.massFraction t c := by
  have ht' : 0 < t' := ht.trans_le htt
  rw [mf_eq ht hc, mf_eq ht' hc, ← mul_div_assoc, div_le_div_iff_of_pos_right (m_pos hc), ← intervalIntegral.integral_const_mul]
  apply intervalIntegral.integral_mono_on hc.le (int_gw ht' hc) ((int_gw ht hc).const_mul _)
  intro r hr
  have h0 : 0 ≤ r := hr.1
  have : t' ^ 2 / (r ^ 2 + t' ^ 2) ≤ (t' / t) ^ 2 * (t ^ 2 / (r ^ 2 + t ^ 2)) := by
    rw [div_pow, div_mul_div_comm, div_le_div_iff₀ (by positivity) (by positivity)]
    have : t ^ 2 ≤ t' ^ 2 := by gcongr
    nlinarith [mul_nonneg (mul_nonneg (sq_nonneg t') (sq_nonneg t)) (sub_nonneg.2 this)]
  have hp : 0 ≤ r / (1 + r) ^ 2 := by positivity
  calc _ ≤ r / (1 + r) ^ 2 * ((t' / t) ^ 2 * (t ^ 2 / (r ^ 2 + t ^ 2))) := by gcongr
    _ = _ := by ring

/-- A bound from below, good for radii inside the truncation radius. -/
theorem mf_ge {t c : ℝ} (ht : 0 < t) (hc : 0 < c) : t ^ 2 / (c ^ 2 + t ^ 2) ≤ Tnfw.massFraction t c := by
  rw [mf_eq ht hc, le_div_iff₀ (m_pos hc), ← m_eq hc, ← intervalIntegral.integral_const_mul]
  apply intervalIntegral.integral_mono_on hc.le
    (((cont_p c).intervalIntegrable_of_Icc hc.le).const_mul _) (int_gw ht hc)
  intro r hr
  have h0 : 0 ≤ r := hr.1
  have hp : 0 ≤ r / (1 + r) ^ 2 := by positivity
  rw [mul_comm]
  exact mul_le_mul_of_nonneg_left (w_anti ht h0 hr.2) hp

/-- A bound from above at concentrations above one. -/
theorem mf_le {t c : ℝ} (ht : 0 < t) (hc : 1 ≤ c) :
    Tnfw.massFraction t c ≤ t ^ 2 / 2 * (Real.log (1 + t ^ 2) - Real.log (t ^ 2)) / 0.19 := by
  have h1 := mf_anti_c ht one_pos hc
  refine h1.trans ?_
  have hl := Real.log_two_gt_d9
  have hb : (∫ r in (0 : ℝ)..1, r / (1 + r) ^ 2 * (t ^ 2 / (r ^ 2 + t ^ 2))) ≤ t ^ 2 / 2 * (Real.log (1 + t ^ 2) - Real.log (t ^ 2)) := by
    have hd : ∀ r ∈ Set.uIcc (0 : ℝ) 1, HasDerivAt (fun r => t ^ 2 / 2 * Real.log (r ^ 2 + t ^ 2)) (r * (t ^ 2 / (r ^ 2 + t ^ 2))) r := by
      intro r hr
      have h0 : r ^ 2 + t ^ 2 ≠ 0 := by positivity
      have := (((hasDerivAt_pow 2 r).add_const (t ^ 2)).log h0).const_mul (t ^ 2 / 2)
      refine this.congr_deriv ?_
      field_simp
      norm_num
    have hint : IntervalIntegrable (fun r : ℝ => r * (t ^ 2 / (r ^ 2 + t ^ 2))) MeasureTheory.volume 0 1 :=
      (ContinuousOn.mul (by fun_prop) (cont_w ht 1)).intervalIntegrable_of_Icc zero_le_one
    have e := intervalIntegral.integral_eq_sub_of_hasDerivAt hd hint
    have e' : (∫ r in (0 : ℝ)..1, r * (t ^ 2 / (r ^ 2 + t ^ 2))) = t ^ 2 / 2 * (Real.log (1 + t ^ 2) - Real.log (t ^ 2)) := by
      rw [e]
      norm_num
      ring
    rw [← e']
    apply intervalIntegral.integral_mono_on zero_le_one (int_gw ht one_pos) hint
    intro r hr
    have h0 : 0 ≤ r := hr.1
    apply mul_le_mul_of_nonneg_right _ (by positivity)
    apply div_le_self h0
    nlinarith
  have hb0 : 0 ≤ ∫ r in (0 : ℝ)..1, r / (1 + r) ^ 2 * (t ^ 2 / (r ^ 2 + t ^ 2)) :=
    intervalIntegral.integral_nonneg zero_le_one fun r hr => by
      have : 0 ≤ r := hr.1
      positivity
  rw [mf_eq ht one_pos]
  apply div_le_div₀ (hb0.trans hb) hb (by norm_num)
  norm_num at hl ⊢
  linarith

/-- The closed form is the integral. -/
theorem closed {t c : ℝ} (ht : 0 < t) (hc : 0 < c) : massFraction t c = Tnfw.massFraction t c := by
  rw [mf_eq ht hc]
  unfold massFraction
  simp only [mul_one, one_mul, Real.log_one, mul_zero, sub_zero, one_pow]
  congr 1
  set G : ℝ → ℝ := fun x => t ^ 2 / (2 * (1 + t ^ 2) ^ 2) * (-2 * (1 + t ^ 2) * (x / (1 + x)) + 4 * t * Real.arctan (x / t)
      + 2 * (-1 + t ^ 2) * Real.log (1 + x) + 2 * (-1 + t ^ 2) * Real.log t - (-1 + t ^ 2) * Real.log (x ^ 2 + t ^ 2)) with hG
  have hd : ∀ r ∈ Set.uIcc (0 : ℝ) c, HasDerivAt G (r / (1 + r) ^ 2 * (t ^ 2 / (r ^ 2 + t ^ 2))) r := by
    intro r hr
    rw [Set.uIcc_of_le hc.le] at hr
    have h0 : 0 ≤ r := hr.1
    have n1 : 1 + r ≠ 0 := by positivity
    have n2 : r ^ 2 + t ^ 2 ≠ 0 := by positivity
    have d1 := (hasDerivAt_id r).const_add 1
    have d2 := ((hasDerivAt_id r).div d1 n1).const_mul (-2 * (1 + t ^ 2))
    have d3 := ((hasDerivAt_id r).div_const t).arctan.const_mul (4 * t)
    have d4 := (d1.log n1).const_mul (2 * (-1 + t ^ 2))
    have d5 := (((hasDerivAt_pow 2 r).add_const (t ^ 2)).log n2).const_mul (-1 + t ^ 2)
    have := ((((d2.add d3).add d4).add_const (2 * (-1 + t ^ 2) * Real.log t)).sub d5).const_mul (t ^ 2 / (2 * (1 + t ^ 2) ^ 2))
    refine this.congr_deriv ?_
    have n3 : (1 : ℝ) + t ^ 2 ≠ 0 := by positivity
    have n4 : t ^ 2 + r ^ 2 ≠ 0 := by positivity
    have n5 : 1 + (r / t) ^ 2 ≠ 0 := by positivity
    simp only [id, Nat.cast_ofNat]
    have e1 : (1 : ℝ) / (1 + (r / t) ^ 2) = t ^ 2 / (r ^ 2 + t ^ 2) := by field_simp; ring
    rw [e1]
    field_simp
    ring
  rw [intervalIntegral.integral_eq_sub_of_hasDerivAt hd (int_gw ht hc)]
  have g0 : G 0 = 0 := by
    rw [hG]
    simp only [zero_div, Real.arctan_zero, add_zero, Real.log_one, mul_zero]
    have : Real.log ((0 : ℝ) ^ 2 + t ^ 2) = 2 * Real.log t := by
      rw [zero_pow (by norm_num), zero_add, Real.log_pow]; norm_num
    rw [this]
    ring
  rw [g0, hG]
  have n1 : 1 + c ≠ 0 := by positivity
  have n3 : (1 : ℝ) + t ^ 2 ≠ 0 := by positivity
  field_simp
  ring

/-! ## Tables of truncation radii -/

theorem ten_pos (x : ℝ) : (0 : ℝ) < (10 : ℝ) ^ x := Real.rpow_pos_of_pos (by norm_num) x

theorem ten_mono {x y : ℝ} (h : x ≤ y) : (10 : ℝ) ^ x ≤ (10 : ℝ) ^ y := Real.rpow_le_rpow_of_exponent_le (by norm_num) h

theorem ten_strict {x y : ℝ} (h : x < y) : (10 : ℝ) ^ x < (10 : ℝ) ^ y := Real.rpow_lt_rpow_of_exponent_lt (by norm_num) h

/-- The data handed to `interp1d` for one concentration. -/
theorem data_ok {T : Axis} (hT : T.Ok) {c : ℝ} (hc : 0 < c) :
    (⟨T.n, fun k => Real.logb 10 (Tnfw.massFraction ((10 : ℝ) ^ T.g k) c)⟩ : Axis).Ok :=
  ⟨hT.1, fun i j hij hj => Real.logb_lt_logb (by norm_num) (mf_pos (ten_pos _) hc)
    (mf_strict (ten_pos _) (ten_strict (hT.2 i j hij hj)) hc)⟩

theorem fill_strictMono {T C F : Axis} (hT : T.Ok) (hF : F.Ok) {con : ℝ → ℝ} {i j j' : ℕ} (hc : 0 < con (C.g i)) (hj : j < j')
    (hj' : j' < F.n) : fill T C F con Tnfw.massFraction i j < fill T C F con Tnfw.massFraction i j' :=
  interp1d_strictMono (data_ok hT hc) hT.2 (hF.2 j j' hj hj')

theorem lerp_between {t a b : ℝ} (h0 : 0 ≤ t) (h1 : t ≤ 1) : min a b ≤ lerp t a b ∧ lerp t a b ≤ max a b :=
  lerp_mem h0 h1 ⟨min_le_left _ _, le_max_left _ _⟩ ⟨min_le_right _ _, le_max_right _ _⟩

/-- A truncation radius reproduces a bound fraction up to a factor. -/
def Near (K f c v : ℝ) : Prop :=
  (10 : ℝ) ^ f ≤ K * Tnfw.massFraction ((10 : ℝ) ^ v) c ∧ Tnfw.massFraction ((10 : ℝ) ^ v) c ≤ K * (10 : ℝ) ^ f

theorem Near.between {K f c a b v : ℝ} (hK : 0 ≤ K) (hc : 0 < c) (ha : Near K f c a) (hb : Near K f c b) (h0 : min a b ≤ v)
    (h1 : v ≤ max a b) : Near K f c v := by
  constructor
  · have : Near K f c (min a b) := by rcases min_choice a b with h | h <;> rw [h] <;> assumption
    refine this.1.trans ?_
    gcongr
    exact mf_mono (ten_pos _) (ten_mono h0) hc
  · have : Near K f c (max a b) := by rcases max_choice a b with h | h <;> rw [h] <;> assumption
    exact (mf_mono (ten_pos _) (ten_mono h1) hc).trans this.2

theorem Near.lerp {K f c a b t : ℝ} (hK : 0 ≤ K) (hc : 0 < c) (ha : Near K f c a) (hb : Near K f c b) (h0 : 0 ≤ t) (h1 : t ≤ 1) :
    Near K f c (lerp t a b) :=
  ha.between hK hc hb (lerp_between h0 h1).1 (lerp_between h0 h1).2

/-- At a node of the table the truncation radius reproduces the bound fraction up to twice the spacing of the radii. -/
theorem fill_node {T C F : Axis} (hT : T.Ok) {con : ℝ → ℝ} {i j : ℕ} (hc : 0 < con (C.g i)) {d : ℝ}
    (hd : ∀ k, k + 1 < T.n → T.g (k + 1) ≤ T.g k + d)
    (h0 : Tnfw.massFraction ((10 : ℝ) ^ T.g 0) (con (C.g i)) ≤ (10 : ℝ) ^ F.g j)
    (h1 : (10 : ℝ) ^ F.g j ≤ Tnfw.massFraction ((10 : ℝ) ^ T.g (T.n - 1)) (con (C.g i))) :
    Near ((10 : ℝ) ^ (2 * d)) (F.g j) (con (C.g i)) (fill T C F con Tnfw.massFraction i j) := by
  set c := con (C.g i)
  set X : Axis := ⟨T.n, fun k => Real.logb 10 (Tnfw.massFraction ((10 : ℝ) ^ T.g k) c)⟩ with hX
  have hXo : X.Ok := data_ok hT hc
  have hin : X.Inside (F.g j) := by
    constructor
    · exact (Real.logb_le_iff_le_rpow (by norm_num) (mf_pos (ten_pos _) hc)).2 h0
    · exact (Real.le_logb_iff_rpow_le (by norm_num) (mf_pos (ten_pos _) hc)).2 h1
  obtain ⟨a1, a2, a3⟩ := hXo.cell_spec hin
  have a2' := (Real.logb_le_iff_le_rpow (by norm_num) (mf_pos (ten_pos _) hc)).1 a2
  have a3' := (Real.le_logb_iff_rpow_le (by norm_num) (mf_pos (ten_pos _) hc)).1 a3
  set k := X.cell (F.g j)
  have hk : k + 1 < T.n := a1
  have hlt : T.g k ≤ T.g (k + 1) := (hT.2 k (k + 1) (Nat.lt_succ_self k) hk).le
  have hm := interp1d_mem hXo (y := T.g) hin ⟨le_rfl, hlt⟩ ⟨hlt, le_rfl⟩
  have hstep := mf_ratio_t (ten_pos (T.g k)) (ten_mono hlt) hc
  have hq : ((10 : ℝ) ^ T.g (k + 1) / (10 : ℝ) ^ T.g k) ^ 2 ≤ (10 : ℝ) ^ (2 * d) := by
    rw [← Real.rpow_sub (by norm_num), ← Real.rpow_natCast, ← Real.rpow_mul (by norm_num)]
    apply ten_mono
    have := hd k hk
    push_cast
    linarith
  have hstep' : Tnfw.massFraction ((10 : ℝ) ^ T.g (k + 1)) c ≤ (10 : ℝ) ^ (2 * d) * Tnfw.massFraction ((10 : ℝ) ^ T.g k) c :=
    hstep.trans (mul_le_mul_of_nonneg_right hq (mf_pos (ten_pos _) hc).le)
  have hp := ten_pos (2 * d)
  constructor
  · calc _ ≤ Tnfw.massFraction ((10 : ℝ) ^ T.g (k + 1)) c := a3'
      _ ≤ _ := hstep'
      _ ≤ _ := by
        gcongr
        exact mf_mono (ten_pos _) (ten_mono hm.1) hc
  · calc _ ≤ Tnfw.massFraction ((10 : ℝ) ^ T.g (k + 1)) c := mf_mono (ten_pos _) (ten_mono hm.2) hc
      _ ≤ _ := hstep'
      _ ≤ _ := by gcongr

/-- Going from a node to a point of its cell costs the size of the cell. -/
theorem Near.move {K L Q f f' c c' v : ℝ} (hK : 0 < K) (hc : 0 < c) (hc' : 0 < c') (hQ : 1 ≤ Q) (q1 : c ≤ Q * c') (q2 : c' ≤ Q * c)
    (hL : 0 ≤ L) (hf : |f - f'| ≤ L) (h : Near K f' c' v) : Near (K * (10 : ℝ) ^ L * Q ^ 2) f c v := by
  have hm := mf_pos (ten_pos v) hc
  have hm' := mf_pos (ten_pos v) hc'
  have b1 : Tnfw.massFraction ((10 : ℝ) ^ v) c ≤ Q ^ 2 * Tnfw.massFraction ((10 : ℝ) ^ v) c' := by
    rcases le_total c c' with hle | hle
    · refine (mf_ratio_c (ten_pos v) hc hle).trans ?_
      gcongr
      rw [div_le_iff₀ hc]; exact q2
    · exact (mf_anti_c (ten_pos v) hc' hle).trans (le_mul_of_one_le_left hm'.le (one_le_pow₀ hQ))
  have b2 : Tnfw.massFraction ((10 : ℝ) ^ v) c' ≤ Q ^ 2 * Tnfw.massFraction ((10 : ℝ) ^ v) c := by
    rcases le_total c' c with hle | hle
    · refine (mf_ratio_c (ten_pos v) hc' hle).trans ?_
      gcongr
      rw [div_le_iff₀ hc']; exact q1
    · exact (mf_anti_c (ten_pos v) hc hle).trans (le_mul_of_one_le_left hm.le (one_le_pow₀ hQ))
  have e1 : (10 : ℝ) ^ f ≤ (10 : ℝ) ^ L * (10 : ℝ) ^ f' := by
    rw [← Real.rpow_add (by norm_num)]
    apply ten_mono
    linarith [(abs_le.1 hf).2]
  have e2 : (10 : ℝ) ^ f' ≤ (10 : ℝ) ^ L * (10 : ℝ) ^ f := by
    rw [← Real.rpow_add (by norm_num)]
    apply ten_mono
    linarith [(abs_le.1 hf).1]
  have hLp := ten_pos L
  constructor
  · calc _ ≤ (10 : ℝ) ^ L * (10 : ℝ) ^ f' := e1
      _ ≤ (10 : ℝ) ^ L * (K * Tnfw.massFraction ((10 : ℝ) ^ v) c') := by gcongr; exact h.1
      _ ≤ (10 : ℝ) ^ L * (K * (Q ^ 2 * Tnfw.massFraction ((10 : ℝ) ^ v) c)) := by gcongr
      _ = _ := by ring
  · calc _ ≤ Q ^ 2 * Tnfw.massFraction ((10 : ℝ) ^ v) c' := b1
      _ ≤ Q ^ 2 * (K * (10 : ℝ) ^ f') := by gcongr; exact h.2
      _ ≤ Q ^ 2 * (K * ((10 : ℝ) ^ L * (10 : ℝ) ^ f)) := by gcongr
      _ = _ := by ring

/-- Inside a cell of the table the looked-up truncation radius reproduces the bound fraction up to the spacings. -/
theorem fill_cell {T C F : Axis} (hT : T.Ok) (hC : C.Ok) (hF : F.Ok) {con : ℝ → ℝ} {d e Q x f : ℝ} (hx : C.Inside x) (hf : F.Inside f)
    (hd : ∀ k, k + 1 < T.n → T.g (k + 1) ≤ T.g k + d) (he : ∀ k, k + 1 < F.n → F.g (k + 1) ≤ F.g k + e) (he0 : 0 ≤ e)
    (hm : ∀ a b, C.Inside a → a ≤ b → con a ≤ con b) (hp : ∀ a, C.Inside a → 0 < con a) (hQ : 1 ≤ Q)
    (hQ' : con (C.g (C.cell x + 1)) ≤ Q * con (C.g (C.cell x)))
    (h0 : Tnfw.massFraction ((10 : ℝ) ^ T.g 0) (con (C.g (C.cell x))) ≤ (10 : ℝ) ^ F.g (F.cell f))
    (h1 : (10 : ℝ) ^ F.g (F.cell f + 1) ≤ Tnfw.massFraction ((10 : ℝ) ^ T.g (T.n - 1)) (con (C.g (C.cell x + 1)))) :
    Near ((10 : ℝ) ^ (2 * d) * (10 : ℝ) ^ e * Q ^ 2) f (con x)
      (grid2 C F (fill T C F con Tnfw.massFraction) x f) := by
  obtain ⟨a1, a2, a3⟩ := hC.cell_spec hx
  obtain ⟨b1, b2, b3⟩ := hF.cell_spec hf
  have i0 : C.Inside (C.g (C.cell x)) := ⟨hC.mono (Nat.zero_le _) (by omega), hC.mono (by omega) (by omega)⟩
  have i1 : C.Inside (C.g (C.cell x + 1)) := ⟨hC.mono (Nat.zero_le _) (by omega), hC.mono (by omega) (by omega)⟩
  have p0 := hp _ i0
  have p1 := hp _ i1
  have px := hp _ hx
  have m0 := hm _ _ i0 a2
  have m1 := hm _ _ hx a3
  have m2 := m0.trans m1
  have hFle := hF.mono (show F.cell f ≤ F.cell f + 1 by omega) b1
  have hew := he _ b1
  have hKp := ten_pos (2 * d)
  have hx1 : con x ≤ Q * con (C.g (C.cell x)) := m1.trans hQ'
  have hx2 : con (C.g (C.cell x + 1)) ≤ Q * con x := hQ'.trans (by gcongr)
  have q3 : con (C.g (C.cell x)) ≤ Q * con x := m0.trans (le_mul_of_one_le_left px.le hQ)
  have q4 : con x ≤ Q * con (C.g (C.cell x + 1)) := m1.trans (le_mul_of_one_le_left p1.le hQ)
  have t0 : Tnfw.massFraction ((10 : ℝ) ^ T.g 0) (con (C.g (C.cell x + 1))) ≤ Tnfw.massFraction ((10 : ℝ) ^ T.g 0) (con (C.g (C.cell x))) :=
    mf_anti_c (ten_pos _) p0 m2
  have t1 : Tnfw.massFraction ((10 : ℝ) ^ T.g (T.n - 1)) (con (C.g (C.cell x + 1))) ≤
      Tnfw.massFraction ((10 : ℝ) ^ T.g (T.n - 1)) (con (C.g (C.cell x))) := mf_anti_c (ten_pos _) p0 m2
  have f01 := ten_mono hFle
  have fa : |f - F.g (F.cell f)| ≤ e := by rw [abs_of_nonneg (by linarith)]; linarith
  have fb : |f - F.g (F.cell f + 1)| ≤ e := by rw [abs_sub_comm, abs_of_nonneg (by linarith)]; linarith
  have K0 : 0 ≤ (10 : ℝ) ^ (2 * d) * (10 : ℝ) ^ e * Q ^ 2 := by have := ten_pos e; positivity
  have n00 := (fill_node (F := F) (j := F.cell f) hT p0 hd h0 (f01.trans (h1.trans t1))).move hKp px p0 hQ hx1 q3 he0 fa
  have n01 := (fill_node (F := F) (j := F.cell f + 1) hT p0 hd (h0.trans f01) (h1.trans t1)).move hKp px p0 hQ hx1 q3 he0 fb
  have n10 := (fill_node (F := F) (j := F.cell f) hT p1 hd (t0.trans h0) (f01.trans h1)).move hKp px p1 hQ q4 hx2 he0 fa
  have n11 := (fill_node (F := F) (j := F.cell f + 1) hT p1 hd (t0.trans (h0.trans f01)) h1).move hKp px p1 hQ q4 hx2 he0 fb
  obtain ⟨g0, g1⟩ := hC.frac_mem hx
  obtain ⟨k0, k1⟩ := hF.frac_mem hf
  exact (n00.lerp K0 px n01 k0 k1).lerp K0 px (n10.lerp K0 px n11 k0 k1) g0 g1

theorem linspace_step (a b : ℝ) (n k : ℕ) : (Axis.linspace a b n).g (k + 1) = (Axis.linspace a b n).g k + (b - a) / ((n : ℝ) - 1) := by
  simp only [Axis.linspace]
  push_cast
  ring

end PyHalo.Emulator
