import Verif.Lemmas.Emulator
import Verif.Lemmas.Rounding
import Verif.Props.MassLoss
import Verif.Props.LensCosmo

/-!
# C109: truncation radii looked up from bound masses
-/

namespace PyHalo.Props

open PyHalo Emulator Np

/-- The share of the mass of a profile `1 / (x (1 + x)^2)` inside `c` that is left when its density is multiplied with
`tau^2 / (x^2 + tau^2)`. -/
noncomputable def Spec109.bound (tau c : ℝ) : ℝ :=
  (∫ x in (0 : ℝ)..c, x ^ 2 * (1 / (x * (1 + x) ^ 2) * (tau ^ 2 / (x ^ 2 + tau ^ 2)))) /
    ∫ x in (0 : ℝ)..c, x ^ 2 * (1 / (x * (1 + x) ^ 2))

theorem mf_bound {t c : ℝ} (ht : 0 < t) (hc : 0 < c) : Tnfw.massFraction t c = Spec109.bound t c := by
  rw [mf_eq ht hc, ← m_eq hc]
  unfold Spec109.bound
  have e : ∀ x : ℝ, x ^ 2 * (1 / (x * (1 + x) ^ 2)) = x / (1 + x) ^ 2 := by
    intro x
    by_cases hx : x = 0
    · simp [hx]
    · by_cases h1 : 1 + x = 0
      · simp [h1]
      · field_simp
  congr 1
  · congr 1
    funext x
    rw [← mul_assoc, e]
  · congr 1
    funext x
    rw [e]

/-- **C109**. Both formulas for the mass fraction - the one from the lens-model library and the closed form of the
emulator - give the share of mass left by the truncation. -/
theorem c109_closed_form {tau c : ℝ} (ht : 0 < tau) (hc : 0 < c) :
    Emulator.massFraction tau c = Spec109.bound tau c ∧ Tnfw.massFraction tau c = Spec109.bound tau c :=
  ⟨(closed ht hc).trans (mf_bound ht hc), mf_bound ht hc⟩

example := c109_closed_form (tau := 2) (c := 10) two_pos (by norm_num)

/-- At a fixed truncation radius (in scale radii) more concentrated halos keep a smaller share. -/
theorem c109_concentration {tau c c' : ℝ} (ht : 0 < tau) (hc : 0 < c) (h : c ≤ c') :
    Spec109.bound tau c' ≤ Spec109.bound tau c := by
  rw [← mf_bound ht hc, ← mf_bound ht (hc.trans_le h)]
  exact mf_anti_c ht hc h

example := c109_concentration (tau := 2) (c := 10) (c' := 20) two_pos (by norm_num) (by norm_num)

theorem tauPoint_inside (log10c log10f : ℝ) : MassLoss.tauAxes.1.Inside (MassLoss.tauPoint log10c log10f).1 := by
  have := (c30_tau_partial log10c log10f).1
  unfold Axis.Inside MassLoss.tauAxes
  simp only [linspace_zero]
  exact ⟨this.1, this.2.trans_eq (linspace_last 0 2.7 (n := 100) (by norm_num)).symm⟩

theorem logb_ninety : (-6 : ℝ) < Real.logb 10 0.9999 := by
  rw [Real.lt_logb_iff_rpow_lt (by norm_num) (by norm_num), Real.rpow_neg (by norm_num)]
  norm_num

theorem tauF_ok : MassLoss.tauAxes.2.Ok := linspace_ok logb_ninety (n := 100) (by norm_num)

theorem tauC_ok : MassLoss.tauAxes.1.Ok := linspace_ok (show (0 : ℝ) < 2.7 by norm_num) (n := 100) (by norm_num)

theorem tauT_ok : tauNodes.Ok := linspace_ok (show (-4.1 : ℝ) < 2.3 by norm_num) (n := 100) (by norm_num)

theorem log10Tau_strict {x f f' : ℝ} (hx : MassLoss.tauAxes.1.Inside x) (h : f < f') : log10Tau x f < log10Tau x f' := by
  unfold log10Tau
  refine grid2_strictMono tauC_ok tauF_ok ?_ hx h
  intro i j j' _ hj hj'
  exact fill_strictMono (con := fun l => (10 : ℝ) ^ l) tauT_ok tauF_ok (ten_pos _) hj hj'

/-- **C109**. Whatever the concentration, a halo that keeps more of its mass has the larger truncation radius (in scale
radii); bound fractions between `10^-8` and `10^-0.001` are told apart. -/
theorem c109_monotone (log10c : ℝ) {f f' : ℝ} (h : f ≤ f') :
    0 < tauOfBound log10c f ∧ tauOfBound log10c f ≤ tauOfBound log10c f' ∧
      (-8 ≤ f → f < f' → f' ≤ -0.001 → tauOfBound log10c f < tauOfBound log10c f') := by
  refine ⟨ten_pos _, ?_, ?_⟩
  · unfold tauOfBound
    apply ten_mono
    have : (MassLoss.tauPoint log10c f).2 ≤ (MassLoss.tauPoint log10c f').2 := by
      unfold MassLoss.tauPoint
      exact min_le_min_right _ (max_le_max_right _ h)
    rcases this.lt_or_eq with q | q
    · exact (log10Tau_strict (tauPoint_inside log10c f) q).le
    · rw [q]; rfl
  · intro h0 hlt h1
    unfold tauOfBound
    apply ten_strict
    have : (MassLoss.tauPoint log10c f).2 < (MassLoss.tauPoint log10c f').2 := by
      unfold MassLoss.tauPoint
      simp only
      rw [max_eq_left h0, max_eq_left (h0.trans hlt.le), min_eq_left h1, min_eq_left (hlt.le.trans h1)]
      exact hlt
    exact log10Tau_strict (tauPoint_inside log10c f) this

example : tauOfBound 1 (-1) < tauOfBound 1 (-0.5) :=
  (c109_monotone 1 (by norm_num)).2.2 (by norm_num) (by norm_num) (by norm_num)

/-! ### The bound mass is reproduced -/

theorem ten_quarter : (10 : ℝ) ^ (1 / 4 : ℝ) ≤ 1.78 := by
  rw [show (1 / 4 : ℝ) = (4 : ℝ)⁻¹ by norm_num, Real.rpow_inv_le_iff_of_pos (by norm_num) (by norm_num) (by norm_num),
    show (4 : ℝ) = ((4 : ℕ) : ℝ) by norm_num, Real.rpow_natCast]
  norm_num

theorem ten_eighth : (10 : ℝ) ^ (1 / 8 : ℝ) ≤ 1.335 := by
  rw [show (1 / 8 : ℝ) = (8 : ℝ)⁻¹ by norm_num, Real.rpow_inv_le_iff_of_pos (by norm_num) (by norm_num) (by norm_num),
    show (8 : ℝ) = ((8 : ℕ) : ℝ) by norm_num, Real.rpow_natCast]
  norm_num

theorem ten_fifteenth : (10 : ℝ) ^ (1 / 15 : ℝ) ≤ 1.17 := by
  rw [show (1 / 15 : ℝ) = (15 : ℝ)⁻¹ by norm_num, Real.rpow_inv_le_iff_of_pos (by norm_num) (by norm_num) (by norm_num),
    show (15 : ℝ) = ((15 : ℕ) : ℝ) by norm_num, Real.rpow_natCast]
  norm_num

/-- Tiny truncation radii leave less mass than any entry of the tables. -/
theorem mf_tiny {a c : ℝ} (ha0 : 1 ≤ a) (ha : a ≤ 8.2) (hc : 1 ≤ c) :
    Tnfw.massFraction ((10 : ℝ) ^ (-a / 2)) c ≤ (10 : ℝ) ^ (2 - a) := by
  refine (mf_le (ten_pos _) hc).trans ?_
  have e : ((10 : ℝ) ^ (-a / 2)) ^ 2 = (10 : ℝ) ^ (-a) := by
    rw [← Real.rpow_natCast, ← Real.rpow_mul (by norm_num)]
    congr 1
    push_cast
    ring
  have hp := ten_pos (-a)
  have h1 : (10 : ℝ) ^ (-a) ≤ 0.1 := by
    have := ten_mono (show -a ≤ -1 by linarith)
    rw [Real.rpow_neg_one] at this
    linarith
  have hl1 : Real.log (1 + (10 : ℝ) ^ (-a)) ≤ 0.1 := by
    have := Real.log_le_sub_one_of_pos (show 0 < 1 + (10 : ℝ) ^ (-a) by linarith)
    linarith
  have hl2 : Real.log ((10 : ℝ) ^ (-a)) = -a * Real.log 10 := Real.log_rpow (by norm_num) _
  have hl10 : Real.log 10 ≤ 2.8 := by
    have h16 : Real.log 10 ≤ Real.log (2 ^ 4) := Real.log_le_log (by norm_num) (by norm_num)
    rw [Real.log_pow] at h16
    have := Real.log_two_lt_d9
    norm_num at *
    linarith
  have hl0 : 0 ≤ Real.log 10 := Real.log_nonneg (by norm_num)
  have e2 : (10 : ℝ) ^ (2 - a) = 100 * (10 : ℝ) ^ (-a) := by
    rw [sub_eq_add_neg, Real.rpow_add (by norm_num)]
    norm_num
  rw [e, e2, hl2, div_le_iff₀ (by norm_num)]
  have hb : Real.log (1 + (10 : ℝ) ^ (-a)) - -a * Real.log 10 ≤ 23.1 := by nlinarith
  nlinarith

/-- **C109**. For concentrations up to 100 and bound fractions between a millionth and one half, the truncated profile a
halo gets keeps the requested share of its mass up to a factor 1.78. -/
theorem c109_bound_mass {c F : ℝ} (hc : 1 ≤ c) (hc' : c ≤ 100) (hF : (10 : ℝ) ^ (-6 : ℝ) ≤ F) (hF' : F ≤ 1 / 2) :
    F / 1.78 ≤ Spec109.bound (tauOfBound (Real.logb 10 c) (Real.logb 10 F)) c ∧
      Spec109.bound (tauOfBound (Real.logb 10 c) (Real.logb 10 F)) c ≤ 1.78 * F := by
  have hc0 : 0 < c := by linarith
  have hF0 : 0 < F := (ten_pos _).trans_le hF
  have ec : (10 : ℝ) ^ Real.logb 10 c = c := Real.rpow_logb (by norm_num) (by norm_num) hc0
  have eF : (10 : ℝ) ^ Real.logb 10 F = F := Real.rpow_logb (by norm_num) (by norm_num) hF0
  have x0 : 0 ≤ Real.logb 10 c := Real.logb_nonneg (by norm_num) hc
  have x2 : Real.logb 10 c ≤ 2 := by
    rw [Real.logb_le_iff_le_rpow (by norm_num) hc0]
    norm_num
    exact hc'
  have f0 : -6 ≤ Real.logb 10 F := (Real.le_logb_iff_rpow_le (by norm_num) hF0).2 hF
  have f1 : Real.logb 10 F ≤ -0.125 := by
    rw [Real.logb_le_iff_le_rpow (by norm_num) hF0]
    refine hF'.trans ?_
    rw [Real.rpow_neg (by norm_num), show (0.125 : ℝ) = 1 / 8 by norm_num]
    have := ten_eighth
    rw [le_inv_comm₀ (by norm_num) (ten_pos _)]
    linarith
  have htop := (c30_tau_partial 0 0).2.2
  have hin1 : MassLoss.tauAxes.1.Inside (Real.logb 10 c) :=
    ⟨(linspace_zero _ _ _).trans_le x0, by
      refine (show Real.logb 10 c ≤ 2.7 by linarith).trans_eq ?_
      exact (linspace_last 0 2.7 (n := 100) (by norm_num)).symm⟩
  have h3 : (-0.001 : ℝ) ≤ Real.logb 10 0.9999 := by
    have e : (MassLoss.tauPoint 0 0).2 = -0.001 := by
      unfold MassLoss.tauPoint
      norm_num
    rwa [e] at htop
  have hin2 : MassLoss.tauAxes.2.Inside (Real.logb 10 F) :=
    ⟨(linspace_zero _ _ _).trans_le f0, by
      refine (show Real.logb 10 F ≤ Real.logb 10 0.9999 by linarith).trans_eq ?_
      exact (linspace_last (-6) (Real.logb 10 0.9999) (n := 100) (by norm_num)).symm⟩
  have hpt : MassLoss.tauPoint (Real.logb 10 c) (Real.logb 10 F) = (Real.logb 10 c, Real.logb 10 F) := by
    have h1 : Real.logb 10 1 = 0 := Real.logb_one
    have h2 : Real.logb 10 ((10 : ℝ) ^ (2.7 : ℝ)) = 2.7 := Real.logb_rpow (by norm_num) (by norm_num)
    unfold MassLoss.tauPoint
    rw [h1, h2, max_eq_left x0, min_eq_left (by linarith), max_eq_left (by linarith), min_eq_left (by linarith)]
  obtain ⟨a1, a2, a3⟩ := tauC_ok.cell_spec hin1
  obtain ⟨b1, b2, b3⟩ := tauF_ok.cell_spec hin2
  have hFneg : Real.logb 10 0.9999 ≤ 0 := Real.logb_nonpos (by norm_num) (by norm_num) (by norm_num)
  have hstepC : ∀ k, MassLoss.tauAxes.1.g (k + 1) = MassLoss.tauAxes.1.g k + 2.7 / 99 := by
    intro k
    refine (linspace_step 0 2.7 100 k).trans ?_
    norm_num [MassLoss.tauAxes]
  have hstepF : ∀ k, MassLoss.tauAxes.2.g (k + 1) ≤ MassLoss.tauAxes.2.g k + 6 / 99 := by
    intro k
    refine (linspace_step (-6) (Real.logb 10 0.9999) 100 k).trans_le ?_
    have : (Real.logb 10 0.9999 - -6) / (((100 : ℕ) : ℝ) - 1) ≤ 6 / 99 := by
      norm_num
      linarith
    unfold MassLoss.tauAxes
    simp only
    linarith
  have hstepT : ∀ k, tauNodes.g (k + 1) ≤ tauNodes.g k + 6.4 / 99 := by
    intro k
    refine ((linspace_step (-4.1) 2.3 100 k).trans ?_).le
    norm_num [tauNodes]
  have c0 : 0 ≤ MassLoss.tauAxes.1.g (MassLoss.tauAxes.1.cell (Real.logb 10 c)) := by
    have := tauC_ok.mono (Nat.zero_le (MassLoss.tauAxes.1.cell (Real.logb 10 c))) (by omega)
    exact (linspace_zero 0 2.7 100).symm.trans_le this
  have F0 : -6 ≤ MassLoss.tauAxes.2.g (MassLoss.tauAxes.2.cell (Real.logb 10 F)) := by
    have := tauF_ok.mono (Nat.zero_le (MassLoss.tauAxes.2.cell (Real.logb 10 F))) (by omega)
    exact (linspace_zero (-6) (Real.logb 10 0.9999) 100).symm.trans_le this
  have main := fill_cell (con := fun l => (10 : ℝ) ^ l) (d := 6.4 / 99) (e := 6 / 99) (Q := (10 : ℝ) ^ (2.7 / 99 : ℝ))
    tauT_ok tauC_ok tauF_ok hin1 hin2 (fun k _ => hstepT k) (fun k _ => hstepF k) (by norm_num)
    (fun a b _ hab => ten_mono hab) (fun a _ => ten_pos a) (Real.one_le_rpow (by norm_num) (by norm_num))
    (by rw [hstepC, Real.rpow_add (by norm_num), mul_comm])
    (by
      have e1 : tauNodes.g 0 = -8.2 / 2 := (linspace_zero _ _ _).trans (by norm_num)
      rw [e1]
      refine (mf_tiny (a := 8.2) (by norm_num) le_rfl (Real.one_le_rpow (by norm_num) c0)).trans ?_
      apply ten_mono
      linarith)
    (by
      have e1 : tauNodes.g (tauNodes.n - 1) = 2.3 := linspace_last (-4.1) 2.3 (n := 100) (by norm_num)
      rw [e1]
      refine le_trans ?_ (mf_ge (ten_pos _) (ten_pos _))
      have q1 : ((10 : ℝ) ^ (2.3 : ℝ)) ^ 2 = (10 : ℝ) ^ (4 : ℝ) * (10 : ℝ) ^ (0.6 : ℝ) := by
        rw [← Real.rpow_natCast, ← Real.rpow_mul (by norm_num), ← Real.rpow_add (by norm_num)]
        norm_num
      have q2 : ((10 : ℝ) ^ MassLoss.tauAxes.1.g (MassLoss.tauAxes.1.cell (Real.logb 10 c) + 1)) ^ 2 ≤ (10 : ℝ) ^ (4 : ℝ) * (10 : ℝ) ^ (1 / 8 : ℝ) := by
        rw [← Real.rpow_natCast, ← Real.rpow_mul (by norm_num), ← Real.rpow_add (by norm_num)]
        apply ten_mono
        rw [hstepC]
        push_cast
        linarith
      have q3 : (3.1 : ℝ) ≤ (10 : ℝ) ^ (0.6 : ℝ) := by
        have h1 := ten_mono (show (0.5 : ℝ) ≤ 0.6 by norm_num)
        have h2 : (3.1 : ℝ) ≤ (10 : ℝ) ^ (0.5 : ℝ) := by
          rw [show (0.5 : ℝ) = 1 / 2 by norm_num, ← Real.sqrt_eq_rpow]
          exact Real.le_sqrt_of_sq_le (by norm_num)
        linarith
      have q4 := ten_eighth
      have q5 : (10 : ℝ) ^ (4 : ℝ) = 10000 := by norm_num
      have q6 : (10 : ℝ) ^ MassLoss.tauAxes.2.g (MassLoss.tauAxes.2.cell (Real.logb 10 F) + 1) ≤ 0.6675 := by
        have h1 : MassLoss.tauAxes.2.g (MassLoss.tauAxes.2.cell (Real.logb 10 F) + 1) ≤ Real.logb 10 F + 1 / 8 := by
          have := hstepF (MassLoss.tauAxes.2.cell (Real.logb 10 F))
          linarith
        have h2 := ten_mono h1
        rw [Real.rpow_add (by norm_num), eF] at h2
        have := ten_pos (1 / 8)
        nlinarith
      refine q6.trans ?_
      rw [q1, q5] at *
      rw [le_div_iff₀ (by positivity)]
      nlinarith)
  rw [ec] at main
  have hK : (10 : ℝ) ^ (2 * (6.4 / 99) : ℝ) * (10 : ℝ) ^ (6 / 99 : ℝ) * ((10 : ℝ) ^ (2.7 / 99 : ℝ)) ^ 2 ≤ 1.78 := by
    rw [← Real.rpow_natCast ((10 : ℝ) ^ (2.7 / 99 : ℝ)), ← Real.rpow_mul (by norm_num), ← Real.rpow_add (by norm_num),
      ← Real.rpow_add (by norm_num)]
    exact (ten_mono (by norm_num)).trans ten_quarter
  have hv : tauOfBound (Real.logb 10 c) (Real.logb 10 F) = (10 : ℝ) ^ log10Tau (Real.logb 10 c) (Real.logb 10 F) := by
    unfold tauOfBound
    rw [hpt]
  have hmp := mf_pos (ten_pos (log10Tau (Real.logb 10 c) (Real.logb 10 F))) hc0
  rw [hv, ← mf_bound (ten_pos _) hc0]
  obtain ⟨r1, r2⟩ := main
  rw [eF] at r1 r2
  constructor
  · rw [div_le_iff₀ (by norm_num), mul_comm]
    exact r1.trans (mul_le_mul_of_nonneg_right hK hmp.le)
  · exact r2.trans (mul_le_mul_of_nonneg_right hK hF0.le)

example := c109_bound_mass (c := 10) (F := 0.1) (by norm_num) (by norm_num)
  (by rw [Real.rpow_neg (by norm_num)]; norm_num) (by norm_num)

/-! ### Subhalos of the emulator -/

theorem emuC_ok : axes.2.1.Ok := linspace_ok (show (1 : ℝ) < 200 by norm_num) (n := 250) (by norm_num)

theorem emuF_ok : axes.2.2.Ok := linspace_ok (show (-4 : ℝ) < -0.001 by norm_num) (n := 250) (by norm_num)

theorem emuT_ok : axes.1.Ok := linspace_ok (show (-3.5 : ℝ) < 2.5 by norm_num) (n := 250) (by norm_num)

theorem emuC_pos (i : ℕ) : 0 < axes.2.1.g i := by
  have : (0 : ℝ) ≤ i := Nat.cast_nonneg i
  simp only [axes, Axis.linspace]
  norm_num
  positivity

theorem emu_eq (c f : ℝ) : log10TauEmu c f = grid2 axes.2.1 axes.2.2 (fill axes.1 axes.2.1 axes.2.2 (fun c => c) Tnfw.massFraction) c f := by
  unfold log10TauEmu
  have : fill axes.1 axes.2.1 axes.2.2 (fun c => c) Emulator.massFraction =
      fill axes.1 axes.2.1 axes.2.2 (fun c => c) Tnfw.massFraction := by
    funext i j
    have e : (fun k => Real.logb 10 (Emulator.massFraction ((10 : ℝ) ^ axes.1.g k) (axes.2.1.g i))) =
        fun k => Real.logb 10 (Tnfw.massFraction ((10 : ℝ) ^ axes.1.g k) (axes.2.1.g i)) := by
      funext k
      rw [closed (ten_pos _) (emuC_pos i)]
    unfold fill
    rw [e]
  rw [this]

theorem emuC_inside {c : ℝ} (hc : 1 ≤ c) (hc' : c ≤ 200) : axes.2.1.Inside c :=
  ⟨(linspace_zero _ _ _).trans_le hc, hc'.trans_eq (linspace_last 1 200 (n := 250) (by norm_num)).symm⟩

/-- C109 for the emulator: among concentrations between 1 and 200 a larger bound fraction, whatever its value, gives the
larger truncation radius. -/
theorem c109_monotone_emulator {c f f' : ℝ} (hc : 1 ≤ c) (hc' : c ≤ 200) (h : f < f') : log10TauEmu c f < log10TauEmu c f' := by
  rw [emu_eq, emu_eq]
  refine grid2_strictMono emuC_ok emuF_ok ?_ (emuC_inside hc hc') h
  intro i j j' _ hj hj'
  exact fill_strictMono (con := fun c => c) emuT_ok emuF_ok (emuC_pos i) hj hj'

example := c109_monotone_emulator (c := 10) (f := -1) (f' := -0.5) (by norm_num) (by norm_num) (by norm_num)

/-- **C109** for the emulator: for concentrations between 1 and 200 and bound fractions between a ten-thousandth and one
half the truncated profile keeps the requested share up to a factor that is below 1.28 for concentrations above 20. -/
theorem c109_bound_mass_emulator {c F : ℝ} (hc : 1 ≤ c) (hc' : c ≤ 200) (hF : (10 : ℝ) ^ (-4 : ℝ) ≤ F) (hF' : F ≤ 1 / 2) :
    F ≤ 1.17 * (1 + 0.8 / max 1 (c - 0.8)) ^ 2 * Spec109.bound ((10 : ℝ) ^ log10TauEmu c (Real.logb 10 F)) c ∧
      Spec109.bound ((10 : ℝ) ^ log10TauEmu c (Real.logb 10 F)) c ≤ 1.17 * (1 + 0.8 / max 1 (c - 0.8)) ^ 2 * F := by
  have hc0 : 0 < c := by linarith
  have hF0 : 0 < F := (ten_pos _).trans_le hF
  have eF : (10 : ℝ) ^ Real.logb 10 F = F := Real.rpow_logb (by norm_num) (by norm_num) hF0
  have f0 : -4 ≤ Real.logb 10 F := (Real.le_logb_iff_rpow_le (by norm_num) hF0).2 hF
  have f1 : Real.logb 10 F ≤ -0.125 := by
    rw [Real.logb_le_iff_le_rpow (by norm_num) hF0]
    refine hF'.trans ?_
    rw [Real.rpow_neg (by norm_num), show (0.125 : ℝ) = 1 / 8 by norm_num]
    have := ten_eighth
    rw [le_inv_comm₀ (by norm_num) (ten_pos _)]
    linarith
  have hin1 := emuC_inside hc hc'
  have hin2 : axes.2.2.Inside (Real.logb 10 F) :=
    ⟨(linspace_zero _ _ _).trans_le f0, by
      refine (show Real.logb 10 F ≤ -0.001 by linarith).trans_eq ?_
      exact (linspace_last (-4) (-0.001) (n := 250) (by norm_num)).symm⟩
  obtain ⟨a1, a2, a3⟩ := emuC_ok.cell_spec hin1
  obtain ⟨b1, b2, b3⟩ := emuF_ok.cell_spec hin2
  have hstepC : ∀ k, axes.2.1.g (k + 1) = axes.2.1.g k + 199 / 249 := by
    intro k
    refine (linspace_step 1 200 250 k).trans ?_
    norm_num [axes]
  have hstepF : ∀ k, axes.2.2.g (k + 1) ≤ axes.2.2.g k + 3.999 / 249 := by
    intro k
    refine ((linspace_step (-4) (-0.001) 250 k).trans ?_).le
    norm_num [axes]
  have hstepT : ∀ k, axes.1.g (k + 1) ≤ axes.1.g k + 6 / 249 := by
    intro k
    refine ((linspace_step (-3.5) 2.5 250 k).trans ?_).le
    norm_num [axes]
  have c0 : 1 ≤ axes.2.1.g (axes.2.1.cell c) := by
    have := emuC_ok.mono (Nat.zero_le (axes.2.1.cell c)) (by omega)
    exact (linspace_zero 1 200 250).symm.trans_le this
  have F0 : -4 ≤ axes.2.2.g (axes.2.2.cell (Real.logb 10 F)) := by
    have := emuF_ok.mono (Nat.zero_le (axes.2.2.cell (Real.logb 10 F))) (by omega)
    exact (linspace_zero (-4) (-0.001) 250).symm.trans_le this
  have hsC := hstepC (axes.2.1.cell c)
  have hmax : max 1 (c - 0.8) ≤ axes.2.1.g (axes.2.1.cell c) := max_le c0 (by linarith)
  have hmax1 : (1 : ℝ) ≤ max 1 (c - 0.8) := le_max_left _ _
  set Q : ℝ := 1 + 0.8 / max 1 (c - 0.8) with hQ
  have hQ1 : 1 ≤ Q := by
    have : 0 ≤ 0.8 / max 1 (c - 0.8) := by positivity
    linarith
  have hQ2 : axes.2.1.g (axes.2.1.cell c + 1) ≤ Q * axes.2.1.g (axes.2.1.cell c) := by
    rw [hsC, hQ, add_mul, one_mul]
    have : 0.8 ≤ 0.8 / max 1 (c - 0.8) * axes.2.1.g (axes.2.1.cell c) := by
      rw [div_mul_eq_mul_div, le_div_iff₀ (by positivity)]
      linarith
    linarith
  have main := fill_cell (con := fun c => c) (d := 6 / 249) (e := 3.999 / 249) (Q := Q) emuT_ok emuC_ok emuF_ok hin1 hin2
    (fun k _ => hstepT k) (fun k _ => hstepF k) (by norm_num) (fun a b _ hab => hab)
    (fun a ha => by
      have h1 : axes.2.1.g 0 ≤ a := ha.1
      have h2 : axes.2.1.g 0 = 1 := linspace_zero 1 200 250
      linarith) hQ1 hQ2
    (by
      have e1 : axes.1.g 0 = -7 / 2 := (linspace_zero _ _ _).trans (by norm_num)
      rw [e1]
      refine (mf_tiny (a := 7) (by norm_num) (by norm_num) c0).trans ?_
      apply ten_mono
      linarith)
    (by
      have e1 : axes.1.g (axes.1.n - 1) = 2.5 := linspace_last (-3.5) 2.5 (n := 250) (by norm_num)
      rw [e1]
      refine le_trans ?_ (mf_ge (ten_pos _) (emuC_pos _))
      have q1 : ((10 : ℝ) ^ (2.5 : ℝ)) ^ 2 = 100000 := by
        rw [← Real.rpow_natCast, ← Real.rpow_mul (by norm_num)]
        norm_num
      have q2 : axes.2.1.g (axes.2.1.cell c + 1) ≤ 201 := by rw [hsC]; linarith
      have q2' : 0 < axes.2.1.g (axes.2.1.cell c + 1) := emuC_pos _
      have q4 := ten_eighth
      have q6 : (10 : ℝ) ^ axes.2.2.g (axes.2.2.cell (Real.logb 10 F) + 1) ≤ 0.6675 := by
        have h1 : axes.2.2.g (axes.2.2.cell (Real.logb 10 F) + 1) ≤ Real.logb 10 F + 1 / 8 := by
          have := hstepF (axes.2.2.cell (Real.logb 10 F))
          linarith
        have h2 := ten_mono h1
        rw [Real.rpow_add (by norm_num), eF] at h2
        have := ten_pos (1 / 8)
        nlinarith
      refine q6.trans ?_
      rw [q1, le_div_iff₀ (by positivity)]
      nlinarith)
  have hK : (10 : ℝ) ^ (2 * (6 / 249) : ℝ) * (10 : ℝ) ^ (3.999 / 249 : ℝ) * Q ^ 2 ≤ 1.17 * Q ^ 2 := by
    apply mul_le_mul_of_nonneg_right _ (by positivity)
    rw [← Real.rpow_add (by norm_num)]
    exact (ten_mono (by norm_num)).trans ten_fifteenth
  have hmp := mf_pos (ten_pos (log10TauEmu c (Real.logb 10 F))) hc0
  rw [← emu_eq] at main
  rw [← mf_bound (ten_pos _) hc0]
  obtain ⟨r1, r2⟩ := main
  rw [eF] at r1 r2
  exact ⟨r1.trans (mul_le_mul_of_nonneg_right hK hmp.le), r2.trans (mul_le_mul_of_nonneg_right hK hF0.le)⟩

example := c109_bound_mass_emulator (c := 30) (F := 0.1) (by norm_num) (by norm_num)
  (by rw [Real.rpow_neg (by norm_num)]; norm_num) (by norm_num)

/-- **C109**. A subhalo of the emulator: its truncation radius is one multiple of its scale radius, in kpc and in arcsec
alike, the multiple being the one looked up from its bound mass; the lens model sits at the given position (to four digits)
with the scale radius of the halo (to ten). -/
theorem c109_emulator_halo (s : Sub) (e : LensCosmo.Env) (norm : ℝ) (hk : 0 < s.kpa) (hD : s.kpa = 1000 * e.DAz s.z * arcsec) :
    ∃ rho rs r200 aRs rsA x y rt a : ℝ,
      LensCosmo.nfwParamKpc e s.infallMass s.conc s.z (some false) = .ok (rho, rs, r200) ∧
      s.profileArgs e = .ok (s.conc, (10 : ℝ) ^ log10TauEmu s.conc (Real.logb 10 (s.boundMass / s.infallMass)) * rs) ∧
      s.lensParams e norm = .ok (aRs, rsA, x, y, rt) ∧
      a = (LensCosmo.nfwAngles e (rho * 1000 ^ 3) (rs / 1000) s.z false).2 ∧ |aRs - norm * a| ≤ |norm| * (1 / 2 / 10 ^ 10) ∧
      rt = (10 : ℝ) ^ log10TauEmu s.conc (Real.logb 10 (s.boundMass / s.infallMass)) * (rs / s.kpa) ∧
      |rsA - rs / s.kpa| ≤ 1 / 2 / 10 ^ 10 ∧ |x - s.x / s.kpa| ≤ 1 / 20000 ∧ |y - s.y / s.kpa| ≤ 1 / 20000 := by
  have harc : arcsec ≠ 0 := by
    intro h
    rw [h, mul_zero] at hD
    exact hk.ne' hD
  have hDA : e.DAz s.z ≠ 0 := by
    intro h
    rw [h, mul_zero, zero_mul] at hD
    exact hk.ne' hD
  have r10 : ∀ v : ℝ, |HaloObj.round10 v - v| ≤ 1 / 2 / 10 ^ 10 := by
    intro v
    have := abs_rint_sub (10 ^ 10 * v)
    unfold HaloObj.round10
    rw [show (rint (10 ^ 10 * v) : ℝ) / 10 ^ 10 - v = ((rint (10 ^ 10 * v) : ℝ) - 10 ^ 10 * v) / 10 ^ 10 by ring, abs_div,
      abs_of_pos (show (0 : ℝ) < 10 ^ 10 by positivity)]
    gcongr
  have r4 : ∀ v : ℝ, |HaloObj.round4 v - v| ≤ 1 / 20000 := by
    intro v
    have := abs_rint_sub (10000 * v)
    unfold HaloObj.round4
    rw [show (rint (10000 * v) : ℝ) / 10000 - v = ((rint (10000 * v) : ℝ) - 10000 * v) / 10000 by ring, abs_div,
      abs_of_pos (show (0 : ℝ) < 10000 by positivity), div_le_iff₀ (by norm_num)]
    linarith
  refine ⟨_, _, _, _, _, _, _, _, _, rfl, ?_, rfl, rfl, ?_, ?_, ?_, r4 _, r4 _⟩
  · simp only [Sub.profileArgs, Sub.angles, LensCosmo.nfwParam, LensCosmo.nfwAngles, bind, Except.bind, pure, Except.pure]
    rw [hD]
    congr 2
    field_simp
  · rw [← mul_sub, abs_mul]
    apply mul_le_mul_of_nonneg_left _ (abs_nonneg _)
    have e1 : ∀ v : ℝ, v * ((1000 : ℝ) ^ 3)⁻¹ * 1000 ^ 3 = v := fun v => by field_simp
    have e2 : ∀ v : ℝ, v * 1000 / 1000 = v := fun v => by field_simp
    rw [e1, e2]
    exact r10 _
  · rw [hD]
    field_simp
  · have : ∀ r : ℝ, r * 1000 / s.kpa = r / e.DAz s.z / arcsec := by
      intro r
      rw [hD]
      field_simp
    rw [this]
    exact r10 _

example := c109_emulator_halo ⟨1e8, 10, 5, 1e7, 20, 0.5, 1000 * demoEnv.DAz 0.5 * arcsec⟩ demoEnv 1
  (by unfold arcsec; norm_num [demoEnv]; exact Real.pi_pos) rfl

end PyHalo.Props
