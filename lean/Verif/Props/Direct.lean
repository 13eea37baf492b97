import Verif.Model.Direct
import Verif.Props.Concentration

/-!
# C119: concentrations with and without the table
-/

namespace PyHalo.Props
open PyHalo Conc

/-- The table was built by `_build_table`. -/
def BuiltBy (col : ℝ → ℝ → ℝ) (t : Table) : Prop := ∃ a b c d, t = buildTable col a b c d

theorem refresh_built (col : ℝ → ℝ → ℝ) (tab : Option Table) (hg : ∀ t, tab = some t → BuiltBy col t) (q : ℝ × ℝ) (qs : List (ℝ × ℝ)) :
    BuiltBy col (refresh col tab q qs) := by
  unfold refresh
  simp only
  cases tab with
  | none => exact ⟨_, _, _, _, rfl⟩
  | some t =>
    simp only
    split_ifs
    · exact ⟨_, _, _, _, rfl⟩
    · exact hg t rfl

theorem step_built (col : ℝ → ℝ → ℝ) (tab : Option Table) (hg : ∀ t, tab = some t → BuiltBy col t) (q : Query) :
    ∀ t, step col tab q = some t → BuiltBy col t := by
  intro t ht
  cases q with
  | scalar m z =>
    simp only [step, Option.some.injEq] at ht
    rcases evalScalar_table col tab m z with h | h
    · rw [← ht, h]; exact refresh_built col tab hg _ _
    · rw [ht] at h; exact hg t h
  | array qs =>
    simp only [step, evalArray] at ht
    cases hq : qs.map coord with
    | nil => rw [hq] at ht; simp only at ht; exact hg t ht
    | cons a l =>
      rw [hq] at ht
      simp only [Option.some.injEq] at ht
      rw [← ht]; exact refresh_built col tab hg _ _

theorem history_built (col : ℝ → ℝ → ℝ) (qs : List Query) : ∀ t, history col qs = some t → BuiltBy col t := by
  unfold history
  have : ∀ (qs : List Query) (tab : Option Table), (∀ t, tab = some t → BuiltBy col t) →
      ∀ t, qs.foldl (step col) tab = some t → BuiltBy col t := by
    intro qs
    induction qs with
    | nil => intro tab h; exact h
    | cons q qs ih => intro tab h; exact ih _ (step_built col tab h q)
  exact this qs none (by simp)

/-- Nodes of a table are at most 0.0632 apart in `log10 m` and 0.017 in `log10 (1 + z)`. -/
theorem node_spacing {col : ℝ → ℝ → ℝ} {t : Table} (hg : Good col t) (hb : BuiltBy col t) (i j : ℕ) :
    t.mAxis.g (i + 1) - t.mAxis.g i ≤ 0.0632 ∧ t.uAxis.g (j + 1) - t.uAxis.g j ≤ 0.017 := by
  obtain ⟨a, b, c, d, rfl⟩ := hb
  have h1 : a ≤ 5 := hg.mLo
  have h2 : 11.5 ≤ b := hg.mHi
  have h3 : c = 0 := hg.uLo
  have h4 : 1.05 ≤ d := hg.uHi
  norm_num at h2 h4
  constructor
  · have e := axis_step a b (max 4 (⌊(b - a) * 16⌋₊ + 1)) i
    have f := Nat.lt_floor_add_one ((b - a) * 16)
    have n : ((⌊(b - a) * 16⌋₊ : ℝ) + 1) ≤ ((max 4 (⌊(b - a) * 16⌋₊ + 1) : ℕ) : ℝ) := by
      exact_mod_cast le_max_right 4 (⌊(b - a) * 16⌋₊ + 1)
    show (Np.Axis.linspace a b (max 4 (⌊(b - a) * 16⌋₊ + 1))).g (i + 1) - (Np.Axis.linspace a b (max 4 (⌊(b - a) * 16⌋₊ + 1))).g i ≤ 0.0632
    rw [e, div_le_iff₀ (by linarith)]
    nlinarith
  · have e := axis_step c d (max 4 (⌊(d - c) * 60⌋₊ + 1)) j
    have f := Nat.lt_floor_add_one ((d - c) * 60)
    have n : ((⌊(d - c) * 60⌋₊ : ℝ) + 1) ≤ ((max 4 (⌊(d - c) * 60⌋₊ + 1) : ℕ) : ℝ) := by
      exact_mod_cast le_max_right 4 (⌊(d - c) * 60⌋₊ + 1)
    show (Np.Axis.linspace c d (max 4 (⌊(d - c) * 60⌋₊ + 1))).g (j + 1) - (Np.Axis.linspace c d (max 4 (⌊(d - c) * 60⌋₊ + 1))).g j ≤ 0.017
    rw [e, div_le_iff₀ (by linarith)]
    nlinarith

/-- `log10` of the concentration changes by at most `A` per decade of mass and `B` per decade of `1 + z`. Masses are in solar masses, the
relation of colossus takes `M_sun / h`. -/
def Spec119.Gentle (colossus : ℝ → ℝ → ℝ) (h A B : ℝ) : Prop :=
  ∀ m m' z z' : ℝ, 0 < m → 0 < m' → 0 ≤ z → 0 ≤ z' →
    |Real.logb 10 (colossus (h * m) z) - Real.logb 10 (colossus (h * m') z')|
      ≤ A * |Real.logb 10 m - Real.logb 10 m'| + B * |Real.logb 10 (1 + z) - Real.logb 10 (1 + z')|

/-- **C119**. With the table, after every history of calls, the concentration differs from the one that colossus gives for the same halo
by at most `0.0632 A + 0.017 B` decades. -/
theorem c119_close {colossus : ℝ → ℝ → ℝ} {h A B : ℝ} (hA : 0 ≤ A) (hB : 0 ≤ B) (hG : Spec119.Gentle colossus h A B) (qs : List Query)
    {m z : ℝ} (hm : 0 < m) (hz : 0 ≤ z) :
    |Real.logb 10 (evaluate colossus h true (tableAfter colossus h true qs) m z).2 - Real.logb 10 (colossus (h * m) z)|
      ≤ 0.0632 * A + 0.017 * B := by
  set col := direct colossus h with hcol
  have hce : ∀ m z, col m z = colossus (h * m) z := by intro m z; simp [hcol, direct, mul_comm]
  have hev : (evaluate colossus h true (tableAfter colossus h true qs) m z).2 = (evalScalar col (history col qs) m z).2 := by
    simp [evaluate, tableAfter, hcol]
  rw [hev]
  set r := evalScalar col (history col qs) m z with hr
  have hgood : Good col r.1 := step_good col _ (c29_table_good col qs) (.scalar m z) _ rfl
  have hbuilt : BuiltBy col r.1 := step_built col _ (history_built col qs) (.scalar m z) _ rfl
  have hcov := c29_covers_partial col qs m z hz
  have hval : r.2 = arrayEval r.1 (Real.logb 10 m) (Real.logb 10 (1 + z)) := by
    have hg := c29_table_good col qs
    simp only [r]
    generalize history col qs = tab at hg
    unfold evalScalar
    cases tab with
    | none => rfl
    | some t =>
      simp only
      cases hf : fastEval t (coord (m, z)).1 (coord (m, z)).2 with
      | none => rfl
      | some c => exact fastEval_eq (hg t rfl) hf
  obtain ⟨i, j, tm, tu, ⟨-, -, s1, s2, s3, s4⟩, t0, t1, u0, u1, -, -, he⟩ := arrayEval_spec hgood hcov
  obtain ⟨d1, d2⟩ := node_spacing hgood hbuilt i j
  have hu0 : 0 ≤ r.1.uAxis.g 0 := by rw [hgood.ends.2.2.1, hgood.uLo]
  have hunn : ∀ b, 0 ≤ r.1.uAxis.g b := by
    intro b
    have hnU : (4 : ℝ) ≤ r.1.nU := by exact_mod_cast hgood.nU
    have h3 := hgood.uLo
    have h4 := hgood.uHi
    norm_num at h4
    simp only [Table.uAxis, Np.Axis.linspace, h3]
    have : 0 ≤ (r.1.uHi - 0) / ((r.1.nU : ℝ) - 1) := div_nonneg (by linarith) (by linarith)
    have hb : (0 : ℝ) ≤ b := Nat.cast_nonneg b
    nlinarith [mul_nonneg hb this]
  set δ := 0.0632 * A + 0.017 * B with hδ
  have hcor := corners_mem (t := r.1) (i := i) (j := j) (lo := Real.logb 10 (colossus (h * m) z) - δ)
    (hi := Real.logb 10 (colossus (h * m) z) + δ) t0 t1 u0 u1 (by
      intro a ha b hb
      rw [hgood.val, hce]
      have hp : (0 : ℝ) < 10 ^ r.1.mAxis.g a := Real.rpow_pos_of_pos (by norm_num) _
      have hq : (0 : ℝ) ≤ 10 ^ r.1.uAxis.g b - 1 := by
        have := Real.one_le_rpow (show (1 : ℝ) ≤ 10 by norm_num) (hunn b)
        linarith
      have g := hG _ m _ z hp hm hq hz
      have e1 : Real.logb 10 ((10 : ℝ) ^ r.1.mAxis.g a) = r.1.mAxis.g a := Real.logb_rpow (by norm_num) (by norm_num)
      have e2 : Real.logb 10 (1 + ((10 : ℝ) ^ r.1.uAxis.g b - 1)) = r.1.uAxis.g b := by
        rw [add_sub_cancel]
        exact Real.logb_rpow (by norm_num) (by norm_num)
      rw [e1, e2] at g
      have k1 : |r.1.mAxis.g a - Real.logb 10 m| ≤ 0.0632 := by
        simp only [List.mem_cons, List.not_mem_nil, or_false] at ha
        rw [abs_le]
        rcases ha with rfl | rfl <;> constructor <;> linarith
      have k2 : |r.1.uAxis.g b - Real.logb 10 (1 + z)| ≤ 0.017 := by
        simp only [List.mem_cons, List.not_mem_nil, or_false] at hb
        rw [abs_le]
        rcases hb with rfl | rfl <;> constructor <;> linarith
      have k3 := mul_le_mul_of_nonneg_left k1 hA
      have k4 := mul_le_mul_of_nonneg_left k2 hB
      have g' := abs_le.1 (g.trans (show _ ≤ δ by rw [hδ]; linarith))
      constructor <;> linarith [g'.1, g'.2])
  rw [hval, he, Real.logb_rpow (by norm_num) (by norm_num), abs_le]
  constructor <;> linarith [hcor.1, hcor.2]

/-- A relation that falls by 0.1 decades per decade of mass and by one decade per decade of `1 + z`: within 0.024 decades. -/
theorem gentle_power_law : Spec119.Gentle (fun m z => 10 * m ^ (-0.1 : ℝ) * (1 + z)⁻¹) 0.7 0.1 1 := by
  intro m m' z z' hm hm' hz hz'
  have e : ∀ m z : ℝ, 0 < m → 0 ≤ z → Real.logb 10 (10 * (0.7 * m) ^ (-0.1 : ℝ) * (1 + z)⁻¹)
      = 1 - 0.1 * (Real.logb 10 0.7 + Real.logb 10 m) - Real.logb 10 (1 + z) := by
    intro m z hm hz
    have h7 : (0 : ℝ) < 0.7 * m := by positivity
    have hp : (0 : ℝ) < (0.7 * m) ^ (-0.1 : ℝ) := Real.rpow_pos_of_pos h7 _
    rw [Real.logb_mul (by positivity) (by positivity), Real.logb_mul (by norm_num) hp.ne', Real.logb_self_eq_one (by norm_num),
      Real.logb_rpow_eq_mul_logb_of_pos h7, Real.logb_mul (by norm_num) hm.ne', Real.logb_inv]
    ring
  rw [e m z hm hz, e m' z' hm' hz']
  have t := abs_add_le (-(0.1 * (Real.logb 10 m - Real.logb 10 m'))) (-(Real.logb 10 (1 + z) - Real.logb 10 (1 + z')))
  rw [abs_neg, abs_neg, abs_mul, abs_of_pos (show (0 : ℝ) < 0.1 by norm_num)] at t
  refine le_trans (le_of_eq ?_) (t.trans (le_of_eq (by ring)))
  congr 1
  ring

example : |Real.logb 10 (evaluate (fun m z => 10 * m ^ (-0.1 : ℝ) * (1 + z)⁻¹) 0.7 true
    (tableAfter (fun m z => 10 * m ^ (-0.1 : ℝ) * (1 + z)⁻¹) 0.7 true [.scalar 1e6 3]) 1e8 0.5).2
      - Real.logb 10 (10 * (0.7 * 1e8) ^ (-0.1 : ℝ) * (1 + 0.5)⁻¹)| ≤ 0.0632 * 0.1 + 0.017 * 1 :=
  c119_close (by norm_num) (by norm_num) gentle_power_law [.scalar 1e6 3] (by norm_num) (by norm_num)

/-- **C119**. Without the table the concentration is that of colossus for the mass in `M_sun / h`, whatever was asked before. -/
theorem c119_direct (colossus : ℝ → ℝ → ℝ) (h m z : ℝ) (qs : List Query) :
    (evaluate colossus h false (tableAfter colossus h false qs) m z).2 = colossus (h * m) z := by
  simp [evaluate, direct, mul_comm]

example : (evaluate (fun m z => m * (1 + z)) 0.5 false (tableAfter (fun m z => m * (1 + z)) 0.5 false [.scalar 1e6 3]) 8 1).2 = 8 := by
  rw [c119_direct]; norm_num

/-- **C119**. Without the table, an array of masses with as many redshifts gets one concentration per halo, the one the halo gets alone;
with another number of redshifts the call is refused; a single redshift counts for all. -/
theorem c119_array (colossus : ℝ → ℝ → ℝ) (h : ℝ) (ms zs : List ℝ) (z : ℝ) :
    (zs.length = ms.length → ∃ cs, directArray colossus h ms (.many zs) = .ok cs ∧ cs.length = ms.length ∧
      ∀ i (h1 : i < ms.length) (h2 : i < zs.length), cs[i]? = some (colossus (h * ms[i]) zs[i])) ∧
    (zs.length ≠ ms.length → directArray colossus h ms (.many zs) = .error .assertionError) ∧
    directArray colossus h ms (.one z) = directArray colossus h ms (.many (List.replicate ms.length z)) := by
  refine ⟨fun hl => ⟨List.zipWith (fun m z => colossus (m * h) z) ms zs, by simp [directArray, hl], by simp [hl], ?_⟩, fun hl => by simp [directArray, hl], ?_⟩
  · intro i h1 h2
    simp [List.getElem?_zipWith, h1, h2, mul_comm]
  · simp only [directArray, List.length_replicate, if_true]
    congr 1
    induction ms with
    | nil => rfl
    | cons a l ih => simp [List.replicate_succ, ih]

example : ∃ cs, directArray (fun m z => m + z) 2 [1, 2] (.many [5, 6]) = .ok cs ∧ cs[1]? = some 10 := by
  obtain ⟨cs, h1, -, h3⟩ := (c119_array (fun m z => m + z) 2 [1, 2] [5, 6] 0).1 rfl
  refine ⟨cs, h1, ?_⟩
  rw [h3 1 (by simp) (by simp)]
  norm_num

end PyHalo.Props
