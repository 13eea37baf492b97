import Verif.Model.Resample
import Verif.Lemmas.Interp
import Verif.Lemmas.Numpy
import Verif.Props.Correlation

/-!
# C120: samples from the histogram of given samples
-/

namespace PyHalo.Props
open PyHalo Resample

theorem cumsumFrom_eq (s : ℝ) (h : ℕ → ℝ) (n : ℕ) :
    ∀ k, Np.cumsumFrom s ((List.range' k n).map h) = (List.range' k n).map fun i => s + ((List.range' k (i + 1 - k)).map h).sum := by
  induction n generalizing s with
  | zero => intro k; rfl
  | succ n ih =>
    intro k
    rw [List.range'_succ, List.map_cons, List.map_cons, Np.cumsumFrom, ih]
    have e : k + 1 - k = 1 := by omega
    rw [e]
    simp only [List.range'_one, List.map_cons, List.map_nil, List.sum_cons, List.sum_nil, add_zero, List.cons.injEq, true_and]
    apply List.map_congr_left
    intro i hi
    have hi' : k + 1 ≤ i := (List.mem_range'_1.1 hi).1
    have e2 : i + 1 - k = (i + 1 - (k + 1)) + 1 := by omega
    rw [e2, List.range'_succ, List.map_cons, List.sum_cons]
    ring

/-- The cumulative counts. -/
noncomputable def cumulated (h : ℕ → ℝ) (k : ℕ) : ℝ := ((List.range (k + 1)).map h).sum

theorem cumsum_range (h : ℕ → ℝ) (n : ℕ) : Np.cumsum ((List.range n).map h) = (List.range n).map (cumulated h) := by
  have := cumsumFrom_eq 0 h n 0
  rw [← List.range_eq_range'] at this
  rw [Np.cumsum, this]
  apply List.map_congr_left
  intro i _
  simp [cumulated, List.range_eq_range']

theorem cumulated_mono {h : ℕ → ℝ} (hh : ∀ i, 0 ≤ h i) {i j : ℕ} (hij : i ≤ j) : cumulated h i ≤ cumulated h j := by
  induction hij with
  | refl => exact le_rfl
  | step _ ih =>
    refine ih.trans ?_
    rename_i m _
    have : cumulated h (m + 1) = cumulated h m + h (m + 1) := by
      simp only [cumulated]
      rw [List.range_succ (n := m + 1), List.map_append, List.sum_append]
      simp
    rw [this]
    linarith [hh (m + 1)]

/-- The numbers of samples per bin. -/
noncomputable def binCount (samples : List ℝ) (lo w : ℝ) (i : ℕ) : ℝ := ((samples.countP fun s => decide (bin lo w s = i) : ℕ) : ℝ)

/-- What `from_samples` builds for samples that are not all equal. -/
theorem fromSamples_form {samples : List ℝ} {lo hi : ℝ} (h1 : lo ∈ samples) (h2 : hi ∈ samples) (h3 : ∀ v ∈ samples, lo ≤ v ∧ v ≤ hi)
    (hlt : lo < hi) :
    let w := (hi - lo) / 150
    let c := cumulated (binCount samples lo w)
    fromSamples samples = .ok ⟨(List.range 150).map fun i : ℕ => lo + i * w + w / 2,
      (List.range 150).map fun k => c k / c 149 / (c 149 / c 149)⟩ := by
  intro w c
  cases samples with
  | nil => simp at h1
  | cons v vs =>
    have ea : vs.foldl min v = lo := by
      refine foldl_min_eq vs v lo ?_ (h3 v (by simp)).1 fun x hx => (h3 x (by simp [hx])).1
      rcases List.mem_cons.1 h1 with h | h
      · exact .inl h.symm
      · exact .inr h
    have eb : vs.foldl max v = hi := by
      refine foldl_max_eq vs v hi ?_ (h3 v (by simp)).2 fun x hx => (h3 x (by simp [hx])).2
      rcases List.mem_cons.1 h2 with h | h
      · exact .inl h.symm
      · exact .inr h
    have hl : ∀ f : ℕ → ℝ, ((List.range 150).map f).getLast?.getD 0 = f 149 := by
      intro f
      rw [List.getLast?_map, List.getLast?_range]
      rfl
    unfold fromSamples
    simp only [ea, eb, hlt.ne, if_false]
    have hc : Np.cumsum ((List.range 150).map fun i => (((v :: vs).countP fun s => decide (bin lo ((hi - lo) / 150) s = i) : ℕ) : ℝ))
        = (List.range 150).map c := cumsum_range _ 150
    rw [hc, hl]
    unfold Resample.mk
    have e3 : ((List.range 150).map c).map (fun v => v / c 149) = (List.range 150).map fun k => c k / c 149 := by rw [List.map_map]; rfl
    rw [e3, hl, List.map_map]
    rfl

theorem draw_form {F x : ℕ → ℝ} (hF : ∀ i j, i ≤ j → F i ≤ F j) (n : ℕ) (u : ℕ → ℝ) (hu : ∀ i, 0 < u i ∧ u i < 1) :
    draw ⟨(List.range 150).map x, (List.range 150).map F⟩ n u
      = .ok ((List.range n).map fun i => Np.segInterp ((List.range 150).map fun k => (F k, x k)) (F 0 + (F 149 - F 0) * u i)) := by
  have h1 : ((List.range 150).map F).head? = some (F 0) := by rw [List.head?_map, List.head?_range]; rfl
  have h2 : ((List.range 150).map F).getLast? = some (F 149) := by rw [List.getLast?_map, List.getLast?_range]; rfl
  have hz : ((List.range 150).map F).zip ((List.range 150).map x) = (List.range 150).map fun k => (F k, x k) := by
    rw [List.zip_map']
  unfold draw
  simp only [h1, h2]
  apply Np.mapM_ok
  intro i _
  have h := hF 0 149 (by norm_num)
  obtain ⟨u0, u1⟩ := hu i
  have k1 : ¬ F 0 + (F 149 - F 0) * u i < F 0 := by
    have := mul_nonneg (sub_nonneg.2 h) u0.le
    linarith
  have k2 : ¬ F 149 < F 0 + (F 149 - F 0) * u i := by
    have := mul_le_mul_of_nonneg_left u1.le (sub_nonneg.2 h)
    linarith
  unfold Np.interp1d
  simp only [h1, h2, k1, k2, if_false, hz]

/-- **C120**. Samples drawn from the histogram of given samples stay inside the range of those: they keep half a bin (one part in 300 of
the range) from either end. Missing: that every bin is drawn with its share of the samples, which fails (`c120_lowest_bin_lost`). -/
theorem c120_inside_partial {samples : List ℝ} {lo hi : ℝ} (h1 : lo ∈ samples) (h2 : hi ∈ samples) (h3 : ∀ v ∈ samples, lo ≤ v ∧ v ≤ hi)
    (hlt : lo < hi) (n : ℕ) (u : ℕ → ℝ) (hu : ∀ i, 0 < u i ∧ u i < 1) :
    ∃ s out, fromSamples samples = .ok s ∧ draw s n u = .ok out ∧ out.length = n ∧
      ∀ v ∈ out, lo + (hi - lo) / 300 ≤ v ∧ v ≤ hi - (hi - lo) / 300 := by
  have hf := fromSamples_form h1 h2 h3 hlt
  set w := (hi - lo) / 150 with hw
  set c := cumulated (binCount samples lo w) with hc
  have hw0 : 0 < w := by rw [hw]; linarith
  have hcm : ∀ i j, i ≤ j → c i ≤ c j := fun i j hij => cumulated_mono (fun _ => Nat.cast_nonneg _) hij
  have hc0 : 0 ≤ c 149 := List.sum_nonneg (by
    intro y hy
    obtain ⟨k, _, rfl⟩ := List.mem_map.1 hy
    exact Nat.cast_nonneg _)
  set F : ℕ → ℝ := fun k => c k / c 149 / (c 149 / c 149) with hFdef
  have hF : ∀ i j, i ≤ j → F i ≤ F j := fun i j hij =>
    div_le_div_of_nonneg_right (div_le_div_of_nonneg_right (hcm i j hij) hc0) (div_nonneg hc0 hc0)
  set x : ℕ → ℝ := fun i => lo + i * w + w / 2 with hx
  have hxm : ∀ i j : ℕ, i ≤ j → x i ≤ x j := by
    intro i j hij
    have : (i : ℝ) ≤ j := by exact_mod_cast hij
    simp only [hx]
    nlinarith
  refine ⟨_, _, hf, draw_form hF n u hu, by simp, ?_⟩
  intro v hv
  obtain ⟨i, _, rfl⟩ := List.mem_map.1 hv
  have hpw : ((List.range 150).map fun k => (F k, x k)).Pairwise (fun a b => a.1 ≤ b.1 ∧ a.2 ≤ b.2) := by
    rw [List.pairwise_map]
    exact List.pairwise_lt_range.imp fun {a b} hab => ⟨hF a b (le_of_lt hab), hxm a b (le_of_lt hab)⟩
  have e1 : ((List.range 150).map fun k => (F k, x k)).head? = some (F 0, x 0) := by rw [List.head?_map, List.head?_range]; rfl
  have e2 : ((List.range 150).map fun k => (F k, x k)).getLast? = some (F 149, x 149) := by
    rw [List.getLast?_map, List.getLast?_range]; rfl
  have h := hF 0 149 (by norm_num)
  obtain ⟨u0, u1⟩ := hu i
  have g := Np.segInterp_weak _ _ _ (F 0 + (F 149 - F 0) * u i) hpw e1 e2
    (by have := mul_nonneg (sub_nonneg.2 h) u0.le; simp only; linarith)
    (by have := mul_le_mul_of_nonneg_left u1.le (sub_nonneg.2 h); simp only; linarith)
  have x0 : x 0 = lo + (hi - lo) / 300 := by simp only [hx, hw]; push_cast; ring
  have x1 : x 149 = hi - (hi - lo) / 300 := by simp only [hx, hw]; push_cast; ring
  rw [← x0, ← x1]
  exact g

example (u : ℕ → ℝ) (hu : ∀ i, 0 < u i ∧ u i < 1) : ∃ s out, fromSamples [2, 5, 3] = .ok s ∧ draw s 10 u = .ok out ∧ out.length = 10 ∧
    ∀ v ∈ out, 2 + (5 - 2) / 300 ≤ v ∧ v ≤ 5 - (5 - 2) / 300 := by
  refine c120_inside_partial (by simp) (by simp) ?_ (by norm_num) 10 u hu
  intro v hv
  simp only [List.mem_cons, List.not_mem_nil, or_false] at hv
  rcases hv with rfl | rfl | rfl <;> norm_num

theorem segInterp_flat (a q b y y' : ℝ) (hq : a < q) : ∀ l : List ℝ,
    Np.segInterp (l.map (fun v => (a, v)) ++ [(a, y), (b, y')]) q = y + (y' - y) / (b - a) * (q - a)
  | [] => by simp [Np.segInterp]
  | [v] => by
    have : ¬ q ≤ a := not_le.2 hq
    simp [Np.segInterp, this]
  | v :: v' :: l => by
    have ih := segInterp_flat a q b y y' hq (v' :: l)
    have : ¬ q ≤ a := not_le.2 hq
    simp only [List.map_cons, List.cons_append] at ih ⊢
    rw [Np.segInterp, if_neg (by simp [this])]
    exact ih

/-- **C120**. The share of the lowest bin is lost: from any number of zeros and a single one, every sample drawn is above 0.99, although
almost all of the given samples are zero. -/
theorem c120_lowest_bin_lost (k : ℕ) (hk : 0 < k) (n : ℕ) (u : ℕ → ℝ) (hu : ∀ i, 0 < u i ∧ u i < 1) :
    ∃ s out, fromSamples (List.replicate k 0 ++ [1]) = .ok s ∧ draw s n u = .ok out ∧ out.length = n ∧ ∀ v ∈ out, 0.99 < v := by
  have hf := fromSamples_form (samples := List.replicate k 0 ++ [1]) (lo := 0) (hi := 1) (by simp; omega) (by simp) (by
    intro v hv
    rcases List.mem_append.1 hv with h | h
    · rw [(List.mem_replicate.1 h).2]; norm_num
    · rw [List.mem_singleton.1 h]; norm_num) one_pos
  simp only [sub_zero] at hf
  have hb0 : bin 0 (1 / 150) 0 = 0 := by simp [bin]
  have hb1 : bin 0 (1 / 150) 1 = 149 := by
    have : ⌊((1 : ℝ) - 0) / (1 / 150)⌋₊ = 150 := by
      have e : ((1 : ℝ) - 0) / (1 / 150) = ((150 : ℕ) : ℝ) := by norm_num
      rw [e, Nat.floor_natCast]
    rw [bin, this]
    rfl
  have hcount : ∀ i, binCount (List.replicate k 0 ++ [1]) 0 (1 / 150) i = (if i = 0 then (k : ℝ) else 0) + (if i = 149 then 1 else 0) := by
    intro i
    simp only [binCount, List.countP_append, List.countP_replicate, List.countP_singleton, hb0, hb1]
    by_cases h0 : i = 0
    · subst h0; simp
    · by_cases h9 : i = 149
      · subst h9; simp
      · simp [h0, h9, Ne.symm h0, Ne.symm h9]
  set c := cumulated (binCount (List.replicate k 0 ++ [1]) 0 (1 / 150)) with hc
  have hsucc : ∀ m, c (m + 1) = c m + binCount (List.replicate k 0 ++ [1]) 0 (1 / 150) (m + 1) := by
    intro m
    simp only [hc, cumulated]
    rw [List.range_succ (n := m + 1), List.map_append, List.sum_append]
    simp
  have c0 : c 0 = k := by
    have : c 0 = binCount (List.replicate k 0 ++ [1]) 0 (1 / 150) 0 := by simp only [hc, cumulated]; simp
    rw [this, hcount]
    simp
  have cmid : ∀ m, m < 149 → c m = k := by
    intro m
    induction m with
    | zero => intro _; exact c0
    | succ m ih =>
      intro hm
      rw [hsucc, ih (by omega), hcount]
      simp [show m + 1 ≠ 149 by omega]
  have cl : c 149 = k + 1 := by
    rw [hsucc 148, cmid 148 (by norm_num), hcount]
    norm_num
  have hkp : (0 : ℝ) < k := by exact_mod_cast hk
  have hTT : c 149 / c 149 = 1 := div_self (by rw [cl]; linarith)
  have hcm : ∀ i j, i ≤ j → c i ≤ c j := fun i j hij => cumulated_mono (fun _ => Nat.cast_nonneg _) hij
  set F : ℕ → ℝ := fun m => c m / c 149 / (c 149 / c 149) with hFdef
  have hF : ∀ i j, i ≤ j → F i ≤ F j := by
    intro i j hij
    simp only [hFdef, hTT, div_one]
    exact div_le_div_of_nonneg_right (hcm i j hij) (by rw [cl]; linarith)
  set x : ℕ → ℝ := fun i => 0 + i * (1 / 150) + 1 / 150 / 2 with hx
  have hFmid : ∀ m, m < 149 → F m = k / (k + 1) := by
    intro m hm
    simp only [hFdef, hTT, div_one]
    rw [cmid m hm, cl]
  have hFl : F 149 = 1 := by simp only [hFdef, hTT, div_one]
  refine ⟨_, _, hf, draw_form hF n u hu, by simp, ?_⟩
  intro v hv
  obtain ⟨i, _, rfl⟩ := List.mem_map.1 hv
  have hr : (List.range 150).map (fun m => (F m, x m))
      = ((List.range 148).map x).map (fun v => ((k : ℝ) / (k + 1), v)) ++ [((k : ℝ) / (k + 1), x 148), (1, x 149)] := by
    rw [List.range_succ (n := 149), List.range_succ (n := 148), List.map_append, List.map_append, List.append_assoc]
    congr 1
    · rw [List.map_map]
      apply List.map_congr_left
      intro m hm
      have := List.mem_range.1 hm
      simp [hFmid m (by omega)]
    · simp [hFmid 148 (by norm_num), hFl]
  have hlt1 : (k : ℝ) / (k + 1) < 1 := by rw [div_lt_one (by linarith)]; linarith
  obtain ⟨u0, u1⟩ := hu i
  have hq : (k : ℝ) / (k + 1) < F 0 + (F 149 - F 0) * u i := by
    rw [hFmid 0 (by norm_num), hFl]
    have := mul_pos (sub_pos.2 hlt1) u0
    linarith
  rw [hr, segInterp_flat _ _ _ _ _ hq]
  have hpos : 0 < (x 149 - x 148) / (1 - (k : ℝ) / (k + 1)) * (F 0 + (F 149 - F 0) * u i - (k : ℝ) / (k + 1)) := by
    apply mul_pos (div_pos _ (by linarith)) (by linarith)
    simp only [hx]; norm_num
  have hx8 : 0.99 ≤ x 148 := by simp only [hx]; norm_num
  linarith

/-- A thousand zeros and a one. -/
example (u : ℕ → ℝ) (hu : ∀ i, 0 < u i ∧ u i < 1) : ∃ s out, fromSamples (List.replicate 1000 0 ++ [1]) = .ok s ∧ draw s 50 u = .ok out ∧
    out.length = 50 ∧ ∀ v ∈ out, 0.99 < v :=
  c120_lowest_bin_lost 1000 (by norm_num) 50 u hu

end PyHalo.Props
