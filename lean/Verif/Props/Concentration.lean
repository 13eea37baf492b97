import Verif.Model.Concentration
import Verif.Lemmas.Grid
import Mathlib.Analysis.SpecialFunctions.Artanh

/-!
# C29, C68-C70: concentration-mass relations
-/

namespace PyHalo.Props
open PyHalo PyHalo.Conc

/-! ## The floor -/

/-- **C29**. No concentration below 1.2, whatever the median relation, the scatter and the variates. -/
theorem c29_floor (o : Opts) (noScatter : Bool) (c z u : ℝ) : 1.2 ≤ finish o noScatter c z u :=
  le_max_right _ _

/-- **C29**, arrays. -/
theorem c29_floor_array (o : Opts) (noScatter : Bool) (cs : List ℝ) (z : ℝ) (us : List ℝ) :
    ∀ c ∈ finishArray o noScatter cs z us, 1.2 ≤ c := by
  intro c hc
  unfold finishArray at hc
  simp only [List.mem_map] at hc
  obtain ⟨a, -, rfl⟩ := hc
  split_ifs with h
  · exact le_rfl
  · exact not_lt.1 h

/-- **C29**. Without scatter, or when scatter is switched off for the call, the floor is the only
change to the median. -/
theorem c29_median (o : Opts) (noScatter : Bool) (c z u : ℝ) (h : o.scatter = false ∨ noScatter = true)
    (hc : 1.2 ≤ c) : finish o noScatter c z u = c := by
  unfold finish
  have : (if o.scatter = true then
      if noScatter = true then c else Real.exp (Real.log c + (o.dex + o.dexZ * z) * u)
    else c) = c := by
    rcases h with h | h <;> simp [h]
  simp only [this]
  exact max_eq_left hc

/-- **C31**, scatter. A number and a one-element array with the same variate give the same result. -/
theorem c31_concentration_scatter (o : Opts) (noScatter : Bool) (c z u : ℝ) :
    finishArray o noScatter [c] z [u] = [finish o noScatter c z u] := by
  unfold finishArray finish
  simp only [List.zip_cons_cons, List.zip_nil_right, List.map_cons, List.map_nil]
  split_ifs <;> simp only [List.map_cons, List.map_nil, List.cons.injEq, and_true] <;>
    split_ifs with h <;> first
      | exact (max_eq_right h.le).symm
      | exact (max_eq_left (not_lt.1 h)).symm

example : finish ⟨false, 0.2, 0⟩ false 1 0 0 = 1.2 ∧ finish ⟨true, 0.2, 0⟩ true 5 0 3 = 5 := by
  constructor
  · unfold finish floorC; norm_num
  · exact c29_median _ _ _ _ _ (.inr rfl) (by norm_num)

/-! ## The table -/

/-- A healthy table for the relation `col`. -/
structure Good (col : ℝ → ℝ → ℝ) (t : Table) : Prop where
  mLo : t.mLo ≤ 5
  mHi : 11.5 ≤ t.mHi
  uLo : t.uLo = 0
  uHi : 1.05 ≤ t.uHi
  nM : 4 ≤ t.nM
  nU : 4 ≤ t.nU
  val : ∀ i j, t.val i j
    = Real.logb 10 (col ((10 : ℝ) ^ t.mAxis.g i) ((10 : ℝ) ^ t.uAxis.g j - 1))

theorem build_good (col : ℝ → ℝ → ℝ) {mLo mHi uLo uHi : ℝ} (h1 : mLo ≤ 5) (h2 : 11.5 ≤ mHi)
    (h3 : uLo = 0) (h4 : 1.05 ≤ uHi) : Good col (buildTable col mLo mHi uLo uHi) :=
  ⟨h1, h2, h3, h4, le_max_left _ _, le_max_left _ _, fun _ _ => rfl⟩

theorem Good.ends {col : ℝ → ℝ → ℝ} {t : Table} (h : Good col t) :
    t.mAxis.g 0 = t.mLo ∧ t.mAxis.g (t.nM - 1) = t.mHi ∧ t.uAxis.g 0 = t.uLo ∧
      t.uAxis.g (t.nU - 1) = t.uHi :=
  ⟨Np.linspace_zero _ _ _, Np.linspace_last _ _ (by have := h.nM; omega), Np.linspace_zero _ _ _,
    Np.linspace_last _ _ (by have := h.nU; omega)⟩

theorem refresh_good (col : ℝ → ℝ → ℝ) (tab : Option Table) (hg : ∀ t, tab = some t → Good col t)
    (q : ℝ × ℝ) (qs : List (ℝ × ℝ)) : Good col (refresh col tab q qs) := by
  have hu : ∀ y : ℝ, min (max 0 (y - 0.1)) 0 = (0 : ℝ) := fun y =>
    min_eq_right (le_max_left _ _)
  unfold refresh
  simp only
  cases tab with
  | none =>
    exact build_good col (min_le_right _ _) (le_max_right _ _) (hu _) (le_max_right _ _)
  | some t =>
    have h := hg t rfl
    simp only
    split_ifs with hc
    · refine build_good col ((min_le_left _ _).trans (min_le_right _ _))
        ((le_max_right _ _).trans (le_max_left _ _)) ?_ ((le_max_right _ _).trans (le_max_left _ _))
      rw [hu, h.ends.2.2.1, h.uLo, min_self]
    · exact h

theorem evalScalar_table (col : ℝ → ℝ → ℝ) (tab : Option Table) (m z : ℝ) :
    (evalScalar col tab m z).1 = refresh col tab (coord (m, z)) [] ∨
      tab = some (evalScalar col tab m z).1 := by
  unfold evalScalar
  cases tab with
  | none => exact .inl rfl
  | some t =>
    simp only
    cases fastEval t (coord (m, z)).1 (coord (m, z)).2 with
    | some c => exact .inr rfl
    | none => exact .inl rfl

theorem step_good (col : ℝ → ℝ → ℝ) (tab : Option Table) (hg : ∀ t, tab = some t → Good col t)
    (q : Query) : ∀ t, step col tab q = some t → Good col t := by
  intro t ht
  cases q with
  | scalar m z =>
    simp only [step, Option.some.injEq] at ht
    rcases evalScalar_table col tab m z with h | h
    · rw [← ht, h]; exact refresh_good col tab hg _ _
    · rw [ht] at h; exact hg t h
  | array qs =>
    simp only [step, evalArray] at ht
    cases hq : qs.map coord with
    | nil => rw [hq] at ht; simp only at ht; exact hg t ht
    | cons a l =>
      rw [hq] at ht
      simp only [Option.some.injEq] at ht
      rw [← ht]; exact refresh_good col tab hg _ _

/-- **C29**. After every history of queries the table holds exact values of the underlying relation at
its nodes, has at least four nodes per axis and covers masses from `10^5` to `10^11.5` and redshifts
from 0 to `10^1.05 - 1`. -/
theorem c29_table_good (col : ℝ → ℝ → ℝ) (qs : List Query) :
    ∀ t, history col qs = some t → Good col t := by
  unfold history
  have : ∀ (qs : List Query) (tab : Option Table), (∀ t, tab = some t → Good col t) →
      ∀ t, qs.foldl (step col) tab = some t → Good col t := by
    intro qs
    induction qs with
    | nil => intro tab h t ht; exact h t ht
    | cons q l ih => intro tab h t ht; exact ih _ (step_good col tab h q) t ht
  exact this qs none (by simp)

theorem amin_le (a : ℝ) (l : List ℝ) : amin a l ≤ a ∧ ∀ b ∈ l, amin a l ≤ b := by
  unfold amin
  induction l generalizing a with
  | nil => simp
  | cons c t ih =>
    obtain ⟨h1, h2⟩ := ih (min a c)
    refine ⟨h1.trans (min_le_left _ _), fun b hb => ?_⟩
    rcases List.mem_cons.1 hb with rfl | hb
    · exact h1.trans (min_le_right _ _)
    · exact h2 b hb

theorem le_amax (a : ℝ) (l : List ℝ) : a ≤ amax a l ∧ ∀ b ∈ l, b ≤ amax a l := by
  unfold amax
  induction l generalizing a with
  | nil => simp
  | cons c t ih =>
    obtain ⟨h1, h2⟩ := ih (max a c)
    refine ⟨(le_max_left _ _).trans h1, fun b hb => ?_⟩
    rcases List.mem_cons.1 hb with rfl | hb
    · exact (le_max_right _ _).trans h1
    · exact h2 b hb

/-- The point lies in the range of the table. -/
def Covers (t : Table) (p : ℝ × ℝ) : Prop :=
  t.mLo ≤ p.1 ∧ p.1 ≤ t.mHi ∧ t.uLo ≤ p.2 ∧ p.2 ≤ t.uHi

theorem refresh_covers (col : ℝ → ℝ → ℝ) (tab : Option Table)
    (hg : ∀ t, tab = some t → Good col t) (q : ℝ × ℝ) (qs : List (ℝ × ℝ))
    (hz : ∀ p ∈ q :: qs, 0 ≤ p.2) : ∀ p ∈ q :: qs, Covers (refresh col tab q qs) p := by
  intro p hp
  have e1 : amin q.1 (qs.map Prod.fst) ≤ p.1 ∧ p.1 ≤ amax q.1 (qs.map Prod.fst) ∧
      amin q.2 (qs.map Prod.snd) ≤ p.2 ∧ p.2 ≤ amax q.2 (qs.map Prod.snd) := by
    rcases List.mem_cons.1 hp with rfl | hp
    · exact ⟨(amin_le _ _).1, (le_amax _ _).1, (amin_le _ _).1, (le_amax _ _).1⟩
    · exact ⟨(amin_le _ _).2 _ (List.mem_map_of_mem hp), (le_amax _ _).2 _ (List.mem_map_of_mem hp),
        (amin_le _ _).2 _ (List.mem_map_of_mem hp), (le_amax _ _).2 _ (List.mem_map_of_mem hp)⟩
  obtain ⟨a1, a2, a3, a4⟩ := e1
  have hu : ∀ y : ℝ, min (max 0 (y - 0.1)) 0 = (0 : ℝ) := fun y =>
    min_eq_right (le_max_left _ _)
  have hp2 := hz p hp
  unfold refresh
  simp only
  cases tab with
  | none =>
    refine ⟨?_, ?_, ?_, ?_⟩ <;> simp only [buildTable]
    · exact (min_le_left _ _).trans (by linarith)
    · exact le_trans (by linarith) (le_max_left _ _)
    · rw [hu]; exact hp2
    · exact le_trans (by linarith) (le_max_left _ _)
  | some t =>
    have h := hg t rfl
    simp only
    split_ifs with hc
    · refine ⟨?_, ?_, ?_, ?_⟩ <;> simp only [buildTable]
      · exact ((min_le_left _ _).trans (min_le_left _ _)).trans (by linarith)
      · exact le_trans (by linarith) ((le_max_left _ _).trans (le_max_left _ _))
      · exact (min_le_left _ _).trans (by rw [hu]; exact hp2)
      · exact le_trans (by linarith) ((le_max_left _ _).trans (le_max_left _ _))
    · push Not at hc
      obtain ⟨b1, b2, b3, b4⟩ := h.ends
      rw [b1, b2, b3, b4] at hc
      exact ⟨hc.1.trans a1, a2.trans hc.2.1, hc.2.2.1.trans a3, a4.trans hc.2.2.2⟩

theorem coord_snd_nonneg {m z : ℝ} (hz : 0 ≤ z) : 0 ≤ (coord (m, z)).2 :=
  Real.logb_nonneg (by norm_num) (by simpa using hz)

/-- **C29**. After every history, a query at redshift at least 0 is answered from a table that covers
it. -/
theorem c29_covers_partial (col : ℝ → ℝ → ℝ) (qs : List Query) (m z : ℝ) (hz : 0 ≤ z) :
    Covers (evalScalar col (history col qs) m z).1 (Real.logb 10 m, Real.logb 10 (1 + z)) := by
  have hg := c29_table_good col qs
  generalize history col qs = tab at hg ⊢
  have hcov := refresh_covers col tab hg (coord (m, z)) []
    (by intro p hp; simp only [List.mem_singleton] at hp; subst hp; exact coord_snd_nonneg hz)
    _ List.mem_cons_self
  unfold evalScalar
  cases tab with
  | none => exact hcov
  | some t =>
    simp only
    cases hf : fastEval t (coord (m, z)).1 (coord (m, z)).2 with
    | none => exact hcov
    | some c =>
      simp only
      unfold fastEval at hf
      split_ifs at hf with h
      obtain ⟨b1, b2, b3, b4⟩ := (hg t rfl).ends
      rw [b1, b2, b3, b4] at h
      exact h

example := c29_covers_partial (fun m z => m + z) [] (10 ^ 8) 0.5 (by norm_num)

/-- **C29**, arrays of queries. -/
theorem c29_covers_array_partial (col : ℝ → ℝ → ℝ) (qs : List Query) (l : List (ℝ × ℝ))
    (hl : l ≠ []) (hz : ∀ p ∈ l, 0 ≤ p.2) :
    ∃ t cs, evalArray col (history col qs) l = .ok (t, cs) ∧ cs.length = l.length ∧
      ∀ p ∈ l, Covers t (Real.logb 10 p.1, Real.logb 10 (1 + p.2)) := by
  have hg := c29_table_good col qs
  generalize history col qs = tab at hg ⊢
  unfold evalArray
  cases l with
  | nil => exact absurd rfl hl
  | cons p t =>
    simp only [List.map_cons]
    refine ⟨_, _, rfl, by simp, ?_⟩
    intro p' hp'
    have := refresh_covers col tab hg (coord p) (t.map coord) (by
      intro r hr
      rw [← List.map_cons, List.mem_map] at hr
      obtain ⟨s, hs, rfl⟩ := hr
      exact coord_snd_nonneg (m := s.1) (hz s hs)) (coord p') (by
        rw [← List.map_cons]; exact List.mem_map_of_mem hp')
    exact this

example := c29_covers_array_partial (fun m z => m + z) [] [(10 ^ 8, 0.5), (10 ^ 9, 0.7)] (by simp)
  (by intro p hp; simp only [List.mem_cons, List.not_mem_nil, or_false] at hp; rcases hp with rfl | rfl <;> norm_num)

/-- **C29, disagreement**. For redshifts below 0 the table is never extended: after every history it
does not cover the query (the value is extrapolated). -/
theorem c29_negative_redshift (col : ℝ → ℝ → ℝ) (qs : List Query) (m z : ℝ) (hz : z < 0)
    (hz' : -1 < z) :
    ¬ Covers (evalScalar col (history col qs) m z).1 (Real.logb 10 m, Real.logb 10 (1 + z)) := by
  have hgood : Good col (evalScalar col (history col qs) m z).1 :=
    step_good col _ (c29_table_good col qs) (.scalar m z) _ rfl
  intro h
  have h1 := h.2.2.1
  rw [hgood.uLo] at h1
  have : Real.logb 10 (1 + z) < 0 :=
    Real.logb_neg (by norm_num) (by linarith) (by linarith)
  simp only at h1
  linarith

example := c29_negative_redshift (fun m z => m + z) [] (10 ^ 8) (-0.5) (by norm_num) (by norm_num)

/-- **C29**. The range of the table only ever grows. -/
theorem c29_grows (col : ℝ → ℝ → ℝ) (qs : List Query) (q : Query) (t : Table)
    (h : history col qs = some t) :
    ∃ t', history col (qs ++ [q]) = some t' ∧ t'.mLo ≤ t.mLo ∧ t.mHi ≤ t'.mHi ∧
      t'.uLo ≤ t.uLo ∧ t.uHi ≤ t'.uHi := by
  have hg := c29_table_good col qs t h
  have hr : ∀ p l, (refresh col (some t) p l).mLo ≤ t.mLo ∧ t.mHi ≤ (refresh col (some t) p l).mHi ∧
      (refresh col (some t) p l).uLo ≤ t.uLo ∧ t.uHi ≤ (refresh col (some t) p l).uHi := by
    intro p l
    unfold refresh
    simp only
    obtain ⟨b1, b2, b3, b4⟩ := hg.ends
    rw [b1, b2, b3, b4]
    split_ifs
    · exact ⟨min_le_right _ _, le_max_right _ _, min_le_right _ _, le_max_right _ _⟩
    · exact ⟨le_rfl, le_rfl, le_rfl, le_rfl⟩
  have hh : history col (qs ++ [q]) = step col (some t) q := by
    unfold history at h ⊢
    rw [List.foldl_append, h]; rfl
  rw [hh]
  cases q with
  | scalar m z =>
    refine ⟨_, rfl, ?_⟩
    rcases evalScalar_table col (some t) m z with he | he
    · rw [he]; exact hr _ _
    · have : (evalScalar col (some t) m z).1 = t := (Option.some.inj he).symm
      rw [this]
      exact ⟨le_rfl, le_rfl, le_rfl, le_rfl⟩
  | array l =>
    simp only [step, evalArray]
    cases l.map coord with
    | nil => exact ⟨t, rfl, le_rfl, le_rfl, le_rfl, le_rfl⟩
    | cons a l => exact ⟨_, rfl, hr _ _⟩

/-! ### Values -/

/-- The cell of a uniform axis found by truncation. -/
theorem floor_cell {lo d x : ℝ} {n : ℕ} (hn : 2 ≤ n) (hd : 0 < d) (h0 : lo ≤ x)
    (h1 : x ≤ lo + ((n : ℝ) - 1) * d) :
    let i := min ⌊(x - lo) / d⌋₊ (n - 2)
    i + 1 < n ∧ lo + i * d ≤ x ∧ x ≤ lo + (i + 1 : ℝ) * d := by
  intro i
  have hq : 0 ≤ (x - lo) / d := div_nonneg (by linarith) hd.le
  have hi : i + 1 < n := by
    have : i ≤ n - 2 := min_le_right _ _
    omega
  refine ⟨hi, ?_, ?_⟩
  · have h2 : (i : ℝ) ≤ (x - lo) / d := by
      have : i ≤ ⌊(x - lo) / d⌋₊ := min_le_left _ _
      exact (Nat.le_floor_iff hq).1 this
    rw [le_div_iff₀ hd] at h2
    linarith
  · rcases le_total ⌊(x - lo) / d⌋₊ (n - 2) with h | h
    · have e : i = ⌊(x - lo) / d⌋₊ := min_eq_left h
      have h3 := Nat.lt_floor_add_one ((x - lo) / d)
      rw [← e, div_lt_iff₀ hd] at h3
      linarith
    · have e : i = n - 2 := min_eq_right h
      have : (i : ℝ) + 1 = (n : ℝ) - 1 := by
        rw [e, Nat.cast_sub hn]; push_cast; ring
      rw [this]; exact h1

/-- The four corners of cell `(i, j)` surround the point. -/
def Surrounds (t : Table) (i j : ℕ) (x y : ℝ) : Prop :=
  i + 1 < t.nM ∧ j + 1 < t.nU ∧ t.mAxis.g i ≤ x ∧ x ≤ t.mAxis.g (i + 1) ∧
    t.uAxis.g j ≤ y ∧ y ≤ t.uAxis.g (j + 1)

theorem axis_step (a b : ℝ) (n i : ℕ) :
    (Np.Axis.linspace a b n).g (i + 1) - (Np.Axis.linspace a b n).g i = (b - a) / ((n : ℝ) - 1) := by
  simp only [Np.Axis.linspace]; push_cast; ring

/-- What array evaluation computes at a covered point. -/
theorem arrayEval_spec {col : ℝ → ℝ → ℝ} {t : Table} (h : Good col t) {x y : ℝ}
    (hc : Covers t (x, y)) :
    ∃ i j tm tu, Surrounds t i j x y ∧ 0 ≤ tm ∧ tm ≤ 1 ∧ 0 ≤ tu ∧ tu ≤ 1 ∧
      x = t.mAxis.g i * (1 - tm) + t.mAxis.g (i + 1) * tm ∧
      y = t.uAxis.g j * (1 - tu) + t.uAxis.g (j + 1) * tu ∧
      arrayEval t x y = (10 : ℝ) ^ corners t i j tm tu := by
  obtain ⟨c1, c2, c3, c4⟩ := hc
  simp only at c1 c2 c3 c4
  have hnM : (4 : ℝ) ≤ t.nM := by exact_mod_cast h.nM
  have hnU : (4 : ℝ) ≤ t.nU := by exact_mod_cast h.nU
  have hm := h.mLo
  have hm' := h.mHi
  have hu := h.uLo
  have hu' := h.uHi
  norm_num at hm' hu'
  have hdm : 0 < (t.mHi - t.mLo) / ((t.nM : ℝ) - 1) := div_pos (by linarith) (by linarith)
  have hdu : 0 < (t.uHi - t.uLo) / ((t.nU : ℝ) - 1) := div_pos (by linarith) (by linarith)
  have em : t.mAxis.g 1 - t.mAxis.g 0 = (t.mHi - t.mLo) / ((t.nM : ℝ) - 1) := axis_step _ _ _ 0
  have eu : t.uAxis.g 1 - t.uAxis.g 0 = (t.uHi - t.uLo) / ((t.nU : ℝ) - 1) := axis_step _ _ _ 0
  have gm : ∀ i : ℕ, t.mAxis.g i = t.mLo + i * ((t.mHi - t.mLo) / ((t.nM : ℝ) - 1)) := fun _ => rfl
  have gu : ∀ i : ℕ, t.uAxis.g i = t.uLo + i * ((t.uHi - t.uLo) / ((t.nU : ℝ) - 1)) := fun _ => rfl
  have em0 : t.mAxis.g 0 = t.mLo := h.ends.1
  have eu0 : t.uAxis.g 0 = t.uLo := h.ends.2.2.1
  have hxm : x ≤ t.mLo + ((t.nM : ℝ) - 1) * ((t.mHi - t.mLo) / ((t.nM : ℝ) - 1)) := by
    rw [mul_div_cancel₀ _ (by linarith)]; linarith
  have hyu : y ≤ t.uLo + ((t.nU : ℝ) - 1) * ((t.uHi - t.uLo) / ((t.nU : ℝ) - 1)) := by
    rw [mul_div_cancel₀ _ (by linarith)]; linarith
  have hM2 : 2 ≤ t.nM := by have := h.nM; omega
  have hU2 : 2 ≤ t.nU := by have := h.nU; omega
  have fi := floor_cell hM2 hdm c1 hxm
  have fj := floor_cell hU2 hdu c3 hyu
  simp only at fi fj
  unfold arrayEval
  simp only
  rw [em, eu, em0, eu0]
  set dm := (t.mHi - t.mLo) / ((t.nM : ℝ) - 1)
  set du := (t.uHi - t.uLo) / ((t.nU : ℝ) - 1)
  set i := min ⌊(x - t.mLo) / dm⌋₊ (t.nM - 2)
  set j := min ⌊(y - t.uLo) / du⌋₊ (t.nU - 2)
  obtain ⟨fi1, fi2, fi3⟩ := fi
  obtain ⟨fj1, fj2, fj3⟩ := fj
  refine ⟨i, j, _, _, ⟨fi1, fj1, ?_, ?_, ?_, ?_⟩, ?_, ?_, ?_, ?_, ?_, ?_, rfl⟩
  · rw [gm]; exact fi2
  · rw [gm]; push_cast; exact fi3
  · rw [gu]; exact fj2
  · rw [gu]; push_cast; exact fj3
  · rw [gm]; exact div_nonneg (by linarith) hdm.le
  · rw [gm, div_le_one hdm]; linarith
  · rw [gu]; exact div_nonneg (by linarith) hdu.le
  · rw [gu, div_le_one hdu]; linarith
  · rw [gm, gm]; push_cast; field_simp; ring
  · rw [gu, gu]; push_cast; field_simp; ring

theorem corners_mem {t : Table} {i j : ℕ} {tm tu lo hi : ℝ} (h0 : 0 ≤ tm) (h1 : tm ≤ 1)
    (h2 : 0 ≤ tu) (h3 : tu ≤ 1)
    (hv : ∀ a ∈ [i, i + 1], ∀ b ∈ [j, j + 1], lo ≤ t.val a b ∧ t.val a b ≤ hi) :
    lo ≤ corners t i j tm tu ∧ corners t i j tm tu ≤ hi := by
  have v1 := hv i (by simp) j (by simp)
  have v2 := hv (i + 1) (by simp) j (by simp)
  have v3 := hv i (by simp) (j + 1) (by simp)
  have v4 := hv (i + 1) (by simp) (j + 1) (by simp)
  have : corners t i j tm tu = Np.lerp tu (Np.lerp tm (t.val i j) (t.val (i + 1) j))
      (Np.lerp tm (t.val i (j + 1)) (t.val (i + 1) (j + 1))) := by
    unfold corners Np.lerp; ring
  rw [this]
  exact Np.lerp_mem h2 h3 (Np.lerp_mem h0 h1 v1 v2) (Np.lerp_mem h0 h1 v3 v4)

/-- The scalar fast path and the array path compute the same number. -/
theorem fastEval_eq {col : ℝ → ℝ → ℝ} {t : Table} (_h : Good col t) {x y c : ℝ}
    (hf : fastEval t x y = some c) : c = arrayEval t x y := by
  unfold fastEval at hf
  split_ifs at hf
  simp only [Option.some.injEq] at hf
  rw [← hf]
  unfold arrayEval
  simp only
  have em : ∀ i : ℕ, t.mAxis.g i = t.mAxis.g 0 + i * (t.mAxis.g 1 - t.mAxis.g 0) := by
    intro i; simp only [Table.mAxis, Np.Axis.linspace]; push_cast; ring
  have eu : ∀ i : ℕ, t.uAxis.g i = t.uAxis.g 0 + i * (t.uAxis.g 1 - t.uAxis.g 0) := by
    intro i; simp only [Table.uAxis, Np.Axis.linspace]; push_cast; ring
  rw [em (min _ _), eu (min _ _)]
  congr 2
  · ring
  · ring

/-- **C31**, concentrations. A number and a one-element array get the same answer and leave the same
table, after every history. -/
theorem c31_concentration_scalar_array (col : ℝ → ℝ → ℝ) (qs : List Query) (m z : ℝ) :
    evalArray col (history col qs) [(m, z)]
      = .ok ((evalScalar col (history col qs) m z).1, [(evalScalar col (history col qs) m z).2]) := by
  have hg := c29_table_good col qs
  generalize history col qs = tab at hg ⊢
  unfold evalArray evalScalar
  simp only [List.map_cons, List.map_nil]
  cases tab with
  | none => rfl
  | some t =>
    simp only
    cases hf : fastEval t (coord (m, z)).1 (coord (m, z)).2 with
    | none => rfl
    | some c =>
      simp only
      have h := hg t rfl
      have hr : refresh col (some t) (coord (m, z)) [] = t := by
        unfold fastEval at hf
        split_ifs at hf with hc
        unfold refresh
        simp only [List.map_nil, amin, amax, List.foldl_nil]
        rw [if_neg]
        push Not
        exact ⟨hc.1, hc.2.1, hc.2.2.1, hc.2.2.2⟩
      rw [hr, fastEval_eq h hf]

/-- **C29**. After every history, the concentration returned for a mass and a redshift at least 0 lies
between the smallest and the largest exact concentration at the corners of a table cell that contains
the query. -/
theorem c29_between (col : ℝ → ℝ → ℝ) (qs : List Query) (m z : ℝ)
    (hz : 0 ≤ z) :
    let r := evalScalar col (history col qs) m z
    ∃ i j, Surrounds r.1 i j (Real.logb 10 m) (Real.logb 10 (1 + z)) ∧
      ∀ lo hi, 0 < lo → (∀ a ∈ [i, i + 1], ∀ b ∈ [j, j + 1],
        lo ≤ col ((10 : ℝ) ^ r.1.mAxis.g a) ((10 : ℝ) ^ r.1.uAxis.g b - 1) ∧
        col ((10 : ℝ) ^ r.1.mAxis.g a) ((10 : ℝ) ^ r.1.uAxis.g b - 1) ≤ hi) →
      lo ≤ r.2 ∧ r.2 ≤ hi := by
  intro r
  have hgood : Good col r.1 := step_good col _ (c29_table_good col qs) (.scalar m z) _ rfl
  have hcov := c29_covers_partial col qs m z hz
  have hval : r.2 = arrayEval r.1 (Real.logb 10 m) (Real.logb 10 (1 + z)) := by
    have hg := c29_table_good col qs
    simp only [r]
    generalize history col qs = tab at hg
    unfold evalScalar
    cases tab with
    | none => rfl
    | some t =>
      simp only
      cases hf : fastEval t (coord (m, z)).1 (coord (m, z)).2 with
      | none => rfl
      | some c => exact fastEval_eq (hg t rfl) hf
  obtain ⟨i, j, tm, tu, hs, t0, t1, u0, u1, -, -, he⟩ := arrayEval_spec hgood hcov
  refine ⟨i, j, hs, fun lo hi hlo hcol => ?_⟩
  rw [hval, he]
  have hhi : 0 < hi := hlo.trans_le ((hcol i (by simp) j (by simp)).1.trans
    (hcol i (by simp) j (by simp)).2)
  have hcor := corners_mem (t := r.1) (i := i) (j := j) (lo := Real.logb 10 lo)
    (hi := Real.logb 10 hi) t0 t1 u0 u1 (by
      intro a ha b hb
      rw [hgood.val]
      obtain ⟨g1, g2⟩ := hcol a ha b hb
      exact ⟨Real.logb_le_logb_of_le (by norm_num) hlo g1,
        Real.logb_le_logb_of_le (by norm_num) (hlo.trans_le g1) g2⟩)
  constructor
  · calc lo = (10 : ℝ) ^ Real.logb 10 lo := (Real.rpow_logb (by norm_num) (by norm_num) hlo).symm
      _ ≤ _ := Real.rpow_le_rpow_of_exponent_le (by norm_num) hcor.1
  · calc _ ≤ (10 : ℝ) ^ Real.logb 10 hi := Real.rpow_le_rpow_of_exponent_le (by norm_num) hcor.2
      _ = hi := Real.rpow_logb (by norm_num) (by norm_num) hhi

example := c29_between (fun m z => 1 + m ^ 2 + z ^ 2) [.scalar (10 ^ 8) 0.3] (10 ^ 9) 0.5 (by norm_num)

example : ∃ t, history (fun _ _ => 10) [.scalar 1e8 0.5, .scalar 1 20] = some t ∧
    Good (fun _ _ => 10) t :=
  ⟨_, rfl, c29_table_good _ [.scalar 1e8 0.5, .scalar 1 20] _ rfl⟩

/-! ### Dependence on the history -/

/-- A relation for the witness: `log10 c = (log10 m)²`. -/
noncomputable def quadCol (m _z : ℝ) : ℝ := (10 : ℝ) ^ (Real.logb 10 m) ^ 2

theorem quad_first : (evalScalar quadCol none ((10 : ℝ) ^ (5 : ℝ)) 0).2 = (10 : ℝ) ^ (25 : ℝ) := by
  have hx : Real.logb 10 ((10 : ℝ) ^ (5 : ℝ)) = 5 := Real.logb_rpow (by norm_num) (by norm_num)
  have hy : Real.logb 10 (1 + 0) = 0 := by simp
  unfold evalScalar
  simp only [coord, hx, hy]
  have hr : refresh quadCol none (5, 0) [] = buildTable quadCol (4.5) (11.5) 0 1.05 := by
    unfold refresh
    simp only [List.map_nil, amin, amax, List.foldl_nil]
    norm_num
  rw [hr]
  unfold arrayEval
  have n1 : ⌊(11.5 - 4.5 : ℝ) * 16⌋₊ = 112 := by
    rw [Nat.floor_eq_iff (by norm_num)]; norm_num
  have n2 : ⌊(1.05 - 0 : ℝ) * 60⌋₊ = 63 := by
    rw [Nat.floor_eq_iff (by norm_num)]; norm_num
  simp only [buildTable, n1, n2, Table.mAxis, Table.uAxis, Np.Axis.linspace, corners, quadCol]
  have f1 : ⌊((5 : ℝ) - (4.5 + ((0 : ℕ) : ℝ) * ((11.5 - 4.5) / (((max 4 (112 + 1) : ℕ) : ℝ) - 1))))
      / (4.5 + ((1 : ℕ) : ℝ) * ((11.5 - 4.5) / (((max 4 (112 + 1) : ℕ) : ℝ) - 1))
        - (4.5 + ((0 : ℕ) : ℝ) * ((11.5 - 4.5) / (((max 4 (112 + 1) : ℕ) : ℝ) - 1))))⌋₊ = 8 := by
    rw [Nat.floor_eq_iff (by norm_num)]; norm_num
  have f2 : ⌊((0 : ℝ) - (0 + ((0 : ℕ) : ℝ) * ((1.05 - 0) / (((max 4 (63 + 1) : ℕ) : ℝ) - 1))))
      / (0 + ((1 : ℕ) : ℝ) * ((1.05 - 0) / (((max 4 (63 + 1) : ℕ) : ℝ) - 1))
        - (0 + ((0 : ℕ) : ℝ) * ((1.05 - 0) / (((max 4 (63 + 1) : ℕ) : ℝ) - 1))))⌋₊ = 0 := by
    norm_num
  rw [f1, f2]
  have l10 : ∀ a : ℝ, Real.logb 10 ((10 : ℝ) ^ a) = a := fun a =>
    Real.logb_rpow (by norm_num) (by norm_num)
  simp only [l10]
  congr 1
  norm_num

theorem quad_later :
    (evalScalar quadCol (history quadCol [.scalar ((10 : ℝ) ^ (4.99 : ℝ)) 0]) ((10 : ℝ) ^ (5 : ℝ)) 0).2
      ≠ (10 : ℝ) ^ (25 : ℝ) := by
  have hx : Real.logb 10 ((10 : ℝ) ^ (5 : ℝ)) = 5 := Real.logb_rpow (by norm_num) (by norm_num)
  have hx' : Real.logb 10 ((10 : ℝ) ^ (4.99 : ℝ)) = 4.99 :=
    Real.logb_rpow (by norm_num) (by norm_num)
  have hy : Real.logb 10 (1 + 0) = 0 := by simp
  have hh : history quadCol [.scalar ((10 : ℝ) ^ (4.99 : ℝ)) 0]
      = some (buildTable quadCol 4.49 11.5 0 1.05) := by
    unfold history
    simp only [List.foldl_cons, List.foldl_nil, step, evalScalar, coord, hx', hy]
    congr 1
    unfold refresh
    simp only [List.map_nil, amin, amax, List.foldl_nil]
    norm_num
  have hga := c29_table_good quadCol [.scalar ((10 : ℝ) ^ (4.99 : ℝ)) 0] _ hh
  have hsa := c31_concentration_scalar_array quadCol [.scalar ((10 : ℝ) ^ (4.99 : ℝ)) 0]
    ((10 : ℝ) ^ (5 : ℝ)) 0
  rw [hh] at hsa ⊢
  have n1 : ⌊(11.5 - 4.49 : ℝ) * 16⌋₊ = 112 := by
    rw [Nat.floor_eq_iff (by norm_num)]; norm_num
  have n2 : ⌊(1.05 - 0 : ℝ) * 60⌋₊ = 63 := by
    rw [Nat.floor_eq_iff (by norm_num)]; norm_num
  have hr : refresh quadCol (some (buildTable quadCol 4.49 11.5 0 1.05)) (5, 0) []
      = buildTable quadCol 4.49 11.5 0 1.05 := by
    obtain ⟨b1, b2, b3, b4⟩ := hga.ends
    unfold refresh
    simp only [List.map_nil, amin, amax, List.foldl_nil]
    rw [b1, b2, b3, b4, if_neg]
    simp only [buildTable]
    norm_num
  simp only [evalArray, List.map_cons, List.map_nil, coord, hx, hy, hr, Except.ok.injEq,
    Prod.mk.injEq, List.cons.injEq, and_true] at hsa
  rw [← hsa.2]
  unfold arrayEval
  simp only [buildTable, n1, n2, Table.mAxis, Table.uAxis, Np.Axis.linspace, corners, quadCol]
  have f1 : ⌊((5 : ℝ) - (4.49 + ((0 : ℕ) : ℝ) * ((11.5 - 4.49) / (((max 4 (112 + 1) : ℕ) : ℝ) - 1))))
      / (4.49 + ((1 : ℕ) : ℝ) * ((11.5 - 4.49) / (((max 4 (112 + 1) : ℕ) : ℝ) - 1))
        - (4.49 + ((0 : ℕ) : ℝ) * ((11.5 - 4.49) / (((max 4 (112 + 1) : ℕ) : ℝ) - 1))))⌋₊ = 8 := by
    rw [Nat.floor_eq_iff (by norm_num)]; norm_num
  have f2 : ⌊((0 : ℝ) - (0 + ((0 : ℕ) : ℝ) * ((1.05 - 0) / (((max 4 (63 + 1) : ℕ) : ℝ) - 1))))
      / (0 + ((1 : ℕ) : ℝ) * ((1.05 - 0) / (((max 4 (63 + 1) : ℕ) : ℝ) - 1))
        - (0 + ((0 : ℕ) : ℝ) * ((1.05 - 0) / (((max 4 (63 + 1) : ℕ) : ℝ) - 1))))⌋₊ = 0 := by
    norm_num
  rw [f1, f2]
  have l10 : ∀ a : ℝ, Real.logb 10 ((10 : ℝ) ^ a) = a := fun a =>
    Real.logb_rpow (by norm_num) (by norm_num)
  simp only [l10]
  intro h
  have := congrArg (Real.logb 10) h
  rw [l10, l10] at this
  norm_num at this

/-- **C29, disagreement**. The answer to a query depends on what was asked before: the table has other
nodes when it was built for another first query, and with the (admissible) relation
`log10 c = (log10 m)²` the concentration of a halo of mass `10^5` changes when a halo of mass
`10^4.99` is asked for first. -/
theorem c29_history_matters : ∃ (col : ℝ → ℝ → ℝ) (qs : List Query) (m z : ℝ),
    (∀ m z, 0 < col m z) ∧ 0 < m ∧ 0 ≤ z ∧
    (evalScalar col (history col []) m z).2 ≠ (evalScalar col (history col qs) m z).2 := by
  refine ⟨quadCol, [.scalar ((10 : ℝ) ^ (4.99 : ℝ)) 0], (10 : ℝ) ^ (5 : ℝ), 0,
    fun _ _ => Real.rpow_pos_of_pos (by norm_num) _, Real.rpow_pos_of_pos (by norm_num) _, le_rfl, ?_⟩
  have : history quadCol [] = none := rfl
  rw [this, quad_first]
  exact fun h => quad_later h.symm

/-! ## C68: suppression factors -/

/-- **C68**, polynomial model without redshift evolution: the factor is in (0, 1] and grows with mass. -/
theorem c68_polynomial (logMc cScale cPower cInner m m' z : ℝ)
    (hchk : polyCheck cScale cPower = .ok ()) (hin : 0 ≤ cInner) (hm : 0 < m) (hmm : m ≤ m') :
    0 < polySuppression logMc cScale cPower cInner false m z ∧
    polySuppression logMc cScale cPower cInner false m z ≤ 1 ∧
    polySuppression logMc cScale cPower cInner false m z
      ≤ polySuppression logMc cScale cPower cInner false m' z := by
  have hp : cPower ≤ 0 ∧ 0 ≤ cScale := by
    unfold polyCheck at hchk
    split_ifs at hchk with h1 h2
    exact ⟨not_lt.1 h1, not_lt.1 h2⟩
  have hmhm : 0 < (10 : ℝ) ^ logMc := Real.rpow_pos_of_pos (by norm_num) _
  have hm' : 0 < m' := hm.trans_le hmm
  unfold polySuppression
  simp only [Bool.false_eq_true, if_false, one_mul]
  have a1 : 0 ≤ cScale * ((10 : ℝ) ^ logMc / m) ^ cInner :=
    mul_nonneg hp.2 (Real.rpow_nonneg (by positivity) _)
  have a2 : 0 ≤ cScale * ((10 : ℝ) ^ logMc / m') ^ cInner :=
    mul_nonneg hp.2 (Real.rpow_nonneg (by positivity) _)
  refine ⟨Real.rpow_pos_of_pos (by linarith) _,
    Real.rpow_le_one_of_one_le_of_nonpos (by linarith) hp.1, ?_⟩
  apply Real.rpow_le_rpow_of_nonpos (by linarith) _ hp.1
  have : ((10 : ℝ) ^ logMc / m') ^ cInner ≤ ((10 : ℝ) ^ logMc / m) ^ cInner :=
    Real.rpow_le_rpow (by positivity) (by gcongr) hin
  nlinarith [mul_le_mul_of_nonneg_left this hp.2]

/-- **C68**. With redshift evolution the factor is multiplied by the one of Bose et al., which is at
most 1 exactly up to redshift `0.04/0.026 = 1.54`. Beyond that redshift massive warm dark matter halos
are more concentrated than cold ones. -/
theorem c68_redshift_factor (z : ℝ) (hz : 0 < z) : boseZ z ≤ 1 ↔ z ≤ 0.04 / 0.026 := by
  unfold boseZ
  rw [Real.rpow_le_one_iff_of_pos (by linarith)]
  norm_num
  constructor
  · rintro (⟨-, h⟩ | ⟨h, -⟩) <;> linarith
  · intro h; left; constructor <;> linarith

example := c68_redshift_factor 0.5 (by norm_num)

/-- **C68**, hyperbolic models: the factor is strictly between 0 and 1 and grows with mass. -/
theorem c68_hyperbolic (logMc a b m m' : ℝ) (hb : 0 < b) (hm : 0 < m) (hmm : m < m') :
    0 < tanhSuppression logMc a b m ∧
    tanhSuppression logMc a b m < tanhSuppression logMc a b m' ∧
    tanhSuppression logMc a b m' < 1 := by
  have hmhm : 0 < (10 : ℝ) ^ logMc := Real.rpow_pos_of_pos (by norm_num) _
  unfold tanhSuppression
  simp only
  have hlt : (Real.logb 10 (m / (10 : ℝ) ^ logMc) - a) / (2 * b)
      < (Real.logb 10 (m' / (10 : ℝ) ^ logMc) - a) / (2 * b) := by
    have : Real.logb 10 (m / (10 : ℝ) ^ logMc) < Real.logb 10 (m' / (10 : ℝ) ^ logMc) :=
      Real.logb_lt_logb (by norm_num) (by positivity) (by gcongr)
    gcongr
  have h1 := Real.neg_one_lt_tanh ((Real.logb 10 (m / (10 : ℝ) ^ logMc) - a) / (2 * b))
  have h2 := Real.tanh_lt_one ((Real.logb 10 (m' / (10 : ℝ) ^ logMc) - a) / (2 * b))
  have h3 := (Real.artanh_lt_artanh_iff ⟨Real.neg_one_lt_tanh _, Real.tanh_lt_one _⟩
    ⟨Real.neg_one_lt_tanh _, Real.tanh_lt_one _⟩).1
    (show Real.artanh (Real.tanh ((Real.logb 10 (m / (10 : ℝ) ^ logMc) - a) / (2 * b)))
        < Real.artanh (Real.tanh ((Real.logb 10 (m' / (10 : ℝ) ^ logMc) - a) / (2 * b))) by
      rwa [Real.artanh_tanh, Real.artanh_tanh])
  norm_num
  exact ⟨by linarith, h3, by linarith⟩

example := c68_hyperbolic 8 0.5 0.7 (10 ^ 7) (10 ^ 8) (by norm_num) (by norm_num) (by norm_num)

theorem lw_axes : lwPoints.1.Ok ∧ lwPoints.2.1.Ok ∧ lwPoints.2.2.Ok := by
  refine ⟨Np.ofList_ok (by simp) ?_, Np.ofList_ok (by simp) ?_, Np.ofList_ok (by simp) ?_⟩ <;>
    norm_num [List.pairwise_cons]

theorem lwB_mem (n : ℕ) (h : n < 75) : (0.42 : ℝ) ≤ ((lwB.getD n 0 : ℤ) : ℝ) / 1000 ∧
    ((lwB.getD n 0 : ℤ) : ℝ) / 1000 ≤ 1.045 := by
  have : ∀ n < 75, 420 ≤ lwB.getD n 0 ∧ lwB.getD n 0 ≤ 1045 := by decide
  obtain ⟨h1, h2⟩ := this n h
  have h1' : (420 : ℝ) ≤ ((lwB.getD n 0 : ℤ) : ℝ) := by exact_mod_cast h1
  have h2' : ((lwB.getD n 0 : ℤ) : ℝ) ≤ 1045 := by exact_mod_cast h2
  generalize ((lwB.getD n 0 : ℤ) : ℝ) = b at h1' h2'
  constructor
  · norm_num; linarith
  · norm_num; linarith

theorem lw_inside (logMhm dlogT z : ℝ) :
    lwPoints.1.Inside (makeInBounds logMhm dlogT z).2.1 ∧
    lwPoints.2.1.Inside (makeInBounds logMhm dlogT z).1 ∧
    lwPoints.2.2.Inside (makeInBounds logMhm dlogT z).2.2 := by
  unfold makeInBounds lwPoints Np.Axis.Inside Np.Axis.ofList
  refine ⟨⟨?_, ?_⟩, ⟨?_, ?_⟩, ⟨?_, ?_⟩⟩
  · norm_num
  · norm_num
  · norm_num
  · norm_num
  · norm_num
  · norm_num

/-- **C68**, Ludlow WDM model: it never leaves its calibration table (no query raises) and for every
half-mode mass, transfer-function slope and redshift the factor is strictly between 0 and 1 and grows
with mass. -/
theorem c68_ludlow (logMc dlogT z m m' : ℝ) (hm : 0 < m) (hmm : m < m') :
    ∃ s s', ludlowSuppression logMc dlogT m z = .ok s ∧ ludlowSuppression logMc dlogT m' z = .ok s' ∧
      0 < s ∧ s < s' ∧ s' < 1 := by
  obtain ⟨i1, i2, i3⟩ := lw_inside logMc dlogT z
  obtain ⟨o1, o2, o3⟩ := lw_axes
  have hb := Np.grid3_mem o1 o2 o3 (v := lwVal lwB) (lo := 0.42) (hi := 1.045)
    (fun i j k hi hj hk => lwB_mem _ (by
      have h1 : i < 5 := hi
      have h2 : j < 3 := hj
      have h3 : k < 5 := hk
      omega)) i1 i2 i3
  have hfit : suppressionFit logMc dlogT z = .ok
      (Np.grid3 lwPoints.1 lwPoints.2.1 lwPoints.2.2 (lwVal lwA) (makeInBounds logMc dlogT z).2.1
        (makeInBounds logMc dlogT z).1 (makeInBounds logMc dlogT z).2.2,
       Np.grid3 lwPoints.1 lwPoints.2.1 lwPoints.2.2 (lwVal lwB) (makeInBounds logMc dlogT z).2.1
        (makeInBounds logMc dlogT z).1 (makeInBounds logMc dlogT z).2.2) := by
    unfold suppressionFit
    simp only [Np.grid3Strict, if_pos (And.intro i1 (And.intro i2 i3))]
  refine ⟨_, _, by unfold ludlowSuppression; rw [hfit], by unfold ludlowSuppression; rw [hfit], ?_⟩
  have hb0 := hb.1
  norm_num at hb0
  exact c68_hyperbolic _ _ _ _ _ (by linarith) hm hmm

example := c68_ludlow 8 2.4 0.5 (10 ^ 7) (10 ^ 8) (by norm_num) (by norm_num)

/-- **C68**. Suppressed concentrations respect the floor and are otherwise not larger than the cold
one. -/
theorem c68_turnover (c s : ℝ) (hs : s ≤ 1) (hc : 0 ≤ c) :
    1.2 ≤ turnover c s ∧ turnover c s ≤ max c 1.2 :=
  ⟨le_max_right _ _, max_le_max (by nlinarith) le_rfl⟩

example := c68_turnover 10 0.3 (by norm_num) (by norm_num)

example : polyCheck 60 (-0.17) = .ok () := by
  unfold polyCheck; norm_num

/-! ## C69: binned concentrations -/

/-- **C69**. For a mass inside bin `k` (lower edge included, upper edge excluded) of a list of bins in
increasing order, the concentration is that of the model of bin `k`. -/
theorem c69_binned (pre post : List (ℝ × ℝ × (ℝ → ℝ → ℝ))) (b : ℝ × ℝ × (ℝ → ℝ → ℝ)) (m z : ℝ)
    (hlo : (10 : ℝ) ^ b.1 ≤ m) (hhi : m < (10 : ℝ) ^ b.2.1)
    (hpre : ∀ a ∈ pre, a.1 ≤ a.2.1 ∧ a.2.1 ≤ b.1) (hpost : ∀ a ∈ post, b.2.1 ≤ a.2.1) :
    binned (pre ++ b :: post) m z = .ok (b.2.2 m z) := by
  have mono : ∀ x y : ℝ, x ≤ y → (10 : ℝ) ^ x ≤ (10 : ℝ) ^ y := fun x y h =>
    Real.rpow_le_rpow_of_exponent_le (by norm_num) h
  have hfind : (pre ++ b :: post).find? (fun b => decide (m < (10 : ℝ) ^ b.2.1)) = some b := by
    rw [List.find?_append]
    have : pre.find? (fun b => decide (m < (10 : ℝ) ^ b.2.1)) = none := by
      rw [List.find?_eq_none]
      intro a ha
      have := mono _ _ (hpre a ha).2
      simp only [decide_eq_true_eq, not_lt]
      linarith
    rw [this]
    simp [hhi]
  obtain ⟨f, hf, hf'⟩ : ∃ f, (pre ++ b :: post).head? = some f ∧ (10 : ℝ) ^ f.1 ≤ m := by
    cases pre with
    | nil => exact ⟨b, rfl, hlo⟩
    | cons a l =>
      refine ⟨a, rfl, ?_⟩
      have h := hpre a List.mem_cons_self
      exact (mono _ _ (h.1.trans h.2)).trans hlo
  obtain ⟨l, hl, hl'⟩ : ∃ l, (pre ++ b :: post).getLast? = some l ∧ m ≤ (10 : ℝ) ^ l.2.1 := by
    rcases List.eq_nil_or_concat post with h | ⟨p, c, h⟩
    · exact ⟨b, by simp [h], hhi.le⟩
    · refine ⟨c, by rw [h]; simp [List.getLast?_append, List.getLast?_cons], ?_⟩
      exact hhi.le.trans (mono _ _ (hpost c (by rw [h]; simp)))
  unfold binned
  rw [hf, hl]
  simp only
  rw [if_neg (not_lt.2 hf'), if_neg (not_lt.2 hl'), hfind]

/-- **C69**. Masses outside the bins are refused. -/
theorem c69_outside (bins : List (ℝ × ℝ × (ℝ → ℝ → ℝ))) (f l : ℝ × ℝ × (ℝ → ℝ → ℝ)) (m z : ℝ)
    (hf : bins.head? = some f) (hl : bins.getLast? = some l)
    (h : m < (10 : ℝ) ^ f.1 ∨ (10 : ℝ) ^ l.2.1 < m) : ∃ e, binned bins m z = .error e := by
  unfold binned
  rw [hf, hl]
  simp only
  split_ifs with h1 h2
  · exact ⟨_, rfl⟩
  · exact ⟨_, rfl⟩
  · rcases h with h | h
    · exact absurd h h1
    · exact absurd h h2

/-- **C69, disagreement**. The mass at the upper edge of the last bin passes the range check and is
then refused; a mass in a gap between two bins is silently given to the next bin. -/
theorem c69_edges (f g : ℝ → ℝ → ℝ) (z : ℝ) :
    (∃ e, binned [(6, 7, f), (8, 9, g)] ((10 : ℝ) ^ (9 : ℝ)) z = .error e) ∧
    binned [(6, 7, f), (8, 9, g)] ((10 : ℝ) ^ (7.5 : ℝ)) z = .ok (g ((10 : ℝ) ^ (7.5 : ℝ)) z) := by
  have lt_iff : ∀ x y : ℝ, (10 : ℝ) ^ x < (10 : ℝ) ^ y ↔ x < y := fun x y =>
    Real.rpow_lt_rpow_left_iff (by norm_num)
  constructor
  · unfold binned
    simp only [List.head?_cons, List.getLast?_cons_cons, List.getLast?_singleton, lt_iff]
    simp [List.find?_cons]
    norm_num
  · unfold binned
    simp only [List.head?_cons, List.getLast?_cons_cons, List.getLast?_singleton, lt_iff]
    simp [List.find?_cons]
    norm_num

example (f g h : ℝ → ℝ → ℝ) (z : ℝ) :
    binned ([(6, 7, f)] ++ (7, 8, g) :: [(8, 9, h)]) ((10 : ℝ) ^ (7 : ℝ)) z
      = .ok (g ((10 : ℝ) ^ (7 : ℝ)) z) := by
  apply c69_binned
  · exact le_rfl
  · exact (Real.rpow_lt_rpow_left_iff (by norm_num)).2 (by norm_num)
  · intro a ha; simp only [List.mem_singleton] at ha; subst ha; norm_num
  · intro a ha; simp only [List.mem_singleton] at ha; subst ha; norm_num

/-! ## C70: constructors of warm dark matter relations -/

/-- Contents of the default dictionary after a list of constructor calls without dictionary. -/
def afterCalls (calls : List (Bool × ℝ)) : CdmKw :=
  calls.foldl (fun d c => (construct d none c.1 c.2).2) ⟨none, none⟩

/-- **C70**, what holds. With a dictionary given by the caller the options are the caller's, whatever
was constructed before; and the first construction in a process is right. -/
theorem c70_options_partial (dflt k : CdmKw) (scatter : Bool) (dex : ℝ) :
    (construct dflt (some k) scatter dex).1 = (k.scatter.getD scatter, k.dex.getD dex) ∧
    (construct (afterCalls []) none scatter dex).1 = (scatter, dex) :=
  ⟨rfl, rfl⟩

/-- **C70, disagreement**. Every later construction that relies on the default dictionary gets the
scatter options of the first one, whatever it asks for. -/
theorem c70_default_remembered (first : Bool × ℝ) (calls : List (Bool × ℝ)) (scatter : Bool)
    (dex : ℝ) : (construct (afterCalls (first :: calls)) none scatter dex).1 = first := by
  have h : ∀ (calls : List (Bool × ℝ)) (d : CdmKw), d = ⟨some first.1, some first.2⟩ →
      calls.foldl (fun d c => (construct d none c.1 c.2).2) d = ⟨some first.1, some first.2⟩ := by
    intro calls
    induction calls with
    | nil => intro d h; exact h
    | cons c t ih => intro d h; subst h; exact ih _ rfl
  have : afterCalls (first :: calls) = ⟨some first.1, some first.2⟩ := h calls _ rfl
  rw [this]
  rfl

example : (construct (afterCalls [(true, 0.2)]) none false 0.1).1 = (true, 0.2) :=
  c70_default_remembered (true, 0.2) [] false 0.1

end PyHalo.Props
