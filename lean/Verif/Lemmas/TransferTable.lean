import Verif.Lemmas.TransferTotal

namespace PyHalo
namespace Transfer
open PyHalo.Spec
open scoped Classical

/-- The table belongs to the profile it was made for. -/
def Sound (special : ℝ → ℝ → ℝ) (t : Table) : Prop :=
  0 < t.xMin ∧ t.xMin ≤ 1e-6 ∧ 1e4 ≤ t.xMax ∧ ∀ p, t.used = some p →
    ∃ mtot, mTotal special p.alpha p.beta p.gamma p.delta = some mtot ∧ Covering mtot
      ∧ t.limits = some (mtot t.xMin, mtot t.xMax) ∧ t.table = buildTable mtot t.xMin t.xMax

theorem sound_init (special : ℝ → ℝ → ℝ) : Sound special Table.init := by
  refine ⟨by norm_num [Table.init], by norm_num [Table.init], by norm_num [Table.init], fun p hp => ?_⟩
  simp [Table.init] at hp

theorem geomspace_length (a b : ℝ) (n : ℕ) : (geomspace a b n).length = n := by simp [geomspace]

theorem geomspace_head {a b : ℝ} {n : ℕ} (ha : 0 < a) (hn : 0 < n) : (geomspace a b n).head? = some a := by
  obtain ⟨k, rfl⟩ : ∃ k, n = k + 1 := ⟨n - 1, by omega⟩
  simp [geomspace, List.range_succ_eq_map, Real.exp_log ha]

theorem geomspace_last {a b : ℝ} {n : ℕ} (hb : 0 < b) (hn : 2 ≤ n) : (geomspace a b n).getLast? = some b := by
  obtain ⟨k, rfl⟩ : ∃ k, n = k + 2 := ⟨n - 2, by omega⟩
  rw [geomspace, List.getLast?_map, List.range_succ, List.getLast?_append]
  simp only [List.getLast?_singleton, Option.map_some, Option.some_or]
  have : (((k + 2 : ℕ) : ℝ) - 1) = ((k + 1 : ℕ) : ℝ) := by push_cast; ring
  rw [this, mul_div_cancel₀ _ (by positivity), add_sub_cancel, Real.exp_log hb]

theorem table_size {a b : ℝ} (ha : 0 < a) (ha1 : a ≤ 1e-6) (hb : 1e4 ≤ b) :
    2 ≤ ⌊Real.logb 10 (b / a) * 10⌋.toNat := by
  have h1 : (10 : ℝ) ≤ b / a := by
    rw [le_div_iff₀ ha]; norm_num at ha1 hb; linarith
  have h2 : 1 ≤ Real.logb 10 (b / a) := by
    rw [Real.le_logb_iff_rpow_le (by norm_num) (by linarith), Real.rpow_one]; exact h1
  have h3 : (2 : ℤ) ≤ ⌊Real.logb 10 (b / a) * 10⌋ := by
    rw [Int.le_floor]; push_cast; linarith
  omega

theorem table_ends {mtot : ℝ → ℝ} {a b : ℝ} (ha : 0 < a) (ha1 : a ≤ 1e-6) (hb : 1e4 ≤ b) :
    (buildTable mtot a b).1.head? = some (Real.log (mtot a))
      ∧ (buildTable mtot a b).1.getLast? = some (Real.log (mtot b)) := by
  have hn := table_size ha ha1 hb
  have hb0 : 0 < b := by norm_num at hb; linarith
  simp only [buildTable, List.head?_map, List.getLast?_map]
  rw [geomspace_head ha (by omega), geomspace_last hb0 hn]
  exact ⟨rfl, rfl⟩

theorem eval_in {spline : List ℝ → List ℝ → ℝ → ℝ} {mtot : ℝ → ℝ} {a b m : ℝ} (hc : Covering mtot)
    (ha : 0 < a) (ha1 : a ≤ 1e-6) (hb : 1e4 ≤ b) (h1 : mtot a ≤ m) (h2 : m ≤ mtot b) :
    evalSpline spline (buildTable mtot a b) (Real.log m)
      = .ok (spline (buildTable mtot a b).1 (buildTable mtot a b).2 (Real.log m)) := by
  have hb0 : 0 < b := by norm_num at hb; linarith
  have hm : 0 < m := (hc.pos a ha).trans_le h1
  obtain ⟨e1, e2⟩ := table_ends (mtot := mtot) ha ha1 hb
  rw [evalSpline, e1, e2]
  simp only
  rw [if_neg]
  rw [not_or, not_lt, not_lt]
  exact ⟨Real.log_le_log (hc.pos a ha) h1, Real.log_le_log hm h2⟩

theorem mapM_ok {α β : Type} {f : α → Except Err β} {g : α → β} :
    ∀ {l : List α}, (∀ x ∈ l, f x = .ok (g x)) → l.mapM f = .ok (l.map g)
  | [], _ => rfl
  | x :: l, h => by
    rw [List.mapM_cons, h x (by simp), mapM_ok (l := l) fun y hy => h y (by simp [hy])]
    rfl

/-- The results of a table. -/
noncomputable def results (spline : List ℝ → List ℝ → ℝ → ℝ) (t : Table) (ms : List ℝ) : List ℝ :=
  ms.map fun m => Real.exp (spline t.table.1 t.table.2 (Real.log m))

theorem finish_ok {spline : List ℝ → List ℝ → ℝ → ℝ} {t : Table} {ms : List ℝ} {mtot : ℝ → ℝ}
    (hc : Covering mtot) (ha : 0 < t.xMin) (ha1 : t.xMin ≤ 1e-6) (hb : 1e4 ≤ t.xMax)
    (ht : t.table = buildTable mtot t.xMin t.xMax) (h : ∀ m ∈ ms, mtot t.xMin ≤ m ∧ m ≤ mtot t.xMax) :
    finish spline t ms = .done t (results spline t ms) := by
  have : ms.mapM (fun m => evalSpline spline t.table (Real.log m))
      = .ok (ms.map fun m => spline t.table.1 t.table.2 (Real.log m)) := by
    apply mapM_ok
    intro m hm
    rw [ht]
    exact eval_in hc ha ha1 hb (h m hm).1 (h m hm).2
  rw [finish, this]
  simp [results]

theorem turns_some {stop : ℕ → Prop} (h : ∃ k, stop k) : ∃ k, turns stop = some k ∧ stop k := by
  classical
  refine ⟨Nat.find h, by rw [turns, dif_pos h], Nat.find_spec h⟩

theorem small_all {f : ℝ → ℝ} (hc : Covering f) : ∀ {ms : List ℝ}, (∀ m ∈ ms, 0 < m) →
    ∃ d, 0 < d ∧ ∀ x, 0 < x → x < d → ∀ m ∈ ms, f x < m
  | [], _ => ⟨1, one_pos, by simp⟩
  | m :: ms, h => by
    obtain ⟨d, hd, hs⟩ := small_all hc (ms := ms) fun n hn => h n (by simp [hn])
    obtain ⟨e, he, hs2⟩ := hc.small m (h m (by simp))
    refine ⟨min d e, lt_min hd he, fun x hx hxd n hn => ?_⟩
    rcases List.mem_cons.mp hn with rfl | hn
    · exact hs2 x hx (hxd.trans_le (min_le_right _ _))
    · exact hs x hx (hxd.trans_le (min_le_left _ _)) n hn

theorem large_all {f : ℝ → ℝ} (hc : Covering f) : ∀ (ms : List ℝ),
    ∃ d, 0 < d ∧ ∀ x, d < x → ∀ m ∈ ms, m < f x
  | [] => ⟨1, one_pos, by simp⟩
  | m :: ms => by
    obtain ⟨d, hd, hs⟩ := large_all hc ms
    obtain ⟨e, he, hs2⟩ := hc.large m
    refine ⟨max d e, lt_max_of_lt_left hd, fun x hx n hn => ?_⟩
    rcases List.mem_cons.mp hn with rfl | hn
    · exact hs2 x ((le_max_right _ _).trans_lt hx)
    · exact hs x ((le_max_left _ _).trans_lt hx) n hn

theorem turns_small {f : ℝ → ℝ} (hc : Covering f) {a : ℝ} (ha : 0 < a) {ms : List ℝ} (h : ∀ m ∈ ms, 0 < m) :
    ∃ k, turns (fun k => ¬ ∃ m ∈ ms, m < f (a / 2 ^ k)) = some k ∧ ∀ m ∈ ms, f (a / 2 ^ k) ≤ m := by
  obtain ⟨d, hd, hs⟩ := small_all hc h
  obtain ⟨k, hk⟩ := pow_unbounded_of_one_lt (a / d) (by norm_num : (1 : ℝ) < 2)
  obtain ⟨j, hj, hst⟩ := turns_some (stop := fun k => ¬ ∃ m ∈ ms, m < f (a / 2 ^ k)) ⟨k, by
    rintro ⟨m, hm, hlt⟩
    refine absurd (hs (a / 2 ^ k) (by positivity) ?_ m hm) hlt.not_gt
    rw [div_lt_iff₀ hd] at hk
    rw [div_lt_iff₀ (by positivity)]
    linarith⟩
  refine ⟨j, hj, fun m hm => ?_⟩
  by_contra hcon
  exact hst ⟨m, hm, not_le.mp hcon⟩

theorem turns_large {f : ℝ → ℝ} (hc : Covering f) {b : ℝ} (hb : 0 < b) (ms : List ℝ) :
    ∃ k, turns (fun k => ¬ ∃ m ∈ ms, f (b * 2 ^ k) < m) = some k ∧ ∀ m ∈ ms, m ≤ f (b * 2 ^ k) := by
  obtain ⟨d, hd, hs⟩ := large_all hc ms
  obtain ⟨k, hk⟩ := pow_unbounded_of_one_lt (d / b) (by norm_num : (1 : ℝ) < 2)
  obtain ⟨j, hj, hst⟩ := turns_some (stop := fun k => ¬ ∃ m ∈ ms, f (b * 2 ^ k) < m) ⟨k, by
    rintro ⟨m, hm, hlt⟩
    refine absurd (hs (b * 2 ^ k) ?_ m hm) hlt.not_gt
    rw [div_lt_iff₀ hb] at hk
    linarith⟩
  refine ⟨j, hj, fun m hm => ?_⟩
  by_contra hcon
  exact hst ⟨m, hm, not_le.mp hcon⟩

/-- A call for a profile with a total mass that covers all masses, for positive masses. -/
theorem radius_ok {special : ℝ → ℝ → ℝ} {spline : List ℝ → List ℝ → ℝ → ℝ} {t : Table} {ms : List ℝ} {p : Shape}
    {mtot : ℝ → ℝ} (hs : Sound special t) (hp : mTotal special p.alpha p.beta p.gamma p.delta = some mtot)
    (hc : Covering mtot) (hm : ∀ m ∈ ms, 0 < m) :
    ∃ t', truncationRadius special spline t ms p = .done t' (results spline t' ms) ∧ Sound special t'
      ∧ t'.used = some p ∧ t'.table = buildTable mtot t'.xMin t'.xMax
      ∧ ∀ m ∈ ms, mtot t'.xMin ≤ m ∧ m ≤ mtot t'.xMax := by
  obtain ⟨ha, ha1, hb, hu⟩ := hs
  have hb0 : 0 < t.xMax := by norm_num at hb; linarith
  unfold truncationRadius
  by_cases h1 : t.used = some p ∧ t.limits = none
  · obtain ⟨m', hm', -, hl, -⟩ := hu p h1.1
    rw [h1.2] at hl
    exact absurd hl (by simp)
  rw [if_neg h1]
  split_ifs with h2
  · obtain ⟨hup, l, hl, hlo, hhi⟩ := h2
    obtain ⟨m', hm', -, hl', htab⟩ := hu p hup
    rw [hp] at hm'
    cases hm'
    rw [hl] at hl'
    cases hl'
    have hin : ∀ m ∈ ms, mtot t.xMin ≤ m ∧ m ≤ mtot t.xMax := fun m hm => ⟨hlo m hm, hhi m hm⟩
    exact ⟨t, finish_ok hc ha ha1 hb htab hin, ⟨ha, ha1, hb, hu⟩, hup, htab, hin⟩
  · rw [hp]
    obtain ⟨i, hi, hi2⟩ := turns_small hc ha hm
    obtain ⟨j, hj, hj2⟩ := turns_large hc hb0 ms
    simp only [hi, hj]
    have ha' : 0 < t.xMin / 2 ^ i := by positivity
    have ha1' : t.xMin / 2 ^ i ≤ 1e-6 := (div_le_self ha.le (one_le_pow₀ (by norm_num))).trans ha1
    have hb' : 1e4 ≤ t.xMax * 2 ^ j := hb.trans (le_mul_of_one_le_right hb0.le (one_le_pow₀ (by norm_num)))
    have hin : ∀ m ∈ ms, mtot (t.xMin / 2 ^ i) ≤ m ∧ m ≤ mtot (t.xMax * 2 ^ j) := fun m hm => ⟨hi2 m hm, hj2 m hm⟩
    refine ⟨_, finish_ok (mtot := mtot) hc ha' ha1' hb' rfl hin, ⟨ha', ha1', hb', ?_⟩, rfl, rfl, hin⟩
    intro q hq
    cases hq
    exact ⟨mtot, hp, hc, rfl, rfl⟩

theorem zip_map_self {α β : Type} (g : α → β) : ∀ l : List α, l.zip (l.map g) = l.map fun x => (x, g x)
  | [] => rfl
  | _ :: l => by simp [zip_map_self g l]

theorem geomspace_sorted {a b : ℝ} {n : ℕ} (ha : 0 < a) (hab : a < b) (hn : 2 ≤ n) :
    (geomspace a b n).Pairwise (· < ·) := by
  have hd : 0 < (Real.log b - Real.log a) / ((n : ℝ) - 1) := by
    have h1 : Real.log a < Real.log b := Real.log_lt_log ha hab
    have h2 : (2 : ℝ) ≤ n := by exact_mod_cast hn
    exact div_pos (by linarith) (by linarith)
  rw [geomspace, List.pairwise_map]
  refine List.pairwise_lt_range.imp fun {i j} hij => ?_
  rw [Real.exp_lt_exp]
  have : (i : ℝ) < j := by exact_mod_cast hij
  nlinarith

theorem geomspace_pos {a b x : ℝ} {n : ℕ} (hx : x ∈ geomspace a b n) : 0 < x := by
  obtain ⟨i, -, rfl⟩ := List.mem_map.mp hx
  exact Real.exp_pos _

theorem table_sorted {mtot : ℝ → ℝ} {a b : ℝ} (hc : Covering mtot) (ha : 0 < a) (ha1 : a ≤ 1e-6) (hb : 1e4 ≤ b) :
    (buildTable mtot a b).1.Pairwise (· < ·) := by
  have hab : a < b := by norm_num at ha1 hb; linarith
  simp only [buildTable, List.pairwise_map]
  refine (List.Pairwise.and_mem.mp (geomspace_sorted ha hab (table_size ha ha1 hb))).imp fun {x y} h => ?_
  obtain ⟨hx, hy, hxy⟩ := h
  exact Real.log_lt_log (hc.pos x (geomspace_pos hx)) (hc.mono (geomspace_pos hx) (geomspace_pos hy) hxy)

theorem table_knot {mtot : ℝ → ℝ} {a b x : ℝ} (hx : 0 < x) (h : Real.log x ∈ (buildTable mtot a b).2) :
    ∃ i : ℕ, (buildTable mtot a b).1[i]? = some (Real.log (mtot x)) ∧ (buildTable mtot a b).2[i]? = some (Real.log x) := by
  simp only [buildTable] at h ⊢
  generalize ⌊Real.logb 10 (b / a) * 10⌋.toNat = n at h ⊢
  obtain ⟨y, hy, hxy⟩ := List.mem_map.mp h
  have : y = x := Real.log_injOn_pos (geomspace_pos hy) hx hxy
  subst this
  obtain ⟨i, hi⟩ := List.mem_iff_getElem?.mp hy
  exact ⟨i, by simp [hi], by simp [hi]⟩

end Transfer
end PyHalo
