import Verif.Model.Cosmology
import Verif.Lemmas.Interp

/-!
# C49: memoised cosmology queries
-/

namespace PyHalo.Props
open PyHalo Np Cosmo

/-- What each query means, without any memory: tabulated where the table reaches, astropy
elsewhere. -/
noncomputable def answer (A : AstropyI) : Query → Except Err ℝ
  | .DA z1 z2 => .ok (A.DA z1 z2)
  | .DAz z => .ok (match daInterp A z with | .ok v => v | .error _ => A.DA 0 z)
  | .DCz z => .ok (match dcInterp A z with
    | .ok v => v
    | .error _ => (match daInterp A z with | .ok v => v | .error _ => A.DA 0 z) * (1 + z))
  | .kpc z => kpcInterp A z
  | .age z zform =>
    match ageInterp A zform with
    | .error e => .error e
    | .ok form => if zform < z then .ok 0 else
      match ageInterp A z with
      | .error e => .error e
      | .ok t => .ok (t - form)

/-- Every remembered value is the answer to its query. -/
structure Faithful (A : AstropyI) (s : CosmoCache) : Prop where
  da2 : ∀ a b v, s.da2 a b = some v → answer A (.DA a b) = .ok v
  daz : ∀ a v, s.daz a = some v → answer A (.DAz a) = .ok v
  dcz : ∀ a v, s.dcz a = some v → answer A (.DCz a) = .ok v
  kpc : ∀ a v, s.kpc a = some v → answer A (.kpc a) = .ok v
  age : ∀ a b v, s.age a b = some v → answer A (.age a b) = .ok v

variable (A : AstropyI)

theorem faithful_empty : Faithful A CosmoCache.empty := by
  constructor <;> simp [CosmoCache.empty]

theorem DA_spec (s : CosmoCache) (h : Faithful A s) (z1 z2 : ℝ) :
    (DA A s z1 z2).1 = A.DA z1 z2 ∧ Faithful A (DA A s z1 z2).2 := by
  unfold DA
  cases hc : s.da2 z1 z2 with
  | some v =>
    have := h.da2 _ _ _ hc
    simp only [answer, Except.ok.injEq] at this
    exact ⟨this.symm, h⟩
  | none =>
    refine ⟨rfl, ⟨?_, h.daz, h.dcz, h.kpc, h.age⟩⟩
    intro a b v hv
    simp only at hv
    split_ifs at hv with hab
    · rw [hab.1, hab.2]; simp only [Option.some.injEq] at hv; rw [← hv]; rfl
    · exact h.da2 _ _ _ hv

theorem DAz_spec (s : CosmoCache) (h : Faithful A s) (z : ℝ) :
    .ok (DAz A s z).1 = answer A (.DAz z) ∧ Faithful A (DAz A s z).2 := by
  unfold DAz
  cases hc : s.daz z with
  | some v => exact ⟨(h.daz _ _ hc).symm, h⟩
  | none =>
    cases hi : daInterp A z with
    | ok v =>
      have ha : answer A (.DAz z) = .ok v := by simp [answer, hi]
      refine ⟨ha.symm, ⟨h.da2, ?_, h.dcz, h.kpc, h.age⟩⟩
      intro a w hw
      simp only at hw
      split_ifs at hw with hab
      · rw [hab]; simp only [Option.some.injEq] at hw; rw [← hw]; exact ha
      · exact h.daz _ _ hw
    | error e =>
      obtain ⟨g1, g2⟩ := DA_spec A s h 0 z
      have ha : answer A (.DAz z) = .ok (DA A s 0 z).1 := by simp [answer, hi, g1]
      refine ⟨ha.symm, ⟨g2.da2, ?_, g2.dcz, g2.kpc, g2.age⟩⟩
      intro a w hw
      simp only at hw
      split_ifs at hw with hab
      · rw [hab]; simp only [Option.some.injEq] at hw; rw [← hw]; exact ha
      · exact g2.daz _ _ hw

theorem exec_spec (s : CosmoCache) (h : Faithful A s) (q : Query) :
    (exec A s q).1 = answer A q ∧ Faithful A (exec A s q).2 := by
  cases q with
  | DA z1 z2 =>
    obtain ⟨g1, g2⟩ := DA_spec A s h z1 z2
    exact ⟨by simp [exec, answer, g1], g2⟩
  | DAz z => exact DAz_spec A s h z
  | DCz z =>
    simp only [exec]
    unfold DCz
    cases hc : s.dcz z with
    | some v => exact ⟨(h.dcz _ _ hc).symm, h⟩
    | none =>
      cases hi : dcInterp A z with
      | ok v =>
        have ha : answer A (.DCz z) = .ok v := by simp [answer, hi]
        refine ⟨ha.symm, ⟨h.da2, h.daz, ?_, h.kpc, h.age⟩⟩
        intro a w hw
        simp only at hw
        split_ifs at hw with hab
        · rw [hab]; simp only [Option.some.injEq] at hw; rw [← hw]; exact ha
        · exact h.dcz _ _ hw
      | error e =>
        obtain ⟨g1, g2⟩ := DAz_spec A s h z
        have ha : answer A (.DCz z) = .ok ((DAz A s z).1 / (1 + z)⁻¹) := by
          simp only [answer, Except.ok.injEq] at g1
          simp only [answer, hi, div_inv_eq_mul]
          rw [g1]
        refine ⟨ha.symm, ⟨g2.da2, g2.daz, ?_, g2.kpc, g2.age⟩⟩
        intro a w hw
        simp only at hw
        split_ifs at hw with hab
        · rw [hab]; simp only [Option.some.injEq] at hw; rw [← hw]; exact ha
        · exact g2.dcz _ _ hw
  | kpc z =>
    simp only [exec]
    unfold kpcPerAsec
    cases hc : s.kpc z with
    | some v => exact ⟨(h.kpc _ _ hc).symm, h⟩
    | none =>
      cases hi : kpcInterp A z with
      | ok v =>
        simp only [bind, Except.bind, pure, Except.pure]
        have ha : answer A (.kpc z) = .ok v := by simp [answer, hi]
        refine ⟨ha.symm, ⟨h.da2, h.daz, h.dcz, ?_, h.age⟩⟩
        intro a w hw
        simp only at hw
        split_ifs at hw with hab
        · rw [hab]; simp only [Option.some.injEq] at hw; rw [← hw]; exact ha
        · exact h.kpc _ _ hw
      | error e =>
        simp only [bind, Except.bind]
        exact ⟨by simp [answer, hi], h⟩
  | age z zform =>
    simp only [exec]
    unfold haloAge
    cases hc : s.age z zform with
    | some v => exact ⟨(h.age _ _ _ hc).symm, h⟩
    | none =>
      have key : ∀ v, answer A (.age z zform) = .ok v → Faithful A
          { s with age := fun a b => if a = z ∧ b = zform then some v else s.age a b } := by
        intro v hv
        refine ⟨h.da2, h.daz, h.dcz, h.kpc, ?_⟩
        intro a b w hw
        simp only at hw
        split_ifs at hw with hab
        · rw [hab.1, hab.2]; simp only [Option.some.injEq] at hw; rw [← hw]; exact hv
        · exact h.age _ _ _ hw
      cases hi : ageInterp A zform with
      | error e =>
        simp only [bind, Except.bind]
        exact ⟨by simp [answer, hi], h⟩
      | ok form =>
        simp only [bind, Except.bind, pure, Except.pure]
        by_cases hz : z > zform
        · have ha : answer A (.age z zform) = .ok 0 := by simp [answer, hi, hz]
          simp only [hz, if_true]
          exact ⟨ha.symm, key 0 ha⟩
        · simp only [hz, if_false]
          cases ht : ageInterp A z with
          | error e =>
            simp only
            refine ⟨?_, h⟩
            simp only [answer, hi, ht]
            rw [if_neg hz]
          | ok t =>
            simp only
            have ha : answer A (.age z zform) = .ok (t - form) := by
              simp only [answer, hi, ht]
              rw [if_neg hz]
            exact ⟨ha.symm, key _ ha⟩

theorem faithful_init : Faithful A (init A) := by
  unfold init
  generalize distGrid = l
  have : ∀ (l : List ℝ) (s : CosmoCache), Faithful A s →
      Faithful A (l.foldl (fun s z => (DA A s 0 z).2) s) := by
    intro l
    induction l with
    | nil => intro s h; exact h
    | cons a t ih => intro s h; exact ih _ (DA_spec A s h 0 a).2
  exact this l _ (faithful_empty A)

/-- **C49**. Whatever was asked before, every query of a cosmology object is answered as if there
were no caches (and raises exactly when the direct computation does). -/
theorem c49_history (qs : List Query) : (run A (init A) qs).1 = qs.map (answer A) := by
  have : ∀ (qs : List Query) (s : CosmoCache), Faithful A s →
      (run A s qs).1 = qs.map (answer A) := by
    intro qs
    induction qs with
    | nil => intro s _; rfl
    | cons q t ih =>
      intro s h
      obtain ⟨h1, h2⟩ := exec_spec A s h q
      simp only [run, List.map_cons, h1, ih _ h2]
  exact this qs _ (faithful_init A)

/-- **C49**. In particular the order of the queries does not matter: after any two histories the
same query has the same answer. -/
theorem c49_order_irrelevant (h₁ h₂ : List Query) (q : Query) :
    (exec A (run A (init A) h₁).2 q).1 = (exec A (run A (init A) h₂).2 q).1 := by
  have : ∀ (qs : List Query) (s : CosmoCache), Faithful A s → Faithful A (run A s qs).2 := by
    intro qs
    induction qs with
    | nil => intro s h; exact h
    | cons q t ih => intro s h; exact ih _ (exec_spec A s h q).2
  rw [(exec_spec A _ (this h₁ _ (faithful_init A)) q).1,
    (exec_spec A _ (this h₂ _ (faithful_init A)) q).1]

/-! ### What the tables contain -/

theorem distGrid_eq : distGrid = (List.range (199 + 1)).map fun i : ℕ => 0.02 + (i : ℝ) * 0.02 := by
  unfold distGrid arange
  have : ⌈((4 : ℝ) + 0.02 - 0.02) / 0.02⌉₊ = 200 := by
    have : ((4 : ℝ) + 0.02 - 0.02) / 0.02 = (200 : ℕ) := by norm_num
    rw [this, Nat.ceil_natCast]
  rw [this]

theorem distGrid_spec : distGrid.head? = some 0.02 ∧ distGrid.getLast? = some 4 ∧
    distGrid.Pairwise (· < ·) := by
  rw [distGrid_eq]
  obtain ⟨h1, h2, h3⟩ := grid_spec 199 (fun i : ℕ => 0.02 + (i : ℝ) * 0.02) (by
    intro i j h
    have : (i : ℝ) < j := by exact_mod_cast h
    norm_num; linarith)
  refine ⟨by rw [h1]; norm_num, by rw [h2]; norm_num, h3⟩

/-- **C49**. Inside `[0.02, 4]` the distance to `z` is the linear interpolation of astropy's between
multiples of 0.02, where it is exact; outside it is astropy's. -/
theorem c49_distance (z : ℝ) :
    (0.02 ≤ z → z ≤ 4 → ∃ v, daInterp A z = .ok v ∧ answer A (.DAz z) = .ok v) ∧
    (∀ k : ℕ, 1 ≤ k → k ≤ 200 → z = k * 0.02 → answer A (.DAz z) = .ok (A.DA 0 z)) ∧
    ((z < 0.02 ∨ 4 < z) → answer A (.DAz z) = .ok (A.DA 0 z)) := by
  obtain ⟨h1, h2, h3⟩ := distGrid_spec
  obtain ⟨g1, g2⟩ := interp1d_eq distGrid (distGrid.map (A.DA 0)) z 0.02 4 h1 h2
  have hin : 0.02 ≤ z → z ≤ 4 → answer A (.DAz z)
      = .ok (segInterp (distGrid.zip (distGrid.map (A.DA 0))) z) := by
    intro a b
    simp only [answer, daInterp, g1 a b]
  refine ⟨fun a b => ⟨_, g1 a b, hin a b⟩, ?_, ?_⟩
  · intro k hk1 hk2 hz
    have b1 : (1 : ℝ) ≤ k := by exact_mod_cast hk1
    have b2 : (k : ℝ) ≤ 200 := by exact_mod_cast hk2
    rw [hin (by rw [hz]; norm_num; linarith) (by rw [hz]; norm_num; linarith)]
    have hmem : (z, A.DA 0 z) ∈ distGrid.zip (distGrid.map (A.DA 0)) := by
      rw [zip_map_eq, List.mem_map]
      refine ⟨z, ?_, rfl⟩
      rw [distGrid_eq, List.mem_map]
      refine ⟨k - 1, by rw [List.mem_range]; omega, ?_⟩
      rw [hz, Nat.cast_sub hk1]
      norm_num
      ring
    rw [segInterp_node _ (zip_map_pairwise _ _ h3) _ hmem]
  · intro h
    obtain ⟨e, he⟩ := g2 h
    simp only [answer, daInterp, he]

/-- **C49**. The tabulated comoving distance never decreases with redshift, inside the table, if
astropy's does not. -/
theorem c49_comoving_monotone (hA : ∀ a b, 0 ≤ a → a ≤ b → A.DCt a ≤ A.DCt b) (z z' v v' : ℝ)
    (h0 : 0.02 ≤ z) (h : z ≤ z') (h1 : z' ≤ 4) (hv : answer A (.DCz z) = .ok v)
    (hv' : answer A (.DCz z') = .ok v') : v ≤ v' := by
  obtain ⟨g1, g2, g3⟩ := distGrid_spec
  have e1 := (interp1d_eq distGrid (distGrid.map A.DCt) z 0.02 4 g1 g2).1 h0 (h.trans h1)
  have e2 := (interp1d_eq distGrid (distGrid.map A.DCt) z' 0.02 4 g1 g2).1 (h0.trans h) h1
  simp only [answer, dcInterp, e1, Except.ok.injEq] at hv
  simp only [answer, dcInterp, e2, Except.ok.injEq] at hv'
  rw [← hv, ← hv']
  have hmem : ∀ x ∈ distGrid, 0 ≤ x := by
    intro x hx
    rw [distGrid_eq, List.mem_map] at hx
    obtain ⟨i, _, rfl⟩ := hx
    positivity
  apply segInterp_mono _ (0.02, A.DCt 0.02) (4, A.DCt 4) z z' _ _ _ h0 h h1
  · rw [zip_map_eq]
    unfold Nondecreasing
    rw [List.pairwise_map]
    apply g3.imp_of_mem
    intro a b ha hb hab
    exact ⟨hab, hA a b (hmem a ha) hab.le⟩
  · rw [zip_map_eq, List.head?_map, g1]; rfl
  · rw [zip_map_eq, List.getLast?_map, g2]; rfl

/-- **C49, disagreement for arrays**. An array query is not answered entry by entry: one redshift
below the table changes how the others are computed. -/
theorem c49_array_differs : ∃ (A : AstropyI) (zs : List ℝ),
    (DAzArray A zs).map Except.ok ≠ zs.map fun z => answer A (.DAz z) := by
  refine ⟨⟨fun a b => (b - a) ^ 2, id, id, id⟩, [0.01, 0.03], ?_⟩
  obtain ⟨g1, g2, g3⟩ := distGrid_spec
  set A : AstropyI := ⟨fun a b => (b - a) ^ 2, id, id, id⟩
  obtain ⟨e, he⟩ := (interp1d_eq distGrid (distGrid.map (A.DA 0)) 0.01 0.02 4 g1 g2).2
    (.inl (by norm_num))
  have h3 := (interp1d_eq distGrid (distGrid.map (A.DA 0)) 0.03 0.02 4 g1 g2).1 (by norm_num)
    (by norm_num)
  have harr : DAzArray A [0.01, 0.03] = [A.DA 0 0.01, A.DA 0 0.03] := by
    unfold DAzArray
    simp only [List.mapM_cons, daInterp, he, bind, Except.bind]
    rfl
  rw [harr]
  intro hc
  simp only [List.map_cons, List.map_nil, List.cons.injEq] at hc
  have hc2 := hc.2.1
  simp only [answer, daInterp, h3, Except.ok.injEq] at hc2
  have hg : ∃ t, t ≠ [] ∧ distGrid = 0.02 :: 0.04 :: t := by
    rw [distGrid_eq]
    refine ⟨(List.range 198).map fun i : ℕ => 0.02 + ((i + 2 : ℕ) : ℝ) * 0.02, by simp, ?_⟩
    rw [List.range_succ_eq_map, List.range_succ_eq_map]
    simp only [List.map_cons, List.map_map]
    norm_num
    ring_nf
    simp
  obtain ⟨t, _, ht⟩ := hg
  rw [ht] at hc2
  simp only [List.map_cons, List.zip_cons_cons] at hc2
  unfold segInterp at hc2
  rw [if_pos (.inl (by norm_num))] at hc2
  simp only [A] at hc2
  norm_num at hc2

example : (⟨fun a b => b - a, id, fun z => 20 - z, id⟩ : AstropyI).DA 0 3 = 3 := by norm_num

end PyHalo.Props
