import Verif.Lemmas.Populations
import Verif.Props.Spatial
import Verif.Spec.Demo
import Mathlib.Analysis.SpecialFunctions.Pow.Real
import Mathlib.Analysis.InnerProductSpace.PiL2

/-!
# C38, C39, C40: objects added to a realization
-/

namespace PyHalo.Props
open PyHalo PyHalo.Spec PyHalo.Pop

/-! ## C39: black holes -/

theorem blackHole_pointMass (factor : ℝ → ℝ) (m x y z : ℝ) (tag : Tag) (fixed : Bool) :
    PointMass (blackHole factor m x y z tag fixed) := ⟨rfl, rfl, rfl, rfl⟩

/-- C39.  One rendered halo. Nothing is added if the variate exceeds the requested fraction, or if the
black hole would not be heavier than the minimum. Otherwise exactly one black hole is added: its mass is
the given share of the halo mass, limited to the maximum; it lies within the projected scale radius of
the halo, in its plane, and deflects as a point mass of that mass. -/
theorem c39_seed (a : BHArgs) (factor kpc : ℝ → ℝ) (rs : Halo → Except Err ℝ) (h : Halo) (v : Seed)
    (s : ℝ) (hs : rs h = .ok s) (hv : 0 ≤ v.radius ∧ v.radius ≤ 1) :
    let m := min ((10 : ℝ) ^ a.logMax) ((10 : ℝ) ^ a.logRatio * h.mass)
    ∃ l, seedHalo a factor kpc rs h v = .ok l ∧
      (l = [] ↔ a.f < v.u ∨ m ≤ (10 : ℝ) ^ a.logMin) ∧
      (∀ b ∈ l, b.mass = m ∧ dist2 b.x b.y h.x h.y = Real.sqrt v.radius * |s / kpc h.z| ∧
        dist2 b.x b.y h.x h.y ≤ |s / kpc h.z| ∧ b.z = h.z ∧ b.tag = v.tag ∧ PointMass b ∧
        b.fixedPosition = false ∧
        b.lensParams = [[("center_x", b.x), ("center_y", b.y), ("theta_E", factor h.z * Real.sqrt m)]]) ∧
      l.length ≤ 1 := by
  intro m
  have hm : min ((10 : ℝ) ^ a.logMax) (h.mass * (10 : ℝ) ^ a.logRatio) = m := by
    rw [mul_comm]
  by_cases hu : v.u > a.f
  · exact ⟨[], by rw [seedHalo, if_pos hu], by simp [hu], by simp, by simp⟩
  · by_cases hc : m > (10 : ℝ) ^ a.logMin
    · refine ⟨_, by
        rw [seedHalo, if_neg hu]
        simp only [hs, hm, bind, Except.bind, pure, Except.pure]
        rw [if_pos hc], ?_, ?_, by simp⟩
      · have := not_lt.mpr (not_lt.mp hu)
        simp [hc, not_lt.mp hu]
      · intro b hb
        rw [List.mem_singleton] at hb
        subst hb
        have hd : dist2 (h.x + Real.sqrt (v.radius * (s / kpc h.z) ^ 2) * Real.cos (2 * Real.pi * v.angle))
            (h.y + Real.sqrt (v.radius * (s / kpc h.z) ^ 2) * Real.sin (2 * Real.pi * v.angle)) h.x h.y
            = Real.sqrt v.radius * |s / kpc h.z| := by
          rw [dist2, Real.sqrt_mul hv.1, Real.sqrt_sq_eq_abs]
          have : ∀ q t : ℝ, (h.x + q * Real.cos t - h.x) ^ 2 + (h.y + q * Real.sin t - h.y) ^ 2 = q ^ 2 := by
            intro q t
            have := Real.cos_sq_add_sin_sq t
            ring_nf
            rw [← mul_add, add_comm, add_comm, this, mul_one]
          rw [this, Real.sqrt_sq (mul_nonneg (Real.sqrt_nonneg _) (abs_nonneg _))]
        refine ⟨rfl, hd, ?_, rfl, rfl, blackHole_pointMass .., rfl, rfl⟩
        refine hd.le.trans ?_
        have : Real.sqrt v.radius ≤ 1 := Real.sqrt_le_one.mpr hv.2
        nlinarith [abs_nonneg (s / kpc h.z)]
    · refine ⟨[], by
        rw [seedHalo, if_neg hu]
        simp only [hs, hm, bind, Except.bind, pure, Except.pure]
        rw [if_neg hc], ?_, by simp, by simp⟩
      simp [not_lt.mp hc]

theorem seedHalos_mem (a : BHArgs) (factor kpc : ℝ → ℝ) (rs : Halo → Except Err ℝ) (q : List (Halo × Seed))
    (l : List Halo) (h : seedHalos a factor kpc rs q = .ok l) (b : Halo) (hb : b ∈ l) :
    ∃ p ∈ q, ∃ l', seedHalo a factor kpc rs p.1 p.2 = .ok l' ∧ b ∈ l' := by
  induction q generalizing l with
  | nil =>
    simp only [seedHalos, Except.ok.injEq] at h
    subst h; simp at hb
  | cons p t ih =>
    obtain ⟨ph, pv⟩ := p
    simp only [seedHalos, bind, Except.bind] at h
    split at h
    · simp at h
    · rename_i l₁ h₁
      split at h
      · simp at h
      · rename_i l₂ h₂
        simp only [pure, Except.pure, Except.ok.injEq] at h
        subst h
        rcases List.mem_append.mp hb with hb | hb
        · exact ⟨_, List.mem_cons_self, l₁, h₁, hb⟩
        · obtain ⟨p, hp, r⟩ := ih l₂ h₂ hb
          exact ⟨p, List.mem_cons_of_mem _ hp, r⟩

theorem seedHalo_rs (a : BHArgs) (factor kpc : ℝ → ℝ) (rs : Halo → Except Err ℝ) (h : Halo) (v : Seed)
    (l : List Halo) (hl : seedHalo a factor kpc rs h v = .ok l) (hne : l ≠ []) : v.u ≤ a.f ∧ ∃ s, rs h = .ok s := by
  by_cases hu : v.u > a.f
  · rw [seedHalo, if_pos hu] at hl
    simp at hl; exact absurd hl.symm (by simpa using hne)
  · refine ⟨not_lt.mp hu, ?_⟩
    rw [seedHalo, if_neg hu] at hl
    rcases hr : rs h with e | s
    · rw [hr] at hl; simp [bind, Except.bind] at hl
    · exact ⟨s, rfl⟩

theorem subresPlane_mem (a : BHArgs) (factor kpc : ℝ → ℝ) (z : ℝ) (ms : List ℝ) (p : List ℝ × List ℝ)
    (tag : ℕ → Tag) (b : Halo) (hb : b ∈ subresPlane a factor kpc z ms p tag) :
    ∃ m ∈ ms, (10 : ℝ) ^ a.logMin < m ∧ b.mass = m * (10 : ℝ) ^ a.logRatio ∧ b.z = z ∧ PointMass b ∧
      b.fixedPosition = false := by
  simp only [subresPlane, List.mem_map, List.mem_filter, decide_eq_true_eq] at hb
  obtain ⟨q, ⟨hq, hc⟩, rfl⟩ := hb
  have := List.mem_zipIdx hq
  refine ⟨q.1.1, ?_, hc, rfl, rfl, blackHole_pointMass .., rfl⟩
  have hm : q.1 ∈ ms.zip (p.1.zip p.2) := by
    rw [this.2.2]; exact List.getElem_mem _
  exact (List.of_mem_zip (a := q.1.1) (b := q.1.2) hm).1

theorem subresLoop_mem (a : BHArgs) (factor kpc : ℝ → ℝ) (model : SubresModel)
    (spatial : ℕ → ℕ → ℝ → List ℝ × List ℝ) (tag : ℕ → ℕ → Tag) (k : ℕ) (q : List (ℝ × ℝ)) (l : List Halo)
    (h : subresLoop a factor kpc model spatial tag k q = .ok l) (b : Halo) (hb : b ∈ l) :
    ∃ p ∈ q, ∃ j ms, (model p.1 p.2 a.logSubres a.logMlow (a.f * a.losNorm)).draw j = .ok ms ∧
      ∃ m ∈ ms, (10 : ℝ) ^ a.logMin < m ∧ b.mass = m * (10 : ℝ) ^ a.logRatio ∧ b.z = p.1 ∧ PointMass b ∧
        b.fixedPosition = false := by
  induction q generalizing k l with
  | nil =>
    simp only [subresLoop, Except.ok.injEq] at h
    subst h; simp at hb
  | cons p t ih =>
    obtain ⟨z, dz⟩ := p
    simp only [subresLoop, bind, Except.bind] at h
    split at h
    · simp at h
    · rename_i ms h₁
      split at h
      · simp at h
      · rename_i l₂ h₂
        simp only [pure, Except.pure, Except.ok.injEq] at h
        subst h
        rcases List.mem_append.mp hb with hb | hb
        · exact ⟨_, List.mem_cons_self, k, ms, h₁, subresPlane_mem a factor kpc z ms _ _ b hb⟩
        · obtain ⟨p, hp, r⟩ := ih (k + 1) l₂ h₂ hb
          exact ⟨p, List.mem_cons_of_mem _ hp, r⟩

theorem bind_parts {α β : Type} {x : Except Err α} {f : α → Except Err β} {b : β} (h : (x >>= f) = .ok b) :
    ∃ a, x = .ok a ∧ f a = .ok b := by
  cases x with
  | error e => cases h
  | ok a => exact ⟨a, rfl, h⟩

/-- C39, completeness: every halo of the realization that is selected gets a black hole, if that is heavier than the
minimum. -/
theorem c39_complete (a : BHArgs) (factor kpc : ℝ → ℝ) (rs : Halo → Except Err ℝ) (q : List (Halo × Seed))
    (l : List Halo) (h : seedHalos a factor kpc rs q = .ok l) :
    l.map (fun b => (b.tag, b.mass, b.z)) = (q.filter fun p => decide (p.2.u ≤ a.f ∧
      (10 : ℝ) ^ a.logMin < min ((10 : ℝ) ^ a.logMax) ((10 : ℝ) ^ a.logRatio * p.1.mass))).map fun p =>
      (p.2.tag, min ((10 : ℝ) ^ a.logMax) ((10 : ℝ) ^ a.logRatio * p.1.mass), p.1.z) := by
  induction q generalizing l with
  | nil => cases h; rfl
  | cons p t ih =>
    obtain ⟨o, v⟩ := p
    unfold seedHalos at h
    obtain ⟨l₁, h1, h⟩ := bind_parts h
    obtain ⟨l₂, h2, h⟩ := bind_parts h
    cases h
    rw [List.map_append, ih l₂ h2]
    unfold seedHalo at h1
    by_cases hu : v.u > a.f
    · rw [if_pos hu] at h1
      cases h1
      rw [List.filter_cons_of_neg (by simp [hu])]
      rfl
    · rw [if_neg hu] at h1
      obtain ⟨rad, -, h1⟩ := bind_parts h1
      rw [mul_comm o.mass] at h1
      dsimp only at h1
      by_cases hm : min ((10 : ℝ) ^ a.logMax) ((10 : ℝ) ^ a.logRatio * o.mass) > (10 : ℝ) ^ a.logMin
      · rw [if_pos hm] at h1
        cases h1
        rw [List.filter_cons_of_pos (by simp only [decide_eq_true_eq]; exact ⟨not_lt.1 hu, hm⟩)]
        rfl
      · rw [if_neg hm] at h1
        cases h1
        rw [List.filter_cons_of_neg (by simp only [decide_eq_true_eq]; exact fun hc => hm hc.2)]
        rfl

/-- C39, as far as it is true.  The new realization holds black holes only, in the context of the old
one, whose halos are untouched. Those made from rendered halos (`l`) are heavier than the requested
minimum and at most as heavy as the requested maximum. Each belongs to a halo of the realization that was
selected, in whose plane it lies, within the projected scale radius; every selected halo has one, if that is heavier than the
minimum. The others (`l'`) lie in planes of
the realization; what exceeds the minimum is the mass of the unresolved halo, not that of the black hole.
Missing: the minimum for the second kind, which is false (`c39_subresolution_below_minimum`). -/
theorem c39_black_holes_partial (a : BHArgs) (factor kpc : ℝ → ℝ) (rs : Halo → Except Err ℝ)
    (model : SubresModel) (spatial : ℕ → ℕ → ℝ → List ℝ × List ℝ) (σ σ' : Heap) (n : Oid)
    (r r' : Realization) (v : ℕ → Seed) (hv : ∀ k, 0 ≤ (v k).radius ∧ (v k).radius ≤ 1) (tag : ℕ → ℕ → Tag)
    (h : addBlackHoles a factor kpc rs model spatial σ n r v tag = .ok (σ', r')) :
    SameContext r r' ∧ Fresh σ' r' ∧ (∀ k < n, σ' k = σ k) ∧
    ∃ l l' : List Halo, r'.halos = List.range' n (l.length + l'.length) ∧ r'.halos.map σ' = l ++ l' ∧
      (∀ b ∈ l, (10 : ℝ) ^ a.logMin < b.mass ∧ b.mass ≤ (10 : ℝ) ^ a.logMax ∧ PointMass b ∧
        ∃ (i : ℕ) (o : Oid), r.halos[i]? = some o ∧ (v i).u ≤ a.f ∧ b.z = (σ o).z ∧
          b.mass ≤ (σ o).mass * (10 : ℝ) ^ a.logRatio ∧
          ∃ s, rs (σ o) = .ok s ∧ dist2 b.x b.y (σ o).x (σ o).y ≤ |s / kpc (σ o).z|) ∧
      (∀ (i : ℕ) (o : Oid), r.halos[i]? = some o → (v i).u ≤ a.f →
        (10 : ℝ) ^ a.logMin < min ((10 : ℝ) ^ a.logMax) ((10 : ℝ) ^ a.logRatio * (σ o).mass) →
        ∃ b ∈ l, b.tag = (v i).tag ∧ b.mass = min ((10 : ℝ) ^ a.logMax) ((10 : ℝ) ^ a.logRatio * (σ o).mass) ∧
          b.z = (σ o).z) ∧
      (∀ b ∈ l', PointMass b ∧ b.z ∈ r.uniqueRedshifts ∧
        ∃ dz j ms m, (model b.z dz a.logSubres a.logMlow (a.f * a.losNorm)).draw j = .ok ms ∧ m ∈ ms ∧
          (10 : ℝ) ^ a.logMin < m ∧ b.mass = m * (10 : ℝ) ^ a.logRatio) := by
  simp only [addBlackHoles, bind, Except.bind] at h
  split at h
  · simp at h
  rename_i l h₁
  split at h
  · simp at h
  rename_i dz h₂
  split at h
  · simp at h
  rename_i l' h₃
  simp only [pure, Except.pure, Except.ok.injEq, Prod.mk.injEq] at h
  obtain ⟨rfl, rfl⟩ := h
  refine ⟨⟨rfl, rfl, rfl, rfl, rfl, rfl, rfl⟩, fresh_fromHalos .., fun k hk => place_old _ _ _ _ hk,
    l, l', ?_, ?_, ?_, ?_, ?_⟩
  · simp [Realization.rebuild, Realization.fromHalos, refs]
  · simpa [Realization.rebuild, Realization.fromHalos] using map_place σ n (l ++ l')
  · intro b hb
    obtain ⟨p, hp, l₁, hl₁, hb₁⟩ := seedHalos_mem a factor kpc rs _ l h₁ b hb
    simp only [List.mem_map] at hp
    obtain ⟨⟨o, i⟩, hoi, rfl⟩ := hp
    have hi := List.mem_zipIdx hoi
    obtain ⟨hu, s, hs⟩ := seedHalo_rs a factor kpc rs _ _ l₁ hl₁ (List.ne_nil_of_mem hb₁)
    obtain ⟨l₂, hl₂, hnil, hall, -⟩ := c39_seed a factor kpc rs (σ o) (v i) s hs (hv i)
    rw [hl₁] at hl₂
    obtain rfl := Except.ok.inj hl₂
    obtain ⟨hm, -, hd, hz, -, hpm, -⟩ := hall b hb₁
    have hbig : (10 : ℝ) ^ a.logMin < b.mass := by
      by_contra hc
      rw [hm] at hc
      exact List.ne_nil_of_mem hb₁ (hnil.mpr (Or.inr (not_lt.mp hc)))
    refine ⟨hbig, hm ▸ min_le_left _ _, hpm, i, o, ?_, hu, hz, ?_, s, hs, hd⟩
    · rw [List.getElem?_eq_getElem (by simpa using hi.2.1)]
      simp [hi.2.2]
    · rw [hm, mul_comm]; exact min_le_right _ _
  · intro i o ho hu hm
    have hc := c39_complete a factor kpc rs _ l h₁
    have hmem : (σ o, v i) ∈ r.halos.zipIdx.map fun p => (σ p.1, v p.2) :=
      List.mem_map.2 ⟨(o, i), List.mem_zipIdx_iff_getElem?.2 ho, rfl⟩
    have hin : ((v i).tag, min ((10 : ℝ) ^ a.logMax) ((10 : ℝ) ^ a.logRatio * (σ o).mass), (σ o).z) ∈
        l.map fun b => (b.tag, b.mass, b.z) := by
      rw [hc]
      exact List.mem_map.2 ⟨(σ o, v i), List.mem_filter.2 ⟨hmem, by simp only [decide_eq_true_eq]; exact ⟨hu, hm⟩⟩, rfl⟩
    obtain ⟨b, hb, e⟩ := List.mem_map.1 hin
    rw [Prod.mk.injEq, Prod.mk.injEq] at e
    exact ⟨b, hb, e.1, e.2.1, e.2.2⟩
  · intro b hb
    obtain ⟨p, hp, j, ms, hms, m, hm, hlt, hmass, hz, hpm, -⟩ :=
      subresLoop_mem a factor kpc model spatial tag 0 _ l' h₃ b hb
    refine ⟨hpm, ?_, p.2, j, ms, m, ?_, hm, hlt, hmass⟩
    · rw [hz]
      exact (List.of_mem_zip (a := p.1) (b := p.2) hp).1
    · rw [hz]; exact hms

/-- C39, the failure: if the unresolved halos times the mass ratio stay below the requested minimum, every
black hole of the unresolved population is lighter than the requested minimum. -/
theorem c39_subresolution_below_minimum (a : BHArgs) (factor kpc : ℝ → ℝ) (z : ℝ) (ms : List ℝ)
    (p : List ℝ × List ℝ) (tag : ℕ → Tag) (hm : ∀ m ∈ ms, m ≤ (10 : ℝ) ^ a.logMlow)
    (hr : a.logMlow + a.logRatio < a.logMin) :
    ∀ b ∈ subresPlane a factor kpc z ms p tag, b.mass < (10 : ℝ) ^ a.logMin := by
  intro b hb
  obtain ⟨m, hmem, -, hmass, -⟩ := subresPlane_mem a factor kpc z ms p tag b hb
  rw [hmass]
  calc m * (10 : ℝ) ^ a.logRatio ≤ (10 : ℝ) ^ a.logMlow * (10 : ℝ) ^ a.logRatio :=
        mul_le_mul_of_nonneg_right (hm m hmem) (by positivity)
    _ = (10 : ℝ) ^ (a.logMlow + a.logRatio) := (Real.rpow_add (by norm_num) _ _).symm
    _ < _ := Real.rpow_lt_rpow_of_exponent_lt (by norm_num) hr

/-- C39, the failure: every unresolved halo heavier than the requested *black-hole* minimum gets a black
hole, whatever its mass. -/
theorem c39_subresolution_cut (a : BHArgs) (factor kpc : ℝ → ℝ) (z : ℝ) (ms : List ℝ) (xs ys : List ℝ)
    (tag : ℕ → Tag) (hx : xs.length = ms.length) (hy : ys.length = ms.length) :
    (subresPlane a factor kpc z ms (xs, ys) tag).map (·.mass) =
      (ms.filter fun m => decide ((10 : ℝ) ^ a.logMin < m)).map (· * (10 : ℝ) ^ a.logRatio) := by
  have key : ∀ (q : List (ℝ × ℝ × ℝ)) (k : ℕ),
      (((q.zipIdx k).filter fun q => decide (q.1.1 > (10 : ℝ) ^ a.logMin)).map fun q =>
        blackHole factor (q.1.1 * (10 : ℝ) ^ a.logRatio) (q.1.2.1 / kpc z) (q.1.2.2 / kpc z) z
          (tag q.2) false).map (·.mass) =
      ((q.map (·.1)).filter fun m => decide ((10 : ℝ) ^ a.logMin < m)).map (· * (10 : ℝ) ^ a.logRatio) := by
    intro q
    induction q with
    | nil => intro k; rfl
    | cons p t ih =>
      intro k
      rw [List.zipIdx_cons]
      by_cases hc : (10 : ℝ) ^ a.logMin < p.1
      · rw [List.filter_cons_of_pos (by simpa using hc), List.map_cons, List.map_cons, ih, List.map_cons,
          List.filter_cons_of_pos (by simpa using hc), List.map_cons]
        rfl
      · rw [List.filter_cons_of_neg (by simpa using hc), ih, List.map_cons,
          List.filter_cons_of_neg (by simpa using hc)]
  have := key (ms.zip (xs.zip ys)) 0
  rw [subresPlane, this, List.map_fst_zip]
  simp [hx, hy]

/-- C39.  A realization without halos is refused with an index error. -/
theorem c39_empty (a : BHArgs) (factor kpc : ℝ → ℝ) (rs : Halo → Except Err ℝ)
    (model : SubresModel) (spatial : ℕ → ℕ → ℝ → List ℝ × List ℝ) (σ : Heap) (n : Oid)
    (r : Realization) (hr : Fresh σ r) (h : r.halos = []) (v : ℕ → Seed) (tag : ℕ → ℕ → Tag) :
    addBlackHoles a factor kpc rs model spatial σ n r v tag = .error .indexError := by
  have : r.uniqueRedshifts = [] := by
    apply List.eq_nil_iff_forall_not_mem.mpr
    intro z hz
    obtain ⟨o, ho, -⟩ := (hr.zsMem z).mp hz
    rw [h] at ho; simp at ho
  simp [addBlackHoles, h, this, seedHalos, planeGaps, bind, Except.bind]

/-- Non-vacuity of C39: with the default limits and a mass ratio of 1/1000, a rendered halo of 10^9 solar
masses gets a black hole of 10^6, and an unresolved halo of 10^5.5 one of 10^2.5, far below the requested
minimum of 10^4.5. -/
example :
    (∃ b, seedHalo ⟨-3, 1, 5, 4.5, 6, 6.7, 1⟩ (fun _ => 1) (fun _ => 1) (fun _ => .ok 2)
        (Demo.mk (10 ^ 9) 0 0 1 0 false false 1) ⟨1 / 2, 0, 1, 3⟩ = .ok [b] ∧ b.mass = (10 : ℝ) ^ (6 : ℝ) ∧ b.x = 2) ∧
    (subresPlane ⟨-3, 1, 5, 4.5, 6, 6.7, 1⟩ (fun _ => 1) (fun _ => 1) 1 [(10 : ℝ) ^ (5.5 : ℝ)] ([0], [0])
        (fun _ => 0)).map (·.mass) = [(10 : ℝ) ^ (2.5 : ℝ)] := by
  have e9 : (10 : ℝ) ^ 9 * (10 : ℝ) ^ (-3 : ℝ) = (10 : ℝ) ^ (6 : ℝ) := by
    rw [← Real.rpow_natCast, ← Real.rpow_add (by norm_num)]; norm_num
  have l1 : (10 : ℝ) ^ (6 : ℝ) ≤ (10 : ℝ) ^ (6.7 : ℝ) :=
    Real.rpow_le_rpow_of_exponent_le (by norm_num) (by norm_num)
  have l2 : (10 : ℝ) ^ (4.5 : ℝ) < (10 : ℝ) ^ (6 : ℝ) :=
    Real.rpow_lt_rpow_of_exponent_lt (by norm_num) (by norm_num)
  refine ⟨?_, ?_⟩
  · refine ⟨_, by
      rw [seedHalo, if_neg (by norm_num)]
      simp only [bind, Except.bind, pure, Except.pure, Demo.mk, e9]
      rw [min_eq_right l1, if_pos l2], rfl, ?_⟩
    have : Real.sqrt ((1 : ℝ) * (2 / 1) ^ 2) = 2 := by
      rw [one_mul, div_one]; exact Real.sqrt_sq (by norm_num)
    simp [blackHole]
  · rw [c39_subresolution_cut (hx := by simp) (hy := by simp)]
    have l3 : (10 : ℝ) ^ (4.5 : ℝ) < (10 : ℝ) ^ (5.5 : ℝ) :=
      Real.rpow_lt_rpow_of_exponent_lt (by norm_num) (by norm_num)
    rw [List.filter_cons_of_pos (by simpa using l3)]
    simp only [List.filter_nil, List.map_cons, List.map_nil, List.cons.injEq, and_true]
    rw [← Real.rpow_add (by norm_num)]; norm_num

/-! ## C38: globular clusters -/

/-- What is promised about the clusters `g` generated around one centre. -/
structure ClusterGroup (a : GCArgs) (d : GCDraw) (zl cx cy : ℝ) (g : List Halo) : Prop where
  count : g.length = d.count
  near : ∀ h ∈ g, dist2 h.x h.y cx cy ≤ |a.radius|
  mass : ∀ (i : ℕ) (h : Halo), g[i]? = some h → h.mass = (10 : ℝ) ^ (a.logMean + a.logSigma * d.normal i)
  plane : ∀ h ∈ g, h.z = zl ∧ h.fixedPosition = true ∧ h.isSubhalo = false
  profile : ∀ h ∈ g, h.lensIDs = [if a.profile = "SPL_CORE" then "SPL_CORE" else "POINT_MASS"]
  tag : ∀ (i : ℕ) (h : Halo), g[i]? = some h → h.tag = (d.var i).tag

theorem gcObjects_ok (a : GCArgs) (params : ℝ → ℝ → ℝ → Kw → List Kw) (factor : ℝ → ℝ) (z : ℝ)
    (hp : a.profile = "SPL_CORE" ∨ a.profile = "PTMASS") (q : List ((ℝ × ℝ × ℝ) × GCVar)) :
    ∃ l, gcObjects a params factor z q = .ok l ∧ l.length = q.length ∧
      ∀ (i : ℕ) (h : Halo), l[i]? = some h → ∃ p, q[i]? = some p ∧ h.mass = p.1.1 ∧ h.x = p.1.2.1 ∧ h.y = p.1.2.2 ∧
        h.tag = p.2.tag ∧ h.z = z ∧ h.fixedPosition = true ∧ h.isSubhalo = false ∧
        h.lensIDs = [if a.profile = "SPL_CORE" then "SPL_CORE" else "POINT_MASS"] := by
  induction q with
  | nil => exact ⟨[], rfl, rfl, by simp⟩
  | cons p t ih =>
    obtain ⟨⟨m, x, y⟩, v⟩ := p
    obtain ⟨l, hl, hlen, hall⟩ := ih
    have : ∃ o, gcObject a params factor z m x y v = .ok o ∧ o.mass = m ∧ o.x = x ∧ o.y = y ∧ o.tag = v.tag ∧
        o.z = z ∧ o.fixedPosition = true ∧ o.isSubhalo = false ∧
        o.lensIDs = [if a.profile = "SPL_CORE" then "SPL_CORE" else "POINT_MASS"] := by
      unfold gcObject
      by_cases h1 : a.profile = "SPL_CORE"
      · rw [if_pos h1, if_pos h1]
        exact ⟨_, rfl, rfl, rfl, rfl, rfl, rfl, rfl, rfl, rfl⟩
      · rw [if_neg h1, if_pos (hp.resolve_left h1), if_neg h1]
        exact ⟨_, rfl, rfl, rfl, rfl, rfl, rfl, rfl, rfl, rfl⟩
    obtain ⟨o, ho, h⟩ := this
    refine ⟨o :: l, by simp only [gcObjects, ho, hl, bind, Except.bind, pure, Except.pure], by simp [hlen], ?_⟩
    intro i h' hi
    cases i with
    | zero =>
      simp only [List.getElem?_cons_zero, Option.some.injEq] at hi
      subst hi
      exact ⟨_, rfl, h⟩
    | succ i =>
      rw [List.getElem?_cons_succ] at hi
      obtain ⟨p, hp', r⟩ := hall i h' hi
      exact ⟨p, by rw [List.getElem?_cons_succ]; exact hp', r⟩

theorem gcMeanMass_eq (a : GCArgs) : gcMeanMass a = logNormalMean a.logMean a.logSigma := by
  have h10 : (0 : ℝ) < 10 := by norm_num
  rw [gcMeanMass, logNormalMean, Real.log_rpow h10, Real.log_rpow h10, Real.rpow_def_of_pos h10]
  congr 1; ring

theorem logNormalMean_pos (μ s : ℝ) : 0 < logNormalMean μ s := Real.rpow_pos_of_pos (by norm_num) _

theorem gcNumber_nonneg (a : GCArgs) (kpc : ℝ) (h : 0 ≤ a.surface) : 0 ≤ gcNumber a kpc := by
  unfold gcNumber
  rw [Int.floor_nonneg, gcMeanMass_eq]
  have := logNormalMean_pos a.logMean a.logSigma
  positivity

theorem gcCentre_ok (a : GCArgs) (params : ℝ → ℝ → ℝ → Kw → List Kw) (factor : ℝ → ℝ) (z kpc cx cy : ℝ)
    (d : GCDraw) (hp : a.profile = "SPL_CORE" ∨ a.profile = "PTMASS") (hS : 0 ≤ a.surface) (hk : kpc ≠ 0)
    (hv : ∀ i, 0 ≤ d.radius i ∧ d.radius i ≤ 1) :
    ∃ l, gcCentre a params factor z kpc cx cy d = .ok l ∧ ClusterGroup a d z cx cy l := by
  have hn : ¬ ((gcNumber a kpc : ℝ) < 0) := not_lt.mpr (by exact_mod_cast gcNumber_nonneg a kpc hS)
  set m := (List.range d.count).map fun i => (10 : ℝ) ^ (a.logMean + a.logSigma * d.normal i) with hm
  have hml : m.length = d.count := by simp [hm]
  have hdraw : (GaussianMF.mk (gcNumber a kpc) a.logMean a.logSigma true).draw d.count d.normal = .ok m := by
    simp only [GaussianMF.draw, if_true]
    rw [if_neg hn]
  obtain ⟨h1, h2, -⟩ := c21_uniform_in_disc a.radius kpc 1 cx cy d.count d.angle d.radius hv
  set p := uniformDraw a.radius kpc 1 cx cy d.count d.angle d.radius with hpdef
  obtain ⟨l, hl, hlen, hall⟩ := gcObjects_ok a params factor z hp
    ((m.zip ((p.1.map (· / kpc)).zip (p.2.map (· / kpc)))).zipIdx.map fun q => (q.1, d.var q.2))
  have hlen' : l.length = d.count := by
    rw [hlen]; simp [hml, h1, h2]
  -- what the entries are
  have hent : ∀ (i : ℕ) (h : Halo), l[i]? = some h → i < d.count ∧ h.mass = (10 : ℝ) ^ (a.logMean + a.logSigma * d.normal i) ∧
      dist2 h.x h.y cx cy ≤ |a.radius| ∧ h.tag = (d.var i).tag ∧ h.z = z ∧ h.fixedPosition = true ∧
      h.isSubhalo = false ∧ h.lensIDs = [if a.profile = "SPL_CORE" then "SPL_CORE" else "POINT_MASS"] := by
    intro i h hi
    have hic : i < d.count := by
      rw [← hlen']; exact (List.getElem?_eq_some_iff.mp hi).1
    obtain ⟨q, hq, e1, e2, e3, e4, e5⟩ := hall i h hi
    obtain ⟨x, y, hx, hy, hxy⟩ := c21_equal_area a.radius kpc 1 cx cy d.count d.angle d.radius
      (fun i => (hv i).1) i hic
    rw [← hpdef] at hx hy
    have hmi : m[i]? = some ((10 : ℝ) ^ (a.logMean + a.logSigma * d.normal i)) := by
      rw [hm, List.getElem?_map, List.getElem?_range hic]; rfl
    have hz : (m.zip ((p.1.map (· / kpc)).zip (p.2.map (· / kpc))))[i]?
        = some ((10 : ℝ) ^ (a.logMean + a.logSigma * d.normal i), x / kpc, y / kpc) := by
      rw [List.getElem?_zip_eq_some]
      refine ⟨hmi, ?_⟩
      rw [List.getElem?_zip_eq_some]
      exact ⟨by rw [List.getElem?_map, hx]; rfl, by rw [List.getElem?_map, hy]; rfl⟩
    rw [List.getElem?_map, List.getElem?_zipIdx, hz] at hq
    simp only [Option.map_some, Option.some.injEq, zero_add] at hq
    subst hq
    refine ⟨hic, e1, ?_, e4, e5⟩
    rw [e2, e3]
    have : dist2 (x / kpc) (y / kpc) cx cy ^ 2 ≤ |a.radius| ^ 2 := by
      rw [dist2, Real.sq_sqrt (by positivity), sq_abs]
      have e : (x / kpc - cx) ^ 2 + (y / kpc - cy) ^ 2 = ((x - cx * kpc) ^ 2 + (y - cy * kpc) ^ 2) / kpc ^ 2 := by
        field_simp
      rw [e, hxy, div_le_iff₀ (by positivity), mul_one, mul_pow]
      have := (hv i).2
      nlinarith [mul_nonneg (sq_nonneg a.radius) (sq_nonneg kpc)]
    exact (pow_le_pow_iff_left₀ (Real.sqrt_nonneg _) (abs_nonneg _) (by norm_num)).mp this
  have hget : ∀ h ∈ l, ∃ i : ℕ, l[i]? = some h := fun h hh => List.mem_iff_getElem?.mp hh
  refine ⟨l, ?_, hlen', ?_, fun i h hi => (hent i h hi).2.1, ?_, ?_, fun i h hi => (hent i h hi).2.2.2.1⟩
  · simp only [gcCentre, hdraw, bind, Except.bind]
    rw [hml, ← hpdef, hl]
  · intro h hh; obtain ⟨i, hi⟩ := hget h hh; exact (hent i h hi).2.2.1
  · intro h hh; obtain ⟨i, hi⟩ := hget h hh
    exact ⟨(hent i h hi).2.2.2.2.1, (hent i h hi).2.2.2.2.2.1, (hent i h hi).2.2.2.2.2.2.1⟩
  · intro h hh; obtain ⟨i, hi⟩ := hget h hh; exact (hent i h hi).2.2.2.2.2.2.2

/-- The new references of objects placed one after the other. -/
theorem range'_append (n a b : ℕ) : List.range' n a ++ List.range' (n + a) b = List.range' n (a + b) := by
  rw [List.range'_append_1]

theorem map_range'_place (σ : Heap) (n : ℕ) (l l' : List Halo) :
    ∀ k ∈ List.range' n l.length, (place σ n (l ++ l')) k ∈ l := by
  intro k hk
  rw [List.mem_range'_1] at hk
  obtain ⟨i, rfl⟩ : ∃ i, k = n + i := ⟨k - n, by omega⟩
  have hi : i < l.length := by omega
  have : (l ++ l')[i]? = some l[i] := by
    rw [List.getElem?_append_left hi, List.getElem?_eq_getElem hi]
  rw [place_new σ n _ i _ this]
  exact List.getElem_mem hi

theorem map_range'_place_right (σ : Heap) (n : ℕ) (l l' : List Halo) :
    ∀ k ∈ List.range' (n + l.length) l'.length, (place σ n (l ++ l')) k ∈ l' := by
  intro k hk
  rw [← place_append]
  have := map_range'_place (place σ n l) (n + l.length) l' [] k hk
  simpa using this

theorem gcLoop_ok (a : GCArgs) (params : ℝ → ℝ → ℝ → Kw → List Kw) (factor : ℝ → ℝ) (z kpc : ℝ)
    (r : Realization) (d : ℕ → GCDraw) (hp : a.profile = "SPL_CORE" ∨ a.profile = "PTMASS")
    (hS : 0 ≤ a.surface) (hk : kpc ≠ 0) (hv : ∀ k i, 0 ≤ (d k).radius i ∧ (d k).radius i ≤ 1)
    (htag : ∀ k i k' i', ((d k).var i).tag = ((d k').var i').tag → k = k' ∧ i = i')
    (σ₀ : Heap) (n₀ : ℕ) (cs : List (ℝ × ℝ)) :
    ∀ (k : ℕ) (L : List Halo) (acc : Option Realization),
      (∀ h ∈ L, ∃ k' < k, ∃ i, h.tag = ((d k').var i).tag) →
      (acc = none ∧ L = [] ∨ ∃ A, acc = some A ∧ A.halos.Perm (List.range' n₀ L.length)) →
      ∃ (groups : List (List Halo)) (acc' : Option Realization), gcLoop a params factor z kpc r d k (place σ₀ n₀ L) (n₀ + L.length) acc cs
          = .ok (place σ₀ n₀ (L ++ groups.flatten), n₀ + (L ++ groups.flatten).length, acc') ∧
        groups.length = cs.length ∧
        (∀ (j : ℕ) (g : List Halo) (c : ℝ × ℝ), groups[j]? = some g → cs[j]? = some c → ClusterGroup a (d (k + j)) z c.1 c.2 g) ∧
        (acc' = none ∧ acc = none ∧ cs = [] ∨
          ∃ A, acc' = some A ∧ A.halos.Perm (List.range' n₀ (L ++ groups.flatten).length)) := by
  induction cs with
  | nil =>
    intro k L acc _ hacc
    refine ⟨[], acc, by simp [gcLoop], rfl, by simp, ?_⟩
    rcases hacc with ⟨h, rfl⟩ | ⟨A, h, hA⟩
    · exact Or.inl ⟨h, h, rfl⟩
    · exact Or.inr ⟨A, h, by simpa using hA⟩
  | cons c cs ih =>
    intro k L acc hL hacc
    obtain ⟨cx, cy⟩ := c
    obtain ⟨l, hl, hg⟩ := gcCentre_ok a params factor z kpc cx cy (d k) hp hS hk (hv k)
    have hltag : ∀ h ∈ l, ∃ i, h.tag = ((d k).var i).tag := by
      intro h hh
      obtain ⟨i, hi⟩ := List.mem_iff_getElem?.mp hh
      exact ⟨i, hg.tag i h hi⟩
    set σ' := place (place σ₀ n₀ L) (n₀ + L.length) l with hσ'
    have hσ2 : σ' = place σ₀ n₀ (L ++ l) := place_append σ₀ n₀ L l
    set new := Realization.rebuild σ' r (refs (n₀ + L.length) l) with hnew
    have hnewh : new.halos = List.range' (n₀ + L.length) l.length := rfl
    set A' := (match acc with
      | none => new
      | some old => old.join σ' new false) with hA'
    have hA'p : A'.halos.Perm (List.range' n₀ (L ++ l).length) := by
      rcases hacc with ⟨h, hLn⟩ | ⟨A, h, hA⟩
      · rw [hA', h, hLn]
        show new.halos.Perm _
        rw [hnewh, hLn]; simp
      · rw [hA', h]
        show (A.join σ' new false).halos.Perm _
        refine (join_perm σ' A new false ?_).trans ?_
        · intro x hx y hy
          have hx' := hA.subset hx
          rw [hnewh] at hy
          rw [hσ2]
          obtain ⟨k', hk', i, e⟩ := hL _ (map_range'_place σ₀ n₀ L l x hx')
          obtain ⟨i', e'⟩ := hltag _ (map_range'_place_right σ₀ n₀ L l y hy)
          rw [e, e']
          intro he
          have := (htag _ _ _ _ he).1
          omega
        · rw [hnewh, List.length_append, ← range'_append]
          exact hA.append_right _
    have hLl : ∀ h ∈ L ++ l, ∃ k' < k + 1, ∃ i, h.tag = ((d k').var i).tag := by
      intro h hh
      rcases List.mem_append.mp hh with hh | hh
      · obtain ⟨k', hk', i, e⟩ := hL h hh
        exact ⟨k', by omega, i, e⟩
      · obtain ⟨i, e⟩ := hltag h hh
        exact ⟨k, by omega, i, e⟩
    obtain ⟨groups, acc', hloop, hglen, hgs, hacc'⟩ := ih (k + 1) (L ++ l) (some A') hLl (Or.inr ⟨A', rfl, hA'p⟩)
    refine ⟨l :: groups, acc', ?_, by simp [hglen], ?_, ?_⟩
    · simp only [gcLoop, hl, bind, Except.bind]
      rw [← hσ', ← hnew]
      have e1 : (L ++ (l :: groups).flatten) = (L ++ l) ++ groups.flatten := by simp
      rw [e1, ← hloop, ← hσ2, List.length_append, Nat.add_assoc]
      rcases hacc with ⟨h, -⟩ | ⟨A, h, -⟩ <;> simp only [hA', h]
    · intro j g c hj hc
      cases j with
      | zero =>
        simp only [List.getElem?_cons_zero, Option.some.injEq] at hj hc
        subst hj; subst hc
        exact hg
      | succ j =>
        rw [List.getElem?_cons_succ] at hj hc
        have := hgs j g c hj hc
        rwa [show k + 1 + j = k + (j + 1) by omega] at this
    · have e1 : (L ++ (l :: groups).flatten) = (L ++ l) ++ groups.flatten := by simp
      rw [e1]
      rcases hacc' with ⟨-, h, -⟩ | h
      · simp at h
      · exact Or.inr h

/-- C38 (globular clusters).  For every non-empty list of centres, the result holds the old halos, unchanged,
and one group of clusters per centre: as many as were drawn for that centre, within the requested radius of
it, in the lens plane, marked as not moving with the rays, with masses from the log-normal distribution. -/
theorem c38_globular_clusters (a : GCArgs) (params : ℝ → ℝ → ℝ → Kw → List Kw) (factor : ℝ → ℝ)
    (kpc : ℝ) (σ : Heap) (n : Oid) (r : Realization) (cx cy : List ℝ) (d : ℕ → GCDraw)
    (hp : a.profile = "SPL_CORE" ∨ a.profile = "PTMASS") (hS : 0 ≤ a.surface) (hk : kpc ≠ 0)
    (hv : ∀ k i, 0 ≤ (d k).radius i ∧ (d k).radius i ≤ 1) (hlen : cx.length = cy.length) (hne : cx ≠ [])
    (hb : Below n r) (htag : ∀ k i k' i', ((d k).var i).tag = ((d k').var i').tag → k = k' ∧ i = i')
    (hold : ∀ h ∈ r.halos, ∀ k i, (σ h).tag ≠ ((d k).var i).tag) :
    ∃ (σ' : Heap) (r' : Realization) (groups : List (List Halo)), addGlobularClusters a params factor kpc σ n r cx cy d = .ok (σ', r') ∧
      Added σ σ' n groups.flatten r r' ∧ groups.length = cx.length ∧
      ∀ (k : ℕ) (g : List Halo) (x y : ℝ), groups[k]? = some g → cx[k]? = some x → cy[k]? = some y →
        ClusterGroup a (d k) r.lensCosmo.zLens x y g := by
  obtain ⟨groups, acc', hloop, hglen, hgs, hacc⟩ := gcLoop_ok a params factor r.lensCosmo.zLens kpc r d hp hS hk hv
    htag σ n (cx.zip cy) 0 [] none (by simp) (Or.inl ⟨rfl, rfl⟩)
  have hzl : (cx.zip cy).length = cx.length := by simp [hlen]
  rcases hacc with ⟨-, -, h⟩ | ⟨A, rfl, hA⟩
  · rw [h] at hzl
    exact absurd (List.length_eq_zero_iff.mp hzl.symm) hne
  · simp only [List.nil_append, place_nil, List.length_nil, Nat.add_zero] at hloop hA
    refine ⟨place σ n groups.flatten, r.join (place σ n groups.flatten) A false, groups, ?_, ?_, by omega, ?_⟩
    · simp only [addGlobularClusters, bind, Except.bind, pure, Except.pure, throw, throwThe, MonadExceptOf.throw]
      rw [if_neg (not_not.mpr hlen)]
      simp only [hloop]
    · refine ⟨fun k hk => place_old _ _ _ _ hk, fun k h hk => place_new _ _ _ _ _ hk, ?_, fresh_join .., (c06_join_context _ _ _).1⟩
      refine (join_perm _ _ _ _ ?_).trans (hA.append_left _)
      intro x hx y hy
      rw [place_old σ n _ x (hb x hx)]
      have := map_range'_place σ n groups.flatten [] y (hA.subset hy)
      rw [List.append_nil] at this
      obtain ⟨g, hg, hyg⟩ := List.mem_flatten.mp this
      obtain ⟨k, hkg⟩ := List.mem_iff_getElem?.mp hg
      have hkc : k < (cx.zip cy).length := by
        rw [← hglen]; exact (List.getElem?_eq_some_iff.mp hkg).1
      have hc := hgs k g _ hkg (List.getElem?_eq_getElem hkc)
      obtain ⟨i, hi⟩ := List.mem_iff_getElem?.mp hyg
      rw [hc.tag i _ hi]
      exact hold x hx _ _
    · intro k g x y hg hx hy
      have := hgs k g (x, y) hg (by rw [List.getElem?_zip_eq_some]; exact ⟨hx, hy⟩)
      rwa [zero_add] at this

/-- C38.  The mean number of clusters per centre is the largest whole number whose expected mass does not
exceed the requested surface density times the area. -/
theorem c38_cluster_number (a : GCArgs) (kpc : ℝ) :
    gcNumber a kpc * logNormalMean a.logMean a.logSigma ≤ a.surface * (Real.pi * (a.radius * kpc) ^ 2) ∧
    a.surface * (Real.pi * (a.radius * kpc) ^ 2) < (gcNumber a kpc + 1) * logNormalMean a.logMean a.logSigma := by
  have hpos := logNormalMean_pos a.logMean a.logSigma
  unfold gcNumber
  rw [gcMeanMass_eq]
  constructor
  · rw [← le_div_iff₀ hpos]
    refine (Int.floor_le _).trans (le_of_eq ?_)
    congr 1; ring
  · rw [← div_lt_iff₀ hpos]
    refine lt_of_eq_of_lt ?_ (Int.lt_floor_add_one _)
    congr 1; ring

/-- C38.  Without a centre, with lists of different lengths or with an unknown profile the call fails; an
unknown profile goes unnoticed if no cluster is drawn. -/
theorem c38_cluster_errors (a : GCArgs) (params : ℝ → ℝ → ℝ → Kw → List Kw) (factor : ℝ → ℝ)
    (kpc : ℝ) (σ : Heap) (n : Oid) (r : Realization) (cx cy : List ℝ) (d : ℕ → GCDraw) :
    addGlobularClusters a params factor kpc σ n r [] [] d = .error (.attributeError "_tags") ∧
    (cx.length ≠ cy.length → addGlobularClusters a params factor kpc σ n r cx cy d = .error .assertionError) ∧
    (∀ x y, cx = [x] → cy = [y] → 0 ≤ a.surface → a.profile ≠ "SPL_CORE" → a.profile ≠ "PTMASS" →
      ((∃ e, addGlobularClusters a params factor kpc σ n r cx cy d = .error e) ↔ (d 0).count ≠ 0)) := by
  refine ⟨?_, ?_, ?_⟩
  · simp [addGlobularClusters, gcLoop, bind, Except.bind, throw, throwThe, MonadExceptOf.throw]
  · intro h
    simp [addGlobularClusters, h, bind, Except.bind, throw, throwThe, MonadExceptOf.throw]
  · rintro x y rfl rfl hS h1 h2
    have hn : ¬ ((gcNumber a kpc : ℝ) < 0) := not_lt.mpr (by exact_mod_cast gcNumber_nonneg a kpc hS)
    have hc : (∃ e, gcCentre a params factor r.lensCosmo.zLens kpc x y (d 0) = .error e) ↔ (d 0).count ≠ 0 := by
      simp only [gcCentre, GaussianMF.draw, if_true, bind, Except.bind]
      rw [if_neg hn]
      simp only
      rcases hcnt : (d 0).count with _ | m
      · simp [gcObjects]
      · simp only [ne_eq, Nat.add_eq_zero_iff, one_ne_zero, and_false, not_false_eq_true, iff_true]
        rw [List.range_succ_eq_map]
        simp only [List.map_cons, List.length_cons, List.length_map, List.length_range]
        rw [uniformDraw, if_neg (by omega), List.range_succ_eq_map]
        simp only [List.map_cons, List.zip_cons_cons, List.zipIdx_cons, gcObjects, gcObject, if_neg h1, if_neg h2,
          bind, Except.bind]
        exact ⟨_, rfl⟩
    rw [← hc]
    simp only [addGlobularClusters, List.length_singleton, ne_eq, not_true_eq_false, if_false, gcLoop, List.zip_cons_cons,
      List.zip_nil_right, bind, Except.bind, pure, Except.pure]
    rcases gcCentre a params factor r.lensCosmo.zLens kpc x y (d 0) with e | l <;> simp

/-- C38.  A cluster has its mass inside its size, both in kpc and, for the parameters handed to lenstronomy, in
arcseconds; its core radius is the size divided by the concentration. The enclosed mass of the profile is
taken to be proportional to its density and not zero. -/
theorem c38_cluster_mass (m3d : ℝ → ℝ → ℝ → ℝ → ℝ) (hlin : ∀ r s ρ c g, m3d r (s * ρ) c g = s * m3d r ρ c g)
    (m gamma sizePc c kpc sigma : ℝ) (hk : 0 < kpc) (hs : 0 < sigma) (hz : 0 < sizePc) (hc : 0 < c)
    (hne : ∀ r rc, 0 < r → 0 < rc → m3d r 1 rc gamma ≠ 0) :
    let p := clusterProfileArgs m3d m gamma sizePc c
    let q := clusterLensArgs m3d m gamma sizePc c kpc sigma
    m3d p.2.1 p.1 p.2.2.2 gamma = m ∧ p.2.1 = sizePc / 1000 ∧ p.2.2.2 = p.2.1 / c ∧
    q.2 = p.2.2.2 / kpc ∧ m3d (p.2.1 / kpc) (q.1 / q.2 * (sigma * (kpc / 1000) ^ 2)) q.2 gamma = m := by
  have h1 : ∀ r ρ rc, m3d r ρ rc gamma = ρ * m3d r 1 rc gamma := by
    intro r ρ rc
    have := hlin r ρ 1 rc gamma
    rwa [mul_one] at this
  have hsz : 0 < sizePc * 1e-3 := mul_pos hz (by norm_num)
  refine ⟨?_, ?_, rfl, ?_, ?_⟩
  · simp only [clusterProfileArgs]
    rw [h1]
    exact div_mul_cancel₀ _ (hne _ _ hsz (div_pos hsz hc))
  · simp only [clusterProfileArgs]; ring
  · simp only [clusterLensArgs, clusterProfileArgs]; field_simp
  · simp only [clusterLensArgs, clusterProfileArgs]
    have hcore : 0 < sizePc * 1e-3 / kpc / c := div_pos (div_pos hsz hk) hc
    rw [mul_div_cancel_right₀ _ hcore.ne', h1,
      h1 _ (sigma * (0.001 * kpc) ^ 2) _]
    have h2 := hne (sizePc * 1e-3 / kpc) (sizePc * 1e-3 / kpc / c) (div_pos hsz hk) hcore
    have h3 : (0.001 * kpc) ^ 2 = (kpc / 1000) ^ 2 := by ring
    rw [h3]
    have h4 : sigma * (kpc / 1000) ^ 2 ≠ 0 := mul_ne_zero hs.ne' (by positivity)
    generalize m3d (sizePc * 1e-3 / kpc) 1 (sizePc * 1e-3 / kpc / c) gamma = M at *
    generalize sigma * (kpc / 1000) ^ 2 = S at *
    field_simp

example := c38_cluster_mass (fun r ρ c _ => ρ * (r * c)) (fun r s ρ c _ => by ring) (10 ^ 5) 2 60 20 5 (10 ^ 11) (by norm_num)
  (by norm_num) (by norm_num) (by norm_num) (fun r rc h h' => by positivity)

/-- Non-vacuity of C38: two centres, one and two clusters, on the demo realization. -/
example : ∃ (σ' : Heap) (r' : Realization) (groups : List (List Halo)), addGlobularClusters ⟨5, 1 / 2, 2, "PTMASS", 6, 0.3, 3, 1, 10⟩ (fun _ _ _ _ => []) (fun _ => 1)
    5 Demo.heap 10 Demo.real [0, 1] [0, 1]
    (fun k => ⟨k + 1, fun _ => 0, fun _ => 0, fun _ => 1, fun i => ⟨0, 0, Nat.pair k i + 100⟩⟩) = .ok (σ', r') ∧
    groups.length = 2 ∧ r'.halos.Perm (Demo.real.halos ++ List.range' 10 groups.flatten.length) ∧
    groups.map List.length = [1, 2] := by
  obtain ⟨σ', r', groups, h, hA, hl, hg⟩ := c38_globular_clusters ⟨5, 1 / 2, 2, "PTMASS", 6, 0.3, 3, 1, 10⟩
    (fun _ _ _ _ => []) (fun _ => 1) 5 Demo.heap 10 Demo.real [0, 1] [0, 1]
    (fun k => ⟨k + 1, fun _ => 0, fun _ => 0, fun _ => 1, fun i => ⟨0, 0, Nat.pair k i + 100⟩⟩)
    (Or.inr rfl) (by norm_num) (by norm_num) (by norm_num) rfl (by simp) (by
      intro h hh
      simp only [Demo.real, Realization.fromHalos, List.mem_cons, List.not_mem_nil, or_false] at hh
      rcases hh with rfl | rfl | rfl | rfl <;> decide) (by
      intro k i k' i' e
      simp only [add_left_inj] at e
      have := congrArg Nat.unpair e
      simpa using this) (by
      intro h hh k i
      simp only [Demo.real, Realization.fromHalos, List.mem_cons, List.not_mem_nil, or_false] at hh
      rcases hh with rfl | rfl | rfl | rfl <;> simp [Demo.heap, Demo.mk])
  refine ⟨σ', r', groups, h, hl, hA.halos, ?_⟩
  match groups, hl with
  | [g₀, g₁], _ =>
    have h0 := (hg 0 g₀ 0 0 rfl rfl rfl).count
    have h1 := (hg 1 g₁ 1 1 rfl rfl rfl).count
    simp at h0 h1
    simp [h0, h1]

/-! ## C38: density fluctuations -/

/-- The documented constraints on the shape arguments. -/
def ValidShape : Shape → Prop
  | .ring rmin rmax => 0 ≤ rmin ∧ rmin ≤ rmax
  | .ellipse amin amax bmin bmax _ => 0 ≤ amin ∧ amin ≤ amax ∧ 0 ≤ bmin ∧ bmin ≤ bmax
  | .aperture xs ys _ => xs.length = ys.length

/-- The point `(x, y)` lies in region number `j` of the shape: between the two circles, between the two
ellipses (with axes rotated by the angle), or within the aperture around image `j`. -/
def InRegion (j : ℕ) (x y : ℝ) : Shape → Prop
  | .ring rmin rmax => rmin ≤ dist2 x y 0 0 ∧ dist2 x y 0 0 ≤ rmax
  | .ellipse amin amax bmin bmax φ =>
    (amin * bmin) ^ 2 ≤ ((rotated φ x y).1 * bmin) ^ 2 + ((rotated φ x y).2 * amin) ^ 2 ∧
    ((rotated φ x y).1 * bmax) ^ 2 + ((rotated φ x y).2 * amax) ^ 2 ≤ (amax * bmax) ^ 2
  | .aperture xs ys ap => ∀ x₀ y₀, xs[j]? = some x₀ → ys[j]? = some y₀ → dist2 x y x₀ y₀ ≤ |ap|

/-- A fluctuation: Gaussian convergence of width `w` and peak `κ`, in the plane `z`. -/
structure Fluctuation (z w κ : ℝ) (h : Halo) : Prop where
  plane : h.z = z ∧ h.isSubhalo = true ∧ h.fixedPosition = true
  profile : h.lensIDs = ["GAUSSIAN"]
  params : h.lensParams = [[("amp", 2 * Real.pi * w ^ 2 * κ), ("sigma", w), ("center_x", h.x), ("center_y", h.y)]]
  mass : h.mass = |2 * Real.pi * w ^ 2 * κ|

/-- The group number `j` of fluctuations: as many as `c`, in region `j`, with widths and peaks distributed as
requested. -/
structure FlucGroup (s : Shape) (z size sizeVar kpc amp : ℝ) (v : ℕ → FlucVar) (j c : ℕ) (g : List Halo) : Prop where
  count : g.length = c
  region : ∀ h ∈ g, InRegion j h.x h.y s
  shape : ∀ (k : ℕ) (h : Halo), g[k]? = some h →
    Fluctuation z |(size + sizeVar * (v k).width) / kpc| (amp * (v k).kappa) h ∧ h.tag = (v k).tag

theorem interp_sqrt {lo hi u : ℝ} (h : lo ≤ hi) (hu : 0 ≤ u ∧ u ≤ 1) :
    lo ≤ lo + Real.sqrt u * (hi - lo) ∧ lo + Real.sqrt u * (hi - lo) ≤ hi := by
  have h0 := Real.sqrt_nonneg u
  have h1 : Real.sqrt u ≤ 1 := Real.sqrt_le_one.mpr hu.2
  have h2 : 0 ≤ hi - lo := by linarith
  constructor <;> nlinarith

theorem flucPosition_ok (s : Shape) (hs : ValidShape s) (j : ℕ) (v : FlucVar) (h1 : 0 ≤ v.r1 ∧ v.r1 ≤ 1)
    (h2 : 0 ≤ v.r2 ∧ v.r2 ≤ 1) (hj : ∀ xs ys ap, s = .aperture xs ys ap → j < xs.length) :
    ∃ p, flucPosition s j v = .ok p ∧ InRegion j p.1 p.2 s := by
  have hcs := Real.cos_sq_add_sin_sq (2 * Real.pi * v.angle)
  cases s with
  | ring rmin rmax =>
    obtain ⟨ha, hb⟩ := hs
    obtain ⟨hlo, hhi⟩ := interp_sqrt hb h1
    refine ⟨_, rfl, ?_⟩
    set r := rmin + Real.sqrt v.r1 * (rmax - rmin) with hr
    have hd : dist2 (r * Real.cos (2 * Real.pi * v.angle)) (r * Real.sin (2 * Real.pi * v.angle)) 0 0 = r := by
      rw [dist2, sub_zero, sub_zero, mul_pow, mul_pow, ← mul_add, hcs, mul_one, Real.sqrt_sq (by linarith)]
    simp only [InRegion, hd]
    exact ⟨hlo, hhi⟩
  | ellipse amin amax bmin bmax φ =>
    obtain ⟨ha, hab, hb, hbb⟩ := hs
    obtain ⟨alo, ahi⟩ := interp_sqrt hab h1
    obtain ⟨blo, bhi⟩ := interp_sqrt hbb h2
    refine ⟨_, rfl, ?_⟩
    rw [add_comm amin] at alo ahi
    rw [add_comm bmin] at blo bhi
    set a := Real.sqrt v.r1 * (amax - amin) + amin with hadef
    set b := Real.sqrt v.r2 * (bmax - bmin) + bmin with hbdef
    have hφ := Real.cos_sq_add_sin_sq φ
    simp only [InRegion, rotated]
    generalize Real.cos (2 * Real.pi * v.angle) = c at *
    generalize Real.sin (2 * Real.pi * v.angle) = q at *
    generalize Real.cos φ = C at *
    generalize Real.sin φ = S at *
    have e1 : (a * c * C - b * q * S) * C + (a * c * S + b * q * C) * S = a * c := by
      linear_combination (a * c) * hφ
    have e2 : -(a * c * C - b * q * S) * S + (a * c * S + b * q * C) * C = b * q := by
      linear_combination (b * q) * hφ
    rw [e1, e2]
    have ha0 : 0 ≤ a := by linarith
    have hb0 : 0 ≤ b := by linarith
    constructor
    · have i1 : (amin * bmin) ^ 2 ≤ (a * bmin) ^ 2 :=
        pow_le_pow_left₀ (by positivity) (mul_le_mul_of_nonneg_right alo hb) 2
      have i2 : (amin * bmin) ^ 2 ≤ (b * amin) ^ 2 := by
        rw [mul_comm amin]
        exact pow_le_pow_left₀ (by positivity) (mul_le_mul_of_nonneg_right blo ha) 2
      have := mul_le_mul_of_nonneg_left i1 (sq_nonneg c)
      have := mul_le_mul_of_nonneg_left i2 (sq_nonneg q)
      nlinarith
    · have i1 : (a * bmax) ^ 2 ≤ (amax * bmax) ^ 2 :=
        pow_le_pow_left₀ (mul_nonneg ha0 (by linarith)) (mul_le_mul_of_nonneg_right ahi (by linarith)) 2
      have i2 : (b * amax) ^ 2 ≤ (amax * bmax) ^ 2 := by
        rw [mul_comm amax bmax]
        exact pow_le_pow_left₀ (mul_nonneg hb0 (by linarith)) (mul_le_mul_of_nonneg_right bhi (by linarith)) 2
      have := mul_le_mul_of_nonneg_left i1 (sq_nonneg c)
      have := mul_le_mul_of_nonneg_left i2 (sq_nonneg q)
      nlinarith
  | aperture xs ys ap =>
    have hx := hj xs ys ap rfl
    have hy : j < ys.length := by
      have : xs.length = ys.length := hs
      omega
    refine ⟨((v.r1 * ap ^ 2) ^ (0.5 : ℝ) * Real.sin (2 * Real.pi * v.angle) + xs[j],
      (v.r1 * ap ^ 2) ^ (0.5 : ℝ) * Real.cos (2 * Real.pi * v.angle) + ys[j]),
      by simp only [flucPosition, List.getElem?_eq_getElem hx, List.getElem?_eq_getElem hy], ?_⟩
    intro x₀ y₀ e1 e2
    rw [List.getElem?_eq_getElem hx, Option.some.injEq] at e1
    rw [List.getElem?_eq_getElem hy, Option.some.injEq] at e2
    subst e1 e2
    have hr : (v.r1 * ap ^ 2) ^ (0.5 : ℝ) = Real.sqrt v.r1 * |ap| := by
      rw [show (0.5 : ℝ) = 1 / 2 by norm_num, ← Real.sqrt_eq_rpow, Real.sqrt_mul h1.1, Real.sqrt_sq_eq_abs]
    rw [hr, dist2, add_sub_cancel_right, add_sub_cancel_right, mul_pow, mul_pow _ (Real.cos _), ← mul_add,
      add_comm, hcs, mul_one, Real.sqrt_sq (by positivity)]
    have := Real.sqrt_le_one.mpr h1.2
    nlinarith [abs_nonneg ap]

theorem fluctuation_ok (z size sizeVar kpc amp : ℝ) (p : ℝ × ℝ) (v : FlucVar) :
    Fluctuation z |(size + sizeVar * v.width) / kpc| (amp * v.kappa) (fluctuation z size sizeVar kpc amp p v) ∧
    (fluctuation z size sizeVar kpc amp p v).tag = v.tag ∧ (fluctuation z size sizeVar kpc amp p v).x = p.1 ∧
    (fluctuation z size sizeVar kpc amp p v).y = p.2 := by
  have e : size / kpc + sizeVar / kpc * v.width = (size + sizeVar * v.width) / kpc := by ring
  have e2 : amp * v.kappa * 2 * Real.pi * |(size + sizeVar * v.width) / kpc| ^ 2
      = 2 * Real.pi * |(size + sizeVar * v.width) / kpc| ^ 2 * (amp * v.kappa) := by ring
  refine ⟨⟨⟨rfl, rfl, rfl⟩, rfl, ?_, ?_⟩, rfl, rfl, rfl⟩
  · simp only [fluctuation, e, e2]
  · simp only [fluctuation, e, e2]

theorem flucRegion_ok (s : Shape) (hs : ValidShape s) (z size sizeVar kpc amp : ℝ) (j : ℕ) (vs : ℕ → FlucVar)
    (h1 : ∀ k, 0 ≤ (vs k).r1 ∧ (vs k).r1 ≤ 1) (h2 : ∀ k, 0 ≤ (vs k).r2 ∧ (vs k).r2 ≤ 1)
    (hj : ∀ xs ys ap, s = .aperture xs ys ap → j < xs.length) (ks : List ℕ) :
    ∃ l, flucRegion s z size sizeVar kpc amp j vs ks = .ok l ∧ l.length = ks.length ∧
      ∀ (i : ℕ) (h : Halo), l[i]? = some h → ∃ k, ks[i]? = some k ∧ InRegion j h.x h.y s ∧
        Fluctuation z |(size + sizeVar * (vs k).width) / kpc| (amp * (vs k).kappa) h ∧ h.tag = (vs k).tag := by
  induction ks with
  | nil => exact ⟨[], rfl, rfl, by simp⟩
  | cons k ks ih =>
    obtain ⟨l, hl, hlen, hall⟩ := ih
    obtain ⟨p, hp, hin⟩ := flucPosition_ok s hs j (vs k) (h1 k) (h2 k) hj
    obtain ⟨f1, f2, f3, f4⟩ := fluctuation_ok z size sizeVar kpc amp p (vs k)
    refine ⟨fluctuation z size sizeVar kpc amp p (vs k) :: l,
      by simp only [flucRegion, hp, hl, bind, Except.bind, pure, Except.pure], by simp [hlen], ?_⟩
    intro i h hi
    cases i with
    | zero =>
      simp only [List.getElem?_cons_zero, Option.some.injEq] at hi
      subst hi
      exact ⟨k, rfl, by rw [f3, f4]; exact hin, f1, f2⟩
    | succ i =>
      rw [List.getElem?_cons_succ] at hi
      obtain ⟨k', hk', r⟩ := hall i h hi
      exact ⟨k', by rw [List.getElem?_cons_succ]; exact hk', r⟩

theorem flucHalos_ok (s : Shape) (hs : ValidShape s) (z size sizeVar kpc amp : ℝ) (vs : ℕ → ℕ → FlucVar)
    (h1 : ∀ j k, 0 ≤ (vs j k).r1 ∧ (vs j k).r1 ≤ 1) (h2 : ∀ j k, 0 ≤ (vs j k).r2 ∧ (vs j k).r2 ≤ 1)
    (cs : List ℕ) (i : ℕ) (hj : ∀ xs ys ap, s = .aperture xs ys ap → i + cs.length ≤ xs.length) :
    ∃ groups : List (List Halo), flucHalos s z size sizeVar kpc amp vs i cs = .ok groups.flatten ∧
      groups.length = cs.length ∧
      ∀ (j : ℕ) (g : List Halo) (c : ℕ), groups[j]? = some g → cs[j]? = some c →
        FlucGroup s z size sizeVar kpc amp (vs (i + j)) (i + j) c g := by
  induction cs generalizing i with
  | nil => exact ⟨[], rfl, rfl, by simp⟩
  | cons c cs ih =>
    obtain ⟨groups, hg, hlen, hall⟩ := ih (i + 1) (fun xs ys ap e => by
      have := hj xs ys ap e; simp at this; omega)
    obtain ⟨l, hl, hllen, hlall⟩ := flucRegion_ok s hs z size sizeVar kpc amp i (vs i) (h1 i) (h2 i)
      (fun xs ys ap e => by have := hj xs ys ap e; simp at this; omega) (List.range c)
    refine ⟨l :: groups, by simp only [flucHalos, hl, hg, bind, Except.bind, pure, Except.pure, List.flatten_cons],
      by simp [hlen], ?_⟩
    intro j g c' hjg hjc
    cases j with
    | zero =>
      simp only [List.getElem?_cons_zero, Option.some.injEq] at hjg hjc
      subst hjg hjc
      refine ⟨by simpa using hllen, ?_, ?_⟩
      · intro h hh
        obtain ⟨k, hk⟩ := List.mem_iff_getElem?.mp hh
        obtain ⟨-, -, hin, -⟩ := hlall k h hk
        exact hin
      · intro k h hk
        obtain ⟨k', hk', -, hf, ht⟩ := hlall k h hk
        have hlt : k < c := by
          have := (List.getElem?_eq_some_iff.mp hk').1
          simpa using this
        rw [List.getElem?_range hlt, Option.some.injEq] at hk'
        subst hk'
        exact ⟨hf, ht⟩
    | succ j =>
      rw [List.getElem?_cons_succ] at hjg hjc
      have := hall j g c' hjg hjc
      rwa [show i + 1 + j = i + (j + 1) by omega] at this

/-- The fluctuations that are made, joined to the realization. -/
theorem addFluctuations_ok (s : Shape) (hs : ValidShape s) (size sizeVar amp nCut kpc : ℝ) (rescale : Bool)
    (pois : ℕ → ℕ) (vs : ℕ → ℕ → FlucVar) (σ : Heap) (n : Oid) (r : Realization)
    (h1 : ∀ j k, 0 ≤ (vs j k).r1 ∧ (vs j k).r1 ≤ 1) (h2 : ∀ j k, 0 ≤ (vs j k).r2 ∧ (vs j k).r2 ≤ 1)
    (hb : Below n r) (hold : ∀ h ∈ r.halos, ∀ j k, (σ h).tag ≠ (vs j k).tag)
    (hne : (flucCounts s pois).all (· == 0) = false)
    (hlen : (flucRescale s rescale nCut amp (flucCounts s pois)).2.length = (flucCounts s pois).length)
    (hj : ∀ xs ys ap, s = .aperture xs ys ap → (flucCounts s pois).length ≤ xs.length) :
    ∃ (σ' : Heap) (r' : Realization) (groups : List (List Halo)),
      addFluctuations s size sizeVar amp nCut kpc rescale pois vs σ n r = .ok (σ', r') ∧
      Added σ σ' n groups.flatten r r' ∧ groups.length = (flucCounts s pois).length ∧
      ∀ (j : ℕ) (g : List Halo) (c : ℕ), groups[j]? = some g →
        (flucRescale s rescale nCut amp (flucCounts s pois)).2[j]? = some c →
        FlucGroup s r.lensCosmo.zLens size sizeVar kpc (flucRescale s rescale nCut amp (flucCounts s pois)).1 (vs j) j c g := by
  obtain ⟨groups, hg, hglen, hall⟩ := flucHalos_ok s hs r.lensCosmo.zLens size sizeVar kpc
    (flucRescale s rescale nCut amp (flucCounts s pois)).1 vs h1 h2
    (flucRescale s rescale nCut amp (flucCounts s pois)).2 0 (fun xs ys ap e => by
      rw [hlen, zero_add]; exact hj xs ys ap e)
  refine ⟨place σ n groups.flatten, _, groups, by
    simp only [addFluctuations, hne, Bool.false_eq_true, if_false, hg, bind, Except.bind, pure, Except.pure]
    rfl, ?_, by rw [hglen, hlen], ?_⟩
  · refine ⟨fun k hk => place_old _ _ _ _ hk, fun k h hk => place_new _ _ _ _ _ hk, ?_, fresh_join .., (c06_join_context _ _ _).1⟩
    refine join_perm _ _ _ _ ?_
    intro x hx y hy
    rw [place_old σ n _ x (hb x hx)]
    have := map_range'_place σ n groups.flatten [] y hy
    rw [List.append_nil] at this
    obtain ⟨g, hg, hyg⟩ := List.mem_flatten.mp this
    obtain ⟨k, hkg⟩ := List.mem_iff_getElem?.mp hg
    obtain ⟨i, hi⟩ := List.mem_iff_getElem?.mp hyg
    have hk : k < (flucRescale s rescale nCut amp (flucCounts s pois)).2.length := by
      rw [← hglen]; exact (List.getElem?_eq_some_iff.mp hkg).1
    rw [((hall k g _ hkg (List.getElem?_eq_getElem hk)).shape i _ hi).2]
    exact hold x hx _ _
  · intro j g c hjg hjc
    have := hall j g c hjg hjc
    rwa [zero_add] at this

theorem flucRescale_length (s : Shape) (rescale : Bool) (nCut amp : ℝ) (pois : ℕ → ℕ) :
    (flucRescale s rescale nCut amp (flucCounts s pois)).2.length = (flucCounts s pois).length := by
  unfold flucRescale
  cases rescale with
  | false => rfl
  | true =>
    cases s with
    | aperture xs ys ap =>
      simp only [if_true]
      split <;> simp
    | ring a b =>
      simp only [if_true, flucCounts]
      split <;> simp
    | ellipse a b c d e =>
      simp only [if_true, flucCounts]
      split <;> simp

/-- C38 (fluctuations in a ring or ellipse, amplitudes not rescaled).  If at least one fluctuation is drawn,
the result holds the old halos, unchanged, and as many fluctuations as were drawn, all in the requested
region of the lens plane; if none is drawn, it is the old realization. -/
theorem c38_fluctuations_region (s : Shape) (hs : ValidShape s) (hna : ∀ xs ys ap, s ≠ .aperture xs ys ap)
    (size sizeVar amp nCut kpc : ℝ) (pois : ℕ → ℕ) (vs : ℕ → ℕ → FlucVar) (σ : Heap) (n : Oid) (r : Realization)
    (h1 : ∀ j k, 0 ≤ (vs j k).r1 ∧ (vs j k).r1 ≤ 1) (h2 : ∀ j k, 0 ≤ (vs j k).r2 ∧ (vs j k).r2 ≤ 1)
    (hb : Below n r) (hold : ∀ h ∈ r.halos, ∀ j k, (σ h).tag ≠ (vs j k).tag) :
    (pois 0 = 0 → addFluctuations s size sizeVar amp nCut kpc false pois vs σ n r = .ok (σ, r)) ∧
    (pois 0 ≠ 0 → ∃ (σ' : Heap) (r' : Realization) (g : List Halo),
      addFluctuations s size sizeVar amp nCut kpc false pois vs σ n r = .ok (σ', r') ∧
      Added σ σ' n g r r' ∧ FlucGroup s r.lensCosmo.zLens size sizeVar kpc amp (vs 0) 0 (pois 0) g) := by
  have hc : flucCounts s pois = [pois 0] := by
    cases s with
    | aperture xs ys ap => exact absurd rfl (hna xs ys ap)
    | ring => rfl
    | ellipse => rfl
  constructor
  · intro h0
    simp [addFluctuations, hc, h0]
  · intro h0
    obtain ⟨σ', r', groups, he, hA, hl, hall⟩ := addFluctuations_ok s hs size sizeVar amp nCut kpc false pois vs σ n r
      h1 h2 hb hold (by simp [hc, h0]) (flucRescale_length ..) (fun xs ys ap e => absurd e (hna xs ys ap))
    rw [hc] at hl hall
    match groups, hl with
    | [g], _ =>
      refine ⟨σ', r', g, he, by simpa using hA, ?_⟩
      simpa [flucRescale] using hall 0 g (pois 0) rfl

/-- C38 (fluctuations in apertures, amplitudes not rescaled), as far as it is true.  The images are paired
with the *non-zero* counts: if at least one count is positive, the result holds the old halos, unchanged, and
around the `j`-th image as many fluctuations as the `j`-th non-zero count, within the aperture. If every
count is zero the realization is returned. Missing: that the count is the one drawn for the image, which is
true when no count is zero (`c38_fluctuations_no_zero`) and false otherwise (`c38_fluctuations_misassigned`). -/
theorem c38_fluctuations_aperture_partial (xs ys : List ℝ) (ap : ℝ) (hxy : xs.length = ys.length)
    (size sizeVar amp nCut kpc : ℝ) (pois : ℕ → ℕ) (vs : ℕ → ℕ → FlucVar) (σ : Heap) (n : Oid) (r : Realization)
    (h1 : ∀ j k, 0 ≤ (vs j k).r1 ∧ (vs j k).r1 ≤ 1) (h2 : ∀ j k, 0 ≤ (vs j k).r2 ∧ (vs j k).r2 ≤ 1)
    (hb : Below n r) (hold : ∀ h ∈ r.halos, ∀ j k, (σ h).tag ≠ (vs j k).tag) :
    let nonzero := ((List.range xs.length).map pois).filter (· ≠ 0)
    (nonzero = [] → addFluctuations (.aperture xs ys ap) size sizeVar amp nCut kpc false pois vs σ n r = .ok (σ, r)) ∧
    (nonzero ≠ [] → ∃ (σ' : Heap) (r' : Realization) (groups : List (List Halo)),
      addFluctuations (.aperture xs ys ap) size sizeVar amp nCut kpc false pois vs σ n r = .ok (σ', r') ∧
      Added σ σ' n groups.flatten r r' ∧ groups.length = nonzero.length ∧
      ∀ (j : ℕ) (g : List Halo) (c : ℕ), groups[j]? = some g → nonzero[j]? = some c →
        FlucGroup (.aperture xs ys ap) r.lensCosmo.zLens size sizeVar kpc amp (vs j) j c g) := by
  intro nonzero
  have hc : flucCounts (.aperture xs ys ap) pois = nonzero := rfl
  have hz : ∀ c ∈ nonzero, c ≠ 0 := fun c hc => by
    have := List.of_mem_filter hc
    simpa using this
  constructor
  · intro h0
    simp [addFluctuations, hc, h0]
  · intro h0
    refine addFluctuations_ok (.aperture xs ys ap) hxy size sizeVar amp nCut kpc false pois vs σ n r
      h1 h2 hb hold ?_ (flucRescale_length ..) ?_
    · rw [hc, List.all_eq_false]
      obtain ⟨c, t, e⟩ := List.exists_cons_of_ne_nil h0
      exact ⟨c, by rw [e]; exact List.mem_cons_self, by simpa using hz c (by rw [e]; exact List.mem_cons_self)⟩
    · intro xs' ys' ap' e
      cases e
      refine (List.length_filter_le _ _).trans ?_
      simp

/-- C38.  When no count is zero, every image gets the number drawn for it. -/
theorem c38_fluctuations_no_zero (xs ys : List ℝ) (ap : ℝ) (hxy : xs.length = ys.length) (hx : xs ≠ [])
    (size sizeVar amp nCut kpc : ℝ) (pois : ℕ → ℕ) (hp : ∀ j < xs.length, pois j ≠ 0) (vs : ℕ → ℕ → FlucVar)
    (σ : Heap) (n : Oid) (r : Realization)
    (h1 : ∀ j k, 0 ≤ (vs j k).r1 ∧ (vs j k).r1 ≤ 1) (h2 : ∀ j k, 0 ≤ (vs j k).r2 ∧ (vs j k).r2 ≤ 1)
    (hb : Below n r) (hold : ∀ h ∈ r.halos, ∀ j k, (σ h).tag ≠ (vs j k).tag) :
    ∃ (σ' : Heap) (r' : Realization) (groups : List (List Halo)),
      addFluctuations (.aperture xs ys ap) size sizeVar amp nCut kpc false pois vs σ n r = .ok (σ', r') ∧
      Added σ σ' n groups.flatten r r' ∧ groups.length = xs.length ∧
      ∀ (j : ℕ) (g : List Halo), groups[j]? = some g →
        FlucGroup (.aperture xs ys ap) r.lensCosmo.zLens size sizeVar kpc amp (vs j) j (pois j) g := by
  have hf : ((List.range xs.length).map pois).filter (· ≠ 0) = (List.range xs.length).map pois := by
    rw [List.filter_eq_self]
    intro c hc
    obtain ⟨j, hj, rfl⟩ := List.mem_map.mp hc
    simpa using hp j (List.mem_range.mp hj)
  have hne : (List.range xs.length).map pois ≠ [] := by
    simpa using hx
  obtain ⟨σ', r', groups, he, hA, hl, hall⟩ := (c38_fluctuations_aperture_partial xs ys ap hxy size sizeVar amp nCut
    kpc pois vs σ n r h1 h2 hb hold).2 (by rw [hf]; exact hne)
  rw [hf] at hl hall
  have hl' : groups.length = xs.length := by simpa using hl
  refine ⟨σ', r', groups, he, hA, hl', ?_⟩
  intro j g hg
  have hj : j < xs.length := by rw [← hl']; exact (List.getElem?_eq_some_iff.mp hg).1
  exact hall j g (pois j) hg (by rw [List.getElem?_map, List.getElem?_range hj]; rfl)

/-- C38, the failure: two images at more than twice the aperture from each other, no fluctuation drawn for the
first and `m` drawn for the second. All `m` are placed around the first image, none around the second. -/
theorem c38_fluctuations_misassigned (x₀ y₀ x₁ y₁ ap : ℝ) (hsep : 2 * |ap| < dist2 x₀ y₀ x₁ y₁)
    (size sizeVar amp nCut kpc : ℝ) (m : ℕ) (hm : m ≠ 0) (vs : ℕ → ℕ → FlucVar) (σ : Heap) (n : Oid) (r : Realization)
    (h1 : ∀ j k, 0 ≤ (vs j k).r1 ∧ (vs j k).r1 ≤ 1) (h2 : ∀ j k, 0 ≤ (vs j k).r2 ∧ (vs j k).r2 ≤ 1)
    (hb : Below n r) (hold : ∀ h ∈ r.halos, ∀ j k, (σ h).tag ≠ (vs j k).tag) :
    ∃ (σ' : Heap) (r' : Realization) (g : List Halo),
      addFluctuations (.aperture [x₀, x₁] [y₀, y₁] ap) size sizeVar amp nCut kpc false
        (fun j => if j = 0 then 0 else m) vs σ n r = .ok (σ', r') ∧
      Added σ σ' n g r r' ∧ g.length = m ∧
      ∀ h ∈ g, dist2 h.x h.y x₀ y₀ ≤ |ap| ∧ ¬ dist2 h.x h.y x₁ y₁ ≤ |ap| := by
  have hnz : ((List.range 2).map (fun j => if j = 0 then 0 else m)).filter (fun c => decide (c ≠ 0)) = [m] := by
    have : List.range 2 = [0, 1] := rfl
    simp [this, hm]
  obtain ⟨σ', r', groups, he, hA, hl, hall⟩ := (c38_fluctuations_aperture_partial [x₀, x₁] [y₀, y₁] ap rfl size
    sizeVar amp nCut kpc (fun j => if j = 0 then 0 else m) vs σ n r h1 h2 hb hold).2 (by
      simp only [List.length_cons, List.length_nil, Nat.zero_add, Nat.reduceAdd]
      rw [hnz]; simp)
  simp only [List.length_cons, List.length_nil, Nat.zero_add, Nat.reduceAdd] at hl hall
  rw [hnz] at hl hall
  match groups, hl with
  | [g], _ =>
    have hg := hall 0 g m rfl rfl
    refine ⟨σ', r', g, he, by simpa using hA, hg.count, fun h hh => ?_⟩
    have hd : dist2 h.x h.y x₀ y₀ ≤ |ap| := hg.region h hh x₀ y₀ rfl rfl
    refine ⟨hd, fun hd' => ?_⟩
    have htri : dist2 x₀ y₀ x₁ y₁ ≤ dist2 h.x h.y x₀ y₀ + dist2 h.x h.y x₁ y₁ := by
      have := dist_triangle (!₂[x₀, y₀] : EuclideanSpace ℝ (Fin 2)) !₂[h.x, h.y] !₂[x₁, y₁]
      simp only [EuclideanSpace.dist_eq, Fin.sum_univ_two, Real.dist_eq, sq_abs] at this
      simp only [dist2]
      refine this.trans (le_of_eq ?_)
      congr 2
      simp
      ring
    linarith

/-- C38.  The rescaling of the amplitude: of `n` fluctuations drawn, `m = min n n_cut` are made, and the amplitude
is multiplied by `sqrt(m / n)` as documented; so nothing changes if `n ≤ n_cut`. -/
theorem c38_amplitude (s : Shape) (hna : ∀ xs ys ap, s ≠ .aperture xs ys ap) (nCut : ℕ) (hc : 0 < nCut) (amp : ℝ)
    (pois : ℕ → ℕ) (h0 : pois 0 ≠ 0) :
    let out := flucRescale s true nCut amp (flucCounts s pois)
    ∃ m : ℕ, out.2 = [m] ∧ m = min (pois 0) nCut ∧ out.1 = amp * Real.sqrt (m / pois 0) := by
  intro out
  have hcn : (0 : ℝ) < nCut := by exact_mod_cast hc
  have hp : (0 : ℝ) < pois 0 := by exact_mod_cast Nat.pos_of_ne_zero h0
  have hout : out = if ((pois 0 : ℕ) : ℝ) > nCut then (amp / Real.sqrt (pois 0 / nCut), [nCut]) else (amp, [pois 0]) := by
    have e : ⌊(nCut : ℝ)⌋.toNat = nCut := by simp
    cases s with
    | aperture xs ys ap => exact absurd rfl (hna xs ys ap)
    | ring => simp only [out, flucRescale, flucCounts, if_true, e]
    | ellipse => simp only [out, flucRescale, flucCounts, if_true, e]
  by_cases h : ((pois 0 : ℕ) : ℝ) > nCut
  · rw [if_pos h] at hout
    have h' : nCut < pois 0 := by exact_mod_cast h
    refine ⟨nCut, by rw [hout], by omega, ?_⟩
    rw [hout]
    simp only
    rw [div_eq_mul_inv, ← Real.sqrt_inv, inv_div]
  · rw [if_neg h] at hout
    have h' : pois 0 ≤ nCut := by
      have := not_lt.mp h; exact_mod_cast this
    exact ⟨pois 0, by rw [hout], by omega, by rw [hout, div_self hp.ne', Real.sqrt_one, mul_one]⟩

example := c38_amplitude (.ring 0.5 1.5) (by simp) 20 (by norm_num) 0.1 (fun _ => 50) (by norm_num)

/-- C38.  Fluctuations in a ring are not spread evenly over its area: the share placed inside radius `r` (the
variates below a threshold) is smaller than the share of the area, for every ring with a hole. -/
theorem c38_ring_not_even (rmin rmax r : ℝ) (h0 : 0 < rmin) (h1 : rmin < r) (h2 : r < rmax) :
    ∃ t, (∀ (v : FlucVar), 0 ≤ v.r1 → ∀ p, flucPosition (.ring rmin rmax) 0 v = .ok p →
        (dist2 p.1 p.2 0 0 ≤ r ↔ v.r1 ≤ t)) ∧ t < annulusShare rmin rmax r := by
  have hd : 0 < rmax - rmin := by linarith
  refine ⟨((r - rmin) / (rmax - rmin)) ^ 2, ?_, ?_⟩
  · intro v hv p hp
    simp only [flucPosition, Except.ok.injEq] at hp
    subst hp
    have hcs := Real.cos_sq_add_sin_sq (2 * Real.pi * v.angle)
    have hn : 0 ≤ rmin + Real.sqrt v.r1 * (rmax - rmin) := by positivity
    simp only
    rw [dist2, sub_zero, sub_zero, mul_pow, mul_pow, ← mul_add, hcs, mul_one, Real.sqrt_sq hn]
    have hq : 0 ≤ (r - rmin) / (rmax - rmin) := div_nonneg (by linarith) hd.le
    rw [← Real.sqrt_le_left hq, le_div_iff₀ hd]
    constructor <;> intro h <;> linarith
  · rw [annulusShare, div_pow, div_lt_div_iff₀ (by positivity) (by nlinarith)]
    have : (r ^ 2 - rmin ^ 2) * (rmax - rmin) ^ 2 - (r - rmin) ^ 2 * (rmax ^ 2 - rmin ^ 2)
        = (r - rmin) * (rmax - rmin) * (2 * rmin * (rmax - r)) := by ring
    have h3 : 0 < (r - rmin) * (rmax - rmin) * (2 * rmin * (rmax - r)) := by
      have a1 : 0 < r - rmin := by linarith
      have a2 : 0 < rmax - r := by linarith
      positivity
    linarith

example := c38_ring_not_even 0.5 1.5 1 (by norm_num) (by norm_num) (by norm_num)

/-- The area of the region of a shape (per image for apertures) in square arcseconds. -/
noncomputable def shapeArea : Shape → ℝ
  | .ring rmin rmax => Real.pi * (rmax ^ 2 - rmin ^ 2)
  | .ellipse amin amax bmin bmax _ => Real.pi * (amax * bmax) - Real.pi * (amin * bmin)
  | .aperture _ _ ap => Real.pi * ap ^ 2

/-- C38.  The mean number of fluctuations times the area of one (a disc with the scaled wavelength as radius) is the
requested multiple of the area of the region. -/
theorem c38_fluctuation_number (toKpc lambda sizeScale nScale : ℝ) (hl : lambda ≠ 0) (hs : sizeScale ≠ 0) (s : Shape) :
    flucMean toKpc lambda sizeScale nScale s * (Real.pi * (sizeScale * lambda) ^ 2) = nScale * (shapeArea s * toKpc ^ 2) := by
  have hpi := Real.pi_ne_zero
  cases s <;> simp only [flucMean, flucArea, shapeArea] <;> field_simp

example := c38_fluctuation_number 5 0.2 1.5 1 (by norm_num) (by norm_num) (.ring 0.5 1.5)

/-- C38.  The profile of a cluster: the slope lies in the requested interval; the core radius, which is the size
divided by the concentration, lies in the requested interval times the cube root of the mass in units of 10⁵. -/
theorem c38_cluster_profile (a : GCArgs) (m : ℝ) (hm : 0 < m) (hg : 0 ≤ a.gammaSigma) (hz : 0 ≤ a.sizeSigma) (v : GCVar)
    (h1 : 0 ≤ v.slope ∧ v.slope ≤ 1) (h2 : 0 ≤ v.size ∧ v.size ≤ 1) :
    ∃ g core c : ℝ, gcProfile a m v = [("gamma", g), ("gc_size_pc", c * core), ("gc_concentration", c)] ∧ c = 20 ∧
      |g - a.gammaMean| ≤ a.gammaSigma ∧
      |core / (m / 10 ^ 5) ^ (1 / 3 : ℝ) - a.sizeMean| ≤ a.sizeSigma := by
  have hp : (0 : ℝ) < (m / 10 ^ 5) ^ (1 / 3 : ℝ) := by positivity
  refine ⟨_, _, 20, rfl, rfl, ?_, ?_⟩
  · rw [abs_le]; constructor <;> nlinarith
  · rw [mul_div_assoc, div_self hp.ne', mul_one, abs_le]; constructor <;> nlinarith

/-- Non-vacuity of C38 for fluctuations: two images 10 arcseconds apart, counts 0 and 3. -/
example : ∃ (σ' : Heap) (r' : Realization) (g : List Halo),
    addFluctuations (.aperture [0, 10] [0, 0] 1) 1 1 1 10 5 false (fun j => if j = 0 then 0 else 3)
      (fun j k => ⟨0, 1, 0, 1 / 2, 0, 100 + Nat.pair j k⟩) Demo.heap 10 Demo.real = .ok (σ', r') ∧
    g.length = 3 ∧ Added Demo.heap σ' 10 g Demo.real r' ∧ ∀ h ∈ g, dist2 h.x h.y 0 0 ≤ 1 := by
  obtain ⟨σ', r', g, h, hA, hl, hg⟩ := c38_fluctuations_misassigned 0 0 10 0 1 (by
      rw [dist2, show ((0 : ℝ) - 10) ^ 2 + (0 - 0) ^ 2 = 10 ^ 2 by norm_num, Real.sqrt_sq (by norm_num)]; norm_num)
    1 1 1 10 5 3 (by norm_num) (fun j k => ⟨0, 1, 0, 1 / 2, 0, 100 + Nat.pair j k⟩) Demo.heap 10 Demo.real
    (by intro j k; norm_num) (by intro j k; norm_num) (by
      intro h hh
      simp only [Demo.real, Realization.fromHalos, List.mem_cons, List.not_mem_nil, or_false] at hh
      rcases hh with rfl | rfl | rfl | rfl <;> decide) (by
      intro h hh j k
      simp only [Demo.real, Realization.fromHalos, List.mem_cons, List.not_mem_nil, or_false] at hh
      rcases hh with rfl | rfl | rfl | rfl <;> simp only [Demo.heap, Demo.mk] <;> exact Nat.ne_of_lt (Nat.lt_of_lt_of_le (by decide) (Nat.le_add_right 100 _)))
  exact ⟨σ', r', g, h, hl, hA, fun q hq => by simpa using (hg q hq).1⟩

end PyHalo.Props
