import Verif.Lemmas.Filter
import Verif.Spec.Demo
import Mathlib.Tactic.NormNum

/-!
# Properties of realizations (C01–C08, C11, C14, C15)
-/

namespace PyHalo.Props
open PyHalo Spec
open scoped Classical

/-! ## C01 -/

/-- C01.  `subhalos` and `field_halos` keep the order of the realization, contain exactly the
halos with, respectively without, the subhalo flag, and together are all the halos. -/
theorem c01_subhalos_field_partition (σ : Heap) (r : Realization) :
    (r.subhalos σ).Sublist r.halos ∧ (r.fieldHalos σ).Sublist r.halos ∧
    (∀ h, h ∈ r.subhalos σ ↔ h ∈ r.halos ∧ (σ h).isSubhalo = true) ∧
    (∀ h, h ∈ r.fieldHalos σ ↔ h ∈ r.halos ∧ (σ h).isSubhalo = false) ∧
    (r.subhalos σ ++ r.fieldHalos σ).Perm r.halos ∧
    (r.subhalos σ).length + (r.fieldHalos σ).length = r.halos.length := by
  have h1 : r.subhalos σ = r.halos.filter fun h => (σ h).isSubhalo := by
    simpa [Realization.subhalos] using foldl_append_filter (fun h => (σ h).isSubhalo) r.halos []
  have h2 : r.fieldHalos σ = r.halos.filter fun h => !(σ h).isSubhalo := by
    simpa [Realization.fieldHalos] using
      foldl_append_filter (fun h => !(σ h).isSubhalo) r.halos []
  have hp := List.filter_append_perm (fun h => (σ h).isSubhalo) r.halos
  rw [h1, h2]
  refine ⟨List.filter_sublist, List.filter_sublist, by simp, by simp, hp, ?_⟩
  rw [← List.length_append]; exact hp.length_eq

/-- The statement of C01 is not empty: both kinds occur in the demo realization. -/
example : Demo.real.subhalos Demo.heap = [0, 3] ∧ Demo.real.fieldHalos Demo.heap = [1, 2] := by
  simp [Demo.real, Realization.fromHalos, Realization.subhalos, Realization.fieldHalos,
    Demo.heap, Demo.mk]

/-! ## C02 -/

/-- C02.  On a realization whose arrays are up to date, with at least one ray, `filter` succeeds.
The result contains exactly the selected halos (as a multiset), is ordered by redshift, keeps the
original order inside each redshift, and keeps the context of the input. -/
theorem c02_filter_selects (σ : Heap) (r : Realization) (hf : Fresh σ r) (ap logM : ℝ)
    (rx ry : List Interp) (hlen : rx.length = ry.length) (hne : rx ≠ [])
    (kpc weighted : Bool) (wMin : ℝ) :
    ∃ r', r.filter σ ap logM rx ry (unitName kpc) weighted wMin = .ok r' ∧
      r'.halos.Perm (r.halos.filter fun h =>
        decide (Selected r.lensCosmo ap logM (rx.zip ry) kpc weighted wMin (σ h))) ∧
      r'.halos.Pairwise (fun a b => (σ a).z ≤ (σ b).z) ∧
      (∀ z, r'.halos.filter (fun h => decide ((σ h).z = z))
        = r.halos.filter fun h => decide ((σ h).z = z ∧
            Selected r.lensCosmo ap logM (rx.zip ry) kpc weighted wMin (σ h))) ∧
      Fresh σ r' ∧ SameContext r r' := by
  refine ⟨_, filter_eq σ r hf ap logM rx ry hlen hne kpc weighted wMin, ?_, ?_, ?_,
    fresh_rebuild .., sameContext_rebuild ..⟩
  · rw [rebuild_halos]
    apply flatMap_filter_perm
    · exact hf.zsIncreasing.imp fun h => ne_of_lt h
    · intro a ha
      exact (hf.zsMem _).2 ⟨a, (List.mem_filter.1 ha).1, rfl⟩
  · rw [rebuild_halos]
    exact pairwise_flatMap_filter (fun h => (σ h).z) _ hf.zsIncreasing _
  · intro z
    rw [rebuild_halos, filter_flatMap_filter (fun h => (σ h).z) _ hf.zsIncreasing _
      (fun a ha => (hf.zsMem _).2 ⟨a, (List.mem_filter.1 ha).1, rfl⟩), List.filter_filter]
    apply List.filter_congr
    intro h _
    simp

/-- C02, one halo at a time: a halo of the input survives exactly when it is selected. -/
theorem c02_filter_mem (σ : Heap) (r r' : Realization) (hf : Fresh σ r) (ap logM : ℝ)
    (rx ry : List Interp) (hlen : rx.length = ry.length) (hne : rx ≠ [])
    (kpc weighted : Bool) (wMin : ℝ)
    (h : r.filter σ ap logM rx ry (unitName kpc) weighted wMin = .ok r') (o : Oid) :
    o ∈ r'.halos ↔ o ∈ r.halos ∧
      Selected r.lensCosmo ap logM (rx.zip ry) kpc weighted wMin (σ o) := by
  obtain ⟨r'', h', hp, -⟩ := c02_filter_selects σ r hf ap logM rx ry hlen hne kpc weighted wMin
  rw [h] at h'
  cases h'
  rw [hp.mem_iff]
  simp

theorem mapM_error {α β : Type} {f : α → Except Err β} {l : List α} {e : Err} (hl : l ≠ [])
    (h : ∀ a ∈ l, f a = .error e) : l.mapM f = .error e := by
  cases l with
  | nil => exact absurd rfl hl
  | cons a t => rw [List.mapM_cons, h a (by simp)]; rfl

theorem filter_error (σ : Heap) (r : Realization) (hf : Fresh σ r) (ap logM : ℝ)
    (rx ry : List Interp) (units : String) (weighted : Bool) (wMin : ℝ) (e : Err)
    (hlight : ∃ h ∈ r.halos, |(σ h).mass| < (10 : ℝ) ^ logM)
    (hrow : ∀ w D x y, Realization.rowWithin ap rx ry units w D x y = .error e) :
    r.filter σ ap logM rx ry units weighted wMin = .error e := by
  set heavy : Oid → Bool := fun h => decide (|(σ h).mass| ≥ (10 : ℝ) ^ logM) with hheavy
  have hmask : (r.masses.map fun m => |m|).map (fun m => decide (m ≥ (10 : ℝ) ^ logM))
      = r.halos.map heavy := by
    rw [hf.masses]; simp only [List.map_map]; rfl
  have hcheck : ((r.halos.map heavy).map not) = r.halos.map fun h => !heavy h := by
    simp only [List.map_map]; rfl
  have hz := Np.gather_whereTrue (fun h => (σ h).z) (fun h => !heavy h) r.halos
  have hx := Np.gather_whereTrue (fun h => (σ h).x) (fun h => !heavy h) r.halos
  have hy := Np.gather_whereTrue (fun h => (σ h).y) (fun h => !heavy h) r.halos
  have hpos : (Np.whereTrue (r.halos.map fun h => !heavy h)).length > 0 := by
    by_contra hn
    obtain ⟨h, hh, hl⟩ := hlight
    have := whereTrue_eq_nil (m := r.halos.map fun h => !heavy h) (by omega) (!heavy h) (List.mem_map.2 ⟨h, hh, rfl⟩)
    simp [hheavy] at this
    linarith
  have hne : (r.halos.filter fun h => !heavy h) ≠ [] := by
    obtain ⟨h, hh, hl⟩ := hlight
    apply List.ne_nil_of_mem (a := h)
    simp [hh, hheavy, hl]
  unfold Realization.filter
  simp only [hmask, hcheck, hpos, if_true]
  rw [hf.redshifts, hf.xs, hf.ys, hz, hx, hy]
  simp only [bind, Except.bind]
  rw [mapM_error (e := e) _ (fun q _ => hrow _ _ _ _)]
  intro h0
  apply hne
  have := congrArg List.length h0
  simpa using this

/-- C02, refusal: an aperture unit other than `'ANGLES'` and `'KPC'` is refused as soon as one
halo is below the mass threshold. -/
theorem c02_filter_bad_units (σ : Heap) (r : Realization) (hf : Fresh σ r) (ap logM : ℝ)
    (rx ry : List Interp) (hlen : rx.length = ry.length) (hne : rx ≠ []) (units : String)
    (hu : units ≠ "ANGLES" ∧ units ≠ "KPC") (weighted : Bool) (wMin : ℝ)
    (hlight : ∃ h ∈ r.halos, |(σ h).mass| < (10 : ℝ) ^ logM) :
    r.filter σ ap logM rx ry units weighted wMin
      = .error (.exception "aperture units must be either KPC or ANGLES") := by
  apply filter_error σ r hf _ _ _ _ _ _ _ _ hlight
  intro w D x y
  have h0 : rx.length ≠ 0 := by simpa using hne
  have h1 : ry.length ≠ 0 := hlen ▸ h0
  unfold Realization.rowWithin
  rw [broadcast2_eq (by simpa using hlen)]
  simp only [h0, h1, hu.1, hu.2, if_false]
  rfl

/-- C02, refusal: without any ray `filter` fails as soon as one halo is below the threshold. -/
theorem c02_filter_no_rays (σ : Heap) (r : Realization) (hf : Fresh σ r) (ap logM : ℝ)
    (units : String) (weighted : Bool) (wMin : ℝ)
    (hlight : ∃ h ∈ r.halos, |(σ h).mass| < (10 : ℝ) ^ logM) :
    r.filter σ ap logM [] [] units weighted wMin
      = .error (.valueError "need at least one array to concatenate") := by
  apply filter_error σ r hf _ _ _ _ _ _ _ _ hlight
  intro w D x y
  rfl

/-- Hypotheses of C02 are met by the demo realization with one ray; of its halos only those of
mass at least 100 and the one next to the ray survive. -/
example : Fresh Demo.heap Demo.real ∧
    ∃ r', Demo.real.filter Demo.heap (1 / 2) 2 [fun _ => 0] [fun _ => 0] "ANGLES" false 0 = .ok r' ∧
      0 ∈ r'.halos ∧ 1 ∈ r'.halos ∧ 3 ∈ r'.halos ∧ 2 ∉ r'.halos := by
  have hf : Fresh Demo.heap Demo.real := fresh_fromHalos ..
  obtain ⟨r', h, -⟩ := c02_filter_selects Demo.heap Demo.real hf (1 / 2) 2 [fun _ => 0]
    [fun _ => 0] rfl (by simp) false false 0
  refine ⟨hf, r', h, ?_⟩
  have hm := fun o => c02_filter_mem Demo.heap Demo.real r' hf (1 / 2) 2 [fun _ => 0]
    [fun _ => 0] rfl (by simp) false false 0 h o
  have e2 : (10 : ℝ) ^ (2 : ℝ) = 100 := by
    rw [show (2 : ℝ) = ((2 : ℕ) : ℝ) by norm_num, Real.rpow_natCast]; norm_num
  refine ⟨(hm 0).2 ⟨by simp [Demo.real, Realization.fromHalos], Or.inl ?_⟩,
    (hm 1).2 ⟨by simp [Demo.real, Realization.fromHalos], Or.inl ?_⟩,
    (hm 3).2 ⟨by simp [Demo.real, Realization.fromHalos], Or.inr ?_⟩, fun hc => ?_⟩
  · rw [e2]; simp [Demo.heap, Demo.mk]
  · rw [e2]; norm_num [Demo.heap, Demo.mk]
  · refine ⟨(fun _ => 0, fun _ => 0), by simp, ?_⟩
    simp only [separation, dist2, kernelWeight, Demo.heap, Demo.mk]
    rw [Real.sqrt_le_iff]; norm_num
  · obtain ⟨-, h1 | ⟨f, hf', h2⟩⟩ := (hm 2).1 hc
    · rw [e2] at h1; norm_num [Demo.heap, Demo.mk] at h1
    · simp at hf'
      subst hf'
      simp only [separation, dist2, kernelWeight, Demo.heap, Demo.mk] at h2
      rw [Real.sqrt_le_iff] at h2; norm_num at h2

/-! ## C03 -/

/-- C03.  Filtering again with the same arguments returns the same halos in the same order. -/
theorem c03_filter_idempotent (σ : Heap) (r r' : Realization) (hf : Fresh σ r) (ap logM : ℝ)
    (rx ry : List Interp) (hlen : rx.length = ry.length) (hne : rx ≠ [])
    (kpc weighted : Bool) (wMin : ℝ)
    (h : r.filter σ ap logM rx ry (unitName kpc) weighted wMin = .ok r') :
    ∃ r'', r'.filter σ ap logM rx ry (unitName kpc) weighted wMin = .ok r'' ∧
      r''.halos = r'.halos := by
  obtain ⟨q, hq, -, hsort, -, hfr, hctx⟩ :=
    c02_filter_selects σ r hf ap logM rx ry hlen hne kpc weighted wMin
  have hmem := c02_filter_mem σ r r' hf ap logM rx ry hlen hne kpc weighted wMin h
  rw [h] at hq
  cases hq
  obtain ⟨r'', h'', -, hsort'', hgroups, -⟩ :=
    c02_filter_selects σ r' hfr ap logM rx ry hlen hne kpc weighted wMin
  refine ⟨r'', h'', eq_of_sorted_groups (fun o => (σ o).z) _ _ hsort'' hsort fun z => ?_⟩
  rw [hgroups z]
  apply List.filter_congr
  intro o ho
  have hs := ((hmem o).1 ho).2
  rw [hctx.lensCosmo]
  simp [hs]

/-- C03.  Enlarging the aperture or lowering the mass threshold only adds halos (the stricter
result is a sub-list of the looser one).  The weight floor must not be negative. -/
theorem c03_filter_monotone (σ : Heap) (r : Realization) (hf : Fresh σ r) (ap ap' logM logM' : ℝ)
    (hap : ap ≤ ap') (hm : logM' ≤ logM)
    (rx ry : List Interp) (hlen : rx.length = ry.length) (hne : rx ≠ [])
    (kpc weighted : Bool) (wMin : ℝ) (hw : 0 ≤ wMin) :
    ∃ r₁ r₂, r.filter σ ap logM rx ry (unitName kpc) weighted wMin = .ok r₁ ∧
      r.filter σ ap' logM' rx ry (unitName kpc) weighted wMin = .ok r₂ ∧
      r₁.halos.Sublist r₂.halos := by
  refine ⟨_, _, filter_eq σ r hf ap logM rx ry hlen hne kpc weighted wMin,
    filter_eq σ r hf ap' logM' rx ry hlen hne kpc weighted wMin, ?_⟩
  simp only [rebuild_halos]
  have himp : ∀ o, Selected r.lensCosmo ap logM (rx.zip ry) kpc weighted wMin (σ o) →
      Selected r.lensCosmo ap' logM' (rx.zip ry) kpc weighted wMin (σ o) := by
    rintro o (h | ⟨f, hf', h⟩)
    · left
      exact le_trans (Real.rpow_le_rpow_of_exponent_le (by norm_num) hm) h
    · right
      refine ⟨f, hf', le_trans h (mul_le_mul_of_nonneg_right hap ?_)⟩
      unfold kernelWeight
      cases weighted
      · norm_num
      · exact le_min (by norm_num) (le_trans hw (le_max_left _ _))
  induction r.uniqueRedshifts with
  | nil => simp
  | cons z zs ih =>
    simp only [List.flatMap_cons]
    apply List.Sublist.append _ ih
    rw [List.filter_filter, List.filter_filter]
    apply List.monotone_filter_right
    intro o ho
    simp only [Bool.and_eq_true, decide_eq_true_eq] at ho ⊢
    exact ⟨ho.1, himp o ho.2⟩

/-- The two settings of the monotonicity claim can differ in their result. -/
example : Selected Demo.cosmo 3 2 [(fun _ => 0, fun _ => 0)] false false 0 (Demo.heap 2) ∧
    ¬ Selected Demo.cosmo 1 2 [(fun _ => 0, fun _ => 0)] false false 0 (Demo.heap 2) := by
  have e2 : (10 : ℝ) ^ (2 : ℝ) = 100 := by
    rw [show (2 : ℝ) = ((2 : ℕ) : ℝ) by norm_num, Real.rpow_natCast]; norm_num
  constructor
  · right
    refine ⟨_, List.mem_singleton_self _, ?_⟩
    simp only [separation, dist2, kernelWeight, Demo.heap, Demo.mk]
    rw [Real.sqrt_le_iff]; norm_num
  · rintro (h | ⟨f, hf, h⟩)
    · rw [e2] at h; norm_num [Demo.heap, Demo.mk] at h
    · simp at hf; subst hf
      simp only [separation, dist2, kernelWeight, Demo.heap, Demo.mk] at h
      rw [Real.sqrt_le_iff] at h; norm_num at h

/-! ## C04 -/

/-- C04.  `filter_subhalos` keeps, in order, exactly the field halos, the subhalos above the mass
cut and the subhalos strictly inside a circle around one of the coordinates. -/
theorem c04_filter_subhalos (σ : Heap) (r : Realization) (hf : Fresh σ r) (R logM : ℝ)
    (xc yc : List ℝ) (hlen : xc.length = yc.length) :
    ∃ r', r.filterSubhalos σ R logM xc yc = .ok r' ∧
      r'.halos = r.halos.filter (fun h => decide (SelectedSub R logM (xc.zip yc) (σ h))) ∧
      Fresh σ r' ∧ SameContext r r' :=
  ⟨_, filterSubhalos_eq σ r hf R logM xc yc hlen, rfl, fresh_rebuild .., sameContext_rebuild ..⟩

/-- C04.  In particular no field halo is ever removed, also without any coordinate. -/
theorem c04_field_halos_survive (σ : Heap) (r : Realization) (hf : Fresh σ r) (R logM : ℝ)
    (xc yc : List ℝ) (hlen : xc.length = yc.length) (r' : Realization)
    (h : r.filterSubhalos σ R logM xc yc = .ok r') :
    r'.fieldHalos σ = r.fieldHalos σ := by
  obtain ⟨q, hq, hh, -⟩ := c04_filter_subhalos σ r hf R logM xc yc hlen
  rw [h] at hq; cases hq
  have h2 : ∀ s : Realization, s.fieldHalos σ = s.halos.filter fun h => !(σ h).isSubhalo := by
    intro s
    simpa [Realization.fieldHalos] using
      foldl_append_filter (fun h => !(σ h).isSubhalo) s.halos []
  rw [h2, h2, hh, List.filter_filter]
  apply List.filter_congr
  intro o _
  cases hs : (σ o).isSubhalo <;> simp [SelectedSub, hs]

/-- Non-vacuity of C04: with no coordinates at all the low-mass subhalo disappears while the
field halos and the massive subhalo stay. -/
example : ∃ r', Demo.real.filterSubhalos Demo.heap 1 (3 / 2 + 3 / 10) [] [] = .ok r' ∧
    1 ∈ r'.halos ∧ 2 ∈ r'.halos ∧ 3 ∉ r'.halos := by
  obtain ⟨r', h, hh, -⟩ := c04_filter_subhalos Demo.heap Demo.real (fresh_fromHalos ..) 1
    (3 / 2 + 3 / 10) [] [] rfl
  refine ⟨r', h, ?_⟩
  have e : (50 : ℝ) ≤ (10 : ℝ) ^ (3 / 2 + 3 / 10 : ℝ) := by
    have h5 : (50 : ℝ) ^ (5 : ℕ) ≤ ((10 : ℝ) ^ (3 / 2 + 3 / 10 : ℝ)) ^ (5 : ℕ) := by
      rw [← Real.rpow_natCast ((10 : ℝ) ^ (3 / 2 + 3 / 10 : ℝ)), ← Real.rpow_mul (by norm_num)]
      have : (3 / 2 + 3 / 10 : ℝ) * ((5 : ℕ) : ℝ) = ((9 : ℕ) : ℝ) := by norm_num
      rw [this, Real.rpow_natCast]; norm_num
    exact le_of_pow_le_pow_left₀ (by norm_num) (by positivity) h5
  rw [hh]
  refine ⟨?_, ?_, ?_⟩
  · simp [Demo.real, Realization.fromHalos, SelectedSub, Demo.heap, Demo.mk]
  · simp [Demo.real, Realization.fromHalos, SelectedSub, Demo.heap, Demo.mk]
  · simp [Demo.real, Realization.fromHalos, SelectedSub, Demo.heap, Demo.mk]
    norm_num at e ⊢
    exact e

/-! ## C05 -/

/-- C05.  `filter_bound_mass` keeps, in order, all field halos and exactly the subhalos with bound
mass at least `m`; the shifted status and the context are carried over. -/
theorem c05_filter_bound_mass (σ : Heap) (r : Realization) (m : ℝ) :
    (r.filterBoundMass σ m).halos
      = r.halos.filter (fun h => decide ((σ h).isSubhalo = true → m ≤ (σ h).boundMass)) ∧
    (r.filterBoundMass σ m).hasBeenShifted = r.hasBeenShifted ∧
    Fresh σ (r.filterBoundMass σ m) ∧ SameContext r (r.filterBoundMass σ m) := by
  refine ⟨?_, rfl, ?_, ⟨rfl, rfl, rfl, rfl, rfl, rfl, rfl⟩⟩
  · have h := foldl_append_filter
      (fun h => decide ((σ h).isSubhalo = true → m ≤ (σ h).boundMass)) r.halos []
    rw [List.nil_append] at h
    rw [← h]
    show List.foldl _ _ _ = _
    congr 1
    funext acc o
    cases hs : (σ o).isSubhalo <;> simp
  · have hf := fresh_rebuild σ r (r.halos.foldl (fun acc h =>
      if (σ h).isSubhalo then
        (if (σ h).boundMass ≥ m then acc ++ [h] else acc)
      else acc ++ [h]) [])
    exact ⟨hf.masses, hf.xs, hf.ys, hf.redshifts, hf.flags, hf.zsIncreasing, hf.zsMem⟩

/-- C05 on the demo: the subhalo of bound mass 40 goes, the one of bound mass 50 stays. -/
example : (Demo.real.filterBoundMass Demo.heap 45).halos = [1, 2, 3] := by
  rw [(c05_filter_bound_mass Demo.heap Demo.real 45).1]
  simp [Demo.real, Realization.fromHalos, Demo.heap, Demo.mk]
  norm_num

/-! ## C06 -/

theorem joinLong_eq (σ : Heap) (short : List Tag) (l : List Oid) :
    Realization.joinLong σ short l = l.filter fun h => !decide ((σ h).tag ∈ short) := by
  have h := foldl_append_filter (fun h => !decide ((σ h).tag ∈ short)) l []
  rw [List.nil_append] at h
  rw [← h]
  unfold Realization.joinLong
  congr 1
  funext acc o
  by_cases hm : (σ o).tag ∈ short <;> simp [hm]

theorem join_halos (σ : Heap) (a b : Realization) (jc : Bool) :
    (a.join σ b jc).halos = if a.halos.length ≥ b.halos.length then
        b.halos ++ a.halos.filter (fun h => !decide ((σ h).tag ∈ Realization.tags σ b.halos))
      else a.halos ++ b.halos.filter (fun h => !decide ((σ h).tag ∈ Realization.tags σ a.halos)) := by
  unfold Realization.join
  simp only [Realization.tags, List.length_map]
  split <;> simp [Realization.rebuild, Realization.fromHalos, joinLong_eq]

theorem join_halos' (σ : Heap) (a b : Realization) (jc : Bool) :
    ∃ s l : Realization, ((s = b ∧ l = a ∧ b.halos.length ≤ a.halos.length) ∨
        (s = a ∧ l = b ∧ a.halos.length < b.halos.length)) ∧
      (a.join σ b jc).halos =
        s.halos ++ l.halos.filter (fun h => !decide ((σ h).tag ∈ Realization.tags σ s.halos)) := by
  rw [join_halos]
  split
  · rename_i h; exact ⟨b, a, Or.inl ⟨rfl, rfl, h⟩, rfl⟩
  · rename_i h; exact ⟨a, b, Or.inr ⟨rfl, rfl, by omega⟩, rfl⟩

/-- C06.  The joined realization has exactly the tags of the two inputs, only halo objects of
the inputs, and is duplicate-free when the inputs are. -/
theorem c06_join_union (σ : Heap) (a b : Realization) (jc : Bool) :
    (∀ t, HasTag σ (a.join σ b jc) t ↔ HasTag σ a t ∨ HasTag σ b t) ∧
    (∀ h ∈ (a.join σ b jc).halos, h ∈ a.halos ∨ h ∈ b.halos) ∧
    (DistinctTags σ a → DistinctTags σ b → DistinctTags σ (a.join σ b jc)) := by
  obtain ⟨s, l, hsl, hj⟩ := join_halos' σ a b jc
  have hmemtags : ∀ (q : Realization) t, t ∈ Realization.tags σ q.halos ↔ HasTag σ q t := by
    intro q t; simp [Realization.tags, HasTag]
  have hor : ∀ P : Realization → Prop, (P a ∨ P b) ↔ (P s ∨ P l) := by
    intro P
    rcases hsl with ⟨rfl, rfl, -⟩ | ⟨rfl, rfl, -⟩
    · exact Or.comm
    · exact Iff.rfl
  refine ⟨fun t => ?_, fun h hh => ?_, fun ha hb => ?_⟩
  · rw [hor (fun q => HasTag σ q t)]
    constructor
    · rintro ⟨h, hh, rfl⟩
      rw [hj, List.mem_append] at hh
      rcases hh with hh | hh
      · exact Or.inl ⟨h, hh, rfl⟩
      · exact Or.inr ⟨h, (List.mem_filter.1 hh).1, rfl⟩
    · rintro (⟨h, hh, rfl⟩ | ⟨h, hh, rfl⟩)
      · exact ⟨h, by rw [hj, List.mem_append]; exact Or.inl hh, rfl⟩
      · by_cases hm : (σ h).tag ∈ Realization.tags σ s.halos
        · obtain ⟨h', hh', e⟩ := (hmemtags s _).1 hm
          exact ⟨h', by rw [hj, List.mem_append]; exact Or.inl hh', e⟩
        · refine ⟨h, ?_, rfl⟩
          rw [hj, List.mem_append]
          exact Or.inr (List.mem_filter.2 ⟨hh, by simp [hm]⟩)
  · rw [hor (fun q => h ∈ q.halos)]
    rw [hj, List.mem_append] at hh
    exact hh.imp id fun h => (List.mem_filter.1 h).1
  · have hs : DistinctTags σ s := by rcases hsl with ⟨rfl, rfl, -⟩ | ⟨rfl, rfl, -⟩ <;> assumption
    have hl : DistinctTags σ l := by rcases hsl with ⟨rfl, rfl, -⟩ | ⟨rfl, rfl, -⟩ <;> assumption
    unfold DistinctTags
    rw [hj, List.pairwise_append]
    refine ⟨hs, hl.sublist List.filter_sublist, fun x hx y hy e => ?_⟩
    have := (List.mem_filter.1 hy).2
    simp only [Bool.not_eq_true', decide_eq_false_iff_not] at this
    exact this ((hmemtags s _).2 ⟨x, hx, e⟩)

/-- C06.  For a tag present in both inputs the object of the shorter realization is kept (of the
argument when the lengths agree): all its objects are in the result, an object of the longer
one is in the result only if it also is an object of the shorter one or its tag is new. -/
theorem c06_join_prefers_shorter (σ : Heap) (a b : Realization) (jc : Bool) :
    (b.halos.length ≤ a.halos.length →
      (∀ h ∈ b.halos, h ∈ (a.join σ b jc).halos) ∧
      (∀ h ∈ a.halos, h ∈ (a.join σ b jc).halos ↔ h ∈ b.halos ∨ ¬ HasTag σ b (σ h).tag)) ∧
    (a.halos.length < b.halos.length →
      (∀ h ∈ a.halos, h ∈ (a.join σ b jc).halos) ∧
      (∀ h ∈ b.halos, h ∈ (a.join σ b jc).halos ↔ h ∈ a.halos ∨ ¬ HasTag σ a (σ h).tag)) := by
  have hmemtags : ∀ (q : Realization) t, t ∈ Realization.tags σ q.halos ↔ HasTag σ q t := by
    intro q t; simp [Realization.tags, HasTag]
  rw [join_halos]
  constructor
  · intro h
    rw [if_pos h]
    refine ⟨fun x hx => by simp [hx], fun x hx => ?_⟩
    rw [List.mem_append, List.mem_filter]
    simp [hx, hmemtags]
  · intro h
    rw [if_neg (by omega)]
    refine ⟨fun x hx => by simp [hx], fun x hx => ?_⟩
    rw [List.mem_append, List.mem_filter]
    simp [hx, hmemtags]

/-- C06.  Joining in the other order gives the same tags. -/
theorem c06_join_comm_tags (σ : Heap) (a b : Realization) (jc jc' : Bool) (t : Tag) :
    HasTag σ (a.join σ b jc) t ↔ HasTag σ (b.join σ a jc') t := by
  rw [(c06_join_union σ a b jc).1, (c06_join_union σ b a jc').1, Or.comm]

/-- C06.  Joining a realization with any realization holding a sub-selection of its own objects
gives back exactly its halos. -/
theorem c06_join_restores (σ : Heap) (r s : Realization) (jc : Bool) (hd : DistinctTags σ r)
    (hs : s.halos.Sublist r.halos) : (r.join σ s jc).halos.Perm r.halos := by
  rw [join_halos, if_pos hs.length_le]
  have hinj : ∀ x ∈ r.halos, ∀ y ∈ r.halos, (σ x).tag = (σ y).tag → x = y := by
    intro x hx y hy e
    exact List.inj_on_of_nodup_map (f := fun o => (σ o).tag)
      (List.pairwise_map.2 hd) hx hy e
  have hfilter : (r.halos.filter fun h => !decide ((σ h).tag ∈ Realization.tags σ s.halos))
      = r.halos.filter fun h => !decide (h ∈ s.halos) := by
    apply List.filter_congr
    intro h hh
    congr 1
    rw [decide_eq_decide]
    constructor
    · intro hm
      obtain ⟨y, hy, e⟩ := List.mem_map.1 hm
      rw [← hinj y (hs.subset hy) h hh e]; exact hy
    · intro hm; exact List.mem_map.2 ⟨h, hm, rfl⟩
  rw [hfilter]
  have hnd : r.halos.Nodup := hd.imp fun h e => h (by rw [e])
  rw [List.perm_ext_iff_of_nodup _ hnd]
  · intro x
    rw [List.mem_append, List.mem_filter]
    constructor
    · rintro (h | h)
      · exact hs.subset h
      · exact h.1
    · intro h
      by_cases hx : x ∈ s.halos
      · exact Or.inl hx
      · exact Or.inr ⟨h, by simp [hx]⟩
  · rw [List.nodup_append]
    refine ⟨hnd.sublist hs, hnd.filter _, ?_⟩
    intro x hx y hy e
    subst e
    have := (List.mem_filter.1 hy).2
    simp [hx] at this

/-- C06.  `join` keeps the context of the receiver, adding the argument's rendering classes only
on request, and forgets the shifted status. -/
theorem c06_join_context (σ : Heap) (a b : Realization) :
    SameContext a (a.join σ b false) ∧
    (a.join σ b true).renderingClasses = a.renderingClasses ++ b.renderingClasses ∧
    (∀ jc, (a.join σ b jc).hasBeenShifted = false) :=
  ⟨⟨rfl, rfl, rfl, rfl, rfl, rfl, rfl⟩, rfl, fun _ => rfl⟩

/-- Non-vacuity of C06: the demo realization has distinct tags, and a sub-selection of it. -/
example : DistinctTags Demo.heap Demo.real ∧
    (Demo.real.rebuild Demo.heap [1, 3]).halos.Sublist Demo.real.halos := by
  constructor
  · simp [DistinctTags, Demo.real, Realization.fromHalos, Demo.heap, Demo.mk]
  · simp [Demo.real, Realization.fromHalos]

/-! ## C07 -/

theorem foldl_split {α : Type} (p : α → Prop) [DecidablePred p] (l : List α) (acc : List α × List α) :
    l.foldl (fun (acc : List α × List α) h =>
      if p h then (acc.1 ++ [h], acc.2) else (acc.1, acc.2 ++ [h])) acc
    = (acc.1 ++ l.filter (fun h => decide (p h)), acc.2 ++ l.filter (fun h => decide (¬ p h))) := by
  induction l generalizing acc with
  | nil => simp
  | cons a t ih =>
    simp only [List.foldl_cons, ih]
    by_cases h : p a <;> simp [h]

/-- C07.  `split_at_z z` keeps order and sends each halo with redshift `≤ z` to the first and with
redshift `> z` to the second part.  (The docstring says `<` and `>=`.) -/
theorem c07_split_partition (σ : Heap) (r : Realization) (z : ℝ) :
    (r.splitAtZ σ z).1.halos = r.halos.filter (fun h => decide ((σ h).z ≤ z)) ∧
    (r.splitAtZ σ z).2.halos = r.halos.filter (fun h => decide (z < (σ h).z)) ∧
    ((r.splitAtZ σ z).1.halos ++ (r.splitAtZ σ z).2.halos).Perm r.halos := by
  have h : r.halos.foldl (fun (acc : List Oid × List Oid) h =>
      if (σ h).z ≤ z then (acc.1 ++ [h], acc.2) else (acc.1, acc.2 ++ [h])) ([], [])
      = (r.halos.filter (fun h => decide ((σ h).z ≤ z)),
         r.halos.filter (fun h => decide (z < (σ h).z))) := by
    rw [foldl_split]; simp only [List.nil_append, not_le]
  have h1 : (r.splitAtZ σ z).1.halos = r.halos.filter (fun h => decide ((σ h).z ≤ z)) := by
    rw [Prod.ext_iff] at h; exact h.1
  have h2 : (r.splitAtZ σ z).2.halos = r.halos.filter (fun h => decide (z < (σ h).z)) := by
    rw [Prod.ext_iff] at h; exact h.2
  refine ⟨h1, h2, ?_⟩
  rw [h1, h2]
  have hp := List.filter_append_perm (fun h => decide ((σ h).z ≤ z)) r.halos
  have : (r.halos.filter fun h => !decide ((σ h).z ≤ z))
      = r.halos.filter fun h => decide (z < (σ h).z) := by
    apply List.filter_congr; intro o _; rw [Bool.eq_iff_iff]; simp
  rwa [this] at hp

/-- C07.  Joining the two parts gives back all halos, in either order. -/
theorem c07_split_join (σ : Heap) (r : Realization) (z : ℝ) (jc : Bool)
    (hd : DistinctTags σ r) :
    (((r.splitAtZ σ z).1.join σ (r.splitAtZ σ z).2 jc).halos).Perm r.halos ∧
    (((r.splitAtZ σ z).2.join σ (r.splitAtZ σ z).1 jc).halos).Perm r.halos := by
  obtain ⟨h1, h2, hp⟩ := c07_split_partition σ r z
  have key : ∀ p q : Realization, (p.halos ++ q.halos).Perm r.halos →
      (p.join σ q jc).halos.Perm r.halos := by
    intro p q hpq
    have hpair : (p.halos ++ q.halos).Pairwise fun a b => (σ a).tag ≠ (σ b).tag :=
      (hpq.pairwise_iff (fun h => h.symm)).2 hd
    have hdisj := (List.pairwise_append.1 hpair).2.2
    rw [join_halos]
    split
    · have : (p.halos.filter fun h => !decide ((σ h).tag ∈ Realization.tags σ q.halos))
          = p.halos := by
        rw [List.filter_eq_self]
        intro x hx
        simp only [Bool.not_eq_true', decide_eq_false_iff_not, Realization.tags, List.mem_map,
          not_exists, not_and]
        intro y hy e
        exact hdisj x hx y hy e.symm
      rw [this]
      exact List.perm_append_comm.trans hpq
    · have : (q.halos.filter fun h => !decide ((σ h).tag ∈ Realization.tags σ p.halos))
          = q.halos := by
        rw [List.filter_eq_self]
        intro x hx
        simp only [Bool.not_eq_true', decide_eq_false_iff_not, Realization.tags, List.mem_map,
          not_exists, not_and]
        intro y hy e
        exact hdisj y hy x hx e
      rw [this]
      exact hpq
  exact ⟨key _ _ hp, key _ _ (List.perm_append_comm.trans hp)⟩

/-- C07 on the demo, split exactly at the lens plane. -/
example : (Demo.real.splitAtZ Demo.heap (1 / 2)).1.halos = [0, 1, 3] ∧
    (Demo.real.splitAtZ Demo.heap (1 / 2)).2.halos = [2] ∧ DistinctTags Demo.heap Demo.real := by
  obtain ⟨h1, h2, -⟩ := c07_split_partition Demo.heap Demo.real (1 / 2)
  rw [h1, h2]
  refine ⟨?_, ?_, ?_⟩
  · simp [Demo.real, Realization.fromHalos, Demo.heap, Demo.mk]; norm_num
  · simp [Demo.real, Realization.fromHalos, Demo.heap, Demo.mk]; norm_num
  · simp [DistinctTags, Demo.real, Realization.fromHalos, Demo.heap, Demo.mk]

/-! ## C08 -/

/-- C08.  The three counting routines add up to the number of halos, the number at `z` agrees with
`halos_at_z`, and the number before `z` does not decrease when `z` grows. -/
theorem c08_counts (σ : Heap) (r : Realization) (z : ℝ) :
    r.numBefore σ z + r.numAt σ z + r.numAfter σ z = r.halos.length ∧
    r.numAt σ z = (r.halosAtZ σ z).1.length ∧
    (∀ z', z ≤ z' → r.numBefore σ z ≤ r.numBefore σ z' ∧ r.numAfter σ z' ≤ r.numAfter σ z) := by
  have hb : ∀ z, r.numBefore σ z = r.halos.countP fun h => decide ((σ h).z < z) := by
    intro z; simpa [Realization.numBefore] using foldl_count (fun h => (σ h).z < z) r.halos 0
  have ha : ∀ z, r.numAfter σ z = r.halos.countP fun h => decide ((σ h).z > z) := by
    intro z; simpa [Realization.numAfter] using foldl_count (fun h => (σ h).z > z) r.halos 0
  have he : r.numAt σ z = r.halos.countP fun h => decide ((σ h).z = z) := by
    simpa [Realization.numAt] using foldl_count (fun h => (σ h).z = z) r.halos 0
  refine ⟨?_, ?_, fun z' hz => ⟨?_, ?_⟩⟩
  · rw [hb, ha, he]
    clear ha hb he
    induction r.halos with
    | nil => simp
    | cons a t ih =>
      simp only [List.countP_cons, List.length_cons]
      rcases lt_trichotomy (σ a).z z with h | h | h
      · have h2 : ¬ (σ a).z = z := ne_of_lt h
        have h3 : ¬ (σ a).z > z := by linarith
        simp [h, h2, not_lt.2 (le_of_lt h)] at ih ⊢; omega
      · have h1 : ¬ (σ a).z < z := by linarith
        have h3 : ¬ (σ a).z > z := by linarith
        simp [h] at ih ⊢; omega
      · have h1 : ¬ (σ a).z < z := by linarith
        have h2 : ¬ (σ a).z = z := ne_of_gt h
        simp [h, h2, h1] at ih ⊢; omega
  · rw [he, halosAtZ_fst, List.countP_eq_length_filter]
  · rw [hb, hb]
    apply List.countP_mono_left
    intro o _ h
    simp at h ⊢
    linarith
  · rw [ha, ha]
    apply List.countP_mono_left
    intro o _ h
    simp at h ⊢
    linarith

/-- C08 on the demo: one halo before, two in and one behind the lens plane. -/
example : Demo.real.numBefore Demo.heap (1 / 2) = 1 ∧ Demo.real.numAt Demo.heap (1 / 2) = 2 ∧
    Demo.real.numAfter Demo.heap (1 / 2) = 1 := by
  simp [Realization.numBefore, Realization.numAt, Realization.numAfter, Demo.real,
    Realization.fromHalos, Demo.heap, Demo.mk]
  norm_num

/-! ## C11 -/

/-- C11.  The arrays of a freshly built realization have one entry per halo, in order, and the list
of redshifts is strictly increasing and contains exactly the redshifts of the halos. -/
theorem c11_arrays_describe_halos (σ : Heap) (halos lc kw msc rcs cx cy g) :
    let r := Realization.fromHalos σ halos lc kw msc rcs cx cy g
    r.halos = halos ∧
    (∀ i : ℕ, r.masses[i]? = (halos[i]?).map fun h => (σ h).mass) ∧
    (∀ i : ℕ, r.xs[i]? = (halos[i]?).map fun h => (σ h).x) ∧
    (∀ i : ℕ, r.ys[i]? = (halos[i]?).map fun h => (σ h).y) ∧
    (∀ i : ℕ, r.r3d[i]? = (halos[i]?).map fun h => (σ h).r3d) ∧
    (∀ i : ℕ, r.redshifts[i]? = (halos[i]?).map fun h => (σ h).z) ∧
    (∀ i : ℕ, r.mdefs[i]? = (halos[i]?).map fun h => (σ h).mdef) ∧
    (∀ i : ℕ, r.haloTags[i]? = (halos[i]?).map fun h => (σ h).tag) ∧
    (∀ i : ℕ, r.subhaloFlags[i]? = (halos[i]?).map fun h => (σ h).isSubhalo) ∧
    r.uniqueRedshifts.Pairwise (· < ·) ∧
    (∀ z, z ∈ r.uniqueRedshifts ↔ ∃ h ∈ halos, (σ h).z = z) := by
  have hf := fresh_fromHalos σ halos lc kw msc rcs cx cy g
  refine ⟨rfl, ?_, ?_, ?_, ?_, ?_, ?_, ?_, ?_, hf.zsIncreasing, hf.zsMem⟩ <;>
    · intro i; simp [Realization.fromHalos]

/-- C11 on the demo realization. -/
example : Demo.real.masses = [100, 1000, 10, 50] ∧ (1 / 4 : ℝ) ∈ Demo.real.uniqueRedshifts := by
  refine ⟨by simp [Demo.real, Realization.fromHalos, Demo.heap, Demo.mk], ?_⟩
  have hf : Fresh Demo.heap Demo.real := fresh_fromHalos ..
  exact (hf.zsMem _).2 ⟨1, by simp [Demo.real, Realization.fromHalos], rfl⟩

/-! ## C14 -/

/-- C14.  `a == b` holds exactly when every tag of `b` is a tag of `a`. -/
theorem c14_eq_iff (σ : Heap) (a b : Realization) :
    a.eqRealization σ b = true ↔ ∀ t, HasTag σ b t → HasTag σ a t := by
  have hmemtags : ∀ (q : Realization) t, t ∈ Realization.tags σ q.halos ↔ HasTag σ q t := by
    intro q t; simp [Realization.tags, HasTag]
  unfold Realization.eqRealization
  rw [List.all_eq_true]
  simp only [decide_eq_true_eq, hmemtags]

/-- C14.  Equality is reflexive and transitive. -/
theorem c14_eq_refl_trans (σ : Heap) (a b c : Realization) :
    a.eqRealization σ a = true ∧
    (a.eqRealization σ b = true → b.eqRealization σ c = true → a.eqRealization σ c = true) := by
  simp only [c14_eq_iff]
  exact ⟨fun _ h => h, fun h1 h2 t ht => h1 t (h2 t ht)⟩

/-- C14, disagreement with the documentation ("equality if they contain the same halos"):
equality is not symmetric.  The demo realization equals its selection `[1]`, not conversely. -/
theorem c14_eq_not_symmetric :
    ∃ (σ : Heap) (a b : Realization),
      a.eqRealization σ b = true ∧ b.eqRealization σ a = false := by
  refine ⟨Demo.heap, Demo.real, Demo.real.rebuild Demo.heap [1], ?_, ?_⟩
  · simp [Realization.eqRealization, Realization.tags, Demo.real, Realization.fromHalos,
      Realization.rebuild]
  · simp [Realization.eqRealization, Realization.tags, Demo.real, Realization.fromHalos,
      Realization.rebuild, Demo.heap, Demo.mk]

/-- C14.  A realization compares equal to everything obtained from it by dropping halos. -/
theorem c14_eq_sublist (σ : Heap) (a b : Realization) (h : b.halos.Sublist a.halos) :
    a.eqRealization σ b = true := by
  rw [c14_eq_iff]
  rintro t ⟨o, ho, rfl⟩
  exact ⟨o, h.subset ho, rfl⟩

/-! ## C15 -/

theorem foldl_pairs {α β : Type} (p : α → Prop) [DecidablePred p] (l : List (α × β))
    (acc : List α × List β) :
    l.foldl (fun (acc : List α × List β) hi =>
      if p hi.1 then (acc.1 ++ [hi.1], acc.2 ++ [hi.2]) else acc) acc
    = (acc.1 ++ (l.filter fun hi => decide (p hi.1)).map Prod.fst,
       acc.2 ++ (l.filter fun hi => decide (p hi.1)).map Prod.snd) := by
  induction l generalizing acc with
  | nil => simp
  | cons a t ih =>
    simp only [List.foldl_cons, ih]
    by_cases h : p a.1 <;> simp [h]

theorem halosAtZ_pairs (σ : Heap) (z : ℝ) (l pre : List Oid) :
    let p := Realization.halosAtZFrom σ z pre.length l
    ∀ hi ∈ p.1.zip p.2, (pre ++ l)[hi.2]? = some hi.1 := by
  induction l generalizing pre with
  | nil => simp [Realization.halosAtZFrom]
  | cons a t ih =>
    have h := ih (pre ++ [a])
    simp only [List.length_append, List.length_singleton, List.append_assoc,
      List.singleton_append] at h
    simp only [Realization.halosAtZFrom]
    by_cases hz : (σ a).z = z
    · simp only [hz, ne_eq, not_true_eq_false, if_false, List.zip_cons_cons, List.mem_cons]
      rintro hi (rfl | hh)
      · simp
      · exact h hi hh
    · simpa [hz] using h

/-- C15.  `realization_at_z` returns, in order, the halos at redshift `z` strictly closer than
`max_range` to the given position (all halos at `z` if no range is given); position `k` of the
returned index list points to the `k`-th returned halo in the original realization, and the
indexes increase strictly. -/
theorem c15_realization_at_z (σ : Heap) (r : Realization) (z cx cy : ℝ) (R : Option ℝ)
    (msc : Bool) :
    let out := r.realizationAtZ σ z cx cy R msc
    out.1.halos = r.halos.filter (fun h => decide ((σ h).z = z ∧
      ∀ R', R = some R' → dist2 (σ h).x (σ h).y cx cy < R')) ∧
    out.2.length = out.1.halos.length ∧
    (∀ (k : ℕ) (o : Oid) (i : ℕ), out.1.halos[k]? = some o → out.2[k]? = some i → r.halos[i]? = some o) ∧
    out.2.Pairwise (· < ·) ∧ Fresh σ out.1 := by
  have hfst := halosAtZ_fst σ r z
  have hsnd := halosAtZ_snd σ r z
  have hlen : (r.halosAtZ σ z).1.length = (r.halosAtZ σ z).2.length := by
    have : ∀ (i : ℕ) (l : List Oid), (Realization.halosAtZFrom σ z i l).1.length
        = (Realization.halosAtZFrom σ z i l).2.length := by
      intro i l
      induction l generalizing i with
      | nil => rfl
      | cons a t ih =>
        simp only [Realization.halosAtZFrom]
        by_cases h : (σ a).z = z <;> simp [h, ih]
    exact this 0 r.halos
  have hpairs := halosAtZ_pairs σ z r.halos []
  simp only [List.length_nil, List.nil_append] at hpairs
  have hinc : (r.halosAtZ σ z).2.Pairwise (· < ·) := by rw [hsnd]; exact Np.pairwise_whereTrue _
  cases R with
  | none =>
    refine ⟨?_, hlen.symm, ?_, hinc, ?_⟩
    · show (r.halosAtZ σ z).1 = _
      rw [hfst]; simp
    · intro k o i ho hi
      have ho' : (r.halosAtZ σ z).1[k]? = some o := ho
      have hi' : (r.halosAtZ σ z).2[k]? = some i := hi
      apply hpairs (o, i)
      apply List.mem_of_getElem? (i := k)
      rw [List.getElem?_zip_eq_some]
      exact ⟨ho', hi'⟩
    · have hf := fresh_rebuild σ r (r.halosAtZ σ z).1
      exact ⟨hf.masses, hf.xs, hf.ys, hf.redshifts, hf.flags, hf.zsIncreasing, hf.zsMem⟩
  | some R =>
    set near : Oid → Prop := fun o =>
      Real.sqrt (((σ o).x - cx) ^ 2 + ((σ o).y - cy) ^ 2) < R with hnear
    set L := ((r.halosAtZ σ z).1.zip (r.halosAtZ σ z).2).filter (fun hi => decide (near hi.1))
      with hL
    have hq : ((r.halosAtZ σ z).1.zip (r.halosAtZ σ z).2).foldl
        (fun (acc : List Oid × List ℕ) hi =>
          if Real.sqrt (((σ hi.1).x - cx) ^ 2 + ((σ hi.1).y - cy) ^ 2) < R
          then (acc.1 ++ [hi.1], acc.2 ++ [hi.2]) else acc) ([], [])
        = (L.map Prod.fst, L.map Prod.snd) := by
      have := foldl_pairs near ((r.halosAtZ σ z).1.zip (r.halosAtZ σ z).2) ([], [])
      simpa using this
    have hh : (r.realizationAtZ σ z cx cy (some R) msc).1.halos = L.map Prod.fst := by
      rw [Prod.ext_iff] at hq; exact hq.1
    have hi : (r.realizationAtZ σ z cx cy (some R) msc).2 = L.map Prod.snd := by
      rw [Prod.ext_iff] at hq; exact hq.2
    refine ⟨?_, ?_, ?_, ?_, ?_⟩
    · rw [hh, hL]
      have hfm : (((r.halosAtZ σ z).1.zip (r.halosAtZ σ z).2).filter
          (fun hi => decide (near hi.1))).map Prod.fst
          = (((r.halosAtZ σ z).1.zip (r.halosAtZ σ z).2).map Prod.fst).filter
            (fun o => decide (near o)) := by
        rw [List.filter_map]; rfl
      rw [hfm, List.map_fst_zip (le_of_eq hlen), hfst, List.filter_filter]
      apply List.filter_congr
      intro o _
      rw [Bool.eq_iff_iff]
      simp [hnear, dist2, and_comm]
    · rw [hh, hi]; simp
    · intro k o i ho hi'
      rw [hh] at ho
      rw [hi] at hi'
      rw [List.getElem?_map] at ho hi'
      cases hk : L[k]? with
      | none => simp [hk] at ho
      | some q =>
        simp [hk] at ho hi'
        have hq' : q ∈ L := List.mem_of_getElem? hk
        have := hpairs q (List.mem_filter.1 hq').1
        rw [← ho, ← hi']; exact this
    · rw [hi, hL]
      have : ((((r.halosAtZ σ z).1.zip (r.halosAtZ σ z).2).filter
          (fun hi => decide (near hi.1))).map Prod.snd).Sublist (r.halosAtZ σ z).2 := by
        have h1 := (List.filter_sublist (p := fun hi : Oid × ℕ => decide (near hi.1))
          (l := (r.halosAtZ σ z).1.zip (r.halosAtZ σ z).2)).map Prod.snd
        rwa [List.map_snd_zip (le_of_eq hlen.symm)] at h1
      exact hinc.sublist this
    · have hf := fresh_rebuild σ r (List.foldl
        (fun (acc : List Oid × List ℕ) hi =>
          if Real.sqrt (((σ hi.1).x - cx) ^ 2 + ((σ hi.1).y - cy) ^ 2) < R
          then (acc.1 ++ [hi.1], acc.2 ++ [hi.2]) else acc) ([], [])
        ((r.halosAtZ σ z).1.zip (r.halosAtZ σ z).2)).1
      exact ⟨hf.masses, hf.xs, hf.ys, hf.redshifts, hf.flags, hf.zsIncreasing, hf.zsMem⟩

/-- C15 on the demo: the two objects of the lens plane have indexes 0 and 3. -/
example : (Demo.real.realizationAtZ Demo.heap (1 / 2) 0 0 none true).1.halos = [0, 3] ∧
    (Demo.real.realizationAtZ Demo.heap (1 / 2) 0 0 none true).2 = [0, 3] := by
  simp [Realization.realizationAtZ, Realization.halosAtZ, Realization.halosAtZFrom,
    Realization.rebuild, Demo.real, Realization.fromHalos, Demo.heap, Demo.mk]
  norm_num

end PyHalo.Props
