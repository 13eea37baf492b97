import Verif.Props.Populations

/-!
# C40, C74: primordial black holes and structure that follows the halos
-/

namespace PyHalo.Props
open PyHalo PyHalo.Spec PyHalo.Pop

/-- C40.  The fractions of the smooth and the clustered component add up to the requested fraction, and each
lies between zero and that fraction. -/
theorem c40_fractions (f fh : ℝ) (hf : 0 ≤ f) (h0 : 0 ≤ fh) (h1 : fh ≤ 1) :
    (pbhFractions f fh).1 + (pbhFractions f fh).2 = f ∧
    (0 ≤ (pbhFractions f fh).1 ∧ (pbhFractions f fh).1 ≤ f) ∧
    (0 ≤ (pbhFractions f fh).2 ∧ (pbhFractions f fh).2 ≤ f) := by
  simp only [pbhFractions]
  refine ⟨by ring, ⟨mul_nonneg (by linarith) hf, by nlinarith⟩, ⟨mul_nonneg hf h0, by nlinarith⟩⟩

example := c40_fractions 0.5 0.25 (by norm_num) (by norm_num) (by norm_num)

/-- Non-vacuity: half of the dark matter, a quarter of it in halos. -/
example : (pbhFractions (1 / 2) (1 / 4)).1 = 3 / 8 ∧ (pbhFractions (1 / 2) (1 / 4)).2 = 1 / 8 := by
  norm_num [pbhFractions]

theorem exp_logNormal (μ s : ℝ) :
    Real.exp (Real.log ((10 : ℝ) ^ μ) + Real.log ((10 : ℝ) ^ s) ^ 2 / 2) = logNormalMean μ s :=
  gcMeanMass_eq ⟨μ, s, 0, "", 0, 0, 0, 0, 0⟩

/-- C40.  For both mass functions the smooth component is drawn with a Poisson mean such that mean number times
mean mass is density times volume. -/
theorem c40_smooth_mean (logM sigma volume rho : ℝ) (hρ : 0 ≤ rho) (hV : 0 ≤ volume) (pois : ℕ) (nrm : ℕ → ℝ) :
    (∃ d : DeltaFn, pbhSmooth "DELTA" logM sigma volume rho pois nrm = d.draw pois ∧
      d.draw pois = .ok (List.replicate pois ((10 : ℝ) ^ logM)) ∧ d.nMean * (10 : ℝ) ^ logM = rho * volume) ∧
    (∃ g : GaussianMF, pbhSmooth "GAUSSIAN" logM sigma volume rho pois nrm = g.draw pois nrm ∧
      g.draw pois nrm = .ok ((List.range pois).map fun i => (10 : ℝ) ^ (logM + sigma * nrm i)) ∧
      g.n * logNormalMean logM sigma = rho * volume) := by
  have hm : (0 : ℝ) < (10 : ℝ) ^ logM := by positivity
  have hl := logNormalMean_pos logM sigma
  refine ⟨⟨⟨(10 : ℝ) ^ logM, volume, rho, true⟩, ?_, ?_, ?_⟩, ⟨⟨volume * rho / logNormalMean logM sigma, logM, sigma, true⟩, ?_, ?_, ?_⟩⟩
  · simp [pbhSmooth]
  · have : ¬ (DeltaFn.nMean ⟨(10 : ℝ) ^ logM, volume, rho, true⟩ < 0) := by
      simp only [DeltaFn.nMean, not_lt]; positivity
    simp only [DeltaFn.draw, if_true]
    rw [if_neg this]
  · simp only [DeltaFn.nMean]
    field_simp
  · rw [pbhSmooth, if_neg (by decide), if_pos rfl, exp_logNormal]
  · have : ¬ (volume * rho / logNormalMean logM sigma < 0) := not_lt.mpr (by positivity)
    simp only [GaussianMF.draw, if_true]
    rw [if_neg this]
  · simp only
    field_simp

example := c40_smooth_mean 6 0.3 100 (10 ^ 5) (by norm_num) (by norm_num) 3 (fun _ => 0.5)

/-- C40.  Likewise for the clustered component: mean number times mean mass is the mass fraction of the mass in
the area, and the original halos are to be scaled with the rest. -/
theorem c40_clustered_mean (fraction logM sigma area : ℝ) (h0 : 0 ≤ fraction) (ha : 0 ≤ area) (pois : ℕ)
    (nrm : ℕ → ℝ) :
    (∃ d : DeltaFn, d.nMean * (10 : ℝ) ^ logM = fraction * area ∧ ∃ m, d.draw pois = .ok m ∧
      correlatedMasses "DELTA_FUNCTION" fraction logM sigma area true pois nrm = .ok (m, 1 - fraction)) ∧
    (∃ g : GaussianMF, g.n * logNormalMean logM sigma = fraction * area ∧ ∃ m, g.draw pois nrm = .ok m ∧
      correlatedMasses "GAUSSIAN" fraction logM sigma area true pois nrm = .ok (m, 1 - fraction)) ∧
    (∀ kind, kind ≠ "DELTA_FUNCTION" → kind ≠ "GAUSSIAN" →
      ∃ e, correlatedMasses kind fraction logM sigma area true pois nrm = .error e) := by
  have hm : (0 : ℝ) < (10 : ℝ) ^ logM := by positivity
  have hl := logNormalMean_pos logM sigma
  refine ⟨⟨⟨(10 : ℝ) ^ logM, 1, fraction * area, true⟩, ?_, List.replicate pois ((10 : ℝ) ^ logM), ?_, ?_⟩,
    ⟨⟨fraction * area / logNormalMean logM sigma, logM, sigma, true⟩, ?_,
      (List.range pois).map fun i => (10 : ℝ) ^ (logM + sigma * nrm i), ?_, ?_⟩, ?_⟩
  · simp only [DeltaFn.nMean]; field_simp
  · have : ¬ (DeltaFn.nMean ⟨(10 : ℝ) ^ logM, 1, fraction * area, true⟩ < 0) := by
      simp only [DeltaFn.nMean, not_lt]; positivity
    simp only [DeltaFn.draw, if_true]
    rw [if_neg this]
  · have : ¬ (DeltaFn.nMean ⟨(10 : ℝ) ^ logM, 1, fraction * area, true⟩ < 0) := by
      simp only [DeltaFn.nMean, not_lt]; positivity
    rw [correlatedMasses, if_pos rfl]
    simp only [DeltaFn.draw, if_true]
    rw [if_neg this]
    rfl
  · simp only
    field_simp
  · have : ¬ (fraction * area / logNormalMean logM sigma < 0) := not_lt.mpr (by positivity)
    simp only [GaussianMF.draw, if_true]
    rw [if_neg this]
  · have : ¬ (fraction * area / logNormalMean logM sigma < 0) := not_lt.mpr (by positivity)
    rw [correlatedMasses, if_neg (by decide), if_pos rfl]
    simp only [exp_logNormal]
    simp only [GaussianMF.draw, if_true]
    rw [if_neg this]
    rfl
  · intro kind h1 h2
    exact ⟨_, by rw [correlatedMasses, if_neg h1, if_neg h2]⟩

example := c40_clustered_mean 0.1 6 0.3 100 (by norm_num) (by norm_num) 3 (fun _ => 0.5)

/-! ### The smooth component -/

theorem pbhPlane_mem (ms : List ℝ) (rmax scale kpc ax ay : ℝ) (hk : kpc ≠ 0) (u v : ℕ → ℝ)
    (hv : ∀ i, 0 ≤ v i ∧ v i ≤ 1) :
    (pbhPlane ms rmax scale kpc ax ay u v).map (·.1) = ms ∧
    ∀ p ∈ pbhPlane ms rmax scale kpc ax ay u v, dist2 p.2.1 p.2.2 ax ay ≤ |rmax * scale| := by
  obtain ⟨h1, h2, h3⟩ := c21_uniform_in_disc (rmax * scale) kpc 1 ax ay ms.length u v hv
  unfold pbhPlane
  by_cases h : ms.length > 0
  · rw [if_pos h]
    set p := uniformDraw (rmax * scale) kpc 1 ax ay ms.length u v with hp
    refine ⟨?_, ?_⟩
    · simp only
      rw [List.map_fst_zip]
      simp [h1, h2]
    · intro q hq
      obtain ⟨-, hq2⟩ := List.of_mem_zip (a := q.1) (b := q.2) hq
      rw [List.zip_map, List.mem_map] at hq2
      obtain ⟨w, hw, hwq⟩ := hq2
      have := h3 w hw
      rw [← hwq]
      simp only [Prod.map_fst, Prod.map_snd]
      have hd : dist2 (w.1 / kpc) (w.2 / kpc) ax ay ^ 2 ≤ |rmax * scale| ^ 2 := by
        rw [dist2, Real.sq_sqrt (by positivity), sq_abs]
        have e : (w.1 / kpc - ax) ^ 2 + (w.2 / kpc - ay) ^ 2 = ((w.1 - ax * kpc) ^ 2 + (w.2 - ay * kpc) ^ 2) / kpc ^ 2 := by
          field_simp
        rw [e, div_le_iff₀ (by positivity)]
        nlinarith
      exact (pow_le_pow_iff_left₀ (Real.sqrt_nonneg _) (abs_nonneg _) (by norm_num)).mp hd
  · rw [if_neg h]
    have : ms = [] := by
      cases ms with
      | nil => rfl
      | cons a t => simp at h
    simp [this]

/-- The masses that the smooth component may have. -/
def PBHMass (kind : String) (logM m : ℝ) : Prop := 0 < m ∧ (kind = "DELTA" → m = (10 : ℝ) ^ logM)

theorem pbhSmooth_mem (kind : String) (logM sigma volume rho : ℝ) (pois : ℕ) (nrm : ℕ → ℝ) (ms : List ℝ)
    (h : pbhSmooth kind logM sigma volume rho pois nrm = .ok ms) :
    ms.length = pois ∧ ∀ m ∈ ms, PBHMass kind logM m := by
  unfold pbhSmooth at h
  by_cases h1 : kind = "DELTA"
  · rw [if_pos h1] at h
    simp only [DeltaFn.draw, if_true] at h
    split at h
    · simp at h
    · simp only [Except.ok.injEq] at h
      subst h
      refine ⟨by simp, fun m hm => ?_⟩
      have := (List.mem_replicate.mp hm).2
      exact ⟨by rw [this]; positivity, fun _ => this⟩
  · rw [if_neg h1] at h
    by_cases h2 : kind = "GAUSSIAN"
    · rw [if_pos h2] at h
      simp only [GaussianMF.draw, if_true] at h
      split at h
      · simp at h
      · simp only [Except.ok.injEq] at h
        subst h
        refine ⟨by simp, fun m hm => ?_⟩
        obtain ⟨i, -, rfl⟩ := List.mem_map.mp hm
        exact ⟨by positivity, fun e => absurd e h1⟩
    · rw [if_neg h2] at h
      simp at h

theorem pbhPlanes_mem (a : PBHArgs) (rmax : ℝ) (angle : ℝ → ℝ × ℝ) (d : ℕ → PBHDraw) (k : ℕ) (planes : List (ℝ × ℝ))
    (hk : ∀ p ∈ planes, a.kpc p.1 ≠ 0) (hv : ∀ k i, 0 ≤ (d k).v i ∧ (d k).v i ≤ 1) (l : List ((ℝ × ℝ × ℝ) × ℝ))
    (h : pbhPlanes a rmax angle d k planes = .ok l) :
    l.length = ((List.range planes.length).map fun j => (d (k + j)).pois).sum ∧
    ∀ q ∈ l, (∃ p ∈ planes, p.1 = q.2) ∧ PBHMass a.kind a.logM q.1.1 ∧
      dist2 q.1.2.1 q.1.2.2 (angle q.2).1 (angle q.2).2 ≤ |rmax * a.scale q.2| := by
  induction planes generalizing k l with
  | nil =>
    simp only [pbhPlanes, Except.ok.injEq] at h
    subst h; simp
  | cons p t ih =>
    obtain ⟨z, dz⟩ := p
    simp only [pbhPlanes, bind, Except.bind] at h
    split at h
    · simp at h
    · rename_i ms hms
      split at h
      · simp at h
      · rename_i ls hls
        simp only [pure, Except.pure, Except.ok.injEq] at h
        subst h
        obtain ⟨hl, hall⟩ := ih (k + 1) (fun p hp => hk p (List.mem_cons_of_mem _ hp)) ls hls
        obtain ⟨h1, h2⟩ := pbhPlane_mem ms rmax (a.scale z) (a.kpc z) (angle z).1 (angle z).2
          (hk (z, dz) List.mem_cons_self) (d k).u (d k).v (hv k)
        obtain ⟨m1, m2⟩ := pbhSmooth_mem _ _ _ _ _ _ _ ms hms
        have hlen := congrArg List.length h1
        rw [List.length_map, m1] at hlen
        refine ⟨?_, ?_⟩
        · rw [List.length_append, List.length_map, hlen, hl, List.length_cons, List.range_succ_eq_map, List.map_cons,
            List.sum_cons, List.map_map]
          congr 2
          refine List.map_congr_left fun j _ => ?_
          simp only [Function.comp_apply, Nat.succ_eq_add_one]
          rw [show k + 1 + j = k + (j + 1) by omega]
        · intro q hq
          rcases List.mem_append.mp hq with hq | hq
          · obtain ⟨w, hw, rfl⟩ := List.mem_map.mp hq
            refine ⟨⟨_, List.mem_cons_self, rfl⟩, m2 _ ?_, h2 w hw⟩
            rw [← h1]; exact List.mem_map_of_mem (f := fun x : ℝ × ℝ × ℝ => x.1) hw
          · obtain ⟨⟨p, hp, e⟩, r⟩ := hall q hq
            exact ⟨⟨p, List.mem_cons_of_mem _ hp, e⟩, r⟩

/-- C40.  The smooth component: as many objects as were drawn, over all rays and planes; each in a plane of the
realization, within the radius of one of the rays (times the rendering scale of the plane) of its position
there; with the requested mass for the delta function. -/
theorem c40_smooth (a : PBHArgs) (planes : List (ℝ × ℝ)) (d : ℕ → ℕ → PBHDraw) (i : ℕ)
    (rays : List ((ℝ → ℝ × ℝ) × ℝ)) (hk : ∀ p ∈ planes, a.kpc p.1 ≠ 0)
    (hv : ∀ j k i, 0 ≤ (d j k).v i ∧ (d j k).v i ≤ 1) (l : List ((ℝ × ℝ × ℝ) × ℝ))
    (h : pbhRays a planes d i rays = .ok l) :
    l.length = ((List.range rays.length).map fun j =>
      ((List.range planes.length).map fun k => (d (i + j) k).pois).sum).sum ∧
    ∀ q ∈ l, (∃ p ∈ planes, p.1 = q.2) ∧ PBHMass a.kind a.logM q.1.1 ∧
      ∃ ray ∈ rays, dist2 q.1.2.1 q.1.2.2 (ray.1 q.2).1 (ray.1 q.2).2 ≤ |ray.2 * a.scale q.2| := by
  induction rays generalizing i l with
  | nil =>
    simp only [pbhRays, Except.ok.injEq] at h
    subst h; simp
  | cons ray t ih =>
    obtain ⟨angle, rmax⟩ := ray
    simp only [pbhRays, bind, Except.bind] at h
    split at h
    · simp at h
    · rename_i l₁ h₁
      split at h
      · simp at h
      · rename_i l₂ h₂
        simp only [pure, Except.pure, Except.ok.injEq] at h
        subst h
        obtain ⟨hl, hall⟩ := ih (i + 1) l₂ h₂
        obtain ⟨hl₁, hall₁⟩ := pbhPlanes_mem a rmax angle (d i) 0 planes hk (hv i) l₁ h₁
        refine ⟨?_, ?_⟩
        · rw [List.length_append, hl, hl₁, List.length_cons, List.range_succ_eq_map, List.map_cons,
            List.sum_cons, List.map_map]
          simp only [zero_add, Nat.add_zero]
          congr 2
          refine List.map_congr_left fun j _ => ?_
          simp only [Function.comp_apply, Nat.succ_eq_add_one]
          rw [show i + 1 + j = i + (j + 1) by omega]
        · intro q hq
          rcases List.mem_append.mp hq with hq | hq
          · obtain ⟨e1, e2, e3⟩ := hall₁ q hq
            exact ⟨e1, e2, _, List.mem_cons_self, e3⟩
          · obtain ⟨e1, e2, ray, hr, e3⟩ := hall q hq
            exact ⟨e1, e2, ray, List.mem_cons_of_mem _ hr, e3⟩

/-! ### The clustered component -/

/-- C40, a failure: the positions drawn from the convergence map have no effect. The result depends only on the
masses and factors of the planes. -/
theorem c40_positions_ignored (factor : ℝ → ℝ) (xs ys zs : List ℝ) (d d' : RayDraw) (ht : d.tag = d'.tag)
    (hm : ∀ k z, (d.plane k z).masses = (d'.plane k z).masses) (hf : ∀ k z, (d.plane k z).factor = (d'.plane k z).factor) :
    rayObjects factor xs ys zs d = rayObjects factor xs ys zs d' := by
  have : ∀ (zs : List ℝ) (k : ℕ) (f : ℝ), renderCorrelated xs ys d.plane k zs f = renderCorrelated xs ys d'.plane k zs f := by
    intro zs
    induction zs with
    | nil => intro k f; rfl
    | cons z zs ih =>
      intro k f
      simp only [renderCorrelated, hm, hf, ih]
  simp only [rayObjects, this, ht]

theorem zipArgs_mem (ms xs ys : List ℝ) (rs : List (Option ℝ)) (ds : List String) (zs : List ℝ) (fs : List Bool)
    (q : HaloArgs) (h : q ∈ zipArgs ms xs ys rs ds zs fs) : (q.x, q.y) ∈ xs.zip ys ∧ q.mass ∈ ms := by
  induction ms generalizing xs ys rs ds zs fs with
  | nil => simp [zipArgs] at h
  | cons m ms ih =>
    match xs, ys, rs, ds, zs, fs with
    | [], _, _, _, _, _ => simp [zipArgs] at h
    | _ :: _, [], _, _, _, _ => simp [zipArgs] at h
    | _ :: _, _ :: _, [], _, _, _ => simp [zipArgs] at h
    | _ :: _, _ :: _, _ :: _, [], _, _ => simp [zipArgs] at h
    | _ :: _, _ :: _, _ :: _, _ :: _, [], _ => simp [zipArgs] at h
    | _ :: _, _ :: _, _ :: _, _ :: _, _ :: _, [] => simp [zipArgs] at h
    | x :: xs, y :: ys, r :: rs, d :: ds, z :: zs, f :: fs =>
      simp only [zipArgs, List.mem_cons] at h
      rcases h with rfl | h
      · simp
      · obtain ⟨h1, h2⟩ := ih xs ys rs ds zs fs h
        exact ⟨List.mem_cons_of_mem _ h1, List.mem_cons_of_mem _ h2⟩

theorem zipArgs_length (ms xs ys : List ℝ) (rs : List (Option ℝ)) (ds : List String) (zs : List ℝ) (fs : List Bool) :
    (zipArgs ms xs ys rs ds zs fs).length =
      min ms.length (min xs.length (min ys.length (min rs.length (min ds.length (min zs.length fs.length))))) := by
  induction ms generalizing xs ys rs ds zs fs with
  | nil => simp [zipArgs]
  | cons m ms ih =>
    match xs, ys, rs, ds, zs, fs with
    | [], _, _, _, _, _ => simp [zipArgs]
    | _ :: _, [], _, _, _, _ => simp [zipArgs]
    | _ :: _, _ :: _, [], _, _, _ => simp [zipArgs]
    | _ :: _, _ :: _, _ :: _, [], _, _ => simp [zipArgs]
    | _ :: _, _ :: _, _ :: _, _ :: _, [], _ => simp [zipArgs]
    | _ :: _, _ :: _, _ :: _, _ :: _, _ :: _, [] => simp [zipArgs]
    | x :: xs, y :: ys, r :: rs, d :: ds, z :: zs, f :: fs =>
      simp only [zipArgs, List.length_cons, ih]
      omega

theorem renderCorrelated_mem (xs ys : List ℝ) (hxy : xs.length = ys.length) (plane : ℕ → ℝ → PlaneDraw) (zs : List ℝ)
    (k : ℕ) (f : ℝ) :
    let o := renderCorrelated xs ys plane k zs f
    (∀ p ∈ o.2.1.zip o.2.2.1, p ∈ xs.zip ys) ∧ o.2.1.length = o.2.2.1.length ∧ o.2.2.2.1.length = o.2.1.length ∧
    (∃ j ≤ zs.length, o.2.1.length = j * xs.length) := by
  induction zs generalizing k f with
  | nil => exact ⟨by simp [renderCorrelated], rfl, rfl, 0, by simp, by simp [renderCorrelated]⟩
  | cons z zs ih =>
    obtain ⟨h1, h2, h3, j, hj, hlen⟩ := ih (k + 1) (plane k z).factor
    simp only [renderCorrelated]
    by_cases h : (plane k z).masses.length > 0
    · rw [if_pos h]
      refine ⟨?_, by simp [h2, hxy], by simp [h3], j + 1, by simp; omega, ?_⟩
      · intro p hp
        simp only at hp
        rw [List.zip_append hxy] at hp
        rcases List.mem_append.mp hp with hp | hp
        · exact hp
        · exact h1 p hp
      · simp only [List.length_append]
        rw [hlen]; ring
    · rw [if_neg h]
      exact ⟨h1, h2, h3, j, by simp; omega, hlen⟩

/-- C40, a failure: the clustered objects sit exactly on top of halos of the realization (of whatever plane), and
there are at most as many as planes times halos, however many masses were drawn. -/
theorem c40_clustered_positions (factor : ℝ → ℝ) (xs ys zs : List ℝ) (hxy : xs.length = ys.length) (d : RayDraw) :
    (∀ h ∈ (rayObjects factor xs ys zs d).1, (h.x, h.y) ∈ xs.zip ys ∧ PointMass h) ∧
    (rayObjects factor xs ys zs d).1.length ≤ zs.length * xs.length := by
  obtain ⟨h1, h2, h3, j, hj, hlen⟩ := renderCorrelated_mem xs ys hxy d.plane zs 0 1
  constructor
  · intro h hh
    simp only [rayObjects, List.mem_map] at hh
    obtain ⟨p, hp, rfl⟩ := hh
    have hm := List.mem_zipIdx hp
    have : p.1 ∈ correlatedArgs "PT_MASS" (renderCorrelated xs ys d.plane 0 zs 1) := by
      rw [hm.2.2]; exact List.getElem_mem _
    exact ⟨h1 _ (zipArgs_mem _ _ _ _ _ _ _ _ this).1, blackHole_pointMass ..⟩
  · simp only [rayObjects, List.length_map, List.length_zipIdx, correlatedArgs, zipArgs_length]
    have : j * xs.length ≤ zs.length * xs.length := Nat.mul_le_mul_right _ hj
    omega

example := c40_clustered_positions (fun _ => 1) [1, 2] [3, 4] [0.5, 0.7] rfl

/-- C40, a failure: with one plane, masses beyond the number of halos are lost. -/
theorem c40_clustered_lost (factor : ℝ → ℝ) (xs ys : List ℝ) (z : ℝ) (hxy : xs.length = ys.length) (d : RayDraw) :
    ((rayObjects factor xs ys [z] d).1.map (·.mass)) = (d.plane 0 z).masses.take xs.length := by
  have key : ∀ (ms xs ys : List ℝ) (zs : List ℝ) (k : ℕ), xs.length = ys.length → zs.length = xs.length →
      (((zipArgs ms xs ys (List.replicate ms.length none) (List.replicate ms.length "PT_MASS") zs
        (List.replicate ms.length false)).zipIdx k).map fun p =>
          blackHole factor p.1.mass p.1.x p.1.y p.1.z (d.tag p.2) true).map (·.mass) = ms.take xs.length := by
    intro ms
    induction ms with
    | nil => intros; simp [zipArgs]
    | cons m ms ih =>
      intro xs ys zs k h1 h2
      match xs, ys, zs with
      | [], _, _ => simp [zipArgs]
      | x :: xs, y :: ys, z :: zs =>
        simp only [List.length_cons, List.replicate_succ, zipArgs, List.zipIdx_cons, List.map_cons, List.take_succ_cons]
        rw [ih xs ys zs (k + 1) (by simpa using h1) (by simpa using h2)]
        rfl
  simp only [rayObjects, renderCorrelated, correlatedArgs]
  by_cases h : (d.plane 0 z).masses.length > 0
  · rw [if_pos h]
    simp only [List.append_nil]
    exact key _ _ _ _ _ hxy (by simp)
  · rw [if_neg h]
    have : (d.plane 0 z).masses = [] := by
      cases hm : (d.plane 0 z).masses with
      | nil => rfl
      | cons a t => simp [hm] at h
    simp [this, zipArgs]

example := c40_clustered_lost (fun _ => 1) [1, 2] [3, 4] 0.5 rfl

/-- C40, a failure: the factor for the original halos of all planes is the one of the last plane. -/
theorem c40_factor_of_last_plane (xs ys : List ℝ) (plane : ℕ → ℝ → PlaneDraw) (zs : List ℝ) (z f : ℝ) (k : ℕ) :
    (renderCorrelated xs ys plane k (zs ++ [z]) f).2.2.2.2 = (plane (k + zs.length) z).factor := by
  induction zs generalizing k f with
  | nil =>
    simp only [List.nil_append, renderCorrelated, List.length_nil, Nat.add_zero]
    split <;> rfl
  | cons w zs ih =>
    have h := ih (plane k w).factor (k + 1)
    simp only [List.cons_append, renderCorrelated, List.length_cons]
    rw [show k + (zs.length + 1) = k + 1 + zs.length by omega, ← h]
    split <;> rfl

/-- C40.  A plane with halos for which masses were drawn keeps these masses, and the rest of the mass stays with
the halos. -/
theorem c40_factor (n : ℕ) (hn : n ≠ 0) (fraction : ℝ) (draw : List ℝ) (hd : draw ≠ []) (pos : List ℝ × List ℝ) :
    (renderAtZ n fraction draw pos).masses = draw ∧ (renderAtZ n fraction draw pos).factor + fraction = 1 := by
  rw [renderAtZ, if_neg hn, if_pos (List.length_pos_iff.mpr hd)]
  exact ⟨rfl, by ring⟩

example := c40_factor 3 (by norm_num) 0.1 [10 ^ 6] (by simp) ([0.1], [0.2])

/-- C40, a failure: if nothing is drawn in the last plane, the factor is 1: no halo gives up the mass that was
put into black holes in the other planes. -/
theorem c40_not_rescaled (xs ys : List ℝ) (plane : ℕ → ℝ → PlaneDraw) (zs : List ℝ) (z f fraction : ℝ) (k n : ℕ)
    (draw : List ℝ) (pos : List ℝ × List ℝ) (hlast : plane (k + zs.length) z = renderAtZ n fraction draw pos)
    (h0 : n = 0 ∨ draw = []) :
    (renderCorrelated xs ys plane k (zs ++ [z]) f).2.2.2.2 = 1 := by
  rw [c40_factor_of_last_plane, hlast]
  rcases h0 with rfl | rfl
  · simp [renderAtZ]
  · simp only [renderAtZ]
    split <;> simp

theorem rayObjects_tag (factor : ℝ → ℝ) (xs ys zs : List ℝ) (d : RayDraw) :
    ∀ h ∈ (rayObjects factor xs ys zs d).1, ∃ i, h.tag = d.tag i := by
  intro h hh
  simp only [rayObjects, List.mem_map] at hh
  obtain ⟨p, -, rfl⟩ := hh
  exact ⟨p.2, rfl⟩

theorem rayLoop_ok (factor : ℝ → ℝ) (r : Realization) (xs ys : List ℝ) (σ₀ : Heap) (n₀ : ℕ) (ds : List RayDraw) :
    ∀ (L : List Halo) (acc : Option (Realization × ℝ)),
      (∀ h ∈ L, ∀ d ∈ ds, ∀ i, h.tag ≠ d.tag i) →
      ds.Pairwise (fun d d' => ∀ i j, d.tag i ≠ d'.tag j) →
      (acc = none ∧ L = [] ∨ ∃ A f, acc = some (A, f) ∧ A.halos.Perm (List.range' n₀ L.length)) →
      ∃ acc', rayLoop factor r xs ys (place σ₀ n₀ L) (n₀ + L.length) acc ds
          = (place σ₀ n₀ (L ++ ds.flatMap fun d => (rayObjects factor xs ys r.uniqueRedshifts d).1),
             n₀ + (L ++ ds.flatMap fun d => (rayObjects factor xs ys r.uniqueRedshifts d).1).length, acc') ∧
        (acc' = none ∧ acc = none ∧ ds = [] ∨
          ∃ A f, acc' = some (A, f) ∧
            A.halos.Perm (List.range' n₀ (L ++ ds.flatMap fun d => (rayObjects factor xs ys r.uniqueRedshifts d).1).length) ∧
            (∀ d, ds.getLast? = some d → f = (rayObjects factor xs ys r.uniqueRedshifts d).2)) := by
  induction ds with
  | nil =>
    intro L acc _ _ hacc
    refine ⟨acc, by simp [rayLoop], ?_⟩
    rcases hacc with ⟨h, rfl⟩ | ⟨A, f, h, hA⟩
    · exact Or.inl ⟨h, h, rfl⟩
    · exact Or.inr ⟨A, f, h, by simpa using hA, by simp⟩
  | cons d ds ih =>
    intro L acc hL hd hacc
    set p := rayObjects factor xs ys r.uniqueRedshifts d with hp
    have hptag := rayObjects_tag factor xs ys r.uniqueRedshifts d
    rw [← hp] at hptag
    obtain ⟨hd1, hd2⟩ := List.pairwise_cons.mp hd
    set σ' := place (place σ₀ n₀ L) (n₀ + L.length) p.1 with hσ'
    have hσ2 : σ' = place σ₀ n₀ (L ++ p.1) := place_append σ₀ n₀ L p.1
    set new := Realization.fromHalos σ' (refs (n₀ + L.length) p.1) r.lensCosmo
      ["truncation_model", "concentration_model", "kwargs_density_profile"] true [none] none none none with hnew
    have hnewh : new.halos = List.range' (n₀ + L.length) p.1.length := rfl
    set A' := (match acc with
      | none => new
      | some old => old.1.join σ' new false) with hA'
    have hA'p : A'.halos.Perm (List.range' n₀ (L ++ p.1).length) := by
      rcases hacc with ⟨h, hLn⟩ | ⟨A, f, h, hA⟩
      · rw [hA', h, hLn]
        show new.halos.Perm _
        rw [hnewh, hLn]; simp
      · rw [hA', h]
        show (A.join σ' new false).halos.Perm _
        refine (join_perm σ' A new false ?_).trans ?_
        · intro x hx y hy
          have hx' := hA.subset hx
          rw [hnewh] at hy
          rw [hσ2]
          obtain ⟨i', e'⟩ := hptag _ (map_range'_place_right σ₀ n₀ L p.1 y hy)
          rw [e']
          exact hL _ (map_range'_place σ₀ n₀ L p.1 x hx') d List.mem_cons_self i'
        · rw [hnewh, List.length_append, ← range'_append]
          exact hA.append_right _
    have hLl : ∀ h ∈ L ++ p.1, ∀ d' ∈ ds, ∀ i, h.tag ≠ d'.tag i := by
      intro h hh d' hd' i
      rcases List.mem_append.mp hh with hh | hh
      · exact hL h hh d' (List.mem_cons_of_mem _ hd') i
      · obtain ⟨j, e⟩ := hptag h hh
        rw [e]; exact hd1 d' hd' j i
    obtain ⟨acc', hloop, hacc'⟩ := ih (L ++ p.1) (some (A', p.2)) hLl hd2 (Or.inr ⟨A', p.2, rfl, hA'p⟩)
    have e1 : (L ++ (d :: ds).flatMap fun d => (rayObjects factor xs ys r.uniqueRedshifts d).1)
        = (L ++ p.1) ++ ds.flatMap fun d => (rayObjects factor xs ys r.uniqueRedshifts d).1 := by
      simp [hp]
    refine ⟨acc', ?_, ?_⟩
    · rw [e1, ← hloop]
      simp only [rayLoop]
      rw [← hp, ← hσ', ← hnew, ← hσ2, List.length_append, Nat.add_assoc]
      rcases hacc with ⟨h, -⟩ | ⟨A, f, h, -⟩ <;> simp only [hA', h]
    · rw [e1]
      rcases hacc' with ⟨-, h, -⟩ | ⟨A, f, h1, h2, h3⟩
      · simp at h
      · refine Or.inr ⟨A, f, h1, h2, ?_⟩
        intro d' hd'
        cases ds with
        | nil =>
          simp only [List.getLast?_singleton, Option.some.injEq] at hd'
          subst hd'
          have hl2 := hloop
          simp only [rayLoop, Prod.mk.injEq] at hl2
          rw [← hl2.2.2, Option.some.injEq, Prod.mk.injEq] at h1
          exact h1.2.symm
        | cons d2 ds => exact h3 d' (by simpa using hd')

/-- What structure that follows the halos does to a realization: the new realization has a copy of every
halo (not the halo itself), unchanged or scaled by one common factor, and the new objects. -/
structure Followed (σ σ' : Heap) (n : Oid) (rescale : ℝ → Halo → Halo) (f : ℝ) (objs : List Halo)
    (r r' : Realization) : Prop where
  old : ∀ k < n, σ' k = σ k
  copies : ∀ (k : ℕ) (h : Oid), r.halos[k]? = some h → σ' (n + k) = σ h ∨ σ' (n + k) = rescale f (σ h)
  new : ∀ (k : ℕ) (h : Halo), objs[k]? = some h → σ' (n + r.halos.length + k) = h
  halos : r'.halos.Perm (List.range' n (r.halos.length + objs.length))
  fresh : Fresh σ' r'
  context : SameContext r r'

/-- C74.  Adding structure that follows the halos leaves the halos of the given realization untouched: the
result has copies, of which those near a ray are scaled, and the new objects of every ray. -/
theorem c74_correlated (factor : ℝ → ℝ) (rescale : ℝ → Halo → Halo) (rescaleOn : Bool) (rmax : ℝ)
    (σ : Heap) (n : Oid) (r : Realization) (rays : List RayDraw) (hr : rays ≠ []) (hz : r.uniqueRedshifts ≠ [])
    (htag : ∀ f h, (rescale f h).tag = h.tag)
    (hold : ∀ h ∈ r.halos, ∀ d ∈ rays, ∀ i, (σ h).tag ≠ d.tag i)
    (hdis : rays.Pairwise (fun d d' => ∀ i j, d.tag i ≠ d'.tag j)) :
    ∃ (σ' : Heap) (m : Oid) (r' : Realization) (f : ℝ) (new : List Halo),
      addCorrelated factor rescale rescaleOn rmax σ n r rays = .ok (σ', m, r') ∧
      Followed σ σ' n rescale f new r r' ∧ m = n + r.halos.length + new.length ∧
      (∀ h ∈ new, PointMass h ∧ (∃ q ∈ r.halos, h.x = (σ q).x ∧ h.y = (σ q).y) ∧ ∃ d ∈ rays, ∃ i, h.tag = d.tag i) ∧
      (rescaleOn = false → ∀ (k : ℕ) (h : Oid), r.halos[k]? = some h → σ' (n + k) = σ h) ∧
      (∀ (k : ℕ) (h : Oid), r.halos[k]? = some h →
        (∀ d ∈ rays, rmax ≤ dist2 (σ h).x (σ h).y (d.angle (σ h).z).1 (d.angle (σ h).z).2) → σ' (n + k) = σ h) ∧
      (rescaleOn = true → ∀ (k : ℕ) (h : Oid), r.halos[k]? = some h → (σ h).z ∈ r.uniqueRedshifts →
        ∀ d ∈ rays, dist2 (σ h).x (σ h).y (d.angle (σ h).z).1 (d.angle (σ h).z).2 < rmax →
          σ' (n + k) = rescale f (σ h)) ∧
      (∀ d, rays.getLast? = some d → ∀ zs z, r.uniqueRedshifts = zs ++ [z] → f = (d.plane zs.length z).factor) := by
  set copies := r.halos.map σ with hc
  set xs := copies.map (·.x) with hxs
  set ys := copies.map (·.y) with hys
  set L := rays.flatMap fun d => (rayObjects factor xs ys r.uniqueRedshifts d).1 with hL
  obtain ⟨acc', hloop, hacc⟩ := rayLoop_ok factor r xs ys (place σ n copies) (n + copies.length) rays [] none
    (by simp) hdis (Or.inl ⟨rfl, rfl⟩)
  rcases hacc with ⟨-, -, h⟩ | ⟨A, f, rfl, hA, hfl⟩
  · exact absurd h hr
  rw [List.nil_append, ← hL] at hA
  simp only [List.nil_append, place_nil, List.length_nil, Nat.add_zero, ← hL] at hloop
  rw [place_append] at hloop
  have hcl : copies.length = r.halos.length := by simp [hc]
  set idx := rays.flatMap fun d => r.uniqueRedshifts.flatMap fun z =>
        rescaleIndexes σ r.halos z (d.angle z).1 (d.angle z).2 rmax with hidx
  set σ₂ : Heap := fun k =>
        if rescaleOn ∧ n ≤ k ∧ k < n + copies.length ∧ k - n ∈ idx then rescale f (place σ n (copies ++ L) k)
        else place σ n (copies ++ L) k with hσ₂
  have hLtag : ∀ h ∈ L, ∃ d ∈ rays, ∃ i, h.tag = d.tag i := by
    intro h hh
    obtain ⟨d, hd, hh⟩ := List.mem_flatMap.mp hh
    obtain ⟨i, e⟩ := rayObjects_tag _ _ _ _ _ h hh
    exact ⟨d, hd, i, e⟩
  have htag₂ : ∀ k, (σ₂ k).tag = (place σ n (copies ++ L) k).tag := by
    intro k
    simp only [hσ₂]
    split
    · exact htag _ _
    · rfl
  have hcopy : ∀ (k : ℕ) (h : Oid), r.halos[k]? = some h → place σ n (copies ++ L) (n + k) = σ h := by
    intro k h hk
    apply place_new
    have hkl := (List.getElem?_eq_some_iff.mp hk).1
    rw [List.getElem?_append_left (by omega), hc, List.getElem?_map, hk]
    rfl
  set rc : Realization := { r with halos := refs n copies } with hrc
  have hctx : SameContext r (rc.join σ₂ A false) := by
    obtain ⟨h1, h2, h3, h4, h5, h6, h7⟩ := (c06_join_context σ₂ rc A).1
    exact ⟨h1, h2, h3, h4, h5, h6, h7⟩
  refine ⟨σ₂, n + (copies.length + L.length), rc.join σ₂ A false, f, L, ?_, ⟨?_, ?_, ?_, ?_, fresh_join .., hctx⟩, ?_, ?_, ?_, ?_, ?_, ?_⟩
  · simp only [addCorrelated]
    rw [if_neg (by tauto)]
    rw [← hc, ← hxs, ← hys, hloop]
    simp only [Nat.add_assoc]
    rfl
  · intro k hk
    simp only [hσ₂]
    rw [if_neg (fun h => absurd h.2.1 (Nat.not_le.mpr hk)), place_old _ _ _ _ hk]
  · intro k h hk
    simp only [hσ₂, hcopy k h hk]
    split
    · exact Or.inr rfl
    · exact Or.inl rfl
  · intro k h hk
    have e : (n + r.halos.length + k : ℕ) = n + (copies.length + k) := by rw [hcl]; exact Nat.add_assoc _ _ _
    simp only [hσ₂]
    rw [if_neg (fun h => by
      have h1 := h.2.2.1
      rw [hcl] at h1
      exact absurd h1 (Nat.not_lt.mpr (Nat.le_add_right _ _)))]
    have := place_new σ n (copies ++ L) (copies.length + k) h (by
      rw [List.getElem?_append_right (by omega), Nat.add_sub_cancel_left]; exact hk)
    rw [← e] at this
    exact this
  · refine (join_perm σ₂ _ A false ?_).trans ?_
    · intro x hx y hy
      rw [htag₂, htag₂]
      have hx' : x ∈ List.range' n copies.length := hx
      have hy' := hA.subset hy
      have h1 := map_range'_place σ n copies L x hx'
      have h2 := map_range'_place_right σ n copies L y hy'
      obtain ⟨d, hd, i, e⟩ := hLtag _ h2
      rw [e]
      obtain ⟨q, hq, e'⟩ := List.mem_map.mp h1
      rw [← e']
      exact hold q hq d hd i
    · rw [← hcl, ← range'_append]
      exact hA.append_left _
  · rw [← hcl]; exact (Nat.add_assoc _ _ _).symm
  · intro h hh
    have ht := hLtag h hh
    obtain ⟨d, hd, hh⟩ := List.mem_flatMap.mp hh
    obtain ⟨h1, h2⟩ := (c40_clustered_positions factor xs ys r.uniqueRedshifts (by simp [hxs, hys]) d).1 h hh
    refine ⟨h2, ?_, ht⟩
    rw [hxs, hys, List.zip_map', List.mem_map] at h1
    obtain ⟨c, hcm, e⟩ := h1
    obtain ⟨q, hq, rfl⟩ := List.mem_map.mp hcm
    rw [Prod.ext_iff] at e
    exact ⟨q, hq, e.1.symm, e.2.symm⟩
  · intro hr0 k h hk
    simp only [hσ₂, hr0]
    rw [if_neg (by simp)]
    exact hcopy k h hk
  · intro k h hk hfar
    simp only [hσ₂]
    rw [if_neg, hcopy k h hk]
    rintro ⟨-, -, -, hmem⟩
    have hsub : (n + k : ℕ) - n = k := Nat.add_sub_cancel_left _ _
    have hmem' : k ∈ idx := by rw [← hsub]; exact hmem
    obtain ⟨d, hd, hmem'⟩ := List.mem_flatMap.mp hmem'
    obtain ⟨z, hz', hmem'⟩ := List.mem_flatMap.mp hmem'
    simp only [rescaleIndexes, List.mem_map, List.mem_filter, decide_eq_true_eq] at hmem'
    obtain ⟨p, ⟨hp, hpz, hpd⟩, hpk⟩ := hmem'
    obtain ⟨-, h2, h3⟩ := List.mem_zipIdx hp
    have : p.1 = h := by
      have h4 : r.halos[p.2]? = some p.1 := by
        rw [h3]; simp
      rw [hpk, hk] at h4
      exact (Option.some.inj h4).symm
    rw [this] at hpz hpd
    have := hfar d hd
    rw [hpz] at this
    rw [dist2] at this
    linarith
  · intro hon k h hk hzm d hd hnear
    simp only [hσ₂]
    have hkl := (List.getElem?_eq_some_iff.mp hk).1
    have hsub : (n + k : ℕ) - n = k := Nat.add_sub_cancel_left _ _
    rw [if_pos, hcopy k h hk]
    refine ⟨hon, Nat.le_add_right _ _, Nat.add_lt_add_left (by omega) _, ?_⟩
    show (n + k : ℕ) - n ∈ idx
    rw [hsub, hidx]
    refine List.mem_flatMap.mpr ⟨d, hd, List.mem_flatMap.mpr ⟨(σ h).z, hzm, ?_⟩⟩
    simp only [rescaleIndexes, List.mem_map, List.mem_filter, decide_eq_true_eq]
    refine ⟨(h, k), ⟨List.mk_mem_zipIdx_iff_getElem?.mpr hk, rfl, ?_⟩, rfl⟩
    simpa [dist2] using hnear
  · intro d hd zs z hzs
    rw [hfl d hd]
    simp only [rayObjects]
    rw [hzs, c40_factor_of_last_plane, zero_add]

/-- C74.  Without a ray, or for a realization without halos, adding such structure fails. -/
theorem c74_errors (factor : ℝ → ℝ) (rescale : ℝ → Halo → Halo) (rescaleOn : Bool) (rmax : ℝ) (σ : Heap) (n : Oid)
    (r : Realization) :
    addCorrelated factor rescale rescaleOn rmax σ n r [] = .error (.nameError "realization_pbh") ∧
    ∀ rays, rays ≠ [] → r.uniqueRedshifts = [] → addCorrelated factor rescale rescaleOn rmax σ n r rays = .error .indexError := by
  constructor
  · simp [addCorrelated, rayLoop]
  · intro rays h1 h2
    simp [addCorrelated, h1, h2]

/-! ### Mass in the area -/

/-- C74, a failure: for a constant convergence the mass is that of the disc times the ratio of the numbers of
pixels inside and outside the disc, rather than the mass of the disc. -/
theorem c74_mass_in_area (radius sigma kappa : ℝ) (grid : List (ℝ × ℝ)) :
    massInArea radius sigma (fun _ => kappa) grid = kappa * sigma * (Real.pi * radius ^ 2) *
      ((grid.countP fun p => decide (dist2 p.1 p.2 0 0 ≤ radius)) / (grid.countP fun p => decide (radius < dist2 p.1 p.2 0 0))) := by
  have h1 : ∀ l : List (ℝ × ℝ), ((l.map fun p : ℝ × ℝ => if Real.sqrt (p.1 ^ 2 + p.2 ^ 2) > radius then 0 else kappa).map (· * sigma)).sum
      = kappa * sigma * (l.countP fun p => decide (dist2 p.1 p.2 0 0 ≤ radius)) := by
    intro l
    induction l with
    | nil => simp
    | cons p t ih =>
      rw [List.map_cons, List.map_cons, List.sum_cons, ih, List.countP_cons]
      simp only [dist2, sub_zero]
      by_cases h : Real.sqrt (p.1 ^ 2 + p.2 ^ 2) > radius
      · rw [if_pos h, if_neg (by simpa using h)]; simp
      · rw [if_neg h, if_pos (by simpa using h)]; push_cast; ring
  simp only [massInArea]
  rw [h1, List.countP_eq_length_filter (p := fun p : ℝ × ℝ => decide (radius < dist2 p.1 p.2 0 0))]
  simp only [dist2, sub_zero, gt_iff_lt]
  ring

theorem flatMap_getElem (r : List ℝ) (l : List ℝ) (i : ℕ) (hr : 0 < r.length) :
    (l.flatMap fun y => r.map fun x => (x, y))[i]? =
      match r[i % r.length]?, l[i / r.length]? with
      | some x, some y => some (x, y)
      | _, _ => none := by
  induction l generalizing i with
  | nil =>
    have : (([] : List ℝ).flatMap fun y => r.map fun x => (x, y)) = [] := rfl
    rw [this]
    rcases r[i % r.length]? with _ | x <;> simp
  | cons a t ih =>
    rw [List.flatMap_cons]
    rcases Nat.lt_or_ge i r.length with h | h
    · rw [List.getElem?_append_left (by simpa using h), List.getElem?_map, Nat.mod_eq_of_lt h, Nat.div_eq_of_lt h,
        List.getElem?_eq_getElem h]
      simp
    · rw [List.getElem?_append_right (by simpa using h), List.length_map, ih, Nat.mod_eq_sub_mod h]
      have : i / r.length = (i - r.length) / r.length + 1 := by
        rw [Nat.div_eq_sub_div hr h]
      rw [this, List.getElem?_cons_succ]

/-- C75.  An object drawn from pixel `i` of the flattened convergence map lies (without smoothing) exactly at the
point for which pixel `i` was computed, displaced to the ray; with smoothing the offset is proportional to the
smoothing times the pixel size. An index outside the map fails. -/
theorem c75_pixel (rmax sx sy smooth n₁ n₂ : ℝ) (s i : ℕ) (hs : 0 < s) :
    (∀ p, (kappaGrid rmax s)[i]? = some p →
      correlatedDraw rmax sx sy smooth s i n₁ n₂ =
        .ok (p.1 + smooth * rmax / s * n₁ + sx, p.2 + smooth * rmax / s * n₂ + sy)) ∧
    ((kappaGrid rmax s)[i]? = none → correlatedDraw rmax sx sy smooth s i n₁ n₂ = .error .indexError) ∧
    (kappaGrid rmax s).length = s * s := by
  have hl : (Np.linspace (-rmax) rmax s).length = s := by simp [Np.linspace]
  have key := flatMap_getElem (Np.linspace (-rmax) rmax s) (Np.linspace (-rmax) rmax s) i (by omega)
  rw [hl] at key
  refine ⟨?_, ?_, ?_⟩
  · intro p hp
    rw [kappaGrid, key] at hp
    simp only [correlatedDraw]
    split at hp
    · rename_i x y hx hy
      rw [hx, hy]
      simp only [Option.some.injEq] at hp
      subst hp
      rfl
    · simp at hp
  · intro hp
    rw [kappaGrid, key] at hp
    simp only [correlatedDraw]
    split at hp
    · simp at hp
    · rename_i h
      split
      · rename_i x y hx hy
        exact absurd hy (h x y hx)
      · rfl
  · rw [kappaGrid, List.length_flatMap]
    simp only [List.length_map, hl]
    rw [List.map_const', List.sum_replicate, hl, smul_eq_mul]

example := c75_pixel 1 0.1 0.2 0.5 0.3 (-0.4) 20 7 (by norm_num)

/-- C74, a failure: with 20 pixels per axis (the fewest used) a constant convergence gives a mass more than
twice that of the disc. -/
theorem c74_mass_overestimated (radius sigma kappa : ℝ) (hr : 0 < radius) (h : 0 < kappa * sigma) :
    2 * (kappa * sigma * (Real.pi * radius ^ 2)) < massInArea radius sigma (fun _ => kappa) (kappaGrid radius 20) := by
  have hin : ∀ i j : ℕ, i < 20 → j < 20 → (dist2 (-radius + (i : ℝ) * ((radius - -radius) / ((20 : ℕ) - 1)))
      (-radius + (j : ℝ) * ((radius - -radius) / ((20 : ℕ) - 1))) 0 0 ≤ radius ↔
        (2 * (i : ℤ) - 19) ^ 2 + (2 * (j : ℤ) - 19) ^ 2 ≤ 361) := by
    intro i j _ _
    rw [dist2, Real.sqrt_le_left hr.le]
    have e : (-radius + (i : ℝ) * ((radius - -radius) / ((20 : ℕ) - 1)) - 0) ^ 2
        + (-radius + (j : ℝ) * ((radius - -radius) / ((20 : ℕ) - 1)) - 0) ^ 2
        = radius ^ 2 / 361 * ((2 * (i : ℝ) - 19) ^ 2 + (2 * (j : ℝ) - 19) ^ 2) := by
      push_cast; ring
    rw [e]
    have h2 : 0 < radius ^ 2 := by positivity
    constructor
    · intro h
      have : (2 * (i : ℝ) - 19) ^ 2 + (2 * (j : ℝ) - 19) ^ 2 ≤ 361 := by
        by_contra hc
        push Not at hc
        nlinarith
      exact_mod_cast this
    · intro h
      have : (2 * (i : ℝ) - 19) ^ 2 + (2 * (j : ℝ) - 19) ^ 2 ≤ 361 := by exact_mod_cast h
      nlinarith
  have hgrid : kappaGrid radius 20 = ((List.range 20).flatMap fun j => (List.range 20).map fun i => (i, j)).map
      fun p : ℕ × ℕ => (-radius + (p.1 : ℝ) * ((radius - -radius) / ((20 : ℕ) - 1)),
        -radius + (p.2 : ℝ) * ((radius - -radius) / ((20 : ℕ) - 1))) := by
    simp only [kappaGrid, Np.linspace, List.flatMap_map, List.map_flatMap, List.map_map]
    rfl
  have hmem : ∀ p ∈ ((List.range 20).flatMap fun j => (List.range 20).map fun i => (i, j)), p.1 < 20 ∧ p.2 < 20 := by
    intro p hp
    simp only [List.mem_flatMap, List.mem_map, List.mem_range] at hp
    obtain ⟨j, hj, i, hi, rfl⟩ := hp
    exact ⟨hi, hj⟩
  have c1 : ((kappaGrid radius 20).countP fun p => decide (dist2 p.1 p.2 0 0 ≤ radius)) = 276 := by
    rw [hgrid, List.countP_map, List.countP_congr (q := fun p : ℕ × ℕ =>
      decide ((2 * (p.1 : ℤ) - 19) ^ 2 + (2 * (p.2 : ℤ) - 19) ^ 2 ≤ 361))]
    · decide +kernel
    · intro p hp
      simp only [Function.comp_apply, decide_eq_true_eq]
      exact hin p.1 p.2 (hmem p hp).1 (hmem p hp).2
  have c2 : ((kappaGrid radius 20).countP fun p => decide (radius < dist2 p.1 p.2 0 0)) = 124 := by
    rw [hgrid, List.countP_map, List.countP_congr (q := fun p : ℕ × ℕ =>
      decide (¬ (2 * (p.1 : ℤ) - 19) ^ 2 + (2 * (p.2 : ℤ) - 19) ^ 2 ≤ 361))]
    · decide +kernel
    · intro p hp
      simp only [Function.comp_apply, decide_eq_true_eq]
      rw [← hin p.1 p.2 (hmem p hp).1 (hmem p hp).2, not_le]
  rw [c74_mass_in_area, c1, c2]
  have : 0 < kappa * sigma * (Real.pi * radius ^ 2) := by positivity
  push_cast
  nlinarith

example := c74_mass_overestimated 0.2 (10 ^ 11) 0.1 (by norm_num) (by norm_num)

/-! ### Adding primordial black holes -/

theorem pbhSmooth_ok (kind : String) (hk : kind = "DELTA" ∨ kind = "GAUSSIAN") (logM sigma volume rho : ℝ) (hρ : 0 ≤ rho) (hV : 0 ≤ volume)
    (pois : ℕ) (nrm : ℕ → ℝ) : ∃ ms, pbhSmooth kind logM sigma volume rho pois nrm = .ok ms := by
  obtain ⟨⟨d, h1, h2, -⟩, ⟨g, h3, h4, -⟩⟩ := c40_smooth_mean logM sigma volume rho hρ hV pois nrm
  rcases hk with rfl | rfl
  · exact ⟨_, h1.trans h2⟩
  · exact ⟨_, h3.trans h4⟩

theorem pbhPlanes_ok (a : PBHArgs) (hk : a.kind = "DELTA" ∨ a.kind = "GAUSSIAN")
    (hρ : 0 ≤ (pbhFractions a.fraction a.inHalos).1 * a.rho) (rmax : ℝ) (angle : ℝ → ℝ × ℝ) (d : ℕ → PBHDraw) (k : ℕ)
    (planes : List (ℝ × ℝ)) (hV : ∀ p ∈ planes, 0 ≤ a.volume (2 * rmax) p.1 p.2) :
    ∃ l, pbhPlanes a rmax angle d k planes = .ok l := by
  induction planes generalizing k with
  | nil => exact ⟨[], rfl⟩
  | cons p t ih =>
    obtain ⟨z, dz⟩ := p
    obtain ⟨l, hl⟩ := ih (k + 1) (fun p hp => hV p (List.mem_cons_of_mem _ hp))
    obtain ⟨ms, hms⟩ := pbhSmooth_ok a.kind hk a.logM a.sigma _ _ hρ (hV (z, dz) List.mem_cons_self) (d k).pois (d k).nrm
    simp only at hms
    simp only [pbhPlanes, bind, Except.bind, pure, Except.pure, hms, hl]
    exact ⟨_, rfl⟩

theorem pbhRays_ok (a : PBHArgs) (hk : a.kind = "DELTA" ∨ a.kind = "GAUSSIAN")
    (hρ : 0 ≤ (pbhFractions a.fraction a.inHalos).1 * a.rho) (planes : List (ℝ × ℝ)) (d : ℕ → ℕ → PBHDraw) (i : ℕ)
    (rays : List ((ℝ → ℝ × ℝ) × ℝ)) (hV : ∀ ray ∈ rays, ∀ p ∈ planes, 0 ≤ a.volume (2 * ray.2) p.1 p.2) :
    ∃ l, pbhRays a planes d i rays = .ok l := by
  induction rays generalizing i with
  | nil => exact ⟨[], rfl⟩
  | cons ray t ih =>
    obtain ⟨angle, rmax⟩ := ray
    obtain ⟨l, hl⟩ := ih (i + 1) (fun p hp => hV p (List.mem_cons_of_mem _ hp))
    obtain ⟨l', hl'⟩ := pbhPlanes_ok a hk hρ rmax angle (d i) 0 planes (hV (angle, rmax) List.mem_cons_self)
    simp only [pbhRays, bind, Except.bind, pure, Except.pure, hl, hl']
    exact ⟨_, rfl⟩

/-- Non-vacuity of `c40_smooth`: two planes, one ray, three and no objects. -/
example : ∃ l, pbhRays ⟨1 / 2, 6, 1 / 4, "DELTA", 0, true, fun _ => 5, fun _ => 1, fun _ _ _ => 100, 10⟩
      [(1 / 4, 1 / 4), (1 / 2, 3 / 2)] (fun _ k => ⟨if k = 0 then 3 else 0, fun _ => 0, fun _ => 0, fun _ => 1 / 2⟩) 0
      [(fun _ => (1, 1), 2)] = .ok l ∧ l.length = 3 := by
  obtain ⟨l, hl⟩ := pbhRays_ok ⟨1 / 2, 6, 1 / 4, "DELTA", 0, true, fun _ => 5, fun _ => 1, fun _ _ _ => 100, 10⟩ (Or.inl rfl)
    (by norm_num [pbhFractions])
    [(1 / 4, 1 / 4), (1 / 2, 3 / 2)] (fun _ k => ⟨if k = 0 then 3 else 0, fun _ => 0, fun _ => 0, fun _ => 1 / 2⟩) 0
    [(fun _ => (1, 1), 2)] (by intros; norm_num)
  refine ⟨l, hl, ?_⟩
  rw [(c40_smooth _ _ _ _ _ (by intros; norm_num) (by intros; norm_num) l hl).1]
  simp [List.range_succ]

theorem planeGaps_ok (zs : ℝ) (l : List ℝ) (h : l ≠ []) : ∃ g, planeGaps zs l = .ok g ∧ g.length = l.length := by
  induction l with
  | nil => exact absurd rfl h
  | cons a t ih =>
    cases t with
    | nil => exact ⟨[zs - a], rfl, rfl⟩
    | cons b t =>
      obtain ⟨g, hg, hgl⟩ := ih (by simp)
      exact ⟨(b - a) :: g, by simp [planeGaps, bind, Except.bind, pure, Except.pure, hg], by simp [hgl]⟩

/-- C74.  Adding primordial black holes to a realization with halos, for every list of rays and every random
stream: it succeeds; the halos of the given realization are untouched; the result has a copy of each, scaled by
one common factor or unchanged, and point masses: the smooth component, within the radius of a ray in one of
the planes, and the clustered component, whose objects sit on top of halos. -/
theorem c74_primordial (a : PBHArgs) (hk : a.kind = "DELTA" ∨ a.kind = "GAUSSIAN") (hf : 0 ≤ a.fraction)
    (hfh : 0 ≤ a.inHalos ∧ a.inHalos ≤ 1) (hρ : 0 ≤ a.rho) (factor : ℝ → ℝ)
    (rescale : ℝ → Halo → Halo) (htag : ∀ f h, (rescale f h).tag = h.tag) (σ : Heap) (n : Oid) (r : Realization)
    (hkpc : ∀ z ∈ r.uniqueRedshifts, a.kpc z ≠ 0) (hb : Below n r) (hz : r.uniqueRedshifts ≠ []) (rays : List ((ℝ → ℝ × ℝ) × ℝ)) (hrays : rays ≠ [])
    (hV : ∀ ray ∈ rays, ∀ z dz, 0 ≤ a.volume (2 * ray.2) z dz) (d : ℕ → ℕ → PBHDraw)
    (hv : ∀ j k i, 0 ≤ (d j k).v i ∧ (d j k).v i ≤ 1) (tag : ℕ → Tag) (cl : List RayDraw) (hcl : cl ≠ [])
    (hold : ∀ h ∈ r.halos, ∀ c ∈ cl, ∀ i, (σ h).tag ≠ c.tag i) (hold' : ∀ h ∈ r.halos, ∀ i, (σ h).tag ≠ tag i)
    (hnew : ∀ c ∈ cl, ∀ i j, c.tag i ≠ tag j) (hdis : cl.Pairwise (fun d d' => ∀ i j, d.tag i ≠ d'.tag j)) :
    ∃ (σ' : Heap) (r' : Realization) (f : ℝ) (smooth clustered : List Halo),
      addPBH a factor rescale σ n r rays d tag cl = .ok (σ', r') ∧
      (∀ k < n, σ' k = σ k) ∧
      (∀ (k : ℕ) (h : Halo), smooth[k]? = some h → σ' (n + k) = h) ∧
      (∀ (k : ℕ) (h : Oid), r.halos[k]? = some h →
        σ' (n + smooth.length + k) = σ h ∨ σ' (n + smooth.length + k) = rescale f (σ h)) ∧
      (∀ (k : ℕ) (h : Halo), clustered[k]? = some h → σ' (n + smooth.length + r.halos.length + k) = h) ∧
      r'.halos.Perm (List.range' n (smooth.length + (r.halos.length + clustered.length))) ∧
      Fresh σ' r' ∧ SameContext r r' ∧
      smooth.length = ((List.range rays.length).map fun j =>
        ((List.range r.uniqueRedshifts.length).map fun k => (d j k).pois).sum).sum ∧
      (∀ h ∈ smooth, PointMass h ∧ h.z ∈ r.uniqueRedshifts ∧ PBHMass a.kind a.logM h.mass ∧
        ∃ ray ∈ rays, dist2 h.x h.y (ray.1 h.z).1 (ray.1 h.z).2 ≤ |ray.2 * a.scale h.z|) ∧
      (∀ h ∈ clustered, PointMass h ∧ ∃ q ∈ r.halos, h.x = (σ q).x ∧ h.y = (σ q).y) := by
  obtain ⟨dz, hdz, hdzl⟩ := planeGaps_ok r.lensCosmo.zSource r.uniqueRedshifts hz
  have hρ' : 0 ≤ (pbhFractions a.fraction a.inHalos).1 * a.rho :=
    mul_nonneg (c40_fractions _ _ hf hfh.1 hfh.2).2.1.1 hρ
  obtain ⟨l, hl⟩ := pbhRays_ok a hk hρ' (r.uniqueRedshifts.zip dz) d 0 rays (fun ray hr p _ => hV ray hr p.1 p.2)
  obtain ⟨hll, hlm⟩ := c40_smooth a (r.uniqueRedshifts.zip dz) d 0 rays (fun p hp => hkpc p.1 (List.of_mem_zip hp).1) hv l hl
  set objs := l.zipIdx.map fun p => blackHole factor p.1.1.1 p.1.1.2.1 p.1.1.2.2 p.1.2 (tag p.2) true with hobjs
  have hotag : ∀ h ∈ objs, ∃ i, h.tag = tag i := by
    intro h hh
    obtain ⟨p, -, rfl⟩ := List.mem_map.mp hh
    exact ⟨p.2, rfl⟩
  set σ₁ := place σ n objs with hσ₁
  have hσ₁h : ∀ h ∈ r.halos, σ₁ h = σ h := fun h hh => place_old σ n objs h (hb h hh)
  obtain ⟨rmax, hlast⟩ : ∃ p, rays.getLast? = some p := by
    cases h : rays.getLast? with
    | none => exact absurd (List.getLast?_eq_none_iff.mp h) hrays
    | some p => exact ⟨p, rfl⟩
  obtain ⟨σ', m, rc, f, new, hadd, hF, -, hnewm, -⟩ := c74_correlated factor rescale a.rescaleOn rmax.2 σ₁ (n + objs.length) r cl
    hcl hz htag (fun h hh c hc i => by rw [hσ₁h h hh]; exact hold h hh c hc i) hdis
  set smooth := Realization.fromHalos σ₁ (refs n objs) r.lensCosmo
    ["truncation_model", "concentration_model", "kwargs_density_profile"] false [none] none none none with hsm
  have hctx : SameContext r (rc.join σ' smooth false) := by
    obtain ⟨h1, h2, h3, h4, h5, h6, h7⟩ := (c06_join_context σ' rc smooth).1
    obtain ⟨g1, g2, g3, g4, g5, g6, g7⟩ := hF.context
    exact ⟨h1.trans g1, h2.trans g2, h3.trans g3, h4.trans g4, h5.trans g5, h6.trans g6, h7.trans g7⟩
  have hsmk : ∀ (k : ℕ) (h : Halo), objs[k]? = some h → σ' (n + k) = h := by
    intro k h hk'
    have hkl := (List.getElem?_eq_some_iff.mp hk').1
    rw [hF.old (n + k) (Nat.add_lt_add_left hkl n)]
    exact place_new σ n objs k h hk'
  refine ⟨σ', rc.join σ' smooth false, f, objs, new, ?_, ?_, hsmk, ?_, hF.new, ?_, fresh_join .., hctx, ?_, ?_, ?_⟩
  · simp only [addPBH, bind, Except.bind, pure, Except.pure, throw, throwThe, MonadExceptOf.throw, hdz, hl, hlast]
    rw [if_neg (by tauto)]
    rw [← hobjs, ← hσ₁, hadd]
  · intro k hk'
    rw [hF.old k (Nat.lt_of_lt_of_le hk' (Nat.le_add_right _ _))]
    exact place_old σ n objs k hk'
  · intro k h hk'
    have := hF.copies k h hk'
    rwa [hσ₁h h (List.mem_of_getElem? hk')] at this
  · refine (join_perm σ' rc smooth false ?_).trans ?_
    · intro x hx y hy
      have hx' := hF.halos.subset hx
      have hy' : y ∈ List.range' n objs.length := hy
      rw [List.mem_range'_1] at hx' hy'
      obtain ⟨j, rfl⟩ : ∃ j : ℕ, y = (n + j : ℕ) := ⟨y - n, by
        have h1 := hy'.1
        exact (Nat.add_sub_cancel' h1).symm⟩
      obtain ⟨i, rfl⟩ : ∃ i : ℕ, x = (n + objs.length + i : ℕ) := ⟨x - (n + objs.length), (Nat.add_sub_cancel' hx'.1).symm⟩
      have hj : j < objs.length := Nat.lt_of_add_lt_add_left hy'.2
      have hi : i < r.halos.length + new.length := Nat.lt_of_add_lt_add_left hx'.2
      rw [hsmk j _ (List.getElem?_eq_getElem hj)]
      obtain ⟨t, ht⟩ := hotag _ (List.getElem_mem hj)
      rw [ht]
      rcases Nat.lt_or_ge i r.halos.length with h | h
      · have hq := hF.copies i _ (List.getElem?_eq_getElem h)
        have hmem := List.getElem_mem h
        rcases hq with hq | hq
        · rw [hq, hσ₁h _ hmem]; exact hold' _ hmem t
        · rw [hq, htag, hσ₁h _ hmem]; exact hold' _ hmem t
      · obtain ⟨i', rfl⟩ : ∃ i', i = r.halos.length + i' := ⟨i - r.halos.length, by omega⟩
        have hi' : i' < new.length := by omega
        have hq := hF.new i' _ (List.getElem?_eq_getElem hi')
        obtain ⟨-, -, c, hc, t', ht'⟩ := hnewm _ (List.getElem_mem hi')
        rw [← Nat.add_assoc, hq, ht']
        exact hnew c hc t' t
    · rw [← range'_append]
      exact (List.perm_append_comm).trans (hF.halos.append_left _)
  · rw [hobjs, List.length_map, List.length_zipIdx, hll, List.length_zip, hdzl, min_self]
    simp only [zero_add]
  · intro h hh
    obtain ⟨p, hp, rfl⟩ := List.mem_map.mp hh
    have hpl : p.1 ∈ l := by
      rw [(List.mem_zipIdx hp).2.2]; exact List.getElem_mem _
    obtain ⟨⟨q, hq, hqz⟩, h2, h3⟩ := hlm p.1 hpl
    refine ⟨blackHole_pointMass .., ?_, h2, h3⟩
    show p.1.2 ∈ _
    rw [← hqz]
    exact (List.of_mem_zip (a := q.1) (b := q.2) hq).1
  · intro h hh
    obtain ⟨h1, ⟨q, hq, h2, h3⟩, -⟩ := hnewm h hh
    rw [hσ₁h q hq] at h2 h3
    exact ⟨h1, q, hq, h2, h3⟩

/-- Non-vacuity of C74: the four demonstration halos, one ray with radius 1 and one plane with drawn masses. -/
example : ∃ (σ' : Heap) (r' : Realization) (f : ℝ) (new : List Halo),
    addCorrelated (fun _ => 1) (fun f h => { h with mass := f * h.mass }) true 1 Demo.heap 10 Demo.real
      [⟨fun _ _ => ⟨[5, 6], [0, 0], [0, 0], 1 / 2⟩, fun _ => (0, 0), fun i => 100 + i⟩] = .ok (σ', 10 + 4 + new.length, r') ∧
    Followed Demo.heap σ' 10 (fun f h => { h with mass := f * h.mass }) f new Demo.real r' := by
  obtain ⟨σ', m, r', f, new, h, hF, hm, -⟩ := c74_correlated (fun _ => 1) (fun f h => { h with mass := f * h.mass }) true 1
    Demo.heap 10 Demo.real [⟨fun _ _ => ⟨[5, 6], [0, 0], [0, 0], 1 / 2⟩, fun _ => (0, 0), fun i => 100 + i⟩] (by simp) (by
      intro h
      have h0 : Fresh Demo.heap Demo.real := fresh_fromHalos ..
      have := (h0.zsMem (1 / 2)).mpr ⟨0, by simp [Demo.real, Realization.fromHalos], rfl⟩
      rw [h] at this
      simp at this) (fun _ _ => rfl) (by
      intro h hh c hc i
      simp only [List.mem_singleton] at hc
      subst hc
      simp only [Demo.real, Realization.fromHalos, List.mem_cons, List.not_mem_nil, or_false] at hh
      rcases hh with rfl | rfl | rfl | rfl <;> simp only [Demo.heap, Demo.mk] <;> exact Nat.ne_of_lt (Nat.lt_of_lt_of_le (by decide) (Nat.le_add_right 100 _)))
    (List.pairwise_singleton _ _)
  exact ⟨σ', r', f, new, by rw [h, hm]; rfl, hF⟩

end PyHalo.Props
