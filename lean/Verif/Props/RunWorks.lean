import Verif.Props.Run

/-!
# Whole calls succeed

The second half of C90: a call with admissible arguments raises nothing, whatever the random numbers.
-/

namespace PyHalo.Props
open PyHalo.Run Preset Spec

theorem draw_ok {W : Run.World} {i k : ℕ} {p : PowerLaw} (hp : 0 ≤ p.norm) (t : Option (ℝ → ℝ)) :
    ∃ l, drawFrom W i k p t = .ok l := by
  obtain ⟨l, hl, -⟩ := c19_draw_succeeds p (W.pois i k) (W.mass i k) (nMean_nonneg p hp)
  cases t with
  | none => exact ⟨l, hl⟩
  | some f => exact ⟨_, c20_suppressed_draws p f _ _ _ l hl⟩

theorem massFnOf_ok {W : Run.World} {i k : ℕ} {x : Except Err (PowerLaw × Option (ℝ → ℝ))} {p : PowerLaw}
    {t : Option (ℝ → ℝ)} (hx : x = .ok (p, t)) (hp : 0 ≤ p.norm) : ∃ l, (massFnOf W i x).draw k = .ok l := by
  subst hx
  exact draw_ok hp t

/-- A spatial distribution that never fails. -/
def NeverFails (s : Spatial) : Prop := ∀ k n z, ∃ p, s k n z = .ok p

theorem positions_ok {s : Spatial} (hs : NeverFails s) (kpc : ℝ → ℝ) (k : ℕ) (z : ℝ) (n : ℕ) :
    ∃ p, renderPositionsAtZ s kpc k z n = .ok p := by
  obtain ⟨p, hp⟩ := hs k n z
  unfold renderPositionsAtZ
  rw [hp]
  simp only [bind, Except.bind]
  split <;> exact ⟨_, rfl⟩

theorem losLoop_works {c : LosClass} (hs : NeverFails c.spatial) : ∀ (pl : List (ℝ × ℝ)) (k : ℕ) (acc),
    (∀ k z dz, (z, dz) ∈ pl → ∃ m, (c.massFn z dz).draw k = .ok m) → ∃ o, c.loop k pl acc = .ok o
  | [], k, acc, _ => ⟨acc, rfl⟩
  | (z, dz) :: t, k, (m0, x0, y0, z0), h => by
    obtain ⟨m, hm⟩ := h k z dz (List.mem_cons_self ..)
    obtain ⟨p, hp⟩ := positions_ok hs c.kpc k z m.length
    simp only [LosClass.loop, hm, hp, bind, Except.bind]
    exact losLoop_works hs t _ _ (fun k z dz hz => h k z dz (List.mem_cons_of_mem _ hz))

theorem los_works {c : LosClass} (hs : NeverFails c.spatial)
    (h : ∀ k z dz, (z, dz) ∈ c.planes.zip c.deltaZ → ∃ m, (c.massFn z dz).draw k = .ok m) : ∃ o, c.render = .ok o := by
  obtain ⟨o, ho⟩ := losLoop_works hs (c.planes.zip c.deltaZ) 0 ([], [], [], []) h
  unfold LosClass.render
  rw [ho]
  exact ⟨_, rfl⟩

/-! ## Volumes and the two-halo term are not negative -/

theorem volumeIntegrand_nonneg {W : Run.World} {kc : ℕ} (h1 : 0 ≤ W.hubble kc) (h2 : ∀ z, 0 ≤ W.efunc kc z) (g : Geometry)
    (r z : ℝ) : 0 ≤ volumeIntegrand W kc g r z := by
  unfold volumeIntegrand Geometry.comovingArea
  have := h2 z
  positivity

theorem volumeElement_nonneg {W : Run.World} {kc : ℕ} (h1 : 0 ≤ W.hubble kc) (h2 : ∀ z, 0 ≤ W.efunc kc z) (g : Geometry)
    (z dz : ℝ) (hd : 0 ≤ dz) : 0 ≤ volumeElement W kc g z dz := by
  unfold volumeElement
  simp only
  split
  · exact intervalIntegral.integral_nonneg (by linarith) fun t _ => volumeIntegrand_nonneg h1 h2 g _ t
  · exact mul_nonneg (volumeIntegrand_nonneg h1 h2 g _ z) hd

theorem boostIntegrand_nonneg {W : Run.World} {kc : ℕ} {m z r200 r : ℝ} (h : 0 ≤ W.twoHaloTerm kc r m z) (hr : 0 ≤ r)
    (h2 : 0 ≤ r200) (lazar : Bool) : 0 ≤ boostIntegrand W kc m z r200 lazar r := by
  unfold boostIntegrand lazarTerm
  split
  · have : 0 ≤ (r / r200 / 5) ^ (-4 : ℝ) := Real.rpow_nonneg (by positivity) _
    positivity
  · exact h

theorem twoHaloBoost_ok {W : Run.World} {kc : ℕ} {z dz m r200 : ℝ} (h : ∀ r, 0.5 ≤ r → r ≤ (W.dist kc).DCt (z + dz) - (W.dist kc).DCt z → 0 ≤ W.twoHaloTerm kc r m z)
    (h2 : 0 ≤ r200) (lazar : Bool) {scale : ℝ} (hs : 0 ≤ scale)
    (hd : 0.5 < (W.dist kc).DCt (z + dz) - (W.dist kc).DCt z) :
    ∃ b, twoHaloBoost W kc z dz m r200 lazar scale = .ok b ∧ 0 ≤ b := by
  unfold twoHaloBoost
  simp only
  rw [min_eq_right hd.le, if_neg hd.ne']
  refine ⟨_, rfl, ?_⟩
  have : 0 ≤ ∫ r in (0.5 : ℝ)..(W.dist kc).DCt (z + dz) - (W.dist kc).DCt z, boostIntegrand W kc m z r200 lazar r :=
    intervalIntegral.integral_nonneg hd.le fun r hr => boostIntegrand_nonneg (h r hr.1 hr.2) (by linarith [hr.1]) h2 lazar
  have h3 : 0 < (W.dist kc).DCt (z + dz) - (W.dist kc).DCt z - 0.5 := by linarith
  positivity

theorem argmin_loop (z : ℝ) : ∀ (t pre : List ℝ) (s : ℕ × ℕ × ℝ) (p : ℝ), pre.length = s.1 + 1 → pre[s.2.1]? = some p →
    s.2.2 = |p - z| → (∀ q ∈ pre, |p - z| ≤ |q - z|) → (∀ (j : ℕ) q, j < s.2.1 → pre[j]? = some q → |p - z| < |q - z|) →
    ∃ p', (pre ++ t)[(t.foldl (fun (s : ℕ × ℕ × ℝ) b =>
      (s.1 + 1, if |b - z| < s.2.2 then (s.1 + 1, |b - z|) else s.2)) s).2.1]? = some p' ∧
      (∀ q ∈ pre ++ t, |p' - z| ≤ |q - z|) ∧ ∀ (j : ℕ) q, j < (t.foldl (fun (s : ℕ × ℕ × ℝ) b =>
      (s.1 + 1, if |b - z| < s.2.2 then (s.1 + 1, |b - z|) else s.2)) s).2.1 → (pre ++ t)[j]? = some q → |p' - z| < |q - z|
  | [], pre, s, p, _, h2, _, h4, h5 => ⟨p, by simpa using h2, by simpa using h4, by simpa using h5⟩
  | b :: t, pre, s, p, h1, h2, h3, h4, h5 => by
    have hlt : s.2.1 < pre.length := (List.getElem?_eq_some_iff.1 h2).1
    rw [List.foldl_cons, show pre ++ b :: t = (pre ++ [b]) ++ t by simp]
    by_cases hb : |b - z| < s.2.2
    · refine argmin_loop z t (pre ++ [b]) (s.1 + 1, if |b - z| < s.2.2 then (s.1 + 1, |b - z|) else s.2) b (by simp [h1]) ?_ ?_ ?_ ?_
      · rw [if_pos hb]; simp [← h1]
      · rw [if_pos hb]
      · intro q hq
        rcases List.mem_append.1 hq with hq | hq
        · exact (hb.trans_eq h3).le.trans (h4 q hq)
        · simp at hq; rw [hq]
      · rw [if_pos hb]
        intro j q hj hq
        simp only [← h1] at hj
        rw [List.getElem?_append_left hj] at hq
        exact (hb.trans_eq h3).trans_le (h4 q (List.mem_of_getElem? hq))
    · refine argmin_loop z t (pre ++ [b]) (s.1 + 1, if |b - z| < s.2.2 then (s.1 + 1, |b - z|) else s.2) p (by simp [h1]) ?_ ?_ ?_ ?_
      · rw [if_neg hb, List.getElem?_append_left hlt]; exact h2
      · rw [if_neg hb]; exact h3
      · intro q hq
        rcases List.mem_append.1 hq with hq | hq
        · exact h4 q hq
        · simp at hq; rw [hq, ← h3]; exact not_lt.1 hb
      · rw [if_neg hb]
        intro j q hj hq
        rw [List.getElem?_append_left (hj.trans hlt)] at hq
        exact h5 j q hj hq

/-- The plane of the two-halo term is the first of those nearest to the lens. -/
theorem nearestPlane_spec (z : ℝ) (l : List ℝ) (hl : l ≠ []) : ∃ i p, nearestPlane z l = .ok i ∧ l[i]? = some p ∧
    (∀ q ∈ l, |p - z| ≤ |q - z|) ∧ ∀ (j : ℕ) q, j < i → l[j]? = some q → |p - z| < |q - z| := by
  cases l with
  | nil => exact absurd rfl hl
  | cons a t =>
    obtain ⟨p, h1, h2, h3⟩ := argmin_loop z t [a] (0, 0, |a - z|) a rfl rfl rfl (by simp) (by simp)
    exact ⟨_, p, rfl, h1, h2, h3⟩

/-! ## The populations -/

/-- The conditions on what a call gets from outside. -/
structure WorldOk (W : Run.World) (kc : ℕ) : Prop where
  hubble : 0 ≤ W.hubble kc
  efunc : ∀ z, 0 ≤ W.efunc kc z
  r200 : ∀ m z, 0 ≤ W.hostR200 kc m z

theorem los_norm {fit : ℝ → ℝ → ℝ × ℝ} {v : ℝ} {kw : Kwargs} {lo hi d n p : ℝ}
    (h1 : kw "delta_power_law_index" = some (.num d)) (h2 : kw "LOS_normalization" = some (.num n))
    (h3 : kw "m_pivot" = some (.num p)) (hn : 0 ≤ n) (hp : 0 ≤ p) (hv : 0 ≤ v) :
    ∃ q, losPowerLaw fit v kw (some lo) (some hi) = .ok q ∧ 0 ≤ q.norm := by
  refine ⟨⟨lo, hi, (losAmplitude (fit lo hi).1 (fit lo hi).2 d n v p).1,
    (match kw "draw_poisson" with | some (.bool b) => b | _ => true),
    (losAmplitude (fit lo hi).1 (fit lo hi).2 d n v p).2⟩, ?_, ?_⟩
  · simp only [losPowerLaw, Kwargs.num, h1, h2, h3, bind, Except.bind, pure, Except.pure]
    rfl
  · unfold losAmplitude
    simp only
    have : 0 ≤ p ^ ((fit lo hi).1 + d) := Real.rpow_nonneg hp _
    positivity

/-- The entries of a dictionary for field halos. -/
structure LosKw (kw : Kwargs) (lo hi : Val) : Prop where
  lo : kw "log_mlow" = some lo
  hi : kw "log_mhigh" = some hi
  delta : ∃ d, kw "delta_power_law_index" = some (.num d)
  norm : ∃ n, kw "LOS_normalization" = some (.num n) ∧ 0 ≤ n
  pivot : ∃ p, kw "m_pivot" = some (.num p) ∧ 0 ≤ p

theorem losModel_works {W : Run.World} {S : Setup} (hW : WorldOk W S.kc) {c : Cls}
    (hc : c ∈ [.named "ShethTormen", .named "ShethTormenTurnover", .named "ShethTormenMixedWDM"]) {kw : Kwargs} {vl vh : Val}
    (hk : LosKw kw vl vh) (ht : ∃ t, turnoverOf c kw = .ok t) (z dz lo hi : ℝ) (hd : 0 ≤ dz) :
    ∃ p t, losModel W S c kw z dz lo hi = .ok (p, t) ∧ 0 ≤ p.norm := by
  obtain ⟨d, h1⟩ := hk.delta
  obtain ⟨n, h2, hn⟩ := hk.norm
  obtain ⟨p, h3, hp⟩ := hk.pivot
  obtain ⟨t, ht⟩ := ht
  obtain ⟨q, hq, hq'⟩ := los_norm (fit := massFit W S.kc z p) (lo := lo) (hi := hi) h1 h2 h3 hn hp
    (volumeElement_nonneg hW.hubble hW.efunc S.geometry z dz hd)
  refine ⟨q, t, ?_, hq'⟩
  unfold losModel
  rw [if_neg (not_not.mpr hc)]
  simp [Kwargs.num, h3, hq, ht, bind, Except.bind, pure, Except.pure]

theorem limit_ok {W : Run.World} {kw : Kwargs} {key : String} {v : Val} (h : kw key = some v)
    (hv : (∃ x, v = .num x) ∨ ∃ m kc l, v = .minMass m kc l) : ∃ f, limit W kw key = .ok f := by
  unfold limit
  rw [h]
  rcases hv with ⟨x, rfl⟩ | ⟨m, kc, l, rfl⟩
  · exact ⟨_, rfl⟩
  · exact ⟨_, rfl⟩

theorem coneSpatial_works {W : Run.World} {i : ℕ} {zl zs cone angle : ℝ} {type : String} {kc : ℕ} {g : Geometry}
    (hg : geometryOf W zl zs cone type kc = .ok g) :
    ∃ s, flatSpatial W i (.named "LensConeUniform") (Kwargs.ofList [("cone_opening_angle", .num angle), ("geometry",
      .geometry zl zs cone type kc)]) = .ok s ∧ NeverFails s := by
  unfold flatSpatial
  simp only [ofList_cons, String.reduceEq, if_true, if_false, hg, bind, Except.bind, Kwargs.num, pure, Except.pure]
  exact ⟨_, rfl, fun k n z => ⟨_, rfl⟩⟩

theorem losPop_works {W : Run.World} {S : Setup} (hW : WorldOk W S.kc) {lazar : Bool} {scale : ℝ} {planes gaps : List ℝ} {i : ℕ}
    {mc sc : Cls} {mkw skw : Kwargs} {vl vh : Val} (hk : LosKw mkw vl vh)
    (hvl : (∃ x, vl = .num x) ∨ ∃ m kc l, vl = .minMass m kc l) (hvh : ∃ x, vh = .num x)
    (hc : mc ∈ [.named "ShethTormen", .named "ShethTormenTurnover", .named "ShethTormenMixedWDM"])
    (ht : ∃ t, turnoverOf mc mkw = .ok t) (hs : ∃ s, flatSpatial W i sc skw = .ok s ∧ NeverFails s) (hG : ∀ g ∈ gaps, 0 ≤ g) :
    ∃ o, population W S lazar scale planes gaps i "LINE_OF_SIGHT" mc mkw sc skw = .ok o := by
  obtain ⟨s, hs, hs'⟩ := hs
  obtain ⟨lo, hlo⟩ := limit_ok (W := W) hk.lo hvl
  obtain ⟨hi, hhi⟩ := limit_ok (W := W) hk.hi (.inl hvh)
  unfold population
  rw [if_neg (by decide), hs]
  simp only [bind, Except.bind, true_or, if_true, losClassOf, hlo, hhi, pure, Except.pure]
  refine los_works hs' ?_
  intro k z dz hz
  obtain ⟨p, t, hp, hp'⟩ := losModel_works hW hc hk ht z dz (lo z) (hi z) (hG _ (List.of_mem_zip hz).2)
  exact massFnOf_ok hp hp'

theorem twoHaloPop_works {W : Run.World} {S : Setup} (hW : WorldOk W S.kc) {lazar : Bool} {scale : ℝ} (hsc : 0 ≤ scale)
    {planes gaps : List ℝ} {i : ℕ}
    {mc sc : Cls} {mkw skw : Kwargs} {vl vh : Val} (hk : LosKw mkw vl vh)
    (hvl : (∃ x, vl = .num x) ∨ ∃ m kc l, vl = .minMass m kc l) (hvh : ∃ x, vh = .num x)
    (hc : mc ∈ [.named "ShethTormen", .named "ShethTormenTurnover", .named "ShethTormenMixedWDM"])
    (ht : ∃ t, turnoverOf mc mkw = .ok t) (hs : ∃ s, flatSpatial W i sc skw = .ok s ∧ NeverFails s)
    (hhost : ∃ m, twoHaloHost mkw = .ok m) (hP : planes ≠ []) (hl : gaps.length = planes.length)
    (hG : ∀ g ∈ gaps, 0 ≤ g)
    (hnear : ∀ (i : ℕ) p g, planes[i]? = some p → gaps[i]? = some g → (∀ q ∈ planes, |p - S.zLens| ≤ |q - S.zLens|) →
      0.5 < (W.dist S.kc).DCt (S.zLens + g) - (W.dist S.kc).DCt S.zLens ∧
      ∀ r m, 0.5 ≤ r → r ≤ (W.dist S.kc).DCt (S.zLens + g) - (W.dist S.kc).DCt S.zLens → 0 ≤ W.twoHaloTerm S.kc r m S.zLens) :
    ∃ o, population W S lazar scale planes gaps i "TWO_HALO" mc mkw sc skw = .ok o := by
  obtain ⟨s, hs, hs'⟩ := hs
  obtain ⟨lo, hlo⟩ := limit_ok (W := W) hk.lo hvl
  obtain ⟨hi, hhi⟩ := limit_ok (W := W) hk.hi (.inl hvh)
  obtain ⟨m, hm⟩ := hhost
  obtain ⟨j, pj, hj, hpj, hmin, -⟩ := nearestPlane_spec S.zLens planes hP
  have hj' : j < planes.length := (List.getElem?_eq_some_iff.1 hpj).1
  have hgj : item gaps j = .ok (gaps[j]'(by omega)) := by
    rw [item_ok, List.getElem?_eq_getElem]
  have g1 := hG (gaps[j]'(by omega)) (List.getElem_mem _)
  obtain ⟨g2, g3⟩ := hnear j pj _ hpj (List.getElem?_eq_getElem (by omega)) hmin
  obtain ⟨b, hb, hb'⟩ := twoHaloBoost_ok (fun r => g3 r m) (hW.r200 m S.zLens) lazar hsc g2
  obtain ⟨n, hn, hn'⟩ := hk.norm
  have hset : twoHaloSetup W S lazar scale planes gaps mkw =
      .ok (gaps[j]'(by omega), mkw.set "LOS_normalization" (.num (n * b))) := by
    unfold twoHaloSetup
    simp [hm, hj, hgj, hb, Kwargs.num, hn, bind, Except.bind, pure, Except.pure]
  have hk' : LosKw (mkw.set "LOS_normalization" (.num (n * b))) vl vh := by
    refine ⟨?_, ?_, ?_, ⟨n * b, by simp [Kwargs.set], mul_nonneg hn' hb'⟩, ?_⟩
    · simpa [Kwargs.set] using hk.lo
    · simpa [Kwargs.set] using hk.hi
    · simpa [Kwargs.set] using hk.delta
    · simpa [Kwargs.set] using hk.pivot
  obtain ⟨p, t, hp, hp'⟩ := losModel_works hW hc hk' (by rw [turnoverOf_set]; exact ht) S.zLens (gaps[j]'(by omega)) (lo S.zLens)
    (hi S.zLens) g1
  obtain ⟨l, hl⟩ := massFnOf_ok (W := W) (i := i) (k := 0) hp hp'
  obtain ⟨q, hq⟩ := positions_ok hs' (W.kpc S.kc) 0 S.zLens l.length
  unfold population
  rw [if_neg (by decide), hs]
  simp only [bind, Except.bind, String.reduceEq, or_self, if_false, if_true, hset]
  rw [set_limit _ _ _ _ _ (by decide), set_limit _ _ _ _ _ (by decide), hlo, hhi]
  simp only [twoHaloRender, hl, hq, bind, Except.bind]
  exact ⟨_, rfl⟩

theorem subPop_works {W : Run.World} {S : Setup} {lazar : Bool} {scale : ℝ} {planes gaps : List ℝ} {i : ℕ}
    {mc sc : Cls} {mkw skw : Kwargs} {vl vh : Val} (h1 : mkw "log_mlow" = some vl) (h2 : mkw "log_mhigh" = some vh)
    (hvl : (∃ x, vl = .num x) ∨ ∃ m kc l, vl = .minMass m kc l) (hvh : ∃ x, vh = .num x)
    (ht : ∃ t, turnoverOf mc mkw = .ok t)
    (ha : ∃ q, subAmplitude mkw S.zLens (W.kpc S.kc S.zLens) S.geometry.openingAngle = .ok q ∧ 0 ≤ q.2)
    (hs : ∃ s, subSpatial W i S.zLens sc skw = .ok s ∧ ∀ n, ∃ p, subPositions s (W.kpc S.kc S.zLens) n = .ok p) :
    ∃ o, population W S lazar scale planes gaps i "SUBHALOS" mc mkw sc skw = .ok o := by
  obtain ⟨s, hs, hs'⟩ := hs
  obtain ⟨lo, hlo⟩ := limit_ok (W := W) h1 hvl
  obtain ⟨hi, hhi⟩ := limit_ok (W := W) h2 (.inl hvh)
  obtain ⟨t, ht⟩ := ht
  obtain ⟨q, hq, hq'⟩ := ha
  have hm : ∃ p, subModel W S mc mkw (lo S.zLens) (hi S.zLens) = .ok (p, t) ∧ 0 ≤ p.norm := by
    refine ⟨⟨lo S.zLens, hi S.zLens, q.1, (match mkw "draw_poisson" with | some (.bool b) => b | _ => true), q.2⟩, ?_, hq'⟩
    simp only [subModel, subPowerLaw, hq, ht, bind, Except.bind, pure, Except.pure]
    rfl
  obtain ⟨p, hp, hp'⟩ := hm
  obtain ⟨l, hl⟩ := massFnOf_ok (W := W) (i := i) (k := 0) hp hp'
  obtain ⟨x, hx⟩ := hs' l.length
  unfold population
  rw [if_pos rfl]
  simp only [hs, hlo, hhi, bind, Except.bind, subhalosRender, hl, hx]
  exact ⟨_, rfl⟩

/-- If every population can be rendered, so can all. -/
theorem render_works {W : Run.World} {S : Setup} {scale : ℝ} {r : Request} {P G : List ℝ}
    (hP : lensPlanes (some S.zLens) S.zSource r.planeSpacing = .ok (P, G))
    (h : ∀ p ∈ r.populations.zipIdx, ∃ o, populationAt W S scale r P G p = .ok o) :
    ∃ out, render W S scale r = .ok out := by
  have : ∃ qs : List PopOut, r.populations.zipIdx.map (populationAt W S scale r P G) = qs.map .ok := by
    generalize r.populations.zipIdx = l at h
    induction l with
    | nil => exact ⟨[], rfl⟩
    | cons p t ih =>
      obtain ⟨o, ho⟩ := h p (List.mem_cons_self ..)
      obtain ⟨qs, hqs⟩ := ih fun q hq => h q (List.mem_cons_of_mem _ hq)
      exact ⟨o :: qs, by rw [List.map_cons, List.map_cons, ho, hqs]⟩
  obtain ⟨qs, hqs⟩ := this
  obtain ⟨o, ho⟩ := c16_population_total qs
  have hal : ∀ c ∈ r.populations.zipIdx.map (populationAt W S scale r P G), ∀ q, c = .ok q → Aligned q := by
    intro c hc q hq
    obtain ⟨p, -, rfl⟩ := List.mem_map.1 hc
    obtain ⟨mc, mkw, sc, skw, -, -, -, -, hq⟩ := populationAt_ok hq
    exact population_aligned hq
  rw [← hqs] at ho
  obtain ⟨-, -, h2, -⟩ := c16_population _ _ hal ho
  obtain ⟨hs, hs', -⟩ := c17_swapped r.mdefSub r.mdefField o h2
  refine ⟨hs, ?_⟩
  unfold render renderMasses
  rw [hP]
  simp only [bind, Except.bind]
  rw [ho]
  exact hs'

theorem planes_ok {zl zs : ℝ} {spacing : Option ℝ} (h0 : 0 < zl) (hl : zl < zs) (hs : ∀ s, spacing = some s → 0 < s) :
    ∃ P G, lensPlanes (some zl) zs spacing = .ok (P, G) ∧ P ≠ [] ∧ G.length = P.length ∧ ∀ g ∈ G, 0 ≤ g := by
  have hs' : 0 < spacing.getD 0.02 := by
    cases spacing with
    | none => norm_num
    | some s => exact hs s rfl
  obtain ⟨P, G, h1, h2, -, -, h3, h4, -⟩ := c18_lens_planes_partial zl zs (spacing.getD 0.02) hs' h0 hl
  refine ⟨P, G, ?_, List.ne_nil_of_mem h3, h2.symm, h4⟩
  rw [← h1]
  cases spacing <;> rfl

theorem subPositions_flat (f : ℕ → List ℝ × List ℝ) (kpc : ℝ) (n : ℕ) :
    ∃ p, subPositions (.flat fun n => .ok (f n)) kpc n = .ok p := by
  unfold subPositions
  simp only [bind, Except.bind, pure, Except.pure]
  split <;> exact ⟨_, rfl⟩

theorem subPositions_threeD {d : ℕ → Except Err (List ℝ × List ℝ × List ℝ)} (kpc : ℝ) {n : ℕ} {x y r : List ℝ}
    (h : d n = .ok (x, y, r)) : ∃ p, subPositions (.threeD d) kpc n = .ok p := by
  unfold subPositions
  simp only [h, bind, Except.bind, pure, Except.pure]
  split <;> exact ⟨_, rfl⟩

theorem uniform_works {W : Run.World} {i : ℕ} {zl zs cone rmax z kpc : ℝ} {type : String} {kc : ℕ} {g : Geometry} {kw : Kwargs}
    (hg : geometryOf W zl zs cone type kc = .ok g) (h1 : kw "geometry" = some (.geometry zl zs cone type kc))
    (h2 : kw "rmax2d_arcsec" = some (.num rmax)) :
    ∃ s, subSpatial W i z (.named "Uniform") kw = .ok s ∧ ∀ n, ∃ p, subPositions s kpc n = .ok p := by
  refine ⟨.flat fun n => .ok (uniformDraw rmax (W.kpc kc z) 1 0 0 n (W.angle i 0) (W.radius i 0)), ?_,
    fun n => subPositions_flat _ _ _⟩
  unfold subSpatial flatSpatial
  rw [if_pos (.inl rfl), h1]
  simp only [hg, bind, Except.bind]
  rw [if_neg (by simp), if_pos trivial]
  simp only [Kwargs.num, h2, pure, Except.pure]

theorem nfw_works {W : Run.World} (hW : Variates W) {i : ℕ} {kw : Kwargs} {zl zs rmax m z c core kpc : ℝ}
    {kc : ℕ} (hH : HostOk W kc m z rmax) (hcore : 0 < core)
    (h1 : kw "lens_cosmo" = some (.lensCosmo zl zs kc)) (h2 : kw "m_host" = some (.num m))
    (h3 : kw "zlens" = some (.num z)) (h4 : kw "rmax2d_arcsec" = some (.num rmax))
    (h5 : kw "r_core_units_rs" = some (.num core)) (h6 : kw "c_host" = some (.num c)) :
    ∃ s, subSpatial W i z (.named "ProjectedNFW") kw = .ok s ∧ ∀ n, ∃ p, subPositions s kpc n = .ok p := by
  unfold subSpatial
  rw [if_neg (by simp), if_pos rfl]
  unfold projectedNFW
  rw [h1]
  simp only [Kwargs.num, h2, h3, h4, h5, h6, bind, Except.bind, pure, Except.pure]
  have hrs : 0 < W.hostRs kc m c z * 1000 / W.kpc kc z := div_pos (by linarith [mul_pos (hH.rs c) (by norm_num : (0:ℝ) < 1000)]) hH.kpc
  refine ⟨_, rfl, fun n => ?_⟩
  set p0 : ProjNFW := ⟨rmax, W.hostR200 kc m z * 1000 / W.kpc kc z, W.kpc kc z,
    W.density2d (W.hostRs kc m c z * 1000 / W.kpc kc z) (core * (W.hostRs kc m c z * 1000 / W.kpc kc z)),
    W.density3d (W.hostRs kc m c z * 1000 / W.kpc kc z) (core * (W.hostRs kc m c z * 1000 / W.kpc kc z))⟩ with hp0
  have hg : GoodNFW p0 := ⟨hH.rmaxPos, hH.r200, hH.kpc, fun r hr => hH.d2 _ _ r hrs (mul_pos hcore hrs) hr,
    fun r hr => hH.d3 _ _ r hrs (mul_pos hcore hrs) hr⟩
  obtain ⟨X, Y, R, e, -⟩ := c57_projected_nfw_partial p0 hg n (W.radius i 0) (W.angle i 0) (W.radius3d i 0)
    (fun n => ⟨(hW.radius i 0 n).1, (hW.radius i 0 n).2.le⟩) (fun n => ⟨(hW.radius3d i 0 n).1, (hW.radius3d i 0 n).2.le⟩)
  exact subPositions_threeD _ e

theorem subSpatial_works {W : Run.World} (hV : Variates W) {i : ℕ} {zl zs cone host rTidal c : ℝ} {spatial type : String} {kc : ℕ}
    {g : Geometry} (hg : geometryOf W zl zs cone type kc = .ok g) {sp : Cls} {spKw : Kwargs}
    (h : spatialPart spatial cone host zl c rTidal (.geometry zl zs cone type kc) (.lensCosmo zl zs kc) = .ok (sp, spKw))
    (hH : spatial = "PROJECTED_NFW" → 0 < rTidal ∧ HostOk W kc (10 ^ host) zl (cone / 2)) :
    ∃ s, subSpatial W i zl sp spKw = .ok s ∧ ∀ n, ∃ p, subPositions s (W.kpc kc zl) n = .ok p := by
  unfold spatialPart at h
  by_cases hu : spatial = "UNIFORM"
  · rw [if_pos hu] at h
    cases h
    exact uniform_works (rmax := cone / 2) hg (by simp [ofList_cons]) (by simp [ofList_cons])
  · rw [if_neg hu] at h
    by_cases hn : spatial = "PROJECTED_NFW"
    · rw [if_pos hn] at h
      cases h
      obtain ⟨ht, hH⟩ := hH hn
      refine nfw_works (zl := zl) (zs := zs) (c := c) hV hH ht ?_ ?_ ?_ ?_ ?_ ?_ <;> simp [ofList_cons]
    · rw [if_neg hn] at h
      cases h

/-- The two-halo term needs a slice of more than half a megaparsec behind the lens; its width is that of the plane nearest
to the lens. There the matter must be correlated with the host, not anticorrelated. -/
def Spec90.apart (W : Run.World) (kc : ℕ) (zl zs : ℝ) (spacing : Option ℝ) : Prop :=
  ∀ P G, lensPlanes (some zl) zs spacing = .ok (P, G) → ∀ (i : ℕ) p g, P[i]? = some p → G[i]? = some g →
    (∀ q ∈ P, |p - zl| ≤ |q - zl|) → 0.5 < (W.dist kc).DCt (zl + g) - (W.dist kc).DCt zl ∧
      ∀ r m, 0.5 ≤ r → r ≤ (W.dist kc).DCt (zl + g) - (W.dist kc).DCt zl → 0 ≤ W.twoHaloTerm kc r m zl

theorem norm_nonneg {x y : Option ℝ} {s : ℝ} (h : 0 ≤ s) (slope m zl kpc cone k1 k2 : ℝ) :
    0 ≤ Spec47.norm (Spec47.chosen x y s) slope m zl kpc cone k1 k2 := by
  have hc : 0 ≤ (Spec47.chosen x y s).2 := by
    unfold Spec47.chosen
    cases x <;> cases y <;> simp only <;> positivity
  unfold Spec47.norm
  simp only
  split <;> positivity

/-- **C90, second half.** A call of `CDM` whose models are accepted returns halos, whatever the random numbers: no
combination of variates raises. The distances, densities and the two-halo term must be what they are in a cosmology, the
lens must lie in front of the source, and with a two-halo term the slice at the lens must be thicker than half a megaparsec. -/
theorem c90_cdm_works (W : Run.World) (hV : Variates W) (E : Preset.Env) (a : CdmArgs) (d : Dicts) (r : Request)
    (hr : (cdm E a d).1 = .ok r) (hW : WorldOk W a.kwargsCosmo) (h0 : 0 < a.zLens) (hl : a.zLens < a.zSource)
    (hs : ∀ s, a.planeSpacing = some s → 0 < s) (h1 : 0 ≤ a.sigmaSub) (h2 : 0 ≤ a.losNormalization)
    (hH : a.spatial = "PROJECTED_NFW" → 0 < a.rTidal ∧ HostOk W a.kwargsCosmo (10 ^ a.logMHost) a.zLens (a.cone / 2))
    (h3 : a.twoHalo = true → Spec90.apart W a.kwargsCosmo a.zLens a.zSource a.planeSpacing) :
    ∃ out, runCdm W E a d = .ok out := by
  obtain ⟨hgeo, -, inf, cs, cf, cHost, -, -, has⟩ := cdm_ok hr
  have hg : ∃ g, geometryOf W a.zLens a.zSource a.cone a.geometryType a.kwargsCosmo = .ok g ∧ g.openingAngle = a.cone := by
    unfold geometryOf volumeOfName
    rcases hgeo with h | h | h <;> rw [h] <;> simp [bind, Except.bind, pure, Except.pure]
  obtain ⟨g, hg, hgc⟩ := hg
  obtain ⟨P, G, hP, hP', hlen, hG⟩ := planes_ok h0 hl hs
  obtain ⟨ts, tf, sp, spKw, -, hsp, hp, hf, hk, hss, hsk, -⟩ := cdmAssemble_ok has
  obtain ⟨i1, -⟩ := cdmAssemble_rest has
  obtain ⟨kwS, rest, hks, hamp⟩ := c47_rendered E a d r hr (W.kpc a.kwargsCosmo a.zLens)
  rw [hk] at hks
  simp only [List.cons_append, List.cons.injEq] at hks
  rw [← hks.1] at hamp
  have hL : LosKw (cdmLosKwargs a) (.num a.logMlow) (.num a.logMhigh) := by
    refine ⟨?_, ?_, ⟨a.deltaPowerLawIndex, ?_⟩, ⟨a.losNormalization, ?_, h2⟩, ⟨10 ^ 8, ?_, by positivity⟩⟩ <;>
      simp [cdmLosKwargs, ofList_cons]
  unfold runCdm
  rw [hr]
  simp only [bind, Except.bind, hg]
  refine render_works (P := P) (G := G) (by rw [i1]; exact hP) ?_
  intro p hpm
  rw [hp] at hpm
  unfold populationAt
  rw [hf, hk, hss, hsk]
  rcases pops_cases hpm with rfl | rfl | ⟨rfl, htwo⟩
  · simp only [item, List.cons_append, List.getElem?_cons_zero, bind, Except.bind]
    refine subPop_works (vl := .num a.logMlow) (vh := .num a.logMhigh) ?_ ?_ (.inl ⟨_, rfl⟩) ⟨_, rfl⟩ ⟨none, by simp [turnoverOf]⟩
      ⟨_, by simp only; rw [hgc]; exact hamp, norm_nonneg h1 _ _ _ _ _ _ _⟩ (subSpatial_works hV hg hsp hH)
    · rw [cdmSub_get a _ (by decide) (by decide)]; simp [ofList_cons]
    · rw [cdmSub_get a _ (by decide) (by decide)]; simp [ofList_cons]
  · simp only [item, List.cons_append, List.getElem?_cons_zero, List.getElem?_cons_succ, bind, Except.bind]
    exact losPop_works hW hL (.inl ⟨_, rfl⟩) ⟨_, rfl⟩ (by simp) ⟨none, by simp [turnoverOf]⟩ (coneSpatial_works hg) hG
  · simp only [item, htwo, if_true, List.cons_append, List.nil_append, List.getElem?_cons_zero, List.getElem?_cons_succ, bind,
      Except.bind]
    refine twoHaloPop_works hW zero_le_one hL (.inl ⟨_, rfl⟩) ⟨_, rfl⟩ (by simp) ⟨none, by simp [turnoverOf]⟩ (coneSpatial_works hg)
      ⟨10 ^ a.logMHost, ?_⟩ hP' hlen hG (h3 htwo P G hP)
    unfold twoHaloHost
    simp [cdmLosKwargs, ofList_cons, ofList_nil, Kwargs.num, bind, Except.bind, pure, Except.pure]

end PyHalo.Props
