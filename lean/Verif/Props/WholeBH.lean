import Verif.Props.WholeSidm
import Verif.Props.Populations

/-!
# C96: whole calls of `CDM_plus_BH`
-/

namespace PyHalo.Props
open PyHalo PyHalo.Spec PyHalo.Whole PyHalo.Preset PyHalo.Run

/-- New objects with tags of their own, joined to a realization, are added to it. -/
theorem joined_added {s : Ext.Store} {R Q : Realization} {l : List Halo} (hl : Live s R.halos) (hq : Q.halos = Pop.refs s.next l)
    (ht : ∀ h ∈ R.halos, ∀ b ∈ l, (s.obj h).tag ≠ b.tag) :
    Added s.heap (lift s (Pop.place s.heap s.next l) (R.join (Pop.place s.heap s.next l) Q false)).heap s.next l R
      (R.join (Pop.place s.heap s.next l) Q false) ∧
      (∀ h ∈ R.halos, (lift s (Pop.place s.heap s.next l) (R.join (Pop.place s.heap s.next l) Q false)).obj h = s.obj h) ∧
      Live (lift s (Pop.place s.heap s.next l) (R.join (Pop.place s.heap s.next l) Q false))
        (R.join (Pop.place s.heap s.next l) Q false).halos := by
  have hold : ∀ k < s.next, Pop.place s.heap s.next l k = s.heap k := fun k hk => Pop.place_old _ _ _ _ hk
  refine ⟨?_, fun h hh => lift_old _ _ _ (hl h hh), lift_live _ _ _⟩
  rw [lift_heap _ _ _ hold]
  refine ⟨hold, fun k h hk => Pop.place_new _ _ _ _ _ hk, ?_, Pop.fresh_join _ _ _ _, (c06_join_context _ _ _).1⟩
  have := Pop.join_perm (Pop.place s.heap s.next l) R Q false (fun x hx y hy => by
    rw [hq] at hy
    have hm : Pop.place s.heap s.next l y ∈ l := by
      have := List.mem_map_of_mem (f := Pop.place s.heap s.next l) hy
      rwa [Pop.map_place] at this
    rw [hold x (hl x hx)]
    exact ht x hx _ hm)
  rw [hq] at this
  exact this

theorem addBlackHoles_objects {a : Pop.BHArgs} {factor kpc : ℝ → ℝ} {rs : Halo → Except Err ℝ} {model : Pop.SubresModel}
    {spatial : ℕ → ℕ → ℝ → List ℝ × List ℝ} {σ σ' : Heap} {n : Oid} {r r' : Realization} {v : ℕ → Pop.Seed}
    {tag : ℕ → ℕ → Tag} (h : Pop.addBlackHoles a factor kpc rs model spatial σ n r v tag = .ok (σ', r')) :
    ∃ L, σ' = Pop.place σ n L ∧ r'.halos = Pop.refs n L ∧ ∀ b ∈ L, (∃ i : ℕ, b.tag = (v i).tag) ∨ ∃ k i : ℕ, b.tag = tag k i := by
  unfold Pop.addBlackHoles at h
  obtain ⟨l, h1, h⟩ := bind_ok h
  obtain ⟨dz, -, h⟩ := bind_ok h
  obtain ⟨l', h3, h⟩ := bind_ok h
  cases h
  refine ⟨l ++ l', rfl, rfl, fun b hb => ?_⟩
  rcases List.mem_append.1 hb with hb | hb
  · obtain ⟨p, hp, l₁, e, hb⟩ := seedHalos_mem _ _ _ _ _ _ h1 b hb
    obtain ⟨⟨o, i⟩, -, rfl⟩ := List.mem_map.1 hp
    refine .inl ⟨i, ?_⟩
    unfold Pop.seedHalo at e
    split_ifs at e
    · cases e; simp at hb
    · obtain ⟨rad, -, e⟩ := bind_ok e
      dsimp only at e
      split_ifs at e <;> cases e
      · rw [List.mem_singleton.1 hb]; rfl
      · simp at hb
  · right
    have key : ∀ (q : List (ℝ × ℝ)) (k : ℕ) (l : List Halo), Pop.subresLoop a factor kpc model spatial tag k q = .ok l → b ∈ l →
        ∃ k i : ℕ, b.tag = tag k i := by
      intro q
      induction q with
      | nil => intro k l e hb; cases e; simp at hb
      | cons p t ih =>
        intro k l e hb
        unfold Pop.subresLoop at e
        obtain ⟨ms, -, e⟩ := bind_ok e
        obtain ⟨ls, e1, e⟩ := bind_ok e
        cases e
        rcases List.mem_append.1 hb with hb | hb
        · unfold Pop.subresPlane at hb
          obtain ⟨q, -, rfl⟩ := List.mem_map.1 hb
          exact ⟨k, q.2, rfl⟩
        · exact ih (k + 1) ls e1 hb
    exact key _ _ _ h3 hb

/-- The black holes `l` in rendered halos and `l'` in unresolved ones. Each of the first is heavier than the minimum, at most as
heavy as the maximum, and lies in the plane of the halo of a row, within its projected scale radius; the halo was selected, and
the black hole has at most the requested share of its mass. Every selected row has one, if that is heavier than the minimum. Each of the second lies in the plane of a row and has the
requested share of a mass between the resolution limit of the black holes and that of the halos. All deflect as point masses. -/
structure Spec96.Seeded (W : Run.World) (K : Kit) (a : BHCallArgs) (rows : List HaloArgs) (s : Ext.Store) (R : Realization)
    (l l' : List Halo) : Prop where
  resolved : ∀ b ∈ l, PointMass b ∧ (10 : ℝ) ^ a.logMin < b.mass ∧ b.mass ≤ (10 : ℝ) ^ a.logMax ∧
    ∃ (i : ℕ) (row : HaloArgs) (o : Oid), rows[i]? = some row ∧ R.halos[i]? = some o ∧
      (K.seed i).u ≤ (10 : ℝ) ^ a.logOccupation ∧ b.z = row.z ∧ b.mass ≤ row.mass * (10 : ℝ) ^ a.logRatio ∧
      ∃ rad, K.scaleRadius (s.heap o) = .ok rad ∧ dist2 b.x b.y row.x row.y ≤ |rad / W.kpc 0 row.z|
  complete : ∀ (i : ℕ) (row : HaloArgs), rows[i]? = some row → (K.seed i).u ≤ (10 : ℝ) ^ a.logOccupation →
    (10 : ℝ) ^ a.logMin < min ((10 : ℝ) ^ a.logMax) ((10 : ℝ) ^ a.logRatio * row.mass) →
    ∃ b ∈ l, b.tag = (K.seed i).tag ∧ b.mass = min ((10 : ℝ) ^ a.logMax) ((10 : ℝ) ^ a.logRatio * row.mass) ∧ b.z = row.z
  unresolved : ∀ b ∈ l', PointMass b ∧ (∃ row ∈ rows, b.z = row.z) ∧
    (10 : ℝ) ^ (a.logSubres + a.logRatio) ≤ b.mass ∧ b.mass < (10 : ℝ) ^ (a.logMlow + a.logRatio)

/-- What the black holes need: variates for the radii in the unit interval, tags of their own. -/
structure Spec96.Random (K : Kit) : Prop where
  radius : ∀ i, 0 ≤ (K.seed i).radius ∧ (K.seed i).radius ≤ 1
  seeds : ∀ j i, K.tags j ≠ (K.seed i).tag
  unresolved : ∀ j k i, K.tags j ≠ K.bhTag k i

theorem cdmPlusBH_ok {W : Run.World} {K : Kit} {E : Preset.Env} {a : BHCallArgs} {d : Dicts} {p : Ext.Store × Realization}
    (h : cdmPlusBH W K E a d = .ok p) : ∃ s R g σ mbh, cdmCall W K E a.cdm d = .ok (s, R) ∧
      Pop.addBlackHoles a.seeds (K.pointMass 0) (W.kpc 0) K.scaleRadius (subresModel W ⟨a.zLens, a.zSource, 0, g⟩)
        (subresSpatial W ⟨a.zLens, a.zSource, 0, g⟩) s.heap s.next R K.seed K.bhTag = .ok (σ, mbh) ∧
      optClusters W K 0 a.globularClusters (lift s σ (R.join σ mbh false), R.join σ mbh false) = .ok p := by
  unfold cdmPlusBH at h
  obtain ⟨⟨s, R⟩, h1, h⟩ := bind_ok h
  obtain ⟨g, -, h⟩ := bind_ok h
  obtain ⟨⟨σ, mbh⟩, h2, h⟩ := bind_ok h
  exact ⟨s, R, g, σ, mbh, h1, h2, h⟩

/-- Before the clusters. -/
theorem bh_joined {W : Run.World} (hV : Variates W) {K : Kit} (hK : Spec96.Random K) {E : Preset.Env} {a : BHCallArgs} {d : Dicts}
    (hlt : a.logSubres < a.logMlow) {s : Ext.Store} {R : Realization} {g : Geometry} {σ : Heap} {mbh : Realization}
    (h1 : cdmCall W K E a.cdm d = .ok (s, R))
    (h2 : Pop.addBlackHoles a.seeds (K.pointMass 0) (W.kpc 0) K.scaleRadius (subresModel W ⟨a.zLens, a.zSource, 0, g⟩)
      (subresSpatial W ⟨a.zLens, a.zSource, 0, g⟩) s.heap s.next R K.seed K.bhTag = .ok (σ, mbh)) :
    ∃ rows l l', runCdm W E a.cdm d = .ok rows ∧ rows ≠ [] ∧ Spec94.Injected rows K.tags none "GNFW" s R ∧
      R.lensCosmo.zLens = a.zLens ∧
      Added s.heap (lift s σ (R.join σ mbh false)).heap s.next (l ++ l') R (R.join σ mbh false) ∧
      (∀ h ∈ R.halos, (lift s σ (R.join σ mbh false)).obj h = s.obj h) ∧
      Live (lift s σ (R.join σ mbh false)) (R.join σ mbh false).halos ∧ Spec96.Seeded W K a rows s R l l' ∧
      (∀ b ∈ l ++ l', (∃ i : ℕ, b.tag = (K.seed i).tag) ∨ ∃ k i : ℕ, b.tag = K.bhTag k i) := by
  obtain ⟨rows, hrows, hI, hz, -⟩ := c94_cdm W K E a.cdm d s R rfl h1
  obtain ⟨-, hf, hold, l, l', hh, hmap, hl, hcomp, hl'⟩ := c39_black_holes_partial _ _ _ _ _ _ _ _ _ _ _ _ hK.radius _ h2
  obtain ⟨L, hσ, hrefs, htags⟩ := addBlackHoles_objects h2
  have hL : L = l ++ l' := by rw [← hmap, hrefs, hσ, Pop.map_place]
  subst hL
  have htag : ∀ h ∈ R.halos, ∃ j : ℕ, (s.obj h).tag = K.tags j := by
    intro k hk
    obtain ⟨i, hi⟩ := List.mem_iff_getElem?.1 hk
    have hil : i < rows.length := by rw [← hI.length]; exact (List.getElem?_eq_some_iff.1 hi).1
    exact ⟨i, (hI.each i _ k (List.getElem?_eq_getElem hil) hi).2.2.2.2.2.2.1⟩
  subst hσ
  obtain ⟨j1, j2, j3⟩ := joined_added (Q := mbh) hI.live hrefs (fun h hh b hb => by
    obtain ⟨j, hj⟩ := htag h hh
    rw [hj]
    rcases htags b hb with ⟨i, hi⟩ | ⟨k, i, hi⟩
    · rw [hi]; exact hK.seeds j i
    · rw [hi]; exact hK.unresolved j k i)
  refine ⟨rows, l, l', hrows, ?_, hI, hz, j1, j2, j3, ⟨fun b hb => ?_, fun i row hrow hu hm => ?_, fun b hb => ?_⟩, htags⟩
  · rintro rfl
    have hnil : R.halos = [] := List.length_eq_zero_iff.1 hI.length
    rw [c39_empty _ _ _ _ _ _ _ _ _ hI.fresh hnil] at h2
    cases h2
  · obtain ⟨b1, b2, b3, i, o, b4, b5, b6, b7, rad, b8, b9⟩ := hl b hb
    have hil : i < rows.length := by rw [← hI.length]; exact (List.getElem?_eq_some_iff.1 b4).1
    have hrow := List.getElem?_eq_getElem hil
    obtain ⟨e1, e2, e3, -, e5, -⟩ := hI.each i _ o hrow b4
    have e1 : (s.heap o).mass = _ := e1
    have e2 : (s.heap o).x = _ := e2
    have e3 : (s.heap o).y = _ := e3
    have e5 : (s.heap o).z = _ := e5
    rw [e5] at b6 b9
    rw [e1] at b7
    rw [e2, e3] at b9
    exact ⟨b3, b1, b2, i, _, o, hrow, b4, b5, b6, b7, rad, b8, b9⟩
  · have hil : i < R.halos.length := by rw [hI.length]; exact (List.getElem?_eq_some_iff.1 hrow).1
    have ho := List.getElem?_eq_getElem hil
    obtain ⟨e1, -, -, -, e5, -⟩ := hI.each i row _ hrow ho
    have e1 : (s.heap R.halos[i]).mass = _ := e1
    have e5 : (s.heap R.halos[i]).z = _ := e5
    have := hcomp i _ ho hu (by rw [e1]; exact hm)
    rw [e1, e5] at this
    exact this
  · obtain ⟨b1, b2, dz, j, ms, m, b3, b4, b5, b6⟩ := hl' b hb
    refine ⟨b1, ?_, ?_⟩
    · obtain ⟨o, ho, e⟩ := (hI.fresh.zsMem _).1 b2
      obtain ⟨i, hi⟩ := List.mem_iff_getElem?.1 ho
      have hil : i < rows.length := by rw [← hI.length]; exact (List.getElem?_eq_some_iff.1 hi).1
      obtain ⟨-, -, -, -, e5, -⟩ := hI.each i _ o (List.getElem?_eq_getElem hil) hi
      exact ⟨_, List.getElem_mem hil, by rw [← e]; exact e5⟩
    · obtain ⟨m1, m2⟩ := losModel_range hV hlt b3 m b4
      have hp : (0 : ℝ) < (10 : ℝ) ^ a.logRatio := by positivity
      rw [b6, Real.rpow_add (by norm_num), Real.rpow_add (by norm_num)]
      exact ⟨mul_le_mul_of_nonneg_right m1 hp.le, mul_lt_mul_of_pos_right m2 hp⟩

/-- **C96**  A whole call of `CDM_plus_BH` without clusters returns the halos of the corresponding call of `CDM`, unchanged, and
black holes besides them: those of rendered halos and those of unresolved ones. -/
theorem c96_black_holes (W : Run.World) (hV : Variates W) (K : Kit) (hK : Spec96.Random K) (E : Preset.Env) (a : BHCallArgs)
    (d : Dicts) (hlt : a.logSubres < a.logMlow) (hgc : a.globularClusters = none) (s' : Ext.Store) (R' : Realization)
    (h : cdmPlusBH W K E a d = .ok (s', R')) :
    ∃ s R rows l l', cdmCall W K E a.cdm d = .ok (s, R) ∧ runCdm W E a.cdm d = .ok rows ∧ rows ≠ [] ∧
      Spec94.Injected rows K.tags none "GNFW" s R ∧ Added s.heap s'.heap s.next (l ++ l') R R' ∧
      (∀ h ∈ R.halos, s'.obj h = s.obj h) ∧ Live s' R'.halos ∧ Spec96.Seeded W K a rows s R l l' := by
  obtain ⟨s, R, g, σ, mbh, h1, h2, h3⟩ := cdmPlusBH_ok h
  obtain ⟨rows, l, l', q1, q2, q3, -, q5, q6, q7, q8, -⟩ := bh_joined hV hK hlt h1 h2
  rw [hgc] at h3
  cases h3
  exact ⟨s, R, rows, l, l', h1, q1, q2, q3, q5, q6, q7, q8⟩

theorem addClusters_apart {W : Run.World} {K : Kit} {kc n : ℕ} {s : Ext.Store} {R : Realization}
    (hC : Spec94.Clusters W K kc n R.lensCosmo.zLens) (hl : Live s R.halos)
    (ht : ∀ h ∈ R.halos, ∀ k i, (s.obj h).tag ≠ ((K.gcDraw k).var i).tag) :
    ∃ s' R', addClusters W K kc n (s, R) = .ok (s', R') ∧ Spec94.WithClusters K n s R s' R' := by
  obtain ⟨σ, R', groups, h1, h2, h3, h4⟩ := c38_globular_clusters (K.gc n).1 K.gcParams (K.pointMass kc)
    (W.kpc kc R.lensCosmo.zLens) s.heap s.next R (K.gc n).2.1 (K.gc n).2.2 K.gcDraw hC.profile hC.surface hC.scale hC.variates
    hC.centres hC.some hl hC.tags ht
  have hheap : (lift s σ R').heap = σ := lift_heap s σ R' h2.old
  refine ⟨lift s σ R', R', ?_, ⟨groups, by rw [hheap]; exact h2, h3, h4⟩, fun h hh => lift_old s σ R' (hl h hh),
    lift_live s σ R'⟩
  unfold addClusters
  simp only [h1, bind, Except.bind, pure, Except.pure]

/-- The tags of what has been joined. -/
theorem added_tags {σ σ' : Heap} {n : Oid} {l : List Halo} {R R' : Realization} (h : Added σ σ' n l R R') (hl : ∀ k ∈ R.halos, k < n)
    {k : Oid} (hk : k ∈ R'.halos) : (k ∈ R.halos ∧ σ' k = σ k) ∨ σ' k ∈ l := by
  rcases List.mem_append.1 (h.halos.mem_iff.1 hk) with hk | hk
  · exact .inl ⟨hk, h.old k (hl k hk)⟩
  · right
    obtain ⟨h1, h2⟩ := List.mem_range'_1.1 hk
    obtain ⟨j, rfl⟩ := Nat.exists_eq_add_of_le h1
    have hj : j < l.length := by omega
    rw [h.new j _ (List.getElem?_eq_getElem hj)]
    exact List.getElem_mem hj

/-- **C96**, clusters: they are added to the halos and black holes of the call without them. -/
theorem c96_clusters (W : Run.World) (hV : Variates W) (K : Kit) (hK : Spec96.Random K) (E : Preset.Env) (a : BHCallArgs)
    (d : Dicts) (hlt : a.logSubres < a.logMlow) (n : ℕ) (hgc : a.globularClusters = some n) (hC : Spec94.Clusters W K 0 n a.zLens)
    (hC1 : ∀ j k i, (K.seed j).tag ≠ ((K.gcDraw k).var i).tag) (hC2 : ∀ j j' k i, K.bhTag j j' ≠ ((K.gcDraw k).var i).tag)
    (s' : Ext.Store) (R' : Realization) (h : cdmPlusBH W K E a d = .ok (s', R')) :
    ∃ s R, cdmPlusBH W K E { a with globularClusters := none } d = .ok (s, R) ∧ Spec94.WithClusters K n s R s' R' := by
  have hg : ∃ g, geometryOf W a.zLens a.zSource a.cone a.geometryType 0 = .ok g ∧ ∃ s R σ mbh,
      cdmCall W K E a.cdm d = .ok (s, R) ∧
      Pop.addBlackHoles a.seeds (K.pointMass 0) (W.kpc 0) K.scaleRadius (subresModel W ⟨a.zLens, a.zSource, 0, g⟩)
        (subresSpatial W ⟨a.zLens, a.zSource, 0, g⟩) s.heap s.next R K.seed K.bhTag = .ok (σ, mbh) ∧
      optClusters W K 0 a.globularClusters (lift s σ (R.join σ mbh false), R.join σ mbh false) = .ok (s', R') := by
    unfold cdmPlusBH at h
    obtain ⟨⟨s, R⟩, h1, h⟩ := bind_ok h
    obtain ⟨g, hg, h⟩ := bind_ok h
    obtain ⟨⟨σ, mbh⟩, h2, h⟩ := bind_ok h
    exact ⟨g, hg, s, R, σ, mbh, h1, h2, h⟩
  obtain ⟨g, hg, s, R, σ, mbh, h1, h2, h3⟩ := hg
  obtain ⟨rows, l, l', q1, q2, q3, q4, q5, q6, q7, q8, q9⟩ := bh_joined hV hK hlt h1 h2
  refine ⟨lift s σ (R.join σ mbh false), R.join σ mbh false, ?_, ?_⟩
  · unfold cdmPlusBH
    rw [show cdmCall W K E ({ a with globularClusters := none } : BHCallArgs).cdm d = .ok (s, R) from h1]
    simp only [bind, Except.bind, hg]
    rw [show Pop.addBlackHoles ({ a with globularClusters := none } : BHCallArgs).seeds (K.pointMass 0) (W.kpc 0) K.scaleRadius
      (subresModel W ⟨a.zLens, a.zSource, 0, g⟩) (subresSpatial W ⟨a.zLens, a.zSource, 0, g⟩) s.heap s.next R K.seed K.bhTag
      = .ok (σ, mbh) from h2]
    rfl
  · have hz : (R.join σ mbh false).lensCosmo.zLens = a.zLens := q4
    obtain ⟨s₂, R₂, e, hW⟩ := addClusters_apart (kc := 0) (hz ▸ hC) q7 (fun k hk => by
      intro k' i
      show ((lift s σ (R.join σ mbh false)).heap k).tag ≠ _
      rcases added_tags q5 q3.live hk with ⟨hk, e⟩ | hm
      · rw [e]
        obtain ⟨i', hi⟩ := List.mem_iff_getElem?.1 hk
        have hil : i' < rows.length := by rw [← q3.length]; exact (List.getElem?_eq_some_iff.1 hi).1
        rw [show (s.heap k).tag = K.tags i' from (q3.each i' _ k (List.getElem?_eq_getElem hil) hi).2.2.2.2.2.2.1]
        exact hC.apart _ _ _
      · rcases q9 _ hm with ⟨j, e⟩ | ⟨j, j', e⟩
        · rw [e]; exact hC1 _ _ _
        · rw [e]; exact hC2 _ _ _ _)
    rw [hgc] at h3
    have h3 : addClusters W K 0 n (lift s σ (R.join σ mbh false), R.join σ mbh false) = .ok (s', R') := h3
    rw [e] at h3
    cases h3
    exact hW

/-- **C96**, the failure: a call whose cold dark matter part has no halo raises an index error, although the unresolved halos do
not depend on it. -/
theorem c96_empty (W : Run.World) (K : Kit) (E : Preset.Env) (a : BHCallArgs) (d : Dicts) (s : Ext.Store) (R : Realization)
    (h : cdmCall W K E a.cdm d = .ok (s, R)) (hrows : runCdm W E a.cdm d = .ok []) :
    cdmPlusBH W K E a d = .error .indexError := by
  obtain ⟨rows, e, hI, -⟩ := c94_cdm W K E a.cdm d s R rfl h
  rw [hrows] at e
  cases e
  have hnil : R.halos = [] := List.length_eq_zero_iff.1 hI.length
  obtain ⟨r, g, p₀, -, hg, -⟩ := cdmCall_ok h
  have hg : geometryOf W a.zLens a.zSource a.cone a.geometryType 0 = .ok g := hg
  unfold cdmPlusBH
  rw [h]
  simp only [bind, Except.bind, hg]
  rw [c39_empty _ _ _ _ _ _ _ _ _ hI.fresh hnil]

/-- **C96**, the failure: if the mass ratio takes the halo resolution limit below the minimum black-hole mass (with the
defaults: a ratio below 10^-1.5), every black hole of an unresolved halo is lighter than the minimum to render. -/
theorem c96_unresolved_below_minimum (W : Run.World) (hV : Variates W) (K : Kit) (hK : Spec96.Random K) (E : Preset.Env)
    (a : BHCallArgs) (d : Dicts) (hlt : a.logSubres < a.logMlow) (hgc : a.globularClusters = none)
    (hr : a.logMlow + a.logRatio ≤ a.logMin) (s' : Ext.Store) (R' : Realization) (h : cdmPlusBH W K E a d = .ok (s', R')) :
    ∃ s R rows l l', cdmCall W K E a.cdm d = .ok (s, R) ∧ runCdm W E a.cdm d = .ok rows ∧
      Added s.heap s'.heap s.next (l ++ l') R R' ∧ Spec96.Seeded W K a rows s R l l' ∧
      ∀ b ∈ l', b.mass < (10 : ℝ) ^ a.logMin := by
  obtain ⟨s, R, rows, l, l', q1, q2, -, -, q5, -, -, q8⟩ := c96_black_holes W hV K hK E a d hlt hgc s' R' h
  refine ⟨s, R, rows, l, l', q1, q2, q5, q8, fun b hb => ?_⟩
  obtain ⟨-, -, -, hm⟩ := q8.unresolved b hb
  exact lt_of_lt_of_le hm (Real.rpow_le_rpow_of_exponent_le (by norm_num) hr)

theorem seedHalos_works {a : Pop.BHArgs} {factor kpc : ℝ → ℝ} {rs : Halo → Except Err ℝ} :
    ∀ q : List (Halo × Pop.Seed), (∀ p ∈ q, ∃ x, rs p.1 = .ok x) → ∃ l, Pop.seedHalos a factor kpc rs q = .ok l
  | [], _ => ⟨[], rfl⟩
  | (o, v) :: t, hr => by
    obtain ⟨l, hl⟩ := seedHalos_works (a := a) (factor := factor) (kpc := kpc) t fun p hp => hr p (List.mem_cons_of_mem _ hp)
    obtain ⟨x, hx⟩ := hr (o, v) List.mem_cons_self
    have h1 : ∃ l₁, Pop.seedHalo a factor kpc rs o v = .ok l₁ := by
      unfold Pop.seedHalo
      simp only [hx, bind, Except.bind, pure, Except.pure]
      split_ifs <;> exact ⟨_, rfl⟩
    obtain ⟨l₁, h1⟩ := h1
    exact ⟨l₁ ++ l, by simp only [Pop.seedHalos, h1, hl, bind, Except.bind, pure, Except.pure]⟩

theorem subresLoop_works {a : Pop.BHArgs} {factor kpc : ℝ → ℝ} {model : Pop.SubresModel}
    {spatial : ℕ → ℕ → ℝ → List ℝ × List ℝ} {tag : ℕ → ℕ → Tag} : ∀ (q : List (ℝ × ℝ)) (k : ℕ),
    (∀ p ∈ q, ∀ k, ∃ ms, (model p.1 p.2 a.logSubres a.logMlow (a.f * a.losNorm)).draw k = .ok ms) →
    ∃ l, Pop.subresLoop a factor kpc model spatial tag k q = .ok l
  | [], _, _ => ⟨[], rfl⟩
  | (z, dz) :: t, k, h => by
    obtain ⟨ms, hms⟩ := h (z, dz) (List.mem_cons_self ..) k
    obtain ⟨l, hl⟩ := subresLoop_works (factor := factor) (kpc := kpc) (spatial := spatial) (tag := tag) t (k + 1)
      (fun p hp => h p (List.mem_cons_of_mem _ hp))
    exact ⟨_, by simp only [Pop.subresLoop, hms, hl, bind, Except.bind, pure, Except.pure]; rfl⟩

theorem planeGaps_works {zs : ℝ} : ∀ {l : List ℝ}, l ≠ [] → l.Pairwise (· < ·) → (∀ z ∈ l, z ≤ zs) →
    ∃ g, planeGaps zs l = .ok g ∧ ∀ x ∈ g, 0 ≤ x
  | [], h, _, _ => absurd rfl h
  | [a], _, _, hz => ⟨[zs - a], rfl, by simpa using hz a (by simp)⟩
  | a :: b :: t, _, hp, hz => by
    obtain ⟨h1, h2⟩ := List.pairwise_cons.1 hp
    obtain ⟨g, hg, hpos⟩ := planeGaps_works (l := b :: t) (by simp) h2 (fun z hm => hz z (List.mem_cons_of_mem _ hm))
    refine ⟨(b - a) :: g, by simp only [planeGaps, hg, bind, Except.bind, pure, Except.pure], fun x hx => ?_⟩
    rcases List.mem_cons.1 hx with rfl | hx
    · exact sub_nonneg.2 (h1 b (by simp)).le
    · exact hpos x hx

/-- **C96**, success: if the corresponding call of `CDM` succeeds and has a halo, no halo lies behind the source, and every halo
has a scale radius, the call succeeds (for clusters see `c96_clusters`). -/
theorem c96_works (W : Run.World) (K : Kit) (E : Preset.Env) (a : BHCallArgs) (d : Dicts) (s : Ext.Store) (R : Realization)
    (rows : List HaloArgs) (h : cdmCall W K E a.cdm d = .ok (s, R)) (hrows : runCdm W E a.cdm d = .ok rows) (hne : rows ≠ [])
    (hz : ∀ row ∈ rows, row.z ≤ a.zSource) (hW : WorldOk W 0) (hn : 0 ≤ a.losNormalization)
    (hr : ∀ k ∈ R.halos, ∃ x, K.scaleRadius (s.heap k) = .ok x) (hgc : a.globularClusters = none) : ∃ p, cdmPlusBH W K E a d = .ok p := by
  obtain ⟨rows', e, hI, -, hzs, -⟩ := c94_cdm W K E a.cdm d s R rfl h
  rw [hrows] at e
  cases e
  obtain ⟨r, g, p₀, -, hg, -⟩ := cdmCall_ok h
  have hg : geometryOf W a.zLens a.zSource a.cone a.geometryType 0 = .ok g := hg
  have hat : ∀ {k : Oid}, k ∈ R.halos → ∃ row ∈ rows, (s.heap k).z = row.z := by
    intro k hk
    obtain ⟨i, hi⟩ := List.mem_iff_getElem?.1 hk
    have hil : i < rows.length := by rw [← hI.length]; exact (List.getElem?_eq_some_iff.1 hi).1
    exact ⟨_, List.getElem_mem hil, (hI.each i _ k (List.getElem?_eq_getElem hil) hi).2.2.2.2.1⟩
  have hne' : R.uniqueRedshifts ≠ [] := by
    have : R.halos ≠ [] := by
      intro e
      have := hI.length
      rw [e] at this
      exact hne (List.length_eq_zero_iff.1 this.symm)
    obtain ⟨k, hk⟩ := List.exists_mem_of_ne_nil _ this
    exact List.ne_nil_of_mem ((hI.fresh.zsMem _).2 ⟨k, hk, rfl⟩)
  have hbelow : ∀ z ∈ R.uniqueRedshifts, z ≤ R.lensCosmo.zSource := by
    intro z hz'
    obtain ⟨k, hk, rfl⟩ := (hI.fresh.zsMem z).1 hz'
    obtain ⟨row, hrow, e⟩ := hat hk
    rw [e, hzs]
    exact hz row hrow
  obtain ⟨gaps, hgaps, hpos⟩ := planeGaps_works hne' hI.fresh.zsIncreasing hbelow
  obtain ⟨l, hl⟩ := seedHalos_works (a := a.seeds) (factor := K.pointMass 0) (kpc := W.kpc 0)
    (rs := K.scaleRadius) (R.halos.zipIdx.map fun p => (s.heap p.1, K.seed p.2)) (fun p hp => by
      obtain ⟨⟨k, i⟩, hki, rfl⟩ := List.mem_map.1 hp
      exact hr k (List.mem_of_getElem? (List.mem_zipIdx_iff_getElem?.1 hki)))
  obtain ⟨l', hl'⟩ := subresLoop_works (a := a.seeds) (factor := K.pointMass 0) (kpc := W.kpc 0)
    (model := subresModel W ⟨a.zLens, a.zSource, 0, g⟩) (spatial := subresSpatial W ⟨a.zLens, a.zSource, 0, g⟩)
    (tag := K.bhTag) (R.uniqueRedshifts.zip gaps) 0 (fun p hp k => by
      have hn' : 0 ≤ a.seeds.f * a.seeds.losNorm :=
        mul_nonneg (by show (0 : ℝ) ≤ (10 : ℝ) ^ a.logOccupation; positivity) hn
      have hv := volumeElement_nonneg hW.hubble hW.efunc g p.1 p.2 (hpos _ (List.of_mem_zip hp).2)
      obtain ⟨q, hq, hq'⟩ := los_norm (fit := massFit W 0 p.1 (10 ^ 8)) (lo := a.seeds.logSubres) (hi := a.seeds.logMlow)
        (kw := subresKw (a.seeds.f * a.seeds.losNorm)) (d := 0) rfl rfl rfl hn' (by positivity) hv
      refine massFnOf_ok (p := q) (t := none) ?_ hq'
      have ht : turnoverOf (.named "ShethTormen") (subresKw (a.seeds.f * a.seeds.losNorm)) = .ok none := by
        simp [turnoverOf]
      have hp' : (subresKw (a.seeds.f * a.seeds.losNorm)).num "m_pivot" = .ok (10 ^ 8) := rfl
      unfold losModel
      rw [if_neg (by simp)]
      simp only [hp', bind, Except.bind, pure, Except.pure, hq, ht])
  unfold cdmPlusBH
  rw [h]
  simp only [bind, Except.bind, hg, Pop.addBlackHoles, hl, hgaps, hl', hgc, pure, Except.pure]
  exact ⟨_, rfl⟩

end PyHalo.Props
