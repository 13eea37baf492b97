import Verif.Props.WholeSidm

/-!
# Concrete cases of C94 and C95
-/

namespace PyHalo.Props
open PyHalo PyHalo.Spec PyHalo.Whole PyHalo.Preset PyHalo.Run

/-- Everything whole calls need besides the concrete world: the physics of `ExtDemo`, tags in order, one cluster group. -/
noncomputable def demoKit : Kit where
  phys := ExtDemo.P
  view := ⟨fun _ a => a.mass / 2, fun _ _ => []⟩
  tags i := 2 * i
  DC _ z := 3000 * z
  sigmaCritMass _ _ _ _ _ := 1
  scaleRadius _ := .ok 1
  collapseTime _ _ _ s := 1 / s
  pointMass _ _ := 1
  gc _ := (⟨5, 1 / 2, 2, "PTMASS", 6, 0.3, 3, 1, 10⟩, [0, 1], [0, 1])
  gcParams _ _ _ _ := []
  gcDraw k := ⟨k + 1, fun _ => 0, fun _ => 0, fun _ => 1, fun i => ⟨0, 0, 2 * Nat.pair k i + 1⟩⟩
  seed i := ⟨1 / 2, 0, 1, 4 * i + 1⟩
  bhTag k i := 4 * Nat.pair k i + 3

theorem demo_clusters (kc n : ℕ) (z : ℝ) : Spec94.Clusters demoWorld demoKit kc n z := by
  refine ⟨.inr rfl, by norm_num [demoKit], by norm_num [demoWorld], fun k i => by norm_num [demoKit], rfl, by simp [demoKit],
    fun k i k' i' e => ?_, fun j k i => ?_⟩
  · have e : 2 * Nat.pair k i + 1 = 2 * Nat.pair k' i' + 1 := e
    have e' : Nat.pair k i = Nat.pair k' i' := by omega
    have := congrArg Nat.unpair e'
    simpa using this
  · show 2 * j ≠ 2 * Nat.pair k i + 1
    omega

/-- A call of `CDM` with its defaults but galaxies above `10 ^ 9` solar masses. -/
noncomputable def demoGalaxies : CdmArgs := { demoCdm with sisThreshold := some (10 ^ 9) }

/-- **C94** for this call: it returns a realization to which the theorem applies. -/
theorem demo_whole (E : Preset.Env) : ∃ s R, cdmCall demoWorld demoKit E demoGalaxies freshDicts = .ok (s, R) := by
  obtain ⟨r, hr⟩ := cdm_works E demoGalaxies (.inl rfl) (by simp [demoGalaxies, demoCdm]) rfl rfl rfl rfl rfl (.inr rfl)
  exact c94_cdm_works demoWorld demo_variates demoKit E demoGalaxies freshDicts r hr (demo_ok _)
    (fun z _ => by norm_num [demoWorld]) (by norm_num [demoGalaxies, demoCdm]) (by norm_num [demoGalaxies, demoCdm])
    (by norm_num [demoGalaxies, demoCdm]) (by simp [demoGalaxies, demoCdm]) (by norm_num [demoGalaxies, demoCdm])
    (by norm_num [demoGalaxies, demoCdm]) (fun _ => ⟨by norm_num [demoGalaxies, demoCdm], demo_host _ _ _⟩)
    (fun _ => demo_apart _) (.inl rfl) rfl

/-- Its halos: one for each row, with pairwise different tags; light ones are truncated NFW halos that can be moved, heavy ones
galaxies. -/
example (E : Preset.Env) : ∃ s R rows, cdmCall demoWorld demoKit E demoGalaxies freshDicts = .ok (s, R) ∧
    runCdm demoWorld E demoGalaxies freshDicts = .ok rows ∧ R.halos.length = rows.length ∧
    ∀ (n : ℕ) (row : HaloArgs) (k : Oid), rows[n]? = some row → R.halos[n]? = some k →
      (s.obj k).tag = 2 * n ∧ (s.obj k).mass = row.mass ∧
      (row.mass < 10 ^ 9 → (s.obj k).mdef = "TNFW" ∧ (s.obj k).fixedPosition = false) ∧
      (10 ^ 9 ≤ row.mass → (s.obj k).mdef = "GNFW") := by
  obtain ⟨s, R, h⟩ := demo_whole E
  obtain ⟨rows, hrows, hI, -⟩ := c94_cdm demoWorld demoKit E demoGalaxies freshDicts s R rfl h
  obtain ⟨v, P, G, -, -, hall⟩ := c90_cdm demoWorld demo_variates E demoGalaxies freshDicts rows
    (fun z _ => by norm_num [demoWorld]) (by norm_num [demoGalaxies, demoCdm])
    (fun _ => ⟨by norm_num [demoGalaxies, demoCdm], demo_host _ _ _⟩) hrows
  refine ⟨s, R, rows, h, hrows, hI.length, fun n row k hr hk => ?_⟩
  obtain ⟨c1, -, -, -, -, -, c7, c8, c9⟩ := hI.each n row k hr hk
  have hm : row.mdef = "TNFW" := (hall row (List.mem_of_getElem? hr)).1
  refine ⟨c7, c1, fun hlt => ?_, fun hle => ?_⟩
  · have c := c8 (fun t ht => by cases ht; exact hlt)
    refine ⟨by rw [c.kind, hm]; simp, ?_⟩
    have := c.moves
    rw [hm] at this
    simpa using this
  · rw [c9 ⟨_, rfl, hle⟩]
    rfl

/-- The same call with clusters. -/
example (E : Preset.Env) (s' : Ext.Store) (R' : Realization)
    (h : cdmCall demoWorld demoKit E { demoGalaxies with globularClusters := some 0 } freshDicts = .ok (s', R')) :
    ∃ s R, cdmCall demoWorld demoKit E demoGalaxies freshDicts = .ok (s, R) ∧ Spec94.WithClusters demoKit 0 s R s' R' :=
  c94_cdm_clusters demoWorld demoKit E _ freshDicts 0 rfl (demo_clusters _ _ _) s' R' h

/-- A call of `SIDM_parametric_fixedbins` with cross sections of 100 and 1 (per its unit). The concentration models by name need
no library table here. -/
noncomputable def demoBins : FixedBinsArgs :=
  { zLens := 0.5, zSource := 1.5, concSub := "LUDLOW2016", concField := "LUDLOW2016", sectionLow := 2, sectionHigh := 0 }

/-- **C95** for this call: it returns a realization; its halos below `10 ^ 8` solar masses evolve with the large cross section,
the others with the small one. -/
example (E : Preset.Env) : ∃ s R rows, sidmFixedBins demoWorld demoKit E demoBins freshDicts (fun _ => 1 / 2) = .ok (s, R) ∧
    runCdm demoWorld E demoBins.toSidmCommon.cdm freshDicts = .ok rows ∧ R.halos.length = rows.length ∧
    ∀ (n : ℕ) (row : HaloArgs) (k : Oid), rows[n]? = some row → R.halos[n]? = some k →
      (s.obj k).mass = row.mass ∧
      ∃ o, Spec95.Evolution demoKit 0 0 (if row.mass < 10 ^ 8 then 2 else 0) row o (s.obj k) := by
  obtain ⟨r, hr⟩ := cdm_works E demoBins.toSidmCommon.cdm (.inl rfl) (by simp [demoBins, SidmCommon.cdm]) rfl rfl rfl rfl rfl
    (.inl rfl)
  obtain ⟨s, R, h⟩ := c95_fixed_bins_works demoWorld demo_variates demoKit E demoBins freshDicts (fun _ => 1 / 2) r hr (demo_ok _)
    (fun z _ => by norm_num [demoWorld]) (by norm_num [demoBins]) (by norm_num [demoBins]) (by norm_num [demoBins])
    (by norm_num [demoBins]) (by norm_num [demoBins]) (by norm_num [demoBins]) (by norm_num [demoBins]) (demo_apart _) rfl
    (fun a b _ hab => by simp only [demoKit, ExtDemo.P]; linarith)
    (fun o _ _ _ => ⟨by norm_num [demoKit, ExtDemo.P], ⟨_, rfl⟩, ⟨_, rfl⟩, ⟨_, rfl⟩⟩)
  obtain ⟨-, rows, hrows, hlen, hall⟩ := c95_fixed_bins demoWorld demo_variates demoKit E demoBins freshDicts (fun _ => 1 / 2)
    (fun _ => by norm_num) rfl rfl (fun z _ => by norm_num [demoWorld]) (by norm_num [demoBins]) s R h
  exact ⟨s, R, rows, h, hrows, hlen, fun n row k h1 h2 =>
    ⟨(hall n row k h1 h2).1, (hall n row k h1 h2).2.2.2.2.2.2.2⟩⟩

/-- A call of `SIDM_core_collapse` in which all halos between `10 ^ 6` and `10 ^ 8` solar masses collapse. -/
noncomputable def demoCollapse : CollapseArgs :=
  { zLens := 0.5, zSource := 1.5, concSub := "LUDLOW2016", concField := "LUDLOW2016", rangesSub := [(6, 8)],
    rangesField := [(6, 8)], probSub := [fun _ => 1], probField := [fun _ => 1], sisThreshold := some (10 ^ 9),
    profile := "SPL_CORE" }

/-- **C95** for this call: light halos collapse, heavy ones become galaxies, those between stay. -/
example (E : Preset.Env) : ∃ s R rows, sidmCoreCollapse demoWorld demoKit E demoCollapse freshDicts (fun _ => 1 / 2) = .ok (s, R) ∧
    runCdm demoWorld E demoCollapse.cdm freshDicts = .ok rows ∧
    ∀ (n : ℕ) (row : HaloArgs) (k : Oid), rows[n]? = some row → R.halos[n]? = some k →
      (row.mass < 10 ^ 8 → (s.obj k).mdef = "SPL_CORE") ∧
      (10 ^ 8 ≤ row.mass → row.mass < 10 ^ 9 → (s.obj k).mdef = "TNFW") ∧
      (10 ^ 9 ≤ row.mass → (s.obj k).mdef = "GNFW") := by
  obtain ⟨r, hr⟩ := cdm_works E demoCollapse.cdm (.inl rfl) (by simp [demoCollapse, CollapseArgs.cdm, SidmCommon.cdm]) rfl rfl rfl
    rfl rfl (.inl rfl)
  obtain ⟨s₀, R₀, h₀⟩ := c94_cdm_works demoWorld demo_variates demoKit E demoCollapse.cdm freshDicts r hr (demo_ok _)
    (fun z _ => by norm_num [demoWorld]) (by norm_num [demoCollapse, CollapseArgs.cdm, SidmCommon.cdm])
    (by norm_num [demoCollapse, CollapseArgs.cdm, SidmCommon.cdm]) (by norm_num [demoCollapse, CollapseArgs.cdm, SidmCommon.cdm])
    (by simp [demoCollapse, CollapseArgs.cdm, SidmCommon.cdm]) (by norm_num [demoCollapse, CollapseArgs.cdm, SidmCommon.cdm])
    (by norm_num [demoCollapse, CollapseArgs.cdm, SidmCommon.cdm])
    (fun h => by simp [demoCollapse, CollapseArgs.cdm, SidmCommon.cdm] at h) (fun _ => demo_apart _) (.inl rfl) rfl
  obtain ⟨s, R, h⟩ := c95_core_collapse_works demoWorld demoKit E demoCollapse freshDicts (fun _ => 1 / 2) _ h₀ rfl rfl
    (.inr rfl) (fun _ => rfl)
  obtain ⟨rows, hrows, -, hall⟩ := c95_core_collapse_rows demoWorld demo_variates demoKit E demoCollapse freshDicts
    (fun _ => 1 / 2) rfl (fun z _ => by norm_num [demoWorld]) (by norm_num [demoCollapse]) s R h
  have hmass := (c90_cdm demoWorld demo_variates E demoCollapse.cdm freshDicts rows (fun z _ => by norm_num [demoWorld])
    (by norm_num [demoCollapse, CollapseArgs.cdm, SidmCommon.cdm])
    (fun h => by simp [demoCollapse, CollapseArgs.cdm, SidmCommon.cdm] at h) hrows)
  obtain ⟨_, _, _, -, -, hmass⟩ := hmass
  have e8 : (10 : ℝ) ^ (8 : ℝ) = 10 ^ 8 := by norm_num
  refine ⟨s, R, rows, h, hrows, fun n row k h1 h2 => ?_⟩
  obtain ⟨-, -, -, -, -, -, g1, g2, g3⟩ := hall n row k h1 h2
  refine ⟨fun hm => ?_, fun hm hm' => ?_, fun hm => ?_⟩
  · refine g3 (fun t ht => ?_) (by norm_num) (fun p hp o => ?_) ⟨(6, 8), ?_, (hmass row (List.mem_of_getElem? h1)).2.1, ?_⟩
    · cases ht
      norm_num at hm ⊢
      linarith
    · simp [demoCollapse] at hp
      simp [hp]
    · simp [demoCollapse]
    · simpa [e8] using hm
  · refine g2 (fun t ht => by cases ht; exact hm') (fun b hb hin => ?_)
    simp [demoCollapse] at hb
    subst hb
    have := hin.2
    rw [e8] at this
    linarith
  · rw [g1 ⟨_, rfl, hm⟩]
    rfl

/-- Without mass bins every non-empty population makes `SIDM_parametric` raise. -/
example (E : Preset.Env) (rows : List HaloArgs) (row : HaloArgs) (q : Ext.Store × Realization)
    (h : runCdm demoWorld E { zLens := 0.5, zSource := 1.5 : SidmCommon }.cdm freshDicts = .ok (row :: rows)) :
    sidmParametric demoWorld demoKit E { zLens := 0.5, zSource := 1.5, ranges := [], sections := [] } freshDicts (fun _ => 1 / 2)
      ≠ .ok q :=
  c95_gap_raises demoWorld demo_variates demoKit E _ freshDicts _ (fun z _ => by norm_num [demoWorld]) (by norm_num) _ h row
    List.mem_cons_self (by simp) q

end PyHalo.Props
