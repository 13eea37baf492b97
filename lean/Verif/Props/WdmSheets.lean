import Verif.Props.WdmCount

/-!
# C99: the mass sheets of a whole call of `WDM`
-/

namespace PyHalo.Props
open PyHalo PyHalo.Spec PyHalo.Whole PyHalo.Preset PyHalo.Run

open scoped Classical

namespace Spec99

/-- The expected mass in surviving subhalos between `10 ^ lo` and `10 ^ hi` solar masses. -/
noncomputable def subMass (W : Run.World) (b : WdmArgs) (lo hi : ℝ) : ℝ :=
  ∫ m in (10 : ℝ) ^ lo..(10 : ℝ) ^ hi, m * survival b.massSub b.massSubKw b.logMc m * Spec97.dNdm W (cold b lo) m

/-- The expected mass in surviving field halos of the slice at `z` between `10 ^ lo` and `10 ^ hi` solar masses, for the
straight-line fit made in this range. -/
noncomputable def fieldMass (W : Run.World) (b : WdmArgs) (g : Geometry) (z dz lo hi : ℝ) : ℝ :=
  ∫ m in (10 : ℝ) ^ lo..(10 : ℝ) ^ hi, m * survival b.massField b.massFieldKw b.logMc m *
    Spec97.dNdmField W { cold b lo with logMhigh := hi } g z dz m

end Spec99

theorem wdm_field_moment {W : Run.World} {E : Preset.Env} {b : WdmArgs} {o : Cls × Kwargs}
    (ho : massFunctionModel E b.massField b.massFieldKw = .ok o) (hF : Spec91.suppressed b.massField b.massFieldKw)
    (hF' : Spec91.fieldName b.massField) {S : Setup} (hS : S.kc = b.kwargsCosmo) {z dz lo hi : ℝ} {i : ℕ} :
    (massFnOf W i (losModel W S o.1 (wdmLosKwargs b (o.2.set "log_mc" (.num b.logMc))) z dz lo hi)).firstMoment =
      Spec99.fieldMass W b S.geometry z dz lo hi := by
  have hT := los_survival ho hF b.logMc
  set kwF := wdmLosKwargs b (o.2.set "log_mc" (.num b.logMc)) with hkwF
  have g3 : kwF "draw_poisson" = some (.bool b.drawPoisson) := by rw [hkwF, wdmLos_get b _ _ (by simp)]; simp [ofList_cons]
  have g4 : kwF "LOS_normalization" = some (.num b.losNormalization) := by
    rw [hkwF, wdmLos_get b _ _ (by simp)]; simp [ofList_cons]
  have g5 : kwF "delta_power_law_index" = some (.num 0) := by rw [hkwF, wdmLos_get b _ _ (by simp)]; simp [ofList_cons]
  have g6 : kwF "m_pivot" = some (.num (10 ^ 8)) := by rw [hkwF, wdmLos_get b _ _ (by simp)]; simp [ofList_cons]
  set fit := massFit W b.kwargsCosmo z (10 ^ 8) lo hi with hfit
  set p : PowerLaw := ⟨lo, hi, fit.1 + 0, b.drawPoisson,
      b.losNormalization * ((10 : ℝ) ^ fit.2 / (10 ^ 8) ^ (fit.1 + 0)) *
        volumeElement W b.kwargsCosmo S.geometry z dz⟩ with hp
  have hm : losModel W S o.1 kwF z dz lo hi = .ok (p, some (Spec99.survival b.massField b.massFieldKw b.logMc)) := by
    unfold losModel
    rw [if_neg (not_not.2 (field_class ho hF'))]
    simp only [bind, Except.bind, hT, losPowerLaw, losAmplitude, Kwargs.num, g3, g4, g5, g6, hS, pure, Except.pure, hp, ← hfit]
  rw [hm]
  show (∫ m in ((10 : ℝ) ^ p.logMlow)..((10 : ℝ) ^ p.logMhigh), turnoverIntegrand p.norm 1 p.index _ m) = _
  unfold Spec99.fieldMass
  refine intervalIntegral.integral_congr fun m hmm => ?_
  have hL := pow10_pos lo
  have hm0 : 0 < m := lt_of_lt_of_le (lt_min hL (pow10_pos hi)) hmm.1
  simp only [turnoverIntegrand, Spec97.dNdmField, hp, Spec99.cold, ← hfit]
  rw [Real.div_rpow hm0.le (by positivity), Real.rpow_add hm0, Real.rpow_one]
  ring

theorem wdm_sub_moment {W : Run.World} {E : Preset.Env} {b : WdmArgs} {d : Dicts} {r : Request} (hr : (Preset.wdm E b d).1 = .ok r)
    (n1 : b.massSubKw "sigma_sub" = none) (n2 : b.massSubKw "dndA" = none) (hs : Spec91.suppressed b.massSub b.massSubKw)
    {S : Setup} (hS : S.kc = b.kwargsCosmo) (hz : S.zLens = b.zLens) (hc : S.geometry.openingAngle = b.cone) {o : Cls × Kwargs}
    (ho : massFunctionModel E b.massSub b.massSubKw = .ok o) {lo hi : ℝ} {i : ℕ} :
    (massFnOf W i (subModel W S o.1 (wdmSubKwargs b (o.2.set "log_mc" (.num b.logMc))) lo hi)).firstMoment =
      Spec99.subMass W b lo hi := by
  obtain ⟨o', ho', -, -, hlaw⟩ := wdm_subLaw (W := W) hr n1 n2 hS hz hc
  rw [ho] at ho'
  cases ho'
  unfold subModel
  rw [hlaw, sub_survival ho hs]
  show (∫ m in ((10 : ℝ) ^ lo)..((10 : ℝ) ^ hi), turnoverIntegrand _ 1 _ _ m) = _
  unfold Spec99.subMass
  refine intervalIntegral.integral_congr fun m hmm => ?_
  have hm0 : 0 < m := lt_of_lt_of_le (lt_min (pow10_pos lo) (pow10_pos hi)) hmm.1
  simp only [turnoverIntegrand, Spec97.dNdm, cdmSubLaw, Spec99.cold]
  rw [Real.rpow_add hm0, Real.rpow_one]
  ring

/-- The rendering classes of a call of `WDM`: subhalos, line of sight, and the two-halo term, which has no sheets. -/
theorem wdm_classes {W : Run.World} {K : Kit} {E : Preset.Env} {b : WdmArgs} {d : Dicts} {r : Request} {S : Setup}
    {cs : List (Option RClass)} (hr : (Preset.wdm E b d).1 = .ok r) {lo : ℝ → ℝ} (hlo : Spec99.Lowest W b lo)
    (h : renderingClasses W K S r = .ok cs) :
    ∃ (P G : List ℝ) (s : Spatial) (o f : Cls × Kwargs), lensPlanes (some S.zLens) S.zSource b.planeSpacing = .ok (P, G) ∧
      massFunctionModel E b.massSub b.massSubKw = .ok o ∧ massFunctionModel E b.massField b.massFieldKw = .ok f ∧
      cs.filterMap id = [subhalosRClass (fun x y => massFnOf W 0 (subModel W S o.1
          (wdmSubKwargs b (o.2.set "log_mc" (.num b.logMc))) x y)) (geometryView S.geometry) (lensCosmoOf K S) (lo S.zLens) b.logMhigh,
        (LosClass.mk P G (fun z dz x y => massFnOf W 1 (losModel W S f.1
          (wdmLosKwargs b (f.2.set "log_mc" (.num b.logMc))) z dz x y))
          lo (fun _ => b.logMhigh) s (W.kpc S.kc)).toRClass (geometryView S.geometry) (lensCosmoOf K S)] ++
        if b.twoHalo then [noSheetRClass "TWO_HALO_TERM"] else [] := by
  obtain ⟨-, inf, ms, mf, csub, cfield, cHost, -, hmass, -, has⟩ := wdm_ok hr
  obtain ⟨hpl, -⟩ := wdmAssemble_rest has
  obtain ⟨-, ts, tf, sp, spKw, -, hsp, hp, hf, hk, hss, -⟩ := wdmAssemble_ok has
  obtain ⟨sm, fm, hsm, hfm, rfl, rfl⟩ := wdmMass_ok hmass
  simp only at hf hk
  obtain ⟨g1, g2, -⟩ := wdmSub_std b (sm.2.set "log_mc" (.num b.logMc))
  have f1 : wdmLosKwargs b (fm.2.set "log_mc" (.num b.logMc)) "log_mlow" = some b.logMlow := by
    rw [wdmLos_get b _ _ (by simp)]; simp [ofList_cons]
  have f2 : wdmLosKwargs b (fm.2.set "log_mc" (.num b.logMc)) "log_mhigh" = some (.num b.logMhigh) := by
    rw [wdmLos_get b _ _ (by simp)]; simp [ofList_cons]
  unfold renderingClasses at h
  obtain ⟨⟨P, G⟩, hP, h⟩ := bind_ok h
  rw [hpl] at hP
  rw [hp] at h
  simp only [List.cons_append, List.nil_append, List.zipIdx_cons, List.mapM_cons] at h
  obtain ⟨c1, h1, h⟩ := bind_ok h
  obtain ⟨cs', h23, h⟩ := bind_ok h
  obtain ⟨c2, h2, h34⟩ := bind_ok h23
  obtain ⟨cs'', h3, h4⟩ := bind_ok h34
  cases h4
  cases h
  clear h23 h34
  have at0 : ∀ {p : String × ℕ} {c : Option RClass}, renderingClassAt W K S r P G p = .ok c → ∃ mc mkw sc skw q,
      r.massFunctions[p.2]? = some mc ∧ r.massKwargs[p.2]? = some mkw ∧ c = some q ∧
      renderingClass W K S P G p.2 p.1 mc mkw sc skw = .ok q := by
    intro p c hc
    unfold renderingClassAt at hc
    obtain ⟨mc, e1, hc⟩ := bind_ok hc
    obtain ⟨mkw, e2, hc⟩ := bind_ok hc
    obtain ⟨sc, -, hc⟩ := bind_ok hc
    obtain ⟨skw, -, hc⟩ := bind_ok hc
    obtain ⟨q, hq, hc⟩ := bind_ok hc
    cases hc
    exact ⟨mc, mkw, sc, skw, q, item_ok.1 e1, item_ok.1 e2, rfl, hq⟩
  obtain ⟨mc, mkw, sc, skw, q1, e1, e2, rfl, e3⟩ := at0 h1
  obtain ⟨mc', mkw', sc', skw', q2, e1', e2', rfl, e3'⟩ := at0 h2
  rw [hf] at e1 e1'
  rw [hk] at e2 e2'
  simp only [List.cons_append, List.getElem?_cons_zero, List.getElem?_cons_succ, Nat.zero_add, Option.some.injEq] at e1 e2 e1' e2'
  subst e1 e2 e1' e2'
  have t1 : q1 = subhalosRClass (fun x y => massFnOf W 0 (subModel W S sm.1 (wdmSubKwargs b (sm.2.set "log_mc" (.num b.logMc))) x y))
          (geometryView S.geometry) (lensCosmoOf K S) (lo S.zLens) b.logMhigh := by
    have l2 : limit W (wdmSubKwargs b (sm.2.set "log_mc" (.num b.logMc))) "log_mhigh" = .ok fun _ => b.logMhigh := by
      unfold limit; rw [g2]
    simp only [renderingClass, if_true, wdm_limit hlo g1, l2, bind, Except.bind, pure, Except.pure] at e3
    exact (Except.ok.inj e3).symm
  simp only [renderingClass, if_neg (show ¬ "LINE_OF_SIGHT" = "SUBHALOS" by decide), if_true] at e3'
  obtain ⟨s, -, e3'⟩ := bind_ok e3'
  obtain ⟨c, hc, e3'⟩ := bind_ok e3'
  cases e3'
  obtain ⟨lo', hi', hlo', hhi', rfl⟩ := losClassOf_ok hc
  rw [wdm_limit hlo f1] at hlo'
  cases hlo'
  have hhi : hi' = fun _ => b.logMhigh := by
    unfold limit at hhi'; rw [f2] at hhi'; cases hhi'; rfl
  subst hhi
  refine ⟨P, G, s, sm, fm, hP, hsm, hfm, ?_⟩
  rw [t1]
  cases h2 : b.twoHalo <;> rw [h2] at h3
  · simp only [Bool.false_eq_true, if_false, List.zipIdx_nil, List.mapM_nil] at h3
    cases h3
    rfl
  · simp only [if_true, List.zipIdx_cons, List.zipIdx_nil, List.mapM_cons, List.mapM_nil] at h3
    obtain ⟨c3, h6, h4⟩ := bind_ok h3
    obtain ⟨cs, h5, h4⟩ := bind_ok h4
    cases h5
    cases h4
    obtain ⟨mc', mkw', sc', skw', q3, -, -, rfl, e3⟩ := at0 h6
    have t3 : q3 = noSheetRClass "TWO_HALO_TERM" := by
      simp [renderingClass] at e3
      exact e3.symm
    rw [t3]
    rfl

/-- Whatever is done after the rendering, the realization keeps its sheets, its cosmology and its centre. -/
theorem wdmCall_context {W : Run.World} {K : Kit} {E : Preset.Env} {a : WdmArgs} {d : Dicts} {s : Ext.Store} {R : Realization}
    (hgc : a.globularClusters = none) (h : wdmCall W K E a d = .ok (s, R)) :
    ∃ r g classes, (Preset.wdm E a d).1 = .ok r ∧ geometryOf W a.zLens a.zSource a.cone a.geometryType a.kwargsCosmo = .ok g ∧
      renderingClasses W K ⟨a.zLens, a.zSource, a.kwargsCosmo, g⟩ r = .ok classes ∧ R.renderingClasses = classes ∧
      R.applyMassSheet = true ∧ R.lensCosmo = lensCosmoOf K ⟨a.zLens, a.zSource, a.kwargsCosmo, g⟩ ∧
      R.centerX = (fun _ => 0) ∧ R.centerY = fun _ => 0 := by
  obtain ⟨r, g, ⟨s₀, R₀⟩, hr, hg, hp, h⟩ := wdmCall_ok h
  obtain ⟨rows, classes, os, h1, h2, h3, h4⟩ := realize_ok hp
  have hR : Live s₀ R₀.halos := by
    obtain ⟨_, -, hR, -⟩ := c94_realization W K _ r s₀ R₀ hp
    exact hR.live
  obtain ⟨rfl, rfl⟩ := Prod.mk.injEq .. ▸ h4
  refine ⟨r, g, classes, hr, hg, h2, ?_⟩
  rw [wdm_post hr, hgc] at h
  cases ht : a.sisThreshold with
  | none =>
    rw [ht] at h
    simp only [List.append_nil, List.foldlM_nil] at h
    cases h
    exact ⟨rfl, rfl, rfl, rfl, rfl⟩
  | some t =>
    rw [ht] at h
    simp only [List.nil_append, List.foldlM_cons, List.foldlM_nil] at h
    obtain ⟨p, hp', h⟩ := bind_ok h
    cases h
    obtain ⟨hc, -⟩ := c37_injection K.phys t "GNFW" _ _ hR s R hp'
    rw [hc.classes, hc.sheets, hc.lensCosmo, hc.centerX, hc.centerY]
    exact ⟨rfl, rfl, rfl, rfl, rfl⟩

/-- **C99**, sheets. The lens model of a call of `WDM` (without clusters): first the components of the halos; then, if subhalos
are expected to have mass, one sheet at the lens that takes away `kappa_scale_subhalos` times the expected mass of those that
survive; then for each lens plane in the redshift window on which field halos are expected to have mass one sheet that takes
away `kappa_scale` times the expected mass of those that survive; and nothing else. The expected mass is that between the mass
limits of the call if `use_class_mass_ranges`, otherwise that between the limits of the sheets. Missing: dictionaries with an
amplitude of their own. -/
theorem c99_sheets_partial (W : Run.World) (K : Kit) (E : Preset.Env) (b : WdmArgs) (d : Dicts) (s : Ext.Store) (R : Realization)
    (hgc : b.globularClusters = none) (h : wdmCall W K E b d = .ok (s, R)) (useClass : Bool) (q : Realization.SheetArgs)
    (hex : q.subtractExact = false) (lo : ℝ → ℝ) (hlo : Spec99.Lowest W b lo)
    (hS : Spec91.suppressed b.massSub b.massSubKw) (hF : Spec91.suppressed b.massField b.massFieldKw)
    (hF' : Spec91.fieldName b.massField) (n1 : b.massSubKw "sigma_sub" = none) (n2 : b.massSubKw "dndA" = none)
    (hcrit : ∀ g, geometryOf W b.zLens b.zSource b.cone b.geometryType b.kwargsCosmo = .ok g →
      ∀ z, Spec90.rendered b.zLens b.zSource b.planeSpacing z →
        0 < K.sigmaCritMass b.zLens b.zSource b.kwargsCosmo z (Spec98.area g z))
    (hh : ∀ k ∈ R.halos, (s.obj k).lensIDs.length = (s.obj k).lensParams.length) :
    let low := fun z => if useClass then lo z else q.logMlow
    let high := if useClass then b.logMhigh else q.logMhigh
    ∃ (g : Geometry) (P G : List ℝ) (ns : List String) (zs : List ℝ) (ks : List Kw) (sub los : List (String × ℝ × Kw)),
      geometryOf W b.zLens b.zSource b.cone b.geometryType b.kwargsCosmo = .ok g ∧
      lensPlanes (some b.zLens) b.zSource b.planeSpacing = .ok (P, G) ∧
      R.lensingQuantities s.heap true useClass q = .ok (ns, zs, ks) ∧ SameLengths ns zs ks ∧
      triples ns zs ks = haloComponents s.heap R ++ (sub ++ los) ∧
      (Spec99.subMass W b (low b.zLens) high = 0 → sub = []) ∧
      (Spec99.subMass W b (low b.zLens) high ≠ 0 → ∃ t, sub = [t] ∧ Spec98.Sheet q.kappaScaleSubhalos
        (Spec99.subMass W b (low b.zLens) high)
        (K.sigmaCritMass b.zLens b.zSource b.kwargsCosmo b.zLens (Spec98.area g b.zLens)) b.zLens t) ∧
      List.Forall₂ (fun (p : ℝ × ℝ) t => Spec98.Sheet q.kappaScale (Spec99.fieldMass W b g p.1 p.2 (low p.1) high)
          (K.sigmaCritMass b.zLens b.zSource b.kwargsCosmo p.1 (Spec98.area g p.1)) p.1 t)
        ((P.zip G).filter fun p => decide ((q.zmin.getD 0 ≤ p.1 ∧ p.1 ≤ q.zmax.getD b.zSource) ∧
          0 < Spec99.fieldMass W b g p.1 p.2 (low p.1) high)) los := by
  intro low high
  obtain ⟨r, g, classes, hr, hg, hcl, c1, c2, c3, c4, c5⟩ := wdmCall_context hgc h
  obtain ⟨P, G, sp, o, f, hP, ho, hf, hcs⟩ := wdm_classes hr hlo hcl
  set S : Setup := ⟨b.zLens, b.zSource, b.kwargsCosmo, g⟩ with hSd
  have hgo : S.geometry.openingAngle = b.cone := by
    unfold geometryOf at hg
    obtain ⟨v, -, hg⟩ := bind_ok hg
    cases hg
    rfl
  set mS := fun x y => massFnOf W 0 (subModel W S o.1 (wdmSubKwargs b (o.2.set "log_mc" (.num b.logMc))) x y) with hmS
  set c : LosClass := LosClass.mk P G (fun z dz x y => massFnOf W 1 (losModel W S f.1
          (wdmLosKwargs b (f.2.set "log_mc" (.num b.logMc))) z dz x y)) lo (fun _ => b.logMhigh) sp (W.kpc S.kc) with hc
  have hstd : ∀ c, some c ∈ R.renderingClasses → StandardClass (geometryView g) R.lensCosmo c := by
    intro c hc
    have : c ∈ classes.filterMap id := by rw [c1] at hc; simpa using hc
    rw [hcs] at this
    rw [c3]
    rcases List.mem_append.1 this with hm | hm
    · rcases List.mem_cons.1 hm with rfl | hm
      · exact .subhalos _ _ _
      · rw [List.mem_singleton.1 hm]; exact .los _
    · have : c = noSheetRClass "TWO_HALO_TERM" := by
        split at hm <;> simpa using hm
      subst this
      exact .noSheet _
  obtain ⟨ns, zs, ks, T, l1, l2, l3, l4⟩ := c55_lensing_quantities s.heap R (geometryView g) useClass q c2 hex hh hstd
  rw [c1, hcs, List.flatMap_append] at l4
  have hlast : ((if b.twoHalo then [noSheetRClass "TWO_HALO_TERM"] else []).flatMap fun c =>
      triples (sheetsOf q useClass c).2.1 (sheetsOf q useClass c).2.2 (sheetsOf q useClass c).1) = [] := by
    cases b.twoHalo
    · rfl
    · simp only [if_true, List.flatMap_cons, List.flatMap_nil, List.append_nil]
      unfold sheetsOf noSheetRClass
      split_ifs <;> rfl
  rw [hlast, List.append_nil] at l4
  simp only [List.flatMap_cons, List.flatMap_nil, List.append_nil] at l4
  obtain ⟨sub, los, m1, m2, rfl⟩ := forall₂_append_split l4
  refine ⟨g, P, G, ns, zs, ks, sub, los, hg, hP, l1, l2, l3, ?_⟩
  -- subhalos
  have hsub := c55_subhalo_sheets mS
    (geometryView g) (lensCosmoOf K S) (lo S.zLens) b.logMhigh q.kappaScaleSubhalos q.logMlow q.logMhigh useClass (hcrit g hg _ (.inl rfl))
  have hM : (if useClass = true then mS (lo S.zLens) b.logMhigh else mS q.logMlow q.logMhigh).firstMoment =
      Spec99.subMass W b (low b.zLens) high := by
    rw [← wdm_sub_moment hr n1 n2 hS (S := S) rfl rfl hgo ho (i := 0)]
    cases useClass <;> rfl
  simp only [hM] at hsub
  obtain ⟨-, s2, s3⟩ := hsub
  have hse : sheetsOf q useClass (subhalosRClass mS (geometryView S.geometry) (lensCosmoOf K S) (lo S.zLens) b.logMhigh) =
      subhaloSheets mS
    (geometryView g) (lensCosmoOf K S) (lo S.zLens) b.logMhigh q.kappaScaleSubhalos q.logMlow q.logMhigh useClass := by
    unfold sheetsOf
    rw [if_pos (by rfl)]
    rfl
  rw [hse] at m1
  refine ⟨fun h0 => ?_, fun h0 => ?_, ?_⟩
  · rw [s2 h0] at m1
    simpa [triples] using m1
  · obtain ⟨t, t1, t2⟩ := s3 h0
    rw [t1] at m1
    cases m1 with
    | cons hm hn =>
      cases hn
      exact ⟨_, rfl, moved_sheet c4 c5 t2 hm⟩
  · have hlos := c55_line_of_sight_sheets c (geometryView g) (lensCosmoOf K S) q.kappaScale q.logMlow q.logMhigh q.zmin q.zmax
      useClass (fun _ hp _ => hcrit g hg _ (.inr ⟨P, G, hP, (List.of_mem_zip hp).1⟩))
    simp only at hlos
    obtain ⟨-, f2⟩ := hlos
    have hFp : ∀ p : ℝ × ℝ, (if useClass = true then c.model p.1 p.2 (c.logMlow p.1) (c.logMhigh p.1)
        else c.model p.1 p.2 q.logMlow q.logMhigh).firstMoment = Spec99.fieldMass W b g p.1 p.2 (low p.1) high := by
      intro p
      rw [← wdm_field_moment hf hF hF' (S := S) rfl (i := 1)]
      cases useClass <;> rfl
    simp only [hFp] at f2
    have hse' : sheetsOf q useClass (c.toRClass (geometryView S.geometry) (lensCosmoOf K S)) =
        c.sheets (geometryView g) (lensCosmoOf K S) q.kappaScale q.logMlow q.logMhigh q.zmin q.zmax useClass := by
      unfold sheetsOf
      rw [if_neg (by simp [LosClass.toRClass])]
      rfl
    rw [hse'] at m2
    rw [List.filter_congr (q := fun p => decide ((q.zmin.getD 0 ≤ p.1 ∧ p.1 ≤ q.zmax.getD b.zSource) ∧
      0 < Spec99.fieldMass W b g p.1 p.2 (low p.1) high)) (fun p _ => by rw [decide_eq_decide]; rfl)] at f2
    refine forall₂_trans' (q := SheetMoved R) (fun p t t' hp ht => ?_) f2 m2
    exact moved_sheet c4 c5 hp ht

/-! ## The sheets compensate the surviving halos on average -/

/-- The expected number times the mean of a function of the mass of a draw is the integral of the function over the mass function. -/
theorem mean_weighted (p : PowerLaw) (h : p.logMlow < p.logMhigh) (hn : p.norm ≠ 0) (f : ℝ → ℝ) (hf : ContinuousOn f (Set.Ioi 0)) :
    p.nMean * (∫ u in (0:ℝ)..1, f (p.invert u)) = ∫ m in (10:ℝ) ^ p.logMlow..(10:ℝ) ^ p.logMhigh, f m * p.evaluate m := by
  have hL := pow10_pos p.logMlow
  have hH := pow10_pos p.logMhigh
  have hLH : (10:ℝ) ^ p.logMlow < (10:ℝ) ^ p.logMhigh := Real.rpow_lt_rpow_of_exponent_lt (by norm_num) h
  have m1 := (c52_moments p h).1
  set L := (10:ℝ) ^ p.logMlow with hLd
  set H := (10:ℝ) ^ p.logMhigh with hHd
  have hpos : ∀ m ∈ Set.uIcc L H, 0 < m := by
    intro m hm; rw [Set.uIcc_of_le hLH.le] at hm; exact lt_of_lt_of_le hL hm.1
  have hcont : ContinuousOn p.evaluate (Set.Ioi 0) := by
    unfold PowerLaw.evaluate
    exact continuousOn_const.mul (continuousOn_id.rpow_const fun x hx => .inl (ne_of_gt hx))
  have hN : p.nMean ≠ 0 := by
    rw [m1]
    have : (∫ m in L..H, p.evaluate m) = p.norm * ∫ m in L..H, m ^ p.index := by
      rw [← intervalIntegral.integral_const_mul]; rfl
    rw [this]
    refine mul_ne_zero hn (ne_of_gt ?_)
    refine intervalIntegral.intervalIntegral_pos_of_pos_on ?_ (fun x hx => Real.rpow_pos_of_pos (lt_trans hL hx.1) _) hLH
    exact (continuousOn_id.rpow_const fun x hx => .inl (ne_of_gt (hpos x hx))).intervalIntegrable
  set F : ℝ → ℝ := fun m => (∫ x in L..m, p.evaluate x) / p.nMean with hF
  have hderiv : ∀ m ∈ Set.uIcc L H, HasDerivAt F (p.evaluate m / p.nMean) m := by
    intro m hm
    have hm0 := hpos m hm
    have hint : IntervalIntegrable p.evaluate MeasureTheory.volume L m := by
      refine (hcont.mono fun x hx => ?_).intervalIntegrable
      exact lt_of_lt_of_le (lt_min hL hm0) hx.1
    exact (intervalIntegral.integral_hasDerivAt_right hint
      (hcont.stronglyMeasurableAtFilter isOpen_Ioi m hm0) (hcont.continuousAt (isOpen_Ioi.mem_nhds hm0))).div_const _
  have hF0 : F L = 0 := by simp [hF]
  have hF1 : F H = 1 := by simp only [hF]; rw [← m1]; exact div_self hN
  have hrange : ∀ m ∈ Set.uIcc L H, F m ∈ Set.Icc (0:ℝ) 1 := by
    intro m hm
    rw [Set.uIcc_of_le hLH.le] at hm
    have hnorm : ∀ x, p.evaluate x = p.norm * x ^ p.index := fun _ => rfl
    have hq : F m = (∫ x in L..m, x ^ p.index) / ∫ x in L..H, x ^ p.index := by
      simp only [hF, m1, hnorm, intervalIntegral.integral_const_mul]
      exact mul_div_mul_left _ _ hn
    have hc : ∀ a b, L ≤ a → a ≤ b → IntervalIntegrable (fun x : ℝ => x ^ p.index) MeasureTheory.volume a b := by
      intro a b ha hab
      refine (continuousOn_id.rpow_const fun x hx => .inl (ne_of_gt ?_)).intervalIntegrable
      rw [Set.uIcc_of_le hab] at hx
      exact lt_of_lt_of_le hL (ha.trans hx.1)
    have i1 : 0 ≤ ∫ x in L..m, x ^ p.index :=
      intervalIntegral.integral_nonneg hm.1 fun x hx => Real.rpow_nonneg (hL.le.trans hx.1) _
    have i2 : 0 ≤ ∫ x in m..H, x ^ p.index :=
      intervalIntegral.integral_nonneg hm.2 fun x hx => Real.rpow_nonneg ((hL.le.trans hm.1).trans hx.1) _
    have i3 := intervalIntegral.integral_add_adjacent_intervals (hc L m le_rfl hm.1) (hc m H hm.1 hm.2)
    rw [hq]
    constructor
    · exact div_nonneg i1 (by linarith)
    · exact div_le_one_of_le₀ (by linarith) (by linarith)
  have hsub := intervalIntegral.integral_comp_mul_deriv'' (f := F) (f' := fun m => p.evaluate m / p.nMean) (g := fun u => f (p.invert u)) (a := L) (b := H)
    (fun m hm => (hderiv m hm).continuousAt.continuousWithinAt)
    (fun m hm => (hderiv m (Set.uIcc_of_le hLH.le ▸ Set.Ioo_subset_Icc_self (by rwa [min_eq_left hLH.le, max_eq_right hLH.le] at hm))).hasDerivWithinAt)
    ((hcont.mono fun m hm => hpos m hm).div_const _)
    ((hf.comp (invert_continuous p) fun u hu => lt_of_lt_of_le hL (invert_range p h.le u hu.1 hu.2).1).mono
      (by rintro _ ⟨m, hm, rfl⟩; exact hrange m hm))
  rw [hF0, hF1] at hsub
  rw [← hsub, ← intervalIntegral.integral_const_mul]
  refine intervalIntegral.integral_congr fun m hm => ?_
  have hm' : L ≤ m := by rw [Set.uIcc_of_le hLH.le] at hm; exact hm.1
  have := invert_quantile p h m hm' hn
  simp only [Function.comp, hF]
  rw [this]
  field_simp

/-- A mass that survives if a uniform variate is below `t` counts `t` times on average. -/
theorem mean_survivor (q t : ℝ) (h0 : 0 ≤ t) (h1 : t ≤ 1) : (∫ v in (0:ℝ)..1, if v < t then q else 0) = q * t := by
  have e : (fun v : ℝ => if v < t then q else 0) = (Set.Iio t).indicator (fun _ => q) := by
    funext v
    simp only [Set.indicator, Set.mem_Iio]
  rw [e, intervalIntegral.integral_of_le (by norm_num), MeasureTheory.setIntegral_indicator measurableSet_Iio,
    MeasureTheory.setIntegral_const]
  have hset : MeasureTheory.volume (Set.Ioc (0:ℝ) 1 ∩ Set.Iio t) = ENNReal.ofReal t := by
    apply le_antisymm
    · calc _ ≤ MeasureTheory.volume (Set.Ioc (0:ℝ) t) := MeasureTheory.measure_mono fun v hv => ⟨hv.1.1, (show v < t from hv.2).le⟩
        _ = _ := by simp
    · calc ENNReal.ofReal t = MeasureTheory.volume (Set.Ioo (0:ℝ) t) := by simp
        _ ≤ MeasureTheory.volume (Set.Ioc (0:ℝ) 1 ∩ Set.Iio t) := MeasureTheory.measure_mono fun v hv => ⟨⟨hv.1, hv.2.le.trans h1⟩, hv.2⟩
  rw [MeasureTheory.measureReal_def, hset, ENNReal.toReal_ofReal h0, smul_eq_mul, mul_comm]

/-- The surviving fraction lies between 0 and 1 and depends continuously on the mass. -/
theorem survival_props {name : String} {kw : Kwargs} (hs : Spec91.suppressed name kw) (mc : ℝ) :
    (∀ m, 0 < m → 0 ≤ Spec99.survival name kw mc m ∧ Spec99.survival name kw mc m ≤ 1) ∧
    ContinuousOn (Spec99.survival name kw mc) (Set.Ioi 0) := by
  have hl : ∀ a b c : ℝ, 0 ≤ a → c ≤ 0 → (∀ m, 0 < m → 0 ≤ turnoverWDM mc a b c m ∧ turnoverWDM mc a b c m ≤ 1) ∧
      ContinuousOn (turnoverWDM mc a b c) (Set.Ioi 0) := by
    intro a b c ha hc
    refine ⟨fun m hm => ⟨(c20_wdm_factor mc a b c m ha hc hm).1.le, (c20_wdm_factor mc a b c m ha hc hm).2⟩, ?_⟩
    unfold turnoverWDM
    have hp : ∀ m ∈ Set.Ioi (0:ℝ), 0 < (10:ℝ) ^ mc / m := fun m hm => div_pos (pow10_pos _) hm
    refine ContinuousOn.rpow_const (continuousOn_const.add (continuousOn_const.mul (ContinuousOn.rpow_const
      (continuousOn_const.div continuousOn_id fun m hm => ne_of_gt hm) fun m hm => .inl (hp m hm).ne')))
      fun m hm => .inl ?_
    have := mul_nonneg ha (Real.rpow_nonneg (hp m hm).le b)
    positivity
  have use : ∀ a b c : ℝ, 0 ≤ a → c ≤ 0 → Spec99.survival name kw mc = turnoverWDM mc a b c →
      (∀ m, 0 < m → 0 ≤ Spec99.survival name kw mc m ∧ Spec99.survival name kw mc m ≤ 1) ∧
    ContinuousOn (Spec99.survival name kw mc) (Set.Ioi 0) := by
    intro a b c ha hc e
    rw [e]
    exact hl a b c ha hc
  rcases hs with hs | ⟨a, b, c, e1, e2, e3, ha, hb, hc, hs | ⟨hs, f, e4, hf, hf'⟩⟩
  · simp only [List.mem_cons, List.not_mem_nil, or_false] at hs
    rcases hs with rfl | rfl | rfl | rfl | rfl | rfl
    · exact use 36.15 2.5 (-0.2) (by norm_num) (by norm_num) (by funext m; simp [Spec99.survival, turnoverWDM])
    · exact use 1.95 0.8 (-1) (by norm_num) (by norm_num) (by funext m; simp [Spec99.survival, turnoverWDM])
    · exact use 1 1 (-1.3) (by norm_num) (by norm_num) (by funext m; simp [Spec99.survival, turnoverWDM])
    · exact use 1 1 (-1.3) (by norm_num) (by norm_num) (by funext m; simp [Spec99.survival, turnoverWDM])
    · exact use 1 1.1 (-2.2) (by norm_num) (by norm_num) (by funext m; simp [Spec99.survival, turnoverWDM])
    · exact use 1 1.1 (-2.2) (by norm_num) (by norm_num) (by funext m; simp [Spec99.survival, turnoverWDM])
  · simp only [List.mem_cons, List.not_mem_nil, or_false] at hs
    rcases hs with rfl | rfl <;>
      exact use a b c ha hc (by funext m; simp [Spec99.survival, Spec99.entry, turnoverWDM, e1, e2, e3])
  · have e : Spec99.survival name kw mc = turnoverMixed mc a b c f := by
      funext m
      simp only [List.mem_cons, List.not_mem_nil, or_false] at hs
      rcases hs with rfl | rfl <;> simp [Spec99.survival, Spec99.entry, turnoverMixed, e1, e2, e3, e4]
    rw [e]
    refine ⟨fun m hm => ⟨(sq_nonneg f).trans (c20_mixed_factor mc a b c f m ha hc hm hf hf').1,
      (c20_mixed_factor mc a b c f m ha hc hm hf hf').2⟩, ?_⟩
    have := (hl a b c ha hc).2
    unfold turnoverWDM at this
    unfold turnoverMixed
    exact (continuousOn_const.add (continuousOn_const.mul this.sqrt)).pow 2

/-- **C99**, subhalos on average. For every call of `WDM` that expects subhalos there is a function `Q` such that, whatever the
random numbers, the subhalos are what survives of the masses `Q (u i)`; and the number drawn on average, times the mean over both
variates of the surviving mass, is the mass that the sheet takes away with `use_class_mass_ranges`. -/
theorem c99_unbiased_subhalos_partial (W : Run.World) (E : Preset.Env) (b : WdmArgs) (d : Dicts) (lo : ℝ → ℝ)
    (hlo : Spec99.Lowest W b lo) (hlt : lo b.zLens < b.logMhigh) (hS : Spec91.suppressed b.massSub b.massSubKw)
    (n1 : b.massSubKw "sigma_sub" = none) (n2 : b.massSubKw "dndA" = none)
    (hn : Spec97.upTo W (Spec99.cold b (lo b.zLens)) (10 ^ b.logMhigh) ≠ 0) :
    let T := Spec99.survival b.massSub b.massSubKw b.logMc
    let N := Spec97.upTo W (Spec99.cold b (lo b.zLens)) (10 ^ b.logMhigh)
    ∃ Q : ℝ → ℝ, N * (∫ u in (0 : ℝ)..1, ∫ v in (0 : ℝ)..1, if v < T (Q u) then Q u else 0) =
        Spec99.subMass W b (lo b.zLens) b.logMhigh ∧
      ∀ (u v : ℕ → ℕ → ℕ → ℝ) (k : ℕ → ℕ → ℕ) (out : List HaloArgs), Variates { W with mass := u, pois := k, accept := v } →
        runWdm { W with mass := u, pois := k, accept := v } E b d = .ok out →
        ((out.filter fun t => t.isSubhalo).map fun t => t.mass) = Spec99.kept T (v 0 0)
          ((List.range (Spec97.number b.drawPoisson (k 0 0) N)).map fun i => Q (u 0 0 i)) := by
  intro T N
  set p := cdmSubLaw W (Spec99.cold b (lo b.zLens)) with hp
  have hmean : p.nMean = N := by rw [(c52_moments p hlt).1]; rfl
  have hn' : p.norm ≠ 0 := nMean_norm (by rw [hmean]; exact hn)
  obtain ⟨t1, t2⟩ := survival_props hS b.logMc
  refine ⟨p.invert, ?_, fun u v k out hV h => ?_⟩
  · have hpos : ∀ u ∈ Set.uIcc (0:ℝ) 1, 0 < p.invert u := by
      intro u hu
      rw [Set.uIcc_of_le (by norm_num)] at hu
      exact lt_of_lt_of_le (pow10_pos _) (invert_range p hlt.le u hu.1 hu.2).1
    rw [intervalIntegral.integral_congr (g := fun u => p.invert u * T (p.invert u)) fun u hu =>
      mean_survivor _ _ (t1 _ (hpos u hu)).1 (t1 _ (hpos u hu)).2, ← hmean,
      mean_weighted p hlt hn' (fun m => m * T m) (continuousOn_id.mul t2)]
    rfl
  · obtain ⟨drawn, h1, h2⟩ := c99_subhalos_partial { W with mass := u, pois := k, accept := v } hV E b d out lo hlo hlt hS n1 n2 h
    rw [h2]
    congr 1
    have hlen : drawn.length = Spec97.number b.drawPoisson (k 0 0) N := h1.number
    refine List.ext_getElem? fun i => ?_
    by_cases hi : i < drawn.length
    · obtain ⟨e1, e2⟩ := h1.each i _ (List.getElem?_eq_getElem hi)
      have e := invert_quantile p hlt drawn[i] e1.1 hn'
      rw [show (∫ x in (10 : ℝ) ^ p.logMlow..drawn[i], p.evaluate x) = u 0 0 i * p.nMean by rw [hmean]; exact e2,
        mul_div_cancel_right₀ _ (by rw [hmean]; exact hn)] at e
      have hi' : i < Spec97.number b.drawPoisson (k 0 0) N := by rw [← hlen]; exact hi
      rw [List.getElem?_eq_getElem hi]
      simp [hi', e]
    · have hi' : ¬ i < Spec97.number b.drawPoisson (k 0 0) N := by rw [← hlen]; exact hi
      rw [List.getElem?_eq_none (Nat.le_of_not_lt hi)]
      simp [Nat.le_of_not_lt hi']

/-- **C99**, field halos on average: for every slice that expects field halos there is a function `Q` such that the drawn masses
of `c99_field_partial` are `Q` of the uniform variates, and the number drawn on average times the mean over both variates of the
surviving mass is the mass that the sheet of this slice takes away with `use_class_mass_ranges`. -/
theorem c99_unbiased_field (W : Run.World) (b : WdmArgs) (lo : ℝ) (g : Geometry) (z dz : ℝ) (hlt : lo < b.logMhigh)
    (hF : Spec91.suppressed b.massField b.massFieldKw)
    (hn : Spec97.fieldUpTo W (Spec99.cold b lo) g z dz (10 ^ b.logMhigh) ≠ 0) :
    let T := Spec99.survival b.massField b.massFieldKw b.logMc
    let N := Spec97.fieldUpTo W (Spec99.cold b lo) g z dz (10 ^ b.logMhigh)
    ∃ Q : ℝ → ℝ, N * (∫ u in (0 : ℝ)..1, ∫ v in (0 : ℝ)..1, if v < T (Q u) then Q u else 0) =
        Spec99.fieldMass W b g z dz lo b.logMhigh ∧
      ∀ (n : ℕ) (u : ℕ → ℝ) (drawn : List ℝ),
        Spec99.Quantiles n lo b.logMhigh (Spec97.fieldUpTo W (Spec99.cold b lo) g z dz) u drawn →
        drawn = (List.range n).map fun i => Q (u i) := by
  intro T N
  set a := Spec99.cold b lo with ha
  set fit := massFit W a.kwargsCosmo z (10 ^ 8) a.logMlow a.logMhigh with hfit
  set p : PowerLaw := ⟨a.logMlow, a.logMhigh, fit.1 + a.deltaPowerLawIndex, a.drawPoisson,
      a.losNormalization * ((10 : ℝ) ^ fit.2 / (10 ^ 8) ^ (fit.1 + a.deltaPowerLawIndex)) *
        volumeElement W a.kwargsCosmo g z dz⟩ with hp
  have hL := pow10_pos a.logMlow
  have hev : ∀ x : ℝ, 0 < x → p.evaluate x = Spec97.dNdmField W a g z dz x := by
    intro x hx
    simp only [PowerLaw.evaluate, Spec97.dNdmField, ← hfit, hp]
    rw [Real.div_rpow hx.le (by positivity)]
    ring
  have hint : ∀ x : ℝ, 0 < x → (∫ m in (10 : ℝ) ^ a.logMlow..x, p.evaluate m) = Spec97.fieldUpTo W a g z dz x := by
    intro x hx
    refine intervalIntegral.integral_congr fun m hm => hev m ?_
    exact lt_of_lt_of_le (lt_min hL hx) hm.1
  have hmean : p.nMean = N := by
    rw [(c52_moments p hlt).1]; exact hint _ (pow10_pos _)
  have hn' : p.norm ≠ 0 := nMean_norm (by rw [hmean]; exact hn)
  obtain ⟨t1, t2⟩ := survival_props hF b.logMc
  refine ⟨p.invert, ?_, fun n u drawn h1 => ?_⟩
  · have hpos : ∀ u ∈ Set.uIcc (0:ℝ) 1, 0 < p.invert u := by
      intro u hu
      rw [Set.uIcc_of_le (by norm_num)] at hu
      exact lt_of_lt_of_le (pow10_pos _) (invert_range p hlt.le u hu.1 hu.2).1
    rw [intervalIntegral.integral_congr (g := fun u => p.invert u * T (p.invert u)) fun u hu =>
      mean_survivor _ _ (t1 _ (hpos u hu)).1 (t1 _ (hpos u hu)).2, ← hmean,
      mean_weighted p hlt hn' (fun m => m * T m) (continuousOn_id.mul t2)]
    refine intervalIntegral.integral_congr fun m hm => ?_
    show m * T m * p.evaluate m = m * T m * Spec97.dNdmField W { a with logMhigh := b.logMhigh } g z dz m
    rw [hev m (lt_of_lt_of_le (lt_min hL (pow10_pos _)) hm.1)]
    rfl
  · refine List.ext_getElem? fun i => ?_
    by_cases hi : i < drawn.length
    · obtain ⟨e1, e2⟩ := h1.each i _ (List.getElem?_eq_getElem hi)
      have e := invert_quantile p hlt drawn[i] e1.1 hn'
      rw [show (∫ x in (10 : ℝ) ^ p.logMlow..drawn[i], p.evaluate x) = u i * p.nMean by
        rw [hmean, show u i * N = _ from e2.symm]; exact hint _ (lt_of_lt_of_le hL e1.1),
        mul_div_cancel_right₀ _ (by rw [hmean]; exact hn)] at e
      have hi' : i < n := by rw [← h1.number]; exact hi
      rw [List.getElem?_eq_getElem hi]
      simp [hi', e]
    · have hi' : ¬ i < n := by rw [← h1.number]; exact hi
      rw [List.getElem?_eq_none (Nat.le_of_not_lt hi)]
      simp [Nat.le_of_not_lt hi']

/-! ## A concrete case -/

/-- `WDM` with its defaults, a source at 1.5 and a half-mode mass of `10 ^ mc`. -/
theorem demo_wdm_call (E : Preset.Env) (mc : ℝ) :
    ∃ s R, wdmCall demoWorld demoLensKit E (wdmPlain 0.5 1.5 mc Kwargs.empty Kwargs.empty none) freshDicts = .ok (s, R) := by
  obtain ⟨r, hr⟩ := wdm_plain_ok E 0.5 1.5 mc Kwargs.empty Kwargs.empty none
  exact c99_wdm_works demoWorld demo_variates demoLensKit E _ freshDicts r hr (demo_ok _) (fun z _ => by norm_num [demoWorld])
    (by norm_num [wdmPlain]) (by norm_num [wdmPlain]) (fun _ => 6) (.inl ⟨rfl, fun _ => rfl⟩) (fun _ => by norm_num [wdmPlain])
    (by simp [wdmPlain]) (by norm_num [wdmPlain]) (by norm_num [wdmPlain]) (.inl (by simp [wdmPlain]))
    (.inl (by simp [wdmPlain])) (by simp [Spec91.fieldName, wdmPlain]) rfl rfl rfl
    (fun _ => ⟨by norm_num [wdmPlain], demo_host _ _ _⟩) (fun _ => demo_apart _)
    ⟨by simp [wdmPlain, Spec94.profiles], by simp [wdmPlain, Spec94.profiles]⟩ rfl

theorem demo_wdm_aligned {E : Preset.Env} {mc : ℝ} {s : Ext.Store} {R : Realization}
    (h : wdmCall demoWorld demoLensKit E (wdmPlain 0.5 1.5 mc Kwargs.empty Kwargs.empty none) freshDicts = .ok (s, R)) :
    ∀ k ∈ R.halos, (s.obj k).lensIDs.length = (s.obj k).lensParams.length := by
  obtain ⟨r, g, p₀, hr, hg, hp, h⟩ := wdmCall_ok h
  rw [wdm_post hr] at h
  cases h
  obtain ⟨rows, classes, os, h1, h2, h3, h4⟩ := realize_ok hp
  obtain ⟨rfl, rfl⟩ := Prod.mk.injEq .. ▸ h4
  obtain ⟨l1, l2⟩ := loadAll_ok h3
  intro k hk
  have hk : k < os.length := by simpa [newRealization, Realization.fromHalos] using hk
  obtain ⟨o, ho, hl⟩ := l2 k _ (List.getElem?_eq_getElem (l1 ▸ hk))
  obtain ⟨-, -, -, -, -, e⟩ := load_ok hl
  have : (storeOf (densityDict r.density) (os.map fun x => x.obj)).obj k = o.obj := by
    simp [storeOf, ho]
  rw [this, e]
  simp [demoLensKit]

/-- **C99** for calls that exist: with a larger cutoff there are fewer halos, and the lens model has its sheets. -/
example (E : Preset.Env) : ∃ s R s' R',
    wdmCall demoWorld demoLensKit E (wdmPlain 0.5 1.5 8 Kwargs.empty Kwargs.empty none) freshDicts = .ok (s, R) ∧
    wdmCall demoWorld demoLensKit E (wdmPlain 0.5 1.5 7 Kwargs.empty Kwargs.empty none) freshDicts = .ok (s', R') ∧
    (Spec99.keys s R).Sublist (Spec99.keys s' R') ∧
    ∃ ns zs ks, R.lensingQuantities s.heap true true {} = .ok (ns, zs, ks) ∧ SameLengths ns zs ks := by
  obtain ⟨s, R, h1⟩ := demo_wdm_call E 8
  obtain ⟨s', R', h2⟩ := demo_wdm_call E 7
  refine ⟨s, R, s', R', h1, h2, ?_, ?_⟩
  · exact c99_larger_cutoff demoWorld demo_variates demoLensKit demoLensKit E (wdmPlain 0.5 1.5 7 Kwargs.empty Kwargs.empty none)
      freshDicts freshDicts 7 8 (by norm_num) (.inl ⟨6, rfl, by norm_num [wdmPlain]⟩) (.inl (by simp [wdmPlain]))
      (.inl (by simp [wdmPlain])) rfl s s' R R' h1 h2
  · obtain ⟨g, P, G, ns, zs, ks, sub, los, -, -, l1, l2, -⟩ := c99_sheets_partial demoWorld demoLensKit E _ freshDicts s R rfl h1
      true {} rfl (fun _ => 6) (.inl ⟨rfl, fun _ => rfl⟩) (.inl (by simp [wdmPlain])) (.inl (by simp [wdmPlain]))
      (by simp [Spec91.fieldName, wdmPlain]) rfl rfl (fun _ _ _ _ => by norm_num [demoLensKit, demoKit]) (demo_wdm_aligned h1)
    exact ⟨ns, zs, ks, l1, l2⟩

/-- In the concrete world the call expects subhalos: the averages are about something. -/
theorem demo_wdm_expects (mc : ℝ) :
    Spec97.upTo demoWorld (Spec99.cold (wdmPlain 0.5 1.5 mc Kwargs.empty Kwargs.empty none) 6) (10 ^ (10 : ℝ)) ≠ 0 := by
  have hlt : (10 : ℝ) ^ (6 : ℝ) < 10 ^ (10 : ℝ) := Real.rpow_lt_rpow_of_exponent_lt (by norm_num) (by norm_num)
  have hpos : ∀ x : ℝ, 0 < x →
      0 < Spec97.dNdm demoWorld (Spec99.cold (wdmPlain 0.5 1.5 mc Kwargs.empty Kwargs.empty none) 6) x := by
    intro x hx
    simp only [Spec97.dNdm, Spec47.norm, Spec47.chosen, Spec99.cold, wdmPlain, demoWorld]
    positivity
  have h6 : (0 : ℝ) < 10 ^ (6 : ℝ) := by positivity
  refine (intervalIntegral.intervalIntegral_pos_of_pos_on ?_ (fun x hx => hpos x (h6.trans hx.1)) hlt).ne'
  apply ContinuousOn.intervalIntegrable
  rw [Set.uIcc_of_le hlt.le]
  exact continuousOn_const.mul (continuousOn_id.rpow_const fun x hx => .inl (h6.trans_le hx.1).ne')

example (E : Preset.Env) (mc : ℝ) : ∃ Q : ℝ → ℝ,
    Spec97.upTo demoWorld (Spec99.cold (wdmPlain 0.5 1.5 mc Kwargs.empty Kwargs.empty none) 6) (10 ^ (10 : ℝ)) *
      (∫ u in (0 : ℝ)..1, ∫ v in (0 : ℝ)..1,
        if v < Spec99.survival "LOVELL2020" Kwargs.empty mc (Q u) then Q u else 0) =
      Spec99.subMass demoWorld (wdmPlain 0.5 1.5 mc Kwargs.empty Kwargs.empty none) 6 10 := by
  obtain ⟨Q, h, -⟩ := c99_unbiased_subhalos_partial demoWorld E (wdmPlain 0.5 1.5 mc Kwargs.empty Kwargs.empty none) freshDicts
    (fun _ => 6) (.inl ⟨rfl, fun _ => rfl⟩) (by norm_num [wdmPlain]) (.inl (by simp [wdmPlain])) rfl rfl (demo_wdm_expects mc)
  exact ⟨Q, h⟩

end PyHalo.Props
