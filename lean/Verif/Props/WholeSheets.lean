import Verif.Props.WholeBHExamples
import Verif.Props.Sheets

/-!
# C98: the mass sheets of a whole call of `CDM`
-/

namespace PyHalo.Props
open PyHalo PyHalo.Spec PyHalo.Whole PyHalo.Preset PyHalo.Run

open scoped Classical

namespace Spec98

/-- The expected mass in subhalos between `10 ^ lo` and `10 ^ hi` solar masses. -/
noncomputable def subMass (W : Run.World) (a : CdmArgs) (lo hi : ℝ) : ℝ :=
  ∫ m in (10 : ℝ) ^ lo..(10 : ℝ) ^ hi, m * Spec97.dNdm W a m

/-- The expected mass in field halos of the slice at `z` between `10 ^ lo` and `10 ^ hi` solar masses, for the straight-line fit
made in this range. -/
noncomputable def fieldMass (W : Run.World) (a : CdmArgs) (g : Geometry) (z dz lo hi : ℝ) : ℝ :=
  ∫ m in (10 : ℝ) ^ lo..(10 : ℝ) ^ hi, m * Spec97.dNdmField W { a with logMlow := lo, logMhigh := hi } g z dz m

/-- The area of the aperture at redshift `z`. -/
noncomputable def area (g : Geometry) (z : ℝ) : ℝ := g.physicalArea (0.5 * g.openingAngle) z

/-- A component of the lens model is a uniform sheet at redshift `z`, centred on the line of sight, and takes away `scale` times
the mass `M` from an area whose critical mass is `Mcrit`. -/
structure Sheet (scale M Mcrit z : ℝ) (t : String × ℝ × Kw) : Prop where
  profile : t.1 = "CONVERGENCE"
  redshift : t.2.1 = z
  x : t.2.2.lookup "ra_0" = some 0
  y : t.2.2.lookup "dec_0" = some 0
  mass : ∃ κ, t.2.2.lookup "kappa" = some κ ∧ κ * Mcrit = -(scale * M)

end Spec98

/-! ## The rendering classes of a call -/

theorem field_moment {W : Run.World} {a : CdmArgs} {S : Setup} (hS : S.kc = a.kwargsCosmo) {z dz lo hi : ℝ} {i : ℕ}
    (hlt : lo < hi) :
    (massFnOf W i (losModel W S (.named "ShethTormen") (cdmLosKwargs a) z dz lo hi)).firstMoment =
      Spec98.fieldMass W a S.geometry z dz lo hi := by
  have g3 : cdmLosKwargs a "draw_poisson" = some (.bool a.drawPoisson) := by simp [cdmLosKwargs, ofList_cons]
  have g4 : cdmLosKwargs a "LOS_normalization" = some (.num a.losNormalization) := by simp [cdmLosKwargs, ofList_cons]
  have g5 : cdmLosKwargs a "delta_power_law_index" = some (.num a.deltaPowerLawIndex) := by simp [cdmLosKwargs, ofList_cons]
  have g6 : cdmLosKwargs a "m_pivot" = some (.num (10 ^ 8)) := by simp [cdmLosKwargs, ofList_cons]
  set fit := massFit W a.kwargsCosmo z (10 ^ 8) lo hi with hfit
  set p : PowerLaw := ⟨lo, hi, fit.1 + a.deltaPowerLawIndex, a.drawPoisson,
      a.losNormalization * ((10 : ℝ) ^ fit.2 / (10 ^ 8) ^ (fit.1 + a.deltaPowerLawIndex)) *
        volumeElement W a.kwargsCosmo S.geometry z dz⟩ with hp
  have hm : losModel W S (.named "ShethTormen") (cdmLosKwargs a) z dz lo hi = .ok (p, none) := by
    simp [losModel, Kwargs.num, losPowerLaw, g3, g4, g5, g6, hS, bind, Except.bind, pure, Except.pure, losAmplitude, turnoverOf,
      hp, ← hfit]
  rw [hm]
  show p.firstMoment = _
  rw [(c52_moments p hlt).2]
  unfold Spec98.fieldMass
  refine intervalIntegral.integral_congr fun m hmm => ?_
  have hL := pow10_pos lo
  have hm0 : 0 < m := lt_of_lt_of_le (lt_min hL (pow10_pos hi)) hmm.1
  simp only [PowerLaw.evaluate, Spec97.dNdmField, ← hfit, hp]
  rw [Real.div_rpow hm0.le (by positivity)]
  ring

theorem sub_moment {W : Run.World} {E : Preset.Env} {a : CdmArgs} {d : Dicts} {r : Request} (hr : (cdm E a d).1 = .ok r)
    {S : Setup} (hS : S.kc = a.kwargsCosmo) (hz : S.zLens = a.zLens) (hc : S.geometry.openingAngle = a.cone) {lo hi : ℝ} {i : ℕ}
    (hlt : lo < hi) :
    (massFnOf W i (subModel W S (.named "CDMPowerLaw") (cdmSubKwargs a) lo hi)).firstMoment = Spec98.subMass W a lo hi := by
  have g3 : cdmSubKwargs a "draw_poisson" = some (.bool a.drawPoisson) := by
    rw [cdmSub_get a _ (by decide) (by decide)]; simp [ofList_cons]
  obtain ⟨-, -, inf, cs, cf, cHost, -, -, has⟩ := cdm_ok hr
  obtain ⟨ts, tf, sp, spKw, -, hsp, hp, hf, hk, hss, hsk, -⟩ := cdmAssemble_ok has
  obtain ⟨kwS, rest, hks, hamp⟩ := c47_rendered E a d r hr (W.kpc a.kwargsCosmo a.zLens)
  rw [hk] at hks
  simp only [List.cons_append, List.cons.injEq] at hks
  rw [← hks.1] at hamp
  have hm : subModel W S (.named "CDMPowerLaw") (cdmSubKwargs a) lo hi = .ok (⟨lo, hi, a.shmfLogSlope, a.drawPoisson, Spec47.norm
      (Spec47.chosen a.log10dNdA a.log10SigmaSub a.sigmaSub) a.shmfLogSlope (10 ^ a.logMHost) a.zLens
      (W.kpc a.kwargsCosmo a.zLens) a.cone a.hostScaling a.redshiftScaling⟩, none) := by
    simp [subModel, subPowerLaw, hS, hz, hc, hamp, g3, bind, Except.bind, pure, Except.pure, turnoverOf]
  rw [hm]
  show PowerLaw.firstMoment _ = _
  rw [(c52_moments _ hlt).2]
  rfl

/-- The rendering classes of a call of `CDM`: subhalos, line of sight, and the two-halo term, which has no sheets. -/
theorem cdm_classes {W : Run.World} {K : Kit} {E : Preset.Env} {a : CdmArgs} {d : Dicts} {r : Request} {S : Setup}
    {cs : List (Option RClass)} (hr : (cdm E a d).1 = .ok r) (h : renderingClasses W K S r = .ok cs) :
    ∃ (P G : List ℝ) (s : Spatial), lensPlanes (some S.zLens) S.zSource a.planeSpacing = .ok (P, G) ∧
      cs.filterMap id = [subhalosRClass (fun x y => massFnOf W 0 (subModel W S (.named "CDMPowerLaw") (cdmSubKwargs a) x y))
          (geometryView S.geometry) (lensCosmoOf K S) a.logMlow a.logMhigh,
        (LosClass.mk P G (fun z dz x y => massFnOf W 1 (losModel W S (.named "ShethTormen") (cdmLosKwargs a) z dz x y))
          (fun _ => a.logMlow) (fun _ => a.logMhigh) s (W.kpc S.kc)).toRClass (geometryView S.geometry) (lensCosmoOf K S)] ++
        if a.twoHalo then [noSheetRClass "TWO_HALO_TERM"] else [] := by
  obtain ⟨-, -, inf, csub, cfield, cHost, -, -, has⟩ := cdm_ok hr
  obtain ⟨hpl, -⟩ := cdmAssemble_rest has
  obtain ⟨ts, tf, sp, spKw, -, hsp, hp, hf, hk, hss, hsk, -⟩ := cdmAssemble_ok has
  have g1 : cdmSubKwargs a "log_mlow" = some (.num a.logMlow) := by
    rw [cdmSub_get a _ (by decide) (by decide)]; simp [ofList_cons]
  have g2 : cdmSubKwargs a "log_mhigh" = some (.num a.logMhigh) := by
    rw [cdmSub_get a _ (by decide) (by decide)]; simp [ofList_cons]
  have f1 : cdmLosKwargs a "log_mlow" = some (.num a.logMlow) := by simp [cdmLosKwargs, ofList_cons]
  have f2 : cdmLosKwargs a "log_mhigh" = some (.num a.logMhigh) := by simp [cdmLosKwargs, ofList_cons]
  unfold renderingClasses at h
  obtain ⟨⟨P, G⟩, hP, h⟩ := bind_ok h
  rw [hpl] at hP
  rw [hp] at h
  simp only [List.cons_append, List.nil_append, List.zipIdx_cons, List.mapM_cons] at h
  obtain ⟨c1, h1, h⟩ := bind_ok h
  obtain ⟨cs', h23, h⟩ := bind_ok h
  obtain ⟨c2, h2, h34⟩ := bind_ok h23
  obtain ⟨cs'', h3, h4⟩ := bind_ok h34
  cases h4
  cases h
  clear h23 h34
  have at0 : ∀ {p : String × ℕ} {c : Option RClass}, renderingClassAt W K S r P G p = .ok c → ∃ mc mkw sc skw q,
      r.massFunctions[p.2]? = some mc ∧ r.massKwargs[p.2]? = some mkw ∧ c = some q ∧
      renderingClass W K S P G p.2 p.1 mc mkw sc skw = .ok q := by
    intro p c hc
    unfold renderingClassAt at hc
    obtain ⟨mc, e1, hc⟩ := bind_ok hc
    obtain ⟨mkw, e2, hc⟩ := bind_ok hc
    obtain ⟨sc, -, hc⟩ := bind_ok hc
    obtain ⟨skw, -, hc⟩ := bind_ok hc
    obtain ⟨q, hq, hc⟩ := bind_ok hc
    cases hc
    exact ⟨mc, mkw, sc, skw, q, item_ok.1 e1, item_ok.1 e2, rfl, hq⟩
  obtain ⟨mc, mkw, sc, skw, q1, e1, e2, rfl, e3⟩ := at0 h1
  obtain ⟨mc', mkw', sc', skw', q2, e1', e2', rfl, e3'⟩ := at0 h2
  rw [hf] at e1 e1'
  rw [hk] at e2 e2'
  simp only [List.cons_append, List.getElem?_cons_zero, List.getElem?_cons_succ, Nat.zero_add, Option.some.injEq] at e1 e2 e1' e2'
  subst e1 e2 e1' e2'
  have t1 : q1 = subhalosRClass (fun x y => massFnOf W 0 (subModel W S (.named "CDMPowerLaw") (cdmSubKwargs a) x y))
          (geometryView S.geometry) (lensCosmoOf K S) a.logMlow a.logMhigh := by
    simp [renderingClass, limit, g1, g2, bind, Except.bind, pure, Except.pure] at e3
    exact e3.symm
  simp only [renderingClass, if_neg (show ¬ "LINE_OF_SIGHT" = "SUBHALOS" by decide), if_true] at e3'
  obtain ⟨s, -, e3'⟩ := bind_ok e3'
  obtain ⟨c, hc, e3'⟩ := bind_ok e3'
  cases e3'
  obtain ⟨lo, hi, hlo, hhi, rfl⟩ := losClassOf_ok hc
  have hlo' : lo = fun _ => a.logMlow := by
    unfold limit at hlo; rw [f1] at hlo; cases hlo; rfl
  have hhi' : hi = fun _ => a.logMhigh := by
    unfold limit at hhi; rw [f2] at hhi; cases hhi; rfl
  subst hlo' hhi'
  refine ⟨P, G, s, hP, ?_⟩
  rw [t1]
  cases h2 : a.twoHalo <;> rw [h2] at h3
  · simp only [Bool.false_eq_true, if_false, List.zipIdx_nil, List.mapM_nil] at h3
    cases h3
    rfl
  · simp only [if_true, List.zipIdx_cons, List.zipIdx_nil, List.mapM_cons, List.mapM_nil] at h3
    obtain ⟨c3, h6, h4⟩ := bind_ok h3
    obtain ⟨cs, h5, h4⟩ := bind_ok h4
    cases h5
    cases h4
    obtain ⟨mc', mkw', sc', skw', q3, -, -, rfl, e3⟩ := at0 h6
    have t3 : q3 = noSheetRClass "TWO_HALO_TERM" := by
      simp [renderingClass] at e3
      exact e3.symm
    rw [t3]
    rfl

/-- Whatever is done after the rendering, the realization keeps its sheets, its cosmology and its centre. -/
theorem cdmCall_context {W : Run.World} {K : Kit} {E : Preset.Env} {a : CdmArgs} {d : Dicts} {s : Ext.Store} {R : Realization}
    (hgc : a.globularClusters = none) (h : cdmCall W K E a d = .ok (s, R)) :
    ∃ r g classes, (cdm E a d).1 = .ok r ∧ geometryOf W a.zLens a.zSource a.cone a.geometryType a.kwargsCosmo = .ok g ∧
      renderingClasses W K ⟨a.zLens, a.zSource, a.kwargsCosmo, g⟩ r = .ok classes ∧ R.renderingClasses = classes ∧
      R.applyMassSheet = true ∧ R.lensCosmo = lensCosmoOf K ⟨a.zLens, a.zSource, a.kwargsCosmo, g⟩ ∧
      R.centerX = (fun _ => 0) ∧ R.centerY = fun _ => 0 := by
  obtain ⟨r, g, ⟨s₀, R₀⟩, hr, hg, hp, h⟩ := cdmCall_ok h
  obtain ⟨rows, classes, os, h1, h2, h3, h4⟩ := realize_ok hp
  have hR : Live s₀ R₀.halos := by
    obtain ⟨_, -, hR, -⟩ := c94_realization W K _ r s₀ R₀ hp
    exact hR.live
  obtain ⟨rfl, rfl⟩ := Prod.mk.injEq .. ▸ h4
  refine ⟨r, g, classes, hr, hg, h2, ?_⟩
  rw [cdm_post hr, hgc] at h
  cases ht : a.sisThreshold with
  | none =>
    rw [ht] at h
    simp only [List.append_nil, List.foldlM_nil] at h
    cases h
    exact ⟨rfl, rfl, rfl, rfl, rfl⟩
  | some t =>
    rw [ht] at h
    simp only [List.append_nil, List.foldlM_cons, List.foldlM_nil] at h
    obtain ⟨p, hp', h⟩ := bind_ok h
    cases h
    obtain ⟨hc, -⟩ := c37_injection K.phys t a.galaxyModel _ _ hR s R hp'
    rw [hc.classes, hc.sheets, hc.lensCosmo, hc.centerX, hc.centerY]
    exact ⟨rfl, rfl, rfl, rfl, rfl⟩

theorem moved_sheet {R : Realization} (hx : R.centerX = fun _ => 0) (hy : R.centerY = fun _ => 0) {scale M Mcrit z : ℝ}
    {t t' : String × ℝ × Kw} (h : CancelsMass scale M Mcrit z t) (hm : SheetMoved R t t') : Spec98.Sheet scale M Mcrit z t' := by
  obtain ⟨h1, h2, κ, h3, h4⟩ := h
  obtain ⟨m1, m2, m3⟩ := hm
  unfold Centred at m3
  rw [h1, hx, hy] at m3
  refine ⟨m1.trans h1, m2.trans h2, ?_, ?_, κ, ?_, h4⟩
  · rw [m3]; simp
  · rw [m3]; simp
  · rw [m3, h3]; simp [List.lookup]

theorem forall₂_append_split {α β : Type} {p : α → β → Prop} : ∀ {l₁ l₂ : List α} {l : List β},
    List.Forall₂ p (l₁ ++ l₂) l → ∃ m₁ m₂, List.Forall₂ p l₁ m₁ ∧ List.Forall₂ p l₂ m₂ ∧ l = m₁ ++ m₂
  | [], _, l, h => ⟨[], l, .nil, h, rfl⟩
  | _ :: _, _, _, h => by
    cases h with
    | cons hp h =>
      obtain ⟨m₁, m₂, h1, h2, rfl⟩ := forall₂_append_split h
      exact ⟨_ :: m₁, m₂, .cons hp h1, h2, rfl⟩

theorem forall₂_trans' {α β γ : Type} {p : α → β → Prop} {q : β → γ → Prop} {s : α → γ → Prop}
    (h : ∀ a b c, p a b → q b c → s a c) : ∀ {la : List α} {lb : List β} {lc : List γ}, List.Forall₂ p la lb →
    List.Forall₂ q lb lc → List.Forall₂ s la lc := by
  intro la lb lc h1
  induction h1 generalizing lc with
  | nil => intro h2; cases h2; exact .nil
  | cons hp _ ih =>
    intro h2
    cases h2 with
    | cons hq h2 => exact .cons (h _ _ _ hp hq) (ih h2)

/-- **C98.** The lens model of a call of `CDM` (without clusters): first the components of the halos; then, if subhalos are
expected to have mass, one sheet at the lens that takes away `kappa_scale_subhalos` times their expected mass; then for each
lens plane in the redshift window on which field halos are expected to have mass one sheet that takes away `kappa_scale` times
their expected mass; and nothing else: the two-halo term is not compensated. The expected mass is that between the mass limits
of the call if `use_class_mass_ranges`, otherwise that between the limits of the sheets. -/
theorem c98_sheets (W : Run.World) (K : Kit) (E : Preset.Env) (a : CdmArgs) (d : Dicts) (s : Ext.Store) (R : Realization)
    (hgc : a.globularClusters = none) (h : cdmCall W K E a d = .ok (s, R)) (useClass : Bool) (q : Realization.SheetArgs)
    (hex : q.subtractExact = false) (hlt : if useClass then a.logMlow < a.logMhigh else q.logMlow < q.logMhigh)
    (hcrit : ∀ g, geometryOf W a.zLens a.zSource a.cone a.geometryType a.kwargsCosmo = .ok g →
      ∀ z, Spec90.rendered a.zLens a.zSource a.planeSpacing z →
        0 < K.sigmaCritMass a.zLens a.zSource a.kwargsCosmo z (Spec98.area g z))
    (hh : ∀ k ∈ R.halos, (s.obj k).lensIDs.length = (s.obj k).lensParams.length) :
    let lo := if useClass then a.logMlow else q.logMlow
    let hi := if useClass then a.logMhigh else q.logMhigh
    ∃ (g : Geometry) (P G : List ℝ) (ns : List String) (zs : List ℝ) (ks : List Kw) (sub los : List (String × ℝ × Kw)),
      geometryOf W a.zLens a.zSource a.cone a.geometryType a.kwargsCosmo = .ok g ∧
      lensPlanes (some a.zLens) a.zSource a.planeSpacing = .ok (P, G) ∧
      R.lensingQuantities s.heap true useClass q = .ok (ns, zs, ks) ∧ SameLengths ns zs ks ∧
      triples ns zs ks = haloComponents s.heap R ++ (sub ++ los) ∧
      (Spec98.subMass W a lo hi = 0 → sub = []) ∧
      (Spec98.subMass W a lo hi ≠ 0 → ∃ t, sub = [t] ∧ Spec98.Sheet q.kappaScaleSubhalos (Spec98.subMass W a lo hi)
        (K.sigmaCritMass a.zLens a.zSource a.kwargsCosmo a.zLens (Spec98.area g a.zLens)) a.zLens t) ∧
      List.Forall₂ (fun (p : ℝ × ℝ) t => Spec98.Sheet q.kappaScale (Spec98.fieldMass W a g p.1 p.2 lo hi)
          (K.sigmaCritMass a.zLens a.zSource a.kwargsCosmo p.1 (Spec98.area g p.1)) p.1 t)
        ((P.zip G).filter fun p => decide ((q.zmin.getD 0 ≤ p.1 ∧ p.1 ≤ q.zmax.getD a.zSource) ∧
          0 < Spec98.fieldMass W a g p.1 p.2 lo hi)) los := by
  intro lo hi
  obtain ⟨r, g, classes, hr, hg, hcl, c1, c2, c3, c4, c5⟩ := cdmCall_context hgc h
  obtain ⟨P, G, sp, hP, hcs⟩ := cdm_classes hr hcl
  set S : Setup := ⟨a.zLens, a.zSource, a.kwargsCosmo, g⟩ with hS
  have hgo : S.geometry.openingAngle = a.cone := by
    unfold geometryOf at hg
    obtain ⟨v, -, hg⟩ := bind_ok hg
    cases hg
    rfl
  have hstd : ∀ c, some c ∈ R.renderingClasses → StandardClass (geometryView g) R.lensCosmo c := by
    intro c hc
    have : c ∈ classes.filterMap id := by rw [c1] at hc; simpa using hc
    rw [hcs] at this
    rw [c3]
    rcases List.mem_append.1 this with hm | hm
    · rcases List.mem_cons.1 hm with rfl | hm
      · exact .subhalos _ _ _
      · rw [List.mem_singleton.1 hm]; exact .los _
    · have : c = noSheetRClass "TWO_HALO_TERM" := by
        split at hm <;> simpa using hm
      subst this
      exact .noSheet _
  obtain ⟨ns, zs, ks, T, l1, l2, l3, l4⟩ := c55_lensing_quantities s.heap R (geometryView g) useClass q c2 hex hh hstd
  rw [c1, hcs, List.flatMap_append] at l4
  have hlast : ((if a.twoHalo then [noSheetRClass "TWO_HALO_TERM"] else []).flatMap fun c =>
      triples (sheetsOf q useClass c).2.1 (sheetsOf q useClass c).2.2 (sheetsOf q useClass c).1) = [] := by
    cases a.twoHalo
    · rfl
    · simp only [if_true, List.flatMap_cons, List.flatMap_nil, List.append_nil]
      unfold sheetsOf noSheetRClass
      split_ifs <;> rfl
  rw [hlast, List.append_nil] at l4
  simp only [List.flatMap_cons, List.flatMap_nil, List.append_nil] at l4
  obtain ⟨sub, los, m1, m2, rfl⟩ := forall₂_append_split l4
  refine ⟨g, P, G, ns, zs, ks, sub, los, hg, hP, l1, l2, l3, ?_⟩
  have hlt' : lo < hi := by
    cases useClass <;> simpa [lo, hi] using hlt
  -- subhalos
  have hsub := c55_subhalo_sheets (fun x y => massFnOf W 0 (subModel W S (.named "CDMPowerLaw") (cdmSubKwargs a) x y))
    (geometryView g) (lensCosmoOf K S) a.logMlow a.logMhigh q.kappaScaleSubhalos q.logMlow q.logMhigh useClass (hcrit g hg _ (.inl rfl))
  have hM : (if useClass = true then massFnOf W 0 (subModel W S (.named "CDMPowerLaw") (cdmSubKwargs a) a.logMlow a.logMhigh)
      else massFnOf W 0 (subModel W S (.named "CDMPowerLaw") (cdmSubKwargs a) q.logMlow q.logMhigh)).firstMoment =
      Spec98.subMass W a lo hi := by
    rw [← sub_moment hr (S := S) rfl rfl hgo hlt' (i := 0)]
    cases useClass <;> rfl
  simp only [hM] at hsub
  obtain ⟨-, s2, s3⟩ := hsub
  have hse : sheetsOf q useClass (subhalosRClass (fun x y => massFnOf W 0 (subModel W S (.named "CDMPowerLaw")
      (cdmSubKwargs a) x y)) (geometryView S.geometry) (lensCosmoOf K S) a.logMlow a.logMhigh) =
      subhaloSheets (fun x y => massFnOf W 0 (subModel W S (.named "CDMPowerLaw") (cdmSubKwargs a) x y))
    (geometryView g) (lensCosmoOf K S) a.logMlow a.logMhigh q.kappaScaleSubhalos q.logMlow q.logMhigh useClass := by
    unfold sheetsOf
    rw [if_pos (by rfl)]
    rfl
  rw [hse] at m1
  refine ⟨fun h0 => ?_, fun h0 => ?_, ?_⟩
  · rw [s2 h0] at m1
    simpa [triples] using m1
  · obtain ⟨t, t1, t2⟩ := s3 h0
    rw [t1] at m1
    cases m1 with
    | cons hm hn =>
      cases hn
      exact ⟨_, rfl, moved_sheet c4 c5 t2 hm⟩
  · set c : LosClass := LosClass.mk P G (fun z dz x y => massFnOf W 1 (losModel W S (.named "ShethTormen") (cdmLosKwargs a) z dz x y))
          (fun _ => a.logMlow) (fun _ => a.logMhigh) sp (W.kpc S.kc) with hc
    have hlos := c55_line_of_sight_sheets c (geometryView g) (lensCosmoOf K S) q.kappaScale q.logMlow q.logMhigh q.zmin q.zmax
      useClass (fun _ hp _ => hcrit g hg _ (.inr ⟨P, G, hP, (List.of_mem_zip hp).1⟩))
    have hF : (fun p : ℝ × ℝ => (if useClass = true then c.model p.1 p.2 (c.logMlow p.1) (c.logMhigh p.1)
        else c.model p.1 p.2 q.logMlow q.logMhigh).firstMoment) = fun p => Spec98.fieldMass W a g p.1 p.2 lo hi := by
      funext p
      rw [← field_moment (S := S) rfl hlt' (i := 1)]
      cases useClass <;> rfl
    simp only at hlos
    obtain ⟨-, f2⟩ := hlos
    have hFp : ∀ p : ℝ × ℝ, (if useClass = true then c.model p.1 p.2 (c.logMlow p.1) (c.logMhigh p.1)
        else c.model p.1 p.2 q.logMlow q.logMhigh).firstMoment = Spec98.fieldMass W a g p.1 p.2 lo hi := fun p => congrFun hF p
    simp only [hFp] at f2
    have hse' : sheetsOf q useClass (c.toRClass (geometryView S.geometry) (lensCosmoOf K S)) =
        c.sheets (geometryView g) (lensCosmoOf K S) q.kappaScale q.logMlow q.logMhigh q.zmin q.zmax useClass := by
      unfold sheetsOf
      rw [if_neg (by simp [LosClass.toRClass])]
      rfl
    rw [hse'] at m2
    rw [List.filter_congr (q := fun p => decide ((q.zmin.getD 0 ≤ p.1 ∧ p.1 ≤ q.zmax.getD a.zSource) ∧
      0 < Spec98.fieldMass W a g p.1 p.2 lo hi)) (fun p _ => by rw [decide_eq_decide]; rfl)] at f2
    refine forall₂_trans' (q := SheetMoved R) (fun p t t' hp ht => ?_) f2 m2
    exact moved_sheet c4 c5 hp ht

/-! ## The sheets compensate the drawn halos on average -/

/-- The mass below which a fraction of the objects lies is the one the code returns for it. -/
theorem invert_quantile (p : PowerLaw) (h : p.logMlow < p.logMhigh) (m : ℝ) (h0 : (10:ℝ) ^ p.logMlow ≤ m) (hn : p.norm ≠ 0) :
    p.invert ((∫ x in (10 : ℝ) ^ p.logMlow..m, p.evaluate x) / p.nMean) = m := by
  have hL := pow10_pos p.logMlow
  have hH := pow10_pos p.logMhigh
  have hm : 0 < m := lt_of_lt_of_le hL h0
  have hLH : (10:ℝ) ^ p.logMlow < (10:ℝ) ^ p.logMhigh := Real.rpow_lt_rpow_of_exponent_lt (by norm_num) h
  have e1 := integratePowerLaw_eq p.norm _ _ 0 p.index hL hm
  simp only [zero_add] at e1
  have e2 : (∫ x in (10 : ℝ) ^ p.logMlow..m, p.evaluate x) = integratePowerLaw p.norm ((10:ℝ) ^ p.logMlow) m 0 p.index := by
    rw [e1]; rfl
  rw [e2]
  unfold PowerLaw.nMean
  rw [if_neg (not_le.2 h)]
  unfold integratePowerLaw PowerLaw.invert
  simp only [zero_add]
  set L := (10:ℝ) ^ p.logMlow
  set H := (10:ℝ) ^ p.logMhigh
  by_cases hi : p.index = -1
  · have hf : 1 + p.index = 0 := by rw [hi]; ring
    rw [if_pos hi, if_pos hf, if_pos hf]
    have hlog : Real.log (H / L) ≠ 0 := (Real.log_pos (by rw [lt_div_iff₀ hL]; linarith)).ne'
    rw [mul_div_mul_left _ _ hn, mul_div_cancel₀ _ hlog, Real.exp_log (by positivity)]
    field_simp
  · have hf : 1 + p.index ≠ 0 := fun h => hi (by linarith)
    rw [if_neg hi, if_neg hf, if_neg hf, mul_div_mul_left _ _ hn]
    have hd : H ^ (1 + p.index) - L ^ (1 + p.index) ≠ 0 := by
      intro h0
      have : H ^ (1 + p.index) = L ^ (1 + p.index) := by linarith
      have := Real.rpow_left_injOn hf hH.le hL.le this
      linarith
    rw [show (m ^ (1 + p.index) - L ^ (1 + p.index)) / (1 + p.index) / ((H ^ (1 + p.index) - L ^ (1 + p.index)) / (1 + p.index)) *
      (H ^ (1 + p.index) - L ^ (1 + p.index)) + L ^ (1 + p.index) = m ^ (1 + p.index) by field_simp; ring]
    exact rpow_inv_exp hm hf

theorem invert_continuous (p : PowerLaw) : ContinuousOn p.invert (Set.Icc 0 1) := by
  have hL := pow10_pos p.logMlow
  have hH := pow10_pos p.logMhigh
  unfold PowerLaw.invert
  simp only
  set L := (10:ℝ) ^ p.logMlow
  set H := (10:ℝ) ^ p.logMhigh
  by_cases hi : p.index = -1
  · simp only [if_pos hi]
    fun_prop
  · simp only [if_neg hi]
    refine ContinuousOn.rpow_const (by fun_prop) fun x hx => .inl ?_
    have h1 : 0 < H ^ (1 + p.index) := Real.rpow_pos_of_pos hH _
    have h2 : 0 < L ^ (1 + p.index) := Real.rpow_pos_of_pos hL _
    have h3 : x * (H ^ (1 + p.index) - L ^ (1 + p.index)) + L ^ (1 + p.index) = x * H ^ (1 + p.index) + (1 - x) * L ^ (1 + p.index) := by
      ring
    rw [h3]
    rcases eq_or_lt_of_le hx.1 with h0 | h0
    · rw [← h0]; simp; exact h2.ne'
    · have := mul_pos h0 h1
      have := mul_nonneg (sub_nonneg.2 hx.2) h2.le
      linarith

/-- The expected number times the mean mass of a draw is the expected mass. -/
theorem mean_of_draw (p : PowerLaw) (h : p.logMlow < p.logMhigh) (hn : p.norm ≠ 0) :
    p.nMean * (∫ u in (0:ℝ)..1, p.invert u) = p.firstMoment := by
  have hL := pow10_pos p.logMlow
  have hH := pow10_pos p.logMhigh
  have hLH : (10:ℝ) ^ p.logMlow < (10:ℝ) ^ p.logMhigh := Real.rpow_lt_rpow_of_exponent_lt (by norm_num) h
  obtain ⟨m1, m2⟩ := c52_moments p h
  set L := (10:ℝ) ^ p.logMlow with hLd
  set H := (10:ℝ) ^ p.logMhigh with hHd
  have hpos : ∀ m ∈ Set.uIcc L H, 0 < m := by
    intro m hm; rw [Set.uIcc_of_le hLH.le] at hm; exact lt_of_lt_of_le hL hm.1
  have hcont : ContinuousOn p.evaluate (Set.Ioi 0) := by
    unfold PowerLaw.evaluate
    exact continuousOn_const.mul (continuousOn_id.rpow_const fun x hx => .inl (ne_of_gt hx))
  have hN : p.nMean ≠ 0 := by
    rw [m1]
    have : (∫ m in L..H, p.evaluate m) = p.norm * ∫ m in L..H, m ^ p.index := by
      rw [← intervalIntegral.integral_const_mul]; rfl
    rw [this]
    refine mul_ne_zero hn (ne_of_gt ?_)
    refine intervalIntegral.intervalIntegral_pos_of_pos_on ?_ (fun x hx => Real.rpow_pos_of_pos (lt_trans hL hx.1) _) hLH
    exact (continuousOn_id.rpow_const fun x hx => .inl (ne_of_gt (hpos x hx))).intervalIntegrable
  set F : ℝ → ℝ := fun m => (∫ x in L..m, p.evaluate x) / p.nMean with hF
  have hderiv : ∀ m ∈ Set.uIcc L H, HasDerivAt F (p.evaluate m / p.nMean) m := by
    intro m hm
    have hm0 := hpos m hm
    have hint : IntervalIntegrable p.evaluate MeasureTheory.volume L m := by
      refine (hcont.mono fun x hx => ?_).intervalIntegrable
      exact lt_of_lt_of_le (lt_min hL hm0) hx.1
    exact (intervalIntegral.integral_hasDerivAt_right hint
      (hcont.stronglyMeasurableAtFilter isOpen_Ioi m hm0) (hcont.continuousAt (isOpen_Ioi.mem_nhds hm0))).div_const _
  have hF0 : F L = 0 := by simp [hF]
  have hF1 : F H = 1 := by simp only [hF]; rw [← m1]; exact div_self hN
  have hrange : ∀ m ∈ Set.uIcc L H, F m ∈ Set.Icc (0:ℝ) 1 := by
    intro m hm
    rw [Set.uIcc_of_le hLH.le] at hm
    have hnorm : ∀ x, p.evaluate x = p.norm * x ^ p.index := fun _ => rfl
    have hq : F m = (∫ x in L..m, x ^ p.index) / ∫ x in L..H, x ^ p.index := by
      simp only [hF, m1, hnorm, intervalIntegral.integral_const_mul]
      exact mul_div_mul_left _ _ hn
    have hc : ∀ a b, L ≤ a → a ≤ b → IntervalIntegrable (fun x : ℝ => x ^ p.index) MeasureTheory.volume a b := by
      intro a b ha hab
      refine (continuousOn_id.rpow_const fun x hx => .inl (ne_of_gt ?_)).intervalIntegrable
      rw [Set.uIcc_of_le hab] at hx
      exact lt_of_lt_of_le hL (ha.trans hx.1)
    have i1 : 0 ≤ ∫ x in L..m, x ^ p.index :=
      intervalIntegral.integral_nonneg hm.1 fun x hx => Real.rpow_nonneg (hL.le.trans hx.1) _
    have i2 : 0 ≤ ∫ x in m..H, x ^ p.index :=
      intervalIntegral.integral_nonneg hm.2 fun x hx => Real.rpow_nonneg ((hL.le.trans hm.1).trans hx.1) _
    have i3 := intervalIntegral.integral_add_adjacent_intervals (hc L m le_rfl hm.1) (hc m H hm.1 hm.2)
    rw [hq]
    constructor
    · exact div_nonneg i1 (by linarith)
    · exact div_le_one_of_le₀ (by linarith) (by linarith)
  have hsub := intervalIntegral.integral_comp_mul_deriv'' (f := F) (f' := fun m => p.evaluate m / p.nMean) (g := p.invert) (a := L) (b := H)
    (fun m hm => (hderiv m hm).continuousAt.continuousWithinAt)
    (fun m hm => (hderiv m (Set.uIcc_of_le hLH.le ▸ Set.Ioo_subset_Icc_self (by rwa [min_eq_left hLH.le, max_eq_right hLH.le] at hm))).hasDerivWithinAt)
    ((hcont.mono fun m hm => hpos m hm).div_const _)
    ((invert_continuous p).mono (by rintro _ ⟨m, hm, rfl⟩; exact hrange m hm))
  rw [hF0, hF1] at hsub
  rw [← hsub, m2, ← intervalIntegral.integral_const_mul]
  refine intervalIntegral.integral_congr fun m hm => ?_
  have hm' : L ≤ m := by rw [Set.uIcc_of_le hLH.le] at hm; exact hm.1
  have := invert_quantile p h m hm' hn
  simp only [Function.comp, hF]
  rw [this]
  field_simp

theorem nMean_norm {p : PowerLaw} (h : p.nMean ≠ 0) : p.norm ≠ 0 := by
  intro h0
  apply h
  simp [PowerLaw.nMean, integratePowerLaw, h0]

/-- **C98**, subhalos on average. For every call of `CDM` that expects subhalos there is a function `Q` such that, whatever the
random numbers, the `i`-th subhalo has the mass `Q (u i)` for the uniform variate `u i`; and the expected number of subhalos
times the mean of `Q` is the mass that the sheet takes away with `use_class_mass_ranges`. -/
theorem c98_unbiased_subhalos (W : Run.World) (E : Preset.Env) (a : CdmArgs) (d : Dicts) (hlt : a.logMlow < a.logMhigh)
    (hn : Spec97.upTo W a (10 ^ a.logMhigh) ≠ 0) :
    ∃ Q : ℝ → ℝ, Spec97.upTo W a (10 ^ a.logMhigh) * (∫ u in (0 : ℝ)..1, Q u) = Spec98.subMass W a a.logMlow a.logMhigh ∧
      ∀ (u : ℕ → ℕ → ℕ → ℝ) (k : ℕ → ℕ → ℕ) (out : List HaloArgs), Variates { W with mass := u, pois := k } →
        runCdm { W with mass := u, pois := k } E a d = .ok out →
        ∀ (i : ℕ) (t : HaloArgs), (out.filter fun t => t.isSubhalo)[i]? = some t → t.mass = Q (u 0 0 i) := by
  set p := cdmSubLaw W a with hp
  have hmean : p.nMean = Spec97.upTo W a (10 ^ a.logMhigh) := by rw [(c52_moments p hlt).1]; rfl
  have hn' : p.norm ≠ 0 := nMean_norm (by rw [hmean]; exact hn)
  refine ⟨p.invert, ?_, fun u k out hV h i t hi => ?_⟩
  · rw [← hmean, mean_of_draw p hlt hn', (c52_moments p hlt).2]
    rfl
  · obtain ⟨h1, h2⟩ := (c97_subhalos { W with mass := u, pois := k } hV E a d out hlt h).2 i t hi
    have e := invert_quantile p hlt t.mass h1.1 hn'
    rw [show (∫ x in (10 : ℝ) ^ p.logMlow..t.mass, p.evaluate x) = u 0 0 i * p.nMean by rw [hmean]; exact h2,
      mul_div_cancel_right₀ _ (by rw [hmean]; exact hn)] at e
    exact e.symm

/-- **C98**, field halos on average. For every slice that expects field halos there is a function `Q` such that the masses of
C97 are `Q` of the uniform variates, and the expected number of field halos times the mean of `Q` is the mass that the sheet of
this slice takes away with `use_class_mass_ranges`. -/
theorem c98_unbiased_field (W : Run.World) (a : CdmArgs) (g : Geometry) (z dz : ℝ) (hlt : a.logMlow < a.logMhigh)
    (hn : Spec97.fieldUpTo W a g z dz (10 ^ a.logMhigh) ≠ 0) :
    ∃ Q : ℝ → ℝ, Spec97.fieldUpTo W a g z dz (10 ^ a.logMhigh) * (∫ u in (0 : ℝ)..1, Q u) =
        Spec98.fieldMass W a g z dz a.logMlow a.logMhigh ∧
      ∀ u m : ℝ, m ∈ Set.Icc ((10 : ℝ) ^ a.logMlow) (10 ^ a.logMhigh) →
        Spec97.fieldUpTo W a g z dz m = u * Spec97.fieldUpTo W a g z dz (10 ^ a.logMhigh) → m = Q u := by
  set fit := massFit W a.kwargsCosmo z (10 ^ 8) a.logMlow a.logMhigh with hfit
  set p : PowerLaw := ⟨a.logMlow, a.logMhigh, fit.1 + a.deltaPowerLawIndex, a.drawPoisson,
      a.losNormalization * ((10 : ℝ) ^ fit.2 / (10 ^ 8) ^ (fit.1 + a.deltaPowerLawIndex)) *
        volumeElement W a.kwargsCosmo g z dz⟩ with hp
  have hL := pow10_pos a.logMlow
  have hev : ∀ x : ℝ, 0 < x → p.evaluate x = Spec97.dNdmField W a g z dz x := by
    intro x hx
    simp only [PowerLaw.evaluate, Spec97.dNdmField, ← hfit, hp]
    rw [Real.div_rpow hx.le (by positivity)]
    ring
  have hint : ∀ x : ℝ, 0 < x → (∫ m in (10 : ℝ) ^ a.logMlow..x, p.evaluate m) = Spec97.fieldUpTo W a g z dz x := by
    intro x hx
    refine intervalIntegral.integral_congr fun m hm => hev m ?_
    exact lt_of_lt_of_le (lt_min hL hx) hm.1
  have hmean : p.nMean = Spec97.fieldUpTo W a g z dz (10 ^ a.logMhigh) := by
    rw [(c52_moments p hlt).1, ← hint _ (pow10_pos _)]
  have hn' : p.norm ≠ 0 := nMean_norm (by rw [hmean]; exact hn)
  refine ⟨p.invert, ?_, fun u m hm h => ?_⟩
  · rw [← hmean, mean_of_draw p hlt hn', (c52_moments p hlt).2]
    refine intervalIntegral.integral_congr fun m hm => ?_
    show m * p.evaluate m = m * Spec97.dNdmField W a g z dz m
    rw [hev m (lt_of_lt_of_le (lt_min hL (pow10_pos _)) hm.1)]
  · have e := invert_quantile p hlt m hm.1 hn'
    rw [show (∫ x in (10 : ℝ) ^ p.logMlow..m, p.evaluate x) = u * p.nMean by
      rw [hmean, ← h]; exact hint m (lt_of_lt_of_le hL hm.1),
      mul_div_cancel_right₀ _ (by rw [hmean]; exact hn)] at e
    exact e.symm

/-- **C98**: by default the sheets take away the mass between `10 ^ 7` and `10 ^ 10` solar masses. For a call with the default
limits that is less than what is drawn on average. -/
theorem c98_default_less (W : Run.World) (a : CdmArgs) (hlo : a.logMlow = 6) (hhi : a.logMhigh = 10)
    (hpos : 0 < Spec97.upTo W a (10 ^ a.logMhigh)) (q : Realization.SheetArgs) (hq : q = {}) :
    Spec98.subMass W a q.logMlow q.logMhigh < Spec98.subMass W a a.logMlow a.logMhigh := by
  subst hq
  rw [hlo, hhi]
  rw [hhi] at hpos
  unfold Spec97.upTo at hpos
  rw [hlo] at hpos
  unfold Spec98.subMass
  simp only [Spec97.dNdm] at *
  set c := Spec47.norm (Spec47.chosen a.log10dNdA a.log10SigmaSub a.sigmaSub) a.shmfLogSlope (10 ^ a.logMHost) a.zLens
    (W.kpc a.kwargsCosmo a.zLens) a.cone a.hostScaling a.redshiftScaling with hc
  have h1 : (0 : ℝ) < (10 : ℝ) ^ (6 : ℝ) := pow10_pos _
  have h2 : (10 : ℝ) ^ (6 : ℝ) < (10 : ℝ) ^ (7 : ℝ) := Real.rpow_lt_rpow_of_exponent_lt (by norm_num) (by norm_num)
  have h3 : (10 : ℝ) ^ (7 : ℝ) < (10 : ℝ) ^ (10 : ℝ) := Real.rpow_lt_rpow_of_exponent_lt (by norm_num) (by norm_num)
  have hcpos : 0 < c := by
    rw [intervalIntegral.integral_const_mul] at hpos
    refine pos_of_mul_pos_left hpos ?_
    exact intervalIntegral.integral_nonneg (h2.trans h3).le fun x hx => Real.rpow_nonneg (h1.le.trans hx.1) _
  have hcont : ∀ x y : ℝ, 0 < x → x ≤ y →
      IntervalIntegrable (fun m : ℝ => m * (c * m ^ a.shmfLogSlope)) MeasureTheory.volume x y := by
    intro x y hx hxy
    refine ContinuousOn.intervalIntegrable ?_
    refine continuousOn_id.mul (continuousOn_const.mul (continuousOn_id.rpow_const fun m hm => .inl (ne_of_gt ?_)))
    rw [Set.uIcc_of_le hxy] at hm
    exact lt_of_lt_of_le hx hm.1
  rw [← intervalIntegral.integral_add_adjacent_intervals (hcont _ _ h1 h2.le) (hcont _ _ (h1.trans h2) h3.le)]
  have : 0 < ∫ m in (10 : ℝ) ^ (6 : ℝ)..(10 : ℝ) ^ (7 : ℝ), m * (c * m ^ a.shmfLogSlope) := by
    refine intervalIntegral.intervalIntegral_pos_of_pos_on (hcont _ _ h1 h2.le) (fun x hx => ?_) h2
    have : 0 < x := h1.trans hx.1
    exact mul_pos this (mul_pos hcpos (Real.rpow_pos_of_pos this _))
  linarith

/-! ## Models and numbers of whole calls -/

/-- **C94**, the models of a call: a subhalo is made with the truncation and concentration models requested for subhalos, any
other halo with those requested for field halos. -/
theorem c94_requested_models (V : View) (r : Request) (row : HaloArgs) (tag : Tag) (o : Loaded (Cls × Kwargs))
    (h : load V (haloKw r) row tag = .ok o) :
    (row.isSubhalo = true → o.trunc = r.truncSub ∧ o.conc = r.concSub) ∧
    (row.isSubhalo = false → o.trunc = r.truncField ∧ o.conc = r.concField) := by
  obtain ⟨h1, h2, -⟩ := load_ok h
  constructor <;> intro hs <;> rw [hs] at h1 h2
  · exact ⟨(Except.ok.inj h1).symm, (Except.ok.inj h2).symm⟩
  · exact ⟨(Except.ok.inj h1).symm, (Except.ok.inj h2).symm⟩

theorem filter_length_map {α β : Type} {p : α → Bool} {q : β → Bool} : ∀ {l : List α} {l' : List β}, l.map p = l'.map q →
    (l.filter p).length = (l'.filter q).length
  | [], l', h => by
    have : l' = [] := by simpa using h.symm
    subst this
    rfl
  | a :: t, [], h => by simp at h
  | a :: t, b :: t', h => by
    simp only [List.map_cons, List.cons.injEq] at h
    have := filter_length_map h.2
    cases hq : q b
    · rw [List.filter_cons_of_neg (by simp [h.1, hq]), List.filter_cons_of_neg (by simp [hq])]; exact this
    · rw [List.filter_cons_of_pos (by simp [h.1, hq]), List.filter_cons_of_pos (by simp [hq])]; simp [this]

/-- **C95**, the number of subhalos of `SIDM_core_collapse`: the Poisson variate, or the nearest integer to the integral of the
mass function with the amplitude, slope, host mass and scalings given in the call. -/
theorem c95_core_collapse_number (W : Run.World) (hV : Variates W) (K : Kit) (E : Preset.Env) (a : CollapseArgs) (d : Dicts)
    (us : ℕ → ℝ) (hgc : a.globularClusters = none)
    (hk : ∀ z, Spec90.rendered a.zLens a.zSource none z → W.kpc a.kwargsCosmo z ≠ 0) (hlt : a.logMlow < a.logMhigh)
    (s' : Ext.Store) (R' : Realization) (h : sidmCoreCollapse W K E a d us = .ok (s', R')) :
    (R'.halos.filter fun k => (s'.obj k).isSubhalo).length = Spec97.number a.drawPoisson (W.pois 0 0)
      (∫ m in (10 : ℝ) ^ a.logMlow..(10 : ℝ) ^ a.logMhigh,
        Spec47.norm (Spec47.chosen a.log10dNdA a.log10SigmaSub a.sigmaSub) a.shmfLogSlope (10 ^ a.logMHost) a.zLens
          (W.kpc a.kwargsCosmo a.zLens) a.cone a.hostScaling a.redshiftScaling * m ^ a.shmfLogSlope) := by
  obtain ⟨rows, hrows, hlen, hall⟩ := c95_core_collapse_rows W hV K E a d us hgc hk hlt s' R' h
  obtain ⟨hn, -⟩ := c97_subhalos W hV E a.cdm d rows hlt hrows
  rw [filter_length_map (p := fun k => (s'.obj k).isSubhalo) (q := fun t : HaloArgs => t.isSubhalo) (l' := rows), hn]
  · rfl
  · apply List.ext_getElem (by simp [hlen])
    intro n h1 h2
    simp only [List.getElem_map]
    rw [List.length_map] at h1 h2
    exact (hall n _ _ (List.getElem?_eq_getElem h2) (List.getElem?_eq_getElem h1)).2.2.2.2.1

/-! ## A concrete case -/

/-- Lenses whose lists have the right lengths. -/
noncomputable def demoLensKit : Kit :=
  { demoKit with view := ⟨fun _ a => a.mass / 2, fun c _ => c.lensIDs.map fun _ => []⟩ }

theorem demo_lens (E : Preset.Env) : ∃ s R, cdmCall demoWorld demoLensKit E demoCdm freshDicts = .ok (s, R) := by
  obtain ⟨r, hr⟩ := cdm_works E demoCdm (.inl rfl) (by simp [demoCdm]) rfl rfl rfl rfl rfl (.inr rfl)
  exact c94_cdm_works demoWorld demo_variates demoLensKit E demoCdm freshDicts r hr (demo_ok _)
    (fun z _ => by norm_num [demoWorld]) (by norm_num [demoCdm]) (by norm_num [demoCdm])
    (by norm_num [demoCdm]) (by simp [demoCdm]) (by norm_num [demoCdm])
    (by norm_num [demoCdm]) (fun _ => ⟨by norm_num [demoCdm], demo_host _ _ _⟩)
    (fun _ => demo_apart _) (.inl rfl) rfl

theorem demo_lens_aligned {E : Preset.Env} {s : Ext.Store} {R : Realization}
    (h : cdmCall demoWorld demoLensKit E demoCdm freshDicts = .ok (s, R)) :
    ∀ k ∈ R.halos, (s.obj k).lensIDs.length = (s.obj k).lensParams.length := by
  obtain ⟨r, g, p₀, hr, hg, hp, h⟩ := cdmCall_ok h
  rw [cdm_post hr] at h
  cases h
  obtain ⟨rows, classes, os, h1, h2, h3, h4⟩ := realize_ok hp
  obtain ⟨rfl, rfl⟩ := Prod.mk.injEq .. ▸ h4
  obtain ⟨l1, l2⟩ := loadAll_ok h3
  intro k hk
  have hk : k < os.length := by simpa [newRealization, Realization.fromHalos] using hk
  obtain ⟨o, ho, hl⟩ := l2 k _ (List.getElem?_eq_getElem (l1 ▸ hk))
  obtain ⟨-, -, -, -, -, e⟩ := load_ok hl
  have : (storeOf (densityDict r.density) (os.map fun x => x.obj)).obj k = o.obj := by
    simp [storeOf, ho]
  rw [this, e]
  simp [demoLensKit]

/-- **C98** for a call that exists. -/
example (E : Preset.Env) : ∃ s R ns zs ks, cdmCall demoWorld demoLensKit E demoCdm freshDicts = .ok (s, R) ∧
    R.lensingQuantities s.heap true true {} = .ok (ns, zs, ks) ∧ SameLengths ns zs ks := by
  obtain ⟨s, R, h⟩ := demo_lens E
  obtain ⟨g, P, G, ns, zs, ks, sub, los, -, -, h1, h2, -⟩ := c98_sheets demoWorld demoLensKit E demoCdm freshDicts s R rfl h true {}
    rfl (by norm_num [demoCdm]) (fun _ _ _ _ => by norm_num [demoLensKit, demoKit]) (demo_lens_aligned h)
  exact ⟨s, R, ns, zs, ks, h, h1, h2⟩

end PyHalo.Props
