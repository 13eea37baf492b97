import Verif.Model.PresetsMore
import Verif.Model.Concentration
import Verif.Props.PresetRequests
import Verif.Props.PresetMixed
import Verif.Props.Concentration
import Verif.Props.MassFunction
import Verif.Props.Sheets

/-!
# The presets `WDMGeneral`, `CDMBinned` and `CDMCorrelatedStructure` (C46, C47, C88, C89, C90)
-/

namespace PyHalo.Props
open PyHalo.Preset

/-! ## Taking a successful call apart -/

theorem ofList_cons (k : String) (v : Val) (l : List (String × Val)) (s : String) :
    Kwargs.ofList ((k, v) :: l) s = if s = k then some v else Kwargs.ofList l s := by
  unfold Kwargs.ofList
  rw [List.lookup_cons]
  by_cases h : s = k
  · simp [h]
  · simp [h, beq_eq_false_iff_ne.mpr h]

theorem ofList_nil (s : String) : Kwargs.ofList [] s = none := rfl

theorem general_ok {E : Env} {a : GeneralArgs} {d : Dicts} {r : Request} (h : (wdmGeneral E a d).1 = .ok r) :
    geometryOk a.geometryType ∧ ∃ inf ms mf cs cf cHost,
      (setupInfall E a.zLens a.infall (writeHost a.infall a.logMHost d.infall)).1 = .ok inf ∧
      generalModels E a = .ok (ms, mf, cs, cf, cHost) ∧
      generalAssemble a inf ms mf cs cf cHost (d.truncSub.set "lens_cosmo" (.lensCosmo a.zLens a.zSource a.kwargsCosmo))
        (d.truncField.set "lens_cosmo" (.lensCosmo a.zLens a.zSource a.kwargsCosmo)) = .ok r := by
  unfold wdmGeneral at h
  split at h
  · cases h
  · rename_i hg
    dsimp only at h
    split at h
    · cases h
    · rename_i inf hinf
      split at h
      · cases h
      · rename_i ms mf cs cf cHost hm
        exact ⟨not_not.mp hg, inf, ms, mf, cs, cf, cHost, hinf, hm, h⟩

theorem generalModels_ok {E : Env} {a : GeneralArgs} {ms mf cs cf : Cls × Kwargs} {c : ℝ}
    (h : generalModels E a = .ok (ms, mf, cs, cf, c)) :
    massFunctionModel E "STUCKER_SHMF" (Kwargs.ofList [("dlogT_dlogk", .num a.slope)]) = .ok ms ∧
    massFunctionModel E "STUCKER" (Kwargs.ofList [("dlogT_dlogk", .num a.slope)]) = .ok mf ∧
    generalConc E a = .ok cs ∧ generalConc E a = .ok cf ∧ generalHost E a = .ok c := by
  unfold generalModels at h
  obtain ⟨_, h1, h⟩ := bind_ok h
  obtain ⟨_, h2, h⟩ := bind_ok h
  obtain ⟨_, h3, h⟩ := bind_ok h
  obtain ⟨_, h4, h⟩ := bind_ok h
  obtain ⟨_, h5, h⟩ := bind_ok h
  cases h
  exact ⟨h1, h2, h3, h4, h5⟩

theorem generalAssemble_ok {a : GeneralArgs} {inf : Infall} {ms mf cs cf : Cls × Kwargs} {cHost : ℝ} {dS dF : Kwargs}
    {r : Request} (h : generalAssemble a inf ms mf cs cf cHost dS dF = .ok r) :
    a.promptCusps = false ∧ ∃ ts tf sp spKw, truncPart a.truncSub a.truncField dS dF cHost = .ok (ts, tf) ∧
      spatialPart a.spatial a.cone a.logMHost a.zLens cHost a.rTidal
        (Val.geometry a.zLens a.zSource a.cone a.geometryType a.kwargsCosmo)
        (Val.lensCosmo a.zLens a.zSource a.kwargsCosmo) = .ok (sp, spKw) ∧
      r.populations = ["SUBHALOS", "LINE_OF_SIGHT", "TWO_HALO"] ∧ r.massFunctions = [ms.1, mf.1, mf.1] ∧
      r.massKwargs = [generalSubKwargs a ms.2, generalLosKwargs a mf.2, generalLosKwargs a mf.2] ∧
      r.spatials = [sp, .named "LensConeUniform", .named "LensConeUniform"] ∧
      r.infall = inf ∧ r.concSub = cs ∧ r.concField = cf ∧ r.truncSub = ts ∧ r.truncField = tf ∧
      r.spatialKwargs.length = 3 := by
  unfold generalAssemble at h
  obtain ⟨⟨ts, tf⟩, h1, h⟩ := bind_ok h
  obtain ⟨⟨sp, spKw⟩, h2, h⟩ := bind_ok h
  dsimp only at h
  by_cases hp : a.promptCusps = true
  · rw [if_pos hp] at h; cases h
  · rw [if_neg hp] at h
    cases h
    exact ⟨by simpa using hp, ts, tf, sp, spKw, h1, h2, rfl, rfl, rfl, rfl, rfl, rfl, rfl, rfl, rfl, rfl⟩

theorem generalConc_ok {E : Env} {a : GeneralArgs} {o : Cls × Kwargs} (h : generalConc E a = .ok o) :
    a.slope ≤ 0 ∧ o.1 = .named "ConcentrationLudlowWDM" ∧ o.2 = Kwargs.ofList [("dlogT_dlogk", .num a.slope),
      ("cosmo", .cosmo a.kwargsCosmo), ("log_mc", .num a.logMc)] := by
  unfold generalConc at h
  obtain ⟨⟨c, kw⟩, h1, h⟩ := bind_ok h
  have e : c = .named "ConcentrationLudlowWDM" ∧ kw = Kwargs.ofList [("dlogT_dlogk", .num a.slope)] := by
    simp [concentrationModel] at h1
    exact ⟨h1.1.symm, h1.2.symm⟩
  obtain ⟨rfl, rfl⟩ := e
  unfold construct at h
  dsimp only at h
  split at h
  · cases h
  · split at h
    · cases h
    · split at h
      · cases h
      · rename_i hn
        cases h
        refine ⟨?_, rfl, ?_⟩
        · by_contra hp
          exact hn ⟨rfl, a.slope, by simp [Kwargs.set, ofList_cons], not_le.mp hp⟩
        · funext k
          simp only [Kwargs.set, ofList_cons, ofList_nil]
          split_ifs <;> simp_all

/-! ## `WDMGeneral` (C88) -/

/-- The documentation of `WDMGeneral` calls `dlogT_dlogk` the absolute value of the slope of the transfer function,
calibrated between about 1 and 3. Every call with a positive value raises, whatever else is given. -/
theorem c88_documented_slope_refused (E : Env) (a : GeneralArgs) (d : Dicts) (h : 0 < a.slope) :
    ∃ e, (wdmGeneral E a d).1 = .error e := by
  cases hr : (wdmGeneral E a d).1 with
  | error e => exact ⟨e, rfl⟩
  | ok r =>
    exfalso
    obtain ⟨-, inf, ms, mf, cs, cf, cHost, -, hm, -⟩ := general_ok hr
    have := (generalConc_ok (generalModels_ok hm).2.2.1).1
    linarith

example : 0 < ({ zLens := 0.5, zSource := 1.5, logMc := 7, slope := 2 } : GeneralArgs).slope := by norm_num

theorem truncPart_default (v : Val) (c : ℝ) :
    truncPart (.name "TRUNCATION_GALACTICUS") (.name "TRUNCATION_RN") (Kwargs.empty.set "lens_cosmo" v)
      (Kwargs.empty.set "lens_cosmo" v) c =
      .ok ((.named "TruncationGalacticus", (Kwargs.empty.update (Kwargs.empty.set "lens_cosmo" v)).set "c_host" (.num c)),
        (.named "TruncationRN", Kwargs.empty.update (Kwargs.empty.set "lens_cosmo" v))) := by
  have k1 : truncationModel (.name "TRUNCATION_GALACTICUS") = .ok (.named "TruncationGalacticus", Kwargs.empty) := rfl
  have k2 : truncationModel (.name "TRUNCATION_RN") = .ok (.named "TruncationRN", Kwargs.empty) := rfl
  unfold truncPart
  rw [k1, k2]
  dsimp only [bind, Except.bind]
  rw [if_pos (by simp), construct_galacticus]
  dsimp only
  rw [construct_rn]
  rfl

theorem hybrid_default (E : Env) (z l : ℝ) :
    (setupInfall E z (.name "HYBRID_INFALL") (writeHost (.name "HYBRID_INFALL") l Kwargs.empty)).1 =
      .ok (.hybrid z l) := by
  simp [setupInfall, writeHost, convertHost, defaultHost, Kwargs.set, Kwargs.num, Kwargs.empty]

/-- And with the default models every slope that is not positive works, in each geometry and spatial distribution, for all
numbers given. -/
theorem c88_works (E : Env) (a : GeneralArgs) (hs : a.slope ≤ 0) (hg : geometryOk a.geometryType)
    (hp : a.promptCusps = false) (h1 : a.truncSub = .name "TRUNCATION_GALACTICUS")
    (h2 : a.truncField = .name "TRUNCATION_RN") (h3 : a.infall = .name "HYBRID_INFALL")
    (h4 : a.spatial = "UNIFORM" ∨ a.spatial = "PROJECTED_NFW") :
    ∃ r, (wdmGeneral E a freshDicts).1 = .ok r := by
  obtain ⟨out, o1, -⟩ := (c48_mass_stucker E (Kwargs.ofList [("dlogT_dlogk", .num a.slope)]) "STUCKER_SHMF" "WDMPowerLaw"
    (by simp [massStucker])).2 a.slope rfl rfl rfl rfl
  obtain ⟨out', o1', -⟩ := (c48_mass_stucker E (Kwargs.ofList [("dlogT_dlogk", .num a.slope)]) "STUCKER"
    "ShethTormenTurnover" (by simp [massStucker])).2 a.slope rfl rfl rfl rfl
  have hc : ∃ o, generalConc E a = .ok o := by
    have k1 : concentrationModel E "LUDLOW_WDM" (some (Kwargs.ofList [("dlogT_dlogk", .num a.slope)])) =
      .ok (.named "ConcentrationLudlowWDM", Kwargs.ofList [("dlogT_dlogk", .num a.slope)]) := rfl
    unfold generalConc
    rw [k1]
    dsimp only [bind, Except.bind]
    unfold construct
    rw [if_neg, if_neg, if_neg]
    · exact ⟨_, rfl⟩
    · rintro ⟨-, x, hx, hx0⟩
      simp [Kwargs.set, ofList_cons] at hx
      linarith
    · simp [signature, Kwargs.set, ofList_cons]
    · rintro ⟨-, k, hk, hr, ho⟩
      simp [signature] at hr
      simp [Kwargs.set, ofList_cons, ofList_nil, hr.1, hr.2.1, hr.2.2] at hk
  obtain ⟨o, hc⟩ := hc
  have hh : ∃ c, generalHost E a = .ok c := by
    have k1 : concentrationModel E "DIEMERJOYCE19" none = .ok (.named "ConcentrationDiemerJoyce", Kwargs.empty) := rfl
    have k2 : construct (.named "ConcentrationDiemerJoyce") (Kwargs.ofList [("cosmo", .cosmo a.kwargsCosmo)]) =
        .ok (.named "ConcentrationDiemerJoyce", Kwargs.ofList [("cosmo", .cosmo a.kwargsCosmo)]) := by
      simp [construct, signature, ofList_cons]
    unfold generalHost
    rw [k1]
    dsimp only [bind, Except.bind]
    rw [k2]
    exact ⟨_, rfl⟩
  obtain ⟨c, hh⟩ := hh
  have hm : generalModels E a = .ok ((.named "WDMPowerLaw", out), (.named "ShethTormenTurnover", out'), o, o, c) := by
    unfold generalModels
    rw [o1, o1', hc, hh]
    rfl
  unfold wdmGeneral
  rw [if_neg (not_not.mpr hg)]
  dsimp only
  rw [h3]
  have hf : freshDicts.infall = Kwargs.empty := rfl
  have hf1 : freshDicts.truncSub = Kwargs.empty := rfl
  have hf2 : freshDicts.truncField = Kwargs.empty := rfl
  rw [hf, hybrid_default]
  dsimp only
  rw [hm]
  dsimp only
  unfold generalAssemble
  rw [h1, h2, hf1, hf2, truncPart_default, hp]
  rcases h4 with h4 | h4
  · rw [h4]; exact ⟨_, rfl⟩
  · rw [h4]; exact ⟨_, rfl⟩

/-- A successful call has a slope that is not positive, and asks for three populations, with mass functions suppressed as
the slope says and with concentrations suppressed by the same slope and the same half-mode mass. -/
theorem c88_request (E : Env) (a : GeneralArgs) (d : Dicts) (r : Request) (h : (wdmGeneral E a d).1 = .ok r) :
    a.slope ≤ 0 ∧ a.promptCusps = false ∧ r.populations = ["SUBHALOS", "LINE_OF_SIGHT", "TWO_HALO"] ∧
    r.massFunctions = [.named "WDMPowerLaw", .named "ShethTormenTurnover", .named "ShethTormenTurnover"] ∧
    (∃ s f, r.massKwargs = [s, f, f] ∧ (∀ kw ∈ [s, f], kw "log_mlow" = some (.num a.logMlow) ∧
        kw "log_mhigh" = some (.num a.logMhigh) ∧ kw "m_pivot" = some (.num (10 ^ 8)) ∧
        kw "log_mc" = some (.num a.logMc) ∧ kw "delta_power_law_index" = some (.num 0) ∧
        kw "a_wdm" = some (.num (stuckerParams E a.slope).1) ∧ kw "b_wdm" = some (.num (stuckerParams E a.slope).2.1) ∧
        kw "c_wdm" = some (.num (stuckerParams E a.slope).2.2) ∧ kw "dlogT_dlogk" = none ∧ kw "draw_poisson" = none) ∧
      s "power_law_index" = some (.num a.shmfLogSlope) ∧ f "LOS_normalization" = some (.num a.losNormalization) ∧
      f "log_m_host" = some (.num a.logMHost)) ∧
    (∀ c ∈ [r.concSub, r.concField], c = (.named "ConcentrationLudlowWDM", Kwargs.ofList [("dlogT_dlogk", .num a.slope),
      ("cosmo", .cosmo a.kwargsCosmo), ("log_mc", .num a.logMc)])) := by
  obtain ⟨-, inf, ms, mf, cs, cf, cHost, -, hm, h⟩ := general_ok h
  obtain ⟨m1, m2, m3, m4, -⟩ := generalModels_ok hm
  obtain ⟨hp, ts, tf, sp, spKw, -, -, h1, h2, h3, -, -, h5, h6, -⟩ := generalAssemble_ok h
  obtain ⟨c0, c1, c2⟩ := generalConc_ok m3
  obtain ⟨-, c3, c4⟩ := generalConc_ok m4
  obtain ⟨out, o1, o2, o3, o4, o5⟩ := (c48_mass_stucker E (Kwargs.ofList [("dlogT_dlogk", .num a.slope)]) "STUCKER_SHMF"
    "WDMPowerLaw" (by simp [massStucker])).2 a.slope rfl rfl rfl rfl
  obtain ⟨out', o1', o2', o3', o4', o5'⟩ := (c48_mass_stucker E (Kwargs.ofList [("dlogT_dlogk", .num a.slope)]) "STUCKER"
    "ShethTormenTurnover" (by simp [massStucker])).2 a.slope rfl rfl rfl rfl
  have q : out "draw_poisson" = none := massFunctionModel_get o1 "draw_poisson" (by simp)
  have q' : out' "draw_poisson" = none := massFunctionModel_get o1' "draw_poisson" (by simp)
  rw [m1] at o1; cases o1
  rw [m2] at o1'; cases o1'
  refine ⟨c0, hp, h1, h2, ⟨_, _, h3, ?_, ?_, rfl, rfl⟩, ?_⟩
  · intro kw hkw
    simp only [List.mem_cons, List.not_mem_nil, or_false] at hkw
    rcases hkw with rfl | rfl
    · unfold generalSubKwargs
      cases a.log10dNdA <;> cases a.log10SigmaSub <;>
        simp [Kwargs.update, Kwargs.set, ofList_cons, ofList_nil, o2, o3, o4, o5, q]
    · unfold generalLosKwargs
      simp [Kwargs.update, Kwargs.set, ofList_cons, ofList_nil, o2', o3', o4', o5', q']
  · unfold generalSubKwargs
    cases a.log10dNdA <;> cases a.log10SigmaSub <;> simp [Kwargs.update, Kwargs.set, ofList_cons]
  · intro c hc
    simp only [List.mem_cons, List.not_mem_nil, or_false] at hc
    rcases hc with rfl | rfl
    · rw [h5, ← c1, ← c2]
    · rw [h6, ← c3, ← c4]

example (E : Env) : ∃ r, (wdmGeneral E { zLens := 0.5, zSource := 1.5, logMc := 7, slope := -2 } freshDicts).1 = .ok r :=
  c88_works E _ (by norm_num) (by simp [geometryOk]) rfl rfl rfl rfl (by simp)

/-- The amplitude of the subhalo mass function is chosen as in the other presets. -/
theorem c47_general (E : Env) (a : GeneralArgs) (d : Dicts) (r : Request) (h : (wdmGeneral E a d).1 = .ok r) (kpc : ℝ) :
    ∃ kw rest, r.massKwargs = kw :: rest ∧ r.populations.head? = some "SUBHALOS" ∧
      Spec47.entries (Spec47.chosen a.log10dNdA a.log10SigmaSub a.sigmaSub) kw ∧
      subAmplitude kw a.zLens kpc a.cone =
        .ok (a.shmfLogSlope, Spec47.norm (Spec47.chosen a.log10dNdA a.log10SigmaSub a.sigmaSub) a.shmfLogSlope
          (10 ^ a.logMHost) a.zLens kpc a.cone a.hostScaling a.redshiftScaling) := by
  obtain ⟨-, inf, ms, mf, cs, cf, cHost, -, hm, h⟩ := general_ok h
  obtain ⟨m1, -⟩ := generalModels_ok hm
  obtain ⟨hp, ts, tf, sp, spKw, -, -, h1, h2, h3, -⟩ := generalAssemble_ok h
  have q1 : ms.2 "dndA" = none := massFunctionModel_get m1 "dndA" (by simp)
  have q2 : ms.2 "sigma_sub" = none := massFunctionModel_get m1 "sigma_sub" (by simp)
  have he : Spec47.entries (Spec47.chosen a.log10dNdA a.log10SigmaSub a.sigmaSub) (generalSubKwargs a ms.2) := by
    unfold generalSubKwargs
    cases a.log10dNdA <;> cases a.log10SigmaSub <;>
      simp [Spec47.entries, Spec47.chosen, Kwargs.update, Kwargs.set, ofList_cons, ofList_nil, q1, q2]
  refine ⟨_, _, h3, by rw [h1]; rfl, he, subAmplitude_ok _ _ _ _ _ _ _ _ _ he ?_ ?_ ?_ ?_ ?_ ?_⟩
  · unfold generalSubKwargs
    cases a.log10dNdA <;> cases a.log10SigmaSub <;> simp [Kwargs.update, Kwargs.set, ofList_cons]
  · unfold generalSubKwargs
    cases a.log10dNdA <;> cases a.log10SigmaSub <;> simp [Kwargs.update, Kwargs.set, ofList_cons]
  · unfold generalSubKwargs
    cases a.log10dNdA <;> cases a.log10SigmaSub <;> simp [Kwargs.update, Kwargs.set, ofList_cons]
  · unfold generalSubKwargs
    cases a.log10dNdA <;> cases a.log10SigmaSub <;> simp [Kwargs.update, Kwargs.set, ofList_cons]
  · unfold generalSubKwargs
    cases a.log10dNdA <;> cases a.log10SigmaSub <;> simp [Kwargs.update, Kwargs.set, ofList_cons]
  · intro hc
    unfold generalSubKwargs
    cases hx : a.log10dNdA
    · cases a.log10SigmaSub <;> simp [Kwargs.update, Kwargs.set, ofList_cons]
    · simp [Spec47.chosen, hx] at hc

/-- The missing extension for prompt cusps refuses the option here too. -/
theorem c80_general_prompt_cusps (E : Env) (a : GeneralArgs) (d : Dicts) (h : a.promptCusps = true) :
    ∃ e, (wdmGeneral E a d).1 = .error e := by
  cases hr : (wdmGeneral E a d).1 with
  | error e => exact ⟨e, rfl⟩
  | ok r =>
    obtain ⟨-, inf, ms, mf, cs, cf, cHost, -, -, hh⟩ := general_ok hr
    rw [(generalAssemble_ok hh).1] at h
    cases h

/-! ## Calls and their dictionaries (C46) -/

/-- What the other presets write: the `LensCosmo` and the host mass, no concentration entry. -/
theorem c46_writes_general (E : Env) (a : GeneralArgs) (d : Dicts) :
    Frame [] (wdmGeneral E a d).2 d ∧ (d.infall "m_host" = none → (wdmGeneral E a d).2.infall "m_host" = none) := by
  obtain ⟨fi, mi⟩ := infall_frame E a.zLens a.logMHost a.infall d.infall
  have t1 : ∀ k : Kwargs, SameBut ["lens_cosmo"] (k.set "lens_cosmo" (.lensCosmo a.zLens a.zSource a.kwargsCosmo)) k :=
    fun k => SameBut.set k _ (by simp)
  unfold wdmGeneral
  split
  · exact ⟨⟨SameBut.refl _, SameBut.refl _, SameBut.refl _, SameBut.refl _, SameBut.refl _⟩, id⟩
  · dsimp only
    split
    · exact ⟨⟨SameBut.refl _, SameBut.refl _, SameBut.refl _, SameBut.refl _, fi⟩, mi⟩
    · split
      · exact ⟨⟨SameBut.refl _, SameBut.refl _, SameBut.refl _, SameBut.refl _, fi⟩, mi⟩
      · exact ⟨⟨SameBut.refl _, SameBut.refl _, t1 _, t1 _, fi⟩, mi⟩

theorem c46_writes_binned (E : Env) (a : BinnedArgs) (d : Dicts) :
    Frame [] (cdmBinned E a d).2 d ∧ (d.infall "m_host" = none → (cdmBinned E a d).2.infall "m_host" = none) := by
  obtain ⟨fi, mi⟩ := infall_frame E a.zLens a.logMHost a.infall d.infall
  have t1 : ∀ k : Kwargs, SameBut ["lens_cosmo"] (k.set "lens_cosmo" (.lensCosmo a.zLens a.zSource a.kwargsCosmo)) k :=
    fun k => SameBut.set k _ (by simp)
  unfold cdmBinned
  split
  · exact ⟨⟨SameBut.refl _, SameBut.refl _, SameBut.refl _, SameBut.refl _, SameBut.refl _⟩, id⟩
  · dsimp only
    split
    · exact ⟨⟨SameBut.refl _, SameBut.refl _, SameBut.refl _, SameBut.refl _, fi⟩, mi⟩
    · split
      · exact ⟨⟨SameBut.refl _, SameBut.refl _, SameBut.refl _, SameBut.refl _, fi⟩, mi⟩
      · split
        · exact ⟨⟨SameBut.refl _, SameBut.refl _, SameBut.refl _, SameBut.refl _, fi⟩, mi⟩
        · exact ⟨⟨SameBut.refl _, SameBut.refl _, t1 _, t1 _, fi⟩, mi⟩

theorem general_congr (E : Env) (a : GeneralArgs) {d d' : Dicts}
    (h3 : SameBut ["lens_cosmo"] d.truncSub d'.truncSub) (h4 : SameBut ["lens_cosmo"] d.truncField d'.truncField)
    (h5 : (setupInfall E a.zLens a.infall (writeHost a.infall a.logMHost d.infall)).1 =
      (setupInfall E a.zLens a.infall (writeHost a.infall a.logMHost d'.infall)).1) :
    (wdmGeneral E a d).1 = (wdmGeneral E a d').1 := by
  have s3 := fun v => Kwargs.set_congr (a := d.truncSub) (b := d'.truncSub) v (fun k hk => h3 k (by simpa using hk))
  have s4 := fun v => Kwargs.set_congr (a := d.truncField) (b := d'.truncField) v (fun k hk => h4 k (by simpa using hk))
  unfold wdmGeneral
  dsimp only
  rw [h5, s3, s4]
  split
  · rfl
  · split
    · rfl
    · split <;> rfl

theorem binned_congr (E : Env) (a : BinnedArgs) {d d' : Dicts}
    (h3 : SameBut ["lens_cosmo"] d.truncSub d'.truncSub) (h4 : SameBut ["lens_cosmo"] d.truncField d'.truncField)
    (h5 : (setupInfall E a.zLens a.infall (writeHost a.infall a.logMHost d.infall)).1 =
      (setupInfall E a.zLens a.infall (writeHost a.infall a.logMHost d'.infall)).1) :
    (cdmBinned E a d).1 = (cdmBinned E a d').1 := by
  have s3 := fun v => Kwargs.set_congr (a := d.truncSub) (b := d'.truncSub) v (fun k hk => h3 k (by simpa using hk))
  have s4 := fun v => Kwargs.set_congr (a := d.truncField) (b := d'.truncField) v (fun k hk => h4 k (by simpa using hk))
  unfold cdmBinned
  dsimp only
  rw [h5, s3, s4]
  split
  · rfl
  · split
    · rfl
    · split
      · rfl
      · split <;> rfl

/-- Calls of the general warm dark matter preset do not depend on earlier calls, with the same exception as before. -/
theorem c46_general_partial (E : Env) (hist : List (GeneralArgs × Given)) (a : GeneralArgs) (g : Given)
    (h : g.infall.isSome = true ∨ Safe a.infall) :
    (call (wdmGeneral E) (history (wdmGeneral E) hist) (a, g)).1 = (call (wdmGeneral E) freshDicts (a, g)).1 := by
  have hc := clean_history (f := wdmGeneral E) (conc := []) (fun a d => c46_writes_general E a d) hist
  obtain ⟨-, -, h3, h4, h5⟩ := pick_sameBut hc g
  refine general_congr E a h3 h4 ?_
  rcases h with h | h
  · obtain ⟨kw, hk⟩ := Option.isSome_iff_exists.mp h
    simp [Given.pick, hk]
  · exact setup_congr E _ _ _ h h5

/-- Nor do those of the binned cold dark matter preset. -/
theorem c46_binned_partial (E : Env) (hist : List (BinnedArgs × Given)) (a : BinnedArgs) (g : Given)
    (h : g.infall.isSome = true ∨ Safe a.infall) :
    (call (cdmBinned E) (history (cdmBinned E) hist) (a, g)).1 = (call (cdmBinned E) freshDicts (a, g)).1 := by
  have hc := clean_history (f := cdmBinned E) (conc := []) (fun a d => c46_writes_binned E a d) hist
  obtain ⟨-, -, h3, h4, h5⟩ := pick_sameBut hc g
  refine binned_congr E a h3 h4 ?_
  rcases h with h | h
  · obtain ⟨kw, hk⟩ := Option.isSome_iff_exists.mp h
    simp [Given.pick, hk]
  · exact setup_congr E _ _ _ h h5

/-! ## `CDMBinned` (C89) -/

theorem binned_ok {E : Env} {a : BinnedArgs} {d : Dicts} {r : Request} (h : (cdmBinned E a d).1 = .ok r) :
    geometryOk a.geometryType ∧ a.profile ∈ ["NFW", "TNFW"] ∧ ∃ inf cs cf,
      (setupInfall E a.zLens a.infall (writeHost a.infall a.logMHost d.infall)).1 = .ok inf ∧
      binnedConc E a = .ok (cs, cf) ∧
      binnedAssemble a inf cs cf (d.truncSub.set "lens_cosmo" (.lensCosmo a.zLens a.zSource a.kwargsCosmo))
        (d.truncField.set "lens_cosmo" (.lensCosmo a.zLens a.zSource a.kwargsCosmo)) = .ok r := by
  unfold cdmBinned at h
  split at h
  · cases h
  · rename_i hg
    dsimp only at h
    split at h
    · cases h
    · rename_i inf hinf
      split at h
      · cases h
      · rename_i hp
        split at h
        · cases h
        · rename_i cs cf hc
          exact ⟨not_not.mp hg, not_not.mp hp, inf, cs, cf, hinf, hc, h⟩

theorem binnedConc_ok {E : Env} {a : BinnedArgs} {cs cf : Cls × Kwargs} (h : binnedConc E a = .ok (cs, cf)) :
    (∃ m, concentrationModel E a.concSub (some (binnedConcKwargs a)) = .ok m ∧
      construct m.1 (m.2.set "scatter_dex" (.num a.scatterDex)) = .ok cs) ∧
    (∃ m, concentrationModel E a.concField (some (binnedConcKwargs a)) = .ok m ∧
      construct m.1 (m.2.set "scatter_dex" (.num a.scatterDex)) = .ok cf) := by
  unfold binnedConc at h
  obtain ⟨m, h1, h⟩ := bind_ok h
  obtain ⟨o, h2, h⟩ := bind_ok h
  obtain ⟨m', h3, h⟩ := bind_ok h
  obtain ⟨o', h4, h⟩ := bind_ok h
  cases h
  exact ⟨⟨m, h1, h2⟩, m', h3, h4⟩

theorem binnedAssemble_ok {a : BinnedArgs} {inf : Infall} {cs cf : Cls × Kwargs} {dS dF : Kwargs} {r : Request}
    (h : binnedAssemble a inf cs cf dS dF = .ok r) :
    r.populations = ["SUBHALOS", "SUBHALOS", "LINE_OF_SIGHT", "LINE_OF_SIGHT", "TWO_HALO", "TWO_HALO"] ∧
    r.massKwargs = [binnedSubKwargs a (6, 8) a.scaleLow, binnedSubKwargs a (8, 10.7) a.scaleHigh,
        binnedLosKwargs a (6, 8) a.scaleLow, binnedLosKwargs a (8, 10.7) a.scaleHigh,
        binnedLosKwargs a (6, 8) a.scaleLow, binnedLosKwargs a (8, 10.7) a.scaleHigh] ∧
    r.massFunctions = [.named "CDMPowerLaw", .named "CDMPowerLaw", .named "ShethTormen", .named "ShethTormen",
      .named "ShethTormen", .named "ShethTormen"] ∧
    r.concSub = cs ∧ r.concField = cf ∧ r.spatials.length = 6 ∧ r.spatialKwargs.length = 6 ∧ r.infall = inf := by
  unfold binnedAssemble at h
  obtain ⟨⟨ts, tf⟩, h1, h⟩ := bind_ok h
  cases h
  exact ⟨rfl, rfl, rfl, rfl, rfl, rfl, rfl, rfl⟩

/-- Everything that the dictionaries for one population agree on: the six populations are aligned, and those of one bin
share the bin and its factor. -/
theorem c89_request (E : Env) (a : BinnedArgs) (d : Dicts) (r : Request) (h : (cdmBinned E a d).1 = .ok r) :
    r.populations = ["SUBHALOS", "SUBHALOS", "LINE_OF_SIGHT", "LINE_OF_SIGHT", "TWO_HALO", "TWO_HALO"] ∧
    r.massFunctions.length = 6 ∧ r.massKwargs.length = 6 ∧ r.spatials.length = 6 ∧ r.spatialKwargs.length = 6 ∧
    ∀ i kw, r.massKwargs[i]? = some kw →
      let bin : ℝ × ℝ := if i % 2 = 0 then (6, 8) else (8, 10.7)
      let scale := if i % 2 = 0 then a.scaleLow else a.scaleHigh
      kw "log_mlow" = some (.num bin.1) ∧ kw "log_mhigh" = some (.num bin.2) ∧
      (2 ≤ i → kw "LOS_normalization" = some (.num (scale * a.losNormalization))) ∧
      (i < 2 → kw "sigma_sub" = some (.num (scale * (match a.log10SigmaSub with | some x => 10 ^ x | none => a.sigmaSub))) ∧
        kw "dndA" = none ∧ kw "power_law_index" = some (.num a.shmfLogSlope)) := by
  obtain ⟨-, -, inf, cs, cf, -, -, h⟩ := binned_ok h
  obtain ⟨h1, h2, h3, -, -, h4, h5, -⟩ := binnedAssemble_ok h
  refine ⟨h1, by rw [h3]; rfl, by rw [h2]; rfl, h4, h5, ?_⟩
  intro i kw hi
  rw [h2] at hi
  rcases i with _ | _ | _ | _ | _ | _ | i
  · cases hi; exact ⟨rfl, rfl, fun h => by omega, fun _ => ⟨rfl, rfl, rfl⟩⟩
  · cases hi; exact ⟨rfl, rfl, fun h => by omega, fun _ => ⟨rfl, rfl, rfl⟩⟩
  · cases hi; exact ⟨rfl, rfl, fun _ => rfl, fun h => by omega⟩
  · cases hi; exact ⟨rfl, rfl, fun _ => rfl, fun h => by omega⟩
  · cases hi; exact ⟨rfl, rfl, fun _ => rfl, fun h => by omega⟩
  · cases hi; exact ⟨rfl, rfl, fun _ => rfl, fun h => by omega⟩
  · cases hi

/-- Of the documented names for the concentration three work: the binned model, and two that accept and ignore the
normalisations in the bins. All others refuse the arguments that the preset hands over, or miss one. -/
theorem c80_binned (E : Env) (a : BinnedArgs) (d : Dicts) (r : Request) (h : (cdmBinned E a d).1 = .ok r) :
    (a.concSub = "BINNED_HALO_MASS" ∨ a.concSub = "DIEMERJOYCE19" ∨ a.concSub = "LUDLOW2016") ∧
    (a.concField = "BINNED_HALO_MASS" ∨ a.concField = "DIEMERJOYCE19" ∨ a.concField = "LUDLOW2016") := by
  obtain ⟨-, -, inf, cs, cf, -, hc, -⟩ := binned_ok h
  obtain ⟨⟨m, e1, e2⟩, m', e3, e4⟩ := binnedConc_ok hc
  have key : ∀ (name : String) (m o : Cls × Kwargs), concentrationModel E name (some (binnedConcKwargs a)) = .ok m →
      construct m.1 (m.2.set "scatter_dex" (.num a.scatterDex)) = .ok o →
      name = "BINNED_HALO_MASS" ∨ name = "DIEMERJOYCE19" ∨ name = "LUDLOW2016" := by
    intro name m o hm ho
    have bad : m.2 "beta_list" ≠ none → (signature m.1).extra = false → "beta_list" ∉ (signature m.1).required →
        "beta_list" ∉ (signature m.1).optional → False := by
      intro hb h1 h2 h3
      rcases construct_unexpected ho "beta_list" (by simpa [Kwargs.set] using hb) with h | h | h
      · rw [h1] at h; cases h
      · exact h2 h
      · exact h3 h
    have hb : binnedConcKwargs a "beta_list" ≠ none := by simp [binnedConcKwargs, ofList_cons]
    by_cases hn : name = "BINNED_HALO_MASS"
    · exact Or.inl hn
    rcases conc_cases hm rfl rfl with hn' | ⟨hn', hm2⟩ | ⟨hn', -⟩ | ⟨hn', hm2⟩ | ⟨hn', hm2⟩ | ⟨hn', hm2⟩
    · rcases hn' with rfl | rfl | rfl | rfl | rfl | rfl
      · simp
      · simp
      all_goals
        exfalso
        cases hm
        exact bad (by simpa [Kwargs.set, setBose] using hb) (by simp [signature]) (by simp [signature]) (by simp [signature])
    · exact (bad (by rw [hm2]; exact hb) (by simp [hn', signature]) (by simp [hn', signature]) (by simp [hn', signature])).elim
    · exact absurd hn' hn
    · exact (bad (by rw [hm2]; exact hb) (by simp [hn', signature]) (by simp [hn', signature]) (by simp [hn', signature])).elim
    · exact (bad (by rw [hm2]; exact hb) (by simp [hn', signature]) (by simp [hn', signature]) (by simp [hn', signature])).elim
    · exact (bad (by rw [hm2]; exact hb) (by simp [hn', signature]) (by simp [hn', signature]) (by simp [hn', signature])).elim
  exact ⟨key _ _ _ e1 e2, key _ _ _ e3 e4⟩

/-- With the default name, both concentration models give every mass from `10^6` up to `10^10.7` the relation of its bin:
below `10^8` the normalisation `10^log10_mc_low`, from `10^8` on `10^log10_mc_high`. `model` is the relation between
normalisation and concentration. -/
theorem c89_concentration (E : Env) (a : BinnedArgs) (d : Dicts) (r : Request) (h : (cdmBinned E a d).1 = .ok r)
    (h1 : a.concSub = "BINNED_HALO_MASS") (h2 : a.concField = "BINNED_HALO_MASS") (model : ℝ → ℝ → ℝ → ℝ → ℝ → ℝ) :
    ∀ c ∈ [r.concSub, r.concField], c.1 = .named "BinnedHaloMass" ∧ c.2 "scatter_dex" = some (.num a.scatterDex) ∧
      ∃ bins, binnedOf model c.2 = .ok bins ∧ ∀ m z, (10 : ℝ) ^ (6 : ℝ) ≤ m → m < (10 : ℝ) ^ (10.7 : ℝ) →
        Conc.binned bins m z =
          .ok (model (10 ^ (if m < (10 : ℝ) ^ (8 : ℝ) then a.log10McLow else a.log10McHigh)) a.zeta a.beta m z) := by
  obtain ⟨-, -, inf, cs, cf, -, hc, h⟩ := binned_ok h
  obtain ⟨⟨m, e1, e2⟩, m', e3, e4⟩ := binnedConc_ok hc
  obtain ⟨-, -, -, k1, k2, -⟩ := binnedAssemble_ok h
  rw [h1] at e1
  rw [h2] at e3
  have ok : ∀ {c : Cls} {k : Kwargs} {o : Cls × Kwargs}, construct c k = .ok o → o = (c, k) := by
    intro c k o ho
    unfold construct at ho
    dsimp only at ho
    split at ho
    · cases ho
    · split at ho
      · cases ho
      · split at ho <;> cases ho
        rfl
  have e1' : m = (.named "BinnedHaloMass", binnedConcKwargs a) := by cases e1; rfl
  have e3' : m' = (.named "BinnedHaloMass", binnedConcKwargs a) := by cases e3; rfl
  subst e1' e3'
  have f1 := ok e2
  have f2 := ok e4
  have main : ∃ bins, binnedOf model ((binnedConcKwargs a).set "scatter_dex" (.num a.scatterDex)) = .ok bins ∧
      ∀ m z, (10 : ℝ) ^ (6 : ℝ) ≤ m → m < (10 : ℝ) ^ (10.7 : ℝ) → Conc.binned bins m z =
        .ok (model (10 ^ (if m < (10 : ℝ) ^ (8 : ℝ) then a.log10McLow else a.log10McHigh)) a.zeta a.beta m z) := by
    refine ⟨[(6, 8, model (10 ^ a.log10McLow) a.zeta a.beta), (8, 10.7, model (10 ^ a.log10McHigh) a.zeta a.beta)], ?_, ?_⟩
    · unfold binnedOf
      simp [binnedConcKwargs, Kwargs.set, ofList_cons, binnedRanges]
    · intro m z hlo hhi
      by_cases hm : m < (10 : ℝ) ^ (8 : ℝ)
      · rw [if_pos hm]
        exact c69_binned [] [(8, 10.7, model (10 ^ a.log10McHigh) a.zeta a.beta)] (6, 8, _) m z hlo hm (by simp)
          (by simp; norm_num)
      · rw [if_neg hm]
        exact c69_binned [(6, 8, model (10 ^ a.log10McLow) a.zeta a.beta)] [] (8, 10.7, _) m z (not_lt.mp hm) hhi
          (by simp; norm_num) (by simp)
  intro c hc
  simp only [List.mem_cons, List.not_mem_nil, or_false] at hc
  rcases hc with rfl | rfl
  · rw [k1, f1]; exact ⟨rfl, rfl, main⟩
  · rw [k2, f2]; exact ⟨rfl, rfl, main⟩

theorem invert_lt (p : PowerLaw) (h : p.logMlow < p.logMhigh) (x : ℝ) (h0 : 0 ≤ x) (h1 : x < 1) :
    p.invert x < (10 : ℝ) ^ p.logMhigh := by
  have hL := pow10_pos p.logMlow
  have hH := pow10_pos p.logMhigh
  have hLH : (10 : ℝ) ^ p.logMlow < (10 : ℝ) ^ p.logMhigh := Real.rpow_lt_rpow_of_exponent_lt (by norm_num) h
  unfold PowerLaw.invert
  simp only
  generalize (10 : ℝ) ^ p.logMlow = L at *
  generalize (10 : ℝ) ^ p.logMhigh = H at *
  split_ifs with hi
  · have hlog : 0 < Real.log (H / L) := Real.log_pos (by rw [lt_div_iff₀ hL]; linarith)
    have : Real.exp (Real.log (H / L) * x) < H / L := by
      calc _ < Real.exp (Real.log (H / L)) := Real.exp_lt_exp.2 (by nlinarith)
        _ = H / L := Real.exp_log (by positivity)
    rw [lt_div_iff₀ hL] at this
    linarith
  · have he : (1 + p.index) ≠ 0 := by intro hc; apply hi; linarith
    generalize 1 + p.index = e at *
    have hLe : 0 < L ^ e := Real.rpow_pos_of_pos hL e
    have hHe : 0 < H ^ e := Real.rpow_pos_of_pos hH e
    rcases lt_or_gt_of_ne he with hneg | hpos
    · have hlt : H ^ e < L ^ e := Real.rpow_lt_rpow_of_neg hL hLH hneg
      have y1 : H ^ e < x * (H ^ e - L ^ e) + L ^ e := by nlinarith
      calc _ < (H ^ e) ^ e⁻¹ := Real.rpow_lt_rpow_of_neg hHe y1 (inv_lt_zero.2 hneg)
        _ = H := rpow_inv_exp hH he
    · have hlt : L ^ e < H ^ e := Real.rpow_lt_rpow hL.le hLH hpos
      have y1 : 0 ≤ x * (H ^ e - L ^ e) + L ^ e := by
        have : 0 ≤ x * (H ^ e - L ^ e) := mul_nonneg h0 (by linarith)
        linarith
      have y2 : x * (H ^ e - L ^ e) + L ^ e < H ^ e := by nlinarith
      calc _ < (H ^ e) ^ e⁻¹ := Real.rpow_lt_rpow y1 y2 (inv_pos.2 hpos)
        _ = H := rpow_inv_exp hH he

/-- The arguments of the cold dark matter preset that correspond to those of the binned one. -/
noncomputable def cdmOf (a : BinnedArgs) : CdmArgs :=
  { zLens := a.zLens, zSource := a.zSource, sigmaSub := a.sigmaSub, log10SigmaSub := a.log10SigmaSub, logMlow := 6,
    logMhigh := 10.7, shmfLogSlope := a.shmfLogSlope, cone := a.cone, logMHost := a.logMHost,
    losNormalization := a.losNormalization, hostScaling := a.hostScaling, redshiftScaling := a.redshiftScaling }

theorem binned_power_law (a : BinnedArgs) (bin : ℝ × ℝ) (scale kpc : ℝ) (lo hi : Option ℝ) :
    subPowerLaw (binnedSubKwargs a bin scale) a.zLens kpc a.cone lo hi = .ok ⟨lo.getD bin.1, hi.getD bin.2, a.shmfLogSlope,
      true, scale * Spec47.norm (Spec47.chosen none a.log10SigmaSub a.sigmaSub) a.shmfLogSlope (10 ^ a.logMHost) a.zLens
        kpc a.cone a.hostScaling a.redshiftScaling⟩ := by
  have ha : subAmplitude (binnedSubKwargs a bin scale) a.zLens kpc a.cone = .ok (a.shmfLogSlope,
      Spec47.norm (false, scale * (Spec47.chosen none a.log10SigmaSub a.sigmaSub).2) a.shmfLogSlope (10 ^ a.logMHost)
        a.zLens kpc a.cone a.hostScaling a.redshiftScaling) := by
    refine subAmplitude_ok _ _ _ _ _ _ _ _ _ ?_ rfl rfl rfl rfl rfl (fun _ => rfl)
    cases hl : a.log10SigmaSub <;> simp [Spec47.entries, Spec47.chosen, binnedSubKwargs, ofList_cons, ofList_nil, hl]
  have hn : Spec47.norm (false, scale * (Spec47.chosen none a.log10SigmaSub a.sigmaSub).2) a.shmfLogSlope (10 ^ a.logMHost)
        a.zLens kpc a.cone a.hostScaling a.redshiftScaling =
      scale * Spec47.norm (Spec47.chosen none a.log10SigmaSub a.sigmaSub) a.shmfLogSlope (10 ^ a.logMHost) a.zLens
        kpc a.cone a.hostScaling a.redshiftScaling := by
    have : (Spec47.chosen none a.log10SigmaSub a.sigmaSub).1 = false := by cases a.log10SigmaSub <;> rfl
    simp only [Spec47.norm, this]
    simp only [Bool.false_eq_true, if_false]
    ring
  have hp : binnedSubKwargs a bin scale "draw_poisson" = some (.bool true) := rfl
  have h1 : (binnedSubKwargs a bin scale).num "log_mlow" = .ok bin.1 := rfl
  have h2 : (binnedSubKwargs a bin scale).num "log_mhigh" = .ok bin.2 := rfl
  unfold subPowerLaw
  rw [ha, hn, hp, h1, h2]
  cases lo <;> cases hi <;> rfl

theorem cdm_power_law (a : CdmArgs) (kpc : ℝ) (lo hi : Option ℝ) :
    subPowerLaw (cdmSubKwargs a) a.zLens kpc a.cone lo hi = .ok ⟨lo.getD a.logMlow, hi.getD a.logMhigh, a.shmfLogSlope,
      a.drawPoisson, Spec47.norm (Spec47.chosen a.log10dNdA a.log10SigmaSub a.sigmaSub) a.shmfLogSlope (10 ^ a.logMHost)
        a.zLens kpc a.cone a.hostScaling a.redshiftScaling⟩ := by
  have ha : subAmplitude (cdmSubKwargs a) a.zLens kpc a.cone =
      .ok (a.shmfLogSlope, Spec47.norm (Spec47.chosen a.log10dNdA a.log10SigmaSub a.sigmaSub) a.shmfLogSlope
        (10 ^ a.logMHost) a.zLens kpc a.cone a.hostScaling a.redshiftScaling) := by
    refine subAmplitude_ok _ _ _ _ _ _ _ _ _ (cdm_amplitude a) ?_ ?_ ?_ ?_ ?_ (fun _ => ?_) <;>
      rw [cdmSub_get a _ (by simp) (by simp)] <;> rfl
  have hp : cdmSubKwargs a "draw_poisson" = some (.bool a.drawPoisson) := by
    rw [cdmSub_get a _ (by simp) (by simp)]; rfl
  have h1 : (cdmSubKwargs a).num "log_mlow" = .ok a.logMlow := by
    unfold Kwargs.num; rw [cdmSub_get a _ (by simp) (by simp)]; rfl
  have h2 : (cdmSubKwargs a).num "log_mhigh" = .ok a.logMhigh := by
    unfold Kwargs.num; rw [cdmSub_get a _ (by simp) (by simp)]; rfl
  unfold subPowerLaw
  rw [ha, hp, h1, h2]
  cases lo <;> cases hi <;> rfl

/-- An expected number or mass over a range is the sum over the two parts of the range. -/
theorem split_moments (lo mid hi index norm : ℝ) (b : Bool) (h1 : lo < mid) (h2 : mid < hi) :
    (PowerLaw.mk lo mid index b norm).nMean + (PowerLaw.mk mid hi index b norm).nMean =
      (PowerLaw.mk lo hi index b norm).nMean ∧
    (PowerLaw.mk lo mid index b norm).firstMoment + (PowerLaw.mk mid hi index b norm).firstMoment =
      (PowerLaw.mk lo hi index b norm).firstMoment := by
  have key : ∀ n, integratePowerLaw norm (10 ^ lo) (10 ^ mid) n index + integratePowerLaw norm (10 ^ mid) (10 ^ hi) n index =
      integratePowerLaw norm (10 ^ lo) (10 ^ hi) n index := by
    intro n
    unfold integratePowerLaw
    simp only
    have p1 := pow10_pos lo
    have p2 := pow10_pos mid
    have p3 := pow10_pos hi
    split_ifs with hf
    · rw [Real.log_div p2.ne' p1.ne', Real.log_div p3.ne' p2.ne', Real.log_div p3.ne' p1.ne']; ring
    · ring
  unfold PowerLaw.nMean PowerLaw.firstMoment
  simp only [ge_iff_le, not_le.mpr h1, not_le.mpr h2, not_le.mpr (h1.trans h2), if_false]
  exact ⟨key 0, key 1⟩

/-- The subhalos of the two bins together: in each bin the mass function is the one that the cold dark matter preset uses
between `10^6` and `10^10.7`, times the factor of the bin. With both factors one, the expected number of subhalos and their
expected mass are those of that preset. -/
theorem c89_subhalos (E : Env) (a : BinnedArgs) (d d' : Dicts) (r r' : Request) (h : (cdmBinned E a d).1 = .ok r)
    (h' : (cdm E (cdmOf a) d').1 = .ok r') (kpc : ℝ) :
    ∃ k1 k2 rest k rest' p1 p2 p, r.massKwargs = k1 :: k2 :: rest ∧ r'.massKwargs = k :: rest' ∧
      subPowerLaw k1 a.zLens kpc a.cone none none = .ok p1 ∧ subPowerLaw k2 a.zLens kpc a.cone none none = .ok p2 ∧
      subPowerLaw k a.zLens kpc a.cone none none = .ok p ∧
      (p1.logMlow = 6 ∧ p1.logMhigh = 8 ∧ p2.logMlow = 8 ∧ p2.logMhigh = 10.7) ∧
      (∀ m, p1.evaluate m = a.scaleLow * p.evaluate m ∧ p2.evaluate m = a.scaleHigh * p.evaluate m) ∧
      (a.scaleLow = 1 → a.scaleHigh = 1 → p1.nMean + p2.nMean = p.nMean ∧
        p1.firstMoment + p2.firstMoment = p.firstMoment) := by
  obtain ⟨-, -, inf, cs, cf, -, -, h⟩ := binned_ok h
  obtain ⟨-, h2, -⟩ := binnedAssemble_ok h
  obtain ⟨-, -, inf', cs', cf', cHost', -, -, h'⟩ := cdm_ok h'
  obtain ⟨ts, tf, sp, spKw, -, -, -, -, hk, -⟩ := cdmAssemble_ok h'
  refine ⟨_, _, _, _, _, _, _, _, h2, hk, binned_power_law a _ _ kpc none none, binned_power_law a _ _ kpc none none,
    cdm_power_law (cdmOf a) kpc none none, ⟨rfl, rfl, rfl, rfl⟩, ?_, ?_⟩
  · intro m
    constructor
    · simp only [PowerLaw.evaluate, cdmOf]; ring
    · simp only [PowerLaw.evaluate, cdmOf]; ring
  · intro s1 s2
    rw [s1, s2, one_mul]
    exact split_moments 6 8 10.7 _ _ _ (by norm_num) (by norm_num)

/-- Every subhalo of the low bin is given the concentration relation of the low bin, and every one of the high bin that of
the high bin: no drawn mass falls outside the bins of the concentration. -/
theorem c89_drawn (E : Env) (a : BinnedArgs) (d : Dicts) (r : Request) (h : (cdmBinned E a d).1 = .ok r)
    (h1 : a.concSub = "BINNED_HALO_MASS") (h2 : a.concField = "BINNED_HALO_MASS") (model : ℝ → ℝ → ℝ → ℝ → ℝ → ℝ)
    (kpc : ℝ) (k : ℕ) (u : ℕ → ℝ) (hu : ∀ i, 0 ≤ u i ∧ u i < 1) :
    ∃ k1 k2 rest p1 p2 bins, r.massKwargs = k1 :: k2 :: rest ∧
      subPowerLaw k1 a.zLens kpc a.cone none none = .ok p1 ∧ subPowerLaw k2 a.zLens kpc a.cone none none = .ok p2 ∧
      binnedOf model r.concSub.2 = .ok bins ∧
      (∀ l, p1.draw k u = .ok l → ∀ m ∈ l, ∀ z, Conc.binned bins m z = .ok (model (10 ^ a.log10McLow) a.zeta a.beta m z)) ∧
      (∀ l, p2.draw k u = .ok l → ∀ m ∈ l, ∀ z,
        Conc.binned bins m z = .ok (model (10 ^ a.log10McHigh) a.zeta a.beta m z)) := by
  obtain ⟨-, -, bins, hb, hconc⟩ := c89_concentration E a d r h h1 h2 model r.concSub (by simp)
  obtain ⟨-, -, inf, cs, cf, -, -, h⟩ := binned_ok h
  obtain ⟨-, hk, -⟩ := binnedAssemble_ok h
  have range : ∀ (p : PowerLaw), p.logMlow < p.logMhigh → ∀ l, p.draw k u = .ok l → ∀ m ∈ l,
      (10 : ℝ) ^ p.logMlow ≤ m ∧ m < (10 : ℝ) ^ p.logMhigh := by
    intro p hp l hl m hm
    obtain ⟨-, e⟩ := draw_length p k u l hl
    rw [e] at hm
    obtain ⟨i, -, rfl⟩ := List.mem_map.1 hm
    exact ⟨(invert_range p hp.le (u i) (hu i).1 (hu i).2.le).1, invert_lt p hp (u i) (hu i).1 (hu i).2⟩
  have mono : ∀ x y : ℝ, x ≤ y → (10 : ℝ) ^ x ≤ (10 : ℝ) ^ y := fun x y h =>
    Real.rpow_le_rpow_of_exponent_le (by norm_num) h
  refine ⟨_, _, _, _, _, bins, hk, binned_power_law a _ _ kpc none none, binned_power_law a _ _ kpc none none, hb, ?_, ?_⟩
  · intro l hl m hm z
    obtain ⟨r1, r2⟩ := range _ (by simp; norm_num) l hl m hm
    simp only [Option.getD_none] at r1 r2
    rw [hconc m z r1 (r2.trans_le (mono _ _ (by norm_num))), if_pos r2]
  · intro l hl m hm z
    obtain ⟨r1, r2⟩ := range _ (by simp; norm_num) l hl m hm
    simp only [Option.getD_none] at r1 r2
    rw [hconc m z ((mono _ _ (by norm_num)).trans r1) r2, if_neg (not_lt.mpr r1)]

/-! ### Convergence sheets -/

/-- The total convergence of a list of sheets. -/
noncomputable def totalKappa (s : Sheets) : ℝ := (s.1.map fun kw => (kw.lookup "kappa").getD 0).sum

/-- The subhalo class of a power law with a given amplitude. -/
noncomputable def plClass (index N : ℝ) (pois : ℕ → ℕ) (u : ℕ → ℕ → ℝ) (x y : ℝ) : MassFn :=
  ⟨fun k => (PowerLaw.mk x y index true N).draw (pois k) (u k), (PowerLaw.mk x y index true N).firstMoment⟩

theorem binned_class (a : BinnedArgs) (bin : ℝ × ℝ) (kpc : ℝ) (g : GeometryI) (lc : LensCosmoI) (pois : ℕ → ℕ)
    (u : ℕ → ℕ → ℝ) : subClass (binnedSubKwargs a bin 1) a.zLens kpc a.cone g lc pois u =
      .ok (subhalosRClass (plClass a.shmfLogSlope (Spec47.norm (Spec47.chosen none a.log10SigmaSub a.sigmaSub)
        a.shmfLogSlope (10 ^ a.logMHost) a.zLens kpc a.cone a.hostScaling a.redshiftScaling) pois u) g lc bin.1 bin.2) := by
  have q1 : (binnedSubKwargs a bin 1).num "log_mlow" = .ok bin.1 := rfl
  have q2 : (binnedSubKwargs a bin 1).num "log_mhigh" = .ok bin.2 := rfl
  unfold subClass
  rw [q1, q2]
  simp only [bind, Except.bind, pure, Except.pure, binned_power_law, one_mul, Option.getD_some]
  rfl

theorem cdm_class (a : BinnedArgs) (kpc : ℝ) (g : GeometryI) (lc : LensCosmoI) (pois : ℕ → ℕ)
    (u : ℕ → ℕ → ℝ) : subClass (cdmSubKwargs (cdmOf a)) a.zLens kpc a.cone g lc pois u =
      .ok (subhalosRClass (plClass a.shmfLogSlope (Spec47.norm (Spec47.chosen none a.log10SigmaSub a.sigmaSub)
        a.shmfLogSlope (10 ^ a.logMHost) a.zLens kpc a.cone a.hostScaling a.redshiftScaling) pois u) g lc 6 10.7) := by
  have q1 : (cdmSubKwargs (cdmOf a)).num "log_mlow" = .ok 6 := by
    unfold Kwargs.num; rw [cdmSub_get _ _ (by simp) (by simp)]; rfl
  have q2 : (cdmSubKwargs (cdmOf a)).num "log_mhigh" = .ok 10.7 := by
    unfold Kwargs.num; rw [cdmSub_get _ _ (by simp) (by simp)]; rfl
  have q3 := cdm_power_law (cdmOf a) kpc
  have z1 : (cdmOf a).zLens = a.zLens := rfl
  have z2 : (cdmOf a).cone = a.cone := rfl
  rw [z1, z2] at q3
  unfold subClass
  rw [q1, q2]
  simp only [bind, Except.bind, pure, Except.pure, q3, Option.getD_some]
  rfl

theorem chosen_pos (a : BinnedArgs) (kpc : ℝ)
    (p1 : 0 < (match a.log10SigmaSub with | some x => (10 : ℝ) ^ x | none => a.sigmaSub)) (p2 : 0 < kpc) (p3 : 0 < a.cone) :
    0 < Spec47.norm (Spec47.chosen none a.log10SigmaSub a.sigmaSub) a.shmfLogSlope (10 ^ a.logMHost) a.zLens kpc a.cone
      a.hostScaling a.redshiftScaling := by
  have hc : (Spec47.chosen none a.log10SigmaSub a.sigmaSub).1 = false := by cases a.log10SigmaSub <;> rfl
  have hc2 : 0 < (Spec47.chosen none a.log10SigmaSub a.sigmaSub).2 := by
    revert p1
    cases a.log10SigmaSub <;> exact id
  simp only [Spec47.norm, hc, Bool.false_eq_true, if_false]
  have := pow10_pos (a.hostScaling * Real.logb 10 (10 ^ a.logMHost / 10 ^ 13) +
    a.redshiftScaling * Real.logb 10 (a.zLens + 0.5))
  have hpv : (0 : ℝ) < (10 ^ 8 : ℝ) ^ (-(a.shmfLogSlope + 1)) := Real.rpow_pos_of_pos (by norm_num) _
  positivity

theorem kappa_class (index N : ℝ) (pois : ℕ → ℕ) (u : ℕ → ℕ → ℝ) (g : GeometryI) (lc : LensCosmoI) (lo hi x y : ℝ)
    (b : Bool) : totalKappa (subhaloSheets (plClass index N pois u) g lc lo hi 1 x y b) =
      -((PowerLaw.mk (if b then lo else x) (if b then hi else y) index true N).firstMoment /
        lc.sigmaCritMass lc.zLens (apertureArea g lc.zLens)) := by
  unfold subhaloSheets
  cases b
  · simp only [Bool.false_eq_true, if_false, plClass]
    split_ifs with h0
    · simp [totalKappa, h0]
    · simp [totalKappa, apertureArea]
  · simp only [if_true, plClass]
    split_ifs with h0
    · simp [totalKappa, h0]
    · simp [totalKappa, apertureArea]

theorem classSheets_two (f : ℝ → ℝ → MassFn) (g : GeometryI) (lc : LensCosmoI) (l1 h1 l2 h2 : ℝ) (b : Bool) :
    totalKappa (Realization.classSheets {} b [some (subhalosRClass f g lc l1 h1), some (subhalosRClass f g lc l2 h2)]) =
      totalKappa (subhaloSheets f g lc l1 h1 1 7 10 b) + totalKappa (subhaloSheets f g lc l2 h2 1 7 10 b) := by
  simp [Realization.classSheets, subhalosRClass, totalKappa]

theorem classSheets_one (f : ℝ → ℝ → MassFn) (g : GeometryI) (lc : LensCosmoI) (l1 h1 : ℝ) (b : Bool) :
    totalKappa (Realization.classSheets {} b [some (subhalosRClass f g lc l1 h1)]) =
      totalKappa (subhaloSheets f g lc l1 h1 1 7 10 b) := by
  simp [Realization.classSheets, subhalosRClass, totalKappa]

theorem moment_pos (lo hi index N : ℝ) (h : lo < hi) (hN : 0 < N) : 0 < (PowerLaw.mk lo hi index true N).firstMoment := by
  rw [(c52_moments (PowerLaw.mk lo hi index true N) h).2]
  have hlt : (10 : ℝ) ^ lo < (10 : ℝ) ^ hi := Real.rpow_lt_rpow_of_exponent_lt (by norm_num) h
  apply intervalIntegral.intervalIntegral_pos_of_pos_on
  · apply ContinuousOn.intervalIntegrable
    intro x hx
    rw [Set.uIcc_of_le hlt.le] at hx
    have hx0 : x ≠ 0 := (lt_of_lt_of_le (pow10_pos lo) hx.1).ne'
    unfold PowerLaw.evaluate
    exact (continuousAt_id.mul (continuousAt_const.mul (Real.continuousAt_rpow_const _ _ (Or.inl hx0)))).continuousWithinAt
  · intro x hx
    have hx0 : 0 < x := lt_trans (pow10_pos lo) hx.1
    unfold PowerLaw.evaluate
    have := Real.rpow_pos_of_pos hx0 index
    positivity
  · exact hlt

/-- The sheets that the subhalos of the binned preset contribute, compared with those of the cold dark matter preset for the
same halos. With the mass ranges of the classes both remove the same convergence. With the default arguments of
`lensing_quantities` each of the two populations removes the mass of the whole range from `10^7` to `10^10`, so that twice
the convergence of these halos is removed. -/
theorem c89_sheets_doubled (E : Env) (a : BinnedArgs) (d d' : Dicts) (r r' : Request) (h : (cdmBinned E a d).1 = .ok r)
    (h' : (cdm E (cdmOf a) d').1 = .ok r') (s1 : a.scaleLow = 1) (s2 : a.scaleHigh = 1) (kpc : ℝ) (g : GeometryI)
    (lc : LensCosmoI) (pois : ℕ → ℕ) (u : ℕ → ℕ → ℝ) :
    ∃ k1 k2 rest k rest' c1 c2 c, r.massKwargs = k1 :: k2 :: rest ∧ r'.massKwargs = k :: rest' ∧
      subClass k1 a.zLens kpc a.cone g lc pois u = .ok c1 ∧ subClass k2 a.zLens kpc a.cone g lc pois u = .ok c2 ∧
      subClass k a.zLens kpc a.cone g lc pois u = .ok c ∧
      totalKappa (Realization.classSheets {} true [some c1, some c2]) = totalKappa (Realization.classSheets {} true [some c]) ∧
      totalKappa (Realization.classSheets {} false [some c1, some c2]) =
        2 * totalKappa (Realization.classSheets {} false [some c]) ∧
      (0 < (match a.log10SigmaSub with | some x => (10 : ℝ) ^ x | none => a.sigmaSub) → 0 < kpc → 0 < a.cone →
        0 < lc.sigmaCritMass lc.zLens (apertureArea g lc.zLens) →
        totalKappa (Realization.classSheets {} false [some c]) < 0) := by
  obtain ⟨-, -, inf, cs, cf, -, -, h⟩ := binned_ok h
  obtain ⟨-, h2, -⟩ := binnedAssemble_ok h
  obtain ⟨-, -, inf', cs', cf', cHost', -, -, h'⟩ := cdm_ok h'
  obtain ⟨ts, tf, sp, spKw, -, -, -, -, hk, -⟩ := cdmAssemble_ok h'
  rw [s1, s2] at h2
  refine ⟨_, _, _, _, _, _, _, _, h2, hk, binned_class a (6, 8) kpc g lc pois u, binned_class a (8, 10.7) kpc g lc pois u,
    cdm_class a kpc g lc pois u, ?_, ?_, ?_⟩
  · rw [classSheets_two, classSheets_one, kappa_class, kappa_class, kappa_class]
    simp only [if_true]
    rw [← (split_moments 6 8 10.7 a.shmfLogSlope _ true (by norm_num) (by norm_num)).2]
    ring
  · rw [classSheets_two, classSheets_one, kappa_class, kappa_class, kappa_class]
    simp only [Bool.false_eq_true, if_false]
    ring
  · intro p1 p2 p3 p4
    rw [classSheets_one, kappa_class]
    have := div_pos (moment_pos 7 10 a.shmfLogSlope _ (by norm_num) (chosen_pos a kpc p1 p2 p3)) p4
    simp only [Bool.false_eq_true, if_false]
    linarith

theorem los_sheets_given (c c' : LosClass) (hp : c.planes = c'.planes) (hd : c.deltaZ = c'.deltaZ)
    (hm : ∀ z dz lo hi, (c.model z dz lo hi).firstMoment = (c'.model z dz lo hi).firstMoment) (g : GeometryI)
    (lc : LensCosmoI) (k lo hi : ℝ) (zmin zmax : Option ℝ) :
    c.sheets g lc k lo hi zmin zmax false = c'.sheets g lc k lo hi zmin zmax false := by
  unfold LosClass.sheets
  simp only [Bool.false_eq_true, if_false, hp, hd, hm]

theorem los_power_law (kw : Kwargs) (n : ℝ) (h1 : kw "delta_power_law_index" = some (.num 0))
    (h2 : kw "LOS_normalization" = some (.num n)) (h3 : kw "m_pivot" = some (.num (10 ^ 8)))
    (h4 : kw "draw_poisson" = some (.bool true)) (fit : ℝ → ℝ → ℝ × ℝ) (volume x y : ℝ) :
    losPowerLaw fit volume kw (some x) (some y) = .ok ⟨x, y, (losAmplitude (fit x y).1 (fit x y).2 0 n volume (10 ^ 8)).1,
      true, (losAmplitude (fit x y).1 (fit x y).2 0 n volume (10 ^ 8)).2⟩ := by
  unfold losPowerLaw
  simp only [Kwargs.num, h1, h2, h3, h4, bind, Except.bind, pure, Except.pure]

/-- The same for field halos: with the default arguments of `lensing_quantities` each of the two line-of-sight populations
contributes all the sheets of the cold dark matter preset. -/
theorem c89_los_sheets_doubled (E : Env) (a : BinnedArgs) (d d' : Dicts) (r r' : Request) (h : (cdmBinned E a d).1 = .ok r)
    (h' : (cdm E (cdmOf a) d').1 = .ok r') (s1 : a.scaleLow = 1) (s2 : a.scaleHigh = 1) (g : GeometryI) (lc : LensCosmoI)
    (planes deltaZ : List ℝ) (fit : ℝ → ℝ → ℝ → ℝ × ℝ) (volume : ℝ → ℝ → ℝ) (spatial : Spatial) (kpc : ℝ → ℝ) (pois : ℕ → ℕ)
    (u : ℕ → ℕ → ℝ) :
    ∃ k1 k2 k c1 c2 c, r.massKwargs[2]? = some k1 ∧ r.massKwargs[3]? = some k2 ∧ r'.massKwargs[1]? = some k ∧
      losClass k1 planes deltaZ fit volume spatial kpc pois u = .ok c1 ∧
      losClass k2 planes deltaZ fit volume spatial kpc pois u = .ok c2 ∧
      losClass k planes deltaZ fit volume spatial kpc pois u = .ok c ∧
      Realization.classSheets {} false [some (c1.toRClass g lc)] = Realization.classSheets {} false [some (c.toRClass g lc)] ∧
      Realization.classSheets {} false [some (c2.toRClass g lc)] = Realization.classSheets {} false [some (c.toRClass g lc)] ∧
      totalKappa (Realization.classSheets {} false [some (c1.toRClass g lc), some (c2.toRClass g lc)]) =
        2 * totalKappa (Realization.classSheets {} false [some (c.toRClass g lc)]) := by
  obtain ⟨-, -, inf, cs, cf, -, -, h⟩ := binned_ok h
  obtain ⟨-, h2, -⟩ := binnedAssemble_ok h
  obtain ⟨-, -, inf', cs', cf', cHost', -, -, h'⟩ := cdm_ok h'
  obtain ⟨ts, tf, sp, spKw, -, -, -, -, hk, -⟩ := cdmAssemble_ok h'
  rw [s1, s2] at h2
  have mom : ∀ z dz lo hi bin, ∃ p q, losPowerLaw (fit z) (volume z dz) (binnedLosKwargs a bin 1) (some lo) (some hi) = .ok p ∧
      losPowerLaw (fit z) (volume z dz) (cdmLosKwargs (cdmOf a)) (some lo) (some hi) = .ok q ∧ p = q := by
    intro z dz lo hi bin
    refine ⟨_, _, los_power_law _ (1 * a.losNormalization) rfl rfl rfl rfl _ _ _ _,
      los_power_law _ a.losNormalization rfl rfl rfl rfl _ _ _ _, ?_⟩
    rw [one_mul]
  have hs : ∀ (c c' : LosClass), c.planes = c'.planes → c.deltaZ = c'.deltaZ →
      (∀ z dz lo hi, (c.model z dz lo hi).firstMoment = (c'.model z dz lo hi).firstMoment) →
      Realization.classSheets {} false [some (c.toRClass g lc)] = Realization.classSheets {} false [some (c'.toRClass g lc)] := by
    intro c c' hp hd hm
    simp only [Realization.classSheets, LosClass.toRClass, List.foldl_cons, List.foldl_nil, los_sheets_given c c' hp hd hm]
  have e : ∀ bin, ∃ c1 c, losClass (binnedLosKwargs a bin 1) planes deltaZ fit volume spatial kpc pois u = .ok c1 ∧
      losClass (cdmLosKwargs (cdmOf a)) planes deltaZ fit volume spatial kpc pois u = .ok c ∧
      Realization.classSheets {} false [some (c1.toRClass g lc)] =
        Realization.classSheets {} false [some (c.toRClass g lc)] := by
    intro bin
    refine ⟨_, _, rfl, rfl, hs _ _ rfl rfl ?_⟩
    intro z dz lo hi
    obtain ⟨p, q, e1, e2, rfl⟩ := mom z dz lo hi bin
    dsimp only
    rw [e1, e2]
  obtain ⟨c1, c, g1, g2, g3⟩ := e (6, 8)
  obtain ⟨c2, c', g4, g5, g6⟩ := e (8, 10.7)
  rw [g2] at g5
  cases g5
  refine ⟨_, _, _, c1, c2, c, by rw [h2]; rfl, by rw [h2]; rfl, by rw [hk]; rfl, g1, g4, g2, g3, g6, ?_⟩
  have two : ∀ x y : RClass, totalKappa (Realization.classSheets {} false [some x, some y]) =
      totalKappa (Realization.classSheets {} false [some x]) + totalKappa (Realization.classSheets {} false [some y]) := by
    intro x y
    simp [Realization.classSheets, totalKappa]
  rw [two, g3, g6]
  ring

/-- The binned preset works with its default models, in each geometry and for all numbers given. -/
theorem c89_works (E : Env) (a : BinnedArgs) (hg : geometryOk a.geometryType) (hp : a.profile ∈ ["NFW", "TNFW"])
    (h1 : a.truncSub = .name "TRUNCATION_GALACTICUS") (h2 : a.truncField = .name "TRUNCATION_RN")
    (h3 : a.infall = .name "HYBRID_INFALL") (h4 : a.concSub = "BINNED_HALO_MASS") (h5 : a.concField = "BINNED_HALO_MASS") :
    ∃ r, (cdmBinned E a freshDicts).1 = .ok r := by
  have k1 : concentrationModel E "BINNED_HALO_MASS" (some (binnedConcKwargs a)) =
    .ok (.named "BinnedHaloMass", binnedConcKwargs a) := rfl
  have k2 : construct (.named "BinnedHaloMass") ((binnedConcKwargs a).set "scatter_dex" (.num a.scatterDex)) =
      .ok (.named "BinnedHaloMass", (binnedConcKwargs a).set "scatter_dex" (.num a.scatterDex)) := by
    unfold construct
    rw [if_neg, if_neg, if_neg]
    · simp
    · simp [signature, Kwargs.set, binnedConcKwargs, ofList_cons]
    · rintro ⟨-, k, hk, hr, ho⟩
      simp [signature] at hr ho
      simp [Kwargs.set, binnedConcKwargs, ofList_cons, ofList_nil, hr, ho] at hk
  have hc : ∃ cs cf, binnedConc E a = .ok (cs, cf) := by
    unfold binnedConc
    rw [h4, h5, k1]
    dsimp only [bind, Except.bind]
    rw [k2]
    exact ⟨_, _, rfl⟩
  obtain ⟨cs, cf, hc⟩ := hc
  unfold cdmBinned
  rw [if_neg (not_not.mpr hg)]
  dsimp only
  have hf : freshDicts.infall = Kwargs.empty := rfl
  have hf1 : freshDicts.truncSub = Kwargs.empty := rfl
  have hf2 : freshDicts.truncField = Kwargs.empty := rfl
  rw [h3, hf, hybrid_default]
  dsimp only
  rw [if_neg (not_not.mpr hp), hc]
  dsimp only
  unfold binnedAssemble
  rw [h1, h2, hf1, hf2, truncPart_default]
  exact ⟨_, rfl⟩

/-- So does the cold dark matter preset. -/
theorem cdm_works (E : Env) (a : CdmArgs) (hg : geometryOk a.geometryType) (hp : a.profile ∈ ["NFW", "TNFW", "PT_MASS"])
    (h1 : a.truncSub = .name "TRUNCATION_GALACTICUS") (h2 : a.truncField = .name "TRUNCATION_RN")
    (h3 : a.infall = .name "HYBRID_INFALL") (h4 : a.concSub = "LUDLOW2016") (h5 : a.concField = "LUDLOW2016")
    (h6 : a.spatial = "UNIFORM" ∨ a.spatial = "PROJECTED_NFW") :
    ∃ r, (cdm E a freshDicts).1 = .ok r := by
  have k1 : ∀ k : Kwargs, concentrationModel E "LUDLOW2016" (some k) = .ok (.named "ConcentrationLudlow", k) := fun _ => rfl
  have k2 : ∀ k : Kwargs, construct (.named "ConcentrationLudlow")
      ((k.set "cosmo" (.cosmo a.kwargsCosmo)).set "scatter_dex" (.num 0.2)) =
        .ok (.named "ConcentrationLudlow", (k.set "cosmo" (.cosmo a.kwargsCosmo)).set "scatter_dex" (.num 0.2)) := by
    intro k; simp [construct, signature, Kwargs.set]
  have hc : ∃ cs cf c, cdmConc E a (freshDicts.concSub.set "cosmo" (.cosmo a.kwargsCosmo))
      (freshDicts.concField.set "cosmo" (.cosmo a.kwargsCosmo)) = .ok (cs, cf, c) := by
    unfold cdmConc
    rw [h4, h5, k1, k1]
    dsimp only [bind, Except.bind]
    rw [k2, k2]
    exact ⟨_, _, _, rfl⟩
  obtain ⟨cs, cf, c, hc⟩ := hc
  unfold cdm
  rw [if_neg (not_not.mpr hg)]
  dsimp only
  have hf : freshDicts.infall = Kwargs.empty := rfl
  have hf1 : freshDicts.truncSub = Kwargs.empty := rfl
  have hf2 : freshDicts.truncField = Kwargs.empty := rfl
  rw [h3, hf, hybrid_default]
  dsimp only
  rw [if_neg (not_not.mpr hp), hc]
  dsimp only
  unfold cdmAssemble
  rw [h1, h2, hf1, hf2, truncPart_default]
  rcases h6 with h6 | h6 <;> rw [h6] <;> exact ⟨_, rfl⟩

/-- Both presets succeed with default models; so the comparison of their subhalos is about something. -/
example (E : Env) : ∃ r r', (cdmBinned E { zLens := 0.5, zSource := 1.5 } freshDicts).1 = .ok r ∧
    (cdm E (cdmOf { zLens := 0.5, zSource := 1.5 }) freshDicts).1 = .ok r' := by
  obtain ⟨r, h⟩ := c89_works E { zLens := 0.5, zSource := 1.5 } (by simp [geometryOk]) (by simp) rfl rfl rfl rfl rfl
  obtain ⟨r', h'⟩ := cdm_works E (cdmOf { zLens := 0.5, zSource := 1.5 }) (by simp [geometryOk, cdmOf]) (by simp [cdmOf])
    rfl rfl rfl rfl rfl (by simp [cdmOf])
  exact ⟨r, r', h, h'⟩

/-! ## `CDMCorrelatedStructure` (C46, C79) -/

theorem correlated_ok {E : Env} {a : CorrelatedArgs} {d : Dicts} {r : Request × ℝ} (h : (cdmCorrelated E a d).1 = .ok r) :
    r.2 = a.boost ∧ r.1.populations = ["TWO_HALO"] ∧ r.1.massFunctions = [.named "ShethTormen"] ∧
    r.1.spatials = [.named "LensConeUniform"] ∧ (∃ s, r.1.spatialKwargs = [s] ∧
      s "cone_opening_angle" = some (.num a.cone) ∧
      s "geometry" = some (.geometry a.zLens a.zSource a.cone a.geometryType a.kwargsCosmo)) ∧
    r.1.concSub = r.1.concField ∧ r.1.truncSub = r.1.truncField ∧
    ∃ kw, r.1.massKwargs = [kw] ∧ kw "log_mlow" = some (.num a.logMlow) ∧ kw "log_mhigh" = some (.num a.logMhigh) ∧
      kw "LOS_normalization" = some (.num a.losNormalization) ∧ kw "log_m_host" = some (.num a.logMHost) ∧
      kw "delta_power_law_index" = some (.num a.deltaPowerLawIndex) := by
  unfold cdmCorrelated at h
  split at h
  · cases h
  · dsimp only at h
    split at h
    · cases h
    · split at h
      · cases h
      · cases h
        exact ⟨rfl, rfl, rfl, rfl, ⟨_, rfl, rfl, rfl⟩, rfl, rfl, _, rfl, rfl, rfl, rfl, rfl, rfl⟩

/-- The preset for structure correlated with the host asks for that one population, with the requested limits, amplitude,
tilt and host, in the requested volume; the tilt is used here. -/
theorem c79_correlated (E : Env) (a : CorrelatedArgs) (d : Dicts) (r : Request) (b : ℝ)
    (h : (cdmCorrelated E a d).1 = .ok (r, b)) :
    b = a.boost ∧ r.populations = ["TWO_HALO"] ∧ r.massFunctions = [.named "ShethTormen"] ∧
    r.spatials = [.named "LensConeUniform"] ∧ (∃ s, r.spatialKwargs = [s] ∧
      s "cone_opening_angle" = some (.num a.cone) ∧
      s "geometry" = some (.geometry a.zLens a.zSource a.cone a.geometryType a.kwargsCosmo)) ∧
    r.concSub = r.concField ∧ r.truncSub = r.truncField ∧
    ∃ kw, r.massKwargs = [kw] ∧ kw "log_mlow" = some (.num a.logMlow) ∧ kw "log_mhigh" = some (.num a.logMhigh) ∧
      kw "LOS_normalization" = some (.num a.losNormalization) ∧ kw "log_m_host" = some (.num a.logMHost) ∧
      kw "delta_power_law_index" = some (.num a.deltaPowerLawIndex) := correlated_ok h

/-- The call writes the cosmology and the `LensCosmo` and nothing else, and its result depends on no earlier call: this
preset installs no infall model. -/
theorem c46_correlated (E : Env) (a : CorrelatedArgs) (d d' : Dicts)
    (h1 : SameBut ["cosmo"] d.concField d'.concField) (h2 : SameBut ["lens_cosmo"] d.truncField d'.truncField) :
    (cdmCorrelated E a d).1 = (cdmCorrelated E a d').1 ∧
    SameBut ["cosmo"] (cdmCorrelated E a d).2.concField d.concField ∧
    SameBut ["lens_cosmo"] (cdmCorrelated E a d).2.truncField d.truncField ∧
    (cdmCorrelated E a d).2.infall = d.infall := by
  have s1 := fun v => Kwargs.set_congr (a := d.concField) (b := d'.concField) v (fun k hk => h1 k (by simpa using hk))
  have s2 := fun v => Kwargs.set_congr (a := d.truncField) (b := d'.truncField) v (fun k hk => h2 k (by simpa using hk))
  have c1 : SameBut ["cosmo"] (d.concField.set "cosmo" (.cosmo a.kwargsCosmo)) d.concField := SameBut.set _ _ (by simp)
  have t1 : SameBut ["lens_cosmo"] (d.truncField.set "lens_cosmo" (.lensCosmo a.zLens a.zSource a.kwargsCosmo))
    d.truncField := SameBut.set _ _ (by simp)
  constructor
  · unfold cdmCorrelated
    dsimp only
    rw [s1, s2]
    split
    · rfl
    · split
      · rfl
      · split <;> rfl
  · unfold cdmCorrelated
    split
    · exact ⟨SameBut.refl _, SameBut.refl _, rfl⟩
    · dsimp only
      split
      · exact ⟨c1, SameBut.refl _, rfl⟩
      · split
        · exact ⟨c1, t1, rfl⟩
        · exact ⟨c1, t1, rfl⟩

/-- The default call of this preset succeeds. -/
example (E : Env) : ∃ r b, (cdmCorrelated E { zLens := 0.5, zSource := 1.5 } freshDicts).1 = .ok (r, b) := by
  have k1 : construct (.named "ConcentrationLudlow") (Kwargs.empty.set "cosmo" (.cosmo 0)) =
      .ok (.named "ConcentrationLudlow", Kwargs.empty.set "cosmo" (.cosmo 0)) := by
    simp [construct, signature, Kwargs.set]
  have hc : correlatedConc E { zLens := 0.5, zSource := 1.5 } (Kwargs.empty.set "cosmo" (.cosmo 0)) = .ok _ := k1
  have ht : correlatedTrunc { zLens := 0.5, zSource := 1.5 } (Kwargs.empty.set "lens_cosmo" (.lensCosmo 0.5 1.5 0)) = .ok _ :=
    construct_rn _
  unfold cdmCorrelated
  rw [if_neg (by simp [geometryOk])]
  have hf1 : freshDicts.concField = Kwargs.empty := rfl
  have hf2 : freshDicts.truncField = Kwargs.empty := rfl
  dsimp only
  rw [hf1, hf2, hc]
  dsimp only
  rw [ht]
  exact ⟨_, _, rfl⟩

end PyHalo.Props
