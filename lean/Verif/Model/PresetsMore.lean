import Verif.Model.Presets
import Verif.Model.Render

/-!
# The presets `WDMGeneral`, `CDMBinned` and `CDMCorrelatedStructure`

Models the rest of `PresetModels/wdm.py` and `PresetModels/cdm.py` up to the arguments handed to the renderer, the
subhalo mass function made of a keyword dictionary, and the concentration model made by `CDMBinned`.
-/

namespace PyHalo
namespace Preset
open scoped Classical

/-! ## `WDMGeneral` -/

/-- The arguments of `WDMGeneral`, `wdm.py` 298-309, except the three dictionaries. -/
structure GeneralArgs where
  zLens : ℝ
  zSource : ℝ
  logMc : ℝ
  slope : ℝ
  sigmaSub : ℝ := 0.025
  logMlow : ℝ := 6
  logMhigh : ℝ := 10
  log10SigmaSub : Option ℝ := none
  log10dNdA : Option ℝ := none
  truncSub : TruncSpec := .name "TRUNCATION_GALACTICUS"
  truncField : TruncSpec := .name "TRUNCATION_RN"
  infall : InfallArg := .name "HYBRID_INFALL"
  spatial : String := "PROJECTED_NFW"
  shmfLogSlope : ℝ := -1.9
  cone : ℝ := 6
  logMHost : ℝ := 13.3
  rTidal : ℝ := 0.25
  losNormalization : ℝ := 1
  geometryType : String := "DOUBLE_CONE"
  kwargsCosmo : ℕ := 0
  mdefSub : String := "TNFW"
  mdefField : String := "TNFW"
  density : Val := .emptyDict
  hostScaling : ℝ := 0.55
  redshiftScaling : ℝ := 0.37
  lazar : Bool := true
  cHost : Option ℝ := none
  globularClusters : Option ℕ := none
  promptCusps : Bool := false
  sisThreshold : Option ℝ := some (5 * 10 ^ 10)

/-- The concentration model of one population, lines 370-385 of `wdm.py`: `LUDLOW_WDM` with `cosmo`, `log_mc` and the slope. -/
noncomputable def generalConc (E : Env) (a : GeneralArgs) : Except Err (Cls × Kwargs) := do
  let (c, kw) ← concentrationModel E "LUDLOW_WDM" (some (Kwargs.ofList [("dlogT_dlogk", .num a.slope)]))
  construct c ((kw.set "cosmo" (.cosmo a.kwargsCosmo)).set "log_mc" (.num a.logMc))

/-- The concentration of the host, lines 386-388 of `wdm.py`. -/
noncomputable def generalHost (E : Env) (a : GeneralArgs) : Except Err ℝ := do
  let (c, _) ← concentrationModel E "DIEMERJOYCE19" none
  let obj ← construct c (Kwargs.ofList [("cosmo", .cosmo a.kwargsCosmo)])
  pure (match a.cHost with
    | some c => c
    | none => E.nfwConcentration obj ((10 : ℝ) ^ a.logMHost) a.zLens)

/-- `kwargs_mfunc_subs` after the update, lines 408-426 of `wdm.py`. The mass of the host is written only without
`log10_dNdA`, and there is no `draw_poisson`. -/
noncomputable def generalSubKwargs (a : GeneralArgs) (kw : Kwargs) : Kwargs :=
  let base := Kwargs.ofList [("log_mlow", .num a.logMlow), ("log_mhigh", .num a.logMhigh), ("m_pivot", .num (10 ^ 8)),
    ("power_law_index", .num a.shmfLogSlope), ("delta_power_law_index", .num 0), ("log_mc", .num a.logMc),
    ("host_scaling_factor", .num a.hostScaling), ("redshift_scaling_factor", .num a.redshiftScaling)]
  kw.update (match a.log10dNdA with
    | some x => base.set "dndA" (.num ((10 : ℝ) ^ x))
    | none =>
      let base := base.set "log_m_host" (.num a.logMHost)
      match a.log10SigmaSub with
      | some x => base.set "sigma_sub" (.num ((10 : ℝ) ^ x))
      | none => base.set "sigma_sub" (.num a.sigmaSub))

/-- `kwargs_mfunc_field` after the update, lines 427-433 of `wdm.py`. -/
noncomputable def generalLosKwargs (a : GeneralArgs) (kw : Kwargs) : Kwargs :=
  kw.update (Kwargs.ofList [("log_mlow", .num a.logMlow), ("log_mhigh", .num a.logMhigh),
    ("LOS_normalization", .num a.losNormalization), ("m_pivot", .num (10 ^ 8)), ("log_m_host", .num a.logMHost),
    ("delta_power_law_index", .num 0), ("log_mc", .num a.logMc)])

/-- Lines 389-477 of `wdm.py`, after the truncation dictionaries have been written. The populations are fixed.
`RealizationExtensions` has no method `add_prompt_cusps`. -/
noncomputable def generalAssemble (a : GeneralArgs) (inf : Infall) (ms mf cs cf : Cls × Kwargs) (cHost : ℝ)
    (dSub dField : Kwargs) : Except Err Request := do
  let lensCosmo := Val.lensCosmo a.zLens a.zSource a.kwargsCosmo
  let geometry := Val.geometry a.zLens a.zSource a.cone a.geometryType a.kwargsCosmo
  let (ts, tf) ← truncPart a.truncSub a.truncField dSub dField cHost
  let (sp, spKw) ← spatialPart a.spatial a.cone a.logMHost a.zLens cHost a.rTidal geometry lensCosmo
  let losSpatial := Kwargs.ofList [("cone_opening_angle", .num a.cone), ("geometry", geometry)]
  if a.promptCusps then .error (.attributeError "add_prompt_cusps")
  else pure {
    infall := inf
    populations := ["SUBHALOS", "LINE_OF_SIGHT", "TWO_HALO"]
    massFunctions := [ms.1, mf.1, mf.1]
    massKwargs := [generalSubKwargs a ms.2, generalLosKwargs a mf.2, generalLosKwargs a mf.2]
    spatials := [sp, .named "LensConeUniform", .named "LensConeUniform"]
    spatialKwargs := [spKw, losSpatial, losSpatial]
    mdefSub := a.mdefSub
    mdefField := a.mdefField
    truncSub := ts
    concSub := cs
    truncField := tf
    concField := cf
    density := a.density
    lazar := a.lazar
    planeSpacing := none
    post := (match a.globularClusters with | some n => [.globularClusters n] | none => []) ++
      (match a.sisThreshold with | some t => [.sis t "GNFW"] | none => []) }

/-- The mass functions and concentrations, lines 364-388 of `wdm.py`. -/
noncomputable def generalModels (E : Env) (a : GeneralArgs) :
    Except Err ((Cls × Kwargs) × (Cls × Kwargs) × (Cls × Kwargs) × (Cls × Kwargs) × ℝ) := do
  let ms ← massFunctionModel E "STUCKER_SHMF" (Kwargs.ofList [("dlogT_dlogk", .num a.slope)])
  let mf ← massFunctionModel E "STUCKER" (Kwargs.ofList [("dlogT_dlogk", .num a.slope)])
  let cs ← generalConc E a
  let cf ← generalConc E a
  let cHost ← generalHost E a
  pure (ms, mf, cs, cf, cHost)

/-- `WDMGeneral`, `wdm.py` 298-477. Of the dictionaries only those of the truncation and the infall model exist; the other
two are left as they are. -/
noncomputable def wdmGeneral (E : Env) (a : GeneralArgs) (d : Dicts) : Except Err Request × Dicts :=
  if ¬ geometryOk a.geometryType then (.error (.exception "geometry type not recognized."), d)
  else
    let r := setupInfall E a.zLens a.infall (writeHost a.infall a.logMHost d.infall)
    let d := { d with infall := r.2 }
    match r.1 with
    | .error e => (.error e, d)
    | .ok inf =>
      match generalModels E a with
      | .error e => (.error e, d)
      | .ok (ms, mf, cs, cf, cHost) =>
        let d := { d with truncSub := d.truncSub.set "lens_cosmo" (.lensCosmo a.zLens a.zSource a.kwargsCosmo)
                          truncField := d.truncField.set "lens_cosmo" (.lensCosmo a.zLens a.zSource a.kwargsCosmo) }
        (generalAssemble a inf ms mf cs cf cHost d.truncSub d.truncField, d)

/-! ## `CDMBinned` -/

/-- The arguments of `CDMBinned`, `cdm.py` 287-306, except the three dictionaries. `c_host=None` is not modelled. -/
structure BinnedArgs where
  zLens : ℝ
  zSource : ℝ
  sigmaSub : ℝ := 0.1
  log10SigmaSub : Option ℝ := none
  log10McLow : ℝ := 1.3
  log10McHigh : ℝ := 1.15
  scaleLow : ℝ := 1
  scaleHigh : ℝ := 1
  beta : ℝ := 0.7
  zeta : ℝ := -0.4
  scatterDex : ℝ := 0.2
  concSub : String := "BINNED_HALO_MASS"
  concField : String := "BINNED_HALO_MASS"
  truncSub : TruncSpec := .name "TRUNCATION_GALACTICUS"
  truncField : TruncSpec := .name "TRUNCATION_RN"
  infall : InfallArg := .name "HYBRID_INFALL"
  shmfLogSlope : ℝ := -1.9
  cone : ℝ := 6
  logMHost : ℝ := 13.3
  losNormalization : ℝ := 1
  geometryType : String := "DOUBLE_CONE"
  kwargsCosmo : ℕ := 0
  hostScaling : ℝ := 0.55
  redshiftScaling : ℝ := 0.37
  cHost : ℝ := 6
  globularClusters : Option ℕ := none
  profile : String := "TNFW"
  planeSpacing : Option ℝ := none

/-- `log10_mass_ranges`, `cdm.py` 371. -/
noncomputable def binnedRanges : List (ℝ × ℝ) := [(6, 8), (8, 10.7)]

/-- `kwargs_concentration_model`, `cdm.py` 361-372. -/
noncomputable def binnedConcKwargs (a : BinnedArgs) : Kwargs :=
  Kwargs.ofList [("cosmo", .cosmo a.kwargsCosmo),
    ("normalization_list", .nums [(10 : ℝ) ^ a.log10McLow, (10 : ℝ) ^ a.log10McHigh]),
    ("beta_list", .nums [a.beta, a.beta]), ("zeta_list", .nums [a.zeta, a.zeta]),
    ("redshift_evolution", .str "RHO_CRIT"), ("log10_mass_bins", .bins binnedRanges)]

/-- The concentration models, `cdm.py` 373-382. -/
noncomputable def binnedConc (E : Env) (a : BinnedArgs) : Except Err ((Cls × Kwargs) × (Cls × Kwargs)) := do
  let (c, kw) ← concentrationModel E a.concSub (some (binnedConcKwargs a))
  let objSub ← construct c (kw.set "scatter_dex" (.num a.scatterDex))
  let (c, kw) ← concentrationModel E a.concField (some (binnedConcKwargs a))
  let objField ← construct c (kw.set "scatter_dex" (.num a.scatterDex))
  pure (objSub, objField)

/-- `kwargs_subhalos_low` and `kwargs_subhalos_high`, `cdm.py` 405-416 and 424-433: the bin and the factor of the bin. -/
noncomputable def binnedSubKwargs (a : BinnedArgs) (bin : ℝ × ℝ) (scale : ℝ) : Kwargs :=
  let sigmaSub := match a.log10SigmaSub with
    | some x => (10 : ℝ) ^ x
    | none => a.sigmaSub
  Kwargs.ofList [("log_mlow", .num bin.1), ("log_mhigh", .num bin.2), ("sigma_sub", .num (scale * sigmaSub)),
    ("m_pivot", .num (10 ^ 8)), ("power_law_index", .num a.shmfLogSlope), ("log_m_host", .num a.logMHost),
    ("delta_power_law_index", .num 0), ("host_scaling_factor", .num a.hostScaling),
    ("redshift_scaling_factor", .num a.redshiftScaling), ("draw_poisson", .bool true)]

/-- `kwargs_los_low` and `kwargs_los_high`, `cdm.py` 417-423 and 434-440, also used (as copies) for the two-halo term. -/
noncomputable def binnedLosKwargs (a : BinnedArgs) (bin : ℝ × ℝ) (scale : ℝ) : Kwargs :=
  Kwargs.ofList [("log_mlow", .num bin.1), ("log_mhigh", .num bin.2), ("LOS_normalization", .num (scale * a.losNormalization)),
    ("m_pivot", .num (10 ^ 8)), ("delta_power_law_index", .num 0), ("log_m_host", .num a.logMHost),
    ("draw_poisson", .bool true)]

/-- Lines 384-480 of `cdm.py`, after the truncation dictionaries have been written. -/
noncomputable def binnedAssemble (a : BinnedArgs) (inf : Infall) (cs cf : Cls × Kwargs) (dSub dField : Kwargs) :
    Except Err Request := do
  let geometry := Val.geometry a.zLens a.zSource a.cone a.geometryType a.kwargsCosmo
  let (ts, tf) ← truncPart a.truncSub a.truncField dSub dField a.cHost
  let subSpatial := Kwargs.ofList [("rmax2d_arcsec", .num (a.cone / 2)), ("geometry", geometry)]
  let losSpatial := Kwargs.ofList [("cone_opening_angle", .num a.cone), ("geometry", geometry)]
  pure {
    infall := inf
    populations := ["SUBHALOS", "SUBHALOS", "LINE_OF_SIGHT", "LINE_OF_SIGHT"] ++ ["TWO_HALO", "TWO_HALO"]
    massFunctions := [.named "CDMPowerLaw", .named "CDMPowerLaw", .named "ShethTormen", .named "ShethTormen"] ++
      [.named "ShethTormen", .named "ShethTormen"]
    massKwargs := [binnedSubKwargs a (6, 8) a.scaleLow, binnedSubKwargs a (8, 10.7) a.scaleHigh,
        binnedLosKwargs a (6, 8) a.scaleLow, binnedLosKwargs a (8, 10.7) a.scaleHigh] ++
      [binnedLosKwargs a (6, 8) a.scaleLow, binnedLosKwargs a (8, 10.7) a.scaleHigh]
    spatials := [.named "Uniform", .named "Uniform", .named "LensConeUniform", .named "LensConeUniform"] ++
      [.named "LensConeUniform", .named "LensConeUniform"]
    spatialKwargs := [subSpatial, subSpatial, losSpatial, losSpatial] ++ [losSpatial, losSpatial]
    mdefSub := a.profile
    mdefField := a.profile
    truncSub := ts
    concSub := cs
    truncField := tf
    concField := cf
    density := .emptyDict
    lazar := true
    planeSpacing := a.planeSpacing
    post := match a.globularClusters with | some n => [.globularClusters n] | none => [] }

/-- `CDMBinned`, `cdm.py` 287-480. -/
noncomputable def cdmBinned (E : Env) (a : BinnedArgs) (d : Dicts) : Except Err Request × Dicts :=
  if ¬ geometryOk a.geometryType then (.error (.exception "geometry type not recognized."), d)
  else
    let r := setupInfall E a.zLens a.infall (writeHost a.infall a.logMHost d.infall)
    let d := { d with infall := r.2 }
    match r.1 with
    | .error e => (.error e, d)
    | .ok inf =>
      if a.profile ∉ ["NFW", "TNFW"] then (.error (.exception "halo mass profile must be either NFW or TNFW"), d)
      else
        match binnedConc E a with
        | .error e => (.error e, d)
        | .ok (cs, cf) =>
          let d := { d with truncSub := d.truncSub.set "lens_cosmo" (.lensCosmo a.zLens a.zSource a.kwargsCosmo)
                            truncField := d.truncField.set "lens_cosmo" (.lensCosmo a.zLens a.zSource a.kwargsCosmo) }
          (binnedAssemble a inf cs cf d.truncSub d.truncField, d)

/-- What `BinnedHaloMass.__init__`, `concentration.py` 566-579, makes of its arguments: the bins with their models.
`model c0 zeta beta` is `ConcentrationPeakHeight(cosmo, c0, zeta, beta, …)._evaluate_concentration`. -/
noncomputable def binnedOf (model : ℝ → ℝ → ℝ → ℝ → ℝ → ℝ) (kw : Kwargs) : Except Err (List (ℝ × ℝ × (ℝ → ℝ → ℝ))) :=
  match kw "log10_mass_bins", kw "normalization_list", kw "zeta_list", kw "beta_list" with
  | some (.bins bs), some (.nums cs), some (.nums zs), some (.nums betas) =>
    if cs.length < bs.length ∨ zs.length < bs.length ∨ betas.length < bs.length then .error .indexError
    else .ok ((bs.zip (cs.zip (zs.zip betas))).map fun p => (p.1.1, p.1.2, model p.2.1 p.2.2.1 p.2.2.2))
  | _, _, _, _ => .error (.typeError "list expected")

/-! ## `CDMCorrelatedStructure` -/

/-- The arguments of `CDMCorrelatedStructure`, `cdm.py` 205-212, except the two dictionaries. -/
structure CorrelatedArgs where
  zLens : ℝ
  zSource : ℝ
  logMlow : ℝ := 6
  logMhigh : ℝ := 10
  conc : String := "LUDLOW2016"
  trunc : TruncSpec := .name "TRUNCATION_RN"
  cone : ℝ := 6
  logMHost : ℝ := 13.3
  losNormalization : ℝ := 1
  deltaPowerLawIndex : ℝ := 0
  geometryType : String := "DOUBLE_CONE"
  kwargsCosmo : ℕ := 0
  boost : ℝ := 1
  sisThreshold : Option ℝ := some (5 * 10 ^ 10)

/-- The models of `CDMCorrelatedStructure`, `cdm.py` 245-256. -/
noncomputable def correlatedConc (E : Env) (a : CorrelatedArgs) (dConc : Kwargs) : Except Err (Cls × Kwargs) := do
  let (c, kw) ← concentrationModel E a.conc (some dConc)
  construct c kw

/-- The truncation model, `cdm.py` 252-256. -/
noncomputable def correlatedTrunc (a : CorrelatedArgs) (dTrunc : Kwargs) : Except Err (Cls × Kwargs) := do
  let (c, kw) ← truncationModel a.trunc
  construct c (kw.update dTrunc)

/-- `CDMCorrelatedStructure`, `cdm.py` 205-285: the request and `scale_2halo_boost_factor`, and the dictionaries (of the
five only those of field halos exist). The infall model is the one that `LensCosmo.__init__` installs. -/
noncomputable def cdmCorrelated (E : Env) (a : CorrelatedArgs) (d : Dicts) : Except Err (Request × ℝ) × Dicts :=
  if ¬ geometryOk a.geometryType then (.error (.exception "geometry type not recognized."), d)
  else
    let d := { d with concField := d.concField.set "cosmo" (.cosmo a.kwargsCosmo) }
    match correlatedConc E a d.concField with
    | .error e => (.error e, d)
    | .ok c =>
      let d := { d with truncField := d.truncField.set "lens_cosmo" (.lensCosmo a.zLens a.zSource a.kwargsCosmo) }
      match correlatedTrunc a d.truncField with
      | .error e => (.error e, d)
      | .ok t =>
        (.ok ({
          infall := .hybrid a.zLens 13.0
          populations := ["TWO_HALO"]
          massFunctions := [.named "ShethTormen"]
          massKwargs := [Kwargs.ofList [("log_mlow", .num a.logMlow), ("log_mhigh", .num a.logMhigh),
            ("LOS_normalization", .num a.losNormalization), ("m_pivot", .num (10 ^ 8)),
            ("delta_power_law_index", .num a.deltaPowerLawIndex), ("log_m_host", .num a.logMHost)]]
          spatials := [.named "LensConeUniform"]
          spatialKwargs := [Kwargs.ofList [("cone_opening_angle", .num a.cone),
            ("geometry", .geometry a.zLens a.zSource a.cone a.geometryType a.kwargsCosmo)]]
          mdefSub := "TNFW"
          mdefField := "TNFW"
          truncSub := t
          concSub := c
          truncField := t
          concField := c
          density := .emptyDict
          lazar := true
          planeSpacing := none
          post := match a.sisThreshold with | some t => [.sis t "GNFW"] | none => [] }, a.boost), d)

/-! ## The subhalo mass function of a dictionary -/

/-- `Subhalos._get_mass_function_model`, `subhalos.py` 63-98, for the class `CDMPowerLaw`: the limits `lo`, `hi` replace those
of the dictionary when they are given. Without `draw_poisson` the base class writes `True` (`rendering_class_base.py` 21-22).
Limits that depend on the redshift are not modelled here. -/
noncomputable def subPowerLaw (kw : Kwargs) (zLens kpc cone : ℝ) (lo hi : Option ℝ) : Except Err PowerLaw := do
  let lo ← match lo with
    | some x => pure x
    | none => kw.num "log_mlow"
  let hi ← match hi with
    | some x => pure x
    | none => kw.num "log_mhigh"
  let (index, norm) ← subAmplitude kw zLens kpc cone
  pure ⟨lo, hi, index, (match kw "draw_poisson" with | some (.bool b) => b | _ => true), norm⟩

/-- `ShethTormen.from_redshift`, `density_peaks.py` 39-61, with the coefficients of the straight-line fit `fit lo hi`, which
depend on the mass limits, as an input; `lo`, `hi` as above. -/
noncomputable def losPowerLaw (fit : ℝ → ℝ → ℝ × ℝ) (volume : ℝ) (kw : Kwargs) (lo hi : Option ℝ) : Except Err PowerLaw := do
  let lo ← match lo with
    | some x => pure x
    | none => kw.num "log_mlow"
  let hi ← match hi with
    | some x => pure x
    | none => kw.num "log_mhigh"
  let d ← kw.num "delta_power_law_index"
  let n ← kw.num "LOS_normalization"
  let p ← kw.num "m_pivot"
  let (index, norm) := losAmplitude (fit lo hi).1 (fit lo hi).2 d n volume p
  pure ⟨lo, hi, index, (match kw "draw_poisson" with | some (.bool b) => b | _ => true), norm⟩

/-- An instance of `Subhalos` made of a dictionary, as `single_realization.py` sees it; the random numbers of a draw are
`pois` and `u`. `subhalos.py` 28-123. -/
noncomputable def subClass (kw : Kwargs) (zLens kpc cone : ℝ) (g : GeometryI) (lc : LensCosmoI) (pois : ℕ → ℕ)
    (u : ℕ → ℕ → ℝ) : Except Err RClass := do
  let lo ← kw.num "log_mlow"
  let hi ← kw.num "log_mhigh"
  pure (subhalosRClass (fun x y => match subPowerLaw kw zLens kpc cone (some x) (some y) with
    | .ok p => ⟨fun k => p.draw (pois k) (u k), p.firstMoment⟩
    | .error e => ⟨fun _ => .error e, 0⟩) g lc lo hi)

/-- An instance of `LineOfSight` made of a dictionary (`line_of_sight.py` 39-57): `fit z lo hi` is the straight-line fit,
`volume z dz` the volume of a slice. -/
noncomputable def losClass (kw : Kwargs) (planes deltaZ : List ℝ) (fit : ℝ → ℝ → ℝ → ℝ × ℝ) (volume : ℝ → ℝ → ℝ)
    (spatial : Spatial) (kpc : ℝ → ℝ) (pois : ℕ → ℕ) (u : ℕ → ℕ → ℝ) : Except Err LosClass := do
  let lo ← kw.num "log_mlow"
  let hi ← kw.num "log_mhigh"
  pure { planes := planes
         deltaZ := deltaZ
         model := fun z dz x y => match losPowerLaw (fit z) (volume z dz) kw (some x) (some y) with
           | .ok p => ⟨fun k => p.draw (pois k) (u k), p.firstMoment⟩
           | .error e => ⟨fun _ => .error e, 0⟩
         logMlow := fun _ => lo
         logMhigh := fun _ => hi
         spatial := spatial
         kpc := kpc }

end Preset
end PyHalo
