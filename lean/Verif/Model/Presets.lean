import Verif.Model.Render
import Verif.Model.MassFunction

/-!
# Preset models

Models `pyHalo/preset_models.py`, `pyHalo/mass_function_models.py`, `pyHalo/concentration_models.py`,
`pyHalo/truncation_models.py` and the presets `PresetModels/cdm.py: CDM` and `PresetModels/wdm.py: WDM, WDM_mixed` up to
the arguments they hand to the renderer. What the renderer does with them is in `Model/Render.lean`.
-/

namespace PyHalo
namespace Preset
open scoped Classical

/-! ## Dictionaries -/

/-- A class: one of pyHalo's, by its name, or one supplied by the user.
The classes of `mass_function_models.py` 1-85, `concentration_models.py` 1-79, `truncation_models.py` 1-53. -/
inductive Cls where
  | named (s : String)
  | user (n : ℕ)
  deriving DecidableEq

/-- What the keyword dictionaries contain: numbers, booleans, strings, classes, the cosmology (which is made from
`kwargs_cosmo`, here a number), the `LensCosmo` and `Geometry` of the call, empty dictionaries, the instance of
`MinHaloMassULDM` and the dictionary of the profile made by `ULDM`, lists of numbers and of mass bins, and any other
object of the caller. The values in `cdm.py` 80-203 and `wdm.py` 85-215. -/
inductive Val where
  | num (x : ℝ)
  | bool (b : Bool)
  | str (s : String)
  | cls (c : Cls)
  | cosmo (kwargsCosmo : ℕ)
  | lensCosmo (zLens zSource : ℝ) (kwargsCosmo : ℕ)
  | geometry (zLens zSource cone : ℝ) (type : String) (kwargsCosmo : ℕ)
  | emptyDict
  | minMass (log10m : ℝ) (kwargsCosmo : ℕ) (logMlow : ℝ)
  | uldmProfile (log10m : ℝ) (scaleNfw : Bool) (plaw : ℝ)
  | nums (l : List ℝ)
  | bins (l : List (ℝ × ℝ))
  | other (n : ℕ)

/-- A keyword dictionary. The order of the keys plays no role. The dictionaries of `cdm.py` 80-203 and `wdm.py` 85-215. -/
abbrev Kwargs := String → Option Val

/-- `{}`. E.g. the defaults in `cdm.py` 13-24. -/
def Kwargs.empty : Kwargs := fun _ => none

/-- `kw[k] = v`. E.g. `cdm.py` 80-203. -/
def Kwargs.set (kw : Kwargs) (k : String) (v : Val) : Kwargs := fun s => if s = k then some v else kw s

/-- `del kw[k]` for a key that is present. E.g. `mass_function_models.py` 1-85. -/
def Kwargs.del (kw : Kwargs) (k : String) : Kwargs := fun s => if s = k then none else kw s

/-- `kw.update(new)`. E.g. `wdm.py` 85-215. -/
def Kwargs.update (kw new : Kwargs) : Kwargs := fun s => (new s).or (kw s)

/-- A dictionary display. E.g. `cdm.py` 80-203. -/
def Kwargs.ofList (l : List (String × Val)) : Kwargs := fun s => l.lookup s

/-- `kw[k]` where a number is expected. E.g. `subhalos.py` 63-98. -/
def Kwargs.num (kw : Kwargs) (k : String) : Except Err ℝ :=
  match kw k with
  | some (.num x) => .ok x
  | some _ => .error (.typeError "number expected")
  | none => .error (.keyError k)

/-! ## Looking up names -/

/-- What is not modelled: the solution of the three equations in `stucker.py: mscales_to_abc`, the concentration an
instance returns (`nfw_concentration(m, z)`, with its scatter), whether a class has a method `nfw_concentration`, and
whether a user's infall class accepts the arguments. `stucker.py` 40-52; `lens_cosmo.py` 75-125. -/
structure Env where
  mscalesToAbc : ℝ → ℝ → ℝ → ℝ × ℝ × ℝ
  nfwConcentration : Cls × Kwargs → ℝ → ℝ → ℝ
  hasConcentration : Val → Bool
  infallAccepts : ℕ → ℝ → Kwargs → Bool

/-- `preset_model_from_name`, `preset_models.py` 10-57: the name of the function. `custom` is the argument
`custom_function`, returned as it is. The name `DMFromEmulator` does not exist in `PresetModels/external.py`; the
`ImportError` is an `Err.exception` here. -/
def presetModel (name : String) : Except Err String :=
  if name = "CDM" then .ok "CDM"
  else if name = "WDM" then .ok "WDM"
  else if name = "SIDM_core_collapse" then .ok "SIDM_core_collapse"
  else if name = "SIDM_parametric" then .ok "SIDM_parametric"
  else if name = "SIDM_parametric_fixedbins" then .ok "SIDM_parametric_fixedbins"
  else if name = "ULDM" then .ok "ULDM"
  else if name = "DMEmulator" then .error (.exception "ImportError: cannot import name DMFromEmulator")
  else if name = "WDM_mixed" then .ok "WDM_mixed"
  else if name = "WDMGeneral" then .ok "WDMGeneral"
  else if name = "DMGalacticus" then .ok "DMFromGalacticus"
  else if name = "CDM_plus_BH" then .ok "CDM_plus_BH"
  else if name = "CUSTOM" then .ok "custom_function"
  else if name = "JointLOSWithEmulator" then .ok "JointLOSWithEmulator"
  else .error (.exception ("preset model " ++ name ++ " not recognized!"))

/-- The three assignments to `a_wdm`, `b_wdm`, `c_wdm`. `mass_function_models.py` 1-85. -/
def setABC (kw : Kwargs) (a b c : ℝ) : Kwargs := ((kw.set "a_wdm" (.num a)).set "b_wdm" (.num b)).set "c_wdm" (.num c)

/-- `stucker_suppression_params`, `stucker.py` 17-40, for a positive `beta` (a negative one gives NaN). -/
noncomputable def stuckerParams (E : Env) (s : ℝ) : ℝ × ℝ × ℝ :=
  let beta := betaFromSlope s 5
  let abc := E.mscalesToAbc (0.2651 * beta ^ (0.3656 : ℝ)) (1.638 * beta ^ (-0.0994 : ℝ)) (16.51 * beta ^ (-0.9466 : ℝ))
  (abc.1 ^ abc.2.1, abc.2.1, abc.2.2)

/-- `preset_mass_function_models`, `mass_function_models.py` 6-83. The dictionary is a deep copy of the argument. -/
noncomputable def massFunctionModel (E : Env) (name : String) (kw : Kwargs) : Except Err (Cls × Kwargs) :=
  if name = "SHMF_LOVELL2020" then .ok (.named "WDMPowerLaw", setABC kw 36.15 2.5 (-0.2))
  else if name = "LOVELL2020" then .ok (.named "ShethTormenTurnover", setABC kw 1.95 0.8 (-1.0))
  else if name = "SHMF_LOVELL2014" then .ok (.named "WDMPowerLaw", setABC kw 1.0 1.0 (-1.3))
  else if name = "LOVELL2014" then .ok (.named "ShethTormenTurnover", setABC kw 1.0 1.0 (-1.3))
  else if name = "SCHIVE2016" then .ok (.named "ShethTormenTurnover", setABC kw 1.0 1.1 (-2.2))
  else if name = "SHMF_SCHIVE2016" then .ok (.named "WDMPowerLaw", setABC kw 1.0 1.1 (-2.2))
  else if name = "POWER_LAW" then .ok (.named "CDMPowerLaw", kw)
  else if name = "POWER_LAW_TURNOVER_SHMF" then .ok (.named "WDMPowerLaw", kw)
  else if name = "POWER_LAW_TURNOVER" then .ok (.named "ShethTormenTurnover", kw)
  else if name = "SHMF_MIXED_WDM_TURNOVER" then .ok (.named "MixedWDMPowerLaw", kw)
  else if name = "MIXED_WDM_TURNOVER" then .ok (.named "ShethTormenMixedWDM", kw)
  else if name = "STUCKER_SHMF" ∨ name = "STUCKER" then
    if kw "dlogT_dlogk" = none then .error (.exception "Must specify |dlogT_dlogk|")
    else if kw "a_wdm" ≠ none then .error (.exception "Cannot specify a_wdm with the Stucker model.")
    else if kw "b_wdm" ≠ none then .error (.exception "Cannot specify b_wdm with the Stucker model.")
    else if kw "c_wdm" ≠ none then .error (.exception "Cannot specify c_wdm with the Stucker model.")
    else
      match kw.num "dlogT_dlogk" with
      | .error e => .error e
      | .ok s =>
        let abc := stuckerParams E s
        let out := (setABC kw abc.1 abc.2.1 abc.2.2).del "dlogT_dlogk"
        if name = "STUCKER" then .ok (.named "ShethTormenTurnover", out) else .ok (.named "WDMPowerLaw", out)
  else .error (.exception ("model name " ++ name ++ " not recognized"))

/-- The entries written for `BOSE2016`, `BOSE2016_LUDLOW` and `LAROCHE2022`, `concentration_models.py` 32-57. -/
def setBose (kw : Kwargs) (cdm : String) (scale power inner : ℝ) : Kwargs :=
  ((((kw.set "concentration_cdm_class" (.cls (.named cdm))).set "kwargs_cdm" .emptyDict).set "c_scale" (.num scale)).set
    "c_power" (.num power)).set "c_power_inner" (.num inner)

/-- `preset_concentration_models`, `concentration_models.py` 8-82. `none` is `kwargs_model=None`. The powers and logarithms
of `FROM_FORMATION_HISTORY` are real functions, which is right for `dlogT_dlogk > 0`. -/
noncomputable def concentrationModel (E : Env) (name : String) (kw? : Option Kwargs) : Except Err (Cls × Kwargs) :=
  let kw := kw?.getD Kwargs.empty
  if name = "DIEMERJOYCE19" then .ok (.named "ConcentrationDiemerJoyce", kw)
  else if name = "LUDLOW2016" then .ok (.named "ConcentrationLudlow", kw)
  else if name = "PEAK_HEIGHT_POWERLAW" then .ok (.named "ConcentrationPeakHeight", kw)
  else if name = "BINNED_HALO_MASS" then .ok (.named "BinnedHaloMass", kw)
  else if name = "WDM_HYPERBOLIC" then .ok (.named "ConcentrationWDMHyperbolic", kw)
  else if name = "WDM_POLYNOMIAL" then .ok (.named "ConcentrationWDMPolynomial", kw)
  else if name = "BOSE2016" then
    .ok (.named "ConcentrationWDMPolynomial",
      (setBose kw "ConcentrationDiemerJoyce" 60.0 (-0.17) 1.0).set "mc_suppression_redshift_evolution" (.bool false))
  else if name = "BOSE2016_LUDLOW" then
    .ok (.named "ConcentrationWDMPolynomial",
      (setBose kw "ConcentrationLudlow" 60.0 (-0.17) 1.0).set "mc_suppression_redshift_evolution" (.bool false))
  else if name = "LAROCHE2022" then
    .ok (.named "ConcentrationWDMPolynomial", setBose kw "ConcentrationDiemerJoyce" 21.42 (-0.42) 1.62)
  else if name = "LUDLOW_WDM" then .ok (.named "ConcentrationLudlowWDM", kw)
  else if name = "FROM_FORMATION_HISTORY" then
    if kw? = none then .error (.typeError "'NoneType' object is not subscriptable")
    else
      match kw.num "dlogT_dlogk" with
      | .error e => .error e
      | .ok s =>
        let a := 0.75 * (0.7 / s) ^ (0.4 : ℝ)
        let b := 0.94 * |Real.log (1.76 + 0.6) / Real.log (s + 0.6)| ^ (0.7 : ℝ)
        .ok (.named "ConcentrationWDMHyperbolic", ((kw.set "a" (.num a)).set "b" (.num b)).del "dlogT_dlogk")
  else if name = "CUSTOM" then
    match kw "custom_class" with
    | none => .error (.keyError "custom_class")
    | some v =>
      if E.hasConcentration v then
        match v with
        | .cls c => .ok (c, kw.del "custom_class")
        | _ => .error (.typeError "object is not callable")
      else .error (.exception "a custom concentration-mass relation class must have a method nfw_concentration")
  else if name = "CONSTANT" then .ok (.named "ConcentrationConstant", kw)
  else .error (.exception ("model name " ++ name ++ " not recognized"))

/-- The argument of `truncation_models`: a string, or a class. `truncation_models.py` 8-53. -/
inductive TruncSpec where
  | name (s : String)
  | cls (n : ℕ)

/-- `truncation_models`, `truncation_models.py` 8-53. -/
noncomputable def truncationModel : TruncSpec → Except Err (Cls × Kwargs)
  | .cls n => .ok (.user n, Kwargs.empty)
  | .name s =>
    if s = "TRUNCATION_R50" then .ok (.named "TruncationRN", Kwargs.empty.set "LOS_truncation_factor" (.num 50))
    else if s = "TRUNCATION_R200" then .ok (.named "TruncationRN", Kwargs.empty.set "LOS_truncation_factor" (.num 200))
    else if s = "TRUNCATION_RN" then .ok (.named "TruncationRN", Kwargs.empty)
    else if s = "TRUNCATION_ROCHE" then .ok (.named "TruncationRoche", Kwargs.empty)
    else if s = "TRUNCATION_ROCHE_GILMAN2020" then
      .ok (.named "TruncationRoche",
        ((Kwargs.empty.set "RocheNorm" (.num 1.4)).set "m_power" (.num (1 / 3))).set "RocheNu" (.num (2 / 3)))
    else if s = "SPLASHBACK" then .ok (.named "TruncationSplashBack", Kwargs.empty)
    else if s = "TRUNCATION_MEAN_DENSITY" then .ok (.named "TruncateMeanDensity", Kwargs.empty)
    else if s = "TRUNCATION_GALACTICUS" then .ok (.named "TruncationGalacticus", Kwargs.empty)
    else if s = "TRUNCATION_GALACTICUS_ZINFALL" then .ok (.named "TruncationGalacticusZinfall", Kwargs.empty)
    else if s = "TRUNCATION_GALACTICUS_KEELEY24" then .ok (.named "TruncationGalacticusKeeley24", Kwargs.empty)
    else if s = "CONSTANT" then .ok (.named "ConstantTruncationArcsec", Kwargs.empty)
    else if s = "MULTIPLE_RS" then .ok (.named "Multiple_RS", Kwargs.empty)
    else if s = "BOUND_MASS_PDF" then .ok (.named "TruncationBoundMassPDF", Kwargs.empty)
    else if s = "TRUNCATION_GALACTICUS_CDM_APPROX" then .ok (.named "TruncationGalacticusApproxCDM", Kwargs.empty)
    else .error (.exception ("model " ++ s ++ " not recognized"))

/-! ## Calling the constructors -/

/-- The parameters of a constructor: those without default, those with one, and whether it takes `**kwargs`.
The constructors called in `cdm.py` 80-203. -/
structure Sig where
  required : List String
  optional : List String
  extra : Bool

/-- The constructors of `Halos/concentration.py` (16, 202, 259, 305, 351, 402, 463, 546) and `Halos/tidal_truncation.py`
(14, 48, 81, 121, 176, 188, 198, 270, 378, 489, 584). A class of the user accepts everything. -/
def signature : Cls → Sig
  | .user _ => ⟨[], [], true⟩
  | .named s =>
    if s = "ConcentrationConstant" then ⟨["cosmo", "c"], [], false⟩
    else if s = "ConcentrationDiemerJoyce" ∨ s = "ConcentrationLudlow" then
      ⟨["cosmo"], ["scatter", "scatter_dex", "mdef", "use_interpolation_table"], true⟩
    else if s = "ConcentrationPeakHeight" then
      ⟨["cosmo", "c0", "zeta", "beta"], ["scatter", "scatter_dex", "redshift_evolution", "m_pivot"], false⟩
    else if s = "ConcentrationWDMPolynomial" then
      ⟨["cosmo", "concentration_cdm_class", "log_mc"], ["c_scale", "c_power", "c_power_inner",
        "mc_suppression_redshift_evolution", "scatter", "scatter_dex", "kwargs_cdm"], false⟩
    else if s = "ConcentrationWDMHyperbolic" then
      ⟨["cosmo", "concentration_cdm_class", "log_mc", "a", "b"], ["scatter", "scatter_dex", "kwargs_cdm"], false⟩
    else if s = "ConcentrationLudlowWDM" then
      ⟨["cosmo", "log_mc", "dlogT_dlogk"], ["scatter", "scatter_dex", "mdef"], false⟩
    else if s = "BinnedHaloMass" then
      ⟨["cosmo", "log10_mass_bins", "normalization_list", "beta_list", "zeta_list"],
        ["redshift_evolution", "scatter", "scatter_dex"], false⟩
    else if s = "TruncationRN" then ⟨["lens_cosmo"], ["LOS_truncation_factor"], false⟩
    else if s = "TruncationRoche" then ⟨[], ["lens_cosmo", "RocheNorm", "m_power", "RocheNu"], false⟩
    else if s = "TruncateMeanDensity" then
      ⟨["lens_cosmo"], ["median_rt_over_rs", "c_power", "intrinsic_scatter"], false⟩
    else if s = "Multiple_RS" then ⟨["lens_cosmo", "tau"], [], false⟩
    else if s = "ConstantTruncationArcsec" then ⟨["lens_cosmo", "rt_arcsec"], [], false⟩
    else if s = "TruncationGalacticus" ∨ s = "TruncationGalacticusZinfall" ∨ s = "TruncationGalacticusKeeley24" then
      ⟨["lens_cosmo", "c_host"], [], false⟩
    else if s = "TruncationBoundMassPDF" then
      ⟨["lens_cosmo"], ["log10_fbound_mean", "log10_fbound_standard_dev"], false⟩
    else ⟨["lens_cosmo"], [], false⟩

/-- `cls(**kw)`: binding of the arguments, and the check of `ConcentrationLudlowWDM` (`concentration.py` 473-474). What
else the constructors do with the arguments is not modelled. The instance is the class with its arguments. -/
noncomputable def construct (c : Cls) (kw : Kwargs) : Except Err (Cls × Kwargs) :=
  let s := signature c
  if ¬ s.extra = true ∧ ∃ k, kw k ≠ none ∧ k ∉ s.required ∧ k ∉ s.optional then
    .error (.typeError "unexpected keyword argument")
  else if ∃ k ∈ s.required, kw k = none then .error (.typeError "missing required argument")
  else if c = .named "ConcentrationLudlowWDM" ∧ ∃ x, kw "dlogT_dlogk" = some (.num x) ∧ x > 0 then
    .error (.exception "positive logarithmic derivatives are unphysical")
  else .ok (c, kw)

/-! ## The infall model -/

/-- The installed infall model. `lens_cosmo.py` 75-125. -/
inductive Infall where
  | hybrid (zLens logMHost : ℝ)
  | direct (zLens logMHost : ℝ)
  | galacticus (zLens : ℝ)
  | cluster (zLens logMHost : ℝ)
  | atZlens (zLens : ℝ)
  | zero
  | custom (n : ℕ) (zLens : ℝ) (kw : Kwargs)

/-- The argument `infall_redshift_model`. `lens_cosmo.py` 75-125. -/
inductive InfallArg where
  | name (s : String)
  | cls (n : ℕ)
  deriving DecidableEq

/-- Lines 92-94 (and 106-108) of `lens_cosmo.py`: `m_host` becomes `log_m_host`. -/
noncomputable def convertHost (kw : Kwargs) : Except Err Kwargs :=
  match kw "m_host" with
  | none => .ok kw
  | some (.num m) => .ok ((kw.set "log_m_host" (.num (Real.logb 10 m))).del "m_host")
  | some _ => .error (.typeError "number expected")

/-- Lines 95-98: the default. File: `lens_cosmo.py`. -/
noncomputable def defaultHost (kw : Kwargs) : Kwargs :=
  if kw "log_m_host" = none then kw.set "log_m_host" (.num 13.0) else kw

/-- `setup_infall_model`, `lens_cosmo.py` 75-125: the model, and the dictionary as it is afterwards (also after an
exception). The range check of the cluster model is `accretion.py` 173-182. -/
noncomputable def setupInfall (E : Env) (zLens : ℝ) (arg : InfallArg) (kw : Kwargs) : Except Err Infall × Kwargs :=
  match arg with
  | .cls n =>
    if E.infallAccepts n zLens kw then (.ok (.custom n zLens kw), kw)
    else (.error (.exception "infall_time_model must be either a class, or a string"), kw)
  | .name s =>
    if s = "DIRECT_INFALL" ∨ s = "HYBRID_INFALL" then
      match convertHost kw with
      | .error e => (.error e, kw)
      | .ok kw1 =>
        let kw2 := defaultHost kw1
        match kw2.num "log_m_host" with
        | .error e => (.error e, kw2)
        | .ok l => (.ok (if s = "HYBRID_INFALL" then .hybrid zLens l else .direct zLens l), kw2)
    else if s = "GALACTICUS_2024" then (.ok (.galacticus zLens), kw)
    else if s = "DIRECT_INFALL_CLUSTER" then
      match convertHost kw with
      | .error e => (.error e, kw)
      | .ok kw1 =>
        match kw1.num "log_m_host" with
        | .error e => (.error e, kw1)
        | .ok l =>
          if l > 15.0 ∨ l < 14.0 then
            (.error (.valueError "infall redshift distribution for cluster-mass halos only valid"), kw1)
          else (.ok (.cluster zLens l), kw1)
    else if s = "INFALL_ZLENS" then (.ok (.atZlens zLens), kw)
    else if s = "INFALL_0" then (.ok .zero, kw)
    else (.error (.exception (s ++ " not a valid infall redshift model.")), kw)

/-! ## The presets -/

/-- The five dictionaries a call of `CDM` or `WDM` writes to: the defaults of the function, or the ones given by the
caller. They are five different objects here. The defaults in `cdm.py` 13-24 and `wdm.py` 10-26. -/
structure Dicts where
  concSub : Kwargs
  concField : Kwargs
  truncSub : Kwargs
  truncField : Kwargs
  infall : Kwargs

/-- The extensions applied to the realization at the end. `cdm.py` 197-203, `wdm.py` 208-220. -/
inductive Post where
  | sis (threshold : ℝ) (galaxyModel : String)
  | globularClusters (kwargs : ℕ)

/-- What the preset hands to `pyHalo.render`, the infall model it installed, and the extensions.
`cdm.py` 187-203, `wdm.py` 198-220. -/
structure Request where
  infall : Infall
  populations : List String
  massFunctions : List Cls
  massKwargs : List Kwargs
  spatials : List Cls
  spatialKwargs : List Kwargs
  mdefSub : String
  mdefField : String
  truncSub : Cls × Kwargs
  concSub : Cls × Kwargs
  truncField : Cls × Kwargs
  concField : Cls × Kwargs
  density : Val
  lazar : Bool
  planeSpacing : Option ℝ
  post : List Post

/-- The arguments of `CDM`, `cdm.py` 13-25, except the five dictionaries. -/
structure CdmArgs where
  zLens : ℝ
  zSource : ℝ
  sigmaSub : ℝ := 0.025
  logMlow : ℝ := 6
  logMhigh : ℝ := 10
  log10SigmaSub : Option ℝ := none
  log10dNdA : Option ℝ := none
  concSub : String := "LUDLOW2016"
  concField : String := "LUDLOW2016"
  truncSub : TruncSpec := .name "TRUNCATION_GALACTICUS"
  truncField : TruncSpec := .name "TRUNCATION_RN"
  infall : InfallArg := .name "HYBRID_INFALL"
  spatial : String := "UNIFORM"
  shmfLogSlope : ℝ := -1.9
  cone : ℝ := 6
  logMHost : ℝ := 13.3
  rTidal : ℝ := 0.25
  losNormalization : ℝ := 1
  twoHalo : Bool := true
  deltaPowerLawIndex : ℝ := 0
  geometryType : String := "DOUBLE_CONE"
  kwargsCosmo : ℕ := 0
  hostScaling : ℝ := 0.55
  redshiftScaling : ℝ := 0.37
  lazar : Bool := true
  drawPoisson : Bool := true
  cHost : Option ℝ := some 6
  globularClusters : Option ℕ := none
  sisThreshold : Option ℝ := none
  galaxyModel : String := "GNFW"
  profile : String := "TNFW"
  planeSpacing : Option ℝ := none

/-- `Geometry.__init__`, `geometry.py` 26-38: the recognised names. -/
def geometryOk (s : String) : Prop := s = "DOUBLE_CONE" ∨ s = "CYLINDER" ∨ s = "CONE"

/-- Lines 85-86 of `cdm.py` and 92-93 of `wdm.py`. -/
def writeHost (arg : InfallArg) (logMHost : ℝ) (kw : Kwargs) : Kwargs :=
  if arg = .name "HYBRID_INFALL" ∨ arg = .name "DIRECT_INFALL_CLUSTER" then kw.set "log_m_host" (.num logMHost) else kw

/-- Lines 121-132 of `cdm.py` (129-144 of `wdm.py`): the truncation models. The names that get `c_host` are tested
against the argument. -/
noncomputable def truncPart (sub field : TruncSpec) (dSub dField : Kwargs) (cHost : ℝ) :
    Except Err ((Cls × Kwargs) × (Cls × Kwargs)) := do
  let (c, kw) ← truncationModel sub
  let kw := kw.update dSub
  let kw := match sub with
    | .name s => if s ∈ ["TRUNCATION_GALACTICUS_KEELEY24", "TRUNCATION_GALACTICUS", "TRUNCATION_GALACTICUS_ZINFALL"]
        then kw.set "c_host" (.num cHost) else kw
    | .cls _ => kw
  let objSub ← construct c kw
  let (c, kw) ← truncationModel field
  let objField ← construct c (kw.update dField)
  pure (objSub, objField)

/-- The amplitude of the subhalo mass function, lines 146-152 of `cdm.py` (163-169 of `wdm.py`). -/
noncomputable def amplitude (log10dNdA log10SigmaSub : Option ℝ) (sigmaSub : ℝ) (kw : Kwargs) : Kwargs :=
  match log10dNdA with
  | some x => kw.set "dndA" (.num ((10 : ℝ) ^ x))
  | none =>
    match log10SigmaSub with
    | some x => kw.set "sigma_sub" (.num ((10 : ℝ) ^ x))
    | none => kw.set "sigma_sub" (.num sigmaSub)

/-- The spatial distribution of subhalos, lines 162-174 of `cdm.py` (185-196 of `wdm.py`). -/
noncomputable def spatialPart (name : String) (cone logMHost zLens cHost rTidal : ℝ) (geometry lensCosmo : Val) :
    Except Err (Cls × Kwargs) :=
  if name = "UNIFORM" then
    .ok (.named "Uniform", Kwargs.ofList [("rmax2d_arcsec", .num (cone / 2)), ("geometry", geometry)])
  else if name = "PROJECTED_NFW" then
    .ok (.named "ProjectedNFW", Kwargs.ofList [("m_host", .num ((10 : ℝ) ^ logMHost)), ("zlens", .num zLens),
      ("c_host", .num cHost), ("rmax2d_arcsec", .num (cone / 2)), ("r_core_units_rs", .num rTidal),
      ("lens_cosmo", lensCosmo)])
  else .error (.exception "subhalo spatial distribution must be either UNIFORM OR PROJECTED_NFW")

/-- The concentration models of `CDM`, lines 102-116 of `cdm.py`, and the concentration of the host. -/
noncomputable def cdmConc (E : Env) (a : CdmArgs) (dSub dField : Kwargs) :
    Except Err ((Cls × Kwargs) × (Cls × Kwargs) × ℝ) := do
  let (c, kw) ← concentrationModel E a.concSub (some dSub)
  let objSub ← construct c (kw.set "scatter_dex" (.num 0.2))
  let (c, kw) ← concentrationModel E a.concField (some dField)
  let objField ← construct c (kw.set "scatter_dex" (.num 0.2))
  let cHost := match a.cHost with
    | some c => c
    | none => E.nfwConcentration objField ((10 : ℝ) ^ a.logMHost) a.zLens
  pure (objSub, objField, cHost)

/-- `kwargs_subhalos`, lines 136-152 of `cdm.py`. -/
noncomputable def cdmSubKwargs (a : CdmArgs) : Kwargs :=
  amplitude a.log10dNdA a.log10SigmaSub a.sigmaSub
    (Kwargs.ofList [("log_mlow", .num a.logMlow), ("log_mhigh", .num a.logMhigh), ("m_pivot", .num (10 ^ 8)),
      ("power_law_index", .num a.shmfLogSlope), ("log_m_host", .num a.logMHost), ("delta_power_law_index", .num 0),
      ("host_scaling_factor", .num a.hostScaling), ("redshift_scaling_factor", .num a.redshiftScaling),
      ("draw_poisson", .bool a.drawPoisson)])

/-- `kwargs_los`, lines 153-159 of `cdm.py`. -/
noncomputable def cdmLosKwargs (a : CdmArgs) : Kwargs :=
  Kwargs.ofList [("log_mlow", .num a.logMlow), ("log_mhigh", .num a.logMhigh), ("LOS_normalization", .num a.losNormalization),
    ("m_pivot", .num (10 ^ 8)), ("delta_power_law_index", .num a.deltaPowerLawIndex), ("log_m_host", .num a.logMHost),
    ("draw_poisson", .bool a.drawPoisson)]

/-- Lines 118-203 of `cdm.py`, after the truncation dictionaries have been written. -/
noncomputable def cdmAssemble (a : CdmArgs) (inf : Infall) (cs cf : Cls × Kwargs) (cHost : ℝ) (dSub dField : Kwargs) :
    Except Err Request := do
  let lensCosmo := Val.lensCosmo a.zLens a.zSource a.kwargsCosmo
  let geometry := Val.geometry a.zLens a.zSource a.cone a.geometryType a.kwargsCosmo
  let (ts, tf) ← truncPart a.truncSub a.truncField dSub dField cHost
  let (sp, spKw) ← spatialPart a.spatial a.cone a.logMHost a.zLens cHost a.rTidal geometry lensCosmo
  let losSpatial := Kwargs.ofList [("cone_opening_angle", .num a.cone), ("geometry", geometry)]
  pure {
    infall := inf
    populations := ["SUBHALOS", "LINE_OF_SIGHT"] ++ if a.twoHalo then ["TWO_HALO"] else []
    massFunctions := [.named "CDMPowerLaw", .named "ShethTormen"] ++ if a.twoHalo then [.named "ShethTormen"] else []
    massKwargs := [cdmSubKwargs a, cdmLosKwargs a] ++ if a.twoHalo then [cdmLosKwargs a] else []
    spatials := [sp, .named "LensConeUniform"] ++ if a.twoHalo then [.named "LensConeUniform"] else []
    spatialKwargs := [spKw, losSpatial] ++ if a.twoHalo then [losSpatial] else []
    mdefSub := a.profile
    mdefField := a.profile
    truncSub := ts
    concSub := cs
    truncField := tf
    concField := cf
    density := .emptyDict
    lazar := a.lazar
    planeSpacing := a.planeSpacing
    post := (match a.sisThreshold with | some t => [.sis t a.galaxyModel] | none => []) ++
      (match a.globularClusters with | some n => [.globularClusters n] | none => []) }

/-- `CDM`, `cdm.py` 13-203, for the five dictionaries `d`: the request, and the dictionaries afterwards. -/
noncomputable def cdm (E : Env) (a : CdmArgs) (d : Dicts) : Except Err Request × Dicts :=
  if ¬ geometryOk a.geometryType then (.error (.exception "geometry type not recognized."), d)
  else
    let r := setupInfall E a.zLens a.infall (writeHost a.infall a.logMHost d.infall)
    let d := { d with infall := r.2 }
    match r.1 with
    | .error e => (.error e, d)
    | .ok inf =>
      if a.profile ∉ ["NFW", "TNFW", "PT_MASS"] then
        (.error (.exception "halo mass profile must be either NFW, TNFW, or PT_MASS"), d)
      else
        let d := { d with concSub := d.concSub.set "cosmo" (.cosmo a.kwargsCosmo)
                          concField := d.concField.set "cosmo" (.cosmo a.kwargsCosmo) }
        match cdmConc E a d.concSub d.concField with
        | .error e => (.error e, d)
        | .ok (cs, cf, cHost) =>
          let d := { d with truncSub := d.truncSub.set "lens_cosmo" (.lensCosmo a.zLens a.zSource a.kwargsCosmo)
                            truncField := d.truncField.set "lens_cosmo" (.lensCosmo a.zLens a.zSource a.kwargsCosmo) }
          (cdmAssemble a inf cs cf cHost d.truncSub d.truncField, d)

/-- The arguments of `WDM`, `wdm.py` 10-27, except the five dictionaries of `Dicts`. The dictionaries of the mass
functions are never written to, because `preset_mass_function_models` copies them. `log_mlow` is a number or the callable
handed over by `ULDM`. -/
structure WdmArgs where
  zLens : ℝ
  zSource : ℝ
  logMc : ℝ
  sigmaSub : ℝ := 0.025
  logMlow : Val := .num 6
  logMhigh : ℝ := 10
  log10SigmaSub : Option ℝ := none
  log10dNdA : Option ℝ := none
  massSub : String := "LOVELL2020"
  massSubKw : Kwargs := Kwargs.empty
  massField : String := "LOVELL2020"
  massFieldKw : Kwargs := Kwargs.empty
  concSub : String := "BOSE2016"
  concField : String := "BOSE2016"
  truncSub : TruncSpec := .name "TRUNCATION_GALACTICUS"
  truncField : TruncSpec := .name "TRUNCATION_RN"
  infall : InfallArg := .name "HYBRID_INFALL"
  spatial : String := "PROJECTED_NFW"
  twoHalo : Bool := true
  shmfLogSlope : ℝ := -1.9
  cone : ℝ := 6
  logMHost : ℝ := 13.3
  rTidal : ℝ := 0.25
  losNormalization : ℝ := 1
  geometryType : String := "DOUBLE_CONE"
  kwargsCosmo : ℕ := 0
  mdefSub : String := "TNFW"
  mdefField : String := "TNFW"
  density : Val := .emptyDict
  hostScaling : ℝ := 0.55
  redshiftScaling : ℝ := 0.37
  lazar : Bool := true
  drawPoisson : Bool := true
  cHost : Option ℝ := none
  globularClusters : Option ℕ := none
  promptCusps : Bool := false
  sisThreshold : Option ℝ := none
  planeSpacing : Option ℝ := none

/-- The concentration models of `WDM`, lines 112-127 of `wdm.py`, and the concentration of the host. -/
noncomputable def wdmConc (E : Env) (a : WdmArgs) (dSub dField : Kwargs) :
    Except Err ((Cls × Kwargs) × (Cls × Kwargs) × ℝ) := do
  let (c, kw) ← concentrationModel E a.concSub (some dSub)
  let objSub ← construct c (kw.set "concentration_cdm_class" (.cls (.named "ConcentrationDiemerJoyce")))
  let (c, kw) ← concentrationModel E a.concField (some dField)
  let kw := (kw.set "cosmo" (.cosmo a.kwargsCosmo)).set "log_mc" (.num a.logMc)
  let objField ← construct c (kw.set "concentration_cdm_class" (.cls (.named "ConcentrationDiemerJoyce")))
  let cHost := match a.cHost with
    | some c => c
    | none => E.nfwConcentration objField ((10 : ℝ) ^ a.logMHost) a.zLens
  pure (objSub, objField, cHost)

/-- `kwargs_mass_function_subhalos` after the update, lines 154-170 of `wdm.py`; `kw` is what came from
`preset_mass_function_models` with `log_mc`. -/
noncomputable def wdmSubKwargs (a : WdmArgs) (kw : Kwargs) : Kwargs :=
  kw.update (amplitude a.log10dNdA a.log10SigmaSub a.sigmaSub
    (Kwargs.ofList [("log_mlow", a.logMlow), ("log_mhigh", .num a.logMhigh), ("m_pivot", .num (10 ^ 8)),
      ("power_law_index", .num a.shmfLogSlope), ("log_m_host", .num a.logMHost), ("delta_power_law_index", .num 0),
      ("host_scaling_factor", .num a.hostScaling), ("redshift_scaling_factor", .num a.redshiftScaling),
      ("draw_poisson", .bool a.drawPoisson)]))

/-- `kwargs_mass_function_fieldhalos` after the update, lines 171-176 of `wdm.py`. -/
noncomputable def wdmLosKwargs (a : WdmArgs) (kw : Kwargs) : Kwargs :=
  kw.update (Kwargs.ofList [("log_mlow", a.logMlow), ("log_mhigh", .num a.logMhigh),
    ("LOS_normalization", .num a.losNormalization), ("m_pivot", .num (10 ^ 8)), ("log_m_host", .num a.logMHost),
    ("delta_power_law_index", .num 0), ("draw_poisson", .bool a.drawPoisson)])

/-- Lines 129-220 of `wdm.py`, after the truncation dictionaries have been written. `lens_cosmo` is set once more (136,
143), which changes nothing unless a class of the user is involved. `RealizationExtensions` has no method
`add_prompt_cusps`. -/
noncomputable def wdmAssemble (a : WdmArgs) (inf : Infall) (ms mf : Cls × Kwargs) (cs cf : Cls × Kwargs) (cHost : ℝ)
    (dSub dField : Kwargs) : Except Err Request := do
  let lensCosmo := Val.lensCosmo a.zLens a.zSource a.kwargsCosmo
  let geometry := Val.geometry a.zLens a.zSource a.cone a.geometryType a.kwargsCosmo
  let (ts, tf) ← truncPart a.truncSub a.truncField dSub dField cHost
  let (sp, spKw) ← spatialPart a.spatial a.cone a.logMHost a.zLens cHost a.rTidal geometry lensCosmo
  let losSpatial := Kwargs.ofList [("cone_opening_angle", .num a.cone), ("geometry", geometry)]
  if a.promptCusps then .error (.attributeError "add_prompt_cusps")
  else pure {
    infall := inf
    populations := ["SUBHALOS", "LINE_OF_SIGHT"] ++ if a.twoHalo then ["TWO_HALO"] else []
    massFunctions := [ms.1, mf.1] ++ if a.twoHalo then [mf.1] else []
    massKwargs := [wdmSubKwargs a ms.2, wdmLosKwargs a mf.2] ++ if a.twoHalo then [wdmLosKwargs a mf.2] else []
    spatials := [sp, .named "LensConeUniform", .named "LensConeUniform"]
    spatialKwargs := [spKw, losSpatial, losSpatial]
    mdefSub := a.mdefSub
    mdefField := a.mdefField
    truncSub := ts
    concSub := cs
    truncField := tf
    concField := cf
    density := a.density
    lazar := a.lazar
    planeSpacing := a.planeSpacing
    post := (match a.globularClusters with | some n => [.globularClusters n] | none => []) ++
      (match a.sisThreshold with | some t => [.sis t "GNFW"] | none => []) }

/-- The mass functions of `WDM`, lines 96-106 of `wdm.py`. -/
noncomputable def wdmMass (E : Env) (a : WdmArgs) : Except Err ((Cls × Kwargs) × (Cls × Kwargs)) := do
  let ms ← massFunctionModel E a.massSub a.massSubKw
  let mf ← massFunctionModel E a.massField a.massFieldKw
  pure ((ms.1, ms.2.set "log_mc" (.num a.logMc)), (mf.1, mf.2.set "log_mc" (.num a.logMc)))

/-- `WDM`, `wdm.py` 10-220. -/
noncomputable def wdm (E : Env) (a : WdmArgs) (d : Dicts) : Except Err Request × Dicts :=
  if ¬ geometryOk a.geometryType then (.error (.exception "geometry type not recognized."), d)
  else
    let r := setupInfall E a.zLens a.infall (writeHost a.infall a.logMHost d.infall)
    let d := { d with infall := r.2 }
    match r.1 with
    | .error e => (.error e, d)
    | .ok inf =>
      match wdmMass E a with
      | .error e => (.error e, d)
      | .ok (ms, mf) =>
        let d := { d with
          concSub := (d.concSub.set "cosmo" (.cosmo a.kwargsCosmo)).set "log_mc" (.num a.logMc)
          concField := (d.concField.set "cosmo" (.cosmo a.kwargsCosmo)).set "log_mc" (.num a.logMc) }
        match wdmConc E a d.concSub d.concField with
        | .error e => (.error e, d)
        | .ok (cs, cf, cHost) =>
          let d := { d with truncSub := d.truncSub.set "lens_cosmo" (.lensCosmo a.zLens a.zSource a.kwargsCosmo)
                            truncField := d.truncField.set "lens_cosmo" (.lensCosmo a.zLens a.zSource a.kwargsCosmo) }
          (wdmAssemble a inf ms mf cs cf cHost d.truncSub d.truncField, d)

/-! ## Calls one after the other -/

/-- The dictionaries a caller gives; `none` is a dictionary left out, for which Python uses the default object of the
function. A given dictionary is a new one. The arguments of `cdm.py` 13-24 and `wdm.py` 10-26. -/
structure Given where
  concSub : Option Kwargs := none
  concField : Option Kwargs := none
  truncSub : Option Kwargs := none
  truncField : Option Kwargs := none
  infall : Option Kwargs := none

/-- The dictionaries used by a call. The arguments of `cdm.py` 13-24 and `wdm.py` 10-26. -/
def Given.pick (g : Given) (dflt : Dicts) : Dicts :=
  ⟨g.concSub.getD dflt.concSub, g.concField.getD dflt.concField, g.truncSub.getD dflt.truncSub,
    g.truncField.getD dflt.truncField, g.infall.getD dflt.infall⟩

/-- The default objects after a call that left the dictionaries `d` behind.
The arguments of `cdm.py` 13-24 and `wdm.py` 10-26. -/
def Given.keep (g : Given) (dflt d : Dicts) : Dicts :=
  ⟨if g.concSub.isSome then dflt.concSub else d.concSub, if g.concField.isSome then dflt.concField else d.concField,
    if g.truncSub.isSome then dflt.truncSub else d.truncSub, if g.truncField.isSome then dflt.truncField else d.truncField,
    if g.infall.isSome then dflt.infall else d.infall⟩

/-- The default objects when the module is imported. The defaults in `cdm.py` 13-24 and `wdm.py` 10-26. -/
def freshDicts : Dicts := ⟨Kwargs.empty, Kwargs.empty, Kwargs.empty, Kwargs.empty, Kwargs.empty⟩

/-- A call of a preset `f` when the default objects are `dflt`. Calls of `cdm.py` 13-203 or `wdm.py` 10-220. -/
def call {A : Type} (f : A → Dicts → Except Err Request × Dicts) (dflt : Dicts) (c : A × Given) :
    Except Err Request × Dicts :=
  let r := f c.1 (c.2.pick dflt)
  (r.1, c.2.keep dflt r.2)

/-- The default objects after a sequence of calls. Calls of `cdm.py` 13-203 or `wdm.py` 10-220. -/
def history {A : Type} (f : A → Dicts → Except Err Request × Dicts) (cs : List (A × Given)) : Dicts :=
  cs.foldl (fun d c => (call f d c).2) freshDicts

/-! ## The mixed model -/

/-- The arguments of `WDM_mixed`, `wdm.py` 222-231, except the dictionaries. The names of the models have other defaults
than in `WDM`. -/
structure MixedArgs where
  zLens : ℝ
  zSource : ℝ
  logMc : ℝ
  frac : ℝ
  sigmaSub : ℝ := 0.025
  logMlow : ℝ := 6
  logMhigh : ℝ := 10
  massSub : String := "SHMF_MIXED_WDM_TURNOVER"
  massField : String := "MIXED_WDM_TURNOVER"
  concSub : String := "BOSE2016"
  concField : String := "BOSE2016"
  truncSub : TruncSpec := .name "TRUNCATION_GALACTICUS"
  truncField : TruncSpec := .name "TRUNCATION_RN"
  shmfLogSlope : ℝ := -1.9
  cone : ℝ := 6
  logMHost : ℝ := 13.3
  rTidal : ℝ := 0.25
  losNormalization : ℝ := 1
  geometryType : String := "DOUBLE_CONE"
  kwargsCosmo : ℕ := 0
  density : Val := .emptyDict
  promptCusps : Bool := false

/-- `if param not in kw.keys(): kw[param] = x`. `wdm.py` 267-273. -/
def Kwargs.setDefault (kw : Kwargs) (k : String) (v : Val) : Kwargs := if kw k = none then kw.set k v else kw

/-- What lines 267-275 of `wdm.py` do to a mass function dictionary. -/
noncomputable def mixedDefaults (kw : Kwargs) (frac : ℝ) : Kwargs :=
  (((kw.setDefault "a_wdm" (.num 0.5)).setDefault "b_wdm" (.num 0.8)).setDefault "c_wdm" (.num (-3.0))).set
    "mixed_DM_frac" (.num frac)

/-- The arguments of the call of `WDM`, `wdm.py` 276-297. What is not handed over has the default of `WDM`. -/
noncomputable def mixedToWdm (m : MixedArgs) (kwSub kwField : Kwargs) : WdmArgs :=
  { zLens := m.zLens, zSource := m.zSource, logMc := m.logMc, sigmaSub := m.sigmaSub, logMlow := .num m.logMlow,
    logMhigh := m.logMhigh, massSub := m.massSub, massSubKw := kwSub, massField := m.massField, massFieldKw := kwField,
    concSub := m.concSub, concField := m.concField, truncSub := m.truncSub, truncField := m.truncField,
    shmfLogSlope := m.shmfLogSlope, cone := m.cone, logMHost := m.logMHost, rTidal := m.rTidal,
    losNormalization := m.losNormalization, geometryType := m.geometryType, kwargsCosmo := m.kwargsCosmo,
    density := m.density, promptCusps := m.promptCusps }

/-- All default objects of `WDM` and `WDM_mixed`. The mixed model has no infall dictionary and uses the one of `WDM`; the
component `infall` of `mixed` is not used. The defaults in `wdm.py` 10-26 and 222-236. -/
structure World where
  wdm : Dicts
  mixed : Dicts
  massSub : Kwargs
  massField : Kwargs

/-- The default objects when the module is imported. The defaults in `wdm.py` 10-26 and 222-236. -/
def World.fresh : World := ⟨freshDicts, freshDicts, Kwargs.empty, Kwargs.empty⟩

/-- A call of one of the two functions. Calls of `wdm.py` 10-220 or 222-297. -/
inductive Cmd where
  | wdm (a : WdmArgs) (g : Given)
  | mixed (m : MixedArgs) (g : Given) (massSub massField : Option Kwargs)

/-- `WDM_mixed`, `wdm.py` 222-297: the result, the five dictionaries afterwards, and the two of the mass functions. -/
noncomputable def wdmMixed (E : Env) (m : MixedArgs) (kwSub kwField : Kwargs) (d : Dicts) :
    (Except Err Request × Dicts) × Kwargs × Kwargs :=
  let kwSub := mixedDefaults kwSub m.frac
  let kwField := mixedDefaults kwField m.frac
  (Preset.wdm E (mixedToWdm m kwSub kwField) d, kwSub, kwField)

/-- The result of a call, and the default objects afterwards. Calls of `wdm.py` 10-220 or 222-297. -/
noncomputable def World.step (E : Env) (w : World) : Cmd → Except Err Request × World
  | .wdm a g =>
    let r := call (Preset.wdm E) w.wdm (a, g)
    (r.1, { w with wdm := r.2 })
  | .mixed m g s f =>
    let g := { g with infall := none }
    let r := wdmMixed E m (s.getD w.massSub) (f.getD w.massField) (g.pick { w.mixed with infall := w.wdm.infall })
    (r.1.1, { wdm := { w.wdm with infall := r.1.2.infall }, mixed := g.keep w.mixed r.1.2,
              massSub := if s.isSome then w.massSub else r.2.1, massField := if f.isSome then w.massField else r.2.2 })

/-- The default objects after a sequence of calls. Calls of `wdm.py` 10-220 or 222-297. -/
noncomputable def World.run (E : Env) (cs : List Cmd) : World := cs.foldl (fun w c => (w.step E c).2) World.fresh

/-! ## What `Subhalos` reads -/

/-- The numbers that `Subhalos.__init__` (`subhalos.py` 21-24) and `_get_mass_function_model` (63-98) read from the
dictionary. `host_m200` is read only with `sigma_sub`; without it the value 1 here plays no role. -/
noncomputable def subKwargs (kw : Kwargs) : Except Err SubKwargs := do
  let index ← kw.num "power_law_index"
  let dIndex ← kw.num "delta_power_law_index"
  let mPivot ← kw.num "m_pivot"
  let k1 ← kw.num "host_scaling_factor"
  let k2 ← kw.num "redshift_scaling_factor"
  let host ← match kw "sigma_sub" with
    | none => pure 0
    | some _ => kw.num "log_m_host"
  let opt := fun k => match kw k with | some (.num x) => some x | _ => none
  pure ⟨index, dIndex, opt "sigma_sub", opt "dndA", (10 : ℝ) ^ host, mPivot, k1, k2⟩

/-- Slope and normalisation of the subhalo mass function made from the dictionary. `subhalos.py` 63-98. -/
noncomputable def subAmplitude (kw : Kwargs) (zLens kpc cone : ℝ) : Except Err (ℝ × ℝ) := do
  let s ← subKwargs kw
  subNormalization s zLens kpc cone

end Preset
end PyHalo
