import Verif.Model.Presets

/-!
# C46-C48: preset models
-/

namespace PyHalo.Props
open PyHalo PyHalo.Preset
open scoped Classical

/-! ## Names (C48)

The documented names, with what they stand for. -/

/-- Preset models: name and function. `DMEmulator` is documented too; see `c48_emulator`. -/
def presetTable : List (String × String) :=
  [("CDM", "CDM"), ("WDM", "WDM"), ("SIDM_core_collapse", "SIDM_core_collapse"), ("SIDM_parametric", "SIDM_parametric"),
   ("SIDM_parametric_fixedbins", "SIDM_parametric_fixedbins"), ("ULDM", "ULDM"), ("WDM_mixed", "WDM_mixed"),
   ("WDMGeneral", "WDMGeneral"), ("DMGalacticus", "DMFromGalacticus"), ("CDM_plus_BH", "CDM_plus_BH"),
   ("CUSTOM", "custom_function"), ("JointLOSWithEmulator", "JointLOSWithEmulator")]

/-- Mass functions with fixed coefficients: name, class and the published `a`, `b`, `c`. -/
noncomputable def massTable : List (String × String × ℝ × ℝ × ℝ) :=
  [("SHMF_LOVELL2020", "WDMPowerLaw", 36.15, 2.5, -0.2), ("LOVELL2020", "ShethTormenTurnover", 1.95, 0.8, -1.0),
   ("SHMF_LOVELL2014", "WDMPowerLaw", 1.0, 1.0, -1.3), ("LOVELL2014", "ShethTormenTurnover", 1.0, 1.0, -1.3),
   ("SHMF_SCHIVE2016", "WDMPowerLaw", 1.0, 1.1, -2.2), ("SCHIVE2016", "ShethTormenTurnover", 1.0, 1.1, -2.2)]

/-- Mass functions whose coefficients come from the caller. -/
def massPlain : List (String × String) :=
  [("POWER_LAW", "CDMPowerLaw"), ("POWER_LAW_TURNOVER_SHMF", "WDMPowerLaw"), ("POWER_LAW_TURNOVER", "ShethTormenTurnover"),
   ("SHMF_MIXED_WDM_TURNOVER", "MixedWDMPowerLaw"), ("MIXED_WDM_TURNOVER", "ShethTormenMixedWDM")]

/-- Mass functions computed from the slope of the transfer function. -/
def massStucker : List (String × String) := [("STUCKER_SHMF", "WDMPowerLaw"), ("STUCKER", "ShethTormenTurnover")]

/-- Concentration models that use the caller's keywords as they are. -/
def concPlain : List (String × String) :=
  [("DIEMERJOYCE19", "ConcentrationDiemerJoyce"), ("LUDLOW2016", "ConcentrationLudlow"),
   ("PEAK_HEIGHT_POWERLAW", "ConcentrationPeakHeight"), ("BINNED_HALO_MASS", "BinnedHaloMass"),
   ("WDM_HYPERBOLIC", "ConcentrationWDMHyperbolic"), ("WDM_POLYNOMIAL", "ConcentrationWDMPolynomial"),
   ("LUDLOW_WDM", "ConcentrationLudlowWDM"), ("CONSTANT", "ConcentrationConstant")]

/-- Concentration models with fixed coefficients: name, underlying class, scale, the two exponents. -/
noncomputable def concBose : List (String × String × ℝ × ℝ × ℝ) :=
  [("BOSE2016", "ConcentrationDiemerJoyce", 60, -0.17, 1), ("BOSE2016_LUDLOW", "ConcentrationLudlow", 60, -0.17, 1),
   ("LAROCHE2022", "ConcentrationDiemerJoyce", 21.42, -0.42, 1.62)]

/-- Truncation models and the entries they add. -/
noncomputable def truncTable : List (String × String × List (String × Val)) :=
  [("TRUNCATION_R50", "TruncationRN", [("LOS_truncation_factor", .num 50)]),
   ("TRUNCATION_R200", "TruncationRN", [("LOS_truncation_factor", .num 200)]),
   ("TRUNCATION_RN", "TruncationRN", []), ("TRUNCATION_ROCHE", "TruncationRoche", []),
   ("TRUNCATION_ROCHE_GILMAN2020", "TruncationRoche",
     [("RocheNorm", .num 1.4), ("m_power", .num (1 / 3)), ("RocheNu", .num (2 / 3))]),
   ("SPLASHBACK", "TruncationSplashBack", []), ("TRUNCATION_MEAN_DENSITY", "TruncateMeanDensity", []),
   ("TRUNCATION_GALACTICUS", "TruncationGalacticus", []),
   ("TRUNCATION_GALACTICUS_ZINFALL", "TruncationGalacticusZinfall", []),
   ("TRUNCATION_GALACTICUS_KEELEY24", "TruncationGalacticusKeeley24", []), ("CONSTANT", "ConstantTruncationArcsec", []),
   ("MULTIPLE_RS", "Multiple_RS", []), ("BOUND_MASS_PDF", "TruncationBoundMassPDF", []),
   ("TRUNCATION_GALACTICUS_CDM_APPROX", "TruncationGalacticusApproxCDM", [])]

/-- A name of a preset is resolved exactly when it is in the table, and then to the function of the table; every other
string raises. -/
theorem c48_preset (s f : String) :
    (presetModel s = .ok f ↔ (s, f) ∈ presetTable) ∧
    ((∀ f, (s, f) ∉ presetTable) → ∃ msg, presetModel s = .error (.exception msg)) := by
  have back : ∀ f, (s, f) ∈ presetTable → presetModel s = .ok f := by
    intro f h
    simp only [presetTable, List.mem_cons, Prod.mk.injEq, List.not_mem_nil, or_false] at h
    rcases h with ⟨rfl, rfl⟩ | ⟨rfl, rfl⟩ | ⟨rfl, rfl⟩ | ⟨rfl, rfl⟩ | ⟨rfl, rfl⟩ | ⟨rfl, rfl⟩ | ⟨rfl, rfl⟩ | ⟨rfl, rfl⟩ | ⟨rfl, rfl⟩ | ⟨rfl, rfl⟩ | ⟨rfl, rfl⟩ | ⟨rfl, rfl⟩ <;> rfl
  have none' : (∀ f, (s, f) ∉ presetTable) → ∃ msg, presetModel s = .error (.exception msg) := by
    intro h
    by_cases h0 : s = "DMEmulator"
    · subst h0; exact ⟨_, rfl⟩
    have k1 : s ≠ "CDM" := fun e => h "CDM" (by rw [e]; simp [presetTable])
    have k2 : s ≠ "WDM" := fun e => h "WDM" (by rw [e]; simp [presetTable])
    have k3 : s ≠ "SIDM_core_collapse" := fun e => h "SIDM_core_collapse" (by rw [e]; simp [presetTable])
    have k4 : s ≠ "SIDM_parametric" := fun e => h "SIDM_parametric" (by rw [e]; simp [presetTable])
    have k5 : s ≠ "SIDM_parametric_fixedbins" := fun e => h "SIDM_parametric_fixedbins" (by rw [e]; simp [presetTable])
    have k6 : s ≠ "ULDM" := fun e => h "ULDM" (by rw [e]; simp [presetTable])
    have k7 : s ≠ "WDM_mixed" := fun e => h "WDM_mixed" (by rw [e]; simp [presetTable])
    have k8 : s ≠ "WDMGeneral" := fun e => h "WDMGeneral" (by rw [e]; simp [presetTable])
    have k9 : s ≠ "DMGalacticus" := fun e => h "DMFromGalacticus" (by rw [e]; simp [presetTable])
    have k10 : s ≠ "CDM_plus_BH" := fun e => h "CDM_plus_BH" (by rw [e]; simp [presetTable])
    have k11 : s ≠ "CUSTOM" := fun e => h "custom_function" (by rw [e]; simp [presetTable])
    have k12 : s ≠ "JointLOSWithEmulator" := fun e => h "JointLOSWithEmulator" (by rw [e]; simp [presetTable])
    exact ⟨_, by unfold presetModel; rw [if_neg k1, if_neg k2, if_neg k3, if_neg k4, if_neg k5, if_neg k6, if_neg h0, if_neg k7, if_neg k8, if_neg k9, if_neg k10, if_neg k11, if_neg k12]⟩
  refine ⟨⟨fun h => ?_, back f⟩, none'⟩
  by_contra hn
  by_cases hx : ∃ f', (s, f') ∈ presetTable
  · obtain ⟨f', hf⟩ := hx
    rw [back f' hf] at h
    cases h
    exact hn hf
  · obtain ⟨msg, hm⟩ := none' (fun f hf => hx ⟨f, hf⟩)
    rw [hm] at h
    cases h

/-- The documented name `DMEmulator` cannot be used. -/
theorem c48_emulator : ∀ f, presetModel "DMEmulator" ≠ .ok f := by
  intro f; simp [presetModel]

/-- Mass functions with published coefficients: the documented class, the three coefficients, and the caller's other
entries. -/
theorem c48_mass (E : Env) (kw : Kwargs) (s c : String) (a b e : ℝ) (h : (s, c, a, b, e) ∈ massTable) :
    ∃ out, massFunctionModel E s kw = .ok (.named c, out) ∧ out "a_wdm" = some (.num a) ∧ out "b_wdm" = some (.num b) ∧
      out "c_wdm" = some (.num e) ∧ ∀ k, k ≠ "a_wdm" → k ≠ "b_wdm" → k ≠ "c_wdm" → out k = kw k := by
  have key : ∀ x y z : ℝ, (setABC kw x y z) "a_wdm" = some (.num x) ∧ (setABC kw x y z) "b_wdm" = some (.num y) ∧
      (setABC kw x y z) "c_wdm" = some (.num z) ∧
      ∀ k, k ≠ "a_wdm" → k ≠ "b_wdm" → k ≠ "c_wdm" → (setABC kw x y z) k = kw k := by
    intro x y z
    simp +contextual [setABC, Kwargs.set]
  simp only [massTable, List.mem_cons, Prod.mk.injEq, List.not_mem_nil, or_false] at h
  rcases h with ⟨rfl, rfl, rfl, rfl, rfl⟩ | ⟨rfl, rfl, rfl, rfl, rfl⟩ | ⟨rfl, rfl, rfl, rfl, rfl⟩ |
    ⟨rfl, rfl, rfl, rfl, rfl⟩ | ⟨rfl, rfl, rfl, rfl, rfl⟩ | ⟨rfl, rfl, rfl, rfl, rfl⟩ <;>
    exact ⟨_, by simp only [massFunctionModel]; simp, key _ _ _⟩

/-- Mass functions without fixed coefficients: the documented class, and the caller's dictionary. -/
theorem c48_mass_plain (E : Env) (kw : Kwargs) (s c : String) (h : (s, c) ∈ massPlain) :
    massFunctionModel E s kw = .ok (.named c, kw) := by
  simp only [massPlain, List.mem_cons, Prod.mk.injEq, List.not_mem_nil, or_false] at h
  rcases h with ⟨rfl, rfl⟩ | ⟨rfl, rfl⟩ | ⟨rfl, rfl⟩ | ⟨rfl, rfl⟩ | ⟨rfl, rfl⟩ <;> simp [massFunctionModel]

/-- Mass functions computed from the slope: they need the slope, refuse coefficients, and otherwise give the documented
class with coefficients computed from the slope alone. -/
theorem c48_mass_stucker (E : Env) (kw : Kwargs) (s c : String) (h : (s, c) ∈ massStucker) :
    ((kw "dlogT_dlogk" = none ∨ kw "a_wdm" ≠ none ∨ kw "b_wdm" ≠ none ∨ kw "c_wdm" ≠ none) →
      ∃ msg, massFunctionModel E s kw = .error (.exception msg)) ∧
    ∀ x, kw "dlogT_dlogk" = some (.num x) → kw "a_wdm" = none → kw "b_wdm" = none → kw "c_wdm" = none →
      ∃ out, massFunctionModel E s kw = .ok (.named c, out) ∧ out "dlogT_dlogk" = none ∧
        out "a_wdm" = some (.num (stuckerParams E x).1) ∧ out "b_wdm" = some (.num (stuckerParams E x).2.1) ∧
        out "c_wdm" = some (.num (stuckerParams E x).2.2) := by
  simp only [massStucker, List.mem_cons, Prod.mk.injEq, List.not_mem_nil, or_false] at h
  constructor
  · intro hb
    have : massFunctionModel E s kw =
        if kw "dlogT_dlogk" = none then .error (.exception "Must specify |dlogT_dlogk|")
        else if kw "a_wdm" ≠ none then .error (.exception "Cannot specify a_wdm with the Stucker model.")
        else if kw "b_wdm" ≠ none then .error (.exception "Cannot specify b_wdm with the Stucker model.")
        else if kw "c_wdm" ≠ none then .error (.exception "Cannot specify c_wdm with the Stucker model.")
        else massFunctionModel E s kw := by
      rcases h with ⟨rfl, rfl⟩ | ⟨rfl, rfl⟩ <;> split_ifs with h1 h2 h3 h4 <;> simp [massFunctionModel, *]
    rw [this]
    split_ifs with h1 h2 h3 h4
    · exact ⟨_, rfl⟩
    · exact ⟨_, rfl⟩
    · exact ⟨_, rfl⟩
    · exact ⟨_, rfl⟩
    · tauto
  · intro x h1 h2 h3 h4
    rcases h with ⟨rfl, rfl⟩ | ⟨rfl, rfl⟩ <;>
      exact ⟨(setABC kw (stuckerParams E x).1 (stuckerParams E x).2.1 (stuckerParams E x).2.2).del "dlogT_dlogk",
        by simp [massFunctionModel, h1, h2, h3, h4, Kwargs.num], by simp [Kwargs.del], by simp [Kwargs.del, setABC, Kwargs.set],
        by simp [Kwargs.del, setABC, Kwargs.set], by simp [Kwargs.del, setABC, Kwargs.set]⟩

/-- Every other string is refused. -/
theorem c48_mass_refused (E : Env) (kw : Kwargs) (s : String)
    (h1 : ∀ c a b e, (s, c, a, b, e) ∉ massTable) (h2 : ∀ c, (s, c) ∉ massPlain) (h3 : ∀ c, (s, c) ∉ massStucker) :
    ∃ msg, massFunctionModel E s kw = .error (.exception msg) := by
  simp only [massTable, massPlain, massStucker, List.mem_cons, Prod.mk.injEq, List.not_mem_nil, or_false] at h1 h2 h3
  refine ⟨"model name " ++ s ++ " not recognized", ?_⟩
  have k1 : s ≠ "SHMF_LOVELL2020" := fun h => h1 "WDMPowerLaw" 36.15 2.5 (-0.2) (by simp [h])
  have k2 : s ≠ "LOVELL2020" := fun h => h1 "ShethTormenTurnover" 1.95 0.8 (-1.0) (by simp [h])
  have k3 : s ≠ "SHMF_LOVELL2014" := fun h => h1 "WDMPowerLaw" 1.0 1.0 (-1.3) (by simp [h])
  have k4 : s ≠ "LOVELL2014" := fun h => h1 "ShethTormenTurnover" 1.0 1.0 (-1.3) (by simp [h])
  have k5 : s ≠ "SHMF_SCHIVE2016" := fun h => h1 "WDMPowerLaw" 1.0 1.1 (-2.2) (by simp [h])
  have k6 : s ≠ "SCHIVE2016" := fun h => h1 "ShethTormenTurnover" 1.0 1.1 (-2.2) (by simp [h])
  have k7 : s ≠ "POWER_LAW" := fun h => h2 "CDMPowerLaw" (by simp [h])
  have k8 : s ≠ "POWER_LAW_TURNOVER_SHMF" := fun h => h2 "WDMPowerLaw" (by simp [h])
  have k9 : s ≠ "POWER_LAW_TURNOVER" := fun h => h2 "ShethTormenTurnover" (by simp [h])
  have k10 : s ≠ "SHMF_MIXED_WDM_TURNOVER" := fun h => h2 "MixedWDMPowerLaw" (by simp [h])
  have k11 : s ≠ "MIXED_WDM_TURNOVER" := fun h => h2 "ShethTormenMixedWDM" (by simp [h])
  have k12 : s ≠ "STUCKER_SHMF" := fun h => h3 "WDMPowerLaw" (by simp [h])
  have k13 : s ≠ "STUCKER" := fun h => h3 "ShethTormenTurnover" (by simp [h])
  simp only [massFunctionModel, if_neg k1, if_neg k2, if_neg k3, if_neg k4, if_neg k5, if_neg k6, if_neg k7, if_neg k8,
    if_neg k9, if_neg k10, if_neg k11, k12, k13, or_self, if_false]

example (E : Env) := c48_mass_refused E Kwargs.empty "PRESS_SCHECHTER" (by simp [massTable]) (by simp [massPlain]) (by simp [massStucker])

/-- Concentration models without fixed coefficients. -/
theorem c48_concentration (E : Env) (kw : Kwargs) (s c : String) (h : (s, c) ∈ concPlain) :
    concentrationModel E s (some kw) = .ok (.named c, kw) ∧
      concentrationModel E s none = .ok (.named c, Kwargs.empty) := by
  simp only [concPlain, List.mem_cons, Prod.mk.injEq, List.not_mem_nil, or_false] at h
  rcases h with ⟨rfl, rfl⟩ | ⟨rfl, rfl⟩ | ⟨rfl, rfl⟩ | ⟨rfl, rfl⟩ | ⟨rfl, rfl⟩ | ⟨rfl, rfl⟩ | ⟨rfl, rfl⟩ | ⟨rfl, rfl⟩ <;>
    simp [concentrationModel]

example (E : Env) := c48_concentration E Kwargs.empty "DIEMERJOYCE19" "ConcentrationDiemerJoyce" (by simp [concPlain])

/-- Concentration models with published coefficients. -/
theorem c48_concentration_fixed (E : Env) (kw : Kwargs) (s c : String) (a b e : ℝ) (h : (s, c, a, b, e) ∈ concBose) :
    ∃ out, concentrationModel E s (some kw) = .ok (.named "ConcentrationWDMPolynomial", out) ∧
      out "concentration_cdm_class" = some (.cls (.named c)) ∧ out "c_scale" = some (.num a) ∧
      out "c_power" = some (.num b) ∧ out "c_power_inner" = some (.num e) ∧
      (s ≠ "LAROCHE2022" → out "mc_suppression_redshift_evolution" = some (.bool false)) := by
  simp only [concBose, List.mem_cons, Prod.mk.injEq, List.not_mem_nil, or_false] at h
  rcases h with ⟨rfl, rfl, rfl, rfl, rfl⟩ | ⟨rfl, rfl, rfl, rfl, rfl⟩ | ⟨rfl, rfl, rfl, rfl, rfl⟩
  · refine ⟨_, by simp only [concentrationModel]; simp; rfl, ?_⟩
    simp [setBose, Kwargs.set]; norm_num
  · refine ⟨_, by simp only [concentrationModel]; simp; rfl, ?_⟩
    simp [setBose, Kwargs.set]; norm_num
  · refine ⟨_, by simp only [concentrationModel]; simp; rfl, ?_⟩
    simp [setBose, Kwargs.set]

/-- The model from the formation history, and a class of the user. -/
theorem c48_concentration_special (E : Env) (kw : Kwargs) :
    (∀ x, kw "dlogT_dlogk" = some (.num x) → ∃ out,
      concentrationModel E "FROM_FORMATION_HISTORY" (some kw) = .ok (.named "ConcentrationWDMHyperbolic", out) ∧
      out "dlogT_dlogk" = none ∧ out "a" = some (.num (0.75 * (0.7 / x) ^ (0.4 : ℝ))) ∧
      out "b" = some (.num (0.94 * |Real.log 2.36 / Real.log (x + 0.6)| ^ (0.7 : ℝ)))) ∧
    (∀ c, kw "custom_class" = some (.cls c) → E.hasConcentration (.cls c) = true →
      ∃ out, concentrationModel E "CUSTOM" (some kw) = .ok (c, out) ∧ out "custom_class" = none) ∧
    (∀ v, kw "custom_class" = some v → E.hasConcentration v = false →
      ∃ msg, concentrationModel E "CUSTOM" (some kw) = .error (.exception msg)) := by
  refine ⟨fun x hx => ?_, fun c hc hm => ?_, fun v hv hm => ?_⟩
  · refine ⟨_, by simp only [concentrationModel]; simp [Kwargs.num, hx]; rfl, ?_, ?_, ?_⟩
    · simp [Kwargs.del]
    · simp [Kwargs.del, Kwargs.set]
    · simp [Kwargs.del, Kwargs.set]; norm_num
  · exact ⟨_, by simp only [concentrationModel]; simp [hc, hm]; rfl, by simp [Kwargs.del]⟩
  · exact ⟨_, by simp only [concentrationModel]; simp [hv, hm]; rfl⟩

/-- Every other string is refused. -/
theorem c48_concentration_refused (E : Env) (kw : Option Kwargs) (s : String) (h1 : ∀ c, (s, c) ∉ concPlain)
    (h2 : ∀ c a b e, (s, c, a, b, e) ∉ concBose) (h3 : s ≠ "FROM_FORMATION_HISTORY") (h4 : s ≠ "CUSTOM") :
    ∃ msg, concentrationModel E s kw = .error (.exception msg) := by
  simp only [concPlain, concBose, List.mem_cons, Prod.mk.injEq, List.not_mem_nil, or_false] at h1 h2
  refine ⟨"model name " ++ s ++ " not recognized", ?_⟩
  have k1 : s ≠ "DIEMERJOYCE19" := fun h => h1 "ConcentrationDiemerJoyce" (by simp [h])
  have k2 : s ≠ "LUDLOW2016" := fun h => h1 "ConcentrationLudlow" (by simp [h])
  have k3 : s ≠ "PEAK_HEIGHT_POWERLAW" := fun h => h1 "ConcentrationPeakHeight" (by simp [h])
  have k4 : s ≠ "BINNED_HALO_MASS" := fun h => h1 "BinnedHaloMass" (by simp [h])
  have k5 : s ≠ "WDM_HYPERBOLIC" := fun h => h1 "ConcentrationWDMHyperbolic" (by simp [h])
  have k6 : s ≠ "WDM_POLYNOMIAL" := fun h => h1 "ConcentrationWDMPolynomial" (by simp [h])
  have k7 : s ≠ "LUDLOW_WDM" := fun h => h1 "ConcentrationLudlowWDM" (by simp [h])
  have k8 : s ≠ "CONSTANT" := fun h => h1 "ConcentrationConstant" (by simp [h])
  have k9 : s ≠ "BOSE2016" := fun h => h2 "ConcentrationDiemerJoyce" 60 (-0.17) 1 (by simp [h])
  have k10 : s ≠ "BOSE2016_LUDLOW" := fun h => h2 "ConcentrationLudlow" 60 (-0.17) 1 (by simp [h])
  have k11 : s ≠ "LAROCHE2022" := fun h => h2 "ConcentrationDiemerJoyce" 21.42 (-0.42) 1.62 (by simp [h])
  simp only [concentrationModel, if_neg k1, if_neg k2, if_neg k3, if_neg k4, if_neg k5, if_neg k6, if_neg k7, if_neg k8,
    if_neg k9, if_neg k10, if_neg k11, if_neg h3, if_neg h4]

example (E : Env) := c48_concentration_refused E none "DIEMER" (by simp [concPlain]) (by simp [concBose]) (by simp) (by simp)

/-- Truncation models: the documented class with the documented entries; a class is used as it is; every other string is
refused. -/
theorem c48_truncation (s : String) :
    (∀ c l, (s, c, l) ∈ truncTable → truncationModel (.name s) = .ok (.named c, Kwargs.ofList l)) ∧
    ((∀ c l, (s, c, l) ∉ truncTable) → ∃ msg, truncationModel (.name s) = .error (.exception msg)) ∧
    ∀ n, truncationModel (.cls n) = .ok (.user n, Kwargs.empty) := by
  refine ⟨fun c l h => ?_, fun h => ?_, fun n => rfl⟩
  · simp only [truncTable, List.mem_cons, Prod.mk.injEq, List.not_mem_nil, or_false] at h
    have e0 : Kwargs.ofList [] = Kwargs.empty := by funext k; simp [Kwargs.ofList, Kwargs.empty]
    rcases h with ⟨rfl, rfl, rfl⟩ | ⟨rfl, rfl, rfl⟩ | ⟨rfl, rfl, rfl⟩ | ⟨rfl, rfl, rfl⟩ | ⟨rfl, rfl, rfl⟩ |
      ⟨rfl, rfl, rfl⟩ | ⟨rfl, rfl, rfl⟩ | ⟨rfl, rfl, rfl⟩ | ⟨rfl, rfl, rfl⟩ | ⟨rfl, rfl, rfl⟩ | ⟨rfl, rfl, rfl⟩ |
      ⟨rfl, rfl, rfl⟩ | ⟨rfl, rfl, rfl⟩ | ⟨rfl, rfl, rfl⟩
    case inl | inr.inl =>
      simp only [truncationModel]
      simp
      funext k
      by_cases hk : k = "LOS_truncation_factor"
      · simp [Kwargs.ofList, Kwargs.set, hk, List.lookup]
      · have b1 : (k == "LOS_truncation_factor") = false := by simpa using hk
        simp [Kwargs.ofList, Kwargs.set, Kwargs.empty, hk, List.lookup, b1]
    case inr.inr.inr.inr.inl =>
      simp only [truncationModel]
      simp
      funext k
      by_cases hk : k = "RocheNorm"
      · subst hk; simp [Kwargs.ofList, Kwargs.set, List.lookup]
      by_cases hk2 : k = "m_power"
      · subst hk2; simp [Kwargs.ofList, Kwargs.set, List.lookup]
      by_cases hk3 : k = "RocheNu"
      · subst hk3; simp [Kwargs.ofList, Kwargs.set, List.lookup]
      have b1 : (k == "RocheNorm") = false := by simpa using hk
      have b2 : (k == "m_power") = false := by simpa using hk2
      have b3 : (k == "RocheNu") = false := by simpa using hk3
      simp [Kwargs.ofList, Kwargs.set, Kwargs.empty, List.lookup, hk, hk2, hk3, b1, b2, b3]
    all_goals simp [truncationModel, e0]
  · have k1 : s ≠ "TRUNCATION_R50" := fun e => h "TruncationRN" [("LOS_truncation_factor", .num 50)] (by rw [e]; simp [truncTable])
    have k2 : s ≠ "TRUNCATION_R200" := fun e => h "TruncationRN" [("LOS_truncation_factor", .num 200)] (by rw [e]; simp [truncTable])
    have k3 : s ≠ "TRUNCATION_RN" := fun e => h "TruncationRN" [] (by rw [e]; simp [truncTable])
    have k4 : s ≠ "TRUNCATION_ROCHE" := fun e => h "TruncationRoche" [] (by rw [e]; simp [truncTable])
    have k5 : s ≠ "TRUNCATION_ROCHE_GILMAN2020" := fun e => h "TruncationRoche" [("RocheNorm", .num 1.4), ("m_power", .num (1 / 3)), ("RocheNu", .num (2 / 3))] (by rw [e]; simp [truncTable])
    have k6 : s ≠ "SPLASHBACK" := fun e => h "TruncationSplashBack" [] (by rw [e]; simp [truncTable])
    have k7 : s ≠ "TRUNCATION_MEAN_DENSITY" := fun e => h "TruncateMeanDensity" [] (by rw [e]; simp [truncTable])
    have k8 : s ≠ "TRUNCATION_GALACTICUS" := fun e => h "TruncationGalacticus" [] (by rw [e]; simp [truncTable])
    have k9 : s ≠ "TRUNCATION_GALACTICUS_ZINFALL" := fun e => h "TruncationGalacticusZinfall" [] (by rw [e]; simp [truncTable])
    have k10 : s ≠ "TRUNCATION_GALACTICUS_KEELEY24" := fun e => h "TruncationGalacticusKeeley24" [] (by rw [e]; simp [truncTable])
    have k11 : s ≠ "CONSTANT" := fun e => h "ConstantTruncationArcsec" [] (by rw [e]; simp [truncTable])
    have k12 : s ≠ "MULTIPLE_RS" := fun e => h "Multiple_RS" [] (by rw [e]; simp [truncTable])
    have k13 : s ≠ "BOUND_MASS_PDF" := fun e => h "TruncationBoundMassPDF" [] (by rw [e]; simp [truncTable])
    have k14 : s ≠ "TRUNCATION_GALACTICUS_CDM_APPROX" := fun e => h "TruncationGalacticusApproxCDM" [] (by rw [e]; simp [truncTable])
    exact ⟨_, by simp only [truncationModel, if_neg k1, if_neg k2, if_neg k3, if_neg k4, if_neg k5, if_neg k6, if_neg k7, if_neg k8, if_neg k9, if_neg k10, if_neg k11, if_neg k12, if_neg k13, if_neg k14]; rfl⟩

example : ∃ f, presetModel "DMGalacticus" = .ok f ∧ f ≠ "DMGalacticus" := ⟨_, rfl, by simp⟩

/-! ## No memory of earlier calls (C46) -/

theorem Kwargs.set_congr {a b : Kwargs} {k : String} (v : Val) (h : ∀ s, s ≠ k → a s = b s) : a.set k v = b.set k v := by
  funext s
  by_cases hs : s = k <;> simp [Kwargs.set, hs, h s]

/-- The dictionaries `a` and `b` differ at most in the keys of the list. -/
def SameBut (ks : List String) (a b : Kwargs) : Prop := ∀ k, k ∉ ks → a k = b k

theorem SameBut.refl {ks : List String} (a : Kwargs) : SameBut ks a a := fun _ _ => rfl
theorem SameBut.symm {ks : List String} {a b : Kwargs} (h : SameBut ks a b) : SameBut ks b a := fun k hk => (h k hk).symm
theorem SameBut.trans {ks : List String} {a b c : Kwargs} (h : SameBut ks a b) (h' : SameBut ks b c) : SameBut ks a c :=
  fun k hk => (h k hk).trans (h' k hk)
theorem SameBut.set {ks : List String} {k : String} (a : Kwargs) (v : Val) (hk : k ∈ ks) : SameBut ks (a.set k v) a := by
  intro s hs
  have : s ≠ k := fun h => hs (h ▸ hk)
  simp [Kwargs.set, this]
theorem SameBut.set2 {ks : List String} {j k : String} (a : Kwargs) (u v : Val) (hj : j ∈ ks) (hk : k ∈ ks) :
    SameBut ks ((a.set j u).set k v) a := (SameBut.set _ v hk).trans (SameBut.set a u hj)

theorem convertHost_frame {kw kw' : Kwargs} (h : convertHost kw = .ok kw') :
    SameBut ["log_m_host", "m_host"] kw' kw ∧ kw' "m_host" = none := by
  unfold convertHost at h
  split at h
  · cases h; exact ⟨SameBut.refl _, by assumption⟩
  · cases h
    refine ⟨fun k hk => ?_, by simp [Kwargs.del]⟩
    simp only [List.mem_cons, List.not_mem_nil, or_false, not_or] at hk
    simp [Kwargs.del, Kwargs.set, hk.1, hk.2]
  · cases h

theorem convertHost_none {kw : Kwargs} (h : kw "m_host" = none) : convertHost kw = .ok kw := by
  unfold convertHost; rw [h]

theorem defaultHost_frame (kw : Kwargs) : SameBut ["log_m_host"] (defaultHost kw) kw := by
  unfold defaultHost
  split
  · exact SameBut.set _ _ (by simp)
  · exact SameBut.refl _

theorem SameBut.mono {ks ls : List String} {a b : Kwargs} (h : SameBut ks a b) (hs : ∀ k ∈ ks, k ∈ ls) : SameBut ls a b :=
  fun k hk => h k (fun hk' => hk (hs k hk'))

/-- `setup_infall_model` writes nothing but the two names of the host mass; and without `m_host` in the dictionary only
one of them. -/
theorem setupInfall_frame (E : Env) (z : ℝ) (arg : InfallArg) (kw : Kwargs) :
    SameBut ["log_m_host", "m_host"] (setupInfall E z arg kw).2 kw ∧
      (kw "m_host" = none → (setupInfall E z arg kw).2 "m_host" = none) := by
  have hd : ∀ k : Kwargs, SameBut ["log_m_host", "m_host"] (defaultHost k) k :=
    fun k => (defaultHost_frame k).mono (by simp)
  have hdm : ∀ k : Kwargs, (defaultHost k) "m_host" = k "m_host" := fun k => defaultHost_frame k _ (by simp)
  cases arg with
  | cls n => unfold setupInfall; dsimp only; split_ifs <;> exact ⟨SameBut.refl _, id⟩
  | name s =>
    unfold setupInfall
    dsimp only
    by_cases h1 : s = "DIRECT_INFALL" ∨ s = "HYBRID_INFALL"
    · rw [if_pos h1]
      split
      · exact ⟨SameBut.refl _, id⟩
      · rename_i kw1 e1
        obtain ⟨f1, m1⟩ := convertHost_frame e1
        have hm : (defaultHost kw1) "m_host" = none := (hdm kw1).trans m1
        split <;> exact ⟨(hd _).trans f1, fun _ => hm⟩
    rw [if_neg h1]
    by_cases h2 : s = "GALACTICUS_2024"
    · rw [if_pos h2]; exact ⟨SameBut.refl _, id⟩
    rw [if_neg h2]
    by_cases h3 : s = "DIRECT_INFALL_CLUSTER"
    · rw [if_pos h3]
      split
      · exact ⟨SameBut.refl _, id⟩
      · rename_i kw1 e1
        obtain ⟨f1, m1⟩ := convertHost_frame e1
        split
        · exact ⟨f1, fun _ => m1⟩
        · split_ifs <;> exact ⟨f1, fun _ => m1⟩
    rw [if_neg h3]
    split_ifs <;> exact ⟨SameBut.refl _, id⟩

theorem writeHost_frame (arg : InfallArg) (l : ℝ) (kw : Kwargs) : SameBut ["log_m_host"] (writeHost arg l kw) kw := by
  unfold writeHost
  split
  · exact SameBut.set _ _ (by simp)
  · exact SameBut.refl _

/-- What a preset may write: the keys by dictionary. -/
structure Frame (conc : List String) (d' d : Dicts) : Prop where
  concSub : SameBut conc d'.concSub d.concSub
  concField : SameBut conc d'.concField d.concField
  truncSub : SameBut ["lens_cosmo"] d'.truncSub d.truncSub
  truncField : SameBut ["lens_cosmo"] d'.truncField d.truncField
  infall : SameBut ["log_m_host", "m_host"] d'.infall d.infall

theorem infall_frame (E : Env) (z l : ℝ) (arg : InfallArg) (kw : Kwargs) :
    SameBut ["log_m_host", "m_host"] (setupInfall E z arg (writeHost arg l kw)).2 kw ∧
      (kw "m_host" = none → (setupInfall E z arg (writeHost arg l kw)).2 "m_host" = none) := by
  obtain ⟨f, m⟩ := setupInfall_frame E z arg (writeHost arg l kw)
  refine ⟨f.trans ((writeHost_frame arg l kw).mono (by simp)), fun h => m ?_⟩
  rw [writeHost_frame arg l kw _ (by simp)]
  exact h

/-- A call of the cold dark matter preset changes its dictionaries (the caller's, or the defaults) in no entry except the
cosmology, the `LensCosmo` and the host mass. -/
theorem c46_writes (E : Env) (a : CdmArgs) (d : Dicts) :
    Frame ["cosmo"] (cdm E a d).2 d ∧ (d.infall "m_host" = none → (cdm E a d).2.infall "m_host" = none) := by
  obtain ⟨fi, mi⟩ := infall_frame E a.zLens a.logMHost a.infall d.infall
  unfold cdm
  split
  · exact ⟨⟨SameBut.refl _, SameBut.refl _, SameBut.refl _, SameBut.refl _, SameBut.refl _⟩, id⟩
  · dsimp only
    split
    · exact ⟨⟨SameBut.refl _, SameBut.refl _, SameBut.refl _, SameBut.refl _, fi⟩, mi⟩
    · split
      · exact ⟨⟨SameBut.refl _, SameBut.refl _, SameBut.refl _, SameBut.refl _, fi⟩, mi⟩
      · have c1 : ∀ k : Kwargs, SameBut ["cosmo"] (k.set "cosmo" (.cosmo a.kwargsCosmo)) k :=
          fun k => SameBut.set k _ (by simp)
        have t1 : ∀ k : Kwargs, SameBut ["lens_cosmo"]
            (k.set "lens_cosmo" (.lensCosmo a.zLens a.zSource a.kwargsCosmo)) k := fun k => SameBut.set k _ (by simp)
        split
        · exact ⟨⟨c1 _, c1 _, SameBut.refl _, SameBut.refl _, fi⟩, mi⟩
        · exact ⟨⟨c1 _, c1 _, t1 _, t1 _, fi⟩, mi⟩

/-- The same for warm dark matter, where the half-mode mass is written too. -/
theorem c46_writes_wdm (E : Env) (a : WdmArgs) (d : Dicts) :
    Frame ["cosmo", "log_mc"] (wdm E a d).2 d ∧
      (d.infall "m_host" = none → (wdm E a d).2.infall "m_host" = none) := by
  obtain ⟨fi, mi⟩ := infall_frame E a.zLens a.logMHost a.infall d.infall
  unfold wdm
  split
  · exact ⟨⟨SameBut.refl _, SameBut.refl _, SameBut.refl _, SameBut.refl _, SameBut.refl _⟩, id⟩
  · dsimp only
    split
    · exact ⟨⟨SameBut.refl _, SameBut.refl _, SameBut.refl _, SameBut.refl _, fi⟩, mi⟩
    · split
      · exact ⟨⟨SameBut.refl _, SameBut.refl _, SameBut.refl _, SameBut.refl _, fi⟩, mi⟩
      · have c1 : ∀ k : Kwargs, SameBut ["cosmo", "log_mc"]
            ((k.set "cosmo" (.cosmo a.kwargsCosmo)).set "log_mc" (.num a.logMc)) k :=
          fun k => SameBut.set2 k _ _ (by simp) (by simp)
        have t1 : ∀ k : Kwargs, SameBut ["lens_cosmo"]
            (k.set "lens_cosmo" (.lensCosmo a.zLens a.zSource a.kwargsCosmo)) k := fun k => SameBut.set k _ (by simp)
        split
        · exact ⟨⟨c1 _, c1 _, SameBut.refl _, SameBut.refl _, fi⟩, mi⟩
        · exact ⟨⟨c1 _, c1 _, t1 _, t1 _, fi⟩, mi⟩

/-- The infall models whose choice does not look at the dictionary left behind by others: every name except
`DIRECT_INFALL`. -/
def Safe : InfallArg → Prop
  | .name s => s ≠ "DIRECT_INFALL"
  | .cls _ => False

theorem setup_congr (E : Env) (z l : ℝ) (arg : InfallArg) (h : Safe arg) {a b : Kwargs}
    (hab : SameBut ["log_m_host"] a b) :
    (setupInfall E z arg (writeHost arg l a)).1 = (setupInfall E z arg (writeHost arg l b)).1 := by
  cases arg with
  | cls n => exact absurd h id
  | name s =>
    have hs : s ≠ "DIRECT_INFALL" := h
    by_cases h1 : s = "HYBRID_INFALL" ∨ s = "DIRECT_INFALL_CLUSTER"
    · have : writeHost (.name s) l a = writeHost (.name s) l b := by
        unfold writeHost
        rw [if_pos (by simpa using h1), if_pos (by simpa using h1)]
        exact Kwargs.set_congr _ (fun k hk => hab k (by simpa using hk))
      rw [this]
    · push Not at h1
      simp only [setupInfall, hs, h1.1, h1.2, or_self, if_false]
      split_ifs <;> rfl

/-- The result of the preset depends on its dictionaries only through entries it does not write itself. -/
theorem cdm_congr (E : Env) (a : CdmArgs) {d d' : Dicts}
    (h1 : SameBut ["cosmo"] d.concSub d'.concSub) (h2 : SameBut ["cosmo"] d.concField d'.concField)
    (h3 : SameBut ["lens_cosmo"] d.truncSub d'.truncSub) (h4 : SameBut ["lens_cosmo"] d.truncField d'.truncField)
    (h5 : (setupInfall E a.zLens a.infall (writeHost a.infall a.logMHost d.infall)).1 =
      (setupInfall E a.zLens a.infall (writeHost a.infall a.logMHost d'.infall)).1) :
    (cdm E a d).1 = (cdm E a d').1 := by
  have s1 := fun v => Kwargs.set_congr (a := d.concSub) (b := d'.concSub) v (fun k hk => h1 k (by simpa using hk))
  have s2 := fun v => Kwargs.set_congr (a := d.concField) (b := d'.concField) v (fun k hk => h2 k (by simpa using hk))
  have s3 := fun v => Kwargs.set_congr (a := d.truncSub) (b := d'.truncSub) v (fun k hk => h3 k (by simpa using hk))
  have s4 := fun v => Kwargs.set_congr (a := d.truncField) (b := d'.truncField) v (fun k hk => h4 k (by simpa using hk))
  unfold cdm
  dsimp only
  rw [h5, s1, s2, s3, s4]
  split
  · rfl
  · split
    · rfl
    · split
      · rfl
      · split <;> rfl

theorem wdm_congr (E : Env) (a : WdmArgs) {d d' : Dicts}
    (h1 : SameBut ["cosmo", "log_mc"] d.concSub d'.concSub) (h2 : SameBut ["cosmo", "log_mc"] d.concField d'.concField)
    (h3 : SameBut ["lens_cosmo"] d.truncSub d'.truncSub) (h4 : SameBut ["lens_cosmo"] d.truncField d'.truncField)
    (h5 : (setupInfall E a.zLens a.infall (writeHost a.infall a.logMHost d.infall)).1 =
      (setupInfall E a.zLens a.infall (writeHost a.infall a.logMHost d'.infall)).1) :
    (wdm E a d).1 = (wdm E a d').1 := by
  have two : ∀ {x y : Kwargs}, SameBut ["cosmo", "log_mc"] x y → ∀ u v,
      (x.set "cosmo" u).set "log_mc" v = (y.set "cosmo" u).set "log_mc" v := by
    intro x y h u v
    refine Kwargs.set_congr _ (fun k hk => ?_)
    by_cases hc : k = "cosmo"
    · simp [Kwargs.set, hc]
    · simp only [Kwargs.set, hc, if_false]; exact h k (by simp [hc, hk])
  have s1 := two h1
  have s2 := two h2
  have s3 := fun v => Kwargs.set_congr (a := d.truncSub) (b := d'.truncSub) v (fun k hk => h3 k (by simpa using hk))
  have s4 := fun v => Kwargs.set_congr (a := d.truncField) (b := d'.truncField) v (fun k hk => h4 k (by simpa using hk))
  unfold wdm
  dsimp only
  rw [h5, s1, s2, s3, s4]
  split
  · rfl
  · split
    · rfl
    · split
      · rfl
      · split <;> rfl

/-- The default objects contain nothing but what the preset writes. -/
structure Clean (conc : List String) (d : Dicts) : Prop where
  concSub : SameBut conc d.concSub Kwargs.empty
  concField : SameBut conc d.concField Kwargs.empty
  truncSub : SameBut ["lens_cosmo"] d.truncSub Kwargs.empty
  truncField : SameBut ["lens_cosmo"] d.truncField Kwargs.empty
  infall : SameBut ["log_m_host"] d.infall Kwargs.empty

theorem clean_fresh (conc : List String) : Clean conc freshDicts :=
  ⟨SameBut.refl _, SameBut.refl _, SameBut.refl _, SameBut.refl _, SameBut.refl _⟩

theorem clean_call {A : Type} {f : A → Dicts → Except Err Request × Dicts} {conc : List String}
    (hf : ∀ a d, Frame conc (f a d).2 d ∧ (d.infall "m_host" = none → (f a d).2.infall "m_host" = none))
    {d : Dicts} (hd : Clean conc d) (c : A × Given) : Clean conc (call f d c).2 := by
  obtain ⟨a, g⟩ := c
  obtain ⟨fr, hm⟩ := hf a (g.pick d)
  have hi : g.infall = none → SameBut ["log_m_host"] (f a (g.pick d)).2.infall Kwargs.empty := by
    intro hg k hk
    have e : (g.pick d).infall = d.infall := by simp [Given.pick, hg]
    have m0 : d.infall "m_host" = none := hd.infall _ (by simp)
    by_cases hk2 : k = "m_host"
    · subst hk2; rw [hm (by rw [e]; exact m0)]; rfl
    · rw [fr.infall k (by simp at hk; simp [hk, hk2]), e]
      exact hd.infall k hk
  refine ⟨?_, ?_, ?_, ?_, ?_⟩
  · by_cases hg : g.concSub.isSome
    · simpa [call, Given.keep, hg] using hd.concSub
    · have e : (g.pick d).concSub = d.concSub := by
        have : g.concSub = none := by simpa using hg
        simp [Given.pick, this]
      have := fr.concSub; rw [e] at this
      simpa [call, Given.keep, hg] using this.trans hd.concSub
  · by_cases hg : g.concField.isSome
    · simpa [call, Given.keep, hg] using hd.concField
    · have e : (g.pick d).concField = d.concField := by
        have : g.concField = none := by simpa using hg
        simp [Given.pick, this]
      have := fr.concField; rw [e] at this
      simpa [call, Given.keep, hg] using this.trans hd.concField
  · by_cases hg : g.truncSub.isSome
    · simpa [call, Given.keep, hg] using hd.truncSub
    · have e : (g.pick d).truncSub = d.truncSub := by
        have : g.truncSub = none := by simpa using hg
        simp [Given.pick, this]
      have := fr.truncSub; rw [e] at this
      simpa [call, Given.keep, hg] using this.trans hd.truncSub
  · by_cases hg : g.truncField.isSome
    · simpa [call, Given.keep, hg] using hd.truncField
    · have e : (g.pick d).truncField = d.truncField := by
        have : g.truncField = none := by simpa using hg
        simp [Given.pick, this]
      have := fr.truncField; rw [e] at this
      simpa [call, Given.keep, hg] using this.trans hd.truncField
  · by_cases hg : g.infall.isSome
    · simpa [call, Given.keep, hg] using hd.infall
    · have : g.infall = none := by simpa using hg
      simpa [call, Given.keep, hg] using hi this

theorem clean_history {A : Type} {f : A → Dicts → Except Err Request × Dicts} {conc : List String}
    (hf : ∀ a d, Frame conc (f a d).2 d ∧ (d.infall "m_host" = none → (f a d).2.infall "m_host" = none))
    (hist : List (A × Given)) : Clean conc (history f hist) := by
  have : ∀ (l : List (A × Given)) (d : Dicts), Clean conc d →
      Clean conc (l.foldl (fun d c => (call f d c).2) d) := by
    intro l
    induction l with
    | nil => intro d hd; exact hd
    | cons c l ih => intro d hd; exact ih _ (clean_call hf hd c)
  exact this hist _ (clean_fresh conc)

theorem pick_sameBut {conc : List String} {d : Dicts} (hd : Clean conc d) (g : Given) :
    SameBut conc (g.pick d).concSub (g.pick freshDicts).concSub ∧
    SameBut conc (g.pick d).concField (g.pick freshDicts).concField ∧
    SameBut ["lens_cosmo"] (g.pick d).truncSub (g.pick freshDicts).truncSub ∧
    SameBut ["lens_cosmo"] (g.pick d).truncField (g.pick freshDicts).truncField ∧
    SameBut ["log_m_host"] (g.pick d).infall (g.pick freshDicts).infall := by
  refine ⟨?_, ?_, ?_, ?_, ?_⟩
  · cases h : g.concSub <;> simp only [Given.pick, h, Option.getD_none, Option.getD_some]
    exacts [hd.concSub, SameBut.refl _]
  · cases h : g.concField <;> simp only [Given.pick, h, Option.getD_none, Option.getD_some]
    exacts [hd.concField, SameBut.refl _]
  · cases h : g.truncSub <;> simp only [Given.pick, h, Option.getD_none, Option.getD_some]
    exacts [hd.truncSub, SameBut.refl _]
  · cases h : g.truncField <;> simp only [Given.pick, h, Option.getD_none, Option.getD_some]
    exacts [hd.truncField, SameBut.refl _]
  · cases h : g.infall <;> simp only [Given.pick, h, Option.getD_none, Option.getD_some]
    exacts [hd.infall, SameBut.refl _]

/-- Whatever calls of the cold dark matter preset came before, with default or given dictionaries, successful or not: a
call gives the request it would have given as the first one, if it gives its own infall dictionary or chooses an infall
model by a name other than `DIRECT_INFALL`. Missing: `DIRECT_INFALL` and infall classes with the default dictionary, where
the statement is false (`c46_direct_infall`). -/
theorem c46_cdm_partial (E : Env) (hist : List (CdmArgs × Given)) (a : CdmArgs) (g : Given)
    (h : g.infall.isSome = true ∨ Safe a.infall) :
    (call (cdm E) (history (cdm E) hist) (a, g)).1 = (call (cdm E) freshDicts (a, g)).1 := by
  have hc := clean_history (f := cdm E) (conc := ["cosmo"]) (fun a d => c46_writes E a d) hist
  obtain ⟨h1, h2, h3, h4, h5⟩ := pick_sameBut hc g
  refine cdm_congr E a h1 h2 h3 h4 ?_
  rcases h with h | h
  · obtain ⟨kw, hk⟩ := Option.isSome_iff_exists.mp h
    simp [Given.pick, hk]
  · exact setup_congr E _ _ _ h h5

/-- The same for warm dark matter. -/
theorem c46_wdm_partial (E : Env) (hist : List (WdmArgs × Given)) (a : WdmArgs) (g : Given)
    (h : g.infall.isSome = true ∨ Safe a.infall) :
    (call (wdm E) (history (wdm E) hist) (a, g)).1 = (call (wdm E) freshDicts (a, g)).1 := by
  have hc := clean_history (f := wdm E) (conc := ["cosmo", "log_mc"]) (fun a d => c46_writes_wdm E a d) hist
  obtain ⟨h1, h2, h3, h4, h5⟩ := pick_sameBut hc g
  refine wdm_congr E a h1 h2 h3 h4 ?_
  rcases h with h | h
  · obtain ⟨kw, hk⟩ := Option.isSome_iff_exists.mp h
    simp [Given.pick, hk]
  · exact setup_congr E _ _ _ h h5

/-- The default call after three others. -/
example (E : Env) : (call (cdm E) (history (cdm E) [({ zLens := 0.3, zSource := 2, logMHost := 12 }, {}),
      ({ zLens := 0.3, zSource := 2, infall := .name "DIRECT_INFALL" }, {}),
      ({ zLens := 0.3, zSource := 2 }, { concSub := some (Kwargs.empty.set "scatter" (.bool false)) })])
      ({ zLens := 0.5, zSource := 1.5 }, {})).1 = (call (cdm E) freshDicts ({ zLens := 0.5, zSource := 1.5 }, {})).1 :=
  c46_cdm_partial E _ _ _ (.inr (by simp [Safe]))

/-- A call with the default models. -/
noncomputable def plain (zl zs logM : ℝ) (model : String) : CdmArgs :=
  { zLens := zl, zSource := zs, logMHost := logM, infall := .name model }

/-- With the default models the preset succeeds as soon as its infall model does. -/
theorem plain_ok (E : Env) (zl zs logM : ℝ) (model : String) (d : Dicts)
    (hd1 : SameBut ["lens_cosmo"] d.truncSub Kwargs.empty) (hd2 : SameBut ["lens_cosmo"] d.truncField Kwargs.empty)
    (inf : Infall)
    (h : (setupInfall E zl (.name model) (writeHost (.name model) logM d.infall)).1 = .ok inf) :
    ∃ r, (cdm E (plain zl zs logM model) d).1 = .ok r ∧ r.infall = inf := by
  have e1 : d.truncSub.set "lens_cosmo" (.lensCosmo zl zs 0) =
      Kwargs.empty.set "lens_cosmo" (.lensCosmo zl zs 0) :=
    Kwargs.set_congr _ (fun k hk => hd1 k (by simpa using hk))
  have e2 : d.truncField.set "lens_cosmo" (.lensCosmo zl zs 0) =
      Kwargs.empty.set "lens_cosmo" (.lensCosmo zl zs 0) :=
    Kwargs.set_congr _ (fun k hk => hd2 k (by simpa using hk))
  have hc : ∀ k : Kwargs, construct (.named "ConcentrationLudlow")
      ((k.set "cosmo" (.cosmo 0)).set "scatter_dex" (.num 0.2)) =
        .ok (.named "ConcentrationLudlow", (k.set "cosmo" (.cosmo 0)).set "scatter_dex" (.num 0.2)) := by
    intro k; simp [construct, signature, Kwargs.set]
  have ht : ∀ v w : Val, construct (.named "TruncationGalacticus")
      ((Kwargs.empty.update (Kwargs.empty.set "lens_cosmo" v)).set "c_host" w) = .ok (.named "TruncationGalacticus",
        (Kwargs.empty.update (Kwargs.empty.set "lens_cosmo" v)).set "c_host" w) := by
    intro v w
    unfold construct
    rw [if_neg, if_neg, if_neg]
    · simp
    · simp [signature, Kwargs.set, Kwargs.update, Kwargs.empty]
    · rintro ⟨-, k, hk, hr, ho⟩
      simp [signature] at hr
      simp [Kwargs.set, Kwargs.update, Kwargs.empty, hr.1, hr.2] at hk
  have hf : ∀ v : Val, construct (.named "TruncationRN") (Kwargs.empty.update (Kwargs.empty.set "lens_cosmo" v)) =
      .ok (.named "TruncationRN", Kwargs.empty.update (Kwargs.empty.set "lens_cosmo" v)) := by
    intro v
    unfold construct
    rw [if_neg, if_neg, if_neg]
    · simp
    · simp [signature, Kwargs.set, Kwargs.update, Kwargs.empty]
    · rintro ⟨-, k, hk, hr, ho⟩
      simp [signature] at hr ho
      simp [Kwargs.set, Kwargs.update, Kwargs.empty, hr] at hk
  have hcc : ∀ x y : Kwargs, cdmConc E (plain zl zs logM model) (x.set "cosmo" (.cosmo 0)) (y.set "cosmo" (.cosmo 0)) =
      .ok ((.named "ConcentrationLudlow", (x.set "cosmo" (.cosmo 0)).set "scatter_dex" (.num 0.2)),
        (.named "ConcentrationLudlow", (y.set "cosmo" (.cosmo 0)).set "scatter_dex" (.num 0.2)), 6) := by
    intro x y
    have k1 : ∀ k : Kwargs, concentrationModel E (plain zl zs logM model).concSub (some k) =
        .ok (.named "ConcentrationLudlow", k) := fun _ => rfl
    have k2 : ∀ k : Kwargs, concentrationModel E (plain zl zs logM model).concField (some k) =
        .ok (.named "ConcentrationLudlow", k) := fun _ => rfl
    unfold cdmConc
    rw [k1, k2]
    dsimp only [bind, Except.bind]
    rw [hc, hc]
    rfl
  have htp : truncPart (plain zl zs logM model).truncSub (plain zl zs logM model).truncField
      (Kwargs.empty.set "lens_cosmo" (.lensCosmo zl zs 0)) (Kwargs.empty.set "lens_cosmo" (.lensCosmo zl zs 0)) 6 =
      .ok ((.named "TruncationGalacticus", (Kwargs.empty.update
        (Kwargs.empty.set "lens_cosmo" (.lensCosmo zl zs 0))).set "c_host" (.num 6)),
        (.named "TruncationRN", Kwargs.empty.update (Kwargs.empty.set "lens_cosmo" (.lensCosmo zl zs 0)))) := by
    have k1 : truncationModel (plain zl zs logM model).truncSub = .ok (.named "TruncationGalacticus", Kwargs.empty) := rfl
    have k2 : truncationModel (plain zl zs logM model).truncField = .ok (.named "TruncationRN", Kwargs.empty) := rfl
    have k3 : (plain zl zs logM model).truncSub = .name "TRUNCATION_GALACTICUS" := rfl
    unfold truncPart
    rw [k1, k2, k3]
    dsimp only [bind, Except.bind]
    rw [if_pos (by simp), ht]
    dsimp only
    rw [hf]
    rfl
  have hcdm : (cdm E (plain zl zs logM model) d).1 = cdmAssemble (plain zl zs logM model) inf
      (.named "ConcentrationLudlow", (d.concSub.set "cosmo" (.cosmo 0)).set "scatter_dex" (.num 0.2))
      (.named "ConcentrationLudlow", (d.concField.set "cosmo" (.cosmo 0)).set "scatter_dex" (.num 0.2)) 6
      (Kwargs.empty.set "lens_cosmo" (.lensCosmo zl zs 0)) (Kwargs.empty.set "lens_cosmo" (.lensCosmo zl zs 0)) := by
    have h' : (setupInfall E (plain zl zs logM model).zLens (plain zl zs logM model).infall
      (writeHost (plain zl zs logM model).infall (plain zl zs logM model).logMHost d.infall)).1 = .ok inf := h
    have hk : (plain zl zs logM model).kwargsCosmo = 0 := rfl
    have hz : (plain zl zs logM model).zLens = zl := rfl
    have hs : (plain zl zs logM model).zSource = zs := rfl
    unfold cdm
    rw [if_neg (by simp [geometryOk, plain])]
    dsimp only
    rw [h']
    dsimp only
    rw [if_neg (by simp [plain]), hk, hcc]
    dsimp only
    rw [hz, hs, e1, e2]
  rw [hcdm]
  unfold cdmAssemble
  rw [htp]
  exact ⟨_, rfl, rfl⟩

theorem cdm_infall (E : Env) (a : CdmArgs) (d : Dicts) (h : geometryOk a.geometryType) :
    (cdm E a d).2.infall = (setupInfall E a.zLens a.infall (writeHost a.infall a.logMHost d.infall)).2 := by
  unfold cdm
  rw [if_neg (not_not.mpr h)]
  dsimp only
  split
  · rfl
  · split
    · rfl
    · split <;> rfl

/-- The preset remembers: after a call with the host mass `10^l`, a call with `DIRECT_INFALL` that leaves everything to the
defaults uses `l`, whatever host mass it is given itself; as the first call it uses 13. -/
theorem c46_direct_infall (E : Env) (zl zs l l' : ℝ) :
    ∃ r r', (call (cdm E) (history (cdm E) [(plain zl zs l "HYBRID_INFALL", {})])
        (plain zl zs l' "DIRECT_INFALL", {})).1 = .ok r ∧
      (call (cdm E) freshDicts (plain zl zs l' "DIRECT_INFALL", {})).1 = .ok r' ∧
      r.infall = .direct zl l ∧ r'.infall = .direct zl 13 := by
  have hc := clean_history (f := cdm E) (conc := ["cosmo"]) (fun a d => c46_writes E a d)
    [(plain zl zs l "HYBRID_INFALL", {})]
  have hinf : (history (cdm E) [(plain zl zs l "HYBRID_INFALL", {})]).infall "log_m_host" = some (.num l) ∧
      (history (cdm E) [(plain zl zs l "HYBRID_INFALL", {})]).infall "m_host" = none := by
    have key : (setupInfall E zl (.name "HYBRID_INFALL")
        (writeHost (.name "HYBRID_INFALL") l Kwargs.empty)) =
        (.ok (.hybrid zl l), Kwargs.empty.set "log_m_host" (.num l)) := by
      simp [setupInfall, writeHost, convertHost, defaultHost, Kwargs.set, Kwargs.empty, Kwargs.num]
    have e : (history (cdm E) [(plain zl zs l "HYBRID_INFALL", {})]).infall = Kwargs.empty.set "log_m_host" (.num l) := by
      have e1 : (history (cdm E) [(plain zl zs l "HYBRID_INFALL", {})]).infall =
          (cdm E (plain zl zs l "HYBRID_INFALL") freshDicts).2.infall := rfl
      rw [e1, cdm_infall E _ _ (by simp [geometryOk, plain])]
      exact congrArg Prod.snd key
    rw [e]
    exact ⟨by simp [Kwargs.set], by simp [Kwargs.set, Kwargs.empty]⟩
  obtain ⟨r, h1, h2⟩ := plain_ok E zl zs l' "DIRECT_INFALL" _ hc.truncSub hc.truncField (.direct zl l) (by
    simp [setupInfall, writeHost, convertHost, defaultHost, Kwargs.num, hinf.1, hinf.2])
  obtain ⟨r', h1', h2'⟩ := plain_ok E zl zs l' "DIRECT_INFALL" freshDicts
    (SameBut.refl _) (SameBut.refl _) (.direct zl 13) (by
    simp [setupInfall, writeHost, convertHost, defaultHost, Kwargs.num, freshDicts, Kwargs.empty, Kwargs.set]
    norm_num)
  exact ⟨r, r', h1, h1', h2, h2'⟩

/-- A caller's dictionary changes its meaning: with `{'m_host': m}` the first call takes the host mass of the infall model
from the dictionary; when the same dictionary is given again, it takes it from the argument `log_m_host`. -/
theorem c46_caller_dictionary (E : Env) (zl zs l m : ℝ) (d : Dicts)
    (hd : d = { freshDicts with infall := d.infall }) (hi : d.infall = Kwargs.empty.set "m_host" (.num m)) :
    ∃ r r', (cdm E (plain zl zs l "HYBRID_INFALL") d).1 = .ok r ∧
      (cdm E (plain zl zs l "HYBRID_INFALL") (cdm E (plain zl zs l "HYBRID_INFALL") d).2).1 = .ok r' ∧
      r.infall = .hybrid zl (Real.logb 10 m) ∧ r'.infall = .hybrid zl l := by
  have ht1 : d.truncSub = Kwargs.empty := by rw [hd]; rfl
  have ht2 : d.truncField = Kwargs.empty := by rw [hd]; rfl
  have hs := c46_writes E (plain zl zs l "HYBRID_INFALL") d
  have f1 := hs.1.truncSub
  have f2 := hs.1.truncField
  rw [ht1] at f1
  rw [ht2] at f2
  have key : setupInfall E zl (.name "HYBRID_INFALL") (writeHost (.name "HYBRID_INFALL") l d.infall) =
      (.ok (.hybrid zl (Real.logb 10 m)), ((d.infall.set "log_m_host" (.num l)).set "log_m_host"
        (.num (Real.logb 10 m))).del "m_host") := by
    rw [hi]
    simp [setupInfall, writeHost, convertHost, defaultHost, Kwargs.set, Kwargs.del, Kwargs.num]
  have hinf := cdm_infall E (plain zl zs l "HYBRID_INFALL") d (by simp [geometryOk, plain])
  have hm : (cdm E (plain zl zs l "HYBRID_INFALL") d).2.infall "m_host" = none := by
    rw [hinf]
    exact (congrFun (congrArg Prod.snd key) "m_host").trans (by simp [Kwargs.del])
  obtain ⟨r, h1, h2⟩ := plain_ok E zl zs l "HYBRID_INFALL" d (by rw [ht1]; exact SameBut.refl _)
    (by rw [ht2]; exact SameBut.refl _) _ (congrArg Prod.fst key)
  obtain ⟨r', h1', h2'⟩ := plain_ok E zl zs l "HYBRID_INFALL" (cdm E (plain zl zs l "HYBRID_INFALL") d).2 f1 f2
    (.hybrid zl l) (by
      simp [setupInfall, writeHost, convertHost, defaultHost, Kwargs.set, Kwargs.num, hm])
  exact ⟨r, r', h1, h1', h2, h2'⟩

end PyHalo.Props
