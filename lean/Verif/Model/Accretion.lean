import Verif.Model.Numpy
import Mathlib.Analysis.SpecialFunctions.Log.Base

/-!
# Model of `pyHalo/Halos/accretion.py` and of `LensCosmo.setup_infall_model`

`ndtr` and `ndtri` (scipy: standard normal distribution function and its inverse) are parameters.
A call of `numpy.random.uniform(a, b)` is `a + (b - a) * u` with a variate `u` in `[0, 1)`.
-/

namespace PyHalo

/-- scipy's `ndtr` and `ndtri`. Used in `accretion.py` 53-54, 118-119, 194-195, 307-308. -/
structure NormalI where
  ndtr : ℝ → ℝ
  ndtri : ℝ → ℝ

/-- The six fitted numbers of an infall class. `accretion.py` 69-91, 134-156, 210-232, 278-294, 346-406. -/
structure InfallCoeffs where
  aMean : ℝ
  bMean : ℝ
  cMean : ℝ
  aStd : ℝ
  bStd : ℝ
  cStd : ℝ

/-- `InfallDistributionHybrid`, `accretion.py` 75-77, 89-91. -/
noncomputable def hybridCoeffs : InfallCoeffs :=
  ⟨3.35549949, 3.20546995, -2.91075587, 1.97880156, 4.17390702, -2.14428416⟩

/-- `InfallDistributionDirect`, `accretion.py` 139-141, 153-155. -/
noncomputable def directCoeffs : InfallCoeffs :=
  ⟨3.3064042, 4.528511, -3.84346439, 1.94929171, 4.91504583, -2.4187402⟩

/-- `InfallDistributionClusterDirect`, `accretion.py` 215-217, 229-231. -/
noncomputable def clusterCoeffs : InfallCoeffs :=
  ⟨2.05705664, 9.43229827, -4.69408104, 1.60922533, 9.45120467, -2.5087969⟩

/-- `InfallDistributionDirectMilkyWay30kpc`, `accretion.py` 346-364. -/
noncomputable def mw30Coeffs : InfallCoeffs := ⟨3.2, -3, -3, 1.8, 2.0, -2.6⟩

/-- `InfallDistributionDirectMilkyWay50kpc`, `accretion.py` 366-384. -/
noncomputable def mw50Coeffs : InfallCoeffs := ⟨2.7, -2.0, -3.0, 1.8, 2.0, -2.6⟩

/-- `InfallDistributionDirectMilkyWay200kpc`, `accretion.py` 386-404. -/
noncomputable def mw200Coeffs : InfallCoeffs := ⟨0.5, 2.04, -11.3861, 2.07127, 2.22591, -2.619518⟩

/-- `_mass_ratio_in_bounds`, `accretion.py` 55-64 (the same lines in the other classes). -/
noncomputable def massRatioInBounds (q : ℝ) : ℝ :=
  min ((10 : ℝ) ^ (-0.5 : ℝ)) (max ((10 : ℝ) ^ (-5.0 : ℝ)) q)

/-- `z_inf_to_z_host_mean` and `z_inf_to_z_host_std`, `accretion.py` 66-92: the formula
`a / (1 + b * (-log10(massRatio)) ** c)`. -/
noncomputable def infallFit (a b c q : ℝ) : ℝ := a / (1 + b * (-Real.logb 10 q) ^ c)

/-- `__call__` of the truncated-normal classes, `accretion.py` 39-53 (the same lines in the other
classes). -/
noncomputable def truncNormalInfall (N : NormalI) (k : InfallCoeffs) (zLens mHost mSub u : ℝ) : ℝ :=
  let q := massRatioInBounds (mSub / mHost)
  let mu := infallFit k.aMean k.bMean k.cMean q
  let sig := infallFit k.aStd k.bStd k.cStd q
  let a := (0 - mu) / sig
  let b := (15 - mu) / sig
  let u' := N.ndtr a + (N.ndtr b - N.ndtr a) * u
  let z := mu + sig * N.ndtri u'
  zLens + z

/-- The histogram of `InfallDistributionGalacticus2024`, `accretion.py` 13-19. -/
def galacticusCounts : List ℝ :=
  [50, 93, 125, 180, 175, 144, 120, 117, 97, 82, 52, 51, 35, 20, 9, 4, 4, 0, 1, 1]

/-- The redshifts of the histogram, `accretion.py` 15-19. -/
noncomputable def galacticusZ : List ℝ :=
  ([0.53836189, 1.37376234, 2.2091628, 3.04456325, 3.87996371, 4.71536416, 5.55076461, 6.38616507,
    7.22156552, 8.05696598, 8.89236643, 9.72776689, 10.56316734, 11.39856779, 12.23396825,
    13.0693687, 13.90476916, 14.74016961, 15.57557007, 16.41097052] : List ℝ).map (· - 0.5)

/-- The normalised cumulative counts, `accretion.py` 20-21 (`numpy.max` of a cumulative sum of
non-negative numbers is its last entry). -/
noncomputable def galacticusCdf : List ℝ :=
  (Np.cumsum galacticusCounts).map (· / (Np.cumsum galacticusCounts).getLast?.getD 0)

/-- `InfallDistributionGalacticus2024.__call__`, `accretion.py` 20-29. -/
noncomputable def galacticusInfall (zLens u : ℝ) : Except Err ℝ := do
  let lo := galacticusCdf.head?.getD 0
  let hi := galacticusCdf.getLast?.getD 0
  let z ← Np.interp1d galacticusCdf galacticusZ (lo + (hi - lo) * u)
  pure (zLens + z)

/-- The infall models that can be installed in a `LensCosmo`. `custom` is an object made from a
class supplied by the user. `lens_cosmo.py` 75-125. -/
inductive InfallModel
  | hybrid (zLens mHost : ℝ)
  | direct (zLens mHost : ℝ)
  | galacticus (zLens : ℝ)
  | cluster (zLens mHost : ℝ)
  | atZlens (zLens : ℝ)
  | zero
  | custom (call : ℝ → ℝ → Except Err ℝ)

/-- `InfallDistributionClusterDirect.__init__`, `accretion.py` 173-182. -/
noncomputable def mkCluster (zLens logM : ℝ) : Except Err InfallModel :=
  if logM > 15.0 ∨ logM < 14.0 then
    .error (.valueError "infall redshift distribution for cluster-mass halos only valid")
  else .ok (.cluster zLens ((10 : ℝ) ^ logM))

/-- `self._z_infall_model(m_sub)` with variate `u`. `lens_cosmo.py` 127-138. -/
noncomputable def InfallModel.call (N : NormalI) (m : InfallModel) (mSub u : ℝ) : Except Err ℝ :=
  match m with
  | .hybrid z M => .ok (truncNormalInfall N hybridCoeffs z M mSub u)
  | .direct z M => .ok (truncNormalInfall N directCoeffs z M mSub u)
  | .galacticus z => galacticusInfall z u
  | .cluster z M => .ok (truncNormalInfall N clusterCoeffs z M mSub u)
  | .atZlens z => .ok z
  | .zero => .ok 0
  | .custom f => f mSub u

/-- The keyword dictionary `kwargs_infall_model` as far as the code reads it. `lens_cosmo.py` 75-125. -/
structure InfallKwargs where
  mHost : Option ℝ
  logMHost : Option ℝ

/-- The argument `infall_redshift_model`: a string or something that is called like a class. `lens_cosmo.py` 75-125. -/
inductive InfallSpec
  | name (s : String)
  | cls (mk : ℝ → InfallKwargs → Except Err InfallModel)

/-- The conversion of `m_host` to `log_m_host`, `lens_cosmo.py` 92-94 and 106-108. -/
noncomputable def InfallKwargs.convert (kw : InfallKwargs) : InfallKwargs :=
  match kw.mHost with
  | some m => { mHost := none, logMHost := some (Real.logb 10 m) }
  | none => kw

/-- The default of `log_m_host`, `lens_cosmo.py` 95-98. -/
noncomputable def InfallKwargs.default13 (kw : InfallKwargs) : InfallKwargs :=
  match kw.logMHost with
  | some _ => kw
  | none => { kw with logMHost := some 13.0 }

/-- `kwargs_infall_model['log_m_host']`. `lens_cosmo.py` 75-125. -/
def InfallKwargs.getLog (kw : InfallKwargs) : Except Err ℝ :=
  match kw.logMHost with
  | some l => .ok l
  | none => .error (.keyError "log_m_host")

/-- `setup_infall_model`, `lens_cosmo.py` 75-125: the model and the dictionary as the caller sees it
afterwards. A string is not callable, so the `try` of the last branch always fails for one. -/
noncomputable def setupInfallModel (zLens : ℝ) (spec : InfallSpec) (kw : InfallKwargs) :
    Except Err (InfallModel × InfallKwargs) :=
  match spec with
  | .name s =>
    let kw1 := if s = "DIRECT_INFALL" ∨ s = "HYBRID_INFALL" then kw.convert.default13 else kw
    if s = "HYBRID_INFALL" then do
      let l ← kw1.getLog
      pure (.hybrid zLens ((10 : ℝ) ^ l), kw1)
    else if s = "DIRECT_INFALL" then do
      let l ← kw1.getLog
      pure (.direct zLens ((10 : ℝ) ^ l), kw1)
    else if s = "GALACTICUS_2024" then .ok (.galacticus zLens, kw1)
    else if s = "DIRECT_INFALL_CLUSTER" then do
      let kw2 := kw1.convert
      let l ← kw2.getLog
      let m ← mkCluster zLens l
      pure (m, kw2)
    else if s = "INFALL_ZLENS" then .ok (.atZlens zLens, kw1)
    else if s = "INFALL_0" then .ok (.zero, kw1)
    else .error (.exception (s ++ " not a valid infall redshift model."))
  | .cls mk =>
    match mk zLens kw with
    | .ok m => .ok (m, kw)
    | .error _ => .error (.exception "infall_time_model must be either a class, or a string")

/-- `z_accreted_from_zlens`, `lens_cosmo.py` 127-138; `none` is a `LensCosmo` built without an
infall model. -/
noncomputable def zAccreted (N : NormalI) (m : Option InfallModel) (mSub u : ℝ) : Except Err ℝ :=
  match m with
  | some m => m.call N mSub u
  | none => .error (.exception "must set the infall redshift model before calculating accretion redshift")

end PyHalo
