import Verif.Model.Numpy
import Mathlib.Analysis.SpecialFunctions.Log.Basic
import Mathlib.Analysis.SpecialFunctions.Exp

/-!
# Model of `pyHalo/Rendering/MassFunctions/`

Random numbers are inputs: a Poisson count is a natural number, `np.random.uniform(0, 1, n)` and
`np.random.rand(n)` are the first `n` entries of a stream `ℕ → ℝ` with values in `[0, 1)`.
-/

namespace PyHalo

/-- `integrate_power_law_analytic`, `MassFunctions/util.py` 5-20. -/
noncomputable def integratePowerLaw (norm mLow mHigh n index : ℝ) : ℝ :=
  let factor := n + 1 + index
  let integral := if factor = 0 then Real.log (mHigh / mLow)
    else (mHigh ^ factor - mLow ^ factor) / factor
  norm * integral

/-- `_PowerLawBase`, `mass_function_base.py` 8-30 (constructor arguments). -/
structure PowerLaw where
  logMlow : ℝ
  logMhigh : ℝ
  index : ℝ
  drawPoisson : Bool
  norm : ℝ

namespace PowerLaw

/-- `n_mean` 23-28. File: `MassFunctions/mass_function_base.py`. -/
noncomputable def nMean (p : PowerLaw) : ℝ :=
  if p.logMlow ≥ p.logMhigh then 0
  else integratePowerLaw p.norm ((10 : ℝ) ^ p.logMlow) ((10 : ℝ) ^ p.logMhigh) 0 p.index

/-- `first_moment` 23-30. File: `MassFunctions/mass_function_base.py`. -/
noncomputable def firstMoment (p : PowerLaw) : ℝ :=
  if p.logMlow ≥ p.logMhigh then 0
  else integratePowerLaw p.norm ((10 : ℝ) ^ p.logMlow) ((10 : ℝ) ^ p.logMhigh) 1 p.index

/-- `evaluate` 32-38. File: `MassFunctions/mass_function_base.py`. -/
noncomputable def evaluate (p : PowerLaw) (m : ℝ) : ℝ := p.norm * m ^ p.index

/-- The number of draws 48-51.  `np.random.poisson` refuses a negative mean, and a negative size is
refused by `np.random.uniform`. File: `MassFunctions/mass_function_base.py`. -/
noncomputable def ndraw (p : PowerLaw) (poisson : ℕ) : Except Err ℕ :=
  if p.drawPoisson then
    (if p.nMean < 0 then .error (.valueError "lam < 0") else .ok poisson)
  else if Np.rint p.nMean < 0 then .error (.valueError "negative dimensions are not allowed")
  else .ok (Np.rint p.nMean).toNat

/-- The mass that belongs to the uniform variate `x`, 53-59. File: `MassFunctions/mass_function_base.py`. -/
noncomputable def invert (p : PowerLaw) (x : ℝ) : ℝ :=
  let mH := (10 : ℝ) ^ p.logMhigh
  let mL := (10 : ℝ) ^ p.logMlow
  if p.index = -1 then mL * Real.exp (Real.log (mH / mL) * x)
  else (x * (mH ^ (1 + p.index) - mL ^ (1 + p.index)) + mL ^ (1 + p.index)) ^ (1 + p.index)⁻¹

/-- `draw` 40-60. File: `MassFunctions/mass_function_base.py`. -/
noncomputable def draw (p : PowerLaw) (poisson : ℕ) (u : ℕ → ℝ) : Except Err (List ℝ) := do
  let n ← p.ndraw poisson
  pure ((List.range n).map fun i => p.invert (u i))

end PowerLaw

/-- `WDMPowerLaw._turnover`, `mass_function_base.py` 176-190. -/
noncomputable def turnoverWDM (logMc a b c m : ℝ) : ℝ :=
  (1 + a * ((10 : ℝ) ^ logMc / m) ^ b) ^ c

/-- `MixedWDMPowerLaw._turnover`, `mass_function_base.py` 214-231. -/
noncomputable def turnoverMixed (logMc a b c frac m : ℝ) : ℝ :=
  (frac + (1 - frac) * Real.sqrt ((1 + a * ((10 : ℝ) ^ logMc / m) ^ b) ^ c)) ^ (2 : ℕ)

/-- `_PowerLawTurnoverBase.draw` 102-113 and `WDMPowerLaw.draw` 163-174 of
`mass_function_base.py` (the same code): rejection
with a second stream `v`. -/
noncomputable def drawSuppressed (p : PowerLaw) (turnover : ℝ → ℝ) (poisson : ℕ) (u v : ℕ → ℝ) :
    Except Err (List ℝ) := do
  let m ← p.draw poisson u
  if m.length = 0 then pure m
  else do
    let factor := m.map turnover
    let rnd := (List.range m.length).map v
    let inds := Np.whereTrue (List.zipWith (fun a f => decide (a < f)) rnd factor)
    Np.gather m inds

/-- `integrate_power_law_quad`, `MassFunctions/util.py` 22-31: the integrand handed to
`scipy.integrate.quad`.  The quadrature itself is not modelled. -/
noncomputable def turnoverIntegrand (norm n index : ℝ) (turnover : ℝ → ℝ) (m : ℝ) : ℝ :=
  norm * m ^ (n + index) * turnover m

/-- `DeltaFunction.__init__`, `delta_function.py` 13-26. -/
structure DeltaFn where
  mass : ℝ
  volume : ℝ
  rho : ℝ
  drawPoisson : Bool

namespace DeltaFn
/-- `n_mean`, `delta_function.py` 25. -/
noncomputable def nMean (d : DeltaFn) : ℝ := d.rho * d.volume / d.mass
/-- `first_moment`, `delta_function.py` 26. -/
def firstMoment (d : DeltaFn) : ℝ := d.mass
/-- `draw`, `delta_function.py` 42-56. -/
noncomputable def draw (d : DeltaFn) (poisson : ℕ) : Except Err (List ℝ) :=
  if d.drawPoisson then
    (if d.nMean < 0 then .error (.valueError "lam < 0")
     else .ok (List.replicate poisson d.mass))
  else
    let n := Np.rint d.nMean
    if n > 0 then .ok (List.replicate n.toNat d.mass) else .ok []
end DeltaFn

/-- `Gaussian`, `gaussian.py` 12-24. -/
structure GaussianMF where
  n : ℝ
  mean : ℝ
  sigma : ℝ
  drawPoisson : Bool

namespace GaussianMF
/-- `first_moment`, `gaussian.py` 23. -/
noncomputable def firstMoment (g : GaussianMF) : ℝ :=
  (10 : ℝ) ^ (g.mean + g.sigma ^ 2 * Real.log 10 / 2)
/-- `draw`, `gaussian.py` 26-42; `nrm` is the stream of standard normal variates. -/
noncomputable def draw (g : GaussianMF) (poisson : ℕ) (nrm : ℕ → ℝ) : Except Err (List ℝ) :=
  if g.drawPoisson then
    (if g.n < 0 then .error (.valueError "lam < 0")
     else .ok ((List.range poisson).map fun i => (10 : ℝ) ^ (g.mean + g.sigma * nrm i)))
  else
    let n := Np.rint g.n
    if n > 0 then .ok ((List.range n.toNat).map fun i => (10 : ℝ) ^ (g.mean + g.sigma * nrm i))
    else .ok []
end GaussianMF

/-- `_supp_mscale`, `stucker.py` 54-66: `nan` (here `none`) outside the allowed signs. -/
noncomputable def suppMscale (a b c frac : ℝ) : Option ℝ :=
  if a < 0 ∨ b < 0 ∨ c > 0 then none else some (a / (frac ^ (1 / c) - 1) ^ (1 / b))

/-- `beta_from_slope`, `stucker.py` 4-15. -/
noncomputable def betaFromSlope (slope gamma : ℝ) : ℝ :=
  let fabg := -1 + (0.5 : ℝ) ^ (-1 / gamma);
  -slope * (1 + fabg) / fabg / gamma

end PyHalo
