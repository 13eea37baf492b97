import Verif.Model.Collapsed
import Verif.Lemmas.Rounding
import Mathlib.Tactic.FieldSimp
import Mathlib.Tactic.Linarith
import Mathlib.Tactic.LinearCombination
import Mathlib.Tactic.NormNum
import Mathlib.Tactic.Positivity

/-!
# C45: core-collapsed composite halos
-/

namespace PyHalo
namespace Spec
namespace Collapsed
open PyHalo.Collapsed

/-- Masses of lenstronomy's profiles are proportional to their amplitudes. -/
structure Linear (L : Lenstronomy) : Prop where
  rho : ∀ k Rs, L.alpha2rho0 k Rs = k * L.alpha2rho0 1 Rs
  env : ∀ r Rs k rho tau, L.envMass r Rs (k * rho) tau = k * L.envMass r Rs rho tau
  cen : ∀ r Rs k g g', L.cenMass r Rs k g g' = k * L.cenMass r Rs 1 g g'

/-- Solar masses per square arcsecond at critical density. -/
noncomputable def sigmaArcsec (I : Inst) : ℝ := I.sigmaCritMpc * (I.kpcPerArcsec / 1000) ^ 2

/-- Mass (solar masses) of the envelope with amplitude `alpha` within `r` kpc. -/
noncomputable def envelope (L : Lenstronomy) (I : Inst) (alpha r : ℝ) : ℝ :=
  sigmaArcsec I * L.envMass (r / I.kpcPerArcsec) (I.rs / I.kpcPerArcsec) (L.alpha2rho0 alpha (I.rs / I.kpcPerArcsec))
    (I.rtKpc / I.rs)

/-- Mass (solar masses) of the centre with amplitude `alpha` within `r` kpc. -/
noncomputable def centre (L : Lenstronomy) (I : Inst) (alpha r : ℝ) : ℝ :=
  sigmaArcsec I * L.cenMass (r / I.kpcPerArcsec) (I.rsInnerKpc / I.kpcPerArcsec) alpha I.gammaInner I.gammaOuter

/-- Both components together hold the target masses within the two radii. -/
def Conserves (L : Lenstronomy) (I : Inst) (env cen : ℝ) : Prop :=
  envelope L I env I.rMatchKpc + centre L I cen I.rMatchKpc = I.mTargetR ∧
  envelope L I env I.r200 + centre L I cen I.r200 = I.mTargetR200

end Collapsed
end Spec

namespace Props
open scoped Classical
open PyHalo.Collapsed PyHalo.Spec.Collapsed
open HaloObj (round4 round10)

theorem envelope_eq {L : Lenstronomy} (hL : Linear L) {I : Inst} (hk : 0 < I.kpcPerArcsec) (alpha r : ℝ) :
    envelope L I alpha r = sigmaCritArcsec I * (alpha * unitEnvelope L I r) := by
  have : I.rtKpc / I.kpcPerArcsec / (I.rs / I.kpcPerArcsec) = I.rtKpc / I.rs := by field_simp
  simp only [envelope, unitEnvelope, sigmaArcsec, sigmaCritArcsec, this]
  rw [hL.rho, hL.env]
  ring

theorem centre_eq {L : Lenstronomy} (hL : Linear L) {I : Inst} (alpha r : ℝ) :
    centre L I alpha r = sigmaCritArcsec I * (alpha * unitCentre L I r) := by
  simp only [centre, unitCentre, sigmaArcsec, sigmaCritArcsec]
  rw [hL.cen]
  ring

theorem solve_spec {L : Lenstronomy} (hL : Linear L) {I : Inst} (hk : 0 < I.kpcPerArcsec) (hs : 0 < I.sigmaCritMpc)
    {env cen : ℝ} : solve L I = .ok (env, cen) ↔
      (unitEnvelope L I I.rMatchKpc * unitCentre L I I.r200 - unitCentre L I I.rMatchKpc * unitEnvelope L I I.r200 ≠ 0) ∧
      0 ≤ env ∧ 0 ≤ cen ∧ Conserves L I env cen := by
  have hsig : sigmaCritArcsec I ≠ 0 := by unfold sigmaCritArcsec; positivity
  unfold Conserves
  rw [envelope_eq hL hk, envelope_eq hL hk, centre_eq hL, centre_eq hL]
  unfold solve
  generalize sigmaCritArcsec I = S at *
  generalize unitEnvelope L I I.rMatchKpc = a at *
  generalize unitCentre L I I.rMatchKpc = b at *
  generalize unitEnvelope L I I.r200 = c at *
  generalize unitCentre L I I.r200 = d at *
  generalize I.mTargetR = m at *
  generalize I.mTargetR200 = m' at *
  dsimp only
  by_cases hdet : a * d - b * c = 0
  · rw [if_pos hdet]
    constructor
    · intro h; cases h
    · rintro ⟨h, -⟩; exact absurd hdet h
  · rw [if_neg hdet]
    split
    · rename_i hneg
      constructor
      · intro h; cases h
      · rintro ⟨-, h1, h2, h3, h4⟩
        exfalso
        have e0 : (1 / (a * d - b * c) * d * m + 1 / (a * d - b * c) * -b * m') / S = env := by
          rw [← h3, ← h4]; field_simp; ring
        have e1 : (1 / (a * d - b * c) * -c * m + 1 / (a * d - b * c) * a * m') / S = cen := by
          rw [← h3, ← h4]; field_simp; ring
        rw [e0, e1] at hneg
        rcases hneg with h | h <;> linarith
    · rename_i hneg
      push Not at hneg
      simp only [Except.ok.injEq, Prod.mk.injEq]
      constructor
      · rintro ⟨rfl, rfl⟩
        refine ⟨hdet, hneg.2, hneg.1, ?_, ?_⟩
        · field_simp; ring
        · field_simp; ring
      · rintro ⟨-, h1, h2, h3, h4⟩
        constructor
        · rw [← h3, ← h4]; field_simp; ring
        · rw [← h3, ← h4]; field_simp; ring

/-- C45. If the construction succeeds both amplitudes are non-negative and the composite halo holds the target masses
within the matching radius and the virial radius. -/
theorem c45_mass {L : Lenstronomy} (hL : Linear L) {I : Inst} (hk : 0 < I.kpcPerArcsec) (hs : 0 < I.sigmaCritMpc)
    {p : Args} (h : profileArgs L I = .ok p) :
    0 ≤ p.alphaEnvelope ∧ 0 ≤ p.alphaCentre ∧
    envelope L I p.alphaEnvelope I.rMatchKpc + centre L I p.alphaCentre I.rMatchKpc = I.mTargetR ∧
    envelope L I p.alphaEnvelope I.r200 + centre L I p.alphaCentre I.r200 = I.mTargetR200 ∧
    p.RsAngle * I.kpcPerArcsec = I.rs ∧ p.RsAngleInner * I.kpcPerArcsec = I.rsInnerKpc ∧
    p.rTruncAngle * I.kpcPerArcsec = I.rtKpc ∧ p.gammaInner = I.gammaInner ∧ p.gammaOuter = I.gammaOuter := by
  unfold profileArgs at h
  cases hsol : solve L I with
  | error e => rw [hsol] at h; cases h
  | ok r =>
    obtain ⟨env, cen⟩ := r
    rw [hsol] at h
    obtain ⟨-, h1, h2, h3, h4⟩ := (solve_spec hL hk hs).mp hsol
    cases Except.ok.inj h
    exact ⟨h1, h2, h3, h4, by field_simp, by field_simp, by field_simp, rfl, rfl⟩

/-- C45. If the mass profiles of the two components are not proportional at the two radii, then non-negative amplitudes
that conserve the masses are found whenever they exist (they are unique), and an exception is raised otherwise. -/
theorem c45_found {L : Lenstronomy} (hL : Linear L) {I : Inst} (hk : 0 < I.kpcPerArcsec) (hs : 0 < I.sigmaCritMpc)
    (hdet : unitEnvelope L I I.rMatchKpc * unitCentre L I I.r200 ≠ unitCentre L I I.rMatchKpc * unitEnvelope L I I.r200) :
    (∀ env cen, 0 ≤ env → 0 ≤ cen → Conserves L I env cen →
      ∃ p, profileArgs L I = .ok p ∧ p.alphaEnvelope = env ∧ p.alphaCentre = cen) ∧
    ((¬ ∃ env cen, 0 ≤ env ∧ 0 ≤ cen ∧ Conserves L I env cen) → ∃ e, profileArgs L I = .error e) := by
  constructor
  · intro env cen h1 h2 h3
    have := (solve_spec hL hk hs).mpr ⟨sub_ne_zero.mpr hdet, h1, h2, h3⟩
    simp only [profileArgs, this]
    exact ⟨_, rfl, rfl, rfl⟩
  · intro h
    cases hsol : solve L I with
    | error e => exact ⟨e, by simp only [profileArgs, hsol]; rfl⟩
    | ok r =>
      obtain ⟨env, cen⟩ := r
      obtain ⟨-, h1, h2, h3⟩ := (solve_spec hL hk hs).mp hsol
      exact absurd ⟨env, cen, h1, h2, h3⟩ h

/-- C45. Proportional mass profiles are refused. -/
theorem c45_singular (L : Lenstronomy) (I : Inst)
    (hdet : unitEnvelope L I I.rMatchKpc * unitCentre L I I.r200 = unitCentre L I I.rMatchKpc * unitEnvelope L I I.r200) :
    ∃ e, profileArgs L I = .error e ∧ profileArgsBH L I = .error e := by
  have : solve L I = .error .assertionError := by
    unfold solve
    rw [if_pos (sub_eq_zero.mpr hdet)]
  exact ⟨_, by simp only [profileArgs, this]; rfl, by simp only [profileArgsBH, this]; rfl⟩

/-- C45. With a black hole mass is not conserved. The point mass has the whole mass wanted inside the matching radius,
and the envelope comes on top of it: the composite exceeds the target by the mass of the envelope there. -/
theorem c45_black_hole {L : Lenstronomy} (hL : Linear L) {I : Inst} (hk : 0 < I.kpcPerArcsec) (hs : 0 < I.sigmaCritMpc)
    (hm : 0 ≤ I.mTargetR) (hf : 0 < I.pointFactor) {p : ArgsBH} (h : profileArgsBH L I = .ok p) :
    (p.thetaE / I.pointFactor) ^ 2 + envelope L I p.alphaEnvelope I.rMatchKpc
      = I.mTargetR + envelope L I p.alphaEnvelope I.rMatchKpc ∧
    (0 < p.alphaEnvelope → 0 < unitEnvelope L I I.rMatchKpc →
      I.mTargetR < (p.thetaE / I.pointFactor) ^ 2 + envelope L I p.alphaEnvelope I.rMatchKpc) := by
  unfold profileArgsBH at h
  cases hsol : solve L I with
  | error e => rw [hsol] at h; cases h
  | ok r =>
    obtain ⟨env, cen⟩ := r
    rw [hsol] at h
    cases Except.ok.inj h
    have e : (I.pointFactor * Real.sqrt I.mTargetR / I.pointFactor) ^ 2 = I.mTargetR := by
      rw [mul_div_cancel_left₀ _ hf.ne', Real.sq_sqrt hm]
    refine ⟨by rw [e], fun h1 h2 => ?_⟩
    rw [e, envelope_eq hL hk]
    have hsig : 0 < sigmaCritArcsec I := by unfold sigmaCritArcsec; positivity
    have : 0 < sigmaCritArcsec I * (env * unitEnvelope L I I.rMatchKpc) := by
      have : 0 < env := h1
      positivity
    dsimp only
    linarith

/-- States that reading can reach. -/
def Reached {A : Type} (compute : Except Err A) (j s : A → List Dict) (st : St A) : Prop :=
  (∀ p, st.args = some p → compute = .ok p) ∧
  (∀ l, st.lens = some l → ∃ p, compute = .ok p ∧ l = j p) ∧
  (∀ l, st.splitArgs = some l → ∃ p, compute = .ok p ∧ l = s p)

/-- Successive reads of the properties. -/
noncomputable def reads {A : Type} (rd : St A → Read → Except Err (List Dict × St A)) :
    St A → List Read → Except Err (List (List Dict))
  | _, [] => .ok []
  | st, r :: rs => do
    let (l, st) ← rd st r
    let ls ← reads rd st rs
    pure (l :: ls)

theorem readArgs_reached {A : Type} {compute : Except Err A} {j s : A → List Dict} {st : St A}
    (h : Reached compute j s st) {q : A} (hq : compute = .ok q) :
    ∃ st', readArgs compute st = .ok (q, st') ∧ Reached compute j s st' := by
  unfold readArgs
  cases ha : st.args with
  | some p =>
    have := h.1 p ha
    rw [hq] at this
    cases Except.ok.inj this
    exact ⟨st, rfl, h⟩
  | none =>
    rw [hq]
    exact ⟨_, rfl, fun p hp => by simp at hp; rw [hp], fun l hl => by have := h.2.1 l hl; rwa [hq] at this,
      fun l hl => by have := h.2.2 l hl; rwa [hq] at this⟩

/-- C45. Joint and separate parameters of a halo can be read in any order and any number of times, the answers are always
the same: those computed from the amplitudes of `c45_mass`. -/
theorem c45_reads {L : Lenstronomy} {I : Inst} {p : Args} (h : profileArgs L I = .ok p) (x y : ℝ) (rs : List Read) :
    reads (readProp L I x y) {} rs = .ok (rs.map fun r => match r with
      | .params => joint x y p
      | .split => split x y p) := by
  have key : ∀ (rs : List Read) (st : St Args), Reached (profileArgs L I) (joint x y) (split x y) st →
      reads (readProp L I x y) st rs = .ok (rs.map fun r => match r with
        | .params => joint x y p
        | .split => split x y p) := by
    intro rs
    induction rs with
    | nil => intro st _; rfl
    | cons r rs ih =>
      intro st hst
      have step : ∃ st', readProp L I x y st r = .ok ((match r with
          | .params => joint x y p
          | .split => split x y p), st') ∧ Reached (profileArgs L I) (joint x y) (split x y) st' := by
        obtain ⟨st', h1, h2⟩ := readArgs_reached hst h
        cases r with
        | params =>
          unfold readProp
          dsimp only
          cases hl : st.lens with
          | some l =>
            obtain ⟨q, hq, rfl⟩ := hst.2.1 l hl
            rw [h] at hq
            cases Except.ok.inj hq
            exact ⟨st, rfl, hst⟩
          | none =>
            rw [h1]
            refine ⟨_, rfl, h2.1, fun l hl => ?_, h2.2.2⟩
            simp at hl
            exact ⟨p, h, hl.symm⟩
        | split =>
          unfold readProp
          dsimp only
          cases hl : st.splitArgs with
          | some l =>
            obtain ⟨q, hq, rfl⟩ := hst.2.2 l hl
            rw [h] at hq
            cases Except.ok.inj hq
            exact ⟨st, rfl, hst⟩
          | none =>
            rw [h1]
            refine ⟨_, rfl, h2.1, h2.2.1, fun l hl => ?_⟩
            simp at hl
            exact ⟨p, h, hl.symm⟩
      obtain ⟨st', h1, h2⟩ := step
      simp only [reads, h1, List.map_cons]
      rw [show (Except.ok (_, st') >>= fun q : List Dict × St Args => reads (readProp L I x y) q.2 rs >>= fun ls =>
        pure (q.1 :: ls)) = (reads (readProp L I x y) st' rs >>= fun ls => pure (_ :: ls)) from rfl, ih st' h2]
      rfl
  refine key rs {} ⟨?_, ?_, ?_⟩ <;> intro _ hh <;> cases hh

/-- C45. Not so with a black hole: once the separate parameters were read, the joint ones are those dictionaries too,
and the deflection angle cannot be computed. The separate parameters cannot be used for the density either, because a
key is misspelt. -/
theorem c45_black_hole_reads {L : Lenstronomy} {I : Inst} {p : ArgsBH} (h : profileArgsBH L I = .ok p) (x y : ℝ) :
    reads (readBH L I x y) {} [.params, .split, .params] = .ok [jointBH x y p, splitBH x y p, splitBH x y p] ∧
    jointBH x y p ≠ splitBH x y p ∧
    (∃ v, deflectionKeysBH (jointBH x y p) = .ok v) ∧
    deflectionKeysBH (splitBH x y p) = .error (.keyError "Rs_outer") ∧
    densityKeys (splitBH x y p) = .error (.keyError "center_y") := by
  refine ⟨?_, ?_, ?_, ?_, ?_⟩
  · simp [reads, readBH, readArgs, h, bind, Except.bind, pure, Except.pure]
  · simp [jointBH, splitBH]
  · exact ⟨_, rfl⟩
  · rfl
  · rfl

/-- C45. The separate parameters of the other halos can be used. -/
theorem c45_density_keys (x y : ℝ) (p : Args) : densityKeys (split x y p) = .ok () := rfl

theorem abs_round10_sub (x : ℝ) : |round10 x - x| ≤ 1 / 2 / 10 ^ 10 := by
  have := Np.abs_rint_sub (10 ^ 10 * x)
  rw [round10, show ((Np.rint (10 ^ 10 * x) : ℤ) : ℝ) / 10 ^ 10 - x = ((Np.rint (10 ^ 10 * x) : ℝ) - 10 ^ 10 * x) / 10 ^ 10
    by field_simp, abs_div, abs_of_pos (show (0 : ℝ) < 10 ^ 10 by positivity)]
  gcongr

/-- C45. The amplitudes handed to lenstronomy are rounded to ten digits, by which the mass within any radius changes by no
more than half a unit of the last digit times the masses of the two components with amplitude one. -/
theorem c45_rounding {L : Lenstronomy} (hL : Linear L) {I : Inst} (hk : 0 < I.kpcPerArcsec) (hs : 0 < I.sigmaCritMpc)
    (p : Args) (x y : ℝ) : ∃ cen env : ℝ, (joint x y p).map (fun d => (d.lookup "alpha_Rs_inner", d.lookup "alpha_Rs_outer"))
        = [(some cen, some env)] ∧
      ∀ r, |(envelope L I env r + centre L I cen r) - (envelope L I p.alphaEnvelope r + centre L I p.alphaCentre r)|
        ≤ 1 / 2 / 10 ^ 10 * (|envelope L I 1 r| + |centre L I 1 r|) := by
  refine ⟨round10 p.alphaCentre, round10 p.alphaEnvelope, rfl, fun r => ?_⟩
  have hsig : 0 < sigmaCritArcsec I := by unfold sigmaCritArcsec; positivity
  rw [envelope_eq hL hk, envelope_eq hL hk, envelope_eq hL hk, centre_eq hL, centre_eq hL, centre_eq hL]
  have e : sigmaCritArcsec I * (round10 p.alphaEnvelope * unitEnvelope L I r) +
      sigmaCritArcsec I * (round10 p.alphaCentre * unitCentre L I r) -
      (sigmaCritArcsec I * (p.alphaEnvelope * unitEnvelope L I r) + sigmaCritArcsec I * (p.alphaCentre * unitCentre L I r))
      = (round10 p.alphaEnvelope - p.alphaEnvelope) * (sigmaCritArcsec I * (1 * unitEnvelope L I r)) +
        (round10 p.alphaCentre - p.alphaCentre) * (sigmaCritArcsec I * (1 * unitCentre L I r)) := by ring
  rw [e, mul_add]
  refine (abs_add_le _ _).trans ?_
  rw [abs_mul (round10 p.alphaEnvelope - p.alphaEnvelope), abs_mul (round10 p.alphaCentre - p.alphaCentre)]
  gcongr
  · exact abs_round10_sub _
  · exact abs_round10_sub _

/-- C45. The projected mass (`mass_2d`) is off by the square of the number of kiloparsecs per arcsecond: radii in kpc are
integrated and multiplied by the critical mass per square arcsecond. -/
theorem c45_projected_mass (I : Inst) (grid : List ℝ) (kappa : ℝ → ℝ) (rmax : ℝ) :
    mass2d I grid kappa rmax = I.kpcPerArcsec ^ 2 *
      (I.sigmaCritMpc / 10 ^ 6 * trapezoid ((grid.map (· * rmax)).map fun q => kappa q * (2 * Real.pi * q))
        (grid.map (· * rmax))) := by
  simp only [mass2d, ← mul_assoc]
  rw [show (1e-6 : ℝ) = 1 / 10 ^ 6 by norm_num]
  ring

/-- The rule is exact for a density that grows linearly with the radius. -/
theorem trapezoid_linear (k : ℝ) : ∀ (r₀ : ℝ) (r : List ℝ),
    trapezoid ((r₀ :: r).map fun q => k * q) (r₀ :: r) = k * (((r₀ :: r).getLast (by simp)) ^ 2 - r₀ ^ 2) / 2
  | r₀, [] => by simp [trapezoid]
  | r₀, r₁ :: r => by
    have ih := trapezoid_linear k r₁ r
    simp only [List.map_cons] at ih ⊢
    rw [trapezoid, ih, List.getLast_cons_cons]
    ring

/-- C45. For a constant convergence the projected mass is that factor times the mass of the annulus between the first and
the last radius of the grid. -/
theorem c45_projected_mass_constant (I : Inst) (u₀ : ℝ) (u : List ℝ) (k rmax : ℝ) :
    mass2d I (u₀ :: u) (fun _ => k) rmax = I.kpcPerArcsec ^ 2 *
      (I.sigmaCritMpc / 10 ^ 6 * k * (Real.pi * (((u₀ :: u).getLast (by simp)) * rmax) ^ 2 - Real.pi * (u₀ * rmax) ^ 2)) := by
  have h := trapezoid_linear (k * (2 * Real.pi)) (u₀ * rmax) (u.map (· * rmax))
  have e : (u₀ * rmax :: u.map (· * rmax)).getLast (by simp) = ((u₀ :: u).getLast (by simp)) * rmax := by
    exact List.getLast_map (f := (· * rmax)) (l := u₀ :: u) (by simp)
  rw [e] at h
  rw [c45_projected_mass]
  have e2 : (fun q : ℝ => k * (2 * Real.pi * q)) = fun q => k * (2 * Real.pi) * q := by funext q; ring
  rw [e2, List.map_cons, h]
  ring

theorem abs_round4_sub (x : ℝ) : |round4 x - x| ≤ 1 / 2 / 10 ^ 4 := by
  have := Np.abs_rint_sub (10000 * x)
  rw [round4, show ((Np.rint (10000 * x) : ℤ) : ℝ) / 10000 - x = ((Np.rint (10000 * x) : ℝ) - 10000 * x) / 10000
    by field_simp, abs_div, abs_of_pos (show (0 : ℝ) < 10000 by norm_num), show (10 : ℝ) ^ 4 = 10000 by norm_num]
  gcongr

/-- The dictionary has the key `k`, with the value `v` up to half a unit of the `n`-th digit. -/
def Has (d : Dict) (k : String) (v : ℝ) (n : ℕ) : Prop := ∃ u, d.lookup k = some u ∧ |u - v| ≤ 1 / 2 / 10 ^ n

theorem has10 {d : Dict} {k : String} {v : ℝ} (h : d.lookup k = some (round10 v)) : Has d k v 10 :=
  ⟨_, h, abs_round10_sub v⟩

theorem has4 {d : Dict} {k : String} {v : ℝ} (h : d.lookup k = some (round4 v)) : Has d k v 4 :=
  ⟨_, h, abs_round4_sub v⟩

/-- C45. The joint parameters are one dictionary, the separate ones two (centre first); they have the position to four
digits, the amplitudes and the radii of `c45_mass` to ten digits, and the slopes exactly. -/
theorem c45_parameters (x y : ℝ) (p : Args) :
    (∃ d, joint x y p = [d] ∧ Has d "center_x" x 4 ∧ Has d "center_y" y 4 ∧ Has d "Rs_inner" p.RsAngleInner 10 ∧
      Has d "Rs_outer" p.RsAngle 10 ∧ Has d "alpha_Rs_inner" p.alphaCentre 10 ∧ Has d "alpha_Rs_outer" p.alphaEnvelope 10 ∧
      Has d "r_trunc" p.rTruncAngle 10 ∧ d.lookup "gamma_inner" = some p.gammaInner ∧
      d.lookup "gamma_outer" = some p.gammaOuter) ∧
    (∃ d e, split x y p = [d, e] ∧
      (Has d "center_x" x 4 ∧ Has d "center_y" y 4 ∧ Has d "Rs" p.RsAngleInner 10 ∧ Has d "alpha_Rs" p.alphaCentre 10 ∧
        d.lookup "gamma_inner" = some p.gammaInner ∧ d.lookup "gamma_outer" = some p.gammaOuter) ∧
      Has e "center_x" x 4 ∧ Has e "center_y" y 4 ∧ Has e "Rs" p.RsAngle 10 ∧ Has e "alpha_Rs" p.alphaEnvelope 10 ∧
        Has e "r_trunc" p.rTruncAngle 10) :=
  ⟨⟨_, rfl, has4 rfl, has4 rfl, has10 rfl, has10 rfl, has10 rfl, has10 rfl, has10 rfl, rfl, rfl⟩,
    ⟨_, _, rfl, ⟨has4 rfl, has4 rfl, has10 rfl, has10 rfl, rfl, rfl⟩, has4 rfl, has4 rfl, has10 rfl, has10 rfl, has10 rfl⟩⟩

/-- C45. The same with a black hole, whose separate parameters lack a `center_y` of the point mass. -/
theorem c45_parameters_black_hole (x y : ℝ) (p : ArgsBH) :
    (∃ d, jointBH x y p = [d] ∧ Has d "center_x" x 4 ∧ Has d "center_y" y 4 ∧ Has d "theta_E_inner" p.thetaE 10 ∧
      Has d "Rs_outer" p.RsAngle 10 ∧ Has d "alpha_Rs_outer" p.alphaEnvelope 10 ∧ Has d "r_trunc" p.rTruncAngle 10) ∧
    (∃ d e, splitBH x y p = [d, e] ∧
      (Has d "center_x" x 4 ∧ d.lookup "center_y" = none ∧ Has d "theta_E" p.thetaE 10) ∧
      Has e "center_x" x 4 ∧ Has e "center_y" y 4 ∧ Has e "Rs" p.RsAngle 10 ∧ Has e "alpha_Rs" p.alphaEnvelope 10 ∧
        Has e "r_trunc" p.rTruncAngle 10) :=
  ⟨⟨_, rfl, has4 rfl, has4 rfl, has10 rfl, has10 rfl, has10 rfl, has10 rfl⟩,
    ⟨_, _, rfl, ⟨has4 rfl, rfl, has10 rfl⟩, has4 rfl, has4 rfl, has10 rfl, has10 rfl, has10 rfl⟩⟩

/-- C45. The factor for densities converts masses per cubic arcsecond to masses per cubic kpc. -/
theorem c45_density_units {I : Inst} (hk : 0 < I.kpcPerArcsec) :
    densityFactor I = sigmaArcsec I / I.kpcPerArcsec ^ 3 := by
  simp only [densityFactor, sigmaArcsec]
  rw [show (1e-6 : ℝ) = 1 / 10 ^ 6 by norm_num]
  field_simp
  norm_num

example := c45_density_units (I := ⟨2.5, 7, 10, 0.1, 1, 3e6, 4e6, 1, 1e6, 1, 3, 1⟩) (by norm_num)

/-- A case: an envelope with mass proportional to the radius and a centre with mass independent of it. -/
noncomputable def demoL : Lenstronomy where
  envMass r _ rho _ := rho * r
  alpha2rho0 a _ := a
  cenMass _ _ a _ _ := a

/-- See `demoL`. -/
noncomputable def demoI : Inst := ⟨2.5, 7, 10, 0.1, 1, 3e6, 4e6, 1, 1e6, 1, 3, 1⟩

example : Linear demoL := ⟨fun k _ => by simp [demoL], fun r _ k rho _ => by simp [demoL]; ring, fun _ _ k _ _ => by
  simp [demoL]⟩

example : ∃ p, profileArgs demoL demoI = .ok p ∧ 0 < p.alphaEnvelope ∧ 0 < p.alphaCentre := by
  have : solve demoL demoI = .ok (1 / 2 * 1e6, 5 / 2 * 1e6) := by
    simp only [solve, unitEnvelope, unitCentre, demoL, demoI, sigmaCritArcsec]
    norm_num
  simp only [profileArgs, this]
  exact ⟨_, rfl, by norm_num, by norm_num⟩

end Props
end PyHalo
