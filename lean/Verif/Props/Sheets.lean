import Verif.Model.Render
import Verif.Spec.Realization
import Verif.Props.Lensing

/-!
# C55, C56: convergence sheets of the rendering classes, amplitudes of the mass functions
-/

namespace PyHalo.Props
open PyHalo Spec

open scoped Classical

/-- The redshift window of the sheets: from `zmin` (0 when absent) to `zmax` (the source redshift
when absent), both included. -/
def InWindow (zmin zmax : Option ℝ) (zSource z : ℝ) : Prop :=
  zmin.getD 0 ≤ z ∧ z ≤ zmax.getD zSource

/-- A lens component is a uniform sheet at redshift `z` whose mass inside `area` (the critical mass
`Mcrit` times the convergence) is `-scale · M`. -/
def CancelsMass (scale M Mcrit z : ℝ) (t : String × ℝ × Kw) : Prop :=
  t.1 = "CONVERGENCE" ∧ t.2.1 = z ∧ ∃ κ, t.2.2 = [("kappa", κ)] ∧ κ * Mcrit = -(scale * M)

/-- The area inside the rendering aperture at redshift `z`. -/
noncomputable def apertureArea (g : GeometryI) (z : ℝ) : ℝ :=
  g.angleToPhysicalArea (0.5 * g.coneOpeningAngle) z

theorem sheets_fold (f : ℝ × ℝ → ℝ) (scale z0 z1 : ℝ) (l : List (ℝ × ℝ)) (acc : Sheets) :
    l.foldl (fun (acc : Sheets) p =>
      if p.1 < z0 then acc
      else if p.1 > z1 then acc
      else
        let kappa := f p
        if kappa > 0 then
          (acc.1 ++ [[("kappa", -scale * kappa)]], acc.2.1 ++ ["CONVERGENCE"],
            acc.2.2 ++ [p.1])
        else acc) acc
    = (acc.1 ++ (l.filter fun p => decide ((z0 ≤ p.1 ∧ p.1 ≤ z1) ∧ 0 < f p)).map
          (fun p => [("kappa", -scale * f p)]),
       acc.2.1 ++ (l.filter fun p => decide ((z0 ≤ p.1 ∧ p.1 ≤ z1) ∧ 0 < f p)).map
          (fun _ => "CONVERGENCE"),
       acc.2.2 ++ (l.filter fun p => decide ((z0 ≤ p.1 ∧ p.1 ≤ z1) ∧ 0 < f p)).map Prod.fst) := by
  induction l generalizing acc with
  | nil => simp
  | cons a t ih =>
    rw [List.foldl_cons, ih]
    by_cases h0 : a.1 < z0
    · simp [h0, not_le.2 h0]
    · by_cases h1 : a.1 > z1
      · simp [h0, h1, not_le.2 h1]
      · by_cases hk : f a > 0
        · simp [h0, h1, hk, not_lt.1 h0, not_lt.1 h1]
        · simp [h0, h1, hk]

/-- **C55** (line of sight). The sheets of the line-of-sight class are aligned, and there is exactly
one for every lens plane inside the redshift window that is expected to contain mass; it cancels
`kappa_scale` times the mass the mass function of that plane has in the chosen mass range. -/
theorem c55_line_of_sight_sheets (c : LosClass) (g : GeometryI) (lc : LensCosmoI)
    (scale mlow mhigh : ℝ) (zmin zmax : Option ℝ) (useClass : Bool)
    (hcrit : ∀ p ∈ c.planes.zip c.deltaZ, InWindow zmin zmax lc.zSource p.1 →
      0 < lc.sigmaCritMass p.1 (apertureArea g p.1)) :
    let s := c.sheets g lc scale mlow mhigh zmin zmax useClass
    let expected : ℝ × ℝ → ℝ := fun p =>
      (if useClass then c.model p.1 p.2 (c.logMlow p.1) (c.logMhigh p.1)
        else c.model p.1 p.2 mlow mhigh).firstMoment
    SameLengths s.2.1 s.2.2 s.1 ∧
    List.Forall₂ (fun (p : ℝ × ℝ) t =>
        CancelsMass scale (expected p) (lc.sigmaCritMass p.1 (apertureArea g p.1)) p.1 t)
      ((c.planes.zip c.deltaZ).filter fun p =>
        decide (InWindow zmin zmax lc.zSource p.1 ∧ 0 < expected p))
      (triples s.2.1 s.2.2 s.1) := by
  intro s expected
  set f : ℝ × ℝ → ℝ := fun p => expected p / lc.sigmaCritMass p.1 (apertureArea g p.1) with hf
  have hs : s = ((c.planes.zip c.deltaZ).filter (fun p =>
      decide ((zmin.getD 0 ≤ p.1 ∧ p.1 ≤ zmax.getD lc.zSource) ∧ 0 < f p))
      |>.map (fun p => [("kappa", -scale * f p)]),
      ((c.planes.zip c.deltaZ).filter (fun p =>
      decide ((zmin.getD 0 ≤ p.1 ∧ p.1 ≤ zmax.getD lc.zSource) ∧ 0 < f p))).map
        (fun _ => "CONVERGENCE"),
      ((c.planes.zip c.deltaZ).filter (fun p =>
      decide ((zmin.getD 0 ≤ p.1 ∧ p.1 ≤ zmax.getD lc.zSource) ∧ 0 < f p))).map Prod.fst) := by
    have := sheets_fold f scale (zmin.getD 0) (zmax.getD lc.zSource) (c.planes.zip c.deltaZ)
      ([], [], [])
    simp only [List.nil_append] at this
    rw [← this]
    show LosClass.sheets _ _ _ _ _ _ _ _ _ = _
    unfold LosClass.sheets
    simp only
    congr 1
    funext acc p
    have e : convergenceAtZ g lc p.1 (c.model p.1 p.2 ((if useClass then c.logMlow else
        fun _ => mlow) p.1) ((if useClass then c.logMhigh else fun _ => mhigh) p.1)).firstMoment
        = f p := by
      rw [hf]
      simp only [convergenceAtZ, expected, apertureArea]
      cases useClass <;> rfl
    rw [e]
  have hfil : (c.planes.zip c.deltaZ).filter (fun p =>
      decide ((zmin.getD 0 ≤ p.1 ∧ p.1 ≤ zmax.getD lc.zSource) ∧ 0 < f p))
      = (c.planes.zip c.deltaZ).filter (fun p =>
        decide (InWindow zmin zmax lc.zSource p.1 ∧ 0 < expected p)) := by
    apply List.filter_congr
    intro p hp
    rw [decide_eq_decide]
    unfold InWindow
    constructor
    · rintro ⟨hw, h⟩
      exact ⟨hw, (div_pos_iff_of_pos_right (hcrit p hp hw)).1 h⟩
    · rintro ⟨hw, h⟩
      exact ⟨hw, div_pos h (hcrit p hp hw)⟩
  rw [hfil] at hs
  rw [hs]
  refine ⟨by simp [SameLengths], ?_⟩
  unfold triples
  simp only [List.zip_map', List.zipWith_map, List.forall₂_iff_get]
  refine ⟨by simp, ?_⟩
  intro i h1 h2
  simp only [List.get_eq_getElem, List.getElem_zipWith]
  generalize hp : (List.filter (fun p => decide (InWindow zmin zmax lc.zSource p.1 ∧
    0 < expected p)) (c.planes.zip c.deltaZ))[i] = p
  have hmem : p ∈ (c.planes.zip c.deltaZ).filter (fun p =>
      decide (InWindow zmin zmax lc.zSource p.1 ∧ 0 < expected p)) := by
    rw [← hp]; exact List.getElem_mem _
  rw [List.mem_filter, decide_eq_true_eq] at hmem
  refine ⟨rfl, rfl, _, rfl, ?_⟩
  have := (hcrit p hmem.1 hmem.2.1).ne'
  rw [hf]
  field_simp

/-- **C55** (subhalos). The subhalo class provides one sheet at the lens redshift that cancels
`kappa_scale` times the expected mass in subhalos, and none when that mass is zero. -/
theorem c55_subhalo_sheets (model : ℝ → ℝ → MassFn) (g : GeometryI) (lc : LensCosmoI)
    (classLow classHigh scale mlow mhigh : ℝ) (useClass : Bool)
    (hcrit : 0 < lc.sigmaCritMass lc.zLens (apertureArea g lc.zLens)) :
    let s := subhaloSheets model g lc classLow classHigh scale mlow mhigh useClass
    let M := (if useClass then model classLow classHigh else model mlow mhigh).firstMoment
    SameLengths s.2.1 s.2.2 s.1 ∧
    (M = 0 → s = ([], [], [])) ∧
    (M ≠ 0 → ∃ t, triples s.2.1 s.2.2 s.1 = [t] ∧
      CancelsMass scale M (lc.sigmaCritMass lc.zLens (apertureArea g lc.zLens)) lc.zLens t) := by
  intro s M
  by_cases hM : M = 0
  · have : s = ([], [], []) := by
      show subhaloSheets _ _ _ _ _ _ _ _ _ = _
      unfold subhaloSheets
      exact if_pos hM
    rw [this]
    exact ⟨by simp [SameLengths], fun _ => rfl, fun h => absurd hM h⟩
  · have : s = ([[("kappa", -1 * scale *
        (M / lc.sigmaCritMass lc.zLens (apertureArea g lc.zLens)))]], ["CONVERGENCE"],
        [lc.zLens]) := by
      show subhaloSheets _ _ _ _ _ _ _ _ _ = _
      unfold subhaloSheets
      exact if_neg hM
    rw [this]
    refine ⟨by simp [SameLengths], fun h => absurd h hM, fun _ => ⟨_, rfl, rfl, rfl, _, rfl, ?_⟩⟩
    have := hcrit.ne'
    field_simp

example := c55_subhalo_sheets (fun lo hi => ⟨fun _ => .ok [], hi - lo⟩) Demo.geom Demo.cosmo 6 10 1 6 10 true (by simp [Demo.cosmo])

/-- The rendering classes pyHalo builds (`LINE_OF_SIGHT`, `SUBHALOS`, and the two without
sheets). -/
inductive StandardClass (g : GeometryI) (lc : LensCosmoI) : RClass → Prop
  | los (c : LosClass) : StandardClass g lc (c.toRClass g lc)
  | subhalos (model : ℝ → ℝ → MassFn) (lo hi : ℝ) :
      StandardClass g lc (subhalosRClass model g lc lo hi)
  | noSheet (name : String) : StandardClass g lc (noSheetRClass name)

theorem los_sheets_lengths (c : LosClass) (g : GeometryI) (lc : LensCosmoI)
    (scale mlow mhigh : ℝ) (zmin zmax : Option ℝ) (u : Bool) :
    SameLengths (c.sheets g lc scale mlow mhigh zmin zmax u).2.1
      (c.sheets g lc scale mlow mhigh zmin zmax u).2.2
      (c.sheets g lc scale mlow mhigh zmin zmax u).1 := by
  unfold LosClass.sheets
  simp only
  rw [sheets_fold (fun p => convergenceAtZ g lc p.1 (c.model p.1 p.2 ((if u then c.logMlow else
        fun _ => mlow) p.1) ((if u then c.logMhigh else fun _ => mhigh) p.1)).firstMoment)]
  simp [SameLengths]

theorem sub_sheets_lengths (model : ℝ → ℝ → MassFn) (g : GeometryI) (lc : LensCosmoI)
    (lo hi scale mlow mhigh : ℝ) (u : Bool) :
    SameLengths (subhaloSheets model g lc lo hi scale mlow mhigh u).2.1
      (subhaloSheets model g lc lo hi scale mlow mhigh u).2.2
      (subhaloSheets model g lc lo hi scale mlow mhigh u).1 := by
  unfold subhaloSheets
  simp only
  split_ifs <;> simp [SameLengths]

theorem standard_lengths (g : GeometryI) (lc : LensCosmoI) (c : RClass) (h : StandardClass g lc c)
    (a : Realization.SheetArgs) (u : Bool) :
    SameLengths (sheetsOf a u c).2.1 (sheetsOf a u c).2.2 (sheetsOf a u c).1 := by
  cases h with
  | los c => exact los_sheets_lengths c g lc _ _ _ _ _ u
  | subhalos model lo hi => exact sub_sheets_lengths model g lc lo hi _ _ _ u
  | noSheet name =>
    unfold sheetsOf noSheetRClass
    split_ifs <;> simp [SameLengths]

/-- **C55** (in a realization). With the rendering classes pyHalo builds, the lens model of a
realization is aligned: all halo components, then all sheets, the sheets moved to the rendering
centre. No assumption on the sheets is needed. -/
theorem c55_lensing_quantities (σ : Heap) (r : Realization) (g : GeometryI) (useClass : Bool)
    (a : Realization.SheetArgs) (hon : r.applyMassSheet = true) (hex : a.subtractExact = false)
    (hh : ∀ h ∈ r.halos, (σ h).lensIDs.length = (σ h).lensParams.length)
    (hc : ∀ c, some c ∈ r.renderingClasses → StandardClass g r.lensCosmo c) :
    ∃ ns zs ks S, r.lensingQuantities σ true useClass a = .ok (ns, zs, ks) ∧
      SameLengths ns zs ks ∧ triples ns zs ks = haloComponents σ r ++ S ∧
      List.Forall₂ (SheetMoved r)
        ((r.renderingClasses.filterMap id).flatMap fun c =>
          triples (sheetsOf a useClass c).2.1 (sheetsOf a useClass c).2.2 (sheetsOf a useClass c).1)
        S :=
  c09_lensing_quantities_sheets σ r useClass a hon hex hh
    fun c h => standard_lengths g r.lensCosmo c (hc c h) a useClass

/-- Two planes, constant expected mass 4, critical mass 8: one sheet of convergence -1/2 on the
plane inside the window. -/
example : ∃ (c : LosClass) (g : GeometryI) (lc : LensCosmoI),
    (∀ p ∈ c.planes.zip c.deltaZ, InWindow none (some 0.5) lc.zSource p.1 →
      0 < lc.sigmaCritMass p.1 (apertureArea g p.1)) ∧
    c.sheets g lc 1 6 10 none (some 0.5) false
      = ([[("kappa", -(1 / 2))]], ["CONVERGENCE"], [0.4]) := by
  refine ⟨⟨[0.4, 0.6], [0.1, 0.1], fun _ _ _ _ => ⟨fun _ => .ok [], 4⟩, fun _ => 6, fun _ => 10,
    fun _ _ _ => .ok ([], []), fun _ => 1⟩, ⟨6, fun _ _ => 1⟩, ⟨0.5, 2, id, fun _ _ => 8⟩,
    fun _ _ _ => by norm_num, ?_⟩
  norm_num [LosClass.sheets, convergenceAtZ]

/-! ### C56: amplitudes -/

/-- **C56**. The host scaling is one for a host of 10¹³ solar masses at redshift 1/2, whatever the
exponents. -/
theorem c56_host_scaling_pivot (k1 k2 : ℝ) : hostScaling (10 ^ 13) 0.5 k1 k2 = 1 := by
  unfold hostScaling
  rw [div_self (by norm_num), Real.logb_one]
  have : (0.5 : ℝ) + 0.5 = 1 := by norm_num
  rw [this, Real.logb_one]
  simp

/-- **C56**. The host scaling is the product of powers of the host mass and of `z + 1/2`. -/
theorem c56_host_scaling_powers (m z k1 k2 : ℝ) (hm : 0 < m) (hz : 0 ≤ z) :
    hostScaling m z k1 k2 = (m / 10 ^ 13) ^ k1 * (z + 0.5) ^ k2 := by
  unfold hostScaling
  have hz' : 0 < z + 0.5 := by norm_num; linarith
  have hm' : 0 < m / 10 ^ 13 := by positivity
  rw [Real.rpow_add (by norm_num), mul_comm k1, mul_comm k2, Real.rpow_mul (by norm_num),
    Real.rpow_mul (by norm_num), Real.rpow_logb (by norm_num) (by norm_num) hm',
    Real.rpow_logb (by norm_num) (by norm_num) hz']

example := c56_host_scaling_powers (10 ^ 13) 0.5 0.88 1.7 (by norm_num) (by norm_num)

/-- The area of the disc inside the rendering aperture (kpc²). -/
noncomputable def discArea (kpc cone : ℝ) : ℝ := Real.pi * (kpc * (cone / 2)) ^ 2

/-- **C56** (`sigma_sub`). At the pivot mass the number of subhalos per logarithmic mass interval is
the projected area times `sigma_sub` times the host scaling: it does not depend on the slope, nor on
`dndA` when both are given. -/
theorem c56_sigma_sub (kw : SubKwargs) (zLens kpc cone s lo hi : ℝ) (poisson : Bool)
    (hs : kw.sigmaSub = some s) (hp : 0 < kw.mPivot) :
    ∃ index norm, subNormalization kw zLens kpc cone = .ok (index, norm) ∧
      index = kw.powerLawIndex + kw.deltaPowerLawIndex ∧
      kw.mPivot * (PowerLaw.mk lo hi index poisson norm).evaluate kw.mPivot
        = discArea kpc cone * (s * hostScaling kw.hostM200 zLens kw.k1 kw.k2) := by
  refine ⟨_, _, by simp only [subNormalization, hs]; rfl, rfl, ?_⟩
  have e : kw.mPivot ^ (-(kw.powerLawIndex + kw.deltaPowerLawIndex + 1))
      * kw.mPivot ^ (kw.powerLawIndex + kw.deltaPowerLawIndex) * kw.mPivot = 1 := by
    rw [← Real.rpow_add hp, ← Real.rpow_add_one hp.ne']
    ring_nf
    simp
  simp only [PowerLaw.evaluate, normalizationSigmaSub, discArea]
  have e2 : (0.5 : ℝ) * cone = cone / 2 := by ring
  rw [e2]
  generalize kw.mPivot ^ (-(kw.powerLawIndex + kw.deltaPowerLawIndex + 1)) = a at e ⊢
  generalize kw.mPivot ^ (kw.powerLawIndex + kw.deltaPowerLawIndex) = b at e ⊢
  linear_combination (Real.pi * (kpc * (cone / 2)) ^ 2 *
    (s * hostScaling kw.hostM200 zLens kw.k1 kw.k2)) * e

example := c56_sigma_sub ⟨-1.9, 0, some 0.025, some 3, 10 ^ 13, 10 ^ 8, 0.88, 1.7⟩ 0.5 6 6 0.025 6 10 true rfl (by norm_num)

/-- **C56** (`dndA`). Without `sigma_sub`, the same quantity is the area times `dndA`: it depends
neither on the slope nor on the host. -/
theorem c56_dndA (kw : SubKwargs) (zLens kpc cone d lo hi : ℝ) (poisson : Bool)
    (hs : kw.sigmaSub = none) (hd : kw.dndA = some d) (hp : 0 < kw.mPivot) :
    ∃ index norm, subNormalization kw zLens kpc cone = .ok (index, norm) ∧
      index = kw.powerLawIndex + kw.deltaPowerLawIndex ∧
      kw.mPivot * (PowerLaw.mk lo hi index poisson norm).evaluate kw.mPivot
        = discArea kpc cone * d := by
  refine ⟨_, _, by simp only [subNormalization, hs, hd]; rfl, rfl, ?_⟩
  have e : kw.mPivot ^ (-(kw.powerLawIndex + kw.deltaPowerLawIndex + 1))
      * kw.mPivot ^ (kw.powerLawIndex + kw.deltaPowerLawIndex) * kw.mPivot = 1 := by
    rw [← Real.rpow_add hp, ← Real.rpow_add_one hp.ne']
    ring_nf
    simp
  simp only [PowerLaw.evaluate, discArea]
  have e2 : (0.5 : ℝ) * cone = cone / 2 := by ring
  rw [e2]
  generalize kw.mPivot ^ (-(kw.powerLawIndex + kw.deltaPowerLawIndex + 1)) = a at e ⊢
  generalize kw.mPivot ^ (kw.powerLawIndex + kw.deltaPowerLawIndex) = b at e ⊢
  linear_combination (Real.pi * (kpc * (cone / 2)) ^ 2 * d) * e

example := c56_dndA ⟨-1.9, 0, none, some 3, 10 ^ 13, 10 ^ 8, 0.88, 1.7⟩ 0.5 6 6 3 6 10 true rfl rfl (by norm_num)

/-- **C56**. With neither amplitude the mass function cannot be built. -/
theorem c56_no_amplitude (kw : SubKwargs) (zLens kpc cone : ℝ) :
    (∃ e, subNormalization kw zLens kpc cone = .error e) ↔
      kw.sigmaSub = none ∧ kw.dndA = none := by
  unfold subNormalization
  cases kw.sigmaSub <;> cases kw.dndA <;> simp

/-- **C56** (line of sight). The amplitude at the pivot mass is the fitted one (`10^intercept`, the
fit being made in `log10 (m / pivot)`) times the rescaling times the volume: adding
`delta_power_law_index` to the slope does not change it. -/
theorem c56_line_of_sight (slope intercept dIndex losNorm volume mPivot lo hi : ℝ) (poisson : Bool)
    (hp : 0 < mPivot) :
    let a := losAmplitude slope intercept dIndex losNorm volume mPivot
    a.1 = slope + dIndex ∧
    (PowerLaw.mk lo hi a.1 poisson a.2).evaluate mPivot = losNorm * 10 ^ intercept * volume := by
  refine ⟨rfl, ?_⟩
  simp only [losAmplitude, PowerLaw.evaluate]
  have : mPivot ^ (slope + dIndex) ≠ 0 := (Real.rpow_pos_of_pos hp _).ne'
  field_simp

example := c56_line_of_sight (-1.9) (-7) 0 1 100 (10 ^ 8) 6 10 true (by norm_num)

example : (SubKwargs.mk (-1.9) 0 (some 0.025) (some 3) (10 ^ 13) (10 ^ 8) 0.88 1.7).sigmaSub
    = some 0.025 ∧ (0 : ℝ) < 10 ^ 8 := ⟨rfl, by norm_num⟩

end PyHalo.Props
