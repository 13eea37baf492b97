import Verif.Model.Volume
import Verif.Props.Spatial
import Verif.Props.RunExamples
import Mathlib.Analysis.SpecialFunctions.Integrals.Basic

/-!
# C110: the comoving volume of the rendered region
-/

namespace PyHalo.Props

open PyHalo Run

/-- The last redshift of a grid `0, 0.01, 0.02, ...` that is below `zs`. -/
def Spec110.Last (zs Z : ℝ) : Prop := ∃ n : ℕ, Z = n / 100 ∧ Z < zs ∧ zs ≤ Z + 1 / 100

theorem last_slice {zs : ℝ} (h : 0 < zs) : Spec110.Last zs (((⌈(zs - 0) / 0.01⌉₊ - 1 : ℕ) : ℝ) / 100) := by
  have h1 : 1 ≤ ⌈(zs - 0) / 0.01⌉₊ := Nat.one_le_ceil_iff.2 (by norm_num; exact h)
  have h2 := Nat.le_ceil ((zs - 0) / 0.01)
  have h3 := Nat.ceil_lt_add_one (show (0 : ℝ) ≤ (zs - 0) / 0.01 by rw [sub_zero]; positivity)
  refine ⟨_, rfl, ?_, ?_⟩ <;>
  · rw [Nat.cast_sub h1]
    norm_num at h2 h3 ⊢
    linarith

theorem volume_sum (W : Run.World) (kc : ℕ) (g : Geometry)
    (hi : ∀ a b : ℝ, 0 ≤ a → a ≤ b → b ≤ g.zSource → IntervalIntegrable (volumeIntegrand W kc g (0.5 * g.openingAngle)) MeasureTheory.volume a b)
    (n : ℕ) (hn : (n : ℝ) / 100 ≤ g.zSource) (hl : n ≤ (Np.arange 0 g.zSource 0.01).length) :
    (List.range n).foldl (fun v i => v + volumeElement W kc g ((Np.arange 0 g.zSource 0.01).getD i 0) 0.01) 0 =
      ∫ z in (0 : ℝ)..(n : ℝ) / 100, volumeIntegrand W kc g (0.5 * g.openingAngle) z := by
  induction n with
  | zero => simp
  | succ n ih =>
    have h0 : (0 : ℝ) ≤ n := Nat.cast_nonneg n
    have e1 : ((n + 1 : ℕ) : ℝ) / 100 = n / 100 + 1 / 100 := by push_cast; ring
    rw [e1] at hn ⊢
    rw [List.range_succ, List.foldl_append, ih (by linarith) (by omega)]
    have e2 : (Np.arange 0 g.zSource 0.01).getD n 0 = n / 100 := by
      unfold Np.arange at hl ⊢
      rw [List.length_map, List.length_range] at hl
      rw [List.getD_eq_getElem?_getD, List.getElem?_map, List.getElem?_range (by omega)]
      simp only [Option.map_some, Option.getD_some]
      ring
    simp only [List.foldl_cons, List.foldl_nil]
    rw [e2]
    unfold volumeElement
    simp only
    rw [if_pos (by norm_num), show (n : ℝ) / 100 + 0.01 = n / 100 + 1 / 100 by norm_num]
    exact intervalIntegral.integral_add_adjacent_intervals (hi _ _ le_rfl (by positivity) (by linarith))
      (hi _ _ (by positivity) (by linarith) hn)

/-- **C110**. The total volume is the integral of the comoving area of the rendered disc over the comoving distance, from
the observer to the last multiple of 0.01 below the source redshift. -/
theorem c110_volume_partial (W : Run.World) (kc : ℕ) (g : Geometry) (hs : 0 < g.zSource)
    (hi : ∀ a b : ℝ, 0 ≤ a → a ≤ b → b ≤ g.zSource → IntervalIntegrable (fun z => Real.pi * g.comovingRadius (g.openingAngle / 2) z ^ 2 *
      (W.hubble kc / W.efunc kc z)) MeasureTheory.volume a b) :
    ∃ Z, Spec110.Last g.zSource Z ∧ volumeMpc3 W kc g =
      ∫ z in (0 : ℝ)..Z, Real.pi * g.comovingRadius (g.openingAngle / 2) z ^ 2 * (W.hubble kc / W.efunc kc z) := by
  have e : (fun z => Real.pi * g.comovingRadius (g.openingAngle / 2) z ^ 2 * (W.hubble kc / W.efunc kc z)) =
      volumeIntegrand W kc g (0.5 * g.openingAngle) := by
    funext z
    unfold volumeIntegrand Geometry.comovingArea
    rw [div_eq_mul_inv (W.hubble kc), show g.openingAngle / 2 = 0.5 * g.openingAngle by ring]
  refine ⟨_, last_slice hs, ?_⟩
  rw [e] at hi
  simp only [e]
  have hlen : (Np.arange 0 g.zSource 0.01).length = ⌈(g.zSource - 0) / 0.01⌉₊ := by simp [Np.arange]
  unfold volumeMpc3
  simp only
  rw [hlen]
  refine volume_sum W kc g hi _ ?_ ?_
  · obtain ⟨n, -, h2, -⟩ := last_slice hs
    exact h2.le
  · rw [hlen]; omega

/-- Where the code violates C110: the last slice before the source is left out, so the total is below the volume of the
region in which halos are rendered. -/
theorem c110_last_slice_missing (W : Run.World) (kc : ℕ) (g : Geometry) (hs : 0 < g.zSource)
    (hi : ∀ a b : ℝ, 0 ≤ a → a ≤ b → b ≤ g.zSource → IntervalIntegrable (fun z => Real.pi * g.comovingRadius (g.openingAngle / 2) z ^ 2 *
      (W.hubble kc / W.efunc kc z)) MeasureTheory.volume a b)
    (hr : ∀ z, 0 < z → z < g.zSource → g.comovingRadius (g.openingAngle / 2) z ≠ 0)
    (hh : 0 < W.hubble kc) (he : ∀ z, 0 < W.efunc kc z) :
    volumeMpc3 W kc g <
      ∫ z in (0 : ℝ)..g.zSource, Real.pi * g.comovingRadius (g.openingAngle / 2) z ^ 2 * (W.hubble kc / W.efunc kc z) := by
  obtain ⟨Z, ⟨n, hZ, h1, h2⟩, hv⟩ := c110_volume_partial W kc g hs hi
  have hZ0 : 0 ≤ Z := by rw [hZ]; positivity
  rw [hv, ← intervalIntegral.integral_add_adjacent_intervals (hi 0 Z le_rfl hZ0 h1.le) (hi Z _ hZ0 h1.le le_rfl)]
  have : 0 < ∫ z in Z..g.zSource, Real.pi * g.comovingRadius (g.openingAngle / 2) z ^ 2 * (W.hubble kc / W.efunc kc z) := by
    apply intervalIntegral.intervalIntegral_pos_of_pos_on (hi Z _ hZ0 h1.le le_rfl) _ h1
    intro z hz
    have hr' := hr z (lt_of_le_of_lt hZ0 hz.1) hz.2
    have := he z
    have := Real.pi_pos
    positivity
  linarith

/-- C110 in closed form, in a flat universe whose comoving distance `chi` grows at the Hubble distance over `E(z)`: a
cylinder has the volume base times height, a cone a third of that. -/
theorem c110_shapes (W : Run.World) (kc : ℕ) (g : Geometry) (chi : ℝ → ℝ) (hd : g.dist = flatDistances chi) (h0 : chi 0 = 0)
    (hp : ∀ z, 0 < z → 0 < chi z) (hderiv : ∀ z, 0 ≤ z → HasDerivAt chi (W.hubble kc / W.efunc kc z) z)
    (hE : ContinuousOn (fun z => W.hubble kc / W.efunc kc z) (Set.Ici 0)) (hs : 0 < g.zSource) :
    ∃ Z, Spec110.Last g.zSource Z ∧
      (g.volume = .cylinder → volumeMpc3 W kc g = Real.pi * (g.openingAngle / 2 * arcsec * chi g.zLens) ^ 2 * chi Z) ∧
      (g.volume = .cone → volumeMpc3 W kc g = Real.pi * (g.openingAngle / 2 * arcsec * chi Z) ^ 2 * chi Z / 3) := by
  have hcont : ContinuousOn chi (Set.Ici 0) := fun z hz => (hderiv z hz).continuousAt.continuousWithinAt
  obtain ⟨Z, hZ⟩ : ∃ Z, Z = ((⌈(g.zSource - 0) / 0.01⌉₊ - 1 : ℕ) : ℝ) / 100 := ⟨_, rfl⟩
  have hL : Spec110.Last g.zSource Z := hZ ▸ last_slice hs
  have hZ0 : 0 ≤ Z := by rw [hZ]; positivity
  -- one statement for the two shapes
  have key : ∀ (F : ℝ → ℝ), ContinuousOn F (Set.Ici 0) →
      (∀ z, 0 < z → Real.pi * g.comovingRadius (g.openingAngle / 2) z ^ 2 * (W.hubble kc / W.efunc kc z) = F z) →
      volumeMpc3 W kc g = ∫ z in (0 : ℝ)..Z, F z := by
    intro F hF hz
    have hi : ∀ a b : ℝ, 0 ≤ a → a ≤ b → b ≤ g.zSource → IntervalIntegrable (fun z => Real.pi * g.comovingRadius (g.openingAngle / 2) z ^ 2 *
        (W.hubble kc / W.efunc kc z)) MeasureTheory.volume a b := by
      intro a b ha hab _
      have h1 : IntervalIntegrable F MeasureTheory.volume a b :=
        (hF.mono fun z hz => ha.trans hz.1).intervalIntegrable_of_Icc hab
      refine h1.congr fun z hz' => ?_
      rw [Set.uIoc_of_le hab] at hz'
      exact (hz z (ha.trans_lt hz'.1)).symm
    obtain ⟨Z', hZ', hv⟩ := c110_volume_partial W kc g hs hi
    have hZZ : Z' = Z := by
      obtain ⟨n, e1, e2, e3⟩ := hL
      obtain ⟨m, e4, e5, e6⟩ := hZ'
      have a1 : (n : ℝ) < m + 1 := by rw [e1] at e2; rw [e4] at e6; linarith
      have a2 : (m : ℝ) < n + 1 := by rw [e4] at e5; rw [e1] at e3; linarith
      have b1 : n < m + 1 := by exact_mod_cast a1
      have b2 : m < n + 1 := by exact_mod_cast a2
      have : n = m := by omega
      rw [e1, e4, this]
    rw [hv, hZZ]
    apply intervalIntegral.integral_congr_ae
    filter_upwards with z
    intro hz'
    rw [Set.uIoc_of_le hZ0] at hz'
    exact hz z hz'.1
  have hder : ∀ z ∈ Set.uIcc 0 Z, HasDerivAt chi (W.hubble kc / W.efunc kc z) z := by
    intro z hz
    rw [Set.uIcc_of_le hZ0] at hz
    exact hderiv z hz.1
  refine ⟨Z, hL, fun hv => ?_, fun hv => ?_⟩
  · rw [key (fun z => Real.pi * (g.openingAngle / 2 * arcsec * chi g.zLens) ^ 2 * (W.hubble kc / W.efunc kc z))
      (continuousOn_const.mul hE) (fun z hz => by rw [c58_cylinder_radius g chi hd hv _ z hz (hp z hz).ne']),
      intervalIntegral.integral_const_mul, intervalIntegral.integral_eq_sub_of_hasDerivAt hder
        ((hE.mono fun z hz => hz.1).intervalIntegrable_of_Icc hZ0), h0, sub_zero]
  · rw [key (fun z => Real.pi * (g.openingAngle / 2 * arcsec) ^ 2 * (chi z ^ 2 * (W.hubble kc / W.efunc kc z)))
      (continuousOn_const.mul ((hcont.pow 2).mul hE)) (fun z hz => by
        unfold Geometry.comovingRadius Geometry.physicalRadius Geometry.renderingScale Geometry.scaleFactor
        rw [hv]
        simp only [hd, flatDistances]
        have h1 : (1 + z) ≠ 0 := by linarith
        field_simp), intervalIntegral.integral_const_mul]
    have h3 : ∀ z ∈ Set.uIcc 0 Z, HasDerivAt (fun z => chi z ^ 3 / 3) (chi z ^ 2 * (W.hubble kc / W.efunc kc z)) z := by
      intro z hz
      refine (((hder z hz).pow 3).div_const 3).congr_deriv ?_
      push_cast
      ring
    rw [intervalIntegral.integral_eq_sub_of_hasDerivAt h3
      ((((hcont.pow 2).mul hE).mono fun z hz => hz.1).intervalIntegrable_of_Icc hZ0), h0]
    ring

/-- A universe in which distance is proportional to redshift. -/
noncomputable def evenWorld : Run.World := { demoWorld with efunc := fun _ _ => 1 }

noncomputable def evenCone : Geometry := ⟨flatDistances fun z => 4000 * z, 1 / 2, 2, 6, .cone, 1⟩

example := c110_shapes evenWorld 0 evenCone (fun z => 4000 * z) rfl (by norm_num) (fun z hz => by positivity)
  (fun z _ => by
    have := (hasDerivAt_id z).const_mul 4000
    refine this.congr_deriv ?_
    norm_num [evenWorld, demoWorld]) (by
    have : (fun z : ℝ => evenWorld.hubble 0 / evenWorld.efunc 0 z) = fun _ => 4000 := by
      funext z
      norm_num [evenWorld, demoWorld]
    rw [this]
    exact continuousOn_const) (by norm_num [evenCone])

example : volumeMpc3 evenWorld 0 evenCone <
    ∫ z in (0 : ℝ)..2, Real.pi * evenCone.comovingRadius (evenCone.openingAngle / 2) z ^ 2 * (evenWorld.hubble 0 / evenWorld.efunc 0 z) := by
  have hr : ∀ z, 0 ≤ z → evenCone.comovingRadius (evenCone.openingAngle / 2) z = 3 * arcsec * (4000 * z) := by
    intro z hz
    unfold Geometry.comovingRadius Geometry.physicalRadius Geometry.renderingScale Geometry.scaleFactor
    simp only [evenCone, flatDistances]
    have : 1 + z ≠ 0 := by linarith
    field_simp
    ring
  have ha : 0 < arcsec := by unfold arcsec; have := Real.pi_pos; positivity
  refine c110_last_slice_missing evenWorld 0 evenCone (by norm_num [evenCone]) (fun a b h0 hab _ => ?_) (fun z hz _ => ?_)
    (by norm_num [evenWorld, demoWorld]) (fun z => by norm_num [evenWorld])
  · have hc : Continuous fun z : ℝ => Real.pi * (3 * arcsec * (4000 * z)) ^ 2 * 4000 := by fun_prop
    refine (hc.intervalIntegrable a b).congr fun z hz => ?_
    rw [Set.uIoc_of_le hab] at hz
    rw [hr z (h0.trans hz.1.le)]
    norm_num [evenWorld, demoWorld]
  · rw [hr z hz.le]
    positivity

end PyHalo.Props
