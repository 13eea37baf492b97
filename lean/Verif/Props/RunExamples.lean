import Verif.Props.RunFit

/-!
# Fine lens planes, and concrete cases of C90 to C93
-/

namespace PyHalo.Props
open PyHalo.Run Preset Spec Np

/-! ## Fine lens planes -/

theorem arange_next {a b s x : ℝ} (hs : 0 < s) (h : x ∈ arange a b s) : b ≤ x + s ∨ x + s ∈ arange a b s := by
  unfold arange at h ⊢
  obtain ⟨i, hi, rfl⟩ := List.mem_map.1 h
  by_cases hlt : a + (i : ℝ) * s + s < b
  · refine .inr (List.mem_map.2 ⟨i + 1, ?_, by push_cast; ring⟩)
    rw [List.mem_range, Nat.lt_ceil, lt_div_iff₀ hs]
    push_cast
    linarith
  · exact .inl (not_lt.1 hlt)

/-- With a spacing below 0.005 every slice has thickness zero, because the thicknesses are rounded to two decimals. -/
theorem fine_gaps {zl zs s : ℝ} (hs : 0 < s) (hfine : s < 0.005) (h0 : 0 < zl) (hl : zl < zs) {P G : List ℝ}
    (h : lensPlanes (some zl) zs (some s) = .ok (P, G)) : ∀ g ∈ G, g = 0 := by
  obtain ⟨h1, h2, h3, h4, h5⟩ := rawPlanes_some (zl := zl) (zs := zs) hs hl
  obtain ⟨g, g1, g2, g3, g4, g5⟩ := planeGaps_spec zs _ h1 h2 (fun x hx => (h3 x hx).2)
  have hG : G = g.map round2 := by
    simp only [lensPlanes, g1, bind, Except.bind, pure, Except.pure] at h
    cases h
    rfl
  have hnext : ∀ x ∈ rawPlanes (some zl) zs (some s), zs ≤ x + s ∨ ∃ y ∈ rawPlanes (some zl) zs (some s), x < y ∧ y ≤ x + s := by
    intro x hx
    have hraw : rawPlanes (some zl) zs (some s) = arange 0.01 zl s ++ arange zl zs s := by simp [rawPlanes]
    rw [hraw] at hx
    rcases List.mem_append.1 hx with hx | hx
    · rcases arange_next hs hx with hb | hb
      · exact .inr ⟨zl, h4, (mem_arange hs hx).2.1, hb⟩
      · exact .inr ⟨x + s, by rw [hraw]; exact List.mem_append_left _ hb, by linarith, le_refl _⟩
    · rcases arange_next hs hx with hb | hb
      · exact .inl hb
      · exact .inr ⟨x + s, by rw [hraw]; exact List.mem_append_right _ hb, by linarith, le_refl _⟩
  have hle : ∀ d ∈ g, 0 ≤ d ∧ d ≤ s := by
    intro d hd
    refine ⟨(g3 d hd).le, ?_⟩
    obtain ⟨i, hi, rfl⟩ := List.getElem_of_mem hd
    have hi' : i < (rawPlanes (some zl) zs (some s)).length := by omega
    generalize rawPlanes (some zl) zs (some s) = raw at *
    have hlt : i + 1 < (raw ++ [zs]).length := by simp; omega
    have hb := g5 i _ _ (List.getElem?_eq_getElem hi') (List.getElem?_eq_getElem hlt)
    rw [List.getElem?_eq_getElem hi] at hb
    have hb := Option.some.inj hb
    rw [hb]
    have hnz : (raw ++ [zs])[i + 1] ≤ zs := by
      by_cases hj : i + 1 < raw.length
      · rw [List.getElem_append_left hj]
        exact (h3 _ (List.getElem_mem _)).2.le
      · rw [List.getElem_append_right (by omega)]
        simp
    rcases hnext raw[i] (List.getElem_mem _) with hz | ⟨y, hy, hy1, hy2⟩
    · linarith
    · obtain ⟨j, hj, rfl⟩ := List.getElem_of_mem hy
      have hij : i < j := by
        by_contra hji
        rcases (not_lt.1 hji).lt_or_eq with hji | rfl
        · exact absurd (List.pairwise_iff_getElem.1 h2 j i hj hi' hji) (by linarith)
        · exact absurd hy1 (lt_irrefl _)
      have : (raw ++ [zs])[i + 1] ≤ raw[j] := by
        rw [List.getElem_append_left (by omega : i + 1 < raw.length)]
        rcases (show i + 1 ≤ j by omega).lt_or_eq with hlt | heq
        · exact (List.pairwise_iff_getElem.1 h2 (i + 1) j (by omega) hj hlt).le
        · simp [heq]
      linarith
  intro d hd
  rw [hG] at hd
  obtain ⟨x, hx, rfl⟩ := List.mem_map.1 hd
  obtain ⟨x1, x2⟩ := hle x hx
  unfold round2 rint
  have hf : ⌊100 * x⌋ = 0 := by
    rw [Int.floor_eq_iff]
    constructor
    · push_cast; linarith
    · push_cast; norm_num at hfine ⊢; linarith
  rw [hf, if_pos]
  · simp
  · push_cast; norm_num at hfine ⊢; linarith

/-- **A call of `CDM` with the default two-halo term raises for every lens plane spacing below 0.005**, whatever the other
arguments and the random numbers: the thickness of the slice at the lens is rounded to zero and the boost of the two-halo
term becomes zero divided by zero. -/
theorem c93_fine_spacing_raises (W : Run.World) (E : Preset.Env) (a : CdmArgs) (d : Dicts) (s : ℝ)
    (hp : a.planeSpacing = some s) (hs : 0 < s) (hfine : s < 0.005) (h0 : 0 < a.zLens) (hl : a.zLens < a.zSource)
    (ht : a.twoHalo = true) (out : List HaloArgs) : runCdm W E a d ≠ .ok out := by
  intro h
  unfold runCdm at h
  obtain ⟨r, hr, h⟩ := bind_ok h
  obtain ⟨g, hg, h⟩ := bind_ok h
  obtain ⟨-, -, inf, cs, cf, cHost, -, -, has⟩ := cdm_ok hr
  obtain ⟨ts, tf, sp, spKw, -, hsp, hpop, hf, hk, hss, hsk, -⟩ := cdmAssemble_ok has
  obtain ⟨i1, -⟩ := cdmAssemble_rest has
  obtain ⟨P, G, qs, hP, hqs, -⟩ := render_ok h
  rw [i1, hp] at hP
  simp only at hP
  have hG := fine_gaps hs hfine h0 hl hP
  rw [hpop, ht] at hqs
  simp only [List.cons_append, List.nil_append, if_true] at hqs
  rcases qs with _ | ⟨q0, _ | ⟨q1, _ | ⟨q2, _⟩⟩⟩ <;> simp at hqs
  obtain ⟨mc, mkw, sc, skw, -, -, -, -, hq⟩ := populationAt_ok hqs.2.2.1
  rcases population_ok hq with ⟨hn, -⟩ | ⟨hn, -⟩ | ⟨-, s', dz, kw, lo, hi, -, hset, -⟩
  · simp at hn
  · simp at hn
  · obtain ⟨i, p, m, n, dd, -, hgi, -, -, -, -, hd, hlt, -⟩ := c93_setup _ _ _ _ _ _ _ _ _ hset
    rw [hG dz (List.mem_of_getElem? hgi)] at hd
    simp at hd
    rw [hd] at hlt
    norm_num at hlt

/-! ## Concrete cases -/

/-- A concrete world: comoving distances of 3000 Mpc per unit redshift, a power law mass function, two objects per population
and plane. -/
noncomputable def demoWorld : Run.World where
  dist _ := ⟨fun z => 3000 * z, fun _ _ => 1000, fun _ => 1000⟩
  kpc _ _ := 6
  h _ := 1
  hubble _ := 4000
  efunc _ z := 1 + z ^ 2
  om _ _ := 0.3
  dndlnM _ m _ := 10 ^ 9 * m⁻¹
  twoHaloTerm _ _ _ _ := 1
  hostR200 _ _ _ := 0.5
  hostRs _ _ _ _ := 0.05
  density2d _ _ _ := 1
  density3d _ _ _ := 1
  pois _ _ := 2
  mass _ _ n := if n = 0 then 1 / 2 else 1 / 4
  accept _ _ _ := 0.1
  angle _ _ _ := 0.3
  radius _ _ _ := 1 / 2
  radius3d _ _ _ := 1 / 2

theorem demo_variates : Variates demoWorld := by
  refine ⟨fun i k n => ?_, fun i k n => ?_, fun i k n => ?_⟩
  · simp only [demoWorld]; split <;> norm_num
  · norm_num [demoWorld]
  · norm_num [demoWorld]

theorem demo_ok (kc : ℕ) : WorldOk demoWorld kc := by
  refine ⟨by norm_num [demoWorld], fun z => ?_, fun m z => by norm_num [demoWorld]⟩
  simp only [demoWorld]
  positivity

theorem demo_host (kc : ℕ) (m z : ℝ) : HostOk demoWorld kc m z (6 / 2) := by
  refine ⟨?_, ?_, fun c => ?_, ?_, fun _ _ _ _ _ _ => ?_, fun _ _ _ _ _ _ => ?_⟩ <;> norm_num [demoWorld]

/-- For redshifts and a spacing with two decimals, all slices have a redshift thickness of at least 0.01. -/
theorem apart_decimals {W : Run.World} {kc : ℕ} {zl zs s : ℝ} (hs : 0 < s) (h0 : 0 < zl) (hl : zl < zs)
    (dl : TwoDecimals zl) (dz : TwoDecimals zs) (ds : TwoDecimals s)
    (hD : ∀ d, 0.01 ≤ d → 0.5 < (W.dist kc).DCt (zl + d) - (W.dist kc).DCt zl) (hT : ∀ r m, 0 ≤ W.twoHaloTerm kc r m zl) :
    Spec90.apart W kc zl zs (some s) := by
  intro P G hP i p g _ hg _
  obtain ⟨P', G', e, -, -, -, -, -, hpos, -⟩ := c18_lens_planes_two_decimals zl zs s hs h0 hl dl dz ds
  rw [hP] at e
  cases e
  refine ⟨?_, fun r m _ _ => hT r m⟩
  apply hD
  have hg0 := hpos g (List.mem_of_getElem? hg)
  obtain ⟨P', G', e, -, -, -, -, -, raw, gaps, -, hG, -⟩ := c18_lens_planes_partial zl zs s hs h0 hl
  rw [hP] at e
  cases e
  have hm := List.mem_of_getElem? hg
  rw [hG] at hm
  obtain ⟨x, -, rfl⟩ := List.mem_map.1 hm
  unfold round2 at hg0 ⊢
  have h1 : (0 : ℝ) < (rint (100 * x) : ℝ) := by
    by_contra hn
    have : (rint (100 * x) : ℝ) / 100 ≤ 0 := div_nonpos_of_nonpos_of_nonneg (not_lt.1 hn) (by norm_num)
    linarith
  have h2 : (0 : ℤ) < rint (100 * x) := by exact_mod_cast h1
  have h3 : (1 : ℝ) ≤ (rint (100 * x) : ℝ) := by exact_mod_cast h2
  norm_num
  linarith

theorem demo_apart (kc : ℕ) : Spec90.apart demoWorld kc 0.5 1.5 none := by
  have : Spec90.apart demoWorld kc 0.5 1.5 (some 0.02) := by
    refine apart_decimals (by norm_num) (by norm_num) (by norm_num) ⟨50, by norm_num⟩ ⟨150, by norm_num⟩ ⟨2, by norm_num⟩ ?_ (fun r m => by norm_num [demoWorld])
    intro d hd
    simp only [demoWorld]
    norm_num at hd ⊢
    linarith
  intro P G hP
  exact this P G hP

/-- A call of `CDM` with default arguments, and subhalos with a three-dimensional distribution. -/
noncomputable def demoCdm : CdmArgs := { zLens := 0.5, zSource := 1.5, spatial := "PROJECTED_NFW" }

/-- **C90** for this call: it returns halos, and the theorem applies to them. -/
theorem demo_cdm (E : Preset.Env) : ∃ out, runCdm demoWorld E demoCdm freshDicts = .ok out := by
  obtain ⟨r, hr⟩ := cdm_works E demoCdm (.inl rfl) (by simp [demoCdm]) rfl rfl rfl rfl rfl (.inr rfl)
  exact c90_cdm_works demoWorld demo_variates E demoCdm freshDicts r hr (demo_ok _) (by norm_num [demoCdm])
    (by norm_num [demoCdm]) (by simp [demoCdm]) (by norm_num [demoCdm]) (by norm_num [demoCdm])
    (fun _ => ⟨by norm_num [demoCdm], demo_host _ _ _⟩) (fun _ => demo_apart _)

example (E : Preset.Env) : ∃ out, runCdm demoWorld E demoCdm freshDicts = .ok out ∧
    ∀ t ∈ out, t.mdef = "TNFW" ∧ (10 : ℝ) ^ (6 : ℝ) ≤ t.mass ∧ t.mass < (10 : ℝ) ^ (10 : ℝ) := by
  obtain ⟨out, h⟩ := demo_cdm E
  obtain ⟨v, P, G, -, -, hall⟩ := c90_cdm demoWorld demo_variates E demoCdm freshDicts out (fun z _ => by norm_num [demoWorld])
    (by norm_num [demoCdm]) (fun _ => ⟨by norm_num [demoCdm], demo_host _ _ _⟩) h
  exact ⟨out, h, fun t ht => ⟨(hall t ht).1, (hall t ht).2.1, (hall t ht).2.2.1⟩⟩

/-- The same for `WDM` with its defaults and any cutoff. -/
theorem demo_wdm (E : Preset.Env) (mc : ℝ) :
    ∃ out, runWdm demoWorld E (wdmPlain 0.5 1.5 mc Kwargs.empty Kwargs.empty none) freshDicts = .ok out := by
  obtain ⟨r, hr⟩ := wdm_plain_ok E 0.5 1.5 mc Kwargs.empty Kwargs.empty none
  exact c90_wdm_works demoWorld demo_variates E _ freshDicts r hr (demo_ok _) (by norm_num [wdmPlain]) (by norm_num [wdmPlain])
    (by simp [wdmPlain]) (by norm_num [wdmPlain]) (by norm_num [wdmPlain]) (.inl ⟨_, rfl⟩) (.inl (by simp [wdmPlain]))
    (.inl (by simp [wdmPlain])) (by simp [Spec91.fieldName, wdmPlain]) rfl rfl rfl
    (fun _ => ⟨by norm_num [wdmPlain], demo_host _ _ _⟩) (fun _ => demo_apart _)

/-- **C91** for two such calls. -/
example (E : Preset.Env) : ∃ less more, runWdm demoWorld E (wdmPlain 0.5 1.5 8 Kwargs.empty Kwargs.empty none) freshDicts = .ok less ∧
    runWdm demoWorld E (wdmPlain 0.5 1.5 7 Kwargs.empty Kwargs.empty none) freshDicts = .ok more ∧
    (less.map Spec91.key).Sublist (more.map Spec91.key) := by
  obtain ⟨less, h1⟩ := demo_wdm E 8
  obtain ⟨more, h2⟩ := demo_wdm E 7
  exact ⟨less, more, h1, h2, c91_larger_cutoff demoWorld demo_variates E (wdmPlain 0.5 1.5 7 Kwargs.empty Kwargs.empty none)
    freshDicts freshDicts 7 8 (by norm_num) (.inl ⟨6, rfl, by norm_num [wdmPlain]⟩) (.inl (by simp [wdmPlain]))
    (.inl (by simp [wdmPlain])) less more h1 h2⟩

/-- **C91** for a cold and a warm call. -/
example (E : Preset.Env) : ∃ cold warm, runCdm demoWorld E demoCdm freshDicts = .ok cold ∧
    runWdm demoWorld E (wdmPlain 0.5 1.5 7 Kwargs.empty Kwargs.empty none) freshDicts = .ok warm ∧
    (warm.map Spec91.key).Sublist (cold.map Spec91.key) := by
  obtain ⟨cold, h1⟩ := demo_cdm E
  obtain ⟨warm, h2⟩ := demo_wdm E 7
  exact ⟨cold, warm, h1, h2, c91_wdm_cdm_partial demoWorld demo_variates E E demoCdm
    (wdmPlain 0.5 1.5 7 Kwargs.empty Kwargs.empty none) freshDicts freshDicts
    ⟨rfl, rfl, rfl, rfl, rfl, rfl, rfl, rfl, rfl, rfl, rfl, rfl, rfl, rfl, rfl, rfl, rfl, rfl, rfl, rfl⟩
    (by norm_num [demoCdm]) rfl rfl rfl cold warm h1 h2⟩

/-- **C92**: the mass function of the concrete world is a power law. -/
example (kc : ℕ) (z : ℝ) : Spec92.powerLaw demoWorld kc z (10 ^ (-7 : ℤ)) (-2) (10 ^ 8) := by
  intro m hm
  simp only [demoWorld]
  rw [Real.rpow_neg (by positivity), Real.rpow_two]
  field_simp

/-- **C93**: a call with a spacing of 0.004. -/
example (E : Preset.Env) (W : Run.World) (d : Dicts) (out : List HaloArgs) :
    runCdm W E { zLens := 0.5, zSource := 1.5, planeSpacing := some 0.004 } d ≠ .ok out :=
  c93_fine_spacing_raises W E _ d 0.004 rfl (by norm_num) (by norm_num) (by norm_num) (by norm_num) rfl out

end PyHalo.Props
