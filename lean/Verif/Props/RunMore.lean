import Verif.Props.RunWorks

/-!
# Warm dark matter calls: success, and the dependence on the cutoff

The rest of C90 and C91.
-/

namespace PyHalo.Props
open PyHalo.Run Preset Spec

/-- Mass function models with a suppression: those with coefficients from the literature, and those with coefficients from
the dictionary if the dictionary has them and they have the right signs. -/
def Spec91.suppressed (name : String) (kw : Kwargs) : Prop :=
  name ∈ ["SHMF_LOVELL2020", "LOVELL2020", "SHMF_LOVELL2014", "LOVELL2014", "SCHIVE2016", "SHMF_SCHIVE2016"] ∨
  ∃ a b c, kw "a_wdm" = some (.num a) ∧ kw "b_wdm" = some (.num b) ∧ kw "c_wdm" = some (.num c) ∧ 0 ≤ a ∧ 0 ≤ b ∧ c ≤ 0 ∧
    (name ∈ ["POWER_LAW_TURNOVER_SHMF", "POWER_LAW_TURNOVER"] ∨
      name ∈ ["SHMF_MIXED_WDM_TURNOVER", "MIXED_WDM_TURNOVER"] ∧
        ∃ f, kw "mixed_DM_frac" = some (.num f) ∧ 0 ≤ f ∧ f ≤ 1)

theorem turnoverWDM_antitone {a b c x y m : ℝ} (ha : 0 ≤ a) (hb : 0 ≤ b) (hc : c ≤ 0) (hxy : x ≤ y) (hm : 0 < m) :
    turnoverWDM y a b c m ≤ turnoverWDM x a b c m := by
  unfold turnoverWDM
  have h0 : ∀ t : ℝ, 0 ≤ (10 : ℝ) ^ t / m := fun t => div_nonneg (Real.rpow_nonneg (by norm_num) _) hm.le
  have h1 : (10 : ℝ) ^ x / m ≤ (10 : ℝ) ^ y / m :=
    div_le_div_of_nonneg_right (Real.rpow_le_rpow_of_exponent_le (by norm_num) hxy) hm.le
  have h2 : ((10 : ℝ) ^ x / m) ^ b ≤ ((10 : ℝ) ^ y / m) ^ b := Real.rpow_le_rpow (h0 x) h1 hb
  have h3 : 0 ≤ ((10 : ℝ) ^ x / m) ^ b := Real.rpow_nonneg (h0 x) _
  exact Real.rpow_le_rpow_of_nonpos (by positivity) (by nlinarith) hc

theorem turnoverMixed_antitone {a b c f x y m : ℝ} (ha : 0 ≤ a) (hb : 0 ≤ b) (hc : c ≤ 0) (hf : 0 ≤ f) (hf' : f ≤ 1)
    (hxy : x ≤ y) (hm : 0 < m) : turnoverMixed y a b c f m ≤ turnoverMixed x a b c f m := by
  have h := Real.sqrt_le_sqrt (turnoverWDM_antitone ha hb hc hxy hm)
  unfold turnoverMixed
  unfold turnoverWDM at h
  have h1 := Real.sqrt_nonneg ((1 + a * ((10 : ℝ) ^ y / m) ^ b) ^ c)
  refine pow_le_pow_left₀ (add_nonneg hf (mul_nonneg (by linarith) h1)) ?_ 2
  nlinarith

/-- The suppression of such a model as a function of the cutoff. -/
theorem suppressed_turnover {E : Preset.Env} {name : String} {kw : Kwargs} {o : Cls × Kwargs}
    (h : massFunctionModel E name kw = .ok o) (hs : Spec91.suppressed name kw) :
    ∃ T : ℝ → ℝ → ℝ, (∀ x y m, x ≤ y → 0 < m → T y m ≤ T x m) ∧ ∀ kw' x,
      (∀ k ∈ ["a_wdm", "b_wdm", "c_wdm", "mixed_DM_frac"], kw' k = o.2 k) → kw' "log_mc" = some (.num x) →
      turnoverOf o.1 kw' = .ok (some (T x)) := by
  have wdm : ∀ a b c, 0 ≤ a → 0 ≤ b → c ≤ 0 → o.1 = .named "WDMPowerLaw" ∨ o.1 = .named "ShethTormenTurnover" →
      o.2 "a_wdm" = some (.num a) → o.2 "b_wdm" = some (.num b) → o.2 "c_wdm" = some (.num c) →
      ∃ T : ℝ → ℝ → ℝ, (∀ x y m, x ≤ y → 0 < m → T y m ≤ T x m) ∧ ∀ kw' x,
      (∀ k ∈ ["a_wdm", "b_wdm", "c_wdm", "mixed_DM_frac"], kw' k = o.2 k) → kw' "log_mc" = some (.num x) →
      turnoverOf o.1 kw' = .ok (some (T x)) := by
    intro a b c ha hb hc ho e1 e2 e3
    refine ⟨fun x => turnoverWDM x a b c, fun x y m hxy hm => turnoverWDM_antitone ha hb hc hxy hm, ?_⟩
    intro kw' x hk hx
    have f1 := (hk "a_wdm" (by simp)).trans e1
    have f2 := (hk "b_wdm" (by simp)).trans e2
    have f3 := (hk "c_wdm" (by simp)).trans e3
    unfold turnoverOf
    rw [if_neg (by rcases ho with ho | ho <;> simp [ho]), if_pos ho]
    simp [Kwargs.num, f1, f2, f3, hx, bind, Except.bind, pure, Except.pure]
  have lit : ∀ a b c, o.2 = setABC kw a b c → 0 ≤ a → 0 ≤ b → c ≤ 0 →
      o.1 = .named "WDMPowerLaw" ∨ o.1 = .named "ShethTormenTurnover" →
      ∃ T : ℝ → ℝ → ℝ, (∀ x y m, x ≤ y → 0 < m → T y m ≤ T x m) ∧ ∀ kw' x,
      (∀ k ∈ ["a_wdm", "b_wdm", "c_wdm", "mixed_DM_frac"], kw' k = o.2 k) → kw' "log_mc" = some (.num x) →
      turnoverOf o.1 kw' = .ok (some (T x)) := by
    intro a b c ho ha hb hc h1
    exact wdm a b c ha hb hc h1 (by rw [ho]; simp [setABC, Kwargs.set]) (by rw [ho]; simp [setABC, Kwargs.set])
      (by rw [ho]; simp [setABC, Kwargs.set])
  rcases hs with hs | ⟨a, b, c, e1, e2, e3, ha, hb, hc, hs | ⟨hs, f, e4, hf, hf'⟩⟩
  · simp only [List.mem_cons, List.not_mem_nil, or_false] at hs
    rcases hs with rfl | rfl | rfl | rfl | rfl | rfl <;> cases h <;>
      exact lit _ _ _ rfl (by norm_num) (by norm_num) (by norm_num) (by simp)
  · simp only [List.mem_cons, List.not_mem_nil, or_false] at hs
    rcases hs with rfl | rfl <;> cases h <;> exact wdm a b c ha hb hc (by simp) e1 e2 e3
  · simp only [List.mem_cons, List.not_mem_nil, or_false] at hs
    have ho : (o.1 = .named "MixedWDMPowerLaw" ∨ o.1 = .named "ShethTormenMixedWDM") ∧ o.2 = kw := by
      rcases hs with rfl | rfl <;> cases h <;> simp
    refine ⟨fun x => turnoverMixed x a b c f, fun x y m hxy hm => turnoverMixed_antitone ha hb hc hf hf' hxy hm, ?_⟩
    intro kw' x hk hx
    rw [ho.2] at hk
    have f1 := (hk "a_wdm" (by simp)).trans e1
    have f2 := (hk "b_wdm" (by simp)).trans e2
    have f3 := (hk "c_wdm" (by simp)).trans e3
    have f4 := (hk "mixed_DM_frac" (by simp)).trans e4
    unfold turnoverOf
    rw [if_neg (by rcases ho.1 with ho | ho <;> simp [ho]), if_neg (by rcases ho.1 with ho | ho <;> simp [ho]), if_pos ho.1]
    simp [Kwargs.num, f1, f2, f3, f4, hx, bind, Except.bind, pure, Except.pure]

theorem wdmSub_other (b : WdmArgs) (kw : Kwargs) (k : String) (h : k ∈ ["a_wdm", "b_wdm", "c_wdm", "mixed_DM_frac", "log_mc"]) :
    wdmSubKwargs b kw k = kw k := by
  simp only [List.mem_cons, List.not_mem_nil, or_false] at h
  rw [wdmSub_get b kw k (by rintro rfl; simp at h) (by rintro rfl; simp at h)]
  rcases h with rfl | rfl | rfl | rfl | rfl <;> simp [Kwargs.update, ofList_cons, ofList_nil]

theorem wdmLos_other (b : WdmArgs) (kw : Kwargs) (k : String) (h : k ∈ ["a_wdm", "b_wdm", "c_wdm", "mixed_DM_frac", "log_mc"]) :
    wdmLosKwargs b kw k = kw k := by
  simp only [List.mem_cons, List.not_mem_nil, or_false] at h
  rcases h with rfl | rfl | rfl | rfl | rfl <;> simp [wdmLosKwargs, Kwargs.update, ofList_cons, ofList_nil]

theorem sub_turnover {E : Preset.Env} {b : WdmArgs} {o : Cls × Kwargs} (h : massFunctionModel E b.massSub b.massSubKw = .ok o)
    (hs : Spec91.suppressed b.massSub b.massSubKw) :
    ∃ T : ℝ → ℝ → ℝ, (∀ x y m, x ≤ y → 0 < m → T y m ≤ T x m) ∧ ∀ b' x,
      turnoverOf o.1 (wdmSubKwargs b' (o.2.set "log_mc" (.num x))) = .ok (some (T x)) := by
  obtain ⟨T, hT, hT'⟩ := suppressed_turnover h hs
  refine ⟨T, hT, fun b' x => hT' _ x (fun k hk => ?_) ?_⟩
  · have hk' : k ∈ ["a_wdm", "b_wdm", "c_wdm", "mixed_DM_frac", "log_mc"] := by
      simp only [List.mem_cons, List.not_mem_nil, or_false] at hk ⊢; tauto
    rw [wdmSub_other _ _ _ hk']
    simp only [List.mem_cons, List.not_mem_nil, or_false] at hk
    rcases hk with rfl | rfl | rfl | rfl <;> simp [Kwargs.set]
  · rw [wdmSub_other _ _ _ (by simp)]; simp [Kwargs.set]

theorem los_turnover {E : Preset.Env} {b : WdmArgs} {o : Cls × Kwargs} (h : massFunctionModel E b.massField b.massFieldKw = .ok o)
    (hs : Spec91.suppressed b.massField b.massFieldKw) :
    ∃ T : ℝ → ℝ → ℝ, (∀ x y m, x ≤ y → 0 < m → T y m ≤ T x m) ∧ ∀ b' x,
      turnoverOf o.1 (wdmLosKwargs b' (o.2.set "log_mc" (.num x))) = .ok (some (T x)) := by
  obtain ⟨T, hT, hT'⟩ := suppressed_turnover h hs
  refine ⟨T, hT, fun b' x => hT' _ x (fun k hk => ?_) ?_⟩
  · have hk' : k ∈ ["a_wdm", "b_wdm", "c_wdm", "mixed_DM_frac", "log_mc"] := by
      simp only [List.mem_cons, List.not_mem_nil, or_false] at hk ⊢; tauto
    rw [wdmLos_other _ _ _ hk']
    simp only [List.mem_cons, List.not_mem_nil, or_false] at hk
    rcases hk with rfl | rfl | rfl | rfl <;> simp [Kwargs.set]
  · rw [wdmLos_other _ _ _ (by simp)]; simp [Kwargs.set]

/-- A field population needs a model with the method `from_redshift`. -/
def Spec91.fieldName (name : String) : Prop :=
  name ∈ ["LOVELL2020", "LOVELL2014", "SCHIVE2016", "POWER_LAW_TURNOVER", "MIXED_WDM_TURNOVER"]

theorem field_class {E : Preset.Env} {name : String} {kw : Kwargs} {o : Cls × Kwargs}
    (h : massFunctionModel E name kw = .ok o) (hs : Spec91.fieldName name) :
    o.1 ∈ [Cls.named "ShethTormen", .named "ShethTormenTurnover", .named "ShethTormenMixedWDM"] := by
  unfold Spec91.fieldName at hs
  simp only [List.mem_cons, List.not_mem_nil, or_false] at hs
  rcases hs with rfl | rfl | rfl | rfl | rfl <;> cases h <;> simp

/-- **C90, second half, for `WDM`.** -/
theorem c90_wdm_works (W : Run.World) (hV : Variates W) (E : Preset.Env) (a : WdmArgs) (d : Dicts) (r : Request)
    (hr : (Preset.wdm E a d).1 = .ok r) (hW : WorldOk W a.kwargsCosmo) (h0 : 0 < a.zLens) (hl : a.zLens < a.zSource)
    (hs : ∀ s, a.planeSpacing = some s → 0 < s) (h1 : 0 ≤ a.sigmaSub) (h2 : 0 ≤ a.losNormalization)
    (hlo : (∃ x, a.logMlow = .num x) ∨ ∃ m kc l, a.logMlow = .minMass m kc l)
    (hS : Spec91.suppressed a.massSub a.massSubKw) (hF : Spec91.suppressed a.massField a.massFieldKw)
    (hF' : Spec91.fieldName a.massField) (n1 : a.massSubKw "sigma_sub" = none) (n2 : a.massSubKw "dndA" = none)
    (n3 : a.massFieldKw "host_m200" = none)
    (hH : a.spatial = "PROJECTED_NFW" → 0 < a.rTidal ∧ HostOk W a.kwargsCosmo (10 ^ a.logMHost) a.zLens (a.cone / 2))
    (h3 : a.twoHalo = true → Spec90.apart W a.kwargsCosmo a.zLens a.zSource a.planeSpacing) :
    ∃ out, runWdm W E a d = .ok out := by
  obtain ⟨hgeo, inf, ms, mf, cs, cf, cHost, -, hmass, -, has⟩ := wdm_ok hr
  have hg : ∃ g, geometryOf W a.zLens a.zSource a.cone a.geometryType a.kwargsCosmo = .ok g ∧ g.openingAngle = a.cone := by
    unfold geometryOf volumeOfName
    rcases hgeo with h | h | h <;> rw [h] <;> simp [bind, Except.bind, pure, Except.pure]
  obtain ⟨g, hg, hgc⟩ := hg
  obtain ⟨P, G, hP, hP', hlen, hG⟩ := planes_ok h0 hl hs
  obtain ⟨ts, tf, sp, spKw, -, hsp, hp, hf, hk, hss, -⟩ := (wdmAssemble_ok has).2
  have hsk : r.spatialKwargs = [spKw, Kwargs.ofList [("cone_opening_angle", .num a.cone), ("geometry",
        .geometry a.zLens a.zSource a.cone a.geometryType a.kwargsCosmo)], Kwargs.ofList [("cone_opening_angle", .num a.cone),
        ("geometry", .geometry a.zLens a.zSource a.cone a.geometryType a.kwargsCosmo)]] := by
    have hcusp := (wdmAssemble_ok has).1
    unfold wdmAssemble at has
    obtain ⟨_, -, has⟩ := bind_ok has
    obtain ⟨q, hq, has⟩ := bind_ok has
    rw [hsp] at hq
    cases hq
    dsimp only at has
    rw [if_neg (by simp [hcusp])] at has
    cases has
    rfl
  obtain ⟨i1, -⟩ := wdmAssemble_rest has
  obtain ⟨kwS, rest, hks, -, -, hamp⟩ := c47_wdm_partial E a d r hr (W.kpc a.kwargsCosmo a.zLens) n1 n2
  obtain ⟨s, f, hms, hmf, rfl, rfl⟩ := wdmMass_ok hmass
  rw [hk] at hks
  simp only [List.cons_append, List.cons.injEq] at hks
  rw [← hks.1] at hamp
  obtain ⟨T, -, hT⟩ := sub_turnover hms hS
  obtain ⟨T', -, hT'⟩ := los_turnover hmf hF
  have w := fun k h => wdmLos_get a (f.2.set "log_mc" (.num a.logMc)) k h
  have hL : LosKw (wdmLosKwargs a (f.2.set "log_mc" (.num a.logMc))) a.logMlow (.num a.logMhigh) := by
    refine ⟨?_, ?_, ⟨0, ?_⟩, ⟨a.losNormalization, ?_, h2⟩, ⟨10 ^ 8, ?_, by positivity⟩⟩ <;>
      rw [w _ (by simp)] <;> simp [ofList_cons]
  unfold runWdm
  rw [hr]
  simp only [bind, Except.bind, hg]
  refine render_works (P := P) (G := G) (by rw [i1]; exact hP) ?_
  intro p hpm
  rw [hp] at hpm
  unfold populationAt
  rw [hf, hk, hss, hsk]
  rcases pops_cases hpm with rfl | rfl | ⟨rfl, htwo⟩
  · simp only [item, List.cons_append, List.getElem?_cons_zero, bind, Except.bind]
    refine subPop_works (vl := a.logMlow) (vh := .num a.logMhigh) ?_ ?_ hlo ⟨_, rfl⟩ ⟨_, hT a a.logMc⟩
      ⟨_, by simp only; rw [hgc]; exact hamp, norm_nonneg h1 _ _ _ _ _ _ _⟩ (subSpatial_works hV hg hsp hH)
    · rw [wdmSub_get a _ _ (by decide) (by decide)]; simp [Kwargs.update, ofList_cons]
    · rw [wdmSub_get a _ _ (by decide) (by decide)]; simp [Kwargs.update, ofList_cons]
  · simp only [item, List.cons_append, List.getElem?_cons_zero, List.getElem?_cons_succ, bind, Except.bind]
    exact losPop_works hW hL hlo ⟨_, rfl⟩ (field_class hmf hF') ⟨_, hT' a a.logMc⟩ (coneSpatial_works hg) hG
  · simp only [item, htwo, if_true, List.cons_append, List.nil_append, List.getElem?_cons_zero, List.getElem?_cons_succ, bind,
      Except.bind]
    refine twoHaloPop_works hW zero_le_one hL hlo ⟨_, rfl⟩ (field_class hmf hF') ⟨_, hT' a a.logMc⟩ (coneSpatial_works hg)
      ⟨10 ^ a.logMHost, ?_⟩ hP' hlen hG (h3 htwo P G hP)
    have hh : wdmLosKwargs a (f.2.set "log_mc" (.num a.logMc)) "host_m200" = none := by
      have : f.2 "host_m200" = none := (massFunctionModel_get hmf _ (by simp)).trans n3
      simp [wdmLosKwargs, Kwargs.update, ofList_cons, ofList_nil, Kwargs.set, this]
    unfold twoHaloHost
    rw [hh, w "log_m_host" (by simp)]
    simp [ofList_cons, Kwargs.num, w "log_m_host", bind, Except.bind, pure, Except.pure]

theorem subAmplitude_congr {kw kw' : Kwargs} (h : ∀ k, k ≠ "log_mc" → kw k = kw' k) (z kpc cone : ℝ) :
    subAmplitude kw z kpc cone = subAmplitude kw' z kpc cone := by
  unfold subAmplitude subKwargs Kwargs.num
  simp only [h "power_law_index" (by decide), h "delta_power_law_index" (by decide), h "m_pivot" (by decide), h "host_scaling_factor" (by decide),
    h "redshift_scaling_factor" (by decide), h "sigma_sub" (by decide), h "dndA" (by decide), h "log_m_host" (by decide)]

/-- Two dictionaries that differ in the cutoff. -/
theorem thinned_cutoff {W : Run.World} {S : Setup} {Z : ℝ → Prop} {name : String} {mc : Cls} {kw kw' : Kwargs}
    (h : ∀ k, k ≠ "log_mc" → kw k = kw' k) (hr : ∀ lo hi, limit W kw "log_mlow" = .ok lo → limit W kw "log_mhigh" = .ok hi →
      ∀ z, Z z → lo z ≤ hi z) (hs : ∀ t t', turnoverOf mc kw = .ok t → turnoverOf mc kw' = .ok t' → Stronger t t') :
    Thinned W S Z name mc kw mc kw' := by
  refine ⟨?_, ?_, hr, ?_, fun _ => ?_, fun _ => ?_, h _ (by decide), fun _ => ?_, fun _ => subAmplitude_congr h _ _ _, hs⟩
  · unfold limit; rw [h _ (by decide)]
  · unfold limit; rw [h _ (by decide)]
  · unfold Kwargs.num; rw [h _ (by decide)]
  · unfold Kwargs.num; rw [h _ (by decide)]
  · unfold Kwargs.num; rw [h _ (by decide)]
  · unfold twoHaloHost Kwargs.num; rw [h _ (by decide), h _ (by decide)]

theorem wdmSub_cutoff (b : WdmArgs) (x y : ℝ) (kw : Kwargs) (k : String) (hk : k ≠ "log_mc") :
    wdmSubKwargs { b with logMc := y } (kw.set "log_mc" (.num y)) k = wdmSubKwargs { b with logMc := x } (kw.set "log_mc" (.num x)) k := by
  simp [wdmSubKwargs, Kwargs.update, Kwargs.set, hk]

theorem wdmLos_cutoff (b : WdmArgs) (x y : ℝ) (kw : Kwargs) (k : String) (hk : k ≠ "log_mc") :
    wdmLosKwargs { b with logMc := y } (kw.set "log_mc" (.num y)) k = wdmLosKwargs { b with logMc := x } (kw.set "log_mc" (.num x)) k := by
  simp [wdmLosKwargs, Kwargs.update, Kwargs.set, hk]

theorem stronger_of {f f' : ℝ → ℝ} (h : ∀ m, 0 < m → f m ≤ f' m) : Stronger (some f) (some f') := by
  intro g hg
  cases hg
  exact ⟨f, rfl, h⟩

/-- **C91, the cutoff.** Two calls of `WDM` with the same random numbers that differ in `log_mc`: the call with the larger
cutoff returns some of the halos of the other, with the same masses and redshifts in the same order, and no others. The
default dictionaries of the other models may have been written by earlier calls in between. -/
theorem c91_larger_cutoff (W : Run.World) (hW : Variates W) (E : Preset.Env) (b : WdmArgs) (d d' : Dicts) (x y : ℝ) (hxy : x ≤ y)
    (hlo : (∃ l, b.logMlow = .num l ∧ l ≤ b.logMhigh) ∨
      ∃ m kc l, b.logMlow = .minMass m kc l ∧
        ∀ z, Spec90.rendered b.zLens b.zSource b.planeSpacing z → Uldm.minMass (W.om kc) m l z ≤ b.logMhigh)
    (hS : Spec91.suppressed b.massSub b.massSubKw) (hF : Spec91.suppressed b.massField b.massFieldKw)
    (less more : List HaloArgs) (h1 : runWdm W E { b with logMc := y } d = .ok less)
    (h2 : runWdm W E { b with logMc := x } d' = .ok more) :
    (less.map Spec91.key).Sublist (more.map Spec91.key) := by
  unfold runWdm at h1 h2
  obtain ⟨r, hr, h1⟩ := bind_ok h1
  obtain ⟨r', hr', h2⟩ := bind_ok h2
  obtain ⟨g, hg, h1⟩ := bind_ok h1
  obtain ⟨g', hg', h2⟩ := bind_ok h2
  simp only at hg hg' h1 h2
  rw [hg] at hg'
  cases hg'
  obtain ⟨-, inf, ms, mf, cs, cf, cHost, -, hmass, -, has⟩ := wdm_ok hr
  obtain ⟨-, inf', ms', mf', cs', cf', cHost', -, hmass', -, has'⟩ := wdm_ok hr'
  obtain ⟨-, ts, tf, sp, spKw, -, -, hp, hf, hk, -⟩ := wdmAssemble_ok has
  obtain ⟨-, ts', tf', sp', spKw', -, -, hp', hf', hk', -⟩ := wdmAssemble_ok has'
  obtain ⟨i1, i2⟩ := wdmAssemble_rest has
  obtain ⟨i1', i2'⟩ := wdmAssemble_rest has'
  obtain ⟨s, f, hs, hff, rfl, rfl⟩ := wdmMass_ok hmass
  obtain ⟨s', f', hs', hff', rfl, rfl⟩ := wdmMass_ok hmass'
  simp only at hs hff hs' hff' hp hp' hf hf' hk hk' i1 i1' i2 i2'
  rw [hs] at hs'
  rw [hff] at hff'
  cases hs'
  cases hff'
  obtain ⟨T, m1, hT⟩ := sub_turnover hs hS
  obtain ⟨T', m1', hT'⟩ := los_turnover hff hF
  have range : ∀ kw : Kwargs, kw "log_mlow" = some b.logMlow → kw "log_mhigh" = some (.num b.logMhigh) →
      ∀ lo hi, limit W kw "log_mlow" = .ok lo → limit W kw "log_mhigh" = .ok hi →
      ∀ z, Spec90.rendered b.zLens b.zSource r.planeSpacing z → lo z ≤ hi z := by
    intro kw k1 k2 lo hi q1 q2 z hz
    unfold limit at q1 q2
    rw [k1] at q1
    rw [k2] at q2
    rcases hlo with ⟨l, e, hl⟩ | ⟨m, kc, l, e, hl⟩
    · rw [e] at q1; cases q1; cases q2; exact hl
    · rw [e] at q1; cases q1; cases q2; exact hl z (i1 ▸ hz)
  refine render_sublist hW (by rw [hp, hp']) (by rw [i1, i1']) (by rw [i2, i2']) ?_ h1 h2
  have hT1 : Thinned W ⟨b.zLens, b.zSource, b.kwargsCosmo, g⟩ (Spec90.rendered b.zLens b.zSource r.planeSpacing) "SUBHALOS" s.1
      (wdmSubKwargs { b with logMc := y } (s.2.set "log_mc" (.num y))) s.1
      (wdmSubKwargs { b with logMc := x } (s.2.set "log_mc" (.num x))) := by
    refine thinned_cutoff (wdmSub_cutoff b x y s.2) (range _ ?_ ?_) ?_
    · rw [wdmSub_get _ _ _ (by decide) (by decide)]; simp [Kwargs.update, ofList_cons]
    · rw [wdmSub_get _ _ _ (by decide) (by decide)]; simp [Kwargs.update, ofList_cons]
    · intro t t' q1 q2
      rw [hT] at q1 q2
      cases q1
      cases q2
      exact stronger_of fun m hm => m1 x y m hxy hm
  have hT2 : ∀ name, Thinned W ⟨b.zLens, b.zSource, b.kwargsCosmo, g⟩ (Spec90.rendered b.zLens b.zSource r.planeSpacing) name f.1
      (wdmLosKwargs { b with logMc := y } (f.2.set "log_mc" (.num y))) f.1
      (wdmLosKwargs { b with logMc := x } (f.2.set "log_mc" (.num x))) := by
    intro name
    refine thinned_cutoff (wdmLos_cutoff b x y f.2) (range _ ?_ ?_) ?_
    · rw [wdmLos_get _ _ _ (by simp)]; simp [ofList_cons]
    · rw [wdmLos_get _ _ _ (by simp)]; simp [ofList_cons]
    · intro t t' q1 q2
      rw [hT'] at q1 q2
      cases q1
      cases q2
      exact stronger_of fun m hm => m1' x y m hxy hm
  intro p hpm mc mkw mc' mkw' e1 e2 e3 e4
  rw [hp] at hpm
  rw [hf] at e1
  rw [hk] at e2
  rw [hf'] at e3
  rw [hk'] at e4
  rcases pops_cases hpm with rfl | rfl | ⟨rfl, htwo⟩
  · simp only [List.cons_append, List.getElem?_cons_zero, Option.some.injEq] at e1 e2 e3 e4
    subst e1 e2 e3 e4
    exact hT1
  · simp only [List.cons_append, List.getElem?_cons_zero, List.getElem?_cons_succ, Option.some.injEq] at e1 e2 e3 e4
    subst e1 e2 e3 e4
    exact hT2 _
  · simp only [htwo, if_true, List.cons_append, List.nil_append, List.getElem?_cons_zero, List.getElem?_cons_succ,
      Option.some.injEq] at e1 e2 e3 e4
    subst e1 e2 e3 e4
    exact hT2 _

end PyHalo.Props
