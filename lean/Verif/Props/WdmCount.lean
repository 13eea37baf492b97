import Verif.Props.WholeWdm

/-!
# How many halos a call of `WDM` renders, and of which masses (C99)
-/

namespace PyHalo.Props
open PyHalo.Run Preset Spec

namespace Spec99

/-- The call of `CDM` with the same arguments and the lower mass limit `10 ^ lo`. -/
noncomputable def cold (b : WdmArgs) (lo : ℝ) : CdmArgs :=
  { zLens := b.zLens, zSource := b.zSource, sigmaSub := b.sigmaSub, logMlow := lo, logMhigh := b.logMhigh,
    log10SigmaSub := b.log10SigmaSub, log10dNdA := b.log10dNdA, twoHalo := b.twoHalo, shmfLogSlope := b.shmfLogSlope,
    cone := b.cone, logMHost := b.logMHost, losNormalization := b.losNormalization, deltaPowerLawIndex := 0,
    geometryType := b.geometryType, kwargsCosmo := b.kwargsCosmo, hostScaling := b.hostScaling,
    redshiftScaling := b.redshiftScaling, lazar := b.lazar, drawPoisson := b.drawPoisson, planeSpacing := b.planeSpacing }

/-- The lower limit of the call, as a function of redshift: a number, or the function of `ULDM`. -/
def Lowest (W : Run.World) (b : WdmArgs) (lo : ℝ → ℝ) : Prop :=
  b.logMlow = .num (lo 0) ∧ (∀ z, lo z = lo 0) ∨
    ∃ m kc l, b.logMlow = .minMass m kc l ∧ ∀ z, lo z = Uldm.minMass (W.om kc) m l z

/-- An entry of a dictionary that is a number. -/
noncomputable def entry (kw : Kwargs) (k : String) : ℝ :=
  match kw k with
  | some (.num x) => x
  | _ => 0

/-- The fraction of halos of mass `m` that survives in the mass function model `name` for the half-mode mass `10 ^ mc`. -/
noncomputable def survival (name : String) (kw : Kwargs) (mc m : ℝ) : ℝ :=
  let law (a b c : ℝ) : ℝ := (1 + a * ((10 : ℝ) ^ mc / m) ^ b) ^ c
  let own := law (entry kw "a_wdm") (entry kw "b_wdm") (entry kw "c_wdm")
  let f := entry kw "mixed_DM_frac"
  if name = "SHMF_LOVELL2020" then law 36.15 2.5 (-0.2)
  else if name = "LOVELL2020" then law 1.95 0.8 (-1)
  else if name = "SHMF_LOVELL2014" ∨ name = "LOVELL2014" then law 1 1 (-1.3)
  else if name = "SHMF_SCHIVE2016" ∨ name = "SCHIVE2016" then law 1 1.1 (-2.2)
  else if name = "POWER_LAW_TURNOVER_SHMF" ∨ name = "POWER_LAW_TURNOVER" then own
  else (f + (1 - f) * Real.sqrt own) ^ 2

/-- Of the masses `drawn` those that survive: the `i`-th does if the variate `v i` is below the fraction for its mass. -/
noncomputable def kept (T : ℝ → ℝ) (v : ℕ → ℝ) (drawn : List ℝ) : List ℝ :=
  (drawn.zipIdx.filter fun q => decide (v q.2 < T q.1)).map Prod.fst

/-- `drawn` are `n` masses between the limits; the `i`-th has the fraction `u i` of the expected number below it. -/
structure Quantiles (n : ℕ) (lo hi : ℝ) (upTo : ℝ → ℝ) (u : ℕ → ℝ) (drawn : List ℝ) : Prop where
  number : drawn.length = n
  each : ∀ (i : ℕ) (m : ℝ), drawn[i]? = some m → m ∈ Set.Icc ((10 : ℝ) ^ lo) (10 ^ hi) ∧ upTo m = u i * upTo (10 ^ hi)

end Spec99

/-- The suppression the code uses for a name of a model. -/
theorem survival_turnover {E : Preset.Env} {name : String} {kw : Kwargs} {o : Cls × Kwargs}
    (h : massFunctionModel E name kw = .ok o) (hs : Spec91.suppressed name kw) :
    ∀ kw' x, (∀ k ∈ ["a_wdm", "b_wdm", "c_wdm", "mixed_DM_frac"], kw' k = o.2 k) → kw' "log_mc" = some (.num x) →
      turnoverOf o.1 kw' = .ok (some (Spec99.survival name kw x)) := by
  intro kw' x hk hx
  have one : (1.0 : ℝ) = 1 := by norm_num
  have wdm : ∀ a b c, o.1 = .named "WDMPowerLaw" ∨ o.1 = .named "ShethTormenTurnover" →
      o.2 "a_wdm" = some (.num a) → o.2 "b_wdm" = some (.num b) → o.2 "c_wdm" = some (.num c) →
      turnoverOf o.1 kw' = .ok (some (turnoverWDM x a b c)) := by
    intro a b c ho e1 e2 e3
    have f1 := (hk "a_wdm" (by simp)).trans e1
    have f2 := (hk "b_wdm" (by simp)).trans e2
    have f3 := (hk "c_wdm" (by simp)).trans e3
    unfold turnoverOf
    rw [if_neg (by rcases ho with ho | ho <;> simp [ho]), if_pos ho]
    simp [Kwargs.num, f1, f2, f3, hx, bind, Except.bind, pure, Except.pure]
  have lit : ∀ a b c, o.2 = setABC kw a b c → o.1 = .named "WDMPowerLaw" ∨ o.1 = .named "ShethTormenTurnover" →
      turnoverOf o.1 kw' = .ok (some (turnoverWDM x a b c)) := by
    intro a b c ho h1
    exact wdm a b c h1 (by rw [ho]; simp [setABC, Kwargs.set]) (by rw [ho]; simp [setABC, Kwargs.set])
      (by rw [ho]; simp [setABC, Kwargs.set])
  rcases hs with hs | ⟨a, b, c, e1, e2, e3, ha, hb, hc, hs | ⟨hs, f, e4, hf, hf'⟩⟩
  · simp only [List.mem_cons, List.not_mem_nil, or_false] at hs
    rcases hs with rfl | rfl | rfl | rfl | rfl | rfl <;> cases h <;> rw [lit _ _ _ rfl (by simp)] <;> congr 2 <;> funext m <;>
      simp [Spec99.survival, turnoverWDM, one]
  · simp only [List.mem_cons, List.not_mem_nil, or_false] at hs
    rcases hs with rfl | rfl <;> cases h <;> rw [wdm a b c (by simp) e1 e2 e3] <;> congr 2 <;> funext m <;>
      simp [Spec99.survival, Spec99.entry, turnoverWDM, e1, e2, e3]
  · simp only [List.mem_cons, List.not_mem_nil, or_false] at hs
    have ho : (o.1 = .named "MixedWDMPowerLaw" ∨ o.1 = .named "ShethTormenMixedWDM") ∧ o.2 = kw := by
      rcases hs with rfl | rfl <;> cases h <;> simp
    rw [ho.2] at hk
    have f1 := (hk "a_wdm" (by simp)).trans e1
    have f2 := (hk "b_wdm" (by simp)).trans e2
    have f3 := (hk "c_wdm" (by simp)).trans e3
    have f4 := (hk "mixed_DM_frac" (by simp)).trans e4
    unfold turnoverOf
    rw [if_neg (by rcases ho.1 with ho | ho <;> simp [ho]), if_neg (by rcases ho.1 with ho | ho <;> simp [ho]), if_pos ho.1]
    simp only [Kwargs.num, f1, f2, f3, f4, hx, bind, Except.bind, pure, Except.pure]
    congr 2
    funext m
    rcases hs with rfl | rfl <;> simp [Spec99.survival, Spec99.entry, turnoverMixed, e1, e2, e3, e4]

theorem sub_survival {E : Preset.Env} {b : WdmArgs} {o : Cls × Kwargs} (h : massFunctionModel E b.massSub b.massSubKw = .ok o)
    (hs : Spec91.suppressed b.massSub b.massSubKw) (x : ℝ) :
    turnoverOf o.1 (wdmSubKwargs b (o.2.set "log_mc" (.num x))) = .ok (some (Spec99.survival b.massSub b.massSubKw x)) := by
  refine survival_turnover h hs _ x (fun k hk => ?_) ?_
  · have hk' : k ∈ ["a_wdm", "b_wdm", "c_wdm", "mixed_DM_frac", "log_mc"] := by
      simp only [List.mem_cons, List.not_mem_nil, or_false] at hk ⊢; tauto
    rw [wdmSub_other _ _ _ hk']
    simp only [List.mem_cons, List.not_mem_nil, or_false] at hk
    rcases hk with rfl | rfl | rfl | rfl <;> simp [Kwargs.set]
  · rw [wdmSub_other _ _ _ (by simp)]; simp [Kwargs.set]

theorem los_survival {E : Preset.Env} {b : WdmArgs} {o : Cls × Kwargs} (h : massFunctionModel E b.massField b.massFieldKw = .ok o)
    (hs : Spec91.suppressed b.massField b.massFieldKw) (x : ℝ) :
    turnoverOf o.1 (wdmLosKwargs b (o.2.set "log_mc" (.num x))) =
      .ok (some (Spec99.survival b.massField b.massFieldKw x)) := by
  refine survival_turnover h hs _ x (fun k hk => ?_) ?_
  · have hk' : k ∈ ["a_wdm", "b_wdm", "c_wdm", "mixed_DM_frac", "log_mc"] := by
      simp only [List.mem_cons, List.not_mem_nil, or_false] at hk ⊢; tauto
    rw [wdmLos_other _ _ _ hk']
    simp only [List.mem_cons, List.not_mem_nil, or_false] at hk
    rcases hk with rfl | rfl | rfl | rfl <;> simp [Kwargs.set]
  · rw [wdmLos_other _ _ _ (by simp)]; simp [Kwargs.set]

/-! ## Draws -/

/-- A suppressed draw: the unsuppressed one, of which some survive. -/
theorem drawn_kept {W : Run.World} {i k : ℕ} {p : PowerLaw} {T : ℝ → ℝ} {l : List ℝ} (h : drawFrom W i k p (some T) = .ok l) :
    ∃ drawn, p.draw (W.pois i k) (W.mass i k) = .ok drawn ∧ l = Spec99.kept T (W.accept i k) drawn := by
  obtain ⟨drawn, h0, -⟩ := drawSuppressed_base h
  refine ⟨drawn, h0, ?_⟩
  have := c20_suppressed_draws p T (W.pois i k) (W.mass i k) (W.accept i k) drawn h0
  have h' : drawSuppressed p T (W.pois i k) (W.mass i k) (W.accept i k) = .ok l := h
  rw [this] at h'
  exact (Except.ok.inj h').symm

theorem draw_quantiles {p : PowerLaw} (hlt : p.logMlow < p.logMhigh) {n : ℕ} {u : ℕ → ℝ} (hu : ∀ i, 0 ≤ u i ∧ u i < 1)
    {upTo : ℝ → ℝ} (hint : ∀ x : ℝ, 0 < x → (∫ m in (10 : ℝ) ^ p.logMlow..x, p.evaluate m) = upTo x) {l : List ℝ}
    (h : p.draw n u = .ok l) :
    Spec99.Quantiles (Spec97.number p.drawPoisson n (upTo (10 ^ p.logMhigh))) p.logMlow p.logMhigh upTo u l := by
  have hmean : p.nMean = upTo (10 ^ p.logMhigh) := by rw [(c52_moments p hlt).1, ← hint _ (pow10_pos _)]
  obtain ⟨hn, hl⟩ := draw_length p _ _ _ h
  refine ⟨by rw [ndraw_number hn, hmean], fun i m hi => ?_⟩
  have hi' : i < l.length := (List.getElem?_eq_some_iff.1 hi).1
  have hinv : m = p.invert (u i) := by
    rw [hl] at hi
    simp [hi'] at hi
    exact hi.symm
  have hr := invert_range p hlt.le (u i) (hu i).1 (hu i).2.le
  have hpos : 0 < m := by rw [hinv]; exact lt_of_lt_of_le (pow10_pos _) hr.1
  have hq := c53_quantile p hlt (u i) (hu i).1 (hu i).2.le
  rw [hmean, ← hinv] at hq
  rw [← hq, ← hint m hpos]
  exact ⟨by rw [hinv]; exact hr, rfl⟩

/-- The masses of the first population of a rendering are drawn from the mass function of subhalos. -/
theorem first_masses {W : Run.World} {S : Setup} {scale : ℝ} {r : Request} {out : List HaloArgs} {rest : List String}
    (h : render W S scale r = .ok out) (hp : r.populations = "SUBHALOS" :: rest) (hrest : ∀ n ∈ rest, n ≠ "SUBHALOS") :
    ∃ mc mkw lo hi, r.massFunctions[0]? = some mc ∧ r.massKwargs[0]? = some mkw ∧ limit W mkw "log_mlow" = .ok lo ∧
      limit W mkw "log_mhigh" = .ok hi ∧ (massFnOf W 0 (subModel W S mc mkw (lo S.zLens) (hi S.zLens))).draw 0 =
        .ok ((out.filter fun t => t.isSubhalo).map fun t => t.mass) := by
  obtain ⟨P, G, q, qs, -, hq, -, hsub, -⟩ := render_split h hp hrest
  obtain ⟨mc, mkw, sc, skw, e1, e2, e3, e4, e5⟩ := populationAt_ok hq
  simp only at e1 e2 e3 e4 e5
  rcases population_ok e5 with ⟨-, s, lo, hi, hs, hlo, hhi, h'⟩ | ⟨h', -⟩ | ⟨h', -⟩
  rotate_left
  · simp at h'
  · simp at h'
  have hal := (c16_subhalos _ _ _ _ (subSpatial_draws hs) _ h').1
  obtain ⟨hd, -⟩ := sub_rows (subSpatial_draws hs) h'
  refine ⟨mc, mkw, lo, hi, e1, e2, hlo, hhi, ?_⟩
  have hfst : (out.filter fun t => t.isSubhalo).map (fun t => t.mass) = q.masses := by
    have e := congrArg (List.map (·.1)) hsub
    rw [List.map_map] at e
    rw [show (out.filter fun t => t.isSubhalo).map (fun t => t.mass) =
      (out.filter fun t => t.isSubhalo).map ((fun x : Row => x.1) ∘ rowOf) from rfl, e]
    unfold rows
    rw [List.map_fst_zip]
    obtain ⟨a1, a2, a3, a4, a5⟩ := hal
    simp [a1, a2, a3, a4, a5]
  rw [hfst]
  exact hd

theorem wdm_limit {W : Run.World} {b : WdmArgs} {lo : ℝ → ℝ} (h : Spec99.Lowest W b lo) {kw : Kwargs}
    (hk : kw "log_mlow" = some b.logMlow) : limit W kw "log_mlow" = .ok lo := by
  unfold limit
  rw [hk]
  rcases h with ⟨e, e'⟩ | ⟨m, kc, l, e, e'⟩ <;> rw [e] <;> simp only <;> congr 1 <;> funext z <;> exact (e' z).symm

theorem wdmSub_std (b : WdmArgs) (kw : Kwargs) : wdmSubKwargs b kw "log_mlow" = some b.logMlow ∧
    wdmSubKwargs b kw "log_mhigh" = some (.num b.logMhigh) ∧ wdmSubKwargs b kw "draw_poisson" = some (.bool b.drawPoisson) := by
  refine ⟨?_, ?_, ?_⟩ <;> rw [wdmSub_get b _ _ (by decide) (by decide)] <;> simp [Kwargs.update, ofList_cons]

/-- The power law of the subhalos of a call of `WDM` before the suppression is that of the cold call. -/
theorem wdm_subLaw {W : Run.World} {E : Preset.Env} {b : WdmArgs} {d : Dicts} {r : Request} (hr : (Preset.wdm E b d).1 = .ok r)
    (n1 : b.massSubKw "sigma_sub" = none) (n2 : b.massSubKw "dndA" = none) {S : Setup} (hS : S.kc = b.kwargsCosmo)
    (hz : S.zLens = b.zLens) (hc : S.geometry.openingAngle = b.cone) :
    ∃ o, massFunctionModel E b.massSub b.massSubKw = .ok o ∧ r.massFunctions[0]? = some o.1 ∧
      r.massKwargs[0]? = some (wdmSubKwargs b (o.2.set "log_mc" (.num b.logMc))) ∧ ∀ lo hi : ℝ,
      subPowerLaw (wdmSubKwargs b (o.2.set "log_mc" (.num b.logMc))) S.zLens (W.kpc S.kc S.zLens) S.geometry.openingAngle
        (some lo) (some hi) = .ok { cdmSubLaw W (Spec99.cold b lo) with logMhigh := hi } := by
  obtain ⟨kwS, rest, hks, -, -, hamp⟩ := c47_wdm_partial E b d r hr (W.kpc b.kwargsCosmo b.zLens) n1 n2
  obtain ⟨-, inf, ms, mf, cs, cf, cHost, -, hmass, -, has⟩ := wdm_ok hr
  obtain ⟨-, ts, tf, sp, spKw, -, -, hp, hf, hk, -⟩ := wdmAssemble_ok has
  obtain ⟨s, f, hs, hff, rfl, rfl⟩ := wdmMass_ok hmass
  rw [hk] at hks
  simp only [List.cons_append, List.cons.injEq] at hks
  rw [← hks.1] at hamp
  refine ⟨s, hs, by rw [hf]; rfl, by rw [hk]; rfl, fun lo hi => ?_⟩
  simp only [subPowerLaw, hS, hz, hc, hamp, (wdmSub_std b _).2.2, bind, Except.bind, pure, Except.pure]
  rfl

/-- **C99**, subhalos. In every call of `WDM` with one of the suppressed mass functions the subhalos arise in two steps. First
masses are drawn like those of `CDM` (C97): their number is the Poisson variate (or the nearest integer to the number expected
without suppression), and they are the quantiles of the cold mass function for the uniform variates. Then a mass survives if its
second variate is below the fraction of the named model for this mass and the half-mode mass of the call. Missing: dictionaries
with an amplitude of their own. -/
theorem c99_subhalos_partial (W : Run.World) (hV : Variates W) (E : Preset.Env) (b : WdmArgs) (d : Dicts) (out : List HaloArgs)
    (lo : ℝ → ℝ) (hlo : Spec99.Lowest W b lo) (hlt : lo b.zLens < b.logMhigh) (hS : Spec91.suppressed b.massSub b.massSubKw)
    (n1 : b.massSubKw "sigma_sub" = none) (n2 : b.massSubKw "dndA" = none) (h : runWdm W E b d = .ok out) :
    ∃ drawn, Spec99.Quantiles
        (Spec97.number b.drawPoisson (W.pois 0 0) (Spec97.upTo W (Spec99.cold b (lo b.zLens)) (10 ^ b.logMhigh)))
        (lo b.zLens) b.logMhigh (Spec97.upTo W (Spec99.cold b (lo b.zLens))) (W.mass 0 0) drawn ∧
      ((out.filter fun t => t.isSubhalo).map fun t => t.mass) =
        Spec99.kept (Spec99.survival b.massSub b.massSubKw b.logMc) (W.accept 0 0) drawn := by
  unfold runWdm at h
  obtain ⟨r, hr, h⟩ := bind_ok h
  obtain ⟨g, hg, h⟩ := bind_ok h
  have hgc : g.openingAngle = b.cone := by
    unfold geometryOf at hg
    obtain ⟨v, -, hg⟩ := bind_ok hg
    cases hg
    rfl
  obtain ⟨-, inf, ms, mf, cs, cf, cHost, -, hmass, -, has⟩ := wdm_ok hr
  obtain ⟨-, ts, tf, sp, spKw, -, -, hp, -⟩ := wdmAssemble_ok has
  obtain ⟨mc, mkw, lo', hi', e1, e2, hlo', hhi', hd⟩ := first_masses h hp (by cases b.twoHalo <;> simp)
  obtain ⟨o, ho, e1', e2', hlaw⟩ := wdm_subLaw (W := W) hr n1 n2 (S := ⟨b.zLens, b.zSource, b.kwargsCosmo, g⟩) rfl rfl hgc
  rw [e1'] at e1
  rw [e2'] at e2
  cases e1
  cases e2
  rw [wdm_limit hlo (wdmSub_std b _).1] at hlo'
  cases hlo'
  have hhi : hi' = fun _ => b.logMhigh := by
    unfold limit at hhi'; rw [(wdmSub_std b _).2.1] at hhi'; cases hhi'; rfl
  subst hhi
  obtain ⟨p, t, hm, hdr⟩ := massFnOf_draw hd
  obtain ⟨hpl, htn⟩ := subModel_ok hm
  rw [sub_survival ho hS] at htn
  cases htn
  rw [hlaw] at hpl
  cases hpl
  obtain ⟨drawn, h0, hk⟩ := drawn_kept hdr
  refine ⟨drawn, ?_, hk⟩
  exact draw_quantiles (p := cdmSubLaw W (Spec99.cold b (lo b.zLens))) hlt (fun i => ⟨(hV.mass 0 0 i).1, (hV.mass 0 0 i).2⟩)
    (fun x _ => rfl) h0

/-! ## Field halos -/

/-- The draw of suppressed field halos of a slice. -/
theorem field_draw_suppressed {W : Run.World} (hV : Variates W) {a : CdmArgs} {S : Setup} (hS : S.kc = a.kwargsCosmo) {kw : Kwargs}
    {z dz n : ℝ} {i k : ℕ} {l : List ℝ} (hlt : a.logMlow < a.logMhigh) {c : Cls} {T : ℝ → ℝ} (hT : turnoverOf c kw = .ok (some T))
    (hkn : kw.num "LOS_normalization" = .ok n) (hkd : kw.num "delta_power_law_index" = .ok a.deltaPowerLawIndex)
    (hkp : kw.num "m_pivot" = .ok (10 ^ 8)) (hkb : kw "draw_poisson" = some (.bool a.drawPoisson))
    (h : (massFnOf W i (losModel W S c kw z dz a.logMlow a.logMhigh)).draw k = .ok l) :
    ∃ drawn, Spec99.Quantiles (Spec97.number a.drawPoisson (W.pois i k)
        (Spec97.fieldUpTo W {a with losNormalization := n} S.geometry z dz (10 ^ a.logMhigh))) a.logMlow a.logMhigh
        (Spec97.fieldUpTo W {a with losNormalization := n} S.geometry z dz) (W.mass i k) drawn ∧
      l = Spec99.kept T (W.accept i k) drawn := by
  obtain ⟨p, t, hm, hd⟩ := massFnOf_draw h
  obtain ⟨pivot, hpv, hl, ht⟩ := losModel_ok hm
  rw [hT] at ht
  cases ht
  obtain ⟨drawn, h0, hk⟩ := drawn_kept hd
  refine ⟨drawn, ?_, hk⟩
  have hmod : losModel W S (.named "ShethTormen") kw z dz a.logMlow a.logMhigh = .ok (p, none) := by
    unfold losModel
    rw [if_neg (by simp), hpv]
    simp only [bind, Except.bind, hl, turnoverOf, true_or, or_true, if_true, pure, Except.pure]
  have h1 : (massFnOf W i (losModel W S (.named "ShethTormen") kw z dz a.logMlow a.logMhigh)).draw k = .ok drawn := by
    rw [hmod]; exact h0
  obtain ⟨m1, m2⟩ := field_draw hV hS hlt hkn hkd hkp hkb h1
  exact ⟨m1, m2⟩

theorem boosted_field {W : Run.World} {a : CdmArgs} {boost : ℝ} {g : Geometry} (z dz m : ℝ) :
    Spec97.fieldUpTo W {a with losNormalization := a.losNormalization * boost} g z dz m = boost * Spec97.fieldUpTo W a g z dz m := by
  unfold Spec97.fieldUpTo
  rw [← intervalIntegral.integral_const_mul]
  congr 1
  funext x
  simp only [Spec97.dNdmField]
  ring

/-- **C99**, field halos. In every call of `WDM` with a suppressed mass function the halos that are not subhalos come in parts:
one for each lens plane, and one for the two-halo term if asked for. On each plane they arise in two steps: masses drawn as in
`CDM` (C97), of which those survive whose second variate is below the fraction of the named model. The two-halo term is at the
lens, with the mass function of the slice around the lens, times a factor, and the same suppression. Missing: dictionaries with
their own host mass. -/
theorem c99_field_partial (W : Run.World) (hV : Variates W) (E : Preset.Env) (b : WdmArgs) (d : Dicts) (out : List HaloArgs)
    (lo : ℝ → ℝ) (hlo : Spec99.Lowest W b lo) (hlt : ∀ z, Spec90.rendered b.zLens b.zSource b.planeSpacing z → lo z < b.logMhigh)
    (hF : Spec91.suppressed b.massField b.massFieldKw) (n3 : b.massFieldKw "host_m200" = none) (h : runWdm W E b d = .ok out) :
    ∃ (g : Geometry) (P G : List ℝ) (parts : List (List HaloArgs)) (two : List HaloArgs),
      geometryOf W b.zLens b.zSource b.cone b.geometryType b.kwargsCosmo = .ok g ∧
      lensPlanes (some b.zLens) b.zSource b.planeSpacing = .ok (P, G) ∧ parts.length = (P.zip G).length ∧
      (out.filter fun t => !t.isSubhalo) = parts.flatten ++ two ∧
      (∀ (k : ℕ) (z dz : ℝ) (part : List HaloArgs), (P.zip G)[k]? = some (z, dz) → parts[k]? = some part →
        (∀ t ∈ part, t.z = z) ∧
        ∃ drawn, Spec99.Quantiles (Spec97.number b.drawPoisson (W.pois 1 k)
            (Spec97.fieldUpTo W (Spec99.cold b (lo z)) g z dz (10 ^ b.logMhigh))) (lo z) b.logMhigh
            (Spec97.fieldUpTo W (Spec99.cold b (lo z)) g z dz) (W.mass 1 k) drawn ∧
          (part.map fun t => t.mass) =
            Spec99.kept (Spec99.survival b.massField b.massFieldKw b.logMc) (W.accept 1 k) drawn) ∧
      (b.twoHalo = false → two = []) ∧
      (b.twoHalo = true → ∃ (j : ℕ) (p dz boost : ℝ), P[j]? = some p ∧ G[j]? = some dz ∧
        (∀ q ∈ P, |p - b.zLens| ≤ |q - b.zLens|) ∧
        twoHaloBoost W b.kwargsCosmo b.zLens dz (10 ^ b.logMHost) (W.hostR200 b.kwargsCosmo (10 ^ b.logMHost) b.zLens)
          b.lazar 1 = .ok boost ∧
        (∀ t ∈ two, t.z = b.zLens) ∧
        ∃ drawn, Spec99.Quantiles (Spec97.number b.drawPoisson (W.pois 2 0)
            (boost * Spec97.fieldUpTo W (Spec99.cold b (lo b.zLens)) g b.zLens dz (10 ^ b.logMhigh))) (lo b.zLens) b.logMhigh
            (fun m => boost * Spec97.fieldUpTo W (Spec99.cold b (lo b.zLens)) g b.zLens dz m) (W.mass 2 0) drawn ∧
          (two.map fun t => t.mass) =
            Spec99.kept (Spec99.survival b.massField b.massFieldKw b.logMc) (W.accept 2 0) drawn) := by
  unfold runWdm at h
  obtain ⟨r, hr, h⟩ := bind_ok h
  obtain ⟨g, hg, h⟩ := bind_ok h
  obtain ⟨-, inf, ms, mf, cs, cf, cHost, -, hmass, -, has⟩ := wdm_ok hr
  obtain ⟨hpl, hlz⟩ := wdmAssemble_rest has
  obtain ⟨-, ts, tf, sp, spKw, -, hsp, hp, hf, hk, hss, -⟩ := wdmAssemble_ok has
  obtain ⟨sm, fm, hsm, hfm, rfl, rfl⟩ := wdmMass_ok hmass
  obtain ⟨P, G, q, qs, hP, -, hqs, -, hfield⟩ := render_split (rest := "LINE_OF_SIGHT" :: if b.twoHalo then ["TWO_HALO"] else []) h hp
    (by cases b.twoHalo <;> simp)
  rw [hpl] at hP
  simp only at hf hk
  have hT := los_survival hfm hF b.logMc
  set kwF := wdmLosKwargs b (fm.2.set "log_mc" (.num b.logMc)) with hkwF
  have g1 : kwF "log_mlow" = some b.logMlow := by rw [hkwF, wdmLos_get b _ _ (by simp)]; simp [ofList_cons]
  have g2 : kwF "log_mhigh" = some (.num b.logMhigh) := by rw [hkwF, wdmLos_get b _ _ (by simp)]; simp [ofList_cons]
  have g3 : kwF "draw_poisson" = some (.bool b.drawPoisson) := by rw [hkwF, wdmLos_get b _ _ (by simp)]; simp [ofList_cons]
  have g4 : kwF "LOS_normalization" = some (.num b.losNormalization) := by
    rw [hkwF, wdmLos_get b _ _ (by simp)]; simp [ofList_cons]
  have g5 : kwF "delta_power_law_index" = some (.num 0) := by rw [hkwF, wdmLos_get b _ _ (by simp)]; simp [ofList_cons]
  have g6 : kwF "m_pivot" = some (.num (10 ^ 8)) := by rw [hkwF, wdmLos_get b _ _ (by simp)]; simp [ofList_cons]
  have g7 : kwF "log_m_host" = some (.num b.logMHost) := by rw [hkwF, wdmLos_get b _ _ (by simp)]; simp [ofList_cons]
  have g8 : kwF "host_m200" = none := by
    have : kwF "host_m200" = fm.2 "host_m200" := by simp [hkwF, wdmLosKwargs, Kwargs.update, ofList_cons, ofList_nil, Kwargs.set]
    rw [this, massFunctionModel_get hfm _ (by simp)]
    exact n3
  cases qs with
  | nil => simp at hqs
  | cons q1 qs =>
  simp only [List.zipIdx_cons, List.map_cons, List.cons.injEq] at hqs
  obtain ⟨hq1, hqs⟩ := hqs
  rw [List.flatMap_cons, List.map_eq_append_iff] at hfield
  obtain ⟨los, two, hsplit, hlos, htwo⟩ := hfield
  obtain ⟨mc, mkw, sc, skw, e1, e2, e3, e4, e5⟩ := populationAt_ok hq1
  simp only at e1 e2 e3 e4 e5
  rw [hk] at e2
  rw [hf] at e1
  simp only [List.cons_append, List.getElem?_cons_zero, List.getElem?_cons_succ, Option.some.injEq] at e1 e2
  subst e1 e2
  rcases population_ok e5 with ⟨h', -⟩ | ⟨-, s, c, hs, hc, hren⟩ | ⟨h', -⟩
  · simp at h'
  rotate_left
  · simp at h'
  obtain ⟨lo', hi', hlo', hhi', rfl⟩ := losClassOf_ok hc
  rw [wdm_limit hlo g1] at hlo'
  cases hlo'
  have hhi : hi' = fun _ => b.logMhigh := by
    unfold limit at hhi'; rw [g2] at hhi'; cases hhi'; rfl
  subst hhi
  obtain ⟨rparts, hr1, hr2, hr3⟩ := los_parts (flatSpatial_draws hs) hren
  rw [hr1] at hlos
  obtain ⟨parts, rfl, hpm⟩ := map_parts hlos
  refine ⟨g, P, G, parts, two, hg, hP, ?_, hsplit, ?_, ?_, ?_⟩
  · rw [← List.length_map (f := List.map rowOf), hpm, hr2]
  · intro k z dz part hz hpart
    have hrp : rparts[k]? = some (part.map rowOf) := by rw [← hpm, List.getElem?_map, hpart]; rfl
    obtain ⟨d1, d2⟩ := hr3 k (z, dz) _ hz hrp
    obtain ⟨drawn, m1, m2⟩ := field_draw_suppressed hV (a := Spec99.cold b (lo z)) (S := ⟨b.zLens, b.zSource, b.kwargsCosmo, g⟩) rfl
      (kw := kwF) (n := b.losNormalization) (hlt z (.inr ⟨P, G, hP, (List.of_mem_zip (List.mem_of_getElem? hz)).1⟩)) hT (by simp [Kwargs.num, g4]) (by simp [Kwargs.num, g5, Spec99.cold])
      (by simp [Kwargs.num, g6]) g3 d1
    refine ⟨fun t ht => d2 _ (List.mem_map_of_mem ht), drawn, m1, ?_⟩
    rw [← m2, List.map_map]
    rfl
  · intro h2
    rw [h2] at hqs
    simp at hqs
    subst hqs
    simpa using htwo
  · intro h2
    rw [h2] at hqs hk hf
    cases qs with
    | nil => simp at hqs
    | cons q2 qs =>
    simp only [if_true, List.zipIdx_cons, List.map_cons, List.cons.injEq, List.zipIdx_nil, List.map_nil] at hqs
    obtain ⟨hq2, hqs⟩ := hqs
    have : qs = [] := by simpa using hqs.symm
    subst this
    simp only [List.flatMap_cons, List.flatMap_nil, List.append_nil] at htwo
    obtain ⟨mc, mkw, sc, skw, e1, e2, e3, e4, e5⟩ := populationAt_ok hq2
    simp only at e1 e2 e3 e4 e5
    rw [hk] at e2
    rw [hf] at e1
    simp at e1 e2
    subst e1 e2
    rcases population_ok e5 with ⟨h', -⟩ | ⟨h', -⟩ | ⟨-, s, dz, kw, lo', hi', hs, hset, hlo', hhi', hren⟩
    · simp at h'
    · simp at h'
    unfold twoHaloSetup at hset
    obtain ⟨m200, t1, hset⟩ := bind_ok hset
    have hm : m200 = 10 ^ b.logMHost := by
      simp [twoHaloHost, g8, g7, Kwargs.num, bind, Except.bind, pure, Except.pure] at t1
      exact t1.symm
    subst hm
    obtain ⟨j, t2, hset⟩ := bind_ok hset
    obtain ⟨dz', t3, hset⟩ := bind_ok hset
    obtain ⟨boost, t4, hset⟩ := bind_ok hset
    obtain ⟨n, t5, hset⟩ := bind_ok hset
    have hn : n = b.losNormalization := by
      simp [Kwargs.num, g4] at t5; exact t5.symm
    subst hn
    cases hset
    have hne : P ≠ [] := by rintro rfl; cases t2
    obtain ⟨j', p, u1, u2, u3, -⟩ := nearestPlane_spec b.zLens P hne
    rw [u1] at t2
    cases t2
    rw [wdm_limit hlo (by simp [Kwargs.set, g1])] at hlo'
    cases hlo'
    have hhi : hi' = fun _ => b.logMhigh := by
      unfold limit at hhi'; simp [Kwargs.set, g2] at hhi'; exact hhi'.symm
    subst hhi
    have hT2 : turnoverOf fm.1 (kwF.set "LOS_normalization" (.num (b.losNormalization * boost))) =
        .ok (some (Spec99.survival b.massField b.massFieldKw b.logMc)) := by
      rw [← hT]
      unfold turnoverOf
      simp [Kwargs.num, Kwargs.set]
    obtain ⟨d1, d2⟩ := twoHalo_rows (flatSpatial_draws hs) hren
    obtain ⟨drawn, m1, m2⟩ := field_draw_suppressed hV (a := Spec99.cold b (lo b.zLens)) (S := ⟨b.zLens, b.zSource, b.kwargsCosmo, g⟩) rfl
      (n := b.losNormalization * boost) (hlt _ (.inl rfl)) hT2 (by simp [Kwargs.num, Kwargs.set])
      (by simp [Kwargs.num, Kwargs.set, g5, Spec99.cold])
      (by simp [Kwargs.num, Kwargs.set, g6]) (by simp [Kwargs.set, g3, Spec99.cold]) d1
    have hb : ∀ m, Spec97.fieldUpTo W {Spec99.cold b (lo b.zLens) with losNormalization := b.losNormalization * boost} g b.zLens dz m =
        boost * Spec97.fieldUpTo W (Spec99.cold b (lo b.zLens)) g b.zLens dz m := fun m =>
      boosted_field (a := Spec99.cold b (lo b.zLens)) b.zLens dz m
    have hb' := funext hb
    simp only [hb, hb'] at m1
    have hal := (c16_two_halo _ _ _ _ (flatSpatial_draws hs) _ hren).1
    have hmm : two.map (fun t => t.mass) = q2.masses := by
      have := congrArg (List.map (·.1)) htwo
      rw [List.map_map] at this
      rw [show two.map (fun t => t.mass) = two.map ((fun x : Row => x.1) ∘ rowOf) from rfl, this]
      unfold rows
      rw [List.map_fst_zip]
      obtain ⟨a1, a2, a3, a4, a5⟩ := hal
      simp [a1, a2, a3, a4, a5]
    refine ⟨_, p, dz, boost, u2, item_ok.1 t3, u3, ?_, ?_, drawn, m1, ?_⟩
    · rw [hlz] at t4; exact t4
    · intro t ht
      have : rowOf t ∈ rows q2 := by rw [← htwo]; exact List.mem_map_of_mem ht
      exact (d2 _ this).2.2.1
    · rw [hmm]; exact m2

end PyHalo.Props
