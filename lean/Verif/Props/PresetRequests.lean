import Verif.Props.Presets

/-!
# What the presets ask the renderer for (C47, C79, C80)
-/

namespace PyHalo.Props
open PyHalo.Preset

/-! ## Taking a successful call apart -/

theorem cdm_ok {E : Env} {a : CdmArgs} {d : Dicts} {r : Request} (h : (cdm E a d).1 = .ok r) :
    geometryOk a.geometryType ∧ a.profile ∈ ["NFW", "TNFW", "PT_MASS"] ∧ ∃ inf cs cf cHost,
      (setupInfall E a.zLens a.infall (writeHost a.infall a.logMHost d.infall)).1 = .ok inf ∧
      cdmConc E a (d.concSub.set "cosmo" (.cosmo a.kwargsCosmo)) (d.concField.set "cosmo" (.cosmo a.kwargsCosmo)) =
        .ok (cs, cf, cHost) ∧
      cdmAssemble a inf cs cf cHost (d.truncSub.set "lens_cosmo" (.lensCosmo a.zLens a.zSource a.kwargsCosmo))
        (d.truncField.set "lens_cosmo" (.lensCosmo a.zLens a.zSource a.kwargsCosmo)) = .ok r := by
  unfold cdm at h
  split at h
  · cases h
  · rename_i hg
    dsimp only at h
    split at h
    · cases h
    · rename_i inf hinf
      split at h
      · cases h
      · rename_i hp
        split at h
        · cases h
        · rename_i cs cf cHost hc
          exact ⟨not_not.mp hg, not_not.mp hp, inf, cs, cf, cHost, hinf, hc, h⟩

theorem wdm_ok {E : Env} {a : WdmArgs} {d : Dicts} {r : Request} (h : (wdm E a d).1 = .ok r) :
    geometryOk a.geometryType ∧ ∃ inf ms mf cs cf cHost,
      (setupInfall E a.zLens a.infall (writeHost a.infall a.logMHost d.infall)).1 = .ok inf ∧
      wdmMass E a = .ok (ms, mf) ∧
      wdmConc E a ((d.concSub.set "cosmo" (.cosmo a.kwargsCosmo)).set "log_mc" (.num a.logMc))
        ((d.concField.set "cosmo" (.cosmo a.kwargsCosmo)).set "log_mc" (.num a.logMc)) = .ok (cs, cf, cHost) ∧
      wdmAssemble a inf ms mf cs cf cHost (d.truncSub.set "lens_cosmo" (.lensCosmo a.zLens a.zSource a.kwargsCosmo))
        (d.truncField.set "lens_cosmo" (.lensCosmo a.zLens a.zSource a.kwargsCosmo)) = .ok r := by
  unfold wdm at h
  split at h
  · cases h
  · rename_i hg
    dsimp only at h
    split at h
    · cases h
    · rename_i inf hinf
      split at h
      · cases h
      · rename_i ms mf hm
        split at h
        · cases h
        · rename_i cs cf cHost hc
          exact ⟨not_not.mp hg, inf, ms, mf, cs, cf, cHost, hinf, hm, hc, h⟩

theorem bind_ok {α β : Type} {x : Except Err α} {f : α → Except Err β} {b : β} (h : (x >>= f) = .ok b) :
    ∃ a, x = .ok a ∧ f a = .ok b := by
  cases x with
  | error e => cases h
  | ok a => exact ⟨a, rfl, h⟩

theorem ite_elim {P : Prop} {α : Type} {c : Prop} [Decidable c] {x y : Except Err α} {o : Except Err α}
    (h : (if c then x else y) = o) (h1 : x = o → P) (h2 : y = o → P) : P := by
  split at h
  · exact h1 h
  · exact h2 h

theorem cdmAssemble_ok {a : CdmArgs} {inf : Infall} {cs cf : Cls × Kwargs} {cHost : ℝ} {dS dF : Kwargs} {r : Request}
    (h : cdmAssemble a inf cs cf cHost dS dF = .ok r) :
    ∃ ts tf sp spKw, truncPart a.truncSub a.truncField dS dF cHost = .ok (ts, tf) ∧
      spatialPart a.spatial a.cone a.logMHost a.zLens cHost a.rTidal
        (Val.geometry a.zLens a.zSource a.cone a.geometryType a.kwargsCosmo)
        (Val.lensCosmo a.zLens a.zSource a.kwargsCosmo) = .ok (sp, spKw) ∧
      r.populations = (["SUBHALOS", "LINE_OF_SIGHT"] ++ if a.twoHalo then ["TWO_HALO"] else []) ∧
      r.massFunctions = ([.named "CDMPowerLaw", .named "ShethTormen"] ++
        if a.twoHalo then [.named "ShethTormen"] else []) ∧
      r.massKwargs = ([cdmSubKwargs a, cdmLosKwargs a] ++ if a.twoHalo then [cdmLosKwargs a] else []) ∧
      r.spatials = ([sp, .named "LensConeUniform"] ++ if a.twoHalo then [.named "LensConeUniform"] else []) ∧
      r.spatialKwargs = ([spKw, Kwargs.ofList [("cone_opening_angle", .num a.cone), ("geometry",
          .geometry a.zLens a.zSource a.cone a.geometryType a.kwargsCosmo)]] ++
        if a.twoHalo then [Kwargs.ofList [("cone_opening_angle", .num a.cone), ("geometry",
          .geometry a.zLens a.zSource a.cone a.geometryType a.kwargsCosmo)]] else []) ∧
      r.infall = inf ∧ r.concSub = cs ∧ r.concField = cf ∧ r.truncSub = ts ∧ r.truncField = tf := by
  unfold cdmAssemble at h
  obtain ⟨⟨ts, tf⟩, h1, h⟩ := bind_ok h
  obtain ⟨⟨sp, spKw⟩, h2, h⟩ := bind_ok h
  cases h
  exact ⟨ts, tf, sp, spKw, h1, h2, rfl, rfl, rfl, rfl, rfl, rfl, rfl, rfl, rfl, rfl⟩

theorem wdmAssemble_ok {a : WdmArgs} {inf : Infall} {ms mf cs cf : Cls × Kwargs} {cHost : ℝ} {dS dF : Kwargs} {r : Request}
    (h : wdmAssemble a inf ms mf cs cf cHost dS dF = .ok r) :
    a.promptCusps = false ∧ ∃ ts tf sp spKw, truncPart a.truncSub a.truncField dS dF cHost = .ok (ts, tf) ∧
      spatialPart a.spatial a.cone a.logMHost a.zLens cHost a.rTidal
        (Val.geometry a.zLens a.zSource a.cone a.geometryType a.kwargsCosmo)
        (Val.lensCosmo a.zLens a.zSource a.kwargsCosmo) = .ok (sp, spKw) ∧
      r.populations = (["SUBHALOS", "LINE_OF_SIGHT"] ++ if a.twoHalo then ["TWO_HALO"] else []) ∧
      r.massFunctions = ([ms.1, mf.1] ++ if a.twoHalo then [mf.1] else []) ∧
      r.massKwargs = ([wdmSubKwargs a ms.2, wdmLosKwargs a mf.2] ++ if a.twoHalo then [wdmLosKwargs a mf.2] else []) ∧
      r.spatials = [sp, .named "LensConeUniform", .named "LensConeUniform"] ∧
      r.infall = inf ∧ r.concSub = cs ∧ r.concField = cf ∧ r.truncSub = ts ∧ r.truncField = tf ∧
      r.spatialKwargs.length = 3 := by
  unfold wdmAssemble at h
  obtain ⟨⟨ts, tf⟩, h1, h⟩ := bind_ok h
  obtain ⟨⟨sp, spKw⟩, h2, h⟩ := bind_ok h
  dsimp only at h
  by_cases hp : a.promptCusps = true
  · rw [if_pos hp] at h; cases h
  · rw [if_neg hp] at h
    cases h
    exact ⟨by simpa using hp, ts, tf, sp, spKw, h1, h2, rfl, rfl, rfl, rfl, rfl, rfl, rfl, rfl, rfl, rfl⟩

/-! ## The amplitude of the subhalo mass function (C47) -/

namespace Spec47

/-- The amplitude that ought to be used: `log10_dNdA` before `log10_sigma_sub` before `sigma_sub`. The first component is
`true` for a number density that is not rescaled with the host. -/
noncomputable def chosen (log10dNdA log10SigmaSub : Option ℝ) (sigmaSub : ℝ) : Bool × ℝ :=
  match log10dNdA, log10SigmaSub with
  | some x, _ => (true, (10 : ℝ) ^ x)
  | none, some x => (false, (10 : ℝ) ^ x)
  | none, none => (false, sigmaSub)

/-- The two dictionary entries for an amplitude: exactly one of them is present. -/
def entries (c : Bool × ℝ) (kw : Kwargs) : Prop :=
  if c.1 then kw "dndA" = some (.num c.2) ∧ kw "sigma_sub" = none
  else kw "sigma_sub" = some (.num c.2) ∧ kw "dndA" = none

/-- The normalisation of the mass function `dN/dm = N m^slope` for an amplitude, at the pivot mass 10⁸: a number density
per area times the area of the aperture; the amplitude `sigma_sub` is rescaled with the mass of the host and the
redshift first (`m` is the mass of the host). -/
noncomputable def norm (c : Bool × ℝ) (slope m zLens kpc cone k1 k2 : ℝ) : ℝ :=
  let area := Real.pi * (kpc * (0.5 * cone)) ^ 2
  let density := if c.1 then c.2 else
    c.2 * 10 ^ (k1 * Real.logb 10 (m / 10 ^ 13) + k2 * Real.logb 10 (zLens + 0.5))
  area * density * (10 ^ 8 : ℝ) ^ (-(slope + 1))

end Spec47

theorem amplitude_entries (x y : Option ℝ) (s : ℝ) (kw : Kwargs) (h1 : kw "dndA" = none) (h2 : kw "sigma_sub" = none) :
    Spec47.entries (Spec47.chosen x y s) (amplitude x y s kw) := by
  cases x <;> cases y <;> simp [Spec47.entries, Spec47.chosen, amplitude, Kwargs.set, h1, h2]

theorem amplitude_other (x y : Option ℝ) (s : ℝ) (kw : Kwargs) (k : String) (h1 : k ≠ "dndA") (h2 : k ≠ "sigma_sub") :
    amplitude x y s kw k = kw k := by
  cases x <;> cases y <;> simp [amplitude, Kwargs.set, h1, h2]

/-- What the subhalo class makes of a dictionary with exactly one amplitude. -/
theorem subAmplitude_ok (kw : Kwargs) (c : Bool × ℝ) (slope host k1 k2 zLens kpc cone : ℝ) (hc : Spec47.entries c kw)
    (h1 : kw "power_law_index" = some (.num slope)) (h2 : kw "delta_power_law_index" = some (.num 0))
    (h3 : kw "m_pivot" = some (.num (10 ^ 8))) (h4 : kw "host_scaling_factor" = some (.num k1))
    (h5 : kw "redshift_scaling_factor" = some (.num k2)) (h6 : c.1 = false → kw "log_m_host" = some (.num host)) :
    subAmplitude kw zLens kpc cone = .ok (slope, Spec47.norm c slope (10 ^ host) zLens kpc cone k1 k2) := by
  have hs : subKwargs kw = .ok ⟨slope, 0, if c.1 then none else some c.2, if c.1 then some c.2 else none,
      if c.1 then 1 else 10 ^ host, 10 ^ 8, k1, k2⟩ := by
    unfold Spec47.entries at hc
    split at hc <;> rename_i hb <;>
      simp [subKwargs, Kwargs.num, h1, h2, h3, h4, h5, h6, hc.1, hc.2, hb, bind, Except.bind, pure, Except.pure]
  unfold subAmplitude
  rw [hs]
  by_cases hb : c.1 = true
  · simp [bind, Except.bind, subNormalization, Spec47.norm, hb]
  · simp [bind, Except.bind, subNormalization, Spec47.norm, normalizationSigmaSub, PyHalo.hostScaling, hb]

theorem cdm_amplitude (a : CdmArgs) :
    Spec47.entries (Spec47.chosen a.log10dNdA a.log10SigmaSub a.sigmaSub) (cdmSubKwargs a) :=
  amplitude_entries _ _ _ _ rfl rfl

theorem cdmSub_get (a : CdmArgs) (k : String) (h1 : k ≠ "dndA") (h2 : k ≠ "sigma_sub") :
    cdmSubKwargs a k = Kwargs.ofList [("log_mlow", .num a.logMlow), ("log_mhigh", .num a.logMhigh),
      ("m_pivot", .num (10 ^ 8)), ("power_law_index", .num a.shmfLogSlope), ("log_m_host", .num a.logMHost),
      ("delta_power_law_index", .num 0), ("host_scaling_factor", .num a.hostScaling),
      ("redshift_scaling_factor", .num a.redshiftScaling), ("draw_poisson", .bool a.drawPoisson)] k :=
  amplitude_other _ _ _ _ k h1 h2

/-- The cold dark matter preset hands exactly one amplitude to the renderer, `log10_dNdA` before `log10_sigma_sub` before
`sigma_sub`. -/
theorem c47_cdm (E : Env) (a : CdmArgs) (d : Dicts) (r : Request) (h : (cdm E a d).1 = .ok r) :
    ∃ kw rest, r.massKwargs = kw :: rest ∧ r.populations.head? = some "SUBHALOS" ∧
      Spec47.entries (Spec47.chosen a.log10dNdA a.log10SigmaSub a.sigmaSub) kw := by
  obtain ⟨-, -, inf, cs, cf, cHost, -, -, h⟩ := cdm_ok h
  obtain ⟨ts, tf, sp, spKw, -, -, hp, -, hk, -⟩ := cdmAssemble_ok h
  exact ⟨_, _, hk, by rw [hp]; rfl, cdm_amplitude a⟩

/-- And this is the amplitude the subhalo mass function is rendered with: the slope is `shmf_log_slope`, and the
normalisation is that of the chosen amplitude. -/
theorem c47_rendered (E : Env) (a : CdmArgs) (d : Dicts) (r : Request) (h : (cdm E a d).1 = .ok r) (kpc : ℝ) :
    ∃ kw rest, r.massKwargs = kw :: rest ∧ subAmplitude kw a.zLens kpc a.cone =
      .ok (a.shmfLogSlope, Spec47.norm (Spec47.chosen a.log10dNdA a.log10SigmaSub a.sigmaSub) a.shmfLogSlope
        (10 ^ a.logMHost) a.zLens kpc a.cone a.hostScaling a.redshiftScaling) := by
  obtain ⟨-, -, inf, cs, cf, cHost, -, -, h⟩ := cdm_ok h
  obtain ⟨ts, tf, sp, spKw, -, -, hp, -, hk, -⟩ := cdmAssemble_ok h
  refine ⟨_, _, hk, subAmplitude_ok _ _ _ _ _ _ _ _ _ (cdm_amplitude a) ?_ ?_ ?_ ?_ ?_ (fun _ => ?_)⟩ <;>
    rw [cdmSub_get a _ (by simp) (by simp)] <;> rfl

theorem massFunctionModel_get {E : Env} {name : String} {kw : Kwargs} {o : Cls × Kwargs}
    (h : massFunctionModel E name kw = .ok o) (k : String) (hk : k ∉ ["a_wdm", "b_wdm", "c_wdm", "dlogT_dlogk"]) :
    o.2 k = kw k := by
  simp only [List.mem_cons, List.not_mem_nil, or_false, not_or] at hk
  have hs : ∀ x y z, setABC kw x y z k = kw k := by
    intro x y z; simp [setABC, Kwargs.set, hk.1, hk.2.1, hk.2.2.1]
  unfold massFunctionModel at h
  refine ite_elim h (fun h => ?_) (fun h => ?_)
  · cases h; exact hs _ _ _
  refine ite_elim h (fun h => ?_) (fun h => ?_)
  · cases h; exact hs _ _ _
  refine ite_elim h (fun h => ?_) (fun h => ?_)
  · cases h; exact hs _ _ _
  refine ite_elim h (fun h => ?_) (fun h => ?_)
  · cases h; exact hs _ _ _
  refine ite_elim h (fun h => ?_) (fun h => ?_)
  · cases h; exact hs _ _ _
  refine ite_elim h (fun h => ?_) (fun h => ?_)
  · cases h; exact hs _ _ _
  refine ite_elim h (fun h => ?_) (fun h => ?_)
  · cases h; rfl
  refine ite_elim h (fun h => ?_) (fun h => ?_)
  · cases h; rfl
  refine ite_elim h (fun h => ?_) (fun h => ?_)
  · cases h; rfl
  refine ite_elim h (fun h => ?_) (fun h => ?_)
  · cases h; rfl
  refine ite_elim h (fun h => ?_) (fun h => ?_)
  · cases h; rfl
  refine ite_elim h (fun h => ?_) (fun h => ?_)
  · refine ite_elim h (fun h => ?_) (fun h => ?_)
    · cases h
    refine ite_elim h (fun h => ?_) (fun h => ?_)
    · cases h
    refine ite_elim h (fun h => ?_) (fun h => ?_)
    · cases h
    refine ite_elim h (fun h => ?_) (fun h => ?_)
    · cases h
    cases hn : kw.num "dlogT_dlogk" with
    | error e => rw [hn] at h; cases h
    | ok x =>
      rw [hn] at h
      dsimp only at h
      have hd : ∀ (u v w : ℝ), ((setABC kw u v w).del "dlogT_dlogk") k = kw k := by
        intro u v w; rw [Kwargs.del, if_neg hk.2.2.2]; exact hs _ _ _
      refine ite_elim h (fun h => ?_) (fun h => ?_) <;> cases h <;> exact hd _ _ _
  · cases h

theorem wdmSub_get (a : WdmArgs) (kw : Kwargs) (k : String) (h1 : k ≠ "dndA") (h2 : k ≠ "sigma_sub") :
    wdmSubKwargs a kw k = kw.update (Kwargs.ofList [("log_mlow", a.logMlow), ("log_mhigh", .num a.logMhigh),
      ("m_pivot", .num (10 ^ 8)), ("power_law_index", .num a.shmfLogSlope), ("log_m_host", .num a.logMHost),
      ("delta_power_law_index", .num 0), ("host_scaling_factor", .num a.hostScaling),
      ("redshift_scaling_factor", .num a.redshiftScaling), ("draw_poisson", .bool a.drawPoisson)]) k := by
  unfold wdmSubKwargs Kwargs.update
  rw [amplitude_other _ _ _ _ k h1 h2]

theorem wdmMass_ok {E : Env} {a : WdmArgs} {ms mf : Cls × Kwargs} (h : wdmMass E a = .ok (ms, mf)) :
    ∃ s f, massFunctionModel E a.massSub a.massSubKw = .ok s ∧ massFunctionModel E a.massField a.massFieldKw = .ok f ∧
      ms = (s.1, s.2.set "log_mc" (.num a.logMc)) ∧ mf = (f.1, f.2.set "log_mc" (.num a.logMc)) := by
  unfold wdmMass at h
  obtain ⟨s, h1, h⟩ := bind_ok h
  obtain ⟨f, h2, h⟩ := bind_ok h
  cases h
  exact ⟨s, f, h1, h2, rfl, rfl⟩

/-- The same for warm dark matter, if the caller's own mass function dictionary contains no amplitude. Missing: a
dictionary with one, where it is false (`c47_wdm_both`). -/
theorem c47_wdm_partial (E : Env) (a : WdmArgs) (d : Dicts) (r : Request) (h : (wdm E a d).1 = .ok r) (kpc : ℝ)
    (h1 : a.massSubKw "sigma_sub" = none) (h2 : a.massSubKw "dndA" = none) :
    ∃ kw rest, r.massKwargs = kw :: rest ∧ r.populations.head? = some "SUBHALOS" ∧
      Spec47.entries (Spec47.chosen a.log10dNdA a.log10SigmaSub a.sigmaSub) kw ∧ subAmplitude kw a.zLens kpc a.cone =
      .ok (a.shmfLogSlope, Spec47.norm (Spec47.chosen a.log10dNdA a.log10SigmaSub a.sigmaSub) a.shmfLogSlope
        (10 ^ a.logMHost) a.zLens kpc a.cone a.hostScaling a.redshiftScaling) := by
  obtain ⟨-, inf, ms, mf, cs, cf, cHost, -, hm, -, h⟩ := wdm_ok h
  obtain ⟨-, ts, tf, sp, spKw, -, -, hp, -, hk, -⟩ := wdmAssemble_ok h
  obtain ⟨s, f, hs, -, rfl, -⟩ := wdmMass_ok hm
  have e1 : s.2 "sigma_sub" = none := (massFunctionModel_get hs _ (by simp)).trans h1
  have e2 : s.2 "dndA" = none := (massFunctionModel_get hs _ (by simp)).trans h2
  have he : Spec47.entries (Spec47.chosen a.log10dNdA a.log10SigmaSub a.sigmaSub)
      (wdmSubKwargs a (s.2.set "log_mc" (.num a.logMc))) := by
    unfold wdmSubKwargs Kwargs.update
    have := amplitude_entries a.log10dNdA a.log10SigmaSub a.sigmaSub
      (Kwargs.ofList [("log_mlow", a.logMlow), ("log_mhigh", .num a.logMhigh), ("m_pivot", .num (10 ^ 8)),
      ("power_law_index", .num a.shmfLogSlope), ("log_m_host", .num a.logMHost), ("delta_power_law_index", .num 0),
      ("host_scaling_factor", .num a.hostScaling), ("redshift_scaling_factor", .num a.redshiftScaling),
      ("draw_poisson", .bool a.drawPoisson)]) rfl rfl
    unfold Spec47.entries at this ⊢
    split at this <;> rename_i hb
    · rw [if_pos hb]; dsimp only; rw [this.1, this.2]; simp [Kwargs.set, e1]
    · rw [if_neg hb]; dsimp only; rw [this.1, this.2]; simp [Kwargs.set, e2]
  refine ⟨_, _, hk, by rw [hp]; rfl, he, subAmplitude_ok _ _ _ _ _ _ _ _ _ he ?_ ?_ ?_ ?_ ?_ (fun _ => ?_)⟩ <;>
    rw [wdmSub_get a _ _ (by simp) (by simp)] <;> rfl

/-- With `sigma_sub` in the caller's mass function dictionary, `log10_dNdA` is given to the renderer and not used. -/
theorem c47_wdm_both (E : Env) (a : WdmArgs) (d : Dicts) (r : Request) (h : (wdm E a d).1 = .ok r) (kpc s x : ℝ)
    (h1 : a.massSubKw "sigma_sub" = some (.num s)) (h2 : a.log10dNdA = some x) :
    ∃ kw rest, r.massKwargs = kw :: rest ∧ kw "dndA" = some (.num (10 ^ x)) ∧
      subAmplitude kw a.zLens kpc a.cone = .ok (a.shmfLogSlope, Spec47.norm (false, s) a.shmfLogSlope
        (10 ^ a.logMHost) a.zLens kpc a.cone a.hostScaling a.redshiftScaling) := by
  obtain ⟨-, inf, ms, mf, cs, cf, cHost, -, hm, -, h⟩ := wdm_ok h
  obtain ⟨-, ts, tf, sp, spKw, -, -, hp, -, hk, -⟩ := wdmAssemble_ok h
  obtain ⟨t, f, ht, -, rfl, -⟩ := wdmMass_ok hm
  have e1 : t.2 "sigma_sub" = some (.num s) := (massFunctionModel_get ht _ (by simp)).trans h1
  have hd : wdmSubKwargs a (t.2.set "log_mc" (.num a.logMc)) "dndA" = some (.num (10 ^ x)) := by
    simp [wdmSubKwargs, Kwargs.update, amplitude, h2, Kwargs.set]
  have hs : wdmSubKwargs a (t.2.set "log_mc" (.num a.logMc)) "sigma_sub" = some (.num s) := by
    simp [wdmSubKwargs, Kwargs.update, amplitude, h2, Kwargs.set, Kwargs.ofList, List.lookup, e1]
  refine ⟨_, _, hk, hd, ?_⟩
  have hg : ∀ k v, k ≠ "dndA" → k ≠ "sigma_sub" → Kwargs.ofList [("log_mlow", a.logMlow),
      ("log_mhigh", .num a.logMhigh), ("m_pivot", .num (10 ^ 8)), ("power_law_index", .num a.shmfLogSlope),
      ("log_m_host", .num a.logMHost), ("delta_power_law_index", .num 0), ("host_scaling_factor", .num a.hostScaling),
      ("redshift_scaling_factor", .num a.redshiftScaling), ("draw_poisson", .bool a.drawPoisson)] k = some v →
      wdmSubKwargs a (t.2.set "log_mc" (.num a.logMc)) k = some v := by
    intro k v n1 n2 hv
    rw [wdmSub_get a _ k n1 n2, Kwargs.update, hv]; rfl
  generalize wdmSubKwargs a (t.2.set "log_mc" (.num a.logMc)) = kw at *
  have hs : subKwargs kw = .ok ⟨a.shmfLogSlope, 0, some s, some (10 ^ x), 10 ^ a.logMHost, 10 ^ 8, a.hostScaling,
      a.redshiftScaling⟩ := by
    simp [subKwargs, Kwargs.num, hg "power_law_index" _ (by simp) (by simp) rfl,
      hg "delta_power_law_index" _ (by simp) (by simp) rfl, hg "m_pivot" _ (by simp) (by simp) rfl,
      hg "host_scaling_factor" _ (by simp) (by simp) rfl, hg "redshift_scaling_factor" _ (by simp) (by simp) rfl,
      hg "log_m_host" _ (by simp) (by simp) rfl, hs, hd, bind, Except.bind, pure, Except.pure]
  unfold subAmplitude
  rw [hs]
  simp [bind, Except.bind, subNormalization, Spec47.norm, normalizationSigmaSub, PyHalo.hostScaling]

/-! ### Cases that meet the hypotheses -/

/-- The defaults of the cold dark matter preset. -/
example (E : Env) : ∃ r, (cdm E { zLens := 0.5, zSource := 1.5 } freshDicts).1 = .ok r := by
  obtain ⟨r, h, -⟩ := plain_ok E 0.5 1.5 13.3 "HYBRID_INFALL" freshDicts (SameBut.refl _) (SameBut.refl _)
    (.hybrid 0.5 13.3) (by simp [setupInfall, writeHost, convertHost, defaultHost, Kwargs.set, Kwargs.num, freshDicts,
      Kwargs.empty])
  exact ⟨r, h⟩

theorem construct_galacticus (v w : Val) : construct (.named "TruncationGalacticus")
    ((Kwargs.empty.update (Kwargs.empty.set "lens_cosmo" v)).set "c_host" w) = .ok (.named "TruncationGalacticus",
      (Kwargs.empty.update (Kwargs.empty.set "lens_cosmo" v)).set "c_host" w) := by
  unfold construct
  rw [if_neg, if_neg, if_neg]
  · simp
  · simp [signature, Kwargs.set, Kwargs.update, Kwargs.empty]
  · rintro ⟨-, k, hk, hr, ho⟩
    simp [signature] at hr
    simp [Kwargs.set, Kwargs.update, Kwargs.empty, hr.1, hr.2] at hk

theorem construct_rn (v : Val) : construct (.named "TruncationRN") (Kwargs.empty.update (Kwargs.empty.set "lens_cosmo" v)) =
    .ok (.named "TruncationRN", Kwargs.empty.update (Kwargs.empty.set "lens_cosmo" v)) := by
  unfold construct
  rw [if_neg, if_neg, if_neg]
  · simp
  · simp [signature, Kwargs.set, Kwargs.update, Kwargs.empty]
  · rintro ⟨-, k, hk, hr, ho⟩
    simp [signature] at hr ho
    simp [Kwargs.set, Kwargs.update, Kwargs.empty, hr] at hk

/-- A call with the default models, dictionaries for the mass functions and an amplitude. -/
noncomputable def wdmPlain (zl zs mc : ℝ) (kwS kwF : Kwargs) (x : Option ℝ) : WdmArgs :=
  { zLens := zl, zSource := zs, logMc := mc, massSubKw := kwS, massFieldKw := kwF, log10dNdA := x }

theorem construct_poly (k : Kwargs) (h : ∀ s, k s ≠ none → s ∈ ["cosmo", "concentration_cdm_class", "log_mc", "c_scale",
      "c_power", "c_power_inner", "mc_suppression_redshift_evolution", "scatter", "scatter_dex", "kwargs_cdm"])
    (h1 : k "cosmo" ≠ none) (h2 : k "concentration_cdm_class" ≠ none) (h3 : k "log_mc" ≠ none) :
    construct (.named "ConcentrationWDMPolynomial") k = .ok (.named "ConcentrationWDMPolynomial", k) := by
  unfold construct
  rw [if_neg, if_neg, if_neg]
  · simp
  · simp [signature, h1, h2, h3]
  · rintro ⟨-, s, hk, hr, ho⟩
    have := h s hk
    simp [signature] at hr ho
    simp [hr, ho] at this

/-- The warm dark matter preset succeeds with its defaults, whatever the mass function dictionaries contain. -/
theorem wdm_plain_ok (E : Env) (zl zs mc : ℝ) (kwS kwF : Kwargs) (x : Option ℝ) :
    ∃ r, (wdm E (wdmPlain zl zs mc kwS kwF x) freshDicts).1 = .ok r := by
  have hi : (setupInfall E (wdmPlain zl zs mc kwS kwF x).zLens (wdmPlain zl zs mc kwS kwF x).infall
      (writeHost (wdmPlain zl zs mc kwS kwF x).infall (wdmPlain zl zs mc kwS kwF x).logMHost freshDicts.infall)).1 =
      .ok (.hybrid zl 13.3) := by
    simp [setupInfall, writeHost, convertHost, defaultHost, Kwargs.set, Kwargs.num, freshDicts, Kwargs.empty, wdmPlain]
  have hm : ∃ ms mf, wdmMass E (wdmPlain zl zs mc kwS kwF x) = .ok (ms, mf) := ⟨_, _, rfl⟩
  obtain ⟨ms, mf, hm⟩ := hm
  have hb : ∀ k : Kwargs, concentrationModel E "BOSE2016" (some k) = .ok (.named "ConcentrationWDMPolynomial",
      (setBose k "ConcentrationDiemerJoyce" 60.0 (-0.17) 1.0).set "mc_suppression_redshift_evolution" (.bool false)) :=
    fun _ => rfl
  have hc : ∃ cs cf cHost, wdmConc E (wdmPlain zl zs mc kwS kwF x)
      ((Kwargs.empty.set "cosmo" (.cosmo 0)).set "log_mc" (.num mc))
      ((Kwargs.empty.set "cosmo" (.cosmo 0)).set "log_mc" (.num mc)) = .ok (cs, cf, cHost) := by
    unfold wdmConc
    have e1 : (wdmPlain zl zs mc kwS kwF x).concSub = "BOSE2016" := rfl
    have e2 : (wdmPlain zl zs mc kwS kwF x).concField = "BOSE2016" := rfl
    rw [e1, e2, hb]
    dsimp only [bind, Except.bind]
    rw [construct_poly]
    · dsimp only
      rw [construct_poly]
      · exact ⟨_, _, _, rfl⟩
      · intro s hs
        simp only [Kwargs.set, setBose, Kwargs.empty] at hs
        by_contra hn
        simp only [List.mem_cons, List.not_mem_nil, or_false, not_or] at hn
        simp [hn] at hs
      all_goals simp [Kwargs.set]
    · intro s hs
      simp only [Kwargs.set, setBose, Kwargs.empty] at hs
      by_contra hn
      simp only [List.mem_cons, List.not_mem_nil, or_false, not_or] at hn
      simp [hn] at hs
    all_goals simp [Kwargs.set, setBose]
  obtain ⟨cs, cf, cHost, hc⟩ := hc
  have ht : ∀ c, truncPart (wdmPlain zl zs mc kwS kwF x).truncSub (wdmPlain zl zs mc kwS kwF x).truncField
      (Kwargs.empty.set "lens_cosmo" (.lensCosmo zl zs 0)) (Kwargs.empty.set "lens_cosmo" (.lensCosmo zl zs 0)) c =
      .ok ((.named "TruncationGalacticus", (Kwargs.empty.update
        (Kwargs.empty.set "lens_cosmo" (.lensCosmo zl zs 0))).set "c_host" (.num c)),
        (.named "TruncationRN", Kwargs.empty.update (Kwargs.empty.set "lens_cosmo" (.lensCosmo zl zs 0)))) := by
    intro c
    have k1 : truncationModel (wdmPlain zl zs mc kwS kwF x).truncSub =
      .ok (.named "TruncationGalacticus", Kwargs.empty) := rfl
    have k2 : truncationModel (wdmPlain zl zs mc kwS kwF x).truncField = .ok (.named "TruncationRN", Kwargs.empty) := rfl
    have k3 : (wdmPlain zl zs mc kwS kwF x).truncSub = .name "TRUNCATION_GALACTICUS" := rfl
    unfold truncPart
    rw [k1, k2, k3]
    dsimp only [bind, Except.bind]
    rw [if_pos (by simp), construct_galacticus]
    dsimp only
    rw [construct_rn]
    rfl
  unfold wdm
  rw [if_neg (by simp [geometryOk, wdmPlain])]
  dsimp only
  rw [hi]
  dsimp only
  rw [hm]
  dsimp only
  have hc' : wdmConc E (wdmPlain zl zs mc kwS kwF x)
      ((freshDicts.concSub.set "cosmo" (.cosmo (wdmPlain zl zs mc kwS kwF x).kwargsCosmo)).set "log_mc"
        (.num (wdmPlain zl zs mc kwS kwF x).logMc))
      ((freshDicts.concField.set "cosmo" (.cosmo (wdmPlain zl zs mc kwS kwF x).kwargsCosmo)).set "log_mc"
        (.num (wdmPlain zl zs mc kwS kwF x).logMc)) = .ok (cs, cf, cHost) := hc
  rw [hc']
  dsimp only
  unfold wdmAssemble
  have ht' : truncPart (wdmPlain zl zs mc kwS kwF x).truncSub (wdmPlain zl zs mc kwS kwF x).truncField
      (freshDicts.truncSub.set "lens_cosmo" (.lensCosmo (wdmPlain zl zs mc kwS kwF x).zLens
        (wdmPlain zl zs mc kwS kwF x).zSource (wdmPlain zl zs mc kwS kwF x).kwargsCosmo))
      (freshDicts.truncField.set "lens_cosmo" (.lensCosmo (wdmPlain zl zs mc kwS kwF x).zLens
        (wdmPlain zl zs mc kwS kwF x).zSource (wdmPlain zl zs mc kwS kwF x).kwargsCosmo)) cHost = _ := ht cHost
  rw [ht']
  exact ⟨_, rfl⟩

/-- A caller who gives both. -/
example (E : Env) : ∃ r, (wdm E (wdmPlain 0.5 1.5 7 (Kwargs.empty.set "sigma_sub" (.num 0.1)) Kwargs.empty (some (-1)))
    freshDicts).1 = .ok r := wdm_plain_ok E _ _ _ _ _ _

/-! ## The populations of a request (C79) -/

/-- The request of the cold dark matter preset has one entry per population in every list, subhalos first, the line of
sight next and the two-halo term last and only on request; all mass functions cover the same range of masses for the same
host, and the volume is that of the arguments. -/
theorem c79_cdm (E : Env) (a : CdmArgs) (d : Dicts) (r : Request) (h : (cdm E a d).1 = .ok r) :
    r.populations = (if a.twoHalo then ["SUBHALOS", "LINE_OF_SIGHT", "TWO_HALO"] else ["SUBHALOS", "LINE_OF_SIGHT"]) ∧
    r.massFunctions.length = r.populations.length ∧ r.massKwargs.length = r.populations.length ∧
    r.spatials.length = r.populations.length ∧ r.spatialKwargs.length = r.populations.length ∧
    (∀ kw ∈ r.massKwargs, kw "log_mlow" = some (.num a.logMlow) ∧ kw "log_mhigh" = some (.num a.logMhigh) ∧
      kw "log_m_host" = some (.num a.logMHost) ∧ kw "m_pivot" = some (.num (10 ^ 8)) ∧
      kw "draw_poisson" = some (.bool a.drawPoisson)) ∧
    (∀ kw ∈ r.massKwargs.tail, kw "LOS_normalization" = some (.num a.losNormalization) ∧
      kw "delta_power_law_index" = some (.num a.deltaPowerLawIndex) ∧ kw "sigma_sub" = none ∧ kw "dndA" = none) ∧
    (∀ kw ∈ r.spatialKwargs, ∀ v, kw "geometry" = some v →
      v = .geometry a.zLens a.zSource a.cone a.geometryType a.kwargsCosmo) ∧
    (∀ kw ∈ r.spatialKwargs, ∀ v, kw "rmax2d_arcsec" = some v → v = .num (a.cone / 2)) := by
  obtain ⟨-, -, inf, cs, cf, cHost, -, -, h⟩ := cdm_ok h
  obtain ⟨ts, tf, sp, spKw, -, hsp, hp, hf, hk, hs, hsk, -⟩ := cdmAssemble_ok h
  have l1 : ∀ kw ∈ [cdmSubKwargs a, cdmLosKwargs a, cdmLosKwargs a], kw "log_mlow" = some (.num a.logMlow) ∧
      kw "log_mhigh" = some (.num a.logMhigh) ∧ kw "log_m_host" = some (.num a.logMHost) ∧
      kw "m_pivot" = some (.num (10 ^ 8)) ∧ kw "draw_poisson" = some (.bool a.drawPoisson) := by
    intro kw hkw
    simp only [List.mem_cons, List.not_mem_nil, or_false, or_self] at hkw
    rcases hkw with rfl | rfl
    · refine ⟨?_, ?_, ?_, ?_, ?_⟩ <;> rw [cdmSub_get a _ (by simp) (by simp)] <;> rfl
    · exact ⟨rfl, rfl, rfl, rfl, rfl⟩
  have l2 : cdmLosKwargs a "LOS_normalization" = some (.num a.losNormalization) ∧
      cdmLosKwargs a "delta_power_law_index" = some (.num a.deltaPowerLawIndex) ∧ cdmLosKwargs a "sigma_sub" = none ∧
      cdmLosKwargs a "dndA" = none := ⟨rfl, rfl, rfl, rfl⟩
  have l3 : (∀ v, spKw "geometry" = some v → v = .geometry a.zLens a.zSource a.cone a.geometryType a.kwargsCosmo) ∧
      (∀ v, spKw "rmax2d_arcsec" = some v → v = .num (a.cone / 2)) := by
    unfold spatialPart at hsp
    split at hsp
    · cases hsp
      refine ⟨fun v hv => ?_, fun v hv => ?_⟩ <;> (cases hv; rfl)
    · split at hsp
      · cases hsp
        refine ⟨fun v hv => ?_, fun v hv => ?_⟩
        · simp [Kwargs.ofList, List.lookup] at hv
        · cases hv; rfl
      · cases hsp
  have l4 : ∀ kw ∈ [spKw, Kwargs.ofList [("cone_opening_angle", .num a.cone), ("geometry",
      .geometry a.zLens a.zSource a.cone a.geometryType a.kwargsCosmo)], Kwargs.ofList [("cone_opening_angle",
      .num a.cone), ("geometry", .geometry a.zLens a.zSource a.cone a.geometryType a.kwargsCosmo)]],
      (∀ v, kw "geometry" = some v → v = .geometry a.zLens a.zSource a.cone a.geometryType a.kwargsCosmo) ∧
      (∀ v, kw "rmax2d_arcsec" = some v → v = .num (a.cone / 2)) := by
    intro kw hkw
    simp only [List.mem_cons, List.not_mem_nil, or_false, or_self] at hkw
    rcases hkw with rfl | rfl
    · exact l3
    · refine ⟨fun v hv => ?_, fun v hv => ?_⟩
      · cases hv; rfl
      · simp [Kwargs.ofList, List.lookup] at hv
  rw [hp, hf, hk, hs, hsk]
  cases a.twoHalo
  · refine ⟨rfl, rfl, rfl, rfl, rfl, fun kw hkw => l1 kw ?_, ?_, fun kw hkw => (l4 kw ?_).1, fun kw hkw => (l4 kw ?_).2⟩
    · simp at hkw ⊢; exact hkw
    · simpa using l2
    · simp at hkw ⊢; exact hkw
    · simp at hkw ⊢; exact hkw
  · refine ⟨rfl, rfl, rfl, rfl, rfl, fun kw hkw => l1 kw ?_, ?_, fun kw hkw => (l4 kw ?_).1, fun kw hkw => (l4 kw ?_).2⟩
    · simpa using hkw
    · simpa using l2
    · simpa using hkw
    · simpa using hkw

/-- The tilt `delta_power_law_index` reaches the field halos only: the subhalo mass function of two calls that differ only
in it is the same, although the documentation says that it tilts both. -/
theorem c79_tilt_ignored (E : Env) (a : CdmArgs) (δ : ℝ) (d d' : Dicts) (r r' : Request) (h : (cdm E a d).1 = .ok r)
    (h' : (cdm E { a with deltaPowerLawIndex := δ } d').1 = .ok r') :
    r.massKwargs.head? = r'.massKwargs.head? ∧
      ∀ kw ∈ r'.massKwargs.tail, kw "delta_power_law_index" = some (.num δ) := by
  have h1 := (c79_cdm E _ d' r' h').2.2.2.2.2.2.1
  obtain ⟨-, -, inf, cs, cf, cHost, -, -, h⟩ := cdm_ok h
  obtain ⟨ts, tf, sp, spKw, -, hsp, hp, hf, hk, hs, hsk, -⟩ := cdmAssemble_ok h
  obtain ⟨-, -, inf', cs', cf', cHost', -, -, h'⟩ := cdm_ok h'
  obtain ⟨ts', tf', sp', spKw', -, hsp', hp', hf', hk', hs', hsk', -⟩ := cdmAssemble_ok h'
  exact ⟨by rw [hk, hk']; rfl, fun kw hkw => (h1 kw hkw).2.1⟩

/-- The request of the warm dark matter preset: the same, except that the lists of spatial distributions have three
entries even without the two-halo term. The half-mode mass is that of the arguments for every population. -/
theorem c79_wdm (E : Env) (a : WdmArgs) (d : Dicts) (r : Request) (h : (wdm E a d).1 = .ok r) :
    r.populations = (if a.twoHalo then ["SUBHALOS", "LINE_OF_SIGHT", "TWO_HALO"] else ["SUBHALOS", "LINE_OF_SIGHT"]) ∧
    r.massFunctions.length = r.populations.length ∧ r.massKwargs.length = r.populations.length ∧
    r.spatials.length = 3 ∧ r.spatialKwargs.length = 3 ∧
    (∀ kw ∈ r.massKwargs, kw "log_mlow" = some (a.logMlow) ∧ kw "log_mhigh" = some (.num a.logMhigh) ∧
      kw "log_m_host" = some (.num a.logMHost) ∧ kw "m_pivot" = some (.num (10 ^ 8)) ∧
      kw "draw_poisson" = some (.bool a.drawPoisson) ∧ kw "log_mc" = some (.num a.logMc)) ∧
    (∀ kw ∈ r.massKwargs.tail, kw "LOS_normalization" = some (.num a.losNormalization)) := by
  obtain ⟨-, inf, ms, mf, cs, cf, cHost, -, hm, -, h⟩ := wdm_ok h
  obtain ⟨-, ts, tf, sp, spKw, -, -, hp, hf, hk, hs, -, -, -, -, -, hsk⟩ := wdmAssemble_ok h
  obtain ⟨s, f, -, -, rfl, rfl⟩ := wdmMass_ok hm
  have u : ∀ (k l : Kwargs) (s : String) (v : Val), l s = some v → k.update l s = some v := by
    intro k l s v hv; rw [Kwargs.update, hv]; rfl
  have l1 : ∀ kw ∈ [wdmSubKwargs a (s.2.set "log_mc" (.num a.logMc)), wdmLosKwargs a (f.2.set "log_mc" (.num a.logMc)),
      wdmLosKwargs a (f.2.set "log_mc" (.num a.logMc))], kw "log_mlow" = some (a.logMlow) ∧
      kw "log_mhigh" = some (.num a.logMhigh) ∧ kw "log_m_host" = some (.num a.logMHost) ∧
      kw "m_pivot" = some (.num (10 ^ 8)) ∧ kw "draw_poisson" = some (.bool a.drawPoisson) ∧
      kw "log_mc" = some (.num a.logMc) := by
    intro kw hkw
    simp only [List.mem_cons, List.not_mem_nil, or_false, or_self] at hkw
    rcases hkw with rfl | rfl
    · refine ⟨?_, ?_, ?_, ?_, ?_, ?_⟩ <;> rw [wdmSub_get a _ _ (by simp) (by simp)]
      · exact u _ _ _ _ rfl
      · exact u _ _ _ _ rfl
      · exact u _ _ _ _ rfl
      · exact u _ _ _ _ rfl
      · exact u _ _ _ _ rfl
      · simp [Kwargs.update, Kwargs.ofList, List.lookup, Kwargs.set]
    · refine ⟨u _ _ _ _ rfl, u _ _ _ _ rfl, u _ _ _ _ rfl, u _ _ _ _ rfl, u _ _ _ _ rfl, ?_⟩
      simp [wdmLosKwargs, Kwargs.update, Kwargs.ofList, List.lookup, Kwargs.set]
  have l2 : wdmLosKwargs a (f.2.set "log_mc" (.num a.logMc)) "LOS_normalization" = some (.num a.losNormalization) :=
    u _ _ _ _ rfl
  rw [hp, hf, hk, hs, hsk]
  cases a.twoHalo
  · refine ⟨rfl, rfl, rfl, rfl, rfl, fun kw hkw => l1 kw ?_, ?_⟩
    · simp at hkw ⊢; exact hkw
    · simpa using l2
  · refine ⟨rfl, rfl, rfl, rfl, rfl, fun kw hkw => l1 kw ?_, ?_⟩
    · simpa using hkw
    · simpa using l2

/-- With its default names the warm dark matter preset suppresses the subhalo mass function with the coefficients measured
for field halos: the class is the one for the field, and the coefficients are those of `LOVELL2020`, not of
`SHMF_LOVELL2020`. -/
theorem c79_wdm_default_subhalos (E : Env) (zl zs mc : ℝ) (d : Dicts) (r : Request)
    (h : (wdm E { zLens := zl, zSource := zs, logMc := mc } d).1 = .ok r) :
    r.massFunctions.head? = some (.named "ShethTormenTurnover") ∧ ∃ kw rest, r.massKwargs = kw :: rest ∧
      kw "a_wdm" = some (.num 1.95) ∧ kw "b_wdm" = some (.num 0.8) ∧ kw "c_wdm" = some (.num (-1.0)) := by
  obtain ⟨-, inf, ms, mf, cs, cf, cHost, -, hm, -, h⟩ := wdm_ok h
  obtain ⟨-, ts, tf, sp, spKw, -, -, hp, hf, hk, -⟩ := wdmAssemble_ok h
  obtain ⟨s, f, h1, -, rfl, rfl⟩ := wdmMass_ok hm
  cases h1
  refine ⟨by rw [hf]; rfl, _, _, hk, ?_, ?_, ?_⟩ <;> rw [wdmSub_get _ _ _ (by simp) (by simp)] <;>
    simp [Kwargs.update, Kwargs.ofList, List.lookup, Kwargs.set, setABC]

/-! ## Which models a preset can use (C80) -/


theorem construct_unexpected {c : Cls} {kw : Kwargs} {o : Cls × Kwargs} (h : construct c kw = .ok o) (k : String)
    (hk : kw k ≠ none) : (signature c).extra = true ∨ k ∈ (signature c).required ∨ k ∈ (signature c).optional := by
  by_contra hn
  push Not at hn
  unfold construct at h
  dsimp only at h
  split at h
  · cases h
  · rename_i hc
    exact hc ⟨hn.1, k, hk, hn.2.1, hn.2.2⟩

theorem construct_required {c : Cls} {kw : Kwargs} {o : Cls × Kwargs} (h : construct c kw = .ok o) (k : String)
    (hk : k ∈ (signature c).required) : kw k ≠ none := by
  intro hn
  unfold construct at h
  dsimp only at h
  split at h
  · cases h
  · split at h
    · cases h
    · rename_i hc
      exact hc ⟨k, hk, hn⟩

theorem cdmConc_ok {E : Env} {a : CdmArgs} {x y : Kwargs} {cs cf : Cls × Kwargs} {c : ℝ}
    (h : cdmConc E a x y = .ok (cs, cf, c)) :
    (∃ m, concentrationModel E a.concSub (some x) = .ok m ∧ construct m.1 (m.2.set "scatter_dex" (.num 0.2)) = .ok cs) ∧
    (∃ m, concentrationModel E a.concField (some y) = .ok m ∧
      construct m.1 (m.2.set "scatter_dex" (.num 0.2)) = .ok cf) := by
  unfold cdmConc at h
  obtain ⟨m, h1, h⟩ := bind_ok h
  obtain ⟨o, h2, h⟩ := bind_ok h
  obtain ⟨m', h3, h⟩ := bind_ok h
  obtain ⟨o', h4, h⟩ := bind_ok h
  cases h
  exact ⟨⟨m, h1, h2⟩, m', h3, h4⟩

theorem wdmConc_ok {E : Env} {a : WdmArgs} {x y : Kwargs} {cs cf : Cls × Kwargs} {c : ℝ}
    (h : wdmConc E a x y = .ok (cs, cf, c)) :
    (∃ m, concentrationModel E a.concSub (some x) = .ok m ∧ construct m.1
      (m.2.set "concentration_cdm_class" (.cls (.named "ConcentrationDiemerJoyce"))) = .ok cs) ∧
    (∃ m, concentrationModel E a.concField (some y) = .ok m ∧ construct m.1
      (((m.2.set "cosmo" (.cosmo a.kwargsCosmo)).set "log_mc" (.num a.logMc)).set "concentration_cdm_class"
        (.cls (.named "ConcentrationDiemerJoyce"))) = .ok cf) := by
  unfold wdmConc at h
  obtain ⟨m, h1, h⟩ := bind_ok h
  obtain ⟨o, h2, h⟩ := bind_ok h
  obtain ⟨m', h3, h⟩ := bind_ok h
  obtain ⟨o', h4, h⟩ := bind_ok h
  cases h
  exact ⟨⟨m, h1, h2⟩, m', h3, h4⟩

/-- The constant concentration cannot be used in the cold dark matter preset, neither for subhalos nor for field halos,
whatever else is given: the preset always adds a scatter the class does not accept. -/
theorem c80_cdm_constant (E : Env) (a : CdmArgs) (d : Dicts) (h : a.concSub = "CONSTANT" ∨ a.concField = "CONSTANT") :
    ∃ e, (cdm E a d).1 = .error e := by
  cases hr : (cdm E a d).1 with
  | error e => exact ⟨e, rfl⟩
  | ok r =>
    exfalso
    obtain ⟨-, -, inf, cs, cf, cHost, -, hc, -⟩ := cdm_ok hr
    obtain ⟨⟨m, h1, h2⟩, m', h3, h4⟩ := cdmConc_ok hc
    have key : ∀ (x : Kwargs) (m o : Cls × Kwargs), concentrationModel E "CONSTANT" (some x) = .ok m →
        construct m.1 (m.2.set "scatter_dex" (.num 0.2)) = .ok o → False := by
      intro x m o hm ho
      cases hm
      have := construct_unexpected ho "scatter_dex" (by simp [Kwargs.set])
      simp [signature] at this
    rcases h with h | h
    · rw [h] at h1; exact key _ _ _ h1 h2
    · rw [h] at h3; exact key _ _ _ h3 h4

example (E : Env) := c80_cdm_constant E { zLens := 0.5, zSource := 1.5, concSub := "CONSTANT" } freshDicts (.inl rfl)

/-- The names that a preset can use when the dictionary for the concentration contains nothing but what the preset puts
there. -/
theorem conc_cases {E : Env} {name : String} {x : Kwargs} {m : Cls × Kwargs}
    (h : concentrationModel E name (some x) = .ok m) (hx : x "custom_class" = none) (hd : x "dlogT_dlogk" = none) :
    (name = "DIEMERJOYCE19" ∨ name = "LUDLOW2016" ∨ name = "WDM_POLYNOMIAL" ∨ name = "BOSE2016" ∨
      name = "BOSE2016_LUDLOW" ∨ name = "LAROCHE2022") ∨
    (m.1 = .named "ConcentrationPeakHeight" ∧ m.2 = x) ∨
    (name = "BINNED_HALO_MASS" ∧ m.1 = .named "BinnedHaloMass" ∧ m.2 = x) ∨
    (m.1 = .named "ConcentrationWDMHyperbolic" ∧ m.2 = x) ∨
    (m.1 = .named "ConcentrationLudlowWDM" ∧ m.2 = x) ∨ (m.1 = .named "ConcentrationConstant" ∧ m.2 = x) := by
  unfold concentrationModel at h
  dsimp only [Option.getD_some] at h
  by_cases c1 : name = "DIEMERJOYCE19"
  · simp [c1]
  rw [if_neg c1] at h
  by_cases c2 : name = "LUDLOW2016"
  · simp [c2]
  rw [if_neg c2] at h
  refine ite_elim h (fun h => ?_) (fun h => ?_)
  · cases h; simp
  by_cases cb : name = "BINNED_HALO_MASS"
  · rw [if_pos cb] at h; cases h; simp [cb]
  rw [if_neg cb] at h
  refine ite_elim h (fun h => ?_) (fun h => ?_)
  · cases h; simp
  by_cases c3 : name = "WDM_POLYNOMIAL"
  · simp [c3]
  rw [if_neg c3] at h
  by_cases c4 : name = "BOSE2016"
  · simp [c4]
  rw [if_neg c4] at h
  by_cases c5 : name = "BOSE2016_LUDLOW"
  · simp [c5]
  rw [if_neg c5] at h
  by_cases c6 : name = "LAROCHE2022"
  · simp [c6]
  rw [if_neg c6] at h
  refine ite_elim h (fun h => ?_) (fun h => ?_)
  · cases h; simp
  refine ite_elim h (fun h => ?_) (fun h => ?_)
  · simp [Kwargs.num, hd] at h
  refine ite_elim h (fun h => ?_) (fun h => ?_)
  · simp [hx] at h
  refine ite_elim h (fun h => ?_) (fun h => ?_)
  · cases h; simp
  · cases h

/-- With the default dictionaries (as they are after any number of calls) the cold dark matter preset works with two of
the thirteen concentration models only. -/
theorem c80_cdm_defaults (E : Env) (a : CdmArgs) (d : Dicts) (r : Request) (h : (cdm E a d).1 = .ok r)
    (h1 : SameBut ["cosmo"] d.concSub Kwargs.empty) (h2 : SameBut ["cosmo"] d.concField Kwargs.empty) :
    (a.concSub = "DIEMERJOYCE19" ∨ a.concSub = "LUDLOW2016") ∧
      (a.concField = "DIEMERJOYCE19" ∨ a.concField = "LUDLOW2016") := by
  obtain ⟨-, -, inf, cs, cf, cHost, -, hc, -⟩ := cdm_ok h
  obtain ⟨⟨m, e1, e2⟩, m', e3, e4⟩ := cdmConc_ok hc
  have key : ∀ (name : String) (x : Kwargs) (m o : Cls × Kwargs), SameBut ["cosmo"] x Kwargs.empty →
      concentrationModel E name (some x) = .ok m → construct m.1 (m.2.set "scatter_dex" (.num 0.2)) = .ok o →
      name = "DIEMERJOYCE19" ∨ name = "LUDLOW2016" := by
    intro name x m o hx hm ho
    have g : ∀ k, k ≠ "cosmo" → x k = none := fun k hk => hx k (by simpa using hk)
    have miss : ∀ k, k ∈ (signature m.1).required → m.2 k = none → k ≠ "scatter_dex" → False := by
      intro k hk hn hs
      apply construct_required ho k hk
      simp [Kwargs.set, hs, hn]
    rcases conc_cases hm (g _ (by simp)) (g _ (by simp)) with hn | ⟨hn, hm2⟩ | ⟨-, hn, hm2⟩ | ⟨hn, hm2⟩ | ⟨hn, hm2⟩ | ⟨hn, hm2⟩
    · rcases hn with rfl | rfl | rfl | rfl | rfl | rfl
      · simp
      · simp
      all_goals
        exfalso
        cases hm
        exact miss "log_mc" (by simp [signature]) (by simp [Kwargs.set, setBose, g]) (by simp)
    · exact (miss "c0" (by simp [hn, signature]) (by rw [hm2]; exact g _ (by simp)) (by simp)).elim
    · exact (miss "beta_list" (by simp [hn, signature]) (by rw [hm2]; exact g _ (by simp)) (by simp)).elim
    · exact (miss "log_mc" (by simp [hn, signature]) (by rw [hm2]; exact g _ (by simp)) (by simp)).elim
    · exact (miss "log_mc" (by simp [hn, signature]) (by rw [hm2]; exact g _ (by simp)) (by simp)).elim
    · exact (miss "c" (by simp [hn, signature]) (by rw [hm2]; exact g _ (by simp)) (by simp)).elim
  exact ⟨key _ _ _ _ ((SameBut.set _ _ (by simp)).trans h1) e1 e2, key _ _ _ _ ((SameBut.set _ _ (by simp)).trans h2) e3 e4⟩

/-- The warm dark matter preset always hands over a half-mode mass and a class for cold dark matter; four of the named
models refuse them, whatever else is given. -/
theorem c80_wdm_refused (E : Env) (a : WdmArgs) (d : Dicts) (n : String)
    (hn : n = "CONSTANT" ∨ n = "PEAK_HEIGHT_POWERLAW" ∨ n = "BINNED_HALO_MASS" ∨ n = "LUDLOW_WDM")
    (h : a.concSub = n ∨ a.concField = n) : ∃ e, (wdm E a d).1 = .error e := by
  cases hr : (wdm E a d).1 with
  | error e => exact ⟨e, rfl⟩
  | ok r =>
    exfalso
    obtain ⟨-, inf, ms, mf, cs, cf, cHost, -, -, hc, -⟩ := wdm_ok hr
    obtain ⟨⟨m, h1, h2⟩, m', h3, h4⟩ := wdmConc_ok hc
    have key : ∀ (x : Kwargs) (m : Cls × Kwargs) (k : Kwargs) (o : Cls × Kwargs),
        concentrationModel E n (some x) = .ok m → k "concentration_cdm_class" ≠ none → construct m.1 k = .ok o → False := by
      intro x m k o hm hk ho
      have := construct_unexpected ho "concentration_cdm_class" hk
      rcases hn with rfl | rfl | rfl | rfl <;> cases hm <;> simp [signature] at this
    rcases h with h | h
    · rw [h] at h1; exact key _ _ _ _ h1 (by simp [Kwargs.set]) h2
    · rw [h] at h3; exact key _ _ _ _ h3 (by simp [Kwargs.set]) h4

example (E : Env) := c80_wdm_refused E { zLens := 0.5, zSource := 1.5, logMc := 7, concField := "LUDLOW_WDM" } freshDicts "LUDLOW_WDM"
  (by simp) (.inr rfl)

/-- Choosing `BOSE2016_LUDLOW` has no effect in the warm dark matter preset: it overwrites the class that makes the
difference to `BOSE2016`. -/
theorem c80_wdm_bose_ludlow (E : Env) (a : WdmArgs) (d : Dicts) :
    wdm E { a with concSub := "BOSE2016_LUDLOW", concField := "BOSE2016_LUDLOW" } d =
      wdm E { a with concSub := "BOSE2016", concField := "BOSE2016" } d := by
  have hs : ∀ k : Kwargs, SameBut ["concentration_cdm_class"]
      ((setBose k "ConcentrationLudlow" 60.0 (-0.17) 1.0).set "mc_suppression_redshift_evolution" (.bool false))
      ((setBose k "ConcentrationDiemerJoyce" 60.0 (-0.17) 1.0).set "mc_suppression_redshift_evolution" (.bool false)) := by
    intro k s hs
    have : s ≠ "concentration_cdm_class" := by simpa using hs
    simp [setBose, Kwargs.set, this]
  have hb : ∀ {x y : Kwargs} (k : String) (v : Val), SameBut ["concentration_cdm_class"] x y →
      SameBut ["concentration_cdm_class"] (x.set k v) (y.set k v) := by
    intro x y k v h s hs
    by_cases hk : s = k <;> simp [Kwargs.set, hk, h s hs]
  have hf : ∀ {x y : Kwargs} (v : Val), SameBut ["concentration_cdm_class"] x y →
      x.set "concentration_cdm_class" v = y.set "concentration_cdm_class" v :=
    fun v h => Kwargs.set_congr v (fun k hk => h k (by simpa using hk))
  have hc : ∀ x y, wdmConc E { a with concSub := "BOSE2016_LUDLOW", concField := "BOSE2016_LUDLOW" } x y =
      wdmConc E { a with concSub := "BOSE2016", concField := "BOSE2016" } x y := by
    intro x y
    have b1 : ∀ k : Kwargs, concentrationModel E "BOSE2016_LUDLOW" (some k) = .ok (.named "ConcentrationWDMPolynomial",
      (setBose k "ConcentrationLudlow" 60.0 (-0.17) 1.0).set "mc_suppression_redshift_evolution" (.bool false)) :=
      fun _ => rfl
    have b2 : ∀ k : Kwargs, concentrationModel E "BOSE2016" (some k) = .ok (.named "ConcentrationWDMPolynomial",
      (setBose k "ConcentrationDiemerJoyce" 60.0 (-0.17) 1.0).set "mc_suppression_redshift_evolution" (.bool false)) :=
      fun _ => rfl
    unfold wdmConc
    dsimp only
    rw [b1, b1, b2, b2]
    dsimp only [bind, Except.bind]
    rw [hf _ (hs x), hf _ (hb "log_mc" _ (hb "cosmo" _ (hs y)))]
  unfold wdm
  dsimp only
  simp only [hc]
  rfl

/-- Three of the truncation models need the concentration of the host and never get it as models for field halos, unless
the caller's dictionary has it. -/
theorem c80_field_truncation (E : Env) (a : CdmArgs) (d : Dicts) (n : String)
    (hn : n = "TRUNCATION_GALACTICUS" ∨ n = "TRUNCATION_GALACTICUS_ZINFALL" ∨ n = "TRUNCATION_GALACTICUS_KEELEY24")
    (h : a.truncField = .name n) (hd : d.truncField "c_host" = none) : ∃ e, (cdm E a d).1 = .error e := by
  cases hr : (cdm E a d).1 with
  | error e => exact ⟨e, rfl⟩
  | ok r =>
    exfalso
    obtain ⟨-, -, inf, cs, cf, cHost, -, -, hr⟩ := cdm_ok hr
    obtain ⟨ts, tf, sp, spKw, ht, -⟩ := cdmAssemble_ok hr
    unfold truncPart at ht
    obtain ⟨m, h1, ht⟩ := bind_ok ht
    obtain ⟨o, h2, ht⟩ := bind_ok ht
    obtain ⟨m', h3, ht⟩ := bind_ok ht
    obtain ⟨o', h4, ht⟩ := bind_ok ht
    rw [h] at h3
    rcases hn with rfl | rfl | rfl <;> cases h3 <;>
      exact construct_required h4 "c_host" (by simp [signature])
        (by simp [Kwargs.update, Kwargs.set, hd, Kwargs.empty])

example (E : Env) := c80_field_truncation E { zLens := 0.5, zSource := 1.5, truncField := .name "TRUNCATION_GALACTICUS" } freshDicts _
  (.inl rfl) rfl rfl

/-- Prompt cusps cannot be requested from the warm dark matter preset: the method does not exist. -/
theorem c80_prompt_cusps (E : Env) (a : WdmArgs) (d : Dicts) (h : a.promptCusps = true) :
    ∃ e, (wdm E a d).1 = .error e := by
  cases hr : (wdm E a d).1 with
  | error e => exact ⟨e, rfl⟩
  | ok r =>
    obtain ⟨-, inf, ms, mf, cs, cf, cHost, -, -, -, hr⟩ := wdm_ok hr
    obtain ⟨hp, -⟩ := wdmAssemble_ok hr
    rw [h] at hp
    cases hp

example (E : Env) := c80_prompt_cusps E { zLens := 0.5, zSource := 1.5, logMc := 7, promptCusps := true } freshDicts rfl

/-- C24, for the dictionaries of the presets. With the host mass in the dictionary (`m_host`, or else `log_m_host`) the model is
the one named, for the lens redshift and this mass; the cluster model is refused outside `14 ≤ log_m_host ≤ 15`, and other
names are refused. -/
theorem c24_preset (E : Env) (z l : ℝ) (kw : Kwargs)
    (hkw : (∃ m, kw "m_host" = some (.num m) ∧ l = Real.logb 10 m) ∨
      (kw "m_host" = none ∧ kw "log_m_host" = some (.num l))) (s : String) :
    (s = "HYBRID_INFALL" → (setupInfall E z (.name s) kw).1 = .ok (.hybrid z l)) ∧
    (s = "DIRECT_INFALL" → (setupInfall E z (.name s) kw).1 = .ok (.direct z l)) ∧
    (s = "GALACTICUS_2024" → (setupInfall E z (.name s) kw).1 = .ok (.galacticus z)) ∧
    (s = "DIRECT_INFALL_CLUSTER" → 14 ≤ l → l ≤ 15 → (setupInfall E z (.name s) kw).1 = .ok (.cluster z l)) ∧
    (s = "DIRECT_INFALL_CLUSTER" → ¬ (14 ≤ l ∧ l ≤ 15) → ∃ e, (setupInfall E z (.name s) kw).1 = .error e) ∧
    (s = "INFALL_ZLENS" → (setupInfall E z (.name s) kw).1 = .ok (.atZlens z)) ∧
    (s = "INFALL_0" → (setupInfall E z (.name s) kw).1 = .ok .zero) ∧
    (s ∉ ["HYBRID_INFALL", "DIRECT_INFALL", "GALACTICUS_2024", "DIRECT_INFALL_CLUSTER", "INFALL_ZLENS", "INFALL_0"] →
      ∃ e, (setupInfall E z (.name s) kw).1 = .error e) := by
  have hc : ∃ k, convertHost kw = .ok k ∧ k "log_m_host" = some (.num l) := by
    rcases hkw with ⟨m, hm, rfl⟩ | ⟨h1, h2⟩
    · exact ⟨(kw.set "log_m_host" (.num (Real.logb 10 m))).del "m_host", by simp only [convertHost, hm],
        by simp [Kwargs.set, Kwargs.del]⟩
    · exact ⟨kw, by simp only [convertHost, h1], h2⟩
  obtain ⟨k, hk, hl⟩ := hc
  have hd : defaultHost k = k := by simp [defaultHost, hl]
  have hn : k.num "log_m_host" = .ok l := by simp [Kwargs.num, hl]
  refine ⟨?_, ?_, ?_, ?_, ?_, ?_, ?_, ?_⟩
  · rintro rfl; simp [setupInfall, hk, hd, hn]
  · rintro rfl; simp [setupInfall, hk, hd, hn]
  · rintro rfl; simp [setupInfall]
  · rintro rfl h1 h2
    have : ¬ (l > 15.0 ∨ l < 14.0) := by push Not; constructor <;> norm_num <;> assumption
    simp only [setupInfall, hk, hn, if_neg this]
    simp
  · rintro rfl h
    have : l > 15.0 ∨ l < 14.0 := by
      by_contra hc
      push Not at hc
      norm_num at hc
      exact h ⟨hc.2, hc.1⟩
    simp only [setupInfall, hk, hn, if_pos this]
    simp
  · rintro rfl; simp [setupInfall]
  · rintro rfl; simp [setupInfall]
  · intro h
    simp only [List.mem_cons, List.not_mem_nil, not_or, or_false] at h
    obtain ⟨h1, h2, h3, h4, h5, h6⟩ := h
    refine ⟨.exception (s ++ " not a valid infall redshift model."), ?_⟩
    unfold setupInfall
    dsimp only
    rw [if_neg (by tauto), if_neg h3, if_neg h4, if_neg h5, if_neg h6]

example (E : Env) : (setupInfall E 0.5 (.name "DIRECT_INFALL_CLUSTER") (Kwargs.empty.set "log_m_host" (.num 14.5))).1 =
    .ok (.cluster 0.5 14.5) :=
  (c24_preset E 0.5 14.5 _ (.inr ⟨by simp [Kwargs.set, Kwargs.empty], by simp [Kwargs.set]⟩) _).2.2.2.1 rfl (by norm_num)
    (by norm_num)

end PyHalo.Props
