import Verif.Props.PresetRequests

/-!
# Interleaved calls of two presets (C46), and the suppression of Stücker et al. (C82)
-/

namespace PyHalo.Props
open PyHalo.Preset

/-! ## `WDM` and `WDM_mixed` in any order -/

/-- A default dictionary of the mixed model: what was written into it is what the next call writes. -/
def MixClean (kw : Kwargs) : Prop :=
  SameBut ["a_wdm", "b_wdm", "c_wdm", "mixed_DM_frac"] kw Kwargs.empty ∧
    (kw "a_wdm" = none ∨ kw "a_wdm" = some (.num 0.5)) ∧ (kw "b_wdm" = none ∨ kw "b_wdm" = some (.num 0.8)) ∧
    (kw "c_wdm" = none ∨ kw "c_wdm" = some (.num (-3.0)))

theorem mixClean_defaults {kw : Kwargs} (h : MixClean kw) (frac : ℝ) :
    mixedDefaults kw frac = mixedDefaults Kwargs.empty frac ∧ MixClean (mixedDefaults kw frac) := by
  obtain ⟨h0, ha, hb, hc⟩ := h
  have key : mixedDefaults kw frac = mixedDefaults Kwargs.empty frac := by
    funext s
    by_cases s1 : s = "mixed_DM_frac"
    · simp [mixedDefaults, Kwargs.set, s1]
    by_cases s2 : s = "c_wdm"
    · subst s2
      rcases hc with hc | hc <;> rcases hb with hb | hb <;> rcases ha with ha | ha <;>
        simp [mixedDefaults, Kwargs.setDefault, Kwargs.set, Kwargs.empty, hc, hb, ha]
    by_cases s3 : s = "b_wdm"
    · subst s3
      rcases hc with hc | hc <;> rcases hb with hb | hb <;> rcases ha with ha | ha <;>
        simp [mixedDefaults, Kwargs.setDefault, Kwargs.set, Kwargs.empty, hc, hb, ha]
    by_cases s4 : s = "a_wdm"
    · subst s4
      rcases hc with hc | hc <;> rcases hb with hb | hb <;> rcases ha with ha | ha <;>
        simp [mixedDefaults, Kwargs.setDefault, Kwargs.set, Kwargs.empty, hc, hb, ha]
    · have hs : kw s = none := h0 s (by simp [s1, s2, s3, s4])
      have hd : ∀ (k : Kwargs) (t : String) (v : Val), s ≠ t → k.setDefault t v s = k s := by
        intro k t v ht
        unfold Kwargs.setDefault
        split
        · simp [Kwargs.set, ht]
        · rfl
      simp only [mixedDefaults]
      rw [Kwargs.set, Kwargs.set, if_neg s1, if_neg s1, hd _ _ _ s2, hd _ _ _ s3, hd _ _ _ s4, hd _ _ _ s2, hd _ _ _ s3,
        hd _ _ _ s4, hs]
      rfl
  refine ⟨key, ?_⟩
  rw [key]
  refine ⟨fun s hs => ?_, ?_, ?_, ?_⟩
  · simp only [List.mem_cons, List.not_mem_nil, or_false, not_or] at hs
    simp [mixedDefaults, Kwargs.setDefault, Kwargs.set, Kwargs.empty, hs]
  all_goals simp [mixedDefaults, Kwargs.setDefault, Kwargs.set, Kwargs.empty]

/-- The default objects of both functions contain nothing that a call would not overwrite. -/
structure WorldClean (w : World) : Prop where
  wdm : Clean ["cosmo", "log_mc"] w.wdm
  mixed : Clean ["cosmo", "log_mc"] { w.mixed with infall := Kwargs.empty }
  massSub : MixClean w.massSub
  massField : MixClean w.massField

theorem worldClean_fresh : WorldClean World.fresh :=
  ⟨clean_fresh _, clean_fresh _, ⟨SameBut.refl _, .inl rfl, .inl rfl, .inl rfl⟩,
    ⟨SameBut.refl _, .inl rfl, .inl rfl, .inl rfl⟩⟩

theorem worldClean_step (E : Env) {w : World} (hw : WorldClean w) (c : Cmd) : WorldClean (w.step E c).2 := by
  cases c with
  | wdm a g => exact ⟨clean_call (fun a d => c46_writes_wdm E a d) hw.wdm (a, g), hw.mixed, hw.massSub, hw.massField⟩
  | mixed m g s f =>
    have hmix : Clean ["cosmo", "log_mc"] { w.mixed with infall := w.wdm.infall } :=
      ⟨hw.mixed.concSub, hw.mixed.concField, hw.mixed.truncSub, hw.mixed.truncField, hw.wdm.infall⟩
    have hc := clean_call (f := Preset.wdm E) (fun a d => c46_writes_wdm E a d) hmix
      (mixedToWdm m (mixedDefaults (s.getD w.massSub) m.frac) (mixedDefaults (f.getD w.massField) m.frac),
        { g with infall := none })
    refine ⟨⟨hw.wdm.concSub, hw.wdm.concField, hw.wdm.truncSub, hw.wdm.truncField, hc.infall⟩,
      ⟨hc.concSub, hc.concField, hc.truncSub, hc.truncField, SameBut.refl _⟩, ?_, ?_⟩
    · cases s with
      | some k => exact hw.massSub
      | none => exact (mixClean_defaults hw.massSub m.frac).2
    · cases f with
      | some k => exact hw.massField
      | none => exact (mixClean_defaults hw.massField m.frac).2

theorem worldClean_run (E : Env) (cs : List Cmd) : WorldClean (World.run E cs) := by
  have : ∀ (l : List Cmd) (w : World), WorldClean w → WorldClean (l.foldl (fun w c => (w.step E c).2) w) := by
    intro l
    induction l with
    | nil => intro w hw; exact hw
    | cons c l ih => intro w hw; exact ih _ (worldClean_step E hw c)
  exact this cs _ worldClean_fresh

/-- The calls whose result does not depend on the past: all calls of the mixed model, and those of `WDM` that give their
own infall dictionary or choose an infall model by a name other than `DIRECT_INFALL`. -/
def SafeCall : Cmd → Prop
  | .wdm a g => g.infall.isSome = true ∨ Safe a.infall
  | .mixed .. => True

/-- Whatever calls of `WDM` and `WDM_mixed` came before, in any order, with default or given dictionaries, successful or
not: such a call gives the request it would have given as the first one. -/
theorem c46_mixed_partial (E : Env) (hist : List Cmd) (c : Cmd) (hc : SafeCall c) :
    ((World.run E hist).step E c).1 = (World.fresh.step E c).1 := by
  have hw := worldClean_run E hist
  cases c with
  | wdm a g =>
    obtain ⟨h1, h2, h3, h4, h5⟩ := pick_sameBut hw.wdm g
    refine wdm_congr E a h1 h2 h3 h4 ?_
    rcases hc with h | h
    · obtain ⟨kw, hk⟩ := Option.isSome_iff_exists.mp h
      simp [Given.pick, hk, World.fresh]
    · exact setup_congr E _ _ _ h h5
  | mixed m g s f =>
    have hmix : Clean ["cosmo", "log_mc"] { (World.run E hist).mixed with infall := (World.run E hist).wdm.infall } :=
      ⟨hw.mixed.concSub, hw.mixed.concField, hw.mixed.truncSub, hw.mixed.truncField, hw.wdm.infall⟩
    obtain ⟨h1, h2, h3, h4, h5⟩ := pick_sameBut hmix { g with infall := none }
    have e1 : mixedDefaults (s.getD (World.run E hist).massSub) m.frac = mixedDefaults (s.getD Kwargs.empty) m.frac := by
      cases s with
      | some k => rfl
      | none => exact (mixClean_defaults hw.massSub m.frac).1
    have e2 : mixedDefaults (f.getD (World.run E hist).massField) m.frac = mixedDefaults (f.getD Kwargs.empty) m.frac := by
      cases f with
      | some k => rfl
      | none => exact (mixClean_defaults hw.massField m.frac).1
    have hd : ∀ (w : World), (w.step E (.mixed m g s f)).1 = (Preset.wdm E (mixedToWdm m
        (mixedDefaults (s.getD w.massSub) m.frac) (mixedDefaults (f.getD w.massField) m.frac))
        (({ g with infall := none } : Given).pick { w.mixed with infall := w.wdm.infall })).1 := fun w => rfl
    rw [hd, hd, e1, e2]
    exact wdm_congr E _ h1 h2 h3 h4 (setup_congr E _ _ _ (by simp [Safe, mixedToWdm]) h5)

/-- What the mixed model asks for: the coefficients of Keeley et al. unless the dictionary has its own, and the fraction
of the call whatever the dictionary has, for both mass functions. -/
theorem c46_mixed_values (kw : Kwargs) (frac : ℝ) :
    mixedDefaults kw frac "mixed_DM_frac" = some (.num frac) ∧
    mixedDefaults kw frac "a_wdm" = some ((kw "a_wdm").getD (.num 0.5)) ∧
    mixedDefaults kw frac "b_wdm" = some ((kw "b_wdm").getD (.num 0.8)) ∧
    mixedDefaults kw frac "c_wdm" = some ((kw "c_wdm").getD (.num (-3.0))) := by
  have h : ∀ (k : Kwargs) (t : String) (v : Val), k.setDefault t v t = some ((k t).getD v) := by
    intro k t v
    unfold Kwargs.setDefault
    cases h : k t <;> simp [Kwargs.set, h]
  have hd : ∀ (k : Kwargs) (s t : String) (v : Val), s ≠ t → k.setDefault t v s = k s := by
    intro k s t v ht
    unfold Kwargs.setDefault
    split
    · simp [Kwargs.set, ht]
    · rfl
  refine ⟨by simp [mixedDefaults, Kwargs.set], ?_, ?_, ?_⟩
  · rw [mixedDefaults, Kwargs.set, if_neg (by simp), hd _ _ _ _ (by simp), hd _ _ _ _ (by simp), h]
  · rw [mixedDefaults, Kwargs.set, if_neg (by simp), hd _ _ _ _ (by simp), h, hd _ _ _ _ (by simp)]
  · rw [mixedDefaults, Kwargs.set, if_neg (by simp), h, hd _ _ _ _ (by simp), hd _ _ _ _ (by simp)]

/-- The mixed model takes the amplitude `sigma_sub` only; the hypothesis of `c46_mixed_partial` holds for every one of its
calls. -/
example (E : Env) (hist : List Cmd) :
    ((World.run E hist).step E (.mixed { zLens := 0.5, zSource := 1.5, logMc := 7, frac := 0.3 } {} none none)).1 =
    (World.fresh.step E (.mixed { zLens := 0.5, zSource := 1.5, logMc := 7, frac := 0.3 } {} none none)).1 :=
  c46_mixed_partial E hist _ trivial

/-! ## The suppression of Stücker et al. (C82) -/

/-- The sign matters: a positive slope, which the error message of the mass function model asks for ("Must specify
|dlogT_dlogk|"), gives a negative exponent of the transfer function, outside the domain of the fit. -/
theorem c82_sign (s : ℝ) : (0 < betaFromSlope s 5 ↔ s < 0) ∧ (betaFromSlope s 5 < 0 ↔ 0 < s) := by
  have hf : (0 : ℝ) < -1 + (0.5 : ℝ) ^ (-1 / 5 : ℝ) := by
    have : (1 : ℝ) < (0.5 : ℝ) ^ (-1 / 5 : ℝ) :=
      Real.one_lt_rpow_of_pos_of_lt_one_of_neg (by norm_num) (by norm_num) (by norm_num)
    linarith
  have e : betaFromSlope s 5 = -s * ((1 + (-1 + (0.5 : ℝ) ^ (-1 / 5 : ℝ))) / (-1 + (0.5 : ℝ) ^ (-1 / 5 : ℝ)) / 5) := by
    unfold betaFromSlope; dsimp only; ring
  have hk : 0 < (1 + (-1 + (0.5 : ℝ) ^ (-1 / 5 : ℝ))) / (-1 + (0.5 : ℝ) ^ (-1 / 5 : ℝ)) / 5 := by positivity
  rw [e]
  constructor
  · rw [mul_pos_iff_of_pos_right hk]; constructor <;> intro h <;> linarith
  · rw [mul_neg_iff]
    constructor
    · rintro (⟨-, h⟩ | ⟨h, -⟩) <;> linarith
    · intro h; right; exact ⟨by linarith, hk⟩

/-- The mass at which the suppression reaches a given fraction is what its name says: with the coefficients as they are
handed to the mass function (`a_wdm` is the power `a ^ b`), the mass function is suppressed by the factor `frac` at
`suppMscale` half-mode masses. -/
theorem c82_mass_scale (logMc a b c frac M : ℝ) (ha : 0 < a) (hb : 0 < b) (hc : c < 0) (hf : 0 < frac) (hf1 : frac < 1)
    (hM : suppMscale a b c frac = some M) : 0 < M ∧ turnoverWDM logMc (a ^ b) b c (M * 10 ^ logMc) = frac := by
  unfold suppMscale at hM
  rw [if_neg (by rintro (h | h | h) <;> linarith)] at hM
  obtain rfl := Option.some.inj hM
  have hx : 1 < frac ^ (1 / c) := by
    apply Real.one_lt_rpow_of_pos_of_lt_one_of_neg hf hf1
    exact one_div_neg.mpr hc
  have hx0 : 0 < frac ^ (1 / c) - 1 := by linarith
  have hr : 0 < (frac ^ (1 / c) - 1) ^ (1 / b) := Real.rpow_pos_of_pos hx0 _
  have hp : (0 : ℝ) < 10 ^ logMc := Real.rpow_pos_of_pos (by norm_num) _
  refine ⟨div_pos ha hr, ?_⟩
  unfold turnoverWDM
  have e1 : (10 : ℝ) ^ logMc / (a / (frac ^ (1 / c) - 1) ^ (1 / b) * 10 ^ logMc) =
      (frac ^ (1 / c) - 1) ^ (1 / b) / a := by
    field_simp
  rw [e1, Real.div_rpow hr.le ha.le, ← Real.rpow_mul hx0.le, one_div_mul_cancel hb.ne', Real.rpow_one,
    mul_div_cancel₀ _ (Real.rpow_pos_of_pos ha b).ne']
  rw [add_sub_cancel, ← Real.rpow_mul hf.le, one_div_mul_cancel hc.ne, Real.rpow_one]

/-- The suppression increases strictly with mass, so there is no other mass with that fraction. -/
theorem c82_unique (logMc a b c m m' : ℝ) (ha : 0 < a) (hb : 0 < b) (hc : c < 0) (hm : 0 < m) (h : m < m') :
    turnoverWDM logMc a b c m < turnoverWDM logMc a b c m' := by
  unfold turnoverWDM
  have hp : (0 : ℝ) < 10 ^ logMc := Real.rpow_pos_of_pos (by norm_num) _
  have h1 : (10 : ℝ) ^ logMc / m' < 10 ^ logMc / m := by
    apply div_lt_div_of_pos_left hp hm h
  have h0 : 0 < (10 : ℝ) ^ logMc / m' := div_pos hp (hm.trans h)
  have h2 := Real.rpow_lt_rpow h0.le h1 hb
  apply Real.rpow_lt_rpow_of_neg
  · have := Real.rpow_pos_of_pos h0 b
    positivity
  · nlinarith
  · exact hc

example := c82_unique 8 2.3 0.8 (-1) (10 ^ 7) (10 ^ 8) (by norm_num) (by norm_num) (by norm_num) (by norm_num) (by norm_num)

/-- The mass function of the name `STUCKER_SHMF` is suppressed by every fraction exactly at the mass scale that the solver
compared with the fit, in half-mode masses: so it reaches 20, 50 and 80 per cent where the fit says if the solver succeeds.
The solver itself is not modelled; `(a, b, c)` is what it returns. -/
theorem c82_fit (E : Env) (s logMc : ℝ) (kw : Kwargs) (hs : kw "dlogT_dlogk" = some (.num s))
    (h1 : kw "a_wdm" = none) (h2 : kw "b_wdm" = none) (h3 : kw "c_wdm" = none) (a b c : ℝ) (ha : 0 < a) (hb : 0 < b)
    (hc : c < 0) (habc : E.mscalesToAbc (0.2651 * betaFromSlope s 5 ^ (0.3656 : ℝ))
      (1.638 * betaFromSlope s 5 ^ (-0.0994 : ℝ)) (16.51 * betaFromSlope s 5 ^ (-0.9466 : ℝ)) = (a, b, c)) :
    ∃ kw' x y z, massFunctionModel E "STUCKER_SHMF" kw = .ok (.named "WDMPowerLaw", kw') ∧ kw' "a_wdm" = some (.num x) ∧
      kw' "b_wdm" = some (.num y) ∧ kw' "c_wdm" = some (.num z) ∧ kw' "dlogT_dlogk" = none ∧
      ∀ frac, 0 < frac → frac < 1 → ∀ M, suppMscale a b c frac = some M →
        turnoverWDM logMc x y z (M * 10 ^ logMc) = frac := by
  have hp : stuckerParams E s = (a ^ b, b, c) := by
    unfold stuckerParams
    dsimp only
    rw [habc]
  obtain ⟨out, o1, o2, o3, o4, o5⟩ :=
    (c48_mass_stucker E kw "STUCKER_SHMF" "WDMPowerLaw" (by simp [massStucker])).2 s hs h1 h2 h3
  rw [hp] at o3 o4 o5
  exact ⟨out, a ^ b, b, c, o1, o3, o4, o5, o2,
    fun frac f0 f1 M hM => (c82_mass_scale logMc a b c frac M ha hb hc f0 f1 hM).2⟩

example (E : Env) (h : ∀ x y z, E.mscalesToAbc x y z = (y, 2, -1)) (logMc : ℝ) :
    ∃ kw' x y z, massFunctionModel E "STUCKER_SHMF" (Kwargs.empty.set "dlogT_dlogk" (.num (-2))) =
        .ok (.named "WDMPowerLaw", kw') ∧ kw' "a_wdm" = some (.num x) ∧
      kw' "b_wdm" = some (.num y) ∧ kw' "c_wdm" = some (.num z) ∧ kw' "dlogT_dlogk" = none ∧
      ∀ frac, 0 < frac → frac < 1 → ∀ M, suppMscale (1.638 * betaFromSlope (-2) 5 ^ (-0.0994 : ℝ)) 2 (-1) frac = some M →
        turnoverWDM logMc x y z (M * 10 ^ logMc) = frac :=
  c82_fit E (-2) logMc _ (by simp [Kwargs.set]) (by simp [Kwargs.set, Kwargs.empty]) (by simp [Kwargs.set, Kwargs.empty])
    (by simp [Kwargs.set, Kwargs.empty]) _ 2 (-1)
    (mul_pos (by norm_num) (Real.rpow_pos_of_pos ((c82_sign (-2)).1.mpr (by norm_num)) _)) (by norm_num) (by norm_num)
    (h _ _ _)

/-- The names `STUCKER` and `FROM_FORMATION_HISTORY`/`LUDLOW_WDM` want opposite signs of the same slope: where the fit for
the mass function applies, the concentration model `LUDLOW_WDM` is the one that accepts it; it refuses positive ones. -/
theorem c82_ludlow_sign (kw : Kwargs) (s : ℝ) (hs : kw "dlogT_dlogk" = some (.num s)) (h : betaFromSlope s 5 < 0) :
    ∃ e, construct (.named "ConcentrationLudlowWDM") kw = .error e := by
  have := (c82_sign s).2.mp h
  cases hr : construct (.named "ConcentrationLudlowWDM") kw with
  | error e => exact ⟨e, rfl⟩
  | ok o =>
    unfold construct at hr
    dsimp only at hr
    split at hr
    · cases hr
    · split at hr
      · cases hr
      · split at hr
        · cases hr
        · rename_i hn
          exact (hn ⟨rfl, s, hs, this⟩).elim

end PyHalo.Props
