import Verif.Props.RunWorks

/-!
# How many halos a call of `CDM` renders, and of which masses (C97)
-/

namespace PyHalo.Props
open PyHalo.Run Preset Spec

/-! ## The populations one after the other -/

theorem other_flags {W : Run.World} {S : Setup} {lazar : Bool} {scale : ℝ} {planes gaps : List ℝ} {i : ℕ} {name : String}
    {mc : Cls} {mkw : Kwargs} {sc : Cls} {skw : Kwargs} {q : PopOut}
    (h : population W S lazar scale planes gaps i name mc mkw sc skw = .ok q) (hn : name ≠ "SUBHALOS") :
    ∀ t ∈ rows q, t.2.2.2.2.2 = false := by
  rcases population_ok h with ⟨h', -⟩ | ⟨-, s, c, hs, hc, h'⟩ | ⟨-, s, dz, kw, lo, hi, hs, -, -, -, h'⟩
  · exact absurd h' hn
  · obtain ⟨lo, hi, -, -, rfl⟩ := losClassOf_ok hc
    intro t ht
    obtain ⟨-, -, -, -, -, -, -, -, -, -, -, h, -⟩ := los_rows (flatSpatial_draws hs) h' t ht
    exact h
  · intro t ht
    exact ((twoHalo_rows (flatSpatial_draws hs) h').2 t ht).2.2.2.1

/-- The subhalos of a rendering are those of its first population, the field halos those of the others. -/
theorem render_split {W : Run.World} {S : Setup} {scale : ℝ} {r : Request} {out : List HaloArgs} {rest : List String}
    (h : render W S scale r = .ok out) (hp : r.populations = "SUBHALOS" :: rest) (hrest : ∀ n ∈ rest, n ≠ "SUBHALOS") :
    ∃ (planes gaps : List ℝ) (q : PopOut) (qs : List PopOut), lensPlanes (some S.zLens) S.zSource r.planeSpacing = .ok (planes, gaps) ∧
      populationAt W S scale r planes gaps ("SUBHALOS", 0) = .ok q ∧
      (rest.zipIdx 1).map (populationAt W S scale r planes gaps) = qs.map .ok ∧
      (out.filter fun t => t.isSubhalo).map rowOf = rows q ∧
      (out.filter fun t => !t.isSubhalo).map rowOf = qs.flatMap rows := by
  obtain ⟨planes, gaps, qs, h1, h2, hal, h3, -⟩ := render_ok h
  rw [hp, List.zipIdx_cons, List.map_cons] at h2
  cases qs with
  | nil => simp at h2
  | cons q qs =>
    rw [List.map_cons, List.cons.injEq] at h2
    obtain ⟨hq, hqs⟩ := h2
    refine ⟨planes, gaps, q, qs, h1, hq, hqs, ?_⟩
    have ht : ∀ t ∈ rows q, t.2.2.2.2.2 = true := by
      obtain ⟨mc, mkw, sc, skw, -, -, -, -, e⟩ := populationAt_ok hq
      rcases population_ok e with ⟨-, s, lo, hi, hs, -, -, h'⟩ | ⟨h', -⟩ | ⟨h', -⟩
      · intro t ht
        exact ((sub_rows (subSpatial_draws hs) h').2 t ht).2.2.1
      · simp at h'
      · simp at h'
    have hf : ∀ t ∈ qs.flatMap rows, t.2.2.2.2.2 = false := by
      intro t ht
      obtain ⟨q', hq', ht⟩ := List.mem_flatMap.1 ht
      have hm : (Except.ok q' : Except Err PopOut) ∈ (rest.zipIdx 1).map (populationAt W S scale r planes gaps) := by
        rw [hqs]; exact List.mem_map_of_mem hq'
      obtain ⟨p, hpm, he⟩ := List.mem_map.1 hm
      obtain ⟨mc, mkw, sc, skw, -, -, -, -, e⟩ := populationAt_ok he
      have hname : p.1 ∈ rest := by
        obtain ⟨_, _, e⟩ := List.mem_zipIdx (x := p.1) (i := p.2) hpm
        rw [e]; exact List.getElem_mem _
      exact other_flags e (hrest _ hname) t ht
    have e1 : (out.filter fun t => t.isSubhalo).map rowOf = (out.map rowOf).filter fun t => t.2.2.2.2.2 := by
      rw [List.filter_map]; rfl
    have e2 : (out.filter fun t => !t.isSubhalo).map rowOf = (out.map rowOf).filter fun t => !t.2.2.2.2.2 := by
      rw [List.filter_map]; rfl
    rw [e1, e2, h3, List.flatMap_cons, List.filter_append, List.filter_append]
    rw [List.filter_eq_self.2 ht, List.filter_eq_nil_iff.2 (fun t h => by simp [hf t h]),
      List.filter_eq_nil_iff.2 (fun t h => by simp [ht t h]), List.filter_eq_self.2 (fun t h => by simp [hf t h])]
    simp

theorem drawn_poisson {W : Run.World} {i k : ℕ} {p : PowerLaw} {l : List ℝ} (hp : p.drawPoisson = true)
    (h : drawFrom W i k p none = .ok l) : l.length = W.pois i k := by
  obtain ⟨h1, -⟩ := draw_length p _ _ l h
  unfold PowerLaw.ndraw at h1
  rw [hp] at h1
  simp only [if_true] at h1
  split at h1
  · cases h1
  · exact (Except.ok.inj h1).symm

/-! ## Subhalos -/

namespace Spec97

/-- The subhalo mass function that a call of `CDM` asks for, per solar mass: a power law with the requested slope whose
amplitude is the chosen one (C47), in the cone at the lens. -/
noncomputable def dNdm (W : Run.World) (a : CdmArgs) (m : ℝ) : ℝ :=
  Spec47.norm (Spec47.chosen a.log10dNdA a.log10SigmaSub a.sigmaSub) a.shmfLogSlope (10 ^ a.logMHost) a.zLens
    (W.kpc a.kwargsCosmo a.zLens) a.cone a.hostScaling a.redshiftScaling * m ^ a.shmfLogSlope

/-- The expected number of subhalos up to the mass `m`. -/
noncomputable def upTo (W : Run.World) (a : CdmArgs) (m : ℝ) : ℝ := ∫ x in (10 : ℝ) ^ a.logMlow..m, dNdm W a x

end Spec97

/-- The subhalo mass function of a call as the code holds it. -/
noncomputable def cdmSubLaw (W : Run.World) (a : CdmArgs) : PowerLaw :=
  ⟨a.logMlow, a.logMhigh, a.shmfLogSlope, a.drawPoisson, Spec47.norm
      (Spec47.chosen a.log10dNdA a.log10SigmaSub a.sigmaSub) a.shmfLogSlope (10 ^ a.logMHost) a.zLens
      (W.kpc a.kwargsCosmo a.zLens) a.cone a.hostScaling a.redshiftScaling⟩

/-- The masses of the subhalos of a call are drawn from this mass function. -/
theorem subhalo_masses {W : Run.World} {E : Preset.Env} {a : CdmArgs} {d : Dicts} {out : List HaloArgs}
    (h : runCdm W E a d = .ok out) :
    (cdmSubLaw W a).draw (W.pois 0 0) (W.mass 0 0) = .ok ((out.filter fun t => t.isSubhalo).map fun t => t.mass) := by
  unfold runCdm at h
  obtain ⟨r, hr, h⟩ := bind_ok h
  obtain ⟨g, hg, h⟩ := bind_ok h
  obtain ⟨-, -, inf, cs, cf, cHost, -, -, has⟩ := cdm_ok hr
  obtain ⟨ts, tf, sp, spKw, -, hsp, hp, hf, hk, hss, hsk, -⟩ := cdmAssemble_ok has
  obtain ⟨P, G, q, qs, -, hq, -, hsub, -⟩ := render_split h hp (by cases a.twoHalo <;> simp)
  obtain ⟨mc, mkw, sc, skw, e1, e2, e3, e4, e5⟩ := populationAt_ok hq
  simp only at e1 e2 e3 e4 e5
  rw [hk] at e2
  rw [hf] at e1
  simp only [List.cons_append, List.getElem?_cons_zero, Option.some.injEq] at e1 e2
  subst e1 e2
  obtain ⟨kwS, rest, hks, hamp⟩ := c47_rendered E a d r hr (W.kpc a.kwargsCosmo a.zLens)
  rw [hk] at hks
  simp only [List.cons_append, List.cons.injEq] at hks
  rw [← hks.1] at hamp
  have hgc : g.openingAngle = a.cone := by
    unfold geometryOf at hg
    obtain ⟨v, -, hg⟩ := bind_ok hg
    cases hg
    rfl
  have g1 : cdmSubKwargs a "log_mlow" = some (.num a.logMlow) := by
    rw [cdmSub_get a _ (by decide) (by decide)]; simp [ofList_cons]
  have g2 : cdmSubKwargs a "log_mhigh" = some (.num a.logMhigh) := by
    rw [cdmSub_get a _ (by decide) (by decide)]; simp [ofList_cons]
  have g3 : cdmSubKwargs a "draw_poisson" = some (.bool a.drawPoisson) := by
    rw [cdmSub_get a _ (by decide) (by decide)]; simp [ofList_cons]
  rcases population_ok e5 with ⟨-, s, lo, hi, hs, hlo, hhi, h'⟩ | ⟨h', -⟩ | ⟨h', -⟩
  rotate_left
  · simp at h'
  · simp at h'
  have hlo' : lo = fun _ => a.logMlow := by
    unfold limit at hlo; rw [g1] at hlo; cases hlo; rfl
  have hhi' : hi = fun _ => a.logMhigh := by
    unfold limit at hhi; rw [g2] at hhi; cases hhi; rfl
  subst hlo' hhi'
  have hal := (c16_subhalos _ _ _ _ (subSpatial_draws hs) _ h').1
  obtain ⟨hd, -⟩ := sub_rows (subSpatial_draws hs) h'
  obtain ⟨p, t, hm, hdr⟩ := massFnOf_draw hd
  obtain ⟨hpl, htn⟩ := subModel_ok hm
  have ht : t = none := by simp [turnoverOf] at htn; exact htn.symm
  subst ht
  have hpe : p = ⟨a.logMlow, a.logMhigh, a.shmfLogSlope, a.drawPoisson, Spec47.norm
      (Spec47.chosen a.log10dNdA a.log10SigmaSub a.sigmaSub) a.shmfLogSlope (10 ^ a.logMHost) a.zLens
      (W.kpc a.kwargsCosmo a.zLens) a.cone a.hostScaling a.redshiftScaling⟩ := by
    simp only [hgc] at hpl
    simp only [subPowerLaw, hamp, g3, bind, Except.bind, pure, Except.pure] at hpl
    cases hpl
    rfl
  have hfst : (out.filter fun t => t.isSubhalo).map (fun t => t.mass) = q.masses := by
    have e := congrArg (List.map (·.1)) hsub
    rw [List.map_map] at e
    rw [show (out.filter fun t => t.isSubhalo).map (fun t => t.mass) =
      (out.filter fun t => t.isSubhalo).map ((fun x : Row => x.1) ∘ rowOf) from rfl, e]
    unfold rows
    rw [List.map_fst_zip]
    obtain ⟨a1, a2, a3, a4, a5⟩ := hal
    simp [a1, a2, a3, a4, a5]
  rw [hfst, show cdmSubLaw W a = p from hpe.symm]
  exact hdr

/-- **C97**, subhalos. In every call of `CDM` the number of subhalos is the Poisson variate (or, without Poisson noise, the
nearest integer to the expected number), and their masses are the quantiles of the requested mass function that belong to the
uniform variates: the `i`-th has the fraction `u i` of the expected number below it. -/
theorem c97_subhalos (W : Run.World) (hV : Variates W) (E : Preset.Env) (a : CdmArgs) (d : Dicts) (out : List HaloArgs)
    (hlt : a.logMlow < a.logMhigh) (h : runCdm W E a d = .ok out) :
    (out.filter fun t => t.isSubhalo).length =
      (if a.drawPoisson then W.pois 0 0 else (Np.rint (Spec97.upTo W a (10 ^ a.logMhigh))).toNat) ∧
    ∀ (i : ℕ) (t : HaloArgs), (out.filter fun t => t.isSubhalo)[i]? = some t →
      t.mass ∈ Set.Icc ((10 : ℝ) ^ a.logMlow) (10 ^ a.logMhigh) ∧
      Spec97.upTo W a t.mass = W.mass 0 0 i * Spec97.upTo W a (10 ^ a.logMhigh) := by
  have hdr := subhalo_masses h
  set p := cdmSubLaw W a with hp
  obtain ⟨hn, hl⟩ := draw_length p _ _ _ hdr
  have hmean : p.nMean = Spec97.upTo W a (10 ^ a.logMhigh) := by
    rw [(c52_moments p hlt).1]
    rfl
  rw [List.length_map] at hn hl
  refine ⟨?_, fun i t hi => ?_⟩
  · unfold PowerLaw.ndraw at hn
    rw [hmean, show p.drawPoisson = a.drawPoisson from rfl] at hn
    cases hb : a.drawPoisson <;> rw [hb] at hn <;> simp only [if_true, Bool.false_eq_true, if_false] at hn ⊢
    · split at hn
      · cases hn
      · exact (Except.ok.inj hn).symm
    · split at hn
      · cases hn
      · exact (Except.ok.inj hn).symm
  · have hi' : i < (out.filter fun t => t.isSubhalo).length := (List.getElem?_eq_some_iff.1 hi).1
    have hinv : t.mass = p.invert (W.mass 0 0 i) := by
      have : ((out.filter fun t => t.isSubhalo).map fun t => t.mass)[i]? = some (p.invert (W.mass 0 0 i)) := by
        rw [hl]; simp [hi']
      rw [List.getElem?_map, hi] at this
      exact Option.some.inj this
    have := c53_quantile p hlt (W.mass 0 0 i) (hV.mass 0 0 i).1 (hV.mass 0 0 i).2.le
    rw [hmean, ← hinv] at this
    rw [← this]
    refine ⟨?_, rfl⟩
    rw [hinv]
    exact invert_range p hlt.le (W.mass 0 0 i) (hV.mass 0 0 i).1 (hV.mass 0 0 i).2.le

/-! ## Field halos -/

namespace Spec97

/-- The mass function of field halos that a call of `CDM` asks for in a slice of thickness `dz` at `z`, per solar mass: the
volume of the slice times the straight-line fit (slope, intercept) to the logarithm of the Sheth-Tormen function around
`10 ^ 8` solar masses, rescaled and tilted as asked. -/
noncomputable def dNdmField (W : Run.World) (a : CdmArgs) (g : Geometry) (z dz m : ℝ) : ℝ :=
  let fit := massFit W a.kwargsCosmo z (10 ^ 8) a.logMlow a.logMhigh
  a.losNormalization * volumeElement W a.kwargsCosmo g z dz * (10 : ℝ) ^ fit.2 *
    (m / 10 ^ 8) ^ (fit.1 + a.deltaPowerLawIndex)

/-- The expected number of field halos of the slice up to the mass `m`. -/
noncomputable def fieldUpTo (W : Run.World) (a : CdmArgs) (g : Geometry) (z dz m : ℝ) : ℝ :=
  ∫ x in (10 : ℝ) ^ a.logMlow..m, dNdmField W a g z dz x

/-- The number of objects drawn when `mean` are expected and the Poisson variate is `pois`. -/
noncomputable def number (poisson : Bool) (pois : ℕ) (mean : ℝ) : ℕ := if poisson then pois else (Np.rint mean).toNat

end Spec97

theorem ndraw_number {p : PowerLaw} {k n : ℕ} (h : p.ndraw k = .ok n) : n = Spec97.number p.drawPoisson k p.nMean := by
  unfold PowerLaw.ndraw at h
  unfold Spec97.number
  cases hb : p.drawPoisson <;> rw [hb] at h <;> simp only [if_true, Bool.false_eq_true, if_false] at h ⊢
  · split at h
    · cases h
    · exact (Except.ok.inj h).symm
  · split at h
    · cases h
    · exact (Except.ok.inj h).symm

/-- A list whose images are put together of parts is itself put together of parts. -/
theorem map_parts {α β : Type} {f : α → β} : ∀ {parts : List (List β)} {l : List α}, l.map f = parts.flatten →
    ∃ ps : List (List α), l = ps.flatten ∧ ps.map (List.map f) = parts
  | [], l, h => ⟨[], by simpa using h, rfl⟩
  | p :: t, l, h => by
    rw [List.flatten_cons, List.map_eq_append_iff] at h
    obtain ⟨l1, l2, rfl, h1, h2⟩ := h
    obtain ⟨ps, h3, h4⟩ := map_parts h2
    exact ⟨l1 :: ps, by rw [List.flatten_cons, h3], by rw [List.map_cons, h1, h4]⟩

/-- The draw of field halos of a slice. -/
theorem field_draw {W : Run.World} (hV : Variates W) {a : CdmArgs} {S : Setup} (hS : S.kc = a.kwargsCosmo) {kw : Kwargs}
    {z dz n : ℝ} {i k : ℕ} {l : List ℝ} (hlt : a.logMlow < a.logMhigh)
    (hkn : kw.num "LOS_normalization" = .ok n) (hkd : kw.num "delta_power_law_index" = .ok a.deltaPowerLawIndex)
    (hkp : kw.num "m_pivot" = .ok (10 ^ 8)) (hkb : kw "draw_poisson" = some (.bool a.drawPoisson))
    (h : (massFnOf W i (losModel W S (.named "ShethTormen") kw z dz a.logMlow a.logMhigh)).draw k = .ok l) :
    l.length = Spec97.number a.drawPoisson (W.pois i k)
      (Spec97.fieldUpTo W {a with losNormalization := n} S.geometry z dz (10 ^ a.logMhigh)) ∧
    ∀ (j : ℕ) (m : ℝ), l[j]? = some m → m ∈ Set.Icc ((10 : ℝ) ^ a.logMlow) (10 ^ a.logMhigh) ∧
      Spec97.fieldUpTo W {a with losNormalization := n} S.geometry z dz m =
        W.mass i k j * Spec97.fieldUpTo W {a with losNormalization := n} S.geometry z dz (10 ^ a.logMhigh) := by
  obtain ⟨p, t, hm, hd⟩ := massFnOf_draw h
  obtain ⟨pivot, hpv, hl, ht⟩ := losModel_ok hm
  have ht : t = none := by simp [turnoverOf] at ht; exact ht.symm
  subst ht
  rw [hkp] at hpv
  cases hpv
  set fit := massFit W a.kwargsCosmo z (10 ^ 8) a.logMlow a.logMhigh with hfit
  have hpe : p = ⟨a.logMlow, a.logMhigh, fit.1 + a.deltaPowerLawIndex, a.drawPoisson,
      n * ((10 : ℝ) ^ fit.2 / (10 ^ 8) ^ (fit.1 + a.deltaPowerLawIndex)) * volumeElement W a.kwargsCosmo S.geometry z dz⟩ := by
    simp only [losPowerLaw, hkn, hkd, hkp, hkb, hS, bind, Except.bind, pure, Except.pure, losAmplitude] at hl
    cases hl
    rfl
  have hL := pow10_pos a.logMlow
  have hev : ∀ x : ℝ, 0 < x → p.evaluate x = Spec97.dNdmField W {a with losNormalization := n} S.geometry z dz x := by
    intro x hx
    rw [hpe]
    simp only [PowerLaw.evaluate, Spec97.dNdmField, ← hfit]
    rw [Real.div_rpow hx.le (by positivity)]
    ring
  have hint : ∀ x : ℝ, 0 < x → (∫ m in (10 : ℝ) ^ a.logMlow..x, p.evaluate m) =
      Spec97.fieldUpTo W {a with losNormalization := n} S.geometry z dz x := by
    intro x hx
    refine intervalIntegral.integral_congr fun m hm => hev m ?_
    exact lt_of_lt_of_le (lt_min hL hx) hm.1
  have hmean : p.nMean = Spec97.fieldUpTo W {a with losNormalization := n} S.geometry z dz (10 ^ a.logMhigh) := by
    rw [(c52_moments p (by rw [hpe]; exact hlt)).1, ← hint _ (pow10_pos _), hpe]
  obtain ⟨hn, hls⟩ := draw_length p _ _ _ hd
  refine ⟨?_, fun j m hj => ?_⟩
  · rw [ndraw_number hn, hmean, hpe]
  · have hj' : j < l.length := (List.getElem?_eq_some_iff.1 hj).1
    have hinv : m = p.invert (W.mass i k j) := by
      rw [hls] at hj
      simp [hj'] at hj
      exact hj.symm
    have hq := c53_quantile p (by rw [hpe]; exact hlt) (W.mass i k j) (hV.mass i k j).1 (hV.mass i k j).2.le
    have hpos : 0 < m := by
      have := (invert_range p (by rw [hpe]; exact hlt.le) (W.mass i k j) (hV.mass i k j).1 (hV.mass i k j).2.le).1
      rw [hinv]
      exact lt_of_lt_of_le (by rw [hpe]; exact hL) this
    rw [hmean, ← hinv] at hq
    rw [← hq, ← hint m hpos]
    refine ⟨?_, by rw [hpe]⟩
    have := invert_range p (by rw [hpe]; exact hlt.le) (W.mass i k j) (hV.mass i k j).1 (hV.mass i k j).2.le
    rw [← hinv, hpe] at this
    exact this

theorem map_fst_planeRows (z : ℝ) (m : List ℝ) (p : List ℝ × List ℝ) (h1 : p.1.length = m.length) (h2 : p.2.length = m.length) :
    (planeRows z m p).map (·.1) = m := by
  unfold planeRows
  rw [List.map_fst_zip]
  simp [h1, h2]

/-- The objects of the line of sight, plane by plane. -/
theorem los_parts {c : LosClass} {o : PopOut} (hs : DrawsN c.spatial) (h : c.render = .ok o) :
    ∃ parts : List (List Row), rows o = parts.flatten ∧ parts.length = (c.planes.zip c.deltaZ).length ∧
      ∀ (k : ℕ) (q : ℝ × ℝ) (part : List Row), (c.planes.zip c.deltaZ)[k]? = some q → parts[k]? = some part →
        (c.massFn q.1 q.2).draw k = .ok (part.map (·.1)) ∧ ∀ t ∈ part, t.2.2.2.2.1 = q.1 := by
  obtain ⟨-, parts, h1, h2, h3⟩ := c16_line_of_sight c hs o h
  refine ⟨((c.planes.zip c.deltaZ).zip parts).map fun e => planeRows e.1.1 e.2.1 e.2.2, ?_, by simp [h1], ?_⟩
  · rw [h3, List.flatMap_def]
  · intro k q part hq hp
    rw [List.getElem?_map] at hp
    obtain ⟨e, he, rfl⟩ := Option.map_eq_some_iff.1 hp
    obtain ⟨e1, e2⟩ := List.getElem?_zip_eq_some.1 he
    rw [hq] at e1
    obtain ⟨d1, d2⟩ := h2 k q e.2 hq e2
    have hqe : e.1 = q := (Option.some.inj e1).symm
    obtain ⟨l1, l2⟩ := renderPositions_ok _ _ _ _ _ hs d2
    rw [map_fst_planeRows _ _ _ l1 l2, hqe]
    refine ⟨d1, fun t ht => ?_⟩
    unfold planeRows at ht
    obtain ⟨i, hi, hti⟩ := List.getElem_of_mem ht
    simp only [List.getElem_zip, List.getElem_map] at hti
    rw [← hti]

/-- **C97**, field halos. In every call of `CDM` the halos that are not subhalos come in parts: one for each lens plane,
and one for the two-halo term if asked for. On each plane their number is the Poisson variate of that plane (without Poisson
noise the nearest integer to the expected number) and their masses are the quantiles, for the uniform variates, of the
mass function of that plane. The two-halo term is at the lens, and its mass function is that of the slice around the lens,
times a factor. -/
theorem c97_field (W : Run.World) (hV : Variates W) (E : Preset.Env) (a : CdmArgs) (d : Dicts) (out : List HaloArgs)
    (hlt : a.logMlow < a.logMhigh) (h : runCdm W E a d = .ok out) :
    ∃ (g : Geometry) (P G : List ℝ) (parts : List (List HaloArgs)) (two : List HaloArgs),
      geometryOf W a.zLens a.zSource a.cone a.geometryType a.kwargsCosmo = .ok g ∧
      lensPlanes (some a.zLens) a.zSource a.planeSpacing = .ok (P, G) ∧ parts.length = (P.zip G).length ∧
      (out.filter fun t => !t.isSubhalo) = parts.flatten ++ two ∧
      (∀ (k : ℕ) (z dz : ℝ) (part : List HaloArgs), (P.zip G)[k]? = some (z, dz) → parts[k]? = some part →
        (∀ t ∈ part, t.z = z) ∧
        part.length = Spec97.number a.drawPoisson (W.pois 1 k) (Spec97.fieldUpTo W a g z dz (10 ^ a.logMhigh)) ∧
        ∀ (i : ℕ) (t : HaloArgs), part[i]? = some t → t.mass ∈ Set.Icc ((10 : ℝ) ^ a.logMlow) (10 ^ a.logMhigh) ∧
          Spec97.fieldUpTo W a g z dz t.mass = W.mass 1 k i * Spec97.fieldUpTo W a g z dz (10 ^ a.logMhigh)) ∧
      (a.twoHalo = false → two = []) ∧
      (a.twoHalo = true → ∃ (j : ℕ) (p dz boost : ℝ), P[j]? = some p ∧ G[j]? = some dz ∧
        (∀ q ∈ P, |p - a.zLens| ≤ |q - a.zLens|) ∧
        twoHaloBoost W a.kwargsCosmo a.zLens dz (10 ^ a.logMHost) (W.hostR200 a.kwargsCosmo (10 ^ a.logMHost) a.zLens)
          a.lazar 1 = .ok boost ∧
        (∀ t ∈ two, t.z = a.zLens) ∧
        two.length = Spec97.number a.drawPoisson (W.pois 2 0)
          (boost * Spec97.fieldUpTo W a g a.zLens dz (10 ^ a.logMhigh)) ∧
        ∀ (i : ℕ) (t : HaloArgs), two[i]? = some t → t.mass ∈ Set.Icc ((10 : ℝ) ^ a.logMlow) (10 ^ a.logMhigh) ∧
          boost * Spec97.fieldUpTo W a g a.zLens dz t.mass =
            W.mass 2 0 i * (boost * Spec97.fieldUpTo W a g a.zLens dz (10 ^ a.logMhigh))) := by
  unfold runCdm at h
  obtain ⟨r, hr, h⟩ := bind_ok h
  obtain ⟨g, hg, h⟩ := bind_ok h
  obtain ⟨-, -, inf, cs, cf, cHost, -, -, has⟩ := cdm_ok hr
  obtain ⟨hpl, hlz⟩ := cdmAssemble_rest has
  obtain ⟨ts, tf, sp, spKw, -, hsp, hp, hf, hk, hss, hsk, -⟩ := cdmAssemble_ok has
  obtain ⟨P, G, q, qs, hP, -, hqs, -, hfield⟩ := render_split (rest := "LINE_OF_SIGHT" :: if a.twoHalo then ["TWO_HALO"] else []) h hp
    (by cases a.twoHalo <;> simp)
  rw [hpl] at hP
  have g1 : cdmLosKwargs a "log_mlow" = some (.num a.logMlow) := by simp [cdmLosKwargs, ofList_cons]
  have g2 : cdmLosKwargs a "log_mhigh" = some (.num a.logMhigh) := by simp [cdmLosKwargs, ofList_cons]
  have g3 : cdmLosKwargs a "draw_poisson" = some (.bool a.drawPoisson) := by simp [cdmLosKwargs, ofList_cons]
  have g4 : cdmLosKwargs a "LOS_normalization" = some (.num a.losNormalization) := by simp [cdmLosKwargs, ofList_cons]
  have g5 : cdmLosKwargs a "delta_power_law_index" = some (.num a.deltaPowerLawIndex) := by simp [cdmLosKwargs, ofList_cons]
  have g6 : cdmLosKwargs a "m_pivot" = some (.num (10 ^ 8)) := by simp [cdmLosKwargs, ofList_cons]
  have g7 : cdmLosKwargs a "log_m_host" = some (.num a.logMHost) := by simp [cdmLosKwargs, ofList_cons]
  have g8 : cdmLosKwargs a "host_m200" = none := by simp [cdmLosKwargs, ofList_cons]; rfl
  cases qs with
  | nil => simp at hqs
  | cons q1 qs =>
  simp only [List.zipIdx_cons, List.map_cons, List.cons.injEq] at hqs
  obtain ⟨hq1, hqs⟩ := hqs
  rw [List.flatMap_cons, List.map_eq_append_iff] at hfield
  obtain ⟨los, two, hsplit, hlos, htwo⟩ := hfield
  obtain ⟨mc, mkw, sc, skw, e1, e2, e3, e4, e5⟩ := populationAt_ok hq1
  simp only at e1 e2 e3 e4 e5
  rw [hk] at e2
  rw [hf] at e1
  simp only [List.cons_append, List.getElem?_cons_zero, List.getElem?_cons_succ, Option.some.injEq] at e1 e2
  subst e1 e2
  rcases population_ok e5 with ⟨h', -⟩ | ⟨-, s, c, hs, hc, hren⟩ | ⟨h', -⟩
  · simp at h'
  rotate_left
  · simp at h'
  obtain ⟨lo, hi, hlo, hhi, rfl⟩ := losClassOf_ok hc
  have hlo' : lo = fun _ => a.logMlow := by
    unfold limit at hlo; rw [g1] at hlo; cases hlo; rfl
  have hhi' : hi = fun _ => a.logMhigh := by
    unfold limit at hhi; rw [g2] at hhi; cases hhi; rfl
  subst hlo' hhi'
  obtain ⟨rparts, hr1, hr2, hr3⟩ := los_parts (flatSpatial_draws hs) hren
  rw [hr1] at hlos
  obtain ⟨parts, rfl, hpm⟩ := map_parts hlos
  refine ⟨g, P, G, parts, two, hg, hP, ?_, hsplit, ?_, ?_, ?_⟩
  · rw [← List.length_map (f := List.map rowOf), hpm, hr2]
  · intro k z dz part hz hpart
    have hrp : rparts[k]? = some (part.map rowOf) := by rw [← hpm, List.getElem?_map, hpart]; rfl
    obtain ⟨d1, d2⟩ := hr3 k (z, dz) _ hz hrp
    obtain ⟨n1, n2⟩ := field_draw hV (S := ⟨a.zLens, a.zSource, a.kwargsCosmo, g⟩) rfl hlt (kw := cdmLosKwargs a)
      (n := a.losNormalization) (by simp [Kwargs.num, g4]) (by simp [Kwargs.num, g5]) (by simp [Kwargs.num, g6]) g3 d1
    refine ⟨fun t ht => d2 _ (List.mem_map_of_mem ht), by simpa using n1, fun i t hi => n2 i t.mass ?_⟩
    simp [List.getElem?_map, hi, rowOf]
  · intro h2
    rw [h2] at hqs
    simp at hqs
    subst hqs
    simpa using htwo
  · intro h2
    rw [h2] at hqs hk hf
    cases qs with
    | nil => simp at hqs
    | cons q2 qs =>
    simp only [if_true, List.zipIdx_cons, List.map_cons, List.cons.injEq, List.zipIdx_nil, List.map_nil] at hqs
    obtain ⟨hq2, hqs⟩ := hqs
    have : qs = [] := by simpa using hqs.symm
    subst this
    simp only [List.flatMap_cons, List.flatMap_nil, List.append_nil] at htwo
    obtain ⟨mc, mkw, sc, skw, e1, e2, e3, e4, e5⟩ := populationAt_ok hq2
    simp only at e1 e2 e3 e4 e5
    rw [hk] at e2
    rw [hf] at e1
    simp at e1 e2
    subst e1 e2
    rcases population_ok e5 with ⟨h', -⟩ | ⟨h', -⟩ | ⟨-, s, dz, kw, lo, hi, hs, hset, hlo, hhi, hren⟩
    · simp at h'
    · simp at h'
    unfold twoHaloSetup at hset
    obtain ⟨m200, t1, hset⟩ := bind_ok hset
    have hm : m200 = 10 ^ a.logMHost := by
      simp [twoHaloHost, g8, g7, Kwargs.num, bind, Except.bind, pure, Except.pure] at t1
      exact t1.symm
    subst hm
    obtain ⟨j, t2, hset⟩ := bind_ok hset
    obtain ⟨dz', t3, hset⟩ := bind_ok hset
    obtain ⟨boost, t4, hset⟩ := bind_ok hset
    obtain ⟨n, t5, hset⟩ := bind_ok hset
    have hn : n = a.losNormalization := by
      simp [Kwargs.num, g4] at t5; exact t5.symm
    subst hn
    cases hset
    have hne : P ≠ [] := by rintro rfl; cases t2
    obtain ⟨j', p, u1, u2, u3, -⟩ := nearestPlane_spec a.zLens P hne
    rw [u1] at t2
    cases t2
    have hlo' : lo = fun _ => a.logMlow := by
      unfold limit at hlo; simp [Kwargs.set, g1] at hlo; exact hlo.symm
    have hhi' : hi = fun _ => a.logMhigh := by
      unfold limit at hhi; simp [Kwargs.set, g2] at hhi; exact hhi.symm
    subst hlo' hhi'
    obtain ⟨d1, d2⟩ := twoHalo_rows (flatSpatial_draws hs) hren
    obtain ⟨n1, n2⟩ := field_draw hV (S := ⟨a.zLens, a.zSource, a.kwargsCosmo, g⟩) rfl hlt
      (n := a.losNormalization * boost) (by simp [Kwargs.num, Kwargs.set]) (by simp [Kwargs.num, Kwargs.set, g5])
      (by simp [Kwargs.num, Kwargs.set, g6]) (by simp [Kwargs.set, g3]) d1
    have hb : ∀ z dz m, Spec97.fieldUpTo W {a with losNormalization := a.losNormalization * boost} g z dz m =
        boost * Spec97.fieldUpTo W a g z dz m := by
      intro z dz m
      unfold Spec97.fieldUpTo
      rw [← intervalIntegral.integral_const_mul]
      congr 1
      funext x
      simp only [Spec97.dNdmField]
      ring
    simp only [hb] at n1 n2
    have hal := (c16_two_halo _ _ _ _ (flatSpatial_draws hs) _ hren).1
    have hmm : two.map (fun t => t.mass) = q2.masses := by
      have := congrArg (List.map (·.1)) htwo
      rw [List.map_map] at this
      rw [show two.map (fun t => t.mass) = two.map ((fun x : Row => x.1) ∘ rowOf) from rfl, this]
      unfold rows
      rw [List.map_fst_zip]
      obtain ⟨a1, a2, a3, a4, a5⟩ := hal
      simp [a1, a2, a3, a4, a5]
    refine ⟨_, p, dz, boost, u2, item_ok.1 t3, u3, ?_, ?_, ?_, ?_⟩
    · rw [hlz] at t4; exact t4
    · intro t ht
      have : rowOf t ∈ rows q2 := by rw [← htwo]; exact List.mem_map_of_mem ht
      exact (d2 _ this).2.2.1
    · rw [← List.length_map (f := fun t : HaloArgs => t.mass), hmm]; exact n1
    · intro i t hi
      refine n2 i t.mass ?_
      rw [← hmm, List.getElem?_map, hi]; rfl

end PyHalo.Props
