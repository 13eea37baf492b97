import Verif.Props.WholeBHExamples

/-!
# C96: how many black holes stand for unresolved halos, and where they are
-/

namespace PyHalo.Props
open PyHalo PyHalo.Spec PyHalo.Whole PyHalo.Preset PyHalo.Run

namespace Spec96

/-- The mass function of unresolved halos with a black hole in a slice of thickness `dz` at `z`, per solar mass: the occupation
fraction and the line-of-sight normalization times the volume of the slice times the straight-line fit (slope, intercept) to the
logarithm of the Sheth-Tormen function around `10 ^ 8` solar masses, made between the two resolution limits. -/
noncomputable def dNdmUnresolved (W : Run.World) (a : BHCallArgs) (g : Geometry) (z dz m : ℝ) : ℝ :=
  let fit := massFit W 0 z (10 ^ 8) a.logSubres a.logMlow
  (10 : ℝ) ^ a.logOccupation * a.losNormalization * volumeElement W 0 g z dz * (10 : ℝ) ^ fit.2 * (m / 10 ^ 8) ^ fit.1

/-- The expected number of unresolved halos with a black hole up to the mass `m`. -/
noncomputable def unresolvedUpTo (W : Run.World) (a : BHCallArgs) (g : Geometry) (z dz m : ℝ) : ℝ :=
  ∫ x in (10 : ℝ) ^ a.logSubres..m, dNdmUnresolved W a g z dz x

end Spec96

theorem subresLoop_parts {a : Pop.BHArgs} {factor kpc : ℝ → ℝ} {model : Pop.SubresModel}
    {spatial : ℕ → ℕ → ℝ → List ℝ × List ℝ} {tag : ℕ → ℕ → Tag} : ∀ {q : List (ℝ × ℝ)} {k : ℕ} {l : List Halo},
    Pop.subresLoop a factor kpc model spatial tag k q = .ok l →
    ∃ parts : List (List ℝ × List Halo), parts.length = q.length ∧ l = (parts.map (·.2)).flatten ∧
      ∀ (j : ℕ) (z dz : ℝ) (ms : List ℝ) (part : List Halo), q[j]? = some (z, dz) → parts[j]? = some (ms, part) →
        (model z dz a.logSubres a.logMlow (a.f * a.losNorm)).draw (k + j) = .ok ms ∧
        part = Pop.subresPlane a factor kpc z ms (spatial (k + j) ms.length z) (tag (k + j))
  | [], k, l, h => by cases h; exact ⟨[], rfl, rfl, by simp⟩
  | (z, dz) :: t, k, l, h => by
    unfold Pop.subresLoop at h
    obtain ⟨ms, h1, h⟩ := bind_ok h
    obtain ⟨ls, h2, h⟩ := bind_ok h
    cases h
    obtain ⟨parts, p1, p2, p3⟩ := subresLoop_parts h2
    refine ⟨(ms, Pop.subresPlane a factor kpc z ms (spatial k ms.length z) (tag k)) :: parts, by simp [p1], by simp [p2], ?_⟩
    rintro (_ | j) z' dz' ms' part' hq hp
    · simp only [List.getElem?_cons_zero, Option.some.injEq, Prod.mk.injEq] at hq hp
      obtain ⟨rfl, rfl⟩ := hq
      obtain ⟨rfl, rfl⟩ := hp
      exact ⟨h1, rfl⟩
    · simp only [List.getElem?_cons_succ] at hq hp
      have := p3 j z' dz' ms' part' hq hp
      rw [show k + 1 + j = k + (j + 1) by ring] at this
      exact this

/-- The black holes of one plane: their masses, and that they lie in the cone. -/
theorem subresPlane_spec {a : Pop.BHArgs} {factor : ℝ → ℝ} {W : Run.World} {S : Setup} {k : ℕ} {z : ℝ} {ms : List ℝ}
    {tag : ℕ → Tag} (hv : ∀ i k j, 0 ≤ W.radius i k j ∧ W.radius i k j ≤ 1) (hk : W.kpc S.kc z ≠ 0) :
    (Pop.subresPlane a factor (W.kpc S.kc) z ms (subresSpatial W S k ms.length z) tag).map (·.mass) =
      (ms.filter fun m => decide (m > (10 : ℝ) ^ a.logMin)).map (· * (10 : ℝ) ^ a.logRatio) ∧
    ∀ b ∈ Pop.subresPlane a factor (W.kpc S.kc) z ms (subresSpatial W S k ms.length z) tag, b.z = z ∧
      b.x ^ 2 + b.y ^ 2 ≤ (0.5 * S.geometry.openingAngle * S.geometry.renderingScale z) ^ 2 := by
  have hlen : (subresSpatial W S k ms.length z).1.length = ms.length ∧ (subresSpatial W S k ms.length z).2.length = ms.length := by
    unfold subresSpatial lensConeDraw uniformDraw
    by_cases hn : ms.length = 0
    · simp [hn]
    · simp [hn]
  constructor
  · have key : ∀ (ms : List ℝ) (ps : List (ℝ × ℝ)) (n : ℕ), ps.length = ms.length →
        (((ms.zip ps).zipIdx n).filter fun q => decide (q.1.1 > (10 : ℝ) ^ a.logMin)).map
          (fun q => q.1.1 * (10 : ℝ) ^ a.logRatio) =
        (ms.filter fun m => decide (m > (10 : ℝ) ^ a.logMin)).map (· * (10 : ℝ) ^ a.logRatio) := by
      intro ms
      induction ms with
      | nil => intro ps n _; simp
      | cons m t ih =>
        intro ps n hps
        cases ps with
        | nil => simp at hps
        | cons p t' =>
          have := ih t' (n + 1) (by simpa using hps)
          simp only [List.zip_cons_cons, List.zipIdx_cons]
          by_cases hm : m > (10 : ℝ) ^ a.logMin
          · rw [List.filter_cons_of_pos (by simpa using hm), List.filter_cons_of_pos (by simpa using hm), List.map_cons,
              List.map_cons, this]
          · rw [List.filter_cons_of_neg (by simpa using hm), List.filter_cons_of_neg (by simpa using hm), this]
    unfold Pop.subresPlane
    rw [List.map_map]
    exact key ms _ 0 (by rw [List.length_zip, hlen.1, hlen.2, min_self])
  · intro b hb
    unfold Pop.subresPlane at hb
    obtain ⟨q, hq, rfl⟩ := List.mem_map.1 hb
    refine ⟨rfl, ?_⟩
    have hq := (List.mem_filter.1 hq).1
    have hq := List.mem_of_getElem? (List.mem_zipIdx_iff_getElem?.1 hq)
    have hq : q.1.2 ∈ (subresSpatial W S k ms.length z).1.zip (subresSpatial W S k ms.length z).2 :=
      (List.of_mem_zip (a := q.1.1) (b := q.1.2) hq).2
    show (q.1.2.1 / W.kpc S.kc z) ^ 2 + (q.1.2.2 / W.kpc S.kc z) ^ 2 ≤ _
    unfold subresSpatial lensConeDraw at hq
    split_ifs at hq with hn
    · simp at hq
    · obtain ⟨-, -, h3⟩ := c21_uniform_in_disc (0.5 * S.geometry.openingAngle) (W.kpc S.kc z) (S.geometry.renderingScale z) 0 0
        ms.length (W.angle 3 k) (W.radius 3 k) (hv 3 k)
      have := h3 _ hq
      simp only [zero_mul, sub_zero] at this
      have hkk : 0 < W.kpc S.kc z ^ 2 := by positivity
      rw [div_pow, div_pow, ← add_div, div_le_iff₀ hkk]
      calc _ ≤ _ := this
        _ = _ := by ring

/-- **C96**, the number of black holes of unresolved halos, and their places. Between each redshift at which the call of `CDM` has
halos and the next (the source after the last), halos are drawn from the mass function of unresolved halos: as many as the Poisson
variate says, with masses that are the quantiles for the uniform variates. Those heavier than the minimum mass of a *black hole*
become black holes, with the requested share of the mass, within the cone of light at that redshift. -/
theorem c96_unresolved_number (W : Run.World) (hV : Variates W) (K : Kit) (hK : Spec96.Random K) (E : Preset.Env) (a : BHCallArgs)
    (d : Dicts) (hlt : a.logSubres < a.logMlow) (hgc : a.globularClusters = none)
    (s' : Ext.Store) (R' : Realization) (hk : ∀ k ∈ R'.halos, W.kpc 0 (s'.obj k).z ≠ 0) (h : cdmPlusBH W K E a d = .ok (s', R')) :
    ∃ (s : Ext.Store) (R : Realization) (g : Geometry) (gaps : List ℝ) (l : List Halo) (parts : List (List ℝ × List Halo)),
      cdmCall W K E a.cdm d = .ok (s, R) ∧ geometryOf W a.zLens a.zSource a.cone a.geometryType 0 = .ok g ∧
      planeGaps a.zSource R.uniqueRedshifts = .ok gaps ∧
      Added s.heap s'.heap s.next (l ++ (parts.map (·.2)).flatten) R R' ∧ (∀ b ∈ l, ∃ i : ℕ, b.tag = (K.seed i).tag) ∧
      parts.length = (R.uniqueRedshifts.zip gaps).length ∧
      ∀ (k : ℕ) (z dz : ℝ) (ms : List ℝ) (part : List Halo), (R.uniqueRedshifts.zip gaps)[k]? = some (z, dz) →
        parts[k]? = some (ms, part) →
        ms.length = W.pois 3 k ∧
        (∀ (i : ℕ) (m : ℝ), ms[i]? = some m → m ∈ Set.Icc ((10 : ℝ) ^ a.logSubres) (10 ^ a.logMlow) ∧
          Spec96.unresolvedUpTo W a g z dz m = W.mass 3 k i * Spec96.unresolvedUpTo W a g z dz (10 ^ a.logMlow)) ∧
        part.map (·.mass) = (ms.filter fun m => decide (m > (10 : ℝ) ^ a.logMin)).map (· * (10 : ℝ) ^ a.logRatio) ∧
        ∀ b ∈ part, b.z = z ∧ b.x ^ 2 + b.y ^ 2 ≤ (0.5 * a.cone * g.renderingScale z) ^ 2 := by
  unfold cdmPlusBH at h
  obtain ⟨⟨s, R⟩, h1, h⟩ := bind_ok h
  obtain ⟨g, hg, h⟩ := bind_ok h
  obtain ⟨⟨σ, mbh⟩, h2, h⟩ := bind_ok h
  rw [hgc] at h
  obtain ⟨rfl, rfl⟩ := Prod.mk.injEq .. ▸ (Except.ok.inj h)
  obtain ⟨rows, hrows, hI, hz, hzs, -⟩ := c94_cdm W K E a.cdm d s R rfl h1
  obtain ⟨L, hσ, hrefs, htags⟩ := addBlackHoles_objects h2
  have h2' := h2
  unfold Pop.addBlackHoles at h2'
  obtain ⟨l, hl, h2'⟩ := bind_ok h2'
  obtain ⟨gaps, hgaps, h2'⟩ := bind_ok h2'
  obtain ⟨l', hl', h2'⟩ := bind_ok h2'
  obtain ⟨e1, e2⟩ := Prod.mk.injEq .. ▸ (Except.ok.inj h2')
  have hL : L = l ++ l' := by
    have := congrArg (List.map σ) (hrefs.symm.trans (by rw [← e2]; rfl : mbh.halos = Pop.refs s.next (l ++ l')))
    rw [hσ, Pop.map_place, ← hσ, ← e1, Pop.map_place] at this
    exact this
  subst hL
  have htag : ∀ h ∈ R.halos, ∃ j : ℕ, (s.obj h).tag = K.tags j := by
    intro k hk
    obtain ⟨i, hi⟩ := List.mem_iff_getElem?.1 hk
    have hil : i < rows.length := by rw [← hI.length]; exact (List.getElem?_eq_some_iff.1 hi).1
    exact ⟨i, (hI.each i _ k (List.getElem?_eq_getElem hil) hi).2.2.2.2.2.2.1⟩
  subst hσ
  obtain ⟨j1, -, -⟩ := joined_added (Q := mbh) hI.live hrefs (fun h hh b hb => by
    obtain ⟨j, hj⟩ := htag h hh
    rw [hj]
    rcases htags b hb with ⟨i, hi⟩ | ⟨k, i, hi⟩
    · rw [hi]; exact hK.seeds j i
    · rw [hi]; exact hK.unresolved j k i)
  obtain ⟨parts, p1, p2, p3⟩ := subresLoop_parts hl'
  refine ⟨s, R, g, gaps, l, parts, h1, hg, ?_, by rw [← p2]; exact j1, fun b hb => ?_, p1, ?_⟩
  · rw [hzs] at hgaps
    exact hgaps
  · obtain ⟨p, hp, l₁, e, hb⟩ := seedHalos_mem _ _ _ _ _ _ hl b hb
    obtain ⟨⟨o, i⟩, -, rfl⟩ := List.mem_map.1 hp
    refine ⟨i, ?_⟩
    unfold Pop.seedHalo at e
    split_ifs at e
    · cases e; simp at hb
    · obtain ⟨rad, -, e⟩ := bind_ok e
      dsimp only at e
      split_ifs at e <;> cases e
      · rw [List.mem_singleton.1 hb]; rfl
      · simp at hb
  · intro k z dz ms part hq hp
    obtain ⟨q1, q2⟩ := p3 k z dz ms part hq hp
    rw [zero_add] at q1 q2
    have hkz : W.kpc 0 z ≠ 0 := by
      have hzm := (List.of_mem_zip (List.mem_of_getElem? hq)).1
      obtain ⟨k', hk', rfl⟩ := (hI.fresh.zsMem z).1 hzm
      have := hk k' (j1.halos.mem_iff.2 (List.mem_append_left _ hk'))
      have he := congrArg Halo.z (j1.old k' (hI.live k' hk'))
      change Halo.z (Ext.Store.heap _ k') = _ at he
      rw [← he]
      exact this
    obtain ⟨f1, f2⟩ := field_draw hV (a := { a.cdm with logMlow := a.logSubres, logMhigh := a.logMlow }) (kw := subresKw _)
      (S := ⟨a.zLens, a.zSource, 0, g⟩) rfl hlt (n := a.seeds.f * a.seeds.losNorm) rfl rfl rfl rfl q1
    have hup : ∀ m, Spec97.fieldUpTo W
        { a.cdm with logMlow := a.logSubres, logMhigh := a.logMlow, losNormalization := a.seeds.f * a.seeds.losNorm } g z dz m =
          Spec96.unresolvedUpTo W a g z dz m := by
      intro m
      unfold Spec97.fieldUpTo Spec96.unresolvedUpTo Spec97.dNdmField Spec96.dNdmUnresolved
      simp only [BHCallArgs.cdm, add_zero, BHCallArgs.seeds]
    obtain ⟨g1, g2⟩ := subresPlane_spec (a := a.seeds) (factor := K.pointMass 0) (W := W) (S := ⟨a.zLens, a.zSource, 0, g⟩) (k := k)
      (z := z) (ms := ms) (tag := K.bhTag k) (fun i k j => ⟨(hV.radius i k j).1, (hV.radius i k j).2.le⟩) hkz
    refine ⟨f1, fun i m hm => ?_, by rw [q2]; exact g1, fun b hb => ?_⟩
    · have := f2 i m hm
      rw [← hup, ← hup]
      exact this
    · rw [q2] at hb
      have hga : g.openingAngle = a.cone := by
        unfold geometryOf at hg
        obtain ⟨v, -, hg⟩ := bind_ok hg
        cases hg
        rfl
      have := g2 b hb
      rw [show (⟨a.zLens, a.zSource, 0, g⟩ : Setup).geometry.openingAngle = a.cone from hga] at this
      exact this

/-- **C96**, the halos of a call of `CDM_plus_BH`: the number of subhalos and of field halos on each plane is that which its own
arguments ask for. -/
theorem c96_halo_numbers (W : Run.World) (hV : Variates W) (K : Kit) (hK : Spec96.Random K) (E : Preset.Env) (a : BHCallArgs)
    (d : Dicts) (hsub : a.logSubres < a.logMlow) (hlt : a.logMlow < a.logMhigh) (hgc : a.globularClusters = none)
    (s' : Ext.Store) (R' : Realization) (h : cdmPlusBH W K E a d = .ok (s', R')) :
    ∃ (rows : List HaloArgs) (s : Ext.Store) (R : Realization) (l : List Halo) (g : Geometry) (P G : List ℝ)
      (parts : List (List HaloArgs)) (two : List HaloArgs),
      Spec94.Injected rows K.tags none "GNFW" s R ∧ Added s.heap s'.heap s.next l R R' ∧
      (rows.filter fun t => t.isSubhalo).length = W.pois 0 0 ∧
      (∀ (i : ℕ) (t : HaloArgs), (rows.filter fun t => t.isSubhalo)[i]? = some t →
        (∫ m in (10 : ℝ) ^ a.logMlow..t.mass, Spec47.norm (Spec47.chosen none a.log10SigmaSub a.sigmaSub) a.shmfLogSlope
          (10 ^ a.logMHost) a.zLens (W.kpc 0 a.zLens) a.cone 0.55 0.37 * m ^ a.shmfLogSlope) =
        W.mass 0 0 i * ∫ m in (10 : ℝ) ^ a.logMlow..10 ^ a.logMhigh, Spec47.norm (Spec47.chosen none a.log10SigmaSub a.sigmaSub)
          a.shmfLogSlope (10 ^ a.logMHost) a.zLens (W.kpc 0 a.zLens) a.cone 0.55 0.37 * m ^ a.shmfLogSlope) ∧
      lensPlanes (some a.zLens) a.zSource none = .ok (P, G) ∧
      geometryOf W a.zLens a.zSource a.cone a.geometryType 0 = .ok g ∧ parts.length = (P.zip G).length ∧
      (rows.filter fun t => !t.isSubhalo) = parts.flatten ++ two ∧
      ∀ (k : ℕ) (z dz : ℝ) (part : List HaloArgs), (P.zip G)[k]? = some (z, dz) → parts[k]? = some part →
        part.length = W.pois 1 k ∧
        ∀ (i : ℕ) (t : HaloArgs), part[i]? = some t →
          (∫ m in (10 : ℝ) ^ a.logMlow..t.mass, a.losNormalization * volumeElement W 0 g z dz *
            (10 : ℝ) ^ (massFit W 0 z (10 ^ 8) a.logMlow a.logMhigh).2 *
            (m / 10 ^ 8) ^ (massFit W 0 z (10 ^ 8) a.logMlow a.logMhigh).1) =
          W.mass 1 k i * ∫ m in (10 : ℝ) ^ a.logMlow..10 ^ a.logMhigh, a.losNormalization * volumeElement W 0 g z dz *
            (10 : ℝ) ^ (massFit W 0 z (10 ^ 8) a.logMlow a.logMhigh).2 *
            (m / 10 ^ 8) ^ (massFit W 0 z (10 ^ 8) a.logMlow a.logMhigh).1 := by
  obtain ⟨s, R, rows, l, l', h1, hrows, -, hI, hA, -⟩ := c96_black_holes W hV K hK E a d hsub hgc s' R' h
  obtain ⟨n1, n2⟩ := c97_subhalos W hV E a.cdm d rows hlt hrows
  obtain ⟨g, P, G, parts, two, f1, f2, f3, f4, f5, -⟩ := c97_field W hV E a.cdm d rows hlt hrows
  refine ⟨rows, s, R, l ++ l', g, P, G, parts, two, hI, hA, n1, fun i t hi => (n2 i t hi).2, f2, f1, f3, f4,
    fun k z dz part hk hp => ?_⟩
  obtain ⟨-, q2, q3⟩ := f5 k z dz part hk hp
  refine ⟨q2, fun i t hi => ?_⟩
  have := (q3 i t hi).2
  unfold Spec97.fieldUpTo Spec97.dNdmField at this
  simp only [BHCallArgs.cdm, add_zero] at this
  exact this

/-- **C96** for `demoBH`: two black holes of unresolved halos are drawn for every redshift with halos. -/
example (E : Preset.Env) : ∃ s R g gaps l, ∃ parts : List (List ℝ × List Halo), ∃ s' R', cdmPlusBH demoWorld demoKit E demoBH freshDicts = .ok (s', R') ∧
    cdmCall demoWorld demoKit E demoBH.cdm freshDicts = .ok (s, R) ∧
    geometryOf demoWorld 0.5 1.5 demoBH.cone demoBH.geometryType 0 = .ok g ∧ planeGaps 1.5 R.uniqueRedshifts = .ok gaps ∧
    Added s.heap s'.heap s.next (l ++ (parts.map (·.2)).flatten) R R' ∧
    ∀ (k : ℕ) (z dz : ℝ) (ms : List ℝ) (part : List Halo), (R.uniqueRedshifts.zip gaps)[k]? = some (z, dz) →
      parts[k]? = some (ms, part) → ms.length = 2 := by
  obtain ⟨s, R, rows, h, hrows, hne, hz⟩ := demo_bh_cdm E
  obtain ⟨⟨s', R'⟩, hp⟩ := c96_works demoWorld demoKit E demoBH freshDicts s R rows h hrows hne (fun row hr => (hz row hr).1)
    (demo_ok _) (by norm_num [demoBH]) (fun _ _ => ⟨1, rfl⟩) rfl
  obtain ⟨s₁, R₁, g, gaps, l, parts, h1, h2, h3, h4, -, -, h6⟩ := c96_unresolved_number demoWorld demo_variates demoKit
    demo_bh_random E demoBH freshDicts (by norm_num [demoBH]) rfl s' R' (fun k _ => by norm_num [demoWorld]) hp
  exact ⟨s₁, R₁, g, gaps, l, parts, s', R', hp, h1, h2, h3, h4, fun k z dz ms part hq hq' => (h6 k z dz ms part hq hq').1⟩

end PyHalo.Props
