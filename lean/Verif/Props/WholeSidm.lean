import Verif.Props.WholeCdm

/-!
# C95: whole calls with self-interacting dark matter
-/

namespace PyHalo.Props
open PyHalo PyHalo.Spec PyHalo.Whole PyHalo.Preset PyHalo.Run PyHalo.Ext

/-! ## Conversion with cross sections -/

/-- **C34**. In a conversion with cross sections per bin every truncated NFW halo is converted with the collapse time that the
cross section of the first bin containing its mass gives; every other halo is kept as it is. -/
theorem c34_cross_section_first_bin (P : Phys) (a : SidmArgs) (bins : List (ℝ × ℝ)) (sigmas : List ℝ) (time : ℝ → ℝ → ℝ → ℝ)
    (ls : ℝ) (s : Store) (r : Realization) (vs : ℕ → ℝ) (hl : Live s r.halos) (hn : r.halos.Nodup)
    (hp : a.profile = "TNFWC") (he : a.evolving = true) (s' : Store) (r' : Realization)
    (h : fromCrossSection P a bins sigmas time ls s r vs = .ok (s', r')) (n : ℕ) (k : Oid)
    (hk : r.halos[n]? = some k) (hm : 0 < (s.obj k).mass) :
    ∃ k', r'.halos[n]? = some k' ∧ ((s.obj k).mdef ≠ "TNFW" → k' = k) ∧
      ∃ i sg rhos rs r200, FirstBin (s.obj k).mass bins i ∧ sigmas[i]? = some sg ∧ P.nfw (s.obj k) = .ok (rhos, rs, r200) ∧
        ((s.obj k).mdef = "TNFW" → ∃ age,
          effAge P (s.obj k) (if (s.obj k).isSubhalo then (10 : ℝ) ^ ls else 1) = .ok age ∧
          (s'.obj k').note = some (age, age / time rhos rs ((10 : ℝ) ^ sg)) ∧
          (0.15 ≤ age / time rhos rs ((10 : ℝ) ^ sg) ∧ vs n ≤ a.prob → (s'.obj k').cls = .evolving ∧ k' ≠ k) ∧
          (¬ (0.15 ≤ age / time rhos rs ((10 : ℝ) ^ sg) ∧ vs n ≤ a.prob) → k' = k)) := by
  obtain ⟨hs, h1, rfl⟩ := fromCrossSection_ok P a bins sigmas time ls s r vs s' r' h
  obtain ⟨_, _, _, tr⟩ := mapHalos_trace _
    (fun s h i s' h' e => (crossSectionStep_step _ _ _ _ _ _ _ _ _ _ _ e).1) _ s s' hs
    (jobs_live s r vs hl) h1
  have hkv : ∃ hkn : n < r.halos.length, r.halos[n] = k := List.getElem?_eq_some_iff.mp hk
  obtain ⟨hkn, hkv⟩ := hkv
  have hjob : (r.halos.zipIdx.map fun p => (p.1, vs p.2))[n]? = some (k, vs n) := by
    simp [hk]
  obtain ⟨k', s₁, s₂, e1, e2, ra, rb, lt⟩ := tr n _ hjob
  have hlk : k < s.next := hl k (List.mem_of_getElem? hk)
  have hfst : (r.halos.zipIdx.map fun p => (p.1, vs p.2)).map Prod.fst = r.halos := by
    rw [List.map_map]
    exact List.zipIdx_map_fst 0 r.halos
  have hbefore : ¬ ∃ p ∈ (r.halos.zipIdx.map fun p => (p.1, vs p.2)).take n, p.1 = k := by
    rintro ⟨p, hp, hpk⟩
    have : k ∈ r.halos.take n := by
      rw [← hfst, ← List.map_take, ← hpk]; exact List.mem_map_of_mem hp
    obtain ⟨j, hj, hjk⟩ := List.mem_iff_getElem.mp this
    simp only [List.getElem_take] at hjk
    simp only [List.length_take, lt_min_iff] at hj
    have := (List.Nodup.getElem_inj_iff hn).mp (hjk.trans hkv.symm)
    omega
  have hafter : ¬ ∃ p ∈ (r.halos.zipIdx.map fun p => (p.1, vs p.2)).drop (n + 1), p.1 = k := by
    rintro ⟨p, hp, hpk⟩
    have : k ∈ r.halos.drop (n + 1) := by
      rw [← hfst, ← List.map_drop, ← hpk]; exact List.mem_map_of_mem hp
    obtain ⟨j, hj, hjk⟩ := List.mem_iff_getElem.mp this
    simp only [List.getElem_drop] at hjk
    have := (List.Nodup.getElem_inj_iff hn).mp (hjk.trans hkv.symm)
    omega
  have hsame : s₁.obj k = s.obj k := ra.same k hlk hbefore
  refine ⟨k', e1, ?_⟩
  obtain ⟨i, sg, ⟨rhos, rs, r200⟩, f1, f2, f2', f3⟩ := crossSectionStep_ok P a bins sigmas time ls s₁ k (vs n) s₂ k' e2
  rw [hsame] at f1 f2' f3
  refine ⟨fun hnt => ?_, i, sg, rhos, rs, r200, (findBin_spec _ hm bins).1 i |>.mp f1, f2, f2', fun ht => ?_⟩
  · rcases f3 with f3 | f3
    · exact absurd f3.1 hnt
    · exact f3.2.2.2
  · rcases f3 with ⟨_, f3⟩ | f3
    · have hl₁ : k < s₁.next := lt_of_lt_of_le hlk ra.le
      obtain ⟨age, g1, g2, g3, g4⟩ := (c34_single P { a with
        tc := some (time rhos rs ((10 : ℝ) ^ sg))
        scaling := some ((10 : ℝ) ^ ls)
        cut := 0.15
        tOverTc := none } s₁ k (vs n) s₂ k' hl₁ hp he _ _ rfl rfl rfl f3).age
      rw [hsame] at g1
      have hk' : s'.obj k' = s₂.obj k' := by
        refine rb.same k' lt ?_
        by_cases hc : k' = k
        · rw [hc]; exact hafter
        · rintro ⟨p, hp, hpk⟩
          have hpl := jobs_live s r vs hl p (List.mem_of_mem_drop hp)
          obtain ⟨_, ⟨rfl, _⟩ | ⟨_, _, _, _, e⟩⟩ := toSidm_cases _ _ _ _ _ _ _ f3
          · exact hc rfl
          · rw [Prod.ext_iff] at e
            have : k' = s₁.next := by
              have := e.2
              rwa [allocWith_id] at this
            have h3 := ra.le
            rw [hpk, this] at hpl
            exact absurd hpl (not_lt.mpr h3)
      refine ⟨age, g1, by rw [hk']; exact g2, fun hc => ?_, g4⟩
      have := g3 hc
      rw [hk']
      exact ⟨this.2.1, this.1⟩
    · exact absurd ht f3.1

/-- **C34**, success of the conversion with cross sections. -/
theorem c34_cross_section_succeeds (P : Phys) (a : SidmArgs) (bins : List (ℝ × ℝ)) (sigmas : List ℝ) (time : ℝ → ℝ → ℝ → ℝ)
    (ls : ℝ) (s : Store) (r : Realization) (vs : ℕ → ℝ) (hl : Live s r.halos)
    (hA : ∀ a b, 0 ≤ a → a ≤ b → P.A.age b ≤ P.A.age a) (hp : a.profile = "TNFWC")
    (hlen : sigmas.length = bins.length)
    (good : ∀ h ∈ r.halos, 0 < (s.obj h).mass ∧ (∃ b ∈ bins, InBin (s.obj h).mass b) ∧
      (s.obj h).mdef = "TNFW" ∧ 0 ≤ (s.obj h).z ∧ (s.obj h).z ≤ 20 ∧
      ∀ note, 0 ≤ P.zEval { s.obj h with note := note } ∧
        (∃ x, P.rt { s.obj h with note := note } = .ok x) ∧ (∃ x, P.nfw { s.obj h with note := note } = .ok x) ∧
        ∃ x, P.conc { s.obj h with note := note } = .ok x) :
    ∃ s' r', fromCrossSection P a bins sigmas time ls s r vs = .ok (s', r') := by
  have key : ∃ q, mapHalos (crossSectionStep P a bins sigmas time ls) s
      (r.halos.zipIdx.map fun p => (p.1, vs p.2)) = .ok q := by
    refine mapHalos_succeeds _ (fun s h i s' h' e => (crossSectionStep_step _ _ _ _ _ _ _ _ _ _ _ e).1) _ s
      ?_ s (Reach.refl _ _)
    intro p hpm s' hr
    simp only [List.mem_map, Prod.exists] at hpm
    obtain ⟨h, i, hi, rfl⟩ := hpm
    have hh := List.fst_mem_of_mem_zipIdx hi
    obtain ⟨g1, g2, g3, g4, g5, g6⟩ := good h hh
    have hlt := hl h hh
    have hH := hr.halo hlt
    obtain ⟨g7, ⟨rt, g8⟩, ⟨⟨rhos, rs, r200⟩, g10⟩, c, g9⟩ := g6 (s'.obj h).note
    rw [← hr.core h hlt] at g7 g8 g9 g10
    obtain ⟨j, hj⟩ : ∃ j, findBin (s'.obj h).mass 0 bins = some j := by
      rw [hH]
      cases hf : findBin (s.obj h).mass 0 bins with
      | some j => exact ⟨j, rfl⟩
      | none =>
        obtain ⟨b, hb, hin⟩ := g2
        exact absurd hin ((findBin_spec _ g1 bins).2.mp hf b hb)
    obtain ⟨⟨b, hb, _⟩, _⟩ := ((findBin_spec _ (by rw [hH]; exact g1) bins).1 j).mp hj
    have hjl : j < sigmas.length := by
      rw [hlen]; exact (List.getElem?_eq_some_iff.mp hb).1
    have htc : idx sigmas j = .ok sigmas[j] := by simp [idx, hjl]
    dsimp only
    unfold crossSectionStep
    rw [hj]
    simp only [htc, g10, bind, Except.bind, pure, Except.pure]
    rw [if_pos (Or.inl (by rw [hH]; exact g3))]
    unfold toSidm
    simp only [bind, Except.bind, pure, Except.pure, throw, throwThe, MonadExceptOf.throw]
    rw [if_neg (by rw [hH]; simpa using g3), g8]
    dsimp only
    rw [g9]
    dsimp only
    rw [if_neg (by simp), if_pos hp]
    simp only [timescale]
    obtain ⟨age, hage⟩ := effAge_total P (s'.obj h) hA (by rw [hH]; exact g4) (by rw [hH]; exact g5)
      (fun _ => g7) (if (s'.obj h).isSubhalo then (10 : ℝ) ^ ls else 1)
    have hna : newAge P (s'.obj h) (if (s'.obj h).isSubhalo = true then some ((10 : ℝ) ^ ls) else some 1)
        = .ok age := by
      rw [← hage]
      unfold newAge effAge Batch.SidmHalo.age
      split_ifs <;> rfl
    simp only [hna]
    split_ifs <;> exact ⟨_, rfl⟩
  obtain ⟨q, hq⟩ := key
  unfold fromCrossSection
  simp only [bind, Except.bind, pure, Except.pure, hq]
  exact ⟨_, _, rfl⟩

/-! ## Whole calls -/

theorem sisInjection_live {P : Phys} {thr : ℝ} {model : String} {s s' : Store} {R R' : Realization} (hl : Live s R.halos)
    (h : sisInjection P thr model s R = .ok (s', R')) : Live s' R'.halos := by
  unfold sisInjection at h
  obtain ⟨⟨s₁, hs⟩, h1, h⟩ := bind_ok h
  cases h
  have hlive : ∀ p ∈ R.halos.map (fun h => (h, ())), p.1 < s.next := by
    intro p hp
    obtain ⟨a, ha, rfl⟩ := List.mem_map.mp hp
    exact hl a ha
  obtain ⟨-, -, hl', -⟩ := mapHalos_trace _
    (fun s h i s' h' e => (sisStep_ok P thr model s h i s' h' e).1) _ s s₁ hs hlive h1
  exact hl'

theorem applyPost_live {W : Run.World} {K : Kit} {kc : ℕ} {p q : Store × Realization} {o : Post} (hl : Live p.1 p.2.halos)
    (h : applyPost W K kc p o = .ok q) : Live q.1 q.2.halos := by
  cases o with
  | sis t m => exact sisInjection_live hl h
  | globularClusters n =>
    obtain ⟨σ, -, e⟩ := addClusters_ok h
    rw [e]
    exact lift_live _ _ _

/-- Whatever the extensions, the halos of the result exist. -/
theorem cdmCall_live {W : Run.World} {K : Kit} {E : Preset.Env} {a : CdmArgs} {d : Dicts} {s : Store} {R : Realization}
    (h : cdmCall W K E a d = .ok (s, R)) : Live s R.halos := by
  obtain ⟨r, g, ⟨s₀, R₀⟩, -, -, hp, h⟩ := cdmCall_ok h
  obtain ⟨rows, -, hR, -⟩ := c94_realization W K _ r s₀ R₀ hp
  have : ∀ (l : List Post) (p q : Store × Realization), Live p.1 p.2.halos → l.foldlM (applyPost W K a.kwargsCosmo) p = .ok q →
      Live q.1 q.2.halos := by
    intro l
    induction l with
    | nil =>
      intro p q hl h
      simp only [List.foldlM_nil] at h
      cases h
      exact hl
    | cons o t ih =>
      intro p q hl h
      rw [List.foldlM_cons] at h
      obtain ⟨p', h1, h2⟩ := bind_ok h
      exact ih p' q (applyPost_live hl h1) h2
  exact this _ _ _ hR.live h

/-- The halo is selected for core collapse: a truncated NFW halo that is drawn in the first fitting mass bin of its kind. -/
def Spec95.Chosen (a : CollapseArgs) (o : Obj) (u : ℝ) : Prop :=
  o.mdef = "TNFW" ∧ if o.isSubhalo then Drawn o u a.rangesSub a.probSub else Drawn o u a.rangesField a.probField

/-- **C95**, `SIDM_core_collapse`: the population is that of the `CDM` call with the same arguments, halo by halo; exactly the
chosen halos are replaced by objects of the requested profile, all other objects (galaxies and clusters among them) are those
of the `CDM` call. -/
theorem c95_core_collapse (W : Run.World) (K : Kit) (E : Preset.Env) (a : CollapseArgs) (d : Dicts) (us : ℕ → ℝ) (s' : Store)
    (R' : Realization) (h : sidmCoreCollapse W K E a d us = .ok (s', R')) :
    ∃ s R, cdmCall W K E a.cdm d = .ok (s, R) ∧ Converted s R s' R' ∧
      ∀ (n : ℕ) (k : Oid), R.halos[n]? = some k → ∃ k', R'.halos[n]? = some k' ∧
        (Spec95.Chosen a (s.obj k) (us n) → s.next ≤ k' ∧ (s'.obj k').mdef = profileMdef a.profile) ∧
        (¬ Spec95.Chosen a (s.obj k) (us n) → k' = k) := by
  unfold sidmCoreCollapse at h
  obtain ⟨⟨s, R⟩, h1, h⟩ := bind_ok h
  obtain ⟨idx, h2, h⟩ := bind_ok h
  obtain ⟨hc, hall⟩ := c36_core_collapsed K.phys idx a.profile a.kwargsProfile s R (cdmCall_live h1) s' R' h
  obtain ⟨-, hsel⟩ := c35_selected s R a.rangesSub a.rangesField a.probSub a.probField us idx h2
  refine ⟨s, R, h1, hc, fun n k hk => ?_⟩
  obtain ⟨k', hk', g1, g2⟩ := hall n k hk
  have hiff : n ∈ idx ↔ Spec95.Chosen a (s.obj k) (us n) := by
    rw [hsel n]
    constructor
    · rintro ⟨k₂, e, h⟩
      rw [hk] at e
      cases e
      exact h
    · exact fun h => ⟨k, hk, h⟩
  exact ⟨k', hk', fun hch => g2 (hiff.2 hch), fun hch => g1 fun hm => hch (hiff.1 hm)⟩

/-- **C95**, `SIDM_core_collapse` without clusters, from the rendered rows: every row keeps its numbers and its tag. A row that
became a galaxy stays one; a row outside all mass bins of its kind stays a truncated NFW halo; with probability one a row in a
bin gets the requested profile. -/
theorem c95_core_collapse_rows (W : Run.World) (hV : Variates W) (K : Kit) (E : Preset.Env) (a : CollapseArgs) (d : Dicts)
    (us : ℕ → ℝ) (hgc : a.globularClusters = none) (hk : ∀ z, Spec90.rendered a.zLens a.zSource none z → W.kpc a.kwargsCosmo z ≠ 0) (hlt : a.logMlow < a.logMhigh)
    (s' : Store) (R' : Realization) (h : sidmCoreCollapse W K E a d us = .ok (s', R')) :
    ∃ rows, runCdm W E a.cdm d = .ok rows ∧ R'.halos.length = rows.length ∧
      ∀ (n : ℕ) (row : HaloArgs) (k : Oid), rows[n]? = some row → R'.halos[n]? = some k →
        (s'.obj k).mass = row.mass ∧ (s'.obj k).x = row.x ∧ (s'.obj k).y = row.y ∧ (s'.obj k).z = row.z ∧
        (s'.obj k).isSubhalo = row.isSubhalo ∧ (s'.obj k).tag = K.tags n ∧
        ((∃ t, a.sisThreshold = some t ∧ t ≤ row.mass) →
          (s'.obj k).mdef = if a.galaxyModel = "GNFW" then "GNFW" else "SIS") ∧
        ((∀ t, a.sisThreshold = some t → row.mass < t) →
          (∀ b ∈ if row.isSubhalo then a.rangesSub else a.rangesField, ¬ InBin row.mass b) → (s'.obj k).mdef = "TNFW") ∧
        ((∀ t, a.sisThreshold = some t → row.mass < t) → us n ≤ 1 →
          (∀ p ∈ if row.isSubhalo then a.probSub else a.probField, ∀ o, 1 ≤ p o) →
          (∃ b ∈ if row.isSubhalo then a.rangesSub else a.rangesField, InBin row.mass b) →
          (s'.obj k).mdef = profileMdef a.profile) := by
  have hfull := h
  obtain ⟨s, R, h1, hc, hall⟩ := c95_core_collapse W K E a d us s' R' h
  obtain ⟨rows, hrows, hI, -⟩ := c94_cdm W K E a.cdm d s R hgc h1
  have hI : Spec94.Injected rows K.tags a.sisThreshold a.galaxyModel s R := hI
  obtain ⟨_, _, _, -, -, hdef⟩ := c90_cdm W hV E a.cdm d rows hk hlt (fun h => by simp [CollapseArgs.cdm, SidmCommon.cdm] at h) hrows
  refine ⟨rows, hrows, by rw [← hI.length]; exact hc.halos.length_eq.symm, fun n row k hrow hkk => ?_⟩
  have hn : n < R.halos.length := by rw [hI.length]; exact (List.getElem?_eq_some_iff.1 hrow).1
  have hko := List.getElem?_eq_getElem hn
  obtain ⟨k', hk', g1, g2⟩ := hall n _ hko
  have : k' = k := Option.some.inj (hk'.symm.trans hkk)
  subst this
  obtain ⟨c1, c2, c3, c4, c5, c6, c7, c8, c9⟩ := hI.each n row _ hrow hko
  have hsame : SameHalo (s.obj R.halos[n]).toHalo (s'.obj k').toHalo := by
    obtain ⟨hl2, rfl⟩ := List.getElem?_eq_some_iff.1 hkk
    exact (List.forall₂_iff_get.1 hc.halos).2 n hn hl2
  have hlive := hI.live _ (List.getElem_mem hn)
  have hkeep : ¬ Spec95.Chosen a (s.obj R.halos[n]) (us n) → (s'.obj k').mdef = (s.obj R.halos[n]).mdef := by
    intro hch
    rw [g2 hch, hc.old _ hlive]
  have hmd : (∀ t, a.sisThreshold = some t → row.mass < t) → (s.obj R.halos[n]).mdef = "TNFW" := by
    intro ht
    rw [(c8 ht).kind]
    have := (hdef row (List.mem_of_getElem? hrow)).1
    rw [this]
    simp [CollapseArgs.cdm, SidmCommon.cdm]
  refine ⟨by rw [hsame.mass, c1], by rw [hsame.x, c2], by rw [hsame.y, c3], by rw [hsame.z, c5], by rw [hsame.sub, c6],
    by rw [hsame.tag, c7], fun ht => ?_, fun ht hb => ?_, fun ht hu hp hb => ?_⟩
  · rw [hkeep, c9 ht]
    intro hch
    have := hch.1
    rw [c9 ht] at this
    split_ifs at this <;> simp at this
  · rw [hkeep, hmd ht]
    rintro ⟨-, hch⟩
    rw [c6] at hch
    split_ifs at hch hb
    · obtain ⟨j, p, ⟨⟨b, hb1, hb2⟩, -⟩, -⟩ := hch
      rw [c1] at hb2
      exact hb b (List.mem_of_getElem? hb1) hb2
    · obtain ⟨j, p, ⟨⟨b, hb1, hb2⟩, -⟩, -⟩ := hch
      rw [c1] at hb2
      exact hb b (List.mem_of_getElem? hb1) hb2
  · refine (g1 ⟨hmd ht, ?_⟩).2
    have hlen : a.rangesSub.length = a.probSub.length ∧ a.rangesField.length = a.probField.length := by
      unfold sidmCoreCollapse at hfull
      obtain ⟨⟨s, R⟩, -, hfull⟩ := bind_ok hfull
      obtain ⟨idx, h2, -⟩ := bind_ok hfull
      unfold coreCollapseByMass at h2
      split_ifs at h2 with q1 q2
      push Not at q1 q2
      exact ⟨q1, q2⟩
    have key : ∀ (bins : List (ℝ × ℝ)) (ps : List (Obj → ℝ)), bins.length = ps.length → (∀ p ∈ ps, ∀ o, 1 ≤ p o) →
        (∃ b ∈ bins, InBin row.mass b) → Drawn (s.obj R.halos[n]) (us n) bins ps := by
      intro bins ps hl hp hb
      rw [← c1] at hb
      have hex : ∃ j : ℕ, ∃ b, bins[j]? = some b ∧ InBin (s.obj R.halos[n]).mass b := by
        obtain ⟨b, hb, hin⟩ := hb
        obtain ⟨j, hj⟩ := List.mem_iff_getElem?.1 hb
        exact ⟨j, b, hj, hin⟩
      classical
      refine ⟨Nat.find hex, ps[Nat.find hex]'?_, ⟨Nat.find_spec hex, fun j hj b hb hin => Nat.find_min hex hj ⟨b, hb, hin⟩⟩,
        List.getElem?_eq_getElem _, le_trans hu (hp _ (List.getElem_mem _) _)⟩
      obtain ⟨b, hb, -⟩ := Nat.find_spec hex
      rw [← hl]
      exact (List.getElem?_eq_some_iff.1 hb).1
    rw [c6]
    split_ifs at hp hb ⊢
    · exact key _ _ hlen.1 hp hb
    · exact key _ _ hlen.2 hp hb

theorem mapHalos_total {ι : Type} (f : Store → Oid → ι → Except Err (Store × Oid)) (hf : ∀ s h i, ∃ q, f s h i = .ok q) :
    ∀ (l : List (Oid × ι)) (s : Store), ∃ q, mapHalos f s l = .ok q := by
  intro l
  induction l with
  | nil => intro s; exact ⟨_, rfl⟩
  | cons p t ih =>
    intro s
    obtain ⟨⟨s₁, h₁⟩, e1⟩ := hf s p.1 p.2
    obtain ⟨⟨s₂, hs⟩, e2⟩ := ih s₁
    refine ⟨(s₂, h₁ :: hs), ?_⟩
    simp only [mapHalos, e1, e2, bind, Except.bind, pure, Except.pure]

theorem addCoreCollapsed_total {P : Phys} {idx : List ℕ} {profile : String} {kw : Kw} {s : Store} {R : Realization}
    (hp : profile = "GNFW" ∨ profile = "SPL_CORE") (hc : ∀ o, P.hasClasses o = true) :
    ∃ q, addCoreCollapsed P idx profile kw s R = .ok q := by
  unfold addCoreCollapsed
  rw [if_pos (by rcases hp with hp | hp <;> simp [hp])]
  obtain ⟨p, e⟩ := mapHalos_total (fun s h (i : ℕ) => if i ∈ idx then collapseHalo P profile kw s h else .ok (s, h))
    (fun s h i => by
      split
      · unfold collapseHalo
        rw [if_neg (by rcases hp with hp | hp <;> simp [hp]), if_neg (by rcases hp with hp | hp <;> simp [hp])]
        simp only [hc]
        exact ⟨_, rfl⟩
      · exact ⟨_, rfl⟩) R.halos.zipIdx s
  rw [e]
  exact ⟨_, rfl⟩

/-- **C95**, success of `SIDM_core_collapse` with the profiles `GNFW` and `SPL_CORE`: it needs only a `CDM` call that succeeds,
one probability per mass bin, and objects with truncation and concentration models. -/
theorem c95_core_collapse_works (W : Run.World) (K : Kit) (E : Preset.Env) (a : CollapseArgs) (d : Dicts) (us : ℕ → ℝ)
    (q : Store × Realization) (hq : cdmCall W K E a.cdm d = .ok q) (h1 : a.rangesSub.length = a.probSub.length)
    (h2 : a.rangesField.length = a.probField.length) (hp : a.profile = "GNFW" ∨ a.profile = "SPL_CORE")
    (hc : ∀ o, K.phys.hasClasses o = true) : ∃ s R, sidmCoreCollapse W K E a d us = .ok (s, R) := by
  unfold sidmCoreCollapse
  obtain ⟨s, R⟩ := q
  rw [hq]
  simp only [bind, Except.bind]
  unfold coreCollapseByMass
  rw [if_neg (not_not.2 h1), if_neg (not_not.2 h2)]
  simp only
  obtain ⟨⟨s', R'⟩, e⟩ := addCoreCollapsed_total (idx := collapseLoop s a.rangesSub a.rangesField a.probSub a.probField 0
    (R.halos.zipIdx.map fun p => (p.1, us p.2))) (kw := a.kwargsProfile) (s := s) (R := R) hp hc
  exact ⟨s', R', e⟩

/-- **With its default profile, `SIDM_core_collapse` raises as soon as one halo collapses, unless the undeclared keyword
`x_core_halo` is given.** -/
theorem c95_default_profile_raises (W : Run.World) (K : Kit) (E : Preset.Env) (a : CollapseArgs) (d : Dicts) (us : ℕ → ℝ)
    (hp : a.profile = "TNFWC") (hkw : "x_core_halo" ∉ a.kwargsProfile.map Prod.fst) (s : Store) (R : Realization)
    (hq : cdmCall W K E a.cdm d = .ok (s, R)) (n : ℕ) (k : Oid) (hk : R.halos[n]? = some k)
    (hch : Spec95.Chosen a (s.obj k) (us n)) (q : Store × Realization) : sidmCoreCollapse W K E a d us ≠ .ok q := by
  intro h
  unfold sidmCoreCollapse at h
  rw [hq] at h
  obtain ⟨p, hp', h⟩ := bind_ok h
  cases hp'
  obtain ⟨idx, h2, h⟩ := bind_ok h
  obtain ⟨-, hsel⟩ := c35_selected s R a.rangesSub a.rangesField a.probSub a.probField us idx h2
  have hn : n ∈ idx := (hsel n).2 ⟨k, hk, hch⟩
  have hget : kwGet a.kwargsProfile "x_core_halo" = .error (.keyError "x_core_halo") := by
    unfold kwGet
    rw [List.find?_eq_none.2]
    intro p hpm he
    exact hkw (List.mem_map.2 ⟨p, hpm, by simpa using he⟩)
  unfold addCoreCollapsed at h
  rw [if_pos (by simp [hp])] at h
  obtain ⟨⟨s₁, hs⟩, h3, -⟩ := bind_ok h
  have key : ∀ (l : List (Oid × ℕ)) (s : Store) (q : Store × List Oid), (∃ p ∈ l, p.2 = n) →
      mapHalos (fun s h (i : ℕ) => if i ∈ idx then collapseHalo K.phys a.profile a.kwargsProfile s h else .ok (s, h)) s l ≠ .ok q := by
    intro l
    induction l with
    | nil => simp
    | cons p t ih =>
      intro s q hex e
      simp only [mapHalos] at e
      obtain ⟨⟨s₂, k₂⟩, e1, e⟩ := bind_ok e
      obtain ⟨⟨s₃, ks⟩, e2, -⟩ := bind_ok e
      obtain ⟨p', hp', hpn⟩ := hex
      rcases List.mem_cons.1 hp' with rfl | hp'
      · rw [hpn, if_pos hn] at e1
        unfold collapseHalo at e1
        rw [if_pos hp, hget] at e1
        cases e1
      · exact ih s₂ _ ⟨p', hp', hpn⟩ e2
  refine key _ s _ ⟨(k, n), ?_, rfl⟩ h3
  exact List.mk_mem_zipIdx_iff_getElem?.2 hk

/-! ## The parametric presets -/

/-- The cold dark matter object `o` of a call, and what the parametric conversion with the cross section `10 ^ sg` makes of it:
the collapse time follows from the NFW parameters of `o`, the ratio of effective age and collapse time is recorded, and from
0.15 on the object is an evolving profile with this collapse time; before, it is still the truncated NFW halo. -/
structure Spec95.Evolution (K : Kit) (kc : ℕ) (ls sg : ℝ) (row : HaloArgs) (o o' : Obj) : Prop where
  cold : Spec94.Created row o
  evolved : ∃ rhos rs r200 age, K.phys.nfw o = .ok (rhos, rs, r200) ∧
    effAge K.phys o (if row.isSubhalo then (10 : ℝ) ^ ls else 1) = .ok age ∧
    o'.note = some (age, age / K.collapseTime kc rhos rs ((10 : ℝ) ^ sg)) ∧
    (0.15 ≤ age / K.collapseTime kc rhos rs ((10 : ℝ) ^ sg) → o'.cls = .evolving) ∧
    (age / K.collapseTime kc rhos rs ((10 : ℝ) ^ sg) < 0.15 → Spec94.Created row o')

theorem sidmParametric_ok {W : Run.World} {K : Kit} {E : Preset.Env} {a : ParametricArgs} {d : Dicts} {us : ℕ → ℝ}
    {q : Store × Realization} (h : sidmParametric W K E a d us = .ok q) :
    ∃ s R p, cdmCall W K E a.toSidmCommon.cdm d = .ok (s, R) ∧
      fromCrossSection K.phys a.options a.ranges a.sections (K.collapseTime a.kwargsCosmo) a.logScaling s R us = .ok p ∧
      optClusters W K a.kwargsCosmo a.globularClusters p = .ok q := by
  unfold sidmParametric at h
  obtain ⟨⟨s, R⟩, h1, h⟩ := bind_ok h
  obtain ⟨p, h2, h⟩ := bind_ok h
  exact ⟨s, R, p, h1, h2, h⟩

theorem sidmCdm_rows {W : Run.World} {K : Kit} {E : Preset.Env} {a : SidmCommon} {d : Dicts} {s : Store} {R : Realization}
    (h : cdmCall W K E a.cdm d = .ok (s, R)) :
    ∃ rows dd, runCdm W E a.cdm d = .ok rows ∧ Spec94.Rows rows K.tags dd s R ∧ R.lensCosmo.zLens = a.zLens := by
  obtain ⟨r, g, ⟨s₀, R₀⟩, hr, hg, hp, h⟩ := cdmCall_ok h
  obtain ⟨rows, hrows, hR, -, c1, c2, c3, -⟩ := c94_realization W K _ r s₀ R₀ hp
  rw [cdm_post hr] at h
  have hpost : ∀ p : Store × Realization, ([] : List Post).foldlM (applyPost W K a.cdm.kwargsCosmo) p = .ok p := fun _ => rfl
  have h' : ([] : List Post).foldlM (applyPost W K a.cdm.kwargsCosmo) (s₀, R₀) = .ok (s, R) := h
  rw [hpost] at h'
  cases h'
  refine ⟨rows, _, ?_, hR, c2⟩
  unfold runCdm
  rw [hr]
  simp only [bind, Except.bind, hg]
  exact hrows

/-- **C95**, `SIDM_parametric` with evolving profiles and without clusters: the population is the one the `CDM` call with the
same arguments renders; every halo keeps the numbers and the tag of its row and evolves with the cross section of the first mass
bin that contains its mass. -/
theorem c95_parametric (W : Run.World) (hV : Variates W) (K : Kit) (E : Preset.Env) (a : ParametricArgs) (d : Dicts) (us : ℕ → ℝ)
    (hu : ∀ n, us n ≤ 1) (hgc : a.globularClusters = none) (he : a.evolving = true)
    (hk : ∀ z, Spec90.rendered a.zLens a.zSource none z → W.kpc a.kwargsCosmo z ≠ 0) (hlt : a.logMlow < a.logMhigh) (s' : Store) (R' : Realization)
    (h : sidmParametric W K E a d us = .ok (s', R')) :
    ∃ rows, runCdm W E a.toSidmCommon.cdm d = .ok rows ∧ R'.halos.length = rows.length ∧ Live s' R'.halos ∧
      R'.lensCosmo.zLens = a.zLens ∧ Fresh s'.heap R' ∧
      ∀ (n : ℕ) (row : HaloArgs) (k : Oid), rows[n]? = some row → R'.halos[n]? = some k →
        (s'.obj k).mass = row.mass ∧ (s'.obj k).x = row.x ∧ (s'.obj k).y = row.y ∧ (s'.obj k).r3d = row.r3d ∧
        (s'.obj k).z = row.z ∧ (s'.obj k).isSubhalo = row.isSubhalo ∧ (s'.obj k).tag = K.tags n ∧
        ∃ i sg o, FirstBin row.mass a.ranges i ∧ a.sections[i]? = some sg ∧
          Spec95.Evolution K a.kwargsCosmo a.logScaling sg row o (s'.obj k) := by
  obtain ⟨s, R, p, h1, h2, h3⟩ := sidmParametric_ok h
  rw [hgc] at h3
  cases h3
  obtain ⟨rows, dd, hrows, hR, hz⟩ := sidmCdm_rows h1
  obtain ⟨_, _, _, -, -, hdef⟩ := c90_cdm W hV E _ d rows hk hlt (fun h => by simp [SidmCommon.cdm] at h) hrows
  have hc := c34_cross_section K.phys a.options a.ranges a.sections _ a.logScaling s R us hR.live s' R' h2
  have hlive : Live s' R'.halos := by
    obtain ⟨hs, e, rfl⟩ := fromCrossSection_ok _ _ _ _ _ _ _ _ _ _ _ h2
    obtain ⟨_, _, hl', _⟩ := mapHalos_trace _
      (fun s h i s' h' e => (crossSectionStep_step _ _ _ _ _ _ _ _ _ _ _ e).1) _ s s' hs (jobs_live s R us hR.live) e
    exact hl'
  refine ⟨rows, hrows, by rw [← hR.length_eq]; exact hc.halos.length_eq.symm, hlive, by rw [hc.context.lensCosmo, hz], hc.fresh,
    fun n row k hrow hkk => ?_⟩
  have hn : n < R.halos.length := by rw [hR.length_eq]; exact (List.getElem?_eq_some_iff.1 hrow).1
  have hko := List.getElem?_eq_getElem hn
  have hC := hR.at hrow hko
  have hsame : SameHalo (s.obj R.halos[n]).toHalo (s'.obj k).toHalo := by
    obtain ⟨hl2, rfl⟩ := List.getElem?_eq_some_iff.1 hkk
    exact (List.forall₂_iff_get.1 hc.halos).2 n hn hl2
  obtain ⟨q1, q2, -⟩ := hdef row (List.mem_of_getElem? hrow)
  have hpos : 0 < row.mass := lt_of_lt_of_le (by positivity) q2
  obtain ⟨k', g1, g2, i, sg, rhos, rs, r200, g3, g4, g5, g6⟩ := c34_cross_section_first_bin K.phys a.options a.ranges a.sections
    (K.collapseTime a.kwargsCosmo) a.logScaling s R us hR.live hR.distinct rfl he s' R' h2 n _ hko (by rw [hC.mass]; exact hpos)
  have : k' = k := Option.some.inj (g1.symm.trans hkk)
  subst this
  have hmd : (s.obj R.halos[n]).mdef = "TNFW" := by
    rw [hC.kind, q1]
    simp [SidmCommon.cdm]
  obtain ⟨age, e1, e2, e3, e4⟩ := g6 hmd
  rw [hC.mass] at g3
  rw [hC.sub] at e1
  have hprob : us n ≤ a.options.prob := hu n
  refine ⟨by rw [hsame.mass, hC.mass], by rw [hsame.x, hC.x], by rw [hsame.y, hC.y], by rw [hsame.r3d, hC.r3d],
    by rw [hsame.z, hC.z], by rw [hsame.sub, hC.sub], by rw [hsame.tag, hR.tags n _ hko], i, sg, s.obj R.halos[n], g3, g4, hC,
    rhos, rs, r200, age, g5, e1, e2, fun hle => (e3 ⟨hle, hprob⟩).1, fun hlt => ?_⟩
  rw [e4 fun hh => absurd hh.1 (not_le.2 hlt)]
  have hlk := hR.live _ (List.getElem_mem hn)
  exact created_note hC (hc.old _ hlk)

/-- **C95**, clusters: with clusters, `SIDM_parametric` returns what it returns without, and the clusters. -/
theorem c95_parametric_clusters (W : Run.World) (hV : Variates W) (K : Kit) (E : Preset.Env) (a : ParametricArgs) (d : Dicts)
    (us : ℕ → ℝ) (hu : ∀ n, us n ≤ 1) (n : ℕ) (hgc : a.globularClusters = some n)
    (hC : Spec94.Clusters W K a.kwargsCosmo n a.zLens) (he : a.evolving = true) (hk : ∀ z, Spec90.rendered a.zLens a.zSource none z → W.kpc a.kwargsCosmo z ≠ 0)
    (hlt : a.logMlow < a.logMhigh) (s' : Store) (R' : Realization) (h : sidmParametric W K E a d us = .ok (s', R')) :
    ∃ s R, sidmParametric W K E { a with globularClusters := none } d us = .ok (s, R) ∧ Spec94.WithClusters K n s R s' R' := by
  obtain ⟨s₀, R₀, ⟨s, R⟩, h1, h2, h3⟩ := sidmParametric_ok h
  rw [hgc] at h3
  have h4 : sidmParametric W K E { a with globularClusters := none } d us = .ok (s, R) := by
    have h1' : cdmCall W K E ({ a with globularClusters := none } : ParametricArgs).toSidmCommon.cdm d = .ok (s₀, R₀) := h1
    unfold sidmParametric
    rw [h1']
    simp only [bind, Except.bind]
    have h2' : fromCrossSection K.phys ({ a with globularClusters := none } : ParametricArgs).options a.ranges a.sections
      (K.collapseTime a.kwargsCosmo) a.logScaling s₀ R₀ us = .ok (s, R) := h2
    rw [h2']
    rfl
  obtain ⟨rows, hrows, hlen, hlive, hz, -, hall⟩ := c95_parametric W hV K E { a with globularClusters := none } d us hu rfl he hk
    hlt s R h4
  refine ⟨s, R, h4, ?_⟩
  have hz : R.lensCosmo.zLens = a.zLens := hz
  obtain ⟨s₂, R₂, e, hW⟩ := addClusters_spec (W := W) (K := K) (kc := a.kwargsCosmo) (n := n) (s := s) (R := R)
    (hz ▸ hC) hlive (fun k hk => by
      obtain ⟨i, hi⟩ := List.mem_iff_getElem?.1 hk
      have hil : i < rows.length := by rw [← hlen]; exact (List.getElem?_eq_some_iff.1 hi).1
      exact ⟨i, (hall i _ k (List.getElem?_eq_getElem hil) hi).2.2.2.2.2.2.1⟩)
  have h3 : addClusters W K a.kwargsCosmo n (s, R) = .ok (s', R') := h3
  rw [e] at h3
  cases h3
  exact hW

/-- **C95**: if one of the rendered halos has a mass outside all bins, `SIDM_parametric` raises. -/
theorem c95_gap_raises (W : Run.World) (hV : Variates W) (K : Kit) (E : Preset.Env) (a : ParametricArgs) (d : Dicts) (us : ℕ → ℝ)
    (hk : ∀ z, Spec90.rendered a.zLens a.zSource none z → W.kpc a.kwargsCosmo z ≠ 0) (hlt : a.logMlow < a.logMhigh) (rows : List HaloArgs)
    (hrows : runCdm W E a.toSidmCommon.cdm d = .ok rows) (row : HaloArgs) (hrow : row ∈ rows)
    (hb : ∀ b ∈ a.ranges, ¬ InBin row.mass b) (q : Store × Realization) : sidmParametric W K E a d us ≠ .ok q := by
  intro h
  obtain ⟨s, R, p, h1, h2, -⟩ := sidmParametric_ok h
  obtain ⟨rows', dd, hrows', hR, -⟩ := sidmCdm_rows h1
  rw [hrows] at hrows'
  cases hrows'
  obtain ⟨_, _, _, -, -, hdef⟩ := c90_cdm W hV E _ d rows hk hlt (fun h => by simp [SidmCommon.cdm] at h) hrows
  obtain ⟨n, hn⟩ := List.mem_iff_getElem?.1 hrow
  have hl : n < R.halos.length := by rw [hR.length_eq]; exact (List.getElem?_eq_some_iff.1 hn).1
  have hC := hR.at hn (List.getElem?_eq_getElem hl)
  have hpos : 0 < row.mass := lt_of_lt_of_le (by positivity) (hdef row hrow).2.1
  obtain ⟨e, he⟩ := (c34_no_bin K.phys a.options a.ranges a.logScaling s R hR.live _ (List.getElem_mem hl)
    (by rw [hC.mass]; exact hpos) (by rw [hC.mass]; exact hb)).2 a.sections (K.collapseTime a.kwargsCosmo) us
  rw [he] at h2
  cases h2

/-- **C95**, `SIDM_parametric_fixedbins`: the cross section of a halo is the low one below `10 ^ 8` solar masses and the high one
from there on. A minimum mass above `10 ^ 8` is refused. -/
theorem c95_fixed_bins (W : Run.World) (hV : Variates W) (K : Kit) (E : Preset.Env) (a : FixedBinsArgs) (d : Dicts) (us : ℕ → ℝ)
    (hu : ∀ n, us n ≤ 1) (hgc : a.globularClusters = none) (he : a.evolving = true)
    (hk : ∀ z, Spec90.rendered a.zLens a.zSource none z → W.kpc a.kwargsCosmo z ≠ 0) (hlt : a.logMlow < a.logMhigh) (s' : Store) (R' : Realization)
    (h : sidmFixedBins W K E a d us = .ok (s', R')) :
    a.logMlow ≤ 8 ∧ ∃ rows, runCdm W E a.toSidmCommon.cdm d = .ok rows ∧ R'.halos.length = rows.length ∧
      ∀ (n : ℕ) (row : HaloArgs) (k : Oid), rows[n]? = some row → R'.halos[n]? = some k →
        (s'.obj k).mass = row.mass ∧ (s'.obj k).x = row.x ∧ (s'.obj k).y = row.y ∧ (s'.obj k).r3d = row.r3d ∧
        (s'.obj k).z = row.z ∧ (s'.obj k).isSubhalo = row.isSubhalo ∧ (s'.obj k).tag = K.tags n ∧
        ∃ o, Spec95.Evolution K a.kwargsCosmo a.logScaling (if row.mass < 10 ^ 8 then a.sectionLow else a.sectionHigh) row o
          (s'.obj k) := by
  unfold sidmFixedBins at h
  split_ifs at h with h8
  have h8 := not_lt.1 h8
  obtain ⟨rows, hrows, hlen, -, -, -, hall⟩ := c95_parametric W hV K E a.parametric d us hu hgc he hk hlt s' R' h
  refine ⟨h8, rows, hrows, hlen, fun n row k hrow hkk => ?_⟩
  obtain ⟨f1, f2, f3, f4, f5, f6, f7, i, sg, o, hf, hs, hE⟩ := hall n row k hrow hkk
  refine ⟨f1, f2, f3, f4, f5, f6, f7, o, ?_⟩
  have e8 : (10 : ℝ) ^ (8 : ℝ) = 10 ^ 8 := by norm_num
  obtain ⟨⟨b, hb, hin⟩, hfirst⟩ := hf
  rcases i with _ | _ | i
  · simp [FixedBinsArgs.parametric] at hb hs
    subst hb hs
    have := hin.2
    simp only [e8] at this
    rw [if_pos this]
    exact hE
  · simp [FixedBinsArgs.parametric] at hb hs
    subst hb hs
    have := hin.1
    simp only [e8] at this
    rw [if_neg (not_lt.2 this)]
    exact hE
  · simp [FixedBinsArgs.parametric] at hb

theorem plane_below {zl zs : ℝ} {sp : Option ℝ} (hl : zl < zs) (hs : ∀ s, sp = some s → 0 < s)
    {P G : List ℝ} (h : lensPlanes (some zl) zs sp = .ok (P, G)) : ∀ z ∈ P, z ≤ zs + 0.005 := by
  have hs' : 0 < sp.getD 0.02 := by
    cases sp with
    | none => norm_num
    | some s => exact hs s rfl
  obtain ⟨h1, h2, h3, h4, h5⟩ := rawPlanes_some (zl := zl) (zs := zs) hs' hl
  have e : lensPlanes (some zl) zs (some (sp.getD 0.02)) = .ok (P, G) := by
    rw [← h]
    cases sp <;> rfl
  unfold lensPlanes at e
  obtain ⟨gaps, -, e⟩ := bind_ok e
  cases e
  intro z hz
  obtain ⟨x, hx, rfl⟩ := List.mem_map.1 hz
  have hx1 := (h3 x hx).2
  have := (abs_le.1 (Np.abs_round2_sub x)).2
  norm_num at this ⊢
  linarith

/-- **C95**, success of `SIDM_parametric_fixedbins`: if the models are accepted, the minimum mass is at most `10 ^ 8`, and the
truncated NFW halos have parameters, a truncation radius and a concentration, the call returns a realization. -/
theorem c95_fixed_bins_works (W : Run.World) (hV : Variates W) (K : Kit) (E : Preset.Env) (a : FixedBinsArgs) (d : Dicts)
    (us : ℕ → ℝ) (r : Request) (hr : (cdm E a.toSidmCommon.cdm d).1 = .ok r) (hW : WorldOk W a.kwargsCosmo)
    (hk : ∀ z, Spec90.rendered a.zLens a.zSource none z → W.kpc a.kwargsCosmo z ≠ 0) (h0 : 0.005 < a.zLens) (hl : a.zLens < a.zSource) (h20 : a.zSource ≤ 19.9)
    (hlt : a.logMlow < a.logMhigh) (h8 : a.logMlow ≤ 8) (h1 : 0 ≤ a.sigmaSub) (h2 : 0 ≤ a.losNormalization)
    (h3 : Spec90.apart W a.kwargsCosmo a.zLens a.zSource none) (hgc : a.globularClusters = none)
    (hA : ∀ a b, 0 ≤ a → a ≤ b → K.phys.A.age b ≤ K.phys.A.age a)
    (hP : ∀ o, 0 < o.mass → 0 ≤ o.z → o.z ≤ 20 → 0 ≤ K.phys.zEval o ∧ (∃ x, K.phys.rt o = .ok x) ∧ (∃ x, K.phys.nfw o = .ok x) ∧ ∃ x, K.phys.conc o = .ok x) :
    ∃ s R, sidmFixedBins W K E a d us = .ok (s, R) := by
  obtain ⟨s, R, hcall⟩ := c94_cdm_works W hV K E a.toSidmCommon.cdm d r hr hW hk h0 hl hlt (by simp [SidmCommon.cdm]) h1 h2
    (fun h => by simp [SidmCommon.cdm] at h) (fun _ => h3) (.inl rfl) rfl
  obtain ⟨rows, dd, hrows, hR, -⟩ := sidmCdm_rows hcall
  obtain ⟨v, P, G, -, hPl, hall⟩ := c90_cdm W hV E _ d rows hk hlt (fun h => by simp [SidmCommon.cdm] at h) hrows
  have hpos := plane_positive h0 hl (by simp [SidmCommon.cdm]) hPl
  have hle := plane_below hl (by simp [SidmCommon.cdm]) hPl
  have e8 : (10 : ℝ) ^ (8 : ℝ) = 10 ^ 8 := by norm_num
  obtain ⟨s', R', h'⟩ := c34_cross_section_succeeds K.phys a.parametric.options a.parametric.ranges a.parametric.sections
    (K.collapseTime a.kwargsCosmo) a.logScaling s R us hR.live hA rfl rfl (fun h hh => by
      obtain ⟨n, hn⟩ := List.mem_iff_getElem?.1 hh
      have hnr : n < rows.length := by rw [← hR.length_eq]; exact (List.getElem?_eq_some_iff.1 hn).1
      have hC := hR.at (List.getElem?_eq_getElem hnr) hn
      obtain ⟨q1, q2, q3, q4, q5⟩ := hall rows[n] (List.getElem_mem hnr)
      have q2 : (10 : ℝ) ^ a.logMlow ≤ rows[n].mass := q2
      have q3 : rows[n].mass < (10 : ℝ) ^ a.logMhigh := q3
      have hz : 0 ≤ rows[n].z ∧ rows[n].z ≤ 20 := by
        cases hb : rows[n].isSubhalo with
        | true =>
          rw [(q4 hb).1]
          show 0 ≤ a.zLens ∧ a.zLens ≤ 20
          norm_num at h0 h20
          constructor <;> linarith
        | false =>
          rcases (q5 hb).2.1 with hh | hh
          · refine ⟨(hpos _ hh).le, le_trans (hle _ hh) ?_⟩
            show a.zSource + 0.005 ≤ 20
            norm_num at h20 ⊢
            linarith
          · rw [hh.2]
            show 0 ≤ a.zLens ∧ a.zLens ≤ 20
            norm_num at h0 h20
            constructor <;> linarith
      rw [hC.mass, hC.z, hC.kind, q1]
      refine ⟨lt_of_lt_of_le (by positivity) q2, ?_, by simp [SidmCommon.cdm], hz.1, hz.2, fun note => hP _ ?_ ?_ ?_⟩
      pick_goal 2
      · show 0 < (s.obj h).mass
        rw [hC.mass]; exact lt_of_lt_of_le (by positivity) q2
      pick_goal 2
      · show 0 ≤ (s.obj h).z
        rw [hC.z]; exact hz.1
      pick_goal 2
      · show (s.obj h).z ≤ 20
        rw [hC.z]; exact hz.2
      by_cases hm : rows[n].mass < 10 ^ 8
      · exact ⟨(a.logMlow, 8), by simp [FixedBinsArgs.parametric], q2, by simpa [e8] using hm⟩
      · exact ⟨(8, a.logMhigh), by simp [FixedBinsArgs.parametric], by simpa [e8] using not_lt.1 hm, q3⟩)
  refine ⟨s', R', ?_⟩
  unfold sidmFixedBins
  rw [if_neg (not_lt.2 h8)]
  unfold sidmParametric
  have hcall' : cdmCall W K E a.parametric.toSidmCommon.cdm d = .ok (s, R) := hcall
  rw [hcall']
  simp only [bind, Except.bind]
  have h'' : fromCrossSection K.phys a.parametric.options a.parametric.ranges a.parametric.sections
    (K.collapseTime a.parametric.kwargsCosmo) a.parametric.logScaling s R us = .ok (s', R') := h'
  rw [h'']
  have hgc' : a.parametric.globularClusters = none := hgc
  simp only [hgc', optClusters]

end PyHalo.Props
