import Verif.Lemmas.Extensions
import Verif.Props.LensCosmo
import Verif.Props.Sidm
import Verif.Spec.Demo

/-!
# Replacing halos (C34–C37, C73)
-/

namespace PyHalo.Props
open PyHalo PyHalo.Spec PyHalo.Ext

/-- What every conversion promises about the population: halo by halo the same mass, position,
redshift, tag and kind; the same context; and the objects of the old realization untouched (up to the
attached ages). -/
structure Converted (s : Store) (r : Realization) (s' : Store) (r' : Realization) : Prop where
  halos : List.Forall₂ (fun h h' => SameHalo (s.obj h).toHalo (s'.obj h').toHalo) r.halos r'.halos
  context : SameContext r r'
  shifted : r'.hasBeenShifted = r.hasBeenShifted
  fresh : Fresh s'.heap r'
  old : Unchanged s s'

theorem converted_of_map {ι : Type} (f : Store → Oid → ι → Except Err (Store × Oid))
    (hf : ∀ s h i s' h', f s h i = .ok (s', h') → Step s h s' h')
    (hb : ∀ s h i s' h', f s h i = .ok (s', h') → SameHalo (s.obj h).toHalo (s'.obj h').toHalo)
    (g : ℕ → ι) (s s' : Store) (r : Realization) (hs : List Oid) (hl : Live s r.halos)
    (h : mapHalos f s (r.halos.zipIdx.map fun p => (p.1, g p.2)) = .ok (s', hs)) :
    Converted s r s' (finish r (s', hs)).2 := by
  have hl' : ∀ p ∈ r.halos.zipIdx.map (fun p => (p.1, g p.2)), p.1 < s.next := by
    intro p hp
    simp only [List.mem_map, Prod.exists] at hp
    obtain ⟨a, b, hab, rfl⟩ := hp
    exact hl a (List.fst_mem_of_mem_zipIdx hab)
  have h2 := mapHalos_same f hf hb _ s s' hs hl' h
  obtain ⟨c1, c2, c3, c4⟩ := finish_context r (s', hs)
  refine ⟨?_, c1, c2, c4, (mapHalos_trace f hf _ s s' hs hl' h).1.unchanged⟩
  rw [c3]
  have h3 := List.forall₂_map_left_iff.mp h2
  have h4 : List.Forall₂ (fun (h h' : Oid) => SameHalo (s.obj h).toHalo (s'.obj h').toHalo)
      (r.halos.zipIdx.map Prod.fst) hs := List.forall₂_map_left_iff.mpr h3
  rwa [List.zipIdx_map_fst] at h4

theorem same_of_eq (s : Store) (h : Oid) : SameHalo (s.obj h).toHalo (s.obj h).toHalo :=
  ⟨rfl, rfl, rfl, rfl, rfl, rfl, rfl⟩

theorem timescaleStep_ok (P : Phys) (a : SidmArgs) (bins tcs sigmas ls) (s : Store) (h : Oid)
    (v : ℝ × ℝ) (s' : Store) (h' : Oid)
    (e : timescaleStep P a bins tcs sigmas ls s h v = .ok (s', h')) :
    ∃ i tc, findBin (s.obj h).mass 0 bins = some i ∧ drawTimescale tcs sigmas i v.1 = .ok tc ∧
      (((s.obj h).mdef = "TNFW" ∧ toSidm P { a with
        tc := some tc
        scaling := some ((10 : ℝ) ^ ls)
        cut := 0.15
        tOverTc := none } s h v.2 = .ok (s', h')) ∨
       ((s.obj h).mdef ≠ "TNFW" ∧ (s.obj h).mdef ≠ "NFW" ∧ s' = s ∧ h' = h)) := by
  unfold timescaleStep at e
  cases h1 : findBin (s.obj h).mass 0 bins with
  | none => simp [h1] at e
  | some i =>
    simp only [h1, bind, Except.bind, pure, Except.pure] at e
    cases h2 : drawTimescale tcs sigmas i v.1 with
    | error _ => simp [h2] at e
    | ok tc =>
      simp only [h2] at e
      refine ⟨i, tc, rfl, h2, ?_⟩
      split_ifs at e with c
      · exact Or.inl ⟨(toSidm_cases _ _ _ _ _ _ _ e).1, e⟩
      · simp only [Except.ok.injEq, Prod.mk.injEq] at e
        push Not at c
        exact Or.inr ⟨c.1, c.2, e.1.symm, e.2.symm⟩

theorem crossSectionStep_ok (P : Phys) (a : SidmArgs) (bins sigmas time ls) (s : Store) (h : Oid)
    (u : ℝ) (s' : Store) (h' : Oid)
    (e : crossSectionStep P a bins sigmas time ls s h u = .ok (s', h')) :
    ∃ i sg n, findBin (s.obj h).mass 0 bins = some i ∧ sigmas[i]? = some sg ∧
      P.nfw (s.obj h) = .ok n ∧
      (((s.obj h).mdef = "TNFW" ∧ toSidm P { a with
        tc := some (time n.1 n.2.1 ((10 : ℝ) ^ sg))
        scaling := some ((10 : ℝ) ^ ls)
        cut := 0.15
        tOverTc := none } s h u = .ok (s', h')) ∨
       ((s.obj h).mdef ≠ "TNFW" ∧ (s.obj h).mdef ≠ "NFW" ∧ s' = s ∧ h' = h)) := by
  unfold crossSectionStep at e
  cases h1 : findBin (s.obj h).mass 0 bins with
  | none => simp [h1] at e
  | some i =>
    simp only [h1, bind, Except.bind, pure, Except.pure, idx] at e
    cases h2 : sigmas[i]? with
    | none => simp [h2] at e
    | some sg =>
      simp only [h2] at e
      cases h3 : P.nfw (s.obj h) with
      | error _ => simp [h3] at e
      | ok n =>
        simp only [h3] at e
        refine ⟨i, sg, n, rfl, h2, rfl, ?_⟩
        split_ifs at e with c
        · exact Or.inl ⟨(toSidm_cases _ _ _ _ _ _ _ e).1, e⟩
        · simp only [Except.ok.injEq, Prod.mk.injEq] at e
          push Not at c
          exact Or.inr ⟨c.1, c.2, e.1.symm, e.2.symm⟩

theorem timescaleStep_step (P : Phys) (a : SidmArgs) (bins tcs sigmas ls) (s : Store) (h : Oid)
    (v : ℝ × ℝ) (s' : Store) (h' : Oid)
    (e : timescaleStep P a bins tcs sigmas ls s h v = .ok (s', h')) :
    Step s h s' h' ∧ SameHalo (s.obj h).toHalo (s'.obj h').toHalo := by
  obtain ⟨i, tc, _, _, ⟨_, e⟩ | ⟨_, _, rfl, rfl⟩⟩ := timescaleStep_ok P a bins tcs sigmas ls s h v s' h' e
  · exact ⟨toSidm_step _ _ _ _ _ _ _ e, toSidm_same _ _ _ _ _ _ _ e⟩
  · exact ⟨⟨Reach.refl _ _, fun hk => hk⟩, same_of_eq _ _⟩

theorem crossSectionStep_step (P : Phys) (a : SidmArgs) (bins sigmas time ls) (s : Store) (h : Oid)
    (u : ℝ) (s' : Store) (h' : Oid)
    (e : crossSectionStep P a bins sigmas time ls s h u = .ok (s', h')) :
    Step s h s' h' ∧ SameHalo (s.obj h).toHalo (s'.obj h').toHalo := by
  obtain ⟨i, sg, n, _, _, _, ⟨_, e⟩ | ⟨_, _, rfl, rfl⟩⟩ :=
    crossSectionStep_ok P a bins sigmas time ls s h u s' h' e
  · exact ⟨toSidm_step _ _ _ _ _ _ _ e, toSidm_same _ _ _ _ _ _ _ e⟩
  · exact ⟨⟨Reach.refl _ _, fun hk => hk⟩, same_of_eq _ _⟩

theorem fromTimescale_ok (P : Phys) (a : SidmArgs) (bins tcs sigmas ls) (s : Store) (r : Realization)
    (vs : ℕ → ℝ × ℝ) (s' : Store) (r' : Realization)
    (h : fromTimescale P a bins tcs sigmas ls s r vs = .ok (s', r')) :
    ∃ hs, mapHalos (timescaleStep P a bins tcs sigmas ls) s
      (r.halos.zipIdx.map fun p => (p.1, vs p.2)) = .ok (s', hs) ∧ r' = (finish r (s', hs)).2 := by
  unfold fromTimescale at h
  simp only [bind, Except.bind, pure, Except.pure] at h
  cases h1 : mapHalos (timescaleStep P a bins tcs sigmas ls) s
      (r.halos.zipIdx.map fun p => (p.1, vs p.2)) with
  | error _ => simp [h1] at h
  | ok q =>
    obtain ⟨s₁, hs⟩ := q
    simp only [h1, Except.ok.injEq, Prod.ext_iff, finish] at h
    obtain ⟨rfl, rfl⟩ := h
    exact ⟨hs, rfl, rfl⟩

theorem fromCrossSection_ok (P : Phys) (a : SidmArgs) (bins sigmas time ls) (s : Store)
    (r : Realization) (vs : ℕ → ℝ) (s' : Store) (r' : Realization)
    (h : fromCrossSection P a bins sigmas time ls s r vs = .ok (s', r')) :
    ∃ hs, mapHalos (crossSectionStep P a bins sigmas time ls) s
      (r.halos.zipIdx.map fun p => (p.1, vs p.2)) = .ok (s', hs) ∧ r' = (finish r (s', hs)).2 := by
  unfold fromCrossSection at h
  simp only [bind, Except.bind, pure, Except.pure] at h
  cases h1 : mapHalos (crossSectionStep P a bins sigmas time ls) s
      (r.halos.zipIdx.map fun p => (p.1, vs p.2)) with
  | error _ => simp [h1] at h
  | ok q =>
    obtain ⟨s₁, hs⟩ := q
    simp only [h1, Except.ok.injEq, Prod.ext_iff, finish] at h
    obtain ⟨rfl, rfl⟩ := h
    exact ⟨hs, rfl, rfl⟩

/-- **C34**, conversion with collapse times per mass bin: whatever profile, bins and random numbers,
the new realization has the same halos in the same order. -/
theorem c34_timescale (P : Phys) (a : SidmArgs) (bins : List (ℝ × ℝ)) (tcs : List ℝ)
    (sigmas : Option (List ℝ)) (ls : ℝ) (s : Store) (r : Realization) (vs : ℕ → ℝ × ℝ)
    (hl : Live s r.halos) (s' : Store) (r' : Realization)
    (h : fromTimescale P a bins tcs sigmas ls s r vs = .ok (s', r')) : Converted s r s' r' := by
  obtain ⟨hs, h1, rfl⟩ := fromTimescale_ok P a bins tcs sigmas ls s r vs s' r' h
  exact converted_of_map _ (fun s h i s' h' e => (timescaleStep_step _ _ _ _ _ _ _ _ _ _ _ e).1)
    (fun s h i s' h' e => (timescaleStep_step _ _ _ _ _ _ _ _ _ _ _ e).2) vs s s' r hs hl h1

/-- **C34**, conversion with cross sections per mass bin. -/
theorem c34_cross_section (P : Phys) (a : SidmArgs) (bins : List (ℝ × ℝ)) (sigmas : List ℝ)
    (time : ℝ → ℝ → ℝ → ℝ) (ls : ℝ) (s : Store) (r : Realization) (vs : ℕ → ℝ)
    (hl : Live s r.halos) (s' : Store) (r' : Realization)
    (h : fromCrossSection P a bins sigmas time ls s r vs = .ok (s', r')) : Converted s r s' r' := by
  obtain ⟨hs, h1, rfl⟩ := fromCrossSection_ok P a bins sigmas time ls s r vs s' r' h
  exact converted_of_map _ (fun s h i s' h' e => (crossSectionStep_step _ _ _ _ _ _ _ _ _ _ _ e).1)
    (fun s h i s' h' e => (crossSectionStep_step _ _ _ _ _ _ _ _ _ _ _ e).2) vs s s' r hs hl h1

/-- **C34**, conversion of a given list of halos: the new realization consists of the converted list. -/
theorem c34_halo_list (P : Phys) (a : SidmArgs) (s : Store) (r : Realization) (hs : List (Oid × ℝ))
    (hl : Live s (hs.map Prod.fst)) (s' : Store) (r' : Realization)
    (h : toSidmList P a s r hs = .ok (s', r')) :
    List.Forall₂ (fun h h' => SameHalo (s.obj h).toHalo (s'.obj h').toHalo) (hs.map Prod.fst) r'.halos ∧
    SameContext r r' ∧ r'.hasBeenShifted = r.hasBeenShifted ∧ Fresh s'.heap r' ∧ Unchanged s s' := by
  unfold toSidmList at h
  simp only [bind, Except.bind, pure, Except.pure] at h
  cases h1 : mapHalos (fun s h u => toSidm P { a with threshold := 1 } s h u) s hs with
  | error _ => simp [h1] at h
  | ok q =>
    obtain ⟨s₁, ks⟩ := q
    simp only [h1, Except.ok.injEq, Prod.ext_iff] at h
    obtain ⟨c1, c2, c3, c4⟩ := finish_context r (s₁, ks)
    have e1 : s₁ = s' := h.1
    have e2 : (finish r (s₁, ks)).2 = r' := h.2
    subst e1
    rw [← e2, c3]
    have hl' : ∀ p ∈ hs, p.1 < s.next := fun p hp => hl _ (List.mem_map_of_mem hp)
    have h2 := mapHalos_same _ (fun s h i s' h' e => toSidm_step _ _ _ _ _ _ _ e)
      (fun s h i s' h' e => toSidm_same _ _ _ _ _ _ _ e) hs s s₁ ks hl' h1
    exact ⟨List.forall₂_map_left_iff.mpr h2, c1, c2, c4,
      (mapHalos_trace _ (fun s h i s' h' e => toSidm_step _ _ _ _ _ _ _ e) hs s s₁ ks hl' h1).1.unchanged⟩

theorem mem_jobs {ι : Type} (r : Realization) (g : ℕ → ι) (h : Oid) (hh : h ∈ r.halos) :
    ∃ i, (h, g i) ∈ r.halos.zipIdx.map fun p => (p.1, g p.2) := by
  obtain ⟨i, hi⟩ := List.getElem?_of_mem hh
  exact ⟨i, List.mem_map.mpr ⟨(h, i), List.mem_zipIdx_iff_getElem?.mpr (by simpa using hi), rfl⟩⟩

theorem jobs_live {ι : Type} (s : Store) (r : Realization) (g : ℕ → ι) (hl : Live s r.halos) :
    ∀ p ∈ r.halos.zipIdx.map (fun p => (p.1, g p.2)), p.1 < s.next := by
  intro p hp
  simp only [List.mem_map, Prod.exists] at hp
  obtain ⟨a, b, hab, rfl⟩ := hp
  exact hl a (List.fst_mem_of_mem_zipIdx hab)

/-- **C34**. If some halo lies in none of the mass bins, both conversions raise. -/
theorem c34_no_bin (P : Phys) (a : SidmArgs) (bins : List (ℝ × ℝ)) (ls : ℝ) (s : Store)
    (r : Realization) (hl : Live s r.halos) (h : Oid) (hh : h ∈ r.halos) (hm : 0 < (s.obj h).mass)
    (hb : ∀ b ∈ bins, ¬ InBin (s.obj h).mass b) :
    (∀ tcs sigmas vs, ∃ e, fromTimescale P a bins tcs sigmas ls s r vs = .error e) ∧
    (∀ sigmas time vs, ∃ e, fromCrossSection P a bins sigmas time ls s r vs = .error e) := by
  have none : ∀ s' T, Reach T s s' → findBin (s'.obj h).mass 0 bins = none := by
    intro s' T hr
    rw [hr.halo (hl h hh)]
    exact (findBin_spec _ hm bins).2.mpr hb
  constructor
  · intro tcs sigmas vs
    obtain ⟨i, hi⟩ := mem_jobs r vs h hh
    obtain ⟨e, he⟩ := mapHalos_fails (timescaleStep P a bins tcs sigmas ls)
      (fun s h i s' h' e => (timescaleStep_step _ _ _ _ _ _ _ _ _ _ _ e).1) _ s
      (jobs_live s r vs hl) _ hi (fun s' hr => ⟨_, by
        unfold timescaleStep
        rw [none s' _ hr]⟩)
    exact ⟨e, by unfold fromTimescale; rw [he]; rfl⟩
  · intro sigmas time vs
    obtain ⟨i, hi⟩ := mem_jobs r vs h hh
    obtain ⟨e, he⟩ := mapHalos_fails (crossSectionStep P a bins sigmas time ls)
      (fun s h i s' h' e => (crossSectionStep_step _ _ _ _ _ _ _ _ _ _ _ e).1) _ s
      (jobs_live s r vs hl) _ hi (fun s' hr => ⟨_, by
        unfold crossSectionStep
        rw [none s' _ hr]⟩)
    exact ⟨e, by unfold fromCrossSection; rw [he]; rfl⟩

/-- The result of converting one halo to an evolving profile: with `t` the effective age in units of
the collapse time, the halo is replaced if and only if `t` reaches the cut and the variate does not
exceed the probability; the ratio is recorded on whichever object is returned; a replaced subhalo
keeps its infall redshift and its bound mass. -/
structure Evolved (P : Phys) (o : Obj) (tc lambda cut prob u : ℝ) (h : Oid) (s' : Store) (h' : Oid) :
    Prop where
  age : ∃ age, effAge P o lambda = .ok age ∧
    (s'.obj h').note = some (age, age / tc) ∧
    (cut ≤ age / tc ∧ u ≤ prob → h' ≠ h ∧ (s'.obj h').cls = .evolving ∧
      kwGet (s'.dict (s'.obj h').args) "sidm_timescale" = .ok tc ∧
      kwGet (s'.dict (s'.obj h').args) "lambda_t" = .ok lambda ∧
      (o.isSubhalo = true → (s'.obj h').zInfall = some (P.zEval o) ∧
        (s'.obj h').hasBound = true ∧ (s'.obj h').boundMass = o.boundMass)) ∧
    (¬ (cut ≤ age / tc ∧ u ≤ prob) → h' = h)

/-- **C34**, one halo with the evolving profile and a given collapse time. -/
theorem c34_single (P : Phys) (a : SidmArgs) (s : Store) (h : Oid) (u : ℝ) (s' : Store) (h' : Oid)
    (hl : h < s.next) (hp : a.profile = "TNFWC") (he : a.evolving = true) (tc sc : ℝ)
    (htc : a.tc = some tc) (hsc : a.scaling = some sc) (ht : a.tOverTc = none)
    (e : toSidm P a s h u = .ok (s', h')) :
    Evolved P (s.obj h) tc (if (s.obj h).isSubhalo then sc else 1) a.cut a.prob u h s' h' := by
  have hm := (toSidm_cases P a s h u s' h' e).1
  unfold toSidm at e
  simp only [bind, Except.bind, pure, Except.pure, throw, throwThe, MonadExceptOf.throw] at e
  rw [if_neg (by simpa using hm)] at e
  cases h1 : P.rt (s.obj h) with
  | error _ => simp [h1] at e
  | ok rt =>
    rw [h1] at e; dsimp only at e
    cases h2 : P.conc (s.obj h) with
    | error _ => simp [h2] at e
    | ok c =>
      rw [h2] at e; dsimp only at e
      rw [if_neg (by simp [htc]), if_pos hp] at e
      have hts : timescale P a (s.obj h) =
          .ok (tc, some (if (s.obj h).isSubhalo then sc else 1)) := by
        unfold timescale
        rw [ht, htc, hsc]
        dsimp only
        split_ifs <;> rfl
      rw [hts] at e; dsimp only at e
      generalize (if (s.obj h).isSubhalo = true then sc else 1) = l at *
      have hage : newAge P (s.obj h) (some l) = effAge P (s.obj h) l := rfl
      rw [hage] at e
      cases h4 : effAge P (s.obj h) l with
      | error _ => simp [h4] at e
      | ok age =>
        simp only [h4, he, if_true] at e
        refine ⟨age, h4, ?_⟩
        split_ifs at e with c1 c2
        · simp only [Except.ok.injEq, Prod.mk.injEq] at e
          obtain ⟨rfl, rfl⟩ := e
          refine ⟨by simp [Store.attach], fun hc => absurd c1 (not_lt.mpr hc.1), fun _ => rfl⟩
        · simp only [Except.ok.injEq, Prod.mk.injEq] at e
          obtain ⟨rfl, rfl⟩ := e
          refine ⟨by simp [Store.attach], fun hc => absurd c2 (not_lt.mpr hc.2), fun _ => rfl⟩
        · simp only [Except.ok.injEq] at e
          rw [Prod.ext_iff] at e
          obtain ⟨rfl, rfl⟩ := e
          refine ⟨by rw [allocWith_obj], fun _ => ⟨?_, ?_, ?_, ?_, ?_⟩, fun hc => ?_⟩
          · rw [allocWith_id]; exact (ne_of_lt hl).symm
          · rw [allocWith_obj]
            unfold carryInfall newObj
            split_ifs <;> rfl
          · rw [allocWith_obj, allocWith_dict]; simp [kwGet]
          · rw [allocWith_obj, allocWith_dict]; simp [kwGet]
          · intro hsub
            rw [allocWith_obj]
            simp [carryInfall, hsub]
          · exact absurd ⟨not_lt.mp c1, not_lt.mp c2⟩ hc

/-- **C34**. In a conversion with collapse times per bin (no scatter) every halo that is a truncated
NFW halo is converted with the collapse time of the first bin that contains its mass; every other halo
is kept as it is. -/
theorem c34_first_bin (P : Phys) (a : SidmArgs) (bins : List (ℝ × ℝ)) (tcs : List ℝ) (ls : ℝ)
    (s : Store) (r : Realization) (vs : ℕ → ℝ × ℝ) (hl : Live s r.halos) (hn : r.halos.Nodup)
    (hp : a.profile = "TNFWC") (he : a.evolving = true) (s' : Store) (r' : Realization)
    (h : fromTimescale P a bins tcs none ls s r vs = .ok (s', r')) (n : ℕ) (k : Oid)
    (hk : r.halos[n]? = some k) (hm : 0 < (s.obj k).mass) :
    ∃ k', r'.halos[n]? = some k' ∧
      ((s.obj k).mdef ≠ "TNFW" → k' = k) ∧
      ∃ i mu, FirstBin (s.obj k).mass bins i ∧ tcs[i]? = some mu ∧
        ((s.obj k).mdef = "TNFW" → ∃ age,
          effAge P (s.obj k) (if (s.obj k).isSubhalo then (10 : ℝ) ^ ls else 1) = .ok age ∧
          (s'.obj k').note = some (age, age / (10 : ℝ) ^ mu) ∧
          (0.15 ≤ age / (10 : ℝ) ^ mu ∧ (vs n).2 ≤ a.prob → (s'.obj k').cls = .evolving ∧ k' ≠ k) ∧
          (¬ (0.15 ≤ age / (10 : ℝ) ^ mu ∧ (vs n).2 ≤ a.prob) → k' = k)) := by
  obtain ⟨hs, h1, rfl⟩ := fromTimescale_ok P a bins tcs none ls s r vs s' r' h
  obtain ⟨_, _, _, tr⟩ := mapHalos_trace _
    (fun s h i s' h' e => (timescaleStep_step _ _ _ _ _ _ _ _ _ _ _ e).1) _ s s' hs
    (jobs_live s r vs hl) h1
  have hkn : n < r.halos.length := (List.getElem?_eq_some_iff.mp hk).1
  have hkv : r.halos[n] = k := (List.getElem?_eq_some_iff.mp hk).2
  have hjob : (r.halos.zipIdx.map fun p => (p.1, vs p.2))[n]? = some (k, vs n) := by
    simp [hk]
  obtain ⟨k', s₁, s₂, e1, e2, ra, rb, lt⟩ := tr n _ hjob
  have hlk : k < s.next := hl k (List.mem_of_getElem? hk)
  have hfst : (r.halos.zipIdx.map fun p => (p.1, vs p.2)).map Prod.fst = r.halos := by
    rw [List.map_map]
    exact List.zipIdx_map_fst 0 r.halos
  have hbefore : ¬ ∃ p ∈ (r.halos.zipIdx.map fun p => (p.1, vs p.2)).take n, p.1 = k := by
    rintro ⟨p, hp, hpk⟩
    have : k ∈ r.halos.take n := by
      rw [← hfst, ← List.map_take, ← hpk]; exact List.mem_map_of_mem hp
    obtain ⟨j, hj, hjk⟩ := List.mem_iff_getElem.mp this
    simp only [List.getElem_take] at hjk
    simp only [List.length_take, lt_min_iff] at hj
    have := (List.Nodup.getElem_inj_iff hn).mp (hjk.trans hkv.symm)
    omega
  have hafter : ¬ ∃ p ∈ (r.halos.zipIdx.map fun p => (p.1, vs p.2)).drop (n + 1), p.1 = k := by
    rintro ⟨p, hp, hpk⟩
    have : k ∈ r.halos.drop (n + 1) := by
      rw [← hfst, ← List.map_drop, ← hpk]; exact List.mem_map_of_mem hp
    obtain ⟨j, hj, hjk⟩ := List.mem_iff_getElem.mp this
    simp only [List.getElem_drop] at hjk
    have := (List.Nodup.getElem_inj_iff hn).mp (hjk.trans hkv.symm)
    omega
  have hsame : s₁.obj k = s.obj k := ra.same k hlk hbefore
  refine ⟨k', e1, ?_⟩
  obtain ⟨i, tc, f1, f2, f3⟩ := timescaleStep_ok P a bins tcs none ls s₁ k (vs n) s₂ k' e2
  rw [hsame] at f1 f3
  have hmu : ∃ mu, tcs[i]? = some mu ∧ tc = (10 : ℝ) ^ mu := by
    simp only [drawTimescale, idx, bind, Except.bind, pure, Except.pure] at f2
    cases h2 : tcs[i]? with
    | none => simp [h2] at f2
    | some mu =>
      simp only [h2, Except.ok.injEq] at f2
      exact ⟨mu, rfl, f2.symm⟩
  obtain ⟨mu, hmu, rfl⟩ := hmu
  refine ⟨fun hnt => ?_, i, mu, (findBin_spec _ hm bins).1 i |>.mp f1, hmu, fun ht => ?_⟩
  · rcases f3 with f3 | f3
    · exact absurd f3.1 hnt
    · exact f3.2.2.2
  · rcases f3 with ⟨_, f3⟩ | f3
    · have hl₁ : k < s₁.next := lt_of_lt_of_le hlk ra.le
      obtain ⟨age, g1, g2, g3, g4⟩ := (c34_single P { a with
        tc := some ((10 : ℝ) ^ mu)
        scaling := some ((10 : ℝ) ^ ls)
        cut := 0.15
        tOverTc := none } s₁ k (vs n).2 s₂ k' hl₁ hp he _ _ rfl rfl rfl f3).age
      rw [hsame] at g1
      have hk' : s'.obj k' = s₂.obj k' := by
        refine rb.same k' lt ?_
        by_cases hc : k' = k
        · rw [hc]; exact hafter
        · rintro ⟨p, hp, hpk⟩
          have hpl := jobs_live s r vs hl p (List.mem_of_mem_drop hp)
          obtain ⟨_, ⟨rfl, _⟩ | ⟨_, _, _, _, e⟩⟩ := toSidm_cases _ _ _ _ _ _ _ f3
          · exact hc rfl
          · rw [Prod.ext_iff] at e
            have : k' = s₁.next := by
              have := e.2
              rwa [allocWith_id] at this
            have h3 := ra.le
            rw [hpk, this] at hpl
            exact absurd hpl (not_lt.mpr h3)
      refine ⟨age, g1, by rw [hk']; exact g2, fun hc => ?_, g4⟩
      have := g3 hc
      rw [hk']
      exact ⟨this.2.1, this.1⟩
    · exact absurd ht f3.1

theorem toSidm_error_mdef (P : Phys) (a : SidmArgs) (s : Store) (h : Oid) (u : ℝ)
    (hm : (s.obj h).mdef ≠ "TNFW") : toSidm P a s h u = .error .assertionError := by
  unfold toSidm
  simp only [bind, Except.bind, throw, throwThe, MonadExceptOf.throw]
  rw [if_pos hm]

/-- **C34**, disagreement: the conversions select halos with mass definition `TNFW` or `NFW`, but the
routine they call refuses the latter, so any realization with an untruncated NFW halo raises. -/
theorem c34_nfw_refused (P : Phys) (a : SidmArgs) (bins : List (ℝ × ℝ)) (ls : ℝ) (s : Store)
    (r : Realization) (hl : Live s r.halos) (h : Oid) (hh : h ∈ r.halos)
    (hm : (s.obj h).mdef = "NFW") :
    (∀ tcs sigmas vs, ∃ e, fromTimescale P a bins tcs sigmas ls s r vs = .error e) ∧
    (∀ sigmas time vs, ∃ e, fromCrossSection P a bins sigmas time ls s r vs = .error e) := by
  have hm' : ∀ s' T, Reach T s s' → (s'.obj h).mdef = "NFW" := by
    intro s' T hr
    rw [hr.halo (hl h hh)]; exact hm
  constructor
  · intro tcs sigmas vs
    cases e : fromTimescale P a bins tcs sigmas ls s r vs with
    | error er => exact ⟨er, rfl⟩
    | ok q =>
      obtain ⟨s', r'⟩ := q
      obtain ⟨hs, h1, rfl⟩ := fromTimescale_ok _ _ _ _ _ _ _ _ _ _ _ e
      obtain ⟨i, hi⟩ := mem_jobs r vs h hh
      obtain ⟨n, hn⟩ := List.getElem?_of_mem hi
      obtain ⟨_, _, _, tr⟩ := mapHalos_trace _
        (fun s h i s' h' e => (timescaleStep_step _ _ _ _ _ _ _ _ _ _ _ e).1) _ s s' hs
        (jobs_live s r vs hl) h1
      obtain ⟨h', a', b', _, f, ra, _⟩ := tr n _ hn
      obtain ⟨_, _, _, _, f | f⟩ := timescaleStep_ok _ _ _ _ _ _ _ _ _ _ _ f
      · have := f.1
        dsimp only at this
        rw [hm' _ _ ra] at this
        simp at this
      · exact absurd (hm' _ _ ra) f.2.1
  · intro sigmas time vs
    cases e : fromCrossSection P a bins sigmas time ls s r vs with
    | error er => exact ⟨er, rfl⟩
    | ok q =>
      obtain ⟨s', r'⟩ := q
      obtain ⟨hs, h1, rfl⟩ := fromCrossSection_ok _ _ _ _ _ _ _ _ _ _ _ e
      obtain ⟨i, hi⟩ := mem_jobs r vs h hh
      obtain ⟨n, hn⟩ := List.getElem?_of_mem hi
      obtain ⟨_, _, _, tr⟩ := mapHalos_trace _
        (fun s h i s' h' e => (crossSectionStep_step _ _ _ _ _ _ _ _ _ _ _ e).1) _ s s' hs
        (jobs_live s r vs hl) h1
      obtain ⟨h', a', b', _, f, ra, _⟩ := tr n _ hn
      obtain ⟨_, _, _, _, _, _, f | f⟩ := crossSectionStep_ok _ _ _ _ _ _ _ _ _ _ _ f
      · have := f.1
        dsimp only at this
        rw [hm' _ _ ra] at this
        simp at this
      · exact absurd (hm' _ _ ra) f.2.1

/-- **C34**, disagreement: the conversion from cross sections reads the NFW parameters of every halo
before it looks at the profile, so a halo without NFW parameters (a point mass, say) makes it raise,
while the conversion from collapse times keeps such halos. -/
theorem c34_cross_section_needs_nfw (P : Phys) (a : SidmArgs) (bins : List (ℝ × ℝ)) (sigmas time)
    (ls : ℝ) (s : Store) (r : Realization) (vs : ℕ → ℝ) (hl : Live s r.halos) (h : Oid)
    (hh : h ∈ r.halos) (hn : ∀ note, ∃ e, P.nfw { s.obj h with note := note } = .error e) :
    ∃ e, fromCrossSection P a bins sigmas time ls s r vs = .error e := by
  cases e : fromCrossSection P a bins sigmas time ls s r vs with
  | error er => exact ⟨er, rfl⟩
  | ok q =>
    obtain ⟨s', r'⟩ := q
    obtain ⟨hs, h1, rfl⟩ := fromCrossSection_ok _ _ _ _ _ _ _ _ _ _ _ e
    obtain ⟨i, hi⟩ := mem_jobs r vs h hh
    obtain ⟨n, hn'⟩ := List.getElem?_of_mem hi
    obtain ⟨_, _, _, tr⟩ := mapHalos_trace _
      (fun s h i s' h' e => (crossSectionStep_step _ _ _ _ _ _ _ _ _ _ _ e).1) _ s s' hs
      (jobs_live s r vs hl) h1
    obtain ⟨h', a', b', _, f, ra, _⟩ := tr n _ hn'
    obtain ⟨_, _, m, _, _, f, _⟩ := crossSectionStep_ok _ _ _ _ _ _ _ _ _ _ _ f
    dsimp only at f
    rw [ra.core h (hl h hh)] at f
    obtain ⟨er, he⟩ := hn (a'.obj h).note
    rw [he] at f
    simp at f

theorem toSidm_note (P : Phys) (a : SidmArgs) (s : Store) (h : Oid) (u : ℝ) (s' : Store) (h' : Oid)
    (hp : a.profile = "TNFWC") (t : ℝ) (ht : a.tOverTc = some t)
    (e : toSidm P a s h u = .ok (s', h')) :
    ∃ age age', Batch.haloAge P.A (s.obj h).z 10 = .ok age ∧ effAge P (s.obj h) 1 = .ok age' ∧
      (s'.obj h').note = some (age', age' / (age / t)) := by
  have hm := (toSidm_cases P a s h u s' h' e).1
  unfold toSidm at e
  simp only [bind, Except.bind, pure, Except.pure, throw, throwThe, MonadExceptOf.throw] at e
  rw [if_neg (by simpa using hm)] at e
  cases h1 : P.rt (s.obj h) with
  | error _ => simp [h1] at e
  | ok rt =>
    rw [h1] at e; dsimp only at e
    cases h2 : P.conc (s.obj h) with
    | error _ => simp [h2] at e
    | ok c =>
      rw [h2] at e; dsimp only at e
      rw [if_neg (by simp [ht]), if_pos hp] at e
      cases h3 : Batch.haloAge P.A (s.obj h).z 10 with
      | error _ => simp [timescale, ht, h3, bind, Except.bind] at e
      | ok age =>
        have hts : timescale P a (s.obj h) = .ok (age / t, some 1) := by
          simp [timescale, ht, h3, bind, Except.bind, pure, Except.pure]
        rw [hts] at e; dsimp only at e
        have hage : newAge P (s.obj h) (some 1) = effAge P (s.obj h) 1 := rfl
        rw [hage] at e
        cases h4 : effAge P (s.obj h) 1 with
        | error _ => simp [h4] at e
        | ok age' =>
          simp only [h4] at e
          refine ⟨age, age', rfl, rfl, ?_⟩
          split_ifs at e
          · simp only [Except.ok.injEq, Prod.mk.injEq] at e
            obtain ⟨rfl, rfl⟩ := e
            simp [Store.attach]
          · simp only [Except.ok.injEq, Prod.mk.injEq] at e
            obtain ⟨rfl, rfl⟩ := e
            simp [Store.attach]
          · simp only [Except.ok.injEq] at e
            rw [Prod.ext_iff] at e
            obtain ⟨rfl, rfl⟩ := e
            rw [allocWith_obj]
          · simp only [Except.ok.injEq, Prod.mk.injEq] at e
            obtain ⟨rfl, rfl⟩ := e
            simp [Store.attach]
          · simp only [Except.ok.injEq, Prod.mk.injEq] at e
            obtain ⟨rfl, rfl⟩ := e
            simp [Store.attach]
          · simp only [Except.ok.injEq] at e
            rw [Prod.ext_iff] at e
            obtain ⟨rfl, rfl⟩ := e
            rw [allocWith_obj]

/-- **C34**. Asking for a given age in units of the collapse time: a field halo, or a subhalo that was
accreted at or before the redshift where it is seen, gets exactly the requested ratio. -/
theorem c34_requested_ratio (P : Phys) (a : SidmArgs) (s : Store) (h : Oid) (u : ℝ) (s' : Store)
    (h' : Oid) (hA : ∀ a b, 0 ≤ a → a < b → P.A.age b < P.A.age a) (hz0 : 0 ≤ (s.obj h).z)
    (hz : (s.obj h).z < 10) (hi : (s.obj h).isSubhalo = true → (s.obj h).z ≤ P.zEval (s.obj h))
    (hp : a.profile = "TNFWC") (t : ℝ) (ht : a.tOverTc = some t)
    (e : toSidm P a s h u = .ok (s', h')) : ∃ age, (s'.obj h').note = some (age, t) := by
  obtain ⟨age, age', h1, h2, h3⟩ := toSidm_note P a s h u s' h' hp t ht e
  obtain ⟨T, hT, hm, hs⟩ := ageInterp_spec P.A (fun x y hx hxy => by
    rcases hxy.eq_or_lt with rfl | hlt
    · exact le_refl _
    · exact (hA x y hx hlt).le)
  have hs := hs hA
  generalize hz' : (s.obj h).z = z at *
  have e1 : ∀ x y, 0 ≤ x → x ≤ y → y ≤ 20 → Batch.haloAge P.A x y = .ok (T x - T y) := by
    intro x y hx hxy hy
    rw [haloAge_eq, hT y (hx.trans hxy) hy, hT x hx (hxy.trans hy)]
    simp [not_lt.mpr hxy]
  have ea : age = T z - T 10 := by
    rw [e1 z 10 hz0 hz.le (by norm_num)] at h1
    simpa using h1.symm
  have eb : age' = T z - T 10 := by
    unfold effAge at h2
    rw [hz'] at h2
    split_ifs at h2 with hsub
    · have hzi := hi hsub
      unfold LensCosmo.effectiveAge at h2
      simp only [bind, Except.bind, pure, Except.pure] at h2
      set w := (if P.zEval (s.obj h) > 10 then 10 else P.zEval (s.obj h)) with hw
      have hw10 : w ≤ 10 := by rw [hw]; split_ifs <;> linarith
      have hzw : z ≤ w := by rw [hw]; split_ifs <;> linarith
      rw [e1 w 10 (by linarith) hw10 (by norm_num), e1 z w hz0 hzw (by linarith)] at h2
      simp only [Except.ok.injEq] at h2
      linarith
    · rw [e1 z 10 hz0 hz.le (by norm_num)] at h2
      simpa using h2.symm
  have hpos : 0 < T z - T 10 := by
    have := hs z 10 hz0 hz (by norm_num)
    linarith
  refine ⟨age', ?_⟩
  rw [h3, ea, eb]
  congr 2
  rcases eq_or_ne t 0 with rfl | ht0
  · simp
  · field_simp

/-- **C34**, disagreement: a subhalo whose infall redshift lies below its own redshift (which the
simplest infall model assigns to every subhalo) gets a larger ratio than the one asked for. -/
theorem c34_requested_ratio_exceeded (P : Phys) (a : SidmArgs) (s : Store) (h : Oid) (u : ℝ)
    (s' : Store) (h' : Oid) (hA : ∀ a b, 0 ≤ a → a < b → P.A.age b < P.A.age a)
    (hsub : (s.obj h).isSubhalo = true) (hz0 : 0 ≤ P.zEval (s.obj h))
    (hi : P.zEval (s.obj h) < (s.obj h).z) (hz : (s.obj h).z < 10)
    (hp : a.profile = "TNFWC") (t : ℝ) (ht0 : 0 < t) (ht : a.tOverTc = some t)
    (e : toSidm P a s h u = .ok (s', h')) :
    ∃ age ratio, (s'.obj h').note = some (age, ratio) ∧ t < ratio := by
  obtain ⟨age, age', h1, h2, h3⟩ := toSidm_note P a s h u s' h' hp t ht e
  obtain ⟨T, hT, hm, hs⟩ := ageInterp_spec P.A (fun x y hx hxy => by
    rcases hxy.eq_or_lt with rfl | hlt
    · exact le_refl _
    · exact (hA x y hx hlt).le)
  have hs := hs hA
  generalize hz' : (s.obj h).z = z at *
  generalize hzi' : P.zEval (s.obj h) = zi at *
  have e1 : ∀ x y, 0 ≤ x → x ≤ y → y ≤ 20 → Batch.haloAge P.A x y = .ok (T x - T y) := by
    intro x y hx hxy hy
    rw [haloAge_eq, hT y (hx.trans hxy) hy, hT x hx (hxy.trans hy)]
    simp [not_lt.mpr hxy]
  have ea : age = T z - T 10 := by
    rw [e1 z 10 (by linarith) hz.le (by norm_num)] at h1
    simpa using h1.symm
  have eb : age' = T zi - T 10 := by
    unfold effAge LensCosmo.effectiveAge at h2
    rw [hz', hzi', if_pos hsub] at h2
    have e2 : Batch.haloAge P.A z zi = .ok 0 := by
      rw [haloAge_eq, hT zi hz0 (by linarith)]
      simp [hi]
    simp only [bind, Except.bind, pure, Except.pure] at h2
    rw [if_neg (by linarith), e1 zi 10 hz0 (by linarith) (by norm_num), e2] at h2
    simp only [mul_zero, add_zero, Except.ok.injEq] at h2
    exact h2.symm
  have hpos : 0 < T z - T 10 := by
    have := hs z 10 (by linarith) hz (by norm_num)
    linarith
  have hlt : T z - T 10 < T zi - T 10 := by
    have := hs zi z hz0 hi (by linarith)
    linarith
  refine ⟨age', _, h3, ?_⟩
  rw [ea, eb, div_div_eq_mul_div, lt_div_iff₀ hpos]
  nlinarith

/-- **C34**, disagreement: the composite profile needs the collapse time itself; asking for a ratio
raises. -/
theorem c34_composite_ratio (P : Phys) (a : SidmArgs) (s : Store) (h : Oid) (u : ℝ)
    (hp : a.profile = "CC_COMPOSITE") (htc : a.tc = none) (ht : a.tOverTc ≠ none) :
    ∃ e, toSidm P a s h u = .error e := by
  cases e : toSidm P a s h u with
  | error er => exact ⟨er, rfl⟩
  | ok q =>
    exfalso
    have hm := (toSidm_cases P a s h u q.1 q.2 e).1
    unfold toSidm at e
    simp only [bind, Except.bind, pure, Except.pure, throw, throwThe, MonadExceptOf.throw] at e
    rw [if_neg (by simpa using hm)] at e
    cases h1 : P.rt (s.obj h) with
    | error _ => simp [h1] at e
    | ok rt =>
      rw [h1] at e; dsimp only at e
      cases h2 : P.conc (s.obj h) with
      | error _ => simp [h2] at e
      | ok c =>
        rw [h2] at e; dsimp only at e
        rw [if_neg (by simp [ht]), if_neg (by simp [hp]), if_pos hp] at e
        cases h3 : compositeArgs P a (s.obj h) rt with
        | error _ => simp [h3] at e
        | ok q' =>
          simp only [h3, htc] at e
          split at e <;> simp at e

/-! ## C35: selection of core-collapsed halos -/

/-- The halo is in the first fitting bin of the list and the variate does not exceed the probability
of that bin. -/
def Drawn (o : Obj) (u : ℝ) (bins : List (ℝ × ℝ)) (ps : List (Obj → ℝ)) : Prop :=
  ∃ j p, FirstBin o.mass bins j ∧ ps[j]? = some p ∧ u ≤ p o

theorem binAccepts_iff (o : Obj) (u : ℝ) (bins : List (ℝ × ℝ)) (ps : List (Obj → ℝ))
    (hlen : bins.length = ps.length) : binAccepts o u bins ps = true ↔ Drawn o u bins ps := by
  induction bins generalizing ps with
  | nil => simp [binAccepts, Drawn, FirstBin]
  | cons b bs ih =>
    cases ps with
    | nil => simp at hlen
    | cons p ps =>
      obtain ⟨lo, hi⟩ := b
      unfold binAccepts
      by_cases hb : InBin o.mass (lo, hi)
      · rw [if_pos (show o.mass ≥ (10 : ℝ) ^ lo ∧ o.mass < (10 : ℝ) ^ hi from hb)]
        simp only [decide_eq_true_eq]
        constructor
        · intro hu
          exact ⟨0, p, ⟨⟨(lo, hi), rfl, hb⟩, by simp⟩, rfl, hu⟩
        · rintro ⟨j, q, ⟨_, hj⟩, hq, hu⟩
          cases j with
          | zero =>
            simp only [List.getElem?_cons_zero, Option.some.injEq] at hq
            rw [hq]; exact hu
          | succ j => exact absurd hb (hj 0 (Nat.succ_pos _) _ rfl)
      · rw [if_neg (show ¬ (o.mass ≥ (10 : ℝ) ^ lo ∧ o.mass < (10 : ℝ) ^ hi) from hb), ih ps (by simpa using hlen)]
        constructor
        · rintro ⟨j, q, ⟨⟨c, hc1, hc2⟩, hj⟩, hq, hu⟩
          refine ⟨j + 1, q, ⟨⟨c, by simpa using hc1, hc2⟩, ?_⟩, by simpa using hq, hu⟩
          intro k hk c' hc'
          cases k with
          | zero =>
            simp only [List.getElem?_cons_zero, Option.some.injEq] at hc'
            subst hc'; exact hb
          | succ k => exact hj k (by omega) c' (by simpa using hc')
        · rintro ⟨j, q, ⟨⟨c, hc1, hc2⟩, hj⟩, hq, hu⟩
          cases j with
          | zero =>
            simp only [List.getElem?_cons_zero, Option.some.injEq] at hc1
            subst hc1; exact absurd hc2 hb
          | succ j =>
            exact ⟨j, q, ⟨⟨c, by simpa using hc1, hc2⟩, fun k hk c' hc' =>
              hj (k + 1) (by omega) c' (by simpa using hc')⟩, by simpa using hq, hu⟩

/-- **C35**. The selected indexes are strictly increasing, and an index is selected if and only if it
is the index of a truncated NFW halo which is drawn in the first fitting mass bin of its kind. -/
theorem c35_selected (s : Store) (r : Realization) (sub field : List (ℝ × ℝ))
    (pSub pField : List (Obj → ℝ)) (us : ℕ → ℝ) (l : List ℕ)
    (h : coreCollapseByMass s r sub field pSub pField us = .ok l) :
    l.Pairwise (· < ·) ∧ ∀ i, i ∈ l ↔ ∃ k, r.halos[i]? = some k ∧ (s.obj k).mdef = "TNFW" ∧
      (if (s.obj k).isSubhalo then Drawn (s.obj k) (us i) sub pSub
        else Drawn (s.obj k) (us i) field pField) := by
  unfold coreCollapseByMass at h
  split_ifs at h with h1 h2
  push Not at h1 h2
  simp only [Except.ok.injEq] at h
  subst h
  have gen : ∀ (hs : List Oid) (n : ℕ),
      (collapseLoop s sub field pSub pField n
        ((hs.zipIdx n).map fun p => (p.1, us p.2))).Pairwise (· < ·) ∧
      ∀ i, i ∈ collapseLoop s sub field pSub pField n ((hs.zipIdx n).map fun p => (p.1, us p.2)) ↔
        ∃ j k, i = n + j ∧ hs[j]? = some k ∧ (s.obj k).mdef = "TNFW" ∧
        (if (s.obj k).isSubhalo then Drawn (s.obj k) (us i) sub pSub
        else Drawn (s.obj k) (us i) field pField) := by
    intro hs
    induction hs with
    | nil => intro n; simp [collapseLoop]
    | cons k ks ih =>
      intro n
      obtain ⟨ih1, ih2⟩ := ih (n + 1)
      have later : ∀ i ∈ collapseLoop s sub field pSub pField (n + 1)
          ((ks.zipIdx (n + 1)).map fun p => (p.1, us p.2)), n < i := by
        intro i hi
        obtain ⟨j, _, rfl, _⟩ := (ih2 i).mp hi
        omega
      simp only [List.zipIdx_cons, List.map_cons, collapseLoop]
      have acc : (if (s.obj k).mdef ≠ "TNFW" then false else
          if (s.obj k).isSubhalo = true then binAccepts (s.obj k) (us n) sub pSub
          else binAccepts (s.obj k) (us n) field pField) = true ↔ (s.obj k).mdef = "TNFW" ∧
        (if (s.obj k).isSubhalo then Drawn (s.obj k) (us n) sub pSub
        else Drawn (s.obj k) (us n) field pField) := by
        by_cases c1 : (s.obj k).mdef = "TNFW"
        · rw [if_neg (by simp [c1])]
          split_ifs with c2
          · rw [binAccepts_iff _ _ _ _ h1]; simp [c1]
          · rw [binAccepts_iff _ _ _ _ h2]; simp [c1]
        · rw [if_pos c1]; simp [c1]
      have tail : ∀ i, (∃ j k', i = n + j ∧ (k :: ks)[j]? = some k' ∧ (s.obj k').mdef = "TNFW" ∧
          (if (s.obj k').isSubhalo then Drawn (s.obj k') (us i) sub pSub
          else Drawn (s.obj k') (us i) field pField)) ↔
          (i = n ∧ (s.obj k).mdef = "TNFW" ∧
            (if (s.obj k).isSubhalo then Drawn (s.obj k) (us n) sub pSub
            else Drawn (s.obj k) (us n) field pField)) ∨
          i ∈ collapseLoop s sub field pSub pField (n + 1)
            ((ks.zipIdx (n + 1)).map fun p => (p.1, us p.2)) := by
        intro i
        rw [ih2 i]
        constructor
        · rintro ⟨j, k', rfl, e, h3, h4⟩
          cases j with
          | zero =>
            simp only [List.getElem?_cons_zero, Option.some.injEq] at e
            subst e
            exact Or.inl ⟨rfl, h3, h4⟩
          | succ j => exact Or.inr ⟨j, k', by ring, by simpa using e, h3, h4⟩
        · rintro (⟨rfl, h3, h4⟩ | ⟨j, k', rfl, e, h3, h4⟩)
          · exact ⟨0, k, rfl, rfl, h3, h4⟩
          · exact ⟨j + 1, k', by ring, by simpa using e, h3, h4⟩
      generalize (if (s.obj k).mdef ≠ "TNFW" then false else
          if (s.obj k).isSubhalo = true then binAccepts (s.obj k) (us n) sub pSub
          else binAccepts (s.obj k) (us n) field pField) = c at acc ⊢
      cases c with
      | true =>
        refine ⟨List.pairwise_cons.mpr ⟨later, ih1⟩, fun i => ?_⟩
        rw [tail i]
        simp only [if_true, List.mem_cons]
        have := acc.mp rfl
        simp only [this, and_true]
      | false =>
        refine ⟨ih1, fun i => ?_⟩
        rw [tail i]
        have : ¬ ((s.obj k).mdef = "TNFW" ∧ (if (s.obj k).isSubhalo then Drawn (s.obj k) (us n) sub pSub
            else Drawn (s.obj k) (us n) field pField)) := fun hc => by simpa using acc.mpr hc
        simp only [this, and_false, false_or]
        rfl
  obtain ⟨g1, g2⟩ := gen r.halos 0
  refine ⟨g1, fun i => ?_⟩
  rw [g2 i]
  constructor
  · rintro ⟨j, k, rfl, h3⟩
    simp only [zero_add] at h3 ⊢
    exact ⟨k, h3⟩
  · rintro ⟨k, h3⟩
    exact ⟨i, k, by simp, h3⟩

/-- **C35**. With probability 1 and variates at most 1, the selection is exactly the truncated NFW
halos whose mass is in some bin of their kind; with probability 0 and positive variates it is empty. -/
theorem c35_extremes (s : Store) (r : Realization) (sub field : List (ℝ × ℝ)) (us : ℕ → ℝ)
    (h0 : ∀ i, 0 < us i) (h1 : ∀ i, us i ≤ 1) :
    (∃ l, coreCollapseByMass s r sub field (sub.map fun _ _ => 1) (field.map fun _ _ => 1) us = .ok l ∧
      ∀ i, i ∈ l ↔ ∃ k, r.halos[i]? = some k ∧ (s.obj k).mdef = "TNFW" ∧
        ∃ b ∈ (if (s.obj k).isSubhalo then sub else field), InBin (s.obj k).mass b) ∧
    coreCollapseByMass s r sub field (sub.map fun _ _ => 0) (field.map fun _ _ => 0) us = .ok [] := by
  have first : ∀ (m : ℝ) (bins : List (ℝ × ℝ)), (∃ b ∈ bins, InBin m b) → ∃ j, FirstBin m bins j := by
    intro m bins
    induction bins with
    | nil => simp
    | cons b bs ih =>
      intro hb
      by_cases hc : InBin m b
      · exact ⟨0, ⟨b, rfl, hc⟩, by simp⟩
      · obtain ⟨j, ⟨c, hc1, hc2⟩, hj⟩ := ih (by simpa [hc] using hb)
        refine ⟨j + 1, ⟨c, by simpa using hc1, hc2⟩, fun k hk c' hc' => ?_⟩
        cases k with
        | zero =>
          simp only [List.getElem?_cons_zero, Option.some.injEq] at hc'
          subst hc'; exact hc
        | succ k => exact hj k (by omega) c' (by simpa using hc')
  have some : ∀ (pSub pField : List (Obj → ℝ)), pSub.length = sub.length →
      pField.length = field.length →
      ∃ l, coreCollapseByMass s r sub field pSub pField us = .ok l := by
    intro pSub pField e1 e2
    unfold coreCollapseByMass
    rw [if_neg (by simp [e1]), if_neg (by simp [e2])]
    exact ⟨_, rfl⟩
  constructor
  · obtain ⟨l, hl⟩ := some (sub.map fun _ _ => 1) (field.map fun _ _ => 1) (by simp) (by simp)
    refine ⟨l, hl, fun i => ?_⟩
    rw [(c35_selected _ _ _ _ _ _ _ _ hl).2 i]
    have key : ∀ (o : Obj) (bins : List (ℝ × ℝ)),
        Drawn o (us i) bins (bins.map fun _ _ => 1) ↔ ∃ b ∈ bins, InBin o.mass b := by
      intro o bins
      constructor
      · rintro ⟨j, p, ⟨⟨b, hb1, hb2⟩, _⟩, _⟩
        exact ⟨b, List.mem_of_getElem? hb1, hb2⟩
      · intro hb
        obtain ⟨j, hj⟩ := first _ _ hb
        obtain ⟨⟨b, hb1, hb2⟩, hj2⟩ := hj
        exact ⟨j, fun _ => 1, ⟨⟨b, hb1, hb2⟩, hj2⟩,
          by rw [List.getElem?_map, hb1]; rfl, h1 i⟩
    constructor
    · rintro ⟨k, e1, e2, e3⟩
      refine ⟨k, e1, e2, ?_⟩
      split_ifs at e3 ⊢ <;> exact (key _ _).mp e3
    · rintro ⟨k, e1, e2, e3⟩
      refine ⟨k, e1, e2, ?_⟩
      split_ifs at e3 ⊢ <;> exact (key _ _).mpr e3
  · obtain ⟨l, hl⟩ := some (sub.map fun _ _ => 0) (field.map fun _ _ => 0) (by simp) (by simp)
    rw [hl]
    congr 1
    rw [List.eq_nil_iff_forall_not_mem]
    intro i hi
    obtain ⟨k, _, _, h3⟩ := ((c35_selected _ _ _ _ _ _ _ _ hl).2 i).mp hi
    have key : ∀ (o : Obj) (bins : List (ℝ × ℝ)),
        ¬ Drawn o (us i) bins (bins.map fun _ _ => 0) := by
      rintro o bins ⟨j, p, ⟨⟨b, hb1, _⟩, _⟩, hp, hu⟩
      simp only [List.getElem?_map, hb1, Option.map_some, Option.some.injEq] at hp
      subst hp
      exact absurd hu (not_le.mpr (h0 i))
    split_ifs at h3 <;> exact key _ _ h3

/-! ## C36: replacing halos by index -/

theorem toSidm_untimed (P : Phys) (a : SidmArgs) (s : Store) (h : Oid) (u : ℝ) (s' : Store) (h' : Oid)
    (htc : a.tc = none) (ht : a.tOverTc = none) (e : toSidm P a s h u = .ok (s', h')) :
    ∃ cls d, (s', h') = s.allocWith (carryInfall P (s.obj h) (newObj P (s.obj h) cls d)) d ∧
      (a.profile = "TNFWC" → cls = .parametric ∧ ∃ x, a.xCore = some x ∧ kwGet d "x_core_halo" = .ok x) ∧
      (a.profile = "CC_COMPOSITE" → cls = if a.gammaInner = -1 then .compositeBH else .composite) := by
  have hm := (toSidm_cases P a s h u s' h' e).1
  unfold toSidm at e
  simp only [bind, Except.bind, pure, Except.pure, throw, throwThe, MonadExceptOf.throw] at e
  rw [if_neg (by simpa using hm)] at e
  cases h1 : P.rt (s.obj h) with
  | error _ => simp [h1] at e
  | ok rt =>
    rw [h1] at e; dsimp only at e
    cases h2 : P.conc (s.obj h) with
    | error _ => simp [h2] at e
    | ok c =>
      rw [h2] at e; dsimp only at e
      rw [if_pos ⟨htc, ht⟩] at e
      by_cases c2 : a.profile = "CC_COMPOSITE"
      · rw [if_pos c2] at e
        unfold compositeArgs at e
        simp only [bind, Except.bind, pure, Except.pure] at e
        cases h3 : P.nfw (s.obj h) with
        | error _ => simp [h3] at e
        | ok n =>
          rw [h3] at e
          dsimp only at e
          cases h4 : P.logDerivInv a.slopeMatch n.2.1 rt with
          | error _ => simp [h4] at e
          | ok rm =>
            rw [h4] at e
            dsimp only at e
            simp only [Except.ok.injEq] at e
            refine ⟨_, _, e.symm, fun hc => by simp [c2] at hc, fun _ => ?_⟩
            split_ifs <;> rfl
      · rw [if_neg c2] at e
        by_cases c3 : a.profile = "TNFWC"
        · rw [if_pos c3] at e
          cases hx : a.xCore with
          | none => simp [hx] at e
          | some x =>
            simp only [hx, Except.ok.injEq] at e
            exact ⟨_, _, e.symm, fun _ => ⟨rfl, x, rfl, by simp [kwGet]⟩, fun hc => absurd hc c2⟩
        · rw [if_neg c3] at e; simp at e

/-- The mass definition of the halos a profile name stands for. -/
def profileMdef : String → String
  | "GNFW" => "PSEUDO_DPL"
  | "CC_COMPOSITE" => "CORE_COLLAPSED"
  | p => p

/-- What the replacement of one halo amounts to. -/
structure Replaced (P : Phys) (profile : String) (o : Obj) (next : Oid) (s' : Store) (h' : Oid) :
    Prop where
  new : h' = next
  mdef : (s'.obj h').mdef = profileMdef profile
  kept : profile = "TNFWC" ∨ profile = "CC_COMPOSITE" → o.isSubhalo = true →
    (s'.obj h').zInfall = some (P.zEval o) ∧ (s'.obj h').hasBound = true ∧
      (s'.obj h').boundMass = o.boundMass
  lost : profile = "GNFW" ∨ profile = "SPL_CORE" →
    (s'.obj h').zInfall = none ∧ (s'.obj h').hasBound = false

theorem newObj_mdef (P : Phys) (o : Obj) (cls : Cls) (d : Kw) : (newObj P o cls d).mdef = cls.mdef := rfl

theorem carry_mdef (P : Phys) (o : Obj) (cls : Cls) (d : Kw) :
    (carryInfall P o (newObj P o cls d)).mdef = cls.mdef := by
  unfold carryInfall; split_ifs <;> rfl

theorem collapseHalo_ok (P : Phys) (profile : String) (kw : Kw) (s : Store) (h : Oid) (s' : Store)
    (h' : Oid) (hp : profile = "GNFW" ∨ profile = "SPL_CORE" ∨ profile = "TNFWC" ∨
      profile = "CC_COMPOSITE") (e : collapseHalo P profile kw s h = .ok (s', h')) :
    Step s h s' h' ∧ SameHalo (s.obj h).toHalo (s'.obj h').toHalo ∧
    Replaced P profile (s.obj h) s.next s' h' := by
  have sub : ∀ (cls : Cls) (d : Kw), (s.obj h).isSubhalo = true →
      (carryInfall P (s.obj h) (newObj P (s.obj h) cls d)).zInfall = some (P.zEval (s.obj h)) ∧
      (carryInfall P (s.obj h) (newObj P (s.obj h) cls d)).hasBound = true ∧
      (carryInfall P (s.obj h) (newObj P (s.obj h) cls d)).boundMass = (s.obj h).boundMass := by
    intro cls d hs
    unfold carryInfall
    rw [if_pos hs]
    exact ⟨rfl, rfl, rfl⟩
  unfold collapseHalo at e
  by_cases c1 : profile = "TNFWC"
  · rw [if_pos c1] at e
    simp only [bind, Except.bind] at e
    cases h1 : kwGet kw "x_core_halo" with
    | error _ => simp [h1] at e
    | ok x =>
      rw [h1] at e
      dsimp only at e
      refine ⟨toSidm_step _ _ _ _ _ _ _ e, toSidm_same _ _ _ _ _ _ _ e, ?_⟩
      obtain ⟨cls, d, e2, hc, _⟩ := toSidm_untimed _ _ _ _ _ _ _ rfl rfl e
      obtain ⟨rfl, _⟩ := hc c1
      rw [Prod.ext_iff] at e2
      obtain ⟨rfl, rfl⟩ := e2
      refine ⟨allocWith_id _ _ _, ?_, fun _ hs => ?_, fun hl => by simp [c1] at hl⟩
      · rw [allocWith_obj, c1]; exact carry_mdef P _ _ _
      · rw [allocWith_obj]; exact sub _ _ hs
  rw [if_neg c1] at e
  by_cases c2 : profile = "CC_COMPOSITE"
  · rw [if_pos c2] at e
    simp only [bind, Except.bind] at e
    cases h1 : kwGet kw "gamma_inner" with
    | error _ => simp [h1] at e
    | ok x =>
      cases h2 : kwGet kw "scale_match_r" with
      | error _ => simp [h1, h2] at e
      | ok y =>
        cases h3 : kwGet kw "log_slope_match" with
        | error _ => simp [h1, h2, h3] at e
        | ok w =>
          rw [h1, h2, h3] at e
          dsimp only at e
          refine ⟨toSidm_step _ _ _ _ _ _ _ e, toSidm_same _ _ _ _ _ _ _ e, ?_⟩
          obtain ⟨cls, d, e2, _, hc⟩ := toSidm_untimed _ _ _ _ _ _ _ rfl rfl e
          have hc := hc c2
          rw [Prod.ext_iff] at e2
          obtain ⟨rfl, rfl⟩ := e2
          refine ⟨allocWith_id _ _ _, ?_, fun _ hs => ?_, fun hl => by simp [c2] at hl⟩
          · rw [allocWith_obj, c2]
            refine (carry_mdef P _ _ _).trans ?_
            rw [hc]
            split_ifs <;> rfl
          · rw [allocWith_obj]; exact sub _ _ hs
  rw [if_neg c2] at e
  dsimp only at e
  split_ifs at e with c3 c4
  all_goals
    simp only [Except.ok.injEq] at e
    rw [Prod.ext_iff] at e
    obtain ⟨rfl, rfl⟩ := e
    refine ⟨⟨(dict_reach _ s _ _).trans (alloc_reach _ _ _), fun _ => alloc_lt _ _⟩, ?_, ?_⟩
    · rw [alloc_obj]; exact ⟨rfl, rfl, rfl, rfl, rfl, rfl, rfl⟩
    · refine ⟨rfl, ?_, fun hl => by simp [c1, c2] at hl, fun _ => by rw [alloc_obj]; exact ⟨rfl, rfl⟩⟩
      rw [alloc_obj]
      first
      | (rw [c4]; rfl)
      | (rcases hp with hp | hp | hp | hp
         · exact absurd hp c4
         · rw [hp]; rfl
         · exact absurd hp c1
         · exact absurd hp c2)

/-- **C36**, `add_core_collapsed_halos`: the population is kept, the halos whose index is not in the
list are kept as objects, those whose index is in the list are new objects of the requested profile. -/
theorem c36_core_collapsed (P : Phys) (idxs : List ℕ) (profile : String) (kw : Kw) (s : Store)
    (r : Realization) (hl : Live s r.halos) (s' : Store) (r' : Realization)
    (h : addCoreCollapsed P idxs profile kw s r = .ok (s', r')) :
    Converted s r s' r' ∧ ∀ (n : ℕ) (k : Oid), r.halos[n]? = some k → ∃ k', r'.halos[n]? = some k' ∧
      (n ∉ idxs → k' = k) ∧
      (n ∈ idxs → s.next ≤ k' ∧ (s'.obj k').mdef = profileMdef profile) := by
  unfold addCoreCollapsed at h
  split_ifs at h with hp
  simp only [bind, Except.bind, pure, Except.pure] at h
  set f : Store → Oid → ℕ → Except Err (Store × Oid) := fun s h i =>
      if i ∈ idxs then collapseHalo P profile kw s h else .ok (s, h) with hf
  have step : ∀ s h i s' h', f s h i = .ok (s', h') →
      Step s h s' h' ∧ SameHalo (s.obj h).toHalo (s'.obj h').toHalo := by
    intro s h i s' h' e
    simp only [hf] at e
    split_ifs at e
    · have := collapseHalo_ok P profile kw s h s' h' hp e
      exact ⟨this.1, this.2.1⟩
    · simp only [Except.ok.injEq, Prod.mk.injEq] at e
      obtain ⟨rfl, rfl⟩ := e
      exact ⟨⟨Reach.refl _ _, fun hk => hk⟩, same_of_eq _ _⟩
  have hz : r.halos.zipIdx = r.halos.zipIdx.map fun p => (p.1, id p.2) := by simp
  cases h1 : mapHalos f s r.halos.zipIdx with
  | error _ => simp [h1] at h
  | ok q =>
    obtain ⟨s₁, hs⟩ := q
    simp only [h1, Except.ok.injEq, Prod.ext_iff] at h
    have e1 : s₁ = s' := h.1
    have e2 : (finish r (s₁, hs)).2 = r' := h.2
    subst e1 e2
    rw [hz] at h1
    refine ⟨converted_of_map f (fun s h i s' h' e => (step s h i s' h' e).1)
      (fun s h i s' h' e => (step s h i s' h' e).2) id s s₁ r hs hl h1, fun n k hk => ?_⟩
    obtain ⟨_, _, _, tr⟩ := mapHalos_trace f (fun s h i s' h' e => (step s h i s' h' e).1) _ s s₁ hs
      (jobs_live s r id hl) h1
    obtain ⟨k', a, b, g1, g2, ra, rb, lt⟩ := tr n (k, n) (by simp [hk])
    refine ⟨k', g1, fun hn => ?_, fun hn => ?_⟩
    · simp only [hf, if_neg hn, Except.ok.injEq, Prod.mk.injEq] at g2
      exact g2.2.symm
    · simp only [hf, if_pos hn] at g2
      obtain ⟨_, _, rp⟩ := collapseHalo_ok P profile kw a k b k' hp g2
      refine ⟨by rw [rp.new]; exact ra.le, ?_⟩
      rw [rb.halo lt]
      exact rp.mdef

/-- **C36**, infall state: subhalos turned into cored or composite halos keep their infall redshift and
bound mass; turned into generalised NFW or power-law halos they lose both, and reading their bound
mass raises (disagreement: everything that uses bound masses then fails for them). -/
theorem c36_infall_state (P : Phys) (idxs : List ℕ) (profile : String) (kw : Kw) (s : Store)
    (r : Realization) (hl : Live s r.halos) (hnd : r.halos.Nodup) (s' : Store) (r' : Realization)
    (h : addCoreCollapsed P idxs profile kw s r = .ok (s', r')) (n : ℕ) (hn : n ∈ idxs) (k : Oid)
    (hk : r.halos[n]? = some k) (hsub : (s.obj k).isSubhalo = true) :
    ∃ k', r'.halos[n]? = some k' ∧
      (profile = "TNFWC" ∨ profile = "CC_COMPOSITE" → (s'.obj k').zInfall = some (P.zEval (s.obj k)) ∧
        (s'.obj k').hasBound = true ∧ (s'.obj k').boundMass = (s.obj k).boundMass) ∧
      (profile = "GNFW" ∨ profile = "SPL_CORE" → (s'.obj k').zInfall = none ∧
        (s'.obj k').hasBound = false) := by
  unfold addCoreCollapsed at h
  split_ifs at h with hp
  simp only [bind, Except.bind, pure, Except.pure] at h
  set f : Store → Oid → ℕ → Except Err (Store × Oid) := fun s h i =>
      if i ∈ idxs then collapseHalo P profile kw s h else .ok (s, h) with hf
  have step : ∀ s h i s' h', f s h i = .ok (s', h') → Step s h s' h' := by
    intro s h i s' h' e
    simp only [hf] at e
    split_ifs at e
    · exact (collapseHalo_ok P profile kw s h s' h' hp e).1
    · simp only [Except.ok.injEq, Prod.mk.injEq] at e
      obtain ⟨rfl, rfl⟩ := e
      exact ⟨Reach.refl _ _, fun hk => hk⟩
  cases h1 : mapHalos f s r.halos.zipIdx with
  | error _ => simp [h1] at h
  | ok q =>
    obtain ⟨s₁, hs⟩ := q
    simp only [h1, Except.ok.injEq, Prod.ext_iff] at h
    have e1 : s₁ = s' := h.1
    have e2 : (finish r (s₁, hs)).2 = r' := h.2
    subst e1 e2
    have hlive : ∀ p ∈ r.halos.zipIdx, p.1 < s.next := fun p hp =>
      hl _ (List.fst_mem_of_mem_zipIdx hp)
    obtain ⟨_, _, _, tr⟩ := mapHalos_trace f step _ s s₁ hs hlive h1
    obtain ⟨k', a, b, g1, g2, ra, rb, lt⟩ := tr n (k, n) (by simp [hk])
    have hkn : n < r.halos.length := (List.getElem?_eq_some_iff.mp hk).1
    have hkv : r.halos[n] = k := (List.getElem?_eq_some_iff.mp hk).2
    have hbefore : ¬ ∃ p ∈ r.halos.zipIdx.take n, p.1 = k := by
      rintro ⟨p, hp, hpk⟩
      have : k ∈ r.halos.take n := by
        rw [← List.zipIdx_map_fst 0 r.halos, ← List.map_take, ← hpk]; exact List.mem_map_of_mem hp
      obtain ⟨j, hj, hjk⟩ := List.mem_iff_getElem.mp this
      simp only [List.getElem_take] at hjk
      simp only [List.length_take, lt_min_iff] at hj
      have := (List.Nodup.getElem_inj_iff hnd).mp (hjk.trans hkv.symm)
      omega
    have hsame : a.obj k = s.obj k := ra.same k (hl k (List.mem_of_getElem? hk)) hbefore
    simp only [hf, if_pos hn] at g2
    obtain ⟨_, _, rp⟩ := collapseHalo_ok P profile kw a k b k' hp g2
    rw [hsame] at rp
    refine ⟨k', g1, fun hc => ?_, fun hc => ?_⟩
    · have := rp.kept hc hsub
      rw [rb.core k' lt]
      exact this
    · have := rp.lost hc
      rw [rb.core k' lt]
      exact this

/-- **C36**. An unknown profile name is refused whatever the indexes. -/
theorem c36_unknown_profile (P : Phys) (idxs : List ℕ) (profile : String) (kw : Kw) (s : Store)
    (r : Realization) (hp : profile ∉ ["GNFW", "SPL_CORE", "TNFWC", "CC_COMPOSITE"]) :
    ∃ e, addCoreCollapsed P idxs profile kw s r = .error e := by
  unfold addCoreCollapsed
  rw [if_neg (by simpa using hp)]
  exact ⟨_, rfl⟩

theorem kwGet_update (d new : Kw) (key : String) (hk : key ∈ new.map Prod.fst) :
    kwGet (kwUpdate d new) key = kwGet new key := by
  unfold kwGet kwUpdate
  rw [List.find?_append]
  have : (d.filter fun p => !(new.map Prod.fst).contains p.1).find? (fun p => p.1 == key) = none := by
    rw [List.find?_eq_none]
    intro p hp
    simp only [List.mem_filter, Bool.not_eq_true', List.contains_eq_mem, decide_eq_false_iff_not] at hp
    intro hc
    simp only [beq_iff_eq] at hc
    rw [hc] at hp
    exact hp.2 hk
  rw [this]
  simp

/-- **C36**, disagreement: turning one halo into a generalised NFW or power-law halo writes the profile
arguments into its dictionary, which the halos of a realization share: every halo with the same
dictionary, converted or not, in the old and in the new realization, now has them. -/
theorem c36_shared_dictionary (P : Phys) (idxs : List ℕ) (profile : String) (kw : Kw) (s : Store)
    (r : Realization) (hl : Live s r.halos) (s' : Store) (r' : Realization)
    (hp : profile = "GNFW" ∨ profile = "SPL_CORE")
    (h : addCoreCollapsed P idxs profile kw s r = .ok (s', r')) (n : ℕ) (hn : n ∈ idxs) (k : Oid)
    (hk : r.halos[n]? = some k) (j : Oid) (hj : j < s.next) (hja : (s.obj j).args = (s.obj k).args)
    (key : String) (hkey : key ∈ kw.map Prod.fst) :
    kwGet (s'.dict (s'.obj j).args) key = kwGet kw key := by
  unfold addCoreCollapsed at h
  split_ifs at h with hp4
  simp only [bind, Except.bind, pure, Except.pure] at h
  set f : Store → Oid → ℕ → Except Err (Store × Oid) := fun s h i =>
      if i ∈ idxs then collapseHalo P profile kw s h else .ok (s, h) with hf
  have hne : profile ≠ "TNFWC" ∧ profile ≠ "CC_COMPOSITE" := by
    rcases hp with rfl | rfl <;> decide
  have dicts : ∀ s h i s' h', f s h i = .ok (s', h') →
      s'.dict = s.dict ∨ s'.dict = Function.update s.dict (s.obj h).args (kwUpdate (s.dict (s.obj h).args) kw) := by
    intro s h i s' h' e
    simp only [hf] at e
    split_ifs at e
    · unfold collapseHalo at e
      rw [if_neg hne.1, if_neg hne.2] at e
      dsimp only at e
      split_ifs at e
      all_goals
        simp only [Except.ok.injEq] at e
        rw [Prod.ext_iff] at e
        obtain ⟨rfl, rfl⟩ := e
        exact Or.inr rfl
    · simp only [Except.ok.injEq, Prod.mk.injEq] at e
      obtain ⟨rfl, rfl⟩ := e
      exact Or.inl rfl
  have step : ∀ s h i s' h', f s h i = .ok (s', h') → Step s h s' h' := by
    intro s h i s' h' e
    simp only [hf] at e
    split_ifs at e
    · exact (collapseHalo_ok P profile kw s h s' h' hp4 e).1
    · simp only [Except.ok.injEq, Prod.mk.injEq] at e
      obtain ⟨rfl, rfl⟩ := e
      exact ⟨Reach.refl _ _, fun hk => hk⟩
  cases h1 : mapHalos f s r.halos.zipIdx with
  | error _ => simp [h1] at h
  | ok q =>
    obtain ⟨s₁, hs⟩ := q
    simp only [h1, Except.ok.injEq, Prod.ext_iff] at h
    have e1 : s₁ = s' := h.1
    subst e1
    have keep : ∀ (l : List (Oid × ℕ)) (a b : Store) (ks : List Oid) (c : ℕ),
        mapHalos f a l = .ok (b, ks) → kwGet (a.dict c) key = kwGet kw key →
        kwGet (b.dict c) key = kwGet kw key := by
      intro l
      induction l with
      | nil =>
        intro a b ks c e g
        rw [mapHalos_nil] at e
        simp only [Except.ok.injEq, Prod.mk.injEq] at e
        rw [← e.1]; exact g
      | cons p rest ih =>
        intro a b ks c e g
        obtain ⟨h₀, i₀⟩ := p
        rw [mapHalos_cons] at e
        obtain ⟨a', h'', ks', e1, e2, _⟩ := e
        refine ih a' b ks' c e2 ?_
        rcases dicts _ _ _ _ _ e1 with hd | hd
        · rw [hd]; exact g
        · rw [hd]
          by_cases hc : c = (a.obj h₀).args
          · rw [hc, Function.update_self]; exact kwGet_update _ _ _ hkey
          · rw [Function.update_of_ne hc]; exact g
    have main : ∀ (l : List (Oid × ℕ)) (a b : Store) (ks : List Oid), (∀ p ∈ l, p.1 < a.next) →
        mapHalos f a l = .ok (b, ks) → (k, n) ∈ l →
        kwGet (b.dict (a.obj k).args) key = kwGet kw key := by
      intro l
      induction l with
      | nil => intro a b ks _ _ hm; simp at hm
      | cons p rest ih =>
        intro a b ks hla e hm
        obtain ⟨h₀, i₀⟩ := p
        rw [mapHalos_cons] at e
        obtain ⟨a', h'', ks', e1, e2, _⟩ := e
        have st := step _ _ _ _ _ e1
        have hkl : k < a.next := hla _ hm
        rcases List.mem_cons.mp hm with hm | hm
        · simp only [Prod.mk.injEq] at hm
          obtain ⟨rfl, rfl⟩ := hm
          refine keep rest a' b ks' _ e2 ?_
          simp only [hf, if_pos hn] at e1
          unfold collapseHalo at e1
          rw [if_neg hne.1, if_neg hne.2] at e1
          dsimp only at e1
          split_ifs at e1
          all_goals
            simp only [Except.ok.injEq] at e1
            rw [Prod.ext_iff] at e1
            obtain ⟨rfl, rfl⟩ := e1
            simp only [Store.alloc, Function.update_self]
            exact kwGet_update _ _ _ hkey
        · have := ih a' b ks' (fun p hp => lt_of_lt_of_le (hla p (by simp [hp])) st.reach.le) e2 hm
          rw [st.reach.core k hkl] at this
          exact this
    have hlive : ∀ p ∈ r.halos.zipIdx, p.1 < s.next := fun p hp =>
      hl _ (List.fst_mem_of_mem_zipIdx hp)
    have := main r.halos.zipIdx s s₁ hs hlive h1
      (List.mem_zipIdx_iff_getElem?.mpr (by simpa using hk))
    have hr := (mapHalos_trace f step _ s s₁ hs hlive h1).1
    rw [hr.core j hj]
    dsimp only
    rw [hja]
    exact this

theorem coredStep_ok (P : Phys) (idxs : List ℕ) (beta : ℝ) (profile : String) (shared : ℕ) (s : Store)
    (h : Oid) (i : ℕ) (s' : Store) (h' : Oid)
    (e : coredStep P idxs beta profile shared s h i = .ok (s', h')) :
    Step s h s' h' ∧
    (profile = "CNFW" → i ∉ idxs → s' = s ∧ h' = h) ∧
    (profile = "CNFW" → i ∈ idxs → h' = s.next ∧ (s'.obj h').cls = .coreNFW ∧
      SameHalo { (s.obj h).toHalo with r3d := none } (s'.obj h').toHalo ∧
      ((s.obj h).isSubhalo = true → (s'.obj h').zInfall = some (P.zInfall (s.obj h)) ∧
        (s'.obj h').hasBound = true ∧ (s'.obj h').boundMass = (s.obj h).boundMass)) ∧
    (profile ≠ "CNFW" → h' = s.next ∧ (s'.obj h').cls = .parametric ∧
      SameHalo (s.obj h).toHalo (s'.obj h').toHalo) := by
  unfold coredStep at e
  simp only [bind, Except.bind, pure, Except.pure] at e
  cases h1 : P.conc (s.obj h) with
  | error _ => simp [h1] at e
  | ok c =>
    rw [h1] at e
    dsimp only at e
    by_cases c1 : profile = "CNFW"
    · rw [if_pos c1] at e
      by_cases c2 : i ∈ idxs
      · rw [if_pos c2] at e
        simp only [Except.ok.injEq] at e
        rw [Prod.ext_iff] at e
        obtain ⟨rfl, rfl⟩ := e
        refine ⟨⟨alloc_reach _ _ _, fun _ => alloc_lt _ _⟩, fun _ hn => absurd c2 hn, fun _ _ => ?_,
          fun hn => absurd c1 hn⟩
        refine ⟨rfl, ?_, ?_, fun hs => ?_⟩
        · rw [alloc_obj]; split_ifs <;> rfl
        · rw [alloc_obj]; split_ifs <;> exact ⟨rfl, rfl, rfl, rfl, rfl, rfl, rfl⟩
        · rw [alloc_obj, if_pos hs]; exact ⟨rfl, rfl, rfl⟩
      · rw [if_neg c2] at e
        simp only [Except.ok.injEq, Prod.mk.injEq] at e
        obtain ⟨rfl, rfl⟩ := e
        exact ⟨⟨Reach.refl _ _, fun hk => hk⟩, fun _ _ => ⟨rfl, rfl⟩, fun _ hn => absurd hn c2,
          fun hn => absurd c1 hn⟩
    · rw [if_neg c1] at e
      refine ⟨toSidm_step _ _ _ _ _ _ _ e, fun hn => absurd hn c1, fun hn => absurd hn c1, fun _ => ?_⟩
      have sm := toSidm_same _ _ _ _ _ _ _ e
      obtain ⟨cls, d, e2, hc, _⟩ := toSidm_untimed _ _ _ _ _ _ _ rfl rfl e
      obtain ⟨rfl, _⟩ := hc rfl
      rw [Prod.ext_iff] at e2
      obtain ⟨rfl, rfl⟩ := e2
      refine ⟨allocWith_id _ _ _, ?_, sm⟩
      rw [allocWith_obj]
      unfold carryInfall
      split_ifs <;> rfl

theorem addCored_trace (P : Phys) (idxs : List ℕ) (beta : ℝ) (profile : String) (s : Store)
    (r : Realization) (hl : Live s r.halos) (s' : Store) (r' : Realization)
    (h : addCored P idxs beta profile s r = .ok (s', r')) :
    SameContext r r' ∧ r'.hasBeenShifted = r.hasBeenShifted ∧ r'.halos.length = r.halos.length ∧
    ∀ (n : ℕ) (k : Oid), r.halos[n]? = some k → ∃ k' a b shared, r'.halos[n]? = some k' ∧
      coredStep P idxs beta profile shared a k n = .ok (b, k') ∧
      Reach (fun k => ∃ p ∈ r.halos.zipIdx.take n, p.1 = k) s a ∧
      Reach (fun k => ∃ p ∈ r.halos.zipIdx.drop (n + 1), p.1 = k) b s' ∧ k' < b.next := by
  unfold addCored at h
  dsimp only at h
  simp only [bind, Except.bind, pure, Except.pure, Nat.add_sub_cancel] at h
  set s₀ : Store := { s with
    dict := Function.update s.dict s.nextDict [("beta", beta)], nextDict := s.nextDict + 1 } with hs₀
  cases h1 : mapHalos (coredStep P idxs beta profile s.nextDict) s₀ r.halos.zipIdx with
  | error _ => simp [h1] at h
  | ok q =>
    obtain ⟨s₁, hs⟩ := q
    simp only [h1, Except.ok.injEq, Prod.ext_iff] at h
    have e1 : s₁ = s' := h.1
    have e2 : (finish r (s₁, hs)).2 = r' := h.2
    subst e1 e2
    have hlive : ∀ p ∈ r.halos.zipIdx, p.1 < s₀.next := fun p hp =>
      hl _ (List.fst_mem_of_mem_zipIdx hp)
    obtain ⟨_, len, _, tr⟩ := mapHalos_trace _
      (fun s h i s' h' e => (coredStep_ok P idxs beta profile _ s h i s' h' e).1) _ s₀ s₁ hs hlive h1
    obtain ⟨c1, c2, c3, _⟩ := finish_context r (s₁, hs)
    refine ⟨c1, c2, by rw [c3]; simpa using len, fun n k hk => ?_⟩
    obtain ⟨k', a, b, g1, g2, ra, rb, lt⟩ := tr n (k, n) (by simp [hk])
    exact ⟨k', a, b, _, g1, g2, (dict_reach _ s _ _).trans ra, rb, lt⟩

/-- **C36**, `add_cored_halos` with the cored NFW profile: exactly the halos with the given indexes are
replaced; the new ones have the old mass, position, redshift, tag and kind (but no three-dimensional
position), and replaced subhalos keep their bound mass. -/
theorem c36_cored_partial (P : Phys) (idxs : List ℕ) (beta : ℝ) (s : Store) (r : Realization)
    (hl : Live s r.halos) (s' : Store) (r' : Realization)
    (h : addCored P idxs beta "CNFW" s r = .ok (s', r')) :
    SameContext r r' ∧ r'.hasBeenShifted = r.hasBeenShifted ∧ r'.halos.length = r.halos.length ∧
    ∀ (n : ℕ) (k : Oid), r.halos[n]? = some k → ∃ k', r'.halos[n]? = some k' ∧
      (n ∉ idxs → k' = k ∧ (s'.obj k').toHalo = (s.obj k).toHalo) ∧
      (n ∈ idxs → s.next ≤ k' ∧ (s'.obj k').cls = .coreNFW ∧
        SameHalo { (s.obj k).toHalo with r3d := none } (s'.obj k').toHalo ∧
        ((s.obj k).isSubhalo = true → (s'.obj k').hasBound = true ∧
          (s'.obj k').boundMass = (s.obj k).boundMass)) := by
  obtain ⟨c1, c2, c3, tr⟩ := addCored_trace P idxs beta "CNFW" s r hl s' r' h
  refine ⟨c1, c2, c3, fun n k hk => ?_⟩
  obtain ⟨k', a, b, shared, g1, g2, ra, rb, lt⟩ := tr n k hk
  obtain ⟨st, f1, f2, _⟩ := coredStep_ok P idxs beta "CNFW" shared a k n b k' g2
  have hkl := hl k (List.mem_of_getElem? hk)
  refine ⟨k', g1, fun hn => ?_, fun hn => ?_⟩
  · obtain ⟨rfl, rfl⟩ := f1 rfl hn
    exact ⟨rfl, by rw [rb.halo lt, ra.halo hkl]⟩
  · obtain ⟨e1, e2, e3, e4⟩ := f2 rfl hn
    rw [ra.halo hkl] at e3
    rw [ra.halo hkl] at e4
    refine ⟨by rw [e1]; exact ra.le, ?_, by rw [rb.halo lt]; exact e3, fun hs => ?_⟩
    · rw [rb.core k' lt]; exact e2
    · rw [rb.core k' lt]; exact (e4 hs).2

/-- **C36**, disagreement: with any other profile name `add_cored_halos` ignores the list of indexes and
replaces every halo. -/
theorem c36_cored_ignores_indexes (P : Phys) (idxs : List ℕ) (beta : ℝ) (profile : String)
    (hp : profile ≠ "CNFW") (s : Store) (r : Realization) (hl : Live s r.halos) (s' : Store)
    (r' : Realization) (h : addCored P idxs beta profile s r = .ok (s', r')) (n : ℕ) (k : Oid)
    (hk : r.halos[n]? = some k) :
    ∃ k', r'.halos[n]? = some k' ∧ s.next ≤ k' ∧ (s'.obj k').cls = .parametric ∧
      SameHalo (s.obj k).toHalo (s'.obj k').toHalo := by
  obtain ⟨_, _, _, tr⟩ := addCored_trace P idxs beta profile s r hl s' r' h
  obtain ⟨k', a, b, shared, g1, g2, ra, rb, lt⟩ := tr n k hk
  obtain ⟨e1, e2, e3⟩ := (coredStep_ok P idxs beta profile shared a k n b k' g2).2.2.2 hp
  rw [ra.halo (hl k (List.mem_of_getElem? hk))] at e3
  refine ⟨k', g1, by rw [e1]; exact ra.le, ?_, by rw [rb.halo lt]; exact e3⟩
  rw [rb.core k' lt]; exact e2

/-! ## C37: massive galaxies -/

theorem sisStep_ok (P : Phys) (thr : ℝ) (model : String) (s : Store) (h : Oid) (v : Unit) (s' : Store)
    (h' : Oid) (e : sisStep P thr model s h v = .ok (s', h')) :
    Step s h s' h' ∧
    ((s.obj h).mass < thr → s' = s ∧ h' = h) ∧
    (thr ≤ (s.obj h).mass → h' = s.next ∧
      (s'.obj h').cls = (if model = "GNFW" then .massiveGalaxy else .sis) ∧
      (s'.obj h').fixedPosition = (s.obj h).fixedPosition) ∧
    SameHalo (s.obj h).toHalo (s'.obj h').toHalo ∧ (s'.obj h').boundMass = (s.obj h).boundMass := by
  unfold sisStep at e
  split_ifs at e with c1 c2 c3
  · simp only [galaxy, Except.ok.injEq] at e
    rw [if_neg (by decide), Prod.ext_iff] at e
    obtain ⟨rfl, rfl⟩ := e
    refine ⟨⟨allocWith_reach _ _ _ _, fun _ => allocWith_lt _ _ _⟩, fun hc => absurd c1 (not_le.mpr hc),
      fun _ => ⟨allocWith_id _ _ _, ?_, ?_⟩, ?_, ?_⟩
    · rw [allocWith_obj, if_pos c2]; rfl
    · rw [allocWith_obj]
    · rw [allocWith_obj]; exact ⟨rfl, rfl, rfl, rfl, rfl, rfl, rfl⟩
    · rw [allocWith_obj]; rfl
  · simp only [galaxy, Except.ok.injEq] at e
    rw [if_pos trivial, Prod.ext_iff] at e
    obtain ⟨rfl, rfl⟩ := e
    refine ⟨⟨alloc_reach _ _ _, fun _ => alloc_lt _ _⟩, fun hc => absurd c1 (not_le.mpr hc),
      fun _ => ⟨rfl, ?_, ?_⟩, ?_, ?_⟩
    · rw [alloc_obj, if_neg c2]; rfl
    · rw [alloc_obj]
    · rw [alloc_obj]; exact ⟨rfl, rfl, rfl, rfl, rfl, rfl, rfl⟩
    · rw [alloc_obj]; rfl
  · simp only [Except.ok.injEq, Prod.mk.injEq] at e
    obtain ⟨rfl, rfl⟩ := e
    exact ⟨⟨Reach.refl _ _, fun hk => hk⟩, fun _ => ⟨rfl, rfl⟩, fun hc => absurd hc c1, same_of_eq _ _, rfl⟩

/-- **C37**. `SIS_injection` keeps number, order, tags and bodies of the halos; a halo is replaced if and
only if its mass is at least the threshold. -/
theorem c37_injection (P : Phys) (thr : ℝ) (model : String) (s : Store) (r : Realization)
    (hl : Live s r.halos) (s' : Store) (r' : Realization)
    (h : sisInjection P thr model s r = .ok (s', r')) :
    SameContext r r' ∧ Fresh s'.heap r' ∧ r'.halos.length = r.halos.length ∧
    ∀ (n : ℕ) (k : Oid), r.halos[n]? = some k → ∃ k', r'.halos[n]? = some k' ∧
      SameHalo (s.obj k).toHalo (s'.obj k').toHalo ∧
      (s'.obj k').fixedPosition = (s.obj k).fixedPosition ∧
      (s'.obj k').boundMass = (s.obj k).boundMass ∧
      ((s.obj k).mass < thr → k' = k) ∧
      (thr ≤ (s.obj k).mass → s.next ≤ k' ∧
        (s'.obj k').cls = (if model = "GNFW" then .massiveGalaxy else .sis)) := by
  unfold sisInjection at h
  simp only [bind, Except.bind, pure, Except.pure] at h
  cases h1 : mapHalos (sisStep P thr model) s (r.halos.map fun h => (h, ())) with
  | error _ => simp [h1] at h
  | ok q =>
    obtain ⟨s₁, hs⟩ := q
    simp only [h1, Except.ok.injEq, Prod.ext_iff] at h
    have e1 : s₁ = s' := h.1
    have e2 : Realization.rebuild s₁.heap r hs = r' := h.2
    subst e1 e2
    have hlive : ∀ p ∈ r.halos.map (fun h => (h, ())), p.1 < s.next := by
      intro p hp
      obtain ⟨a, ha, rfl⟩ := List.mem_map.mp hp
      exact hl a ha
    obtain ⟨_, len, _, tr⟩ := mapHalos_trace _
      (fun s h i s' h' e => (sisStep_ok P thr model s h i s' h' e).1) _ s s₁ hs hlive h1
    refine ⟨sameContext_rebuild _ _ _, fresh_rebuild _ _ _, by simpa using len, fun n k hk => ?_⟩
    obtain ⟨k', a, b, g1, g2, ra, rb, lt⟩ := tr n (k, ()) (by simp [hk])
    obtain ⟨st, f1, f2, f3, f4⟩ := sisStep_ok P thr model a k () b k' g2
    have hkl := hl k (List.mem_of_getElem? hk)
    have ha := ra.halo hkl
    have hb := rb.halo lt
    rw [ha] at f1 f2 f3 f4
    refine ⟨k', g1, by rw [hb]; exact f3, ?_, by rw [hb]; exact f4, fun hm => (f1 hm).2, fun hm => ?_⟩
    · rw [hb]
      by_cases hm : thr ≤ (s.obj k).mass
      · exact (f2 hm).2.2
      · obtain ⟨rfl, rfl⟩ := f1 (not_le.mp hm)
        rw [ha]
    · obtain ⟨e1, e2, _⟩ := f2 hm
      refine ⟨by rw [e1]; exact ra.le, ?_⟩
      rw [rb.core k' lt]; exact e2

/-- **C37**. A known galaxy model never fails; with an unknown one the routine raises if and only if some
halo reaches the threshold. -/
theorem c37_unknown_model (P : Phys) (thr : ℝ) (model : String) (s : Store) (r : Realization)
    (hl : Live s r.halos) :
    (∃ e, sisInjection P thr model s r = .error e) ↔
      model ≠ "GNFW" ∧ model ≠ "SIS" ∧ ∃ h ∈ r.halos, thr ≤ (s.obj h).mass := by
  have gen : ∀ (l : List Oid) (s' : Store) (T : Oid → Prop), Reach T s s' → (∀ h ∈ l, h < s.next) →
      ((∃ e, mapHalos (sisStep P thr model) s' (l.map fun h => (h, ())) = .error e) ↔
        model ≠ "GNFW" ∧ model ≠ "SIS" ∧ ∃ h ∈ l, thr ≤ (s.obj h).mass) := by
    intro l
    induction l with
    | nil => intro s' T _ _; simp [mapHalos]
    | cons k ks ih =>
      intro s' T hr hk
      have hkl : k < s.next := hk k (by simp)
      have hm : (s'.obj k).mass = (s.obj k).mass := by rw [hr.halo hkl]
      simp only [List.map_cons, mapHalos, bind, Except.bind, pure, Except.pure]
      cases h1 : sisStep P thr model s' k () with
      | error e =>
        unfold sisStep at h1
        split_ifs at h1 with c1 c2 c3
        simp only [Except.error.injEq, exists_eq', true_iff]
        refine ⟨c2, c3, k, by simp, ?_⟩
        rw [← hm]; exact c1
      | ok q =>
        obtain ⟨s₂, k'⟩ := q
        have st := (sisStep_ok P thr model s' k () s₂ k' h1).1
        have ih' := ih s₂ (fun _ => True) ((hr.mono fun _ _ => trivial).trans
          (st.reach.mono fun _ _ => trivial)) (fun h hh => hk h (by simp [hh]))
        dsimp only
        cases h2 : mapHalos (sisStep P thr model) s₂ (ks.map fun h => (h, ())) with
        | error e =>
          simp only [Except.error.injEq, exists_eq', true_iff]
          obtain ⟨g1, g2, h, g3, g4⟩ := ih'.mp ⟨e, h2⟩
          exact ⟨g1, g2, h, by simp [g3], g4⟩
        | ok p =>
          simp only [reduceCtorEq, exists_false, false_iff]
          rintro ⟨g1, g2, h, g3, g4⟩
          rcases List.mem_cons.mp g3 with rfl | g3
          · unfold sisStep at h1
            rw [hm, if_pos g4, if_neg g1, if_neg g2] at h1
            simp at h1
          · obtain ⟨e, he⟩ := ih'.mpr ⟨g1, g2, h, g3, g4⟩
            rw [h2] at he
            simp at he
  rw [← gen r.halos s (fun _ => True) (Reach.refl _ _) hl]
  unfold sisInjection
  simp only [bind, Except.bind, pure, Except.pure]
  cases mapHalos (sisStep P thr model) s (r.halos.map fun h => (h, ())) <;> simp

/-- **C37**, disagreement: the result forgets that the realization has been shifted onto the rays (every
other conversion remembers it), so that it can be shifted a second time. -/
theorem c37_forgets_shift (P : Phys) (thr : ℝ) (model : String) (s : Store) (r : Realization)
    (s' : Store) (r' : Realization) (h : sisInjection P thr model s r = .ok (s', r')) :
    r'.hasBeenShifted = false := by
  unfold sisInjection at h
  simp only [bind, Except.bind, pure, Except.pure] at h
  cases h1 : mapHalos (sisStep P thr model) s (r.halos.map fun h => (h, ())) with
  | error _ => simp [h1] at h
  | ok q =>
    simp only [h1, Except.ok.injEq, Prod.ext_iff] at h
    rw [← h.2]
    rfl

/-! ## C73: normalisation of generalised NFW halos -/

theorem gnfwNorm_eq (m3d : ℝ → ℝ → ℝ → ℝ) (kpc sigma rhos rs : ℝ) (s : Store) (h : Oid) :
    ∃ s' rt, gnfwNorm m3d kpc sigma rhos rs s h = .ok (s',
      (match kwGet (s'.dict (s.obj h).args) "mass_conservation" with
        | .ok m => m
        | .error _ => 4 * Real.pi * rt ^ 3 * rhos *
          (Real.log (1 + (match kwGet (s'.dict (s.obj h).args) "x_match" with
            | .ok x => x
            | .error _ => 2.16)) - (match kwGet (s'.dict (s.obj h).args) "x_match" with
            | .ok x => x
            | .error _ => 2.16) / (1 + (match kwGet (s'.dict (s.obj h).args) "x_match" with
            | .ok x => x
            | .error _ => 2.16)))) /
        m3d ((match kwGet (s'.dict (s.obj h).args) "x_match" with
            | .ok x => x
            | .error _ => 2.16) * rt / kpc) (rt / kpc) sigma) ∧
      ((∃ v, kwGet (s.dict (s.obj h).args) "r_transition" = .ok v ∧ rt = v ∧ s' = s) ∨
       (kwGet (s.dict (s.obj h).args) "r_transition" = .error (.keyError "r_transition") ∧ rt = rs ∧
        s' = Store.mk s.obj s.next (Function.update s.dict (s.obj h).args
          (s.dict (s.obj h).args ++ [("r_transition", rs)])) s.nextDict)) := by
  unfold gnfwNorm
  simp only [bind, Except.bind, pure, Except.pure]
  cases hf : (s.dict (s.obj h).args).find? (fun p => p.1 == "r_transition") with
  | some p =>
    have hany : (s.dict (s.obj h).args).any (fun p => p.1 == "r_transition") = true := by
      rw [List.any_eq_true]
      exact ⟨p, List.mem_of_find?_eq_some hf, by simpa using List.find?_some hf⟩
    simp only [hany, if_true]
    have hk : kwGet (s.dict (s.obj h).args) "r_transition" = .ok p.2 := by simp [kwGet, hf]
    rw [hk]
    exact ⟨s, p.2, rfl, Or.inl ⟨p.2, rfl, rfl, rfl⟩⟩
  | none =>
    have hany : (s.dict (s.obj h).args).any (fun p => p.1 == "r_transition") = false := by
      rw [List.any_eq_false]
      exact List.find?_eq_none.mp hf
    simp only [hany, Bool.false_eq_true, if_false]
    have hk : kwGet (Function.update s.dict (s.obj h).args
        (s.dict (s.obj h).args ++ [("r_transition", rs)]) (s.obj h).args) "r_transition" = .ok rs := by
      simp [kwGet, List.find?_append, hf]
    rw [hk]
    refine ⟨_, rs, rfl, Or.inr ⟨by simp [kwGet, hf], rfl, rfl⟩⟩

/-- **C73**. The transition radius of generalised NFW halos is kept in a dictionary that the halos share:
all halos use the scale radius of the first one that was evaluated. Nevertheless, if no mass is
prescribed, the normalisation of a halo is the one obtained from its own parameters, whatever has been
evaluated before (the enclosed mass of the profile scales with the cube of its radius). -/
theorem c73_normalisation (m3d : ℝ → ℝ → ℝ → ℝ)
    (hm3 : ∀ a R Rs rho, 0 < a → m3d (a * R) (a * Rs) rho = a ^ 3 * m3d R Rs rho)
    (kpc sigma rhos rs : ℝ) (hkpc : 0 < kpc) (hrs : 0 < rs) (s : Store) (h : Oid)
    (hd : ∀ v, kwGet (s.dict (s.obj h).args) "r_transition" = .ok v → 0 < v)
    (hno : ∃ e, kwGet (s.dict (s.obj h).args) "mass_conservation" = .error e)
    (x : ℝ) (hx : kwGet (s.dict (s.obj h).args) "x_match" = .ok x ∨
      (∃ e, kwGet (s.dict (s.obj h).args) "x_match" = .error e) ∧ x = 2.16) :
    ∃ s', gnfwNorm m3d kpc sigma rhos rs s h = .ok (s',
      4 * Real.pi * kpc ^ 3 * rhos * (Real.log (1 + x) - x / (1 + x)) / m3d x 1 sigma) := by
  obtain ⟨s', rt, h1, h2⟩ := gnfwNorm_eq m3d kpc sigma rhos rs s h
  have other : ∀ (d : Kw) (key : String) (v : ℝ), key ≠ "r_transition" →
      (∃ e, kwGet d key = .error e) → ∃ e, kwGet (d ++ [("r_transition", v)]) key = .error e := by
    intro d key v hne ⟨e, he⟩
    unfold kwGet at he ⊢
    cases hf : d.find? (fun p => p.1 == key) with
    | some p => simp [hf] at he
    | none => simp [List.find?_append, hf, Ne.symm hne]
  have kept : ∀ (d : Kw) (key : String) (v x : ℝ), kwGet d key = .ok x →
      kwGet (d ++ [("r_transition", v)]) key = .ok x := by
    intro d key v x he
    unfold kwGet at he ⊢
    cases hf : d.find? (fun p => p.1 == key) with
    | none => simp [hf] at he
    | some p => simpa [List.find?_append, hf] using he
  have hrt : 0 < rt := by
    rcases h2 with ⟨v, hv, rfl, _⟩ | ⟨_, rfl, _⟩
    · exact hd _ hv
    · exact hrs
  have hno' : ∃ e, kwGet (s'.dict (s.obj h).args) "mass_conservation" = .error e := by
    rcases h2 with ⟨_, _, _, rfl⟩ | ⟨_, _, rfl⟩
    · exact hno
    · simp only [Function.update_self]; exact other _ _ _ (by decide) hno
  have hx' : (match kwGet (s'.dict (s.obj h).args) "x_match" with
      | .ok x => x
      | .error _ => 2.16) = x := by
    rcases h2 with ⟨_, _, _, rfl⟩ | ⟨_, _, rfl⟩
    · rcases hx with hx | ⟨⟨e, hx⟩, rfl⟩ <;> rw [hx]
    · simp only [Function.update_self]
      rcases hx with hx | ⟨hx, rfl⟩
      · rw [kept _ _ _ _ hx]
      · obtain ⟨e, he⟩ := other _ _ rs (by decide) hx
        rw [he]
  obtain ⟨e1, he1⟩ := hno'
  rw [he1, hx'] at h1
  dsimp only at h1
  refine ⟨s', ?_⟩
  rw [h1]
  congr 2
  have := hm3 (rt / kpc) x 1 sigma (div_pos hrt hkpc)
  rw [show x * rt / kpc = rt / kpc * x by ring, show rt / kpc = rt / kpc * 1 by ring, mul_one,
    show m3d (rt / kpc * x) (rt / kpc) sigma = m3d (rt / kpc * x) (rt / kpc * 1) sigma by rw [mul_one],
    this]
  rw [div_pow]
  rcases eq_or_ne (m3d x 1 sigma) 0 with h0 | h0
  · simp [h0]
  · field_simp

/-- **C73**, disagreement: once a mass is prescribed the normalisation does depend on it: two halos that
share a dictionary and have the same density profile parameters get, each evaluated first, amplitudes in
the ratio of the cubes of their scale radii, but evaluated one after the other they get the same one. -/
theorem c73_prescribed_mass (m3d : ℝ → ℝ → ℝ → ℝ)
    (hm3 : ∀ a R Rs rho, 0 < a → m3d (a * R) (a * Rs) rho = a ^ 3 * m3d R Rs rho)
    (kpc sigma rhos rhos' rs rs' M : ℝ) (hkpc : 0 < kpc) (hrs : 0 < rs) (hrs' : 0 < rs') (s : Store)
    (h h' : Oid) (hk : (s.obj h').args = (s.obj h).args)
    (hd : s.dict (s.obj h).args = [("mass_conservation", M)]) :
    (∃ s₁, gnfwNorm m3d kpc sigma rhos rs s h =
        .ok (s₁, M * kpc ^ 3 / (rs ^ 3 * m3d 2.16 1 sigma)) ∧
      ∃ s₂, gnfwNorm m3d kpc sigma rhos' rs' s₁ h' =
        .ok (s₂, M * kpc ^ 3 / (rs ^ 3 * m3d 2.16 1 sigma))) ∧
    ∃ s₃, gnfwNorm m3d kpc sigma rhos' rs' s h' =
        .ok (s₃, M * kpc ^ 3 / (rs' ^ 3 * m3d 2.16 1 sigma)) := by
  have scale : ∀ r, 0 < r → M / m3d (2.16 * r / kpc) (r / kpc) sigma =
      M * kpc ^ 3 / (r ^ 3 * m3d 2.16 1 sigma) := by
    intro r hr
    have := hm3 (r / kpc) 2.16 1 sigma (div_pos hr hkpc)
    rw [mul_one] at this
    rw [show (2.16 : ℝ) * r / kpc = r / kpc * 2.16 by ring, this, div_pow]
    rcases eq_or_ne (m3d 2.16 1 sigma) 0 with h0 | h0
    · simp [h0]
    · field_simp
  have first : ∀ (j : Oid) (rho r : ℝ), (s.obj j).args = (s.obj h).args → 0 < r →
      gnfwNorm m3d kpc sigma rho r s j = .ok (Store.mk s.obj s.next (Function.update s.dict (s.obj h).args
        [("mass_conservation", M), ("r_transition", r)]) s.nextDict,
        M * kpc ^ 3 / (r ^ 3 * m3d 2.16 1 sigma)) := by
    intro j rho r hj hr
    rw [← scale r hr]
    simp [gnfwNorm, hj, hd, kwGet, bind, Except.bind, pure, Except.pure]
  refine ⟨⟨_, first h rhos rs rfl hrs, ?_⟩, _, first h' rhos' rs' hk hrs'⟩
  rw [← scale rs hrs]
  refine ⟨Store.mk s.obj s.next (Function.update s.dict (s.obj h).args
        [("mass_conservation", M), ("r_transition", rs)]) s.nextDict, ?_⟩
  simp [gnfwNorm, hk, kwGet, bind, Except.bind, pure, Except.pure]

/-! ## Success, and concrete cases -/

theorem mapHalos_succeeds {ι : Type} (f : Store → Oid → ι → Except Err (Store × Oid))
    (hf : ∀ s h i s' h', f s h i = .ok (s', h') → Step s h s' h') (l : List (Oid × ι)) (s₀ : Store)
    (good : ∀ p ∈ l, ∀ s', Reach (fun _ => True) s₀ s' → ∃ q, f s' p.1 p.2 = .ok q) :
    ∀ s, Reach (fun _ => True) s₀ s → ∃ q, mapHalos f s l = .ok q := by
  induction l with
  | nil => intro s _; exact ⟨_, rfl⟩
  | cons p rest ih =>
    intro s hs
    obtain ⟨⟨s₁, h'⟩, e1⟩ := good p (by simp) s hs
    obtain ⟨q, e2⟩ := ih (fun p hp => good p (by simp [hp])) s₁
      (hs.trans ((hf _ _ _ _ _ e1).reach.mono fun _ _ => trivial))
    refine ⟨(q.1, h' :: q.2), ?_⟩
    obtain ⟨h₀, i₀⟩ := p
    exact (mapHalos_cons f s h₀ i₀ rest q.1 (h' :: q.2)).mpr ⟨s₁, h', q.2, e1, e2, rfl⟩

theorem effAge_total (P : Phys) (o : Obj) (hA : ∀ a b, 0 ≤ a → a ≤ b → P.A.age b ≤ P.A.age a)
    (hz : 0 ≤ o.z) (hz' : o.z ≤ 20) (hi : o.isSubhalo = true → 0 ≤ P.zEval o) (lam : ℝ) :
    ∃ a, effAge P o lam = .ok a := by
  obtain ⟨T, hT, _⟩ := ageInterp_spec P.A hA
  have h10 := hT 10 (by norm_num) (by norm_num)
  have age : ∀ z zf, 0 ≤ z → z ≤ 20 → 0 ≤ zf → zf ≤ 20 → ∃ a, Batch.haloAge P.A z zf = .ok a := by
    intro z zf h1 h2 h3 h4
    rw [haloAge_eq]
    rw [hT z h1 h2, hT zf h3 h4]
    split_ifs
    · exact ⟨_, rfl⟩
    · exact ⟨_, rfl⟩
  unfold effAge
  split_ifs with hs
  · unfold LensCosmo.effectiveAge
    simp only [bind, Except.bind, pure, Except.pure]
    have hw : 0 ≤ (if P.zEval o > 10 then (10 : ℝ) else P.zEval o) ∧
        (if P.zEval o > 10 then (10 : ℝ) else P.zEval o) ≤ 20 := by
      have := hi hs
      split_ifs <;> constructor <;> linarith
    obtain ⟨a, ha⟩ := age _ 10 hw.1 hw.2 (by norm_num) (by norm_num)
    obtain ⟨b, hb⟩ := age o.z _ hz hz' hw.1 hw.2
    rw [ha, hb]
    exact ⟨_, rfl⟩
  · exact age _ _ hz hz' (by norm_num) (by norm_num)

/-- **C34**, success: if every halo is a truncated NFW halo inside some mass bin, at a redshift and
infall redshift covered by the age table, with a computable concentration and truncation radius, and
there are as many timescales as bins, the conversion to evolving profiles succeeds. -/
theorem c34_succeeds (P : Phys) (a : SidmArgs) (bins : List (ℝ × ℝ)) (tcs : List ℝ) (ls : ℝ)
    (s : Store) (r : Realization) (vs : ℕ → ℝ × ℝ) (hl : Live s r.halos)
    (hA : ∀ a b, 0 ≤ a → a ≤ b → P.A.age b ≤ P.A.age a) (hp : a.profile = "TNFWC")
    (hlen : tcs.length = bins.length)
    (good : ∀ h ∈ r.halos, 0 < (s.obj h).mass ∧ (∃ b ∈ bins, InBin (s.obj h).mass b) ∧
      (s.obj h).mdef = "TNFW" ∧ 0 ≤ (s.obj h).z ∧ (s.obj h).z ≤ 20 ∧
      ∀ note, 0 ≤ P.zEval { s.obj h with note := note } ∧
        (∃ x, P.rt { s.obj h with note := note } = .ok x) ∧
        ∃ x, P.conc { s.obj h with note := note } = .ok x) :
    ∃ s' r', fromTimescale P a bins tcs none ls s r vs = .ok (s', r') := by
  have key : ∃ q, mapHalos (timescaleStep P a bins tcs none ls) s
      (r.halos.zipIdx.map fun p => (p.1, vs p.2)) = .ok q := by
    refine mapHalos_succeeds _ (fun s h i s' h' e => (timescaleStep_step _ _ _ _ _ _ _ _ _ _ _ e).1) _ s
      ?_ s (Reach.refl _ _)
    intro p hpm s' hr
    simp only [List.mem_map, Prod.exists] at hpm
    obtain ⟨h, i, hi, rfl⟩ := hpm
    have hh := List.fst_mem_of_mem_zipIdx hi
    obtain ⟨g1, g2, g3, g4, g5, g6⟩ := good h hh
    have hlt := hl h hh
    have hH := hr.halo hlt
    obtain ⟨g7, ⟨rt, g8⟩, c, g9⟩ := g6 (s'.obj h).note
    rw [← hr.core h hlt] at g7 g8 g9
    obtain ⟨j, hj⟩ : ∃ j, findBin (s'.obj h).mass 0 bins = some j := by
      rw [hH]
      cases hf : findBin (s.obj h).mass 0 bins with
      | some j => exact ⟨j, rfl⟩
      | none =>
        obtain ⟨b, hb, hin⟩ := g2
        exact absurd hin ((findBin_spec _ g1 bins).2.mp hf b hb)
    obtain ⟨⟨b, hb, _⟩, _⟩ := ((findBin_spec _ (by rw [hH]; exact g1) bins).1 j).mp hj
    have hjl : j < tcs.length := by
      rw [hlen]; exact (List.getElem?_eq_some_iff.mp hb).1
    have htc : idx tcs j = .ok tcs[j] := by simp [idx, hjl]
    dsimp only
    unfold timescaleStep
    rw [hj]
    simp only [drawTimescale, htc, bind, Except.bind, pure, Except.pure]
    rw [if_pos (Or.inl (by rw [hH]; exact g3))]
    unfold toSidm
    simp only [bind, Except.bind, pure, Except.pure, throw, throwThe, MonadExceptOf.throw]
    rw [if_neg (by rw [hH]; simpa using g3), g8]
    dsimp only
    rw [g9]
    dsimp only
    rw [if_neg (by simp), if_pos hp]
    simp only [timescale]
    obtain ⟨age, hage⟩ := effAge_total P (s'.obj h) hA (by rw [hH]; exact g4) (by rw [hH]; exact g5)
      (fun _ => g7) (if (s'.obj h).isSubhalo then (10 : ℝ) ^ ls else 1)
    have hna : newAge P (s'.obj h) (if (s'.obj h).isSubhalo = true then some ((10 : ℝ) ^ ls) else some 1)
        = .ok age := by
      rw [← hage]
      unfold newAge effAge Batch.SidmHalo.age
      split_ifs <;> rfl
    simp only [hna]
    split_ifs <;> exact ⟨_, rfl⟩
  obtain ⟨q, hq⟩ := key
  unfold fromTimescale
  simp only [bind, Except.bind, pure, Except.pure, hq]
  exact ⟨_, _, rfl⟩

namespace ExtDemo

/-- Age of a universe that ages; everything else constant. -/
noncomputable def P : Phys where
  A := ⟨fun a b => (b - a) ^ 2, id, fun z => 20 - z, id⟩
  rt := fun _ => .ok 1
  conc := fun _ => .ok 10
  massR200 := fun o => o.mass
  nfw := fun _ => .ok (1, 1, 10)
  mass3d := fun o r => o.mass * r
  logDerivInv := fun _ rs _ => .ok rs
  zEval := fun _ => 2
  zInfall := fun _ => 2
  hasClasses := fun _ => true
  lensParams := fun _ _ _ => []

noncomputable def mk (m z : ℝ) (sub : Bool) (t : Tag) : Obj :=
  { mass := m
    x := 0
    y := 0
    r3d := some 50
    z := z
    mdef := "TNFW"
    tag := t
    isSubhalo := sub
    fixedPosition := false
    boundMass := m / 2
    lensIDs := ["TNFW"]
    lensParams := []
    cls := .tnfw
    args := 0
    zInfall := some 2
    hasBound := sub
    note := none }

/-- A subhalo and a field halo sharing one dictionary. -/
noncomputable def S : Store where
  obj := fun k => if k = 0 then mk 1000 (1 / 2) true 0 else mk 2000 1 false 1
  next := 2
  dict := fun _ => []
  nextDict := 1

noncomputable def R : Realization := { Demo.real with halos := [0, 1] }

theorem live : Live S R.halos := by
  intro h hh
  simp only [R, List.mem_cons, List.not_mem_nil, or_false] at hh
  rcases hh with rfl | rfl <;> simp [S]

/-- the timescale conversion runs on the two halos -/
example : ∃ s' r', fromTimescale P {} [(2, 3), (3, 4)] [0, 1] none 0 S R (fun _ => (0, 0)) = .ok (s', r') ∧
    Converted S R s' r' := by
  obtain ⟨s', r', h⟩ := c34_succeeds P {} [(2, 3), (3, 4)] [0, 1] 0 S R (fun _ => (0, 0)) live
    (fun a b _ h => by simp only [P]; linarith) rfl rfl (by
      have e3 : (10 : ℝ) ^ (3 : ℝ) = 1000 := by
        rw [show (3 : ℝ) = ((3 : ℕ) : ℝ) by norm_num, Real.rpow_natCast]; norm_num
      have e4 : (10 : ℝ) ^ (4 : ℝ) = 10000 := by
        rw [show (4 : ℝ) = ((4 : ℕ) : ℝ) by norm_num, Real.rpow_natCast]; norm_num
      intro h hh
      simp only [R, List.mem_cons, List.not_mem_nil, or_false] at hh
      have c : ∀ note, 0 ≤ P.zEval { S.obj h with note := note } ∧
        (∃ x, P.rt { S.obj h with note := note } = .ok x) ∧
        ∃ x, P.conc { S.obj h with note := note } = .ok x :=
        fun note => ⟨by norm_num [P], ⟨1, rfl⟩, 10, rfl⟩
      rcases hh with rfl | rfl
      · refine ⟨by norm_num [S, mk], ⟨(3, 4), by simp, ?_⟩, rfl, by norm_num [S, mk],
          by norm_num [S, mk], c⟩
        unfold InBin; rw [e3, e4]; norm_num [S, mk]
      · refine ⟨by norm_num [S, mk], ⟨(3, 4), by simp, ?_⟩, rfl, by norm_num [S, mk],
          by norm_num [S, mk], c⟩
        unfold InBin; rw [e3, e4]; norm_num [S, mk])
  exact ⟨s', r', h, c34_timescale _ _ _ _ _ _ _ _ _ live _ _ h⟩

/-- core collapse of the second halo into a generalised NFW halo leaves the first one in place, but its
dictionary now has the arguments of the second one -/
example : ∃ s' r' k, addCoreCollapsed P [1] "GNFW" [("gamma_inner", 3), ("gamma_outer", 3)] S R
      = .ok (s', r') ∧ r'.halos = [0, k] ∧ 2 ≤ k ∧ (s'.obj k).mdef = "PSEUDO_DPL" ∧
    kwGet (s'.dict (s'.obj 0).args) "gamma_inner" = .ok 3 := by
  have hok : ∃ s' r', addCoreCollapsed P [1] "GNFW" [("gamma_inner", 3), ("gamma_outer", 3)] S R
      = .ok (s', r') := by
    simp [addCoreCollapsed, R, mapHalos, collapseHalo, P, bind, Except.bind, pure, Except.pure]
    exact ⟨_, _, rfl⟩
  obtain ⟨s', r', h⟩ := hok
  obtain ⟨hc, hi⟩ := c36_core_collapsed P _ _ _ S R live s' r' h
  obtain ⟨k0, a0, b0, _⟩ := hi 0 0 rfl
  obtain ⟨k1, a1, _, b1⟩ := hi 1 1 rfl
  have e0 := b0 (by simp)
  obtain ⟨e1, e2⟩ := b1 (by simp)
  have hlen : r'.halos.length = 2 := hc.halos.length_eq.symm
  refine ⟨s', r', k1, h, ?_, e1, e2, ?_⟩
  · subst e0
    apply List.ext_getElem?
    intro n
    match n with
    | 0 => simpa using a0
    | 1 => simpa using a1
    | n + 2 => simp [List.getElem?_eq_none_iff.mpr (show r'.halos.length ≤ n + 2 by omega)]
  · rw [c36_shared_dictionary P _ _ _ S R live s' r' (Or.inl rfl) h 1 (by simp) 1 rfl 0 (by simp [S])
      (by simp [S, mk]) "gamma_inner" (by simp)]
    rfl

/-- core formation with an index list -/
example : ∃ s' r', addCored P [0] 1 "CNFW" S R = .ok (s', r') := by
  simp [addCored, R, mapHalos, coredStep, P, bind, Except.bind, pure, Except.pure]
  exact ⟨_, _, rfl⟩

example : ∃ s' r', addCored P [0] 1 "TNFWC" S R = .ok (s', r') := by
  simp [addCored, R, mapHalos, coredStep, toSidm, P, S, mk, bind, Except.bind, pure, Except.pure,
    Store.allocWith, Store.alloc]
  exact ⟨_, _, rfl⟩

/-- injection of galaxies above 1500 solar masses replaces the second halo only; an unknown model raises
with that threshold and not with a higher one -/
example : (∃ s' r', sisInjection P 1500 "SIS" S R = .ok (s', r')) ∧
    (∃ e, sisInjection P 1500 "NFW" S R = .error e) ∧
    ¬ ∃ e, sisInjection P 3000 "NFW" S R = .error e := by
  refine ⟨?_, (c37_unknown_model P 1500 "NFW" S R live).mpr ⟨by decide, by decide, 1, by simp [R], ?_⟩, ?_⟩
  · cases h : sisInjection P 1500 "SIS" S R with
    | ok q => exact ⟨_, _, rfl⟩
    | error e =>
      have := (c37_unknown_model P 1500 "SIS" S R live).mp ⟨e, h⟩
      exact absurd rfl this.2.1
  · norm_num [S, mk]
  · rw [c37_unknown_model P 3000 "NFW" S R live]
    rintro ⟨_, _, h, hh, hm⟩
    simp only [R, List.mem_cons, List.not_mem_nil, or_false] at hh
    rcases hh with rfl | rfl <;> norm_num [S, mk] at hm

/-- the enclosed mass of a scale-free profile has the scaling needed by C73 -/
example : ∀ a R Rs rho : ℝ, 0 < a → (fun R Rs rho : ℝ => rho * Rs ^ 2 * R) (a * R) (a * Rs) rho =
    a ^ 3 * (fun R Rs rho : ℝ => rho * Rs ^ 2 * R) R Rs rho := by
  intro a R Rs rho _
  ring

end ExtDemo

end PyHalo.Props
