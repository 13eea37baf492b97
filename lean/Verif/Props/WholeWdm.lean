import Verif.Props.WholeSheets
import Verif.Props.RunMore
import Verif.Props.RunCount

/-!
# C99: whole calls of `WDM`
-/

namespace PyHalo.Props
open PyHalo PyHalo.Spec PyHalo.Whole PyHalo.Preset PyHalo.Run

theorem wdm_post {E : Preset.Env} {a : WdmArgs} {d : Dicts} {r : Request} (h : (Preset.wdm E a d).1 = .ok r) :
    r.post = (match a.globularClusters with | some n => [.globularClusters n] | none => []) ++
      (match a.sisThreshold with | some t => [.sis t "GNFW"] | none => []) := by
  obtain ⟨-, inf, ms, mf, cs, cf, cHost, -, -, -, has⟩ := wdm_ok h
  have hcusp := (wdmAssemble_ok has).1
  unfold wdmAssemble at has
  obtain ⟨_, -, has⟩ := bind_ok has
  obtain ⟨_, -, has⟩ := bind_ok has
  dsimp only at has
  rw [if_neg (by simp [hcusp])] at has
  cases has
  rfl

/-- A call without its clusters and without its galaxies. -/
noncomputable def Spec99.plain (a : WdmArgs) : WdmArgs := { a with globularClusters := none, sisThreshold := none }

theorem wdm_without {E : Preset.Env} {a : WdmArgs} {d : Dicts} {r : Request} (h : (Preset.wdm E a d).1 = .ok r) :
    (Preset.wdm E (Spec99.plain a) d).1 = .ok { r with post := [] } := by
  obtain ⟨hg, inf, ms, mf, cs, cf, cHost, h1, h2, h3, has⟩ := wdm_ok h
  have hcusp := (wdmAssemble_ok has).1
  have has' : wdmAssemble (Spec99.plain a) inf ms mf cs cf cHost
      (d.truncSub.set "lens_cosmo" (.lensCosmo a.zLens a.zSource a.kwargsCosmo))
      (d.truncField.set "lens_cosmo" (.lensCosmo a.zLens a.zSource a.kwargsCosmo)) = .ok { r with post := [] } := by
    unfold wdmAssemble at has ⊢
    obtain ⟨ts, e1, has⟩ := bind_ok has
    obtain ⟨sp, e2, has⟩ := bind_ok has
    have e1' : truncPart (Spec99.plain a).truncSub (Spec99.plain a).truncField
      (d.truncSub.set "lens_cosmo" (.lensCosmo a.zLens a.zSource a.kwargsCosmo))
      (d.truncField.set "lens_cosmo" (.lensCosmo a.zLens a.zSource a.kwargsCosmo)) cHost = .ok ts := e1
    rw [e1']
    have e2' : spatialPart (Spec99.plain a).spatial (Spec99.plain a).cone (Spec99.plain a).logMHost (Spec99.plain a).zLens cHost
      (Spec99.plain a).rTidal (Val.geometry (Spec99.plain a).zLens (Spec99.plain a).zSource (Spec99.plain a).cone
        (Spec99.plain a).geometryType (Spec99.plain a).kwargsCosmo)
        (Val.lensCosmo (Spec99.plain a).zLens (Spec99.plain a).zSource (Spec99.plain a).kwargsCosmo) = .ok sp := e2
    dsimp only [bind, Except.bind]
    rw [e2']
    dsimp only at has ⊢
    rw [if_neg (by simp [hcusp])] at has
    rw [if_neg (by simp [Spec99.plain, hcusp])]
    cases has
    rfl
  unfold Preset.wdm
  rw [if_neg (not_not.2 (show geometryOk (Spec99.plain a).geometryType from hg))]
  dsimp only
  rw [show (setupInfall E (Spec99.plain a).zLens (Spec99.plain a).infall
    (writeHost (Spec99.plain a).infall (Spec99.plain a).logMHost d.infall)).1 = .ok inf from h1]
  dsimp only
  rw [show wdmMass E (Spec99.plain a) = .ok (ms, mf) from h2]
  dsimp only
  rw [show wdmConc E (Spec99.plain a) ((d.concSub.set "cosmo" (.cosmo (Spec99.plain a).kwargsCosmo)).set "log_mc"
    (.num (Spec99.plain a).logMc)) ((d.concField.set "cosmo" (.cosmo (Spec99.plain a).kwargsCosmo)).set "log_mc"
    (.num (Spec99.plain a).logMc)) = .ok (cs, cf, cHost) from h3]
  exact has'

theorem wdmCall_ok {W : Run.World} {K : Kit} {E : Preset.Env} {a : WdmArgs} {d : Dicts} {p : Ext.Store × Realization}
    (h : wdmCall W K E a d = .ok p) : ∃ r g p₀, (Preset.wdm E a d).1 = .ok r ∧
      geometryOf W a.zLens a.zSource a.cone a.geometryType a.kwargsCosmo = .ok g ∧
      realize W K ⟨a.zLens, a.zSource, a.kwargsCosmo, g⟩ r = .ok p₀ ∧
      r.post.foldlM (applyPost W K a.kwargsCosmo) p₀ = .ok p := by
  unfold wdmCall at h
  obtain ⟨r, hr, h⟩ := bind_ok h
  obtain ⟨g, hg, h⟩ := bind_ok h
  obtain ⟨p₀, hp, h⟩ := bind_ok h
  exact ⟨r, g, p₀, hr, hg, hp, h⟩

/-- **C99**, a whole call of `WDM` without clusters: the halos it returns are the rendered ones (those of C90), in order, with the
numbers, the kind and the tag of their row; those at least as massive as the galaxy threshold have become galaxies. -/
theorem c99_wdm (W : Run.World) (K : Kit) (E : Preset.Env) (a : WdmArgs) (d : Dicts) (s : Ext.Store) (R : Realization)
    (hgc : a.globularClusters = none) (h : wdmCall W K E a d = .ok (s, R)) :
    ∃ rows, runWdm W E a d = .ok rows ∧ Spec94.Injected rows K.tags a.sisThreshold "GNFW" s R ∧
      R.lensCosmo.zLens = a.zLens ∧ R.lensCosmo.zSource = a.zSource ∧ R.applyMassSheet = true := by
  obtain ⟨r, g, ⟨s₀, R₀⟩, hr, hg, hp, h⟩ := wdmCall_ok h
  obtain ⟨rows, hrows, hR, -, c1, c2, c3, -⟩ := c94_realization W K _ r s₀ R₀ hp
  have hrun : runWdm W E a d = .ok rows := by
    unfold runWdm
    rw [hr]
    simp only [bind, Except.bind, hg]
    exact hrows
  refine ⟨rows, hrun, ?_⟩
  rw [wdm_post hr, hgc] at h
  cases ht : a.sisThreshold with
  | none =>
    rw [ht] at h
    simp only [List.append_nil, List.foldlM_nil] at h
    cases h
    exact ⟨hR.injected _, c2, c3, c1⟩
  | some t =>
    rw [ht] at h
    simp only [List.nil_append, List.foldlM_cons, List.foldlM_nil] at h
    obtain ⟨p, hp', h⟩ := bind_ok h
    cases h
    have hs : Ext.sisInjection K.phys t "GNFW" s₀ R₀ = .ok (s, R) := hp'
    obtain ⟨hc, -⟩ := c37_injection K.phys t "GNFW" s₀ R₀ hR.live s R hs
    exact ⟨sis_injected (hR.injected _) hs, by rw [hc.lensCosmo]; exact c2, by rw [hc.lensCosmo]; exact c3,
      by rw [hc.sheets]; exact c1⟩

/-- The realization `(s', R')` is `(s, R)` where the objects (halos or clusters) at least as massive as the threshold, if there is
one, have become galaxies, at the same place in the list, with the same body. -/
def Spec99.Galaxies (thr : Option ℝ) (s : Ext.Store) (R : Realization) (s' : Ext.Store) (R' : Realization) : Prop :=
  R'.halos.length = R.halos.length ∧ ∀ (n : ℕ) (k : Oid), R.halos[n]? = some k → ∃ k', R'.halos[n]? = some k' ∧
    SameHalo (s.obj k).toHalo (s'.obj k').toHalo ∧ ((∀ t, thr = some t → (s.obj k).mass < t) → k' = k) ∧
    ((∃ t, thr = some t ∧ t ≤ (s.obj k).mass) → (s'.obj k').cls = .massiveGalaxy)

/-- **C99**, clusters: a whole call with globular clusters returns what the call without clusters and galaxies returns, and the
clusters; and of all these objects the ones at least as massive as the galaxy threshold have become galaxies. (In `CDM` the
galaxies come before the clusters, so no cluster becomes a galaxy.) -/
theorem c99_wdm_clusters (W : Run.World) (K : Kit) (E : Preset.Env) (a : WdmArgs) (d : Dicts) (n : ℕ)
    (hgc : a.globularClusters = some n) (hC : Spec94.Clusters W K a.kwargsCosmo n a.zLens) (s' : Ext.Store) (R' : Realization)
    (h : wdmCall W K E a d = .ok (s', R')) :
    ∃ s R s₁ R₁, wdmCall W K E (Spec99.plain a) d = .ok (s, R) ∧ Spec94.WithClusters K n s R s₁ R₁ ∧
      Spec99.Galaxies a.sisThreshold s₁ R₁ s' R' := by
  obtain ⟨r, g, ⟨s, R⟩, hr, hg, hp, h⟩ := wdmCall_ok h
  have hplain : wdmCall W K E (Spec99.plain a) d = .ok (s, R) := by
    unfold wdmCall
    rw [wdm_without hr]
    have hg' : geometryOf W (Spec99.plain a).zLens (Spec99.plain a).zSource (Spec99.plain a).cone (Spec99.plain a).geometryType
      (Spec99.plain a).kwargsCosmo = .ok g := hg
    rw [hg']
    simp only [bind, Except.bind]
    have hp' : realize W K ⟨(Spec99.plain a).zLens, (Spec99.plain a).zSource, (Spec99.plain a).kwargsCosmo, g⟩
        { r with post := [] } = .ok (s, R) := hp
    rw [hp']
    rfl
  obtain ⟨rows, -, hI, c1, -⟩ := c99_wdm W K E (Spec99.plain a) d s R rfl hplain
  have c1 : R.lensCosmo.zLens = a.zLens := c1
  have htag : ∀ h ∈ R.halos, ∃ j, (s.obj h).tag = K.tags j := by
    intro k hk
    obtain ⟨i, hi⟩ := List.mem_iff_getElem?.1 hk
    have hil : i < rows.length := by rw [← hI.length]; exact (List.getElem?_eq_some_iff.1 hi).1
    exact ⟨i, (hI.each i _ k (List.getElem?_eq_getElem hil) hi).2.2.2.2.2.2.1⟩
  obtain ⟨s₁, R₁, e, hW⟩ := addClusters_spec (kc := a.kwargsCosmo) (c1 ▸ hC) hI.live htag
  refine ⟨s, R, s₁, R₁, hplain, hW, ?_⟩
  rw [wdm_post hr, hgc] at h
  simp only [List.cons_append, List.nil_append, List.foldlM_cons] at h
  obtain ⟨p, hp', h⟩ := bind_ok h
  have : addClusters W K a.kwargsCosmo n (s, R) = .ok p := hp'
  rw [e] at this
  cases this
  cases ht : a.sisThreshold with
  | none =>
    rw [ht] at h
    cases h
    exact ⟨rfl, fun n k hk => ⟨k, hk, ⟨rfl, rfl, rfl, rfl, rfl, rfl, rfl⟩, fun _ => rfl, fun ⟨t, ht, _⟩ => by cases ht⟩⟩
  | some t =>
    rw [ht] at h
    simp only [List.foldlM_cons, List.foldlM_nil] at h
    obtain ⟨p, hp'', h⟩ := bind_ok h
    cases h
    obtain ⟨-, -, i1, i2⟩ := c37_injection K.phys t "GNFW" s₁ R₁ hW.live s' R' hp''
    refine ⟨i1, fun n k hk => ?_⟩
    obtain ⟨k', j1, j2, -, -, j5, j6⟩ := i2 n k hk
    refine ⟨k', j1, j2, fun h => j5 (h t rfl), fun ⟨u, hu, hm⟩ => ?_⟩
    cases hu
    simpa using (j6 hm).2

/-- **C99**, success: a call of `WDM` whose models are accepted (and whose rendering succeeds, C90) returns a realization, if
the lens is beyond redshift 0.005 and the profiles are known ones. -/
theorem c99_wdm_works (W : Run.World) (hV : Variates W) (K : Kit) (E : Preset.Env) (a : WdmArgs) (d : Dicts) (r : Request)
    (hr : (Preset.wdm E a d).1 = .ok r) (hW : WorldOk W a.kwargsCosmo)
    (hk : ∀ z, Spec90.rendered a.zLens a.zSource a.planeSpacing z → W.kpc a.kwargsCosmo z ≠ 0)
    (h0 : 0.005 < a.zLens) (hl : a.zLens < a.zSource) (lo : ℝ → ℝ)
    (hlo : a.logMlow = .num (lo 0) ∧ (∀ z, lo z = lo 0) ∨
      ∃ m kc l, a.logMlow = .minMass m kc l ∧ ∀ z, lo z = Uldm.minMass (W.om kc) m l z)
    (hlt : ∀ z, Spec90.rendered a.zLens a.zSource a.planeSpacing z → lo z < a.logMhigh)
    (hs : ∀ s, a.planeSpacing = some s → 0 < s) (h1 : 0 ≤ a.sigmaSub) (h2 : 0 ≤ a.losNormalization)
    (hS : Spec91.suppressed a.massSub a.massSubKw) (hF : Spec91.suppressed a.massField a.massFieldKw)
    (hF' : Spec91.fieldName a.massField) (n1 : a.massSubKw "sigma_sub" = none) (n2 : a.massSubKw "dndA" = none)
    (n3 : a.massFieldKw "host_m200" = none)
    (hH : a.spatial = "PROJECTED_NFW" → 0 < a.rTidal ∧ HostOk W a.kwargsCosmo (10 ^ a.logMHost) a.zLens (a.cone / 2))
    (h3 : a.twoHalo = true → Spec90.apart W a.kwargsCosmo a.zLens a.zSource a.planeSpacing)
    (hm : a.mdefSub ∈ Spec94.profiles ∧ a.mdefField ∈ Spec94.profiles) (hgc : a.globularClusters = none) :
    ∃ s R, wdmCall W K E a d = .ok (s, R) := by
  have h0' : 0 < a.zLens := lt_trans (by norm_num) h0
  obtain ⟨rows, hrows⟩ := c90_wdm_works W hV E a d r hr hW h0' hl hs h1 h2
    (hlo.imp (fun h => ⟨_, h.1⟩) (fun ⟨m, kc, l, h, _⟩ => ⟨m, kc, l, h⟩)) hS hF hF' n1 n2 n3 hH h3
  obtain ⟨v, P, G, -, hP, hall⟩ := c90_wdm W hV E a d rows hk lo hlo hlt hH hrows
  have hpos := plane_positive h0 hl hs hP
  unfold runWdm at hrows
  rw [hr] at hrows
  obtain ⟨r', hr', hrows⟩ := bind_ok hrows
  cases hr'
  obtain ⟨g, hg, hrows⟩ := bind_ok hrows
  have hz : ∀ t ∈ rows, t.mdef ∈ Spec94.profiles ∧ 0 < t.z := by
    intro t ht
    obtain ⟨q1, -, -, q4, q5⟩ := hall t ht
    refine ⟨?_, ?_⟩
    · rw [q1]
      split
      · exact hm.2
      · exact hm.1
    · cases hb : t.isSubhalo with
      | true => rw [(q4 hb).1]; exact h0'
      | false =>
        rcases (q5 hb).2.1 with h | h
        · exact hpos _ h
        · rw [h.2]; exact h0'
  obtain ⟨s₀, R₀, hR⟩ := c94_works W K _ r rows hrows hz
  obtain ⟨_, -, hRows, -⟩ := c94_realization W K _ r s₀ R₀ hR
  unfold wdmCall
  rw [hr]
  simp only [bind, Except.bind, hg, hR, wdm_post hr, hgc, List.nil_append]
  cases ht : a.sisThreshold with
  | none => exact ⟨s₀, R₀, rfl⟩
  | some t =>
    simp only [List.foldlM_cons, List.foldlM_nil, applyPost]
    cases he : Ext.sisInjection K.phys t "GNFW" s₀ R₀ with
    | ok p => exact ⟨p.1, p.2, rfl⟩
    | error e =>
      have := (c37_unknown_model K.phys t "GNFW" s₀ R₀ hRows.live).1 ⟨e, he⟩
      exact absurd rfl this.1

/-! ## The cutoff -/

/-- Mass, redshift and kind of the halos of a realization. -/
noncomputable def Spec99.keys (s : Ext.Store) (R : Realization) : List (ℝ × ℝ × Bool) :=
  R.halos.map fun k => ((s.obj k).mass, (s.obj k).z, (s.obj k).isSubhalo)

theorem injected_keys {rows : List HaloArgs} {tags : ℕ → Tag} {thr : Option ℝ} {model : String} {s : Ext.Store} {R : Realization}
    (h : Spec94.Injected rows tags thr model s R) : Spec99.keys s R = rows.map Spec91.key := by
  refine List.ext_getElem (by simp [Spec99.keys, h.length]) fun i h1 h2 => ?_
  simp only [Spec99.keys, List.length_map] at h1 h2
  obtain ⟨a1, -, -, -, a5, a6, -⟩ := h.each i rows[i] R.halos[i] (List.getElem?_eq_getElem h2) (List.getElem?_eq_getElem h1)
  simp [Spec99.keys, Spec91.key, a1, a5, a6]

/-- **C99**, the cutoff: two calls of `WDM` with the same random numbers that differ in `log_mc`. The call with the larger cutoff returns some of the halos of the other call and no others. -/
theorem c99_larger_cutoff (W : Run.World) (hW : Variates W) (K K' : Kit) (E : Preset.Env) (b : WdmArgs) (d d' : Dicts) (x y : ℝ)
    (hxy : x ≤ y) (hlo : (∃ l, b.logMlow = .num l ∧ l ≤ b.logMhigh) ∨
      ∃ m kc l, b.logMlow = .minMass m kc l ∧
        ∀ z, Spec90.rendered b.zLens b.zSource b.planeSpacing z → Uldm.minMass (W.om kc) m l z ≤ b.logMhigh)
    (hS : Spec91.suppressed b.massSub b.massSubKw) (hF : Spec91.suppressed b.massField b.massFieldKw)
    (hgc : b.globularClusters = none) (s s' : Ext.Store) (R R' : Realization)
    (h1 : wdmCall W K E { b with logMc := y } d = .ok (s, R)) (h2 : wdmCall W K' E { b with logMc := x } d' = .ok (s', R')) :
    (Spec99.keys s R).Sublist (Spec99.keys s' R') := by
  obtain ⟨rows, e1, i1, -⟩ := c99_wdm W K E { b with logMc := y } d s R hgc h1
  obtain ⟨rows', e2, i2, -⟩ := c99_wdm W K' E { b with logMc := x } d' s' R' hgc h2
  rw [injected_keys i1, injected_keys i2]
  exact c91_larger_cutoff W hW E b d d' x y hxy hlo hS hF rows rows' e1 e2

/-- **C99**, warm and cold: a call of `WDM` and a call of `CDM` with the same arguments and random numbers. The warm call returns
some of the halos of the cold one and no others. Missing: dictionaries of the mass function with an amplitude or `host_m200`. -/
theorem c99_wdm_cdm_partial (W : Run.World) (hW : Variates W) (K K' : Kit) (E E' : Preset.Env) (a : CdmArgs) (b : WdmArgs)
    (d d' : Dicts) (hm : Spec91.Matching a b) (hlt : a.logMlow ≤ a.logMhigh) (h1 : b.massSubKw "sigma_sub" = none)
    (h2 : b.massSubKw "dndA" = none) (h3 : b.massFieldKw "host_m200" = none) (ha : a.globularClusters = none)
    (hb : b.globularClusters = none) (s s' : Ext.Store) (R R' : Realization) (hc : cdmCall W K E a d = .ok (s, R))
    (hw : wdmCall W K' E' b d' = .ok (s', R')) : (Spec99.keys s' R').Sublist (Spec99.keys s R) := by
  obtain ⟨rows, e1, i1, -⟩ := c94_cdm W K E a d s R ha hc
  obtain ⟨rows', e2, i2, -⟩ := c99_wdm W K' E' b d' s' R' hb hw
  rw [injected_keys i1, injected_keys i2]
  exact c91_wdm_cdm_partial W hW E E' a b d d' hm hlt h1 h2 h3 rows rows' e1 e2

end PyHalo.Props
