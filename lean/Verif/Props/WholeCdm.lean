import Verif.Props.Whole

/-!
# C94: whole calls of `CDM`
-/

namespace PyHalo.Props
open PyHalo PyHalo.Spec PyHalo.Whole PyHalo.Preset PyHalo.Run

/-- The halos of the realization `R` are those of the rendered rows, in their order. A row whose mass reaches the threshold (if
there is one) has become a galaxy, every other row an object that describes it. -/
structure Spec94.Injected (rows : List HaloArgs) (tags : ℕ → Tag) (thr : Option ℝ) (model : String) (s : Ext.Store)
    (R : Realization) : Prop where
  length : R.halos.length = rows.length
  each : ∀ (n : ℕ) (row : HaloArgs) (k : Oid), rows[n]? = some row → R.halos[n]? = some k →
    (s.obj k).mass = row.mass ∧ (s.obj k).x = row.x ∧ (s.obj k).y = row.y ∧ (s.obj k).r3d = row.r3d ∧ (s.obj k).z = row.z ∧
      (s.obj k).isSubhalo = row.isSubhalo ∧ (s.obj k).tag = tags n ∧
      ((∀ t, thr = some t → row.mass < t) → Spec94.Created row (s.obj k)) ∧
      ((∃ t, thr = some t ∧ t ≤ row.mass) →
        (s.obj k).mdef = if model = "GNFW" then "GNFW" else "SIS")
  live : Live s R.halos
  fresh : Fresh s.heap R
  shifted : R.hasBeenShifted = false

theorem Spec94.Rows.length_eq {rows : List HaloArgs} {tags : ℕ → Tag} {d : Kw} {s : Ext.Store} {R : Realization}
    (h : Spec94.Rows rows tags d s R) : R.halos.length = rows.length := h.halos.length_eq.symm

theorem Spec94.Rows.at {rows : List HaloArgs} {tags : ℕ → Tag} {d : Kw} {s : Ext.Store} {R : Realization}
    (h : Spec94.Rows rows tags d s R) {n : ℕ} {row : HaloArgs} {k : Oid} (h1 : rows[n]? = some row)
    (h2 : R.halos[n]? = some k) : Spec94.Created row (s.obj k) := by
  obtain ⟨a1, rfl⟩ := List.getElem?_eq_some_iff.1 h1
  obtain ⟨a2, rfl⟩ := List.getElem?_eq_some_iff.1 h2
  exact (List.forall₂_iff_get.1 h.halos).2 n a1 a2

theorem Spec94.Rows.injected {rows : List HaloArgs} {tags : ℕ → Tag} {d : Kw} {s : Ext.Store} {R : Realization}
    (h : Spec94.Rows rows tags d s R) (model : String) : Spec94.Injected rows tags none model s R := by
  refine ⟨h.length_eq, fun n row k h1 h2 => ?_, h.live, h.fresh, h.shifted⟩
  have c := h.at h1 h2
  exact ⟨c.mass, c.x, c.y, c.r3d, c.z, c.sub, h.tags n k h2, fun _ => c, by simp⟩

theorem sisStep_mdef (P : Ext.Phys) (thr : ℝ) (model : String) (s : Ext.Store) (h : Oid) (v : Unit) (s' : Ext.Store)
    (h' : Oid) (e : Ext.sisStep P thr model s h v = .ok (s', h')) (hm : thr ≤ (s.obj h).mass) :
    (s'.obj h').mdef = if model = "GNFW" then "GNFW" else "SIS" := by
  unfold Ext.sisStep at e
  rw [if_pos hm] at e
  split_ifs at e with c2 c3
  · simp only [Ext.galaxy, Except.ok.injEq] at e
    rw [if_neg (by decide), Prod.ext_iff] at e
    obtain ⟨rfl, rfl⟩ := e
    rw [Ext.allocWith_obj, if_pos c2]
    rfl
  · simp only [Ext.galaxy, Except.ok.injEq] at e
    rw [if_pos trivial, Prod.ext_iff] at e
    obtain ⟨rfl, rfl⟩ := e
    rw [Ext.alloc_obj, if_neg c2]
    rfl

theorem created_note {a : HaloArgs} {o o' : Ext.Obj} (h : Spec94.Created a o) (e : o' = { o with note := o'.note }) :
    Spec94.Created a o' := by
  rw [e]
  exact ⟨h.mass, h.x, h.y, h.r3d, h.z, h.positive, h.sub, h.known, h.models, h.kind, h.moves⟩

theorem sis_injected {P : Ext.Phys} {thr : ℝ} {model : String} {rows : List HaloArgs} {tags : ℕ → Tag} {s s' : Ext.Store}
    {R R' : Realization} (hI : Spec94.Injected rows tags none model s R) (h : Ext.sisInjection P thr model s R = .ok (s', R')) :
    Spec94.Injected rows tags (some thr) model s' R' := by
  have hsh := c37_forgets_shift P thr model s R s' R' h
  obtain ⟨-, hfresh, hlen, -⟩ := c37_injection P thr model s R hI.live s' R' h
  unfold Ext.sisInjection at h
  obtain ⟨⟨s₁, hs⟩, h1, h⟩ := bind_ok h
  cases h
  have hlive : ∀ p ∈ R.halos.map (fun h => (h, ())), p.1 < s.next := by
    intro p hp
    obtain ⟨a, ha, rfl⟩ := List.mem_map.mp hp
    exact hI.live a ha
  obtain ⟨hreach, len, hl', tr⟩ := Ext.mapHalos_trace _
    (fun s h i s' h' e => (sisStep_ok P thr model s h i s' h' e).1) _ s s₁ hs hlive h1
  refine ⟨by rw [hlen, hI.length], fun n row k hrow hk => ?_, hl', hfresh, hsh⟩
  have hn : n < R.halos.length := by rw [hI.length]; exact (List.getElem?_eq_some_iff.1 hrow).1
  obtain ⟨k', a, b, g1, g2, ra, rb, lt⟩ := tr n (R.halos[n], ()) (by simp)
  have hk' : k' = k := Option.some.inj (g1.symm.trans hk)
  subst hk'
  obtain ⟨-, f1, f2, f3, -⟩ := sisStep_ok P thr model a R.halos[n] () b k' g2
  obtain ⟨c1, c2, c3, c4, c5, c6, c7, c8, -⟩ := hI.each n row R.halos[n] hrow (List.getElem?_eq_getElem hn)
  have hkl := hI.live R.halos[n] (List.getElem_mem hn)
  have ha := ra.halo hkl
  have hb := rb.halo lt
  have hmd := sisStep_mdef P thr model a R.halos[n] () b k' g2
  rw [ha] at f1 f2 f3 hmd
  simp only
  rw [hb, f3.mass, f3.x, f3.y, f3.r3d, f3.z, f3.sub, f3.tag]
  refine ⟨c1, c2, c3, c4, c5, c6, c7, fun ht => ?_, fun ht => ?_⟩
  · have hlt := ht thr rfl
    rw [← c1] at hlt
    obtain ⟨rfl, rfl⟩ := f1 hlt
    exact created_note (created_note (c8 (by simp)) (ra.core _ hkl)) (rb.core _ lt)
  · obtain ⟨t, ht, hle⟩ := ht
    cases ht
    rw [← c1] at hle
    exact hmd hle

theorem cdm_post {E : Preset.Env} {a : CdmArgs} {d : Dicts} {r : Request} (h : (cdm E a d).1 = .ok r) :
    r.post = (match a.sisThreshold with | some t => [.sis t a.galaxyModel] | none => []) ++
      (match a.globularClusters with | some n => [.globularClusters n] | none => []) := by
  obtain ⟨-, -, inf, cs, cf, cHost, -, -, has⟩ := cdm_ok h
  unfold cdmAssemble at has
  obtain ⟨_, -, has⟩ := bind_ok has
  obtain ⟨_, -, has⟩ := bind_ok has
  cases has
  rfl

/-- A call without its clusters. -/
noncomputable def Spec94.plain (a : CdmArgs) : CdmArgs := { a with globularClusters := none }

theorem cdm_without {E : Preset.Env} {a : CdmArgs} {d : Dicts} {r : Request} (h : (cdm E a d).1 = .ok r) :
    (cdm E (Spec94.plain a) d).1 = .ok { r with post := match a.sisThreshold with
      | some t => [.sis t a.galaxyModel] | none => [] } := by
  obtain ⟨hg, hp, inf, cs, cf, cHost, h1, h2, has⟩ := cdm_ok h
  have has' : cdmAssemble (Spec94.plain a) inf cs cf cHost
      (d.truncSub.set "lens_cosmo" (.lensCosmo a.zLens a.zSource a.kwargsCosmo))
      (d.truncField.set "lens_cosmo" (.lensCosmo a.zLens a.zSource a.kwargsCosmo)) = .ok { r with post := match a.sisThreshold with
      | some t => [.sis t a.galaxyModel] | none => [] } := by
    unfold cdmAssemble at has ⊢
    obtain ⟨ts, e1, has⟩ := bind_ok has
    obtain ⟨sp, e2, has⟩ := bind_ok has
    have e1' : truncPart (Spec94.plain a).truncSub (Spec94.plain a).truncField
      (d.truncSub.set "lens_cosmo" (.lensCosmo a.zLens a.zSource a.kwargsCosmo))
      (d.truncField.set "lens_cosmo" (.lensCosmo a.zLens a.zSource a.kwargsCosmo)) cHost = .ok ts := e1
    have e2' : spatialPart (Spec94.plain a).spatial (Spec94.plain a).cone (Spec94.plain a).logMHost (Spec94.plain a).zLens cHost
      (Spec94.plain a).rTidal (Val.geometry (Spec94.plain a).zLens (Spec94.plain a).zSource (Spec94.plain a).cone
        (Spec94.plain a).geometryType (Spec94.plain a).kwargsCosmo)
      (Val.lensCosmo (Spec94.plain a).zLens (Spec94.plain a).zSource (Spec94.plain a).kwargsCosmo) = .ok sp := e2
    dsimp only
    rw [e1', e2']
    simp only [bind, Except.bind, pure, Except.pure]
    cases has
    simp only [Except.ok.injEq, Request.mk.injEq]
    and_intros <;> first | trivial | rfl | exact List.append_nil _
  unfold cdm
  rw [if_neg (not_not.2 (show geometryOk (Spec94.plain a).geometryType from hg))]
  dsimp only
  rw [show (setupInfall E (Spec94.plain a).zLens (Spec94.plain a).infall
    (writeHost (Spec94.plain a).infall (Spec94.plain a).logMHost d.infall)).1 = .ok inf from h1]
  dsimp only
  rw [if_neg (not_not.2 (show (Spec94.plain a).profile ∈ _ from hp))]
  rw [show cdmConc E (Spec94.plain a) (d.concSub.set "cosmo" (.cosmo (Spec94.plain a).kwargsCosmo))
    (d.concField.set "cosmo" (.cosmo (Spec94.plain a).kwargsCosmo)) = .ok (cs, cf, cHost) from h2]
  exact has'

theorem cdmCall_ok {W : Run.World} {K : Kit} {E : Preset.Env} {a : CdmArgs} {d : Dicts} {p : Ext.Store × Realization}
    (h : cdmCall W K E a d = .ok p) : ∃ r g p₀, (cdm E a d).1 = .ok r ∧
      geometryOf W a.zLens a.zSource a.cone a.geometryType a.kwargsCosmo = .ok g ∧
      realize W K ⟨a.zLens, a.zSource, a.kwargsCosmo, g⟩ r = .ok p₀ ∧
      r.post.foldlM (applyPost W K a.kwargsCosmo) p₀ = .ok p := by
  unfold cdmCall at h
  obtain ⟨r, hr, h⟩ := bind_ok h
  obtain ⟨g, hg, h⟩ := bind_ok h
  obtain ⟨p₀, hp, h⟩ := bind_ok h
  exact ⟨r, g, p₀, hr, hg, hp, h⟩

/-- **C94**, a whole call of `CDM` without clusters: the halos it returns are the rendered ones (those of C90), in order, with the
numbers, the kind and the tag of their row; those at least as massive as the galaxy threshold have become galaxies. -/
theorem c94_cdm (W : Run.World) (K : Kit) (E : Preset.Env) (a : CdmArgs) (d : Dicts) (s : Ext.Store) (R : Realization)
    (hgc : a.globularClusters = none) (h : cdmCall W K E a d = .ok (s, R)) :
    ∃ rows, runCdm W E a d = .ok rows ∧ Spec94.Injected rows K.tags a.sisThreshold a.galaxyModel s R ∧
      R.lensCosmo.zLens = a.zLens ∧ R.lensCosmo.zSource = a.zSource ∧ R.applyMassSheet = true := by
  obtain ⟨r, g, ⟨s₀, R₀⟩, hr, hg, hp, h⟩ := cdmCall_ok h
  obtain ⟨rows, hrows, hR, -, c1, c2, c3, -⟩ := c94_realization W K _ r s₀ R₀ hp
  have hrun : runCdm W E a d = .ok rows := by
    unfold runCdm
    rw [hr]
    simp only [bind, Except.bind, hg]
    exact hrows
  refine ⟨rows, hrun, ?_⟩
  rw [cdm_post hr, hgc] at h
  cases ht : a.sisThreshold with
  | none =>
    rw [ht] at h
    simp only [List.append_nil, List.foldlM_nil] at h
    cases h
    exact ⟨hR.injected _, c2, c3, c1⟩
  | some t =>
    rw [ht] at h
    simp only [List.append_nil, List.foldlM_cons, List.foldlM_nil] at h
    obtain ⟨p, hp', h⟩ := bind_ok h
    cases h
    have hs : Ext.sisInjection K.phys t a.galaxyModel s₀ R₀ = .ok (s, R) := hp'
    obtain ⟨hc, -⟩ := c37_injection K.phys t a.galaxyModel s₀ R₀ hR.live s R hs
    exact ⟨sis_injected (hR.injected _) hs, by rw [hc.lensCosmo]; exact c2, by rw [hc.lensCosmo]; exact c3,
      by rw [hc.sheets]; exact c1⟩

theorem foldl_max_le (l : List Oid) : ∀ n : ℕ, n ≤ l.foldl (fun n k => max n (k + 1)) n ∧
    ∀ k ∈ l, k + 1 ≤ l.foldl (fun n k => max n (k + 1)) n := by
  induction l with
  | nil => intro n; simp
  | cons a t ih =>
    intro n
    simp only [List.foldl_cons]
    obtain ⟨h1, h2⟩ := ih (max n (a + 1))
    refine ⟨le_trans (le_max_left _ _) h1, fun k hk => ?_⟩
    rcases List.mem_cons.1 hk with rfl | hk
    · exact le_trans (le_max_right _ _) h1
    · exact h2 k hk

theorem lift_live (s : Ext.Store) (σ : Heap) (r : Realization) : Live (lift s σ r) r.halos := by
  intro k hk
  exact (foldl_max_le r.halos s.next).2 k hk

theorem lift_old (s : Ext.Store) (σ : Heap) (r : Realization) {k : Oid} (hk : k < s.next) : (lift s σ r).obj k = s.obj k := by
  simp only [lift, if_pos hk]

theorem lift_new (s : Ext.Store) (σ : Heap) (r : Realization) {k : Oid} (hk : s.next ≤ k) :
    ((lift s σ r).obj k).toHalo = σ k := by
  simp only [lift, if_neg (Nat.not_lt.2 hk)]

theorem lift_heap (s : Ext.Store) (σ : Heap) (r : Realization) (h : ∀ k < s.next, σ k = s.heap k) : (lift s σ r).heap = σ := by
  funext k
  by_cases hk : k < s.next
  · rw [h k hk]
    unfold Ext.Store.heap
    rw [lift_old s σ r hk]
  · exact lift_new s σ r (Nat.le_of_not_lt hk)

theorem addClusters_ok {W : Run.World} {K : Kit} {kc n : ℕ} {p q : Ext.Store × Realization} (h : addClusters W K kc n p = .ok q) :
    ∃ σ, Pop.addGlobularClusters (K.gc n).1 K.gcParams (K.pointMass kc) (W.kpc kc p.2.lensCosmo.zLens) p.1.heap p.1.next p.2
      (K.gc n).2.1 (K.gc n).2.2 K.gcDraw = .ok (σ, q.2) ∧ q.1 = lift p.1 σ q.2 := by
  unfold addClusters at h
  obtain ⟨⟨σ, r⟩, h1, h⟩ := bind_ok h
  cases h
  exact ⟨σ, h1, rfl⟩

/-- What clusters need: a known profile, a non-negative surface density, a non-empty list of centres, uniform variates, and
tags different from each other and from those of the halos. -/
structure Spec94.Clusters (W : Run.World) (K : Kit) (kc n : ℕ) (zLens : ℝ) : Prop where
  profile : (K.gc n).1.profile = "SPL_CORE" ∨ (K.gc n).1.profile = "PTMASS"
  surface : 0 ≤ (K.gc n).1.surface
  scale : W.kpc kc zLens ≠ 0
  variates : ∀ k i, 0 ≤ (K.gcDraw k).radius i ∧ (K.gcDraw k).radius i ≤ 1
  centres : (K.gc n).2.1.length = (K.gc n).2.2.length
  some : (K.gc n).2.1 ≠ []
  tags : ∀ k i k' i', ((K.gcDraw k).var i).tag = ((K.gcDraw k').var i').tag → k = k' ∧ i = i'
  apart : ∀ j k i, K.tags j ≠ ((K.gcDraw k).var i).tag

/-- The result `(s', R')` has besides the halos of `(s, R)`, whose objects are unchanged, exactly the groups of clusters that
were drawn, one per centre (C38). -/
structure Spec94.WithClusters (K : Kit) (n : ℕ) (s : Ext.Store) (R : Realization) (s' : Ext.Store) (R' : Realization) :
    Prop where
  groups : ∃ groups : List (List Halo), Added s.heap s'.heap s.next groups.flatten R R' ∧
    groups.length = (K.gc n).2.1.length ∧
    ∀ (k : ℕ) (g : List Halo) (x y : ℝ), groups[k]? = some g → (K.gc n).2.1[k]? = some x → (K.gc n).2.2[k]? = some y →
      ClusterGroup (K.gc n).1 (K.gcDraw k) R.lensCosmo.zLens x y g
  objects : ∀ h ∈ R.halos, s'.obj h = s.obj h
  live : Live s' R'.halos

theorem addClusters_spec {W : Run.World} {K : Kit} {kc n : ℕ} {s : Ext.Store} {R : Realization}
    (hC : Spec94.Clusters W K kc n R.lensCosmo.zLens) (hl : Live s R.halos) (ht : ∀ h ∈ R.halos, ∃ j, (s.obj h).tag = K.tags j) :
    ∃ s' R', addClusters W K kc n (s, R) = .ok (s', R') ∧ Spec94.WithClusters K n s R s' R' := by
  obtain ⟨σ, R', groups, h1, h2, h3, h4⟩ := c38_globular_clusters (K.gc n).1 K.gcParams (K.pointMass kc)
    (W.kpc kc R.lensCosmo.zLens) s.heap s.next R (K.gc n).2.1 (K.gc n).2.2 K.gcDraw hC.profile hC.surface hC.scale hC.variates
    hC.centres hC.some hl hC.tags (fun h hh k i => by
      obtain ⟨j, hj⟩ := ht h hh
      show (s.obj h).tag ≠ _
      rw [hj]
      exact hC.apart j k i)
  have hheap : (lift s σ R').heap = σ := lift_heap s σ R' h2.old
  refine ⟨lift s σ R', R', ?_, ⟨groups, by rw [hheap]; exact h2, h3, h4⟩, fun h hh => lift_old s σ R' (hl h hh),
    lift_live s σ R'⟩
  unfold addClusters
  simp only [h1, bind, Except.bind, pure, Except.pure]

/-- **C94**, clusters: a whole call with globular clusters returns what the call without them returns, and the clusters. -/
theorem c94_cdm_clusters (W : Run.World) (K : Kit) (E : Preset.Env) (a : CdmArgs) (d : Dicts) (n : ℕ)
    (hgc : a.globularClusters = some n) (hC : Spec94.Clusters W K a.kwargsCosmo n a.zLens) (s' : Ext.Store) (R' : Realization)
    (h : cdmCall W K E a d = .ok (s', R')) :
    ∃ s R, cdmCall W K E (Spec94.plain a) d = .ok (s, R) ∧ Spec94.WithClusters K n s R s' R' := by
  obtain ⟨r, g, p₀, hr, hg, hp, h⟩ := cdmCall_ok h
  rw [cdm_post hr, hgc, List.foldlM_append] at h
  obtain ⟨⟨s, R⟩, h1, h2⟩ := bind_ok h
  have hplain : cdmCall W K E (Spec94.plain a) d = .ok (s, R) := by
    unfold cdmCall
    rw [cdm_without hr]
    have hg' : geometryOf W (Spec94.plain a).zLens (Spec94.plain a).zSource (Spec94.plain a).cone (Spec94.plain a).geometryType
      (Spec94.plain a).kwargsCosmo = .ok g := hg
    rw [hg']
    simp only [bind, Except.bind]
    have hp' : realize W K ⟨(Spec94.plain a).zLens, (Spec94.plain a).zSource, (Spec94.plain a).kwargsCosmo, g⟩
        { r with post := match a.sisThreshold with | some t => [Post.sis t a.galaxyModel] | none => [] } = .ok p₀ := hp
    rw [hp']
    exact h1
  refine ⟨s, R, hplain, ?_⟩
  obtain ⟨rows, -, hI, c1, -⟩ := c94_cdm W K E (Spec94.plain a) d s R rfl hplain
  have c1 : R.lensCosmo.zLens = a.zLens := c1
  have htag : ∀ h ∈ R.halos, ∃ j, (s.obj h).tag = K.tags j := by
    intro k hk
    obtain ⟨i, hi⟩ := List.mem_iff_getElem?.1 hk
    have hil : i < rows.length := by rw [← hI.length]; exact (List.getElem?_eq_some_iff.1 hi).1
    exact ⟨i, (hI.each i _ k (List.getElem?_eq_getElem hil) hi).2.2.2.2.2.2.1⟩
  obtain ⟨s₂, R₂, e, hW⟩ := addClusters_spec (kc := a.kwargsCosmo) (c1 ▸ hC) hI.live htag
  simp only [List.foldlM_cons, List.foldlM_nil] at h2
  obtain ⟨p, hp', h2⟩ := bind_ok h2
  cases h2
  have : addClusters W K a.kwargsCosmo n (s, R) = .ok (s', R') := hp'
  rw [e] at this
  cases this
  exact hW

theorem plane_positive {zl zs : ℝ} {sp : Option ℝ} (h0 : 0.005 < zl) (hl : zl < zs) (hs : ∀ s, sp = some s → 0 < s)
    {P G : List ℝ} (h : lensPlanes (some zl) zs sp = .ok (P, G)) : ∀ z ∈ P, 0 < z := by
  have hs' : 0 < sp.getD 0.02 := by
    cases sp with
    | none => norm_num
    | some s => exact hs s rfl
  obtain ⟨h1, h2, h3, h4, h5⟩ := rawPlanes_some (zl := zl) (zs := zs) hs' hl
  have e : lensPlanes (some zl) zs (some (sp.getD 0.02)) = .ok (P, G) := by
    rw [← h]
    cases sp <;> rfl
  unfold lensPlanes at e
  obtain ⟨gaps, -, e⟩ := bind_ok e
  cases e
  intro z hz
  obtain ⟨x, hx, rfl⟩ := List.mem_map.1 hz
  have hx1 := (h3 x hx).1
  have hlt : (0.005 : ℝ) < x := lt_of_lt_of_le (lt_min (by norm_num) h0) hx1
  have := (abs_le.1 (Np.abs_round2_sub x)).1
  norm_num at hlt ⊢
  linarith

/-- **C94**, success: a call of `CDM` whose models are accepted (and whose rendering succeeds, C90) returns a realization, if
the lens is beyond redshift 0.005 and the galaxy model is a known one. -/
theorem c94_cdm_works (W : Run.World) (hV : Variates W) (K : Kit) (E : Preset.Env) (a : CdmArgs) (d : Dicts) (r : Request)
    (hr : (cdm E a d).1 = .ok r) (hW : WorldOk W a.kwargsCosmo)
    (hk : ∀ z, Spec90.rendered a.zLens a.zSource a.planeSpacing z → W.kpc a.kwargsCosmo z ≠ 0)
    (h0 : 0.005 < a.zLens) (hl : a.zLens < a.zSource) (hlt : a.logMlow < a.logMhigh)
    (hs : ∀ s, a.planeSpacing = some s → 0 < s) (h1 : 0 ≤ a.sigmaSub) (h2 : 0 ≤ a.losNormalization)
    (hH : a.spatial = "PROJECTED_NFW" → 0 < a.rTidal ∧ HostOk W a.kwargsCosmo (10 ^ a.logMHost) a.zLens (a.cone / 2))
    (h3 : a.twoHalo = true → Spec90.apart W a.kwargsCosmo a.zLens a.zSource a.planeSpacing)
    (hm : a.galaxyModel = "GNFW" ∨ a.galaxyModel = "SIS") (hgc : a.globularClusters = none) :
    ∃ s R, cdmCall W K E a d = .ok (s, R) := by
  have h0' : 0 < a.zLens := lt_trans (by norm_num) h0
  obtain ⟨rows, hrows⟩ := c90_cdm_works W hV E a d r hr hW h0' hl hs h1 h2 hH h3
  obtain ⟨v, P, G, -, hP, hall⟩ := c90_cdm W hV E a d rows hk hlt hH hrows
  have hpos := plane_positive h0 hl hs hP
  unfold runCdm at hrows
  rw [hr] at hrows
  obtain ⟨r', hr', hrows⟩ := bind_ok hrows
  cases hr'
  obtain ⟨g, hg, hrows⟩ := bind_ok hrows
  have hprof := (cdm_ok hr).2.1
  have hz : ∀ t ∈ rows, t.mdef ∈ Spec94.profiles ∧ 0 < t.z := by
    intro t ht
    obtain ⟨q1, -, -, q4, q5⟩ := hall t ht
    refine ⟨?_, ?_⟩
    · rw [q1]
      simp only [List.mem_cons, List.not_mem_nil, or_false] at hprof
      rcases hprof with h | h | h <;> simp [h, Spec94.profiles]
    · cases hb : t.isSubhalo with
      | true => rw [(q4 hb).1]; exact h0'
      | false =>
        rcases (q5 hb).2.1 with h | h
        · exact hpos _ h
        · rw [h.2]; exact h0'
  obtain ⟨s₀, R₀, hR⟩ := c94_works W K _ r rows hrows hz
  obtain ⟨_, -, hRows, -⟩ := c94_realization W K _ r s₀ R₀ hR
  unfold cdmCall
  rw [hr]
  simp only [bind, Except.bind, hg, hR, cdm_post hr, hgc, List.append_nil]
  cases ht : a.sisThreshold with
  | none => exact ⟨s₀, R₀, rfl⟩
  | some t =>
    simp only [List.foldlM_cons, List.foldlM_nil, applyPost]
    cases he : Ext.sisInjection K.phys t a.galaxyModel s₀ R₀ with
    | ok p => exact ⟨p.1, p.2, rfl⟩
    | error e =>
      have := (c37_unknown_model K.phys t a.galaxyModel s₀ R₀ hRows.live).1 ⟨e, he⟩
      rcases hm with hm | hm
      · exact absurd hm this.1
      · exact absurd hm this.2.1

end PyHalo.Props
