import Verif.Lemmas.Run
import Verif.Props.Planes

/-!
# Whole calls of the presets

Properties C90, C91, C92 and C93: what holds for the halos a preset returns, whatever the random numbers.
-/

namespace PyHalo.Props
open PyHalo.Run Preset Spec

/-! ## Every halo of a call (C90) -/

/-- Where the halos of a call come from. -/
theorem render_mem {W : Run.World} {S : Setup} {scale : ℝ} {r : Request} {out : List HaloArgs}
    (h : render W S scale r = .ok out) :
    ∃ planes gaps, lensPlanes (some S.zLens) S.zSource r.planeSpacing = .ok (planes, gaps) ∧
      ∀ t ∈ out, t.mdef = (if t.isSubhalo then r.mdefField else r.mdefSub) ∧
        ∃ p ∈ r.populations.zipIdx, ∃ q mc mkw sc skw, r.massFunctions[p.2]? = some mc ∧ r.massKwargs[p.2]? = some mkw ∧
          r.spatials[p.2]? = some sc ∧ r.spatialKwargs[p.2]? = some skw ∧
          population W S r.lazar scale planes gaps p.2 p.1 mc mkw sc skw = .ok q ∧ rowOf t ∈ rows q := by
  obtain ⟨planes, gaps, qs, h1, h2, -, h3, h4⟩ := render_ok h
  refine ⟨planes, gaps, h1, fun t ht => ⟨h4 t ht, ?_⟩⟩
  have hr : rowOf t ∈ qs.flatMap rows := by rw [← h3]; exact List.mem_map_of_mem ht
  obtain ⟨q, hq, hr⟩ := List.mem_flatMap.1 hr
  have hm : (Except.ok q : Except Err PopOut) ∈ r.populations.zipIdx.map (populationAt W S scale r planes gaps) := by
    rw [h2]; exact List.mem_map_of_mem hq
  obtain ⟨p, hp, he⟩ := List.mem_map.1 hm
  obtain ⟨mc, mkw, sc, skw, e1, e2, e3, e4, e5⟩ := populationAt_ok he
  exact ⟨p, hp, q, mc, mkw, sc, skw, e1, e2, e3, e4, e5, hr⟩

/-- A member of the subhalo population. -/
theorem sub_member {W : Run.World} (hW : Variates W) {S : Setup} {lazar : Bool} {scale : ℝ} {planes gaps : List ℝ} {i : ℕ}
    {mc : Cls} {mkw : Kwargs} {sc : Cls} {skw : Kwargs} {q : PopOut} {lo hi : ℝ → ℝ}
    (hlo : limit W mkw "log_mlow" = .ok lo) (hhi : limit W mkw "log_mhigh" = .ok hi) (hlt : lo S.zLens < hi S.zLens)
    (h : population W S lazar scale planes gaps i "SUBHALOS" mc mkw sc skw = .ok q) {t : HaloArgs} (ht : rowOf t ∈ rows q) :
    t.isSubhalo = true ∧ t.z = S.zLens ∧ (10 : ℝ) ^ lo S.zLens ≤ t.mass ∧ t.mass < (10 : ℝ) ^ hi S.zLens ∧
      ∃ s n x y r, subSpatial W i S.zLens sc skw = .ok s ∧ subPositions s (W.kpc S.kc S.zLens) n = .ok (x, y, r) ∧
        (t.x, t.y, t.r3d) ∈ x.zip (y.zip r) := by
  rcases population_ok h with ⟨-, s, lo', hi', hs, h1, h2, h3⟩ | ⟨h', -⟩ | ⟨h', -⟩
  · rw [hlo] at h1
    rw [hhi] at h2
    cases h1
    cases h2
    obtain ⟨hd, hr⟩ := sub_rows (subSpatial_draws hs) h3
    obtain ⟨e1, e2, e3, x, y, r, e4, e5⟩ := hr _ ht
    obtain ⟨m1, m2⟩ := subModel_range hW hlt hd _ e1
    exact ⟨e3, e2, m1, m2, s, _, x, y, r, hs, e4, e5⟩
  · simp at h'
  · simp at h'

/-- The redshifts at which halos are rendered: that of the lens and those of the planes. -/
def Spec90.rendered (zl zs : ℝ) (spacing : Option ℝ) (z : ℝ) : Prop :=
  z = zl ∨ ∃ P G, lensPlanes (some zl) zs spacing = .ok (P, G) ∧ z ∈ P

/-- A member of a line-of-sight population. -/
theorem los_member {W : Run.World} (hW : Variates W) {S : Setup} {lazar : Bool} {scale : ℝ} {planes gaps : List ℝ} {i : ℕ}
    {mc : Cls} {mkw : Kwargs} {sc : Cls} {skw : Kwargs} {q : PopOut} {lo hi : ℝ → ℝ}
    (hlo : limit W mkw "log_mlow" = .ok lo) (hhi : limit W mkw "log_mhigh" = .ok hi) (hlt : ∀ z ∈ planes, lo z < hi z)
    (h : population W S lazar scale planes gaps i "LINE_OF_SIGHT" mc mkw sc skw = .ok q) {t : HaloArgs}
    (ht : rowOf t ∈ rows q) :
    t.isSubhalo = false ∧ t.z ∈ planes ∧ t.r3d = none ∧ (10 : ℝ) ^ lo t.z ≤ t.mass ∧ t.mass < (10 : ℝ) ^ hi t.z ∧
      ∃ s k n x y, flatSpatial W i sc skw = .ok s ∧ renderPositionsAtZ s (W.kpc S.kc) k t.z n = .ok (x, y) ∧
        (t.x, t.y) ∈ x.zip y := by
  rcases population_ok h with ⟨h', -⟩ | ⟨-, s, c, hs, hc, h3⟩ | ⟨h', -⟩
  · simp at h'
  · obtain ⟨lo', hi', h1, h2, rfl⟩ := losClassOf_ok hc
    rw [hlo] at h1
    rw [hhi] at h2
    cases h1
    cases h2
    obtain ⟨k, z, dz, m, x, y, e1, e2, e3, e4, e5, e6, e7, e8⟩ := los_rows (flatSpatial_draws hs) h3 _ ht
    simp only [rowOf] at e3 e4 e5 e6 e8
    subst e5
    have hz := (List.of_mem_zip (List.mem_of_getElem? e1)).1
    obtain ⟨m1, m2⟩ := losModel_range hW (hlt t.z hz) e2 _ e3
    exact ⟨e6, hz, e4, m1, m2, s, k, _, x, y, hs, e7, e8⟩
  · simp at h'

theorem set_limit (W : Run.World) (kw : Kwargs) (k : String) (v : Val) (key : String) (h : key ≠ k) :
    limit W (kw.set k v) key = limit W kw key := by
  unfold limit
  rw [show kw.set k v key = kw key by simp [Kwargs.set, h]]

theorem twoHaloSetup_kw {W : Run.World} {S : Setup} {lazar : Bool} {scale : ℝ} {planes gaps : List ℝ} {kw : Kwargs}
    {dz : ℝ} {kw' : Kwargs} (h : twoHaloSetup W S lazar scale planes gaps kw = .ok (dz, kw')) :
    ∃ x, kw' = kw.set "LOS_normalization" (.num x) := by
  unfold twoHaloSetup at h
  obtain ⟨_, -, h⟩ := bind_ok h
  obtain ⟨_, -, h⟩ := bind_ok h
  obtain ⟨_, -, h⟩ := bind_ok h
  obtain ⟨_, -, h⟩ := bind_ok h
  obtain ⟨_, -, h⟩ := bind_ok h
  cases h
  exact ⟨_, rfl⟩

/-- A member of the two-halo population. -/
theorem twoHalo_member {W : Run.World} (hW : Variates W) {S : Setup} {lazar : Bool} {scale : ℝ} {planes gaps : List ℝ} {i : ℕ}
    {mc : Cls} {mkw : Kwargs} {sc : Cls} {skw : Kwargs} {q : PopOut} {lo hi : ℝ → ℝ}
    (hlo : limit W mkw "log_mlow" = .ok lo) (hhi : limit W mkw "log_mhigh" = .ok hi) (hlt : lo S.zLens < hi S.zLens)
    (h : population W S lazar scale planes gaps i "TWO_HALO" mc mkw sc skw = .ok q) {t : HaloArgs} (ht : rowOf t ∈ rows q) :
    t.isSubhalo = false ∧ t.z = S.zLens ∧ t.r3d = none ∧ (10 : ℝ) ^ lo S.zLens ≤ t.mass ∧ t.mass < (10 : ℝ) ^ hi S.zLens ∧
      ∃ s k n x y, flatSpatial W i sc skw = .ok s ∧ renderPositionsAtZ s (W.kpc S.kc) k t.z n = .ok (x, y) ∧
        (t.x, t.y) ∈ x.zip y := by
  rcases population_ok h with ⟨h', -⟩ | ⟨h', -⟩ | ⟨-, s, dz, kw, lo', hi', hs, hkw, h1, h2, h3⟩
  · simp at h'
  · simp at h'
  · obtain ⟨x, rfl⟩ := twoHaloSetup_kw hkw
    rw [set_limit _ _ _ _ _ (by decide), hlo] at h1
    rw [set_limit _ _ _ _ _ (by decide), hhi] at h2
    cases h1
    cases h2
    obtain ⟨hd, hr⟩ := twoHalo_rows (flatSpatial_draws hs) h3
    obtain ⟨e1, e2, e3, e4, x, y, e5, e6⟩ := hr _ ht
    obtain ⟨m1, m2⟩ := losModel_range hW hlt hd _ e1
    simp only [rowOf] at e2 e3 e4 e6 m1 m2
    exact ⟨e4, e3, e2, m1, m2, s, 0, _, x, y, hs, by rw [e3]; exact e5, e6⟩

/-- The common form of the requests of `CDM` and `WDM`. -/
structure StdRequest (W : Run.World) (r : Request) (zl zs cone host rTidal : ℝ) (spatial type : String) (kc : ℕ) (two : Bool)
    (spacing : Option ℝ) (lo hi : ℝ → ℝ) : Prop where
  pops : r.populations = ["SUBHALOS", "LINE_OF_SIGHT"] ++ if two then ["TWO_HALO"] else []
  mass : ∀ (i : ℕ) kw, r.massKwargs[i]? = some kw → limit W kw "log_mlow" = .ok lo ∧ limit W kw "log_mhigh" = .ok hi
  sub : ∃ c sp spKw, r.spatials[0]? = some sp ∧ r.spatialKwargs[0]? = some spKw ∧
    spatialPart spatial cone host zl c rTidal (.geometry zl zs cone type kc) (.lensCosmo zl zs kc) = .ok (sp, spKw)
  field : ∀ i ∈ ([1, 2] : List ℕ), ∀ c, r.spatials[i]? = some c → c = .named "LensConeUniform"
  fieldKw : ∀ i ∈ ([1, 2] : List ℕ), ∀ kw, r.spatialKwargs[i]? = some kw →
    kw = Kwargs.ofList [("cone_opening_angle", .num cone), ("geometry", .geometry zl zs cone type kc)]
  planes : r.planeSpacing = spacing

/-- Every halo of such a request. -/
theorem std_halos {W : Run.World} (hW : Variates W) {r : Request} {zl zs cone host rTidal : ℝ} {spatial type : String} {kc : ℕ}
    {two : Bool} {spacing : Option ℝ} {lo hi : ℝ → ℝ} (hr : StdRequest W r zl zs cone host rTidal spatial type kc two spacing lo hi)
    (hk : ∀ z, Spec90.rendered zl zs spacing z → W.kpc kc z ≠ 0) (hlt : ∀ z, Spec90.rendered zl zs spacing z → lo z < hi z)
    (hH : spatial = "PROJECTED_NFW" → 0 < rTidal ∧ HostOk W kc (10 ^ host) zl (cone / 2)) {g : Geometry}
    (hg : geometryOf W zl zs cone type kc = .ok g) {scale : ℝ} {out : List HaloArgs}
    (h : render W ⟨zl, zs, kc, g⟩ scale r = .ok out) :
    ∃ P G, lensPlanes (some zl) zs spacing = .ok (P, G) ∧
      ∀ t ∈ out, t.mdef = (if t.isSubhalo then r.mdefField else r.mdefSub) ∧
        (10 : ℝ) ^ lo t.z ≤ t.mass ∧ t.mass < (10 : ℝ) ^ hi t.z ∧
        (t.isSubhalo = true → t.z = zl ∧ t.x ^ 2 + t.y ^ 2 ≤ (cone / 2) ^ 2 ∧ (spatial = "UNIFORM" → t.r3d = none) ∧
          (spatial = "PROJECTED_NFW" → ∃ d, t.r3d = some d ∧ 0 < d ∧ d ≤ W.hostR200 kc (10 ^ host) zl * 1000)) ∧
        (t.isSubhalo = false → t.r3d = none ∧ (t.z ∈ P ∨ two = true ∧ t.z = zl) ∧
          t.x ^ 2 + t.y ^ 2 ≤ (cone / 2 * g.renderingScale t.z) ^ 2) := by
  obtain ⟨P, G, hP, hm⟩ := render_mem h
  rw [hr.planes] at hP
  refine ⟨P, G, hP, fun t ht => ?_⟩
  obtain ⟨h0, p, hp, q, mc, mkw, sc, skw, e1, e2, e3, e4, e5, e6⟩ := hm t ht
  obtain ⟨hlo, hhi⟩ := hr.mass _ _ e2
  refine ⟨h0, ?_⟩
  have hpos : W.kpc kc t.z ≠ 0 → ∀ i ∈ ([1, 2] : List ℕ), r.spatials[i]? = some sc → r.spatialKwargs[i]? = some skw → ∀ s k n x y,
      flatSpatial W i sc skw = .ok s → renderPositionsAtZ s (W.kpc kc) k t.z n = .ok (x, y) → (t.x, t.y) ∈ x.zip y →
      t.x ^ 2 + t.y ^ 2 ≤ (cone / 2 * g.renderingScale t.z) ^ 2 := by
    intro hz i hi a1 a2 s k n x y a3 a4 a5
    rw [hr.field i hi _ a1, hr.fieldKw i hi _ a2] at a3
    obtain ⟨g', b1, b2⟩ := cone_positions (zl := zl) (zs := zs) (cone := cone) (cone' := cone) (type := type) hW hz a3 (by simp [ofList_cons]) (by simp [ofList_cons]) a4
    rw [hg] at b1
    cases b1
    exact b2 _ a5
  have hp' : p = ("SUBHALOS", 0) ∨ p = ("LINE_OF_SIGHT", 1) ∨ (p = ("TWO_HALO", 2) ∧ two = true) := by
    rw [hr.pops] at hp
    cases two <;> simp at hp <;> simp [hp]
  rcases hp' with rfl | rfl | ⟨rfl, htwo⟩
  · obtain ⟨f1, f2, f3, f4, s, n, x, y, rr, f5, f6, f7⟩ := sub_member hW hlo hhi (hlt _ (.inl rfl)) e5 e6
    simp only at f2 f3 f4 f5 f6
    rw [f2]
    refine ⟨f3, f4, fun _ => ⟨rfl, ?_⟩, (fun hf => by rw [f1] at hf; cases hf)⟩
    obtain ⟨c, sp, spKw, b1, b2, b3⟩ := hr.sub
    simp only at e3 e4
    rw [b1] at e3
    rw [b2] at e4
    cases e3
    cases e4
    unfold spatialPart at b3
    by_cases hu : spatial = "UNIFORM"
    · rw [if_pos hu] at b3
      cases b3
      have := uniform_positions (zl := zl) (zs := zs) (cone := cone) (rmax := cone / 2) (type := type) hW (hk zl (.inl rfl)) f5 (by simp [ofList_cons]) (by simp [ofList_cons]) f6 _ f7
      exact ⟨this.1, fun _ => this.2, fun hs => by rw [hu] at hs; simp at hs⟩
    · rw [if_neg hu] at b3
      by_cases hn : spatial = "PROJECTED_NFW"
      · rw [if_pos hn] at b3
        cases b3
        obtain ⟨ht0, hho⟩ := hH hn
        have := nfw_positions (zl := zl) (zs := zs) (c := c) hW hho ht0 f5 (by simp [ofList_cons]) (by simp [ofList_cons]) (by simp [ofList_cons])
          (by simp [ofList_cons]) (by simp [ofList_cons]) (by simp [ofList_cons]) f6 _ f7
        exact ⟨this.1, fun hs => absurd hs hu, fun _ => this.2⟩
      · rw [if_neg hn] at b3
        cases b3
  · obtain ⟨f1, f2, f3, f4, f5, s, k, n, x, y, f6, f7, f8⟩ := los_member hW hlo hhi (fun z hz => hlt z (.inr ⟨P, G, hP, hz⟩)) e5 e6
    exact ⟨f4, f5, (fun hf => by rw [f1] at hf; cases hf), fun _ => ⟨f3, .inl f2, hpos (hk _ (.inr ⟨P, G, hP, f2⟩)) 1 (by simp) e3 e4 s k n x y f6 f7 f8⟩⟩
  · obtain ⟨f1, f2, f3, f4, f5, s, k, n, x, y, f6, f7, f8⟩ := twoHalo_member hW hlo hhi (hlt _ (.inl rfl)) e5 e6
    have f2' : t.z = zl := f2
    refine ⟨(by rw [f2]; exact f4), (by rw [f2]; exact f5), (fun hf => by rw [f1] at hf; cases hf), fun _ =>
      ⟨f3, .inr ⟨htwo, f2'⟩, hpos (hk _ (.inl f2')) 2 (by simp) e3 e4 s k n x y f6 f7 f8⟩⟩

theorem cdm_std (W : Run.World) {E : Preset.Env} {a : CdmArgs} {d : Dicts} {r : Request} (h : (cdm E a d).1 = .ok r) :
    StdRequest W r a.zLens a.zSource a.cone a.logMHost a.rTidal a.spatial a.geometryType a.kwargsCosmo a.twoHalo a.planeSpacing
      (fun _ => a.logMlow) (fun _ => a.logMhigh) ∧ r.mdefSub = a.profile ∧ r.mdefField = a.profile := by
  obtain ⟨-, -, inf, cs, cf, cHost, -, -, h⟩ := cdm_ok h
  obtain ⟨ts, tf, sp, spKw, h1, h2, hp, hf, hk, hs, hsk, -⟩ := cdmAssemble_ok h
  have hrest : r.mdefSub = a.profile ∧ r.mdefField = a.profile ∧ r.planeSpacing = a.planeSpacing := by
    unfold cdmAssemble at h
    obtain ⟨_, -, h⟩ := bind_ok h
    obtain ⟨_, -, h⟩ := bind_ok h
    cases h
    exact ⟨rfl, rfl, rfl⟩
  have hsub : ∀ key, key = "log_mlow" ∨ key = "log_mhigh" → cdmSubKwargs a key =
      some (.num (if key = "log_mlow" then a.logMlow else a.logMhigh)) := by
    rintro key (rfl | rfl)
    · rw [cdmSub_get a _ (by decide) (by decide)]; simp [ofList_cons]
    · rw [cdmSub_get a _ (by decide) (by decide)]; simp [ofList_cons]
  have l1 : limit W (cdmSubKwargs a) "log_mlow" = .ok (fun _ => a.logMlow) := by
    unfold limit; rw [hsub _ (.inl rfl)]; simp
  have l2 : limit W (cdmSubKwargs a) "log_mhigh" = .ok (fun _ => a.logMhigh) := by
    unfold limit; rw [hsub _ (.inr rfl)]; simp
  have l3 : limit W (cdmLosKwargs a) "log_mlow" = .ok (fun _ => a.logMlow) := by
    unfold limit cdmLosKwargs; simp [ofList_cons]
  have l4 : limit W (cdmLosKwargs a) "log_mhigh" = .ok (fun _ => a.logMhigh) := by
    unfold limit cdmLosKwargs; simp [ofList_cons]
  refine ⟨⟨hp, ?_, ⟨cHost, sp, spKw, by rw [hs]; rfl, by rw [hsk]; rfl, h2⟩, ?_, ?_, hrest.2.2⟩, hrest.1, hrest.2.1⟩
  · intro i kw hi
    rw [hk] at hi
    have hm := List.mem_of_getElem? hi
    have : kw = cdmSubKwargs a ∨ kw = cdmLosKwargs a := by
      cases ht : a.twoHalo <;> simp [ht] at hm <;> exact hm
    rcases this with rfl | rfl
    exacts [⟨l1, l2⟩, ⟨l3, l4⟩]
  · intro i hi c hc
    rw [hs] at hc
    simp only [List.mem_cons, List.not_mem_nil, or_false] at hi
    rcases hi with rfl | rfl <;> cases ht : a.twoHalo <;> simp [ht] at hc <;> simp [hc]
  · intro i hi c hc
    rw [hsk] at hc
    simp only [List.mem_cons, List.not_mem_nil, or_false] at hi
    rcases hi with rfl | rfl <;> cases ht : a.twoHalo <;> simp [ht] at hc <;> simp [hc]

/-- The volume a preset renders in. -/
noncomputable def Spec90.volume (W : Run.World) (zl zs cone : ℝ) (kc : ℕ) (v : VolumeType) : Geometry := ⟨W.dist kc, zl, zs, cone, v, 0.95⟩

/-- **C90.** Whatever the random numbers, every halo returned by a call of `CDM` has the requested mass definition and a
mass in `[10^log_mlow, 10^log_mhigh)`. A subhalo is at the lens redshift and within half the cone opening angle of the
centre; with `PROJECTED_NFW` its three-dimensional radius is positive and at most the virial radius of the host. Any other
halo is on a lens plane, or at the lens redshift if there is a two-halo term, and within the rendering volume there. -/
theorem c90_cdm (W : Run.World) (hW : Variates W) (E : Preset.Env) (a : CdmArgs) (d : Dicts) (out : List HaloArgs)
    (hk : ∀ z, Spec90.rendered a.zLens a.zSource a.planeSpacing z → W.kpc a.kwargsCosmo z ≠ 0) (hlt : a.logMlow < a.logMhigh)
    (hH : a.spatial = "PROJECTED_NFW" → 0 < a.rTidal ∧ HostOk W a.kwargsCosmo (10 ^ a.logMHost) a.zLens (a.cone / 2))
    (h : runCdm W E a d = .ok out) :
    ∃ v P G, volumeOfName a.geometryType = .ok v ∧ lensPlanes (some a.zLens) a.zSource a.planeSpacing = .ok (P, G) ∧
      ∀ t ∈ out, t.mdef = a.profile ∧ (10 : ℝ) ^ a.logMlow ≤ t.mass ∧ t.mass < (10 : ℝ) ^ a.logMhigh ∧
        (t.isSubhalo = true → t.z = a.zLens ∧ t.x ^ 2 + t.y ^ 2 ≤ (a.cone / 2) ^ 2 ∧
          (a.spatial = "UNIFORM" → t.r3d = none) ∧ (a.spatial = "PROJECTED_NFW" →
            ∃ r, t.r3d = some r ∧ 0 < r ∧ r ≤ W.hostR200 a.kwargsCosmo (10 ^ a.logMHost) a.zLens * 1000)) ∧
        (t.isSubhalo = false → t.r3d = none ∧ (t.z ∈ P ∨ a.twoHalo = true ∧ t.z = a.zLens) ∧
          t.x ^ 2 + t.y ^ 2 ≤
            (a.cone / 2 * (Spec90.volume W a.zLens a.zSource a.cone a.kwargsCosmo v).renderingScale t.z) ^ 2) := by
  unfold runCdm at h
  obtain ⟨r, hr, h⟩ := bind_ok h
  obtain ⟨g, hg, h⟩ := bind_ok h
  obtain ⟨hs, m1, m2⟩ := cdm_std W hr
  obtain ⟨P, G, hP, hall⟩ := std_halos hW hs hk (fun _ _ => hlt) hH hg h
  have hg' := hg
  unfold geometryOf at hg'
  obtain ⟨v, hv, hg'⟩ := bind_ok hg'
  cases hg'
  refine ⟨v, P, G, hv, hP, fun t ht => ?_⟩
  obtain ⟨q1, q2, q3, q4, q5⟩ := hall t ht
  refine ⟨?_, q2, q3, q4, q5⟩
  rw [q1, m1, m2]
  simp

theorem wdm_std (W : Run.World) {E : Preset.Env} {a : WdmArgs} {d : Dicts} {r : Request} (h : (Preset.wdm E a d).1 = .ok r)
    {lo : ℝ → ℝ} (hlo : limit W (Kwargs.ofList [("log_mlow", a.logMlow)]) "log_mlow" = .ok lo) :
    StdRequest W r a.zLens a.zSource a.cone a.logMHost a.rTidal a.spatial a.geometryType a.kwargsCosmo a.twoHalo a.planeSpacing
      lo (fun _ => a.logMhigh) ∧ r.mdefSub = a.mdefSub ∧ r.mdefField = a.mdefField := by
  obtain ⟨-, inf, ms, mf, cs, cf, cHost, -, hm, -, h⟩ := wdm_ok h
  obtain ⟨hcusp, ts, tf, sp, spKw, h1, h2, hp, hf, hk, hs, -⟩ := wdmAssemble_ok h
  have hrest : r.mdefSub = a.mdefSub ∧ r.mdefField = a.mdefField ∧ r.planeSpacing = a.planeSpacing ∧
      r.spatialKwargs = [spKw, Kwargs.ofList [("cone_opening_angle", .num a.cone), ("geometry",
        .geometry a.zLens a.zSource a.cone a.geometryType a.kwargsCosmo)], Kwargs.ofList [("cone_opening_angle", .num a.cone),
        ("geometry", .geometry a.zLens a.zSource a.cone a.geometryType a.kwargsCosmo)]] := by
    unfold wdmAssemble at h
    obtain ⟨_, -, h⟩ := bind_ok h
    obtain ⟨q, hq, h⟩ := bind_ok h
    rw [h2] at hq
    cases hq
    dsimp only at h
    rw [if_neg (by simp [hcusp])] at h
    cases h
    exact ⟨rfl, rfl, rfl, rfl⟩
  have e1 : ∀ kw, wdmSubKwargs a kw "log_mlow" = some a.logMlow ∧ wdmSubKwargs a kw "log_mhigh" = some (.num a.logMhigh) := by
    intro kw
    unfold wdmSubKwargs Kwargs.update
    rw [amplitude_other _ _ _ _ _ (by decide) (by decide), amplitude_other _ _ _ _ _ (by decide) (by decide)]
    simp [ofList_cons]
  have e2 : ∀ kw, wdmLosKwargs a kw "log_mlow" = some a.logMlow ∧ wdmLosKwargs a kw "log_mhigh" = some (.num a.logMhigh) := by
    intro kw
    unfold wdmLosKwargs Kwargs.update
    simp [ofList_cons]
  have l0 : ∀ kw : Kwargs, kw "log_mlow" = some a.logMlow → limit W kw "log_mlow" = .ok lo := by
    intro kw hkw
    rw [← hlo]
    unfold limit
    rw [hkw]
    simp [ofList_cons]
  have l1 : ∀ kw : Kwargs, kw "log_mhigh" = some (.num a.logMhigh) → limit W kw "log_mhigh" = .ok (fun _ => a.logMhigh) := by
    intro kw hkw
    unfold limit
    rw [hkw]
  refine ⟨⟨hp, ?_, ⟨cHost, sp, spKw, by rw [hs]; rfl, by rw [hrest.2.2.2]; rfl, h2⟩, ?_, ?_, hrest.2.2.1⟩, hrest.1, hrest.2.1⟩
  · intro i kw hi
    rw [hk] at hi
    have hm := List.mem_of_getElem? hi
    have : kw = wdmSubKwargs a ms.2 ∨ kw = wdmLosKwargs a mf.2 := by
      cases ht : a.twoHalo <;> simp [ht] at hm <;> exact hm
    rcases this with rfl | rfl
    · exact ⟨l0 _ (e1 _).1, l1 _ (e1 _).2⟩
    · exact ⟨l0 _ (e2 _).1, l1 _ (e2 _).2⟩
  · intro i hi c hc
    rw [hs] at hc
    simp only [List.mem_cons, List.not_mem_nil, or_false] at hi
    rcases hi with rfl | rfl <;> simp at hc <;> simp [hc]
  · intro i hi c hc
    rw [hrest.2.2.2] at hc
    simp only [List.mem_cons, List.not_mem_nil, or_false] at hi
    rcases hi with rfl | rfl <;> simp at hc <;> simp [hc]

/-- The same for `WDM`, where the lower limit may be the redshift-dependent one of `ULDM`. The mass definitions of subhalos
and field halos are exchanged (C17). -/
theorem c90_wdm (W : Run.World) (hW : Variates W) (E : Preset.Env) (a : WdmArgs) (d : Dicts) (out : List HaloArgs)
    (hk : ∀ z, Spec90.rendered a.zLens a.zSource a.planeSpacing z → W.kpc a.kwargsCosmo z ≠ 0) (lo : ℝ → ℝ)
    (hlo : a.logMlow = .num (lo 0) ∧ (∀ z, lo z = lo 0) ∨
      ∃ m kc l, a.logMlow = .minMass m kc l ∧ ∀ z, lo z = Uldm.minMass (W.om kc) m l z)
    (hlt : ∀ z, Spec90.rendered a.zLens a.zSource a.planeSpacing z → lo z < a.logMhigh)
    (hH : a.spatial = "PROJECTED_NFW" → 0 < a.rTidal ∧ HostOk W a.kwargsCosmo (10 ^ a.logMHost) a.zLens (a.cone / 2))
    (h : runWdm W E a d = .ok out) :
    ∃ v P G, volumeOfName a.geometryType = .ok v ∧ lensPlanes (some a.zLens) a.zSource a.planeSpacing = .ok (P, G) ∧
      ∀ t ∈ out, t.mdef = (if t.isSubhalo then a.mdefField else a.mdefSub) ∧
        (10 : ℝ) ^ lo t.z ≤ t.mass ∧ t.mass < (10 : ℝ) ^ a.logMhigh ∧
        (t.isSubhalo = true → t.z = a.zLens ∧ t.x ^ 2 + t.y ^ 2 ≤ (a.cone / 2) ^ 2 ∧
          (a.spatial = "UNIFORM" → t.r3d = none) ∧ (a.spatial = "PROJECTED_NFW" →
            ∃ r, t.r3d = some r ∧ 0 < r ∧ r ≤ W.hostR200 a.kwargsCosmo (10 ^ a.logMHost) a.zLens * 1000)) ∧
        (t.isSubhalo = false → t.r3d = none ∧ (t.z ∈ P ∨ a.twoHalo = true ∧ t.z = a.zLens) ∧
          t.x ^ 2 + t.y ^ 2 ≤
            (a.cone / 2 * (Spec90.volume W a.zLens a.zSource a.cone a.kwargsCosmo v).renderingScale t.z) ^ 2) := by
  unfold runWdm at h
  obtain ⟨r, hr, h⟩ := bind_ok h
  obtain ⟨g, hg, h⟩ := bind_ok h
  have hl : limit W (Kwargs.ofList [("log_mlow", a.logMlow)]) "log_mlow" = .ok lo := by
    unfold limit
    rcases hlo with ⟨e, e'⟩ | ⟨m, kc, l, e, e'⟩
    · simp only [ofList_cons, e, if_true]
      congr 1; funext z; exact (e' z).symm
    · simp only [ofList_cons, e, if_true]
      congr 1; funext z; exact (e' z).symm
  obtain ⟨hs, m1, m2⟩ := wdm_std W hr hl
  obtain ⟨P, G, hP, hall⟩ := std_halos hW hs hk hlt hH hg h
  have hg' := hg
  unfold geometryOf at hg'
  obtain ⟨v, hv, hg'⟩ := bind_ok hg'
  cases hg'
  refine ⟨v, P, G, hv, hP, fun t ht => ?_⟩
  obtain ⟨q1, q2, q3, q4, q5⟩ := hall t ht
  refine ⟨?_, q2, q3, q4, q5⟩
  rw [q1, m1, m2]

/-! ## Suppressed mass functions only remove halos (C91) -/

/-- The suppression `t` removes at least what `t'` removes. -/
def Stronger (t t' : Option (ℝ → ℝ)) : Prop := ∀ f', t' = some f' → ∃ f, t = some f ∧ ∀ m, 0 < m → f m ≤ f' m

theorem drawFrom_sublist {W : Run.World} (hW : Variates W) {i k : ℕ} {p : PowerLaw} (hp : p.logMlow ≤ p.logMhigh)
    {t t' : Option (ℝ → ℝ)} (ht : Stronger t t') {l l' : List ℝ} (h : drawFrom W i k p t = .ok l)
    (h' : drawFrom W i k p t' = .ok l') : l.Sublist l' := by
  cases t' with
  | none =>
    cases t with
    | none =>
      rw [h] at h'
      cases h'
      exact List.Sublist.refl _
    | some f =>
      obtain ⟨l0, h0, hs⟩ := drawSuppressed_base h
      have h'' : p.draw (W.pois i k) (W.mass i k) = .ok l' := h'
      rw [h0] at h''
      cases h''
      exact hs
  | some f' =>
    obtain ⟨f, rfl, hf⟩ := ht f' rfl
    obtain ⟨l0, h0, hs⟩ := drawSuppressed_base h
    refine c20_stronger_suppression p f f' _ _ _ l0 l l' h0 ?_ h h'
    intro m hm
    obtain ⟨-, h2⟩ := draw_length p _ _ l0 h0
    rw [h2] at hm
    obtain ⟨j, -, rfl⟩ := List.mem_map.1 hm
    exact hf _ (lt_of_lt_of_le (pow10_pos _) (invert_range p hp _ (hW.mass i k j).1 (hW.mass i k j).2.le).1)

/-- Mass, redshift and flag of an object. -/
def Spec91.key (t : HaloArgs) : ℝ × ℝ × Bool := (t.mass, t.z, t.isSubhalo)

/-- The same for an entry of the list of objects. -/
def rowKey (t : Row) : ℝ × ℝ × Bool := (t.1, t.2.2.2.2.1, t.2.2.2.2.2)

theorem rows_keys {o : PopOut} (hal : Aligned o) : (rows o).map rowKey = o.masses.zip (o.z.zip o.flags) := by
  obtain ⟨h1, h2, h3, h4, h5⟩ := hal
  apply List.ext_getElem
  · simp [rows, h1, h2, h3, h4, h5]
  · intro j _ _
    simp [rows, rowKey]

theorem zip_replicate_keys (m : List ℝ) (z : ℝ) (b : Bool) {zs : List ℝ} {bs : List Bool} (hz : ∀ x ∈ zs, x = z)
    (hb : ∀ x ∈ bs, x = b) (h1 : zs.length = m.length) (h2 : bs.length = m.length) :
    m.zip (zs.zip bs) = m.map fun x => (x, z, b) := by
  apply List.ext_getElem
  · simp [h1, h2]
  · intro j _ _
    simp [hz _ (List.getElem_mem _), hb _ (List.getElem_mem _)]

theorem sublist_flatMap {α β γ δ : Type} (f : α × β → List δ) (g : α × γ → List δ) : ∀ (l : List α) (p : List β) (q : List γ),
    p.length = l.length → q.length = l.length →
    (∀ (i : ℕ) a b c, l[i]? = some a → p[i]? = some b → q[i]? = some c → (f (a, b)).Sublist (g (a, c))) →
    ((l.zip p).flatMap f).Sublist ((l.zip q).flatMap g)
  | [], p, q, _, _, _ => by simp
  | a :: l, [], q, h, _, _ => by simp at h
  | a :: l, b :: p, [], _, h, _ => by simp at h
  | a :: l, b :: p, c :: q, h1, h2, h => by
    simp only [List.zip_cons_cons, List.flatMap_cons]
    exact (h 0 a b c rfl rfl rfl).append (sublist_flatMap f g l p q (by simpa using h1) (by simpa using h2)
      (fun i a' b' c' e1 e2 e3 => h (i + 1) a' b' c' (by simpa using e1) (by simpa using e2) (by simpa using e3)))

theorem planeRows_keys {z : ℝ} {m : List ℝ} {p : List ℝ × List ℝ} (h1 : p.1.length = m.length) (h2 : p.2.length = m.length) :
    (planeRows z m p).map rowKey = m.map fun x => (x, z, false) := by
  apply List.ext_getElem
  · simp [planeRows, h1, h2]
  · intro j _ _
    simp [planeRows, rowKey]

theorem los_sublist {c c' : LosClass} (hs : DrawsN c.spatial) (hs' : DrawsN c'.spatial) (h1 : c.planes = c'.planes)
    (h2 : c.deltaZ = c'.deltaZ) (hd : ∀ k z dz m m', (z, dz) ∈ c.planes.zip c.deltaZ → (c.massFn z dz).draw k = .ok m →
      (c'.massFn z dz).draw k = .ok m' → m.Sublist m') {o o' : PopOut} (h : c.render = .ok o) (h' : c'.render = .ok o') :
    ((rows o).map rowKey).Sublist ((rows o').map rowKey) := by
  obtain ⟨-, parts, a1, a2, a3⟩ := c16_line_of_sight c hs o h
  obtain ⟨-, parts', b1, b2, b3⟩ := c16_line_of_sight c' hs' o' h'
  rw [a3, b3, ← h1, ← h2, List.map_flatMap, List.map_flatMap]
  rw [← h1, ← h2] at b1
  refine sublist_flatMap _ _ _ parts parts' a1 b1 ?_
  intro i q w w' e1 e2 e3
  obtain ⟨d1, d2⟩ := a2 i q w e1 e2
  obtain ⟨d1', d2'⟩ := b2 i q w' (by rw [← h1, ← h2]; exact e1) e3
  obtain ⟨l1, l2⟩ := renderPositions_ok _ _ _ _ _ hs d2
  obtain ⟨l1', l2'⟩ := renderPositions_ok _ _ _ _ _ hs' d2'
  simp only
  rw [planeRows_keys l1 l2, planeRows_keys l1' l2']
  exact (hd i q.1 q.2 _ _ (List.mem_of_getElem? e1) d1 d1').map _

/-- Two populations that differ in their spatial distribution, and whose mass functions have the same power law where the
first is suppressed at least as much as the second. `Z` are the redshifts that occur. -/
structure Thinned (W : Run.World) (S : Setup) (Z : ℝ → Prop) (name : String) (mc : Cls) (kw : Kwargs) (mc' : Cls) (kw' : Kwargs) : Prop where
  lo : limit W kw "log_mlow" = limit W kw' "log_mlow"
  hi : limit W kw "log_mhigh" = limit W kw' "log_mhigh"
  range : ∀ lo hi, limit W kw "log_mlow" = .ok lo → limit W kw "log_mhigh" = .ok hi → ∀ z, Z z → lo z ≤ hi z
  pivot : kw.num "m_pivot" = kw'.num "m_pivot"
  delta : name ≠ "SUBHALOS" → kw.num "delta_power_law_index" = kw'.num "delta_power_law_index"
  norm : name ≠ "SUBHALOS" → kw.num "LOS_normalization" = kw'.num "LOS_normalization"
  poisson : kw "draw_poisson" = kw' "draw_poisson"
  host : name ≠ "SUBHALOS" → twoHaloHost kw = twoHaloHost kw'
  sub : name = "SUBHALOS" → subAmplitude kw S.zLens (W.kpc S.kc S.zLens) S.geometry.openingAngle =
    subAmplitude kw' S.zLens (W.kpc S.kc S.zLens) S.geometry.openingAngle
  supp : ∀ t t', turnoverOf mc kw = .ok t → turnoverOf mc' kw' = .ok t' → Stronger t t'

theorem turnoverOf_set (c : Cls) (kw : Kwargs) (x : Val) :
    turnoverOf c (kw.set "LOS_normalization" x) = turnoverOf c kw := by
  unfold turnoverOf Kwargs.num
  simp [Kwargs.set]

theorem losPowerLaw_congr {fit : ℝ → ℝ → ℝ × ℝ} {v : ℝ} {kw kw' : Kwargs} {lo hi : Option ℝ} {l h : ℝ} (hl : lo = some l)
    (hh : hi = some h) (h1 : kw.num "delta_power_law_index" = kw'.num "delta_power_law_index")
    (h2 : kw.num "LOS_normalization" = kw'.num "LOS_normalization") (h3 : kw.num "m_pivot" = kw'.num "m_pivot")
    (h4 : kw "draw_poisson" = kw' "draw_poisson") : losPowerLaw fit v kw lo hi = losPowerLaw fit v kw' lo hi := by
  subst hl hh
  unfold losPowerLaw
  rw [h1, h2, h3, h4]

theorem losDraw_sublist {W : Run.World} (hW : Variates W) {S : Setup} {mc mc' : Cls} {kw kw' : Kwargs} {z dz lo hi : ℝ}
    (hlt : lo ≤ hi) (h1 : kw.num "delta_power_law_index" = kw'.num "delta_power_law_index")
    (h2 : kw.num "LOS_normalization" = kw'.num "LOS_normalization") (h3 : kw.num "m_pivot" = kw'.num "m_pivot")
    (h4 : kw "draw_poisson" = kw' "draw_poisson")
    (h5 : ∀ t t', turnoverOf mc kw = .ok t → turnoverOf mc' kw' = .ok t' → Stronger t t') {i k : ℕ} {m m' : List ℝ}
    (h : (massFnOf W i (losModel W S mc kw z dz lo hi)).draw k = .ok m)
    (h' : (massFnOf W i (losModel W S mc' kw' z dz lo hi)).draw k = .ok m') : m.Sublist m' := by
  obtain ⟨p, t, hp, hd⟩ := massFnOf_draw h
  obtain ⟨p', t', hp', hd'⟩ := massFnOf_draw h'
  obtain ⟨v, a1, a2, a3⟩ := losModel_ok hp
  obtain ⟨v', b1, b2, b3⟩ := losModel_ok hp'
  rw [h3, b1] at a1
  cases a1
  rw [losPowerLaw_congr rfl rfl h1 h2 h3 h4, b2] at a2
  cases a2
  obtain ⟨e1, e2⟩ := losPowerLaw_limits b2
  exact drawFrom_sublist hW (by rw [e1, e2]; exact hlt) (h5 _ _ a3 b3) hd hd'

theorem population_sublist {W : Run.World} (hW : Variates W) {S : Setup} {lazar : Bool} {scale : ℝ} {planes gaps : List ℝ}
    {i : ℕ} {name : String} {mc mc' sc sc' : Cls} {mkw mkw' skw skw' : Kwargs} {Z : ℝ → Prop}
    (hZ : Z S.zLens) (hZ' : ∀ z ∈ planes, Z z) (hT : Thinned W S Z name mc mkw mc' mkw')
    {o o' : PopOut} (h : population W S lazar scale planes gaps i name mc mkw sc skw = .ok o)
    (h' : population W S lazar scale planes gaps i name mc' mkw' sc' skw' = .ok o') :
    ((rows o).map rowKey).Sublist ((rows o').map rowKey) := by
  rcases population_ok h with ⟨hn, s, lo, hi, hs, h1, h2, h3⟩ | ⟨hn, s, c, hs, hc, h3⟩ |
      ⟨hn, s, dz, kw, lo, hi, hs, hkw, h1, h2, h3⟩ <;>
    rcases population_ok h' with ⟨hn', s', lo', hi', hs', h1', h2', h3'⟩ | ⟨hn', s', c', hs', hc', h3'⟩ |
      ⟨hn', s', dz', kw', lo', hi', hs', hkw', h1', h2', h3'⟩
  · have hr := hT.range _ _ h1 h2
    rw [hT.lo, h1'] at h1
    rw [hT.hi, h2'] at h2
    cases h1
    cases h2
    obtain ⟨al, d, z, f⟩ := c16_subhalos _ _ _ _ (subSpatial_draws hs) _ h3
    obtain ⟨al', d', z', f'⟩ := c16_subhalos _ _ _ _ (subSpatial_draws hs') _ h3'
    rw [rows_keys al, rows_keys al', zip_replicate_keys _ _ _ z f al.2.2.2.1 al.2.2.2.2,
      zip_replicate_keys _ _ _ z' f' al'.2.2.2.1 al'.2.2.2.2]
    refine List.Sublist.map _ ?_
    obtain ⟨p, t, hp, hd⟩ := massFnOf_draw d
    obtain ⟨p', t', hp', hd'⟩ := massFnOf_draw d'
    obtain ⟨a1, a2⟩ := subModel_ok hp
    obtain ⟨b1, b2⟩ := subModel_ok hp'
    have : subPowerLaw mkw S.zLens (W.kpc S.kc S.zLens) S.geometry.openingAngle (some (lo S.zLens)) (some (hi S.zLens)) =
        subPowerLaw mkw' S.zLens (W.kpc S.kc S.zLens) S.geometry.openingAngle (some (lo S.zLens)) (some (hi S.zLens)) := by
      unfold subPowerLaw
      rw [hT.sub hn, hT.poisson]
    rw [this, b1] at a1
    cases a1
    obtain ⟨e1, e2⟩ := subPowerLaw_limits b1
    exact drawFrom_sublist hW (by rw [e1, e2]; exact hr _ hZ) (hT.supp _ _ a2 b2) hd hd'
  · rcases hn' with hn' | hn' <;> (rw [hn] at hn'; simp at hn')
  · rw [hn] at hn'; simp at hn'
  · rcases hn with hn | hn <;> (rw [hn] at hn'; simp at hn')
  · have hne : name ≠ "SUBHALOS" := by rcases hn with rfl | rfl <;> decide
    obtain ⟨lo, hi, h1, h2, rfl⟩ := losClassOf_ok hc
    obtain ⟨lo', hi', h1', h2', rfl⟩ := losClassOf_ok hc'
    have hr := hT.range _ _ h1 h2
    rw [hT.lo, h1'] at h1
    rw [hT.hi, h2'] at h2
    cases h1
    cases h2
    refine los_sublist (c := ⟨planes, gaps, fun z dz x y => massFnOf W i (losModel W S mc mkw z dz x y), lo, hi, s, W.kpc S.kc⟩)
      (c' := ⟨planes, gaps, fun z dz x y => massFnOf W i (losModel W S mc' mkw' z dz x y), lo, hi, s', W.kpc S.kc⟩)
      (flatSpatial_draws hs) (flatSpatial_draws hs') rfl rfl ?_ h3 h3'
    intro k z dz m m' hz e1 e2
    exact losDraw_sublist hW (hr z (hZ' z (List.of_mem_zip hz).1)) (hT.delta hne) (hT.norm hne) hT.pivot hT.poisson hT.supp e1 e2
  · rcases hn with hn | hn <;> (rw [hn] at hn'; simp at hn')
  · rw [hn] at hn'; simp at hn'
  · rcases hn' with hn' | hn' <;> (rw [hn] at hn'; simp at hn')
  · have hne : name ≠ "SUBHALOS" := by rw [hn]; decide
    have hsetup : ∃ x, dz = dz' ∧ kw = mkw.set "LOS_normalization" (.num x) ∧ kw' = mkw'.set "LOS_normalization" (.num x) := by
      unfold twoHaloSetup at hkw hkw'
      rw [hT.host hne, hT.norm hne] at hkw
      obtain ⟨m, q1, hkw⟩ := bind_ok hkw
      obtain ⟨m', q1', hkw'⟩ := bind_ok hkw'
      rw [q1] at q1'
      cases q1'
      obtain ⟨j, q2, hkw⟩ := bind_ok hkw
      obtain ⟨j', q2', hkw'⟩ := bind_ok hkw'
      rw [q2] at q2'
      cases q2'
      obtain ⟨e, q3, hkw⟩ := bind_ok hkw
      obtain ⟨e', q3', hkw'⟩ := bind_ok hkw'
      rw [q3] at q3'
      cases q3'
      obtain ⟨b, q4, hkw⟩ := bind_ok hkw
      obtain ⟨b', q4', hkw'⟩ := bind_ok hkw'
      rw [q4] at q4'
      cases q4'
      obtain ⟨n, q5, hkw⟩ := bind_ok hkw
      obtain ⟨n', q5', hkw'⟩ := bind_ok hkw'
      rw [q5] at q5'
      cases q5'
      cases hkw
      cases hkw'
      exact ⟨_, rfl, rfl, rfl⟩
    obtain ⟨x, rfl, rfl, rfl⟩ := hsetup
    rw [set_limit _ _ _ _ _ (by decide)] at h1 h2 h1' h2'
    have hr := hT.range _ _ h1 h2
    rw [hT.lo, h1'] at h1
    rw [hT.hi, h2'] at h2
    cases h1
    cases h2
    obtain ⟨al, d, z, f⟩ := c16_two_halo _ _ _ _ (flatSpatial_draws hs) _ h3
    obtain ⟨al', d', z', f'⟩ := c16_two_halo _ _ _ _ (flatSpatial_draws hs') _ h3'
    rw [rows_keys al, rows_keys al', zip_replicate_keys _ _ _ z f al.2.2.2.1 al.2.2.2.2,
      zip_replicate_keys _ _ _ z' f' al'.2.2.2.1 al'.2.2.2.2]
    refine List.Sublist.map _ ?_
    refine losDraw_sublist hW (hr S.zLens hZ) ?_ ?_ ?_ ?_ ?_ d d'
    · simpa [Kwargs.num, Kwargs.set] using hT.delta hne
    · simp [Kwargs.num, Kwargs.set]
    · simpa [Kwargs.num, Kwargs.set] using hT.pivot
    · simpa [Kwargs.set] using hT.poisson
    · intro t t' e1 e2
      rw [turnoverOf_set] at e1 e2
      exact hT.supp _ _ e1 e2

/-- Two renderings whose populations are thinned one by one. -/
theorem render_sublist {W : Run.World} (hW : Variates W) {S : Setup} {scale : ℝ} {r r' : Request}
    (h1 : r.populations = r'.populations) (h2 : r.planeSpacing = r'.planeSpacing) (h3 : r.lazar = r'.lazar)
    (hT : ∀ p ∈ r.populations.zipIdx, ∀ mc mkw mc' mkw', r.massFunctions[p.2]? = some mc → r.massKwargs[p.2]? = some mkw →
      r'.massFunctions[p.2]? = some mc' → r'.massKwargs[p.2]? = some mkw' →
      Thinned W S (Spec90.rendered S.zLens S.zSource r.planeSpacing) p.1 mc mkw mc' mkw')
    {out out' : List HaloArgs} (h : render W S scale r = .ok out) (h' : render W S scale r' = .ok out') :
    (out.map Spec91.key).Sublist (out'.map Spec91.key) := by
  have hkey : ∀ l : List HaloArgs, l.map Spec91.key = (l.map rowOf).map rowKey := by
    intro l; rw [List.map_map]; rfl
  obtain ⟨P, G, qs, a1, a2, -, a3, -⟩ := render_ok h
  obtain ⟨P', G', qs', b1, b2, -, b3, -⟩ := render_ok h'
  rw [← h2, a1] at b1
  cases b1
  have hl : qs.length = r.populations.zipIdx.length := by simpa using (congrArg List.length a2).symm
  have hl' : qs'.length = r.populations.zipIdx.length := by rw [h1]; simpa using (congrArg List.length b2).symm
  have hz : ∀ (l : List PopOut), l.length = r.populations.zipIdx.length →
      l.flatMap rows = (r.populations.zipIdx.zip l).flatMap fun e => rows e.2 := by
    intro l hl
    have : l = (r.populations.zipIdx.zip l).map Prod.snd := by
      rw [List.map_snd_zip (by omega)]
    conv_lhs => rw [this]
    rw [List.flatMap_map]
  rw [hkey, hkey, a3, b3, hz qs hl, hz qs' hl', List.map_flatMap, List.map_flatMap]
  refine sublist_flatMap _ _ _ qs qs' hl hl' ?_
  intro i p q q' e1 e2 e3
  simp only
  have f1 : populationAt W S scale r P G p = .ok q := by
    have := congrArg (fun l => l[i]?) a2
    simp only [List.getElem?_map, e1, e2, Option.map_some] at this
    exact Option.some.inj this
  have f2 : populationAt W S scale r' P G p = .ok q' := by
    have := congrArg (fun l => l[i]?) b2
    rw [← h1] at this
    simp only [List.getElem?_map, e1, e3, Option.map_some] at this
    exact Option.some.inj this
  obtain ⟨mc, mkw, sc, skw, c1, c2, -, -, c5⟩ := populationAt_ok f1
  obtain ⟨mc', mkw', sc', skw', d1, d2, -, -, d5⟩ := populationAt_ok f2
  rw [← h3] at d5
  exact population_sublist hW (Or.inl rfl) (fun z hz => Or.inr ⟨P, G, a1, hz⟩) (hT p (List.mem_of_getElem? e1) _ _ _ _ c1 c2 d1 d2) c5 d5

/-- A call of `CDM` and one of `WDM` with the same values of the arguments that have to do with the number and masses of
halos. -/
structure Spec91.Matching (a : CdmArgs) (b : WdmArgs) : Prop where
  zLens : a.zLens = b.zLens
  zSource : a.zSource = b.zSource
  sigmaSub : a.sigmaSub = b.sigmaSub
  logMlow : b.logMlow = .num a.logMlow
  logMhigh : a.logMhigh = b.logMhigh
  log10SigmaSub : a.log10SigmaSub = b.log10SigmaSub
  log10dNdA : a.log10dNdA = b.log10dNdA
  shmfLogSlope : a.shmfLogSlope = b.shmfLogSlope
  cone : a.cone = b.cone
  logMHost : a.logMHost = b.logMHost
  losNormalization : a.losNormalization = b.losNormalization
  twoHalo : a.twoHalo = b.twoHalo
  deltaPowerLawIndex : a.deltaPowerLawIndex = 0
  geometryType : a.geometryType = b.geometryType
  kwargsCosmo : a.kwargsCosmo = b.kwargsCosmo
  hostScaling : a.hostScaling = b.hostScaling
  redshiftScaling : a.redshiftScaling = b.redshiftScaling
  lazar : a.lazar = b.lazar
  drawPoisson : a.drawPoisson = b.drawPoisson
  planeSpacing : a.planeSpacing = b.planeSpacing

theorem wdmLos_get (b : WdmArgs) (kw : Kwargs) (k : String) (h : k ∈ ["log_mlow", "log_mhigh", "LOS_normalization", "m_pivot",
    "log_m_host", "delta_power_law_index", "draw_poisson"]) : wdmLosKwargs b kw k =
    Kwargs.ofList [("log_mlow", b.logMlow), ("log_mhigh", .num b.logMhigh), ("LOS_normalization", .num b.losNormalization),
      ("m_pivot", .num (10 ^ 8)), ("log_m_host", .num b.logMHost), ("delta_power_law_index", .num 0),
      ("draw_poisson", .bool b.drawPoisson)] k := by
  simp only [List.mem_cons, List.not_mem_nil, or_false] at h
  rcases h with rfl | rfl | rfl | rfl | rfl | rfl | rfl <;> simp [wdmLosKwargs, Kwargs.update, ofList_cons]

theorem stronger_none (t : Option (ℝ → ℝ)) : Stronger t none := fun _ h => by cases h

theorem pops_cases {two : Bool} {p : String × ℕ}
    (hp : p ∈ (["SUBHALOS", "LINE_OF_SIGHT"] ++ if two then ["TWO_HALO"] else []).zipIdx) :
    p = ("SUBHALOS", 0) ∨ (p = ("LINE_OF_SIGHT", 1) ∨ p = ("TWO_HALO", 2) ∧ two = true) := by
  cases two <;> simp at hp <;> simp [hp]

theorem wdmAssemble_rest {a : WdmArgs} {inf : Infall} {ms mf cs cf : Cls × Kwargs} {cHost : ℝ} {dS dF : Kwargs} {r : Request}
    (h : wdmAssemble a inf ms mf cs cf cHost dS dF = .ok r) : r.planeSpacing = a.planeSpacing ∧ r.lazar = a.lazar := by
  obtain ⟨hcusp, -⟩ := wdmAssemble_ok h
  unfold wdmAssemble at h
  obtain ⟨_, -, h⟩ := bind_ok h
  obtain ⟨q, hq, h⟩ := bind_ok h
  dsimp only at h
  rw [if_neg (by simp [hcusp])] at h
  cases h
  exact ⟨rfl, rfl⟩

theorem cdmAssemble_rest {a : CdmArgs} {inf : Infall} {cs cf : Cls × Kwargs} {cHost : ℝ} {dS dF : Kwargs} {r : Request}
    (h : cdmAssemble a inf cs cf cHost dS dF = .ok r) : r.planeSpacing = a.planeSpacing ∧ r.lazar = a.lazar := by
  unfold cdmAssemble at h
  obtain ⟨_, -, h⟩ := bind_ok h
  obtain ⟨q, hq, h⟩ := bind_ok h
  cases h
  exact ⟨rfl, rfl⟩

/-- **C91.** A call of `WDM` and a call of `CDM` with the same arguments and the same random numbers: the halos of the warm
model are halos of the cold one, of the same mass, at the same redshift, in the same order; some of them are missing and
there are no others. The models for the spatial distribution, concentrations, truncation and infall may be any.
Missing: dictionaries of the mass function that themselves contain an amplitude or `host_m200`. -/
theorem c91_wdm_cdm_partial (W : Run.World) (hW : Variates W) (E E' : Preset.Env) (a : CdmArgs) (b : WdmArgs) (d d' : Dicts)
    (hm : Spec91.Matching a b) (hlt : a.logMlow ≤ a.logMhigh) (h1 : b.massSubKw "sigma_sub" = none)
    (h2 : b.massSubKw "dndA" = none) (h3 : b.massFieldKw "host_m200" = none) (cold warm : List HaloArgs)
    (hc : runCdm W E a d = .ok cold) (hw : runWdm W E' b d' = .ok warm) :
    (warm.map Spec91.key).Sublist (cold.map Spec91.key) := by
  unfold runCdm at hc
  unfold runWdm at hw
  obtain ⟨r', hr', hc⟩ := bind_ok hc
  obtain ⟨r, hr, hw⟩ := bind_ok hw
  obtain ⟨g, hg, hc⟩ := bind_ok hc
  obtain ⟨g', hg', hw⟩ := bind_ok hw
  rw [hm.zLens, hm.zSource, hm.cone, hm.geometryType, hm.kwargsCosmo, hg'] at hg
  cases hg
  rw [hm.zLens, hm.zSource, hm.kwargsCosmo] at hc
  have hone : g.openingAngle = b.cone := by
    unfold geometryOf at hg'
    obtain ⟨v, hv, hg'⟩ := bind_ok hg'
    cases hg'
    rfl
  obtain ⟨kwS, rest, hks, -, -, hamp⟩ := c47_wdm_partial E' b d' r hr (W.kpc b.kwargsCosmo b.zLens) h1 h2
  obtain ⟨kwS', rest', hks', hamp'⟩ := c47_rendered E a d r' hr' (W.kpc b.kwargsCosmo b.zLens)
  obtain ⟨-, inf, ms, mf, cs, cf, cHost, -, hmass, -, has⟩ := wdm_ok hr
  obtain ⟨-, ts, tf, sp, spKw, -, -, hp, hf, hk, -⟩ := wdmAssemble_ok has
  obtain ⟨s, f, hs, hff, rfl, rfl⟩ := wdmMass_ok hmass
  obtain ⟨-, -, inf', cs', cf', cHost', -, -, has'⟩ := cdm_ok hr'
  obtain ⟨ts', tf', sp', spKw', -, -, hp', hf', hk', -⟩ := cdmAssemble_ok has'
  obtain ⟨i1, i2⟩ := wdmAssemble_rest has
  obtain ⟨i1', i2'⟩ := cdmAssemble_rest has'
  rw [hk] at hks
  rw [hk'] at hks'
  simp only [List.cons_append, List.cons.injEq] at hks hks'
  rw [← hks.1] at hamp
  rw [← hks'.1] at hamp'
  rw [hm.zLens, hm.cone, hm.shmfLogSlope, hm.log10dNdA, hm.log10SigmaSub, hm.sigmaSub, hm.logMHost, hm.hostScaling,
    hm.redshiftScaling, ← hamp] at hamp'
  refine render_sublist hW (by rw [hp, hp', hm.twoHalo]) (by rw [i1, i1', hm.planeSpacing]) (by rw [i2, i2', hm.lazar]) ?_ hw hc
  have hT1 : Thinned W ⟨b.zLens, b.zSource, b.kwargsCosmo, g⟩ (Spec90.rendered b.zLens b.zSource r.planeSpacing) "SUBHALOS" s.1 (wdmSubKwargs b (s.2.set "log_mc" (.num b.logMc)))
      (.named "CDMPowerLaw") (cdmSubKwargs a) := by
    have w : ∀ kw k v, k ∉ ["dndA", "sigma_sub"] → Kwargs.ofList [("log_mlow", b.logMlow), ("log_mhigh", .num b.logMhigh),
        ("m_pivot", .num (10 ^ 8)), ("power_law_index", .num b.shmfLogSlope), ("log_m_host", .num b.logMHost),
        ("delta_power_law_index", .num 0), ("host_scaling_factor", .num b.hostScaling),
        ("redshift_scaling_factor", .num b.redshiftScaling), ("draw_poisson", .bool b.drawPoisson)] k = some v →
        wdmSubKwargs b kw k = some v := by
      intro kw k v hk hv
      simp only [List.mem_cons, List.not_mem_nil, or_false, not_or] at hk
      unfold wdmSubKwargs Kwargs.update
      rw [amplitude_other _ _ _ _ k hk.1 hk.2, hv]
      rfl
    have l1 : limit W (wdmSubKwargs b (s.2.set "log_mc" (.num b.logMc))) "log_mlow" = .ok fun _ => a.logMlow := by
      unfold limit
      rw [w _ "log_mlow" b.logMlow (by simp) (by simp [ofList_cons]), hm.logMlow]
    have l2 : limit W (wdmSubKwargs b (s.2.set "log_mc" (.num b.logMc))) "log_mhigh" = .ok fun _ => a.logMhigh := by
      unfold limit
      rw [w _ "log_mhigh" (.num b.logMhigh) (by simp) (by simp [ofList_cons]), hm.logMhigh]
    refine ⟨?_, ?_, ?_, ?_, fun h => absurd rfl h, fun h => absurd rfl h, ?_, fun h => absurd rfl h, fun _ => ?_, ?_⟩
    · rw [l1]
      unfold limit
      rw [cdmSub_get a _ (by decide) (by decide)]
      simp [ofList_cons]
    · rw [l2]
      unfold limit
      rw [cdmSub_get a _ (by decide) (by decide)]
      simp [ofList_cons]
    · intro lo hi q1 q2
      rw [l1] at q1
      rw [l2] at q2
      cases q1
      cases q2
      exact fun _ _ => hlt
    · unfold Kwargs.num
      rw [w _ "m_pivot" (.num (10 ^ 8)) (by simp) (by simp [ofList_cons]), cdmSub_get a _ (by decide) (by decide)]
      simp [ofList_cons]
    · rw [w _ "draw_poisson" (.bool b.drawPoisson) (by simp) (by simp [ofList_cons]), cdmSub_get a _ (by decide) (by decide)]
      simp [ofList_cons, hm.drawPoisson]
    · simp only
      rw [hone, hamp']
    · intro t t' _ q
      simp only [turnoverOf, true_or, if_true] at q
      cases q
      exact stronger_none t
  have hT2 : ∀ name, name ≠ "SUBHALOS" → Thinned W ⟨b.zLens, b.zSource, b.kwargsCosmo, g⟩ (Spec90.rendered b.zLens b.zSource r.planeSpacing) name f.1
      (wdmLosKwargs b (f.2.set "log_mc" (.num b.logMc))) (.named "ShethTormen") (cdmLosKwargs a) := by
    intro name hname
    have w := fun k h => wdmLos_get b (f.2.set "log_mc" (.num b.logMc)) k h
    have hh : wdmLosKwargs b (f.2.set "log_mc" (.num b.logMc)) "host_m200" = none := by
      have : f.2 "host_m200" = none := (massFunctionModel_get hff _ (by simp)).trans h3
      simp [wdmLosKwargs, Kwargs.update, ofList_cons, ofList_nil, Kwargs.set, this]
    refine ⟨?_, ?_, ?_, ?_, fun _ => ?_, fun _ => ?_, ?_, fun _ => ?_, fun h => absurd h hname, ?_⟩
    · unfold limit
      rw [w _ (by simp)]
      simp [ofList_cons, cdmLosKwargs, hm.logMlow]
    · unfold limit
      rw [w _ (by simp)]
      simp [ofList_cons, cdmLosKwargs, hm.logMhigh]
    · intro lo hi q1 q2
      unfold limit at q1 q2
      rw [w _ (by simp)] at q1 q2
      simp only [ofList_cons, if_true, hm.logMlow, reduceCtorEq, String.reduceEq, if_false] at q1 q2
      cases q1
      cases q2
      rw [← hm.logMhigh]
      exact fun _ _ => hlt
    · unfold Kwargs.num
      rw [w _ (by simp)]
      simp [ofList_cons, cdmLosKwargs]
    · unfold Kwargs.num
      rw [w _ (by simp)]
      simp [ofList_cons, cdmLosKwargs, hm.deltaPowerLawIndex]
    · unfold Kwargs.num
      rw [w _ (by simp)]
      simp [ofList_cons, cdmLosKwargs, hm.losNormalization]
    · rw [w _ (by simp)]
      simp [ofList_cons, cdmLosKwargs, hm.drawPoisson]
    · have hh' : cdmLosKwargs a "host_m200" = none := by simp [cdmLosKwargs, ofList_cons, ofList_nil]
      have e1 : wdmLosKwargs b (f.2.set "log_mc" (.num b.logMc)) "log_m_host" = some (.num b.logMHost) := by
        rw [w _ (by simp)]; simp [ofList_cons]
      have e2 : cdmLosKwargs a "log_m_host" = some (.num b.logMHost) := by simp [cdmLosKwargs, ofList_cons, hm.logMHost]
      unfold twoHaloHost Kwargs.num
      rw [hh, hh', e1, e2]
    · intro t t' _ q
      simp only [turnoverOf, or_true, if_true] at q
      cases q
      exact stronger_none t
  intro p hpm mc mkw mc' mkw' e1 e2 e3 e4
  rw [hp] at hpm
  rw [hf] at e1
  rw [hk] at e2
  rw [hf'] at e3
  rw [hk'] at e4
  rcases pops_cases hpm with rfl | rfl | ⟨rfl, htwo⟩
  · simp only [List.cons_append, List.getElem?_cons_zero, Option.some.injEq] at e1 e2 e3 e4
    subst e1 e2 e3 e4
    exact hT1
  · simp only [List.cons_append, List.getElem?_cons_zero, List.getElem?_cons_succ, Option.some.injEq] at e1 e2 e3 e4
    subst e1 e2 e3 e4
    exact hT2 _ (by decide)
  · rw [hm.twoHalo] at e3 e4
    simp only [htwo, if_true, List.cons_append, List.nil_append, List.getElem?_cons_zero, List.getElem?_cons_succ, Option.some.injEq] at e1 e2 e3 e4
    subst e1 e2 e3 e4
    exact hT2 _ (by decide)

end PyHalo.Props
