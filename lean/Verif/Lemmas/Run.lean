import Verif.Model.Run
import Verif.Props.Render
import Verif.Props.Spatial
import Verif.Props.PresetsMore

/-! # Lemmas on whole calls -/

namespace PyHalo
namespace Run
open Spec Preset Props

/-! ## Positions -/

theorem inverseTransform_length {x y : List ℝ} {N : ℕ} {u : ℕ → ℝ} {l : List ℝ} (h : inverseTransform x y N u = .ok l) :
    l.length = N := by
  unfold inverseTransform itsFromCdf at h
  simp only at h
  split at h
  · have := List.length_mapM_ok h
    simpa using this
  · cases h

theorem projNFW_length (p : ProjNFW) (u θ w : ℕ → ℝ) : SubDrawsN (.threeD fun n => p.draw n u θ w) := by
  intro n q h
  simp only [ProjNFW.draw] at h
  by_cases hn : n = 0
  · rw [if_pos hn] at h
    cases h
    simp [hn]
  · rw [if_neg hn] at h
    obtain ⟨r2, h2, h⟩ := bind_ok h
    obtain ⟨r3, h3, h⟩ := bind_ok h
    have l2 := inverseTransform_length h2
    have l3 := inverseTransform_length h3
    cases h
    simp [l2, l3]

/-- What the two uniform classes return. -/
theorem flatSpatial_ok {W : World} {i : ℕ} {c : Cls} {kw : Kwargs} {s : Spatial} (h : flatSpatial W i c kw = .ok s) :
    ∃ zl zs cone type kc g, kw "geometry" = some (.geometry zl zs cone type kc) ∧
      geometryOf W zl zs cone type kc = .ok g ∧
      ((c = .named "LensConeUniform" ∧ ∃ angle, kw.num "cone_opening_angle" = .ok angle ∧
          s = fun k n z => .ok (lensConeDraw angle (W.kpc kc z) (g.renderingScale z) 0 0 n (W.angle i k) (W.radius i k))) ∨
       (c = .named "Uniform" ∧ ∃ r, kw.num "rmax2d_arcsec" = .ok r ∧
          s = fun k n z => .ok (uniformDraw r (W.kpc kc z) 1 0 0 n (W.angle i k) (W.radius i k)))) := by
  unfold flatSpatial at h
  split at h
  · rename_i zl zs cone type kc hk
    obtain ⟨g, hg, h⟩ := bind_ok h
    refine ⟨zl, zs, cone, type, kc, g, hk, hg, ?_⟩
    by_cases h1 : c = .named "LensConeUniform"
    · rw [if_pos h1] at h
      obtain ⟨a, ha, h⟩ := bind_ok h
      cases h
      exact .inl ⟨h1, a, ha, rfl⟩
    · rw [if_neg h1] at h
      by_cases h2 : c = .named "Uniform"
      · rw [if_pos h2] at h
        obtain ⟨a, ha, h⟩ := bind_ok h
        cases h
        exact .inr ⟨h2, a, ha, rfl⟩
      · rw [if_neg h2] at h; cases h
  · cases h
  · cases h

theorem flatSpatial_draws {W : World} {i : ℕ} {c : Cls} {kw : Kwargs} {s : Spatial} (h : flatSpatial W i c kw = .ok s) :
    DrawsN s := by
  obtain ⟨zl, zs, cone, type, kc, g, -, -, h⟩ := flatSpatial_ok h
  rcases h with ⟨-, a, -, rfl⟩ | ⟨-, r, -, rfl⟩
  · exact c21_uniform_draws_n a (W.kpc kc) g.renderingScale (W.angle i) (W.radius i)
  · intro k n z p hp
    injection hp with hp
    rw [← hp]
    unfold uniformDraw
    by_cases hn : n = 0 <;> simp [hn]

theorem subSpatial_draws {W : World} {i : ℕ} {zl : ℝ} {c : Cls} {kw : Kwargs} {s : SubSpatial}
    (h : subSpatial W i zl c kw = .ok s) : SubDrawsN s := by
  unfold subSpatial at h
  by_cases h1 : c = .named "Uniform" ∨ c = .named "LensConeUniform"
  · rw [if_pos h1] at h
    obtain ⟨f, hf, h⟩ := bind_ok h
    cases h
    intro n p hp
    exact flatSpatial_draws hf 0 n zl p hp
  · rw [if_neg h1] at h
    by_cases h2 : c = .named "ProjectedNFW"
    · rw [if_pos h2] at h
      unfold projectedNFW at h
      split at h
      · obtain ⟨_, -, h⟩ := bind_ok h
        obtain ⟨_, -, h⟩ := bind_ok h
        obtain ⟨_, -, h⟩ := bind_ok h
        obtain ⟨_, -, h⟩ := bind_ok h
        obtain ⟨_, -, h⟩ := bind_ok h
        cases h
        exact projNFW_length _ _ _ _
      · cases h
    · rw [if_neg h2] at h; cases h

/-! ## The shape of a population -/

/-- The three kinds of population, taken apart. -/
theorem population_ok {W : World} {S : Setup} {lazar : Bool} {scale : ℝ} {planes gaps : List ℝ} {i : ℕ} {name : String}
    {mc : Cls} {mkw : Kwargs} {sc : Cls} {skw : Kwargs} {o : PopOut}
    (h : population W S lazar scale planes gaps i name mc mkw sc skw = .ok o) :
    (name = "SUBHALOS" ∧ ∃ s lo hi, subSpatial W i S.zLens sc skw = .ok s ∧ limit W mkw "log_mlow" = .ok lo ∧
      limit W mkw "log_mhigh" = .ok hi ∧
      subhalosRender S.zLens (massFnOf W i (subModel W S mc mkw (lo S.zLens) (hi S.zLens))) s (W.kpc S.kc S.zLens) = .ok o) ∨
    ((name = "LINE_OF_SIGHT" ∨ name = "LINE_OF_SIGHT_NOSHEET") ∧ ∃ s c, flatSpatial W i sc skw = .ok s ∧
      losClassOf W S i planes gaps mc mkw s = .ok c ∧ c.render = .ok o) ∨
    (name = "TWO_HALO" ∧ ∃ s dz kw lo hi, flatSpatial W i sc skw = .ok s ∧
      twoHaloSetup W S lazar scale planes gaps mkw = .ok (dz, kw) ∧ limit W kw "log_mlow" = .ok lo ∧
      limit W kw "log_mhigh" = .ok hi ∧
      twoHaloRender S.zLens (massFnOf W i (losModel W S mc kw S.zLens dz (lo S.zLens) (hi S.zLens))) s (W.kpc S.kc) = .ok o) := by
  unfold population at h
  by_cases h1 : name = "SUBHALOS"
  · rw [if_pos h1] at h
    obtain ⟨s, hs, h⟩ := bind_ok h
    obtain ⟨lo, hlo, h⟩ := bind_ok h
    obtain ⟨hi, hhi, h⟩ := bind_ok h
    exact .inl ⟨h1, s, lo, hi, hs, hlo, hhi, h⟩
  · rw [if_neg h1] at h
    obtain ⟨s, hs, h⟩ := bind_ok h
    by_cases h2 : name = "LINE_OF_SIGHT" ∨ name = "LINE_OF_SIGHT_NOSHEET"
    · rw [if_pos h2] at h
      obtain ⟨c, hc, h⟩ := bind_ok h
      exact .inr (.inl ⟨h2, s, c, hs, hc, h⟩)
    · rw [if_neg h2] at h
      by_cases h3 : name = "TWO_HALO"
      · rw [if_pos h3] at h
        obtain ⟨⟨dz, kw⟩, hd, h⟩ := bind_ok h
        obtain ⟨lo, hlo, h⟩ := bind_ok h
        obtain ⟨hi, hhi, h⟩ := bind_ok h
        exact .inr (.inr ⟨h3, s, dz, kw, lo, hi, hs, hd, hlo, hhi, h⟩)
      · rw [if_neg h3] at h; cases h

theorem losClassOf_ok {W : World} {S : Setup} {i : ℕ} {planes gaps : List ℝ} {mc : Cls} {kw : Kwargs} {s : Spatial}
    {c : LosClass} (h : losClassOf W S i planes gaps mc kw s = .ok c) :
    ∃ lo hi, limit W kw "log_mlow" = .ok lo ∧ limit W kw "log_mhigh" = .ok hi ∧
      c = ⟨planes, gaps, fun z dz x y => massFnOf W i (losModel W S mc kw z dz x y), lo, hi, s, W.kpc S.kc⟩ := by
  unfold losClassOf at h
  obtain ⟨lo, hlo, h⟩ := bind_ok h
  obtain ⟨hi, hhi, h⟩ := bind_ok h
  cases h
  exact ⟨lo, hi, hlo, hhi, rfl⟩

theorem population_aligned {W : World} {S : Setup} {lazar : Bool} {scale : ℝ} {planes gaps : List ℝ} {i : ℕ} {name : String}
    {mc : Cls} {mkw : Kwargs} {sc : Cls} {skw : Kwargs} {o : PopOut}
    (h : population W S lazar scale planes gaps i name mc mkw sc skw = .ok o) : Aligned o := by
  rcases population_ok h with ⟨-, s, lo, hi, hs, -, -, h⟩ | ⟨-, s, c, hs, hc, h⟩ | ⟨-, s, dz, kw, lo, hi, hs, -, -, -, h⟩
  · exact (c16_subhalos _ _ _ _ (subSpatial_draws hs) _ h).1
  · obtain ⟨lo, hi, -, -, rfl⟩ := losClassOf_ok hc
    exact (c16_line_of_sight _ (flatSpatial_draws hs) _ h).1
  · exact (c16_two_halo _ _ _ _ (flatSpatial_draws hs) _ h).1

theorem item_ok {α : Type} {l : List α} {i : ℕ} {a : α} : item l i = .ok a ↔ l[i]? = some a := by
  unfold item
  cases l[i]? <;> simp

theorem populationAt_ok {W : World} {S : Setup} {scale : ℝ} {r : Request} {planes gaps : List ℝ} {p : String × ℕ}
    {o : PopOut} (h : populationAt W S scale r planes gaps p = .ok o) :
    ∃ mc mkw sc skw, r.massFunctions[p.2]? = some mc ∧ r.massKwargs[p.2]? = some mkw ∧ r.spatials[p.2]? = some sc ∧
      r.spatialKwargs[p.2]? = some skw ∧
      population W S r.lazar scale planes gaps p.2 p.1 mc mkw sc skw = .ok o := by
  unfold populationAt at h
  obtain ⟨mc, h1, h⟩ := bind_ok h
  obtain ⟨mkw, h2, h⟩ := bind_ok h
  obtain ⟨sc, h3, h⟩ := bind_ok h
  obtain ⟨skw, h4, h⟩ := bind_ok h
  exact ⟨mc, mkw, sc, skw, item_ok.1 h1, item_ok.1 h2, item_ok.1 h3, item_ok.1 h4, h⟩

/-- A rendered object as an entry of the list of objects. -/
def rowOf (h : HaloArgs) : Row := (h.mass, h.x, h.y, h.r3d, h.z, h.isSubhalo)

theorem zipArgs_rows : ∀ (m x y : List ℝ) (r : List (Option ℝ)) (d : List String) (z : List ℝ) (f : List Bool),
    d.length = m.length →
    (zipArgs m x y r d z f).map rowOf = m.zip (x.zip (y.zip (r.zip (z.zip f))))
  | [], x, y, r, d, z, f, _ => by simp [zipArgs]
  | m :: ms, [], y, r, d, z, f, _ => by simp [zipArgs]
  | m :: ms, x :: xs, [], r, d, z, f, _ => by simp [zipArgs]
  | m :: ms, x :: xs, y :: ys, [], d, z, f, _ => by simp [zipArgs]
  | m :: ms, x :: xs, y :: ys, r :: rs, d, [], f, _ => by simp [zipArgs]
  | m :: ms, x :: xs, y :: ys, r :: rs, d, z :: zs, [], _ => by simp [zipArgs]
  | m :: ms, x :: xs, y :: ys, r :: rs, [], z :: zs, f :: fs, h => by simp at h
  | m :: ms, x :: xs, y :: ys, r :: rs, d :: ds, z :: zs, f :: fs, h => by
    simp only [zipArgs, List.map_cons, List.zip_cons_cons]
    rw [zipArgs_rows ms xs ys rs ds zs fs (by simpa using h)]
    rfl

/-- The halos of a realization are the rows of the population, in order. -/
theorem createRealization_rows {a b : String} {o : PopOut} (hal : Aligned o) {hs : List HaloArgs}
    (h : createRealization a b o = .ok hs) :
    hs.map rowOf = rows o ∧ ∀ t ∈ hs, t.mdef = if t.isSubhalo then b else a := by
  obtain ⟨hs', h', hm⟩ := c17_swapped a b o hal
  rw [h] at h'
  cases h'
  refine ⟨?_, fun t ht => by simpa [wantedMdef] using hm t ht⟩
  obtain ⟨h1, h2, h3, h4, h5⟩ := hal
  unfold createRealization at h
  rw [mdefLoop_spec _ _ _ _ h5] at h
  cases h
  exact zipArgs_rows _ _ _ _ _ _ _ (by simp [h5])

/-- A whole rendering: the planes, the populations, and the halos as the concatenation of their objects. -/
theorem render_ok {W : World} {S : Setup} {scale : ℝ} {r : Request} {out : List HaloArgs}
    (h : render W S scale r = .ok out) :
    ∃ (planes gaps : List ℝ) (qs : List PopOut), lensPlanes (some S.zLens) S.zSource r.planeSpacing = .ok (planes, gaps) ∧
      r.populations.zipIdx.map (populationAt W S scale r planes gaps) = qs.map .ok ∧
      (∀ q ∈ qs, Aligned q) ∧ out.map rowOf = qs.flatMap rows ∧
      ∀ t ∈ out, t.mdef = if t.isSubhalo then r.mdefField else r.mdefSub := by
  unfold render at h
  obtain ⟨o, ho, h⟩ := bind_ok h
  unfold renderMasses at ho
  obtain ⟨⟨planes, gaps⟩, hp, ho⟩ := bind_ok ho
  have hal : ∀ c ∈ r.populations.zipIdx.map (populationAt W S scale r planes gaps), ∀ q, c = .ok q → Aligned q := by
    intro c hc q hq
    obtain ⟨p, -, rfl⟩ := List.mem_map.1 hc
    obtain ⟨mc, mkw, sc, skw, -, -, -, -, hq⟩ := populationAt_ok hq
    exact population_aligned hq
  obtain ⟨qs, h1, h2, h3, -⟩ := c16_population _ _ hal ho
  obtain ⟨g1, g2⟩ := createRealization_rows h2 h
  refine ⟨planes, gaps, qs, hp, h1, ?_, by rw [g1, h3], g2⟩
  intro q hq
  exact hal (.ok q) (by rw [h1]; exact List.mem_map_of_mem hq) q rfl

/-! ## Rows of the populations -/

theorem mem_rows {o : PopOut} {t : Row} (h : t ∈ rows o) :
    t.1 ∈ o.masses ∧ (t.2.1, t.2.2.1, t.2.2.2.1) ∈ o.x.zip (o.y.zip o.r3d) ∧ t.2.2.2.2.1 ∈ o.z ∧ t.2.2.2.2.2 ∈ o.flags := by
  obtain ⟨m, x, y, r, z, f⟩ := t
  unfold rows at h
  obtain ⟨i, hi, he⟩ := List.getElem_of_mem h
  simp only [List.getElem_zip, Prod.mk.injEq] at he
  simp only [List.length_zip] at hi
  obtain ⟨e1, e2, e3, e4, e5, e6⟩ := he
  refine ⟨by rw [← e1]; exact List.getElem_mem _, ?_, by simp only; rw [← e5]; exact List.getElem_mem _,
    by simp only; rw [← e6]; exact List.getElem_mem _⟩
  simp only
  rw [List.mem_iff_getElem]
  refine ⟨i, by simp; omega, by simp [e2, e3, e4]⟩

/-- A subhalo population: the masses, the positions, the redshift, the flag. -/
theorem sub_rows {zl : ℝ} {mf : MassFn} {s : SubSpatial} {kpc : ℝ} {o : PopOut} (hs : SubDrawsN s)
    (h : subhalosRender zl mf s kpc = .ok o) :
    mf.draw 0 = .ok o.masses ∧ ∀ t ∈ rows o, t.1 ∈ o.masses ∧ t.2.2.2.2.1 = zl ∧ t.2.2.2.2.2 = true ∧
      ∃ x y r, subPositions s kpc o.masses.length = .ok (x, y, r) ∧ (t.2.1, t.2.2.1, t.2.2.2.1) ∈ x.zip (y.zip r) := by
  obtain ⟨hal, hd, hz, hf⟩ := c16_subhalos zl mf s kpc hs o h
  refine ⟨hd, fun t ht => ?_⟩
  obtain ⟨h1, h2, h3, h4⟩ := mem_rows ht
  refine ⟨h1, hz _ h3, hf _ h4, o.x, o.y, o.r3d, ?_, h2⟩
  unfold subhalosRender at h
  obtain ⟨m, hm, h⟩ := bind_ok h
  obtain ⟨⟨x, y, r⟩, hp, h⟩ := bind_ok h
  cases h
  exact hp

/-- The two-halo population. -/
theorem twoHalo_rows {zl : ℝ} {mf : MassFn} {s : Spatial} {kpc : ℝ → ℝ} {o : PopOut} (hs : DrawsN s)
    (h : twoHaloRender zl mf s kpc = .ok o) :
    mf.draw 0 = .ok o.masses ∧ ∀ t ∈ rows o, t.1 ∈ o.masses ∧ t.2.2.2.1 = none ∧ t.2.2.2.2.1 = zl ∧ t.2.2.2.2.2 = false ∧
      ∃ x y, renderPositionsAtZ s kpc 0 zl o.masses.length = .ok (x, y) ∧ (t.2.1, t.2.2.1) ∈ x.zip y := by
  obtain ⟨hal, hd, hz, hf⟩ := c16_two_halo zl mf s kpc hs o h
  refine ⟨hd, fun t ht => ?_⟩
  obtain ⟨h1, h2, h3, h4⟩ := mem_rows ht
  unfold twoHaloRender at h
  obtain ⟨m, hm, h⟩ := bind_ok h
  obtain ⟨⟨x, y⟩, hp, h⟩ := bind_ok h
  cases h
  simp only at h2
  obtain ⟨e1, e2⟩ := List.of_mem_zip h2
  obtain ⟨e2, e3⟩ := List.of_mem_zip e2
  refine ⟨h1, List.eq_of_mem_replicate e3, hz _ h3, hf _ h4, x, y, hp, ?_⟩
  obtain ⟨i, hi, he⟩ := List.getElem_of_mem h2
  simp only [List.getElem_zip, Prod.mk.injEq] at he
  simp only [List.length_zip] at hi
  rw [List.mem_iff_getElem]
  exact ⟨i, by simp; omega, by simp [he.1, he.2.1]⟩

/-- A line-of-sight population. -/
theorem los_rows {c : LosClass} {o : PopOut} (hs : DrawsN c.spatial) (h : c.render = .ok o) :
    ∀ t ∈ rows o, ∃ k z dz m x y, (c.planes.zip c.deltaZ)[k]? = some (z, dz) ∧ (c.massFn z dz).draw k = .ok m ∧
      t.1 ∈ m ∧ t.2.2.2.1 = none ∧ t.2.2.2.2.1 = z ∧ t.2.2.2.2.2 = false ∧
      renderPositionsAtZ c.spatial c.kpc k z m.length = .ok (x, y) ∧ (t.2.1, t.2.2.1) ∈ x.zip y := by
  obtain ⟨hal, parts, h1, h2, h3⟩ := c16_line_of_sight c hs o h
  intro t ht
  rw [h3, List.mem_flatMap] at ht
  obtain ⟨e, he, ht⟩ := ht
  obtain ⟨k, hk, hek⟩ := List.getElem_of_mem he
  simp only [List.length_zip] at hk
  simp only [List.getElem_zip] at hek
  have hq : (c.planes.zip c.deltaZ)[k]? = some e.1 := by
    rw [List.getElem?_eq_getElem (by simp; omega), ← hek]; simp
  have hw : parts[k]? = some e.2 := by
    rw [List.getElem?_eq_getElem (by omega), ← hek]
  obtain ⟨d1, d2⟩ := h2 k _ _ hq hw
  obtain ⟨⟨z, dz⟩, m, x, y⟩ := e
  unfold planeRows at ht
  simp only at ht d1 d2 hq
  obtain ⟨i, hi, hti⟩ := List.getElem_of_mem ht
  simp only [List.length_zip, List.length_map] at hi
  simp only [List.getElem_zip, List.getElem_map] at hti
  refine ⟨k, z, dz, m, x, y, hq, d1, ?_, ?_, ?_, ?_, d2, ?_⟩
  · rw [← hti]; exact List.getElem_mem _
  · rw [← hti]
  · rw [← hti]
  · rw [← hti]
  · rw [List.mem_iff_getElem]
    exact ⟨i, by simp; omega, by simp [← hti]⟩

/-! ## Masses -/

/-- Variates are where they belong. -/
structure Variates (W : World) : Prop where
  mass : ∀ i k n, 0 ≤ W.mass i k n ∧ W.mass i k n < 1
  radius : ∀ i k n, 0 ≤ W.radius i k n ∧ W.radius i k n < 1
  radius3d : ∀ i k n, 0 ≤ W.radius3d i k n ∧ W.radius3d i k n < 1

theorem draw_range {p : PowerLaw} {n : ℕ} {u : ℕ → ℝ} {l : List ℝ} (hu : ∀ i, 0 ≤ u i ∧ u i < 1)
    (hp : p.logMlow < p.logMhigh) (h : p.draw n u = .ok l) :
    ∀ m ∈ l, (10 : ℝ) ^ p.logMlow ≤ m ∧ m < (10 : ℝ) ^ p.logMhigh := by
  obtain ⟨-, h2⟩ := draw_length p n u l h
  intro m hm
  rw [h2] at hm
  obtain ⟨i, -, rfl⟩ := List.mem_map.1 hm
  exact ⟨(invert_range p hp.le (u i) (hu i).1 (hu i).2.le).1, invert_lt p hp (u i) (hu i).1 (hu i).2⟩

theorem drawSuppressed_base {p : PowerLaw} {t : ℝ → ℝ} {n : ℕ} {u v : ℕ → ℝ} {l : List ℝ}
    (h : drawSuppressed p t n u v = .ok l) : ∃ l', p.draw n u = .ok l' ∧ l.Sublist l' := by
  have h' := h
  unfold drawSuppressed at h
  obtain ⟨m, hm, -⟩ := bind_ok h
  exact ⟨m, hm, c20_only_removes p t n u v m l hm h'⟩

theorem drawFrom_range {W : World} (hW : Variates W) {i k : ℕ} {p : PowerLaw} {t : Option (ℝ → ℝ)} {l : List ℝ}
    (hp : p.logMlow < p.logMhigh) (h : drawFrom W i k p t = .ok l) :
    ∀ m ∈ l, (10 : ℝ) ^ p.logMlow ≤ m ∧ m < (10 : ℝ) ^ p.logMhigh := by
  cases t with
  | none => exact draw_range (hW.mass i k) hp h
  | some t =>
    obtain ⟨l', h', hs⟩ := drawSuppressed_base h
    exact fun m hm => draw_range (hW.mass i k) hp h' m (hs.subset hm)

theorem massFnOf_draw {W : World} {i k : ℕ} {x : Except Err (PowerLaw × Option (ℝ → ℝ))} {l : List ℝ}
    (h : (massFnOf W i x).draw k = .ok l) : ∃ p t, x = .ok (p, t) ∧ drawFrom W i k p t = .ok l := by
  unfold massFnOf at h
  split at h
  · exact ⟨_, _, rfl, h⟩
  · cases h

theorem subPowerLaw_limits {kw : Kwargs} {z kpc cone lo hi : ℝ} {p : PowerLaw}
    (h : subPowerLaw kw z kpc cone (some lo) (some hi) = .ok p) : p.logMlow = lo ∧ p.logMhigh = hi := by
  unfold subPowerLaw at h
  obtain ⟨lo', h1, h⟩ := bind_ok h
  cases h1
  obtain ⟨hi', h2, h⟩ := bind_ok h
  cases h2
  obtain ⟨q, -, h⟩ := bind_ok h
  cases h
  exact ⟨rfl, rfl⟩

theorem losPowerLaw_limits {fit : ℝ → ℝ → ℝ × ℝ} {v : ℝ} {kw : Kwargs} {lo hi : ℝ} {p : PowerLaw}
    (h : losPowerLaw fit v kw (some lo) (some hi) = .ok p) : p.logMlow = lo ∧ p.logMhigh = hi := by
  unfold losPowerLaw at h
  obtain ⟨lo', h1, h⟩ := bind_ok h
  cases h1
  obtain ⟨hi', h2, h⟩ := bind_ok h
  cases h2
  obtain ⟨_, -, h⟩ := bind_ok h
  obtain ⟨_, -, h⟩ := bind_ok h
  obtain ⟨_, -, h⟩ := bind_ok h
  cases h
  exact ⟨rfl, rfl⟩

theorem losModel_ok {W : World} {S : Setup} {c : Cls} {kw : Kwargs} {z dz lo hi : ℝ} {p : PowerLaw} {t : Option (ℝ → ℝ)}
    (h : losModel W S c kw z dz lo hi = .ok (p, t)) :
    ∃ pivot, kw.num "m_pivot" = .ok pivot ∧
      losPowerLaw (massFit W S.kc z pivot) (volumeElement W S.kc S.geometry z dz) kw (some lo) (some hi) = .ok p ∧
      turnoverOf c kw = .ok t := by
  unfold losModel at h
  split at h
  · cases h
  · obtain ⟨pivot, h1, h⟩ := bind_ok h
    obtain ⟨p', h2, h⟩ := bind_ok h
    obtain ⟨t', h3, h⟩ := bind_ok h
    cases h
    exact ⟨pivot, h1, h2, h3⟩

theorem subModel_ok {W : World} {S : Setup} {c : Cls} {kw : Kwargs} {lo hi : ℝ} {p : PowerLaw} {t : Option (ℝ → ℝ)}
    (h : subModel W S c kw lo hi = .ok (p, t)) :
    subPowerLaw kw S.zLens (W.kpc S.kc S.zLens) S.geometry.openingAngle (some lo) (some hi) = .ok p ∧
      turnoverOf c kw = .ok t := by
  unfold subModel at h
  obtain ⟨p', h2, h⟩ := bind_ok h
  obtain ⟨t', h3, h⟩ := bind_ok h
  cases h
  exact ⟨h2, h3⟩

theorem losModel_range {W : World} (hW : Variates W) {S : Setup} {c : Cls} {kw : Kwargs} {z dz lo hi : ℝ} {i k : ℕ}
    (hlt : lo < hi) {l : List ℝ} (h : (massFnOf W i (losModel W S c kw z dz lo hi)).draw k = .ok l) :
    ∀ m ∈ l, (10 : ℝ) ^ lo ≤ m ∧ m < (10 : ℝ) ^ hi := by
  obtain ⟨p, t, hp, hd⟩ := massFnOf_draw h
  obtain ⟨pivot, -, hl, -⟩ := losModel_ok hp
  obtain ⟨e1, e2⟩ := losPowerLaw_limits hl
  have := drawFrom_range hW (by rw [e1, e2]; exact hlt) hd
  rwa [e1, e2] at this

theorem subModel_range {W : World} (hW : Variates W) {S : Setup} {c : Cls} {kw : Kwargs} {lo hi : ℝ} {i k : ℕ}
    (hlt : lo < hi) {l : List ℝ} (h : (massFnOf W i (subModel W S c kw lo hi)).draw k = .ok l) :
    ∀ m ∈ l, (10 : ℝ) ^ lo ≤ m ∧ m < (10 : ℝ) ^ hi := by
  obtain ⟨p, t, hp, hd⟩ := massFnOf_draw h
  obtain ⟨hl, -⟩ := subModel_ok hp
  obtain ⟨e1, e2⟩ := subPowerLaw_limits hl
  have := drawFrom_range hW (by rw [e1, e2]; exact hlt) hd
  rwa [e1, e2] at this

/-! ## Positions on the sky -/

theorem cone_positions {W : World} (hW : Variates W) {i : ℕ} {kw : Kwargs} {s : Spatial} {zl zs cone cone' : ℝ}
    {type : String} {kc : ℕ} {z : ℝ} (hk : W.kpc kc z ≠ 0) (h : flatSpatial W i (.named "LensConeUniform") kw = .ok s)
    (h1 : kw "geometry" = some (.geometry zl zs cone type kc)) (h2 : kw "cone_opening_angle" = some (.num cone'))
    {k n : ℕ} {x y : List ℝ} (hp : renderPositionsAtZ s (W.kpc kc) k z n = .ok (x, y)) :
    ∃ g, geometryOf W zl zs cone type kc = .ok g ∧ ∀ p ∈ x.zip y, p.1 ^ 2 + p.2 ^ 2 ≤ (cone' / 2 * g.renderingScale z) ^ 2 := by
  obtain ⟨zl', zs', c', t', kc', g, e1, e2, e3⟩ := flatSpatial_ok h
  rw [h1] at e1
  cases e1
  refine ⟨g, e2, ?_⟩
  rcases e3 with ⟨-, a, ha, rfl⟩ | ⟨e, -⟩
  · rw [Kwargs.num, h2] at ha
    cases ha
    obtain ⟨x', y', q1, -, -, q2⟩ := c21_cone_in_disc_arcsec cone' (W.kpc kc) g.renderingScale (W.angle i) (W.radius i) k n z
      hk (fun k n => ⟨(hW.radius i k n).1, (hW.radius i k n).2.le⟩)
    rw [q1] at hp
    cases hp
    intro p hp
    have := q2 p hp
    rwa [show (0.5 : ℝ) * cone' = cone' / 2 by ring] at this
  · simp at e

theorem uniform_positions {W : World} (hW : Variates W) {i : ℕ} {kw : Kwargs} {s : SubSpatial} {zl zs cone rmax z : ℝ}
    {type : String} {kc : ℕ} (hk : W.kpc kc z ≠ 0) (h : subSpatial W i z (.named "Uniform") kw = .ok s)
    (h1 : kw "geometry" = some (.geometry zl zs cone type kc)) (h2 : kw "rmax2d_arcsec" = some (.num rmax))
    {n : ℕ} {x y : List ℝ} {r : List (Option ℝ)} (hp : subPositions s (W.kpc kc z) n = .ok (x, y, r)) :
    ∀ p ∈ x.zip (y.zip r), p.1 ^ 2 + p.2.1 ^ 2 ≤ rmax ^ 2 ∧ p.2.2 = none := by
  unfold subSpatial at h
  rw [if_pos (Or.inl rfl)] at h
  obtain ⟨f, hf, h⟩ := bind_ok h
  cases h
  obtain ⟨zl', zs', c', t', kc', g, e1, e2, e3⟩ := flatSpatial_ok hf
  rw [h1] at e1
  cases e1
  rcases e3 with ⟨e, -⟩ | ⟨-, a, ha, rfl⟩
  · simp at e
  · rw [Kwargs.num, h2] at ha
    cases ha
    obtain ⟨d1, d2, d3⟩ := c21_uniform_in_disc rmax (W.kpc kc z) 1 0 0 n (W.angle i 0) (W.radius i 0)
      (fun n => ⟨(hW.radius i 0 n).1, (hW.radius i 0 n).2.le⟩)
    unfold subPositions at hp
    simp only [bind, Except.bind, pure, Except.pure] at hp
    split at hp
    · cases hp
      intro p hp
      obtain ⟨j, hj, he⟩ := List.getElem_of_mem hp
      simp only [List.length_zip, List.length_map, List.length_replicate] at hj
      simp only [List.getElem_zip, List.getElem_map, List.getElem_replicate] at he
      have hq := d3 ((uniformDraw rmax (W.kpc kc z) 1 0 0 n (W.angle i 0) (W.radius i 0)).1[j]'(by omega),
        (uniformDraw rmax (W.kpc kc z) 1 0 0 n (W.angle i 0) (W.radius i 0)).2[j]'(by omega)) (by
          rw [List.mem_iff_getElem]
          exact ⟨j, by simp; omega, by simp⟩)
      rw [← he]
      simp only [zero_mul, sub_zero] at hq ⊢
      refine ⟨?_, trivial⟩
      have hkk : 0 < W.kpc kc z ^ 2 := by positivity
      rw [mul_pow, mul_pow _ (W.kpc kc z)⁻¹, ← add_mul, inv_pow, ← div_eq_mul_inv, div_le_iff₀ hkk]
      calc _ ≤ _ := hq
        _ = _ := by ring
    · cases hp
      simp

/-- The distributions of the cored NFW profile of a host can be sampled. -/
structure HostOk (W : World) (kc : ℕ) (m z rmax : ℝ) : Prop where
  kpc : 0 < W.kpc kc z
  rmaxPos : 0 < rmax
  rs : ∀ c, 0 < W.hostRs kc m c z
  r200 : 1 / 1000 * rmax < W.hostR200 kc m z * 1000 / W.kpc kc z
  d2 : ∀ rs rc r, 0 < rs → 0 < rc → 0 ≤ r → 0 < W.density2d rs rc r
  d3 : ∀ rs rc r, 0 < rs → 0 < rc → 0 ≤ r → 0 < W.density3d rs rc r

theorem nfw_positions {W : World} (hW : Variates W) {i : ℕ} {kw : Kwargs} {s : SubSpatial} {zl zs rmax m z c core : ℝ}
    {kc : ℕ} (hH : HostOk W kc m z rmax) (hcore : 0 < core) (h : subSpatial W i z (.named "ProjectedNFW") kw = .ok s)
    (h1 : kw "lens_cosmo" = some (.lensCosmo zl zs kc)) (h2 : kw "m_host" = some (.num m))
    (h3 : kw "zlens" = some (.num z)) (h4 : kw "rmax2d_arcsec" = some (.num rmax))
    (h5 : kw "r_core_units_rs" = some (.num core)) (h6 : kw "c_host" = some (.num c))
    {n : ℕ} {x y : List ℝ} {r : List (Option ℝ)} (hp : subPositions s (W.kpc kc z) n = .ok (x, y, r)) :
    ∀ p ∈ x.zip (y.zip r), p.1 ^ 2 + p.2.1 ^ 2 ≤ rmax ^ 2 ∧
      ∃ t, p.2.2 = some t ∧ 0 < t ∧ t ≤ W.hostR200 kc m z * 1000 := by
  unfold subSpatial at h
  rw [if_neg (by simp), if_pos rfl] at h
  unfold projectedNFW at h
  rw [h1] at h
  simp only [Kwargs.num, h2, h3, h4, h5, h6, bind, Except.bind, pure, Except.pure] at h
  cases h
  have hrs : 0 < W.hostRs kc m c z * 1000 / W.kpc kc z := div_pos (by linarith [mul_pos (hH.rs c) (by norm_num : (0:ℝ) < 1000)]) hH.kpc
  set p0 : ProjNFW := ⟨rmax, W.hostR200 kc m z * 1000 / W.kpc kc z, W.kpc kc z,
    W.density2d (W.hostRs kc m c z * 1000 / W.kpc kc z) (core * (W.hostRs kc m c z * 1000 / W.kpc kc z)),
    W.density3d (W.hostRs kc m c z * 1000 / W.kpc kc z) (core * (W.hostRs kc m c z * 1000 / W.kpc kc z))⟩ with hp0
  have hg : GoodNFW p0 := ⟨hH.rmaxPos, hH.r200, hH.kpc, fun r hr => hH.d2 _ _ r hrs (mul_pos hcore hrs) hr,
    fun r hr => hH.d3 _ _ r hrs (mul_pos hcore hrs) hr⟩
  obtain ⟨X, Y, R, e, l1, l2, l3, b1, b2⟩ := c57_projected_nfw_partial p0 hg n (W.radius i 0) (W.angle i 0) (W.radius3d i 0)
    (fun n => ⟨(hW.radius i 0 n).1, (hW.radius i 0 n).2.le⟩) (fun n => ⟨(hW.radius3d i 0 n).1, (hW.radius3d i 0 n).2.le⟩)
  unfold subPositions at hp
  simp only [e, bind, Except.bind, pure, Except.pure] at hp
  split at hp
  · cases hp
    intro p hp
    obtain ⟨j, hj, he⟩ := List.getElem_of_mem hp
    simp only [List.length_zip, List.length_map] at hj
    simp only [List.getElem_zip, List.getElem_map] at he
    have hq := b1 (X[j]'(by omega), Y[j]'(by omega)) (by
      rw [List.mem_iff_getElem]
      exact ⟨j, by simp; omega, by simp⟩)
    have hr := b2 (R[j]'(by omega)) (List.getElem_mem _)
    rw [← he]
    have hk := hH.kpc
    simp only at hq ⊢
    refine ⟨?_, _, rfl, hr.1, ?_⟩
    · have hkk : 0 < W.kpc kc z ^ 2 := by positivity
      rw [mul_pow, mul_pow _ (W.kpc kc z)⁻¹, ← add_mul, inv_pow, ← div_eq_mul_inv, div_le_iff₀ hkk]
      calc _ ≤ _ := hq
        _ = _ := by rw [hp0]; ring
    · refine hr.2.trans (le_of_eq ?_)
      rw [hp0]
      simp only
      field_simp
  · cases hp
    simp

end Run
end PyHalo
