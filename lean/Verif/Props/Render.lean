import Verif.Lemmas.Render

/-! # Rendering of populations (C16, C17) -/

namespace PyHalo.Props
open PyHalo Spec

theorem populationRender_spec (cs : List (Except Err PopOut)) :
    ∀ (acc : PopOut) (o : PopOut), Aligned acc → (∀ c ∈ cs, ∀ q, c = .ok q → Aligned q) →
      populationRender cs acc = .ok o →
      ∃ qs : List PopOut, cs = qs.map .ok ∧ Aligned o ∧ rows o = rows acc ++ qs.flatMap rows := by
  induction cs with
  | nil =>
    intro acc o ha _ h
    cases h
    exact ⟨[], rfl, ha, by simp⟩
  | cons c t ih =>
    intro acc o ha hc h
    cases hq : c with
    | error e => subst hq; simp [populationRender, bind, Except.bind] at h
    | ok q =>
      subst hq
      have hqa := hc (.ok q) (by simp) q rfl
      simp only [populationRender, bind, Except.bind] at h
      obtain ⟨qs, h1, h2, h3⟩ := ih _ o (aligned_append acc q ha hqa)
        (fun c hm => hc c (by simp [hm])) h
      refine ⟨q :: qs, by simp [h1], h2, ?_⟩
      rw [h3, rows_append acc q ha]
      simp

/-- **C16.** Rendering concatenates the populations: whenever it succeeds, every population
succeeded, the six arrays have one common length (the sum of the sizes of the populations) and the
list of objects is the concatenation of the lists of objects of the populations. -/
theorem c16_population (cs : List (Except Err PopOut)) (o : PopOut)
    (hal : ∀ c ∈ cs, ∀ q, c = .ok q → Aligned q) (h : haloPopulationRender cs = .ok o) :
    ∃ qs : List PopOut, cs = qs.map .ok ∧ Aligned o ∧ rows o = qs.flatMap rows ∧
      o.masses.length = (qs.map fun q => q.masses.length).sum := by
  obtain ⟨qs, h1, h2, h3⟩ := populationRender_spec cs _ o (by simp [Aligned]) hal h
  refine ⟨qs, h1, h2, by simpa [rows] using h3, ?_⟩
  rw [← rows_length o h2, h3]
  have : rows { masses := [], x := [], y := [], r3d := [], z := [], flags := [] } = [] := rfl
  rw [this, List.nil_append, List.length_flatMap]
  congr 1
  apply List.map_congr_left
  intro q hq
  apply rows_length
  exact hal (.ok q) (by rw [h1]; exact List.mem_map_of_mem hq) q rfl

/-- And it fails exactly when some population fails. -/
theorem c16_population_total (qs : List PopOut) :
    ∃ o, haloPopulationRender (qs.map .ok) = .ok o := by
  have : ∀ (acc : PopOut), ∃ o, populationRender (qs.map .ok) acc = .ok o := by
    induction qs with
    | nil => intro acc; exact ⟨acc, rfl⟩
    | cons q t ih =>
      intro acc
      simp only [List.map_cons, populationRender, bind, Except.bind]
      exact ih _
  exact this _

/-- The objects of one plane: all at redshift `z`, none of them a subhalo. -/
def planeRows (z : ℝ) (m : List ℝ) (p : List ℝ × List ℝ) : List Row :=
  m.zip (p.1.zip (p.2.map fun y => (y, (none : Option ℝ), z, false)))

theorem los_loop_spec (c : LosClass) (hs : DrawsN c.spatial) (pl : List (ℝ × ℝ)) :
    ∀ (k : ℕ) (acc out : List ℝ × List ℝ × List ℝ × List ℝ),
      acc.2.1.length = acc.1.length → acc.2.2.1.length = acc.1.length →
      acc.2.2.2.length = acc.1.length → c.loop k pl acc = .ok out →
      out.2.1.length = out.1.length ∧ out.2.2.1.length = out.1.length ∧
      out.2.2.2.length = out.1.length ∧
      ∃ parts : List (List ℝ × (List ℝ × List ℝ)),
        parts.length = pl.length ∧
        (∀ (i : ℕ) (q : ℝ × ℝ) (w : List ℝ × (List ℝ × List ℝ)), pl[i]? = some q → parts[i]? = some w →
          (c.massFn q.1 q.2).draw (k + i) = .ok w.1 ∧
          renderPositionsAtZ c.spatial c.kpc (k + i) q.1 w.1.length = .ok w.2) ∧
        out.1.zip (out.2.1.zip (out.2.2.1.zip out.2.2.2))
          = acc.1.zip (acc.2.1.zip (acc.2.2.1.zip acc.2.2.2)) ++
            (pl.zip parts).flatMap fun e =>
              e.2.1.zip (e.2.2.1.zip (e.2.2.2.map fun y => (y, e.1.1))) := by
  induction pl with
  | nil =>
    rintro k acc out h1 h2 h3 h
    cases h
    exact ⟨h1, h2, h3, [], rfl, by simp, by simp⟩
  | cons q t ih =>
    obtain ⟨z, dz⟩ := q
    rintro k ⟨m0, x0, y0, z0⟩ out h1 h2 h3 h
    simp only at h1 h2 h3
    cases hm : (c.massFn z dz).draw k with
    | error e => simp [LosClass.loop, hm, bind, Except.bind] at h
    | ok m =>
      cases hp : renderPositionsAtZ c.spatial c.kpc k z m.length with
      | error e => simp [LosClass.loop, hm, hp, bind, Except.bind] at h
      | ok p =>
        obtain ⟨px, py⟩ := p
        obtain ⟨l1, l2⟩ := renderPositions_ok _ _ _ _ _ hs hp
        simp only [LosClass.loop, hm, hp, bind, Except.bind] at h
        simp only at l1 l2
        obtain ⟨g1, g2, g3, parts, g4, g5, g6⟩ := ih (k + 1) _ out (by simp; omega) (by simp; omega)
          (by simp; omega) h
        refine ⟨g1, g2, g3, (m, (px, py)) :: parts, by simp [g4], ?_, ?_⟩
        · intro i q w hq hw
          cases i with
          | zero => simp at hq hw; subst hq; subst hw; exact ⟨hm, hp⟩
          | succ i =>
            simp at hq hw
            have := g5 i q w hq hw
            rwa [show k + (i + 1) = k + 1 + i by ring]
        · rw [g6]
          simp only
          rw [List.zip_append (by omega), List.zip_append (by simp; omega),
            List.zip_append (by simp; omega)]
          simp only [List.zip_cons_cons, List.flatMap_cons, List.append_assoc]
          congr 4
          rw [l1, ← l2]
          exact zip_replicate_right py z

/-- **C16, line of sight.** When rendering the line of sight succeeds, the six arrays have one
length, no object is a subhalo, and the list of objects is the concatenation over the lens planes
of: the masses drawn for that plane, the positions drawn for that plane, the redshift of that
plane. -/
theorem c16_line_of_sight (c : LosClass) (hs : DrawsN c.spatial) (o : PopOut)
    (h : c.render = .ok o) :
    Aligned o ∧
    ∃ parts : List (List ℝ × (List ℝ × List ℝ)),
      parts.length = (c.planes.zip c.deltaZ).length ∧
      (∀ (i : ℕ) (q : ℝ × ℝ) (w : List ℝ × (List ℝ × List ℝ)),
        (c.planes.zip c.deltaZ)[i]? = some q → parts[i]? = some w →
          (c.massFn q.1 q.2).draw i = .ok w.1 ∧
          renderPositionsAtZ c.spatial c.kpc i q.1 w.1.length = .ok w.2) ∧
      rows o = ((c.planes.zip c.deltaZ).zip parts).flatMap fun e =>
        planeRows e.1.1 e.2.1 e.2.2 := by
  unfold LosClass.render at h
  cases hl : c.loop 0 (c.planes.zip c.deltaZ) ([], [], [], []) with
  | error e => rw [hl] at h; simp [bind, Except.bind] at h
  | ok out =>
    obtain ⟨m, x, y, z⟩ := out
    rw [hl] at h
    simp only [bind, Except.bind, pure, Except.pure] at h
    cases h
    obtain ⟨g1, g2, g3, parts, g4, g5, g6⟩ := los_loop_spec c hs _ 0 _ _ rfl rfl rfl hl
    simp only at g1 g2 g3 g6
    refine ⟨by simp [Aligned, g1, g2, g3], parts, g4, ?_, ?_⟩
    · intro i q w hq hw
      simpa using g5 i q w hq hw
    · have e1 : rows { masses := m, x := x, y := y, r3d := List.replicate m.length none, z := z,
                       flags := List.replicate m.length false }
          = (m.zip (x.zip (y.zip z))).map fun t => (t.1, t.2.1, t.2.2.1, none, t.2.2.2, false) := by
        unfold rows
        simp only
        apply List.ext_getElem?
        intro i
        simp only [List.getElem?_map, List.zip, List.getElem?_zipWith]
        by_cases hi : i < m.length
        · simp [hi, g1, g2, g3]
        · simp [hi]
      rw [e1, g6]
      simp only [List.zip_nil_left, List.nil_append, List.map_flatMap]
      congr 1
      funext e
      unfold planeRows
      apply List.ext_getElem?
      intro i
      simp only [List.getElem?_map, List.zip, List.getElem?_zipWith]
      cases e.2.1[i]? <;> cases e.2.2.1[i]? <;> cases e.2.2.2[i]? <;> simp

/-- Every object of the line of sight sits on one of the lens planes and none is a subhalo. -/
theorem c16_line_of_sight_planes (c : LosClass) (hs : DrawsN c.spatial) (o : PopOut)
    (h : c.render = .ok o) :
    (∀ z ∈ o.z, z ∈ c.planes) ∧ (∀ f ∈ o.flags, f = false) ∧ ∀ r ∈ o.r3d, r = none := by
  obtain ⟨hal, parts, g1, g2, g3⟩ := c16_line_of_sight c hs o h
  have key : ∀ (i : ℕ) (hi : i < o.masses.length), ∃ r ∈ rows o, r.2.2.2.2.1 = o.z[i]'(by
      have := hal.2.2.2.1; omega) := by
    intro i hi
    obtain ⟨h1, h2, h3, h4, h5⟩ := hal
    refine ⟨(rows o)[i]'(by rw [rows_length o ⟨h1, h2, h3, h4, h5⟩]; exact hi), List.getElem_mem _, ?_⟩
    simp [rows]
  have hrow : ∀ r ∈ rows o, r.2.2.2.2.1 ∈ c.planes := by
    intro r hr
    rw [g3, List.mem_flatMap] at hr
    obtain ⟨e, he, hr⟩ := hr
    unfold planeRows at hr
    obtain ⟨_, hr⟩ := List.of_mem_zip (show (r.1, r.2) ∈ _ from hr)
    obtain ⟨_, hr⟩ := List.of_mem_zip (show (r.2.1, r.2.2) ∈ _ from hr)
    obtain ⟨y, _, hy⟩ := List.mem_map.1 hr
    have : r.2.2.2.2.1 = e.1.1 := by rw [← hy]
    rw [this]
    have := (List.of_mem_zip (show (e.1, e.2) ∈ _ from he)).1
    exact (List.of_mem_zip (show (e.1.1, e.1.2) ∈ _ from this)).1
  refine ⟨?_, ?_, ?_⟩
  · intro z hz
    obtain ⟨i, hi, rfl⟩ := List.getElem_of_mem hz
    obtain ⟨r, hr, he⟩ := key i (by have := hal.2.2.2.1; omega)
    rw [← he]
    exact hrow r hr
  · unfold LosClass.render at h
    cases hl : c.loop 0 (c.planes.zip c.deltaZ) ([], [], [], []) with
    | error e => rw [hl] at h; simp [bind, Except.bind] at h
    | ok out =>
      rw [hl] at h
      simp only [bind, Except.bind, pure, Except.pure] at h
      cases h
      intro f hf
      exact List.eq_of_mem_replicate hf
  · unfold LosClass.render at h
    cases hl : c.loop 0 (c.planes.zip c.deltaZ) ([], [], [], []) with
    | error e => rw [hl] at h; simp [bind, Except.bind] at h
    | ok out =>
      rw [hl] at h
      simp only [bind, Except.bind, pure, Except.pure] at h
      cases h
      intro f hf
      exact List.eq_of_mem_replicate hf

/-- **C16, the lens plane.** The two-halo population: aligned, everything at the lens redshift,
nothing a subhalo. -/
theorem c16_two_halo (zl : ℝ) (mf : MassFn) (s : Spatial) (kpc : ℝ → ℝ) (hs : DrawsN s)
    (o : PopOut) (h : twoHaloRender zl mf s kpc = .ok o) :
    Aligned o ∧ mf.draw 0 = .ok o.masses ∧ (∀ z ∈ o.z, z = zl) ∧ ∀ f ∈ o.flags, f = false := by
  unfold twoHaloRender at h
  cases hm : mf.draw 0 with
  | error e => rw [hm] at h; simp [bind, Except.bind] at h
  | ok m =>
    rw [hm] at h
    cases hp : renderPositionsAtZ s kpc 0 zl m.length with
    | error e => simp [hp, bind, Except.bind] at h
    | ok p =>
      obtain ⟨l1, l2⟩ := renderPositions_ok _ _ _ _ _ hs hp
      simp only [hp, bind, Except.bind, pure, Except.pure] at h
      cases h
      refine ⟨by simp [Aligned, l1, l2], rfl, ?_, ?_⟩
      · intro z hz; exact List.eq_of_mem_replicate hz
      · intro z hz; exact List.eq_of_mem_replicate hz

/-- **C16, subhalos.** Aligned, everything at the lens redshift, every object a subhalo. -/
theorem c16_subhalos (zl : ℝ) (mf : MassFn) (s : SubSpatial) (kpc : ℝ) (hs : SubDrawsN s)
    (o : PopOut) (h : subhalosRender zl mf s kpc = .ok o) :
    Aligned o ∧ mf.draw 0 = .ok o.masses ∧ (∀ z ∈ o.z, z = zl) ∧ ∀ f ∈ o.flags, f = true := by
  unfold subhalosRender at h
  cases hm : mf.draw 0 with
  | error e => rw [hm] at h; simp [bind, Except.bind] at h
  | ok m =>
    rw [hm] at h
    cases hp : subPositions s kpc m.length with
    | error e => simp [hp, bind, Except.bind] at h
    | ok p =>
      have hl : p.1.length = m.length ∧ p.2.1.length = m.length ∧ p.2.2.length = m.length := by
        unfold subPositions at hp
        cases s with
        | flat d =>
          cases hd : d m.length with
          | error e => simp [hd, bind, Except.bind] at hp
          | ok q =>
            obtain ⟨l1, l2⟩ := hs _ _ hd
            simp only [hd, bind, Except.bind, pure, Except.pure] at hp
            split at hp
            · cases hp; simp [l1, l2]
            · rename_i hn
              cases hp
              have : m.length = 0 := by omega
              simp [this]
        | threeD d =>
          cases hd : d m.length with
          | error e => simp [hd, bind, Except.bind] at hp
          | ok q =>
            obtain ⟨l1, l2, l3⟩ := hs _ _ hd
            simp only [hd, bind, Except.bind, pure, Except.pure] at hp
            split at hp
            · cases hp; simp [l1, l2, l3]
            · rename_i hn
              cases hp
              have : m.length = 0 := by omega
              simp [this]
      simp only [hp, bind, Except.bind, pure, Except.pure] at h
      cases h
      refine ⟨by simp [Aligned, hl.1, hl.2.1, hl.2.2], rfl, ?_, ?_⟩
      · intro z hz; exact List.eq_of_mem_replicate hz
      · intro z hz; exact List.eq_of_mem_replicate hz

/-- **C16, any list of populations.** Whatever populations are combined, in whatever order: when
rendering succeeds the six arrays are aligned and hold the objects of the populations one
population after the other. -/
theorem c16_any_populations (ps : List Population) (hs : ∀ p ∈ ps, p.GoodSpatial) (o : PopOut)
    (h : haloPopulationRender (ps.map Population.render) = .ok o) :
    Aligned o ∧ ∃ qs : List PopOut, ps.map Population.render = qs.map .ok ∧
      (∀ q ∈ qs, Aligned q) ∧ rows o = qs.flatMap rows := by
  have hal : ∀ c ∈ ps.map Population.render, ∀ q, c = .ok q → Aligned q := by
    intro c hc q hq
    obtain ⟨p, hp, rfl⟩ := List.mem_map.1 hc
    have hg := hs p hp
    cases p with
    | los c => exact (c16_line_of_sight c hg q hq).1
    | twoHalo zl mf s kpc => exact (c16_two_halo zl mf s kpc hg q hq).1
    | sub zl mf s kpc => exact (c16_subhalos zl mf s kpc hg q hq).1
  obtain ⟨qs, h1, h2, h3, _⟩ := c16_population _ o hal h
  refine ⟨h2, qs, h1, ?_, h3⟩
  intro q hq
  exact hal (.ok q) (by rw [h1]; exact List.mem_map_of_mem hq) q rfl

theorem zipArgs_spec : ∀ (m x y : List ℝ) (r : List (Option ℝ)) (d : List String) (z : List ℝ)
    (f : List Bool), x.length = m.length → y.length = m.length → r.length = m.length →
    d.length = m.length → z.length = m.length → f.length = m.length →
    (zipArgs m x y r d z f).length = m.length ∧
    (zipArgs m x y r d z f).map HaloArgs.mass = m ∧ (zipArgs m x y r d z f).map HaloArgs.x = x ∧
    (zipArgs m x y r d z f).map HaloArgs.y = y ∧ (zipArgs m x y r d z f).map HaloArgs.r3d = r ∧
    (zipArgs m x y r d z f).map HaloArgs.mdef = d ∧ (zipArgs m x y r d z f).map HaloArgs.z = z ∧
    (zipArgs m x y r d z f).map HaloArgs.isSubhalo = f
  | [], x, y, r, d, z, f => by
    intro h1 h2 h3 h4 h5 h6
    simp only [List.length_nil, List.length_eq_zero_iff] at *
    subst h1; subst h2; subst h3; subst h4; subst h5; subst h6
    simp [zipArgs]
  | m :: ms, x, y, r, d, z, f => by
    intro h1 h2 h3 h4 h5 h6
    cases x <;> cases y <;> cases r <;> cases d <;> cases z <;> cases f <;>
      simp only [List.length_cons, List.length_nil, Nat.add_right_cancel_iff] at h1 h2 h3 h4 h5 h6 <;>
      try omega
    rename_i x xs y ys r rs d ds z zs f fs
    obtain ⟨g0, g1, g2, g3, g4, g5, g6, g7⟩ := zipArgs_spec ms xs ys rs ds zs fs h1 h2 h3 h4 h5 h6
    simp [zipArgs, g0, g1, g2, g3, g4, g5, g6, g7]

theorem mdefLoop_spec (a b : String) : ∀ (m : List ℝ) (f : List Bool), f.length = m.length →
    mdefLoop a b m f = .ok (f.map fun s => if s then b else a)
  | [], f => by
    intro h
    have : f = [] := List.eq_nil_of_length_eq_zero h
    simp [mdefLoop, this]
  | m :: ms, [] => by simp
  | m :: ms, s :: fs => by
    intro h
    have := mdefLoop_spec a b ms fs (by simpa using h)
    simp [mdefLoop, this, bind, Except.bind, pure, Except.pure]

/-- **C16, the realization.** The realization built from aligned arrays has exactly as many halos,
and halo `k` has the mass, position, 3-d radius, redshift and flag of entry `k`. -/
theorem c16_realization (mdefSub mdefField : String) (o : PopOut) (hal : Aligned o) :
    ∃ hs, createRealization mdefSub mdefField o = .ok hs ∧ hs.length = o.masses.length ∧
      hs.map HaloArgs.mass = o.masses ∧ hs.map HaloArgs.x = o.x ∧ hs.map HaloArgs.y = o.y ∧
      hs.map HaloArgs.r3d = o.r3d ∧ hs.map HaloArgs.z = o.z ∧
      hs.map HaloArgs.isSubhalo = o.flags := by
  obtain ⟨h1, h2, h3, h4, h5⟩ := hal
  unfold createRealization
  rw [mdefLoop_spec _ _ _ _ h5]
  simp only [bind, Except.bind, pure, Except.pure]
  obtain ⟨g0, g1, g2, g3, g4, g5, g6, g7⟩ := zipArgs_spec o.masses o.x o.y o.r3d
    (o.flags.map fun s => if s then mdefField else mdefSub) o.z o.flags h1 h2 h3 (by simp [h5]) h4 h5
  exact ⟨_, rfl, g0, g1, g2, g3, g4, g6, g7⟩

/-- As many realizations as asked for. -/
theorem c16_number_of_realizations (a b : String) (pops : ℕ → List (Except Err PopOut)) (n : ℕ)
    (rs : List (List HaloArgs)) (h : pyHaloRender a b pops n = .ok rs) : rs.length = n := by
  unfold pyHaloRender at h
  have := List.length_mapM_ok h
  simpa using this

/-- What the code does: a subhalo gets the profile asked for field halos and the other way round. -/
theorem c17_swapped (mdefSub mdefField : String) (o : PopOut) (hal : Aligned o) :
    ∃ hs, createRealization mdefSub mdefField o = .ok hs ∧
      ∀ h ∈ hs, h.mdef = wantedMdef mdefField mdefSub h.isSubhalo := by
  obtain ⟨h1, h2, h3, h4, h5⟩ := hal
  unfold createRealization
  rw [mdefLoop_spec _ _ _ _ h5]
  simp only [bind, Except.bind, pure, Except.pure]
  obtain ⟨g0, g1, g2, g3, g4, g5, g6, g7⟩ := zipArgs_spec o.masses o.x o.y o.r3d
    (o.flags.map fun s => if s then mdefField else mdefSub) o.z o.flags h1 h2 h3 (by simp [h5]) h4 h5
  refine ⟨_, rfl, ?_⟩
  intro h hm
  obtain ⟨i, hi, rfl⟩ := List.getElem_of_mem hm
  have e1 := congrArg (fun l => l[i]?) g5
  have e2 := congrArg (fun l => l[i]?) g7
  simp only [List.getElem?_map, List.getElem?_eq_getElem hi, Option.map_some] at e1 e2
  rw [← e2] at e1
  simpa [wantedMdef] using e1

/-- **C17 is false**: for any two different profile names there is a population in which a subhalo
gets the wrong one. -/
theorem c17_requested_profile_fails (a b : String) (hab : a ≠ b) :
    ∃ o hs, Aligned o ∧ createRealization a b o = .ok hs ∧
      ∃ h ∈ hs, h.isSubhalo = true ∧ h.mdef ≠ wantedMdef a b h.isSubhalo := by
  refine ⟨{ masses := [1], x := [0], y := [0], r3d := [none], z := [1], flags := [true] },
    [⟨1, 0, 0, none, b, 1, true⟩], by simp [Aligned], rfl, _, List.mem_singleton_self _, rfl, ?_⟩
  simp [wantedMdef, hab.symm]

example := c17_requested_profile_fails "TNFW" "NFW" (by simp)

/-- **C17, the part that holds**: when the two names are equal every halo gets the requested
profile.  Missing: the case of two different names, where it is false. -/
theorem c17_requested_profile_partial (a : String) (o : PopOut) (hal : Aligned o) :
    ∃ hs, createRealization a a o = .ok hs ∧ ∀ h ∈ hs, h.mdef = wantedMdef a a h.isSubhalo :=
  c17_swapped a a o hal

/-! ### A concrete population: two planes, one empty, and one subhalo -/

/-- Two planes; one halo of mass `7` on the first, none on the second. -/
noncomputable def demoLos : LosClass where
  planes := [0.2, 0.4]
  deltaZ := [0.2, 0.2]
  model := fun z _ _ _ =>
    { draw := fun k => .ok (if k = 0 then [7] else []), firstMoment := z }
  logMlow := fun _ => 6
  logMhigh := fun _ => 9
  spatial := fun _ n _ => .ok (List.replicate n 3, List.replicate n 4)
  kpc := fun _ => 2

example : DrawsN demoLos.spatial := by
  intro k n z p h
  simp only [demoLos] at h
  cases h
  simp

example : ∃ o, haloPopulationRender
    [(Population.los demoLos).render,
     (Population.sub 0.5 ⟨fun _ => .ok [9], 1⟩ (.threeD fun n =>
        .ok (List.replicate n 1, List.replicate n 2, List.replicate n 5)) 2).render] = .ok o ∧
    o.masses = [7, 9] ∧ o.flags = [false, true] ∧ o.z = [0.2, 0.5] ∧ o.r3d = [none, some 5] := by
  refine ⟨_, rfl, ?_⟩
  simp [LosClass.loop, demoLos, LosClass.massFn]

end PyHalo.Props
