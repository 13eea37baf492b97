import Verif.Props.WholeBHExamples

/-!
# C81: whole calls with subhalos from outside
-/

namespace PyHalo.Props
open PyHalo PyHalo.Spec PyHalo.Whole PyHalo.Preset PyHalo.Run

/-- An object that was made of a subhalo with these coordinates in kpc. -/
structure Spec81.From (kpc z mass x y : ℝ) (r3d : Option ℝ) (h : Halo) : Prop where
  mass : h.mass = mass
  x : h.x * kpc = x
  y : h.y * kpc = y
  r3d : h.r3d = r3d
  z : h.z = z
  sub : h.isSubhalo = true
  kind : h.mdef = "TNFW"
  moves : h.fixedPosition = false

theorem fromParams_from {kpc : ℝ} (hk : kpc ≠ 0) (z : ℝ) (t : Tag) (b : ℝ) (ps : List Kw) (m x y : ℝ) (r : Option ℝ) :
    Spec81.From kpc z m x y r (fromParams kpc z t b ps m x y r) :=
  ⟨rfl, div_mul_cancel₀ x hk, div_mul_cancel₀ y hk, rfl, rfl, rfl, rfl, rfl⟩

theorem injected_tags {rows : List HaloArgs} {tags : ℕ → Tag} {thr : Option ℝ} {model : String} {s : Ext.Store} {R : Realization}
    (hI : Spec94.Injected rows tags thr model s R) : ∀ h ∈ R.halos, ∃ (j : ℕ) (row : HaloArgs), rows[j]? = some row ∧
      (s.obj h).tag = tags j ∧ (s.obj h).isSubhalo = row.isSubhalo := by
  intro k hk
  obtain ⟨i, hi⟩ := List.mem_iff_getElem?.1 hk
  have hil : i < rows.length := by rw [← hI.length]; exact (List.getElem?_eq_some_iff.1 hi).1
  have := hI.each i _ k (List.getElem?_eq_getElem hil) hi
  exact ⟨i, _, List.getElem?_eq_getElem hil, this.2.2.2.2.2.2.1, this.2.2.2.2.2.1⟩

theorem fromGalacticus_ok {W : Run.World} {K : Kit} {E : Preset.Env} {a : CdmArgs} {d : Dicts} {zSource cone : ℝ}
    {noTag : Tag} {bound : Galacticus.Sub → ℝ} {params : Galacticus.Sub → List Kw}
    {nodes : ℝ → Except Err (List Galacticus.Sub)} {p : Ext.Store × Realization}
    (h : fromGalacticus W K E a d zSource cone noTag bound params nodes = .ok p) :
    ∃ s R l Q, cdmCall W K E (losArgs a zSource cone) d = .ok (s, R) ∧ nodes (W.kpc a.kwargsCosmo 0.5) = .ok l ∧
      Q.halos = Pop.refs s.next (galacticusHalos (W.kpc a.kwargsCosmo 0.5) 0.5 noTag bound params l) ∧
      p = (lift s (Pop.place s.heap s.next (galacticusHalos (W.kpc a.kwargsCosmo 0.5) 0.5 noTag bound params l))
          (R.join (Pop.place s.heap s.next (galacticusHalos (W.kpc a.kwargsCosmo 0.5) 0.5 noTag bound params l)) Q false),
        R.join (Pop.place s.heap s.next (galacticusHalos (W.kpc a.kwargsCosmo 0.5) 0.5 noTag bound params l)) Q false) := by
  unfold fromGalacticus at h
  obtain ⟨⟨s, R⟩, h1, h⟩ := bind_ok h
  obtain ⟨l, h2, h⟩ := bind_ok h
  cases h
  exact ⟨s, R, l, _, h1, h2, rfl, rfl⟩

/-- **C81**, Galacticus. A call without clusters returns the halos of the preset called for the line of sight, unchanged, and
one subhalo for each selected node, at redshift 0.5, with the mass, the projected position and the distance of the node. -/
theorem c81_galacticus (W : Run.World) (K : Kit) (E : Preset.Env) (a : CdmArgs) (d : Dicts) (zSource cone : ℝ)
    (noTag : Tag) (bound : Galacticus.Sub → ℝ) (params : Galacticus.Sub → List Kw)
    (nodes : ℝ → Except Err (List Galacticus.Sub)) (hgc : a.globularClusters = none) (hn : ∀ j, K.tags j ≠ noTag)
    (hk : W.kpc a.kwargsCosmo 0.5 ≠ 0) (s' : Ext.Store) (R' : Realization)
    (h : fromGalacticus W K E a d zSource cone noTag bound params nodes = .ok (s', R')) :
    ∃ s R rows l L, cdmCall W K E (losArgs a zSource cone) d = .ok (s, R) ∧
      runCdm W E (losArgs a zSource cone) d = .ok rows ∧ Spec94.Injected rows K.tags a.sisThreshold a.galaxyModel s R ∧
      nodes (W.kpc a.kwargsCosmo 0.5) = .ok l ∧ Added s.heap s'.heap s.next L R R' ∧ (∀ h ∈ R.halos, s'.obj h = s.obj h) ∧
      L.length = l.length ∧
      ∀ (i : ℕ) (q : Galacticus.Sub) (h : Halo), l[i]? = some q → L[i]? = some h →
        Spec81.From (W.kpc a.kwargsCosmo 0.5) 0.5 q.mass q.x q.y (some q.r3d) h ∧ h.tag = noTag := by
  obtain ⟨s, R, l, Q, h1, h2, hQ, e⟩ := fromGalacticus_ok h
  obtain ⟨rows, hrows, hI, -⟩ := c94_cdm W K E (losArgs a zSource cone) d s R hgc h1
  cases e
  obtain ⟨j1, j2, -⟩ := joined_added (Q := Q) hI.live hQ (fun k hk b hb => by
    obtain ⟨j, row, -, ht, -⟩ := injected_tags hI k hk
    obtain ⟨q, -, rfl⟩ := List.mem_map.1 hb
    rw [ht]
    exact hn j)
  refine ⟨s, R, rows, l, _, h1, hrows, hI, h2, j1, j2, by simp [galacticusHalos], fun i q o hq ho => ?_⟩
  unfold galacticusHalos at ho
  rw [List.getElem?_map, hq] at ho
  cases ho
  exact ⟨fromParams_from hk _ _ _ _ _ _ _ _, rfl⟩

theorem added_external {σ σ' : Heap} {n : ℕ} {L : List Halo} {R R' : Realization} (h : Added σ σ' n L R R') {i : ℕ}
    (hi : i < L.length) : (n + i : Oid) ∈ R'.halos ∧ σ' (n + i : Oid) = L[i] :=
  ⟨h.halos.mem_iff.2 (List.mem_append_right _ (List.mem_range'_1.2 ⟨Nat.le_add_right _ _, by omega⟩)),
    h.new i _ (List.getElem?_eq_getElem hi)⟩

/-- **C81**, the failure: the subhalos from outside have one tag between them. If a realization holds one of them and nothing
else, joining the result with it, which ought to change nothing (C06), removes every other one. -/
theorem c81_join_loses_subhalos (W : Run.World) (K : Kit) (E : Preset.Env) (a : CdmArgs) (d : Dicts) (zSource cone : ℝ)
    (noTag : Tag) (bound : Galacticus.Sub → ℝ) (params : Galacticus.Sub → List Kw)
    (nodes : ℝ → Except Err (List Galacticus.Sub)) (hgc : a.globularClusters = none) (hn : ∀ j, K.tags j ≠ noTag)
    (hk : W.kpc a.kwargsCosmo 0.5 ≠ 0) (l : List Galacticus.Sub) (hl : nodes (W.kpc a.kwargsCosmo 0.5) = .ok l)
    (s' : Ext.Store) (R' : Realization) (h : fromGalacticus W K E a d zSource cone noTag bound params nodes = .ok (s', R')) :
    ∃ ext : List Oid, ext.length = l.length ∧ ext.Nodup ∧ (∀ k ∈ ext, k ∈ R'.halos ∧ (s'.obj k).tag = noTag) ∧
      (2 ≤ l.length → ¬ DistinctTags s'.heap R') ∧
      ∀ k ∈ ext, ∀ (Q : Realization) (jc : Bool), Q.halos = [k] →
        ∀ k' ∈ ext, k' ≠ k → k' ∉ (R'.join s'.heap Q jc).halos := by
  obtain ⟨s, R, rows, l', L, -, -, -, hl', hA, -, hlen, hall⟩ := c81_galacticus W K E a d zSource cone noTag bound params nodes
    hgc hn hk s' R' h
  rw [hl] at hl'
  cases hl'
  have hext : ∀ k ∈ List.range' s.next L.length, k ∈ R'.halos ∧ (s'.heap k).tag = noTag := by
    intro k hk
    obtain ⟨h1, h2⟩ := List.mem_range'_1.1 hk
    obtain ⟨i, rfl⟩ := Nat.exists_eq_add_of_le h1
    have hi : i < L.length := by omega
    obtain ⟨e1, e2⟩ := added_external hA hi
    refine ⟨e1, ?_⟩
    rw [e2]
    exact (hall i _ _ (List.getElem?_eq_getElem (by omega)) (List.getElem?_eq_getElem hi)).2
  refine ⟨List.range' s.next L.length, by simp [hlen], List.nodup_range', hext, fun h2 hd => ?_, fun k hk Q jc hQ k' hk' hne hm => ?_⟩
  · have h0 := hext s.next (List.mem_range'_1.2 ⟨le_rfl, by omega⟩)
    have h1 := hext (s.next + 1) (List.mem_range'_1.2 ⟨by omega, by omega⟩)
    have hinj := List.inj_on_of_nodup_map (f := fun o => (s'.heap o).tag) (List.pairwise_map.2 hd) h0.1 h1.1
      (h0.2.trans h1.2.symm)
    exact absurd hinj.symm (Nat.succ_ne_self _)
  · have hle : Q.halos.length ≤ R'.halos.length := by
      rw [hQ]
      exact List.length_pos_of_mem (hext k hk).1
    have := ((c06_join_prefers_shorter s'.heap R' Q jc).1 hle).2 k' (hext k' hk').1
    rcases this.1 hm with h | h
    · rw [hQ] at h
      exact hne (by simpa using h)
    · exact h ⟨k, by rw [hQ]; simp, (hext k hk).2.trans (hext k' hk').2.symm⟩

/-- **C81**, no subhalos of the preset: if no logarithmic amplitude is given, the expected number of subhalos of the preset is
zero, and there are none (a Poisson variate of mean zero is zero). -/
theorem c81_no_preset_subhalos (W : Run.World) (hV : Variates W) (E : Preset.Env) (a : CdmArgs) (d : Dicts) (zSource cone : ℝ)
    (h1 : a.log10dNdA = none) (h2 : a.log10SigmaSub = none) (hlt : a.logMlow < a.logMhigh) (rows : List HaloArgs)
    (hP : Spec97.upTo W (losArgs a zSource cone) (10 ^ a.logMhigh) = 0 → W.pois 0 0 = 0)
    (h : runCdm W E (losArgs a zSource cone) d = .ok rows) :
    Spec97.upTo W (losArgs a zSource cone) (10 ^ a.logMhigh) = 0 ∧ ∀ row ∈ rows, row.isSubhalo = false := by
  have h0 : ∀ m, Spec97.upTo W (losArgs a zSource cone) m = 0 := by
    intro m
    have : Spec97.dNdm W (losArgs a zSource cone) = fun _ => 0 := by
      funext m
      simp [Spec97.dNdm, losArgs, h1, h2, Spec47.chosen, Spec47.norm]
    unfold Spec97.upTo
    rw [this]
    simp
  refine ⟨h0 _, fun row hr => ?_⟩
  obtain ⟨hn, -⟩ := c97_subhalos W hV E (losArgs a zSource cone) d rows hlt h
  have e : (rows.filter fun t => t.isSubhalo).length = 0 := by
    rw [hn, h0]
    split
    · exact hP (h0 _)
    · norm_num [Np.rint]
  cases hs : row.isSubhalo with
  | false => rfl
  | true =>
    have : row ∈ rows.filter fun t => t.isSubhalo := List.mem_filter.2 ⟨hr, hs⟩
    rw [List.length_eq_zero_iff.1 e] at this
    simp at this

/-- **C81**, the failure: with a logarithmic amplitude the preset renders its own subhalos as if nothing had been overwritten. -/
theorem c81_amplitude_kept (W : Run.World) (E : Preset.Env) (a : CdmArgs) (d : Dicts) (zSource cone x : ℝ)
    (h : a.log10dNdA ≠ none ∨ a.log10SigmaSub ≠ none) :
    runCdm W E (losArgs a zSource cone) d = runCdm W E { a with cone := cone, zLens := 0.5, zSource := zSource, sigmaSub := x } d := by
  have e : cdmSubKwargs (losArgs a zSource cone) =
      cdmSubKwargs { a with cone := cone, zLens := 0.5, zSource := zSource, sigmaSub := x } := by
    unfold cdmSubKwargs
    have : ∀ kw y, amplitude a.log10dNdA a.log10SigmaSub 0 kw = amplitude a.log10dNdA a.log10SigmaSub y kw := by
      intro kw y
      unfold amplitude
      cases h1 : a.log10dNdA with
      | some v => rfl
      | none =>
        cases h2 : a.log10SigmaSub with
        | some v => rfl
        | none => simp [h1, h2] at h
    exact this _ _
  have e' : ∀ inf cs cf cHost dS dF, cdmAssemble (losArgs a zSource cone) inf cs cf cHost dS dF =
      cdmAssemble { a with cone := cone, zLens := 0.5, zSource := zSource, sigmaSub := x } inf cs cf cHost dS dF := by
    intro inf cs cf cHost dS dF
    unfold cdmAssemble
    rw [e]
    rfl
  unfold runCdm cdm
  simp only [e']
  rfl

/-! ## The emulator -/

/-- **C81**, emulator. A call with the preset `CDM` (without clusters) returns, up to the order, the halos of the preset,
unchanged, and one subhalo for each of the emulator, at the lens, with its mass and position and without a distance to the
centre of the host. Everything else (geometry, mass sheets, rendering classes) is that of the emulator. -/
theorem c81_emulator (W : Run.World) (K : Kit) (E : Preset.Env) (a : CdmArgs) (d : Dicts) (cone : ℝ)
    (noTag : Tag) (bound : Galacticus.EmulatorSub → ℝ) (params : Galacticus.EmulatorSub → List Kw)
    (l : List Galacticus.EmulatorSub) (hgc : a.globularClusters = none) (hn : ∀ j, K.tags j ≠ noTag)
    (hk : W.kpc 0 a.zLens ≠ 0) (s' : Ext.Store) (R' : Realization)
    (h : jointWithEmulator W K E a d cone noTag bound params l = .ok (s', R')) :
    ∃ (s : Ext.Store) (R : Realization) (rows : List HaloArgs) (g : Geometry) (L : List Halo),
      cdmCall W K E a d = .ok (s, R) ∧ runCdm W E a d = .ok rows ∧
      Spec94.Injected rows K.tags a.sisThreshold a.galaxyModel s R ∧
      R'.halos.Perm (R.halos ++ List.range' s.next L.length) ∧ Fresh s'.heap R' ∧ (∀ h ∈ R.halos, s'.obj h = s.obj h) ∧
      (∀ (i : ℕ) (o : Halo), L[i]? = some o → s'.heap (s.next + i : ℕ) = o) ∧ L.length = l.length ∧
      (∀ (i : ℕ) (q : Galacticus.EmulatorSub) (o : Halo), l[i]? = some q → L[i]? = some o →
        Spec81.From (W.kpc 0 a.zLens) a.zLens q.mass q.x q.y none o) ∧
      geometryOf W a.zLens a.zSource cone "DOUBLE_CONE" 0 = .ok g ∧ R'.geometry = some (geometryView g) ∧
      R'.applyMassSheet = false ∧ R'.renderingClasses = [none] := by
  unfold jointWithEmulator at h
  obtain ⟨g, hg, h⟩ := bind_ok h
  obtain ⟨⟨s, R⟩, h1, h⟩ := bind_ok h
  cases h
  obtain ⟨rows, hrows, hI, -⟩ := c94_cdm W K E a d s R hgc h1
  set L := emulatorHalos (W.kpc 0 a.zLens) a.zLens noTag bound params l with hL
  have hold : ∀ k < s.next, Pop.place s.heap s.next L k = s.heap k := fun k hk => Pop.place_old _ _ _ _ hk
  refine ⟨s, R, rows, g, L, h1, hrows, hI, ?_, ?_, ?_, ?_, by simp [hL, emulatorHalos], fun i q o hq ho => ?_, hg, rfl, rfl, rfl⟩
  · refine (Pop.join_perm _ _ _ _ fun x hx y hy => ?_).trans List.perm_append_comm
    have hx : x ∈ Pop.refs s.next L := hx
    have hm : Pop.place s.heap s.next L x ∈ L := by
      have := List.mem_map_of_mem (f := Pop.place s.heap s.next L) hx
      rwa [Pop.map_place] at this
    obtain ⟨q, -, e⟩ := List.mem_map.1 (hL ▸ hm)
    rw [hold y (hI.live y hy), ← e]
    obtain ⟨j, -, -, ht, -⟩ := injected_tags hI y hy
    rw [show (s.heap y).tag = K.tags j from ht]
    exact (hn j).symm
  · rw [lift_heap _ _ _ hold]
    exact Pop.fresh_join _ _ _ _
  · exact fun o ho => lift_old _ _ _ (hI.live o ho)
  · intro i o ho
    rw [lift_heap _ _ _ hold]
    exact Pop.place_new _ _ _ _ _ ho
  · rw [hL] at ho
    unfold emulatorHalos at ho
    rw [List.getElem?_map, hq] at ho
    cases ho
    exact fromParams_from hk _ _ _ _ _ _ _ _

/-- **C81**, the failure: the result has no sheets of negative convergence, whatever is asked for, although the realization of
the preset for the line of sight has them. -/
theorem c81_emulator_no_sheets (W : Run.World) (K : Kit) (E : Preset.Env) (a : CdmArgs) (d : Dicts) (cone : ℝ)
    (noTag : Tag) (bound : Galacticus.EmulatorSub → ℝ) (params : Galacticus.EmulatorSub → List Kw)
    (l : List Galacticus.EmulatorSub) (hgc : a.globularClusters = none) (hn : ∀ j, K.tags j ≠ noTag)
    (hk : W.kpc 0 a.zLens ≠ 0) (s' : Ext.Store) (R' : Realization)
    (h : jointWithEmulator W K E a d cone noTag bound params l = .ok (s', R')) :
    (∀ useClass x, R'.lensingQuantities s'.heap true useClass x = R'.lensingQuantities s'.heap false useClass x) ∧
      ∃ s R, cdmCall W K E a d = .ok (s, R) ∧ R.applyMassSheet = true := by
  obtain ⟨s, R, rows, g, L, h1, -, -, -, -, -, -, -, -, -, -, h2, -⟩ := c81_emulator W K E a d cone noTag bound params l hgc hn hk s' R' h
  obtain ⟨-, -, -, -, -, h3⟩ := c94_cdm W K E a d s R hgc h1
  refine ⟨fun useClass x => ?_, s, R, h1, h3⟩
  unfold Realization.lensingQuantities
  simp [h2]

/-- **C81**, the failure: the preset for the line of sight renders its subhalos as well, so that there are more subhalos than
the emulator has. -/
theorem c81_emulator_extra_subhalos (W : Run.World) (hV : Variates W) (K : Kit) (E : Preset.Env) (a : CdmArgs) (d : Dicts) (cone : ℝ)
    (noTag : Tag) (bound : Galacticus.EmulatorSub → ℝ) (params : Galacticus.EmulatorSub → List Kw)
    (l : List Galacticus.EmulatorSub) (hgc : a.globularClusters = none) (hn : ∀ j, K.tags j ≠ noTag)
    (hk : W.kpc 0 a.zLens ≠ 0) (hlt : a.logMlow < a.logMhigh) (hp : a.drawPoisson = true) (s' : Ext.Store) (R' : Realization)
    (h : jointWithEmulator W K E a d cone noTag bound params l = .ok (s', R')) :
    (R'.halos.filter fun k => (s'.heap k).isSubhalo).length = l.length + W.pois 0 0 := by
  obtain ⟨s, R, rows, g, L, h1, h2, hI, h4, -, h6, h7, h8, h9, -⟩ := c81_emulator W K E a d cone noTag bound params l hgc hn hk s' R' h
  obtain ⟨c1, -⟩ := c97_subhalos W hV E a d rows hlt h2
  rw [hp, if_pos rfl] at c1
  have e1 : (R.halos.filter fun k => (s'.heap k).isSubhalo).length = (rows.filter fun t => t.isSubhalo).length := by
    have key : R.halos.map (fun k => (s'.heap k).isSubhalo) = rows.map fun t => t.isSubhalo := by
      apply List.ext_getElem (by simp [hI.length])
      intro i i1 i2
      simp only [List.length_map] at i1 i2
      have := (hI.each i _ _ (List.getElem?_eq_getElem i2) (List.getElem?_eq_getElem i1)).2.2.2.2.2.1
      simp only [List.getElem_map]
      rw [← this]
      show (s'.obj _).isSubhalo = _
      rw [h6 _ (List.getElem_mem i1)]
    have count : ∀ {α : Type} (f : α → Bool) (l : List α), (l.filter f).length = (l.map f).count true := by
      intro α f l
      rw [← List.countP_eq_length_filter, List.count, List.countP_map]
      congr 1
      funext x
      simp
    rw [count, count, key]
  have e2 : ((List.range' s.next L.length).filter fun k => (s'.heap k).isSubhalo) = List.range' s.next L.length := by
    rw [List.filter_eq_self]
    intro k hk
    obtain ⟨h1, h2⟩ := List.mem_range'_1.1 hk
    obtain ⟨i, rfl⟩ := Nat.exists_eq_add_of_le h1
    have hi : i < L.length := by omega
    rw [h7 i _ (List.getElem?_eq_getElem hi)]
    exact (h9 i _ _ (List.getElem?_eq_getElem (by omega)) (List.getElem?_eq_getElem hi)).sub
  rw [(h4.filter _).length_eq, List.filter_append, List.length_append, e1, e2, c1, List.length_range', h8]
  omega

/-! ## Concrete cases -/

/-- A call of `DMFromGalacticus` with two nodes. -/
theorem demo_galacticus (E : Preset.Env) (nodes : List Galacticus.Sub) : ∃ s R, fromGalacticus demoWorld demoKit E
    { zLens := 0, zSource := 0 } freshDicts 1.5 6 1 (fun q => q.mass) (fun _ => []) (fun _ => .ok nodes) = .ok (s, R) := by
  obtain ⟨r, hr⟩ := cdm_works E (losArgs { zLens := 0, zSource := 0 } 1.5 6) (.inl rfl) (by simp [losArgs]) rfl rfl rfl rfl rfl (.inl rfl)
  obtain ⟨s, R, h⟩ := c94_cdm_works demoWorld demo_variates demoKit E (losArgs { zLens := 0, zSource := 0 } 1.5 6) freshDicts r hr
    (demo_ok _) (fun z _ => by norm_num [demoWorld]) (by norm_num [losArgs]) (by norm_num [losArgs])
    (by norm_num [losArgs]) (by simp [losArgs]) (by norm_num [losArgs])
    (by norm_num [losArgs]) (fun h => by simp [losArgs] at h) (fun _ => demo_apart _) (.inl rfl) rfl
  unfold fromGalacticus
  rw [h]
  exact ⟨_, _, rfl⟩

theorem demo_tags (j : ℕ) : demoKit.tags j ≠ (1 : Tag) := by
  show 2 * j ≠ 1
  omega

/-- Both become subhalos; joining with a realization of the first removes the second. -/
example (E : Preset.Env) (q q' : Galacticus.Sub) : ∃ s R, ∃ k k' : Oid, fromGalacticus demoWorld demoKit E
    { zLens := 0, zSource := 0 } freshDicts 1.5 6 1 (fun q => q.mass) (fun _ => []) (fun _ => .ok [q, q']) = .ok (s, R) ∧
    k ∈ R.halos ∧ k' ∈ R.halos ∧ k ≠ k' ∧ k' ∉ (R.join s.heap (R.rebuild s.heap [k]) false).halos := by
  obtain ⟨s, R, h⟩ := demo_galacticus E [q, q']
  obtain ⟨ext, h1, h2, h3, -, h4⟩ := c81_join_loses_subhalos demoWorld demoKit E { zLens := 0, zSource := 0 } freshDicts 1.5 6 1
    (fun q => q.mass) (fun _ => []) (fun _ => .ok [q, q']) rfl demo_tags (by norm_num [demoWorld]) [q, q'] rfl s R h
  match ext, h1 with
  | [k, k'], _ =>
    have hne : k ≠ k' := by
      intro e
      simp [e] at h2
    exact ⟨s, R, k, k', h, (h3 k (by simp)).1, (h3 k' (by simp)).1, hne,
      h4 k (by simp) _ _ rfl k' (by simp) (Ne.symm hne)⟩

/-- An emulator with one subhalo, and the preset with its defaults: three subhalos. -/
example (E : Preset.Env) (q : Galacticus.EmulatorSub) : ∃ s R, jointWithEmulator demoWorld demoKit E demoBH.cdm freshDicts 8 1
    (fun q => q.mass) (fun _ => []) [q] = .ok (s, R) ∧ (R.halos.filter fun k => (s.heap k).isSubhalo).length = 3 := by
  obtain ⟨s, R, rows, h, -⟩ := demo_bh_cdm E
  have hj : ∃ p, jointWithEmulator demoWorld demoKit E demoBH.cdm freshDicts 8 1 (fun q => q.mass) (fun _ => []) [q] = .ok p := by
    unfold jointWithEmulator
    rw [h]
    exact ⟨_, rfl⟩
  obtain ⟨⟨s', R'⟩, hj⟩ := hj
  exact ⟨s', R', hj, c81_emulator_extra_subhalos demoWorld demo_variates demoKit E demoBH.cdm freshDicts 8 1 _ _ [q] rfl demo_tags
    (by norm_num [demoWorld]) (by norm_num [demoBH, BHCallArgs.cdm]) rfl s' R' hj⟩

/-- With `log10_sigma_sub` the preset for the line of sight has two subhalos in the world of two draws. -/
example (E : Preset.Env) (rows : List HaloArgs)
    (h : runCdm demoWorld E (losArgs { zLens := 0, zSource := 0, log10SigmaSub := some (-1) } 1.5 6) freshDicts = .ok rows) :
    runCdm demoWorld E { zLens := 0.5, zSource := 1.5, log10SigmaSub := some (-1) } freshDicts = .ok rows ∧
      (rows.filter fun t => t.isSubhalo).length = 2 := by
  have e := c81_amplitude_kept demoWorld E { zLens := 0, zSource := 0, log10SigmaSub := some (-1) } freshDicts 1.5 6 0.025 (.inr (by simp))
  rw [e] at h
  exact ⟨h, (c97_subhalos demoWorld demo_variates E _ freshDicts rows (by norm_num) h).1⟩

end PyHalo.Props
