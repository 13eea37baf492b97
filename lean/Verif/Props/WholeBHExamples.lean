import Verif.Props.WholeBH
import Verif.Props.WholeExamples
import Verif.Props.RunCount

/-!
# Concrete cases of C96 and C97
-/

namespace PyHalo.Props
open PyHalo PyHalo.Spec PyHalo.Whole PyHalo.Preset PyHalo.Run

/-- **C97** for the call `demoCdm`: two subhalos, and two field halos on every plane. -/
example (E : Preset.Env) : ∃ out, runCdm demoWorld E demoCdm freshDicts = .ok out ∧
    (out.filter fun t => t.isSubhalo).length = 2 ∧
    ∀ t ∈ out, t.isSubhalo = true →
      ∃ i, Spec97.upTo demoWorld demoCdm t.mass =
        demoWorld.mass 0 0 i * Spec97.upTo demoWorld demoCdm (10 ^ (10 : ℝ)) := by
  obtain ⟨out, h⟩ := demo_cdm E
  obtain ⟨h1, h2⟩ := c97_subhalos demoWorld demo_variates E demoCdm freshDicts out (by norm_num [demoCdm]) h
  refine ⟨out, h, by rw [h1]; rfl, fun t ht hs => ?_⟩
  have hm : t ∈ out.filter fun t => t.isSubhalo := List.mem_filter.2 ⟨ht, hs⟩
  obtain ⟨i, hi⟩ := List.mem_iff_getElem?.1 hm
  exact ⟨i, (h2 i t hi).2⟩

example (E : Preset.Env) : ∃ out P G, runCdm demoWorld E demoCdm freshDicts = .ok out ∧
    lensPlanes (some 0.5) 1.5 none = .ok (P, G) ∧
    (out.filter fun t => !t.isSubhalo).length = 2 * (P.zip G).length + 2 := by
  obtain ⟨out, h⟩ := demo_cdm E
  obtain ⟨g, P, G, parts, two, -, hP, h2, h3, h4, -, h6⟩ :=
    c97_field demoWorld demo_variates E demoCdm freshDicts out (by norm_num [demoCdm]) h
  refine ⟨out, P, G, h, hP, ?_⟩
  obtain ⟨j, p, dz, b, -, -, -, -, -, h7, -⟩ := h6 rfl
  have hsum : ∀ l : List (List HaloArgs), (∀ p ∈ l, p.length = 2) → l.flatten.length = 2 * l.length := by
    intro l
    induction l with
    | nil => intro _; rfl
    | cons a t ih =>
      intro hl
      rw [List.flatten_cons, List.length_append, hl a (by simp), ih (fun p hp => hl p (by simp [hp])), List.length_cons]
      ring
  rw [h3, List.length_append, h7, hsum parts, h2]
  · rfl
  · intro part hpart
    obtain ⟨k, hk⟩ := List.mem_iff_getElem?.1 hpart
    have hkl : k < (P.zip G).length := by rw [← h2]; exact (List.getElem?_eq_some_iff.1 hk).1
    obtain ⟨-, h8, -⟩ := h4 k _ _ part (List.getElem?_eq_getElem hkl) hk
    rw [h8]
    rfl

theorem plane_below_decimal {zl zs : ℝ} (hl : zl < zs) {n : ℤ} (hn : zs = n / 100)
    {P G : List ℝ} (h : lensPlanes (some zl) zs none = .ok (P, G)) : ∀ z ∈ P, z ≤ zs := by
  obtain ⟨h1, h2, h3, h4, h5⟩ := rawPlanes_some (zl := zl) (zs := zs) (s := 0.02) (by norm_num) hl
  have e : lensPlanes (some zl) zs (some 0.02) = .ok (P, G) := by rw [← h]; rfl
  unfold lensPlanes at e
  obtain ⟨gaps, -, e⟩ := bind_ok e
  cases e
  intro z hz
  obtain ⟨x, hx, rfl⟩ := List.mem_map.1 hz
  have := Np.round2_mono (h3 x hx).2.le
  rwa [Np.round2_of_decimal hn] at this

/-- A call of `CDM_plus_BH`: black holes with a thousandth of the mass of every halo, down to 100 solar masses. -/
noncomputable def demoBH : BHCallArgs := { zLens := 0.5, zSource := 1.5, logRatio := -3, logOccupation := 0, logMin := 2 }

theorem demo_bh_random : Spec96.Random demoKit := by
  refine ⟨fun i => by norm_num [demoKit], fun j i => ?_, fun j k i => ?_⟩
  · show 2 * j ≠ 4 * i + 1
    omega
  · show 2 * j ≠ 4 * Nat.pair k i + 3
    omega

theorem demo_bh_cdm (E : Preset.Env) : ∃ s R rows, cdmCall demoWorld demoKit E demoBH.cdm freshDicts = .ok (s, R) ∧
    runCdm demoWorld E demoBH.cdm freshDicts = .ok rows ∧ rows ≠ [] ∧ (∀ row ∈ rows, row.z ≤ 1.5 ∧ 10 ^ (6 : ℝ) ≤ row.mass) := by
  obtain ⟨r, hr⟩ := cdm_works E demoBH.cdm (.inl rfl) (by simp [demoBH, BHCallArgs.cdm]) rfl rfl rfl rfl rfl (.inl rfl)
  obtain ⟨s, R, h⟩ := c94_cdm_works demoWorld demo_variates demoKit E demoBH.cdm freshDicts r hr (demo_ok _)
    (fun z _ => by norm_num [demoWorld]) (by norm_num [demoBH, BHCallArgs.cdm]) (by norm_num [demoBH, BHCallArgs.cdm])
    (by norm_num [demoBH, BHCallArgs.cdm]) (by simp [demoBH, BHCallArgs.cdm]) (by norm_num [demoBH, BHCallArgs.cdm])
    (by norm_num [demoBH, BHCallArgs.cdm]) (fun h => by simp [demoBH, BHCallArgs.cdm] at h)
    (fun _ => demo_apart _) (.inl rfl) rfl
  obtain ⟨rows, hrows, -⟩ := c94_cdm demoWorld demoKit E demoBH.cdm freshDicts s R rfl h
  obtain ⟨v, P, G, -, hP, hall⟩ := c90_cdm demoWorld demo_variates E demoBH.cdm freshDicts rows
    (fun z _ => by norm_num [demoWorld]) (by norm_num [demoBH, BHCallArgs.cdm])
    (fun h => by simp [demoBH, BHCallArgs.cdm] at h) hrows
  obtain ⟨hn, -⟩ := c97_subhalos demoWorld demo_variates E demoBH.cdm freshDicts rows (by norm_num [demoBH, BHCallArgs.cdm]) hrows
  refine ⟨s, R, rows, h, hrows, ?_, fun row hrow => ⟨?_, (hall row hrow).2.1⟩⟩
  · rintro rfl
    cases hn
  · have hb := plane_below_decimal (zl := 0.5) (zs := 1.5) (by norm_num) (n := 150) (by norm_num) hP
    obtain ⟨-, -, -, q1, q2⟩ := hall row hrow
    have e : demoBH.cdm.zLens = 0.5 := rfl
    cases hs : row.isSubhalo with
    | true => rw [(q1 hs).1, e]; norm_num
    | false =>
      rcases (q2 hs).2.1 with hz | ⟨-, hz⟩
      · exact hb _ hz
      · rw [hz, e]; norm_num

/-- **C96** for this call: it succeeds, and every one of its halos has a black hole. -/
example (E : Preset.Env) : ∃ s R rows s' R' l l', cdmPlusBH demoWorld demoKit E demoBH freshDicts = .ok (s', R') ∧
    cdmCall demoWorld demoKit E demoBH.cdm freshDicts = .ok (s, R) ∧ runCdm demoWorld E demoBH.cdm freshDicts = .ok rows ∧
    rows ≠ [] ∧ Added s.heap s'.heap s.next (l ++ l') R R' ∧
    ∀ (i : ℕ) (row : HaloArgs), rows[i]? = some row → ∃ b ∈ l, b.tag = 4 * i + 1 ∧ b.z = row.z := by
  obtain ⟨s, R, rows, h, hrows, hne, hz⟩ := demo_bh_cdm E
  obtain ⟨⟨s', R'⟩, hp⟩ := c96_works demoWorld demoKit E demoBH freshDicts s R rows h hrows hne (fun row hr => (hz row hr).1)
    (demo_ok _) (by norm_num [demoBH]) (fun _ _ => ⟨1, rfl⟩) rfl
  obtain ⟨s₁, R₁, rows₁, l, l', q1, q2, -, -, q5, -, -, q8⟩ := c96_black_holes demoWorld demo_variates demoKit demo_bh_random E demoBH
    freshDicts (by norm_num [demoBH]) rfl s' R' hp
  rw [h] at q1
  cases q1
  rw [hrows] at q2
  cases q2
  refine ⟨s, R, rows, s', R', l, l', hp, h, hrows, hne, q5, fun i row hi => ?_⟩
  obtain ⟨b, hb, b1, -, b3⟩ := q8.complete i row hi (by norm_num [demoKit, demoBH]) (by
    have hm := (hz row (List.mem_of_getElem? hi)).2
    refine lt_min ?_ ?_
    · exact Real.rpow_lt_rpow_of_exponent_lt (by norm_num) (by norm_num [demoBH])
    · have e : (10 : ℝ) ^ demoBH.logRatio * 10 ^ (6 : ℝ) = 10 ^ (3 : ℝ) := by
        rw [← Real.rpow_add (by norm_num)]
        norm_num [demoBH]
      have : (10 : ℝ) ^ demoBH.logRatio * 10 ^ (6 : ℝ) ≤ (10 : ℝ) ^ demoBH.logRatio * row.mass :=
        mul_le_mul_of_nonneg_left hm (by positivity)
      rw [e] at this
      exact lt_of_lt_of_le (Real.rpow_lt_rpow_of_exponent_lt (by norm_num) (by norm_num [demoBH])) this)
  exact ⟨b, hb, b1, b3⟩

/-- A world in which every Poisson variate is zero. -/
noncomputable def emptyWorld : Run.World := { demoWorld with pois := fun _ _ => 0 }

/-- There the call fails. -/
example (E : Preset.Env) : cdmPlusBH emptyWorld demoKit E demoBH freshDicts = .error .indexError := by
  have hV : Variates emptyWorld := ⟨demo_variates.mass, demo_variates.radius, demo_variates.radius3d⟩
  have hW : WorldOk emptyWorld 0 := ⟨(demo_ok 0).1, (demo_ok 0).2, (demo_ok 0).3⟩
  obtain ⟨r, hr⟩ := cdm_works E demoBH.cdm (.inl rfl) (by simp [demoBH, BHCallArgs.cdm]) rfl rfl rfl rfl rfl (.inl rfl)
  obtain ⟨s, R, h⟩ := c94_cdm_works emptyWorld hV demoKit E demoBH.cdm freshDicts r hr hW
    (fun z => by norm_num [emptyWorld, demoWorld]) (by norm_num [demoBH, BHCallArgs.cdm]) (by norm_num [demoBH, BHCallArgs.cdm])
    (by norm_num [demoBH, BHCallArgs.cdm]) (by simp [demoBH, BHCallArgs.cdm]) (by norm_num [demoBH, BHCallArgs.cdm])
    (by norm_num [demoBH, BHCallArgs.cdm]) (fun h => by simp [demoBH, BHCallArgs.cdm] at h)
    (fun _ => demo_apart 0) (.inl rfl) rfl
  obtain ⟨rows, hrows, -⟩ := c94_cdm emptyWorld demoKit E demoBH.cdm freshDicts s R rfl h
  have hlt : demoBH.cdm.logMlow < demoBH.cdm.logMhigh := by norm_num [demoBH, BHCallArgs.cdm]
  obtain ⟨h1, -⟩ := c97_subhalos emptyWorld hV E demoBH.cdm freshDicts rows hlt hrows
  obtain ⟨g, P, G, parts, two, -, -, g2, g3, g4, -, g6⟩ := c97_field emptyWorld hV E demoBH.cdm freshDicts rows hlt hrows
  obtain ⟨j, p, dz, b, -, -, -, -, -, g7, -⟩ := g6 rfl
  have g7 : two.length = 0 := g7
  have h1 : (rows.filter fun t => t.isSubhalo).length = 0 := h1
  have hf : rows.filter (fun t => !t.isSubhalo) = [] := by
    rw [g3, List.length_eq_zero_iff.1 g7, List.append_nil, List.flatten_eq_nil_iff]
    intro part hpart
    obtain ⟨k, hk⟩ := List.mem_iff_getElem?.1 hpart
    have hkl : k < (P.zip G).length := by rw [← g2]; exact (List.getElem?_eq_some_iff.1 hk).1
    have h8 := (g4 k _ _ part (List.getElem?_eq_getElem hkl) hk).2.1
    have h8 : part.length = 0 := h8
    exact List.length_eq_zero_iff.1 h8
  have hnil : rows = [] := by
    rw [List.eq_nil_iff_forall_not_mem]
    intro t ht
    cases hs : t.isSubhalo with
    | true =>
      have : t ∈ rows.filter fun t => t.isSubhalo := List.mem_filter.2 ⟨ht, hs⟩
      rw [List.length_eq_zero_iff.1 h1] at this
      simp at this
    | false =>
      have : t ∈ rows.filter fun t => !t.isSubhalo := List.mem_filter.2 ⟨ht, by simp [hs]⟩
      rw [hf] at this
      simp at this
  subst hnil
  exact c96_empty emptyWorld demoKit E demoBH freshDicts s R h hrows

/-- With the default minimum of `10 ^ 4.5` solar masses the black holes of unresolved halos are all below it. -/
example (E : Preset.Env) (s' : Ext.Store) (R' : Realization)
    (h : cdmPlusBH demoWorld demoKit E { demoBH with logMin := 4.5 } freshDicts = .ok (s', R')) :
    ∃ s R rows l l', cdmCall demoWorld demoKit E demoBH.cdm freshDicts = .ok (s, R) ∧
      runCdm demoWorld E demoBH.cdm freshDicts = .ok rows ∧ Added s.heap s'.heap s.next (l ++ l') R R' ∧
      Spec96.Seeded demoWorld demoKit { demoBH with logMin := 4.5 } rows s R l l' ∧ ∀ b ∈ l', b.mass < (10 : ℝ) ^ (4.5 : ℝ) :=
  c96_unresolved_below_minimum demoWorld demo_variates demoKit demo_bh_random E { demoBH with logMin := 4.5 } freshDicts
    (by norm_num [demoBH]) rfl (by norm_num [demoBH]) s' R' h

end PyHalo.Props
