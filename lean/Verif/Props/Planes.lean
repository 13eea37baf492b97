import Verif.Lemmas.Rounding

/-! # Lens planes (C18) -/

namespace PyHalo.Props
open PyHalo Np

/-- A number with (at most) two decimals. -/
def TwoDecimals (x : ℝ) : Prop := ∃ n : ℤ, x = n / 100

theorem rawPlanes_some {zl zs s : ℝ} (hs : 0 < s) (hl : zl < zs) :
    rawPlanes (some zl) zs (some s) ≠ [] ∧
    (rawPlanes (some zl) zs (some s)).Pairwise (· < ·) ∧
    (∀ x ∈ rawPlanes (some zl) zs (some s), min 0.01 zl ≤ x ∧ x < zs) ∧
    zl ∈ rawPlanes (some zl) zs (some s) ∧
    (rawPlanes (some zl) zs (some s)).head? = some (min 0.01 zl) := by
  simp only [rawPlanes, Option.getD_some]
  have hh := head_mem_arange (a := zl) (b := zs) hs hl
  have hmem : zl ∈ arange zl zs s := List.mem_of_head? hh
  refine ⟨?_, ?_, ?_, ?_, ?_⟩
  · intro h
    rw [List.append_eq_nil_iff] at h
    rw [h.2] at hmem
    simp at hmem
  · rw [List.pairwise_append]
    refine ⟨arange_pairwise hs, arange_pairwise hs, ?_⟩
    intro a ha b hb
    exact (mem_arange hs ha).2.1.trans_le (mem_arange hs hb).1
  · intro x hx
    rcases List.mem_append.1 hx with hx | hx
    · obtain ⟨h1, h2, _⟩ := mem_arange hs hx
      exact ⟨(min_le_left _ _).trans h1, h2.trans hl⟩
    · obtain ⟨h1, h2, _⟩ := mem_arange hs hx
      exact ⟨(min_le_right _ _).trans h1, h2⟩
  · exact List.mem_append_right _ hmem
  · rw [List.head?_append]
    rcases lt_or_ge 0.01 zl with h | h
    · rw [head_mem_arange hs h, min_eq_left h.le]; rfl
    · have : arange 0.01 zl s = [] := by
        rw [List.eq_nil_iff_forall_not_mem]
        intro x hx
        obtain ⟨h1, h2, _⟩ := mem_arange hs hx
        linarith
      rw [this, hh, min_eq_right h]; rfl

/-- **C18, what holds for all inputs.**  For every lens redshift in front of the source and every
positive spacing: planes and thicknesses are returned, one thickness per plane; the planes are in
non-decreasing order, not negative, and not beyond the source rounded to two decimals; the lens
redshift rounded to two decimals is one of them; thicknesses are not negative.  Moreover both lists
are the roundings to two decimals of planes `raw` and thicknesses `gaps` that are exact: `raw` is
strictly increasing, starts at 0.01 (or at the lens if that is nearer), contains the lens redshift
and ends before the source, consecutive planes are separated by their positive thickness and the
thicknesses add up to the distance from the first plane to the source. -/
theorem c18_lens_planes_partial (zl zs s : ℝ) (hs : 0 < s) (h0 : 0 < zl) (hl : zl < zs) :
    ∃ P G, lensPlanes (some zl) zs (some s) = .ok (P, G) ∧
      P.length = G.length ∧ P.Pairwise (· ≤ ·) ∧ (∀ p ∈ P, 0 ≤ p ∧ p ≤ round2 zs) ∧
      round2 zl ∈ P ∧ (∀ g ∈ G, 0 ≤ g) ∧
      ∃ raw gaps : List ℝ, P = raw.map round2 ∧ G = gaps.map round2 ∧
        raw.Pairwise (· < ·) ∧ raw.head? = some (min 0.01 zl) ∧ zl ∈ raw ∧ (∀ p ∈ raw, p < zs) ∧
        (∀ g ∈ gaps, 0 < g) ∧ gaps.sum = zs - min 0.01 zl ∧
        ∀ (i : ℕ) (a b : ℝ), raw[i]? = some a → (raw ++ [zs])[i + 1]? = some b →
          gaps[i]? = some (b - a) := by
  obtain ⟨h1, h2, h3, h4, h5⟩ := rawPlanes_some (zl := zl) (zs := zs) hs hl
  obtain ⟨g, g1, g2, g3, g4, g5⟩ := planeGaps_spec zs _ h1 h2 (fun x hx => (h3 x hx).2)
  refine ⟨_, _, by simp only [lensPlanes, g1, bind, Except.bind, pure, Except.pure], ?_, ?_, ?_, ?_,
    ?_, _, g, rfl, rfl, h2, h5, h4, fun p hp => (h3 p hp).2, g3, g4 _ h5, g5⟩
  · simp [g2]
  · rw [List.pairwise_map]
    exact h2.imp fun h => round2_mono h.le
  · intro p hp
    obtain ⟨x, hx, rfl⟩ := List.mem_map.1 hp
    obtain ⟨hx1, hx2⟩ := h3 x hx
    refine ⟨round2_nonneg (le_trans ?_ hx1), round2_mono hx2.le⟩
    exact le_min (by norm_num) h0.le
  · exact List.mem_map_of_mem h4
  · intro d hd
    obtain ⟨x, hx, rfl⟩ := List.mem_map.1 hd
    exact round2_nonneg (g3 x hx).le

theorem decimals_arange {a b s x : ℝ} (hs : 0 < s) (ha : TwoDecimals a) (h2 : TwoDecimals s)
    (h : x ∈ arange a b s) : TwoDecimals x := by
  obtain ⟨_, _, i, rfl⟩ := mem_arange hs h
  obtain ⟨n, rfl⟩ := ha
  obtain ⟨m, rfl⟩ := h2
  refine ⟨n + i * m, ?_⟩
  push_cast
  ring

theorem map_eq_self {α : Type} {f : α → α} {l : List α} (h : ∀ a ∈ l, f a = a) : l.map f = l := by
  conv_rhs => rw [← List.map_id l]
  exact List.map_congr_left h

/-- **C18 for inputs with two decimals** (as in the default configuration): the planes are strictly
increasing, start at 0.01 (or at the lens), contain the lens redshift, all lie before the source;
the thicknesses are positive, are the distances to the next plane (for the last one to the source)
and add up to the whole range. -/
theorem c18_lens_planes_two_decimals (zl zs s : ℝ) (hs : 0 < s) (h0 : 0 < zl) (hl : zl < zs)
    (dl : TwoDecimals zl) (dz : TwoDecimals zs) (ds : TwoDecimals s) :
    ∃ P G, lensPlanes (some zl) zs (some s) = .ok (P, G) ∧
      P.length = G.length ∧ P.Pairwise (· < ·) ∧ P.head? = some (min 0.01 zl) ∧ zl ∈ P ∧
      (∀ p ∈ P, 0 < p ∧ p < zs) ∧ (∀ g ∈ G, 0 < g) ∧ G.sum = zs - min 0.01 zl ∧
      ∀ (i : ℕ) (a b : ℝ), P[i]? = some a → (P ++ [zs])[i + 1]? = some b → G[i]? = some (b - a) := by
  obtain ⟨P, G, h1, h2, _, _, _, _, raw, gaps, hP, hG, r1, r2, r3, r4, r5, r6, r7⟩ :=
    c18_lens_planes_partial zl zs s hs h0 hl
  obtain ⟨w1, w2, w3, w4, w5⟩ := rawPlanes_some (zl := zl) (zs := zs) hs hl
  obtain ⟨g, q1, q2, q3, q4, q5⟩ := planeGaps_spec zs _ w1 w2 (fun x hx => (w3 x hx).2)
  -- the exact lists
  have hdec : ∀ x ∈ rawPlanes (some zl) zs (some s), TwoDecimals x := by
    intro x hx
    rcases List.mem_append.1 (by simpa [rawPlanes] using hx) with hx | hx
    · exact decimals_arange hs ⟨1, by norm_num⟩ ds hx
    · exact decimals_arange hs dl ds hx
  have hgd : ∀ d ∈ g, TwoDecimals d := by
    intro d hd
    obtain ⟨i, hi, rfl⟩ := List.getElem_of_mem hd
    have hi' : i < (rawPlanes (some zl) zs (some s)).length := by omega
    have ha := List.getElem?_eq_getElem hi'
    have hb : ∃ b, (rawPlanes (some zl) zs (some s) ++ [zs])[i + 1]? = some b ∧ TwoDecimals b := by
      have hlt : i + 1 < (rawPlanes (some zl) zs (some s) ++ [zs]).length := by simp; omega
      refine ⟨_, List.getElem?_eq_getElem hlt, ?_⟩
      rcases List.mem_append.1 (List.getElem_mem hlt) with h | h
      · exact hdec _ h
      · rw [List.mem_singleton.1 h]; exact dz
    obtain ⟨b, hb, n, hn⟩ := hb
    have hq := q5 i _ _ ha hb
    obtain ⟨m, hm⟩ := hdec _ (List.getElem_mem hi')
    rw [List.getElem?_eq_getElem hi, Option.some.injEq] at hq
    refine ⟨n - m, ?_⟩
    rw [hq, hn, hm]
    push_cast
    ring
  refine ⟨rawPlanes (some zl) zs (some s), g, ?_, by omega, w2, w5, w4, ?_, q3, q4 _ w5, q5⟩
  · simp only [lensPlanes, q1, bind, Except.bind, pure, Except.pure]
    rw [map_eq_self, map_eq_self]
    · intro d hd
      obtain ⟨n, hn⟩ := hgd d hd
      exact round2_of_decimal hn
    · intro d hd
      obtain ⟨n, hn⟩ := hdec d hd
      exact round2_of_decimal hn
  · intro p hp
    refine ⟨lt_of_lt_of_le (lt_min (by norm_num) h0) (w3 p hp).1, (w3 p hp).2⟩

/-- The default configuration: lens at 0.5, source at 1.5, spacing 0.02. -/
example : ∃ P G, lensPlanes (some 0.5) 1.5 (some 0.02) = .ok (P, G) ∧ (0.5 : ℝ) ∈ P := by
  obtain ⟨P, G, h1, _, _, _, h2, _⟩ := c18_lens_planes_two_decimals 0.5 1.5 0.02 (by norm_num)
    (by norm_num) (by norm_num) ⟨50, by norm_num⟩ ⟨150, by norm_num⟩ ⟨2, by norm_num⟩
  exact ⟨P, G, h1, h2⟩

/-- A single cone without lens plane: strictly increasing planes between 0.01 and the source. -/
theorem c18_no_lens_two_decimals (zs s : ℝ) (hs : 0 < s) (hz : 0.01 < zs)
    (ds : TwoDecimals s) :
    ∃ P G, lensPlanes none zs (some s) = .ok (P, G) ∧ P.length = G.length ∧ P.Pairwise (· < ·) ∧
      P.head? = some 0.01 ∧ (∀ p ∈ P, 0 < p ∧ p < zs) := by
  have hh := head_mem_arange (a := 0.01) (b := zs) hs hz
  have hne : arange 0.01 zs s ≠ [] := by
    intro h; rw [h] at hh; simp at hh
  obtain ⟨g, q1, q2, q3, q4, q5⟩ := planeGaps_spec zs (arange 0.01 zs s) hne (arange_pairwise hs)
    (fun x hx => (mem_arange hs hx).2.1)
  have hmap : (arange 0.01 zs s).map round2 = arange 0.01 zs s := by
    apply map_eq_self
    intro d hd
    obtain ⟨n, hn⟩ := decimals_arange hs ⟨1, by norm_num⟩ ds hd
    exact round2_of_decimal hn
  refine ⟨arange 0.01 zs s, g.map round2, ?_, by simp [q2], arange_pairwise hs, hh, ?_⟩
  · simp only [lensPlanes, rawPlanes, Option.getD_some, q1, bind, Except.bind, pure, Except.pure,
      hmap]
  · intro p hp
    obtain ⟨h1, h2, _⟩ := mem_arange hs hp
    exact ⟨by linarith, h2⟩

example : (0 : ℝ) < 0.02 ∧ (0.01 : ℝ) < 1.5 ∧ TwoDecimals 0.02 :=
  ⟨by norm_num, by norm_num, ⟨2, by norm_num⟩⟩

/-- **C18 fails for a lens redshift with three decimals**: the lens plane is not among the planes,
because everything is rounded to two decimals. -/
theorem c18_lens_plane_missing (zl zs s : ℝ) (hl : ¬ TwoDecimals zl) (P G : List ℝ)
    (h : lensPlanes (some zl) zs (some s) = .ok (P, G)) : zl ∉ P := by
  intro hm
  simp only [lensPlanes] at h
  cases hg : planeGaps zs (rawPlanes (some zl) zs (some s)) with
  | error e => rw [hg] at h; simp [bind, Except.bind] at h
  | ok g =>
    rw [hg] at h
    simp only [bind, Except.bind, pure, Except.pure, Except.ok.injEq, Prod.mk.injEq] at h
    rw [← h.1] at hm
    obtain ⟨x, _, hx⟩ := List.mem_map.1 hm
    exact hl ⟨rint (100 * x), by rw [← hx]; rfl⟩

/-- `0.125` is such a redshift. -/
example : ¬ TwoDecimals 0.125 ∧
    ∃ P G, lensPlanes (some 0.125) 1.5 (some 0.02) = .ok (P, G) := by
  refine ⟨?_, ?_⟩
  · rintro ⟨n, hn⟩
    have : (n : ℝ) = 12.5 := by linarith
    have h1 : (12 : ℝ) < n := by rw [this]; norm_num
    have h2 : (n : ℝ) < 13 := by rw [this]; norm_num
    have h1 : (12 : ℤ) < n := by exact_mod_cast h1
    have h2 : n < (13 : ℤ) := by exact_mod_cast h2
    omega
  · obtain ⟨P, G, h, _⟩ := c18_lens_planes_partial 0.125 1.5 0.02 (by norm_num) (by norm_num)
      (by norm_num)
    exact ⟨P, G, h⟩

/-- **C18 fails for fine spacings**: with a spacing below 0.005 a plane in front of the lens that
is not the last one gets thickness zero. -/
theorem c18_zero_thickness (zl zs s : ℝ) (hs : 0 < s) (hfine : s < 0.005) (hl : zl < zs)
    (h1 : 0.01 + s < zl) :
    ∃ P G, lensPlanes (some zl) zs (some s) = .ok (P, G) ∧ G.head? = some 0 := by
  obtain ⟨P, G, hPG, hlen, _, _, _, _, raw, gaps, hP, hG, r1, r2, r3, r4, r5, r6, r7⟩ :=
    c18_lens_planes_partial zl zs s hs (by linarith) hl
  refine ⟨P, G, hPG, ?_⟩
  have hraw : rawPlanes (some zl) zs (some s) = arange 0.01 zl s ++ arange zl zs s := by
    simp [rawPlanes]
  -- the first two planes
  have hceil : 2 ≤ ⌈(zl - 0.01) / s⌉₊ := by
    rw [Nat.add_one_le_ceil_iff, lt_div_iff₀ hs]
    push_cast
    linarith
  have h01 : ∃ t, rawPlanes (some zl) zs (some s) = 0.01 :: (0.01 + s) :: t := by
    obtain ⟨n, hn⟩ := Nat.exists_eq_add_of_le hceil
    rw [hraw]
    unfold arange
    rw [hn, show 2 + n = n + 1 + 1 by ring, List.range_succ_eq_map, List.range_succ_eq_map]
    simp
  obtain ⟨t, ht⟩ := h01
  simp only [lensPlanes, ht] at hPG
  rw [show planeGaps zs (0.01 :: (0.01 + s) :: t)
    = (planeGaps zs ((0.01 + s) :: t) >>= fun rest => pure ((0.01 + s - 0.01) :: rest)) from rfl] at hPG
  cases hg : planeGaps zs ((0.01 + s) :: t) with
  | error e => rw [hg] at hPG; simp [bind, Except.bind] at hPG
  | ok g =>
    rw [hg] at hPG
    simp only [bind, Except.bind, pure, Except.pure, Except.ok.injEq, Prod.mk.injEq] at hPG
    rw [← hPG.2]
    simp only [List.map_cons, List.head?_cons, Option.some.injEq]
    unfold round2 rint
    have hf : ⌊100 * (0.01 + s - 0.01)⌋ = 0 := by
      rw [Int.floor_eq_zero_iff]
      constructor
      · simp; linarith
      · linarith
    rw [hf, if_pos]
    · simp
    · push_cast
      linarith

example := c18_zero_thickness 0.5 1.5 0.004 (by norm_num) (by norm_num) (by norm_num) (by norm_num)

/-- **C18 fails at the source**: a plane may be rounded up to a redshift behind the source. -/
theorem c18_plane_behind_source :
    ∃ P G, lensPlanes (some 0.506) 0.507 (some 0.02) = .ok (P, G) ∧ ∃ p ∈ P, (0.507 : ℝ) < p := by
  obtain ⟨P, G, h1, _, _, _, h2, _⟩ := c18_lens_planes_partial 0.506 0.507 0.02 (by norm_num)
    (by norm_num) (by norm_num)
  refine ⟨P, G, h1, _, h2, ?_⟩
  have : round2 0.506 = 0.51 := by
    unfold round2 rint
    have hf : ⌊(100 : ℝ) * 0.506⌋ = 50 := by
      rw [Int.floor_eq_iff]; norm_num
    rw [hf]
    norm_num
  rw [this]
  norm_num

/-- When the source is not behind 0.01 and there is no lens plane, the code fails on an empty list
of planes. -/
theorem c18_empty_cone_raises (zs s : ℝ) (hs : 0 < s) (hz : zs ≤ 0.01) :
    lensPlanes none zs (some s) = .error .indexError := by
  have : arange 0.01 zs s = [] := by
    rw [List.eq_nil_iff_forall_not_mem]
    intro x hx
    obtain ⟨h1, h2, _⟩ := mem_arange hs hx
    linarith
  simp [lensPlanes, rawPlanes, this, planeGaps, bind, Except.bind]

example := c18_empty_cone_raises 0.01 0.02 (by norm_num) (by norm_num)

end PyHalo.Props
