import Verif.Model.WholeUldm
import Verif.Props.WholeWdm
import Verif.Props.Uldm
import Verif.Props.Populations
import Verif.Props.WdmSheets

/-!
# C100: whole calls of `ULDM`
-/

namespace PyHalo.Props
open PyHalo PyHalo.Spec PyHalo.Whole PyHalo.Preset PyHalo.Run PyHalo.Pop

/-- What the fluctuations need: a shape as documented, uniform variates, tags other than those of the halos. -/
structure Spec100.Fluctuating (K : Kit) (U : FlucKit) (f : FlucArgs) : Prop where
  shape : ValidShape f.shape
  variates : ∀ j k, (0 ≤ (U.vars j k).r1 ∧ (U.vars j k).r1 ≤ 1) ∧ 0 ≤ (U.vars j k).r2 ∧ (U.vars j k).r2 ≤ 1
  apart : ∀ i j k, K.tags i ≠ (U.vars j k).tag

/-- The de Broglie wavelength (kpc) of particles of `10^log10m` eV that move with `v` km/s: 1.2 kpc for 10⁻²² eV and 100 km/s. -/
noncomputable def Spec100.wavelength (log10m v : ℝ) : ℝ := 1.2 * ((10 : ℝ) ^ (-22 - log10m)) * (100 / v)

/-- The expected number of fluctuations in an area of so many square arcseconds: `n_fluc_scale` for each patch whose radius is
the size of a fluctuation. -/
noncomputable def Spec100.expected (kpcPerArcsec size nScale area : ℝ) : ℝ :=
  nScale * (area * kpcPerArcsec ^ 2) / (Real.pi * size ^ 2)

/-- The area of a region in square arcseconds. -/
noncomputable def Spec100.area : Shape → ℝ
  | .ring rmin rmax => Real.pi * (rmax ^ 2 - rmin ^ 2)
  | .ellipse amin amax bmin bmax _ => Real.pi * (amax * bmax - amin * bmin)
  | .aperture _ _ r => Real.pi * r ^ 2

theorem wavelength_eq (log10m v : ℝ) : Uldm.deBroglie log10m v = Spec100.wavelength log10m v := by
  unfold Uldm.deBroglie Spec100.wavelength
  rw [Real.rpow_sub (by norm_num), show (1e-22 : ℝ) = (10 : ℝ) ^ (-22 : ℝ) by
    rw [show (-22 : ℝ) = ((-22 : ℤ) : ℝ) by norm_num, Real.rpow_intCast]; norm_num]

theorem flucArea_eq (k : ℝ) (s : Shape) : flucArea k s = Spec100.area s * k ^ 2 := by
  cases s <;> simp only [flucArea, Spec100.area] <;> ring

theorem uldmMean_eq (U : FlucKit) (a : Uldm.Args) (f : FlucArgs) (hv : f.velocity ≠ 0) :
    uldmMean U a f = Spec100.expected ((U.env a.kwargsCosmo).DAz a.zLens * arcsec * 1000)
      (Spec100.wavelength a.log10m f.velocity * f.sizeScale) f.nScale (Spec100.area f.shape) := by
  have hl : Spec100.wavelength a.log10m f.velocity ≠ 0 := by
    unfold Spec100.wavelength
    have : (10 : ℝ) ^ (-22 - a.log10m) ≠ 0 := (Real.rpow_pos_of_pos (by norm_num) _).ne'
    have h2 : (100 : ℝ) / f.velocity ≠ 0 := div_ne_zero (by norm_num) hv
    exact mul_ne_zero (mul_ne_zero (by norm_num) this) h2
  unfold uldmMean flucMean Spec100.expected
  simp only [wavelength_eq, flucArea_eq]
  rw [mul_div_cancel₀ _ hl]
  norm_num

theorem uldmCall_ok {W : Run.World} {K : Kit} {U : FlucKit} {E : Preset.Env} {a : Uldm.Args} {f : FlucArgs} {d : Dicts}
    {s' : Ext.Store} {R' : Realization} (h : uldmCall W K U E a f d = .ok (s', R')) (hf : a.flucs = true) :
    a.flucsArgsEmpty = false ∧ ∃ s R A σ, wdmCall W K E (Uldm.toWdm a) d = .ok (s, R) ∧
      Uldm.flucAmplitude (U.env a.kwargsCosmo) (W.kpc a.kwargsCosmo) U.conc a.zLens a.zSource a.logMHost f.rEin
        f.log10Amp a.log10m = .ok A ∧
      addFluctuations f.shape (Spec100.wavelength a.log10m f.velocity * f.sizeScale)
        (Spec100.wavelength a.log10m f.velocity * f.sizeScale * f.dispersion) A f.nCut (W.kpc a.kwargsCosmo a.zLens) true
        (U.pois (uldmMean U a f)) U.vars s.heap s.next R = .ok (σ, R') ∧ s' = lift s σ R' := by
  unfold uldmCall at h
  obtain ⟨⟨s, R⟩, h1, h⟩ := bind_ok h
  rw [if_pos hf] at h
  cases he : a.flucsArgsEmpty with
  | true => rw [if_pos he] at h; cases h
  | false =>
    rw [if_neg (by simp [he])] at h
    obtain ⟨A, h2, h⟩ := bind_ok h
    obtain ⟨⟨σ, R₁⟩, h3, h⟩ := bind_ok h
    rw [wavelength_eq] at h3
    cases h
    exact ⟨rfl, s, R, A, σ, h1, h2, h3, rfl⟩

/-- **C100**, the call without fluctuations is the call of `WDM`. -/
theorem c100_without (W : Run.World) (K : Kit) (U : FlucKit) (E : Preset.Env) (a : Uldm.Args) (f : FlucArgs) (d : Dicts)
    (hf : a.flucs = false) : uldmCall W K U E a f d = wdmCall W K E (Uldm.toWdm a) d := by
  unfold uldmCall
  simp only [hf, Bool.false_eq_true, if_false]
  cases wdmCall W K E (Uldm.toWdm a) d <;> rfl

/-- **C100**, the halos. Without fluctuations, every halo of a call of `ULDM` has the requested profile, is at least as massive
as `log_mlow` asks and as the lightest halo that such particles can form at its redshift, and less massive than `log_mhigh`;
subhalos are at the lens. -/
theorem c100_halos (W : Run.World) (hW : Variates W) (K : Kit) (E : Preset.Env) (a : Uldm.Args) (d : Dicts)
    (s : Ext.Store) (R : Realization)
    (hk : ∀ z, Spec90.rendered a.zLens a.zSource none z → W.kpc a.kwargsCosmo z ≠ 0)
    (hom : ∀ z, -1 < z → 0 < W.om a.kwargsCosmo z ∧ W.om a.kwargsCosmo z ≤ 1)
    (hlt : ∀ z, Spec90.rendered a.zLens a.zSource none z →
      Uldm.minMass (W.om a.kwargsCosmo) a.log10m a.logMlow z < a.logMhigh)
    (hH : 0 < a.rTidal ∧ HostOk W a.kwargsCosmo (10 ^ a.logMHost) a.zLens (a.cone / 2))
    (h : wdmCall W K E (Uldm.toWdm a) d = .ok (s, R)) :
    ∀ k ∈ R.halos, (s.obj k).lensIDs = Spec94.lensModels a.mdef ∧ (10 : ℝ) ^ a.logMlow ≤ (s.obj k).mass ∧
      Uldm.mMin (W.om a.kwargsCosmo) a.log10m (s.obj k).z ≤ (s.obj k).mass ∧
      (s.obj k).mass < (10 : ℝ) ^ a.logMhigh ∧ ((s.obj k).isSubhalo = true → (s.obj k).z = a.zLens) := by
  obtain ⟨rows, hrows, hI, -, -⟩ := c99_wdm W K E (Uldm.toWdm a) d s R rfl h
  obtain ⟨v, P, G, -, -, hall⟩ := c90_wdm W hW E (Uldm.toWdm a) d rows hk
    (fun z => Uldm.minMass (W.om a.kwargsCosmo) a.log10m a.logMlow z) (.inr ⟨a.log10m, a.kwargsCosmo, a.logMlow, rfl, fun _ => rfl⟩)
    hlt (fun _ => hH) hrows
  intro k hk
  obtain ⟨i, hi⟩ := List.mem_iff_getElem?.1 hk
  have hil : i < rows.length := by rw [← hI.length]; exact (List.getElem?_eq_some_iff.1 hi).1
  obtain ⟨e1, -, -, -, e5, e6, -, e8, -⟩ := hI.each i rows[i] k (List.getElem?_eq_getElem hil) hi
  have hc := e8 (by intro t ht; cases ht)
  obtain ⟨m1, m2, m3, m4, -⟩ := hall _ (List.getElem_mem hil)
  have hmd : (rows[i]).mdef = a.mdef := by
    rw [m1]
    cases (rows[i]).isSubhalo <;> rfl
  have hmin : (10 : ℝ) ^ a.logMlow ≤ (10 : ℝ) ^ Uldm.minMass (W.om a.kwargsCosmo) a.log10m a.logMlow (rows[i]).z :=
    Real.rpow_le_rpow_of_exponent_le (by norm_num) (le_max_right _ _)
  refine ⟨?_, by rw [e1]; exact hmin.trans m2, ?_, by rw [e1]; exact m3, ?_⟩
  · rw [hc.models, hmd]
  · rw [e5, e1]
    exact (c86_minimum_mass (W.om a.kwargsCosmo) a.log10m a.logMlow _ (by linarith [hc.positive]) hom).2.1.trans m2
  · intro hs
    rw [e6] at hs
    rw [e5]
    exact (m4 hs).1

theorem uldm_tags {W : Run.World} {K : Kit} {E : Preset.Env} {a : Uldm.Args} {d : Dicts} {s : Ext.Store} {R : Realization}
    (h : wdmCall W K E (Uldm.toWdm a) d = .ok (s, R)) :
    R.lensCosmo.zLens = a.zLens ∧ Live s R.halos ∧ ∀ k ∈ R.halos, ∃ j, (s.heap k).tag = K.tags j := by
  obtain ⟨rows, -, hI, c1, -⟩ := c99_wdm W K E (Uldm.toWdm a) d s R rfl h
  refine ⟨c1, hI.live, fun k hk => ?_⟩
  obtain ⟨i, hi⟩ := List.mem_iff_getElem?.1 hk
  have hil : i < rows.length := by rw [← hI.length]; exact (List.getElem?_eq_some_iff.1 hi).1
  exact ⟨i, (hI.each i rows[i] k (List.getElem?_eq_getElem hil) hi).2.2.2.2.2.2.1⟩

/-- **C100**, fluctuations in a ring or an ellipse. A call with fluctuations returns the halos of the call without, unchanged,
and besides them, in the lens plane and inside the region, as many Gaussian fluctuations as were drawn but at most `n_cut`.
The expected number is `n_fluc_scale` times the area over the area of one fluctuation; the widths scatter around the requested
share of the de Broglie wavelength; if more than `n_cut` were drawn, the amplitude is reduced by the square root of the share
that is kept. -/
theorem c100_fluctuations (W : Run.World) (K : Kit) (U : FlucKit) (E : Preset.Env) (a : Uldm.Args) (f : FlucArgs) (d : Dicts)
    (s' : Ext.Store) (R' : Realization) (hf : a.flucs = true) (hU : Spec100.Fluctuating K U f) (hv : f.velocity ≠ 0)
    (hna : ∀ xs ys ap, f.shape ≠ .aperture xs ys ap) (h : uldmCall W K U E a f d = .ok (s', R')) :
    let size := Spec100.wavelength a.log10m f.velocity * f.sizeScale
    let drawn := U.pois (Spec100.expected ((U.env a.kwargsCosmo).DAz a.zLens * arcsec * 1000) size f.nScale
      (Spec100.area f.shape)) 0
    let kept := min drawn f.nCut
    ∃ s R A, wdmCall W K E (Uldm.toWdm a) d = .ok (s, R) ∧
      Uldm.flucAmplitude (U.env a.kwargsCosmo) (W.kpc a.kwargsCosmo) U.conc a.zLens a.zSource a.logMHost f.rEin
        f.log10Amp a.log10m = .ok A ∧
      (∀ k ∈ R.halos, s'.obj k = s.obj k) ∧ Live s' R'.halos ∧
      (drawn = 0 → R' = R) ∧
      (drawn ≠ 0 → ∃ g : List Halo, Added s.heap s'.heap s.next g R R' ∧
        FlucGroup f.shape a.zLens size (size * f.dispersion) (W.kpc a.kwargsCosmo a.zLens)
          (A * Real.sqrt (kept / drawn)) (U.vars 0) 0 kept g) := by
  intro size drawn kept
  obtain ⟨-, s, R, A, σ, h1, h2, h3, rfl⟩ := uldmCall_ok h hf
  obtain ⟨hz, hl, ht⟩ := uldm_tags h1
  rw [uldmMean_eq U a f hv] at h3
  have hc : flucCounts f.shape (U.pois (Spec100.expected ((U.env a.kwargsCosmo).DAz a.zLens * arcsec * 1000) size f.nScale
      (Spec100.area f.shape))) = [drawn] := by
    cases hs : f.shape with
    | aperture xs ys ap => exact absurd hs (hna xs ys ap)
    | ring => simp only [drawn, hs]; rfl
    | ellipse => simp only [drawn, hs]; rfl
  refine ⟨s, R, A, h1, h2, fun k hk => lift_old s σ R' (hl k hk), lift_live s σ R', ?_, ?_⟩
  · intro h0
    unfold addFluctuations at h3
    rw [hc, h0] at h3
    simp only [List.all_cons, List.all_nil, BEq.rfl, Bool.and_self, if_true] at h3
    cases h3
    rfl
  · intro h0
    obtain ⟨σ₁, R₁, groups, he, hA, hlen, hall⟩ := addFluctuations_ok f.shape hU.shape size (size * f.dispersion) A f.nCut
      (W.kpc a.kwargsCosmo a.zLens) true _ U.vars s.heap s.next R (fun j k => (hU.variates j k).1)
      (fun j k => (hU.variates j k).2) (fun k hk => hl k hk) (fun k hk j i => by
        obtain ⟨m, hm⟩ := ht k hk
        rw [hm]
        exact hU.apart m j i) (by rw [hc]; simp [h0]) (flucRescale_length ..)
      (fun xs ys ap e => absurd e (hna xs ys ap))
    rw [h3] at he
    cases he
    have hheap : (lift s σ R').heap = σ := lift_heap s σ R' hA.old
    rw [hc] at hlen hall
    match groups, hlen with
    | [g], _ =>
      refine ⟨g, by rw [hheap]; simpa using hA, ?_⟩
      have hr : flucRescale f.shape true f.nCut A [drawn] = (A * Real.sqrt (kept / drawn), [kept]) := by
        have hd : (0 : ℝ) < drawn := by exact_mod_cast Nat.pos_of_ne_zero h0
        have key : (if (drawn : ℝ) > f.nCut then (A / Real.sqrt (drawn / f.nCut), [⌊(f.nCut : ℝ)⌋.toNat]) else (A, [drawn])) =
            (A * Real.sqrt (kept / drawn), [kept]) := by
          by_cases hgt : (drawn : ℝ) > f.nCut
          · rw [if_pos hgt]
            have : f.nCut < drawn := by exact_mod_cast hgt
            have hke : kept = f.nCut := min_eq_right this.le
            rw [hke, div_eq_mul_inv, ← Real.sqrt_inv, inv_div]
            simp
          · rw [if_neg hgt]
            have : drawn ≤ f.nCut := by
              have := not_lt.1 hgt
              exact_mod_cast this
            have hke : kept = drawn := min_eq_left this
            rw [hke, div_self hd.ne', Real.sqrt_one, mul_one]
        rw [← key]
        unfold flucRescale
        rw [if_pos rfl]
        cases hs : f.shape with
        | aperture xs ys ap => exact absurd hs (hna xs ys ap)
        | ring => rfl
        | ellipse => rfl
      rw [hr] at hall
      have := hall 0 g kept rfl rfl
      rwa [hz] at this

/-- **C100**, fluctuations in apertures around the images, as far as it is true. The call returns the halos of the call without
fluctuations, unchanged, and around the `j`-th image a group of Gaussian fluctuations for the `j`-th *non-zero* draw: as many
as drawn if the mean of the non-zero draws is at most `n_cut`, else `n_cut` with the amplitude reduced by the square root of
`n_cut` over that mean. Missing: that the group is around the image it was drawn for, which is false when a draw is zero
(`c38_fluctuations_misassigned`). -/
theorem c100_apertures_partial (W : Run.World) (K : Kit) (U : FlucKit) (E : Preset.Env) (a : Uldm.Args) (f : FlucArgs) (d : Dicts)
    (s' : Ext.Store) (R' : Realization) (hf : a.flucs = true) (hU : Spec100.Fluctuating K U f) (hv : f.velocity ≠ 0)
    (xs ys : List ℝ) (ap : ℝ) (hs : f.shape = .aperture xs ys ap) (h : uldmCall W K U E a f d = .ok (s', R')) :
    let size := Spec100.wavelength a.log10m f.velocity * f.sizeScale
    let drawn := U.pois (Spec100.expected ((U.env a.kwargsCosmo).DAz a.zLens * arcsec * 1000) size f.nScale
      (Real.pi * ap ^ 2))
    let nonzero := ((List.range xs.length).map drawn).filter (· ≠ 0)
    let mean : ℝ := (nonzero.map (fun n : ℕ => (n : ℝ))).sum / nonzero.length
    ∃ s R A, wdmCall W K E (Uldm.toWdm a) d = .ok (s, R) ∧
      Uldm.flucAmplitude (U.env a.kwargsCosmo) (W.kpc a.kwargsCosmo) U.conc a.zLens a.zSource a.logMHost f.rEin
        f.log10Amp a.log10m = .ok A ∧
      (∀ k ∈ R.halos, s'.obj k = s.obj k) ∧ Live s' R'.halos ∧
      (nonzero = [] → R' = R) ∧
      (nonzero ≠ [] → ∃ groups : List (List Halo), Added s.heap s'.heap s.next groups.flatten R R' ∧
        groups.length = nonzero.length ∧
        ∀ (j : ℕ) (g : List Halo) (c : ℕ), groups[j]? = some g → nonzero[j]? = some c →
          (mean ≤ f.nCut → FlucGroup f.shape a.zLens size (size * f.dispersion) (W.kpc a.kwargsCosmo a.zLens) A (U.vars j) j c g) ∧
          (f.nCut < mean → FlucGroup f.shape a.zLens size (size * f.dispersion) (W.kpc a.kwargsCosmo a.zLens)
            (A * Real.sqrt (f.nCut / mean)) (U.vars j) j f.nCut g)) := by
  intro size drawn nonzero mean
  obtain ⟨-, s, R, A, σ, h1, h2, h3, rfl⟩ := uldmCall_ok h hf
  obtain ⟨hz, hl, ht⟩ := uldm_tags h1
  rw [uldmMean_eq U a f hv, show Spec100.area f.shape = Real.pi * ap ^ 2 by rw [hs]; rfl] at h3
  have hc : flucCounts f.shape drawn = nonzero := by rw [hs]; rfl
  have hpos : ∀ c ∈ nonzero, c ≠ 0 := fun c hc => by
    have := List.of_mem_filter hc
    simpa using this
  refine ⟨s, R, A, h1, h2, fun k hk => lift_old s σ R' (hl k hk), lift_live s σ R', ?_, ?_⟩
  · intro h0
    unfold addFluctuations at h3
    rw [hc, h0] at h3
    simp only [List.all_nil, if_true] at h3
    cases h3
    rfl
  · intro h0
    obtain ⟨σ₁, R₁, groups, he, hA, hlen, hall⟩ := addFluctuations_ok f.shape hU.shape size (size * f.dispersion) A f.nCut
      (W.kpc a.kwargsCosmo a.zLens) true drawn U.vars s.heap s.next R (fun j k => (hU.variates j k).1)
      (fun j k => (hU.variates j k).2) (fun k hk => hl k hk) (fun k hk j i => by
        obtain ⟨m, hm⟩ := ht k hk
        rw [hm]
        exact hU.apart m j i) (by
        rw [hc, List.all_eq_false]
        obtain ⟨c, t, e⟩ := List.exists_cons_of_ne_nil h0
        exact ⟨c, by rw [e]; exact List.mem_cons_self, by simpa using hpos c (by rw [e]; exact List.mem_cons_self)⟩)
      (flucRescale_length ..) (fun xs' ys' ap' e => by
        rw [hs] at e
        cases e
        rw [hc]
        refine (List.length_filter_le _ _).trans ?_
        simp)
    rw [h3] at he
    cases he
    have hheap : (lift s σ R').heap = σ := lift_heap s σ R' hA.old
    rw [hc] at hlen hall
    refine ⟨groups, by rw [hheap]; exact hA, hlen, fun j g c hg hj => ?_⟩
    have hr : flucRescale f.shape true f.nCut A nonzero = if mean > f.nCut then
        (A / Real.sqrt (mean / f.nCut), List.replicate nonzero.length ⌊(f.nCut : ℝ)⌋.toNat) else (A, nonzero) := by
      rw [hs]
      rfl
    rw [hr] at hall
    constructor
    · intro hle
      rw [if_neg (not_lt.2 hle)] at hall
      have := hall j g c hg hj
      rwa [hz] at this
    · intro hlt
      rw [if_pos hlt] at hall
      have hjl : j < nonzero.length := (List.getElem?_eq_some_iff.1 hj).1
      have := hall j g f.nCut hg (by simp [hjl])
      rw [hz] at this
      rw [show A * Real.sqrt (f.nCut / mean) = A / Real.sqrt (mean / f.nCut) by
        rw [div_eq_mul_inv A, ← Real.sqrt_inv, inv_div]]
      exact this

/-- **C100**, the lens model. The mass sheets with and without fluctuations are the same, in the same place after the halos:
fluctuations are not compensated. -/
theorem c100_sheets (W : Run.World) (K : Kit) (U : FlucKit) (E : Preset.Env) (a : Uldm.Args) (f : FlucArgs) (d : Dicts)
    (s' : Ext.Store) (R' : Realization) (hU : Spec100.Fluctuating K U f) (hv : f.velocity ≠ 0)
    (h : uldmCall W K U E a f d = .ok (s', R')) (useClass : Bool) (q : Realization.SheetArgs) (hex : q.subtractExact = false) :
    ∃ s R, wdmCall W K E (Uldm.toWdm a) d = .ok (s, R) ∧
      ∀ ns zs ks, R.lensingQuantities s.heap true useClass q = .ok (ns, zs, ks) →
        ∃ (sn : List String) (sz : List ℝ) (sk : List Kw),
          (ns = R.halos.flatMap (fun k => (s.obj k).lensIDs) ++ sn ∧
            zs = R.halos.flatMap (fun k => List.replicate (s.obj k).lensIDs.length (s.obj k).z) ++ sz ∧
            ks = R.halos.flatMap (fun k => (s.obj k).lensParams) ++ sk) ∧
          R'.lensingQuantities s'.heap true useClass q = .ok
            (R'.halos.flatMap (fun k => (s'.obj k).lensIDs) ++ sn,
              R'.halos.flatMap (fun k => List.replicate (s'.obj k).lensIDs.length (s'.obj k).z) ++ sz,
              R'.halos.flatMap (fun k => (s'.obj k).lensParams) ++ sk) := by
  have hfold : ∀ (σ : Heap) (l : List Oid) (acc : List String × List ℝ × List Kw),
      l.foldl (fun (acc : List String × List ℝ × List Kw) h => (acc.1 ++ (σ h).lensIDs,
        acc.2.1 ++ List.replicate (σ h).lensIDs.length (σ h).z, acc.2.2 ++ (σ h).lensParams)) acc =
      (acc.1 ++ l.flatMap (fun k => (σ k).lensIDs), acc.2.1 ++ l.flatMap (fun k => List.replicate (σ k).lensIDs.length (σ k).z),
        acc.2.2 ++ l.flatMap (fun k => (σ k).lensParams)) := by
    intro σ l
    induction l with
    | nil => intro acc; simp
    | cons x t ih => intro acc; rw [List.foldl_cons, ih]; simp [List.append_assoc]
  have main : ∃ s R, wdmCall W K E (Uldm.toWdm a) d = .ok (s, R) ∧ SameContext R R' := by
    cases hf : a.flucs with
    | false =>
      rw [c100_without W K U E a f d hf] at h
      exact ⟨s', R', h, rfl, rfl, rfl, rfl, rfl, rfl, rfl⟩
    | true =>
      cases hs : f.shape with
      | aperture xs ys ap =>
        obtain ⟨s, R, A, h1, -, -, -, h2, h3⟩ := c100_apertures_partial W K U E a f d s' R' hf hU hv xs ys ap hs h
        refine ⟨s, R, h1, ?_⟩
        by_cases h0 : ((List.range xs.length).map (U.pois (Spec100.expected ((U.env a.kwargsCosmo).DAz a.zLens * arcsec * 1000)
          (Spec100.wavelength a.log10m f.velocity * f.sizeScale) f.nScale (Real.pi * ap ^ 2)))).filter (· ≠ 0) = []
        · rw [h2 h0]
          exact ⟨rfl, rfl, rfl, rfl, rfl, rfl, rfl⟩
        · obtain ⟨g, hA, -⟩ := h3 h0
          exact hA.context
      | ring r1 r2 =>
        obtain ⟨s, R, A, h1, -, -, -, h2, h3⟩ := c100_fluctuations W K U E a f d s' R' hf hU hv (by simp [hs]) h
        refine ⟨s, R, h1, ?_⟩
        by_cases h0 : U.pois (Spec100.expected ((U.env a.kwargsCosmo).DAz a.zLens * arcsec * 1000)
          (Spec100.wavelength a.log10m f.velocity * f.sizeScale) f.nScale (Spec100.area f.shape)) 0 = 0
        · rw [h2 h0]
          exact ⟨rfl, rfl, rfl, rfl, rfl, rfl, rfl⟩
        · obtain ⟨g, hA, -⟩ := h3 h0
          exact hA.context
      | ellipse r1 r2 r3 r4 r5 =>
        obtain ⟨s, R, A, h1, -, -, -, h2, h3⟩ := c100_fluctuations W K U E a f d s' R' hf hU hv (by simp [hs]) h
        refine ⟨s, R, h1, ?_⟩
        by_cases h0 : U.pois (Spec100.expected ((U.env a.kwargsCosmo).DAz a.zLens * arcsec * 1000)
          (Spec100.wavelength a.log10m f.velocity * f.sizeScale) f.nScale (Spec100.area f.shape)) 0 = 0
        · rw [h2 h0]
          exact ⟨rfl, rfl, rfl, rfl, rfl, rfl, rfl⟩
        · obtain ⟨g, hA, -⟩ := h3 h0
          exact hA.context
  obtain ⟨s, R, h1, hc⟩ := main
  refine ⟨s, R, h1, fun ns zs ks hq => ?_⟩
  have hsame : Realization.massSheetCorrection s'.heap R' q useClass = Realization.massSheetCorrection s.heap R q useClass := by
    unfold Realization.massSheetCorrection
    rw [hc.classes, hc.lensCosmo, hc.centerX, hc.centerY, hex]
    rfl
  have hap : R.applyMassSheet = true := (c99_wdm W K E (Uldm.toWdm a) d s R rfl h1).choose_spec.2.2.2.2
  unfold Realization.lensingQuantities at hq ⊢
  rw [hc.sheets, hap, hsame]
  rw [hap] at hq
  simp only [Bool.and_self, if_true, hfold, List.nil_append] at hq ⊢
  obtain ⟨⟨sk, sn, sz⟩, e, hq⟩ := bind_ok hq
  cases hq
  rw [e]
  exact ⟨sn, sz, sk, ⟨rfl, rfl, rfl⟩, rfl⟩

/-- **C100** is not met by the defaults: a call with fluctuations and without `flucs_args` raises, though both are defaults. -/
theorem c100_default_raises (W : Run.World) (K : Kit) (U : FlucKit) (E : Preset.Env) (a : Uldm.Args) (f : FlucArgs) (d : Dicts)
    (h1 : a.flucs = true) (h2 : a.flucsArgsEmpty = true) (p : Ext.Store × Realization) : uldmCall W K U E a f d ≠ .ok p := by
  intro h
  have := (uldmCall_ok (s' := p.1) (R' := p.2) h h1).1
  rw [h2] at this
  cases this

/-- Adding fluctuations with a documented shape and uniform variates does not raise. -/
theorem addFluctuations_returns (s : Shape) (hs : ValidShape s) (size sizeVar amp kpc : ℝ) (nCut : ℕ)
    (pois : ℕ → ℕ) (vs : ℕ → ℕ → FlucVar) (σ : Heap) (n : Oid) (r : Realization)
    (h1 : ∀ j k, 0 ≤ (vs j k).r1 ∧ (vs j k).r1 ≤ 1) (h2 : ∀ j k, 0 ≤ (vs j k).r2 ∧ (vs j k).r2 ≤ 1) :
    ∃ p, addFluctuations s size sizeVar amp nCut kpc true pois vs σ n r = .ok p := by
  have hlen : ∀ xs ys ap, s = .aperture xs ys ap →
      (flucRescale s true nCut amp (flucCounts s pois)).2.length ≤ xs.length := by
    rintro xs ys ap rfl
    have hc : (flucCounts (.aperture xs ys ap) pois).length ≤ xs.length := by
      refine le_trans (List.length_filter_le _ _) ?_
      simp
    simp only [flucRescale, if_true]
    split
    · simpa using hc
    · exact hc
  obtain ⟨groups, hg, -, -⟩ := flucHalos_ok s hs r.lensCosmo.zLens size sizeVar kpc
    (flucRescale s true nCut amp (flucCounts s pois)).1 vs h1 h2
    (flucRescale s true nCut amp (flucCounts s pois)).2 0 (fun xs ys ap e => by
      rw [zero_add]; exact hlen xs ys ap e)
  unfold addFluctuations
  simp only [hg, bind, Except.bind, pure, Except.pure]
  split <;> exact ⟨_, rfl⟩

/-- **C100**, the call returns. With arguments that the preset accepts, a lens below the source, a host whose radius the world
knows, masses that halos can have at the redshifts of the planes, and fluctuation arguments as documented, `ULDM` returns a
realization. -/
theorem c100_works (W : Run.World) (hV : Variates W) (K : Kit) (U : FlucKit) (E : Preset.Env) (a : Uldm.Args) (f : FlucArgs)
    (d : Dicts) (r : Request) (hr : (Preset.wdm E (Uldm.toWdm a) d).1 = .ok r) (hW : WorldOk W a.kwargsCosmo)
    (hk : ∀ z, Spec90.rendered a.zLens a.zSource none z → W.kpc a.kwargsCosmo z ≠ 0)
    (h0 : 0.005 < a.zLens) (hl : a.zLens < a.zSource)
    (hlt : ∀ z, Spec90.rendered a.zLens a.zSource none z →
      Uldm.minMass (W.om a.kwargsCosmo) a.log10m a.logMlow z < a.logMhigh)
    (h1 : 0 ≤ a.sigmaSub) (h2 : 0 ≤ a.losNormalization)
    (hS : Spec91.suppressed a.massSub a.massSubKw) (hF : Spec91.suppressed a.massField a.massFieldKw)
    (hF' : Spec91.fieldName a.massField) (n1 : a.massSubKw "sigma_sub" = none) (n2 : a.massSubKw "dndA" = none)
    (n3 : a.massFieldKw "host_m200" = none)
    (hH : 0 < a.rTidal ∧ HostOk W a.kwargsCosmo (10 ^ a.logMHost) a.zLens (a.cone / 2))
    (h3 : Spec90.apart W a.kwargsCosmo a.zLens a.zSource none) (hm : a.mdef ∈ Spec94.profiles)
    (hf : a.flucs = true → a.flucsArgsEmpty = false ∧ Spec100.Fluctuating K U f) :
    ∃ s R, uldmCall W K U E a f d = .ok (s, R) := by
  obtain ⟨s, R, h⟩ := c99_wdm_works W hV K E (Uldm.toWdm a) d r hr hW hk h0 hl
    (fun z => Uldm.minMass (W.om a.kwargsCosmo) a.log10m a.logMlow z) (.inr ⟨a.log10m, a.kwargsCosmo, a.logMlow, rfl, fun _ => rfl⟩)
    hlt (fun s hs => by cases hs) h1 h2 hS hF hF' n1 n2 n3 (fun _ => hH) (fun _ => h3) ⟨hm, hm⟩ rfl
  cases ha : a.flucs with
  | false => exact ⟨s, R, by rw [c100_without W K U E a f d ha, h]⟩
  | true =>
    obtain ⟨he, hU⟩ := hf ha
    obtain ⟨A, hA⟩ : ∃ A, Uldm.flucAmplitude (U.env a.kwargsCosmo) (W.kpc a.kwargsCosmo) U.conc a.zLens a.zSource a.logMHost f.rEin
        f.log10Amp a.log10m = .ok A := ⟨_, rfl⟩
    obtain ⟨p, hp⟩ := addFluctuations_returns f.shape hU.shape (Uldm.deBroglie a.log10m f.velocity * f.sizeScale)
      (Uldm.deBroglie a.log10m f.velocity * f.sizeScale * f.dispersion) A (W.kpc a.kwargsCosmo a.zLens) f.nCut
      (U.pois (uldmMean U a f)) U.vars s.heap s.next R (fun j k => (hU.variates j k).1) (fun j k => (hU.variates j k).2)
    refine ⟨lift s p.1 p.2, p.2, ?_⟩
    · unfold uldmCall
      rw [h]
      simp only [bind, Except.bind, pure, Except.pure, ha, he, if_true, Bool.false_eq_true, if_false, hA, hp]

/-! ## A concrete case -/

/-- `ULDM` with its defaults, particles of 10⁻²¹ eV, a source at 1.5 and fluctuations. -/
noncomputable def demoUldm : Uldm.Args := { zLens := 0.5, zSource := 1.5, log10m := -21, flucsArgsEmpty := false }

/-- Fluctuations in a ring around the Einstein radius. -/
noncomputable def demoFlucs (n : ℕ) : FlucArgs := { shape := .ring 0.9 1.1, nCut := n }

/-- Seven fluctuations are drawn; their tags are odd. -/
noncomputable def demoFlucKit : FlucKit where
  env _ := demoEnv
  conc _ _ _ := 6
  pois _ _ := 7
  vars j k := ⟨1 / 4, 1 / 2, 1 / 2, 1, 1, 2 * Nat.pair j k + 1⟩

theorem demo_uldm_minimum {z : ℝ} (h : Spec90.rendered 0.5 1.5 none z) :
    Uldm.minMass (demoWorld.om 0) (-21) 6 z < 10 := by
  have hz : 0 ≤ z ∧ z ≤ 1.505 := by
    rcases h with rfl | ⟨P, G, h, hz⟩
    · norm_num
    · obtain ⟨P', G', h', -, -, hP, -⟩ := c18_lens_planes_partial 0.5 1.5 0.02 (by norm_num) (by norm_num) (by norm_num)
      rw [show lensPlanes (some 0.5) 1.5 none = lensPlanes (some 0.5) 1.5 (some 0.02) from rfl, h'] at h
      cases h
      refine ⟨(hP z hz).1, (hP z hz).2.trans ?_⟩
      have := (abs_le.1 (Np.abs_round2_sub 1.5)).2
      linarith
  obtain ⟨z0, z1⟩ := hz
  refine max_lt ?_ (by norm_num)
  have hzeta : Uldm.zeta (demoWorld.om 0) z / Uldm.zeta (demoWorld.om 0) 0 = 1 := by
    have := Real.pi_gt_three
    refine div_self ?_
    simp only [Uldm.zeta, demoWorld]
    have : 0 < (18 * Real.pi ^ 2 + 82 * ((0.3 : ℝ) - 1) - 39 * ((0.3 : ℝ) - 1) ^ 2) / 0.3 := by
      apply div_pos _ (by norm_num)
      nlinarith
    exact this.ne'
  have hm : Uldm.mMin (demoWorld.om 0) (-21) z < 10 ^ (10 : ℝ) := by
    unfold Uldm.mMin
    rw [hzeta, Real.one_rpow, mul_one, ← Real.rpow_mul (by linarith), ← Real.rpow_mul (by norm_num)]
    have e1 : (1 + z) ^ (-1 * (-3 / 4) : ℝ) ≤ 2.505 := by
      calc (1 + z) ^ (-1 * (-3 / 4) : ℝ) ≤ (1 + z) ^ (1 : ℝ) := Real.rpow_le_rpow_of_exponent_le (by linarith) (by norm_num)
        _ ≤ 2.505 := by rw [Real.rpow_one]; linarith
    have e2 : (10 : ℝ) ^ ((-21 + 22) * (-3 / 2) : ℝ) ≤ 1 := Real.rpow_le_one_of_one_le_of_nonpos (by norm_num) (by norm_num)
    have e3 : (0 : ℝ) < (10 : ℝ) ^ ((-21 + 22) * (-3 / 2) : ℝ) := Real.rpow_pos_of_pos (by norm_num) _
    have e4 : (10 : ℝ) ^ (10 : ℝ) = 1e10 := by
      rw [show (10 : ℝ) ^ (10 : ℝ) = (10 : ℝ) ^ ((10 : ℕ) : ℝ) by norm_num, Real.rpow_natCast]; norm_num
    rw [e4]
    nlinarith
  have hpos : 0 < Uldm.mMin (demoWorld.om 0) (-21) z := by
    unfold Uldm.mMin
    rw [hzeta]
    have : 0 < 1 + z := by linarith
    positivity
  rw [Real.logb_lt_iff_lt_rpow (by norm_num) hpos]
  exact hm

theorem demo_fluctuating (n : ℕ) : Spec100.Fluctuating demoLensKit demoFlucKit (demoFlucs n) where
  shape := by norm_num [ValidShape, demoFlucs]
  variates j k := by norm_num [demoFlucKit]
  apart i j k := by
    show 2 * i ≠ 2 * Nat.pair j k + 1
    omega

theorem demo_uldm_call (E : Preset.Env) (n : ℕ) :
    ∃ s R, uldmCall demoWorld demoLensKit demoFlucKit E demoUldm (demoFlucs n) freshDicts = .ok (s, R) := by
  obtain ⟨r, hr⟩ := uldm_plain_ok E 0.5 1.5 (-21)
  exact c100_works demoWorld demo_variates demoLensKit demoFlucKit E demoUldm (demoFlucs n) freshDicts r hr (demo_ok _)
    (fun z _ => by norm_num [demoWorld]) (by norm_num [demoUldm]) (by norm_num [demoUldm])
    (fun z hz => demo_uldm_minimum hz) (by norm_num [demoUldm]) (by norm_num [demoUldm]) (.inl (by simp [demoUldm]))
    (.inl (by simp [demoUldm])) (by simp [Spec91.fieldName, demoUldm]) rfl rfl rfl
    ⟨by norm_num [demoUldm], demo_host _ _ _⟩ (demo_apart _) (by simp [demoUldm, Spec94.profiles])
    (fun _ => ⟨rfl, demo_fluctuating n⟩)

/-- Of seven fluctuations four are kept with `n_cut = 4`, with amplitudes reduced by √(4/7). -/
example (E : Preset.Env) : ∃ s R s' R' A, wdmCall demoWorld demoLensKit E (Uldm.toWdm demoUldm) freshDicts = .ok (s, R) ∧
    uldmCall demoWorld demoLensKit demoFlucKit E demoUldm (demoFlucs 4) freshDicts = .ok (s', R') ∧
    ∃ g : List Halo, g.length = 4 ∧ Added s.heap s'.heap s.next g R R' ∧
      FlucGroup (.ring 0.9 1.1) 0.5 (Spec100.wavelength (-21) 200 * 0.05) (Spec100.wavelength (-21) 200 * 0.05 * 0.2) 6
        (A * Real.sqrt (4 / 7)) (demoFlucKit.vars 0) 0 4 g := by
  obtain ⟨s', R', h'⟩ := demo_uldm_call E 4
  obtain ⟨s, R, A, h, -, -, -, -, hg⟩ := c100_fluctuations demoWorld demoLensKit demoFlucKit E demoUldm (demoFlucs 4) freshDicts s' R'
    rfl (demo_fluctuating 4) (by norm_num [demoFlucs]) (by simp [demoFlucs]) h'
  obtain ⟨g, ha, hf⟩ := hg (by show (7 : ℕ) ≠ 0; norm_num)
  have e : min 7 4 = 4 := rfl
  refine ⟨s, R, s', R', A, h, h', g, hf.1, ha, ?_⟩
  have := hf
  norm_num [demoFlucKit, demoFlucs, demoUldm, demoWorld] at this ⊢
  exact this

/-- The halos of the same call: at least 10⁶ solar masses, subhalos at 0.5. -/
example (E : Preset.Env) : ∃ s R, wdmCall demoWorld demoLensKit E (Uldm.toWdm demoUldm) freshDicts = .ok (s, R) ∧
    ∀ k ∈ R.halos, (10 : ℝ) ^ (6 : ℝ) ≤ (s.obj k).mass ∧ ((s.obj k).isSubhalo = true → (s.obj k).z = 0.5) := by
  obtain ⟨s, R, h⟩ := demo_uldm_call E 4
  obtain ⟨-, s₀, R₀, -, -, h₀, -⟩ := uldmCall_ok h rfl
  have := c100_halos demoWorld demo_variates demoLensKit E demoUldm freshDicts s₀ R₀ (fun z _ => by norm_num [demoWorld])
    (fun z _ => by norm_num [demoWorld]) (fun z hz => demo_uldm_minimum hz) ⟨by norm_num [demoUldm], demo_host _ _ _⟩ h₀
  exact ⟨s₀, R₀, h₀, fun k hk => ⟨(this k hk).2.1, (this k hk).2.2.2.2⟩⟩

/-- Three images, the first without a draw: the groups of two and three fluctuations are around the first two images. -/
example (E : Preset.Env) : ∃ s R s' R', wdmCall demoWorld demoLensKit E (Uldm.toWdm demoUldm) freshDicts = .ok (s, R) ∧
    uldmCall demoWorld demoLensKit { demoFlucKit with pois := fun _ j => if j = 0 then 0 else j + 1 } E demoUldm
      { shape := .aperture [1, -1, 0] [0, 0, 1] 0.1 } freshDicts = .ok (s', R') ∧
    ∃ g₀ g₁ : List Halo, g₀.length = 2 ∧ g₁.length = 3 ∧ Added s.heap s'.heap s.next (g₀ ++ g₁) R R' := by
  have hU : Spec100.Fluctuating demoLensKit { demoFlucKit with pois := fun _ j => if j = 0 then 0 else j + 1 }
      { shape := .aperture [1, -1, 0] [0, 0, 1] 0.1 } :=
    ⟨by simp [ValidShape], (demo_fluctuating 4).variates, (demo_fluctuating 4).apart⟩
  obtain ⟨r, hr⟩ := uldm_plain_ok E 0.5 1.5 (-21)
  obtain ⟨s', R', h'⟩ := c100_works demoWorld demo_variates demoLensKit
    { demoFlucKit with pois := fun _ j => if j = 0 then 0 else j + 1 } E demoUldm
    { shape := .aperture [1, -1, 0] [0, 0, 1] 0.1 } freshDicts r hr (demo_ok _)
    (fun z _ => by norm_num [demoWorld]) (by norm_num [demoUldm]) (by norm_num [demoUldm])
    (fun z hz => demo_uldm_minimum hz) (by norm_num [demoUldm]) (by norm_num [demoUldm]) (.inl (by simp [demoUldm]))
    (.inl (by simp [demoUldm])) (by simp [Spec91.fieldName, demoUldm]) rfl rfl rfl
    ⟨by norm_num [demoUldm], demo_host _ _ _⟩ (demo_apart _) (by simp [demoUldm, Spec94.profiles]) (fun _ => ⟨rfl, hU⟩)
  obtain ⟨s, R, A, h, -, -, -, -, hg⟩ := c100_apertures_partial demoWorld demoLensKit _ E demoUldm _ freshDicts s' R' rfl hU
    (by norm_num) [1, -1, 0] [0, 0, 1] 0.1 rfl h'
  have e : (((List.range 3).map fun j => if j = 0 then 0 else j + 1).filter (· ≠ 0)) = [2, 3] := by decide
  obtain ⟨groups, ha, hl, hall⟩ := hg (by
    show (((List.range 3).map fun j => if j = 0 then 0 else j + 1).filter (· ≠ 0)) ≠ []
    rw [e]; simp)
  have hl : groups.length = 2 := hl.trans (by
    show (((List.range 3).map fun j => if j = 0 then 0 else j + 1).filter (· ≠ 0)).length = 2
    rw [e]; rfl)
  match groups, hl with
  | [g₀, g₁], _ =>
    have hc : ∀ (j : ℕ) (g : List Halo) (c : ℕ), [g₀, g₁][j]? = some g → [2, 3][j]? = some c → g.length = c := by
      intro j g c hg hc
      have hm := hall j g c hg (by
        show (((List.range 3).map fun j => if j = 0 then 0 else j + 1).filter (· ≠ 0))[j]? = some c
        rw [e]; exact hc)
      refine (hm.1 ?_).1
      show ((((List.range 3).map fun j => if j = 0 then 0 else j + 1).filter (· ≠ 0)).map (fun n : ℕ => (n : ℝ))).sum /
        ((((List.range 3).map fun j => if j = 0 then 0 else j + 1).filter (· ≠ 0)).length : ℝ) ≤ ((50000 : ℕ) : ℝ)
      rw [e]; norm_num
    exact ⟨s, R, s', R', h, h', g₀, g₁, hc 0 g₀ 2 rfl rfl, hc 1 g₁ 3 rfl rfl, by simpa using ha⟩

end PyHalo.Props
