import Verif.Lemmas.Realization

/-! The computation of `Realization.filter` and `filter_subhalos` in closed form. -/

namespace PyHalo
open Spec
open scoped Classical

theorem wEff_eq (b : Bool) (wMin S D : ℝ) :
    Realization.wEff b wMin S D = kernelWeight b wMin S D := by
  cases b
  · rfl
  · simp only [Realization.wEff, kernelWeight, Np.clip, if_true]
    have : D * (S - D) / (S / 2) ^ 2 = 4 * D * (S - D) / S ^ 2 := by
      by_cases h : S = 0
      · simp [h]
      · field_simp
        ring
    rw [this, min_comm, max_comm]

theorem broadcast2_eq {α β : Type} {a : List α} {b : List β} (h : a.length = b.length) :
    Np.broadcast2 a b = .ok (a.zip b) := by
  simp [Np.broadcast2, h]

theorem sqrt_scale (c dx dy : ℝ) :
    Real.sqrt ((c * dx) ^ 2 + (c * dy) ^ 2) = |c| * Real.sqrt (dx ^ 2 + dy ^ 2) := by
  have : (c * dx) ^ 2 + (c * dy) ^ 2 = c ^ 2 * (dx ^ 2 + dy ^ 2) := by ring
  rw [this, Real.sqrt_mul (sq_nonneg c), Real.sqrt_sq_eq_abs]

theorem rowWithin_ok (ap : ℝ) (rx ry : List Interp) (hlen : rx.length = ry.length)
    (hne : rx ≠ []) (kpc : Bool) (w D x y : ℝ) :
    Realization.rowWithin ap rx ry (unitName kpc) w D x y
      = .ok (decide (∃ f ∈ rx.zip ry, separation kpc D x y (f.1 D) (f.2 D) ≤ ap * w)) := by
  have h0 : rx.length ≠ 0 := by simpa using hne
  have h1 : ry.length ≠ 0 := hlen ▸ h0
  have hzip : (rx.map fun f => x - f D).zip (ry.map fun f => y - f D)
      = (rx.zip ry).map fun f => (x - f.1 D, y - f.2 D) := by
    rw [List.zip_map]; rfl
  unfold Realization.rowWithin
  rw [broadcast2_eq (by simpa using hlen), hzip]
  cases kpc
  · simp only [h0, h1, unitName, if_false, Bool.false_eq_true, if_true]
    simp only [bind, Except.bind, pure, Except.pure]
    congr 1
    rw [Bool.eq_iff_iff]
    simp [separation, dist2]
  · simp only [h0, h1, unitName, if_false, if_true]
    simp only [bind, Except.bind, pure, Except.pure]
    have hne : ("KPC" = "ANGLES") = False := by simp
    simp only [hne, if_false]
    congr 1
    rw [Bool.eq_iff_iff]
    have key : ∀ dx dy : ℝ, Real.sqrt ((dx * Realization.arcsecToRad * D * 1000) ^ 2
        + (dy * Realization.arcsecToRad * D * 1000) ^ 2)
        = |kpcPerArcsec D| * Real.sqrt (dx ^ 2 + dy ^ 2) := by
      intro dx dy
      rw [← sqrt_scale]
      unfold kpcPerArcsec Realization.arcsecToRad
      congr 1
      ring
    simp [separation, dist2, key]

/-- Inside the plane loop, the halos picked at redshift `zi` are the kept halos of the plane. -/
theorem regroup_ok (σ : Heap) (r : Realization) (hz : r.redshifts = r.halos.map fun h => (σ h).z)
    (keep : Oid → Bool) (zs : List ℝ) :
    Realization.regroup σ r (Np.whereTrue (r.halos.map keep)) zs
      = .ok (zs.flatMap fun zi => r.halos.filter fun h => decide ((σ h).z = zi) && keep h) := by
  induction zs with
  | nil => rfl
  | cons zi zs ih =>
    have hg := Np.gather_rank (fun h => decide ((σ h).z = zi)) keep r.halos
    simp only [Realization.regroup, ih, halosAtZ_fst, hz, List.map_map]
    have : ((fun z => decide (z = zi)) ∘ fun h => (σ h).z) = fun h => decide ((σ h).z = zi) := rfl
    rw [this, hg]
    simp [bind, Except.bind, pure, Except.pure]

theorem zipWith_map_or {α : Type} (p q : α → Bool) (l : List α) :
    List.zipWith (fun a b => a || b) (l.map p) (l.map q) = l.map fun a => p a || q a := by
  induction l with
  | nil => rfl
  | cons a t ih => simp

theorem whereTrue_eq_nil {m : List Bool} (h : (Np.whereTrue m).length = 0) : ∀ b ∈ m, b = false := by
  intro b hb
  obtain ⟨i, hi, rfl⟩ := List.mem_iff_getElem.1 hb
  by_contra hne
  have : i ∈ Np.whereTrue m := by
    rw [Np.mem_whereTrue, List.getElem?_eq_getElem hi]
    simpa using hne
  rw [List.length_eq_zero_iff.1 h] at this
  simp at this

/-- The result of `filter`, in closed form, on a realization whose arrays are up to date. -/
theorem filter_eq (σ : Heap) (r : Realization) (hf : Fresh σ r) (ap logM : ℝ)
    (rx ry : List Interp) (hlen : rx.length = ry.length) (hne : rx ≠ [])
    (kpc weighted : Bool) (wMin : ℝ) :
    r.filter σ ap logM rx ry (unitName kpc) weighted wMin
      = .ok (r.rebuild σ (r.uniqueRedshifts.flatMap fun zi =>
          (r.halos.filter fun h => decide (Selected r.lensCosmo ap logM (rx.zip ry) kpc weighted
            wMin (σ h))).filter fun h => decide ((σ h).z = zi))) := by
  set near : Oid → Bool := fun h => decide (∃ f ∈ rx.zip ry,
    separation kpc (r.lensCosmo.DC (σ h).z) (σ h).x (σ h).y (f.1 (r.lensCosmo.DC (σ h).z))
      (f.2 (r.lensCosmo.DC (σ h).z))
    ≤ ap * kernelWeight weighted wMin (r.lensCosmo.DC r.lensCosmo.zSource)
      (r.lensCosmo.DC (σ h).z)) with hnear
  set heavy : Oid → Bool := fun h => decide (|(σ h).mass| ≥ (10 : ℝ) ^ logM) with hheavy
  have hmask : (r.masses.map fun m => |m|).map (fun m => decide (m ≥ (10 : ℝ) ^ logM))
      = r.halos.map heavy := by
    rw [hf.masses]; simp only [List.map_map]; rfl
  have hcheck : ((r.halos.map heavy).map not) = r.halos.map fun h => !heavy h := by
    simp only [List.map_map]; rfl
  have hlenm : (r.masses.map fun m => |m|).length = r.halos.length := by
    rw [hf.masses]; simp
  have hsel : ∀ h, (heavy h || near h)
      = decide (Selected r.lensCosmo ap logM (rx.zip ry) kpc weighted wMin (σ h)) := by
    intro h
    rw [Bool.eq_iff_iff, Bool.or_eq_true]
    simp only [hheavy, hnear, decide_eq_true_eq]
    rfl
  have hzc := Np.gather_whereTrue (fun h => (σ h).z) (fun h => !heavy h) r.halos
  have hxc := Np.gather_whereTrue (fun h => (σ h).x) (fun h => !heavy h) r.halos
  have hyc := Np.gather_whereTrue (fun h => (σ h).y) (fun h => !heavy h) r.halos
  -- the mask of halos inside an aperture
  have hwithin : (if (Np.whereTrue (r.halos.map fun h => !heavy h)).length > 0 then (do
        let xc ← Np.gather r.xs (Np.whereTrue (r.halos.map fun h => !heavy h))
        let yc ← Np.gather r.ys (Np.whereTrue (r.halos.map fun h => !heavy h))
        let rows ← (((r.halos.filter fun h => !heavy h).map fun h => (σ h).z).zip
            (xc.zip yc)).mapM (fun q =>
          let D := r.lensCosmo.DC q.1
          Realization.rowWithin ap rx ry (unitName kpc)
            (Realization.wEff weighted wMin (r.lensCosmo.DC r.lensCosmo.zSource) D) D q.2.1 q.2.2)
        pure (Np.scatter (List.replicate r.halos.length false)
          (Np.whereTrue (r.halos.map fun h => !heavy h)) rows) : Except Err (List Bool))
      else pure (List.replicate r.halos.length false))
      = .ok (r.halos.map fun h => if (!heavy h) = true then near h else false) := by
    have hrep : List.replicate r.halos.length false = r.halos.map fun _ => false := by simp
    split
    · rw [hf.xs, hf.ys, hxc, hyc]
      have hzip : ((r.halos.filter fun h => !heavy h).map fun h => (σ h).z).zip
          ((((r.halos.filter fun h => !heavy h).map fun h => (σ h).x)).zip
            ((r.halos.filter fun h => !heavy h).map fun h => (σ h).y))
          = (r.halos.filter fun h => !heavy h).map fun h => ((σ h).z, (σ h).x, (σ h).y) := by
        induction (r.halos.filter fun h => !heavy h) with
        | nil => rfl
        | cons a t ih => simp [ih]
      have hrows : ((r.halos.filter fun h => !heavy h).map fun h =>
            ((σ h).z, (σ h).x, (σ h).y)).mapM (fun q =>
          let D := r.lensCosmo.DC q.1
          Realization.rowWithin ap rx ry (unitName kpc)
            (Realization.wEff weighted wMin (r.lensCosmo.DC r.lensCosmo.zSource) D) D q.2.1 q.2.2)
          = .ok ((r.halos.filter fun h => !heavy h).map near) := by
        rw [List.mapM_map]
        apply Np.mapM_ok
        intro h _
        show Realization.rowWithin _ _ _ _ _ _ _ _ = _
        rw [rowWithin_ok ap rx ry hlen hne, wEff_eq]
      simp only [bind, Except.bind, hzip]
      have hrows' := hrows
      simp only at hrows'
      simp only [hrows', hrep, Np.scatter_whereTrue]
      rfl
    · rename_i hzero
      rw [hrep]
      simp only [pure, Except.pure]
      congr 1
      apply List.map_congr_left
      intro h hh
      have : (Np.whereTrue (r.halos.map fun h => !heavy h)).length = 0 := by omega
      have hb := whereTrue_eq_nil this (!heavy h) (List.mem_map.2 ⟨h, hh, rfl⟩)
      simp [hb]
  have hor : List.zipWith (fun a b => a || b) (r.halos.map heavy)
      (r.halos.map fun h => if (!heavy h) = true then near h else false)
      = r.halos.map fun h =>
        decide (Selected r.lensCosmo ap logM (rx.zip ry) kpc weighted wMin (σ h)) := by
    rw [zipWith_map_or]
    apply List.map_congr_left
    intro h _
    rw [← hsel]
    cases heavy h <;> simp
  unfold Realization.filter
  simp only [hmask, hcheck, hlenm]
  rw [hf.redshifts, hzc]
  simp only [bind, Except.bind]
  simp only [bind, Except.bind] at hwithin
  rw [hwithin]
  simp only [hor]
  rw [regroup_ok σ r hf.redshifts]
  simp only [pure, Except.pure]
  congr 3
  funext zi
  rw [List.filter_filter]

/-- The result of `filter_subhalos`, in closed form. -/
theorem filterSubhalos_eq (σ : Heap) (r : Realization) (hf : Fresh σ r) (R logM : ℝ)
    (xc yc : List ℝ) (hlen : xc.length = yc.length) :
    r.filterSubhalos σ R logM xc yc
      = .ok (r.rebuild σ (r.halos.filter fun h =>
          decide (SelectedSub R logM (xc.zip yc) (σ h)))) := by
  set near : Oid → Bool := fun h => decide (∃ c ∈ xc.zip yc,
    dist2 (σ h).x (σ h).y c.1 c.2 < R) with hnear
  set keep0 : Oid → Bool := fun h => !(σ h).isSubhalo || decide (|(σ h).mass| > (10 : ℝ) ^ logM)
    with hkeep0
  have hmask : List.zipWith (fun sub m => !sub || decide (|m| > (10 : ℝ) ^ logM))
      r.subhaloFlags r.masses = r.halos.map keep0 := by
    rw [hf.flags, hf.masses, List.zipWith_map]
    induction r.halos with
    | nil => rfl
    | cons a t ih => simp [hkeep0]
  have hcheck : ((r.halos.map keep0).map not) = r.halos.map fun h => !keep0 h := by
    simp only [List.map_map]; rfl
  have hgx := Np.gather_whereTrue (fun h => (σ h).x) (fun h => !keep0 h) r.halos
  have hgy := Np.gather_whereTrue (fun h => (σ h).y) (fun h => !keep0 h) r.halos
  have hfinal : ∀ h, (if (!keep0 h) = true then near h else keep0 h)
      = decide (SelectedSub R logM (xc.zip yc) (σ h)) := by
    intro h
    rw [Bool.eq_iff_iff]
    by_cases h1 : (σ h).isSubhalo = false
    · simp [hkeep0, SelectedSub, h1]
    · by_cases h2 : |(σ h).mass| > (10 : ℝ) ^ logM
      · simp [hkeep0, SelectedSub, h2]
      · simp [hkeep0, hnear, SelectedSub, h1, h2]
  have hrow : ∀ h, (do
        let pairs ← Np.broadcast2 (xc.map ((σ h).x - ·)) (yc.map ((σ h).y - ·))
        pure (pairs.any fun d => decide (Real.sqrt (d.1 ^ 2 + d.2 ^ 2) < R)) : Except Err Bool)
      = .ok (near h) := by
    intro h
    rw [broadcast2_eq (by simpa using hlen), List.zip_map]
    simp only [bind, Except.bind, pure, Except.pure]
    congr 1
    rw [Bool.eq_iff_iff]
    simp [hnear, dist2]
  have hzip : ((r.halos.filter fun h => !keep0 h).map fun h => (σ h).x).zip
      ((r.halos.filter fun h => !keep0 h).map fun h => (σ h).y)
      = (r.halos.filter fun h => !keep0 h).map fun h => ((σ h).x, (σ h).y) := by
    induction (r.halos.filter fun h => !keep0 h) with
    | nil => rfl
    | cons a t ih => simp [ih]
  have hrows : ((r.halos.filter fun h => !keep0 h).map fun h => ((σ h).x, (σ h).y)).mapM
      (fun p => (do
        let pairs ← Np.broadcast2 (xc.map (p.1 - ·)) (yc.map (p.2 - ·))
        pure (pairs.any fun d => decide (Real.sqrt (d.1 ^ 2 + d.2 ^ 2) < R)) : Except Err Bool))
      = .ok ((r.halos.filter fun h => !keep0 h).map near) := by
    rw [List.mapM_map]
    exact Np.mapM_ok fun h _ => hrow h
  have hmain : (if (Np.whereTrue (r.halos.map fun h => !keep0 h)).length ≠ 0 then (do
      let xc' ← Np.gather r.xs (Np.whereTrue (r.halos.map fun h => !keep0 h))
      let yc' ← Np.gather r.ys (Np.whereTrue (r.halos.map fun h => !keep0 h))
      let rows ← (xc'.zip yc').mapM (fun p => do
        let pairs ← Np.broadcast2 (xc.map (p.1 - ·)) (yc.map (p.2 - ·))
        pure (pairs.any fun d => decide (Real.sqrt (d.1 ^ 2 + d.2 ^ 2) < R)))
      pure (Np.scatter (r.halos.map keep0) (Np.whereTrue (r.halos.map fun h => !keep0 h)) rows)
        : Except Err (List Bool))
      else pure (r.halos.map keep0))
      = .ok (r.halos.map fun h => decide (SelectedSub R logM (xc.zip yc) (σ h))) := by
    have hmap : (r.halos.map fun h => if (!keep0 h) = true then near h else keep0 h)
        = r.halos.map fun h => decide (SelectedSub R logM (xc.zip yc) (σ h)) :=
      List.map_congr_left fun h _ => hfinal h
    split
    · rw [hf.xs, hf.ys, hgx, hgy]
      simp only [bind, Except.bind, hzip]
      simp only [bind, Except.bind] at hrows
      rw [hrows]
      simp only [Np.scatter_whereTrue, hmap]
      rfl
    · rename_i hzero
      rw [← hmap]
      simp only [pure, Except.pure]
      congr 1
      apply List.map_congr_left
      intro h hh
      have hb := whereTrue_eq_nil (by simpa using hzero) (!keep0 h) (List.mem_map.2 ⟨h, hh, rfl⟩)
      simp [hb]
  unfold Realization.filterSubhalos
  simp only [hmask, hcheck]
  simp only [bind, Except.bind] at hmain ⊢
  rw [hmain]
  simp only [Np.gather_whereTrue']
  rfl

end PyHalo
