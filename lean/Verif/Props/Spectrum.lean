import Verif.Model.Spectrum
import Mathlib.Tactic.Linarith
import Mathlib.Tactic.Positivity
import Mathlib.Tactic.FieldSimp
import Mathlib.Tactic.Ring

/-!
# C114 to C116: power spectra, power-law fits and multi-plane convergence maps
-/

namespace PyHalo.Props

open PyHalo Spectrum

/-- The separations that are not zero and the values there. -/
noncomputable def Spec114.nonzero (r xi : List ℝ) : List (ℝ × ℝ) := (List.zip r xi).filter fun p => decide (p.1 ≠ 0)

theorem pow_neg_I_even (n : ℕ) : (-Complex.I) ^ (2 * n) = ((-1 : ℝ) ^ n : ℝ) := by
  rw [pow_mul, neg_sq, Complex.I_sq]
  push_cast
  rfl

/-- **C114**. For an even order `2 n` the power spectrum is `(-1)^n 2 π` times the Hankel transform of the correlation function at the
separations that are not zero. Missing: odd orders, see `c114_odd_vanishes`. -/
theorem c114_even_partial (H : Hankel) (r xi : List ℝ) (n : ℕ) (ex : Bool) :
    let p := Spec114.nonzero r xi
    let out := H (p.map Prod.fst) (2 * n) (p.map Prod.snd) ex
    xiToPk H r xi (2 * n) ex = (out.1, out.2.map fun v => (-1) ^ n * (2 * Real.pi * v)) := by
  simp only [xiToPk, Spec114.nonzero, Prod.mk.injEq, true_and]
  apply List.map_congr_left
  intro v _
  rw [pow_neg_I_even, ← Complex.ofReal_ofNat 2, ← Complex.ofReal_mul, ← Complex.ofReal_mul, ← Complex.ofReal_mul, Complex.ofReal_re]
  ring

example (H : Hankel) (hH : H [1, 2] 2 [5, 6] true = ([0.5, 1], [3, 4])) :
    xiToPk H [0, 1, 2] [7, 5, 6] 2 true = ([0.5, 1], [-(2 * Real.pi * 3), -(2 * Real.pi * 4)]) := by
  have := c114_even_partial H [0, 1, 2] [7, 5, 6] 1 true
  simp [Spec114.nonzero, hH] at this
  simpa using this

/-- **C114**. For every odd order the returned power spectrum is zero at every wavenumber, whatever the correlation function: the factor
`(-i)^l` is imaginary and only the real part is returned. -/
theorem c114_odd_vanishes (H : Hankel) (r xi : List ℝ) (n : ℕ) (ex : Bool) : ∀ v ∈ (xiToPk H r xi (2 * n + 1) ex).2, v = 0 := by
  intro v hv
  simp only [xiToPk, List.mem_map] at hv
  obtain ⟨w, _, rfl⟩ := hv
  rw [pow_succ, pow_neg_I_even]
  have e : ((w : ℂ) * (2 * (Real.pi : ℂ) * ((((-1 : ℝ) ^ n : ℝ) : ℂ) * -Complex.I)))
      = ((-(w * (2 * Real.pi * (-1) ^ n)) : ℝ) : ℂ) * Complex.I := by
    push_cast
    ring
  rw [e, Complex.re_ofReal_mul, Complex.I_re, mul_zero]

example (H : Hankel) (hH : H [1, 2] 1 [5, 6] true = ([0.5, 1], [3, 4])) : (xiToPk H [1, 2] [5, 6] 1 true).2 = [0, 0] := by
  have := c114_odd_vanishes H [1, 2] [5, 6] 0 true
  simp [xiToPk, hH] at this ⊢

/-- The sum of the squared distances of a curve from points. -/
noncomputable def Spec115.misfit (f : ℝ → ℝ) (pts : List (ℝ × ℝ)) : ℝ := (pts.map fun p => (f p.1 - p.2) ^ 2).sum

/-- A solver that finds a curve through all points when there is one. -/
def Spec115.Finds (solver : (ℝ → ℝ → ℝ → ℝ) → List (ℝ × ℝ) → ℝ × ℝ) : Prop :=
  ∀ (f : ℝ → ℝ → ℝ → ℝ) (pts : List (ℝ × ℝ)), (∃ a b : ℝ, Spec115.misfit (fun x => f x a b) pts = 0) →
    Spec115.misfit (fun x => f x (solver f pts).1 (solver f pts).2) pts = 0

/-- There are such solvers. -/
example : ∃ solver, Spec115.Finds solver := by
  classical
  refine ⟨fun f pts => if h : ∃ q : ℝ × ℝ, Spec115.misfit (fun x => f x q.1 q.2) pts = 0 then h.choose else (0, 0), ?_⟩
  rintro f pts ⟨a, b, h⟩
  have hq : ∃ q : ℝ × ℝ, Spec115.misfit (fun x => f x q.1 q.2) pts = 0 := ⟨(a, b), h⟩
  simp only [dif_pos hq]
  exact hq.choose_spec

theorem misfit_zero {f : ℝ → ℝ} {pts : List (ℝ × ℝ)} (h : Spec115.misfit f pts ≤ 0) : ∀ p ∈ pts, f p.1 = p.2 := by
  induction pts with
  | nil => simp
  | cons q pts ih =>
    have h1 : 0 ≤ Spec115.misfit f pts := by
      apply List.sum_nonneg
      intro x hx
      obtain ⟨p, _, rfl⟩ := List.mem_map.1 hx
      positivity
    have e : Spec115.misfit f (q :: pts) = (f q.1 - q.2) ^ 2 + Spec115.misfit f pts := by simp [Spec115.misfit]
    have h2 := sq_nonneg (f q.1 - q.2)
    intro p hp
    rcases List.mem_cons.1 hp with rfl | hp
    · have : (f p.1 - p.2) ^ 2 = 0 := by linarith
      have := pow_eq_zero_iff (two_ne_zero) |>.1 this
      linarith
    · exact ih (by linarith) p hp

/-- **C115**. `fit_correlation_multipole(r, xi, r_min, r_max)` recovers a power law: if `xi = A (r / r_p)^n` with `r_p = (r_min + r_max) / 2`
at every separation strictly between `r_min` and `r_max`, and there are two different ones, then it returns `A` and `n`, whatever `xi` is
elsewhere. -/
theorem c115_recovers {solver : (ℝ → ℝ → ℝ → ℝ) → List (ℝ × ℝ) → ℝ × ℝ} (hs : Spec115.Finds solver) {r xi : List ℝ}
    {rMin rMax A n x y : ℝ} (h0 : 0 ≤ rMin) (hA : A ≠ 0) (hlen : r.length = xi.length)
    (hfit : ∀ p ∈ List.zip r xi, rMin < p.1 → p.1 < rMax → p.2 = A * (p.1 / ((rMin + rMax) / 2)) ^ n)
    (hx : x ∈ r) (hy : y ∈ r) (hxy : x ≠ y) (hxr : rMin < x ∧ x < rMax) (hyr : rMin < y ∧ y < rMax) :
    fitMultipole solver r xi rMin rMax = .ok (A, n) := by
  set P := (rMin + rMax) / 2 with hP
  have hP0 : 0 < P := by rw [hP]; linarith [hxr.1, hxr.2]
  set pts := (List.zip r xi).filter fun p => decide (rMin < p.1 ∧ p.1 < rMax) with hpts
  have hmem : ∀ z ∈ r, rMin < z → z < rMax → ∃ w, (z, w) ∈ pts := by
    intro z hz h1 h2
    obtain ⟨i, hi, rfl⟩ := List.getElem_of_mem hz
    have hi' : i < (List.zip r xi).length := by simp; omega
    refine ⟨xi[i]'(by omega), List.mem_filter.2 ⟨?_, by simp [h1, h2]⟩⟩
    have := List.getElem_mem hi'
    rwa [List.getElem_zip] at this
  obtain ⟨u, hu⟩ := hmem x hx hxr.1 hxr.2
  obtain ⟨v, hv⟩ := hmem y hy hyr.1 hyr.2
  have hne : (x, u) ≠ (y, v) := fun h => hxy (Prod.mk.inj h).1
  have h2 : 2 ≤ pts.length := by
    have hall2 : ∀ l : List (ℝ × ℝ), (x, u) ∈ l → (y, v) ∈ l → 2 ≤ l.length := by
      intro l h1 h3
      match l with
      | [] => simp at h1
      | [q] => exact absurd ((List.mem_singleton.1 h1).trans (List.mem_singleton.1 h3).symm) hne
      | _ :: _ :: _ => simp
    exact hall2 pts hu hv
  have hexact : ∀ p ∈ pts, p.2 = A * (p.1 / P) ^ n := by
    intro p hp
    obtain ⟨hp1, hp2⟩ := List.mem_filter.1 hp
    have := of_decide_eq_true hp2
    exact hfit p hp1 this.1 this.2
  set func := fun x As n : ℝ => As * (x / P) ^ n with hfunc
  have hz : Spec115.misfit (fun x => func x A n) pts = 0 := by
    unfold Spec115.misfit
    apply List.sum_eq_zero
    intro w hw
    obtain ⟨p, hp, rfl⟩ := List.mem_map.1 hw
    rw [hexact p hp]
    simp [hfunc]
  have hall := misfit_zero (hs func pts ⟨A, n, hz⟩).le
  set As := (solver func pts).1 with hAs
  set m := (solver func pts).2 with hm
  have ex : As * (x / P) ^ m = A * (x / P) ^ n := by
    have := hall _ hu
    have h3 := hexact _ hu
    simp only [hfunc] at this h3
    rw [this, h3]
  have ey : As * (y / P) ^ m = A * (y / P) ^ n := by
    have := hall _ hv
    have h3 := hexact _ hv
    simp only [hfunc] at this h3
    rw [this, h3]
  have px : 0 < x / P := div_pos (by linarith [hxr.1]) hP0
  have py : 0 < y / P := div_pos (by linarith [hyr.1]) hP0
  have gx : As = A * (x / P) ^ (n - m) := by
    rw [Real.rpow_sub px]
    have := (Real.rpow_pos_of_pos px m).ne'
    field_simp
    exact ex
  have gy : As = A * (y / P) ^ (n - m) := by
    rw [Real.rpow_sub py]
    have := (Real.rpow_pos_of_pos py m).ne'
    field_simp
    exact ey
  have hpow : (x / P) ^ (n - m) = (y / P) ^ (n - m) := mul_left_cancel₀ hA (gx.symm.trans gy)
  have hnm : n - m = 0 := by
    by_contra hne'
    have hl := congrArg Real.log hpow
    rw [Real.log_rpow px, Real.log_rpow py] at hl
    have := Real.log_injOn_pos (show x / P ∈ Set.Ioi 0 from px) (show y / P ∈ Set.Ioi 0 from py) (mul_left_cancel₀ hne' hl)
    rw [div_left_inj' hP0.ne'] at this
    exact hxy this
  have hAs' : As = A := by rw [gx, hnm, Real.rpow_zero, mul_one]
  have hm' : m = n := by linarith
  have hnil : pts ≠ [] := by
    intro h
    rw [h] at h2
    simp at h2
  unfold fitMultipole curveFit
  simp only
  rw [← hP, ← hpts, if_neg hnil, if_neg (by omega)]
  congr 1
  exact Prod.ext hAs' hm'

example {solver : (ℝ → ℝ → ℝ → ℝ) → List (ℝ × ℝ) → ℝ × ℝ} (hs : Spec115.Finds solver) :
    fitMultipole solver [0, 1, 2, 3, 4] [99, 5, 10, 15, 0] 0 4 = .ok (10, 1) := by
  refine c115_recovers hs (x := 1) (y := 2) le_rfl (by norm_num) rfl ?_ (by simp) (by simp) (by norm_num) (by norm_num) (by norm_num)
  intro p hp h1 h2
  simp only [List.zip_cons_cons, List.zip_nil_right, List.mem_cons, List.not_mem_nil, or_false] at hp
  rcases hp with rfl | rfl | rfl | rfl | rfl <;> norm_num at *

/-- **C115**. With fewer than two separations strictly inside the range nothing is fitted: an exception is raised. -/
theorem c115_refused {solver : (ℝ → ℝ → ℝ → ℝ) → List (ℝ × ℝ) → ℝ × ℝ} {r xi : List ℝ} {rMin rMax : ℝ}
    (h : (r.filter fun x => decide (rMin < x ∧ x < rMax)).length < 2) :
    ∃ e, fitMultipole solver r xi rMin rMax = .error e := by
  have hle : ((List.zip r xi).filter fun p => decide (rMin < p.1 ∧ p.1 < rMax)).length
      ≤ (r.filter fun x => decide (rMin < x ∧ x < rMax)).length := by
    have e : ((List.zip r xi).filter fun p => decide (rMin < p.1 ∧ p.1 < rMax)).map Prod.fst
        = ((List.zip r xi).map Prod.fst).filter fun x => decide (rMin < x ∧ x < rMax) := by
      rw [List.filter_map]; rfl
    rw [← List.length_map (f := Prod.fst), e]
    have : ∀ r xi : List ℝ, ((List.zip r xi).map Prod.fst).Sublist r := by
      intro r
      induction r with
      | nil => simp
      | cons a r ih =>
        intro xi
        cases xi with
        | nil => simp
        | cons b xi => simpa using ih xi
    exact ((this r xi).filter _).length_le
  unfold fitMultipole curveFit
  simp only
  split_ifs with h1 h2
  · exact ⟨_, rfl⟩
  · exact ⟨_, rfl⟩
  · omega

example (solver : (ℝ → ℝ → ℝ → ℝ) → List (ℝ × ℝ) → ℝ × ℝ) : ∃ e, fitMultipole solver [0, 1, 2] [3, 4, 5] 0 2 = .error e :=
  c115_refused (by norm_num [List.filter])

/-- **C116**. Without a main deflector given by the user, the map has `npix` rows of `npix` numbers; the one in row `i` and column `j` is
the convergence of the main deflector and all halos of the realization at their own redshifts, minus that of the main deflector alone,
at abscissa `-angle/2 + j angle/(npix-1)` and ordinate `-angle/2 + i angle/(npix-1)`. The lists returned along with it are those used. -/
theorem c116_map {Kw : Type} (L : Lens Kw) (epl shear : Kw) (q : Quantities Kw) (zLens zSource angle : ℝ) (npix : ℕ) (h2 : 2 ≤ npix)
    (m : Macro Kw) (names : List String) (kw : List Kw) (z : List ℝ)
    (hm : m = ⟨none, m.kwargs, m.redshifts⟩ ∧ names = ["EPL", "SHEAR"] ∧ kw = [epl, shear] ∧ z = [zLens, zLens] ∨
      m = ⟨some names, some kw, some z⟩) :
    ∃ M : Map Kw, multiplane L epl shear q zLens zSource m angle npix = .ok M ∧
      M.names = names ++ q.names ∧ M.redshifts = z ++ q.redshifts ∧ M.kwargs = kw ++ q.kwargs ∧
      M.macroNames = names ∧ M.macroKwargs = kw ∧
      M.delta.length = npix ∧ (∀ row ∈ M.delta, row.length = npix) ∧
      ∀ i < npix, ∀ j < npix,
        let x := -angle / 2 + j * (angle / (npix - 1))
        let y := -angle / 2 + i * (angle / (npix - 1))
        (M.delta[i]?.bind (·[j]?)) = some (L.kappaMulti (names ++ q.names) (z ++ q.redshifts) zSource (kw ++ q.kwargs) x y - L.kappa names kw x y) := by
  have hmac : macroOf epl shear zLens m = .ok (names, kw, z) := by
    rcases hm with ⟨h, rfl, rfl, rfl⟩ | h
    · rw [h]; rfl
    · rw [h]; rfl
  have hM := show multiplane L epl shear q zLens zSource m angle npix = .ok _ by
    unfold multiplane
    simp only [hmac, bind, Except.bind, pure, Except.pure]
    rfl
  refine ⟨_, hM, rfl, rfl, rfl, rfl, rfl, by simp [Np.linspace], ?_, ?_⟩
  · intro row hrow
    obtain ⟨y, _, rfl⟩ := List.mem_map.1 hrow
    simp [Np.linspace]
  · intro i hi j hj
    have hn : npix ≠ 1 := by omega
    have e : angle / 2 - -angle / 2 = angle := by ring
    simp [Np.linspace, List.getElem?_map, List.getElem?_range hi, List.getElem?_range hj, hn, e]

/-- **C116**. Where the components are at one redshift and the realization adds nothing, the map vanishes: no spurious convergence. -/
theorem c116_no_halos {Kw : Type} (L : Lens Kw) (epl shear : Kw) (zLens zSource angle : ℝ) (npix : ℕ) (h2 : 2 ≤ npix)
    (hL : ∀ names kw x y, L.kappaMulti names (List.replicate names.length zLens) zSource kw x y = L.kappa names kw x y) :
    ∃ M : Map Kw, multiplane L epl shear ⟨[], [], []⟩ zLens zSource ⟨none, none, none⟩ angle npix = .ok M ∧
      ∀ row ∈ M.delta, ∀ v ∈ row, v = 0 := by
  obtain ⟨M, hM, _, _, _, _, _, hlen, hrow, hval⟩ := c116_map L epl shear ⟨[], [], []⟩ zLens zSource angle npix h2 ⟨none, none, none⟩
    ["EPL", "SHEAR"] [epl, shear] [zLens, zLens] (.inl ⟨rfl, rfl, rfl, rfl⟩)
  refine ⟨M, hM, ?_⟩
  intro row hr v hv
  have hl := hrow row hr
  obtain ⟨i, hi, rfl⟩ := List.getElem_of_mem hr
  obtain ⟨j, hj, rfl⟩ := List.getElem_of_mem hv
  have := hval i (by omega) j (by omega)
  rw [List.getElem?_eq_getElem hi] at this
  simp only [Option.bind_some, List.append_nil] at this
  rw [List.getElem?_eq_getElem hj] at this
  rw [Option.some.inj this]
  have := hL ["EPL", "SHEAR"] [epl, shear] (-angle / 2 + j * (angle / (npix - 1))) (-angle / 2 + i * (angle / (npix - 1)))
  simp only [List.length_cons, List.length_nil, List.replicate] at this
  rw [this, sub_self]

example : ∃ M : Map ℝ, multiplane ⟨fun _ kw x y => kw.sum * (x + y), fun _ _ _ kw x y => kw.sum * (x + y)⟩ 1 2 ⟨[], [], []⟩ 0.5 2
    ⟨none, none, none⟩ 2.5 100 = .ok M ∧ ∀ row ∈ M.delta, ∀ v ∈ row, v = 0 :=
  c116_no_halos _ _ _ _ _ _ _ (by norm_num) (fun _ _ _ _ => rfl)

theorem linspace_half {angle : ℝ} (h : 0 < angle) {npix : ℕ} (h2 : 2 ≤ npix) :
    ∀ x ∈ Np.linspace (-angle / 2) (angle / 2) npix, |x| ≤ angle / 2 := by
  have hn : npix ≠ 1 := by omega
  have hc : (0 : ℝ) < npix - 1 := by
    have : (2 : ℝ) ≤ npix := by exact_mod_cast h2
    linarith
  have e : angle / 2 - -angle / 2 = angle := by ring
  simp only [Np.linspace, List.mem_map, List.mem_range, hn, if_false, e]
  rintro x ⟨i, hi, rfl⟩
  have hi' : (i : ℝ) ≤ npix - 1 := by
    have : (i : ℝ) + 1 ≤ npix := by exact_mod_cast hi
    linarith
  have h0 : (0 : ℝ) ≤ i := Nat.cast_nonneg i
  have e2 : (i : ℝ) * (angle / (npix - 1)) = i / (npix - 1) * angle := by ring
  have l : (i : ℝ) / (npix - 1) ≤ 1 := by rw [div_le_one hc]; exact hi'
  have l0 : 0 ≤ (i : ℝ) / (npix - 1) := by positivity
  rw [e2, abs_le]
  constructor <;> nlinarith

/-- **C116**. The documentation says that each axis spans twice the given angle. It spans the angle itself: two lens models that agree
within half the angle of the centre along each axis give the same map, whatever they are beyond. -/
theorem c116_half_of_documented {Kw : Type} {L L' : Lens Kw} {angle : ℝ} (h : 0 < angle) {npix : ℕ} (h2 : 2 ≤ npix)
    (hk : ∀ names kw x y, |x| ≤ angle / 2 → |y| ≤ angle / 2 → L.kappa names kw x y = L'.kappa names kw x y)
    (hm : ∀ names z zs kw x y, |x| ≤ angle / 2 → |y| ≤ angle / 2 → L.kappaMulti names z zs kw x y = L'.kappaMulti names z zs kw x y)
    (epl shear : Kw) (q : Quantities Kw) (zLens zSource : ℝ) (m : Macro Kw) :
    multiplane L epl shear q zLens zSource m angle npix = multiplane L' epl shear q zLens zSource m angle npix := by
  unfold multiplane
  cases hmac : macroOf epl shear zLens m with
  | error e => rfl
  | ok v =>
    obtain ⟨names, kw, z⟩ := v
    simp only [bind, Except.bind, pure, Except.pure, Except.ok.injEq, Map.mk.injEq, and_true]
    apply List.map_congr_left
    intro y hy
    apply List.map_congr_left
    intro x hx
    have hx' := linspace_half h h2 x hx
    have hy' := linspace_half h h2 y hy
    rw [hk _ _ _ _ hx' hy', hm _ _ _ _ _ _ hx' hy']

/-- A lens that differs from nothing only outside the central square. -/
example (q : Quantities ℝ) (m : Macro ℝ) :
    multiplane ⟨fun _ _ _ _ => 0, fun _ _ _ _ x _ => if 1 < |x| then 7 else 0⟩ 1 2 q 0.5 2 m 2 100
      = multiplane ⟨fun _ _ _ _ => 0, fun _ _ _ _ _ _ => 0⟩ 1 2 q 0.5 2 m 2 100 := by
  refine c116_half_of_documented (angle := 2) (npix := 100) (by norm_num) (by norm_num) ?_ ?_ _ _ _ _ _ _
  · intros; rfl
  intro _ _ _ _ x y hx _
  have : ¬ 1 < |x| := by norm_num at hx; linarith
  simp [this]

/-- **C116**. A main deflector given by name without its redshifts is refused. -/
theorem c116_missing_redshifts {Kw : Type} (L : Lens Kw) (epl shear : Kw) (q : Quantities Kw) (zLens zSource angle : ℝ) (npix : ℕ)
    (names : List String) (kw : Option (List Kw)) :
    ∃ s, multiplane L epl shear q zLens zSource ⟨some names, kw, none⟩ angle npix = .error (.typeError s) := by
  simp [multiplane, macroOf, bind, Except.bind]

example : ∃ s, multiplane ⟨fun _ kw x y => kw.sum * (x + y), fun _ _ _ kw x y => kw.sum * (x + y)⟩ (1 : ℝ) 2 ⟨["TNFW"], [0.3], [5]⟩ 0.5 2
    ⟨some ["SIE"], some [3], none⟩ 2.5 100 = .error (.typeError s) :=
  c116_missing_redshifts _ _ _ _ _ _ _ _ _ _

/-- The map with one halo in front of the main deflector: the centre of a map of three by three. -/
example : ∃ M : Map ℝ, multiplane ⟨fun _ kw x y => kw.sum * (x + y + 1), fun _ z _ kw x y => (List.zipWith (· * ·) z kw).sum * (x + y + 1)⟩
    (1 : ℝ) 2 ⟨["TNFW"], [0.25], [8]⟩ 0.5 2 ⟨none, none, none⟩ 2 3 = .ok M ∧ (M.delta[1]?.bind (·[1]?)) = some (1 / 2) := by
  obtain ⟨M, hM, _, _, _, _, _, _, _, hval⟩ := c116_map
    ⟨fun _ kw x y => kw.sum * (x + y + 1), fun _ z _ kw x y => (List.zipWith (· * ·) z kw).sum * (x + y + 1)⟩
    (1 : ℝ) 2 ⟨["TNFW"], [0.25], [8]⟩ 0.5 2 2 3 (by norm_num) ⟨none, none, none⟩ ["EPL", "SHEAR"] [1, 2] [0.5, 0.5] (.inl ⟨rfl, rfl, rfl, rfl⟩)
  refine ⟨M, hM, ?_⟩
  rw [hval 1 (by norm_num) 1 (by norm_num)]
  norm_num

end PyHalo.Props
