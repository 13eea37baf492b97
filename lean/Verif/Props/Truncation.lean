import Verif.Model.Truncation
import Verif.Props.LensCosmo
import Verif.Model.Sidm
import Verif.Lemmas.Rounding
import Mathlib.Tactic

/-!
# C71: bound mass and truncation radius of a subhalo belong together.  C72: truncation radii
-/

namespace PyHalo
namespace Props
open PyHalo.Trunc HaloObj LensCosmo

/-! ## C71 -/

/-- What holds of a subhalo with the default truncation model after any sequence of reads, when the
bound mass is `m`: if it has been drawn it is `m`; if the radius has been computed it and the
normalisation are the ones that go with `m`. -/
structure Consistent (I : SubI) (m : ℝ) (s : Sub) : Prop where
  bound : s.mbound = none ∨ s.mbound = some m
  radius : (s.radius = none ∧ s.norm = .fresh) ∨
    (s.mbound = some m ∧ s.radius = some (I.rte m).1 ∧ s.norm = ⟨(I.rte m).2, true⟩)
  drawn : s.mbound = none → s.drawn = 0

theorem Consistent.step {I : SubI} (hI : I.name = .galacticus) {ω : ℕ → ℝ} {m : ℝ} {s : Sub}
    (h : Consistent I m s) (hm : s.mbound = none → m = I.mbound (ω 0)) (r : Read) :
    Consistent I m (s.read I ω r) ∧ ((s.read I ω r).mbound = none → m = I.mbound (ω 0)) ∧
    (s.read I ω r).mbound = some m ∧ (r = .radius → (s.read I ω r).radius = some (I.rte m).1) ∧
    (s.read I ω r).drawn ≤ s.drawn + 1 ∧
    (s.mbound ≠ none → (s.read I ω r).drawn = s.drawn) := by
  obtain ⟨sm, sr, sn, sd⟩ := s
  obtain ⟨hb, hr, hd⟩ := h
  simp only at hb hr hd hm
  have hbound : ∃ d, Sub.readBound I ω ⟨sm, sr, sn, sd⟩ = .ok (⟨some m, sr, sn, d⟩, m) ∧
      (d ≤ sd + 1) ∧ (sm ≠ none → d = sd) := by
    unfold Sub.readBound
    rw [if_pos (Or.inl hI)]
    rcases hb with rfl | rfl
    · have hd0 := hd rfl
      subst hd0
      rw [hm rfl]
      exact ⟨1, rfl, by omega, fun h => absurd rfl h⟩
    · exact ⟨sd, rfl, by omega, by simp⟩
  obtain ⟨d, hbo, hd1, hd2⟩ := hbound
  cases r with
  | bound =>
    simp only [Sub.read, hbo]
    refine ⟨⟨Or.inr rfl, ?_, by simp⟩, by simp, by simp, by simp, hd1, by simpa using hd2⟩
    rcases hr with ⟨h1, h2⟩ | ⟨_, h2, h3⟩
    · exact Or.inl ⟨h1, h2⟩
    · exact Or.inr ⟨rfl, h2, h3⟩
  | radius =>
    rcases hr with ⟨h1, h2⟩ | ⟨h1, h2, h3⟩
    · subst h1; subst h2
      have : Sub.readRadius I ω ⟨sm, none, .fresh, sd⟩
          = .ok (⟨some m, some (I.rte m).1, ⟨(I.rte m).2, true⟩, d⟩, (I.rte m).1) := by
        unfold Sub.readRadius
        simp only [if_pos hI, hbo, bind, Except.bind, pure, Except.pure]
        simp [Norm.rescale, Norm.fresh]
      simp only [Sub.read, this]
      exact ⟨⟨Or.inr rfl, Or.inr ⟨rfl, rfl, rfl⟩, by simp⟩, by simp, by simp, by simp, hd1,
        by simpa using hd2⟩
    · subst h1; subst h2; subst h3
      simp only [Sub.read, Sub.readRadius]
      exact ⟨⟨Or.inr rfl, Or.inr ⟨rfl, rfl, rfl⟩, by simp⟩, by simp, by simp, by simp, by omega,
        by simp⟩

theorem Consistent.run {I : SubI} (hI : I.name = .galacticus) {ω : ℕ → ℝ} {m : ℝ} :
    ∀ (rs : List Read) (s : Sub), Consistent I m s → (s.mbound = none → m = I.mbound (ω 0)) →
      Consistent I m (s.run I ω rs) ∧ ((s.run I ω rs).mbound = none → m = I.mbound (ω 0)) ∧
      (s.mbound ≠ none → (s.run I ω rs).drawn = s.drawn) ∧ ((s.run I ω rs).drawn ≤ s.drawn + 1)
  | [], s, h, hm => ⟨h, hm, fun _ => rfl, by simp [Sub.run]⟩
  | r :: rs, s, h, hm => by
    obtain ⟨h1, h2, h3, _, h5, h6⟩ := h.step hI hm r
    obtain ⟨g1, g2, g3, _⟩ := Consistent.run hI rs _ h1 h2
    have e : s.run I ω (r :: rs) = (s.read I ω r).run I ω rs := rfl
    rw [e]
    have g3' := g3 (by rw [h3]; simp)
    exact ⟨g1, g2, fun hn => by rw [g3', h6 hn], by rw [g3']; exact h5⟩

/-- C71.  With the default tidal model, in whatever order and however often the bound mass and the
truncation radius of a subhalo are read, the bound mass is the same draw (or the assigned value), the
radius is the one computed for that bound mass, the normalisation is rescaled once by the factor
computed for it, and at most one random number is used. -/
theorem c71_consistent (I : SubI) (hI : I.name = .galacticus) (ω : ℕ → ℝ) (assigned : Option ℝ)
    (before : List Read) :
    let s₀ : Sub := { Sub.new with mbound := assigned }
    let m := assigned.getD (I.mbound (ω 0))
    let s := s₀.run I ω before
    (∃ s', s.readBound I ω = .ok (s', m)) ∧
    (∃ s', s.readRadius I ω = .ok (s', (I.rte m).1) ∧ s'.norm.norm = (I.rte m).2 ∧ s'.drawn ≤ 1) := by
  intro s₀ m s
  have hc : Consistent I m s₀ := by
    refine ⟨?_, Or.inl ⟨rfl, rfl⟩, fun _ => rfl⟩
    cases assigned with
    | none => exact Or.inl rfl
    | some a => exact Or.inr rfl
  have hm : s₀.mbound = none → m = I.mbound (ω 0) := by
    intro h
    have : assigned = none := h
    simp [m, this]
  obtain ⟨g1, g2, g3, g4⟩ := hc.run hI before s₀ hm
  obtain ⟨b1, _, b3, _⟩ := g1.step hI g2 .bound
  obtain ⟨r1, _, r3, r4, r5, r6⟩ := g1.step hI g2 .radius
  constructor
  · have : ∃ s', s.readBound I ω = .ok (s', m) := by
      unfold Sub.readBound
      rw [if_pos (Or.inl hI)]
      cases hsm : s.mbound with
      | none =>
        have hd := g1.drawn hsm
        have := g2 hsm
        exact ⟨_, by simp only; rw [hd, ← this]⟩
      | some a =>
        rcases g1.bound with h | h
        · rw [hsm] at h; simp at h
        · rw [hsm] at h
          have : a = m := by injection h
          exact ⟨_, by rw [this]⟩
    exact this
  · have hok : ∃ s', s.readRadius I ω = .ok (s', (I.rte m).1) := by
      unfold Sub.readRadius
      rcases g1.radius with ⟨h1, _⟩ | ⟨_, h2, _⟩
      · have h1' : s.radius = none := h1
        rw [h1']
        simp only [if_pos hI]
        obtain ⟨s', hs'⟩ : ∃ s', s.readBound I ω = .ok (s', m) := by
          unfold Sub.readBound
          rw [if_pos (Or.inl hI)]
          cases hsm : s.mbound with
          | none =>
            have hd := g1.drawn hsm
            have := g2 hsm
            exact ⟨_, by simp only; rw [hd, ← this]⟩
          | some a =>
            rcases g1.bound with h | h
            · rw [hsm] at h; simp at h
            · rw [hsm] at h
              have : a = m := by injection h
              exact ⟨_, by rw [this]⟩
        rw [hs']
        exact ⟨_, rfl⟩
      · have h2' : s.radius = some (I.rte m).1 := h2
        rw [h2']
        exact ⟨_, rfl⟩
    obtain ⟨s', hs'⟩ := hok
    have hread : s.read I ω .radius = s' := by simp only [Sub.read, hs']
    refine ⟨s', hs', ?_, ?_⟩
    · have h := r1.radius
      have h4 := r4 rfl
      change s.read I ω .radius = s' at hread
      have e : (s₀.run I ω before).read I ω .radius = s' := hread
      rw [e] at h h4
      rcases h with ⟨h, _⟩ | ⟨_, _, h⟩
      · rw [h4] at h; simp at h
      · rw [h]
    · have e : (s₀.run I ω before).read I ω .radius = s' := hread
      have h0 : s₀.drawn = 0 := rfl
      cases hsm : (s₀.run I ω before).mbound with
      | none =>
        have := g1.drawn hsm
        rw [e] at r5; omega
      | some a =>
        have := r6 (by rw [hsm]; simp)
        rw [e] at this; omega

/-- Where the code violates C71: with the infall-redshift, the approximate and the 2024 models the
radius comes from one draw and the bound mass from another, whichever is read first. -/
theorem c71_independent_draws (I : SubI) (ω : ℕ → ℝ)
    (hI : I.name = .zinfall ∨ I.name = .approxCDM) :
    (∃ s s', Sub.new.readRadius I ω = .ok (s, (I.rte (I.mbound (ω 0))).1) ∧
      s.readBound I ω = .ok (s', I.mbound (ω 1))) ∧
    (∃ s s', Sub.new.readBound I ω = .ok (s, I.mbound (ω 0)) ∧
      s.readRadius I ω = .ok (s', (I.rte (I.mbound (ω 1))).1)) := by
  obtain ⟨name, mb, rte, other⟩ := I
  rcases hI with hI | hI <;> simp only at hI <;> subst hI <;>
    exact ⟨⟨_, _, rfl, rfl⟩, ⟨_, _, rfl, rfl⟩⟩

/-- The same for a bound mass assigned beforehand: with these models the radius ignores it. -/
theorem c71_assigned_ignored (I : SubI) (ω : ℕ → ℝ) (m : ℝ)
    (hI : I.name = .zinfall ∨ I.name = .approxCDM ∨ I.name = .milkyWay) :
    ∃ s, (Sub.simple m).readRadius I ω = .ok (s, (I.rte (I.mbound (ω 0))).1) := by
  obtain ⟨name, mb, rte, other⟩ := I
  rcases hI with hI | hI | hI <;> simp only at hI <;> subst hI <;> exact ⟨_, rfl⟩

/-- C71: for the Milky Way model and for models without a bound mass the bound mass is refused,
before and after the radius has been computed. -/
theorem c71_refused (I : SubI) (ω : ℕ → ℝ) (hI : I.name = .milkyWay ∨ I.name = .other) (s : Sub) :
    s.readBound I ω = .error (.exception
      "this method can only be called when using one of the TruncationGalacticus class") := by
  unfold Sub.readBound
  rw [if_neg]
  rcases hI with h | h <;> simp [h]

/-- A subhalo for the examples: bound masses `10^8 * u`, radius `m / 10^7`, factor `m / 10^8`. -/
noncomputable def demoSub (n : Name) : SubI :=
  { name := n
    mbound := fun u => 1e8 * u
    rte := fun m => (m / 1e7, m / 1e8)
    otherRadius := fun u => u }

example : (demoSub .galacticus).name = .galacticus := rfl

/-- With two different variates the two masses of `c71_independent_draws` really differ. -/
example : (demoSub .zinfall).mbound 0.5 ≠ (demoSub .zinfall).mbound 0.25 := by
  simp only [demoSub]
  norm_num

/-! ## C72 -/

/-- C72.  The truncation radius of field halos (`TruncationRN`) is the radius inside which the mean
density is `N` times the critical density at that redshift: mass, radius in kpc and critical density
in solar masses per cubic kpc match. -/
theorem c72_rn (e : Env) (N mass z : ℝ) (hm : 0 < mass) (hN : 0 < N) (hh : 0 < e.h)
    (hr : 0 < e.rhoc z) :
    0 < rn e N mass z ∧
    mass = N * (e.rhoc z * e.h ^ 2 * 1e-9) * (4 / 3 * Real.pi * rn e N mass z ^ 3) := by
  obtain ⟨h1, h2⟩ := c25_radius e (mass * e.h) z N (by positivity) hN hh hr
  refine ⟨by unfold rn; positivity, ?_⟩
  have e1 : mass * e.h / e.h = mass := by field_simp
  rw [e1] at h2
  unfold rn
  rw [mul_pow]
  calc mass = _ := h2
    _ = _ := by norm_num; ring

/-- C72: a larger overdensity threshold truncates further in, a larger mass further out. -/
theorem c72_rn_monotone (e : Env) {N N' mass mass' z : ℝ} (hm : 0 < mass) (hmm : mass ≤ mass')
    (hN : 0 < N') (hNN : N' ≤ N) (hh : 0 < e.h) (hr : 0 < e.rhoc z) :
    rn e N mass z ≤ rn e N' mass' z := by
  have hpi := Real.pi_pos
  have hN' : 0 < N := lt_of_lt_of_le hN hNN
  have hm' : 0 < mass' := lt_of_lt_of_le hm hmm
  unfold rn rNM
  refine mul_le_mul_of_nonneg_right ?_ (by norm_num)
  refine div_le_div_of_nonneg_right ?_ hh.le
  refine Real.rpow_le_rpow (by positivity) ?_ (by norm_num)
  gcongr

/-- C72 for the splashback model: the unit radius encloses 200 times `Om0` times the critical density
at the halo's redshift. -/
theorem c72_splashback_partial (e : Env) (mass z : ℝ) (hm : 0 < mass) (hh : 0 < e.h)
    (hr : 0 < e.rhoc z) (hO : 0 < e.Om0) (ratio : ℝ) :
    splashback e ratio mass z = ratio * splashbackUnit e mass z ∧
    mass = 200 * (e.Om0 * (e.rhoc z * e.h ^ 2 * 1e-9))
      * (4 / 3 * Real.pi * splashbackUnit e mass z ^ 3) := by
  obtain ⟨h1, h2⟩ := c25_radius e (mass * e.h) z 200 (by positivity) (by norm_num) hh hr
  have e1 : mass * e.h / e.h = mass := by field_simp
  rw [e1] at h2
  constructor
  · unfold splashback splashbackUnit
    simp only
    ring
  · have hc : (e.Om0 ^ (1 / 3 : ℝ)) ^ 3 = e.Om0 := by
      rw [← Real.rpow_natCast, ← Real.rpow_mul hO.le]
      norm_num
    unfold splashbackUnit
    rw [mul_pow, div_pow, hc]
    calc mass = _ := h2
      _ = _ := by
        field_simp
        norm_num
        ring

/-- Where the code violates C72 for the splashback model: the mean matter density at `z` is
`Om0 (1 + z)³ ρc(0)`, and the critical density grows more slowly than `(1 + z)³`, so for every
redshift where it does the enclosed density is below 200 times the mean density, i.e. the radius
called `r200m` is too large. -/
theorem c72_splashback_not_mean (e : Env) (mass z : ℝ) (hm : 0 < mass) (hh : 0 < e.h)
    (hr : 0 < e.rhoc z) (hO : 0 < e.Om0) (hz : e.rhoc z < (1 + z) ^ 3 * e.rhoc 0) :
    mass < 200 * (e.Om0 * (1 + z) ^ 3 * (e.rhoc 0 * e.h ^ 2 * 1e-9))
      * (4 / 3 * Real.pi * splashbackUnit e mass z ^ 3) := by
  obtain ⟨_, h2⟩ := c72_splashback_partial e mass z hm hh hr hO 1
  have hpi := Real.pi_pos
  have hu : 0 < splashbackUnit e mass z := by
    have := (c25_radius e (mass * e.h) z 200 (by positivity) (by norm_num) hh hr).1
    unfold splashbackUnit
    positivity
  have hp : 0 < 200 * e.Om0 * e.h ^ 2 * 1e-9 * (4 / 3 * Real.pi * splashbackUnit e mass z ^ 3) := by
    positivity
  calc mass = _ := h2
    _ = (200 * e.Om0 * e.h ^ 2 * 1e-9 * (4 / 3 * Real.pi * splashbackUnit e mass z ^ 3)) * e.rhoc z := by
      ring
    _ < (200 * e.Om0 * e.h ^ 2 * 1e-9 * (4 / 3 * Real.pi * splashbackUnit e mass z ^ 3))
        * ((1 + z) ^ 3 * e.rhoc 0) := mul_lt_mul_of_pos_left hz hp
    _ = _ := by ring

/-- C72 for the Roche model: the radius is within half a parsec of the formula, never negative, and
grows with mass and with the distance from the host centre. -/
theorem c72_roche {norm a b : ℝ} (hn : 0 ≤ norm) (ha : 0 ≤ a) (hb : 0 ≤ b) {mass mass' r r' : ℝ}
    (hm : 0 ≤ mass) (hmm : mass ≤ mass') (hr : 0 ≤ r) (hrr : r ≤ r') :
    |roche norm a b mass r - norm * (mass / 10 ^ 7) ^ a * (r / 50) ^ b| ≤ 0.0005 ∧
    0 ≤ roche norm a b mass r ∧ roche norm a b mass r ≤ roche norm a b mass' r' := by
  have mono : rocheExact norm a b mass r ≤ rocheExact norm a b mass' r' := by
    unfold rocheExact
    have h1 : (mass / 10 ^ 7) ^ a ≤ (mass' / 10 ^ 7) ^ a :=
      Real.rpow_le_rpow (by positivity) (by gcongr) ha
    have h2 : (r / 50) ^ b ≤ (r' / 50) ^ b := Real.rpow_le_rpow (by positivity) (by gcongr) hb
    have p1 : 0 ≤ (mass / 10 ^ 7) ^ a := Real.rpow_nonneg (by positivity) _
    have p2 : 0 ≤ (r / 50) ^ b := Real.rpow_nonneg (by positivity) _
    exact mul_le_mul (mul_le_mul_of_nonneg_left h1 hn) h2 p2 (mul_nonneg hn (p1.trans h1))
  have h0 : 0 ≤ rocheExact norm a b mass r := by
    unfold rocheExact
    have p1 : 0 ≤ (mass / 10 ^ 7) ^ a := Real.rpow_nonneg (by positivity) _
    have p2 : 0 ≤ (r / 50) ^ b := Real.rpow_nonneg (by positivity) _
    positivity
  refine ⟨?_, ?_, ?_⟩
  · have := Np.abs_rint_sub (1000 * rocheExact norm a b mass r)
    unfold roche
    rw [abs_le] at this ⊢
    have e1 : norm * (mass / 10 ^ 7) ^ a * (r / 50) ^ b = rocheExact norm a b mass r := rfl
    rw [e1]
    constructor
    · have h := this.1
      linarith [show (Np.rint (1000 * rocheExact norm a b mass r) : ℝ) / 1000
        = (Np.rint (1000 * rocheExact norm a b mass r) : ℝ) * (1 / 1000) by ring]
    · have h := this.2
      linarith [show (Np.rint (1000 * rocheExact norm a b mass r) : ℝ) / 1000
        = (Np.rint (1000 * rocheExact norm a b mass r) : ℝ) * (1 / 1000) by ring]
  · unfold roche
    have : Np.rint ((0 : ℤ) : ℝ) ≤ Np.rint (1000 * rocheExact norm a b mass r) :=
      Np.rint_mono (by push_cast; positivity)
    rw [Np.rint_int] at this
    have : (0 : ℝ) ≤ Np.rint (1000 * rocheExact norm a b mass r) := by exact_mod_cast this
    positivity
  · unfold roche
    have : Np.rint (1000 * rocheExact norm a b mass r) ≤ Np.rint (1000 * rocheExact norm a b mass' r') :=
      Np.rint_mono (by linarith)
    have : (Np.rint (1000 * rocheExact norm a b mass r) : ℝ)
        ≤ Np.rint (1000 * rocheExact norm a b mass' r') := by exact_mod_cast this
    linarith [div_le_div_of_nonneg_right this (show (0 : ℝ) ≤ 1000 by norm_num)]

example := c72_roche (norm := 1.4) (a := 1 / 3) (b := 2 / 3) (by norm_num) (by norm_num) (by norm_num) (mass := 10 ^ 7) (mass' := 10 ^ 8)
  (r := 50) (r' := 60) (by norm_num) (by norm_num) (by norm_num) (by norm_num)

/-- Where the rounding shows: with the default parameters a halo of `10^7` solar masses closer than
0.3 pc to the host centre gets truncation radius zero. -/
theorem c72_roche_zero {r : ℝ} (h0 : 0 ≤ r) (h1 : r ≤ 0.0003) :
    roche 1.4 (1 / 3) (2 / 3) (10 ^ 7) r = 0 := by
  have h2 : (r / 50) ^ (2 / 3 : ℝ) ≤ 0.00035 := by
    have hr : r / 50 ≤ (0.00035 : ℝ) ^ (3 / 2 : ℝ) := by
      have e : (0.00035 : ℝ) ^ (3 / 2 : ℝ) = 0.00035 * Real.sqrt 0.00035 := by
        rw [show (3 / 2 : ℝ) = 1 + 1 / 2 by norm_num, Real.rpow_add (by norm_num), Real.rpow_one,
          Real.sqrt_eq_rpow]
      have hs : 0.0187 ≤ Real.sqrt 0.00035 := Real.le_sqrt_of_sq_le (by norm_num)
      rw [e]
      nlinarith
    calc (r / 50) ^ (2 / 3 : ℝ) ≤ ((0.00035 : ℝ) ^ (3 / 2 : ℝ)) ^ (2 / 3 : ℝ) :=
          Real.rpow_le_rpow (by positivity) hr (by norm_num)
      _ = 0.00035 := by
          rw [← Real.rpow_mul (by norm_num)]
          norm_num
  have hp : 0 ≤ (r / 50) ^ (2 / 3 : ℝ) := Real.rpow_nonneg (by positivity) _
  have hx : rocheExact 1.4 (1 / 3) (2 / 3) (10 ^ 7) r = 1.4 * (r / 50) ^ (2 / 3 : ℝ) := by
    unfold rocheExact
    rw [div_self (by norm_num), Real.one_rpow, mul_one]
  have hy0 : 0 ≤ 1000 * rocheExact 1.4 (1 / 3) (2 / 3) (10 ^ 7) r := by rw [hx]; positivity
  have hy1 : 1000 * rocheExact 1.4 (1 / 3) (2 / 3) (10 ^ 7) r ≤ 0.49 := by rw [hx]; nlinarith
  have hab := Np.abs_rint_sub (1000 * rocheExact 1.4 (1 / 3) (2 / 3) (10 ^ 7) r)
  unfold roche
  generalize 1000 * rocheExact 1.4 (1 / 3) (2 / 3) (10 ^ 7) r = y at hy0 hy1 hab
  rw [abs_le] at hab
  have h3 : (Np.rint y : ℝ) < 1 := by linarith [hab.2]
  have h4 : (-1 : ℝ) < Np.rint y := by linarith [hab.1]
  have h3' : Np.rint y < 1 := by exact_mod_cast h3
  have h4' : -1 < Np.rint y := by exact_mod_cast h4
  have : Np.rint y = 0 := by omega
  rw [this]; simp

example := c72_roche_zero (r := 0.0001) (by norm_num) (by norm_num)

/-- C72 for the mean-density model: the radius is never negative, whatever the scatter draws; without
scatter a halo of median concentration is truncated at the nominal multiple of its scale radius, and
the radius grows with the concentration. -/
theorem c72_mean_density {norm cp scatter rs cm c : ℝ} (hn : 0 ≤ norm) (hrs : 0 ≤ rs) (hcm : 0 < cm)
    (hc : 0 < c) :
    (∀ u, 0 ≤ meanDensity norm cp scatter rs cm c u) ∧
    (∀ u, scatter ≤ 0 → meanDensity norm cp scatter rs cm cm u = rs * norm) ∧
    (∀ u c', scatter ≤ 0 → 0 ≤ cp → c ≤ c' →
      meanDensity norm cp scatter rs cm c u ≤ meanDensity norm cp scatter rs cm c' u) := by
  refine ⟨fun u => ?_, fun u hs => ?_, fun u c' hs hcp hcc => ?_⟩
  · unfold meanDensity
    simp only
    refine mul_nonneg hrs ?_
    split_ifs
    · exact abs_nonneg _
    · exact mul_nonneg hn (Real.rpow_nonneg (by positivity) _)
  · unfold meanDensity
    simp only [gt_iff_lt, not_lt.mpr hs, if_false]
    rw [div_self hcm.ne', Real.one_rpow, mul_one]
  · unfold meanDensity
    simp only [gt_iff_lt, not_lt.mpr hs, if_false]
    refine mul_le_mul_of_nonneg_left (mul_le_mul_of_nonneg_left ?_ hn) hrs
    exact Real.rpow_le_rpow (by positivity) (by gcongr) hcp

example := c72_mean_density (norm := 1) (cp := 0.5) (scatter := 0) (rs := 2) (cm := 10) (c := 12) (by norm_num) (by norm_num)
  (by norm_num) (by norm_num)

/-- C72, C31: the batched `TruncationRN` radii are the scalar ones. -/
theorem c31_rn (e : Env) (N : ℝ) (ms zs : List ℝ) :
    Batch.rnVectorized e N ms zs = List.zipWith (fun m z => rn e N m z) ms zs := by
  unfold Batch.rnVectorized
  congr 1
  funext m z
  unfold rn rNM
  rw [mul_assoc]

/-- A flat cosmology with matter fraction 0.3 for the examples: the critical density grows like
`0.3 (1+z)³ + 0.7`. -/
noncomputable def demoEnv72 : Env :=
  { h := 0.7
    rhoc := fun z => 2.7e11 * (0.3 * (1 + z) ^ 3 + 0.7)
    DA := fun _ _ => 0
    DAz := fun _ => 0
    zSource := 2
    c := 1
    G := 1
    Om0 := 0.3 }

/-- `c72_splashback_not_mean` applies at redshift 0.5 of that cosmology. -/
example : demoEnv72.rhoc 0.5 < (1 + 0.5) ^ 3 * demoEnv72.rhoc 0 ∧ 0 < demoEnv72.rhoc 0.5 := by
  simp only [demoEnv72]
  norm_num

end Props
end PyHalo
