import Verif.Lemmas.Slopes
import Verif.Model.HaloObject
import Verif.Props.Tnfw

/-!
# C112, C113: numerical slopes, convergences and projected masses
-/

namespace PyHalo.Props

open PyHalo Slopes Prof

/-- `s` is the logarithmic slope `d log ρ / d log r` at the radius `r`. -/
def Spec112.Slope (ρ : ℝ → ℝ) (r s : ℝ) : Prop := HasDerivAt (fun u => Real.log (ρ (Real.exp u))) s (Real.log r)

/-- The radii from the neighbour below to the neighbour above of the radius `i` of an array. -/
def Spec112.around (r : List ℝ) (i : ℕ) : Set ℝ := Set.Icc (r.getD (i - 1) 0) (r.getD (min (i + 1) (r.length - 1)) 0)

/-- The mass between two circles of radii `a` and `b` in kpc for a surface density in solar masses per square kpc. -/
noncomputable def Spec112.projected (sd : ℝ → ℝ) (a b : ℝ) : ℝ := ∫ R in a..b, 2 * Real.pi * R * sd R

/-- **C112**. `logarithmic_profile_slope(r)` for an increasing array of radii returns one number for each radius, and that number is
between the smallest and the largest true slope between the neighbouring radii. -/
theorem c112_array {ρ S : ℝ → ℝ} {r : List ℝ} (hr : r.Pairwise (· < ·)) (h0 : ∀ x ∈ r, 0 < x) (h2 : 2 ≤ r.length) :
    ∃ g : List ℝ, logSlopeArray ρ r = .ok g ∧ g.length = r.length ∧ ∀ i < r.length, ∀ a b : ℝ,
      (∀ t ∈ Spec112.around r i, Spec112.Slope ρ t (S t) ∧ a ≤ S t ∧ S t ≤ b) → a ≤ g.getD i 0 ∧ g.getD i 0 ≤ b := by
  have hx : (r.map Real.log).Pairwise (· < ·) := by
    rw [List.pairwise_map]
    refine hr.imp_of_mem ?_
    intro a b ha hb hab
    exact Real.log_lt_log (h0 a ha) hab
  have e : (r.map ρ).map Real.log = (r.map Real.log).map fun u => Real.log (ρ (Real.exp u)) := by
    rw [List.map_map, List.map_map]
    apply List.map_congr_left
    intro x hx
    simp [Real.exp_log (h0 x hx)]
  obtain ⟨g, hg, hl, hi⟩ := gradient_between (φ := fun u => Real.log (ρ (Real.exp u))) (σ := fun u => S (Real.exp u)) hx (by simpa using h2)
  refine ⟨g, by rw [logSlopeArray, e]; exact hg, by simpa using hl, ?_⟩
  intro i hii a b hb
  have hget : ∀ k < r.length, (r.map Real.log).getD k 0 = Real.log (r.getD k 0) ∧ 0 < r.getD k 0 := by
    intro k hk
    simp [List.getD_eq_getElem?_getD, List.getElem?_eq_getElem hk, h0 _ (List.getElem_mem hk)]
  have h1 := hget (i - 1) (by omega)
  have h3 := hget (min (i + 1) (r.length - 1)) (by omega)
  apply hi i (by simpa using hii) a b
  rw [List.length_map, h1.1, h3.1]
  intro u hu
  have : Real.exp u ∈ Spec112.around r i := by
    constructor
    · rw [← Real.exp_log h1.2]; exact Real.exp_le_exp.2 hu.1
    · rw [← Real.exp_log h3.2]; exact Real.exp_le_exp.2 hu.2
  have := hb _ this
  rw [Spec112.Slope, Real.log_exp] at this
  exact this

/-- **C112**. For a number, `logarithmic_profile_slope(r)` is between the smallest and the largest true slope between `r` and `1.001 r`. -/
theorem c112_number {ρ S : ℝ → ℝ} {r a b : ℝ} (hr : 0 < r)
    (h : ∀ t ∈ Set.Icc r (1.001 * r), Spec112.Slope ρ t (S t) ∧ a ≤ S t ∧ S t ≤ b) :
    ∃ v, logSlope ρ r = .ok v ∧ a ≤ v ∧ v ≤ b := by
  have hlt : r < r + 0.001 * r := by nlinarith
  obtain ⟨g, hg, hl, hi⟩ := c112_array (ρ := ρ) (S := S) (r := [r, r + 0.001 * r]) (by simpa using hlt)
    (by intro x hx; simp only [List.mem_cons, List.not_mem_nil, or_false] at hx; rcases hx with rfl | rfl <;> linarith) (by simp)
  match g, hl with
  | [v, w], _ =>
    refine ⟨v, by simp [logSlope, hg, bind, Except.bind, pure, Except.pure], ?_⟩
    have := hi 0 (by simp) a b (by
      intro t ht
      apply h t
      simp [Spec112.around] at ht
      exact ⟨ht.1, by linarith [ht.2]⟩)
    simpa using this

/-- The slope of a power law. -/
theorem power_slope {A γ : ℝ} (hA : 0 < A) (t : ℝ) : Spec112.Slope (fun x => A * x ^ (-γ)) t (-γ) := by
  have e : (fun u => Real.log (A * Real.exp u ^ (-γ))) = fun u => Real.log A + (-γ) * u := by
    funext u
    rw [Real.log_mul hA.ne' (Real.rpow_pos_of_pos (Real.exp_pos u) _).ne', Real.log_rpow (Real.exp_pos u), Real.log_exp]
  unfold Spec112.Slope
  rw [e]
  simpa using ((hasDerivAt_id (Real.log t)).const_mul (-γ)).const_add (Real.log A)

example : ∃ g : List ℝ, logSlopeArray (fun x => 3 * x ^ (-(2 : ℝ))) [1, 2, 5] = .ok g ∧ g.length = 3 ∧ -2.5 ≤ g.getD 1 0 := by
  obtain ⟨g, hg, hl, hi⟩ := c112_array (ρ := fun x => 3 * x ^ (-(2 : ℝ))) (S := fun _ => -2) (r := [1, 2, 5]) (by norm_num) (by norm_num) (by simp)
  exact ⟨g, hg, hl, (hi 1 (by simp) (-2.5) (-2) fun t _ => ⟨power_slope (by norm_num) t, by norm_num, le_rfl⟩).1⟩

example : ∃ v, logSlope (fun x => 3 * x ^ (-(2 : ℝ))) 5 = .ok v ∧ -2 ≤ v ∧ v ≤ -2 :=
  c112_number (S := fun _ => -2) (by norm_num) fun t _ => ⟨power_slope (by norm_num) t, le_rfl, le_rfl⟩

/-- **C112**. Of a power law `A r^(-γ)` every value is exactly `-γ`, whatever the radii. -/
theorem c112_power_law {A γ : ℝ} (hA : 0 < A) {r : List ℝ} (hr : r.Pairwise (· < ·)) (h0 : ∀ x ∈ r, 0 < x) (h2 : 2 ≤ r.length) :
    logSlopeArray (fun x => A * x ^ (-γ)) r = .ok (List.replicate r.length (-γ)) := by
  obtain ⟨g, hg, hl, hi⟩ := c112_array (ρ := fun x => A * x ^ (-γ)) (S := fun _ => -γ) hr h0 h2
  rw [hg]
  congr 1
  apply List.ext_getElem (by simp [hl])
  intro i h1 _
  have := hi i (by omega) (-γ) (-γ) (fun t _ => ⟨power_slope hA t, le_rfl, le_rfl⟩)
  simp [List.getD_eq_getElem?_getD, List.getElem?_eq_getElem h1] at this
  simp only [List.getElem_replicate]
  linarith [this.1, this.2]

example : logSlopeArray (fun x => 3 * x ^ (-(2 : ℝ))) [1, 2, 5, 7] = .ok [-2, -2, -2, -2] := by
  have := c112_power_law (A := 3) (γ := 2) (by norm_num) (r := [1, 2, 5, 7]) (by norm_num) (by norm_num) (by simp)
  simpa using this

/-- **C112**. An array with one radius, or none, is refused; the number itself is not. -/
theorem c112_too_short (ρ : ℝ → ℝ) (r : List ℝ) (h : r.length < 2) :
    logSlopeArray ρ r = .error (.valueError "Shape of array too small to calculate a numerical gradient") := by
  match r, h with
  | [], _ => simp [logSlopeArray, gradient]
  | [x], _ => simp [logSlopeArray, gradient]

example : ∃ v, logSlope (fun x => 3 * x ^ (-(2 : ℝ))) 5 = .ok v :=
  ⟨_, by simp [logSlope, logSlopeArray, gradient, bind, Except.bind, pure, Except.pure]; rfl⟩

/-- The density of a TNFW object is the truncated profile. -/
theorem tnfw_density_eq (I : HaloObj.TnfwI) (s : HaloObj.Tnfw) (r : ℝ) :
    (s.readDensity I r).2 = Tnfw.densityProfile r I.rhos I.rs (s.readProfile I).2.2 := by
  simp only [HaloObj.Tnfw.readDensity, Tnfw.densityProfile]
  rw [one_mul, div_div, mul_div_assoc, add_comm ((_ : ℝ) ^ 2) ((r / I.rs) ^ 2)]

theorem tnfw_slope_anti {rs rt : ℝ} (hs : 0 < rs) (ht : 0 < rt) {x y : ℝ} (hx : 0 < x) (h : x < y) :
    Tnfw.logProfileSlope y rs rt < Tnfw.logProfileSlope x rs rt := by
  have := slope_strictAnti (div_pos ht hs) (show x / rs ∈ Set.Ioi 0 from div_pos hx hs) (show y / rs ∈ Set.Ioi 0 from div_pos (hx.trans h) hs)
    (by gcongr)
  simpa [Tnfw.logProfileSlope] using this

theorem tnfw_slope_step {rs rt r : ℝ} (hs : 0 < rs) (ht : 0 < rt) (hr : 0 < r) :
    Tnfw.logProfileSlope r rs rt - 0.002 ≤ Tnfw.logProfileSlope (1.001 * r) rs rt := by
  unfold Tnfw.logProfileSlope
  have hx : 0 < r / rs := by positivity
  have htau : 0 < rt / rs := by positivity
  rw [show 1.001 * r / rs = 1.001 * (r / rs) by ring]
  generalize r / rs = x at *
  generalize rt / rs = t at *
  have h1 : 2 / (1 + x) - 2 / (1 + 1.001 * x) ≤ 0.0005 := by
    rw [div_sub_div _ _ (by positivity) (by positivity), div_le_iff₀ (by positivity)]
    nlinarith [sq_nonneg (x - 1)]
  have h2 : 2 * t ^ 2 / (t ^ 2 + x ^ 2) - 2 * t ^ 2 / (t ^ 2 + (1.001 * x) ^ 2) ≤ 0.0011 := by
    rw [div_sub_div _ _ (by positivity) (by positivity), div_le_iff₀ (by positivity)]
    nlinarith [sq_nonneg (t ^ 2 - x ^ 2), mul_pos (pow_pos htau 2) (pow_pos hx 2), pow_pos htau 4, pow_pos hx 4]
  simp only
  linarith

/-- **C112**. For a truncated NFW halo and an array the value at a radius is between the exact slopes at its neighbours. For a number
it is below the exact slope there, by at most 0.002. The exact slope is the one `log_profile_slope` returns. -/
theorem c112_tnfw (I : HaloObj.TnfwI) (s : HaloObj.Tnfw) (hrho : 0 < I.rhos) (hs : 0 < I.rs) (ht : 0 < (s.readProfile I).2.2) :
    (∀ r : List ℝ, r.Pairwise (· < ·) → (∀ x ∈ r, 0 < x) → 2 ≤ r.length →
      ∃ g : List ℝ, logSlopeArray (fun x => (s.readDensity I x).2) r = .ok g ∧ g.length = r.length ∧ ∀ i < r.length,
        Tnfw.logProfileSlope (r.getD (min (i + 1) (r.length - 1)) 0) I.rs (s.readProfile I).2.2 ≤ g.getD i 0 ∧
        g.getD i 0 ≤ Tnfw.logProfileSlope (r.getD (i - 1) 0) I.rs (s.readProfile I).2.2) ∧
    ∀ r, 0 < r → ∃ v, logSlope (fun x => (s.readDensity I x).2) r = .ok v ∧
      Tnfw.logProfileSlope r I.rs (s.readProfile I).2.2 - 0.002 ≤ v ∧ v ≤ Tnfw.logProfileSlope r I.rs (s.readProfile I).2.2 := by
  simp only [tnfw_density_eq]
  set rt := (s.readProfile I).2.2
  have hS : ∀ t, 0 < t → Spec112.Slope (fun x => Tnfw.densityProfile x I.rhos I.rs rt) t (Tnfw.logProfileSlope t I.rs rt) :=
    fun t h => c28_slope_is_log_derivative t I.rhos I.rs rt h hs ht hrho
  have hanti : ∀ x y, 0 < x → x ≤ y → Tnfw.logProfileSlope y I.rs rt ≤ Tnfw.logProfileSlope x I.rs rt := by
    intro x y hx h
    rcases h.eq_or_lt with rfl | h
    · exact le_rfl
    · exact (tnfw_slope_anti hs ht hx h).le
  refine ⟨?_, ?_⟩
  · intro r hr h0 h2
    obtain ⟨g, hg, hl, hi⟩ := c112_array (ρ := fun x => Tnfw.densityProfile x I.rhos I.rs rt)
      (S := fun t => Tnfw.logProfileSlope t I.rs rt) hr h0 h2
    refine ⟨g, hg, hl, fun i hii => hi i hii _ _ ?_⟩
    intro t ht'
    have hk : i - 1 < r.length := by omega
    have hp : 0 < r.getD (i - 1) 0 := by
      rw [List.getD_eq_getElem?_getD, List.getElem?_eq_getElem hk]
      simpa using h0 _ (List.getElem_mem hk)
    have h0t : 0 < t := hp.trans_le ht'.1
    exact ⟨hS t h0t, hanti _ _ h0t ht'.2, hanti _ _ hp ht'.1⟩
  · intro r hr
    obtain ⟨v, hv, h1, h2⟩ := c112_number (S := fun t => Tnfw.logProfileSlope t I.rs rt) hr
      (a := Tnfw.logProfileSlope (1.001 * r) I.rs rt) (b := Tnfw.logProfileSlope r I.rs rt)
      (ρ := fun x => Tnfw.densityProfile x I.rhos I.rs rt)
      (fun t h => ⟨hS t (hr.trans_le h.1), hanti _ _ (hr.trans_le h.1) h.2, hanti _ _ hr h.1⟩)
    exact ⟨v, hv, (tnfw_slope_step hs ht hr).trans h1, h2⟩

example (f : ℝ → ℝ → ℝ × ℝ) (g : ℝ → ℝ → ℝ → ℝ → ℝ) (v w : ℝ → ℝ → ℝ) :
    let I : HaloObj.TnfwI := { mass := 1e8, c := 10, rhos := 1e6, rs := 2, r200 := 20, rt := 5, ft := none, angles := f, kpcPerArcsec := 6, mass3d := g, vmax := v, fraction := w }
    ∃ u, logSlope (fun x => ((HaloObj.Tnfw.new 0 0).readDensity I x).2) 3 = .ok u ∧ u ≤ Tnfw.logProfileSlope 3 2 5 := by
  intro I
  obtain ⟨u, hu, _, h⟩ := (c112_tnfw I (HaloObj.Tnfw.new 0 0) (by norm_num [I]) (by norm_num [I])
    (by norm_num [HaloObj.Tnfw.readProfile, HaloObj.Tnfw.new, I])).2 3 (by norm_num)
  exact ⟨u, hu, h⟩

/-- **C112**. For an NFW halo every value is strictly between -3 and -1, and the value for a number is at most 0.0005 from the exact
slope `-(1 + 3 x) / (1 + x)`, `x = r / rs`. -/
theorem c112_nfw {rhos rs : ℝ} (hrho : 0 < rhos) (hs : 0 < rs) :
    (∀ r : List ℝ, r.Pairwise (· < ·) → (∀ x ∈ r, 0 < x) → 2 ≤ r.length →
      ∃ g : List ℝ, logSlopeArray (nfwDensity rhos rs) r = .ok g ∧ g.length = r.length ∧ ∀ v ∈ g, -3 < v ∧ v < -1) ∧
    ∀ r, 0 < r → ∃ v, logSlope (nfwDensity rhos rs) r = .ok v ∧ |v - -(1 + 3 * (r / rs)) / (1 + r / rs)| ≤ 0.0005 := by
  set S : ℝ → ℝ := fun r => -(1 + 3 * (r / rs)) / (1 + r / rs) with hSdef
  have hS : ∀ t, 0 < t → Spec112.Slope (nfwDensity rhos rs) t (S t) := by
    intro t ht
    have e : (fun u => Real.log (nfwDensity rhos rs (Real.exp u))) =
        fun u => Real.log rhos + Real.log rs - u - 2 * Real.log (1 + Real.exp u / rs) := by
      funext u
      have hu := Real.exp_pos u
      have h1 : 0 < 1 + Real.exp u / rs := by positivity
      rw [nfwDensity, Real.log_div (by positivity) (by positivity), Real.log_div (by positivity) (by positivity),
        Real.log_div (by positivity) (by positivity), Real.log_pow, Real.log_exp]
      push_cast
      ring
    unfold Spec112.Slope
    rw [e]
    have h1 : HasDerivAt (fun u => 1 + Real.exp u / rs) (t / rs) (Real.log t) := by
      have := ((Real.hasDerivAt_exp (Real.log t)).div_const rs).const_add 1
      rwa [Real.exp_log ht] at this
    have hne : 1 + Real.exp (Real.log t) / rs ≠ 0 := by rw [Real.exp_log ht]; positivity
    have := ((hasDerivAt_id (Real.log t)).const_sub (Real.log rhos + Real.log rs)).sub ((h1.log hne).const_mul 2)
    refine this.congr_deriv ?_
    rw [Real.exp_log ht, hSdef]
    have : 1 + t / rs ≠ 0 := by positivity
    field_simp
    ring
  have hval : ∀ t, 0 < t → S t = -3 + 2 / (1 + t / rs) := by
    intro t ht
    have : 1 + t / rs ≠ 0 := by positivity
    rw [hSdef]
    field_simp
    ring
  have hanti : ∀ x y, 0 < x → x ≤ y → S y ≤ S x := by
    intro x y hx h
    rw [hval x hx, hval y (hx.trans_le h)]
    have : 0 < 1 + x / rs := by positivity
    gcongr
  have hrange : ∀ t, 0 < t → -3 < S t ∧ S t < -1 := by
    intro t ht
    have : 0 < t / rs := by positivity
    rw [hval t ht]
    constructor
    · have : 0 < 2 / (1 + t / rs) := by positivity
      linarith
    · have : 2 / (1 + t / rs) < 2 := by rw [div_lt_iff₀ (by positivity)]; linarith
      linarith
  refine ⟨?_, ?_⟩
  · intro r hr h0 h2
    obtain ⟨g, hg, hl, hi⟩ := c112_array (ρ := nfwDensity rhos rs) (S := S) hr h0 h2
    refine ⟨g, hg, hl, fun v hv => ?_⟩
    obtain ⟨i, hig, rfl⟩ := List.getElem_of_mem hv
    have hget : ∀ k, k < r.length → 0 < r.getD k 0 := by
      intro k hk
      rw [List.getD_eq_getElem?_getD, List.getElem?_eq_getElem hk]
      simpa using h0 _ (List.getElem_mem hk)
    have hp := hget (i - 1) (by omega)
    have hq := hget (min (i + 1) (r.length - 1)) (by omega)
    have := hi i (by omega) _ _ (fun t ht' => ⟨hS t (hp.trans_le ht'.1), hanti _ _ (hp.trans_le ht'.1) ht'.2, hanti _ _ hp ht'.1⟩)
    have hgi : g.getD i 0 = g[i] := by simp [List.getD_eq_getElem?_getD, List.getElem?_eq_getElem hig]
    rw [hgi] at this
    exact ⟨(hrange _ hq).1.trans_le this.1, this.2.trans_lt (hrange _ hp).2⟩
  · intro r hr
    obtain ⟨v, hv, h1, h2⟩ := c112_number (S := S) hr (a := S (1.001 * r)) (b := S r) (ρ := nfwDensity rhos rs)
      (fun t h => ⟨hS t (hr.trans_le h.1), hanti _ _ (hr.trans_le h.1) h.2, hanti _ _ hr h.1⟩)
    refine ⟨v, hv, ?_⟩
    have hstep : S r - 0.0005 ≤ S (1.001 * r) := by
      rw [hval r hr, hval _ (by positivity), show 1.001 * r / rs = 1.001 * (r / rs) by ring]
      have hx : 0 < r / rs := by positivity
      generalize r / rs = x at *
      have : 2 / (1 + x) - 2 / (1 + 1.001 * x) ≤ 0.0005 := by
        rw [div_sub_div _ _ (by positivity) (by positivity), div_le_iff₀ (by positivity)]
        nlinarith [sq_nonneg (x - 1)]
      linarith
    change |v - S r| ≤ 0.0005
    rw [abs_le]
    constructor <;> linarith

example : ∃ g : List ℝ, logSlopeArray (nfwDensity 1e6 2) [0.1, 1, 10] = .ok g ∧ g.length = 3 ∧ ∀ v ∈ g, -3 < v ∧ v < -1 :=
  (c112_nfw (rhos := 1e6) (rs := 2) (by norm_num) (by norm_num)).1 [0.1, 1, 10] (by norm_num) (by norm_num) (by simp)

/-- **C112**. The slope reported for a halo that blends a truncated and a cored profile (`Hybrid`, weights `1 - w` and `w`) is between
the slopes of the two profiles. -/
theorem c112_hybrid {ρ₁ ρ₂ S₁ S₂ : ℝ → ℝ} {w r a b : ℝ} (hr : 0 < r) (hw : 0 ≤ w ∧ w ≤ 1) (hρ : ∀ t, 0 < t → 0 < ρ₁ t ∧ 0 < ρ₂ t)
    (h₁ : ∀ t ∈ Set.Icc r (1.001 * r), Spec112.Slope ρ₁ t (S₁ t) ∧ a ≤ S₁ t ∧ S₁ t ≤ b)
    (h₂ : ∀ t ∈ Set.Icc r (1.001 * r), Spec112.Slope ρ₂ t (S₂ t) ∧ a ≤ S₂ t ∧ S₂ t ≤ b) :
    ∃ v, logSlope (hybridDensity w ρ₁ ρ₂) r = .ok v ∧ a ≤ v ∧ v ≤ b := by
  have hpos : ∀ t, 0 < t → 0 < hybridDensity w ρ₁ ρ₂ t := by
    intro t ht
    obtain ⟨p1, p2⟩ := hρ t ht
    unfold hybridDensity
    rcases hw.1.eq_or_lt with rfl | h
    · simpa using p1
    · have : 0 ≤ ρ₁ t * (1 - w) := mul_nonneg p1.le (by linarith [hw.2])
      have : 0 < ρ₂ t * w := mul_pos p2 h
      linarith
  have hder : ∀ {ρ : ℝ → ℝ} {t s : ℝ}, (∀ t, 0 < t → 0 < ρ t) → 0 < t → Spec112.Slope ρ t s →
      HasDerivAt (fun u => ρ (Real.exp u)) (ρ t * s) (Real.log t) := by
    intro ρ t s hp ht h
    have := h.exp
    rw [Real.exp_log ht, Real.exp_log (hp t ht)] at this
    have e : (fun u => Real.exp (Real.log (ρ (Real.exp u)))) = fun u => ρ (Real.exp u) := by
      funext u
      exact Real.exp_log (hp _ (Real.exp_pos u))
    rwa [e] at this
  apply c112_number (S := fun t => (ρ₁ t * (1 - w) * S₁ t + ρ₂ t * w * S₂ t) / hybridDensity w ρ₁ ρ₂ t) hr
  intro t ht
  have h0 : 0 < t := hr.trans_le ht.1
  obtain ⟨p1, p2⟩ := hρ t h0
  obtain ⟨d1, l1, u1⟩ := h₁ t ht
  obtain ⟨d2, l2, u2⟩ := h₂ t ht
  have hp := hpos t h0
  have c1 : 0 ≤ ρ₁ t * (1 - w) := mul_nonneg p1.le (by linarith [hw.2])
  have c2 : 0 ≤ ρ₂ t * w := mul_nonneg p2.le hw.1
  refine ⟨?_, ?_, ?_⟩
  · have k1 := hder (fun t h => (hρ t h).1) h0 d1
    have k2 := hder (fun t h => (hρ t h).2) h0 d2
    have k := ((k1.mul_const (1 - w)).add (k2.mul_const w)).log (by
      have := hpos t h0
      simp only [hybridDensity] at this
      simpa [Real.exp_log h0] using this.ne')
    unfold Spec112.Slope hybridDensity
    refine k.congr_deriv ?_
    simp only [Pi.add_apply, Real.exp_log h0]
    ring
  · rw [le_div_iff₀ hp]
    simp only [hybridDensity]
    nlinarith [mul_le_mul_of_nonneg_left l1 c1, mul_le_mul_of_nonneg_left l2 c2]
  · rw [div_le_iff₀ hp]
    simp only [hybridDensity]
    nlinarith [mul_le_mul_of_nonneg_left u1 c1, mul_le_mul_of_nonneg_left u2 c2]

example : ∃ v, logSlope (hybridDensity 0.25 (fun x => 3 * x ^ (-(1 : ℝ))) (fun x => 5 * x ^ (-(3 : ℝ)))) 2 = .ok v ∧ -3 ≤ v ∧ v ≤ -1 :=
  c112_hybrid (S₁ := fun _ => -1) (S₂ := fun _ => -3) (by norm_num) (by norm_num) (fun t ht => ⟨by positivity, by positivity⟩)
    (fun t _ => ⟨power_slope (by norm_num) t, by norm_num, by norm_num⟩) (fun t _ => ⟨power_slope (by norm_num) t, by norm_num, by norm_num⟩)

/-- **C112**. The convergence a core-collapsed halo reports at the radius `r_i` (kpc): one number for each radius, equal to half the sum
of `α / θ` there and a number between the smallest and largest derivative of the deflection angle between the neighbouring radii. -/
theorem c112_kappa {s : Scale} (hk : 0 < s.kpa) {α α' : ℝ → ℝ} {r : List ℝ} (hr : r.Pairwise (· < ·)) (h2 : 2 ≤ r.length) :
    ∃ k : List ℝ, kappa s α r = .ok k ∧ k.length = r.length ∧ ∀ i < r.length, ∀ a b : ℝ,
      (∀ t ∈ Spec112.around r i, HasDerivAt α (α' (t / s.kpa)) (t / s.kpa) ∧ a ≤ α' (t / s.kpa) ∧ α' (t / s.kpa) ≤ b) →
      (α (r.getD i 0 / s.kpa) / (r.getD i 0 / s.kpa) + a) / 2 ≤ k.getD i 0 ∧
      k.getD i 0 ≤ (α (r.getD i 0 / s.kpa) / (r.getD i 0 / s.kpa) + b) / 2 := by
  have hx : (r.map (· / s.kpa)).Pairwise (· < ·) := by
    rw [List.pairwise_map]
    exact hr.imp fun h => by gcongr
  obtain ⟨g, hg, hl, hi⟩ := gradient_between (φ := α) (σ := α') hx (by simpa using h2)
  refine ⟨_, by simp only [kappa, hg, bind, Except.bind, pure, Except.pure]; rfl, by simp [hl], ?_⟩
  intro i hii a b hb
  have hig : i < g.length := by rw [hl]; simpa using hii
  have hget : ∀ j < r.length, (r.map (· / s.kpa)).getD j 0 = r.getD j 0 / s.kpa := by
    intro j hj
    simp [List.getD_eq_getElem?_getD, List.getElem?_eq_getElem hj]
  have := hi i (by simpa using hii) a b (by
    rw [List.length_map, hget _ (by omega), hget _ (by omega)]
    intro t ht
    have ht' : t * s.kpa ∈ Spec112.around r i := ⟨(div_le_iff₀ hk).1 ht.1, (le_div_iff₀ hk).1 ht.2⟩
    have := hb _ ht'
    rwa [mul_div_cancel_right₀ _ hk.ne'] at this)
  simp only [List.getD_eq_getElem?_getD, List.getElem?_eq_getElem hii, Option.getD_some, List.getElem?_map,
    List.getElem?_zip_eq_some, List.zip, List.getElem?_zipWith, Option.map_some, List.getElem?_eq_getElem hig] at this ⊢
  constructor <;> linarith [this.1, this.2]

/-- A uniform sheet has the same convergence everywhere. -/
example : ∃ k : List ℝ, kappa ⟨2, 1⟩ (fun t => 0.3 * t) [1, 2, 7] = .ok k ∧ k.length = 3 ∧ k.getD 1 0 = 0.3 := by
  obtain ⟨k, hk, hl, hi⟩ := c112_kappa (s := ⟨2, 1⟩) (α := fun t => 0.3 * t) (α' := fun _ => 0.3) (by norm_num) (r := [1, 2, 7]) (by norm_num) (by simp)
  have := hi 1 (by simp) 0.3 0.3 fun t _ => ⟨by simpa using (hasDerivAt_id (t / 2)).const_mul (0.3 : ℝ), le_rfl, le_rfl⟩
  norm_num at this
  exact ⟨k, hk, hl, by norm_num; linarith [this.1, this.2]⟩

/-- **C112**. `log_slope_2d(r)` of the convergence `κ` of a cored and truncated halo: between the true slopes between the neighbouring
radii, all in kpc. -/
theorem c112_slope_2d {hess : ℝ → ℝ → Tnfwc → ℝ × ℝ} {s : Scale} {p : Tnfwc} {κ S : ℝ → ℝ} (hk : 0 < s.kpa)
    (hκ : ∀ R, 0 < R → κ R = ((hess (R / s.kpa) 0 p).1 + (hess (R / s.kpa) 0 p).2) / 2)
    {r : List ℝ} (hr : r.Pairwise (· < ·)) (h0 : ∀ x ∈ r, 0 < x) (h2 : 2 ≤ r.length) :
    ∃ g : List ℝ, logSlope2d hess s p r = .ok g ∧ g.length = r.length ∧ ∀ i < r.length, ∀ a b : ℝ,
      (∀ t ∈ Spec112.around r i, Spec112.Slope κ t (S t) ∧ a ≤ S t ∧ S t ≤ b) → a ≤ g.getD i 0 ∧ g.getD i 0 ≤ b := by
  have hx : (r.map (· / s.kpa)).Pairwise (· < ·) := by
    rw [List.pairwise_map]
    exact hr.imp fun h => by gcongr
  have h0' : ∀ x ∈ r.map (· / s.kpa), 0 < x := by
    intro x hx
    obtain ⟨y, hy, rfl⟩ := List.mem_map.1 hx
    have := h0 y hy
    positivity
  obtain ⟨g, hg, hl, hi⟩ := c112_array (ρ := convergence hess p) (S := fun x => S (x * s.kpa)) hx h0' (by simpa using h2)
  refine ⟨g, hg, by simpa using hl, ?_⟩
  intro i hii a b hb
  have hget : ∀ j < r.length, (r.map (· / s.kpa)).getD j 0 = r.getD j 0 / s.kpa := by
    intro j hj
    simp [List.getD_eq_getElem?_getD, List.getElem?_eq_getElem hj]
  have hp : 0 < r.getD (i - 1) 0 := by
    have hk : i - 1 < r.length := by omega
    rw [List.getD_eq_getElem?_getD, List.getElem?_eq_getElem hk]
    simpa using h0 _ (List.getElem_mem hk)
  apply hi i (by simpa using hii) a b
  intro t ht
  rw [Spec112.around, List.length_map, hget _ (by omega), hget _ (by omega)] at ht
  have ht' : t * s.kpa ∈ Spec112.around r i := ⟨(div_le_iff₀ hk).1 ht.1, (le_div_iff₀ hk).1 ht.2⟩
  have htp : 0 < t := (div_pos hp hk).trans_le ht.1
  obtain ⟨hd, hab⟩ := hb _ ht'
  refine ⟨?_, hab⟩
  unfold Spec112.Slope at hd ⊢
  have e : (fun u => Real.log (convergence hess p (Real.exp u))) = fun u => Real.log (κ (Real.exp (u + Real.log s.kpa))) := by
    funext u
    have : Real.exp (u + Real.log s.kpa) / s.kpa = Real.exp u := by
      rw [Real.exp_add, Real.exp_log hk, mul_div_cancel_right₀ _ hk.ne']
    rw [hκ _ (Real.exp_pos _), this, convergence]
    congr 1
    norm_num
    ring
  rw [e]
  have hc : HasDerivAt (fun u => u + Real.log s.kpa) 1 (Real.log t) := (hasDerivAt_id _).add_const _
  rw [Real.log_mul htp.ne' hk.ne'] at hd
  have hcomp := HasDerivAt.comp (Real.log t) hd hc
  rw [mul_one] at hcomp
  exact hcomp

example : ∃ g : List ℝ, logSlope2d (fun x _ _ => (x ^ (-(1 : ℝ)), x ^ (-(1 : ℝ)))) ⟨2, 1⟩ ⟨1, 1, 1, 1⟩ [1, 2, 7] = .ok g ∧ g.getD 1 0 = -1 := by
  obtain ⟨g, hg, hl, hi⟩ := c112_slope_2d (hess := fun x _ _ => (x ^ (-(1 : ℝ)), x ^ (-(1 : ℝ)))) (s := ⟨2, 1⟩) (p := ⟨1, 1, 1, 1⟩)
    (κ := fun R => 2 * R ^ (-(1 : ℝ))) (S := fun _ => -1) (by norm_num)
    (by intro R hR; rw [Real.rpow_neg_one, Real.rpow_neg_one]; field_simp; norm_num) (r := [1, 2, 7]) (by norm_num) (by norm_num) (by simp)
  have := hi 1 (by simp) (-1) (-1) fun t _ => ⟨power_slope (by norm_num) t, le_rfl, le_rfl⟩
  exact ⟨g, hg, le_antisymm this.2 this.1⟩

/-- The ratio of neighbouring radii of `mass_2d`. -/
theorem ratio_bound : (1 : ℝ) < 10 ^ ((3.5 : ℝ) / 4999) ∧ ((10 : ℝ) ^ ((3.5 : ℝ) / 4999)) ^ 2 ≤ 1.0033 := by
  constructor
  · exact Real.one_lt_rpow (by norm_num) (by norm_num)
  · rw [← Real.rpow_natCast, ← Real.rpow_mul (by norm_num)]
    have h : (10 : ℝ) ^ (7 : ℕ) ≤ 1.0033 ^ (4999 : ℕ) := by
      have h1 : (1.39 : ℝ) ≤ 1.0033 ^ (100 : ℕ) := by norm_num
      calc (10 : ℝ) ^ (7 : ℕ) ≤ 1.39 ^ (49 : ℕ) := by norm_num
        _ ≤ (1.0033 ^ (100 : ℕ)) ^ (49 : ℕ) := by gcongr
        _ = 1.0033 ^ (4900 : ℕ) := by rw [← pow_mul]
        _ ≤ 1.0033 ^ (4999 : ℕ) := pow_le_pow_right₀ (by norm_num) (by norm_num)
    have h2 : ((10 : ℝ) ^ (7 : ℕ)) ^ ((1 : ℝ) / 4999) ≤ ((1.0033 : ℝ) ^ (4999 : ℕ)) ^ ((1 : ℝ) / 4999) :=
      Real.rpow_le_rpow (by norm_num) h (by norm_num)
    rw [← Real.rpow_natCast, ← Real.rpow_natCast, ← Real.rpow_mul (by norm_num), ← Real.rpow_mul (by norm_num)] at h2
    norm_num at h2 ⊢
    exact h2

theorem root_bounds : (0.0003162 : ℝ) ≤ 10 ^ (-3.5 : ℝ) ∧ (10 : ℝ) ^ (-3.5 : ℝ) ≤ 0.0003163 := by
  have e : ((10 : ℝ) ^ (-3.5 : ℝ)) ^ 2 = 10 ^ (-7 : ℤ) := by
    rw [← Real.rpow_natCast, ← Real.rpow_mul (by norm_num), ← Real.rpow_intCast]
    norm_num
  have h0 : (0 : ℝ) < 10 ^ (-3.5 : ℝ) := by positivity
  norm_num at e
  constructor <;> nlinarith

theorem trapezoid_scaled (c : ℝ) (f : ℝ → ℝ) (l : List ℝ) :
    Collapsed.trapezoid ((l.map (c * ·)).map f) (l.map (c * ·)) = c * Collapsed.trapezoid (l.map fun x => f (c * x)) l := by
  match l with
  | [] => simp [Collapsed.trapezoid]
  | [x] => simp [Collapsed.trapezoid]
  | x :: y :: l =>
    have := trapezoid_scaled c f (y :: l)
    simp only [List.map_cons, Collapsed.trapezoid] at this ⊢
    rw [this]
    ring

theorem trapezoid_const_mul (c : ℝ) (f : ℝ → ℝ) (l : List ℝ) :
    Collapsed.trapezoid (l.map fun x => c * f x) l = c * Collapsed.trapezoid (l.map f) l := by
  match l with
  | [] => simp [Collapsed.trapezoid]
  | [x] => simp [Collapsed.trapezoid]
  | x :: y :: l =>
    have := trapezoid_const_mul c f (y :: l)
    simp only [List.map_cons, Collapsed.trapezoid] at this ⊢
    rw [this]
    ring

/-- The radii of `mass_2d` in kpc. -/
theorem radii_chain {rmax : ℝ} (hr : 0 < rmax) : ∃ rest : List ℝ,
    (Np.linspace (-3.5) 0 5000).map (fun u => (10 : ℝ) ^ u * rmax) = (10 ^ (-3.5 : ℝ) * rmax) :: rest ∧
    ((10 ^ (-3.5 : ℝ) * rmax) :: rest).IsChain (fun a b => b = 10 ^ ((3.5 : ℝ) / 4999) * a) ∧
    ((10 ^ (-3.5 : ℝ) * rmax) :: rest).getLast (by simp) = rmax := by
  have e : (Np.linspace (-3.5) 0 5000).map (fun u => (10 : ℝ) ^ u * rmax)
      = (List.range 5000).map fun i : ℕ => (10 : ℝ) ^ (-3.5 + (i : ℝ) * (3.5 / 4999)) * rmax := by
    rw [Np.linspace, List.map_map]
    apply List.map_congr_left
    intro i _
    simp only [Function.comp]
    norm_num
  have hc : ∀ n : ℕ, ((List.range n).map fun i : ℕ => (10 : ℝ) ^ (-3.5 + (i : ℝ) * (3.5 / 4999)) * rmax).IsChain
      (fun a b => b = 10 ^ ((3.5 : ℝ) / 4999) * a) := by
    intro n
    rw [List.isChain_map, List.isChain_range]
    intro m _
    have hexp : (-3.5 + ((m.succ : ℕ) : ℝ) * (3.5 / 4999)) = 3.5 / 4999 + (-3.5 + (m : ℝ) * (3.5 / 4999)) := by
      push_cast
      ring
    rw [hexp, Real.rpow_add (by norm_num), mul_assoc]
  have hlast : ((List.range (4999 + 1)).map fun i : ℕ => (10 : ℝ) ^ (-3.5 + (i : ℝ) * (3.5 / 4999)) * rmax).getLast?
      = some rmax := by
    rw [List.range_succ, List.map_append]
    simp only [List.map_cons, List.map_nil, List.getLast?_append, List.getLast?_singleton, Option.some_or]
    rw [show (-3.5 + ((4999 : ℕ) : ℝ) * (3.5 / 4999)) = 0 by norm_num]
    simp
  have hhead : List.range 5000 = 0 :: (List.range 4999).map Nat.succ := List.range_succ_eq_map
  rw [e]
  have hh : ((List.range 5000).map fun i : ℕ => (10 : ℝ) ^ (-3.5 + (i : ℝ) * (3.5 / 4999)) * rmax)
      = (10 ^ (-3.5 : ℝ) * rmax) :: (((List.range 4999).map Nat.succ).map fun i : ℕ => (10 : ℝ) ^ (-3.5 + (i : ℝ) * (3.5 / 4999)) * rmax) := by
    rw [hhead, List.map_cons]
    simp
  refine ⟨_, hh, by rw [← hh]; exact hc 5000, ?_⟩
  have h2 := hlast
  change ((List.range 5000).map fun i : ℕ => (10 : ℝ) ^ (-3.5 + (i : ℝ) * (3.5 / 4999)) * rmax).getLast? = some rmax at h2
  rw [hh, List.getLast?_eq_some_getLast (by simp)] at h2
  exact Option.some.inj h2

/-- **C113**. `mass_2d(rmax)` of a cored and truncated halo, in solar masses for `rmax` in kpc. Let `sd` be the surface density, the
convergence times the critical surface density, not negative and falling outwards. Then `mass_2d` exceeds the true projected mass
between `0.0003 rmax` and `rmax` by at most 0.33 percent, and it is at least 1/1.0033 of the mass between `0.00032 rmax` and `rmax`. -/
theorem c113_mass_2d {hess : ℝ → ℝ → Tnfwc → ℝ × ℝ} {s : Scale} {p : Tnfwc} {sd : ℝ → ℝ} {rmax : ℝ} (hk : 0 < s.kpa) (hr : 0 < rmax)
    (hsd : ∀ R, 0 < R → sd R = s.sigmaCrit / 10 ^ 6 * (((hess (R / s.kpa) 0 p).1 + (hess (R / s.kpa) 0 p).2) / 2))
    (hpos : ∀ R, 0 < R → 0 ≤ sd R) (hanti : AntitoneOn sd (Set.Ioi 0)) :
    mass2d hess s p rmax ≤ 1.0033 * Spec112.projected sd (0.0003 * rmax) rmax ∧
    Spec112.projected sd (0.00032 * rmax) rmax ≤ 1.0033 * mass2d hess s p rmax := by
  have hpi := Real.pi_pos
  obtain ⟨q1, q2⟩ := ratio_bound
  obtain ⟨b1, b2⟩ := root_bounds
  set q : ℝ := 10 ^ ((3.5 : ℝ) / 4999)
  have hq0 : 0 < q := by linarith
  obtain ⟨rest, e, hc, hl⟩ := radii_chain hr
  set x₀ : ℝ := 10 ^ (-3.5 : ℝ) * rmax with hx₀
  have hx0 : 0 < x₀ := by positivity
  have hmass : mass2d hess s p rmax = Collapsed.trapezoid ((x₀ :: rest).map fun R => sd R * 2 * Real.pi * R) (x₀ :: rest) := by
    have hrad : radii2d s rmax = (x₀ :: rest).map (s.kpa⁻¹ * ·) := by
      rw [← e, List.map_map, radii2d]
      apply List.map_congr_left
      intro u _
      simp only [Function.comp]
      field_simp
    have hall : ∀ R ∈ x₀ :: rest, 0 < R := by
      rw [← e]
      intro R hR
      obtain ⟨u, _, rfl⟩ := List.mem_map.1 hR
      positivity
    unfold mass2d
    simp only
    rw [hrad, trapezoid_scaled]
    have e2 : ((x₀ :: rest).map fun R => sd R * 2 * Real.pi * R)
        = (x₀ :: rest).map fun R => s.sigmaCrit / 10 ^ 6 * s.kpa * (convergence hess p (s.kpa⁻¹ * R) * 2 * Real.pi * (s.kpa⁻¹ * R)) := by
      apply List.map_congr_left
      intro R hR
      rw [hsd R (hall R hR), convergence, show s.kpa⁻¹ * R = R / s.kpa by ring]
      field_simp
      norm_num
      ring
    rw [e2, trapezoid_const_mul]
    have : s.kpa⁻¹ * s.kpa ^ 2 = s.kpa := by field_simp
    linear_combination (s.sigmaCrit / 10 ^ 6 * Collapsed.trapezoid
      ((x₀ :: rest).map fun R => convergence hess p (s.kpa⁻¹ * R) * 2 * Real.pi * (s.kpa⁻¹ * R)) (x₀ :: rest)) * this
  obtain ⟨t1, t2, _⟩ := trapezoid_geometric q1 hanti rest x₀ hx0 hc
  rw [hl] at t1 t2
  rw [← hmass] at t1 t2
  have hqle : q ≤ 1.0033 := by nlinarith
  have sub : ∀ {a b : ℝ}, 0 < a → a ≤ b → 0 ≤ ∫ R in a..b, 2 * Real.pi * R * sd R := by
    intro a b ha h
    apply intervalIntegral.integral_nonneg h
    intro R hR
    have h0 : 0 < R := ha.trans_le hR.1
    exact mul_nonneg (mul_nonneg (mul_nonneg zero_le_two hpi.le) h0.le) (hpos R h0)
  have widen : ∀ {a b c d : ℝ}, 0 < a → a ≤ b → b ≤ c → c ≤ d →
      (∫ R in b..c, 2 * Real.pi * R * sd R) ≤ ∫ R in a..d, 2 * Real.pi * R * sd R := by
    intro a b c d ha hab hbc hcd
    have k1 := (panel ha hab hanti).1
    have k2 := (panel (ha.trans_le hab) hbc hanti).1
    have k3 := (panel (ha.trans_le (hab.trans hbc)) hcd hanti).1
    rw [← intervalIntegral.integral_add_adjacent_intervals k1 (k2.trans k3),
      ← intervalIntegral.integral_add_adjacent_intervals k2 k3]
    have := sub ha hab
    have := sub (ha.trans_le (hab.trans hbc)) hcd
    linarith
  have h1 : 0.0003 * rmax ≤ x₀ / q := by
    rw [le_div_iff₀ hq0]
    have : 0.0003 * q ≤ 10 ^ (-3.5 : ℝ) := by linarith
    nlinarith
  have h2 : x₀ * q ≤ 0.00032 * rmax := by
    have : 10 ^ (-3.5 : ℝ) * q ≤ 0.00032 := by nlinarith
    nlinarith
  have h3 : rmax / q ≤ rmax := div_le_self hr.le q1.le
  have h4 : x₀ / q ≤ rmax / q := by gcongr; nlinarith
  have h5 : rmax ≤ q * rmax := by nlinarith
  constructor
  · refine t1.trans ?_
    have w := widen (by positivity) h1 h4 h3
    have := sub (a := x₀ / q) (b := rmax / q) (by positivity) h4
    unfold Spec112.projected
    nlinarith
  · have w := widen (a := q * x₀) (b := 0.00032 * rmax) (c := rmax) (d := q * rmax) (by positivity) (by linarith) (by linarith) h5
    have h0 : 0 ≤ mass2d hess s p rmax := by
      have := sub (a := q * x₀) (b := q * rmax) (by positivity) (by nlinarith)
      have : 0 ≤ q ^ 2 * mass2d hess s p rmax := this.trans t2
      exact nonneg_of_mul_nonneg_right this (by positivity)
    unfold Spec112.projected
    nlinarith

/-- A uniform sheet of 3 solar masses per square kpc. -/
example : mass2d (fun _ _ _ => (1, 1)) ⟨2, 3000000⟩ ⟨1, 1, 1, 1⟩ 10 ≤ 1.0033 * Spec112.projected (fun _ => 3) (0.0003 * 10) 10 :=
  (c113_mass_2d (sd := fun _ => 3) (by norm_num) (by norm_num) (by intro R _; norm_num) (by intros; norm_num) (fun _ _ _ _ _ => le_rfl)).1

end PyHalo.Props
