import Verif.Model.MassLoss
import Verif.Lemmas.Grid
import Verif.Lemmas.Interp
import Mathlib.Tactic

/-!
# C30, C31: tidal mass loss
-/

namespace PyHalo
namespace Props
open MassLoss MassLossTables

/-! ## Helpers -/

theorem entry_bounds {l : List ℕ} {n lo hi : ℕ} (hl : l.length = n * n * n)
    (hb : (l.all fun x => Nat.ble lo x && Nat.ble x hi) = true) {i j k : ℕ} (hi' : i < n)
    (hj : j < n) (hk : k < n) :
    (lo : ℝ) / 1000 ≤ entry n l i j k ∧ entry n l i j k ≤ (hi : ℝ) / 1000 := by
  have hlt : (i * n + j) * n + k < l.length := by
    rw [hl]
    have h1 : i * n + j + 1 ≤ n * n := by
      have : (i + 1) * n ≤ n * n := Nat.mul_le_mul_right n hi'
      nlinarith
    have h2 : (i * n + j + 1) * n ≤ n * n * n := Nat.mul_le_mul_right n h1
    nlinarith
  rw [List.all_eq_true] at hb
  have := hb _ (List.getElem_mem hlt)
  simp only [Bool.and_eq_true, Nat.ble_eq] at this
  have hg : l.getD ((i * n + j) * n + k) 0 = l[(i * n + j) * n + k] := by
    rw [List.getD_eq_getElem?_getD, List.getElem?_eq_getElem hlt]; rfl
  unfold entry
  rw [hg]
  constructor
  · have : (lo : ℝ) ≤ (l[(i * n + j) * n + k] : ℕ) := by exact_mod_cast this.1
    linarith [div_le_div_of_nonneg_right this (by norm_num : (0:ℝ) ≤ 1000)]
  · have : ((l[(i * n + j) * n + k] : ℕ) : ℝ) ≤ hi := by exact_mod_cast this.2
    linarith [div_le_div_of_nonneg_right this (by norm_num : (0:ℝ) ≤ 1000)]

theorem clip_mem {v lo hi : ℝ} (h : lo ≤ hi) : lo ≤ Np.clip v lo hi ∧ Np.clip v lo hi ≤ hi :=
  ⟨le_min (le_max_right _ _) h, min_le_right _ _⟩

theorem clip_of_mem {v lo hi : ℝ} (h0 : lo ≤ v) (h1 : v ≤ hi) : Np.clip v lo hi = v := by
  unfold Np.clip
  rw [max_eq_left h0, min_eq_left h1]

theorem logb_two_lt {x : ℝ} (h : 2 < x) : Real.logb 10 2 < Real.logb 10 x :=
  Real.logb_lt_logb (by norm_num) (by norm_num) h

theorem inside_linspace {a b x : ℝ} {n : ℕ} (hn : 2 ≤ n) (h0 : a ≤ x) (h1 : x ≤ b) :
    (Np.Axis.linspace a b n).Inside x := by
  refine ⟨?_, ?_⟩
  · rw [Np.linspace_zero]; exact h0
  · have := Np.linspace_last a b hn
    show x ≤ (Np.Axis.linspace a b n).g (n - 1)
    rw [this]; exact h1

/-- A class of interpolated parameters whose clamps keep it inside its axes, with the bounds of its
tables (in thousandths). -/
structure Sound (J : Johnson) (aLo aHi bLo bHi : ℕ) : Prop where
  tn : J.t.n = 15
  cn : J.c.n = 15
  hn : J.h.n = 15
  t : J.t.Ok
  c : J.c.Ok
  h : J.h.Ok
  tIn : ∀ x, J.tLo ≤ x → x ≤ J.tHi → J.t.Inside x
  cIn : ∀ x, J.cLo ≤ x → x ≤ J.cHi → J.c.Inside x
  hIn : ∀ x, J.hLo ≤ x → x ≤ J.hHi → J.h.Inside x
  tLe : J.tLo ≤ J.tHi
  cLe : J.cLo ≤ J.cHi
  hLe : J.hLo ≤ J.hHi
  al : J.a.length = 15 * 15 * 15
  bl : J.b.length = 15 * 15 * 15
  ab : (J.a.all fun x => Nat.ble aLo x && Nat.ble x aHi) = true
  bb : (J.b.all fun x => Nat.ble bLo x && Nat.ble x bHi) = true

theorem Sound.params {J : Johnson} {aLo aHi bLo bHi : ℕ} (S : Sound J aLo aHi bLo bHi)
    {t x h : ℝ} (ht : J.t.Inside t) (hx : J.c.Inside x) (hh : J.h.Inside h) :
    ((aLo : ℝ) / 1000 ≤ (J.params t x h).1 ∧ (J.params t x h).1 ≤ (aHi : ℝ) / 1000) ∧
    ((bLo : ℝ) / 1000 ≤ (J.params t x h).2 ∧ (J.params t x h).2 ≤ (bHi : ℝ) / 1000) := by
  refine ⟨?_, ?_⟩
  · refine Np.grid3_mem S.t S.c S.h ?_ ht hx hh
    intro i j k hi hj hk
    rw [S.tn] at hi; rw [S.cn] at hj; rw [S.hn] at hk
    exact entry_bounds S.al S.ab hi hj hk
  · refine Np.grid3_mem S.t S.c S.h ?_ ht hx hh
    intro i j k hi hj hk
    rw [S.tn] at hi; rw [S.cn] at hj; rw [S.hn] at hk
    exact entry_bounds S.bl S.bb hi hj hk

theorem Sound.call {J : Johnson} {aLo aHi bLo bHi : ℕ} (S : Sound J aLo aHi bLo bHi)
    (x t h : ℝ) : ∃ a b : ℝ, ((aLo : ℝ) / 1000 ≤ a ∧ a ≤ (aHi : ℝ) / 1000) ∧
      ((bLo : ℝ) / 1000 ≤ b ∧ b ≤ (bHi : ℝ) / 1000) ∧
      ∀ u, J.call x t h u = min (Real.sinh ((u - a) / b)) 0 := by
  have ht := clip_mem (v := t) S.tLe
  have hx := clip_mem (v := x) S.cLe
  have hh := clip_mem (v := h) S.hLe
  have := S.params (S.tIn _ ht.1 ht.2) (S.cIn _ hx.1 hx.2) (S.hIn _ hh.1 hh.2)
  exact ⟨_, _, this.1, this.2, fun u => rfl⟩

theorem galacticus_sound : Sound galacticus 2016 8202 1555 27189 where
  tn := rfl
  cn := rfl
  hn := rfl
  t := Np.linspace_ok (by norm_num) (by norm_num)
  c := Np.linspace_ok (logb_two_lt (by norm_num)) (by norm_num)
  h := Np.linspace_ok (by norm_num) (by norm_num)
  tIn := fun x h0 h1 => inside_linspace (by norm_num) h0 h1
  cIn := fun x h0 h1 => inside_linspace (by norm_num) h0 h1
  hIn := fun x h0 h1 => inside_linspace (by norm_num) h0 (le_trans h1 (by norm_num [galacticus]))
  tLe := by norm_num [galacticus]
  cLe := (logb_two_lt (by norm_num)).le
  hLe := by norm_num [galacticus]
  al := aFit_length
  bl := bFit_length
  ab := aFit_bounds
  bb := bFit_bounds

theorem zinfall_axes : zinfall.t.Ok ∧ zinfall.c.Ok ∧ zinfall.h.Ok :=
  ⟨Np.linspace_ok (by norm_num) (by norm_num),
   Np.linspace_ok (logb_two_lt (by norm_num)) (by norm_num),
   Np.linspace_ok (by norm_num) (by norm_num)⟩

/-! ## C30 -/

/-- C30 for the default model (time since infall).  Whatever the concentration, time and host
concentration - including values outside the tables - the logarithm of the bound fraction is a
Johnson draw cut at zero whose parameters are between the smallest and the largest table entry:
nothing is extrapolated and no bound mass exceeds the infall mass. -/
theorem c30_galacticus (log10c t chost : ℝ) :
    (∀ u, galacticus.call log10c t chost u ≤ 0) ∧
    ∃ a b : ℝ, (2.016 ≤ a ∧ a ≤ 8.202) ∧ (1.555 ≤ b ∧ b ≤ 27.189) ∧
      ∀ u, galacticus.call log10c t chost u = min (Real.sinh ((u - a) / b)) 0 := by
  refine ⟨fun u => min_le_right _ _, ?_⟩
  obtain ⟨a, b, ha, hb, h⟩ := galacticus_sound.call log10c t chost
  refine ⟨a, b, ?_, ?_, h⟩
  · constructor
    · refine le_trans (by norm_num) ha.1
    · refine le_trans ha.2 (by norm_num)
  · constructor
    · refine le_trans (by norm_num) hb.1
    · refine le_trans hb.2 (by norm_num)

/-- C30 for the Milky Way model: the same for each of the three volumes, and any other volume is
rejected. -/
theorem c30_milky_way (rmax : ℝ) :
    (rmax = 30 ∨ rmax = 50 ∨ rmax = 200 → ∃ J, milkyWay rmax = .ok J ∧ ∀ log10c t chost,
      (∀ u, J.call log10c t chost u ≤ 0) ∧
      ∃ a b : ℝ, (2.101 ≤ a ∧ a ≤ 7.858) ∧ (1.842 ≤ b ∧ b ≤ 16.234) ∧
        ∀ u, J.call log10c t chost u = min (Real.sinh ((u - a) / b)) 0) ∧
    (¬ (rmax = 30 ∨ rmax = 50 ∨ rmax = 200) →
      milkyWay rmax = .error (.valueError "rmax must be 30 or 80 kpc")) := by
  constructor
  · intro h
    have key : ∀ (a b : List ℕ) (aLo aHi bLo bHi : ℕ), a.length = 15 * 15 * 15 →
        b.length = 15 * 15 * 15 → (a.all fun x => Nat.ble aLo x && Nat.ble x aHi) = true →
        (b.all fun x => Nat.ble bLo x && Nat.ble x bHi) = true →
        Sound
          { t := .linspace 0 12.9 15
            c := .linspace (Real.logb 10 2) (Real.logb 10 128) 15
            h := .linspace 6 12 15
            a := a
            b := b
            tLo := 0
            tHi := 12.9
            cLo := Real.logb 10 2
            cHi := Real.logb 10 128
            hLo := 6
            hHi := 12 } aLo aHi bLo bHi := by
      intro a b aLo aHi bLo bHi h1 h2 h3 h4
      exact
        { tn := rfl
          cn := rfl
          hn := rfl
          t := Np.linspace_ok (by norm_num) (by norm_num)
          c := Np.linspace_ok (logb_two_lt (by norm_num)) (by norm_num)
          h := Np.linspace_ok (by norm_num) (by norm_num)
          tIn := fun x h0 h1 => inside_linspace (by norm_num) h0 h1
          cIn := fun x h0 h1 => inside_linspace (by norm_num) h0 h1
          hIn := fun x h0 h1 => inside_linspace (by norm_num) h0 h1
          tLe := by norm_num
          cLe := (logb_two_lt (by norm_num)).le
          hLe := by norm_num
          al := h1
          bl := h2
          ab := h3
          bb := h4 }
    rcases h with h | h | h
    · subst h
      refine ⟨_, by simp [milkyWay]; rfl, fun log10c t chost => ⟨fun u => min_le_right _ _, ?_⟩⟩
      obtain ⟨a, b, ha, hb, h⟩ := (key aFit30 bFit30 _ _ _ _ aFit30_length bFit30_length
        aFit30_bounds bFit30_bounds).call log10c t chost
      exact ⟨a, b, ⟨le_trans (by norm_num) ha.1, le_trans ha.2 (by norm_num)⟩,
        ⟨le_trans (by norm_num) hb.1, le_trans hb.2 (by norm_num)⟩, h⟩
    · subst h
      refine ⟨_, by unfold milkyWay; dsimp only; rw [if_neg (by norm_num), if_pos rfl], fun log10c t chost => ⟨fun u => min_le_right _ _, ?_⟩⟩
      obtain ⟨a, b, ha, hb, h⟩ := (key aFit50 bFit50 _ _ _ _ aFit50_length bFit50_length
        aFit50_bounds bFit50_bounds).call log10c t chost
      exact ⟨a, b, ⟨le_trans (by norm_num) ha.1, le_trans ha.2 (by norm_num)⟩,
        ⟨le_trans (by norm_num) hb.1, le_trans hb.2 (by norm_num)⟩, h⟩
    · subst h
      refine ⟨_, by unfold milkyWay; dsimp only; rw [if_neg (by norm_num), if_neg (by norm_num), if_pos rfl], fun log10c t chost => ⟨fun u => min_le_right _ _, ?_⟩⟩
      obtain ⟨a, b, ha, hb, h⟩ := (key aFit200 bFit200 _ _ _ _ aFit200_length bFit200_length
        aFit200_bounds bFit200_bounds).call log10c t chost
      exact ⟨a, b, ⟨le_trans (by norm_num) ha.1, le_trans ha.2 (by norm_num)⟩,
        ⟨le_trans (by norm_num) hb.1, le_trans hb.2 (by norm_num)⟩, h⟩
  · intro h
    push Not at h
    simp [milkyWay, h.1, h.2.1, h.2.2]

/-- C30, what the default model computes: at a node of the table (time index `i`, concentration
index `j`, host concentration index `k` up to 8, the upper clamp) the draw uses exactly the tabulated
pair. -/
theorem c30_galacticus_nodes {i j k : ℕ} (hi : i < 15) (hj : j < 15) (hk : k ≤ 11) (u : ℝ) :
    galacticus.call
      (Real.logb 10 2 + j * ((Real.logb 10 384 - Real.logb 10 2) / 14)) (i * (8.1 / 14))
      (4 + k * (5 / 14)) u
    = min (Real.sinh ((u - (aFit.getD (225 * i + 15 * j + k) 0 : ℝ) / 1000)
        / ((bFit.getD (225 * i + 15 * j + k) 0 : ℝ) / 1000))) 0 := by
  have hi' : (i : ℝ) ≤ 14 := by exact_mod_cast (show i ≤ 14 by omega)
  have hj' : (j : ℝ) ≤ 14 := by exact_mod_cast (show j ≤ 14 by omega)
  have hk' : (k : ℝ) ≤ 11 := by exact_mod_cast hk
  have hi0 : (0 : ℝ) ≤ i := Nat.cast_nonneg i
  have hj0 : (0 : ℝ) ≤ j := Nat.cast_nonneg j
  have hk0 : (0 : ℝ) ≤ k := Nat.cast_nonneg k
  have hl : Real.logb 10 2 < Real.logb 10 384 := logb_two_lt (by norm_num)
  unfold Johnson.call
  rw [clip_of_mem (v := (i : ℝ) * (8.1 / 14)) (by show (0:ℝ) ≤ _; positivity)
      (by show _ ≤ (8.1 : ℝ); norm_num; nlinarith)]
  rw [clip_of_mem (v := Real.logb 10 2 + j * ((Real.logb 10 384 - Real.logb 10 2) / 14))
      (by show Real.logb 10 2 ≤ _
          have : 0 ≤ (j : ℝ) * ((Real.logb 10 384 - Real.logb 10 2) / 14) :=
            mul_nonneg hj0 (by linarith)
          linarith)
      (by show _ ≤ Real.logb 10 384
          have : (j : ℝ) * ((Real.logb 10 384 - Real.logb 10 2) / 14)
              ≤ 14 * ((Real.logb 10 384 - Real.logb 10 2) / 14) :=
            mul_le_mul_of_nonneg_right hj' (by linarith)
          linarith)]
  rw [clip_of_mem (v := 4 + (k : ℝ) * (5 / 14)) (by show (4:ℝ) ≤ _; nlinarith)
      (by show _ ≤ (8 : ℝ); nlinarith)]
  have e1 : (i : ℝ) * (8.1 / 14) = galacticus.t.g i := by
    show _ = (0 : ℝ) + i * ((8.1 - 0) / (((15 : ℕ) : ℝ) - 1)); norm_num
  have e2 : Real.logb 10 2 + j * ((Real.logb 10 384 - Real.logb 10 2) / 14) = galacticus.c.g j := by
    show _ = Real.logb 10 2 + (j : ℝ) * ((Real.logb 10 384 - Real.logb 10 2) / (((15 : ℕ) : ℝ) - 1))
    norm_num
  have e3 : 4 + (k : ℝ) * (5 / 14) = galacticus.h.g k := by
    show _ = (4 : ℝ) + k * ((9 - 4) / (((15 : ℕ) : ℝ) - 1)); norm_num
  have S := galacticus_sound
  unfold Johnson.params johnsonDraw
  rw [e1, e2, e3,
    Np.grid3_node S.t S.c S.h _ (by rw [S.tn]; exact hi) (by rw [S.cn]; exact hj)
      (by rw [S.hn]; omega),
    Np.grid3_node S.t S.c S.h _ (by rw [S.tn]; exact hi) (by rw [S.cn]; exact hj)
      (by rw [S.hn]; omega)]
  have e : (i * 15 + j) * 15 + k = 225 * i + 15 * j + k := by ring
  unfold entry
  rw [e]
  rfl

/-- C30: a larger random variate never means less bound mass, and the bound mass is positive and at
most the infall mass. -/
theorem c30_bound_mass (log10c t chost : ℝ) {mass : ℝ} (hm : 0 < mass) :
    (∀ u, 0 < boundMass mass (galacticus.call log10c t chost u) ∧
      boundMass mass (galacticus.call log10c t chost u) ≤ mass) ∧
    (∀ u v, u ≤ v → boundMass mass (galacticus.call log10c t chost u)
      ≤ boundMass mass (galacticus.call log10c t chost v)) := by
  obtain ⟨h0, a, b, ha, hb, h⟩ := c30_galacticus log10c t chost
  refine ⟨fun u => ⟨?_, ?_⟩, fun u v huv => ?_⟩
  · unfold boundMass; positivity
  · unfold boundMass
    have : (10 : ℝ) ^ galacticus.call log10c t chost u ≤ 1 :=
      Real.rpow_le_one_of_one_le_of_nonpos (by norm_num) (h0 u)
    nlinarith
  · unfold boundMass
    refine mul_le_mul_of_nonneg_left ?_ hm.le
    refine Real.rpow_le_rpow_of_exponent_le (by norm_num) ?_
    rw [h, h]
    refine min_le_min_right _ (Real.sinh_le_sinh.mpr ?_)
    have : 0 < b := by linarith [hb.1]
    gcongr

example := c30_bound_mass 1 3 5 (mass := 10 ^ 8) (by norm_num)

/-- C30 for the infall-redshift model: never positive; within the table range of the elapsed redshift
(at most 8.1) nothing is extrapolated.  The property asks this for every input; see
`c30_zinfall_extrapolates`. -/
theorem c30_zinfall_partial (log10c dz chost : ℝ) :
    (∀ u, zinfall.call log10c dz chost u ≤ 0) ∧
    (dz ≤ 8.1 → ∃ a b : ℝ, (2 ≤ a ∧ a ≤ 7.167) ∧ (1.502 ≤ b ∧ b ≤ 20.455) ∧
      ∀ u, zinfall.call log10c dz chost u = min (Real.sinh ((u - a) / b)) 0) := by
  refine ⟨fun u => min_le_right _ _, fun hd => ?_⟩
  have S : Sound { zinfall with tHi := 8.1 } 2000 7167 1502 20455 :=
    { tn := rfl
      cn := rfl
      hn := rfl
      t := zinfall_axes.1
      c := zinfall_axes.2.1
      h := zinfall_axes.2.2
      tIn := fun x h0 h1 => inside_linspace (by norm_num)
        (le_trans (by norm_num [zinfall]) h0) h1
      cIn := fun x h0 h1 => inside_linspace (by norm_num) h0 h1
      hIn := fun x h0 h1 => inside_linspace (by norm_num) h0 (le_trans h1 (by norm_num [zinfall]))
      tLe := by norm_num [zinfall]
      cLe := (logb_two_lt (by norm_num)).le
      hLe := by norm_num [zinfall]
      al := aFitZ_length
      bl := bFitZ_length
      ab := aFitZ_bounds
      bb := bFitZ_bounds }
  obtain ⟨a, b, ha, hb, h⟩ := S.call log10c dz chost
  refine ⟨a, b, ⟨le_trans (by norm_num) ha.1, le_trans ha.2 (by norm_num)⟩,
    ⟨le_trans (by norm_num) hb.1, le_trans hb.2 (by norm_num)⟩, fun u => ?_⟩
  rw [← h u]
  have e : Np.clip dz zinfall.tLo zinfall.tHi = Np.clip dz zinfall.tLo 8.1 := by
    unfold Np.clip
    have h1 : max dz zinfall.tLo ≤ 8.1 := max_le hd (by norm_num [zinfall])
    rw [min_eq_left h1, min_eq_left (le_trans h1 (by norm_num [zinfall]))]
  unfold Johnson.call
  rw [e]
  rfl

theorem zinfall_last_cell {x : ℝ} (hx : 8.1 ≤ x) :
    zinfall.t.cell x = 13 ∧ zinfall.t.frac x = 1 + (x - 8.1) * (14 / 8.1) := by
  have h1 : zinfall.t.g (zinfall.t.n - 1) ≤ x := by
    show (Np.Axis.linspace 0 8.1 15).g (15 - 1) ≤ x
    rw [Np.linspace_last _ _ (by norm_num)]; exact hx
  have hc : zinfall.t.cell x = 13 := zinfall_axes.1.cell_above h1
  refine ⟨hc, ?_⟩
  unfold Np.Axis.frac
  rw [hc]
  have e13 : zinfall.t.g 13 = 8.1 * (13 / 14) := by
    show (0 : ℝ) + (13 : ℕ) * ((8.1 - 0) / (((15 : ℕ) : ℝ) - 1)) = _; norm_num
  have e14 : zinfall.t.g (13 + 1) = 8.1 := by
    show (0 : ℝ) + (13 + 1 : ℕ) * ((8.1 - 0) / (((15 : ℕ) : ℝ) - 1)) = _; norm_num
  rw [e13, e14]
  field_simp
  ring

/-- Where the code violates C30: with a redshift difference of 9.5, the lower clamp of the
concentration and a host concentration up to 4 the parameter `a` is 0.6013..., although no table entry
is below 2 (the elapsed redshift is clamped to 9.5 but the table ends at 8.1). -/
theorem c30_zinfall_extrapolates {log10c dz chost : ℝ} (hc : log10c ≤ Real.logb 10 2)
    (hd : 9.5 ≤ dz) (hh : chost ≤ 4) :
    (∃ b, b = (2.0 : ℝ) - (9.5 - 8.1) * (14 / 8.1) * 0.058 ∧
      ∀ u, zinfall.call log10c dz chost u
        = min (Real.sinh ((u - (2.0 - (9.5 - 8.1) * (14 / 8.1) * 0.578)) / b)) 0) ∧
    ((2.0 : ℝ) - (9.5 - 8.1) * (14 / 8.1) * 0.578 < 0.602) ∧
    ∀ x ∈ aFitZ, 2000 ≤ x := by
  have ec : Np.clip log10c zinfall.cLo zinfall.cHi = zinfall.c.g 0 := by
    unfold Np.clip
    have h1 : max log10c zinfall.cLo = zinfall.cLo := max_eq_right hc
    rw [h1, min_eq_left (show zinfall.cLo ≤ zinfall.cHi from (logb_two_lt (by norm_num)).le)]
    show Real.logb 10 2 = (Np.Axis.linspace (Real.logb 10 2) (Real.logb 10 384) 15).g 0
    rw [Np.linspace_zero]
  have eh : Np.clip chost zinfall.hLo zinfall.hHi = zinfall.h.g 0 := by
    unfold Np.clip
    have h1 : max chost zinfall.hLo = zinfall.hLo := max_eq_right hh
    rw [h1, min_eq_left (by norm_num [zinfall])]
    show (4 : ℝ) = (Np.Axis.linspace 4 9 15).g 0
    rw [Np.linspace_zero]
  have et : Np.clip dz zinfall.tLo zinfall.tHi = 9.5 := by
    unfold Np.clip
    exact min_eq_right (le_trans hd (le_max_left _ _))
  obtain ⟨h1, h2⟩ := zinfall_last_cell (x := 9.5) (by norm_num)
  refine ⟨⟨_, rfl, fun u => ?_⟩, by norm_num, ?_⟩
  · unfold Johnson.call Johnson.params johnsonDraw
    rw [et, ec, eh,
      Np.grid3_first zinfall_axes.2.1 zinfall_axes.2.2 _ _ (by show 0 < 15; norm_num)
        (by show 0 < 15; norm_num),
      Np.grid3_first zinfall_axes.2.1 zinfall_axes.2.2 _ _ (by show 0 < 15; norm_num)
        (by show 0 < 15; norm_num), h1, h2]
    have a13 : aFitZ.getD ((13 * 15 + 0) * 15 + 0) 0 = 2578 := by decide +kernel
    have a14 : aFitZ.getD (((13 + 1) * 15 + 0) * 15 + 0) 0 = 2000 := by decide +kernel
    have b13 : bFitZ.getD ((13 * 15 + 0) * 15 + 0) 0 = 2058 := by decide +kernel
    have b14 : bFitZ.getD (((13 + 1) * 15 + 0) * 15 + 0) 0 = 2000 := by decide +kernel
    show min (Real.sinh ((u - Np.lerp _ (entry 15 aFitZ 13 0 0) (entry 15 aFitZ (13 + 1) 0 0))
      / Np.lerp _ (entry 15 bFitZ 13 0 0) (entry 15 bFitZ (13 + 1) 0 0))) 0 = _
    unfold entry
    rw [a13, a14, b13, b14]
    norm_num [Np.lerp]
  · intro x hx
    have := List.all_eq_true.mp aFitZ_bounds x hx
    simp only [Bool.and_eq_true, Nat.ble_eq] at this
    exact this.1

theorem zinfall_b_check : (((bFitZ.drop 2925).zip (bFitZ.drop 3150)).all fun p => Nat.ble 400 p.2 &&
    Nat.ble (3 * p.1 + 400) (4 * p.2)) = true := by
  decide +kernel

theorem zinfall_b_tail {i : ℕ} (hi : i < 225) : 400 ≤ bFitZ.getD (3150 + i) 0 ∧
    3 * bFitZ.getD (2925 + i) 0 + 400 ≤ 4 * bFitZ.getD (3150 + i) 0 := by
  have hl := bFitZ_length
  have h1 : 2925 + i < bFitZ.length := by rw [hl]; omega
  have h2 : 3150 + i < bFitZ.length := by rw [hl]; omega
  have hz : i < ((bFitZ.drop 2925).zip (bFitZ.drop 3150)).length := by
    rw [List.length_zip, List.length_drop, List.length_drop, hl]; omega
  have := List.all_eq_true.mp zinfall_b_check _ (List.getElem_mem hz)
  rw [List.getElem_zip] at this
  simp only [List.getElem_drop, Bool.and_eq_true, Nat.ble_eq] at this
  rw [List.getD_eq_getElem?_getD, List.getD_eq_getElem?_getD, List.getElem?_eq_getElem h1,
    List.getElem?_eq_getElem h2]
  exact this

/-- C30 for the infall-redshift model, every input: even where it extrapolates the scale parameter
stays positive, so the draw is well defined and grows with the variate. -/
theorem c30_zinfall_monotone (log10c dz chost : ℝ) :
    ∃ a b : ℝ, 0 < b ∧ ∀ u, zinfall.call log10c dz chost u = min (Real.sinh ((u - a) / b)) 0 := by
  rcases le_or_gt dz 8.1 with hd | hd
  · obtain ⟨a, b, _, hb, h⟩ := (c30_zinfall_partial log10c dz chost).2 hd
    exact ⟨a, b, by linarith [hb.1], h⟩
  · refine ⟨_, _, ?_, fun u => rfl⟩
    set t := Np.clip dz zinfall.tLo zinfall.tHi with ht
    have ht1 : 8.1 ≤ t := by
      refine le_min (le_trans hd.le (le_max_left _ _)) ?_
      show (8.1 : ℝ) ≤ 9.5
      norm_num
    have ht2 : t ≤ 9.5 := min_le_right _ _
    have hx := clip_mem (v := log10c) (show zinfall.cLo ≤ zinfall.cHi from (logb_two_lt (by norm_num)).le)
    have hh := clip_mem (v := chost) (show zinfall.hLo ≤ zinfall.hHi by norm_num [zinfall])
    set x := Np.clip log10c zinfall.cLo zinfall.cHi
    set h := Np.clip chost zinfall.hLo zinfall.hHi
    have hxi : zinfall.c.Inside x := inside_linspace (by norm_num) hx.1 hx.2
    have hhi : zinfall.h.Inside h :=
      inside_linspace (by norm_num) hh.1 (le_trans hh.2 (by norm_num [zinfall]))
    obtain ⟨h1, h2⟩ := zinfall_last_cell ht1
    have hsp := zinfall_axes.2.1.cell_spec hxi
    have hsq := zinfall_axes.2.2.cell_spec hhi
    have fx := zinfall_axes.2.1.frac_mem hxi
    have fh := zinfall_axes.2.2.frac_mem hhi
    show 0 < Np.grid3 zinfall.t zinfall.c zinfall.h (entry 15 bFitZ) t x h
    have hj : zinfall.c.cell x + 1 < 15 := hsp.1
    have hk : zinfall.h.cell h + 1 < 15 := hsq.1
    unfold Np.grid3
    simp only
    rw [h1, h2]
    have key : ∀ j k, j < 15 → k < 15 →
        0.4 ≤ entry 15 bFitZ 14 j k ∧ 3 * (entry 15 bFitZ 13 j k - entry 15 bFitZ 14 j k) + 0.4
          ≤ entry 15 bFitZ 14 j k := by
      intro j k hj hk
      obtain ⟨q1, q2⟩ := zinfall_b_tail (show 15 * j + k < 225 by omega)
      have e1 : 3150 + (15 * j + k) = (14 * 15 + j) * 15 + k := by ring
      have e2 : 2925 + (15 * j + k) = (13 * 15 + j) * 15 + k := by ring
      rw [e1] at q1 q2
      rw [e2] at q2
      unfold entry
      generalize bFitZ.getD ((14 * 15 + j) * 15 + k) 0 = p at q1 q2 ⊢
      generalize bFitZ.getD ((13 * 15 + j) * 15 + k) 0 = q at q1 q2 ⊢
      have q1' : (400 : ℝ) ≤ p := by exact_mod_cast q1
      have q2' : 3 * (q : ℝ) + 400 ≤ 4 * p := by exact_mod_cast q2
      constructor
      · rw [le_div_iff₀ (by norm_num)]; linarith
      · linarith
    have comb : ∀ p q : ℝ, 0.4 ≤ q → 3 * (p - q) + 0.4 ≤ q →
        0.4 ≤ Np.lerp (1 + (t - 8.1) * (14 / 8.1)) p q := by
      intro p q hq hpq
      unfold Np.lerp
      have w0 : 0 ≤ (t - 8.1) * (14 / 8.1) := mul_nonneg (by linarith) (by norm_num)
      have w1 : (t - 8.1) * (14 / 8.1) ≤ 3 := by
        have : (t - 8.1) * (14 / 8.1) ≤ 1.4 * (14 / 8.1) :=
          mul_le_mul_of_nonneg_right (by linarith) (by norm_num)
        linarith [show (1.4 : ℝ) * (14 / 8.1) ≤ 3 by norm_num]
      generalize (t - 8.1) * (14 / 8.1) = w at w0 w1
      rcases le_or_gt p q with hle | hgt
      · nlinarith
      · nlinarith
    have swap : ∀ w s p q p' q' : ℝ, Np.lerp w (Np.lerp s p q) (Np.lerp s p' q')
        = Np.lerp s (Np.lerp w p p') (Np.lerp w q q') := by
      intro w s p q p' q'; unfold Np.lerp; ring
    rw [swap (1 + (t - 8.1) * (14 / 8.1)) (zinfall.c.frac x),
      swap (1 + (t - 8.1) * (14 / 8.1)) (zinfall.h.frac h),
      swap (1 + (t - 8.1) * (14 / 8.1)) (zinfall.h.frac h)]
    have a00 := key _ _ (show zinfall.c.cell x < 15 by omega) (show zinfall.h.cell h < 15 by omega)
    have a01 := key _ _ (show zinfall.c.cell x < 15 by omega) hk
    have a10 := key _ _ hj (show zinfall.h.cell h < 15 by omega)
    have a11 := key _ _ hj hk
    have b00 := comb _ _ a00.1 a00.2
    have b01 := comb _ _ a01.1 a01.2
    have b10 := comb _ _ a10.1 a10.2
    have b11 := comb _ _ a11.1 a11.2
    have lm : ∀ s p q : ℝ, 0 ≤ s → s ≤ 1 → 0.4 ≤ p → 0.4 ≤ q → 0.4 ≤ Np.lerp s p q := by
      intro s p q h0 h1 hp hq
      unfold Np.lerp
      nlinarith
    have := lm _ _ _ fx.1 fx.2 (lm _ _ _ fh.1 fh.2 b00 b01) (lm _ _ _ fh.1 fh.2 b10 b11)
    exact lt_of_lt_of_le (show (0 : ℝ) < 0.4 by norm_num) this

/-- C30, what the infall-redshift model computes at the nodes of its table (the first node is below
the lower clamp). -/
theorem c30_zinfall_nodes {i j k : ℕ} (hi0 : 1 ≤ i) (hi : i < 15) (hj : j < 15) (hk : k ≤ 11) (u : ℝ) :
    zinfall.call
      (Real.logb 10 2 + j * ((Real.logb 10 384 - Real.logb 10 2) / 14)) (i * (8.1 / 14))
      (4 + k * (5 / 14)) u
    = min (Real.sinh ((u - (aFitZ.getD (225 * i + 15 * j + k) 0 : ℝ) / 1000)
        / ((bFitZ.getD (225 * i + 15 * j + k) 0 : ℝ) / 1000))) 0 := by
  have hi' : (i : ℝ) ≤ 14 := by exact_mod_cast (show i ≤ 14 by omega)
  have hj' : (j : ℝ) ≤ 14 := by exact_mod_cast (show j ≤ 14 by omega)
  have hk' : (k : ℝ) ≤ 11 := by exact_mod_cast hk
  have hi0 : (1 : ℝ) ≤ i := by exact_mod_cast hi0
  have hj0 : (0 : ℝ) ≤ j := Nat.cast_nonneg j
  have hk0 : (0 : ℝ) ≤ k := Nat.cast_nonneg k
  have hl : Real.logb 10 2 < Real.logb 10 384 := logb_two_lt (by norm_num)
  unfold Johnson.call
  rw [clip_of_mem (v := (i : ℝ) * (8.1 / 14)) (by show (0.001:ℝ) ≤ _; norm_num; nlinarith)
      (by show _ ≤ (9.5 : ℝ); norm_num; nlinarith)]
  rw [clip_of_mem (v := Real.logb 10 2 + j * ((Real.logb 10 384 - Real.logb 10 2) / 14))
      (by show Real.logb 10 2 ≤ _
          have : 0 ≤ (j : ℝ) * ((Real.logb 10 384 - Real.logb 10 2) / 14) :=
            mul_nonneg hj0 (by linarith)
          linarith)
      (by show _ ≤ Real.logb 10 384
          have : (j : ℝ) * ((Real.logb 10 384 - Real.logb 10 2) / 14)
              ≤ 14 * ((Real.logb 10 384 - Real.logb 10 2) / 14) :=
            mul_le_mul_of_nonneg_right hj' (by linarith)
          linarith)]
  rw [clip_of_mem (v := 4 + (k : ℝ) * (5 / 14)) (by show (4:ℝ) ≤ _; nlinarith)
      (by show _ ≤ (8 : ℝ); nlinarith)]
  have e1 : (i : ℝ) * (8.1 / 14) = zinfall.t.g i := by
    show _ = (0 : ℝ) + i * ((8.1 - 0) / (((15 : ℕ) : ℝ) - 1)); norm_num
  have e2 : Real.logb 10 2 + j * ((Real.logb 10 384 - Real.logb 10 2) / 14) = zinfall.c.g j := by
    show _ = Real.logb 10 2 + (j : ℝ) * ((Real.logb 10 384 - Real.logb 10 2) / (((15 : ℕ) : ℝ) - 1))
    norm_num
  have e3 : 4 + (k : ℝ) * (5 / 14) = zinfall.h.g k := by
    show _ = (4 : ℝ) + k * ((9 - 4) / (((15 : ℕ) : ℝ) - 1)); norm_num
  obtain ⟨St, Sc, Sh⟩ := zinfall_axes
  unfold Johnson.params johnsonDraw
  rw [e1, e2, e3,
    Np.grid3_node St Sc Sh _ hi hj (show k < 15 by omega),
    Np.grid3_node St Sc Sh _ hi hj (show k < 15 by omega)]
  have e : (i * 15 + j) * 15 + k = 225 * i + 15 * j + k := by ring
  unfold entry
  rw [e]
  rfl

/-! ### The Keeley et al. model -/

theorem keeley_axes : keeleyT.Ok ∧ keeleyH.Ok ∧ keeleyC.Ok :=
  ⟨Np.linspace_ok (by norm_num) (by norm_num), Np.linspace_ok (by norm_num) (by norm_num),
   Np.linspace_ok (by norm_num) (by norm_num)⟩

/-- C30 for the 2024 model, the part that holds: inside the table (time 0 to 7.658..., host
concentration 2 to 8, `log10 c` 0.301... to 2.301...) the mean is between -2.52 and 0 and the scatter
between 0 and 0.79, so a draw with a nonpositive variate is nonpositive.  The property asks for every
input and every draw; see `c30_keeley_grows` and `c30_keeley_not_clamped`. -/
theorem c30_keeley_partial {log10c t chost : ℝ} (ht : 0 ≤ t ∧ t ≤ 7.658449372663094)
    (hh : 2 ≤ chost ∧ chost ≤ 8) (hc : 0.3010299956639812 ≤ log10c ∧ log10c ≤ 2.3010299956639813) :
    (-2.52 ≤ keeleyMean log10c t chost ∧ keeleyMean log10c t chost ≤ 0) ∧
    (0 ≤ keeleyScatter log10c t chost ∧ keeleyScatter log10c t chost ≤ 0.79) ∧
    ∀ u ≤ 0, keeleyCall log10c t chost u ≤ 0 := by
  obtain ⟨hT, hH, hC⟩ := keeley_axes
  have it : keeleyT.Inside t := inside_linspace (by norm_num) ht.1 ht.2
  have ih : keeleyH.Inside chost := inside_linspace (by norm_num) hh.1 hh.2
  have ic : keeleyC.Inside log10c := inside_linspace (by norm_num) hc.1 hc.2
  have h1 : -2.52 ≤ keeleyMean log10c t chost ∧ keeleyMean log10c t chost ≤ 0 := by
    refine Np.grid3_mem hT hH hC ?_ it ih ic
    intro i j k hi hj hk
    have := entry_bounds meanKeeley_length meanKeeley_bounds (show i < 20 from hi)
      (show j < 20 from hj) (show k < 20 from hk)
    constructor
    · have h2 := this.2; norm_num at h2 ⊢; linarith
    · have h2 := this.1; norm_num at h2 ⊢; linarith
  have h2 : 0 ≤ keeleyScatter log10c t chost ∧ keeleyScatter log10c t chost ≤ 0.79 := by
    refine Np.grid3_mem hT hH hC ?_ it ih ic
    intro i j k hi hj hk
    have := entry_bounds scatterKeeley_length scatterKeeley_bounds (show i < 20 from hi)
      (show j < 20 from hj) (show k < 20 from hk)
    constructor
    · have h2 := this.1; norm_num at h2 ⊢; linarith
    · have h2 := this.2; norm_num at h2 ⊢; linarith
  refine ⟨h1, h2, fun u hu => ?_⟩
  unfold keeleyCall
  have : 0 ≤ max (keeleyScatter log10c t chost) 0.001 := le_trans h2.1 (le_max_left _ _)
  nlinarith [mul_nonneg this (neg_nonneg.mpr hu)]

example := c30_keeley_partial (log10c := 1) (t := 3) (chost := 5) (by norm_num) (by norm_num) (by norm_num)

/-- Where the code violates C30: at infall (time 0) the 2024 model has mean 0 and scatter 0.001, so
every positive variate gives a bound mass above the infall mass. -/
theorem c30_keeley_grows {log10c chost u mass : ℝ} (hu : 0 < u) (hm : 0 < mass) :
    keeleyCall log10c 0 chost u = 0.001 * u ∧
    mass < boundMass mass (keeleyCall log10c 0 chost u) := by
  obtain ⟨hT, _, _⟩ := keeley_axes
  have e0 : (0 : ℝ) = keeleyT.g 0 := by
    show _ = (Np.Axis.linspace 0 7.658449372663094 20).g 0
    rw [Np.linspace_zero]
  have hc0 : keeleyT.cell 0 = 0 := by
    refine hT.cell_eq (by show 0 + 1 < 20; norm_num) (by rw [← e0]) ?_
    have := hT.2 0 1 (by norm_num) (by show 1 < 20; norm_num)
    rw [← e0] at this
    exact this
  have hf : keeleyT.frac 0 = 0 := by
    unfold Np.Axis.frac
    rw [hc0, ← e0]
    simp
  have zero : ∀ (l : List ℕ), ((List.range 400).all fun i => l.getD i 0 == 0) = true →
      ∀ j k, j < 20 → k < 20 → entry 20 l 0 j k = 0 := by
    intro l hl j k hj hk
    rw [List.all_eq_true] at hl
    have := hl ((0 * 20 + j) * 20 + k) (by rw [List.mem_range]; omega)
    unfold entry
    rw [beq_iff_eq] at this
    rw [this]; simp
  have zm := zero meanKeeley (by decide +kernel)
  have zs := zero scatterKeeley (by decide +kernel)
  have hj : keeleyH.cell chost + 1 < 20 := by
    have : keeleyH.cell chost ≤ 20 - 2 := min_le_right _ _
    omega
  have hk : keeleyC.cell log10c + 1 < 20 := by
    have : keeleyC.cell log10c ≤ 20 - 2 := min_le_right _ _
    omega
  have m0 : keeleyMean log10c 0 chost = 0 := by
    unfold keeleyMean Np.grid3
    simp only
    rw [hf, hc0, zm _ _ (by omega) (by omega), zm _ _ (by omega) hk, zm _ _ hj (by omega),
      zm _ _ hj hk]
    simp [Np.lerp]
  have s0 : keeleyScatter log10c 0 chost = 0 := by
    unfold keeleyScatter Np.grid3
    simp only
    rw [hf, hc0, zs _ _ (by omega) (by omega), zs _ _ (by omega) hk, zs _ _ hj (by omega),
      zs _ _ hj hk]
    simp [Np.lerp]
  have hcall : keeleyCall log10c 0 chost u = 0.001 * u := by
    unfold keeleyCall
    rw [m0, s0, max_eq_right (by norm_num)]
    ring
  refine ⟨hcall, ?_⟩
  unfold boundMass
  have : 1 < (10 : ℝ) ^ keeleyCall log10c 0 chost u := by
    rw [hcall]
    exact Real.one_lt_rpow (by norm_num) (by positivity)
  nlinarith

example := c30_keeley_grows (log10c := 1) (chost := 5) (u := 2) (mass := 10 ^ 8) (by norm_num) (by norm_num)

/-- Where the code violates C30: beyond the last time of the table (7.658... Gyr) the 2024 model is
extrapolated.  For a host concentration of 2 and the lowest tabulated concentration the mean leaves
the table's range, whose lowest entry is -2.52, and decreases without bound. -/
theorem c30_keeley_not_clamped {t : ℝ} (ht : 7.658449372663094 ≤ t) :
    keeleyMean 0.3010299956639812 t 2
      = -2.52 - (t - 7.658449372663094) * (19 / 7.658449372663094) * 0.28 := by
  obtain ⟨hT, hH, hC⟩ := keeley_axes
  have eh : (2 : ℝ) = keeleyH.g 0 := by
    show _ = (Np.Axis.linspace 2 8 20).g 0
    rw [Np.linspace_zero]
  have ec : (0.3010299956639812 : ℝ) = keeleyC.g 0 := by
    show _ = (Np.Axis.linspace 0.3010299956639812 2.3010299956639813 20).g 0
    rw [Np.linspace_zero]
  have hcell : keeleyT.cell t = 18 := by
    refine hT.cell_above ?_
    show (Np.Axis.linspace 0 7.658449372663094 20).g (20 - 1) ≤ t
    rw [Np.linspace_last _ _ (by norm_num)]; exact ht
  have hfrac : keeleyT.frac t = 1 + (t - 7.658449372663094) * (19 / 7.658449372663094) := by
    unfold Np.Axis.frac
    rw [hcell]
    have e18 : keeleyT.g 18 = 7.658449372663094 * (18 / 19) := by
      show (0 : ℝ) + (18 : ℕ) * ((7.658449372663094 - 0) / (((20 : ℕ) : ℝ) - 1)) = _; norm_num
    have e19 : keeleyT.g (18 + 1) = 7.658449372663094 := by
      show (0 : ℝ) + (18 + 1 : ℕ) * ((7.658449372663094 - 0) / (((20 : ℕ) : ℝ) - 1)) = _; norm_num
    rw [e18, e19]
    field_simp
    ring
  have m18 : meanKeeley.getD ((18 * 20 + 0) * 20 + 0) 0 = 2240 := by decide +kernel
  have m19 : meanKeeley.getD (((18 + 1) * 20 + 0) * 20 + 0) 0 = 2520 := by decide +kernel
  unfold keeleyMean
  rw [eh, ec, Np.grid3_first hH hC _ _ (by show 0 < 20; norm_num) (by show 0 < 20; norm_num), hcell,
    hfrac]
  unfold entry
  rw [m18, m19]
  unfold Np.lerp
  push_cast
  ring

example : (0.3010299956639812 : ℝ) ≤ 1 ∧ (1 : ℝ) ≤ 2.3010299956639813 := by norm_num
example : (7.658449372663094 : ℝ) ≤ 9 := by norm_num
example : (3 : ℕ) < 15 ∧ (14 : ℕ) < 15 ∧ (11 : ℕ) ≤ 11 := by norm_num
example : Real.logb 10 2 ≤ Real.logb 10 2 ∧ (9.5 : ℝ) ≤ 9.7 ∧ (3.5 : ℝ) ≤ 4 := by norm_num

/-! ### Fractions drawn directly -/

/-- C30 for the approximate model: it can be set up for every lens redshift, and every variate between
the limits given to the sampler yields a bound fraction between 1e-10 and 1. -/
theorem c30_approx (zLens : ℝ) :
    ∃ loc scale, approxParams zLens = .ok (loc, scale) ∧ 0 < scale ∧
      ∀ v, (approxLimits loc scale).1 ≤ v → v ≤ (approxLimits loc scale).2 →
        (10 : ℝ) ^ (-10 : ℝ) ≤ approxFraction loc scale v ∧ approxFraction loc scale v ≤ 1 := by
  have hz0 : (0.2 : ℝ) ≤ min (max zLens 0.2) 1.2 := le_min (le_max_right _ _) (by norm_num)
  have hz1 : min (max zLens 0.2) 1.2 ≤ (1.2 : ℝ) := min_le_right _ _
  unfold approxParams
  simp only
  generalize min (max zLens 0.2) 1.2 = z at hz0 hz1
  have hs : ∃ scale, Np.interp1d [0.2, 0.5, 0.8, 1.2] [2.5, 1.8, 1.2, 0.6] z = .ok scale ∧ 0 < scale := by
    refine ⟨Np.segInterp ([0.2, 0.5, 0.8, 1.2].zip [2.5, 1.8, 1.2, 0.6]) z, ?_, ?_⟩
    · simp [Np.interp1d, not_lt.mpr hz0, not_lt.mpr hz1]
    · simp only [List.zip_cons_cons, List.zip_nil_right, Np.segInterp]
      split_ifs with h1 h2 h3 <;> norm_num at * <;> linarith
  obtain ⟨scale, h1, h2⟩ := hs
  have hl : Np.interp1d [0.2, 0.5, 0.8, 1.2] [-4.0, -1.3, -1.0, -1.0] z
      = .ok (Np.segInterp ([0.2, 0.5, 0.8, 1.2].zip [-4.0, -1.3, -1.0, -1.0]) z) := by
    simp [Np.interp1d, not_lt.mpr hz0, not_lt.mpr hz1]
  refine ⟨_, scale, by rw [h1, hl]; rfl, h2, ?_⟩
  generalize Np.segInterp ([0.2, 0.5, 0.8, 1.2].zip [-4.0, -1.3, -1.0, -1.0]) z = loc
  intro v hv0 hv1
  unfold approxLimits at hv0 hv1
  simp only at hv0 hv1
  rw [div_le_iff₀ h2] at hv0
  rw [le_div_iff₀ h2] at hv1
  unfold approxFraction
  constructor
  · exact Real.rpow_le_rpow_of_exponent_le (by norm_num) (by linarith)
  · exact Real.rpow_le_one_of_one_le_of_nonpos (by norm_num) (by linarith)

/-- C30 for the Gaussian model: the bound fraction is positive and below 1 for every mean, width and
variate, and is the Gaussian draw whenever that is below 1. -/
theorem c30_pdf (mean sigma u : ℝ) :
    0 < pdfFraction mean sigma u ∧ pdfFraction mean sigma u < 1 ∧
    (mean + sigma * u < 0 → pdfFraction mean sigma u = (10 : ℝ) ^ (mean + sigma * u)) := by
  have hp : (0 : ℝ) < 10 ^ (mean + sigma * u) := by positivity
  unfold pdfFraction
  simp only
  split_ifs with h
  · refine ⟨by norm_num, by norm_num, fun hn => ?_⟩
    have := Real.rpow_lt_one_of_one_lt_of_neg (by norm_num : (1:ℝ) < 10) hn
    linarith
  · exact ⟨hp, not_le.mp h, fun _ => rfl⟩

/-! ## C31: batched mass loss -/

/-- C30 for the table that turns a bound fraction into a truncation radius: concentrations are clamped
into the table, and so are bound fractions above `10^-6`. -/
theorem c30_tau_partial (log10c log10f : ℝ) :
    (0 ≤ (tauPoint log10c log10f).1 ∧ (tauPoint log10c log10f).1 ≤ 2.7) ∧
    (-6 ≤ log10f → -6 ≤ (tauPoint log10c log10f).2) ∧
    (tauPoint log10c log10f).2 ≤ Real.logb 10 0.9999 := by
  have h1 : Real.logb 10 1 = 0 := Real.logb_one
  have h2 : Real.logb 10 ((10 : ℝ) ^ (2.7 : ℝ)) = 2.7 := Real.logb_rpow (by norm_num) (by norm_num)
  have h3 : (-0.001 : ℝ) ≤ Real.logb 10 0.9999 := by
    rw [Real.le_logb_iff_rpow_le (by norm_num) (by norm_num)]
    have : (10 : ℝ) ^ (-0.001 : ℝ) = ((10 : ℝ) ^ (0.001 : ℝ))⁻¹ := by
      rw [← Real.rpow_neg (by norm_num)]
    rw [this, inv_le_comm₀ (by positivity) (by norm_num)]
    rw [show (0.001 : ℝ) = (1000 : ℝ)⁻¹ by norm_num,
      Real.le_rpow_inv_iff_of_pos (by norm_num) (by norm_num) (by norm_num)]
    rw [show (1000 : ℝ) = ((1000 : ℕ) : ℝ) by norm_num, Real.rpow_natCast]
    calc ((0.9999 : ℝ)⁻¹) ^ 1000 ≤ (1.0002 : ℝ) ^ 1000 := by
          gcongr
          norm_num
      _ = ((1.0002 : ℝ) ^ 10) ^ 100 := by rw [← pow_mul]
      _ ≤ (1.0021 : ℝ) ^ 100 := by
          gcongr
          norm_num
      _ = ((1.0021 : ℝ) ^ 10) ^ 10 := by rw [← pow_mul]
      _ ≤ (1.03 : ℝ) ^ 10 := by
          gcongr
          norm_num
      _ ≤ 10 := by norm_num
  simp only [tauPoint, h1, h2]
  refine ⟨⟨le_min (le_max_right _ _) (by norm_num), min_le_right _ _⟩, fun h => ?_,
    (min_le_right _ _).trans h3⟩
  exact le_min (h.trans (le_max_left _ _)) (by norm_num)

/-- Where the code violates C30: the bound fraction is clamped at `10^-8` but the table starts at
`10^-6`, so every smaller fraction is looked up outside the table. -/
theorem c30_tau_extrapolates (log10c : ℝ) {log10f : ℝ} (h : log10f < -6) :
    (tauPoint log10c log10f).2 < tauAxes.2.g 0 := by
  simp only [tauPoint, tauAxes, Np.linspace_zero]
  refine lt_of_le_of_lt (min_le_left _ _) (max_lt h (by norm_num))

example := c30_tau_extrapolates 1 (log10f := -7) (by norm_num)

/-- C31 for the mass loss: the batched routine gives, halo by halo, the value of the scalar routine
with the same variate - for the infall-redshift model always, for the default model when the host
concentration is at most 8.  See `c31_mass_loss_differs`. -/
theorem c31_mass_loss_partial (zinf : Bool) (log10c t us : List ℝ) (chost : ℝ)
    (h : zinf = true ∨ chost ≤ 8) :
    vectorized zinf log10c t chost us =
      List.zipWith (fun p u => (if zinf then zinfall else galacticus).call p.2 p.1 chost u)
        (t.zip log10c) us := by
  unfold vectorized
  simp only
  rw [List.zip_map, List.zipWith_map_left]
  congr 1
  funext p u
  cases zinf with
  | true =>
    simp [Johnson.call, Np.clip, zinfall]
  | false =>
    simp at h
    have e : min (max chost 4) 9 = min (max chost 4) 8 := by
      have : max chost 4 ≤ 8 := max_le h (by norm_num)
      rw [min_eq_left this, min_eq_left (by linarith)]
    simp [Johnson.call, Np.clip, galacticus, e]

/-- Where the code violates C31: for a host concentration of 9, a halo at infall with concentration
2 and the variate 3.303, the batched routine keeps the whole mass and the scalar one does not. -/
theorem c31_mass_loss_differs :
    vectorized false [Real.logb 10 2] [0] 9 [3.303] = [0] ∧
    galacticus.call (Real.logb 10 2) 0 9 3.303 < 0 := by
  have S := galacticus_sound
  have et : (0 : ℝ) = galacticus.t.g 0 := by
    show _ = (Np.Axis.linspace 0 8.1 15).g 0
    rw [Np.linspace_zero]
  have ec : Real.logb 10 2 = galacticus.c.g 0 := by
    show _ = (Np.Axis.linspace (Real.logb 10 2) (Real.logb 10 384) 15).g 0
    rw [Np.linspace_zero]
  have hl : Real.logb 10 2 < Real.logb 10 384 := logb_two_lt (by norm_num)
  constructor
  · have e9 : (9 : ℝ) = galacticus.h.g 14 := by
      show _ = (Np.Axis.linspace 4 9 15).g (15 - 1)
      rw [Np.linspace_last _ _ (by norm_num)]
    have a0 : aFit.getD ((0 * 15 + 0) * 15 + 14) 0 = 3303 := by decide +kernel
    have c1 : Np.clip (Real.logb 10 2) (Real.logb 10 2) (Real.logb 10 384) = Real.logb 10 2 :=
      clip_of_mem le_rfl hl.le
    have c2 : Np.clip (0 : ℝ) 0 8.1 = 0 := clip_of_mem le_rfl (by norm_num)
    have c3 : min (max (9 : ℝ) 4) 9 = 9 := by norm_num
    simp only [vectorized, Bool.false_eq_true, if_false, List.map_cons, List.map_nil,
      List.zip_cons_cons, List.zip_nil_right, List.zipWith_cons_cons, List.zipWith_nil_right, c1, c2,
      c3]
    congr 1
    have hp : (galacticus.params 0 (Real.logb 10 2) 9).1 = 3.303 := by
      unfold Johnson.params
      simp only
      rw [et, ec, e9, Np.grid3_node S.t S.c S.h _ (by rw [S.tn]; norm_num) (by rw [S.cn]; norm_num)
        (by rw [S.hn]; norm_num)]
      show entry 15 aFit 0 0 14 = _
      unfold entry
      rw [a0]
      norm_num
    unfold johnsonDraw
    rw [hp]
    simp
  · unfold Johnson.call
    have c1 : Np.clip (Real.logb 10 2) galacticus.cLo galacticus.cHi = galacticus.c.g 0 := by
      rw [← ec]; exact clip_of_mem le_rfl hl.le
    have c2 : Np.clip (0 : ℝ) galacticus.tLo galacticus.tHi = galacticus.t.g 0 := by
      rw [← et]; exact clip_of_mem le_rfl (by norm_num [galacticus])
    have c3 : Np.clip (9 : ℝ) galacticus.hLo galacticus.hHi = 8 := by
      norm_num [Np.clip, galacticus]
    have hb : 0 < (galacticus.params (galacticus.t.g 0) (galacticus.c.g 0) 8).2 := by
      have := (S.params (t := galacticus.t.g 0) (x := galacticus.c.g 0) (h := 8)
        ⟨le_rfl, S.t.mono (by omega) (by rw [S.tn]; omega)⟩
        ⟨le_rfl, S.c.mono (by omega) (by rw [S.cn]; omega)⟩
        (inside_linspace (by norm_num) (by norm_num) (by norm_num))).2.1
      refine lt_of_lt_of_le (by norm_num) this
    have ha : 3.303 < (galacticus.params (galacticus.t.g 0) (galacticus.c.g 0) 8).1 := by
      have hcell : galacticus.h.cell 8 = 11 := by
        refine S.h.cell_eq (by rw [S.hn]; norm_num) ?_ ?_
        · show (4 : ℝ) + (11 : ℕ) * ((9 - 4) / (((15 : ℕ) : ℝ) - 1)) ≤ 8; norm_num
        · show (8 : ℝ) < (4 : ℝ) + (11 + 1 : ℕ) * ((9 - 4) / (((15 : ℕ) : ℝ) - 1)); norm_num
      have hin : galacticus.h.Inside 8 := inside_linspace (by norm_num) (by norm_num) (by norm_num)
      have hfr := S.h.frac_mem hin
      have a0 : aFit.getD ((0 * 15 + 0) * 15 + 11) 0 = 3347 := by decide +kernel
      have a1 : aFit.getD ((0 * 15 + 0) * 15 + (11 + 1)) 0 = 3332 := by decide +kernel
      unfold Johnson.params
      simp only
      rw [Np.grid3_last S.t S.c _ _ (by rw [S.tn]; norm_num) (by rw [S.cn]; norm_num), hcell]
      show 3.303 < Np.lerp _ (entry 15 aFit 0 0 11) (entry 15 aFit 0 0 (11 + 1))
      unfold entry
      rw [a0, a1]
      generalize galacticus.h.frac 8 = f at hfr
      norm_num [Np.lerp]
      linarith [hfr.1, hfr.2]
    rw [c1, c2, c3]
    unfold johnsonDraw
    refine min_lt_of_left_lt ?_
    rw [Real.sinh_neg_iff]
    exact div_neg_of_neg_of_pos (by linarith) hb

example : ((false = true) ∨ ((5 : ℝ) ≤ 8)) := by right; norm_num

end Props
end PyHalo
