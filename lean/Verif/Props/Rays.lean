import Verif.Model.Rays
import Verif.Lemmas.Interp
import Verif.Lemmas.Numpy
import Verif.Props.Shift
import Mathlib.Tactic.Positivity
import Mathlib.Tactic.Linarith
import Mathlib.Tactic.FieldSimp
import Mathlib.Tactic.Ring
import Mathlib.Tactic.NormNum

/-!
# C104: light rays through a realization
-/

namespace PyHalo.Props

open PyHalo Rays Np

/-- What a user may assume of the cosmology, of lenstronomy's ray shooting and of the arguments: distances grow with redshift from zero,
deflectors lie in front of the observer, the source lies behind the first lens plane of pyHalo, and shooting a ray in two steps is the
same as shooting it in one. -/
structure Spec104.Good (L : Lens) (D : ℝ → ℝ) (zsource : ℝ) : Prop where
  zero : D 0 = 0
  mono : ∀ a b, 0 ≤ a → a < b → D a < D b
  redshifts : ∀ z ∈ L.redshifts, 0 < z
  source : 0.02 < zsource
  steps : ∀ s a b c, 0 ≤ a → a < b → b < c → L.shoot (L.shoot s a b) b c = L.shoot s a c

/-- Where lenstronomy puts, at redshift `z`, the ray that the observer sees at `(x, y)`. -/
def Spec104.lensed (L : Lens) (x y z : ℝ) : Ray := L.shoot ⟨0, 0, x, y⟩ 0 z

theorem linspace_between (a b m M : ℝ) (n : ℕ) (ha : m < a ∧ a < M) (hb : m < b ∧ b < M) :
    ∀ x ∈ linspace a b (n + 2), m < x ∧ x < M := by
  intro x hx
  simp only [linspace, List.mem_map, List.mem_range] at hx
  obtain ⟨i, hi, rfl⟩ := hx
  rw [if_neg (by omega)]
  have h1 : (0 : ℝ) < ((n + 2 : ℕ) : ℝ) - 1 := by push_cast; linarith [(Nat.cast_nonneg n : (0 : ℝ) ≤ n)]
  have h2 : (i : ℝ) ≤ ((n + 2 : ℕ) : ℝ) - 1 := by
    have : i + 1 ≤ n + 2 := hi
    have : ((i + 1 : ℕ) : ℝ) ≤ ((n + 2 : ℕ) : ℝ) := by exact_mod_cast this
    push_cast at this ⊢; linarith
  set t := (i : ℝ) / (((n + 2 : ℕ) : ℝ) - 1) with ht
  have t0 : 0 ≤ t := by positivity
  have t1 : t ≤ 1 := by rw [ht, div_le_one h1]; exact h2
  have e : a + (i : ℝ) * ((b - a) / (((n + 2 : ℕ) : ℝ) - 1)) = a + t * (b - a) := by rw [ht]; ring
  rw [e]
  rcases eq_or_lt_of_le t0 with g | g
  · rw [← g]; simpa using ha
  · constructor
    · nlinarith [mul_pos g (sub_pos.2 hb.1), mul_nonneg (sub_nonneg.2 t1) (sub_pos.2 ha.1).le]
    · nlinarith [mul_pos g (sub_pos.2 hb.2), mul_nonneg (sub_nonneg.2 t1) (sub_pos.2 ha.2).le]

theorem allRedshifts_mem (L : Lens) (D : ℝ → ℝ) (zs : ℝ) (h : Spec104.Good L D zs) :
    (∀ z ∈ allRedshifts L zs, 0 < z) ∧ zs ∈ allRedshifts L zs ∧ (∀ z ∈ L.redshifts, z ∈ allRedshifts L zs) ∧
      ∀ M, zs ≤ M → (∀ z ∈ L.redshifts, z ≤ M) → ∀ z ∈ allRedshifts L zs, z ≤ M := by
  have h0 := h.source
  have hb : ∀ x ∈ linspace 0.02 (zs - 0.02) 50, 0 < x ∧ x < zs :=
    linspace_between 0.02 (zs - 0.02) 0 zs 48 ⟨by norm_num, h0⟩ ⟨by linarith, by norm_num⟩
  refine ⟨?_, ?_, ?_, ?_⟩
  · intro z hz
    rw [allRedshifts, mem_unique] at hz
    simp only [List.mem_append, List.mem_singleton] at hz
    rcases hz with (hz | rfl) | hz
    · exact h.redshifts z hz
    · norm_num at h0; linarith
    · exact (hb z hz).1
  · rw [allRedshifts, mem_unique]; simp
  · intro z hz; rw [allRedshifts, mem_unique]; simp [hz]
  · intro M hM hL z hz
    rw [allRedshifts, mem_unique] at hz
    simp only [List.mem_append, List.mem_singleton] at hz
    rcases hz with (hz | rfl) | hz
    · exact hL z hz
    · exact hM
    · exact (hb z hz).2.le.trans hM

theorem trace_eq (L : Lens) (D : ℝ → ℝ) (hs : ∀ s a b c, 0 ≤ a → a < b → b < c → L.shoot (L.shoot s a b) b c = L.shoot s a c) :
    ∀ (l : List ℝ) (s : Ray) (z₀ : ℝ), 0 ≤ z₀ → (∀ z ∈ l, z₀ < z) → l.Pairwise (· < ·) →
      trace L D s z₀ l = l.map fun z => ((L.shoot s z₀ z).x, (L.shoot s z₀ z).y, D z)
  | [], _, _, _, _, _ => rfl
  | z :: t, s, z₀, h0, hz, hp => by
    have hz' := hz z (by simp)
    have hp' := List.pairwise_cons.1 hp
    simp only [trace, List.map_cons]
    rw [trace_eq L D hs t _ z (by linarith) hp'.1 hp'.2]
    congr 1
    apply List.map_congr_left
    intro c hc
    rw [hs s z₀ z c h0 hz' (hp'.1 c hc)]

/-- What an interpolation through the origin and the nodes `(D z, f z)` returns. -/
theorem interp_nodes (D f : ℝ → ℝ) (x₀ : ℝ) (l : List ℝ) (last : ℝ) (hD : D 0 = 0) (hm : ∀ a b, 0 ≤ a → a < b → D a < D b)
    (hl : l.Pairwise (· < ·)) (h0 : ∀ z ∈ l, 0 < z) (hlast : l.getLast? = some last) :
    interp1d (0 :: l.map D) (x₀ :: l.map f) 0 = .ok x₀ ∧
    (∀ z ∈ l, interp1d (0 :: l.map D) (x₀ :: l.map f) (D z) = .ok (f z)) ∧
    (∀ d, d < 0 ∨ D last < d → ∃ e, interp1d (0 :: l.map D) (x₀ :: l.map f) d = .error (.valueError e)) ∧
    (∀ d, 0 ≤ d → d ≤ D last → ∃ v, interp1d (0 :: l.map D) (x₀ :: l.map f) d = .ok v) ∧
    ((∀ z ∈ l, f z = x₀) → ∀ d, 0 ≤ d → d ≤ D last → interp1d (0 :: l.map D) (x₀ :: l.map f) d = .ok x₀) := by
  have hne : l ≠ [] := by rintro rfl; simp at hlast
  have hg : (0 :: l.map D).getLast? = some (D last) := by
    rw [List.getLast?_cons, List.getLast?_map, hlast]; simp
  have hh : (0 :: l.map D).head? = some 0 := rfl
  have hz : (0 :: l.map D).zip (x₀ :: l.map f) = (0, x₀) :: l.map fun z => (D z, f z) := by
    simp [List.zip_map']
  have hDpos : ∀ z, 0 < z → 0 < D z := fun z h => by have := hm 0 z le_rfl h; rwa [hD] at this
  have hlastmem : last ∈ l := List.mem_of_getLast? hlast
  have hle : ∀ z ∈ l, D z ≤ D last := by
    intro z hzl
    rcases (List.getLast?_eq_some_iff.1 hlast) with ⟨ys, rfl⟩
    rcases List.mem_append.1 hzl with h | h
    · exact (hm z last (h0 z hzl).le ((List.pairwise_append.1 hl).2.2 z h last (by simp))).le
    · simp at h; rw [h]
  have hpw : ((0, x₀) :: l.map fun z => (D z, f z)).Pairwise (fun a b => a.1 < b.1) := by
    rw [List.pairwise_cons]
    refine ⟨?_, ?_⟩
    · intro p hp
      obtain ⟨z, hzl, rfl⟩ := List.mem_map.1 hp
      exact hDpos z (h0 z hzl)
    · rw [List.pairwise_map]
      exact (List.pairwise_iff_getElem.2 fun i j hi hj hij =>
        hm _ _ (h0 _ (List.getElem_mem hi)).le (List.pairwise_iff_getElem.1 hl i j hi hj hij))
  have hin : ∀ d, 0 ≤ d → d ≤ D last →
      interp1d (0 :: l.map D) (x₀ :: l.map f) d = .ok (segInterp ((0, x₀) :: l.map fun z => (D z, f z)) d) := by
    intro d h1 h2
    rw [(interp1d_eq _ _ d 0 (D last) hh hg).1 h1 h2, hz]
  refine ⟨?_, ?_, ?_, fun d h1 h2 => ⟨_, hin d h1 h2⟩, ?_⟩
  · rw [hin 0 le_rfl (hDpos _ (h0 _ hlastmem)).le]
    congr 1
    exact segInterp_node _ hpw (0, x₀) (by simp)
  · intro z hzl
    rw [hin (D z) (hDpos z (h0 z hzl)).le (hle z hzl)]
    congr 1
    exact segInterp_node _ hpw (D z, f z) (List.mem_cons_of_mem _ (List.mem_map.2 ⟨z, hzl, rfl⟩))
  · intro d hd
    unfold interp1d
    rw [hh, hg]
    simp only
    by_cases h1 : d < 0
    · rw [if_pos h1]; exact ⟨_, rfl⟩
    · rw [if_neg h1, if_pos (by tauto)]; exact ⟨_, rfl⟩
  · intro hc d h1 h2
    rw [hin d h1 h2]
    congr 1
    have hb := segInterp_weak ((0, x₀) :: l.map fun z => (D z, f z)) (0, x₀) (D last, x₀) d ?_ rfl ?_ h1 h2
    · exact le_antisymm hb.2 hb.1
    · refine hpw.imp_of_mem ?_
      intro a b ha hb' hab
      have : ∀ p ∈ ((0, x₀) :: l.map fun z => (D z, f z)), p.2 = x₀ := by
        intro p hp
        rcases List.mem_cons.1 hp with rfl | hp
        · rfl
        · obtain ⟨z, hzl, rfl⟩ := List.mem_map.1 hp
          exact hc z hzl
      exact ⟨hab.le, by rw [this a ha, this b hb']⟩
    · rw [List.getLast?_cons, List.getLast?_map, hlast]
      simp [hc last hlastmem]

/-- Without termination at the source. -/
theorem imagePath_free (L : Lens) (D : ℝ → ℝ) (zs : ℝ) (h : Spec104.Good L D zs) (src : Option ℝ × Option ℝ) (x y : ℝ) :
    imagePath L D zs false src x y = .ok
      (interp1d (0 :: (allRedshifts L zs).map D) (x :: (allRedshifts L zs).map fun z => (Spec104.lensed L x y z).x / D z),
       interp1d (0 :: (allRedshifts L zs).map D) (y :: (allRedshifts L zs).map fun z => (Spec104.lensed L x y z).y / D z)) := by
  have hm := allRedshifts_mem L D zs h
  have ht := trace_eq L D h.steps (allRedshifts L zs) ⟨0, 0, x, y⟩ 0 le_rfl hm.1 (pairwise_unique _)
  unfold imagePath comovingPath
  rw [ht]
  simp [bind, Except.bind, pure, Except.pure, List.zipWith_map, List.zipWith_self, Spec104.lensed, Function.comp_def]

theorem setLast_map (g : ℝ → ℝ) (v last : ℝ) (l : List ℝ) (hl : l.Pairwise (· < ·)) (hlast : l.getLast? = some last) (a : ℝ) :
    setLast (a :: l.map g) v = a :: l.map fun z => if z = last then v else g z := by
  obtain ⟨ys, rfl⟩ := List.getLast?_eq_some_iff.1 hlast
  have hlt := (List.pairwise_append.1 hl).2.2
  unfold setLast
  rw [List.map_append, List.map_append]
  simp only [List.map_cons, List.map_nil, if_true]
  rw [← List.cons_append, List.dropLast_concat]
  simp only [List.cons_append]
  congr 2
  apply List.map_congr_left
  intro z hz
  rw [if_neg (hlt z hz last (by simp)).ne]

/-- With termination at the source. -/
theorem imagePath_terminated (L : Lens) (D : ℝ → ℝ) (zs : ℝ) (h : Spec104.Good L D zs) (sx sy x y last : ℝ)
    (hlast : (allRedshifts L zs).getLast? = some last) :
    imagePath L D zs true (some sx, some sy) x y = .ok
      (interp1d (0 :: (allRedshifts L zs).map D)
        (x :: (allRedshifts L zs).map fun z => (if z = last then sx * D zs else (Spec104.lensed L x y z).x) / D z),
       interp1d (0 :: (allRedshifts L zs).map D)
        (y :: (allRedshifts L zs).map fun z => (if z = last then sy * D zs else (Spec104.lensed L x y z).y) / D z)) := by
  have hm := allRedshifts_mem L D zs h
  have hp : (allRedshifts L zs).Pairwise (· < ·) := pairwise_unique _
  have ht := trace_eq L D h.steps (allRedshifts L zs) ⟨0, 0, x, y⟩ 0 le_rfl hm.1 hp
  unfold imagePath comovingPath
  rw [ht]
  simp only [List.map_map, Function.comp_def, if_true]
  rw [setLast_map _ _ last _ hp hlast, setLast_map _ _ last _ hp hlast]
  simp [bind, Except.bind, pure, Except.pure, List.zipWith_map, List.zipWith_self, Spec104.lensed]

theorem paths_ok (xs ys : List ℝ) (L : Lens) (D : ℝ → ℝ) (zs : ℝ) (t : Bool) (src : Option ℝ × Option ℝ)
    (g : ℝ × ℝ → AngleInterp × AngleInterp) (hg : ∀ p, imagePath L D zs t src p.1 p.2 = .ok (g p)) :
    interpolateRayPaths xs ys L D zs t src false = .ok (((xs.zip ys).map g).map (·.1), ((xs.zip ys).map g).map (·.2)) := by
  unfold interpolateRayPaths
  rw [Np.mapM_ok (g := g) fun p _ => hg p]
  simp [bind, Except.bind, pure, Except.pure]

theorem exists_last (L : Lens) (D : ℝ → ℝ) (zs : ℝ) (h : Spec104.Good L D zs) :
    ∃ last, (allRedshifts L zs).getLast? = some last ∧ zs ≤ last ∧ (∀ z ∈ L.redshifts, z ≤ last) ∧ (last = zs ∨ last ∈ L.redshifts) ∧
      ((∀ z ∈ L.redshifts, z ≤ zs) → last = zs) := by
  have hm := allRedshifts_mem L D zs h
  have hne : allRedshifts L zs ≠ [] := fun e => by rw [e] at hm; simpa using hm.2.1
  refine ⟨_, List.getLast?_eq_some_getLast hne, ?_⟩
  set last := (allRedshifts L zs).getLast hne with hl
  have hmem : last ∈ allRedshifts L zs := List.getLast_mem hne
  have hp : (allRedshifts L zs).Pairwise (· < ·) := pairwise_unique _
  have hle : ∀ z ∈ allRedshifts L zs, z ≤ last := by
    intro z hz
    have e := List.dropLast_append_getLast hne
    rw [← e] at hz hp
    rcases List.mem_append.1 hz with h' | h'
    · exact ((List.pairwise_append.1 hp).2.2 z h' last (by simp [hl])).le
    · simp at h'; rw [h']
  have hzs := hle zs hm.2.1
  refine ⟨hzs, fun z hz => hle z (hm.2.2.1 z hz), ?_, fun hL => le_antisymm (hm.2.2.2 zs le_rfl hL last hmem) hzs⟩
  by_contra hc
  push Not at hc
  have h1 : zs < last := lt_of_le_of_ne hzs (Ne.symm hc.1)
  rw [allRedshifts, mem_unique] at hmem
  simp only [List.mem_append, List.mem_singleton] at hmem
  have h0 := h.source
  rcases hmem with (hmem | e) | hmem
  · exact hc.2 hmem
  · exact hc.1 e
  · have := (linspace_between 0.02 (zs - 0.02) 0 zs 48 ⟨by norm_num, h0⟩ ⟨by linarith, by norm_num⟩ last hmem).2
    linarith

/-- What the two interpolations `r` of an image at `p` should do: start where the observer sees the image, be at every deflector and at
the source where lenstronomy's ray is, be defined from the observer to the source, and raise a `ValueError` elsewhere. -/
structure Spec104.Follows (L : Lens) (D : ℝ → ℝ) (zsource : ℝ) (p : ℝ × ℝ) (r : AngleInterp × AngleInterp) : Prop where
  start : r.1 0 = .ok p.1 ∧ r.2 0 = .ok p.2
  planes : ∀ z, z ∈ L.redshifts ∨ z = zsource →
    r.1 (D z) = .ok ((Spec104.lensed L p.1 p.2 z).x / D z) ∧ r.2 (D z) = .ok ((Spec104.lensed L p.1 p.2 z).y / D z)
  inside : ∀ d, 0 ≤ d → d ≤ D zsource → (∃ v, r.1 d = .ok v) ∧ ∃ v, r.2 d = .ok v
  outside : (∀ z ∈ L.redshifts, z ≤ zsource) → ∀ d, d < 0 ∨ D zsource < d →
    (∃ e, r.1 d = .error (.valueError e)) ∧ ∃ e, r.2 d = .error (.valueError e)

/-- **C104**. The comoving path of one image begins at the origin and then has, for every redshift traced (those of the deflectors and of
the source among them), the transverse comoving position of the lensed ray and the comoving distance. -/
theorem c104_comoving (L : Lens) (D : ℝ → ℝ) (zs : ℝ) (h : Spec104.Good L D zs) (src : Option ℝ × Option ℝ) (x y : ℝ) :
    ∃ zz : List ℝ, zz.Pairwise (· < ·) ∧ (∀ z ∈ L.redshifts, z ∈ zz) ∧ zs ∈ zz ∧
      comovingPath L D zs false src x y = .ok (0 :: zz.map fun z => (Spec104.lensed L x y z).x, 0 :: zz.map fun z => (Spec104.lensed L x y z).y,
        0 :: zz.map D) := by
  have hm := allRedshifts_mem L D zs h
  refine ⟨allRedshifts L zs, pairwise_unique _, hm.2.2.1, hm.2.1, ?_⟩
  have ht := trace_eq L D h.steps (allRedshifts L zs) ⟨0, 0, x, y⟩ 0 le_rfl hm.1 (pairwise_unique _)
  simp [comovingPath, ht, Spec104.lensed, Function.comp_def]

/-- **C104**. Each pair of interpolations follows the light ray of its image through all deflectors. -/
theorem c104_rays (xs ys : List ℝ) (L : Lens) (D : ℝ → ℝ) (zs : ℝ) (h : Spec104.Good L D zs) (src : Option ℝ × Option ℝ) :
    ∃ rays : List (AngleInterp × AngleInterp), interpolateRayPaths xs ys L D zs false src false = .ok (rays.map (·.1), rays.map (·.2)) ∧
      List.Forall₂ (Spec104.Follows L D zs) (xs.zip ys) rays := by
  refine ⟨_, paths_ok xs ys L D zs false src _ fun p => imagePath_free L D zs h src p.1 p.2, ?_⟩
  rw [List.forall₂_map_right_iff]
  rw [List.forall₂_same]
  intro p _
  obtain ⟨last, hlast, hz, -, -, he⟩ := exists_last L D zs h
  have hm := allRedshifts_mem L D zs h
  have hp : (allRedshifts L zs).Pairwise (· < ·) := pairwise_unique _
  have n1 := interp_nodes D (fun z => (Spec104.lensed L p.1 p.2 z).x / D z) p.1 _ last h.zero h.mono hp hm.1 hlast
  have n2 := interp_nodes D (fun z => (Spec104.lensed L p.1 p.2 z).y / D z) p.2 _ last h.zero h.mono hp hm.1 hlast
  have hzs0 : 0 ≤ zs := by have := h.source; norm_num at this; linarith
  have hD : D zs ≤ D last := by
    rcases hz.lt_or_eq with g | g
    · exact (h.mono zs last hzs0 g).le
    · rw [g]
  refine ⟨⟨n1.1, n2.1⟩, ?_, ?_, ?_⟩
  · intro z hz'
    have : z ∈ allRedshifts L zs := by
      rcases hz' with g | rfl
      · exact hm.2.2.1 z g
      · exact hm.2.1
    exact ⟨n1.2.1 z this, n2.2.1 z this⟩
  · intro d h1 h2
    exact ⟨n1.2.2.2.1 d h1 (h2.trans hD), n2.2.2.2.1 d h1 (h2.trans hD)⟩
  · intro hL d hd
    rw [← he hL] at hd
    exact ⟨n1.2.2.1 d hd, n2.2.2.1 d hd⟩

/-- **C104**. Terminated at the source, each ray starts at its image, passes the deflectors like lenstronomy's ray, and ends at the
given source position, provided that no deflector lies behind the source. -/
theorem c104_source (xs ys : List ℝ) (L : Lens) (D : ℝ → ℝ) (zs : ℝ) (h : Spec104.Good L D zs)
    (hL : ∀ z ∈ L.redshifts, z ≤ zs) (sx sy : ℝ) :
    ∃ rays : List (AngleInterp × AngleInterp), interpolateRayPaths xs ys L D zs true (some sx, some sy) false = .ok (rays.map (·.1), rays.map (·.2)) ∧
      List.Forall₂ (fun p r => r.1 0 = .ok p.1 ∧ r.2 0 = .ok p.2 ∧ r.1 (D zs) = .ok sx ∧ r.2 (D zs) = .ok sy ∧
        ∀ z ∈ L.redshifts, z ≠ zs → r.1 (D z) = .ok ((Spec104.lensed L p.1 p.2 z).x / D z) ∧
          r.2 (D z) = .ok ((Spec104.lensed L p.1 p.2 z).y / D z)) (xs.zip ys) rays := by
  obtain ⟨last, hlast, -, -, -, he⟩ := exists_last L D zs h
  have he := he hL
  subst he
  refine ⟨_, paths_ok xs ys L D _ true _ _ fun p => imagePath_terminated L D _ h sx sy p.1 p.2 _ hlast, ?_⟩
  rw [List.forall₂_map_right_iff, List.forall₂_same]
  intro p _
  have hm := allRedshifts_mem L D _ h
  have hp : (allRedshifts L last).Pairwise (· < ·) := pairwise_unique _
  have n1 := interp_nodes D (fun z => (if z = last then sx * D last else (Spec104.lensed L p.1 p.2 z).x) / D z) p.1 _ last h.zero
    h.mono hp hm.1 hlast
  have n2 := interp_nodes D (fun z => (if z = last then sy * D last else (Spec104.lensed L p.1 p.2 z).y) / D z) p.2 _ last h.zero
    h.mono hp hm.1 hlast
  have hpos : 0 < D last := by
    have := h.mono 0 last le_rfl (hm.1 last hm.2.1)
    rwa [h.zero] at this
  refine ⟨n1.1, n2.1, ?_, ?_, fun z hz hne => ⟨?_, ?_⟩⟩
  · exact (n1.2.1 last hm.2.1).trans (by rw [if_pos rfl, mul_div_assoc, div_self hpos.ne', mul_one])
  · exact (n2.2.1 last hm.2.1).trans (by rw [if_pos rfl, mul_div_assoc, div_self hpos.ne', mul_one])
  · exact (n1.2.1 z (hm.2.2.1 z hz)).trans (by rw [if_neg hne])
  · exact (n2.2.1 z (hm.2.2.1 z hz)).trans (by rw [if_neg hne])

/-- **C104** (what the code does with a deflector behind the source). The source position is then forced on the last deflector, with the
wrong distance, while the ray passes the source where lenstronomy puts it. -/
theorem c104_deflector_behind_source (xs ys : List ℝ) (L : Lens) (D : ℝ → ℝ) (zs : ℝ) (h : Spec104.Good L D zs)
    (zb : ℝ) (hb : zb ∈ L.redshifts) (hbs : zs < zb) (hL : ∀ z ∈ L.redshifts, z ≤ zb) (sx sy : ℝ) :
    ∃ rays : List (AngleInterp × AngleInterp), interpolateRayPaths xs ys L D zs true (some sx, some sy) false = .ok (rays.map (·.1), rays.map (·.2)) ∧
      List.Forall₂ (fun p r => r.1 (D zs) = .ok ((Spec104.lensed L p.1 p.2 zs).x / D zs) ∧
        r.2 (D zs) = .ok ((Spec104.lensed L p.1 p.2 zs).y / D zs) ∧
        r.1 (D zb) = .ok (sx * (D zs / D zb)) ∧ r.2 (D zb) = .ok (sy * (D zs / D zb)) ∧ D zs / D zb < 1) (xs.zip ys) rays := by
  obtain ⟨last, hlast, hz, h1, h2, -⟩ := exists_last L D zs h
  have he : last = zb := by
    rcases h2 with e | e
    · have := h1 zb hb; linarith
    · exact le_antisymm (hL last e) (h1 zb hb)
  subst he
  refine ⟨_, paths_ok xs ys L D _ true _ _ fun p => imagePath_terminated L D _ h sx sy p.1 p.2 _ hlast, ?_⟩
  rw [List.forall₂_map_right_iff, List.forall₂_same]
  intro p _
  have hm := allRedshifts_mem L D _ h
  have hp : (allRedshifts L zs).Pairwise (· < ·) := pairwise_unique _
  have n1 := interp_nodes D (fun z => (if z = last then sx * D zs else (Spec104.lensed L p.1 p.2 z).x) / D z) p.1 _ last h.zero
    h.mono hp hm.1 hlast
  have n2 := interp_nodes D (fun z => (if z = last then sy * D zs else (Spec104.lensed L p.1 p.2 z).y) / D z) p.2 _ last h.zero
    h.mono hp hm.1 hlast
  have hzs := hm.1 zs hm.2.1
  have hpos : 0 < D last := by
    have := h.mono 0 last le_rfl (by linarith)
    rwa [h.zero] at this
  have hmem := hm.2.2.1 last hb
  refine ⟨?_, ?_, ?_, ?_, ?_⟩
  · exact (n1.2.1 zs hm.2.1).trans (by rw [if_neg hbs.ne])
  · exact (n2.2.1 zs hm.2.1).trans (by rw [if_neg hbs.ne])
  · exact (n1.2.1 last hmem).trans (by rw [if_pos rfl, mul_div_assoc])
  · exact (n2.2.1 last hmem).trans (by rw [if_pos rfl, mul_div_assoc])
  · rw [div_lt_one hpos]; exact h.mono zs last hzs.le hbs

/-- **C104**. Without deflection a ray keeps its angle: both interpolations are constant from the observer to the source. -/
theorem c104_straight (xs ys : List ℝ) (L : Lens) (D : ℝ → ℝ) (zs : ℝ) (h : Spec104.Good L D zs)
    (hfree : ∀ s a b, L.shoot s a b = ⟨s.x + s.ax * (D b - D a), s.y + s.ay * (D b - D a), s.ax, s.ay⟩)
    (src : Option ℝ × Option ℝ) :
    ∃ rays : List (AngleInterp × AngleInterp), interpolateRayPaths xs ys L D zs false src false = .ok (rays.map (·.1), rays.map (·.2)) ∧
      List.Forall₂ (fun p r => ∀ d, 0 ≤ d → d ≤ D zs → r.1 d = .ok p.1 ∧ r.2 d = .ok p.2) (xs.zip ys) rays := by
  refine ⟨_, paths_ok xs ys L D zs false src _ fun p => imagePath_free L D zs h src p.1 p.2, ?_⟩
  rw [List.forall₂_map_right_iff, List.forall₂_same]
  intro p _
  obtain ⟨last, hlast, hz, -, -, -⟩ := exists_last L D zs h
  have hm := allRedshifts_mem L D zs h
  have hp : (allRedshifts L zs).Pairwise (· < ·) := pairwise_unique _
  have n1 := interp_nodes D (fun z => (Spec104.lensed L p.1 p.2 z).x / D z) p.1 _ last h.zero h.mono hp hm.1 hlast
  have n2 := interp_nodes D (fun z => (Spec104.lensed L p.1 p.2 z).y / D z) p.2 _ last h.zero h.mono hp hm.1 hlast
  have hDpos : ∀ z ∈ allRedshifts L zs, D z ≠ 0 := by
    intro z hz'
    have := h.mono 0 z le_rfl (hm.1 z hz')
    rw [h.zero] at this
    exact this.ne'
  have hD : D zs ≤ D last := by
    rcases hz.lt_or_eq with g | g
    · exact (h.mono zs last (hm.1 zs hm.2.1).le g).le
    · rw [g]
  intro d h1 h2
  refine ⟨n1.2.2.2.2 (fun z hz' => ?_) d h1 (h2.trans hD), n2.2.2.2.2 (fun z hz' => ?_) d h1 (h2.trans hD)⟩
  · have := hDpos z hz'
    simp [Spec104.lensed, hfree, h.zero]; field_simp
  · have := hDpos z hz'
    simp [Spec104.lensed, hfree, h.zero]; field_simp

theorem interp1d_map_node (D f : ℝ → ℝ) (l : List ℝ) (hl : l.Pairwise fun a b => D a < D b) (z : ℝ) (hz : z ∈ l) :
    interp1d (l.map D) (l.map f) (D z) = .ok (f z) := by
  have hne : l ≠ [] := List.ne_nil_of_mem hz
  obtain ⟨a, ha⟩ : ∃ a, l.head? = some a := ⟨_, List.head?_eq_some_head hne⟩
  obtain ⟨b, hb⟩ : ∃ b, l.getLast? = some b := ⟨_, List.getLast?_eq_some_getLast hne⟩
  have h1 : D a ≤ D z := by
    cases l with
    | nil => simp at hz
    | cons c t =>
      simp at ha; subst ha
      rcases List.mem_cons.1 hz with rfl | hz
      · exact le_rfl
      · exact ((List.pairwise_cons.1 hl).1 z hz).le
  have h2 : D z ≤ D b := by
    obtain ⟨ys, rfl⟩ := List.getLast?_eq_some_iff.1 hb
    rcases List.mem_append.1 hz with h | h
    · exact ((List.pairwise_append.1 hl).2.2 z h b (by simp)).le
    · simp at h; rw [h]
  rw [(interp1d_eq (l.map D) (l.map f) (D z) (D a) (D b) (by simp [ha]) (by simp [List.getLast?_map, hb])).1 h1 h2, List.zip_map']
  congr 1
  exact segInterp_node _ (by rw [List.pairwise_map]; exact hl) (D z, f z) (List.mem_map.2 ⟨z, hz, rfl⟩)

theorem meanPath_ok (D : ℝ → ℝ) (zs : ℝ) (hz : 0 < zs) (hm : ∀ a b, 0 ≤ a → a < b → D a < D b) (angles : List AngleInterp)
    (hin : ∀ r ∈ angles, ∀ z, 0 ≤ z → z ≤ zs → ∃ v, r (D z) = .ok v) :
    ∃ m : AngleInterp, meanPath D zs angles = .ok m ∧ ∀ k : ℕ, k < 100 → ∃ vs : List ℝ,
      List.Forall₂ (fun r v => r (D (zs * k / 99)) = .ok v) angles vs ∧ m (D (zs * k / 99)) = .ok (vs.sum / angles.length) := by
  classical
  have hmem : ∀ z ∈ linspace 0 zs 100, 0 ≤ z ∧ z ≤ zs := by
    intro z hz'
    simp only [linspace, List.mem_map, List.mem_range] at hz'
    obtain ⟨i, hi, rfl⟩ := hz'
    have h2 : (i : ℝ) ≤ 99 := by exact_mod_cast (by omega : i ≤ 99)
    norm_num
    constructor
    · positivity
    · nlinarith
  have hpw : (linspace 0 zs 100).Pairwise (· < ·) := by
    unfold linspace
    rw [List.pairwise_map]
    refine List.pairwise_lt_range.imp ?_
    intro i j hij
    have : (i : ℝ) < j := by exact_mod_cast hij
    norm_num
    nlinarith
  -- the value of a ray, where there is one
  let val : AngleInterp → ℝ → ℝ := fun r d => match r d with | .ok v => v | .error _ => 0
  have hval : ∀ r ∈ angles, ∀ z, 0 ≤ z → z ≤ zs → r (D z) = .ok (val r (D z)) := by
    intro r hr z h1 h2
    obtain ⟨v, hv⟩ := hin r hr z h1 h2
    simp only [val, hv]
  have hc : ((linspace 0 zs 100).map D).mapM (fun di => do
      let coords ← angles.mapM fun ray => ray di
      pure (mean coords)) = Except.ok (((linspace 0 zs 100).map D).map fun di => mean (angles.map fun r => val r di)) := by
    apply Np.mapM_ok
    intro d hd
    obtain ⟨z, hz', rfl⟩ := List.mem_map.1 hd
    rw [Np.mapM_ok (g := fun r => val r (D z)) fun r hr => hval r hr z (hmem z hz').1 (hmem z hz').2]
    rfl
  refine ⟨interp1d ((linspace 0 zs 100).map D) (((linspace 0 zs 100).map D).map fun di => mean (angles.map fun r => val r di)), ?_, ?_⟩
  · unfold meanPath
    simp only
    rw [hc]
    rfl
  · intro k hk
    have hzk : zs * k / 99 ∈ linspace 0 zs 100 := by
      simp only [linspace, List.mem_map, List.mem_range]
      refine ⟨k, hk, ?_⟩
      norm_num
      ring
    refine ⟨angles.map fun r => val r (D (zs * k / 99)), ?_, ?_⟩
    · rw [List.forall₂_map_right_iff, List.forall₂_same]
      intro r hr
      exact hval r hr _ (hmem _ hzk).1 (hmem _ hzk).2
    · rw [List.map_map]
      have := interp1d_map_node D (fun z => mean (angles.map fun r => val r (D z))) (linspace 0 zs 100)
        (hpw.imp_of_mem fun {a b} ha _ hab => hm a b (hmem a ha).1 hab) _ hzk
      rw [Function.comp_def, this]
      simp [mean]

/-- **C104** for `evaluate_at_mean`: one interpolation per coordinate, which at each of 100 equally spaced redshifts up to the source is
the mean of the coordinates of the single rays. -/
theorem c104_mean (xs ys : List ℝ) (L : Lens) (D : ℝ → ℝ) (zs : ℝ) (h : Spec104.Good L D zs) (src : Option ℝ × Option ℝ) :
    ∃ (ax ay : List AngleInterp) (mx my : AngleInterp),
      interpolateRayPaths xs ys L D zs false src false = .ok (ax, ay) ∧
      interpolateRayPaths xs ys L D zs false src true = .ok ([mx], [my]) ∧
      ∀ k : ℕ, k < 100 → ∃ vx vy : List ℝ,
        List.Forall₂ (fun r v => r (D (zs * k / 99)) = .ok v) ax vx ∧ List.Forall₂ (fun r v => r (D (zs * k / 99)) = .ok v) ay vy ∧
        mx (D (zs * k / 99)) = .ok (vx.sum / (xs.zip ys).length) ∧ my (D (zs * k / 99)) = .ok (vy.sum / (xs.zip ys).length) := by
  obtain ⟨rays, h1, h2⟩ := c104_rays xs ys L D zs h src
  have hz : 0 < zs := by have := h.source; norm_num at this; linarith
  have hlen : rays.length = (xs.zip ys).length := h2.length_eq.symm
  have hDle : ∀ z, 0 ≤ z → z ≤ zs → 0 ≤ D z ∧ D z ≤ D zs := by
    intro z g1 g2
    refine ⟨?_, ?_⟩
    · rcases eq_or_lt_of_le g1 with e | e
      · rw [← e, h.zero]
      · have := h.mono 0 z le_rfl e; rw [h.zero] at this; exact this.le
    · rcases eq_or_lt_of_le g2 with e | e
      · rw [e]
      · exact (h.mono z zs g1 e).le
  have hin : ∀ r ∈ rays, ∀ z, 0 ≤ z → z ≤ zs → (∃ v, r.1 (D z) = .ok v) ∧ ∃ v, r.2 (D z) = .ok v := by
    intro r hr z g1 g2
    obtain ⟨i, hi, rfl⟩ := List.getElem_of_mem hr
    have := List.forall₂_iff_get.1 h2
    exact (this.2 i (by omega) hi).inside (D z) (hDle z g1 g2).1 (hDle z g1 g2).2
  obtain ⟨mx, hmx, gx⟩ := meanPath_ok D zs hz h.mono (rays.map (·.1)) (by
    intro r hr z g1 g2
    obtain ⟨q, hq, rfl⟩ := List.mem_map.1 hr
    exact (hin q hq z g1 g2).1)
  obtain ⟨my, hmy, gy⟩ := meanPath_ok D zs hz h.mono (rays.map (·.2)) (by
    intro r hr z g1 g2
    obtain ⟨q, hq, rfl⟩ := List.mem_map.1 hr
    exact (hin q hq z g1 g2).2)
  refine ⟨_, _, mx, my, h1, ?_, fun k hk => ?_⟩
  · have e : ∃ ps, (xs.zip ys).mapM (fun p => imagePath L D zs false src p.1 p.2) = .ok ps ∧ ps.map (·.1) = rays.map (·.1) ∧
        ps.map (·.2) = rays.map (·.2) := by
      refine ⟨_, Np.mapM_ok fun p _ => imagePath_free L D zs h src p.1 p.2, ?_⟩
      have := (paths_ok xs ys L D zs false src _ fun p => imagePath_free L D zs h src p.1 p.2).symm.trans h1
      injection this with this
      exact ⟨congrArg Prod.fst this, congrArg Prod.snd this⟩
    obtain ⟨ps, e1, e2, e3⟩ := e
    unfold interpolateRayPaths
    rw [e1]
    simp only [bind, Except.bind, pure, Except.pure, if_true]
    rw [e2, e3, hmx, hmy]
  · obtain ⟨vx, a1, a2⟩ := gx k hk
    obtain ⟨vy, b1, b2⟩ := gy k hk
    refine ⟨vx, vy, a1, b1, ?_, ?_⟩
    · rw [a2, List.length_map, hlen]
    · rw [b2, List.length_map, hlen]

/-- **C104**. Asking for termination without a source position raises, unless there are no images. -/
theorem c104_no_source (x y : ℝ) (xs ys : List ℝ) (L : Lens) (D : ℝ → ℝ) (zs : ℝ) (src : Option ℝ × Option ℝ) (m : Bool)
    (hs : src.1 = none ∨ src.2 = none) :
    ∃ e, interpolateRayPaths (x :: xs) (y :: ys) L D zs true src m = .error (.typeError e) := by
  have : ∃ e, comovingPath L D zs true src x y = .error (.typeError e) := by
    unfold comovingPath
    rcases src with ⟨_ | sx, _ | sy⟩ <;> simp at hs ⊢
  obtain ⟨e, he⟩ := this
  refine ⟨e, ?_⟩
  unfold interpolateRayPaths
  rw [List.zip_cons_cons, List.mapM_cons]
  simp [imagePath, he, bind, Except.bind]

/-! ### A lens for the examples: one plane at redshift one half that deflects towards the axis, and distances equal to redshifts -/

/-- A ray through one plane, for the examples. -/
noncomputable def Spec104.onePlane : Lens where
  redshifts := [1 / 2]
  shoot s a b :=
    if a < 1 / 2 ∧ 1 / 2 ≤ b then
      let xp := s.x + s.ax * (1 / 2 - a)
      let yp := s.y + s.ay * (1 / 2 - a)
      let ax := s.ax - xp
      let ay := s.ay - yp
      ⟨xp + ax * (b - 1 / 2), yp + ay * (b - 1 / 2), ax, ay⟩
    else ⟨s.x + s.ax * (b - a), s.y + s.ay * (b - a), s.ax, s.ay⟩

theorem onePlane_good : Spec104.Good Spec104.onePlane id 2 where
  zero := rfl
  mono := fun a b _ h => h
  redshifts := by intro z hz; simp [Spec104.onePlane] at hz; rw [hz]; norm_num
  source := by norm_num
  steps := by
    intro s a b c _ h1 h2
    simp only [Spec104.onePlane]
    have key : (¬ (b < 1 / 2 ∧ 1 / 2 ≤ c) ∨ ¬ (a < 1 / 2 ∧ 1 / 2 ≤ b)) := by
      rw [← not_and_or]; rintro ⟨⟨g1, -⟩, -, g2⟩; linarith
    by_cases g1 : a < 1 / 2 ∧ 1 / 2 ≤ b
    · have g2 : ¬ (b < 1 / 2 ∧ 1 / 2 ≤ c) := by tauto
      have g3 : a < 1 / 2 ∧ 1 / 2 ≤ c := ⟨g1.1, by linarith [g1.2]⟩
      rw [if_pos g1, if_neg g2, if_pos g3]
      simp only [Ray.mk.injEq, and_true]
      constructor <;> ring
    · by_cases g2 : b < 1 / 2 ∧ 1 / 2 ≤ c
      · have g3 : a < 1 / 2 ∧ 1 / 2 ≤ c := ⟨by linarith [g2.1], g2.2⟩
        rw [if_neg g1, if_pos g2, if_pos g3]
        simp only [Ray.mk.injEq]
        refine ⟨?_, ?_, ?_, ?_⟩ <;> ring
      · have g3 : ¬ (a < 1 / 2 ∧ 1 / 2 ≤ c) := by
          rintro ⟨e1, e2⟩
          by_cases e : b < 1 / 2
          · exact g2 ⟨e, e2⟩
          · exact g1 ⟨e1, by linarith⟩
        rw [if_neg g1, if_neg g2, if_neg g3]
        simp only [Ray.mk.injEq, and_true]
        constructor <;> ring

/-- A lens without deflectors, for the examples. -/
noncomputable def Spec104.free : Lens where
  redshifts := []
  shoot s a b := ⟨s.x + s.ax * (b - a), s.y + s.ay * (b - a), s.ax, s.ay⟩

theorem free_good : Spec104.Good Spec104.free id 2 where
  zero := rfl
  mono := fun a b _ h => h
  redshifts := by intro z hz; simp [Spec104.free] at hz
  source := by norm_num
  steps := by
    intro s a b c _ _ _
    simp only [Spec104.free, Ray.mk.injEq]
    refine ⟨?_, ?_, trivial, trivial⟩ <;> ring

example := c104_comoving Spec104.onePlane id 2 onePlane_good (none, none) 1 0.5

example := c104_rays [1, -1] [0, 0.5] Spec104.onePlane id 2 onePlane_good (none, none)

example := c104_source [1, -1] [0, 0.5] Spec104.onePlane id 2 onePlane_good (by simp [Spec104.onePlane]; norm_num) 0.1 0.2

example := c104_mean [1, -1] [0, 0.5] Spec104.onePlane id 2 onePlane_good (none, none)

example := c104_straight [1, -1] [0, 0.5] Spec104.free id 2 free_good (fun _ _ _ => rfl) (none, none)

/-- The ray that the observer sees at one arcsecond reaches the source redshift at a different angle: the examples are not about
straight rays. -/
example : (Spec104.lensed Spec104.onePlane 1 0 2).x / 2 = 5 / 8 := by
  simp [Spec104.lensed, Spec104.onePlane]; norm_num

/-- A source at redshift 0.3 in front of the deflector. -/
example := c104_deflector_behind_source [1, -1] [0, 0.5] Spec104.onePlane id 0.3 { onePlane_good with source := by norm_num }
  (1 / 2) (by simp [Spec104.onePlane]) (by norm_num) (by simp [Spec104.onePlane]) 0.1 0.2

example := c104_no_source 1 0 [-1] [0.5] Spec104.onePlane id 2 (some 0.1, none) false (by simp)

/-- **C104** together with shifting a realization: shifted along the ray of one image, every halo at the redshift of a deflector that
may be moved goes by the angle at which lenstronomy's ray passes this redshift. -/
theorem c104_shift (L : Lens) (D : ℝ → ℝ) (zs : ℝ) (h : Spec104.Good L D zs) (src : Option ℝ × Option ℝ) (x y : ℝ) :
    ∃ rx ry : AngleInterp, interpolateRayPaths [x] [y] L D zs false src false = .ok ([rx], [ry]) ∧
      ∀ fx fy : Interp, (∀ d v, rx d = .ok v → fx d = v) → (∀ d v, ry d = .ok v → fy d = v) →
      ∀ (σ : Heap) (r : Realization), r.hasBeenShifted = false → r.halos.Nodup → (∀ z ∈ L.redshifts, r.lensCosmo.DC z = D z) →
      ∀ zmin, ∀ o ∈ r.halos, (σ o).fixedPosition = false → zmin ≤ (σ o).z → (σ o).z ∈ L.redshifts →
        ((r.shift σ fx fy zmin).1 o).x = (σ o).x + (Spec104.lensed L x y (σ o).z).x / D (σ o).z ∧
        ((r.shift σ fx fy zmin).1 o).y = (σ o).y + (Spec104.lensed L x y (σ o).z).y / D (σ o).z := by
  obtain ⟨rays, h1, h2⟩ := c104_rays [x] [y] L D zs h src
  simp only [List.zip_cons_cons, List.zip_nil_right] at h2
  obtain ⟨r0, t, hr, ht, rfl⟩ := List.forall₂_cons_left_iff.1 h2
  rw [List.forall₂_nil_left_iff] at ht
  subst ht
  refine ⟨r0.1, r0.2, by simpa using h1, ?_⟩
  intro fx fy hx hy σ r hs hn hD zmin o ho hf hz hm
  have e := (c13_shift_effect σ r hs hn fx fy zmin).1 o
  rw [if_pos ⟨ho, hf, hz⟩] at e
  rw [e]
  have hp := hr.planes _ (Or.inl hm)
  simp only [displaced, hD _ hm, hx _ _ hp.1, hy _ _ hp.2, and_self]

theorem onePlane_good' : Spec104.Good Spec104.onePlane (fun z => 1000 * z) 2 :=
  { onePlane_good with
    zero := by norm_num
    mono := fun a b _ h => by linarith }

example := c104_shift Spec104.onePlane (fun z => 1000 * z) 2 onePlane_good' (none, none) 1 0

/-- The first halo of the small realization is at the redshift of the deflector and may be moved. -/
example : Demo.real.hasBeenShifted = false ∧ Demo.real.halos.Nodup ∧ 0 ∈ Demo.real.halos ∧ (Demo.heap 0).fixedPosition = false ∧
    (Demo.heap 0).z ∈ Spec104.onePlane.redshifts ∧ ∀ z ∈ Spec104.onePlane.redshifts, Demo.real.lensCosmo.DC z = 1000 * z := by
  refine ⟨rfl, by simp [Demo.real, Realization.fromHalos], by simp [Demo.real, Realization.fromHalos], rfl, ?_, fun z _ => rfl⟩
  simp [Demo.heap, Demo.mk, Spec104.onePlane]

end PyHalo.Props
