import Verif.Lemmas.TransferTable
import Verif.Props.Transfer

/-!
# C43 (total masses), C76: inverting the total mass of a truncated profile with a table kept between calls
-/

namespace PyHalo.Props
open PyHalo PyHalo.Transfer PyHalo.Spec MeasureTheory
open scoped Classical

/-! ## C43: total masses of truncated profiles -/

/-- C43. The closed forms for the total mass of a truncated profile are the integrals of the truncated density over all
radii. -/
theorem c43_total_mass (special : ℝ → ℝ → ℝ) {a b g : ℝ}
    (h : (a = 1 ∧ b = 3 ∧ g = 0) ∨ (a = 1 ∧ b = 3 ∧ g = 1) ∨ (a = 2 ∧ b = 4 ∧ g = 0)) :
    ∃ f, mTotal special a b g 2 = some f ∧ ∀ tau, 0 < tau →
      IntegrableOn (shellTruncated a b g tau) (Set.Ioi 0) ∧ f tau = ∫ x in Set.Ioi 0, shellTruncated a b g tau x := by
  rcases h with ⟨rfl, rfl, rfl⟩ | ⟨rfl, rfl, rfl⟩ | ⟨rfl, rfl, rfl⟩
  · exact ⟨_, mTotal_130 special, fun tau ht => ⟨(total_130 ht).1, (total_130 ht).2.symm⟩⟩
  · exact ⟨_, mTotal_131 special, fun tau ht => ⟨(total_131 ht).1, (total_131 ht).2.symm⟩⟩
  · refine ⟨fun tau => Real.pi ^ 2 * tau ^ 2 / (tau + 1) ^ 2, ?_, fun tau ht => ⟨(total_240 ht).1, (total_240 ht).2.symm⟩⟩
    have h1 : (2 : ℝ) ≠ 1 := by norm_num
    simp only [mTotal, if_true, if_neg h1]

example (special : ℝ → ℝ → ℝ) : ∃ f, mTotal special 1 3 1 2 = some f ∧ ∀ tau, 0 < tau →
    IntegrableOn (shellTruncated 1 3 1 tau) (Set.Ioi 0) ∧ f tau = ∫ x in Set.Ioi 0, shellTruncated 1 3 1 tau x :=
  c43_total_mass special (Or.inr (Or.inl ⟨rfl, rfl, rfl⟩))

/-! ## C76: the table -/

/-- The profiles with outer slope three and inner slope zero or one, truncated with exponent two. -/
def Invertible (p : Shape) : Prop := p.alpha = 1 ∧ p.beta = 3 ∧ (p.gamma = 0 ∨ p.gamma = 1) ∧ p.delta = 2

/-- The total mass of a profile truncated at `tau`. -/
noncomputable def totalMass (p : Shape) (tau : ℝ) : ℝ :=
  ∫ x in Set.Ioi 0, shellTruncated p.alpha p.beta p.gamma tau x

/-- The states of the module after calls for invertible profiles with positive masses. -/
inductive Reaches (special : ℝ → ℝ → ℝ) (spline : List ℝ → List ℝ → ℝ → ℝ) : Table → Prop
  | start : Reaches special spline Table.init
  | call {t t' : Table} {ms l : List ℝ} {p : Shape} : Reaches special spline t → Invertible p → (∀ m ∈ ms, 0 < m) →
      truncationRadius special spline t ms p = .done t' l → Reaches special spline t'

/-- The interpolation goes through its points. -/
def Interpolates (spline : List ℝ → List ℝ → ℝ → ℝ) : Prop :=
  ∀ xs ys : List ℝ, xs.Pairwise (· < ·) → ∀ (i : ℕ) x y, xs[i]? = some x → ys[i]? = some y → spline xs ys x = y

theorem invertible_total (special : ℝ → ℝ → ℝ) {p : Shape} (h : Invertible p) :
    ∃ mtot, mTotal special p.alpha p.beta p.gamma p.delta = some mtot ∧ Covering mtot
      ∧ ∀ tau, 0 < tau → mtot tau = totalMass p tau := by
  obtain ⟨h1, h2, h3, h4⟩ := h
  unfold totalMass
  rw [h1, h2, h4]
  rcases h3 with h3 | h3 <;> rw [h3]
  · exact ⟨_, mTotal_130 special, covering_130, fun tau ht => (total_130 ht).2.symm⟩
  · exact ⟨_, mTotal_131 special, covering_131, fun tau ht => (total_131 ht).2.symm⟩

theorem reaches_sound {special : ℝ → ℝ → ℝ} {spline : List ℝ → List ℝ → ℝ → ℝ} {t : Table}
    (h : Reaches special spline t) : Sound special t := by
  induction h with
  | start => exact sound_init special
  | call _ hp hm he ih =>
    obtain ⟨mtot, h1, h2, -⟩ := invertible_total special hp
    obtain ⟨t', ht, hs, -⟩ := radius_ok (spline := spline) ih h1 h2 hm
    rw [ht] at he
    cases he
    exact hs

/-- C76. After any history of calls, a call for an invertible profile and positive masses returns: no loop runs for ever and
no mass is outside the table. There is one positive radius for each mass. A mass that is the total mass of the profile
truncated at one of the radii of the table gives that radius, whatever was asked before. -/
theorem c76_inverts {special : ℝ → ℝ → ℝ} {spline : List ℝ → List ℝ → ℝ → ℝ} {t : Table} {ms : List ℝ} {p : Shape}
    (h : Reaches special spline t) (hp : Invertible p) (hm : ∀ m ∈ ms, 0 < m) :
    ∃ t' l, truncationRadius special spline t ms p = .done t' l ∧ l.length = ms.length ∧ (∀ r ∈ l, 0 < r)
      ∧ (∀ m ∈ ms, totalMass p t'.xMin ≤ m ∧ m ≤ totalMass p t'.xMax)
      ∧ (Interpolates spline → ∀ mr ∈ ms.zip l, ∀ x, 0 < x → Real.log x ∈ t'.table.2 → mr.1 = totalMass p x → mr.2 = x) := by
  obtain ⟨mtot, h1, h2, h3⟩ := invertible_total special hp
  obtain ⟨t', ht, hs, hu, htab, hin⟩ := radius_ok (spline := spline) (reaches_sound h) h1 h2 hm
  obtain ⟨ha, ha1, hb, -⟩ := hs
  have hb0 : 0 < t'.xMax := by norm_num at hb; linarith
  refine ⟨t', _, ht, by simp [results], ?_, fun m hm => ?_, ?_⟩
  · intro r hr
    obtain ⟨m, -, rfl⟩ := List.mem_map.mp hr
    exact Real.exp_pos _
  · rw [← h3 _ ha, ← h3 _ hb0]
    exact hin m hm
  · rintro hsp ⟨m, r⟩ hmr x hx hxt hmx
    simp only at hmx ⊢
    have hr : r = Real.exp (spline t'.table.1 t'.table.2 (Real.log m)) := by
      have h4 : ms.zip (results spline t' ms) = ms.map fun m => (m, Real.exp (spline t'.table.1 t'.table.2 (Real.log m))) := by
        rw [results, zip_map_self]
      rw [h4] at hmr
      obtain ⟨m', -, e⟩ := List.mem_map.mp hmr
      cases e
      rfl
    rw [htab] at hxt hr
    obtain ⟨i, hi1, hi2⟩ := table_knot (mtot := mtot) hx hxt
    rw [hr, hmx, ← h3 x hx, hsp _ _ (table_sorted h2 ha ha1 hb) i _ _ hi1 hi2, Real.exp_log hx]

/-- The history can be any sequence of calls: it never stops early. -/
theorem c76_histories {special : ℝ → ℝ → ℝ} {spline : List ℝ → List ℝ → ℝ → ℝ} (calls : List (List ℝ × Shape))
    (h : ∀ c ∈ calls, Invertible c.2 ∧ ∀ m ∈ c.1, 0 < m) :
    ∃ t, Reaches special spline t ∧ calls.foldl (fun (s : Option Table) c => s.bind fun t =>
      match truncationRadius special spline t c.1 c.2 with
      | .done t' _ => some t'
      | _ => none) (some Table.init) = some t := by
  suffices H : ∀ t, Reaches special spline t → ∃ t', Reaches special spline t' ∧
      calls.foldl (fun (s : Option Table) c => s.bind fun t =>
      match truncationRadius special spline t c.1 c.2 with
      | .done t' _ => some t'
      | _ => none) (some t) = some t' from H _ .start
  induction calls with
  | nil => exact fun t ht => ⟨t, ht, rfl⟩
  | cons c cs ih =>
    intro t ht
    obtain ⟨hp, hm⟩ := h c (by simp)
    obtain ⟨t', l, he, -⟩ := c76_inverts ht hp hm
    obtain ⟨t'', h1, h2⟩ := ih (fun c hc => h c (by simp [hc])) t' (.call ht hp hm he)
    refine ⟨t'', h1, ?_⟩
    rw [List.foldl_cons]
    simp only [Option.bind_some, he]
    exact h2

example : ∃ t' l, truncationRadius (fun _ _ => 0) (fun _ _ _ => 0) Table.init [1, 5] ⟨1, 3, 1, 2⟩ = .done t' l
    ∧ l.length = 2 := by
  obtain ⟨t', l, h1, h2, -⟩ := c76_inverts (special := fun _ _ => 0) (spline := fun _ _ _ => 0) (ms := [1, 5])
    (p := ⟨1, 3, 1, 2⟩) .start ⟨rfl, rfl, Or.inr rfl, rfl⟩ (by norm_num)
  exact ⟨t', l, h1, h2⟩

/-- A profile without closed form (outer slope four for instance) is refused, but the call spoils the table: from then on
the profile used before is refused too. Another invertible profile repairs it. -/
theorem c76_spoiled {special : ℝ → ℝ → ℝ} {spline : List ℝ → List ℝ → ℝ → ℝ} {t : Table} {p q : Shape} {ms : List ℝ}
    (h : Reaches special spline t) (hu : t.used = some p) (hq : mTotal special q.alpha q.beta q.gamma q.delta = none) :
    ∃ t', truncationRadius special spline t ms q = .raised t' ambiguous
      ∧ (∀ ns, truncationRadius special spline t' ns p = .raised t' ambiguous)
      ∧ ∀ p' ns, Invertible p' → p' ≠ p → (∀ n ∈ ns, 0 < n) →
        ∃ t'' l, truncationRadius special spline t' ns p' = .done t'' l := by
  obtain ⟨ha, ha1, hb, hs⟩ := reaches_sound h
  have hpq : t.used ≠ some q := by
    intro hq'
    obtain ⟨m, hm, -⟩ := hs q hq'
    rw [hq] at hm
    cases hm
  refine ⟨{ t with limits := none }, ?_, fun ns => ?_, fun p' ns hp' hne hn => ?_⟩
  · rw [truncationRadius, if_neg (by simp [hpq]), if_neg (by simp [hpq]), hq]
  · rw [truncationRadius, if_pos ⟨hu, rfl⟩]
  · obtain ⟨mtot, h1, h2, -⟩ := invertible_total special hp'
    have hne' : t.used ≠ some p' := by rw [hu]; simpa using fun e => hne e.symm
    have hsnd : Sound special ⟨t.xMin, t.xMax, none, none, t.table⟩ := ⟨ha, ha1, hb, by simp⟩
    obtain ⟨t'', ht'', -⟩ := radius_ok (spline := spline) hsnd h1 h2 hn
    refine ⟨t'', _, Eq.trans ?_ ht''⟩
    simp [truncationRadius, hne', h1]

/-- For instance a query for outer slope four after one for the NFW profile. -/
theorem c76_spoiled_nfw (special : ℝ → ℝ → ℝ) (spline : List ℝ → List ℝ → ℝ → ℝ) :
    ∃ t1 l t2, truncationRadius special spline Table.init [1] ⟨1, 3, 1, 2⟩ = .done t1 l
      ∧ truncationRadius special spline t1 [1] ⟨1, 4, 1, 2⟩ = .raised t2 ambiguous
      ∧ truncationRadius special spline t2 [1] ⟨1, 3, 1, 2⟩ = .raised t2 ambiguous := by
  have hp : Invertible ⟨1, 3, 1, 2⟩ := ⟨rfl, rfl, Or.inr rfl, rfl⟩
  have hm : ∀ m ∈ [(1 : ℝ)], 0 < m := by norm_num
  obtain ⟨mtot, h1, h2, -⟩ := invertible_total special hp
  obtain ⟨t1, ht, -, hu, -⟩ := radius_ok (spline := spline) (sound_init special) h1 h2 hm
  have h43 : (4 : ℝ) ≠ 3 := by norm_num
  obtain ⟨t2, e1, e2, -⟩ := c76_spoiled (special := special) (spline := spline) (ms := [1]) (q := ⟨1, 4, 1, 2⟩)
    (.call .start hp hm ht) hu (by simp [mTotal])
  exact ⟨t1, _, t2, ht, e1, e2 _⟩

/-- The total mass of the profile (2, 4, 0) is bounded: asking for more never ends. -/
theorem c76_never_ends {special : ℝ → ℝ → ℝ} {spline : List ℝ → List ℝ → ℝ → ℝ} {m : ℝ} (hm : Real.pi ^ 2 ≤ m) :
    truncationRadius special spline Table.init [m] ⟨2, 4, 0, 2⟩ = .loops := by
  have h1 : (2 : ℝ) ≠ 1 := by norm_num
  have hnone : turns (fun k => ¬ ∃ m' ∈ [m], Real.pi ^ 2 * (1e4 * 2 ^ k) ^ 2 / (1e4 * 2 ^ k + 1) ^ 2 < m') = none := by
    rw [turns, dif_neg]
    rintro ⟨k, hk⟩
    apply hk
    refine ⟨m, by simp, lt_of_lt_of_le ?_ hm⟩
    have hpi := Real.pi_pos
    have h2 : (0 : ℝ) < 1e4 * 2 ^ k := by positivity
    rw [div_lt_iff₀ (by positivity)]
    apply mul_lt_mul_of_pos_left _ (by positivity)
    nlinarith
  simp only [truncationRadius, Table.init, mTotal, if_true, if_neg h1]
  simp only [reduceCtorEq, false_and, if_false]
  rw [hnone]
  split <;> simp_all

example (special : ℝ → ℝ → ℝ) (spline : List ℝ → List ℝ → ℝ → ℝ) := c76_never_ends (special := special) (spline := spline)
  (m := Real.pi ^ 2) le_rfl

/-! ## The whole computation -/

/-- The interpolation inverts the total mass in the range of its table. -/
def Exact (spline : List ℝ → List ℝ → ℝ → ℝ) (p : Shape) (t : Table) : Prop :=
  ∀ m, totalMass p t.xMin ≤ m → m ≤ totalMass p t.xMax →
    totalMass p (Real.exp (spline t.table.1 t.table.2 (Real.log m))) = m

/-- The first part of the computation. -/
theorem prepare_ok (hyp : ℝ → ℝ → ℝ → ℝ → ℝ) {mb m r c g d : ℝ} (hg : g = 0 ∨ g = 1) (hd : d = 2 ∨ d = 3)
    (hmb : 0 < mb) (hm : 0 < m) (hc : 0 < c) :
    ∃ f rm mref, prepare hyp mb m r c ⟨1, 3, g, d⟩ = .ok (r / c, m / mEnclosed hyp c 1 3 g, f) ∧ 0 < f ∧ f ≤ 1
      ∧ rMax 1 3 g = .ok rm ∧ refMass 1 3 g = .ok mref
      ∧ ftDu (mb / (m * mEnclosed hyp rm 1 3 g / mEnclosed hyp c 1 3 g)
        / (mref / (1e9 * mEnclosed hyp rm 1 3 g / mEnclosed hyp 20.587820037799197 1 3 g))) 1 3 g d = .ok f := by
  have hcf : ClosedForm 1 3 g := by rcases hg with rfl | rfl <;> constructor
  have hfit : Fitted 1 3 g := Fitted.a1 _ _ (Or.inl rfl) (by rcases hg with rfl | rfl <;> simp)
  obtain ⟨rm, hrm, hrm0⟩ : ∃ rm, rMax 1 3 g = .ok rm ∧ 0 < rm := by
    rcases hg with rfl | rfl <;> simp [rMax] <;> norm_num
  obtain ⟨mref, hmref, hmref0⟩ : ∃ x, refMass 1 3 g = .ok x ∧ 0 < x := by
    rcases hg with rfl | rfl <;> simp [refMass] <;> norm_num
  obtain ⟨F, hF, hF1, -⟩ := c44_fraction hfit hd
  have hcpos := closed_pos hyp hcf hc
  have hrpos := closed_pos hyp hcf hrm0
  have hrefc := closed_pos hyp hcf (by norm_num : (0 : ℝ) < 20.587820037799197)
  obtain ⟨ys, hys⟩ : ∃ ys, ys = mEnclosed hyp rm 1 3 g / mEnclosed hyp 20.587820037799197 1 3 g * 1e9 / mref := ⟨_, rfl⟩
  have hys0 : 0 < ys := by rw [hys]; positivity
  have hconv : ∃ r', convert hyp 1 3 g = .ok (ys, r') := by
    rw [hys]
    exact ⟨_, by simp only [convert, hmref, hrm, bind, Except.bind, pure, Except.pure]; rfl⟩
  obtain ⟨r', hconv⟩ := hconv
  obtain ⟨x, hx⟩ : ∃ x, x = mb / (m / mEnclosed hyp c 1 3 g * mEnclosed hyp rm 1 3 g) * ys := ⟨_, rfl⟩
  have hx0 : 0 < x := by rw [hx]; positivity
  have hprep : prepare hyp mb m r c ⟨1, 3, g, d⟩ = .ok (r / c, m / mEnclosed hyp c 1 3 g, F x) := by
    simp only [prepare, hrm, hconv, bind, Except.bind, ← hx, hF, pure, Except.pure]
  refine ⟨F x, rm, mref, hprep, (hF1 x hx0).1, (hF1 x hx0).2, hrm, hmref, ?_⟩
  rw [hF]
  congr 2
  rw [hx, hys]
  field_simp

/-- C76. For cuspy or cored profiles with outer slope three, the computation returns for all positive arguments and after
any history. The amplitude is in (0, 1] and is that of the fit for the bound mass in units of the mass inside the radius of
maximum circular velocity, relative to the same ratio of the reference model. If the interpolation is exact, then the total mass of the truncated profile with this
amplitude and truncation radius is the bound mass. The truncation is always with exponent two, also when the exponent
three is asked for (and used for the amplitude). -/
theorem c76_bound_mass {hyp : ℝ → ℝ → ℝ → ℝ → ℝ} {special : ℝ → ℝ → ℝ} {spline : List ℝ → List ℝ → ℝ → ℝ} {t : Table}
    (h : Reaches special spline t) {mb m r c g d : ℝ} (hg : g = 0 ∨ g = 1) (hd : d = 2 ∨ d = 3)
    (hmb : 0 < mb) (hm : 0 < m) (hr : 0 < r) (hc : 0 < c) :
    ∃ t' rt f, compute hyp special spline t mb m r c ⟨1, 3, g, d⟩ = .done t' (rt, f) ∧ Reaches special spline t'
      ∧ 0 < rt ∧ 0 < f ∧ f ≤ 1
      ∧ (∃ rm mref, rMax 1 3 g = .ok rm ∧ refMass 1 3 g = .ok mref
        ∧ ftDu (mb / (m * mEnclosed hyp rm 1 3 g / mEnclosed hyp c 1 3 g)
          / (mref / (1e9 * mEnclosed hyp rm 1 3 g / mEnclosed hyp 20.587820037799197 1 3 g))) 1 3 g d = .ok f)
      ∧ (Exact spline ⟨1, 3, g, 2⟩ t' →
        f * (m / mEnclosed hyp c 1 3 g) * totalMass ⟨1, 3, g, 2⟩ (rt / (r / c)) = mb) := by
  have hcf : ClosedForm 1 3 g := by rcases hg with rfl | rfl <;> constructor
  have hcpos := closed_pos hyp hcf hc
  obtain ⟨f, rm, mref, hprep, hf0, hf1, hrm, hmref, hft⟩ := prepare_ok hyp (r := r) hg hd hmb hm hc
  have hM : 0 < mb / (m / mEnclosed hyp c 1 3 g) / f := by positivity
  have hp : Invertible ⟨1, 3, g, 2⟩ := ⟨rfl, rfl, hg, rfl⟩
  obtain ⟨mtot, h1, h2, h3⟩ := invertible_total special hp
  have hms : ∀ m' ∈ [mb / (m / mEnclosed hyp c 1 3 g) / f], 0 < m' := by simpa using hM
  obtain ⟨t', ht, hs, hu, htab, hin⟩ := radius_ok (spline := spline) (reaches_sound h) h1 h2 hms
  refine ⟨t', r / c * Real.exp (spline t'.table.1 t'.table.2 (Real.log (mb / (m / mEnclosed hyp c 1 3 g) / f))), f,
    ?_, .call h hp hms ht, by positivity, hf0, hf1, ⟨rm, mref, hrm, hmref, hft⟩,
    fun hex => ?_⟩
  · rw [compute, hprep]
    simp only [ht, results, List.map_cons]
  · rw [mul_div_cancel_left₀ _ (by positivity : r / c ≠ 0)]
    have hb0 : 0 < t'.xMax := by have := hs.2.2.1; norm_num at this; linarith
    have := hin _ (List.mem_singleton.mpr rfl)
    rw [h3 _ hs.1, h3 _ hb0] at this
    rw [hex _ this.1 this.2]
    field_simp

example (spline : List ℝ → List ℝ → ℝ → ℝ) : ∃ t' rt f,
    compute (fun _ _ _ _ => 0) (fun _ _ => 0) spline Table.init 1e7 1e9 3 10 ⟨1, 3, 1, 2⟩ = .done t' (rt, f) ∧ 0 < rt ∧ 0 < f ∧ f ≤ 1 := by
  obtain ⟨t', rt, f, h1, -, h2, h3, h4, -, -⟩ := c76_bound_mass (hyp := fun _ _ _ _ => 0) (special := fun _ _ => 0)
    (spline := spline) .start (mb := 1e7) (m := 1e9) (r := 3) (c := 10) (g := 1) (d := 2) (Or.inr rfl) (Or.inl rfl)
    (by norm_num) (by norm_num) (by norm_num) (by norm_num)
  exact ⟨t', rt, f, h1, h2, h3, h4⟩

/-- The other profiles for which the fits exist are always refused, whatever the arguments: those with `alpha` two
because of a misspelt variable, those with outer slope four because of a pair where a number is needed. The table is never
made for them, so this stays so. -/
theorem c76_refused {hyp : ℝ → ℝ → ℝ → ℝ → ℝ} {special : ℝ → ℝ → ℝ} {spline : List ℝ → List ℝ → ℝ → ℝ} {t : Table}
    {a b g d mb m r c : ℝ} (h : Fitted a b g) (hn : ¬ (a = 1 ∧ b = 3)) (hu : t.used ≠ some ⟨a, b, g, 2⟩) :
    ∃ t' e, compute hyp special spline t mb m r c ⟨a, b, g, d⟩ = .raised t' e ∧ t'.used = t.used := by
  rw [compute]
  cases hp : prepare hyp mb m r c ⟨a, b, g, d⟩ with
  | error e => exact ⟨t, e, rfl, rfl⟩
  | ok v =>
    obtain ⟨rs, m0, f⟩ := v
    cases h with
    | a2 b hb =>
      rw [prepare, c43_radius_of_maximum_cored hb] at hp
      simp [bind, Except.bind] at hp
    | a1 b g hb hg =>
      have hb4 : b = 4 := hb.resolve_left fun h3 => hn ⟨rfl, h3⟩
      subst hb4
      have hnone : mTotal special 1 4 g 2 = none := by simp [mTotal]
      refine ⟨{ t with limits := none }, ambiguous, ?_, rfl⟩
      simp only
      rw [truncationRadius, if_neg (by simp [hu]), if_neg (by simp [hu]), hnone]

example (hyp : ℝ → ℝ → ℝ → ℝ → ℝ) (special : ℝ → ℝ → ℝ) (spline : List ℝ → List ℝ → ℝ → ℝ) :
    ∃ t' e, compute hyp special spline Table.init 1e7 1e9 3 10 ⟨1, 4, 1, 2⟩ = .raised t' e ∧ t'.used = none :=
  c76_refused (Fitted.a1 4 1 (Or.inr rfl) (by simp)) (by norm_num) (by simp [Table.init])

/-- C76. The vectorised version gives the same radii as the other one, when both start. -/
theorem c76_batch {special : ℝ → ℝ → ℝ} {spline : List ℝ → List ℝ → ℝ → ℝ} {ms : List ℝ} (hm : ∀ m ∈ ms, 0 < m) :
    ∃ t' l, truncationRadius special spline Table.init ms ⟨1, 3, 1, 2⟩ = .done t' l
      ∧ truncationRadiusCached special spline none ms = some (some t'.table, .ok l) := by
  have hp : Invertible ⟨1, 3, 1, 2⟩ := ⟨rfl, rfl, Or.inr rfl, rfl⟩
  obtain ⟨i, hi, hi2⟩ := turns_small covering_131 (by norm_num : (0 : ℝ) < 1e-6) hm
  obtain ⟨j, hj, hj2⟩ := turns_large covering_131 (by norm_num : (0 : ℝ) < 1e4) ms
  have ha' : (0 : ℝ) < 1e-6 / 2 ^ i := by positivity
  have ha1' : (1e-6 : ℝ) / 2 ^ i ≤ 1e-6 := div_le_self (by norm_num) (one_le_pow₀ (by norm_num))
  have hb' : (1e4 : ℝ) ≤ 1e4 * 2 ^ j := le_mul_of_one_le_right (by norm_num) (one_le_pow₀ (by norm_num))
  have hin : ∀ m ∈ ms, total131 (1e-6 / 2 ^ i) ≤ m ∧ m ≤ total131 (1e4 * 2 ^ j) := fun m hm => ⟨hi2 m hm, hj2 m hm⟩
  have hfin := finish_ok (spline := spline) (t := ⟨1e-6 / 2 ^ i, 1e4 * 2 ^ j, some ⟨1, 3, 1, 2⟩,
    some (total131 (1e-6 / 2 ^ i), total131 (1e4 * 2 ^ j)), buildTable total131 (1e-6 / 2 ^ i) (1e4 * 2 ^ j)⟩)
    covering_131 ha' ha1' hb' rfl hin
  refine ⟨_, _, Eq.trans ?_ hfin, ?_⟩
  · rw [truncationRadius, if_neg (by simp [Table.init]), if_neg (by simp [Table.init]), mTotal_131]
    simp only [Table.init, hi, hj]
  · have hmap : (ms.mapM fun m => evalSpline spline (buildTable total131 (1e-6 / 2 ^ i) (1e4 * 2 ^ j)) (Real.log m))
        = .ok _ := mapM_ok fun m hm => eval_in covering_131 ha' ha1' hb' (hin m hm).1 (hin m hm).2
    simp only [truncationRadiusCached, truncationRadiusCached.build, mTotal_131, hi, hj, hmap]
    simp [Except.map, results]

example (special : ℝ → ℝ → ℝ) (spline : List ℝ → List ℝ → ℝ → ℝ) := c76_batch (special := special) (spline := spline)
  (ms := [0.1, 2]) (by simp; norm_num)

/-- The tables of the vectorised version after any calls with positive masses. -/
inductive BatchReaches (special : ℝ → ℝ → ℝ) (spline : List ℝ → List ℝ → ℝ → ℝ) : BatchTable → Prop
  | start : BatchReaches special spline none
  | call {t t' : BatchTable} {ms : List ℝ} {l : Except Err (List ℝ)} : BatchReaches special spline t →
      (∀ m ∈ ms, 0 < m) → truncationRadiusCached special spline t ms = some (t', l) → BatchReaches special spline t'

/-- What such a table is. -/
def BatchSound (t : BatchTable) : Prop :=
  ∀ tab, t = some tab → ∃ a b, 0 < a ∧ a ≤ 1e-6 ∧ 1e4 ≤ b ∧ tab = buildTable total131 a b

theorem batch_step {special : ℝ → ℝ → ℝ} {spline : List ℝ → List ℝ → ℝ → ℝ} {t : BatchTable} {ms : List ℝ}
    (h : BatchSound t) (hm : ∀ m ∈ ms, 0 < m) :
    ∃ a b, 0 < a ∧ a ≤ 1e-6 ∧ 1e4 ≤ b ∧ (∀ m ∈ ms, total131 a ≤ m ∧ m ≤ total131 b)
      ∧ truncationRadiusCached special spline t ms = some (some (buildTable total131 a b),
        .ok (ms.map fun m => Real.exp (spline (buildTable total131 a b).1 (buildTable total131 a b).2 (Real.log m)))) := by
  have hbuild : ∀ a b, 0 < a → a ≤ 1e-6 → 1e4 ≤ b → (∀ m ∈ ms, total131 a ≤ m ∧ m ≤ total131 b) →
      ((ms.mapM fun m => evalSpline spline (buildTable total131 a b) (Real.log m)).map (·.map Real.exp) : Except Err (List ℝ))
      = .ok (ms.map fun m => Real.exp (spline (buildTable total131 a b).1 (buildTable total131 a b).2 (Real.log m))) := by
    intro a b ha ha1 hb hin
    rw [mapM_ok fun m hm => eval_in covering_131 ha ha1 hb (hin m hm).1 (hin m hm).2]
    simp [Except.map]
  obtain ⟨i, hi, hi2⟩ := turns_small covering_131 (by norm_num : (0 : ℝ) < 1e-6) hm
  obtain ⟨j, hj, hj2⟩ := turns_large covering_131 (by norm_num : (0 : ℝ) < 1e4) ms
  have ha' : (0 : ℝ) < 1e-6 / 2 ^ i := by positivity
  have ha1' : (1e-6 : ℝ) / 2 ^ i ≤ 1e-6 := div_le_self (by norm_num) (one_le_pow₀ (by norm_num))
  have hb' : (1e4 : ℝ) ≤ 1e4 * 2 ^ j := le_mul_of_one_le_right (by norm_num) (one_le_pow₀ (by norm_num))
  have hin : ∀ m ∈ ms, total131 (1e-6 / 2 ^ i) ≤ m ∧ m ≤ total131 (1e4 * 2 ^ j) := fun m hm => ⟨hi2 m hm, hj2 m hm⟩
  have hnew := hbuild _ _ ha' ha1' hb' hin
  cases t with
  | none =>
    refine ⟨_, _, ha', ha1', hb', hin, ?_⟩
    simp only [truncationRadiusCached, truncationRadiusCached.build, mTotal_131, hi, hj, hnew]
  | some tab =>
    by_cases hcov : covers tab (ms.map Real.log)
    · obtain ⟨a, b, ha, ha1, hb, rfl⟩ := h tab rfl
      obtain ⟨u, v, hu, hv, hlo, hhi⟩ := id hcov
      obtain ⟨e1, e2⟩ := table_ends (mtot := total131) ha ha1 hb
      rw [e1] at hu
      rw [e2] at hv
      cases hu
      cases hv
      have hb0 : 0 < b := by norm_num at hb; linarith
      have hin2 : ∀ m ∈ ms, total131 a ≤ m ∧ m ≤ total131 b := by
        intro m hmm
        have h1 := hlo _ (List.mem_map_of_mem (f := Real.log) hmm)
        have h2 := hhi _ (List.mem_map_of_mem (f := Real.log) hmm)
        exact ⟨(Real.log_le_log_iff (covering_131.pos a ha) (hm m hmm)).mp h1,
          (Real.log_le_log_iff (hm m hmm) (covering_131.pos b hb0)).mp h2⟩
      refine ⟨a, b, ha, ha1, hb, hin2, ?_⟩
      simp only [truncationRadiusCached, if_pos hcov, hbuild a b ha ha1 hb hin2]
    · refine ⟨_, _, ha', ha1', hb', hin, ?_⟩
      simp only [truncationRadiusCached, truncationRadiusCached.build, if_neg hcov, mTotal_131, hi, hj, hnew]

theorem batch_sound {special : ℝ → ℝ → ℝ} {spline : List ℝ → List ℝ → ℝ → ℝ} {t : BatchTable}
    (h : BatchReaches special spline t) : BatchSound t := by
  induction h with
  | start => intro tab h; cases h
  | call _ hm he ih =>
    obtain ⟨a, b, ha, ha1, hb, -, h2⟩ := batch_step (special := special) (spline := spline) ih hm
    rw [h2] at he
    cases he
    intro tab ht
    cases ht
    exact ⟨a, b, ha, ha1, hb, rfl⟩

/-- C76. The vectorised version returns for all positive masses and after any history; a mass that is the total mass for one of
the radii of its table gives that radius. -/
theorem c76_batch_inverts {special : ℝ → ℝ → ℝ} {spline : List ℝ → List ℝ → ℝ → ℝ} {t : BatchTable} {ms : List ℝ}
    (h : BatchReaches special spline t) (hm : ∀ m ∈ ms, 0 < m) :
    ∃ tab l, truncationRadiusCached special spline t ms = some (some tab, .ok l) ∧ l.length = ms.length
      ∧ (∀ r ∈ l, 0 < r)
      ∧ (Interpolates spline → ∀ mr ∈ ms.zip l, ∀ x, 0 < x → Real.log x ∈ tab.2 →
        mr.1 = totalMass ⟨1, 3, 1, 2⟩ x → mr.2 = x) := by
  obtain ⟨a, b, ha, ha1, hb, hin, he⟩ := batch_step (special := special) (spline := spline) (batch_sound h) hm
  refine ⟨_, _, he, by simp, ?_, ?_⟩
  · intro r hr
    obtain ⟨m, -, rfl⟩ := List.mem_map.mp hr
    exact Real.exp_pos _
  · rintro hsp ⟨m, r⟩ hmr x hx hxt hmx
    rw [zip_map_self] at hmr
    obtain ⟨m', -, e⟩ := List.mem_map.mp hmr
    cases e
    simp only at hmx ⊢
    obtain ⟨i, hi1, hi2⟩ := table_knot (mtot := total131) hx hxt
    have htm : totalMass ⟨1, 3, 1, 2⟩ x = total131 x := (total_131 hx).2
    rw [hmx, htm, hsp _ _ (table_sorted covering_131 ha ha1 hb) i _ _ hi1 hi2, Real.exp_log hx]

example (special : ℝ → ℝ → ℝ) (spline : List ℝ → List ℝ → ℝ → ℝ) : ∃ tab l,
    truncationRadiusCached special spline none [2, 3] = some (some tab, .ok l) ∧ l.length = 2 := by
  obtain ⟨tab, l, h1, h2, -⟩ := c76_batch_inverts (special := special) (spline := spline) (ms := [2, 3]) .start (by norm_num)
  exact ⟨tab, l, h1, h2⟩

/-- The amplitude in the first part of the computation. -/
noncomputable def amplitude (hyp : ℝ → ℝ → ℝ → ℝ → ℝ) (x : ℝ × ℝ × ℝ × ℝ) : ℝ :=
  match prepare hyp x.1 x.2.1 x.2.2.1 x.2.2.2 ⟨1, 3, 1, 2⟩ with
  | .ok (_, _, f) => f
  | .error _ => 0

/-- C76. For many halos at once: a result for each, with the same amplitude as when the halo is computed alone (in
whatever state), and the same radius in units of the scale radius as the inversion of the masses divided by the amplitudes. -/
theorem c76_batch_compute {hyp : ℝ → ℝ → ℝ → ℝ → ℝ} {special : ℝ → ℝ → ℝ} {spline : List ℝ → List ℝ → ℝ → ℝ}
    {t : BatchTable} {halos : List (ℝ × ℝ × ℝ × ℝ)} (h : BatchReaches special spline t)
    (hpos : ∀ x ∈ halos, 0 < x.1 ∧ 0 < x.2.1 ∧ 0 < x.2.2.1 ∧ 0 < x.2.2.2) :
    ∃ tab, computeVectorized hyp special spline t halos
        = some (some tab, .ok (halos.map fun x =>
          (x.2.2.1 / x.2.2.2 * Real.exp (spline tab.1 tab.2 (Real.log
            (x.1 / (x.2.1 / mEnclosed hyp x.2.2.2 1 3 1) / amplitude hyp x))), amplitude hyp x)))
      ∧ (∀ x ∈ halos, ∀ s, Reaches special spline s →
        ∃ s' rt, compute hyp special spline s x.1 x.2.1 x.2.2.1 x.2.2.2 ⟨1, 3, 1, 2⟩ = .done s' (rt, amplitude hyp x)) := by
  have key : ∀ x ∈ halos, prepare hyp x.1 x.2.1 x.2.2.1 x.2.2.2 ⟨1, 3, 1, 2⟩
      = .ok (x.2.2.1 / x.2.2.2, x.2.1 / mEnclosed hyp x.2.2.2 1 3 1, amplitude hyp x) ∧ 0 < amplitude hyp x := by
    intro x hx
    obtain ⟨h1, h2, h3, h4⟩ := hpos x hx
    obtain ⟨f, rm, mref, hp, hf0, -⟩ := prepare_ok hyp (r := x.2.2.1) (g := 1) (d := 2) (Or.inr rfl) (Or.inl rfl) h1 h2 h4
    have : amplitude hyp x = f := by rw [amplitude, hp]
    rw [this]
    exact ⟨hp, hf0⟩
  have hmap : (halos.mapM fun (x : ℝ × ℝ × ℝ × ℝ) => match x with
      | (mb, m, r, c) => (prepare hyp mb m r c ⟨1, 3, 1, 2⟩).map fun v => (mb, v))
      = .ok (halos.map fun x => (x.1, x.2.2.1 / x.2.2.2, x.2.1 / mEnclosed hyp x.2.2.2 1 3 1, amplitude hyp x)) := by
    apply mapM_ok
    rintro ⟨mb, m, r, c⟩ hx
    simp only
    rw [(key _ hx).1]
    rfl
  have hms : ∀ m ∈ (halos.map fun x => (x.1, x.2.2.1 / x.2.2.2, x.2.1 / mEnclosed hyp x.2.2.2 1 3 1, amplitude hyp x)).map
      (fun (mb, _, m0, f) => mb / m0 / f), 0 < m := by
    intro m hm
    rw [List.map_map] at hm
    obtain ⟨x, hx, rfl⟩ := List.mem_map.mp hm
    obtain ⟨h1, h2, h3, h4⟩ := hpos x hx
    have := closed_pos hyp ClosedForm.b3g1 h4
    have := (key x hx).2
    simp only [Function.comp]
    positivity
  obtain ⟨a, b, -, -, -, -, he⟩ := batch_step (special := special) (spline := spline) (batch_sound h) hms
  refine ⟨buildTable total131 a b, ?_, ?_⟩
  · rw [computeVectorized, hmap]
    simp only [he]
    rw [List.map_map, List.map_map, List.zipWith_map, List.zipWith_self]
    rfl
  · intro x hx s hs
    obtain ⟨h1, h2, h3, h4⟩ := hpos x hx
    obtain ⟨s', rt, f, hc, -, -, -, -, -, -⟩ := c76_bound_mass (hyp := hyp) hs (mb := x.1) (m := x.2.1) (r := x.2.2.1) (c := x.2.2.2)
      (g := 1) (d := 2) (Or.inr rfl) (Or.inl rfl) h1 h2 h3 h4
    have : f = amplitude hyp x := by
      have hc2 := hc
      rw [compute, (key x hx).1] at hc2
      simp only at hc2
      split at hc2 <;> cases hc2
      rfl
    exact ⟨s', rt, this ▸ hc⟩

end PyHalo.Props
