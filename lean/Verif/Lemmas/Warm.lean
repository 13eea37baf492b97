import Verif.Model.Warm
import Mathlib.Tactic

namespace PyHalo
namespace Warm
open HaloObj
open scoped Classical

/-! ### The values a halo will report -/

noncomputable def vZ (W : World) (h : Halo) : ℝ :=
  h.zInf.getD (truncNormalInfall W.N W.k W.zLens W.mHost h.mass h.vz)

noncomputable def vZE (W : World) (h : Halo) : ℝ := h.zEval.getD (if h.isSub then vZ W h else h.z)

noncomputable def vC (W : World) (h : Halo) : ℝ := h.c.getD (W.conc1 h.conc h.mass (vZE W h) h.vc)

noncomputable def vP (W : World) (h : Halo) : ℝ × ℝ × ℝ := W.nfw1 h.mass (vC W h) (vZE W h)

noncomputable def vT (W : World) (h : Halo) : Except Err (Option ℝ) :=
  if h.isSub then
    match h.time with
    | some t => .ok (some t)
    | none =>
      match Batch.timeSinceInfall W.A h.z (vZ W h) with
      | .ok t => .ok (some t)
      | .error e => .error e
  else .ok none

noncomputable def vDraw (W : World) (ch : ℝ) (h : Halo) : Except Err ℝ :=
  match vT W h with
  | .ok (some t) => .ok (h.mass * (10 : ℝ) ^
      MassLoss.galacticus.call (Real.logb 10 (vC W h)) t ch (h.vb h.drawn))
  | .ok none => .error noTime
  | .error e => .error e

def notGalacticus : Err := .exception
      "this method can only be called when using one of the TruncationGalacticus class"

noncomputable def vMb (W : World) (h : Halo) : Except Err ℝ :=
  match h.trunc with
  | .galacticus ch =>
    match h.mb with
    | some m => .ok m
    | none => vDraw W ch h
  | _ => .error notGalacticus

noncomputable def vRad (W : World) (h : Halo) : Except Err (ℝ × Option ℝ) :=
  match h.trunc with
  | .galacticus ch =>
    match (if h.isSub then vMb W h else vDraw W ch h) with
    | .ok m => .ok ((W.rte m h.mass (vP W h).2.2 (vC W h)).1, some (W.rte m h.mass (vP W h).2.2 (vC W h)).2)
    | .error e => .error e
  | .zinfall _ => .error notGalacticus
  | .multipleRs tau => .ok (tau * (vP W h).2.1, none)
  | .rn N => .ok (Trunc.rn W.e N h.mass (vZE W h), none)
  | .other i => .ok (W.other i h.mass (vC W h) (vZE W h) (h.vb h.drawn), none)

noncomputable def vProf (W : World) (h : Halo) : Except Err (ℝ × ℝ) :=
  match h.prof with
  | some p => .ok p
  | none =>
    match vRad W h with
    | .ok q => .ok (vC W h, q.1)
    | .error e => .error e

noncomputable def vNorm (W : World) (h : Halo) : ℝ :=
  if h.kind = .nfw then h.norm.norm
  else
    match h.prof with
    | some _ => h.norm.norm
    | none =>
      match vRad W h with
      | .ok (_, some f) => (h.norm.rescale f false true).1.norm
      | _ => h.norm.norm

/-- All of them, with the data given at construction. -/
structure Core where
  kind : Kind
  mass : ℝ
  x : ℝ
  y : ℝ
  z : ℝ
  isSub : Bool
  trunc : Tr
  zInf : ℝ
  zEval : ℝ
  c : ℝ
  time : Except Err (Option ℝ)
  mb : Except Err ℝ
  prof : Except Err (ℝ × ℝ)
  norm : ℝ
  phys : Option (ℝ × ℝ × ℝ × ℝ)
  kw : Option TnfwKw
  vmaxC : Option ℝ
  boundC : Option ℝ

noncomputable def core (W : World) (h : Halo) : Core :=
  ⟨h.kind, h.mass, h.x, h.y, h.z, h.isSub, h.trunc, vZ W h, vZE W h, vC W h, vT W h, vMb W h,
    vProf W h, vNorm W h, h.phys, h.kw, h.vmaxC, h.boundC⟩

/-- The states that occur. -/
structure Good (W : World) (h : Halo) : Prop where
  kind : h.kind = .nfw ∨ h.kind = .tnfw
  trunc : ∀ ch, h.trunc ≠ .zinfall ch
  nfw : ∀ p, h.nfw = some p → h.zEval.isSome ∧ h.c.isSome ∧ p = vP W h
  none : h.prof = none → h.phys = none ∧ h.kw = none

/-- `h'` is `h` with the attributes before the truncation filled in. -/
structure Fills (W : World) (h h' : Halo) : Prop where
  core : core W h' = core W h
  good : Good W h → Good W h'
  prof : h'.prof = h.prof
  mb : h'.mb = h.mb
  vb : h'.vb = h.vb
  drawn : h'.drawn = h.drawn
  norm : h'.norm = h.norm
  czt : (h.c.isSome → h'.c.isSome) ∧ (h.zEval.isSome → h'.zEval.isSome)

variable {W : World} {h h' h'' : Halo}

theorem Fills.refl (W : World) (h : Halo) : Fills W h h := ⟨rfl, id, rfl, rfl, rfl, rfl, rfl, id, id⟩

theorem Fills.trans (a : Fills W h h') (b : Fills W h' h'') : Fills W h h'' :=
  ⟨b.core.trans a.core, fun g => b.good (a.good g), b.prof.trans a.prof, b.mb.trans a.mb,
    b.vb.trans a.vb, b.drawn.trans a.drawn, b.norm.trans a.norm,
    fun x => b.czt.1 (a.czt.1 x), fun x => b.czt.2 (a.czt.2 x)⟩

theorem core_of (e1 : h'.kind = h.kind) (e2 : h'.mass = h.mass) (e3 : h'.x = h.x) (e4 : h'.y = h.y)
    (e5 : h'.z = h.z) (e6 : h'.isSub = h.isSub) (e7 : h'.trunc = h.trunc) (e8 : vZ W h' = vZ W h)
    (e9 : vZE W h' = vZE W h) (e10 : vC W h' = vC W h) (e11 : vT W h' = vT W h) (e12 : h'.mb = h.mb)
    (e13 : h'.vb = h.vb) (e14 : h'.drawn = h.drawn) (e15 : h'.prof = h.prof) (e16 : h'.norm = h.norm)
    (e17 : h'.phys = h.phys) (e18 : h'.kw = h.kw) (e19 : h'.vmaxC = h.vmaxC)
    (e20 : h'.boundC = h.boundC) : core W h' = core W h := by
  have d : ∀ ch, vDraw W ch h' = vDraw W ch h := by
    intro ch; simp only [vDraw, e2, e10, e11, e13, e14]
  have m : vMb W h' = vMb W h := by simp only [vMb, e7, e12, d]
  have p : vP W h' = vP W h := by simp only [vP, e2, e9, e10]
  have r : vRad W h' = vRad W h := by simp only [vRad, e7, e6, m, d, e2, p, e10, e9, e13, e14]
  simp only [core, e1, e2, e3, e4, e5, e6, e7, e8, e9, e10, e11, m, vProf, vNorm, e15, r, e16, e17, e18,
    e19, e20]

theorem fill_zInf (W : World) (h : Halo) : Fills W h { h with zInf := some (vZ W h) } := by
  have a : vZ W { h with zInf := some (vZ W h) } = vZ W h := rfl
  have b : vZE W { h with zInf := some (vZ W h) } = vZE W h := by simp only [vZE, a]
  have c : vC W { h with zInf := some (vZ W h) } = vC W h := by simp only [vC, b]
  have t : vT W { h with zInf := some (vZ W h) } = vT W h := by simp only [vT, a]
  refine ⟨core_of rfl rfl rfl rfl rfl rfl rfl a b c t rfl rfl rfl rfl rfl rfl rfl rfl rfl,
    fun g => ⟨g.kind, g.trunc, fun p hp => ?_, g.none⟩, rfl, rfl, rfl, rfl, rfl, id, id⟩
  obtain ⟨x, y, z⟩ := g.nfw p hp
  exact ⟨x, y, by rw [z]; simp only [vP, b, c]⟩

theorem fill_zEval (W : World) (h : Halo) : Fills W h { h with zEval := some (vZE W h) } := by
  have a : vZ W { h with zEval := some (vZE W h) } = vZ W h := rfl
  have b : vZE W { h with zEval := some (vZE W h) } = vZE W h := rfl
  have c : vC W { h with zEval := some (vZE W h) } = vC W h := by simp only [vC, b]
  have t : vT W { h with zEval := some (vZE W h) } = vT W h := by simp only [vT, a]
  refine ⟨core_of rfl rfl rfl rfl rfl rfl rfl a b c t rfl rfl rfl rfl rfl rfl rfl rfl rfl,
    fun g => ⟨g.kind, g.trunc, fun p hp => ?_, g.none⟩, rfl, rfl, rfl, rfl, rfl, id, fun _ => rfl⟩
  obtain ⟨x, y, z⟩ := g.nfw p hp
  exact ⟨rfl, y, by rw [z]; simp only [vP, b, c]⟩

theorem fill_c (W : World) (h : Halo) : Fills W h { h with c := some (vC W h) } := by
  have a : vZ W { h with c := some (vC W h) } = vZ W h := rfl
  have b : vZE W { h with c := some (vC W h) } = vZE W h := rfl
  have c : vC W { h with c := some (vC W h) } = vC W h := rfl
  have t : vT W { h with c := some (vC W h) } = vT W h := rfl
  refine ⟨core_of rfl rfl rfl rfl rfl rfl rfl a b c t rfl rfl rfl rfl rfl rfl rfl rfl rfl,
    fun g => ⟨g.kind, g.trunc, fun p hp => ?_, g.none⟩, rfl, rfl, rfl, rfl, rfl, fun _ => rfl, id⟩
  obtain ⟨x, y, z⟩ := g.nfw p hp
  exact ⟨x, rfl, by rw [z]; simp only [vP, b, c]⟩

theorem fill_time {t : ℝ} (ht : vT W h = .ok (some t)) : Fills W h { h with time := some t } := by
  have s : h.isSub = true := by
    by_contra hs
    simp [vT, hs] at ht
  have t : vT W { h with time := some t } = vT W h := by rw [ht]; simp [vT, s]
  exact ⟨core_of rfl rfl rfl rfl rfl rfl rfl rfl rfl rfl t rfl rfl rfl rfl rfl rfl rfl rfl rfl,
    fun g => ⟨g.kind, g.trunc, g.nfw, g.none⟩, rfl, rfl, rfl, rfl, rfl, id, id⟩

theorem fill_nfw (W : World) (h : Halo) (hz : h.zEval.isSome) (hc : h.c.isSome) :
    Fills W h { h with nfw := some (vP W h) } :=
  ⟨core_of rfl rfl rfl rfl rfl rfl rfl rfl rfl rfl rfl rfl rfl rfl rfl rfl rfl rfl rfl rfl,
    fun g => ⟨g.kind, g.trunc, fun p hp => ⟨hz, hc, by cases hp; rfl⟩, g.none⟩,
    rfl, rfl, rfl, rfl, rfl, id, id⟩

/-! ### The reads -/

theorem core_eq {h h' : Halo} (e : core W h' = core W h) :
    h'.kind = h.kind ∧ h'.mass = h.mass ∧ h'.x = h.x ∧ h'.y = h.y ∧ h'.z = h.z ∧ h'.isSub = h.isSub ∧
    h'.trunc = h.trunc ∧ vZ W h' = vZ W h ∧ vZE W h' = vZE W h ∧ vC W h' = vC W h ∧ vT W h' = vT W h ∧
    vMb W h' = vMb W h ∧ vProf W h' = vProf W h ∧ vNorm W h' = vNorm W h ∧ h'.phys = h.phys ∧
    h'.kw = h.kw ∧ h'.vmaxC = h.vmaxC ∧ h'.boundC = h.boundC := by
  simpa only [core, Core.mk.injEq] using e

theorem readZ_spec (W : World) (h : Halo) :
    Fills W h (h.readZ W).1 ∧ (h.readZ W).2 = vZ W h ∧ (h.readZ W).1.zInf = some (vZ W h) := by
  unfold Halo.readZ
  cases hz : h.zInf with
  | some z => exact ⟨.refl _ _, by simp [vZ, hz], by simp [vZ, hz]⟩
  | none =>
    have := fill_zInf W h
    have e : vZ W h = truncNormalInfall W.N W.k W.zLens W.mHost h.mass h.vz := by simp [vZ, hz]
    rw [e] at this ⊢
    exact ⟨this, rfl, rfl⟩

theorem readZEval_spec (W : World) (h : Halo) :
    Fills W h (h.readZEval W).1 ∧ (h.readZEval W).2 = vZE W h ∧
    (h.readZEval W).1.zEval = some (vZE W h) ∧ (h.readZEval W).1.c = h.c := by
  unfold Halo.readZEval
  cases hz : h.zEval with
  | some z => exact ⟨.refl _ _, by simp [vZE, hz], by simp [vZE, hz], rfl⟩
  | none =>
    by_cases hs : h.isSub = true
    · obtain ⟨f, v, k⟩ := readZ_spec W h
      have cc : (h.readZ W).1.c = h.c := by unfold Halo.readZ; cases h.zInf <;> rfl
      have e : vZE W (h.readZ W).1 = vZ W h := by
        rw [(core_eq f.core).2.2.2.2.2.2.2.2.1]; simp [vZE, hz, hs]
      have e' : vZE W h = vZ W h := by simp [vZE, hz, hs]
      have := f.trans (fill_zEval W (h.readZ W).1)
      simp only [if_pos hs, v]
      rw [e] at this
      rw [e']
      exact ⟨this, rfl, rfl, cc⟩
    · have := fill_zEval W h
      have e : vZE W h = h.z := by simp [vZE, hz, hs]
      rw [e] at this ⊢
      simp only [if_neg hs]
      exact ⟨this, trivial, trivial, trivial⟩

theorem readC_spec (W : World) (h : Halo) :
    Fills W h (h.readC W).1 ∧ (h.readC W).2 = vC W h ∧ (h.readC W).1.c = some (vC W h) := by
  unfold Halo.readC
  cases hc : h.c with
  | some c => exact ⟨.refl _ _, by simp [vC, hc], by simp [vC, hc]⟩
  | none =>
    obtain ⟨f, v, k, l⟩ := readZEval_spec W h
    have ce := core_eq f.core
    have e : W.conc1 (h.readZEval W).1.conc (h.readZEval W).1.mass (h.readZEval W).2 (h.readZEval W).1.vc
        = vC W (h.readZEval W).1 := by
      unfold vC
      rw [l, hc, ce.2.2.2.2.2.2.2.2.1, v]
      rfl
    have e' : vC W (h.readZEval W).1 = vC W h := ce.2.2.2.2.2.2.2.2.2.1
    have := f.trans (fill_c W (h.readZEval W).1)
    simp only [e, e']
    rw [e'] at this
    exact ⟨this, by trivial⟩

theorem readC_of_some {c : ℝ} (e : h.c = some c) : h.readC W = (h, c) := by
  unfold Halo.readC; rw [e]

theorem readZEval_of_some {z : ℝ} (e : h.zEval = some z) : h.readZEval W = (h, z) := by
  unfold Halo.readZEval; rw [e]

theorem readTime_spec (W : World) (h : Halo) :
    Fills W h (h.readTime W).1 ∧ (h.readTime W).2 = vT W h ∧ (h.readTime W).1.c = h.c := by
  unfold Halo.readTime
  cases hs : h.isSub with
  | false => exact ⟨.refl _ _, by simp [vT, hs], rfl⟩
  | true =>
    simp only [if_true]
    cases ht : h.time with
    | some t => exact ⟨.refl _ _, by simp [vT, hs, ht], rfl⟩
    | none =>
      obtain ⟨f, v, k⟩ := readZ_spec W h
      have cc : (h.readZ W).1.c = h.c := by unfold Halo.readZ; cases h.zInf <;> rfl
      have hz : (h.readZ W).1.z = h.z := (core_eq f.core).2.2.2.2.1
      have vt : vT W h = match Batch.timeSinceInfall W.A h.z (vZ W h) with
          | .ok t => .ok (some t)
          | .error e => .error e := by
        unfold vT; rw [hs, ht]; rfl
      rcases hr : h.readZ W with ⟨h1, z1⟩
      rw [hr] at f v cc hz
      simp only at f v cc hz
      subst v
      simp only
      rw [← hz] at vt
      cases hb : Batch.timeSinceInfall W.A h1.z (vZ W h) with
      | error e => exact ⟨f, by rw [vt, hb], cc⟩
      | ok t =>
        rw [hb] at vt
        refine ⟨f.trans (fill_time ?_), vt.symm, cc⟩
        rw [(core_eq f.core).2.2.2.2.2.2.2.2.2.2.1, vt]

theorem readNfw_spec (g : Good W h) :
    Fills W h (h.readNfw W).1 ∧ (h.readNfw W).2 = vP W h := by
  unfold Halo.readNfw
  cases hn : h.nfw with
  | some p => exact ⟨.refl _ _, (g.nfw p hn).2.2⟩
  | none =>
    obtain ⟨f, v, k⟩ := readC_spec W h
    obtain ⟨f', v', k', l'⟩ := readZEval_spec W (h.readC W).1
    rcases hr : h.readC W with ⟨h1, c1⟩
    rw [hr] at f v k f' v' k' l'
    simp only at f v k f' v' k' l'
    rcases hr' : h1.readZEval W with ⟨h2, z2⟩
    rw [hr'] at f' v' k' l'
    simp only at f' v' k' l'
    have a := core_eq (f.trans f').core
    have e : vP W h2 = vP W h := by
      unfold vP
      rw [a.2.1, a.2.2.2.2.2.2.2.2.1, a.2.2.2.2.2.2.2.2.2.1]
    have ez : vZE W h1 = vZE W h := (core_eq f.core).2.2.2.2.2.2.2.2.1
    have := (f.trans f').trans (fill_nfw W h2 (by rw [k']; rfl) (by rw [l', k]; rfl))
    simp only [hr']
    have ep : W.nfw1 h2.mass c1 z2 = vP W h := by
      rw [a.2.1, v, v', ez]; rfl
    rw [ep]
    rw [e] at this
    exact ⟨this, rfl⟩

/-- `h'` reports what `h` reports. -/
structure Keeps (W : World) (h h' : Halo) : Prop where
  core : core W h' = core W h
  good : Good W h → Good W h'

theorem Keeps.refl (W : World) (h : Halo) : Keeps W h h := ⟨rfl, id⟩

theorem Keeps.trans (a : Keeps W h h') (b : Keeps W h' h'') : Keeps W h h'' :=
  ⟨b.core.trans a.core, fun g => b.good (a.good g)⟩

theorem Fills.keeps (a : Fills W h h') : Keeps W h h' := ⟨a.core, a.good⟩

theorem fill_mb {ch m : ℝ} (d : ℕ) (ht : h.trunc = .galacticus ch) (hm : vMb W h = .ok m) :
    Keeps W h { h with mb := some m, drawn := d } := by
  have a : vMb W { h with mb := some m, drawn := d } = vMb W h := by
    rw [hm]; simp [vMb, ht]
  have r : vRad W { h with mb := some m, drawn := d } = vRad W h := by
    by_cases hs : h.isSub = true
    · have key : ∀ h' : Halo, h'.trunc = .galacticus ch → h'.isSub = true → vRad W h' =
          match vMb W h' with
          | .ok m => .ok ((W.rte m h'.mass (vP W h').2.2 (vC W h')).1,
              some (W.rte m h'.mass (vP W h').2.2 (vC W h')).2)
          | .error e => .error e := by
        intro h' a b
        simp only [vRad, a, if_pos b]
      rw [key _ ht hs, key { h with mb := some m, drawn := d } ht hs, a]
      rfl
    · have hf : h.isSub = false := by simpa using hs
      simp [vRad, ht, hf, vDraw, vT]
  refine ⟨?_, fun g => ⟨g.kind, g.trunc, g.nfw, g.none⟩⟩
  have t : vT W { h with mb := some m, drawn := d } = vT W h := rfl
  have c : vC W { h with mb := some m, drawn := d } = vC W h := rfl
  have z : vZ W { h with mb := some m, drawn := d } = vZ W h := rfl
  have ze : vZE W { h with mb := some m, drawn := d } = vZE W h := rfl
  simp only [Warm.core, vProf, vNorm, a, r, t, c, z, ze]

theorem mbound_spec (W : World) (ch : ℝ) (h : Halo) :
    (h.mboundGalacticus W ch).2 = vDraw W ch h ∧
    ∃ h0 d, Fills W h h0 ∧ h0.c = some (vC W h) ∧ (h.mboundGalacticus W ch).1 = { h0 with drawn := d } ∧
      ((∃ e, vDraw W ch h = .error e) → d = h0.drawn) := by
  obtain ⟨f, v, k⟩ := readC_spec W h
  rcases hr : h.readC W with ⟨h1, c1⟩
  rw [hr] at f v k
  simp only at f v k
  obtain ⟨f', v', k'⟩ := readTime_spec W h1
  rcases hr' : h1.readTime W with ⟨h2, t2⟩
  rw [hr'] at f' v' k'
  simp only at f' v' k'
  have ff := f.trans f'
  have a := core_eq ff.core
  have et : vT W h1 = vT W h := (core_eq f.core).2.2.2.2.2.2.2.2.2.2.1
  rw [et] at v'
  unfold Halo.mboundGalacticus vDraw
  simp only [hr, hr']
  rw [← v']
  rcases t2 with e | (_ | t)
  · exact ⟨rfl, h2, h2.drawn, ff, by rw [k', k], rfl, fun _ => rfl⟩
  · exact ⟨rfl, h2, h2.drawn, ff, by rw [k', k], rfl, fun _ => rfl⟩
  · refine ⟨?_, h2, h2.drawn + 1, ff, by rw [k', k], rfl, fun ⟨e, he⟩ => by cases he⟩
    show Except.ok (h2.mass * (10 : ℝ) ^
      MassLoss.galacticus.call (Real.logb 10 c1) t ch (h2.vb h2.drawn)) = _
    rw [a.2.1, v, ff.vb, ff.drawn]

theorem readMb_spec (W : World) (h : Halo) (hz : ∀ ch, h.trunc ≠ .zinfall ch) :
    (h.readMb W).2 = vMb W h ∧ Keeps W h (h.readMb W).1 ∧ (h.readMb W).1.prof = h.prof ∧
    (h.readMb W).1.norm = h.norm ∧
    (∀ m, vMb W h = .ok m → (h.readMb W).1.mb = some m) := by
  unfold Halo.readMb
  cases ht : h.trunc with
  | zinfall ch => exact absurd ht (hz ch)
  | multipleRs tau => exact ⟨by simp [vMb, ht, notGalacticus], .refl _ _, rfl, rfl, fun m hm => by simp [vMb, ht] at hm⟩
  | rn N => exact ⟨by simp [vMb, ht, notGalacticus], .refl _ _, rfl, rfl, fun m hm => by simp [vMb, ht] at hm⟩
  | other i => exact ⟨by simp [vMb, ht, notGalacticus], .refl _ _, rfl, rfl, fun m hm => by simp [vMb, ht] at hm⟩
  | galacticus ch =>
    simp only
    cases hm : h.mb with
    | some m => exact ⟨by simp [vMb, ht, hm], .refl _ _, rfl, rfl, fun m' hm' => by
        simp [vMb, ht, hm] at hm'; rw [hm'] at hm; exact hm⟩
    | none =>
      obtain ⟨v, h0, d, f, k, e, de⟩ := mbound_spec W ch h
      have vm : vMb W h = vDraw W ch h := by simp [vMb, ht, hm]
      rcases hr : h.mboundGalacticus W ch with ⟨h1, r⟩
      rw [hr] at v e
      simp only at v e
      subst v
      cases hd : vDraw W ch h with
      | error er =>
        have := de ⟨er, hd⟩
        subst this
        have e' : h1 = h0 := by rw [e]
        subst e'
        refine ⟨by rw [vm, hd], f.keeps, f.prof, f.norm, fun m hm' => by rw [vm, hd] at hm'; cases hm'⟩
      | ok m =>
        have a := core_eq f.core
        subst e
        have km := fill_mb (W := W) (h := h0) (ch := ch) (m := m) d (by rw [a.2.2.2.2.2.2.1, ht])
          (by rw [a.2.2.2.2.2.2.2.2.2.2.2.1, vm, hd])
        refine ⟨by rw [vm, hd], f.keeps.trans km, f.prof, f.norm, fun m' hm' => ?_⟩
        rw [vm, hd] at hm'
        cases hm'
        rfl

/-- The state after the truncation radius is known. -/
theorem settle {r c : ℝ} {fo : Option ℝ} {nn : Option (ℝ × ℝ × ℝ)} {n : Norm} (d : ℕ) (g : Good W h)
    (hp : h.prof = none) (hr : vRad W h = .ok (r, fo)) (hc : c = vC W h)
    (hn : nn = h.nfw ∨ nn = none ∨ (nn = some (vP W h) ∧ h.zEval.isSome ∧ h.c.isSome))
    (hd : d = h.drawn ∨ (∀ ch, h.trunc = .galacticus ch → h.mb.isSome))
    (hno : n = match fo with | some f => (h.norm.rescale f false true).1 | none => h.norm)
    (hk : h.kind = .tnfw) :
    Keeps W h { h with drawn := d, prof := some (c, r), norm := n, phys := none, kw := none, nfw := nn } := by
  obtain ⟨g1, g2⟩ := g.none hp
  have a : vMb W { h with drawn := d, prof := some (c, r), norm := n, phys := none, kw := none, nfw := nn }
      = vMb W h := by
    rcases hd with hd | hd
    · subst hd; rfl
    · cases ht : h.trunc with
      | galacticus ch =>
        obtain ⟨m, hm⟩ := Option.isSome_iff_exists.1 (hd ch ht)
        simp [vMb, ht, hm]
      | _ => simp [vMb, ht]
  refine ⟨?_, fun _ => ⟨g.kind, g.trunc, fun p hp' => ?_, fun e => by cases e⟩⟩
  · have e1 : vProf W h = .ok (c, r) := by simp [vProf, hp, hr, hc]
    have e2 : vNorm W h = n.norm := by
      simp only [vNorm, hk, reduceCtorEq, if_false, hp, hr, hno]
      cases fo <;> rfl
    have t : vT W { h with drawn := d, prof := some (c, r), norm := n, phys := none, kw := none, nfw := nn } = vT W h := rfl
    have cc : vC W { h with drawn := d, prof := some (c, r), norm := n, phys := none, kw := none, nfw := nn } = vC W h := rfl
    have z : vZ W { h with drawn := d, prof := some (c, r), norm := n, phys := none, kw := none, nfw := nn } = vZ W h := rfl
    have ze : vZE W { h with drawn := d, prof := some (c, r), norm := n, phys := none, kw := none, nfw := nn } = vZE W h := rfl
    have e3 : vNorm W { h with drawn := d, prof := some (c, r), norm := n, phys := none, kw := none, nfw := nn }
        = n.norm := by
      unfold vNorm; split <;> rfl
    have e4 : vProf W { h with drawn := d, prof := some (c, r), norm := n, phys := none, kw := none, nfw := nn }
        = .ok (c, r) := rfl
    simp only [Warm.core, a, t, cc, z, ze, e1, e2, e3, e4, g1, g2]
  · have vp : vP W { h with drawn := d, prof := some (c, r), norm := n, phys := none, kw := none, nfw := nn } = vP W h := rfl
    rw [vp]
    simp only at hp'
    rcases hn with hn | hn | ⟨hn, x, y⟩
    · rw [hn] at hp'; exact g.nfw p hp'
    · rw [hn] at hp'; cases hp'
    · rw [hn] at hp'; cases hp'; exact ⟨x, y, rfl⟩

theorem rescale_form (g1 : h.phys = none) (g2 : h.kw = none) (f : ℝ) (p : Option (ℝ × ℝ)) :
    (∃ nn, (nn = h.nfw ∨ nn = none) ∧ { h.rescale ⟨f, false, true⟩ with prof := p }
      = { h with drawn := h.drawn, prof := p, norm := (h.norm.rescale f false true).1, phys := none,
                 kw := none, nfw := nn }) ∧
    (∀ q, { h.rescale ⟨f, false, true⟩ with nfw := q, prof := p }
      = { h with drawn := h.drawn, prof := p, norm := (h.norm.rescale f false true).1, phys := none,
                 kw := none, nfw := q }) ∧
    (h.rescale ⟨f, false, true⟩).c = h.c ∧ (h.rescale ⟨f, false, true⟩).zEval = h.zEval := by
  cases h with
  | mk kind mass x y z isSub conc trunc vz vc vb drawn zInf time zEval c nfw mb prof phys kw vmaxC boundC norm =>
  simp only at g1 g2
  subst g1 g2
  unfold Halo.rescale
  simp only
  split
  · exact ⟨⟨none, .inr rfl, rfl⟩, fun _ => rfl, rfl, rfl⟩
  · exact ⟨⟨nfw, .inl rfl, rfl⟩, fun _ => rfl, rfl, rfl⟩

theorem radiusFromBound_spec (W : World) (h : Halo) (m : ℝ) :
    ∃ h1, Fills W h h1 ∧ h1.c = some (vC W h) ∧ h1.zEval = some (vZE W h) ∧
      h.radiusFromBound W m = (h1.rescale ⟨(W.rte m h.mass (vP W h).2.2 (vC W h)).2, false, true⟩,
        (W.rte m h.mass (vP W h).2.2 (vC W h)).1) := by
  obtain ⟨f, v, k⟩ := readC_spec W h
  rcases hr : h.readC W with ⟨h1, c1⟩
  rw [hr] at f v k
  simp only at f v k
  obtain ⟨f', v', k', l'⟩ := readZEval_spec W h1
  rcases hr' : h1.readZEval W with ⟨h2, z2⟩
  rw [hr'] at f' v' k' l'
  simp only at f' v' k' l'
  have ff := f.trans f'
  have a := core_eq ff.core
  have ez : vZE W h1 = vZE W h := (core_eq f.core).2.2.2.2.2.2.2.2.1
  refine ⟨h2, ff, by rw [l', k], by rw [k', ez], ?_⟩
  unfold Halo.radiusFromBound
  simp only [hr, hr']
  subst v v'
  rw [a.2.1, ez]
  rfl

theorem vP_core {h h' : Halo} (e : core W h' = core W h) : vP W h' = vP W h := by
  have a := core_eq e
  unfold vP
  rw [a.2.1, a.2.2.2.2.2.2.2.2.1, a.2.2.2.2.2.2.2.2.2.1]

theorem vRad_fills (f : Fills W h h') : vRad W h' = vRad W h := by
  have a := core_eq f.core
  have d : ∀ ch, vDraw W ch h' = vDraw W ch h := by
    intro ch
    simp only [vDraw, a.2.1, a.2.2.2.2.2.2.2.2.2.1, a.2.2.2.2.2.2.2.2.2.2.1, f.vb, f.drawn]
  simp only [vRad, a.2.1, a.2.2.2.2.2.1, a.2.2.2.2.2.2.1, a.2.2.2.2.2.2.2.2.1, a.2.2.2.2.2.2.2.2.2.1,
    a.2.2.2.2.2.2.2.2.2.2.2.1, d, vP_core f.core, f.vb, f.drawn]

/-- The last steps of `profile_args` for a model based on a bound mass. -/
theorem finish_bound {m : ℝ} (g : Good W h) (hk : h.kind = .tnfw) (hp : h.prof = none)
    (hr : vRad W h = .ok ((W.rte m h.mass (vP W h).2.2 (vC W h)).1,
      some (W.rte m h.mass (vP W h).2.2 (vC W h)).2)) :
    ∃ s c, (h.radiusFromBound W m).1.readC W = (s, c) ∧ c = vC W h ∧
      Keeps W h { s with prof := some (c, (h.radiusFromBound W m).2) } := by
  obtain ⟨h1, f, k, l, e⟩ := radiusFromBound_spec W h m
  have a := core_eq f.core
  rw [e]
  simp only
  have g' := f.good g
  have hp' : h1.prof = none := f.prof.trans hp
  obtain ⟨g1, g2⟩ := g'.none hp'
  obtain ⟨⟨nn, hnn, fm⟩, _, fc, _⟩ := rescale_form g1 g2 (W.rte m h.mass (vP W h).2.2 (vC W h)).2
    (some (vC W h, (W.rte m h.mass (vP W h).2.2 (vC W h)).1))
  refine ⟨_, _, readC_of_some (fc.trans k), rfl, f.keeps.trans ?_⟩
  rw [fm]
  refine settle h1.drawn g' hp' ((vRad_fills f).trans hr) a.2.2.2.2.2.2.2.2.2.1.symm ?_ (.inl rfl) rfl
    (a.1.trans hk)
  rcases hnn with x | x
  · exact .inl x
  · exact .inr (.inl x)

theorem readC_drawn (W : World) (h : Halo) (d : ℕ) :
    ({ h with drawn := d } : Halo).readC W = ({ (h.readC W).1 with drawn := d }, (h.readC W).2) := by
  cases h with
  | mk kind mass x y z isSub conc trunc vz vc vb drawn zInf time zEval c nfw mb prof phys kw vmaxC boundC norm =>
  cases c with
  | some c => rfl
  | none =>
    cases zEval with
    | some z => rfl
    | none =>
      cases isSub with
      | false => rfl
      | true => cases zInf <;> rfl

theorem readProf_spec (g : Good W h) (hk : h.kind = .tnfw) :
    (h.readProf W).2 = vProf W h ∧ Keeps W h (h.readProf W).1 ∧
    (∀ p, vProf W h = .ok p → (h.readProf W).1.prof = some p) := by
  unfold Halo.readProf
  cases hp : h.prof with
  | some p => exact ⟨by simp [vProf, hp], .refl _ _, fun q hq => by simpa [vProf, hp] using hq⟩
  | none =>
    simp only [hk, reduceCtorEq, if_false]
    have vp : vProf W h = match vRad W h with
        | .ok q => .ok (vC W h, q.1)
        | .error e => .error e := by simp [vProf, hp]
    unfold Halo.askRadius
    -- plain models: nothing is rescaled
    have plain : ∀ (h1 : Halo) (d : ℕ) (r : ℝ), Fills W h h1 → vRad W h = .ok (r, none) →
        (∀ ch, h.trunc ≠ .galacticus ch) →
        ∃ s c, ({ h1 with drawn := d } : Halo).readC W = (s, c) ∧ c = vC W h ∧
          Keeps W h { s with prof := some (c, r) } := by
      intro h1 d r f hr ht
      have a := core_eq f.core
      have hr1 := (vRad_fills f).trans hr
      obtain ⟨f2, v2, k2⟩ := readC_spec W h1
      have a2 := core_eq (f.trans f2).core
      have form : ({ h1 with drawn := d } : Halo).readC W = ({ (h1.readC W).1 with drawn := d }, vC W h) := by
        have e1 : (h1.readC W).2 = vC W h := by rw [v2, a.2.2.2.2.2.2.2.2.2.1]
        rw [← e1]
        exact readC_drawn W h1 d
      refine ⟨_, _, form, rfl, (f.trans f2).keeps.trans ?_⟩
      have g' := (f.trans f2).good g
      have hp' : (h1.readC W).1.prof = none := (f.trans f2).prof.trans hp
      obtain ⟨g1, g2⟩ := g'.none hp'
      have := settle (nn := (h1.readC W).1.nfw) (n := (h1.readC W).1.norm) (c := vC W h) d g' hp'
        ((vRad_fills (f.trans f2)).trans hr) a2.2.2.2.2.2.2.2.2.2.1.symm (.inl rfl)
        (.inr fun ch hch => absurd (a2.2.2.2.2.2.2.1.symm.trans hch) (ht ch)) rfl (a2.1.trans hk)
      convert this using 2
    have wrap : ∀ (h1 : Halo) (r : ℝ) (fo : Option ℝ), vRad W h = .ok (r, fo) →
        (∃ s c, h1.readC W = (s, c) ∧ c = vC W h ∧ Keeps W h { s with prof := some (c, r) }) →
        ((match ((h1, .ok r) : Halo × Except Err ℝ) with
          | (h, .ok r) => ({ (h.readC W).1 with prof := some ((h.readC W).2, r) },
              (.ok ((h.readC W).2, r) : Except Err (ℝ × ℝ)))
          | (h, .error e) => (h, .error e)).2 = vProf W h ∧
        Keeps W h (match ((h1, .ok r) : Halo × Except Err ℝ) with
          | (h, .ok r) => ({ (h.readC W).1 with prof := some ((h.readC W).2, r) },
              (.ok ((h.readC W).2, r) : Except Err (ℝ × ℝ)))
          | (h, .error e) => (h, .error e)).1 ∧
        (∀ p, vProf W h = .ok p → (match ((h1, .ok r) : Halo × Except Err ℝ) with
          | (h, .ok r) => ({ (h.readC W).1 with prof := some ((h.readC W).2, r) },
              (.ok ((h.readC W).2, r) : Except Err (ℝ × ℝ)))
          | (h, .error e) => (h, .error e)).1.prof = some p)) := by
      rintro h1 r fo hr ⟨s, c, e, hc, k⟩
      rw [hr] at vp
      simp only [e]
      refine ⟨by rw [vp, hc], k, fun p hp' => ?_⟩
      rw [vp] at hp'
      cases hp'
      rw [hc]
    have nodraw : ∀ {α : Type} (x y : α), (match h.isSub, h.trunc with
        | true, .galacticus _ => x
        | _, _ => y) = if h.isSub = true ∧ ∃ ch, h.trunc = .galacticus ch then x else y := by
      intro α x y
      cases h.isSub <;> cases h.trunc <;> simp
    cases ht : h.trunc with
    | zinfall ch => exact absurd ht (g.trunc ch)
    | galacticus ch =>
      by_cases hs : h.isSub = true
      · simp only [hs]
        obtain ⟨v, k, kp, kn, km⟩ := readMb_spec W h g.trunc
        rcases hr : h.readMb W with ⟨h1, r⟩
        rw [hr] at v k kp kn km
        simp only at v k kp kn km
        subst v
        cases hm : vMb W h with
        | error e =>
          refine ⟨?_, k, fun p hp' => ?_⟩
          · simp only [vp, vRad, ht, hs, if_true, hm]
          · simp [vp, vRad, ht, hs, hm] at hp'
        | ok m =>
          have a := core_eq k.core
          have vr : vRad W h = .ok ((W.rte m h.mass (vP W h).2.2 (vC W h)).1,
              some (W.rte m h.mass (vP W h).2.2 (vC W h)).2) := by
            simp only [vRad, ht, hs, if_true, hm]
          have vr1 : vRad W h1 = .ok ((W.rte m h1.mass (vP W h1).2.2 (vC W h1)).1,
              some (W.rte m h1.mass (vP W h1).2.2 (vC W h1)).2) := by
            have t1 : h1.trunc = .galacticus ch := a.2.2.2.2.2.2.1.trans ht
            have s1 : h1.isSub = true := a.2.2.2.2.2.1.trans hs
            have m1 : vMb W h1 = .ok m := a.2.2.2.2.2.2.2.2.2.2.2.1.trans hm
            simp only [vRad, t1, s1, if_true, m1]
          obtain ⟨s, c, e, hc, kk⟩ := finish_bound (k.good g) (a.1.trans hk) (kp.trans hp) vr1
          obtain ⟨h2, f2, -, -, e2⟩ := radiusFromBound_spec W h1 m
          have er : (h1.radiusFromBound W m).2 = (W.rte m h.mass (vP W h).2.2 (vC W h)).1 := by
            rw [e2, vP_core k.core, a.2.1, a.2.2.2.2.2.2.2.2.2.1]
          rw [er] at kk
          have := wrap (h1.radiusFromBound W m).1 _ _ vr
            ⟨s, c, e, hc.trans a.2.2.2.2.2.2.2.2.2.1, k.trans kk⟩
          simp only [er]
          exact this
      · have hs' : h.isSub = false := by simpa using hs
        simp only [hs', Halo.radiusHalo]
        obtain ⟨v, h0, d, f, k, e, de⟩ := mbound_spec W ch h
        have vd : vDraw W ch h = .error noTime := by simp [vDraw, vT, hs']
        rcases hr : h.mboundGalacticus W ch with ⟨h1, r⟩
        rw [hr] at v e
        simp only at v e
        rw [vd] at v
        subst v
        have := de ⟨_, vd⟩
        subst this
        have e' : h1 = h0 := by rw [e]
        subst e'
        refine ⟨?_, f.keeps, fun p hp' => ?_⟩
        · simp only [vp, vRad, ht, hs', Bool.false_eq_true, if_false, vd]
        · simp [vp, vRad, ht, hs', vd] at hp'
    | multipleRs tau =>
      obtain ⟨f, v⟩ := readNfw_spec g
      have vr : vRad W h = .ok (tau * (vP W h).2.1, none) := by simp only [vRad, ht]
      have := wrap (h.readNfw W).1 _ _ vr (plain (h.readNfw W).1 (h.readNfw W).1.drawn _ f vr
        (by rw [ht]; simp))
      cases h.isSub <;> simp only [Halo.radiusHalo, v] <;> exact this
    | rn N =>
      obtain ⟨f, v, -, -⟩ := readZEval_spec W h
      have vr : vRad W h = .ok (Trunc.rn W.e N h.mass (vZE W h), none) := by simp only [vRad, ht]
      have := wrap (h.readZEval W).1 _ _ vr (plain (h.readZEval W).1 (h.readZEval W).1.drawn _ f vr
        (by rw [ht]; simp))
      cases h.isSub <;> simp only [Halo.radiusHalo, v, (core_eq f.core).2.1] <;> exact this
    | other i =>
      obtain ⟨f, v, k⟩ := readC_spec W h
      obtain ⟨f', v', k', l'⟩ := readZEval_spec W (h.readC W).1
      have ff := f.trans f'
      have a := core_eq ff.core
      have ez : vZE W (h.readC W).1 = vZE W h := (core_eq f.core).2.2.2.2.2.2.2.2.1
      have vr : vRad W h = .ok (W.other i h.mass (vC W h) (vZE W h) (h.vb h.drawn), none) := by
        simp only [vRad, ht]
      have := wrap _ _ _ vr (plain _ (((h.readC W).1.readZEval W).1.drawn + 1) _ ff vr (by rw [ht]; simp))
      have hrad : h.radiusHalo W (.other i) = ({ ((h.readC W).1.readZEval W).1 with
          drawn := ((h.readC W).1.readZEval W).1.drawn + 1 },
          .ok (W.other i h.mass (vC W h) (vZE W h) (h.vb h.drawn))) := by
        have key : W.other i ((h.readC W).1.readZEval W).1.mass (h.readC W).2 ((h.readC W).1.readZEval W).2
            (((h.readC W).1.readZEval W).1.vb ((h.readC W).1.readZEval W).1.drawn)
            = W.other i h.mass (vC W h) (vZE W h) (h.vb h.drawn) := by
          rw [a.2.1, v, v', ez, ff.vb, ff.drawn]
        rw [← key]
        rfl
      cases h.isSub <;> simp only [hrad] <;> exact this

/-! ### All reads -/

/-- What a read does to the values. -/
noncomputable def cstep (W : World) (k : Core) : Read → Core × Except Err (List ℝ)
  | .zInfall => (k, .ok [k.zInf])
  | .time => (k, match k.time with
    | .ok none => .ok []
    | .ok (some t) => .ok [t]
    | .error e => .error e)
  | .zEval => (k, .ok [k.zEval])
  | .c => (k, .ok [k.c])
  | .nfw =>
    let P := W.nfw1 k.mass k.c k.zEval
    (k, .ok [P.1, P.2.1, P.2.2])
  | .profile =>
    if k.kind = .nfw then (k, .ok [k.c])
    else (k, match k.prof with
      | .ok p => .ok [p.1, p.2]
      | .error e => .error e)
  | .phys =>
    if k.kind = .nfw then (k, .error noAttribute)
    else match k.phys with
      | some p => (k, .ok [p.1, p.2.1, p.2.2.1, p.2.2.2])
      | none => match k.prof with
        | .ok p =>
          let P := W.nfw1 k.mass k.c k.zEval
          ({ k with phys := some (P.1 * k.norm, P.2.1, P.2.2, p.2) },
            .ok [P.1 * k.norm, P.2.1, P.2.2, p.2])
        | .error e => (k, .error e)
  | .lens =>
    let P := W.nfw1 k.mass k.c k.zEval
    let a := W.angles (P.1 * 1e9) (P.2.1 * 1e-3) k.z
    if k.kind = .nfw then
      (k, .ok (kwList ⟨k.norm * round10 a.2, round10 a.1, round4 k.x, round4 k.y, 0⟩))
    else match k.kw with
      | some v => (k, .ok (kwList v))
      | none => match k.prof with
        | .ok p =>
          let v : TnfwKw := ⟨k.norm * round10 a.2, round10 a.1, round4 k.x, round4 k.y,
            round10 (p.2 / W.kpcPerArcsec k.z)⟩
          ({ k with kw := some v }, .ok (kwList v))
        | .error e => (k, .error e)
  | .vmax =>
    let P := W.nfw1 k.mass k.c k.zEval
    match k.vmaxC with
    | some v => (k, .ok [v])
    | none =>
      if k.kind = .nfw then
        ({ k with vmaxC := some (W.vmax (k.norm * P.1) P.2.1) }, .ok [W.vmax (k.norm * P.1) P.2.1])
      else match k.prof with
        | .ok _ =>
          ({ k with vmaxC := some (W.vmax (k.norm * P.1) P.2.1) }, .ok [W.vmax (k.norm * P.1) P.2.1])
        | .error e => (k, .error e)
  | .bound =>
    let P := W.nfw1 k.mass k.c k.zEval
    if k.kind = .nfw ∨ k.isSub = false then
      match k.boundC with
      | some m => (k, .ok [m])
      | none => (k, .error noAttribute)
    else match k.kw with
      | some v => (k, .ok [W.fraction (v.rTrunc / v.Rs) k.c * k.mass * k.norm])
      | none => match k.phys with
        | some p => (k, .ok [W.fraction (p.2.2.2 / p.2.1) k.c * k.mass * k.norm])
        | none => match k.prof with
          | .ok p => ({ k with phys := some (P.1 * k.norm, P.2.1, P.2.2, p.2) },
              .ok [W.fraction (p.2 / P.2.1) k.c * k.mass * k.norm])
          | .error e => (k, .error e)
  | .boundGalacticus =>
    if k.kind = .nfw ∨ k.isSub = false then (k, .error noAttribute)
    else (k, match k.mb with
      | .ok m => .ok [m]
      | .error e => .error e)

theorem vNorm_prof (e : h.prof ≠ none) : vNorm W h = h.norm.norm := by
  unfold vNorm
  cases hp : h.prof with
  | none => exact absurd hp e
  | some p => split <;> rfl

/-- `params_physical`. -/
theorem readPhys_spec (g : Good W h) (hk : h.kind = .tnfw) :
    (∀ p, h.phys = some p → h.readPhys W = (h, .ok p)) ∧
    (h.phys = none → ∀ p, vProf W h = .ok p →
      (h.readPhys W).2 = .ok ((vP W h).1 * vNorm W h, (vP W h).2.1, (vP W h).2.2, p.2) ∧
      core W (h.readPhys W).1 = { core W h with
        phys := some ((vP W h).1 * vNorm W h, (vP W h).2.1, (vP W h).2.2, p.2) } ∧
      Good W (h.readPhys W).1 ∧ (h.readPhys W).1.prof ≠ none ∧ (h.readPhys W).1.norm.norm = vNorm W h) ∧
    (h.phys = none → ∀ e, vProf W h = .error e → (h.readPhys W).2 = .error e ∧
      Keeps W h (h.readPhys W).1) := by
  refine ⟨fun p e => by unfold Halo.readPhys; rw [e], fun e p hp => ?_, fun e er hp => ?_⟩
  · obtain ⟨v, k, kp⟩ := readProf_spec g hk
    have kp := kp p hp
    unfold Halo.readPhys
    rw [e]
    rcases hr : h.readProf W with ⟨h1, r⟩
    rw [hr] at v k kp
    simp only at v k kp
    rw [hp] at v
    subst v
    obtain ⟨f, v'⟩ := readNfw_spec (k.good g)
    simp only
    have a := core_eq (k.trans f.keeps).core
    have np : (h1.readNfw W).1.prof ≠ none := by rw [f.prof, kp]; simp
    have nn : (h1.readNfw W).1.norm.norm = vNorm W h := by
      rw [← vNorm_prof np, a.2.2.2.2.2.2.2.2.2.2.2.2.2.1]
    refine ⟨by rw [v', nn, vP_core k.core], ?_, ?_, np, nn⟩
    rw [v', nn, vP_core k.core]
    · rw [← (k.trans f.keeps).core]; rfl
    · have g1 := (k.trans f.keeps).good g
      exact ⟨g1.kind, g1.trunc, g1.nfw, fun e => absurd e np⟩
  · obtain ⟨v, k, -⟩ := readProf_spec g hk
    unfold Halo.readPhys
    rw [e]
    rcases hr : h.readProf W with ⟨h1, r⟩
    rw [hr] at v k
    simp only at v k
    rw [hp] at v
    subst v
    exact ⟨rfl, k⟩

theorem core_kw (w : Option TnfwKw) : core W { h with kw := w } = { core W h with kw := w } := rfl

theorem core_vmaxC (w : Option ℝ) : core W { h with vmaxC := w } = { core W h with vmaxC := w } := rfl

/-- What the lensing parameters are made of. -/
noncomputable def Core.lens (W : World) (k : Core) (rt : ℝ) : TnfwKw :=
  let P := W.nfw1 k.mass k.c k.zEval
  let a := W.angles (P.1 * 1e9) (P.2.1 * 1e-3) k.z
  ⟨k.norm * round10 a.2, round10 a.1, round4 k.x, round4 k.y, round10 (rt / W.kpcPerArcsec k.z)⟩

noncomputable def Core.vmax (W : World) (k : Core) : ℝ :=
  let P := W.nfw1 k.mass k.c k.zEval
  W.vmax (k.norm * P.1) P.2.1

theorem cstep_phys {k : Core} (hk : k.kind = .tnfw) (e : k.phys = none) {p : ℝ × ℝ}
    (e' : k.prof = .ok p) :
    cstep W k .phys = ({ k with phys := some ((W.nfw1 k.mass k.c k.zEval).1 * k.norm,
      (W.nfw1 k.mass k.c k.zEval).2.1, (W.nfw1 k.mass k.c k.zEval).2.2, p.2) },
      .ok [(W.nfw1 k.mass k.c k.zEval).1 * k.norm,
        (W.nfw1 k.mass k.c k.zEval).2.1, (W.nfw1 k.mass k.c k.zEval).2.2, p.2]) := by
  obtain ⟨kind, mass, x, y, z, isSub, trunc, zInf, zEval, c, time, mb, prof, norm, phys, kw, vm, bc⟩ := k
  simp only at hk e e'
  subst hk e e'
  rfl

theorem cstep_lens {k : Core} (hk : k.kind = .tnfw) (e : k.kw = none) {p : ℝ × ℝ}
    (e' : k.prof = .ok p) :
    cstep W k .lens = ({ k with kw := some (k.lens W p.2) }, .ok (kwList (k.lens W p.2))) := by
  obtain ⟨kind, mass, x, y, z, isSub, trunc, zInf, zEval, c, time, mb, prof, norm, phys, kw, vm, bc⟩ := k
  simp only at hk e e'
  subst hk e e'
  rfl

theorem cstep_vmax {k : Core} (e : k.vmaxC = none)
    (e' : k.kind = .nfw ∨ (k.kind = .tnfw ∧ ∃ p, k.prof = .ok p)) :
    cstep W k .vmax = ({ k with vmaxC := some (k.vmax W) }, .ok [k.vmax W]) := by
  obtain ⟨kind, mass, x, y, z, isSub, trunc, zInf, zEval, c, time, mb, prof, norm, phys, kw, vm, bc⟩ := k
  simp only at e e'
  subst e
  rcases e' with e' | ⟨e', p, e''⟩
  · subst e'; rfl
  · subst e' e''; rfl

/-- `lenstronomy_params`. -/
theorem readLens_spec (g : Good W h) (hk : h.kind = .tnfw) (e : h.kw = none) {p : ℝ × ℝ}
    (hv : vProf W h = .ok p) :
    (h.readLens W).2 = .ok ((core W h).lens W p.2) ∧
    core W (h.readLens W).1 = { core W h with kw := some ((core W h).lens W p.2) } ∧
    Good W (h.readLens W).1 := by
  obtain ⟨v, k, kp⟩ := readProf_spec g hk
  have kp := kp p hv
  unfold Halo.readLens
  rw [e]
  rcases hr : h.readProf W with ⟨h1, r⟩
  rw [hr] at k v kp
  simp only at k v kp
  rw [hv] at v
  subst v
  obtain ⟨f, v'⟩ := readNfw_spec (k.good g)
  rw [vP_core k.core] at v'
  have a := core_eq (k.trans f.keeps).core
  have np : (h1.readNfw W).1.prof ≠ none := by rw [f.prof, kp]; simp
  have nn : (h1.readNfw W).1.norm.norm = vNorm W h := by
    rw [← vNorm_prof np, a.2.2.2.2.2.2.2.2.2.2.2.2.2.1]
  have g1 := (k.trans f.keeps).good g
  have cc := (k.trans f.keeps).core
  simp only
  rcases hr2 : h1.readNfw W with ⟨h2, q⟩
  rw [hr2] at v' a np nn g1 cc
  simp only at v' a np nn g1 cc
  subst v'
  have key : (⟨h2.norm.norm * round10 (W.angles ((vP W h).1 * 1e9) ((vP W h).2.1 * 1e-3) h2.z).2,
      round10 (W.angles ((vP W h).1 * 1e9) ((vP W h).2.1 * 1e-3) h2.z).1, round4 h2.x, round4 h2.y,
      round10 (p.2 / W.kpcPerArcsec h2.z)⟩ : TnfwKw) = (core W h).lens W p.2 := by
    rw [nn, a.2.2.1, a.2.2.2.1, a.2.2.2.2.1]
    rfl
  refine ⟨by rw [← key], ?_, g1.kind, g1.trunc, g1.nfw, fun e => absurd e np⟩
  rw [← key, core_kw, cc]

/-- `vmax_nfw`. -/
theorem readVmax_spec (g : Good W h) (hk : h.kind = .tnfw) (e : h.vmaxC = none) :
    (∀ p, vProf W h = .ok p → (h.readVmax W).2 = .ok ((core W h).vmax W) ∧
      core W (h.readVmax W).1 = { core W h with vmaxC := some ((core W h).vmax W) } ∧
      Good W (h.readVmax W).1) ∧
    (∀ er, vProf W h = .error er → (h.readVmax W).2 = .error er ∧ Keeps W h (h.readVmax W).1) := by
  obtain ⟨f, v⟩ := readNfw_spec g
  have af := core_eq f.core
  obtain ⟨v', k, kp⟩ := readProf_spec (f.good g) (af.1.trans hk)
  unfold Halo.readVmax
  rw [e]
  simp only
  rcases hr0 : h.readNfw W with ⟨h0, q⟩
  rw [hr0] at f v k v' kp af
  simp only at f v k v' kp af
  rcases hr : h0.readProf W with ⟨h1, r⟩
  rw [hr] at k v' kp
  simp only at k v' kp
  rw [af.2.2.2.2.2.2.2.2.2.2.2.2.1] at v' kp
  have kk := f.keeps.trans k
  have cc := kk.core
  refine ⟨fun p hv => ?_, fun er hv => ?_⟩
  · rw [hv] at v'
    subst v' v
    have kp := kp p hv
    have a := core_eq kk.core
    have np : h1.prof ≠ none := by rw [kp]; simp
    have nn : h1.norm.norm = vNorm W h := by
      rw [← vNorm_prof np, a.2.2.2.2.2.2.2.2.2.2.2.2.2.1]
    have g1 := kk.good g
    have key : W.vmax (h1.norm.norm * (vP W h).1) (vP W h).2.1 = (core W h).vmax W := by
      rw [nn]; rfl
    simp only
    refine ⟨by rw [← key], ?_, g1.kind, g1.trunc, g1.nfw, g1.none⟩
    rw [← key, core_vmaxC, cc]
  · rw [hv] at v'
    subst v'
    exact ⟨rfl, kk⟩

theorem readVmaxNfw_spec (g : Good W h) (hk : h.kind = .nfw) (e : h.vmaxC = none) :
    (h.readVmaxNfw W).2 = (core W h).vmax W ∧
      core W (h.readVmaxNfw W).1 = { core W h with vmaxC := some ((core W h).vmax W) } ∧
      Good W (h.readVmaxNfw W).1 := by
  obtain ⟨f, v⟩ := readNfw_spec g
  obtain ⟨f', -, -⟩ := readC_spec W (h.readNfw W).1
  unfold Halo.readVmaxNfw
  rw [e]
  simp only
  have ff := f.trans f'
  have g1 := ff.good g
  have cc := ff.core
  have nn := ff.norm
  rcases hr0 : h.readNfw W with ⟨h0, q⟩
  rw [hr0] at v nn g1 cc
  simp only at v nn g1 cc
  subst v
  rcases hr : h0.readC W with ⟨h1, r⟩
  rw [hr] at nn g1 cc
  simp only at nn g1 cc
  have n : vNorm W h = h.norm.norm := by simp [vNorm, hk]
  have key : W.vmax (h1.norm.norm * (vP W h).1) (vP W h).2.1 = (core W h).vmax W := by
    rw [nn, ← n]; rfl
  refine ⟨key, ?_, g1.kind, g1.trunc, g1.nfw, g1.none⟩
  rw [← key, core_vmaxC, cc]

theorem read_spec (g : Good W h) (r : Read) :
    core W (h.read W r).1 = (cstep W (core W h) r).1 ∧ (h.read W r).2 = (cstep W (core W h) r).2 ∧
    Good W (h.read W r).1 := by
  have hk : h.kind = .nfw ∨ h.kind = .tnfw := g.kind
  cases r with
  | zInfall =>
    obtain ⟨f, v, -⟩ := readZ_spec W h
    exact ⟨f.core, by simp [Halo.read, cstep, core, v], f.good g⟩
  | time =>
    obtain ⟨f, v, -⟩ := readTime_spec W h
    unfold Halo.read cstep
    rcases hr : h.readTime W with ⟨h1, r⟩
    rw [hr] at f v
    simp only at f v
    subst v
    have et : (core W h).time = vT W h := rfl
    simp only [et]
    rcases hv : vT W h with e | (_ | t) <;> exact ⟨f.core, rfl, f.good g⟩
  | zEval =>
    obtain ⟨f, v, -⟩ := readZEval_spec W h
    exact ⟨f.core, by simp [Halo.read, cstep, core, v], f.good g⟩
  | c =>
    obtain ⟨f, v, -⟩ := readC_spec W h
    exact ⟨f.core, by simp [Halo.read, cstep, core, v], f.good g⟩
  | nfw =>
    obtain ⟨f, v⟩ := readNfw_spec g
    exact ⟨f.core, by simp only [Halo.read, cstep, core, v]; rfl, f.good g⟩
  | profile =>
    unfold Halo.read cstep
    rcases hk with hk | hk
    · obtain ⟨f, v, -⟩ := readC_spec W h
      have : (core W h).kind = .nfw := hk
      simp only [hk, this, if_true, v]
      exact ⟨f.core, rfl, f.good g⟩
    · obtain ⟨v, k, -⟩ := readProf_spec g hk
      have e : (core W h).kind = .tnfw := hk
      simp only [hk, e, reduceCtorEq, if_false]
      rcases hr : h.readProf W with ⟨h1, r⟩
      rw [hr] at k v
      simp only at k v
      subst v
      have et : (core W h).prof = vProf W h := rfl
      simp only [et]
      rcases hv : vProf W h with e | p <;> exact ⟨k.core, rfl, k.good g⟩
  | phys =>
    rcases hk with hk | hk
    · have e : (core W h).kind = .nfw := hk
      unfold Halo.read cstep
      simp only [if_pos hk, if_pos e]
      exact ⟨trivial, trivial, g⟩
    · have e : (core W h).kind = .tnfw := hk
      have n : ¬ h.kind = .nfw := by rw [hk]; simp
      have n' : ¬ (core W h).kind = .nfw := n
      obtain ⟨s1, s2, s3⟩ := readPhys_spec g hk
      cases hp : h.phys with
      | some p =>
        have ep : (core W h).phys = some p := hp
        unfold Halo.read cstep
        simp only [if_neg n, if_neg n', s1 p hp, ep]
        exact ⟨trivial, trivial, g⟩
      | none =>
        have ep : (core W h).phys = none := hp
        cases hv : vProf W h with
        | error er =>
          have ev : (core W h).prof = .error er := hv
          obtain ⟨a, b⟩ := s3 hp er hv
          unfold Halo.read cstep
          simp only [if_neg n, if_neg n', ep, ev]
          rcases hr : h.readPhys W with ⟨h1, r⟩
          rw [hr] at a b
          simp only at a b
          subst a
          exact ⟨b.core, rfl, b.good g⟩
        | ok p =>
          obtain ⟨a, b, c, -⟩ := s2 hp p hv
          rw [cstep_phys e ep hv]
          unfold Halo.read
          simp only [if_neg n]
          rcases hr : h.readPhys W with ⟨h1, r⟩
          rw [hr] at a b c
          simp only at a b c
          subst a
          exact ⟨b, rfl, c⟩
  | lens =>
    rcases hk with hk | hk
    · have e : (core W h).kind = .nfw := hk
      unfold Halo.read cstep
      simp only [if_pos hk, if_pos e]
      obtain ⟨f, v⟩ := readNfw_spec g
      have a := core_eq f.core
      unfold Halo.readLensNfw
      simp only
      refine ⟨f.core, ?_, f.good g⟩
      have n : (core W h).norm = h.norm.norm := by show vNorm W h = _; simp [vNorm, hk]
      rw [v, n, a.2.2.1, a.2.2.2.1, a.2.2.2.2.1, f.norm]
      rfl
    · have e : (core W h).kind = .tnfw := hk
      have n : ¬ h.kind = .nfw := by rw [hk]; simp
      have n' : ¬ (core W h).kind = .nfw := n
      have n2 : ¬ h.kind = .prescribed := by rw [hk]; simp
      cases hkw : h.kw with
      | some v =>
        have ek : (core W h).kw = some v := hkw
        unfold Halo.read cstep
        simp only [if_neg n, if_neg n', if_neg n2, ek]
        unfold Halo.readLens
        rw [hkw]
        exact ⟨rfl, rfl, g⟩
      | none =>
        have ek : (core W h).kw = none := hkw
        cases hv : vProf W h with
        | error er =>
          have ev : (core W h).prof = .error er := hv
          unfold Halo.read cstep
          simp only [if_neg n, if_neg n', if_neg n2, ek, ev]
          unfold Halo.readLens
          rw [hkw]
          obtain ⟨v, k, kp⟩ := readProf_spec g hk
          rcases hr : h.readProf W with ⟨h1, r⟩
          rw [hr] at k v
          simp only at k v
          rw [hv] at v
          subst v
          exact ⟨k.core, rfl, k.good g⟩
        | ok p =>
          obtain ⟨a, b, c⟩ := readLens_spec g hk hkw hv
          rw [cstep_lens e ek hv]
          unfold Halo.read
          simp only [if_neg n, if_neg n2]
          rcases hr : h.readLens W with ⟨h1, r⟩
          rw [hr] at a b c
          simp only at a b c
          subst a
          exact ⟨b, rfl, c⟩
  | vmax =>
    rcases hk with hk | hk
    · have e : (core W h).kind = .nfw := hk
      cases hvm : h.vmaxC with
      | some v =>
        have ek : (core W h).vmaxC = some v := hvm
        unfold Halo.read cstep
        simp only [if_pos hk, ek]
        unfold Halo.readVmaxNfw
        rw [hvm]
        exact ⟨rfl, rfl, g⟩
      | none =>
        obtain ⟨a, b, c⟩ := readVmaxNfw_spec g hk hvm
        rw [cstep_vmax hvm (.inl e)]
        unfold Halo.read
        simp only [if_pos hk]
        rw [a]
        exact ⟨b, rfl, c⟩
    · have e : (core W h).kind = .tnfw := hk
      have n : ¬ h.kind = .nfw := by rw [hk]; simp
      have n' : ¬ (core W h).kind = .nfw := n
      cases hvm : h.vmaxC with
      | some v =>
        have ek : (core W h).vmaxC = some v := hvm
        unfold Halo.read cstep
        simp only [if_neg n, ek]
        unfold Halo.readVmax
        rw [hvm]
        exact ⟨rfl, rfl, g⟩
      | none =>
        have ek : (core W h).vmaxC = none := hvm
        obtain ⟨s1, s2⟩ := readVmax_spec g hk hvm
        cases hv : vProf W h with
        | error er =>
          have ev : (core W h).prof = .error er := hv
          obtain ⟨a, b⟩ := s2 er hv
          unfold Halo.read cstep
          simp only [if_neg n, if_neg n', ek, ev]
          rcases hr : h.readVmax W with ⟨h1, r⟩
          rw [hr] at a b
          simp only at a b
          subst a
          exact ⟨b.core, rfl, b.good g⟩
        | ok p =>
          obtain ⟨a, b, c⟩ := s1 p hv
          rw [cstep_vmax ek (.inr ⟨e, p, hv⟩)]
          unfold Halo.read
          simp only [if_neg n]
          rcases hr : h.readVmax W with ⟨h1, r⟩
          rw [hr] at a b c
          simp only at a b c
          subst a
          exact ⟨b, rfl, c⟩
  | bound =>
    unfold Halo.read cstep
    have ek : (core W h).kind = h.kind := rfl
    have es : (core W h).isSub = h.isSub := rfl
    have eb : (core W h).boundC = h.boundC := rfl
    have ew : (core W h).kw = h.kw := rfl
    have ep : (core W h).phys = h.phys := rfl
    have ef : (core W h).prof = vProf W h := rfl
    simp only [ek, es, eb, ew, ep, ef]
    by_cases c : h.kind = .nfw ∨ h.isSub = false
    · simp only [if_pos c]
      cases h.boundC <;> exact ⟨rfl, rfl, g⟩
    · simp only [if_neg c]
      have hk : h.kind = .tnfw := by
        rcases hk with x | x
        · exact absurd (.inl x) c
        · exact x
      unfold Halo.readBound
      have bn : ∀ h1 : Halo, core W h1 = core W h → h1.prof ≠ none → h1.norm.norm = vNorm W h := by
        intro h1 e np
        rw [← vNorm_prof np, (core_eq e).2.2.2.2.2.2.2.2.2.2.2.2.2.1]
      cases hw : h.kw with
      | some v =>
        have np : h.prof ≠ none := fun e => by have := (g.none e).2; rw [hw] at this; cases this
        obtain ⟨f, v', -⟩ := readC_spec W h
        simp only
        refine ⟨f.core, ?_, f.good g⟩
        rw [v', (core_eq f.core).2.1, f.norm, bn h rfl np]
        rfl
      | none =>
        obtain ⟨s1, s2, s3⟩ := readPhys_spec g hk
        simp only
        cases hp : h.phys with
        | some p =>
          have np : h.prof ≠ none := fun e => by have := (g.none e).1; rw [hp] at this; cases this
          rw [s1 p hp]
          obtain ⟨f, v', -⟩ := readC_spec W h
          simp only
          refine ⟨f.core, ?_, f.good g⟩
          rw [v', (core_eq f.core).2.1, f.norm, bn h rfl np]
          rfl
        | none =>
          cases hv : vProf W h with
          | error er =>
            obtain ⟨a, b⟩ := s3 hp er hv
            rcases hr : h.readPhys W with ⟨h1, r⟩
            rw [hr] at a b
            simp only at a b
            subst a
            exact ⟨b.core, rfl, b.good g⟩
          | ok p =>
            obtain ⟨a, b, c, d, e⟩ := s2 hp p hv
            rcases hr : h.readPhys W with ⟨h1, r⟩
            rw [hr] at a b c d e
            simp only at a b c d e
            subst a
            obtain ⟨f, v', -⟩ := readC_spec W h1
            simp only
            refine ⟨f.core.trans (b.trans ?_), ?_, f.good c⟩
            · simp only [core, hv, hw]
              rfl
            have e1 : vC W h1 = vC W h := congrArg Core.c b
            have e2 : h1.mass = h.mass := congrArg Core.mass b
            rw [v', (core_eq f.core).2.1, f.norm, e, e1, e2]
            rfl
  | boundGalacticus =>
    unfold Halo.read cstep
    have ek : (core W h).kind = h.kind := rfl
    have es : (core W h).isSub = h.isSub := rfl
    have em : (core W h).mb = vMb W h := rfl
    simp only [ek, es, em]
    by_cases c : h.kind = .nfw ∨ h.isSub = false
    · simp only [if_pos c]
      exact ⟨by trivial, by trivial, g⟩
    · simp only [if_neg c]
      obtain ⟨v, k, -⟩ := readMb_spec W h g.trunc
      rcases hr : h.readMb W with ⟨h1, r⟩
      rw [hr] at v k
      simp only at v k
      subst v
      rcases hv : vMb W h with e | m <;> exact ⟨k.core, rfl, k.good g⟩

/-- Halos with the same values report the same. -/
theorem reports_core (g : Good W h) (g' : Good W h') (e : core W h' = core W h) (rs : List Read) :
    h'.reports W rs = h.reports W rs := by
  induction rs generalizing h h' with
  | nil => rfl
  | cons r rs ih =>
    obtain ⟨a, b, c⟩ := read_spec g r
    obtain ⟨a', b', c'⟩ := read_spec g' r
    unfold Halo.reports
    rw [b, b', e, ih c c' (by rw [a, a', e])]

end Warm
end PyHalo
