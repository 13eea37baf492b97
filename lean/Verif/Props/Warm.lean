import Verif.Lemmas.WarmBatch
import Mathlib.Tactic

namespace PyHalo
namespace Props
open Warm
open scoped Classical

/-! ## C87: warming the caches -/

/-- A halo of one of the classes `NFW*` and `TNFW*`, newly constructed and then used in any way; its
truncation class is not `TruncationGalacticusZinfall` and is the one `kwargs_halo_model` names where
warming takes the class from there. -/
def Spec.Used (W : World) (k : KwModel) (h : Halo) : Prop :=
  ∃ kind mass x y z isSub conc trunc vz vc vb ops,
    (kind = .nfw ∨ kind = .tnfw) ∧ (∀ ch, trunc ≠ .zinfall ch) ∧
    (∀ t, k.get isSub = some t → isSub = false ∨ (∃ ch, t = .galacticus ch) → kind = .tnfw → trunc = t) ∧
    h = (Halo.new kind mass x y z isSub conc trunc vz vc vb).run W ops

variable {W : World}

theorem cstep_same (k : Core) (r : Read) :
    (cstep W k r).1.kind = k.kind ∧ (cstep W k r).1.isSub = k.isSub ∧ (cstep W k r).1.trunc = k.trunc := by
  cases r <;> simp only [cstep] <;> (try split_ifs) <;> (repeat' split) <;> simp_all

theorem warm_step_good {h : Halo} (g : Good W h) (o : Op) :
    Good W (h.step W o) ∧ (h.step W o).kind = h.kind ∧ (h.step W o).isSub = h.isSub ∧
    (h.step W o).trunc = h.trunc := by
  cases o with
  | read r =>
    obtain ⟨a, -, c⟩ := read_spec g r
    obtain ⟨x, y, z⟩ := cstep_same (W := W) (core W h) r
    rw [← a] at x y z
    exact ⟨c, x, y, z⟩
  | mass3d r =>
    unfold Halo.step
    simp only
    split_ifs with hk
    · exact ⟨g, rfl, rfl, rfl⟩
    · have hk' : h.kind = .tnfw := g.kind.resolve_left hk
      obtain ⟨f, -⟩ := readNfw_spec g
      have x := core_eq f.core
      obtain ⟨-, k, -⟩ := readProf_spec (f.good g) (x.1.trans hk')
      have kk := f.keeps.trans k
      have y := core_eq kk.core
      have e : (h.readMass3d W r).1 = ((h.readNfw W).1.readProf W).1 := by
        unfold Halo.readMass3d
        simp only
        rcases (h.readNfw W).1.readProf W with ⟨h2, v⟩
        cases v <;> rfl
      rw [e]
      exact ⟨kk.good g, y.1, y.2.2.2.2.2.1, y.2.2.2.2.2.2.1⟩
  | rescale c =>
    unfold Halo.step Halo.rescale
    simp only
    split_ifs
    · exact ⟨⟨g.kind, g.trunc, fun p e => (by cases e), fun _ => ⟨rfl, rfl⟩⟩, rfl, rfl, rfl⟩
    · exact ⟨⟨g.kind, g.trunc, g.nfw, g.none⟩, rfl, rfl, rfl⟩
  | setInfall z =>
    unfold Halo.step
    simp only
    split_ifs
    · refine ⟨⟨g.kind, g.trunc, fun p e => ?_, g.none⟩, rfl, rfl, rfl⟩
      obtain ⟨a, b, c⟩ := g.nfw p e
      refine ⟨a, b, ?_⟩
      obtain ⟨z1, hz⟩ := Option.isSome_iff_exists.1 a
      obtain ⟨c1, hc⟩ := Option.isSome_iff_exists.1 b
      simp only [vP, vC, vZE, hz, hc, Option.getD_some] at c ⊢
      exact c
    · exact ⟨g, rfl, rfl, rfl⟩
  | assignBound m => exact ⟨⟨g.kind, g.trunc, g.nfw, g.none⟩, rfl, rfl, rfl⟩
  | setBound m => exact ⟨⟨g.kind, g.trunc, g.nfw, g.none⟩, rfl, rfl, rfl⟩

theorem warm_run_good {h : Halo} (g : Good W h) (ops : List Op) :
    Good W (h.run W ops) ∧ (h.run W ops).kind = h.kind ∧ (h.run W ops).isSub = h.isSub ∧
    (h.run W ops).trunc = h.trunc := by
  induction ops generalizing h with
  | nil => exact ⟨g, rfl, rfl, rfl⟩
  | cons o ops ih =>
    obtain ⟨a, b, c, d⟩ := warm_step_good g o
    obtain ⟨a', b', c', d'⟩ := ih a
    exact ⟨a', b'.trans b, c'.trans c, d'.trans d⟩

theorem used_fit {k : KwModel} {h : Halo} (u : Spec.Used W k h) : Fit W k h := by
  obtain ⟨kind, mass, x, y, z, isSub, conc, trunc, vz, vc, vb, ops, hk, ht, ho, rfl⟩ := u
  have g : Good W (Halo.new kind mass x y z isSub conc trunc vz vc vb) :=
    ⟨hk, ht, fun p e => (by cases e), fun _ => ⟨rfl, rfl⟩⟩
  obtain ⟨a, b, c, d⟩ := warm_run_good g ops
  refine ⟨fun _ => a, ?_, fun hk' t ht' x => ?_⟩
  · rw [b]
    rcases hk with h | h <;> simp [Halo.new, h]
  · rw [b] at hk'
    rw [c] at ht' x
    rw [d]
    exact ho t ht' x hk'

/-- C87: after `precompute_realization` every halo reports what it would have reported without it,
whatever had been done with it before and in whichever order its properties are read; halos of
classes that are not supported are the same objects in the same state. The halos keep their order.
Missing: `TruncationGalacticusZinfall`, halos with prescribed parameters, a truncation class other
than the named one, host concentrations above 8 (in all these cases it is not true, see below); the
SIDM classes; the routine `mass_3d` (not true either). -/
theorem c87_warming_partial (W : World) (k : KwModel) (hs hs' : List Halo)
    (host : ∀ ch, k.get true = some (.galacticus ch) → ch ≤ 8)
    (zi : ∀ ch, k.get true ≠ some (.zinfall ch))
    (u : ∀ h ∈ hs, Spec.Used W k h ∨ h.kind = .other)
    (e : precomputeRealization W k hs = .ok hs') :
    List.Forall₂ (fun h h' => (∀ rs, h'.reports W rs = h.reports W rs) ∧ (h.kind = .other → h' = h))
      hs hs' := by
  have key := precomputeRealization_spec host zi e
  refine forall_trans (R := fun a b => a = b ∧ (Spec.Used W k a ∨ a.kind = .other)) ?_ key
    fun u v w m p q => ?_
  · have := forall_map (R := fun a b => a = b ∧ (Spec.Used W k a ∨ a.kind = .other)) id hs
      fun h m => ⟨rfl, u h m⟩
    rwa [List.map_id] at this
  · obtain ⟨rfl, p⟩ := p
    rcases p with p | p
    · have f := used_fit p
      obtain ⟨a, b⟩ := q f
      obtain ⟨kind, mass, x, y, z, isSub, conc, trunc, vz, vc, vb, ops, hk, ht, ho, rfl⟩ := p
      have g : Good W (Halo.new kind mass x y z isSub conc trunc vz vc vb) :=
        ⟨hk, ht, fun p e => (by cases e), fun _ => ⟨rfl, rfl⟩⟩
      have g' := (warm_run_good g ops).1
      exact ⟨reports_core g' (a.good g') a.core, b⟩
    · have f : Fit W k u := ⟨fun h => by rw [p] at h; simp at h, by rw [p]; simp, fun h => by rw [p] at h; cases h⟩
      have := (q f).2 p
      subst this
      exact ⟨fun _ => rfl, fun _ => rfl⟩

/-- Each of the routines on its own: `precompute_infall_times`, `precompute_concentrations` and
`precompute_nfw_params` work for every list of halos, whatever their truncation class. -/
theorem c87_stages (W : World) (k : KwModel) (hs hs' : List Halo) (u : ∀ h ∈ hs, Spec.Used W k h)
    (e : precomputeInfallTimes W hs = .ok hs' ∨ precomputeConcentrations W hs = .ok hs' ∨
      precomputeNfw W hs = .ok hs') :
    List.Forall₂ (fun h h' => ∀ rs, h'.reports W rs = h.reports W rs) hs hs' := by
  have key : List.Forall₂ (Fills W) hs hs' := by
    rcases e with e | e | e
    · exact precomputeInfallTimes_spec e
    · exact precomputeConcentrations_spec e
    · exact (precomputeNfw_spec e).imp fun _ _ x => x.1
  refine forall_trans (R := fun a b => a = b ∧ Spec.Used W k a) ?_ key fun u v w m p q => ?_
  · have := forall_map (R := fun a b => a = b ∧ Spec.Used W k a) id hs fun h m => ⟨rfl, u h m⟩
    rwa [List.map_id] at this
  · obtain ⟨rfl, kind, mass, x, y, z, isSub, conc, trunc, vz, vc, vb, ops, hk, ht, ho, rfl⟩ := p
    have g : Good W (Halo.new kind mass x y z isSub conc trunc vz vc vb) :=
      ⟨hk, ht, fun p e => (by cases e), fun _ => ⟨rfl, rfl⟩⟩
    have g' := (warm_run_good g ops).1
    exact reports_core g' (q.good g') q.core

/-! ### Warming succeeds -/

theorem onSel_ok {p : Halo → Bool} {f : List Halo → Except Err (List Halo)} {hs : List Halo}
    (a : ∃ l, f (hs.filter p) = .ok l) : ∃ hs', onSel p f hs = .ok hs' := by
  obtain ⟨l, hl⟩ := a
  unfold onSel
  rw [hl]
  exact ⟨_, rfl⟩

theorem forall_mem {R : Halo → Halo → Prop} {P Q : Halo → Prop} {a b : List Halo}
    (x : List.Forall₂ R a b) (p : ∀ h ∈ a, P h) (q : ∀ h h', P h → R h h' → Q h') : ∀ h ∈ b, Q h := by
  induction x with
  | nil => intro h m; cases m
  | cons r _ ih =>
    intro h m
    rcases List.mem_cons.1 m with rfl | m
    · exact q _ _ (p _ List.mem_cons_self) r
    · exact ih (fun y m => p y (List.mem_cons_of_mem _ m)) h m

theorem precomputeConcentrations_ok (W : World) (hs : List Halo) :
    ∃ hs', precomputeConcentrations W hs = .ok hs' := by
  unfold precomputeConcentrations
  simp only
  generalize (hs.map fun h => if h.c.isNone then (h.readZEval W).1 else h) = s
  generalize ((s.filter fun h => h.c.isNone).map (Halo.key W)).dedup = keys
  induction keys generalizing s with
  | nil => exact ⟨s, rfl⟩
  | cons k keys ih =>
    rw [List.foldlM_cons]
    obtain ⟨s1, h1⟩ := onSel_ok (p := fun h => h.c.isNone && decide (h.key W = k))
      (f := concOneGroup W k) (hs := s) (by unfold concOneGroup; split <;> exact ⟨_, rfl⟩)
    rw [h1]
    exact ih s1

theorem precomputeNfw_ok (W : World) (hs : List Halo) : ∃ hs', precomputeNfw W hs = .ok hs' := by
  unfold precomputeNfw
  split_ifs
  · exact ⟨_, rfl⟩
  · obtain ⟨s, h⟩ := precomputeConcentrations_ok W hs
    rw [h]
    exact ⟨_, rfl⟩

/-- Cosmic time does not run backwards. -/
def Spec.AgeFalls (A : AstropyI) : Prop :=
  ∀ a b u v, a ≤ b → Cosmo.ageInterp A a = .ok u → Cosmo.ageInterp A b = .ok v → v ≤ u

theorem precomputeInfallTimes_ok (W : World) (mono : Spec.AgeFalls W.A) (hs : List Halo)
    (r : ∀ h ∈ hs, 0 ≤ h.z ∧ h.z ≤ 20 ∧ 0 ≤ vZ W h ∧ vZ W h ≤ 20) :
    ∃ hs', precomputeInfallTimes W hs = .ok hs' := by
  refine onSel_ok ?_
  have r : ∀ h ∈ hs.filter (·.isSub), 0 ≤ h.z ∧ h.z ≤ 20 ∧ 0 ≤ vZ W h ∧ vZ W h ≤ 20 :=
    fun h m => r h (List.mem_filter.1 m).1
  generalize hs.filter (·.isSub) = s at r
  obtain ⟨s1, h1⟩ := onSel_ok (p := fun h => h.zInf.isNone) (f := fun l =>
      .ok (List.zipWith (fun h z => { h with zInf := some z }) l
        (Batch.infallVectorized W.N W.k W.zLens W.mHost (l.map (·.mass)) (l.map (·.vz))))) (hs := s)
      ⟨_, rfl⟩
  simp only [h1]
  rw [ok_bind]
  have f1 : List.Forall₂ (Fills W) s s1 := by
    refine onSel_spec h1 (fun l hl => ?_) fun h _ _ => .refl _ _
    cases hl
    rw [Props.c31_infall, zw, zw_left]
    refine forall_map _ _ fun h m => ?_
    have hz : h.zInf = none := by simpa using (List.mem_filter.1 m).2
    have := fill_zInf W h
    simpa only [vZ, hz, Option.getD_none] using this
  have r1 : ∀ h ∈ s1, 0 ≤ h.z ∧ h.z ≤ 20 ∧ 0 ≤ vZ W h ∧ vZ W h ≤ 20 :=
    forall_mem f1 r fun h h' p f => by
      have x := core_eq f.core
      rw [x.2.2.2.2.1, x.2.2.2.2.2.2.2.1]
      exact p
  refine onSel_ok ?_
  have r2 : ∀ h ∈ s1.filter (fun h => h.time.isNone), 0 ≤ h.z ∧ h.z ≤ 20 ∧ 0 ≤ vZ W h ∧ vZ W h ≤ 20 :=
    fun h m => r1 h (List.mem_filter.1 m).1
  generalize s1.filter (fun h => h.time.isNone) = q at r2
  have e1 : (q.map fun h => (h.z, (h.readZ W).2)).map (·.1) = q.map (·.z) := by simp
  have e2 : (q.map fun h => (h.z, (h.readZ W).2)).map (·.2) = q.map fun h => (h.readZ W).2 := by simp
  obtain ⟨dt, hd⟩ := (Props.c31_times W.A (q.map fun h => (h.z, (h.readZ W).2))).2 (by
    intro o m
    obtain ⟨h, hm, rfl⟩ := List.mem_map.1 m
    simp only [(readZ_spec W h).2.1]
    exact r2 h hm) mono
  rw [e1, e2] at hd
  rw [hd]
  exact ⟨_, rfl⟩

theorem vT_ok (mono : Spec.AgeFalls W.A) {h : Halo} (hs : h.isSub = true)
    (r : 0 ≤ h.z ∧ h.z ≤ 20 ∧ 0 ≤ vZ W h ∧ vZ W h ≤ 20) : ∃ t, vT W h = .ok (some t) := by
  unfold vT
  rw [if_pos hs]
  cases h.time with
  | some t => exact ⟨t, rfl⟩
  | none =>
    have c := Props.c31_times W.A [(h.z, vZ W h)]
    obtain ⟨l, hl⟩ := c.2 (by simpa using r) mono
    have := (mapM_forall _ _ _ (c.1 l hl))
    cases this with
    | cons a _ =>
      simp only at a
      rw [a]
      exact ⟨_, rfl⟩

theorem ok_intro {α β : Type} {x : Except Err α} {f : α → Except Err β} (a : ∃ r, x = .ok r)
    (b : ∀ r, x = .ok r → ∃ q, f r = .ok q) : ∃ q, (x >>= f) = .ok q := by
  obtain ⟨r, hr⟩ := a
  obtain ⟨q, hq⟩ := b r hr
  exact ⟨q, by rw [hr]; exact hq⟩

/-- Warming succeeds if the subhalos that are warmed have redshifts and infall redshifts between 0
and 20 and the class named for the field halos is not one of the models for subhalos. -/
theorem c87_succeeds (W : World) (k : KwModel) (hs : List Halo) (mono : Spec.AgeFalls W.A)
    (zi : ∀ ch, k.get true ≠ some (.zinfall ch))
    (field : ∀ ch, k.get false ≠ some (.galacticus ch) ∧ k.get false ≠ some (.zinfall ch))
    (r : ∀ h ∈ hs, h.isSub = true → h.kind = .tnfw ∨ h.kind = .prescribed →
      0 ≤ h.z ∧ h.z ≤ 20 ∧ 0 ≤ (h.readZ W).2 ∧ (h.readZ W).2 ≤ 20) :
    ∃ hs', precomputeRealization W k hs = .ok hs' := by
  unfold precomputeRealization
  simp only
  refine ok_intro ?_ fun s1 _ => ok_intro ?_ fun s2 _ => onSel_ok (precomputeNfw_ok W _)
  · cases hk : k.get true with
    | none => exact ⟨_, rfl⟩
    | some t =>
      cases ht : t with
      | zinfall ch => subst ht; exact absurd hk (zi ch)
      | multipleRs _ => exact ⟨_, rfl⟩
      | rn _ => exact ⟨_, rfl⟩
      | other _ => exact ⟨_, rfl⟩
      | galacticus ch =>
        refine onSel_ok ?_
        unfold precomputeSubs
        refine onSel_ok ?_
        have mem : ∀ h ∈ (hs.filter (fun h => (decide (h.kind = .tnfw) || decide (h.kind = .prescribed)) && h.isSub)).filter
            (fun h => h.isSub && h.prof.isNone),
            h.isSub = true ∧ 0 ≤ h.z ∧ h.z ≤ 20 ∧ 0 ≤ vZ W h ∧ vZ W h ≤ 20 := by
          intro h m
          have m1 := (List.mem_filter.1 m).1
          have m2 := (List.mem_filter.1 m1).2
          have m3 : (h.kind = .tnfw ∨ h.kind = .prescribed) ∧ h.isSub = true := by simpa using m2
          have := r h (List.mem_filter.1 m1).1 m3.2 m3.1
          rw [(readZ_spec W h).2.1] at this
          exact ⟨m3.2, this⟩
        generalize (hs.filter (fun h => (decide (h.kind = .tnfw) || decide (h.kind = .prescribed)) && h.isSub)).filter
            (fun h => h.isSub && h.prof.isNone) = s at mem
        simp only
        split_ifs
        · exact ⟨_, rfl⟩
        · obtain ⟨a1, e1⟩ := precomputeInfallTimes_ok W mono s fun h m => (mem h m).2
          rw [e1, ok_bind]
          obtain ⟨a2, e2⟩ := precomputeConcentrations_ok W a1
          rw [e2, ok_bind]
          have mem2 : ∀ h ∈ a2, h.isSub = true ∧ 0 ≤ h.z ∧ h.z ≤ 20 ∧ 0 ≤ vZ W h ∧ vZ W h ≤ 20 :=
            forall_mem (forall_trans (precomputeInfallTimes_spec e1) (precomputeConcentrations_spec e2)
              (T := Fills W) fun _ _ _ _ a b => a.trans b) mem fun h h' p f => by
                have x := core_eq f.core
                rw [x.2.2.2.2.1, x.2.2.2.2.2.2.2.1, x.2.2.2.2.2.1]
                exact p
          have tm : ∃ q, timesOrDz W (.galacticus ch) (a2.map fun h => (h.readC W).1) = .ok q := by
            unfold timesOrDz
            simp only
            rw [mapM_of_ok (g := fun h => match vT W h with | .ok (some t) => t | _ => 0)]
            · exact ⟨_, rfl⟩
            · intro h m
              obtain ⟨h0, m0, rfl⟩ := List.mem_map.1 m
              have f := (readC_spec W h0).1
              have x := core_eq f.core
              obtain ⟨p1, p2⟩ := mem2 h0 m0
              obtain ⟨t, ht⟩ := vT_ok mono p1 p2
              rw [(readTime_spec W (h0.readC W).1).2.1, x.2.2.2.2.2.2.2.2.2.2.1, ht]
          obtain ⟨q, hq⟩ := tm
          rw [hq, ok_bind]
          exact ⟨_, rfl⟩
  · cases hk : k.get false with
    | none => exact ⟨_, rfl⟩
    | some t =>
      refine onSel_ok ?_
      unfold precomputeField
      refine onSel_ok ?_
      simp only
      split_ifs
      · exact ⟨_, rfl⟩
      · refine ok_intro (precomputeNfw_ok W _) fun a _ => ?_
        cases ht : t with
        | zinfall ch => subst ht; exact absurd hk (field ch).2
        | galacticus ch => subst ht; exact absurd hk (field ch).1
        | multipleRs _ => exact ⟨_, rfl⟩
        | rn _ => exact ⟨_, rfl⟩
        | other i =>
          simp only
          rw [mapM_of_ok (g := fun h => { (((h.readC W).1.readC W).1.readZEval W).1 with
            drawn := (((h.readC W).1.readC W).1.readZEval W).1.drawn + 1,
            prof := some ((h.readC W).2, W.other i (((h.readC W).1.readC W).1.readZEval W).1.mass
              ((h.readC W).1.readC W).2 (((h.readC W).1.readC W).1.readZEval W).2
              ((((h.readC W).1.readC W).1.readZEval W).1.vb (((h.readC W).1.readC W).1.readZEval W).1.drawn)) })]
          · exact ⟨_, rfl⟩
          · intro h _
            rfl

/-! ### Bound masses -/

theorem cstep_boundC (k : Core) (hk : k.kind ≠ .nfw) (hs : k.isSub = true) (b : Option ℝ) (r : Read) :
    cstep W { k with boundC := b } r
      = ({ (cstep W k r).1 with boundC := b }, (cstep W k r).2) := by
  obtain ⟨kind, mass, x, y, z, isSub, trunc, zInf, zEval, c, time, mb, prof, norm, phys, kw, vm, bc⟩ := k
  simp only at hk hs
  subst hs
  cases r <;> simp only [cstep, hk, if_false, false_or, Bool.true_eq_false] <;>
    first
      | rfl
      | (cases prof <;> cases phys <;> cases kw <;> cases vm <;> rfl)

theorem reports_boundC {h h' : Halo} (g : Good W h) (g' : Good W h') (hk : h.kind = .tnfw)
    (hs : h.isSub = true) (b : Option ℝ) (e : core W h' = { core W h with boundC := b }) (rs : List Read) :
    h'.reports W rs = h.reports W rs := by
  induction rs generalizing h h' with
  | nil => rfl
  | cons r rs ih =>
    obtain ⟨x, y, c⟩ := read_spec g r
    obtain ⟨x', y', c'⟩ := read_spec g' r
    obtain ⟨i, j, -⟩ := cstep_same (W := W) (core W h) r
    have hn : (core W h).kind ≠ .nfw := by show h.kind ≠ _; rw [hk]; simp
    have cb := cstep_boundC (W := W) (core W h) hn hs b r
    unfold Halo.reports
    rw [y, y', e, cb, ih c c' ?_ ?_ (by rw [x', e, cb, x])]
    · rw [← x] at i; exact i.trans hk
    · rw [← x] at j; exact j.trans hs

/-- `precompute_tnfw_bound_masses` on truncated subhalos changes nothing that any of the properties
reports: the number it stores is never read by `TNFWSubhalo.bound_mass`. -/
theorem c87_bound_masses (W : World) (k : KwModel) (hs hs' : List Halo)
    (u : ∀ h ∈ hs, Spec.Used W k h ∧ h.kind = .tnfw) (e : precomputeBound W hs = .ok hs') :
    List.Forall₂ (fun h h' => ∀ rs, h'.reports W rs = h.reports W rs) hs hs' := by
  have g : ∀ h ∈ hs, Good W h ∧ h.kind = .tnfw := fun h m =>
    ⟨(used_fit (u h m).1).good (.inr (u h m).2), (u h m).2⟩
  refine onSel_spec e (fun l hl => ?_) fun h _ _ _ => rfl
  have g' : ∀ h ∈ hs.filter (fun h => h.isSub && h.boundC.isNone), Good W h ∧ h.kind = .tnfw ∧ h.isSub = true :=
    fun h m => by
      have m2 : h.isSub = true ∧ h.boundC = none := by simpa using (List.mem_filter.1 m).2
      exact ⟨(g h (List.mem_filter.1 m).1).1, (g h (List.mem_filter.1 m).1).2, m2.1⟩
  generalize hs.filter (fun h => h.isSub && h.boundC.isNone) = s at hl g'
  have base : List.Forall₂ (fun a b => a = b ∧ Good W a ∧ a.kind = .tnfw ∧ a.isSub = true) s s := by
    have := forall_map (R := fun a b => a = b ∧ Good W a ∧ a.kind = .tnfw ∧ a.isSub = true) id s
      fun h m => ⟨rfl, g' h m⟩
    rwa [List.map_id] at this
  refine forall_trans base (mapM_forall _ _ _ hl) fun h v w m p q => ?_
  obtain ⟨rfl, gh, hk, hsub⟩ := p
  obtain ⟨f, -, -⟩ := readC_spec W h
  have x := core_eq f.core
  obtain ⟨v1, k1, -⟩ := readProf_spec (f.good gh) (x.1.trans hk)
  rcases hr : h.readC W with ⟨h1, c1⟩
  rw [hr] at f v1 k1 x q
  simp only at f v1 k1 x q
  rcases hr2 : h1.readProf W with ⟨h2, r2⟩
  rw [hr2] at v1 k1 q
  simp only at v1 k1 q
  cases r2 with
  | error er => cases q
  | ok p2 =>
    simp only at q
    have gk := (f.keeps.trans k1).good gh
    obtain ⟨f3, -⟩ := readNfw_spec gk
    have kk := (f.keeps.trans k1).trans f3.keeps
    rcases hr3 : h2.readNfw W with ⟨h3, q3⟩
    rw [hr3] at f3 q kk
    simp only at f3 q kk
    have g3 := kk.good gh
    cases q
    refine reports_boundC gh ⟨g3.kind, g3.trunc, g3.nfw, g3.none⟩ hk hsub
      (some (W.fraction (p2.2 / q3.2.1) c1 * h3.mass * h3.norm.norm)) ?_
    rw [← kk.core]
    rfl

/-! ### Where it is not true -/

theorem nfw_one (W : World) (m c z : ℝ) :
    Batch.nfwVectorized W.e [m] [c] [z] [false] = [W.nfw1 m c z] := by
  have := nfw_eq W [()] (fun _ => m) (fun _ => c) (fun _ => z)
  simpa using this

theorem timesSinceInfall_nil (A : AstropyI) : Batch.timesSinceInfall A [] [] = .ok [] := rfl

theorem warm_one (W : World) (t : Tr) (ht : ∃ ch, t = .galacticus ch ∨ t = .zinfall ch) (h : Halo)
    {z τ ze c m : ℝ} (hk : h.kind = .tnfw ∨ h.kind = .prescribed) (hs : h.isSub = true) (hp : h.prof = none)
    (e1 : h.zInf = some z) (e2 : h.time = some τ) (e3 : h.zEval = some ze) (e4 : h.c = some c)
    (e5 : h.mb = some m) :
    precomputeRealization W ⟨some t, none, none⟩ [h] = .ok [{ h.rescale
      ⟨(W.rte m h.mass (W.nfw1 h.mass c ze).2.2 c).2, false, true⟩ with
        nfw := some (W.nfw1 h.mass c ze), prof := some (c, (W.rte m h.mass (W.nfw1 h.mass c ze).2.2 c).1) }] := by
  obtain ⟨kind, mass, x, y, zz, isSub, conc, trunc, vz, vc, vb, drawn, zInf, time, zEval, c', nfw, mb, prof, phys, kw,
    vmaxC, boundC, norm⟩ := h
  simp only at hk hs hp e1 e2 e3 e4 e5
  subst hs hp e1 e2 e3 e4 e5
  have pc : ∀ h : Halo, h.c ≠ none → precomputeConcentrations W [h] = .ok [h] := by
    intro h hc
    have : h.c.isNone = false := by cases hh : h.c <;> simp_all
    simp [precomputeConcentrations, hc, this, pure, Except.pure]
  obtain ⟨ch, rfl | rfl⟩ := ht <;> rcases hk with rfl | rfl <;>
    simp [precomputeRealization, KwModel.get, onSel, precomputeSubs, precomputeInfallTimes, pc, precomputeNfw,
      precomputeField, timesOrDz, batchBound, batchLoss, Batch.merge, bind, Except.bind, pure, Except.pure,
      Halo.readC, Halo.readTime, Halo.readZEval, Halo.readZ, nfw_one, timesSinceInfall_nil, Halo.rescale] <;>
    split_ifs <;> rfl

/-- A subhalo whose infall redshift, time since infall, concentration and bound mass are known. -/
noncomputable def knownSub (kind : Kind) (mass z c : ℝ) (t : Tr) (mb : Option ℝ) (τ : ℝ) (vb : ℕ → ℝ) : Halo :=
  { Halo.new kind mass 0 0 z true 0 t 0 0 vb with
    zInf := some z, time := some τ, zEval := some z, c := some c, mb := mb }

/-- Where the code violates C87: a subhalo with prescribed parameters (`TNFWFromParams`) has the
mass definition of the truncated halos, and warming replaces the prescribed density; for every world
there is a prescribed density that is lost. -/
theorem c87_prescribed_replaced (W : World) (ch mass z rs rv rt τ m : ℝ) :
    ∃ rhos h', let h : Halo := { Halo.fromParams mass 0 0 z z rhos rs rv rt 0 0 (fun _ => 0) with
        time := some τ, zEval := some z, mb := some m }
      h.reports W [.phys] = [.ok [rhos, rs, rv, rt]] ∧
      precomputeRealization W ⟨some (.galacticus ch), none, none⟩ [h] = .ok [h'] ∧
      h'.reports W [.phys] ≠ h.reports W [.phys] := by
  set P := W.nfw1 mass (rv / rs) z with hP
  refine ⟨P.1 * (1 * (W.rte m mass P.2.2 (rv / rs)).2) + 1, _, rfl,
    warm_one W _ ⟨ch, .inl rfl⟩ _ (.inr rfl) rfl rfl rfl rfl rfl rfl rfl, ?_⟩
  simp [Halo.reports, Halo.read, Halo.readPhys, Halo.readProf, Halo.readNfw, Halo.rescale,
    HaloObj.Norm.rescale, HaloObj.Norm.fresh, Halo.fromParams, Halo.new, ← hP]

/-- Where the code violates C87: with `TruncationGalacticusZinfall` warming uses a bound mass that was
assigned before, reading the profile draws a new one. -/
theorem c87_zinfall_assigned (W : World) (ch mass z c : ℝ) (vb : ℕ → ℝ) :
    ∃ m h', let W' := { W with rte := fun m _ _ _ => (m, 1) }
      let h := knownSub .tnfw mass z c (.zinfall ch) (some m) 0 vb
      precomputeRealization W' ⟨some (.zinfall ch), none, none⟩ [h] = .ok [h'] ∧
      h'.reports W' [.profile] ≠ h.reports W' [.profile] := by
  refine ⟨mass * (10 : ℝ) ^ MassLoss.zinfall.call (Real.logb 10 c) (z - W.zLens) ch (vb 0) + 1, _,
    warm_one _ _ ⟨ch, .inr rfl⟩ _ (.inl rfl) rfl rfl rfl rfl rfl rfl rfl, ?_⟩
  simp [Halo.reports, Halo.read, Halo.readProf, Halo.rescale, Halo.askRadius, Halo.radiusHalo,
    Halo.mboundZinfall, Halo.radiusFromBound, Halo.readC, Halo.readZEval, Halo.readZ, knownSub, Halo.new,
    HaloObj.Norm.rescale, HaloObj.Norm.fresh]

/-- Where the code violates C87: if the bound mass of a subhalo is assigned, `mass_3d` read before
anything else uses the normalisation before the rescaling of the truncation model, after warming the
one after it: the enclosed mass changes. -/
theorem c87_mass_3d (W : World) (ch mass z c m : ℝ) (h0 : (W.nfw1 mass c z).1 ≠ 0) :
    ∃ h', let W' := { W with rte := fun _ _ _ _ => (1, 2), mass3d := fun _ _ rho _ => rho }
      let h := knownSub .tnfw mass z c (.galacticus ch) (some m) 0 (fun _ => 0)
      precomputeRealization W' ⟨some (.galacticus ch), none, none⟩ [h] = .ok [h'] ∧
      ∀ r, (h'.readMass3d W' r).2 ≠ (h.readMass3d W' r).2 := by
  refine ⟨_, warm_one _ _ ⟨ch, .inl rfl⟩ _ (.inl rfl) rfl rfl rfl rfl rfl rfl rfl, fun r => ?_⟩
  have e : World.nfw1 { W with rte := fun _ _ _ _ => (1, 2), mass3d := fun _ _ rho _ => rho } mass c z
      = W.nfw1 mass c z := rfl
  simp [Halo.readMass3d, Halo.readNfw, Halo.readProf, Halo.rescale, Halo.askRadius, Halo.readMb,
    Halo.radiusFromBound, Halo.readC, Halo.readZEval, knownSub, Halo.new,
    HaloObj.Norm.rescale, HaloObj.Norm.fresh, e, h0]

/-- Where the code violates C87: a later `rescale_normalization` is ignored after warming and not
ignored, instead of the rescaling by the truncation model, without. -/
theorem c87_later_rescale (W : World) (ch mass z c m : ℝ) (h0 : (W.nfw1 mass c z).1 ≠ 0) :
    ∃ h', let W' := { W with rte := fun _ _ _ _ => (1, 2) }
      let h := knownSub .tnfw mass z c (.galacticus ch) (some m) 0 (fun _ => 0)
      precomputeRealization W' ⟨some (.galacticus ch), none, none⟩ [h] = .ok [h'] ∧
      (h'.step W' (.rescale ⟨3, false, true⟩)).reports W' [.phys]
        ≠ (h.step W' (.rescale ⟨3, false, true⟩)).reports W' [.phys] := by
  refine ⟨_, warm_one _ _ ⟨ch, .inl rfl⟩ _ (.inl rfl) rfl rfl rfl rfl rfl rfl rfl, ?_⟩
  have e : World.nfw1 { W with rte := fun _ _ _ _ => (1, 2) } mass c z = W.nfw1 mass c z := rfl
  simp [Halo.step, Halo.reports, Halo.read, Halo.readPhys, Halo.readNfw, Halo.readProf, Halo.rescale, Halo.askRadius,
    Halo.readMb, Halo.radiusFromBound, Halo.readC, Halo.readZEval, knownSub, Halo.new,
    HaloObj.Norm.rescale, HaloObj.Norm.fresh, e, h0]

/-- Where the code violates C87: the truncation class is taken from `kwargs_halo_model`, not from
the halo. A field halo truncated at 2 scale radii is truncated at 3 after warming with a dictionary
that says 3. -/
theorem c87_class_of_dictionary (W : World) (mass z c : ℝ) (h0 : (W.nfw1 mass c z).2.1 ≠ 0) :
    ∃ h', let h : Halo := { Halo.new .tnfw mass 0 0 z false 0 (.multipleRs 2) 0 0 (fun _ => 0) with c := some c }
      precomputeRealization W ⟨none, none, some (.multipleRs 3)⟩ [h] = .ok [h'] ∧
      h'.reports W [.profile] = [.ok [c, 3 * (W.nfw1 mass c z).2.1]] ∧
      h.reports W [.profile] = [.ok [c, 2 * (W.nfw1 mass c z).2.1]] ∧
      h'.reports W [.profile] ≠ h.reports W [.profile] := by
  have pc : ∀ h : Halo, h.c ≠ none → precomputeConcentrations W [h] = .ok [h] := by
    intro h hc
    have : h.c.isNone = false := by cases hh : h.c <;> simp_all
    simp [precomputeConcentrations, hc, this, pure, Except.pure]
  refine ⟨{ Halo.new .tnfw mass 0 0 z false 0 (.multipleRs 2) 0 0 (fun _ => 0) with
    c := some c, zEval := some z, nfw := some (W.nfw1 mass c z), prof := some (c, 3 * (W.nfw1 mass c z).2.1) },
    ?_, ?_, ?_, ?_⟩
  · simp [precomputeRealization, KwModel.get, onSel, pc, precomputeNfw, Halo.new,
      precomputeField, Batch.merge, bind, Except.bind, pure, Except.pure,
      Halo.readC, Halo.readZEval, nfw_one]
  · rfl
  · rfl
  · have a : ∀ u v : ℝ, [(.ok [c, u] : Except Err (List ℝ))] = [.ok [c, v]] → u = v := by
      intro u v h; simpa using h
    intro hh
    have : 3 * (W.nfw1 mass c z).2.1 = 2 * (W.nfw1 mass c z).2.1 := a _ _ hh
    have : (W.nfw1 mass c z).2.1 = 0 := by linarith
    exact h0 this

/-- Where the code violates C87: at a host concentration of 9 warming gives a subhalo of
concentration 2 just after infall, with the variate 3.303, the whole of its mass as bound mass;
reading it instead gives less. -/
theorem c87_host_concentration (W : World) (mass z : ℝ) (hm : 0 < mass) :
    ∃ h', let h := knownSub .tnfw mass z 2 (.galacticus 9) none 0 (fun _ => 3.303)
      precomputeRealization W ⟨some (.galacticus 9), none, none⟩ [h] = .ok [h'] ∧
      h'.reports W [.boundGalacticus] = [.ok [mass]] ∧
      ∃ m < mass, h.reports W [.boundGalacticus] = [.ok [m]] := by
  obtain ⟨d1, d2⟩ := c31_mass_loss_differs
  have pc : ∀ h : Halo, h.c ≠ none → precomputeConcentrations W [h] = .ok [h] := by
    intro h hc
    have : h.c.isNone = false := by cases hh : h.c <;> simp_all
    simp [precomputeConcentrations, hc, this, pure, Except.pure]
  set p := W.nfw1 mass 2 z with hp
  set q := W.rte mass mass p.2.2 2 with hq
  refine ⟨{ ({ knownSub .tnfw mass z 2 (.galacticus 9) (some mass) 0 (fun _ => 3.303) with drawn := 1 } : Halo).rescale
      ⟨q.2, false, true⟩ with nfw := some p, prof := some (2, q.1) }, ?_, rfl,
    mass * (10 : ℝ) ^ MassLoss.galacticus.call (Real.logb 10 2) 0 9 3.303, ?_, rfl⟩
  · simp [precomputeRealization, KwModel.get, onSel, precomputeSubs, precomputeInfallTimes, pc, precomputeNfw,
      precomputeField, timesOrDz, batchBound, batchLoss, Batch.merge, bind, Except.bind, pure, Except.pure,
      Halo.readC, Halo.readTime, Halo.readZEval, Halo.readZ, nfw_one, timesSinceInfall_nil, Halo.rescale,
      knownSub, Halo.new, d1, HaloObj.Norm.rescale, HaloObj.Norm.fresh, ← hp, ← hq]
  · have : (10 : ℝ) ^ MassLoss.galacticus.call (Real.logb 10 2) 0 9 3.303 < 1 :=
      Real.rpow_lt_one_of_one_lt_of_neg (by norm_num) d2
    nlinarith

/-- Three halos in use: a truncated subhalo whose concentration was read, whose normalisation was
rescaled and which fell in at redshift 1.5; a field halo of which the lensing parameters were read; a
halo of another class. -/
noncomputable def demoWarm (W : World) : List Halo :=
  [(Halo.new .tnfw 1e8 0 0 0.5 true 0 (.galacticus 6) 0 0 (fun _ => -0.4)).run W
      [.setInfall 1.5, .read .c, .rescale ⟨0.8, false, false⟩],
    (Halo.new .tnfw 1e7 0 0 0.3 false 0 (.rn 50) 0 0 (fun _ => 0)).run W [.read .lens],
    Halo.new .other 1e7 0 0 0.3 false 0 (.rn 50) 0 0 (fun _ => 0)]

open Cosmo Np in
theorem ageFalls_of (A : AstropyI) (hA : ∀ a b, 0 ≤ a → a ≤ b → A.age b ≤ A.age a) : Spec.AgeFalls A := by
  obtain ⟨T, h1, h2, -⟩ := ageInterp_spec A hA
  have hg : linspace 0 20 250 = (List.range (249 + 1)).map fun i : ℕ =>
      0 + (i : ℝ) * ((20 - 0) / ((250 : ℕ) - 1)) := by
    unfold linspace
    norm_num
  obtain ⟨h1', h2', -⟩ := grid_spec 249 (fun i : ℕ => 0 + (i : ℝ) * ((20 - 0) / ((250 : ℕ) - 1)))
    (by
      intro i j h
      have : (i : ℝ) < j := by exact_mod_cast h
      norm_num; linarith)
  rw [← hg] at h1' h2'
  norm_num at h1' h2'
  have dom : ∀ z u, Cosmo.ageInterp A z = .ok u → 0 ≤ z ∧ z ≤ 20 := by
    intro z u h
    by_contra hc
    obtain ⟨er, he⟩ := (interp1d_eq _ ((linspace 0 20 250).map A.age) z 0 20 h1' h2').2 (by
      by_contra hn; push Not at hn; exact hc hn)
    rw [ageInterp, he] at h
    cases h
  intro a b u v hab ha hb
  have da := dom a u ha
  have db := dom b v hb
  rw [h1 a da.1 da.2] at ha
  rw [h1 b db.1 db.2] at hb
  cases ha
  cases hb
  exact h2 a b da.1 hab db.2

/-- `c87_warming_partial`, `c87_succeeds` and `c87_stages` apply to `demoWarm` in every world in which
the age of the universe falls with redshift. -/
example (W : World) (hA : ∀ a b, 0 ≤ a → a ≤ b → W.A.age b ≤ W.A.age a) :
    ∃ hs', precomputeRealization W ⟨none, some (.galacticus 6), some (.rn 50)⟩ (demoWarm W) = .ok hs' ∧
      List.Forall₂ (fun h h' => ∀ rs, h'.reports W rs = h.reports W rs) (demoWarm W) hs' := by
  obtain ⟨hs', e⟩ := c87_succeeds W ⟨none, some (.galacticus 6), some (.rn 50)⟩ (demoWarm W) (ageFalls_of W.A hA)
    (by intro ch h; cases h) (by intro ch; constructor <;> intro h <;> cases h) (by
      intro h m
      simp only [demoWarm, List.mem_cons, List.not_mem_nil, or_false] at m
      rcases m with rfl | rfl | rfl
      · intro _ _
        simp [Halo.run, Halo.step, Halo.new, Halo.read, Halo.readC, Halo.readZEval, Halo.readZ, Halo.rescale]
        norm_num
      · intro hh
        have := (warm_run_good (W := W) (h := Halo.new .tnfw 1e7 0 0 0.3 false 0 (.rn 50) 0 0 (fun _ => 0))
          ⟨.inr rfl, (by intro _ h; cases h), fun p e => (by cases e), fun _ => ⟨rfl, rfl⟩⟩ [.read .lens]).2.2.1
        rw [this] at hh
        cases hh
      · intro hh; cases hh)
  refine ⟨hs', e, (c87_warming_partial W _ _ _ (by intro ch h; cases h; norm_num) (by intro ch h; cases h) ?_ e).imp
    fun _ _ h => h.1⟩
  intro h m
  simp only [demoWarm, List.mem_cons, List.not_mem_nil, or_false] at m
  rcases m with rfl | rfl | rfl
  · exact .inl ⟨_, _, _, _, _, _, _, _, _, _, _, _, .inr rfl, (by intro _ h; cases h),
      (by intro t h _ _; cases h; rfl), rfl⟩
  · exact .inl ⟨_, _, _, _, _, _, _, _, _, _, _, _, .inr rfl, (by intro _ h; cases h),
      (by intro t h _ _; cases h; rfl), rfl⟩
  · exact .inr rfl

/-- `c87_bound_masses` applies to a truncated subhalo with a known infall redshift. -/
example (W : World) : ∃ hs', precomputeBound W
    [knownSub .tnfw 1e8 0.5 12 (.galacticus 6) (some 1e7) 3 (fun _ => 0)] = .ok hs' := ⟨_, rfl⟩

end Props
end PyHalo
