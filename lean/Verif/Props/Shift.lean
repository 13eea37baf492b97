import Verif.Lemmas.Filter
import Verif.Spec.Demo
import Mathlib.Tactic.NormNum
import Mathlib.Tactic.Ring

/-!
# Shifting background halos (C12, C13)
-/

namespace PyHalo.Props
open PyHalo Spec
open scoped Classical

theorem shiftSelect_eq (σ : Heap) (zmin : ℝ) (l : List Oid) :
    Realization.shiftSelect σ zmin l =
      (l.filter fun h => decide ((σ h).fixedPosition = true ∨ zmin ≤ (σ h).z),
       l.filter fun h => decide ((σ h).fixedPosition = false ∧ zmin ≤ (σ h).z)) := by
  have aux : ∀ (l : List Oid) (acc : List Oid × List Oid),
      l.foldl (fun acc h =>
        if (σ h).fixedPosition then (acc.1 ++ [h], acc.2)
        else if (σ h).z < zmin then acc
        else (acc.1 ++ [h], acc.2 ++ [h])) acc
      = (acc.1 ++ l.filter fun h => decide ((σ h).fixedPosition = true ∨ zmin ≤ (σ h).z),
         acc.2 ++ l.filter fun h => decide ((σ h).fixedPosition = false ∧ zmin ≤ (σ h).z)) := by
    intro l
    induction l with
    | nil => simp
    | cons a t ih =>
      intro acc
      rw [List.foldl_cons, ih]
      by_cases hf : (σ a).fixedPosition = true
      · simp [hf]
      · by_cases hz : (σ a).z < zmin
        · simp [hf, hz, not_le.2 hz]
        · simp [hf, hz, not_lt.1 hz]
  simpa [Realization.shiftSelect] using aux l ([], [])

theorem shiftMutate_eq (σ : Heap) (lc : LensCosmoI) (fx fy : Interp) (l : List Oid)
    (hn : l.Nodup) (o : Oid) :
    Realization.shiftMutate σ lc fx fy l o =
      if o ∈ l then { σ o with x := (σ o).x + fx (lc.DC (σ o).z),
                               y := (σ o).y + fy (lc.DC (σ o).z) } else σ o := by
  have aux : ∀ (l : List Oid) (s : Heap), l.Nodup → (∀ a ∈ l, s a = σ a) →
      (l.map fun h => (h, lc.DC (σ h).z)).foldl
        (fun s p => Realization.moveBy s p.1 (fx p.2) (fy p.2)) s o
      = if o ∈ l then { σ o with x := (σ o).x + fx (lc.DC (σ o).z),
                                 y := (σ o).y + fy (lc.DC (σ o).z) } else s o := by
    intro l
    induction l with
    | nil => intro s _ _; simp
    | cons a t ih =>
      intro s hnd hs
      rw [List.nodup_cons] at hnd
      rw [List.map_cons, List.foldl_cons, ih _ hnd.2]
      · by_cases ho : o ∈ t
        · simp [ho]
        · by_cases hoa : o = a
          · subst hoa
            simp [ho, Realization.moveBy, hs o (by simp)]
          · simp [ho, hoa, Realization.moveBy]
      · intro b hb
        have hba : b ≠ a := fun e => hnd.1 (e ▸ hb)
        simp only [Realization.moveBy, Function.update_of_ne hba]
        exact hs b (List.mem_cons_of_mem _ hb)
  exact aux l σ hn fun _ _ => rfl

/-- The halo `h` displaced by the ray position at its own distance, everything else unchanged. -/
noncomputable def displaced (lc : LensCosmoI) (fx fy : Interp) (h : Halo) : Halo :=
  { h with x := h.x + fx (lc.DC h.z), y := h.y + fy (lc.DC h.z) }

/-- C13.  Shifting a realization that was not shifted yet: every halo object of the realization
that is neither position-fixed nor in front of the minimum redshift is displaced by the ray
position at its distance, every other object in memory is untouched; the returned realization
keeps, in order, the halos that are fixed or behind the minimum redshift, is centred on the ray,
and its arrays describe the displaced halos. -/
theorem c13_shift_effect (σ : Heap) (r : Realization) (hs : r.hasBeenShifted = false)
    (hn : r.halos.Nodup) (fx fy : Interp) (zmin : ℝ) :
    let out := r.shift σ fx fy zmin
    (∀ o, out.1 o = if o ∈ r.halos ∧ (σ o).fixedPosition = false ∧ zmin ≤ (σ o).z
        then displaced r.lensCosmo fx fy (σ o) else σ o) ∧
    out.2.halos = r.halos.filter
      (fun h => decide ((σ h).fixedPosition = true ∨ zmin ≤ (σ h).z)) ∧
    out.2.hasBeenShifted = true ∧ Fresh out.1 out.2 ∧
    out.2.centerX = fx ∧ out.2.centerY = fy ∧ out.2.lensCosmo = r.lensCosmo ∧
    out.2.renderingClasses = r.renderingClasses ∧ out.2.applyMassSheet = r.applyMassSheet ∧
    out.2.geometry = r.geometry := by
  have hsel := shiftSelect_eq σ zmin r.halos
  refine ⟨fun o => ?_, ?_, ?_, ?_, ?_, ?_, ?_, ?_, ?_, ?_⟩
  · simp only [Realization.shift, hs, Bool.false_eq_true, if_false, hsel]
    rw [shiftMutate_eq _ _ _ _ _ (hn.filter _)]
    simp [displaced]
  · simp only [Realization.shift, hs, Bool.false_eq_true, if_false, hsel]; rfl
  · simp [Realization.shift, hs]
  · simp only [Realization.shift, hs, Bool.false_eq_true, if_false]
    have hf := fresh_fromHalos (Realization.shiftMutate σ r.lensCosmo fx fy
      (Realization.shiftSelect σ zmin r.halos).2) (Realization.shiftSelect σ zmin r.halos).1
      r.lensCosmo r.kwargsHaloModel r.applyMassSheet r.renderingClasses (some fx) (some fy)
      r.geometry
    exact ⟨hf.masses, hf.xs, hf.ys, hf.redshifts, hf.flags, hf.zsIncreasing, hf.zsMem⟩
  all_goals simp [Realization.shift, hs, Realization.fromHalos]

example := c13_shift_effect Demo.heap Demo.real rfl (by simp [Demo.real, Realization.fromHalos]) (fun d => d / 1000) (fun _ => 0) 0.3

/-- C13.  Nothing but the two coordinates of a halo ever changes in a shift. -/
theorem c13_shift_only_positions (σ : Heap) (r : Realization) (hn : r.halos.Nodup)
    (fx fy : Interp) (zmin : ℝ) (o : Oid) :
    ∃ x y, (r.shift σ fx fy zmin).1 o = { σ o with x := x, y := y } := by
  by_cases hs : r.hasBeenShifted = true
  · exact ⟨(σ o).x, (σ o).y, by simp [Realization.shift, hs]⟩
  · have := (c13_shift_effect σ r (by simpa using hs) hn fx fy zmin).1 o
    rw [this]
    split
    · exact ⟨_, _, rfl⟩
    · exact ⟨(σ o).x, (σ o).y, rfl⟩

example := c13_shift_only_positions Demo.heap Demo.real (by simp [Demo.real, Realization.fromHalos]) (fun d => d / 1000) (fun _ => 0) 0.3 (2 : ℕ)

/-- C12.  A second shift of a shifted realization does nothing and returns the same instance. -/
theorem c12_shift_of_shifted (σ : Heap) (r : Realization) (fx fy gx gy : Interp) (z z' : ℝ) :
    let out := r.shift σ fx fy z
    out.2.shift out.1 gx gy z' = out := by
  by_cases hs : r.hasBeenShifted = true
  · simp [Realization.shift, hs]
  · simp [Realization.shift, hs]

/-- One call made by a user on the realization they hold; a call that raises leaves the user with
the realization they had. -/
inductive RealOp
  | shift (fx fy : Interp) (zmin : ℝ)
  | filter (aperture logM : ℝ) (raysX raysY : List Interp) (units : String) (w : Bool) (wMin : ℝ)
  | filterSubhalos (aperture logM : ℝ) (xs ys : List ℝ)
  | filterBoundMass (m : ℝ)
  | splitLow (z : ℝ)
  | splitHigh (z : ℝ)
  | atZ (z cx cy : ℝ) (maxRange : Option ℝ) (msc : Bool)

/-- The effect of one call. -/
noncomputable def RealOp.run : RealOp → Heap × Realization → Heap × Realization
  | .shift fx fy zmin, s => s.2.shift s.1 fx fy zmin
  | .filter ap m rx ry u w wm, s =>
    match s.2.filter s.1 ap m rx ry u w wm with
    | .ok r => (s.1, r)
    | .error _ => s
  | .filterSubhalos ap m xs ys, s =>
    match s.2.filterSubhalos s.1 ap m xs ys with
    | .ok r => (s.1, r)
    | .error _ => s
  | .filterBoundMass m, s => (s.1, s.2.filterBoundMass s.1 m)
  | .splitLow z, s => (s.1, (s.2.splitAtZ s.1 z).1)
  | .splitHigh z, s => (s.1, (s.2.splitAtZ s.1 z).2)
  | .atZ z cx cy R msc, s => (s.1, (s.2.realizationAtZ s.1 z cx cy R msc).1)

/-- Run a history of calls. -/
noncomputable def runOps (ops : List RealOp) (s : Heap × Realization) : Heap × Realization :=
  ops.foldl (fun s op => op.run s) s

/-- C12 in full (false, see `c12_at_most_once_fails`): whatever the history of calls on an
unshifted realization, every halo object has been displaced at most once. -/
def AtMostOnce : Prop :=
  ∀ (σ : Heap) (r : Realization) (ops : List RealOp), r.hasBeenShifted = false → r.halos.Nodup →
    ∀ o, (runOps ops (σ, r)).1 o = σ o ∨
      ∃ fx fy zmin, RealOp.shift fx fy zmin ∈ ops ∧
        (runOps ops (σ, r)).1 o = displaced r.lensCosmo fx fy (σ o)

/-- A realization with a single halo at the origin. -/
noncomputable def oneHalo : Realization :=
  Realization.fromHalos Demo.heap [0] Demo.cosmo [] true [none] none none none

/-- C12 is false for the code: splitting a shifted realization forgets that it was shifted, a
further shift then displaces the halo a second time. -/
theorem c12_at_most_once_fails : ¬ AtMostOnce := by
  intro h
  have h0 := h Demo.heap oneHalo
    [.shift (fun _ => 1) (fun _ => 0) 0, .splitLow 5, .shift (fun _ => 1) (fun _ => 0) 0]
    rfl (by simp [oneHalo, Realization.fromHalos]) 0
  have h1 := c13_shift_effect Demo.heap oneHalo rfl (by simp [oneHalo, Realization.fromHalos])
    (fun _ => 1) (fun _ => 0) 0
  set s1 := oneHalo.shift Demo.heap (fun _ => 1) (fun _ => 0) 0 with hs1
  obtain ⟨e1, e2, -, -, -, -, elc, -⟩ := h1
  have hh : s1.2.halos = [0] := by
    rw [e2]
    simp [oneHalo, Realization.fromHalos, Demo.heap, Demo.mk]
  have hx1 : s1.1 0 = displaced Demo.cosmo (fun _ => 1) (fun _ => 0) (Demo.heap 0) := by
    have := e1 0
    rw [this, if_pos]
    · rfl
    · refine ⟨by simp [oneHalo, Realization.fromHalos], rfl, ?_⟩
      norm_num [Demo.heap, Demo.mk]
  have hsplit : (s1.2.splitAtZ s1.1 5).1.halos = [0] := by
    have hz : (s1.1 0).z ≤ 5 := by rw [hx1]; norm_num [displaced, Demo.heap, Demo.mk]
    simp [Realization.splitAtZ, hh, hz]
  have h2 := (c13_shift_effect s1.1 (s1.2.splitAtZ s1.1 5).1 rfl (by rw [hsplit]; simp)
    (fun _ => 1) (fun _ => 0) 0).1 0
  have hrun : (runOps [.shift (fun _ => 1) (fun _ => 0) 0, .splitLow 5,
      .shift (fun _ => 1) (fun _ => 0) 0] (Demo.heap, oneHalo)).1 0
      = ((s1.2.splitAtZ s1.1 5).1.shift s1.1 (fun _ => 1) (fun _ => 0) 0).1 0 := rfl
  rw [hsplit, if_pos ⟨by simp, by rw [hx1]; rfl,
    by rw [hx1]; norm_num [displaced, Demo.heap, Demo.mk]⟩, hx1] at h2
  rw [hrun, h2] at h0
  rcases h0 with h0 | ⟨fx, fy, zmin, hm, h0⟩
  · have := congrArg Halo.x h0
    norm_num [displaced, Demo.heap, Demo.mk] at this
  · simp only [List.mem_cons, RealOp.shift.injEq, reduceCtorEq, List.not_mem_nil, or_false,
      false_or, or_self] at hm
    obtain ⟨rfl, rfl, rfl⟩ := hm
    have := congrArg Halo.x h0
    norm_num [displaced, Demo.heap, Demo.mk] at this

/-- C12, the other way to displace twice: the shifted copy is flagged but the original instance is
not, and both share their halo objects.  Calling `shift` twice on the original moves every movable
halo by twice the ray position, for every realization. -/
theorem c12_original_shifts_again (σ : Heap) (r : Realization) (hs : r.hasBeenShifted = false)
    (hn : r.halos.Nodup) (fx fy : Interp) (zmin : ℝ) (o : Oid) (ho : o ∈ r.halos)
    (hfix : (σ o).fixedPosition = false) (hz : zmin ≤ (σ o).z) :
    let σ₁ := (r.shift σ fx fy zmin).1
    let σ₂ := (r.shift σ₁ fx fy zmin).1
    (σ₂ o).x = (σ o).x + 2 * fx (r.lensCosmo.DC (σ o).z) ∧
    (σ₂ o).y = (σ o).y + 2 * fy (r.lensCosmo.DC (σ o).z) := by
  intro σ₁ σ₂
  have h1 := (c13_shift_effect σ r hs hn fx fy zmin).1 o
  rw [if_pos ⟨ho, hfix, hz⟩] at h1
  have h1' : σ₁ o = displaced r.lensCosmo fx fy (σ o) := h1
  have h2 := (c13_shift_effect σ₁ r hs hn fx fy zmin).1 o
  rw [if_pos ⟨ho, by rw [h1']; exact hfix, by rw [h1']; exact hz⟩, h1'] at h2
  have h2' : σ₂ o = _ := h2
  rw [h2']
  simp only [displaced]
  constructor <;> ring

/-- Calls that keep the shifted status. -/
def KeepsFlag : RealOp → Prop
  | .shift .. => True
  | .filterBoundMass _ => True
  | _ => False

/-- C12, the part that holds.  Start from an unshifted realization (however it was obtained) and
make any calls that keep the shifted status (`shift_background_to_source`, `filter_bound_mass`):
every halo object is unchanged or displaced exactly once, by the ray of one of the shifts.
Missing for the full claim: `filter`, `filter_subhalos`, `split_at_z`, `join` and
`realization_at_z` after a shift, for which it is false (`c12_at_most_once_fails`). -/
theorem c12_at_most_once_partial (σ : Heap) (r : Realization) (ops : List RealOp)
    (hs : r.hasBeenShifted = false) (hn : r.halos.Nodup) (hops : ∀ op ∈ ops, KeepsFlag op) (o : Oid) :
    (runOps ops (σ, r)).1 o = σ o ∨
      ∃ fx fy zmin, RealOp.shift fx fy zmin ∈ ops ∧
        (runOps ops (σ, r)).1 o = displaced r.lensCosmo fx fy (σ o) := by
  -- after a shift nothing moves any more
  have later : ∀ (ops : List RealOp) (s : Heap × Realization), s.2.hasBeenShifted = true →
      (∀ op ∈ ops, KeepsFlag op) → (runOps ops s).1 = s.1 := by
    intro ops
    induction ops with
    | nil => intro s _ _; rfl
    | cons op t ih =>
      intro s hsh hk
      have hstep : (op.run s).1 = s.1 ∧ (op.run s).2.hasBeenShifted = true := by
        have := hk op (by simp)
        cases op with
        | shift fx fy z => simp [RealOp.run, Realization.shift, hsh]
        | filterBoundMass m => exact ⟨rfl, hsh⟩
        | _ => exact absurd this (by simp [KeepsFlag])
      have := ih (op.run s) hstep.2 fun q hq => hk q (List.mem_cons_of_mem _ hq)
      show (runOps t (op.run s)).1 = s.1
      rw [this, hstep.1]
  induction ops generalizing r with
  | nil => left; rfl
  | cons op t ih =>
    have hk := hops op (by simp)
    have ht : ∀ op ∈ t, KeepsFlag op := fun q hq => hops q (List.mem_cons_of_mem _ hq)
    cases op with
    | shift fx fy zmin =>
      have he := c13_shift_effect σ r hs hn fx fy zmin
      have hl := later t (r.shift σ fx fy zmin) he.2.2.1 ht
      have hrun : (runOps (.shift fx fy zmin :: t) (σ, r)).1 = (r.shift σ fx fy zmin).1 := hl
      rw [hrun, he.1 o]
      split
      · right; exact ⟨fx, fy, zmin, by simp, rfl⟩
      · left; rfl
    | filterBoundMass m =>
      have hsub : (r.filterBoundMass σ m).halos.Nodup := by
        have hfil : (r.filterBoundMass σ m).halos = r.halos.filter
            (fun h => decide ((σ h).isSubhalo = true → m ≤ (σ h).boundMass)) := by
          have h := foldl_append_filter
            (fun h => decide ((σ h).isSubhalo = true → m ≤ (σ h).boundMass)) r.halos []
          rw [List.nil_append] at h
          rw [← h]
          show List.foldl _ _ _ = _
          congr 1
          funext acc o
          cases hs : (σ o).isSubhalo <;> simp
        rw [hfil]; exact hn.filter _
      rcases ih (r.filterBoundMass σ m) hs hsub ht with h | ⟨fx, fy, z, hm, h⟩
      · left; exact h
      · right; exact ⟨fx, fy, z, List.mem_cons_of_mem _ hm, h⟩
    | _ => exact absurd hk (by simp [KeepsFlag])

/-- C12.  Only a shift ever changes halo objects: every other call leaves all of memory alone. -/
theorem c12_only_shift_moves (op : RealOp) (s : Heap × Realization)
    (h : ∀ fx fy z, op ≠ .shift fx fy z) : (op.run s).1 = s.1 := by
  cases op with
  | shift fx fy z => exact absurd rfl (h fx fy z)
  | filter ap m rx ry u w wm => simp only [RealOp.run]; split <;> rfl
  | filterSubhalos ap m xs ys => simp only [RealOp.run]; split <;> rfl
  | _ => rfl

/-- Hypotheses of C12 and C13 on the demo realization: unshifted, without repeated objects, one
movable halo behind the lens and one fixed object. -/
example : Demo.real.hasBeenShifted = false ∧ Demo.real.halos.Nodup ∧
    (2 ∈ Demo.real.halos ∧ (Demo.heap 2).fixedPosition = false ∧ (1 / 2 : ℝ) ≤ (Demo.heap 2).z) ∧
    (3 ∈ Demo.real.halos ∧ (Demo.heap 3).fixedPosition = true) ∧
    (∀ op ∈ [RealOp.filterBoundMass 5, .shift (fun d => d) (fun _ => 0) (1 / 2),
      .filterBoundMass 45, .shift (fun d => d) (fun _ => 0) 0], KeepsFlag op) := by
  refine ⟨rfl, ?_, ⟨?_, rfl, ?_⟩, ⟨?_, rfl⟩, ?_⟩
  · simp [Demo.real, Realization.fromHalos]
  · simp [Demo.real, Realization.fromHalos]
  · norm_num [Demo.heap, Demo.mk]
  · simp [Demo.real, Realization.fromHalos]
  · simp [KeepsFlag]

end PyHalo.Props
