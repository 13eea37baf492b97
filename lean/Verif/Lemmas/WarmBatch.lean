import Verif.Lemmas.Warm
import Verif.Props.Sidm
import Verif.Props.MassLoss
import Verif.Props.Truncation
import Mathlib.Tactic

namespace PyHalo
namespace Warm
open HaloObj
open scoped Classical

variable {W : World} {h h' h'' : Halo}

/-! ### Lists -/

theorem ok_bind {α β : Type} (a : α) (f : α → Except Err β) : (Except.ok a >>= f) = f a := rfl

theorem ok_elim {α β : Type} {x : Except Err α} {f : α → Except Err β} {r : β} (e : (x >>= f) = .ok r) :
    ∃ a, x = .ok a ∧ f a = .ok r := by
  cases x with
  | error er => cases e
  | ok a => exact ⟨a, rfl, e⟩

theorem zw {α β γ δ : Type} (f : β → γ → δ) (g : α → β) (k : α → γ) (l : List α) :
    List.zipWith f (l.map g) (l.map k) = l.map fun a => f (g a) (k a) := by
  induction l with
  | nil => rfl
  | cons a l ih => simp [ih]

theorem zp {α β γ : Type} (g : α → β) (k : α → γ) (l : List α) :
    (l.map g).zip (l.map k) = l.map fun a => (g a, k a) := by
  induction l with
  | nil => rfl
  | cons a l ih => simp [ih]

theorem zw_left {α β γ : Type} (f : α → β → γ) (k : α → β) (l : List α) :
    List.zipWith f l (l.map k) = l.map fun a => f a (k a) := by
  induction l with
  | nil => rfl
  | cons a l ih => simp [ih]

theorem merge_map {α β : Type} (p : α → Bool) (f g : α → β) (l : List α) :
    Batch.merge (l.map p) ((l.filter p).map f) ((l.filter fun a => !p a).map g)
      = l.map fun a => if p a then f a else g a := by
  induction l with
  | nil => rfl
  | cons a l ih =>
    cases hp : p a with
    | true => simp [hp, Batch.merge, ih]
    | false => simp [hp, Batch.merge, ih]

theorem merge_forall {R : Halo → Halo → Prop} (p : Halo → Bool) (hs l : List Halo)
    (a : List.Forall₂ R (hs.filter p) l) (b : ∀ h ∈ hs, p h = false → R h h) :
    List.Forall₂ R hs (Batch.merge (hs.map p) l (hs.filter fun h => !p h)) := by
  induction hs generalizing l with
  | nil =>
    cases a
    exact .nil
  | cons h hs ih =>
    cases hp : p h with
    | true =>
      simp only [List.filter_cons, hp, if_true] at a
      cases a with
      | cons a1 a2 =>
        simp only [List.map_cons, hp, List.filter_cons, Bool.not_true, Bool.false_eq_true, if_false,
          Batch.merge]
        exact .cons a1 (ih _ a2 fun h' m => b h' (List.mem_cons_of_mem _ m))
    | false =>
      simp only [List.filter_cons, hp, Bool.false_eq_true, if_false] at a
      simp only [List.map_cons, hp, List.filter_cons, Bool.not_false, if_true]
      cases l with
      | nil =>
        simp only [Batch.merge]
        exact .cons (b h List.mem_cons_self hp) (ih _ a fun h' m => b h' (List.mem_cons_of_mem _ m))
      | cons x l =>
        simp only [Batch.merge]
        exact .cons (b h List.mem_cons_self hp) (ih _ a fun h' m => b h' (List.mem_cons_of_mem _ m))

theorem onSel_spec {R : Halo → Halo → Prop} {p : Halo → Bool} {f : List Halo → Except Err (List Halo)}
    {hs hs' : List Halo} (e : onSel p f hs = .ok hs')
    (a : ∀ l, f (hs.filter p) = .ok l → List.Forall₂ R (hs.filter p) l)
    (b : ∀ h ∈ hs, p h = false → R h h) : List.Forall₂ R hs hs' := by
  unfold onSel at e
  cases hf : f (hs.filter p) with
  | error er => rw [hf] at e; cases e
  | ok l =>
    rw [hf] at e
    cases e
    exact merge_forall p hs l (a l hf) b

theorem forall_map {α : Type} {R : α → α → Prop} (F : α → α) (l : List α) (a : ∀ h ∈ l, R h (F h)) :
    List.Forall₂ R l (l.map F) := by
  induction l with
  | nil => exact .nil
  | cons h l ih =>
    exact .cons (a h List.mem_cons_self) (ih fun x m => a x (List.mem_cons_of_mem _ m))

theorem forall_trans {α : Type} {R S T : α → α → Prop} {a b c : List α} (x : List.Forall₂ R a b)
    (y : List.Forall₂ S b c) (z : ∀ u v w, u ∈ a → R u v → S v w → T u w) : List.Forall₂ T a c := by
  induction x generalizing c with
  | nil => cases y; exact .nil
  | cons r _ ih =>
    cases y with
    | cons s t =>
      exact .cons (z _ _ _ List.mem_cons_self r s)
        (ih t fun u v w m => z u v w (List.mem_cons_of_mem _ m))

theorem mapM_val {α β : Type} (f : α → Except Err β) (l : List α) (r : List β) (d : β)
    (e : l.mapM f = .ok r) :
    r = l.map (fun a => match f a with | .ok b => b | .error _ => d) ∧
      ∀ a ∈ l, f a = .ok (match f a with | .ok b => b | .error _ => d) := by
  induction l generalizing r with
  | nil =>
    simp only [List.mapM_nil] at e
    cases e
    simp
  | cons a l ih =>
    rw [List.mapM_cons] at e
    cases hf : f a with
    | error er => rw [hf] at e; cases e
    | ok b =>
      rw [hf] at e
      cases hl : l.mapM f with
      | error er => rw [hl] at e; cases e
      | ok s =>
        rw [hl] at e
        cases e
        obtain ⟨x, y⟩ := ih s hl
        refine ⟨?_, ?_⟩
        · rw [List.map_cons, ← x, hf]
        · intro c hc
          rcases List.mem_cons.1 hc with rfl | hc
          · rw [hf]
          · exact y c hc

/-! ### Infall redshifts and times -/

theorem precomputeInfallTimes_spec {hs hs' : List Halo} (e : precomputeInfallTimes W hs = .ok hs') :
    List.Forall₂ (Fills W) hs hs' := by
  refine onSel_spec e (fun l hl => ?_) fun h _ _ => .refl _ _
  have sub : ∀ h ∈ hs.filter (·.isSub), h.isSub = true := fun h m => (List.mem_filter.1 m).2
  generalize hs.filter (·.isSub) = s at hl sub
  cases h1 : onSel (fun h => h.zInf.isNone) (fun l =>
      .ok (List.zipWith (fun h z => { h with zInf := some z }) l
        (Batch.infallVectorized W.N W.k W.zLens W.mHost (l.map (·.mass)) (l.map (·.vz))))) s with
  | error er => simp only [h1] at hl; cases hl
  | ok s1 =>
    simp only [h1] at hl
    rw [ok_bind] at hl
    have f1 : List.Forall₂ (Fills W) s s1 := by
      refine onSel_spec h1 (fun l hl => ?_) fun h _ _ => .refl _ _
      cases hl
      rw [Props.c31_infall, zw, zw_left]
      refine forall_map _ _ fun h m => ?_
      have hz : h.zInf = none := by simpa using (List.mem_filter.1 m).2
      have := fill_zInf W h
      simpa only [vZ, hz, Option.getD_none] using this
    have f2 : List.Forall₂ (fun h h' => h.isSub = true → Fills W h h') s1 l := by
      refine onSel_spec hl (fun l hl => ?_) fun h _ _ _ => .refl _ _
      generalize hq : s1.filter (fun h => h.time.isNone) = q at hl ⊢
      have tn : ∀ h ∈ q, h.time = none := fun h m => by
        rw [← hq] at m; simpa using (List.mem_filter.1 m).2
      cases ht : Batch.timesSinceInfall W.A (q.map (·.z)) (q.map fun h => (h.readZ W).2) with
      | error er => rw [ht] at hl; cases hl
      | ok dt =>
        rw [ht] at hl
        cases hl
        have e1 : (q.map fun h => (h.z, (h.readZ W).2)).map (·.1) = q.map (·.z) := by simp
        have e2 : (q.map fun h => (h.z, (h.readZ W).2)).map (·.2) = q.map fun h => (h.readZ W).2 := by simp
        rw [← e1, ← e2] at ht
        have := (Props.c31_times W.A (q.map fun h => (h.z, (h.readZ W).2))).1 dt ht
        obtain ⟨v, k⟩ := mapM_val _ _ _ 0 this
        rw [v, List.map_map, zw_left]
        refine forall_map _ _ fun h m hs => ?_
        refine fill_time ?_
        have := k (h.z, (h.readZ W).2) (List.mem_map.2 ⟨h, m, rfl⟩)
        simp only [(readZ_spec W h).2.1] at this
        unfold vT
        rw [if_pos hs, tn h m]
        simp only [Function.comp]
        rw [(readZ_spec W h).2.1]
        generalize Batch.timeSinceInfall W.A h.z (vZ W h) = y at this
        cases y with
        | error er => cases this
        | ok t => rfl
    exact forall_trans f1 f2 fun u v w m a b =>
      a.trans (b ((core_eq a.core).2.2.2.2.2.1.trans (sub u m)))

/-! ### Concentrations -/

theorem concGroup_eq (W : World) (i : ℕ) (z : ℝ) (l : List Halo) :
    concGroup W i z (l.map (·.mass)) (l.map (·.vc)) = l.map fun h => W.conc1 i h.mass z h.vc := by
  have key : ∀ c : ℝ, (if c < Conc.floorC then Conc.floorC else c) = max c Conc.floorC := by
    intro c
    split_ifs with h
    · exact (max_eq_right h.le).symm
    · exact (max_eq_left (not_lt.1 h)).symm
  have fa : Conc.finishArray (W.opts i) false ((l.map (·.mass)).map fun m => W.med i m z) z (l.map (·.vc))
      = l.map fun h => Conc.finish (W.opts i) false (W.med i h.mass z) z h.vc := by
    unfold Conc.finishArray Conc.finish
    simp only [key, Bool.false_eq_true, if_false]
    split_ifs
    · rw [List.map_map, List.map_map, zp, List.map_map]
      rfl
    · rw [List.map_map, List.map_map]
      rfl
  unfold concGroup World.conc1
  split_ifs
  · simp only [fa]
    cases W.supp i with
    | none => rfl
    | some s =>
      simp only
      rw [zw, List.map_map]
      refine List.map_congr_left fun h _ => ?_
      simp only [Function.comp, Conc.turnover, key]
  · rw [zw]

theorem concOneGroup_spec (k : ℕ × ℝ) (l l' : List Halo) (e : concOneGroup W k l = .ok l')
    (a : ∀ h ∈ l, h.c = none ∧ h.key W = k) : List.Forall₂ (Fills W) l l' := by
  have key : l' = l.map fun h => { h with c := some (W.conc1 k.1 h.mass k.2 h.vc) } := by
    unfold concOneGroup at e
    split at e
    · cases e; rfl
    · cases e
      rw [concGroup_eq, zw_left]
  rw [key]
  refine forall_map _ _ fun h m => ?_
  obtain ⟨hc, hk⟩ := a h m
  have := fill_c W h
  have e : vC W h = W.conc1 k.1 h.mass k.2 h.vc := by
    rw [← hk]
    simp only [vC, hc, Option.getD_none, Halo.key, (readZEval_spec W h).2.1]
  rwa [e] at this

theorem precomputeConcentrations_spec {hs hs' : List Halo}
    (e : precomputeConcentrations W hs = .ok hs') : List.Forall₂ (Fills W) hs hs' := by
  unfold precomputeConcentrations at e
  simp only at e
  have f1 : List.Forall₂ (Fills W) hs
      (hs.map fun h => if h.c.isNone then (h.readZEval W).1 else h) := by
    refine forall_map _ _ fun h _ => ?_
    split
    · exact (readZEval_spec W h).1
    · exact .refl _ _
  generalize (hs.map fun h => if h.c.isNone then (h.readZEval W).1 else h) = s at e f1
  generalize ((s.filter fun h => h.c.isNone).map (Halo.key W)).dedup = keys at e
  have f2 : List.Forall₂ (Fills W) s hs' := by
    clear f1
    induction keys generalizing s with
    | nil =>
      have e' : s = hs' := by injection e
      rw [← e']
      have := forall_map (R := Fills W) id s fun h _ => .refl _ _
      rwa [List.map_id] at this
    | cons k keys ih =>
      rw [List.foldlM_cons] at e
      cases h1 : onSel (fun h => h.c.isNone && decide (h.key W = k)) (concOneGroup W k) s with
      | error er => rw [h1] at e; cases e
      | ok s1 =>
        rw [h1] at e
        refine forall_trans (onSel_spec (R := Fills W) h1 (fun l hl => ?_) fun h _ _ => .refl _ _)
          (ih s1 e) fun _ _ _ _ a b => a.trans b
        refine concOneGroup_spec k _ l hl fun h m => ?_
        simpa using (List.mem_filter.1 m).2
  exact forall_trans f1 f2 fun _ _ _ _ a b => a.trans b

/-! ### NFW parameters -/

theorem nfw_eq {α : Type} (W : World) (l : List α) (m c z : α → ℝ) :
    Batch.nfwVectorized W.e (l.map m) (l.map c) (l.map z) (l.map fun _ => false)
      = l.map fun a => W.nfw1 (m a) (c a) (z a) := by
  have := Props.c31_nfw W.e (l.map fun a => (m a, c a, z a, false))
  simp only [List.map_map, Function.comp_def] at this
  have inj : ∀ (x : List (ℝ × ℝ × ℝ)) (g : α → Except Err (ℝ × ℝ × ℝ)), x.map Except.ok = l.map g →
      x = l.map fun a => match g a with | .ok p => p | .error _ => (0, 0, 0) := by
    intro x g hx
    have := congrArg (List.map fun (r : Except Err (ℝ × ℝ × ℝ)) =>
      match r with | .ok p => p | .error _ => (0, 0, 0)) hx
    rw [List.map_map, List.map_map] at this
    have e : ((fun (r : Except Err (ℝ × ℝ × ℝ)) =>
      match r with | .ok p => p | .error _ => (0, 0, 0)) ∘ Except.ok) = id := rfl
    rw [e, List.map_id] at this
    exact this
  exact inj _ _ this

theorem precomputeNfw_spec {hs hs' : List Halo} (e : precomputeNfw W hs = .ok hs') :
    List.Forall₂ (fun h h' => Fills W h h' ∧ h'.nfw = some (vP W h) ∧ h'.c = some (vC W h)) hs hs' := by
  unfold precomputeNfw at e
  split_ifs at e with h0
  · cases e; rw [h0]; exact .nil
  · cases h1 : precomputeConcentrations W hs with
    | error er => rw [h1] at e; cases e
    | ok s =>
      rw [h1] at e
      have f1 := precomputeConcentrations_spec h1
      cases e
      simp only [List.map_map, Function.comp_def]
      rw [nfw_eq, zw]
      refine forall_trans f1 (forall_map (R := fun h h' => Fills W h h' ∧ h'.nfw = some (vP W h) ∧
        h'.c = some (vC W h)) _ s fun h _ => ?_)
        fun u v w m a b => ⟨a.trans b.1, by rw [b.2.1, vP_core a.core], by
          rw [b.2.2, (core_eq a.core).2.2.2.2.2.2.2.2.2.1]⟩
      obtain ⟨f, v, k⟩ := readC_spec W h
      obtain ⟨f', v', k', l'⟩ := readZEval_spec W (h.readC W).1
      have ff := f.trans f'
      have p : W.nfw1 ((h.readC W).1.readZEval W).1.mass (h.readC W).2 ((h.readC W).1.readZEval W).2
          = vP W ((h.readC W).1.readZEval W).1 := by
        have x := core_eq f'.core
        rw [v, v']
        unfold vP
        rw [x.2.2.2.2.2.2.2.2.1, x.2.2.2.2.2.2.2.2.2.1, (core_eq f.core).2.2.2.2.2.2.2.2.2.1]
      rw [p]
      exact ⟨ff.trans (fill_nfw W _ (by rw [k']; rfl) (by rw [l', k]; rfl)), by
        rw [vP_core ff.core], by rw [l', k]⟩

/-! ### Truncated subhalos -/

theorem timesOrDz_spec {ch : ℝ} {l s : List Halo} {ts : List ℝ}
    (e : timesOrDz W (.galacticus ch) l = .ok (s, ts)) :
    s = (l.map fun h => (h.readTime W).1) ∧ ∃ T : Halo → ℝ, ts = l.map T ∧
      ∀ h ∈ l, vT W h = .ok (some (T h)) := by
  unfold timesOrDz at e
  simp only at e
  obtain ⟨r, hm, e⟩ := ok_elim e
  obtain ⟨x, y⟩ := mapM_val _ _ _ 0 hm
  cases e
  refine ⟨rfl, _, x, fun h m => ?_⟩
  have := y h m
  rw [(readTime_spec W h).2.1] at this ⊢
  generalize vT W h = v at this ⊢
  rcases v with er | (_ | t)
  · cases this
  · cases this
  · rfl

theorem batchBound_eq {α : Type} {ch : ℝ} (hch : ch ≤ 8) (l : List α) (H : α → Halo) (C T : α → ℝ) :
    let M := fun a => if (H a).mb.isNone then (H a).mass * (10 : ℝ) ^
        MassLoss.galacticus.call (Real.logb 10 (C a)) (T a) ch ((H a).vb (H a).drawn) else (H a).mb.getD 0
    batchBound (.galacticus ch) (l.map fun a => (H a, C a, T a))
      = (l.map fun a => ({ H a with mb := some (M a), drawn :=
          if (H a).mb.isNone then (H a).drawn + 1 else (H a).drawn }, C a, T a), l.map M) := by
  intro M
  have ms : (batchBound (.galacticus ch) (l.map fun a => (H a, C a, T a))).2 = l.map M := by
    unfold batchBound batchLoss
    simp only [List.filter_map, List.map_map, Function.comp_def]
    rw [Props.c31_mass_loss_partial _ _ _ _ _ (.inr hch)]
    simp only [Bool.false_eq_true, if_false]
    rw [zp, zw, zw]
    exact merge_map (fun a => (H a).mb.isNone) (fun a => (H a).mass * (10 : ℝ) ^
        MassLoss.galacticus.call (Real.logb 10 (C a)) (T a) ch ((H a).vb (H a).drawn))
      (fun a => (H a).mb.getD 0) l
  have e1 : (batchBound (.galacticus ch) (l.map fun a => (H a, C a, T a))).1
      = List.zipWith (fun (p : Halo × ℝ × ℝ) m => ({ p.1 with
      mb := some m, drawn := if p.1.mb.isNone then p.1.drawn + 1 else p.1.drawn }, p.2))
        (l.map fun a => (H a, C a, T a)) (batchBound (.galacticus ch) (l.map fun a => (H a, C a, T a))).2 := rfl
  rw [ms, zw] at e1
  exact Prod.ext e1 ms

/-- One subhalo. -/
theorem sub_one {ch t : ℝ} (g : Good W h) (hk : h.kind = .tnfw) (ht : h.trunc = .galacticus ch)
    (hs : h.isSub = true) (hp : h.prof = none) (vt : vT W h = .ok (some t)) {h4 : Halo}
    (f : Fills W h h4) (c4 : h4.c = some (vC W h)) :
    let M := if h4.mb.isNone then h4.mass * (10 : ℝ) ^
        MassLoss.galacticus.call (Real.logb 10 (vC W h)) t ch (h4.vb h4.drawn) else h4.mb.getD 0
    let h5 : Halo := { h4 with mb := some M, drawn := if h4.mb.isNone then h4.drawn + 1 else h4.drawn }
    let h6 := (h5.readZEval W).1
    let p := W.nfw1 h6.mass (vC W h) (h5.readZEval W).2
    let q := W.rte M h6.mass p.2.2 (vC W h)
    Keeps W h { h6.rescale ⟨q.2, false, true⟩ with nfw := some p, prof := some (vC W h, q.1) } := by
  intro M h5 h6 p q
  have a := core_eq f.core
  have hM : vMb W h = .ok M := by
    unfold vMb
    rw [ht]
    simp only [← f.mb]
    cases hm : h4.mb with
    | some m => simp [M, hm]
    | none =>
      simp only [vDraw, vt, M, hm, Option.isNone_none, if_true]
      rw [a.2.1, f.vb, f.drawn]
  have k5 : Keeps W h h5 := f.keeps.trans (fill_mb _ (a.2.2.2.2.2.2.1.trans ht)
    (a.2.2.2.2.2.2.2.2.2.2.2.1.trans hM))
  have a5 := core_eq k5.core
  obtain ⟨f6, v6, z6, c6⟩ := readZEval_spec W h5
  change Fills W h5 h6 at f6
  change h6.zEval = _ at z6
  change h6.c = _ at c6
  have c5 : h6.c = some (vC W h) := c6.trans c4
  have k6 := k5.trans f6.keeps
  have a6 := core_eq k6.core
  have hP : p = vP W h6 := by
    show W.nfw1 h6.mass (vC W h) (h5.readZEval W).2 = W.nfw1 h6.mass (vC W h6) (vZE W h6)
    rw [v6, a6.2.2.2.2.2.2.2.2.2.1, a6.2.2.2.2.2.2.2.2.1, a5.2.2.2.2.2.2.2.2.1]
  have g6 := k6.good g
  have p6 : h6.prof = none := f6.prof.trans (f.prof.trans hp)
  obtain ⟨n1, n2⟩ := g6.none p6
  obtain ⟨-, fm, -⟩ := rescale_form n1 n2 q.2 (some (vC W h, q.1))
  rw [fm]
  refine k6.trans (settle (fo := some q.2) h6.drawn g6 p6 ?_ a6.2.2.2.2.2.2.2.2.2.1.symm
    (.inr (.inr ⟨by rw [hP], by rw [z6]; rfl, by rw [c5]; rfl⟩)) (.inl rfl) rfl (a6.1.trans hk))
  unfold vRad
  rw [a6.2.2.2.2.2.2.1, ht]
  simp only [if_pos (a6.2.2.2.2.2.1.trans hs), a6.2.2.2.2.2.2.2.2.2.2.2.1, hM,
    a6.2.2.2.2.2.2.2.2.2.1, ← hP]
  rfl

theorem precomputeSubs_spec {ch : ℝ} (hch : ch ≤ 8) {hs hs' : List Halo}
    (e : precomputeSubs W (.galacticus ch) hs = .ok hs') :
    List.Forall₂ (fun h h' => Good W h → h.kind = .tnfw → h.trunc = .galacticus ch → Keeps W h h') hs hs' := by
  refine onSel_spec e (fun l hl => ?_) fun h _ _ _ _ _ => .refl _ _
  have sub : ∀ h ∈ hs.filter (fun h => h.isSub && h.prof.isNone), h.isSub = true ∧ h.prof = none :=
    fun h m => by simpa using (List.mem_filter.1 m).2
  generalize hs.filter (fun h => h.isSub && h.prof.isNone) = s at hl sub
  split_ifs at hl with h0
  · cases hl; rw [h0]; exact .nil
  · cases h1 : precomputeInfallTimes W s with
    | error er => rw [h1] at hl; cases hl
    | ok s1 =>
      rw [h1, ok_bind] at hl
      cases h2 : precomputeConcentrations W s1 with
      | error er => rw [h2] at hl; cases hl
      | ok s2 =>
        rw [h2, ok_bind] at hl
        have f := forall_trans (precomputeInfallTimes_spec h1) (precomputeConcentrations_spec h2)
          (T := Fills W) fun _ _ _ _ a b => a.trans b
        simp only at hl
        cases h3 : timesOrDz W (.galacticus ch) (s2.map fun h => (h.readC W).1) with
        | error er => rw [h3] at hl; cases hl
        | ok r =>
          obtain ⟨s4, ts⟩ := r
          rw [h3, ok_bind] at hl
          obtain ⟨e4, T, eT, hT⟩ := timesOrDz_spec h3
          simp only [e4, eT, List.map_map] at hl
          rw [zp, zp] at hl
          simp only [Function.comp_def] at hl
          have eb := batchBound_eq hch s2 (fun h => ((h.readC W).1.readTime W).1) (fun h => (h.readC W).2)
            (fun h => T (h.readC W).1)
          simp only at eb
          rw [eb] at hl
          simp only [List.map_map, Function.comp_def] at hl
          rw [nfw_eq, zp, zp, zw, zp, zp, zw] at hl
          cases hl
          refine forall_trans f (forall_map (R := fun h h' => Good W h → h.kind = .tnfw →
            h.trunc = .galacticus ch → h.isSub = true → h.prof = none → Keeps W h h') _ s2 ?_) ?_
          · intro h m g hk ht hs hp
            obtain ⟨fc, vc, kc⟩ := readC_spec W h
            obtain ⟨ft, -, ct⟩ := readTime_spec W (h.readC W).1
            have vt := hT _ (List.mem_map.2 ⟨h, m, rfl⟩)
            rw [(core_eq fc.core).2.2.2.2.2.2.2.2.2.2.1] at vt
            rw [vc]
            exact sub_one g hk ht hs hp vt (fc.trans ft) (ct.trans kc)
          · intro u v w m a b g hk ht
            have x := core_eq a.core
            exact a.keeps.trans (b (a.good g) (x.1.trans hk) (x.2.2.2.2.2.2.1.trans ht)
              (x.2.2.2.2.2.1.trans (sub u m).1) (a.prof.trans (sub u m).2))

/-! ### Truncated field halos -/

theorem settle_plain {r : ℝ} (g : Good W h) (hk : h.kind = .tnfw) (hp : h.prof = none)
    (hr : vRad W h = .ok (r, none)) : Keeps W h { h with prof := some (vC W h, r) } := by
  obtain ⟨g1, g2⟩ := g.none hp
  have := settle (fo := none) (nn := h.nfw) (n := h.norm) h.drawn g hp hr rfl (.inl rfl) (.inl rfl) rfl hk
  rwa [← g1, ← g2] at this

theorem mapM_forall {α β : Type} (f : α → Except Err β) (l : List α) (r : List β)
    (e : l.mapM f = .ok r) : List.Forall₂ (fun a b => f a = .ok b) l r := by
  induction l generalizing r with
  | nil => cases e; exact .nil
  | cons a l ih =>
    rw [List.mapM_cons] at e
    obtain ⟨b, hb, e⟩ := ok_elim e
    obtain ⟨s, hs, e⟩ := ok_elim e
    cases e
    exact .cons hb (ih s hs)

/-- The state of a halo after `precompute_nfw_params`. -/
structure Ready (W : World) (h : Halo) : Prop where
  good : Good W h
  kind : h.kind = .tnfw
  prof : h.prof = none
  sub : h.isSub = false
  nfw : h.nfw = some (vP W h)
  c : h.c = some (vC W h)

theorem precomputeField_spec {t : Tr} {hs hs' : List Halo} (e : precomputeField W t hs = .ok hs') :
    List.Forall₂ (fun h h' => Good W h → h.kind = .tnfw → h.trunc = t → Keeps W h h') hs hs' := by
  refine onSel_spec e (fun l hl => ?_) fun h _ _ _ _ _ => .refl _ _
  have sub : ∀ h ∈ hs.filter (fun h => !h.isSub && h.prof.isNone), h.isSub = false ∧ h.prof = none :=
    fun h m => by simpa using (List.mem_filter.1 m).2
  generalize hs.filter (fun h => !h.isSub && h.prof.isNone) = s at hl sub
  split_ifs at hl with h0
  · cases hl; rw [h0]; exact .nil
  · obtain ⟨s1, h1, hl⟩ := ok_elim hl
    have f := precomputeNfw_spec h1
    suffices h : List.Forall₂ (fun h h' => Ready W h → h.trunc = t → Keeps W h h') s1 l by
      refine forall_trans f h fun u v w m a b g hk ht => ?_
      obtain ⟨f1, n1, c1⟩ := a
      have x := core_eq f1.core
      exact f1.keeps.trans (b ⟨f1.good g, x.1.trans hk, f1.prof.trans (sub u m).2,
        x.2.2.2.2.2.1.trans (sub u m).1, by rw [n1, vP_core f1.core],
        by rw [c1, x.2.2.2.2.2.2.2.2.2.1]⟩ (x.2.2.2.2.2.2.1.trans ht))
    cases ht : t with
    | multipleRs tau =>
      subst ht
      simp only at hl
      cases hl
      refine forall_map _ _ fun h _ r ht => ?_
      simp only [readC_of_some r.c, r.nfw, Option.getD_some]
      have := settle_plain (r := tau * (vP W h).2.1) r.good r.kind r.prof (by simp only [vRad, ht])
      rw [r.nfw] at this
      exact this
    | rn N =>
      subst ht
      simp only [List.map_map] at hl
      rw [Props.c31_rn, zw, zw] at hl
      cases hl
      refine forall_map _ _ fun h _ r ht => ?_
      obtain ⟨f, v, k, lc⟩ := readZEval_spec W h
      have x := core_eq f.core
      simp only [Function.comp]
      rw [readC_of_some (lc.trans r.c), v]
      simp only
      have := settle_plain (r := Trunc.rn W.e N (h.readZEval W).1.mass (vZE W h)) (f.good r.good)
        (x.1.trans r.kind) (f.prof.trans r.prof)
        (by unfold vRad; rw [x.2.2.2.2.2.2.1, ht]; simp only [x.2.2.2.2.2.2.2.2.1])
      rw [x.2.2.2.2.2.2.2.2.2.1] at this
      exact f.keeps.trans this
    | other i =>
      subst ht
      simp only at hl
      refine (mapM_forall _ _ _ hl).imp fun h h' e r ht => ?_
      simp only [readC_of_some r.c, Halo.radiusHalo] at e
      obtain ⟨f, v, k, lc⟩ := readZEval_spec W h
      have x := core_eq f.core
      cases e
      have g1 := f.good r.good
      have p1 := f.prof.trans r.prof
      obtain ⟨n1, n2⟩ := g1.none p1
      have key := settle (W := W) (h := (h.readZEval W).1) (fo := none) (nn := (h.readZEval W).1.nfw)
        (n := (h.readZEval W).1.norm) (c := vC W h)
        (r := W.other i (h.readZEval W).1.mass (vC W h) (h.readZEval W).2
          ((h.readZEval W).1.vb (h.readZEval W).1.drawn))
        ((h.readZEval W).1.drawn + 1) g1 p1
        (by unfold vRad; rw [x.2.2.2.2.2.2.1, ht]
            simp only [x.2.2.2.2.2.2.2.2.1, x.2.2.2.2.2.2.2.2.2.1, v])
        x.2.2.2.2.2.2.2.2.2.1.symm (.inl rfl)
        (.inr fun ch hch => by rw [x.2.2.2.2.2.2.1, ht] at hch; cases hch) rfl (x.1.trans r.kind)
      rw [← n1, ← n2] at key
      exact f.keeps.trans key
    | galacticus ch =>
      subst ht
      simp only at hl
      refine (mapM_forall _ _ _ hl).imp fun h h' e r ht => ?_
      simp only [readC_of_some r.c, Halo.radiusHalo] at e
      have vd : vDraw W ch h = .error noTime := by simp [vDraw, vT, r.sub]
      obtain ⟨v, -⟩ := mbound_spec W ch h
      rcases hr : h.mboundGalacticus W ch with ⟨h1, q⟩
      rw [hr] at v e
      simp only at v
      rw [vd] at v
      subst v
      cases e
    | zinfall ch =>
      subst ht
      simp only at hl
      exact (mapM_forall _ _ _ hl).imp fun h h' e r ht => absurd ht (r.good.trunc ch)

/-! ### Everything -/

/-- The halos that warming leaves as they are or warms faithfully. -/
structure Fit (W : World) (k : KwModel) (h : Halo) : Prop where
  good : h.kind = .nfw ∨ h.kind = .tnfw → Good W h
  prescribed : h.kind ≠ .prescribed
  own : h.kind = .tnfw → ∀ t, k.get h.isSub = some t → h.isSub = false ∨ (∃ ch, t = .galacticus ch) →
    h.trunc = t

theorem Fit.keeps {k : KwModel} (a : Fit W k h) (b : Keeps W h h') : Fit W k h' := by
  have x := core_eq b.core
  exact ⟨fun hk => b.good (a.good (by rwa [x.1] at hk)), by rw [x.1]; exact a.prescribed, fun hk t => by
    rw [x.2.2.2.2.2.1, x.2.2.2.2.2.2.1]; exact a.own (x.1.symm.trans hk) t⟩

theorem precomputeRealization_spec {k : KwModel} {hs hs' : List Halo}
    (host : ∀ ch, k.get true = some (.galacticus ch) → ch ≤ 8)
    (zi : ∀ ch, k.get true ≠ some (.zinfall ch))
    (e : precomputeRealization W k hs = .ok hs') :
    List.Forall₂ (fun h h' => Fit W k h → Keeps W h h' ∧ (h.kind = .other → h' = h)) hs hs' := by
  have rfl' : ∀ l : List Halo, List.Forall₂ (fun h h' => Fit W k h → Keeps W h h' ∧ (h.kind = .other → h' = h)) l l := by
    intro l
    have := forall_map (R := fun h h' => Fit W k h → Keeps W h h' ∧ (h.kind = .other → h' = h)) id l
      fun h _ _ => ⟨.refl _ _, fun _ => rfl⟩
    rwa [List.map_id] at this
  have tr : ∀ {a b c : List Halo}, List.Forall₂ (fun h h' => Fit W k h → Keeps W h h' ∧ (h.kind = .other → h' = h)) a b →
      List.Forall₂ (fun h h' => Fit W k h → Keeps W h h' ∧ (h.kind = .other → h' = h)) b c →
      List.Forall₂ (fun h h' => Fit W k h → Keeps W h h' ∧ (h.kind = .other → h' = h)) a c := by
    intro a b c x y
    refine forall_trans x y fun u v w _ p q f => ?_
    obtain ⟨p1, p2⟩ := p f
    obtain ⟨q1, q2⟩ := q (f.keeps p1)
    exact ⟨p1.trans q1, fun hk => by
      have := p2 hk
      subst this
      exact q2 hk⟩
  unfold precomputeRealization at e
  simp only at e
  obtain ⟨s1, e1, e⟩ := ok_elim e
  obtain ⟨s2, e2, e3⟩ := ok_elim e
  have r1 : List.Forall₂ (fun h h' => Fit W k h → Keeps W h h' ∧ (h.kind = .other → h' = h)) hs s1 := by
    cases hk : k.get true with
    | none => rw [hk] at e1; cases e1; exact rfl' _
    | some t =>
      rw [hk] at e1
      cases ht : t with
      | galacticus ch =>
        subst ht
        refine onSel_spec e1 (fun l hl => ?_) fun h _ _ _ => ⟨.refl _ _, fun _ => rfl⟩
        have mem : ∀ h ∈ hs.filter (fun h => (decide (h.kind = .tnfw) || decide (h.kind = .prescribed)) && h.isSub),
            (h.kind = .tnfw ∨ h.kind = .prescribed) ∧ h.isSub = true :=
          fun h m => by simpa using (List.mem_filter.1 m).2
        generalize hs.filter (fun h => (decide (h.kind = .tnfw) || decide (h.kind = .prescribed)) && h.isSub) = s at hl mem
        have hr := rfl' s
        refine forall_trans (R := Eq) (List.forall₂_eq_eq_eq ▸ rfl) (precomputeSubs_spec (host ch hk) hl)
          fun u v w m eq b f => ?_
        subst eq
        obtain ⟨m1, m2⟩ := mem u m
        have kt : u.kind = .tnfw := m1.resolve_right f.prescribed
        exact ⟨b (f.good (.inr kt)) kt (f.own kt _ (by rw [m2, hk]) (.inr ⟨ch, rfl⟩)), fun ho => by
          rw [kt] at ho; cases ho⟩
      | zinfall ch => subst ht; exact absurd hk (zi ch)
      | multipleRs _ => subst ht; cases e1; exact rfl' _
      | rn _ => subst ht; cases e1; exact rfl' _
      | other _ => subst ht; cases e1; exact rfl' _
  have r2 : List.Forall₂ (fun h h' => Fit W k h → Keeps W h h' ∧ (h.kind = .other → h' = h)) s1 s2 := by
    cases hk : k.get false with
    | none => rw [hk] at e2; cases e2; exact rfl' _
    | some t =>
      rw [hk] at e2
      refine onSel_spec e2 (fun l hl => ?_) fun h _ _ _ => ⟨.refl _ _, fun _ => rfl⟩
      have mem : ∀ h ∈ s1.filter (fun h => (decide (h.kind = .tnfw) || decide (h.kind = .prescribed)) && !h.isSub),
          (h.kind = .tnfw ∨ h.kind = .prescribed) ∧ h.isSub = false :=
        fun h m => by simpa using (List.mem_filter.1 m).2
      generalize s1.filter (fun h => (decide (h.kind = .tnfw) || decide (h.kind = .prescribed)) && !h.isSub) = s at hl mem
      refine forall_trans (R := Eq) (List.forall₂_eq_eq_eq ▸ rfl) (precomputeField_spec hl)
        fun u v w m eq b f => ?_
      subst eq
      obtain ⟨m1, m2⟩ := mem u m
      have kt : u.kind = .tnfw := m1.resolve_right f.prescribed
      exact ⟨b (f.good (.inr kt)) kt (f.own kt _ (by rw [m2, hk]) (.inl m2)), fun ho => by
        rw [kt] at ho; cases ho⟩
  have r3 : List.Forall₂ (fun h h' => Fit W k h → Keeps W h h' ∧ (h.kind = .other → h' = h)) s2 hs' := by
    refine onSel_spec e3 (fun l hl => ?_) fun h _ _ _ => ⟨.refl _ _, fun _ => rfl⟩
    have mem : ∀ h ∈ s2.filter (fun h => decide (h.kind = .nfw)), h.kind = .nfw :=
      fun h m => by simpa using (List.mem_filter.1 m).2
    generalize s2.filter (fun h => decide (h.kind = .nfw)) = s at hl mem
    refine forall_trans (R := Eq) (List.forall₂_eq_eq_eq ▸ rfl) (precomputeNfw_spec hl)
      fun u v w m eq b f => ?_
    subst eq
    exact ⟨b.1.keeps, fun ho => by rw [mem u m] at ho; cases ho⟩
  exact tr (tr r1 r2) r3

end Warm
end PyHalo
