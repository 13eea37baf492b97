import Verif.Model.HaloObject
import Verif.Lemmas.Rounding
import Mathlib.Algebra.BigOperators.Group.Finset.Basic
import Mathlib.Algebra.BigOperators.Intervals
import Mathlib.Tactic.FieldSimp
import Mathlib.Tactic.NormNum
import Mathlib.Tactic.Linarith

/-!
# C26, C50, C63-C66: histories of a halo object
-/

namespace PyHalo.Props
open PyHalo HaloObj
open scoped Classical

/-! ### C26 -/

/-- The factor contributed by the `i`-th call: its own factor if it is forced or no earlier call was
logged, and 1 otherwise. -/
noncomputable def contribution (cs : List Call) (i : ℕ) : ℝ :=
  match cs[i]? with
  | some c => if c.force = true ∨ ∀ c' ∈ cs.take i, c'.log = false then c.factor else 1
  | none => 1

/-- **C26**. After any sequence of calls the accumulated factor is the product of the contributions,
and the halo counts as rescaled iff some call was logged. -/
theorem c26_rescale_history (cs : List Call) :
    (Norm.fresh.run cs).norm = ∏ i ∈ Finset.range cs.length, contribution cs i ∧
    ((Norm.fresh.run cs).once = true ↔ ∃ c ∈ cs, c.log = true) := by
  induction cs using List.reverseRecOn with
  | nil => simp [Norm.run, Norm.fresh]
  | append_singleton cs c ih =>
    have hrun : Norm.fresh.run (cs ++ [c])
        = ((Norm.fresh.run cs).rescale c.factor c.force c.log).1 := by
      simp [Norm.run]
    have hc : ∀ i ∈ Finset.range cs.length, contribution (cs ++ [c]) i = contribution cs i := by
      intro i hi
      rw [Finset.mem_range] at hi
      unfold contribution
      rw [List.getElem?_append_left hi, List.take_append_of_le_length hi.le]
    have hlast : contribution (cs ++ [c]) cs.length
        = if c.force = true ∨ ∀ c' ∈ cs, c'.log = false then c.factor else 1 := by
      unfold contribution
      simp
    rw [List.length_append, List.length_singleton, Finset.prod_range_succ,
      Finset.prod_congr rfl hc, hlast, ← ih.1, hrun]
    have honce : (Norm.fresh.run cs).once = false ↔ ∀ c' ∈ cs, c'.log = false := by
      rw [← Bool.not_eq_true, ih.2]
      push Not
      simp
    unfold Norm.rescale
    constructor
    · by_cases hf : c.force = true
      · simp [hf]
      · simp only [hf]
        by_cases ho : (Norm.fresh.run cs).once = true
        · have : ¬ ∀ c' ∈ cs, c'.log = false := by
            rw [← honce]; simp [ho]
          simp [ho, this]
        · have h' : (Norm.fresh.run cs).once = false := by simpa using ho
          rw [if_pos (Or.inr (honce.1 h'))]
          simp [h']
    · have e : (∃ c' ∈ cs ++ [c], c'.log = true) ↔ (∃ c' ∈ cs, c'.log = true) ∨ c.log = true := by
        simp only [List.mem_append, List.mem_singleton]
        constructor
        · rintro ⟨d, h | h, hd⟩
          · exact .inl ⟨d, h, hd⟩
          · exact .inr (h ▸ hd)
        · rintro (⟨d, h, hd⟩ | h)
          · exact ⟨d, .inl h, hd⟩
          · exact ⟨c, .inr rfl, h⟩
      rw [e, ← ih.2]
      by_cases hf : c.force = true <;> by_cases ho : (Norm.fresh.run cs).once = true <;>
        by_cases hl : c.log = true <;> simp [hf, ho, hl]

/-- **C26**. In particular, among non-forced calls with the default logging only the first one has
an effect. -/
theorem c26_only_first (c : Call) (cs : List Call) (h : ∀ d ∈ c :: cs, d.force = false)
    (hl : c.log = true) : (Norm.fresh.run (c :: cs)).norm = c.factor := by
  rw [(c26_rescale_history _).1, List.length_cons, Finset.prod_range_succ']
  rw [Finset.prod_eq_one]
  · simp [contribution]
  · intro i hi
    rw [Finset.mem_range] at hi
    unfold contribution
    rw [List.getElem?_cons_succ, List.getElem?_eq_getElem hi]
    simp only
    rw [if_neg]
    push Not
    refine ⟨?_, c, by simp, by simp [hl]⟩
    simp [h cs[i] (by simp)]

example : (Norm.fresh.run [⟨2, false, true⟩, ⟨3, false, true⟩]).norm = 2 := c26_only_first _ _ (by simp) rfl

example : (Norm.fresh.run [⟨2, false, true⟩, ⟨3, false, true⟩, ⟨5, true, false⟩]).norm = 10 := by
  norm_num [Norm.run, Norm.rescale, Norm.fresh]

/-! ### C50 and C63 -/

/-- The current position of a halo as it should appear in the lensing parameters. -/
noncomputable def shown (cls : Cls) (v : ℝ) : ℝ := if cls.pos = .exact then v else round4 v

/-- The position in the lensing parameters is the current one. -/
def followsPosition (cls : Cls) (o : Obj) (e : Emitted) : Prop :=
  e.x = shown cls o.x ∧ e.y = shown cls o.y

/-- The classes whose parameters carry the position of the object itself. -/
def ownPosition (cls : Cls) : Prop := cls.pos = .rounded ∨ cls.pos = .exact

theorem compute_follows (cls : Cls) (h : ownPosition cls) (o : Obj) :
    followsPosition cls o (o.compute cls) := by
  unfold followsPosition shown Obj.compute
  rcases h with h | h <;> simp [h]

/-- **C50**. For the classes that recompute their parameters, after every history the parameters
carry the current position. -/
theorem c50_recomputed (cls : Cls) (hc : cls.cache = .none) (ho : ownPosition cls) (o : Obj)
    (ops : List Op) :
    followsPosition cls (o.run cls ops) (((o.run cls ops).read cls).2) := by
  have : ((o.run cls ops).read cls).2 = (o.run cls ops).compute cls := by
    unfold Obj.read; rw [hc]
  rw [this]
  exact compute_follows cls ho _

example : nfw.cache = .none ∧ ownPosition nfw ∧ cnfw.cache = .none ∧ uldm.cache = .none :=
  ⟨rfl, .inl rfl, rfl, rfl⟩

theorem run_cache_of_no_read (cls : Cls) : ∀ (ops : List Op) (o : Obj),
    (∀ op ∈ ops, op ≠ .read) → o.cache = none → (o.run cls ops).cache = none
  | [], o, _, h => h
  | op :: t, o, hr, h => by
    show ((o.step cls op).run cls t).cache = none
    apply run_cache_of_no_read cls t _ (fun q hq => hr q (by simp [hq]))
    cases op with
    | read => exact absurd rfl (hr .read (by simp))
    | shift dx dy => unfold Obj.step; simp only; split_ifs <;> simp [h]
    | rescale c => simp [Obj.step, h]

theorem run_follows (cls : Cls) (ho : ownPosition cls) : ∀ (ops : List Op) (o : Obj),
    (∀ op ∈ ops, ∀ dx dy, op = .shift dx dy → o.fixed = true) →
    (∀ e, o.cache = some e → followsPosition cls o e) →
    ∀ e, (o.run cls ops).cache = some e → followsPosition cls (o.run cls ops) e
  | [], o, _, h => h
  | op :: t, o, hr, h => by
    show ∀ e, ((o.step cls op).run cls t).cache = some e → _
    have hfix : (o.step cls op).fixed = o.fixed := by
      cases op with
      | read =>
        unfold Obj.step Obj.read
        cases cls.cache <;> cases o.cache <;> rfl
      | shift dx dy => unfold Obj.step; simp only; split_ifs <;> rfl
      | rescale c => rfl
    apply run_follows cls ho t
    · intro q hq dx dy e
      rw [hfix]
      exact hr q (by simp [hq]) dx dy e
    · cases op with
      | read =>
        intro e he
        unfold Obj.step at he ⊢
        simp only at he ⊢
        unfold Obj.read at he ⊢
        cases hc : cls.cache <;> cases hk : o.cache <;> simp [hc, hk] at he ⊢ <;>
          first
          | (subst he; exact compute_follows cls ho o)
          | exact h e (by rw [hk, he])
      | shift dx dy =>
        have := hr (.shift dx dy) (by simp) dx dy rfl
        unfold Obj.step
        simp only [this, if_true]
        exact h
      | rescale c =>
        intro e he
        unfold Obj.step at he ⊢
        simp only at he ⊢
        split_ifs at he
        exact h e he

/-- **C50, what holds for every class with its own position**. If no shift happens after the first
time the parameters are read (or the halo has a fixed position), the parameters carry the current
position, whatever else happens. What is missing for the full property: shifts after a read, see
`c50_stale`. -/
theorem c50_no_shift_after_read_partial (cls : Cls) (ho : ownPosition cls) (x y : ℝ)
    (pre post : List Op) (hpre : ∀ op ∈ pre, op ≠ .read)
    (hpost : ∀ op ∈ post, ∀ dx dy, op = .shift dx dy →
      ((Obj.new cls x y).run cls pre).fixed = true) :
    let o := (Obj.new cls x y).run cls (pre ++ post)
    followsPosition cls o (o.read cls).2 := by
  intro o
  have hrun : o = ((Obj.new cls x y).run cls pre).run cls post := by
    show Obj.run _ _ _ = _
    unfold Obj.run
    rw [List.foldl_append]
  have hcache := run_cache_of_no_read cls pre (Obj.new cls x y) hpre rfl
  have hinv := run_follows cls ho post ((Obj.new cls x y).run cls pre) hpost
    (fun e he => by rw [hcache] at he; simp at he)
  rw [← hrun] at hinv
  unfold Obj.read
  cases hc : cls.cache <;> cases hk : o.cache <;> simp only <;>
    first
    | exact compute_follows cls ho o
    | exact hinv _ hk

example : ownPosition tnfw ∧ (∀ op ∈ [Op.shift 1 2, .rescale ⟨0.5, false, true⟩], op ≠ .read) ∧
    (∀ op ∈ [Op.read, .rescale ⟨0.5, true, false⟩, .read], ∀ dx dy, op ≠ .shift dx dy) := by
  refine ⟨.inl rfl, ?_, ?_⟩ <;> simp

/-- **C50, disagreement**. For every class that keeps its parameters and whose halos can be shifted,
parameters read before a shift are returned unchanged after it: the position is the old one. -/
theorem c50_stale (cls : Cls) (hc : cls.cache ≠ .none) (ho : ownPosition cls)
    (hf : cls.fixed = false) (x y dx dy : ℝ) (hx : shown cls (x + dx) ≠ shown cls x) :
    let o := (Obj.new cls x y).run cls [.read, .shift dx dy]
    o.x = x + dx ∧ ¬ followsPosition cls o (o.read cls).2 := by
  intro o
  have ho' : o = { Obj.new cls x y with
      x := x + dx, y := y + dy, cache := some ((Obj.new cls x y).compute cls) } := by
    show Obj.run _ _ _ = _
    simp only [Obj.run, List.foldl_cons, List.foldl_nil, Obj.step, Obj.read]
    cases h : cls.cache
    · exact absurd h hc
    · simp [Obj.new, hf]
    · simp [Obj.new, hf]
  have hr : (o.read cls).2 = (Obj.new cls x y).compute cls := by
    rw [ho']
    unfold Obj.read
    cases h : cls.cache
    · exact absurd h hc
    · rfl
    · rfl
  refine ⟨by rw [ho'], ?_⟩
  rintro ⟨h1, -⟩
  rw [hr, (compute_follows cls ho _).1, ho'] at h1
  exact hx h1.symm

theorem rint_int (n : ℤ) : Np.rint (n : ℝ) = n := by
  simp [Np.rint]

example : tnfw.cache ≠ .none ∧ ownPosition tnfw ∧ tnfw.fixed = false ∧
    shown tnfw (1 + 1) ≠ shown tnfw 1 := by
  refine ⟨by decide, .inl rfl, rfl, ?_⟩
  have h1 : round4 (1 + 1) = 2 := by
    unfold round4
    rw [show (10000 * (1 + 1) : ℝ) = ((20000 : ℤ) : ℝ) by norm_num, rint_int]
    norm_num
  have h2 : round4 1 = 1 := by
    unfold round4
    rw [show (10000 * 1 : ℝ) = ((10000 : ℤ) : ℝ) by norm_num, rint_int]
    norm_num
  simp [shown, tnfw, h1, h2]

/-- **C50, disagreement**. A hybrid halo never follows a shift, even when its parameters are read for
the first time after it. -/
theorem c50_hybrid (x y : ℝ) (ops : List Op) :
    let o := (Obj.new hybrid x y).run hybrid ops
    (o.read hybrid).2.x = round4 x ∧ (o.read hybrid).2.y = round4 y := by
  have key : ∀ (ops : List Op) (o : Obj), o.px = x → o.py = y →
      (∀ e, o.cache = some e → e.x = round4 x ∧ e.y = round4 y) →
      ((o.run hybrid ops).px = x ∧ (o.run hybrid ops).py = y ∧
        ∀ e, (o.run hybrid ops).cache = some e → e.x = round4 x ∧ e.y = round4 y) := by
    intro ops
    induction ops with
    | nil => intro o h1 h2 h3; exact ⟨h1, h2, h3⟩
    | cons op t ih =>
      intro o h1 h2 h3
      show _ ∧ _ ∧ _
      apply ih (o.step hybrid op)
      · cases op with
        | read => unfold Obj.step Obj.read; simp only [hybrid]; cases o.cache <;> exact h1
        | shift dx dy => unfold Obj.step; simp only; split_ifs <;> exact h1
        | rescale c => exact h1
      · cases op with
        | read => unfold Obj.step Obj.read; simp only [hybrid]; cases o.cache <;> exact h2
        | shift dx dy => unfold Obj.step; simp only; split_ifs <;> exact h2
        | rescale c => exact h2
      · intro e he
        cases op with
        | read =>
          unfold Obj.step Obj.read at he
          cases hk : o.cache with
          | none =>
            simp only [hybrid, hk, Option.some.injEq] at he
            rw [← he]
            simp [Obj.compute, h1, h2]
          | some k =>
            simp only [hybrid, hk, Option.some.injEq] at he
            rw [← he]
            exact h3 k hk
        | shift dx dy =>
          unfold Obj.step at he
          simp only at he
          split_ifs at he <;> exact h3 e he
        | rescale c =>
          unfold Obj.step at he
          simp only at he
          split_ifs at he
          exact h3 e he
  intro o
  obtain ⟨h1, h2, h3⟩ := key ops (Obj.new hybrid x y) rfl rfl (by simp [Obj.new])
  unfold Obj.read
  cases hk : o.cache with
  | none => simp only [hybrid]; simp [Obj.compute]; exact ⟨by rw [← h1], by rw [← h2]⟩
  | some k => exact h3 k hk

/-- **C63**. For the classes that multiply their amplitude by the accumulated factor, after every
history the amplitude carries exactly the current factor (no cached amplitude survives a rescaling). -/
theorem c63_amplitude (cls : Cls) (hc : cls.cache ≠ .kept) (hn : cls.usesNorm = true) (x y : ℝ)
    (ops : List Op) :
    let o := (Obj.new cls x y).run cls ops
    (o.read cls).2.amp = o.norm.norm := by
  have hcomp : ∀ o : Obj, (o.compute cls).amp = o.norm.norm := by
    intro o; unfold Obj.compute; cases cls.pos <;> simp [hn]
  have key : ∀ (ops : List Op) (o : Obj), (∀ e, o.cache = some e → e.amp = o.norm.norm) →
      (∀ e, o.cache ≠ some e ∨ cls.cache = .cleared) →
      ∀ e, (o.run cls ops).cache = some e → e.amp = (o.run cls ops).norm.norm := by
    intro ops
    induction ops with
    | nil => intro o h _; exact h
    | cons op t ih =>
      intro o h hk
      show ∀ e, ((o.step cls op).run cls t).cache = some e → _
      apply ih
      · cases op with
        | read =>
          intro e he
          unfold Obj.step at he ⊢
          simp only at he ⊢
          unfold Obj.read at he ⊢
          cases h1 : cls.cache <;> cases h2 : o.cache <;> simp [h1, h2] at he ⊢ <;>
            first
            | (subst he; exact hcomp o)
            | exact h e (by rw [h2, he])
        | shift dx dy =>
          unfold Obj.step
          simp only
          split_ifs <;> exact h
        | rescale c =>
          intro e he
          unfold Obj.step at he ⊢
          simp only at he ⊢
          split_ifs at he with hif
          rcases hk e with h' | h'
          · exact absurd he h'
          · have hne : ¬ (o.norm.rescale c.factor c.force c.log).2 = true := fun q => hif ⟨q, h'⟩
            have : (o.norm.rescale c.factor c.force c.log).1 = o.norm := by
              unfold Norm.rescale at hne ⊢
              split_ifs at hne ⊢ <;> first | rfl | exact absurd rfl hne
            rw [this]
            exact h e he
      · intro e
        cases h1 : cls.cache with
        | none =>
          left
          rcases hk e with h' | h'
          · cases op with
            | read => unfold Obj.step Obj.read; simp only [h1]; exact h'
            | shift dx dy => unfold Obj.step; simp only; split_ifs <;> exact h'
            | rescale c => unfold Obj.step; simp only [h1]; simpa using h'
          · rw [h1] at h'; cases h'
        | cleared => exact .inr rfl
        | kept => exact absurd h1 hc
  intro o
  have hinv := key ops (Obj.new cls x y) (by simp [Obj.new]) (by simp [Obj.new])
  unfold Obj.read
  cases h1 : cls.cache <;> cases h2 : o.cache <;> simp only <;>
    first
    | exact hcomp o
    | exact hinv _ h2

example : tnfw.cache ≠ .kept ∧ tnfw.usesNorm = true ∧ nfw.cache ≠ .kept ∧ nfw.usesNorm = true ∧
    cnfw.cache ≠ .kept ∧ cnfw.usesNorm = true ∧ tnfwEmulator.usesNorm = true := by decide

/-- **C63, disagreement**. For the classes that do not use the factor, rescaling is recorded but has
no effect on lensing: the amplitude is always the unrescaled one. These are all classes except NFW,
TNFW, its emulator and CNFW. -/
theorem c63_no_effect (cls : Cls) (hn : cls.usesNorm = false) (x y : ℝ) (ops : List Op) :
    (((Obj.new cls x y).run cls ops).read cls).2.amp = 1 := by
  have hcomp : ∀ o : Obj, (o.compute cls).amp = 1 := by
    intro o; unfold Obj.compute; cases cls.pos <;> simp [hn]
  have key : ∀ (ops : List Op) (o : Obj), (∀ e, o.cache = some e → e.amp = 1) →
      ∀ e, (o.run cls ops).cache = some e → e.amp = 1 := by
    intro ops
    induction ops with
    | nil => intro o h; exact h
    | cons op t ih =>
      intro o h
      show ∀ e, ((o.step cls op).run cls t).cache = some e → _
      apply ih
      intro e he
      cases op with
      | read =>
        unfold Obj.step at he
        simp only at he
        unfold Obj.read at he
        cases h1 : cls.cache <;> cases h2 : o.cache <;> simp [h1, h2] at he <;>
          first
          | (subst he; exact hcomp o)
          | exact h e (by rw [h2, he])
      | shift dx dy =>
        unfold Obj.step at he
        simp only at he
        split_ifs at he <;> exact h e he
      | rescale c =>
        unfold Obj.step at he
        simp only at he
        split_ifs at he
        exact h e he
  have hinv := key ops (Obj.new cls x y) (by simp [Obj.new])
  unfold Obj.read
  cases h1 : cls.cache <;> cases h2 : ((Obj.new cls x y).run cls ops).cache <;> simp only <;>
    first
    | exact hcomp _
    | exact hinv _ h2

example : (allClasses.filter fun c => c.usesNorm).map Cls.name
    = ["NFW", "TNFW", "TNFWSubhaloEmulator", "CNFW"] := by decide

/-! ### The truncated NFW halo -/

/-- What every TNFW object satisfies at all times: cached values agree with the current factor. -/
structure TInv (I : TnfwI) (s : Tnfw) : Prop where
  profile : ∀ p, s.profileArgs = some p → p = (I.c, I.rt)
  phys : ∀ p, s.phys = some p →
    p = ⟨I.rhos * s.norm.norm, I.rs, I.r200, I.rt⟩ ∧ s.profileArgs.isSome
  kw : ∀ k, s.kw = some k →
    k.alphaRs = s.norm.norm * round10 (I.angles (I.rhos * 1e9) (I.rs * 1e-3)).2 ∧
    k.Rs = round10 (I.angles (I.rhos * 1e9) (I.rs * 1e-3)).1 ∧
    k.rTrunc = round10 (I.rt / I.kpcPerArcsec) ∧ s.profileArgs.isSome
  vmax : ∀ v, s.vmaxC = some v → s.profileArgs.isSome

theorem TInv.new (I : TnfwI) (x y : ℝ) : TInv I (Tnfw.new x y) :=
  ⟨by simp [Tnfw.new], by simp [Tnfw.new], by simp [Tnfw.new], by simp [Tnfw.new]⟩

theorem rescale_not_applied (n : Norm) (f : ℝ) (force log : Bool)
    (h : (n.rescale f force log).2 = false) : (n.rescale f force log).1 = n := by
  unfold Norm.rescale at h ⊢
  split_ifs at h ⊢
  rfl

theorem TInv.rescale {I : TnfwI} {s : Tnfw} (h : TInv I s) (c : Call) : TInv I (s.rescale c) := by
  unfold Tnfw.rescale
  simp only
  cases hr : (s.norm.rescale c.factor c.force c.log).2 with
  | true =>
    simp only [if_true]
    exact ⟨h.profile, by simp, by simp, h.vmax⟩
  | false =>
    simp only [Bool.false_eq_true, if_false]
    rw [rescale_not_applied _ _ _ _ hr]
    exact ⟨h.profile, h.phys, h.kw, h.vmax⟩

theorem rescale_keeps (s : Tnfw) (c : Call) :
    (s.rescale c).profileArgs = s.profileArgs ∧ (s.rescale c).vmaxC = s.vmaxC ∧
    (s.rescale c).norm = (s.norm.rescale c.factor c.force c.log).1 ∧
    (s.rescale c).x = s.x ∧ (s.rescale c).y = s.y := by
  unfold Tnfw.rescale
  simp only
  split_ifs <;> simp

/-- Reading the profile arguments: values, invariant, and the rescaling by the truncation model. -/
theorem readProfile_spec {I : TnfwI} {s : Tnfw} (h : TInv I s) :
    TInv I (s.readProfile I).1 ∧ (s.readProfile I).2 = (I.c, I.rt) ∧
    (s.readProfile I).1.profileArgs = some (I.c, I.rt) ∧
    (s.readProfile I).1.norm = s.norm.run
      (if s.profileArgs.isSome then [] else (I.ft.toList.map fun f => ⟨f, false, true⟩)) ∧
    (s.readProfile I).1.x = s.x ∧ (s.readProfile I).1.y = s.y := by
  unfold Tnfw.readProfile
  cases hp : s.profileArgs with
  | some p =>
    have := h.profile p hp
    subst this
    simp only
    exact ⟨h, trivial, hp, by simp [Norm.run], trivial, trivial⟩
  | none =>
    simp only
    cases hf : I.ft with
    | none =>
      have hk := h.kw
      have hq := h.phys
      have hv := h.vmax
      rw [hp] at hk hq hv
      refine ⟨⟨?_, ?_, ?_, ?_⟩, trivial, trivial, by simp [Norm.run], rfl, rfl⟩
      · simp
      · intro p hpp; simpa using hq p hpp
      · intro k hkk; simpa using hk k hkk
      · intro v hvv; simp
    | some f =>
      have h' := h.rescale ⟨f, false, true⟩
      obtain ⟨g1, g2, g3, g4, g5⟩ := rescale_keeps s ⟨f, false, true⟩
      refine ⟨⟨?_, ?_, ?_, ?_⟩, trivial, trivial, by simp [Norm.run, g3], g4, g5⟩
      · simp
      · intro p hpp
        have := h'.phys p hpp
        exact ⟨this.1, rfl⟩
      · intro k hkk
        have := h'.kw k hkk
        exact ⟨this.1, this.2.1, this.2.2.1, rfl⟩
      · intro v hvv; rfl

/-- The rescaling calls made by a history: the explicit ones, and the one the truncation model makes
at the first read. -/
def callsOf (I : TnfwI) : Bool → List TOp → List Call
  | _, [] => []
  | seen, .rescale c :: t => c :: callsOf I seen t
  | seen, .shift _ _ :: t => callsOf I seen t
  | true, _ :: t => callsOf I true t
  | false, _ :: t => (I.ft.toList.map fun f => ⟨f, false, true⟩) ++ callsOf I true t

/-- What one read of any kind does. -/
def isRead : TOp → Bool
  | .shift _ _ => false
  | .rescale _ => false
  | _ => true

theorem step_read {I : TnfwI} {s : Tnfw} (h : TInv I s) (op : TOp) (hop : isRead op = true) :
    TInv I (s.step I op) ∧ (s.step I op).profileArgs.isSome ∧
    (s.step I op).norm = s.norm.run
      (if s.profileArgs.isSome then [] else (I.ft.toList.map fun f => ⟨f, false, true⟩)) := by
  obtain ⟨r1, r2, r3, r4, -, -⟩ := readProfile_spec h
  have base : TInv I (s.readProfile I).1 ∧ ((s.readProfile I).1).profileArgs.isSome ∧
      (s.readProfile I).1.norm = s.norm.run
        (if s.profileArgs.isSome then [] else (I.ft.toList.map fun f => ⟨f, false, true⟩)) :=
    ⟨r1, by rw [r3]; rfl, r4⟩
  have hphys : TInv I (s.readPhys I).1 ∧ ((s.readPhys I).1).profileArgs.isSome ∧
      (s.readPhys I).1.norm = s.norm.run
        (if s.profileArgs.isSome then [] else (I.ft.toList.map fun f => ⟨f, false, true⟩)) := by
    unfold Tnfw.readPhys
    cases hp : s.phys with
    | some p =>
      have := (h.phys p hp).2
      simp only
      exact ⟨h, this, by simp [this, Norm.run]⟩
    | none =>
      simp only
      refine ⟨⟨r1.profile, ?_, r1.kw, r1.vmax⟩, base.2.1, r4⟩
      intro p hpp
      simp only [Option.some.injEq] at hpp
      have r2' := congrArg Prod.snd r2
      simp only at r2'
      rw [← hpp, r2']
      exact ⟨rfl, base.2.1⟩
  cases op with
  | profile => exact base
  | phys => exact hphys
  | lens =>
    show TInv I (s.readLens I).1 ∧ _ ∧ _
    unfold Tnfw.step
    simp only
    unfold Tnfw.readLens
    cases hk : s.kw with
    | some k =>
      have := (h.kw k hk).2.2.2
      simp only
      exact ⟨h, this, by simp [this, Norm.run]⟩
    | none =>
      simp only
      refine ⟨⟨r1.profile, r1.phys, ?_, r1.vmax⟩, base.2.1, r4⟩
      intro k hkk
      simp only [Option.some.injEq] at hkk
      have r2' := congrArg Prod.snd r2
      simp only at r2'
      rw [← hkk, r2']
      exact ⟨rfl, rfl, rfl, base.2.1⟩
  | mass3d r => exact base
  | density r => exact base
  | vmax =>
    show TInv I (s.readVmax I).1 ∧ _ ∧ _
    unfold Tnfw.step
    simp only
    unfold Tnfw.readVmax
    cases hv : s.vmaxC with
    | some v =>
      have := h.vmax v hv
      simp only
      exact ⟨h, this, by simp [this, Norm.run]⟩
    | none =>
      simp only
      exact ⟨⟨r1.profile, r1.phys, r1.kw, fun v _ => base.2.1⟩, base.2.1, r4⟩
  | bound =>
    show TInv I (s.readBound I).1 ∧ _ ∧ _
    unfold Tnfw.step
    simp only
    unfold Tnfw.readBound
    cases hk : s.kw with
    | some k =>
      have := (h.kw k hk).2.2.2
      simp only
      exact ⟨h, this, by simp [this, Norm.run]⟩
    | none => exact hphys
  | shift dx dy => simp [isRead] at hop
  | rescale c => simp [isRead] at hop

theorem run_spec (I : TnfwI) : ∀ (ops : List TOp) (s : Tnfw), TInv I s →
    TInv I (s.run I ops) ∧
    (s.run I ops).norm = s.norm.run (callsOf I s.profileArgs.isSome ops)
  | [], s, h => ⟨h, rfl⟩
  | op :: t, s, h => by
    show TInv I ((s.step I op).run I t) ∧ ((s.step I op).run I t).norm = _
    by_cases hr : isRead op = true
    · obtain ⟨h1, h2, h3⟩ := step_read h op hr
      obtain ⟨i1, i2⟩ := run_spec I t _ h1
      refine ⟨i1, ?_⟩
      rw [i2, h2, h3]
      cases hs : s.profileArgs.isSome <;> cases op <;>
        simp [callsOf, isRead, Norm.run] at hr ⊢
    · cases op with
      | shift dx dy =>
        have h1 : TInv I (s.step I (.shift dx dy)) := ⟨h.profile, h.phys, h.kw, h.vmax⟩
        obtain ⟨i1, i2⟩ := run_spec I t _ h1
        exact ⟨i1, i2⟩
      | rescale c =>
        have h1 : TInv I (s.step I (.rescale c)) := h.rescale c
        obtain ⟨i1, i2⟩ := run_spec I t _ h1
        refine ⟨i1, ?_⟩
        obtain ⟨g1, g2, g3, -, -⟩ := rescale_keeps s c
        rw [i2]
        show (s.rescale c).norm.run (callsOf I (s.rescale c).profileArgs.isSome t) = _
        rw [g1, g3]
        rfl
      | _ => simp [isRead] at hr

/-- **C26**. For a truncated NFW halo with any history of reads, shifts and rescalings, the factor is
the one of the explicit calls together with the single call the truncation model makes at the first
read. -/
theorem c26_tnfw_history (I : TnfwI) (x y : ℝ) (ops : List TOp) :
    ((Tnfw.new x y).run I ops).norm = Norm.fresh.run (callsOf I false ops) :=
  (run_spec I ops _ (TInv.new I x y)).2

/-- **C63**. Whatever the history, the lensing amplitude and the physical density of a truncated NFW
halo carry the current factor, and radii never change. -/
theorem c63_tnfw (I : TnfwI) (x y : ℝ) (ops : List TOp) :
    let s := (Tnfw.new x y).run I ops
    (s.readLens I).2.alphaRs
      = (s.readLens I).1.norm.norm * round10 (I.angles (I.rhos * 1e9) (I.rs * 1e-3)).2 ∧
    (s.readLens I).2.Rs = round10 (I.angles (I.rhos * 1e9) (I.rs * 1e-3)).1 ∧
    (s.readLens I).2.rTrunc = round10 (I.rt / I.kpcPerArcsec) ∧
    (s.readPhys I).2 = ⟨I.rhos * (s.readPhys I).1.norm.norm, I.rs, I.r200, I.rt⟩ ∧
    (s.readProfile I).2 = (I.c, I.rt) := by
  intro s
  have h : TInv I s := (run_spec I ops _ (TInv.new I x y)).1
  obtain ⟨r1, r2, r3, r4, -, -⟩ := readProfile_spec h
  refine ⟨?_, ?_, ?_, ?_, r2⟩
  · unfold Tnfw.readLens
    cases hk : s.kw with
    | some k => exact (h.kw k hk).1
    | none => rfl
  · unfold Tnfw.readLens
    cases hk : s.kw with
    | some k => exact (h.kw k hk).2.1
    | none => rfl
  · unfold Tnfw.readLens
    cases hk : s.kw with
    | some k => exact (h.kw k hk).2.2.1
    | none => simp only [r2]
  · unfold Tnfw.readPhys
    cases hk : s.phys with
    | some k => exact (h.phys k hk).1
    | none => simp only [r2]

/-- **C64, disagreement**. Asking a fresh truncated halo twice for its enclosed mass gives two
different answers when the truncation model rescales the halo: the first answer ignores the factor. -/
theorem c64_mass_3d_changes (I : TnfwI) (f : ℝ) (hf : I.ft = some f) (x y r : ℝ) :
    let s := Tnfw.new x y
    (s.readMass3d I r).2 = I.mass3d r I.rs I.rhos (I.rt / I.rs) ∧
    ((s.readMass3d I r).1.readMass3d I r).2 = I.mass3d r I.rs (I.rhos * f) (I.rt / I.rs) := by
  constructor <;>
    simp [Tnfw.readMass3d, Tnfw.readProfile, Tnfw.new, hf, Tnfw.rescale, Norm.rescale, Norm.fresh]

/-- **C64**. From then on, or after any other read, the answer carries the current factor. -/
theorem c64_mass_3d_partial (I : TnfwI) (x y r : ℝ) (ops : List TOp)
    (h : ∃ op ∈ ops, isRead op = true) :
    let s := (Tnfw.new x y).run I ops
    (s.readMass3d I r).2 = I.mass3d r I.rs (I.rhos * s.norm.norm) (I.rt / I.rs) ∧
    (s.readMass3d I r).1.norm = s.norm := by
  intro s
  have hi : TInv I s := (run_spec I ops _ (TInv.new I x y)).1
  have hsome : ∀ (ops : List TOp) (s : Tnfw), TInv I s →
      (s.profileArgs.isSome ∨ ∃ op ∈ ops, isRead op = true) →
      (s.run I ops).profileArgs.isSome := by
    intro ops
    induction ops with
    | nil => intro s _ h; simpa [Tnfw.run] using h
    | cons op t ih =>
      intro s hs h
      show ((s.step I op).run I t).profileArgs.isSome
      by_cases hr : isRead op = true
      · obtain ⟨h1, h2, -⟩ := step_read hs op hr
        exact ih _ h1 (.inl h2)
      · have hrest : s.profileArgs.isSome ∨ ∃ op ∈ t, isRead op = true := by
          rcases h with h | ⟨q, hq, hq'⟩
          · exact .inl h
          · rcases List.mem_cons.1 hq with rfl | hq
            · exact absurd hq' hr
            · exact .inr ⟨q, hq, hq'⟩
        cases op with
        | shift dx dy =>
          exact ih _ ⟨hs.profile, hs.phys, hs.kw, hs.vmax⟩ hrest
        | rescale c =>
          apply ih _ (hs.rescale c)
          show (s.rescale c).profileArgs.isSome ∨ _
          rw [(rescale_keeps s c).1]
          exact hrest
        | _ => simp [isRead] at hr
  have hp := hsome ops _ (TInv.new I x y) (.inr h)
  obtain ⟨r1, r2, r3, r4, -, -⟩ := readProfile_spec hi
  constructor
  · unfold Tnfw.readMass3d
    simp only [r2]
  · have : (s.readMass3d I r).1 = (s.readProfile I).1 := rfl
    rw [this, r4]
    have : s.profileArgs.isSome = true := hp
    simp [this, Norm.run]

/-- **C64, disagreement**. The maximum circular velocity does not follow a rescaling that comes after
it was first read. -/
theorem c64_vmax_stale (I : TnfwI) (s : Tnfw) (c : Call) :
    (((s.readVmax I).1.rescale c).readVmax I).2 = (s.readVmax I).2 := by
  have : ∃ v, (s.readVmax I).1.vmaxC = some v ∧ (s.readVmax I).2 = v := by
    unfold Tnfw.readVmax
    cases hv : s.vmaxC with
    | some v => exact ⟨v, hv, rfl⟩
    | none => exact ⟨_, rfl, rfl⟩
  obtain ⟨v, h1, h2⟩ := this
  rw [h2]
  have h3 := (rescale_keeps (s.readVmax I).1 c).2.1
  rw [h1] at h3
  unfold Tnfw.readVmax at h3 ⊢
  rw [h3]

/-- **C64, disagreement**. The density profile of a truncated NFW halo ignores the factor, although
its physical parameters include it: for every history the density at `r` is that of the unrescaled
profile. -/
theorem c64_density_ignores_factor (I : TnfwI) (x y r : ℝ) (ops : List TOp) :
    (((Tnfw.new x y).run I ops).readDensity I r).2
      = I.rhos / (r / I.rs) / (1 + r / I.rs) ^ 2 * (I.rt / I.rs) ^ 2
        / ((I.rt / I.rs) ^ 2 + (r / I.rs) ^ 2) := by
  have h : TInv I ((Tnfw.new x y).run I ops) := (run_spec I ops _ (TInv.new I x y)).1
  obtain ⟨-, r2, -⟩ := readProfile_spec h
  unfold Tnfw.readDensity
  simp only [r2, one_mul]

/-- **C65**. The bound mass is the infall mass times the mass fraction of the truncated profile times
the current factor; so for a mass fraction and a factor at most 1 it never exceeds the infall mass.
(Whether the fraction is evaluated at rounded or exact radii depends on the history.) -/
theorem c65_bound_mass (I : TnfwI) (x y : ℝ) (ops : List TOp) :
    let s := (Tnfw.new x y).run I ops
    (∃ tau, (s.readBound I).2 = I.fraction tau I.c * I.mass * (s.readBound I).1.norm.norm ∧
      (tau = I.rt / I.rs ∨ tau = round10 (I.rt / I.kpcPerArcsec)
        / round10 (I.angles (I.rhos * 1e9) (I.rs * 1e-3)).1)) := by
  intro s
  have h : TInv I s := (run_spec I ops _ (TInv.new I x y)).1
  unfold Tnfw.readBound
  cases hk : s.kw with
  | some k =>
    obtain ⟨h1, h2, h3, -⟩ := h.kw k hk
    exact ⟨_, rfl, .inr (by rw [h2, h3])⟩
  | none =>
    refine ⟨I.rt / I.rs, ?_, .inl rfl⟩
    have := (c63_tnfw I x y ops).2.2.2.1
    show I.fraction ((s.readPhys I).2.rTrunc / (s.readPhys I).2.rs) I.c * I.mass * _ = _
    rw [this]

/-- A truncated halo for the examples. -/
noncomputable def demoTnfw : TnfwI :=
  { mass := 1e8, c := 10, rhos := 2e7, rs := 0.5, r200 := 5, rt := 2, ft := some 0.5
    angles := fun a b => (b, a), kpcPerArcsec := 6, mass3d := fun _ _ rho _ => rho
    vmax := fun a _ => a, fraction := fun _ _ => 0.5 }

example : demoTnfw.ft = some 0.5 ∧ ∃ op ∈ [TOp.shift 1 1, .lens], isRead op = true :=
  ⟨rfl, .lens, by simp, rfl⟩

example : ((Tnfw.new 0 0).readMass3d demoTnfw 1).2
    ≠ (((Tnfw.new 0 0).readMass3d demoTnfw 1).1.readMass3d demoTnfw 1).2 := by
  obtain ⟨h1, h2⟩ := c64_mass_3d_changes demoTnfw 0.5 rfl 0 0 1
  rw [h1, h2]
  norm_num [demoTnfw]

/-! ### C66: halos built from given physical parameters -/

/-- **C66, what holds**. Before any rescaling the lensing parameters of a halo built from physical
parameters are those of the given profile. -/
theorem c66_from_params_partial (I : FromParamsI) (x y : ℝ) :
    ∃ s, (FromParams.new I x y).readLens I = .ok (s, ⟨1 *
      round10 (I.angles (I.rhos * 1 / (1e-3) ^ 3) (I.rs * 1e-3)).2,
      round10 (I.angles (I.rhos * 1 / (1e-3) ^ 3) (I.rs * 1e-3)).1, round4 x, round4 y,
      I.rt / I.kpcPerArcsec⟩) :=
  ⟨_, rfl⟩

/-- **C66, disagreement**. Rescaling a halo built from physical parameters discards these
parameters: read next, the halo fails with a recursion error, unless its profile arguments were read
before; then it is given the NFW parameters of its mass and concentration, and its amplitude carries
the factor twice (once in the density, once outside). -/
theorem c66_rescaled (I : FromParamsI) (x y f : ℝ) :
    ((FromParams.new I x y).rescale ⟨f, true, false⟩).readLens I
      = .error (.exception "RecursionError") ∧
    ∃ s1 p s2 k, (FromParams.new I x y).readProfile I = .ok (s1, p) ∧
      (s1.rescale ⟨f, true, false⟩).readLens I = .ok (s2, k) ∧
      k.alphaRs = f * round10 (I.angles (I.nfwRhos * f * 1 / (1e-3) ^ 3) (I.nfwRs * 1e-3)).2 ∧
      k.Rs = round10 (I.angles (I.nfwRhos * f * 1 / (1e-3) ^ 3) (I.nfwRs * 1e-3)).1 := by
  refine ⟨rfl, _, _, _, _, rfl, rfl, ?_, ?_⟩
  · simp [FromParams.rescale, Norm.rescale, FromParams.new, Norm.fresh]
  · simp [FromParams.rescale, Norm.rescale, FromParams.new, Norm.fresh]

/-- Rounding to ten decimals. -/
theorem halo_round10_close (v : ℝ) : |round10 v - v| ≤ 5e-11 := by
  have h := Np.abs_rint_sub (10 ^ 10 * v)
  have e : round10 v - v = ((Np.rint (10 ^ 10 * v) : ℝ) - 10 ^ 10 * v) / 10 ^ 10 := by
    unfold round10
    field_simp
  rw [e, abs_div, abs_of_pos (by norm_num : (0 : ℝ) < 10 ^ 10), div_le_iff₀ (by norm_num)]
  norm_num at h ⊢
  linarith

/-- Rounding to four decimals. -/
theorem halo_round4_close (v : ℝ) : |round4 v - v| ≤ 5e-5 := by
  have h := Np.abs_rint_sub (10000 * v)
  have e : round4 v - v = ((Np.rint (10000 * v) : ℝ) - 10000 * v) / 10000 := by
    unfold round4
    field_simp
  rw [e, abs_div, abs_of_pos (by norm_num : (0 : ℝ) < 10000), div_le_iff₀ (by norm_num)]
  norm_num at h ⊢
  linarith

/-- **C66, the accuracy of what holds**. Before any rescaling the deflection angle and the scale radius handed out are within 5e-11 arcsec
of those of the given density (per Mpc³) and scale radius (in Mpc), the position is within 5e-5 arcsec of the halo's, and the truncation
radius is exact. Missing: the same after a rescaling, which fails (`c66_rescaled`). -/
theorem c66_accuracy_partial (I : FromParamsI) (x y : ℝ) :
    ∃ s k, (FromParams.new I x y).readLens I = .ok (s, k) ∧
      |k.alphaRs - (I.angles (I.rhos * 10 ^ 9) (I.rs / 1000)).2| ≤ 5e-11 ∧
      |k.Rs - (I.angles (I.rhos * 10 ^ 9) (I.rs / 1000)).1| ≤ 5e-11 ∧
      |k.x - x| ≤ 5e-5 ∧ |k.y - y| ≤ 5e-5 ∧ k.rTrunc = I.rt / I.kpcPerArcsec := by
  obtain ⟨s, hs⟩ := c66_from_params_partial I x y
  have e1 : I.rhos * 1 / (1e-3) ^ 3 = I.rhos * 10 ^ 9 := by norm_num; ring
  have e2 : I.rs * 1e-3 = I.rs / 1000 := by norm_num; ring
  rw [e1, e2] at hs
  refine ⟨s, _, hs, ?_, halo_round10_close _, halo_round4_close _, halo_round4_close _, rfl⟩
  rw [one_mul]
  exact halo_round10_close _

/-- A halo of 2e7 M⊙/kpc³ with a scale radius of half a kpc, truncated at 3 kpc, where an arcsecond is 6 kpc. -/
example : ∃ s k, (FromParams.new ⟨2e7, 0.5, 5, 3, 1e7, 0.6, 6, fun ρ r => (1000 * r / 6, ρ * r / 1e18), 6⟩ 0.1 0.2).readLens
      ⟨2e7, 0.5, 5, 3, 1e7, 0.6, 6, fun ρ r => (1000 * r / 6, ρ * r / 1e18), 6⟩ = .ok (s, k) ∧
    |k.Rs - 1 / 12| ≤ 5e-11 ∧ |k.x - 0.1| ≤ 5e-5 ∧ k.rTrunc = 1 / 2 := by
  obtain ⟨s, k, h, -, h2, h3, -, h5⟩ :=
    c66_accuracy_partial ⟨2e7, 0.5, 5, 3, 1e7, 0.6, 6, fun ρ r => (1000 * r / 6, ρ * r / 1e18), 6⟩ 0.1 0.2
  refine ⟨s, k, h, ?_, h3, ?_⟩
  · norm_num at h2 ⊢
    exact h2
  · rw [h5]
    norm_num

end PyHalo.Props
