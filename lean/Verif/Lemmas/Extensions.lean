import Verif.Spec.Extensions
import Verif.Lemmas.Realization

/-!
# Lemmas on stores and conversion loops
-/

namespace PyHalo.Ext
open PyHalo PyHalo.Spec

/-- `s'` extends `s`: objects stay what they are up to attached notes, and only the objects in `T`
get notes. -/
structure Reach (T : Oid → Prop) (s s' : Store) : Prop where
  le : s.next ≤ s'.next
  core : ∀ k < s.next, s'.obj k = { s.obj k with note := (s'.obj k).note }
  same : ∀ k < s.next, ¬ T k → s'.obj k = s.obj k

theorem Reach.refl (T : Oid → Prop) (s : Store) : Reach T s s := ⟨le_refl _, fun _ _ => rfl, fun _ _ _ => rfl⟩

theorem Reach.trans {T : Oid → Prop} {a b c : Store} (h₁ : Reach T a b) (h₂ : Reach T b c) :
    Reach T a c := by
  refine ⟨h₁.le.trans h₂.le, fun k hk => ?_, fun k hk hT => ?_⟩
  · have e1 := h₁.core k hk
    have e2 := h₂.core k (lt_of_lt_of_le hk h₁.le)
    rw [e2, e1]
  · rw [h₂.same k (lt_of_lt_of_le hk h₁.le) hT, h₁.same k hk hT]

theorem Reach.mono {T T' : Oid → Prop} {a b : Store} (h : Reach T a b) (hT : ∀ k, T k → T' k) :
    Reach T' a b := ⟨h.le, h.core, fun k hk hn => h.same k hk fun ht => hn (hT k ht)⟩

theorem Reach.halo {T : Oid → Prop} {a b : Store} (h : Reach T a b) {k : Oid} (hk : k < a.next) :
    (b.obj k).toHalo = (a.obj k).toHalo := by rw [h.core k hk]

theorem Reach.unchanged {T : Oid → Prop} {a b : Store} (h : Reach T a b) : Unchanged a b := h.core

theorem alloc_reach (T : Oid → Prop) (s : Store) (o : Obj) : Reach T s (s.alloc o).1 := by
  have key : ∀ k < s.next, (s.alloc o).1.obj k = s.obj k := by
    intro k hk
    simp only [Store.alloc]
    rw [Function.update_of_ne (ne_of_lt hk)]
  exact ⟨Nat.le_succ _, fun k hk => by rw [key k hk], fun k hk _ => key k hk⟩

theorem dict_reach (T : Oid → Prop) (s : Store) (d : ℕ → Kw) (n : ℕ) :
    Reach T s { s with dict := d, nextDict := n } :=
  ⟨le_refl _, fun _ _ => rfl, fun _ _ _ => rfl⟩

theorem allocWith_reach (T : Oid → Prop) (s : Store) (o : Obj) (d : Kw) :
    Reach T s (s.allocWith o d).1 := by
  unfold Store.allocWith
  exact (dict_reach T s _ _).trans (alloc_reach T _ _)

theorem attach_reach (s : Store) (h : Oid) (a r : ℝ) : Reach (· = h) s (s.attach h a r) := by
  refine ⟨le_refl _, fun k _ => ?_, fun k _ hk => ?_⟩
  · by_cases hkh : k = h
    · subst hkh; simp [Store.attach]
    · simp [Store.attach, Function.update_of_ne hkh]
  · simp [Store.attach, Function.update_of_ne hk]

@[simp] theorem alloc_obj (s : Store) (o : Obj) : (s.alloc o).1.obj (s.alloc o).2 = o := by
  simp [Store.alloc]

theorem alloc_lt (s : Store) (o : Obj) : (s.alloc o).2 < (s.alloc o).1.next := by
  simp [Store.alloc]

@[simp] theorem allocWith_obj (s : Store) (o : Obj) (d : Kw) :
    (s.allocWith o d).1.obj (s.allocWith o d).2 = { o with args := s.nextDict } := by
  simp [Store.allocWith]

theorem allocWith_lt (s : Store) (o : Obj) (d : Kw) :
    (s.allocWith o d).2 < (s.allocWith o d).1.next := by
  simp [Store.allocWith, Store.alloc]

theorem allocWith_id (s : Store) (o : Obj) (d : Kw) : (s.allocWith o d).2 = s.next := by
  simp [Store.allocWith, Store.alloc]

theorem allocWith_dict (s : Store) (o : Obj) (d : Kw) :
    (s.allocWith o d).1.dict s.nextDict = d := by
  simp [Store.allocWith, Store.alloc]

/-- What a step of a conversion loop may do. -/
structure Step (s : Store) (h : Oid) (s' : Store) (h' : Oid) : Prop where
  reach : Reach (· = h) s s'
  live : h < s.next → h' < s'.next

theorem mapHalos_nil {ι : Type} (f : Store → Oid → ι → Except Err (Store × Oid)) (s : Store) :
    mapHalos f s [] = .ok (s, []) := rfl

theorem mapHalos_cons {ι : Type} (f : Store → Oid → ι → Except Err (Store × Oid)) (s : Store)
    (h : Oid) (i : ι) (rest : List (Oid × ι)) (s' : Store) (hs : List Oid) :
    mapHalos f s ((h, i) :: rest) = .ok (s', hs) ↔
      ∃ s₁ h' hs', f s h i = .ok (s₁, h') ∧ mapHalos f s₁ rest = .ok (s', hs') ∧ hs = h' :: hs' := by
  simp only [mapHalos, bind, Except.bind, pure, Except.pure]
  cases h1 : f s h i with
  | error e => simp
  | ok p =>
    obtain ⟨s₁, h'⟩ := p
    simp only [Except.ok.injEq, Prod.mk.injEq]
    cases h2 : mapHalos f s₁ rest with
    | error e =>
      simp only [reduceCtorEq, false_iff, not_exists, not_and]
      rintro a b c ⟨rfl, rfl⟩ h3
      rw [h2] at h3; simp at h3
    | ok q =>
      obtain ⟨s₂, hs'⟩ := q
      simp only [Except.ok.injEq, Prod.mk.injEq]
      constructor
      · rintro ⟨rfl, rfl⟩
        exact ⟨s₁, h', hs', ⟨rfl, rfl⟩, by rw [h2], rfl⟩
      · rintro ⟨a, b, c, ⟨rfl, rfl⟩, h3, rfl⟩
        rw [h2] at h3
        simp only [Except.ok.injEq, Prod.mk.injEq] at h3
        obtain ⟨rfl, rfl⟩ := h3
        exact ⟨rfl, rfl⟩

/-- A conversion loop runs one step per halo, in order. -/
theorem mapHalos_trace {ι : Type} (f : Store → Oid → ι → Except Err (Store × Oid))
    (hf : ∀ s h i s' h', f s h i = .ok (s', h') → Step s h s' h') (l : List (Oid × ι)) (s s' : Store)
    (hs : List Oid) (hl : ∀ p ∈ l, p.1 < s.next) (h : mapHalos f s l = .ok (s', hs)) :
    Reach (fun k => ∃ p ∈ l, p.1 = k) s s' ∧ hs.length = l.length ∧ (∀ h ∈ hs, h < s'.next) ∧
    ∀ (n : ℕ) (p : Oid × ι), l[n]? = some p → ∃ h' s₁ s₂, hs[n]? = some h' ∧
      f s₁ p.1 p.2 = .ok (s₂, h') ∧ Reach (fun k => ∃ p ∈ l.take n, p.1 = k) s s₁ ∧
      Reach (fun k => ∃ p ∈ l.drop (n + 1), p.1 = k) s₂ s' ∧ h' < s₂.next := by
  induction l generalizing s hs with
  | nil =>
    rw [mapHalos_nil] at h
    simp only [Except.ok.injEq, Prod.mk.injEq] at h
    obtain ⟨rfl, rfl⟩ := h
    exact ⟨Reach.refl _ _, rfl, by simp, by simp⟩
  | cons a rest ih =>
    obtain ⟨h₀, i₀⟩ := a
    rw [mapHalos_cons] at h
    obtain ⟨s₁, h', hs', e1, e2, rfl⟩ := h
    have st := hf _ _ _ _ _ e1
    have hlive := st.live (hl (h₀, i₀) (by simp))
    obtain ⟨r2, len, lv, tr⟩ := ih s₁ hs'
      (fun p hp => lt_of_lt_of_le (hl p (by simp [hp])) st.reach.le) e2
    have m1 : ∀ k, k = h₀ → ∃ p ∈ (h₀, i₀) :: rest, p.1 = k :=
      fun k hk => ⟨(h₀, i₀), by simp, hk.symm⟩
    have m2 : ∀ k, (∃ p ∈ rest, p.1 = k) → ∃ p ∈ (h₀, i₀) :: rest, p.1 = k :=
      fun k ⟨p, hp, e⟩ => ⟨p, by simp [hp], e⟩
    refine ⟨(st.reach.mono m1).trans (r2.mono m2), by simp [len], ?_, ?_⟩
    · intro k hk
      rcases List.mem_cons.mp hk with rfl | hk
      · exact lt_of_lt_of_le hlive r2.le
      · exact lv k hk
    · intro n p hp
      cases n with
      | zero =>
        simp only [List.getElem?_cons_zero, Option.some.injEq] at hp
        subst hp
        exact ⟨h', s, s₁, rfl, e1, Reach.refl _ _, r2, hlive⟩
      | succ n =>
        simp only [List.getElem?_cons_succ] at hp
        obtain ⟨h'', a, b, e3, e4, ra, rb, lt⟩ := tr n p hp
        exact ⟨h'', a, b, by simpa using e3, e4,
          (st.reach.mono fun k hk => ⟨(h₀, i₀), by simp, hk.symm⟩).trans
            (ra.mono fun k ⟨p, hp, e⟩ => ⟨p, by simp [hp], e⟩), rb, lt⟩

/-- If a step fails at every store that can be reached, the loop fails. -/
theorem mapHalos_fails {ι : Type} (f : Store → Oid → ι → Except Err (Store × Oid))
    (hf : ∀ s h i s' h', f s h i = .ok (s', h') → Step s h s' h') (l : List (Oid × ι)) (s : Store)
    (hl : ∀ p ∈ l, p.1 < s.next) (p : Oid × ι) (hp : p ∈ l)
    (bad : ∀ s', Reach (fun k => ∃ p ∈ l, p.1 = k) s s' → ∃ e, f s' p.1 p.2 = .error e) :
    ∃ e, mapHalos f s l = .error e := by
  cases h : mapHalos f s l with
  | error e => exact ⟨e, rfl⟩
  | ok q =>
    obtain ⟨s', hs⟩ := q
    obtain ⟨_, _, _, tr⟩ := mapHalos_trace f hf l s s' hs hl h
    obtain ⟨n, hn⟩ := List.getElem?_of_mem hp
    obtain ⟨h', a, b, _, e, ra, _⟩ := tr n p hn
    obtain ⟨er, he⟩ := bad a (ra.mono fun k ⟨p, hp, e⟩ => ⟨p, List.mem_of_mem_take hp, e⟩)
    rw [he] at e; simp at e

/-- What a successful SIDM conversion of one halo does. -/
theorem toSidm_cases (P : Phys) (a : SidmArgs) (s : Store) (h : Oid) (u : ℝ) (s' : Store) (h' : Oid)
    (e : toSidm P a s h u = .ok (s', h')) :
    (s.obj h).mdef = "TNFW" ∧
    ((h' = h ∧ ∃ age ratio, s' = s.attach h age ratio) ∨
     ∃ cls d note, cls ∈ [Cls.evolving, .parametric, .composite, .compositeBH] ∧
      (s', h') = s.allocWith
        { carryInfall P (s.obj h) (newObj P (s.obj h) cls d) with note := note } d) := by
  have fin : ∀ (cls : Cls) (d : Kw), carryInfall P (s.obj h) (newObj P (s.obj h) cls d) =
      { carryInfall P (s.obj h) (newObj P (s.obj h) cls d) with note := none } := by
    intro cls d
    unfold carryInfall
    split_ifs <;> rfl
  have comp : ∀ rt d cls, compositeArgs P a (s.obj h) rt = .ok (d, cls) →
      cls = .composite ∨ cls = .compositeBH := by
    intro rt d cls hc
    unfold compositeArgs at hc
    simp only [bind, Except.bind, pure, Except.pure] at hc
    cases h1 : P.nfw (s.obj h) with
    | error e => simp [h1] at hc
    | ok q =>
      rw [h1] at hc
      dsimp only at hc
      cases h2 : P.logDerivInv a.slopeMatch q.2.1 rt with
      | error e => simp [h2] at hc
      | ok w =>
        rw [h2] at hc
        dsimp only at hc
        split_ifs at hc <;> simp at hc <;> simp [← hc.2]
  unfold toSidm at e
  simp only [bind, Except.bind, pure, Except.pure, throw, throwThe, MonadExceptOf.throw] at e
  by_cases hm : (s.obj h).mdef = "TNFW"
  swap
  · rw [if_pos hm] at e; simp at e
  refine ⟨hm, ?_⟩
  rw [if_neg (by simpa using hm)] at e
  cases h1 : P.rt (s.obj h) with
  | error _ => simp [h1] at e
  | ok rt =>
    rw [h1] at e; dsimp only at e
    cases h2 : P.conc (s.obj h) with
    | error _ => simp [h2] at e
    | ok c =>
      rw [h2] at e; dsimp only at e
      by_cases c1 : a.tc = none ∧ a.tOverTc = none
      · rw [if_pos c1] at e
        by_cases c2 : a.profile = "CC_COMPOSITE"
        · rw [if_pos c2] at e
          cases h3 : compositeArgs P a (s.obj h) rt with
          | error _ => simp [h3] at e
          | ok q =>
            obtain ⟨d, cls⟩ := q
            rw [h3] at e
            simp only [Except.ok.injEq] at e
            refine Or.inr ⟨cls, d, none, ?_, by rw [← e, ← fin]⟩
            rcases comp rt d cls h3 with rfl | rfl <;> simp
        · rw [if_neg c2] at e
          by_cases c3 : a.profile = "TNFWC"
          · rw [if_pos c3] at e
            cases hx : a.xCore with
            | none => simp [hx] at e
            | some x =>
              simp only [hx, Except.ok.injEq] at e
              exact Or.inr ⟨.parametric, _, none, by simp, by rw [← e, ← fin]⟩
          · rw [if_neg c3] at e; simp at e
      rw [if_neg c1] at e
      by_cases c3 : a.profile = "TNFWC"
      · rw [if_pos c3] at e
        cases h3 : timescale P a (s.obj h) with
        | error _ => simp [h3] at e
        | ok q =>
          obtain ⟨ts, la⟩ := q
          simp only [h3] at e
          cases h4 : newAge P (s.obj h) la with
          | error _ => simp [h4] at e
          | ok age =>
            simp only [h4] at e
            split_ifs at e
            · simp only [Except.ok.injEq, Prod.mk.injEq] at e
              exact Or.inl ⟨e.2.symm, age, _, e.1.symm⟩
            · simp only [Except.ok.injEq, Prod.mk.injEq] at e
              exact Or.inl ⟨e.2.symm, age, _, e.1.symm⟩
            · simp only [Except.ok.injEq] at e
              exact Or.inr ⟨.evolving, _, _, by simp, e.symm⟩
            · simp only [Except.ok.injEq, Prod.mk.injEq] at e
              exact Or.inl ⟨e.2.symm, age, _, e.1.symm⟩
            · simp only [Except.ok.injEq, Prod.mk.injEq] at e
              exact Or.inl ⟨e.2.symm, age, _, e.1.symm⟩
            · simp only [Except.ok.injEq] at e
              exact Or.inr ⟨.parametric, _, _, by simp, e.symm⟩
      rw [if_neg c3] at e
      by_cases c2 : a.profile = "CC_COMPOSITE"
      · rw [if_pos c2] at e
        cases h3 : compositeArgs P a (s.obj h) rt with
        | error _ => simp [h3] at e
        | ok q =>
          obtain ⟨d, cls⟩ := q
          simp only [h3] at e
          generalize hla : (if (s.obj h).isSubhalo = true then a.scaling else some 1) = la at e
          cases h4 : newAge P (s.obj h) la with
          | error _ => simp [h4] at e
          | ok age =>
            simp only [h4] at e
            cases ht : a.tc with
            | none => simp [ht] at e
            | some tc =>
              simp only [ht] at e
              split_ifs at e
              · simp only [Except.ok.injEq, Prod.mk.injEq] at e
                exact Or.inl ⟨e.2.symm, age, _, e.1.symm⟩
              · simp only [Except.ok.injEq, Prod.mk.injEq] at e
                exact Or.inl ⟨e.2.symm, age, _, e.1.symm⟩
              · simp only [Except.ok.injEq] at e
                refine Or.inr ⟨cls, _, _, ?_, e.symm⟩
                rcases comp rt d cls h3 with rfl | rfl <;> simp
      · rw [if_neg c2] at e; simp at e

theorem toSidm_step (P : Phys) (a : SidmArgs) (s : Store) (h : Oid) (u : ℝ) (s' : Store) (h' : Oid)
    (e : toSidm P a s h u = .ok (s', h')) : Step s h s' h' := by
  obtain ⟨_, ⟨rfl, age, ratio, rfl⟩ | ⟨cls, d, note, _, e⟩⟩ := toSidm_cases P a s h u s' h' e
  · exact ⟨attach_reach _ _ _ _, fun hk => hk⟩
  · rw [Prod.ext_iff] at e
    obtain ⟨rfl, rfl⟩ := e
    exact ⟨allocWith_reach _ _ _ _, fun _ => allocWith_lt _ _ _⟩

theorem carryInfall_same (P : Phys) (o : Obj) (cls : Cls) (d : Kw) :
    SameHalo o.toHalo (carryInfall P o (newObj P o cls d)).toHalo := by
  unfold carryInfall newObj
  split_ifs <;> exact ⟨rfl, rfl, rfl, rfl, rfl, rfl, rfl⟩

theorem toSidm_same (P : Phys) (a : SidmArgs) (s : Store) (h : Oid) (u : ℝ) (s' : Store) (h' : Oid)
    (e : toSidm P a s h u = .ok (s', h')) : SameHalo (s.obj h).toHalo (s'.obj h').toHalo := by
  obtain ⟨_, ⟨rfl, age, ratio, rfl⟩ | ⟨cls, d, note, _, e⟩⟩ := toSidm_cases P a s h u s' h' e
  · simp [Store.attach]
    exact ⟨rfl, rfl, rfl, rfl, rfl, rfl, rfl⟩
  · rw [Prod.ext_iff] at e
    obtain ⟨rfl, rfl⟩ := e
    rw [allocWith_obj]
    have := carryInfall_same P (s.obj h) cls d
    exact ⟨this.1, this.2, this.3, this.4, this.5, this.6, this.7⟩

theorem SameHalo.rfl' (o : Halo) : SameHalo o o := ⟨rfl, rfl, rfl, rfl, rfl, rfl, rfl⟩

/-- A loop whose steps keep the halos keeps the population. -/
theorem mapHalos_same {ι : Type} (f : Store → Oid → ι → Except Err (Store × Oid))
    (hf : ∀ s h i s' h', f s h i = .ok (s', h') → Step s h s' h')
    (hb : ∀ s h i s' h', f s h i = .ok (s', h') → SameHalo (s.obj h).toHalo (s'.obj h').toHalo)
    (l : List (Oid × ι)) (s s' : Store)
    (hs : List Oid) (hl : ∀ p ∈ l, p.1 < s.next) (h : mapHalos f s l = .ok (s', hs)) :
    List.Forall₂ (fun p k => SameHalo (s.obj p.1).toHalo (s'.obj k).toHalo) l hs := by
  obtain ⟨_, len, _, tr⟩ := mapHalos_trace f hf l s s' hs hl h
  rw [List.forall₂_iff_get]
  refine ⟨len.symm, fun n h1 h2 => ?_⟩
  obtain ⟨h', a, b, e1, e2, ra, rb, lt⟩ := tr n l[n] (by simp [h1])
  have := hb _ _ _ _ _ e2
  rw [ra.halo (hl _ (by simp))] at this
  rw [List.getElem?_eq_getElem h2] at e1
  simp only [Option.some.injEq] at e1
  simp only [List.get_eq_getElem, e1]
  rw [rb.halo lt]
  exact this

theorem finish_context (r : Realization) (p : Store × List Oid) :
    SameContext r (finish r p).2 ∧ (finish r p).2.hasBeenShifted = r.hasBeenShifted ∧
    (finish r p).2.halos = p.2 ∧ Fresh p.1.heap (finish r p).2 := by
  have h := fresh_rebuild p.1.heap r p.2
  exact ⟨⟨rfl, rfl, rfl, rfl, rfl, rfl, rfl⟩, rfl, rfl,
    ⟨h.masses, h.xs, h.ys, h.redshifts, h.flags, h.zsIncreasing, h.zsMem⟩⟩

theorem findBin_spec (m : ℝ) (hm : 0 < m) (bins : List (ℝ × ℝ)) :
    (∀ i, findBin m 0 bins = some i ↔ FirstBin m bins i) ∧
    (findBin m 0 bins = none ↔ ∀ b ∈ bins, ¬ InBin m b) := by
  have key : ∀ b : ℝ × ℝ, (Real.logb 10 m ≥ b.1 ∧ Real.logb 10 m < b.2) ↔ InBin m b := by
    intro b
    unfold InBin
    rw [ge_iff_le, Real.le_logb_iff_rpow_le (by norm_num) hm, Real.logb_lt_iff_lt_rpow (by norm_num) hm]
  have gen : ∀ (bins : List (ℝ × ℝ)) (n : ℕ),
      (∀ i, findBin m n bins = some i ↔ ∃ j, i = n + j ∧ FirstBin m bins j) ∧
      (findBin m n bins = none ↔ ∀ b ∈ bins, ¬ InBin m b) := by
    intro bins
    induction bins with
    | nil =>
      intro n
      simp [findBin, FirstBin]
    | cons b bs ih =>
      intro n
      unfold findBin
      by_cases hb : InBin m b
      · rw [if_pos ((key b).mpr hb)]
        constructor
        · intro i
          simp only [Option.some.injEq]
          constructor
          · rintro rfl
            exact ⟨0, rfl, ⟨b, rfl, hb⟩, by simp⟩
          · rintro ⟨j, rfl, _, hj⟩
            cases j with
            | zero => rfl
            | succ j => exact absurd hb (hj 0 (Nat.succ_pos _) b rfl)
        · simp [hb]
      · rw [if_neg (fun hc => hb ((key b).mp hc))]
        constructor
        · intro i
          rw [(ih (n + 1)).1 i]
          constructor
          · rintro ⟨j, rfl, ⟨c, hc1, hc2⟩, hj⟩
            refine ⟨j + 1, by ring, ⟨c, by simpa using hc1, hc2⟩, ?_⟩
            intro k hk c' hc'
            cases k with
            | zero =>
              simp only [List.getElem?_cons_zero, Option.some.injEq] at hc'
              subst hc'; exact hb
            | succ k => exact hj k (by omega) c' (by simpa using hc')
          · rintro ⟨j, rfl, ⟨c, hc1, hc2⟩, hj⟩
            cases j with
            | zero =>
              simp only [List.getElem?_cons_zero, Option.some.injEq] at hc1
              subst hc1; exact absurd hc2 hb
            | succ j =>
              refine ⟨j, by ring, ⟨c, by simpa using hc1, hc2⟩, fun k hk c' hc' => ?_⟩
              exact hj (k + 1) (by omega) c' (by simpa using hc')
        · rw [(ih (n + 1)).2]
          simp [hb]
  refine ⟨fun i => ?_, (gen bins 0).2⟩
  rw [(gen bins 0).1 i]
  simp

end PyHalo.Ext
