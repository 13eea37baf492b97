import Verif.Model.Whole
import Verif.Spec.Whole
import Verif.Props.RunExamples
import Verif.Props.Extensions
import Verif.Props.Populations

/-!
# C94: from rows to halo objects
-/

namespace PyHalo.Props
open PyHalo PyHalo.Spec PyHalo.Whole PyHalo.Preset PyHalo.Run

/-! ## One object -/

theorem selectClass_iff (m : String) (s : Bool) : (∃ c, selectClass m s = .ok c) ↔ m ∈ Spec94.profiles := by
  unfold selectClass Spec94.profiles
  by_cases h1 : m = "NFW"
  · simp [h1]
  by_cases h2 : m = "TNFW"
  · simp [h2]
  by_cases h3 : m = "TNFWC_SIDM"
  · simp [h3]
  by_cases h4 : m = "PT_MASS"
  · simp [h4]
  by_cases h5 : m = "PJAFFE"
  · simp [h5]
  by_cases h6 : m = "ULDM"
  · simp [h6]
  by_cases h7 : m = "GAUSSIAN_KAPPA"
  · simp [h7]
  by_cases h8 : m = "GNFW"
  · simp [h8]
  by_cases h9 : m = "SPL_CORE"
  · simp [h9]
  simp [h1, h2, h3, h4, h5, h6, h7, h8, h9]

theorem selectClass_spec {m : String} {s : Bool} {c : HaloClass} (h : selectClass m s = .ok c) :
    c.lensIDs = Spec94.lensModels m ∧ c.mdef = (if m = "GNFW" then "PSEUDO_DPL" else m) ∧
      (c.fixed = true ↔ m = "PT_MASS" ∨ m = "GAUSSIAN_KAPPA") ∧ (c.hasBound = true ↔ m = "TNFW" ∧ s = true) ∧
      (c.ext = .tnfw ↔ m = "TNFW") := by
  have hm := (selectClass_iff m s).1 ⟨c, h⟩
  simp only [Spec94.profiles, List.mem_cons, List.not_mem_nil, or_false] at hm
  rcases hm with rfl | rfl | rfl | rfl | rfl | rfl | rfl | rfl <;> cases s <;>
    simp [selectClass] at h <;> subst h <;>
    simp [HaloClass.lensIDs, HaloClass.mdef, HaloClass.fixed, HaloClass.hasBound, HaloClass.ext, Spec94.lensModels]

theorem load_ok {M : Type} {V : View} {kw : HaloKw M} {a : HaloArgs} {tag : Tag} {o : Loaded M} (h : load V kw a tag = .ok o) :
    kw.truncation a.isSubhalo = .ok o.trunc ∧ kw.concentration a.isSubhalo = .ok o.conc ∧
      entry kw.density "kwargs_density_profile" = .ok o.obj.args ∧ selectClass a.mdef a.isSubhalo = .ok o.cls ∧ 0 < a.z ∧
      o.obj = { mass := a.mass, x := a.x, y := a.y, r3d := a.r3d, z := a.z, mdef := o.cls.mdef, tag := tag,
                isSubhalo := a.isSubhalo, fixedPosition := o.cls.fixed, boundMass := V.boundMass o.cls a,
                lensIDs := o.cls.lensIDs, lensParams := V.lensParams o.cls a, cls := o.cls.ext, args := o.obj.args,
                zInfall := none, hasBound := o.cls.hasBound, note := none } := by
  unfold load at h
  obtain ⟨t, ht, h⟩ := bind_ok h
  obtain ⟨c, hc, h⟩ := bind_ok h
  obtain ⟨d, hd, h⟩ := bind_ok h
  obtain ⟨cls, hcls, h⟩ := bind_ok h
  split at h
  · rename_i hz
    cases h
    exact ⟨ht, hc, hd, hcls, hz, rfl⟩
  · cases h

/-- **C94**, one halo: an object made from a row describes that row. It carries the tag drawn for it, reads its profile
arguments from the dictionary of the realization, and uses the truncation and concentration models under the general key if
there is one, otherwise those for its kind. -/
theorem c94_object {M : Type} (V : View) (kw : HaloKw M) (a : HaloArgs) (tag : Tag) (o : Loaded M)
    (h : load V kw a tag = .ok o) :
    Spec94.Created a o.obj ∧ o.obj.tag = tag ∧ kw.density = some o.obj.args ∧
      some o.trunc = kw.trunc.or (if a.isSubhalo then kw.truncSub else kw.truncField) ∧
      some o.conc = kw.conc.or (if a.isSubhalo then kw.concSub else kw.concField) := by
  obtain ⟨h1, h2, h3, h4, h5, h6⟩ := load_ok h
  obtain ⟨s1, s2, s3, -⟩ := selectClass_spec h4
  refine ⟨⟨?_, ?_, ?_, ?_, ?_, h5, ?_, (selectClass_iff _ _).1 ⟨_, h4⟩, ?_, ?_, ?_⟩, ?_, ?_, ?_, ?_⟩
  · rw [h6]
  · rw [h6]
  · rw [h6]
  · rw [h6]
  · rw [h6]
  · rw [h6]
  · rw [h6]; exact s1
  · rw [h6]; exact s2
  · rw [h6]; exact s3
  · rw [h6]
  · unfold entry at h3
    cases hd : kw.density with
    | none => rw [hd] at h3; cases h3
    | some d => rw [hd] at h3; cases h3; rfl
  · unfold HaloKw.truncation entry at h1
    cases hd : kw.trunc with
    | some d => rw [hd] at h1; cases h1; rfl
    | none =>
      rw [hd] at h1
      cases hs : a.isSubhalo <;> simp only [hs, if_true] at h1 ⊢
      · cases hf : kw.truncField with
        | none => simp [hf] at h1
        | some m => simp [hf] at h1; simp [h1]
      · cases hf : kw.truncSub with
        | none => simp [hf] at h1
        | some m => simp [hf] at h1; simp [h1]
  · unfold HaloKw.concentration entry at h2
    cases hd : kw.conc with
    | some d => rw [hd] at h2; cases h2; rfl
    | none =>
      rw [hd] at h2
      cases hs : a.isSubhalo <;> simp only [hs, if_true] at h2 ⊢
      · cases hf : kw.concField with
        | none => simp [hf] at h2
        | some m => simp [hf] at h2; simp [h2]
      · cases hf : kw.concSub with
        | none => simp [hf] at h2
        | some m => simp [hf] at h2; simp [h2]

/-- **C94**, acceptance: a row becomes an object exactly if its mass definition is one of the eight known ones, its redshift is
positive, and the models for its kind and the profile arguments are given. -/
theorem c94_accepted {M : Type} (V : View) (kw : HaloKw M) (a : HaloArgs) (tag : Tag) :
    (∃ o, load V kw a tag = .ok o) ↔ a.mdef ∈ Spec94.profiles ∧ 0 < a.z ∧ kw.density ≠ none ∧
      kw.trunc.or (if a.isSubhalo then kw.truncSub else kw.truncField) ≠ none ∧
      kw.conc.or (if a.isSubhalo then kw.concSub else kw.concField) ≠ none := by
  constructor
  · rintro ⟨o, h⟩
    obtain ⟨h1, -, h3, h4, h5⟩ := c94_object V kw a tag o h
    exact ⟨h1.known, h1.positive, by rw [h3]; simp, by rw [← h4]; simp, by rw [← h5]; simp⟩
  · rintro ⟨h1, h2, h3, h4, h5⟩
    obtain ⟨c, hc⟩ := (selectClass_iff a.mdef a.isSubhalo).2 h1
    obtain ⟨d, hd⟩ := Option.ne_none_iff_exists'.1 h3
    have ht : ∃ t, kw.truncation a.isSubhalo = .ok t := by
      unfold HaloKw.truncation entry
      cases e : kw.trunc with
      | some t => exact ⟨t, rfl⟩
      | none =>
        rw [e] at h4
        cases hs : a.isSubhalo <;> simp only [hs, if_true] at h4 ⊢
        · obtain ⟨t, ht⟩ := Option.ne_none_iff_exists'.1 h4
          simp at ht
          exact ⟨t, by simp [ht]⟩
        · obtain ⟨t, ht⟩ := Option.ne_none_iff_exists'.1 h4
          simp at ht
          exact ⟨t, by simp [ht]⟩
    have hk : ∃ t, kw.concentration a.isSubhalo = .ok t := by
      unfold HaloKw.concentration entry
      cases e : kw.conc with
      | some t => exact ⟨t, rfl⟩
      | none =>
        rw [e] at h5
        cases hs : a.isSubhalo <;> simp only [hs, if_true] at h5 ⊢
        · obtain ⟨t, ht⟩ := Option.ne_none_iff_exists'.1 h5
          simp at ht
          exact ⟨t, by simp [ht]⟩
        · obtain ⟨t, ht⟩ := Option.ne_none_iff_exists'.1 h5
          simp at ht
          exact ⟨t, by simp [ht]⟩
    obtain ⟨t, ht⟩ := ht
    obtain ⟨k, hk⟩ := hk
    unfold load
    simp only [ht, hk, hd, hc, entry, bind, Except.bind, pure, Except.pure, gt_iff_lt, if_pos h2]
    exact ⟨_, rfl⟩

/-- **C94**, disagreement: the code has a branch for the mass definition `TNFWC_SIDM`, but the class it names is not defined in
the module: every such row raises `NameError`. -/
theorem c94_evolving_profile_undefined {M : Type} (V : View) (kw : HaloKw M) (a : HaloArgs) (tag : Tag) (t c : M)
    (ht : kw.truncation a.isSubhalo = .ok t) (hc : kw.concentration a.isSubhalo = .ok c) (hd : kw.density ≠ none)
    (hm : a.mdef = "TNFWC_SIDM") : load V kw a tag = .error (.nameError "TNFWCHaloEvolving") := by
  obtain ⟨d, hd⟩ := Option.ne_none_iff_exists'.1 hd
  unfold load
  simp only [ht, hc, hd, entry, bind, Except.bind, selectClass, hm]
  simp

/-- **C94**, disagreement: the objects made for the mass definition `GNFW` report another one, `PSEUDO_DPL`, which is not
accepted: from the arrays of such a realization no realization can be made. -/
theorem c94_generalised_profile_renamed {M : Type} (V : View) (kw : HaloKw M) (a : HaloArgs) (tag : Tag) (o : Loaded M)
    (h : load V kw a tag = .ok o) (hm : a.mdef = "GNFW") :
    o.obj.mdef = "PSEUDO_DPL" ∧ ∀ tag', ¬ ∃ o', load V kw { a with mdef := o.obj.mdef } tag' = .ok o' := by
  have e : o.obj.mdef = "PSEUDO_DPL" := by rw [(c94_object V kw a tag o h).1.kind, if_pos hm]
  refine ⟨e, fun tag' => ?_⟩
  rw [c94_accepted, e]
  simp [Spec94.profiles]

/-! ## All objects -/

theorem loadAll_ok {M : Type} {V : View} {kw : HaloKw M} {tags : ℕ → Tag} : ∀ {i : ℕ} {rows : List HaloArgs}
    {os : List (Loaded M)}, loadAll V kw tags i rows = .ok os →
    os.length = rows.length ∧ ∀ (j : ℕ) (a : HaloArgs), rows[j]? = some a → ∃ o, os[j]? = some o ∧
      load V kw a (tags (i + j)) = .ok o
  | i, [], os, h => by
    simp only [loadAll] at h
    cases h
    simp
  | i, a :: t, os, h => by
    unfold loadAll at h
    obtain ⟨o, ho, h⟩ := bind_ok h
    obtain ⟨os', hos, h⟩ := bind_ok h
    cases h
    obtain ⟨h1, h2⟩ := loadAll_ok hos
    refine ⟨by simp [h1], fun j b hj => ?_⟩
    cases j with
    | zero => simp at hj; subst hj; exact ⟨o, rfl, ho⟩
    | succ j =>
      obtain ⟨o', e1, e2⟩ := h2 j b (by simpa using hj)
      exact ⟨o', by simpa using e1, by rw [show i + (j + 1) = i + 1 + j by omega]; exact e2⟩

theorem loadAll_works {M : Type} {V : View} {kw : HaloKw M} {tags : ℕ → Tag} : ∀ (i : ℕ) (rows : List HaloArgs),
    (∀ a ∈ rows, ∀ t, ∃ o, load V kw a t = .ok o) → ∃ os, loadAll V kw tags i rows = .ok os
  | _, [], _ => ⟨[], rfl⟩
  | i, a :: t, h => by
    obtain ⟨o, ho⟩ := h a (List.mem_cons_self ..) (tags i)
    obtain ⟨os, hos⟩ := loadAll_works (tags := tags) (i + 1) t fun b hb => h b (List.mem_cons_of_mem _ hb)
    exact ⟨o :: os, by unfold loadAll; simp [ho, hos, bind, Except.bind, pure, Except.pure]⟩

/-- The halos of a new realization and the rows they were made from. -/
structure Spec94.Rows (rows : List HaloArgs) (tags : ℕ → Tag) (d : Kw) (s : Ext.Store) (r : Realization) : Prop where
  halos : List.Forall₂ (fun a h => Spec94.Created a (s.obj h)) rows r.halos
  tags : ∀ (i : ℕ) (h : Oid), r.halos[i]? = some h → (s.obj h).tag = tags i
  dict : ∀ h ∈ r.halos, ∀ h' ∈ r.halos, (s.obj h).args = (s.obj h').args ∧ s.dict (s.obj h).args = d
  bound : ∀ h ∈ r.halos, ((s.obj h).hasBound = true ↔ (s.obj h).mdef = "TNFW" ∧ (s.obj h).isSubhalo = true)
  live : Live s r.halos
  distinct : r.halos.Nodup
  fresh : Fresh s.heap r
  shifted : r.hasBeenShifted = false

theorem getElem?_range_eq (n i : ℕ) (h : Oid) (e : (List.range n)[i]? = some h) : h = i ∧ i < n := by
  obtain ⟨h1, h2⟩ := List.getElem?_eq_some_iff.1 e
  simp at h1 h2
  exact ⟨h2.symm, h1⟩

theorem newRealization_rows {M : Type} {V : View} {kw : HaloKw M} {tags : ℕ → Tag} {rows : List HaloArgs}
    {os : List (Loaded M)} (h : loadAll V kw tags 0 rows = .ok os) (n : ℕ) (hn : kw.density = some n) (d : Kw) (lc : LensCosmoI)
    (keys : List String) (classes : List (Option RClass)) (g : GeometryI) :
    Spec94.Rows rows tags d (newRealization d os lc keys classes g).1 (newRealization d os lc keys classes g).2 := by
  obtain ⟨h1, h2⟩ := loadAll_ok h
  have hobj : ∀ (j : ℕ) (o : Loaded M), os[j]? = some o → (storeOf d (os.map (·.obj))).obj j = o.obj := by
    intro j o ho
    simp [storeOf, ho]
  have key : ∀ (i : ℕ) (k : Oid), (List.range os.length)[i]? = some k → ∃ a o, rows[i]? = some a ∧ os[i]? = some o ∧ k = i ∧
      load V kw a (tags i) = .ok o ∧ (storeOf d (os.map (·.obj))).obj k = o.obj := by
    intro i k hk
    obtain ⟨rfl, hi⟩ := getElem?_range_eq _ _ _ hk
    have hr : k < rows.length := h1 ▸ hi
    obtain ⟨o, ho, hl⟩ := h2 k rows[k] (List.getElem?_eq_getElem hr)
    rw [zero_add] at hl
    exact ⟨rows[k], o, List.getElem?_eq_getElem hr, ho, rfl, hl, hobj k o ho⟩
  have mem : ∀ k ∈ List.range os.length, ∃ a o, load V kw a (tags k) = .ok o ∧ (storeOf d (os.map (·.obj))).obj k = o.obj := by
    intro k hk
    obtain ⟨i, hi⟩ := List.mem_iff_getElem?.1 hk
    obtain ⟨a, o, -, -, rfl, e1, e2⟩ := key i k hi
    exact ⟨a, o, e1, e2⟩
  refine ⟨?_, ?_, ?_, ?_, ?_, ?_, by simp only [newRealization]; apply PyHalo.fresh_fromHalos, rfl⟩
  · refine List.forall₂_iff_get.2 ⟨by simp [newRealization, Realization.fromHalos, h1], fun i hi hi' => ?_⟩
    have hlt : i < (List.range os.length).length := by simp; omega
    obtain ⟨a, o, e1, e2, e3, e4, e5⟩ := key i _ (List.getElem?_eq_getElem hlt)
    have ha : rows.get ⟨i, hi⟩ = a := by simpa using (List.getElem?_eq_some_iff.1 e1).2
    rw [ha]
    have : (newRealization d os lc keys classes g).1.obj ((newRealization d os lc keys classes g).2.halos.get ⟨i, hi'⟩) = o.obj := e5
    rw [this]
    exact (c94_object V kw a _ o e4).1
  · intro i k hk
    obtain ⟨a, o, -, -, -, e4, e5⟩ := key i k hk
    show ((storeOf d (os.map (·.obj))).obj k).tag = tags i
    rw [e5]
    exact (c94_object V kw a _ o e4).2.1
  · intro k hk k' hk'
    obtain ⟨a, o, e4, e5⟩ := mem k hk
    obtain ⟨a', o', e4', e5'⟩ := mem k' hk'
    refine ⟨?_, rfl⟩
    show ((storeOf d (os.map (·.obj))).obj k).args = ((storeOf d (os.map (·.obj))).obj k').args
    rw [e5, e5']
    have q := (c94_object V kw a _ o e4).2.2.1
    have q' := (c94_object V kw a' _ o' e4').2.2.1
    rw [q] at q'
    exact Option.some.inj q'
  · intro k hk
    obtain ⟨a, o, e4, e5⟩ := mem k hk
    show ((storeOf d (os.map (·.obj))).obj k).hasBound = true ↔ ((storeOf d (os.map (·.obj))).obj k).mdef = "TNFW" ∧
      ((storeOf d (os.map (·.obj))).obj k).isSubhalo = true
    rw [e5]
    obtain ⟨-, -, -, h4, -, h6⟩ := load_ok e4
    obtain ⟨-, s2, -, s4, -⟩ := selectClass_spec h4
    rw [h6]
    simp only
    rw [s4, s2]
    by_cases hg : a.mdef = "GNFW" <;> simp [hg]
  · intro k hk
    have : k ∈ List.range os.length := hk
    simpa [newRealization, storeOf] using this
  · exact List.nodup_range

theorem mapM_names {α β : Type} {f : α → Except Err β} {P : α → β → Prop} (hf : ∀ a b, f a = .ok b → P a b) :
    ∀ {l : List α} {l' : List β}, l.mapM f = .ok l' → List.Forall₂ P l l' := by
  intro l
  induction l with
  | nil =>
    intro l' h
    simp only [List.mapM_nil] at h
    cases h
    exact .nil
  | cons a t ih =>
    intro l' h
    rw [List.mapM_cons] at h
    obtain ⟨b, hb, h⟩ := bind_ok h
    obtain ⟨bs, hbs, h⟩ := bind_ok h
    cases h
    exact .cons (hf a b hb) (ih hbs)

theorem renderingClass_name {W : Run.World} {K : Kit} {S : Setup} {P G : List ℝ} {i : ℕ} {name : String} {mc : Preset.Cls}
    {mkw : Kwargs} {sc : Preset.Cls} {skw : Kwargs} {c : RClass}
    (h : renderingClass W K S P G i name mc mkw sc skw = .ok c) : c.name = Spec94.className name := by
  unfold renderingClass at h
  by_cases h1 : name = "SUBHALOS"
  · simp only [h1, if_true] at h
    obtain ⟨lo, -, h⟩ := bind_ok h
    obtain ⟨hi, -, h⟩ := bind_ok h
    cases h
    simp [subhalosRClass, Spec94.className, h1]
  by_cases h2 : name = "LINE_OF_SIGHT"
  · simp only [h2, if_neg (show ¬ "LINE_OF_SIGHT" = "SUBHALOS" by decide), if_true] at h
    obtain ⟨s, -, h⟩ := bind_ok h
    obtain ⟨q, -, h⟩ := bind_ok h
    cases h
    simp [LosClass.toRClass, Spec94.className, h2]
  by_cases h3 : name = "LINE_OF_SIGHT_NOSHEET"
  · simp [h3] at h
    subst h
    simp [noSheetRClass, Spec94.className, h3]
  by_cases h4 : name = "TWO_HALO"
  · simp [h4] at h
    subst h
    simp [noSheetRClass, Spec94.className, h4]
  · simp [h1, h2, h3, h4] at h

theorem renderingClasses_names {W : Run.World} {K : Kit} {S : Setup} {r : Request} {cs : List (Option RClass)}
    (h : renderingClasses W K S r = .ok cs) :
    List.Forall₂ (fun p c => ∃ q : RClass, c = some q ∧ q.name = Spec94.className p) r.populations cs := by
  unfold renderingClasses at h
  obtain ⟨⟨P, G⟩, -, h⟩ := bind_ok h
  have := mapM_names (P := fun (p : String × ℕ) c => ∃ q : RClass, c = some q ∧ q.name = Spec94.className p.1) ?_ h
  · have h2 : List.Forall₂ (fun (p : String) c => ∃ q : RClass, c = some q ∧ q.name = Spec94.className p)
        (r.populations.zipIdx.map Prod.fst) cs := List.forall₂_map_left_iff.mpr this
    rwa [List.zipIdx_map_fst] at h2
  · intro p c hc
    unfold renderingClassAt at hc
    obtain ⟨mc, -, hc⟩ := bind_ok hc
    obtain ⟨mkw, -, hc⟩ := bind_ok hc
    obtain ⟨sc, -, hc⟩ := bind_ok hc
    obtain ⟨skw, -, hc⟩ := bind_ok hc
    obtain ⟨q, hq, hc⟩ := bind_ok hc
    cases hc
    exact ⟨q, rfl, renderingClass_name hq⟩

theorem realize_ok {W : Run.World} {K : Kit} {S : Setup} {r : Request} {s : Ext.Store} {R : Realization}
    (h : realize W K S r = .ok (s, R)) : ∃ rows classes os, render W S 1 r = .ok rows ∧ renderingClasses W K S r = .ok classes ∧
      loadAll K.view (haloKw r) K.tags 0 rows = .ok os ∧
      (s, R) = newRealization (densityDict r.density) os (lensCosmoOf K S) haloKeys classes (geometryView S.geometry) := by
  unfold realize at h
  obtain ⟨rows, h1, h⟩ := bind_ok h
  obtain ⟨classes, h2, h⟩ := bind_ok h
  obtain ⟨os, h3, h⟩ := bind_ok h
  cases h
  exact ⟨rows, classes, os, h1, h2, h3, rfl⟩

/-- **C94**, the realization: whatever the request and the random numbers, the rendered population and the halos of the
realization correspond one to one and in order, every object describing its row; there is one rendering class per population,
of that name, and mass sheets are switched on. -/
theorem c94_realization (W : Run.World) (K : Kit) (S : Setup) (r : Request) (s : Ext.Store) (R : Realization)
    (h : realize W K S r = .ok (s, R)) :
    ∃ rows, render W S 1 r = .ok rows ∧ Spec94.Rows rows K.tags (densityDict r.density) s R ∧
      List.Forall₂ (fun p c => ∃ q : RClass, c = some q ∧ q.name = Spec94.className p) r.populations R.renderingClasses ∧
      R.applyMassSheet = true ∧ R.lensCosmo.zLens = S.zLens ∧ R.lensCosmo.zSource = S.zSource ∧
      R.geometry = some ⟨S.geometry.openingAngle, S.geometry.physicalArea⟩ ∧ R.centerX = (fun _ => 0) ∧ R.centerY = fun _ => 0 := by
  obtain ⟨rows, classes, os, h1, h2, h3, h4⟩ := realize_ok h
  obtain ⟨rfl, rfl⟩ := Prod.mk.injEq .. ▸ h4
  exact ⟨rows, h1, newRealization_rows h3 0 rfl _ _ _ _ _, renderingClasses_names h2, rfl, rfl, rfl, rfl, rfl, rfl⟩

/-- **C94**: with pairwise different random tags the halos of the realization have pairwise different tags. -/
theorem c94_distinct_tags (W : Run.World) (K : Kit) (S : Setup) (r : Request) (s : Ext.Store) (R : Realization)
    (h : realize W K S r = .ok (s, R)) (ht : ∀ i j, K.tags i = K.tags j → i = j) : DistinctTags s.heap R := by
  obtain ⟨rows, -, hR, -⟩ := c94_realization W K S r s R h
  refine List.pairwise_iff_getElem.2 fun i j hi hj hij e => ?_
  have e1 := hR.tags i _ (List.getElem?_eq_getElem hi)
  have e2 := hR.tags j _ (List.getElem?_eq_getElem hj)
  have : K.tags i = K.tags j := by rw [← e1, ← e2]; exact e
  have := ht i j this
  omega

theorem renderingClassAt_works {W : Run.World} {K : Kit} {S : Setup} {r : Request} {P G : List ℝ} {scale : ℝ} {p : String × ℕ}
    {o : PopOut} (h : populationAt W S scale r P G p = .ok o) : ∃ c, renderingClassAt W K S r P G p = .ok c := by
  obtain ⟨mc, mkw, sc, skw, e1, e2, e3, e4, e5⟩ := populationAt_ok h
  have hc : ∃ c, renderingClass W K S P G p.2 p.1 mc mkw sc skw = .ok c := by
    unfold renderingClass
    rcases population_ok e5 with ⟨hn, s, lo, hi, -, h1, h2, -⟩ | ⟨hn, s, c, h1, h2, -⟩ | ⟨hn, -⟩
    · simp only [hn, if_true, h1, h2, bind, Except.bind, pure, Except.pure]
      exact ⟨_, rfl⟩
    · rcases hn with hn | hn
      · simp only [hn, if_neg (show ¬ "LINE_OF_SIGHT" = "SUBHALOS" by decide), if_true, h1, h2, bind, Except.bind, pure, Except.pure]
        exact ⟨_, rfl⟩
      · simp [hn]
    · simp [hn]
  obtain ⟨c, hc⟩ := hc
  refine ⟨some c, ?_⟩
  unfold renderingClassAt
  simp [item, e1, e2, e3, e4, hc, bind, Except.bind, pure, Except.pure]

/-- **C94**, no other way to fail: if the population can be rendered, its mass definitions are known ones and its redshifts are
positive, then there is a realization. -/
theorem c94_works (W : Run.World) (K : Kit) (S : Setup) (r : Request) (rows : List HaloArgs) (h : render W S 1 r = .ok rows)
    (hm : ∀ a ∈ rows, a.mdef ∈ Spec94.profiles ∧ 0 < a.z) : ∃ s R, realize W K S r = .ok (s, R) := by
  obtain ⟨P, G, qs, hP, hq, -⟩ := render_ok h
  have hc : ∃ cs, renderingClasses W K S r = .ok cs := by
    unfold renderingClasses
    rw [hP]
    simp only [bind, Except.bind]
    have : ∀ p ∈ r.populations.zipIdx, ∃ c, renderingClassAt W K S r P G p = .ok c := by
      intro p hp
      have : populationAt W S 1 r P G p ∈ qs.map (Except.ok (ε := Err)) := by rw [← hq]; exact List.mem_map_of_mem hp
      obtain ⟨q, -, hq⟩ := List.mem_map.1 this
      exact renderingClassAt_works hq.symm
    revert this
    generalize r.populations.zipIdx = l
    intro hl
    induction l with
    | nil => exact ⟨[], rfl⟩
    | cons p t ih =>
      obtain ⟨c, hc⟩ := hl p (List.mem_cons_self ..)
      obtain ⟨cs, hcs⟩ := ih fun q hq => hl q (List.mem_cons_of_mem _ hq)
      refine ⟨c :: cs, ?_⟩
      rw [List.mapM_cons, hc, hcs]
      rfl
  obtain ⟨cs, hc⟩ := hc
  obtain ⟨os, hos⟩ := loadAll_works (V := K.view) (kw := haloKw r) (tags := K.tags) 0 rows fun a ha t =>
    (c94_accepted _ _ _ _).2 ⟨(hm a ha).1, (hm a ha).2, by simp [haloKw], by cases a.isSubhalo <;> simp [haloKw],
      by cases a.isSubhalo <;> simp [haloKw]⟩
  unfold realize
  simp only [h, hc, hos, bind, Except.bind, pure, Except.pure]
  exact ⟨_, _, rfl⟩

end PyHalo.Props
