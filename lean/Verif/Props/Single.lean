import Verif.Model.Single
import Verif.Props.Realization

/-!
# C108: realizations of one halo
-/

namespace PyHalo.Props

open PyHalo Whole

/-- What a halo asked for by the user is: its mass, position, redshift and flag, and the lens models of its class. -/
def Spec108.Is (h : Halo) (cls : HaloClass) (V : View) (a : HaloArgs) (tag : Tag) : Prop :=
  h.mass = a.mass ∧ h.x = a.x ∧ h.y = a.y ∧ h.r3d = a.r3d ∧ h.z = a.z ∧ h.isSubhalo = a.isSubhalo ∧ h.tag = tag ∧
    h.lensIDs = cls.lensIDs ∧ h.lensParams = V.lensParams cls a

theorem single_form {M : Type} (V : View) (kw : HaloKw M) (keys : List String) (a : HaloArgs) (tag : Tag) (lc : LensCosmoI) (σ : Heap) (n : Oid)
    (t c : M) (d : ℕ) (cls : HaloClass) (ht : kw.truncation a.isSubhalo = .ok t) (hc : kw.concentration a.isSubhalo = .ok c)
    (hd : kw.density = some d) (hk : selectClass a.mdef a.isSubhalo = .ok cls) (hz : 0 < a.z) :
    ∃ h : Halo, Spec108.Is h cls V a tag ∧ singleHalo V kw keys a tag lc σ n =
      .ok (Pop.place σ n [h], Realization.fromHalos (Pop.place σ n [h]) [n] lc keys false [none] none none none) := by
  have : ∃ L, load V kw a tag = .ok L ∧ Spec108.Is L.obj.toHalo cls V a tag := by
    unfold load
    simp only [ht, hc, hd, hk, entry, bind, Except.bind, pure, Except.pure, gt_iff_lt, if_pos hz]
    exact ⟨_, rfl, rfl, rfl, rfl, rfl, rfl, rfl, rfl, rfl, rfl⟩
  obtain ⟨L, hL, hi⟩ := this
  refine ⟨_, hi, ?_⟩
  unfold singleHalo
  simp only [loadAll, hL, bind, Except.bind, pure, Except.pure, List.map_cons, List.map_nil]
  rfl

theorem place_one (σ : Heap) (n : Oid) (h : Halo) : Pop.place σ n [h] n = h ∧ ∀ k, k ≠ n → Pop.place σ n [h] k = σ k := by
  constructor
  · simp [Pop.place]
  · intro k hk
    unfold Pop.place
    split
    · rename_i hle
      have : k - n ≠ 0 := Nat.sub_ne_zero_of_lt (lt_of_le_of_ne hle (Ne.symm hk))
      rw [List.getElem?_eq_none (by simp only [List.length_singleton]; exact Nat.one_le_iff_ne_zero.2 this)]
      rfl
    · rfl

/-- **C108**. With models for its kind and a known profile at positive redshift, the realization has one halo, with the mass, position,
redshift and flag asked for; whatever is asked of `lensing_quantities`, it returns the lens models of this halo at its redshift and no
mass sheets. No other object changes. -/
theorem c108_single {M : Type} (V : View) (kw : HaloKw M) (keys : List String) (a : HaloArgs) (tag : Tag) (lc : LensCosmoI) (σ : Heap) (n : Oid)
    (t c : M) (d : ℕ) (cls : HaloClass) (ht : kw.truncation a.isSubhalo = .ok t) (hc : kw.concentration a.isSubhalo = .ok c)
    (hd : kw.density = some d) (hk : selectClass a.mdef a.isSubhalo = .ok cls) (hz : 0 < a.z) :
    ∃ σ' R, singleHalo V kw keys a tag lc σ n = .ok (σ', R) ∧ R.halos = [n] ∧ Spec108.Is (σ' n) cls V a tag ∧ (∀ k, k ≠ n → σ' k = σ k) ∧
      R.masses = [a.mass] ∧ R.xs = [a.x] ∧ R.ys = [a.y] ∧ R.redshifts = [a.z] ∧ R.subhaloFlags = [a.isSubhalo] ∧ R.lensCosmo = lc ∧
      ∀ addSheets useClass args, R.lensingQuantities σ' addSheets useClass args =
        .ok (cls.lensIDs, List.replicate cls.lensIDs.length a.z, V.lensParams cls a) := by
  obtain ⟨h, hi, e⟩ := single_form V kw keys a tag lc σ n t c d cls ht hc hd hk hz
  have hp := place_one σ n h
  obtain ⟨i1, i2, i3, i4, i5, i6, i7, i8, i9⟩ := hi
  refine ⟨_, _, e, rfl, ?_, hp.2, ?_, ?_, ?_, ?_, ?_, rfl, ?_⟩
  · rw [hp.1]; exact ⟨i1, i2, i3, i4, i5, i6, i7, i8, i9⟩
  · simp [Realization.fromHalos, hp.1, i1]
  · simp [Realization.fromHalos, hp.1, i2]
  · simp [Realization.fromHalos, hp.1, i3]
  · simp [Realization.fromHalos, hp.1, i5]
  · simp [Realization.fromHalos, hp.1, i6]
  · intro s u args
    simp [Realization.lensingQuantities, Realization.fromHalos, hp.1, i5, i8, i9, pure, Except.pure]

/-- **C108** (what the code does with the default arguments). Without `kwargs_halo_model` no halo of any kind can be made: the call raises
a `KeyError`. -/
theorem c108_default_raises (M : Type) (V : View) (keys : List String) (a : HaloArgs) (tag : Tag) (lc : LensCosmoI) (σ : Heap) (n : Oid) :
    singleHalo V (noKw M) keys a tag lc σ n =
      .error (.keyError (if a.isSubhalo then "truncation_model_subhalos" else "truncation_model_field_halos")) := by
  unfold singleHalo
  cases h : a.isSubhalo <;>
    simp [loadAll, load, noKw, HaloKw.truncation, entry, h, bind, Except.bind]

theorem quantities_fold (σ : Heap) : ∀ (l : List Oid) (acc : List String × List ℝ × List Kw),
    l.foldl (fun (acc : List String × List ℝ × List Kw) h => (acc.1 ++ (σ h).lensIDs, acc.2.1 ++ List.replicate (σ h).lensIDs.length (σ h).z,
      acc.2.2 ++ (σ h).lensParams)) acc =
    (acc.1 ++ l.flatMap (fun h => (σ h).lensIDs), acc.2.1 ++ l.flatMap (fun h => List.replicate (σ h).lensIDs.length (σ h).z),
      acc.2.2 ++ l.flatMap (fun h => (σ h).lensParams))
  | [], acc => by simp
  | a :: t, acc => by
    rw [List.foldl_cons, quantities_fold σ t]
    simp

theorem flatMap_agree {β : Type} (f g : Oid → List β) (l : List Oid) (h : ∀ k ∈ l, f k = g k) : l.flatMap f = l.flatMap g := by
  induction l with
  | nil => rfl
  | cons a t ih => simp [h a (by simp), ih fun k hk => h k (by simp [hk])]

/-- **C108**. Adding such a halo to a realization by `realization.join(single)` puts its lens models in front of those of the realization,
and leaves the realization's own halos and its mass sheets (those of the rendering classes) as they are. -/
theorem c108_join {M : Type} (V : View) (kw : HaloKw M) (keys : List String) (a : HaloArgs) (tag : Tag) (lc : LensCosmoI) (σ : Heap) (n : Oid)
    (t c : M) (d : ℕ) (cls : HaloClass) (ht : kw.truncation a.isSubhalo = .ok t) (hc : kw.concentration a.isSubhalo = .ok c)
    (hd : kw.density = some d) (hk : selectClass a.mdef a.isSubhalo = .ok cls) (hz : 0 < a.z)
    (r : Realization) (hne : r.halos ≠ []) (hn : n ∉ r.halos) (htag : ∀ k ∈ r.halos, (σ k).tag ≠ tag) (jc : Bool) :
    ∃ σ' R, singleHalo V kw keys a tag lc σ n = .ok (σ', R) ∧ (r.join σ' R jc).halos = n :: r.halos ∧
      ∀ addSheets useClass (args : Realization.SheetArgs), args.subtractExact = false → ∀ q, r.lensingQuantities σ addSheets useClass args = .ok q →
        (r.join σ' R jc).lensingQuantities σ' addSheets useClass args =
          .ok (cls.lensIDs ++ q.1, List.replicate cls.lensIDs.length a.z ++ q.2.1, V.lensParams cls a ++ q.2.2) := by
  obtain ⟨h, ⟨i1, i2, i3, i4, i5, i6, i7, i8, i9⟩, e⟩ := single_form V kw keys a tag lc σ n t c d cls ht hc hd hk hz
  have hp := place_one σ n h
  set σ' := Pop.place σ n [h] with hσ
  have hag : ∀ k ∈ r.halos, σ' k = σ k := fun k hk' => hp.2 k (by rintro rfl; exact hn hk')
  have hh : (r.join σ' (Realization.fromHalos σ' [n] lc keys false [none] none none none) jc).halos = n :: r.halos := by
    rw [join_halos, if_pos (by
      have := List.length_pos_of_ne_nil hne
      simp only [Realization.fromHalos, List.length_cons, List.length_nil]; omega)]
    show n :: r.halos.filter _ = n :: r.halos
    congr 1
    rw [List.filter_eq_self]
    intro k hk'
    have : (σ' k).tag ∉ Realization.tags σ' [n] := by
      simp only [Realization.tags, List.map_cons, List.map_nil, List.mem_singleton, hp.1, i7, hag k hk']
      exact htag k hk'
    simp only [Bool.not_eq_true', decide_eq_false_iff_not]
    exact this
  refine ⟨_, _, e, hh, ?_⟩
  intro s u args hx q hq
  set J := r.join σ' (Realization.fromHalos σ' [n] lc keys false [none] none none none) jc with hJ
  have hsheet : J.applyMassSheet = r.applyMassSheet := rfl
  have hcorr : J.massSheetCorrection σ' args u = r.massSheetCorrection σ args u := by
    unfold Realization.massSheetCorrection
    have hrc : Realization.classSheets args u J.renderingClasses = Realization.classSheets args u r.renderingClasses := by
      rw [hJ]
      cases jc
      · rfl
      · show Realization.classSheets args u (r.renderingClasses ++ [none]) = _
        unfold Realization.classSheets
        rw [List.foldl_append]; rfl
    simp only [hx, hrc, Bool.false_eq_true, if_false]
    rfl
  unfold Realization.lensingQuantities at hq ⊢
  rw [hh, hsheet, hcorr]
  rw [quantities_fold] at hq ⊢
  rw [List.flatMap_cons, List.flatMap_cons, List.flatMap_cons, hp.1,
    flatMap_agree (fun k => (σ' k).lensIDs) (fun k => (σ k).lensIDs) r.halos (fun k hk' => by rw [hag k hk']),
    flatMap_agree (fun k => List.replicate (σ' k).lensIDs.length (σ' k).z) (fun k => List.replicate (σ k).lensIDs.length (σ k).z) r.halos
      (fun k hk' => by rw [hag k hk']),
    flatMap_agree (fun k => (σ' k).lensParams) (fun k => (σ k).lensParams) r.halos (fun k hk' => by rw [hag k hk']), i8, i9, i5]
  simp only [List.nil_append] at hq ⊢
  split at hq
  · cases hm : r.massSheetCorrection σ args u with
    | error x => rw [hm] at hq; cases hq
    | ok x =>
      rw [hm] at hq
      cases hq
      rename_i hc'
      rw [if_pos hc']
      simp [bind, Except.bind, pure, Except.pure]
  · cases hq
    rename_i hc'
    rw [if_neg hc']
    rfl

/-- **C108** (what the code does the other way round). `single.join(realization)` keeps the settings of the single halo: the result has no
mass sheets, whatever the realization had. -/
theorem c108_join_reversed {M : Type} (V : View) (kw : HaloKw M) (keys : List String) (a : HaloArgs) (tag : Tag) (lc : LensCosmoI) (σ : Heap)
    (n : Oid) (t c : M) (d : ℕ) (cls : HaloClass) (ht : kw.truncation a.isSubhalo = .ok t) (hc : kw.concentration a.isSubhalo = .ok c)
    (hd : kw.density = some d) (hk : selectClass a.mdef a.isSubhalo = .ok cls) (hz : 0 < a.z) (r : Realization) (jc : Bool) :
    ∃ σ' R, singleHalo V kw keys a tag lc σ n = .ok (σ', R) ∧ ∀ addSheets useClass args,
      ∃ q, (R.join σ' r jc).lensingQuantities σ' addSheets useClass args = .ok q ∧
        q.1 = (R.join σ' r jc).halos.flatMap fun k => (σ' k).lensIDs := by
  obtain ⟨h, -, e⟩ := single_form V kw keys a tag lc σ n t c d cls ht hc hd hk hz
  refine ⟨_, _, e, ?_⟩
  intro s u args
  have hsheet : ((Realization.fromHalos (Pop.place σ n [h]) [n] lc keys false [none] none none none).join (Pop.place σ n [h]) r jc).applyMassSheet
      = false := rfl
  unfold Realization.lensingQuantities
  rw [hsheet, quantities_fold]
  exact ⟨_, rfl, by simp⟩

/-- A dictionary with all models, for the examples. -/
def Spec108.kw : HaloKw ℕ := ⟨some 1, none, none, none, some 2, some 3, some 0⟩

example := c108_single ⟨fun _ a => a.mass, fun _ _ => [[]]⟩ Spec108.kw [] ⟨1e8, 0.5, -0.3, some 100, "TNFW", 0.5, true⟩ 7 Demo.real.lensCosmo Demo.heap 10
  1 2 0 .tnfwSub rfl rfl rfl rfl (by norm_num)

example := c108_join ⟨fun _ a => a.mass, fun _ _ => [[]]⟩ Spec108.kw [] ⟨1e8, 0.5, -0.3, some 100, "TNFW", 0.5, true⟩ 77 Demo.real.lensCosmo Demo.heap 10
  1 2 0 .tnfwSub rfl rfl rfl rfl (by norm_num) Demo.real (by simp [Demo.real, Realization.fromHalos])
  (by simp [Demo.real, Realization.fromHalos]) (by simp [Demo.real, Realization.fromHalos, Demo.heap, Demo.mk]) true

example := c108_join_reversed ⟨fun _ a => a.mass, fun _ _ => [[]]⟩ Spec108.kw [] ⟨1e8, 0.5, -0.3, none, "NFW", 0.5, false⟩ 77 Demo.real.lensCosmo Demo.heap 10
  1 3 0 .nfwField rfl rfl rfl rfl (by norm_num) Demo.real true

end PyHalo.Props
