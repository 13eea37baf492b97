import Verif.Lemmas.Filter
import Verif.Spec.Demo
import Mathlib.Tactic.NormNum
import Mathlib.Tactic.FieldSimp
import Mathlib.Algebra.BigOperators.Group.List.Lemmas

/-!
# Lensing quantities and mass sheets (C09, C10, C51)
-/

namespace PyHalo.Props
open PyHalo Spec
open scoped Classical

theorem lookup_map_set (kw : Kw) (key : String) (v : ℝ) (q : String) :
    (kw.map fun p => if p.1 == key then (key, v) else p).lookup q
      = if q = key then (kw.lookup q).map (fun _ => v) else kw.lookup q := by
  induction kw with
  | nil => simp
  | cons a t ih =>
    obtain ⟨k, w⟩ := a
    by_cases h : k = key
    · subst h
      by_cases hq : q = k
      · subst hq; simp [List.lookup]
      · have hb : (q == k) = false := by simpa using hq
        simp [List.lookup_cons, hb, hq] at ih ⊢
        exact ih
    · by_cases hq : q = k
      · subst hq; simp [h]
      · have hb : (q == k) = false := by simpa using hq
        simp [List.lookup_cons, h, hb] at ih ⊢
        exact ih

theorem lookup_kwSet (kw : Kw) (key : String) (v : ℝ) (q : String) :
    (Realization.kwSet kw key v).lookup q = if q = key then some v else kw.lookup q := by
  unfold Realization.kwSet
  have hany : (kw.any fun p => p.1 == key) = (kw.lookup key).isSome := by
    induction kw with
    | nil => rfl
    | cons a t ih =>
      obtain ⟨k, w⟩ := a
      by_cases h : k = key
      · subst h; simp
      · have hb : (key == k) = false := by simpa using fun e : key = k => h e.symm
        have hb' : (k == key) = false := by simpa using h
        simp [List.lookup_cons, hb, hb', ih]
  split
  · rename_i h
    rw [hany] at h
    rw [lookup_map_set]
    split
    · rename_i hq; subst hq
      obtain ⟨w, hw⟩ := Option.isSome_iff_exists.1 h
      simp [hw]
    · rfl
  · rename_i h
    rw [hany] at h
    rw [List.lookup_append]
    by_cases hq : q = key
    · subst hq
      have : kw.lookup q = none := by
        rcases hk : kw.lookup q with _ | w
        · rfl
        · exact absurd (by simp [hk]) h
      simp [this]
    · have hb : (q == key) = false := by simpa using hq
      simp [hq, List.lookup_cons, hb]

theorem centreSheets_ok (lc : LensCosmoI) (cx cy : Interp) (l : List (ℝ × String)) (kws : List Kw)
    (h : l.length = kws.length) :
    ∃ kws', Realization.centreSheets lc cx cy l kws = .ok kws' ∧
      List.Forall₂ (fun (p : (ℝ × String) × Kw) kw' =>
        Centred p.1.2 (cx (lc.DC p.1.1)) (cy (lc.DC p.1.1)) p.2 kw') (l.zip kws) kws' := by
  induction l generalizing kws with
  | nil =>
    cases kws with
    | nil => exact ⟨[], rfl, by simp⟩
    | cons a t => simp at h
  | cons p t ih =>
    cases kws with
    | nil => simp at h
    | cons kw kws =>
      obtain ⟨rest, hr, hall⟩ := ih kws (by simpa using h)
      obtain ⟨z, name⟩ := p
      refine ⟨_, by simp only [Realization.centreSheets, hr]; rfl, ?_⟩
      simp only [List.zip_cons_cons]
      refine List.Forall₂.cons ?_ hall
      intro key
      by_cases hn : name = "CONVERGENCE"
      · simp only [hn, if_true, lookup_kwSet]
        by_cases h1 : key = "dec_0"
        · subst h1; simp
        · simp [h1]
      · simp only [hn, if_false, lookup_kwSet]
        by_cases h1 : key = "center_y"
        · subst h1; simp
        · simp [h1]

theorem foldl_lensing (σ : Heap) (l : List Oid) (acc : List String × List ℝ × List Kw) :
    l.foldl (fun (acc : List String × List ℝ × List Kw) h =>
      (acc.1 ++ (σ h).lensIDs,
       acc.2.1 ++ List.replicate (σ h).lensIDs.length (σ h).z,
       acc.2.2 ++ (σ h).lensParams)) acc
    = (acc.1 ++ l.flatMap (fun h => (σ h).lensIDs),
       acc.2.1 ++ l.flatMap (fun h => List.replicate (σ h).lensIDs.length (σ h).z),
       acc.2.2 ++ l.flatMap (fun h => (σ h).lensParams)) := by
  induction l generalizing acc with
  | nil => simp
  | cons a t ih => simp [ih]

theorem triples_append {n₁ n₂ : List String} {z₁ z₂ : List ℝ} {k₁ k₂ : List Kw}
    (h : SameLengths n₁ z₁ k₁) :
    triples (n₁ ++ n₂) (z₁ ++ z₂) (k₁ ++ k₂) = triples n₁ z₁ k₁ ++ triples n₂ z₂ k₂ := by
  unfold triples
  rw [List.zip_append h.2, List.zipWith_append (by simp [h.1, h.2])]

theorem components_aligned (σ : Heap) (l : List Oid)
    (hh : ∀ h ∈ l, (σ h).lensIDs.length = (σ h).lensParams.length) :
    SameLengths (l.flatMap fun h => (σ h).lensIDs)
      (l.flatMap fun h => List.replicate (σ h).lensIDs.length (σ h).z)
      (l.flatMap fun h => (σ h).lensParams) ∧
    triples (l.flatMap fun h => (σ h).lensIDs)
      (l.flatMap fun h => List.replicate (σ h).lensIDs.length (σ h).z)
      (l.flatMap fun h => (σ h).lensParams)
    = l.flatMap fun h =>
        List.zipWith (fun n k => (n, (σ h).z, k)) (σ h).lensIDs (σ h).lensParams := by
  induction l with
  | nil => simp [SameLengths, triples]
  | cons a t ih =>
    obtain ⟨⟨h1, h2⟩, h3⟩ := ih fun h hm => hh h (List.mem_cons_of_mem _ hm)
    have ha := hh a (by simp)
    have hal : SameLengths (σ a).lensIDs (List.replicate (σ a).lensIDs.length (σ a).z)
        (σ a).lensParams := ⟨by simp, by simpa using ha⟩
    refine ⟨⟨?_, ?_⟩, ?_⟩
    · simp only [List.flatMap_cons, List.length_append, h1, List.length_replicate]
    · simp only [List.flatMap_cons, List.length_append, h2, List.length_replicate, ha]
    · simp only [List.flatMap_cons]
      rw [triples_append hal, h3]
      congr 1
      have : ∀ (n : List String) (k : List Kw) (z : ℝ), n.length = k.length →
          triples n (List.replicate n.length z) k = List.zipWith (fun n k => (n, z, k)) n k := by
        intro n k z
        induction n generalizing k with
        | nil => intro _; rfl
        | cons a n ih =>
          cases k with
          | nil => intro h; simp at h
          | cons b k =>
            intro h
            have := ih k (by simpa using h)
            simp only [triples, List.length_cons, List.replicate_succ, List.zip_cons_cons,
              List.zipWith_cons_cons] at this ⊢
            rw [this]
      exact this _ _ _ ha

/-- C09, without sheets.  If every halo names as many profiles as it supplies parameter sets, the
three lists have the same length, and entry by entry they are the profiles of the halos in order,
each with the redshift of its own halo. -/
theorem c09_lensing_quantities_halos (σ : Heap) (r : Realization) (addSheets useClass : Bool)
    (a : Realization.SheetArgs) (hoff : (r.applyMassSheet && addSheets) = false)
    (hh : ∀ h ∈ r.halos, (σ h).lensIDs.length = (σ h).lensParams.length) :
    ∃ ns zs ks, r.lensingQuantities σ addSheets useClass a = .ok (ns, zs, ks) ∧
      SameLengths ns zs ks ∧ triples ns zs ks = haloComponents σ r := by
  obtain ⟨h1, h2⟩ := components_aligned σ r.halos hh
  refine ⟨_, _, _, ?_, h1, h2⟩
  unfold Realization.lensingQuantities
  rw [hoff, foldl_lensing]
  simp
  rfl

theorem foldl_classSheets (a : Realization.SheetArgs) (u : Bool) (rcs : List (Option RClass))
    (acc : Sheets) :
    rcs.foldl (fun (acc : Sheets) rc =>
    match rc with
    | none => acc
    | some c =>
      let new := if c.name = "SUBHALOS" then
          c.sheetSub a.kappaScaleSubhalos a.logMlow a.logMhigh u
        else c.sheetLos a.kappaScale a.logMlow a.logMhigh a.zmin a.zmax u
      (acc.1 ++ new.1, acc.2.1 ++ new.2.1, acc.2.2 ++ new.2.2)) acc
    = (acc.1 ++ (rcs.filterMap id).flatMap (fun c => (sheetsOf a u c).1),
       acc.2.1 ++ (rcs.filterMap id).flatMap (fun c => (sheetsOf a u c).2.1),
       acc.2.2 ++ (rcs.filterMap id).flatMap (fun c => (sheetsOf a u c).2.2)) := by
  induction rcs generalizing acc with
  | nil => simp
  | cons c t ih =>
    rw [List.foldl_cons, ih]
    cases c with
    | none => simp
    | some c => simp [sheetsOf]

theorem sheets_aligned (a : Realization.SheetArgs) (u : Bool) (cs : List RClass)
    (h : ∀ c ∈ cs, SameLengths (sheetsOf a u c).2.1 (sheetsOf a u c).2.2 (sheetsOf a u c).1) :
    SameLengths (cs.flatMap fun c => (sheetsOf a u c).2.1)
      (cs.flatMap fun c => (sheetsOf a u c).2.2) (cs.flatMap fun c => (sheetsOf a u c).1) ∧
    triples (cs.flatMap fun c => (sheetsOf a u c).2.1)
      (cs.flatMap fun c => (sheetsOf a u c).2.2) (cs.flatMap fun c => (sheetsOf a u c).1)
    = cs.flatMap fun c => triples (sheetsOf a u c).2.1 (sheetsOf a u c).2.2 (sheetsOf a u c).1 := by
  induction cs with
  | nil => simp [SameLengths, triples]
  | cons c t ih =>
    obtain ⟨⟨h1, h2⟩, h3⟩ := ih fun c hc => h c (List.mem_cons_of_mem _ hc)
    obtain ⟨g1, g2⟩ := h c (by simp)
    refine ⟨⟨?_, ?_⟩, ?_⟩
    · simp [List.flatMap_cons, h1, g1]
    · simp [List.flatMap_cons, h2, g2]
    · simp only [List.flatMap_cons]
      rw [triples_append ⟨g1, g2⟩, h3]

/-- Two sheets have the same profile and redshift, and the second is centred on the rendering
centre at the redshift of its plane. -/
def SheetMoved (r : Realization) (s s' : String × ℝ × Kw) : Prop :=
  s'.1 = s.1 ∧ s'.2.1 = s.2.1 ∧
  Centred s.1 (r.centerX (r.lensCosmo.DC s.2.1)) (r.centerY (r.lensCosmo.DC s.2.1)) s.2.2 s'.2.2

theorem moved_triples (r : Realization) (ns : List String) (zs : List ℝ) (ks ks' : List Kw)
    (h : SameLengths ns zs ks)
    (hall : List.Forall₂ (fun (p : (ℝ × String) × Kw) kw' =>
      Centred p.1.2 (r.centerX (r.lensCosmo.DC p.1.1)) (r.centerY (r.lensCosmo.DC p.1.1)) p.2 kw')
      ((zs.zip ns).zip ks) ks') :
    SameLengths ns zs ks' ∧
    List.Forall₂ (SheetMoved r) (triples ns zs ks) (triples ns zs ks') := by
  obtain ⟨h1, h2⟩ := h
  induction ns generalizing zs ks ks' with
  | nil =>
    cases zs with
    | nil =>
      simp at hall
      subst hall
      exact ⟨by simp [SameLengths], by simp [triples]⟩
    | cons z zs => simp at h1
  | cons n ns ih =>
    cases zs with
    | nil => simp at h1
    | cons z zs =>
      cases ks with
      | nil => simp at h2
      | cons k ks =>
        simp only [List.zip_cons_cons] at hall
        cases hall with
        | cons hhead htail =>
          obtain ⟨⟨g1, g2⟩, g3⟩ := ih zs ks _ htail (by simpa using h1) (by simpa using h2)
          refine ⟨⟨by simpa using g1, by simpa using g2⟩, ?_⟩
          simp only [triples, List.zip_cons_cons, List.zipWith_cons_cons]
          exact List.Forall₂.cons ⟨rfl, rfl, hhead⟩ g3

/-- C09 and C51, with the sheets of the rendering classes.  If halos and rendering classes supply
matching lists, the three output lists have the same length; they are the halo components followed
by the sheets of the rendering classes, in order, each sheet with the profile and redshift its
class gave it and centred on the rendering centre of its plane. -/
theorem c09_lensing_quantities_sheets (σ : Heap) (r : Realization) (useClass : Bool)
    (a : Realization.SheetArgs) (hon : r.applyMassSheet = true) (hex : a.subtractExact = false)
    (hh : ∀ h ∈ r.halos, (σ h).lensIDs.length = (σ h).lensParams.length)
    (hc : ∀ c, some c ∈ r.renderingClasses → SameLengths (sheetsOf a useClass c).2.1
      (sheetsOf a useClass c).2.2 (sheetsOf a useClass c).1) :
    ∃ ns zs ks S, r.lensingQuantities σ true useClass a = .ok (ns, zs, ks) ∧
      SameLengths ns zs ks ∧ triples ns zs ks = haloComponents σ r ++ S ∧
      List.Forall₂ (SheetMoved r)
        ((r.renderingClasses.filterMap id).flatMap fun c =>
          triples (sheetsOf a useClass c).2.1 (sheetsOf a useClass c).2.2 (sheetsOf a useClass c).1)
        S := by
  obtain ⟨h1, h2⟩ := components_aligned σ r.halos hh
  obtain ⟨g1, g2⟩ := sheets_aligned a useClass (r.renderingClasses.filterMap id) (by
    intro c hcm; exact hc c (by simpa using hcm))
  have hcs : Realization.classSheets a useClass r.renderingClasses
      = ((r.renderingClasses.filterMap id).flatMap (fun c => (sheetsOf a useClass c).1),
         (r.renderingClasses.filterMap id).flatMap (fun c => (sheetsOf a useClass c).2.1),
         (r.renderingClasses.filterMap id).flatMap (fun c => (sheetsOf a useClass c).2.2)) := by
    exact foldl_classSheets a useClass r.renderingClasses ([], [], [])
  obtain ⟨kws', hk, hall⟩ := centreSheets_ok r.lensCosmo r.centerX r.centerY
    (((r.renderingClasses.filterMap id).flatMap (fun c => (sheetsOf a useClass c).2.2)).zip
      ((r.renderingClasses.filterMap id).flatMap (fun c => (sheetsOf a useClass c).2.1)))
    ((r.renderingClasses.filterMap id).flatMap (fun c => (sheetsOf a useClass c).1)) (by
      simp only [List.length_zip, g1.1, g1.2, min_self])
  obtain ⟨m1, m2⟩ := moved_triples r _ _ _ _ g1 hall
  rw [g2] at m2
  refine ⟨(r.halos.flatMap fun h => (σ h).lensIDs)
      ++ (r.renderingClasses.filterMap id).flatMap (fun c => (sheetsOf a useClass c).2.1),
    (r.halos.flatMap fun h => List.replicate (σ h).lensIDs.length (σ h).z)
      ++ (r.renderingClasses.filterMap id).flatMap (fun c => (sheetsOf a useClass c).2.2),
    (r.halos.flatMap fun h => (σ h).lensParams) ++ kws', _, ?_, ?_, ?_, m2⟩
  rotate_left
  · exact ⟨by simp only [List.length_append, h1.1, m1.1],
      by simp only [List.length_append, h1.2, m1.2]⟩
  · rw [triples_append h1, h2]; rfl
  · unfold Realization.lensingQuantities
    rw [hon, foldl_lensing]
    simp only [Bool.and_self, if_true, Realization.massSheetCorrection, hex, Bool.false_eq_true,
      if_false, hcs, bind, Except.bind, pure, Except.pure, hk, List.nil_append]

theorem massAtZExact_eq (σ : Heap) (r : Realization) (hf : Fresh σ r) (z : ℝ) :
    r.massAtZExact σ z = .ok (planeMass σ r z) := by
  unfold Realization.massAtZExact
  by_cases hz : z = r.lensCosmo.zLens
  · rw [if_pos hz, halosAtZ_fst]
    congr 1
    unfold planeMass
    have : ∀ (l : List Oid) (m : ℝ), l.foldl (fun m h =>
        if (σ h).isSubhalo then m + (σ h).boundMass else m + (σ h).mass) m
        = m + (l.map fun h => if z = r.lensCosmo.zLens ∧ (σ h).isSubhalo = true
            then (σ h).boundMass else (σ h).mass).sum := by
      intro l
      induction l with
      | nil => simp
      | cons a t ih =>
        intro m
        rw [List.foldl_cons, ih, List.map_cons, List.sum_cons]
        by_cases hs : (σ a).isSubhalo = true
        · simp [hs, hz]; ring
        · simp [hs]; ring
    rw [this]; simp
  · rw [if_neg hz]
    have hred : (r.redshifts.map fun zi => decide (zi = z))
        = r.halos.map fun h => decide ((σ h).z = z) := by
      rw [hf.redshifts, List.map_map]; rfl
    rw [hred, hf.masses, Np.gather_whereTrue]
    simp only [bind, Except.bind, pure, Except.pure, Np.sum_eq]
    congr 1
    unfold planeMass
    congr 1
    apply List.map_congr_left
    intro h _
    simp [hz]

theorem exactSheets_ok (σ : Heap) (r : Realization) (hf : Fresh σ r) (g : GeometryI)
    (hg : r.geometry = some g) (zs : List ℝ) :
    Realization.exactSheets σ r zs = .ok (zs.map fun z => (z, [("kappa",
      -planeMass σ r z / r.lensCosmo.sigmaCritMass z
        (g.angleToPhysicalArea (1 / 2 * g.coneOpeningAngle) z))])) := by
  induction zs with
  | nil => rfl
  | cons z zs ih =>
    simp only [Realization.exactSheets, hg, massAtZExact_eq σ r hf, ih]
    rfl

/-- C10.  Exact sheets: there is one sheet of constant convergence per redshift at which the
realization has halos, it is centred on the rendering centre of its plane, and the mass it
carries (convergence times critical mass) is minus the mass of the halos in that plane. -/
theorem c10_exact_sheets (σ : Heap) (r : Realization) (hf : Fresh σ r) (g : GeometryI)
    (hg : r.geometry = some g) (a : Realization.SheetArgs) (hex : a.subtractExact = true)
    (useClass : Bool)
    (hcrit : ∀ h ∈ r.halos, r.lensCosmo.sigmaCritMass (σ h).z
      (g.angleToPhysicalArea (1 / 2 * g.coneOpeningAngle) (σ h).z) ≠ 0) :
    ∃ ks names zs, r.massSheetCorrection σ a useClass = .ok (ks, names, zs) ∧
      zs.Pairwise (· < ·) ∧ (∀ z, z ∈ zs ↔ ∃ h ∈ r.halos, (σ h).z = z) ∧
      names = List.replicate zs.length "CONVERGENCE" ∧
      List.Forall₂ (fun z kw => ∃ κ, kw.lookup "kappa" = some κ ∧
        κ * r.lensCosmo.sigmaCritMass z (g.angleToPhysicalArea (1 / 2 * g.coneOpeningAngle) z)
          = - planeMass σ r z ∧
        kw.lookup "ra_0" = some (r.centerX (r.lensCosmo.DC z)) ∧
        kw.lookup "dec_0" = some (r.centerY (r.lensCosmo.DC z))) zs ks := by
  set K : ℝ → Kw := fun z => [("kappa", -planeMass σ r z / r.lensCosmo.sigmaCritMass z
        (g.angleToPhysicalArea (1 / 2 * g.coneOpeningAngle) z))] with hK
  have hes := exactSheets_ok σ r hf g hg r.uniqueRedshifts
  have hall : ∃ ks, Realization.centreSheets r.lensCosmo r.centerX r.centerY
      (r.uniqueRedshifts.zip (List.replicate r.uniqueRedshifts.length "CONVERGENCE"))
      (r.uniqueRedshifts.map K) = .ok ks ∧
      List.Forall₂ (fun z kw => ∃ κ, kw.lookup "kappa" = some κ ∧
        κ * r.lensCosmo.sigmaCritMass z (g.angleToPhysicalArea (1 / 2 * g.coneOpeningAngle) z)
          = - planeMass σ r z ∧
        kw.lookup "ra_0" = some (r.centerX (r.lensCosmo.DC z)) ∧
        kw.lookup "dec_0" = some (r.centerY (r.lensCosmo.DC z))) r.uniqueRedshifts ks := by
    obtain ⟨ks, h1, h2⟩ := centreSheets_ok r.lensCosmo r.centerX r.centerY
      (r.uniqueRedshifts.zip (List.replicate r.uniqueRedshifts.length "CONVERGENCE"))
      (r.uniqueRedshifts.map K) (by simp)
    refine ⟨ks, h1, ?_⟩
    have hcz : ∀ z ∈ r.uniqueRedshifts, r.lensCosmo.sigmaCritMass z
        (g.angleToPhysicalArea (1 / 2 * g.coneOpeningAngle) z) ≠ 0 := by
      intro z hz
      obtain ⟨h, hh, rfl⟩ := (hf.zsMem z).1 hz
      exact hcrit h hh
    clear h1 hes hf
    generalize r.uniqueRedshifts = us at h2 hcz ⊢
    induction us generalizing ks with
    | nil => simp at h2; simp [h2]
    | cons z zs ih =>
      simp only [List.length_cons, List.replicate_succ, List.zip_cons_cons, List.map_cons] at h2
      cases h2 with
      | cons hh ht =>
        refine List.Forall₂.cons ?_ (ih _ ht fun z hz => hcz z (List.mem_cons_of_mem _ hz))
        refine ⟨-planeMass σ r z / r.lensCosmo.sigmaCritMass z
          (g.angleToPhysicalArea (1 / 2 * g.coneOpeningAngle) z), ?_, ?_, ?_, ?_⟩
        · rw [hh "kappa"]; simp [hK]
        · exact div_mul_cancel₀ _ (hcz z List.mem_cons_self)
        · rw [hh "ra_0"]; simp
        · rw [hh "dec_0"]; simp
  obtain ⟨ks, h1, h2⟩ := hall
  refine ⟨ks, _, r.uniqueRedshifts, ?_, hf.zsIncreasing, hf.zsMem, rfl, h2⟩
  unfold Realization.massSheetCorrection
  rw [hex, hes]
  simp only [if_true, bind, Except.bind, pure, Except.pure, List.map_map, List.length_map]
  have e1 : (r.uniqueRedshifts.map (Prod.fst ∘ fun z => (z, K z))) = r.uniqueRedshifts := by
    rw [show (Prod.fst ∘ fun z : ℝ => (z, K z)) = id from rfl, List.map_id]
  have e2 : (r.uniqueRedshifts.map (Prod.snd ∘ fun z => (z, K z))) = r.uniqueRedshifts.map K := rfl
  rw [e1, e2, h1]

/-- C10.  Summed over the planes, the sheets carry minus the total mass of the realization. -/
theorem c10_exact_sheets_total (σ : Heap) (r : Realization) (zs : List ℝ)
    (hinc : zs.Pairwise (· < ·)) (hmem : ∀ z, z ∈ zs ↔ ∃ h ∈ r.halos, (σ h).z = z) :
    (zs.map fun z => planeMass σ r z).sum = totalMass σ r := by
  have hperm := flatMap_filter_perm (fun h => (σ h).z) zs (hinc.imp fun h => ne_of_lt h) r.halos
    (fun h hh => (hmem _).2 ⟨h, hh, rfl⟩)
  unfold totalMass
  rw [← (hperm.map _).sum_eq, List.map_flatMap, List.flatMap, List.sum_flatten, List.map_map]
  congr 1
  apply List.map_congr_left
  intro z _
  unfold planeMass
  congr 1
  apply List.map_congr_left
  intro h hh
  have : (σ h).z = z := by simpa using (List.mem_filter.1 hh).2
  rw [this]

/-- C10.  Exact sheets need the rendering volume: without a geometry the request fails as soon as
there is a halo. -/
theorem c10_exact_sheets_no_geometry (σ : Heap) (r : Realization) (hf : Fresh σ r)
    (hg : r.geometry = none) (a : Realization.SheetArgs) (hex : a.subtractExact = true)
    (useClass : Bool) (hne : r.halos ≠ []) :
    ∃ e, r.massSheetCorrection σ a useClass = .error e := by
  obtain ⟨h, hh⟩ := List.exists_mem_of_ne_nil _ hne
  have hz : (σ h).z ∈ r.uniqueRedshifts := (hf.zsMem _).2 ⟨h, hh, rfl⟩
  unfold Realization.massSheetCorrection
  rw [hex]
  cases hu : r.uniqueRedshifts with
  | nil => simp [hu] at hz
  | cons z zs =>
    simp only [Realization.exactSheets, hg]
    exact ⟨_, rfl⟩

/-- The demo realization meets all hypotheses of C09 and C10. -/
example : Fresh Demo.heap Demo.real ∧ Demo.real.geometry = some Demo.geom ∧
    (∀ h ∈ Demo.real.halos, Demo.real.lensCosmo.sigmaCritMass (Demo.heap h).z
      (Demo.geom.angleToPhysicalArea (1 / 2 * Demo.geom.coneOpeningAngle) (Demo.heap h).z) ≠ 0) ∧
    (∀ h ∈ Demo.real.halos, (Demo.heap h).lensIDs.length = (Demo.heap h).lensParams.length) ∧
    planeMass Demo.heap Demo.real (1 / 2) = 40 + 50 ∧
    planeMass Demo.heap Demo.real (3 / 4) = 10 := by
  refine ⟨fresh_fromHalos .., rfl, fun h _ => ?_, ?_, ?_, ?_⟩
  · simp [Demo.real, Realization.fromHalos, Demo.cosmo]
  · simp [Demo.real, Realization.fromHalos, Demo.heap, Demo.mk]
  · simp [planeMass, Demo.real, Realization.fromHalos, Demo.cosmo, Demo.heap, Demo.mk,
      List.filter_cons]
    norm_num
  · simp [planeMass, Demo.real, Realization.fromHalos, Demo.cosmo, Demo.heap, Demo.mk,
      List.filter_cons]
    norm_num

/-- A rendering class whose one sheet meets the alignment hypothesis of C09. -/
noncomputable def demoClass : RClass :=
  { name := "LINE_OF_SIGHT", sheetSub := fun _ _ _ _ => ([], [], []),
    sheetLos := fun κ _ _ _ _ _ => ([[("kappa", -κ)]], ["CONVERGENCE"], [1 / 4]) }

example (a : Realization.SheetArgs) : SameLengths (sheetsOf a false demoClass).2.1
    (sheetsOf a false demoClass).2.2 (sheetsOf a false demoClass).1 ∧
    (sheetsOf a false demoClass).1.length = 1 := by
  simp [sheetsOf, demoClass, SameLengths]

end PyHalo.Props
