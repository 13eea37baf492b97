import Verif.Spec.Realization
import Verif.Lemmas.Numpy
import Mathlib.Tactic.Ring
import Mathlib.Tactic.FieldSimp
import Mathlib.Tactic.Positivity

/-! Helper lemmas for the realization model. -/

namespace PyHalo
open Spec

/-- Accumulating with `append` is filtering. -/
theorem foldl_append_filter {α : Type} (p : α → Bool) (l acc : List α) :
    l.foldl (fun acc h => if p h then acc ++ [h] else acc) acc = acc ++ l.filter p := by
  induction l generalizing acc with
  | nil => simp
  | cons a t ih =>
    simp only [List.foldl_cons, ih]
    by_cases h : p a <;> simp [h]

theorem foldl_count {α : Type} (p : α → Prop) [DecidablePred p] (l : List α) (n : ℕ) :
    l.foldl (fun n h => if p h then n + 1 else n) n = n + l.countP (fun h => decide (p h)) := by
  induction l generalizing n with
  | nil => simp
  | cons a t ih =>
    simp only [List.foldl_cons, ih, List.countP_cons]
    by_cases h : p a <;> simp [h]; omega

theorem fresh_fromHalos (σ : Heap) (halos lc kw msc rcs cx cy g) :
    Fresh σ (Realization.fromHalos σ halos lc kw msc rcs cx cy g) where
  masses := rfl
  xs := rfl
  ys := rfl
  redshifts := rfl
  flags := rfl
  zsIncreasing := Np.pairwise_unique _
  zsMem := by
    intro z
    simp [Realization.fromHalos, Np.mem_unique]

theorem fresh_rebuild (σ : Heap) (r : Realization) (halos) :
    Fresh σ (r.rebuild σ halos) := fresh_fromHalos ..

@[simp] theorem rebuild_halos (σ : Heap) (r : Realization) (halos) :
    (r.rebuild σ halos).halos = halos := rfl

@[simp] theorem rebuild_shifted (σ : Heap) (r : Realization) (halos) :
    (r.rebuild σ halos).hasBeenShifted = false := rfl

theorem sameContext_rebuild (σ : Heap) (r : Realization) (halos) :
    SameContext r (r.rebuild σ halos) := ⟨rfl, rfl, rfl, rfl, rfl, rfl, rfl⟩

theorem halosAtZFrom_fst (σ : Heap) (z : ℝ) (i : ℕ) (l : List Oid) :
    (Realization.halosAtZFrom σ z i l).1 = l.filter fun h => decide ((σ h).z = z) := by
  induction l generalizing i with
  | nil => rfl
  | cons a t ih =>
    simp only [Realization.halosAtZFrom]
    by_cases h : (σ a).z = z <;> simp [h, ih]

theorem halosAtZFrom_snd (σ : Heap) (z : ℝ) (i : ℕ) (l : List Oid) :
    (Realization.halosAtZFrom σ z i l).2
      = Np.whereFrom i (l.map fun h => decide ((σ h).z = z)) := by
  induction l generalizing i with
  | nil => rfl
  | cons a t ih =>
    simp only [Realization.halosAtZFrom, List.map_cons, Np.whereFrom]
    by_cases h : (σ a).z = z <;> simp [h, ih]

theorem halosAtZ_fst (σ : Heap) (r : Realization) (z : ℝ) :
    (r.halosAtZ σ z).1 = r.halos.filter fun h => decide ((σ h).z = z) := halosAtZFrom_fst ..

theorem halosAtZ_snd (σ : Heap) (r : Realization) (z : ℝ) :
    (r.halosAtZ σ z).2 = Np.whereTrue (r.halos.map fun h => decide ((σ h).z = z)) :=
  halosAtZFrom_snd ..

/-- Grouping a list by the values of a key that are listed without repetition is a permutation. -/
theorem flatMap_filter_perm {α κ : Type} [DecidableEq κ] (key : α → κ) (ks : List κ)
    (hk : ks.Nodup) (l : List α) (hl : ∀ a ∈ l, key a ∈ ks) :
    (ks.flatMap fun k => l.filter fun a => decide (key a = k)).Perm l := by
  induction ks generalizing l with
  | nil =>
    cases l with
    | nil => simp
    | cons a t => exact absurd (hl a (by simp)) (by simp)
  | cons k ks ih =>
    have hk' := List.nodup_cons.1 hk
    have hrest := ih hk'.2 (l.filter fun a => !decide (key a = k)) (by
      intro a ha
      have ha' := List.mem_filter.1 ha
      rcases List.mem_cons.1 (hl a ha'.1) with h | h
      · simp [h] at ha'
      · exact h)
    have heq : (ks.flatMap fun k' => l.filter fun a => decide (key a = k'))
        = ks.flatMap fun k' =>
          (l.filter fun a => !decide (key a = k)).filter fun a => decide (key a = k') := by
      apply List.flatMap_congr
      intro k' hk''
      rw [List.filter_filter]
      apply List.filter_congr
      intro a _
      by_cases h : key a = k'
      · have : k' ≠ k := fun e => hk'.1 (e ▸ hk'')
        simp [h, this]
      · simp [h]
    rw [List.flatMap_cons, heq]
    exact ((List.Perm.refl _).append hrest).trans (List.filter_append_perm _ l)

/-- Two lists ordered by a key and with the same sub-list for every key are equal. -/
theorem eq_of_sorted_groups {α : Type} (key : α → ℝ) (l₁ l₂ : List α)
    (h₁ : l₁.Pairwise fun a b => key a ≤ key b) (h₂ : l₂.Pairwise fun a b => key a ≤ key b)
    (h : ∀ k, (l₁.filter fun a => decide (key a = k)) = l₂.filter fun a => decide (key a = k)) :
    l₁ = l₂ := by
  induction l₁ generalizing l₂ with
  | nil =>
    cases l₂ with
    | nil => rfl
    | cons b s => have := h (key b); simp at this
  | cons a t ih =>
    cases l₂ with
    | nil => have := h (key a); simp at this
    | cons b s =>
      have hab : key a = key b := by
        have h1 : key b ≤ key a := by
          have hm : a ∈ (b :: s).filter fun c => decide (key c = key a) := by
            rw [← h (key a)]; simp
          rcases List.mem_cons.1 (List.mem_filter.1 hm).1 with e | e
          · rw [e]
          · exact (List.pairwise_cons.1 h₂).1 a e
        have h2 : key a ≤ key b := by
          have hm : b ∈ (a :: t).filter fun c => decide (key c = key b) := by
            rw [h (key b)]; simp
          rcases List.mem_cons.1 (List.mem_filter.1 hm).1 with e | e
          · rw [e]
          · exact (List.pairwise_cons.1 h₁).1 b e
        linarith
      have hhead := h (key a)
      simp [hab] at hhead
      obtain ⟨rfl, htail⟩ := hhead
      congr 1
      apply ih _ (List.pairwise_cons.1 h₁).2 (List.pairwise_cons.1 h₂).2
      intro k
      have hk := h k
      by_cases e : key a = k
      · simpa [e] using hk
      · simpa [e] using hk

/-- Grouping by ascending keys yields a list ordered by key. -/
theorem pairwise_flatMap_filter {α : Type} (key : α → ℝ) (ks : List ℝ)
    (hk : ks.Pairwise (· < ·)) (l : List α) :
    (ks.flatMap fun k => l.filter fun a => decide (key a = k)).Pairwise
      fun a b => key a ≤ key b := by
  induction ks with
  | nil => simp
  | cons k ks ih =>
    rw [List.flatMap_cons, List.pairwise_append]
    refine ⟨?_, ih (List.pairwise_cons.1 hk).2, ?_⟩
    · apply List.Pairwise.imp_of_mem (R := fun _ _ => True)
      · intro a b ha hb _
        have h1 := (List.mem_filter.1 ha).2
        have h2 := (List.mem_filter.1 hb).2
        simp at h1 h2
        rw [h1, h2]
      · exact List.pairwise_of_forall (fun _ _ => trivial)
    · intro a ha b hb
      have h1 := (List.mem_filter.1 ha).2
      simp at h1
      obtain ⟨k', hk', hb'⟩ := List.mem_flatMap.1 hb
      have h2 := (List.mem_filter.1 hb').2
      simp at h2
      rw [h1, h2]
      exact le_of_lt ((List.pairwise_cons.1 hk).1 k' hk')

/-- The group of one key inside the grouped list. -/
theorem filter_flatMap_filter {α : Type} (key : α → ℝ) (ks : List ℝ)
    (hk : ks.Pairwise (· < ·)) (l : List α) (hl : ∀ a ∈ l, key a ∈ ks) (k : ℝ) :
    (ks.flatMap fun k => l.filter fun a => decide (key a = k)).filter (fun a => decide (key a = k))
      = l.filter fun a => decide (key a = k) := by
  have aux : ∀ ks : List ℝ, ks.Pairwise (· < ·) →
      (ks.flatMap fun k => l.filter fun a => decide (key a = k)).filter
        (fun a => decide (key a = k))
      = if k ∈ ks then l.filter (fun a => decide (key a = k)) else [] := by
    intro ks hk
    induction ks with
    | nil => simp
    | cons k' ks ih =>
      have hk' := List.pairwise_cons.1 hk
      rw [List.flatMap_cons, List.filter_append, ih hk'.2, List.filter_filter]
      by_cases e : k = k'
      · subst e
        have hn : k ∉ ks := fun hm => lt_irrefl _ (hk'.1 k hm)
        simp [hn]
      · have hempty : l.filter (fun a => decide (key a = k) && decide (key a = k')) = [] := by
          rw [List.filter_eq_nil_iff]
          intro a _ h
          simp at h
          exact e (h.1.symm.trans h.2)
        simp [hempty, e]
  rw [aux ks hk]
  by_cases h : k ∈ ks
  · simp [h]
  · rw [if_neg h, eq_comm, List.filter_eq_nil_iff]
    intro a ha e
    simp at e
    exact h (e ▸ hl a ha)

end PyHalo
