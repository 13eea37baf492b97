import Verif.Model.Numpy
import Mathlib.Data.List.Sort
import Mathlib.Tactic.Linarith

/-! Lemmas about the numpy primitives. -/

namespace PyHalo.Np

variable {α β γ : Type}

theorem gather_whereFrom (f : α → β) (p : α → Bool) (l : List α) (pre : List β) :
    gather (pre ++ l.map f) (whereFrom pre.length (l.map p)) = .ok ((l.filter p).map f) := by
  induction l generalizing pre with
  | nil => simp [whereFrom, gather]
  | cons a t ih =>
    have h := ih (pre ++ [f a])
    simp only [List.append_assoc, List.singleton_append, List.length_append, List.length_singleton] at h
    simp only [List.map_cons, whereFrom]
    by_cases hp : p a
    · simp [hp, gather, h]
    · simp [hp, h]

/-- Reading with the indexes of a mask is filtering. -/
theorem gather_whereTrue (f : α → β) (p : α → Bool) (l : List α) :
    gather (l.map f) (whereTrue (l.map p)) = .ok ((l.filter p).map f) := by
  simpa [whereTrue] using gather_whereFrom f p l []

theorem gather_whereTrue' (p : α → Bool) (l : List α) :
    gather l (whereTrue (l.map p)) = .ok (l.filter p) := by
  simpa using gather_whereTrue id p l

theorem scatter_whereFrom (f g : α → β) (p : α → Bool) (l : List α) (pre : List β) :
    scatter (pre ++ l.map f) (whereFrom pre.length (l.map p)) ((l.filter p).map g)
      = pre ++ l.map (fun a => if p a then g a else f a) := by
  induction l generalizing pre with
  | nil => simp [whereFrom, scatter]
  | cons a t ih =>
    simp only [List.map_cons, whereFrom]
    by_cases hp : p a
    · have h := ih (pre ++ [g a])
      simp only [List.append_assoc, List.singleton_append, List.length_append,
        List.length_singleton] at h
      simp [hp, scatter, h]
    · have h := ih (pre ++ [f a])
      simp only [List.append_assoc, List.singleton_append, List.length_append,
        List.length_singleton] at h
      simp [hp, h]

theorem scatter_whereTrue (f g : α → β) (p : α → Bool) (l : List α) :
    scatter (l.map f) (whereTrue (l.map p)) ((l.filter p).map g)
      = l.map (fun a => if p a then g a else f a) := by
  simpa [whereTrue] using scatter_whereFrom f g p l []

theorem le_of_mem_whereFrom {k i : ℕ} {m : List Bool} (h : i ∈ whereFrom k m) : k ≤ i := by
  induction m generalizing k with
  | nil => simp [whereFrom] at h
  | cons b t ih =>
    simp only [whereFrom] at h
    split at h
    · rcases List.mem_cons.1 h with h | h
      · omega
      · have := ih h; omega
    · have := ih h; omega

theorem mem_whereFrom {k i : ℕ} {m : List Bool} :
    i ∈ whereFrom k m ↔ k ≤ i ∧ m[i - k]? = some true := by
  induction m generalizing k with
  | nil => simp [whereFrom]
  | cons b t ih =>
    have hstep : k + 1 ≤ i → (b :: t)[i - k]? = t[i - (k + 1)]? := by
      intro h
      have : i - k = (i - (k + 1)) + 1 := by omega
      rw [this, List.getElem?_cons_succ]
    simp only [whereFrom]
    cases b
    · simp only [Bool.false_eq_true, if_false, ih]
      constructor
      · rintro ⟨h1, h2⟩; exact ⟨by omega, by rw [hstep h1]; exact h2⟩
      · rintro ⟨h1, h2⟩
        rcases Nat.eq_or_lt_of_le h1 with h | h
        · subst h; simp at h2
        · exact ⟨h, by rw [← hstep h]; exact h2⟩
    · simp only [if_true, List.mem_cons, ih]
      constructor
      · rintro (h | ⟨h1, h2⟩)
        · subst h; simp
        · exact ⟨by omega, by rw [hstep h1]; exact h2⟩
      · rintro ⟨h1, h2⟩
        rcases Nat.eq_or_lt_of_le h1 with h | h
        · left; exact h.symm
        · right; exact ⟨h, by rw [← hstep h]; exact h2⟩

theorem mem_whereTrue {i : ℕ} {m : List Bool} : i ∈ whereTrue m ↔ m[i]? = some true := by
  simp [whereTrue, mem_whereFrom]

theorem pairwise_whereFrom (k : ℕ) (m : List Bool) : (whereFrom k m).Pairwise (· < ·) := by
  induction m generalizing k with
  | nil => simp [whereFrom]
  | cons b t ih =>
    simp only [whereFrom]
    split
    · refine List.pairwise_cons.2 ⟨fun i hi => ?_, ih _⟩
      have := le_of_mem_whereFrom hi; omega
    · exact ih _

theorem pairwise_whereTrue (m : List Bool) : (whereTrue m).Pairwise (· < ·) :=
  pairwise_whereFrom 0 m

theorem eq_of_pairwise_lt_of_mem {l₁ l₂ : List ℕ} (h₁ : l₁.Pairwise (· < ·))
    (h₂ : l₂.Pairwise (· < ·)) (h : ∀ i, i ∈ l₁ ↔ i ∈ l₂) : l₁ = l₂ := by
  have hp : l₁.Perm l₂ := by
    rw [List.perm_ext_iff_of_nodup]
    · exact h
    · exact h₁.imp (fun h => Nat.ne_of_lt h)
    · exact h₂.imp (fun h => Nat.ne_of_lt h)
  exact List.Perm.eq_of_pairwise (fun a b _ _ h1 h2 => absurd h1 (by omega)) h₁ h₂ hp

/-- Intersecting the index sets of two masks gives the index set of the conjunction. -/
theorem intersect1d_whereTrue (p q : α → Bool) (l : List α) :
    intersect1d (whereTrue (l.map p)) (whereTrue (l.map q))
      = whereTrue (l.map fun a => p a && q a) := by
  apply eq_of_pairwise_lt_of_mem
  · exact (Finset.sortedLT_sort _).pairwise
  · exact pairwise_whereTrue _
  · intro i
    simp only [intersect1d, Finset.mem_sort, Finset.mem_inter, List.mem_toFinset, mem_whereTrue,
      List.getElem?_map]
    cases l[i]? <;> simp

theorem gather_rank_aux (p q : α → Bool) (l pre : List α) (ipre : List ℕ) (k : ℕ)
    (hlen : ipre.length = pre.length) (hlt : ∀ i ∈ ipre, i < k) :
    gather (pre ++ l.filter p)
      ((whereFrom k (l.map fun a => p a && q a)).map
        (searchsorted1 (ipre ++ whereFrom k (l.map p))))
      = .ok ((l.filter p).filter q) := by
  induction l generalizing pre ipre k with
  | nil => simp [whereFrom, gather]
  | cons a t ih =>
    by_cases hp : p a
    · have h := ih (pre ++ [a]) (ipre ++ [k]) (k + 1) (by simp [hlen]) (by
        intro i hi
        rcases List.mem_append.1 hi with h | h
        · have := hlt i h; omega
        · simp at h; omega)
      simp only [List.append_assoc, List.singleton_append] at h
      have hrank : searchsorted1 (ipre ++ k :: whereFrom (k + 1) (t.map p)) k = pre.length := by
        unfold searchsorted1
        rw [List.countP_append, List.countP_cons]
        have h1 : ipre.countP (· < k) = ipre.length :=
          List.countP_eq_length.2 (fun i hi => by simpa using hlt i hi)
        have h2 : (whereFrom (k + 1) (t.map p)).countP (· < k) = 0 :=
          List.countP_eq_zero.2 (fun i hi => by
            have := le_of_mem_whereFrom hi
            simp; omega)
        rw [h1, h2, hlen]; simp
      by_cases hq : q a
      · simp [hp, hq, whereFrom, gather, hrank, h]
      · simp [hp, hq, whereFrom, h]
    · have h := ih pre ipre (k + 1) hlen (fun i hi => by have := hlt i hi; omega)
      simp [hp, whereFrom, h]

/-- The per-plane pick of `Realization.filter`: positions inside a plane via `searchsorted`. -/
theorem gather_rank (p q : α → Bool) (l : List α) :
    gather (l.filter p)
      ((intersect1d (whereTrue (l.map p)) (whereTrue (l.map q))).map
        (searchsorted1 (whereTrue (l.map p))))
      = .ok (l.filter fun a => p a && q a) := by
  rw [intersect1d_whereTrue]
  have h := gather_rank_aux p q l [] [] 0 rfl (by simp)
  simp only [List.nil_append] at h
  rw [whereTrue, whereTrue, h, List.filter_filter]
  simp [Bool.and_comm]

theorem mapM_ok {f : α → Except Err β} {g : α → β} {l : List α}
    (h : ∀ a ∈ l, f a = .ok (g a)) : l.mapM f = .ok (l.map g) := by
  induction l with
  | nil => rfl
  | cons a t ih =>
    rw [List.mapM_cons, h a (by simp), ih (fun b hb => h b (by simp [hb]))]
    rfl

theorem mem_unique {a : ℝ} {l : List ℝ} : a ∈ unique l ↔ a ∈ l := by
  simp [unique]

theorem pairwise_unique (l : List ℝ) : (unique l).Pairwise (· < ·) :=
  (Finset.sortedLT_sort _).pairwise

theorem sum_eq (l : List ℝ) : Np.sum l = l.sum := by
  unfold Np.sum
  rw [List.sum_eq_foldl]

end PyHalo.Np
