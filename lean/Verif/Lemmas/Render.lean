import Verif.Spec.Render

namespace PyHalo
open Spec

theorem rows_append (a b : PopOut) (ha : Aligned a) :
    rows { masses := a.masses ++ b.masses, x := a.x ++ b.x, y := a.y ++ b.y,
           r3d := a.r3d ++ b.r3d, z := a.z ++ b.z, flags := a.flags ++ b.flags }
      = rows a ++ rows b := by
  obtain ⟨h1, h2, h3, h4, h5⟩ := ha
  unfold rows
  simp only
  rw [List.zip_append (by omega), List.zip_append (by simp; omega), List.zip_append (by simp; omega),
    List.zip_append (by simp; omega), List.zip_append (by simp; omega)]

theorem aligned_append (a b : PopOut) (ha : Aligned a) (hb : Aligned b) :
    Aligned { masses := a.masses ++ b.masses, x := a.x ++ b.x, y := a.y ++ b.y,
              r3d := a.r3d ++ b.r3d, z := a.z ++ b.z, flags := a.flags ++ b.flags } := by
  obtain ⟨h1, h2, h3, h4, h5⟩ := ha
  obtain ⟨g1, g2, g3, g4, g5⟩ := hb
  unfold Aligned
  simp only [List.length_append]
  omega

theorem rows_length (o : PopOut) (h : Aligned o) : (rows o).length = o.masses.length := by
  obtain ⟨h1, h2, h3, h4, h5⟩ := h
  unfold rows
  simp only [List.length_zip]
  omega

theorem renderPositions_ok (s : Spatial) (kpc : ℝ → ℝ) (k : ℕ) (z : ℝ) (n : ℕ) (hs : DrawsN s)
    {p : List ℝ × List ℝ} (h : renderPositionsAtZ s kpc k z n = .ok p) :
    p.1.length = n ∧ p.2.length = n := by
  unfold renderPositionsAtZ at h
  cases hq : s k n z with
  | error e => rw [hq] at h; simp [bind, Except.bind] at h
  | ok q =>
    obtain ⟨h1, h2⟩ := hs k n z q hq
    rw [hq] at h
    simp only [bind, Except.bind, pure, Except.pure] at h
    split at h
    · cases h; simp [h1, h2]
    · cases h
      have : n = 0 := by omega
      simp [this]

theorem zip_replicate_right {α β : Type} (l : List α) (b : β) :
    l.zip (List.replicate l.length b) = l.map fun a => (a, b) := by
  induction l with
  | nil => rfl
  | cons a t ih => simp [List.replicate_succ, ih]

theorem List.length_mapM_ok {ε α β : Type} {f : α → Except ε β} {l : List α} {r : List β}
    (h : l.mapM f = .ok r) : r.length = l.length := by
  induction l generalizing r with
  | nil => cases h; rfl
  | cons a t ih =>
    rw [List.mapM_cons] at h
    cases ha : f a with
    | error e => rw [ha] at h; simp [bind, Except.bind] at h
    | ok b =>
      cases ht : t.mapM f with
      | error e => rw [ha, ht] at h; simp [bind, Except.bind] at h
      | ok bs =>
        rw [ha, ht] at h
        simp only [bind, Except.bind, pure, Except.pure] at h
        cases h
        simp [ih ht]

end PyHalo
