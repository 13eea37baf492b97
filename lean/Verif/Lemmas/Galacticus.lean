import Verif.Spec.Galacticus
import Verif.Lemmas.TransferTable
import Mathlib.Tactic.FieldSimp
import Mathlib.Tactic.Linarith

/-!
# Lemmas about Galacticus nodes
-/

namespace PyHalo
namespace Galacticus
open scoped Classical
open PyHalo.Spec.Galacticus

variable {α β γ : Type}

/-! ## The loop over trees -/

theorem setSlice_length (a : List α) (s t : ℕ) (v : α) : (setSlice a s t v).length = a.length := by
  simp [setSlice]

theorem setSlice_get (a : List α) (s t : ℕ) (v : α) (i : ℕ) (hi : i < a.length) :
    (setSlice a s t v)[i]? = if s ≤ i ∧ i < t then some v else a[i]? := by
  simp only [setSlice, List.getElem?_mapIdx, List.getElem?_eq_getElem hi, Option.map_some]
  split <;> rfl

theorem customLoop_spec (ti : List ℝ) : ∀ (rest : List ℕ) (n prev : ℕ) (idx ord idx' ord' : List ℝ),
    idx.length = ord.length → customLoop ti (n + 1) prev rest (idx, ord) = .ok (idx', ord') →
    idx'.length = idx.length ∧ ord'.length = ord.length ∧
    ∀ i < idx.length,
      (∀ m, LastStart (prev :: rest) i m → idx'[i]? = ti[n + m]? ∧ ord'[i]? = some ((n + m : ℕ) : ℝ)) ∧
      ((∀ s ∈ prev :: rest, i < s) → idx'[i]? = idx[i]? ∧ ord'[i]? = ord[i]?)
  | [], n, prev, idx, ord, idx', ord', hl, h => by
    simp only [customLoop, Nat.add_sub_cancel] at h
    split at h
    · rename_i t ht
      simp only [Except.ok.injEq, Prod.mk.injEq] at h
      obtain ⟨h1, h2⟩ := h
      subst h1 h2
      refine ⟨setSlice_length .., setSlice_length .., fun i hi => ⟨?_, ?_⟩⟩
      · rintro m ⟨⟨s, hs, hsi⟩, -⟩
        have hm : m = 0 := by
          have := (List.getElem?_eq_some_iff.mp hs).1
          simp at this; omega
        subst hm
        simp at hs
        subst hs
        rw [setSlice_get _ _ _ _ _ hi, setSlice_get _ _ _ _ _ (hl ▸ hi), if_pos ⟨hsi, hi⟩, if_pos ⟨hsi, hl ▸ hi⟩]
        simp [ht]
      · intro hs
        have : ¬ prev ≤ i := by have := hs prev (by simp); omega
        rw [setSlice_get _ _ _ _ _ hi, setSlice_get _ _ _ _ _ (hl ▸ hi)]
        simp [this]
    · cases h
  | stop :: rest, n, prev, idx, ord, idx', ord', hl, h => by
    simp only [customLoop, Nat.add_sub_cancel] at h
    split at h
    · rename_i t ht
      have ih := customLoop_spec ti rest (n + 1) stop _ _ idx' ord' (by simp [setSlice_length, hl]) h
      simp only [setSlice_length] at ih
      obtain ⟨l1, l2, ih⟩ := ih
      refine ⟨l1, l2, fun i hi => ?_⟩
      obtain ⟨a, b⟩ := ih i hi
      refine ⟨?_, ?_⟩
      · rintro m ⟨⟨s, hs, hsi⟩, hlast⟩
        cases m with
        | zero =>
          simp at hs
          subst hs
          have hall : ∀ s ∈ stop :: rest, i < s := by
            intro s hs
            obtain ⟨k, hk⟩ := List.mem_iff_getElem?.mp hs
            exact hlast (k + 1) s (by omega) (by simpa using hk)
          obtain ⟨b1, b2⟩ := b hall
          have hst := hall stop (by simp)
          rw [b1, b2, setSlice_get _ _ _ _ _ hi, setSlice_get _ _ _ _ _ (hl ▸ hi), if_pos ⟨hsi, hst⟩,
            if_pos ⟨hsi, hst⟩]
          simp [ht]
        | succ m =>
          have := a m ⟨⟨s, by simpa using hs, hsi⟩, fun k s' hk hs' => hlast (k + 1) s' (by omega) (by simpa using hs')⟩
          rw [show n + (m + 1) = n + 1 + m by omega]
          exact this
      · intro hs
        obtain ⟨b1, b2⟩ := b fun s h' => hs s (List.mem_cons_of_mem _ h')
        have : ¬ prev ≤ i := by have := hs prev (by simp); omega
        rw [b1, b2, setSlice_get _ _ _ _ _ hi, setSlice_get _ _ _ _ _ (hl ▸ hi)]
        simp [this]
    · cases h

theorem customLoop_total (ti : List ℝ) : ∀ (rest : List ℕ) (n prev : ℕ) (st : List ℝ × List ℝ),
    n + rest.length < ti.length → ∃ r, customLoop ti (n + 1) prev rest st = .ok r
  | [], n, prev, st, h => by
    simp only [List.length_nil, Nat.add_zero] at h
    simp [customLoop, List.getElem?_eq_getElem h]
  | stop :: rest, n, prev, st, h => by
    simp only [List.length_cons] at h
    simp only [customLoop, Nat.add_sub_cancel, List.getElem?_eq_getElem (show n < ti.length by omega)]
    exact customLoop_total ti rest (n + 1) stop _ (by omega)

theorem customLoop_short (ti : List ℝ) : ∀ (rest : List ℕ) (n prev : ℕ) (st : List ℝ × List ℝ),
    ti.length ≤ n + rest.length → customLoop ti (n + 1) prev rest st = .error .indexError
  | [], n, prev, st, h => by
    simp only [List.length_nil, Nat.add_zero] at h
    simp [customLoop, h]
  | stop :: rest, n, prev, st, h => by
    simp only [List.length_cons] at h
    simp only [customLoop, Nat.add_sub_cancel]
    split
    · exact customLoop_short ti rest (n + 1) stop _ (by omega)
    · rfl

/-! ## Columns as functions -/

theorem zip2_map (f : α → β → γ) {δ : Type} (l : List δ) (a : δ → α) (b : δ → β) :
    zip2 f (l.map a) (l.map b) = .ok (l.map fun i => f (a i) (b i)) := by
  simp [zip2, List.zipWith_map]

theorem maskList_map {δ : Type} (l : List δ) (m : δ → Bool) (a : δ → α) :
    maskList (l.map m) (l.map a) = .ok ((l.filter m).map a) := by
  have : ∀ l : List δ, (((l.map a).zip (l.map m)).filter (·.2)).map (·.1) = (l.filter m).map a := by
    intro l
    induction l with
    | nil => rfl
    | cons x l ih =>
      rw [List.filter_cons, List.map_cons, List.map_cons, List.zip_cons_cons, List.filter_cons]
      cases m x <;> simp [ih]
  simp [maskList, this]

theorem gather_map {δ : Type} (a : List α) (l : List δ) (o : δ → ℕ) (g : δ → α)
    (h : ∀ x ∈ l, a[o x]? = some (g x)) : Np.gather a (l.map o) = .ok (l.map g) := by
  induction l with
  | nil => rfl
  | cons x l ih =>
    simp only [List.map_cons, Np.gather, h x (by simp), ih fun y hy => h y (by simp [hy])]

theorem mapM_range {f : ℕ → Except Err β} {g : α → β} : ∀ {l : List α} (k : ℕ),
    (∀ n x, l[n]? = some x → f (k + n) = .ok (g x)) → ((List.range l.length).map (k + ·)).mapM f = .ok (l.map g)
  | [], _, _ => rfl
  | x :: l, k, h => by
    have h0 := h 0 x (by simp)
    have ih := mapM_range (l := l) (k + 1) fun n y hy => by
      rw [show k + 1 + n = k + (n + 1) by omega]
      exact h (n + 1) y (by simpa using hy)
    rw [List.length_cons, List.range_succ_eq_map, List.map_cons, List.mapM_cons, h0, List.map_map,
      show (fun x => k + x) ∘ Nat.succ = fun x => k + 1 + x from funext fun n => by simp; omega, ih]
    rfl

/-- A list of numbers is the table of its entries. -/
theorem eq_map_range (c : List ℝ) (N : ℕ) (h : c.length = N) : c = (List.range N).map fun i => c.getD i 0 := by
  apply List.ext_getElem
  · simp [h]
  · intro i h1 h2
    simp [List.getElem?_eq_getElem h1]

theorem applyFilter_ok {d : Data} {N : ℕ} (m : ℕ → Bool) (h : ∀ kc ∈ d, kc.2.length = N) :
    applyFilter d ((List.range N).map m) =
      .ok (d.map fun kc => (kc.1, ((List.range N).filter m).map fun i => kc.2.getD i 0)) := by
  refine Transfer.mapM_ok fun kc hkc => ?_
  have : maskList ((List.range N).map m) kc.2 = .ok (((List.range N).filter m).map fun i => kc.2.getD i 0) := by
    conv_lhs => rw [eq_map_range kc.2 N (h kc hkc)]
    exact maskList_map ..
  simp [this, Except.map]

theorem lookup_map_snd (d : Data) (g : List ℝ → List ℝ) (k : String) :
    (d.map fun kc => (kc.1, g kc.2)).lookup k = (d.lookup k).map g := by
  induction d with
  | nil => rfl
  | cons kc d ih =>
    obtain ⟨k', c⟩ := kc
    simp only [List.map_cons, List.lookup_cons]
    cases h : k == k' <;> simp [ih]

theorem col_filtered {d : Data} {keys : List String} {N : ℕ} {v : String → ℕ → ℝ} (h : IsTable d keys N v) (m : ℕ → Bool)
    {k : String} (hk : k ∈ keys) :
    col (d.map fun kc => (kc.1, ((List.range N).filter m).map fun i => kc.2.getD i 0)) k =
      .ok (((List.range N).filter m).map (v k)) := by
  rw [col, lookup_map_snd d (fun c => ((List.range N).filter m).map fun i => c.getD i 0), h.val k hk]
  simp only [Option.map_some, Except.ok.injEq, List.map_inj_left]
  intro i hi
  have : i < N := by have := List.mem_of_mem_filter hi; simpa using this
  simp [this]

theorem col_ok {d : Data} {keys : List String} {N : ℕ} {v : String → ℕ → ℝ} (h : IsTable d keys N v) {k : String}
    (hk : k ∈ keys) : col d k = .ok ((List.range N).map (v k)) := by
  rw [col, h.val k hk]

theorem coords_ok {d : Data} {keys : List String} {N : ℕ} {v : String → ℕ → ℝ} (h : IsTable d keys N v) (u : Util)
    (hx : u.x ∈ keys) (hy : u.y ∈ keys) (hz : u.z ∈ keys) :
    coords d u = .ok ((List.range N).map (pos u v)) := by
  rw [coords, col_ok h hx, col_ok h hy, col_ok h hz]
  show (zip2 _ _ _ >>= fun yz => zip2 _ _ yz) = _
  rw [zip2_map]
  show zip2 _ _ _ = _
  rw [zip2_map]
  rfl

theorem filterHalos_ok {d : Data} {keys : List String} {N : ℕ} {v : String → ℕ → ℝ} (h : IsTable d keys N v) (u : Util)
    (hk : Util.default.isolated ∈ keys) :
    filterHalos d u = .ok ((List.range N).map fun i => decide (v Util.default.isolated i ≠ 0)) := by
  simp [filterHalos, filterSubhalos, col_ok h hk, Except.map]

/-! ## Hosts -/

theorem hosts_eq {u : Util} {v : String → ℕ → ℝ} {N T : ℕ} {tree host : ℕ → ℕ} (h : OneHost u v N T tree host) :
    (List.range N).filter (fun i => decide (v u.isolated i ≠ 0)) = (List.range T).map host := by
  have hmono : ∀ s t, s < t → t < T → host s < host t := by
    intro s t hst ht
    by_contra hc
    have := h.ordered (host t) (host s) (by omega) (h.one s (by omega)).1
    rw [(h.one t ht).2.1, (h.one s (by omega)).2.1] at this
    omega
  have s1 : ((List.range N).filter (fun i => decide (v u.isolated i ≠ 0))).Pairwise (· < ·) :=
    List.Pairwise.filter _ List.pairwise_lt_range
  have s2 : ((List.range T).map host).Pairwise (· < ·) := by
    rw [List.pairwise_map]
    refine List.Pairwise.imp_of_mem ?_ List.pairwise_lt_range
    intro a b _ hb hab
    exact hmono a b hab (by simpa using hb)
  refine List.Perm.eq_of_pairwise (le := (· < ·)) (fun a b _ _ h1 h2 => absurd h1 (by omega)) s1 s2 ?_
  rw [List.perm_ext_iff_of_nodup (s1.imp fun h => by omega) (s2.imp fun h => by omega)]
  intro i
  simp only [List.mem_filter, List.mem_range, decide_eq_true_eq, List.mem_map]
  constructor
  · rintro ⟨hi, hv⟩
    exact ⟨tree i, (h.num i hi).2, (h.only i hi hv).symm⟩
  · rintro ⟨t, ht, rfl⟩
    exact ⟨(h.one t ht).1, (h.one t ht).2.2⟩

theorem filterVirialized_ok {d : Data} {keys : List String} {N : ℕ} {v : String → ℕ → ℝ} (h : IsTable d keys N v)
    {u : Util} {T : ℕ} {tree host : ℕ → ℕ} (ho : OneHost u v N T tree host) (hu : u.isolated = Util.default.isolated)
    (hk : u.x ∈ keys ∧ u.y ∈ keys ∧ u.z ∈ keys ∧ u.isolated ∈ keys ∧ u.rVirial ∈ keys ∧ u.treeOrder ∈ keys) :
    filterVirialized d u = .ok ((List.range N).map fun i =>
      decide (norm3 (pos u v i) < v u.rVirial (host (tree i)))) := by
  obtain ⟨hx, hy, hz, hi, hr, hord⟩ := hk
  rw [filterVirialized, coords_ok h u hx hy hz]
  show (filterHalos d u >>= _) = _
  rw [filterHalos_ok h u (hu ▸ hi), col_ok h hr, col_ok h hord]
  show (maskList _ _ >>= _) = _
  rw [maskList_map, ← hu, hosts_eq ho]
  show (Np.gather _ _ >>= _) = _
  rw [List.map_map, List.map_map, gather_map (g := fun i => v u.rVirial (host (tree i)))]
  · show zip2 _ _ _ = _
    rw [zip2_map]
  · intro i hi
    have hi' : i < N := by simpa using hi
    simp [(ho.num i hi').1, (ho.num i hi').2]

/-! ## Geometry -/

theorem norm3_eq (r : ℝ × ℝ × ℝ) : norm3 r = Real.sqrt (normSq r) := rfl

theorem plane_sq (theta phi : ℝ) (r : ℝ × ℝ × ℝ) :
    dot3 (planeX theta phi) r ^ 2 + dot3 (planeY phi) r ^ 2 = normSq (cross r (direction theta phi)) := by
  obtain ⟨x, y, z⟩ := r
  have h1 := Real.sin_sq_add_cos_sq theta
  have h2 := Real.sin_sq_add_cos_sq phi
  simp only [dot3, planeX, planeY, normSq, cross, direction]
  generalize Real.sin theta = s at *
  generalize Real.cos theta = c at *
  generalize Real.sin phi = s' at *
  generalize Real.cos phi = c' at *
  have e1 : c ^ 2 = 1 - s ^ 2 := by linarith
  have e2 : c' ^ 2 = 1 - s' ^ 2 := by linarith
  grind

end Galacticus
end PyHalo
