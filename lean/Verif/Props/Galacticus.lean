import Verif.Lemmas.Galacticus
import Mathlib.Tactic.NormNum
import Mathlib.Tactic.Positivity

/-!
# C41, C42, C77, C78: nodes of Galacticus
-/

namespace PyHalo
namespace Props
open scoped Classical
open PyHalo.Galacticus PyHalo.Spec.Galacticus

/-! ## C41: the tree of a node -/

/-- C41. Whatever the start indexes (not even sorted): the reader labels node `i` with the index and the number of the
last tree that starts at `i` or before; nodes before all trees keep the label 0. Each column has one entry per node. -/
theorem c41_label {u : Util} {treeIndex : List ℝ} {starts : List ℕ} {total : ℕ} {d : Data}
    (h : readCustom u treeIndex starts total = .ok d) :
    ∃ idx ord ids : List ℝ, d = [(u.treeIndex, idx), (u.treeOrder, ord), (u.nodeId, ids)] ∧
      idx.length = total ∧ ord.length = total ∧ ids.length = total ∧
      ∀ i < total, ids[i]? = some (i : ℝ) ∧
        (∀ n, LastStart starts i n → idx[i]? = treeIndex[n]? ∧ ord[i]? = some (n : ℝ)) ∧
        ((∀ s ∈ starts, i < s) → idx[i]? = some 0 ∧ ord[i]? = some 0) := by
  match starts, h with
  | [], h => cases h
  | [_], h => cases h
  | s :: s' :: rest, h =>
    simp only [readCustom] at h
    cases hl : customLoop treeIndex 1 s (s' :: rest) (List.replicate total 0, List.replicate total 0) with
    | error e => rw [hl] at h; cases h
    | ok r =>
      obtain ⟨idx, ord⟩ := r
      rw [hl] at h
      obtain ⟨l1, l2, hi⟩ := customLoop_spec treeIndex (s' :: rest) 0 s _ _ idx ord (by simp) hl
      simp only [List.length_replicate, Nat.zero_add] at l1 l2 hi
      refine ⟨idx, ord, (List.range total).map fun i : ℕ => (i : ℝ), (Except.ok.inj h).symm, l1, l2, by simp,
        fun i hlt => ⟨by simp [hlt], fun n hn => (hi i hlt).1 n hn, fun hs => ?_⟩⟩
      have := (hi i hlt).2 hs
      simpa [hlt] using this

/-- C41. Files with two or more trees can be read if there is an index for each; too few indexes are an error. -/
theorem c41_readable (u : Util) (treeIndex : List ℝ) (starts : List ℕ) (total : ℕ) (h2 : 2 ≤ starts.length) :
    (starts.length ≤ treeIndex.length → ∃ d, readCustom u treeIndex starts total = .ok d) ∧
    (treeIndex.length < starts.length → readCustom u treeIndex starts total = .error .indexError) := by
  match starts, h2 with
  | s :: s' :: rest, _ =>
    simp only [List.length_cons, readCustom]
    constructor
    · intro h
      obtain ⟨r, hr⟩ := customLoop_total treeIndex (s' :: rest) 0 s
        (List.replicate total 0, List.replicate total 0) (by simp; omega)
      rw [hr]
      exact ⟨_, rfl⟩
    · intro h
      have := customLoop_short treeIndex (s' :: rest) 0 s
        (List.replicate total 0, List.replicate total 0) (by simp; omega)
      rw [this]
      rfl

/-- C41. If tree `n` has `counts[n]` nodes stored one after the other, node number `k` of tree `n` is labelled with the
index and the number of that tree; empty trees may be among them. -/
theorem c41_counts {u : Util} {treeIndex : List ℝ} {counts : List ℕ} {d : Data}
    (h : readCustom u treeIndex ((List.range counts.length).map fun n => (counts.take n).sum) counts.sum = .ok d) :
    ∃ idx ord ids : List ℝ, d = [(u.treeIndex, idx), (u.treeOrder, ord), (u.nodeId, ids)] ∧
      ∀ n k c, counts[n]? = some c → k < c →
        idx[(counts.take n).sum + k]? = treeIndex[n]? ∧ ord[(counts.take n).sum + k]? = some (n : ℝ) := by
  obtain ⟨idx, ord, ids, hd, -, -, -, hi⟩ := c41_label h
  refine ⟨idx, ord, ids, hd, fun n k c hc hk => ?_⟩
  obtain ⟨hn, hcv⟩ := List.getElem?_eq_some_iff.mp hc
  have hnext : (counts.take (n + 1)).sum = (counts.take n).sum + c := by
    rw [List.take_add_one, hc]; simp
  have hmono : ∀ a b, a ≤ b → (counts.take a).sum ≤ (counts.take b).sum := by
    intro a b hab
    obtain ⟨e, rfl⟩ := Nat.exists_eq_add_of_le hab
    rw [List.take_add, List.sum_append]
    omega
  refine (hi _ ?_).2.1 n ⟨⟨(counts.take n).sum, by simp [hn], by omega⟩, ?_⟩
  · have := hmono (n + 1) counts.length (by omega)
    rw [List.take_length] at this
    omega
  · intro m s hm hs
    obtain ⟨hm', rfl⟩ : m < counts.length ∧ (counts.take m).sum = s := by
      simpa [List.getElem?_eq_some_iff] using hs
    have := hmono (n + 1) m (by omega)
    omega

/-- C41. A file with one tree (or none) cannot be read: the last stop index is not bound. -/
theorem c41_one_tree (u : Util) (treeIndex : List ℝ) (starts : List ℕ) (total : ℕ) (h : starts.length ≤ 1) :
    readCustom u treeIndex starts total = .error (.nameError "stop") := by
  match starts, h with
  | [], _ => rfl
  | [_], _ => rfl

example := c41_one_tree Util.default [7] [0] 5 (by simp)

/-- Three trees with 2, 0 and 3 nodes and the indexes 1, 2, 3. -/
example : ∃ d, readCustom Util.default [1, 2, 3] ((List.range 3).map fun n => ([2, 0, 3].take n).sum) [2, 0, 3].sum
    = .ok d := (c41_readable _ _ _ _ (by simp)).1 (by simp)

example : LastStart [0, 2, 2] 3 2 :=
  ⟨⟨2, by simp, by omega⟩, fun m s hm hs => by
    have := (List.getElem?_eq_some_iff.mp hs).1
    simp at this; omega⟩

/-! ## C42: projected radii -/

theorem projectR2d_sq {r n : ℝ × ℝ × ℝ} (hn : n ≠ 0) :
    norm3 r ^ 2 - dot3 (n.1 / norm3 n, n.2.1 / norm3 n, n.2.2 / norm3 n) r ^ 2
      = normSq (cross r n) / normSq n := by
  obtain ⟨x, y, z⟩ := r
  obtain ⟨a, b, c⟩ := n
  have hp : 0 < a ^ 2 + b ^ 2 + c ^ 2 := by
    by_contra hc
    have h1 : a ^ 2 = 0 := by nlinarith [sq_nonneg a, sq_nonneg b, sq_nonneg c]
    have h2 : b ^ 2 = 0 := by nlinarith [sq_nonneg a, sq_nonneg b, sq_nonneg c]
    have h3 : c ^ 2 = 0 := by nlinarith [sq_nonneg a, sq_nonneg b, sq_nonneg c]
    apply hn
    simp only [pow_eq_zero_iff, ne_eq, OfNat.ofNat_ne_zero, not_false_eq_true] at h1 h2 h3
    simp [h1, h2, h3]
  simp only [norm3, dot3, normSq, cross]
  have hs : Real.sqrt (a ^ 2 + b ^ 2 + c ^ 2) ^ 2 = a ^ 2 + b ^ 2 + c ^ 2 := Real.sq_sqrt hp.le
  have hs0 : Real.sqrt (a ^ 2 + b ^ 2 + c ^ 2) ≠ 0 := (Real.sqrt_pos.mpr hp).ne'
  rw [Real.sq_sqrt (by positivity)]
  have e : (a / √(a ^ 2 + b ^ 2 + c ^ 2) * x + b / √(a ^ 2 + b ^ 2 + c ^ 2) * y + c / √(a ^ 2 + b ^ 2 + c ^ 2) * z) ^ 2
      = (a * x + b * y + c * z) ^ 2 / √(a ^ 2 + b ^ 2 + c ^ 2) ^ 2 := by
    generalize √(a ^ 2 + b ^ 2 + c ^ 2) = w at *
    field_simp
  rw [hs] at e
  rw [e]
  field_simp
  ring

/-- C42. The projected radius is the distance from the line through the origin along the normal (`|r × n| / |n|`), and
the number under the root is not negative. -/
theorem c42_distance {r n : ℝ × ℝ × ℝ} (hn : n ≠ 0) :
    0 ≤ norm3 r ^ 2 - dot3 (n.1 / norm3 n, n.2.1 / norm3 n, n.2.2 / norm3 n) r ^ 2 ∧
    projectR2d r n = Real.sqrt (normSq (cross r n)) / Real.sqrt (normSq n) := by
  rw [projectR2d, projectR2d_sq hn]
  have h1 : 0 ≤ normSq (cross r n) := by unfold normSq; positivity
  have h2 : 0 ≤ normSq n := by unfold normSq; positivity
  exact ⟨by positivity, Real.sqrt_div h1 _⟩

/-- C42. It lies between 0 and the radius, and with the component along the normal it satisfies Pythagoras. -/
theorem c42_pythagoras {r n : ℝ × ℝ × ℝ} (hn : n ≠ 0) :
    0 ≤ projectR2d r n ∧ projectR2d r n ≤ Real.sqrt (normSq r) ∧
    projectR2d r n ^ 2 + ((r.1 * n.1 + r.2.1 * n.2.1 + r.2.2 * n.2.2) / Real.sqrt (normSq n)) ^ 2 = normSq r := by
  have h0 := (c42_distance (r := r) hn).1
  have hr : norm3 r ^ 2 = normSq r := Real.sq_sqrt (by positivity)
  refine ⟨Real.sqrt_nonneg _, ?_, ?_⟩
  · apply Real.sqrt_le_sqrt
    rw [← hr]
    linarith [sq_nonneg (dot3 (n.1 / norm3 n, n.2.1 / norm3 n, n.2.2 / norm3 n) r)]
  · have e : (r.1 * n.1 + r.2.1 * n.2.1 + r.2.2 * n.2.2) / Real.sqrt (normSq n)
        = dot3 (n.1 / norm3 n, n.2.1 / norm3 n, n.2.2 / norm3 n) r := by
      simp only [dot3, norm3_eq]; ring
    rw [e, projectR2d, Real.sq_sqrt h0, hr]
    ring

example := c42_pythagoras (r := (1, 2, 3)) (n := (0, 0, 2)) (by simp)

/-- C42. The length and the sign of the normal do not matter. -/
theorem c42_scale {r n : ℝ × ℝ × ℝ} (hn : n ≠ 0) {k : ℝ} (hk : k ≠ 0) :
    projectR2d r (k * n.1, k * n.2.1, k * n.2.2) = projectR2d r n := by
  have hn' : (k * n.1, k * n.2.1, k * n.2.2) ≠ (0 : ℝ × ℝ × ℝ) := by
    intro h
    apply hn
    obtain ⟨a, b, c⟩ := n
    simp only [Prod.mk_eq_zero, mul_eq_zero, hk, false_or] at h
    simp [h]
  rw [projectR2d, projectR2d, projectR2d_sq hn, projectR2d_sq hn']
  congr 1
  have e1 : normSq (k * n.1, k * n.2.1, k * n.2.2) = k ^ 2 * normSq n := by simp only [normSq]; ring
  have e2 : normSq (cross r (k * n.1, k * n.2.1, k * n.2.2)) = k ^ 2 * normSq (cross r n) := by
    simp only [normSq, cross]; ring
  rw [e1, e2, mul_div_mul_left _ _ (by positivity)]

example := c42_scale (r := (1, 2, 3)) (n := (0, 0, 2)) (by simp) (k := 3) (by norm_num)

/-- C42. The filter keeps the nodes whose distance from the line of sight is below the limit, one verdict per node. -/
theorem c42_filter {d : Data} {keys : List String} {N : ℕ} {v : String → ℕ → ℝ} (h : IsTable d keys N v) (u : Util)
    (hx : u.x ∈ keys) (hy : u.y ∈ keys) (hz : u.z ∈ keys) {n : ℝ × ℝ × ℝ} (hn : n ≠ 0) (rmax : ℝ) :
    filterR2d d rmax n u = .ok ((List.range N).map fun i =>
      decide (Real.sqrt (normSq (cross (pos u v i) n)) / Real.sqrt (normSq n) < rmax)) := by
  rw [filterR2d, coords_ok h u hx hy hz]
  simp [Except.map, (c42_distance hn).2, Function.comp_def]

/-- The point (3, 4, 12) seen along the z axis has the projected radius 5. -/
example : ((0, 0, 1) : ℝ × ℝ × ℝ) ≠ 0 ∧ projectR2d (3, 4, 12) (0, 0, 1) = 5 := by
  have hn : ((0, 0, 1) : ℝ × ℝ × ℝ) ≠ 0 := by simp
  refine ⟨hn, ?_⟩
  rw [(c42_distance hn).2]
  norm_num [normSq, cross]

/-! ## C77: rows stay aligned and the right nodes are selected -/

/-- C77. Reading with one entry per node only: all columns have as many entries as there are nodes. Without an output
number the output with the largest number is read. -/
theorem c77_rows {u : Util} {int : List Char → Option ℤ} {file : List (String × Output)} {out : Option ℤ}
    {params : Option (List String)} {d : Data} (h : Galacticus.read u int file out params true = .ok (some d)) :
    ∃ n o, file.lookup ("Output" ++ toString n) = some o ∧
      (∀ m, out = some m → n = m) ∧
      (out = none → n ∈ outputIndices int (file.map Prod.fst) ∧ ∀ m ∈ outputIndices int (file.map Prod.fst), m ≤ n) ∧
      (∀ kc ∈ d, kc.2.length = o.treeCount.sum) ∧
      (∀ k, k ≠ u.treeIndex → k ≠ u.treeOrder → k ≠ u.nodeId → ∀ c, (k, c) ∈ d ↔
        (k, some c) ∈ o.nodeData ∧ c.length = o.treeCount.sum ∧ ∀ p, params = some p → k ∈ p) ∧
      ∃ custom, readCustom u o.treeIndex o.treeStart o.treeCount.sum = .ok custom ∧
        ∀ k ∈ [u.treeIndex, u.treeOrder, u.nodeId], d.lookup k = custom.lookup k := by
  have hmax : ∀ l : List ℤ, ∀ n, maxInt l = some n → n ∈ l ∧ ∀ m ∈ l, m ≤ n := by
    intro l n hl
    cases l with
    | nil => cases hl
    | cons a t =>
      simp only [maxInt, Option.some.injEq] at hl
      subst hl
      have : ∀ (t : List ℤ) (a : ℤ), t.foldl max a ∈ a :: t ∧ ∀ m ∈ a :: t, m ≤ t.foldl max a := by
        intro t
        induction t with
        | nil => intro a; simp
        | cons b t ih =>
          intro a
          obtain ⟨h1, h2⟩ := ih (max a b)
          simp only [List.foldl_cons]
          refine ⟨?_, ?_⟩
          · rcases List.mem_cons.mp h1 with h | h
            · rcases max_choice a b with hab | hab <;> rw [hab] at h <;> simp [hab, h]
            · simp [h]
          · intro m hm
            have h3 := h2 (max a b) (by simp)
            rcases List.mem_cons.mp hm with rfl | hm
            · exact le_trans (le_max_left _ _) h3
            · rcases List.mem_cons.mp hm with rfl | hm
              · exact le_trans (le_max_right _ _) h3
              · exact h2 m (by simp [hm])
      exact this t a
  simp only [Galacticus.read] at h
  split at h
  · cases h
  · rename_i n hn
    split at h
    · cases h
    · rename_i o ho
      refine ⟨n, o, ho, ?_, ?_, ?_⟩
      · intro m hm
        subst hm
        simpa using hn.symm
      · intro hm
        subst hm
        exact hmax _ n hn
      · cases hc : readCustom u o.treeIndex o.treeStart o.treeCount.sum with
        | error e => rw [hc] at h; cases h
        | ok custom =>
          rw [hc] at h
          have hd := Option.some.inj (Except.ok.inj h)
          obtain ⟨idx, ord, ids, hcu, l1, l2, l3, -⟩ := c41_label hc
          refine ⟨?_, ?_, custom, rfl, ?_⟩
          · intro kc hkc
            rw [← hd, merge, List.mem_append] at hkc
            rcases hkc with hkc | hkc
            · obtain ⟨⟨k, v⟩, -, hb⟩ := List.mem_filterMap.mp (List.mem_of_mem_filter hkc)
              dsimp only at hb
              split at hb
              · split at hb
                · rename_i hcond
                  cases Option.some.inj hb
                  simpa using hcond.2
                · cases hb
              · cases hb
            · rw [hcu] at hkc
              simp only [List.mem_cons, List.not_mem_nil, or_false] at hkc
              rcases hkc with rfl | rfl | rfl
              · exact l1
              · exact l2
              · exact l3
          · intro k h1 h2 h3 c
            have hnone : custom.lookup k = none := by
              rw [hcu]
              simp [List.lookup, beq_false_of_ne h1, beq_false_of_ne h2, beq_false_of_ne h3]
            rw [← hd, merge, List.mem_append]
            constructor
            · rintro (hkc | hkc)
              · obtain ⟨⟨k', v⟩, hmem, hb⟩ := List.mem_filterMap.mp (List.mem_of_mem_filter hkc)
                dsimp only at hb
                split at hb
                · split at hb
                  · rename_i c' hcond
                    cases Option.some.inj hb
                    exact ⟨hmem, by simpa using hcond.2, hcond.1⟩
                  · cases hb
                · cases hb
              · rw [hcu] at hkc
                simp [h1, h2, h3] at hkc
            · rintro ⟨hmem, hlen, hp⟩
              left
              rw [List.mem_filter]
              refine ⟨List.mem_filterMap.mpr ⟨_, hmem, ?_⟩, by simp [hnone]⟩
              dsimp only
              rw [if_pos ⟨hp, Or.inr hlen⟩]
          · intro k hk
            have hsome : (custom.lookup k).isSome := by
              rw [hcu]
              simp only [List.mem_cons, List.not_mem_nil, or_false] at hk
              rcases hk with rfl | rfl | rfl <;> simp only [List.lookup] <;> repeat' split <;> simp_all
            have hno : ∀ l : Data, (l.filter fun kv => (custom.lookup kv.1).isNone).lookup k = none := by
              intro l
              rw [List.lookup_eq_none_iff]
              intro kc hkc
              have := List.of_mem_filter hkc
              rw [bne_iff_ne]
              rintro rfl
              rw [Option.isNone_iff_eq_none] at this
              simp [this] at hsome
            rw [← hd, merge, List.lookup_append, hno, Option.none_or]

/-- A file with one output, two trees of two nodes and one column. -/
example : ∃ d, Galacticus.read Util.default (fun _ => some 1)
    [("Output1", ⟨[1, 2], [0, 2], [2, 2], [("a", some [1, 2, 3, 4]), ("b", some [1])]⟩)] none none true
      = .ok (some d) := by
  simp [Galacticus.read, outputIndices, maxInt]
  exact ⟨_, rfl⟩

/-- C77. Applying a mask keeps the same nodes, in order, in every column. -/
theorem c77_mask {d : Data} {keys : List String} {N : ℕ} {v : String → ℕ → ℝ} (h : IsTable d keys N v) (m : ℕ → Bool) :
    ∃ d', applyFilter d ((List.range N).map m) = .ok d' ∧ d'.map (·.1) = d.map (·.1) ∧
      ∀ k ∈ keys, d'.lookup k = some (((List.range N).filter m).map (v k)) := by
  refine ⟨_, applyFilter_ok m h.len, by simp, fun k hk => ?_⟩
  have := col_filtered h m hk
  unfold col at this
  split at this
  · rename_i c hc
    rw [hc, Except.ok.inj this]
  · cases this

/-- C77. Every node is either kept by the filter for subhalos or by that for halos, provided the name of the column is
the default one. -/
theorem c77_partition {d : Data} {u : Util} (hu : u.isolated = Util.default.isolated) {m : List Bool}
    (h : filterSubhalos d u = .ok m) : filterHalos d u = .ok (m.map not) := by
  have : filterSubhalos d Util.default = .ok m := by
    rw [← h]; simp [filterSubhalos, hu]
  simp [filterHalos, this, Except.map]

/-- C77. The other case fails: with a renamed column the filter for subhalos works and the filters for halos and for
virialized nodes raise an error (if there is no column with the default name). -/
theorem c77_renamed {d : Data} {u : Util} {rows : List (ℝ × ℝ × ℝ)} (hd : d.lookup "nodeIsIsolated" = none)
    (hr : coords d u = .ok rows) :
    filterHalos d u = .error (.keyError "nodeIsIsolated") ∧
    filterVirialized d u = .error (.keyError "nodeIsIsolated") := by
  have h : filterHalos d u = .error (.keyError "nodeIsIsolated") := by
    simp [filterHalos, filterSubhalos, col, Util.default, hd, Except.map]
  refine ⟨h, ?_⟩
  rw [filterVirialized, hr]
  show (filterHalos d u >>= _) = _
  rw [h]
  rfl

/-- C77. Selecting one subhalo by its number never works. -/
theorem c77_select (d : Data) (u : Util) (id : ℝ) : ∃ e, selectSubhalo d u id = .error e := by
  unfold selectSubhalo
  cases h : col d u.nodeId with
  | error e => exact ⟨e, rfl⟩
  | ok c => exact ⟨_, rfl⟩

/-- The columns `DMFromGalacticus` needs. -/
def needed (u : Util) : List String :=
  [u.x, u.y, u.z, u.massBound, u.massInfall, u.isolated, u.rVirial, u.rScale, u.zLast, u.rTrunc, u.rhoS, u.treeOrder,
    u.treeIndex, u.nodeId, u.conc]

/-- C77. The subhalos of the realization are exactly the wanted nodes, in the order of the file, each with the data of
its own row: `x`, `y` are the coordinates (kpc) along two axes perpendicular to the line of sight. -/
theorem c77_selected {d : Data} {u : Util} {N : ℕ} {v : String → ℕ → ℝ} (h : IsTable d (needed u) N v)
    (hu : u.isolated = Util.default.isolated) {T : ℕ} {tree host : ℕ → ℕ} (ho : OneHost u v N T tree host)
    (kpcPerArcsec opening wantedTree logLow logHigh : ℝ) (bound : Bool) (theta phi : ℝ) :
    subhalos d u kpcPerArcsec opening wantedTree logLow logHigh bound theta phi = .ok
      (((List.range N).filter fun i => decide (Wanted u v tree host (Np.rint wantedTree) (10 ^ logLow) (10 ^ logHigh)
          (if bound then u.massBound else u.massInfall) (direction theta phi)
          (opening / 2 * kpcPerArcsec / 1000) i)).map fun i =>
        { mass := v u.massInfall i
          x := 1000 * (v u.x i * (Real.cos theta * Real.cos phi) + v u.y i * (Real.cos theta * Real.sin phi)
            - v u.z i * Real.sin theta)
          y := 1000 * (v u.y i * Real.cos phi - v u.x i * Real.sin phi)
          r3d := 1000 * Real.sqrt (normSq (pos u v i))
          rhoS := 4 * v u.rhoS i / 1000 ^ 3
          rs := 1000 * v u.rScale i
          rt := 1000 * v u.rTrunc i
          rv := 1000 * (v u.conc i * v u.rScale i)
          zInfall := v u.zLast i
          nodeId := v u.nodeId i }) := by
  have hkey : (if bound then u.massBound else u.massInfall) ∈ needed u := by cases bound <;> simp [needed]
  rw [subhalos, coords_ok h u (by simp [needed]) (by simp [needed]) (by simp [needed])]
  show (filterSubhalos d u >>= _) = _
  simp only [filterSubhalos, col_ok h (show u.isolated ∈ needed u by simp [needed]), Except.map]
  show (filterVirialized d u >>= _) = _
  rw [filterVirialized_ok h ho hu (by simp [needed])]
  simp only [filterRange, filterTree, col_ok h hkey, col_ok h (show u.treeIndex ∈ needed u by simp [needed]), Except.map]
  show (zip2 _ _ _ >>= _) = _
  rw [List.map_map, List.map_map, List.map_map, List.map_map, List.map_map, List.map_map, zip2_map]
  show (zip2 _ _ _ >>= _) = _
  rw [zip2_map]
  show (zip2 _ _ _ >>= _) = _
  rw [zip2_map]
  show (zip2 _ _ _ >>= _) = _
  rw [zip2_map]
  set m : ℕ → Bool := fun i => decide (Wanted u v tree host (Np.rint wantedTree) (10 ^ logLow) (10 ^ logHigh)
    (if bound then u.massBound else u.massInfall) (direction theta phi) (opening / 2 * kpcPerArcsec / 1000) i) with hm
  have hmask : (fun i => ((fun v => decide (v = 0)) ∘ v u.isolated) i &&
      decide (norm3 (pos u v i) < v u.rVirial (host (tree i))) &&
      ((fun v => decide ((10 : ℝ) ^ logLow < v ∧ v < (10 : ℝ) ^ logHigh)) ∘
        v (if bound = true then u.massBound else u.massInfall)) i &&
      ((fun v => decide (v = (Np.rint wantedTree : ℝ))) ∘ v u.treeIndex) i &&
      ((((fun p : ℝ × ℝ => decide (√(p.1 ^ 2 + p.2 ^ 2) < opening / 2 * kpcPerArcsec)) ∘ fun r =>
          (dot3 (planeX theta phi) r, dot3 (planeY phi) r)) ∘
        fun r => (r.1 * 1000, r.2.1 * 1000, r.2.2 * 1000)) ∘ pos u v) i) = m := by
    funext i
    have e : √(dot3 (planeX theta phi) ((pos u v i).1 * 1000, (pos u v i).2.1 * 1000, (pos u v i).2.2 * 1000) ^ 2 +
        dot3 (planeY phi) ((pos u v i).1 * 1000, (pos u v i).2.1 * 1000, (pos u v i).2.2 * 1000) ^ 2)
        = 1000 * √(normSq (cross (pos u v i) (direction theta phi))) := by
      rw [plane_sq, show normSq (cross ((pos u v i).1 * 1000, (pos u v i).2.1 * 1000, (pos u v i).2.2 * 1000)
        (direction theta phi)) = 1000 ^ 2 * normSq (cross (pos u v i) (direction theta phi)) by
          simp only [normSq, cross]; ring, Real.sqrt_mul (by norm_num), Real.sqrt_sq (by norm_num)]
    rw [Bool.eq_iff_iff]
    simp only [Function.comp_apply, Bool.and_eq_true, decide_eq_true_eq, hm, e]
    have hiff : 1000 * √(normSq (cross (pos u v i) (direction theta phi))) < opening / 2 * kpcPerArcsec ↔
        √(normSq (cross (pos u v i) (direction theta phi))) < opening / 2 * kpcPerArcsec / 1000 := by
      constructor <;> intro h' <;> linarith
    rw [hiff]
    constructor
    · rintro ⟨⟨⟨⟨h1, h2⟩, h3, h4⟩, h5⟩, h6⟩
      exact ⟨h1, h5, h3, h4, h2, h6⟩
    · rintro ⟨h1, h5, h3, h4, h2, h6⟩
      exact ⟨⟨⟨⟨h1, h2⟩, h3, h4⟩, h5⟩, h6⟩
  rw [hmask]
  clear_value m
  clear hmask hm
  show (applyFilter _ _ >>= _) = _
  rw [applyFilter_ok m h.len]
  simp only [List.map_map, maskList_map]
  have c := fun {k : String} (hk : k ∈ needed u) => col_filtered h m hk
  simp only [c (show u.rhoS ∈ needed u by simp [needed]), c (show u.rScale ∈ needed u by simp [needed]),
    c (show u.rTrunc ∈ needed u by simp [needed]), c (show u.conc ∈ needed u by simp [needed]),
    c (show u.zLast ∈ needed u by simp [needed]), c (show u.nodeId ∈ needed u by simp [needed]),
    c (show u.massInfall ∈ needed u by simp [needed]), bind, Except.bind, List.length_map]
  rw [← show ((List.range ((List.range N).filter m).length).map (0 + ·)) = List.range ((List.range N).filter m).length
    by simp]
  refine mapM_range 0 fun n i hn => ?_
  simp only [Nat.zero_add, entry, List.getElem?_map, hn, Option.map_some, pure, Except.pure, Function.comp_apply,
    Except.ok.injEq, Sub.mk.injEq, true_and, and_true]
  refine ⟨?_, ?_, ?_, by ring, by ring, by ring⟩
  · simp only [dot3, planeX, pos]; ring
  · simp only [dot3, planeY, pos]; ring
  · rw [norm3_eq, show normSq ((pos u v i).1 * 1000, (pos u v i).2.1 * 1000, (pos u v i).2.2 * 1000)
      = 1000 ^ 2 * normSq (pos u v i) by simp only [normSq]; ring, Real.sqrt_mul (by norm_num),
      Real.sqrt_sq (by norm_num)]

/-- C77. Seen in arcseconds the selected subhalos lie within half of the opening angle. -/
theorem c77_in_cone {d : Data} {u : Util} {N : ℕ} {v : String → ℕ → ℝ} (h : IsTable d (needed u) N v)
    (hu : u.isolated = Util.default.isolated) {T : ℕ} {tree host : ℕ → ℕ} (ho : OneHost u v N T tree host)
    {kpcPerArcsec opening wantedTree logLow logHigh : ℝ} (hk : 0 < kpcPerArcsec) {bound : Bool} {theta phi : ℝ}
    {l : List Sub} (hl : subhalos d u kpcPerArcsec opening wantedTree logLow logHigh bound theta phi = .ok l) :
    ∀ s ∈ l, Real.sqrt ((angle kpcPerArcsec (s.x, s.y)).1 ^ 2 + (angle kpcPerArcsec (s.x, s.y)).2 ^ 2) < opening / 2 ∧
      s.x ^ 2 + s.y ^ 2 ≤ s.r3d ^ 2 := by
  rw [c77_selected h hu ho] at hl
  rw [← Except.ok.inj hl]
  simp only [List.mem_map, List.mem_filter, List.mem_range, decide_eq_true_eq, forall_exists_index, and_imp]
  rintro s i - hw rfl
  have hp := plane_sq theta phi (pos u v i)
  have e : (1000 * (v u.x i * (Real.cos theta * Real.cos phi) + v u.y i * (Real.cos theta * Real.sin phi)
      - v u.z i * Real.sin theta)) ^ 2 + (1000 * (v u.y i * Real.cos phi - v u.x i * Real.sin phi)) ^ 2
      = 1000 ^ 2 * normSq (cross (pos u v i) (direction theta phi)) := by
    rw [← hp]; simp only [dot3, planeX, planeY, pos]; ring
  have hnn : 0 ≤ normSq (cross (pos u v i) (direction theta phi)) := by unfold normSq; positivity
  constructor
  · simp only [angle]
    rw [div_pow, div_pow, ← add_div, e, Real.sqrt_div (by positivity), Real.sqrt_sq hk.le,
      Real.sqrt_mul (by norm_num), Real.sqrt_sq (by norm_num), div_lt_iff₀ hk]
    have := hw.near
    linarith
  · rw [e, mul_pow, Real.sq_sqrt (by unfold normSq; positivity)]
    have h1 := Real.sin_sq_add_cos_sq theta
    have h2 := Real.sin_sq_add_cos_sq phi
    have hd : normSq (direction theta phi) = 1 := by
      simp only [normSq, direction]
      nlinarith
    have : normSq (cross (pos u v i) (direction theta phi)) + dot3 (pos u v i) (direction theta phi) ^ 2
        = normSq (pos u v i) * normSq (direction theta phi) := by
      simp only [normSq, cross, dot3]; ring
    rw [hd] at this
    nlinarith [sq_nonneg (dot3 (pos u v i) (direction theta phi))]

/-- Two trees with indexes 5 and 6, a host and a subhalo each. -/
example : ∃ (d : Data) (v : String → ℕ → ℝ) (tree host : ℕ → ℕ), IsTable d (needed Util.default) 4 v ∧
    OneHost Util.default v 4 2 tree host ∧
    Wanted Util.default v tree host 6 1 100 Util.default.massBound (direction 0 0) 1 3 := by
  refine ⟨(needed Util.default).map fun k => (k, (List.range 4).map fun i =>
    if k = "nodeIsIsolated" then (if i = 0 ∨ i = 2 then 1 else 0)
    else if k = "custom_treeOutputOrder" then (if i < 2 then 0 else 1)
    else if k = "custom_treeIndex" then (if i < 2 then 5 else 6)
    else if k = "positionOrbitalX" then 0 else if k = "positionOrbitalY" then 0
    else if k = "positionOrbitalZ" then 0 else 7), fun k i =>
    if k = "nodeIsIsolated" then (if i = 0 ∨ i = 2 then 1 else 0)
    else if k = "custom_treeOutputOrder" then (if i < 2 then 0 else 1)
    else if k = "custom_treeIndex" then (if i < 2 then 5 else 6)
    else if k = "positionOrbitalX" then 0 else if k = "positionOrbitalY" then 0
    else if k = "positionOrbitalZ" then 0 else 7, fun i => if i < 2 then 0 else 1, fun t => 2 * t, ?_, ?_, ?_⟩
  · constructor
    · intro k hk
      simp only [needed, Util.default, List.mem_cons, List.not_mem_nil, or_false] at hk
      rcases hk with rfl | rfl | rfl | rfl | rfl | rfl | rfl | rfl | rfl | rfl | rfl | rfl | rfl | rfl | rfl <;>
        simp [needed, Util.default, List.lookup]
    · intro kc hkc
      obtain ⟨k, -, rfl⟩ := List.mem_map.mp hkc
      simp
  · constructor
    · intro i hi
      simp only [Util.default]
      have : i = 0 ∨ i = 1 ∨ i = 2 ∨ i = 3 := by omega
      rcases this with rfl | rfl | rfl | rfl <;> simp
    · intro i j hij hj
      split <;> split <;> omega
    · intro t ht
      have : t = 0 ∨ t = 1 := by omega
      rcases this with rfl | rfl <;> norm_num [Util.default]
    · intro i hi
      have : i = 0 ∨ i = 1 ∨ i = 2 ∨ i = 3 := by omega
      rcases this with rfl | rfl | rfl | rfl <;> norm_num [Util.default]
  · constructor <;> simp [Util.default, pos, normSq, cross]
    norm_num

/-! ## C78: subhalos from an emulator -/

/-- C78. The NFW profile of each emulated subhalo holds the infall mass within the virial radius, whatever the Hubble
constant and the critical density; the concentration is that of the emulator. -/
theorem c78_mass {h rhoc : ℝ} {rows : List EmulatorRow} (hh : 0 < h) (hr : 0 < rhoc)
    (hrow : ∀ e ∈ rows, 0 < e.massInfall ∧ 0 < e.conc) :
    List.Forall₂ (fun e s => nfwMass s.rhoS s.rs (s.rv / s.rs) = e.massInfall ∧ s.mass = e.massInfall ∧
      s.rv / s.rs = e.conc ∧ s.x = 1000 * e.x ∧ s.y = 1000 * e.y ∧ s.rt = 1000 * e.rt ∧ s.zInfall = e.zLast)
      rows (emulatorSubs h rhoc rows) := by
  rw [emulatorSubs, List.forall₂_map_right_iff, List.forall₂_same]
  intro e he
  obtain ⟨hm, hc⟩ := hrow e he
  have hmc : 0 < Real.log (1 + e.conc) - e.conc / (1 + e.conc) := by
    have := Real.one_sub_inv_le_log_of_pos (show 0 < 1 + e.conc by linarith)
    have h2 : 1 - (1 + e.conc)⁻¹ = e.conc / (1 + e.conc) := by field_simp; ring
    have h3 := Real.log_lt_sub_one_of_pos (show 0 < (1 + e.conc)⁻¹ by positivity)
      (by intro h4; rw [inv_eq_one] at h4; linarith)
    rw [Real.log_inv] at h3
    linarith
  set q := (3 * h * e.massInfall) / (4 * 200 * Real.pi * rhoc) with hq
  have hq0 : 0 < q := by positivity
  have hq3 : (q ^ ((1 : ℝ) / 3)) ^ 3 = q := by
    rw [← Real.rpow_natCast, ← Real.rpow_mul hq0.le]; norm_num
  have hw : 0 < q ^ ((1 : ℝ) / 3) := Real.rpow_pos_of_pos hq0 _
  simp only [emulatorSub, ← hq]
  set w := q ^ ((1 : ℝ) / 3) with hwd
  clear_value w
  have ec : w / h * 1000 / (w / h / e.conc * 1000) = e.conc := by field_simp
  refine ⟨?_, trivial, ec, by ring, by ring, by ring, trivial⟩
  rw [ec, nfwMass]
  have hw3 : w ^ 3 * (4 * 200 * Real.pi * rhoc) = 3 * h * e.massInfall := by rw [hq3, hq]; field_simp
  generalize Real.log (1 + e.conc) - e.conc / (1 + e.conc) = g at *
  have hpi := Real.pi_pos
  field_simp
  linear_combination hw3

example := c78_mass (h := 0.7) (rhoc := 100) (rows := [⟨10 ^ 8, 0.01, 0.02, 0.001, 10, 1.5⟩]) (by norm_num) (by norm_num)
  (by simp; norm_num)

example : ∀ e ∈ [(⟨1e8, 15, 2, 0.1, 0.01, 0.02⟩ : EmulatorRow)], 0 < e.massInfall ∧ 0 < e.conc := by
  simp
  norm_num

end Props
end PyHalo
