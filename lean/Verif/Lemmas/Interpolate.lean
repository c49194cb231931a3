import Verif.Spec.Interpolate
import Verif.Lemmas.Series
import Verif.Lemmas.Opts
import Mathlib.Algebra.Order.BigOperators.Group.Finset
import Mathlib.Algebra.BigOperators.Intervals
import Mathlib.Tactic.Ring
import Mathlib.Tactic.FieldSimp
import Mathlib.Tactic.Linarith

/-!
# Lemmas about interpolation
-/

namespace Verif.Lemmas
open Verif.Py Verif.Model Verif.Mesh Verif.Spec

variable {K : Type} [Field K] [LinearOrder K]

theorem appendCell_fold {vols : List K} {i : ℕ} {w : K} (hw : vols[i]? = some w) (cell : List ℕ)
    (out : List (List ℕ × List K)) (hc : ∀ c ∈ cell, c < out.length) :
    ∃ out', cell.foldlM (appendCell vols i) out = .ok out' ∧ out'.length = out.length ∧
      ∀ p : ℕ, out'[p]? = out[p]?.map fun e => (e.1 ++ List.replicate (cell.count p) i,
        e.2 ++ List.replicate (cell.count p) w) := by
  induction cell generalizing out with
  | nil => exact ⟨out, rfl, rfl, fun p => by simp⟩
  | cons c cell ih =>
    obtain ⟨out', h1, h2, h3⟩ := ih (out.modify c fun e => (e.1 ++ [i], e.2 ++ [w]))
      (fun d hd => by rw [List.length_modify]; exact hc d (by simp [hd]))
    refine ⟨out', ?_, by rw [h2, List.length_modify], fun p => ?_⟩
    · have e : appendCell vols i out c = .ok (out.modify c fun e => (e.1 ++ [i], e.2 ++ [w])) := by
        unfold appendCell
        rw [if_pos (hc c (by simp))]
        unfold rowAt
        rw [hw]
        rfl
      rw [List.foldlM_cons, e]
      exact h1
    · rw [h3, List.getElem?_modify]
      by_cases hp : c = p
      · subst hp
        cases out[c]? with
        | none => simp
        | some e => simp [List.replicate_succ]
      · rw [List.count_cons_of_ne (by simpa using hp)]
        cases out[p]? with
        | none => simp [hp]
        | some e => simp [hp]

/-- The cells around a point, as `pointCells` finds them. -/
def around (cells : List (List ℕ × ℕ)) (p : ℕ) : List ℕ :=
  cells.flatMap fun c => List.replicate (c.1.count p) c.2

theorem pointCells_fold {vols : List K} (cells : List (List ℕ × ℕ)) (out : List (List ℕ × List K))
    (hi : ∀ c ∈ cells, c.2 < vols.length) (hc : ∀ c ∈ cells, ∀ v ∈ c.1, v < out.length) :
    ∃ out', cells.foldlM (fun out c => c.1.foldlM (appendCell vols c.2) out) out = .ok out' ∧
      out'.length = out.length ∧
      ∀ p : ℕ, out'[p]? = out[p]?.map fun e => (e.1 ++ around cells p,
        e.2 ++ (around cells p).map fun i => vols.getD i 0) := by
  induction cells generalizing out with
  | nil => exact ⟨out, rfl, rfl, fun p => by simp [around]⟩
  | cons c cells ih =>
    have hw : vols[c.2]? = some (vols.getD c.2 0) := by
      rw [List.getD_eq_getElem?_getD, List.getElem?_eq_getElem (hi c (by simp))]
      rfl
    obtain ⟨out1, g1, g2, g3⟩ := appendCell_fold hw c.1 out (hc c (by simp))
    obtain ⟨out', h1, h2, h3⟩ := ih out1 (fun d hd => hi d (by simp [hd]))
      (fun d hd v hv => by rw [g2]; exact hc d (by simp [hd]) v hv)
    refine ⟨out', ?_, by rw [h2, g2], fun p => ?_⟩
    · rw [List.foldlM_cons, g1]
      exact h1
    · rw [h3, g3]
      cases out[p]? with
      | none => rfl
      | some e => simp [around, List.append_assoc]

theorem pointCells_ok {n : ℕ} {cells : List (List ℕ)} {vols : List K} (hl : vols.length = cells.length)
    (hc : ∀ c ∈ cells, ∀ v ∈ c, v < n) :
    pointCells n cells vols = .ok ((List.range n).map fun p : ℕ =>
      (around cells.zipIdx p, (around cells.zipIdx p).map fun i => vols.getD i 0)) := by
  obtain ⟨out, h1, h2, h3⟩ := pointCells_fold (vols := vols) cells.zipIdx (List.replicate n ([], []))
    (fun c hcm => by have := List.mem_zipIdx hcm; omega)
    (fun c hcm v hv => by
      rw [List.length_replicate]
      have := List.mem_zipIdx hcm
      exact hc c.1 (by rw [this.2.2]; exact List.getElem_mem _) v hv)
  unfold pointCells
  rw [h1]
  congr 1
  apply List.ext_getElem?
  intro p
  rw [h3]
  by_cases hp : p < n
  · simp [hp]
  · simp [hp]

theorem sum_around (cells : List (List ℕ)) (p : ℕ) (f : ℕ → K) :
    ((around cells.zipIdx p).map f).sum =
      ∑ i ∈ Finset.range cells.length, ((cells.getD i []).count p : K) * f i := by
  induction cells using List.reverseRecOn with
  | nil => simp [around]
  | append_singleton cells c ih =>
    rw [List.zipIdx_append]
    have e : around (cells.zipIdx ++ [c].zipIdx (0 + cells.length)) p =
        around cells.zipIdx p ++ List.replicate (c.count p) cells.length := by
      simp [around]
    rw [e, List.map_append, List.sum_append, ih, List.length_append, List.length_singleton,
      Finset.sum_range_succ]
    congr 1
    · apply Finset.sum_congr rfl
      intro i hi
      rw [Finset.mem_range] at hi
      simp [List.getElem?_append_left hi]
    · simp

theorem mem_around {cells : List (List ℕ)} {p i : ℕ} (h : i ∈ around cells.zipIdx p) :
    i < cells.length := by
  unfold around at h
  obtain ⟨c, h1, h2⟩ := List.mem_flatMap.1 h
  have := (List.mem_replicate.1 h2).2
  have := List.mem_zipIdx h1
  omega

/-- Rows that are numbers. -/
theorem scalar_rows {v : List (Row K)} (h : ∀ r ∈ v, ∃ x, r = .num x) : ∃ vs : List K, v = vs.map Row.num := by
  induction v with
  | nil => exact ⟨[], rfl⟩
  | cons r v ih =>
    obtain ⟨x, rfl⟩ := h r (by simp)
    obtain ⟨vs, rfl⟩ := ih fun r hr => h r (by simp [hr])
    exact ⟨x :: vs, rfl⟩

theorem rowsAt_num {vs : List K} {idx : List ℕ} (h : ∀ i ∈ idx, i < vs.length) :
    rowsAt (vs.map Row.num) idx = .ok (idx.map fun i => Row.num (vs.getD i 0)) := by
  apply rowsAt_map
  intro i hi
  rw [List.getElem?_map, List.getElem?_eq_getElem (h i hi), List.getD_eq_getElem?_getD,
    List.getElem?_eq_getElem (h i hi)]
  rfl

theorem entries_num (l : List ℕ) (f : ℕ → K) : (l.map fun i => Row.num (f i)).flatMap Row.entries = l.map f := by
  induction l with
  | nil => rfl
  | cons a l ih => simp [Row.entries, ih]

theorem any_isVec (vs : List K) : (vs.map Row.num).any Row.isVec = false := by
  simp [Row.isVec]

theorem zipWith_maps (l : List ℕ) (f g : ℕ → K) :
    List.zipWith (· * ·) (l.map f) (l.map g) = l.map fun i => f i * g i := by
  rw [List.zipWith_map_left, List.zipWith_map_right, List.zipWith_self]

/-- The weights at a point. -/
theorem sum_weights (cells : List (List ℕ)) (vols : List K) (p : ℕ) :
    ((around cells.zipIdx p).map fun i => vols.getD i 0).sum =
      ∑ i ∈ Finset.range cells.length, weightAt cells vols p i := sum_around cells p _

theorem average_ok {cells : List (List ℕ)} {vols vs : List K} {p : ℕ}
    (h0 : ∑ i ∈ Finset.range cells.length, weightAt cells vols p i ≠ 0) :
    npAverage false ((around cells.zipIdx p).map fun i => Row.num (vs.getD i 0))
      ((around cells.zipIdx p).map fun i => vols.getD i 0) =
      .ok ((∑ i ∈ Finset.range cells.length, weightAt cells vols p i * vs.getD i 0) /
        ∑ i ∈ Finset.range cells.length, weightAt cells vols p i) := by
  unfold npAverage
  rw [if_neg (by simp), if_neg (by rw [sum_weights]; exact h0), sum_weights, entries_num, zipWith_maps,
    sum_around]
  congr 2
  apply Finset.sum_congr rfl
  intro i _
  unfold weightAt
  ring

theorem volumes_parts {D : Type} {m : Mesh K D} {vols : List K} (h : volumes m = .ok vols) :
    vols.length = (vertexLists m).length ∧ List.Forall₂ (fun c v => ∃ ts, cellVolume m.points ts c = .ok v)
      (vertexLists m) vols := by
  unfold volumes at h
  split at h
  · exact absurd h (by simp)
  · obtain ⟨vs, h1, h2⟩ := bind_eq_ok.1 h
    cases h2
    have hf := mapM_eq_ok h1
    have key : List.Forall₂ (fun c v => ∃ ts, cellVolume m.points ts c = .ok v) (vertexLists m) vs.flatten := by
      unfold vertexLists
      generalize m.cells = cells at hf
      clear h h1
      induction hf with
      | nil => exact .nil
      | cons hx _ ih =>
        rw [List.flatMap_cons, List.flatten_cons]
        refine List.rel_append ?_ ih
        split at hx
        · exact absurd hx (by simp)
        · obtain ⟨ts, -, hb⟩ := bind_eq_ok.1 hx
          exact (mapM_eq_ok hb).imp fun _ _ h => ⟨ts, h⟩
    exact ⟨key.length_eq.symm, key⟩

theorem cellVolume_nonneg [IsStrictOrderedRing K] {pts : List (P3 K)} {ts : List (List ℕ)} {c : List ℕ} {v : K}
    (h : cellVolume pts ts c = .ok v) : 0 ≤ v := by
  unfold cellVolume at h
  obtain ⟨vs, h1, h2⟩ := bind_eq_ok.1 h
  cases h2
  refine div_nonneg (List.sum_nonneg ?_) (by norm_num)
  intro x hx
  obtain ⟨t, -, ht⟩ := forall₂_mem_right (mapM_eq_ok h1) hx
  obtain ⟨tt, -, ht⟩ := bind_eq_ok.1 ht
  obtain ⟨ps, -, ht⟩ := bind_eq_ok.1 ht
  split at ht
  · cases ht
    exact abs_nonneg _
  · exact absurd ht (by simp)

theorem volumes_nonneg [IsStrictOrderedRing K] {D : Type} {m : Mesh K D} {vols : List K} (h : volumes m = .ok vols)
    (i : ℕ) : 0 ≤ vols.getD i 0 := by
  rw [List.getD_eq_getElem?_getD]
  cases hi : vols[i]? with
  | none => simp
  | some v =>
    obtain ⟨c, -, ts, hc⟩ := forall₂_mem_right (volumes_parts h).2 (List.mem_of_getElem? hi)
    exact cellVolume_nonneg hc

/-- Interpolated data under the names of the old ones. -/
theorem dictGet_updated {κ β : Type} [DecidableEq κ] {base d : List (κ × β)} (hn : (d.map (·.1)).Nodup) :
    (∀ e ∈ d, dictGet (updateDict base d) e.1 = .ok e.2) ∧
    ∀ k, k ∉ d.map (·.1) → dictGet (updateDict base d) k = dictGet base k := by
  constructor
  · intro e he
    unfold dictGet
    rw [lookup_updateDict base d hn, (lookup_eq_some_of_mem hn).2 he]
    rfl
  · intro k hk
    unfold dictGet
    rw [lookup_updateDict base d hn]
    have : d.lookup k = none := by
      rw [List.lookup_eq_none_iff]
      intro e he
      simp only [beq_eq_false_iff_ne, ne_eq, Bool.not_eq_true, bne_iff_ne]
      rintro rfl
      exact hk (List.mem_map_of_mem he)
    rw [this]
    rfl

end Verif.Lemmas
