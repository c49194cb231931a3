import Verif.Spec.ReadOutput
import Verif.Lemmas.Geometry
import Verif.Lemmas.Interpolate
import Verif.Props.Output
import Verif.Props.Labels

/-!
# Lemmas about results on a mesh
-/

namespace Verif.Lemmas
open Verif.Py Verif.Model Verif.Mesh Verif.Spec

theorem labeler_length {n : ℕ} {len : Option ℤ} {ls : List Str} (h : labeler n len = .ok ls) : ls.length = n := by
  unfold labeler at h
  split at h
  · exact absurd h (by simp)
  · rw [← (mapM_eq_ok h).length_eq, List.length_range]

theorem centers_length {K D : Type} [Field K] {m : Mesh K D} {cs : List (P3 K)} (h : centers m = .ok cs) :
    cs.length = nCells m.cells := by
  unfold centers at h
  split at h
  · exact absurd h (by simp)
  · obtain ⟨bs, h1, h2⟩ := bind_eq_ok.1 h
    cases h2
    have hf := mapM_eq_ok h1
    unfold nCells
    clear h h1
    generalize m.cells = cells at hf
    induction hf with
    | nil => rfl
    | cons hx _ ih => simp [ih, ← (mapM_eq_ok hx).length_eq]

theorem labelMap_idxOf {labels : List Str} (hn : labels.Nodup) {s : Str} (hs : s ∈ labels) :
    dictGet (labelMap labels) s = .ok (labels.idxOf s) := by
  obtain ⟨j, hj⟩ := labelMap_complete hs
  have h1 := labelMap_sound hj
  obtain ⟨hl, h2⟩ := List.getElem?_eq_some_iff.1 h1
  rw [hj, ← h2, hn.idxOf_getElem]

theorem sub_scale (a b : P3 ℝ) (v : ℝ) (h : 0 < v) :
    scale v (scale (1 / norm3 (b.sub a)) (b.sub a)) =
      ⟨|v| / dist3 a b * (b.x - a.x), |v| / dist3 a b * (b.y - a.y), |v| / dist3 a b * (b.z - a.z)⟩ := by
  rw [norm3_sub, dist3_comm, abs_of_pos h]
  unfold scale P3.sub
  ext <;> simp only <;> ring

theorem sub_scale_neg (a b : P3 ℝ) (v : ℝ) (h : v ≤ 0) :
    scale v (scale (1 / norm3 (a.sub b)) (a.sub b)) =
      ⟨|v| / dist3 a b * (b.x - a.x), |v| / dist3 a b * (b.y - a.y), |v| / dist3 a b * (b.z - a.z)⟩ := by
  rw [norm3_sub, abs_of_nonpos h]
  unfold scale P3.sub
  ext <;> simp only <;> ring

/-- One connection. -/
theorem connLine_ok {labels : List Str} {cs : List (P3 ℝ)} (hn : labels.Nodup) (hl : cs.length = labels.length)
    {ls : Str × Str} (h1 : ls.1 ∈ labels) (h2 : ls.2 ∈ labels) :
    connLine cs (labelMap labels) ls = .ok (labels.idxOf ls.1, labels.idxOf ls.2,
      scale (1 / norm3 ((centreOf labels cs ls.1).sub (centreOf labels cs ls.2)))
        ((centreOf labels cs ls.1).sub (centreOf labels cs ls.2))) := by
  have hr : ∀ s ∈ labels, rowAt cs (labels.idxOf s) = .ok (centreOf labels cs s) := by
    intro s hs
    have : labels.idxOf s < cs.length := by rw [hl]; exact List.idxOf_lt_length_iff.2 hs
    unfold rowAt centreOf
    rw [List.getD_eq_getElem?_getD, List.getElem?_eq_getElem this]
    rfl
  unfold connLine
  rw [labelMap_idxOf hn h1, labelMap_idxOf hn h2, ok_bind, ok_bind, hr _ h1, hr _ h2]
  rfl

theorem flowOf_eq {labels : List Str} {cs : List (P3 ℝ)} (e : (Str × Str) × ℝ) :
    flowOf (labels.idxOf e.1.1, labels.idxOf e.1.2,
      scale (1 / norm3 ((centreOf labels cs e.1.1).sub (centreOf labels cs e.1.2)))
        ((centreOf labels cs e.1.1).sub (centreOf labels cs e.1.2))) e.2 =
      (labels.idxOf (intoCell e), flowVector (centreOf labels cs) e) := by
  unfold flowOf intoCell flowVector fromCell intoCell
  by_cases h : 0 < e.2
  · simp only [h, if_true]
    rw [sub_scale _ _ _ h]
  · simp only [h, if_false]
    rw [sub_scale_neg _ _ _ (not_lt.1 h)]

theorem sumVectors_eq (vs : List (P3 ℝ)) : sumVectors vs =
    ⟨(vs.map (·.x)).sum, (vs.map (·.y)).sum, (vs.map (·.z)).sum⟩ := by
  have key : ∀ (vs : List (P3 ℝ)) (a : P3 ℝ), vs.foldl P3.plus a =
      ⟨a.x + (vs.map (·.x)).sum, a.y + (vs.map (·.y)).sum, a.z + (vs.map (·.z)).sum⟩ := by
    intro vs
    induction vs with
    | nil => intro a; simp
    | cons v vs ih =>
      intro a
      rw [List.foldl_cons, ih]
      simp only [P3.plus, List.map_cons, List.sum_cons]
      ext <;> simp only <;> ring
  unfold sumVectors
  rw [key]
  simp

/-- The vectors of one variable. -/
theorem flowVectors_ok {labels : List Str} {cs : List (P3 ℝ)} (hn : labels.Nodup) {ends : List (Str × Str)} {v : List ℝ}
    (hv : v.length = ends.length) (he : ∀ e ∈ ends, e.1 ∈ labels ∧ e.2 ∈ labels) :
    flowVectors labels.length (ends.map fun ls => (labels.idxOf ls.1, labels.idxOf ls.2,
      scale (1 / norm3 ((centreOf labels cs ls.1).sub (centreOf labels cs ls.2)))
        ((centreOf labels cs ls.1).sub (centreOf labels cs ls.2)))) v =
      .ok (labels.map fun s => .vec (inflow (centreOf labels cs) (ends.zip v) s)) := by
  unfold flowVectors
  rw [if_neg (by simp [hv])]
  simp only
  congr 1
  apply List.ext_getElem?
  intro i
  rw [List.getElem?_map, List.getElem?_map, gather_get]
  by_cases hi : i < labels.length
  · rw [if_pos hi, List.getElem?_eq_getElem hi]
    simp only [Option.map_some]
    congr 2
    rw [sumVectors_eq]
    have key : ((List.zipWith flowOf (ends.map fun ls => (labels.idxOf ls.1, labels.idxOf ls.2,
        scale (1 / norm3 ((centreOf labels cs ls.1).sub (centreOf labels cs ls.2)))
          ((centreOf labels cs ls.1).sub (centreOf labels cs ls.2)))) v).filter (·.1 = i)).map (·.2) =
        ((ends.zip v).filter fun e => intoCell e = labels[i]).map (flowVector (centreOf labels cs)) := by
      clear hv
      induction ends generalizing v with
      | nil => rfl
      | cons e ends ih =>
        cases v with
        | nil => rfl
        | cons x v =>
          have hx := flowOf_eq (labels := labels) (cs := cs) (e, x)
          simp only at hx
          have ih := ih (v := v) fun d hd => he d (by simp [hd])
          rw [List.map_cons, List.zipWith_cons_cons, List.zip_cons_cons, hx]
          have hm : intoCell (e, x) ∈ labels := by
            unfold intoCell
            split
            · exact (he e (by simp)).1
            · exact (he e (by simp)).2
          by_cases hc : intoCell (e, x) = labels[i]
          · have hc' : labels.idxOf (intoCell (e, x)) = i := by rw [hc, hn.idxOf_getElem]
            rw [List.filter_cons_of_pos (by simpa using hc'), List.filter_cons_of_pos (by simpa using hc),
              List.map_cons, List.map_cons, ih]
          · have hc' : labels.idxOf (intoCell (e, x)) ≠ i := by
              rintro rfl
              exact hc (List.getElem_idxOf _).symm
            rw [List.filter_cons_of_neg (by simpa using hc'), List.filter_cons_of_neg (by simpa using hc), ih]
    rw [key]
    simp [inflow]
  · rw [if_neg hi, List.getElem?_eq_none (by omega)]
    rfl

end Verif.Lemmas
