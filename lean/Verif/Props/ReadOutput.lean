import Verif.Lemmas.ReadOutput

/-!
# C75: results on a mesh
-/

namespace Verif.Props
open Verif.Py Verif.Model Verif.Mesh Verif.Spec Verif.Lemmas

/-- C75. The labels of a mesh are distinct. -/
theorem C75_labels (n : ℕ) (len : Option ℤ) (labels : List Str) (h : labeler n len = .ok labels)
    (hL : 4 ≤ usedLength n len) : labels.Nodup := by
  obtain ⟨L, hLe⟩ := Int.eq_ofNat_of_zero_le (show 0 ≤ usedLength n len by omega)
  by_cases hc : n ≤ capacity L
  · obtain ⟨ls, h1, -, h2, -⟩ := labeler_ok n L (by omega) len hLe hc
    rw [h] at h1
    cases h1
    exact h2
  · have he : labeler n len = .error .indexError := by
      unfold labeler
      rw [hLe, if_neg (by omega), show ((L : ℤ) - 3).toNat = L - 3 by omega]
      exact mapM_error_of_mem (fun i _ => label_ok_or_index _ i)
        ⟨capacity L, List.mem_range.2 (by omega), label_error _ _ rfl⟩
    rw [h] at he
    exact absurd he (by simp)

example : labeler 2 none = .ok ["A1100".toList, "A1101".toList] ∧ 4 ≤ usedLength 2 none := by decide +kernel

/-- Two tetrahedra with a common face. -/
noncomputable def tetraPair : Mesh ℝ (Row ℝ) where
  points := [⟨0, 0, 0⟩, ⟨1, 0, 0⟩, ⟨0, 1, 0⟩, ⟨0, 0, 2⟩, ⟨0, 0, -1⟩]
  cells := [⟨.tetra, [[0, 1, 2, 3], [0, 1, 2, 4]]⟩]
  pointData := []
  cellData := [("material".toList, [.num 1, .num 1])]
  fieldData := [("sand".toList, 1, 3)]

/-- The pressure of two cells, the second first. -/
noncomputable def pressures : Output Str (Row ℝ) where
  time := none
  labels := ["A1101".toList, "A1100".toList]
  data := [("P".toList, [.num 7, .num 8])]

/-- A flow of 3 from the second cell into the first. -/
noncomputable def oneFlow : Output (Str × Str) ℝ where
  time := none
  labels := [("A1100".toList, "A1101".toList)]
  data := [("FLOW".toList, [3])]

/-- C75. Of a list of outputs the one asked for is taken, from the end for negative numbers;
any other number is refused. -/
theorem C75_step (m : Mesh ℝ (Row ℝ)) (len : Option ℤ) (outs : List Results) :
    (∀ (i : ℕ) o, outs[i]? = some o → readResults m len outs i = applyResults m len o) ∧
    (∀ (i : ℕ) o, outs.reverse[i]? = some o → readResults m len outs (-(i + 1)) = applyResults m len o) ∧
    ∀ step : ℤ, (step < -outs.length ∨ (outs.length : ℤ) ≤ step) →
      readResults m len outs step = .error .valueError := by
  refine ⟨fun i o hi => ?_, fun i o hi => ?_, fun step hs => ?_⟩
  · have hl := (List.getElem?_eq_some_iff.1 hi).1
    unfold readResults atStep
    rw [if_neg (by simp; omega), if_neg (by omega)]
    simp only [Int.toNat_natCast]
    rw [hi]
    rfl
  · have hl := (List.getElem?_eq_some_iff.1 hi).1
    rw [List.length_reverse] at hl
    rw [List.getElem?_reverse hl] at hi
    unfold readResults atStep
    rw [if_neg (by simp; omega), if_pos (by omega)]
    simp only
    rw [show (-((i : ℤ) + 1) + (outs.length : ℤ)).toNat = outs.length - 1 - i by omega, hi]
    rfl
  · unfold readResults atStep
    rw [if_pos (by omega)]
    rfl

example : [Results.element pressures, .connection oneFlow].reverse[0]? = some (.connection oneFlow) := rfl

/-- C75. Results of elements: if the labels of the output are those of the mesh, in any
order, every cell gets in every array the value of the row with its label. Arrays of other
names stay, as do points, cells, point data and groups. -/
theorem C75_element (m : Mesh ℝ (Row ℝ)) (len : Option ℤ) (labels : List Str) (o : Output Str (Row ℝ))
    (hl : labeler (nCells m.cells) len = .ok labels) (hf : Full o) (hd : labels.Nodup)
    (hp : labels.Perm o.labels) (hn : (o.data.map (·.1)).Nodup) :
    ∃ r, applyResults m len (.element o) = .ok r ∧ r.points = m.points ∧ r.cells = m.cells ∧
      r.pointData = m.pointData ∧ r.fieldData = m.fieldData ∧
      (∀ e ∈ o.data, ∃ v, dictGet r.cellData e.1 = .ok v ∧ v.length = nCells m.cells ∧
        ∀ (i j : ℕ) s, labels[i]? = some s → o.labels[j]? = some s → v[i]? = e.2[j]?) ∧
      ∀ k, k ∉ o.data.map (·.1) → dictGet r.cellData k = dictGet m.cellData k := by
  have hlen := labeler_length hl
  obtain ⟨r, h1, h2, -, h3⟩ := C36_reorder o labels hf (hp.nodup_iff.1 hd) hp.length_eq fun s hs => hp.mem_iff.1 hs
  have hk : r.data.map (·.1) = o.data.map (·.1) := by
    have : List.Forall₂ (fun e e' => e'.1 = e.1) o.data r.data := h3.imp fun _ _ h => h.1
    exact (List.forall₂_eq_eq_eq.le _ _ (by
      rw [List.forall₂_map_left_iff, List.forall₂_map_right_iff]
      exact this.flip.imp fun _ _ h => h) : _ = _)
  obtain ⟨g1, g2⟩ := dictGet_updated (base := m.cellData) (d := r.data) (by rw [hk]; exact hn)
  refine ⟨{ m with cellData := updateDict m.cellData r.data }, ?_, rfl, rfl, rfl, rfl, ?_, ?_⟩
  · unfold applyResults
    simp only
    rw [if_neg (by rw [← hp.length_eq, hlen]; simp), hl, ok_bind, h1]
    rfl
  · intro e he
    obtain ⟨e', he', h4, h5, h6⟩ := forall₂_mem_left h3 he
    refine ⟨e'.2, by rw [← h4]; exact g1 e' he', by rw [h5, h2, hlen], fun i j s hi hj => ?_⟩
    refine h6 i j ?_ (List.getElem?_eq_some_iff.1 hj).1 ?_
    · rw [h2]; exact (List.getElem?_eq_some_iff.1 hi).1
    · rw [h2, hi, hj]
  · intro k hk'
    exact g2 k (by rw [hk]; exact hk')

example : Full pressures ∧ ["A1100".toList, "A1101".toList].Perm pressures.labels ∧
    labeler (nCells tetraPair.cells) none = .ok ["A1100".toList, "A1101".toList] := by
  refine ⟨?_, .swap _ _ _, by decide +kernel⟩
  intro e he
  simp only [pressures, List.mem_singleton] at he
  subst he
  rfl

/-- C75. Results of connections: for every variable each cell gets the sum of the vectors of
the flows that enter it (a positive value is a flow into the first cell); arrays of other
names stay, as do points, cells, point data and groups. -/
theorem C75_connection (m : Mesh ℝ (Row ℝ)) (len : Option ℤ) (labels : List Str) (cs : List (P3 ℝ))
    (o : Output (Str × Str) ℝ) (hc : centers m = .ok cs) (hl : labeler (nCells m.cells) len = .ok labels)
    (hf : Full o) (hd : labels.Nodup) (he : ∀ e ∈ o.labels, e.1 ∈ labels ∧ e.2 ∈ labels)
    (hn : (o.data.map (·.1)).Nodup) :
    ∃ r, applyResults m len (.connection o) = .ok r ∧ r.points = m.points ∧ r.cells = m.cells ∧
      r.pointData = m.pointData ∧ r.fieldData = m.fieldData ∧
      (∀ e ∈ o.data, dictGet r.cellData e.1 = .ok (labels.map fun s =>
        .vec (inflow (centreOf labels cs) (o.labels.zip e.2) s))) ∧
      ∀ k, k ∉ o.data.map (·.1) → dictGet r.cellData k = dictGet m.cellData k := by
  have hlen := labeler_length hl
  have hcl := centers_length hc
  let d := o.data.map fun e => (e.1, labels.map fun s =>
    Row.vec (inflow (centreOf labels cs) (o.labels.zip e.2) s))
  have hk : d.map (·.1) = o.data.map (·.1) := by
    simp only [d, List.map_map]
    rfl
  obtain ⟨g1, g2⟩ := dictGet_updated (base := m.cellData) (d := d) (by rw [hk]; exact hn)
  refine ⟨{ m with cellData := updateDict m.cellData d }, ?_, rfl, rfl, rfl, rfl, ?_, ?_⟩
  · unfold applyResults
    simp only
    rw [hc, ok_bind, hl, ok_bind, mapM_ok fun ls hls =>
      connLine_ok hd (by rw [hcl, hlen]) (he ls hls).1 (he ls hls).2, ok_bind]
    rw [mapM_ok (g := fun e => (e.1, labels.map fun s =>
      Row.vec (inflow (centreOf labels cs) (o.labels.zip e.2) s)))]
    · rfl
    · intro e hem
      rw [← hlen, flowVectors_ok hd (hf e hem) he]
      rfl
  · intro e hem
    exact g1 _ (List.mem_map_of_mem (f := fun e => (e.1, labels.map fun s =>
      Row.vec (inflow (centreOf labels cs) (o.labels.zip e.2) s))) hem)
  · intro k hk'
    exact g2 k (by rw [hk]; exact hk')

example : Full oneFlow ∧ (∃ cs, centers tetraPair = .ok cs) ∧
    ∀ e ∈ oneFlow.labels, e.1 ∈ ["A1100".toList, "A1101".toList] ∧ e.2 ∈ ["A1100".toList, "A1101".toList] := by
  refine ⟨?_, ⟨_, rfl⟩, by decide⟩
  intro e he
  simp only [oneFlow, List.mem_singleton] at he
  subst he
  rfl

/-- C75. The vector of a flow between cells with different centres is as long as the flow is
large. -/
theorem C75_length (centre : Str → P3 ℝ) (e : (Str × Str) × ℝ) (h : centre e.1.1 ≠ centre e.1.2) :
    dist3 ⟨0, 0, 0⟩ (flowVector centre e) = |e.2| := by
  have hne : centre (fromCell e) ≠ centre (intoCell e) := by
    unfold fromCell intoCell
    split
    · exact h.symm
    · exact h
  have hpos := dist3_pos hne
  unfold flowVector
  simp only
  generalize centre (fromCell e) = a at hpos
  generalize centre (intoCell e) = b at hpos
  have hk : 0 ≤ |e.2| / dist3 a b := div_nonneg (abs_nonneg _) hpos.le
  have hsq : distSq ⟨0, 0, 0⟩ ⟨|e.2| / dist3 a b * (b.x - a.x), |e.2| / dist3 a b * (b.y - a.y),
      |e.2| / dist3 a b * (b.z - a.z)⟩ = (|e.2| / dist3 a b) ^ 2 * distSq a b := by
    unfold distSq
    ring
  rw [show dist3 _ _ = √(distSq ⟨0, 0, 0⟩ ⟨|e.2| / dist3 a b * (b.x - a.x), |e.2| / dist3 a b * (b.y - a.y),
      |e.2| / dist3 a b * (b.z - a.z)⟩) from rfl, hsq, Real.sqrt_mul (sq_nonneg _), Real.sqrt_sq hk,
    show √(distSq a b) = dist3 a b from rfl, div_mul_cancel₀ _ hpos.ne']

/-- A flow of 3 into the first cell, which lies above the second, points upwards. -/
example : inflow (fun s => if s = "A1100".toList then ⟨0, 0, 5⟩ else ⟨0, 0, 1⟩)
    [(("A1100".toList, "A1101".toList), 3)] "A1100".toList = [0, 0, 3] ∧
    inflow (fun s => if s = "A1100".toList then ⟨0, 0, 5⟩ else ⟨0, 0, 1⟩)
      [(("A1100".toList, "A1101".toList), 3)] "A1101".toList = [0, 0, 0] := by
  have h1 : intoCell (("A1100".toList, "A1101".toList), 3) = "A1100".toList := if_pos (by norm_num)
  have h2 : fromCell (("A1100".toList, "A1101".toList), 3) = "A1101".toList := if_pos (by norm_num)
  have h3 : dist3 ⟨0, 0, 1⟩ ⟨0, 0, 5⟩ = 4 := by
    unfold dist3 distSq
    rw [show ((0 : ℝ) - 0) ^ 2 + (0 - 0) ^ 2 + (1 - 5) ^ 2 = 4 ^ 2 by norm_num]
    exact Real.sqrt_sq (by norm_num)
  constructor
  · unfold inflow
    simp only [List.filter_cons, List.filter_nil, h1, decide_true, if_true, List.map_cons, List.map_nil, flowVector,
      h2]
    rw [if_neg (by decide), h3]
    norm_num
  · unfold inflow
    simp only [List.filter_cons, List.filter_nil, h1]
    rw [if_neg (by decide)]
    rfl

/-- C75. An output with another number of elements is refused. -/
theorem C75_number (m : Mesh ℝ (Row ℝ)) (len : Option ℤ) (o : Output Str (Row ℝ))
    (h : o.labels.length ≠ nCells m.cells) : applyResults m len (.element o) = .error .valueError := by
  unfold applyResults
  simp only
  rw [if_pos h]

example : pressures.labels.length ≠ nCells [⟨.tetra, [[0, 1, 2, 3]]⟩] := by decide

/-- C75. An output without labels, as read from a Tecplot file, is refused. -/
theorem C75_unlabelled (m : Mesh ℝ (Row ℝ)) (len : Option ℤ) (o : Output Unit (Row ℝ)) :
    applyResults m len (.unlabelled o) = .error .typeError := rfl

/-- C75. An output of elements in which a label of the mesh is missing is refused. -/
theorem C75_missing (m : Mesh ℝ (Row ℝ)) (len : Option ℤ) (labels : List Str) (o : Output Str (Row ℝ))
    (hl : labeler (nCells m.cells) len = .ok labels) (h : o.labels.length = nCells m.cells)
    (hs : ∃ s ∈ labels, s ∉ o.labels) : applyResults m len (.element o) = .error .keyError := by
  unfold applyResults
  simp only
  rw [if_neg (by simp [h]), hl, ok_bind,
    C36_unknown_label o labels (by rw [h, labeler_length hl]) hs]
  rfl

example : ∃ s ∈ ["A1100".toList, "A1102".toList], s ∉ pressures.labels := ⟨"A1102".toList, by decide⟩

/-- C75. An output of connections with a label that is not in the mesh is refused. -/
theorem C75_unknown (m : Mesh ℝ (Row ℝ)) (len : Option ℤ) (labels : List Str) (cs : List (P3 ℝ))
    (o : Output (Str × Str) ℝ) (hc : centers m = .ok cs) (hl : labeler (nCells m.cells) len = .ok labels)
    (hs : ∃ e ∈ o.labels, e.1 ∉ labels ∨ e.2 ∉ labels) :
    applyResults m len (.connection o) = .error .keyError := by
  have hlen := labeler_length hl
  have hcl := centers_length hc
  have hrow : ∀ s j, dictGet (labelMap labels) s = .ok j → ∃ c, rowAt cs j = .ok c := by
    intro s j hj
    have := (List.getElem?_eq_some_iff.1 (labelMap_sound hj)).1
    exact ⟨cs[j]'(by omega), rowAt_ok.2 (List.getElem?_eq_getElem (by omega))⟩
  unfold applyResults
  simp only
  rw [hc, ok_bind, hl, ok_bind, mapM_error_of_mem (x := .keyError)]
  · rfl
  · intro e _
    unfold connLine
    by_cases h1 : e.1 ∈ labels
    · obtain ⟨i1, h1⟩ := labelMap_complete h1
      rw [h1, ok_bind]
      by_cases h2 : e.2 ∈ labels
      · obtain ⟨i2, h2⟩ := labelMap_complete h2
        obtain ⟨c1, g1⟩ := hrow _ _ h1
        obtain ⟨c2, g2⟩ := hrow _ _ h2
        rw [h2, ok_bind, g1, g2]
        exact .inl ⟨_, rfl⟩
      · rw [labelMap_unknown h2]
        exact .inr rfl
    · rw [labelMap_unknown h1]
      exact .inr rfl
  · obtain ⟨e, he, h⟩ := hs
    refine ⟨e, he, ?_⟩
    unfold connLine
    by_cases h1 : e.1 ∈ labels
    · obtain ⟨i1, h1'⟩ := labelMap_complete h1
      rw [h1', ok_bind, labelMap_unknown (h.resolve_left (not_not.2 h1))]
      rfl
    · rw [labelMap_unknown h1]
      rfl

example : ∃ e ∈ oneFlow.labels, e.1 ∉ ["A1100".toList] ∨ e.2 ∉ ["A1100".toList] :=
  ⟨("A1100".toList, "A1101".toList), by decide⟩

end Verif.Props
