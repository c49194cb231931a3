import Verif.Lemmas.Mesh

/-!
# Meshes: splitting, materials, box filter and nearest cell (C43, C46-C48)
-/

namespace Verif.Props
open Verif.Py Verif.Model Verif.Spec Verif.Mesh

/-! ## C43: splitting per-cell arrays -/

/-- C43. The pieces put together are the array, and every piece has the number of
rows of its block. -/
theorem C43_split {α : Type} (cells : List CellBlock) (arr : List α) (pieces : List (List α))
    (h : split cells arr = .ok pieces) :
    pieces.flatten = arr ∧ (cells ≠ [] → pieces.map List.length = cells.map (·.data.length)) := by
  unfold split at h
  by_cases hl : arr.length ≠ nCells cells
  · rw [if_pos hl] at h; cases h
  · rw [if_neg hl] at h
    rw [not_not] at hl
    injection h with h
    subst h
    by_cases hc : cells = []
    · subst hc
      have : arr = [] := List.length_eq_zero_iff.1 (by simpa [nCells] using hl)
      subst this
      exact ⟨by simp [npSplit, cumsum], fun h => absurd rfl h⟩
    · obtain ⟨h1, h2⟩ := split_ok hc hl
      exact ⟨h1, fun _ => h2⟩

/-- C43. An array is accepted exactly if it has one row per cell. -/
theorem C43_accepts {α : Type} (cells : List CellBlock) (arr : List α) :
    ((∃ pieces, split cells arr = .ok pieces) ↔ arr.length = (allCells cells).length) ∧
      (arr.length ≠ (allCells cells).length → split cells arr = .error .valueError) := by
  have e : nCells cells = (allCells cells).length := by
    simp [nCells, allCells, List.length_flatMap]
  unfold split
  rw [e]
  refine ⟨⟨fun ⟨p, h⟩ => ?_, fun h => ?_⟩, fun h => if_pos h⟩
  · by_contra hl
    rw [if_pos hl] at h; cases h
  · rw [if_neg (not_not.2 h)]
    exact ⟨_, rfl⟩

/-- A mesh of three triangles and one quad. -/
def twoBlocks : List CellBlock :=
  [⟨.triangle, [[0, 1, 2], [1, 2, 3], [2, 3, 4]]⟩, ⟨.quad, [[3, 4, 5, 6]]⟩]

example : split twoBlocks ['a', 'b', 'c', 'd'] = .ok [['a', 'b', 'c'], ['d']] := by decide
example : split twoBlocks ['a', 'b', 'c'] = .error .valueError := by decide
example : split [] ([] : List Char) = .ok [[]] := by decide

/-! ## C46: assigning materials -/

/-- The number given to a material: its own, or one more than the largest in use. -/
def NewNumber (data : List ℤ) (field : List (Str × ℤ × ℤ)) (material : Str) (v : ℤ) : Prop :=
  (∀ e, (material, e) ∈ field → v = e.1) ∧
    ((∀ e, (material, e) ∉ field) → ∃ w ∈ data, v = w + 1 ∧ ∀ x ∈ data, x < v)

theorem setMaterialData_ok {n : ℕ} {data : List ℤ} {field : List (Str × ℤ × ℤ)} {material : Str}
    {assign : List ℤ → ℤ → Except PyErr (List ℤ)} {S : ℕ → Prop} (hn : data.length = n)
    (hd : data ≠ []) (hf : (field.map (·.1)).Nodup)
    (ha : ∀ v, ∃ d, assign data v = .ok d ∧ Assigned S v data d) :
    ∃ v data' field', setMaterialData n (some data) field material assign = .ok (some data', field') ∧
      NewNumber data field material v ∧ Assigned S v data data' ∧ Registered material v field field' := by
  unfold setMaterialData
  simp only
  have fin : ∀ v, ∃ data' field', (assign data v >>= fun data' =>
      if data'.length ≠ n then .error .valueError
      else .ok (some data', dictSet field material (v, 3))) = Except.ok (some data', field') ∧
      Assigned S v data data' ∧ Registered material v field field' := by
    intro v
    obtain ⟨d, h1, h2⟩ := ha v
    refine ⟨d, _, ?_, h2, fun k e => dictSet_mem hf material (v, 3) k e⟩
    rw [h1, ok_bind, if_neg]
    rw [h2.1, hn]; simp
  cases hl : dictGet field material with
  | ok e =>
    obtain ⟨data', field', h1, h2, h3⟩ := fin e.1
    have hm := (dictGet_eq_ok hf).1 hl
    refine ⟨e.1, data', field', h1, ⟨fun e' he' => ?_, fun h => absurd hm (h e)⟩, h2, h3⟩
    rw [(dictGet_eq_ok hf).2 he'] at hl
    injection hl with hl
    rw [hl]
  | error _ =>
    obtain ⟨w, hw1, hw2, hw3⟩ := maxInt_ok hd
    obtain ⟨data', field', h1, h2, h3⟩ := fin (w + 1)
    refine ⟨w + 1, data', field', ?_, ⟨fun e he => ?_, fun _ => ⟨w, hw2, rfl, fun x hx => ?_⟩⟩, h2, h3⟩
    · rw [hw1]; exact h1
    · rw [(dictGet_eq_ok hf).2 he] at hl; cases hl
    · have := hw3 x hx; omega

/-- C46. A list of cell numbers: exactly the listed cells get the material's number. -/
theorem C46_indices (n : ℕ) (data : List ℤ) (field : List (Str × ℤ × ℤ)) (material : Str) (idx : List ℕ)
    (hn : data.length = n) (hf : (field.map (·.1)).Nodup) (h0 : idx ≠ []) (hi : ∀ i ∈ idx, i < n) :
    ∃ v data' field', setMaterial n (some data) field material (idx.map fun i : ℕ => .int i) =
        .ok (some data', field') ∧ NewNumber data field material v ∧
      Assigned (· ∈ idx) v data data' ∧ Registered material v field field' := by
  have hd : data ≠ [] := by
    rintro rfl
    obtain ⟨i, hi'⟩ := List.exists_mem_of_ne_nil _ h0
    have := hi i hi'
    simp at hn; omega
  have h1 : (idx.map fun i : ℕ => Sel.int i).all Sel.isInt = true := by simp [Sel.isInt]
  have h2 : (idx.map fun i : ℕ => Sel.int i) ≠ [] := by simpa using h0
  have h3 : ((idx.map fun i : ℕ => Sel.int i).any (fun c => decide (c.toInt < 0)) ||
      (idx.map fun i : ℕ => Sel.int i).any (fun c => decide ((n : ℤ) ≤ c.toInt))) = false := by
    rw [Bool.or_eq_false_iff, List.any_eq_false, List.any_eq_false]
    constructor <;> intro x hx <;> obtain ⟨i, hx', rfl⟩ := List.mem_map.1 hx <;> rw [decide_eq_true_iff]
    · show ¬ (i : ℤ) < 0
      omega
    · have := hi i hx'
      show ¬ (n : ℤ) ≤ (i : ℤ)
      omega
  unfold setMaterial
  rw [if_pos h1, if_neg h2, h3, if_neg (by simp)]
  refine setMaterialData_ok hn hd hf fun v => ?_
  have h4 : (idx.map fun i : ℕ => Sel.int i).all Sel.isBool = false := by
    obtain ⟨i, hi'⟩ := List.exists_mem_of_ne_nil _ h0
    rw [List.all_eq_false]
    exact ⟨.int i, List.mem_map_of_mem hi', by simp [Sel.isBool]⟩
  unfold assignSel
  rw [h4, if_neg (by simp)]
  have h5 : ((idx.map fun i : ℕ => Sel.int i).map fun s => s.toInt.toNat) = idx := by
    rw [List.map_map]
    conv_rhs => rw [← List.map_id idx]
    rfl
  rw [h5]
  exact assignAt_ok v fun i hi' => by rw [hn]; exact hi i hi'

/-- C46. A numpy mask: exactly the cells whose entry is true get the material's
number; a mask without a true entry changes nothing. -/
theorem C46_mask (n : ℕ) (data : List ℤ) (field : List (Str × ℤ × ℤ)) (material : Str) (mask : List Bool)
    (hn : data.length = n) (hf : (field.map (·.1)).Nodup) (hm : mask.length = n) (h0 : n ≠ 0) :
    (true ∉ mask → setMaterial n (some data) field material (mask.map .npBool) = .ok (some data, field)) ∧
    (true ∈ mask → ∃ v data' field', setMaterial n (some data) field material (mask.map .npBool) =
        .ok (some data', field') ∧ NewNumber data field material v ∧
      Assigned (fun i => mask[i]? = some true) v data data' ∧ Registered material v field field') := by
  have hne : mask ≠ [] := by rintro rfl; exact h0 hm.symm
  have h1 : (mask.map Sel.npBool).all Sel.isInt = false := by
    obtain ⟨b, hb⟩ := List.exists_mem_of_ne_nil _ hne
    rw [List.all_eq_false]
    exact ⟨.npBool b, List.mem_map_of_mem hb, by simp [Sel.isInt]⟩
  have h2 : (mask.map Sel.npBool).all Sel.isBool = true := by simp [Sel.isBool]
  have h3 : (mask.map Sel.npBool).map Sel.toBool = mask := by
    rw [List.map_map]
    conv_rhs => rw [← List.map_id mask]
    rfl
  have h4 : ¬ (mask.map Sel.npBool).length ≠ n := by simp [hm]
  unfold setMaterial
  rw [h1, if_neg (by simp), if_pos h2, if_neg h4]
  simp only [h3]
  refine ⟨fun h => ?_, fun h => ?_⟩
  · rw [if_pos]
    rw [List.eq_nil_iff_forall_not_mem]
    intro i hi
    rw [mem_whereTrue] at hi
    exact h (List.mem_of_getElem? hi)
  · rw [if_neg]
    · have hd : data ≠ [] := by
        rintro rfl
        exact h0 (by simpa using hn.symm)
      refine setMaterialData_ok hn hd hf fun v => ?_
      obtain ⟨d, h5, h6, h7⟩ := assignAt_ok (data := data) (idx := whereTrue mask) v fun i hi => by
        rw [mem_whereTrue] at hi
        rw [hn, ← hm]
        exact (List.getElem?_eq_some_iff.1 hi).1
      exact ⟨d, h5, h6, fun i hi => by simpa only [mem_whereTrue] using h7 i hi⟩
    · obtain ⟨i, hi⟩ := List.getElem?_of_mem h
      intro h'
      have := (mem_whereTrue mask i).2 hi
      rw [h'] at this
      simp at this

/-- C46, for a list of Python booleans. Missing: the mask `[True]` of a mesh with one
cell, which is refused (see `C46_violated`). -/
theorem C46_pymask_partial (n : ℕ) (data : List ℤ) (field : List (Str × ℤ × ℤ)) (material : Str)
    (mask : List Bool) (hn : data.length = n) (hf : (field.map (·.1)).Nodup) (hm : mask.length = n)
    (h0 : 2 ≤ n) :
    ∃ v data' field', setMaterial n (some data) field material (mask.map .pyBool) =
        .ok (some data', field') ∧ NewNumber data field material v ∧
      Assigned (fun i => mask[i]? = some true) v data data' ∧ Registered material v field field' := by
  have hne : mask ≠ [] := by rintro rfl; simp at hm; omega
  have h1 : (mask.map Sel.pyBool).all Sel.isInt = true := by simp [Sel.isInt]
  have h2 : (mask.map Sel.pyBool) ≠ [] := by simpa using hne
  have h3 : ((mask.map Sel.pyBool).any (fun c => decide (c.toInt < 0)) ||
      (mask.map Sel.pyBool).any (fun c => decide ((n : ℤ) ≤ c.toInt))) = false := by
    rw [Bool.or_eq_false_iff, List.any_eq_false, List.any_eq_false]
    constructor <;> intro x hx <;> obtain ⟨b, hx, rfl⟩ := List.mem_map.1 hx <;> cases b <;>
      simp [Sel.toInt] <;> omega
  unfold setMaterial
  rw [if_pos h1, if_neg h2, h3, if_neg (by simp)]
  have hd : data ≠ [] := by rintro rfl; simp at hn; omega
  refine setMaterialData_ok hn hd hf fun v => ?_
  have h4 : (mask.map Sel.pyBool).all Sel.isBool = true := by simp [Sel.isBool]
  have h5 : (mask.map Sel.pyBool).map Sel.toBool = mask := by
    rw [List.map_map]
    conv_rhs => rw [← List.map_id mask]
    rfl
  unfold assignSel
  rw [if_pos h4, if_pos (by simp [hm, hn]), h5]
  obtain ⟨d, h5, h6, h7⟩ := assignAt_ok (data := data) (idx := whereTrue mask) v fun i hi => by
    rw [mem_whereTrue] at hi
    rw [hn, ← hm]
    exact (List.getElem?_eq_some_iff.1 hi).1
  exact ⟨d, h5, h6, fun i hi => by simpa only [mem_whereTrue] using h7 i hi⟩

/-- C46. What is refused: cell numbers out of range, masks of the wrong length, and
entries that are neither integers nor booleans. -/
theorem C46_rejects (n : ℕ) (data : Option (List ℤ)) (field : List (Str × ℤ × ℤ)) (material : Str) :
    (∀ idx : List ℤ, (∃ i ∈ idx, i < 0 ∨ (n : ℤ) ≤ i) →
      setMaterial n data field material (idx.map .int) = .error .valueError) ∧
    (∀ mask : List Bool, mask.length ≠ n →
      setMaterial n data field material (mask.map .npBool) = .error .valueError) ∧
    (∀ cells : List Sel, .other ∈ cells → setMaterial n data field material cells = .error .typeError) := by
  refine ⟨fun idx h => ?_, fun mask h => ?_, fun cells h => ?_⟩
  · obtain ⟨i, hi, h⟩ := h
    unfold setMaterial
    rw [if_pos (by simp [Sel.isInt]), if_neg (by rintro h; rw [List.map_eq_nil_iff] at h; subst h; simp at hi),
      if_pos]
    rw [Bool.or_eq_true, List.any_eq_true, List.any_eq_true]
    rcases h with h | h
    · exact .inl ⟨.int i, List.mem_map_of_mem hi, decide_eq_true h⟩
    · exact .inr ⟨.int i, List.mem_map_of_mem hi, decide_eq_true h⟩
  · unfold setMaterial
    by_cases h0 : mask = []
    · subst h0; rfl
    · rw [if_neg, if_pos (by simp [Sel.isBool]), if_pos (by simpa using h)]
      obtain ⟨b, hb⟩ := List.exists_mem_of_ne_nil _ h0
      rw [Bool.not_eq_true, List.all_eq_false]
      exact ⟨.npBool b, List.mem_map_of_mem hb, by simp [Sel.isInt]⟩
  · unfold setMaterial
    rw [if_neg, if_neg]
    · rw [Bool.not_eq_true, List.all_eq_false]
      exact ⟨_, h, by simp [Sel.isBool]⟩
    · rw [Bool.not_eq_true, List.all_eq_false]
      exact ⟨_, h, by simp [Sel.isInt]⟩

/-- C46. A new material gets a number of no other material, provided that every number
in the table is at most the number of some cell. -/
theorem C46_fresh_partial (data : List ℤ) (field : List (Str × ℤ × ℤ)) (material : Str) (v : ℤ)
    (h : NewNumber data field material v) (hn : ∀ e, (material, e) ∉ field)
    (hu : ∀ k e, (k, e) ∈ field → ∃ x ∈ data, e.1 ≤ x) : ∀ k e, (k, e) ∈ field → e.1 ≠ v := by
  intro k e he
  obtain ⟨w, -, -, h3⟩ := h.2 hn
  obtain ⟨x, hx, hle⟩ := hu k e he
  have := h3 x hx
  omega

/-- C46 is violated: the number given to a new material may be that of another
material (then giving a cell that other material shows the new name), an empty list
of cell numbers is refused, and so is the mask `[True]` for a mesh with one cell. -/
theorem C46_violated :
    (setMaterial 2 (some [1, 1]) [("A".toList, 1, 3), ("B".toList, 2, 3)] "C".toList [.int 0] =
        .ok (some [2, 1], [("A".toList, 1, 3), ("B".toList, 2, 3), ("C".toList, 2, 3)]) ∧
      setMaterial 2 (some [2, 1]) [("A".toList, 1, 3), ("B".toList, 2, 3), ("C".toList, 2, 3)]
          "B".toList [.int 1] =
        .ok (some [2, 2], [("A".toList, 1, 3), ("B".toList, 2, 3), ("C".toList, 2, 3)]) ∧
      materials 2 (some [2, 2]) [("A".toList, 1, 3), ("B".toList, 2, 3), ("C".toList, 2, 3)] =
        .names ["C".toList, "C".toList]) ∧
    (∀ n data field, setMaterial n data field "A".toList [] = .error .valueError) ∧
    setMaterial 1 (some [1]) [("A".toList, 1, 3)] "A".toList [.pyBool true] = .error .valueError := by
  refine ⟨⟨by decide, by decide, by decide⟩, fun _ _ _ => rfl, by decide⟩

/-- The name of a material number in a table. -/
theorem fieldDict_get {field : List (Str × ℤ × ℤ)} (h : (field.map (·.2.1)).Nodup) {k : Str} {e : ℤ × ℤ}
    (hm : (k, e) ∈ field) : dictGet (fieldDict field) e.1 = .ok k := by
  have key : ∀ (l : List (Str × ℤ × ℤ)) (d : List (ℤ × Str)), (l.map (·.2.1)).Nodup →
      (∀ k e, (k, e) ∈ l → dictGet (l.foldl (fun d e => dictSet d e.2.1 e.1) d) e.1 = .ok k) ∧
      (∀ i, i ∉ l.map (·.2.1) →
        dictGet (l.foldl (fun d e => dictSet d e.2.1 e.1) d) i = dictGet d i) := by
    intro l
    induction l with
    | nil => intro d _; simp
    | cons a l ih =>
      intro d hn
      rw [List.map_cons, List.nodup_cons] at hn
      obtain ⟨h1, h2⟩ := ih (dictSet d a.2.1 a.1) hn.2
      refine ⟨fun k e hk => ?_, fun i hi => ?_⟩
      · rcases List.mem_cons.1 hk with rfl | hk
        · rw [List.foldl_cons, h2 _ hn.1, dictGet_dictSet, if_pos rfl]
        · rw [List.foldl_cons]
          exact h1 k e hk
      · rw [List.map_cons, List.mem_cons, not_or] at hi
        rw [List.foldl_cons, h2 i hi.2, dictGet_dictSet, if_neg hi.1]
  exact (key field [] h).1 k e hm

/-- C46. `materials` shows the name of every cell's number if the numbers of the table
are distinct and cover all cells. -/
theorem C46_names (n : ℕ) (data : List ℤ) (names : List Str) (field : List (Str × ℤ × ℤ))
    (hf : (field.map (·.2.1)).Nodup) (h0 : field ≠ [])
    (h : List.Forall₂ (fun i k => ∃ e : ℤ × ℤ, e.1 = i ∧ (k, e) ∈ field) data names) :
    materials n (some data) field = .names names := by
  have : data.mapM (dictGet (fieldDict field)) = .ok names := by
    refine mapM_of_forall₂ (h.imp fun i k hk => ?_)
    obtain ⟨e, rfl, he⟩ := hk
    exact fieldDict_get hf he
  unfold materials
  simp only
  rw [if_pos h0, this]

/-- C46. Without material data every cell has material one; when a number is not in the
table of names, or there is no table, all materials are shown as numbers. -/
theorem C46_numbers (n : ℕ) (data : List ℤ) (field : List (Str × ℤ × ℤ)) :
    materials n none field = .numbers (List.replicate n 1) ∧
    materials n (some data) [] = .numbers data ∧
    ((∃ i ∈ data, ∀ e ∈ field, e.2.1 ≠ i) → materials n (some data) field = .numbers data) := by
  refine ⟨rfl, rfl, ?_⟩
  rintro ⟨i, hi, he⟩
  have key : ∀ (field : List (Str × ℤ × ℤ)) (d : List (ℤ × Str)), (∀ e ∈ field, e.2.1 ≠ i) →
      dictGet (field.foldl (fun d e => dictSet d e.2.1 e.1) d) i = dictGet d i := by
    intro field
    induction field with
    | nil => intro d _; rfl
    | cons e field ih =>
      intro d h
      rw [List.foldl_cons, ih _ fun e' h' => h e' (List.mem_cons_of_mem _ h'), dictGet_dictSet,
        if_neg (Ne.symm (h e List.mem_cons_self))]
  unfold materials
  simp only
  split
  · cases hm : data.mapM (dictGet (fieldDict field)) with
    | error e => rfl
    | ok l =>
      obtain ⟨k, -, hk⟩ := forall₂_mem_left (mapM_eq_ok hm) hi
      unfold fieldDict at hk
      rw [key field [] he] at hk
      cases hk
  · rfl

example : ∃ i ∈ [(1 : ℤ), 5], ∀ e ∈ [("sand".toList, (1 : ℤ), (3 : ℤ))], e.2.1 ≠ i := ⟨5, by simp, by simp⟩

/-- A mesh of three cells with two materials. -/
def someField : List (Str × ℤ × ℤ) := [("sand".toList, 1, 3), ("clay".toList, 2, 3)]

example : setMaterial 3 (some [1, 2, 1]) someField "rock".toList [.int 2, .int 0] =
    .ok (some [3, 2, 3], someField ++ [("rock".toList, 3, 3)]) := by decide
example : setMaterial 3 (some [1, 2, 1]) someField "clay".toList [.npBool true, .npBool false, .npBool false] =
    .ok (some [2, 2, 1], someField) := by decide
example : ∀ k e, (k, e) ∈ someField → ∃ x ∈ [(1 : ℤ), 2, 1], e.1 ≤ x := by
  intro k e h
  simp only [someField, List.mem_cons, Prod.mk.injEq, List.not_mem_nil, or_false] at h
  rcases h with ⟨-, rfl⟩ | ⟨-, rfl⟩
  · exact ⟨1, by simp, le_refl _⟩
  · exact ⟨2, by simp, le_refl _⟩
example : (someField.map (·.1)).Nodup ∧ (someField.map (·.2.1)).Nodup := by decide
example : materials 3 (some [1, 2, 1]) someField =
    .names ["sand".toList, "clay".toList, "sand".toList] := by decide

/-! ## C47: the box filter -/

section
variable {K : Type} [Field K] [LinearOrder K] [IsStrictOrderedRing K]

/-- C47. The filter returns exactly the cells whose centre is in the box, in
increasing order. Missing: lengths that are zero or have no origin. -/
theorem C47_box_partial {D : Type} (m : Mesh K D) (b : Box K) (idx : List ℕ)
    (hv : ∀ c ∈ allCells m.cells, c ≠ []) (hx : LengthOk b.x0 b.dx) (hy : LengthOk b.y0 b.dy)
    (hz : LengthOk b.z0 b.dz) (h : boxFilter m b = .ok idx) :
    idx.Pairwise (· < ·) ∧ ∀ i, i ∈ idx ↔
      ∃ c p, (allCells m.cells)[i]? = some c ∧ IsCenter m.points c p ∧ InBox b p := by
  unfold boxFilter at h
  rw [bind_eq_ok] at h
  obtain ⟨cs, h1, h2⟩ := h
  injection h2 with h2
  subst h2
  refine ⟨whereTrue_sorted _, fun i => ?_⟩
  have h3 := centers_ok hv h1
  rw [mem_whereTrue, List.getElem?_map, Option.map_eq_some_iff]
  have hin : ∀ p : P3 K, ((maskAxis b.x0 b.dx p.x && maskAxis b.y0 b.dy p.y) && maskAxis b.z0 b.dz p.z) = true ↔
      InBox b p := by
    intro p
    rw [Bool.and_eq_true, Bool.and_eq_true, maskAxis_iff hx, maskAxis_iff hy, maskAxis_iff hz, and_assoc]
    rfl
  rw [List.forall₂_iff_get] at h3
  constructor
  · rintro ⟨p, hp, hm⟩
    obtain ⟨hi, hp⟩ := List.getElem?_eq_some_iff.1 hp
    refine ⟨(allCells m.cells)[i], p, List.getElem?_eq_getElem (by rw [h3.1]; exact hi), ?_, (hin p).1 hm⟩
    have := h3.2 i (by rw [h3.1]; exact hi) hi
    rw [← hp]
    exact this
  · rintro ⟨c, p, hc, hp, hb⟩
    obtain ⟨hi, hc⟩ := List.getElem?_eq_some_iff.1 hc
    have hi' : i < cs.length := by rw [← h3.1]; exact hi
    refine ⟨cs[i], List.getElem?_eq_getElem hi', ?_⟩
    have := h3.2 i hi hi'
    have e : cs[i] = p := isCenter_unique (c := c) (by rw [← hc]; exact this) hp
    rw [e]
    exact (hin p).2 hb

/-- C47. The filter works for every mesh with cells and valid vertex numbers. -/
theorem C47_total {D : Type} (m : Mesh K D) (b : Box K) (h0 : m.cells ≠ [])
    (hv : ValidCells m.points m.cells) : ∃ idx, boxFilter m b = .ok idx := by
  obtain ⟨cs, h⟩ := centers_total h0 hv
  exact ⟨_, by unfold boxFilter; rw [h]; rfl⟩

/-- C47 is violated: a length of zero is no restriction, and a length without an
origin excludes every cell. -/
theorem C47_violated : (∀ (x0 : Option K) (x : K), maskAxis x0 (some 0) x = maskAxis x0 none x) ∧
    (∀ d x : K, d ≠ 0 → maskAxis none (some d) x = false) := by
  refine ⟨fun x0 x => ?_, fun d x hd => ?_⟩
  · unfold maskAxis; simp
  · unfold maskAxis; simp [hd, Ext.add, Ext.above]

end

/-- A row of two unit cubes. -/
def cubes : Mesh ℚ Unit where
  points := [⟨0, 0, 0⟩, ⟨1, 0, 0⟩, ⟨2, 0, 0⟩, ⟨0, 1, 0⟩, ⟨1, 1, 0⟩, ⟨2, 1, 0⟩,
    ⟨0, 0, 1⟩, ⟨1, 0, 1⟩, ⟨2, 0, 1⟩, ⟨0, 1, 1⟩, ⟨1, 1, 1⟩, ⟨2, 1, 1⟩]
  cells := [⟨.hexahedron, [[0, 1, 4, 3, 6, 7, 10, 9], [1, 2, 5, 4, 7, 8, 11, 10]]⟩]
  pointData := []
  cellData := []
  fieldData := []

example : boxFilter cubes { x0 := some 1, dx := some (1 / 2), z0 := some 0 } = .ok [1] := by decide +kernel
example : boxFilter cubes { x0 := some (1 / 2), dx := some 0 } = .ok [0, 1] := by decide +kernel
example : boxFilter cubes { dx := some 1 } = .ok [] := by decide +kernel
example : ValidCells cubes.points cubes.cells := by unfold ValidCells; decide

/-! ## C48: the nearest cell -/

section
variable {K : Type} [Field K] [LinearOrder K] [IsStrictOrderedRing K]

/-- The cell `i` is the first of those whose centre is nearest to `q`. -/
def IsNearest {D : Type} (m : Mesh K D) (q : P3 K) (i : ℕ) : Prop :=
  ∃ c p, (allCells m.cells)[i]? = some c ∧ IsCenter m.points c p ∧
    ∀ j c' p', (allCells m.cells)[j]? = some c' → IsCenter m.points c' p' →
      sqDist q p ≤ sqDist q p' ∧ (j < i → sqDist q p < sqDist q p')

theorem nearest_of_argmin {D : Type} {m : Mesh K D} {cs : List (P3 K)} {q : P3 K} {i : ℕ}
    (h3 : List.Forall₂ (IsCenter m.points) (allCells m.cells) cs)
    (h : argmin (cs.map (dist2 q)) = .ok i) : IsNearest m q i := by
  obtain ⟨v, h4, h5, h6⟩ := argmin_ok h
  rw [List.getElem?_map, Option.map_eq_some_iff] at h4
  obtain ⟨p, h4, rfl⟩ := h4
  rw [List.forall₂_iff_get] at h3
  obtain ⟨hi, hp⟩ := List.getElem?_eq_some_iff.1 h4
  refine ⟨(allCells m.cells)[i]'(by rw [h3.1]; exact hi), p, List.getElem?_eq_getElem _, ?_, ?_⟩
  · have := h3.2 i (by rw [h3.1]; exact hi) hi
    rw [← hp]
    exact this
  · intro j c' p' hc hp'
    obtain ⟨hj, hc⟩ := List.getElem?_eq_some_iff.1 hc
    have hj' : j < cs.length := by rw [← h3.1]; exact hj
    have := h3.2 j hj hj'
    have e : cs[j] = p' := isCenter_unique (c := c') (by rw [← hc]; exact this) hp'
    have hm : (cs.map (dist2 q))[j]? = some (dist2 q p') := by
      rw [List.getElem?_map, List.getElem?_eq_getElem hj', e]; rfl
    rw [← dist2_eq, ← dist2_eq]
    exact ⟨h5 _ (List.mem_of_getElem? hm), fun hlt => h6 j hlt _ hm⟩

/-- C48. For every query point the first nearest cell is returned. -/
theorem C48_near_all {D : Type} (m : Mesh K D) (queries : List (List K)) (idx : List ℕ)
    (hv : ∀ c ∈ allCells m.cells, c ≠ []) (h : nearAll m queries = .ok idx) :
    List.Forall₂ (fun q i => ∃ x y z, q = [x, y, z] ∧ IsNearest m ⟨x, y, z⟩ i) queries idx := by
  unfold nearAll at h
  rw [bind_eq_ok] at h
  obtain ⟨qs, h1, h⟩ := h
  rw [bind_eq_ok] at h
  obtain ⟨cs, h2, h⟩ := h
  have h3 := centers_ok hv h2
  have h4 := mapM_eq_ok h1
  have h5 := mapM_eq_ok h
  clear h1 h
  induction h4 generalizing idx with
  | nil => cases h5; exact .nil
  | @cons q p l l' hq _ ih =>
    cases h5 with
    | @cons _ i _ l'' h6 h7 =>
      refine .cons ?_ (ih _ h7)
      match q, hq with
      | [x, y, z], hq =>
        injection hq with hq
        subst hq
        exact ⟨x, y, z, rfl, nearest_of_argmin h3 h6⟩

/-- C48, for one query point. -/
theorem C48_near {D : Type} (m : Mesh K D) (x y z : K) (i : ℕ) (hv : ∀ c ∈ allCells m.cells, c ≠ [])
    (h : near m [x, y, z] = .ok i) : IsNearest m ⟨x, y, z⟩ i := by
  unfold near at h
  rw [bind_eq_ok] at h
  obtain ⟨idx, h1, h2⟩ := h
  cases C48_near_all m _ _ hv h1 with
  | cons h3 h4 =>
    cases h4
    injection h2 with h2
    subst h2
    obtain ⟨x', y', z', e, h5⟩ := h3
    injection e with e1 e
    injection e with e2 e
    injection e with e3 e
    subst e1 e2 e3
    exact h5

/-- C48. A query point with another number of coordinates is refused. -/
theorem C48_rejects {D : Type} (m : Mesh K D) (q : List K) (h : q.length ≠ 3) :
    near m q = .error .valueError := by
  unfold near nearAll
  have : toP3 q = .error .valueError := by
    match q with
    | [] => rfl
    | [_] => rfl
    | [_, _] => rfl
    | [_, _, _] => exact absurd rfl h
    | _ :: _ :: _ :: _ :: _ => rfl
  rw [List.mapM_cons, this]
  rfl

/-- C48. A cell is found in every mesh with cells and valid vertex numbers. -/
theorem C48_total {D : Type} (m : Mesh K D) (x y z : K) (h0 : allCells m.cells ≠ [])
    (hv : ValidCells m.points m.cells) : ∃ i, near m [x, y, z] = .ok i := by
  have hc : m.cells ≠ [] := by rintro h; rw [h] at h0; exact h0 rfl
  obtain ⟨cs, h⟩ := centers_total hc hv
  have h3 := centers_ok (fun c hc => (hv c hc).1) h
  have hne : cs ≠ [] := by
    rintro rfl
    exact h0 (List.length_eq_zero_iff.1 h3.length_eq)
  obtain ⟨p, cs', rfl⟩ := List.exists_cons_of_ne_nil hne
  unfold near nearAll
  rw [h]
  exact ⟨_, rfl⟩

end

example : near cubes [3, 0, 0] = .ok 1 := by decide +kernel
example : near cubes [1, 1, 1] = .ok 0 := by decide +kernel
example : nearAll cubes [[0, 0, 0], [2, 2, 2]] = .ok [0, 1] := by decide +kernel
example : near cubes [1, 1] = .error .valueError := by decide +kernel

end Verif.Props
