import Verif.Lemmas.Flac3dBin

/-!
# Lemmas about the lines of FLAC3D mesh files
-/

namespace Verif.Mesh
open Verif.Py Verif.Model Verif.Spec

theorem flacCorners_back {flag : FlacFlag} {np : ℕ} {t : CellType} {c : List ℕ} (h : CellWritten flag np t c) :
    flacCorners t (perm (flacOrderBack t) c) = c ∧ flacName t = .ok (flacWord t) := by
  have h1 := h.count
  unfold flacCount at h1
  split at h1 <;> cases h1 <;> refine ⟨?_, rfl⟩
  · rcases c with _ | ⟨a, _ | ⟨b, _ | ⟨d, _ | ⟨e, _ | ⟨f, c⟩⟩⟩⟩⟩ <;> simp at * <;> rfl
  · rcases c with _ | ⟨a, _ | ⟨b, _ | ⟨d, _ | ⟨e, _ | ⟨f, _ | ⟨g, c⟩⟩⟩⟩⟩⟩ <;> simp at * <;> rfl
  · rcases c with _ | ⟨a, _ | ⟨b, _ | ⟨d, _ | ⟨e, _ | ⟨f, _ | ⟨g, _ | ⟨i, c⟩⟩⟩⟩⟩⟩⟩ <;> simp at * <;> rfl
  · rcases c with _ | ⟨a, _ | ⟨b, _ | ⟨d, _ | ⟨e, _ | ⟨f, _ | ⟨g, _ | ⟨i, _ | ⟨j, _ | ⟨k, c⟩⟩⟩⟩⟩⟩⟩⟩⟩ <;> simp at * <;> rfl
  · rcases c with _ | ⟨a, _ | ⟨b, _ | ⟨d, _ | ⟨e, c⟩⟩⟩⟩ <;> simp at * <;> rfl
  · rcases c with _ | ⟨a, _ | ⟨b, _ | ⟨d, _ | ⟨e, _ | ⟨f, c⟩⟩⟩⟩⟩ <;> simp at * <;> rfl

theorem cellText_eq (flag : FlacFlag) {np : ℕ} {zs : List (CellType × List ℕ)}
    (h : ∀ e ∈ zs, CellWritten flag np e.1 e.2) (n : ℕ) :
    (zs.zipIdx (n + 1)).mapM (flacCellLine flag) =
      .ok (flacCellText (match flag with | .zone => 'Z' | .face => 'F') n
        (zs.map fun e => (e.1, perm (flacOrderBack e.1) e.2))) := by
  rw [mapM_ok (f := flacCellLine flag) (g := fun e : (CellType × List ℕ) × ℕ =>
    blankLine ([match flag with | .zone => 'Z' | .face => 'F'] :: flacWord e.1.1 :: natStr e.2 ::
      e.1.2.map fun v => natStr (v + 1)))]
  · rw [flacCellText, List.mapIdx_eq_zipIdx_map, List.zipIdx_map, List.map_map]
    have e0 : zs.zipIdx (n + 1) = zs.zipIdx.map fun e => (e.1, n + e.2 + 1) := by
      rw [List.zipIdx_eq_map_add (i := n + 1)]
      apply List.map_congr_left
      intro e _
      simp only [Prod.mk.injEq, true_and]
      omega
    rw [e0, List.map_map]
    congr 1
    apply List.map_congr_left
    intro e he
    have h1 := (flacCorners_back (h e.1 (List.fst_mem_of_mem_zipIdx he))).1
    simp only [Function.comp, Prod.map, id, h1]
  · intro e he
    unfold flacCellLine
    rw [(flacCorners_back (h e.1 (List.fst_mem_of_mem_zipIdx he))).2, ok_bind, spacedLine_eq]
    cases flag <;> rfl

theorem npSplit_cons (n : ℕ) (c : List ℕ) {α : Type} (l : List α) (h : n ≤ l.length) :
    npSplit l (n :: c.map (n + ·)) = l.take n :: npSplit (l.drop n) c := by
  have e : c.map (n + ·) ++ [l.length] = (c ++ [(l.drop n).length]).map (n + ·) := by
    rw [List.map_append, List.length_drop]
    simp only [List.map_cons, List.map_nil, List.append_cancel_left_eq, List.cons.injEq, and_true]
    omega
  rw [npSplit, npSplit]
  simp only [List.cons_append, List.tail_cons, e]
  rw [List.zipWith_cons_cons, List.drop_zero]
  congr 1
  have e2 : n :: (c ++ [(l.drop n).length]).map (n + ·) = (0 :: (c ++ [(l.drop n).length])).map (n + ·) := by simp
  rw [e2, List.zipWith_map]
  congr 1
  funext a b
  rw [← List.drop_drop, List.drop_take]
  congr 2
  omega

theorem flacTable_eq (l : List ℕ) : flacTable l = flacNumbers l := by
  have key : ∀ (k : ℕ) (l : List ℕ), l.length / 20 = k →
      (npSplit l (cumsum (List.replicate k 20))).filter (· ≠ []) =
        (List.range ((l.length + 19) / 20)).map fun i => (l.drop (20 * i)).take 20 := by
    intro k
    induction k with
    | zero =>
      intro l hl
      have h1 : npSplit l (cumsum (List.replicate 0 20)) = [l] := by
        simp [npSplit, cumsum]
      rw [h1]
      rcases l with _ | ⟨a, l⟩
      · rfl
      · have h2 : ((a :: l).length + 19) / 20 = 1 := by
          simp only [List.length_cons] at hl ⊢
          omega
        rw [h2]
        simp only [List.length_cons] at hl
        simp
        omega
    | succ k ih =>
      intro l hl
      rw [List.replicate_succ, cumsum, npSplit_cons 20 _ _ (by omega)]
      have h1 : ((l.drop 20).length + 19) / 20 + 1 = (l.length + 19) / 20 := by
        rw [List.length_drop]
        omega
      rw [List.filter_cons_of_pos, ih (l.drop 20) (by rw [List.length_drop]; omega), ← h1, List.range_succ_eq_map,
        List.map_cons, List.map_map]
      · simp only [Nat.mul_zero, List.drop_zero, List.cons.injEq, true_and]
        apply List.map_congr_left
        intro i _
        simp only [Function.comp, List.drop_drop]
        congr 2
        omega
      · simp only [ne_eq, decide_not, Bool.not_eq_eq_eq_not, Bool.not_true, decide_eq_false_iff_not]
        rw [List.take_eq_nil_iff]
        rintro (h | h)
        · omega
        · rw [h] at hl
          simp at hl
  rw [flacTable, key _ _ rfl, flacNumbers, List.map_map]
  apply List.map_congr_left
  intro i _
  simp only [Function.comp, spacedLine_eq]

theorem groupText_eq {m : FlacMesh} (h : FlacOk m)
    (hk : materialOfCells m ≠ none → ∀ b ∈ m.cells, dimOf b.type ≠ 0) (flag : FlacFlag) :
    flacGroupLines m flag = flacGroupText
      (match flag with | .zone => "* ZONE GROUPS\n".toList | .face => "* FACE GROUPS\n".toList)
      (match flag with | .zone => "ZGROUP".toList | .face => "FGROUP".toList) flag.dim m := by
  rw [flacGroupLines.eq_def, flacGroupText, flacMaterial_eq]
  cases hm : materialOfCells m with
  | none => rfl
  | some mat =>
    simp only
    have := flacGroups_eq flag (hk (by rw [hm]; exact Option.some_ne_none _)) (materialOfCells_length h hm)
    rw [← this, List.flatMap_map]
    simp only [flacTable_eq]
    cases flag <;> rfl

theorem flacPointLine_eq (p : ℕ) (ps : List (P3 Flt)) : ps.zipIdx.map (flacPointLine p) =
    ps.mapIdx fun i q => "G\t".toList ++ List.replicate (8 - (natStr (i + 1)).length) ' ' ++ natStr (i + 1) ++
      '\t' :: fmtE p q.x ++ '\t' :: fmtE p q.y ++ '\t' :: fmtE p q.z ++ ['\n'] := by
  rw [List.mapIdx_eq_zipIdx_map]
  apply List.map_congr_left
  intro e _
  simp [flacPointLine, joinWith, padLeft, blanks]

/-- All lines of the file. -/
theorem writeFlac_lines (p : ℕ) (pos : P3 Flt → P3 Flt → P3 Flt → P3 Flt → Bool) (version date : Str) {m : FlacMesh}
    (h : FlacOk m) (hk : materialOfCells m ≠ none → ∀ b ∈ m.cells, dimOf b.type ≠ 0) :
    ∃ zones, List.Forall₂ (Oriented pos m.points) (cornersOf 3 m.cells) zones ∧
      writeFlac p pos version date m = .ok (flacFile p version date m zones) := by
  obtain ⟨zb, hz1, hz2, hz3, hz4⟩ := translate_zones pos h
  obtain ⟨fb, hf1, hf2, hf3⟩ := translate_faces pos h
  have hcount : nCells (flacBlocks .zone m.cells) = (cellList zb).length := by
    rw [← hz4, ← typedCells_length]
    rfl
  refine ⟨_, hz3, ?_⟩
  have e1 := cellText_eq .zone hz2 0
  have e2 := cellText_eq .face hf2 (cellList zb).length
  have hzones := show flacCellLines pos m.points m.cells .zone = .ok ("* ZONES\n".toList :: flacCellText 'Z' 0 _) by
    rw [flacCellLines, hz1, ok_bind]
    simp only
    rw [e1]
    rfl
  have hfaces := show flacCellLines pos m.points m.cells .face =
      .ok ("* FACES\n".toList :: flacCellText 'F' (cellList zb).length _) by
    rw [flacCellLines, hf1, ok_bind]
    simp only [hcount]
    rw [e2]
    rfl
  rw [writeFlac, flacCheck_ok h, ok_bind, hzones, ok_bind, hfaces, ok_bind, hf3, groupText_eq h hk, groupText_eq h hk,
    flacPointLine_eq, flacFile, List.length_map]
  simp only [List.append_assoc, List.cons_append]
  rfl

/-! ### binary files -/

theorem binCellText_eq (flag : FlacFlag) {np : ℕ} {zs : List (CellType × List ℕ)}
    (h : ∀ e ∈ zs, CellWritten flag np e.1 e.2) (n : ℕ) :
    bytesOf 4 zs.length ++ ((zs.zipIdx (n + 1)).map cellBytes).flatten =
      flacCellBytes n (zs.map fun e => (e.1, perm (flacOrderBack e.1) e.2)) := by
  rw [flacCellBytes, List.length_map, List.mapIdx_eq_zipIdx_map, List.zipIdx_map, List.map_map]
  have e0 : zs.zipIdx (n + 1) = zs.zipIdx.map fun e => (e.1, n + e.2 + 1) := by
    rw [List.zipIdx_eq_map_add (i := n + 1)]
    apply List.map_congr_left
    intro e _
    simp only [Prod.mk.injEq, true_and]
    omega
  rw [e0, List.map_map]
  congr 2
  apply List.map_congr_left
  intro e he
  have h1 := (flacCorners_back (h e.1 (List.fst_mem_of_mem_zipIdx he))).1
  simp only [Function.comp, Prod.map, id, h1, cellBytes]

theorem namedGroups_eq {m : FlacMesh} (h : FlacOk m)
    (hk : materialOfCells m ≠ none → ∀ b ∈ m.cells, dimOf b.type ≠ 0) (flag : FlacFlag) :
    bytesOf 4 (namedGroups m flag).length ++ ((namedGroups m flag).map groupBytes).flatten =
      flacGroupBytes flag.dim m := by
  rw [namedGroups, flacGroupBytes]
  cases hm : materialOfCells m with
  | none => rfl
  | some mat =>
    simp only
    rw [flacGroups_eq flag (hk (by rw [hm]; exact Option.some_ne_none _)) (materialOfCells_length h hm),
      List.flatMap_def]
    congr 2
    apply List.map_congr_left
    intro g _
    simp only [groupBytes, List.append_assoc]

/-- All bytes of the file. -/
theorem writeFlacBin_bytes (pos : P3 Flt → P3 Flt → P3 Flt → P3 Flt → Bool) {m : FlacMesh} (h : FlacOk m) (hb : BinOk m)
    (hg : ∀ mat, materialOfCells m = some mat → BinNames m mat) :
    ∃ zones, List.Forall₂ (Oriented pos m.points) (cornersOf 3 m.cells) zones ∧
      writeFlacBin pos m = .ok (flacBinFile m zones) := by
  obtain ⟨zb, fb, hz2, hz3, hf2, hf3, hw⟩ := writeFlacBin_parts pos h hb hg
  refine ⟨_, hz3, ?_⟩
  have hk : materialOfCells m ≠ none → ∀ b ∈ m.cells, dimOf b.type ≠ 0 := by
    intro hn
    obtain ⟨mat, hm⟩ := Option.ne_none_iff_exists'.1 hn
    exact (hg mat hm).known
  rw [hw, binCellText_eq .zone hz2, binCellText_eq .face hf2, hf3, namedGroups_eq h hk, namedGroups_eq h hk, flacBinFile,
    List.length_map, List.mapIdx_eq_zipIdx_map]
  simp only [List.append_assoc, List.flatMap_cons, List.flatMap_nil, List.nil_append, pointBytes]
  rfl

end Verif.Mesh
