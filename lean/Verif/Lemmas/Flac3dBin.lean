import Verif.Lemmas.Bytes
import Verif.Lemmas.Flac3dText
import Verif.Model.Flac3dBin
import Verif.Spec.Flac3dBin

/-!
# Lemmas about binary FLAC3D mesh files
-/

namespace Verif.Mesh
open Verif.Py Verif.Model Verif.Spec

theorem packMany_ok {ns : List ℕ} (h : ∀ n ∈ ns, n < 256 ^ 4) : packMany ns = .ok (ns.flatMap (bytesOf 4)) := by
  rw [packMany, mapM_ok (f := packUInt 4) (g := bytesOf 4) fun n hn => packUInt_ok (h n hn), ok_bind,
    List.flatMap_def]

/-! ### points -/

/-- The bytes of a point. -/
def pointBytes (e : P3 Flt × ℕ) : List ℕ :=
  bytesOf 4 (e.2 + 1) ++ packDouble e.1.x ++ packDouble e.1.y ++ packDouble e.1.z

/-- The coordinates of a point. -/
def pointCoords (q : P3 Flt) : List Flt := [q.x, q.y, q.z]

theorem binPoints_ok {ps : List (P3 Flt)} (h : ps.length < 2 ^ 32) :
    binPoints ps = .ok (bytesOf 4 ps.length ++ (ps.zipIdx.map pointBytes).flatten) := by
  rw [binPoints, packUInt_ok (by omega), ok_bind, mapM_ok (f := binPoint) (g := pointBytes), ok_bind]
  intro e he
  have := List.snd_lt_of_mem_zipIdx he
  rw [binPoint, packUInt_ok (by omega), ok_bind]
  rfl

theorem readBinPoints_ok {ps : List (P3 Flt)} (h : ∀ q ∈ ps, IsDouble q.x ∧ IsDouble q.y ∧ IsDouble q.z) (a : ℕ)
    (hl : a + ps.length < 2 ^ 32) (rest : List ℕ) (s : FlacState) :
    readBinPoints ps.length (((ps.zipIdx a).map pointBytes).flatten ++ rest) s =
      (((ps.zipIdx a).map fun e => FRec.point ((e.2 : ℤ) + 1) (pointCoords e.1)).foldlM FlacState.step s >>= fun s' =>
        .ok (s', rest)) := by
  induction ps generalizing a s with
  | nil => rfl
  | cons q ps ih =>
    obtain ⟨hx, hy, hz⟩ := h q (by simp)
    simp only [List.length_cons] at hl
    rw [List.zipIdx_cons, List.map_cons, List.flatten_cons, List.length_cons, List.map_cons, List.foldlM_cons]
    unfold readBinPoints
    simp only [pointBytes, List.append_assoc]
    rw [unpackUInt_append (by omega), ok_bind]
    simp only
    rw [unpackDouble_append hx, ok_bind]
    simp only
    rw [unpackDouble_append hy, ok_bind]
    simp only
    rw [unpackDouble_append hz, ok_bind]
    simp only
    have := ih (fun q hq => h q (by simp [hq])) (a + 1) (by omega) (s.addPoint ((a : ℤ) + 1) (pointCoords q))
    simp only [FlacState.step, ok_bind]
    rw [← this]
    simp only [Nat.cast_add, Nat.cast_one, pointCoords]

/-! ### cells -/

/-- The bytes of a cell with its number. -/
def cellBytes (e : (CellType × List ℕ) × ℕ) : List ℕ :=
  (e.2 :: e.1.2.length :: e.1.2.map (· + 1)).flatMap (bytesOf 4)

theorem flacCount_small {flag : FlacFlag} {n : ℕ} {t : CellType} (h : flacCount flag n = .ok t) : n ≤ 8 ∧ n ≠ 7 := by
  unfold flacCount at h
  split at h <;> cases h <;> decide

theorem binCell_ok {flag : FlacFlag} {np : ℕ} (hnp : np < 2 ^ 32) {cs : List (CellType × List ℕ)} (a : ℕ)
    (hl : a + cs.length < 2 ^ 32) (h : ∀ e ∈ cs, CellWritten flag np e.1 e.2) :
    ((cs.zipIdx (a + 1)).mapM fun e => packMany (e.2 :: e.1.2.length :: e.1.2.map (· + 1))) =
      .ok ((cs.zipIdx (a + 1)).map cellBytes) := by
  apply mapM_ok
  intro e he
  have h1 := List.snd_lt_add_of_mem_zipIdx he
  have h2 := h e.1 (List.fst_mem_of_mem_zipIdx he)
  have h3 := flacCount_small h2.count
  apply packMany_ok
  intro n hn
  simp only [List.mem_cons, List.mem_map] at hn
  rcases hn with rfl | rfl | ⟨v, hv, rfl⟩
  · omega
  · omega
  · have := h2.vertices v hv
    omega

theorem readBinCells_ok {flag : FlacFlag} {np : ℕ} (hnp : np < 2 ^ 32) {cs : List (CellType × List ℕ)} (a : ℕ)
    (hl : a + cs.length < 2 ^ 32) (h : ∀ e ∈ cs, CellWritten flag np e.1 e.2) (rest : List ℕ) (s : FlacState) :
    readBinCells flag cs.length (((cs.zipIdx (a + 1)).map cellBytes).flatten ++ rest) s =
      ((cellRecs flag a cs).foldlM FlacState.step s >>= fun s' => .ok (s', rest)) := by
  rw [cellRecs]
  induction cs generalizing a s with
  | nil => rfl
  | cons e cs ih =>
    have he := h e (by simp)
    have hc := flacCount_small he.count
    simp only [List.length_cons] at hl
    rw [List.zipIdx_cons, List.zipIdx_cons, List.map_cons, List.flatten_cons, List.length_cons, List.map_cons,
      List.foldlM_cons]
    unfold readBinCells
    simp only [cellBytes, List.flatMap_cons, List.append_assoc]
    rw [unpackUInt_append (by omega), ok_bind]
    simp only
    rw [unpackUInt_append (by omega), ok_bind]
    simp only
    have hv : ∀ n ∈ e.2.map (· + 1), n < 256 ^ 4 := by
      intro n hn
      obtain ⟨v, hv, rfl⟩ := List.mem_map.1 hn
      have := he.vertices v hv
      omega
    have hu := unpackMany_append hv (((cs.zipIdx (a + 1 + 1)).map cellBytes).flatten ++ rest)
    rw [List.length_map] at hu
    rw [hu, ok_bind]
    simp only [FlacState.step]
    have hb : decide (e.2.length = 7) = false := decide_eq_false hc.2
    rw [hb]
    have hm : (e.2.map (· + 1)).map (fun v : ℕ => (v : ℤ)) = e.2.map fun v : ℕ => (v : ℤ) + 1 := by
      rw [List.map_map]
      apply List.map_congr_left
      intro v _
      simp
    rw [hm, Nat.cast_add, Nat.cast_one, bind_assoc]
    congr 1
    funext s'
    have := ih (a + 1) (by omega) (fun e he => h e (by simp [he])) s'
    rw [← this]

/-! ### groups -/

/-- The bytes of a group. -/
def groupBytes (g : Str × List ℕ) : List ℕ :=
  bytesOf 2 g.1.length ++ (g.1.map Char.toNat ++ (bytesOf 2 7 ++ ("Default".toList.map Char.toNat ++
    (bytesOf 4 g.2.length ++ g.2.flatMap (bytesOf 4)))))

theorem binGroup_ok {g : Str × List ℕ} (ha : Ascii g.1) (hs : g.1.length < 2 ^ 16) (hl : g.2.length < 2 ^ 32)
    (hd : ∀ v ∈ g.2, v < 2 ^ 32) : binGroup g.1 g.2 = .ok (groupBytes g) := by
  rw [binGroup, packUInt_ok (by omega), ok_bind, packMany_ok, ok_bind, utf8_ascii ha, groupBytes, packText]
  · rw [List.length_map, Nat.sub_self, List.replicate_zero, List.append_nil,
      List.take_of_length_le (by rw [List.length_map]), utf8_ascii (by decide)]
    simp only [List.flatMap_cons, List.append_assoc]
  · intro n hn
    rcases List.mem_cons.1 hn with rfl | hn
    · omega
    · have := hd n hn
      omega

theorem readBinText_ok {s : Str} (ha : Ascii s) (hs : s.length < 2 ^ 16) (rest : List ℕ) :
    readBinText (bytesOf 2 s.length ++ (s.map Char.toNat ++ rest)) = .ok (s, rest) := by
  rw [readBinText, unpackUInt_append (by omega), ok_bind]
  simp only
  rw [takeBytes_append (by rw [List.length_map]), ok_bind]
  simp only
  rw [utf8Decode_ascii ha, ok_bind]

theorem readBinGroups_ok (flag : FlacFlag) {gs : List (Str × List ℕ)} (ha : ∀ g ∈ gs, Ascii g.1)
    (hs : ∀ g ∈ gs, g.1.length < 2 ^ 16) (hl : ∀ g ∈ gs, g.2.length < 2 ^ 32) (hd : ∀ g ∈ gs, ∀ v ∈ g.2, v < 2 ^ 32)
    (rest : List ℕ) (s : FlacState) :
    readBinGroups flag gs.length ((gs.map groupBytes).flatten ++ rest) s =
      ((groupRecs flag "Default".toList (gs.map fun g => (g.1, g.2.map fun v : ℕ => (v : ℤ)))).foldlM FlacState.step s
        >>= fun s' => .ok (s', rest)) := by
  rw [groupRecs]
  induction gs generalizing s with
  | nil => rfl
  | cons g gs ih =>
    rw [List.map_cons, List.flatten_cons, List.length_cons, List.map_cons, List.map_cons, List.foldlM_cons]
    unfold readBinGroups
    simp only [groupBytes, List.append_assoc]
    rw [readBinText_ok (ha g (by simp)) (hs g (by simp)), ok_bind]
    simp only
    have hdef : bytesOf 2 7 = bytesOf 2 "Default".toList.length := rfl
    rw [hdef, readBinText_ok (by decide) (by decide), ok_bind]
    simp only
    have h1 := hl g (by simp)
    rw [unpackUInt_append (by omega), ok_bind]
    simp only
    rw [unpackMany_append (by
      intro n hn
      have := hd g (by simp) n hn
      omega), ok_bind]
    simp only [FlacState.step]
    rw [bind_assoc]
    congr 1
    funext s'
    have := ih (fun g hg => ha g (by simp [hg])) (fun g hg => hs g (by simp [hg])) (fun g hg => hl g (by simp [hg]))
      (fun g hg => hd g (by simp [hg])) s'
    rw [← this]

theorem whereTrue_length (l : List Bool) : (whereTrue l).length ≤ l.length := by
  rw [whereTrue, List.length_map]
  refine le_trans (List.length_filter_le _ _) ?_
  rw [List.length_zipIdx]

/-- The groups of one kind with their names. -/
def namedGroups (m : FlacMesh) (flag : FlacFlag) : List (Str × List ℕ) :=
  match materialOfCells m with
  | none => []
  | some mat => (flacGroups m.cells mat flag).map fun g => (flacLabel m.fieldData flag g.1, g.2)

theorem fileGroups_named (m : FlacMesh) (flag : FlacFlag) :
    fileGroups m flag = (namedGroups m flag).map fun g => (g.1, g.2.map fun v : ℕ => (v : ℤ)) := by
  unfold fileGroups namedGroups
  cases materialOfCells m with
  | none => rfl
  | some mat =>
    simp only
    rw [readGroups, List.map_map]
    apply List.map_congr_left
    intro g _
    simp [flacLabel_eq]

theorem flacGroups_small (cells : List CellBlock) (mat : List ℤ) (flag : FlacFlag) :
    (flacGroups cells mat flag).length ≤ mat.length ∧
      ∀ g ∈ flacGroups cells mat flag, g.2.length ≤ mat.length ∧ ∀ v ∈ g.2, v ≤ mat.length := by
  refine ⟨?_, ?_⟩
  · rw [flacGroups]
    refine le_trans (List.length_filter_le _ _) ?_
    rw [List.length_map, List.length_insertionSort]
    exact (List.dedup_sublist mat).length_le
  · intro g hg
    rw [flacGroups, List.mem_filter, List.mem_map] at hg
    obtain ⟨⟨k, _, rfl⟩, _⟩ := hg
    refine ⟨?_, ?_⟩
    · rw [List.length_map]
      refine le_trans (whereTrue_length _) ?_
      rw [List.length_map, List.length_zip]
      omega
    · intro v hv
      obtain ⟨i, hi, rfl⟩ := List.mem_map.1 hv
      rw [mem_whereTrue] at hi
      have := (List.getElem?_eq_some_iff.1 hi).1
      rw [List.length_map, List.length_zip] at this
      omega

theorem namedGroups_ok {m : FlacMesh} (h : FlacOk m) (hb : BinOk m)
    (hg : ∀ mat, materialOfCells m = some mat → BinNames m mat) (flag : FlacFlag) :
    (namedGroups m flag).length < 2 ^ 32 ∧ (∀ g ∈ namedGroups m flag, Ascii g.1) ∧
      (∀ g ∈ namedGroups m flag, g.1.length < 2 ^ 16) ∧ (∀ g ∈ namedGroups m flag, g.2.length < 2 ^ 32) ∧
      ∀ g ∈ namedGroups m flag, ∀ v ∈ g.2, v < 2 ^ 32 := by
  unfold namedGroups
  cases hm : materialOfCells m with
  | none => simp
  | some mat =>
    have ok := hg mat hm
    have hp := flacGroups_partition mat flag ok.known
    have hlen := materialOfCells_length h hm
    have hc := hb.cells
    obtain ⟨h1, h2⟩ := flacGroups_small m.cells mat flag
    simp only
    have key : ∀ g ∈ flacGroups m.cells mat flag, (flag.dim, g.1) ∈ groupKeys m.cells mat :=
      fun g hg => key_of_group hp (List.mem_map.2 ⟨g, hg, rfl⟩)
    refine ⟨by rw [List.length_map]; omega, ?_, ?_, ?_, ?_⟩ <;> intro g hg <;>
      obtain ⟨g', hg', rfl⟩ := List.mem_map.1 hg
    · simp only [flacLabel_eq]
      exact ok.ascii _ (key g' hg')
    · simp only [flacLabel_eq]
      exact ok.short _ (key g' hg')
    · have := (h2 g' hg').1
      simp only
      omega
    · intro v hv
      have := (h2 g' hg').2 v hv
      omega

theorem binGroups_ok {m : FlacMesh} (h : FlacOk m) (hb : BinOk m)
    (hg : ∀ mat, materialOfCells m = some mat → BinNames m mat) (flag : FlacFlag) :
    binGroups m flag = .ok (bytesOf 4 (namedGroups m flag).length ++ ((namedGroups m flag).map groupBytes).flatten) := by
  obtain ⟨h1, h2, h3, h4, h5⟩ := namedGroups_ok h hb hg flag
  unfold binGroups
  rw [flacMaterial_eq]
  unfold namedGroups at *
  cases hm : materialOfCells m with
  | none => rfl
  | some mat =>
    rw [hm] at h1 h2 h3 h4 h5
    simp only at h1 h2 h3 h4 h5 ⊢
    rw [List.length_map] at h1
    rw [packUInt_ok (by omega), ok_bind, mapM_ok (g := fun g => groupBytes (flacLabel m.fieldData flag g.1, g.2)),
      ok_bind, List.length_map, List.map_map]
    · rfl
    · intro g hg
      have hmem := List.mem_map_of_mem (f := fun g : ℤ × List ℕ => (flacLabel m.fieldData flag g.1, g.2)) hg
      exact binGroup_ok (h2 _ hmem) (h3 _ hmem) (h4 _ hmem) (h5 _ hmem)

/-! ### files -/

theorem readBinKind_ok (flag : FlacFlag) {np : ℕ} (hnp : np < 2 ^ 32) {cs : List (CellType × List ℕ)} (a : ℕ)
    (hl : a + cs.length < 2 ^ 32) (h : ∀ e ∈ cs, CellWritten flag np e.1 e.2) {gs : List (Str × List ℕ)}
    (hgs : gs.length < 2 ^ 32) (ha : ∀ g ∈ gs, Ascii g.1) (hs : ∀ g ∈ gs, g.1.length < 2 ^ 16)
    (hgl : ∀ g ∈ gs, g.2.length < 2 ^ 32) (hd : ∀ g ∈ gs, ∀ v ∈ g.2, v < 2 ^ 32) (rest : List ℕ) (s : FlacState) :
    readBinKind flag ((bytesOf 4 cs.length ++ ((cs.zipIdx (a + 1)).map cellBytes).flatten) ++
        ((bytesOf 4 gs.length ++ (gs.map groupBytes).flatten) ++ rest)) s =
      ((cellRecs flag a cs ++ groupRecs flag "Default".toList (gs.map fun g => (g.1, g.2.map fun v : ℕ => (v : ℤ)))).foldlM
        FlacState.step s >>= fun s' => .ok (s', rest)) := by
  rw [readBinKind, List.append_assoc, unpackUInt_append (by omega), ok_bind]
  simp only
  rw [readBinCells_ok hnp a hl h, bind_assoc, List.foldlM_append, bind_assoc]
  congr 1
  funext s'
  rw [ok_bind]
  simp only [List.append_assoc]
  rw [unpackUInt_append (by omega), ok_bind]
  simp only
  rw [readBinGroups_ok flag ha hs hgl hd]

theorem cellList_length (cells : List CellBlock) : (cellList cells).length = nCells cells := by
  rw [← typedCells_length]
  rfl

theorem writeFlacBin_parts (pos : P3 Flt → P3 Flt → P3 Flt → P3 Flt → Bool) {m : FlacMesh} (h : FlacOk m) (hb : BinOk m)
    (hg : ∀ mat, materialOfCells m = some mat → BinNames m mat) :
    ∃ zb fb, (∀ e ∈ cellList zb, CellWritten .zone m.points.length e.1 e.2) ∧
      List.Forall₂ (Oriented pos m.points) (cornersOf 3 m.cells)
        ((cellList zb).map fun e => (e.1, perm (flacOrderBack e.1) e.2)) ∧
      (∀ e ∈ cellList fb, CellWritten .face m.points.length e.1 e.2) ∧
      (cellList fb).map (fun e => (e.1, perm (flacOrderBack e.1) e.2)) = cornersOf 2 m.cells ∧
      writeFlacBin pos m = .ok ([1375135718, 3].flatMap (bytesOf 4) ++
      ((bytesOf 4 m.points.length ++ (m.points.zipIdx.map pointBytes).flatten) ++
      ((bytesOf 4 (cellList zb).length ++ (((cellList zb).zipIdx (0 + 1)).map cellBytes).flatten) ++
      ((bytesOf 4 (namedGroups m .zone).length ++ ((namedGroups m .zone).map groupBytes).flatten) ++
      ((bytesOf 4 (cellList fb).length ++ (((cellList fb).zipIdx ((cellList zb).length + 1)).map cellBytes).flatten) ++
      (bytesOf 4 (namedGroups m .face).length ++ ((namedGroups m .face).map groupBytes).flatten)))))) := by
  obtain ⟨zb, hz1, hz2, hz3, hz4⟩ := translate_zones pos h
  obtain ⟨fb, hf1, hf2, hf3⟩ := translate_faces pos h
  have hzl : (cellList zb).length = (cornersOf 3 m.cells).length := by
    have := hz3.length_eq
    rw [List.length_map] at this
    exact this.symm
  have hfl : (cellList fb).length = (cornersOf 2 m.cells).length := by
    rw [← hf3, List.length_map]
  have hcount : nCells (flacBlocks .zone m.cells) = (cellList zb).length := by
    rw [← hz4, cellList_length]
  have htotal : (cellList zb).length + (cellList fb).length ≤ (typedCells m.cells).length := by
    rw [hzl, hfl, cornersOf_length 3 (by decide), cornersOf_length 2 (by decide)]
    have : (typedCells m.cells).length = (dimsOf m.cells).length := by rw [dimsOf, List.length_map]
    rw [this]
    generalize dimsOf m.cells = D
    induction D with
    | nil => simp
    | cons d D ih =>
      rw [List.count_cons, List.count_cons, List.length_cons]
      by_cases h3 : d = 3
      · subst h3
        simp
        omega
      · by_cases h2 : d = 2
        · subst h2
          simp
          omega
        · simp [h2, h3]
          omega
  have hc := hb.cells
  have hp := hb.points
  have hzones : binCells pos m.points m.cells .zone =
      .ok (bytesOf 4 (cellList zb).length ++ (((cellList zb).zipIdx (0 + 1)).map cellBytes).flatten) := by
    rw [binCells, hz1, ok_bind]
    simp only
    rw [← cellList_length, packUInt_ok (by omega), ok_bind, binCell_ok hp 0 (by omega) hz2]
    rfl
  have hfaces : binCells pos m.points m.cells .face =
      .ok (bytesOf 4 (cellList fb).length ++ (((cellList fb).zipIdx ((cellList zb).length + 1)).map cellBytes).flatten) := by
    rw [binCells, hf1, ok_bind]
    simp only [hcount]
    rw [← cellList_length, packUInt_ok (by omega), ok_bind, binCell_ok hp (cellList zb).length (by omega) hf2]
    rfl
  refine ⟨zb, fb, hz2, hz3, hf2, hf3, ?_⟩
  rw [writeFlacBin, flacCheck_ok h, ok_bind, packMany_ok (by decide), ok_bind, binPoints_ok hp, ok_bind, hzones,
      ok_bind, binGroups_ok h hb hg, ok_bind, hfaces, ok_bind, binGroups_ok h hb hg, ok_bind]

theorem writeFlacBin_read (pos : P3 Flt → P3 Flt → P3 Flt → P3 Flt → Bool) {m : FlacMesh} (h : FlacOk m) (hb : BinOk m)
    (hg : ∀ mat, materialOfCells m = some mat → BinGroupsOk m mat) :
    ∃ bs r, writeFlacBin pos m = .ok bs ∧ readFlacBin bs = .ok r ∧ SameMesh id pos m r ∧ SameGroups m r := by
  have hn : ∀ mat, materialOfCells m = some mat → BinNames m mat := fun mat hm =>
    ⟨(hg mat hm).known, (hg mat hm).ascii, (hg mat hm).short⟩
  obtain ⟨zb, fb, hz2, hz3, hf2, hf3, hw⟩ := writeFlacBin_parts pos h hb hn
  have hzl : (cellList zb).length = (cornersOf 3 m.cells).length := by
    have := hz3.length_eq
    rw [List.length_map] at this
    exact this.symm
  have hfl : (cellList fb).length = (cornersOf 2 m.cells).length := by
    rw [← hf3, List.length_map]
  have htotal : (cellList zb).length + (cellList fb).length ≤ (typedCells m.cells).length := by
    rw [hzl, hfl, cornersOf_length 3 (by decide), cornersOf_length 2 (by decide)]
    have : (typedCells m.cells).length = (dimsOf m.cells).length := by rw [dimsOf, List.length_map]
    rw [this]
    generalize dimsOf m.cells = D
    induction D with
    | nil => simp
    | cons d D ih =>
      rw [List.count_cons, List.count_cons, List.length_cons]
      by_cases h3 : d = 3
      · subst h3
        simp
        omega
      · by_cases h2 : d = 2
        · subst h2
          simp
          omega
        · simp [h2, h3]
          omega
  have hc := hb.cells
  have hp := hb.points
  obtain ⟨gz1, gz2, gz3, gz4, gz5⟩ := namedGroups_ok h hb hn .zone
  obtain ⟨gf1, gf2, gf3, gf4, gf5⟩ := namedGroups_ok h hb hn .face
  obtain ⟨r, hr1, hr2, hr3, hr4, hr5, hr6⟩ := read_groups_recs h (fun mat hm => (hg mat hm).toGroupsOk) "Default".toList
    (xs := m.points.map pointCoords) (zs := cellList zb) (fs := cellList fb) (by
      intro x hx
      obtain ⟨q, _, rfl⟩ := List.mem_map.1 hx
      rfl) (by rw [List.length_map]; exact hz2) (by rw [List.length_map]; exact hf2) hzl hfl
  refine ⟨_, r, hw, ?_, ⟨hr2, ⟨_, ?_, hz3⟩, hr4, hr5⟩, hr6⟩
  · have hu := unpackMany_append (ns := [1375135718, 3]) (by decide)
    have hpt : ((m.points.zipIdx 0).map fun e => FRec.point ((e.2 : ℤ) + 1) (pointCoords e.1)) =
        pointRecs (m.points.map pointCoords) := by
      rw [pointRecs, List.zipIdx_map, List.map_map]
      rfl
    have hlast := readBinKind_ok .face hp (cellList zb).length (by omega) hf2 gf1 gf2 gf3 gf4 gf5 []
    rw [List.append_nil] at hlast
    rw [← hr1, readFlacBin]
    rw [show (2 : ℕ) = [1375135718, 3].length from rfl, hu, ok_bind]
    simp only
    rw [List.append_assoc, unpackUInt_append (by omega), ok_bind]
    simp only
    rw [readBinPoints_ok hb.doubles 0 (by omega), hpt, bind_assoc, allRecs, fileGroups_named, fileGroups_named]
    simp only [List.foldlM_append, bind_assoc]
    congr 1
    funext s
    rw [ok_bind]
    simp only
    rw [readBinKind_ok .zone hp 0 (by omega) hz2 gz1 gz2 gz3 gz4 gz5, bind_assoc, List.foldlM_append, bind_assoc]
    congr 1
    funext s
    congr 1
    funext s
    rw [ok_bind]
    simp only
    rw [hlast, List.foldlM_append, bind_assoc, bind_assoc]
    congr 1
  · rw [hr3, List.map_append, hf3]

theorem bind_ok_inv {α β : Type} {x : Except PyErr α} {f : α → Except PyErr β} {b : β} (h : (x >>= f) = .ok b) :
    ∃ a, x = .ok a ∧ f a = .ok b := by
  cases x with
  | error e => cases h
  | ok a => exact ⟨a, rfl, h⟩

/-! ### bytes -/

/-- All that is written are bytes. -/
def AllBytes (x : Except PyErr (List ℕ)) : Prop := ∀ bs, x = .ok bs → ∀ b ∈ bs, b < 256

theorem allBytes_uint (k n : ℕ) : AllBytes (packUInt k n) := by
  intro bs h
  rw [packUInt] at h
  split at h
  · cases h
    exact bytesOf_lt k n
  · cases h

theorem allBytes_mapM {α : Type} {f : α → Except PyErr (List ℕ)} {l : List α} (h : ∀ a ∈ l, AllBytes (f a))
    {xs : List (List ℕ)} (hx : l.mapM f = .ok xs) : ∀ b ∈ xs.flatten, b < 256 := by
  induction l generalizing xs with
  | nil => cases hx; simp
  | cons a l ih =>
    rw [List.mapM_cons] at hx
    obtain ⟨y, hy, hx⟩ := bind_ok_inv hx
    obtain ⟨ys, hys, hx⟩ := bind_ok_inv hx
    cases hx
    intro b hb
    rw [List.flatten_cons, List.mem_append] at hb
    rcases hb with hb | hb
    · exact h a (by simp) y hy b hb
    · exact ih (fun a ha => h a (by simp [ha])) hys b hb

theorem allBytes_many (ns : List ℕ) : AllBytes (packMany ns) := by
  intro bs h
  rw [packMany] at h
  obtain ⟨xs, hx, h⟩ := bind_ok_inv h
  cases h
  exact allBytes_mapM (fun n _ => allBytes_uint 4 n) hx

theorem allBytes_group (name : Str) (data : List ℕ) : AllBytes (binGroup name data) := by
  intro bs h
  rw [binGroup] at h
  obtain ⟨x, hx, h⟩ := bind_ok_inv h
  obtain ⟨y, hy, h⟩ := bind_ok_inv h
  cases h
  have hd : ∀ b ∈ bytesOf 2 7 ++ utf8 "Default".toList, b < 256 := by decide
  intro b hb
  simp only [packText, List.mem_append, List.mem_replicate] at hb hd
  rcases hb with (((hb | hb | hb) | hb) | hb) | hb
  · exact allBytes_uint _ _ x hx b hb
  · exact utf8_lt name b (List.mem_of_mem_take hb)
  · omega
  · exact hd b (.inl hb)
  · exact hd b (.inr hb)
  · exact allBytes_many _ y hy b hb

theorem allBytes_groups (m : FlacMesh) (flag : FlacFlag) : AllBytes (binGroups m flag) := by
  intro bs h
  unfold binGroups at h
  split at h
  · exact allBytes_uint 4 0 bs h
  · obtain ⟨x, hx, h⟩ := bind_ok_inv h
    obtain ⟨y, hy, h⟩ := bind_ok_inv h
    cases h
    intro b hb
    rcases List.mem_append.1 hb with hb | hb
    · exact allBytes_uint _ _ x hx b hb
    · exact allBytes_mapM (fun g _ => allBytes_group _ _) hy b hb

theorem allBytes_cells {α : Type} (pos : α → α → α → α → Bool) (points : List α) (cells : List CellBlock)
    (flag : FlacFlag) : AllBytes (binCells pos points cells flag) := by
  intro bs h
  unfold binCells at h
  obtain ⟨_, _, h⟩ := bind_ok_inv h
  obtain ⟨x, hx, h⟩ := bind_ok_inv h
  obtain ⟨y, hy, h⟩ := bind_ok_inv h
  cases h
  intro b hb
  rcases List.mem_append.1 hb with hb | hb
  · exact allBytes_uint _ _ x hx b hb
  · exact allBytes_mapM (fun g _ => allBytes_many _) hy b hb

theorem allBytes_points (points : List (P3 Flt)) : AllBytes (binPoints points) := by
  intro bs h
  rw [binPoints] at h
  obtain ⟨x, hx, h⟩ := bind_ok_inv h
  obtain ⟨y, hy, h⟩ := bind_ok_inv h
  cases h
  intro b hb
  rcases List.mem_append.1 hb with hb | hb
  · exact allBytes_uint _ _ x hx b hb
  · refine allBytes_mapM (f := binPoint) (fun e _ => ?_) hy b hb
    intro bs h
    rw [binPoint] at h
    obtain ⟨i, hi, h⟩ := bind_ok_inv h
    cases h
    intro b hb
    simp only [List.mem_append, packDouble] at hb
    rcases hb with ((hb | hb) | hb) | hb
    · exact allBytes_uint _ _ i hi b hb
    · exact bytesOf_lt _ _ b hb
    · exact bytesOf_lt _ _ b hb
    · exact bytesOf_lt _ _ b hb

end Verif.Mesh
