import Verif.Spec.Pyvista
import Verif.Lemmas.Flac3dState
import Verif.Lemmas.Meshio

/-!
# Lemmas about the conversion from and to pyvista
-/

namespace Verif.Lemmas
open Verif.Py Verif.Model Verif.Mesh Verif.Spec

theorem vtkCodes_ok : ∀ e ∈ vtkTable, dictGet vtkCodes e.1 = .ok e.2.1 ∧ dictGet vtkNodes e.2.1 = .ok e.2.2 ∧
    dictGet vtkTypes e.2.1 = .ok e.1 ∧ e.2.1 ≠ 7 ∧ e.2.1 ≠ 8 ∧ e.2.1 ≠ 11 := by
  decide +kernel

theorem padded_append (a b : List (ℕ × List ℕ)) : padded (a ++ b) = padded a ++ padded b := by
  simp [padded]

theorem cellStarts_append (a : ℕ) (x y : List (ℕ × List ℕ)) :
    cellStarts a (x ++ y) = cellStarts a x ++ cellStarts (a + (padded x).length) y := by
  induction x generalizing a with
  | nil => simp [cellStarts, padded]
  | cons e x ih =>
    rw [List.cons_append, cellStarts, cellStarts, ih, List.cons_append]
    congr 3
    simp [padded]
    omega

/-- The places of cells with the same number of vertices. -/
theorem cellStarts_range (a n : ℕ) (vs : List (ℕ × List ℕ)) (h : ∀ v ∈ vs, v.2.length = n) :
    cellStarts a vs = (List.range vs.length).map fun i => a + i * (n + 1) := by
  induction vs generalizing a with
  | nil => rfl
  | cons v vs ih =>
    rw [cellStarts, ih _ fun u hu => h u (by simp [hu]), List.length_cons, List.range_succ_eq_map, List.map_cons,
      List.map_map, h v (by simp)]
    simp only [Nat.zero_mul, Nat.add_zero, List.cons.injEq, true_and]
    apply List.map_congr_left
    intro i _
    simp only [Function.comp_apply, Nat.succ_eq_add_one]
    ring

theorem padded_length_const (n : ℕ) (vs : List (ℕ × List ℕ)) (h : ∀ v ∈ vs, v.2.length = n) :
    (padded vs).length = vs.length * (n + 1) := by
  induction vs with
  | nil => simp [padded]
  | cons v vs ih =>
    have := ih fun u hu => h u (by simp [hu])
    simp only [padded, List.flatMap_cons, List.length_append, List.length_cons] at this ⊢
    rw [this, h v (by simp)]
    ring

/-- The VTK cells of a block. -/
def blockVtk (code : ℕ) (b : CellBlock) : List (ℕ × List ℕ) := b.data.map fun c => (code, c)

theorem blockVtk_padded {code n : ℕ} {b : CellBlock} (h : ∀ c ∈ b.data, c.length = n) :
    (b.data.flatMap fun c => n :: c) = padded (blockVtk code b) := by
  unfold padded blockVtk
  rw [List.flatMap_map]
  apply List.flatMap_congr
  intro c hc
  simp [h c hc]

/-- The loop of `to_pyvista`. -/
theorem vtkLoop_ok (v9 : Bool) (cells : List CellBlock) (hne : ∀ b ∈ cells, b.data ≠ [])
    (hk : ∀ e ∈ typedCells cells, ∃ v, IsVtkCell e v) :
    ∃ vs, List.Forall₂ IsVtkCell (typedCells cells) vs ∧ ∀ offset next,
      vtkLoop v9 cells offset next = .ok (if v9 then offset else offset ++ cellStarts next vs, padded vs, vs.map (·.1)) := by
  induction cells with
  | nil => exact ⟨[], .nil, fun o n => by cases v9 <;> simp [vtkLoop, cellStarts, padded]⟩
  | cons b cells ih =>
    obtain ⟨vs, h1, h2⟩ := ih (fun d hd => hne d (by simp [hd])) (fun e he => hk e (by
      simp only [typedCells, List.flatMap_cons] at he ⊢
      exact List.mem_append_right _ he))
    obtain ⟨c0, hc0⟩ := List.exists_mem_of_ne_nil _ (hne b (by simp))
    obtain ⟨⟨code, w0⟩, hk0, -⟩ := hk (b.type, c0) (by
      simp only [typedCells, List.flatMap_cons]
      exact List.mem_append_left _ (List.mem_map_of_mem hc0))
    simp only at hk0
    obtain ⟨g1, g2, g3, -⟩ := vtkCodes_ok _ hk0
    simp only at g1 g2 g3
    have hlen : ∀ c ∈ b.data, c.length = c0.length := by
      intro c hc
      obtain ⟨⟨code', w⟩, hk', -⟩ := hk (b.type, c) (by
        simp only [typedCells, List.flatMap_cons]
        exact List.mem_append_left _ (List.mem_map_of_mem hc))
      simp only at hk'
      obtain ⟨f1, f2, -⟩ := vtkCodes_ok _ hk'
      simp only at f1 f2
      rw [g1] at f1
      cases f1
      rw [g2] at f2
      injection f2 with f2
      exact f2.symm
    have hbl : ∀ v ∈ blockVtk code b, v.2.length = c0.length := by
      intro v hv
      obtain ⟨c, hc, rfl⟩ := List.mem_map.1 hv
      exact hlen c hc
    refine ⟨blockVtk code b ++ vs, ?_, fun offset next => ?_⟩
    · simp only [typedCells, List.flatMap_cons]
      refine List.rel_append ?_ h1
      unfold blockVtk
      rw [List.forall₂_map_left_iff, List.forall₂_map_right_iff, List.forall₂_same]
      intro c hc
      exact ⟨by rw [hlen c hc]; exact hk0, rfl⟩
    · rw [vtkLoop, g1, ok_bind, g2, ok_bind, blockVtk_padded hlen (code := code)]
      have hts : List.replicate b.data.length code = (blockVtk code b).map (·.1) := by
        unfold blockVtk
        rw [List.map_map]
        simp [Function.comp_def]
      cases v9 with
      | true =>
        simp only [if_true, ok_bind]
        rw [h2]
        simp [hts, padded_append]
      | false =>
        have hst : ((List.range b.data.length).map fun i => next + i * (c0.length + 1)) =
            cellStarts next (blockVtk code b) := by
          rw [cellStarts_range next _ _ hbl, blockVtk, List.length_map]
        have hlast : (offset ++ cellStarts next (blockVtk code b)).getLast? =
            some (next + (b.data.length - 1) * (c0.length + 1)) := by
          have hpos := List.length_pos_iff.2 (hne b (by simp))
          rw [← hst, List.getLast?_append, List.getLast?_map, List.getLast?_range]
          rw [if_neg (by omega)]
          rfl
        simp only [Bool.false_eq_true, if_false]
        rw [hst, hlast]
        simp only [ok_bind]
        have hnext : next + (b.data.length - 1) * (c0.length + 1) + c0.length + 1 =
            next + (padded (blockVtk code b)).length := by
          rw [padded_length_const _ _ hbl, blockVtk, List.length_map]
          have hpos := List.length_pos_iff.2 (hne b (by simp))
          obtain ⟨k, hk⟩ : ∃ k, b.data.length = k + 1 := ⟨b.data.length - 1, by omega⟩
          rw [hk, Nat.add_sub_cancel]
          ring
        rw [hnext, h2]
        simp [hts, padded_append, cellStarts_append]

theorem connOffsets_padded (a : ℕ) (vs : List (ℕ × List ℕ)) (rest : List ℕ) :
    connOffsets vs.length a (padded vs ++ rest) = vertexStarts a vs := by
  induction vs generalizing a with
  | nil => rfl
  | cons v vs ih =>
    rw [List.length_cons, vertexStarts, ← ih]
    simp only [padded, List.flatMap_cons, List.cons_append, connOffsets]
    rw [List.append_assoc, List.drop_left]

/-- One cell before VTK 9. -/
theorem vtkCell_ok {pre post : List ℕ} {i : ℕ} {v : ℕ × List ℕ} {e : CellType × List ℕ} (h : Represents v e) :
    vtkCell false (pre ++ (v.2.length :: v.2) ++ post) i pre.length v.1 = .ok e := by
  have h1 : rowAt (pre ++ (v.2.length :: v.2) ++ post) pre.length = .ok v.2.length := by
    unfold rowAt
    rw [List.append_assoc, List.getElem?_append_right (le_refl _)]
    simp
  have h2 : ((pre ++ (v.2.length :: v.2) ++ post).take (pre.length + 1 + v.2.length)).drop (pre.length + 1) = v.2 := by
    have : pre ++ (v.2.length :: v.2) ++ post = (pre ++ [v.2.length]) ++ v.2 ++ post := by simp
    rw [this, List.take_append_of_le_length (by simp; omega), List.take_of_length_le (by simp; omega)]
    rw [List.drop_append_of_le_length (by simp), List.drop_of_length_le (by simp)]
    rfl
  unfold vtkCell
  rw [h1, ok_bind]
  simp only [Bool.false_eq_true, if_false]
  rw [h2]
  cases h with
  | known t code n c hm =>
    obtain ⟨-, -, h3, h7, h8, h11⟩ := vtkCodes_ok _ hm
    simp only at h3 h7 h8 h11
    simp only [h8, h11, if_false, ok_bind, or_self, h7, ne_eq, not_false_eq_true, if_true, h3]
  | pixel p q r s => rfl
  | voxel => rfl
  | polygon c => rfl

theorem vtkCells_ok (pre : List ℕ) (post : List ℕ) (k : ℕ) {vs : List (ℕ × List ℕ)} {es : List (CellType × List ℕ)}
    (h : List.Forall₂ Represents vs es) :
    (((cellStarts pre.length vs).zip (vs.map (·.1))).zipIdx k).mapM
      (fun e => vtkCell false (pre ++ padded vs ++ post) e.2 e.1.1 e.1.2) = .ok es := by
  induction h generalizing pre k with
  | nil => rfl
  | @cons v e vs es h _ ih =>
    rw [cellStarts, List.map_cons, List.zip_cons_cons, List.zipIdx_cons, List.mapM_cons]
    have hp : pre ++ padded (v :: vs) ++ post = pre ++ (v.2.length :: v.2) ++ (padded vs ++ post) := by
      simp [padded]
    have hp' : pre ++ padded (v :: vs) ++ post = (pre ++ v.2.length :: v.2) ++ padded vs ++ post := by
      simp [padded]
    rw [hp]
    simp only
    rw [vtkCell_ok h, ok_bind, ← hp, hp']
    have := ih (pre ++ v.2.length :: v.2) (k + 1)
    rw [List.length_append, List.length_cons, ← Nat.add_assoc] at this
    rw [this]
    rfl

/-- Blocks as large as possible are the same if the cells are. -/
theorem blocks_unique {a b : List CellBlock} (ha : ∀ x ∈ a, x.data ≠ []) (hb : ∀ x ∈ b, x.data ≠ [])
    (ca : a.IsChain fun x y => x.type ≠ y.type) (cb : b.IsChain fun x y => x.type ≠ y.type)
    (h : typedCells a = typedCells b) : a = b := by
  have key : ∀ (x : CellBlock) (r : List CellBlock), (∀ y ∈ x :: r, y.data ≠ []) →
      ((x :: r).IsChain fun x y => x.type ≠ y.type) →
      (typedCells (x :: r)).head?.map (·.1) = some x.type ∧
      (typedCells (x :: r)).takeWhile (fun e => e.1 = x.type) = x.data.map (fun c => (x.type, c)) ∧
      (typedCells (x :: r)).dropWhile (fun e => e.1 = x.type) = typedCells r := by
    intro x r hne hch
    have e : typedCells (x :: r) = x.data.map (fun c => (x.type, c)) ++ typedCells r := by
      simp [typedCells]
    have hall : ∀ c ∈ x.data.map (fun c => (x.type, c)), decide (c.1 = x.type) = true := by
      intro c hc
      obtain ⟨d, -, rfl⟩ := List.mem_map.1 hc
      simp
    have hr : ∀ c, (typedCells r).head? = some c → decide (c.1 = x.type) = false := by
      intro c hc
      cases r with
      | nil => simp [typedCells] at hc
      | cons y r =>
        obtain ⟨d, ds, hd⟩ := List.exists_cons_of_ne_nil (hne y (by simp))
        have : (typedCells (y :: r)).head? = some (y.type, d) := by
          simp [typedCells, hd]
        rw [this] at hc
        cases hc
        have := (List.isChain_cons_cons.1 hch).1
        simpa using fun h => this h.symm
    refine ⟨?_, ?_, ?_⟩
    · obtain ⟨d, ds, hd⟩ := List.exists_cons_of_ne_nil (hne x (by simp))
      rw [e, hd]
      rfl
    · rw [e, List.takeWhile_append_of_pos hall]
      cases ht : typedCells r with
      | nil => simp
      | cons c cs =>
        have := hr c (by rw [ht]; rfl)
        rw [List.takeWhile_cons_of_neg (by simpa using this), List.append_nil]
    · rw [e, List.dropWhile_append_of_pos hall]
      cases ht : typedCells r with
      | nil => simp
      | cons c cs =>
        have := hr c (by rw [ht]; rfl)
        rw [List.dropWhile_cons_of_neg (by simpa using this)]
  induction a generalizing b with
  | nil =>
    cases b with
    | nil => rfl
    | cons y b =>
      have := (key y b hb cb).1
      rw [← h] at this
      simp [typedCells] at this
  | cons x a ih =>
    cases b with
    | nil =>
      have := (key x a ha ca).1
      rw [h] at this
      simp [typedCells] at this
    | cons y b =>
      obtain ⟨k1, k2, k3⟩ := key x a ha ca
      obtain ⟨l1, l2, l3⟩ := key y b hb cb
      rw [h, l1] at k1
      injection k1 with k1
      rw [h, ← k1, l2] at k2
      rw [h, ← k1, l3] at k3
      have hd : y.data = x.data := List.map_injective_iff.2 (fun a b h => (Prod.mk.inj h).2) k2
      rw [ih (b := b) (fun z hz => ha z (by simp [hz])) (fun z hz => hb z (by simp [hz])) ca.tail cb.tail k3.symm]
      congr 1
      cases x; cases y
      simp_all

theorem vtkArrays_eq {D : Type} {d : List (Str × List D)} (h : ((renamed d).map (·.1)).Nodup) : vtkArrays d = renamed d := by
  have := foldl_dictSet (fun e : Str × List D => blankless e.1) (fun e => e.2) d [] (by
    simpa [renamed, List.map_map, Function.comp_def, blankless] using h)
  unfold vtkArrays
  rw [this]
  rfl

theorem renamed_of_noBlank {D : Type} {d : List (Str × List D)} (h : ∀ e ∈ d, ' ' ∉ e.1) : renamed d = d := by
  unfold renamed
  conv_rhs => rw [← List.map_id d]
  apply List.map_congr_left
  intro e he
  have : (e.1.map fun c => if c = ' ' then '_' else c) = e.1 := by
    conv_rhs => rw [← List.map_id e.1]
    apply List.map_congr_left
    intro c hc
    rw [if_neg]
    · rfl
    · rintro rfl
      exact h e he hc
  rw [this]
  rfl

section
variable {K D : Type}

/-- The cells that are read. -/
theorem from_cells (v9 : Bool) (num : ℤ → D) (material : Str) (g : VtkGrid K D) {vs : List (ℕ × List ℕ)}
    {es : List (CellType × List ℕ)} (ht : g.types = vs.map (·.1)) (hr : List.Forall₂ Represents vs es)
    (hc : (g.offset.zip g.types).zipIdx.mapM (fun e => vtkCell v9 g.cells e.2 e.1.1 e.1.2) = .ok es)
    (hl : ∀ a ∈ es, ∀ b ∈ es, a.1 = b.1 → a.2.length = b.2.length)
    (hp : ((renamed g.pointArrays).map (·.1)).Nodup) (hd : ((renamed g.cellArrays).map (·.1)).Nodup) :
    ∃ r, fromPyvista v9 num material g = .ok r ∧ r.points = g.points ∧ InBlocks es r.cells ∧
      r.pointData = renamed g.pointArrays ∧
      ("material".toList ∈ (renamed g.cellArrays).map (·.1) → r.cellData = renamed g.cellArrays ∧ r.fieldData = []) ∧
      ("material".toList ∉ (renamed g.cellArrays).map (·.1) →
        r.cellData = renamed g.cellArrays ++ [("material".toList, List.replicate es.length (num 1))] ∧
        r.fieldData = [(material, 1, 3)]) := by
  have hs := addAll_spec es [] (by simp) (by simp)
  have hb : InBlocks es (addAll es []).reverse := by
    refine ⟨by simpa [typedCells] using hs.1, fun b hb => hs.2.1 b (List.mem_reverse.1 hb), chain_reverse hs.2.2⟩
  have hrect : ∀ b ∈ (addAll es []).reverse, rectangular b.data = true := by
    intro b hbm
    have hm : ∀ c ∈ b.data, (b.type, c) ∈ es := by
      intro c hcm
      rw [← hb.1]
      exact List.mem_flatMap.2 ⟨b, hbm, List.mem_map_of_mem hcm⟩
    cases hd : b.data with
    | nil => rfl
    | cons x xs =>
      simp only [rectangular, List.all_eq_true, decide_eq_true_eq]
      intro y hy
      exact hl _ (hm y (by rw [hd]; simp [hy])) _ (hm x (by rw [hd]; simp)) rfl
  have htypes : ∀ t ∈ g.types, t ∈ vtkTypes.map (·.1) ∨ t = 8 ∨ t = 11 := by
    intro t htm
    rw [ht] at htm
    obtain ⟨v, hv, rfl⟩ := List.mem_map.1 htm
    obtain ⟨e, -, he⟩ := forall₂_mem_left hr hv
    cases he with
    | known t code n c hm =>
      left
      have : ∀ e ∈ vtkTable, e.2.1 ∈ vtkTypes.map (·.1) := by decide +kernel
      exact this _ hm
    | pixel => exact .inr (.inl rfl)
    | voxel => exact .inr (.inr rfl)
    | polygon c => left; show 7 ∈ _; decide
  have hcount : nCells (addAll es []).reverse = es.length := by
    rw [nCells_typed, hb.1]
  have key : fromPyvista v9 num material g =
      (if "material".toList ∈ (renamed g.cellArrays).map (·.1) then
        .ok ⟨g.points, (addAll es []).reverse, renamed g.pointArrays, renamed g.cellArrays, []⟩
      else .ok ⟨g.points, (addAll es []).reverse, renamed g.pointArrays,
        dictSet (renamed g.cellArrays) "material".toList (List.replicate es.length (num 1)),
        [(material, 1, 3)]⟩) := by
    unfold fromPyvista
    rw [if_neg (not_not.2 htypes), hc, ok_bind]
    simp only
    rw [show (List.foldl (fun acc e => flacAdd e.1 e.2 acc) [] es) = addAll es [] from rfl,
      if_neg (not_not.2 hrect), vtkArrays_eq hp, vtkArrays_eq hd]
    rw [hcount]
  rw [key]
  by_cases hm : "material".toList ∈ (renamed g.cellArrays).map (·.1)
  · rw [if_pos hm]
    exact ⟨_, rfl, rfl, hb, rfl, fun _ => ⟨rfl, rfl⟩, fun h => absurd hm h⟩
  · rw [if_neg hm]
    refine ⟨_, rfl, rfl, hb, rfl, fun h => absurd h hm, fun _ => ⟨?_, rfl⟩⟩
    exact dictSet_of_notMem _ _ _ hm

/-- The VTK cell of a cell stands for it. -/
theorem isVtk_represents {l : List (CellType × List ℕ)} {vs : List (ℕ × List ℕ)}
    (h : List.Forall₂ IsVtkCell l vs) : List.Forall₂ Represents vs l := by
  refine h.flip.imp ?_
  rintro ⟨code, c⟩ ⟨t, c'⟩ ⟨h1, h2⟩
  simp only at h1 h2
  subst h2
  exact .known t code _ c h1

theorem isVtk_lengths {l : List (CellType × List ℕ)} (hk : ∀ e ∈ l, ∃ v, IsVtkCell e v) :
    ∀ a ∈ l, ∀ b ∈ l, a.1 = b.1 → a.2.length = b.2.length := by
  intro a ha b hb hab
  obtain ⟨u, hu, -⟩ := hk a ha
  obtain ⟨v, hv, -⟩ := hk b hb
  have e1 := vtkCodes_ok _ hu
  have e2 := vtkCodes_ok _ hv
  simp only [hab] at e1 e2
  rw [e1.1] at e2
  obtain ⟨h1, h2, -⟩ := e2
  injection h1 with h1
  rw [h1] at e1
  rw [e1.2.1] at h2
  injection h2

end

end Verif.Lemmas
