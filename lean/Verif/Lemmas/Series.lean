import Verif.Spec.Series
import Verif.Lemmas.Meshio

/-!
# Lemmas about time series
-/

namespace Verif.Mesh
open Verif.Py Verif.Model Verif.Spec

theorem slices_flatten {α : Type} (arr : List α) : ∀ (idx : List ℕ) (s : ℕ), (s :: idx).Pairwise (· ≤ ·) →
    (List.zipWith (fun st en => (arr.take en).drop st) (s :: (idx ++ [arr.length])) (idx ++ [arr.length])).flatten =
      arr.drop s
  | [], s, _ => by simp
  | d :: idx, s, h => by
    rw [List.pairwise_cons] at h
    rw [List.cons_append, List.zipWith_cons_cons, List.flatten_cons, slices_flatten arr idx d h.2]
    have hsd : s ≤ d := h.1 d List.mem_cons_self
    have e : arr.drop d = (arr.drop s).drop (d - s) := by rw [List.drop_drop]; congr 1; omega
    rw [List.drop_take, e, List.take_append_drop]

theorem npSplit_join {α : Type} (arr : List α) {idx : List ℕ} (h : idx.Pairwise (· ≤ ·)) :
    (npSplit arr idx).flatten = arr := by
  have := slices_flatten arr idx 0 (List.pairwise_cons.2 ⟨fun _ _ => Nat.zero_le _, h⟩)
  rw [List.drop_zero] at this
  exact this

theorem npSplit_length {α : Type} (arr : List α) (idx : List ℕ) : (npSplit arr idx).length = idx.length + 1 := by
  simp [npSplit]

theorem cumsum_sorted (l : List ℕ) : (cumsum l).Pairwise (· ≤ ·) := by
  induction l with
  | nil => exact .nil
  | cons x l ih =>
    rw [cumsum, List.pairwise_cons]
    refine ⟨?_, ?_⟩
    · intro y hy
      obtain ⟨z, -, rfl⟩ := List.mem_map.1 hy
      omega
    · rw [List.pairwise_map]
      exact ih.imp fun h => by omega

theorem rowsAt_map {α : Type} {l : List α} {idx : List ℕ} {f : ℕ → α} (h : ∀ i ∈ idx, l[i]? = some (f i)) :
    rowsAt l idx = .ok (idx.map f) := by
  apply mapM_ok
  intro i hi
  rw [h i hi]

variable {D T : Type}

/-- The parts of an array of cell data. -/
def cut {α : Type} (cells : List CellBlock) (v : List α) : List (List α) :=
  npSplit v (cumsum (cells.dropLast.map (·.data.length)))

theorem cut_eq {α : Type} (cells : List CellBlock) (v : List α) :
    cut cells v = npSplit v (cumsum (cells.map (·.data.length))).dropLast := by
  unfold cut
  rw [List.map_dropLast, cumsum_dropLast]

theorem cut_flatten {α : Type} (cells : List CellBlock) (v : List α) : (cut cells v).flatten = v :=
  npSplit_join v (cumsum_sorted _)

theorem cut_length {α : Type} {cells : List CellBlock} (hc : cells ≠ []) (v : List α) : (cut cells v).length = cells.length := by
  unfold cut
  rw [npSplit_length, cumsum_length, List.length_map, List.length_dropLast]
  have := List.length_pos_iff.2 hc
  omega

/-- A step with the cell data cut into parts. -/
def cutStep (cells : List CellBlock) (s : T × Data D × Data D) : T × Data D × List (Str × List (List D)) :=
  (s.1, s.2.1, s.2.2.map fun kv => (kv.1, cut cells kv.2))

theorem orEmpty_at {n : ℕ} {l : List (Data D)} (h : l = [] ∨ l.length = n) {i : ℕ} (hi : i < n) :
    (orEmpty n l)[i]? = some ((l[i]?).getD []) := by
  unfold orEmpty
  rcases h with rfl | h
  · rw [if_pos rfl]
    simp [hi]
  · rw [if_neg (by rintro rfl; simp at h; omega)]
    rw [List.getElem?_eq_getElem (by omega)]
    rfl

/-- The sequence of the steps. -/
def stepOrder (argsort : List T → List ℕ) (ofNat : ℕ → T) (ts : Option (List T)) (n : ℕ) : List ℕ :=
  argsort (ts.getD ((List.range n).map ofNat))

theorem times_length {pd cd : Option (List (Data D))} {ts : Option (List T)} {n : ℕ} (h : Steps pd cd ts n) (ofNat : ℕ → T) :
    (ts.getD ((List.range n).map ofNat)).length = n := by
  cases ts with
  | none => simp
  | some l => exact h.times l rfl

theorem times_at {pd cd : Option (List (Data D))} {ts : Option (List T)} {n : ℕ} (h : Steps pd cd ts n) (ofNat : ℕ → T)
    {i : ℕ} (hi : i < n) :
    (ts.getD ((List.range n).map ofNat))[i]? = some (stepAt ofNat pd cd ts i).1 := by
  cases ts with
  | none => simp [stepAt, hi]
  | some l =>
    have := h.times l rfl
    have hil : i < l.length := by omega
    simp [stepAt, hil]

variable [LE T]

theorem stepOrder_perm {argsort : List T → List ℕ} (ha : SortsTimes argsort) {pd cd : Option (List (Data D))}
    {ts : Option (List T)} {n : ℕ} (h : Steps pd cd ts n) (ofNat : ℕ → T) :
    (stepOrder argsort ofNat ts n).Perm (List.range n) := by
  have := (ha (ts.getD ((List.range n).map ofNat))).1
  rw [times_length h ofNat] at this
  exact this

theorem stepOrder_sorted {argsort : List T → List ℕ} (ha : SortsTimes argsort) {pd cd : Option (List (Data D))}
    {ts : Option (List T)} {n : ℕ} (h : Steps pd cd ts n) (ofNat : ℕ → T) :
    ((stepOrder argsort ofNat ts n).map (stepAt ofNat pd cd ts)).Pairwise fun a b => a.1 ≤ b.1 := by
  rw [List.pairwise_map]
  have hs := (ha (ts.getD ((List.range n).map ofNat))).2
  refine List.Pairwise.imp_of_mem ?_ hs
  intro i j hi hj hij
  have hmem : ∀ k ∈ stepOrder argsort ofNat ts n, k < n := fun k hk =>
    List.mem_range.1 ((stepOrder_perm ha h ofNat).mem_iff.1 hk)
  exact hij _ _ (times_at h ofNat (hmem i hi)) (times_at h ofNat (hmem j hj))

theorem seriesSteps_ok {argsort : List T → List ℕ} (ha : SortsTimes argsort) (ofNat : ℕ → T) (cells : List CellBlock)
    {pd cd : Option (List (Data D))} {ts : Option (List T)} {n : ℕ} (h : Steps pd cd ts n) :
    seriesSteps argsort ofNat cells pd cd ts =
      .ok ((stepOrder argsort ofNat ts n).map fun i => cutStep cells (stepAt ofNat pd cd ts i)) := by
  have hp : pd.getD [] = [] ∨ (pd.getD []).length = n := by
    cases hpd : pd with
    | none => exact .inl rfl
    | some l => exact h.point l hpd
  have hc : cd.getD [] = [] ∨ (cd.getD []).length = n := by
    cases hcd : cd with
    | none => exact .inl rfl
    | some l => exact h.cell l hcd
  have hn : (if pd.getD [] ≠ [] then (pd.getD []).length else (cd.getD []).length) = n := by
    by_cases h0 : pd.getD [] = []
    · rw [if_neg (by simpa using h0)]
      exact hc.resolve_left (h.given.resolve_left (by simpa using h0))
    · rw [if_pos h0]
      exact hp.resolve_left h0
  have hmem : ∀ k ∈ stepOrder argsort ofNat ts n, k < n := fun k hk =>
    List.mem_range.1 ((stepOrder_perm ha h ofNat).mem_iff.1 hk)
  have hbind : ∀ (o : Option (List (Data D))) (i : ℕ), (o.bind (·[i]?)).getD [] = ((o.getD [])[i]?).getD [] := by
    intro o i
    cases o <;> simp
  unfold seriesSteps
  simp only
  rw [if_neg (by rintro ⟨h1, h2⟩; rcases h.given with h3 | h3; exacts [h3 h1, h3 h2])]
  rw [hn, if_neg (by rintro ⟨h1, h2⟩; exact h2 (hp.resolve_left h1)),
    if_neg (by rintro ⟨h1, h2⟩; exact h2 (hc.resolve_left h1))]
  have htimes : ¬ (badTimes ts n = true) := by
    clear hmem
    unfold badTimes
    split
    · simp
    next l => simpa using h.times l rfl
  rw [if_neg htimes]
  change (rowsAt _ (stepOrder argsort ofNat ts n) >>= _) = _
  rw [rowsAt_map (f := fun i => (stepAt ofNat pd cd ts i).2.1), ok_bind]
  rw [show argsort (ts.getD ((List.range n).map ofNat)) = stepOrder argsort ofNat ts n from rfl]
  rw [rowsAt_map (f := fun i => (cutStep cells (stepAt ofNat pd cd ts i)).2.2), ok_bind]
  rw [rowsAt_map (f := fun i => (stepAt ofNat pd cd ts i).1), ok_bind]
  · rw [List.zip_map', List.zip_map']
    rfl
  · intro i hi
    exact times_at h ofNat (hmem i hi)
  · intro i hi
    rw [List.getElem?_map, orEmpty_at hc (hmem i hi), ← hbind]
    rfl
  · intro i hi
    rw [orEmpty_at hp (hmem i hi), ← hbind]
    rfl

theorem joinStep_cut (cells : List CellBlock) (s : T × Data D × Data D) : joinStep (cutStep cells s) = .ok s := by
  unfold joinStep cutStep
  simp only
  rw [mapM_ok (g := fun kv : Str × List (List D) => (kv.1, kv.2.flatten))]
  · rw [ok_bind, List.map_map]
    have : (fun kv : Str × List D => (kv.1, (cut cells kv.2).flatten)) = id := by
      funext kv
      rw [cut_flatten]
      rfl
    show Except.ok (s.1, s.2.1, List.map (fun kv : Str × List D => (kv.1, (cut cells kv.2).flatten)) s.2.2) = _
    rw [this, List.map_id]
  · intro kv hkv
    obtain ⟨a, -, rfl⟩ := List.mem_map.1 hkv
    unfold concatPieces
    rw [if_neg]
    · rfl
    · intro hn
      have := npSplit_length a.2 (cumsum (cells.dropLast.map (·.data.length)))
      simp only [cut] at hn
      rw [hn] at this
      simp at this

end Verif.Mesh
