import Verif.Lemmas.Flac3dCells
import Verif.Lemmas.Mesh
import Mathlib.Data.List.Sort

/-!
# Lemmas about FLAC3D mesh files: groups of cells
-/

namespace Verif.Mesh
open Verif.Py Verif.Model Verif.Spec

/-! ### dimensions -/

/-- The dimensions of all cells. -/
def dimsOf (cells : List CellBlock) : List ℕ := (typedCells cells).map fun e => dimOf e.1

theorem dimsOf_cons (b : CellBlock) (cells : List CellBlock) :
    dimsOf (b :: cells) = List.replicate b.data.length (dimOf b.type) ++ dimsOf cells := by
  rw [dimsOf, typedCells_cons, List.map_append, List.map_map]
  congr 1
  exact List.map_const' (l := b.data) (b := dimOf b.type)

theorem dimOf_cases (t : CellType) : dimOf t = 0 ∨ dimOf t = 2 ∨ dimOf t = 3 := by
  rw [dimOf]
  cases h : solidType t with
  | none => exact .inl rfl
  | some e =>
    obtain ⟨d, t', n⟩ := e
    have := solidType_linear h
    simp only [List.mem_cons, List.not_mem_nil, or_false, Prod.mk.injEq] at this
    simp only [Option.map_some, Option.getD_some]
    omega

theorem flacDims_eq {cells : List CellBlock} (h : ∀ b ∈ cells, dimOf b.type ≠ 0) : flacDims cells = dimsOf cells := by
  induction cells with
  | nil => rfl
  | cons b cells ih =>
    rw [dimsOf_cons, ← ih fun b hb => h b (by simp [hb]), flacDims, List.flatMap_cons]
    congr 2
    have hb := h b (by simp)
    have hc := dimOf_cases b.type
    rw [flacType_solid]
    rw [dimOf] at hb hc ⊢
    cases hs : solidType b.type with
    | none => rw [hs] at hb; exact absurd rfl hb
    | some e =>
      obtain ⟨d, t', n⟩ := e
      simp only [hs, Option.map_some, Option.getD_some] at hb hc ⊢
      rcases hc with hc | rfl | rfl
      · exact absurd hc hb
      · rfl
      · rfl

theorem cornersOf_length (d : ℕ) (hd : d ≠ 0) (cells : List CellBlock) :
    (cornersOf d cells).length = (dimsOf cells).count d := by
  rw [cornersOf, dimsOf]
  induction typedCells cells with
  | nil => rfl
  | cons e l ih =>
    rw [List.map_cons, List.filterMap_cons, List.count_cons, ← ih]
    rw [dimOf]
    cases solidType e.1 with
    | none => simp [Ne.symm hd]
    | some x =>
      obtain ⟨d', t, n⟩ := x
      by_cases h : d' = d
      · simp [h]
      · simp [h]

theorem replicate_of_sorted {D : List ℕ} (h : ∀ d ∈ D, d = 2 ∨ d = 3) (ho : D.Pairwise fun a b => ¬ (a = 2 ∧ b = 3)) :
    D = List.replicate (D.count 3) 3 ++ List.replicate (D.count 2) 2 := by
  induction D with
  | nil => rfl
  | cons d D ih =>
    obtain ⟨h1, h2⟩ := List.pairwise_cons.1 ho
    have ih := ih (fun d hd => h d (by simp [hd])) h2
    rcases h d (by simp) with rfl | rfl
    · have h0 : D.count 3 = 0 := List.count_eq_zero.2 fun hm => h1 3 hm ⟨rfl, rfl⟩
      rw [h0] at ih
      simp only [List.replicate_zero, List.nil_append] at ih
      simp only [List.count_cons_self, List.replicate_succ]
      rw [List.count_cons_of_ne (by decide), h0, ← ih]
      rfl
    · rw [List.count_cons_self, List.count_cons_of_ne (by decide), List.replicate_succ, List.cons_append, ← ih]

theorem dims_sorted {m : FlacMesh} {mat : List ℤ} (h : GroupsOk m mat) :
    dimsOf m.cells = List.replicate (cornersOf 3 m.cells).length 3 ++ List.replicate (cornersOf 2 m.cells).length 2 := by
  rw [cornersOf_length 3 (by decide), cornersOf_length 2 (by decide)]
  apply replicate_of_sorted
  · intro d hd
    obtain ⟨e, he, rfl⟩ := List.mem_map.1 hd
    obtain ⟨b, hb, h1, _⟩ := mem_typedCells he
    have := h.known b hb
    have := dimOf_cases b.type
    rw [h1]
    omega
  · have := h.order
    revert this
    generalize m.cells = cells
    intro this
    induction cells with
    | nil => exact List.Pairwise.nil
    | cons b cells ih =>
      obtain ⟨h1, h2⟩ := List.pairwise_cons.1 this
      rw [dimsOf_cons, List.pairwise_append]
      refine ⟨?_, ih h2, ?_⟩
      · rw [List.pairwise_replicate]
        right
        rintro ⟨e1, e2⟩
        omega
      · intro a ha c hc
        rw [List.mem_replicate] at ha
        obtain ⟨e, he, rfl⟩ := List.mem_map.1 hc
        obtain ⟨b', hb', h3, _⟩ := mem_typedCells he
        rw [ha.2, h3]
        exact h1 b' hb'

/-! ### one kind of groups -/

/-- What is known about the groups of one kind, with the materials and the dimensions of
the cells. -/
structure Partition (mat : List ℤ) (D : List ℕ) (d : ℕ) (gs : List (ℤ × List ℕ)) : Prop where
  keys : (gs.map (·.1)).Nodup
  mem : ∀ e ∈ gs, ∀ v, v ∈ e.2 ↔ ∃ i, v = i + 1 ∧ mat[i]? = some e.1 ∧ D[i]? = some d
  all : ∀ (i : ℕ) (k : ℤ), mat[i]? = some k → D[i]? = some d → k ∈ gs.map (·.1)
  full : ∀ e ∈ gs, e.2 ≠ []
  nodup : ∀ e ∈ gs, e.2.Nodup

theorem flacGroups_partition {cells : List CellBlock} (mat : List ℤ) (flag : FlacFlag)
    (h : ∀ b ∈ cells, dimOf b.type ≠ 0) : Partition mat (dimsOf cells) flag.dim (flacGroups cells mat flag) := by
  have hmem : ∀ (k : ℤ) (v : ℕ), v ∈ (whereTrue ((mat.zip (flacDims cells)).map fun e =>
      decide (e.1 = k ∧ e.2 = flag.dim))).map (· + 1) ↔
      ∃ i, v = i + 1 ∧ mat[i]? = some k ∧ (dimsOf cells)[i]? = some flag.dim := by
    intro k v
    rw [flacDims_eq h]
    simp only [List.mem_map, mem_whereTrue, List.getElem?_map, Option.map_eq_some_iff, decide_eq_true_eq]
    constructor
    · rintro ⟨i, ⟨e, he, h1, h2⟩, rfl⟩
      rw [List.getElem?_zip_eq_some] at he
      exact ⟨i, rfl, by rw [he.1, h1], by rw [he.2, h2]⟩
    · rintro ⟨i, rfl, h1, h2⟩
      exact ⟨i, ⟨(k, flag.dim), by rw [List.getElem?_zip_eq_some]; exact ⟨h1, h2⟩, rfl, rfl⟩, rfl⟩
  constructor
  · have h1 : (mat.dedup.insertionSort (· ≤ ·)).Nodup := (List.perm_insertionSort _ _).nodup_iff.2 (List.nodup_dedup _)
    rw [flacGroups]
    refine List.Nodup.sublist (List.filter_sublist.map _) ?_
    rw [List.map_map]
    have : ((fun x : ℤ × List ℕ => x.1) ∘ fun k : ℤ => (k, (whereTrue ((mat.zip (flacDims cells)).map fun e =>
      decide (e.1 = k ∧ e.2 = flag.dim))).map (· + 1))) = id := rfl
    rw [this, List.map_id]
    exact h1
  · intro e he v
    obtain ⟨he, _⟩ := List.mem_filter.1 he
    obtain ⟨k, _, rfl⟩ := List.mem_map.1 he
    exact hmem k v
  · intro i k h1 h2
    have hk : k ∈ mat.dedup.insertionSort (· ≤ ·) := by
      rw [(List.perm_insertionSort _ _).mem_iff, List.mem_dedup]
      exact List.mem_of_getElem? h1
    refine List.mem_map.2 ⟨_, List.mem_filter.2 ⟨List.mem_map.2 ⟨k, hk, rfl⟩, ?_⟩, rfl⟩
    have := (hmem k (i + 1)).2 ⟨i, rfl, h1, h2⟩
    simpa using List.ne_nil_of_mem this
  · intro e he
    simpa using (List.mem_filter.1 he).2
  · intro e he
    obtain ⟨he, _⟩ := List.mem_filter.1 he
    obtain ⟨k, _, rfl⟩ := List.mem_map.1 he
    exact List.Nodup.map (fun a b h => by simpa using h) (whereTrue_sorted _).nodup

/-- The groups as they are read. -/
def readGroups (name : ℤ → Str) (gs : List (ℤ × List ℕ)) : List (Str × List ℤ) :=
  gs.map fun g => (name g.1, g.2.map fun v : ℕ => (v : ℤ))

theorem groupsOf_single {mat : List ℤ} {D : List ℕ} {d : ℕ} {gs : List (ℤ × List ℕ)} (h : Partition mat D d gs)
    (name : ℤ → Str) (g : ℕ) {i : ℕ} {k : ℤ} (hk : mat[i]? = some k) (hd : D[i]? = some d) :
    ∃ j, (gs.map (·.1))[j]? = some k ∧ groupsOf g (readGroups name gs) ((i : ℤ) + 1) = [g + j] := by
  obtain ⟨e, he, hek⟩ := List.mem_map.1 (h.all i k hk hd)
  obtain ⟨a, b, rfl⟩ := List.append_of_mem he
  have hkeys := h.keys
  rw [List.map_append, List.map_cons, List.nodup_append] at hkeys
  have hin : ∀ e' ∈ a ++ e :: b, (((i : ℤ) + 1) ∈ e'.2.map (fun v : ℕ => (v : ℤ)) ↔ e'.1 = k) := by
    intro e' he'
    rw [List.mem_map]
    constructor
    · rintro ⟨v, hv, hvi⟩
      obtain ⟨i', rfl, h1, _⟩ := (h.mem e' he' v).1 hv
      have : i' = i := by omega
      subst this
      rw [hk] at h1
      exact (Option.some.inj h1).symm
    · intro hek'
      refine ⟨i + 1, (h.mem e' he' _).2 ⟨i, rfl, by rw [hek']; exact hk, hd⟩, by push_cast; rfl⟩
  have none_of : ∀ (l : List (ℤ × List ℕ)) (g : ℕ), (∀ e' ∈ l, e' ∈ a ++ e :: b) → (∀ e' ∈ l, e'.1 ≠ k) →
      groupsOf g (readGroups name l) ((i : ℤ) + 1) = [] := by
    intro l g hl hne
    rw [groupsOf, List.filterMap_eq_nil_iff]
    intro x hx
    have hx := List.fst_mem_of_mem_zipIdx hx
    obtain ⟨e', he', hx'⟩ := List.mem_map.1 hx
    have : ¬ (((i : ℤ) + 1) ∈ x.1.2) := by
      rw [← hx']
      exact fun hm => hne e' he' ((hin e' (hl e' he')).1 hm)
    simp [this]
  refine ⟨a.length, by simp [hek], ?_⟩
  have hsplit : groupsOf g (readGroups name (a ++ e :: b)) ((i : ℤ) + 1) =
      groupsOf g (readGroups name a) ((i : ℤ) + 1) ++ ((if ((i : ℤ) + 1) ∈ e.2.map (fun v : ℕ => (v : ℤ)) then
        [g + a.length] else []) ++ groupsOf (g + a.length + 1) (readGroups name b) ((i : ℤ) + 1)) := by
    simp only [groupsOf, readGroups, List.map_append, List.map_cons, List.zipIdx_append, List.zipIdx_cons,
      List.filterMap_append, List.filterMap_cons, List.length_map]
    congr 1
    by_cases hi : ((i : ℤ) + 1) ∈ e.2.map (fun v : ℕ => (v : ℤ))
    · simp only [if_pos hi]
      rfl
    · simp only [if_neg hi]
      rfl
  rw [hsplit, if_pos ((hin e he).2 hek), none_of a g (fun e' h => by simp [h]) ?_,
    none_of b _ (fun e' h => by simp [h]) ?_]
  · rfl
  · intro e' he' hk'
    exact (List.nodup_cons.1 hkeys.2.1).1 (List.mem_map.2 ⟨e', he', by rw [hk', hek]⟩)
  · intro e' he' hk'
    exact hkeys.2.2 e'.1 (List.mem_map.2 ⟨e', he', rfl⟩) e.1 (by simp) (by rw [hk', hek])

/-! ### all groups -/

theorem flacLabel_eq (fields : List (Str × ℤ × ℤ)) (flag : FlacFlag) (k : ℤ) :
    flacLabel fields flag k = groupName fields flag.dim k := by
  rw [flacLabel, groupName]
  have h : (fields.reverse.find? fun e => decide (e.2.1 = k ∧ e.2.2 = (flag.dim : ℤ))) =
      (fields.filter fun e => decide (e.2 = (k, (flag.dim : ℤ)))).getLast? := by
    rw [← List.head?_filter, List.filter_reverse, List.head?_reverse]
    congr 1
    apply List.filter_congr
    intro e _
    simp [Prod.ext_iff]
  rw [h]
  cases (fields.filter fun e => decide (e.2 = (k, (flag.dim : ℤ)))).getLast? <;> rfl

theorem key_getElem {mat : List ℤ} {cells : List CellBlock} {i d : ℕ} {k : ℤ} (h1 : (dimsOf cells)[i]? = some d)
    (h2 : mat[i]? = some k) : (d, k) ∈ groupKeys cells mat := by
  apply List.mem_of_getElem? (i := i)
  rw [groupKeys, List.getElem?_zip_eq_some]
  exact ⟨h1, h2⟩

theorem key_of_group {mat : List ℤ} {cells : List CellBlock} {d : ℕ} {gs : List (ℤ × List ℕ)}
    (h : Partition mat (dimsOf cells) d gs) {k : ℤ} (hk : k ∈ gs.map (·.1)) : (d, k) ∈ groupKeys cells mat := by
  obtain ⟨e, he, rfl⟩ := List.mem_map.1 hk
  obtain ⟨v, hv⟩ := List.exists_mem_of_ne_nil _ (h.full e he)
  obtain ⟨i, rfl, h1, h2⟩ := (h.mem e he v).1 hv
  exact key_getElem h2 h1

theorem whereTrue_range (mask : List Bool) :
    whereTrue mask = (List.range mask.length).filter fun i => mask[i]? = some true := by
  apply List.Perm.eq_of_pairwise (le := (· < ·)) (fun a b _ _ h1 h2 => absurd h1 (by omega)) (whereTrue_sorted _)
    (List.pairwise_lt_range.filter _)
  rw [List.perm_ext_iff_of_nodup (whereTrue_sorted _).nodup (List.nodup_range.filter _)]
  intro i
  rw [mem_whereTrue, List.mem_filter, List.mem_range]
  constructor
  · intro h
    exact ⟨(List.getElem?_eq_some_iff.1 h).1, by simpa using h⟩
  · intro h
    simpa using h.2

theorem flacGroups_eq {m : FlacMesh} {mat : List ℤ} (flag : FlacFlag) (h : ∀ b ∈ m.cells, dimOf b.type ≠ 0)
    (hl : mat.length = (typedCells m.cells).length) :
    (flacGroups m.cells mat flag).map (fun g => (flacLabel m.fieldData flag g.1, g.2)) =
      groupMembers m mat flag.dim := by
  have hm : ∀ k : ℤ, (whereTrue ((mat.zip (flacDims m.cells)).map fun e => decide (e.1 = k ∧ e.2 = flag.dim))).map
      (· + 1) = ((List.range mat.length).filter fun i => (groupKeys m.cells mat)[i]? = some (flag.dim, k)).map
        (· + 1) := by
    intro k
    have hd : (dimsOf m.cells).length = mat.length := by rw [dimsOf, List.length_map, hl]
    rw [flacDims_eq h, whereTrue_range]
    congr 1
    rw [List.length_map, List.length_zip, hd, Nat.min_self]
    apply List.filter_congr
    intro i hi
    rw [List.mem_range] at hi
    have e1 : mat[i]? = some mat[i] := List.getElem?_eq_getElem hi
    have e2 : (dimsOf m.cells)[i]? = some (dimsOf m.cells)[i] := List.getElem?_eq_getElem (by omega)
    have e3 : (groupKeys m.cells mat)[i]? = some ((dimsOf m.cells)[i], mat[i]) := by
      rw [groupKeys, List.getElem?_zip_eq_some]
      exact ⟨e2, e1⟩
    have e4 : (mat.zip (dimsOf m.cells))[i]? = some (mat[i], (dimsOf m.cells)[i]) := by
      rw [List.getElem?_zip_eq_some]
      exact ⟨e1, e2⟩
    rw [List.getElem?_map, e4, e3]
    simp only [Option.map_some, Option.some.injEq, Prod.mk.injEq, decide_eq_true_eq, decide_eq_decide]
    tauto
  rw [flacGroups, groupMembers]
  simp only [hm]
  rw [List.filter_map, List.map_map]
  have hf : (mat.dedup.insertionSort (· ≤ ·)).filter ((fun g : ℤ × List ℕ => decide (g.2 ≠ [])) ∘ fun k => (k,
      ((List.range mat.length).filter fun i => (groupKeys m.cells mat)[i]? = some (flag.dim, k)).map (· + 1))) =
      (mat.dedup.insertionSort (· ≤ ·)).filter fun k => (flag.dim, k) ∈ groupKeys m.cells mat := by
    apply List.filter_congr
    intro k _
    simp only [Function.comp, ne_eq, decide_eq_decide, List.map_eq_nil_iff]
    rw [List.filter_eq_nil_iff]
    simp only [List.mem_range, decide_eq_true_eq, not_forall, not_not, exists_prop]
    constructor
    · rintro ⟨i, _, hi⟩
      exact List.mem_of_getElem? hi
    · intro hk
      obtain ⟨i, hi, e⟩ := List.getElem_of_mem hk
      have : i < mat.length := by
        rw [groupKeys, List.length_zip] at hi
        omega
      exact ⟨i, this, by rw [List.getElem?_eq_getElem hi, e]⟩
  rw [hf]
  apply List.map_congr_left
  intro k _
  simp only [Function.comp, flacLabel_eq]

theorem groupMembers_names {m : FlacMesh} {mat : List ℤ} (flag : FlacFlag) (h : ∀ b ∈ m.cells, dimOf b.type ≠ 0)
    (hl : mat.length = (typedCells m.cells).length) :
    (groupMembers m mat flag.dim).map (·.1) =
      ((flacGroups m.cells mat flag).map (·.1)).map (groupName m.fieldData flag.dim) := by
  rw [← flacGroups_eq flag h hl, List.map_map, List.map_map]
  exact List.map_congr_left fun g _ => flacLabel_eq _ _ _

theorem readFields_order (zg fg : List (Str × List ℤ)) :
    (readFields zg fg).map (fun e => (e.1, e.2.2)) =
      ((zg.map (·.1)).map fun g => (g, 3)) ++ (fg.map (·.1)).map fun g => (g, 2) := by
  have h : ∀ (l : List (Str × List ℤ)) (g d : ℕ), ((l.zipIdx g).map fun e => (e.1.1, e.2, d)).map
      (fun e : Str × ℕ × ℕ => (e.1, e.2.2)) = (l.map (·.1)).map fun g => (g, d) := by
    intro l g d
    rw [List.map_map]
    have : ((fun x : Str × ℕ × ℕ => (x.1, x.2.2)) ∘ fun e : (Str × List ℤ) × ℕ => (e.1.1, e.2, d)) =
      (fun x : Str × List ℤ => (x.1, d)) ∘ Prod.fst := rfl
    rw [this, ← List.map_map, List.zipIdx_map_fst, List.map_map]
    rfl
  rw [readFields, List.map_append, h, h]

theorem readGroups_names (name : ℤ → Str) (gs : List (ℤ × List ℕ)) :
    (readGroups name gs).map (·.1) = (gs.map (·.1)).map name := by
  simp [readGroups, Function.comp_def]

theorem readFields_names (zg fg : List (Str × List ℤ)) :
    (readFields zg fg).map (·.1) = zg.map (·.1) ++ fg.map (·.1) := by
  have h : ∀ (l : List (Str × List ℤ)) (g d : ℕ), ((l.zipIdx g).map fun e => (e.1.1, e.2, d)).map (·.1) = l.map (·.1) := by
    intro l g d
    rw [List.map_map]
    have : ((fun x : Str × ℕ × ℕ => x.1) ∘ fun e : (Str × List ℤ) × ℕ => (e.1.1, e.2, d)) =
      (fun x : Str × List ℤ => x.1) ∘ Prod.fst := rfl
    rw [this, ← List.map_map, List.zipIdx_map_fst]
  rw [readFields, List.map_append, h, h]

theorem readFields_numbers (zg fg : List (Str × List ℤ)) :
    (readFields zg fg).map (·.2.1) = List.range' 1 (zg.length + fg.length) := by
  have h : ∀ (l : List (Str × List ℤ)) (g d : ℕ), ((l.zipIdx g).map fun e => (e.1.1, e.2, d)).map (·.2.1) =
      List.range' g l.length := by
    intro l g d
    rw [List.map_map]
    have : ((fun x : Str × ℕ × ℕ => x.2.1) ∘ fun e : (Str × List ℤ) × ℕ => (e.1.1, e.2, d)) = Prod.snd := rfl
    rw [this, List.zipIdx_map_snd]
  rw [readFields, List.map_append, h, h, List.range'_append_1.symm, Nat.add_comm 1]

/-- The groups of zones as they are read. -/
def flacZoneGroups (m : FlacMesh) (mat : List ℤ) : List (Str × List ℤ) :=
  readGroups (groupName m.fieldData 3) (flacGroups m.cells mat .zone)

/-- The groups of faces as they are read. -/
def flacFaceGroups (m : FlacMesh) (mat : List ℤ) : List (Str × List ℤ) :=
  readGroups (groupName m.fieldData 2) (flacGroups m.cells mat .face)

/-- What `read_recs` needs to know about groups. -/
structure Ready (nz nf : ℕ) (zg fg : List (Str × List ℤ)) (z : ℕ → ℕ) : Prop where
  zd : ∀ e ∈ zg, e.2.Nodup
  fd : ∀ e ∈ fg, e.2.Nodup
  zk : ∀ e ∈ zg, ∀ k ∈ e.2, ∃ i < nz, k = (i : ℤ) + 1
  fk : ∀ e ∈ fg, ∀ k ∈ e.2, ∃ i < nf, k = ((nz + i : ℕ) : ℤ) + 1
  names : (zg.map (·.1) ++ fg.map (·.1)).Nodup
  zz : ∀ i < nz, groupsOf 1 zg ((i : ℤ) + 1) = [z i]
  ff : ∀ i < nf, groupsOf (zg.length + 1) fg (((nz + i : ℕ) : ℤ) + 1) = [z (nz + i)]

theorem groups_ready {m : FlacMesh} {mat : List ℤ} (hm : mat.length = (typedCells m.cells).length)
    (h : GroupsOk m mat) : ∃ z, Ready (cornersOf 3 m.cells).length (cornersOf 2 m.cells).length (flacZoneGroups m mat)
        (flacFaceGroups m mat) z ∧
      Describes m mat ((List.range ((cornersOf 3 m.cells).length + (cornersOf 2 m.cells).length)).map z)
        (readFields (flacZoneGroups m mat) (flacFaceGroups m mat)) ∧
      (flacZoneGroups m mat ++ flacFaceGroups m mat = [] ↔ mat = []) := by
  have hD := dims_sorted h
  have hZ : Partition mat (dimsOf m.cells) 3 (flacGroups m.cells mat .zone) := flacGroups_partition mat .zone h.known
  have hF : Partition mat (dimsOf m.cells) 2 (flacGroups m.cells mat .face) := flacGroups_partition mat .face h.known
  have hDlen : (dimsOf m.cells).length = mat.length := by rw [hm, dimsOf, List.length_map]
  have hkeys : ∀ (i d : ℕ), (dimsOf m.cells)[i]? = some d → ∃ k, mat[i]? = some k := by
    intro i d hi
    have hlt := (List.getElem?_eq_some_iff.1 hi).1
    exact ⟨_, List.getElem?_eq_getElem (by omega)⟩
  rw [flacZoneGroups, flacFaceGroups]
  have hoz : (groupMembers m mat 3).map (·.1) = _ := groupMembers_names .zone h.known hm
  have hof : (groupMembers m mat 2).map (·.1) = _ := groupMembers_names .face h.known hm
  generalize flacGroups m.cells mat .zone = Z at hZ hoz ⊢
  generalize flacGroups m.cells mat .face = F at hF hof ⊢
  have hlen : mat.length = (cornersOf 3 m.cells).length + (cornersOf 2 m.cells).length := by
    rw [← hDlen, hD]; simp
  have h3 : ∀ i, (dimsOf m.cells)[i]? = some 3 ↔ i < (cornersOf 3 m.cells).length := by
    intro i
    rw [hD, List.getElem?_append]
    simp only [List.length_replicate, List.getElem?_replicate]
    split
    · next hi => simp [hi]
    · next hi => simp [hi]
  have h2 : ∀ i, (dimsOf m.cells)[i]? = some 2 ↔ (cornersOf 3 m.cells).length ≤ i ∧
      i < (cornersOf 3 m.cells).length + (cornersOf 2 m.cells).length := by
    intro i
    rw [hD, List.getElem?_append]
    simp only [List.length_replicate, List.getElem?_replicate]
    split
    · next hi => simp; omega
    · next hi => simp; omega
  generalize hnz : (cornersOf 3 m.cells).length = nz at *
  generalize hnf : (cornersOf 2 m.cells).length = nf at *
  generalize hzg : readGroups (groupName m.fieldData 3) Z = zg
  generalize hfg : readGroups (groupName m.fieldData 2) F = fg
  have hzl : zg.length = Z.length := by rw [← hzg]; simp [readGroups]
  have hfl : fg.length = F.length := by rw [← hfg]; simp [readGroups]
  -- the number of the group of a zone or a face
  have hz1 : ∀ i < nz, ∃ j k, mat[i]? = some k ∧ (Z.map (·.1))[j]? = some k ∧
      groupsOf 1 zg ((i : ℤ) + 1) = [1 + j] := by
    intro i hi
    obtain ⟨k, hk⟩ := hkeys i 3 ((h3 i).2 hi)
    obtain ⟨j, hj, hg⟩ := groupsOf_single hZ (groupName m.fieldData 3) 1 hk ((h3 i).2 hi)
    exact ⟨j, k, hk, hj, by rw [← hzg]; exact hg⟩
  have hf1 : ∀ i < nf, ∃ j k, mat[nz + i]? = some k ∧ (F.map (·.1))[j]? = some k ∧
      groupsOf (zg.length + 1) fg (((nz + i : ℕ) : ℤ) + 1) = [zg.length + 1 + j] := by
    intro i hi
    have hd := (h2 (nz + i)).2 ⟨by omega, by omega⟩
    obtain ⟨k, hk⟩ := hkeys _ 2 hd
    obtain ⟨j, hj, hg⟩ := groupsOf_single hF (groupName m.fieldData 2) (zg.length + 1) hk hd
    exact ⟨j, k, hk, hj, by rw [← hfg]; exact hg⟩
  have hmemz : ∀ (j : ℕ) (k : ℤ), (Z.map (·.1))[j]? = some k →
      (groupName m.fieldData 3 k, 1 + j, 3) ∈ readFields zg fg := by
    intro j k hj
    rw [readFields, List.mem_append]
    left
    obtain ⟨e, he, hk⟩ := List.getElem?_map .. ▸ hj |> Option.map_eq_some_iff.1
    refine List.mem_map.2 ⟨((groupName m.fieldData 3 k, e.2.map fun v : ℕ => (v : ℤ)), 1 + j), ?_, rfl⟩
    rw [List.mk_add_mem_zipIdx_iff_getElem?, ← hzg, readGroups, List.getElem?_map, he, ← hk]
    rfl
  have hmemf : ∀ (j : ℕ) (k : ℤ), (F.map (·.1))[j]? = some k →
      (groupName m.fieldData 2 k, zg.length + 1 + j, 2) ∈ readFields zg fg := by
    intro j k hj
    rw [readFields, List.mem_append]
    right
    obtain ⟨e, he, hk⟩ := List.getElem?_map .. ▸ hj |> Option.map_eq_some_iff.1
    refine List.mem_map.2 ⟨((groupName m.fieldData 2 k, e.2.map fun v : ℕ => (v : ℤ)), zg.length + 1 + j), ?_, rfl⟩
    rw [List.mk_add_mem_zipIdx_iff_getElem?, ← hfg, readGroups, List.getElem?_map, he, ← hk]
    rfl
  have hnames : (zg.map (·.1) ++ fg.map (·.1)).Nodup := by
    rw [← hzg, ← hfg, readGroups_names, readGroups_names, List.nodup_append]
    refine ⟨?_, ?_, ?_⟩
    · refine List.Nodup.map_on ?_ hZ.keys
      intro a ha b hb hab
      have := h.different (3, a) (key_of_group hZ ha) (3, b) (key_of_group hZ hb) hab
      exact (Prod.mk.inj this).2
    · refine List.Nodup.map_on ?_ hF.keys
      intro a ha b hb hab
      have := h.different (2, a) (key_of_group hF ha) (2, b) (key_of_group hF hb) hab
      exact (Prod.mk.inj this).2
    · intro x hx y hy hxy
      obtain ⟨a, ha, rfl⟩ := List.mem_map.1 hx
      obtain ⟨b, hb, rfl⟩ := List.mem_map.1 hy
      have := h.different (3, a) (key_of_group hZ ha) (2, b) (key_of_group hF hb) hxy
      exact absurd (Prod.mk.inj this).1 (by decide)
  let z : ℕ → ℕ := fun i => if i < nz then (groupsOf 1 zg ((i : ℤ) + 1)).headD 0
    else (groupsOf (zg.length + 1) fg ((i : ℤ) + 1)).headD 0
  have hz0 : ∀ i < nz, ∀ j, groupsOf 1 zg ((i : ℤ) + 1) = [j] → z i = j := by
    intro i hi j hj
    simp only [z, if_pos hi, hj]
    rfl
  have hf0 : ∀ i j, groupsOf (zg.length + 1) fg (((nz + i : ℕ) : ℤ) + 1) = [j] → z (nz + i) = j := by
    intro i j hj
    have hn : ¬ nz + i < nz := by omega
    simp only [z, if_neg hn, hj]
    rfl
  refine ⟨z, ⟨?_, ?_, ?_, ?_, hnames, ?_, ?_⟩, ⟨?_, ?_, ?_, ?_, ?_⟩, ?_⟩
  · intro e he
    rw [← hzg] at he
    obtain ⟨g, hg, rfl⟩ := List.mem_map.1 he
    exact List.Nodup.map Nat.cast_injective (hZ.nodup g hg)
  · intro e he
    rw [← hfg] at he
    obtain ⟨g, hg, rfl⟩ := List.mem_map.1 he
    exact List.Nodup.map Nat.cast_injective (hF.nodup g hg)
  · intro e he k hk
    rw [← hzg] at he
    obtain ⟨g, hg, rfl⟩ := List.mem_map.1 he
    obtain ⟨v, hv, rfl⟩ := List.mem_map.1 hk
    obtain ⟨i, rfl, _, hi⟩ := (hZ.mem g hg v).1 hv
    exact ⟨i, (h3 i).1 hi, by push_cast; rfl⟩
  · intro e he k hk
    rw [← hfg] at he
    obtain ⟨g, hg, rfl⟩ := List.mem_map.1 he
    obtain ⟨v, hv, rfl⟩ := List.mem_map.1 hk
    obtain ⟨i, rfl, _, hi⟩ := (hF.mem g hg v).1 hv
    obtain ⟨hi1, hi2⟩ := (h2 i).1 hi
    exact ⟨i - nz, by omega, by push_cast [Nat.cast_sub hi1]; omega⟩
  · intro i hi
    obtain ⟨j, k, _, _, hg⟩ := hz1 i hi
    rw [hz0 i hi _ hg, hg]
  · intro i hi
    obtain ⟨j, k, _, _, hg⟩ := hf1 i hi
    rw [hf0 i _ hg, hg]
  · rw [List.forall₂_iff_get]
    refine ⟨?_, ?_⟩
    · rw [groupKeys, List.length_zip, List.length_map, List.length_map, List.length_range, ← hm, Nat.min_self, hlen]
    · intro i hi1 hi2
      have hi : i < nz + nf := by simpa using hi2
      simp only [List.get_eq_getElem, List.getElem_map, List.getElem_range]
      have hkey : ∀ (d : ℕ) (k : ℤ), (dimsOf m.cells)[i]? = some d → mat[i]? = some k →
          (groupKeys m.cells mat)[i] = (d, k) := by
        intro d k e1 e2
        apply Option.some.inj
        rw [← List.getElem?_eq_getElem, groupKeys, List.getElem?_zip_eq_some]
        exact ⟨e1, e2⟩
      by_cases hlt : i < nz
      · obtain ⟨j, k, hk, hj, hg⟩ := hz1 i hlt
        rw [hz0 i hlt _ hg, hkey 3 k ((h3 i).2 hlt) hk]
        exact hmemz j k hj
      · obtain ⟨i', rfl⟩ : ∃ i', i = nz + i' := ⟨i - nz, by omega⟩
        obtain ⟨j, k, hk, hj, hg⟩ := hf1 i' (by omega)
        rw [hf0 i' _ hg, hkey 2 k ((h2 _).2 ⟨by omega, hi⟩) hk]
        exact hmemf j k hj
  · rw [readFields_numbers, ← List.length_map (as := readFields zg fg) (f := fun e => e.2.1), readFields_numbers,
      List.length_range', List.range'_eq_map_range]
    exact List.map_congr_left fun i _ => Nat.add_comm 1 i
  · rw [readFields_names]
    exact hnames
  · have e1 : ∀ d : ℕ, ((groupMembers m mat d).map fun g => (g.1, d)) =
        ((groupMembers m mat d).map (·.1)).map fun g => (g, d) := fun d => by
      rw [List.map_map]
      rfl
    rw [readFields_order, e1, e1, hoz, hof, ← hzg, ← hfg, readGroups_names, readGroups_names]
    rfl
  · intro e he
    rw [readFields, List.mem_append] at he
    rcases he with he | he
    · obtain ⟨⟨g, x⟩, hx, rfl⟩ := List.mem_map.1 he
      obtain ⟨hle, hget⟩ := List.mk_mem_zipIdx_iff_le_and_getElem?_sub.1 hx
      rw [← hzg, readGroups, List.getElem?_map, Option.map_eq_some_iff] at hget
      obtain ⟨g', hg', _⟩ := hget
      have hmem := List.mem_of_getElem? hg'
      obtain ⟨v, hv⟩ := List.exists_mem_of_ne_nil _ (hZ.full g' hmem)
      obtain ⟨i, rfl, hi1, hi2⟩ := (hZ.mem g' hmem v).1 hv
      have hi := (h3 i).1 hi2
      obtain ⟨j, k, hk, hj, hg⟩ := hz1 i hi
      have hkk : k = g'.1 := by rw [hk] at hi1; exact Option.some.inj hi1
      have hx' : (Z.map (·.1))[x - 1]? = some k := by rw [List.getElem?_map, hg', hkk]; rfl
      have hjx : j = x - 1 := (List.getElem?_inj (List.getElem?_eq_some_iff.1 hj).1 hZ.keys).1 (by rw [hj, hx'])
      refine List.mem_map.2 ⟨i, List.mem_range.2 (by omega), ?_⟩
      rw [hz0 i hi _ hg]
      simp only
      omega
    · obtain ⟨⟨g, x⟩, hx, rfl⟩ := List.mem_map.1 he
      obtain ⟨hle, hget⟩ := List.mk_mem_zipIdx_iff_le_and_getElem?_sub.1 hx
      rw [← hfg, readGroups, List.getElem?_map, Option.map_eq_some_iff] at hget
      obtain ⟨g', hg', _⟩ := hget
      have hmem := List.mem_of_getElem? hg'
      obtain ⟨v, hv⟩ := List.exists_mem_of_ne_nil _ (hF.full g' hmem)
      obtain ⟨i, rfl, hi1, hi2⟩ := (hF.mem g' hmem v).1 hv
      obtain ⟨hia, hib⟩ := (h2 i).1 hi2
      obtain ⟨i', rfl⟩ : ∃ i', i = nz + i' := ⟨i - nz, by omega⟩
      obtain ⟨j, k, hk, hj, hg⟩ := hf1 i' (by omega)
      have hkk : k = g'.1 := by rw [hk] at hi1; exact Option.some.inj hi1
      have hx' : (F.map (·.1))[x - (zg.length + 1)]? = some k := by rw [List.getElem?_map, hg', hkk]; rfl
      have hjx : j = x - (zg.length + 1) :=
        (List.getElem?_inj (List.getElem?_eq_some_iff.1 hj).1 hF.keys).1 (by rw [hj, hx'])
      refine List.mem_map.2 ⟨nz + i', List.mem_range.2 (by omega), ?_⟩
      rw [hf0 i' _ hg]
      simp only
      omega
  · rw [List.append_eq_nil_iff]
    constructor
    · rintro ⟨e1, e2⟩
      have hz0 : nz = 0 := by
        by_contra hne
        obtain ⟨j, k, _, hj, _⟩ := hz1 0 (by omega)
        have := (List.getElem?_eq_some_iff.1 hj).1
        rw [List.length_map, ← hzl, e1] at this
        exact absurd this (by simp)
      have hf0 : nf = 0 := by
        by_contra hne
        obtain ⟨j, k, _, hj, _⟩ := hf1 0 (by omega)
        have := (List.getElem?_eq_some_iff.1 hj).1
        rw [List.length_map, ← hfl, e2] at this
        exact absurd this (by simp)
      exact List.length_eq_zero_iff.1 (by omega)
    · rintro rfl
      constructor
      · rw [← List.length_eq_zero_iff, hzl, List.length_eq_zero_iff, List.eq_nil_iff_forall_not_mem]
        intro e he
        obtain ⟨v, hv⟩ := List.exists_mem_of_ne_nil _ (hZ.full e he)
        obtain ⟨i, _, hi, _⟩ := (hZ.mem e he v).1 hv
        simp at hi
      · rw [← List.length_eq_zero_iff, hfl, List.length_eq_zero_iff, List.eq_nil_iff_forall_not_mem]
        intro e he
        obtain ⟨v, hv⟩ := List.exists_mem_of_ne_nil _ (hF.full e he)
        obtain ⟨i, _, hi, _⟩ := (hF.mem e he v).1 hv
        simp at hi

end Verif.Mesh
