import Verif.Lemmas.Avsucd
import Verif.Spec.Flac3d

/-!
# Lemmas about FLAC3D mesh files: what is read, record by record
-/

namespace Verif.Mesh
open Verif.Py Verif.Model Verif.Spec

/-- The records of a file, text or binary. -/
inductive FRec
  | point (id : ℤ) (x : List Flt)
  | cell (flag : FlacFlag) (b7 : Bool) (id : ℤ) (vs : List ℤ)
  | group (flag : FlacFlag) (name slot : Str) (data : List ℤ)

/-- The effect of a record. -/
def FlacState.step (s : FlacState) : FRec → Except PyErr FlacState
  | .point id x => .ok (s.addPoint id x)
  | .cell flag b7 id vs => s.addCell flag b7 id vs
  | .group flag name slot data => s.addGroup flag name slot data

/-! ### points -/

/-- The records of points. -/
def pointRecs (xs : List (List Flt)) : List FRec := xs.zipIdx.map fun e => .point ((e.2 : ℤ) + 1) e.1

theorem numbering_succ (n : ℕ) : dictSet (numbering n) ((n : ℤ) + 1) n = numbering (n + 1) := by
  rw [dictSet_of_notMem]
  · simp [numbering, List.range_succ]
  · intro h
    simp only [numbering, List.map_map, List.mem_map, List.mem_range, Function.comp_apply] at h
    obtain ⟨i, hi, h⟩ := h
    omega

theorem fold_points (xs : List (List Flt)) :
    (pointRecs xs).foldlM FlacState.step {} = .ok { points := xs, ids := numbering xs.length } := by
  have main : ∀ (ys pre : List (List Flt)), ((ys.zipIdx pre.length).map fun e => FRec.point ((e.2 : ℤ) + 1) e.1).foldlM
      FlacState.step { points := pre, ids := numbering pre.length } =
      .ok ({ points := pre ++ ys, ids := numbering (pre ++ ys).length } : FlacState) := by
    intro ys
    induction ys with
    | nil => intro pre; simp; rfl
    | cons y ys ih =>
      intro pre
      rw [List.zipIdx_cons, List.map_cons, List.foldlM_cons, FlacState.step, ok_bind, FlacState.addPoint]
      simp only [numbering_succ]
      have := ih (pre ++ [y])
      simp only [List.length_append, List.length_cons, List.length_nil, Nat.zero_add, List.append_assoc,
        List.singleton_append] at this ⊢
      rw [this]
  exact main xs []

/-! ### cells -/

/-- The places of `n` cells from `a` on. -/
def places (a n : ℕ) : List (ℤ × List ℕ) := (List.range n).map fun i : ℕ => (((a + i : ℕ) : ℤ) + 1, [a + i])

/-- The records of cells: the first of them is number `a` from zero. -/
def cellRecs (flag : FlacFlag) (a : ℕ) (cs : List (CellType × List ℕ)) : List FRec :=
  (cs.zipIdx a).map fun e => .cell flag false ((e.2 : ℤ) + 1) (e.1.2.map fun v : ℕ => (v : ℤ) + 1)

/-- The blocks of cells, in reverse. -/
def addAll (cs : List (CellType × List ℕ)) (acc : List CellBlock) : List CellBlock :=
  cs.foldl (fun acc e => flacAdd e.1 e.2 acc) acc

theorem places_succ (a n : ℕ) :
    dictSet (places a n) (((a + n : ℕ) : ℤ) + 1) [a + n] = places a (n + 1) := by
  rw [dictSet_of_notMem]
  · simp [places, List.range_succ]
  · intro h
    simp only [places, List.map_map, List.mem_map, List.mem_range, Function.comp_apply] at h
    obtain ⟨i, hi, h⟩ := h
    omega

theorem flacVertices_eq {np : ℕ} {c : List ℕ} (h : ∀ v ∈ c, v < np) :
    flacVertices (numbering np) false (c.map fun v : ℕ => (v : ℤ) + 1) = .ok c := by
  have : (c.map fun v : ℕ => (v : ℤ) + 1).mapM (dictGet (numbering np)) = .ok c := by
    rw [List.mapM_map]
    have := mapM_ok (f := dictGet (numbering np) ∘ fun v : ℕ => (v : ℤ) + 1) (g := id) (xs := c)
      fun v hv => numbering_get (h v hv)
    rw [this, List.map_id]
  rw [flacVertices, this]
  rfl

theorem fold_cells (flag : FlacFlag) {np : ℕ} {cs : List (CellType × List ℕ)}
    (h : ∀ e ∈ cs, flacCount flag e.2.length = .ok e.1 ∧ ∀ v ∈ e.2, v < np) (s : FlacState)
    (hi : s.ids = numbering np) (a n : ℕ) (hc : s.count = a + n) (hm : s.mapper flag = places a n) :
    (cellRecs flag (a + n) cs).foldlM FlacState.step s = .ok { s with
      blocks := addAll cs s.blocks
      count := a + n + cs.length
      mapper := fun f => if f = flag then places a (n + cs.length) else s.mapper f } := by
  induction cs generalizing s n with
  | nil =>
    simp only [cellRecs, List.zipIdx_nil, List.map_nil, List.foldlM_nil, addAll, List.foldl_nil, List.length_nil,
      Nat.add_zero]
    have : (fun f => if f = flag then places a n else s.mapper f) = s.mapper := by
      funext f
      split
      · next hf => rw [hf, hm]
      · rfl
    rw [this, ← hc]
    rfl
  | cons e cs ih =>
    obtain ⟨h1, h2⟩ := h e (by simp)
    have hr : cellRecs flag (a + n) (e :: cs) =
        .cell flag false (((a + n : ℕ) : ℤ) + 1) (e.2.map fun v : ℕ => (v : ℤ) + 1) :: cellRecs flag (a + (n + 1)) cs := rfl
    rw [hr, List.foldlM_cons, FlacState.step, FlacState.addCell, hi, flacVertices_eq h2, ok_bind, h1]
    simp only [ok_bind]
    rw [ih (fun e he => h e (by simp [he])) _ rfl (n + 1) (by simp only [hc]; omega)
      (by simp only [if_pos, hc, hm]; exact places_succ a n)]
    simp only [addAll, List.foldl_cons, List.length_cons]
    congr 2
    · omega
    · funext f
      split
      · congr 1; omega
      · rfl

/-! ### groups -/

/-- Add group `g` to the cells in `data`. -/
def tag (g : ℕ) (data : List ℤ) (mp : List (ℤ × List ℕ)) : List (ℤ × List ℕ) :=
  mp.map fun e => (e.1, if e.1 ∈ data then e.2 ++ [g] else e.2)

theorem tag_keys (g : ℕ) (data : List ℤ) (mp : List (ℤ × List ℕ)) : (tag g data mp).map (·.1) = mp.map (·.1) := by
  simp [tag, List.map_map, Function.comp_def]

theorem dictSet_map {mp : List (ℤ × List ℕ)} (hn : (mp.map (·.1)).Nodup) {i : ℤ} {l : List ℕ} (h : (i, l) ∈ mp)
    (g : ℕ) : dictSet mp i (l ++ [g]) = tag g [i] mp := by
  obtain ⟨a, b, rfl⟩ := List.append_of_mem h
  simp only [List.map_append, List.map_cons, List.nodup_append, List.nodup_cons, List.mem_cons] at hn
  obtain ⟨h1, ⟨h2, h3⟩, h4⟩ := hn
  rw [dictSet_mid (fun hi => h4 i hi i (Or.inl rfl) rfl)]
  have ha : tag g [i] a = a := by
    rw [tag]
    conv_rhs => rw [← List.map_id a]
    apply List.map_congr_left
    intro e he
    have : e.1 ≠ i := h4 e.1 (List.mem_map_of_mem he) i (Or.inl rfl)
    simp [this]
  have hb : tag g [i] b = b := by
    rw [tag]
    conv_rhs => rw [← List.map_id b]
    apply List.map_congr_left
    intro e he
    have : e.1 ≠ i := fun h => h2 (h ▸ List.mem_map_of_mem he)
    simp [this]
  have : tag g [i] (a ++ (i, l) :: b) = tag g [i] a ++ (i, l ++ [g]) :: tag g [i] b := by
    simp [tag]
  rw [this, ha, hb]

theorem fold_tag (g : ℕ) {data : List ℤ} (hd : data.Nodup) {mp : List (ℤ × List ℕ)} (hn : (mp.map (·.1)).Nodup)
    (h : ∀ i ∈ data, i ∈ mp.map (·.1)) :
    data.foldlM (fun mp i => do
      let l ← dictGet mp i
      .ok (dictSet mp i (l ++ [g]))) mp = (.ok (tag g data mp) : Except PyErr (List (ℤ × List ℕ))) := by
  induction data generalizing mp with
  | nil =>
    have : tag g [] mp = mp := by simp [tag]
    rw [this]
    rfl
  | cons i data ih =>
    obtain ⟨hi, hd⟩ := List.nodup_cons.1 hd
    obtain ⟨e, he, hei⟩ := List.mem_map.1 (h i (by simp))
    have he' : (i, e.2) ∈ mp := by rw [← hei]; exact he
    rw [List.foldlM_cons, dictGet_mem hn he']
    simp only [ok_bind]
    rw [dictSet_map hn he', ih hd (by rw [tag_keys]; exact hn) (by
      rw [tag_keys]; exact fun j hj => h j (by simp [hj]))]
    congr 1
    rw [tag, tag, tag, List.map_map]
    apply List.map_congr_left
    intro e he
    simp only [Function.comp_apply, List.mem_cons, List.not_mem_nil, or_false, Prod.mk.injEq, true_and]
    by_cases h1 : e.1 = i
    · simp [h1, hi]
    · simp [h1]

/-- The numbers of the groups, from `g` on, that contain cell `i`. -/
def groupsOf (g : ℕ) (gs : List (Str × List ℤ)) (i : ℤ) : List ℕ :=
  (gs.zipIdx g).filterMap fun e => if i ∈ e.1.2 then some e.2 else none

/-- Add all groups, from `g` on. -/
def tagAll (g : ℕ) (gs : List (Str × List ℤ)) (mp : List (ℤ × List ℕ)) : List (ℤ × List ℕ) :=
  mp.map fun e => (e.1, e.2 ++ groupsOf g gs e.1)

/-- The records of groups. -/
def groupRecs (flag : FlacFlag) (slot : Str) (gs : List (Str × List ℤ)) : List FRec :=
  gs.map fun e => .group flag e.1 slot e.2

theorem fold_groups (flag : FlacFlag) (slot : Str) {gs : List (Str × List ℤ)} (hd : ∀ e ∈ gs, e.2.Nodup)
    (s : FlacState) (hs : s.slots flag = [] ∨ s.slots flag = [slot]) (hn : ((s.mapper flag).map (·.1)).Nodup)
    (h : ∀ e ∈ gs, ∀ i ∈ e.2, i ∈ (s.mapper flag).map (·.1))
    (hk : (s.fields.map (·.1) ++ gs.map (·.1)).Nodup) :
    (groupRecs flag slot gs).foldlM FlacState.step s = .ok { s with
      fields := s.fields ++ (gs.zipIdx (s.group + 1)).map fun e => (e.1.1, e.2, flag.dim)
      group := s.group + gs.length
      mapper := fun f => if f = flag then tagAll (s.group + 1) gs (s.mapper f) else s.mapper f
      slots := fun f => if f = flag then (if gs = [] then s.slots f else [slot]) else s.slots f } := by
  induction gs generalizing s with
  | nil =>
    have h1 : ∀ mp, tagAll (s.group + 1) [] mp = mp := by
      intro mp
      simp [tagAll, groupsOf]
    simp only [groupRecs, List.map_nil, List.foldlM_nil, List.zipIdx_nil, List.append_nil, List.length_nil,
      Nat.add_zero, h1, ite_self, if_true]
    rfl
  | cons e gs ih =>
    have hr : groupRecs flag slot (e :: gs) = .group flag e.1 slot e.2 :: groupRecs flag slot gs := rfl
    have hs' : s.slots flag = [] ∨ slot ∈ s.slots flag := by
      rcases hs with hs | hs
      · exact .inl hs
      · exact .inr (by rw [hs]; simp)
    have hfresh : e.1 ∉ s.fields.map (·.1) := by
      intro hm
      have := (List.nodup_append.1 hk).2.2 e.1 hm e.1 (by simp)
      exact this rfl
    rw [hr, List.foldlM_cons, FlacState.step, FlacState.addGroup,
      fold_tag _ (hd e (by simp)) hn (h e (by simp)), ok_bind, if_pos hs', ok_bind,
      ih (fun e he => hd e (by simp [he])) _ (by simp) (by simp only [if_pos, tag_keys]; exact hn)
        (by simp only [if_pos, tag_keys]; exact fun e he => h e (by simp [he]))
        (by
          simp only [dictSet_of_notMem _ _ _ hfresh, List.map_append, List.map_cons, List.map_nil, List.append_assoc,
            List.singleton_append]
          simpa using hk)]
    simp only [dictSet_of_notMem _ _ _ hfresh, List.append_assoc, List.singleton_append, List.zipIdx_cons,
      List.map_cons, List.length_cons, reduceCtorEq, if_false]
    congr 2
    · omega
    · funext f
      split
      · next hf =>
        rw [hf, tagAll, tagAll, tag, List.map_map]
        apply List.map_congr_left
        intro x hx
        simp only [Function.comp_apply, groupsOf, List.zipIdx_cons, Prod.mk.injEq, true_and, List.filterMap_cons]
        by_cases hx : x.1 ∈ e.2
        · simp [hx]
        · simp [hx]
      · rfl
    · funext f
      split
      · next hf => simp
      · rfl

/-! ### the end -/

theorem fill_places (s : FlacState) (flag : FlacFlag) (a n : ℕ) (z : ℕ → ℕ)
    (hm : s.mapper flag = (List.range n).map fun i : ℕ => (((a + i : ℕ) : ℤ) + 1, [a + i, z i]))
    (hs : s.slots flag = [] → n = 0) (data : List ℕ) (hl : a + n ≤ data.length) :
    s.fill flag data = .ok (data.take a ++ (List.range n).map z ++ data.drop (a + n)) := by
  rw [FlacState.fill]
  split
  · next h => rw [hs h]; simp
  · rw [hm]
    clear hm hs
    induction n with
    | zero => simp; rfl
    | succ n ih =>
      rw [List.range_succ, List.map_append, List.foldlM_append, ih (by omega)]
      have hlen : (data.take a ++ (List.range n).map z).length = a + n := by
        rw [List.length_append, List.length_take, List.length_map, List.length_range]; omega
      have hx : a + n < (data.take a ++ (List.range n).map z ++ data.drop (a + n)).length := by
        rw [List.length_append, hlen, List.length_drop]; omega
      simp only [ok_bind, List.map_cons, List.map_nil, List.foldlM_cons, List.foldlM_nil]
      rw [if_pos hx]
      simp only [ok_bind]
      change Except.ok _ = Except.ok _
      congr 1
      rw [List.set_append_right _ _ (by omega), hlen, Nat.sub_self,
        List.drop_eq_getElem_cons (by omega : a + n < data.length), List.set_cons_zero]
      simp [Nat.add_assoc]

theorem addAll_spec (cs : List (CellType × List ℕ)) (acc : List CellBlock)
    (hne : ∀ b ∈ acc, b.data ≠ []) (hch : acc.IsChain fun a b => a.type ≠ b.type) :
    typedCells (addAll cs acc).reverse = typedCells acc.reverse ++ cs ∧
    (∀ b ∈ addAll cs acc, b.data ≠ []) ∧ (addAll cs acc).IsChain fun a b => a.type ≠ b.type := by
  have e : addAll cs acc = avsBlocks (cs.map fun c => ⟨0, 0, c.1, c.2⟩) acc := by
    clear hne hch
    induction cs generalizing acc with
    | nil => simp [addAll, avsBlocks]
    | cons c cs ih =>
      have : addAll (c :: cs) acc = addAll cs (flacAdd c.1 c.2 acc) := rfl
      rw [this, ih, List.map_cons]
      cases acc with
      | nil => rw [avsBlocks, flacAdd]
      | cons b acc =>
        rw [avsBlocks, flacAdd]
        by_cases h : b.type = c.1
        · rw [if_pos h, if_pos h.symm]
        · rw [if_neg h, if_neg (fun h' => h h'.symm)]
  have := avsBlocks_spec (cs.map fun c => ⟨0, 0, c.1, c.2⟩) acc hne hch
  rw [e]
  refine ⟨?_, this.2⟩
  rw [this.1, List.map_map]
  congr 1
  conv_rhs => rw [← List.map_id cs]
  rfl

theorem flacCount_inv {flag : FlacFlag} {n : ℕ} {t : CellType} (h : flacCount flag n = .ok t) :
    ∀ i ∈ flacOrderBack t, i < n := by
  unfold flacCount at h
  split at h <;> cases h <;> decide

/-- The blocks in the order of this library. -/
def backBlock (b : CellBlock) : CellBlock := ⟨b.type, b.data.map (perm (flacOrderBack b.type))⟩

theorem back_blocks {B : List CellBlock} {zs : List (CellType × List ℕ)} (hB : typedCells B = zs)
    (h : ∀ e ∈ zs, ∀ i ∈ flacOrderBack e.1, i < e.2.length) :
    B.mapM (fun b => do
      let data ← b.data.mapM (permute (flacOrderBack b.type))
      .ok (⟨b.type, data⟩ : CellBlock)) = (.ok (B.map backBlock) : Except PyErr (List CellBlock)) := by
  apply mapM_ok
  intro b hb
  have : b.data.mapM (permute (flacOrderBack b.type)) = .ok (b.data.map (perm (flacOrderBack b.type))) := by
    apply mapM_ok
    intro c hc
    apply permute_eq
    refine h (b.type, c) ?_
    rw [← hB]
    exact List.mem_flatMap.2 ⟨b, hb, List.mem_map.2 ⟨c, hc, rfl⟩⟩
  rw [this]
  rfl

theorem typedCells_back (B : List CellBlock) :
    typedCells (B.map backBlock) = (typedCells B).map fun e => (e.1, perm (flacOrderBack e.1) e.2) := by
  simp only [typedCells, List.flatMap_map, List.map_flatMap, List.map_map, backBlock]
  rfl

theorem places_keys (a n : ℕ) : ((places a n).map (·.1)).Nodup := by
  rw [places, List.map_map]
  refine List.Nodup.map ?_ List.nodup_range
  intro i j h
  simp only [Function.comp_apply] at h
  omega

theorem mem_places_keys {a n : ℕ} {k : ℤ} : k ∈ (places a n).map (·.1) ↔ ∃ i < n, k = ((a + i : ℕ) : ℤ) + 1 := by
  simp only [places, List.map_map, List.mem_map, List.mem_range, Function.comp_apply]
  constructor
  · rintro ⟨i, hi, rfl⟩; exact ⟨i, hi, rfl⟩
  · rintro ⟨i, hi, rfl⟩; exact ⟨i, hi, rfl⟩

/-- All records of a file. -/
def allRecs (xs : List (List Flt)) (zs fs : List (CellType × List ℕ)) (slot : Str) (zg fg : List (Str × List ℤ)) :
    List FRec :=
  pointRecs xs ++ (cellRecs .zone 0 zs ++ (groupRecs .zone slot zg ++ (cellRecs .face zs.length fs ++
    groupRecs .face slot fg)))

/-- The field data that are read. -/
def readFields (zg fg : List (Str × List ℤ)) : List (Str × ℕ × ℕ) :=
  ((zg.zipIdx 1).map fun e => (e.1.1, e.2, 3)) ++ (fg.zipIdx (zg.length + 1)).map fun e => (e.1.1, e.2, 2)

/-- The state after the zones. -/
def stateZones (xs : List (List Flt)) (zs : List (CellType × List ℕ)) : FlacState :=
  { points := xs
    ids := numbering xs.length
    blocks := addAll zs []
    count := 0 + 0 + zs.length
    mapper := fun f => if f = .zone then places 0 (0 + zs.length) else [] }

/-- The state after the groups of zones. -/
def stateZoneGroups (xs : List (List Flt)) (zs : List (CellType × List ℕ)) (slot : Str)
    (zg : List (Str × List ℤ)) : FlacState :=
  { stateZones xs zs with
    fields := (stateZones xs zs).fields ++ (zg.zipIdx ((stateZones xs zs).group + 1)).map fun e =>
      (e.1.1, e.2, FlacFlag.zone.dim)
    group := (stateZones xs zs).group + zg.length
    mapper := fun f => if f = .zone then tagAll ((stateZones xs zs).group + 1) zg ((stateZones xs zs).mapper f)
      else (stateZones xs zs).mapper f
    slots := fun f => if f = .zone then (if zg = [] then (stateZones xs zs).slots f else [slot])
      else (stateZones xs zs).slots f }

/-- The state after the faces. -/
def stateFaces (xs : List (List Flt)) (zs fs : List (CellType × List ℕ)) (slot : Str)
    (zg : List (Str × List ℤ)) : FlacState :=
  { stateZoneGroups xs zs slot zg with
    blocks := addAll fs (stateZoneGroups xs zs slot zg).blocks
    count := zs.length + 0 + fs.length
    mapper := fun f => if f = .face then places zs.length (0 + fs.length)
      else (stateZoneGroups xs zs slot zg).mapper f }

/-- The state at the end. -/
def stateEnd (xs : List (List Flt)) (zs fs : List (CellType × List ℕ)) (slot : Str)
    (zg fg : List (Str × List ℤ)) : FlacState where
  points := xs
  ids := numbering xs.length
  blocks := addAll fs (addAll zs [])
  count := zs.length + fs.length
  fields := readFields zg fg
  group := zg.length + fg.length
  mapper := fun
    | .zone => tagAll 1 zg (places 0 zs.length)
    | .face => tagAll (zg.length + 1) fg (places zs.length fs.length)
  slots := fun
    | .zone => if zg = [] then [] else [slot]
    | .face => if fg = [] then [] else [slot]

/-- All records of a file, one after the other. -/
theorem fold_allRecs {xs : List (List Flt)} {zs fs : List (CellType × List ℕ)} (slot : Str)
    {zg fg : List (Str × List ℤ)}
    (hz : ∀ e ∈ zs, flacCount .zone e.2.length = .ok e.1 ∧ ∀ v ∈ e.2, v < xs.length)
    (hf : ∀ e ∈ fs, flacCount .face e.2.length = .ok e.1 ∧ ∀ v ∈ e.2, v < xs.length)
    (hzd : ∀ e ∈ zg, e.2.Nodup) (hfd : ∀ e ∈ fg, e.2.Nodup)
    (hzk : ∀ e ∈ zg, ∀ k ∈ e.2, ∃ i < zs.length, k = (i : ℤ) + 1)
    (hfk : ∀ e ∈ fg, ∀ k ∈ e.2, ∃ i < fs.length, k = ((zs.length + i : ℕ) : ℤ) + 1)
    (hnames : (zg.map (·.1) ++ fg.map (·.1)).Nodup) :
    (allRecs xs zs fs slot zg fg).foldlM FlacState.step {} = .ok (stateEnd xs zs fs slot zg fg) := by
  have h1 := fold_cells .zone hz { points := xs, ids := numbering xs.length } rfl 0 0 rfl rfl
  have h2 := fold_groups .zone slot hzd (stateZones xs zs) (.inl rfl) (places_keys _ _)
      (by
        intro e he k hk
        obtain ⟨i, hi, rfl⟩ := hzk e he k hk
        exact mem_places_keys.2 ⟨i, by omega, by rw [Nat.zero_add]⟩)
      (by simpa [stateZones] using (List.nodup_append.1 hnames).1)
  have h3 := fold_cells .face hf (stateZoneGroups xs zs slot zg) rfl zs.length 0 (by simp [stateZoneGroups, stateZones]) rfl
  have hk0 : (stateFaces xs zs fs slot zg).fields.map (·.1) = zg.map (·.1) := by
    simp only [stateFaces, stateZoneGroups, stateZones, List.nil_append, List.map_map]
    apply List.ext_getElem
    · simp
    · intro i j1 j2; simp
  have h4 := fold_groups .face slot hfd (stateFaces xs zs fs slot zg) (.inl rfl)
      (places_keys _ _)
      (by
        intro e he k hk
        obtain ⟨i, hi, rfl⟩ := hfk e he k hk
        exact mem_places_keys.2 ⟨i, by omega, rfl⟩)
      (by rw [hk0]; exact hnames)
  have h1' : (cellRecs .zone 0 zs).foldlM FlacState.step { points := xs, ids := numbering xs.length } =
    .ok (stateZones xs zs) := h1
  have h2' : (groupRecs .zone slot zg).foldlM FlacState.step (stateZones xs zs) =
    .ok (stateZoneGroups xs zs slot zg) := h2
  have h3' : (cellRecs .face zs.length fs).foldlM FlacState.step (stateZoneGroups xs zs slot zg) =
    .ok (stateFaces xs zs fs slot zg) := h3
  rw [allRecs, List.foldlM_append, fold_points, ok_bind, List.foldlM_append, h1', ok_bind, List.foldlM_append, h2',
    ok_bind, List.foldlM_append, h3', ok_bind, h4]
  congr 1
  simp only [stateEnd, stateFaces, stateZoneGroups, stateZones, readFields, List.nil_append, Nat.zero_add,
    FlacFlag.dim, Nat.add_zero]
  congr 1
  · funext f
    cases f <;> simp
  · funext f
    cases f <;> simp

theorem read_recs {xs : List (List Flt)} {zs fs : List (CellType × List ℕ)} (slot : Str)
    {zg fg : List (Str × List ℤ)} (hx : ∀ x ∈ xs, x.length = 3)
    (hz : ∀ e ∈ zs, flacCount .zone e.2.length = .ok e.1 ∧ ∀ v ∈ e.2, v < xs.length)
    (hf : ∀ e ∈ fs, flacCount .face e.2.length = .ok e.1 ∧ ∀ v ∈ e.2, v < xs.length)
    (hzd : ∀ e ∈ zg, e.2.Nodup) (hfd : ∀ e ∈ fg, e.2.Nodup)
    (hzk : ∀ e ∈ zg, ∀ k ∈ e.2, ∃ i < zs.length, k = (i : ℤ) + 1)
    (hfk : ∀ e ∈ fg, ∀ k ∈ e.2, ∃ i < fs.length, k = ((zs.length + i : ℕ) : ℤ) + 1)
    (hnames : (zg.map (·.1) ++ fg.map (·.1)).Nodup) (z : ℕ → ℕ)
    (hzz : zg ++ fg ≠ [] → ∀ i < zs.length, groupsOf 1 zg ((i : ℤ) + 1) = [z i])
    (hff : zg ++ fg ≠ [] → ∀ i < fs.length,
      groupsOf (zg.length + 1) fg (((zs.length + i : ℕ) : ℤ) + 1) = [z (zs.length + i)])
    (hne : zg ++ fg ≠ [] → zs ++ fs ≠ []) :
    ∃ s cells, (allRecs xs zs fs slot zg fg).foldlM FlacState.step {} = .ok s ∧
      s.finish = .ok ⟨xs, cells, if zg ++ fg = [] then none else some ((List.range (zs.length + fs.length)).map z),
        readFields zg fg⟩ ∧
      typedCells cells = (zs ++ fs).map (fun e => (e.1, perm (flacOrderBack e.1) e.2)) ∧
      (∀ b ∈ cells, b.data ≠ []) ∧ (cells.IsChain fun a b => a.type ≠ b.type) := by
  have hfold := fold_allRecs slot hz hf hzd hfd hzk hfk hnames
  obtain ⟨b1, b2, b3⟩ := addAll_spec fs (addAll zs []) (addAll_spec zs [] (by simp) (by simp)).2.1
    (addAll_spec zs [] (by simp) (by simp)).2.2
  rw [(addAll_spec zs [] (by simp) (by simp)).1, show typedCells ([] : List CellBlock).reverse = [] from rfl,
    List.nil_append] at b1
  refine ⟨_, (addAll fs (addAll zs [])).reverse.map backBlock, hfold, ?_, ?_, ?_, ?_⟩
  · have hfields : (stateEnd xs zs fs slot zg fg).fields = [] ↔ zg ++ fg = [] := by
      simp [stateEnd, readFields]
    have hcells := back_blocks b1 fun e he => by
      rcases List.mem_append.1 he with he | he
      · exact flacCount_inv (hz e he).1
      · exact flacCount_inv (hf e he).1
    have hrect : rectangular xs = true := rectangular_of hx
    have hg : (if (stateEnd xs zs fs slot zg fg).fields = [] then .ok none
      else if (stateEnd xs zs fs slot zg fg).blocks = [] then .error .indexError
      else do
        let data ← (stateEnd xs zs fs slot zg fg).fill .zone (List.replicate (stateEnd xs zs fs slot zg fg).count 0)
        let data ← (stateEnd xs zs fs slot zg fg).fill .face data
        .ok (some data) : Except PyErr (Option (List ℕ))) =
        .ok (if zg ++ fg = [] then none else some ((List.range (zs.length + fs.length)).map z)) := by
      by_cases h0 : zg ++ fg = []
      · rw [if_pos (hfields.2 h0), if_pos h0]
      · rw [if_neg (fun h => h0 (hfields.1 h)), if_neg h0, if_neg ?_]
        · have f1 := fill_places (stateEnd xs zs fs slot zg fg) .zone 0 zs.length z (by
            simp only [stateEnd, tagAll, places, List.map_map]
            apply List.map_congr_left
            intro i hi
            have := hzz h0 i (List.mem_range.1 hi)
            simp only [Function.comp_apply, Nat.zero_add, this, List.singleton_append]) (by
            intro h
            by_contra hn
            have h2 := hzz h0 0 (by omega)
            have h3 : zg = [] := by simpa [stateEnd] using h
            rw [h3] at h2
            simp [groupsOf] at h2) (List.replicate (zs.length + fs.length) 0) (by simp)
          have f2 := fill_places (stateEnd xs zs fs slot zg fg) .face zs.length fs.length (fun i => z (zs.length + i)) (by
            simp only [stateEnd, tagAll, places, List.map_map]
            apply List.map_congr_left
            intro i hi
            have := hff h0 i (List.mem_range.1 hi)
            simp only [Function.comp_apply, this, List.singleton_append]) (by
            intro h
            by_contra hn
            have h2 := hff h0 0 (by omega)
            have h3 : fg = [] := by simpa [stateEnd] using h
            rw [h3] at h2
            simp [groupsOf] at h2) ((List.range zs.length).map z ++ List.replicate fs.length 0) (by simp)
          have e1 : (stateEnd xs zs fs slot zg fg).count = zs.length + fs.length := rfl
          rw [e1, f1]
          have e2 : (List.replicate (zs.length + fs.length) 0).take 0 ++ (List.range zs.length).map z ++
              (List.replicate (zs.length + fs.length) 0).drop (0 + zs.length) =
              (List.range zs.length).map z ++ List.replicate fs.length 0 := by simp
          rw [ok_bind, e2, f2, ok_bind]
          congr 2
          have e5 : ((List.range zs.length).map z ++ List.replicate fs.length 0).drop (zs.length + fs.length) = [] :=
            List.drop_eq_nil_of_le (by simp)
          rw [List.range_add, List.map_append, List.map_map, e5, List.append_nil]
          simp
        · intro hb
          have : addAll fs (addAll zs []) = [] := hb
          rw [this] at b1
          exact hne h0 b1.symm
    rw [FlacState.finish, hg, ok_bind]
    have e3 : (stateEnd xs zs fs slot zg fg).points = xs := rfl
    have e4 : (stateEnd xs zs fs slot zg fg).blocks = addAll fs (addAll zs []) := rfl
    rw [e3, e4, hrect, hcells]
    rfl
  · rw [typedCells_back, b1]
  · intro b hb
    obtain ⟨b', hb', rfl⟩ := List.mem_map.1 hb
    simpa [backBlock] using b2 b' (List.mem_reverse.1 hb')
  · rw [List.isChain_map]
    exact chain_reverse b3

end Verif.Mesh
