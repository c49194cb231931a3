import Verif.Lemmas.EarlyFlac
import Verif.Lemmas.Flac3dFile

/-!
# FLAC3D text files that end between their groups or faces
-/

namespace Verif.Mesh
open Verif.Py Verif.Model Verif.Spec

/-! ### groups that end early -/

theorem groupsOf_append (g : ℕ) (a b : List (Str × List ℤ)) (i : ℤ) :
    groupsOf g (a ++ b) i = groupsOf g a i ++ groupsOf (g + a.length) b i := by
  simp only [groupsOf, List.zipIdx_append, List.filterMap_append]

theorem groupsOf_cons (g : ℕ) (e : Str × List ℤ) (b : List (Str × List ℤ)) (i : ℤ) :
    groupsOf g (e :: b) i = (if i ∈ e.2 then [g] else []) ++ groupsOf (g + 1) b i := by
  simp only [groupsOf, List.zipIdx_cons, List.filterMap_cons]
  by_cases h : i ∈ e.2 <;> simp [h]

/-- The groups without the end: those of `a` and the beginning of one more. -/
structure Shortened (gs gs' : List (Str × List ℤ)) : Prop where
  split : ∃ a name d rest b, gs = a ++ (name, d) :: rest ∧ gs' = a ++ [(name, d.take b)] ∧ (b < d.length ∨ rest ≠ [])

theorem Shortened.names {gs gs' : List (Str × List ℤ)} (h : Shortened gs gs') : (gs'.map (·.1)).Sublist (gs.map (·.1)) := by
  obtain ⟨a, name, d, rest, b, rfl, rfl, _⟩ := h.split
  simp

theorem Shortened.mem {gs gs' : List (Str × List ℤ)} (h : Shortened gs gs') {e : Str × List ℤ} (he : e ∈ gs') :
    ∃ e' ∈ gs, e.2.Sublist e'.2 := by
  obtain ⟨a, name, d, rest, b, rfl, rfl, _⟩ := h.split
  simp only [List.mem_append, List.mem_cons, List.not_mem_nil, or_false] at he
  rcases he with he | rfl
  · exact ⟨e, by simp [he], List.Sublist.refl _⟩
  · exact ⟨(name, d), by simp, List.take_sublist _ _⟩

theorem Shortened.ne {gs gs' : List (Str × List ℤ)} (h : Shortened gs gs') : gs' ≠ [] := by
  obtain ⟨a, name, d, rest, b, rfl, rfl, _⟩ := h.split
  simp

/-- Some cell is in no group, and no cell is in two. -/
theorem Shortened.missing {gs gs' : List (Str × List ℤ)} (h : Shortened gs gs') (g : ℕ) (hne : ∀ e ∈ gs, e.2 ≠ [])
    (hnd : ∀ e ∈ gs, e.2.Nodup) (hone : ∀ e ∈ gs, ∀ k ∈ e.2, ∃ z, groupsOf g gs k = [z]) :
    (∃ e ∈ gs, ∃ k ∈ e.2, groupsOf g gs' k = []) ∧
      ∀ k, (∃ z, groupsOf g gs k = [z]) → groupsOf g gs' k = [] ∨ ∃ z, groupsOf g gs' k = [z] := by
  obtain ⟨a, name, d, rest, b, rfl, rfl, hb⟩ := h.split
  constructor
  · rcases hb with hb | hb
    · refine ⟨(name, d), by simp, d[b], List.getElem_mem hb, ?_⟩
      obtain ⟨z, hz⟩ := hone (name, d) (by simp) d[b] (List.getElem_mem hb)
      rw [groupsOf_append, groupsOf_cons, if_pos (List.getElem_mem hb)] at hz
      have h1 : groupsOf g a d[b] = [] := by
        have := congrArg List.length hz
        simp only [List.length_append, List.length_cons, List.length_nil] at this
        exact List.eq_nil_of_length_eq_zero (by omega)
      rw [groupsOf_append, groupsOf_cons, if_neg, h1]
      · rfl
      · have hn := hnd (name, d) (by simp)
        intro hm
        obtain ⟨j, hj, he⟩ := List.getElem_of_mem hm
        rw [List.getElem_take] at he
        have := (List.Nodup.getElem_inj_iff hn).1 he
        rw [List.length_take] at hj
        omega
    · obtain ⟨e, rest, rfl⟩ := List.exists_cons_of_ne_nil hb
      obtain ⟨k, l, hk⟩ := List.exists_cons_of_ne_nil (hne e (by simp))
      have hke : k ∈ e.2 := by rw [hk]; simp
      refine ⟨e, by simp, k, hke, ?_⟩
      obtain ⟨z, hz⟩ := hone e (by simp) k hke
      rw [groupsOf_append, groupsOf_cons, groupsOf_cons, if_pos hke] at hz
      have hl := congrArg List.length hz
      simp only [List.length_append, List.length_cons, List.length_nil] at hl
      have h1 : groupsOf g a k = [] := List.eq_nil_of_length_eq_zero (by omega)
      have h2 : k ∉ d := by
        intro hd
        rw [if_pos hd] at hl
        simp at hl
        omega
      rw [groupsOf_append, groupsOf_cons, if_neg (fun h => h2 (List.mem_of_mem_take h)), h1]
      rfl
  · rintro k ⟨z, hz⟩
    rw [groupsOf_append, groupsOf_cons] at hz
    have hl := congrArg List.length hz
    simp only [List.length_append, List.length_cons, List.length_nil] at hl
    rw [groupsOf_append, groupsOf_cons]
    have h0 : ∀ n, groupsOf n [] k = [] := fun _ => rfl
    rw [h0]
    by_cases hk : k ∈ d.take b
    · rw [if_pos (List.mem_of_mem_take hk)] at hl
      have h1 : groupsOf g a k = [] := by
        simp only [List.length_cons, List.length_nil] at hl
        exact List.eq_nil_of_length_eq_zero (by omega)
      rw [if_pos hk, h1]
      exact .inr ⟨_, rfl⟩
    · rw [if_neg hk]
      simp only [List.append_nil]
      rcases h1 : groupsOf g a k with _ | ⟨x, _ | ⟨y, l⟩⟩
      · exact .inl rfl
      · exact .inr ⟨x, rfl⟩
      · rw [h1] at hl
        simp only [List.length_cons] at hl
        omega

/-! ### the end of the file -/

/-- The groups of the cells at the end of a file (`FlacState.finish`). -/
def FlacState.groupData (s : FlacState) : Except PyErr (Option (List ℕ)) :=
  if s.fields = [] then .ok none
  else if s.blocks = [] then .error .indexError
  else do
    let data ← s.fill .zone (List.replicate s.count 0)
    let data ← s.fill .face data
    .ok (some data)

theorem finish_group_error {s : FlacState} {e : PyErr} (h : s.groupData = .error e) : s.finish = .error e := by
  have : s.finish = (s.groupData >>= fun group => if !rectangular s.points then .error .valueError
      else do
        let cells ← s.blocks.reverse.mapM fun b => do
          let data ← b.data.mapM (permute (flacOrderBack b.type))
          .ok (⟨b.type, data⟩ : CellBlock)
        .ok ⟨s.points, cells, group, s.fields⟩) := rfl
  rw [this, h]
  rfl

theorem finish_group {xs : List (List Flt)} {zs fs : List (CellType × List ℕ)} (slot : Str)
    {zg fg : List (Str × List ℤ)} (hx : ∀ x ∈ xs, x.length = 3)
    (hz : ∀ e ∈ zs, flacCount .zone e.2.length = .ok e.1 ∧ ∀ v ∈ e.2, v < xs.length)
    (hf : ∀ e ∈ fs, flacCount .face e.2.length = .ok e.1 ∧ ∀ v ∈ e.2, v < xs.length) {g : Option (List ℕ)}
    (h : (stateEnd xs zs fs slot zg fg).groupData = .ok g) :
    ∃ cells, (stateEnd xs zs fs slot zg fg).finish = .ok ⟨xs, cells, g, readFields zg fg⟩ ∧
      typedCells cells = (zs ++ fs).map fun e => (e.1, perm (flacOrderBack e.1) e.2) := by
  obtain ⟨b1, b2, b3⟩ := addAll_spec fs (addAll zs []) (addAll_spec zs [] (by simp) (by simp)).2.1
    (addAll_spec zs [] (by simp) (by simp)).2.2
  rw [(addAll_spec zs [] (by simp) (by simp)).1, show typedCells ([] : List CellBlock).reverse = [] from rfl,
    List.nil_append] at b1
  have hcells := back_blocks b1 fun e he => by
    rcases List.mem_append.1 he with he | he
    · exact flacCount_inv (hz e he).1
    · exact flacCount_inv (hf e he).1
  have hrect : rectangular xs = true := rectangular_of hx
  have hfin : (stateEnd xs zs fs slot zg fg).finish = ((stateEnd xs zs fs slot zg fg).groupData >>= fun group =>
      if !rectangular xs then .error .valueError
      else do
        let cells ← (addAll fs (addAll zs [])).reverse.mapM fun b => do
          let data ← b.data.mapM (permute (flacOrderBack b.type))
          .ok (⟨b.type, data⟩ : CellBlock)
        .ok ⟨xs, cells, group, readFields zg fg⟩) := rfl
  refine ⟨(addAll fs (addAll zs [])).reverse.map backBlock, ?_, by rw [typedCells_back, b1]⟩
  rw [hfin, h, ok_bind, hrect, hcells]
  rfl

theorem fold_fill_error {mp : List (ℤ × List ℕ)} {data : List ℕ}
    (h : ∀ e ∈ mp, (∃ c, e.2 = [c]) ∨ ∃ c g, e.2 = [c, g] ∧ c < data.length) (hx : ∃ e ∈ mp, ∃ c, e.2 = [c]) :
    mp.foldlM (fun data e => match e.2 with
      | [c, g] => if c < data.length then .ok (data.set c g) else .error .indexError
      | _ => .error .valueError) data = (.error .valueError : Except PyErr (List ℕ)) := by
  induction mp generalizing data with
  | nil => simp at hx
  | cons e mp ih =>
    rw [List.foldlM_cons]
    rcases h e (by simp) with ⟨c, hc⟩ | ⟨c, g, hc, hl⟩
    · rw [hc]; rfl
    · rw [hc]
      simp only [if_pos hl, ok_bind]
      apply ih
      · intro e' he'
        rw [List.length_set]
        exact h e' (by simp [he'])
      · obtain ⟨e', he', c', hc'⟩ := hx
        rcases List.mem_cons.1 he' with rfl | he'
        · rw [hc] at hc'; simp at hc'
        · exact ⟨e', he', c', hc'⟩

theorem fill_error (s : FlacState) (flag : FlacFlag) (a n g : ℕ) {gs : List (Str × List ℤ)}
    (hm : s.mapper flag = tagAll g gs (places a n)) (hs : s.slots flag ≠ []) {data : List ℕ} (hl : a + n ≤ data.length)
    (h1 : ∀ i < n, groupsOf g gs (((a + i : ℕ) : ℤ) + 1) = [] ∨ ∃ z, groupsOf g gs (((a + i : ℕ) : ℤ) + 1) = [z])
    (h2 : ∃ i < n, groupsOf g gs (((a + i : ℕ) : ℤ) + 1) = []) : s.fill flag data = .error .valueError := by
  rw [FlacState.fill, if_neg hs, hm]
  apply fold_fill_error
  · intro e he
    simp only [tagAll, places, List.map_map, List.mem_map, List.mem_range, Function.comp_apply] at he
    obtain ⟨i, hi, rfl⟩ := he
    rcases h1 i hi with h | ⟨z, h⟩
    · exact .inl ⟨a + i, by simp only [h]; rfl⟩
    · exact .inr ⟨a + i, z, by simp only [h]; rfl, by omega⟩
  · obtain ⟨i, hi, h⟩ := h2
    refine ⟨((((a + i : ℕ) : ℤ) + 1), [a + i]), ?_, a + i, rfl⟩
    simp only [tagAll, places, List.map_map, List.mem_map, List.mem_range, Function.comp_apply]
    exact ⟨i, hi, by simp only [h, List.append_nil]⟩

theorem addAll_ne {cs : List (CellType × List ℕ)} {acc : List CellBlock} (hne : ∀ b ∈ acc, b.data ≠ [])
    (hch : acc.IsChain fun a b => a.type ≠ b.type) (h : typedCells acc.reverse ++ cs ≠ []) : addAll cs acc ≠ [] := by
  intro h0
  have := (addAll_spec cs acc hne hch).1
  rw [h0] at this
  exact h this.symm

theorem stateEnd_blocks {zs fs : List (CellType × List ℕ)} (h : zs ++ fs ≠ []) : addAll fs (addAll zs []) ≠ [] := by
  refine addAll_ne (addAll_spec zs [] (by simp) (by simp)).2.1 (addAll_spec zs [] (by simp) (by simp)).2.2 ?_
  rw [(addAll_spec zs [] (by simp) (by simp)).1]
  exact h

theorem readFields_ne {zg fg : List (Str × List ℤ)} (h : zg ++ fg ≠ []) : readFields zg fg ≠ [] := by
  intro h0
  apply h
  simpa [readFields] using h0

theorem mapper_zone {nz : ℕ} {zg : List (Str × List ℤ)} {z : ℕ → ℕ}
    (hzz : ∀ i < nz, groupsOf 1 zg ((i : ℤ) + 1) = [z i]) :
    tagAll 1 zg (places 0 nz) = (List.range nz).map fun i : ℕ => (((0 + i : ℕ) : ℤ) + 1, [0 + i, z i]) := by
  simp only [tagAll, places, List.map_map]
  apply List.map_congr_left
  intro i hi
  have := hzz i (List.mem_range.1 hi)
  simp only [Function.comp_apply, Nat.zero_add, this, List.singleton_append]

/-- The groups of zones are complete and those of faces have not begun. -/
theorem groupData_zones (xs : List (List Flt)) (zs fs : List (CellType × List ℕ)) (slot : Str) {zg : List (Str × List ℤ)}
    {z : ℕ → ℕ} (hzz : ∀ i < zs.length, groupsOf 1 zg ((i : ℤ) + 1) = [z i]) (hne : zs ≠ []) (hg : zg ≠ []) :
    (stateEnd xs zs fs slot zg []).groupData = .ok (some ((List.range zs.length).map z ++ List.replicate fs.length 0)) := by
  have f0 : (stateEnd xs zs fs slot zg []).fields ≠ [] := readFields_ne (by simpa using hg)
  have f1 : (stateEnd xs zs fs slot zg []).blocks ≠ [] := stateEnd_blocks (by simp [hne])
  have f2 := fill_places (stateEnd xs zs fs slot zg []) .zone 0 zs.length z (mapper_zone hzz) (by
    intro h
    simp [stateEnd, hg] at h) (List.replicate (zs.length + fs.length) 0) (by simp)
  have f3 : ∀ data, (stateEnd xs zs fs slot zg []).fill .face data = .ok data := by
    intro data
    rw [FlacState.fill, if_pos]
    simp [stateEnd]
  have f4 : (stateEnd xs zs fs slot zg []).count = zs.length + fs.length := rfl
  rw [FlacState.groupData, if_neg f0, if_neg f1, f4, f2, ok_bind, f3, ok_bind]
  simp

/-- Some zone is in no group. -/
theorem groupData_zone_error (xs : List (List Flt)) (zs fs : List (CellType × List ℕ)) (slot : Str)
    {zg fg : List (Str × List ℤ)} (hne : zs ≠ []) (hg : zg ≠ [])
    (h1 : ∀ i < zs.length, groupsOf 1 zg ((i : ℤ) + 1) = [] ∨ ∃ z, groupsOf 1 zg ((i : ℤ) + 1) = [z])
    (h2 : ∃ i < zs.length, groupsOf 1 zg ((i : ℤ) + 1) = []) :
    (stateEnd xs zs fs slot zg fg).groupData = .error .valueError := by
  have f0 : (stateEnd xs zs fs slot zg fg).fields ≠ [] := readFields_ne (by simp [hg])
  have f1 : (stateEnd xs zs fs slot zg fg).blocks ≠ [] := stateEnd_blocks (by simp [hne])
  have f2 := fill_error (stateEnd xs zs fs slot zg fg) .zone 0 zs.length 1 (gs := zg) rfl (by simp [stateEnd, hg])
    (data := List.replicate (zs.length + fs.length) 0) (by simp) (by simpa using h1) (by simpa using h2)
  have f4 : (stateEnd xs zs fs slot zg fg).count = zs.length + fs.length := rfl
  rw [FlacState.groupData, if_neg f0, if_neg f1, f4, f2]
  rfl

/-- Some face is in no group. -/
theorem groupData_face_error (xs : List (List Flt)) (zs fs : List (CellType × List ℕ)) (slot : Str)
    {zg fg : List (Str × List ℤ)} {z : ℕ → ℕ} (hzz : ∀ i < zs.length, groupsOf 1 zg ((i : ℤ) + 1) = [z i])
    (hne : fs ≠ []) (hg : fg ≠ [])
    (h1 : ∀ i < fs.length, groupsOf (zg.length + 1) fg (((zs.length + i : ℕ) : ℤ) + 1) = [] ∨
      ∃ z, groupsOf (zg.length + 1) fg (((zs.length + i : ℕ) : ℤ) + 1) = [z])
    (h2 : ∃ i < fs.length, groupsOf (zg.length + 1) fg (((zs.length + i : ℕ) : ℤ) + 1) = []) :
    (stateEnd xs zs fs slot zg fg).groupData = .error .valueError := by
  have f0 : (stateEnd xs zs fs slot zg fg).fields ≠ [] := readFields_ne (by simp [hg])
  have f1 : (stateEnd xs zs fs slot zg fg).blocks ≠ [] := stateEnd_blocks (by simp [hne])
  have f2 := fill_places (stateEnd xs zs fs slot zg fg) .zone 0 zs.length z (mapper_zone hzz) (by
    intro h
    have h0 : zg = [] := by simpa [stateEnd] using h
    by_contra hn
    have := hzz 0 (by omega)
    rw [h0] at this
    simp [groupsOf] at this) (List.replicate (zs.length + fs.length) 0) (by simp)
  have f3 := fun data (hl : zs.length + fs.length ≤ data.length) => fill_error (stateEnd xs zs fs slot zg fg) .face zs.length
    fs.length (zg.length + 1) (gs := fg) rfl (by simp [stateEnd, hg]) (data := data) hl h1 h2
  have f4 : (stateEnd xs zs fs slot zg fg).count = zs.length + fs.length := rfl
  rw [FlacState.groupData, if_neg f0, if_neg f1, f4, f2, ok_bind, f3 _ (by simp)]
  rfl

/-! ### the lines of groups -/

/-- The lines of a group. -/
def groupRows (flag : FlacFlag) (g : Str × List ℕ) : List Str :=
  (groupWord flag ++ " \"".toList ++ g.1 ++ "\"\n".toList) :: flacTable g.2

/-- The group with integers. -/
def intGroup (g : Str × List ℕ) : Str × List ℤ := (g.1, g.2.map fun v : ℕ => (v : ℤ))

theorem flatten_take {α : Type} (rows : List (List α)) (c : ℕ) :
    (rows.take c).flatten = rows.flatten.take (rows.take c).flatten.length := by
  conv_rhs => rw [← List.take_append_drop c rows, List.flatten_append]
  rw [List.take_append_drop, List.take_left]

theorem consumes_cutGroups (flag : FlacFlag) {gs : List (Str × List ℕ)}
    (h : ∀ g ∈ gs, ∀ c ∈ g.1, isSpace c = false ∧ c ≠ '"') (hf : flag = .zone ∨ gs.length ≤ 1) {j : ℕ} (h0 : 0 < j)
    (hj : j < (gs.flatMap (groupRows flag)).length) :
    ∃ gs', Shortened (gs.map intGroup) gs' ∧
      Consumes Stop ((gs.flatMap (groupRows flag)).take j) (groupRecs flag [] gs') := by
  induction gs generalizing j with
  | nil => simp at hj
  | cons g gs ih =>
    rw [List.flatMap_cons] at hj ⊢
    by_cases hc : j ≤ (groupRows flag g).length
    · rw [List.take_append_of_le_length hc]
      obtain ⟨c, rfl⟩ : ∃ c, j = c + 1 := ⟨j - 1, by omega⟩
      have hlen : (groupRows flag g).length = (tableRows g.2).length + 1 := by
        simp [groupRows, flacTable, tableRows]
      have e : (groupRows flag g).take (c + 1) = (groupWord flag ++ " \"".toList ++ g.1 ++ "\"\n".toList) ::
          ((tableRows g.2).take c).map fun l => ' ' :: spacedLine (l.map natStr) := by
        rw [groupRows, List.take_succ_cons, flacTable, ← List.map_take]
        rfl
      have hflat := flatten_take (tableRows g.2) c
      rw [tableRows_flatten] at hflat
      refine ⟨[(g.1, (g.2.map fun v : ℕ => (v : ℤ)).take ((tableRows g.2).take c).flatten.length)],
        ⟨[], g.1, _, gs.map intGroup, _, rfl, rfl, ?_⟩, ?_⟩
      · by_cases hr : gs = []
        · left
          rw [hr] at hj
          simp only [List.flatMap_nil, List.append_nil, hlen] at hj
          rw [List.length_map]
          have h1 : (tableRows g.2).flatten.length = ((tableRows g.2).take c).flatten.length +
              ((tableRows g.2).drop c).flatten.length := by
            rw [← List.length_append, ← List.flatten_append, List.take_append_drop]
          rw [tableRows_flatten] at h1
          have h2 : 0 < ((tableRows g.2).drop c).flatten.length := by
            rw [List.drop_eq_getElem_cons (by omega : c < (tableRows g.2).length), List.flatten_cons, List.length_append]
            have := List.length_pos_of_ne_nil (tableRows_ne g.2 _ (List.getElem_mem (by omega : c < (tableRows g.2).length)))
            omega
          omega
        · right
          simpa using hr
      · rw [e, ← List.map_take, ← hflat]
        exact consumes_groupRows flag (h g (by simp)) fun l hl => tableRows_ne g.2 l (List.mem_of_mem_take hl)
    · have hz : flag = .zone := by
        rcases hf with hf | hf
        · exact hf
        · exfalso
          have : gs = [] := List.eq_nil_of_length_eq_zero (by simpa using hf)
          rw [this] at hj
          simp only [List.flatMap_nil, List.append_nil] at hj
          omega
      obtain ⟨i, rfl⟩ : ∃ i, j = (groupRows flag g).length + i := ⟨j - (groupRows flag g).length, by omega⟩
      rw [List.length_append] at hj
      obtain ⟨gs', ⟨a, name, d, rest, b, h1, h2, h3⟩, h4⟩ := ih (fun g hg => h g (by simp [hg])) (.inl hz) (j := i) (by omega) (by omega)
      refine ⟨intGroup g :: gs', ⟨intGroup g :: a, name, d, rest, b, by rw [List.map_cons, h1]; rfl, by rw [h2]; rfl, h3⟩, ?_⟩
      rw [List.take_length_add_append]
      refine (consumes_group flag (h g (by simp)) g.2).append h4 fun rest hr => ?_
      cases gs with
      | nil => simp at hj
      | cons g' gs =>
        obtain ⟨i, rfl⟩ : ∃ k, i = k + 1 := ⟨i - 1, by omega⟩
        rw [List.flatMap_cons, groupRows, List.cons_append, List.take_succ_cons]
        rw [hz]
        exact ⟨_, _, words_groupLine .zone fun c hc => (h g' (by simp) c hc).1, .inr rfl⟩

/-! ### files -/

/-- The lines of the groups after their title. -/
theorem groupLines_eq {m : FlacMesh} {mat : List ℤ} (flag : FlacFlag) (hm : materialOfCells m = some mat) :
    flacGroupLines m flag =
      (match flag with | .zone => "* ZONE GROUPS\n".toList | .face => "* FACE GROUPS\n".toList) ::
      ((flacGroups m.cells mat flag).map fun g => (flacLabel m.fieldData flag g.1, g.2)).flatMap (groupRows flag) := by
  unfold flacGroupLines
  rw [flacMaterial_eq, hm, List.flatMap_map]
  cases flag <;> rfl

theorem fileGroups_eq {m : FlacMesh} {mat : List ℤ} (flag : FlacFlag) (hm : materialOfCells m = some mat) :
    fileGroups m flag = ((flacGroups m.cells mat flag).map fun g => (flacLabel m.fieldData flag g.1, g.2)).map intGroup := by
  simp only [fileGroups, hm, readGroups, List.map_map]
  apply List.map_congr_left
  intro g _
  simp [intGroup, flacLabel_eq]

/-- The groups of one kind without the end. -/
theorem consumes_cutLines {m : FlacMesh} {mat : List ℤ} (flag : FlacFlag) (hm : materialOfCells m = some mat)
    (ok : TextGroupsOk m mat) {j : ℕ} (h0 : 2 ≤ j) (hj : j < (flacGroupLines m flag).length) :
    ∃ gs', Shortened (fileGroups m flag) gs' ∧
      Consumes Stop ((flacGroupLines m flag).take j) (groupRecs flag [] gs') := by
  have hp := flacGroups_partition mat flag ok.known
  have hname : ∀ g ∈ (flacGroups m.cells mat flag).map fun g => (flacLabel m.fieldData flag g.1, g.2),
      ∀ c ∈ g.1, isSpace c = false ∧ c ≠ '"' := by
    intro g hg c hc
    obtain ⟨g', hg', rfl⟩ := List.mem_map.1 hg
    refine ok.words (flag.dim, g'.1) (key_of_group hp (List.mem_map.2 ⟨g', hg', rfl⟩)) c ?_
    rw [← flacLabel_eq]
    exact hc
  have hlen : flag = .zone ∨ ((flacGroups m.cells mat flag).map fun g => (flacLabel m.fieldData flag g.1, g.2)).length ≤ 1 := by
    cases flag with
    | zone => exact .inl rfl
    | face =>
      right
      rw [List.length_map]
      have hn := hp.keys
      have hk : ∀ k ∈ (flacGroups m.cells mat .face).map (·.1), ∀ k' ∈ (flacGroups m.cells mat .face).map (·.1), k = k' :=
        fun k hk k' hk' => (Prod.mk.inj (ok.single _ (key_of_group hp hk) _ (key_of_group hp hk') rfl rfl)).2
      rw [← List.length_map (f := fun x : ℤ × List ℕ => x.1)]
      revert hn hk
      generalize (flacGroups m.cells mat .face).map (·.1) = ks
      intro hn hk
      match ks, hn, hk with
      | [], _, _ => simp
      | [_], _, _ => simp
      | a :: b :: _, hn, hk =>
        have := hk a (by simp) b (by simp)
        subst this
        simp at hn
  rw [groupLines_eq flag hm] at hj ⊢
  obtain ⟨i, rfl⟩ : ∃ i, j = i + 1 := ⟨j - 1, by omega⟩
  rw [List.length_cons] at hj
  obtain ⟨gs', h1, h2⟩ := consumes_cutGroups flag hname hlen (j := i) (by omega) (by omega)
  refine ⟨gs', fileGroups_eq flag hm ▸ h1, ?_⟩
  rw [List.take_succ_cons]
  have h3 := fun (l : Str) (ws : List Str) (h : words l = "*".toList :: ws) =>
    (Consumes.comment h).append h2 fun _ _ => trivial
  cases flag with
  | zone => exact h3 _ _ (words_star "ZONE GROUPS".toList)
  | face => exact h3 _ _ (words_star "FACE GROUPS".toList)

/-- All parts of a written file. -/
theorem writeFlac_whole (p : ℕ) (pos : P3 Flt → P3 Flt → P3 Flt → P3 Flt → Bool) (version date : Str) {m : FlacMesh}
    (h : FlacOk m) {ls : List Str} (hw : writeFlac p pos version date m = .ok ls) :
    ∃ (zs fs : List (CellType × List ℕ)) (lz lf : List Str),
      ls = ("* FLAC3D grid produced by toughio v".toList ++ version ++ ['\n']) ::
        ("* ".toList ++ date ++ ['\n']) :: "* GRIDPOINTS\n".toList ::
        (m.points.zipIdx.map (flacPointLine p) ++ ("* ZONES\n".toList :: (lz ++ (flacGroupLines m .zone ++
          ("* FACES\n".toList :: (lf ++ flacGroupLines m .face)))))) ∧
      (∀ e ∈ zs, CellWritten .zone m.points.length e.1 e.2) ∧ (∀ e ∈ fs, CellWritten .face m.points.length e.1 e.2) ∧
      List.Forall₂ (Oriented pos m.points) (cornersOf 3 m.cells) (zs.map fun e => (e.1, perm (flacOrderBack e.1) e.2)) ∧
      (fs.map fun e => (e.1, perm (flacOrderBack e.1) e.2)) = cornersOf 2 m.cells ∧
      lz.length = zs.length ∧ lf.length = fs.length ∧
      Consumes (fun _ => True) lz (cellRecs .zone 0 zs) ∧
      ∀ j, Consumes (fun _ => True) (lf.take j) (cellRecs .face zs.length (fs.take j)) := by
  obtain ⟨zb, hz1, hz2, hz3, hz4⟩ := translate_zones pos h
  obtain ⟨fb, hf1, hf2, hf3⟩ := translate_faces pos h
  have hcount : nCells (flacBlocks .zone m.cells) = (cellList zb).length := by
    rw [← hz4, ← typedCells_length]
    rfl
  obtain ⟨lz, hlz1, hlz2⟩ := consumes_cells .zone hz2 0
  obtain ⟨lf, hlf1, hlf2⟩ := consumes_cells .face hf2 (cellList zb).length
  have hzones : flacCellLines pos m.points m.cells .zone = .ok ("* ZONES\n".toList :: lz) := by
    rw [flacCellLines, hz1, ok_bind]
    simp only
    rw [hlz1]
    rfl
  have hfaces : flacCellLines pos m.points m.cells .face = .ok ("* FACES\n".toList :: lf) := by
    rw [flacCellLines, hf1, ok_bind]
    simp only [hcount]
    rw [hlf1]
    rfl
  rw [writeFlac, flacCheck_ok h, ok_bind, hzones, ok_bind, hfaces, ok_bind] at hw
  cases hw
  refine ⟨cellList zb, cellList fb, lz, lf, rfl, hz2, hf2, hz3, hf3, ?_, ?_, hlz2,
    consumes_firstCells .face hf2 _ hlf1⟩
  · simpa using (mapM_eq_ok hlz1).length_eq.symm
  · simpa using (mapM_eq_ok hlf1).length_eq.symm

theorem readPoint_length {p : ℕ} {points : List (P3 Flt)} : ∀ x ∈ points.map (readPoint p), x.length = 3 := by
  intro x hx
  obtain ⟨q, _, rfl⟩ := List.mem_map.1 hx
  rfl

/-- The lines before the groups of zones. -/
theorem consumes_zones {p : ℕ} {points : List (P3 Flt)} {version date : Str} {lz t : List Str}
    {zs : List (CellType × List ℕ)} {recs : List FRec} (hz : Consumes (fun _ => True) lz (cellRecs .zone 0 zs))
    (ht : Consumes Stop t recs) :
    Consumes Stop (("* FLAC3D grid produced by toughio v".toList ++ version ++ ['\n']) ::
        ("* ".toList ++ date ++ ['\n']) :: "* GRIDPOINTS\n".toList ::
        (points.zipIdx.map (flacPointLine p) ++ ("* ZONES\n".toList :: (lz ++ t))))
      (pointRecs (points.map (readPoint p)) ++ (cellRecs .zone 0 zs ++ recs)) := by
  have t' : ∀ rest : List Str, Stop rest → True := fun _ _ => trivial
  exact consumes_head version date ((consumes_points p points).append
    ((Consumes.comment (l := "* ZONES\n".toList) (words_star "ZONES".toList)).append (hz.append ht t') t') t')

/-- The file ends between its groups of zones. -/
theorem writeFlac_cut_zoneGroups (p : ℕ) (pos : P3 Flt → P3 Flt → P3 Flt → P3 Flt → Bool) (version date : Str)
    {m : FlacMesh} (h : FlacOk m) {mat : List ℤ} (hm : materialOfCells m = some mat) (ok : TextGroupsOk m mat)
    {ls : List Str} (hw : writeFlac p pos version date m = .ok ls) {j : ℕ} (h0 : 2 ≤ j)
    (hj : j < (flacGroupLines m .zone).length) :
    readFlac (ls.take (4 + m.points.length + (cornersOf 3 m.cells).length + j)) = .error .valueError := by
  obtain ⟨zs, fs, lz, lf, rfl, hz, hf, hzo, hfo, hlz, hlf, hcz, -⟩ := writeFlac_whole p pos version date h hw
  have hzl : zs.length = (cornersOf 3 m.cells).length := by
    have := hzo.length_eq
    rw [List.length_map] at this
    exact this.symm
  have hlen : (m.points.zipIdx.map (flacPointLine p)).length = m.points.length := by simp
  rw [show 4 + m.points.length + (cornersOf 3 m.cells).length + j =
      (m.points.length + ((lz.length + j) + 1)) + 1 + 1 + 1 by omega, List.take_succ_cons, List.take_succ_cons,
    List.take_succ_cons, ← hlen, List.take_length_add_append, List.take_succ_cons, List.take_length_add_append,
    List.take_append_of_le_length (by omega)]
  obtain ⟨gs', hs, hc⟩ := consumes_cutLines .zone hm ok h0 hj
  have hread := read_consumed (consumes_zones (p := p) (points := m.points) (version := version) (date := date) hcz hc)
  have hl := materialOfCells_length h hm
  obtain ⟨z, hr, -, -⟩ := groups_ready hl ok.toGroupsOk
  have e1 : fileGroups m .zone = flacZoneGroups m mat := by simp only [fileGroups, hm]; rfl
  rw [e1] at hs
  rw [← hzl] at hr
  have hfull : ∀ e ∈ flacZoneGroups m mat, e.2 ≠ [] := by
    intro e he
    obtain ⟨g, hg, rfl⟩ := List.mem_map.1 he
    simpa using (flacGroups_partition mat .zone ok.known).full g hg
  obtain ⟨⟨e, he, k, hk, hmiss⟩, hat⟩ := hs.missing 1 hfull hr.zd (by
    intro e he k hk
    obtain ⟨i, hi, rfl⟩ := hr.zk e he k hk
    exact ⟨_, hr.zz i hi⟩)
  obtain ⟨i, hi, rfl⟩ := hr.zk e he k hk
  have hfold := fold_allRecs (xs := m.points.map (readPoint p)) (zs := zs) (fs := []) [] (zg := gs') (fg := [])
    (fun e he => by
      rw [List.length_map]
      exact ⟨(hz e he).count, (hz e he).vertices⟩) (by simp)
    (by
      intro e he
      obtain ⟨e', he', hsub⟩ := hs.mem he
      exact hsub.nodup (hr.zd e' he')) (by simp)
    (by
      intro e he k hk
      obtain ⟨e', he', hsub⟩ := hs.mem he
      exact hr.zk e' he' k (hsub.subset hk)) (by simp)
    (by
      rw [List.map_nil, List.append_nil]
      exact hs.names.nodup (List.nodup_append.1 hr.names).1)
  have hrecs : allRecs (m.points.map (readPoint p)) zs [] [] gs' [] =
      pointRecs (m.points.map (readPoint p)) ++ (cellRecs .zone 0 zs ++ groupRecs .zone [] gs') := by
    simp [allRecs, groupRecs, cellRecs]
  rw [hrecs] at hfold
  rw [hread, hfold, ok_bind]
  exact finish_group_error (groupData_zone_error _ zs [] [] (by rintro rfl; simp at hi) hs.ne
    (fun i hi => hat _ ⟨_, hr.zz i hi⟩) ⟨i, hi, hmiss⟩)

/-- The file ends between its faces: the zones have their groups. -/
theorem writeFlac_cut_faces (p : ℕ) (pos : P3 Flt → P3 Flt → P3 Flt → P3 Flt → Bool) (version date : Str)
    {m : FlacMesh} (h : FlacOk m) (hg : ∀ mat, materialOfCells m = some mat → TextGroupsOk m mat)
    {ls : List Str} (hw : writeFlac p pos version date m = .ok ls) {k : ℕ} (hk : k ≤ (cornersOf 2 m.cells).length + 2) :
    ∃ r zones, readFlac (ls.take (4 + m.points.length + (cornersOf 3 m.cells).length +
        (flacGroupLines m .zone).length + k)) = .ok r ∧
      r.points = m.points.map (readPoint p) ∧
      typedCells r.cells = zones ++ (cornersOf 2 m.cells).take (k - 1) ∧
      List.Forall₂ (Oriented pos m.points) (cornersOf 3 m.cells) zones ∧
      match materialOfCells m with
      | none => r.group = none ∧ r.fieldData = []
      | some mat => if cornersOf 3 m.cells = [] then r.group = none ∧ r.fieldData = []
        else ∃ gs, r.group = some (gs ++ List.replicate ((cornersOf 2 m.cells).take (k - 1)).length 0) ∧
          List.Forall₂ (fun e g => (groupName m.fieldData 3 e.2, g, 3) ∈ r.fieldData)
            ((groupKeys m.cells mat).take (cornersOf 3 m.cells).length) gs ∧
          ∀ e ∈ r.fieldData, e.2.1 ≠ 0 := by
  obtain ⟨zs, fs, lz, lf, rfl, hz, hf, hzo, hfo, hlz, hlf, hcz, hcf⟩ := writeFlac_whole p pos version date h hw
  have hzl : zs.length = (cornersOf 3 m.cells).length := by
    have := hzo.length_eq
    rw [List.length_map] at this
    exact this.symm
  have hfl : fs.length = (cornersOf 2 m.cells).length := by rw [← hfo, List.length_map]
  have hlen : (m.points.zipIdx.map (flacPointLine p)).length = m.points.length := by simp
  rw [show 4 + m.points.length + (cornersOf 3 m.cells).length + (flacGroupLines m .zone).length + k =
      (m.points.length + ((lz.length + ((flacGroupLines m .zone).length + k)) + 1)) + 1 + 1 + 1 by omega, List.take_succ_cons,
    List.take_succ_cons, List.take_succ_cons, ← hlen, List.take_length_add_append, List.take_succ_cons,
    List.take_length_add_append, List.take_length_add_append]
  obtain ⟨hgz, -⟩ := consumes_groupLines .zone hg
  have t' : ∀ rest : List Str, Stop rest → True := fun _ _ => trivial
  have hrest : ∃ t, ("* FACES\n".toList :: (lf ++ flacGroupLines m .face)).take k = t ∧
      Consumes Stop t (cellRecs .face zs.length (fs.take (k - 1))) ∧ ∀ rest, Stop rest → Stop (t ++ rest) := by
    refine ⟨_, rfl, ?_⟩
    rcases k with _ | k
    · simp only [List.take_zero]
      exact ⟨Consumes.nil _, fun _ h => h⟩
    · rw [List.take_succ_cons, Nat.add_sub_cancel]
      refine ⟨?_, fun rest _ => ⟨_, _, words_star "FACES".toList, .inl rfl⟩⟩
      have h0 := Consumes.comment (l := "* FACES\n".toList) (words_star "FACES".toList)
      refine h0.append (Q := Stop) (t₂ := (lf ++ flacGroupLines m .face).take k) ?_ t'
      by_cases hk' : k ≤ lf.length
      · rw [List.take_append_of_le_length hk']
        exact (hcf k).weaken t'
      · have e : k = lf.length + 1 := by omega
        rw [e, List.take_length_add_append]
        have e2 : fs.take (lf.length + 1) = fs.take lf.length := by
          rw [List.take_of_length_le (by omega), List.take_of_length_le (by omega)]
        have hfull := hcf lf.length
        rw [List.take_length] at hfull
        rw [e2]
        cases hm : materialOfCells m with
        | none =>
          have : flacGroupLines m .face = [] := by
            unfold flacGroupLines
            rw [flacMaterial_eq, hm]
          rw [this, List.take_nil, List.append_nil]
          exact hfull.weaken t'
        | some mat =>
          rw [groupLines_eq .face hm, List.take_succ_cons, List.take_zero]
          have hcom := Consumes.comment (l := "* FACE GROUPS\n".toList) (words_star "FACE GROUPS".toList)
          have := hfull.append (hcom.weaken t') t'
          rwa [List.append_nil] at this
  obtain ⟨t, ht, hct, hst⟩ := hrest
  rw [ht]
  have hread := read_consumed (consumes_zones (p := p) (points := m.points) (version := version) (date := date) hcz
    (hgz.append hct hst))
  have hrecs : allRecs (m.points.map (readPoint p)) zs (fs.take (k - 1)) [] (fileGroups m .zone) [] =
      pointRecs (m.points.map (readPoint p)) ++ (cellRecs .zone 0 zs ++ (groupRecs .zone [] (fileGroups m .zone) ++
        cellRecs .face zs.length (fs.take (k - 1)))) := by
    simp [allRecs, groupRecs]
  rw [← hrecs] at hread
  have hz' : ∀ e ∈ zs, flacCount .zone e.2.length = .ok e.1 ∧ ∀ v ∈ e.2, v < (m.points.map (readPoint p)).length :=
    fun e he => by
      rw [List.length_map]
      exact ⟨(hz e he).count, (hz e he).vertices⟩
  have hf' : ∀ e ∈ fs.take (k - 1), flacCount .face e.2.length = .ok e.1 ∧
      ∀ v ∈ e.2, v < (m.points.map (readPoint p)).length :=
    fun e he => by
      rw [List.length_map]
      exact ⟨(hf e (List.mem_of_mem_take he)).count, (hf e (List.mem_of_mem_take he)).vertices⟩
  have hcells : (zs ++ fs.take (k - 1)).map (fun e => (e.1, perm (flacOrderBack e.1) e.2)) =
      zs.map (fun e => (e.1, perm (flacOrderBack e.1) e.2)) ++ (cornersOf 2 m.cells).take (k - 1) := by
    rw [List.map_append, List.map_take, hfo]
  cases hm : materialOfCells m with
  | none =>
    have e1 : fileGroups m .zone = [] := by simp only [fileGroups, hm]
    rw [e1] at hread
    have hfold := fold_allRecs [] (zg := []) (fg := []) hz' hf' (by simp) (by simp) (by simp) (by simp) (by simp)
    rw [hfold, ok_bind] at hread
    obtain ⟨cells, h1, h2⟩ := finish_group [] readPoint_length hz' hf' (zg := []) (fg := []) (g := none) rfl
    exact ⟨_, _, by rw [hread, h1], rfl, by rw [h2, hcells], hzo, rfl, rfl⟩
  | some mat =>
    have hl := materialOfCells_length h hm
    obtain ⟨z, hr, hd, -⟩ := groups_ready hl (hg mat hm).toGroupsOk
    have e1 : fileGroups m .zone = flacZoneGroups m mat := by simp only [fileGroups, hm]; rfl
    rw [e1] at hread
    rw [← hzl, ← hfl] at hr hd
    have hfold := fold_allRecs [] (zg := flacZoneGroups m mat) (fg := []) hz' hf' hr.zd (by simp) hr.zk (by simp)
      (by simpa using (List.nodup_append.1 hr.names).1)
    rw [hfold, ok_bind] at hread
    by_cases hnil : cornersOf 3 m.cells = []
    · have hz0 : zs = [] := by
        rw [hnil] at hzl
        exact List.eq_nil_of_length_eq_zero hzl
      have hg0 : flacZoneGroups m mat = [] := by
        rcases hzg : flacZoneGroups m mat with _ | ⟨e, l⟩
        · rfl
        · exfalso
          have he : e ∈ flacZoneGroups m mat := by rw [hzg]; simp
          have hne : e.2 ≠ [] := by
            obtain ⟨g, hgm, rfl⟩ := List.mem_map.1 he
            simpa using (flacGroups_partition mat .zone (hg mat hm).known).full g hgm
          obtain ⟨k, l', hk⟩ := List.exists_cons_of_ne_nil hne
          obtain ⟨i, hi, -⟩ := hr.zk e he k (by rw [hk]; simp)
          rw [hz0] at hi
          simp at hi
      rw [hg0] at hread
      obtain ⟨cells, h1, h2⟩ := finish_group [] readPoint_length hz' hf' (zg := []) (fg := []) (g := none) rfl
      refine ⟨_, _, by rw [hread, h1], rfl, by rw [h2, hcells], hzo, ?_⟩
      simp only [hnil, if_true]
      exact ⟨trivial, rfl⟩
    · have hzne : zs ≠ [] := by
        rintro rfl
        exact hnil (List.eq_nil_of_length_eq_zero hzl.symm)
      have hgne : flacZoneGroups m mat ≠ [] := by
        intro h0
        have := hr.zz 0 (List.length_pos_of_ne_nil hzne)
        rw [h0] at this
        simp [groupsOf] at this
      obtain ⟨cells, h1, h2⟩ := finish_group [] readPoint_length hz' hf'
        (groupData_zones _ zs (fs.take (k - 1)) [] hr.zz hzne hgne)
      refine ⟨_, _, by rw [hread, h1], rfl, by rw [h2, hcells], hzo, ?_⟩
      simp only [if_neg hnil]
      refine ⟨(List.range zs.length).map z, ?_, ?_, ?_⟩
      · have : (fs.take (k - 1)).length = ((cornersOf 2 m.cells).take (k - 1)).length := by
          rw [← hfo, ← List.map_take, List.length_map]
        rw [this]
      · have hD := dims_sorted (hg mat hm).toGroupsOk
        have hall := hd.cells
        have hkl : (groupKeys m.cells mat).length = zs.length + fs.length := by
          have := hall.length_eq
          simpa using this
        have htake := List.forall₂_take (cornersOf 3 m.cells).length hall
        rw [← hzl] at htake ⊢
        rw [← List.map_take, List.take_range, Nat.min_eq_left (by omega)] at htake
        have h3 : ∀ e ∈ (groupKeys m.cells mat).take zs.length, e.1 = 3 := by
          intro e he
          obtain ⟨i, hi, rfl⟩ := List.getElem_of_mem he
          rw [List.getElem_take]
          rw [List.length_take] at hi
          have hdi : (dimsOf m.cells)[i]? = some 3 := by
            rw [hD, List.getElem?_append_left (by rw [List.length_replicate]; omega), List.getElem?_replicate_of_lt (by omega)]
          simp only [groupKeys, List.getElem_zip]
          have := List.getElem?_eq_some_iff.1 hdi
          exact this.2
        rw [List.forall₂_iff_get] at htake ⊢
        refine ⟨htake.1, fun i h1 h2 => ?_⟩
        have hx := htake.2 i h1 h2
        rw [h3 _ (List.get_mem _ _)] at hx
        have hmem : ∀ e ∈ readFields (flacZoneGroups m mat) (flacFaceGroups m mat), e.2.2 = 3 →
            e ∈ readFields (flacZoneGroups m mat) [] := by
          intro e he he3
          rw [readFields, List.mem_append] at he ⊢
          rcases he with he | he
          · exact .inl he
          · exfalso
            obtain ⟨x, _, rfl⟩ := List.mem_map.1 he
            simp at he3
        exact hmem _ hx rfl
      · intro e he
        rw [readFields, List.zipIdx_nil, List.map_nil, List.append_nil] at he
        obtain ⟨x, hx, rfl⟩ := List.mem_map.1 he
        have := List.le_snd_of_mem_zipIdx hx
        simp only
        omega

/-- The file ends inside its group of faces. -/
theorem writeFlac_cut_faceGroups (p : ℕ) (pos : P3 Flt → P3 Flt → P3 Flt → P3 Flt → Bool) (version date : Str)
    {m : FlacMesh} (h : FlacOk m) {mat : List ℤ} (hm : materialOfCells m = some mat) (ok : TextGroupsOk m mat)
    {ls : List Str} (hw : writeFlac p pos version date m = .ok ls) {j : ℕ} (h0 : 2 ≤ j)
    (hj : j < (flacGroupLines m .face).length) :
    readFlac (ls.take (5 + m.points.length + (cornersOf 3 m.cells).length + (flacGroupLines m .zone).length +
      (cornersOf 2 m.cells).length + j)) = .error .valueError := by
  have hg : ∀ mat, materialOfCells m = some mat → TextGroupsOk m mat := by
    intro mat' hm'
    rw [hm] at hm'
    cases hm'
    exact ok
  obtain ⟨zs, fs, lz, lf, rfl, hz, hf, hzo, hfo, hlz, hlf, hcz, hcf⟩ := writeFlac_whole p pos version date h hw
  have hzl : zs.length = (cornersOf 3 m.cells).length := by
    have := hzo.length_eq
    rw [List.length_map] at this
    exact this.symm
  have hfl : fs.length = (cornersOf 2 m.cells).length := by rw [← hfo, List.length_map]
  have hlen : (m.points.zipIdx.map (flacPointLine p)).length = m.points.length := by simp
  rw [show 5 + m.points.length + (cornersOf 3 m.cells).length + (flacGroupLines m .zone).length +
      (cornersOf 2 m.cells).length + j =
      (m.points.length + ((lz.length + ((flacGroupLines m .zone).length + ((lf.length + j) + 1))) + 1)) + 1 + 1 + 1 by omega,
    List.take_succ_cons, List.take_succ_cons, List.take_succ_cons, ← hlen, List.take_length_add_append,
    List.take_succ_cons, List.take_length_add_append, List.take_length_add_append, List.take_succ_cons,
    List.take_length_add_append]
  obtain ⟨gs', hs, hc⟩ := consumes_cutLines .face hm ok h0 hj
  obtain ⟨hgz, -⟩ := consumes_groupLines .zone hg
  have t' : ∀ rest : List Str, Stop rest → True := fun _ _ => trivial
  have hfull := hcf lf.length
  rw [List.take_length, List.take_of_length_le (by omega)] at hfull
  have hct := (Consumes.comment (l := "* FACES\n".toList) (words_star "FACES".toList)).append (hfull.append hc t') t'
  have hread := read_consumed (consumes_zones (p := p) (points := m.points) (version := version) (date := date) hcz
    (hgz.append hct fun rest _ => ⟨_, _, words_star "FACES".toList, .inl rfl⟩))
  have hl := materialOfCells_length h hm
  obtain ⟨z, hr, -, -⟩ := groups_ready hl ok.toGroupsOk
  have e1 : fileGroups m .zone = flacZoneGroups m mat := by simp only [fileGroups, hm]; rfl
  have e2 : fileGroups m .face = flacFaceGroups m mat := by simp only [fileGroups, hm]; rfl
  rw [e2] at hs
  rw [e1] at hread
  rw [← hzl, ← hfl] at hr
  have hne : ∀ e ∈ flacFaceGroups m mat, e.2 ≠ [] := by
    intro e he
    obtain ⟨g, hg, rfl⟩ := List.mem_map.1 he
    simpa using (flacGroups_partition mat .face ok.known).full g hg
  obtain ⟨⟨e, he, k, hk, hmiss⟩, hat⟩ := hs.missing ((flacZoneGroups m mat).length + 1) hne hr.fd (by
    intro e he k hk
    obtain ⟨i, hi, rfl⟩ := hr.fk e he k hk
    exact ⟨_, hr.ff i hi⟩)
  obtain ⟨i, hi, rfl⟩ := hr.fk e he k hk
  have hfold := fold_allRecs (xs := m.points.map (readPoint p)) (zs := zs) (fs := fs) [] (zg := flacZoneGroups m mat)
    (fg := gs')
    (fun e he => by
      rw [List.length_map]
      exact ⟨(hz e he).count, (hz e he).vertices⟩)
    (fun e he => by
      rw [List.length_map]
      exact ⟨(hf e he).count, (hf e he).vertices⟩) hr.zd
    (by
      intro e he
      obtain ⟨e', he', hsub⟩ := hs.mem he
      exact hsub.nodup (hr.fd e' he')) hr.zk
    (by
      intro e he k hk
      obtain ⟨e', he', hsub⟩ := hs.mem he
      exact hr.fk e' he' k (hsub.subset hk))
    (((List.Sublist.refl _).append hs.names).nodup hr.names)
  have hrecs : allRecs (m.points.map (readPoint p)) zs fs [] (flacZoneGroups m mat) gs' =
      pointRecs (m.points.map (readPoint p)) ++ (cellRecs .zone 0 zs ++ (groupRecs .zone [] (flacZoneGroups m mat) ++
        ([] ++ (cellRecs .face zs.length fs ++ groupRecs .face [] gs')))) := rfl
  rw [← hrecs, hfold, ok_bind] at hread
  have hshow := finish_group_error (groupData_face_error (m.points.map (readPoint p)) zs fs [] hr.zz
    (by rintro rfl; simp at hi) hs.ne (fun i hi => hat _ ⟨_, hr.ff i hi⟩) ⟨i, hi, hmiss⟩)
  rw [← hshow, ← hread]
  rfl

/-- The title after the zones says nothing. -/
theorem writeFlac_cut_title (p : ℕ) (pos : P3 Flt → P3 Flt → P3 Flt → P3 Flt → Bool) (version date : Str)
    {m : FlacMesh} (h : FlacOk m) {ls : List Str} (hw : writeFlac p pos version date m = .ok ls) :
    readFlac (ls.take (4 + m.points.length + (cornersOf 3 m.cells).length + 1)) =
      readFlac (ls.take (4 + m.points.length + (cornersOf 3 m.cells).length)) := by
  obtain ⟨zs, fs, lz, lf, rfl, hz, hf, hzo, hfo, hlz, hlf, hcz, hcf⟩ := writeFlac_whole p pos version date h hw
  have hzl : zs.length = (cornersOf 3 m.cells).length := by
    have := hzo.length_eq
    rw [List.length_map] at this
    exact this.symm
  have hlen : (m.points.zipIdx.map (flacPointLine p)).length = m.points.length := by simp
  have key : ∀ j, 4 + m.points.length + (cornersOf 3 m.cells).length + j =
      (m.points.length + ((lz.length + j) + 1)) + 1 + 1 + 1 := by omega
  have key0 := key 0
  rw [Nat.add_zero, Nat.add_zero] at key0
  rw [key, key0, List.take_succ_cons, List.take_succ_cons, List.take_succ_cons, ← hlen, List.take_length_add_append,
    List.take_succ_cons, List.take_length_add_append, List.take_succ_cons, List.take_succ_cons, List.take_succ_cons,
    List.take_length_add_append, List.take_succ_cons, List.take_left]
  have h1 := read_consumed (consumes_zones (p := p) (points := m.points) (version := version) (date := date) hcz
    (Consumes.nil Stop))
  rw [List.append_nil] at h1
  rw [h1]
  have t' : ∀ rest : List Str, Stop rest → True := fun _ _ => trivial
  have hcom : Consumes Stop ((flacGroupLines m .zone ++ ("* FACES\n".toList :: (lf ++ flacGroupLines m .face))).take 1) [] := by
    cases hm : materialOfCells m with
    | none =>
      have : flacGroupLines m .zone = [] := by
        unfold flacGroupLines
        rw [flacMaterial_eq, hm]
      rw [this, List.nil_append, List.take_succ_cons, List.take_zero]
      exact (Consumes.comment (words_star "FACES".toList)).weaken t'
    | some mat =>
      rw [groupLines_eq .zone hm, List.cons_append, List.take_succ_cons, List.take_zero]
      exact (Consumes.comment (words_star "ZONE GROUPS".toList)).weaken t'
  exact read_consumed (consumes_zones (p := p) (points := m.points) (version := version) (date := date) hcz hcom)

end Verif.Mesh
