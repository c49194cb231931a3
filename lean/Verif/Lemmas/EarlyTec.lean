import Verif.Lemmas.TecplotTrip

/-!
# Tecplot mesh files that end early
-/

namespace Verif.Mesh
open Verif.Py Verif.Model Verif.Spec

/-- Numbers that are missing at the end of the file. -/
theorem blockNumbers_short {ls : List (List Flt)} (h : ∀ l ∈ ls, ∀ x ∈ l, IsDouble x) {n : ℕ}
    (hn : ls.flatten.length < n) :
    blockNumbers n (ls.map fun l => spacedLine (l.map fltStr)) = .error .diverges := by
  induction ls generalizing n with
  | nil =>
    obtain ⟨k, rfl⟩ : ∃ k, n = k + 1 := ⟨n - 1, by simp at hn; omega⟩
    rfl
  | cons l ls ih =>
    obtain ⟨k, rfl⟩ : ∃ k, n = k + 1 := ⟨n - 1, by omega⟩
    have hl : l.length + ls.flatten.length < k + 1 := by simpa using hn
    rw [List.map_cons, blockNumbers, words_numbers (h l (by simp)), ok_bind,
      ih (fun l hl => h l (by simp [hl])) (by omega)]
    rfl

theorem flatten_take_lt {α : Type} {ls : List (List α)} (h : ∀ l ∈ ls, l ≠ []) {j : ℕ} (hj : j < ls.length) :
    (ls.take j).flatten.length < ls.flatten.length := by
  have e : ls.flatten.length = (ls.take j).flatten.length + (ls.drop j).flatten.length := by
    rw [← List.length_append, ← List.flatten_append, List.take_append_drop]
  rw [e, List.drop_eq_getElem_cons hj, List.flatten_cons, List.length_append]
  have := List.length_pos_iff.2 (h ls[j] (List.getElem_mem hj))
  omega

/-- With some numbers missing the loop does not end. -/
theorem zoneRead_cut {np nc : ℕ} {P C : List (Str × List Flt)}
    (hPl : ∀ e ∈ P, e.2.length = np ∧ ∀ x ∈ e.2, IsDouble x) (hCl : ∀ e ∈ C, e.2.length = nc ∧ ∀ x ∈ e.2, IsDouble x)
    {ty : Str} {z : Zone}
    (z1 : fezoneFormat z = .ok ("FEBLOCK".toList, ty)) (z2 : fezoneCount z "N".toList "NODES".toList = .ok np)
    (z3 : fezoneCount z "E".toList "ELEMENTS".toList = .ok nc)
    (z4 : fezoneCentered z "FEBLOCK".toList (P.length + C.length) =
      .ok (List.replicate P.length false ++ List.replicate C.length true))
    {j : ℕ} (hj : j < ((P ++ C).flatMap fun e => tecTable e.2).length) :
    tecZoneRead ((P ++ C).map fun e => wordsJoined e.1) z (((P ++ C).flatMap fun e => tecTable e.2).take j) =
      .error .diverges := by
  have hlen : ((P ++ C).map fun e => wordsJoined e.1).length = P.length + C.length := by simp
  have hsum : ((List.replicate P.length false ++ List.replicate C.length true).map fun i => if i then nc else np).sum =
      ((P ++ C).flatMap fun e => chunks 20 e.2).flatten.length := by
    have hf : ∀ vs : List (Str × List Flt), (vs.flatMap fun e => chunks 20 e.2).flatten = (vs.map (·.2)).flatten := by
      intro vs
      induction vs with
      | nil => rfl
      | cons e vs ih =>
        rw [List.flatMap_cons, List.flatten_append, chunks_flatten 20 (by decide), ih]
        simp
    have hs : ∀ (vs : List (Str × List Flt)) (n : ℕ), (∀ e ∈ vs, e.2.length = n) →
        ((vs.map (·.2)).flatten).length = vs.length * n := by
      intro vs n hv
      induction vs with
      | nil => simp
      | cons e vs ih =>
        rw [List.map_cons, List.flatten_cons, List.length_append, hv e (by simp), ih fun e he => hv e (by simp [he]),
          List.length_cons, Nat.add_mul]
        omega
    rw [hf, List.map_append, List.map_append, List.flatten_append, List.length_append, hs P np fun e he => (hPl e he).1,
      hs C nc fun e he => (hCl e he).1]
    simp
  have hd : ∀ l ∈ (P ++ C).flatMap (fun e => chunks 20 e.2), l ≠ [] ∧ ∀ x ∈ l, IsDouble x := by
    intro l hl
    obtain ⟨e, he, hl⟩ := List.mem_flatMap.1 hl
    obtain ⟨h1, -, h3⟩ := mem_chunks 20 (by decide) e.2 l hl
    refine ⟨h1, fun x hx => ?_⟩
    rcases List.mem_append.1 he with he | he
    · exact (hPl e he).2 x (h3 x hx)
    · exact (hCl e he).2 x (h3 x hx)
  rw [tecZoneRead, z1, ok_bind]
  simp only
  rw [z2, ok_bind, z3, ok_bind, hlen, z4, ok_bind, tecValues, if_pos rfl, hsum, tables_eq, ← List.map_take,
    blockNumbers_short (fun l hl => (hd l (List.mem_of_mem_take hl)).2)
      (flatten_take_lt (fun l hl => (hd l hl).1) (by rw [tables_eq, List.length_map] at hj; exact hj))]
  rfl

/-- The lines of a file before its numbers. -/
def tecHead (m : AvsMesh) : ℕ := if cellVariables m = [] then 4 else 5

theorem zoneLines_length (np nc pv cv : ℕ) (ty : Str) :
    (tecZoneLines np nc pv cv ty).length = if cv = 0 then 2 else 3 := by
  unfold tecZoneLines
  split <;> rfl

/-- A file that ends after its head. -/
theorem tecRead_cut (flat : Bool) (version : Str) {m : AvsMesh} (h : TecMeshOk m) {ls : List Str}
    (hw : writeTecMesh flat version m = .ok ls) {k : ℕ} (hk : k < ls.length) (h0 : tecHead m ≤ k) :
    readTecMesh (ls.take k) = .error .diverges := by
  obtain ⟨ty, shape, h1, h2, h3, h4⟩ := write_eq flat version h
  rw [h4] at hw
  cases hw
  have hh : 2 + (tecZoneLines m.points.length (tecCells m.cells).length (allPoint flat m).length
      (cellVariables m).length ty).length = tecHead m := by
    rw [zoneLines_length, tecHead]
    by_cases hc : cellVariables m = []
    · simp [hc]
    · simp [hc]
  obtain ⟨j, rfl⟩ : ∃ j, k = tecHead m + j := ⟨k - tecHead m, by omega⟩
  rw [← hh, show ∀ a : ℕ, 2 + a + j = (a + j) + 1 + 1 from fun a => by omega] at *
  rw [List.take_succ_cons, List.take_succ_cons, List.append_assoc (tecZoneLines _ _ _ _ _), List.take_length_add_append]
  have hnp : m.points.length ≠ 0 := by
    obtain ⟨mag, y, zc, ps, hp⟩ := h.first
    rw [hp]
    simp
  rcases Nat.lt_or_ge j ((allPoint flat m ++ cellVariables m).flatMap (fun e => tecTable e.2)).length with hj | hj
  · rw [List.take_append_of_le_length (by omega)]
    have hfirst : zoneMore (((allPoint flat m ++ cellVariables m).flatMap fun e => tecTable e.2).take j) =
        ([], ((allPoint flat m ++ cellVariables m).flatMap fun e => tecTable e.2).take j) := by
      have := data_first flat h []
      rw [List.append_nil] at this
      generalize (allPoint flat m ++ cellVariables m).flatMap (fun e => tecTable e.2) = D at this
      cases D with
      | nil => rw [List.take_nil]; rfl
      | cons l D =>
        cases j with
        | zero => rfl
        | succ j =>
          rw [List.take_succ_cons]
          rw [zoneMore] at this ⊢
          cases hu : upper (strip l) with
          | nil => rfl
          | cons c r =>
            rw [hu] at this
            simp only at this ⊢
            by_cases hc : isDigit c = true
            · rw [if_pos hc]
            · rw [if_neg hc] at this
              cases this
    obtain ⟨z, z1, z2, z3, z4, hr⟩ := read_to_data flat version h h1 hfirst
    rw [hr]
    exact zoneRead_cut (allPoint_facts flat h) (cellVariables_facts h) z1 z2 z3 z4 hj
  · obtain ⟨i, rfl⟩ := Nat.exists_eq_add_of_le hj
    rw [List.take_length_add_append, ← List.map_take, ← List.append_assoc (tecZoneLines _ _ _ _ _)]
    obtain ⟨z, z1, z2, z3, z4, hr⟩ := read_to_zone flat version h h1
      ((((tecCells m.cells).map fun e => tecVertices shape e.1 e.2).take i).map fun c =>
        spacedLine (c.map fun v => natStr (v + 1)))
    rw [hr]
    refine zoneRead_short (by simp [allPoint, tecCoords]) hnp (allPoint_facts flat h) (cellVariables_facts h) z1 z2 z3 z4 ?_ ?_
    · have hk' := hk
      simp only [List.length_cons, List.length_append, List.length_map] at hk'
      rw [List.length_take, List.length_map]
      omega
    · intro d hd
      obtain ⟨e, he, rfl⟩ := List.mem_map.1 (List.mem_of_mem_take hd)
      have hsup : TecSupported e.1 := by
        have he' := he
        rw [tecCells, List.mem_filter] at he'
        exact (of_decide_eq_true he'.2).1
      have := (tecVertices_length (u := decide (TecUniform m.cells)) hsup (h.vertices e he)).2
      rwa [h3 e he] at this

end Verif.Mesh
