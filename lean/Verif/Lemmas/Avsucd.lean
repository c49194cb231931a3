import Verif.Spec.Avsucd
import Verif.Lemmas.Repr
import Verif.Lemmas.Listing
import Verif.Lemmas.Json

/-!
# Lemmas on AVS-UCD mesh files
-/

namespace Verif.Mesh
open Verif.Py Verif.Model Verif.Spec

theorem mapM_mem {α β : Type} {f : α → Except PyErr β} {xs : List α} {ys : List β} (h : xs.mapM f = .ok ys)
    {x : α} (hx : x ∈ xs) : ∃ y, f x = .ok y := by
  have := mapM_eq_ok h
  clear h
  induction this with
  | nil => simp at hx
  | cons h _ ih =>
    rcases List.mem_cons.1 hx with rfl | hx
    · exact ⟨_, h⟩
    · exact ih hx

/-! ### lines -/

theorem words_join {ts : List Str} (h : ∀ t ∈ ts, Word t) {r : Str} (hr : ∀ c ∈ r, isSpace c = true) :
    words (joinWith ' ' ts ++ r) = ts := by
  induction ts with
  | nil => exact wordsFrom_spaces hr
  | cons t ts ih =>
    obtain ⟨h1, h2⟩ := h t (by simp)
    have ih' := ih fun t ht => h t (by simp [ht])
    by_cases hn : ts = []
    · subst hn
      rw [joinWith, words_token h1 h2]
      · exact congrArg (List.cons t) (wordsFrom_spaces hr)
      · intro c hc
        exact hr c (List.mem_of_mem_head? hc)
    · rw [joinWith_cons hn, List.append_assoc, words_token h1 h2]
      · have : ' ' :: joinWith ' ' ts ++ r = [' '] ++ (joinWith ' ' ts ++ r) := rfl
        rw [this, words_spaces_append (by simp; decide), ih']
      · intro c hc
        have : c = ' ' := by simpa using hc.symm
        rw [this]; decide

theorem words_line {ts : List Str} (h : ∀ t ∈ ts, Word t) : words (strip (spacedLine ts)) = ts := by
  rw [words_strip, spacedLine]
  exact words_join h (by simp; decide)

theorem word_natStr (n : ℕ) : Word (natStr n) := ⟨Verif.Py.natStr_ne_nil n, natStr_nospace n⟩

theorem word_intStr (i : ℤ) : Word (intStr i) :=
  ⟨intStr_ne_nil i, fun c hc => isSpace_of_isNumChar (intStr_numChar i c hc)⟩

theorem word_fmtE (p : ℕ) (x : Flt) : Word (fmtE p x) := ⟨fmtE_ne_nil p x, fmtE_nospace p x⟩

theorem word_fltStr {x : Flt} (h : IsDouble x) : Word (fltStr x) := ⟨fltStr_ne_nil x h, fltStr_nospace x h⟩

theorem toInt_natStr (n : ℕ) : toInt (natStr n) = .ok (n : ℤ) := by
  rw [toInt, pyInt_natStr]

theorem toInt_intStr (i : ℤ) : toInt (intStr i) = .ok i := by
  rw [toInt, pyInt_intStr]

theorem toFloat_natStr {n : ℕ} (h : n < 2 ^ 53) : toFloat (natStr n) = .ok (.fin false n) := by
  have h1 : parseDec (natStr n) = some (n : ℚ) := by simpa using parseDec_fixed n 0
  have h2 := pyFloat_signed (neg := false) (s := natStr n) (q := n)
    (fun c hc => isNumChar_of_isDigit (natStr_isDigit n c hc)) (by
      cases hs : natStr n with
      | nil => exact absurd hs (Verif.Py.natStr_ne_nil n)
      | cons c t => exact ⟨c, t, rfl, natStr_isDigit n c (by simp [hs])⟩) h1
  rw [ofDecimal_nat _ h] at h2
  simp only [signStr] at h2
  rw [toFloat]
  simp at h2
  rw [h2]

theorem avsRows_eq {n : ℕ} {ls rest : List Str} (h : ls.length = n) :
    avsRows n (ls ++ rest) = (ls.map fun l => words (strip l), rest) := by
  induction ls generalizing n with
  | nil => subst h; rfl
  | cons l ls ih =>
    obtain rfl : n = ls.length + 1 := by simpa using h.symm
    rw [List.cons_append, avsRows, nextLine]
    simp only [ih rfl, List.map_cons]

/-! ### points -/

/-- The dictionary of `n` points or cells. -/
def numbering (n : ℕ) : List (ℤ × ℕ) := (List.range n).map fun i : ℕ => ((i : ℤ) + 1, i)

theorem numbering_get {n v : ℕ} (h : v < n) : idOf (numbering n) ((v : ℤ) + 1) = .ok v := by
  apply dictGet_mem
  · rw [numbering, List.map_map]
    refine List.Nodup.map ?_ List.nodup_range
    intro a b hab
    simpa using hab
  · exact List.mem_map.2 ⟨v, List.mem_range.2 h, rfl⟩

theorem numbering_eq (n : ℕ) : updateDict [] ((List.range n).map fun i : ℕ => (i : ℤ) + 1).zipIdx = numbering n := by
  have e : ((List.range n).map fun i : ℕ => (i : ℤ) + 1).zipIdx = numbering n := by
    apply List.ext_getElem
    · simp [numbering]
    · intro i h1 h2
      simp [numbering]
  rw [e]
  apply updateDict_nil_of_nodup
  rw [numbering, List.map_map]
  refine List.Nodup.map ?_ List.nodup_range
  intro a b hab
  simpa using hab

/-- The row of a point. -/
def coords (p : P3 Flt) : List Flt := [p.x, p.y, p.z]

theorem avsNodes_words {points : List (P3 Flt)} (hd : ∀ p ∈ points, IsDouble p.x ∧ IsDouble p.y ∧ IsDouble p.z) :
    (avsNodes points).map (fun l => words (strip l)) = points.zipIdx.map fun e =>
      [natStr (e.2 + 1), fltStr e.1.x, fltStr e.1.y, fltStr e.1.z] := by
  rw [avsNodes, List.map_map]
  apply List.map_congr_left
  intro e he
  obtain ⟨h1, h2, h3⟩ := hd e.1 (List.fst_mem_of_mem_zipIdx he)
  rw [Function.comp_apply, words_line]
  intro t ht
  simp only [List.mem_cons, List.not_mem_nil, or_false] at ht
  rcases ht with rfl | rfl | rfl | rfl
  · exact word_natStr _
  · exact word_fltStr h1
  · exact word_fltStr h2
  · exact word_fltStr h3

theorem toFloat_fltStr {x : Flt} (h : IsDouble x) : toFloat (fltStr x) = .ok x := by
  rw [toFloat, pyFloat_fltStr x h]

theorem rectangular_of {α : Type} {rows : List (List α)} {n : ℕ} (h : ∀ r ∈ rows, r.length = n) :
    rectangular rows = true := by
  cases rows with
  | nil => rfl
  | cons r rs =>
    rw [rectangular, List.all_eq_true]
    intro s hs
    simp [h r (by simp), h s (by simp [hs])]

theorem avsReadNodes_eq {points : List (P3 Flt)} (hne : points ≠ []) (hlen : points.length < 2 ^ 53)
    (hd : ∀ p ∈ points, IsDouble p.x ∧ IsDouble p.y ∧ IsDouble p.z) :
    avsReadNodes ((avsNodes points).map fun l => words (strip l)) =
      .ok (numbering points.length, points.map coords) := by
  have h1 : ((avsNodes points).map fun l => words (strip l)).mapM (fun r => r.mapM toFloat) =
      .ok (points.zipIdx.map fun e => Flt.fin false ((e.2 + 1 : ℕ) : ℚ≥0) :: coords e.1) := by
    rw [avsNodes_words hd, List.mapM_map]
    apply mapM_ok
    intro e he
    obtain ⟨i1, i2, i3⟩ := hd e.1 (List.fst_mem_of_mem_zipIdx he)
    have hi : e.2 + 1 < 2 ^ 53 := by
      have := List.snd_lt_of_mem_zipIdx he
      omega
    show List.mapM toFloat [natStr (e.2 + 1), fltStr e.1.x, fltStr e.1.y, fltStr e.1.z] = _
    simp only [List.mapM_cons, List.mapM_nil, toFloat_natStr hi, toFloat_fltStr i1, toFloat_fltStr i2,
      toFloat_fltStr i3]
    rfl
  have h2 : (points.zipIdx.map fun e => Flt.fin false ((e.2 + 1 : ℕ) : ℚ≥0) :: coords e.1).mapM
      firstInt = .ok ((List.range points.length).map fun i : ℕ => (i : ℤ) + 1) := by
    rw [List.mapM_map]
    have : (List.range points.length).map (fun i : ℕ => (i : ℤ) + 1) =
        points.zipIdx.map fun e => ((e.2 : ℕ) : ℤ) + 1 := by
      apply List.ext_getElem
      · simp
      · intro i j1 j2
        simp
    rw [this]
    apply mapM_ok
    intro e _
    simp [intOfFlt, firstInt]
  have h3 : (points.zipIdx.map fun e => Flt.fin false ((e.2 + 1 : ℕ) : ℚ≥0) :: coords e.1).map (·.drop 1) =
      points.map coords := by
    apply List.ext_getElem
    · simp
    · intro i j1 j2
      simp
  have h4 : ∀ r ∈ points.zipIdx.map fun e => Flt.fin false ((e.2 + 1 : ℕ) : ℚ≥0) :: coords e.1, r.length = 4 := by
    intro r hr
    obtain ⟨e, _, rfl⟩ := List.mem_map.1 hr
    rfl
  have h5 : points.zipIdx.map (fun e => Flt.fin false ((e.2 + 1 : ℕ) : ℚ≥0) :: coords e.1) ≠ [] := by
    simpa using hne
  rw [avsReadNodes, h1, ok_bind]
  generalize points.zipIdx.map (fun e => Flt.fin false ((e.2 + 1 : ℕ) : ℚ≥0) :: coords e.1) = D at h2 h3 h4 h5
  rw [rectangular_of h4]
  cases D with
  | nil => exact absurd rfl h5
  | cons d D =>
    simp only [Bool.not_true, Bool.false_eq_true, if_false]
    rw [h2, ok_bind, numbering_eq, h3]

/-! ### cells -/

/-- `row[order]`. -/
def perm (order row : List ℕ) : List ℕ := order.map fun i => row.getD i 0

theorem permute_eq {order row : List ℕ} (h : ∀ i ∈ order, i < row.length) :
    permute order row = .ok (perm order row) := by
  apply mapM_ok
  intro i hi
  rw [List.getElem?_eq_getElem (h i hi)]
  simp [List.getD_eq_getElem?_getD, h i hi]

/-- The name of a type. -/
def nameD (t : CellType) : Str :=
  match avsName t with
  | .ok s => s
  | .error _ => []

theorem perm_mem {order row : List ℕ} (h : ∀ i ∈ order, i < row.length) : ∀ v ∈ perm order row, v ∈ row := by
  intro v hv
  obtain ⟨i, hi, rfl⟩ := List.mem_map.1 hv
  simp [List.getD_eq_getElem?_getD, h i hi]

theorem type_facts {t : CellType} {n : ℕ} (h : vertexCount t = some n) :
    avsName t = .ok (nameD t) ∧ avsTypeOf (nameD t) = .ok t ∧ Word (nameD t) ∧
    (∀ i ∈ avsOrder t, i < n) ∧ (∀ i ∈ avsOrderBack t, i < n) ∧ (avsOrder t).length = n ∧
    ∀ c : List ℕ, c.length = n → perm (avsOrderBack t) (perm (avsOrder t) c) = c := by
  have key : (t, n) ∈ [(CellType.triangle, 3), (.quad, 4), (.tetra, 4), (.pyramid, 5), (.wedge, 6),
      (.hexahedron, 8), (.other "vertex".toList, 1), (.other "line".toList, 2)] := by
    cases t with
    | other name =>
      rw [vertexCount] at h
      split at h
      · next hn => cases h; subst hn; simp
      · split at h
        · next hn => cases h; subst hn; simp
        · cases h
    | _ => rw [vertexCount] at h; cases h; simp
  simp only [List.mem_cons, List.not_mem_nil, or_false, Prod.mk.injEq] at key
  rcases key with ⟨rfl, rfl⟩ | ⟨rfl, rfl⟩ | ⟨rfl, rfl⟩ | ⟨rfl, rfl⟩ | ⟨rfl, rfl⟩ | ⟨rfl, rfl⟩ | ⟨rfl, rfl⟩ | ⟨rfl, rfl⟩
  all_goals refine ⟨by decide +kernel, by decide +kernel, by decide +kernel, by decide +kernel, by decide +kernel, by decide +kernel, ?_⟩
  · rintro (_ | ⟨a, _ | ⟨b, _ | ⟨c, _ | ⟨d, r⟩⟩⟩⟩) hc <;> simp at hc; rfl
  · rintro (_ | ⟨a, _ | ⟨b, _ | ⟨c, _ | ⟨d, _ | ⟨e, r⟩⟩⟩⟩⟩) hc <;> simp at hc; rfl
  · rintro (_ | ⟨a, _ | ⟨b, _ | ⟨c, _ | ⟨d, _ | ⟨e, r⟩⟩⟩⟩⟩) hc <;> simp at hc; rfl
  · rintro (_ | ⟨a, _ | ⟨b, _ | ⟨c, _ | ⟨d, _ | ⟨e, _ | ⟨f, r⟩⟩⟩⟩⟩⟩) hc <;> simp at hc; rfl
  · rintro (_ | ⟨a, _ | ⟨b, _ | ⟨c, _ | ⟨d, _ | ⟨e, _ | ⟨f, _ | ⟨g, r⟩⟩⟩⟩⟩⟩⟩) hc <;> simp at hc; rfl
  · rintro (_ | ⟨a, _ | ⟨b, _ | ⟨c, _ | ⟨d, _ | ⟨e, _ | ⟨f, _ | ⟨g, _ | ⟨h, _ | ⟨i, r⟩⟩⟩⟩⟩⟩⟩⟩⟩) hc <;> simp at hc; rfl
  · rintro (_ | ⟨a, _ | ⟨b, r⟩⟩) hc <;> simp at hc; rfl
  · rintro (_ | ⟨a, _ | ⟨b, _ | ⟨c, r⟩⟩⟩) hc <;> simp at hc; rfl

/-- All cells are of known types and have vertices among the first `np`. -/
def CellsOk (np : ℕ) (cells : List CellBlock) : Prop :=
  ∀ b ∈ cells, ∃ n, vertexCount b.type = some n ∧ ∀ c ∈ b.data, c.length = n ∧ ∀ v ∈ c, v < np

/-- A cell as it is written. -/
def cellWords (mats : List ℤ) (e : (CellType × List ℕ) × ℕ) : List Str :=
  natStr (e.2 + 1) :: intStr (mats.getD e.2 0) :: nameD e.1.1 ::
    (perm (avsOrder e.1.1) e.1.2).map fun v => natStr (v + 1)

theorem avsTexts_eq {np : ℕ} {cells : List CellBlock} (h : CellsOk np cells) :
    cells.mapM avsTexts = .ok (cells.map fun b => b.data.map fun c => (nameD b.type, perm (avsOrder b.type) c)) := by
  apply mapM_ok
  intro b hb
  obtain ⟨n, hn, hc⟩ := h b hb
  obtain ⟨h1, _, _, h4, _⟩ := type_facts hn
  have h5 : b.data.mapM (permute (avsOrder b.type)) = .ok (b.data.map (perm (avsOrder b.type))) := by
    apply mapM_ok
    intro c hc'
    apply permute_eq
    rw [(hc c hc').1]
    exact h4
  rw [avsTexts, h1, ok_bind, h5, ok_bind, List.map_map]
  rfl

theorem flatten_texts (cells : List CellBlock) :
    (cells.map fun b => b.data.map fun c => (nameD b.type, perm (avsOrder b.type) c)).flatten =
      (typedCells cells).map fun e => (nameD e.1, perm (avsOrder e.1) e.2) := by
  rw [typedCells, List.map_flatMap, ← List.flatMap_def]
  simp only [List.map_map]
  rfl

theorem avsCells_eq {np : ℕ} {cells : List CellBlock} (h : CellsOk np cells) {mats : List ℤ}
    (hm : mats.length = (typedCells cells).length) :
    avsCells cells mats = .ok ((typedCells cells).zipIdx.map fun e => spacedLine (cellWords mats e)) := by
  rw [avsCells, avsTexts_eq h, ok_bind, flatten_texts, List.zipIdx_map, List.mapM_map]
  apply mapM_ok
  intro e he
  have hi : e.2 < mats.length := by
    rw [hm]
    simpa using List.snd_lt_of_mem_zipIdx he
  show avsCell mats ((nameD e.1.1, perm (avsOrder e.1.1) e.1.2), e.2) = _
  rw [avsCell, rowAt, List.getElem?_eq_getElem hi]
  simp [ok_bind, cellWords, List.getD_eq_getElem?_getD, hi]

theorem mem_typedCells {cells : List CellBlock} {e : CellType × List ℕ} (h : e ∈ typedCells cells) :
    ∃ b ∈ cells, e.1 = b.type ∧ e.2 ∈ b.data := by
  obtain ⟨b, hb, h⟩ := List.mem_flatMap.1 h
  obtain ⟨c, hc, rfl⟩ := List.mem_map.1 h
  exact ⟨b, hb, rfl, hc⟩

theorem cellWords_word {np : ℕ} {cells : List CellBlock} (h : CellsOk np cells) (mats : List ℤ)
    {e : (CellType × List ℕ) × ℕ} (he : e ∈ (typedCells cells).zipIdx) : ∀ t ∈ cellWords mats e, Word t := by
  obtain ⟨b, hb, h1, h2⟩ := mem_typedCells (List.fst_mem_of_mem_zipIdx he)
  obtain ⟨n, hn, hc⟩ := h b hb
  obtain ⟨_, _, h3, _⟩ := type_facts hn
  intro t ht
  simp only [cellWords, List.mem_cons, List.mem_map] at ht
  rcases ht with rfl | rfl | rfl | ⟨v, _, rfl⟩
  · exact word_natStr _
  · exact word_intStr _
  · rw [h1]; exact h3
  · exact word_natStr _

/-- A cell as it is read. -/
def readCell (mats : List ℤ) (e : (CellType × List ℕ) × ℕ) : AvsCell :=
  ⟨(e.2 : ℤ) + 1, mats.getD e.2 0, e.1.1, perm (avsOrder e.1.1) e.1.2⟩

theorem avsReadCells_eq {np : ℕ} {cells : List CellBlock} (h : CellsOk np cells) (mats : List ℤ) :
    (((typedCells cells).zipIdx.map fun e => spacedLine (cellWords mats e)).map fun l => words (strip l)).mapM
      (avsReadCell (numbering np)) = .ok ((typedCells cells).zipIdx.map (readCell mats)) := by
  rw [List.map_map, List.mapM_map]
  apply mapM_ok
  intro e he
  rw [Function.comp_apply, Function.comp_apply, words_line (cellWords_word h mats he)]
  obtain ⟨b, hb, h1, h2⟩ := mem_typedCells (List.fst_mem_of_mem_zipIdx he)
  obtain ⟨n, hn, hc⟩ := h b hb
  obtain ⟨_, h3, _, h4, _⟩ := type_facts hn
  have h5 : ((cellWords mats e).drop 3).mapM (fun s => do
      let i ← toInt s
      idOf (numbering np) i) = .ok (perm (avsOrder e.1.1) e.1.2) := by
    show ((perm (avsOrder e.1.1) e.1.2).map fun v => natStr (v + 1)).mapM _ = _
    rw [List.mapM_map]
    have := mapM_ok (f := (fun s => do
      let i ← toInt s
      idOf (numbering np) i) ∘ fun v => natStr (v + 1)) (g := id) (xs := perm (avsOrder e.1.1) e.1.2) ?_
    · rw [this, List.map_id]
    · intro v hv
      have hv' : v < np := (hc e.1.2 h2).2 v (perm_mem (by rw [(hc e.1.2 h2).1, h1]; exact h4) v hv)
      rw [Function.comp_apply, toInt_natStr, ok_bind]
      push_cast
      exact numbering_get hv'
  rw [avsReadCell]
  have r0 : rowAt (cellWords mats e) 0 = .ok (natStr (e.2 + 1)) := rfl
  have r1 : rowAt (cellWords mats e) 1 = .ok (intStr (mats.getD e.2 0)) := rfl
  have r2 : rowAt (cellWords mats e) 2 = .ok (nameD e.1.1) := rfl
  rw [r0, ok_bind, toInt_natStr, ok_bind, r1, ok_bind, toInt_intStr, ok_bind, r2, ok_bind, h1, h3, ok_bind, ← h1,
    h5, ok_bind, readCell]
  push_cast
  rfl

/-! ### blocks -/

theorem avsBlocks_spec (cs : List AvsCell) (acc : List CellBlock)
    (hne : ∀ b ∈ acc, b.data ≠ []) (hch : acc.IsChain fun a b => a.type ≠ b.type) :
    typedCells (avsBlocks cs acc).reverse = typedCells acc.reverse ++ cs.map (fun c => (c.type, c.corner)) ∧
    (∀ b ∈ avsBlocks cs acc, b.data ≠ []) ∧ (avsBlocks cs acc).IsChain fun a b => a.type ≠ b.type := by
  induction cs generalizing acc with
  | nil => exact ⟨by simp [avsBlocks], hne, hch⟩
  | cons c cs ih =>
    cases acc with
    | nil =>
      rw [avsBlocks]
      obtain ⟨h1, h2, h3⟩ := ih [⟨c.type, [c.corner]⟩] (by simp) (by simp)
      refine ⟨?_, h2, h3⟩
      rw [h1]
      simp [typedCells]
    | cons b acc =>
      rw [avsBlocks]
      split
      · next ht =>
        obtain ⟨h1, h2, h3⟩ := ih (⟨b.type, b.data ++ [c.corner]⟩ :: acc) (by
          intro b' hb'
          rcases List.mem_cons.1 hb' with rfl | hb'
          · simp
          · exact hne b' (by simp [hb'])) (by
          cases acc with
          | nil => simp
          | cons b2 acc => simpa using hch)
        refine ⟨?_, h2, h3⟩
        rw [h1]
        simp [typedCells, ht]
      · next ht =>
        obtain ⟨h1, h2, h3⟩ := ih (⟨c.type, [c.corner]⟩ :: b :: acc) (by
          intro b' hb'
          rcases List.mem_cons.1 hb' with rfl | hb'
          · simp
          · exact hne b' hb') (by
          rw [List.isChain_cons_cons]
          exact ⟨fun h => ht h.symm, hch⟩)
        refine ⟨?_, h2, h3⟩
        rw [h1]
        simp [typedCells]

theorem avsBlock_all {blocks : List CellBlock}
    (h : ∀ b ∈ blocks, ∃ n, vertexCount b.type = some n ∧ ∀ c ∈ b.data, c.length = n) :
    blocks.mapM avsBlock = .ok (blocks.map fun b => ⟨b.type, b.data.map (perm (avsOrderBack b.type))⟩) := by
  apply mapM_ok
  intro b hb
  obtain ⟨n, hn, hc⟩ := h b hb
  obtain ⟨_, _, _, _, h5, _⟩ := type_facts hn
  have h6 : b.data.mapM (permute (avsOrderBack b.type)) = .ok (b.data.map (perm (avsOrderBack b.type))) := by
    apply mapM_ok
    intro c hc'
    apply permute_eq
    rw [hc c hc']
    exact h5
  rw [avsBlock, rectangular_of hc, h6]
  rfl

theorem chain_reverse {l : List CellBlock} (h : l.IsChain fun a b => a.type ≠ b.type) :
    l.reverse.IsChain fun a b => a.type ≠ b.type := by
  rw [List.isChain_reverse]
  exact h.imp fun a b h h' => h h'.symm

/-- The blocks that are read for the cells of a mesh. -/
theorem blocks_read {np : ℕ} {cells : List CellBlock} (h : CellsOk np cells) (mats : List ℤ) :
    ∃ r, ((avsBlocks ((typedCells cells).zipIdx.map (readCell mats)) []).reverse).mapM avsBlock = .ok r ∧
      typedCells r = typedCells cells ∧ (∀ b ∈ r, b.data ≠ []) ∧ r.IsChain fun a b => a.type ≠ b.type := by
  obtain ⟨h1, h2, h3⟩ := avsBlocks_spec ((typedCells cells).zipIdx.map (readCell mats)) [] (by simp) (by simp)
  have e : ((typedCells cells).zipIdx.map (readCell mats)).map (fun c => (c.type, c.corner)) =
      (typedCells cells).map fun e => (e.1, perm (avsOrder e.1) e.2) := by
    apply List.ext_getElem
    · simp
    · intro i j1 j2
      simp [readCell]
  rw [e] at h1
  rw [show typedCells ([] : List CellBlock).reverse = [] from rfl, List.nil_append] at h1
  generalize (avsBlocks ((typedCells cells).zipIdx.map (readCell mats)) []) = B at h1 h2 h3
  have hB : ∀ b ∈ B.reverse, ∃ n, vertexCount b.type = some n ∧ ∀ c ∈ b.data, c.length = n := by
    intro b hb
    have key : ∀ c ∈ b.data, ∃ n, vertexCount b.type = some n ∧ c.length = n := by
      intro c hc
      have hm : (b.type, c) ∈ typedCells B.reverse := List.mem_flatMap.2 ⟨b, hb, List.mem_map.2 ⟨c, hc, rfl⟩⟩
      rw [h1] at hm
      obtain ⟨e, he, heq⟩ := List.mem_map.1 hm
      obtain ⟨b', hb', i1, i2⟩ := mem_typedCells he
      obtain ⟨n, hn, hcn⟩ := h b' hb'
      obtain ⟨_, _, _, _, _, h6, _⟩ := type_facts hn
      obtain ⟨q1, q2⟩ := Prod.mk.inj heq
      refine ⟨n, by rw [← q1, i1]; exact hn, ?_⟩
      rw [← q2, perm, List.length_map, i1, h6]
    obtain ⟨c, hc⟩ := List.exists_mem_of_ne_nil _ (h2 b (List.mem_reverse.1 hb))
    obtain ⟨n, hn, _⟩ := key c hc
    refine ⟨n, hn, fun c' hc' => ?_⟩
    obtain ⟨n', hn', hl⟩ := key c' hc'
    rw [hn] at hn'
    cases hn'
    exact hl
  refine ⟨_, avsBlock_all hB, ?_, ?_, ?_⟩
  · have e1 : typedCells (B.reverse.map fun b => (⟨b.type, b.data.map (perm (avsOrderBack b.type))⟩ : CellBlock)) =
        (typedCells B.reverse).map fun e => (e.1, perm (avsOrderBack e.1) e.2) := by
      simp only [typedCells, List.flatMap_map, List.map_flatMap, List.map_map]
      rfl
    rw [e1, h1, List.map_map]
    conv_rhs => rw [← List.map_id (typedCells cells)]
    apply List.map_congr_left
    intro e he
    obtain ⟨b, hb, i1, i2⟩ := mem_typedCells he
    obtain ⟨n, hn, hcn⟩ := h b hb
    obtain ⟨_, _, _, _, _, _, h7⟩ := type_facts hn
    have := h7 e.2 (hcn e.2 i2).1
    rw [← i1] at this
    simp [this]
  · intro b hb
    obtain ⟨b', hb', rfl⟩ := List.mem_map.1 hb
    simpa using h2 b' (List.mem_reverse.1 hb')
  · rw [List.isChain_map]
    exact chain_reverse h3

/-! ### data -/

theorem lstrip_comma (s r : Str) : lstrip (s ++ ',' :: r) = lstrip s ++ ',' :: r := by
  induction s with
  | nil => simp [lstrip, List.dropWhile, show isSpace ',' = false by decide]
  | cons c s ih =>
    rw [List.cons_append, lstrip, List.dropWhile_cons, lstrip, List.dropWhile_cons]
    cases isSpace c
    · rfl
    · exact ih

theorem lstrip_lstrip (s : Str) : lstrip (lstrip s) = lstrip s := by
  unfold lstrip
  induction s with
  | nil => rfl
  | cons c s ih =>
    rw [List.dropWhile_cons]
    by_cases hc : isSpace c = true
    · rw [if_pos hc]; exact ih
    · rw [if_neg hc, List.dropWhile_cons, if_neg hc]

theorem avsLabel_eq {s : Str} (h : ',' ∉ s) : avsLabel (s ++ ", real\n".toList) = .ok (underscored s) := by
  have h1 : strip (s ++ ", real\n".toList) = lstrip s ++ ',' :: " real".toList := by
    have e : s ++ ", real\n".toList = (s ++ ',' :: " real".toList) ++ ['\n'] := by simp
    rw [e, strip_append_spaces (by simp; decide), strip, lstrip_comma]
    apply rstrip_eq_self
    intro c hc
    rw [List.getLast?_append_of_ne_nil _ (by simp)] at hc
    have : c = 'l' := by simpa using hc.symm
    rw [this]; decide
  have h2 : ',' ∉ lstrip s := fun hc => h ((List.dropWhile_suffix _).subset hc)
  rw [avsLabel, h1, splitOn_append h2]
  show Except.ok _ = _
  rw [strip, lstrip_lstrip]
  rfl

theorem avsLabels_eq {data : List (Str × NArray)} (h : ∀ e ∈ data, ',' ∉ e.1) (rest : List Str) :
    avsLabels data.length ((data.map fun e => e.1 ++ ", real\n".toList) ++ rest) =
      .ok (data.map fun e => underscored e.1, rest) := by
  induction data with
  | nil => rfl
  | cons e data ih =>
    rw [List.map_cons, List.cons_append, List.length_cons, avsLabels, nextLine]
    simp only
    rw [avsLabel_eq (h e (by simp)), ok_bind, ih fun e he => h e (by simp [he])]
    rfl

/-- The numbers of an array in one row. -/
def rowOf (a : NArray) (i : ℕ) : List Flt := (a.rows[i]?).getD []

/-- An array after `i` rows have been read. -/
def partRead (junk : Flt) (n i : ℕ) (a : NArray) : NArray :=
  ⟨if a.cols = 1 then none else some a.cols, (List.range n).map fun t =>
    if t < i then (rowOf a t).map (quant 14) else List.replicate a.cols junk⟩

theorem partRead_cols (junk : Flt) (n i : ℕ) (a : NArray) : (partRead junk n i a).cols = a.cols := by
  rw [partRead, NArray.cols]
  split
  · next h => rw [h]; rfl
  · rfl

theorem partRead_set (junk : Flt) {n i : ℕ} (hi : i < n) (a : NArray) :
    (⟨(partRead junk n i a).width, (partRead junk n i a).rows.set i ((rowOf a i).map (quant 14))⟩ : NArray) =
      partRead junk n (i + 1) a := by
  unfold partRead
  congr 1
  apply List.ext_getElem
  · simp
  · intro t h1 h2
    have ht : t < n := by simpa using h2
    rw [List.getElem_set]
    simp only [List.getElem_map, List.getElem_range]
    by_cases h : i = t
    · subst h; simp
    · rw [if_neg h]
      by_cases h' : t < i
      · rw [if_pos h', if_pos (by omega)]
      · rw [if_neg h', if_neg (by omega)]

theorem emptyArray_eq (junk : Flt) (n : ℕ) (a : NArray) :
    emptyArray junk n (a.cols : ℤ) = .ok (partRead junk n 0 a) := by
  rw [emptyArray, if_neg (by omega)]
  have e : List.replicate n (List.replicate a.cols junk) = (List.range n).map fun t =>
      if t < 0 then (rowOf a t).map (quant 14) else List.replicate a.cols junk := by
    apply List.ext_getElem
    · simp
    · intro i h1 h2
      simp
  unfold partRead
  by_cases h : a.cols = 1
  · rw [if_pos (by exact_mod_cast h), if_pos h, ← e, h]
    rfl
  · rw [if_neg (by exact_mod_cast h), if_neg h, ← e]
    rfl

theorem avsValues_eq (t0 : Str) (front : List Str) (xs : List Flt) (rest : List Str) :
    avsValues (t0 :: (front ++ (xs.map (fmtE 14) ++ rest))) front.length xs.length = .ok (xs.map (quant 14)) := by
  have hd : (t0 :: (front ++ (xs.map (fmtE 14) ++ rest))).drop (front.length + 1) = xs.map (fmtE 14) ++ rest := by
    simp
  rw [avsValues]
  split
  · next h1 =>
    obtain ⟨x, rfl⟩ := List.length_eq_one_iff.1 h1
    have : rowAt (t0 :: (front ++ ([x].map (fmtE 14) ++ rest))) (front.length + 1) = .ok (fmtE 14 x) := by
      rw [rowAt]
      simp
    rw [this, ok_bind, toFloat_fmtE]
    rfl
  · have h2 : ((xs.map (fmtE 14) ++ rest).take xs.length) = xs.map (fmtE 14) := by
      rw [List.take_left']
      simp
    have h3 : (xs.map (fmtE 14)).mapM toFloat = .ok (xs.map (quant 14)) := by
      rw [List.mapM_map]
      exact mapM_ok fun x _ => toFloat_fmtE 14 x
    rw [hd, h2, h3, ok_bind, if_pos (by simp)]

theorem dictSet_mid {κ β : Type} [DecidableEq κ] {pre post : List (κ × β)} {k : κ} {v w : β}
    (h : k ∉ pre.map (·.1)) : dictSet (pre ++ (k, v) :: post) k w = pre ++ (k, w) :: post := by
  induction pre with
  | nil => simp [dictSet]
  | cons e pre ih =>
    obtain ⟨k', v'⟩ := e
    simp only [List.map_cons, List.mem_cons, not_or] at h
    rw [List.cons_append, dictSet, if_neg (fun h' => h.1 h'.symm), ih h.2]
    rfl

theorem avsSetRow_eq (junk : Flt) {n i : ℕ} (hi : i < n) (t0 : Str) (todo : List (Str × NArray))
    (hl : ∀ e ∈ todo, (rowOf e.2 i).length = e.2.cols) (front : List Str) (pre : List (Str × NArray))
    (hn : (pre.map (·.1) ++ todo.map fun e => underscored e.1).Nodup) :
    avsSetRow (t0 :: (front ++ (todo.flatMap fun e => rowOf e.2 i).map (fmtE 14))) i
      (todo.map fun e => (underscored e.1, e.2.cols)) front.length
      (pre ++ todo.map fun e => (underscored e.1, partRead junk n i e.2)) =
    .ok (pre ++ todo.map fun e => (underscored e.1, partRead junk n (i + 1) e.2)) := by
  induction todo generalizing front pre with
  | nil => rfl
  | cons e todo ih =>
    have hl1 := hl e (by simp)
    have hk : underscored e.1 ∉ pre.map (·.1) := by
      intro h
      have := List.disjoint_of_nodup_append hn h
      simp at this
    have hv := avsValues_eq t0 front (rowOf e.2 i) ((todo.flatMap fun e => rowOf e.2 i).map (fmtE 14))
    rw [hl1] at hv
    have hg : dictGet (pre ++ (underscored e.1, partRead junk n i e.2) ::
        todo.map fun e => (underscored e.1, partRead junk n i e.2)) (underscored e.1) =
        .ok (partRead junk n i e.2) := by
      apply dictGet_mem
      · simpa [Function.comp_def] using hn
      · simp
    have ht : t0 :: (front ++ (List.flatMap (fun e => rowOf e.2 i) (e :: todo)).map (fmtE 14)) =
        t0 :: (front ++ ((rowOf e.2 i).map (fmtE 14) ++ (todo.flatMap fun e => rowOf e.2 i).map (fmtE 14))) := by
      simp
    rw [ht, List.map_cons, List.map_cons, List.map_cons, avsSetRow, hv, ok_bind, hg, ok_bind, partRead_cols,
      if_pos (by simp [hl1]), if_pos (by simp [partRead, hi]), partRead_set junk hi, dictSet_mid hk]
    have := ih (fun e he => hl e (by simp [he])) (front ++ (rowOf e.2 i).map (fmtE 14))
      (pre ++ [(underscored e.1, partRead junk n (i + 1) e.2)]) (by simpa using hn)
    rw [List.length_append, List.length_map, hl1] at this
    simpa using this

theorem foldlM_range {β γ : Type} {f : β → γ → Except PyErr β} {F : ℕ → γ} (S : ℕ → β) {n : ℕ}
    (h : ∀ i < n, f (S i) (F i) = .ok (S (i + 1))) : ((List.range n).map F).foldlM f (S 0) = .ok (S n) := by
  induction n with
  | zero => rfl
  | succ n ih =>
    rw [List.range_succ, List.map_append, List.foldlM_append, ih fun i hi => h i (by omega), ok_bind]
    simp [h n (by omega)]

theorem partRead_all (junk : Flt) {n : ℕ} {a : NArray} (h : a.rows.length = n) :
    partRead junk n n a = ⟨if a.width = some 1 then none else a.width, a.rows.map fun r => r.map (quant 14)⟩ := by
  unfold partRead
  congr 1
  · unfold NArray.cols
    cases a.width with
    | none => rfl
    | some w =>
      by_cases hw : w = 1
      · subst hw; rfl
      · simp [hw]
  · apply List.ext_getElem
    · simp [h]
    · intro i h1 h2
      have hi : i < n := by simpa using h1
      simp [hi, rowOf, h]

/-- The lines of data for `n` points or cells. -/
def dataLines (n : ℕ) (data : List (Str × NArray)) : List Str :=
  spacedLine (natStr data.length :: data.map fun e => natStr e.2.cols) ::
    ((data.map fun e => e.1 ++ ", real\n".toList) ++
    (List.range n).map fun i => spacedLine (natStr (i + 1) ::
      (data.flatMap fun e => rowOf e.2 i).map (fmtE 14)))

theorem avsData_eq {n : ℕ} {data : List (Str × NArray)} (h : ∀ e ∈ data, e.2.rows.length = n) :
    avsData n data = .ok (dataLines n data) := by
  rw [avsData, if_pos (by simpa using h)]
  rfl

theorem avsReadData_eq (junk : Flt) {n : ℕ} {data : List (Str × NArray)} (h : DataOk n data) (rest : List Str) :
    avsReadData junk n (numbering n) (dataLines n data ++ rest) = .ok (data.map dataRead, rest) := by
  have h1 : ((words (strip (spacedLine (natStr data.length :: data.map fun e => natStr e.2.cols)))).drop 1).mapM
      toInt = .ok (data.map fun e => (e.2.cols : ℤ)) := by
    rw [words_line]
    · rw [List.drop_succ_cons, List.drop_zero, List.mapM_map]
      exact mapM_ok fun e _ => toInt_natStr _
    · intro t ht
      rcases List.mem_cons.1 ht with rfl | ht
      · exact word_natStr _
      · obtain ⟨e, _, rfl⟩ := List.mem_map.1 ht
        exact word_natStr _
  have h2 : (data.map fun e => (e.2.cols : ℤ)).mapM (emptyArray junk n) =
      .ok (data.map fun e => partRead junk n 0 e.2) := by
    rw [List.mapM_map]
    exact mapM_ok fun e _ => emptyArray_eq junk n e.2
  have hn : ((data.map fun e => (underscored e.1, partRead junk n 0 e.2)).map (·.1)).Nodup := by
    simpa [Function.comp_def] using h.distinct
  rw [dataLines, List.cons_append, avsReadData, nextLine]
  simp only
  rw [h1, ok_bind, List.length_map, List.append_assoc, avsLabels_eq h.names, ok_bind]
  simp only
  rw [h2, ok_bind, List.zip_map', List.map_map, List.zip_map', updateDict_nil_of_nodup _ hn,
    avsRows_eq (by simp)]
  simp only
  rw [List.map_map]
  have hw : (List.range n).map ((fun l => words (strip l)) ∘ fun i => spacedLine (natStr (i + 1) ::
      (data.flatMap fun e => rowOf e.2 i).map (fmtE 14))) = (List.range n).map fun i => natStr (i + 1) ::
      (data.flatMap fun e => rowOf e.2 i).map (fmtE 14) := by
    apply List.map_congr_left
    intro i _
    rw [Function.comp_apply, words_line]
    intro t ht
    rcases List.mem_cons.1 ht with rfl | ht
    · exact word_natStr _
    · obtain ⟨x, _, rfl⟩ := List.mem_map.1 ht
      exact word_fmtE _ _
  rw [hw, foldlM_range (S := fun i => data.map fun e => (underscored e.1, partRead junk n i e.2))]
  · rw [ok_bind]
    congr 2
    apply List.map_congr_left
    intro e he
    rw [partRead_all junk (h.shape e he).1, dataRead]
  · intro i hi
    have hr : rowAt (natStr (i + 1) :: (data.flatMap fun e => rowOf e.2 i).map (fmtE 14)) 0 = .ok (natStr (i + 1)) := rfl
    rw [hr, ok_bind, toInt_natStr, ok_bind]
    push_cast
    rw [numbering_get hi, ok_bind]
    have := avsSetRow_eq junk hi (natStr (i + 1)) data (by
      intro e he
      obtain ⟨i1, i2⟩ := h.shape e he
      have : i < e.2.rows.length := by omega
      rw [rowOf, List.getElem?_eq_getElem this, Option.getD_some]
      exact i2 _ (List.getElem_mem this)) [] [] (by simpa using h.distinct)
    simpa using this

/-! ### the file -/

theorem typedCells_length (cells : List CellBlock) : (typedCells cells).length = nCells cells := by
  simp [typedCells, nCells, List.length_flatMap]

theorem mem_materialKeys (s : Str) : s ∈ materialKeys ↔ IsMaterialName s := by
  simp [materialKeys, IsMaterialName]

theorem intOfFlt_truncates (neg : Bool) (mag : ℚ≥0) :
    ∃ k, intOfFlt (.fin neg mag) = .ok k ∧ Truncates (.fin neg mag) k := by
  refine ⟨_, rfl, ?_⟩
  have e : (if neg = true then -(⌊mag⌋₊ : ℤ) else ⌊mag⌋₊).natAbs = ⌊mag⌋₊ := by
    cases neg
    · exact Int.natAbs_natCast _
    · exact (Int.natAbs_neg _).trans (Int.natAbs_natCast _)
  rw [Truncates, e]
  refine ⟨Nat.floor_le (by positivity), Nat.lt_floor_add_one _, ?_⟩
  cases neg
  · exact Int.natCast_nonneg _
  · exact Int.neg_nonpos_of_nonneg (Int.natCast_nonneg _)

theorem avsMaterials_eq {m : AvsMesh} (h : AvsPlain m) :
    ∃ mats, avsMaterials m = .ok mats ∧ mats.length = (typedCells m.cells).length ∧ MaterialsOf m mats := by
  have hf : m.cellData.find? (fun e => decide (e.1 ∈ materialKeys)) =
      (m.cellData.filter fun e => IsMaterialName e.1).head? := by
    rw [List.head?_filter]
    congr 1
    funext e
    exact decide_eq_decide.2 (mem_materialKeys e.1)
  rw [avsMaterials, hf]
  unfold MaterialsOf
  cases he : m.cellData.filter fun e => IsMaterialName e.1 with
  | nil => exact ⟨_, rfl, by simp [typedCells_length], by simp [typedCells_length]⟩
  | cons e r =>
    have hm : e ∈ m.cellData.filter fun e => IsMaterialName e.1 := by rw [he]; simp
    obtain ⟨hm1, hm2⟩ := List.mem_filter.1 hm
    have hr := h.materials e hm1 (by simpa using hm2)
    have hx : ∀ r ∈ e.2.rows, ∃ k, materialOf r = .ok k := by
      intro r hr'
      obtain ⟨neg, mag, rfl⟩ := hr r hr'
      obtain ⟨k, hk, _⟩ := intOfFlt_truncates neg mag
      exact ⟨k, hk⟩
    obtain ⟨ks, hks⟩ := mapM_exists hx
    refine ⟨ks, hks, ?_, ?_⟩
    · rw [← (mapM_eq_ok hks).length_eq]
      exact h.lengths e hm1
    · refine (List.Forall₂.imp ?_ ((List.forall₂_and_left _ _).2 ⟨hr, mapM_eq_ok hks⟩) : _)
      rintro r k ⟨⟨neg, mag, rfl⟩, hk⟩
      obtain ⟨k', hk', ht⟩ := intOfFlt_truncates neg mag
      have : materialOf [Flt.fin neg mag] = .ok k' := hk'
      rw [this] at hk
      cases hk
      exact ⟨_, rfl, ht⟩

theorem totalCols_eq_zero {n : ℕ} {data : List (Str × NArray)} (h : DataOk n data) (h0 : totalCols data = 0) :
    data = [] := by
  rcases h.columns with h | ⟨e, he, hw⟩
  · exact h
  · exfalso
    have : e.2.cols = 0 := by
      have := List.sum_eq_zero_iff.1 h0 e.2.cols (List.mem_map.2 ⟨e, he, rfl⟩)
      exact this
    rw [NArray.cols] at this
    cases hwid : e.2.width with
    | none => rw [hwid] at this; simp at this
    | some w =>
      rw [hwid] at this
      simp at this
      subst this
      exact hw hwid

/-- The lines of data, if there are any. -/
def optLines (n : ℕ) (data : List (Str × NArray)) : List Str :=
  if totalCols data ≠ 0 then dataLines n data else []

theorem writeData_eq {n : ℕ} {data : List (Str × NArray)} (h : DataOk n data) :
    (if totalCols data ≠ 0 then avsData n data else .ok [] : Except PyErr (List Str)) = .ok (optLines n data) := by
  rw [optLines]
  split
  · exact avsData_eq fun e he => (h.shape e he).1
  · rfl

theorem readData_eq (junk : Flt) {n : ℕ} {data : List (Str × NArray)} (h : DataOk n data) (rest : List Str) :
    (if ((totalCols data : ℕ) : ℤ) ≠ 0 then avsReadData junk n (numbering n) (optLines n data ++ rest)
      else .ok ([], optLines n data ++ rest) : Except PyErr (List (Str × NArray) × List Str)) =
      .ok (data.map dataRead, rest) := by
  rw [optLines]
  by_cases h0 : totalCols data = 0
  · rw [if_neg (by simpa using h0), if_neg (by simpa using h0), totalCols_eq_zero h h0]
    rfl
  · rw [if_pos (by exact_mod_cast h0), if_pos h0]
    exact avsReadData_eq junk h rest

theorem strip_hash (s : Str) : startsWith (strip ('#' :: s)) ['#'] = true := by
  have h : lstrip ('#' :: s) = '#' :: s := lstrip_eq_self (by simp; decide)
  rw [strip, h, startsWith, List.isPrefixOf_iff_prefix]
  obtain ⟨t, ht⟩ := rstrip_prefix' ('#' :: s)
  cases hr : rstrip ('#' :: s) with
  | nil =>
    have : strip ('#' :: s) = [] := by rw [strip, h, hr]
    rw [strip_eq_nil_iff] at this
    have := this '#' (by simp)
    revert this; decide
  | cons c r =>
    rw [hr] at ht
    cases ht
    simp

theorem dictGet_absent {κ β : Type} [DecidableEq κ] {d : List (κ × β)} {k : κ} (h : ∀ e ∈ d, e.1 ≠ k) :
    dictGet d k = .error .keyError := by
  rw [dictGet]
  have : d.lookup k = none := by
    rw [List.lookup_eq_none_iff]
    intro e he
    simpa using fun h' => h e he h'.symm
  rw [this]

/-- The line with the numbers of points, cells and data. -/
def countsLine (a b c d : ℕ) : Str := spacedLine [natStr a, natStr b, natStr c, natStr d, ['0']]

theorem countsLine_words (a b c d : ℕ) :
    words (strip (countsLine a b c d)) = [natStr a, natStr b, natStr c, natStr d, ['0']] := by
  apply words_line
  intro t ht
  simp only [List.mem_cons, List.not_mem_nil, or_false] at ht
  rcases ht with rfl | rfl | rfl | rfl | rfl
  · exact word_natStr _
  · exact word_natStr _
  · exact word_natStr _
  · exact word_natStr _
  · decide

theorem avsCounts_eq (a b c d : ℕ) :
    avsCounts (strip (countsLine a b c d)) = .ok ((a : ℤ), (b : ℤ), (c : ℤ), (d : ℤ)) := by
  rw [avsCounts, countsLine_words]
  simp only [List.take_succ_cons, List.take_zero, List.mapM_cons, List.mapM_nil, toInt_natStr]
  rfl

theorem countsLine_start (a b c d : ℕ) : startsWith (strip (countsLine a b c d)) ['#'] = false := by
  obtain ⟨x, u, hu⟩ := List.exists_cons_of_ne_nil (Verif.Py.natStr_ne_nil a)
  have hx : isDigit x = true := natStr_isDigit a x (by rw [hu]; simp)
  have hl : lstrip (countsLine a b c d) = countsLine a b c d := by
    apply lstrip_eq_self
    intro y hy
    rw [countsLine, spacedLine, joinWith_cons (by simp), hu] at hy
    have : y = x := by simpa using hy.symm
    rw [this]
    exact isSpace_of_isDigit hx
  rw [← Bool.not_eq_true, startsWith, List.isPrefixOf_iff_prefix, strip, hl]
  rintro ⟨t, ht⟩
  obtain ⟨t', ht'⟩ := rstrip_prefix' (countsLine a b c d)
  rw [← ht] at ht'
  rw [countsLine, spacedLine, joinWith_cons (by simp), hu] at ht'
  have : '#' = x := (List.cons.inj ht').1
  rw [← this] at hx
  revert hx; decide

theorem avsStart_eq (version : Str) (a b c d : ℕ) (ls : List Str) :
    avsStart (("# Written by toughio v".toList ++ version ++ ['\n']) :: countsLine a b c d :: ls) =
      (countsLine a b c d, ls) := by
  have : "# Written by toughio v".toList ++ version ++ ['\n'] =
    '#' :: (" Written by toughio v".toList ++ version ++ ['\n']) := rfl
  rw [this, avsStart, if_pos (strip_hash _), avsStart, countsLine_start]
  rfl

theorem writeAvs_eq (version : Str) {m : AvsMesh} (h : AvsPlain m) :
    ∃ mats, mats.length = (typedCells m.cells).length ∧ MaterialsOf m mats ∧
      writeAvs version m = .ok (("# Written by toughio v".toList ++ version ++ ['\n']) ::
        countsLine m.points.length (nCells m.cells) (totalCols m.pointData) (totalCols (otherData m)) ::
        (avsNodes m.points ++ ((typedCells m.cells).zipIdx.map fun e => spacedLine (cellWords mats e)) ++
          optLines m.points.length m.pointData ++ optLines (nCells m.cells) (otherData m))) := by
  obtain ⟨mats, hm, hml, hms⟩ := avsMaterials_eq h
  have hco : CellsOk m.points.length m.cells := h.vertices
  have hod : (m.cellData.filter fun e => decide (e.1 ∉ materialKeys)) = otherData m := by
    unfold otherData
    apply List.filter_congr
    intro e _
    exact decide_eq_decide.2 (not_congr (mem_materialKeys e.1))
  refine ⟨mats, hml, hms, ?_⟩
  rw [writeAvs, if_neg]
  · simp only [hod]
    rw [hm, ok_bind, avsCells_eq hco hml, ok_bind, writeData_eq h.pointData, ok_bind, ← typedCells_length,
      writeData_eq h.cellData, ok_bind, countsLine]
  · simp only [List.any_eq_true, not_exists, not_and]
    intro e he
    simpa [typedCells_length] using h.lengths e he

/-- Reading what has been written. -/
theorem avs_read (version : Str) {m : AvsMesh} (h : AvsPlain m) :
    ∃ r mats, (∃ ls, writeAvs version m = .ok ls) ∧
      (∀ junk, (do let ls ← writeAvs version m; readAvs junk ls) =
        if r.cells = [] then .error .valueError else .ok r) ∧
      r.points = m.points.map coords ∧ typedCells r.cells = typedCells m.cells ∧
      (∀ b ∈ r.cells, b.data ≠ []) ∧ (r.cells.IsChain fun a b => a.type ≠ b.type) ∧
      r.pointData = m.pointData.map dataRead ∧ r.cellData = (otherData m).map dataRead ∧
      r.material = .inl mats ∧ MaterialsOf m mats := by
  obtain ⟨mats, hml, hms, hw⟩ := writeAvs_eq version h
  have hco : CellsOk m.points.length m.cells := h.vertices
  obtain ⟨blocks, hb, hb1, hb2, hb3⟩ := blocks_read hco mats
  have hcids : updateDict [] ((((typedCells m.cells).zipIdx.map (readCell mats)).map (·.id)).zipIdx) =
      numbering (nCells m.cells) := by
    rw [← numbering_eq, ← typedCells_length]
    congr 2
    apply List.ext_getElem
    · simp
    · intro i j1 j2
      simp [readCell]
  have hmat : ((typedCells m.cells).zipIdx.map (readCell mats)).map (·.mat) = mats := by
    apply List.ext_getElem
    · simp [hml]
    · intro i j1 j2
      simp [readCell, j2]
  have hnames : ∀ e ∈ (otherData m).map dataRead, e.1 ≠ "material".toList ∧ e.1 ≠ "avsucd:material".toList := by
    intro e he
    obtain ⟨e', he', rfl⟩ := List.mem_map.1 he
    exact h.names e' he'
  have hget : dictGet ((otherData m).map dataRead) "avsucd:material".toList = .error .keyError := by
    exact dictGet_absent fun e he => (hnames e he).2
  refine ⟨⟨m.points.map coords, blocks, m.pointData.map dataRead, .inl mats, (otherData m).map dataRead⟩, mats,
    ⟨_, hw⟩, fun junk => ?_, rfl, hb1, hb2, hb3, rfl, rfl, rfl, hms⟩
  rw [hw, ok_bind, readAvs, avsStart_eq]
  simp only
  rw [avsCounts_eq, ok_bind]
  simp only [Int.toNat_natCast]
  rw [List.append_assoc, List.append_assoc, avsRows_eq (by simp [avsNodes])]
  simp only
  rw [avsReadNodes_eq h.points.1 h.points.2.1 h.points.2.2, ok_bind]
  simp only
  rw [avsRows_eq (by simp [typedCells_length])]
  simp only
  rw [avsReadCells_eq hco, ok_bind, hb, ok_bind, hcids, readData_eq junk h.pointData, ok_bind]
  simp only
  have hcd := readData_eq junk h.cellData []
  rw [List.append_nil, typedCells_length] at hcd
  rw [hcd, ok_bind]
  simp only
  rw [hget, hmat]
  simp only
  split
  · rfl
  congr 2
  rw [List.filter_eq_self]
  intro e he
  exact decide_eq_true (hnames e he)

theorem avs_round (version : Str) {m : AvsMesh} (h : AvsOk m) :
    ∃ r mats, (∀ junk, (do let ls ← writeAvs version m; readAvs junk ls) = .ok r) ∧
      r.points = m.points.map coords ∧ typedCells r.cells = typedCells m.cells ∧
      (∀ b ∈ r.cells, b.data ≠ []) ∧ (r.cells.IsChain fun a b => a.type ≠ b.type) ∧
      r.pointData = m.pointData.map dataRead ∧ r.cellData = (otherData m).map dataRead ∧
      r.material = .inl mats ∧ MaterialsOf m mats := by
  obtain ⟨r, mats, -, h1, h2, h3, h4⟩ := avs_read version h.toAvsPlain
  refine ⟨r, mats, fun junk => ?_, h2, h3, h4⟩
  rw [h1, if_neg]
  intro h0
  obtain ⟨b, hbm, hbd⟩ := h.cells
  obtain ⟨c, hc⟩ := List.exists_mem_of_ne_nil _ hbd
  have : (b.type, c) ∈ typedCells m.cells := List.mem_flatMap.2 ⟨b, hbm, List.mem_map.2 ⟨c, hc, rfl⟩⟩
  rw [← h3, h0] at this
  simp [typedCells] at this

/-! ### the file -/

theorem spacedLine_eq (ts : List Str) : spacedLine ts = blankLine ts := by
  have : ∀ ts : List Str, joinWith ' ' ts = [' '].intercalate ts := by
    intro ts
    induction ts with
    | nil => rfl
    | cons t ts ih =>
      cases ts with
      | nil => simp [joinWith]
      | cons u ts =>
        rw [joinWith_cons (by simp), ih, List.intercalate_cons_cons]
        simp
  rw [spacedLine, blankLine, this]

theorem avsWritten_eq {t : CellType} {c : List ℕ} (h : vertexCount t = some c.length) :
    avsWritten t c = (nameD t, perm (avsOrder t) c) := by
  cases t with
  | other name =>
    rw [vertexCount] at h
    split at h
    · next hn =>
      subst hn
      match c, h with
      | [a], _ => rfl
    · split at h
      · next hn =>
        subst hn
        match c, h with
        | [a, b], _ => rfl
      · cases h
  | triangle => match c, h with | [_, _, _], _ => rfl
  | quad => match c, h with | [_, _, _, _], _ => rfl
  | tetra => match c, h with | [_, _, _, _], _ => rfl
  | pyramid => match c, h with | [_, _, _, _, _], _ => rfl
  | wedge => match c, h with | [_, _, _, _, _, _], _ => rfl
  | hexahedron => match c, h with | [_, _, _, _, _, _, _, _], _ => rfl

theorem avsFile_eq (version : Str) {m : AvsMesh} (h : AvsPlain m) :
    ∃ mats, MaterialsOf m mats ∧ writeAvs version m = .ok (avsFile version m mats) := by
  obtain ⟨mats, hml, hms, hw⟩ := writeAvs_eq version h
  refine ⟨mats, hms, hw.trans (congrArg _ ?_)⟩
  have hdata : ∀ {n : ℕ} {data : List (Str × NArray)}, DataOk n data → optLines n data = avsDataLines n data := by
    intro n data hd
    rw [optLines, avsDataLines]
    by_cases h0 : totalCols data = 0
    · rw [if_neg (by simpa using h0), if_pos (totalCols_eq_zero hd h0)]
    · rw [if_pos h0, if_neg, dataLines]
      · simp only [spacedLine_eq]
        rfl
      · rintro rfl
        exact h0 rfl
  have hcells : ((typedCells m.cells).zipIdx.map fun e => spacedLine (cellWords mats e)) =
      ((typedCells m.cells).zip mats).mapIdx fun i e => blankLine (natStr (i + 1) :: intStr e.2 ::
        (avsWritten e.1.1 e.1.2).1 :: (avsWritten e.1.1 e.1.2).2.map fun v => natStr (v + 1)) := by
    apply List.ext_getElem
    · simp [hml]
    · intro i h1 h2
      have hi : i < (typedCells m.cells).length := by simpa using h1
      have him : i < mats.length := by rw [hml]; exact hi
      obtain ⟨b, hb, e1, e2⟩ := mem_typedCells (List.getElem_mem hi)
      obtain ⟨n, hn, hc⟩ := h.vertices b hb
      have hv : vertexCount (typedCells m.cells)[i].1 = some (typedCells m.cells)[i].2.length := by
        rw [e1, hn, (hc _ e2).1]
      simp only [List.getElem_map, List.getElem_zipIdx, List.getElem_mapIdx, List.getElem_zip, Nat.zero_add,
        cellWords, spacedLine_eq]
      rw [avsWritten_eq hv]
      simp [List.getD_eq_getElem?_getD, him]
  have hnodes : avsNodes m.points = m.points.mapIdx fun i p =>
      blankLine [natStr (i + 1), fltStr p.x, fltStr p.y, fltStr p.z] := by
    apply List.ext_getElem
    · simp [avsNodes]
    · intro i h1 h2
      simp [avsNodes, spacedLine_eq]
  have hd2 : DataOk (nCells m.cells) (otherData m) := typedCells_length m.cells ▸ h.cellData
  rw [avsFile, hdata h.pointData, hdata hd2, hcells, hnodes, countsLine, spacedLine_eq, typedCells_length]
  rfl

end Verif.Mesh
