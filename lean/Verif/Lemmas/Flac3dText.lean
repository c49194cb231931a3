import Verif.Lemmas.Flac3dGroups

/-!
# Lemmas about FLAC3D mesh files: the lines of text files
-/

namespace Verif.Mesh
open Verif.Py Verif.Model Verif.Spec

theorem words_rstrip (s : Str) : words (rstrip s) = words s := by
  have h : s = rstrip s ++ (s.reverse.takeWhile isSpace).reverse := by
    rw [rstrip, ← List.reverse_append, List.takeWhile_append_dropWhile, List.reverse_reverse]
  have hs : ∀ c ∈ (s.reverse.takeWhile isSpace).reverse, isSpace c = true := by
    intro c hc
    rw [List.mem_reverse] at hc
    exact List.all_eq_true.1 (List.all_takeWhile (l := s.reverse) (p := isSpace)) c hc
  conv_rhs => rw [h, words_append_spaces hs]

/-- The lines `text` are read as the records `recs`, if what follows satisfies `P`. -/
def Consumes (P : List Str → Prop) (text : List Str) (recs : List FRec) : Prop :=
  ∃ k ≤ text.length, ∀ n rest s, P rest →
    flacLoop (k + n) (text ++ rest) s = (recs.foldlM FlacState.step s >>= flacLoop n rest)

theorem Consumes.nil (P : List Str → Prop) : Consumes P [] [] := by
  refine ⟨0, le_refl _, fun n rest s _ => ?_⟩
  rw [Nat.zero_add]
  rfl

theorem Consumes.append {P Q : List Str → Prop} {t₁ t₂ : List Str} {r₁ r₂ : List FRec} (h₁ : Consumes P t₁ r₁)
    (h₂ : Consumes Q t₂ r₂) (h : ∀ rest, Q rest → P (t₂ ++ rest)) : Consumes Q (t₁ ++ t₂) (r₁ ++ r₂) := by
  obtain ⟨k₁, hk₁, h₁⟩ := h₁
  obtain ⟨k₂, hk₂, h₂⟩ := h₂
  refine ⟨k₁ + k₂, by rw [List.length_append]; omega, fun n rest s hr => ?_⟩
  rw [List.append_assoc, Nat.add_assoc, h₁ _ _ _ (h rest hr), List.foldlM_append]
  cases r₁.foldlM FlacState.step s with
  | error e => rfl
  | ok s' => exact h₂ n rest s' hr

/-- Lines that are read one by one. -/
theorem Consumes.lines {ls : List (Str × FRec)}
    (h : ∀ e ∈ ls, ∀ n rest s, flacLoop (1 + n) (e.1 :: rest) s = (s.step e.2 >>= flacLoop n rest)) :
    Consumes (fun _ => True) (ls.map (·.1)) (ls.map (·.2)) := by
  induction ls with
  | nil => exact Consumes.nil _
  | cons e ls ih =>
    have h1 : Consumes (fun _ => True) [e.1] [e.2] := by
      refine ⟨1, le_refl _, fun n rest s _ => ?_⟩
      rw [List.singleton_append, h e (by simp), List.foldlM_cons]
      cases s.step e.2 with
      | error e => rfl
      | ok s' => rfl
    exact h1.append (ih fun e he => h e (by simp [he])) (fun _ _ => trivial)

/-- A line that says nothing. -/
theorem Consumes.comment {l : Str} {ws : List Str} (h : words l = "*".toList :: ws) :
    Consumes (fun _ => True) [l] [] := by
  refine ⟨1, le_refl _, fun n rest s _ => ?_⟩
  rw [Nat.add_comm, List.singleton_append, flacLoop, nextLine]
  simp only [words_rstrip, h]
  rw [if_neg (by decide), if_neg (by decide), if_neg (by decide)]
  rfl

theorem words_star (r : Str) : words ("* ".toList ++ r ++ ['\n']) = "*".toList :: words (' ' :: r ++ ['\n']) := by
  have : "* ".toList ++ r ++ ['\n'] = "*".toList ++ (' ' :: r ++ ['\n']) := rfl
  rw [this, words_token (by decide) (by decide) (by simp; decide)]

/-! ### points -/

theorem words_tabs {t : Str} {ts : List Str} (hts : ts ≠ []) (r : Str) (ht : Word t) :
    words (joinWith '\t' (t :: ts) ++ r) = t :: words (joinWith '\t' ts ++ r) := by
  obtain ⟨u, us, rfl⟩ := List.exists_cons_of_ne_nil hts
  have : joinWith '\t' (t :: u :: us) ++ r = t ++ ('\t' :: (joinWith '\t' (u :: us) ++ r)) := by
    simp [joinWith]
  rw [this, words_token ht.1 ht.2 (by simp; decide)]
  rw [← words_spaces_append (b := ['\t']) (by simp; decide) (joinWith '\t' (u :: us) ++ r)]
  rfl

theorem words_pointLine (p : ℕ) (e : P3 Flt × ℕ) : words (flacPointLine p e) =
    [['G'], natStr (e.2 + 1), fmtE p e.1.x, fmtE p e.1.y, fmtE p e.1.z] := by
  rw [flacPointLine, words_tabs (by simp) _ ⟨by decide, by decide⟩]
  have h1 : joinWith '\t' [padLeft 8 (natStr (e.2 + 1)), fmtE p e.1.x, fmtE p e.1.y, fmtE p e.1.z] ++ ['\n'] =
      blanks (8 - (natStr (e.2 + 1)).length) ++
        (joinWith '\t' [natStr (e.2 + 1), fmtE p e.1.x, fmtE p e.1.y, fmtE p e.1.z] ++ ['\n']) := by
    simp [joinWith, padLeft]
  rw [h1, words_spaces_append (blanks_space _), words_tabs (by simp) _ (word_natStr _),
    words_tabs (by simp) _ (word_fmtE _ _), words_tabs (by simp) _ (word_fmtE _ _)]
  have h2 := words_join (ts := [fmtE p e.1.z]) (by simpa using word_fmtE p e.1.z) (r := ['\n']) (by simp; decide)
  have h3 : joinWith '\t' [fmtE p e.1.z] = joinWith ' ' [fmtE p e.1.z] := rfl
  rw [h3, h2]

/-- The coordinates as they are read. -/
def readPoint (p : ℕ) (q : P3 Flt) : List Flt := [quant p q.x, quant p q.y, quant p q.z]

theorem loop_point (p : ℕ) (e : P3 Flt × ℕ) (n : ℕ) (rest : List Str) (s : FlacState) :
    flacLoop (1 + n) (flacPointLine p e :: rest) s =
      (s.step (.point ((e.2 : ℤ) + 1) (readPoint p e.1)) >>= flacLoop n rest) := by
  rw [Nat.add_comm, flacLoop, nextLine]
  have hf : ∀ x, toFloat (fmtE p x) = .ok (quant p x) := fun x => by rw [toFloat, pyFloat_fmtE]
  simp only [words_rstrip, words_pointLine]
  rw [if_pos (by decide)]
  have h1 : rowAt [natStr (e.2 + 1), fmtE p e.1.x, fmtE p e.1.y, fmtE p e.1.z] 0 = .ok (natStr (e.2 + 1)) := rfl
  have h2 : ([natStr (e.2 + 1), fmtE p e.1.x, fmtE p e.1.y, fmtE p e.1.z].drop 1).mapM toFloat =
      .ok (readPoint p e.1) := by
    simp only [List.drop_succ_cons, List.drop_zero, List.mapM_cons, hf, ok_bind, List.mapM_nil]
    rfl
  rw [h1, ok_bind, toInt_natStr, ok_bind, h2, ok_bind]
  have : ((e.2 + 1 : ℕ) : ℤ) = (e.2 : ℤ) + 1 := by push_cast; rfl
  rw [this]
  rfl

theorem consumes_points (p : ℕ) (points : List (P3 Flt)) :
    Consumes (fun _ => True) (points.zipIdx.map (flacPointLine p)) (pointRecs (points.map (readPoint p))) := by
  have h := Consumes.lines (ls := points.zipIdx.map fun e =>
    (flacPointLine p e, FRec.point ((e.2 : ℤ) + 1) (readPoint p e.1))) (by
      intro e he
      obtain ⟨x, _, rfl⟩ := List.mem_map.1 he
      exact loop_point p x)
  rw [List.map_map, List.map_map] at h
  have e1 : pointRecs (points.map (readPoint p)) = points.zipIdx.map fun e =>
      FRec.point ((e.2 : ℤ) + 1) (readPoint p e.1) := by
    rw [pointRecs, List.zipIdx_map, List.map_map]
    rfl
  rw [e1]
  exact h

/-! ### cells -/

/-- The first word of a cell. -/
def flagWord : FlacFlag → Str
  | .zone => ['Z']
  | .face => ['F']

theorem loop_cell (flag : FlacFlag) {name : Str} (hname : Word name) (hb : name ≠ "B7".toList) (i : ℕ) (c : List ℕ)
    (n : ℕ) (rest : List Str) (s : FlacState) :
    flacLoop (1 + n) (spacedLine (flagWord flag :: name :: natStr i :: c.map fun v => natStr (v + 1)) :: rest) s =
      (s.step (.cell flag false (i : ℤ) (c.map fun v : ℕ => (v : ℤ) + 1)) >>= flacLoop n rest) := by
  rw [Nat.add_comm, flacLoop, nextLine]
  have hw : words (spacedLine (flagWord flag :: name :: natStr i :: c.map fun v => natStr (v + 1))) =
      flagWord flag :: name :: natStr i :: c.map fun v => natStr (v + 1) := by
    rw [spacedLine]
    refine words_join ?_ (by simp; decide)
    intro t ht
    simp only [List.mem_cons, List.mem_map] at ht
    rcases ht with rfl | rfl | rfl | ⟨v, _, rfl⟩
    · cases flag <;> exact ⟨by decide, by decide⟩
    · exact hname
    · exact word_natStr _
    · exact word_natStr _
  simp only [words_rstrip, hw]
  have h1 : ∀ r : List Str, rowAt (name :: natStr i :: r) 1 = .ok (natStr i) := fun _ => rfl
  have h2 : ∀ r : List Str, rowAt (name :: natStr i :: r) 0 = .ok name := fun _ => rfl
  have h3 : ((name :: natStr i :: c.map fun v => natStr (v + 1)).drop 2).mapM toInt =
      .ok (c.map fun v : ℕ => (v : ℤ) + 1) := by
    rw [List.drop_succ_cons, List.drop_succ_cons, List.drop_zero]
    have := mapM_ok (f := fun v : ℕ => toInt (natStr (v + 1))) (g := fun v : ℕ => (v : ℤ) + 1) (xs := c) (by
      intro v _
      rw [toInt_natStr]
      push_cast
      rfl)
    rw [List.mapM_map]
    exact this
  have hb' : decide (name = "B7".toList) = false := decide_eq_false hb
  cases flag with
  | zone =>
    rw [if_neg (by decide), if_pos (by decide), h1, ok_bind, toInt_natStr, ok_bind, h2, ok_bind, h3, ok_bind, hb',
      if_pos (by decide)]
    rfl
  | face =>
    rw [if_neg (by decide), if_pos (by decide), h1, ok_bind, toInt_natStr, ok_bind, h2, ok_bind, h3, ok_bind, hb',
      if_neg (by decide)]
    rfl

theorem flacName_written {flag : FlacFlag} {n : ℕ} {t : CellType} (h : flacCount flag n = .ok t) :
    ∃ name, flacName t = .ok name ∧ Word name ∧ name ≠ "B7".toList := by
  have hl : ∃ name, flacName t = .ok name := by
    cases t with
    | other x =>
      exfalso
      revert h
      rw [flacCount.eq_def]
      split <;> simp
    | _ => exact ⟨_, rfl⟩
  obtain ⟨name, hn⟩ := hl
  refine ⟨name, hn, ?_⟩
  cases t <;> cases hn <;> exact ⟨⟨by decide, by decide⟩, by decide⟩

theorem consumes_cells (flag : FlacFlag) {np : ℕ} {zs : List (CellType × List ℕ)}
    (h : ∀ e ∈ zs, CellWritten flag np e.1 e.2) (a : ℕ) :
    ∃ ls, (zs.zipIdx (a + 1)).mapM (flacCellLine flag) = .ok ls ∧
      Consumes (fun _ => True) ls (cellRecs flag a zs) := by
  have key : ∀ e ∈ zs.zipIdx (a + 1), ∃ l, flacCellLine flag e = .ok l ∧ ∀ n rest s,
      flacLoop (1 + n) (l :: rest) s =
        (s.step (.cell flag false (e.2 : ℤ) (e.1.2.map fun v : ℕ => (v : ℤ) + 1)) >>= flacLoop n rest) := by
    intro e he
    obtain ⟨name, h1, h2, h3⟩ := flacName_written (h e.1 (List.fst_mem_of_mem_zipIdx he)).count
    refine ⟨spacedLine (flagWord flag :: name :: natStr e.2 :: e.1.2.map fun v => natStr (v + 1)), ?_,
      loop_cell flag h2 h3 e.2 e.1.2⟩
    unfold flacCellLine
    rw [h1, ok_bind]
    cases flag <;> rfl
  obtain ⟨ls, hls, hr⟩ := mapM_forall₂ key
  refine ⟨ls, hls, ?_⟩
  have hrec : cellRecs flag a zs = (zs.zipIdx (a + 1)).map fun e =>
      .cell flag false (e.2 : ℤ) (e.1.2.map fun v : ℕ => (v : ℤ) + 1) := by
    rw [cellRecs, List.zipIdx_succ, List.map_map]
    rfl
  rw [hrec]
  have h0 := Consumes.lines (ls := ls.zip ((zs.zipIdx (a + 1)).map fun e =>
    FRec.cell flag false (e.2 : ℤ) (e.1.2.map fun v : ℕ => (v : ℤ) + 1))) (by
      intro x hx
      obtain ⟨i, hi, rfl⟩ := List.getElem_of_mem hx
      simp only [List.length_zip, List.length_map] at hi
      rw [List.getElem_zip, List.getElem_map]
      exact List.Forall₂.get hr (by omega) (by omega))
  have hl : ls.length = ((zs.zipIdx (a + 1)).map fun e =>
    FRec.cell flag false (e.2 : ℤ) (e.1.2.map fun v : ℕ => (v : ℤ) + 1)).length := by
    rw [List.length_map, hr.length_eq]
  have e1 := List.map_fst_zip (l₁ := ls) (l₂ := (zs.zipIdx (a + 1)).map fun e =>
    FRec.cell flag false (e.2 : ℤ) (e.1.2.map fun v : ℕ => (v : ℤ) + 1)) (by omega)
  have e2 := List.map_snd_zip (l₁ := ls) (l₂ := (zs.zipIdx (a + 1)).map fun e =>
    FRec.cell flag false (e.2 : ℤ) (e.1.2.map fun v : ℕ => (v : ℤ) + 1)) (by omega)
  have e1' : (ls.zip ((zs.zipIdx (a + 1)).map fun e =>
    FRec.cell flag false (e.2 : ℤ) (e.1.2.map fun v : ℕ => (v : ℤ) + 1))).map (fun x => x.1) = ls := e1
  have e2' : (ls.zip ((zs.zipIdx (a + 1)).map fun e =>
    FRec.cell flag false (e.2 : ℤ) (e.1.2.map fun v : ℕ => (v : ℤ) + 1))).map (fun x => x.2) = _ := e2
  rw [e1', e2'] at h0
  exact h0

/-! ### groups -/

/-- Lines that end a table. -/
def Stop : List Str → Prop
  | [] => True
  | l :: _ => ∃ w r, words l = w :: r ∧ (w = "*".toList ∨ w = "ZGROUP".toList)

theorem flacData_stop {ls : List Str} (h : Stop ls) : flacData ls = .ok ([], ls) := by
  cases ls with
  | nil => rfl
  | cons l ls =>
    obtain ⟨w, r, h1, h2⟩ := h
    rw [flacData, words_rstrip, h1]
    simp only [if_pos h2]

theorem cumsum_concat (l : List ℕ) (x : ℕ) : cumsum (l ++ [x]) = cumsum l ++ [l.sum + x] := by
  induction l with
  | nil => simp [cumsum]
  | cons y l ih => simp [cumsum, ih, Nat.add_assoc]

theorem table_flatten (data : List ℕ) :
    (npSplit data (cumsum (List.replicate (data.length / 20) 20))).flatten = data := by
  have h0 := slices (List.replicate (data.length / 20) 20 ++ [data.length % 20]) data 0 (by
    simp only [List.sum_append, List.sum_replicate, List.sum_cons, List.sum_nil, nsmul_eq_mul, Nat.cast_id]
    omega)
  have e : cumsum (List.replicate (data.length / 20) 20 ++ [data.length % 20]) =
      cumsum (List.replicate (data.length / 20) 20) ++ [data.length] := by
    rw [cumsum_concat]
    congr 2
    simp only [List.sum_replicate, nsmul_eq_mul, Nat.cast_id]
    omega
  have h1 := h0.1
  simp only [Nat.zero_add, List.map_id', e, List.drop_zero] at h1
  rw [npSplit]
  exact h1

theorem natStr_not_stop (n : ℕ) : natStr n ≠ "*".toList ∧ natStr n ≠ "ZGROUP".toList := by
  constructor
  · intro h
    have h1 := toInt_natStr n
    rw [h] at h1
    exact absurd h1 (by
      rw [show toInt "*".toList = .error .valueError from by decide +kernel]
      exact fun h => by cases h)
  · intro h
    have h1 := toInt_natStr n
    rw [h] at h1
    exact absurd h1 (by
      rw [show toInt "ZGROUP".toList = .error .valueError from by decide +kernel]
      exact fun h => by cases h)

theorem flacData_rows {rows : List (List ℕ)} (hr : ∀ l ∈ rows, l ≠ []) {rest : List Str} (h : Stop rest) :
    flacData ((rows.map fun l => ' ' :: spacedLine (l.map natStr)) ++ rest) =
      .ok (rows.flatten.map fun v : ℕ => (v : ℤ), rest) := by
  induction rows with
  | nil => exact flacData_stop h
  | cons l rows ih =>
    rw [List.map_cons, List.cons_append, flacData]
    have hw : words (' ' :: spacedLine (l.map natStr)) = l.map natStr := by
      have h1 := words_spaces_append (b := [' ']) (by simp; decide) (spacedLine (l.map natStr))
      rw [List.singleton_append] at h1
      rw [h1, spacedLine]
      refine words_join ?_ (by simp; decide)
      intro t ht
      obtain ⟨v, _, rfl⟩ := List.mem_map.1 ht
      exact word_natStr v
    obtain ⟨v, l', rfl⟩ := List.exists_cons_of_ne_nil (hr l (by simp))
    rw [words_rstrip, hw, List.map_cons]
    have hn := natStr_not_stop v
    simp only
    rw [if_neg (by rintro (h | h) <;> [exact hn.1 h; exact hn.2 h])]
    have h3 : (natStr v :: l'.map natStr).mapM toInt = .ok ((v :: l').map fun v : ℕ => (v : ℤ)) := by
      rw [← List.map_cons, List.mapM_map]
      exact mapM_ok (f := fun v : ℕ => toInt (natStr v)) (g := fun v : ℕ => (v : ℤ)) fun v _ => toInt_natStr v
    rw [h3, ok_bind, ih fun l hl => hr l (by simp [hl])]
    simp

/-- The rows of a table. -/
def tableRows (data : List ℕ) : List (List ℕ) :=
  (npSplit data (cumsum (List.replicate (data.length / 20) 20))).filter (· ≠ [])

theorem tableRows_ne (data : List ℕ) : ∀ l ∈ tableRows data, l ≠ [] := by
  intro l hl
  simpa using (List.mem_filter.1 hl).2

theorem tableRows_flatten (data : List ℕ) : (tableRows data).flatten = data := by
  have : ((npSplit data (cumsum (List.replicate (data.length / 20) 20))).filter (fun x => decide (x ≠ []))).flatten =
      (npSplit data (cumsum (List.replicate (data.length / 20) 20))).flatten := by
    have h := List.flatten_filter_ne_nil (L := npSplit data (cumsum (List.replicate (data.length / 20) 20)))
    simpa using h
  rw [tableRows, this, table_flatten]

/-- The first word of a group. -/
def groupWord : FlacFlag → Str
  | .zone => "ZGROUP".toList
  | .face => "FGROUP".toList

theorem words_groupLine (flag : FlacFlag) {name : Str} (h : ∀ c ∈ name, isSpace c = false) :
    words (groupWord flag ++ " \"".toList ++ name ++ "\"\n".toList) = [groupWord flag, '"' :: (name ++ ['"'])] := by
  have e : groupWord flag ++ " \"".toList ++ name ++ "\"\n".toList =
      joinWith ' ' [groupWord flag, '"' :: (name ++ ['"'])] ++ ['\n'] := by
    simp [joinWith]
  rw [e]
  refine words_join ?_ (by simp; decide)
  intro t ht
  simp only [List.mem_cons, List.not_mem_nil, or_false] at ht
  rcases ht with rfl | rfl
  · cases flag <;> exact ⟨by decide, by decide⟩
  · refine ⟨by simp, ?_⟩
    intro c hc
    simp only [List.mem_cons, List.mem_append, List.not_mem_nil, or_false] at hc
    rcases hc with rfl | hc | rfl
    · decide
    · exact h c hc
    · decide

/-- A group with the rows of its table. -/
theorem consumes_groupRows (flag : FlacFlag) {name : Str} (h : ∀ c ∈ name, isSpace c = false ∧ c ≠ '"')
    {rows : List (List ℕ)} (hne : ∀ l ∈ rows, l ≠ []) :
    Consumes Stop ((groupWord flag ++ " \"".toList ++ name ++ "\"\n".toList) :: rows.map fun l => ' ' :: spacedLine (l.map natStr))
      [.group flag name [] (rows.flatten.map fun v : ℕ => (v : ℤ))] := by
  refine ⟨1, by simp, fun n rest s hr => ?_⟩
  rw [Nat.add_comm, List.cons_append, flacLoop, nextLine]
  simp only [words_rstrip, words_groupLine flag fun c hc => (h c hc).1]
  have h1 : rowAt ['"' :: (name ++ ['"'])] 0 = .ok ('"' :: (name ++ ['"'])) := rfl
  have h2 : unquote ('"' :: (name ++ ['"'])) = name := by
    have : '"' :: (name ++ ['"']) = ['"'] ++ (name ++ ['"']) := rfl
    rw [this, unquote_append, unquote_append, unquote_eq_self fun c hc => (h c hc).2]
    simp [unquote]
  have h3 : flacSlot [groupWord flag, '"' :: (name ++ ['"'])] = [] := by
    rw [flacSlot, if_neg]
    intro hm
    simp only [List.mem_cons, List.not_mem_nil, or_false] at hm
    rcases hm with hm | hm
    · cases flag <;> exact absurd hm (by decide)
    · exact absurd (List.cons.inj hm).1 (by decide)
  cases flag with
  | zone =>
    rw [if_neg (by decide), if_neg (by decide), if_pos (by decide), h1, ok_bind, flacData_rows hne hr, ok_bind, h2,
      h3, if_pos (by decide)]
    simp only [List.foldlM_cons, List.foldlM_nil, bind_pure]
    rfl
  | face =>
    rw [if_neg (by decide), if_neg (by decide), if_pos (by decide), h1, ok_bind, flacData_rows hne hr, ok_bind, h2,
      h3, if_neg (by decide)]
    simp only [List.foldlM_cons, List.foldlM_nil, bind_pure]
    rfl

theorem consumes_group (flag : FlacFlag) {name : Str} (h : ∀ c ∈ name, isSpace c = false ∧ c ≠ '"')
    (data : List ℕ) :
    Consumes Stop ((groupWord flag ++ " \"".toList ++ name ++ "\"\n".toList) :: flacTable data)
      [.group flag name [] (data.map fun v : ℕ => (v : ℤ))] := by
  have := consumes_groupRows flag h (tableRows_ne data)
  rw [tableRows_flatten] at this
  exact this

theorem consumes_zoneGroups {gs : List (Str × List ℕ)} (h : ∀ g ∈ gs, ∀ c ∈ g.1, isSpace c = false ∧ c ≠ '"') :
    Consumes Stop (gs.flatMap fun g => (groupWord .zone ++ " \"".toList ++ g.1 ++ "\"\n".toList) :: flacTable g.2)
      (groupRecs .zone [] (gs.map fun g => (g.1, g.2.map fun v : ℕ => (v : ℤ)))) := by
  induction gs with
  | nil => exact Consumes.nil _
  | cons g gs ih =>
    have hg := consumes_group .zone (h g (by simp)) g.2
    refine hg.append (ih fun g hg => h g (by simp [hg])) fun rest hr => ?_
    cases gs with
    | nil => exact hr
    | cons g' gs =>
      refine ⟨_, _, words_groupLine .zone fun c hc => (h g' (by simp) c hc).1, .inr rfl⟩

theorem consumes_faceGroups {gs : List (Str × List ℕ)} (h : ∀ g ∈ gs, ∀ c ∈ g.1, isSpace c = false ∧ c ≠ '"')
    (hl : gs.length ≤ 1) :
    Consumes Stop (gs.flatMap fun g => (groupWord .face ++ " \"".toList ++ g.1 ++ "\"\n".toList) :: flacTable g.2)
      (groupRecs .face [] (gs.map fun g => (g.1, g.2.map fun v : ℕ => (v : ℤ)))) := by
  match gs, hl with
  | [], _ => exact Consumes.nil _
  | [g], _ =>
    have := consumes_group .face (h g (by simp)) g.2
    simpa [groupRecs] using this

/-! ### files -/

theorem flacMaterial_eq (m : FlacMesh) : flacMaterial m = materialOfCells m := by
  rw [flacMaterial, materialOfCells, ← List.head?_filter]
  have : m.cellData.filter (fun e => decide (e.1 ∈ materialKeys)) =
      m.cellData.filter fun e => decide (IsMaterialName e.1) := by
    apply List.filter_congr
    intro e _
    simp only [mem_materialKeys]
  rw [this]
  cases m.cellData.filter fun e => decide (IsMaterialName e.1) <;> rfl

theorem materialOfCells_length {m : FlacMesh} {mat : List ℤ} (h : FlacOk m) (hm : materialOfCells m = some mat) :
    mat.length = (typedCells m.cells).length := by
  rw [materialOfCells] at hm
  split at hm
  · cases hm
  · next e r he =>
    cases hm
    exact h.lengths e (List.mem_filter.1 (he ▸ List.mem_cons_self)).1

theorem flacCheck_ok {m : FlacMesh} (h : FlacOk m) : flacCheck m = .ok () := by
  rw [flacCheck, if_neg, if_pos]
  · rw [List.any_eq_true]
    obtain ⟨b, hb, hd⟩ := h.cells
    refine ⟨b, hb, ?_⟩
    rw [flacType_solid]
    rw [dimOf] at hd
    cases hs : solidType b.type with
    | none => rw [hs] at hd; simp at hd
    | some e =>
      obtain ⟨d, t, n⟩ := e
      rw [hs] at hd
      simp only [Option.map_some, Option.getD_some] at hd
      simp [hd, FlacFlag.dim]
  · intro hc
    obtain ⟨e, he, hne⟩ := List.any_eq_true.1 hc
    rw [← typedCells_length] at hne
    exact absurd (h.lengths e he) (by simpa using hne)

theorem read_consumed {ls : List Str} {recs : List FRec} (h : Consumes Stop ls recs) :
    readFlac ls = (recs.foldlM FlacState.step {} >>= FlacState.finish) := by
  obtain ⟨k, hk, h⟩ := h
  have h1 := h (ls.length - k + 1) [] {} trivial
  rw [List.append_nil, show k + (ls.length - k + 1) = ls.length + 1 from by omega] at h1
  rw [readFlac, h1]
  cases recs.foldlM FlacState.step {} with
  | error e => rfl
  | ok s => rfl

/-- The groups that a file contains. -/
def fileGroups (m : FlacMesh) (flag : FlacFlag) : List (Str × List ℤ) :=
  match materialOfCells m with
  | none => []
  | some mat => readGroups (groupName m.fieldData flag.dim) (flacGroups m.cells mat flag)

theorem consumes_groupLines {m : FlacMesh} (flag : FlacFlag)
    (hg : ∀ mat, materialOfCells m = some mat → TextGroupsOk m mat) :
    Consumes Stop (flacGroupLines m flag) (groupRecs flag [] (fileGroups m flag)) ∧
      ∀ rest, Stop rest → Stop (flacGroupLines m flag ++ rest) := by
  unfold flacGroupLines fileGroups
  rw [flacMaterial_eq]
  cases hm : materialOfCells m with
  | none => exact ⟨Consumes.nil _, fun _ h => h⟩
  | some mat =>
    have ok := hg mat hm
    have hp := flacGroups_partition mat flag ok.known
    have hname : ∀ g ∈ (flacGroups m.cells mat flag).map fun g => (flacLabel m.fieldData flag g.1, g.2),
        ∀ c ∈ g.1, isSpace c = false ∧ c ≠ '"' := by
      intro g hg c hc
      obtain ⟨g', hg', rfl⟩ := List.mem_map.1 hg
      refine ok.words (flag.dim, g'.1) (key_of_group hp (List.mem_map.2 ⟨g', hg', rfl⟩)) c ?_
      rw [← flacLabel_eq]
      exact hc
    have hrecs : readGroups (groupName m.fieldData flag.dim) (flacGroups m.cells mat flag) =
        ((flacGroups m.cells mat flag).map fun g => (flacLabel m.fieldData flag g.1, g.2)).map fun g =>
          (g.1, g.2.map fun v : ℕ => (v : ℤ)) := by
      rw [readGroups, List.map_map]
      apply List.map_congr_left
      intro g _
      simp [flacLabel_eq]
    simp only [hrecs]
    refine ⟨?_, ?_⟩
    · cases flag with
      | zone =>
        have h1 := Consumes.comment (l := "* ZONE GROUPS\n".toList) (words_star "ZONE GROUPS".toList)
        have h2 := consumes_zoneGroups hname
        have h3 := h1.append h2 fun _ _ => trivial
        rw [List.flatMap_map] at h3
        exact h3
      | face =>
        have h1 := Consumes.comment (l := "* FACE GROUPS\n".toList) (words_star "FACE GROUPS".toList)
        suffices hlen : ((flacGroups m.cells mat .face).map fun g => (flacLabel m.fieldData .face g.1, g.2)).length ≤ 1 by
          have h2 := consumes_faceGroups hname hlen
          have h3 := h1.append h2 fun _ _ => trivial
          rw [List.flatMap_map] at h3
          exact h3
        rw [List.length_map]
        have hn := hp.keys
        have hk : ∀ k ∈ (flacGroups m.cells mat .face).map (·.1), ∀ k' ∈ (flacGroups m.cells mat .face).map (·.1), k = k' :=
          fun k hk k' hk' => (Prod.mk.inj (ok.single _ (key_of_group hp hk) _ (key_of_group hp hk') rfl rfl)).2
        rw [← List.length_map (f := fun x : ℤ × List ℕ => x.1)]
        revert hn hk
        generalize (flacGroups m.cells mat .face).map (·.1) = ks
        intro hn hk
        match ks, hn, hk with
        | [], _, _ => simp
        | [_], _, _ => simp
        | a :: b :: _, hn, hk =>
          have := hk a (by simp) b (by simp)
          subst this
          simp at hn
    · intro rest _
      cases flag with
      | zone => exact ⟨_, _, words_star "ZONE GROUPS".toList, .inl rfl⟩
      | face => exact ⟨_, _, words_star "FACE GROUPS".toList, .inl rfl⟩

theorem read_groups_recs {m : FlacMesh} (h : FlacOk m) (hg : ∀ mat, materialOfCells m = some mat → GroupsOk m mat)
    {xs : List (List Flt)} (slot : Str) {zs fs : List (CellType × List ℕ)} (hx : ∀ x ∈ xs, x.length = 3)
    (hz : ∀ e ∈ zs, CellWritten .zone xs.length e.1 e.2) (hf : ∀ e ∈ fs, CellWritten .face xs.length e.1 e.2)
    (hzl : zs.length = (cornersOf 3 m.cells).length) (hfl : fs.length = (cornersOf 2 m.cells).length) :
    ∃ r, ((allRecs xs zs fs slot (fileGroups m .zone) (fileGroups m .face)).foldlM FlacState.step {} >>=
        FlacState.finish) = .ok r ∧ r.points = xs ∧
      typedCells r.cells = (zs ++ fs).map (fun e => (e.1, perm (flacOrderBack e.1) e.2)) ∧
      (∀ b ∈ r.cells, b.data ≠ []) ∧ (r.cells.IsChain fun a b => a.type ≠ b.type) ∧ SameGroups m r := by
  have hz' : ∀ e ∈ zs, flacCount .zone e.2.length = .ok e.1 ∧ ∀ v ∈ e.2, v < xs.length :=
    fun e he => ⟨(hz e he).count, (hz e he).vertices⟩
  have hf' : ∀ e ∈ fs, flacCount .face e.2.length = .ok e.1 ∧ ∀ v ∈ e.2, v < xs.length :=
    fun e he => ⟨(hf e he).count, (hf e he).vertices⟩
  cases hm : materialOfCells m with
  | none =>
    obtain ⟨s, cells, h1, h2, h3, h4, h5⟩ := read_recs (zg := []) (fg := []) slot hx hz' hf' (by simp) (by simp)
      (by simp) (by simp) (by simp) (fun _ => 0) (fun h => absurd rfl h) (fun h => absurd rfl h) (fun h => absurd rfl h)
    refine ⟨⟨xs, cells, none, []⟩, ?_, ?_, h3, h4, h5, ?_⟩
    · simp only [fileGroups, hm]
      rw [h1, ok_bind, h2]
      rfl
    · rfl
    · rw [SameGroups, hm]
      exact ⟨rfl, rfl⟩
  | some mat =>
    have hl := materialOfCells_length h hm
    obtain ⟨z, hr, hd, he⟩ := groups_ready hl (hg mat hm)
    rw [← hzl, ← hfl] at hr hd
    have e1 : fileGroups m .zone = flacZoneGroups m mat := by simp only [fileGroups, hm]; rfl
    have e2 : fileGroups m .face = flacFaceGroups m mat := by simp only [fileGroups, hm]; rfl
    obtain ⟨s, cells, h1, h2, h3, h4, h5⟩ := read_recs slot hx hz' hf' hr.zd hr.fd hr.zk hr.fk hr.names z
      (fun _ => hr.zz) (fun _ => hr.ff) (by
        intro hne hnil
        apply hne
        rw [he, ← List.length_eq_zero_iff, hl]
        have hD := congrArg List.length (dims_sorted (hg mat hm))
        rw [dimsOf] at hD
        simp only [List.length_map, List.length_append, List.length_replicate] at hD
        have := congrArg List.length hnil
        simp only [List.length_append, List.length_nil] at this
        omega)
    refine ⟨⟨xs, cells, if flacZoneGroups m mat ++ flacFaceGroups m mat = [] then none
      else some ((List.range (zs.length + fs.length)).map z), readFields (flacZoneGroups m mat) (flacFaceGroups m mat)⟩, ?_, ?_,
      h3, h4, h5, ?_⟩
    · rw [e1, e2, h1, ok_bind, h2]
    · rfl
    · rw [SameGroups, hm]
      simp only
      by_cases hmat : mat = []
      · rw [if_pos hmat, if_pos (he.2 hmat)]
        have := List.append_eq_nil_iff.1 (he.2 hmat)
        refine ⟨rfl, ?_⟩
        rw [this.1, this.2]
        rfl
      · rw [if_neg hmat, if_neg fun hc => hmat (he.1 hc)]
        exact ⟨_, rfl, hd⟩

theorem writeFlac_read (p : ℕ) (pos : P3 Flt → P3 Flt → P3 Flt → P3 Flt → Bool) (version date : Str) {m : FlacMesh}
    (h : FlacOk m) (hg : ∀ mat, materialOfCells m = some mat → TextGroupsOk m mat) :
    ∃ ls r, writeFlac p pos version date m = .ok ls ∧ readFlac ls = .ok r ∧ SameMesh (quant p) pos m r ∧
      SameGroups m r := by
  obtain ⟨zb, hz1, hz2, hz3, hz4⟩ := translate_zones pos h
  obtain ⟨fb, hf1, hf2, hf3⟩ := translate_faces pos h
  have hzl : (cellList zb).length = (cornersOf 3 m.cells).length := by
    have := hz3.length_eq
    rw [List.length_map] at this
    exact this.symm
  have hfl : (cellList fb).length = (cornersOf 2 m.cells).length := by
    rw [← hf3, List.length_map]
  have hcount : nCells (flacBlocks .zone m.cells) = (cellList zb).length := by
    rw [← hz4, ← typedCells_length]
    rfl
  obtain ⟨lz, hlz1, hlz2⟩ := consumes_cells .zone hz2 0
  obtain ⟨lf, hlf1, hlf2⟩ := consumes_cells .face hf2 (cellList zb).length
  have hzones : flacCellLines pos m.points m.cells .zone = .ok ("* ZONES\n".toList :: lz) := by
    rw [flacCellLines, hz1, ok_bind]
    simp only
    rw [hlz1]
    rfl
  have hfaces : flacCellLines pos m.points m.cells .face = .ok ("* FACES\n".toList :: lf) := by
    rw [flacCellLines, hf1, ok_bind]
    simp only [hcount]
    rw [hlf1]
    rfl
  obtain ⟨hgz1, hgz2⟩ := consumes_groupLines .zone hg
  obtain ⟨hgf1, hgf2⟩ := consumes_groupLines .face hg
  have hfinal : Consumes Stop (("* FLAC3D grid produced by toughio v".toList ++ version ++ ['\n']) ::
      ("* ".toList ++ date ++ ['\n']) :: "* GRIDPOINTS\n".toList :: (m.points.zipIdx.map (flacPointLine p) ++
      (("* ZONES\n".toList :: lz) ++ (flacGroupLines m .zone ++ (("* FACES\n".toList :: lf) ++
        flacGroupLines m .face)))))
      (allRecs (m.points.map (readPoint p)) (cellList zb) (cellList fb) [] (fileGroups m .zone) (fileGroups m .face)) := by
    have t : ∀ rest : List Str, Stop rest → True := fun _ _ => trivial
    have hF : Consumes Stop (("* FACES\n".toList :: lf) ++ flacGroupLines m .face)
        (cellRecs .face (cellList zb).length (cellList fb) ++ groupRecs .face [] (fileGroups m .face)) := by
      have h0 := Consumes.comment (l := "* FACES\n".toList) (words_star "FACES".toList)
      exact (h0.append (hlf2.append hgf1 t) t)
    have hFstop : ∀ rest, Stop rest → Stop ((("* FACES\n".toList :: lf) ++ flacGroupLines m .face) ++ rest) :=
      fun rest _ => ⟨_, _, words_star "FACES".toList, .inl rfl⟩
    have hZ := (Consumes.comment (l := "* ZONES\n".toList) (words_star "ZONES".toList)).append
      (hlz2.append (hgz1.append hF hFstop) t) t
    have hP := (Consumes.comment (l := "* GRIDPOINTS\n".toList) (words_star "GRIDPOINTS".toList)).append
      ((consumes_points p m.points).append hZ t) t
    have hD := (Consumes.comment (l := "* ".toList ++ date ++ ['\n']) (words_star date)).append hP t
    have hV := (Consumes.comment (l := "* FLAC3D grid produced by toughio v".toList ++ version ++ ['\n'])
      (words_star ("FLAC3D grid produced by toughio v".toList ++ version))).append hD t
    exact hV
  obtain ⟨r, hr1, hr2, hr3, hr4, hr5, hr6⟩ := read_groups_recs h (fun mat hm => (hg mat hm).toGroupsOk) []
    (xs := m.points.map (readPoint p)) (zs := cellList zb) (fs := cellList fb) (by
      intro x hx
      obtain ⟨q, _, rfl⟩ := List.mem_map.1 hx
      rfl) (by rw [List.length_map]; exact hz2) (by rw [List.length_map]; exact hf2) hzl hfl
  have hread := read_consumed hfinal
  rw [hr1] at hread
  refine ⟨_, r, ?_, hread, ⟨hr2, ⟨_, ?_, hz3⟩, hr4, hr5⟩, hr6⟩
  · rw [writeFlac, flacCheck_ok h, ok_bind, hzones, ok_bind, hfaces, ok_bind]
  · rw [hr3, List.map_append, hf3]

end Verif.Mesh
