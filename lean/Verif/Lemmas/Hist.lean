import Verif.Spec.Hist
import Verif.Lemmas.Indom

/-! Helper lemmas for TIMES, FOFT, COFT, GOFT, DIFFU and OUTPU. -/

set_option linter.unusedSimpArgs false

namespace Verif.Model
open Verif.Py Verif.Spec

theorem readTable_done (fmt : List Tok) (n : ℤ) (acc : List Val) (ls : List Str)
    (h : n ≤ acc.length) : readTable fmt n acc ls = .ok (acc, ls) := by
  cases ls <;> simp [readTable, not_lt.2 h]

theorem readTable_chunks (k : ℕ) {w p : ℕ} (hk : 0 < k) (hw : width (List.replicate k (eCol w p)) ≤ 80)
    (l : List Val) (hl : ∀ v ∈ l, IsNumber v ∧ Fits (eCol w p) v) (acc : List Val) (n : ℤ)
    (hn : n = acc.length + l.length) (rest : List Str) :
    readTable (List.replicate k (eCol w p)) n acc
      ((chunks k l).map (lineOf (List.replicate k (eCol w p))) ++ rest) =
        .ok (acc ++ l.map (num p), rest) := by
  induction l using chunks_induction k hk generalizing acc with
  | h0 =>
    rw [chunks_nil k hk]
    simpa using readTable_done _ n acc rest (by simp at hn; omega)
  | h1 l hne ih =>
    rw [chunks_cons k hk l hne, List.map_cons, List.cons_append, readTable]
    have hlen : 0 < l.length := List.length_pos_iff.2 hne
    rw [if_pos (by omega), readRow k hw (by simp) fun v hv => (hl v (List.mem_of_mem_take hv)).2]
    simp only
    rw [pruneRow p _ fun v hv => (hl v (List.mem_of_mem_take hv)).1,
      ih (fun v hv => hl v (List.mem_of_mem_drop hv)) _ (by simp [hn]; omega)]
    rw [List.append_assoc, ← List.map_append, List.take_append_drop]

theorem chunks_one {α : Type} (l : List α) : chunks 1 l = l.map fun a => [a] := by
  induction l with
  | nil => exact chunks_nil 1 (by norm_num)
  | cons a l ih => rw [chunks_cons 1 (by norm_num) _ (by simp)]; simp [ih]

theorem mapM_map {α β γ : Type} (f : β → Except PyErr γ) (g : α → β) (l : List α) :
    (l.map g).mapM f = l.mapM fun a => f (g a) := by
  induction l with
  | nil => rfl
  | cons a l ih => simp only [List.map_cons, List.mapM_cons, ih]

theorem rstrip_recLine (w : ℕ) (s : Str) : rstrip (recLine (padRight w s)) = rstrip s := by
  unfold recLine padRight
  rw [rstrip_append_spaces (by simp; decide), rstrip_append_spaces (blanks_space _),
    rstrip_append_spaces (blanks_space _)]

theorem strip_recLine (s : Str) : strip (recLine s) = strip s := by
  unfold recLine padRight
  rw [strip_append_spaces (by simp; decide), strip_append_spaces (blanks_space _)]

/-! ### letters -/

theorem char_of_toNat (c : Char) (P : Char → Prop) (lo hi : ℕ) (h1 : lo ≤ c.toNat) (h2 : c.toNat ≤ hi)
    (h : ∀ i : Fin (hi - lo + 1), P (Char.ofNat (lo + i))) : P c := by
  have := h ⟨c.toNat - lo, by omega⟩
  rwa [show lo + (c.toNat - lo) = c.toNat by omega, Char.ofNat_toNat] at this

theorem upperC_space (c : Char) : isSpace (upperC c) = isSpace c := by
  unfold upperC
  split
  · rename_i h
    have h' : 97 ≤ c.toNat ∧ c.toNat ≤ 122 := by simpa using h
    exact char_of_toNat c (fun c => isSpace (Char.ofNat (c.toNat - 32)) = isSpace c) 97 122
      h'.1 h'.2 (by decide)
  · rfl

theorem upperC_digit (c : Char) : isDigit (upperC c) = isDigit c := by
  unfold upperC
  split
  · rename_i h
    have h' : 97 ≤ c.toNat ∧ c.toNat ≤ 122 := by simpa using h
    exact char_of_toNat c (fun c => isDigit (Char.ofNat (c.toNat - 32)) = isDigit c) 97 122
      h'.1 h'.2 (by decide)
  · rfl

theorem lowerC_upperC (c : Char) : lowerC (upperC c) = lowerC c := by
  unfold upperC
  split
  · rename_i h
    have h' : 97 ≤ c.toNat ∧ c.toNat ≤ 122 := by simpa using h
    exact char_of_toNat c (fun c => lowerC (Char.ofNat (c.toNat - 32)) = lowerC c) 97 122
      h'.1 h'.2 (by decide)
  · rfl

theorem lower_upper (s : Str) : lower (upper s) = lower s := by
  simp [lower, upper, lowerC_upperC, Function.comp_def]

theorem dropWhile_upper (s : Str) : (upper s).dropWhile isSpace = upper (s.dropWhile isSpace) := by
  induction s with
  | nil => rfl
  | cons c s ih =>
    simp only [upper, List.map_cons, List.dropWhile_cons, upperC_space] at ih ⊢
    split
    · exact ih
    · rfl

theorem strip_upper (s : Str) : strip (upper s) = upper (strip s) := by
  have h1 : ∀ s : Str, (upper s).reverse = upper s.reverse := by intro s; simp [upper]
  unfold strip rstrip lstrip
  rw [dropWhile_upper, h1, dropWhile_upper, h1]

theorem strIsDigit_upper (s : Str) : strIsDigit (upper s) = strIsDigit s := by
  simp [strIsDigit, upper, List.all_map, Function.comp_def, upperC_digit]

theorem textFits_upper {w : ℕ} {s : Str} (h : TextFits w s) : TextFits w (upper s) :=
  ⟨by simpa [upper] using h.1, by simpa [upper] using h.2.1, by rw [strip_upper, h.2.2]⟩

/-! ### OUTPU -/

/-- A variable line. -/
def varLine (n : Str) (r : List Val) : Str := lineOf Fmt.outpu3 (.str (upper n) :: r)

theorem allFit_var {n : Str} {r : List Val} (hn : TextFits 20 n) (hr : RowOk r) :
    AllFit Fmt.outpu3 (.str (upper n) :: r) := by
  have := textFits_upper hn
  refine ⟨⟨this.2.1, this.2.2⟩, allFit_replicate 2 (dCol 5) r fun v hv => fits_int5 (hr.2 v hv)⟩

theorem read_varLine {n : Str} {r : List Val} (hn : TextFits 20 n) (hr : RowOk r) :
    readRecord Fmt.outpu3 (varLine n r) =
      .ok (.str (upper n) :: (r ++ List.replicate (2 - r.length) .none)) := by
  rw [varLine, readRecord_lineOf (by decide) (allFit_var hn hr)]
  show Except.ok (stored (sCol 20) (.str (upper n)) ::
    storedAll (List.replicate 2 (dCol 5)) r) = _
  rw [storedAll_replicate 2 (dCol 5) r hr.1]
  have h1 : stored (sCol 20) (.str (upper n)) = .str (upper n) := by
    simp [stored, (textFits_upper hn).1]
  have h2 : r.map (stored (dCol 5)) = r := by
    conv_rhs => rw [← List.map_id r]
    exact List.map_congr_left fun v hv => stored_int5 (hr.2 v hv)
  rw [h1, h2]
  rfl

theorem outpuVar_varLine {n : Str} {r : List Val} (hn : TextFits 20 n) (hr : RowOk r)
    (s : List (Str × List (List Val))) (rest : List Str) :
    outpuVar s (varLine n r :: rest) =
      .ok (dictSet s (lower n) ((s.lookup (lower n)).getD [] ++ [dropTrailing r]), rest) := by
  simp only [outpuVar, next_cons, ok_bind, read_varLine hn hr, entry, List.getD_cons_zero,
    List.drop_succ_cons, List.drop_zero, pruneNones_eq, dropTrailing_append_none, lower_upper]

theorem outpuVars_add (a b : ℕ) (s : List (Str × List (List Val))) (ls : List Str) :
    outpuVars (a + b) s ls = (outpuVars a s ls >>= fun x => outpuVars b x.1 x.2) := by
  induction a generalizing s ls with
  | zero => simp [outpuVars]
  | succ a ih =>
    rw [show a + 1 + b = (a + b) + 1 by omega]
    simp only [outpuVars]
    cases h : outpuVar s ls with
    | error e => rfl
    | ok x => simp only [ok_bind, ih]

theorem lookup_snoc {κ β : Type} [BEq κ] [LawfulBEq κ] (s : List (κ × β)) (k : κ) (v : β)
    (h : k ∉ s.map (·.1)) : (s ++ [(k, v)]).lookup k = some v := by
  induction s with
  | nil => simp [List.lookup]
  | cons e s ih =>
    simp only [List.map_cons, List.mem_cons, not_or] at h
    rw [List.cons_append, List.lookup_cons, show (k == e.1) = false by simpa using h.1]
    exact ih h.2

theorem lookup_none {κ β : Type} [BEq κ] [LawfulBEq κ] (s : List (κ × β)) (k : κ)
    (h : k ∉ s.map (·.1)) : s.lookup k = none := by
  induction s with
  | nil => rfl
  | cons e s ih =>
    simp only [List.map_cons, List.mem_cons, not_or] at h
    rw [List.lookup_cons, show (k == e.1) = false by simpa using h.1]
    exact ih h.2

theorem dictSet_snoc {κ β : Type} [DecidableEq κ] (s : List (κ × β)) (k : κ) (v w : β)
    (h : k ∉ s.map (·.1)) : dictSet (s ++ [(k, v)]) k w = s ++ [(k, w)] := by
  induction s with
  | nil => simp [dictSet]
  | cons e s ih =>
    simp only [List.map_cons, List.mem_cons, not_or] at h
    simp only [List.cons_append, dictSet, if_neg (Ne.symm h.1), ih h.2]

theorem outpuVars_more {n : Str} (hn : TextFits 20 n) (rows : List (List Val))
    (hr : ∀ r ∈ rows, RowOk r) (s : List (Str × List (List Val))) (acc : List (List Val))
    (hx : lower n ∉ s.map (·.1)) (rest : List Str) :
    outpuVars rows.length (s ++ [(lower n, acc)]) (rows.map (varLine n) ++ rest) =
      .ok (s ++ [(lower n, acc ++ rows.map dropTrailing)], rest) := by
  induction rows generalizing acc with
  | nil => simp [outpuVars]
  | cons r rows ih =>
    simp only [List.length_cons, outpuVars, List.map_cons, List.cons_append,
      outpuVar_varLine hn (hr r (by simp)), ok_bind, lookup_snoc s _ _ hx, Option.getD_some,
      dictSet_snoc s _ _ _ hx, ih (fun r h => hr r (by simp [h]))]
    simp

theorem outpuVars_first {n : Str} (hn : TextFits 20 n) (rows : List (List Val)) (hne : rows ≠ [])
    (hr : ∀ r ∈ rows, RowOk r) (s : List (Str × List (List Val)))
    (hx : lower n ∉ s.map (·.1)) (rest : List Str) :
    outpuVars rows.length s (rows.map (varLine n) ++ rest) =
      .ok (s ++ [(lower n, rows.map dropTrailing)], rest) := by
  cases rows with
  | nil => exact absurd rfl hne
  | cons r rows =>
    have := outpuVars_more hn rows (fun r h => hr r (by simp [h])) s [dropTrailing r] hx rest
    simp only [List.length_cons, outpuVars, List.map_cons, List.cons_append,
      outpuVar_varLine hn (hr r (by simp)), ok_bind, lookup_none s _ hx, Option.getD_none,
      List.nil_append, dictSet_of_notMem _ _ _ hx, this]

/-- The rows of the arguments of a variable. -/
def rowsOfArgs : Args → List (List Val)
  | .one v => [[v]]
  | .list l => [l]
  | .rows l => l

theorem rowsOfArgs_ok {a : Args} (h : ArgsOk a) :
    argRows a = .ok (rowsOfArgs a) ∧ rowsOfArgs a ≠ [] ∧ (∀ r ∈ rowsOfArgs a, RowOk r) ∧
      (rowsOfArgs a).length = argCount a ∧
      argsOf ((rowsOfArgs a).map dropTrailing) = argsBack a := by
  have hrow : ∀ r, argsOf [dropTrailing r] = rowBack r := by
    intro r
    unfold rowBack
    generalize dropTrailing r = l
    rcases l with _ | ⟨a, _ | ⟨b, l⟩⟩ <;> rfl
  cases a with
  | one v =>
    refine ⟨rfl, by simp [rowsOfArgs], ?_, rfl, ?_⟩
    · simp only [rowsOfArgs, List.mem_singleton, forall_eq]
      exact ⟨by simp, by simpa using (show Int5 v from h)⟩
    · rw [rowsOfArgs, List.map_singleton, hrow]
      cases v <;> rfl
  | list l =>
    obtain ⟨h1, h2⟩ := h
    refine ⟨?_, by simp [rowsOfArgs], by simpa [rowsOfArgs] using h2, rfl, ?_⟩
    · cases l with
      | nil => exact absurd rfl h1
      | cons a l => rfl
    · rw [rowsOfArgs, List.map_singleton, hrow]; rfl
  | rows l =>
    obtain ⟨h1, h2⟩ := h
    refine ⟨?_, h1, h2, rfl, ?_⟩
    · cases l with
      | nil => exact absurd rfl h1
      | cons a l => rfl
    · rcases l with _ | ⟨r, _ | ⟨r', l⟩⟩
      · exact absurd rfl h1
      · rw [rowsOfArgs, List.map_singleton, hrow]; rfl
      · simp [rowsOfArgs, argsOf, argsBack]

/-- The lines of all variables. -/
def varLines (e : Str × Args) : List Str := (rowsOfArgs e.2).map (varLine e.1)

theorem writeVar_eq {e : Str × Args} (h1 : TextFits 20 e.1) (h2 : ArgsOk e.2) :
    writeVar e = .ok (varLines e) := by
  obtain ⟨g1, -, g3, -, -⟩ := rowsOfArgs_ok h2
  unfold writeVar
  rw [g1, ok_bind]
  exact mapM_ok fun r hr => writeRecord_eq (allFit_var h1 (g3 r hr))

theorem outpuVars_all (vars : List (Str × Args)) (hv : ∀ e ∈ vars, TextFits 20 e.1 ∧ ArgsOk e.2)
    (s : List (Str × List (List Val)))
    (hn : (s.map (·.1) ++ vars.map fun e => lower e.1).Nodup) (rest : List Str) :
    outpuVars (vars.flatMap varLines).length s (vars.flatMap varLines ++ rest) =
      .ok (s ++ vars.map (fun e => (lower e.1, (rowsOfArgs e.2).map dropTrailing)), rest) := by
  induction vars generalizing s with
  | nil => simp [outpuVars]
  | cons e vars ih =>
    obtain ⟨h1, h2⟩ := hv e (by simp)
    obtain ⟨-, g2, g3, -, -⟩ := rowsOfArgs_ok h2
    have hx : lower e.1 ∉ s.map (·.1) := by
      intro h
      have := List.disjoint_of_nodup_append hn h
      simp at this
    rw [List.flatMap_cons, List.length_append, List.append_assoc, outpuVars_add]
    have hlen : (varLines e).length = (rowsOfArgs e.2).length := by simp [varLines]
    rw [hlen, varLines, outpuVars_first h1 _ g2 g3 s hx, ok_bind]
    rw [ih (fun e h => hv e (by simp [h]))]
    · simp
    · simpa using hn

end Verif.Model
