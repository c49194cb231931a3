import Verif.Lemmas.Labels

/-! Helper lemmas: the GENER block. -/

set_option linter.unusedSimpArgs false

namespace Verif.Model
open Verif.Py Verif.Spec

/-- The format of the first record. -/
def generFmt (L : ℕ) : List Tok :=
  [sCol L, sCol 5, dCol (seqWidths L).1, dCol (seqWidths L).2.1, dCol (seqWidths L).2.2, dCol 5,
    sCol 5, sCol 4, dCol 1, eCol 10 3, eCol 10 3, eCol 10 3]

theorem formatFor_gener {L : ℕ} (h : 5 ≤ L ∧ L ≤ 9) :
    formatFor Fmt.gener L = .ok (generFmt L) ∧ width (generFmt L) ≤ 80 := by
  obtain ⟨h1, h2⟩ := h
  interval_cases L <;> exact ⟨rfl, by decide⟩

/-- The number of lines of the table. -/
def ltabSpec (c : Comp) : Option ℕ :=
  match c.times with
  | .one _ => none
  | .many t => some t.length

theorem ltabOf_eq {c : Comp} (h : AmountsFit c) : ltabOf c = .ok (ltabSpec c) := by
  obtain ⟨_, _, _, _, _, t, r, e, _⟩ := c
  unfold AmountsFit at h
  unfold ltabOf ltabSpec
  cases t with
  | one t =>
    obtain ⟨-, h1, h2⟩ := h
    cases r <;> cases e <;> simp_all [ConstFits, scalarCheck]
  | many t =>
    obtain ⟨h0, -, -, h1, h2⟩ := h
    cases r with
    | one r => simp [TableFits] at h1
    | many r =>
      have hr : tableCheck t.length (.many r) = .ok () := by simp [tableCheck, h0, h1.1]
      rcases h2 with h2 | h2
      · simp_all [tableCheck]
      · cases e with
        | one e => simp [TableFits] at h2
        | many e =>
          have he : tableCheck t.length (.many e) = .ok () := by simp [tableCheck, h0, h2.1]
          simp [hr, he]

/-- The lines of a table. -/
def tabLines : SoL → List Str
  | .one _ => []
  | .many l => (chunks 4 l).map (lineOf Fmt.gener0)

theorem writeMulti_table {n : ℕ} {l : List Val} (h : TableFits n (.many l)) :
    writeMulti Fmt.gener0 l = .ok (tabLines (.many l)) := by
  have : ∀ c ∈ chunks Fmt.gener0.length l, AllFit Fmt.gener0 c := by
    intro c hc
    obtain ⟨-, -, hm⟩ := mem_chunks _ (by decide) l c hc
    exact allFit_replicate 4 (eCol 14 7) c fun v hv => (h.2 v (hm v hv)).2
  rw [writeMulti_eq this]
  rfl

theorem readTable_table {n : ℕ} {l : List Val} (h : TableFits n (.many l)) (rest : List Str) :
    readTable Fmt.gener0 n [] (tabLines (.many l) ++ rest) = .ok (l.map (num 7), rest) := by
  have := readTable_chunks 4 (w := 14) (p := 7) (by norm_num) (by decide) l h.2 [] n
    (by simp [h.1]) rest
  exact this

/-- All tables of a source. -/
def allTabs (c : Comp) : List Str :=
  match c.times with
  | .one _ => []
  | .many _ => tabLines c.times ++ tabLines c.rates ++ tabLines c.enthalpy

theorem writeTables_eq {c : Comp} (h : AmountsFit c) : writeTables c (ltabSpec c) = .ok (allTabs c) := by
  obtain ⟨_, _, _, _, _, t, r, e, _⟩ := c
  unfold AmountsFit at h
  unfold ltabSpec allTabs
  cases t with
  | one t => rfl
  | many t =>
    obtain ⟨h0, -, h3, h1, h2⟩ := h
    cases r with
    | one r => simp [TableFits] at h1
    | many r =>
      obtain ⟨m, hm⟩ : ∃ m, t.length = m + 1 := ⟨t.length - 1, by omega⟩
      simp only at h1 h2 h3
      simp only [hm, writeTables, writeTable, writeMulti_table h3, writeMulti_table h1, ok_bind]
      rcases h2 with h2 | h2
      · subst h2
        simp [writeEnthalpy, tabLines]
      · cases e with
        | one e => simp [TableFits] at h2
        | many e => simp [writeEnthalpy, writeMulti_table h2]

/-- The lines of one source. -/
def compLines (L : ℕ) (e : Val × Comp) : List Str :=
  lineOf (generFmt L) (generRecord e.1 e.2 (ltabSpec e.2)) :: allTabs e.2

theorem fits_ltab {c : Comp} (h : AmountsFit c) :
    Fits (dCol 5) (ltabVal (ltabSpec c)) := by
  unfold ltabSpec
  unfold AmountsFit at h
  cases ht : c.times with
  | one t => simp [Fits, ltabVal]
  | many t =>
    rw [ht] at h
    exact fits_int5 (fits_count h.2.1)

theorem allFit_gener {L : ℕ} {k : Val} {c : Comp} (hk : NameFits L k) (h : CompFits L c) :
    AllFit (generFmt L) (generRecord k c (ltabSpec c)) := by
  obtain ⟨h1, h2, h3, h4, h5, h6, h7⟩ := h
  refine ⟨fits_name hk, h1, h2, h3, h4, fits_ltab h7, by simp [Fits], h5, ?_, ?_, ?_, h6, trivial⟩
  · cases c.enthalpy with
    | one _ => simp [itabOf, Fits]
    | many _ => simp only [itabOf]; decide
  · unfold ltabSpec
    unfold AmountsFit at h7
    cases ht : c.times with
    | one t =>
      rw [ht] at h7
      obtain ⟨-, ha, -⟩ := h7
      cases hr : c.rates with
      | one r => rw [hr] at ha; exact ha
      | many r => rw [hr] at ha; exact ha.elim
    | many t =>
      rw [ht] at h7
      obtain ⟨m, hm⟩ : ∃ m, t.length = m + 1 := ⟨t.length - 1, by omega⟩
      simp [hm, constantOf, Fits]
  · unfold ltabSpec
    unfold AmountsFit at h7
    cases ht : c.times with
    | one t =>
      rw [ht] at h7
      obtain ⟨-, -, ha⟩ := h7
      cases hr : c.enthalpy with
      | one r => rw [hr] at ha; exact ha
      | many r => rw [hr] at ha; exact ha.elim
    | many t =>
      rw [ht] at h7
      obtain ⟨m, hm⟩ : ∃ m, t.length = m + 1 := ⟨t.length - 1, by omega⟩
      simp [hm, constantOf, Fits]

theorem writeComp_eq {L : ℕ} {e : Val × Comp} (hk : NameFits L e.1) (h : CompFits L e.2) :
    writeComp (generFmt L) e = .ok (compLines L e) := by
  have h7 := h.2.2.2.2.2.2
  simp only [writeComp, ltabOf_eq h7, ok_bind, writeRecord_eq (allFit_gener hk h),
    writeTables_eq h7, compLines]

/-- What one record adds. -/
def tmpOf (c : Comp) : GenAcc where
  name := [(compBack c).name]
  nseq := [(compBack c).nseq]
  nadd := [(compBack c).nadd]
  nads := [(compBack c).nads]
  type := [(compBack c).type]
  thickness := [(compBack c).thickness]
  times := [(compBack c).times]
  rates := [(compBack c).rates]
  enthalpy := if Bare c then none else some [(compBack c).enthalpy]

theorem stored_d (w w' : ℕ) (v : Val) : stored (dCol w) v = stored (dCol w') v := by
  cases v <;> simp [stored]

theorem storedAll_gener {L : ℕ} (k : Val) (c : Comp) (hk : NameFits L k) :
    storedAll (generFmt L) (generRecord k c (ltabSpec c)) =
      [k, (compBack c).name, (compBack c).nseq, (compBack c).nadd, (compBack c).nads,
        stored (dCol 5) (ltabVal (ltabSpec c)), .none, (compBack c).type, stored (dCol 1) (itabOf c.enthalpy),
        num 3 (constantOf (ltabSpec c) c.rates), num 3 (constantOf (ltabSpec c) c.enthalpy),
        (compBack c).thickness] := by
  have h0 : stored (sCol 5) .none = .none := rfl
  simp only [generFmt, generRecord, storedAll, stored_name hk, compBack, stored_e,
    stored_d (seqWidths L).1 5, stored_d (seqWidths L).2.1 5, stored_d (seqWidths L).2.2 5, h0]

theorem readTables_eq {L : ℕ} {k : Val} {c : Comp} (hk : NameFits L k) (h : AmountsFit c)
    (rest : List Str) :
    readTables (storedAll (generFmt L) (generRecord k c (ltabSpec c))) (allTabs c ++ rest) =
      .ok (((compBack c).times, (compBack c).rates,
        if Bare c then none else some (compBack c).enthalpy), rest) := by
  rw [storedAll_gener k c hk]
  obtain ⟨_, _, _, _, _, t, r, e, _⟩ := c
  unfold AmountsFit at h
  cases t with
  | one t =>
    obtain ⟨h0, h1, h2⟩ := h
    simp only at h0 h1 h2
    cases r with
    | many r => exact h1.elim
    | one r =>
      cases e with
      | many e => exact h2.elim
      | one e =>
        subst h0
        simp [readTables, entry, ltabSpec, ltabVal, stored, tableLength, allTabs, compBack, amountBack,
          constantOf, Bare, num_none]
  | many t =>
    obtain ⟨h0, -, h3, h1, h2⟩ := h
    simp only at h0 h1 h2 h3
    cases r with
    | one r => simp [TableFits] at h1
    | many r =>
      have hn : (1 : ℤ) < (t.length : ℤ) := by exact_mod_cast h0
      rcases h2 with h2 | h2
      · subst h2
        simp [readTables, entry, ltabSpec, ltabVal, stored, tableLength, hn, allTabs, readTable_table h3,
          readTable_table h1, itabOf, truthy, Bare, compBack, amountBack, tabLines,
          List.append_assoc]
        rw [show List.map (lineOf Fmt.gener0) (chunks 4 t) = tabLines (.many t) from rfl,
          readTable_table h3]
        simp only [ok_bind]
        rw [show List.map (lineOf Fmt.gener0) (chunks 4 r) = tabLines (.many r) from rfl,
          readTable_table h1]
        rfl
      · cases e with
        | one e => simp [TableFits] at h2
        | many e =>
          simp [readTables, entry, ltabSpec, ltabVal, stored, tableLength, hn, allTabs, readTable_table h3,
            readTable_table h1, readTable_table h2, itabOf, truthy, Bare, compBack, amountBack,
            List.append_assoc]

theorem generStep_eq {L : ℕ} {e : Val × Comp} (hL : 5 ≤ L ∧ L ≤ 9) (hk : NameFits L e.1)
    (h : CompFits L e.2) (s : List (Val × GenAcc)) (rest : List Str) :
    generStep (.ok (generFmt L)) s (compLines L e ++ rest) =
      (do
        let s ← addGen s e.1 (tmpOf e.2)
        .ok (.more s, rest)) := by
  have hf := allFit_gener hk h
  have hb : isBlank (lineOf (generFmt L) (generRecord e.1 e.2 (ltabSpec e.2))) = false :=
    isBlank_lineOf hf (t := sCol L) (v := e.1) (by simp [generFmt, generRecord]) (visible_name hk)
  simp only [generStep, compLines, List.cons_append, next_cons, ok_bind, hb, Bool.false_eq_true,
    if_false, readRecord_lineOf (formatFor_gener hL).2 hf, readTables_eq hk h.2.2.2.2.2.2]
  rw [storedAll_gener e.1 e.2 hk]
  have : tmpOf e.2 = ⟨[(compBack e.2).name], [(compBack e.2).nseq], [(compBack e.2).nadd],
      [(compBack e.2).nads], [(compBack e.2).type], [(compBack e.2).thickness],
      [(compBack e.2).times], [(compBack e.2).rates],
      (if Bare e.2 then none else some (compBack e.2).enthalpy).map fun x => [x]⟩ := by
    unfold tmpOf
    split <;> rfl
  rw [this]
  rfl

/-- What is collected for the sources of one element. -/
def accOf (cs : List Comp) : GenAcc where
  name := cs.map fun c => (compBack c).name
  nseq := cs.map fun c => (compBack c).nseq
  nadd := cs.map fun c => (compBack c).nadd
  nads := cs.map fun c => (compBack c).nads
  type := cs.map fun c => (compBack c).type
  thickness := cs.map fun c => (compBack c).thickness
  times := cs.map fun c => (compBack c).times
  rates := cs.map fun c => (compBack c).rates
  enthalpy := if ∀ c ∈ cs.head?, Bare c then none else some (cs.map fun c => (compBack c).enthalpy)

theorem mergeGen_eq {cs : List Comp} {c : Comp} (hne : cs ≠ [])
    (h : (∀ x ∈ cs.head?, Bare x) ∨ ¬ Bare c) :
    mergeGen (accOf cs) (tmpOf c) = .ok (accOf (cs ++ [c])) := by
  obtain ⟨a, cs, rfl⟩ := List.exists_cons_of_ne_nil hne
  have he : mergeEnthalpy (accOf (a :: cs)).enthalpy (tmpOf c).enthalpy =
      .ok (accOf (a :: cs ++ [c])).enthalpy := by
    by_cases ha : Bare a
    · simp [accOf, ha, mergeEnthalpy]
    · have hc : ¬ Bare c := by
        rcases h with h | h
        · exact absurd (h a (by simp)) ha
        · exact h
      simp [accOf, tmpOf, ha, hc, mergeEnthalpy]
  rw [mergeGen, he]
  simp [accOf, tmpOf]

theorem tidy_eq {α : Type} [DecidableEq α] (none : α) (l : List α) : tidy none l = collect none l := by
  unfold tidy collect
  split
  · rfl
  · simp only [List.all_eq_true, decide_eq_true_eq]

theorem tidyGen_eq {cs : List Comp} (hne : cs ≠ []) (h : NotMixed cs) :
    tidyGen (accOf cs) = genBack cs := by
  obtain ⟨a, cs, rfl⟩ := List.exists_cons_of_ne_nil hne
  have he : tidyEnthalpy (accOf (a :: cs)).enthalpy =
      collect (.one .none) ((a :: cs).map fun c => (compBack c).enthalpy) := by
    by_cases ha : Bare a
    · have hall : ∀ c ∈ a :: cs, c.enthalpy = .one .none := by
        rcases h with h | h
        · exact absurd ha (h a (by simp))
        · exact h.2
      have h2 : ∀ x ∈ (a :: cs).map (fun c => (compBack c).enthalpy), x = .one .none := by
        intro x hx
        obtain ⟨c, hc, rfl⟩ := List.mem_map.1 hx
        simp [compBack, hall c hc, amountBack, num_none]
      have e1 : (accOf (a :: cs)).enthalpy = none := by simp [accOf, ha]
      rw [e1]
      show Out.one (SoL.one Val.none) = _
      generalize (a :: cs).map (fun c => (compBack c).enthalpy) = l at h2
      unfold collect
      split
      · rename_i x
        rw [h2 x (by simp)]
      · rw [if_pos h2]
    · have e1 : (accOf (a :: cs)).enthalpy = some ((a :: cs).map fun c => (compBack c).enthalpy) := by
        simp [accOf, ha]
      rw [e1]
      exact tidy_eq _ _
  unfold tidyGen genBack
  rw [he]
  simp only [tidy_eq]
  rfl

theorem addGen_new {s : List (Val × GenAcc)} {k : Val} {c : Comp} (h : k ∉ s.map (·.1)) :
    addGen s k (tmpOf c) = .ok (s ++ [(k, accOf [c])]) := by
  have e : tmpOf c = accOf [c] := by
    by_cases hc : Bare c <;> simp [tmpOf, accOf, hc]
  simp [addGen, lookup_none s k h, dictSet_of_notMem s k _ h, e]

theorem addGen_old {s : List (Val × GenAcc)} {k : Val} {cs : List Comp} {c : Comp}
    (h : k ∉ s.map (·.1)) (hne : cs ≠ []) (hb : (∀ x ∈ cs.head?, Bare x) ∨ ¬ Bare c) :
    addGen (s ++ [(k, accOf cs)]) k (tmpOf c) = .ok (s ++ [(k, accOf (cs ++ [c]))]) := by
  simp [addGen, lookup_snoc s k _ h, mergeGen_eq hne hb, dictSet_snoc s k _ _ h]

section
variable {L : ℕ} (hL : 5 ≤ L ∧ L ≤ 9)

include hL in
theorem loop_rest {k : Val} (hk : NameFits L k) (s : List (Val × GenAcc)) (hs : k ∉ s.map (·.1))
    (todo done : List Comp) (hne : done ≠ []) (hf : ∀ c ∈ todo, CompFits L c)
    (hb : (∀ x ∈ done.head?, Bare x) ∨ ∀ c ∈ todo, ¬ Bare c) (m : ℕ) (rest : List Str) :
    loop (generStep (.ok (generFmt L))) (todo.length + m) (s ++ [(k, accOf done)])
      ((todo.flatMap fun c => compLines L (k, c)) ++ rest) =
    loop (generStep (.ok (generFmt L))) m (s ++ [(k, accOf (done ++ todo))]) rest := by
  induction todo generalizing done with
  | nil => simp
  | cons c todo ih =>
    have hb1 : (∀ x ∈ done.head?, Bare x) ∨ ¬ Bare c := hb.imp id fun h => h c (by simp)
    have h1 := generStep_eq (e := (k, c)) hL hk (hf c (by simp)) (s ++ [(k, accOf done)])
      ((todo.flatMap fun c => compLines L (k, c)) ++ rest)
    simp only [addGen_old hs hne hb1, ok_bind] at h1
    rw [show (c :: todo).length + m = (todo.length + m) + 1 by simp; omega, List.flatMap_cons,
      List.append_assoc, loop_more h1, ih (done ++ [c]) (by simp) (fun x hx => hf x (by simp [hx]))]
    · simp
    · rcases hb with hb | hb
      · left
        obtain ⟨a, done, rfl⟩ := List.exists_cons_of_ne_nil hne
        simpa using hb
      · right
        exact fun x hx => hb x (by simp [hx])

include hL in
theorem loop_gen {k : Val} (hk : NameFits L k) (s : List (Val × GenAcc)) (hs : k ∉ s.map (·.1))
    (cs : List Comp) (hne : cs ≠ []) (hf : ∀ c ∈ cs, CompFits L c) (hm : NotMixed cs)
    (m : ℕ) (rest : List Str) :
    loop (generStep (.ok (generFmt L))) (cs.length + m) s
      ((cs.flatMap fun c => compLines L (k, c)) ++ rest) =
    loop (generStep (.ok (generFmt L))) m (s ++ [(k, accOf cs)]) rest := by
  obtain ⟨c, cs, rfl⟩ := List.exists_cons_of_ne_nil hne
  have h1 := generStep_eq (e := (k, c)) hL hk (hf c (by simp)) s
    ((cs.flatMap fun c => compLines L (k, c)) ++ rest)
  simp only [addGen_new hs, ok_bind] at h1
  rw [show (c :: cs).length + m = (cs.length + m) + 1 by simp; omega, List.flatMap_cons,
    List.append_assoc, loop_more h1,
    loop_rest hL hk s hs cs [c] (by simp) (fun x hx => hf x (by simp [hx]))]
  · simp
  · rcases hm with hm | hm
    · exact Or.inr fun x hx => hm x (by simp [hx])
    · exact Or.inl (by simpa using hm.1)

include hL in
theorem loop_gens (gens : List (Val × Gen)) (hk : ∀ e ∈ gens, NameFits L e.1)
    (hf : ∀ e ∈ gens, GenFits L e.2) (s : List (Val × GenAcc))
    (hn : (s.map (·.1) ++ gens.map (·.1)).Nodup) (m : ℕ) (rest : List Str) :
    loop (generStep (.ok (generFmt L))) ((gens.map fun e => (sources e.2).length).sum + m) s
      ((gens.flatMap fun e => (sources e.2).flatMap fun c => compLines L (e.1, c)) ++ rest) =
    loop (generStep (.ok (generFmt L))) m
      (s ++ gens.map fun e => (e.1, accOf (sources e.2))) rest := by
  induction gens generalizing s with
  | nil => simp
  | cons e gens ih =>
    have hs : e.1 ∉ s.map (·.1) := by
      intro h
      have := List.disjoint_of_nodup_append hn h
      simp at this
    obtain ⟨-, h2, h3, h4⟩ := hf e (by simp)
    have h1 := loop_gen hL (hk e (by simp)) s hs (sources e.2) h2 h3 h4
      ((gens.map fun e => (sources e.2).length).sum + m)
      ((gens.flatMap fun e => (sources e.2).flatMap fun c => compLines L (e.1, c)) ++ rest)
    rw [List.map_cons, List.sum_cons, List.flatMap_cons, List.append_assoc, Nat.add_assoc, h1,
      ih (fun x hx => hk x (by simp [hx])) (fun x hx => hf x (by simp [hx]))]
    · simp
    · simpa using hn

end

theorem genComps_eq {g : Gen} (h : Consistent g) : genComps g = .ok (sources g) := by
  have hchk : ∀ {α : Type} {n : ℕ} {f : Fld α}, FldOk n f → f.check n = .ok () := by
    intro α n f hf
    cases f <;> simp_all [FldOk, Fld.check]
  have hpart : ∀ {α : Type} (f : Fld α) (d : α) (i : ℕ), f.comp d i = part d f i := by
    intro α f d i
    cases f <;> rfl
  cases g with
  | single c => rfl
  | noType => exact h.elim
  | multi m =>
    obtain ⟨h1, h2, h3, h4, h5, h6, h7, h8⟩ := h
    simp only [genComps, hchk h1, hchk h2, hchk h3, hchk h4, hchk h5, hchk h6, hchk h7, hchk h8,
      ok_bind, sources]
    congr 1
    apply List.ext_getElem
    · simp
    · intro i hi hj
      simp only [List.length_map, List.length_range] at hi
      simp [MultiGen.comp, hpart, hi]

end Verif.Model
