import Verif.Lemmas.AgainOut

/-! Helper lemmas: the generators of a file that was read. -/

set_option linter.unusedSimpArgs false

namespace Verif.Model
open Verif.Py Verif.Spec Verif.Props

variable {p : Params}

theorem fld_collect {α : Type} [DecidableEq α] (d : α) {l : List α} (h : 2 ≤ l.length) :
    ((collect d l).fld d).check l.length = .ok () ∧
      ∀ i, ((collect d l).fld d).comp d i = l.getD i d := by
  match l, h with
  | a :: b :: l, _ =>
    have e : collect d (a :: b :: l) =
        if ∀ x ∈ a :: b :: l, x = d then .one d else .list (a :: b :: l) := rfl
    rw [e]
    split
    · rename_i hall
      refine ⟨by simp [Out.fld, Fld.check], fun i => ?_⟩
      simp only [Out.fld, if_true, Fld.comp]
      rw [List.getD_eq_getElem?_getD]
      cases hi : (a :: b :: l)[i]? with
      | none => rfl
      | some x => exact (hall x (List.mem_of_getElem? hi)).symm
    · exact ⟨by simp [Out.fld, Fld.check], fun i => rfl⟩

theorem genComps_back {cs : List Comp} (hne : cs ≠ [])
    (ht : ∀ c ∈ cs, ∃ s, s ≠ [] ∧ c.type = .str s) :
    genComps (genBack cs).gen = .ok (cs.map compBack) := by
  have hst : ∀ c ∈ cs, ∃ s, (compBack c).type = .str s := by
    intro c hc
    obtain ⟨s, h1, h2⟩ := ht c hc
    exact ⟨s, by simp [compBack, h2, stored, h1]⟩
  match cs, hne with
  | [c], _ =>
    obtain ⟨s, hs⟩ := hst c (by simp)
    have e : (genBack [c]).gen = .single (compBack c) := by
      unfold GenOut.gen
      have : (genBack [c]).type = .one (.str s) := by rw [← hs]; rfl
      rw [this]
      show Gen.single ⟨(compBack c).name, (compBack c).nseq, (compBack c).nadd, (compBack c).nads,
        .str s, (compBack c).times, (compBack c).rates, (compBack c).enthalpy,
        (compBack c).thickness⟩ = _
      rw [← hs]
    rw [e]; rfl
  | a :: b :: l, _ =>
    set cs := a :: b :: l with hcs
    have h2 : 2 ≤ cs.length := by simp [hcs]
    have hlen : ∀ {β : Type} (f : Comp → β), (cs.map f).length = cs.length := by simp
    have hty : (genBack cs).type = .list (cs.map fun c => (compBack c).type) := by
      show collect .none (cs.map fun c => (compBack c).type) = _
      have : ¬ ∀ x ∈ cs.map (fun c => (compBack c).type), x = .none := by
        intro h
        obtain ⟨s, hs⟩ := hst a (by simp [hcs])
        have := h _ (List.mem_map.2 ⟨a, by simp [hcs], rfl⟩)
        rw [hs] at this
        cases this
      show (if ∀ x ∈ cs.map (fun c => (compBack c).type), x = .none then Out.one .none
        else .list (cs.map fun c => (compBack c).type)) = _
      rw [if_neg this]
    have hv : ∀ f : Comp → Val, ((collect Val.none (cs.map f)).fld .none).check cs.length = .ok () ∧
        ∀ i, ((collect Val.none (cs.map f)).fld .none).comp .none i = (cs.map f).getD i .none := by
      intro f
      have := fld_collect Val.none (l := cs.map f) (by rw [hlen]; exact h2)
      rwa [hlen] at this
    have hw : ∀ f : Comp → SoL, ((collect (SoL.one .none) (cs.map f)).fld (.one .none)).check
          cs.length = .ok () ∧
        ∀ i, ((collect (SoL.one .none) (cs.map f)).fld (.one .none)).comp (.one .none) i =
          (cs.map f).getD i (.one .none) := by
      intro f
      have := fld_collect (SoL.one .none) (l := cs.map f) (by rw [hlen]; exact h2)
      rwa [hlen] at this
    unfold GenOut.gen
    rw [hty]
    simp only [genComps, genBack, List.length_map, (hv _).1, (hw _).1, ok_bind]
    congr 1
    refine List.ext_getElem (by simp) fun i h1 h2 => ?_
    have hi : i < cs.length := by simpa using h1
    simp only [List.getElem_map, List.getElem_range, MultiGen.comp, (hv _).2, (hw _).2,
      List.getD_eq_getElem?_getD, List.getElem?_map, List.getElem?_eq_getElem hi, Option.map_some,
      Option.getD_some]

theorem amount_table {n : ℕ} {s : SoL} (h : TableFits n s) (ht : ∀ v ∈ s.toList, Tame v) :
    ∃ l, s = .many l ∧ l.length = n ∧ amountBack s = .many (l.map (num 7)) ∧
      writeMulti Fmt.gener0 (l.map (num 7)) = writeMulti Fmt.gener0 l := by
  cases s with
  | one v => exact h.elim
  | many l =>
    exact ⟨l, rfl, h.1, rfl, writeMulti_num (n := 4) (w := 14) (p := 7) (by decide) (by decide)
      (by decide) (fun v hv => (h.2 v hv).2) ht⟩

theorem writeComp_back {L : ℕ} (hL : 5 ≤ L ∧ L ≤ 9) {k : Val} (hk : NameFits L k) {c : Comp}
    (h : CompFits L c) (ht : CompTame c) :
    writeComp (generFmt L) (k, compBack c) = writeComp (generFmt L) (k, c) := by
  obtain ⟨t1, t2, t3, t4⟩ := ht
  simp only [List.mem_cons, List.not_mem_nil, or_false, forall_eq_or_imp, forall_eq,
    List.mem_append, or_imp, forall_and] at t3 t4
  obtain ⟨⟨t4, t5⟩, t6⟩ := t4
  have hf := allFit_gener hk h
  obtain ⟨h1, h2, h3, h4, h5, h6, h7⟩ := h
  have hw := (formatFor_gener hL).2
  have n3 : ∀ v, Fits (eCol 10 3) v → Tame v → toStr (eCol 10 3) (num 3 v) = toStr (eCol 10 3) v :=
    fun v h1 h2 => toStr_num (by decide) h1 h2
  have hltab := ltabOf_eq h7
  unfold AmountsFit at h7
  have main : ltabOf (compBack c) = ltabOf c ∧
      (∀ t, ltabOf c = .ok t → writeTables (compBack c) t = writeTables c t) ∧
      itabOf (compBack c).enthalpy = itabOf c.enthalpy ∧
      (∀ t, ltabOf c = .ok t →
        toStr (eCol 10 3) (constantOf t (compBack c).rates) = toStr (eCol 10 3) (constantOf t c.rates) ∧
        toStr (eCol 10 3) (constantOf t (compBack c).enthalpy) =
          toStr (eCol 10 3) (constantOf t c.enthalpy)) := by
    cases hc : c.times with
    | one t =>
      rw [hc] at h7
      obtain ⟨-, hr, he⟩ := h7
      cases hrr : c.rates with
      | many l => rw [hrr] at hr; exact hr.elim
      | one r =>
        cases hee : c.enthalpy with
        | many l => rw [hee] at he; exact he.elim
        | one e =>
          rw [hrr] at hr t5
          rw [hee] at he t6
          have hn : ltabOf c = .ok none := by rw [hltab, ltabSpec, hc]
          refine ⟨?_, ?_, ?_, ?_⟩
          · rw [hn]; simp only [ltabOf, compBack, amountBack, hc, hrr, hee]; rfl
          · intro t ht
            rw [hn] at ht
            cases ht
            rfl
          · simp only [compBack, amountBack, hee, itabOf]
          · intro t ht
            rw [hn] at ht
            cases ht
            simp only [compBack, amountBack, hee, hrr, constantOf]
            exact ⟨n3 _ hr (t5 r (by simp [SoL.toList])), n3 _ he (t6 e (by simp [SoL.toList]))⟩
    | many t =>
      rw [hc] at h7
      obtain ⟨g1, g2, g3, g4, g5⟩ := h7
      rw [hc] at t4
      obtain ⟨t', e0, -, -, e1⟩ := amount_table g3 t4
      cases e0
      obtain ⟨r, e2, e3, e4, e5⟩ := amount_table g4 t5
      have hn : ltabOf c = .ok (some t.length) := by rw [hltab, ltabSpec, hc]
      have hlen : t.length ≠ 0 := by omega
      obtain ⟨m, hm⟩ := Nat.exists_eq_succ_of_ne_zero hlen
      have hbt : (compBack c).times = .many (t.map (num 7)) := by simp [compBack, hc, amountBack]
      have hbr : (compBack c).rates = .many (r.map (num 7)) := e4
      rcases g5 with g5 | g5
      · have hbe : (compBack c).enthalpy = .one .none := by
          simp only [compBack, g5, amountBack]; rfl
        refine ⟨?_, ?_, ?_, ?_⟩
        · rw [hn]
          simp only [ltabOf, hbt, hbr, hbe, tableCheck, List.length_map, e3, g1, true_and, if_true,
            ok_bind]
        · intro x hx
          rw [hn] at hx
          cases hx
          rw [hm]
          simp only [writeTables, hbt, hbr, hbe, hc, e2, g5, writeTable, writeEnthalpy, e1, e5]
        · rw [hbe, g5]
        · intro x hx
          rw [hn] at hx
          cases hx
          rw [hm]
          exact ⟨rfl, rfl⟩
      · obtain ⟨h, f2, f3, f4, f5⟩ := amount_table g5 t6
        have hbe : (compBack c).enthalpy = .many (h.map (num 7)) := f4
        refine ⟨?_, ?_, ?_, ?_⟩
        · rw [hn]
          simp only [ltabOf, hbt, hbr, hbe, tableCheck, List.length_map, e3, f3, g1, true_and,
            if_true, ok_bind]
        · intro x hx
          rw [hn] at hx
          cases hx
          rw [hm]
          simp only [writeTables, hbt, hbr, hbe, hc, e2, f2, writeTable, writeEnthalpy, e1, e5, f5]
        · rw [hbe, f2]; rfl
        · intro x hx
          rw [hn] at hx
          cases hx
          rw [hm]
          exact ⟨rfl, rfl⟩
  obtain ⟨m1, m2, m3, m4⟩ := main
  have m2 := m2 _ hltab
  have m4 := m4 _ hltab
  have hrec : writeRecord (generFmt L) (generRecord k (compBack c) (ltabSpec c)) =
      writeRecord (generFmt L) (generRecord k c (ltabSpec c)) := by
    refine writeRecord_alike hw hf ⟨rfl, toStr_scol h1, toStr_dcol h2 t3.1, toStr_dcol h3 t3.2.1,
      toStr_dcol h4 t3.2.2.1, rfl, rfl, toStr_scol h5, ?_, m4.1, m4.2, n3 _ h6 t3.2.2.2, trivial⟩
    rw [m3]
  unfold writeComp
  simp only [m1, hltab, ok_bind, hrec, m2]

theorem again_gener {given : Option ℕ} (hg : GenerOk given p.generators)
    (ht : ∀ e ∈ p.generators, ∀ c ∈ sources e.2, CompTame c) :
    onlyIf ((fileBack p).params.generators ≠ []) (writeGener (fileBack p).params.generators) =
      onlyIf (p.generators ≠ []) (writeGener p.generators) := by
  by_cases hc : p.generators = []
  · have : (fileBack p).params.generators = [] := by
      simp [FileRead.params, fileBack, genersBack, nonEmpty, hc]
    rw [this, hc]
  · have e : (fileBack p).params.generators =
        p.generators.map fun e => (e.1, (genBack (sources e.2)).gen) := by
      simp [FileRead.params, fileBack, genersBack, nonEmpty, hc]
    obtain ⟨L, -, hl, hf, -⟩ := hg.resolve_left hc
    obtain ⟨l1, l2, l3, l4, l5⟩ := hl
    have hty : ∀ e ∈ p.generators, ∀ c ∈ sources e.2, ∃ s, s ≠ [] ∧ c.type = .str s := by
      intro e he c hcc
      obtain ⟨t1, t2, -⟩ := ht e he c hcc
      have := ((hf e he).2.2.1 c hcc).2.2.2.2.1
      cases hct : c.type with
      | str s => exact ⟨s, fun h => t2 (by rw [hct, h]), rfl⟩
      | none => exact absurd hct t1
      | _ => rw [hct] at this; exact this.elim
    have h1 : splitGens (p.generators.map fun e => (e.1, (genBack (sources e.2)).gen)) =
        .ok (p.generators.flatMap fun e => (sources e.2).map fun c => (e.1, compBack c)) := by
      unfold splitGens
      rw [concatM_map]
      refine concatM_ok fun e he => ?_
      rw [genComps_back (hf e he).2.1 (hty e he), ok_bind, List.map_map]
      rfl
    have h2 : splitGens p.generators =
        .ok (p.generators.flatMap fun e => (sources e.2).map fun c => (e.1, c)) := by
      refine concatM_ok fun e he => ?_
      rw [genComps_eq (hf e he).1, ok_bind]
    have h3 : maxLen (p.generators.map (·.1)) = .ok L := maxLen_eq ⟨l1, l2, l3, l4, l5⟩
    have hk : (p.generators.map fun e => (e.1, (genBack (sources e.2)).gen)).map (·.1) =
        p.generators.map (·.1) := by
      rw [List.map_map]; rfl
    have h4 : concatM (writeComp (generFmt L))
        (p.generators.flatMap fun e => (sources e.2).map fun c => (e.1, compBack c)) =
        concatM (writeComp (generFmt L))
          (p.generators.flatMap fun e => (sources e.2).map fun c => (e.1, c)) := by
      have : (p.generators.flatMap fun e => (sources e.2).map fun c => (e.1, compBack c)) =
          (p.generators.flatMap fun e => (sources e.2).map fun c => (e.1, c)).map
            fun x => (x.1, compBack x.2) := by
        rw [List.map_flatMap]
        simp [List.map_map, Function.comp_def]
      rw [this, concatM_map]
      refine concatM_congr fun x hx => ?_
      obtain ⟨e, he, hx⟩ := List.mem_flatMap.1 hx
      obtain ⟨c, hcc, rfl⟩ := List.mem_map.1 hx
      exact writeComp_back ⟨l1, l2⟩ (l4 e.1 (List.mem_map.2 ⟨e, he, rfl⟩)) ((hf e he).2.2.1 c hcc)
        (ht e he c hcc)
    have hne : decide (p.generators.map (fun e => (e.1, (genBack (sources e.2)).gen)) ≠ []) = true :=
      decide_eq_true (by simpa using hc)
    have hne' : decide (p.generators ≠ []) = true := decide_eq_true hc
    rw [e]
    unfold onlyIf writeGener
    rw [if_pos hne, if_pos hne', h1, h2, hk, h3]
    simp only [ok_bind, (formatFor_gener ⟨l1, l2⟩).1, h4]

end Verif.Model
