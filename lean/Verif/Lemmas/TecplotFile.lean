import Verif.Lemmas.TecplotRead

/-!
# Lemmas on Tecplot mesh files that have been written
-/

namespace Verif.Mesh
open Verif.Py Verif.Model Verif.Spec

theorem fltStr_digit {mag : ℚ≥0} (h : IsDouble (.fin false mag)) :
    ∃ c t, fltStr (.fin false mag) = c :: t ∧ isDigit c = true := by
  simp only [fltStr]
  by_cases h0 : mag = 0
  · rw [if_pos h0]
    exact ⟨'0', ['.', '0'], rfl, by decide⟩
  · rw [if_neg h0]
    obtain ⟨m, e, hm, he1, he2, hq⟩ := h
    have hpos : (0 : ℚ) < (mag : ℚ) := by
      have : 0 < mag := pos_iff_ne_zero.2 h0
      exact_mod_cast this
    obtain ⟨-, t2, -⟩ := reprText_spec (p := (shortest mag).1) (e := (shortest mag).2.2)
      (shortest_spec hm he1 hq hpos).1
    exact t2

theorem strip_cons {c : Char} (h : isSpace c = false) (s : Str) : ∃ t, strip (c :: s) = c :: t := by
  have h1 : lstrip (c :: s) = c :: s := lstrip_eq_self (by simpa using h)
  rw [strip, h1, rstrip, List.reverse_cons]
  generalize s.reverse = r
  have : ∃ t, lstrip (r ++ [c]) = t ++ [c] := by
    induction r with
    | nil => exact ⟨[], by simp [lstrip, h]⟩
    | cons d r ih =>
      rw [List.cons_append, lstrip, List.dropWhile_cons]
      split
      · exact ih
      · exact ⟨d :: r, rfl⟩
  obtain ⟨t, ht⟩ := this
  rw [show List.dropWhile isSpace (r ++ [c]) = t ++ [c] from ht, List.reverse_append]
  exact ⟨t.reverse, rfl⟩

theorem zoneMore_digit {c : Char} {t : Str} {ls : List Str} (h : isDigit c = true) :
    zoneMore ((c :: t) :: ls) = ([], (c :: t) :: ls) := by
  obtain ⟨r, hr⟩ := strip_cons (isSpace_of_isDigit h) t
  rw [zoneMore, hr]
  have : upper (c :: r) = c :: upper r := by
    rw [upper, List.map_cons, upperC_eq_self h]
    rfl
  rw [this]
  simp only [h, if_true]

theorem zoneMore_text {l : Str} {c : Char} {r : Str} {ls : List Str} (h : upper (strip l) = c :: r)
    (hc : isDigit c = false) : zoneMore (l :: ls) = ((c :: r) :: (zoneMore ls).1, (zoneMore ls).2) := by
  rw [zoneMore, h]
  simp only [hc, Bool.false_eq_true, if_false]

theorem tables_first {mag : ℚ≥0} (h : IsDouble (.fin false mag)) (name : Str) (xs : List Flt)
    (vs : List (Str × List Flt)) (rest : List Str) :
    zoneMore ((((name, Flt.fin false mag :: xs) :: vs).flatMap fun e => tecTable e.2) ++ rest) =
      ([], (((name, Flt.fin false mag :: xs) :: vs).flatMap fun e => tecTable e.2) ++ rest) := by
  obtain ⟨c, t, h1, h2⟩ := fltStr_digit h
  have : ∃ s ls, ((((name, Flt.fin false mag :: xs) :: vs).flatMap fun e => tecTable e.2) ++ rest) = (c :: s) :: ls := by
    rw [List.flatMap_cons, tecTable, chunks_cons 20 (by decide) _ (by simp), List.map_cons, List.take_succ_cons,
      List.map_cons, h1, spacedLine]
    have : ∃ s, joinWith ' ' ((c :: t) :: List.map fltStr (List.take 19 xs)) = c :: s := by
      cases List.map fltStr (List.take 19 xs) with
      | nil => exact ⟨t, rfl⟩
      | cons a b => exact ⟨_, rfl⟩
    obtain ⟨s, hs⟩ := this
    rw [hs]
    exact ⟨_, _, rfl⟩
  obtain ⟨s, ls, hs⟩ := this
  rw [hs, zoneMore_digit h2]

theorem upper_name {ty : Str} (h : ty ∈ zoneNames) : upper ty = ty := by
  simp only [zoneNames, List.mem_cons, List.not_mem_nil, or_false] at h
  rcases h with rfl | rfl | rfl | rfl <;> decide

theorem name_last {ty : Str} (h : ty ∈ zoneNames) : ty ≠ [] ∧ ∀ c ∈ ty.getLast?, isSpace c = false := by
  simp only [zoneNames, List.mem_cons, List.not_mem_nil, or_false] at h
  rcases h with rfl | rfl | rfl | rfl <;> decide

theorem upper_range (pv cv : ℕ) : upper (tecRange pv cv) = tecRange pv cv := by
  unfold upper
  conv_rhs => rw [← List.map_id (tecRange pv cv)]
  apply List.map_congr_left
  intro c hc
  rcases range_chars pv cv c hc with h | rfl
  · exact upperC_eq_self h
  · decide

/-- The lines of a zone are the entries of a zone. -/
theorem zone_lines (np nc pv cv : ℕ) {type : Str} (h : type ∈ zoneNames) {data : List Str}
    (hd : zoneMore data = ([], data)) : ∃ l0 ls more, tecZoneLines np nc pv cv type = l0 :: ls ∧
      zoneMore (ls ++ data) = (more, data) ∧ startsWith (upper (strip l0)) "VARIABLES".toList = false ∧
      startsWith (upper (strip l0)) "ZONE".toList = true ∧
      joinWith ' ' (strip l0 :: more) = "ZONE ".toList ++ entriesText (zoneEntries np nc pv cv type) := by
  have hl0 : strip ("ZONE NODES = ".toList ++ natStr np ++ ", ELEMENTS = ".toList ++ natStr nc ++ [',', '\n']) =
      "ZONE NODES = ".toList ++ natStr np ++ ", ELEMENTS = ".toList ++ natStr nc ++ [','] := by
    have e : "ZONE NODES = ".toList ++ natStr np ++ ", ELEMENTS = ".toList ++ natStr nc ++ [',', '\n'] =
      ("ZONE NODES = ".toList ++ natStr np ++ ", ELEMENTS = ".toList ++ natStr nc ++ [',']) ++ ['\n'] := by simp
    rw [e, strip_line]
    · intro c hc
      have : c = 'Z' := by simpa using hc.symm
      rw [this]; decide
    · intro c hc
      rw [List.getLast?_append_of_ne_nil _ (by simp)] at hc
      have : c = ',' := by simpa using hc.symm
      rw [this]; decide
  have hu : ∀ s : Str, startsWith (upper ("ZONE NODES = ".toList ++ s)) "VARIABLES".toList = false ∧
      startsWith (upper ("ZONE NODES = ".toList ++ s)) "ZONE".toList = true := by
    intro s
    rw [upper_append, show upper "ZONE NODES = ".toList = "ZONE NODES = ".toList by decide]
    constructor <;> simp [startsWith, List.isPrefixOf]
  obtain ⟨hn1, hn2⟩ := name_last h
  by_cases hc : cv = 0
  · refine ⟨"ZONE NODES = ".toList ++ natStr np ++ ", ELEMENTS = ".toList ++ natStr nc ++ [',', '\n'], ["DATAPACKING = BLOCK, ZONETYPE = ".toList ++ type ++ ['\n']],
      ["DATAPACKING = BLOCK, ZONETYPE = ".toList ++ type], by simp only [tecZoneLines, if_pos hc], ?_, ?_, ?_, ?_⟩
    · have e : upper (strip ("DATAPACKING = BLOCK, ZONETYPE = ".toList ++ type ++ ['\n'])) =
          "DATAPACKING = BLOCK, ZONETYPE = ".toList ++ type := by
        rw [strip_line, upper_append, upper_name h]
        · rw [show upper "DATAPACKING = BLOCK, ZONETYPE = ".toList = "DATAPACKING = BLOCK, ZONETYPE = ".toList by decide]
        · intro c hc
          have : c = 'D' := by simpa using hc.symm
          rw [this]; decide
        · intro c hc
          rw [List.getLast?_append_of_ne_nil _ hn1] at hc
          exact hn2 c hc
      rw [List.singleton_append, zoneMore_text (c := 'D') (r := "ATAPACKING = BLOCK, ZONETYPE = ".toList ++ type) (by
        rw [e]; rfl) (by decide), hd]
      rfl
    · rw [hl0, List.append_assoc, List.append_assoc, List.append_assoc]
      exact (hu _).1
    · rw [hl0, List.append_assoc, List.append_assoc, List.append_assoc]
      exact (hu _).2
    · rw [hl0, zoneEntries, if_pos hc, if_pos hc]
      simp [joinWith, entriesText, ZoneEntry.text, ZoneText.text]
  · refine ⟨"ZONE NODES = ".toList ++ natStr np ++ ", ELEMENTS = ".toList ++ natStr nc ++ [',', '\n'], ["DATAPACKING = BLOCK, ZONETYPE = ".toList ++ type ++ [',', '\n'],
        "VARLOCATION = ([".toList ++ tecRange pv cv ++ "] = CELLCENTERED)\n".toList],
      ["DATAPACKING = BLOCK, ZONETYPE = ".toList ++ type ++ [','],
        "VARLOCATION = ([".toList ++ tecRange pv cv ++ "] = CELLCENTERED)".toList],
      by simp only [tecZoneLines, if_neg hc, tecRange], ?_, ?_, ?_, ?_⟩
    · have e : upper (strip ("DATAPACKING = BLOCK, ZONETYPE = ".toList ++ type ++ [',', '\n'])) =
          "DATAPACKING = BLOCK, ZONETYPE = ".toList ++ type ++ [','] := by
        have e0 : "DATAPACKING = BLOCK, ZONETYPE = ".toList ++ type ++ [',', '\n'] =
          ("DATAPACKING = BLOCK, ZONETYPE = ".toList ++ type ++ [',']) ++ ['\n'] := by simp
        rw [e0, strip_line, upper_append, upper_append, upper_name h]
        · rw [show upper "DATAPACKING = BLOCK, ZONETYPE = ".toList = "DATAPACKING = BLOCK, ZONETYPE = ".toList by decide]
          rfl
        · intro c hc
          have : c = 'D' := by simpa using hc.symm
          rw [this]; decide
        · intro c hc
          rw [List.getLast?_append_of_ne_nil _ (by simp)] at hc
          have : c = ',' := by simpa using hc.symm
          rw [this]; decide
      have e2 : upper (strip ("VARLOCATION = ([".toList ++ tecRange pv cv ++ "] = CELLCENTERED)\n".toList)) =
          "VARLOCATION = ([".toList ++ tecRange pv cv ++ "] = CELLCENTERED)".toList := by
        have e0 : "VARLOCATION = ([".toList ++ tecRange pv cv ++ "] = CELLCENTERED)\n".toList =
          ("VARLOCATION = ([".toList ++ tecRange pv cv ++ "] = CELLCENTERED)".toList) ++ ['\n'] := by simp
        rw [e0, strip_line, upper_append, upper_append, upper_range]
        · rw [show upper "VARLOCATION = ([".toList = "VARLOCATION = ([".toList by decide,
            show upper "] = CELLCENTERED)".toList = "] = CELLCENTERED)".toList by decide]
        · intro c hc
          have : c = 'V' := by simpa using hc.symm
          rw [this]; decide
        · intro c hc
          rw [List.getLast?_append_of_ne_nil _ (by simp)] at hc
          have : c = ')' := by simpa using hc.symm
          rw [this]; decide
      rw [List.cons_append, List.singleton_append,
        zoneMore_text (c := 'D') (r := "ATAPACKING = BLOCK, ZONETYPE = ".toList ++ type ++ [',']) (by
        rw [e]; rfl) (by decide), zoneMore_text (c := 'V') (r := "ARLOCATION = ([".toList ++ tecRange pv cv ++
          "] = CELLCENTERED)".toList) (by rw [e2]; rfl) (by decide), hd]
      rfl
    · rw [hl0, List.append_assoc, List.append_assoc, List.append_assoc]
      exact (hu _).1
    · rw [hl0, List.append_assoc, List.append_assoc, List.append_assoc]
      exact (hu _).2
    · rw [hl0, zoneEntries, if_neg hc, if_neg hc]
      simp [joinWith, entriesText, ZoneEntry.text, ZoneText.text]

theorem centered_step (pv i k : ℕ) :
    setCentered (List.replicate pv false ++ (List.replicate i true ++ List.replicate (k + 1) false)) ((pv + i : ℕ) : ℤ) =
      .ok (List.replicate pv false ++ (List.replicate (i + 1) true ++ List.replicate k false)) := by
  have hp : ¬ ((pv + i : ℕ) : ℤ) < 0 := by omega
  simp only [setCentered, if_neg hp]
  rw [if_pos (by simp; omega), Int.toNat_natCast]
  congr 1
  rw [List.set_append_right _ _ (by simp), List.set_append_right _ _ (by simp)]
  have e : List.replicate (i + 1) true ++ List.replicate k false =
      List.replicate i true ++ true :: List.replicate k false := by
    rw [List.replicate_succ', List.append_assoc]
    rfl
  rw [e]
  simp [List.replicate_succ]

theorem centered_all (pv cv : ℕ) :
    ((List.range cv).map fun k : ℕ => ((pv + k : ℕ) : ℤ)).foldlM setCentered (List.replicate (pv + cv) false) =
      .ok (List.replicate pv false ++ List.replicate cv true) := by
  have := foldlM_range (f := setCentered) (F := fun k : ℕ => ((pv + k : ℕ) : ℤ))
    (fun i => List.replicate pv false ++ (List.replicate i true ++ List.replicate (cv - i) false)) (n := cv) (by
      intro i hi
      obtain ⟨k, hk⟩ : ∃ k, cv - i = k + 1 := ⟨cv - i - 1, by omega⟩
      have hk2 : cv - (i + 1) = k := by omega
      rw [hk, hk2]
      exact centered_step pv i k)
  simpa [List.replicate_append_replicate] using this

theorem locate_written (pv : ℕ) {cv : ℕ} (h : cv ≠ 0) :
    locateOne (List.replicate (pv + cv) false) ('[' :: (tecRange pv cv ++ "]=CELLCENTERED".toList)) =
      .ok (List.replicate pv false ++ List.replicate cv true) := by
  have hs : splitPair ('[' :: (tecRange pv cv ++ "]=CELLCENTERED".toList)) =
      .ok ('[' :: (tecRange pv cv ++ [']']), "CELLCENTERED".toList) := by
    have e : '[' :: (tecRange pv cv ++ "]=CELLCENTERED".toList) =
      ('[' :: (tecRange pv cv ++ [']'])) ++ '=' :: "CELLCENTERED".toList := by simp
    rw [splitPair, e, splitOn_append, splitOn_self]
    · decide
    · intro hm
      rcases List.mem_cons.1 hm with hm | hm
      · exact absurd hm (by decide)
      · rcases List.mem_append.1 hm with hm | hm
        · exact range_notMem pv cv (by decide) (by decide) hm
        · exact absurd hm (by decide)
  rw [locateOne, hs, ok_bind]
  simp only
  rw [if_pos (by decide), pySlice_inner, tecRange]
  have hd : '-' ∉ natStr (pv + 1) := natStr_notMem _ (by decide)
  have hall := centered_all pv cv
  by_cases h1 : cv = 1
  · subst h1
    rw [if_pos rfl, splitOn_self hd]
    simp only
    rw [toInt_natStr, ok_bind]
    have e : ((pv + 1 : ℕ) : ℤ) - 1 = ((pv + 0 : ℕ) : ℤ) := by push_cast; ring
    rw [e]
    simpa using hall
  · rw [if_neg h1, splitOn_append hd, splitOn_self (natStr_notMem _ (by decide))]
    simp only
    rw [toInt_natStr, ok_bind, toInt_natStr, ok_bind]
    have e : (((pv + cv : ℕ) : ℤ) - ((pv + 1 : ℕ) : ℤ) + 1).toNat = cv := by omega
    rw [e]
    rw [← hall]
    congr 1
    apply List.map_congr_left
    intro k _
    push_cast
    ring

theorem result_int {k l r : Str} (n : ℕ) (hk : k ∈ numberKeys) :
    ZoneEntry.result ⟨k, l, r, .plain (natStr n)⟩ = some (.int n) := by
  simp only [ZoneEntry.result, if_pos hk, pyInt_natStr, Option.map_some]

theorem result_txt {k l r s : Str} (hk : k ∉ numberKeys) : ZoneEntry.result ⟨k, l, r, .plain s⟩ = some (.txt s) := by
  simp only [ZoneEntry.result, if_neg hk]

theorem result_located {k l r : Str} (pv cv : ℕ) :
    ZoneEntry.result ⟨k, l, r, .located ('[' :: (tecRange pv cv ++ "] = CELLCENTERED".toList))⟩ =
      some (.txt ('(' :: (('[' :: (tecRange pv cv ++ "]=CELLCENTERED".toList)) ++ [')']))) := by
  have h1 : ('[' :: (tecRange pv cv ++ "] = CELLCENTERED".toList)).filter (fun c => decide (c ≠ ' ')) =
      '[' :: (tecRange pv cv ++ "]=CELLCENTERED".toList) := by
    have h2 : (tecRange pv cv).filter (fun c => decide (c ≠ ' ')) = tecRange pv cv := by
      apply List.filter_eq_self.2
      intro c hc
      apply decide_eq_true
      rintro rfl
      exact range_notMem pv cv (by decide) (by decide) hc
    rw [List.filter_cons_of_pos (by decide), List.filter_append, h2,
      show "] = CELLCENTERED".toList.filter (fun c => decide (c ≠ ' ')) = "]=CELLCENTERED".toList by decide]
  simp only [ZoneEntry.result, h1]

theorem zoneEntries_keys (np nc pv cv : ℕ) (type : Str) : (zoneEntries np nc pv cv type).map (·.1.key) =
    ["NODES".toList, "ELEMENTS".toList, "DATAPACKING".toList, "ZONETYPE".toList] ++
      if cv = 0 then [] else ["VARLOCATION".toList] := by
  rw [zoneEntries, List.map_append]
  congr 1
  split <;> rfl

theorem zone_lookup (np nc pv cv : ℕ) {type : Str} (h : type ∈ zoneNames) :
    ∃ z, readZone ("ZONE ".toList ++ entriesText (zoneEntries np nc pv cv type)) = .ok z ∧
      (∀ k ∈ ["F".toList, "N".toList, "E".toList, "NV".toList], z.lookup k = none) ∧
      z.lookup "NODES".toList = some (.int np) ∧ z.lookup "ELEMENTS".toList = some (.int nc) ∧
      z.lookup "DATAPACKING".toList = some (.txt "BLOCK".toList) ∧ z.lookup "ZONETYPE".toList = some (.txt type) ∧
      z.lookup "VARLOCATION".toList = if cv = 0 then none else
          some (.txt ('(' :: (('[' :: (tecRange pv cv ++ "]=CELLCENTERED".toList)) ++ [')']))) := by
  obtain ⟨z, hz, hl⟩ := readZone_entries (zoneEntries_ok np nc pv cv h) (h := "ZONE ".toList) (by decide)
  have hmem : ∀ e ∈ zoneEntries np nc pv cv type, z.lookup e.1.key = e.1.result := by
    intro e he
    rw [hl, entryOf_mem (zoneEntries_ok np nc pv cv h).distinct he]
  refine ⟨z, hz, ?_, ?_, ?_, ?_, ?_, ?_⟩
  · intro k hk
    rw [hl]
    apply entryOf_absent
    rw [zoneEntries_keys]
    have h2 : ∀ k ∈ ["F".toList, "N".toList, "E".toList, "NV".toList], k ∉
        ["NODES".toList, "ELEMENTS".toList, "DATAPACKING".toList, "ZONETYPE".toList, "VARLOCATION".toList] := by decide
    intro hm
    refine h2 k hk ?_
    split at hm
    · exact List.mem_append_left ["VARLOCATION".toList] (by rwa [List.append_nil] at hm)
    · exact hm
  · exact (hmem (⟨"NODES".toList, [' '], [' '], .plain (natStr np)⟩, [',', ' '])
      (List.mem_append_left _ (.head _))).trans (result_int np (by decide))
  · exact (hmem (⟨"ELEMENTS".toList, [' '], [' '], .plain (natStr nc)⟩, [',', ' '])
      (List.mem_append_left _ (.tail _ (.head _)))).trans (result_int nc (by decide))
  · exact (hmem (⟨"DATAPACKING".toList, [' '], [' '], .plain "BLOCK".toList⟩, [',', ' '])
      (List.mem_append_left _ (.tail _ (.tail _ (.head _))))).trans (result_txt (by decide))
  · exact (hmem (⟨"ZONETYPE".toList, [' '], [' '], .plain type⟩, if cv = 0 then [] else [',', ' '])
      (List.mem_append_left _ (.tail _ (.tail _ (.tail _ (.head _)))))).trans (result_txt (by decide))
  · by_cases hc : cv = 0
    · rw [if_pos hc, hl]
      apply entryOf_absent
      rw [zoneEntries_keys, if_pos hc]
      decide
    · rw [if_neg hc]
      exact (hmem (⟨"VARLOCATION".toList, [' '], [' '],
          .located ('[' :: (tecRange pv cv ++ "] = CELLCENTERED".toList))⟩, []) (by
            rw [zoneEntries, if_neg hc, if_neg hc]
            exact List.mem_append_right _ (.head _))).trans (result_located pv cv)

/-- What is made of the zone that is written. -/
theorem zone_written (np nc pv cv : ℕ) {type : Str} (h : type ∈ zoneNames) :
    ∃ z, readZone ("ZONE ".toList ++ entriesText (zoneEntries np nc pv cv type)) = .ok z ∧
      fezoneFormat z = .ok ("FEBLOCK".toList, type) ∧ fezoneCount z "N".toList "NODES".toList = .ok np ∧
      fezoneCount z "E".toList "ELEMENTS".toList = .ok nc ∧
      fezoneCentered z "FEBLOCK".toList (pv + cv) = .ok (List.replicate pv false ++ List.replicate cv true) := by
  obtain ⟨z, hz, hno, k1, k2, k3, k4, k5⟩ := zone_lookup np nc pv cv h
  have f1 : zoneTxt z "F".toList = none := by rw [zoneTxt, hno _ (.head _)]
  have f2 : zoneInt z "N".toList = none := by rw [zoneInt, hno _ (.tail _ (.head _))]
  have f3 : zoneInt z "E".toList = none := by rw [zoneInt, hno _ (.tail _ (.tail _ (.head _)))]
  have f4 : zoneInt z "NV".toList = none := by rw [zoneInt, hno _ (.tail _ (.tail _ (.tail _ (.head _))))]
  have g1 : zoneTxt z "DATAPACKING".toList = some "BLOCK".toList := by rw [zoneTxt, k3]
  have g2 : zoneTxt z "ZONETYPE".toList = some type := by rw [zoneTxt, k4]
  have g3 : zoneInt z "NODES".toList = some (np : ℤ) := by rw [zoneInt, k1]
  have g4 : zoneInt z "ELEMENTS".toList = some (nc : ℤ) := by rw [zoneInt, k2]
  refine ⟨z, hz, ?_, ?_, ?_, ?_⟩
  · rw [fezoneFormat, f1, g1, g2]
    rfl
  · rw [fezoneCount, f2, g3]
    rfl
  · rw [fezoneCount, f3, g4]
    rfl
  · rw [fezoneCentered, if_pos rfl, f4]
    by_cases hc : cv = 0
    · rw [if_pos hc] at k5
      have g5 : zoneTxt z "VARLOCATION".toList = none := by rw [zoneTxt, k5]
      rw [g5, hc]
      simp only [List.replicate_zero, List.append_nil, Nat.add_zero]
    · rw [if_neg hc] at k5
      have g5 : zoneTxt z "VARLOCATION".toList =
          some ('(' :: (('[' :: (tecRange pv cv ++ "]=CELLCENTERED".toList)) ++ [')'])) := by rw [zoneTxt, k5]
      rw [g5]
      have hcomma : ',' ∉ '[' :: (tecRange pv cv ++ "]=CELLCENTERED".toList) := by
        intro hm
        rcases List.mem_cons.1 hm with hm | hm
        · exact absurd hm (by decide)
        · rcases List.mem_append.1 hm with hm | hm
          · exact range_notMem pv cv (by decide) (by decide) hm
          · exact absurd hm (by decide)
      simp only
      rw [pySlice_inner, splitOn_self hcomma, List.foldlM_cons, locate_written pv hc]
      rfl

end Verif.Mesh
