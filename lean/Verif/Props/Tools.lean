import Verif.Lemmas.Tools

/-!
# The tools on files of the library (C84)
-/

namespace Verif.Props
open Verif.Py Verif.Model Verif.Spec

/-- C84. Merging the input file without mesh with the MESH file and the INCON file gives
their lines: the mesh and the initial conditions before `ENDCY`. -/
theorem C84_merge (p : Params) (a m i : List Str) (ha : writeFile (withoutMesh p) "all" = .ok a)
    (hm : writeFile p "mesh" = .ok m) (hi : writeFile p "incon" = .ok i) (he : p.elements ≠ [])
    (hca : CleanLines a.dropLast) (hcm : CleanLines m) (hci : CleanLines i) (hend : ∀ l ∈ a.dropLast, ¬ EndRecord l) :
    ∃ out, merge (some a.flatten) (some m.flatten) (if p.initialConditions = [] then none else some i.flatten) = .ok out ∧
      IsLines out (a.dropLast ++ m ++ i ++ [endLine]) := by
  obtain ⟨f, n, hf, -, rfl⟩ := rest_parts ha
  rw [List.dropLast_concat] at hca hend ⊢
  set b := p.title.lines.map titleLine ++ f ++ n with hb
  have hla : IsLines (b ++ [endLine]).flatten (b ++ [endLine]) := by
    refine ⟨rfl, ?_, ?_⟩
    · intro l hl
      rcases List.mem_append.1 hl with hl | hl
      · exact (clean_isLines hca).1.2.1 l hl
      · rw [List.mem_singleton.1 hl]
        decide +kernel
    · rw [List.dropLast_concat]
      exact fun l hl => (hca l hl).1
  have hE : EndRecord endLine := by decide +kernel
  obtain ⟨m', rfl⟩ : ∃ m', m = headLine "ELEME" :: m' := by
    refine head_of_concat (w := writeEleme p.elementsOrder p.elements) (fun l hl => block_head hl)
      (ws := ((meshParts p).drop 1)) m ?_
    have := (writeFile_ok hm).2
    rw [selected_mesh] at this
    have e : meshParts p = writeEleme p.elementsOrder p.elements :: (meshParts p).drop 1 := by
      show onlyIf (decide (p.elements ≠ [])) _ :: _ = _
      rw [decide_eq_true he]
      rfl
    rwa [e] at this
  have hinc : p.initialConditions = [] → i = [] := by
    intro h0
    have := (writeFile_ok hi).2
    rw [selected_incon] at this
    have e : inconParts p = [.ok []] := by
      show [onlyIf (decide (p.initialConditions ≠ [])) _] = _
      rw [h0]
      rfl
    rw [e] at this
    simpa [concatM] using this.symm
  have hinc' : p.initialConditions ≠ [] → ∃ i', i = headLine "INCON" :: i' := by
    intro h0
    have := (writeFile_ok hi).2
    rw [selected_incon] at this
    have e : inconParts p = [writeIncon p.initialConditionsOrder p.initialConditions] := by
      show [onlyIf (decide (p.initialConditions ≠ [])) _] = _
      rw [decide_eq_true h0]
      rfl
    rw [e] at this
    exact head_of_concat (fun l hl => block_head hl) i this
  have hget : (if p.initialConditions = [] then none else some i.flatten).getD [] = i.flatten := by
    by_cases h0 : p.initialConditions = []
    · rw [if_pos h0, hinc h0]; rfl
    · rw [if_neg h0]; rfl
  obtain ⟨out, hout⟩ := (C51_accepts (b ++ [endLine]).flatten (headLine "ELEME" :: m').flatten
    (if p.initialConditions = [] then none else some i.flatten) _ hla).2 ⟨by
      have hs : [headLine "ROCKS", headLine "PARAM", endLine].Sublist (b ++ [endLine]) := by
        show ([headLine "ROCKS", headLine "PARAM"] ++ [endLine]).Sublist _
        refine List.Sublist.append ?_ (List.Sublist.refl _)
        rw [hb]
        exact ((front_heads hf).trans (List.sublist_append_right _ f)).trans (List.sublist_append_left _ n)
      have := (hs.filter fun l => decide (Counted l)).length_le
      refine le_trans ?_ this
      decide +kernel,
    opens_flatten (by decide) (by decide), by
      intro t ht
      by_cases h0 : p.initialConditions = []
      · rw [if_pos h0] at ht; cases ht
      · rw [if_neg h0] at ht
        cases ht
        obtain ⟨i', rfl⟩ := hinc' h0
        exact opens_flatten (by decide) (by decide)⟩
  refine ⟨out, hout, ?_⟩
  have := C51_lines_partial _ _ out _ b [] (headLine "ELEME" :: m') i endLine hla hE hend (clean_isLines hcm).1
    (by rw [hget]; exact (clean_isLines hci).1) (clean_isLines hcm).2 (by rw [hget]; exact (clean_isLines hci).2) hout
  exact this

/-- C84. Without the block NOVER the merged file is the file of all parameters. -/
theorem C84_merge_same (p : Params) (a m i : List Str) (ha : writeFile (withoutMesh p) "all" = .ok a)
    (hm : writeFile p "mesh" = .ok m) (hi : writeFile p "incon" = .ok i) (hn : p.nover = false) :
    writeFile p "all" = .ok (a.dropLast ++ m ++ i ++ [endLine]) := by
  obtain ⟨he, -⟩ := writeFile_ok hm
  obtain ⟨f, n, hf, hnn, rfl⟩ := rest_parts ha
  have h1 := (writeFile_ok hm).2
  have h2 := (writeFile_ok hi).2
  rw [selected_mesh] at h1
  rw [selected_incon] at h2
  have hne : noverParts p = [.ok []] := by
    show [onlyIf p.nover _] = _
    rw [hn]
    rfl
  have hn0 : n = [] := by
    rw [hne] at hnn
    simpa [concatM] using hnn.symm
  subst hn0
  refine writeFile_of (by decide) he ?_
  rw [selected_all, hne, List.dropLast_concat]
  have hT : concatM id [(.ok (p.title.lines.map titleLine) : Except PyErr (List Str))] = .ok (p.title.lines.map titleLine) := by
    simp [concatM]
  have hE : concatM id ([.ok []] ++ [(.ok [endLine] : Except PyErr (List Str))]) = .ok [endLine] := by simp [concatM]
  rw [concatM_append_ok hT (concatM_append_ok hf (concatM_append_ok h1 (concatM_append_ok h2 hE)))]
  simp

/-- The blocks of the merged file one after the other. -/
theorem chain_merged {given : Option ℕ} {p : Params} (h : FileOk given p) (t : Option Title) :
    Chain given HN { FileRead.empty with title := t } (front p ++ (noverParts p ++ (meshParts p ++ inconParts p)))
      { fileBack p with title := t } := by
  obtain ⟨_, hr, hm, hs, hp, hse, hi, hmo, ho, hg, he, hc, hn⟩ := h
  obtain ⟨h1, h2, h3, h4, h5, h6⟩ := ho
  refine Chain.cons (chain_rocks heads_HN hr _) ?_
  refine Chain.cons (chain_rpcap heads_HN hr _ rfl) ?_
  refine Chain.cons (chain_flac heads_HN hr _ rfl rfl) ?_
  refine Chain.cons (chain_multi heads_HN hm _ rfl) ?_
  refine Chain.cons (chain_solvr heads_HN hs _ rfl) ?_
  refine Chain.cons (chain_start heads_HN _ rfl) ?_
  refine Chain.cons (chain_param hp _ rfl) ?_
  refine Chain.cons (chain_selec heads_HN hse _ rfl) ?_
  refine Chain.cons (chain_indom heads_HN hr hi _ rfl) ?_
  refine Chain.cons (chain_momop heads_HN hmo _ rfl) ?_
  refine Chain.cons (chain_times heads_HN h1 _ rfl) ?_
  refine Chain.cons (chain_foft heads_HN h2 _ rfl) ?_
  refine Chain.cons (chain_coft heads_HN h3 _ rfl) ?_
  refine Chain.cons (chain_goft heads_HN h4 _ rfl) ?_
  refine Chain.cons (chain_gener heads_HN hg _ rfl) ?_
  refine Chain.cons (chain_diffu h5 _ rfl) ?_
  refine Chain.cons (chain_outpu heads_HN h6 _ rfl) ?_
  refine Chain.cons (chain_nover heads_HN _ rfl) ?_
  refine Chain.cons (chain_eleme heads_HN he _ rfl rfl) ?_
  refine Chain.cons (chain_coord heads_HN he _ rfl rfl) ?_
  refine Chain.cons (chain_conne heads_HN hc _ rfl) ?_
  refine Chain.cons (chain_incon heads_HN hn _ rfl) ?_
  exact Chain.nil _ _ _

/-- C84. Reading the merged file gives the parameters with mesh and initial conditions:
for parameters that fit, as in C29, also with the block NOVER. -/
theorem C84_merge_read (given : Option ℕ) (hg : ∀ n ∈ given, 5 ≤ n ∧ n < 10) (p : Params) (h : FileOk given p)
    (he : p.elements ≠ []) :
    ∃ a m i, writeFile (withoutMesh p) "all" = .ok a ∧ writeFile p "mesh" = .ok m ∧ writeFile p "incon" = .ok i ∧
      (CleanLines a.dropLast → CleanLines m → CleanLines i → (∀ l ∈ a.dropLast, ¬ EndRecord l) →
        ∃ out ls, merge (some a.flatten) (some m.flatten) (if p.initialConditions = [] then none else some i.flatten) =
          .ok out ∧ IsLines out ls ∧ readFile given ls = .ok (fileBack p)) := by
  obtain ⟨body, hb, _, hr⟩ := chain_merged h (titleBack p.title)
  have hr := hr [endLine] (HN_end [])
  obtain ⟨f, y1, hf, g1, rfl⟩ := concatM_append_inv hb
  obtain ⟨n, y2, hn, g2, rfl⟩ := concatM_append_inv g1
  obtain ⟨m, i, hm, hi, rfl⟩ := concatM_append_inv g2
  have heos : p.eos = [] ∨ p.eos ∈ eosTable.map (·.1) := h.2.2.1.1
  have hT : concatM id [(.ok (p.title.lines.map titleLine) : Except PyErr (List Str))] =
      .ok (p.title.lines.map titleLine) := by simp [concatM]
  have hE : concatM id ([(.ok [] : Except PyErr (List Str)), .ok [], .ok []] ++ ([.ok []] ++ (noverParts p ++
      [.ok [endLine]]))) = .ok (n ++ [endLine]) := by
    have := concatM_append_ok (a := [(.ok [] : Except PyErr (List Str)), .ok [], .ok [], .ok []]) (l := []) rfl
      (concatM_append_ok hn (b := [.ok [endLine]]) (m := [endLine]) (by simp [concatM]))
    simpa using this
  have ha : writeFile (withoutMesh p) "all" = .ok (p.title.lines.map titleLine ++ (f ++ (n ++ [endLine]))) := by
    refine writeFile_of (by decide) heos ?_
    rw [selected_rest]
    exact concatM_append_ok hT (concatM_append_ok hf hE)
  have hm' : writeFile p "mesh" = .ok m := writeFile_of (by decide) heos hm
  have hi' : writeFile p "incon" = .ok i := writeFile_of (by decide) heos hi
  refine ⟨_, m, i, ha, hm', hi', fun hca hcm hci hend => ?_⟩
  obtain ⟨out, h1, h2⟩ := C84_merge p _ m i ha hm' hi' he hca hcm hci hend
  refine ⟨out, _, h1, h2, ?_⟩
  have hd : (p.title.lines.map titleLine ++ (f ++ (n ++ [endLine]))).dropLast =
      p.title.lines.map titleLine ++ (f ++ n) := by
    rw [← List.append_assoc, ← List.append_assoc, List.dropLast_concat, List.append_assoc]
  rw [hd]
  obtain ⟨f', rfl⟩ : ∃ f', f = headLine "ROCKS" :: f' :=
    head_of_concat (w := writeRocks p.rocksOrder p.merged) (ws := (front p).drop 1) (fun l hl => block_head hl) f hf
  have hL : p.title.lines.map titleLine ++ (headLine "ROCKS" :: f' ++ n) ++ m ++ i ++ [endLine] =
      p.title.lines.map titleLine ++ (headLine "ROCKS" :: (f' ++ (n ++ (m ++ i)) ++ [endLine])) := by simp
  rw [hL, readFile, if_pos (given_all hg), readBuffer, readTitle_titles h.1, ok_bind]
  rw [List.cons_append, List.cons_append] at hr
  have hdone := ((runs_titles (s := { FileRead.empty with title := titleBack p.title }) h.1 _).trans hr).done
  rw [hdone]
  rfl

example : FileOk none fullParams ∧ fullParams.elements ≠ [] ∧ (∀ a ∈ (writeFile (withoutMesh fullParams) "all").toOption,
    CleanLines a.dropLast ∧ ∀ l ∈ a.dropLast, ¬ EndRecord l) ∧
    (∀ m ∈ (writeFile fullParams "mesh").toOption, CleanLines m) ∧
    ∀ i ∈ (writeFile fullParams "incon").toOption, CleanLines i := by decide +kernel

/-- C84. A SAVE file that can be read, made an INCON file with reset, reads as the same
initial conditions: only the line `+++` and what follows, which is no block, is lost. -/
theorem C84_save (given : Option ℕ) (text head plus : Str) (body B : List Str)
    (hs : IsLines text (head :: body ++ plus :: B)) (hh : Opens "INCON" head) (hp : Opens "+++" plus)
    (hb : ∀ l ∈ body, NotBlank l ∧ ¬ Opens "+++" l) (hB : ∀ l ∈ B, NoHeader l) (r : FileRead)
    (hr : readFile given (head :: body ++ plus :: B) = .ok r) :
    ∃ out, save2incon true (some text) = (some out, .ok ()) ∧ IsLines out (head :: body ++ [['\n']]) ∧
      readFile given (head :: body ++ [['\n']]) = .ok r := by
  have hplus : startsPlus plus = true := (startsWith_take_iff _ _).2 hp
  have hrows : ∀ l ∈ body, stopsRows l = false := by
    intro l hl
    obtain ⟨h1, h2⟩ := hb l hl
    rw [stopsRows, Bool.or_eq_false_iff]
    refine ⟨?_, ?_⟩
    · unfold isBlank
      rw [List.isEmpty_eq_false_iff]
      exact h1
    · rw [← Bool.not_eq_true]
      exact fun h => h2 ((startsWith_take_iff _ _).1 h)
  obtain ⟨t, rfl⟩ : ∃ t, head = "INCON".toList ++ t := by
    refine ⟨head.drop 5, ?_⟩
    rw [← hh]
    exact (List.take_append_drop 5 head).symm
  have hend : startsWith ("INCON".toList ++ t) "ENDCY".toList = false := rfl
  have hnl : ∀ l ∈ ("INCON".toList ++ t) :: body, l.getLast? = some '\n' := by
    intro l hl
    refine hs.2.2 l ?_
    rw [List.dropLast_append_of_ne_nil (by simp)]
    exact List.mem_append_left _ hl
  have hopen : Opens "INCON" text := by
    rw [← hs.1]
    rfl
  have htake : (("INCON".toList ++ t) :: body ++ plus :: B).takeWhile (fun l => ¬ Opens "+++" l) =
      ("INCON".toList ++ t) :: body := by
    rw [List.takeWhile_append_of_pos]
    · rw [List.takeWhile_cons_of_neg (by simpa using hp), List.append_nil]
    · intro l hl
      rcases List.mem_cons.1 hl with rfl | hl
      · rw [decide_eq_true_eq]
        intro h
        have : some 'I' = some '+' := congrArg List.head? h
        exact absurd this (by decide)
      · exact decide_eq_true (hb l hl).2
  refine ⟨_, C52_reset_partial text hopen _ hs, ?_, ?_⟩
  · rw [htake]
    refine ⟨by simp, ?_, ?_⟩
    · intro l hl
      rcases List.mem_append.1 hl with hl | hl
      · exact hs.2.1 l (List.mem_append_left _ hl)
      · rw [List.mem_singleton.1 hl]
        decide
    · rw [List.dropLast_concat]
      exact hnl
  · unfold readFile at hr ⊢
    split at hr
    · rename_i hg
      rw [if_pos hg]
      unfold readBuffer at hr ⊢
      rw [List.cons_append, readTitle_incon, ok_bind] at hr ⊢
      set s0 : FileRead := { FileRead.empty with title := none } with hs0
      cases hx : readIncon given (body ++ plus :: B) with
      | error e =>
        have : whileTrue (fileStep given) s0 (("INCON".toList ++ t) :: (body ++ plus :: B)) = .error e := by
          unfold whileTrue
          rw [List.length_cons, loop, fileStep, if_neg (by rw [hend]; decide), dispatch_incon, hx]
          rfl
        rw [this] at hr
        cases hr
      | ok x =>
        obtain ⟨x, rest⟩ := x
        obtain ⟨rfl, hy⟩ := readIncon_plus hplus hrows hx
        have h1 := ((runs_turn (s := s0) hend (by rw [dispatch_incon, hx]; rfl)).trans
          (runs_noBlock _ fun l hl kw hk => by
            rw [← Bool.not_eq_true]
            exact fun h => hB l hl kw hk ((startsWith_take_iff _ _).1 h))).eof
        have h2 := (runs_turn (given := given) (s := s0) (line := "INCON".toList ++ t) hend
          (by rw [dispatch_incon, hy]; rfl)).eof
        rw [h1] at hr
        rw [h2]
        exact hr
    · cases hr

example : let head := "INCON    2    100.0\n".toList
    let body := ["A1112          0.10000000E+00\n".toList, " 0.1000000000000E+06 0.2000000000000E+02\n".toList]
    let plus := "+++\n".toList
    let B := ["    1    2\n".toList]
    IsLines (head :: body ++ plus :: B).flatten (head :: body ++ plus :: B) ∧ Opens "INCON" head ∧ Opens "+++" plus ∧
      (∀ l ∈ body, NotBlank l ∧ ¬ Opens "+++" l) ∧ (∀ l ∈ B, NoHeader l) ∧
      (readFile none (head :: body ++ plus :: B)).map (fun r => r.initialConditions.map fun t => t.1.length) =
        .ok (some 1) := by decide +kernel

end Verif.Props
