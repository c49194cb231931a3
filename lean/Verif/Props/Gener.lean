import Verif.Lemmas.Gener

/-!
# Properties of the GENER block (C21)
-/

set_option linter.unusedSimpArgs false

namespace Verif.Props
open Verif.Py Verif.Model Verif.Spec

/-- C21, partial (missing: elements whose sources mix a table without enthalpies
with sources that have one, see `C21_violated`). Every element comes back under
its label with its sources in order, each with its name, sequence numbers, type,
thickness, constant rate and enthalpy or tables of any length; the reader takes
exactly the lines of the block. The label length is given, or can be detected
from the first record. -/
theorem C21_gener_round_trip_partial (L : ℕ) (given : Option ℕ) (gens : List (Val × Gen))
    (hl : LabelsFit L (gens.map (·.1))) (hf : ∀ e ∈ gens, GenFits L e.2)
    (hd : given = some L ∨ given = none ∧ ∀ e ∈ gens.head?, ∀ c ∈ (sources e.2).head?,
      Detectable L e.1 (textOf c.name)) :
    ∃ body, writeGener gens = .ok (headLine "GENER" :: body) ∧
      ∀ rest, readGener given (body ++ rest) =
        .ok (gens.map fun e => (e.1, genBack (sources e.2)), rest) := by
  have hL : 5 ≤ L ∧ L ≤ 9 := ⟨hl.1, hl.2.1⟩
  have hk : ∀ e ∈ gens, NameFits L e.1 := fun e he => hl.2.2.2.1 e.1 (List.mem_map_of_mem he)
  have hne : gens ≠ [] := by
    rintro rfl
    obtain ⟨k, hk, -⟩ := hl.2.2.2.2
    simp at hk
  let w (e : Val × Gen) : List Str := (sources e.2).flatMap fun c => compLines L (e.1, c)
  refine ⟨gens.flatMap w ++ [['\n']], ?_, ?_⟩
  · have h1 : splitGens gens = .ok (gens.flatMap fun e => (sources e.2).map fun c => (e.1, c)) :=
      concatM_ok fun e he => by simp [genComps_eq (hf e he).1]
    have h2 : concatM (writeComp (generFmt L))
        (gens.flatMap fun e => (sources e.2).map fun c => (e.1, c)) = .ok (gens.flatMap w) := by
      rw [concatM_ok (g := compLines L)]
      · congr 1
        rw [List.flatMap_assoc]
        apply List.flatMap_congr
        intro e _
        simp [w, List.flatMap_map]
      · intro x hx
        obtain ⟨e, he, hx⟩ := List.mem_flatMap.1 hx
        obtain ⟨c, hc, rfl⟩ := List.mem_map.1 hx
        exact writeComp_eq (hk e he) ((hf e he).2.2.1 c hc)
    unfold writeGener block
    simp only [h1, maxLen_eq hl, (formatFor_gener hL).1, h2, ok_bind]
    rfl
  · intro rest
    obtain ⟨e, gs, rfl⟩ := List.exists_cons_of_ne_nil hne
    obtain ⟨c, cs, hcs⟩ := List.exists_cons_of_ne_nil (hf e (by simp)).2.1
    have hfit := allFit_gener (hk e (by simp)) ((hf e (by simp)).2.2.1 c (by simp [hcs]))
    set line := lineOf (generFmt L) (generRecord e.1 c (ltabSpec c)) with hline
    have hlab : labelLength given line = L := by
      rcases hd with rfl | ⟨rfl, hd⟩
      · obtain ⟨n, rfl⟩ : ∃ n, L = n + 1 := ⟨L - 1, by omega⟩
        rfl
      · have hd1 := hd e (by simp) c (by simp [hcs])
        show getLabelLength (line.take 9) = L
        refine detect_line hL hfit (by decide) ?_
        cases hke : e.1 with
        | str s =>
          rw [hke] at hd1
          refine ⟨hd1.1, hd1.2.1, ?_⟩
          intro x hx
          cases hn : c.name with
          | str n =>
            cases n with
            | nil => rw [hn] at hx; revert hx; simp [fieldOf, toStr, padRight, blanks]; rintro rfl; decide
            | cons y n =>
              rw [hn] at hx hd1
              have hx' : y = x := by simpa [fieldOf, toStr, padRight] using hx
              exact hd1.2.2 x (by simp [textOf, hx'])
          | none => rw [hn] at hx; revert hx; simp [fieldOf, toStr, padRight, blanks]; rintro rfl; decide
          | bool _ => rw [hn] at hx; simp [fieldOf, toStr] at hx
          | int _ => rw [hn] at hx; simp [fieldOf, toStr] at hx
          | flt v =>
            have hv := hfit.2.1
            rw [hn] at hv
            exact hv.elim
        | none => rw [hke] at hd1; exact hd1.elim
        | bool _ => rw [hke] at hd1; exact hd1.elim
        | int _ => rw [hke] at hd1; exact hd1.elim
        | flt _ => rw [hke] at hd1; exact hd1.elim
    have hloop := loop_gens hL (e :: gs) hk hf [] (by simpa using hl.2.2.1) 1 (['\n'] :: rest)
    have hstop : ∀ s, loop (generStep (.ok (generFmt L))) 1 s (['\n'] :: rest) = .ok (s, rest) := by
      intro s
      simp [loop, generStep, isBlank_newline]
    rw [hstop, List.nil_append] at hloop
    have hbody : ((e :: gs).flatMap w ++ [['\n']]) ++ rest =
        (e :: gs).flatMap w ++ ['\n'] :: rest := by simp
    have hcons : ∃ t, (e :: gs).flatMap w ++ ['\n'] :: rest = line :: t := by
      refine ⟨allTabs c ++ ((cs.flatMap fun c => compLines L (e.1, c)) ++
        (gs.flatMap w ++ ['\n'] :: rest)), ?_⟩
      simp [w, hcs, compLines, hline, List.append_assoc]
    have hw := whileTrue_of_loop hloop (by
      have h1 : ∀ l : List (Val × Gen), (l.map fun e => (sources e.2).length).sum ≤
          (l.flatMap w).length := by
        intro l
        induction l with
        | nil => simp
        | cons x l ih =>
          have h2 : (sources x.2).length ≤ (w x).length :=
            length_le_flatMap _ _ fun c _ => by simp [compLines]
          simp only [List.map_cons, List.sum_cons, List.flatMap_cons, List.length_append]
          omega
      have := h1 (e :: gs)
      simp only [List.length_append, List.length_cons]
      show _ ≤ ((e :: gs).flatMap w).length + _ + 1
      omega)
    rw [hbody, readGener]
    obtain ⟨t, ht⟩ := hcons
    have hnext : next ((e :: gs).flatMap w ++ ['\n'] :: rest) = .ok (line, t) := by rw [ht]; rfl
    rw [hnext, ok_bind]
    simp only [hlab, (formatFor_gener hL).1]
    show (whileTrue _ [] ((e :: gs).flatMap w ++ ['\n'] :: rest) >>= _) = _
    rw [hw, ok_bind]
    simp only [List.map_map]
    congr 2
    apply List.map_congr_left
    intro x hx
    obtain ⟨-, h2, -, h4⟩ := hf x hx
    simp [Function.comp, tidyGen_eq h2 h4]

/-- A constant source. -/
def constantSource (name : String) (rate enthalpy : ℚ≥0) : Comp where
  name := .str name.toList
  nseq := .none
  nadd := .none
  nads := .none
  type := .str "MASS".toList
  times := .one .none
  rates := .one (.flt (.fin false rate))
  enthalpy := .one (.flt (.fin false enthalpy))
  thickness := .none

/-- A source given by a table of five times. -/
def tableSource (name : String) : Comp where
  name := .str name.toList
  nseq := .int 3
  nadd := .none
  nads := .none
  type := .str "COM1".toList
  times := .many ((List.range 5).map fun k : ℕ => .flt (.fin false k))
  rates := .many ((List.range 5).map fun k : ℕ => .flt (.fin false (k / 7)))
  enthalpy := .many ((List.range 5).map fun k : ℕ => .int (1000 * k))
  thickness := .flt (.fin false (1 / 2))

example : let gens : List (Val × Gen) :=
      [(.str "AAA012".toList, .single (constantSource "WELL" 2 3)),
       (.str "AAA013".toList, .single (tableSource "INJ")),
       (.str "BAA013".toList, .multi ⟨.none, .none, .none, .list [.int 1, .none],
          [.str "HEAT".toList, .str "MASS".toList], .none,
          .list [.one (.int 3), .one .none], .none, .none⟩)]
    LabelsFit 6 (gens.map (·.1)) ∧ (∀ e ∈ gens, GenFits 6 e.2) ∧
      ∀ e ∈ gens.head?, ∀ c ∈ (sources e.2).head?, Detectable 6 e.1 (textOf c.name) := by
  decide +kernel

/-- What is written for several sources on one element. -/
def twoSources (c c' : Comp) : Gen :=
  .multi ⟨.list [c.name, c'.name], .list [c.nseq, c'.nseq], .list [c.nadd, c'.nadd],
    .list [c.nads, c'.nads], [c.type, c'.type], .list [c.times, c'.times], .list [c.rates, c'.rates],
    .list [c.enthalpy, c'.enthalpy], .list [c.thickness, c'.thickness]⟩

/-- A table without enthalpies. -/
def bareSource : Comp := { tableSource "BARE" with enthalpy := .one .none }

/-- C21. The code violates the rest of the property: if a constant source comes
before a table without enthalpies on the same element, the file that was written
cannot be read (`KeyError`); in the other order the enthalpy of the constant
source is lost. -/
theorem C21_violated :
    (∃ body, writeGener [(.str "A1112".toList, twoSources (constantSource "WELL" 2 3) bareSource)] =
        .ok (headLine "GENER" :: body) ∧ readGener none body = .error .keyError) ∧
    (∃ body g, writeGener [(.str "A1112".toList, twoSources bareSource (constantSource "WELL" 2 3))] =
        .ok (headLine "GENER" :: body) ∧
        readGener none body = .ok ([(.str "A1112".toList, g)], []) ∧ g.enthalpy = .one (.one .none)) := by
  refine ⟨⟨compLines 5 (.str "A1112".toList, constantSource "WELL" 2 3) ++
    compLines 5 (.str "A1112".toList, bareSource) ++ [['\n']], ?_, ?_⟩,
    ⟨compLines 5 (.str "A1112".toList, bareSource) ++
    compLines 5 (.str "A1112".toList, constantSource "WELL" 2 3) ++ [['\n']],
    { genBack [bareSource, constantSource "WELL" 2 3] with enthalpy := .one (.one .none) },
      ?_, ?_, rfl⟩⟩
  all_goals decide +kernel

/-- C21. A single time (not a list) is not written. -/
theorem C21_scalar_time_dropped (k : Val) (c : Comp) (t : Val) :
    writeGener [(k, .single { c with times := .one t })] =
      writeGener [(k, .single { c with times := .one .none })] := by
  rfl

end Verif.Props
