import Verif.Lemmas.AgainMesh

/-!
# C91: saving a file that was loaded gives the same file
-/

set_option linter.unusedSimpArgs false

namespace Verif.Props
open Verif.Py Verif.Model Verif.Spec

/-- Writing parameters, reading the file, and writing what was read. -/
def saveAgain (given : Option ℕ) (p : Params) (blk : String) : Except PyErr (List Str) := do
  let lines ← writeFile p blk
  let r ← readFile given lines
  writeFile r.params blk

theorem fileParts_back {given : Option ℕ} {p : Params} (h : FileOk given p) (hs : Settled p) :
    fileParts (fileBack p).params = fileParts p := by
  obtain ⟨-, h2, h3, h4, h5, h6, h7, h8, h9, h10, h11, h12, h13⟩ := h
  obtain ⟨s1, s2, s3, s4, s5, s6, s7, s8, s9, s10, s11, s12, s13, s14, s15, s16, s17, s18, s19⟩ := hs
  obtain ⟨o1, o2, o3, o4, o5, o6⟩ := h9
  have e4 : (fileBack p).params.flac = none := by simp [FileRead.params, fileBack, s5]
  have e7 : (fileBack p).params.start = true := by simp [FileRead.params, fileBack, s8]
  have e23 : (fileBack p).params.nover = p.nover := by
    cases hn : p.nover <;> simp [FileRead.params, fileBack, hn]
  have n1 : (fileBack p).params.elementHistory = p.elementHistory := again_names o2
  have n2 : (fileBack p).params.connectionHistory = p.connectionHistory := again_names o3
  have n3 : (fileBack p).params.generatorHistory = p.generatorHistory := again_names o4
  unfold fileParts
  rw [again_title s1.1 s1.2, again_rocks h2 s5 s2, again_rpcap h2 s3 s4, again_multi h3 s6,
    again_solvr h4 s7, again_param h5 s9 s10, again_selec h6 s11, again_indom h2 h7 s2,
    again_momop h8 s12, again_times o1 s13, n1, n2, n3, again_gener h10 s14, again_diffu o5 s15,
    again_outpu o6, (again_eleme h11 s16.1 s16.2).1, (again_eleme h11 s16.1 s16.2).2,
    again_conne h12 s17.1 s17.2, again_incon h13 s18 s19, e4, s5, e7, s8, e23]
  rfl

/-- C91, partial: `Settled` leaves out the parameters for which a block changes,
see the theorems below; the checks of types are left to C92. Parameters that fit are written; the file is read; and what was read
is written as the same file, whichever part of it is asked for. -/
theorem C91_partial (given : Option ℕ) (hg : ∀ n ∈ given, 5 ≤ n ∧ n < 10) (p : Params)
    (h : FileOk given p) (hs : Settled p) :
    ∃ lines r, writeFile p "all" = .ok lines ∧ readFile given lines = .ok r ∧
      writeFile r.params "all" = .ok lines ∧ ∀ blk, writeFile r.params blk = writeFile p blk := by
  obtain ⟨lines, hw, hr⟩ := C29_file_round_trip_partial given hg p h
  have hb : ∀ blk, writeFile (fileBack p).params blk = writeFile p blk := by
    intro blk
    have he : (fileBack p).params.eos = [] := rfl
    unfold writeFile selected
    rw [fileParts_back h hs, he]
    have : ¬ (p.eos ≠ [] ∧ p.eos ∉ eosTable.map (·.1)) := by
      rintro ⟨h1, h2⟩
      exact (h.2.2.1.1).elim h1 h2
    rw [if_neg this]
    simp
  exact ⟨lines, _, hw, hr, by rw [hb, hw], hb⟩

/-- `fullParams` with titles that start in the first column. -/
def settledParams : Params := { fullParams with
  title := .many ["CO2 injection".toList, "second line".toList] }

set_option maxRecDepth 20000 in
example : FileOk none settledParams ∧ Settled settledParams := by decide +kernel

/-- One element, time steps, the START block. -/
def plainParams : Params := { oneElement with
  title := .one "A".toList
  start := true
  options := { Options.empty with tSteps := .one (.int 1) } }

example : FileOk none plainParams ∧ Settled plainParams ∧
    saveAgain none plainParams "all" = writeFile plainParams "all" := by decide +kernel

/-- The file is another one after it was loaded and saved. -/
def Changed (p : Params) : Prop :=
  match writeFile p "all", saveAgain none p "all" with
  | .ok a, .ok b => a ≠ b
  | _, _ => False

instance (p : Params) : Decidable (Changed p) := by unfold Changed; split <;> infer_instance

/-- C91. The code violates the property in full. Without the START block the block
is added: the reader does not return `start`, which the writer then takes as
`True`. -/
theorem C91_violated : FileOk none { plainParams with start := false } ∧
    Changed { plainParams with start := false } ∧
    saveAgain none { plainParams with start := false } "all" = writeFile plainParams "all" := by
  decide +kernel

/-- C91. Blanks before the title are lost. -/
theorem C91_violated_title : FileOk none { plainParams with title := .one " A".toList } ∧
    Changed { plainParams with title := .one " A".toList } := by decide +kernel

/-- C91. A file without time steps gets a record of them. -/
theorem C91_violated_steps : FileOk none { plainParams with options := Options.empty } ∧
    Changed { plainParams with options := Options.empty } := by decide +kernel

/-- C91. The number of components with mass of the MULTI block is lost. -/
theorem C91_violated_components :
    FileOk none { plainParams with eos := "eco2n".toList, nComponentMass := some 2 } ∧
    Changed { plainParams with eos := "eco2n".toList, nComponentMass := some 2 } := by
  decide +kernel

/-- C91. A block MOMOP without options is lost. -/
theorem C91_violated_momop :
    FileOk none { plainParams with moreOptions := [(1, .none)] } ∧
    Changed { plainParams with moreOptions := [(1, .none)] } := by decide +kernel

/-- C91. An initial condition of which the second record is blank loses that record. -/
theorem C91_violated_initial :
    FileOk none { plainParams with
      dflt := { noRock with initCond := some [.int 1, .int 2, .int 3, .int 4, .none] } } ∧
    Changed { plainParams with
      dflt := { noRock with initCond := some [.int 1, .int 2, .int 3, .int 4, .none] } } := by
  decide +kernel

/-- C91. A block SELEC without floats is loaded, but it cannot be saved again. -/
theorem C91_violated_selec :
    FileOk none { plainParams with selections := some (some [(1, .int 0)], .row []) } ∧
    saveAgain none { plainParams with selections := some (some [(1, .int 0)], .row []) } "all" =
      .error .keyError := by decide +kernel

/-- C91. A source without a type is loaded, but it cannot be saved again. -/
theorem C91_violated_gener :
    FileOk none { plainParams with
      generators := [(.str "AAA12".toList, .single { constantSource "WEL" 2 3 with type := .str [] })] } ∧
    saveAgain none { plainParams with
      generators := [(.str "AAA12".toList, .single { constantSource "WEL" 2 3 with type := .str [] })] } "all" =
      .error .typeError := by decide +kernel

/-- C91. A centre is rounded twice if it is written in both ELEME and COORD. -/
theorem C91_violated_centre :
    FileOk none { plainParams with
      coordinates := true
      elements := [(.str "AAA12".toList, sandElem .none 1000 (1023.5 - 1 / 2 ^ 42))] } ∧
    Changed { plainParams with coordinates := true
                               elements := [(.str "AAA12".toList, sandElem .none 1000 (1023.5 - 1 / 2 ^ 42))] } := by
  decide +kernel

end Verif.Props
