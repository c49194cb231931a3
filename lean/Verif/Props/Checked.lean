import Verif.Lemmas.TypedOnly
import Verif.Lemmas.TypedFile
import Verif.Props.Again
import Verif.Lemmas.Refuse

/-!
# C92: what the writer asks of the types, and what was loaded meets it
-/

namespace Verif.Props
open Verif.Py Verif.Model Verif.Spec

/-- C92. The writer with its checks writes a file exactly if the parameters have the
right types and the writer without checks writes it; and it is the same file. -/
theorem C92_exact (p : Params) (lines : List Str) :
    writeChecked p "all" = .ok lines ↔ Typed p ∧ writeFile p "all" = .ok lines :=
  ⟨fun h => ⟨(writeChecked_only h).2, (writeChecked_only h).1⟩,
    fun ⟨ht, hw⟩ => by rw [writeChecked_eq ht, hw]⟩

set_option maxRecDepth 20000 in
example : Typed settledParams ∧ (writeFile settledParams "all").isOk := by decide +kernel

/-- One element with a text as volume. -/
def textVolume : Params := { plainParams with
  elements := plainParams.elements.map fun e => (e.1, { e.2 with volume := .str "1.".toList }) }

example : ¬ Typed textVolume ∧ writeChecked textVolume "all" = .error .typeError := by
  decide +kernel

/-- C92. With parameters of the right types every part of a file is written as
without checks, with the same errors. -/
theorem C92_typed (p : Params) (h : Typed p) (blk : String) :
    writeChecked p blk = writeFile p blk := writeChecked_eq h blk

example : Typed plainParams ∧ (writeFile plainParams "mesh").isOk := by decide +kernel

/-- C92. What is loaded from any file passes the checks, if the parts that are
written are the mesh, the generators or the initial conditions. -/
theorem C92_loaded_blocks (given : Option ℕ) (ls : List Str) (r : FileRead)
    (h : readFile given ls = .ok r) (blk : String) (hb : blk ≠ "all") :
    writeChecked r.params blk = writeFile r.params blk :=
  writeChecked_but (params_typed (readFile_typed given ls r h)) blk hb

/-- C92, partial: the block `FLAC` must not give the creep, see `C92_violated`.
What is loaded from any file has the right types: to save it, no check fails. -/
theorem C92_loaded_partial (given : Option ℕ) (ls : List Str) (r : FileRead)
    (h : readFile given ls = .ok r) (hc : ∀ f ∈ r.flac, f.creep = .none) (blk : String) :
    Typed r.params ∧ writeChecked r.params blk = writeFile r.params blk :=
  have ht := params_typed_flac (readFile_typed given ls r h) hc
  ⟨ht, writeChecked_eq ht blk⟩

/-- What is loaded from the lines that are written. -/
def loadSaved (p : Params) : Except PyErr FileRead := do
  let lines ← writeFile p "all"
  readFile none lines

set_option maxRecDepth 20000 in
example : ∃ r, loadSaved settledParams = .ok r ∧ r.flac = none := by
  have : ((loadSaved settledParams).toOption.map (·.flac)) = some none := by decide +kernel
  cases h : loadSaved settledParams with
  | error e => rw [h] at this; cases this
  | ok r =>
    rw [h] at this
    simp only [Except.toOption, Option.map_some, Option.some.injEq] at this
    exact ⟨r, rfl, this⟩

/-- C92, violated: a file whose block `FLAC` gives the creep is loaded, but it
cannot be saved: the reader returns an integer, and the writer asks for a boolean. -/
theorem C92_creep (given : Option ℕ) (ls : List Str) (r : FileRead) (f : Flac)
    (h : readFile given ls = .ok r) (hf : r.flac = some f) (hc : f.creep ≠ .none) :
    ∃ e, writeChecked r.params "all" = .error e := by
  cases hw : writeChecked r.params "all" with
  | error e => exact ⟨e, rfl⟩
  | ok l =>
    have h1 := ((C92_exact _ _).1 hw).1.2 f hf
    have h2 := (readFile_typed given ls r h).flac f hf
    have h3 : AsFlag f.creep := h1.1.1
    have h4 : IntRead f.creep := h2.1
    cases hv : f.creep <;> simp_all [AsFlag, IntRead]

/-- C92. If the title, ROCKS and RPCAP can be written, the error is a `TypeError`. -/
theorem C92_creep_error (given : Option ℕ) (ls : List Str) (r : FileRead) (f : Flac)
    (h : readFile given ls = .ok r) (hf : r.flac = some f) (hc : f.creep ≠ .none)
    (hp : ∀ e ∈ (fileParts r.params).take 3, ∃ x, e.2.2 = .ok x) :
    writeChecked r.params "all" = .error .typeError := by
  have ht := readFile_typed given ls r h
  have hk : flacPart r.params = .error .typeError := by
    have hr : runChecks "_write_flac" r.params.tree = .error .typeError := by
      have hl : r.params.tree.lookup (key "flac") = some (orNone Flac.tree r.params.flac) := rfl
      have hf' : r.params.flac = some f := hf
      rw [hf'] at hl
      have hb : (checkParameters dtFlac [key "flac"] false r.params.tree).2 = .error .typeError := by
        refine ((C31_dictionary dtFlac (by decide +kernel) [key "flac"] r.params.tree _
          (.down hl (.here _))).1).2 ⟨(key "creep", f.creep.tree), by simp, ?_, "bool", rfl, ?_⟩
        · cases hv : f.creep <;> simp_all [Val.tree]
        · have h4 : IntRead f.creep := (ht.flac f hf).1
          cases hv : f.creep <;> simp_all [Val.tree, IntRead, Meets, IsFlag]
      have he : runChecks "_write_flac" r.params.tree =
          ((checkParameters dtFlac [key "flac"] false r.params.tree).2 >>= fun _ => passAll
            [(checkParameters dtModel [key "default", key "permeability_model"] false
              r.params.tree).2,
            (checkParameters dtModel [key "default", key "equivalent_pore_pressure"] false
              r.params.tree).2,
            (checkParameters dtModel [key "rocks", key "permeability_model"] true r.params.tree).2,
            (checkParameters dtModel [key "rocks", key "equivalent_pore_pressure"] true
              r.params.tree).2]) := rfl
      rw [he, hb]
      rfl
    have hf' : r.params.flac = some f := hf
    rw [flacPart, hf']
    show guarded "_write_flac" r.params _ = _
    rw [guarded, hr]
    rfl
  have heos : ¬ (r.params.eos ≠ [] ∧ r.params.eos ∉ eosTable.map (·.1)) := fun h => h.1 rfl
  unfold writeChecked
  rw [if_neg (by decide), checks_buffer (params_typed ht), checkedParts_but (params_typed ht),
    ok_bind, if_neg heos, List.filter_append, List.map_append, List.filter_cons, if_pos (by rfl),
    List.map_cons]
  refine concatM_error_at (x := ((((fileParts r.params).take 3).filter
    (fun e => e.2.1.contains "all")).map (·.2.2)).flatMap fun m => m.toOption.getD []) ?_ hk
  refine concatM_ok fun m hm => ?_
  obtain ⟨e, he, rfl⟩ := List.mem_map.1 hm
  obtain ⟨x, hx⟩ := hp e (List.mem_filter.1 he).1
  rw [hx]
  rfl

/-- C92, violated: parameters with FLAC options that fit are written, and the file
is read, but what was read is never written again. -/
theorem C92_flac (given : Option ℕ) (hg : ∀ n ∈ given, 5 ≤ n ∧ n < 10) (p : Params) (f : Flac)
    (h : FileOk given p) (hf : p.flac = some f) :
    ∃ lines r e, writeFile p "all" = .ok lines ∧ readFile given lines = .ok r ∧
      writeChecked r.params "all" = .error e := by
  obtain ⟨lines, hw, hr⟩ := C29_file_round_trip_partial given hg p h
  obtain ⟨e, he⟩ := C92_creep given lines (fileBack p) _ hr
    (show (fileBack p).flac = some _ by rw [fileBack, hf]; rfl) (by simp)
  exact ⟨lines, _, e, hw, hr, he⟩

/-- A rock and FLAC options. -/
def flacParams : Params := { plainParams with
  rocks := [(.str "SAND1".toList, { noRock with density := some (.int 2600) })]
  flac := some ⟨.bool true, .int 1, .int 5⟩ }

/-- C92, violated: a file with FLAC options passes the checks, is written and loaded,
and then it is refused with a `TypeError`. -/
theorem C92_violated : FileOk none flacParams ∧ Typed flacParams ∧
    (writeChecked flacParams "all").isOk ∧
    (loadSaved flacParams >>= fun r => writeChecked r.params "all") = .error .typeError := by
  decide +kernel

/-- What `C92_loaded_blocks`, `C92_creep` and `C92_creep_error` ask for. -/
example : ∃ lines r f, readFile none lines = .ok r ∧ r.flac = some f ∧ f.creep ≠ .none ∧
    (∀ e ∈ (fileParts r.params).take 3, ∃ x, e.2.2 = .ok x) ∧
    ∃ x, writeChecked r.params "mesh" = .ok x := by
  obtain ⟨lines, hw, hr⟩ := C29_file_round_trip_partial none (by simp) flacParams
    (by decide +kernel)
  have hp : ∀ e ∈ (fileParts (fileBack flacParams).params).take 3, e.2.2.isOk := by decide +kernel
  have hm : (writeChecked (fileBack flacParams).params "mesh").isOk := by decide +kernel
  refine ⟨lines, _, _, hr, rfl, by simp, fun e he => ?_, ?_⟩
  · have := hp e he
    cases h : e.2.2 with
    | ok x => exact ⟨x, rfl⟩
    | error e => rw [h] at this; cases this
  · cases h : writeChecked (fileBack flacParams).params "mesh" with
    | ok x => exact ⟨x, rfl⟩
    | error e => rw [h] at hm; cases hm

/-- C92 with C91. Parameters that fit, are settled and have the right types are
written; the file is read; and what was read passes the checks and is written as the
same file. -/
theorem C92_again_partial (given : Option ℕ) (hg : ∀ n ∈ given, 5 ≤ n ∧ n < 10) (p : Params)
    (h : FileOk given p) (hs : Settled p) (ht : Typed p) :
    ∃ lines r, writeChecked p "all" = .ok lines ∧ readFile given lines = .ok r ∧
      writeChecked r.params "all" = .ok lines ∧
      ∀ blk, writeChecked r.params blk = writeChecked p blk := by
  obtain ⟨lines, hw, hr⟩ := C29_file_round_trip_partial given hg p h
  obtain ⟨lines', r, hw', hr', ha, hb⟩ := C91_partial given hg p h hs
  rw [hw] at hw'
  cases hw'
  rw [hr] at hr'
  cases hr'
  have hf : p.flac = none := hs.2.2.2.2.1
  have hn : (fileBack p).flac = none := by rw [fileBack, hf]; rfl
  have hl := C92_loaded_partial given lines _ hr (by simp [hn])
  refine ⟨lines, _, by rw [writeChecked_eq ht, hw], hr, by rw [(hl "all").2, ha], fun blk => ?_⟩
  rw [(hl blk).2, hb, writeChecked_eq ht]

set_option maxRecDepth 20000 in
example : FileOk none settledParams ∧ Settled settledParams ∧ Typed settledParams := by
  decide +kernel

end Verif.Props
