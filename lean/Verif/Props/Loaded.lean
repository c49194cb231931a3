import Verif.Lemmas.LoadedParams
import Verif.Props.Json

/-!
# Conversion of TOUGH input files to JSON (C96)
-/

namespace Verif.Props
open Verif.Py Verif.Model Verif.Spec

/-- C96. What is loaded from any TOUGH input file that can be read, saved as a JSON file and
loaded again, is what was loaded first, if every row has a label. -/
theorem C96_json_partial {given : Option ℕ} {lines : List Str} {r : FileRead}
    (h : readFile given lines = .ok r) (hl : ∀ l ∈ rowLabels r, l ≠ .none) :
    ∃ f q, writeJson (.dict r.loaded) = .ok f ∧ readJson f = .ok (.dict q) ∧
      List.Forall₂ (fun e e' => e'.1 = e.1 ∧ Unchanged e.1 e.2 e'.2) r.loaded q := by
  have hp := loaded_part (readFile_keyed given lines r h) hl
  obtain ⟨f, q, h1, h2, h3⟩ := C33_json_round_trip_partial _ (part_jsonOk hp)
  exact ⟨f, q, h1, h2, forall₂_imp_left h3 fun a b ha hab => ⟨hab.1, unchanged_of (hp.2 a ha) hab.2⟩⟩

/-- A file with a rock, options and a selection. -/
def toJsonLines : List Str :=
  ["ROCKS\n".toList, "dfalt     2.600E+03\n".toList, "\n".toList, "START\n".toList, "MOMOP\n".toList,
    "2   5\n".toList, "SELEC\n".toList, "    1\n".toList, "1.0000E+00\n".toList, "ENDCY\n".toList]

/-- What is loaded from it. -/
def toJsonRead : FileRead := { FileRead.empty with
  rocks := some ([(.str "dfalt".toList, { Rock.empty with density := .flt (.fin false 2600) })],
    [.str "dfalt".toList])
  start := some true
  moreOptions := some [(1, .int 2), (5, .int 5)]
  selections := some ⟨[(1, .int 1)], some (.row [.flt (.fin false 1)])⟩ }

example : readFile none toJsonLines = .ok toJsonRead ∧ ∀ l ∈ rowLabels toJsonRead, l ≠ .none := by
  constructor
  · decide +kernel
  · decide +kernel

/-- C96. What goes into the JSON file is what the writer of TOUGH files gets for the same
parameters: every key is one that it knows, with the same value or with a dictionary of some of
the same entries. The title, which the writer of TOUGH files makes a list, is left out. -/
theorem C96_keys {given : Option ℕ} {lines : List Str} {r : FileRead} (h : readFile given lines = .ok r) :
    (∀ e ∈ r.loaded, e.1 ≠ key "title" → e.1 ≠ key "generators" →
        ∃ t, (e.1, t) ∈ r.params.tree ∧ Within e.2 t) ∧
      ∀ (n a b c th : Val) (t q i : SoL) (s : Str) (g : GenOut),
        g = ⟨.one n, .one a, .one b, .one c, .one (.str s), .one th, .one t, .one q, .one i⟩ →
        ∀ e ∈ g.loaded, e ∈ g.gen.entries := by
  refine ⟨fun e he h1 h2 => loaded_known (readFile_keyed given lines r h) he h1 h2, ?_⟩
  rintro n a b c th t q i s g rfl
  exact gen_sub n a b c th t q i s

example : ∃ r, readFile none toJsonLines = .ok r := ⟨toJsonRead, by decide +kernel⟩

/-- C96. Nothing that was loaded is left out: the entries of a block are there if the block was. -/
theorem C96_blocks (r : FileRead) :
    (∀ t, r.title = some t → (key "title", t.tree) ∈ r.loaded) ∧
      (∀ x, r.rocks = some x → (key "rocks", rowsTree Rock.loaded x.1) ∈ r.loaded ∧
        (key "rocks_order", listTree x.2) ∈ r.loaded) ∧
      (∀ x, r.elements = some x → (key "elements", rowsTree Elem.loaded x.1) ∈ r.loaded ∧
        (key "elements_order", listTree x.2) ∈ r.loaded) ∧
      (∀ x, r.connections = some x → (key "connections", rowsTree Conn.loaded x.1) ∈ r.loaded ∧
        (key "connections_order", listTree x.2) ∈ r.loaded) ∧
      (∀ x, r.generators = some x → (key "generators", rowsTree GenOut.loaded x) ∈ r.loaded) := by
  refine ⟨fun t h => ?_, fun x h => ?_, fun x h => ?_, fun x h => ?_, fun x h => ?_⟩ <;>
    simp [FileRead.loaded, h, ifKey, tableLoaded]

example : toJsonRead.rocks ≠ none := by decide +kernel

/-- C96 is violated by the code: a rock without a name is loaded with the key `None`, and comes
back from the JSON file with the name `null`, while the order still has `None`. -/
theorem C96_unnamed_violated :
    readFile none ["ROCKS\n".toList, "          2.600E+03\n".toList, "\n".toList, "ENDCY\n".toList] =
        .ok { FileRead.empty with
          rocks := some ([(.none, { Rock.empty with density := .flt (.fin false 2600) })], [.none]) } ∧
      ∀ r : FileRead, r = { FileRead.empty with
          rocks := some ([(.none, { Rock.empty with density := .flt (.fin false 2600) })], [.none]) } →
        (writeJson (.dict r.loaded) >>= readJson) =
          .ok (.dict [(key "rocks", .dict [(key "null", .dict [(key "density", .flt (.fin false 2600))])]),
            (key "rocks_order", .list [.none])]) ∧
        r.loaded = [(key "rocks", .dict [(.null, .dict [(key "density", .flt (.fin false 2600))])]),
            (key "rocks_order", .list [.none])] := by
  refine ⟨by decide +kernel, ?_⟩
  rintro r rfl
  exact ⟨rfl, rfl⟩

end Verif.Props
