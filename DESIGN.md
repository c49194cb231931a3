# Machine-checked model of ToughIO

This file says what is modelled, how each property of `properties.jsonl` is
proved, and what has to be trusted. The Lean project is in `lean/`; the theorem
names per property are listed in `MANIFEST.json`.

## Layout

* `lean/Verif/Py/*`      Python primitives (text, numbers, formatting, parsing).
* `lean/Verif/Model/*`   the model of the library, function by function, each
  definition citing the file and lines it mirrors.
* `lean/Verif/Spec/*`    small independent specifications used in statements.
* `lean/Verif/Lemmas/*`  helper lemmas.
* `lean/Verif/Props/*`   the property theorems (one file per topic), each with an
  `example` meeting its hypotheses.

## Modelling decisions

* **Text** is `List Char`. Python `str.strip/isdigit/upper/...` are modelled for
  all characters for whitespace and on ASCII for digits and letter case
  (non-ASCII digits and case pairs are treated as ordinary characters).
* **Floats** are IEEE binary64 values seen as exact rationals with a sign bit,
  plus infinities and NaN. `format(x, '.pe')` is the correctly rounded
  (half-even) decimal of the exact value, as CPython does; `float(text)` is the
  exact decimal rounded to nearest-even binary64; `str(x)` is the shortest decimal
  that gives `x` again (that one exists with 17 digits is proved). No other floating-point
  arithmetic happens in the input/output code. Geometry (volumes, areas,
  distances) and the curve models are over exact ordered fields / the reals:
  floating-point rounding of arithmetic is *not* modelled there.
* **Files** are lists of lines (each ending in `\n` except possibly the last).
  `next(f)` at end of file is the error value `StopIteration`;
  `tell`/`seek` is going back to the remaining list of lines.
* **Binary files** are lists of natural numbers below 256; `struct` and UTF-8 are
  modelled for the codes in use, a float is packed as its 64 bits (one NaN).
* **Exceptions** are values (`Except PyErr`). Non-termination is the explicit
  error value `Diverges`, justified by a theorem about the fuelled loop.
* **Parameter dictionaries** are typed records per block: a field of type
  `Option` stands for "key absent or value None" (the writers first merge the
  dictionary into a table of `None` defaults). Where an absent key behaves
  differently from `None` the model keeps both. The dynamic type checks are
  modelled separately (C31).
* numpy arrays are lists (with their dtype where it matters: boolean, integer,
  text); logging, warnings and progress output are dropped.
* **Meshes**: points are triples over an arbitrary linearly ordered field,
  arithmetic is exact; cells are lists of point numbers with a cell type.
  `numpy.unique` is modelled as sorted distinct rows with the first index and
  the inverse; `numpy.argsort`/`argmin` take the first of equal values.
* **Curves**: real numbers with the Python rules for division by zero and for
  powers; a complex result is the value `other`.
* **JSON**: trees of dynamic values; that `json.loads` inverts `json.dumps` on
  trees with text keys is trusted, the conversions of ToughIO around it are
  modelled.
* **Command line tools**: a directory is a function from names to optional lists
  of lines; argument parsing is not modelled.

## Trusted base

* The Lean 4 kernel and the axioms `propext`, `Classical.choice`, `Quot.sound`.
* The correspondence between the model and the Python source, which is by
  reading (the repository is not executed). Each definition cites the lines it
  mirrors and states its simplifications.
* CPython's correctly rounded `float(text)` and `format(x, "...e")`, its shortest
  `str(x)`, and the
  behaviour of `str` methods on ASCII text.
* `struct.pack`, `struct.unpack`, `str.encode` and `bytes.decode` as modelled in
  `Py/Bytes.lean`.
* numpy semantics as listed above, the `json` library at tree level, and
  `os.path.splitext` (posix).
* The writers are modelled on typed records (C92 puts `check_parameters` before
  them), so a value of a wrong type that passes the checks is not followed into the
  writer.

## Properties

Status and theorem names are in `MANIFEST.json`. A theorem ending in `_violated`
is a proved counterexample to the stated property, one ending in `_partial`
proves the property on the part of the inputs named in its comment.

| id | what is modelled | how it is proved |
|----|------------------|------------------|
| C01-C06 | `read_record`, `write_record`, `str2format`, `str2float`, `prune_nones_*` | by induction over the format; text/number lemmas in `Lemmas` |
| C07 | `get_label_length` | structural |
| C08, C30 | title scan and dispatch of `read_buffer` | structural; fuelled loop for divergence |
| C09-C27 | one writer and one reader per block | reader applied to the writer's lines followed by an arbitrary rest |
| C28, C29 | `write_buffer`, `read_buffer` | composition of the block theorems |
| C31 | `check_parameters` on dynamic values | structural |
| C32 | order lists | structural |
| C33 | json value conversion | structural induction on value trees |
| C34, C35 | `labeler` | mixed-radix arithmetic |
| C36-C38 | output reordering, file type detection, CSV output | lists |
| C39-C41 | `meshmaker`, cell volumes | index arithmetic, ring identities |
| C42-C48 | connections, splitting, extruding, pruning, materials, box filter, nearest cell | lists, sorting, finite sets |
| C49, C50 | curve models over the reals | analysis |
| C51-C53 | command line tools, registry, `Model/FileFormats`: registered formats of meshes and outputs | lists |
| C54, C55 | defaults of rocks; column layout of every record | structural |
| C56, C57 | Petrasim and Tecplot output files | reader applied to the writer's lines |
| C58-C60 | areas, normal vectors, CONNE rows, qualities (`_properties.py`, `_mesh/tough/_tough.py`) | real arithmetic, lists |
| C61, C62 | MESH and INCON files of a mesh (`_mesh/tough`) | reader of C29 applied to the writer's lines |
| C63 | main output file of TOUGH (`_io/output/tough`) | reader applied to a description of the file |
| C64 | AVS-UCD mesh files (`_mesh/avsucd`) | reader applied to the writer's lines |
| C65 | Tecplot mesh files (`_mesh/tecplot`) | reader applied to the writer's lines; entries and variables as independent texts |
| C66 | FLAC3D text files (`_mesh/flac3d`) | reader applied to the writer's lines; the computed sign of triple products is an arbitrary parameter |
| C67 | FLAC3D binary files (`_mesh/flac3d`) | reader applied to the writer's bytes; bits of binary64, little-endian numbers and UTF-8 in `Py/Bytes` |
| C68 | history files (`read_history`) | reader applied to lines built from words or padded fields; result given by column numbers |
| C69 | SAVE files (`output/save`) | reader applied to any file whose initial conditions are known, and to the rows written for INCON |
| C70 | grids from points (`meshmaker/_voxelize.py`) | exact arithmetic over any ordered field; centres as in C40, planes as in C39 |
| C71 | `toughio-extract` (`_cli/_extract.py`) | whole command on files: C63 for the input, C38, C56, C57 for what is written; the floating-point mean of two coordinates is a parameter |
| C72 | conversion from and to meshio, both styles (`_mesh.py`, `_common.py`) | grouping by type as a single order of the cells |
| C73 | time series (`_mesh/_helpers.py`) | the XDMF file is what meshio's writer is given; any sorting order |
| C74 | interpolation between cells and points (`_mesh.py`, `_common.py`) | rows are numbers or vectors; exact arithmetic |
| C75 | results on a mesh (`_mesh.py`, `read_output`) | real numbers; connections between distinct centres |
| C76 | conversion from and to pyvista (`_mesh.py`, `_common.py`) | a grid is a record of its arrays; what VTK 9 does for the offsets is modelled |
| C77 | command `toughio-export` (`_export.py`, `_triangulate.py`) | scipy's triangulation is a parameter; times are of any type; SAVE files are left out |
| C78 | objects for relative permeability and capillary pressure | parameters are real numbers; the text of a number is a parameter; what is drawn stands for the axes |
| C79 | cells, text and initial conditions of the mesh object; names of the MESH and INCON files | initial conditions have one or two dimensions; POSIX paths; reading the file back is partial as in C62 |
| C80 | from points and cells of a mesh to the lines of its MESH file, read back | quantities calculated over the reals and rounded by an arbitrary function; material names filled up to five characters, as in C61; arguments have the right types |
| C81 | connections of structured grids from the sizes to the MESH file | composition of C39, C40, C42, C58, C59, C80; no code of its own; over the reals as in C58, C59 |
| C82 | connections and MESH file of cylindrical grids (`writeCylTough`: `write` with the volumes and areas of `CylindricMesh`) | composition of C41, C81, C80 for the areas and volumes with pi; as there |
| C83 | table of faces; sides, normal vectors, closed surface and volume of convex cells (`facesArray`) | all four cell types over the reals; `ConvexCell` is the usual sign condition on the corners of flat faces; the sum of five tetrahedra of a hexahedron and the fans of its faces are compared by an identity; the volume of a cell that is not convex can differ (`C83_concave_violated`) |
| C84 | `toughio-merge` and `toughio-save2incon` on files that the library writes and reads | composition of C28, C51, C52 with the reader and writer; lines with their only newline at the end (`CleanLines`, decidable); no block after the line `+++` of a SAVE file |
| C85 | what the input file writer refuses, and with which error | `refusal`, `Longest`, `tableRefusal`, `entryRefusal` of `Spec/Refuse`; `check_parameters` (C31, C56) comes before and refuses wrong types with its own error |
| C86 | input files that cannot be read: bad fields, files cut inside a block, missing entries | `BadField`, `Reaches` of `Spec/Cut`; the end of the file is the error `StopIteration` of the line iterator |
| C87 | output files that end early | `shorten`, `known`, `linesBefore` of `Spec/Early`: what is known when a file ends after `k` outputs and `j` rows |
| C88 | mesh files that end early | the files of C64 to C67; lines of text files, bytes of binary ones; a line that ends early is only considered in a witness |
| C89 | extruded plane grids | the layers `L` and the places of vertices (`Vertices`); compared with the other function of the library, not with a specification |
| C90 | what tools, curves and meshes refuse | kinds of exceptions (`otherError`), cells with centres (`HasCenter`), outputs that get as far as making a mesh (`MakesMesh`) |
| C91 | a loaded file is saved as the same file | numbers in range and no empty texts (`Tame`), parameters none of whose blocks changes (`Settled`; with a FLAC block `SettledFlac`) |
| C92 | the writer with all type checks (`writeChecked`), and the types of what is loaded | `Typed` of `Spec/Typed` on the parameters as the checks see them (`Params.tree`); the values that `Params` cannot hold (a number where a dictionary is expected) are left to C31 and C56 |
| C93 | composition of C80 (`writeTough`) and C71 (`extract`) | `LabelCenter` of `Spec/ExtractMesh`: the centre of the cell of the mesh that has the label, rounded to the digits of the file; `Writable` gathers the hypotheses of C80 |
| C94 | the two writers of MESH and INCON, and loading and saving of the files of a mesh | `SameLine` of `Spec/MeshAgain`: the line, or the line filled to 80 columns; `GivesMesh`: the parameters of the cells in the order of the file |
| C95 | `Model/CliFiles`: the tools on a disk, `diskPlace` (what a path names), `besideName`, `mergeFiles`, `saveFiles`, `co2tab` | `DirOf`: the part of a path before the name; `OnlyFile`: the disks differ in one file; `Place.file`: a file of a directory |
| C96 | `Model/Loaded`: `FileRead.loaded`, the dictionary that the reader returns (order of the keys fixed); `writeJson`, `readJson` | `Unchanged`: the same value, for tables with integer keys the same entries; `Within`: the same value or a dictionary with some of the entries; `rowLabels`: the labels of all rows |
| C97 | readers and writers of C38, C56, C57 | equality of files; `ValuesInRange`, `TimesInRange`; `TimesKept q p`: a time read with `q` decimals is printed with `p` decimals as the time itself |
| C98 | `Model/Resave`: what was loaded from a mesh file as a mesh to be saved (`saveAvsRead`, `saveTecRead`, `saveFlacRead`, `saveFlacBinRead`) | equality of files; `AvsSettled`, `TecSettled`: names that the file keeps; `FlacSettled`: zones that are right-handed once they were turned; `PointsKept`: coordinates that are printed again as they were |
| C99 | `Model/Convert`: what was loaded from an AVS-UCD file saved as a Tecplot file and the other way round (`saveAvsAsTec`, `saveTecAsAvs`) | equality of files; `AvsKept`, `TecKept`: meshes of which the first file keeps everything |
| C100 | `Model/ConvertFlac`: what was loaded from a FLAC3D file saved as an AVS-UCD or Tecplot file, and from an AVS-UCD file saved for FLAC3D | equality of files; `FlacKept`: meshes of which a FLAC3D file keeps everything; `plainMesh`: materials as numbers |
| C101 | `Model/Opts`, `Model/Hist` (writers of SELEC, FOFT, COFT, GOFT, DIFFU, OUTPU) | `Spec/Layout`: `Shows`, `Layout`, `series`; one line for each row |
| C102 | all of the geometry, search, interpolation and the MESH file (`_mesh.py`, `_properties.py`, `_tough.py`) | `Spec/Reblock`: `SameCells`, `FullBlocks` |
| C103 | `Model/FlacTough` (meshes loaded from FLAC3D or AVS-UCD files and saved for TOUGH) | `Model/TecTough` (materials of Tecplot files); `Spec/FlacTough`: `ZonesKept`, `MaterialsNamed`; coordinates as real numbers by any function |
| C104 | `Model/Geometry`, `Model/Grid`, `Model/Mesh` | `Spec/Moved`: `moved`, `IsMoved`, `RowScaled`; exact real arithmetic, so that nothing is said about rounding far from the origin |
| C105 | `Model/Geometry`, `Model/Connections`, `Model/MeshTough` | `Spec/Renumber`: `IsRenumbered` |
| C106 | `Model/Geometry`, `Model/Connections` | `Spec/Reorder`: `Reordered`, `IsReordered`, `newNumber`, `Connected`; `Spec/OtherSide`: `SameLoop`, `IsParallelogram` |
| C107 | `Model/Geometry`, `Model/Mesh` | `Spec/Spun`: `spun`, `IsSpun`, `RowSpun`; exact real arithmetic |

## Findings

Behaviour of the code that contradicts a property (with the theorem proving it)
or is worth knowing (no property was stated for it).

Records and blocks
* A number column of width ten printed with four digits has no room for a sign or
  a three-digit exponent: the text runs into the next column (C02_violated). `{:>5g}` prints
  large integers with six digits only.
* The reader never ends on an empty file and on a titled mesh file
  (C08_violated, exact condition C08_diverges_iff). A title that starts with a
  block keyword is parsed as a block (C30_violated). An output block that only has
  a format swallows the next header (C29_violated).
* GENER: a name starting with a digit breaks the detection of the label length
  (C07_gener_violated); a table without enthalpies among other sources
  (C21_violated); a scalar time is dropped (C21_scalar_time_dropped).
* Loading a file and saving it is not the identity: START is added (C91_violated), blanks
  before the title go (C91_violated_title), a record of time steps comes in
  (C91_violated_steps), the number of mass components, an empty MOMOP block and a blank
  second record of initial conditions go (C91_violated_components, _momop, _initial),
  centres round twice (C91_violated_centre, C94_violated), and files with a SELEC block without floats
  or a source without type are loaded but cannot be saved (C91_violated_selec, _gener).
* A file with a FLAC block is loaded but can never be saved: the creep is read as an
  integer and the writer asks for a boolean (C92_violated, C92_creep, C92_flac).
* MOMOP options that are not one character (12, True), which the checks accept, move all
  options after them to other numbers (C18_text with its example).
* SOLVR defaults have a key `id` where `method` is used (C13_violated); MOP options
  (C15_violated); SELEC without floats (C16_violated); INDOM (C17_violated);
  history names longer than the column (C20_violated); output without variables
  (C23_violated); elements without material or centre, digit-only materials
  (C24_violated); INCON entries (C27_violated).
* A row of missing values ends the DIFFU table and the COORD block
  (C22_missing_row_ends_table, C25_missing_centre_ends_block).
* INCON labels that look like numbers or start with `+++` are not read as labels.
  `n_component_mass` is not read back. INCON in a mesh uses `v > -1.0e-9` where
  `-1.0e9` is meant.
* Mesh files with connections only never end, with coordinates only give KeyError
  (C29_connections_only, C29_coordinates_only); initial conditions after the
  fourth without earlier ones are lost (C29_late_initial_conditions_lost).

Checks, JSON, labels, outputs
* A missing entry before a bad one gives AttributeError instead of TypeError
  (C31_violated, C31_missing_model).
* JSON: missing extra options and selections without integers cannot be read back,
  numpy.float32 is refused after the file has been emptied, integer keys elsewhere
  become texts (C33_*violated, C33_other_integer_keys).
* Labels of length three have four characters (C34_violated); automatic labels of
  length ten cannot be read back (C35_violated).
* A CSV variable name with an equal sign makes the file a Tecplot file
  (C37_violated); a variable starting with ELEM is lost (C38_violated); a step
  without time cannot be written (C38_without_time). Reordering by a list with
  repeated labels is accepted and loses rows (C36_repeated_label).
* Petrasim: outputs out of order come back sorted, times that agree to 13 digits
  are merged, outputs without variables or rows vanish (C56_*_violated); a name
  with an equal sign makes the file a Tecplot file (C37_petrasim_violated).
* Tecplot output: a negative number with a three-digit exponent or a name of 18
  characters touches its neighbour (C57_glued_violated, C57_name_violated); labels
  are not stored, so `labels_order` fails (C57_no_order); a file without a
  VARIABLES line is searched for ever (C57_no_variables); outputs without rows
  lose their variables (C57_empty_violated).
* Output files that end early are not always noticed: a CSV file that ends inside its
  first time step is read with fewer rows (C87_csv_first_violated,
  C87_csv_time_violated), an empty one as an output without time
  (C87_csv_header_violated); a Petrasim file is read wherever it ends
  (C87_petrasim_violated); a Tecplot file that ends with the line of a zone gives an
  output without variables (C87_tecplot_zone_violated), an empty one is read for ever
  (C87_tecplot_empty_violated).

Meshes
* Mesh files that end early: a FLAC3D text file is read as a mesh of the points, zones
  and faces so far (C88_text_points_violated, C88_text_zones_violated,
  C88_text_faces_violated) unless it ends between its groups, the reader of Tecplot files
  does not end (C88_tecplot_violated), and the last number of an AVS-UCD file can lose
  digits (C88_avs_digits_violated). AVS-UCD files that lack lines and binary FLAC3D
  files that lack bytes are refused.
* The volume of a cell is the sum of the absolute volumes of fixed tetrahedra: for a
  cell that is not convex it can exceed the volume enclosed by its faces
  (C83_concave_violated).
* `extrude_to_3d` drops cells that are not triangles or quads but keeps their data
  (C44_other_cells). `prune_duplicates` removes duplicates within a block only
  (C45_cells_violated). `set_material` may reuse a number, refuses an empty list and
  takes the mask `[True]` as a cell number (C46_violated). The box filter
  treats a zero length as unbounded, and a length without origin selects nothing
  (C47_violated). Splitting a mesh without blocks gives one empty piece.
* A mesh without any connection cannot be written as MESH file: CONNE fails after
  ELEME has been written (C59_no_connection_violated). One cell without neighbour
  makes `qualities` fail (C60_isolated_violated).
* `material_name` and `material_end` are compared with names filled up to five
  characters, so shorter names are never found (C61_short_name_violated).
* INCON of a mesh: a cell whose primary variables are all negative is left out
  (C62_negative_violated); a cell with more than four variables, none defined after
  the fourth, ends the block for the reader (C62_blank_third_violated); without
  any primary variable porosities and permeabilities are not written
  (C62_not_wanted).
* The reader of the main output file: the reader for columns of fixed width is dead
  code, since the one for columns separated by blanks never fails; columns that touch
  give NaN or shift the others (C63_glued_violated). A given `label_length` fails
  with UnboundLocalError (C63_label_length_violated). Rows of cells whose label
  starts with `ELEM` are skipped (C63_elem_violated). A file without `TOTAL TIME`
  fails with UnboundLocalError (C63_no_time).
* AVS-UCD files: names are cut at a comma (C64_comma_violated), names that differ by
  blanks and underscores collide (C64_blank_violated), of several arrays taken for
  the material only the first is kept (C64_material_violated), no mesh
  without cells or without points can be read again (C64_no_cells_violated,
  C64_no_points_violated); a matrix of one column comes back as a flat array.
* Tecplot mesh files: the lines after `ZONE` are taken for parts of the zone until one
  starts with a digit, so that a mesh whose first coordinate is negative is written
  but not readable (C65_negative_violated). If the first block is plane and another
  solid, the zone gets the type of the first, and the solid cells come back as
  quadrilaterals of eight vertices (C65_plane_first_violated). Names of three words
  are mangled (C65_three_words_violated), an empty title becomes `PLACEHOLDER`
  (C65_empty_title_violated), the last entry of a zone is lost if it has no blanks
  (C65_zone_glued_violated), a file that is too short is read for ever
  (C65_truncated_violated), an empty line before the zone ends the reading
  (C65_empty_line_violated). Data named `X`, `Y` or `Z` are left out silently.
* FLAC3D text files: a wedge in the usual order of vertices is not right-handed in the
  sense of the writer and comes back as its mirror image (C66_wedge_violated). Groups
  count the cells of the mesh, cells are numbered with zones first: if faces come
  first the file is not readable (C66_faces_first_violated), and cells of types that
  are not written are counted as well (C66_other_cells_violated). `FGROUP` does not
  end the table of a group, so that two groups of faces are not readable
  (C66_face_groups_violated). Names end at the first blank (C66_blank_violated); of a
  group of zones and one of faces with the same name, which is the rule for materials
  without names, one is lost (C66_same_name_violated).
- **C67** The length of a group's name in a binary file is the number of its characters,
  but its bytes in UTF-8 are cut to that length: names that are not ASCII are cut, and
  mostly the file cannot be read (C67_names_iff, C67_names_violated). Faces before zones
  as for text files (C67_faces_first_violated).
- **C68** `read_history` keeps only the last of several columns with one name
  (C68_same_name_violated, C68_time_violated), assigns names to the wrong columns if one
  has a blank and is not quoted (C68_blank_violated) and drops columns without a name
  (C68_unnamed_violated).
- **C69** `labels_order` may be a numpy array according to the check in
  `_io/output/_helpers.py`, but `labels_order if labels_order else ...` in `save/_save.py`
  is a ValueError for an array of several labels (C69_array_violated). A cell without
  porosity is a KeyError (C69_porosity_violated), user fields for some cells only an
  IndexError (C69_userx_violated).
- **C70** With one value on an axis `voxelize` makes a cell from the origin to one unit
  further, wherever the point is (C70_single_violated). The test for a structured grid
  counts points only, so that a repeated point can make up for a missing one
  (C70_repeated_violated). Planes need not increase: for x = 1, 3/2 and the origin at 0
  they are 0, 2, 1 and the cells overlap (C70_overlap_violated).
- **C71** `--split` writes CSV files whatever `--file-format` is (C71_split_violated). The
  coordinates come from the labels of the last table and are used for all tables, so that
  they are wrong if another table has another order (C71_order_violated). A cell without
  coordinates is at zero in a CSV file and a TypeError otherwise (C71_null_violated). A
  SAVE file is an AttributeError instead of the intended ValueError (C71_save_violated).
- **C72** A mesh without material whose groups are all of dimension two or less (boundaries
  from Gmsh) cannot be converted: `numpy.max` of an empty list (C72_groups_violated). Of
  several arrays that are taken for the material the first one replaces the one called
  `material` (C72_materials_violated). With meshio 3 blocks of the same type are put
  together, which changes the order of the cells and so their labels (C72_old_violated),
  and data that exist for some types only are a KeyError (C72_some_types_violated). Sets of
  cells are lost with meshio 3 (C72_cell_sets_violated).
- **C73** Cell data of a wrong length are written in parts that do not belong to the blocks
  (C73_length_violated).
- **C74** Interpolation to points refuses arrays of vectors with a TypeError
  (C74_vector_points_violated); interpolation to cells turns vectors into the mean of all their
  components (C74_vector_cells_violated); material numbers are interpolated like all other data
  and lost (C74_material_violated).
- **C76** From VTK 9 on `from_pyvista` looks up the number of vertices of a cell at its place in
  the array of vertices alone (`vtk_cells[offset]` without `+ c`), so all cells but the first get
  a wrong one (C76_new_violated). The names of groups are lost (C76_groups_violated), names that
  differ in a blank and an underscore collide (C76_names_violated), polygons cannot be converted
  back (C76_polygon_violated). Before VTK 9 a block without cells is refused or shifts the places
  of the cells after it (C76_empty_violated).
- `toughio-export --voxelize` sorts the values by height, depth and width, while the cells of the
  grid are listed from the top and not in that order: values get into wrong cells
  (C77_voxel_violated, C77_column_violated). Points in a plane lose the coordinate they have in
  common (C77_plane_violated). `mesh.cell_dada = {}` is a typing error: the cell data of a mesh
  that is given are written along with the results (C77_leftover_violated).
- C78: `FattKlikoff` has the number 7 (IRP) of `vanGenuchtenMualem`; in TOUGH it is 6
  (C78_id_violated). Values that a constructor refuses can be assigned to `parameters`, and the
  function fails (C78_assign_violated). `plot` refuses `figsize=None`, which is documented, an
  array without axes, and the keyword `label` (C78_size_violated, C78_array_violated,
  C78_label_violated).
- C56: outputs whose time is NaN are not found again, as NaN is in no group
  (C56_nan_violated). C63, C71: with `label_length` given, reading a main output file raises
  UnboundLocalError for every file with a row (C63_label_length_violated,
  C71_label_length_violated).
- C79: `check_incon` compares the number of porosities and permeability modifiers with that of the
  cells, but not the number of rows of the initial conditions: with fewer rows the last cells are
  left out (C79_rows_violated). A MESH file called INCON is overwritten by the initial conditions
  (C79_files_violated).
* A cell with repeated vertices may be connected to itself; two cells with two
  common faces are written twice (hypotheses of C42_no_self, C42_pairs_once).

Curves
* Milly: the magnitude jumps up hundredfold at `slr + 0.371`
  (C50_milly_violated), and `slr = 0` fails at saturation 0. Pickens: for every
  positive exponent the magnitude increases with saturation (C50_pickens_violated).
  van Genuchten: with `sls < 1` saturations above `sls` raise TypeError
  (C50_van_genuchten_violated). TRUST accepts a negative `eta`
  (C50_trust_violated), the linear function a negative maximum
  (C50_linear_violated). Assigning `parameters` skips all checks.

Tools
* `toughio-merge` accepts three header-like lines without end record and glues
  lines when MESH has no final newline (C51_violated); `toughio-save2incon` accepts
  an empty file and empties the output before refusing (C52_violated), and a SAVE
  file that is converted onto itself is emptied (C95_same_file_violated). An extension
  registered with capitals is never selected (C53_capital_extension).
* Outputs are refused with a `KeyError` rather than a message if the name has another
  extension than `.csv` and `.tec` and no format is given, or if the format given can only be
  read (`tough`, `save`) (C53_output).
* A rock without a name is loaded with the name `None`; saved as JSON and loaded
  again it has the name `null`, while the order of the rocks has `None`
  (C96_unnamed_violated).
* Converting outputs by way of a CSV file drops the tenth digit of the times
  (C97_digits_violated) and can round a time twice (C97_twice_violated); a Petrasim
  file with decreasing times is sorted when it is loaded and saved
  (C97_order_violated).
* Loading and saving a Tecplot mesh file moves the material to the end of the data
  (C98_tecplot_order_violated); names with blanks change in AVS-UCD and Tecplot mesh
  files (C98_avs_names_violated, C98_tecplot_names_violated); a zone without volume is
  mirrored every time a FLAC3D file is saved (C98_flac_flat_violated). A FLAC3D file with
  coordinates of sixteen digits may change when it is loaded and saved, by the rounding of
  reading (C98_sixteen_violated), and the largest float becomes infinity (C98_range_violated).
* By way of an AVS-UCD file a mesh without material gets the material zero
  (C99_material_violated), numbers lose their digits after the fifteenth
  (C99_digits_violated), and arrays with one column become flat ones
  (C99_column_violated). By way of a Tecplot file pyramids, wedges and cells of mixed
  types become hexahedra or quadrilaterals (C99_type_violated), and arrays with several
  columns become several arrays (C99_vector_violated).
* By way of a FLAC3D file materials are numbered anew from one
  (C100_numbers_violated), and wedges that are right-handed elsewhere are turned
  (C100_orientation_violated). By way of an AVS-UCD file the names of materials are lost
  (C100_names_violated).
* A mesh with an empty block of cells has no volumes, so that it cannot be written for
  TOUGH (C102_empty_block_violated).
* By way of a FLAC3D file numbers of materials without names become names: `7`, right-aligned
  for the seventh rock, becomes the name `7`, left-aligned (C103_numbers_violated,
  C103_numbers_written).
* By way of a Tecplot file the materials 1 and 2 become the texts `1.0` and `2.0`
  (C103_tecplot_violated, C103_tecplot_numbers), in FLAC3D files the names of groups
  (C100_tecplot_violated, C100_tecplot_names).
* Numbers outside the normal range of floats drift: 1.0000e-319 is read as a float that is written
  9.9999e-320, and the largest float is written as a number that is read as infinity
  (C03_range_needed, C91_violated_range, C97_range_violated).
* The area of a connection depends on the order of the cells if the face between them has four points
  that are not in a plane: the face is cut along the diagonal that the first cell gives
  (C106_area_violated).
