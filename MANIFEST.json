{
 "claims": [
  {
   "property": "C01",
   "status": "proved",
   "theorems": [
    "Verif.Props.C01_formats_fit_the_line",
    "Verif.Props.C01_record_round_trip",
    "Verif.Props.C01_exact_values"
   ],
   "note": "All record formats of the table; every list of fitting values."
  },
  {
   "property": "C02",
   "status": "partial",
   "theorems": [
    "Verif.Props.C02_fits_iff_tight_column",
    "Verif.Props.C02_fits_wide_column",
    "Verif.Props.C02_violated",
    "Verif.Props.C02_partial"
   ],
   "note": "Violated by the code (C02_violated); C02_partial covers records whose values fit. The exact set of numbers fitting a column is characterised."
  },
  {
   "property": "C03",
   "status": "proved",
   "theorems": [
    "Verif.Props.C03_range_needed",
    "Verif.Props.C03_printed_decimal_is_nearest",
    "Verif.Props.C03_precision",
    "Verif.Props.C03_special_values",
    "Verif.Props.C03_seventeen_digits",
    "Verif.Props.C03_rewrite_same_text",
    "Verif.Props.C03_digits_of_formats",
    "Verif.Props.C03_record_stable"
   ],
   "note": "Normal range of binary64 (2^-1021 to 1e308), zero, infinities and NaN; up to 13 digits, the maximum in the format table."
  },
  {
   "property": "C04",
   "status": "proved",
   "theorems": [
    "Verif.Props.C04_line_has_80_columns",
    "Verif.Props.C04_never_shorter",
    "Verif.Props.C04_multi_lines"
   ],
   "note": ""
  },
  {
   "property": "C05",
   "status": "proved",
   "theorems": [
    "Verif.Props.C05_plain_numbers",
    "Verif.Props.C05_missing_exponent_letter",
    "Verif.Props.C05_rejects_exactly_non_numbers"
   ],
   "note": ""
  },
  {
   "property": "C06",
   "status": "proved",
   "theorems": [
    "Verif.Props.C06_prune_list",
    "Verif.Props.C06_prune_unique",
    "Verif.Props.C06_prune_dict"
   ],
   "note": ""
  },
  {
   "property": "C07",
   "status": "proved",
   "theorems": [
    "Verif.Props.C07_label_length_detected",
    "Verif.Props.C07_digit_after_label_misdetected",
    "Verif.Props.C07_gener_violated",
    "Verif.Props.C07_gener_partial"
   ],
   "note": "Proved for labels followed by a non-digit, as stated; the GENER variant is violated (C07_gener_violated) and proved for names not starting with a digit (C07_gener_partial)."
  },
  {
   "property": "C08",
   "status": "partial",
   "theorems": [
    "Verif.Props.C08_diverges_iff",
    "Verif.Props.C08_violated",
    "Verif.Props.C08_partial",
    "Verif.Props.C08_title"
   ],
   "note": "Exact characterisation of the files on which the reader never ends; empty file and titled mesh file are witnesses. All other files terminate, and the title is the lines before ROCKS."
  },
  {
   "property": "C09",
   "status": "proved",
   "theorems": [
    "Verif.Props.C09_rocks_round_trip"
   ],
   "note": "Writer and reader of the block; rock names, numbers and models that fit their columns; any admissible rock order."
  },
  {
   "property": "C10",
   "status": "proved",
   "theorems": [
    "Verif.Props.C10_rpcap_round_trip",
    "Verif.Props.C10_id_and_parameter_count"
   ],
   "note": ""
  },
  {
   "property": "C11",
   "status": "proved",
   "theorems": [
    "Verif.Props.C11_flac_round_trip"
   ],
   "note": "The flag creep comes back as 0 or 1 rather than as a Python bool; this is part of the statement proved."
  },
  {
   "property": "C12",
   "status": "proved",
   "theorems": [
    "Verif.Props.C12_multi_round_trip"
   ],
   "note": ""
  },
  {
   "property": "C13",
   "status": "partial",
   "theorems": [
    "Verif.Props.C13_solvr_round_trip",
    "Verif.Props.C13_violated",
    "Verif.Props.C13_partial"
   ],
   "note": "Round trip proved; the defaults are violated by the code (C13_violated); C13_partial covers dictionaries with a method."
  },
  {
   "property": "C14",
   "status": "proved",
   "theorems": [
    "Verif.Props.C14_param_round_trip",
    "Verif.Props.C14_headers"
   ],
   "note": "Condition on the following line: it does not start with a number, proved for every block header (C14_headers)."
  },
  {
   "property": "C15",
   "status": "partial",
   "theorems": [
    "Verif.Props.C15_what_happens",
    "Verif.Props.C15_violated",
    "Verif.Props.C15_partial",
    "Verif.Props.C15_steps_unreadable"
   ],
   "note": "Violated by the code (C15_violated); C15_partial: all other options are stable."
  },
  {
   "property": "C16",
   "status": "partial",
   "theorems": [
    "Verif.Props.C16_selec_round_trip",
    "Verif.Props.C16_violated",
    "Verif.Props.C16_partial"
   ],
   "note": "Proved when there is at least one row of floats; violated without floats (C16_violated); C16_partial: first integer zero."
  },
  {
   "property": "C17",
   "status": "partial",
   "theorems": [
    "Verif.Props.C17_indom_round_trip_partial",
    "Verif.Props.C17_violated"
   ],
   "note": "Proved for rocks of which the first one with values has more than four whenever any has (C17_indom_round_trip_partial); violated otherwise and for numeric names (C17_violated)."
  },
  {
   "property": "C18",
   "status": "proved",
   "theorems": [
    "Verif.Props.C18_momop_round_trip",
    "Verif.Props.C18_text",
    "Verif.Props.C18_entries"
   ],
   "note": ""
  },
  {
   "property": "C19",
   "status": "proved",
   "theorems": [
    "Verif.Props.C19_times_round_trip",
    "Verif.Props.C19_length_and_order"
   ],
   "note": ""
  },
  {
   "property": "C20",
   "status": "partial",
   "theorems": [
    "Verif.Props.C20_violated",
    "Verif.Props.C20_partial"
   ],
   "note": "Violated by the code for names longer than the column (C20_violated, all such names); C20_partial covers all names that fit."
  },
  {
   "property": "C21",
   "status": "partial",
   "theorems": [
    "Verif.Props.C21_gener_round_trip_partial",
    "Verif.Props.C21_violated",
    "Verif.Props.C21_scalar_time_dropped"
   ],
   "note": "Violated by the code when sources on one element mix a table without enthalpies with others (C21_violated); C21_gener_round_trip_partial covers all other generators, with the label length given or detectable."
  },
  {
   "property": "C22",
   "status": "proved",
   "theorems": [
    "Verif.Props.C22_diffu_round_trip",
    "Verif.Props.C22_headers",
    "Verif.Props.C22_missing_row_ends_table"
   ],
   "note": "The all-missing row, outside the property, is shown to end the table (C22_missing_row_ends_table)."
  },
  {
   "property": "C23",
   "status": "partial",
   "theorems": [
    "Verif.Props.C23_outpu_round_trip_partial",
    "Verif.Props.C23_violated"
   ],
   "note": "Violated by the code when no variable is given (C23_violated); C23_outpu_round_trip_partial covers every output with at least one variable."
  },
  {
   "property": "C24",
   "status": "partial",
   "theorems": [
    "Verif.Props.C24_eleme_round_trip_partial",
    "Verif.Props.C24_violated",
    "Verif.Props.C24_bool_material"
   ],
   "note": "Violated by the code for elements without material (AttributeError on reading), digit-only material names (come back as integers) and elements without centre (cannot be written), see C24_violated; C24_eleme_round_trip_partial covers all other elements, label lengths 5 to 9, length given or detectable."
  },
  {
   "property": "C25",
   "status": "proved",
   "theorems": [
    "Verif.Props.C25_coord_round_trip",
    "Verif.Props.C25_missing_centre_ends_block"
   ],
   "note": "All centres with at least one component; C25_missing_centre_ends_block shows the limit."
  },
  {
   "property": "C26",
   "status": "proved",
   "theorems": [
    "Verif.Props.C26_conne_round_trip"
   ],
   "note": "Label lengths 5 to 9, given or detectable; a missing pair of increments comes back as two missing numbers."
  },
  {
   "property": "C27",
   "status": "partial",
   "theorems": [
    "Verif.Props.C27_incon_round_trip_partial",
    "Verif.Props.C27_violated"
   ],
   "note": "Violated by the code for long entries after short ones and for entries whose values after the fourth are missing (C27_violated); C27_incon_round_trip_partial covers all other tables."
  },
  {
   "property": "C28",
   "status": "proved",
   "theorems": [
    "Verif.Props.C28_blocks",
    "Verif.Props.C28_end",
    "Verif.Props.C28_bad_argument",
    "Verif.Props.C28_wanted"
   ],
   "note": "Blocks of a written file for every argument and every set of parameters."
  },
  {
   "property": "C29",
   "status": "partial",
   "theorems": [
    "Verif.Props.C29_file_round_trip_partial",
    "Verif.Props.C29_gener_file_partial",
    "Verif.Props.C29_mesh_file_partial",
    "Verif.Props.C29_incon_file_partial",
    "Verif.Props.C29_violated",
    "Verif.Props.C29_connections_only",
    "Verif.Props.C29_coordinates_only",
    "Verif.Props.C29_late_initial_conditions_lost"
   ],
   "note": "Round trip of the whole file for parameters satisfying the decidable FileOk, plus gener, mesh and incon files. Outside FileOk blocks interfere (C29_violated)."
  },
  {
   "property": "C30",
   "status": "partial",
   "theorems": [
    "Verif.Props.C30_partial",
    "Verif.Props.C30_violated"
   ],
   "note": "Holds for titles that do not start with a block keyword, whatever follows; violated otherwise."
  },
  {
   "property": "C31",
   "status": "partial",
   "theorems": [
    "Verif.Props.C31_entries",
    "Verif.Props.C31_dictionary",
    "Verif.Props.C31_list_partial",
    "Verif.Props.C31_list_first",
    "Verif.Props.C31_single",
    "Verif.Props.C31_violated",
    "Verif.Props.C31_list_unknown",
    "Verif.Props.C31_tables",
    "Verif.Props.C31_kinds",
    "Verif.Props.C31_option_numbers",
    "Verif.Props.C31_collections",
    "Verif.Props.C31_checked",
    "Verif.Props.C31_missing_model"
   ],
   "note": "Proved for every table and every dictionary of entries, and the exact outcome for every list of entries and every single entry (C31_list_first, C31_single); the tables are the documented keys and kinds (C31_kinds, C31_option_numbers, C31_collections, C31_checked). Violated: a None entry before a bad one gives AttributeError instead of TypeError (C31_violated), and a model key holding None does too (C31_missing_model)."
  },
  {
   "property": "C32",
   "status": "proved",
   "theorems": [
    "Verif.Props.C32_eleme_order",
    "Verif.Props.C32_coord_order",
    "Verif.Props.C32_conne_order",
    "Verif.Props.C32_incon_order",
    "Verif.Props.C32_rocks_order",
    "Verif.Props.C32_unknown_rejected"
   ],
   "note": "Reordering equality for permutations, rocks with partial lists, unknown entries rejected; rows of partial lists for elements etc. are covered by C24-C27."
  },
  {
   "property": "C33",
   "status": "partial",
   "theorems": [
    "Verif.Props.C33_json_round_trip_partial",
    "Verif.Props.C33_violated",
    "Verif.Props.C33_selections_violated",
    "Verif.Props.C33_float32_violated",
    "Verif.Props.C33_other_integer_keys"
   ],
   "note": "Proved for all parameter trees with text keys (integer keys in the three known places) without 32-bit floats. Violated: missing extra options and selections without integers cannot be read back, numpy.float32 is refused, integer keys elsewhere become texts. JSON text itself is trusted (json library)."
  },
  {
   "property": "C34",
   "status": "partial",
   "theorems": [
    "Verif.Props.C34_labels_partial",
    "Verif.Props.C34_too_many",
    "Verif.Props.C34_violated",
    "Verif.Props.C34_short"
   ],
   "note": "Proved for every length from four on, including the refusal beyond the capacity. Violated for length three: the labels have four characters (C34_violated)."
  },
  {
   "property": "C35",
   "status": "partial",
   "theorems": [
    "Verif.Props.C35_minimal",
    "Verif.Props.C35_labels",
    "Verif.Props.C35_detected_partial",
    "Verif.Props.C35_violated"
   ],
   "note": "Minimal and sufficient length proved up to 3.185e11 cells; detection proved for lengths five to nine; violated for length ten, which is detected as nine (C35_violated)."
  },
  {
   "property": "C36",
   "status": "proved",
   "theorems": [
    "Verif.Props.C36_reorder",
    "Verif.Props.C36_idempotent",
    "Verif.Props.C36_wrong_length",
    "Verif.Props.C36_unknown_label",
    "Verif.Props.C36_repeated_label"
   ],
   "note": "Proved for all outputs and label lists; reordering twice is proved without any condition."
  },
  {
   "property": "C37",
   "status": "partial",
   "theorems": [
    "Verif.Props.C37_output_type",
    "Verif.Props.C37_csv_iff",
    "Verif.Props.C37_csv_header_partial",
    "Verif.Props.C37_rejected",
    "Verif.Props.C37_violated",
    "Verif.Props.C37_petrasim_header_partial",
    "Verif.Props.C37_petrasim_violated",
    "Verif.Props.C37_tecplot_header"
   ],
   "note": "The decision is characterised exactly for all file beginnings (C37_output_type, C37_csv_iff, C37_rejected); the headers of the CSV and Petrasim writers are recognised when no variable name contains an equal sign, and every file of the Tecplot writer is recognised. C37_violated, C37_petrasim_violated: with an equal sign the code takes the file for a Tecplot file."
  },
  {
   "property": "C38",
   "status": "partial",
   "theorems": [
    "Verif.Props.C38_csv_round_trip_partial",
    "Verif.Props.C38_element_files_partial",
    "Verif.Props.C38_violated",
    "Verif.Props.C38_without_time",
    "Verif.Props.C38_no_outputs",
    "Verif.Props.C38_pair_refused",
    "Verif.Props.C38_header_and_units",
    "Verif.Props.C38_recognised_partial"
   ],
   "note": "Round trip for any number of steps, rows and variables when every step has a time, the same variables and the same number of rows, and variable names are plain texts not starting with ELEM. C38_violated: a variable whose name starts with ELEM is lost; C38_without_time: outputs without a time cannot be written."
  },
  {
   "property": "C39",
   "status": "proved",
   "theorems": [
    "Verif.Props.C39_grid_3d",
    "Verif.Props.C39_listing",
    "Verif.Props.C39_grid_2d",
    "Verif.Props.C39_points",
    "Verif.Props.C39_origin"
   ],
   "note": "Grids of any sizes and origin, in exact arithmetic."
  },
  {
   "property": "C40",
   "status": "proved",
   "theorems": [
    "Verif.Props.C40_affine",
    "Verif.Props.C40_volumes",
    "Verif.Props.C40_sum"
   ],
   "note": "Exact arithmetic. Also the volume of any affine image of the reference hexahedron, wedge, pyramid and tetrahedron."
  },
  {
   "property": "C41",
   "status": "proved",
   "theorems": [
    "Verif.Props.C41_cells",
    "Verif.Props.C41_rejects",
    "Verif.Props.C41_volumes",
    "Verif.Props.C41_sum",
    "Verif.Props.C41_face_areas",
    "Verif.Props.C41_real"
   ],
   "note": "Exact arithmetic with any number for pi, and with the real number pi."
  },
  {
   "property": "C42",
   "status": "proved",
   "theorems": [
    "Verif.Props.C42_face_table",
    "Verif.Props.C42_faces",
    "Verif.Props.C42_total",
    "Verif.Props.C42_entry",
    "Verif.Props.C42_neighbours",
    "Verif.Props.C42_symmetric",
    "Verif.Props.C42_no_self",
    "Verif.Props.C42_written",
    "Verif.Props.C42_faces_once",
    "Verif.Props.C42_pairs_once"
   ],
   "note": "Connections of solid meshes and the choice of rows in the CONNE writer. A cell with repeated vertices may be connected to itself, and two cells with two common faces are written twice, so the last two statements assume different vertices and at most one common face."
  },
  {
   "property": "C43",
   "status": "proved",
   "theorems": [
    "Verif.Props.C43_split",
    "Verif.Props.C43_accepts"
   ],
   "note": "All block structures and arrays; a mesh without blocks gives one empty piece."
  },
  {
   "property": "C44",
   "status": "proved",
   "theorems": [
    "Verif.Props.C44_accepts",
    "Verif.Props.C44_points",
    "Verif.Props.C44_cells",
    "Verif.Props.C44_corners",
    "Verif.Props.C44_cell_data",
    "Verif.Props.C44_wedge_volume",
    "Verif.Props.C44_hexahedron_volume",
    "Verif.Props.C44_other_cells"
   ],
   "note": "Exact arithmetic. The mesh consists of triangles and quads; C44_other_cells shows that data and cells no longer fit for meshes that also have other cells. Volumes of the new cells are proved too."
  },
  {
   "property": "C45",
   "status": "partial",
   "theorems": [
    "Verif.Props.C45_total",
    "Verif.Props.C45_points",
    "Verif.Props.C45_point_data",
    "Verif.Props.C45_cells_partial",
    "Verif.Props.C45_cell_data",
    "Verif.Props.C45_idempotent",
    "Verif.Props.C45_cells_violated"
   ],
   "note": "Points, point data, cell data and idempotence proved in full. Duplicate cells are removed within a block only: C45_cells_partial states the claim block by block, C45_cells_violated has the same triangle left in two blocks."
  },
  {
   "property": "C46",
   "status": "partial",
   "theorems": [
    "Verif.Props.C46_indices",
    "Verif.Props.C46_mask",
    "Verif.Props.C46_pymask_partial",
    "Verif.Props.C46_rejects",
    "Verif.Props.C46_fresh_partial",
    "Verif.Props.C46_violated",
    "Verif.Props.C46_names",
    "Verif.Props.C46_numbers"
   ],
   "note": "Violated by the code (C46_violated: number clash, empty list, mask [True] of a one-cell mesh); the other theorems cover lists of cell numbers, numpy masks, Python masks for at least two cells, refusals and the shown names."
  },
  {
   "property": "C47",
   "status": "partial",
   "theorems": [
    "Verif.Props.C47_box_partial",
    "Verif.Props.C47_total",
    "Verif.Props.C47_violated"
   ],
   "note": "Violated by the code for a zero length and for a length without origin (C47_violated); all other boxes are covered."
  },
  {
   "property": "C48",
   "status": "proved",
   "theorems": [
    "Verif.Props.C48_near_all",
    "Verif.Props.C48_near",
    "Verif.Props.C48_rejects",
    "Verif.Props.C48_total"
   ],
   "note": "All meshes with non-empty cells, all query points; first nearest cell."
  },
  {
   "property": "C49",
   "status": "proved",
   "theorems": [
    "Verif.Props.C49_range",
    "Verif.Props.C49_array",
    "Verif.Props.C49_linear",
    "Verif.Props.C49_pickens",
    "Verif.Props.C49_pickens_negative",
    "Verif.Props.C49_corey",
    "Verif.Props.C49_grant",
    "Verif.Props.C49_fatt_klikoff",
    "Verif.Props.C49_van_genuchten_mualem",
    "Verif.Props.C49_verma"
   ],
   "note": "Over the reals, admissible parameters explicit per model. Linear, Corey, Grant, Fatt-Klikoff: all parameters the constructor accepts. Pickens: exponent not negative (a negative one is accepted by the code and fails at saturation 0). van Genuchten-Mualem: m > 0, slr < sls, slr + sgr < 1. Verma: slr < sls, falling gas curve (the default parameters qualify). Values are also pinned to the formulas."
  },
  {
   "property": "C50",
   "status": "partial",
   "theorems": [
    "Verif.Props.C50_linear",
    "Verif.Props.C50_linear_violated",
    "Verif.Props.C50_trust",
    "Verif.Props.C50_trust_violated",
    "Verif.Props.C50_van_genuchten_partial",
    "Verif.Props.C50_van_genuchten_violated",
    "Verif.Props.C50_pickens_partial",
    "Verif.Props.C50_pickens_violated",
    "Verif.Props.C50_milly_partial",
    "Verif.Props.C50_milly_violated",
    "Verif.Props.C50_milly_empty_violated"
   ],
   "note": "Over the reals. Linear, TRUST as required under explicit sign conditions. van Genuchten needs sls >= 1 (below one the code raises TypeError above sls: violated). Pickens needs a negative exponent (for every positive one the magnitude increases: violated). Milly: magnitude jumps up at slr + 0.371 (violated); partial: monotone below, constant above."
  },
  {
   "property": "C51",
   "status": "partial",
   "theorems": [
    "Verif.Props.C51_accepts",
    "Verif.Props.C51_missing",
    "Verif.Props.C51_merge_partial",
    "Verif.Props.C51_lines_partial",
    "Verif.Props.C51_violated",
    "Verif.Props.C51_without_end"
   ],
   "note": "Violated by the code for inputs without end record and files without final newline (C51_violated); the partial theorems cover inputs with an end record and complete files; what happens without an end record is stated too."
  },
  {
   "property": "C52",
   "status": "partial",
   "theorems": [
    "Verif.Props.C52_copy",
    "Verif.Props.C52_reset_partial",
    "Verif.Props.C52_refused_partial",
    "Verif.Props.C52_violated"
   ],
   "note": "Violated for empty files, for the output emptied on refusal and for a missing final newline (C52_violated); copy, reset and refusal are proved for all other files."
  },
  {
   "property": "C53",
   "status": "proved",
   "theorems": [
    "Verif.Props.C53_mesh",
    "Verif.Props.C53_mesh_plain",
    "Verif.Props.C53_mesh_given",
    "Verif.Props.C53_output",
    "Verif.Props.C53_format",
    "Verif.Props.C53_no_extension",
    "Verif.Props.C53_case",
    "Verif.Props.C53_unique",
    "Verif.Props.C53_capital_extension",
    "Verif.Props.C53_input"
   ],
   "note": "All names and all sequences of registrations."
  },
  {
   "property": "C54",
   "status": "proved",
   "theorems": [
    "Verif.Props.C54_defaults",
    "Verif.Props.C54_none_hides_default"
   ],
   "note": "Every key, any number of rocks."
  },
  {
   "property": "C55",
   "status": "proved",
   "theorems": [
    "Verif.Props.C55_rocks_1",
    "Verif.Props.C55_rocks_2",
    "Verif.Props.C55_model",
    "Verif.Props.C55_rocks_3",
    "Verif.Props.C55_multi",
    "Verif.Props.C55_param_1",
    "Verif.Props.C55_param_2",
    "Verif.Props.C55_param_4",
    "Verif.Props.C55_rpcap",
    "Verif.Props.C55_param_5",
    "Verif.Props.C55_tables",
    "Verif.Props.C55_gener",
    "Verif.Props.C55_eleme",
    "Verif.Props.C55_coord",
    "Verif.Props.C55_conne",
    "Verif.Props.C55_incon",
    "Verif.Props.C55_solvr",
    "Verif.Props.C55_momop",
    "Verif.Props.C55_flac_1",
    "Verif.Props.C55_flac_2",
    "Verif.Props.C55_times",
    "Verif.Props.C55_indom"
   ],
   "note": "Every record listed, for values that fit their columns and label lengths 5 to 9."
  },
  {
   "property": "C56",
   "status": "partial",
   "theorems": [
    "Verif.Props.C56_groups",
    "Verif.Props.C56_round_trip_partial",
    "Verif.Props.C56_without_time",
    "Verif.Props.C56_nan_violated",
    "Verif.Props.C56_order_violated",
    "Verif.Props.C56_merge_violated",
    "Verif.Props.C56_empty_violated",
    "Verif.Props.C56_blank_line"
   ],
   "note": "Proved for any outputs (C56_groups) and exact round trip for ascending times, infinite ones included (C56_round_trip_partial); outputs without a time are refused (C56_without_time). Violated: outputs out of order come back sorted (C56_order_violated), times agreeing to 13 digits are merged (C56_merge_violated), outputs without variables are lost (C56_empty_violated), and so are outputs at the time NaN (C56_nan_violated)."
  },
  {
   "property": "C57",
   "status": "partial",
   "theorems": [
    "Verif.Props.C57_round_trip_partial",
    "Verif.Props.C57_number_iff",
    "Verif.Props.C57_needs_coordinates",
    "Verif.Props.C57_no_order",
    "Verif.Props.C57_no_variables",
    "Verif.Props.C57_glued_violated",
    "Verif.Props.C57_name_violated",
    "Verif.Props.C57_empty_violated"
   ],
   "note": "Round trip proved for outputs with rows, names under 18 characters and numbers that leave a blank in a column of 20 (C57_number_iff says which). Violated by the code otherwise: C57_glued_violated, C57_name_violated, C57_empty_violated; a file without a VARIABLES line is searched for ever (C57_no_variables); labels are never stored, so an order of labels fails (C57_no_order)."
  },
  {
   "property": "C58",
   "status": "proved",
   "theorems": [
    "Verif.Props.C58_areas",
    "Verif.Props.C58_normals",
    "Verif.Props.C58_side",
    "Verif.Props.C58_total",
    "Verif.Props.C58_parallelogram"
   ],
   "note": "Over the reals; normal vectors for faces whose first three vertices are not on a line."
  },
  {
   "property": "C59",
   "status": "partial",
   "theorems": [
    "Verif.Props.C59_direction",
    "Verif.Props.C59_angle",
    "Verif.Props.C59_line_distances",
    "Verif.Props.C59_line_sum",
    "Verif.Props.C59_orthogonal_distances",
    "Verif.Props.C59_boundary",
    "Verif.Props.C59_agree",
    "Verif.Props.C59_rows",
    "Verif.Props.C59_total_partial",
    "Verif.Props.C59_no_connection_violated"
   ],
   "note": "Proved over the reals for every mesh with a connection (C59_rows, C59_total_partial and the theorems on direction, angle and distances). Violated: a mesh without connections cannot be written (C59_no_connection_violated)."
  },
  {
   "property": "C60",
   "status": "partial",
   "theorems": [
    "Verif.Props.C60_range",
    "Verif.Props.C60_smallest_partial",
    "Verif.Props.C60_isolated_violated"
   ],
   "note": "Proved over the reals for meshes in which every cell has a neighbour; otherwise nothing is returned (C60_isolated_violated)."
  },
  {
   "property": "C61",
   "status": "partial",
   "theorems": [
    "Verif.Props.C61_file_partial",
    "Verif.Props.C61_labels",
    "Verif.Props.C61_short_name_violated",
    "Verif.Props.C61_no_connection"
   ],
   "note": "Missing: unpadded names shorter than five characters in material_name and material_end, which the code never finds (C61_short_name_violated); meshes without connections cannot be written (C61_no_connection)."
  },
  {
   "property": "C62",
   "status": "partial",
   "theorems": [
    "Verif.Props.C62_file_partial",
    "Verif.Props.C62_negative_violated",
    "Verif.Props.C62_blank_third_violated",
    "Verif.Props.C62_not_wanted",
    "Verif.Props.C62_wanted"
   ],
   "note": "Missing: cells with only negative primary variables and cells whose variables after the fourth are all undefined; the code loses them (C62_negative_violated, C62_blank_third_violated)."
  },
  {
   "property": "C63",
   "status": "partial",
   "theorems": [
    "Verif.Props.C63_read_partial",
    "Verif.Props.C63_elements_partial",
    "Verif.Props.C63_no_time",
    "Verif.Props.C63_no_table",
    "Verif.Props.C63_shapes",
    "Verif.Props.C63_label_length_violated",
    "Verif.Props.C63_elem_violated",
    "Verif.Props.C63_glued_violated"
   ],
   "note": "C63_read_partial and C63_elements_partial hold for every file as described in Spec/Listing.lean; files whose tables differ in shape are refused (C63_shapes). The code violates the claim for columns that touch, labels starting with ELEM, and for every file if label_length is given (witnesses)."
  },
  {
   "property": "C64",
   "status": "partial",
   "theorems": [
    "Verif.Mesh.C64_round_trip_partial",
    "Verif.Mesh.C64_file",
    "Verif.Mesh.C64_plane",
    "Verif.Mesh.C64_space",
    "Verif.Mesh.C64_coordinates",
    "Verif.Mesh.C64_unknown_type",
    "Verif.Mesh.C64_wrong_length",
    "Verif.Mesh.C64_comma_violated",
    "Verif.Mesh.C64_blank_violated",
    "Verif.Mesh.C64_material_violated",
    "Verif.Mesh.C64_columns_violated",
    "Verif.Mesh.C64_no_cells_violated",
    "Verif.Mesh.C64_no_points_violated"
   ],
   "note": "Points exact, cells, data and materials for every mesh with at least one point and one cell whose data have names without commas that stay different; points of two coordinates get a third (C64_plane), other numbers are refused; refusals for all meshes. Violated: every mesh without points or without cells is written but cannot be read (C64_no_points_violated, C64_no_cells_violated); names with commas or blanks, second material, data without columns (witnesses). All lines of the file (C64_file)."
  },
  {
   "property": "C65",
   "status": "partial",
   "theorems": [
    "Verif.Mesh.C65_round_trip_partial",
    "Verif.Mesh.C65_file",
    "Verif.Mesh.C65_vertices",
    "Verif.Mesh.C65_zone",
    "Verif.Mesh.C65_variables",
    "Verif.Mesh.C65_later",
    "Verif.Mesh.C65_point_data",
    "Verif.Mesh.C65_zone_glued_violated",
    "Verif.Mesh.C65_no_cells",
    "Verif.Mesh.C65_wrong_length",
    "Verif.Mesh.C65_truncated_violated",
    "Verif.Mesh.C65_negative_violated",
    "Verif.Mesh.C65_plane_first_violated",
    "Verif.Mesh.C65_three_words_violated",
    "Verif.Mesh.C65_empty_title_violated",
    "Verif.Mesh.C65_empty_line_violated"
   ],
   "note": "Round trip for meshes with points of two or three coordinates, an unsigned first coordinate, a solid first block if there are solid ones, and names of at most two words without special characters; the violated cases are shown. Zones and lists of variables for all entries and separators, data given point by point, files with several zones. All lines of the file (C65_file)."
  },
  {
   "property": "C66",
   "status": "partial",
   "theorems": [
    "Verif.Mesh.C66_round_trip_partial",
    "Verif.Mesh.C66_file",
    "Verif.Mesh.C66_exact_points",
    "Verif.Mesh.C66_right_handed",
    "Verif.Mesh.C66_wedge_violated",
    "Verif.Mesh.C66_no_zones",
    "Verif.Mesh.C66_wrong_length",
    "Verif.Mesh.C66_faces_first_violated",
    "Verif.Mesh.C66_face_groups_violated",
    "Verif.Mesh.C66_other_cells_violated",
    "Verif.Mesh.C66_blank_violated",
    "Verif.Mesh.C66_same_name_violated"
   ],
   "note": "Missing: materials when faces come before zones, cells of other types with a material, several groups of faces, names of groups with blanks or quotation marks or that coincide (violated, see the witnesses). All lines of the file, without these restrictions except on types (C66_file)."
  },
  {
   "property": "C67",
   "status": "partial",
   "theorems": [
    "Verif.Mesh.C67_round_trip_partial",
    "Verif.Mesh.C67_file",
    "Verif.Mesh.C67_names_iff",
    "Verif.Mesh.C67_names_violated",
    "Verif.Mesh.C67_long_name",
    "Verif.Mesh.C67_faces_first_violated",
    "Verif.Mesh.C67_kind",
    "Verif.Mesh.C67_bytes"
   ],
   "note": "Round trip of points (bit by bit), zones, faces and groups of a binary file, recognition of the kind of file, bytes. Missing: materials when faces come before zones or next to cells of other types, coinciding, long or non-ASCII names of groups; shown to be lost or refused. All bytes of the file (C67_file)."
  },
  {
   "property": "C68",
   "status": "partial",
   "theorems": [
    "Verif.Model.C68_words_partial",
    "Verif.Model.C68_commas_partial",
    "Verif.Model.C68_no_rows",
    "Verif.Model.C68_no_number",
    "Verif.Model.C68_same_name_violated",
    "Verif.Model.C68_time_violated",
    "Verif.Model.C68_blank_violated",
    "Verif.Model.C68_unnamed_violated"
   ],
   "note": "For files with one name per column and distinct names, in both forms; the four ways in which columns are lost or renamed otherwise are shown with witnesses. Simplification: rows of different lengths are refused, as by current numpy."
  },
  {
   "property": "C69",
   "status": "partial",
   "theorems": [
    "Verif.Model.C69_output_partial",
    "Verif.Model.C69_file_partial",
    "Verif.Model.C69_array_violated",
    "Verif.Model.C69_porosity_violated",
    "Verif.Model.C69_userx_violated"
   ],
   "note": "For files in which every cell has porosity and user fields are given for all cells or none, with a list as the order; the three refusals otherwise are shown for all such files. Simplification: lists of different lengths are refused, as by current numpy."
  },
  {
   "property": "C70",
   "status": "partial",
   "theorems": [
    "Verif.Mesh.C70_centers_partial",
    "Verif.Mesh.C70_accepts",
    "Verif.Mesh.C70_refuses",
    "Verif.Mesh.C70_planes",
    "Verif.Mesh.C70_single_violated",
    "Verif.Mesh.C70_repeated_violated",
    "Verif.Mesh.C70_overlap_violated",
    "Verif.Mesh.C70_centers_all",
    "Verif.Mesh.C70_centers_flat_partial",
    "Verif.Mesh.C70_accepts_all",
    "Verif.Mesh.C70_single_width"
   ],
   "note": "Proved for all inputs: exactly which are accepted, and where the centres are (C70_accepts_all, C70_centers_all); the points themselves are the centres if they are different and the origin is half a unit below each single value (C70_centers_flat_partial). Violated for other origins on axes with one value and for repeated points; cells may overlap (witnesses in the _violated theorems)."
  },
  {
   "property": "C71",
   "status": "partial",
   "theorems": [
    "Verif.Model.C71_split_single",
    "Verif.Model.C71_label_length_violated",
    "Verif.Model.C71_csv_partial",
    "Verif.Model.C71_split_partial",
    "Verif.Model.C71_tecplot_partial",
    "Verif.Model.C71_petrasim_partial",
    "Verif.Model.C71_connection_partial",
    "Verif.Model.C71_connection_format",
    "Verif.Model.C71_no_file",
    "Verif.Model.C71_no_elements",
    "Verif.Model.C71_other_file",
    "Verif.Model.C71_unknown_cell",
    "Verif.Model.C71_split_violated",
    "Verif.Model.C71_order_violated",
    "Verif.Model.C71_null_violated",
    "Verif.Model.C71_save_violated"
   ],
   "note": "Proved for main output files with the same labels at every time and a MESH file with a centre for each label (CSV, split, Tecplot, Petrasim, connections), and the refusals. Violated: a label length given by hand fails for every file (C71_label_length_violated); tables with other labels or another order, cells without coordinates, the format with --split (witnesses in the _violated theorems)."
  },
  {
   "property": "C72",
   "status": "partial",
   "theorems": [
    "Verif.Props.C72_new_partial",
    "Verif.Props.C72_old_partial",
    "Verif.Props.C72_old_order_partial",
    "Verif.Props.C72_refuses",
    "Verif.Props.C72_groups_violated",
    "Verif.Props.C72_materials_violated",
    "Verif.Props.C72_old_violated",
    "Verif.Props.C72_some_types_violated",
    "Verif.Props.C72_sets_partial",
    "Verif.Props.C72_old_sets_partial",
    "Verif.Props.C72_sets_names",
    "Verif.Props.C72_cell_sets_violated"
   ],
   "note": "Proved for both styles for meshes with at most one material array, with their sets of points and, with meshio 4, of cells. Missing: several material arrays, meshes without material whose groups have no dimension three, old-style data for some types only, sets of cells with meshio 3 (witnesses in the _violated theorems)."
  },
  {
   "property": "C73",
   "status": "partial",
   "theorems": [
    "Verif.Props.C73_new",
    "Verif.Props.C73_old",
    "Verif.Props.C73_refuses",
    "Verif.Props.C73_length_violated"
   ],
   "note": "Round trip proved for all steps in both styles, and the refusals; cell data of a wrong length are not refused (C73_length_violated)."
  },
  {
   "property": "C74",
   "status": "partial",
   "theorems": [
    "Verif.Props.C74_to_points_partial",
    "Verif.Props.C74_to_cells_partial",
    "Verif.Props.C74_points_between",
    "Verif.Props.C74_weight",
    "Verif.Props.C74_cells_between",
    "Verif.Props.C74_linear",
    "Verif.Props.C74_constant",
    "Verif.Props.C74_lone_point",
    "Verif.Props.C74_vector_points_violated",
    "Verif.Props.C74_vector_cells_violated",
    "Verif.Props.C74_material_violated"
   ],
   "note": "Proved for all arrays of numbers (means, bounds, constants, linear functions, refusal of lone points). Missing: vectors and materials (witnesses in the _violated theorems); rounding."
  },
  {
   "property": "C75",
   "status": "proved",
   "theorems": [
    "Verif.Props.C75_labels",
    "Verif.Props.C75_step",
    "Verif.Props.C75_element",
    "Verif.Props.C75_connection",
    "Verif.Props.C75_length",
    "Verif.Props.C75_number",
    "Verif.Props.C75_unlabelled",
    "Verif.Props.C75_missing",
    "Verif.Props.C75_unknown"
   ],
   "note": "Element and connection outputs, choice of the output, refusals; exact arithmetic, connections between cells with distinct centres for the length of the vectors."
  },
  {
   "property": "C76",
   "status": "partial",
   "theorems": [
    "Verif.Props.C76_grid_partial",
    "Verif.Props.C76_read",
    "Verif.Props.C76_round_partial",
    "Verif.Props.C76_new_partial",
    "Verif.Props.C76_unknown",
    "Verif.Props.C76_other",
    "Verif.Props.C76_new_violated",
    "Verif.Props.C76_groups_violated",
    "Verif.Props.C76_names_violated",
    "Verif.Props.C76_polygon_violated",
    "Verif.Props.C76_empty_violated"
   ],
   "note": "Proved before VTK 9 for meshes without empty blocks (points, cells, data; not the names of groups), and for the conversion to grids of VTK 9; from VTK 9 on the conversion of grids with more than one cell is violated."
  },
  {
   "property": "C77",
   "status": "partial",
   "theorems": [
    "Verif.Props.C77_points",
    "Verif.Props.C77_voxel_partial",
    "Verif.Props.C77_voxel_violated",
    "Verif.Props.C77_column_violated",
    "Verif.Props.C77_triangulated",
    "Verif.Props.C77_plane_violated",
    "Verif.Props.C77_series_points",
    "Verif.Props.C77_series_voxel_partial",
    "Verif.Props.C77_series_mesh",
    "Verif.Props.C77_refused",
    "Verif.Props.C77_series_refused",
    "Verif.Props.C77_name",
    "Verif.Props.C77_mesh_partial",
    "Verif.Props.C77_leftover_violated"
   ],
   "note": "Proved for points, triangulations, series, names and refusals; voxels get the right values only at one height (other grids are violated), and cell data of a given mesh are not left out (violated)."
  },
  {
   "property": "C78",
   "status": "partial",
   "theorems": [
    "Verif.Props.C78_relative",
    "Verif.Props.C78_capillary",
    "Verif.Props.C78_count",
    "Verif.Props.C78_assign",
    "Verif.Props.C78_reassigned",
    "Verif.Props.C78_assign_violated",
    "Verif.Props.C78_id_partial",
    "Verif.Props.C78_id_violated",
    "Verif.Props.C78_text",
    "Verif.Props.C78_text_unique",
    "Verif.Props.C78_rows",
    "Verif.Props.C78_plot",
    "Verif.Props.C78_plot_refused",
    "Verif.Props.C78_size_violated",
    "Verif.Props.C78_array_violated",
    "Verif.Props.C78_label_violated"
   ],
   "note": "Fatt and Klikoff's number, assignment of refused values, figsize=None or an array, and the keyword label are violations; everything else holds"
  },
  {
   "property": "C79",
   "status": "partial",
   "theorems": [
    "Verif.Props.C79_cells",
    "Verif.Props.C79_cells_dict",
    "Verif.Props.C79_text",
    "Verif.Props.C79_incon",
    "Verif.Props.C79_incon_read_partial",
    "Verif.Props.C79_incon_none",
    "Verif.Props.C79_incon_refused",
    "Verif.Props.C79_rows_violated",
    "Verif.Props.C79_path",
    "Verif.Props.C79_files",
    "Verif.Props.C79_files_violated"
   ],
   "note": "Reading the INCON file back is partial as in C62. Violations: initial conditions with too few rows, MESH file named INCON."
  },
  {
   "property": "C80",
   "status": "partial",
   "theorems": [
    "Verif.Props.C80_write_partial",
    "Verif.Props.C80_boundary_refused",
    "Verif.Props.C80_flat_refused"
   ],
   "note": "The MESH file of a mesh of solid cells is read back as its cells and the connections of its neighbouring cells, with the quantities of C58, C59 (from C42, C58, C59, C61); missing as in C61: material names that are not filled up to five characters. Wrong boundary conditions and flat cells are refused."
  },
  {
   "property": "C81",
   "status": "proved",
   "theorems": [
    "Verif.Props.C81_neighbours",
    "Verif.Props.C81_centers",
    "Verif.Props.C81_rows",
    "Verif.Props.C81_pairs",
    "Verif.Props.C81_total",
    "Verif.Props.C81_file"
   ],
   "note": "Neighbours, their order and number, centres, and all quantities of the connections of a structured grid follow from its sizes (C81_neighbours, C81_pairs, C81_centers, C81_rows, C81_total); C81_file goes on to the MESH file read back, with names of materials filled up to five characters (the others: C61)."
  },
  {
   "property": "C82",
   "status": "proved",
   "theorems": [
    "Verif.Props.C82_rows",
    "Verif.Props.C82_file"
   ],
   "note": "Pairs, their order and number, and all quantities of the connections of a cylindrical grid follow from its radial sizes and heights (C82_rows); C82_file goes on to the MESH file read back, with names of materials filled up to five characters (the others: C61)."
  },
  {
   "property": "C83",
   "status": "proved",
   "theorems": [
    "Verif.Props.C83_array",
    "Verif.Props.C83_array_complete",
    "Verif.Props.C83_array_refused",
    "Verif.Props.C83_sides",
    "Verif.Props.C83_volume",
    "Verif.Props.C83_outward",
    "Verif.Props.C83_closed",
    "Verif.Props.C83_concave_violated"
   ],
   "note": "For convex cells with flat faces; C83_concave_violated shows a volume differing from the enclosed one for a cell that is not convex."
  },
  {
   "property": "C84",
   "status": "proved",
   "theorems": [
    "Verif.Props.C84_merge",
    "Verif.Props.C84_merge_same",
    "Verif.Props.C84_merge_read",
    "Verif.Props.C84_save"
   ],
   "note": "Merged file proved to be the lines of the three files, equal to the complete file without NOVER, and to read back as all parameters; SAVE to INCON with reset preserves what is read."
  },
  {
   "property": "C85",
   "status": "proved",
   "theorems": [
    "Verif.Props.C85_record",
    "Verif.Props.C85_labels",
    "Verif.Props.C85_label_length",
    "Verif.Props.C85_missing_row",
    "Verif.Props.C85_eleme",
    "Verif.Props.C85_coord",
    "Verif.Props.C85_conne",
    "Verif.Props.C85_incon",
    "Verif.Props.C85_rocks",
    "Verif.Props.C85_selec",
    "Verif.Props.C85_outpu",
    "Verif.Props.C85_gener",
    "Verif.Props.C85_gener_table"
   ],
   "note": "C85_record and the theorems for the blocks: which inputs the writer refuses, and with which error."
  },
  {
   "property": "C86",
   "status": "proved",
   "theorems": [
    "Verif.Props.C86_record",
    "Verif.Props.C86_more",
    "Verif.Props.C86_block_error",
    "Verif.Props.C86_block_cut",
    "Verif.Props.C86_error",
    "Verif.Props.C86_cut",
    "Verif.Props.C86_ended",
    "Verif.Props.C86_cut_in_block",
    "Verif.Props.C86_reached",
    "Verif.Props.C86_times",
    "Verif.Props.C86_selec",
    "Verif.Props.C86_param",
    "Verif.Props.C86_outpu",
    "Verif.Props.C86_eleme",
    "Verif.Props.C86_indom",
    "Verif.Props.C86_before"
   ],
   "note": "C86_record, C86_more, C86_block_cut, C86_cut, C86_cut_in_block, C86_ended and the missing entries; a file cut inside its title is read for ever (C08_diverges_iff)."
  },
  {
   "property": "C87",
   "status": "partial",
   "theorems": [
    "Verif.Props.C87_csv_steps",
    "Verif.Props.C87_csv_inside_partial",
    "Verif.Props.C87_csv_first_violated",
    "Verif.Props.C87_csv_time_violated",
    "Verif.Props.C87_csv_header_violated",
    "Verif.Props.C87_csv_number_violated",
    "Verif.Props.C87_petrasim_violated",
    "Verif.Props.C87_tecplot_steps",
    "Verif.Props.C87_tecplot_inside_partial",
    "Verif.Props.C87_tecplot_zone_violated",
    "Verif.Props.C87_tecplot_header",
    "Verif.Props.C87_tecplot_empty_violated",
    "Verif.Props.C87_listing_steps",
    "Verif.Props.C87_listing_inside"
   ],
   "note": "Proved for main output files, and for complete time steps of CSV and Tecplot files; CSV and Tecplot files that end inside a time step are refused with the exceptions proved as violations (first time step of a CSV file, line before a Tecplot table); Petrasim files are read wherever they end (violation, proved for all of them)."
  },
  {
   "property": "C88",
   "status": "partial",
   "theorems": [
    "Verif.Mesh.C88_avs_prefix",
    "Verif.Mesh.C88_avs",
    "Verif.Mesh.C88_avs_digits_violated",
    "Verif.Mesh.C88_tecplot",
    "Verif.Mesh.C88_tecplot_violated",
    "Verif.Mesh.C88_binary_prefix",
    "Verif.Mesh.C88_binary",
    "Verif.Mesh.C88_text_points_violated",
    "Verif.Mesh.C88_text_zones_violated",
    "Verif.Mesh.C88_text_title_violated",
    "Verif.Mesh.C88_text_zone_groups",
    "Verif.Mesh.C88_text_faces_violated",
    "Verif.Mesh.C88_text_face_groups"
   ],
   "note": "Proved for AVS-UCD (any line), Tecplot (any line: never read as a mesh) and binary FLAC3D files (any byte); any AVS-UCD or binary file that is read at all is read as the whole file. Violated: FLAC3D text files that end between points, zones or faces are read with what there is (C88_text_points_violated, C88_text_zones_violated, C88_text_title_violated, C88_text_faces_violated); those that end between groups are refused (C88_text_zone_groups, C88_text_face_groups); together these are all lines of such a file. The reader of Tecplot files does not end, and the last number of an AVS-UCD file can lose digits."
  },
  {
   "property": "C89",
   "status": "proved",
   "theorems": [
    "Verif.Props.C89_layers",
    "Verif.Props.C89_cells",
    "Verif.Props.C89_order"
   ],
   "note": "Exact arithmetic as in C39. C89_order shows that the order of points and cells does differ where the statement allows it."
  },
  {
   "property": "C90",
   "status": "proved",
   "theorems": [
    "Verif.Curves.C90_plot",
    "Verif.Curves.C90_attribute",
    "Verif.Model.C90_no_connection",
    "Verif.Model.C90_extract_other",
    "Verif.Model.C90_extract_null",
    "Verif.Model.C90_extract_elements",
    "Verif.Mesh.C90_export_columns",
    "Verif.Mesh.C90_export_array",
    "Verif.Mesh.C90_export_origin",
    "Verif.Mesh.C90_export_origin_length",
    "Verif.Mesh.C90_export_labels"
   ],
   "note": "Exact kinds of exceptions of toughio-extract, toughio-export, the plots of curves, objects without attributes, and MESH files without connections; kinds proved elsewhere (C63, C75, C77, C85) are not repeated."
  },
  {
   "property": "C91",
   "status": "partial",
   "theorems": [
    "Verif.Props.C91_partial",
    "Verif.Props.C91_violated",
    "Verif.Props.C91_violated_title",
    "Verif.Props.C91_violated_steps",
    "Verif.Props.C91_violated_components",
    "Verif.Props.C91_violated_momop",
    "Verif.Props.C91_violated_initial",
    "Verif.Props.C91_violated_selec",
    "Verif.Props.C91_violated_gener",
    "Verif.Props.C91_violated_centre",
    "Verif.Props.C91_flac_partial",
    "Verif.Props.C91_violated_range"
   ],
   "note": "Proved for parameters that fit (C29) and are settled, with and without a FLAC block: START is on, titles have no outer blanks, time steps are given, n_component_mass is not given, SELEC has floats, sources have types, MOMOP has a value, a second record of initial conditions has a value, centres written in both ELEME and COORD do not round twice, numbers are in the range of floats (C91_violated_range). For each of these the code violates the property, with witnesses. With the decorators check_parameters: C92_again_partial."
  },
  {
   "property": "C92",
   "status": "partial",
   "theorems": [
    "Verif.Props.C92_exact",
    "Verif.Props.C92_typed",
    "Verif.Props.C92_loaded_blocks",
    "Verif.Props.C92_loaded_partial",
    "Verif.Props.C92_creep",
    "Verif.Props.C92_creep_error",
    "Verif.Props.C92_flac",
    "Verif.Props.C92_violated",
    "Verif.Props.C92_again_partial"
   ],
   "note": "Both directions of the first sentence are proved for all parameters (C92_exact). What any file gives on loading has the right types except the creep of a FLAC block; this is violated by the code (C92_violated, C92_creep, C92_flac) and C92_loaded_partial leaves it out; the parts GENER, MESH and INCON are not concerned (C92_loaded_blocks). C92_again_partial joins this with C91."
  },
  {
   "property": "C93",
   "status": "partial",
   "theorems": [
    "Verif.Props.C93_centers_partial",
    "Verif.Props.C93_csv_partial",
    "Verif.Props.C93_tecplot_partial",
    "Verif.Props.C93_petrasim_partial",
    "Verif.Props.C93_connection_partial"
   ],
   "note": "As in C80 and C71: names in the arguments filled up to five characters, numbers that fit their columns, the same labels at every time."
  },
  {
   "property": "C94",
   "status": "partial",
   "theorems": [
    "Verif.Props.C94_mesh_writers_partial",
    "Verif.Props.C94_mesh_again_partial",
    "Verif.Props.C94_violated",
    "Verif.Props.C94_incon_writers_partial",
    "Verif.Props.C94_incon_again_partial"
   ],
   "note": "Proved for names that are filled and numbers that are not rounded twice; violated for centres written in both ELEME and COORD whose four digits depend on digits after the fourteenth (witness proved)."
  },
  {
   "property": "C95",
   "status": "partial",
   "theorems": [
    "Verif.Props.C95_beside",
    "Verif.Props.C95_merge",
    "Verif.Props.C95_merge_elsewhere",
    "Verif.Props.C95_save_partial",
    "Verif.Props.C95_save_missing",
    "Verif.Props.C95_same_file_violated",
    "Verif.Props.C95_co2tab"
   ],
   "note": "Proved for all paths, files and disks; violated if a SAVE file is converted onto itself: its text is lost without an exception (C95_same_file_violated), and by the refusals of C52 that empty the output file. Links and parts '..' are not resolved; writing itself never fails."
  },
  {
   "property": "C96",
   "status": "partial",
   "theorems": [
    "Verif.Props.C96_json_partial",
    "Verif.Props.C96_keys",
    "Verif.Props.C96_blocks",
    "Verif.Props.C96_unnamed_violated"
   ],
   "note": "Holds for every file that can be read if every row has a label (C96_json_partial); a rock without a name comes back with the name null (C96_unnamed_violated). What goes into the JSON file agrees with what the writer of TOUGH files gets (C96_keys), and blocks are not left out (C96_blocks)."
  },
  {
   "property": "C97",
   "status": "partial",
   "theorems": [
    "Verif.Props.C97_csv_partial",
    "Verif.Props.C97_csv_elements_partial",
    "Verif.Props.C97_petrasim_partial",
    "Verif.Props.C97_tecplot_partial",
    "Verif.Props.C97_csv_to_petrasim_partial",
    "Verif.Props.C97_csv_to_tecplot_partial",
    "Verif.Props.C97_petrasim_to_csv_partial",
    "Verif.Props.C97_petrasim_to_tecplot_partial",
    "Verif.Props.C97_order_violated",
    "Verif.Props.C97_digits_violated",
    "Verif.Props.C97_twice_violated",
    "Verif.Props.C97_range_violated"
   ],
   "note": "Proved for the files of C38, C56 and C57: saving a loaded CSV, Petrasim (increasing times) or Tecplot file gives the same file, and converting CSV to Petrasim or Tecplot and Petrasim to CSV or Tecplot gives the file written directly, if the times are printed the same. Violated for Petrasim files with decreasing times, times of more digits than CSV keeps and times rounded twice, and values below the normal range (witnesses proved)."
  },
  {
   "property": "C98",
   "status": "partial",
   "theorems": [
    "Verif.Mesh.C98_avs_partial",
    "Verif.Mesh.C98_avs_names_violated",
    "Verif.Mesh.C98_tecplot_partial",
    "Verif.Mesh.C98_tecplot_names_violated",
    "Verif.Mesh.C98_tecplot_order_violated",
    "Verif.Mesh.C98_flac_text_partial",
    "Verif.Mesh.C98_flac_digits",
    "Verif.Mesh.C98_flac_exact",
    "Verif.Mesh.C98_flac_binary_partial",
    "Verif.Mesh.C98_flac_flat_violated",
    "Verif.Mesh.C98_sixteen_violated",
    "Verif.Mesh.C98_range_violated"
   ],
   "note": "Proved for AVS-UCD, Tecplot and both FLAC3D formats. Left out, all with witnesses: names with blanks, a material that is not the last data (Tecplot), zones without volume (FLAC3D), numbers printed with 16 digits (C98_sixteen_violated) and at the end of the range of floats (C98_range_violated)."
  },
  {
   "property": "C99",
   "status": "partial",
   "theorems": [
    "Verif.Mesh.C99_avs_to_tecplot_partial",
    "Verif.Mesh.C99_material_violated",
    "Verif.Mesh.C99_digits_violated",
    "Verif.Mesh.C99_column_violated",
    "Verif.Mesh.C99_tecplot_to_avs_partial",
    "Verif.Mesh.C99_type_violated",
    "Verif.Mesh.C99_vector_violated"
   ],
   "note": "Proved for meshes of which the first file keeps everything; violated by the code for meshes without material, numbers of more than 15 digits, arrays of one column (by way of AVS-UCD), cells without a zone of their own and arrays of several columns (by way of Tecplot)."
  },
  {
   "property": "C100",
   "status": "partial",
   "theorems": [
    "Verif.Mesh.C100_flac_to_avs_partial",
    "Verif.Mesh.C100_flac_binary_to_avs_partial",
    "Verif.Mesh.C100_flac_to_tecplot_partial",
    "Verif.Mesh.C100_flac_binary_to_tecplot_partial",
    "Verif.Mesh.C100_numbers_violated",
    "Verif.Mesh.C100_orientation_violated",
    "Verif.Mesh.C100_avs_to_flac_partial",
    "Verif.Mesh.C100_avs_to_flac_binary_partial",
    "Verif.Mesh.C100_names_violated",
    "Verif.Mesh.C100_tecplot_violated",
    "Verif.Mesh.C100_tecplot_names"
   ],
   "note": "Proved, text and binary, for meshes of which the first file keeps everything; violated by the code for zones that are not right-handed, materials not numbered from one (by way of FLAC3D) and names of materials (by way of AVS-UCD). By way of Tecplot the names of all groups become floats (C100_tecplot_violated, C100_tecplot_names)."
  },
  {
   "property": "C101",
   "status": "proved",
   "theorems": [
    "Verif.Props.C101_selec",
    "Verif.Props.C101_histories",
    "Verif.Props.C101_diffu",
    "Verif.Props.C101_diffu_long",
    "Verif.Props.C101_outpu"
   ],
   "note": "The layout of the records of all blocks that C55 leaves out; values must fit their columns, as for C01."
  },
  {
   "property": "C102",
   "status": "partial",
   "theorems": [
    "Verif.Mesh.C102_geometry",
    "Verif.Mesh.C102_search",
    "Verif.Mesh.C102_interpolate",
    "Verif.Mesh.C102_tough",
    "Verif.Mesh.C102_empty_block_violated"
   ],
   "note": "Proved for all meshes without empty blocks. With an empty block a mesh has no volumes and cannot be written (C102_empty_block_violated)."
  },
  {
   "property": "C103",
   "status": "partial",
   "theorems": [
    "Verif.Mesh.C103_flac_partial",
    "Verif.Mesh.C103_flac_binary_partial",
    "Verif.Mesh.C103_numbers_violated",
    "Verif.Mesh.C103_numbers_written",
    "Verif.Mesh.C103_avs_partial",
    "Verif.Mesh.C103_tecplot_violated",
    "Verif.Mesh.C103_tecplot_numbers",
    "Verif.Mesh.C103_tecplot_none"
   ],
   "note": "Proved for right-handed zones with named materials (FLAC3D, text and binary) and for all meshes of the AVS-UCD round trip, with numbers for materials. Violated by materials without names, which a FLAC3D file turns into names (C103_numbers_violated), and by Tecplot files, which turn them into floats (C103_tecplot_violated, for all numbers C103_tecplot_numbers)."
  },
  {
   "property": "C104",
   "status": "proved",
   "theorems": [
    "Verif.Mesh.C104_cells",
    "Verif.Mesh.C104_faces",
    "Verif.Mesh.C104_connections",
    "Verif.Mesh.C104_moved_only",
    "Verif.Mesh.C104_qualities",
    "Verif.Mesh.C104_near"
   ],
   "note": "Over exact real numbers."
  },
  {
   "property": "C105",
   "status": "proved",
   "theorems": [
    "Verif.Mesh.C105_cells",
    "Verif.Mesh.C105_faces",
    "Verif.Mesh.C105_geometry",
    "Verif.Mesh.C105_near",
    "Verif.Mesh.C105_files"
   ],
   "note": "Over exact real numbers; MESH and INCON files with any function from real numbers to floats."
  },
  {
   "property": "C106",
   "status": "partial",
   "theorems": [
    "Verif.Mesh.C106_turned_partial",
    "Verif.Mesh.C106_parallelogram_partial",
    "Verif.Mesh.C106_inverse",
    "Verif.Mesh.C106_centers",
    "Verif.Mesh.C106_volumes",
    "Verif.Mesh.C106_faces",
    "Verif.Mesh.C106_connections",
    "Verif.Mesh.C106_written",
    "Verif.Mesh.C106_geometry",
    "Verif.Mesh.C106_rows_partial",
    "Verif.Mesh.C106_area_violated"
   ],
   "note": "Centres, volumes, faces, neighbours and written pairs are proved, and the rows of connections whose cells stay in their order (C106_rows_partial), or whose faces are triangles (C106_turned_partial) or parallelograms (C106_parallelogram_partial). Connections across four points whose cells change places may get another area: violated for faces that are not plane (C106_area_violated)."
  },
  {
   "property": "C107",
   "status": "proved",
   "theorems": [
    "Verif.Mesh.C107_cells",
    "Verif.Mesh.C107_faces",
    "Verif.Mesh.C107_connections",
    "Verif.Mesh.C107_qualities",
    "Verif.Mesh.C107_near",
    "Verif.Mesh.C107_direction"
   ],
   "note": "Over exact real numbers."
  }
 ]
}