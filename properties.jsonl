{"id": "C01", "title": "Fixed-width records read back what was written", "statement": "When a list of values is written as one fixed-width TOUGH record and the line is read back with the same format, every text value comes back unchanged, every integer comes back as the same integer, every missing value comes back missing, and every real number comes back as the binary64 number nearest to the decimal printed in its column, provided each value's text fits its column (text values at most the column width and without outer blanks; numbers printing in at most the column width). Values never leak into neighbouring columns.", "quantifier": "every record format used by the library, every list of values (any mix of missing, integer, real, text) whose texts fit their columns", "why_tests_cant": "The claim ranges over all real numbers, all strings and all column layouts; a test samples a few numbers and cannot exclude a value whose text has a different length.", "anchors": ["toughio/_io/input/tough/_helpers.py::read_record", "toughio/_io/input/tough/_helpers.py::write_record", "toughio/_common.py::str2format", "toughio/_common.py::block_to_format"]}
{"id": "C02", "title": "Numbers that do not fit their column corrupt the record", "statement": "A number written to a record never changes how any other field of that record is read: writing a list of values and reading it back must leave the fields after a number untouched whatever that number is. (The code violates this: negative numbers and numbers with a three-digit exponent print 11 characters in a 10-character column and shift every later column by one.) What holds: the record is intact whenever every number's printed text is no longer than its column, and a 10.4e column can hold exactly the numbers that are zero or positive with a decimal exponent between -99 and 99 after rounding.", "quantifier": "all real numbers, all columns of all record formats", "why_tests_cant": "Tests use values chosen by the author that fit; whether all values fit, and what happens to neighbours when they do not, is a statement about all numbers.", "anchors": ["toughio/_io/input/tough/_helpers.py::write_record", "toughio/_common.py::str2format", "toughio/_common.py::block_to_format"]}
{"id": "C03", "title": "Precision of stored numbers and stability of a second save", "statement": "A finite real number written to a column with p digits after the point comes back with relative error at most half a unit of the last printed digit (plus one binary64 rounding), zero comes back as zero, infinities and NaN come back as themselves, the sign is preserved, and writing the number that was read produces exactly the same text again, so that further write/read cycles never drift.", "quantifier": "all finite binary64 numbers in the normal range (and zero, infinities, NaN), all precisions used by the formats (p <= 13)", "why_tests_cant": "Rounding and re-rounding behave differently at decimal and binary ties and powers of ten; sampling cannot rule out a value that drifts on the second save.", "anchors": ["toughio/_io/input/tough/_helpers.py::str2float", "toughio/_io/input/tough/_helpers.py::read_record", "toughio/_io/input/tough/_helpers.py::write_record"]}
{"id": "C04", "title": "Record lines are exactly 80 columns", "statement": "Every record line of a TOUGH input file produced by the library is a single line ending in one newline with exactly 80 characters before it when all values fit their columns, and never fewer than 80 otherwise, and no format of the library is wider than 80 columns.", "quantifier": "every record format, every list of values, single- and multi-line records", "why_tests_cant": "The line length depends on the printed length of every value; tests check sample lines only.", "anchors": ["toughio/_io/input/tough/_helpers.py::write_record", "toughio/_common.py::block_to_format", "toughio/_common.py::str2format"]}
{"id": "C05", "title": "Fortran-style exponents are understood", "statement": "A number printed by Fortran without the letter E because its exponent has three digits (for example 0.1234-123 or 1.5+100) is read as the same number as its spelled-out form with E, any text that is already a valid number is read as that number, and text that is a number in neither form is rejected with ValueError rather than misread.", "quantifier": "every significand text and every sign and three-digit exponent", "why_tests_cant": "The fallback splits the text at a fixed position; only a statement over all texts shows it never produces a wrong value.", "anchors": ["toughio/_io/input/tough/_helpers.py::str2float"]}
{"id": "C06", "title": "Missing trailing values are dropped and nothing else", "statement": "Removing missing values from a list read from a record only removes entries at the end: the result is the longest prefix whose last entry is present, so values keep their positions; removing missing entries from a dictionary keeps every present key and value, in order.", "quantifier": "every list and dictionary of optionally missing values", "why_tests_cant": "Position shifts appear only for particular patterns of missing entries among infinitely many.", "anchors": ["toughio/_io/input/tough/_helpers.py::prune_nones_list", "toughio/_io/input/tough/_helpers.py::prune_nones_dict"]}
{"id": "C07", "title": "Cell label length is detected from the first record", "statement": "When an ELEME, CONNE, INCON or GENER block is read without giving the label length, the library uses the true label length L (5 to 9) whenever the labels consist of five characters followed by digits only (as the library generates them) and the character that follows the first label on the line is not a digit. (In a GENER block the next character is the first letter of the source name, so a name starting with a digit makes the detection wrong.)", "quantifier": "all labels of length 5 to 9 of that form, all continuations of the line", "why_tests_cant": "All label texts and all following columns must be covered, including full NSEQ columns and source names starting with a digit.", "anchors": ["toughio/_common.py::get_label_length", "toughio/_io/input/tough/_read.py::_read_eleme", "toughio/_io/input/tough/_read.py::_read_conne", "toughio/_io/input/tough/_read.py::_read_incon", "toughio/_io/input/tough/_read.py::_read_gener"]}
{"id": "C08", "title": "Reading any input file terminates", "statement": "Reading a TOUGH input file always terminates with parameters or an error. (The code violates this: when the first line is not ROCKS, ELEME, INCON or GENER and no later line starts with ROCKS, the title loop reads empty strings for ever.) What holds: it terminates whenever the first line starts with one of those keywords or some later line starts with ROCKS, and the title is then exactly the list of stripped lines before that line.", "quantifier": "all file contents", "why_tests_cant": "Non-termination cannot be observed by a passing test, and the set of files that trigger it is infinite.", "anchors": ["toughio/_io/input/tough/_read.py::read_buffer"]}
{"id": "C09", "title": "ROCKS block round trip", "statement": "Writing rock properties and reading the file back gives the same rock names in the same order and, for every rock, the same density, porosity, permeability (scalar, or three components), conductivity, specific heat, the seven secondary properties, and the relative permeability and capillarity models with their ids and parameters, numbers being rounded to their columns; absent properties stay absent.", "quantifier": "all collections of rocks with distinct names of one to five characters without outer blanks and numbers that fit their columns", "why_tests_cant": "The number of lines per rock depends on which optional properties are present (2^7 patterns times model patterns) and the reader must stay in phase for arbitrarily many rocks.", "anchors": ["toughio/_io/input/tough/_write.py::_write_rocks", "toughio/_io/input/tough/_read.py::_read_rocks", "toughio/_io/input/tough/_read.py::_read_rpcap"]}
{"id": "C10", "title": "RPCAP block round trip", "statement": "Default relative permeability and capillarity models written to the RPCAP block are read back with the same ids and parameters (trailing missing parameters dropped), and a model that is not set stays unset.", "quantifier": "all model ids and parameter lists of up to seven values fitting their columns", "why_tests_cant": "Ranges over all ids, parameters and presence patterns.", "anchors": ["toughio/_io/input/tough/_write.py::_write_rpcap", "toughio/_io/input/tough/_read.py::_read_rpcap"]}
{"id": "C11", "title": "FLAC block round trip", "statement": "Writing the FLAC block and reading it back after the rocks gives the creep flag (as 0 or 1), porosity model and version, and gives every rock, in the order of the ROCKS block, its own permeability model and equivalent pore pressure model (the defaults when a rock has none).", "quantifier": "all rock lists and all models with up to seven parameters fitting their columns", "why_tests_cant": "Alignment of two lines per rock with the rock order must hold for any number of rocks.", "anchors": ["toughio/_io/input/tough/_write.py::_write_flac", "toughio/_io/input/tough/_read.py::_read_flac"]}
{"id": "C12", "title": "MULTI block round trip", "statement": "For every supported equation of state (or explicit numbers of components and phases) the MULTI block read back reports the same number of components, phases and the same isothermal flag as requested, and the number of mass equations written is the number of components, plus one unless isothermal.", "quantifier": "all equations of state in the table, all explicit overrides that fit five columns, isothermal or not, with or without diffusion", "why_tests_cant": "Overrides interact with the table and the isothermal flag; tests try one combination.", "anchors": ["toughio/_io/input/tough/_write.py::_write_multi", "toughio/_io/input/tough/_read.py::_read_multi", "toughio/_io/input/tough/_common.py::eos"]}
{"id": "C13", "title": "SOLVR block round trip and defaults", "statement": "Solver options written to the SOLVR block are read back unchanged, and options that are not given take the documented defaults. (The code violates the second half: the default table uses the key 'id' instead of 'method', so a solver dictionary without 'method' raises KeyError.)", "quantifier": "all solver dictionaries", "why_tests_cant": "The missing default only shows for dictionaries that tests do not contain.", "anchors": ["toughio/_io/input/tough/_write.py::_write_solvr", "toughio/_io/input/tough/_read.py::_read_solvr", "toughio/_io/input/tough/_common.py::solver"]}
{"id": "C14", "title": "PARAM block round trip", "statement": "All options, the 24 extra option digits, the list of time steps (any length) and the default initial condition (up to eight values) written to the PARAM block are read back: each option rounded to its column, each extra option digit under the same index, time steps in order, and the reader stops exactly at the end of the block so that the following block is read from its own header.", "quantifier": "all option values fitting their columns, all digit assignments of the 24 switches, all non-empty time step lists, all initial conditions of up to eight values, any following block", "why_tests_cant": "The number of time step lines and the optional second initial-condition line make the block length vary; the reader decides by trying to parse the next header as numbers.", "anchors": ["toughio/_io/input/tough/_write.py::_write_param", "toughio/_io/input/tough/_read.py::_read_param"]}
{"id": "C15", "title": "Saving and reloading unset time steps is stable", "statement": "An options dictionary without time steps stays without time steps through write and read cycles. (The code violates this: unset becomes an empty list on the first reload and the number 0 on the second.)", "quantifier": "all option dictionaries without t_steps", "why_tests_cant": "Requires following two write/read cycles for every options dictionary.", "anchors": ["toughio/_io/input/tough/_write.py::_write_param", "toughio/_io/input/tough/_read.py::_read_param"]}
{"id": "C16", "title": "SELEC block round trip", "statement": "Integer and floating point selections written to SELEC are read back under the same indices and as the same rows of numbers. (The code violates this when there are no floats and integer 1 is not set: reading raises KeyError; and when integer 1 is set without floats, reading consumes following lines.)", "quantifier": "all assignments of the 16 integers and all tables of up to eight columns fitting their columns", "why_tests_cant": "Depends on the interplay of integer 1 and the number of float rows for every table.", "anchors": ["toughio/_io/input/tough/_write.py::_write_selec", "toughio/_io/input/tough/_read.py::_read_selec"]}
{"id": "C17", "title": "INDOM block round trip", "statement": "Rock-specific initial conditions written to INDOM are read back for the same rocks with the same values (trailing missing values dropped), for rocks whose name is not itself a number. (The code violates this for lists mixing rocks with at most four values before rocks with more than four.)", "quantifier": "all lists of rocks with initial conditions of up to eight values", "why_tests_cant": "Whether the reader stays in phase depends on the pattern of one-line and two-line entries over the whole list.", "anchors": ["toughio/_io/input/tough/_write.py::_write_indom", "toughio/_io/input/tough/_read.py::_read_indom"]}
{"id": "C18", "title": "MOMOP block round trip", "statement": "Each of the 40 additional option digits written to MOMOP is read back under the same index, and unset options stay unset.", "quantifier": "all assignments of digits 0-9 or unset to indices 1..40", "why_tests_cant": "There are 11^40 assignments; an off-by-one shows only for some.", "anchors": ["toughio/_io/input/tough/_write.py::_write_momop", "toughio/_io/input/tough/_read.py::_read_momop"]}
{"id": "C19", "title": "TIMES block round trip", "statement": "A list of output times of any length written to TIMES is read back with the same length and order, each rounded to its column, a single time coming back as a scalar; the reader consumes exactly the lines written.", "quantifier": "all lists of fewer than 100000 times fitting their columns", "why_tests_cant": "The number of lines is a ceiling division; all lengths must be covered.", "anchors": ["toughio/_io/input/tough/_write.py::_write_times", "toughio/_io/input/tough/_read.py::_read_times"]}
{"id": "C20", "title": "FOFT, COFT and GOFT history lists round trip", "statement": "Lists of element, connection and generator names requested for history output are read back exactly as requested, in order. (The code violates this for meshes with labels longer than five characters: names are silently cut to 5 characters in FOFT and GOFT and to 10 in COFT.)", "quantifier": "all lists of names", "why_tests_cant": "Label lengths 6 to 9 are supported elsewhere in the library but the truncation is silent.", "anchors": ["toughio/_io/input/tough/_write.py::_write_foft", "toughio/_io/input/tough/_write.py::_write_coft", "toughio/_io/input/tough/_write.py::_write_goft", "toughio/_io/input/tough/_read.py::_read_oft", "toughio/_common.py::block_to_format"]}
{"id": "C21", "title": "GENER block round trip", "statement": "Sources and sinks written to GENER are read back under the same element labels with the same name, type, sequence numbers, constant rate and enthalpy or time tables of any length, and layer thickness; several generators on one element come back as lists in the same order. (The code violates this when the generators of one element mix a constant rate and a table without enthalpy: reading raises KeyError or silently drops enthalpies.)", "quantifier": "all generator dictionaries whose fields fit their columns", "why_tests_cant": "Tables span ceil(n/4) lines and several generators interleave; whether tables and keys stay aligned is a property of all shapes.", "anchors": ["toughio/_io/input/tough/_write.py::_write_gener", "toughio/_io/input/tough/_read.py::_read_gener"]}
{"id": "C22", "title": "DIFFU block round trip", "statement": "A table of diffusion coefficients with up to eight phases per component written to DIFFU is read back row by row, and reading stops exactly before the next block header.", "quantifier": "all tables with one to eight values per row fitting their columns and no all-missing row, any following block", "why_tests_cant": "End of block is detected by failing to parse the following header.", "anchors": ["toughio/_io/input/tough/_write.py::_write_diffu", "toughio/_io/input/tough/_read.py::_read_diffu"]}
{"id": "C23", "title": "OUTPU block round trip", "statement": "Output format and variables (with none, one or two integer arguments, or several argument pairs) written to OUTPU are read back, names in lower case, and the block does not disturb the following block. (The code violates the last part: when only the format is given, the reader consumes the header of the next block, so the whole next block, e.g. ELEME, is silently lost.)", "quantifier": "all output specifications, any following block", "why_tests_cant": "The loss depends on which optional parts are present and which block comes next.", "anchors": ["toughio/_io/input/tough/_write.py::_write_outpu", "toughio/_io/input/tough/_read.py::_read_outpu"]}
{"id": "C24", "title": "ELEME block round trip", "statement": "Element labels, order, sequence numbers, material (name or number), volume, heat exchange area, permeability modifier and centre written to ELEME are read back unchanged up to column rounding, for label lengths 5 to 9. (The code violates this for elements with an empty material: reading raises AttributeError; and an all-digit material name comes back as an integer.)", "quantifier": "all element tables with labels of one length fitting their columns", "why_tests_cant": "Covers five layouts and unbounded tables.", "anchors": ["toughio/_io/input/tough/_write.py::_write_eleme", "toughio/_io/input/tough/_read.py::_read_eleme"]}
{"id": "C25", "title": "COORD block round trip", "statement": "Element centres written to COORD replace the centres of the same elements on reading, in element order.", "quantifier": "all element tables with three-component centres", "why_tests_cant": "Association between lines and elements is positional over the whole table.", "anchors": ["toughio/_io/input/tough/_write.py::_write_coord", "toughio/_io/input/tough/_read.py::_read_coord", "toughio/_io/input/tough/_read.py::read_buffer"]}
{"id": "C26", "title": "CONNE block round trip", "statement": "Connection labels, order, sequence numbers, permeability direction, nodal distances, interface area, gravity angle and radiant emittance written to CONNE are read back unchanged up to column rounding, for label lengths 5 to 9.", "quantifier": "all connection tables with labels of one length fitting their columns", "why_tests_cant": "Covers five layouts and unbounded tables.", "anchors": ["toughio/_io/input/tough/_write.py::_write_conne", "toughio/_io/input/tough/_read.py::_read_conne"]}
{"id": "C27", "title": "INCON block round trip", "statement": "Initial conditions (porosity, user fields, up to eight primary variables) written to INCON are read back for the same elements in the same order. (The code violates this when elements with more than four values follow elements with at most four, and when the values beyond the fourth are all missing, which ends the block early and silently drops the remaining elements.)", "quantifier": "all tables of initial conditions", "why_tests_cant": "Whether the reader stays in phase depends on the pattern of the whole table.", "anchors": ["toughio/_io/input/tough/_write.py::_write_incon", "toughio/_io/input/tough/_read.py::_read_incon"]}
{"id": "C28", "title": "Block selection and order of a written file", "statement": "A written file contains, in the fixed TOUGH order, exactly the blocks selected by the block argument and present in the parameters: 'gener' only GENER, 'mesh' only ELEME, COORD and CONNE, 'incon' only INCON, 'all' everything ending with ENDCY as the last line; any other argument is rejected before anything is written.", "quantifier": "all parameter dictionaries and all block arguments", "why_tests_cant": "There are 2^20 presence patterns.", "anchors": ["toughio/_io/input/tough/_write.py::write", "toughio/_io/input/tough/_write.py::write_buffer", "toughio/_io/input/tough/_helpers.py::block"]}
{"id": "C29", "title": "Whole input file round trip", "statement": "Reading a file written from well-formed parameters returns, for every block that was written, the block's round-trip value: blocks do not interfere with one another and none is lost, whatever combination of blocks is present.", "quantifier": "all well-formed parameter dictionaries (all combinations of present blocks)", "why_tests_cant": "Interference between blocks depends on which block follows which; the number of combinations is exponential.", "anchors": ["toughio/_io/input/tough/_write.py::write_buffer", "toughio/_io/input/tough/_read.py::read_buffer"]}
{"id": "C30", "title": "Titles never act as block headers", "statement": "The title lines given by the user are read back as the title and never influence other parameters. (The code violates this: a title starting with a block keyword, e.g. MULTIPHASE FLOW, is parsed as that block.) What holds: titles not starting with a block keyword come back stripped, one per line.", "quantifier": "all titles", "why_tests_cant": "Any title text is allowed; tests use random letters.", "anchors": ["toughio/_io/input/tough/_write.py::write_buffer", "toughio/_io/input/tough/_read.py::read_buffer"]}
{"id": "C31", "title": "Parameter validation accepts exactly the documented types", "statement": "Writing rejects with TypeError exactly when some known key holds a value that is neither missing nor of the type documented for that key; unknown keys never cause rejection and are reported; in lists of entries every entry is checked.", "quantifier": "all parameter dictionaries and all type tables", "why_tests_cant": "The set of dictionaries is unbounded.", "anchors": ["toughio/_io/input/tough/_helpers.py::check_parameters", "toughio/_io/input/tough/_helpers.py::dtypes", "toughio/_io/input/tough/_helpers.py::str_to_dtype"]}
{"id": "C32", "title": "Row order follows the requested order", "statement": "Elements, connections and initial conditions are written exactly in the order list when one is given and otherwise in dictionary order; rocks missing from the rock order list are appended, so every rock is written exactly once when the order list has no duplicates; an order list naming an unknown entry is rejected.", "quantifier": "all dictionaries and all order lists", "why_tests_cant": "All permutations and partial lists must be covered.", "anchors": ["toughio/_io/input/tough/_write.py::_write_rocks", "toughio/_io/input/tough/_write.py::_write_eleme", "toughio/_io/input/tough/_write.py::_write_conne", "toughio/_io/input/tough/_write.py::_write_incon"]}
{"id": "C33", "title": "JSON parameters round trip", "statement": "Parameters saved as JSON and loaded again are equal to the original, including the integer keys of extra options, more options and selections, with arrays and tuples becoming lists.", "quantifier": "all parameter trees built from the supported types", "why_tests_cant": "JSON turns all keys into strings; which nested dictionaries get integer keys back must hold for all trees.", "anchors": ["toughio/_io/input/json/_json.py::read", "toughio/_io/input/json/_json.py::write"]}
{"id": "C34", "title": "Generated cell labels are unique and well formed", "statement": "The labels generated for a mesh of n cells with label length L are pairwise distinct, all of length L, start with a letter A-Z, have two characters from 1-9A-Z next and end in digits, for every n up to 26*35*35*10^(L-3); for larger n label generation with that length fails instead of producing duplicates.", "quantifier": "all n and all label lengths L >= 3", "why_tests_cant": "Collisions would appear only for meshes with millions of cells.", "anchors": ["toughio/_mesh/_common.py::labeler"]}
{"id": "C35", "title": "Automatic label length is minimal and sufficient", "statement": "When no label length is given, the chosen length is the smallest L >= 5 whose capacity 26*35*35*10^(L-3) is at least the number of cells, for all meshes of up to 3.185e11 cells, and labels generated that way are detected with the correct length when the mesh file is read back.", "quantifier": "all numbers of cells", "why_tests_cant": "The switch-over points are at millions of cells.", "anchors": ["toughio/_mesh/_common.py::labeler", "toughio/_mesh/_mesh.py::Mesh.labels", "toughio/_common.py::get_label_length"]}
{"id": "C36", "title": "Reordering output data follows labels", "statement": "Reordering output by a list of labels returns the data with exactly that label order in which every label keeps its own row of every variable; reordering twice is the same as reordering once; a list of the wrong length or with an unknown label is rejected.", "quantifier": "all outputs with distinct labels and all label lists", "why_tests_cant": "All permutations of all sizes.", "anchors": ["toughio/_io/output/_common.py::reorder_labels"]}
{"id": "C37", "title": "Output file type detection", "statement": "The type of an output file is decided from its first lines so that each supported format is recognised from its own header and no file is recognised as two formats; unsupported headers are rejected.", "quantifier": "all file beginnings", "why_tests_cant": "All headers must be covered.", "anchors": ["toughio/_io/output/_helpers.py::get_output_type"]}
{"id": "C38", "title": "CSV output round trip", "statement": "Time series of element data written as TOUGH3 CSV and read back give the same times, labels and variables, numbers rounded to the printed digits, for any number of time steps and elements.", "quantifier": "all outputs with at least one element and labels without quotes, commas or outer blanks", "why_tests_cant": "Unbounded number of rows, steps and variables.", "anchors": ["toughio/_io/output/csv/_csv.py::read", "toughio/_io/output/csv/_csv.py::write"]}
{"id": "C39", "title": "Structured grids have the right cells", "statement": "A structured 3D (2D) grid built from cell sizes has one cell per (i,j,k) (per (i,j)), every vertex index is valid, and the eight (four) vertices of the cell are exactly the corners of the box at the partial sums of the sizes, in meshio vertex order; with layer=True cells are listed layer by layer from top to bottom, otherwise column by column, each from top to bottom.", "quantifier": "all positive cell size lists and origins", "why_tests_cant": "Index arithmetic must be right for every grid shape.", "anchors": ["toughio/meshmaker/_structured_grid.py::_grid_3d", "toughio/meshmaker/_structured_grid.py::_grid_2d"]}
{"id": "C40", "title": "Volumes of structured grids", "statement": "The volume computed for each cell of a structured grid is the product of its sizes, hence positive, and the volumes add up to the product of the domain sizes.", "quantifier": "all positive cell sizes", "why_tests_cant": "The decomposition of a hexahedron into tetrahedra must be right for every box.", "anchors": ["toughio/_mesh/_properties.py::_volumes", "toughio/meshmaker/_structured_grid.py::structured_grid"]}
{"id": "C41", "title": "Cylindrical grids", "statement": "In a cylindrical grid the volume of every ring is pi times the difference of squared radii times the layer height, the volumes add up to pi R^2 H, and volumes and face areas are listed in the same cell order as the mesh cells.", "quantifier": "all positive radial increments and layer heights", "why_tests_cant": "Ordering of flattened arrays must match the cell order for every shape.", "anchors": ["toughio/meshmaker/_cylindric_grid.py::cylindric_grid"]}
{"id": "C42", "title": "Connections list every pair of neighbours once", "statement": "Two cells are connected in the mesh exactly when they share a face; the neighbour table is symmetric; and the MESH file lists each pair of connected cells exactly once and never connects a cell to itself.", "quantifier": "all conforming meshes in which every face belongs to at most two cells", "why_tests_cant": "Meshes are unbounded; a duplicated or missing connection changes flow silently.", "anchors": ["toughio/_mesh/_properties.py::_connections", "toughio/_mesh/_properties.py::_get_faces", "toughio/_mesh/tough/_tough.py::_write_conne", "toughio/_mesh/tough/_helpers.py::conne"]}
{"id": "C43", "title": "Splitting per-cell arrays by cell block", "statement": "Splitting an array with one row per cell by cell blocks and concatenating the pieces gives the array back, each piece has the number of rows of its block, and an array of another length is rejected.", "quantifier": "all meshes and all arrays", "why_tests_cant": "All block structures.", "anchors": ["toughio/_mesh/_mesh.py::Mesh.split"]}
{"id": "C44", "title": "Extruding a 2D mesh", "statement": "Extruding a mesh of triangles and quads by a list of heights gives wedges and hexahedra: number of cells is multiplied by the number of heights, every vertex index is valid, the bottom and top faces of a cell are the copies of the original cell at consecutive levels, and cell data are repeated per layer so that each new cell has the data of the cell it stands on.", "quantifier": "all 2D meshes and all lists of heights", "why_tests_cant": "Index arithmetic for all meshes.", "anchors": ["toughio/_mesh/_mesh.py::Mesh.extrude_to_3d"]}
{"id": "C45", "title": "Pruning duplicate points", "statement": "Removing duplicate points keeps the coordinates of every cell's vertices, leaves no two equal points, keeps point data of merged points consistent, and doing it twice is the same as doing it once; duplicate cells are removed so that no two remaining cells have the same vertex set and every vertex set remains.", "quantifier": "all meshes", "why_tests_cant": "All coincidence patterns of points and cells.", "anchors": ["toughio/_mesh/_mesh.py::Mesh.prune_duplicates"]}
{"id": "C46", "title": "Assigning a material to cells", "statement": "Assigning a material to a list of cell indices (or a boolean mask) gives exactly the selected cells that material and leaves every other cell's material unchanged; invalid selections are rejected and change nothing; a material name that is not yet known receives a number used by no other material. (The code violates the last part: the new number is one more than the largest number in use by a cell, which may already belong to a material that no cell uses; and an empty list of indices raises an error.)", "quantifier": "all meshes, all material tables and all selections", "why_tests_cant": "All configurations of used and unused material numbers.", "anchors": ["toughio/_mesh/_mesh.py::Mesh.set_material", "toughio/_mesh/_properties.py::_materials"]}
{"id": "C47", "title": "Box selection", "statement": "Selecting cells by a box returns exactly the indices of the cells whose centre lies in the closed box, in increasing order, an unspecified bound being unbounded. (The code violates this for a zero length, which is treated as unbounded, and for a length given without an origin, which selects nothing.)", "quantifier": "all meshes and all boxes", "why_tests_cant": "All positions of centres relative to the box.", "anchors": ["toughio/_mesh/_filter/box/_box.py::filter_"]}
{"id": "C48", "title": "Nearest cell", "statement": "The cell returned for a query point is one whose centre is at minimal distance from the point, and the first such cell.", "quantifier": "all meshes and all query points", "why_tests_cant": "All configurations of centres.", "anchors": ["toughio/_mesh/_mesh.py::Mesh.near"]}
{"id": "C49", "title": "Relative permeability curves stay within bounds", "statement": "For every liquid saturation between 0 and 1 and admissible parameters, each relative permeability model returns values between 0 and 1, liquid permeability does not decrease and gas permeability does not increase with liquid saturation, and saturations outside [0,1] are rejected.", "quantifier": "all saturations in [0,1] and all admissible parameters of each model", "why_tests_cant": "The parameter space is continuous.", "anchors": ["toughio/relative_permeability/_base.py::BaseRelativePermeability", "toughio/relative_permeability/_linear.py", "toughio/relative_permeability/_pickens.py", "toughio/relative_permeability/_corey.py", "toughio/relative_permeability/_grant.py", "toughio/relative_permeability/_fatt_klikoff.py", "toughio/relative_permeability/_van_genuchten_mualem.py", "toughio/relative_permeability/_verma.py"]}
{"id": "C50", "title": "Capillary pressure curves stay within bounds", "statement": "For every liquid saturation between 0 and 1 and admissible parameters, each capillary pressure model returns a non-positive value not below minus its maximum magnitude (where the model has one), the magnitude does not increase with saturation, and saturations outside [0,1] are rejected.", "quantifier": "all saturations in [0,1] and all admissible parameters of each model", "why_tests_cant": "The parameter space is continuous.", "anchors": ["toughio/capillarity/_base.py::BaseCapillarity", "toughio/capillarity/_linear.py", "toughio/capillarity/_pickens.py", "toughio/capillarity/_trust.py", "toughio/capillarity/_milly.py", "toughio/capillarity/_van_genuchten.py"]}
{"id": "C51", "title": "Merging input, MESH and INCON files", "statement": "Merging an input file with the MESH file and, if present, the INCON file gives the input lines before the end record, then the MESH lines, then the INCON lines, then the end record and everything after it, so no line is lost, duplicated or reordered; an input without an end record is refused. (The code violates the refusal: three header-like lines without an end record are accepted and the mesh is inserted before the last line; and when a file does not end with a newline its last line is glued to the next line.)", "quantifier": "all contents of the three files", "why_tests_cant": "All file contents.", "anchors": ["toughio/_cli/_merge.py::merge"]}
{"id": "C52", "title": "Converting SAVE to INCON", "statement": "Converting a SAVE file without reset copies it unchanged; with reset it keeps exactly the lines before the first restart marker and ends with a blank line; a file that does not start with INCON is refused. (The code violates this in part: an empty file is accepted, the output file is emptied before the input is checked, and with reset a file that has neither marker nor final newline gets no blank line.)", "quantifier": "all file contents", "why_tests_cant": "All file contents.", "anchors": ["toughio/_cli/_save2incon.py::save2incon"]}
{"id": "C53", "title": "File type from extension", "statement": "The format of a file is determined by its extension irrespective of letter case, formats registered later for the same extension take precedence, and an unregistered extension or a name without extension selects no format. (An extension registered with capital letters is never selected.) A format that is given comes before the extension. Meshes of other formats are left to meshio; outputs of formats that cannot be written are refused.", "quantifier": "all file names and all registrations", "why_tests_cant": "All file names.", "anchors": ["toughio/_common.py::register_format", "toughio/_common.py::filetype_from_filename"]}
{"id": "C54", "title": "Default rock parameters", "statement": "When an input file is written, every simple parameter of a rock is the rock's own value if the rock has that key, otherwise the value given in the default section, otherwise missing; the TOUGH-FLAC models follow the same rule with the documented models as last resort; relative permeability, capillarity and initial condition of a rock are never taken from the default section; no rock is added, lost or moved.", "quantifier": "all parameter dictionaries", "why_tests_cant": "Each key may be present or absent in the rock and in the default section, for any number of rocks.", "anchors": ["toughio/_io/input/tough/_write.py::write", "toughio/_io/input/tough/_write.py::_write_flac"]}
{"id": "C55", "title": "Records follow the documented columns", "statement": "In every record that is written, each quantity stands in the columns of the TOUGH format for that record: text on the left, numbers on the right in the notation of the column, blanks for a missing value. This holds for ROCKS, RPCAP, MULTI, PARAM, SOLVR, MOMOP, FLAC, TIMES, INDOM, GENER, ELEME, COORD, CONNE, INCON and for tables spread over several lines.", "quantifier": "all values that fit their columns, all label lengths from 5 to 9", "why_tests_cant": "The values, the missing ones among them and the label length vary independently.", "anchors": ["toughio/_io/input/tough/_write.py", "toughio/_io/input/tough/_helpers.py::write_record"]}
{"id": "C56", "title": "Petrasim output files", "statement": "Outputs with the same variables at finite times, written as a Petrasim file and read back, give one output per distinct time in ascending order, holding the labels and all values of the outputs at that time to 13 digits; when the times ascend strictly, exactly the outputs written come back. (The code does not keep outputs that are out of order, merges times that agree to 13 digits, and loses outputs without variables.)", "quantifier": "all lists of outputs with plain labels and names", "why_tests_cant": "Any number of outputs, variables and rows, any finite values.", "anchors": ["toughio/_io/output/petrasim/_petrasim.py::read", "toughio/_io/output/petrasim/_petrasim.py::write"]}
{"id": "C57", "title": "Tecplot output files", "statement": "Outputs with the same variables, among them the coordinates X and Y, written as a Tecplot file and read back, give the same outputs in the same order: times to 8 digits, all values to 13 digits; without X or Y nothing is written. (The code does not keep labels, cannot read back a negative number with a three-digit exponent, joins names of 18 characters or more to their neighbours and loses the variables of an output without rows.)", "quantifier": "all lists of outputs with plain names shorter than 18 characters", "why_tests_cant": "Any number of outputs, variables and rows.", "anchors": ["toughio/_io/output/tecplot/_tecplot.py::read", "toughio/_io/output/tecplot/_tecplot.py::write", "toughio/_mesh/tecplot/_tecplot.py::_read_variables", "toughio/_mesh/tecplot/_tecplot.py::_read_zone"]}
{"id": "C58", "title": "Areas and normal vectors of faces", "statement": "face_areas and face_normals list, for every cell and in the order of its faces, the area of the face (a triangle, or a quadrangle cut along a diagonal) and a unit vector perpendicular to the face.", "quantifier": "all meshes of tetrahedra, pyramids, wedges and hexahedra, mixed in any way, with real coordinates", "why_tests_cant": "Any number and mix of cells; faces whose first three vertices are on a line have an area but no normal vector.", "anchors": ["toughio/_mesh/_properties.py::_face_normals", "toughio/_mesh/_properties.py::_face_areas", "toughio/_mesh/_properties.py::_get_triangle_normals", "toughio/_mesh/_properties.py::_get_faces"]}
{"id": "C59", "title": "Quantities of connections", "statement": "For every connection the CONNE block holds the two cells, the area of their common face, the axis parallel to the line of the centres (1 if there is none), the cosine between that line and gravity, and the distances of the centres to the interface: along the line of the centres (adding up to their distance when the interface is between them) or perpendicular to the interface; 1e-9 on the side of a boundary cell. (The code cannot write a mesh that has no connection at all.)", "quantifier": "all meshes of solid cells with real coordinates, all positions of the centres, both nodal_distance options", "why_tests_cant": "Any mesh; any centres, also outside their cells.", "anchors": ["toughio/_mesh/tough/_tough.py::_write_conne", "toughio/_mesh/tough/_tough.py::_isot", "toughio/_mesh/tough/_tough.py::_intersection_line_plane", "toughio/_mesh/tough/_tough.py::_distance_point_plane"]}
{"id": "C60", "title": "Qualities of cells", "statement": "The quality of a cell is the smallest cosine between the line to a neighbour and the normal vector of the common face; it lies between zero and one. (The code fails for the whole mesh if one cell has no neighbour.)", "quantifier": "all meshes of solid cells with real coordinates", "why_tests_cant": "Any mesh.", "anchors": ["toughio/_mesh/_properties.py::_qualities", "toughio/_mesh/_mesh.py::Mesh.qualities"]}
{"id": "C61", "title": "MESH file of a mesh", "statement": "The MESH file written for a mesh is read back as exactly the cells of the mesh, each under its label with its material (renamed by material_name if mentioned there), its volume (times 1e50 for a cell with a boundary condition) and its centre, cells whose material is in material_end after all others and otherwise in the order of the mesh, and exactly the connections of the mesh with their quantities. (The code never finds names shorter than five characters in material_name and material_end, and cannot write a mesh without connections.)", "quantifier": "all meshes whose numbers fit their columns, all label lengths from 5 to 9, with and without COORD", "why_tests_cant": "Any number of cells and connections, any materials, any values of the two arguments.", "anchors": ["toughio/_mesh/tough/_tough.py::write", "toughio/_mesh/tough/_tough.py::_write_eleme", "toughio/_mesh/tough/_tough.py::_write_coord", "toughio/_mesh/tough/_tough.py::_write_conne", "toughio/_mesh/tough/_helpers.py::block", "toughio/_io/input/tough/_read.py::read"]}
{"id": "C62", "title": "INCON file of a mesh", "statement": "The INCON file written for a mesh is read back as exactly the cells for which a primary variable, a porosity or a permeability is given, in the order of the mesh, each under its label with these values, where undefined variables (at most -1e9) are missing; it is written if it is asked for and any primary variable is given. (The code leaves out cells whose primary variables are all negative, and a cell with more than four variables of which those after the fourth are undefined ends the block for the reader.)", "quantifier": "all meshes whose numbers fit their columns, up to 8 primary variables", "why_tests_cant": "Any number of cells, any pattern of undefined values.", "anchors": ["toughio/_mesh/tough/_tough.py::write", "toughio/_mesh/tough/_tough.py::_write_incon", "toughio/_mesh/tough/_helpers.py::check_incon", "toughio/_io/input/tough/_read.py::read"]}
{"id": "C63", "title": "Main output file of TOUGH", "statement": "From the main output file of TOUGH every table is read: for every time the time, the labels of the rows and for every header the numbers in its column (NaN for a text that is no number), whatever stands before, between and after the tables; a file without times or without tables of that type is rejected. (The code does not read columns that touch, skips cells whose label starts with ELEM, and fails whenever label_length is given.)", "quantifier": "all files with one table of the same shape per time, both types of tables, labels of 5 to 9 characters", "why_tests_cant": "Any number of times, rows and columns, any text around the tables, repeated headers and empty lines within them.", "anchors": ["toughio/_io/output/tough/_tough.py::read", "toughio/_io/output/tough/_tough.py::_read_table"]}
{"id": "C64", "title": "AVS-UCD mesh files", "statement": "A mesh written as an AVS-UCD file and read again has the same points exactly, the same cells with the same vertices in the same order, the point and cell data (rounded to 15 digits, under their names with underscores for blanks) and the same material numbers; adjacent blocks of one type are joined and empty ones dropped. Cell types unknown to the format and cell data of a wrong length are refused. (The code cuts names at a comma, loses data whose names collide, keeps only the first of several materials, and cannot read what it writes for a mesh without cells.)", "quantifier": "all meshes with points of two or three coordinates (any doubles, also infinite and NaN)", "why_tests_cant": "Any number of points, blocks and cells of the eight types, any number of arrays of any width.", "anchors": ["toughio/_mesh/avsucd/_avsucd.py::read", "toughio/_mesh/avsucd/_avsucd.py::write", "toughio/_mesh/_helpers.py::read", "toughio/_mesh/_helpers.py::write"]}
{"id": "C65", "title": "Tecplot mesh files", "statement": "A mesh written as a Tecplot file and read again has the same points exactly, all its cells of the types of the format in order (next to solid cells, plane ones are left out; a mesh of several types is written as one of bricks or quadrilaterals with repeated vertices), and one variable for every column of its data, exactly, under names with underscores for blanks. The entries of a zone and the list of variables are found whatever blanks and commas stand between them, also data given point by point are read, and whatever follows the first zone is ignored. A mesh without any cell of these types and cell data of a wrong length are refused. (The code cannot read its file if the first coordinate is negative, writes the wrong type if the first of several blocks is plane and another is solid, mangles names of three words, loses a last entry of a zone written without blanks, and does not stop at the end of a file that is too short.)", "quantifier": "all meshes with points of two or three coordinates (any doubles), all lists of entries and variables, all files with data given point by point", "why_tests_cant": "Any number of points, blocks and cells of any type, any number of arrays of any width, any blanks and commas.", "anchors": ["toughio/_mesh/tecplot/_tecplot.py::read", "toughio/_mesh/tecplot/_tecplot.py::write", "toughio/_mesh/tecplot/_tecplot.py::_read_zone", "toughio/_mesh/tecplot/_tecplot.py::_read_variables", "toughio/_mesh/_helpers.py::read", "toughio/_mesh/_helpers.py::write"]}
{"id": "C66", "title": "FLAC3D text files", "statement": "A mesh written as a text file for FLAC3D and read again has the same points up to the digits that are written (exactly, with the default of sixteen), first its zones and then its faces, in order and with the corners of cells that have more vertices; a zone whose first corners do not form a right-handed system comes back as its mirror image, so that all zones of the file are right-handed and a second time nothing changes. Every cell is in exactly one group, which has the name of its material for its dimension (the number, or None for zero, if it has none). A mesh without zones and cell data of a wrong length are refused. (The code turns wedges of the usual order inside out, cannot read its file if faces come before zones, if there are several groups of faces or cells of other types with a material, cuts names at blanks, and mixes up groups of zones and faces with the same name.)", "quantifier": "all meshes with points of three coordinates, all numbers of digits, whatever the computed sign of the triple products is", "why_tests_cant": "Any number of points, blocks and cells of the six linear types and those with more vertices, any materials and names.", "anchors": ["toughio/_mesh/flac3d/_flac3d.py::read_buffer", "toughio/_mesh/flac3d/_flac3d.py::write", "toughio/_mesh/flac3d/_flac3d.py::_translate_zones", "toughio/_mesh/flac3d/_flac3d.py::_translate_groups", "toughio/_mesh/flac3d/_flac3d.py::_read_group", "toughio/_mesh/_helpers.py::read", "toughio/_mesh/_helpers.py::write"]}
{"id": "C67", "title": "FLAC3D binary files", "statement": "A mesh written as a binary file for FLAC3D and read again has the same points to the last bit, and zones, faces and groups as in a text file; names of groups may have blanks and quotation marks, and there may be several groups of faces. All that is written are bytes; a binary file is recognised as such and a text file is not taken for one. A name of a group comes back exactly if it is ASCII. (The code cuts other names in the middle, because it counts characters and writes bytes, so that the file often cannot be read; it cannot read its file if faces come before zones.)", "quantifier": "all meshes with points of three doubles, fewer than 2^32 points and cells, names of groups with fewer than 2^16 characters", "why_tests_cant": "Any number of points, blocks and cells, any materials and names, any doubles (infinite, NaN, subnormal).", "anchors": ["toughio/_mesh/flac3d/_flac3d.py::read", "toughio/_mesh/flac3d/_flac3d.py::read_buffer", "toughio/_mesh/flac3d/_flac3d.py::write", "toughio/_mesh/flac3d/_flac3d.py::_write_points", "toughio/_mesh/flac3d/_flac3d.py::_write_cells", "toughio/_mesh/flac3d/_flac3d.py::_write_groups", "toughio/_mesh/flac3d/_flac3d.py::_read_group"]}
{"id": "C68", "title": "History files", "statement": "From a history file every column is read: the first one as TIME and each other one under the name above it, whatever blanks stand between the columns, both for columns separated by blanks and for names in quotation marks and commas, up to the first empty line. A file without rows and a text that is no number are refused. (Of several columns with one name only the last is kept, a column called TIME replaces the time, a blank within a name that is not quoted moves the names, and columns without a name are lost.)", "quantifier": "all files in which there is one name per column and names differ; the refusals for all files", "why_tests_cant": "Any number of columns and rows, any blanks, any text after the table.", "anchors": ["toughio/_io/output/_helpers.py::read_history"]}
{"id": "C69", "title": "SAVE files", "statement": "From a SAVE file every cell is read: labels in the order of the file or in the order that is asked for, the primary variables as X1, X2, ... in the order of the file, the porosity and the user fields, each row belonging to its label; the time is unknown. The rest of the file after the cells does not matter. (The code refuses an order given as a numpy array, a file in which the porosity of a cell is missing, and one in which only some cells have user fields.)", "quantifier": "all files with initial conditions in which every cell has the same number of variables; in particular the rows that toughio writes, between any first line that begins with INCON and any end", "why_tests_cant": "Any number of cells and variables, label lengths 5 to 9, any order.", "anchors": ["toughio/_io/output/save/_save.py::read", "toughio/_io/output/_common.py::reorder_labels", "toughio/_io/input/tough/_read.py::read"]}
{"id": "C70", "title": "Grids from points", "statement": "The grid made from a list of points has one cell per point with the point as its centre. Points are accepted exactly if they are all combinations of their coordinates and the origin lies below each of them; all else is refused with a ValueError. The first planes go through the origin, and each coordinate is in the middle of two planes. (With one value on an axis the cell goes from the origin one unit far and the point does not matter; points that occur twice can make up for missing ones; cells overlap if the distances of the points and of the origin do not fit.)", "quantifier": "all lists of different points with at least two values on each axis, over any ordered field", "why_tests_cant": "Any number and order of points, any origin, layer by layer or not, any material name.", "anchors": ["toughio/meshmaker/_voxelize.py::voxelize", "toughio/meshmaker/_structured_grid.py::structured_grid"]}
{"id": "C71", "title": "Extracting a main output file", "statement": "The command toughio-extract writes, for every time of a main output file, all variables of the table and the coordinates of each row, which are the centre of its cell in the MESH file or the mean of the centres of the two cells of a connection: to one CSV, Tecplot or Petrasim file, or with --split to one CSV file per time with distinct numbered names. Read again the files have the same labels and the same numbers up to the digits written. Missing files, a MESH file without cells, other files than main output files, cells that are not in the MESH file, and connections in another format than CSV are refused. (With --split the format that is asked for is ignored; coordinates are taken in the order of the last table for all tables; cells without coordinates are put at zero; a SAVE file is an AttributeError.)", "quantifier": "all main output files as in C63 with the same labels at every time, all MESH files with a centre for each of them; the refusals for all files", "why_tests_cant": "Any number of times, rows and variables, any names of files, variables called X, Y or Z.", "anchors": ["toughio/_cli/_extract.py::extract", "toughio/_io/output/_helpers.py::read", "toughio/_io/output/_helpers.py::write", "toughio/_mesh/tough/_tough.py::read"]}
{"id": "C72", "title": "Conversion from and to meshio", "statement": "A mesh converted to meshio has the same points, cells, point data and groups, each array of cell data cut into the parts of the cell blocks. Converted back it is the same mesh, the material data under the name 'material'; a mesh without material gets one whose number is larger than that of all groups of dimension three. With the old style of meshio (before version 4) cells are put together by type, keep their order within a type, and all cell data move with their cells; with blocks of different types nothing moves. Cell data of a wrong length are refused. (Of two arrays that are taken for the material the one called 'material' may be lost; groups without one of dimension three, and old-style data for some types only, are refused.)", "quantifier": "all meshes with distinct names of data, arrays of the right length and at most one material array; old style: cells of a type have the same number of vertices", "why_tests_cant": "Any number of blocks, types and arrays; with and without material, with and without groups.", "anchors": ["toughio/_mesh/_mesh.py::to_meshio", "toughio/_mesh/_mesh.py::from_meshio", "toughio/_mesh/_common.py::get_old_meshio_cells", "toughio/_mesh/_common.py::get_new_meshio_cells"]}
{"id": "C73", "title": "Time series", "statement": "A time series that is written and read again has the same points, cells and steps with the same point and cell data, sorted by time; without times the steps are numbered. In the file each array of cell data is cut into the parts of the cell blocks; with the old style of meshio cells and all data of all steps are moved in the same way. Without any data, or with different numbers of steps or times, nothing is written. (Cell data of a wrong length are not refused.)", "quantifier": "all steps with any data, given with or without point data, cell data and times; any order of equal times", "why_tests_cant": "Any number of steps; unsorted and repeated times; different arrays at different steps.", "anchors": ["toughio/_mesh/_helpers.py::write_time_series", "toughio/_mesh/_helpers.py::read_time_series"]}
{"id": "C74", "title": "Interpolation between cells and points", "statement": "Cell data interpolated to points are, at each point, the mean of the values of the cells around it weighted by their volumes; point data interpolated to cells are the mean of the values at the vertices. Interpolated values lie between the smallest and the largest value that goes into them, a constant stays the same in both directions, and what is linear in the coordinates gets the right value at the centres of the cells. Points, cells and groups stay as they are, other arrays of the target are kept. A point without cells is refused. (Vectors are refused in one direction and averaged over all their components in the other; the numbers of materials are averaged too and lost.)", "quantifier": "all meshes with volumes and all arrays of numbers, over any ordered field", "why_tests_cant": "Any number of cells, cell types, points and arrays; arrays of the same name on both sides.", "anchors": ["toughio/_mesh/_mesh.py::cell_data_to_point_data", "toughio/_mesh/_mesh.py::point_data_to_cell_data", "toughio/_mesh/_common.py::interpolate_data"]}
{"id": "C75", "title": "Results on a mesh", "statement": "Reading an output into a mesh gives every cell, in an array for each variable, the value of the row with the label of the cell, whatever the order of the rows. For the output of connections a cell gets the sum of the vectors of the flows that enter it: a positive value is a flow into the first cell of the connection, its vector is as long as the value is large and points from the centre of the other cell to that of the cell. Arrays of other names, points, cells, point data and groups are kept. Of several outputs that with the number asked for is taken, negative numbers count from the end. Other numbers, outputs with another number of elements, without labels or without a label of the mesh, and connections of unknown cells are refused.", "quantifier": "all meshes over the real numbers with distinct labels, all outputs with one row per label", "why_tests_cant": "Any number and order of cells, rows, variables, connections and outputs; the labels of a mesh are distinct for every label length from four on.", "anchors": ["toughio/_mesh/_mesh.py::read_output", "toughio/_io/output/_common.py::reorder_labels"]}
{"id": "C76", "title": "Conversion from and to pyvista", "statement": "A mesh converted to a pyvista grid gives the grid with the same points, the numbers VTK has for the types of its cells, their vertices, the places of the cells and the same data. A grid converted to a mesh gives the cells that its cells stand for, in order and in blocks as large as possible; pixels and voxels become quadrangles and hexahedra. Blanks in the names of data become underscores, and without material data all cells get one material. Both ways together keep points, cells and data. Unknown cell types are refused. (From VTK 9 on all cells but the first get a wrong number of vertices; the names of groups are lost; blocks without cells shift the others; polygons cannot be converted back; names that differ in a blank and an underscore collide.)", "quantifier": "all meshes and grids with cells that have the number of vertices of their types", "why_tests_cant": "Any number of blocks, cells and arrays, all cell types of VTK in the table.", "anchors": ["toughio/_mesh/_mesh.py::to_pyvista", "toughio/_mesh/_mesh.py::from_pyvista", "toughio/_mesh/_common.py::vtk_to_meshio_type"]}
{"id": "C77", "title": "The command toughio-export", "statement": "The command writes the output asked for (the last one, or that of a number, negative numbers count from the end), or all of them as a time series, on a mesh. With a mesh, each cell gets the values of the row with its label; points and cells are those of the mesh, data it had before are left out. Without one (or for an output of Tecplot) the points are made from the coordinates of the output, on the axes on which they differ; they are triangulated, with the values at the points, or voxelized, with each value in the cell whose centre is the point. The file has the name asked for, or that of the output with the extension of the format. Missing files, unreadable meshes, numbers out of range, outputs without coordinates, and voxels without an origin are refused. (Values of voxels are put into wrong cells unless all points are at the same height and listed by layers or on a line; points in a plane lose the coordinate they have in common; cell data of the mesh are not left out.)", "quantifier": "all outputs with arrays of the same length and distinct names, all triangulations, all grids of points", "why_tests_cant": "With and without mesh, labels in any order, any number of outputs, times in any order, any set of coordinates; one, two and three dimensions.", "anchors": ["toughio/_cli/_export.py::export", "toughio/_cli/_export.py::_get_points", "toughio/meshmaker/_triangulate.py::triangulate"]}
{"id": "C78", "title": "Objects for relative permeability and capillary pressure", "statement": "An object is created just if the function with the arguments is accepted; its parameters are the arguments, in order, and it evaluates that function. Assigning as many values as there are parameters makes them the parameters; another number is refused and changes nothing. Its number is that of the function in TOUGH, its text names the function, its number and each parameter, and tells different objects apart. For an array the values are those of the single saturations, liquid and gas in two rows. A plot shows the values at evenly spaced saturations from 0 to 1, with the keywords given or the default ones; wrong arguments are refused. (Fatt and Klikoff's function has the number of another one; values refused by the constructor can be assigned; a size of None, a size given as an array and the keyword label are refused.)", "quantifier": "all seven classes of relative permeability and five of capillary pressure, all real parameters, all texts of numbers without line breaks", "why_tests_cant": "Any number of arguments, reassignment, default arguments, all kinds of plot arguments.", "anchors": ["toughio/relative_permeability/_base.py::BaseRelativePermeability", "toughio/capillarity/_base.py::BaseCapillarity"]}
{"id": "C79", "title": "The mesh object", "statement": "Cells set as blocks or as a dictionary are returned as they were set; blocks are also returned as a dictionary with the cells of each type in order, a dictionary also as blocks. The text of a mesh lists the number of points, type and number of cells of each block, and the names of sets and data. The initial conditions of a mesh are, for each cell, its label, its row of the initial conditions, and the porosity and the one or three permeability modifiers at its place; the file is written next to the MESH file and is read back as those values. Without initial conditions there is none; initial conditions without columns, and porosities and permeability modifiers of another shape, are refused. (Initial conditions with fewer rows than cells are not refused; a MESH file with the name INCON is overwritten.)", "quantifier": "all lists of blocks and dictionaries of cells, all names without line breaks, all arrays of cell data, all paths", "why_tests_cant": "Any number of blocks, cell types, cells, columns; with and without porosity and permeability modifiers in one or two dimensions; relative and absolute paths.", "anchors": ["toughio/_mesh/_mesh.py::Mesh", "toughio/_mesh/tough/_tough.py::check_incon", "toughio/_mesh/tough/_tough.py::init_incon"]}
{"id": "C80", "title": "Writing a mesh for TOUGH", "statement": "The MESH file written for a mesh is read back as one element for each cell, under the label generated for it, with its material, volume and centre, and one connection for each pair of cells with a common face, and for no other pair, under their labels, with the area of that face and the direction, angle and distances of the two centres. The initial conditions are written beside it if asked for. Meshes with cells that are not solid, and boundary conditions that are not one for each cell, are refused.", "quantifier": "all meshes of solid cells over the real numbers in which a face belongs to at most two cells and two cells have at most one common face, with two neighbours at least", "why_tests_cant": "Any number of blocks, cells and cell types; with and without materials, boundary conditions, coordinates and initial conditions; both kinds of distances.", "anchors": ["toughio/_mesh/tough/_tough.py::write", "toughio/_mesh/tough/_tough.py::write_mesh", "toughio/_mesh/_mesh.py::write_tough"]}
{"id": "C81", "title": "Connections of structured grids", "statement": "In a structured grid of nx, ny and nz cells two cells are connected just if they are next to each other on an axis, each pair once, so there are (nx-1) ny nz + nx (ny-1) nz + nx ny (nz-1) connections. The first cell of a connection is that with the smaller coordinate, or the upper one of two cells above each other. With positive sizes the centre of a cell is in the middle between its planes; a connection has the number of its axis as direction, the product of the sizes on the other axes as area, half of the sizes of the two cells as distances, whichever way they are calculated, and the angle 0, or 1 if it goes down. The MESH file of a grid is read back as these cells, volumes, centres and connections.", "quantifier": "all lists of positive sizes, all origins, both orders of cells, more than one cell; for the file names of materials filled up to five characters", "why_tests_cant": "Any number of cells on each axis, one cell on an axis, different sizes; with and without boundary conditions; both kinds of distances.", "anchors": ["toughio/meshmaker/_structured_grid.py::structured_grid", "toughio/_mesh/_properties.py::_connections", "toughio/_mesh/tough/_tough.py::_write_conne"]}
{"id": "C82", "title": "Connections of cylindrical grids", "statement": "In a cylindrical grid with nr rings and nz layers two cells are connected just if they are next to each other along the radius or above each other, each pair once, so there are (nr-1) nz + nr (nz-1) connections. A connection along the radius goes from the inner to the outer cell, has direction 1, the mantle 2 pi r dz at the radius r between the cells as area, half of the radial sizes as distances and angle 0; one between layers goes from the upper to the lower cell, has direction 3, the ring pi (R^2 - r^2) as area, half of the heights as distances and angle 1. At boundary cells the distance is 1e-9. The MESH file written for the grid is read back as one element for each cell, with the volume pi (R^2 - r^2) dz of its ring and its middle as centre, and these connections.", "quantifier": "all lists of positive radial sizes and heights, all origins, both orders of cells, more than one cell; for the file names of materials filled up to five characters", "why_tests_cant": "Any number of rings and layers, one ring, one layer, different sizes; with and without boundary conditions; both kinds of distances.", "anchors": ["toughio/meshmaker/_cylindric_grid.py::cylindric_grid", "toughio/meshmaker/_cylindric_grid.py::CylindricMesh", "toughio/_mesh/tough/_tough.py::write", "toughio/_mesh/tough/_tough.py::_write_conne"]}
{"id": "C83", "title": "Faces enclose their cell", "statement": "The table of faces of a mesh has for each cell six rows of four entries: the vertices of its faces, filled up with -1. A convex cell is behind all its faces if its vertices are right-handed and before all of them if they are left-handed; the normal vectors of its faces point all outward or all inward, the areas times the normal vectors add up to zero, and the volume of the cell is the volume enclosed by its faces. (For a cell that is not convex the volume can be another one.)", "quantifier": "all meshes of tetrahedra, pyramids, wedges and hexahedra over the real numbers; cells with flat faces that see all other vertices on one side", "why_tests_cant": "All four cell types, any points, both orientations, any point from which the enclosed volume is measured.", "anchors": ["toughio/_mesh/_mesh.py::Mesh.faces", "toughio/_mesh/_properties.py::_faces", "toughio/_mesh/_properties.py::_face_normals", "toughio/_mesh/_properties.py::_face_areas", "toughio/_mesh/_properties.py::_volumes"]}
{"id": "C84", "title": "The tools on files of the library", "statement": "An input file written without its mesh, merged with the MESH file and the INCON file written for the same parameters, has the lines of these three files with the mesh and the initial conditions before ENDCY; without NOVER it is the file that the library writes for all parameters. It is read back as all parameters. A SAVE file that can be read, made into an INCON file with reset, is read as the same initial conditions: only the line that begins with +++ and what follows it is lost.", "quantifier": "all parameters in the domain of the input file with at least one element, whose lines end with their only newline; all SAVE files that begin with INCON and have no block after the line +++", "why_tests_cant": "With and without initial conditions, coordinates, connections and NOVER; any label length; SAVE files with one or two lines of values for each element.", "anchors": ["toughio/_cli/_merge.py::merge", "toughio/_cli/_save2incon.py::save2incon", "toughio/_io/input/tough/_write.py::write", "toughio/_io/input/tough/_read.py::read"]}
{"id": "C85", "title": "What the input file writer refuses", "statement": "A record is refused just if it has a value that its column cannot hold: a text or None in a column of fixed notation, an integer or truth value in a column of text. Blocks of elements, connections, initial conditions and generators are refused if they are empty, if a label is no text, if the longest label has not five to nine characters, or if the order names a row that does not exist. A rock, an element, a connection, an initial condition or a selection is refused with the same error for the same reason wherever it stands; rates and enthalpies must go with the times, and the entries of a generator with several components with its types. A material given as truth value is written as the number one or zero.", "quantifier": "all input dictionaries with values of the types None, bool, int, float and str in the domain of the model", "why_tests_cant": "Every kind of column and value; any place of the bad value; any order; any other rows; all block types with rows.", "anchors": ["toughio/_io/input/tough/_helpers.py::write_record", "toughio/_io/input/tough/_helpers.py::to_str", "toughio/_io/input/tough/_write.py::_write_eleme", "toughio/_io/input/tough/_write.py::_write_conne", "toughio/_io/input/tough/_write.py::_write_incon", "toughio/_io/input/tough/_write.py::_write_gener", "toughio/_io/input/tough/_write.py::_write_rocks", "toughio/_io/input/tough/_write.py::_write_selec", "toughio/_io/input/tough/_write.py::_write_outpu"]}
{"id": "C86", "title": "Input files that cannot be read", "statement": "A record is refused just if the text in some column of numbers is neither blank nor a number, always with ValueError. What a block reader returns does not depend on the lines after the block: more lines are left over and nothing else changes, and an error other than the end of the file stays. A file that can be read and is cut anywhere after its title is either read or refused with the end of the file (StopIteration); it is refused if it is cut inside a block. What follows ENDCY is ignored. Entries that must not be missing (number of times, number of selections, time step, name of an output variable, material of an element, a rock named by INDOM, ROCKS before FLAC, ELEME before COORD) are refused with the error of the Python expression that uses them.", "quantifier": "all lists of lines; all label lengths", "why_tests_cant": "Any file and any place of the cut; every block; any lines after the cut; any fields of a record.", "anchors": ["toughio/_io/input/tough/_read.py::read", "toughio/_io/input/tough/_read.py::read_buffer", "toughio/_io/input/tough/_helpers.py::read_record", "toughio/_io/input/tough/_read.py::_read_rocks", "toughio/_io/input/tough/_read.py::_read_param", "toughio/_io/input/tough/_read.py::_read_times", "toughio/_io/input/tough/_read.py::_read_selec", "toughio/_io/input/tough/_read.py::_read_outpu", "toughio/_io/input/tough/_read.py::_read_eleme", "toughio/_io/input/tough/_read.py::_read_indom"]}
{"id": "C87", "title": "Output files that end early", "statement": "An output file of which only the first lines are there (the simulation is still running or was stopped) is read as the time steps that are complete, or refused if it ends inside a time step; it is never read with some of the rows of a time step as if they were all.", "quantifier": "all outputs in the domain of the writers of CSV, Petrasim and Tecplot files, all main output files of the form described for their reader; files that end with a line", "why_tests_cant": "All formats; any number of time steps and rows; any line as the last one.", "anchors": ["toughio/_io/output/csv/_csv.py::read", "toughio/_io/output/csv/_csv.py::_read_csv", "toughio/_io/output/petrasim/_petrasim.py::read", "toughio/_io/output/tecplot/_tecplot.py::read", "toughio/_io/output/tough/_tough.py::read", "toughio/_io/output/tough/_tough.py::_read_table"]}
{"id": "C88", "title": "Mesh files that end early", "statement": "A mesh file of which only the first lines (bytes of a binary file) are there is not read as another mesh: it is refused. If the first lines are read at all, they are read as what the whole file is read as.", "quantifier": "all meshes in the domain of the writers of AVS-UCD, Tecplot and FLAC3D files; all files of these formats for the second sentence", "why_tests_cant": "All four formats; any line or byte as the last one; with and without data and groups.", "anchors": ["toughio/_mesh/avsucd/_avsucd.py::read", "toughio/_mesh/avsucd/_avsucd.py::_read_nodes", "toughio/_mesh/avsucd/_avsucd.py::_read_cells", "toughio/_mesh/avsucd/_avsucd.py::_read_data", "toughio/_mesh/tecplot/_tecplot.py::read", "toughio/_mesh/flac3d/_flac3d.py::read"]}
{"id": "C89", "title": "Extruding a plane grid gives the grid of space", "statement": "A structured grid of the plane, extruded upwards by a list of heights, is the structured grid of space with these heights that starts at level zero: it has the same points and the same hexahedra with their vertices in the same order at the same places, the same materials and no other data. If both grids are listed layer by layer, the points even have the same numbers, and the layers of cells come from bottom to top in the extruded grid and from top to bottom in the grid of space.", "quantifier": "all lists of sizes (also empty ones, zero and negative sizes), all origins in the plane, both orders of listing", "why_tests_cant": "Any number of cells along each axis; layer true and false; any sizes, heights, origin and material.", "anchors": ["toughio/meshmaker/_structured_grid.py::structured_grid", "toughio/meshmaker/_structured_grid.py::_grid_2d", "toughio/meshmaker/_structured_grid.py::_grid_3d", "toughio/_mesh/_mesh.py::Mesh.extrude_to_3d"]}
{"id": "C90", "title": "What the tools, curves and meshes refuse", "statement": "Wrong arguments and incomplete data are refused with a definite kind of exception. toughio-extract refuses Tecplot, Petrasim and CSV files (ValueError), connections and, outside CSV files, cells without coordinates (TypeError) and tables without cells (ValueError). toughio-export refuses outputs without arrays (StopIteration), coordinates or values that are not equally many (ValueError; IndexError for too few values of voxels), a mesh given for a Tecplot file if voxels are asked for without origin, and series without labels of elements. The plots of curves refuse, in this order, a wrong number of points, wrong axes, a wrong size and keywords that are no dictionary. The MESH file of a mesh without connections is refused (ValueError).", "quantifier": "all files, arguments and meshes", "why_tests_cant": "Any other rows, arrays, arguments and time steps beside the wrong one; any place of the wrong one.", "anchors": ["toughio/_cli/_extract.py::extract", "toughio/_cli/_export.py::export", "toughio/relative_permeability/_base.py", "toughio/capillarity/_base.py", "toughio/_mesh/tough/_tough.py::_write_conne", "toughio/_mesh/_mesh.py"]}
{"id": "C91", "title": "Saving a file that was loaded gives the same file", "statement": "A parameter file that was written by the writer, loaded and saved is the same file, line for line: loading turns numbers, names and defaults into what prints the same. This holds for the whole file and for each of the files INFILE, GENER, MESH and INCON that can be written alone.", "quantifier": "all parameters that the round trip of files covers, with numbers in the range of floats; no FLAC block", "why_tests_cant": "All blocks present or absent; labels of 5 to 9 characters; any numbers of rocks, elements, connections, sources and rows; order lists given or not; equations of state with and without defaults.", "anchors": ["toughio/_io/input/tough/_write.py::write", "toughio/_io/input/tough/_write.py::write_buffer", "toughio/_io/input/tough/_read.py::read", "toughio/_io/input/tough/_read.py::read_buffer", "toughio/_io/input/tough/_helpers.py::prune_nones_dict", "toughio/_io/input/tough/_helpers.py::prune_nones_list"]}
{"id": "C92", "title": "The writer asks for the documented types, and what was loaded has them", "statement": "The writer of input files, with the type checks of all its blocks, writes a file exactly if every parameter that is given has the type that is documented for it (integers, numbers, texts, booleans, lists) and the blocks can be written; the file is the one that is written without checks. What is loaded from a file, whatever file it is, has these types, so that saving it is never refused because of a type.", "quantifier": "all parameters; all files that the reader accepts", "why_tests_cant": "All blocks present or absent; values missing or of any of the types None, bool, int, float, str, list; whole files and the parts GENER, MESH and INCON; with and without the FLAC block.", "anchors": ["toughio/_io/input/tough/_write.py::write", "toughio/_io/input/tough/_write.py::write_buffer", "toughio/_io/input/tough/_helpers.py::check_parameters", "toughio/_io/input/tough/_helpers.py::dtypes", "toughio/_io/input/tough/_read.py::read", "toughio/_io/input/tough/_read.py::read_buffer", "toughio/_io/input/tough/_read.py::_read_flac"]}
{"id": "C93", "title": "Extracted outputs have the coordinates of the cells of the mesh", "statement": "If a mesh is written to a MESH file and the main output file of a simulation with it is extracted with this MESH file, then the extracted file has the same variables at the same times, and the coordinates of every cell are those of the centre of the cell of the mesh that has its label, with the digits of the MESH file (four, or fourteen with the block COORD). With connections they are the means of those of the two cells.", "quantifier": "meshes of solid cells with proper faces that have at least two neighbouring cells, with numbers that fit their columns; main output files of the form of C63 for any cells or connections of the mesh", "why_tests_cant": "Any number of cells and times; tables for all or some of the cells in any order; cells written at the end; with and without the block COORD; all three kinds of nodal distances; materials with and without names.", "anchors": ["toughio/_mesh/tough/_tough.py::write", "toughio/_mesh/tough/_helpers.py", "toughio/_cli/_extract.py::extract", "toughio/_io/output/tough/_tough.py::read", "toughio/_io/output/csv/_csv.py::write"]}
{"id": "C94", "title": "The writer of meshes and the writer of input files write the same MESH and INCON files", "statement": "For the same cells, connections and initial conditions, the MESH and INCON files of the writer of meshes and those of the writer of input files are the same line for line, up to blanks at the ends of records (the second writer fills records to 80 columns). If a file of a mesh is loaded with the reader of input files and saved with its writer, it stays the same in this sense.", "quantifier": "meshes with well-formed labels, numbers that fit their columns and are in the range of floats", "why_tests_cant": "Labels of 5 to 9 characters, given to the reader or detected; materials with and without names, at the end or not; boundary cells; with and without the block COORD; up to eight primary variables, some undefined; porosity and user fields given or not.", "anchors": ["toughio/_mesh/tough/_tough.py::_write_eleme", "toughio/_mesh/tough/_tough.py::_write_coord", "toughio/_mesh/tough/_tough.py::_write_conne", "toughio/_mesh/tough/_tough.py::_write_incon", "toughio/_io/input/tough/_write.py::write", "toughio/_io/input/tough/_read.py::read"]}
{"id": "C95", "title": "The command line tools read and write the files they say", "statement": "Merging takes the files MESH and INCON of the directory of the input file, converting a SAVE file reads the file given, and the CO2 table is copied into the directory given as CO2TAB. Every tool changes its output file only, and none if it refuses its input; files that are read keep their text unless they are the output file. The INCON file of a mesh is written in the directory of its MESH file.", "quantifier": "all paths and all contents of a disk", "why_tests_cant": "Relative and absolute paths, repeated slashes, files at the root or in the working directory; missing files; output files that are among the files read.", "anchors": ["toughio/_cli/_merge.py::merge", "toughio/_cli/_save2incon.py::save2incon", "toughio/_cli/_co2tab.py::co2tab", "toughio/_mesh/tough/_tough.py::write"]}
{"id": "C96", "title": "A loaded input file keeps its parameters as a JSON file", "statement": "What is loaded from a TOUGH input file, saved as a JSON file and loaded again, is the same: the same keys in the same order, the same values, with integers as keys where they were, and lists and dictionaries as they were. What is written has the keys and values that the writer of TOUGH files gets for the same parameters, and every block of the file.", "quantifier": "all files that the reader accepts in which every rock, element, connection, initial condition and generator has a label", "why_tests_cant": "All blocks present or absent; any rows; numbered options and selections; labels of any length.", "anchors": ["toughio/_io/input/_helpers.py::write", "toughio/_io/input/tough/_read.py::read", "toughio/_io/input/tough/_read.py::read_buffer", "toughio/_io/input/json/_json.py::write", "toughio/_io/input/json/_json.py::read"]}
{"id": "C97", "title": "Output files that are loaded and saved stay the same, also in other formats", "statement": "A CSV, Petrasim or Tecplot output file that was written, loaded and saved in the same format is the same file. If it is saved in another of these formats, the result is the file that is written of the original outputs in that format.", "quantifier": "outputs of the form of C38, C56 and C57 with values and times in the range of floats; for conversions, times with the digits that the first file keeps", "why_tests_cant": "Any number of times, cells and variables; coordinates present or not; files of elements and of connections; variables in another order at every time; increasing and other times.", "anchors": ["toughio/_io/output/csv/_csv.py::read", "toughio/_io/output/csv/_csv.py::write", "toughio/_io/output/petrasim/_petrasim.py::read", "toughio/_io/output/petrasim/_petrasim.py::write", "toughio/_io/output/tecplot/_tecplot.py::read", "toughio/_io/output/tecplot/_tecplot.py::write"]}
{"id": "C98", "title": "Mesh files that are loaded and saved stay the same", "statement": "A mesh file in AVS-UCD, Tecplot, FLAC3D text or FLAC3D binary format that was written, loaded and saved in the same format is the same file: what the first writing changes (types of cells, handedness of zones, digits of numbers, numbers of groups) is settled after it.", "quantifier": "meshes that the round trips of these formats cover, with names that the files keep, numbers that are printed again as they were read, and no zones without volume", "why_tests_cant": "All types of cells; several types in one mesh; data on points and cells, scalars and vectors; materials as groups of zones and faces; any number of digits.", "anchors": ["toughio/_mesh/avsucd/_avsucd.py::read", "toughio/_mesh/avsucd/_avsucd.py::write", "toughio/_mesh/tecplot/_tecplot.py::read", "toughio/_mesh/tecplot/_tecplot.py::write", "toughio/_mesh/flac3d/_flac3d.py::read", "toughio/_mesh/flac3d/_flac3d.py::write"]}
{"id": "C99", "title": "Mesh files that are converted give the files of the mesh itself", "statement": "An AVS-UCD mesh file that is loaded and saved as a Tecplot file gives the Tecplot file that is written of the mesh itself, and the other way round.", "quantifier": "meshes that the round trips of both formats cover and of which the first file keeps everything: types of cells, names, numbers, shapes of arrays, and a material of integers", "why_tests_cant": "Any number of points, cells, blocks and data; cells of several types; how cells are put into blocks must not matter.", "anchors": ["toughio/_mesh/avsucd/_avsucd.py::read", "toughio/_mesh/avsucd/_avsucd.py::write", "toughio/_mesh/tecplot/_tecplot.py::read", "toughio/_mesh/tecplot/_tecplot.py::write", "toughio/_mesh/_helpers.py::read", "toughio/_mesh/_helpers.py::write"]}
{"id": "C100", "title": "Mesh files of FLAC3D that are converted give the files of the mesh itself", "statement": "A FLAC3D mesh file, text or binary, that is loaded and saved as an AVS-UCD or Tecplot file gives the file that is written of the mesh itself in that format; an AVS-UCD file that is loaded and saved for FLAC3D gives the FLAC3D file, text or binary, of the mesh itself with its materials.", "quantifier": "meshes that the round trips of both formats cover and of which the first file keeps everything: order, types and orientation of cells, coordinates, and numbers of materials", "why_tests_cant": "Zones and faces of any types, any materials, any way to put cells into blocks; text and binary files.", "anchors": ["toughio/_mesh/flac3d/_flac3d.py::read", "toughio/_mesh/flac3d/_flac3d.py::write", "toughio/_mesh/avsucd/_avsucd.py::read", "toughio/_mesh/avsucd/_avsucd.py::write", "toughio/_mesh/tecplot/_tecplot.py::write", "toughio/_mesh/_helpers.py::read", "toughio/_mesh/_helpers.py::write"]}
{"id": "C101", "title": "Records of selections, histories, diffusion and outputs follow the documented columns", "statement": "In the records of SELEC, FOFT, COFT, GOFT, DIFFU and OUTPU each quantity stands in its documented columns: sixteen integers of five columns, the first one being the number of rows of floats that follow, eight to a line; one name to a line of a history; one line of coefficients for each component, going on over the next line after eight; the format, the number of lines of variables, and one line with the name and the options for each variable and each of its options.", "quantifier": "all selections, histories, coefficients and outputs whose values fit their columns and that the writer writes", "why_tests_cant": "Round trips do not show it: a reader and a writer with the same mistake agree with each other; and tests check a few lines only.", "anchors": ["toughio/_io/input/tough/_write.py::_write_selec", "toughio/_io/input/tough/_write.py::_write_foft", "toughio/_io/input/tough/_write.py::_write_coft", "toughio/_io/input/tough/_write.py::_write_goft", "toughio/_io/input/tough/_write.py::_write_diffu", "toughio/_io/input/tough/_write.py::_write_outpu", "toughio/_io/input/tough/_helpers.py::write_record", "toughio/_common.py::block_to_format"]}
{"id": "C102", "title": "How cells are put into blocks does not matter", "statement": "Two meshes with the same points, the same cells one by one and the same data have the same number of cells, centres, volumes, faces, connections, nearest cells, cells in a box and interpolated data, and the same MESH and INCON files, no matter how the cells are put into blocks of a type. (A mesh with an empty block has no volumes and cannot be written.)", "quantifier": "all meshes without empty blocks of cells", "why_tests_cant": "Any way to put cells into blocks: loops over blocks and their offsets only go wrong with several blocks of one type or many types in turn.", "anchors": ["toughio/_mesh/_mesh.py::Mesh.centers", "toughio/_mesh/_mesh.py::Mesh.near", "toughio/_mesh/_properties.py::_faces", "toughio/_mesh/_properties.py::_volumes", "toughio/_mesh/_properties.py::_connections", "toughio/_mesh/_mesh.py::Mesh.cell_data_to_point_data", "toughio/_mesh/_mesh.py::Mesh.point_data_to_cell_data", "toughio/_mesh/tough/_tough.py::write"]}
{"id": "C103", "title": "Meshes that are saved for TOUGH by way of other formats give the files of the mesh itself", "statement": "A FLAC3D mesh file, text or binary, that is loaded and saved for TOUGH gives the MESH file of the mesh itself, with the names of its materials. An AVS-UCD file gives the MESH file of the mesh with numbers for materials. (A FLAC3D file makes names of numbers of materials without names: the number 7, which TOUGH takes for the seventh rock, becomes the name '7' at the left of its column. A Tecplot file makes floats of them: 7 becomes '7.0'.)", "quantifier": "meshes of zones with their corners only, right-handed, with coordinates of the digits that are written and all materials named; for AVS-UCD all meshes of its round trip", "why_tests_cant": "Any number of zones and materials in any order and with any numbers; materials are numbered anew in the FLAC3D file and must come back as names.", "anchors": ["toughio/_mesh/flac3d/_flac3d.py::read", "toughio/_mesh/flac3d/_flac3d.py::write", "toughio/_mesh/avsucd/_avsucd.py::read", "toughio/_mesh/_properties.py::_materials", "toughio/_mesh/tough/_tough.py::write", "toughio/_mesh/tough/_helpers.py::_write_eleme", "toughio/_mesh/_helpers.py::read", "toughio/_mesh/_helpers.py::write"]}
{"id": "C104", "title": "Meshes that are moved and scaled keep their shape", "statement": "When all points of a mesh are multiplied by a factor and moved by a vector, the centres of the cells are multiplied and moved alike, volumes grow by the third power of the factor, areas of faces by its second power and distances to interfaces by the factor (cells at the boundary keep their fixed distance); directions of faces, neighbours, the direction and the angle of each connection, the qualities of the cells and the cell nearest to a point that is moved alike stay. A mesh that is only moved has the same rows of connections.", "quantifier": "all meshes whose cells have vertices, all positive factors and all vectors, over the real numbers", "why_tests_cant": "Far from the origin or in other units: formulas that depend on the origin or on a unit only show for meshes that are not near the origin; tests use one mesh in one place.", "anchors": ["toughio/_mesh/_mesh.py::Mesh.centers", "toughio/_mesh/_mesh.py::Mesh.near", "toughio/_mesh/_properties.py::_volumes", "toughio/_mesh/_properties.py::_face_normals", "toughio/_mesh/_properties.py::_face_areas", "toughio/_mesh/_properties.py::_qualities", "toughio/_mesh/tough/_tough.py::_write_conne"]}
{"id": "C105", "title": "The numbers of the points do not matter", "statement": "When the points of a mesh get other numbers, and the cells say so, the cells have the same centres, volumes and neighbours, the faces the same directions and areas, connections the same rows, cells the same qualities and points the same nearest cell; the same MESH and INCON files are written. Points that no cell uses do not matter.", "quantifier": "all meshes and all one-to-one renumberings of the points, also with more points, over the real numbers", "why_tests_cant": "Faces are found by sorting the numbers of their points: two faces are one if the sets of numbers are the same, whatever the numbers are.", "anchors": ["toughio/_mesh/_mesh.py::Mesh.centers", "toughio/_mesh/_mesh.py::Mesh.near", "toughio/_mesh/_properties.py::_volumes", "toughio/_mesh/_properties.py::_faces", "toughio/_mesh/_properties.py::_face_normals", "toughio/_mesh/_properties.py::_face_areas", "toughio/_mesh/_properties.py::_connections", "toughio/_mesh/_properties.py::_qualities", "toughio/_mesh/tough/_tough.py::write", "toughio/_mesh/tough/_tough.py::_write_conne"]}
{"id": "C106", "title": "The order of the cells does not matter", "statement": "When the cells of a mesh are put into another order, each cell keeps its centre, volume, faces, the directions and areas of its faces, and its neighbours with their new numbers; the same pairs of cells are connections of the MESH file, with the same distances, area, direction and angle (with the opposite sign if the cells have changed places).", "quantifier": "all meshes without empty blocks of cells and all orders of the cells, over the real numbers", "why_tests_cant": "A connection is written from the side of the cell that comes first: its face, its normal vector and its diagonal are taken. (The area of a face with four points that are not in a plane depends on it.)", "anchors": ["toughio/_mesh/_mesh.py::Mesh.centers", "toughio/_mesh/_properties.py::_volumes", "toughio/_mesh/_properties.py::_faces", "toughio/_mesh/_properties.py::_face_normals", "toughio/_mesh/_properties.py::_face_areas", "toughio/_mesh/_properties.py::_connections", "toughio/_mesh/tough/_tough.py::_write_conne"]}
{"id": "C107", "title": "Meshes that are turned about the vertical keep their shape", "statement": "When all points of a mesh are turned about the vertical axis, the centres of the cells and the directions of the faces are turned alike; volumes, faces, neighbours, areas, distances to interfaces, the angle of each connection to gravity, the qualities of the cells and the cell nearest to a point that is turned alike stay. Vertical connections stay vertical and others do not become so. (The permeability direction of horizontal connections is told by the axes x and y and may change.)", "quantifier": "all meshes, all angles (by cosine and sine), over the real numbers", "why_tests_cant": "Gravity is along z: formulas that treat x and y unlike, or that use the axes where vectors are meant, only show for meshes that are not along the axes; tests use grids along the axes.", "anchors": ["toughio/_mesh/_mesh.py::Mesh.centers", "toughio/_mesh/_mesh.py::Mesh.near", "toughio/_mesh/_properties.py::_volumes", "toughio/_mesh/_properties.py::_face_normals", "toughio/_mesh/_properties.py::_face_areas", "toughio/_mesh/_properties.py::_qualities", "toughio/_mesh/tough/_tough.py::_write_conne", "toughio/_mesh/tough/_tough.py::_isot"]}
