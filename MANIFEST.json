{
 "claims": [
  {
   "property": "C01",
   "status": "proved",
   "theorems": [
    "F4Enix.WW.c01_compose_format",
    "F4Enix.WW.c01_decompose_compose",
    "F4Enix.WW.c01_compose_decompose",
    "F4Enix.WW.c01_empty_refused",
    "F4Enix.WW.c01_short_refused"
   ],
   "note": "All lengths and values, including coarse points equal to the marker 1."
  },
  {
   "property": "C02",
   "status": "proved",
   "theorems": [
    "F4Enix.WW.c02_length",
    "F4Enix.WW.c02_coarse_points",
    "F4Enix.WW.c02_increasing"
   ],
   "note": "Exact arithmetic for linspace."
  },
  {
   "property": "C03",
   "status": "proved",
   "theorems": [
    "F4Enix.WW.c03_roundtrip",
    "F4Enix.WW.c03_rewrite",
    "F4Enix.WW.c03_truncated_diverges",
    "F4Enix.WW.python_roundtrip",
    "F4Enix.WW.five_exact",
    "F4Enix.WW.fits_writable",
    "F4Enix.WW.float_roundtrip",
    "F4Enix.WW.ints_read",
    "F4Enix.WW.ints_refused",
    "F4Enix.WW.whole_outcome",
    "F4Enix.WW.int_outcome",
    "F4Enix.WW.write_refused"
   ],
   "note": "Character level; the number rendering is a parameter with an explicit hypothesis (rendered numbers are words shorter than a column), and fits_writable shows that the format of the code meets it on exact rationals in range."
  },
  {
   "property": "C04",
   "status": "proved",
   "theorems": [
    "F4Enix.WW.c04_max_ratio",
    "F4Enix.WW.c04_le_iff",
    "F4Enix.WW.c04_needs_nonneg"
   ],
   "note": "Non-negativity is necessary (witness)."
  },
  {
   "property": "C05",
   "status": "proved",
   "theorems": [
    "F4Enix.WW.c05_mitigate",
    "F4Enix.WW.c05_idempotent"
   ],
   "note": ""
  },
  {
   "property": "C06",
   "status": "proved",
   "theorems": [
    "F4Enix.WW.c06_multiply",
    "F4Enix.WW.c06_multiply_one",
    "F4Enix.WW.c06_multiply_comp",
    "F4Enix.WW.c06_multiply_ratios",
    "F4Enix.WW.c06_soften",
    "F4Enix.WW.c06_soften_ratios"
   ],
   "note": "Power is a parameter; hypotheses only for exponent one / natural exponents."
  },
  {
   "property": "C07",
   "status": "proved",
   "theorems": [
    "F4Enix.WW.c07_add",
    "F4Enix.WW.c07_remove",
    "F4Enix.WW.c07_refused_iff",
    "F4Enix.WW.c07_history",
    "F4Enix.WW.c07_consistent",
    "F4Enix.WW.c07_remove_add",
    "F4Enix.WW.c07_load",
    "F4Enix.WW.c07_load_values",
    "F4Enix.WW.c07_no_neutrons"
   ],
   "note": ""
  },
  {
   "property": "C08",
   "status": "proved",
   "theorems": [
    "F4Enix.WW.c08_gvr",
    "F4Enix.WW.c08_gvr_softened"
   ],
   "note": ""
  },
  {
   "property": "C09",
   "status": "partial",
   "theorems": [
    "F4Enix.WW.c09_documented_partial",
    "F4Enix.WW.c09_negation",
    "F4Enix.WW.c09_documented_iff"
   ],
   "note": "Holds for soft = 1 only; the documented meaning is refuted for soft = 2 (witness)."
  },
  {
   "property": "C10",
   "status": "proved",
   "theorems": [
    "F4Enix.Inp.c10_closure",
    "F4Enix.Inp.c10_refused",
    "F4Enix.Inp.c10_universe_cells",
    "F4Enix.Inp.c10_extract_universe",
    "F4Enix.Inp.removeU_spec"
   ],
   "note": "Cell numbers given as integers."
  },
  {
   "property": "C100",
   "status": "partial",
   "theorems": [
    "F4Enix.D1S.smart_translate_exact_partial",
    "F4Enix.D1S.smart_translate_same_library",
    "F4Enix.D1S.smart_translate_refused",
    "F4Enix.D1S.smart_translate_fix",
    "F4Enix.D1S.sample_smart"
   ],
   "note": "True for different libraries; negation proved for equal ones. What a failing call leaves behind: C188."
  },
  {
   "property": "C101",
   "status": "partial",
   "theorems": [
    "F4Enix.D1S.track_exact_partial",
    "F4Enix.D1S.track_refused_changes",
    "F4Enix.D1S.addTrack_refused"
   ],
   "note": "The effect is exact; a refused call changes the card."
  },
  {
   "property": "C102",
   "status": "proved",
   "theorems": [
    "F4Enix.Mctal.file_read",
    "F4Enix.Mctal.parseTally_ok",
    "F4Enix.Mctal.readHeader_ok",
    "F4Enix.Mctal.exFile_is"
   ],
   "note": "Whole file against the layout specification MctalSpec (independent of the reader); hypothesis: float('vals') is refused. Infinities and logging not modelled."
  },
  {
   "property": "C103",
   "status": "partial",
   "theorems": [
    "F4Enix.Mctal.frame_of_file_partial",
    "F4Enix.Mctal.radiograph_columns_lost",
    "F4Enix.Mctal.cellLabels_spec",
    "F4Enix.Mctal.truncQ_int"
   ],
   "note": "Proved for every tally that is no radiograph and lists its boundaries; the full claim is false: radiograph_columns_lost."
  },
  {
   "property": "C104",
   "status": "partial",
   "theorems": [
    "F4Enix.Tally.addF_cards",
    "F4Enix.Tally.addF_words",
    "F4Enix.Tally.sd_divisors",
    "F4Enix.Tally.sd_no_cells",
    "F4Enix.Tally.particles_partial",
    "F4Enix.Tally.particles_lost",
    "F4Enix.Tally.particles_wrong",
    "F4Enix.Tally.no_particles",
    "F4Enix.Tally.overwrite_stale",
    "F4Enix.Tally.isLetter_iff",
    "F4Enix.Tally.multiplier_lines",
    "F4Enix.Tally.cardStep_empty",
    "F4Enix.Tally.isNP_iff",
    "F4Enix.Tally.energies_read"
   ],
   "note": "The wrapping of long lines (numjuggler) is assumed to keep the words (WrapOk). The full claim is false for more than two particles, for no cells and for overwriting: particles_wrong, sd_no_cells, no_particles, overwrite_stale."
  },
  {
   "property": "C105",
   "status": "partial",
   "theorems": [
    "F4Enix.Tally.isCardOf_iff",
    "F4Enix.Tally.isCardOf_unique",
    "F4Enix.Tally.summary_rows_partial",
    "F4Enix.Tally.summary_empty",
    "F4Enix.Tally.rowOf_spec",
    "F4Enix.Tally.addF_row",
    "F4Enix.Tally.addF_others",
    "F4Enix.Tally.addF_summary",
    "F4Enix.Tally.summary_particle_error",
    "F4Enix.Tally.searchNP_none",
    "F4Enix.Tally.description_tag_lost",
    "F4Enix.Tally.fmesh_as_multiplier",
    "F4Enix.Tally.empty_multiplier"
   ],
   "note": "Proved for readable cards; the full claim is false for other particles, tags within descriptions and FMESH cards of the same number."
  },
  {
   "property": "C106",
   "status": "proved",
   "theorems": [
    "F4Enix.Tally.addStop_spec"
   ],
   "note": ""
  },
  {
   "property": "C107",
   "status": "proved",
   "theorems": [
    "F4Enix.Tally.cellsSummary_spec",
    "F4Enix.Tally.cellsSummary_fails"
   ],
   "note": "The values are those of the cell's getters (C50, C51 for the texts)."
  },
  {
   "property": "C108",
   "status": "partial",
   "theorems": [
    "F4Enix.Write.printCard_lines",
    "F4Enix.Write.printCard_visible",
    "F4Enix.Write.write_blocks_partial",
    "F4Enix.Write.blocksOf_length",
    "F4Enix.Write.blank_first_line",
    "F4Enix.Write.blank_first_line_cases"
   ],
   "note": "Proved for cards whose first line is visible (numjuggler's texts are taken as given) and header lines that are visible lines; a card that begins with a blank line adds a block: blank_first_line."
  },
  {
   "property": "C109",
   "status": "partial",
   "theorems": [
    "F4Enix.Mat.material_read_partial",
    "F4Enix.Mat.sub_group",
    "F4Enix.Mat.sub_first",
    "F4Enix.Mat.readLine_tokens",
    "F4Enix.Mat.broken_pair",
    "F4Enix.Mat.indented_comment",
    "F4Enix.Mat.keywords_lost",
    "F4Enix.Mat.comment_at_end",
    "F4Enix.Mat.matName_iff"
   ],
   "note": "Proved for every card whose pairs stay on a line, whose comments are not indented and that does not end with a comment; the full claim is false: broken_pair, indented_comment, keywords_lost, comment_at_end."
  },
  {
   "property": "C11",
   "status": "partial",
   "theorems": [
    "F4Enix.Inp.c11_terminates_partial",
    "F4Enix.Inp.c11_diverges",
    "F4Enix.Inp.c11_terminates_from_partial",
    "F4Enix.Inp.c11_diverges_only_cycle"
   ],
   "note": "True of models without reference cycles; false with a cycle of length two (no amount of steps ends the loop)."
  },
  {
   "property": "C110",
   "status": "partial",
   "theorems": [
    "F4Enix.Mat.material_round_trip_partial",
    "F4Enix.Mat.mat_text",
    "F4Enix.Mat.mats_text",
    "F4Enix.Mat.sub_text",
    "F4Enix.Mat.parts_merged",
    "F4Enix.Mat.material_numbers_partial",
    "F4Enix.Mat.seven_exact",
    "F4Enix.Mat.decimal_ok",
    "F4Enix.Mat.rounded_written",
    "F4Enix.Mat.material_text_again_partial",
    "F4Enix.Mat.material_floats_partial"
   ],
   "note": "Proved for materials without density and MX cards, in which only the first part may lack a comment; false otherwise: parts_merged. The formatting of numbers is a parameter (FmtOk), instantiated with the format of the code in material_numbers_partial."
  },
  {
   "property": "C111",
   "status": "proved",
   "theorems": [
    "F4Enix.Path.filter_rows",
    "F4Enix.Path.filter_valueError_iff",
    "F4Enix.Path.filter_valid",
    "F4Enix.Path.filter_keyError_iff",
    "F4Enix.Path.at_column"
   ],
   "note": "The semantics of pandas' loc is assumed as stated in the model; a valid request that matches no row is a KeyError (filter_keyError_iff)."
  },
  {
   "property": "C112",
   "status": "partial",
   "theorems": [
    "F4Enix.Path.get_rows",
    "F4Enix.Path.maxRows_spec",
    "F4Enix.Path.get_order_partial",
    "F4Enix.Path.order_light",
    "F4Enix.Path.get_empty"
   ],
   "note": "Rows, maxima and the order among elements with equally many digits are proved; the order is false across 1- and 2-digit element numbers (order_light) and a request without values raises (get_empty)."
  },
  {
   "property": "C113",
   "status": "partial",
   "theorems": [
    "F4Enix.Path.create_rows_partial",
    "F4Enix.Path.create_twice"
   ],
   "note": "The rows are proved; the table of the caller is changed so that a second library cannot be made: create_twice."
  },
  {
   "property": "C114",
   "status": "proved",
   "theorems": [
    "F4Enix.Xs.read_file",
    "F4Enix.Xs.lowerStr_get",
    "F4Enix.Xs.datapath_refused",
    "F4Enix.Xs.no_directory_refused"
   ],
   "note": "Entries with the usual numbers of words; blank lines and malformed entries as stated in the theorem."
  },
  {
   "property": "C115",
   "status": "partial",
   "theorems": [
    "F4Enix.Xs.lookup_exact_partial",
    "F4Enix.Xs.lookup_all",
    "F4Enix.Xs.lookup_lib",
    "F4Enix.Xs.long_suffix",
    "F4Enix.Xs.long_suffix_found"
   ],
   "note": "Proved for suffixes of three characters; false for longer ones (710nc): long_suffix."
  },
  {
   "property": "C116",
   "status": "partial",
   "theorems": [
    "F4Enix.Xs.metastable_value",
    "F4Enix.Xs.meta_partial",
    "F4Enix.Xs.meta_light"
   ],
   "note": "Proved above a mass threshold; false for the first metastable state up to mass 200: meta_light."
  },
  {
   "property": "C117",
   "status": "proved",
   "theorems": [
    "F4Enix.Xs.acePaths_first",
    "F4Enix.Xs.acePaths_no_dot"
   ],
   "note": "Table names with a dot; a name without one makes the lookup raise: acePaths_no_dot."
  },
  {
   "property": "C118",
   "status": "proved",
   "theorems": [
    "F4Enix.Ace.xs_sum",
    "F4Enix.Ace.xs_slowing",
    "F4Enix.Ace.component_value",
    "F4Enix.Ace.withYield_value"
   ],
   "note": "The data of the reactions (read by openmc) are parameters."
  },
  {
   "property": "C119",
   "status": "proved",
   "theorems": [
    "F4Enix.Ace.chooseT_nearest",
    "F4Enix.Ace.chooseT_empty"
   ],
   "note": ""
  },
  {
   "property": "C12",
   "status": "proved",
   "theorems": [
    "F4Enix.Inp.c12_self_contained",
    "F4Enix.Inp.c12_succeeds",
    "F4Enix.Inp.c12_white_surface_refused",
    "F4Enix.Inp.c12_written",
    "F4Enix.Inp.c12_succeeds_from"
   ],
   "note": "White boundary surfaces (+) make the extraction raise KeyError (proved)."
  },
  {
   "property": "C120",
   "status": "partial",
   "theorems": [
    "F4Enix.Ace.mix_partial",
    "F4Enix.Ace.mix_shifted",
    "F4Enix.Ace.mix_two"
   ],
   "note": "The full claim is false: each fraction is multiplied by the cross section of the nuclide before it (mix_shifted, mix_two)."
  },
  {
   "property": "C121",
   "status": "partial",
   "theorems": [
    "F4Enix.Ace.group_average",
    "F4Enix.Ace.group_average_constant",
    "F4Enix.Ace.groups_average",
    "F4Enix.Ace.groups_nan",
    "F4Enix.Ace.group_few_points",
    "F4Enix.Ace.group_bounds_partial",
    "F4Enix.Ace.group_constant",
    "F4Enix.Ace.group_places",
    "F4Enix.Ace.group_first_nan"
   ],
   "note": "Proved with the points of numpy.logspace over real numbers, for at least two points and structures that go up from above the lowest energy of the table (groups_average). False otherwise: a structure that begins at the lowest energy has no first value, one that begins at zero no first and no second (groups_nan); with one point all values are zero (group_few_points)."
  },
  {
   "property": "C122",
   "status": "proved",
   "theorems": [
    "F4Enix.CuvErr.errors_read",
    "F4Enix.CuvErr.short_line"
   ],
   "note": "A short line ends the reading without an error: short_line."
  },
  {
   "property": "C123",
   "status": "partial",
   "theorems": [
    "F4Enix.CuvErr.error_value_partial",
    "F4Enix.CuvErr.array_value",
    "F4Enix.CuvErr.error_zero"
   ],
   "note": "Proved for partial volumes above 0; a cell with partial volume 0 makes the reading fail: error_zero."
  },
  {
   "property": "C124",
   "status": "proved",
   "theorems": [
    "F4Enix.Eeout.read_mesh",
    "F4Enix.Eeout.read_file",
    "F4Enix.Eeout.columns_refused",
    "F4Enix.Eeout.columns_points",
    "F4Enix.Eeout.connectivity_refused",
    "F4Enix.Eeout.isInfoChar_iff",
    "F4Enix.Eeout.infoLine_refused"
   ],
   "note": "The layout is EeoutSpec's Layout (numbers in columns of 13 with two digits of exponent); a concrete file meets it in EeoutExample."
  },
  {
   "property": "C125",
   "status": "partial",
   "theorems": [
    "F4Enix.Eeout.read_results_partial",
    "F4Enix.Eeout.read_file",
    "F4Enix.Eeout.bins_lost",
    "F4Enix.Eeout.field_without_values"
   ],
   "note": "Proved for edits with one block of values and one of errors; false for several time or energy bins: only the last is kept (bins_lost)."
  },
  {
   "property": "C126",
   "status": "partial",
   "theorems": [
    "F4Enix.Eeout.read_places_partial",
    "F4Enix.Eeout.read_on_points",
    "F4Enix.Eeout.place_exact"
   ],
   "note": "Proved unless there are as many points as elements; false then (read_on_points). pyvista's choice between points and cells is assumed as stated in the model."
  },
  {
   "property": "C127",
   "status": "partial",
   "theorems": [
    "F4Enix.Eeout.read_type_partial",
    "F4Enix.Eeout.quadratic_type"
   ],
   "note": "Proved for first order; false for second order tetrahedra, which get the four-node type: quadratic_type."
  },
  {
   "property": "C128",
   "status": "proved",
   "theorems": [
    "F4Enix.Eeout.truncated",
    "F4Enix.Eeout.mixed_refused",
    "F4Enix.Eeout.node_ordered",
    "F4Enix.Eeout.mixed_file_refused",
    "F4Enix.Eeout.node_ordered_file"
   ],
   "note": ""
  },
  {
   "property": "C129",
   "status": "proved",
   "theorems": [
    "F4Enix.Cli.operate_keeps",
    "F4Enix.Cli.soft_exact",
    "F4Enix.Cli.add_exact",
    "F4Enix.Cli.remove_exact",
    "F4Enix.Cli.mitigate_exact",
    "F4Enix.Cli.stem_tail_ne"
   ],
   "note": "The operations themselves are parameters here; they are modelled in WW/State.lean."
  },
  {
   "property": "C13",
   "status": "proved",
   "theorems": [
    "F4Enix.Inp.c13_check_range",
    "F4Enix.Inp.c13_surfaces"
   ],
   "note": ""
  },
  {
   "property": "C130",
   "status": "partial",
   "theorems": [
    "F4Enix.Cli.result_name_inj_partial",
    "F4Enix.Cli.dotted_result"
   ],
   "note": "Proved for names without dots (apart from repeating an operation, whose result replaces the former one); false for names with a dot: the result of a.b is kept as a (dotted_result)."
  },
  {
   "property": "C131",
   "status": "partial",
   "theorems": [
    "F4Enix.Cli.main_shown",
    "F4Enix.Cli.op_shown_partial",
    "F4Enix.Cli.op_shown_refused",
    "F4Enix.Cli.main_words",
    "F4Enix.Cli.cmdOf_some",
    "F4Enix.Cli.opCmdOf_some",
    "F4Enix.Cli.lower_letters"
   ],
   "note": "Main menu proved; false for the operations rem and mit: op_shown_refused."
  },
  {
   "property": "C132",
   "status": "proved",
   "theorems": [
    "F4Enix.Cli.session_bad",
    "F4Enix.Cli.operate_bad",
    "F4Enix.Cli.soft_not_number",
    "F4Enix.Cli.choose_spec",
    "F4Enix.Cli.session_ends",
    "F4Enix.Cli.session_next",
    "F4Enix.Cli.withKey_none",
    "F4Enix.Cli.not_number",
    "F4Enix.Cli.second_not_number"
   ],
   "note": "The word empty, which is no command shown, ends the program: empty_ends."
  },
  {
   "property": "C133",
   "status": "proved",
   "theorems": [
    "F4Enix.Cli.select_number",
    "F4Enix.Cli.select_one",
    "F4Enix.Cli.choose_spec",
    "F4Enix.Cli.menu_good",
    "F4Enix.Cli.mainLoop_good",
    "F4Enix.Cli.mainLoop_fuel",
    "F4Enix.Cli.operateLoop_fuel"
   ],
   "note": ""
  },
  {
   "property": "C134",
   "status": "partial",
   "theorems": [
    "F4Enix.Cli.open_new_partial",
    "F4Enix.Cli.open_missing",
    "F4Enix.Cli.open_loaded_replaces",
    "F4Enix.Cli.split_ignored",
    "F4Enix.Cli.split_is_tally",
    "F4Enix.WW.tally_float",
    "F4Enix.WW.menu_gvr_fails"
   ],
   "note": "Proved for new names; false for names loaded already (open_loaded_replaces), and the splitting ratio typed is used as the number of the tally (split_ignored, split_is_tally)."
  },
  {
   "property": "C135",
   "status": "partial",
   "theorems": [
    "F4Enix.Cli.write_file",
    "F4Enix.Cli.write_exact",
    "F4Enix.Cli.vtk_exact",
    "F4Enix.Cli.vtk_file_partial",
    "F4Enix.Cli.vtk_dotted",
    "F4Enix.Cli.vtkName_plain",
    "F4Enix.Cli.vtk_edge_dot"
   ],
   "note": "write proved; vtk writes .vts while .vtk is said, and cuts names with a dot (vtk_dotted)."
  },
  {
   "property": "C136",
   "status": "proved",
   "theorems": [
    "F4Enix.WW.read_rect",
    "F4Enix.WW.gvr_window",
    "F4Enix.WW.geomVector_bins",
    "F4Enix.WW.tally_default",
    "F4Enix.WW.tally_number",
    "F4Enix.WW.read_any"
   ],
   "note": "Exact numbers; the power of the softening is a parameter."
  },
  {
   "property": "C137",
   "status": "partial",
   "theorems": [
    "F4Enix.WW.read_cyl_partial",
    "F4Enix.WW.origin_reversed",
    "F4Enix.WW.cyl_no_trsf",
    "F4Enix.WW.trsf_none_mcnp5",
    "F4Enix.WW.default_direction",
    "F4Enix.WW.backward_axis"
   ],
   "note": "Axis and direction proved; false for the origin, which is stored in reversed order (origin_reversed); an upright MCNP5 tally at the origin is refused (cyl_no_trsf, trsf_none_mcnp5), and one with its axis along -x gets a direction that lies on the axis (backward_axis)."
  },
  {
   "property": "C138",
   "status": "partial",
   "theorems": [
    "F4Enix.WW.groups_refused_partial",
    "F4Enix.WW.times_dropped"
   ],
   "note": "Several energy groups are refused; of several times all but the first are dropped (times_dropped)."
  },
  {
   "property": "C139",
   "status": "proved",
   "theorems": [
    "F4Enix.Grid3.cartesian_point",
    "F4Enix.Grid3.cartesian_point0",
    "F4Enix.Grid3.cartesian_size"
   ],
   "note": "Up to the rounding to single precision, for which see C218."
  },
  {
   "property": "C14",
   "status": "proved",
   "theorems": [
    "F4Enix.Inp.c14_merge",
    "F4Enix.Inp.c14_refused"
   ],
   "note": ""
  },
  {
   "property": "C140",
   "status": "partial",
   "theorems": [
    "F4Enix.Grid3.cylinder_point_partial",
    "F4Enix.Grid3.cylinder_made",
    "F4Enix.Grid3.axis_down_refused",
    "F4Enix.Grid3.cylinder_defaults",
    "F4Enix.Grid3.rotateToAxis_refused"
   ],
   "note": "Proved for all cylinders that are drawn; those with an axis pointing straight down are refused (axis_down_refused). Exact numbers; pyvista's rotation is assumed to be Rodrigues' formula."
  },
  {
   "property": "C141",
   "status": "partial",
   "theorems": [
    "F4Enix.Grid3.vec_upright",
    "F4Enix.Grid3.vec_upright_partial",
    "F4Enix.Grid3.vec_mirrored",
    "F4Enix.Grid3.vec_tilted_wrong"
   ],
   "note": "Proved for upright cylinders and directions with a second component not negative; false for the others (vec_mirrored) and for tilted cylinders (vec_tilted_wrong)."
  },
  {
   "property": "C142",
   "status": "partial",
   "theorems": [
    "F4Enix.Plot.top_label_partial",
    "F4Enix.Plot.label_first",
    "F4Enix.Plot.label_second",
    "F4Enix.Plot.session_inv",
    "F4Enix.Plot.lowest_never",
    "F4Enix.Plot.first_wrong",
    "F4Enix.Plot.limits_fresh"
   ],
   "note": "Proved only for the values of the highest category; false for all others: in odd slices of a session they carry the name of the next category (first_wrong), in even ones that of the second (label_second); the lowest is never used (lowest_never)."
  },
  {
   "property": "C143",
   "status": "partial",
   "theorems": [
    "F4Enix.Plot.tid_colours",
    "F4Enix.Plot.colours_exact_partial",
    "F4Enix.Plot.no_colours",
    "F4Enix.Plot.labels_short"
   ],
   "note": "Exact rule proved; false of the code: labels are cut to ten characters, so SDDR and TNF have no colours (no_colours); a category with a single value has none."
  },
  {
   "property": "C144",
   "status": "partial",
   "theorems": [
    "F4Enix.Plot.toroidal_names_partial",
    "F4Enix.Plot.toroidal_slices",
    "F4Enix.Plot.arange_exact",
    "F4Enix.Plot.toroidal_shifted",
    "F4Enix.Plot.toroidal_zero"
   ],
   "note": "Proved when no cut is empty; after an empty cut the names are those of smaller angles (toroidal_shifted). Exact angles in degrees."
  },
  {
   "property": "C145",
   "status": "partial",
   "theorems": [
    "F4Enix.Plot.plot_slices_ok",
    "F4Enix.Plot.all_saved_partial",
    "F4Enix.Plot.refused",
    "F4Enix.Plot.plot_slices_error",
    "F4Enix.Plot.loop_exact"
   ],
   "note": "Proved; of slices with the same name only the last is in the folder, so 'each' needs different names (all_saved)."
  },
  {
   "property": "C146",
   "status": "partial",
   "theorems": [
    "F4Enix.Plot.slice_rows",
    "F4Enix.Plot.axis_names",
    "F4Enix.Plot.axis_distinct_partial",
    "F4Enix.Plot.axis_same",
    "F4Enix.Plot.tenths_near",
    "F4Enix.Plot.tenths_half"
   ],
   "note": "Different names proved for cuts more than a tenth apart; closer ones can share one (axis_same)."
  },
  {
   "property": "C147",
   "status": "partial",
   "theorems": [
    "F4Enix.Plot.section_exact_partial",
    "F4Enix.Plot.picture_names",
    "F4Enix.Plot.folder_pictures",
    "F4Enix.Plot.root_pictures",
    "F4Enix.Plot.other_left_out",
    "F4Enix.Plot.ext_last",
    "F4Enix.Plot.ext_short"
   ],
   "note": "Only files ending in jpg, png or tif are shown (other_left_out)."
  },
  {
   "property": "C148",
   "status": "partial",
   "theorems": [
    "F4Enix.Plot.cdf_labels",
    "F4Enix.Plot.cdf_curves_partial",
    "F4Enix.Plot.cdf_looks",
    "F4Enix.Plot.cdf_limit",
    "F4Enix.Plot.cdf_height",
    "F4Enix.Plot.cdf_end"
   ],
   "note": "More than 200 curves end with IndexError (cdf_limit). The histogram of matplotlib is assumed."
  },
  {
   "property": "C149",
   "status": "partial",
   "theorems": [
    "F4Enix.Ace.shipped_edges",
    "F4Enix.Ace.shipped_names",
    "F4Enix.Ace.shipped_partition",
    "F4Enix.Ace.shipped_value",
    "F4Enix.Ace.shipped_no_value",
    "F4Enix.Ace.shipped_zero",
    "F4Enix.Ace.shipped_collapse_partial",
    "F4Enix.Ace.first_undefined",
    "F4Enix.Ace.shipped_ranges",
    "F4Enix.Ace.shipped_division",
    "F4Enix.Ace.shipped_printed",
    "F4Enix.Ace.shipped_digits"
   ],
   "note": "Exact numbers. The division is proved for all structures, the values for all groups that do not begin at zero (shipped_value); false for the first group of the twelve structures that begin at 0 eV: its points are not numbers, so it has no value (shipped_no_value, shipped_zero). The value before the first group is not a number when the table begins at the first edge (first_undefined)."
  },
  {
   "property": "C15",
   "status": "partial",
   "theorems": [
    "F4Enix.Inp.c15_keeps_partial",
    "F4Enix.Inp.c15_first_clash_partial",
    "F4Enix.Inp.c15_not_atomic"
   ],
   "note": "False of the code (witness); a refused merge loses nothing, and changes nothing if the first cell clashes."
  },
  {
   "property": "C150",
   "status": "proved",
   "theorems": [
    "F4Enix.Mat.composition_entries",
    "F4Enix.Mat.composition_sum",
    "F4Enix.Mat.composition_eq_iff",
    "F4Enix.Mat.fraction_same"
   ],
   "note": "Exact numbers."
  },
  {
   "property": "C151",
   "status": "partial",
   "theorems": [
    "F4Enix.Mat.shipped_sums_partial",
    "F4Enix.Mat.titanium_sum",
    "F4Enix.Mat.shipped_sums_exact"
   ],
   "note": "False for the titanium alloy, whose percentages add up to 155 (titanium_sum); the others are within 0.52 of 100."
  },
  {
   "property": "C152",
   "status": "partial",
   "theorems": [
    "F4Enix.FmeshW.csv_exact_partial",
    "F4Enix.FmeshW.read_fmt3",
    "F4Enix.FmeshW.fieldsOf_commas",
    "F4Enix.FmeshW.fmt3_small",
    "F4Enix.FmeshW.csv_lost",
    "F4Enix.FmeshW.mixed_fails",
    "F4Enix.FmeshW.format_refused",
    "F4Enix.FmeshW.half_even",
    "F4Enix.FmeshW.csv_missing"
   ],
   "note": "Proved: one line per cell in order, each value within half a thousandth. False: values below half a thousandth are written as zero (fmt3_small, csv_lost); with arrays on cells and points the export fails midway (mixed_fails)."
  },
  {
   "property": "C153",
   "status": "partial",
   "theorems": [
    "F4Enix.FmeshW.array_files_partial",
    "F4Enix.FmeshW.cloudText_ok",
    "F4Enix.FmeshW.fluentText_ok",
    "F4Enix.FmeshW.format_refused",
    "F4Enix.FmeshW.array_collide",
    "F4Enix.FmeshW.clean_exact",
    "F4Enix.FmeshW.array_missing",
    "F4Enix.FmeshW.cloud_short",
    "F4Enix.FmeshW.fluent_short"
   ],
   "note": "Arrays whose names differ only in brackets and slashes share one file (array_collide)."
  },
  {
   "property": "C154",
   "status": "proved",
   "theorems": [
    "F4Enix.FmeshW.write_all_exact",
    "F4Enix.FmeshW.write_local",
    "F4Enix.FmeshW.write_keeps",
    "F4Enix.FmeshW.belongs_one",
    "F4Enix.FmeshW.vtk_extension"
   ],
   "note": "The text of vtk files is a parameter."
  },
  {
   "property": "C155",
   "status": "partial",
   "theorems": [
    "F4Enix.FmeshW.transform_exact_partial",
    "F4Enix.FmeshW.transform_missing",
    "F4Enix.FmeshW.transform_once",
    "F4Enix.FmeshW.trSearch_iff",
    "F4Enix.FmeshW.trSearch_none_iff",
    "F4Enix.FmeshW.upper_case_unseen",
    "F4Enix.FmeshW.blank_key",
    "F4Enix.FmeshW.many_missing"
   ],
   "note": "Proved for the flags that are found. False: TR=5 in upper case is not seen (upper_case_unseen); tr= 5 raises KeyError (blank_key)."
  },
  {
   "property": "C156",
   "status": "partial",
   "theorems": [
    "F4Enix.LibM.libraries_exact_partial",
    "F4Enix.LibM.path_libraries",
    "F4Enix.LibM.default_exact",
    "F4Enix.LibM.nan_refused",
    "F4Enix.LibM.missing_refused",
    "F4Enix.LibM.shared_path",
    "F4Enix.LibM.code_refused"
   ],
   "note": "Proved when the file of a path is the same directory for all codes. False in general: a path shared by the columns of two codes is not read again for the second (shared_path); an empty cell of a csv or Excel table (nan) and a missing file end the construction (nan_refused, missing_refused), although the code says it only warns."
  },
  {
   "property": "C157",
   "status": "proved",
   "theorems": [
    "F4Enix.LibM.libzaids_exact",
    "F4Enix.LibM.check_exact",
    "F4Enix.LibM.check_libzaids",
    "F4Enix.LibM.available_iff",
    "F4Enix.LibM.check_refused"
   ],
   "note": "For names zaid.suffix with suffixes of three characters; longer suffixes are C115."
  },
  {
   "property": "C158",
   "status": "partial",
   "theorems": [
    "F4Enix.LibM.openmc_empty",
    "F4Enix.LibM.openmc_no_zaids",
    "F4Enix.LibM.openmc_line",
    "F4Enix.LibM.openmc_other",
    "F4Enix.LibM.openmc_opened"
   ],
   "note": "False of the code: the tables are made and never stored, so the directory is always empty and no zaid is ever listed."
  },
  {
   "property": "C159",
   "status": "partial",
   "theorems": [
    "F4Enix.LibM.xsdata_exact_partial",
    "F4Enix.LibM.xsdata_stops",
    "F4Enix.LibM.xsdata_read_half",
    "F4Enix.LibM.serpent_pairs",
    "F4Enix.LibM.serpent_line",
    "F4Enix.LibM.serpent_file",
    "F4Enix.LibM.serpent_refused",
    "F4Enix.LibM.serpent_kind",
    "F4Enix.LibM.serpent_folder"
   ],
   "note": "Proved: the export and the reading of files with two lines for each table. False: the export fails at a table without temperature and leaves a part of the file (xsdata_stops); what the export wrote is read by halves and with other ratios (xsdata_read_half)."
  },
  {
   "property": "C16",
   "status": "proved",
   "theorems": [
    "F4Enix.Inp.c16_definitions",
    "F4Enix.Inp.c16_references",
    "F4Enix.Inp.c16_cell_card",
    "F4Enix.Inp.c16_shift",
    "F4Enix.Inp.c16_all",
    "F4Enix.Inp.c16_stale_keys",
    "F4Enix.Inp.c16_universe_to_zero",
    "F4Enix.Inp.c16_transformations"
   ],
   "note": "Materials cannot be renumbered. Numbers must stay positive, universes must not be shifted onto 0."
  },
  {
   "property": "C160",
   "status": "partial",
   "theorems": [
    "F4Enix.EliteX.sector_cells",
    "F4Enix.EliteX.sector_surfs",
    "F4Enix.EliteX.sector_rest",
    "F4Enix.EliteX.file_complete_partial",
    "F4Enix.EliteX.plane_missing"
   ],
   "note": "Proved: cells, surfaces, materials and cards exactly; complete if the planes of the cut stand on needed cells. False otherwise: the planes are referred to and missing (plane_missing)."
  },
  {
   "property": "C161",
   "status": "partial",
   "theorems": [
    "F4Enix.EliteX.check_exact_partial",
    "F4Enix.EliteX.unknown_sector",
    "F4Enix.EliteX.later_table_ignored",
    "F4Enix.EliteX.init_refused",
    "F4Enix.EliteX.source_missing"
   ],
   "note": "False: once a table was read (even by a refused call), every later Excel file and check is ignored (later_table_ignored)."
  },
  {
   "property": "C162",
   "status": "partial",
   "theorems": [
    "F4Enix.EliteX.rotated_plane_partial",
    "F4Enix.EliteX.rotated_along",
    "F4Enix.EliteX.displacement_ignored",
    "F4Enix.EliteX.translation_skipped"
   ],
   "note": "Proved: the normal for rotations. False: displacements are ignored, planes with a pure translation are never boundaries."
  },
  {
   "property": "C163",
   "status": "proved",
   "theorems": [
    "F4Enix.MeshFile.meshlist_exact",
    "F4Enix.MeshFile.ids_exact",
    "F4Enix.MeshFile.unknown_refused",
    "F4Enix.MeshFile.cut_refused",
    "F4Enix.MeshFile.ids_refused"
   ],
   "note": "The mesh list is sorted as strings, mesh_ids as numbers."
  },
  {
   "property": "C164",
   "status": "proved",
   "theorems": [
    "F4Enix.MeshFile.tally_exact",
    "F4Enix.MeshFile.tally_rect",
    "F4Enix.MeshFile.tally_cyl",
    "F4Enix.MeshFile.tally_points",
    "F4Enix.MeshFile.meshValues_of",
    "F4Enix.MeshFile.boundaries_of",
    "F4Enix.MeshFile.values_need_axes",
    "F4Enix.MeshFile.bins_refused",
    "F4Enix.MeshFile.place_refused",
    "F4Enix.MeshFile.strIndex_spec"
   ],
   "note": "float() is a parameter; the place of tilted cylinders is as wrong as C66 states."
  },
  {
   "property": "C165",
   "status": "partial",
   "theorems": [
    "F4Enix.MeshFile.volumes_read_as_values"
   ],
   "note": "False: volumes are read as values and products as errors."
  },
  {
   "property": "C166",
   "status": "partial",
   "theorems": [
    "F4Enix.MeshFile.particle_named_partial",
    "F4Enix.MeshFile.particle_only",
    "F4Enix.MeshFile.particle_none",
    "F4Enix.MeshFile.comment_ends_head",
    "F4Enix.MeshFile.nameless_diverges",
    "F4Enix.MeshFile.tally_exact"
   ],
   "note": "Proved for comments without the words 'mesh tally.'. False: such a comment ends the head; a tally without these words is never returned."
  },
  {
   "property": "C167",
   "status": "proved",
   "theorems": [
    "F4Enix.MeshFile.read_all",
    "F4Enix.MeshFile.read_some",
    "F4Enix.MeshFile.read_refused",
    "F4Enix.MeshFile.read_all_refused",
    "F4Enix.MeshFile.read_file"
   ],
   "note": "Tallies with different numbers."
  },
  {
   "property": "C168",
   "status": "partial",
   "theorems": [
    "F4Enix.MeshFile.cuv_scanned",
    "F4Enix.MeshFile.cuv_tally_exact_partial",
    "F4Enix.MeshFile.cuv_times_refused",
    "F4Enix.MeshFile.cuv_unknown_refused"
   ],
   "note": "Proved without times. False: a tally with times makes the whole file unreadable."
  },
  {
   "property": "C169",
   "status": "partial",
   "theorems": [
    "F4Enix.MeshFile.sources_listed",
    "F4Enix.MeshFile.source_exact_partial",
    "F4Enix.MeshFile.source_unknown_refused",
    "F4Enix.MeshFile.getCdgs_no_boundary",
    "F4Enix.MeshFile.source_moved_refused",
    "F4Enix.MeshFile.source_cut_diverges",
    "F4Enix.MeshFile.words_refused"
   ],
   "note": "Proved for sources at the origin or cylinders with MCNP's words. False: a rectangular source moved from the origin is refused, a file that is cut off is never opened."
  },
  {
   "property": "C17",
   "status": "proved",
   "theorems": [
    "F4Enix.Inp.c17_named",
    "F4Enix.Inp.keyNum_spec",
    "F4Enix.Inp.key_refused"
   ],
   "note": ""
  },
  {
   "property": "C170",
   "status": "proved",
   "theorems": [
    "F4Enix.MatInfo.info_elements",
    "F4Enix.MatInfo.shares_sub",
    "F4Enix.MatInfo.shares_material",
    "F4Enix.MatInfo.info_same",
    "F4Enix.MatInfo.list_info",
    "F4Enix.MatInfo.full_name"
   ],
   "note": "Shares of a submaterial whose fractions add up to zero are not numbers. Zaids with three digits of mass number (Canon)."
  },
  {
   "property": "C171",
   "status": "partial",
   "theorems": [
    "F4Enix.MatInfo.info_zaids_partial",
    "F4Enix.MatInfo.info_complete_elements",
    "F4Enix.MatInfo.columns_total",
    "F4Enix.MatInfo.atom_column_not_normalised",
    "F4Enix.MatInfo.list_info"
   ],
   "note": "The rows are proved; only the column that is converted adds up to one, the other one shows the fractions of the input (false for a material by atoms that does not add up to one)."
  },
  {
   "property": "C172",
   "status": "proved",
   "theorems": [
    "F4Enix.MatInfo.notes_ok",
    "F4Enix.MatInfo.notes_percent",
    "F4Enix.MatInfo.notes_updateInfo",
    "F4Enix.MatInfo.notes_missing"
   ],
   "note": "Numbers of the comments are exact, their formatting is a parameter. Two elements are never shown with one symbol in the table of elements shipped."
  },
  {
   "property": "C173",
   "status": "partial",
   "theorems": [
    "F4Enix.MDeck.deck_materials",
    "F4Enix.MDeck.deck_mx_partial",
    "F4Enix.MDeck.deck_mx_next",
    "F4Enix.MDeck.deck_mx_first",
    "F4Enix.MDeck.deck_not_written",
    "F4Enix.MDeck.card_kinds"
   ],
   "note": "Proved for the materials; MX cards only if another card comes before the next material. False: MX cards followed by a material card are given to that one, MX cards before any material make reading fail, a material with MX cards cannot be written."
  },
  {
   "property": "C174",
   "status": "partial",
   "theorems": [
    "F4Enix.MatInfo.fromZaids_ok_partial",
    "F4Enix.MatInfo.given_formula",
    "F4Enix.MatInfo.given_number",
    "F4Enix.MatInfo.fromZaids_none",
    "F4Enix.MatInfo.fromZaids_mass",
    "F4Enix.MatInfo.fromZaids_loses"
   ],
   "note": "False: zaids that cannot be translated are dropped without a failure."
  },
  {
   "property": "C175",
   "status": "partial",
   "theorems": [
    "F4Enix.MatInfo.xml_needs_density",
    "F4Enix.MatInfo.xml_ok",
    "F4Enix.MatInfo.xml_name_partial"
   ],
   "note": "Name proved for the zaids that are not metastable; materials read from an input have no density and are refused."
  },
  {
   "property": "C176",
   "status": "partial",
   "theorems": [
    "F4Enix.LpDebug.global_counts",
    "F4Enix.LpDebug.universe_counts_partial",
    "F4Enix.LpDebug.universe_main_lost",
    "F4Enix.LpDebug.points_written",
    "F4Enix.LpDebug.nothing_lost",
    "F4Enix.LpDebug.print_of_table"
   ],
   "note": "Counts and points proved. False: the sheet by universe leaves out the cells without a universe of their own, and with an input and nothing lost the call fails. Writing of xlsx and vtp files is not modelled."
  },
  {
   "property": "C177",
   "status": "partial",
   "theorems": [
    "F4Enix.FispFrame.frame_rows_partial",
    "F4Enix.FispFrame.frame_light",
    "F4Enix.FispFrame.frame_refused"
   ],
   "note": "Rows proved, order proved for numbers of the same number of digits; false for light elements, whose numbers are compared as texts. An empty collection is refused."
  },
  {
   "property": "C178",
   "status": "proved",
   "theorems": [
    "F4Enix.WW.info_right",
    "F4Enix.WW.mesh_shown",
    "F4Enix.WW.info_ratio_ge",
    "F4Enix.WW.summary_refused"
   ],
   "note": "The text layout of the summary is not modelled."
  },
  {
   "property": "C179",
   "status": "partial",
   "theorems": [
    "F4Enix.WW.scale_rule_partial",
    "F4Enix.WW.scale_cut",
    "F4Enix.WW.scale_refused"
   ],
   "note": "Scale, span and limits proved; false: a greatest value above one that is no power of ten lies above the upper limit. Arrays of zeros are refused."
  },
  {
   "property": "C18",
   "status": "proved",
   "theorems": [
    "F4Enix.Inp.c18_replace",
    "F4Enix.Inp.c18_refused",
    "F4Enix.Inp.c18_gone",
    "F4Enix.Inp.c18_small_density_refused"
   ],
   "note": "A void cell cannot be given a density below one in absolute value (proved)."
  },
  {
   "property": "C180",
   "status": "partial",
   "theorems": [
    "F4Enix.Inp.cells_by_id",
    "F4Enix.Inp.surfs_by_id_partial",
    "F4Enix.Inp.data_cards",
    "F4Enix.Inp.materials_by_name",
    "F4Enix.Inp.surfs_by_id_white"
   ],
   "note": "False for surfaces with the mark + (white boundary): they are not found by their number. Copies are not modelled."
  },
  {
   "property": "C181",
   "status": "partial",
   "theorems": [
    "F4Enix.Inp.tallies_read_partial",
    "F4Enix.Inp.matchFmesh_key",
    "F4Enix.Inp.matchFmesh_other",
    "F4Enix.Inp.tallies_lost",
    "F4Enix.Inp.meshes_listed"
   ],
   "note": "Proved if no two data cards get the same shortened name; false for a tally with a dose function DF. The type and number of a card as numjuggler gives them are parameters."
  },
  {
   "property": "C182",
   "status": "partial",
   "theorems": [
    "F4Enix.Comm.comments_partial",
    "F4Enix.Comm.line_comments",
    "F4Enix.Comm.dollar_twice",
    "F4Enix.Comm.last_line_lost",
    "F4Enix.Comm.indented_lost"
   ],
   "note": "Proved for lines that end with a newline, comment lines that begin in column one and have no dollar sign; false for the others."
  },
  {
   "property": "C183",
   "status": "proved",
   "theorems": [
    "F4Enix.Uni.report_exact",
    "F4Enix.Uni.reading_unique",
    "F4Enix.Uni.report_empty_iff"
   ],
   "note": "The default encoding is taken to be UTF-8; the file is decoded at once."
  },
  {
   "property": "C184",
   "status": "proved",
   "theorems": [
    "F4Enix.D1S.generated_reread",
    "F4Enix.D1S.generated_daughters",
    "F4Enix.D1S.from_files",
    "F4Enix.D1S.reopened",
    "F4Enix.D1S.smart_reread",
    "F4Enix.D1S.paths_fit",
    "F4Enix.D1S.shipped_symbols",
    "F4Enix.D1S.sample_reread"
   ],
   "note": "For names that fit their columns (NamesFit), as all shipped isotopes do."
  },
  {
   "property": "C185",
   "status": "proved",
   "theorems": [
    "F4Enix.WW.saved_and_loaded",
    "F4Enix.WW.history_saved_and_loaded",
    "F4Enix.WW.energies_merged",
    "F4Enix.WW.window_file",
    "F4Enix.WW.fits_printable",
    "F4Enix.WW.float_window_file"
   ],
   "note": "The condition that no two energies are printed alike is needed (energies_merged). Printing of numbers is a parameter, instantiated with the formats of the code in window_file."
  },
  {
   "property": "C186",
   "status": "partial",
   "theorems": [
    "F4Enix.Inp.renumbered_complete",
    "F4Enix.Inp.merged_complete",
    "F4Enix.Inp.replaced_complete",
    "F4Enix.Inp.scaled_complete",
    "F4Enix.Inp.extracted_complete_partial",
    "F4Enix.Inp.assembled_complete",
    "F4Enix.Inp.side_by_side",
    "F4Enix.Inp.extraction_drops_filling",
    "F4Enix.Inp.extraction_drops_partner",
    "F4Enix.Inp.asmDemo_complete",
    "F4Enix.Inp.assembledWith_complete"
   ],
   "note": "Extraction keeps completeness if fillings stay (always with keep_universe) and the partners of periodic surfaces are on needed cells; without these it is false (extraction_drops_filling, extraction_drops_partner). That numjuggler tags a periodic partner as a surface number without its sign is an assumption."
  },
  {
   "property": "C187",
   "status": "partial",
   "theorems": [
    "F4Enix.Rssa.summary_numbers",
    "F4Enix.Rssa.type_multiple",
    "F4Enix.Rssa.cylinder_seen_partial",
    "F4Enix.Rssa.plane_seen",
    "F4Enix.Rssa.type_exact",
    "F4Enix.Rssa.type_wrong",
    "F4Enix.Rssa.summary_of_file"
   ],
   "note": "False as stated: the type is decided by the tracks alone: a single track is always said to be on a cylinder, and the tracks of a cylinder around another axis on a plane (type_wrong). The exact rule is proved (type_exact). Layout and rounding of the text are not modelled."
  },
  {
   "property": "C188",
   "status": "partial",
   "theorems": [
    "F4Enix.D1S.translation_accepted",
    "F4Enix.D1S.translation_refused",
    "F4Enix.D1S.translation_outcome",
    "F4Enix.D1S.translation_whole_partial",
    "F4Enix.D1S.translation_mass",
    "F4Enix.D1S.input_argument",
    "F4Enix.D1S.input_translation",
    "F4Enix.D1S.smart_left",
    "F4Enix.D1S.smart_fix_refused",
    "F4Enix.D1S.repeat_refused",
    "F4Enix.D1S.left_behind",
    "F4Enix.D1S.not_atomic",
    "F4Enix.D1S.annotation_fails_late"
   ],
   "note": "False as stated: materials and submaterials before the failing one stay translated (translation_refused, not_atomic), and a translation by old libraries can then not be repeated (repeat_refused). Proved: exactly what is left behind, no submaterial is half translated, the outcome, what smart_translate leaves of reaction file and cards."
  },
  {
   "property": "C189",
   "status": "proved",
   "theorems": [
    "F4Enix.Inp.fills_deleted",
    "F4Enix.Inp.fills_deleted_twice",
    "F4Enix.Inp.fills_not_followed",
    "F4Enix.Inp.extracted_after",
    "F4Enix.Inp.assembledWith_complete"
   ],
   "note": "remove_fill of numjuggler followed by reading the card again is a parameter; what is assumed of it is the structure FillRemoved."
  },
  {
   "property": "C19",
   "status": "partial",
   "theorems": [
    "F4Enix.Inp.c19_new_rejected_partial",
    "F4Enix.Inp.c19_old_accepted"
   ],
   "note": "True of the new material; false of the old one (proved for every negative old material)."
  },
  {
   "property": "C190",
   "status": "proved",
   "theorems": [
    "F4Enix.MatInfo.indent_keeps",
    "F4Enix.MatInfo.indent_stable",
    "F4Enix.MatInfo.indent_layout",
    "F4Enix.MatInfo.xml_text",
    "F4Enix.MatInfo.attr_safe",
    "F4Enix.MatInfo.xml_round_trip",
    "F4Enix.MatInfo.xml_injective",
    "F4Enix.MatInfo.xml_materials_read"
   ],
   "note": "ElementTree's tostring is modelled as in CPython 3 (escaping, short empty elements, attributes in the order given); str of a number is a parameter."
  },
  {
   "property": "C191",
   "status": "partial",
   "theorems": [
    "F4Enix.WW.chosen_tally",
    "F4Enix.WW.gvr_rect",
    "F4Enix.WW.no_tally_refused",
    "F4Enix.WW.unknown_tally_refused",
    "F4Enix.WW.gvr_cyl_partial",
    "F4Enix.WW.gvr_saved_and_loaded",
    "F4Enix.WW.gvr_file"
   ],
   "note": "Proved for all rectangular tallies; for cylinders all but the place: the code reverses the coordinates of the origin (C137). Floats are rationals, the power is a parameter with x ** 1 = x."
  },
  {
   "property": "C192",
   "status": "proved",
   "theorems": [
    "F4Enix.fmtSci_read",
    "F4Enix.fmtGen_read",
    "F4Enix.fmtDecimal_read",
    "F4Enix.roundSig_near",
    "F4Enix.roundSig_mono",
    "F4Enix.roundSig_idem",
    "F4Enix.roundSig_exact",
    "F4Enix.roundSig_sign",
    "F4Enix.roundSig_neg",
    "F4Enix.fmtSci_length",
    "F4Enix.fmtGen_length",
    "F4Enix.fmtSci_again",
    "F4Enix.fmtGen_again"
   ],
   "note": "Formatting and reading are modelled on exact rationals: the rounding of a double to binary, inf, nan, negative zero and underscores in literals are not modelled."
  },
  {
   "property": "C193",
   "status": "partial",
   "theorems": [
    "F4Enix.fortran_read",
    "F4Enix.fortran_refused",
    "F4Enix.fortran_read_iff",
    "F4Enix.Mctal.values_printed",
    "F4Enix.Mctal.long_value_lost",
    "F4Enix.MeshFile.mesh_printed_partial",
    "F4Enix.MeshFile.mesh_refused",
    "F4Enix.Eeout.eeout_dropped",
    "F4Enix.Eeout.eeout_results_refused",
    "F4Enix.Eeout.eeout_volume_refused",
    "F4Enix.Outp.point_refused",
    "F4Enix.Outp.table_refused_long",
    "F4Enix.WW.floats_refused",
    "F4Enix.WW.window_refused"
   ],
   "note": "True for exponents of two digits. False for three: the MCTAL reader stores zero with error zero (values_printed, long_value_lost), a mesh tally is refused (mesh_refused), eeout files lose coordinates (eeout_dropped) and are refused for results, densities and volumes, the table of lost particles and window files fail (table_refused_long, window_refused). Numbers are exact rationals."
  },
  {
   "property": "C194",
   "status": "proved",
   "theorems": [
    "F4Enix.Cli.live_comes",
    "F4Enix.Cli.live_consistent",
    "F4Enix.Cli.live_shaped",
    "F4Enix.Cli.live_written",
    "F4Enix.Cli.write_then_open",
    "F4Enix.Cli.disk_last",
    "F4Enix.Cli.live_steps"
   ],
   "note": "The menu of C129-C135 with the window object (C05-C09), its files (C185) and Python's numbers (C192); the disk changes with every file written. Shapes and files need window files whose counts agree with their axes and windows that fit (Tidy, HasRoom). Numbers are exact rationals; pw is any power with pw x 1 = x."
  },
  {
   "property": "C195",
   "status": "partial",
   "theorems": [
    "F4Enix.Cli.gvr_number_ends",
    "F4Enix.Cli.gvr_answer_partial"
   ],
   "note": "False for every number but zero: the ratio typed is passed as the number of the tally, as a float, which no dictionary of tallies has (gvr_number_ends). Zero takes the first tally, an answer that is no number takes tally 5, always with ratio 5; the softening factor is the one typed (gvr_answer_partial)."
  },
  {
   "property": "C196",
   "status": "proved",
   "theorems": [
    "F4Enix.MeshFile.file_to_csv_rect",
    "F4Enix.MeshFile.export_csv"
   ],
   "note": "C164 (reading), C38 (labels), C66 (points) and C152 (csv) in one statement. The centre of a cell is the mean of its corners (vtk); vtk's floats are exact here. That half a thousandth is too coarse for small values is C152."
  },
  {
   "property": "C197",
   "status": "partial",
   "theorems": [
    "F4Enix.MeshFile.rect_between",
    "F4Enix.MeshFile.cyl_distance",
    "F4Enix.MeshFile.cyl_between_partial",
    "F4Enix.MeshFile.cyl_height",
    "F4Enix.MeshFile.rz_on_axis"
   ],
   "note": "Proved for rectangular meshes, and for cylindrical ones exactly when the inner radius is not above the mean radius times the cosine of half the angular bin (cyl_between_partial). False otherwise: with a single angular bin, as in every mesh in radius and height, the points of all voxels lie on the axis, whatever their radii (rz_on_axis)."
  },
  {
   "property": "C198",
   "status": "partial",
   "theorems": [
    "F4Enix.WW.cut_refused_partial",
    "F4Enix.WW.cut_last",
    "F4Enix.WW.cut_newline",
    "F4Enix.WW.cut_hangs",
    "F4Enix.WW.cut_exponent"
   ],
   "note": "Proved for every cut that loses a whole number: it is never read. False for a cut inside the last number: cut before the exponent the file is read with the mantissa as the last weight (cut_exponent); nothing else is ever changed (cut_refused_partial). And a file cut between two lines of its data is not refused either: the reader never returns (cut_hangs)."
  },
  {
   "property": "C199",
   "status": "partial",
   "theorems": [
    "F4Enix.D1S.reac_cut_partial",
    "F4Enix.D1S.irr_cut_partial",
    "F4Enix.D1S.reac_rows_lost",
    "F4Enix.D1S.irr_rows_lost"
   ],
   "note": "Whatever is read of a cut file is the first rows and at most one damaged row (partial theorems). The claim itself is false: a file cut between two rows is read as a complete shorter file (reac_rows_lost, irr_rows_lost)."
  },
  {
   "property": "C20",
   "status": "proved",
   "theorems": [
    "F4Enix.D1S.c20_consistent_after_any_history",
    "F4Enix.D1S.c20_daughters_order",
    "F4Enix.D1S.c20_add_effect",
    "F4Enix.D1S.c20_remove_effect",
    "F4Enix.D1S.c20_modify_effect",
    "F4Enix.D1S.c20_modify_in_file",
    "F4Enix.D1S.history_written_and_read",
    "F4Enix.D1S.modified_number"
   ],
   "note": "All histories, successful or refused operations alike."
  },
  {
   "property": "C200",
   "status": "proved",
   "theorems": [
    "F4Enix.MeshFile.file_to_clouds_rect",
    "F4Enix.MeshFile.file_to_fluent_rect",
    "F4Enix.MeshFile.file_to_vtk",
    "F4Enix.MeshFile.export_arrays"
   ],
   "note": "C164 (reading), C38 (labels), C66 (points) and C153 in one statement; the content of vtk files is vtk's and not modelled. For cylindrical meshes see C197."
  },
  {
   "property": "C201",
   "status": "partial",
   "theorems": [
    "F4Enix.CrashDisk.others",
    "F4Enix.CrashDisk.at_path",
    "F4Enix.WW.ww_crash_partial",
    "F4Enix.WW.ww_crash_lost",
    "F4Enix.D1S.irr_crash_partial",
    "F4Enix.D1S.reac_crash_partial",
    "F4Enix.D1S.reac_crash_lost",
    "F4Enix.D1S.save_ok",
    "F4Enix.D1S.save_error",
    "F4Enix.D1S.irr_save_failed"
   ],
   "note": "Other files are never touched, and what can be read at the path after a crash is the old file or the beginning of the new one (partial theorems). The claim is false: all writers empty the file first, so the old one is lost at every crash (ww_crash_lost, reac_crash_lost); and saving an irradiation without a comment raises a TypeError after the old file was replaced by one that is read as complete (irr_save_failed)."
  },
  {
   "property": "C202",
   "status": "proved",
   "theorems": [
    "F4Enix.Ace.xs_same",
    "F4Enix.Ace.switch_sameAtoms",
    "F4Enix.Ace.getXs_material"
   ],
   "note": "For the result itself, which pairs fractions with the wrong nuclides, see C120."
  },
  {
   "property": "C203",
   "status": "partial",
   "theorems": [
    "F4Enix.Ace.xs_changes",
    "F4Enix.Ace.xs_keeps_partial"
   ],
   "note": "False: the fractions of the material become atom fractions that add up to one, even when the calculation then fails (xs_changes). Nuclides, libraries, order and the proportions of the atoms are kept (xs_keeps_partial)."
  },
  {
   "property": "C204",
   "status": "partial",
   "theorems": [
    "F4Enix.WW.vecs_eq_iff",
    "F4Enix.WW.vecs_eq_partial",
    "F4Enix.WW.vecs_small_equal",
    "F4Enix.WW.vecs_not_transitive"
   ],
   "note": "Equal vectors have the same lengths and differ by less than 1.5e-6 everywhere; reflexive and symmetric. False: the tolerance is absolute, so all small meshes with the same number of points are equal (vecs_small_equal), and equality is not transitive (vecs_not_transitive). Numbers are rationals."
  },
  {
   "property": "C205",
   "status": "partial",
   "theorems": [
    "F4Enix.Rssa.cut_refused_partial",
    "F4Enix.Rssa.cut_accepted",
    "F4Enix.Rssa.cut_seen"
   ],
   "note": "Refused wherever the cut is not exactly between two tracks. False there: the file is read without a message, with the tracks before the cut and the number of tracks of the whole file (cut_accepted); comparing that number with the tracks finds every cut (cut_seen)."
  },
  {
   "property": "C206",
   "status": "partial",
   "theorems": [
    "F4Enix.Mctal.cut_values_partial",
    "F4Enix.Mctal.cut_never_ends",
    "F4Enix.Mctal.cut_tallies_lost",
    "F4Enix.Mctal.cut_mesh_wrong"
   ],
   "note": "If what is left is read, the header and all values of tallies that are no meshes are those of the whole file, in order (cut_values_partial). False as stated: every file can be cut off so that reading never ends (cut_never_ends); tallies after the cut are missing without a message (cut_tallies_lost); the last number of a mesh tally can be wrong (cut_mesh_wrong)."
  },
  {
   "property": "C207",
   "status": "partial",
   "theorems": [
    "F4Enix.WW.float_ratio_ge_one",
    "F4Enix.WW.float_ratio_near_partial",
    "F4Enix.WW.float_mitigate",
    "F4Enix.WW.steep_dropped",
    "F4Enix.WW.steep_missed"
   ],
   "note": "At least 1 for all values; within a relative error of 2^-51 where neighbours are at most 10^300 apart (float_ratio_near_partial); mitigation exact with respect to the ratios in floats. False beyond the range of floats: the ratio of two neighbours further apart than 2^1025 is dropped (steep_dropped), so the steepest step of a map is not seen and not mitigated (steep_missed)."
  },
  {
   "property": "C208",
   "status": "partial",
   "theorems": [
    "F4Enix.WW.float_gvr_partial",
    "F4Enix.WW.float_gvr_near",
    "F4Enix.WW.float_gvr_lost"
   ],
   "note": "Greatest value, order and zeros for all fluxes (float_gvr_partial); within a relative error of 2^-50 and positive for fluxes at most 2^500 times smaller than the greatest and ratios up to 2^400 (float_gvr_near). False for very small fluxes: a positive flux far enough below the maximum becomes a window of zero (float_gvr_lost)."
  },
  {
   "property": "C209",
   "status": "partial",
   "theorems": [
    "F4Enix.MeshFile.cut_mesh_partial",
    "F4Enix.MeshFile.cut_before",
    "F4Enix.MeshFile.cut_found",
    "F4Enix.MeshFile.cut_lost",
    "F4Enix.MeshFile.cut_takes_coordinate",
    "F4Enix.MeshFile.cut_row_repeated"
   ],
   "note": "For every file and every cut: the file is refused, or the tallies found are the first ones of the whole file (cut_found), each but the last found is read with exactly what the whole file shows (cut_before), and so is the last one, but for the voxels on a line that was cut in the middle (cut_mesh_partial). False: the tallies behind a cut are missing without a complaint (cut_lost); of a cut column line the coordinate can be read as the value (cut_takes_coordinate), of a cut matrix row one error can be repeated over the row (cut_row_repeated). Not covered: files of the cell-under-voxel files (C211) and source files (C210) formats."
  },
  {
   "property": "C21",
   "status": "partial",
   "theorems": [
    "F4Enix.D1S.c21_add_refused_unchanged",
    "F4Enix.D1S.c21_remove_refused_unchanged_partial",
    "F4Enix.D1S.c21_remove_not_atomic",
    "F4Enix.D1S.c21_add_outcome",
    "F4Enix.D1S.lengthsDiffer_iff"
   ],
   "note": "Adding is atomic (proved). Removing is atomic only for files with uniform factor lists; the full statement is false of the code (witness c21_remove_not_atomic)."
  },
  {
   "property": "C210",
   "status": "partial",
   "theorems": [
    "F4Enix.MeshFile.cut_source_partial",
    "F4Enix.MeshFile.cut_source_diverges",
    "F4Enix.MeshFile.cut_source_lost"
   ],
   "note": "For every file and every cut: the file is not opened, or the sources found are the first ones of the whole file and each is read with exactly what the whole file shows (cut_source_partial). False: a file that ends anywhere within a source, from the end of the line with its number until the characters end_source_data are complete, is read for ever (cut_source_diverges); sources behind a cut between two sources are missing without a complaint (cut_source_lost)."
  },
  {
   "property": "C211",
   "status": "partial",
   "theorems": [
    "F4Enix.MeshFile.cut_cuv_partial",
    "F4Enix.MeshFile.cut_cuv_lost",
    "F4Enix.MeshFile.cut_cuv_error"
   ],
   "note": "For every file and every cut: the file is not opened, or the tallies found are the first ones of the whole file; each is read exactly, except the last when the file ends within its last voxel, which is refused or has all its values right and all its errors but perhaps those of the last voxel (cut_cuv_partial). False: tallies behind the end are missing without a complaint (cut_cuv_lost); a single error left of the last line is given to all energies (cut_cuv_error)."
  },
  {
   "property": "C212",
   "status": "partial",
   "theorems": [
    "F4Enix.Plot.outline_partial",
    "F4Enix.Plot.outline_symmetric_partial",
    "F4Enix.Plot.outlines_order",
    "F4Enix.Plot.outline_tilted"
   ],
   "note": "Proved for flat slices on planes parallel to an axis (as those of slice_on_axis and slice_toroidal) and for slices of any direction that are symmetric about a point. False for the others: outline_tilted. Exact numbers; the cut of the stl and the normal of the first cell (a unit vector) are parameters."
  },
  {
   "property": "C213",
   "status": "partial",
   "theorems": [
    "F4Enix.Plot.save_partial",
    "F4Enix.Plot.save_slash",
    "F4Enix.Plot.save_here",
    "F4Enix.Plot.save_lost",
    "F4Enix.Plot.slash_lost",
    "F4Enix.Plot.slash_name_lost",
    "F4Enix.Plot.absolute_elsewhere",
    "F4Enix.Plot.save_refused",
    "F4Enix.Plot.save_others"
   ],
   "note": "Proved for folders that exist and names without a slash. False otherwise: save_lost, slash_lost (witness slash_name_lost); a name that begins with a slash is taken as a whole path (absolute_elsewhere). Rights on files are not modelled."
  },
  {
   "property": "C214",
   "status": "proved",
   "theorems": [
    "F4Enix.D1S.print_written",
    "F4Enix.D1S.nice_tells",
    "F4Enix.D1S.title_refused",
    "F4Enix.D1S.print_unreadable"
   ],
   "note": ""
  },
  {
   "property": "C215",
   "status": "proved",
   "theorems": [
    "F4Enix.FmeshAttr.assign_spec",
    "F4Enix.FmeshAttr.run_spec",
    "F4Enix.FmeshAttr.run_fits",
    "F4Enix.FmeshAttr.new_fits"
   ],
   "note": "Numbers of numpy that are no Python floats are refused as well."
  },
  {
   "property": "C216",
   "status": "partial",
   "theorems": [
    "F4Enix.Mesh.points_near",
    "F4Enix.Mesh.rectilinear_exact",
    "F4Enix.Mesh.points_order",
    "F4Enix.Mesh.heights_apart",
    "F4Enix.Mesh.singles_exact",
    "F4Enix.Mesh.thin_layer_lost"
   ],
   "note": "Different boundaries giving different points is false: thin_layer_lost; heights_apart says how far apart is enough. Coordinates above the range of single precision are not modelled."
  },
  {
   "property": "C217",
   "status": "partial",
   "theorems": [
    "F4Enix.Plot.width_nine_tenths",
    "F4Enix.Plot.width_fits",
    "F4Enix.Plot.letter_widths",
    "F4Enix.Plot.proportions",
    "F4Enix.Plot.flat_fits",
    "F4Enix.Plot.title_not_turned",
    "F4Enix.Plot.square_overflows"
   ],
   "note": "False of the code for the title (title_not_turned) and for high pictures (square_overflows). How a document keeps lengths, and its template, are python-docx's as known; Word's own layout is not modelled."
  },
  {
   "property": "C218",
   "status": "partial",
   "theorems": [
    "F4Enix.Grid3.cartesian_near",
    "F4Enix.Grid3.cartesian_nearest",
    "F4Enix.Grid3.cartesian_order",
    "F4Enix.Grid3.thin_layer_flat"
   ],
   "note": "False for layers thinner than the last digit of single precision: thin_layer_flat. How vtk adds an origin to singles is assumed (Single32, which functions meet: single32_exists)."
  },
  {
   "property": "C219",
   "status": "proved",
   "theorems": [
    "F4Enix.Grid3.cell_in_voxel",
    "F4Enix.Grid3.box_in_voxel"
   ],
   "note": "Up to the small hole at the axis and the snapping of angles (C140) and single precision (C218)."
  },
  {
   "property": "C22",
   "status": "proved",
   "theorems": [
    "F4Enix.D1S.c22_select_exact",
    "F4Enix.D1S.c22_select_count",
    "F4Enix.D1S.c22_select_idempotent",
    "F4Enix.D1S.c22_select_answer",
    "F4Enix.D1S.c22_get_irrad",
    "F4Enix.D1S.c22_eq_iff",
    "F4Enix.D1S.c22_eq_equivalence",
    "F4Enix.D1S.modified_equal"
   ],
   "note": ""
  },
  {
   "property": "C220",
   "status": "proved",
   "theorems": [
    "F4Enix.Mesh.cell_in_mesh_voxel",
    "F4Enix.Mesh.voxel_drawn",
    "F4Enix.Mesh.points_length"
   ],
   "note": "The place of a cylinder is that of the code, which ignores a tilted axis (C66); coordinates are exact here, C216 bounds the single precision of structured grids."
  },
  {
   "property": "C221",
   "status": "partial",
   "theorems": [
    "F4Enix.Outp.cutOf_text",
    "F4Enix.Outp.cut_warnings",
    "F4Enix.Outp.cut_warning_counts",
    "F4Enix.Outp.warning_broken",
    "F4Enix.Outp.cut_fatal",
    "F4Enix.Outp.cut_lost",
    "F4Enix.Outp.direction_broken",
    "F4Enix.Outp.cut_nps",
    "F4Enix.Outp.nps_broken",
    "F4Enix.Outp.cut_tot_lp",
    "F4Enix.Outp.lpr_refused",
    "F4Enix.Outp.cut_checks",
    "F4Enix.Outp.checks_broken",
    "F4Enix.Outp.cut_tfc",
    "F4Enix.Outp.tfc_broken"
   ],
   "note": "Exact for files that end after a whole line (cut_lost, cut_nps, cut_checks, cut_tfc, counts never too high); otherwise wrong only by the broken line, as the theorems say. False: a warning MCNP did not give (warning_broken), a wrong direction (direction_broken), fewer histories (nps_broken), checks passed that were not (checks_broken), a tally that does not exist (tfc_broken)."
  },
  {
   "property": "C222",
   "status": "partial",
   "theorems": [
    "F4Enix.Xs.cut_directory",
    "F4Enix.Xs.directory_broken"
   ],
   "note": "Exact but for the last table, which is right up to its address (cut_directory). False: directory_broken."
  },
  {
   "property": "C223",
   "status": "partial",
   "theorems": [
    "F4Enix.Fispact.cut_paths",
    "F4Enix.Fispact.cut_text",
    "F4Enix.Fispact.section_read",
    "F4Enix.Fispact.sections_lost"
   ],
   "note": "Proved for outputs with one section (OneSection); false for several: sections_lost."
  },
  {
   "property": "C224",
   "status": "partial",
   "theorems": [
    "F4Enix.Outp.cut_tables",
    "F4Enix.Outp.cut_tables_text",
    "F4Enix.Outp.cut_segs",
    "F4Enix.Outp.table_exact_open",
    "F4Enix.Outp.table_widths_cut"
   ],
   "note": "Proved for printings of the same widths with the layout of MCNP (cut_tables); false otherwise: table_widths_cut. As in C87, the conversion of columns to numbers by pandas is not modelled."
  },
  {
   "property": "C225",
   "status": "partial",
   "theorems": [
    "F4Enix.Eeout.cut_mesh",
    "F4Enix.Eeout.rho_cut",
    "F4Enix.Eeout.read_before",
    "F4Enix.Eeout.volumes_on_points",
    "F4Enix.Eeout.points_for_elements",
    "F4Enix.Eeout.volume_broken"
   ],
   "note": "Refused, or exact but for the volumes (cut_mesh). False for these: volume_broken, points_for_elements."
  },
  {
   "property": "C226",
   "status": "partial",
   "theorems": [
    "F4Enix.MInfo.file_cut",
    "F4Enix.MInfo.text_cut",
    "F4Enix.MInfo.readMesh_cut",
    "F4Enix.MInfo.readVoxels_cut",
    "F4Enix.MInfo.cut_accepted",
    "F4Enix.MInfo.number_refused"
   ],
   "note": "Refused, or the first meshes exactly and at most one more that is broken in one of three ways (file_cut). False for these: cut_accepted."
  },
  {
   "property": "C227",
   "status": "partial",
   "theorems": [
    "F4Enix.Mat.convertAll_exact",
    "F4Enix.Mat.toAtomDensities_again",
    "F4Enix.Mat.convertAll_stopped",
    "F4Enix.Mat.convertAll_half"
   ],
   "note": "Exact if it ends (convertAll_exact), whatever is in the list twice (toAtomDensities_again). All or nothing is false: convertAll_stopped, convertAll_half. Materials without mass or with atom density zero are excluded (Convertible)."
  },
  {
   "property": "C23",
   "status": "proved",
   "theorems": [
    "F4Enix.D1S.c23_write_read",
    "F4Enix.D1S.c23_wide_comment_corrupts",
    "F4Enix.D1S.c23_none_comment_raises",
    "F4Enix.D1S.c23_row_outcome",
    "F4Enix.D1S.c23_nsc_line",
    "F4Enix.D1S.history_written_and_read",
    "F4Enix.D1S.short_row_refused"
   ],
   "note": "Character level. The width condition is necessary (witness)."
  },
  {
   "property": "C24",
   "status": "proved",
   "theorems": [
    "F4Enix.D1S.c24_write_read",
    "F4Enix.D1S.c24_wide_comment_corrupts",
    "F4Enix.D1S.c24_row_outcome"
   ],
   "note": "Character level. The width condition is necessary (witness)."
  },
  {
   "property": "C25",
   "status": "proved",
   "theorems": [
    "F4Enix.D1S.c25_parents",
    "F4Enix.D1S.c25_order_linear"
   ],
   "note": ""
  },
  {
   "property": "C26",
   "status": "proved",
   "theorems": [
    "F4Enix.D1S.c26_frame",
    "F4Enix.D1S.c26_effect",
    "F4Enix.D1S.c26_idempotent",
    "F4Enix.D1S.c26_dict_with_manager_is_noop",
    "F4Enix.D1S.c26_dict_choice"
   ],
   "note": ""
  },
  {
   "property": "C27",
   "status": "proved",
   "theorems": [
    "F4Enix.Mat.fromString_name",
    "F4Enix.Mat.collapse_amount",
    "F4Enix.Mat.collapse_total",
    "F4Enix.Mat.collapse_elements",
    "F4Enix.Mat.collapse_elements_nodup",
    "F4Enix.Mat.collapse_groups",
    "F4Enix.Mat.collapse_names_nodup",
    "F4Enix.Mat.collapse_names"
   ],
   "note": ""
  },
  {
   "property": "C28",
   "status": "proved",
   "theorems": [
    "F4Enix.Mat.translate_mass_element",
    "F4Enix.Mat.translate_mass_total",
    "F4Enix.Mat.translate_atom_element",
    "F4Enix.Mat.translate_atom_element_exact",
    "F4Enix.Mat.translate_drops_only_unconvertible",
    "F4Enix.Mat.translate_error",
    "F4Enix.Mat.translate_result",
    "F4Enix.Mat.translate_written",
    "F4Enix.Mat.expansion_shares",
    "F4Enix.Mat.shipped_tableOk",
    "F4Enix.Mat.shipped_abundance",
    "F4Enix.Mat.shipped_translate_atom",
    "F4Enix.Mat.shipped_oxygen",
    "F4Enix.Mat.newTag_spec"
   ],
   "note": "Also instantiated on the whole shipped isotope table, whose abundances sum to one only within 1.5e-4 for O, Mg, S and Ar."
  },
  {
   "property": "C29",
   "status": "proved",
   "theorems": [
    "F4Enix.Mat.switch_mass",
    "F4Enix.Mat.switch_atom",
    "F4Enix.Mat.switch_noop",
    "F4Enix.Mat.switch_refuses",
    "F4Enix.Mat.switch_round_atom",
    "F4Enix.Mat.switch_round_mass"
   ],
   "note": "Exact arithmetic."
  },
  {
   "property": "C30",
   "status": "proved",
   "theorems": [
    "F4Enix.Mat.density_of_tad",
    "F4Enix.Mat.tad_of_density",
    "F4Enix.Mat.tad_proportional",
    "F4Enix.Mat.density_proportional",
    "F4Enix.Mat.queries_succeed",
    "F4Enix.Mat.tad_eq",
    "F4Enix.Mat.density_eq",
    "F4Enix.Mat.tad_natural_fails",
    "F4Enix.Mat.unitFactor_value",
    "F4Enix.Mat.mass_spec"
   ],
   "note": "Natural zaids without a mass make the query raise (tad_natural_fails)."
  },
  {
   "property": "C31",
   "status": "proved",
   "theorems": [
    "F4Enix.Mat.source_share",
    "F4Enix.Mat.generate_shares",
    "F4Enix.Mat.generate_total",
    "F4Enix.Mat.generate_truncates",
    "F4Enix.Mat.lookup_last",
    "F4Enix.Mat.mix_unknown"
   ],
   "note": "Surplus materials or percentages are silently ignored (zip), generate_truncates."
  },
  {
   "property": "C32",
   "status": "proved",
   "theorems": [
    "F4Enix.Mat.convert_unknown_lib",
    "F4Enix.Mat.convert_prefers_requested",
    "F4Enix.Mat.convert_sound",
    "F4Enix.Mat.convert_isotope",
    "F4Enix.Mat.convert_expansion",
    "F4Enix.Mat.convert_many_natural",
    "F4Enix.Mat.convert_default_missing"
   ],
   "note": ""
  },
  {
   "property": "C33",
   "status": "proved",
   "theorems": [
    "F4Enix.Inp.c33_lookup",
    "F4Enix.Inp.c33_extend",
    "F4Enix.Inp.c33_extend_duplicates",
    "F4Enix.Inp.upperC_spec",
    "F4Enix.Inp.name_missing"
   ],
   "note": "extend adds both of two equal new names (proved)."
  },
  {
   "property": "C34",
   "status": "proved",
   "theorems": [
    "F4Enix.Rssa.read_file",
    "F4Enix.Rssa.tracks_exact",
    "F4Enix.Rssa.tracks_refused",
    "F4Enix.Rssa.readRecord_record",
    "F4Enix.Rssa.readRecord_refuses",
    "F4Enix.Rssa.masks_partition",
    "F4Enix.Rssa.masks_valid"
   ],
   "note": "Byte level; the 8-byte floats are opaque words compared as bytes. Record markers of the track records and the number of tracks announced are not checked by the code."
  },
  {
   "property": "C35",
   "status": "proved",
   "theorems": [
    "F4Enix.Rssa.plot_selection",
    "F4Enix.Rssa.current_maps",
    "F4Enix.Rssa.current_conserved",
    "F4Enix.Rssa.current_succeeds",
    "F4Enix.Rssa.empty_refused",
    "F4Enix.Rssa.cell_unique"
   ],
   "note": "Exact arithmetic; trigonometric functions are parameters."
  },
  {
   "property": "C36",
   "status": "proved",
   "theorems": [
    "F4Enix.Mctal.values_exact",
    "F4Enix.Mctal.values_layout",
    "F4Enix.Mctal.values_odd",
    "F4Enix.Mctal.binOrder_get",
    "F4Enix.Mctal.binOrder_nodup",
    "F4Enix.Mctal.binOrder_length"
   ],
   "note": "Lines must hold an even number of words; values_odd shows what happens to a line with an odd number of words."
  },
  {
   "property": "C37",
   "status": "proved",
   "theorems": [
    "F4Enix.Mesh.etbin_refused",
    "F4Enix.Mesh.etbin_data",
    "F4Enix.Mesh.selectBin_bins",
    "F4Enix.Mesh.count_select"
   ],
   "note": ""
  },
  {
   "property": "C38",
   "status": "proved",
   "theorems": [
    "F4Enix.Mesh.labels_exact",
    "F4Enix.Mesh.labels_shape",
    "F4Enix.Mesh.suffix_inj",
    "F4Enix.Mesh.grid_names_nodup",
    "F4Enix.Mesh.array_exact",
    "F4Enix.Mesh.grid_complete",
    "F4Enix.Mesh.array_boundaries"
   ],
   "note": ""
  },
  {
   "property": "C39",
   "status": "proved",
   "theorems": [
    "F4Enix.Mesh.sameMesh_iff",
    "F4Enix.Mesh.sameMesh_refl",
    "F4Enix.Mesh.sameMesh_symm",
    "F4Enix.Mesh.sameMesh_limits"
   ],
   "note": "numpy.allclose semantics: the tolerance is relative to one of the two boundaries plus an absolute part; see the theorem."
  },
  {
   "property": "C40",
   "status": "proved",
   "theorems": [
    "F4Enix.Mesh.column_exact",
    "F4Enix.Mesh.column_succeeds",
    "F4Enix.Mesh.columnLine_iff",
    "F4Enix.Mesh.block_exact",
    "F4Enix.Mesh.block_times_exact"
   ],
   "note": ""
  },
  {
   "property": "C41",
   "status": "proved",
   "theorems": [
    "F4Enix.MInfo.filtered_exact",
    "F4Enix.MInfo.cells_exact",
    "F4Enix.MInfo.materials_exact",
    "F4Enix.MInfo.readMesh_ok",
    "F4Enix.MInfo.file_exact",
    "F4Enix.MInfo.dataMass_sorted"
   ],
   "note": "2 pi is a parameter; exact arithmetic."
  },
  {
   "property": "C42",
   "status": "proved",
   "theorems": [
    "F4Enix.Fispact.paths_invariant",
    "F4Enix.Fispact.readPath_ok",
    "F4Enix.Fispact.file_exact",
    "F4Enix.Fispact.str_exact",
    "F4Enix.Fispact.str_direct",
    "F4Enix.Fispact.direct_unchecked",
    "F4Enix.Fispact.isPathLine_iff",
    "F4Enix.Fispact.reactionChar_iff",
    "F4Enix.Fispact.zaid_str_roundtrip",
    "F4Enix.Fispact.zaid_str_inj",
    "F4Enix.Fispact.truncated",
    "F4Enix.Fispact.str_no_reactions"
   ],
   "note": "Paths on one line; continued paths are C79. Direct paths are accepted with any number of reactions (direct_unchecked)."
  },
  {
   "property": "C43",
   "status": "partial",
   "theorems": [
    "F4Enix.Outp.tfc_exact_partial",
    "F4Enix.Outp.tfc_one_line_partial",
    "F4Enix.Outp.tfc_stale",
    "F4Enix.Outp.tfc_unbound"
   ],
   "note": "Proved for sections in which every tally line names an outcome; tfc_stale and tfc_unbound show that the property fails otherwise."
  },
  {
   "property": "C44",
   "status": "partial",
   "theorems": [
    "F4Enix.Outp.uninteresting_reported"
   ],
   "note": "The property is false of the code: proved that every warning is reported, uninteresting ones included."
  },
  {
   "property": "C45",
   "status": "partial",
   "theorems": [
    "F4Enix.Mat.zaid_roundtrip_partial",
    "F4Enix.Mat.formulaZaid_eq",
    "F4Enix.Mat.shipped_symOk",
    "F4Enix.Mat.shipped_nobelium",
    "F4Enix.Mat.letters_exact",
    "F4Enix.Mat.name_refused",
    "F4Enix.Mat.num_refused",
    "F4Enix.Mat.formula_refused"
   ],
   "note": "True of every element with a symbol of its own; in the shipped table Nobelium carries the symbol of Niobium, so the statement is false there (shipped_nobelium)."
  },
  {
   "property": "C46",
   "status": "proved",
   "theorems": [
    "F4Enix.WW.c46_grid_current",
    "F4Enix.WW.c46_label_collision",
    "F4Enix.WW.c46_cents",
    "F4Enix.WW.c46_labels_differ"
   ],
   "note": "The two-decimal label condition is necessary (witness)."
  },
  {
   "property": "C47",
   "status": "partial",
   "theorems": [
    "F4Enix.WW.c47_no_stale_partial",
    "F4Enix.WW.c47_stale"
   ],
   "note": "True of histories without remove_particle; false after add, remove (witness for every window)."
  },
  {
   "property": "C48",
   "status": "proved",
   "theorems": [
    "F4Enix.WW.c48_cyl_grid",
    "F4Enix.WW.c48_one_sector",
    "F4Enix.WW.c48_two_sectors",
    "F4Enix.WW.c48_many_sectors",
    "F4Enix.WW.c48_length"
   ],
   "note": ""
  },
  {
   "property": "C49",
   "status": "partial",
   "theorems": [
    "F4Enix.Inp.c49_kept_partial",
    "F4Enix.Inp.c49_lost",
    "F4Enix.Inp.c49_mt_wrong_material",
    "F4Enix.Inp.c49_materials",
    "F4Enix.Inp.isMx_iff",
    "F4Enix.Inp.isMxLine_iff",
    "F4Enix.Inp.clean_names"
   ],
   "note": "False when two cards share a shortened name (witness from the repository's own test input)."
  },
  {
   "property": "C50",
   "status": "partial",
   "theorems": [
    "F4Enix.Inp.c50_update_partial",
    "F4Enix.Inp.c50_not_found"
   ],
   "note": "False for every offset (tally F4:N)."
  },
  {
   "property": "C51",
   "status": "proved",
   "theorems": [
    "F4Enix.Inp.c51_scale",
    "F4Enix.Inp.c51_succeeds",
    "F4Enix.Inp.scaled_numbers",
    "F4Enix.Inp.scaled_sign",
    "F4Enix.Inp.scaled_twice",
    "F4Enix.Inp.scaled_floats"
   ],
   "note": ""
  },
  {
   "property": "C52",
   "status": "proved",
   "theorems": [
    "F4Enix.Inp.c52_text",
    "F4Enix.Inp.c52_all_text",
    "F4Enix.Inp.c52_duplicate",
    "F4Enix.Inp.c52_lost",
    "F4Enix.Inp.isComment_iff",
    "F4Enix.Inp.key_spec",
    "F4Enix.Inp.key_comments",
    "F4Enix.Inp.firstWord_spec"
   ],
   "note": ""
  },
  {
   "property": "C53",
   "status": "partial",
   "theorems": [
    "F4Enix.Inp.c53_no_double_partial",
    "F4Enix.Inp.c53_undetected"
   ],
   "note": "False with marked surfaces (witness)."
  },
  {
   "property": "C54",
   "status": "partial",
   "theorems": [
    "F4Enix.Mat.translate_unknown_library",
    "F4Enix.Mat.convert_unknown_element",
    "F4Enix.Mat.translate_drops_only_unconvertible"
   ],
   "note": "False of the code: the two first theorems prove the negation; what holds is that only unconvertible zaids are dropped."
  },
  {
   "property": "C55",
   "status": "partial",
   "theorems": [
    "F4Enix.Mat.getDensity_changes",
    "F4Enix.Mat.getTad_changes",
    "F4Enix.Mat.densitiesRange_changes",
    "F4Enix.Mat.sampleMat_query_changes"
   ],
   "note": "False of the code (negation proved)."
  },
  {
   "property": "C56",
   "status": "partial",
   "theorems": [
    "F4Enix.Mat.switch_inplace_returns_empty",
    "F4Enix.Mat.switch_returned"
   ],
   "note": "False of the code for every material (negation proved)."
  },
  {
   "property": "C57",
   "status": "proved",
   "theorems": [
    "F4Enix.Mat.history_consistent",
    "F4Enix.Mat.mkSub_consistent",
    "F4Enix.Mat.consistent_written"
   ],
   "note": ""
  },
  {
   "property": "C58",
   "status": "proved",
   "theorems": [
    "F4Enix.Mat.toAtomDensities_spec",
    "F4Enix.Mat.knows_iff"
   ],
   "note": ""
  },
  {
   "property": "C59",
   "status": "proved",
   "theorems": [
    "F4Enix.Mat.densitiesRange_values",
    "F4Enix.Mat.densitiesRange_unknown"
   ],
   "note": ""
  },
  {
   "property": "C60",
   "status": "partial",
   "theorems": [
    "F4Enix.Rssa.xrange_alone_refused",
    "F4Enix.Rssa.plot_selection"
   ],
   "note": "False of the code: negation proved for every track list."
  },
  {
   "property": "C61",
   "status": "partial",
   "theorems": [
    "F4Enix.Rssa.errors_misnamed"
   ],
   "note": "False of the code (negation proved)."
  },
  {
   "property": "C62",
   "status": "proved",
   "theorems": [
    "F4Enix.Mctal.frame_complete",
    "F4Enix.Mctal.frame_sound",
    "F4Enix.Mctal.lookup_exact",
    "F4Enix.Mctal.columns_kept",
    "F4Enix.Mctal.sample_clean",
    "F4Enix.Mctal.sample_frames"
   ],
   "note": "Mesh coordinates: see C63. Sub-totals of tallies with several total marks are not in the frame."
  },
  {
   "property": "C63",
   "status": "partial",
   "theorems": [
    "F4Enix.Mctal.coordinates_swapped",
    "F4Enix.Mctal.mesh_swapped"
   ],
   "note": "False of the code: the exchange is proved for every mesh tally."
  },
  {
   "property": "C64",
   "status": "partial",
   "theorems": [
    "F4Enix.Mctal.total_frame_partial",
    "F4Enix.Mctal.total_none",
    "F4Enix.Mctal.total_leak",
    "F4Enix.Mctal.sample_frames",
    "F4Enix.Mctal.plain_alone"
   ],
   "note": "True for tallies with a total, and for tallies without one if none before had one; false otherwise (witness)."
  },
  {
   "property": "C65",
   "status": "partial",
   "theorems": [
    "F4Enix.Mctal.error_summary_partial",
    "F4Enix.Mctal.summary_raises",
    "F4Enix.Mctal.summary_not_abs"
   ],
   "note": "Relative errors are right if no duplicate row was dropped."
  },
  {
   "property": "C66",
   "status": "partial",
   "theorems": [
    "F4Enix.Mesh.rect_point",
    "F4Enix.Mesh.cyl_point",
    "F4Enix.Mesh.upright_point_partial",
    "F4Enix.Mesh.axis_ignored",
    "F4Enix.Mesh.tilted_wrong",
    "F4Enix.Mesh.tilted_mcnp5_refused",
    "F4Enix.Mesh.moved_rec_refused",
    "F4Enix.Mesh.transformation_mcnp6",
    "F4Enix.Mesh.transformation_mcnp5",
    "F4Enix.Mesh.transformation_rec_iff"
   ],
   "note": "True for rectangular meshes and cylindrical ones along z; false for tilted axes (negation proved)."
  },
  {
   "property": "C67",
   "status": "proved",
   "theorems": [
    "F4Enix.Mesh.split_values",
    "F4Enix.Mesh.split_idempotent",
    "F4Enix.Mesh.split_sorted"
   ],
   "note": ""
  },
  {
   "property": "C68",
   "status": "partial",
   "theorems": [
    "F4Enix.Mesh.filtered_data_partial",
    "F4Enix.Mesh.filtered_moved"
   ],
   "note": "True without transformation; false with one (negation proved for every translation that moves a point)."
  },
  {
   "property": "C69",
   "status": "partial",
   "theorems": [
    "F4Enix.Mesh.collapse_fields_partial",
    "F4Enix.Mesh.collapse_elsewhere",
    "F4Enix.Mesh.collapse_succeeds"
   ],
   "note": "Values, errors and equal bins proved for distinct new names and meshes with the standard labels; false for the place: meshes that were moved apart are collapsed (negation proved)."
  },
  {
   "property": "C70",
   "status": "partial",
   "theorems": [
    "F4Enix.Mesh.info_wrong"
   ],
   "note": "False of the code; the theorem characterises when it happens to be right."
  },
  {
   "property": "C71",
   "status": "partial",
   "theorems": [
    "F4Enix.Mesh.convert_exact",
    "F4Enix.Mesh.convert_energies",
    "F4Enix.Mesh.convert_energies_refused",
    "F4Enix.Mesh.convert_z_energies",
    "F4Enix.Mesh.convert_same",
    "F4Enix.Mesh.convert_sector_lost",
    "F4Enix.Mesh.convert_times_lost"
   ],
   "note": "Every frame holds the boundaries, values and errors of one axis (convert_exact). False of the code: meshes with several energies and several times, and cylinders with two angular bins, are converted, and the values of the later times and of the second sector are missing (convert_same, convert_sector_lost, convert_times_lost)."
  },
  {
   "property": "C72",
   "status": "proved",
   "theorems": [
    "F4Enix.Mesh.transform_refused",
    "F4Enix.Mesh.translation_exact",
    "F4Enix.Mesh.rototranslation_rigid",
    "F4Enix.Mesh.invTranspose_dual"
   ],
   "note": "The rotation applied is the matrix of the card itself."
  },
  {
   "property": "C73",
   "status": "proved",
   "theorems": [
    "F4Enix.Mesh.cuvVoxel_value",
    "F4Enix.Mesh.cuv_exact",
    "F4Enix.Mesh.trunc_spec",
    "F4Enix.Mesh.wordNum_short"
   ],
   "note": ""
  },
  {
   "property": "C74",
   "status": "partial",
   "theorems": [
    "F4Enix.Mesh.cuv_default_fails"
   ],
   "note": "False of the code (negation proved for every voxel)."
  },
  {
   "property": "C75",
   "status": "partial",
   "theorems": [
    "F4Enix.Mesh.cuv_totals_refused",
    "F4Enix.Mesh.cuv_mixed_totals_refused"
   ],
   "note": "False of the code (negation proved)."
  },
  {
   "property": "C76",
   "status": "partial",
   "theorems": [
    "F4Enix.Mesh.cdgs_exact_partial",
    "F4Enix.Mesh.cdgsVoxel_ok",
    "F4Enix.Mesh.cdgs_zero_fraction"
   ],
   "note": "True when all listed voxels are filled; negation proved otherwise."
  },
  {
   "property": "C77",
   "status": "partial",
   "theorems": [
    "F4Enix.MInfo.eq_iff_partial",
    "F4Enix.MInfo.eq_raises"
   ],
   "note": "True for meshes with equal numbers of bins; negation proved otherwise."
  },
  {
   "property": "C78",
   "status": "partial",
   "theorems": [
    "F4Enix.MInfo.save_load_partial",
    "F4Enix.MInfo.complete_of_file",
    "F4Enix.MInfo.stale_mass"
   ],
   "note": "True for meshes with masses (all that come from files); negation proved without."
  },
  {
   "property": "C79",
   "status": "partial",
   "theorems": [
    "F4Enix.Fispact.continued_doubled"
   ],
   "note": "False of the code: the doubling is proved for every continued path in FISPACT's layout."
  },
  {
   "property": "C80",
   "status": "proved",
   "theorems": [
    "F4Enix.Outp.warnings_exact",
    "F4Enix.Outp.warnings_distinct",
    "F4Enix.Outp.warnings_order"
   ],
   "note": "pandas sorts the groups by their texts (code points)."
  },
  {
   "property": "C81",
   "status": "proved",
   "theorems": [
    "F4Enix.Outp.fatal_exact",
    "F4Enix.Outp.isFatal_iff"
   ],
   "note": ""
  },
  {
   "property": "C82",
   "status": "proved",
   "theorems": [
    "F4Enix.Outp.lp_table_exact",
    "F4Enix.Outp.lp_truncated",
    "F4Enix.Outp.exRec_written",
    "F4Enix.Outp.three_short",
    "F4Enix.Outp.lp_rows_count"
   ],
   "note": "float() is a parameter."
  },
  {
   "property": "C83",
   "status": "proved",
   "theorems": [
    "F4Enix.Outp.tot_lp_last",
    "F4Enix.Outp.nps_exact",
    "F4Enix.Outp.lpr_exact",
    "F4Enix.Outp.lpr_no_lost"
   ],
   "note": ""
  },
  {
   "property": "C84",
   "status": "proved",
   "theorems": [
    "F4Enix.Outp.isTitle_iff",
    "F4Enix.Outp.title_unique",
    "F4Enix.Outp.checks_full",
    "F4Enix.Outp.checks_blank_fom",
    "F4Enix.Outp.checks_absent",
    "F4Enix.Outp.checks_short"
   ],
   "note": ""
  },
  {
   "property": "C85",
   "status": "proved",
   "theorems": [
    "F4Enix.Outp.summary_exact",
    "F4Enix.Outp.summary_empty"
   ],
   "note": ""
  },
  {
   "property": "C86",
   "status": "partial",
   "theorems": [
    "F4Enix.Outp.descriptions_exact_partial",
    "F4Enix.Outp.descriptions_stale"
   ],
   "note": "False when a tally is missing from the list (descriptions_stale)."
  },
  {
   "property": "C87",
   "status": "partial",
   "theorems": [
    "F4Enix.Outp.widths_exact_partial",
    "F4Enix.Outp.widths_first_lost",
    "F4Enix.Outp.table_found_partial",
    "F4Enix.Outp.table_prefix",
    "F4Enix.Outp.table_exact_partial",
    "F4Enix.Outp.table_last",
    "F4Enix.Outp.table_refused",
    "F4Enix.Outp.row_cells",
    "F4Enix.Outp.instance_widths",
    "F4Enix.Outp.last_row_lost",
    "F4Enix.Outp.rows_refused",
    "F4Enix.Outp.titles_ten"
   ],
   "note": "The reading of fixed width rows is modelled, with a stated assumption on pandas (lines read ahead, OutpTable.lean); not modelled are the conversion of columns to numbers and the texts pandas takes as missing. table_last: the last printing is returned word by word. The property is false of the code in three ways: a table number that begins the number of another table (table_prefix), earlier printings, which are cut at the column widths of the last one (instance_widths), and compact tables, which lose their last row (last_row_lost)."
  },
  {
   "property": "C88",
   "status": "partial",
   "theorems": [
    "F4Enix.Outp.version_found_partial",
    "F4Enix.Outp.version_text_partial",
    "F4Enix.Outp.version_d1s",
    "F4Enix.Outp.version_first_line",
    "F4Enix.Outp.version_header",
    "F4Enix.Outp.version_folder",
    "F4Enix.Outp.version_missing",
    "F4Enix.Outp.tells_d1s",
    "F4Enix.Outp.d1sHere_iff"
   ],
   "note": "The folder is a list of names with lines. version_folder: the search in the other files; version_missing: a path without folder cannot be searched (FileNotFoundError). Partial because versions are taken only from lines of the stated forms, see the notes on version 10 in DESIGN.md."
  },
  {
   "property": "C89",
   "status": "proved",
   "theorems": [
    "F4Enix.CellText.add_surface_region",
    "F4Enix.CellText.edits_region",
    "F4Enix.CellText.shows_print",
    "F4Enix.CellText.shows_unique",
    "F4Enix.CellText.header_two_lines",
    "F4Enix.CellGeo.region_unique",
    "F4Enix.CellText.isAlpha_iff",
    "F4Enix.CellText.insertRows_indent",
    "F4Enix.CellText.insertVal_place",
    "F4Enix.CellText.surfaceWord_width"
   ],
   "note": "Facets of macrobodies are not in the geometry language."
  },
  {
   "property": "C90",
   "status": "proved",
   "theorems": [
    "F4Enix.CellText.hash_cell_region",
    "F4Enix.CellText.hash_multiple_region",
    "F4Enix.CellText.hash_missing"
   ],
   "note": ""
  },
  {
   "property": "C91",
   "status": "partial",
   "theorems": [
    "F4Enix.CellText.cells_union_region_partial",
    "F4Enix.CellText.cells_union_overwrites",
    "F4Enix.CellText.cells_union_single",
    "F4Enix.CellText.cells_union_duplicate",
    "F4Enix.CellText.getCells_missing",
    "F4Enix.CellText.cellsUnion_refused",
    "F4Enix.CellText.unionNum_spec"
   ],
   "note": "get_geom, card(wrap=True) and the reading of the new lines are numjuggler: assumed as GeomOk and RereadOk (both satisfiable). References of other cells to the removed numbers are not followed by the code."
  },
  {
   "property": "C92",
   "status": "proved",
   "theorems": [
    "F4Enix.CellText.add_param_shows",
    "F4Enix.CellText.add_param_refused"
   ],
   "note": ""
  },
  {
   "property": "C93",
   "status": "partial",
   "theorems": [
    "F4Enix.CellText.remove_u_partial",
    "F4Enix.CellText.remove_u_blank"
   ],
   "note": "True when the universe is written u=n without a blank; negation proved otherwise."
  },
  {
   "property": "C94",
   "status": "proved",
   "theorems": [
    "F4Enix.Elite.graveyard_region",
    "F4Enix.Elite.graveyard_partition",
    "F4Enix.Elite.graveyard_none",
    "F4Enix.Elite.planeOf_plane",
    "F4Enix.Elite.planeOf_short"
   ],
   "note": "The boundary cells are those of one list of sectors; wedges of more than 180 degrees are still cut with an intersection (code, not checked)."
  },
  {
   "property": "C95",
   "status": "proved",
   "theorems": [
    "F4Enix.Elite.angles_first_last",
    "F4Enix.Elite.sectors_tile",
    "F4Enix.Elite.sectors_distinct",
    "F4Enix.Elite.sdef_text",
    "F4Enix.Elite.sdef_weight",
    "F4Enix.Elite.withReverse_angles"
   ],
   "note": ""
  },
  {
   "property": "C96",
   "status": "partial",
   "theorems": [
    "F4Enix.Elite.envelope_stars_partial",
    "F4Enix.Elite.others_untouched",
    "F4Enix.Elite.full_circle_two_stars",
    "F4Enix.Elite.toy_full_circle",
    "F4Enix.Elite.isBoundary_trans"
   ],
   "note": "One star per angle the plane lies along: exactly one unless the angles coincide, where the property fails."
  },
  {
   "property": "C97",
   "status": "partial",
   "theorems": [
    "F4Enix.Elite.moved_outwards_partial",
    "F4Enix.Elite.moved_inwards",
    "F4Enix.Elite.plane_moved",
    "F4Enix.Elite.sector_side",
    "F4Enix.Elite.opposite_normal",
    "F4Enix.Elite.realTrig",
    "F4Enix.Elite.toy_result",
    "F4Enix.EliteX.rotated_moved",
    "F4Enix.EliteX.rotated_outwards_partial",
    "F4Enix.EliteX.rotated_inwards",
    "F4Enix.EliteX.local_dot",
    "F4Enix.EliteX.rotated_axis_plane",
    "F4Enix.EliteX.rotated_axis_stops"
   ],
   "note": "Proved for planes with the normal of the boundary; negation proved for the opposite normal. With a rotation, the move is outwards exactly if the y coefficient of the card and the rotated one have the same sign; otherwise inwards, even along the boundary angle. Rotated PX, PY, PZ planes raise an IndexError."
  },
  {
   "property": "C98",
   "status": "proved",
   "theorems": [
    "F4Enix.D1S.paths_exact",
    "F4Enix.D1S.reactions_exact",
    "F4Enix.D1S.daughter_number",
    "F4Enix.D1S.reactions_cut",
    "F4Enix.D1S.sampleTab_ok",
    "F4Enix.D1S.sample_paths",
    "F4Enix.D1S.reactions_unknown",
    "F4Enix.D1S.reactions_cut_ok",
    "F4Enix.D1S.daughter_empty",
    "F4Enix.D1S.comment_names"
   ],
   "note": "Stated for sheets whose daughters are all known; reactions_cut shows what happens otherwise."
  },
  {
   "property": "C99",
   "status": "proved",
   "theorems": [
    "F4Enix.D1S.reaction_file_exact",
    "F4Enix.D1S.reaction_file_refused",
    "F4Enix.D1S.pikmt_exact",
    "F4Enix.D1S.pikmt_none",
    "F4Enix.D1S.sample_reaction_file"
   ],
   "note": ""
  }
 ]
}