{"id": "C01", "title": "Weight-window mesh vectors survive compose/decompose", "statement": "Splitting an MCNP weight-window block-2 vector that was composed from a coarse vector and its fine interval counts gives back exactly those coarse points and counts, whatever the values are (including a coarse point equal to 1, which the composing code also uses as its marker); and conversely composing the two halves of any well-formed block-2 vector rebuilds that vector.", "quantifier": "all non-empty coarse vectors of any length, all fine count vectors of matching length, all numeric values", "why_tests_cant": "The composing code appends a marker 1 and then removes the first element equal to 1; only an argument over every vector rules out that it ever removes the wrong element.", "anchors": ["src/f4enix/input/ww_gvr/utils.py:decompose_b2_vectors", "src/f4enix/input/ww_gvr/utils.py:compose_b2_vectors"]}
{"id": "C02", "title": "Weight-window geometry has one value per voxel boundary", "statement": "The flattened 1-D mesh vector built from coarse points and fine counts has sum(fine)+1 entries, starts at the first coarse point, ends at the last one, contains every coarse point at the cumulative count position, and is strictly increasing when the coarse points are and all counts are positive.", "quantifier": "all coarse vectors, all fine counts", "why_tests_cant": "Depends on arbitrary lengths and counts; off-by-one errors appear only for particular combinations.", "anchors": ["src/f4enix/input/ww_gvr/utils.py:build_1d_vectors", "src/f4enix/input/ww_gvr/geometry.py:i_ints", "src/f4enix/input/ww_gvr/geometry.py:j_ints", "src/f4enix/input/ww_gvr/geometry.py:k_ints"]}
{"id": "C03", "title": "Weight-window file write/read round trip", "statement": "Writing a weight window to a WWINP file and parsing the file back yields the same header integers, the same block-2 vectors, the same energy bins and the same window values for every particle, up to the 5-significant-digit rendering of each number, independently of how many numbers there are and how they fall into lines of six.", "quantifier": "all headers (1 or 2 particles, cartesian or cylindrical), all vectors, energies and values", "why_tests_cant": "The reader reconstructs structure from counts while the writer chops streams into lines of six; correctness must hold for every residue and every combination of lengths.", "anchors": ["src/f4enix/input/ww_gvr/ww_parser.py:parse", "src/f4enix/input/ww_gvr/ww_parser.py:_parse_header", "src/f4enix/input/ww_gvr/ww_parser.py:_read_block_2_vector", "src/f4enix/input/ww_gvr/ww_parser.py:_read_block_3", "src/f4enix/input/ww_gvr/ww_parser.py:write", "src/f4enix/input/ww_gvr/ww_parser.py:_write_header", "src/f4enix/input/ww_gvr/ww_parser.py:_write_block_2", "src/f4enix/input/ww_gvr/ww_parser.py:_write_block_3"]}
{"id": "C04", "title": "Maximum neighbour ratio is right and at least one", "statement": "For every voxel of a non-negative weight-window map the reported ratio is at least 1, never infinite, is an upper bound of the (larger/smaller) quotient with every positive face neighbour inside the mesh when the voxel itself is positive, and is attained by one of them or equal to 1.", "quantifier": "all 3-D arrays of any shape with non-negative values, all voxels", "why_tests_cant": "Border voxels, zero voxels and zero neighbours interact through division by zero; infinitely many shapes and values.", "anchors": ["src/f4enix/input/ww_gvr/ratios_calculation.py:calculate_max_ratio_array", "src/f4enix/input/ww_gvr/ratios_calculation.py:_find_neighbour_values", "src/f4enix/input/ww_gvr/ratios_calculation.py:_calculate_max_ratio_from_neighbours"]}
{"id": "C05", "title": "Long-history mitigation leaves no steep voxel", "statement": "After mitigate_long_histories(max_ratio) every value is either unchanged or set to zero, it is set to zero exactly where the ratio exceeded max_ratio, and every ratio of the resulting map is at most max_ratio (for max_ratio >= 1); applying it again changes nothing.", "quantifier": "all maps, all shapes, all max_ratio >= 1", "why_tests_cant": "Zeroing voxels changes the neighbourhoods of the remaining voxels, so the result needs an argument over all configurations.", "anchors": ["src/f4enix/input/ww_gvr/weight_window.py:mitigate_long_histories", "src/f4enix/input/ww_gvr/weight_window.py:_calculate_ratios", "src/f4enix/input/ww_gvr/weight_window.py:values"]}
{"id": "C06", "title": "Weight-window scaling and softening laws", "statement": "multiply(f) multiplies every value by f, multiply by 1 is a no-op, successive multiplications compose, and for f>0 the ratios do not change; soften with an integer exponent likewise raises every value to that power, so the particle/energy structure never changes.", "quantifier": "all maps, all factors, all histories of such operations", "why_tests_cant": "Requires all sequences of operations and all maps.", "anchors": ["src/f4enix/input/ww_gvr/weight_window.py:multiply", "src/f4enix/input/ww_gvr/weight_window.py:soften", "src/f4enix/input/ww_gvr/weight_window.py:values"]}
{"id": "C07", "title": "Particle add/remove state machine", "statement": "A weight window always holds one or two particles: add_particle on one particle adds a photon window on the same energies and leaves the neutron window untouched, on two it is refused without any change; remove_particle on two restores exactly the neutron-only window, on one it is refused; after any history of operations the window values and ratios are defined for the same particles, energies and shape.", "quantifier": "all windows, all finite histories of add/remove/multiply/soften/mitigate", "why_tests_cant": "Histories are unbounded.", "anchors": ["src/f4enix/input/ww_gvr/weight_window.py:add_particle", "src/f4enix/input/ww_gvr/weight_window.py:remove_particle", "src/f4enix/input/ww_gvr/weight_window.py:values", "src/f4enix/input/ww_gvr/weight_window.py:ratios", "src/f4enix/input/ww_gvr/weight_window.py:particles"]}
{"id": "C08", "title": "GVR windows are normalised", "statement": "The weight window generated from a flux map with maximum splitting ratio r has maximum value 2/(r+1), is proportional to the flux and keeps its zeros, so that the ratios equal those of the flux.", "quantifier": "all flux maps with positive maximum, all r > -1", "why_tests_cant": "Holds for every map and ratio, not for samples.", "anchors": ["src/f4enix/input/ww_gvr/weight_window.py:_convert_flux_values_to_gvr"]}
{"id": "C09", "title": "Softening applies to the photon window created by add_particle", "statement": "add_particle(norm, soft) creates a photon window equal to the neutron window multiplied by norm and softened by the factor soft, as the operation is documented.", "quantifier": "all windows, all norm and soft", "why_tests_cant": "A unit test with soft = 1 or norm = 1 cannot distinguish the two possible parsings of the formula.", "anchors": ["src/f4enix/input/ww_gvr/weight_window.py:add_particle"]}
{"id": "C10", "title": "Cell extraction returns the dependency closure", "statement": "When extract_cells collects the cells to be written, the collected set is exactly the set of cells reachable from the requested ones through complement (#) references and (when fillers are requested) through the cells of the universes that fill them; nothing else is collected and nothing reachable is left out.", "quantifier": "all cell sets, all reference and fill graphs on which the collection finishes", "why_tests_cant": "The frontier loop subtracts only the previous frontier; only an invariant over all graphs shows that nothing is missed.", "anchors": ["src/f4enix/input/MCNPinput.py:_collect_hash_uni", "src/f4enix/input/MCNPinput.py:extract_cells", "src/f4enix/input/MCNPinput.py:_extraction_function"]}
{"id": "C11", "title": "Cell extraction always finishes", "statement": "The collection loop of extract_cells terminates for every model. (False of the code when complement/fill references contain a cycle of length two or more; it does finish on every acyclic model.)", "quantifier": "all finite reference graphs", "why_tests_cant": "Non-termination needs a specific cyclic graph, termination on acyclic ones needs an induction.", "anchors": ["src/f4enix/input/MCNPinput.py:_collect_hash_uni"]}
{"id": "C12", "title": "Extracted model is self-contained", "statement": "Every surface used by an extracted cell, and the material of every extracted non-void cell, is part of the extracted output, and no surface or material that is used by none of them is.", "quantifier": "all models, all cell selections", "why_tests_cant": "Quantifies over every model.", "anchors": ["src/f4enix/input/MCNPinput.py:_extraction_function", "src/f4enix/input/MCNPinput.py:get_surfs_by_id", "src/f4enix/input/MCNPinput.py:get_materials_subset", "src/f4enix/input/MCNPinput.py:extract_universe"]}
{"id": "C13", "title": "Range check is exact", "statement": "check_range answers True exactly when no number of the given range is already used by a cell (or surface) of the model, also for reflecting/white surfaces whose key is stored with a leading * or +, and rejects any other kind of card.", "quantifier": "all models, all ranges", "why_tests_cant": "All ranges and keys.", "anchors": ["src/f4enix/input/MCNPinput.py:check_range"]}
{"id": "C14", "title": "Merging models never overwrites cells, surfaces or transformations", "statement": "A merge that returns normally yields a model whose cells, surfaces and transformations are exactly the union of both, each with the card it had before; if any card name (number with its boundary mark) is used by both, merge is refused with KeyError.", "quantifier": "all pairs of models", "why_tests_cant": "Every overlap pattern must be considered.", "anchors": ["src/f4enix/input/MCNPinput.py:merge", "src/f4enix/input/MCNPinput.py:_safe_dict_update"]}
{"id": "C15", "title": "A refused merge leaves the model as it was", "statement": "If merge raises KeyError the model on which it was called is unchanged. (False of the code: cells are added before surfaces are checked.)", "quantifier": "all pairs of models, all failure points", "why_tests_cant": "Failure points in the middle of the operation.", "anchors": ["src/f4enix/input/MCNPinput.py:merge", "src/f4enix/input/MCNPinput.py:_safe_dict_update"]}
{"id": "C16", "title": "Renumbering keeps the model's reference structure", "statement": "Renumbering cells, surfaces, materials, universes or transformations by constants maps every definition and every reference to it consistently (a reference resolves to the renumbered target of what it resolved to before), keeps 0 (void material, default universe) fixed and never identifies two different positive numbers of the same kind.", "quantifier": "all models, all non-negative offsets", "why_tests_cant": "Every model and every offset.", "anchors": ["src/f4enix/input/MCNPinput.py:renumber", "src/f4enix/input/MCNPinput.py:_update_card_keys"]}
{"id": "C17", "title": "Card dictionaries stay consistent with card names", "statement": "After any sequence of item assignments, deletions and whole-dictionary assignments on Input.cells / Input.surfs, each stored key names the number carried by the card stored there.", "quantifier": "all finite histories of dictionary operations", "why_tests_cant": "Histories are unbounded.", "anchors": ["src/f4enix/input/MCNPinput.py:CardsDict.__setitem__", "src/f4enix/input/MCNPinput.py:CardsDict.update", "src/f4enix/input/MCNPinput.py:cells", "src/f4enix/input/MCNPinput.py:surfs"]}
{"id": "C18", "title": "Material replacement touches exactly the selected cells", "statement": "replace_material changes exactly the cells that had the old material (and, when a universe list is given, lie in one of those universes), sets the requested material and density there, and leaves every other cell and every other property alone; replacing by material 0 makes the cells void without density.", "quantifier": "all models, all ids, densities and universe filters", "why_tests_cant": "Frame condition over all models.", "anchors": ["src/f4enix/input/MCNPinput.py:replace_material", "src/f4enix/input/MCNPinput.py:replace_cell_material", "src/f4enix/input/MCNPinput.py:set_cell_void"]}
{"id": "C19", "title": "Negative material ids are rejected", "statement": "replace_material refuses negative material identifiers for both the new and the old material. (False of the code for the old material.)", "quantifier": "all ids", "why_tests_cant": "Specific input class.", "anchors": ["src/f4enix/input/MCNPinput.py:replace_material"]}
{"id": "C20", "title": "Irradiation file keeps nsc consistent", "statement": "After any sequence of successful select/add-times/remove-time operations on a consistent D1S irradiation file, every daughter has exactly nsc time factors and the output format has nsc time columns; daughters keep their order.", "quantifier": "all files, all finite histories of operations", "why_tests_cant": "Histories are unbounded.", "anchors": ["src/f4enix/input/d1suned.py:IrradiationFile.add_irradiation_times", "src/f4enix/input/d1suned.py:IrradiationFile.remove_irradiation_time", "src/f4enix/input/d1suned.py:IrradiationFile.select_daughters_irradiation_file", "src/f4enix/input/d1suned.py:_update_irrformat"]}
{"id": "C21", "title": "A refused irradiation-time update changes nothing", "statement": "If add_irradiation_times or remove_irradiation_time raises, the irradiation file is unchanged. (True of adding to a non-empty file; for removal true only if all daughters have the same number of factors.)", "quantifier": "all files, all arguments, all failure points", "why_tests_cant": "Failure in the middle of a loop.", "anchors": ["src/f4enix/input/d1suned.py:add_irradiation_times", "src/f4enix/input/d1suned.py:remove_irradiation_time"]}
{"id": "C22", "title": "Daughter selection is a filter and reports completeness", "statement": "select_daughters_irradiation_file keeps exactly the irradiations of the requested daughters in their original order, is idempotent, and, for a file without repeated daughters and a request without repetition, returns True exactly when all requested daughters were present.", "quantifier": "all files, all requests", "why_tests_cant": "All lists.", "anchors": ["src/f4enix/input/d1suned.py:select_daughters_irradiation_file", "src/f4enix/input/d1suned.py:get_irrad", "src/f4enix/input/d1suned.py:get_daughters"]}
{"id": "C23", "title": "Irradiation file write/read round trip", "statement": "Writing an irradiation file whose fields fit their columns and parsing it back gives the same nsc, header, daughters, decay constants, time factors and comments.", "quantifier": "all irradiation files with well-formed fields narrower than their column", "why_tests_cant": "All field contents and numbers of schedules.", "anchors": ["src/f4enix/input/d1suned.py:IrradiationFile.write", "src/f4enix/input/d1suned.py:IrradiationFile.from_text", "src/f4enix/input/d1suned.py:Irradiation.from_text"]}
{"id": "C24", "title": "Reaction file write/read round trip", "statement": "Writing a reaction file and parsing it back gives the same parents, MT numbers, daughters and comments, for all reactions whose fields fit their columns.", "quantifier": "all reaction files with well-formed fields", "why_tests_cant": "All field contents.", "anchors": ["src/f4enix/input/d1suned.py:ReactionFile.write", "src/f4enix/input/d1suned.py:ReactionFile.from_text", "src/f4enix/input/d1suned.py:Reaction.from_text"]}
{"id": "C25", "title": "Parents list is sorted, duplicate free and complete", "statement": "get_parents returns the zaids (library stripped) of exactly the parents of the reactions, strictly increasing.", "quantifier": "all reaction files", "why_tests_cant": "All lists.", "anchors": ["src/f4enix/input/d1suned.py:ReactionFile.get_parents"]}
{"id": "C26", "title": "Changing the library of a reaction file only changes library tags", "statement": "change_lib never changes the number or order of reactions, the parent isotopes, MT, daughter or comment; it sets the library tag on every reaction whose parent is available in that library (all of them when no manager is given) and leaves the others alone; it is idempotent.", "quantifier": "all reaction files, libraries and availability tables", "why_tests_cant": "All files.", "anchors": ["src/f4enix/input/d1suned.py:ReactionFile.change_lib", "src/f4enix/input/d1suned.py:Reaction.change_lib"]}
{"id": "C27", "title": "Collapsing zaids preserves the composition", "statement": "Collapsing the zaids of a submaterial into elements keeps, for every zaid name, the sum of its fractions, leaves each name once per element, groups exactly the zaids of the same element, and preserves the total fraction.", "quantifier": "all zaid lists", "why_tests_cant": "All lists.", "anchors": ["src/f4enix/input/materials.py:Element.__init__", "src/f4enix/input/materials.py:SubMaterial._collapse_zaids", "src/f4enix/input/materials.py:Element.get_fraction"]}
{"id": "C28", "title": "Library translation preserves amounts", "statement": "Translating a submaterial preserves the total mass (mass fractions) of every zaid, even when a natural zaid is expanded into isotopes, and preserves atom fractions when abundances sum to one; a zaid is dropped only if it cannot be converted.", "quantifier": "all submaterials, all libraries and conversion tables", "why_tests_cant": "All tables and materials.", "anchors": ["src/f4enix/input/materials.py:SubMaterial.translate", "src/f4enix/input/libmanager.py:convertZaid"]}
{"id": "C29", "title": "Fraction switching is normalised and reversible", "statement": "switch_fraction('mass') on atom fractions gives negative fractions summing to -1, in proportion to fraction times mass; switch_fraction('atom') on mass fractions gives positive fractions summing to 1; switching to the current type is a no-op; switching there and back gives the normalised original.", "quantifier": "all materials with non-zero total, all positive atomic masses", "why_tests_cant": "All compositions.", "anchors": ["src/f4enix/input/materials.py:Material.switch_fraction", "src/f4enix/input/materials.py:get_tot_fraction"]}
{"id": "C30", "title": "Density and total atom density are inverse", "statement": "get_density(get_tad(d)) = d and get_tad(get_density(t)) = t for the same material, and both are proportional.", "quantifier": "all materials and densities", "why_tests_cant": "All values.", "anchors": ["src/f4enix/input/materials.py:get_tad", "src/f4enix/input/materials.py:get_density"]}
{"id": "C31", "title": "Generated mixtures have the requested shares", "statement": "generate_material gives each source material a total fraction equal to its requested percentage in the requested fraction type, so the total of the mixture is the sum of the percentages.", "quantifier": "all material lists, percentages, fraction types", "why_tests_cant": "All compositions.", "anchors": ["src/f4enix/input/materials.py:generate_material", "src/f4enix/input/materials.py:scale_fractions"]}
{"id": "C32", "title": "Zaid conversion decision logic", "statement": "convertZaid either refuses an unknown library, or returns only tables that exist in the requested library (or in the default one, or keeps the zaid in its old library for a special library), prefers the requested library whenever the zaid exists there, and expands a natural element only if no direct table exists; the expansion lists exactly the isotopes of the element.", "quantifier": "all tables, all zaids and libraries", "why_tests_cant": "All availability tables.", "anchors": ["src/f4enix/input/libmanager.py:convertZaid", "src/f4enix/input/libmanager.py:check4zaid"]}
{"id": "C33", "title": "Material list and material dictionary agree", "statement": "After any sequence of append/extend/remove on a material list, looking a material up by name (case-insensitive) finds a material of the list with that name, by index finds the list element, and length agrees; extend never adds a material whose name was already present.", "quantifier": "all finite histories", "why_tests_cant": "Histories unbounded.", "anchors": ["src/f4enix/input/materials.py:MatCardsList.append", "src/f4enix/input/materials.py:extend", "src/f4enix/input/materials.py:remove", "src/f4enix/input/materials.py:__getitem__", "src/f4enix/input/materials.py:_compute_dic"]}
{"id": "C34", "title": "RSSA track records decode exactly and partition by particle", "statement": "Reading the tracks of an RSSA file yields one 11-number row per record, equal to the payload of the record, and every track is either a neutron or a photon track, never both and never none.", "quantifier": "all track sections, of any number of records", "why_tests_cant": "All files.", "anchors": ["src/f4enix/output/rssa.py:_read_tracks", "src/f4enix/output/rssa.py:_read_fortran_record", "src/f4enix/output/rssa.py:mask_neutron_tracks", "src/f4enix/output/rssa.py:mask_photon_tracks", "src/f4enix/output/rssa.py:type"]}
{"id": "C35", "title": "RSSA current maps conserve weight", "statement": "Every track with coordinates on the mesh is assigned to a cell index inside the grid and the sum of the weights of the current map equals the sum of weights of the selected tracks.", "quantifier": "all track lists, all grids", "why_tests_cant": "All lists and grids.", "anchors": ["src/f4enix/output/rssa.py:_closest", "src/f4enix/output/rssa.py:_generate_figures_current_cyl"]}
{"id": "C36", "title": "MCTAL values are assigned independently of line breaks", "statement": "The values/errors of a tally read from an MCTAL file are the consecutive pairs of the number stream in the documented nested bin order, whatever the line layout (any even number of numbers per line).", "quantifier": "all bin counts, all streams, all line layouts", "why_tests_cant": "All layouts and bin structures.", "anchors": ["src/f4enix/output/mctal.py:_parseTally", "src/f4enix/output/mctal.py:_insertValue", "src/f4enix/output/mctal.py:_getValue", "src/f4enix/output/mctal.py:_getNbins"]}
{"id": "C37", "title": "Meshtal energy/time bin selection", "statement": "get_etbin_data returns exactly the requested energy/time slice, a negative index counts from the end, None keeps all the bins of that axis, the last index is the total bin when there is one, and any out-of-range index is refused.", "quantifier": "all meshes, all indices", "why_tests_cant": "All shapes and indices.", "anchors": ["src/f4enix/output/meshtal/fmesh.py:get_etbin_data"]}
{"id": "C38", "title": "Mesh label uniqueness", "statement": "The array labels created for the energy/time bins of a mesh are pairwise distinct and as many as the bins.", "quantifier": "all bin structures", "why_tests_cant": "All bin structures.", "anchors": ["src/f4enix/output/meshtal/aux_meshtal_functions.py:_get_labels"]}
{"id": "C39", "title": "Same-mesh relation", "statement": "sameMesh is reflexive and symmetric, implies equal geometry and equal numbers of bins, and a difference larger than the tolerance in any boundary is detected.", "quantifier": "all pairs of meshes", "why_tests_cant": "All meshes.", "anchors": ["src/f4enix/output/meshtal/fmesh.py:sameMesh"]}
{"id": "C40", "title": "Meshtal column and block data land in the right voxel", "statement": "Reading column or matrix format mesh data assigns each number of the file to the voxel, energy and time bin it belongs to.", "quantifier": "all mesh shapes", "why_tests_cant": "All shapes; index transpositions are invisible for cubic or single-bin tests.", "anchors": ["src/f4enix/output/meshtal/aux_meshtal_functions.py:_get_column_data", "src/f4enix/output/meshtal/aux_meshtal_functions.py:_get_block_data", "src/f4enix/output/meshtal/aux_meshtal_functions.py:_get_mesh_data"]}
{"id": "C41", "title": "Mass data filters", "statement": "Reading a meshinfo file gives for every mesh its axes and, per voxel and cell, the mass (volume x proportion x density, per revolution for cylindrical meshes); get_filtered_dataframe returns exactly the rows satisfying all given filters, in order, and get_cells_from_materials every cell of the given materials once.", "quantifier": "all files, tables and filters", "why_tests_cant": "All tables.", "anchors": ["src/f4enix/output/meshinfo.py:get_filtered_dataframe", "src/f4enix/output/meshinfo.py:get_cells_from_materials", "src/f4enix/output/meshinfo.py:_read_voxels", "src/f4enix/output/meshinfo.py:_read_cell_part"]}
{"id": "C42", "title": "Fispact pathways are well formed", "statement": "The pathways read from a FISPACT output are, in order, the paths printed between its two marks, with percentage, nuclides and reactions; every pathway with intermediates has one reaction more than intermediates and its text form alternates nuclides and reactions from parent to daughter.", "quantifier": "all pathway tables", "why_tests_cant": "All pathway lengths, continuation lines.", "anchors": ["src/f4enix/output/fispact_legacy_out.py:PathwayCollection.from_file", "src/f4enix/output/fispact_legacy_out.py:Pathway", "src/f4enix/output/fispact_legacy_out.py:__str__"]}
{"id": "C43", "title": "TFC statistical checks", "statement": "get_statistical_checks_tfc_bins reports for every tally with a results line the outcome of that tally and of no other.", "quantifier": "all output texts", "why_tests_cant": "All interleavings of lines.", "anchors": ["src/f4enix/output/MCNPoutput.py:get_statistical_checks_tfc_bins"]}
{"id": "C44", "title": "Warning filtering", "statement": "get_warnings does not report uninteresting warnings. (False of the code.)", "quantifier": "all outputs", "why_tests_cant": "All texts.", "anchors": ["src/f4enix/output/MCNPoutput.py:get_warnings"]}
{"id": "C45", "title": "Zaid number/name conversion round trip", "statement": "get_zaidnum(get_zaidname(z)) = z for every zaid of a known element, natural zaids included.", "quantifier": "all zaids", "why_tests_cant": "All numbers.", "anchors": ["src/f4enix/input/libmanager.py:get_zaidname", "src/f4enix/input/libmanager.py:get_zaidnum", "src/f4enix/input/libmanager.py:get_formulazaid"]}
{"id": "C46", "title": "The exported grid shows the current weight window", "statement": "After any history of operations on a loaded or generated weight window, the arrays written to VTK for a particle and energy bin are the window's current values and its current ratios, voxel by voxel, as long as no other energy bin of that particle is rendered with the same two-decimal label.", "quantifier": "all windows and all finite histories of multiply/soften/mitigate/add/remove operations", "why_tests_cant": "Values are mutated through one attribute and the grid is refreshed as a side effect; a missed refresh shows up only after particular histories.", "anchors": ["src/f4enix/input/ww_gvr/weight_window.py:values", "src/f4enix/input/ww_gvr/weight_window.py:_add_values_to_grid", "src/f4enix/input/ww_gvr/weight_window.py:_calculate_ratios", "src/f4enix/input/ww_gvr/weight_window.py:geometry"]}
{"id": "C47", "title": "The exported grid holds nothing about absent particles", "statement": "After any history of operations every array in the exported grid belongs to a particle of the window. (False of the code: remove_particle leaves the photon arrays in the grid; true of every history without remove_particle.)", "quantifier": "all windows and all histories", "why_tests_cant": "Depends on the history.", "anchors": ["src/f4enix/input/ww_gvr/weight_window.py:remove_particle", "src/f4enix/input/ww_gvr/geometry.py:fill_grid_values", "src/f4enix/input/ww_gvr/geometry.py:fill_grid_ratios"]}
{"id": "C48", "title": "Cylindrical voxels are drawn with their own value", "statement": "In the exported cylindrical grid (whose theta direction is refined for display) the displayed cell at theta position t, height j, radius i carries the value of the mesh voxel whose theta bin contains t, for every mesh size.", "quantifier": "all mesh sizes, all voxels", "why_tests_cant": "Index arithmetic over three dimensions with a size-dependent refinement factor.", "anchors": ["src/f4enix/input/ww_gvr/geometry.py:fill_grid_values", "src/f4enix/input/ww_gvr/geometry.py:_extend_theta_intervals"]}
{"id": "C49", "title": "Every data card that is read is kept", "statement": "Reading an input keeps every data card: each transformation, material, thermal/mixed card and other data card of the file is in the model exactly once and found under its shortened name. (False of the code when two cards share a shortened name, e.g. F124 and its dose function DF124; true otherwise.)", "quantifier": "all lists of data cards", "why_tests_cant": "Name collisions depend on the whole set of cards of the file.", "anchors": ["src/f4enix/input/MCNPinput.py:_parse_data_section", "src/f4enix/input/MCNPinput.py:_clean_card_name"]}
{"id": "C50", "title": "Data cards keep their name when keys are updated", "statement": "After renumber(update_keys=True) or merge(ensure_updated_dicts=True) a data card is still found under the name it had. (False of the code for tallies and starred transformations: F4 becomes F4:N; what holds is that every card is found under its first word.)", "quantifier": "all models and offsets", "why_tests_cant": "Ranges over all cards of all models.", "anchors": ["src/f4enix/input/MCNPinput.py:_update_card_keys", "src/f4enix/input/MCNPinput.py:_get_card_key", "src/f4enix/input/MCNPinput.py:renumber"]}
{"id": "C51", "title": "Density scaling touches exactly the non-void cells", "statement": "scale_densities(f) multiplies the density of every non-void cell by f, leaves void cells and all other properties of the cells alone.", "quantifier": "all models and factors", "why_tests_cant": "All cells of all models.", "anchors": ["src/f4enix/input/MCNPinput.py:scale_densities"]}
{"id": "C52", "title": "Reading cards keeps their text", "statement": "Reading a block of cards keeps all its text lines in order (comment cards are prepended to the card they precede), gives one entry per card under pairwise different keys and refuses duplicates with KeyError; the only text that can be lost is a comment card followed by another comment card or by no card at all.", "quantifier": "all lists of cards", "why_tests_cant": "All interleavings of comments and cards.", "anchors": ["src/f4enix/input/MCNPinput.py:_to_dict", "src/f4enix/input/MCNPinput.py:_get_card_key"]}
{"id": "C53", "title": "A merged model defines no surface number twice", "statement": "After a merge that returns normally no surface number is defined twice. (False of the code when a number is plain in one model and reflecting or white in the other; true when all surfaces are unmarked.)", "quantifier": "all pairs of models", "why_tests_cant": "Every overlap pattern must be considered.", "anchors": ["src/f4enix/input/MCNPinput.py:merge", "src/f4enix/input/MCNPinput.py:_safe_dict_update"]}
{"id": "C54", "title": "Translating to an unavailable library is refused", "statement": "Translating a submaterial to a library that is not available is refused, and no zaid is lost silently. (False of the code: the error of every zaid is caught and the zaid dropped, so an unavailable library yields an empty composition; an element unknown to the isotope table disappears.)", "quantifier": "all submaterials, library managers and target libraries", "why_tests_cant": "The tests only translate with available libraries.", "anchors": ["src/f4enix/input/materials.py:SubMaterial.translate", "src/f4enix/input/libmanager.py:convertZaid"]}
{"id": "C55", "title": "Density queries leave the material alone", "statement": "Asking a material for its density or its total atom density does not change the material. (False of the code: get_tad and get_density switch the fractions of the stored submaterials as a side effect.)", "quantifier": "all materials", "why_tests_cant": "A side effect on shared objects is only seen by comparing the whole object afterwards, for every material.", "anchors": ["src/f4enix/input/materials.py:Material.get_tad", "src/f4enix/input/materials.py:Material.get_density"]}
{"id": "C56", "title": "switch_fraction returns the switched submaterials", "statement": "Material.switch_fraction returns the list of switched submaterials whether or not it is done in place. (False of the code: with inplace=True the returned list is empty.)", "quantifier": "all materials", "why_tests_cant": "Holds for every material.", "anchors": ["src/f4enix/input/materials.py:Material.switch_fraction"]}
{"id": "C57", "title": "Element list and zaid list agree", "statement": "After any sequence of translations, fraction switches and scalings the element list of a submaterial (which is what is written) holds exactly the zaids of its zaid list, each once per element and name.", "quantifier": "all submaterials and histories", "why_tests_cant": "Two redundant representations updated separately by each operation.", "anchors": ["src/f4enix/input/materials.py:SubMaterial.translate", "src/f4enix/input/materials.py:SubMaterial._update_info", "src/f4enix/input/materials.py:Material.switch_fraction", "src/f4enix/input/materials.py:SubMaterial.scale_fractions"]}
{"id": "C58", "title": "Fractions to atom densities", "statement": "fractions_to_atom_densities gives positive fractions summing to the total atom density asked for, in proportion to the atom content of every zaid.", "quantifier": "all materials and densities", "why_tests_cant": "Exact proportionality over all compositions.", "anchors": ["src/f4enix/input/materials.py:Material.fractions_to_atom_densities"]}
{"id": "C59", "title": "Densities range", "statement": "get_densities_range collects for every non-void cell, under its material, the mass density of the cell if it is given as one, otherwise its atom density times the mean atomic mass of the material.", "quantifier": "all models", "why_tests_cant": "All cells of all models; every query rewrites the material used by the next ones.", "anchors": ["src/f4enix/input/MCNPinput.py:get_densities_range"]}
{"id": "C60", "title": "Geometric filters of plot_cyl are independent", "statement": "plot_cyl accepts an x_range or a z_range filter alone or both together. (False of the code: an x_range without a z_range is refused with an error for every file.)", "quantifier": "all track lists and filter combinations", "why_tests_cant": "Every combination of optional arguments over all track lists.", "anchors": ["src/f4enix/output/rssa.py:plot_cyl"]}
{"id": "C61", "title": "File names of the two RSSA plots", "statement": "plot_cyl with an output path writes the current map to <path>.jpeg and the error map to <path>_errors.jpeg. (False of the code.)", "quantifier": "all paths", "why_tests_cant": "Concerns every path and both plots.", "anchors": ["src/f4enix/output/rssa.py:plot_cyl"]}
{"id": "C62", "title": "Tally data frames hold every bin under its labels", "statement": "The data frame of a tally has, for every combination of bins, a row showing the labels of the bin and its value and error; it has no other rows than these and one total row per cell, and looking a bin up by the columns present gives its value.", "quantifier": "all tallies, with any number of bins on the eleven axes", "why_tests_cant": "Rows are built by eleven nested loops and then columns and rows are dropped; tests look at a few files.", "anchors": ["src/f4enix/output/mctal.py:Mctal._get_dfs", "src/f4enix/output/mctal.py:Tally._getValue"]}
{"id": "C63", "title": "Mesh coordinates are under their own name", "statement": "In the data frame of a mesh tally the columns Cor A, Cor B and Cor C hold the coordinates of the first, second and third axis. (False of the code: Cor A and Cor C are exchanged.)", "quantifier": "all mesh tallies", "why_tests_cant": "Holds or fails for every mesh.", "anchors": ["src/f4enix/output/mctal.py:Mctal._get_dfs"]}
{"id": "C64", "title": "Total bins of a tally", "statement": "totalbin holds for every tally with a total bin one row per cell with the total, and None for every other tally. (False of the code: a tally without total that follows one with a total may get an empty frame instead of None.)", "quantifier": "all sequences of tallies", "why_tests_cant": "Depends on the history of the tallies read before.", "anchors": ["src/f4enix/output/mctal.py:Mctal._get_dfs"]}
{"id": "C65", "title": "Error summary", "statement": "get_error_summary reports for every tally the smallest and largest relative error and, on request, the absolute errors. (False of the code: it raises when a duplicate row was dropped, and the absolute error column holds the tally value.)", "quantifier": "all tallies", "why_tests_cant": "Depends on which rows were dropped before.", "anchors": ["src/f4enix/output/mctal.py:Mctal.get_error_summary"]}
{"id": "C66", "title": "Grid points are where the mesh is", "statement": "The points of the grid of a mesh are the positions of the bin boundaries in the model: for a rectangular mesh the boundaries moved by its transformation, for a cylindrical mesh the points at the given radius, height and angle about its axis. (False of the code for cylindrical meshes whose axis is not z: the axis is ignored, or the reading refused for MCNP5 files; and moved rectangular source meshes are refused.)", "quantifier": "all meshes, axes, transformations", "why_tests_cant": "All positions and orientations; a wrong rotation still gives a grid of the right size.", "anchors": ["src/f4enix/output/meshtal/aux_meshtal_functions.py:_rectilinear_grid", "src/f4enix/output/meshtal/aux_meshtal_functions.py:_structured_grid", "src/f4enix/output/meshtal/aux_meshtal_functions.py:_get_rotation_matrix", "src/f4enix/output/meshtal/aux_meshtal_functions.py:_get_transformation"]}
{"id": "C67", "title": "Splitting of wide angular bins keeps the values", "statement": "When a cylindrical mesh has too few angular bins to be drawn, its bins are split; the mesh read back at any point of the old bins has the old value, boundaries stay ascending, and splitting again changes nothing.", "quantifier": "all cylindrical meshes and data", "why_tests_cant": "All bin structures.", "anchors": ["src/f4enix/output/meshtal/aux_meshtal_functions.py:_structured_grid"]}
{"id": "C68", "title": "Filtered mesh is the mesh restricted to its bins", "statement": "create_filtered_mesh returns a mesh at the same place, with the requested energy and time bins only and their values. (False of the code when the mesh has a transformation: the result is not moved.)", "quantifier": "all meshes and filters", "why_tests_cant": "All meshes with and without transformation.", "anchors": ["src/f4enix/output/meshtal/meshtal.py:create_filtered_mesh"]}
{"id": "C69", "title": "Collapsed grids", "statement": "collapse_grids puts the values and errors of each given mesh in one grid under the given names, provided they are the same mesh. (The place is that of the first mesh: meshes with equal bins but different transformations are accepted.)", "quantifier": "all meshes", "why_tests_cant": "All combinations of meshes.", "anchors": ["src/f4enix/output/meshtal/meshtal.py:collapse_grids"]}
{"id": "C70", "title": "print_info reports the bins", "statement": "The information printed for a mesh shows its own boundaries on all three axes. (False of the code: the first axis is shown three times.)", "quantifier": "all meshes", "why_tests_cant": "Needs meshes whose axes differ.", "anchors": ["src/f4enix/output/meshtal/fmesh.py:print_info"]}
{"id": "C71", "title": "Conversion of one-dimensional meshes", "statement": "convert2tally gives, for a mesh with bins on one axis only, one row per bin with its boundary, value and error, in order, and refuses meshes with more axes. (False of the code for cylinders with two angular bins and for several times.)", "quantifier": "all meshes", "why_tests_cant": "All shapes.", "anchors": ["src/f4enix/output/meshtal/fmesh.py:convert2tally"]}
{"id": "C72", "title": "Transformations of grids are rigid", "statement": "apply_transformation moves all points by the translation of the card, or by its rotation followed by its translation, keeping all distances; cards that are no transformations are refused.", "quantifier": "all cards whose matrix, if they have one, is orthonormal, and all grids", "why_tests_cant": "All orientations.", "anchors": ["src/f4enix/output/meshtal/fmesh.py:apply_transformation"]}
{"id": "C73", "title": "Values of cell-under-voxel meshes", "statement": "Reading a cell-under-voxel file gives every voxel the fraction-weighted value of the cells asked for: total over the voxel with ctot, mean over the selected cells with celf, zero when none of them is in the voxel, with the errors added with the same weights.", "quantifier": "all files, filters and normalisations", "why_tests_cant": "Any number of cells per voxel and any filter.", "anchors": ["src/f4enix/output/meshtal/aux_meshtal_functions.py:_get_cuv_element", "src/f4enix/output/meshtal/aux_meshtal_functions.py:_get_mean_value", "src/f4enix/output/meshtal/aux_meshtal_functions.py:_get_CUVmesh_data"]}
{"id": "C74", "title": "Cell-under-voxel files can be read with default arguments", "statement": "readMesh with no normalisation reads a cell-under-voxel mesh. (False of the code: it raises for every file.)", "quantifier": "all files", "why_tests_cant": "The repository test of this loops over an empty dictionary.", "anchors": ["src/f4enix/output/meshtal/aux_meshtal_functions.py:_get_cuv_element"]}
{"id": "C75", "title": "Totals of cell-under-voxel files", "statement": "When the total over energies is given in the line of the cell, it is used as the total bin. (False of the code: such files are refused.)", "quantifier": "all files", "why_tests_cant": "Every file with several energies and totals apart.", "anchors": ["src/f4enix/output/meshtal/aux_meshtal_functions.py:_get_cuv_element"]}
{"id": "C76", "title": "Source meshes", "statement": "Reading a decay gamma source mesh gives the voxels listed in the file their values and zero to all others. (A voxel listed with zero fractions makes the reading fail.)", "quantifier": "all files with voxels in ascending order", "why_tests_cant": "Any subset of voxels may be listed.", "anchors": ["src/f4enix/output/meshtal/aux_meshtal_functions.py:_get_cdgs_element", "src/f4enix/output/meshtal/aux_meshtal_functions.py:_get_CDGSmesh_data"]}
{"id": "C77", "title": "Comparison of mesh information", "statement": "Two mesh informations compare equal exactly if they have the same coordinates, axes, masses and position, and unequal otherwise. (False of the code: comparing two meshes with different numbers of bins raises.)", "quantifier": "all pairs of meshes", "why_tests_cant": "All pairs of sizes.", "anchors": ["src/f4enix/output/meshinfo.py:MeshInfo.__eq__"]}
{"id": "C78", "title": "Mesh information survives saving", "statement": "A mesh information that is saved and loaded is the same, whatever was in the folder before. (False of the code for meshes without masses: those of an older save are loaded.)", "quantifier": "all meshes and folder contents", "why_tests_cant": "Depends on the history of the folder.", "anchors": ["src/f4enix/output/meshinfo.py:MeshInfo.save", "src/f4enix/output/meshinfo.py:MeshInfo.load", "src/f4enix/output/meshinfo.py:MeshInfoCyl.save"]}
{"id": "C79", "title": "Continued FISPACT paths", "statement": "A path that is continued on a second line is read as the chain it shows. (False of the code: the nuclide at the break appears twice, with a reaction to itself.)", "quantifier": "all continued paths", "why_tests_cant": "Needs the layout of long paths; the only test asserts the wrong number of intermediates.", "anchors": ["src/f4enix/output/fispact_legacy_out.py:PathwayCollection.from_file"]}
{"id": "C80", "title": "Warnings are counted exactly", "statement": "get_warnings lists every warning text once, with the number of lines of the output that carry that warning; with collapse=True the warnings on unused and on replaced surfaces are counted under one text each, in the order of the texts.", "quantifier": "all outputs", "why_tests_cant": "All multisets of lines.", "anchors": ["src/f4enix/output/MCNPoutput.py:get_warnings"]}
{"id": "C81", "title": "Fatal errors", "statement": "get_fatal_errors returns, in order, the message of every fatal-error line and of no other line.", "quantifier": "all outputs", "why_tests_cant": "All texts.", "anchors": ["src/f4enix/output/MCNPoutput.py:get_fatal_errors"]}
{"id": "C82", "title": "Lost particle table", "statement": "get_lp_debug_df has one row per lost-particle record of the output, in order, with that record's surface, cell, position, direction and (with an input) universe; a truncated record is an error, never a missing row.", "quantifier": "all outputs with any number of records", "why_tests_cant": "Interleavings of records and other lines of any length.", "anchors": ["src/f4enix/output/MCNPoutput.py:get_lp_debug_df"]}
{"id": "C83", "title": "Lost particle totals", "statement": "get_tot_lp is the number on the last lost-particle line, get_NPS the number three lines below the creation heading, get_LPR their quotient; (observed) a run without lost particles makes get_LPR raise TypeError instead of giving 0.", "quantifier": "all outputs", "why_tests_cant": "All texts.", "anchors": ["src/f4enix/output/MCNPoutput.py:get_tot_lp", "src/f4enix/output/MCNPoutput.py:get_NPS", "src/f4enix/output/MCNPoutput.py:get_LPR"]}
{"id": "C84", "title": "Statistical checks of one tally", "statement": "get_tally_stat_checks(n) returns the table of tally n and never that of another tally whose number ends in the same digits; blank figure-of-merit columns are put right; a tally without a table raises ValueError.", "quantifier": "all outputs, all tally numbers", "why_tests_cant": "All pairs of tally numbers and orders of tables.", "anchors": ["src/f4enix/output/MCNPoutput.py:get_tally_stat_checks"]}
{"id": "C85", "title": "Summary of statistical checks", "statement": "get_stat_checks_table has exactly one row per tally of the brief section, ordered by tally number, with that tally's own checks and outcome; NaN only for tallies that are all zeros.", "quantifier": "all outputs", "why_tests_cant": "Combines two sections in any order.", "anchors": ["src/f4enix/output/MCNPoutput.py:get_stat_checks_table"]}
{"id": "C86", "title": "Tally descriptions", "statement": "assign_tally_description gives every tally its own description. (False of the code when a tally is not in the list: it gets the description of the previous one.)", "quantifier": "all results and tally lists", "why_tests_cant": "Depends on the order of the results.", "anchors": ["src/f4enix/output/MCNPoutput.py:assign_tally_description"]}
{"id": "C87", "title": "Printed tables", "statement": "get_table(n) reads the rows of table n, cut into their columns. (False of the code: the number is not delimited, so that get_table(6) reads table 60; a line that begins with a word loses its first column.)", "quantifier": "all outputs and table numbers", "why_tests_cant": "All numbers with a common beginning.", "anchors": ["src/f4enix/output/MCNPoutput.py:get_table", "src/f4enix/output/MCNPoutput.py:_get_fwf_format_from_string"]}
{"id": "C88", "title": "Code version", "statement": "get_code_version finds the version stated in the header. (False of the code: MCNP versions are only looked for in the first line, and zeros are stripped, so that 10 becomes 1.)", "quantifier": "all headers", "why_tests_cant": "All headers.", "anchors": ["src/f4enix/output/MCNPoutput.py:get_code_version"]}
{"id": "C89", "title": "Adding a surface to a cell", "statement": "add_surface makes the region of a cell the intersection (mode intersect) or the union (mode union) of its old region and the chosen side of the surface, whatever unions, complements and parentheses the geometry has; number, material, density and parameters are printed as before; any sequence of such edits composes. A card whose material and density are not on its first line is refused with IndexError.", "quantifier": "all cell cards with their header on the first line, all geometries, surfaces and sequences of edits", "why_tests_cant": "Operator precedence makes a missing parenthesis wrong only for some geometries; geometries are unbounded.", "anchors": ["src/f4enix/input/MCNPinput.py:add_surface", "src/f4enix/input/MCNPinput.py:_add_symbol_to_cell_input"]}
{"id": "C90", "title": "Hashing cells", "statement": "hash_cell subtracts the region of the other cell from the region of the cell; hash_multiple_cells does so for every listed pair and leaves all other cells alone.", "quantifier": "all cells, all hash dictionaries", "why_tests_cant": "All geometries and all dictionaries.", "anchors": ["src/f4enix/input/MCNPinput.py:hash_cell", "src/f4enix/input/MCNPinput.py:hash_multiple_cells", "src/f4enix/input/MCNPinput.py:_add_symbol_to_cell_input"]}
{"id": "C91", "title": "Union of cells", "statement": "cells_union replaces the listed cells by one cell, stored and numbered as requested, whose region is the union of the regions of all of them, with the material and parameters of the first; all other cells are untouched. (False of the code when another cell already has the requested number - it is overwritten -, when one cell is listed - it keeps its old number -, and when a number is listed twice - the cells are lost with a KeyError.)", "quantifier": "all models, lists of cells and numbers", "why_tests_cant": "All geometries, lengths of lists and numbers.", "anchors": ["src/f4enix/input/MCNPinput.py:cells_union"]}
{"id": "C92", "title": "Adding universe or filling", "statement": "add_cell_fill_u adds exactly the keyword with the given number: number, header, geometry and the other parameters are printed as before; a cell that has the keyword with a non-zero number is refused.", "quantifier": "all cell cards, both keywords, all numbers", "why_tests_cant": "Numbers are kept apart from the text and must stay aligned with it.", "anchors": ["src/f4enix/input/MCNPinput.py:add_cell_fill_u"]}
{"id": "C93", "title": "Removing the universe", "statement": "remove_u removes the universe of a cell and nothing else. (False of the code when there is a blank between = and the number: the number goes, the text stays, and the following numbers are printed in the wrong place.)", "quantifier": "all cell cards", "why_tests_cant": "Numbers are kept apart from the text and must stay aligned with it.", "anchors": ["src/f4enix/input/MCNPinput.py:remove_u"]}
{"id": "C94", "title": "Sector extraction: graveyard and outer cell", "statement": "Extracting sectors of E-Lite cuts the outer cell with the first boundary plane of the first sector and the second of the last, and gives the other sides to the graveyard, whatever their geometry; graveyard and outer cell stay disjoint and together still cover what they covered. Without sectors the call fails.", "quantifier": "all lists of sectors, all geometries of the two cells", "why_tests_cant": "Geometries and lists are unbounded; precedence of union and intersection.", "anchors": ["src/f4enix/input/elite.py:_modify_graveyard"]}
{"id": "C95", "title": "Sector extraction: angles and source", "statement": "The boundary angles are the lower angle of the first and the upper angle of the last sector requested; the tables tile the circle; the new source lists the plasma cells of all requested sectors in order, each with a weight proportional to its angle.", "quantifier": "all lists of sectors", "why_tests_cant": "All lists.", "anchors": ["src/f4enix/input/elite.py:_get_boundaries_angles", "src/f4enix/input/elite.py:_set_sdef", "src/f4enix/constants.py:SECTOR_BOUNDARIES_ANGLES", "src/f4enix/constants.py:SECTOR_BOUNDARIES", "src/f4enix/constants.py:PLASMA_CELLS"]}
{"id": "C96", "title": "Sector extraction: periodic planes", "statement": "Every surface of the envelopes that lies along a boundary angle within the tolerance gets one star, every other surface is untouched. (False of the code when the sectors make the full circle: lower and upper angle coincide and the plane gets two stars.)", "quantifier": "all surfaces, angles, tolerances and transformations", "why_tests_cant": "Depends on real arithmetic and on all planes of the model.", "anchors": ["src/f4enix/input/elite.py:_set_boundaries", "src/f4enix/input/elite.py:_check_tol", "src/f4enix/input/elite.py:_modify_boundary"]}
{"id": "C97", "title": "Sector extraction: inner planes move outwards", "statement": "Planes of the universes that lie along a boundary are moved outwards by twice the tolerance, so that they do not coincide with the envelope. (False of the code for planes whose normal points the other way: they are moved inwards.)", "quantifier": "all planes, angles and tolerances", "why_tests_cant": "The sign is a product of three conditions that depend on quadrant, side and normal.", "anchors": ["src/f4enix/input/elite.py:_modify_boundary"]}
{"id": "C98", "title": "Potential activation paths", "statement": "get_potential_paths lists exactly the reactions that the activation file foresees for the nuclides of the materials of the model, each once, sorted, with the activation library on the parent and 900 appended to metastable daughters. (The list of a parent silently ends at the first daughter that the isotope table does not know.)", "quantifier": "all models, activation files and libraries", "why_tests_cant": "All materials and tables.", "anchors": ["src/f4enix/input/MCNPinput.py:D1S_Input.get_potential_paths", "src/f4enix/input/libmanager.py:LibManager.get_reactions"]}
{"id": "C99", "title": "Reaction file of a D1S input", "statement": "get_reaction_file selects of the potential paths exactly those whose daughter has an irradiation schedule; the input is changed only when asked; without irradiation file the call is refused. The PIKMT card lists exactly the parents of the reaction file, sorted, once each, and replaces no other card.", "quantifier": "all inputs", "why_tests_cant": "All combinations of materials, tables and schedules.", "anchors": ["src/f4enix/input/MCNPinput.py:D1S_Input.get_reaction_file", "src/f4enix/input/MCNPinput.py:D1S_Input.add_PIKMT_card"]}
{"id": "C100", "title": "Smart translation of a D1S input", "statement": "smart_translate gives every nuclide that is a parent in the reaction file the activation library and every other one the transport library, and translates reaction file and PIKMT card accordingly. (False of the code when both libraries have the same name: the call fails after reaction file and PIKMT card were changed.)", "quantifier": "all inputs, libraries and library managers", "why_tests_cant": "Two dictionaries and three nested loops must agree for every material.", "anchors": ["src/f4enix/input/MCNPinput.py:D1S_Input.smart_translate", "src/f4enix/input/materials.py:SubMaterial.translate"]}
{"id": "C101", "title": "Tracking contributions", "statement": "add_track_contribution appends to exactly that tally the FU card with its number, bin 0 and one bin per nuclide (negative for parents); other cards stay. (Observed: a refused who leaves an unfinished FU card behind.)", "quantifier": "all tallies and lists of nuclides", "why_tests_cant": "All inputs.", "anchors": ["src/f4enix/input/MCNPinput.py:D1S_Input.add_track_contribution"]}
{"id": "C102", "title": "A MCTAL file is read exactly", "statement": "Reading a MCTAL file with any number of tallies (cell, surface, detector, radiograph and mesh) succeeds and gives the header and, in order, one tally per tally of the file, with its numbers, particles, comment, cells, bin counts, total marks, flags, boundaries, values, errors and fluctuation chart exactly as in the file, whatever the line breaks.", "quantifier": "all MCTAL files of the documented layout, any number and size of tallies", "why_tests_cant": "The reader is one long pass with state carried from section to section; tests read a dozen files.", "anchors": ["src/f4enix/output/mctal.py:Mctal._read", "src/f4enix/output/mctal.py:Mctal._getHeaders", "src/f4enix/output/mctal.py:Mctal._parseTally", "src/f4enix/output/mctal.py:Mctal._getTallies"]}
{"id": "C103", "title": "Every value of the file is in the data frame", "statement": "Every bin of a tally in the file that is not a total has a row in the data frame with the boundaries of the file and the pair of numbers at its position. (False of the code for radiographs: the last two columns of the image are in no row, because three boundaries are dropped instead of one.)", "quantifier": "all tallies and bins", "why_tests_cant": "Composition of reader and frame for all sizes.", "anchors": ["src/f4enix/output/mctal.py:Mctal._parseTally", "src/f4enix/output/mctal.py:Mctal._get_dfs"]}
{"id": "C104", "title": "Adding a tally", "statement": "add_F_tally sets exactly the cards asked for - F with particles, cells in order and total, E with the energies, FC, SD, FM - and leaves every other card and the earlier tallies alone; the SD card stands for one divisor per entry. (False of the code: a third particle is ignored and a second particle of several letters is spelled letter by letter; without cells the SD card is 1 -1R; without particles the number is registered although the call fails; overwriting keeps the old E, FC and FM cards.)", "quantifier": "all inputs, numbers, cells, particles and options", "why_tests_cant": "All combinations of options and all texts.", "anchors": ["src/f4enix/input/MCNPinput.py:add_F_tally"]}
{"id": "C105", "title": "Summary of the tallies", "statement": "get_tally_summary has one row per tally, sorted by number, made of the cards of exactly that number; a tally added with add_F_tally appears with its particles, description and multipliers, and the rows of the others do not change. (False of the code: a tally of other particles than n and p makes the whole summary fail; the tally's tag is deleted from its description; FMESHn is taken as multiplier of Fn; an empty FM card and an input without tallies raise.)", "quantifier": "all inputs", "why_tests_cant": "Card names share beginnings and endings; all texts.", "anchors": ["src/f4enix/input/MCNPinput.py:get_tally_summary", "src/f4enix/input/MCNPinput.py:_get_tally_cards", "src/f4enix/input/MCNPinput.py:_retrieve_input", "src/f4enix/input/MCNPinput.py:_retrieve_FM"]}
{"id": "C106", "title": "Stop card", "statement": "add_stopCard sets the NPS card to the number of histories rounded towards zero and changes no other card.", "quantifier": "all inputs and numbers", "why_tests_cant": "All numbers.", "anchors": ["src/f4enix/input/MCNPinput.py:add_stopCard"]}
{"id": "C107", "title": "Summary of the cells", "statement": "get_cells_summary has exactly one row per cell, with that cell's material, density, universe and filler, sorted by number; without cells, or with a cell whose key is no number, it raises.", "quantifier": "all sets of cells", "why_tests_cant": "All inputs.", "anchors": ["src/f4enix/input/MCNPinput.py:get_cells_summary"]}
{"id": "C108", "title": "A written input has exactly three blocks", "statement": "Writing an input gives a file that the blank lines divide into exactly three blocks: the header (a comment if there is none) followed by the cell cards, the surface cards, and the data (transformations, materials, other cards). Each block holds, in order, exactly the visible lines of its cards, without carriage returns; blank lines inside a card are removed; nothing else is written. (False of the code for a card whose first line is blank: it adds a block.)", "quantifier": "all inputs: any header, any number of cards of any text, with or without materials", "why_tests_cant": "Where blank lines, carriage returns and newlines at the ends of cards may stand is unbounded; a file splits wrongly at any of them.", "anchors": ["src/f4enix/input/MCNPinput.py:Input.write", "src/f4enix/input/MCNPinput.py:Input.write_blocks", "src/f4enix/input/MCNPinput.py:Input._print_cards", "src/f4enix/input/MCNPinput.py:PAT_BLANK_LINE"]}
{"id": "C109", "title": "Material cards are read as they stand", "statement": "Reading the text of a material card gives its name, the comment lines above it as header, and one submaterial for the part under the name and for each part under a comment of its own, with exactly the zaids, fractions and keywords of its lines in order. (False of the code for a pair broken over two lines, for indented comments, for keywords under the name without zaids, and for a comment at the end of the card.)", "quantifier": "all material cards: any number of comments, lines, parts, zaids per line, keywords, carriage returns, comments behind $", "why_tests_cant": "Cards come in unboundedly many layouts; each part of the line parser must agree on all of them.", "anchors": ["src/f4enix/input/materials.py:Material.from_text", "src/f4enix/input/materials.py:SubMaterial.from_text", "src/f4enix/input/materials.py:_readLine"]}
{"id": "C110", "title": "A written material is read back", "statement": "Writing a material and reading the text again gives the same name (in capitals), header, parts with their comments, zaids and keywords; only the fractions change, to those written. The text of several materials is the text of each in order, has no blank line, and keeps the file of the input in its blocks. (False of the code when a part other than the first has no comment: it is read back as belonging to the part before.)", "quantifier": "all materials with parts of any number and size", "why_tests_cant": "The reader and the writer are separate code; agreement must hold for every material.", "anchors": ["src/f4enix/input/materials.py:Material.to_text", "src/f4enix/input/materials.py:SubMaterial.to_text", "src/f4enix/input/materials.py:Zaid.to_text", "src/f4enix/input/materials.py:MatCardsList.to_text", "src/f4enix/input/materials.py:Material.from_text"]}
{"id": "C111", "title": "Filtering decay pathways keeps exactly the matching rows", "statement": "For every library of pathways and every request (spectra, dose threshold 95 or 99, materials, cooling times; none meaning all), PathwayLibrary.filter_pathways returns exactly the rows of the library with the requested dose level, one of the requested spectra and one of the requested materials that have a value at one of the requested cooling times, with their values at those times in the order of the request; a request with an unknown spectrum, material, time or dose is a ValueError, and nothing else is.", "quantifier": "all pathway tables, all requests", "why_tests_cant": "The tests use the shipped table and a few requests; which rows are kept must hold for every combination of table and request.", "anchors": ["src/f4enix/output/decay_pathways.py:PathwayLibrary.filter_pathways"]}
{"id": "C112", "title": "The table of pathways holds one row per pathway with the maxima, ordered by nuclide", "statement": "For every library and request, a table returned by PathwayLibrary.get_pathways has exactly one row per element, isotope and pathway with a selected row; at each requested time its value is the greatest among all selected rows (missing only if all are missing); the rows are ordered by element number, then mass number; a request that selects nothing gives an empty table.", "quantifier": "all pathway tables, all requests, all element tables", "why_tests_cant": "Tests compare the length of the result for the shipped table; maxima, uniqueness and order range over all tables.", "anchors": ["src/f4enix/output/decay_pathways.py:PathwayLibrary.get_pathways", "src/f4enix/output/decay_pathways.py:_sort_df_byzaidnum"]}
{"id": "C113", "title": "Making a library of pathways keeps the rows and does not change the table given", "statement": "For every table of pathways, the library made from it has exactly the rows of the table, the isotope being followed by its state; the table of the caller can be used again.", "quantifier": "all pathway tables", "why_tests_cant": "A test makes one library; the effect on the caller's table and the rows for every state need a proof.", "anchors": ["src/f4enix/output/decay_pathways.py:PathwayLibrary.__init__"]}
{"id": "C114", "title": "Reading an XSDIR file gives every table in order", "statement": "For every XSDIR file of the usual layout (first line, title, atomic weight ratios, the line 'directory', one entry per table, an entry possibly continued on the next line by '+'), Xsdir holds exactly the tables of the file in its order with all attributes of each, and for each zaid the last ratio given; a blank line behind the entries ends the reading.", "quantifier": "all files of the layout, any number of tables and continuations", "why_tests_cant": "Which fields an entry has depends on its number of words and continuations; tests read one or two shipped files.", "anchors": ["src/f4enix/input/xsdirpyne.py:Xsdir.__init__", "src/f4enix/input/xsdirpyne.py:Xsdir.read"]}
{"id": "C115", "title": "Searches in an XSDIR find exactly the tables asked for", "statement": "For every directory of tables named zaid.suffix, find_table (default) gives exactly the tables of the zaid in the order of the file, 'default-fast' their suffixes, 'exact' and zaid_has_table say exactly whether the table is there, find_zaids gives exactly the tables of a library.", "quantifier": "all directories, zaids and library suffixes", "why_tests_cant": "The searches cut names at fixed places or at dots; whether they agree for every name and suffix length is not settled by the files of the tests.", "anchors": ["src/f4enix/input/xsdirpyne.py:Xsdir.find_table", "src/f4enix/input/xsdirpyne.py:Xsdir.zaid_has_table", "src/f4enix/input/xsdirpyne.py:Xsdir._precompute_available_libs", "src/f4enix/input/xsdirpyne.py:Xsdir.find_zaids"]}
{"id": "C116", "title": "Metastable tables are recognised", "statement": "The metastable flag of a table of a nuclide is 0 for the ground state and 1 for every metastable state, with the exchanged numbers of Am-242.", "quantifier": "all element numbers, mass numbers and states", "why_tests_cant": "Tests look at a few actinides; the flag is computed from a threshold on the mass number.", "anchors": ["src/f4enix/input/xsdirpyne.py:XsdirTable.metastable"]}
{"id": "C117", "title": "The file of a nuclide is the one the directory names", "statement": "For every directory, the ACE file used for a zaid and suffix is the one of the first table of that name; there is none exactly if the directory has no such table.", "quantifier": "all directories of tables", "why_tests_cant": "Tests look up single nuclides of one library.", "anchors": ["src/f4enix/input/ace.py:_xsdir_to_ace_filepaths"]}
{"id": "C118", "title": "Cross sections of combined reactions are sums of their parts", "statement": "For every nuclide and every reaction type, the cross section at an energy is the sum of the cross sections of its components, absent reactions counting zero; with the lethargy gain the sum is multiplied by it; the yield-weighted one is multiplied by the neutrons of the products.", "quantifier": "all nuclides, reaction lists, energies", "why_tests_cant": "Real nuclear data are not in the tests for most reaction types; the combination must hold for every list of components.", "anchors": ["src/f4enix/input/ace.py:_continuous_energy_xs_nuclide", "src/f4enix/input/ace.py:Combination.__call__"]}
{"id": "C119", "title": "The nearest temperature is used", "statement": "Of the temperatures of a library the one used for a requested temperature is in the library, and no other one is nearer.", "quantifier": "all temperatures, all libraries", "why_tests_cant": "Rounding and ties appear only for particular temperatures.", "anchors": ["src/f4enix/input/ace.py:_continuous_energy_xs_nuclide"]}
{"id": "C120", "title": "The cross section of a material is the weighted sum over its nuclides", "statement": "For every material, reaction and energy, get_xs gives the sum of the atom fraction times the cross section of each nuclide.", "quantifier": "all materials, reactions and energies", "why_tests_cant": "Tests compare only pure or single values; the pairing of fraction and nuclide must hold for every list of nuclides.", "anchors": ["src/f4enix/input/ace.py:_get_xs_zaid_list", "src/f4enix/input/ace.py:get_xs"]}
{"id": "C121", "title": "Group cross sections are averages over the group", "statement": "For every group structure, get_xs with groups returns for each group a value between the least and the greatest cross section in it, and a constant cross section unchanged. (False of the code at zero energy, at the lowest energy of the table and for one integration point.)", "quantifier": "all increasing energy structures, all cross sections", "why_tests_cant": "An average over arbitrary structures; tests use one structure.", "anchors": ["src/f4enix/input/ace.py:get_xs"]}
{"id": "C122", "title": "Sampling errors of a cell-under-voxel file are read for every voxel and cell", "statement": "For every cell-under-voxel mesh file, get_volume_sampling_error_from_cuv returns for every voxel of the file (counted from 0) the error of each of its cells, and nothing else.", "quantifier": "all files, any number of voxels and cells", "why_tests_cant": "The reader walks by counts given in the file and stops at the first short line; tests use one file.", "anchors": ["src/f4enix/output/cuv_sampling_error.py:get_volume_sampling_error_from_cuv", "src/f4enix/output/cuv_sampling_error.py:_read_cuv_data", "src/f4enix/output/cuv_sampling_error.py:_read_voxel"]}
{"id": "C123", "title": "The sampling error is the relative deviation of the sampled volume", "statement": "For every partial volume and number of points, the error is the relative standard deviation of a binomial count, and the array added to the grid has for each voxel the greatest error of its cells, 0 for voxels that are not in the file.", "quantifier": "all partial volumes in [0,1], all numbers of points, all grids", "why_tests_cant": "A formula over real numbers with a singular end point.", "anchors": ["src/f4enix/output/cuv_sampling_error.py:calculate_volume_sampling_error", "src/f4enix/output/cuv_sampling_error.py:add_sampling_error_to_vtk"]}
{"id": "C124", "title": "The mesh of an eeout file is read as it stands", "statement": "For every eeout file of MCNP's layout (first or second order tetrahedra, element ordered), EEOUT's grid has exactly the points of the file, for each element its nodes (counted from 0) in the order of the file, and the name of its material.", "quantifier": "all files of the layout, any number of points, elements, materials, edits and any breaking into lines", "why_tests_cant": "Numbers run over many lines and sections are recognised by words in the lines; tests read two shipped files.", "anchors": ["src/f4enix/output/eeout.py:EEOUT.__init__", "src/f4enix/output/eeout.py:EEOUT._read_nodes_xyz", "src/f4enix/output/eeout.py:EEOUT._read_material", "src/f4enix/output/eeout.py:EEOUT._read_connectivity", "src/f4enix/output/eeout.py:EEOUT._get_materials_name"]}
{"id": "C125", "title": "Results of the edits of an eeout file", "statement": "For every eeout file of the layout, the grid has for every edit, under its name, the values and the relative errors of each of its bins, and the densities and volumes of the elements.", "quantifier": "all files of the layout, any number of edits and bins", "why_tests_cant": "Tests look at single values of files with one bin per edit.", "anchors": ["src/f4enix/output/eeout.py:EEOUT._read_edits", "src/f4enix/output/eeout.py:EEOUT._read_rho_vol"]}
{"id": "C126", "title": "Results of an eeout file lie on the elements", "statement": "For every eeout file of the layout every array of the grid (material, density, volume, results) is attached to the cells.", "quantifier": "all files of the layout, all numbers of points and elements", "why_tests_cant": "Only meshes with particular sizes show it.", "anchors": ["src/f4enix/output/eeout.py:EEOUT.__init__"]}
{"id": "C127", "title": "Cells of an eeout grid have the type of the elements", "statement": "For every eeout file of the layout the cells have the VTK type with the number of nodes of the elements of the file.", "quantifier": "all files of the layout with tetrahedra of first or second order", "why_tests_cant": "Tests with second order elements do not look at the type of the cells.", "anchors": ["src/f4enix/output/eeout.py:EEOUT.__init__"]}
{"id": "C128", "title": "Truncated and unsupported eeout files are refused", "statement": "For every file that lacks one of the lines that end a section, no grid is made: an error is raised; so it is for meshes with both kinds of tetrahedra or none and for connectivities ordered by nodes.", "quantifier": "all lists of lines", "why_tests_cant": "A crash of MCNP can end a file at any line.", "anchors": ["src/f4enix/output/eeout.py:EEOUT.__init__", "src/f4enix/output/eeout.py:EEOUT._read_info", "src/f4enix/output/eeout.py:EEOUT._read_particle_list", "src/f4enix/output/eeout.py:EEOUT._read_connectivity"]}
{"id": "C129", "title": "Operations of the menu work on copies", "statement": "In every session of the weight window menu, an operation (soften, add, remove, mitigate) leaves the selected window as it was and stores the result, computed with the numbers typed in the order asked, under the name of the window with the tail of the operation; no other window changes but one that had that name.", "quantifier": "all states of the menu, all lines typed by the user", "why_tests_cant": "The menu is interactive; no test runs it.", "anchors": ["src/f4enix/input/ww_gvr/cli.py:Menu._handle_soft", "src/f4enix/input/ww_gvr/cli.py:Menu._handle_add", "src/f4enix/input/ww_gvr/cli.py:Menu._handle_remove", "src/f4enix/input/ww_gvr/cli.py:Menu._handle_mitigate", "src/f4enix/input/ww_gvr/cli.py:Menu._get_operate_command"]}
{"id": "C130", "title": "Results of operations do not replace other windows", "statement": "In every session, the results of operations on different windows, or of different operations, are kept under different names, so that no loaded window is lost.", "quantifier": "all names of windows, all operations", "why_tests_cant": "It depends on the names of the user's files.", "anchors": ["src/f4enix/input/ww_gvr/cli.py:Menu._handle_soft", "src/f4enix/input/ww_gvr/cli.py:Menu._handle_add", "src/f4enix/input/ww_gvr/cli.py:Menu._handle_remove", "src/f4enix/input/ww_gvr/cli.py:Menu._handle_mitigate"]}
{"id": "C131", "title": "Every command shown by the menus is accepted", "statement": "Every command shown by the main menu and by the menu of operations, in any state of the session, is accepted and runs the function described.", "quantifier": "all commands shown, all states", "why_tests_cant": "No test runs the menus.", "anchors": ["src/f4enix/input/ww_gvr/cli.py:MAIN_MENU", "src/f4enix/input/ww_gvr/cli.py:OPERATE_MENU", "src/f4enix/input/ww_gvr/cli.py:Command", "src/f4enix/input/ww_gvr/cli.py:CommandOperate", "src/f4enix/input/ww_gvr/cli.py:Menu._get_command", "src/f4enix/input/ww_gvr/cli.py:Menu._get_operate_command"]}
{"id": "C132", "title": "Wrong input leaves the menu as it was", "statement": "In every session, lines that are no commands, numbers of no window and answers that are no numbers change nothing and are asked again; if the weight windows raise only the errors of missing files and of wrong values, a session ends only by the command end or with the input, or by the word empty in the menu of operations.", "quantifier": "all sessions: all sequences of lines, all states", "why_tests_cant": "The sequences of wrong answers are unlimited.", "anchors": ["src/f4enix/input/ww_gvr/cli.py:Menu._get_command", "src/f4enix/input/ww_gvr/cli.py:Menu._get_operate_command", "src/f4enix/input/ww_gvr/cli.py:Menu._select_ww_key"]}
{"id": "C133", "title": "Windows are selected by the number shown", "statement": "With two windows or more the first answer that is a number shown selects the window shown with it; with one window nothing is asked; in all sessions names are distinct, each window is kept under the stem of its file name and comes, by operations of the menu, from a file of its folder.", "quantifier": "all sessions, all numbers of windows and all answers", "why_tests_cant": "Needs an invariant over all histories.", "anchors": ["src/f4enix/input/ww_gvr/cli.py:Menu._select_ww_key", "src/f4enix/input/ww_gvr/cli.py:Menu.__init__"]}
{"id": "C134", "title": "Opening and generating windows", "statement": "Opening a file adds its window under its name and changes no other; a name loaded already is not replaced; generating a window uses the splitting ratio typed.", "quantifier": "all states, all files, all answers", "why_tests_cant": "No test runs the menu.", "anchors": ["src/f4enix/input/ww_gvr/cli.py:Menu._handle_open", "src/f4enix/input/ww_gvr/cli.py:Menu._handle_gvr", "src/f4enix/input/ww_gvr/cli.py:Menu._ask_gvr_parameters"]}
{"id": "C135", "title": "Files written by the menu", "statement": "write and vtk write the selected window beside its file, under the window's name with _written or the extension, and the message names the file written.", "quantifier": "all sessions, all names of windows", "why_tests_cant": "The name is computed twice, in the menu and in the window.", "anchors": ["src/f4enix/input/ww_gvr/cli.py:Menu._handle_write", "src/f4enix/input/ww_gvr/cli.py:Menu._handle_vtk", "src/f4enix/input/ww_gvr/weight_window.py:WW.write_to_ww_file", "src/f4enix/input/ww_gvr/weight_window.py:WW.export_as_vtk"]}
{"id": "C136", "title": "Windows from a mesh tally have its voxels", "statement": "A weight window generated from a mesh tally has the boundaries of the tally's bins as boundaries and, voxel by voxel, values in proportion to the flux of the same voxel of the tally chosen; with no number the tally of least number is taken.", "quantifier": "all mesh tallies of one energy group with a positive flux, rectangular or cylindrical with a transformation (without one see C137), all numbers of bins, all values", "why_tests_cant": "The correspondence of voxels must hold for all shapes; the tests compare a few numbers.", "anchors": ["src/f4enix/input/ww_gvr/ww_parser.py:read_meshtally_file", "src/f4enix/input/ww_gvr/ww_parser.py:_calculate_b2_vectors_from_meshtally", "src/f4enix/input/ww_gvr/weight_window.py:WW.create_gvr_from_meshtally_file"]}
{"id": "C137", "title": "Windows from a cylindrical mesh tally are where the tally is", "statement": "The window generated from a cylindrical mesh tally has the origin, the axis and the direction of angle zero of the tally.", "quantifier": "all cylindrical mesh tallies: all origins, axes, directions", "why_tests_cant": "The tests have origins on the vertical axis only.", "anchors": ["src/f4enix/input/ww_gvr/ww_parser.py:_read_header_from_meshtally_file"]}
{"id": "C138", "title": "Mesh tallies no window can hold are refused", "statement": "Mesh tallies of several energy groups or several time bins, which a window of one group cannot represent, are refused and not read in part.", "quantifier": "all mesh tallies", "why_tests_cant": "Needs a statement about all tallies not representable.", "anchors": ["src/f4enix/input/ww_gvr/ww_parser.py:_read_header_from_meshtally_file", "src/f4enix/input/ww_gvr/ww_parser.py:read_meshtally_file"]}
{"id": "C139", "title": "Rectangular windows are drawn where they are", "statement": "The grid of a rectangular window has exactly one point for each triple of boundaries, numbered with the first axis fastest, at these boundaries moved by the origin.", "quantifier": "all vectors of boundaries, all origins", "why_tests_cant": "Must hold for every point of every grid.", "anchors": ["src/f4enix/input/ww_gvr/meshgrids.py:create_cartesian_grid"]}
{"id": "C140", "title": "Cylindrical windows are drawn around their axis", "statement": "For every cylindrical window with an axis the grid has its points at the radii, heights and angles of the window around this axis, counted right-handed, moved by the origin (rings that begin at the axis and cylinders of one or two sectors are drawn with a small hole and with split sectors).", "quantifier": "all radii, heights, angles, origins and axes", "why_tests_cant": "Rotations about arbitrary axes: infinitely many.", "anchors": ["src/f4enix/input/ww_gvr/meshgrids.py:create_cylindrical_grid", "src/f4enix/input/ww_gvr/meshgrids.py:_rotate_to_axis", "src/f4enix/input/ww_gvr/meshgrids.py:_correct_radius_vector", "src/f4enix/input/ww_gvr/meshgrids.py:_correct_theta_vector", "src/f4enix/input/ww_gvr/meshgrids.py:_extend_theta_intervals", "src/f4enix/input/ww_gvr/meshgrids.py:_create_cylindrical_grid_with_z_axis"]}
{"id": "C141", "title": "Angles of cylindrical windows begin at their direction", "statement": "The points of angle zero of the grid of a cylindrical window are, seen from its axis, in the direction vec given with it.", "quantifier": "all axes and directions normal to them", "why_tests_cant": "The tests look at directions on the axes of coordinates only.", "anchors": ["src/f4enix/input/ww_gvr/meshgrids.py:_rotate_to_vec", "src/f4enix/input/ww_gvr/meshgrids.py:_angle_between"]}
{"id": "C142", "title": "Categorical plots label each value with its category", "statement": "In a categorical plot (TID, TNF, SDDR) every value carries the name of the category whose limits it lies between, in the first plot and in every later one of the session.", "quantifier": "all meshes, all values, all categories, all sequences of plots in a session", "why_tests_cant": "The lists of limits are shared and changed by every plot: the statement is about all histories.", "anchors": ["src/f4enix/output/plotter.py:MeshPlotter._add_categorization", "src/f4enix/output/plotter.py:MeshPlotter.plot_slices", "src/f4enix/constants.py:TID_CATEGORIES", "src/f4enix/constants.py:TNF_CATEGORIES", "src/f4enix/constants.py:SDDR_CATEGORIES"]}
{"id": "C143", "title": "Categorical plots use the colour of each category", "statement": "The colours of a categorical plot are those of the categories present in it, in their order.", "quantifier": "all meshes, all values, all categories, all sequences of plots", "why_tests_cant": "About all plots of all sessions.", "anchors": ["src/f4enix/output/plotter.py:MeshPlotter._add_categorization", "src/f4enix/constants.py:TID_CATEGORIES", "src/f4enix/constants.py:TNF_CATEGORIES", "src/f4enix/constants.py:SDDR_CATEGORIES"]}
{"id": "C144", "title": "Toroidal slices are named by their angle", "statement": "slice_toroidal cuts at the angles from the first in equal steps before the last (180 degrees by default), leaves out empty cuts, and gives each slice the name of the angle it was cut at.", "quantifier": "all meshes, increments, ranges of angles", "why_tests_cant": "Which cuts are empty depends on the mesh: all subsets are possible.", "anchors": ["src/f4enix/output/plotter.py:MeshPlotter.slice_toroidal"]}
{"id": "C145", "title": "One picture for each slice", "statement": "plot_slices returns one picture for each slice, in the order given, and with a folder saves each under the name of its slice, leaving the other files; unknown categories and missing folders are refused and change nothing.", "quantifier": "all lists of slices, names, folders, failures of the drawing", "why_tests_cant": "Must hold for every list of slices and every point of failure.", "anchors": ["src/f4enix/output/plotter.py:MeshPlotter.plot_slices"]}
{"id": "C146", "title": "Slices keep order and names", "statement": "slice gives the cut of each row under the name of the row; slice_on_axis names each slice by the coordinate of its centre so that different slices have different names.", "quantifier": "all rows, all meshes and numbers of cuts", "why_tests_cant": "Rounding: all coordinates.", "anchors": ["src/f4enix/output/plotter.py:MeshPlotter.slice", "src/f4enix/output/plotter.py:MeshPlotter.slice_on_axis"]}
{"id": "C147", "title": "The atlas holds the pictures it was given", "statement": "add_section appends a heading and each picture under its own heading, in order; build_from_root adds every picture of every folder once, in the order of the times, under the name of its file.", "quantifier": "all documents, sections, folders and files", "why_tests_cant": "All contents of folders.", "anchors": ["src/f4enix/output/plotter.py:Atlas.add_section", "src/f4enix/output/plotter.py:Atlas.build_from_root"]}
{"id": "C148", "title": "Cumulative distributions", "statement": "CDFplot.plot draws one curve for each set of data with its label; the height in a bin is the fraction of the values below the upper edge and ends at one; labels of another number are refused.", "quantifier": "all sets of data, labels, bins", "why_tests_cant": "All data and all numbers of curves.", "anchors": ["src/f4enix/output/plotter.py:CDFplot.plot", "src/f4enix/output/plotter.py:Plotter2D.__init__"]}
{"id": "C149", "title": "Shipped group structures divide the energies", "statement": "Every group structure offered for the collapse of cross sections has as many groups as its name says, and every energy between its first and last edge is in exactly one group, so that each group gets a value. (False of the code for the first group of the structures that begin at 0 eV: its value is nan.)", "quantifier": "all shipped structures, all energies, all cross sections", "why_tests_cant": "All energies.", "anchors": ["src/f4enix/egroups.py:GROUP_STRUCTURES", "src/f4enix/input/ace.py:_get_xs_zaid_list"]}
{"id": "C150", "title": "Compositions keep what they are given", "statement": "A MaterialComposition has the elements given in their order with their percentages (a hundred times the fractions when fractions are given); two are equal exactly when name, elements and percentages are.", "quantifier": "all lists of elements and numbers", "why_tests_cant": "All compositions.", "anchors": ["src/f4enix/material_library.py:MaterialComposition"]}
{"id": "C151", "title": "Shipped compositions add up", "statement": "The percentages of every composition in AVAILABLE_MATERIALS add up to 100 (within the accuracy of their data), no element is named twice and the names are different.", "quantifier": "all shipped compositions", "why_tests_cant": "A statement on the whole table, not on some entries.", "anchors": ["src/f4enix/material_library.py:AVAILABLE_MATERIALS"]}
{"id": "C152", "title": "Csv export of a mesh", "statement": "The csv file of a mesh with arrays on its cells has one line for each cell, in the order of the cells, with the coordinates of its centre and the values of the arrays asked for, each of which reads back as the value.", "quantifier": "all meshes, all lists of arrays", "why_tests_cant": "All grids and values; the failures concern small values.", "anchors": ["src/f4enix/output/meshtal/fmesh.py:Fmesh.write", "src/f4enix/output/meshtal/fmesh.py:Fmesh._write_csv"]}
{"id": "C153", "title": "Point clouds and Fluent files", "statement": "In the formats point_cloud and ip_fluent each array asked for has its own file, with one line for each cell (coordinates and value), and in the Fluent file the number of points and the blocks of x, y, z and values; an unknown format is refused and writes nothing.", "quantifier": "all meshes, all lists of arrays, all formats", "why_tests_cant": "All grids and names.", "anchors": ["src/f4enix/output/meshtal/fmesh.py:Fmesh._write_point_cloud", "src/f4enix/output/meshtal/fmesh.py:Fmesh._write_fluent", "src/f4enix/output/meshtal/fmesh.py:Fmesh._clean_path"]}
{"id": "C154", "title": "Exporting all meshes", "statement": "When all meshes of a file are exported, the files of each mesh are exactly those its own export writes, and no other file is touched.", "quantifier": "all files, all formats, all contents of the folder", "why_tests_cant": "All orders and numbers of meshes; needs that the names of the files of two meshes are never the same.", "anchors": ["src/f4enix/output/meshtal/meshtal.py:Meshtal.write_all", "src/f4enix/output/meshtal/fmesh.py:Fmesh.write"]}
{"id": "C155", "title": "Meshes are transformed by their cards", "statement": "Given the input of the run, every mesh whose FMESH card has a tr=N flag is transformed exactly once, by the transformation N, and every other mesh is as before; if a transformation is missing, nothing is changed.", "quantifier": "all inputs, all meshes, all texts of cards", "why_tests_cant": "All texts of cards and histories, including failures midway.", "anchors": ["src/f4enix/output/meshtal/meshtal.py:Meshtal.transform_fmesh", "src/f4enix/output/meshtal/meshtal.py:Meshtal.transform_multiple_fmesh"]}
{"id": "C156", "title": "Libraries offered by the manager", "statement": "For each code of a table of paths the libraries the manager offers are, in the order of the table, exactly those that have a path and whose file holds tables with their suffix, each standing for the directory of its own file read for its own code; the default library is the one given, else the one marked in the table, else 81c.", "quantifier": "all tables of paths, all files", "why_tests_cant": "All tables, orders of rows and codes, including repeated paths; the failure concerns paths shared by two codes.", "anchors": ["src/f4enix/input/libmanager.py:LibManager.__init__", "src/f4enix/input/libmanager.py:LibManager.libraries", "src/f4enix/input/libmanager.py:LibManager.defaultlib"]}
{"id": "C157", "title": "Zaids of libraries and libraries of zaids agree", "statement": "The zaids listed for a library are exactly those of its tables, without repetitions; the libraries listed for a zaid are exactly those that have a table for it; both agree, and a library is available for a list of codes exactly when each of them offers it.", "quantifier": "all managers, zaids, libraries and codes", "why_tests_cant": "All directories and names.", "anchors": ["src/f4enix/input/libmanager.py:LibManager.get_libzaids", "src/f4enix/input/libmanager.py:LibManager.check4zaid", "src/f4enix/input/libmanager.py:LibManager.is_lib_available"]}
{"id": "C158", "title": "OpenMC directories hold their nuclides", "statement": "The directory made from an OpenMC cross section file holds one table for each neutron library of the file, and the zaids of an OpenMC library are those of its file.", "quantifier": "all OpenMC files, all isotope tables", "why_tests_cant": "All files; here it fails for every file.", "anchors": ["src/f4enix/input/xsdirpyne.py:OpenMCXsdir", "src/f4enix/input/libmanager.py:LibManager.get_libzaids"]}
{"id": "C159", "title": "Export to Serpent and reading it", "statement": "The Serpent file of a directory has one line for each table for continuous energies, in order, with its name, type, zaid, isomer flag, ratio, temperature, kind and file; reading a Serpent file gives one table for each of its tables, with their ratio, file and temperature; a directory exported and read again has the same tables.", "quantifier": "all directories, all Serpent files", "why_tests_cant": "All directories, with and without temperatures; the failures concern the parity of the lines.", "anchors": ["src/f4enix/input/xsdirpyne.py:Xsdir.to_xsdata", "src/f4enix/input/xsdirpyne.py:XsdirTable.to_serpent", "src/f4enix/input/xsdirpyne.py:XsdirTable.serpent_type", "src/f4enix/input/xsdirpyne.py:SerpentXsdir"]}
{"id": "C160", "title": "Sector extraction: the file", "statement": "The file of extracted sectors holds exactly the cells the table gives to the sectors, what they need, the outer cell and the graveyard; exactly the surfaces and materials of these cells, including the planes of the cut; header and transformations of the model; and of the data cards only the source changes.", "quantifier": "all models, tables, lists of sectors, tolerances", "why_tests_cant": "All models and dependencies between cells; the failure needs an envelope bounded by other planes.", "anchors": ["src/f4enix/input/elite.py:Elite_Input.extract_sector", "src/f4enix/input/MCNPinput.py:Input._extraction_function"]}
{"id": "C161", "title": "Sector extraction: tables and refusals", "statement": "Every call uses the Excel file it is given; with the check a file that does not list exactly the cells without universe is refused; names that are no sectors are refused; a refused call writes nothing.", "quantifier": "all sequences of calls, all tables", "why_tests_cant": "Histories of calls with different files.", "anchors": ["src/f4enix/input/elite.py:Elite_Input.extract_sector", "src/f4enix/input/elite.py:Elite_Input._initialize_elite"]}
{"id": "C162", "title": "Sector extraction: planes with a transformation", "statement": "A plane card with a transformation is treated as a boundary exactly if the transformed plane is the boundary plane within the tolerance.", "quantifier": "all planes, all transformations (rotations, displacements, starred cards)", "why_tests_cant": "Real arithmetic over all matrices and displacements.", "anchors": ["src/f4enix/input/elite.py:Elite_Input._rotate_plane", "src/f4enix/input/elite.py:Elite_Input._set_boundaries"]}
{"id": "C163", "title": "Mesh tally files: list of tallies", "statement": "Opening a meshtal file finds exactly the tallies of the file, whatever their number and lengths: the mesh list and mesh_ids hold each number once, sorted; any other number is refused; a file that stops within the head or bins of a tally is refused.", "quantifier": "all files, all numbers of tallies, all texts of heads, bins and data", "why_tests_cant": "Files of any length; the scanner keeps positions and relies on blank lines.", "anchors": ["src/f4enix/output/meshtal/aux_meshtal_functions.py:_scan_meshfile", "src/f4enix/output/meshtal/aux_meshtal_functions.py:_get_mesh_block", "src/f4enix/output/meshtal/mesh_parser.py:MeshtalParser.get_meshlist", "src/f4enix/output/meshtal/meshtal.py:Meshtal.mesh_ids"]}
{"id": "C164", "title": "Mesh tally files: content of a tally", "statement": "A tally read from a meshtal file has the bins, the place, the values, the particle and the comments that the file shows for it, in the column format and in the three matrix formats, with and without times, rectangular or cylindrical, independently of the tallies before and after.", "quantifier": "all files, bins, values and positions of the tally in the file", "why_tests_cant": "All sizes of meshes, all formats, all neighbouring tallies.", "anchors": ["src/f4enix/output/meshtal/mesh_parser.py:MeshtalParser.get_FMesh", "src/f4enix/output/meshtal/aux_meshtal_functions.py:_get_mesh_boundaries", "src/f4enix/output/meshtal/aux_meshtal_functions.py:_get_mesh_type", "src/f4enix/output/meshtal/aux_meshtal_functions.py:_get_mesh_data", "src/f4enix/output/meshtal/aux_meshtal_functions.py:_get_transformation", "src/f4enix/output/meshtal/aux_meshtal_functions.py:_get_header"]}
{"id": "C165", "title": "Mesh tally files: column format with volumes", "statement": "A tally in the column format with volumes (out=cf) is read with its results and errors.", "quantifier": "all files in that format", "why_tests_cant": "All values and volumes.", "anchors": ["src/f4enix/output/meshtal/aux_meshtal_functions.py:_get_mesh_type", "src/f4enix/output/meshtal/aux_meshtal_functions.py:_get_mesh_data"]}
{"id": "C166", "title": "Mesh tally files: particle and comments", "statement": "The particle of a tally is the one its description names, the comments are all the comment lines of the tally, and reading the head ends.", "quantifier": "all comments and descriptions", "why_tests_cant": "Comments are free text.", "anchors": ["src/f4enix/output/meshtal/aux_meshtal_functions.py:_get_header"]}
{"id": "C167", "title": "readMesh: which tallies are read", "statement": "readMesh fills mesh with exactly the tallies asked for (all for None, 0 or an empty list), each under its number with what the file shows for it; a call that fails leaves mesh as it was.", "quantifier": "all files and arguments, all histories of calls", "why_tests_cant": "All lists of numbers and all failing tallies.", "anchors": ["src/f4enix/output/meshtal/meshtal.py:Meshtal.readMesh"]}
{"id": "C168", "title": "Cell-under-voxel files", "statement": "A cell-under-voxel file is opened with its tallies, and a tally read from it has its bins, particle, comments and in every voxel the value of its own record.", "quantifier": "all files, voxels and cells", "why_tests_cant": "The records have variable length and are skipped by counting.", "anchors": ["src/f4enix/output/meshtal/aux_meshtal_functions.py:_scan_cuvfile", "src/f4enix/output/meshtal/aux_meshtal_functions.py:_skip_cuvdata", "src/f4enix/output/meshtal/mesh_parser.py:CUVMeshParser.get_FMesh"]}
{"id": "C169", "title": "Source files", "statement": "A source file (CDGS) is opened with its sources, and a source read from it has its bins, place, comment, cooling time, strength and the values of the voxels it lists.", "quantifier": "all files, bins, places and lists of voxels", "why_tests_cant": "All numbers of lines of bins and of voxels.", "anchors": ["src/f4enix/output/meshtal/aux_meshtal_functions.py:_scan_cdgsfile", "src/f4enix/output/meshtal/aux_meshtal_functions.py:_get_cdgsmesh_boundaries", "src/f4enix/output/meshtal/aux_meshtal_functions.py:_get_cdgsheader", "src/f4enix/output/meshtal/mesh_parser.py:CDGSMeshParser.get_FMesh"]}
{"id": "C170", "title": "Material tables: elements", "statement": "get_info of a material (and of a list) lists each element of each submaterial once, in the order of submaterials and names, with the sum of the fractions of its zaids and its shares of the submaterial and of the material; the shares add up to one; the option zaids does not change this table.", "quantifier": "all materials, any number of submaterials, elements and zaids, all nuclide tables", "why_tests_cant": "All compositions; the table is made by grouping and dividing.", "anchors": ["src/f4enix/input/materials.py:SubMaterial.get_info", "src/f4enix/input/materials.py:Material.get_info", "src/f4enix/input/materials.py:MatCardsList.get_info"]}
{"id": "C171", "title": "Material tables: zaids by atom and by mass", "statement": "The complete table of get_info lists each zaid (or each element) of each submaterial once, labelled with its name, with its atom fraction and its mass fraction in the material; each of the two columns adds up to one in absolute value.", "quantifier": "all materials and nuclide tables", "why_tests_cant": "All compositions; the two columns come from two converted copies.", "anchors": ["src/f4enix/input/materials.py:Material.get_info", "src/f4enix/input/materials.py:Material.switch_fraction", "src/f4enix/input/materials.py:SubMaterial.get_info", "src/f4enix/input/libmanager.py:LibManager.get_zaidname"]}
{"id": "C172", "title": "In-line comments of materials", "statement": "The comment written behind each zaid shows the name of the zaid, its percentage within its element, and the mass share of the element in the submaterial; the percentages within an element add up to 100.", "quantifier": "all materials and nuclide tables", "why_tests_cant": "All compositions.", "anchors": ["src/f4enix/input/materials.py:Material._update_info", "src/f4enix/input/materials.py:SubMaterial._update_info", "src/f4enix/input/materials.py:Element.update_zaidinfo", "src/f4enix/input/materials.py:Zaid.get_fullname"]}
{"id": "C173", "title": "Reading the materials of an input", "statement": "The list read from the data cards of an input holds one material for each material card, in order, made from this card and a comment just before it, each with its own MX cards; what was read can be written again.", "quantifier": "all lists of data cards, all places of material, MX, comment and other cards", "why_tests_cant": "All arrangements of cards; the loop keeps state between cards.", "anchors": ["src/f4enix/input/materials.py:MatCardsList.from_input", "src/f4enix/input/materials.py:MatCardsList.to_text", "src/f4enix/input/materials.py:Material.add_mx", "src/f4enix/input/materials.py:Material.to_text"]}
{"id": "C174", "title": "Materials from a list of zaids", "statement": "A material made from a list of zaids (numbers or symbols with mass number) and fractions has one submaterial with these zaids in the asked library, the number and the name asked for; every zaid of the list is in it, or the call fails.", "quantifier": "all lists, numbers, libraries and nuclide tables", "why_tests_cant": "All lists of zaids, with and without a table in the library.", "anchors": ["src/f4enix/input/materials.py:Material.from_zaids"]}
{"id": "C175", "title": "Materials as OpenMC xml", "statement": "to_xml writes for every material its number, name and density, and for each zaid its name in OpenMC and its amount, by atoms or by mass as in the material.", "quantifier": "all lists of materials", "why_tests_cant": "All compositions, all zaids including metastable ones.", "anchors": ["src/f4enix/input/materials.py:Zaid.to_xml", "src/f4enix/input/materials.py:SubMaterial.to_xml", "src/f4enix/input/materials.py:Material.to_xml", "src/f4enix/input/materials.py:MatCardsList.to_xml"]}
{"id": "C176", "title": "Debug files of lost particles", "statement": "print_lp_debug writes the number of lost particles per cell and surface (and per universe, if an input is given), the most frequent first, with nothing lost or counted twice, and a csv line with place (and direction) for each lost particle.", "quantifier": "all outputs, with and without an input, with and without cosines", "why_tests_cant": "All sets of lost particles; the sheets are made by grouping.", "anchors": ["src/f4enix/output/MCNPoutput.py:Output.print_lp_debug", "src/f4enix/output/MCNPoutput.py:Output.get_lp_debug_df"]}
{"id": "C177", "title": "FISPACT pathways as data frame", "statement": "to_dataframe of a collection of pathways has one row for each pathway, with parent, daughter and path, in the order of the number of the daughter nuclide.", "quantifier": "all collections, all nuclides", "why_tests_cant": "All collections; the order depends on the numbers of the daughters.", "anchors": ["src/f4enix/output/fispact_legacy_out.py:PathwayCollection.to_dataframe"]}
{"id": "C178", "title": "Summary of a weight window", "statement": "The summary of a weight window shows for each particle the least and greatest value, the greatest ratio, the share of voxels with a positive bound, the mean of the values and the number of energy bins, and for the mesh the limits and number of intervals of each axis and of voxels, after any history of operations.", "quantifier": "all weight windows and all histories of operations", "why_tests_cant": "All histories of operations on all meshes.", "anchors": ["src/f4enix/input/ww_gvr/weight_window.py:WW.info"]}
{"id": "C179", "title": "Colour scale of plots of a weight window", "statement": "Plots use a linear scale if the values span less than five decades, and otherwise a logarithmic one of ten decades that holds the greatest value.", "quantifier": "all arrays of values", "why_tests_cant": "All arrays; the limits come from rounding logarithms.", "anchors": ["src/f4enix/input/ww_gvr/geometry.py:Geometry._decide_plot_parameters", "src/f4enix/input/ww_gvr/geometry.py:Geometry.plot"]}
{"id": "C180", "title": "Finding cards by number", "statement": "get_cells_by_id, get_surfs_by_id, get_data_cards and get_materials_subset return exactly the cards asked for, each once, unchanged and under its own key, and refuse the request with a KeyError if one of them is not in the input; marked surfaces are found by their number.", "quantifier": "all inputs, all lists of numbers or keys", "why_tests_cant": "All inputs with marked and unmarked keys.", "anchors": ["src/f4enix/input/MCNPinput.py:Input.get_cells_by_id", "src/f4enix/input/MCNPinput.py:Input.get_surfs_by_id", "src/f4enix/input/MCNPinput.py:Input.get_data_cards", "src/f4enix/input/MCNPinput.py:Input.get_materials_subset", "src/f4enix/input/MCNPinput.py:Input._get_cards_by_id"]}
{"id": "C181", "title": "Tallies of an input as read", "statement": "After reading an input the list of tallies has the numbers of all tally cards in the order of the file, and the list of mesh tallies those of all FMESH cards, whatever their marks and case.", "quantifier": "all data blocks", "why_tests_cant": "All sets of data cards; keys are shortened and may collide.", "anchors": ["src/f4enix/input/MCNPinput.py:Input.from_input", "src/f4enix/input/MCNPinput.py:D1S_Input.from_input", "src/f4enix/input/MCNPinput.py:Input._parse_data_section"]}
{"id": "C182", "title": "Comments of a card", "statement": "get_comments returns all the comment text of a card, comment lines and comments behind a dollar sign, in order and once.", "quantifier": "all cards", "why_tests_cant": "All texts of cards.", "anchors": ["src/f4enix/input/auxiliary.py:get_comments"]}
{"id": "C183", "title": "Bytes of a file that are no text", "statement": "debug_file_unicode reports exactly the bytes of a file that are not part of a character in UTF-8, with line, place in the line and value; the report is empty exactly for files that are UTF-8 texts.", "quantifier": "all byte sequences, all kinds of line ends", "why_tests_cant": "All byte sequences.", "anchors": ["src/f4enix/input/auxiliary.py:debug_file_unicode", "src/f4enix/input/auxiliary.py:_detect_decoding_errors_line"]}
{"id": "C184", "title": "A D1S case and its files", "statement": "The reaction file made by get_reaction_file for an irradiation file can be written and read again and gives the same reactions in the same order, each with a daughter of the irradiation file; an input opened with these two files has exactly them, and smart_translate translates the same nuclides with the reread file as with the one in memory.", "quantifier": "all inputs, libraries, tables of decay pathways and irradiation files with names that fit their columns", "why_tests_cant": "All materials, all libraries and all pathway tables; the layout of the file depends on the lengths of the names.", "anchors": ["src/f4enix/input/MCNPinput.py:D1S_Input.from_input", "src/f4enix/input/MCNPinput.py:D1S_Input.get_reaction_file", "src/f4enix/input/MCNPinput.py:D1S_Input.smart_translate", "src/f4enix/input/d1suned.py:ReactionFile.write", "src/f4enix/input/d1suned.py:ReactionFile.from_text"]}
{"id": "C185", "title": "A weight window and its file", "statement": "A weight window written with write_to_ww_file and loaded with load_from_ww_file is the same window: same axes, counts, origin and directors, same particles and energies in order and same value in every voxel, each number as it was printed, after any history of operations. Energies that are printed alike are merged.", "quantifier": "all windows, all histories of operations, all printable numbers", "why_tests_cant": "All meshes, particles, energies, values and histories.", "anchors": ["src/f4enix/input/ww_gvr/weight_window.py:WW.write_to_ww_file", "src/f4enix/input/ww_gvr/weight_window.py:WW.load_from_ww_file", "src/f4enix/input/ww_gvr/weight_window.py:WW._build_header", "src/f4enix/input/ww_gvr/geometry.py:Geometry"]}
{"id": "C186", "title": "Assembled models stay complete", "statement": "A model in which everything that is referred to is defined and no number is used twice stays so through any history of renumbering, merging with models whose numbers are disjoint, replacing materials, scaling densities and extracting cells; a model put beside another by renumber (with an offset no smaller than its numbers) and merge succeeds, keeps both sets of cells and surfaces, and no cell of one needs a cell of the other.", "quantifier": "all complete models, all offsets that leave numbers positive, all histories of these operations", "why_tests_cant": "All histories of operations on all models; tests fix one operation on one file.", "anchors": ["src/f4enix/input/MCNPinput.py:Input.renumber", "src/f4enix/input/MCNPinput.py:Input.merge", "src/f4enix/input/MCNPinput.py:Input.extract_cells", "src/f4enix/input/MCNPinput.py:Input.replace_material", "src/f4enix/input/MCNPinput.py:Input.scale_densities", "src/f4enix/input/MCNPinput.py:Input._update_card_keys"]}
{"id": "C187", "title": "Summary of an RSSA file", "statement": "The summary of an RSSA file shows the ids of its surfaces, the tracks recorded, the histories run and those that reached a surface as in the file, and how many tracks are neutrons and photons, each counted once; a single surface is said to be a cylinder (with its radius) if the tracks lie on a cylinder around the z axis, and a plane if they do not.", "quantifier": "all parameters of the file, all lists of tracks", "why_tests_cant": "All lists of tracks; the decision is a threshold on a standard deviation of all of them, tests read two files.", "anchors": ["src/f4enix/output/rssa.py:RSSA.type", "src/f4enix/output/rssa.py:RSSA._get_info"]}
{"id": "C188", "title": "A refused translation", "statement": "A translation of the materials of an input that is refused leaves the input as it was, so that it can be repeated with a better dictionary; every submaterial is either as before or completely translated, and materials and submaterials keep number, order and names.", "quantifier": "all materials, libraries and dictionaries, whatever fails and wherever", "why_tests_cant": "All points at which the translation can fail, for all materials; tests translate files for which it succeeds.", "anchors": ["src/f4enix/input/MCNPinput.py:Input.translate", "src/f4enix/input/MCNPinput.py:Input.update_zaidinfo", "src/f4enix/input/MCNPinput.py:D1S_Input.smart_translate", "src/f4enix/input/materials.py:SubMaterial.translate", "src/f4enix/input/materials.py:Material.translate", "src/f4enix/input/materials.py:MatCardsList.translate", "src/f4enix/input/materials.py:MatCardsList.update_info"]}
{"id": "C189", "title": "Deleting fill cards", "statement": "delete_fill_cards removes the fill entry of every cell that has one and changes nothing else: the other cells, the order of the cells and the rest of the model stay, a complete model stays complete, a second call changes nothing, and extraction then finds the same cells whether filling universes are followed or not.", "quantifier": "all complete models, all requested cells", "why_tests_cant": "All models and all later extractions; the test removes the fills of one file.", "anchors": ["src/f4enix/input/MCNPinput.py:Input.delete_fill_cards"]}
{"id": "C190", "title": "The xml text of materials", "statement": "to_xml of a list of materials gives a text with one line per element: the materials in order between <materials> and </materials>, each with its id, name, density and nuclides in order, indented by two blanks for each depth; indenting changes nothing but space and indenting twice is the same as once.", "quantifier": "all lists of materials that can be written, all trees", "why_tests_cant": "All trees and texts; tests compare one file.", "anchors": ["src/f4enix/input/materials.py:indent", "src/f4enix/input/materials.py:MatCardsList.to_xml", "src/f4enix/input/materials.py:Material.to_xml", "src/f4enix/input/materials.py:SubMaterial.to_xml", "src/f4enix/input/materials.py:Zaid.to_xml"]}
{"id": "C191", "title": "From a mesh tally file to a weight-window file", "statement": "The window generated from a tally of a meshtal file, whatever other tallies the file has, has the bins of that tally, its place, one map of neutrons up to 100 MeV and in every voxel the flux the file shows times 2 / ((ratio + 1) greatest flux), raised to the softening factor; without a tally number the tally with the smallest number is used; written and loaded again the window is the same, each number as printed.", "quantifier": "all meshtal files, all tallies with one group of energy, all formats of the values, all ratios above -1 and softening factors", "why_tests_cant": "All files; tests use a few.", "anchors": ["src/f4enix/input/ww_gvr/weight_window.py:WW.create_gvr_from_meshtally_file", "src/f4enix/input/ww_gvr/ww_parser.py:read_meshtally_file", "src/f4enix/output/meshtal.py:Meshtal.readMesh"]}
{"id": "C192", "title": "Printed numbers", "statement": "A number written with one of the formats of the project (scientific with p decimals, general with p + 1 digits, Decimal with p decimals) is read back by float within half a unit of its last printed digit and with its sign; reading never changes the order of two numbers, writing the number read gives the same text, numbers with at most p + 1 significant digits come back unchanged, and the text is one word whose width is bounded.", "quantifier": "all rational numbers in the range of the exponents of three digits, all numbers of decimals", "why_tests_cant": "All numbers; tests use a few.", "anchors": ["src/f4enix/input/ww_gvr/ww_parser.py:_write_block", "src/f4enix/input/materials.py:Zaid.to_text", "src/f4enix/input/d1suned.py:IrradiationFile", "src/f4enix/input/MCNPinput.py:Input.scale_densities"]}
{"id": "C193", "title": "Results with exponents of three digits", "statement": "A number of an output file of MCNP is read as it is written, also when Fortran writes an exponent of three digits without the letter E (1.00000-105).", "quantifier": "all numbers, all numbers of decimals, all tallies and meshes", "why_tests_cant": "All magnitudes; tests use files with ordinary numbers.", "anchors": ["src/f4enix/output/mctal.py:Mctal", "src/f4enix/output/meshtal/aux_meshtal_functions.py:_get_column_data", "src/f4enix/output/eeout.py:EEOUT", "src/f4enix/output/MCNPoutput.py:Output.get_lp_debug_df", "src/f4enix/constants.py:SCIENTIFIC_PAT"]}
{"id": "C194", "title": "Sessions of the window menu with their files", "statement": "Whatever is typed in the menu and whatever the files hold, every window it holds, writes, exports or plots is consistent; a window it writes can be opened again, in the same session or a later one, and then equals the one written up to half a unit of the fifth digit.", "quantifier": "all lines typed, all files, all histories of commands, all windows that fit in their files", "why_tests_cant": "All sessions and all contents of the disk, with files written and read again; tests run single commands.", "anchors": ["src/f4enix/input/ww_gvr/cli.py:Menu", "src/f4enix/input/ww_gvr/weight_window.py:WW.write_to_ww_file", "src/f4enix/input/ww_gvr/weight_window.py:WW.load_from_ww_file"]}
{"id": "C195", "title": "The answers of the command gvr", "statement": "The command gvr makes a window from the tally of a mesh file with the splitting ratio and the softening factor the user types.", "quantifier": "all mesh files, all answers, all states of the menu", "why_tests_cant": "All answers and all files; tests feed one.", "anchors": ["src/f4enix/input/ww_gvr/cli.py:Menu._handle_gvr", "src/f4enix/input/ww_gvr/cli.py:Menu._ask_gvr_parameters", "src/f4enix/input/ww_gvr/weight_window.py:WW.create_gvr_from_meshtally_file"]}
{"id": "C196", "title": "A mesh tally from its file to a csv file", "statement": "Opening a meshtal file and exporting one of its rectangular tallies to csv writes one line for each voxel, the first axis fastest, with the middle of the boundaries of the voxel and then the value and error of every time and energy bin, as the meshtal file shows them, each within half a thousandth.", "quantifier": "all meshtal files, all tallies before and after, all formats of the data, all sizes of the mesh", "why_tests_cant": "All files and sizes, through the reader, the grid and the writer; tests compare one file.", "anchors": ["src/f4enix/output/meshtal/meshtal.py:Meshtal.readMesh", "src/f4enix/output/meshtal/fmesh.py:Fmesh.write", "src/f4enix/output/meshtal/fmesh.py:Fmesh._write_csv"]}
{"id": "C197", "title": "The point of an exported row lies in its voxel", "statement": "The point that the csv, point cloud or fluent export gives for a voxel lies in the voxel.", "quantifier": "all meshes, rectangular or cylindrical, all voxels", "why_tests_cant": "All meshes and voxels; tests look at the files of one mesh.", "anchors": ["src/f4enix/output/meshtal/fmesh.py:Fmesh.write", "src/f4enix/output/meshtal/aux_meshtal_functions.py:_structured_grid", "src/f4enix/output/meshtal/aux_meshtal_functions.py:_rectilinear_grid"]}
{"id": "C198", "title": "A weight window file that was cut off is refused", "statement": "If writing a weight window file is cut off (a crash, a full disk), the file left behind is not read as a weight window.", "quantifier": "all weight windows that can be written, all places where the file may be cut", "why_tests_cant": "All windows and every crash point; tests read complete files.", "anchors": ["src/f4enix/input/ww_gvr/ww_parser.py:parse", "src/f4enix/input/ww_gvr/ww_parser.py:write"]}
{"id": "C199", "title": "A reaction or irradiation file that was cut off is refused", "statement": "If writing a reaction or irradiation file is cut off, the file left behind is not read as a complete reaction or irradiation file.", "quantifier": "all reaction and irradiation files, all places where the file may be cut", "why_tests_cant": "All files and every crash point; tests read complete files.", "anchors": ["src/f4enix/input/d1suned.py:ReactionFile.write", "src/f4enix/input/d1suned.py:ReactionFile.from_text", "src/f4enix/input/d1suned.py:IrradiationFile.write", "src/f4enix/input/d1suned.py:IrradiationFile.from_text"]}
{"id": "C200", "title": "A mesh tally from its file to point clouds, fluent and vtk files", "statement": "Opening a meshtal file and exporting one of its rectangular tallies as point clouds or for fluent writes one file for the values and one for the errors of every time and energy bin, each with the middle and the number of every voxel as the meshtal file shows them, within half a thousandth; the vtk file has the extension of its kind of grid. Other files are not touched.", "quantifier": "all meshtal files, all tallies before and after, all formats of the data, all sizes of the mesh, all bins", "why_tests_cant": "All files and sizes, through the reader, the grid and the writers; tests compare one file.", "anchors": ["src/f4enix/output/meshtal/meshtal.py:Meshtal.readMesh", "src/f4enix/output/meshtal/fmesh.py:Fmesh.write", "src/f4enix/output/meshtal/fmesh.py:Fmesh._write_point_cloud", "src/f4enix/output/meshtal/fmesh.py:Fmesh._write_fluent", "src/f4enix/output/meshtal/fmesh.py:Fmesh._write_vtk"]}
{"id": "C201", "title": "Saving over a file keeps the old file or leaves the new one", "statement": "When a save over an existing weight window, irradiation or reaction file fails or is interrupted, the path still holds the old file or holds the complete new one; other files are not touched.", "quantifier": "all files that may be there, all objects that are saved, all places of a crash and all failures of the writer", "why_tests_cant": "Every crash point and every old and new content; tests save once, successfully.", "anchors": ["src/f4enix/input/ww_gvr/ww_parser.py:write", "src/f4enix/input/d1suned.py:IrradiationFile.write", "src/f4enix/input/d1suned.py:ReactionFile.write"]}
{"id": "C202", "title": "Cross sections of a material depend on its atoms only", "statement": "The cross sections of a material are the same whether its fractions are atom or mass fractions, whatever they add up to, and however its nuclides are grouped into submaterials.", "quantifier": "all materials with known masses and fractions of one sign, all types of cross sections, all tables", "why_tests_cant": "All materials and both kinds of fractions; tests use single nuclides and one material.", "anchors": ["src/f4enix/input/ace.py:get_xs", "src/f4enix/input/materials.py:Material.switch_fraction"]}
{"id": "C203", "title": "Asking for cross sections leaves the material as it is", "statement": "Getting the cross sections of a material does not change the material.", "quantifier": "all materials, all types of cross sections, also when the calculation fails", "why_tests_cant": "All materials and failures; tests look at the cross sections only.", "anchors": ["src/f4enix/input/ace.py:get_xs", "src/f4enix/input/materials.py:Material.switch_fraction"]}
{"id": "C204", "title": "Equal mesh vectors are the same mesh", "statement": "Two groups of mesh vectors compare equal exactly when they are the same numbers up to rounding, and equality is reflexive, symmetric and transitive.", "quantifier": "all groups of three vectors of numbers", "why_tests_cant": "All sizes and magnitudes; tests compare one mesh with itself and one that is clearly different.", "anchors": ["src/f4enix/input/ww_gvr/models.py:Vectors"]}
{"id": "C205", "title": "An RSSA file that was cut off is refused", "statement": "If an RSSA file was cut off (a crash, a full disk, an unfinished copy), what is left is not read as an RSSA file.", "quantifier": "all supported RSSA files, of any number of surfaces and tracks, and all places to cut", "why_tests_cant": "All places to cut in files of any size; tests read one whole file.", "anchors": ["src/f4enix/output/rssa.py:_read_tracks", "src/f4enix/output/rssa.py:_read_header"]}
{"id": "C206", "title": "A MCTAL file that was cut off is refused", "statement": "If a MCTAL file was cut off, what is left is refused; reading it ends, and nothing wrong is returned.", "quantifier": "all MCTAL files that can be read and all places to cut, also within a line", "why_tests_cant": "All files and places to cut; tests read whole files.", "anchors": ["src/f4enix/output/mctal.py:Mctal"]}
{"id": "C207", "title": "Neighbour ratios and mitigation computed in floating point", "statement": "What the exact rules for neighbour ratios promise also holds as computed with 64-bit floats: every ratio is a number and at least 1, it is within a few units of the last place of the exact one, and mitigation leaves out exactly the windows whose ratio in floats is above the limit, in the same order.", "quantifier": "all window meshes of non-negative values, of any shape, and all limits", "why_tests_cant": "Rounding and overflow of every division for meshes of any values; tests use a few round numbers.", "anchors": ["src/f4enix/input/ww_gvr/ratios_calculation.py:calculate_max_ratio_array", "src/f4enix/input/ww_gvr/weight_window.py:mitigate_long_histories"]}
{"id": "C208", "title": "GVR values computed in floating point", "statement": "As computed with 64-bit floats, the GVR value of the voxel with the greatest flux is the float of 2 / (splitting ratio + 1), no value is greater, the values are in the order of the fluxes and near the exact ones, a voxel with the flux zero gets the value zero, and one with a flux that is not zero gets a value that is not zero.", "quantifier": "all fluxes, all greatest fluxes that are positive and all splitting ratios", "why_tests_cant": "Rounding and underflow for every flux map; tests compare one small map.", "anchors": ["src/f4enix/input/ww_gvr/weight_window.py:_convert_flux_values_to_gvr"]}
{"id": "C209", "title": "A mesh tally file that was cut off gives nothing wrong", "statement": "A mesh tally file that ends too early, after any number of characters, is refused, or the tallies read from it are those of the whole file: no tally is missing without a complaint, and none has a value or an error the whole file does not show.", "quantifier": "all mesh tally files with any number of tallies in the column and matrix formats, every length they can be cut to", "why_tests_cant": "Every character of every file is a possible end; tests read whole files.", "anchors": ["src/f4enix/output/meshtal/mesh_parser.py:MeshtalParser.get_FMesh", "src/f4enix/output/meshtal/aux_meshtal_functions.py:_scan_meshfile", "src/f4enix/output/meshtal/aux_meshtal_functions.py:_get_column_data", "src/f4enix/output/meshtal/aux_meshtal_functions.py:_get_block_data", "src/f4enix/output/meshtal/aux_meshtal_functions.py:_read_block"]}
{"id": "C210", "title": "A source file that was cut off gives nothing wrong", "statement": "Opening a CDGS source file that ends too early, after any number of characters, ends, and it is refused or the sources found are those of the whole file: none is missing without a complaint, and none has a value, bin, strength or cooling time the whole file does not show.", "quantifier": "all CDGS files with any number of sources, every length they can be cut to", "why_tests_cant": "Every character of every file is a possible end; tests read whole files.", "anchors": ["src/f4enix/output/meshtal/mesh_parser.py:CDGSMeshParser.get_FMesh", "src/f4enix/output/meshtal/aux_meshtal_functions.py:_scan_cdgsfile", "src/f4enix/output/meshtal/aux_meshtal_functions.py:_get_cdgsmesh_boundaries", "src/f4enix/output/meshtal/aux_meshtal_functions.py:_get_CDGSmesh_data"]}
{"id": "C211", "title": "A cell-under-voxel file that was cut off gives nothing wrong", "statement": "Opening a cell-under-voxel file that ends too early, after any number of characters: it is refused, or the tallies found are those of the whole file, and every tally that can be read has only bins, values and errors the whole file shows.", "quantifier": "all cell-under-voxel files without times, with any number of tallies, voxels and cells, every length they can be cut to, every filter of cells and both normalisations", "why_tests_cant": "Every character of every file is a possible end; tests read whole files.", "anchors": ["src/f4enix/output/meshtal/mesh_parser.py:CUVMeshParser.get_FMesh", "src/f4enix/output/meshtal/aux_meshtal_functions.py:_scan_cuvfile", "src/f4enix/output/meshtal/aux_meshtal_functions.py:_skip_cuvdata", "src/f4enix/output/meshtal/aux_meshtal_functions.py:_get_CUVmesh_data", "src/f4enix/output/meshtal/aux_meshtal_functions.py:_get_cuv_element"]}
{"id": "C212", "title": "The outline of the model lies on the plotted plane", "statement": "When a plotter has an stl, every slice is drawn with the cut of the stl by the plane of the slice, moved a little towards the camera so that it is seen; slices that are empty or that the stl does not reach have none. (False of the code for tilted planes: the stl is cut through the centre of the bounds of the slice, which is not on the plane.)", "quantifier": "all slices, planes and stl models", "why_tests_cant": "All planes and shapes of slices; tests plot slices along the axes.", "anchors": ["src/f4enix/output/plotter.py:MeshPlotter._get_stl_slices", "src/f4enix/output/plotter.py:MeshPlotter._set_perpendicular_camera"]}
{"id": "C213", "title": "A saved atlas is in the folder", "statement": "When Atlas.save(folder) returns, the file of the atlas (its name with .docx) is in the folder and holds the document; other files are as before. (False of the code: in a folder that does not exist, and for a name with a slash such as n/p flux, the failure is only printed: the call returns and nothing has been saved.)", "quantifier": "all folders, names and documents", "why_tests_cant": "All file systems and names; tests save to one existing folder.", "anchors": ["src/f4enix/output/plotter.py:Atlas.save"]}
{"id": "C214", "title": "Printing a reaction file shows what would be written", "statement": "print(reaction_file) and str give one title line and then exactly the text that write puts into a file; what is shown of a single reaction tells it from every other one (a missing comment looks like the comment None). The text shown cannot be read as a file: reading stops at the title with ValueError.", "quantifier": "all reaction files, of any number of reactions", "why_tests_cant": "All lists of reactions; tests look at one printed file at most.", "anchors": ["src/f4enix/input/d1suned.py:ReactionFile._print", "src/f4enix/input/d1suned.py:Reaction._nice_print"]}
{"id": "C215", "title": "Attributes of a mesh hold what was assigned last", "statement": "type, comments and particle of a mesh tally take a text or None, strength and cooling_time a number or None; any other value is a TypeError and changes nothing. After any history of assignments, refused ones included, each attribute holds the last value that was taken, or what it held before.", "quantifier": "all meshes, attributes, values and histories of assignments", "why_tests_cant": "All histories; tests assign one right and one wrong value.", "anchors": ["src/f4enix/output/meshtal/fmesh.py:Fmesh.type", "src/f4enix/output/meshtal/fmesh.py:Fmesh.comments", "src/f4enix/output/meshtal/fmesh.py:Fmesh.particle", "src/f4enix/output/meshtal/fmesh.py:Fmesh.strength", "src/f4enix/output/meshtal/fmesh.py:Fmesh.cooling_time"]}
{"id": "C216", "title": "Points of a cylindrical or shifted mesh are near to its boundaries", "statement": "Every point of the grid of a mesh is where the boundaries and the origin of the mesh put it, to within 2^-23 of the sizes of the two coordinates added; points keep their order along each axis, coordinates with 24 binary digits are exact, and the points of a rectangular mesh without a transformation are exactly its boundaries. Different boundaries give different points. (The last is false of the code: coordinates are kept in single precision, so of two boundaries 1000 and 1000+1/65536 of a cylinder only one is left.)", "quantifier": "all meshes, transformations, cosines and sines", "why_tests_cant": "All boundaries in double precision; tests look at a few points.", "anchors": ["src/f4enix/output/meshtal/aux_meshtal_functions.py:_structured_grid", "src/f4enix/output/meshtal/aux_meshtal_functions.py:_rectilinear_grid"]}
{"id": "C217", "title": "Pictures of an atlas fit on its pages", "statement": "A new atlas, upright or landscape, places pictures between the left and the right margin: their width is nine tenths of the text, whatever the paper; pictures keep their proportions to within a rounding. All pages of a landscape atlas are landscape, and pictures of the default width are no higher than the page. (Both are false of the code: the title stays on a page that is not turned, and on landscape letter paper a square picture is higher than the text: only pictures up to 0.83 times as high as wide are sure to fit.)", "quantifier": "all templates of documents, orientations and pictures", "why_tests_cant": "All papers and pictures; tests look at no page.", "anchors": ["src/f4enix/output/plotter.py:Atlas.__init__", "src/f4enix/output/plotter.py:Atlas._change_orientation", "src/f4enix/output/plotter.py:Atlas._insert_img"]}
{"id": "C218", "title": "Rectangular windows are drawn near to their boundaries", "statement": "Every point of the grid of a rectangular window is within 2^-22 of the sizes of the boundary and of the origin of where they put it; without an origin it is the nearest point with single precision, and boundaries keep their order. Layers between different boundaries are not flat. (The last is false of the code: boundaries become singles first, so 1000 and 1000+1/65536 give one and the same plane.)", "quantifier": "all vectors of boundaries and origins in double precision", "why_tests_cant": "All boundaries; tests look at grids of small whole numbers.", "anchors": ["src/f4enix/input/ww_gvr/meshgrids.py:create_cartesian_grid"]}
{"id": "C219", "title": "A drawn cell lies in the voxel whose value it shows", "statement": "The drawing of a weight window has one cell for each value it shows, and a cell with the value of a voxel has its eight corners between the boundaries of this voxel: at its radii, heights and angles around the axis of a cylindrical window, at its boundaries in a rectangular one. Sectors that are split for the drawing keep the value of the sector they are part of.", "quantifier": "all windows of all sizes, all cells", "why_tests_cant": "All sizes and boundaries; tests compare a few values by hand.", "anchors": ["src/f4enix/input/ww_gvr/geometry.py:Geometry.fill_grid_values", "src/f4enix/input/ww_gvr/geometry.py:Geometry._prepare_values_for_cylindrical_grid", "src/f4enix/input/ww_gvr/meshgrids.py:create_cylindrical_grid", "src/f4enix/input/ww_gvr/meshgrids.py:create_cartesian_grid"]}
{"id": "C220", "title": "A drawn mesh cell lies in the voxel whose value it shows", "statement": "For every time and energy bin the grid of a mesh tally has one array of values and one of errors with one number for each cell. The numbers of a cell are those of a voxel of the file, and the eight corners of the cell are placed at boundaries that lie between the boundaries of this voxel, so values and places cannot get out of step; and every voxel is drawn, by cells that reach from its lower to its upper boundary.", "quantifier": "all meshes with ascending boundaries whose first angle is below half a turn, all transformations, labels, bins and cells", "why_tests_cant": "All sizes and boundaries; tests compare a few values of whole files.", "anchors": ["src/f4enix/output/meshtal/fmesh.py:Fmesh.__init__", "src/f4enix/output/meshtal/fmesh.py:Fmesh._create_grid", "src/f4enix/output/meshtal/aux_meshtal_functions.py:_rectilinear_grid", "src/f4enix/output/meshtal/aux_meshtal_functions.py:_structured_grid"]}
{"id": "C221", "title": "An MCNP output that was cut off gives nothing wrong", "statement": "The output of a run that was stopped ends anywhere. The warnings, fatal errors, lost particles, numbers of histories and statistical checks read from it are those the whole output begins with, or the reading is refused. (False of the code: within the broken last line a number or a warning is shortened, a check counts as passed that was not, a tally gets the outcome of another one; and nothing tells that the file is incomplete.)", "quantifier": "all outputs and all places where they can end", "why_tests_cant": "All places at which a file can end; tests read whole files.", "anchors": ["src/f4enix/output/MCNPoutput.py:Output.get_warnings", "src/f4enix/output/MCNPoutput.py:Output.get_fatal_errors", "src/f4enix/output/MCNPoutput.py:Output.get_lp_debug_df", "src/f4enix/output/MCNPoutput.py:Output.get_NPS", "src/f4enix/output/MCNPoutput.py:Output.get_tot_lp", "src/f4enix/output/MCNPoutput.py:Output.get_tally_stat_checks", "src/f4enix/output/MCNPoutput.py:Output.get_statistical_checks_tfc_bins"]}
{"id": "C222", "title": "A cross section directory that was cut off gives nothing wrong", "statement": "A directory (XSDIR) that was cut off anywhere is refused, or its tables are the first ones of the whole file and the path and the ratios are those of the whole file. (False of the code: the last table can have a shorter length or no temperature, and the missing tables are not noticed.)", "quantifier": "all directories and all places where they can end", "why_tests_cant": "All places at which a file can end; tests read whole files.", "anchors": ["src/f4enix/input/xsdirpyne.py:Xsdir.read"]}
{"id": "C223", "title": "A FISPACT output that was cut off gives nothing wrong", "statement": "An output with one section of paths that was cut off anywhere is refused, or gives exactly the paths of the whole file. (False of the code for outputs with several sections: one that ends in the last section gives an empty collection without a message.)", "quantifier": "all outputs and all places where they can end", "why_tests_cant": "All places at which a file can end; tests read whole files.", "anchors": ["src/f4enix/output/fispact_legacy_out.py:PathwayCollection.from_file"]}
{"id": "C224", "title": "Printed tables of an output that was cut off", "statement": "The printings of a table that get_table gives for a cut off output are those of the whole file: all that are finished are given as in the whole file, the others are refused, and get_table(n, -1) gives the last finished one. (False of the code if the widths of the columns differ between the printings.)", "quantifier": "all outputs and all places where they can end", "why_tests_cant": "All places at which a file can end; tests read whole files.", "anchors": ["src/f4enix/output/MCNPoutput.py:Output.get_table"]}
{"id": "C225", "title": "An eeout file that was cut off gives nothing wrong", "statement": "An EEOUT file that was cut off anywhere is refused, or its grid is that of the whole file. (False of the code at the end of the file: the last volume can be another number, and volumes that are as many as the points are put on the points; everything else is as in the whole file.)", "quantifier": "all files with the layout of MCNP and all places where they can end", "why_tests_cant": "All places at which a file can end; tests read whole files.", "anchors": ["src/f4enix/output/eeout.py:EEOUT.__init__", "src/f4enix/output/eeout.py:EEOUT._read_rho_vol"]}
{"id": "C226", "title": "A mesh information file that was cut off gives the meshes that are whole", "statement": "A mesh information file that was cut off anywhere is refused, or gives the first meshes of the whole file as they are there, and nothing else. (False of the code in the last mesh, which may have no masses, one wrong mass or no masses in one voxel; its number is right, and all meshes before it are as in the whole file.)", "quantifier": "all files with the layout of MCNP (any number of meshes, of both kinds), and all places where they can end", "why_tests_cant": "All places at which a file can end; tests read whole files.", "anchors": ["src/f4enix/output/meshinfo.py:MeshInfoFile.from_file", "src/f4enix/output/meshinfo.py:_read_voxels"]}
{"id": "C227", "title": "Converting a material section converts every material once", "statement": "Converting all the materials of a section to atom densities gives every material in it what converting that material gives, also when the same material is in the section twice, and changes no other; it converts all of them or none. (The last is false of the code: the materials before the one that is refused stay converted.)", "quantifier": "all sections (any number of materials, also the same one several times), all densities", "why_tests_cant": "All sections and all places where a material can be refused; tests convert one section.", "anchors": ["src/f4enix/input/materials.py:MatCardsList.fractions_to_atom_densities", "src/f4enix/input/materials.py:Material.fractions_to_atom_densities"]}
