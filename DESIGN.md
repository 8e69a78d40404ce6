# A Lean 4 model of Fusion4Energy/F4Enix

## 1. What is modelled and how

The model mirrors the Python source function by function (`/repo/src/f4enix`), as total
computable Lean functions. Python exceptions are values of an error type, Python loops are
folds or structural recursion (fuel only where the Python loop may really diverge), objects that
are mutated become functions returning the new value.

Conventions

* Python `float` is idealised as `Rat` (exact arithmetic).  Where infinities/NaN matter
  (ratio calculation) an explicit extended number type is used.  The decimal rendering of numbers is
  in Base/Decimal.lean; rounding to binary64 (nearest, ties to even, subnormals, overflow) is in
  Base/Binary64.lean and is applied to the window files (C03, C185), ratios and mitigation (C207),
  GVR values (C208), material cards (C110) and scaled densities (C51).  Elsewhere rounding and overflow are *not* modelled, except where said.
* Python `dict` is an association list with distinct keys in insertion order (`Verif/Base/Dict.lean`).
* Text is `List Char`; a line keeps its terminating newline as Python file iteration does.
* External packages (`numjuggler`, `numpy`, `pandas`, `pyvista`, `re`) are not modelled as
  packages: their documented behaviour at the call site is (see section 3).

Layout: `Verif/Base/*` shared helpers; for each area `X`: `Verif/X/Model.lean` (the model, with
source citations), `Verif/X/Spec.lean` (small independent specification, when the statement needs one),
`Verif/X/Lemmas.lean` (helper lemmas), `Verif/X/Props.lean` (property theorems with
non-vacuity examples).

Tags in the docstrings of definitions

* a definition that models code cites `file.py:first-last` (lines of `/repo/src/f4enix/...` at the pinned commit);
* `(Python)`, `(numpy, file.py:lines)`, `(pandas ...)`, `(pyvista ...)`, `(numjuggler ...)`: it models the behaviour of
  the runtime or of a package, at the call site named;
* `(specification)`: part of the independent specification, models no code; `(proof)`: used only in proofs;
  `(example)`: a concrete case beside a theorem.

## 2. Plan per property

| id | model | proof |
|----|-------|-------|
| C01 | `decompose/compose` on lists of rationals, with the `remove(1)` step | induction on the coarse vector |
| C02 | `build_1d_vectors` with `linspace` | induction; sortedness by linspace monotonicity |
| C03 | token-level writer/reader over lines of tokens; packs of six | generic "read until count" lemma |
| C04 | `Fl` (finite/inf/nan) division, six neighbours, filter, max | case analysis on neighbours |
| C05 | map of C04 over the whole array, thresholding | from C04 spec |
| C06, C07, C09 | WW state machine: particles -> energies -> arrays | induction over histories; negation witness for C09 |
| C08 | `_convert_flux_values_to_gvr` | field arithmetic |
| C10, C11 | frontier loop with fuel over an arbitrary successor function | invariant visited/frontier; termination by rank; divergence witness |
| C12 | extraction function on abstract cards | membership lemmas |
| C13 | `check_range` on string keys | list induction |
| C14, C15 | dictionaries, `merge` returning state *and* error | dictionary lemmas; witness for C15 |
| C16 | numjuggler value lists (kind, number), renumber map | map lemmas |
| C17 | `CardsDict` op sequences | invariant |
| C18, C19 | card update functions | map lemmas; witness for C19 |
| C20-C22 | irradiation file state machine with partial updates on error | invariant; witness for C21 |
| C23, C24 | character-level writer and parser (`str.format`, `re.split`) | split-of-padded-join lemma |
| C25, C26 | reaction file functions | list lemmas |
| C27-C31 | material composition over `Rat` | sums over lists |
| C32 | `convertZaid` with table parameters | case analysis |
| C33 | material list op sequences | invariant |
| C34, C35 | byte records, `_closest`, histogram | list chunking, sum lemmas |
| C36 | the eleven nested loops and stream reader | flattening of nested folds |
| C37-C40 | mesh data arrays as index functions | index arithmetic |
| C41 | rows, filters | list filter |
| C42, C79 | FISPACT pathway blocks, regular expressions written out | induction over blocks; the doubling of continued paths for every layout |
| C43, C44, C80-C88 | MCNP output as a list of lines; loops with their leaking variables | splitting of the file at the lines that matter; dictionary lemmas |
| C45 | zaid strings | arithmetic on digits; whole shipped element table by evaluation, plus a general theorem |
| C46-C48 | arrays stored in the exported grid, refreshed by each operation | invariant over histories; index arithmetic |
| C49, C50, C52 | cards as lines, shortened names, dictionaries | fold invariants; witnesses |
| C51, C53 | cells, merge with marked surfaces | map lemmas; witness |
| C54-C59 | materials | negations for every material; sums over lists |
| C60, C61 | selection and file names of the RSSA plots | case analysis; negations for every track list / name |
| C62-C65 | the nested loops that fill the data frame, pandas frame as list of rows | membership in nested folds; leak of variables as explicit state |
| C66-C72 | grids, transformations, filters, collapse of meshes | index arithmetic over all sizes, orthogonality from the matrix |
| C73-C76 | cell-under-voxel and source mesh files | reading of each voxel, then induction over voxels |
| C77, C78 | mesh information, folder contents | list equality; save/load composition |
| C89-C93 | cell cards as templates with format holes and a separate list of numbers; the region language of MCNP geometries as a grammar with a proof that it is unambiguous | shape of a card preserved by every edit; induction over the rows, over the sequence of edits, over the dictionary |
| C94-C97 | sector tables and the three editing functions of `elite.py`; cell texts as in C89; real numbers as an ordered field with sine, cosine and norm as parameters, instantiated with the real functions of Mathlib | induction over the list of sectors; pointwise processing of surfaces; sign analysis of the cosine by quadrant |
| C98-C101 | `get_reactions`, potential paths, reaction file, PIKMT, smart translation, tracking; materials as in C28, reactions as in C24 | membership through the nested loops; sorting by a proved linear order; the library dictionary against "is a parent" |
| C102, C103 | the whole MCTAL reader against a layout specification (`MctalSpec`), then composed with the data frame of C62 | a lemma per section (induction over its lines), state after each section as an explicit record, induction over the tallies |
| C104-C107 | `add_F_tally`, `get_tally_summary`, `add_stopCard`, `get_cells_summary` on dictionaries of card lines | names of cards are injective in letters and number; loop over the cards of a number as a function of three look-ups; then composition of adding and summarising |
| C108 | `write_blocks`, `_print_cards`, the blank-line pattern on characters | a card text as its lines; the pattern drops exactly the blank lines behind a line; then the lines of the file one block at a time |
| C109-C110 | `_readLine`, `SubMaterial`/`Material.from_text` and `to_text`, `MatCardsList.to_text` | specification of lines as pairs and keywords (`LineSays`, `GroupOk`); the loop of the reader by parts; the written lines satisfy the specification of the reader |
| C111-C113 | `PathwayLibrary` (decay_pathways.py): constructor, `filter_pathways`, `get_pathways` | the table as a list of rows, pandas' `loc`/`groupby.max`/`sort_values` as functions on lists; membership, maxima by induction, the order by transitivity and totality of the comparison of texts, values of digit strings |
| C114-C117 | `Xsdir`, `XsdirTable` (xsdirpyne.py), `_xsdir_to_ace_filepaths` (ace.py) | files as lists of lines, tables as records; a layout specification (relation between lines and tables), induction over the entries; decimal numerals for the metastable flag |
| C118-C121 | ace.py: combination of reactions, choice of the temperature, mixtures, groups; the ACE data are parameters, the points of a group are those of numpy.logspace over real numbers (AceGroups.lean) | sums by induction over the components, rounding half to even, order of an ordered field for the averages |
| C122-C123 | cuv_sampling_error.py: reader, error, array | layout relation and induction over voxels; the square root as a function with its two laws |
| C124-C128 | `EEOUT` (eeout.py): all readers and the grid; `export` is not modelled | a layout specification of the file (EeoutSpec.lean), one loop lemma per section, composition to the whole file; `float()` is a parameter |
| C129-C135 | `Menu` (ww_gvr/cli.py): the two loops and every command as functions of the lines typed | induction over the lines; an invariant of all sessions (`Good`); the windows' own functions, `float()` and `Path()` are parameters; the fuel of the loops is proved not to matter |
| C136-C138 | `read_meshtally_file`, `create_gvr_from_meshtally_file` (WW/Gvr.lean) | equational proofs on the model of a read mesh tally (Out/Meshtal) composed with the vectors (WW/Vectors) and the window (WW/State) |
| C139-C141 | `meshgrids.py` over the real numbers (WW/Meshgrids.lean) | list indexing of nested loops; Rodrigues' formula is a rotation (scalar and vector products kept) that takes the vertical to the axis; `arccos` from Mathlib |
| C142, C143 | `_add_categorization` with the shared dictionaries of `constants.py` as state (Out/Plotter.lean) | invariant of all sessions of plots: a dictionary is as written or has its limits reversed; labels by induction on the limits |
| C144-C146 | slicing and `plot_slices` | index of `filterMap`; induction on the slices with files and dictionary as state; rounding by floor |
| C147, C148 | `Atlas`, `CDFplot.plot` | list equations; counting by induction on the bins |
| C149 | `GROUP_STRUCTURES` (Inp/Egroups.lean, generated) | the finite table is checked by the kernel (all of it); the division of all energies follows by induction on the edges; composed with the collapse of C121 (EgroupsLog.lean) |
| C150, C151 | `MaterialComposition` and the shipped compositions (Mat/Library.lean, generated) | list equations; the finite table is checked by the kernel |
| C152–C154 | `Fmesh.write` and `Meshtal.write_all` (Out/FmeshWrite.lean) with exact `.3f` formatting over the rationals; a folder is a dictionary of texts | induction on the lines; reading functions in the specification (`readDec`, `fieldsOf`); the names of the files of two tallies never agree |
| C155 | `transform_fmesh` (Out/FmeshWrite.lean), with the search for `tr=N` as a function on characters | the search is characterised by all decompositions of the line; induction on the cards and on the dictionary |
| C156–C158 | `LibManager.__init__` on tables of paths and on one path, `check4zaid`, `get_libzaids`, `is_lib_available`, `OpenMCXsdir` (Inp/LibManager.lean); opening a file is a parameter | invariant of the loop (the variables hold the directory of the last path); induction on rows and codes; duplicates removed by a fold |
| C159 | `to_xsdata`, `to_serpent`, `SerpentXsdir` (Inp/LibManager.lean), texts of floats as parameters | lines as words with blanks, tokenised again; induction on the tables |
| C160, C161 | `extract_sector` as a whole and `_initialize_elite` (Inp/EliteWhole.lean), composed of the models of extraction, cell texts, source and boundaries; the state is the table read | the theorems of C12, C94-C96 composed; membership of the values added to the two cells |
| C162 | `_rotate_plane` (Inp/EliteWhole.lean) with Mathlib matrices over a field | inverse of an orthogonal matrix is its transpose; planes as sets of points |
| C163-C167 | the scanner, the head, bins and formats of meshtal files, `get_FMesh`, `readMesh`, `mesh_ids` (Out/MeshFile.lean); a position in the file is the list of lines after it | a grammar of files in the specification (`IsFile`, `ShowsBounds`, `ShowsValues`); induction over the tallies of the file; the value theorems of C40 |
| C168, C169 | cell-under-voxel and source files as a whole (Out/MeshFile.lean) | the same, with the value theorems of C73 and C76 |
| C170-C172, C174, C175 | `get_info`, `_update_info`, `from_zaids`, `to_xml` of materials (Mat/Info.lean); data frames are lists of rows | induction over elements and submaterials; the conversions of C20-C23; sums over zaids in the specification (`shownSum`, `nameSum`, `elemSum`, `relMass`) |
| C173 | `MatCardsList.from_input`, `add_mx`, `to_text` (Mat/Deck.lean) | induction over the cards; a grammar of data blocks (`Part`) for the MX cards |
| C176 | `print_lp_debug` (Out/LpDebug.lean) over the table of C82 | grouping as counting; the specification `Counts` speaks of sublists of rows |
| C177 | `to_dataframe` of pathways (Out/FispactFrame.lean) with the nuclide table of C24 | induction over the pathways; order of texts of digits |
| C178, C179 | `info` of weight windows, choice of scale of plots (WW/Info.lean) | invariant of C07 after any history; `Int.log` for the decades |
| C180, C181 | retrieval of cards, lists of tallies (Inp/Retrieve.lean) on the decks of C10-C19 and the reading of C49 | induction over the numbers asked for; the shortened names of C49 |
| C182 | `get_comments` (Inp/Comments.lean) | induction over lines built from a grammar of lines |
| C183 | `debug_file_unicode` (Inp/Unicode.lean) with a UTF-8 decoder as Python's | the decoder against Lean's `String.utf8EncodeChar`; a walk over the items for lines and columns |
| C184 | `D1S_Input.from_input` for its two files (D1S/Workflow.lean), on the models of C21-C27 | composition of the potential paths with the round trip of reaction files: bounds on the lengths of names |
| C185 | `load_from_ww_file`, `write_to_ww_file`, `_build_header` (WW/File.lean), on the text model of C03 and the state model of C07 | composition: axes by C01, text by C03, values by induction over the energies, histories by C07 |
| C186 | no new code: histories of the operations of C11-C16, C18, C19 (Inp/Assemble.lean) | an invariant (`Complete`) preserved by every operation, induction over the history |
| C187 | `RSSA.type`, `RSSA._get_info` over exact reals (Out/RssaInfo.lean) | bounds on the standard deviation from above and below; the reading theorem of RSSA files |
| C188 | `translate` of submaterials, materials, lists and inputs and `smart_translate` as functions of the state, failures included (D1S/Translated.lean); `json.loads` is a parameter | a general lemma about loops that change their elements in place, agreement with the result model of C28/C100, induction over the lists |
| C189 | `delete_fill_cards` (Inp/Fills.lean); `remove_fill` and the new reading of the card are a parameter with a stated specification | induction over the cells, preservation of `Complete`, equality of the two collections by induction over the loop |
| C190 | `indent` and the tree of `to_xml` (Mat/Xml.lean), `ElementTree.tostring` as in CPython 3 | mutual induction over trees and lists of trees; the layout is a separate specification (`layout`, `materialLines`) |
| C191 | `create_gvr_from_meshtally_file` on the lines of a meshtal file (WW/GvrFile.lean), over the reader of Out/MeshFile and the objects of WW/File | composition of C163-C164 (the reader), C08 (the window) and C01 (files); the window is described by `IsWindow` and the flux by `Greatest`, over what the file shows |
| C192 | the formats `{:.pE}`, `{:.pe}`, `{:#.pg}`, `"{:.pE}".format(Decimal)` and `float(str)` on exact rationals (Base/Decimal.lean); used by the window files (WW/Numbers), material cards (Mat/Numbers), densities (Inp/DensityNumbers), irradiation files (D1S/Numbers), energies of tallies (Inp/TallyNumbers) | the digits are those of the rational rounded half to even at the decade of its absolute value; `roundSig` is the specification, the bound, order and idempotence are proved about it and the text is shown to denote it. Trusted: that CPython's correctly rounded formatting and reading of doubles agree with this on the exact value of the double; the rounding to a double, inf, nan, -0 and underscores are not modelled |
| C193 | Fortran's `1PEw.d` (`fmtFortran`, specification, Base/Fortran.lean) given to the readers of MCTAL, mesh tally, eeout, output and window files (Out/FortranNumbers.lean, WW/LongNumbers.lean) | `float` of such a word by the model of C192; for each reader the exact outcome |
| C194 | the menu (Cli) on a disk of texts, with the windows of State and File; `diskAfter` gives the files after what was written (WW/CliFiles.lean) | induction over the commands: every window comes from a file, a tally, an operation, or a file written before; then the theorems of C07, C185, C192 (WW/CliFilesProps.lean) |
| C195 | the same; the number typed is a float, the default an int (`PyNum`) | running the command on any state; false for the numbers a user types |
| C196 | the tally read from the file (MeshFile), its grid as pyvista keeps it with the centres of the cells (Out/MeshExport.lean), the export (FmeshWrite) | C164, then the places of arrays and cells in the grid, then C152 (Out/MeshExportProps.lean) |
| C197 | the same; cosine and sine are parameters | the mean of the corners computed; false for cylinders with wide angular bins |
| C198 | the writer and reader of weight windows (WW/Parser.lean), every initial part of the written text as the file left behind by a crash | the words of a part are words of the whole but for the last (Base/Cut.lean); a window needs as many words as were written (WW/Cut.lean, WW/CutProps.lean) |
| C199 | the writers and readers of reaction and irradiation files (D1S/Model.lean), every initial part of the written text | a part of the text is whole rows and a part of one row (D1S/Cut.lean) |
| C200 | as C196, with the writers of point clouds, fluent and vtk files | the names of the arrays keep all their characters in the names of the files and differ, so no file is written twice; then as C196 (Out/MeshExportMore.lean) |
| C201 | the disk as a dictionary of texts; a crash leaves it as it was or with an initial part of the new text at the path (Base/Crash.lean); `IrradiationFile.write` with what it has written when it fails (D1S/Save.lean) | C198 and C199 applied to what the crash leaves (WW/Save.lean, D1S/Save.lean) |
| C202 | `get_xs` of a material: the two switches of fractions (Mat/Model.lean), then the mixture (Inp/Ace.lean), with the material after the call (Inp/AceMaterial.lean) | both switches computed: the shares of the atoms, which scale out |
| C203 | the same | the material after the call; false |
| C204 | `Vectors.__eq__` over rationals (WW/VectorsEq.lean) | equality as a relation on lists; two negations |
| C205 | the reader of RSSA files (Out/Rssa.lean) on initial parts of files (Out/RssaCut.lean) | a reader that succeeds does so with more bytes after it; lengths |
| C206 | the reader of MCTAL files (Out/Mctal.lean) on initial parts of files (Out/MctalCut.lean) | each part of the reader depends on the lines it uses only; induction on the tallies |
| C207 | `calculate_max_ratio_array`, `mitigate_long_histories` with every division rounded to a 64-bit float (WW/Floats.lean), the rounding itself in Base/Binary64.lean | the rounding is monotone, exact on floats and within half a unit; comparison with the exact model of C04 |
| C208 | `_convert_flux_values_to_gvr` with every operation rounded (WW/Floats.lean) | the same |
| C209 | `MeshtalParser` (C163, C164) on the first characters of a file (Out/MeshFileCut.lean) | the line every number is read from is known in closed form, so two readings of files with the same beginning can be compared line by line |
| C210 | `CDGSMeshParser` (C169) on the first characters of a file (Out/SourceCut.lean) | every search for a line is followed to the place of the cut; the last line of a source may itself be cut |
| C211 | `CUVMeshParser` (C168) on the first characters of a file (Out/CuvCut.lean, Out/CuvFileCut.lean) | `_skip_cuvdata` is passed only when the cut is in the last voxel; there a line of values without its errors leaves no errors, which numpy refuses |
| C212 | `_get_stl_slices`, `_set_perpendicular_camera` (Out/PlotterStl.lean); the cut of the stl is a parameter | the bounds of a flat slice on a plane parallel to an axis: the extremes of two coordinates on a line belong together |
| C213 | `Atlas.save` on a file system of folders and documents (Out/AtlasSave.lean) | the parent of a path, cases on what is wrong with opening it |
| C214 | `ReactionFile._print`, `Reaction._nice_print` (D1S/Printing.lean) | induction on the loop; cancelling lines |
| C215 | the setters of `Fmesh` (Out/FmeshAttrs.lean) | induction on the history of assignments |
| C216 | points of grids in binary32, computed in binary64 (Base/Binary32.lean, Out/GridSingle.lean) | errors of rounding added up; rounding keeps order |
| C217 | pages, margins and pictures of an atlas in EMU, sums in binary64 (Out/AtlasPage.lean) | errors of rounding added up |
| C218 | the points of C139 with the roundings of binary32 and binary64 (WW/MeshgridsSingle.lean) | errors of rounding added up; the nearest single |
| C219 | values of C48 and points of C139, C140 together (WW/CellsDrawn.lean) | the sectors drawn are parts of the sectors given; arithmetic of places |
| C220 | C38, C66 and C67 together (Out/MeshCells.lean) | name of the array, place of the number and corners of the cell by the same indices |
| C221 | readings of Out/Outp.lean on the lines of a prefix of the text (Out/OutpCut.lean) | induction over the lines before the cut; what one line can do to the outcomes; digits of a prefix are a prefix |
| C222 | Inp/Xsdir.lean on the lines of a cut file (Inp/XsdirCut.lean) | induction over the entries; words of a cut line but the last are words of the line; continued lines |
| C223 | Out/Fispact.lean on the lines of a cut file (Out/FispactCut.lean) | the titles found decide: without the second title the reading is refused |
| C224 | getTable (Out/OutpTable.lean) on the lines of a cut file (Out/OutpTableCut.lean) | a cut file has the finished parts and lines without a finished one (cut_segs); the loop is quiet on those |
| C225 | readFile (Out/Eeout.lean) on the lines of a cut file (Out/EeoutCut.lean) | the sections before the densities are read whatever follows (read_before); without volumes no grid is made; the numbers of a broken line |
| C226 | fromFile (Out/Meshinfo.lean) on the lines of a cut file (Out/MeshinfoCut.lean) | what the loops over cells, voxels and meshes give for a cut file, compared with the whole file, by induction; in the whole file they give what it says (C41) |
| C227 | the loop over the materials of a section as objects (Mat/ConvertAll.lean) | the mean mass of a converted material is that of the material, so a second conversion divides and multiplies by the same total; induction over the list |

Every property can be expressed in a model; those whose truth depends on floating point rounding
are proved over exact numbers and say so.

## 3. Trusted base

* Lean 4.33.0 kernel. Axioms used by any theorem: at most `propext`, `Classical.choice`, `Quot.sound` (vcheck replays
  every module). No axiom, `sorry`, `native_decide` or `bv_decide` of our own; concrete cases are evaluated by
  `decide +kernel`, i.e. by the kernel.
* The faithfulness of the model, established by reading only (the code cannot be run here). Every definition cites the
  lines it models, or says by its tag that it models none (section 1).
* Assumptions on the Python runtime and on packages (below and at the head of every model file).

### Runtime and packages

| what | assumed | not modelled |
|------|---------|--------------|
| `str`, `re` | `Verif/Base/{Text,Tokens,Find}.lean`: white space as Python's `\s`, ASCII digits, splitting, stripping, leftmost search | Unicode digits, underscores in `int()` |
| `dict` | association list in insertion order (`Verif/Base/Dict.lean`) | hash details |
| `float` | exact rationals; parsing and printing are parameters with the hypotheses stated in each theorem | rounding and overflow (except where `dbl` of Base/Binary64.lean is used: window files, ratios, GVR, material cards, densities), NaN/inf (except in the ratio calculation, `Fl`, and NaN values in MCTAL files) |
| `numpy` | arrays as lists or index functions; `allclose`, `linspace`, `histogram`, `argmin` as documented | memory layout, dtype conversions |
| `pandas` | frame = columns and rows with index labels | dtype inference, `read_fwf`, ordering of groups |
| `pyvista`/`vtk` | named arrays on a grid, points | rendering, file formats, 32 bit coordinates |
| `numjuggler` | a card = its number, its list of (number, kind), its text around the number; getters return the first value of a kind; `apply_map` maps each kind | the card tokenizer itself, lattice fills, caches of getters; `get_geom` and `card(wrap=True)` + rereading are hypotheses (`GeomOk`, `RereadOk`) |

### Which parts of the code are modelled

| file | modelled | not modelled |
|------|----------|--------------|
| `input/d1suned.py` | `IrradiationFile`, `ReactionFile`, `Irradiation`, `Reaction`: reading, writing, add/remove/select, library change | `name` attributes, partially written files |
| `input/MCNPinput.py` (`D1S_Input`) | reading of the irradiation and reaction files, potential paths, reaction file, PIKMT, smart translation, tracking | |
| `input/ww_gvr/utils.py` | `compose_b2_vectors`, `decompose_b2_vectors`, `build_1d_vectors` | |
| `input/ww_gvr/ww_parser.py` | `parse`, `write`, header and blocks, `read_meshtally_file` | read errors of malformed files beyond those stated |
| `input/ww_gvr/ratios_calculation.py` | all | |
| `input/ww_gvr/weight_window.py`, `geometry.py` | loading and writing, particles, energies, values, soften, multiply, mitigate, add/remove, GVR creation, arrays of the exported grid, the numbers of `info`, scale of plots | drawing, `__repr__` |
| `input/ww_gvr/meshgrids.py` | all, over the real numbers | float rounding (single precision is a parameter of the Cartesian grid), pyvista (`rotate_vector` is Rodrigues' formula, refused for a zero vector and an angle that is not zero) |
| `output/plotter.py` | `slice`, `slice_on_axis` (names), `slice_toroidal`, `plot_slices`, `_add_categorization`, `Atlas.add_section`, `Atlas.build_from_root`, `CDFplot.plot` | pyvista, PIL, docx and matplotlib (cuts, drawings and histograms are parameters or assumed), camera, page layout, `save` |
| `egroups.py`, `material_library.py` | all | the conversion of strings to numbers (exact decimals) |
| `input/MCNPinput.py` | reading of blocks into dictionaries, extraction, merging, renumbering, range check, materials and densities of cells, key updates, editing of cell texts (surfaces, hashes, unions, universe, filling), tallies and their summary, stop card, cell summary, writing of files | `smart_translate` and the D1S helpers are in the row above |
| `input/elite.py` | `_set_sdef`, `_set_boundaries`, `_get_boundaries_angles`, `_modify_graveyard`, `_check_tol`, `_modify_boundary`, the sector tables, `extract_sector` as a whole, `_initialize_elite`, `_rotate_plane` | reading of the Excel file, the 8-decimal text, singular matrices and TR cards with twelve values |
| `input/materials.py` | zaids, elements, submaterials, materials, material lists: collapse, translate (failures included), switch of fractions, densities, mixtures, reading and writing of cards with their MX cards, the information tables, the XML export | the text behind `$` |
| `input/libmanager.py` | zaid conversion, names and numbers, masses and abundances, the shipped isotope table, construction from tables of paths, zaids and libraries | reading of the isotopes and reaction files |
| `output/rssa.py` | reader (bytes), filters, current maps, file names | drawing |
| `output/mctal.py` | reader, data frames, error summary | drawing |
| `output/meshtal/*` | scanning of files, heads and bins, readers of all formats, `readMesh`, grids, transformations, labels, comparison, filters, collapse, cell-under-voxel and source meshes, export to csv, point clouds and Fluent files, transformation by the input | the text of vtk files, several time bins of cell-under-voxel meshes |
| `output/meshinfo.py` | all but the HDF5 layout | |
| `output/fispact_legacy_out.py` | pathways, the data frame | dose tables |
| `output/MCNPoutput.py` | lost particles and their files, statistical checks, tables and the reading of their fixed width rows, warnings, errors, version | Excel/csv/vtp export |
| `output/decay_pathways.py` | constructor, `filter_pathways`, `get_pathways`, the order by zaid number | reading of the csv file, order of the rows of `filter_pathways` |
| `input/xsdirpyne.py` | reader, searches, metastable flag, Serpent and OpenMC directories, export to Serpent | other exports |
| `input/ace.py` | files of the tables, reactions, temperature, mixtures, groups | openmc's reading of the ACE data, interpolation in energy, `logspace` |
| `output/cuv_sampling_error.py` | all | writing of the vtk file |
| `output/eeout.py` | readers and grid | `export`; pyvista (where arrays are attached is assumed) |
| `input/ww_gvr/cli.py` | all commands | what is printed (but for the text kept), the screen |

## 4. Where the code does not do what a user expects

Each of these is a theorem (the claim named) about the model of the code as it is.

* C09: `add_particle` softens nothing unless soft = 1. C11: extraction with a reference cycle never ends.
* C15, C21: a refused merge / a refused removal of an irradiation time leaves the object half changed.
* C19: a negative *old* material is accepted. C18: a void cell cannot receive a density below one in absolute value.
* C12: a white boundary surface (`+n`) makes the extraction raise `KeyError`.
* C47: `remove_particle` leaves the arrays of the particle in the exported grid.
* C49: cards with the same shortened name (F124, DF124) overwrite each other; a thermal card is attached to the last material read.
* C50: after a key update a tally is found under `F4:N`, no longer under `F4`. C53: surfaces `5` and `*5` can be merged side by side.
* C45: Nobelium has the symbol of Niobium. C54: translation to an unavailable library drops zaids instead of refusing.
* C55: asking for a density rewrites the fractions of the material. C56: `switch_fraction(inplace=True)` returns submaterials without zaids.
* C31: surplus materials or percentages of a mixture are ignored silently.
* C60: `plot_cyl` with only one of the two ranges is refused. C61: the error plot is saved under another name than announced.
* C34: record markers of the tracks and the announced number of tracks are not checked.
* C63: first and third mesh axis exchanged in the data frame. C64: total bins leak from one tally to the next. C65: error summary
  wrong once duplicates have been dropped; a NaN among the values drops the whole `Value` column.
* C66: tilted cylindrical meshes are drawn upright or refused. C68: filtering a transformed mesh transforms it twice. C69, C70: collapsed
  grids and printed bins.
* C74: cell-under-voxel files cannot be read with the default normalisation. C75: totals given apart make the file unreadable.
  C76: a voxel with zero fractions makes the reading of a source mesh fail.
* C77: comparing mesh informations of different size raises. C78: masses of an older save are loaded.
* C79: the nuclide at the break of a continued path appears twice (the repository's own test asserts the wrong count).
* C43: a tally line without outcome inherits that of the previous tally. C44: "uninteresting" warnings are all reported.
* C83: `get_LPR` raises `TypeError` for a run without lost particles. C86: a tally without description inherits that of the
  previous one. C87: `get_table(6)` reads table 60; of several printings of a table the earlier ones are cut at the
  column widths of the last (`instance_widths`); a table without empty lines around its header loses its last row (`last_row_lost`). C88: an output given by
  a path without folder raises instead of looking at the files beside it (`version_missing`). MCNP versions are only looked for in the first line; version 10 is reported as 1.
* C91: `cells_union` overwrites a cell that already has the requested number, leaves the old number on the card of a
  single cell, and loses the cells when a number is listed twice. C93: `remove_u` on `u= 5` shifts all following numbers.
  C89: a card whose density is on the second line cannot be edited.
* C97: the sign of the move is taken from the card, not from the rotated normal: a plane with a rotation that turns its y component to the other
  side is moved inwards even along the boundary angle; rotated PX, PY, PZ planes raise an IndexError.
* C96: extracting all sectors puts two stars on the cutting plane. C97: planes of the universes whose normal points away from
  the boundary's are moved inwards instead of outwards. Wedges of more than 180 degrees are cut with the intersection of two half spaces.
* C98: an unknown daughter hides all later reactions of the parent. C100: equal activation and transport libraries make `smart_translate`
  fail half way. C101: a refused `who` leaves an unfinished FU card.
* C103: the data frame of a radiograph lacks the last two columns of the image.
* C104: `add_F_tally` ignores a third particle and spells a second one letter by letter; without cells it writes `SD 1 -1R`; it registers the number before it can fail; overwriting a tally keeps its old energies, description and multiplier.
* C105: one tally of another particle than n or p makes `get_tally_summary` fail for all; a tally's own tag is deleted from its description; `FMESHn` is read as multiplier of `Fn`; an `FM` card without text and an input without tallies raise.
* C108: a card whose text begins with a blank line (other than newlines) adds a block to the written file.
* C109: a zaid at the end of a line is dropped with its fraction on the next; an indented comment becomes keywords; keywords under the name without zaids are lost; a comment at the end of a card raises `UnboundLocalError`.
* C110: a part without a comment behind another part is read back as belonging to it.
* C111-C112: a valid request that matches no row raises `KeyError`, one without values `ValueError`; rows are ordered by the text of the zaid number, so nuclides of elements below 10 stand behind heavier ones.
* C113: the constructor deletes the column `state` of the caller's table; making a second library from it raises `KeyError`.
* C115: libraries whose suffix has more than three characters (710nc) are never found by zaid. C116: metastable states of nuclides up to mass 200 are flagged as ground states (the first state). C117: a table name without a dot makes every lookup fail.
* C120: in a mixture each fraction multiplies the cross section of the nuclide before it in the list, the first that of the last. C121: the first group is a division by zero if the structure begins at the lowest energy; a structure that begins at zero has no first and no second value (the logarithm of zero), as twelve of the shipped ones (C149); with a single integration point all values are zero.
* C122: a short line ends the reading silently. C123: a cell with partial volume 0 raises `ZeroDivisionError`.
* C125: of several time or energy bins of an edit only the last block of values and of errors is kept. C126: with as many points as elements, the values of the elements are attached to the points. C127: second order tetrahedra (ten nodes) are given the VTK type of first order ones.
* C130: the result of an operation on a window whose name has a dot is kept under the part before it and may replace another window. C131: the menu of operations shows `rem` and `mit`, but accepts only `remove` and `mitigate`; the word `empty` ends the program. C134: opening a loaded name asks for another file and then loads the first one all the same; the splitting ratio typed is passed as the number of the tally. C135: `vtk` writes `.vts` where `.vtk` is announced, and all of `a.b`, `a.c` to `a.vts`.
* C137: the origin of a cylindrical mesh tally is stored in reversed order; an upright MCNP5 tally at the origin has no transformation and ends with `AttributeError`; one with its axis along -x gets a direction that lies on the axis. C138: all but the first time bin are dropped. C134: the menu passes a number with a decimal point, which finds no tally. C140: an axis pointing straight down ends with `ValueError`. C141: the angle of `vec` is taken without its sign and before the turn to the axis.
* C142: the limits are paired with the categories from the top, so every value below the greatest limit is shown one category too high, and since `reverse` changes the shared lists every second slice uses the limits in the wrong order. C143: `<U10` cuts the labels, so SDDR and TNF plots get no colours, and a category with one value gets none. C144: after an empty cut slices carry the name of an earlier angle. C145, C146: slices with the same (rounded) name overwrite each other's files. C147: `jpeg`, `tiff`, `PNG` are left out. C148: at most 200 curves.
* C149: with a table that begins at the first edge the first value of a collapse is a division by zero. C151: the titanium alloy has 61.25% aluminium and adds up to 155%.
* C152: the csv and Fluent exports keep three decimals, so fluxes per source particle become 0.000; arrays on cells and points together break the csv export. C153: `a[1]` and `a1` share a file. C155: the flag is searched in lower case, so `TR=5` is ignored without a message, and `tr= 5` raises `KeyError`.
* C156: `prev_path` is not reset between codes, so a path shared by two columns keeps the directory class of the first; empty cells of csv and Excel tables are `nan`, on which `os.path.exists` raises `TypeError`. C158: `OpenMCXsdir.read` never appends to `self.tables`. C159: `to_xsdata` writes one line for each table, `SerpentXsdir` reads every second line.
* C160: surfaces are collected before the outer cell is cut, so the file can lack the planes it refers to. C161: the Excel file of later calls is ignored. C162: displacements of TR cards are ignored, pure translations are skipped.
* C165: the column format with volumes is read wrongly (volumes as values). C166: a comment with the words `mesh tally.` ends the head; without these words reading never ends. C168: times make a cell-under-voxel file unreadable. C169: sources moved from the origin are refused.
* C171: only the converted column of `get_info` is normalised. C173: MX cards are given to the next material if its card follows at once, and a material with MX cards cannot be written. C174: zaids without a translation are lost silently. C175: materials from an input have no density and cannot be written as xml; metastable zaids get wrong names.
* C176: particles lost in cells without a universe are in no line of the sheet by universe; an input and no lost particle gives a KeyError. C177: daughters are sorted by the text of their number (C-14 after Fe-53); empty collections are refused. C179: the upper limit of the logarithmic scale can lie below the greatest value.
* C180: a surface with the mark `+` is not found by its number. C181: a tally is missing from the list of tallies if its dose function card follows. C182: the text behind a dollar sign in a comment line is given twice; comments of a last line without newline and indented comment lines are lost.
* C185: neutron energies that agree in five digits are merged by writing and loading a window.
* C186: extraction drops the partner of a periodic surface if no needed cell is bounded by it, and, without `keep_universe`, a requested cell that fills another needed cell loses its universe: the filling is then left without cells.
* C187: the type of the surface is guessed from the tracks: one track is always a cylinder, a cylinder around another axis is a plane.
* C188: a refused translation leaves the materials and submaterials before the failing one translated; repeating it with a dictionary completed by the missing library is then refused.
* C193: a number whose exponent has three digits (written 1.00000-105 by Fortran) is read as zero with error zero in MCTAL files, left out if it is a coordinate of an eeout file, and makes the reading of other results of eeout files, mesh tallies, lost particles and window files fail.
* C195: typing any number but 0 as the splitting ratio of the command gvr ends the program with KeyError.
* C197: the csv, point cloud and fluent files of a cylindrical mesh tally with one angular bin give every voxel a point on the axis; the radius is lost.
* C198: a weight window file cut off before the exponent of its last number is read with a wrong last weight; one cut off between two lines makes the reader loop for ever.
* C199: a reaction or irradiation file cut off between two rows is read as a complete shorter file.
* C201: every writer empties the old file first; `IrradiationFile.write` may raise a TypeError half way and leave a shorter file that is read as complete.
* C203: `get_xs` changes the fractions of the material it is given.
* C204: `Vectors.__eq__` has an absolute tolerance of 1.5e-6: different small meshes are equal, and equality is not transitive.
* C205: an RSSA file that was cut off between two tracks is read without a message; the number of tracks in the header is not compared. C206: a MCTAL file that was cut off before the line `vals` is read forever; one cut off after a tally is read without the others.
* C207: a step between neighbours of more than about 2^1024 is dropped from the ratios (its quotient is an infinity or zero), so the steepest step of a map is the one not mitigated. C208: a positive flux more than about 2^1075 below the maximum gets the window zero.
* C209: tallies behind the end of a cut file are missing without a complaint; the last line of a cut column file can give a coordinate as the value and the value as the error; of a cut matrix row one number is repeated over the row.
* C210: a source file that ends within a source is read for ever; sources behind the end of a cut file are missing without a complaint.
* C211: tallies behind the end of a cut cell-under-voxel file are missing without a complaint; an error line cut down to one number is repeated over the energies.
* C212: the stl is cut through the centre of the bounds of a slice, which is not on a tilted plane.
* C213: a missing folder, or a name with a slash, is only printed: nothing is saved and the call returns.
* C216: two boundaries that are one number in single precision give a layer without height.
* C217: the title of a landscape atlas stays upright; a square picture of the default width is higher than the landscape page.
* C218: boundaries of a window that are one number in single precision are drawn as one plane.
* C71: convert2tally takes cylinders with two angular bins for split circles and drops the second sector; with several energies it drops all times but the first.

## 5. Tests of the theorems

`seeded/LOG.jsonl` records edits of the model (in a scratch copy) the way a realistic bug would change the program, which
theorems failed, and which were tightened because they did not.
