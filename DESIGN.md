# Formal model of pytornado — design

Subject: airinnova/pytornado, pinned source in `/repo` (Python + C++).  Nothing of
`/repo` was built or run; the model was written by reading it.  Prover: Lean 4.33.0
with Mathlib (imported module by module).

## 1. Trusted base

* The Lean 4 kernel (type checker) and the Lake build.
* The standard axioms of Lean/Mathlib: `propext`, `Classical.choice`, `Quot.sound`.
  Every theorem named in `MANIFEST.json` depends on a subset of these three and on nothing
  else: `lean/Verif/Audit.lean` (generated) collects the axioms of each of them during the
  build and fails the build otherwise.  No axiom of our own, no `sorry`/`admit`, no
  `native_decide`, no `bv_decide`, no `implemented_by`.
* The faithfulness of the hand-written model: each definition cites file and lines
  of `/repo` and says where it simplifies (`tools/check_citations.py` checks that the cited
  lines exist).  There is no mechanical link between the Python/C++ text and the Lean text.

### What is *not* modelled (and what runtime behaviour is therefore outside)

* **Floating point.**  `float`/`double` are exact numbers: an arbitrary linearly
  ordered field for panelling/state logic, `ℝ` where square roots, sines or π are
  needed.  Rounding, overflow, subnormals are not exhibited by the model.  Values that are
  not finite are an explicit case (`none`, `Flt.nonfin`, `Stop.notFinite`): what the code
  does with them afterwards is not modelled.  Where the code divides by a quantity that can
  be zero, the model has a case for it; Lean's `x/0 = 0` is never relied on in a positive
  claim.
* Overflow of 64-bit integers.  (Indices of 32 bits are modelled in `Model/NativeInts`, C146; all
  other claims use integers of any size.)
* Memory management and reference counting of the Python C API.  (Attribute and item lookup,
  type checks, index arithmetic and array contents at the border of Python and C are modelled
  in `Model/Native`; C121 shows that runs at that level are those of `Model/Run`.)
* External packages: `commonlibs` (`get_plane_line_intersect`, `axis_rot_matrix`,
  `lin_interpol`, `ProjectPaths`), `airfoils`, `ambiance` (atmosphere), `aeroframe`
  (deformation interpolation), `schemadict`, `tixi/tigl`, `numpy`, `json`, `matplotlib`,
  LAPACK.  They are not part of the repository.  Where needed they enter as a parameter
  (arbitrary function) or by their textbook contract, always visible in the statement and
  cited in the comment of the definition.  Contracts used:
  `get_plane_line_intersect` (the point of the line in the plane), `axis_rot_matrix`
  (Rodrigues' formula; not finite for a zero axis), `lin_interpol` (straight line through
  two points), `schemadict` (a required key must have a value of the given type and range, another
  one may also be missing or `None`; its exception and its treatment of unknown keys and booleans
  are parameters), LAPACK `dgesv` (`Lapack` in `Props/Run`: a solution for a regular matrix,
  the right-hand side unchanged for a singular one — the caller ignores `info`).
* Logging (except the warnings of `Model/Continuity`), the drawing itself (matplotlib), directory creation, process exit codes, the text formats of files
  (JSON, matrix text): a file is the data in it.
* Multi-threading: the code is sequential.

## 2. Shape of the model

* Exceptions are values: `Except PyErr α`; `PyErr` lists the Python exception classes
  that the code raises.
* Mutable objects are immutable records; a method is a function from the old record to
  `Except PyErr` of the new one.  Where a partially changed object survives an exception
  (panelling histories), the new state is returned together with the exception.
* `Verif/Model/*` holds the model (function by function), `Verif/Lemmas/*` helper
  lemmas, `Verif/Props/*` the property theorems: at the top of each file the definitions
  which state the properties (independent of the helpers of the model), then the theorems,
  each with a non-trivial `example` that meets its hypotheses.
* Where the code violates a property, the negation is proved with a witness (`…_false`)
  and what does hold is kept as `…_partial` or as an exact characterisation (`…_iff`).

| Model file | Code modelled | Left out |
|---|---|---|
| `Model/Py` | exception classes, loops which stop at an exception | |
| `Model/Vec` | numpy 3-vectors, `double[3]` | |
| `Model/Strips` | `objects/aircraft.py` WingSegment.add_subdivision, add_subdivision_for_control, SegmentStrip, StripSubdivision (relative coordinates) | |
| `Model/PrePanel` | `aero/vlm.py` set_autopanels, pre_panelling | |
| `Model/Book` | `objects/objecttools.py`, `objects/vlm_struct.py` bookkeeping, counting part of `gen_lattice` | |
| `Model/Geometry` | `objects/aircraft.py` coordinate maps, mirroring, hinge and camber axes, xsi_interpol | deformation interpolation (parameter) |
| `Model/Lattice` | `aero/c_lattice.cpp` | |
| `Model/Normals` | `aero/vlm.py` gen_lattice as a whole: normal rotations by deflections and camber | airfoil evaluation (parameter) |
| `Model/Aero` | `aero/c_downwash.cpp`, `c_boundary.cpp`, `c_results.cpp`, helpers of `c_vlm.cpp` | |
| `Model/State` | `objects/state.py`, `fileio/native/state.py` | atmosphere (parameter) |
| `Model/Settings` | `objects/utils.py`, `objects/settings.py`, `fileio/native/settings.py` | paths |
| `Model/Continuity` | `objects/aircraft.py` Wing.generate: check for gaps, its warnings | text of the messages |
| `Model/Aircraft` | `objects/aircraft.py` Aircraft, Wing, WingSegment.generate, WingControl.check | messages of the schema package |
| `Model/FileIO` | `fileio/native/{aircraft,deformation}.py`, `fileio/utils.py` | JSON text |
| `Model/AircraftJson` | `fileio/native/aircraft.py` load and save on JSON data, with the checks of types in the order of the code | JSON text; NaN and Infinity in files |
| `Model/JsonProgram` | `fileio/native/state.py` load on JSON data; `stdfun/run.py` and `stdfun/setup.py` for projects whose aircraft and state files are JSON data | JSON text; lists inside lists of a state file; deformation file (external package) |
| `Model/Run` | `stdfun/run.py` standard_run, `aero/vlm.py` solver steps, `fileio/native/results.py`, paths of results | text formats |
| `Model/Native` | calls of native code: `c_vlm.cpp` py2c_*, getters and setters, flat arrays of `c_lattice.cpp`, `c_downwash.cpp`, `c_boundary.cpp`, `c_results.cpp`; callers in `aero/vlm.py` | integer overflow, reference counts |
| `Model/NativeInts` | the same native functions with 32-bit `int` indices | overflow of `long int`; parts of an index expression are tested through the whole; the layout of `long int` and the conversion to `int` are those of gcc and clang on 64-bit Linux |
| `Model/SegmentAxes` | `WingSegment.normal_vector`, `WingSegment.main_direction` | all four vertices known |
| `Model/NativeProgram` | `run.py` standard_run with loading of files and with native code as in `Model/Native` | as `Model/Program` and `Model/Native` |
| `Model/Program` | `stdfun/run.py` standard_run: loading of settings, aircraft, flight states and deformations, and what the analysis reads of them | paths of input files, JSON text; import from CPACS is a parameter (given in `Model/CpacsProgram`) |
| `Model/Plot` | `plot/plottools.py`, `plot/makeplots.py`, `plot/downwash.py` and their call in `stdfun/run.py`; `abs_vertices`, `abs_hinge_vertices` of controls | titles, labels, text, markers, colour bars, points of deformation fields, names with time; matplotlib never fails |
| `Model/Setup` | `stdfun/setup.py` setup_wkdir | one project folder on the disk; logging |
| `Model/Session` | a project folder over many starts of the program: `_pytornado_exe.py` main, `run.py` get_settings, clean_project_dir, standard_run, `settings.py` clean and paths | plots and log file; names with slashes in settings; files with other data than expected count as missing |
| `Model/Cli` | `src/bin/_pytornado_exe.py`, `database/tools.py` | abbreviated and malformed options (argparse), printing |
| `Model/Cpacs` | `fileio/cpacs/{aircraft,state,results,utils,__patch}.py` | TIXI and TIGL (what they return is data); every child of the airfoils element is taken to be an airfoil with a list of points |
| `Model/CpacsProgram` | `fileio/cpacs/aircraft.py` load (name, references, airfoil files), `stdfun/setup.py` cpacs2pytornado, `standard_run` for CPACS projects | rounding of coordinates in airfoil files; the name of the JSON file |

## 3. Properties and their status

Generated from `tools/manifest.txt` by `tools/gen_manifest.py`.

<!-- status begin -->
| Property | Status | Theorems | Note |
|---|---|---|---|
| C01 Spanwise strips always tile the segment | proved | `C01_strips_tile`, `C01_aircraft_strips_tile` | All histories of calls, also after calls that raised; any interpolation function. |
| C02 No empty strips; strips are never thinner than the documented minimum | partial | `C02_strips_nonempty`, `C02_min_width_false`, `C02_min_width_partial` | Non-emptiness holds always; the 0.01 minimum is false below an existing border (witness 0.5 then 0.495) and proved for coordinates that are 0.01 apart. |
| C03 A refused or repeated division line changes nothing | proved | `C03_invalid_line`, `C03_close_line`, `C03_new_line`, `C03_line_idempotent` | All reachable segment states. |
| C04 Division lines are chord lines | proved | `C04_chord_lines`, `C04_aircraft_chord_lines` | All histories of calls that use equal leading- and trailing-edge coordinates (as all callers do). |
| C05 Slat, main area and flap tile every strip chordwise | proved | `C05_chordwise_tiling`, `C05_aircraft_chordwise_tiling` | All histories, any interpolation function; holds even after calls that raised. |
| C06 Accepted slats and flaps keep a minimum chordwise distance | proved | `C06_slat_accepted_iff`, `C06_flap_accepted_iff`, `C06_gap_kept`, `C06_aircraft_gap` | All histories without exception, any interpolation function. |
| C07 A control surface covers exactly its requested spanwise range | partial | `C07_control_range_false`, `C07_control_range_false_at_border`, `C07_control_range_partial` | False for controls thinner than 0.01 or ending less than 0.01 past a border (witnesses); proved when all requested coordinates are 0.01 apart. |
| C08 Interpolated device edges lie on the straight device edge | proved | `C08_well_posed`, `C08_ends`, `C08_between` | planar convex segments as in the statement; ends and well-posedness also for twisted segments; the external plane-line intersection is taken by its contract |
| C09 The requested number of spanwise panels is delivered | proved | `C09_num_strips`, `C09_aircraft_num_strips`, `C09_lines_delivered`, `C09_too_many_false` | 1..100 delivered exactly; for every larger number at most 100 strips are made (both as the statement says). Exact arithmetic. |
| C10 Automatic spanwise panel numbers are proportionate and sufficient | proved | `C10_user_numbers_kept`, `C10_autopanels_sufficient` | All aircraft, all settings >= 1, positive spans. |
| C11 Panel bookkeeping partitions the panels | proved | `C11_bookkeeping_partition` | All aircraft whose pre-panelling succeeds; counts >= 0; the bookkeeping itself is shown never to fail. |
| C12 The lattice generator writes every panel exactly once and inside its arrays | proved | `C12_panels_once`, `C12_elements_once`, `C12_contents`, `C12_entries` | machine integers are unbounded in the model |
| C13 The symmetry flag table is never read out of bounds | partial | `C13_symmetry_reads_false`, `C13_symmetry_reads_partial` | False for the accepted setting vlm_autopanels_c = 0 (witness: empty table, two reads); proved when every chordwise number is at least one. |
| C14 The lattice is watertight and spans the subarea | proved | `C14_inner_edges`, `C14_outer_corners`, `C14_spanwise_neighbours`, `C14_chordwise_neighbours`, `C14_subarea_borders` |  |
| C15 Bound vortex at quarter chord, collocation point at three quarters | proved | `C15_quarter_points`, `C15_trailing_legs` | the trailing vortices end 10000 length units downstream, as in the code |
| C16 Panel normals are unit vectors perpendicular to the panel | proved | `C16_normal_unit`, `C16_normal_perpendicular`, `C16_normal_side` | the side is shown for every subarea with convex outline, twisted ones included |
| C17 Reported panel area is the true panel area | partial | `C17_area_false`, `C17_area_partial` | false for swept panels (witness: sheared unit square gives sqrt 2); exact characterisation: never too small, equal exactly if the sides are perpendicular |
| C18 Lattice statistics are consistent | proved | `C18_statistics` |  |
| C19 Mirroring a point is an isometric involution that fixes its plane | proved | `C19_mirror_is_reflection`, `C19_mirror_involution` |  |
| C20 The mirrored subarea is the exact mirror image | partial | `C20_mirror_image_partial`, `C20_mirror_image_yz`, `C20_mirror_image_yz_full_chord_partial`, `C20_mirror_image_yz_false` | true for symmetry 1 and 2; false for symmetry 3 with devices (witness given): chord positions are counted from the wrong end |
| C21 The mirrored hinge line is the exact mirror image | partial | `C21_mirror_hinge_partial`, `C21_mirror_axis`, `C21_mirror_hinge_yz_false` | true for symmetry 1 and 2; false for symmetry 3 (witness given) |
| C22 Subarea corners agree with the segment's own coordinate map | proved | `C22_strip_corners`, `C22_subarea_corners`, `C22_aircraft_subarea_corners` |  |
| C23 A deformation of one wing half leaves the other half as designed | proved | `C23_original_half`, `C23_mirrored_half` |  |
| C24 Chordwise camber stations are ordered and inside the subarea | proved | `C24_camber_stations` |  |
| C25 Solving the system means flow tangency at every collocation point | proved | `C25_flow_tangency` |  |
| C26 The induced-velocity kernel is defined whenever a point is off the filament ends | proved | `C26_denominator_pos`, `C26_matrix_defined`, `C26_results_defined` |  |
| C27 The induced-velocity kernel is the Biot-Savart law | proved | `C27_textbook`, `C27_integral`, `C27_damped` |  |
| C28 The bound vortex induces no velocity on itself | proved | `C28_own_line`, `C28_reversed`, `C28_own_midpoint` |  |
| C29 Panel forces obey Kutta-Joukowski | proved | `C29_kutta_joukowski` |  |
| C30 Totals are the sums over the panels | proved | `C30_totals`, `C30_order_irrelevant` |  |
| C31 Moments follow the transfer law | proved | `C31_moment_transfer` |  |
| C32 Wind-axes forces are a pure rotation of body-axes forces | proved | `C32_rotation`, `C32_wind_force` |  |
| C33 Python and native code use the same free-stream vector | proved | `C33_same_freestream` |  |
| C34 Coefficients are dimensionless loads; zero dynamic pressure is guarded | proved | `C34_coefficients` |  |
| C35 Pressure coefficient is defined for every accepted state | partial | `C35_pressure_false`, `C35_pressure_partial` | false: zero airspeed and zero density are accepted and make cp a division by zero; exact characterisation of when cp is defined |
| C36 Coefficients do not depend on density | proved | `C36_density` | at zero airspeed the guard q = 1 of the code makes coefficients proportional to density, so the statement on coefficients needs a non-zero airspeed |
| C37 Coefficients do not depend on airspeed | proved | `C37_airspeed` |  |
| C38 Results do not depend on where the aircraft sits | proved | `C38_translation`, `C38_generated` |  |
| C39 Symmetric aircraft in symmetric flight has no lateral loads | proved | `C39_no_lateral_loads`, `C39_generated_symmetric` | the generated lattice is shown symmetric for panels without camber and deflection; the loads theorem holds for every symmetric lattice |
| C40 The mirrored panels generated for symmetry 2 are mirror images | proved | `C40_mirrored_lattice`, `C40_corners_delivered` |  |
| C41 Flight-state input combinations are decided exactly as documented | proved | `C41_rejected`, `C41_accepted_iff` | the atmosphere model (external package) is a parameter of the theorems |
| C42 Accepted states have airspeed and density for each entry | proved | `C42_airspeed_density` | numeric includes NaN, as in the code |
| C43 Angles outside [-90, 90] degrees are rejected | partial | `C43_angle_range_false`, `C43_angles_in_range_partial` | false: the range check joins the two comparisons with "and" and never fires; what holds is that angles inside the range are not rejected |
| C44 One flight state per entry, in order | proved | `C44_iteration`, `C44_missing_rate` | needs the three rates, as the code raises TypeError without them |
| C45 Saved states can be loaded again | partial | `C45_round_trip_false`, `C45_reload_iff`, `C45_round_trip_partial` | false for several entries and for altitude or Mach input; exact characterisation of the states which can be read back, and equality for these |
| C46 Settings validation accepts exactly well-typed settings | partial | `C46_check_partial`, `C46_errors`, `C46_optional_ignored`, `C46_accepted_iff`, `C46_defaults`, `C46_optional_false` | false for entries which admit None (witness: 'deformation': 5 passes); complete description of what is accepted in C46_accepted_iff |
| C47 Epsilon outside (0, 1) is rejected | proved | `C47_epsilon` |  |
| C48 Unspecified settings keep their defaults | partial | `C48_defaults_partial`, `C48_nested_false` | false inside the groups: a group given in part raises KeyError; proved for top-level settings |
| C49 Saving settings does not change them | partial | `C49_file`, `C49_memory_false`, `C49_memory_partial` | the file part holds; false in memory: saving removes the hidden settings from the object |
| C50 Settings survive a save/load round trip | proved | `C50_round_trip` | JSON text itself is not modelled |
| C51 Component names stay unique and ordered | proved | `C51_names`, `C51_kept`, `C51_add_wing`, `C51_add_segment`, `C51_add_control`, `C51_on_wing`, `C51_set_symmetry` |  |
| C52 Control-surface validation | proved | `C52_check`, `C52_device_type` | exact characterisation of accepted definitions; the exception class of schema violations (external package) is not modelled |
| C53 Spanwise positions of segments are contiguous | proved | `C53_positions`, `C53_no_span`, `C53_generated` | also: spans of generated segments are never negative; a wing without span raises ZeroDivisionError |
| C54 Aircraft size is the diagonal of a box containing the aircraft | proved | `C54_size`, `C54_distance`, `C54_zero` |  |
| C55 Wing areas and spans add up | proved | `C55_sums`, `C55_trapezoid` |  |
| C56 Deformation fields reach the right wing half | partial | `C56_mirror_name_false`, `C56_unknown_wing`, `C56_fields_partial` | false for wings whose name contains "_m": the name is mangled, so the field of the mirrored half is lost or reaches another wing; unknown names raise; proved for names without "_m" |
| C57 Aircraft survive a save/load round trip | partial | `C57_round_trip_false`, `C57_airfoil_path_false`, `C57_reload_iff`, `C57_round_trip_partial` | false for chords running forwards (the saved angle is refused) and for blade files outside airfoils/; exact characterisation of the aircraft which come back |
| C58 Name cleaning | proved | `C58_clean`, `C58_no_string` |  |
| C59 A run records one result row per flight state | proved | `C59_one_row_per_state`, `C59_no_states` |  |
| C60 Component iterators enumerate everything once | proved | `C60_all_wings`, `C60_all_segments`, `C60_all_controls`, `C60_all_subdivisions`, `C60_all_subareas`, `C60_strip_subareas` | All aircraft. |
| C61 Subareas of a control surface can be listed | partial | `C61_subareas_of_control_false` | The property is false for every aircraft with at least one strip: the listing always raises AttributeError. |
| C62 Imported segment corners are re-ordered, never lost | partial | `C62_permutation`, `C62_ordered_kept`, `C62_leading_edge`, `C62_spanwise_partial`, `C62_outline_partial`, `C62_outline_false`, `C62_spanwise_false`, `C62_import` | permutation, order of leading and trailing edge and unchanged ordered corners are proved for all points and for whole imports; spanwise order and outline are false in general (twisted fin), proved for chords that do not overlap spanwise |
| C63 CPACS performance map: results are written to the right columns | proved | `C63_columns`, `C63_no_map`, `C63_after_run` | text format of the numbers not modelled |
| C64 Command line: exactly one action | proved | `C64_conflict`, `C64_one_action`, `C64_clean_needs_run`, `C64_clean_only`, `C64_run` | all lists of options, also repeated ones; abbreviated options and malformed command lines (rejected by argparse) are not modelled |
| C65 The lattice topology is the same for all flight states of a run | proved | `C65_same_lattice` |  |
| C66 Native and Python mirroring agree | proved | `C66_native_mirror`, `C66_native_mirror_table` |  |
| C67 A segment can be defined by a reference point and geometry data | partial | `C67_four_vertices`, `C67_reference_point_false` | false: check_vertices turns a missing vertex into a NaN array, so that only the definition by four vertices works; exact characterisation of what is accepted |
| C68 Geometry data of a segment describe its vertices | partial | `C68_derived`, `C68_angles`, `C68_order_false` | vertices are kept and the data agree with them; false: the order of vertices is not enforced |
| C69 Dihedral of a segment is the dihedral of its axis | partial | `C69_dihedral_false`, `C69_dihedral_partial` | false for twisted segments: the z-offset of the axis enters with the wrong sign |
| C70 Rotated normals stay unit vectors | proved | `C70_unit_normals` |  |
| C71 Each panel normal gets its own rotations, each exactly once | proved | `C71_own_rotations` |  |
| C72 Deflections act locally | proved | `C72_deflections_local` |  |
| C73 Without deflection and camber the normal rotations do nothing | proved | `C73_no_deflection` |  |
| C74 Symmetric aircraft have symmetric lattices, camber and deflections included | partial | `C74_symmetric_lattice_partial`, `C74_twisted_false` | proved for subareas with parallel inner and outer edges or without camber; false for twisted cambered wings: the camber axis is perpendicular to the inner chord on one side and to the outer chord on the other |
| C75 A deflection turns the surface rigidly about its hinge line | proved | `C75_rigid_deflection` |  |
| C76 Lattice generation is total on panelled aircraft | proved | `C76_lattice_generated` |  |
| C77 Positive deflection is trailing edge down on both sides | proved | `C77_positive_is_down` |  |
| C78 Equal deflections of x-y mirrored wings are mirror images | partial | `C78_xy_mirror_partial`, `C78_xy_mirror_false` | false for every angle between 0 and 180 degree: equal deflections turn the two halves to opposite sides; proved for opposite deflections |
| C79 A batch run is the single runs put together | proved | `C79_batch_is_single_runs` |  |
| C80 The data returned by a run are those of the last flight state | proved | `C80_returned_data_is_last_state` |  |
| C81 Every result file holds the values of its own flight state | proved | `C81_result_files`, `C81_directories_distinct` |  |
| C82 The circulations of a finished run solve the linear system | partial | `C82_system_satisfied_partial`, `C82_singular_false` | false for singular systems (e.g. two coincident wings): the status code of dgesv is ignored and the right-hand side is taken as the solution; proved for regular systems |
| C83 A symmetric aircraft in symmetric flow has no lateral loads | partial | `C83_symmetric_run_partial`, `C83_twisted_false` | false for twisted cambered wings, whose lattice the code does not mirror (C74_twisted_false): such a wing gets a rolling moment in level flight; proved for subareas with parallel chords or without camber, or with rotations of the normals switched off |
| C84 Every aircraft listed in the database can be made by its name | partial | `C84_listed`, `C84_file`, `C84_make_partial`, `C84_make_json`, `C84_make_false` | missing: names with a dot, for which the property is false (witness a.b.json); with the extension on the command line they work |
| C85 CPACS performance maps become one flight state per entry | proved | `C85_cpacs_states` | the packages TIXI and ambiance are modelled by what they return |
| C86 Control surfaces and deflections of CPACS files are imported faithfully | partial | `C86_controls_partial`, `C86_segments_partial`, `C86_first_wing`, `C86_slat_and_flap_false`, `C86_other_wing_false`, `C86_segment_name_false` | false: a slat and a flap of the same number always raise an exception, a deflection listed for a control of the second wing is rejected, and controls refer to raw segment names; proved for files without leading edge devices |
| C87 Imported segments refer to files with their own airfoils | partial | `C87_airfoils_partial`, `C87_segments_partial`, `C87_airfoils_false` | false if names differ only in characters that are removed; proved for distinct stored names |
| C88 A control surface is where it was placed on the wing | partial | `C88_control_on_wing_partial`, `C88_wrong_segments_false`, `C88_close_borders_false`, `C88_unknown_inner_ignored` | false for controls whose segments do not exist or are in the wrong order (they run to the tip or are left out without a message) and for borders closer than 0.01 (a flap that ends just beyond the border of a slat runs to the tip); proved for all others, over any number of segments |
| C89 Device edges and hinge lines have no steps | partial | `C89_no_steps_partial`, `C89_close_borders_false` | false for borders closer than 0.01 (the edge is not at the requested position at the requested border); missing also: wrong segment names, as for C88 |
| C90 Device edges stay straight however often they are divided | partial | `C90_straight_edges_partial`, `C90_close_borders_false` | false for borders closer than 0.01 (the edge has a bend); the statement is about planar convex segments |
| C91 Well-formed layouts of control surfaces are accepted | partial | `C91_layout_accepted_partial`, `C91_autopanels_accepted_partial`, `C91_planar_segment`, `C91_close_borders_false` | false for borders on a segment that are closer than 0.01 to each other without being equal (witness: two flaps that do not overlap); proved for all other layouts, the geometric conditions being shown for planar convex segments |
| C92 An aircraft file is loaded exactly if it is well-formed, and with its own content | proved | `C92_accepted_iff`, `C92_content` | JSON text, missing keys and values of a wrong type are not modelled; whether an airfoil exists is a parameter |
| C93 When a run finishes, and with which values | proved | `C93_finishes_iff`, `C93_values` | floating point is not modelled; in exact arithmetic |
| C94 Runs over scaled flight states scale | proved | `C94_scaled_states` | coefficients for nonzero airspeed and density |
| C95 Another moment reference point | proved | `C95_moment_transfer` |  |
| C96 Mirrored flight states of a symmetric aircraft | partial | `C96_mirrored_states_partial`, `C96_twisted_false` | false for twisted cambered wings (C74, C83) |
| C97 The place of the aircraft in the coordinate system does not matter | proved | `C97_moved_aircraft` | the panelling of the moved aircraft is the same because relative positions are (xsiInterpol_moved) |
| C98 Which settings files are accepted, and what they mean | proved | `C98_accepted_iff`, `C98_content`, `C98_other_files`, `C98_state_source` | JSON text is not modelled; str.upper and the file extension are parameters |
| C99 A project in order is never answered by an exception | proved | `C99_no_exception` | native projects; exceptions of plots are C111; files are found by name; import from CPACS is separate (C84-C87) |
| C100 A project that is not in order leaves no results | proved | `C100_nothing_written` | native projects |
| C101 Results belong to the files of the project | proved | `C101_results_of_files` | native projects; the camber line of an airfoil and the atmosphere are parameters |
| C102 A new project can be analysed | proved | `C102_template`, `C102_template_finishes`, `C102_from_file`, `C102_from_file_finishes`, `C102_made_iff`, `C102_existing` | the disk holds the one folder of the project; logging is not modelled; the case of a name without the extension .json is in the model only |
| C103 A saved project is the same project | partial | `C103_resaved_partial`, `C103_loads_iff`, `C103_resaved_false` | missing: projects with several flight states, with altitude or mach, with hidden settings or with segments that are changed by saving; for the first two the property is false |
| C104 What is saved and plotted does not change the results | proved | `C104_output_settings` | what plots do is C110; a run that stops at a value that is not finite may have written other files |
| C105 A project leaves exactly the files its settings ask for | proved | `C105_files_of_project` | native projects |
| C106 A run that stops early keeps the results it has | proved | `C106_stopped_run`, `C106_stopped_project`, `C106_exception_no_files` | a stop at a value that is not finite stands for what the code does from there on, which is not modelled |
| C107 Plots show the whole aircraft | partial | `C107_axes`, `C107_geometry_inside_partial`, `C107_cg_false` | missing: the centre of gravity, which can be outside the axes |
| C108 The views of a plot agree | proved | `C108_views_agree`, `C108_geometry`, `C108_lattice` | text, markers and colour bars are left out |
| C109 Plots of results show the results | proved | `C109_results` |  |
| C110 Plotting does not change results | proved | `C110_results_unchanged`, `C110_plot_exception` | matplotlib itself never fails in the model |
| C111 A project gets the plots it asks for | partial | `C111_plots_made_partial`, `C111_unknown_key`, `C111_no_exception_false` | missing: settings that name an unknown result; the property is false for them |
| C112 Plots show the data of their flight state | proved | `C112_plots_show` | results that are not finite and flows without airspeed: only the kind of the plot is stated |
| C113 A CPACS file becomes the aircraft it describes | partial | `C113_content`, `C113_controls`, `C113_accepted_iff`, `C113_airfoils_partial` | missing: airfoils stored under the same name (C87_airfoils_false); when the import of wings succeeds is told by C118 |
| C114 Conversion of a CPACS file keeps the aircraft | partial | `C114_same_aircraft_iff`, `C114_chordless_refused`, `C114_relative_paths`, `C114_converts_iff`, `C114_pointed_false`, `C114_no_directory_false` | false for pointed tips and where there is no directory for airfoils; exact conditions are given |
| C115 Analysis of a converted project gives the results of the CPACS project | partial | `C115_converted_partial`, `C115_cpacs_states`, `C115_cpacs_states_false` | the whole runs are equal if the states are in a state file and every chord has an extent in the x-y plane; false with flight states in the CPACS file, which are not converted |
| C116 CPACS projects in order run, others write nothing | proved | `C116_no_exception`, `C116_nothing_written` | layout conditions on controls as in C99 |
| C117 Results of a CPACS project belong to its files | proved | `C117_results_of_cpacs` | which airfoils and control surfaces the CPACS file leads to: C113, C86, C87 |
| C118 Which CPACS files can be imported | proved | `C118_importable_iff`, `C118_content`, `C118_loaded_iff` |  |
| C119 Gaps between segments of a wing are reported | partial | `C119_joined_partial`, `C119_sideways_partial`, `C119_gaps_reported_false`, `C119_behind_false`, `C119_slope_false`, `C119_pointed_false`, `C119_order_false` | false: gaps along the chord, however large, and edges of opposite slope pass; segments that meet in a point or are listed from tip to root are reported although there is no gap; proved: wings without gaps and without pointed edges pass, gaps to the side of edges along the x-axis are reported |
| C120 Geometrically similar aircraft have the same coefficients | partial | `C120_scaled_partial`, `C120_limit_partial`, `C120_size_false` | false: the trailing legs are 10000 long whatever the size or unit (witness: a wing whose chord is as long as its trailing legs, as 10 m given in millimetres); proved: the results are exactly those of the original aircraft with trailing legs of 10000 / k, nothing else depends on the size; the coefficients of small aircraft converge to those of vortices with infinite trailing legs |
| C121 Native code gets what it expects and stays inside the arrays it is given | partial | `C121_native_partial`, `C121_run_partial`, `C121_project_partial`, `C121_too_few_panels`, `C121_no_panels`, `C121_memory_false` | false: with the accepted setting vlm_autopanels_c = 0 the native code reads symmetry flags from an array without elements (witness; every accepted project with that setting whose aircraft file leaves the chordwise panels to the settings; in general whenever there are fewer panels than subareas); proved with at least one chordwise panel everywhere, and for projects whenever vlm_autopanels_c is positive or left out: whole runs on Python objects and flat arrays give exactly the results of the runs that the other theorems are about, no access out of bounds, no call refused |
| C122 The results on disk belong to the latest run of their settings file | partial | `C122_inputs`, `C122_kept`, `C122_latest`, `C122_clean_run`, `C122_clean_finished`, `C122_again`, `C122_order`, `C122_stale_false`, `C122_same_name_false`, `C122_clean_false` | false: without --clean results of earlier runs stay, --clean removes the results of all settings files, settings files with the same base name share results (witnesses); proved for all sessions: input files are never touched, what the latest run of a settings file wrote stays as it is while inputs change and other base names are run, after a run with --clean the results are exactly those of this run, starting twice is starting once, runs of different base names commute |
| C123 Motions superpose | proved | `C123_circulations`, `C123_loads`, `C123_finishes`, `C123_combined`, `C123_project` | exact arithmetic; circulations also for singular systems |
| C124 The order of the wings does not matter | proved | `C124_panels`, `C124_wing_order`, `C124_finishes`, `C124_project` | exact arithmetic; for the aircraft in memory (wings, geometry of their segments and camber lines given in any order) and for the wings in the aircraft file of a project, with deformations, if the setting vlm_autopanels_c is not negative |
| C125 Only the surfaces matter | proved | `C125_panels`, `C125_surfaces`, `C125_finishes` | exact arithmetic; for the aircraft in memory; wings with controls or camber may be present and are the same in both aircraft; a segment with more than 100 spanwise panels must be described from the same side, because its strips are not equally wide (C09) |
| C126 A symmetry flag and a second wing are the same | proved | `C126_symmetry_flag` | exact arithmetic; for the aircraft in memory |
| C127 A segment may be described from either side | proved | `C127_segment_side` | exact arithmetic; for the aircraft in memory |
| C128 A wing may be cut between segments | proved | `C128_wing_cut` | exact arithmetic; for the aircraft in memory |
| C129 Names do not matter | proved | `C129_names` | exact arithmetic; new names are given by maps that are one-to-one on all names (any one-to-one renaming of the names in a file can be extended to such a map) and keep exactly the empty name empty; fields in the deformation file belong to wings whose old and new names do not start with an underscore or contain _m, or are ignored before and after |
| C130 What an aircraft file means | proved | `C130_loaded_iff`, `C130_one_meaning`, `C130_whole_numbers` | json.load is taken to return data without NaN, Infinity and repeated keys; schemadict by its contract, with its choice of exceptions and its treatment of unknown keys and of booleans as parameters |
| C131 One fault in an aircraft file raises the fitting exception | proved | `C131_fault` | the faults are those listed in FileFault; for values refused by schemadict see C130 |
| C132 Entries under unknown keys have no effect | proved | `C132_extra`, `C132_misspelt_false` | consequence that users would not expect: a misspelt key (control instead of controls) is not noticed |
| C133 The file that is written can be read | proved | `C133_saved`, `C133_reload_iff` | the literal NaN, which json writes for angles of a vertical chord, is a string in the model; both are refused by the schema |
| C134 What a state file means | proved | `C134_loaded_iff`, `C134_one_meaning`, `C134_fault`, `C134_same` | lists inside lists are refused in the model; numpy would make a matrix of lists of equal length |
| C135 A run depends only on what the files mean | proved | `C135_loaded_iff`, `C135_run` | json.load is taken to return data without NaN, Infinity and repeated keys; the deformation file is read by an external package |
| C136 The files of a new project can be read | proved | `C136_template`, `C136_template_finishes`, `C136_from_file` | as C102, on JSON data |
| C137 Flow along the surfaces causes no loads | proved | `C137_tangential`, `C137_in_plane`, `C137_project`, `C137_level` | exact arithmetic; the camber angles come from an external package and are taken to be zero for airfoils without camber |
| C138 Files that describe the same surfaces give the same results | proved | `C138_surfaces`, `C138_symmetry_flag`, `C138_segment_side`, `C138_wing_cut` | C125 to C128 for files; wings without controls and camber and without deformation; sides can be exchanged up to 100 spanwise panels (C09) |
| C139 A flat aircraft flies as well upside down | proved | `C139_upside_down`, `C139_project` | exact arithmetic; projects with native files |
| C140 Reference values only normalise the results | proved | `C140_run`, `C140_project` | exact arithmetic; projects with native files |
| C141 Symmetric aircraft files give no lateral loads | partial | `C141_symmetric_flight_partial`, `C141_mirrored_states_partial` | projects with native files, with controls, camber and deformation; missing: wings with camber that are twisted, in the file or by deformation, for which the claim fails (C74_twisted_false, C83_twisted_false) unless rotations of the normals are switched off |
| C142 The origin of the coordinates in the files does not matter | proved | `C142_moved_files`, `C142_finishes` | exact arithmetic; projects with native files |
| C143 Only the flow conditions meant by the state file matter | proved | `C143_conditions`, `C143_similar_flight`, `C143_rearranged` | exact arithmetic; projects with native files; the atmosphere model is any function of the altitude |
| C144 Turning aircraft and flow together turns the loads | proved | `C144_rotated`, `C144_project`, `C144_pitched_file`, `C144_automatic_numbers` | exact arithmetic; projects with native files; C144_automatic_numbers shows that the condition on automatic numbers of spanwise panels is needed |
| C145 A fin entered as a symmetric wing spoils the solution of the whole aircraft, without notice | proved | `C145_surface_on_its_image`, `C145_coincident_vortices` | project and run level; the solution of a singular system is that of C82: the right-hand side |
| C146 The native code can count the panels | partial | `C146_small_partial`, `C146_run`, `C146_project`, `C146_large`, `C146_integers_false` | false from 46341 panels on; up to that number proved for runs and projects whose subareas have at least one chordwise panel (C121); int of 32 bits, long int without overflow |
| C147 The panels of a segment face the way the segment does | proved | `C147_same_side`, `C147_plane_segment`, `C147_main_direction` | undeformed segments; deflections and camber zero or no rotation of normals |
| C148 Bound vortices lie ahead of their collocation points | partial | `C148_front_first_partial`, `C148_yz_reversed`, `C148_front_first_false` | false on the mirrored side of wings with symmetry plane yz, where all panels are reversed; proved for all other sides |
| C149 A surface entered twice spoils the solution of the whole aircraft, without notice | proved | `C149_given_twice` | project and run level; builds on C145_coincident_vortices and C82 |
| C150 The simplest wing lifts and has drag | proved | `C150_one_panel`, `C150_own_downwash` | project and run level for one panel; lattice level for own downwash; airfoils without camber, no deflection and deformation |
| C151 Wings side by side can always be analysed | proved | `C151_always_analysed`, `C151_lattice` | project level and lattice level; exact real arithmetic: overflow of floating point numbers is not modelled |
| C152 Wings and tailplanes that do not meet can be analysed in all flight states | proved | `C152_always_analysed`, `C152_lattice` | project level and lattice level; for vertical fins see C153; exact real arithmetic: overflow of floating point numbers is not modelled |
| C153 Aircraft with wings, tailplanes and fins can be analysed in all flight states | proved | `C153_always_analysed`, `C153_json`, `C153_lattice` | project level, also on JSON data, and lattice level; winglets and twin fins given as one mirrored fin are not covered; exact real arithmetic: overflow of floating point numbers is not modelled |
| C154 Aircraft from CPACS files with the usual layout can be analysed in all flight states | proved | `C154_cpacs_analysed` | as C153, for the wings imported from a CPACS file; exact real arithmetic: overflow of floating point numbers is not modelled |
<!-- status end -->

## 4. Where the code disagrees with its documentation or with the property

Each is proved in Lean as a `_false` theorem unless noted.

| Property | Disagreement |
|---|---|
| C02 | `add_subdivision` keeps the minimum distance of 0.01 only above an existing border; 0.5 followed by 0.495 gives a strip of width 0.005 |
| C07 | a control thinner than 0.01 or ending less than 0.01 beyond a border covers another range than requested |
| C09 | more than 100 spanwise panels are silently reduced |
| C13 | `vlm_autopanels_c = 0` is accepted; the native generator then reads beyond the symmetry table |
| C17 | the area of a panel is the product of its mean sides: too large for swept panels |
| C20, C21 | wings mirrored in the y-z plane (symmetry 3): devices and hinge lines of the mirror image are counted from the wrong end |
| C35 | zero airspeed or density is accepted and makes `cp` a division by zero |
| C36 | at zero airspeed the guard `q = 1` makes coefficients proportional to the density (hypothesis of the theorem) |
| C43 | the check of the angles (`< -90` *and* `> 90`) can never fire |
| C45 | a saved state cannot be read back if it has several entries or was given by altitude/Mach |
| C46 | entries which admit `None` are not type-checked |
| C48 | a group (`plot`, `save_results`) given in part raises `KeyError` instead of being completed |
| C49 | saving settings removes the hidden entries from the object in memory |
| C56 | wing names containing `_m` lose their deformation field or receive that of another wing |
| C57 | aircraft with chords running forwards cannot be read back; blade files outside `airfoils/` are lost |
| C59 | a run without flight states ends in `UnboundLocalError` (part of the property) |
| C61 | listing the subareas of a control always raises `AttributeError` |
| C67 | the documented definition of a segment by a reference point never works |
| C68 | the order of the four vertices is not enforced |
| C69 | the computed dihedral of twisted segments has the z-offset of the axis with the wrong sign |
| C74, C83, C96 | twisted cambered wings: the mirrored half of the lattice is not the mirror image, so that a symmetric wing gets a rolling moment in level flight |
| C78 | x-y mirrored wings: equal deflections turn the halves to opposite sides |
| C84 | an aircraft whose name has a dot is listed, but cannot be made by that name |
| C62 | a fin whose tip is turned about the vertical is imported with root and tip of its leading edge exchanged, those of the trailing edge not |
| C86 | a leading and a trailing edge device with the same number always end the CPACS import with an exception (`xsiTE_ib` unbound, or the same `uID` twice) |
| C86 | a deflection listed for a control that is not on the first wing ends the CPACS import with an exception |
| C86 | controls refer to raw names of segments, segments are stored under cleaned names |
| C87 | airfoils whose names differ only in removed characters overwrite each other |
| C88 | a control whose outer segment does not exist or is inboard of the inner one runs to the wing tip; if the inner segment does not exist, the control is left out; no message in either case |
| C88, C89, C90 | a control whose outer border is less than 0.01 outboard of an existing division line is not cut there: a flap from 0.1 to 0.505 next to a slat that ends at 0.5 covers the segment up to its outer end, with a bend in its edge |
| C91 | two controls that do not overlap are refused if their borders are closer than 0.01 to each other (a border is snapped to its neighbour, so that the areas overlap) |
| C102 | setting up a project from an aircraft file that cannot be loaded leaves a half-made folder, so that every further attempt is refused (part of the property) |
| C103 | a saved project cannot be loaded again if it has several flight states or altitude or mach were given; hidden settings are lost |
| C107 | the axes of plots follow the wings only; the centre of gravity can lie outside |
| C111 | an unknown name in `plot.results.opt` is accepted by the settings and ends the run in `KeyError` after the files of the first flight state have been written, so that C106 is stated for exceptions outside plots |
| C113 | the reference length of a CPACS file becomes both span and chord, the reference point both reference points (part of the property) |
| C114 | the JSON file made from a CPACS file with a pointed wing tip is refused; without a directory `airfoils` the conversion of a usable file raises an exception |
| C115 | `cpacs2pytornado` is documented to export state files as well, but does not: flight states in the CPACS file are lost |
| C82 | a singular system is silently accepted: the right-hand side is taken as the solution |
| C130 | whole numbers are accepted for reference values, corners and deflections, but refused for positions of controls and for geometry data (`1` instead of `1.0`; `aircraft.py` schemas ask for `float`) |
| C132 | misspelt optional keys in the aircraft file (for instance `control` instead of `controls`) are silently ignored |
| C119 | the check for gaps between segments compares directions only and ignores signs: gaps along the chord and edges of opposite slope pass; wings whose segments meet in a point or are listed from tip to root are reported |
| C120 | the trailing legs are 10000 length units long whatever the size of the aircraft (`c_lattice.cpp:55`); coefficients depend on the size and on the unit of length |
| C121 | `vlm_autopanels_c` is not checked (`settings.py:63`); with 0 the array of symmetry flags is empty (`vlm.py:354`) and `sym[0]` is read from it (`c_lattice.cpp:95`) |
| C122 | results of earlier runs stay unless `--clean` is given, also those that the settings no longer ask for; `--clean` removes the results of all settings files of the project (`settings.py:220-225`); settings files with the same name up to the extension share their results (`settings.py:126`) |
| C144 | automatic numbers of spanwise panels follow the lengths of the leading edges in the y-z plane (`aircraft.py:1189`, `vlm.py:62-71`), so that the mesh depends on the attitude of the aircraft in its file (`C144_automatic_numbers`; part of the property) |
| C145 | a fin (segments in the x-z plane) that is given symmetry 2 is accepted; it and its image are panelled twice, the matrix is singular and the status of `dgesv` is ignored (`vlm.py:466-476`), so that all results come from the right-hand side (`C145_surface_on_its_image`; part of the property) |
| C146 | with 46341 panels or more, `int index_ij = i*num_pan + j` (`c_downwash.cpp:40`) no longer holds the index: it becomes negative and the matrix element is written outside the array (`C146_large`, `C146_integers_false`); the code has no check of the number of panels |
| C148 | with the symmetry plane yz all panels of the mirrored side are the wrong way round: `order_mirrored_vertex_points` exchanges front and rear twice, for the strip (`aircraft.py:1629`) and for the relative coordinates (`aircraft.py:1871`), so that bound vortices lie behind the collocation points (`C148_yz_reversed`) |
| C149 | segments that are in the file twice, or a wing given from tip to tip that also has symmetry 2, are accepted; two panels coincide, the matrix is singular and the status of `dgesv` is ignored (`vlm.py:466-476`), so that all results come from the right-hand side (`C149_given_twice`; part of the property) |

## 5. Testing the theorems

`tools/mutate.py` takes mutants of the model (`seeded/mutants/*.jsonl`: definition, edit,
claim broken, theorems expected to fail), builds each in a scratch copy and appends the
outcome to `seeded/LOG.jsonl`.  Theorems that survived a mutant which breaks their claim
were tightened; the log names them.

A failing theorem only shows that the mutant breaks its proof.  For each mutant the
statement of the claim was therefore also compared with the edit: statements that mention a
helper of the model are restated in terms of inputs and outputs if the helper itself can be
mutated without falsifying them.
