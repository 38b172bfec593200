# ID | status | theorems | note
C01 | proved | C01_strips_tile, C01_aircraft_strips_tile | All histories of calls, also after calls that raised; any interpolation function.
C02 | partial | C02_strips_nonempty, C02_min_width_false, C02_min_width_partial | Non-emptiness holds always; the 0.01 minimum is false below an existing border (witness 0.5 then 0.495) and proved for coordinates that are 0.01 apart.
C03 | proved | C03_invalid_line, C03_close_line, C03_new_line, C03_line_idempotent | All reachable segment states.
C04 | proved | C04_chord_lines, C04_aircraft_chord_lines | All histories of calls that use equal leading- and trailing-edge coordinates (as all callers do).
C05 | proved | C05_chordwise_tiling, C05_aircraft_chordwise_tiling | All histories, any interpolation function; holds even after calls that raised.
C06 | proved | C06_slat_accepted_iff, C06_flap_accepted_iff, C06_gap_kept, C06_aircraft_gap | All histories without exception, any interpolation function.
C07 | partial | C07_control_range_false, C07_control_range_false_at_border, C07_control_range_partial | False for controls thinner than 0.01 or ending less than 0.01 past a border (witnesses); proved when all requested coordinates are 0.01 apart.
C09 | proved | C09_num_strips, C09_aircraft_num_strips, C09_lines_delivered, C09_too_many_false | 1..100 delivered exactly; for every larger number at most 100 strips are made (both as the statement says). Exact arithmetic.
C10 | proved | C10_user_numbers_kept, C10_autopanels_sufficient | All aircraft, all settings >= 1, positive spans.
C11 | proved | C11_bookkeeping_partition | All aircraft whose pre-panelling succeeds; counts >= 0; the bookkeeping itself is shown never to fail.
C13 | partial | C13_symmetry_reads_false, C13_symmetry_reads_partial | False for the accepted setting vlm_autopanels_c = 0 (witness: empty table, two reads); proved when every chordwise number is at least one.
C60 | proved | C60_all_wings, C60_all_segments, C60_all_controls, C60_all_subdivisions, C60_all_subareas, C60_strip_subareas | All aircraft.
C61 | partial | C61_subareas_of_control_false | The property is false for every aircraft with at least one strip: the listing always raises AttributeError.
C08 | proved | C08_well_posed, C08_ends, C08_between | planar convex segments as in the statement; ends and well-posedness also for twisted segments; the external plane-line intersection is taken by its contract
C19 | proved | C19_mirror_is_reflection, C19_mirror_involution |
C20 | partial | C20_mirror_image_partial, C20_mirror_image_yz, C20_mirror_image_yz_full_chord_partial, C20_mirror_image_yz_false | true for symmetry 1 and 2; false for symmetry 3 with devices (witness given): chord positions are counted from the wrong end
C21 | partial | C21_mirror_hinge_partial, C21_mirror_axis, C21_mirror_hinge_yz_false | true for symmetry 1 and 2; false for symmetry 3 (witness given)
C22 | proved | C22_strip_corners, C22_subarea_corners, C22_aircraft_subarea_corners |
C23 | proved | C23_original_half, C23_mirrored_half |
C24 | proved | C24_camber_stations |
C12 | proved | C12_panels_once, C12_elements_once, C12_contents, C12_entries | machine integers are unbounded in the model
C14 | proved | C14_inner_edges, C14_outer_corners, C14_spanwise_neighbours, C14_chordwise_neighbours, C14_subarea_borders |
C15 | proved | C15_quarter_points, C15_trailing_legs | the trailing vortices end 10000 length units downstream, as in the code
C16 | proved | C16_normal_unit, C16_normal_perpendicular, C16_normal_side | the side is shown for every subarea with convex outline, twisted ones included
C17 | partial | C17_area_false, C17_area_partial | false for swept panels (witness: sheared unit square gives sqrt 2); exact characterisation: never too small, equal exactly if the sides are perpendicular
C18 | proved | C18_statistics |
C40 | proved | C40_mirrored_lattice, C40_corners_delivered |
C66 | proved | C66_native_mirror, C66_native_mirror_table |
C25 | proved | C25_flow_tangency |
C26 | proved | C26_denominator_pos, C26_matrix_defined, C26_results_defined |
C27 | proved | C27_textbook, C27_integral, C27_damped |
C28 | proved | C28_own_line, C28_reversed, C28_own_midpoint |
C29 | proved | C29_kutta_joukowski |
C30 | proved | C30_totals, C30_order_irrelevant |
C31 | proved | C31_moment_transfer |
C32 | proved | C32_rotation, C32_wind_force |
C33 | proved | C33_same_freestream |
C34 | proved | C34_coefficients |
C36 | proved | C36_density | at zero airspeed the guard q = 1 of the code makes coefficients proportional to density, so the statement on coefficients needs a non-zero airspeed
C37 | proved | C37_airspeed |
C38 | proved | C38_translation, C38_generated |
C39 | proved | C39_no_lateral_loads, C39_generated_symmetric | the generated lattice is shown symmetric for panels without camber and deflection; the loads theorem holds for every symmetric lattice
C35 | partial | C35_pressure_false, C35_pressure_partial | false: zero airspeed and zero density are accepted and make cp a division by zero; exact characterisation of when cp is defined
C41 | proved | C41_rejected, C41_accepted_iff | the atmosphere model (external package) is a parameter of the theorems
C42 | proved | C42_airspeed_density | numeric includes NaN, as in the code
C43 | partial | C43_angle_range_false, C43_angles_in_range_partial | false: the range check joins the two comparisons with "and" and never fires; what holds is that angles inside the range are not rejected
C44 | proved | C44_iteration, C44_missing_rate | needs the three rates, as the code raises TypeError without them
C45 | partial | C45_round_trip_false, C45_reload_iff, C45_round_trip_partial | false for several entries and for altitude or Mach input; exact characterisation of the states which can be read back, and equality for these
C46 | partial | C46_check_partial, C46_errors, C46_optional_ignored, C46_accepted_iff, C46_defaults, C46_optional_false | false for entries which admit None (witness: 'deformation': 5 passes); complete description of what is accepted in C46_accepted_iff
C47 | proved | C47_epsilon |
C48 | partial | C48_defaults_partial, C48_nested_false | false inside the groups: a group given in part raises KeyError; proved for top-level settings
C49 | partial | C49_file, C49_memory_false, C49_memory_partial | the file part holds; false in memory: saving removes the hidden settings from the object
C50 | proved | C50_round_trip | JSON text itself is not modelled
C51 | proved | C51_names, C51_kept, C51_add_wing, C51_add_segment, C51_add_control, C51_on_wing, C51_set_symmetry |
C52 | proved | C52_check, C52_device_type | exact characterisation of accepted definitions; the exception class of schema violations (external package) is not modelled
C53 | proved | C53_positions, C53_no_span, C53_generated | also: spans of generated segments are never negative; a wing without span raises ZeroDivisionError
C54 | proved | C54_size, C54_distance, C54_zero |
C55 | proved | C55_sums, C55_trapezoid |
C67 | partial | C67_four_vertices, C67_reference_point_false | false: check_vertices turns a missing vertex into a NaN array, so that only the definition by four vertices works; exact characterisation of what is accepted
C68 | partial | C68_derived, C68_angles, C68_order_false | vertices are kept and the data agree with them; false: the order of vertices is not enforced
C69 | partial | C69_dihedral_false, C69_dihedral_partial | false for twisted segments: the z-offset of the axis enters with the wrong sign
C56 | partial | C56_mirror_name_false, C56_unknown_wing, C56_fields_partial | false for wings whose name contains "_m": the name is mangled, so the field of the mirrored half is lost or reaches another wing; unknown names raise; proved for names without "_m"
C57 | partial | C57_round_trip_false, C57_airfoil_path_false, C57_reload_iff, C57_round_trip_partial | false for chords running forwards (the saved angle is refused) and for blade files outside airfoils/; exact characterisation of the aircraft which come back
C58 | proved | C58_clean, C58_no_string |
C70 | proved | C70_unit_normals |
C71 | proved | C71_own_rotations |
C72 | proved | C72_deflections_local |
C73 | proved | C73_no_deflection |
C74 | partial | C74_symmetric_lattice_partial, C74_twisted_false | proved for subareas with parallel inner and outer edges or without camber; false for twisted cambered wings: the camber axis is perpendicular to the inner chord on one side and to the outer chord on the other
C75 | proved | C75_rigid_deflection |
C76 | proved | C76_lattice_generated |
C77 | proved | C77_positive_is_down |
C78 | partial | C78_xy_mirror_partial, C78_xy_mirror_false | false for every angle between 0 and 180 degree: equal deflections turn the two halves to opposite sides; proved for opposite deflections
C59 | proved | C59_one_row_per_state, C59_no_states |
C65 | proved | C65_same_lattice |
C79 | proved | C79_batch_is_single_runs |
C80 | proved | C80_returned_data_is_last_state |
C81 | proved | C81_result_files, C81_directories_distinct |
C82 | partial | C82_system_satisfied_partial, C82_singular_false | false for singular systems (e.g. two coincident wings): the status code of dgesv is ignored and the right-hand side is taken as the solution; proved for regular systems
C83 | partial | C83_symmetric_run_partial, C83_twisted_false | false for twisted cambered wings, whose lattice the code does not mirror (C74_twisted_false): such a wing gets a rolling moment in level flight; proved for subareas with parallel chords or without camber, or with rotations of the normals switched off
C64 | proved | C64_conflict, C64_one_action, C64_clean_needs_run, C64_clean_only, C64_run | all lists of options, also repeated ones; abbreviated options and malformed command lines (rejected by argparse) are not modelled
C84 | partial | C84_listed, C84_file, C84_make_partial, C84_make_json, C84_make_false | missing: names with a dot, for which the property is false (witness a.b.json); with the extension on the command line they work
C62 | partial | C62_permutation, C62_ordered_kept, C62_leading_edge, C62_spanwise_partial, C62_outline_partial, C62_outline_false, C62_spanwise_false, C62_import | permutation, order of leading and trailing edge and unchanged ordered corners are proved for all points and for whole imports; spanwise order and outline are false in general (twisted fin), proved for chords that do not overlap spanwise
C63 | proved | C63_columns, C63_no_map, C63_after_run | text format of the numbers not modelled
C85 | proved | C85_cpacs_states | the packages TIXI and ambiance are modelled by what they return
C86 | partial | C86_controls_partial, C86_segments_partial, C86_first_wing, C86_slat_and_flap_false, C86_other_wing_false, C86_segment_name_false | false: a slat and a flap of the same number always raise an exception, a deflection listed for a control of the second wing is rejected, and controls refer to raw segment names; proved for files without leading edge devices
C87 | partial | C87_airfoils_partial, C87_segments_partial, C87_airfoils_false | false if names differ only in characters that are removed; proved for distinct stored names
C88 | partial | C88_control_on_wing_partial, C88_wrong_segments_false, C88_close_borders_false, C88_unknown_inner_ignored | false for controls whose segments do not exist or are in the wrong order (they run to the tip or are left out without a message) and for borders closer than 0.01 (a flap that ends just beyond the border of a slat runs to the tip); proved for all others, over any number of segments
C89 | partial | C89_no_steps_partial, C89_close_borders_false | false for borders closer than 0.01 (the edge is not at the requested position at the requested border); missing also: wrong segment names, as for C88
C90 | partial | C90_straight_edges_partial, C90_close_borders_false | false for borders closer than 0.01 (the edge has a bend); the statement is about planar convex segments
C91 | partial | C91_layout_accepted_partial, C91_autopanels_accepted_partial, C91_planar_segment, C91_close_borders_false | false for borders on a segment that are closer than 0.01 to each other without being equal (witness: two flaps that do not overlap); proved for all other layouts, the geometric conditions being shown for planar convex segments
C92 | proved | C92_accepted_iff, C92_content | JSON text, missing keys and values of a wrong type are not modelled; whether an airfoil exists is a parameter
C93 | proved | C93_finishes_iff, C93_values | floating point is not modelled; in exact arithmetic
C94 | proved | C94_scaled_states | coefficients for nonzero airspeed and density
C95 | proved | C95_moment_transfer |
C96 | partial | C96_mirrored_states_partial, C96_twisted_false | false for twisted cambered wings (C74, C83)
C97 | proved | C97_moved_aircraft | the panelling of the moved aircraft is the same because relative positions are (xsiInterpol_moved)
C98 | proved | C98_accepted_iff, C98_content, C98_other_files, C98_state_source | JSON text is not modelled; str.upper and the file extension are parameters
C99 | proved | C99_no_exception | native projects; exceptions of plots are C111; files are found by name; import from CPACS is separate (C84-C87)
C100 | proved | C100_nothing_written | native projects
C101 | proved | C101_results_of_files | native projects; the camber line of an airfoil and the atmosphere are parameters
C102 | proved | C102_template, C102_template_finishes, C102_from_file, C102_from_file_finishes, C102_made_iff, C102_existing | the disk holds the one folder of the project; logging is not modelled; the case of a name without the extension .json is in the model only
C103 | partial | C103_resaved_partial, C103_loads_iff, C103_resaved_false | missing: projects with several flight states, with altitude or mach, with hidden settings or with segments that are changed by saving; for the first two the property is false
C104 | proved | C104_output_settings | what plots do is C110; a run that stops at a value that is not finite may have written other files
C105 | proved | C105_files_of_project | native projects
C106 | proved | C106_stopped_run, C106_stopped_project, C106_exception_no_files | a stop at a value that is not finite stands for what the code does from there on, which is not modelled
C107 | partial | C107_axes, C107_geometry_inside_partial, C107_cg_false | missing: the centre of gravity, which can be outside the axes
C108 | proved | C108_views_agree, C108_geometry, C108_lattice | text, markers and colour bars are left out
C109 | proved | C109_results | 
C110 | proved | C110_results_unchanged, C110_plot_exception | matplotlib itself never fails in the model
C111 | partial | C111_plots_made_partial, C111_unknown_key, C111_no_exception_false | missing: settings that name an unknown result; the property is false for them
C112 | proved | C112_plots_show | results that are not finite and flows without airspeed: only the kind of the plot is stated
C113 | partial | C113_content, C113_controls, C113_accepted_iff, C113_airfoils_partial | missing: airfoils stored under the same name (C87_airfoils_false); when the import of wings succeeds is told by C118
C114 | partial | C114_same_aircraft_iff, C114_chordless_refused, C114_relative_paths, C114_converts_iff, C114_pointed_false, C114_no_directory_false | false for pointed tips and where there is no directory for airfoils; exact conditions are given
C115 | partial | C115_converted_partial, C115_cpacs_states, C115_cpacs_states_false | the whole runs are equal if the states are in a state file and every chord has an extent in the x-y plane; false with flight states in the CPACS file, which are not converted
C116 | proved | C116_no_exception, C116_nothing_written | layout conditions on controls as in C99
C117 | proved | C117_results_of_cpacs | which airfoils and control surfaces the CPACS file leads to: C113, C86, C87
C118 | proved | C118_importable_iff, C118_content, C118_loaded_iff | 
C119 | partial | C119_joined_partial, C119_sideways_partial, C119_gaps_reported_false, C119_behind_false, C119_slope_false, C119_pointed_false, C119_order_false | false: gaps along the chord, however large, and edges of opposite slope pass; segments that meet in a point or are listed from tip to root are reported although there is no gap; proved: wings without gaps and without pointed edges pass, gaps to the side of edges along the x-axis are reported
C120 | partial | C120_scaled_partial, C120_limit_partial, C120_size_false | false: the trailing legs are 10000 long whatever the size or unit (witness: a wing whose chord is as long as its trailing legs, as 10 m given in millimetres); proved: the results are exactly those of the original aircraft with trailing legs of 10000 / k, nothing else depends on the size; the coefficients of small aircraft converge to those of vortices with infinite trailing legs
C121 | partial | C121_native_partial, C121_run_partial, C121_project_partial, C121_too_few_panels, C121_no_panels, C121_memory_false | false: with the accepted setting vlm_autopanels_c = 0 the native code reads symmetry flags from an array without elements (witness; every accepted project with that setting whose aircraft file leaves the chordwise panels to the settings; in general whenever there are fewer panels than subareas); proved with at least one chordwise panel everywhere, and for projects whenever vlm_autopanels_c is positive or left out: whole runs on Python objects and flat arrays give exactly the results of the runs that the other theorems are about, no access out of bounds, no call refused
C122 | partial | C122_inputs, C122_kept, C122_latest, C122_clean_run, C122_clean_finished, C122_again, C122_order, C122_stale_false, C122_same_name_false, C122_clean_false | false: without --clean results of earlier runs stay, --clean removes the results of all settings files, settings files with the same base name share results (witnesses); proved for all sessions: input files are never touched, what the latest run of a settings file wrote stays as it is while inputs change and other base names are run, after a run with --clean the results are exactly those of this run, starting twice is starting once, runs of different base names commute
C123 | proved | C123_circulations, C123_loads, C123_finishes, C123_combined, C123_project | exact arithmetic; circulations also for singular systems
C124 | proved | C124_panels, C124_wing_order, C124_finishes, C124_project | exact arithmetic; for the aircraft in memory (wings, geometry of their segments and camber lines given in any order) and for the wings in the aircraft file of a project, with deformations, if the setting vlm_autopanels_c is not negative
C125 | proved | C125_panels, C125_surfaces, C125_finishes | exact arithmetic; for the aircraft in memory; wings with controls or camber may be present and are the same in both aircraft; a segment with more than 100 spanwise panels must be described from the same side, because its strips are not equally wide (C09)
C126 | proved | C126_symmetry_flag | exact arithmetic; for the aircraft in memory
C127 | proved | C127_segment_side | exact arithmetic; for the aircraft in memory
C128 | proved | C128_wing_cut | exact arithmetic; for the aircraft in memory
C129 | proved | C129_names | exact arithmetic; new names are given by maps that are one-to-one on all names (any one-to-one renaming of the names in a file can be extended to such a map) and keep exactly the empty name empty; fields in the deformation file belong to wings whose old and new names do not start with an underscore or contain _m, or are ignored before and after
C130 | proved | C130_loaded_iff, C130_one_meaning, C130_whole_numbers | json.load is taken to return data without NaN, Infinity and repeated keys; schemadict by its contract, with its choice of exceptions and its treatment of unknown keys and of booleans as parameters
C131 | proved | C131_fault | the faults are those listed in FileFault; for values refused by schemadict see C130
C132 | proved | C132_extra, C132_misspelt_false | consequence that users would not expect: a misspelt key (control instead of controls) is not noticed
C133 | proved | C133_saved, C133_reload_iff | the literal NaN, which json writes for angles of a vertical chord, is a string in the model; both are refused by the schema
C134 | proved | C134_loaded_iff, C134_one_meaning, C134_fault, C134_same | lists inside lists are refused in the model; numpy would make a matrix of lists of equal length
C135 | proved | C135_loaded_iff, C135_run | json.load is taken to return data without NaN, Infinity and repeated keys; the deformation file is read by an external package
C136 | proved | C136_template, C136_template_finishes, C136_from_file | as C102, on JSON data
C137 | proved | C137_tangential, C137_in_plane, C137_project, C137_level | exact arithmetic; the camber angles come from an external package and are taken to be zero for airfoils without camber
C138 | proved | C138_surfaces, C138_symmetry_flag, C138_segment_side, C138_wing_cut | C125 to C128 for files; wings without controls and camber and without deformation; sides can be exchanged up to 100 spanwise panels (C09)
C139 | proved | C139_upside_down, C139_project | exact arithmetic; projects with native files
C140 | proved | C140_run, C140_project | exact arithmetic; projects with native files
C141 | partial | C141_symmetric_flight_partial, C141_mirrored_states_partial | projects with native files, with controls, camber and deformation; missing: wings with camber that are twisted, in the file or by deformation, for which the claim fails (C74_twisted_false, C83_twisted_false) unless rotations of the normals are switched off
C142 | proved | C142_moved_files, C142_finishes | exact arithmetic; projects with native files
C143 | proved | C143_conditions, C143_similar_flight, C143_rearranged | exact arithmetic; projects with native files; the atmosphere model is any function of the altitude
C144 | proved | C144_rotated, C144_project, C144_pitched_file, C144_automatic_numbers | exact arithmetic; projects with native files; C144_automatic_numbers shows that the condition on automatic numbers of spanwise panels is needed
C145 | proved | C145_surface_on_its_image, C145_coincident_vortices | project and run level; the solution of a singular system is that of C82: the right-hand side
C146 | partial | C146_small_partial, C146_run, C146_project, C146_large, C146_integers_false | false from 46341 panels on; up to that number proved for runs and projects whose subareas have at least one chordwise panel (C121); int of 32 bits, long int without overflow
C147 | proved | C147_same_side, C147_plane_segment, C147_main_direction | undeformed segments; deflections and camber zero or no rotation of normals
C148 | partial | C148_front_first_partial, C148_yz_reversed, C148_front_first_false | false on the mirrored side of wings with symmetry plane yz, where all panels are reversed; proved for all other sides
C149 | proved | C149_given_twice | project and run level; builds on C145_coincident_vortices and C82
C150 | proved | C150_one_panel, C150_own_downwash | project and run level for one panel; lattice level for own downwash; airfoils without camber, no deflection and deformation
C151 | proved | C151_always_analysed, C151_lattice | project level and lattice level; exact real arithmetic: overflow of floating point numbers is not modelled
C152 | proved | C152_always_analysed, C152_lattice | project level and lattice level; for vertical fins see C153; exact real arithmetic: overflow of floating point numbers is not modelled
C153 | proved | C153_always_analysed, C153_json, C153_lattice | project level, also on JSON data, and lattice level; winglets and twin fins given as one mirrored fin are not covered; exact real arithmetic: overflow of floating point numbers is not modelled
C154 | proved | C154_cpacs_analysed | as C153, for the wings imported from a CPACS file; exact real arithmetic: overflow of floating point numbers is not modelled
