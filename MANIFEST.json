{"claims": [
{"property": "C01", "status": "proved", "theorems": ["Verif.C01_strips_tile", "Verif.C01_aircraft_strips_tile"], "note": "All histories of calls, also after calls that raised; any interpolation function."},
{"property": "C02", "status": "partial", "theorems": ["Verif.C02_strips_nonempty", "Verif.C02_min_width_false", "Verif.C02_min_width_partial"], "note": "Non-emptiness holds always; the 0.01 minimum is false below an existing border (witness 0.5 then 0.495) and proved for coordinates that are 0.01 apart."},
{"property": "C03", "status": "proved", "theorems": ["Verif.C03_invalid_line", "Verif.C03_close_line", "Verif.C03_new_line", "Verif.C03_line_idempotent"], "note": "All reachable segment states."},
{"property": "C04", "status": "proved", "theorems": ["Verif.C04_chord_lines", "Verif.C04_aircraft_chord_lines"], "note": "All histories of calls that use equal leading- and trailing-edge coordinates (as all callers do)."},
{"property": "C05", "status": "proved", "theorems": ["Verif.C05_chordwise_tiling", "Verif.C05_aircraft_chordwise_tiling"], "note": "All histories, any interpolation function; holds even after calls that raised."},
{"property": "C06", "status": "proved", "theorems": ["Verif.C06_slat_accepted_iff", "Verif.C06_flap_accepted_iff", "Verif.C06_gap_kept", "Verif.C06_aircraft_gap"], "note": "All histories without exception, any interpolation function."},
{"property": "C07", "status": "partial", "theorems": ["Verif.C07_control_range_false", "Verif.C07_control_range_false_at_border", "Verif.C07_control_range_partial"], "note": "False for controls thinner than 0.01 or ending less than 0.01 past a border (witnesses); proved when all requested coordinates are 0.01 apart."},
{"property": "C08", "status": "proved", "theorems": ["Verif.C08_well_posed", "Verif.C08_ends", "Verif.C08_between"], "note": "planar convex segments as in the statement; ends and well-posedness also for twisted segments; the external plane-line intersection is taken by its contract"},
{"property": "C09", "status": "proved", "theorems": ["Verif.C09_num_strips", "Verif.C09_aircraft_num_strips", "Verif.C09_lines_delivered", "Verif.C09_too_many_false"], "note": "1..100 delivered exactly; for every larger number at most 100 strips are made (both as the statement says). Exact arithmetic."},
{"property": "C10", "status": "proved", "theorems": ["Verif.C10_user_numbers_kept", "Verif.C10_autopanels_sufficient"], "note": "All aircraft, all settings >= 1, positive spans."},
{"property": "C11", "status": "proved", "theorems": ["Verif.C11_bookkeeping_partition"], "note": "All aircraft whose pre-panelling succeeds; counts >= 0; the bookkeeping itself is shown never to fail."},
{"property": "C12", "status": "proved", "theorems": ["Verif.C12_panels_once", "Verif.C12_elements_once", "Verif.C12_contents", "Verif.C12_entries"], "note": "machine integers are unbounded in the model"},
{"property": "C13", "status": "partial", "theorems": ["Verif.C13_symmetry_reads_false", "Verif.C13_symmetry_reads_partial"], "note": "False for the accepted setting vlm_autopanels_c = 0 (witness: empty table, two reads); proved when every chordwise number is at least one."},
{"property": "C14", "status": "proved", "theorems": ["Verif.C14_inner_edges", "Verif.C14_outer_corners", "Verif.C14_spanwise_neighbours", "Verif.C14_chordwise_neighbours", "Verif.C14_subarea_borders"], "note": ""},
{"property": "C15", "status": "proved", "theorems": ["Verif.C15_quarter_points", "Verif.C15_trailing_legs"], "note": "the trailing vortices end 10000 length units downstream, as in the code"},
{"property": "C16", "status": "proved", "theorems": ["Verif.C16_normal_unit", "Verif.C16_normal_perpendicular", "Verif.C16_normal_side"], "note": "the side is shown for every subarea with convex outline, twisted ones included"},
{"property": "C17", "status": "partial", "theorems": ["Verif.C17_area_false", "Verif.C17_area_partial"], "note": "false for swept panels (witness: sheared unit square gives sqrt 2); exact characterisation: never too small, equal exactly if the sides are perpendicular"},
{"property": "C18", "status": "proved", "theorems": ["Verif.C18_statistics"], "note": ""},
{"property": "C19", "status": "proved", "theorems": ["Verif.C19_mirror_is_reflection", "Verif.C19_mirror_involution"], "note": ""},
{"property": "C20", "status": "partial", "theorems": ["Verif.C20_mirror_image_partial", "Verif.C20_mirror_image_yz", "Verif.C20_mirror_image_yz_full_chord_partial", "Verif.C20_mirror_image_yz_false"], "note": "true for symmetry 1 and 2; false for symmetry 3 with devices (witness given): chord positions are counted from the wrong end"},
{"property": "C21", "status": "partial", "theorems": ["Verif.C21_mirror_hinge_partial", "Verif.C21_mirror_axis", "Verif.C21_mirror_hinge_yz_false"], "note": "true for symmetry 1 and 2; false for symmetry 3 (witness given)"},
{"property": "C22", "status": "proved", "theorems": ["Verif.C22_strip_corners", "Verif.C22_subarea_corners", "Verif.C22_aircraft_subarea_corners"], "note": ""},
{"property": "C23", "status": "proved", "theorems": ["Verif.C23_original_half", "Verif.C23_mirrored_half"], "note": ""},
{"property": "C24", "status": "proved", "theorems": ["Verif.C24_camber_stations"], "note": ""},
{"property": "C25", "status": "proved", "theorems": ["Verif.C25_flow_tangency"], "note": ""},
{"property": "C26", "status": "proved", "theorems": ["Verif.C26_denominator_pos", "Verif.C26_matrix_defined", "Verif.C26_results_defined"], "note": ""},
{"property": "C27", "status": "proved", "theorems": ["Verif.C27_textbook", "Verif.C27_integral", "Verif.C27_damped"], "note": ""},
{"property": "C28", "status": "proved", "theorems": ["Verif.C28_own_line", "Verif.C28_reversed", "Verif.C28_own_midpoint"], "note": ""},
{"property": "C29", "status": "proved", "theorems": ["Verif.C29_kutta_joukowski"], "note": ""},
{"property": "C30", "status": "proved", "theorems": ["Verif.C30_totals", "Verif.C30_order_irrelevant"], "note": ""},
{"property": "C31", "status": "proved", "theorems": ["Verif.C31_moment_transfer"], "note": ""},
{"property": "C32", "status": "proved", "theorems": ["Verif.C32_rotation", "Verif.C32_wind_force"], "note": ""},
{"property": "C33", "status": "proved", "theorems": ["Verif.C33_same_freestream"], "note": ""},
{"property": "C34", "status": "proved", "theorems": ["Verif.C34_coefficients"], "note": ""},
{"property": "C35", "status": "partial", "theorems": ["Verif.C35_pressure_false", "Verif.C35_pressure_partial"], "note": "false: zero airspeed and zero density are accepted and make cp a division by zero; exact characterisation of when cp is defined"},
{"property": "C36", "status": "proved", "theorems": ["Verif.C36_density"], "note": "at zero airspeed the guard q = 1 of the code makes coefficients proportional to density, so the statement on coefficients needs a non-zero airspeed"},
{"property": "C37", "status": "proved", "theorems": ["Verif.C37_airspeed"], "note": ""},
{"property": "C38", "status": "proved", "theorems": ["Verif.C38_translation", "Verif.C38_generated"], "note": ""},
{"property": "C39", "status": "proved", "theorems": ["Verif.C39_no_lateral_loads", "Verif.C39_generated_symmetric"], "note": "the generated lattice is shown symmetric for panels without camber and deflection; the loads theorem holds for every symmetric lattice"},
{"property": "C40", "status": "proved", "theorems": ["Verif.C40_mirrored_lattice", "Verif.C40_corners_delivered"], "note": ""},
{"property": "C41", "status": "proved", "theorems": ["Verif.C41_rejected", "Verif.C41_accepted_iff"], "note": "the atmosphere model (external package) is a parameter of the theorems"},
{"property": "C42", "status": "proved", "theorems": ["Verif.C42_airspeed_density"], "note": "numeric includes NaN, as in the code"},
{"property": "C43", "status": "partial", "theorems": ["Verif.C43_angle_range_false", "Verif.C43_angles_in_range_partial"], "note": "false: the range check joins the two comparisons with \"and\" and never fires; what holds is that angles inside the range are not rejected"},
{"property": "C44", "status": "proved", "theorems": ["Verif.C44_iteration", "Verif.C44_missing_rate"], "note": "needs the three rates, as the code raises TypeError without them"},
{"property": "C45", "status": "partial", "theorems": ["Verif.C45_round_trip_false", "Verif.C45_reload_iff", "Verif.C45_round_trip_partial"], "note": "false for several entries and for altitude or Mach input; exact characterisation of the states which can be read back, and equality for these"},
{"property": "C46", "status": "partial", "theorems": ["Verif.C46_check_partial", "Verif.C46_errors", "Verif.C46_optional_ignored", "Verif.C46_accepted_iff", "Verif.C46_defaults", "Verif.C46_optional_false"], "note": "false for entries which admit None (witness: 'deformation': 5 passes); complete description of what is accepted in C46_accepted_iff"},
{"property": "C47", "status": "proved", "theorems": ["Verif.C47_epsilon"], "note": ""},
{"property": "C48", "status": "partial", "theorems": ["Verif.C48_defaults_partial", "Verif.C48_nested_false"], "note": "false inside the groups: a group given in part raises KeyError; proved for top-level settings"},
{"property": "C49", "status": "partial", "theorems": ["Verif.C49_file", "Verif.C49_memory_false", "Verif.C49_memory_partial"], "note": "the file part holds; false in memory: saving removes the hidden settings from the object"},
{"property": "C50", "status": "proved", "theorems": ["Verif.C50_round_trip"], "note": "JSON text itself is not modelled"},
{"property": "C51", "status": "proved", "theorems": ["Verif.C51_names", "Verif.C51_kept", "Verif.C51_add_wing", "Verif.C51_add_segment", "Verif.C51_add_control", "Verif.C51_on_wing", "Verif.C51_set_symmetry"], "note": ""},
{"property": "C52", "status": "proved", "theorems": ["Verif.C52_check", "Verif.C52_device_type"], "note": "exact characterisation of accepted definitions; the exception class of schema violations (external package) is not modelled"},
{"property": "C53", "status": "proved", "theorems": ["Verif.C53_positions", "Verif.C53_no_span", "Verif.C53_generated"], "note": "also: spans of generated segments are never negative; a wing without span raises ZeroDivisionError"},
{"property": "C54", "status": "proved", "theorems": ["Verif.C54_size", "Verif.C54_distance", "Verif.C54_zero"], "note": ""},
{"property": "C55", "status": "proved", "theorems": ["Verif.C55_sums", "Verif.C55_trapezoid"], "note": ""},
{"property": "C56", "status": "partial", "theorems": ["Verif.C56_mirror_name_false", "Verif.C56_unknown_wing", "Verif.C56_fields_partial"], "note": "false for wings whose name contains \"_m\": the name is mangled, so the field of the mirrored half is lost or reaches another wing; unknown names raise; proved for names without \"_m\""},
{"property": "C57", "status": "partial", "theorems": ["Verif.C57_round_trip_false", "Verif.C57_airfoil_path_false", "Verif.C57_reload_iff", "Verif.C57_round_trip_partial"], "note": "false for chords running forwards (the saved angle is refused) and for blade files outside airfoils/; exact characterisation of the aircraft which come back"},
{"property": "C58", "status": "proved", "theorems": ["Verif.C58_clean", "Verif.C58_no_string"], "note": ""},
{"property": "C59", "status": "proved", "theorems": ["Verif.C59_one_row_per_state", "Verif.C59_no_states"], "note": ""},
{"property": "C60", "status": "proved", "theorems": ["Verif.C60_all_wings", "Verif.C60_all_segments", "Verif.C60_all_controls", "Verif.C60_all_subdivisions", "Verif.C60_all_subareas", "Verif.C60_strip_subareas"], "note": "All aircraft."},
{"property": "C61", "status": "partial", "theorems": ["Verif.C61_subareas_of_control_false"], "note": "The property is false for every aircraft with at least one strip: the listing always raises AttributeError."},
{"property": "C62", "status": "partial", "theorems": ["Verif.C62_permutation", "Verif.C62_ordered_kept", "Verif.C62_leading_edge", "Verif.C62_spanwise_partial", "Verif.C62_outline_partial", "Verif.C62_outline_false", "Verif.C62_spanwise_false", "Verif.C62_import"], "note": "permutation, order of leading and trailing edge and unchanged ordered corners are proved for all points and for whole imports; spanwise order and outline are false in general (twisted fin), proved for chords that do not overlap spanwise"},
{"property": "C63", "status": "proved", "theorems": ["Verif.C63_columns", "Verif.C63_no_map", "Verif.C63_after_run"], "note": "text format of the numbers not modelled"},
{"property": "C64", "status": "proved", "theorems": ["Verif.C64_conflict", "Verif.C64_one_action", "Verif.C64_clean_needs_run", "Verif.C64_clean_only", "Verif.C64_run"], "note": "all lists of options, also repeated ones; abbreviated options and malformed command lines (rejected by argparse) are not modelled"},
{"property": "C65", "status": "proved", "theorems": ["Verif.C65_same_lattice"], "note": ""},
{"property": "C66", "status": "proved", "theorems": ["Verif.C66_native_mirror", "Verif.C66_native_mirror_table"], "note": ""},
{"property": "C67", "status": "partial", "theorems": ["Verif.C67_four_vertices", "Verif.C67_reference_point_false"], "note": "false: check_vertices turns a missing vertex into a NaN array, so that only the definition by four vertices works; exact characterisation of what is accepted"},
{"property": "C68", "status": "partial", "theorems": ["Verif.C68_derived", "Verif.C68_angles", "Verif.C68_order_false"], "note": "vertices are kept and the data agree with them; false: the order of vertices is not enforced"},
{"property": "C69", "status": "partial", "theorems": ["Verif.C69_dihedral_false", "Verif.C69_dihedral_partial"], "note": "false for twisted segments: the z-offset of the axis enters with the wrong sign"},
{"property": "C70", "status": "proved", "theorems": ["Verif.C70_unit_normals"], "note": ""},
{"property": "C71", "status": "proved", "theorems": ["Verif.C71_own_rotations"], "note": ""},
{"property": "C72", "status": "proved", "theorems": ["Verif.C72_deflections_local"], "note": ""},
{"property": "C73", "status": "proved", "theorems": ["Verif.C73_no_deflection"], "note": ""},
{"property": "C74", "status": "partial", "theorems": ["Verif.C74_symmetric_lattice_partial", "Verif.C74_twisted_false"], "note": "proved for subareas with parallel inner and outer edges or without camber; false for twisted cambered wings: the camber axis is perpendicular to the inner chord on one side and to the outer chord on the other"},
{"property": "C75", "status": "proved", "theorems": ["Verif.C75_rigid_deflection"], "note": ""},
{"property": "C76", "status": "proved", "theorems": ["Verif.C76_lattice_generated"], "note": ""},
{"property": "C77", "status": "proved", "theorems": ["Verif.C77_positive_is_down"], "note": ""},
{"property": "C78", "status": "partial", "theorems": ["Verif.C78_xy_mirror_partial", "Verif.C78_xy_mirror_false"], "note": "false for every angle between 0 and 180 degree: equal deflections turn the two halves to opposite sides; proved for opposite deflections"},
{"property": "C79", "status": "proved", "theorems": ["Verif.C79_batch_is_single_runs"], "note": ""},
{"property": "C80", "status": "proved", "theorems": ["Verif.C80_returned_data_is_last_state"], "note": ""},
{"property": "C81", "status": "proved", "theorems": ["Verif.C81_result_files", "Verif.C81_directories_distinct"], "note": ""},
{"property": "C82", "status": "partial", "theorems": ["Verif.C82_system_satisfied_partial", "Verif.C82_singular_false"], "note": "false for singular systems (e.g. two coincident wings): the status code of dgesv is ignored and the right-hand side is taken as the solution; proved for regular systems"},
{"property": "C83", "status": "partial", "theorems": ["Verif.C83_symmetric_run_partial", "Verif.C83_twisted_false"], "note": "false for twisted cambered wings, whose lattice the code does not mirror (C74_twisted_false): such a wing gets a rolling moment in level flight; proved for subareas with parallel chords or without camber, or with rotations of the normals switched off"},
{"property": "C84", "status": "partial", "theorems": ["Verif.C84_listed", "Verif.C84_file", "Verif.C84_make_partial", "Verif.C84_make_json", "Verif.C84_make_false"], "note": "missing: names with a dot, for which the property is false (witness a.b.json); with the extension on the command line they work"},
{"property": "C85", "status": "proved", "theorems": ["Verif.C85_cpacs_states"], "note": "the packages TIXI and ambiance are modelled by what they return"},
{"property": "C86", "status": "partial", "theorems": ["Verif.C86_controls_partial", "Verif.C86_segments_partial", "Verif.C86_first_wing", "Verif.C86_slat_and_flap_false", "Verif.C86_other_wing_false", "Verif.C86_segment_name_false"], "note": "false: a slat and a flap of the same number always raise an exception, a deflection listed for a control of the second wing is rejected, and controls refer to raw segment names; proved for files without leading edge devices"},
{"property": "C87", "status": "partial", "theorems": ["Verif.C87_airfoils_partial", "Verif.C87_segments_partial", "Verif.C87_airfoils_false"], "note": "false if names differ only in characters that are removed; proved for distinct stored names"},
{"property": "C88", "status": "partial", "theorems": ["Verif.C88_control_on_wing_partial", "Verif.C88_wrong_segments_false", "Verif.C88_close_borders_false", "Verif.C88_unknown_inner_ignored"], "note": "false for controls whose segments do not exist or are in the wrong order (they run to the tip or are left out without a message) and for borders closer than 0.01 (a flap that ends just beyond the border of a slat runs to the tip); proved for all others, over any number of segments"},
{"property": "C89", "status": "partial", "theorems": ["Verif.C89_no_steps_partial", "Verif.C89_close_borders_false"], "note": "false for borders closer than 0.01 (the edge is not at the requested position at the requested border); missing also: wrong segment names, as for C88"},
{"property": "C90", "status": "partial", "theorems": ["Verif.C90_straight_edges_partial", "Verif.C90_close_borders_false"], "note": "false for borders closer than 0.01 (the edge has a bend); the statement is about planar convex segments"},
{"property": "C91", "status": "partial", "theorems": ["Verif.C91_layout_accepted_partial", "Verif.C91_autopanels_accepted_partial", "Verif.C91_planar_segment", "Verif.C91_close_borders_false"], "note": "false for borders on a segment that are closer than 0.01 to each other without being equal (witness: two flaps that do not overlap); proved for all other layouts, the geometric conditions being shown for planar convex segments"},
{"property": "C92", "status": "proved", "theorems": ["Verif.C92_accepted_iff", "Verif.C92_content"], "note": "JSON text, missing keys and values of a wrong type are not modelled; whether an airfoil exists is a parameter"},
{"property": "C93", "status": "proved", "theorems": ["Verif.C93_finishes_iff", "Verif.C93_values"], "note": "floating point is not modelled; in exact arithmetic"},
{"property": "C94", "status": "proved", "theorems": ["Verif.C94_scaled_states"], "note": "coefficients for nonzero airspeed and density"},
{"property": "C95", "status": "proved", "theorems": ["Verif.C95_moment_transfer"], "note": ""},
{"property": "C96", "status": "partial", "theorems": ["Verif.C96_mirrored_states_partial", "Verif.C96_twisted_false"], "note": "false for twisted cambered wings (C74, C83)"},
{"property": "C97", "status": "proved", "theorems": ["Verif.C97_moved_aircraft"], "note": "the panelling of the moved aircraft is the same because relative positions are (xsiInterpol_moved)"},
{"property": "C98", "status": "proved", "theorems": ["Verif.C98_accepted_iff", "Verif.C98_content", "Verif.C98_other_files", "Verif.C98_state_source"], "note": "JSON text is not modelled; str.upper and the file extension are parameters"},
{"property": "C99", "status": "proved", "theorems": ["Verif.C99_no_exception"], "note": "native projects; exceptions of plots are C111; files are found by name; import from CPACS is separate (C84-C87)"},
{"property": "C100", "status": "proved", "theorems": ["Verif.C100_nothing_written"], "note": "native projects"},
{"property": "C101", "status": "proved", "theorems": ["Verif.C101_results_of_files"], "note": "native projects; the camber line of an airfoil and the atmosphere are parameters"},
{"property": "C102", "status": "proved", "theorems": ["Verif.C102_template", "Verif.C102_template_finishes", "Verif.C102_from_file", "Verif.C102_from_file_finishes", "Verif.C102_made_iff", "Verif.C102_existing"], "note": "the disk holds the one folder of the project; logging is not modelled; the case of a name without the extension .json is in the model only"},
{"property": "C103", "status": "partial", "theorems": ["Verif.C103_resaved_partial", "Verif.C103_loads_iff", "Verif.C103_resaved_false"], "note": "missing: projects with several flight states, with altitude or mach, with hidden settings or with segments that are changed by saving; for the first two the property is false"},
{"property": "C104", "status": "proved", "theorems": ["Verif.C104_output_settings"], "note": "what plots do is C110; a run that stops at a value that is not finite may have written other files"},
{"property": "C105", "status": "proved", "theorems": ["Verif.C105_files_of_project"], "note": "native projects"},
{"property": "C106", "status": "proved", "theorems": ["Verif.C106_stopped_run", "Verif.C106_stopped_project", "Verif.C106_exception_no_files"], "note": "a stop at a value that is not finite stands for what the code does from there on, which is not modelled"},
{"property": "C107", "status": "partial", "theorems": ["Verif.C107_axes", "Verif.C107_geometry_inside_partial", "Verif.C107_cg_false"], "note": "missing: the centre of gravity, which can be outside the axes"},
{"property": "C108", "status": "proved", "theorems": ["Verif.C108_views_agree", "Verif.C108_geometry", "Verif.C108_lattice"], "note": "text, markers and colour bars are left out"},
{"property": "C109", "status": "proved", "theorems": ["Verif.C109_results"], "note": ""},
{"property": "C110", "status": "proved", "theorems": ["Verif.C110_results_unchanged", "Verif.C110_plot_exception"], "note": "matplotlib itself never fails in the model"},
{"property": "C111", "status": "partial", "theorems": ["Verif.C111_plots_made_partial", "Verif.C111_unknown_key", "Verif.C111_no_exception_false"], "note": "missing: settings that name an unknown result; the property is false for them"},
{"property": "C112", "status": "proved", "theorems": ["Verif.C112_plots_show"], "note": "results that are not finite and flows without airspeed: only the kind of the plot is stated"},
{"property": "C113", "status": "partial", "theorems": ["Verif.C113_content", "Verif.C113_controls", "Verif.C113_accepted_iff", "Verif.C113_airfoils_partial"], "note": "missing: airfoils stored under the same name (C87_airfoils_false); when the import of wings succeeds is told by C118"},
{"property": "C114", "status": "partial", "theorems": ["Verif.C114_same_aircraft_iff", "Verif.C114_chordless_refused", "Verif.C114_relative_paths", "Verif.C114_converts_iff", "Verif.C114_pointed_false", "Verif.C114_no_directory_false"], "note": "false for pointed tips and where there is no directory for airfoils; exact conditions are given"},
{"property": "C115", "status": "partial", "theorems": ["Verif.C115_converted_partial", "Verif.C115_cpacs_states", "Verif.C115_cpacs_states_false"], "note": "the whole runs are equal if the states are in a state file and every chord has an extent in the x-y plane; false with flight states in the CPACS file, which are not converted"},
{"property": "C116", "status": "proved", "theorems": ["Verif.C116_no_exception", "Verif.C116_nothing_written"], "note": "layout conditions on controls as in C99"},
{"property": "C117", "status": "proved", "theorems": ["Verif.C117_results_of_cpacs"], "note": "which airfoils and control surfaces the CPACS file leads to: C113, C86, C87"},
{"property": "C118", "status": "proved", "theorems": ["Verif.C118_importable_iff", "Verif.C118_content", "Verif.C118_loaded_iff"], "note": ""},
{"property": "C119", "status": "partial", "theorems": ["Verif.C119_joined_partial", "Verif.C119_sideways_partial", "Verif.C119_gaps_reported_false", "Verif.C119_behind_false", "Verif.C119_slope_false", "Verif.C119_pointed_false", "Verif.C119_order_false"], "note": "false: gaps along the chord, however large, and edges of opposite slope pass; segments that meet in a point or are listed from tip to root are reported although there is no gap; proved: wings without gaps and without pointed edges pass, gaps to the side of edges along the x-axis are reported"},
{"property": "C120", "status": "partial", "theorems": ["Verif.C120_scaled_partial", "Verif.C120_limit_partial", "Verif.C120_size_false"], "note": "false: the trailing legs are 10000 long whatever the size or unit (witness: a wing whose chord is as long as its trailing legs, as 10 m given in millimetres); proved: the results are exactly those of the original aircraft with trailing legs of 10000 / k, nothing else depends on the size; the coefficients of small aircraft converge to those of vortices with infinite trailing legs"},
{"property": "C121", "status": "partial", "theorems": ["Verif.C121_native_partial", "Verif.C121_run_partial", "Verif.C121_project_partial", "Verif.C121_too_few_panels", "Verif.C121_no_panels", "Verif.C121_memory_false"], "note": "false: with the accepted setting vlm_autopanels_c = 0 the native code reads symmetry flags from an array without elements (witness; every accepted project with that setting whose aircraft file leaves the chordwise panels to the settings; in general whenever there are fewer panels than subareas); proved with at least one chordwise panel everywhere, and for projects whenever vlm_autopanels_c is positive or left out: whole runs on Python objects and flat arrays give exactly the results of the runs that the other theorems are about, no access out of bounds, no call refused"},
{"property": "C122", "status": "partial", "theorems": ["Verif.C122_inputs", "Verif.C122_kept", "Verif.C122_latest", "Verif.C122_clean_run", "Verif.C122_clean_finished", "Verif.C122_again", "Verif.C122_order", "Verif.C122_stale_false", "Verif.C122_same_name_false", "Verif.C122_clean_false"], "note": "false: without --clean results of earlier runs stay, --clean removes the results of all settings files, settings files with the same base name share results (witnesses); proved for all sessions: input files are never touched, what the latest run of a settings file wrote stays as it is while inputs change and other base names are run, after a run with --clean the results are exactly those of this run, starting twice is starting once, runs of different base names commute"},
{"property": "C123", "status": "proved", "theorems": ["Verif.C123_circulations", "Verif.C123_loads", "Verif.C123_finishes", "Verif.C123_combined", "Verif.C123_project"], "note": "exact arithmetic; circulations also for singular systems"},
{"property": "C124", "status": "proved", "theorems": ["Verif.C124_panels", "Verif.C124_wing_order", "Verif.C124_finishes", "Verif.C124_project"], "note": "exact arithmetic; for the aircraft in memory (wings, geometry of their segments and camber lines given in any order) and for the wings in the aircraft file of a project, with deformations, if the setting vlm_autopanels_c is not negative"},
{"property": "C125", "status": "proved", "theorems": ["Verif.C125_panels", "Verif.C125_surfaces", "Verif.C125_finishes"], "note": "exact arithmetic; for the aircraft in memory; wings with controls or camber may be present and are the same in both aircraft; a segment with more than 100 spanwise panels must be described from the same side, because its strips are not equally wide (C09)"},
{"property": "C126", "status": "proved", "theorems": ["Verif.C126_symmetry_flag"], "note": "exact arithmetic; for the aircraft in memory"},
{"property": "C127", "status": "proved", "theorems": ["Verif.C127_segment_side"], "note": "exact arithmetic; for the aircraft in memory"},
{"property": "C128", "status": "proved", "theorems": ["Verif.C128_wing_cut"], "note": "exact arithmetic; for the aircraft in memory"},
{"property": "C129", "status": "proved", "theorems": ["Verif.C129_names"], "note": "exact arithmetic; new names are given by maps that are one-to-one on all names (any one-to-one renaming of the names in a file can be extended to such a map) and keep exactly the empty name empty; fields in the deformation file belong to wings whose old and new names do not start with an underscore or contain _m, or are ignored before and after"},
{"property": "C130", "status": "proved", "theorems": ["Verif.C130_loaded_iff", "Verif.C130_one_meaning", "Verif.C130_whole_numbers"], "note": "json.load is taken to return data without NaN, Infinity and repeated keys; schemadict by its contract, with its choice of exceptions and its treatment of unknown keys and of booleans as parameters"},
{"property": "C131", "status": "proved", "theorems": ["Verif.C131_fault"], "note": "the faults are those listed in FileFault; for values refused by schemadict see C130"},
{"property": "C132", "status": "proved", "theorems": ["Verif.C132_extra", "Verif.C132_misspelt_false"], "note": "consequence that users would not expect: a misspelt key (control instead of controls) is not noticed"},
{"property": "C133", "status": "proved", "theorems": ["Verif.C133_saved", "Verif.C133_reload_iff"], "note": "the literal NaN, which json writes for angles of a vertical chord, is a string in the model; both are refused by the schema"},
{"property": "C134", "status": "proved", "theorems": ["Verif.C134_loaded_iff", "Verif.C134_one_meaning", "Verif.C134_fault", "Verif.C134_same"], "note": "lists inside lists are refused in the model; numpy would make a matrix of lists of equal length"},
{"property": "C135", "status": "proved", "theorems": ["Verif.C135_loaded_iff", "Verif.C135_run"], "note": "json.load is taken to return data without NaN, Infinity and repeated keys; the deformation file is read by an external package"},
{"property": "C136", "status": "proved", "theorems": ["Verif.C136_template", "Verif.C136_template_finishes", "Verif.C136_from_file"], "note": "as C102, on JSON data"},
{"property": "C137", "status": "proved", "theorems": ["Verif.C137_tangential", "Verif.C137_in_plane", "Verif.C137_project", "Verif.C137_level"], "note": "exact arithmetic; the camber angles come from an external package and are taken to be zero for airfoils without camber"},
{"property": "C138", "status": "proved", "theorems": ["Verif.C138_surfaces", "Verif.C138_symmetry_flag", "Verif.C138_segment_side", "Verif.C138_wing_cut"], "note": "C125 to C128 for files; wings without controls and camber and without deformation; sides can be exchanged up to 100 spanwise panels (C09)"},
{"property": "C139", "status": "proved", "theorems": ["Verif.C139_upside_down", "Verif.C139_project"], "note": "exact arithmetic; projects with native files"},
{"property": "C140", "status": "proved", "theorems": ["Verif.C140_run", "Verif.C140_project"], "note": "exact arithmetic; projects with native files"},
{"property": "C141", "status": "partial", "theorems": ["Verif.C141_symmetric_flight_partial", "Verif.C141_mirrored_states_partial"], "note": "projects with native files, with controls, camber and deformation; missing: wings with camber that are twisted, in the file or by deformation, for which the claim fails (C74_twisted_false, C83_twisted_false) unless rotations of the normals are switched off"},
{"property": "C142", "status": "proved", "theorems": ["Verif.C142_moved_files", "Verif.C142_finishes"], "note": "exact arithmetic; projects with native files"},
{"property": "C143", "status": "proved", "theorems": ["Verif.C143_conditions", "Verif.C143_similar_flight", "Verif.C143_rearranged"], "note": "exact arithmetic; projects with native files; the atmosphere model is any function of the altitude"},
{"property": "C144", "status": "proved", "theorems": ["Verif.C144_rotated", "Verif.C144_project", "Verif.C144_pitched_file", "Verif.C144_automatic_numbers"], "note": "exact arithmetic; projects with native files; C144_automatic_numbers shows that the condition on automatic numbers of spanwise panels is needed"},
{"property": "C145", "status": "proved", "theorems": ["Verif.C145_surface_on_its_image", "Verif.C145_coincident_vortices"], "note": "project and run level; the solution of a singular system is that of C82: the right-hand side"},
{"property": "C146", "status": "partial", "theorems": ["Verif.C146_small_partial", "Verif.C146_run", "Verif.C146_project", "Verif.C146_large", "Verif.C146_integers_false"], "note": "false from 46341 panels on; up to that number proved for runs and projects whose subareas have at least one chordwise panel (C121); int of 32 bits, long int without overflow"},
{"property": "C147", "status": "proved", "theorems": ["Verif.C147_same_side", "Verif.C147_plane_segment", "Verif.C147_main_direction"], "note": "undeformed segments; deflections and camber zero or no rotation of normals"},
{"property": "C148", "status": "partial", "theorems": ["Verif.C148_front_first_partial", "Verif.C148_yz_reversed", "Verif.C148_front_first_false"], "note": "false on the mirrored side of wings with symmetry plane yz, where all panels are reversed; proved for all other sides"},
{"property": "C149", "status": "proved", "theorems": ["Verif.C149_given_twice"], "note": "project and run level; builds on C145_coincident_vortices and C82"},
{"property": "C150", "status": "proved", "theorems": ["Verif.C150_one_panel", "Verif.C150_own_downwash"], "note": "project and run level for one panel; lattice level for own downwash; airfoils without camber, no deflection and deformation"},
{"property": "C151", "status": "proved", "theorems": ["Verif.C151_always_analysed", "Verif.C151_lattice"], "note": "project level and lattice level; exact real arithmetic: overflow of floating point numbers is not modelled"},
{"property": "C152", "status": "proved", "theorems": ["Verif.C152_always_analysed", "Verif.C152_lattice"], "note": "project level and lattice level; for vertical fins see C153; exact real arithmetic: overflow of floating point numbers is not modelled"},
{"property": "C153", "status": "proved", "theorems": ["Verif.C153_always_analysed", "Verif.C153_json", "Verif.C153_lattice"], "note": "project level, also on JSON data, and lattice level; winglets and twin fins given as one mirrored fin are not covered; exact real arithmetic: overflow of floating point numbers is not modelled"},
{"property": "C154", "status": "proved", "theorems": ["Verif.C154_cpacs_analysed"], "note": "as C153, for the wings imported from a CPACS file; exact real arithmetic: overflow of floating point numbers is not modelled"}
]}
