import Lean.Util.CollectAxioms
import Lean.Elab.Command
import Verif.Props.Accept
import Verif.Props.Aero
import Verif.Props.Aircraft
import Verif.Props.AircraftAccept
import Verif.Props.AircraftFile
import Verif.Props.AircraftJson
import Verif.Props.Book
import Verif.Props.Cli
import Verif.Props.Continuity
import Verif.Props.Control
import Verif.Props.ControlWing
import Verif.Props.Cpacs
import Verif.Props.CpacsControls
import Verif.Props.CpacsFinish
import Verif.Props.CpacsImportable
import Verif.Props.CpacsProject
import Verif.Props.CpacsRun
import Verif.Props.Deflection
import Verif.Props.Doubled
import Verif.Props.FileIO
import Verif.Props.Fin
import Verif.Props.FlightConditions
import Verif.Props.FromAbove
import Verif.Props.Geometry
import Verif.Props.GivenTwice
import Verif.Props.Invariance
import Verif.Props.JsonFaults
import Verif.Props.JsonProgram
import Verif.Props.JsonSaved
import Verif.Props.Lattice
import Verif.Props.MovedFiles
import Verif.Props.Names
import Verif.Props.Native
import Verif.Props.NativeInts
import Verif.Props.NativeProject
import Verif.Props.NewProject
import Verif.Props.NoLoads
import Verif.Props.Normals
import Verif.Props.NormalsExamples
import Verif.Props.NormalsMirror
import Verif.Props.OnePanel
import Verif.Props.OpenWake
import Verif.Props.PanelOrder
import Verif.Props.Plot
import Verif.Props.PlotRun
import Verif.Props.PlotShows
import Verif.Props.PrePanel
import Verif.Props.Program
import Verif.Props.ProgramExamples
import Verif.Props.ProgramFiles
import Verif.Props.References
import Verif.Props.Rerun
import Verif.Props.Run
import Verif.Props.RunExamples
import Verif.Props.RunFiles
import Verif.Props.RunFinish
import Verif.Props.RunInvariance
import Verif.Props.RunMirror
import Verif.Props.RunMoved
import Verif.Props.RunRotated
import Verif.Props.RunScaled
import Verif.Props.RunSymmetry
import Verif.Props.SegmentNormals
import Verif.Props.Session
import Verif.Props.Settings
import Verif.Props.SettingsFile
import Verif.Props.Setup
import Verif.Props.State
import Verif.Props.Strips
import Verif.Props.Superposition
import Verif.Props.SurfaceCases
import Verif.Props.SurfaceFiles
import Verif.Props.Surfaces
import Verif.Props.SymmetricFiles
import Verif.Props.Tailplane
import Verif.Props.TurnedFiles
import Verif.Props.TwistedRun
import Verif.Props.UpsideDown
import Verif.Props.WingOrder
import Verif.Props.WingOrderProject

/-! Generated by `tools/gen_manifest.py`.  Fails the build if a theorem named in `MANIFEST.json`
does not exist or depends on an axiom other than the three standard ones. -/

open Lean Elab Command in
/-- `audit a b c`: check the axioms of the named theorems. -/
elab "audit " ns:ident* : command => do
  for n in ns do
    let c ← liftCoreM <| realizeGlobalConstNoOverload n
    unless ((← getEnv).find? c matches some (.thmInfo _)) do
      throwErrorAt n "{c} is not a theorem"
    for a in (← liftCoreM <| collectAxioms c) do
      unless a == ``propext || a == ``Classical.choice || a == ``Quot.sound do
        throwErrorAt n "{c} depends on axiom {a}"

audit Verif.C01_strips_tile Verif.C01_aircraft_strips_tile
audit Verif.C02_strips_nonempty Verif.C02_min_width_false Verif.C02_min_width_partial
audit Verif.C03_invalid_line Verif.C03_close_line Verif.C03_new_line Verif.C03_line_idempotent
audit Verif.C04_chord_lines Verif.C04_aircraft_chord_lines
audit Verif.C05_chordwise_tiling Verif.C05_aircraft_chordwise_tiling
audit Verif.C06_slat_accepted_iff Verif.C06_flap_accepted_iff Verif.C06_gap_kept Verif.C06_aircraft_gap
audit Verif.C07_control_range_false Verif.C07_control_range_false_at_border Verif.C07_control_range_partial
audit Verif.C08_well_posed Verif.C08_ends Verif.C08_between
audit Verif.C09_num_strips Verif.C09_aircraft_num_strips Verif.C09_lines_delivered Verif.C09_too_many_false
audit Verif.C10_user_numbers_kept Verif.C10_autopanels_sufficient
audit Verif.C11_bookkeeping_partition
audit Verif.C12_panels_once Verif.C12_elements_once Verif.C12_contents Verif.C12_entries
audit Verif.C13_symmetry_reads_false Verif.C13_symmetry_reads_partial
audit Verif.C14_inner_edges Verif.C14_outer_corners Verif.C14_spanwise_neighbours Verif.C14_chordwise_neighbours Verif.C14_subarea_borders
audit Verif.C15_quarter_points Verif.C15_trailing_legs
audit Verif.C16_normal_unit Verif.C16_normal_perpendicular Verif.C16_normal_side
audit Verif.C17_area_false Verif.C17_area_partial
audit Verif.C18_statistics
audit Verif.C19_mirror_is_reflection Verif.C19_mirror_involution
audit Verif.C20_mirror_image_partial Verif.C20_mirror_image_yz Verif.C20_mirror_image_yz_full_chord_partial Verif.C20_mirror_image_yz_false
audit Verif.C21_mirror_hinge_partial Verif.C21_mirror_axis Verif.C21_mirror_hinge_yz_false
audit Verif.C22_strip_corners Verif.C22_subarea_corners Verif.C22_aircraft_subarea_corners
audit Verif.C23_original_half Verif.C23_mirrored_half
audit Verif.C24_camber_stations
audit Verif.C25_flow_tangency
audit Verif.C26_denominator_pos Verif.C26_matrix_defined Verif.C26_results_defined
audit Verif.C27_textbook Verif.C27_integral Verif.C27_damped
audit Verif.C28_own_line Verif.C28_reversed Verif.C28_own_midpoint
audit Verif.C29_kutta_joukowski
audit Verif.C30_totals Verif.C30_order_irrelevant
audit Verif.C31_moment_transfer
audit Verif.C32_rotation Verif.C32_wind_force
audit Verif.C33_same_freestream
audit Verif.C34_coefficients
audit Verif.C35_pressure_false Verif.C35_pressure_partial
audit Verif.C36_density
audit Verif.C37_airspeed
audit Verif.C38_translation Verif.C38_generated
audit Verif.C39_no_lateral_loads Verif.C39_generated_symmetric
audit Verif.C40_mirrored_lattice Verif.C40_corners_delivered
audit Verif.C41_rejected Verif.C41_accepted_iff
audit Verif.C42_airspeed_density
audit Verif.C43_angle_range_false Verif.C43_angles_in_range_partial
audit Verif.C44_iteration Verif.C44_missing_rate
audit Verif.C45_round_trip_false Verif.C45_reload_iff Verif.C45_round_trip_partial
audit Verif.C46_check_partial Verif.C46_errors Verif.C46_optional_ignored Verif.C46_accepted_iff Verif.C46_defaults Verif.C46_optional_false
audit Verif.C47_epsilon
audit Verif.C48_defaults_partial Verif.C48_nested_false
audit Verif.C49_file Verif.C49_memory_false Verif.C49_memory_partial
audit Verif.C50_round_trip
audit Verif.C51_names Verif.C51_kept Verif.C51_add_wing Verif.C51_add_segment Verif.C51_add_control Verif.C51_on_wing Verif.C51_set_symmetry
audit Verif.C52_check Verif.C52_device_type
audit Verif.C53_positions Verif.C53_no_span Verif.C53_generated
audit Verif.C54_size Verif.C54_distance Verif.C54_zero
audit Verif.C55_sums Verif.C55_trapezoid
audit Verif.C56_mirror_name_false Verif.C56_unknown_wing Verif.C56_fields_partial
audit Verif.C57_round_trip_false Verif.C57_airfoil_path_false Verif.C57_reload_iff Verif.C57_round_trip_partial
audit Verif.C58_clean Verif.C58_no_string
audit Verif.C59_one_row_per_state Verif.C59_no_states
audit Verif.C60_all_wings Verif.C60_all_segments Verif.C60_all_controls Verif.C60_all_subdivisions Verif.C60_all_subareas Verif.C60_strip_subareas
audit Verif.C61_subareas_of_control_false
audit Verif.C62_permutation Verif.C62_ordered_kept Verif.C62_leading_edge Verif.C62_spanwise_partial Verif.C62_outline_partial Verif.C62_outline_false Verif.C62_spanwise_false Verif.C62_import
audit Verif.C63_columns Verif.C63_no_map Verif.C63_after_run
audit Verif.C64_conflict Verif.C64_one_action Verif.C64_clean_needs_run Verif.C64_clean_only Verif.C64_run
audit Verif.C65_same_lattice
audit Verif.C66_native_mirror Verif.C66_native_mirror_table
audit Verif.C67_four_vertices Verif.C67_reference_point_false
audit Verif.C68_derived Verif.C68_angles Verif.C68_order_false
audit Verif.C69_dihedral_false Verif.C69_dihedral_partial
audit Verif.C70_unit_normals
audit Verif.C71_own_rotations
audit Verif.C72_deflections_local
audit Verif.C73_no_deflection
audit Verif.C74_symmetric_lattice_partial Verif.C74_twisted_false
audit Verif.C75_rigid_deflection
audit Verif.C76_lattice_generated
audit Verif.C77_positive_is_down
audit Verif.C78_xy_mirror_partial Verif.C78_xy_mirror_false
audit Verif.C79_batch_is_single_runs
audit Verif.C80_returned_data_is_last_state
audit Verif.C81_result_files Verif.C81_directories_distinct
audit Verif.C82_system_satisfied_partial Verif.C82_singular_false
audit Verif.C83_symmetric_run_partial Verif.C83_twisted_false
audit Verif.C84_listed Verif.C84_file Verif.C84_make_partial Verif.C84_make_json Verif.C84_make_false
audit Verif.C85_cpacs_states
audit Verif.C86_controls_partial Verif.C86_segments_partial Verif.C86_first_wing Verif.C86_slat_and_flap_false Verif.C86_other_wing_false Verif.C86_segment_name_false
audit Verif.C87_airfoils_partial Verif.C87_segments_partial Verif.C87_airfoils_false
audit Verif.C88_control_on_wing_partial Verif.C88_wrong_segments_false Verif.C88_close_borders_false Verif.C88_unknown_inner_ignored
audit Verif.C89_no_steps_partial Verif.C89_close_borders_false
audit Verif.C90_straight_edges_partial Verif.C90_close_borders_false
audit Verif.C91_layout_accepted_partial Verif.C91_autopanels_accepted_partial Verif.C91_planar_segment Verif.C91_close_borders_false
audit Verif.C92_accepted_iff Verif.C92_content
audit Verif.C93_finishes_iff Verif.C93_values
audit Verif.C94_scaled_states
audit Verif.C95_moment_transfer
audit Verif.C96_mirrored_states_partial Verif.C96_twisted_false
audit Verif.C97_moved_aircraft
audit Verif.C98_accepted_iff Verif.C98_content Verif.C98_other_files Verif.C98_state_source
audit Verif.C99_no_exception
audit Verif.C100_nothing_written
audit Verif.C101_results_of_files
audit Verif.C102_template Verif.C102_template_finishes Verif.C102_from_file Verif.C102_from_file_finishes Verif.C102_made_iff Verif.C102_existing
audit Verif.C103_resaved_partial Verif.C103_loads_iff Verif.C103_resaved_false
audit Verif.C104_output_settings
audit Verif.C105_files_of_project
audit Verif.C106_stopped_run Verif.C106_stopped_project Verif.C106_exception_no_files
audit Verif.C107_axes Verif.C107_geometry_inside_partial Verif.C107_cg_false
audit Verif.C108_views_agree Verif.C108_geometry Verif.C108_lattice
audit Verif.C109_results
audit Verif.C110_results_unchanged Verif.C110_plot_exception
audit Verif.C111_plots_made_partial Verif.C111_unknown_key Verif.C111_no_exception_false
audit Verif.C112_plots_show
audit Verif.C113_content Verif.C113_controls Verif.C113_accepted_iff Verif.C113_airfoils_partial
audit Verif.C114_same_aircraft_iff Verif.C114_chordless_refused Verif.C114_relative_paths Verif.C114_converts_iff Verif.C114_pointed_false Verif.C114_no_directory_false
audit Verif.C115_converted_partial Verif.C115_cpacs_states Verif.C115_cpacs_states_false
audit Verif.C116_no_exception Verif.C116_nothing_written
audit Verif.C117_results_of_cpacs
audit Verif.C118_importable_iff Verif.C118_content Verif.C118_loaded_iff
audit Verif.C119_joined_partial Verif.C119_sideways_partial Verif.C119_gaps_reported_false Verif.C119_behind_false Verif.C119_slope_false Verif.C119_pointed_false Verif.C119_order_false
audit Verif.C120_scaled_partial Verif.C120_limit_partial Verif.C120_size_false
audit Verif.C121_native_partial Verif.C121_run_partial Verif.C121_project_partial Verif.C121_too_few_panels Verif.C121_no_panels Verif.C121_memory_false
audit Verif.C122_inputs Verif.C122_kept Verif.C122_latest Verif.C122_clean_run Verif.C122_clean_finished Verif.C122_again Verif.C122_order Verif.C122_stale_false Verif.C122_same_name_false Verif.C122_clean_false
audit Verif.C123_circulations Verif.C123_loads Verif.C123_finishes Verif.C123_combined Verif.C123_project
audit Verif.C124_panels Verif.C124_wing_order Verif.C124_finishes Verif.C124_project
audit Verif.C125_panels Verif.C125_surfaces Verif.C125_finishes
audit Verif.C126_symmetry_flag
audit Verif.C127_segment_side
audit Verif.C128_wing_cut
audit Verif.C129_names
audit Verif.C130_loaded_iff Verif.C130_one_meaning Verif.C130_whole_numbers
audit Verif.C131_fault
audit Verif.C132_extra Verif.C132_misspelt_false
audit Verif.C133_saved Verif.C133_reload_iff
audit Verif.C134_loaded_iff Verif.C134_one_meaning Verif.C134_fault Verif.C134_same
audit Verif.C135_loaded_iff Verif.C135_run
audit Verif.C136_template Verif.C136_template_finishes Verif.C136_from_file
audit Verif.C137_tangential Verif.C137_in_plane Verif.C137_project Verif.C137_level
audit Verif.C138_surfaces Verif.C138_symmetry_flag Verif.C138_segment_side Verif.C138_wing_cut
audit Verif.C139_upside_down Verif.C139_project
audit Verif.C140_run Verif.C140_project
audit Verif.C141_symmetric_flight_partial Verif.C141_mirrored_states_partial
audit Verif.C142_moved_files Verif.C142_finishes
audit Verif.C143_conditions Verif.C143_similar_flight Verif.C143_rearranged
audit Verif.C144_rotated Verif.C144_project Verif.C144_pitched_file Verif.C144_automatic_numbers
audit Verif.C145_surface_on_its_image Verif.C145_coincident_vortices
audit Verif.C146_small_partial Verif.C146_run Verif.C146_project Verif.C146_large Verif.C146_integers_false
audit Verif.C147_same_side Verif.C147_plane_segment Verif.C147_main_direction
audit Verif.C148_front_first_partial Verif.C148_yz_reversed Verif.C148_front_first_false
audit Verif.C149_given_twice
audit Verif.C150_one_panel Verif.C150_own_downwash
audit Verif.C151_always_analysed Verif.C151_lattice
audit Verif.C152_always_analysed Verif.C152_lattice
audit Verif.C153_always_analysed Verif.C153_json Verif.C153_lattice
audit Verif.C154_cpacs_analysed
