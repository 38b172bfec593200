#!/usr/bin/env python3
"""Writes ../properties.jsonl (one JSON object per line) from the table below."""
import json, os
P = []
def p(id, title, statement, quantifier, why, anchors):
    P.append(dict(id=id, title=title, statement=statement, quantifier=quantifier,
                  why_tests_cant=why, anchors=anchors))

AC = "src/lib/pytornado/objects/aircraft.py"
VLM = "src/lib/pytornado/aero/vlm.py"
LAT = "src/lib/pytornado/aero/c_lattice.cpp"
DW = "src/lib/pytornado/aero/c_downwash.cpp"
BD = "src/lib/pytornado/aero/c_boundary.cpp"
RS = "src/lib/pytornado/aero/c_results.cpp"
CV = "src/lib/pytornado/aero/c_vlm.cpp"
ST = "src/lib/pytornado/objects/state.py"
SE = "src/lib/pytornado/objects/settings.py"
UT = "src/lib/pytornado/objects/utils.py"
OT = "src/lib/pytornado/objects/objecttools.py"
VS = "src/lib/pytornado/objects/vlm_struct.py"
RUN = "src/lib/pytornado/stdfun/run.py"
NA = "src/lib/pytornado/fileio/native/aircraft.py"
ND = "src/lib/pytornado/fileio/native/deformation.py"
NS = "src/lib/pytornado/fileio/native/settings.py"
NST = "src/lib/pytornado/fileio/native/state.py"
NR = "src/lib/pytornado/fileio/native/results.py"
FU = "src/lib/pytornado/fileio/utils.py"
CA = "src/lib/pytornado/fileio/cpacs/aircraft.py"
CS = "src/lib/pytornado/fileio/cpacs/state.py"
CR = "src/lib/pytornado/fileio/cpacs/results.py"
CU = "src/lib/pytornado/fileio/cpacs/utils.py"
EXE = "src/bin/_pytornado_exe.py"
SU = "src/lib/pytornado/stdfun/setup.py"
PT = "src/lib/pytornado/plot/plottools.py"
MP = "src/lib/pytornado/plot/makeplots.py"
PD = "src/lib/pytornado/plot/downwash.py"

# ---------------------------------------------------------------- meshing
p("C01", "Spanwise strips always tile the segment",
  "However many division lines and control surfaces are added to a wing segment, in whatever order, the strips of the segment always cover the spanwise range [0, 1] completely and never overlap: every spanwise coordinate in [0, 1) lies in exactly one strip.",
  "for every finite sequence of add_subdivision / add_subdivision_for_control calls with any real arguments, any pre-existing controls, and any interpolation result for inherited devices",
  "The set of call sequences and real coordinates is infinite; a gap or overlap may appear only after a particular interleaving of overlapping devices.",
  [f"{AC}: WingSegment.__init__", f"{AC}: WingSegment.add_subdivision", f"{AC}: WingSegment._get_subdiv_at_eta", f"{AC}: WingSegment.add_subdivision_for_control"])
p("C02", "No empty strips; strips are never thinner than the documented minimum",
  "Every strip of a segment has strictly positive spanwise width, and no strip is ever narrower than the documented minimum distance of 0.01 between division lines.",
  "for every sequence of subdivision calls and all real division coordinates",
  "A thin strip needs a specific order of two close lines; tests sample a few coordinates only.",
  [f"{AC}: MIN_ETA_LIMIT", f"{AC}: WingSegment.add_subdivision"])
p("C03", "A refused or repeated division line changes nothing",
  "Requesting a division line on an existing border, or less than 0.01 outboard of one, or (when told to ignore invalid values) outside (0, 1), leaves the segment exactly as it was and hands back the strip that starts at that border; an invalid coordinate that is not to be ignored raises ValueError and leaves the segment as it was. Asking twice for the same line is the same as asking once.",
  "for every segment state reachable by subdivision calls and every real coordinate",
  "Depends on the complete history of the segment, not only on the call at hand.",
  [f"{AC}: WingSegment.add_subdivision"])
p("C04", "Division lines are chord lines",
  "On every strip the leading-edge and trailing-edge spanwise coordinates agree on both borders, so a division line always joins equal spanwise fractions of leading and trailing edge.",
  "for every history of panelling calls as issued by the pre-panelling step",
  "Must hold for every aircraft, not for sampled ones.",
  [f"{AC}: WingSegment.add_subdivision", f"{AC}: WingSegment.add_subdivision_for_control", f"{VLM}: pre_panelling"])
p("C05", "Slat, main area and flap tile every strip chordwise",
  "In each strip the slat (if any), the remaining main area and the flap (if any) join edge to edge: on the inner and on the outer border the slat runs from the leading edge to the point where the main area starts, and the main area runs to the point where the flap starts, which runs to the trailing edge. No chordwise gap or overlap ever appears, also after strips carrying devices are split.",
  "for every history of control-surface and division-line insertions that finishes without error, any interpolation results",
  "The interplay of splitting and device insertion has unboundedly many histories.",
  [f"{AC}: SegmentStrip._add_subarea", f"{AC}: SegmentStrip._update_subarea", f"{AC}: StripSubdivision.__init__", f"{AC}: WingSegment.add_subdivision"])
p("C06", "Accepted slats and flaps keep a minimum chordwise distance",
  "A slat and a flap on the same strip are only accepted if the slat ends at least 0.01 of the chord in front of the flap on both borders; otherwise ValueError is raised. Hence the main area between them keeps a positive chordwise extent, which stays true when the strip is split, as long as no call raises.",
  "for every pair of devices, every order of insertion and every later split",
  "Two device types times two orders times arbitrary real positions and later splits.",
  [f"{AC}: MIN_XSI_LIMIT", f"{AC}: SegmentStrip._add_subarea", f"{AC}: xsi_interpol"])
p("C07", "A control surface covers exactly its requested spanwise range",
  "After inserting a control surface from eta_inner to eta_outer on a segment, the strips carrying that device are exactly those between eta_inner and eta_outer: the device starts at eta_inner and ends at eta_outer (up to the 0.01 snapping distance).",
  "for every segment history and all eta_inner < eta_outer in [0, 1]",
  "The failing cases depend on borders left by earlier devices.",
  [f"{AC}: WingSegment.add_subdivision_for_control", f"{AC}: WingSegment._get_outer_neighbour_subdiv", f"{VLM}: pre_panelling"])
p("C08", "Interpolated device edges lie on the straight device edge",
  "When a device edge crosses a division line, the chordwise position used there is the given inner (outer) position if the line is at the inner (outer) end, and in between it always lies between the inner and outer chordwise positions, for planar convex segments.",
  "for every planar convex segment, all positions in [0, 1]",
  "Continuous family of segments; extreme taper and sweep cannot be exhausted.",
  [f"{AC}: xsi_interpol", f"{AC}: get_abs_segment_point_coords"])
p("C09", "The requested number of spanwise panels is delivered",
  "For a segment without control surfaces the pre-panelling step produces exactly num_s equally wide strips. (It holds for 1 <= num_s <= 100; for larger num_s the 0.01 limit silently drops division lines.)",
  "for every requested number of spanwise panels",
  "A test checks a handful of panel counts; the drop starts at 101.",
  [f"{VLM}: pre_panelling", f"{AC}: WingSegment.add_subdivision"])
p("C10", "Automatic spanwise panel numbers are proportionate and sufficient",
  "With positive segment spans and a positive autopanel setting each segment without its own panel number receives at least one spanwise panel, and a wing without own panel numbers receives at least the requested number and fewer than the requested number plus the number of segments. User-given panel numbers are never overwritten.",
  "for every wing with any number of segments of any positive spans, every setting",
  "Rounding behaviour over arbitrarily many real-valued spans.",
  [f"{VLM}: set_autopanels", f"{AC}: Wing.span"])
p("C11", "Panel bookkeeping partitions the panels",
  "The bookkeeping entries list every panel number 0..N-1 exactly once, in increasing order, consecutive entries being contiguous; for each subarea of a symmetric wing there is one entry for the original followed by one equally long entry for its mirror image, and N is the number of panels reported and allocated.",
  "for every aircraft (any number of wings, strips, subareas, symmetries, panel numbers >= 0)",
  "Unbounded structure; off-by-one only shows with particular mixes of symmetric and asymmetric wings.",
  [f"{VLM}: gen_lattice", f"{VS}: VLMLattice.update_bookkeeping"])
p("C12", "The lattice generator writes every panel exactly once and inside its arrays",
  "Given the panel-number table produced by gen_lattice, the native lattice generator writes the data of every panel 0..N-1 exactly once, never writes outside the allocated arrays, and the panels written for one subarea are exactly those its bookkeeping entry names, in chordwise-fastest order.",
  "for every panel-number table (any number of subareas, any spanwise and chordwise counts)",
  "Memory safety has to hold for all sizes; a stray write may go unnoticed in a test.",
  [f"{LAT}: vlm_lattice", f"{VLM}: gen_lattice"])
p("C13", "The symmetry flag table is never read out of bounds",
  "The native lattice generator reads one symmetry flag per subarea (mirror images counted); the table passed by gen_lattice holds one flag per panel. The reads are in bounds for every aircraft and setting the program accepts.",
  "for every aircraft and every accepted autopanel setting",
  "The out-of-bounds read needs a setting that ordinary tests do not use and is silent at runtime.",
  [f"{LAT}: vlm_lattice", f"{VLM}: gen_lattice", f"{SE}: Settings._check_settings_dict"])
p("C14", "The lattice is watertight and spans the subarea",
  "Neighbouring panels of a subarea share their common edge exactly, the outermost panel corners coincide with the four corners of the subarea, and neighbouring subareas (across a division line or a hinge line with equal panel numbers) share their edges.",
  "for every quadrilateral (also twisted) and all panel counts",
  "Continuous geometry and arbitrary counts.",
  [f"{LAT}: vlm_lattice", f"{AC}: StripSubdivision.abs_vertices", f"{AC}: SegmentStrip.abs_vertices"])
p("C15", "Bound vortex at quarter chord, collocation point at three quarters",
  "For each panel the bound vortex joins the quarter-chord points of the two side edges, its midpoint is the quarter-chord point of the panel centre line and the collocation point is the three-quarter-chord point of that centre line; both trailing vortices leave from the ends of the bound vortex along the free-stream direction.",
  "for every panel of every lattice",
  "Universally quantified over geometry.",
  [f"{LAT}: vlm_lattice"])
p("C16", "Panel normals are unit vectors perpendicular to the panel",
  "For every non-degenerate panel the stored normal has length one; for a planar panel it is perpendicular to all edges and points to the side given by (spanwise edge) x (chordwise edge) reversed consistently for all panels of the subarea.",
  "for every panel geometry whose defining cross product does not vanish",
  "Continuous geometry.",
  [f"{LAT}: vlm_lattice"])
p("C17", "Reported panel area is the true panel area",
  "The panel area stored for each panel is the surface area of the panel (for a parallelogram panel: the length of the cross product of its sides).",
  "for every planar parallelogram panel, in particular swept ones",
  "A test with an unswept wing passes; the claim is about all sweep angles.",
  [f"{LAT}: vlm_lattice", f"{VS}: VLMLattice"])
p("C18", "Lattice statistics are consistent",
  "The reported minimum, maximum and average panel area and aspect ratio satisfy min <= average <= max, min and max are attained by a panel, and the average is the arithmetic mean over all panels.",
  "for every non-empty lattice whose panel values lie within the initial extremes used by the code",
  "Unbounded number of panels; initial values of the running extremes matter.",
  [f"{LAT}: vlm_lattice"])

# ---------------------------------------------------------------- mirror
p("C19", "Mirroring a point is an isometric involution that fixes its plane",
  "Mirroring twice gives the original point, distances are preserved, and exactly the points of the symmetry plane (1: x-y, 2: x-z, 3: y-z) stay fixed; other symmetry flags raise ValueError.",
  "for all points and all flags",
  "Infinite input space.",
  [f"{AC}: mirror_point", f"{AC}: mirror_vertices", f"{AC}: order_mirrored_vertex_points"])
p("C20", "The mirrored subarea is the exact mirror image",
  "The four corners used for the mirrored half of a symmetric wing are, as a set of positions, the mirror images of the four corners of the original subarea, for each symmetry flag and each control surface.",
  "for every segment, strip, subarea and symmetry flag 1, 2, 3",
  "Needs all chordwise positions; a full-chord main area hides the error.",
  [f"{AC}: StripSubdivision.abs_vertices", f"{AC}: SegmentStrip.abs_vertices", f"{AC}: order_mirrored_vertex_points"])
p("C21", "The mirrored hinge line is the exact mirror image",
  "The two hinge points used on the mirrored half are the mirror images of the hinge points on the original half.",
  "for every segment, strip, device and symmetry flag 1, 2, 3",
  "Same as C20.",
  [f"{AC}: StripSubdivision.abs_hinge_vertices"])
p("C22", "Subarea corners agree with the segment's own coordinate map",
  "The corner points of every strip and subarea equal the segment point with the same relative coordinates (eta, xsi) as given by the segment's coordinate map.",
  "for every segment, strip and subarea",
  "Continuous family.",
  [f"{AC}: SegmentStrip.abs_vertices", f"{AC}: StripSubdivision.abs_vertices", f"{AC}: get_abs_segment_point_coords"])
p("C23", "A deformation of one wing half leaves the other half as designed",
  "If a deformation field is given only for one half of a symmetric wing, the strips of the other half have exactly the corners of the undeformed wing; likewise a zero deformation field reproduces the undeformed wing.",
  "for every wing, strip, symmetry flag and deformation field",
  "Fields are arbitrary functions.",
  [f"{AC}: SegmentStrip.abs_vertices", f"{AC}: WingSegment.get_deformed_segment_point", f"{AC}: Wing.is_deformed"])
p("C24", "Chordwise camber stations are ordered and inside the subarea",
  "The relative chord stations at which the camber slope is taken are strictly increasing and lie strictly between the leading and trailing border of the subarea (midline), one per chordwise panel, at three quarters of each panel.",
  "for all panel counts and all subareas of positive length",
  "All counts and positions.",
  [f"{AC}: StripSubdivision.get_xsi_for_collocation_points"])

# ---------------------------------------------------------------- aerodynamics
p("C25", "Solving the system means flow tangency at every collocation point",
  "A circulation vector solves the assembled linear system if and only if at every collocation point the total flow (free stream, plus the apparent wind due to the aircraft's rotation about its centre of gravity, plus the flow induced by all horseshoe vortices) has no component along the panel normal.",
  "for every lattice, flight state and circulation vector",
  "Statement about all lattices and states; tests compare single numbers.",
  [f"{DW}: vlm_downwash", f"{BD}: vlm_boundary", f"{VLM}: calc_downwash", f"{VLM}: calc_boundary", f"{VLM}: solver"])
p("C26", "The induced-velocity kernel is defined whenever a point is off the filament ends",
  "With epsilon in the accepted range (0, 1) the denominator of the vortex kernel is strictly positive for every point that differs from both filament ends, also for points on the filament or on its extension.",
  "for all points, all filaments and all accepted epsilon",
  "Collinear configurations form a measure-zero set that tests miss.",
  [f"{DW}: vlm_downwash", f"{RS}: vlm_results", f"{SE}: Settings._check_settings_dict"])
p("C27", "The induced-velocity kernel is the Biot-Savart law",
  "With epsilon = 0 the kernel equals the textbook Biot-Savart velocity of a straight vortex filament of unit strength for every point off the line through the filament, and for epsilon > 0 it is the same vector scaled by a factor in (0, 1] whenever the two radius vectors enclose less than 90 degrees, and which tends to one with epsilon in general.",
  "for all points and filaments",
  "Continuous domain.",
  [f"{DW}: vlm_downwash", f"{RS}: vlm_results"])
p("C28", "The bound vortex induces no velocity on itself",
  "At any point on the line through a vortex filament (other than its ends) that filament induces zero velocity; in particular the bound leg of a panel induces nothing at its own midpoint. Reversing a filament reverses the induced velocity.",
  "for all filaments and points on their line",
  "Continuous domain.",
  [f"{DW}: vlm_downwash", f"{RS}: vlm_results"])
p("C29", "Panel forces obey Kutta-Joukowski",
  "The force on every panel is perpendicular to its bound vortex and to the local velocity at the bound vortex midpoint, is proportional to density and circulation and vanishes with the circulation.",
  "for every lattice, state and circulation",
  "Universally quantified.",
  [f"{RS}: vlm_results"])
p("C30", "Totals are the sums over the panels",
  "Total force and moment are the sums of all panel forces and of their moments about the reference point, irrespective of the order of the panels.",
  "for every number of panels and every panel data",
  "Unbounded number of panels.",
  [f"{RS}: vlm_results"])
p("C31", "Moments follow the transfer law",
  "Changing only the moment reference point changes the total moment by the cross product of (old reference - new reference) with the total force, and leaves forces unchanged.",
  "for every lattice, state and pair of reference points",
  "Universally quantified.",
  [f"{RS}: vlm_results"])
p("C32", "Wind-axes forces are a pure rotation of body-axes forces",
  "The drag, side and lift components have the same Euclidean norm as the body-axis force, the drag is the force component along the free-stream direction, and the transformation is orthogonal for every angle of attack and sideslip.",
  "for all angles and forces",
  "Continuous domain; sign errors may hide at beta = 0.",
  [f"{RS}: vlm_coeffs", f"{CV}: get_freestream_direction"])
p("C33", "Python and native code use the same free-stream vector",
  "The free-stream velocity vector offered by the Python state object is airspeed times the unit free-stream direction used by the native kernels, for all angles, and has length equal to the airspeed.",
  "for all alpha, beta (degrees) and airspeeds",
  "Two independent implementations; agreement needed everywhere.",
  [f"{ST}: FlightState.free_stream_velocity_vector", f"{CV}: get_freestream_direction"])
p("C34", "Coefficients are dimensionless loads; zero dynamic pressure is guarded",
  "Force coefficients times dynamic pressure times reference area reproduce the forces (moments additionally times reference span, chord, span); at zero dynamic pressure the coefficients are finite.",
  "for all states with non-zero reference quantities",
  "Continuous domain plus the degenerate case.",
  [f"{RS}: vlm_coeffs"])
p("C35", "Pressure coefficient is defined for every accepted state",
  "The panel pressure coefficient is never computed by a division by zero for any accepted flight state and non-degenerate panel.",
  "for every accepted flight state, including zero airspeed or zero density",
  "The guard exists for the global coefficients only; the case is silent at runtime (inf/nan).",
  [f"{RS}: vlm_results", f"{ST}: FlightState.update_from_dict"])
p("C36", "Coefficients do not depend on density",
  "Changing only the density scales all panel forces, total forces and moments proportionally, leaves circulation unchanged and leaves all global coefficients and pressure coefficients unchanged.",
  "for every lattice and all non-zero densities (the statement on coefficients: for non-zero airspeed, as the coefficients are not normalised at zero airspeed)",
  "Scaling law over a continuous parameter and the whole pipeline.",
  [f"{BD}: vlm_boundary", f"{RS}: vlm_results", f"{RS}: vlm_coeffs"])
p("C37", "Coefficients do not depend on airspeed",
  "Multiplying airspeed and all rotation rates by a positive factor multiplies the circulation by that factor, forces by its square, and leaves all coefficients unchanged.",
  "for every lattice with a unique solution, all positive factors (the statement on coefficients: for non-zero airspeed and density)",
  "Scaling law over the whole pipeline.",
  [f"{BD}: vlm_boundary", f"{RS}: vlm_results", f"{RS}: vlm_coeffs"])
p("C38", "Results do not depend on where the aircraft sits",
  "Translating all vertices, the centre of gravity and the moment reference point by the same vector changes neither the system matrix nor the right-hand side nor forces, moments and coefficients.",
  "for every lattice, state and translation",
  "Continuous group action over the whole pipeline.",
  [f"{LAT}: vlm_lattice", f"{DW}: vlm_downwash", f"{BD}: vlm_boundary", f"{RS}: vlm_results"])
p("C39", "Symmetric aircraft in symmetric flight has no lateral loads",
  "If the lattice consists of panels and their x-z mirror images (as generated for symmetry 2), sideslip, roll rate and yaw rate are zero, the centre of gravity and reference point lie in the symmetry plane and the system has a unique solution, then mirrored panels carry equal circulation, and side force, rolling moment and yawing moment vanish exactly.",
  "for every symmetric lattice of any size and every such state",
  "A statement about the exact solution of a linear system of any size.",
  [f"{LAT}: vlm_lattice", f"{DW}: vlm_downwash", f"{BD}: vlm_boundary", f"{RS}: vlm_results", f"{AC}: mirror_point"])
p("C40", "The mirrored panels generated for symmetry 2 are mirror images",
  "For a subarea of an x-z symmetric wing, the lattice generated from the mirrored corners consists of the mirror images of the panels of the original: corners, collocation points, vortex points, areas and normals correspond panel by panel under reversal of the spanwise numbering.",
  "for every subarea and all panel counts",
  "Universally quantified over geometry and counts.",
  [f"{LAT}: vlm_lattice", f"{AC}: order_mirrored_vertex_points"])

# ---------------------------------------------------------------- state
p("C41", "Flight-state input combinations are decided exactly as documented",
  "A state is accepted only if exactly airspeed+density, airspeed+altitude or mach+altitude are given numerically and all parameters have the same number of values; every other combination raises ValueError (IndexError for an empty dictionary), and documented combinations with alpha and beta, values convertible to numbers and altitudes inside the range of the atmosphere model are accepted.",
  "for every dictionary of parameters",
  "All 16 combinations times list lengths times value kinds.",
  [f"{ST}: FlightState.update_from_dict"])
p("C42", "Accepted states have airspeed and density for each entry",
  "After acceptance every flight state entry has a numeric airspeed and density: given values are kept unchanged, density computed from altitude, airspeed equal to Mach number times the speed of sound at that altitude.",
  "for every accepted input and every atmosphere model",
  "Universally quantified.",
  [f"{ST}: FlightState.update_from_dict"])
p("C43", "Angles outside [-90, 90] degrees are rejected",
  "A state whose angle of attack or sideslip lies outside [-90, 90] degrees raises ValueError.",
  "for every accepted combination and all angle values",
  "The check exists in the code, so a reader trusts it; whether it ever fires is a statement about all values.",
  [f"{ST}: FlightState.check_values"])
p("C44", "One flight state per entry, in order",
  "Iterating over the states yields exactly as many states as values were given, in order, each holding the primary parameters of its own index.",
  "for every accepted state with the three rates and any number of entries; without a rate the iteration raises TypeError",
  "Any number of entries.",
  [f"{ST}: FlightState.iter_states"])
p("C45", "Saved states can be loaded again",
  "Writing an accepted state to a state file and reading that file back gives the same state.",
  "for every accepted state",
  "Round trip over all input combinations; fails for inputs tests do not round-trip.",
  [f"{NST}: save", f"{NST}: load", f"{ST}: FlightState.update_from_dict"])

# ---------------------------------------------------------------- settings
p("C46", "Settings validation accepts exactly well-typed settings",
  "The template check succeeds if and only if every template key is present with a value of the template type (recursively for nested dictionaries), extra keys are ignored, and the defaults of any template whose defaults are well typed pass the check.",
  "for every template and every dictionary of any depth",
  "Recursive structure of unbounded depth.",
  [f"{UT}: check_dict", f"{UT}: get_default_dict"])
p("C47", "Epsilon outside (0, 1) is rejected",
  "Settings with hidden parameter epsilon not strictly between 0 and 1 never pass loading.",
  "for every settings dictionary",
  "All values.",
  [f"{SE}: Settings._check_settings_dict"])
p("C48", "Unspecified settings keep their defaults",
  "Every setting that the user leaves out of the settings file has its documented default after loading, also inside the nested groups 'plot' and 'save_results'.",
  "for every settings dictionary with any subset of keys",
  "Exponential number of key subsets.",
  [f"{SE}: Settings.update_from_dict", f"{UT}: get_default_dict"])
p("C49", "Saving settings does not change them",
  "Writing the settings to a file leaves the settings in memory unchanged, and the file contains exactly the settings whose key does not start with an underscore, at every level.",
  "for every settings dictionary",
  "Recursive structure; in-place mutation is invisible to a test of the file.",
  [f"{NS}: save", f"{NS}: clean_dict"])
p("C50", "Settings survive a save/load round trip",
  "Loading a saved settings file yields the same visible settings, hidden ones being back at their defaults.",
  "for every valid settings dictionary",
  "Round trip over all dictionaries.",
  [f"{NS}: save", f"{NS}: load", f"{SE}: Settings.update_from_dict"])

# ---------------------------------------------------------------- model building
p("C51", "Component names stay unique and ordered",
  "Adding wings (and segments and controls of a wing) never replaces an existing component: a duplicate or empty name raises an error and leaves the model unchanged, otherwise the component is appended at the end; all names are distinct at all times.",
  "for every sequence of additions",
  "All histories.",
  [f"{AC}: Aircraft.add_wing", f"{AC}: Wing.add_segment", f"{AC}: Wing.add_control"])
p("C52", "Control-surface validation",
  "A control surface passes its check only if device type is set, its deflections are numbers in [-90, 90], and (on one segment) it has positive spanwise extent; a missing mirror deflection on a symmetric wing becomes equal to the deflection, and an already present value is never changed.",
  "for every control definition and wing symmetry",
  "Cross product of many optional fields.",
  [f"{AC}: WingControl.check"])
p("C53", "Spanwise positions of segments are contiguous",
  "For a wing whose segments have non-negative spans (not all zero) the relative positions start at 0, each segment starts where the previous one ends, positions are non-decreasing and the last one ends at 1.",
  "for every number of segments and all spans",
  "Unbounded number of segments; negative spans break it.",
  [f"{AC}: Wing.generate", f"{AC}: Wing.span"])
p("C54", "Aircraft size is the diagonal of a box containing the aircraft",
  "The aircraft size is the length of the diagonal of an axis-parallel box that contains the origin, all segment vertices and all their mirror images, and is zero exactly for an aircraft without extent at the origin.",
  "for every aircraft",
  "All geometries and symmetries.",
  [f"{AC}: Aircraft.size"])
p("C55", "Wing areas and spans add up",
  "Area and span of a wing are the sums over its segments, the aircraft area the sum over its wings; for a planar trapezoidal segment with parallel chords in x-direction the segment area is the area of the quadrilateral.",
  "for every aircraft",
  "All geometries.",
  [f"{AC}: Aircraft.area", f"{AC}: Wing.area", f"{AC}: Wing.span", f"{AC}: WingSegment.area"])

# ---------------------------------------------------------------- file i/o, run
p("C56", "Deformation fields reach the right wing half",
  "A deformation field named after a wing is assigned to the main half of that wing, a field named after a wing followed by '_m' to the mirrored half of that wing, names starting with '_' are ignored, and nothing else changes.",
  "for every set of wing names and field names",
  "Arbitrary names, e.g. names containing '_m' inside.",
  [f"{ND}: load"])
p("C57", "Aircraft survive a save/load round trip",
  "Saving an aircraft definition and loading the file yields the same definition (names, references, vertices, geometry, panels, controls, airfoils), up to completion of missing mirror deflections.",
  "for every aircraft definition accepted by the loader",
  "Arbitrary nested structure.",
  [f"{NA}: save", f"{NA}: load"])
p("C58", "Name cleaning",
  "Cleaning a name keeps exactly the allowed characters in their order, is idempotent, and never makes the name longer; non-strings raise ValueError.",
  "for all strings and all sets of extra allowed characters",
  "All strings.",
  [f"{FU}: parse_str"])
p("C59", "A run records one result row per flight state",
  "A finished standard run has, for each of the eighteen global quantities, exactly one value per flight state, in the order of the states, each computed from that state; a run without flight states does not finish normally.",
  "for every number of flight states",
  "Unbounded number of states; the empty case raises.",
  [f"{RUN}: standard_run", f"{ST}: FlightState.iter_states"])
p("C60", "Component iterators enumerate everything once",
  "The iterators over wings, segments, controls, strips and subareas visit every component exactly once in definition order and the counting helpers return their numbers.",
  "for every aircraft",
  "Unbounded structure.",
  [f"{OT}: all_wings", f"{OT}: all_segments", f"{OT}: all_controls", f"{OT}: all_subdivisions", f"{OT}: all_subareas", f"{OT}: count_all_subareas"])
p("C61", "Subareas of a control surface can be listed",
  "Listing the subareas of a named control surface yields exactly the subareas belonging to it.",
  "for every panelled aircraft and control name",
  "Fails for every aircraft with a strip, yet the function looks right.",
  [f"{OT}: all_subareas_of_control"])
p("C62", "Imported segment corners are re-ordered, never lost",
  "The corner re-ordering of the CPACS import always returns a permutation of the four imported corners, leaves already ordered corners alone, and afterwards the leading edge points are not behind the trailing edge points; spanwise order is a further expectation of the importer.",
  "for every quadruple of points",
  "Continuous input; interplay of four conditional swaps.",
  [f"{CA}: get_aircraft_wing_segments"])
p("C63", "CPACS performance map: results are written to the right columns",
  "Lift, drag, side force and the three moment coefficients are written to the columns cl, cd, cs, cms (pitch), cmd (roll), cml (yaw), one value per flight state, and only these columns change.",
  "for every number of states and every existing file content",
  "All contents.",
  [f"{CR}: save_aeroperformance_map", f"{CU}: add_vector"])
p("C64", "Command line: exactly one action",
  "For each combination of command line flags at most one of run, convert, make example, list is executed; clean flags without a run file raise an error; clean-only never runs an analysis.",
  "for every combination of flags",
  "Cross product of flags (finite, but covered completely by the proof).",
  [f"{EXE}: main"])
p("C65", "The lattice topology is the same for all flight states of a run",
  "In a run over several flight states the subareas and panel numbers are generated once; the panel tables are the same for each state.",
  "for every number of states",
  "Unbounded number of states.",
  [f"{RUN}: standard_run", f"{VLM}: gen_lattice"])
p("C66", "Native and Python mirroring agree",
  "The mirrored pass inside the native lattice generator, selected by a symmetry flag, produces exactly the panels which the generator produces from the corner points the Python side delivers for the mirrored half, with the same numbering.",
  "for every subarea, symmetry plane, panel counts and surrounding table",
  "Two independent implementations have to agree on all geometries.",
  [f"{LAT}: vlm_lattice", f"{AC}: mirror_point", f"{AC}: order_mirrored_vertex_points"])
p("C67", "A segment can be defined by a reference point and geometry data",
  "As documented, a wing segment is generated from at least one vertex as reference point together with complete geometry data (chords, angles, span, sweep, dihedral), or from all four vertices.",
  "for every set of given vertices and all geometry data",
  "All combinations of given and missing data with continuous values.",
  [f"{AC}: WingSegment.generate", f"{AC}: WingSegment.check_vertices"])
p("C68", "Geometry data of a segment describe its vertices",
  "Generating a segment keeps the given vertices and makes chords, span, sweep and section angles agree with them; the documented order of the vertices (leading edge in front) is enforced.",
  "for every quadruple of vertices and all other data",
  "Continuous input; trigonometric relations.",
  [f"{AC}: WingSegment.generate"])
p("C69", "Dihedral of a segment is the dihedral of its axis",
  "The dihedral angle reported for a generated segment is the angle of the line between the axis points of inner and outer section in the y-z plane.",
  "for every quadruple of vertices and axis positions",
  "Continuous input.",
  [f"{AC}: WingSegment.generate"])

p("C70", "Rotated normals stay unit vectors",
  "After lattice generation each panel normal has length one, whatever deflections and camber lines are applied.",
  "for every aircraft, deflection, camber line, flight state, with or without normal rotations",
  "Continuous inputs; tests compare a few normals at given deflections.",
  [f"{VLM}: gen_lattice (normal rotations)"])
p("C71", "Each panel normal gets its own rotations, each exactly once",
  "The normal of a panel is the normal of the panel's own geometry, turned about the hinge of its own control by the deflection of its own side, then for the slope of the camber line at its own chordwise and spanwise station. No panel is turned twice and none is missed.",
  "for every panelled aircraft, deflection, camber line and flight state",
  "Index arithmetic between subareas, panels and stations; unbounded numbers of wings, strips and panels.",
  [f"{VLM}: gen_lattice (normal rotations)", f"{AC}: StripSubdivision.get_xsi_for_collocation_points"])
p("C72", "Deflections act locally",
  "Changing deflections never makes lattice generation fail and changes neither panel numbers nor points; normals change only for panels of controls whose deflection changed on that very side of the aircraft.",
  "for every panelled aircraft and every pair of deflection settings",
  "Non-interference between components of arbitrary aircraft.",
  [f"{VLM}: gen_lattice (normal rotations)"])
p("C73", "Without deflection and camber the normal rotations do nothing",
  "If each deflection is missing or zero and camber lines have no slope, results with and without the setting for normal rotations are the same, exceptions included.",
  "for every panelled aircraft and flight state",
  "Equality of two execution paths for all inputs.",
  [f"{VLM}: gen_lattice (normal rotations)"])
p("C74", "Symmetric aircraft have symmetric lattices, camber and deflections included",
  "If each wing is mirrored in the x-z plane (with equal deflections on both sides) or lies in it, the lattice in flight without sideslip is mapped to itself by the reflection, panel normals included.",
  "for every aircraft of this kind and angle of attack",
  "Universal over geometries.",
  [f"{VLM}: gen_lattice", f"{AC}: StripSubdivision.abs_camber_line_rot_axis"])
p("C75", "A deflection turns the surface rigidly about its hinge line",
  "The normals of a deflected control surface are those of the panels of the surface turned as a rigid body about its hinge line by the angle of deflection.",
  "for every control surface, angle and wing without camber",
  "Continuous geometry and angles.",
  [f"{VLM}: gen_lattice (normal rotations)", f"{AC}: StripSubdivision.abs_hinge_axis"])
p("C76", "Lattice generation is total on panelled aircraft",
  "For each aircraft for which panelling succeeded, lattice generation raises no exception.",
  "for every panelled aircraft with valid symmetry flags, any deflection, deformation, camber and state",
  "Absence of exceptions for all inputs.",
  [f"{VLM}: gen_lattice"])
p("C77", "Positive deflection is trailing edge down on both sides",
  "On a flat wing without camber a positive deflection below 90 degree tilts the panels of a control so that they fall to the rear, a negative one so that they rise, on the wing and on its x-z mirror image alike.",
  "for every flat wing, control, strip and angle between -90 and 90 degree",
  "Sign convention over continuous geometries.",
  [f"{VLM}: gen_lattice (normal rotations)", f"{AC}: StripSubdivision.abs_hinge_vertices"])
p("C78", "Equal deflections of x-y mirrored wings are mirror images",
  "On a wing mirrored in the x-y plane (e.g. fins above and below), equal deflections turn the two halves of a control surface to mirror images of each other.",
  "for every such wing, control and angle",
  "Continuous geometries and angles.",
  [f"{VLM}: gen_lattice (normal rotations)", f"{AC}: StripSubdivision.abs_hinge_vertices"])
p("C79", "A batch run is the single runs put together",
  "A run over several flight states finishes exactly if the run of each state on its own finishes; its table of global results has in each row the values of that single run, so no state influences another.",
  "for every aircraft and every number of flight states",
  "State leaking from one analysis to the next shows only for particular combinations of states.",
  [f"{RUN}: standard_run", f"{ST}: FlightState.iter_states", f"{VLM}: calc_results"])
p("C80", "The data returned by a run are those of the last flight state",
  "The lattice, matrix, right-hand side, panelwise and global results which a run returns all belong to the last flight state, and to no other.",
  "for every run over any number of states",
  "Unbounded number of states and of panels.",
  [f"{RUN}: standard_run", f"{VLM}: calc_downwash", f"{VLM}: calc_boundary", f"{VLM}: solver", f"{VLM}: calc_results"])
p("C81", "Every result file holds the values of its own flight state",
  "The files which a run leaves are exactly those selected in the settings; the files of state i are in the directory numbered i, hold the values computed for state i, and no file of another state overwrites them, for any number of states; the performance map and the CPACS table have one entry per state in order.",
  "for every run, number of states and selection of result files",
  "Unbounded number of states; numbers above 999 outgrow the three-digit format.",
  [f"{NR}: save_all", f"{RUN}: standard_run", f"{SE}: Settings.generate_paths", f"{CR}: save_aeroperformance_map"])
p("C82", "The circulations of a finished run solve the linear system",
  "The circulations which a run returns satisfy the linear system of its matrix and right-hand side, that is, the flow through each panel vanishes.",
  "for every finished run",
  "Whether the solver failed cannot be read off the output; depends on the real-valued matrix.",
  [f"{VLM}: solver", f"{RUN}: standard_run"])
p("C83", "A symmetric aircraft in symmetric flow has no lateral loads",
  "A run of an aircraft which is symmetric about the x-z plane, at zero sideslip, roll and yaw rate, reports zero side force, rolling moment and yawing moment.",
  "for every symmetric aircraft, panel numbers, deflection and angle of attack",
  "Universal over geometries; involves the whole chain from panelling to the results.",
  [f"{RUN}: standard_run", f"{VLM}: gen_lattice", f"{RS}: vlm_results"])
p("C84", "Every aircraft listed in the database can be made by its name",
  "The names which --list-example-from-db lists are those of the aircraft files in the database; --make-example-from-db with a listed name makes the project of exactly that file, and any other name ends the program without effect.",
  "for every directory of files and every name",
  "Unbounded file names (dots, prefixes of each other, hidden files).",
  ["src/lib/pytornado/database/tools.py: list_aircraft_names, get_aircraft_file_path", f"{EXE}: main"])
p("C85", "CPACS performance maps become one flight state per entry",
  "Loading an aeroperformance map from CPACS gives one flight state per entry, with altitude, Mach number, angle of attack and sideslip of that entry, zero rotation rates, and density and airspeed of the standard atmosphere at that altitude and Mach number; maps with missing vectors or vectors of unequal length are rejected.",
  "for every number of entries and every value",
  "Unbounded number of entries; real-valued data.",
  [f"{CS}: load, _get_aero_dict_from_APM", f"{ST}: FlightState.update_from_dict"])
p("C86", "Control surfaces and deflections of CPACS files are imported faithfully",
  "Each control surface of the file appears on its own wing, at its own place and on existing segments, and has the deflections listed for it in the file; other control surfaces are not deflected.",
  "for every file: any number of wings, sections, devices and listed deflections",
  "Unbounded structure; the loop over deflections is nested in the loop over wings.",
  [f"{CA}: get_aircraft_controls, get_aircraft_wings"])
p("C87", "Imported segments refer to files with their own airfoils",
  "After the import of a CPACS file the airfoil file which a segment refers to exists and holds the coordinates of the airfoil that the CPACS file gives for that segment.",
  "for every list of airfoils and names",
  "Unbounded sets of names; names are cleaned and may collide.",
  [f"{CA}: get_aircraft_airfoils, write_airfoil_files"])
p("C88", "A control surface is where it was placed on the wing",
  "After pre-panelling, a strip carries a control surface exactly if it lies between the requested inner border (segment and relative coordinate) and the requested outer border; a control may reach over any number of segments. Controls whose segments do not exist or are in the wrong order are rejected.",
  "for every wing with any number of segments, controls and panel lines",
  "Unbounded numbers of segments, controls and lines; controls are added one after another and divide each other's strips.",
  [f"{VLM}: pre_panelling", f"{AC}: WingSegment.add_subdivision_for_control", f"{AC}: WingSegment.add_subdivision"])
p("C89", "Device edges and hinge lines have no steps",
  "Where two strips with the same control surface meet, inside a segment or at the border of two segments, the edge of the device and its hinge line have the same relative chord positions on both sides; at the two ends of the control they are at the requested positions.",
  "for every wing, control surface, and number of segments and panel lines",
  "Real-valued positions; unbounded number of divisions, each of which interpolates anew.",
  [f"{VLM}: pre_panelling", f"{AC}: WingSegment.add_subdivision_for_control", f"{AC}: xsi_interpol"])
p("C90", "Device edges stay straight however often they are divided",
  "On a planar convex segment all corners of panels along the edge of a device, and all points of its hinge line, are on one straight line between the ends of the device on that segment.",
  "for every planar convex segment, control and set of other controls and panel lines",
  "Real-valued geometry; errors of repeated interpolation would only show for unusual tapers and sweeps.",
  [f"{AC}: xsi_interpol", f"{AC}: WingSegment.add_subdivision"])
p("C91", "Well-formed layouts of control surfaces are accepted",
  "Setting automatic panel numbers and pre-panelling succeed, and place every control surface, for every aircraft whose controls do not contradict each other: each lies on existing segments with its inner border inboard of its outer border and edges and hinge lines on the chord, and controls that overlap spanwise are a slat and a flap with at least 1 % of the chord between them.",
  "for every aircraft: any number of wings, segments, controls and panels",
  "Unbounded; each added control or line divides strips and re-checks the devices on both halves, so that a late division can refuse what was accepted before.",
  [f"{VLM}: pre_panelling", f"{VLM}: set_autopanels", f"{AC}: WingSegment.add_subdivision_for_control", f"{AC}: SegmentStrip._add_subarea"])
p("C92", "An aircraft file is loaded exactly if it is well-formed, and with its own content",
  "Loading an aircraft file succeeds exactly if names of wings, and of segments and controls of each wing, are not empty and not repeated, reference values are positive, symmetries are among 0 to 3, each segment has four vertices, geometry data in their ranges, positive panel numbers and existing airfoils, each control is usable, and no wing with segments is without span. The loaded aircraft has the content of the file, entry by entry, in order.",
  "for every aircraft file: any number of wings, segments and controls",
  "Unbounded files; all ways in which a file can be wrong.",
  [f"{NA}: load", f"{AC}: Aircraft.generate", f"{AC}: Wing.generate", f"{AC}: WingSegment.generate", f"{AC}: WingControl.check"])
p("C93", "When a run finishes, and with which values",
  "A run finishes exactly if there is at least one flight state, the aircraft can be panelled, and each flight state has an analysis: all state values are finite, the lattice exists with at least one panel, every panel has finite points and normal, and no collocation point or bound-leg centre meets a vortex end. The values in the table are then those of the only such analysis, whatever the settings for saving files.",
  "for every aircraft, settings and any number of flight states",
  "Unbounded; both directions: success and failure over all inputs.",
  [f"{RUN}: standard_run", f"{VLM}: gen_lattice", f"{VLM}: calc_downwash", f"{VLM}: calc_boundary", f"{VLM}: solver", f"{VLM}: calc_results"])
p("C94", "Runs over scaled flight states scale",
  "If every flight state is replaced by one with m times the density and k times the airspeed and the rotation rates (m, k not zero, different for each state), the run still finishes, all forces and moments are m k^2 times the old ones, and all coefficients are the same.",
  "for every aircraft, any number of flight states, all factors",
  "Real-valued factors; a whole run including the linear system.",
  [f"{RUN}: standard_run", f"{DW}", f"{BD}", f"{RS}"])
p("C95", "Another moment reference point",
  "If only the moment reference point of the aircraft is changed, the run still finishes, forces and force coefficients are the same, and the moments change by the cross product of the displacement and the force.",
  "for every aircraft, any number of flight states, every reference point",
  "Real-valued; a sign error vanishes for the reference points that tests use.",
  [f"{RUN}: standard_run", f"{RS}", f"{BD}"])
p("C96", "Mirrored flight states of a symmetric aircraft",
  "For an aircraft that is symmetric with respect to the xz-plane, reversing sideslip, roll rate and yaw rate of all flight states leaves longitudinal forces, moments and coefficients unchanged and reverses the sign of the lateral ones.",
  "for every symmetric aircraft and any number of flight states",
  "Real-valued; a whole run, over both halves of the lattice and the linear system.",
  [f"{RUN}: standard_run", f"{VLM}: gen_lattice", f"{RS}"])
p("C97", "The place of the aircraft in the coordinate system does not matter",
  "If the whole aircraft with its deformation, centre of gravity and moment reference point is moved along the planes of symmetry of its wings, a run finishes if it did before and has the same values of all global quantities.",
  "for every aircraft, translation and any number of flight states",
  "Real-valued; includes panelling, mirroring, rotation of normals and the linear system.",
  [f"{RUN}: standard_run", f"{VLM}: gen_lattice", f"{AC}: WingSegment", f"{LAT}", f"{DW}", f"{BD}", f"{RS}"])
p("C98", "Which settings files are accepted, and what they mean",
  "A settings file is accepted exactly if aircraft (a .json or .xml file) and state are given and all other settings are left out or well-formed: panel numbers are integers, switches are True or False, groups are complete, epsilon is a float between 0 and 1. Settings that are left out have fixed values (4 automatic panels in each direction, nothing saved or plotted, rotations of normals on, epsilon 1e-6). The aircraft is read from CPACS exactly if its file is an XML file; states are read from CPACS exactly if the entry says so and the aircraft is, and RuntimeError is raised for a JSON aircraft.",
  "for every settings file with any entries",
  "Unbounded nested dictionaries; all ways in which a file can be wrong.",
  [f"{SE}: Settings.update_from_dict", f"{SE}: Settings._check_settings_dict", f"{SE}: Settings.state_is_cpacs", f"{UT}: check_dict", f"{NS}: load"])
p("C99", "A project in order is never answered by an exception",
  "If the settings, the aircraft file, the state file and the deformation file of a project are well-formed (numbers of panels positive, control surfaces without contradictions on flat segments, at least one segment and one flight state), the program, apart from plots, raises no exception: it finishes, or it meets a value that is not finite in a flight state, the lattice or the analysis.",
  "for every project: any settings, aircraft, flight states and deformations that are well-formed",
  "Unbounded; a whole execution from the files to the results.",
  [f"{RUN}: standard_run", f"{NS}: load", f"{NA}: load", f"{NST}: load", f"{ND}: load_deformation", f"{VLM}: set_autopanels", f"{VLM}: pre_panelling", f"{VLM}: gen_lattice"])
p("C100", "A project that is not in order leaves no results",
  "If a file of a project is missing or not well-formed - settings, aircraft, flight states, or a deformation of an unknown wing - the program raises an exception and writes no result file.",
  "for every project and every way in which a file can be wrong",
  "Absence of an effect over all wrong inputs.",
  [f"{RUN}: standard_run", f"{NS}: load", f"{NA}: load", f"{NST}: load", f"{ND}: load_deformation"])
p("C101", "Results belong to the files of the project",
  "If a run finishes, all files are well-formed and the values returned for each flight state of the state file are those of the analysis of the aircraft in the aircraft file: its corners, symmetries, airfoils, control surfaces with their deflections (the mirrored half takes the same deflection if none is given), reference values and deformation fields, with the numbers of panels, the tolerance and the switches of the settings or their documented defaults.",
  "for every project whose run finishes",
  "Unbounded; a value from one entry could reach another one for inputs that tests do not have.",
  [f"{RUN}: standard_run", f"{NS}: load", f"{NA}: load", f"{NST}: load", f"{ND}: load_deformation", f"{SE}: Settings"])
p("C102", "A new project can be analysed",
  "Setting up a new project without an aircraft file writes a project whose analysis finishes with finite velocities and forces, with one flight state (100 m/s, density 1.225, angle of attack 2 degrees) and a rectangular wing with a flap. With an aircraft file a project is made exactly if the file can be loaded; it analyses the aircraft of the file exactly if no segment is changed by saving it, and the analysis finishes if the aircraft has the usual layout (see C153). A folder that exists is not touched; after any attempt, successful or not, further attempts are refused.",
  "for every aircraft file below any directories, every state of the disk",
  "Unbounded aircraft files; absence of an effect on an existing folder; a failing attempt leaves a folder behind.",
  [f"{SU}: setup_wkdir", f"{NA}: save", f"{NST}: save", f"{NS}: save"])
p("C103", "A saved project is the same project",
  "If settings, aircraft and flight states of a project, as loaded, are saved in place of the files they were loaded from, the project can be loaded again and a run gives the same results.",
  "for every project that loads",
  "Unbounded; what is lost by saving shows only for inputs that tests do not have.",
  [f"{NS}: save", f"{NA}: save", f"{NST}: save", f"{RUN}: standard_run"])
p("C104", "What is saved and plotted does not change the results",
  "The name of the project and its settings on saving and plotting have no influence on whether a run finishes, on the lattice, and on the results.",
  "for every native project and all pairs of settings that differ only in output",
  "Independence of two executions over all inputs.",
  [f"{RUN}: standard_run", f"{SE}: Settings"])
p("C105", "A project leaves exactly the files its settings ask for",
  "A finished run of a project leaves, for each flight state, exactly the result files that the settings ask for (global.json, panelwise.dat, matrix.dat) in the directory of that state, and the performance map exactly if asked for; each path occurs once, each file holds the data of its state.",
  "for every native project whose run finishes, any number of flight states",
  "Unbounded numbers of states; all combinations of settings; absence of other files.",
  [f"{RUN}: standard_run", f"{NR}: save_all", f"{NR}: save_aeroperformance_map", f"{SE}: Settings.generate_paths"])
p("C106", "A run that stops early keeps the results it has",
  "A run over at least one flight state that does not finish stops at the first flight state that cannot be analysed; it leaves exactly the requested files of the flight states before that one, with their data, and no performance map.  If the run of a project ends in an exception that does not come from a plot, then already at the first flight state: no file has been written.",
  "for every aircraft or project, any number of flight states, any reason to stop",
  "Unbounded; partial effects of failing executions.",
  [f"{RUN}: standard_run", f"{NR}: save_all"])
p("C107", "Plots show the whole aircraft",
  "The axes of every plot have the same scale in all directions and views: they are laid around the smallest box with the origin and the surfaces of all wings and mirror images, plus five percent of the longest edge.  Everything drawn in a plot of the geometry lies inside the axes.",
  "for every aircraft: any number of wings and segments, all symmetries; all points of the surfaces",
  "Unbounded; the extent of the drawing has to follow mirror images of all kinds.",
  [f"{PT}: _get_limits", f"{PT}: _scale_plots", f"{PT}: _scale_fig", f"{PT}: plot2d3d"])
p("C108", "The views of a plot agree",
  "In every plot of a run the three plane views show exactly the objects of the 3D view as seen along the missing axis, although mirror images are drawn separately for each view.  The plot of the geometry shows every segment, every control surface and hinge line, the mirror image of each, and the centre of gravity, and nothing else.  The plot of the lattice shows the outline of every panel and the centre of gravity, the control surfaces unless a half of a wing is deformed, and nothing else.",
  "for every aircraft, settings, flow, and lattice",
  "Unbounded; agreement of separately written branches for three symmetries.",
  [f"{PT}: _plot_XYZ_points", f"{PT}: add_wings", f"{PT}: add_controls", f"{PT}: add_CG", f"{PT}: add_lattice", f"{PT}: add_results", f"{MP}: make_all"])
p("C109", "Plots of results show the results",
  "A plot of results contains the direction of the free stream and one patch per panel in the order of the panels.  The points of the patch lie on the panel and include its four corners; the colours of the patches grow with the values: the smallest value has the lowest colour, the largest the highest.",
  "for every lattice, all results that are finite, every flow with airspeed",
  "Unbounded; correspondence of two sequences.",
  [f"{PT}: add_results", f"{PT}: interpolate_quad", f"{PT}: add_freestream_vector", f"{MP}: plot_results_aircraft"])
p("C110", "Plotting does not change results",
  "If a run with plots finishes then it returns the results and leaves the files of the run without plots.  If it does not finish then it stops as without plots, or in an exception of a plot; then the files it has written are the first ones of those written without plots: those of all flight states up to the one whose plot has failed.  All plots of the states before have been made, and those of this state up to the one that has failed.",
  "for every project",
  "Relates two executions for all inputs.",
  [f"{RUN}: standard_run", f"{MP}: make_all", f"{PT}: plot2d3d"])
p("C111", "A project gets the plots it asks for",
  "A project in order is not answered by an exception of a plot: for every flight state exactly the plots named in the settings are made - matrix, geometry, lattice and the results in the given order (without names: pressure coefficients) - each saved and shown as asked for.",
  "for every project in order with any settings of plots",
  "Unbounded; a whole execution from the files to the plots.",
  [f"{MP}: make_all", f"{MP}: plot_geometry_aircraft", f"{MP}: plot_lattice_aircraft", f"{MP}: plot_results_aircraft", f"{PD}: view_downwash", f"{SE}: Settings", f"{RUN}: standard_run"])
p("C112", "Plots show the data of their flight state",
  "Each plot of a finished run belongs to a flight state and shows its data: the matrix plot the influence coefficients of this state, the plot of the lattice the panels of this state, a plot of results the named result of this state on its panels, the plot of the geometry the aircraft of the file.",
  "for every project that is not in CPACS format and every finished run with plots",
  "Unbounded; whole executions with any number of flight states, in which one result object is used for all states.",
  [f"{MP}: make_all", f"{PD}: view_downwash", f"{PT}: add_lattice", f"{PT}: add_results", f"{RUN}: standard_run"])
p("C113", "A CPACS file becomes the aircraft it describes",
  "A CPACS file with a model, wings, airfoils and positive reference values, whose wings can be imported, is loaded exactly if all its airfoils can be read, the directory for them exists and no wing is without span. The aircraft has the name, reference values, wings, segments, corners and airfoils of the file; every airfoil of the file is stored under the path at which the segments look for it, and no other airfoil file changes.",
  "for every CPACS file, every project directory and all airfoil files there are before",
  "Unbounded numbers of wings, segments and airfoils; names are arbitrary and are cleaned before they are used as file names, in two different places which have to agree.",
  [f"{CA}: load", f"{CA}: get_aircraft_refs", f"{CA}: write_airfoil_files", f"{CA}: get_aircraft_airfoils"])
p("C114", "Conversion of a CPACS file keeps the aircraft",
  "The JSON file made by --cpacs2json loads to the same aircraft as the CPACS file itself. Whatever file can be used in an analysis can be converted, and the airfoil paths in the JSON file are relative, so the project can be moved.",
  "for every CPACS file and every directory the program is called in",
  "Unbounded; a statement on the composition of two importers and one exporter.",
  [f"{SU}: cpacs2pytornado", f"{CA}: load", f"{NA}: save", f"{NA}: load"])
p("C115", "Analysis of a converted project gives the results of the CPACS project",
  "If the CPACS file of a project is converted and the settings are changed to use the JSON file, the analysis does the same: the same results, the same files, the same exceptions.",
  "for every project with a CPACS aircraft and every settings file that differs in the aircraft only",
  "Relates two whole executions of the program; unbounded numbers of panels and flight states.",
  [f"{SU}: cpacs2pytornado", f"{RUN}: standard_run", f"{CS}: load", f"{NST}: load"])
p("C116", "CPACS projects in order run, others write nothing",
  "If settings, CPACS file, flight states and deformations of a CPACS project are in order, the program raises no exception: the run finishes or stops because a value is not finite. If the settings, the CPACS file or the flight states are missing or cannot be used, the program raises an exception and writes no result file.",
  "for every project with a CPACS aircraft, with flight states from a state file or from the CPACS file",
  "Absence of exceptions over whole executions for all inputs cannot be tested.",
  [f"{RUN}: standard_run", f"{CA}: load", f"{CS}: load"])
p("C117", "Results of a CPACS project belong to its files",
  "The results of a finished run of a CPACS project are those of its files: every flight state of the state file, or of the aeroperformance map of the CPACS file if the settings say so, has been analysed, in order, on the wings of the CPACS file with their airfoils, its reference values, and the numbers of panels and tolerances of the settings; the values returned for a flight state are those of its analysis.",
  "for every project with a CPACS aircraft and every finished run",
  "Whole executions with unbounded numbers of wings, panels and flight states.",
  [f"{RUN}: standard_run", f"{CA}: load", f"{CS}: load"])
p("C118", "Which CPACS files can be imported",
  "A CPACS file is imported exactly if it is complete and consistent: names of wings, of segments of a wing and of controls of a wing are not empty (without special characters) and not used twice, every segment names its airfoils and they can be read, every device can be located on the segments, every control is usable with the deflections last listed for it, deflections are listed for controls of the first wing, the first device of each wing is at the trailing edge, reference values are positive and no wing is without span. Every wing of the file then becomes one wing, every segment one segment and every leading or trailing edge device one slat or flap where the device is; nothing else is added.",
  "for every CPACS file, with any number of wings, segments, devices and listed deflections",
  "Quantifies over all files; after each wing deflections and checks are repeated for all wings so far, which must not change or reject anything accepted before.",
  [f"{CA}: get_aircraft_wings, get_aircraft_wing_segments, get_aircraft_controls, get_aircraft_airfoils"])
p("C119", "Gaps between segments of a wing are reported",
  "When a wing is generated, a warning names every pair of neighbouring segments between which there is a gap, and the wing itself; a wing without gaps, whether its segments are listed from root to tip or from tip to root, gives no warning.",
  "for every wing, with any number of segments at any places",
  "The check compares directions of edges and of lines between vertices up to a tolerance, after signs were removed; which gaps this detects can only be told for all positions of the vertices.",
  [f"{AC}: Wing.generate"])
p("C120", "Geometrically similar aircraft have the same coefficients",
  "If all lengths of an aircraft and its reference values are multiplied by one factor (another size, or another unit of length) and the rates divided by it, every coefficient of every flight state stays the same; forces change with the square, moments with the cube of the factor.",
  "for every aircraft, every positive factor and every sequence of flight states",
  "Whether any length that does not belong to the aircraft enters the results (lengths of trailing legs, tolerances, minimum widths) can only be told by following the factor through the whole calculation.",
  [f"{RUN}: standard_run", f"{LAT}: vlm_lattice", f"{DW}: vlm_downwash", f"{RS}: vlm_results"])
p("C121", "Native code gets what it expects and stays inside the arrays it is given",
  "In every run of an accepted aircraft, each native function finds every attribute and dictionary item that it looks up, with the type that it checks for (so that no call returns silently without doing anything); every element that it reads or writes by index arithmetic lies inside the array; and the arrays and dictionaries contain afterwards exactly the values that belong to each panel in the order in which Python reads them.",
  "for every aircraft, every settings, every sequence of flight states; at every call of a native function",
  "A wrong index or array length in C++ corrupts memory only for some numbers of panels and often without visible effect; a refused argument only prints a line and leaves old values. Both have to be excluded for all numbers of wings, subareas and panels.",
  [f"{CV}: py2c_lattice, py2c_downwash, py2c_boundary, py2c_results", f"{LAT}: vlm_lattice", f"{DW}: vlm_downwash", f"{BD}: vlm_boundary", f"{RS}: vlm_results", f"{VLM}: gen_lattice, calc_downwash, calc_boundary, calc_results"])
p("C122", "The results on disk belong to the latest run of their settings file",
  "However often the program is started in a project folder, with whatever options, and however the user changes input files in between: the program never changes an input file; the result files of a settings file are exactly those that its latest run wrote, with the contents of that run, and runs of other settings files do not touch them; to start the program twice with the same options is the same as to start it once; the order in which different settings files are run does not matter.",
  "for every project folder and every sequence of changes and starts with any options",
  "Each start is correct by itself; what mixes results up are sequences of starts with changed settings, other settings files and cleaning in between, of which there are infinitely many.",
  [f"{EXE}: main", f"{RUN}: get_settings, clean_project_dir, standard_run", f"{SE}: generate_paths, clean"])
p("C123", "Motions superpose",
  "For a given aircraft at given angles of attack and sideslip, the circulations are a weighted sum of four fixed distributions, the weights being airspeed, roll rate, pitch rate and yaw rate; every force and every moment is the density times a fixed quadratic form of airspeed and rates, so that the loads of the sum and of the difference of two motions add up to twice the loads of the two motions; whether a run finishes does not depend on airspeeds, densities and rates.",
  "for every aircraft, every pair of angles, all airspeeds, densities and rates and any number of flight states",
  "Linearity and quadratic dependence are statements about all combinations of four real numbers at once; a finite set of states cannot tell a quadratic form from another function.",
  [f"{VLM}: calc_boundary, solver, calc_results", f"{BD}: vlm_boundary", f"{RS}: vlm_results"])
p("C124", "The order of the wings does not matter",
  "If the wings of an aircraft are given in another order, a run finishes just as well, all forces, moments and coefficients of all flight states are the same, and corresponding panels have the same circulation, induced velocity, force and pressure coefficient.",
  "for every aircraft with any number of wings, every order of its wings, and all flight states",
  "There are infinitely many aircraft and n! orders of n wings; the order decides the numbering of panels, hence every index in bookkeeping, influence matrix and sums.",
  [f"{OT}: all_subareas", f"{VLM}: set_autopanels, gen_lattice, calc_downwash, solver, calc_results", f"{LAT}: vlm_lattice", f"{DW}: vlm_downwash", f"{RS}: vlm_results"])
p("C125", "Only the surfaces matter",
  "If two aircraft have the same lifting surfaces - the same points and the same numbers of panels, whatever their order, names, sides and grouping into wings - a run finishes for both or for none and all forces, moments and coefficients of all flight states are the same; corresponding panels carry the same force, and circulation and pressure coefficient agree up to the sign that belongs to the side.",
  "for all pairs of aircraft whose wings without controls and camber have the same surfaces (the other wings being the same), all deformations and all flight states",
  "The claim relates infinitely many pairs of inputs; the description decides numbering, orientation and mirroring of all panels, so that every sign in lattice, influence matrix, right-hand side, forces and sums takes part.",
  [f"{AC}: SegmentStrip.abs_vertices, StripSubdivision.abs_vertices, mirror_vertices, order_mirrored_vertex_points", f"{VLM}: set_autopanels, pre_panelling, gen_lattice, solver", f"{LAT}: vlm_lattice", f"{DW}: vlm_downwash", f"{BD}: vlm_boundary", f"{RS}: vlm_results"])
p("C126", "A symmetry flag and a second wing are the same",
  "A symmetric wing without controls and camber may be replaced with two wings without symmetry, the second one with the reflected corner points and the deformation of the mirrored half: a run finishes for both descriptions or for none, and all global results are the same.",
  "for every aircraft, every symmetric wing of it (planes 1, 2 and 3), every deformation and all flight states",
  "The mirrored half takes its own path through the code (mirrored points, reordered corners and relative coordinates, entries of the bookkeeping); whether it is equivalent to an explicit wing for all geometries cannot be sampled.",
  [f"{AC}: mirror_point, mirror_vertices, order_mirrored_vertex_points, SegmentStrip.abs_vertices, WingSegment.get_deformed_segment_point", f"{VLM}: gen_lattice", f"{LAT}: vlm_lattice"])
p("C127", "A segment may be described from either side",
  "Exchanging the inner and the outer corner points of any segments of a wing without controls and camber, with at most 100 spanwise panels, changes no global result and does not decide whether a run finishes.",
  "for every aircraft, all choices of segments of a wing and all flight states",
  "Infinitely many geometries; the exchange reverses the order of strips, the direction of vortices and normals, hence rows, columns and signs of the system of equations.",
  [f"{AC}: WingSegment.add_subdivision, SegmentStrip.abs_vertices", f"{VLM}: pre_panelling, gen_lattice", f"{LAT}: vlm_lattice", f"{DW}: vlm_downwash", f"{RS}: vlm_results"])
p("C128", "A wing may be cut between segments",
  "A wing without controls and camber whose segments have given numbers of panels may be replaced with two wings, the first of which has the first segments and the second the others: a run finishes for both or for none, and all global results are the same.",
  "for every aircraft, every wing with any number of segments, every place between two segments and all flight states",
  "Infinitely many aircraft; the cut changes every path in the bookkeeping and the span by which panels are distributed.",
  [f"{OT}: all_subareas", f"{VLM}: set_autopanels, pre_panelling, gen_lattice", f"{LAT}: vlm_lattice"])
p("C129", "Names do not matter",
  "Giving other names to the aircraft, its wings, their segments and controls, consistently in the aircraft file and the deformation file and without making two different names equal, changes nothing: the run of the project raises the same exception after writing the same files, or finishes with the same lattice, the same table of results and the same result files.",
  "for every project with an aircraft file in the native format, every such renaming and all flight states",
  "Infinitely many names and aircraft; names are used as keys for finding segments, controls and deflections, as keys of the bookkeeping and, with special characters, to mark mirrored deformation fields.",
  [f"{NA}: load", f"{ND}: load", f"{AC}: Wing.add_segment, add_control", f"{VLM}: pre_panelling, gen_lattice", f"{OT}: all_subareas"])

p("C130", "What an aircraft file means",
  "The loader accepts the JSON data of an aircraft file exactly if they have the documented entries with the documented types (described entry by entry) and the aircraft they describe is acceptable; the result is then that aircraft. The data describe at most one aircraft. Reference values, corners and deflections may be whole numbers or decimals; positions of controls must have a decimal point.",
  "for all JSON data, all folders and airfoil databases, and whatever schemadict does with unknown keys and booleans",
  "Unboundedly many shapes of JSON data; a test looks at a handful of files. That nothing else is accepted is a statement about all data.",
  [f"{NA}: load", f"{AC}: Wing.add_segment, WingSegment.check_vertices, check_geometry, check_panels, WingControl.check, Aircraft.generate"])

p("C131", "One fault in an aircraft file raises the fitting exception",
  "If an aircraft file that is accepted is changed in one place so that it has one fault, the loader raises the exception fitting this fault: KeyError for a missing entry, ComponentDefinitionError for an empty name or no deflection, ValueError for a name used before, for an unknown kind of control, symmetry or a deflection out of range, TypeError for a name or a deflection of the wrong type, AttributeError for a group which is no object.",
  "for all accepted files, all places (wing, segment, control) and all faults of these kinds",
  "Faults can be at any place in files of any size; the order of checks decides about the exception.",
  [f"{NA}: load", f"{AC}: Aircraft.add_wing, Wing.add_segment, Wing.add_control, WingControl.check"])

p("C132", "Entries under unknown keys have no effect",
  "An additional entry under a key that the program does not use, in the aircraft, a wing, a segment or a control, changes neither the aircraft that is loaded nor the exception that is raised.",
  "for all JSON data, all places, keys and values",
  "Infinitely many keys, values and files, including files that are refused.",
  [f"{NA}: load"])

p("C133", "The file that is written can be read",
  "The JSON data that the program writes for a loaded aircraft have all entries and types that its loader asks for; reading them again gives the same aircraft exactly if all section chords run backwards and all blade files lie in the directory airfoils.",
  "for all aircraft files that are accepted",
  "Unboundedly many aircraft; the types which the loader asks for have to be met by every value the writer produces.",
  [f"{NA}: load, save", f"{FU}: NDArrayEncoder, dump_pretty_json"])
p("C134", "What a state file means",
  "The data in a state file are accepted exactly if they are a JSON object with the one key 'aero', whose value is an object that is a valid set of flight states; every value may be a number, a truth value, a string denoting a number or a list of these. The data have one meaning only. It does not matter in which order the parameters are written, whether one value is written as a list of one, and whether a whole number has a decimal point; also the exceptions are the same. Any other key next to 'aero', a missing 'aero' and data that are no object raise TypeError, 'aero' that is no object AttributeError, an empty object IndexError.",
  "for all JSON data, all pairs of JSON data that differ in the way of writing only, and all atmosphere models",
  "JSON data are an infinite family of trees; tests try a few files and never all ways of writing the same states.",
  [f"{NST}: load", f"{ST}: FlightState.update_from_dict"])
p("C135", "A run depends only on what the files mean",
  "A project is loaded exactly if its aircraft and state files have a meaning that is accepted, and then the whole run is the run of this meaning, with the same results, files and exceptions. If not, an exception is raised and no result file is written.",
  "for all projects made of arbitrary JSON data, including files that are no valid input",
  "the claim is about every possible content of the files of a project; tests run a handful of valid projects.",
  [f"{RUN}: standard_run", f"{NA}: load", f"{NST}: load"])
p("C136", "The files of a new project can be read",
  "The template project as it is written to disk, with whole numbers and null values, is read back as the template aircraft at the default flight state, and its analysis does not end in an exception. A project made from an aircraft file analyses the aircraft of this file exactly if no wing segment is changed by saving; a file that cannot be loaded raises the exception of loading.",
  "for all JSON data of an aircraft file, all behaviours of the schema package left open by its contract, and all linear solvers of the LAPACK contract",
  "the round trip through the files of a new project is claimed for every aircraft file; a test creates one project and does not know all versions of the schema package.",
  [f"{SU}: setup_wkdir", f"{NA}: save", f"{NST}: save"])
p("C137", "Flow along the surfaces causes no loads",
  "If all lifting surfaces described by the aircraft file are flat and lie in one plane together with their mirror images, no control is deflected and no airfoil has camber, then every flight state whose flow (free stream and rotation about the centre of gravity) is along this plane has zero forces, moments and coefficients. In particular wings in a horizontal plane at zero angle of attack without roll and pitch rate carry no load at any airspeed, density, sideslip angle and yaw rate.",
  "for all finished runs, all planes, outlines, numbers of wings, segments, controls and panels, all flight states along the plane, regular or singular systems, and all linear solvers of the LAPACK contract",
  "the zero result must hold for every outline, panelling and plane, and also where the linear system is singular; a test checks one wing at one state with a tolerance.",
  [f"{VLM}: gen_lattice", f"{BD}: vlm_boundary", f"{RS}: vlm_results", f"{LAT}: vlm_lattice", f"{RUN}: standard_run"])
p("C138", "Files that describe the same surfaces give the same results",
  "Two projects with the same settings and flight states whose aircraft files describe the same lifting surfaces with the same numbers of panels can both be run or none can, and all forces, moments and coefficients are the same. It does not matter at which side a segment of a wing without controls and camber starts, whether a mirror image is requested with the symmetry flag or written as a second wing with reflected corners, how segments are put together to wings, in which order the wings are given and how wings and segments are called. A file rewritten in one of these ways is accepted if the first one is.",
  "for all well-formed aircraft files, all outlines, symmetry flags, numbers of wings and segments, all positions of a cut, all new names, all settings without deformation, all flight states, and all linear solvers of the LAPACK contract",
  "two descriptions can be compared for single aircraft only; the order of the unknowns and the side of each panel differ in every rewritten file, and the automatic numbers of panels depend on the widths of all segments of the wing.",
  [f"{NA}: load", f"{AC}: Wing", f"{AC}: WingSegment", f"{VLM}: set_autopanels", f"{VLM}: gen_lattice", f"{RUN}: standard_run"])
p("C139", "A flat aircraft flies as well upside down",
  "If all lifting surfaces described by the aircraft file are flat and lie in one horizontal plane together with their mirror images, no control is deflected and no airfoil has camber, then reversing the signs of all angles of attack, roll rates and pitch rates in the state file leaves the project runnable and, for each flight state, drag, side force, the forces and the moment in the plane and their coefficients unchanged; lift, the force normal to the plane and their coefficients get the opposite sign, and so do rolling and pitching moment about a reference point in the plane. So lift is an odd and drag an even function of the angle of attack.",
  "for all outlines, symmetry flags, numbers of wings, segments and panels, all heights of the plane, all airspeeds, densities, angles and rates (given as numbers, lists, or Mach number and altitude), all reference values with the centre of gravity in the plane or without roll and pitch rates, and all linear solvers of the LAPACK contract, also if the system is singular",
  "a test compares two runs of one aircraft at one angle; the exact symmetry of the lift curve for every planform and every state is a statement about all of them.",
  [f"{LAT}: vlm_lattice", f"{DW}: vlm_downwash", f"{BD}: vlm_boundary", f"{RS}: vlm_results", f"{NST}: load", f"{RUN}: standard_run"])
p("C140", "Reference values only normalise the results",
  "If two aircraft files differ in the reference values (and the name of the aircraft) only, the second project can be run if the first can. All forces are the same; the moments change by the moment of the resulting force about the displaced reference point; force coefficients change with the ratio of the reference areas and, with the same reference point, rolling and yawing moment coefficients with that of area times span, pitching moment coefficients with that of area times chord. The centre of gravity has no influence on any result unless there are rotation rates.",
  "for all aircraft files, deformations, controls, settings, flight states (also without airspeed), all positive reference areas, spans and chords, all reference points and centres of gravity, and all linear solvers of the LAPACK contract",
  "a test fixes two sets of reference values for one aircraft; that no other quantity of the analysis depends on them has to hold for every file.",
  [f"{NA}: load", f"{BD}: vlm_boundary", f"{RS}: vlm_results", f"{RS}: vlm_coeffs", f"{RUN}: standard_run"])
p("C141", "Symmetric aircraft files give no lateral loads",
  "If every wing of the aircraft file is mirrored in the x-z plane, with mirror deflections left out or equal to the deflections, or is an undeflected flat fin in that plane, the reference points are in that plane too, and the deformation file, if there is one, deforms both halves like mirror images, then in every finished run side force, rolling and yawing moment and their coefficients are zero for each flight state given with zero sideslip, roll and yaw rate. Reversing the signs of all sideslip angles, roll and yaw rates in the state file reverses these results and leaves all others as they are; the project can still be run.",
  "for all aircraft files of that kind with any number of wings, segments and controls, all settings, all state files in any of the documented combinations, and all linear solvers of the LAPACK contract",
  "a test looks at one aircraft and sees residuals of rounding; that every path from the file through panelling to the loads treats both halves alike has to hold for every file.",
  [f"{NA}: load", f"{AC}: WingControl.check", f"{VLM}: set_autopanels", f"{LAT}: vlm_lattice", f"{RUN}: standard_run", f"{RS}: vlm_results"])
p("C142", "The origin of the coordinates in the files does not matter",
  "If all points of the aircraft file (corners of segments, centre of gravity, moment reference point) and the fields of the deformation file are moved by the same vector, which lies in the plane of symmetry of each wing with a symmetry flag, then the moved file is accepted if the first one is, both projects can be run or none, and all forces, moments and coefficients of all flight states are the same.",
  "for all aircraft files with any wings, segments, controls and airfoils, all deformation files, settings and flight states, all vectors in the planes of symmetry, and all linear solvers of the LAPACK contract",
  "a test moves one aircraft by one vector; that loading, checks, panelling, controls, deformation and moments use differences of positions only has to hold for every file and every vector.",
  [f"{NA}: load", f"{ND}: load", f"{AC}: WingSegment", f"{VLM}: gen_lattice", f"{BD}: vlm_boundary", f"{RS}: vlm_results", f"{RUN}: standard_run"])
p("C143", "Only the flow conditions meant by the state file matter",
  "A state file can give airspeed and density, airspeed and altitude, or Mach number and altitude. In a finished run every flight state has exactly one set of flow conditions (airspeed, density, angles, rates). If two projects differ in their state files only, and state i of the second means the angles of the first, k_i times its airspeed and rates and m_i times its density, in whichever way both are given, then the second project can be run as well, all forces and moments of state i are multiplied by m_i k_i^2, and its coefficients are the same unless airspeed or density is zero. If every state of the second file means the flow of some state of the first, in whichever order, number and way, then the second project can be run and states with the same flow conditions have the same results.",
  "for all accepted state files (with the same number of states where factors other than one are used), all ways of giving them, all factors other than zero, all aircraft files, settings and deformation files, all atmosphere models, and all linear solvers of the LAPACK contract",
  "tests compare one state given in two ways; which of the given values are used, and that nothing else of the state file reaches the solver, has to hold for every file.",
  [f"{ST}: FlightState.update_from_dict", f"{NST}: load", f"{BD}: vlm_boundary", f"{RS}: vlm_results", f"{RUN}: standard_run"])
p("C144", "Turning aircraft and flow together turns the loads",
  "If all points of the aircraft file (corners, centre of gravity, moment reference point) and the deformation fields are turned by one rotation, and the flight states by the same (same airspeed and density, direction of flow and angular velocity turned), then the second project can be run as well; forces, moments and force coefficients are turned like vectors, drag and drag coefficient are the same and so is the magnitude of the force across the flow. In particular, an aircraft turned about the y-axis in its file, at an angle of attack changed by the same angle, has the same drag, side force, lift and pitching moment and the same coefficients. Mirrored wings can only be turned so that the normal of the plane of symmetry stays on its line. The numbers of spanwise panels must be given, or the widths of the segments in the y-z plane must be unchanged: numbers chosen automatically depend on those widths, so that turning an aircraft can change its mesh.",
  "for all rotations, all aircraft files (any camber, controls, deflections, deformation), settings and state files, and all linear solvers of the LAPACK contract, in exact arithmetic",
  "the choice of axes enters every step (camber axis, hinge axis, strips, trailing legs, wind axes); tests try single angles and allow for errors of the size of a wrong sign in a small term.",
  [f"{VLM}: set_autopanels, gen_lattice", f"{LAT}: vlm_lattice", f"{BD}: vlm_boundary", f"{RS}: vlm_results", f"{RUN}: standard_run"])
p("C145", "A fin entered as a symmetric wing spoils the solution of the whole aircraft, without notice",
  "If a wing with symmetry about the x-z plane has a segment in that plane, so that it coincides with its mirror image, nothing reports this: whenever the run finishes, in every flight state the system of equations is singular and all reported forces and coefficients, of the other wings too, are computed from the right-hand side in place of the circulations.",
  "for every aircraft file with such a segment, any other wings, controls, airfoils, panel numbers, deformation that keeps the symmetry, settings and flight states",
  "That a matrix of real numbers is singular, for any geometry and number of panels, cannot be found by running cases: rounding makes it almost singular, with results that differ from machine to machine.",
  [f"{VLM}: gen_lattice, calc_downwash, solver", f"{DW}: vlm_downwash", f"{AC}: WingSegmentSubArea.abs_vertices", f"{RUN}: standard_run"])

p("C146", "The native code can count the panels",
  "A run that succeeds with exact integers of any size also succeeds with the 32-bit integers that the native code uses for its indices, and gives the same table, files and results: no index is computed wrongly, and nothing is read or written outside the arrays, however many panels there are.",
  "for all aircraft, panel numbers, settings and flight states, at the level of flat arrays and machine integers",
  "The integers are only exceeded with more than 46340 panels, for which one matrix takes 17 GB; no test can run such a case, nor all the smaller ones.",
  [f"{DW}: vlm_downwash", f"{LAT}: vlm_lattice", f"{BD}: vlm_boundary", f"{RS}: vlm_results", f"{RUN}: standard_run"])

p("C147", "The panels of a segment face the way the segment does",
  "Without deflections, camber and deformation, all panel normals of a segment lie on the side to which the segment faces, whatever its taper, sweep, twist, strips and control surfaces. For a plane segment each of them is the segment's normal_vector made a unit vector; on the mirrored side it is the mirror image for the plane xz and the opposite of the image for the planes xy and yz. The main_direction of a segment is perpendicular to its root chord and points from the root to the tip.",
  "for all aircraft that can be panelled, all corners of segments, panel numbers, symmetry planes and flow directions",
  "The normals are computed by native code from points on panels; that none of them flips for some taper, sweep, strip or flap is a statement about all shapes.",
  [f"{AC}: WingSegment.normal_vector", f"{AC}: WingSegment.main_direction", f"{LAT}: vlm_lattice", f"{AC}: StripSubdivision.abs_vertices"])

p("C148", "Bound vortices lie ahead of their collocation points",
  "In every panel of an undeformed segment whose root and tip chord run backwards, the front edge and the bound vortex lie ahead of the collocation point and of the rear edge, on both sides of the wing and for each symmetry plane.",
  "for all aircraft that can be panelled, all corners of segments, strips, control surfaces, panel numbers, symmetry flags and flow directions",
  "Whether a panel is the wrong way round depends on two exchanges of corners that can undo each other; results of a reversed panel look plausible.",
  [f"{AC}: order_mirrored_vertex_points", f"{AC}: StripSubdivision.abs_vertices", f"{AC}: SegmentStrip.abs_vertices", f"{LAT}: vlm_lattice"])

p("C149", "A surface entered twice spoils the solution of the whole aircraft, without notice",
  "If a segment of the aircraft file is there twice, once more with the same corners in the same or another wing, or as the mirror image of a segment of a wing with symmetry about the x-z plane (also: a wing that is given from tip to tip and has symmetry), nothing reports this: whenever the run finishes, in every flight state the system of equations is singular and all reported forces and coefficients are computed from the right-hand side in place of the circulations.",
  "for every aircraft file with such a pair of segments, with 1 to 100 spanwise panels, on wings without deformation and control surfaces; any other wings, airfoils, settings and flight states",
  "That a matrix of real numbers is singular, for any geometry and number of panels, cannot be found by running cases: rounding makes it almost singular, with results that differ from machine to machine.",
  [f"{VLM}: gen_lattice, calc_downwash, solver", f"{DW}: vlm_downwash", f"{AC}: order_mirrored_vertex_points", f"{RUN}: standard_run"])

p("C150", "The simplest wing lifts and has drag",
  "For a wing of one flat panel of any sweep and taper, in straight flight without sideslip, the equation for the circulation has exactly one solution, and the reported lift has the sign of the angle of attack and the reported induced drag is positive. In larger level wings each panel induces a velocity downwards at its own collocation point, so that no diagonal element of the matrix is zero.",
  "for every aircraft file with such a wing, every trapezium with root and tip chord along x, airspeed, density, angle of attack up to 90 degrees other than zero, and epsilon; the statement on own downwash for all panels of level segments, with strips and control surfaces, on both sides of wings with symmetry xy or xz",
  "A sign error in one of the three vortex legs, in the boundary condition or in the wind axes shows for certain sweeps, tapers or angles only; the claim is an inequality over all shapes and angles.",
  [f"{LAT}: vlm_lattice", f"{DW}: vlm_downwash", f"{BD}: vlm_boundary", f"{RS}: vlm_results", f"{RUN}: standard_run"])

p("C151", "Wings side by side can always be analysed",
  "If the input files are in order, the segments lie side by side seen from above (root and tip chords run backwards in planes y = const, tip to the right of the root, no two segments or mirror images over the same span), nothing is deformed and no flight state has sideslip, the run finishes for every flight state: no end of a vortex ever meets a collocation point or the middle of a bound vortex, no panel degenerates, and all induced velocities and forces are finite (coefficients may still be NaN for zero airspeed or density).",
  "for every project with such an aircraft; any sweep, taper, dihedral, twist, camber, control surfaces and deflections, numbers of panels, angles of attack, rates, airspeeds and settings",
  "The induced velocities are singular at points that depend on geometry, panelling and flow direction; that no combination hits one cannot be found by trying combinations.",
  [f"{VLM}: gen_lattice, calc_downwash, calc_rhs, solver, calc_results", f"{DW}: vlm_downwash", f"{LAT}: vlm_lattice", f"{RUN}: standard_run"])

p("C152", "Wings and tailplanes that do not meet can be analysed in all flight states",
  "If the input files are in order, any two segments lie side by side, one behind the other or one above the other (separated by a plane across a coordinate axis; side by side they may touch), the aircraft fits into a cube of 5 km and nothing is deformed, the run finishes for every flight state, also with sideslip: all induced velocities and forces are finite (coefficients may still be NaN for zero airspeed or density).",
  "for every project with such an aircraft; any sweep, taper, dihedral, twist, camber, control surfaces and deflections, numbers of panels, angles of attack and sideslip, rates, airspeeds and settings; root and tip chords run backwards in planes y = const, tip to the right of the root",
  "With wakes of a finite length of 10 km that turn with the flow, collisions of vortex ends with points of other surfaces are isolated events; their absence for all angles and panellings is not a matter of samples.",
  [f"{VLM}: gen_lattice, calc_downwash, calc_rhs, solver, calc_results", f"{DW}: vlm_downwash", f"{LAT}: vlm_lattice", f"{RUN}: standard_run"])

p("C153", "Aircraft with wings, tailplanes and fins can be analysed in all flight states",
  "If the input files are in order, the aircraft has the usual layout, fits into a cube of 5 km and nothing is deformed, the run finishes for every flight state, also with sideslip: all induced velocities and forces are finite (coefficients may still be NaN for zero airspeed or density). The usual layout: segments are wings with the tip to the right of the root or unmirrored upright fins with the tip above the root; any two of them are wings side by side, parts of a fin one above the other, a tailplane at the foot or on the top of a fin in the plane of symmetry, or one lies wholly behind or above the other.",
  "for every project with such an aircraft; any sweep, taper, dihedral, twist, camber, control surfaces (also rudders) and deflections, numbers of panels, angles of attack and sideslip, rates, airspeeds and settings",
  "The wake of a fin lies in the plane in which other surfaces are mirrored and its vortices end where the tailplane begins; that none of these coincidences makes a velocity singular, for all panellings and angles, is not a matter of samples.",
  [f"{VLM}: gen_lattice, calc_downwash, calc_rhs, solver, calc_results", f"{DW}: vlm_downwash", f"{LAT}: vlm_lattice", f"{RUN}: standard_run"])

p("C154", "Aircraft from CPACS files with the usual layout can be analysed in all flight states",
  "If the CPACS file and the settings are in order, the imported wings have the usual layout (see C153) and nothing is deformed, the run finishes for every flight state of the state file, or of the aeroperformance map of the CPACS file if the settings say so: all induced velocities and forces are finite.",
  "for every CPACS project with such an aircraft; any control surfaces and deflections, airfoils, numbers of panels, altitudes, Mach numbers, angles of attack and sideslip",
  "Unbounded documents and flight states; finiteness for all angles and panellings is not a matter of samples.",
  [f"{RUN}: standard_run", f"{CA}: load", f"{CS}: load", f"{VLM}: gen_lattice, calc_downwash, calc_rhs, solver, calc_results", f"{DW}: vlm_downwash"])

out = os.path.join(os.path.dirname(os.path.abspath(__file__)), "..", "properties.jsonl")
assert len({x["id"] for x in P}) == len(P)
with open(out, "w") as f:
    for x in P:
        f.write(json.dumps(x, ensure_ascii=False) + "\n")
print(len(P))
