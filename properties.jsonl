{"id": "C01", "title": "Spanwise strips always tile the segment", "statement": "However many division lines and control surfaces are added to a wing segment, in whatever order, the strips of the segment always cover the spanwise range [0, 1] completely and never overlap: every spanwise coordinate in [0, 1) lies in exactly one strip.", "quantifier": "for every finite sequence of add_subdivision / add_subdivision_for_control calls with any real arguments, any pre-existing controls, and any interpolation result for inherited devices", "why_tests_cant": "The set of call sequences and real coordinates is infinite; a gap or overlap may appear only after a particular interleaving of overlapping devices.", "anchors": ["src/lib/pytornado/objects/aircraft.py: WingSegment.__init__", "src/lib/pytornado/objects/aircraft.py: WingSegment.add_subdivision", "src/lib/pytornado/objects/aircraft.py: WingSegment._get_subdiv_at_eta", "src/lib/pytornado/objects/aircraft.py: WingSegment.add_subdivision_for_control"]}
{"id": "C02", "title": "No empty strips; strips are never thinner than the documented minimum", "statement": "Every strip of a segment has strictly positive spanwise width, and no strip is ever narrower than the documented minimum distance of 0.01 between division lines.", "quantifier": "for every sequence of subdivision calls and all real division coordinates", "why_tests_cant": "A thin strip needs a specific order of two close lines; tests sample a few coordinates only.", "anchors": ["src/lib/pytornado/objects/aircraft.py: MIN_ETA_LIMIT", "src/lib/pytornado/objects/aircraft.py: WingSegment.add_subdivision"]}
{"id": "C03", "title": "A refused or repeated division line changes nothing", "statement": "Requesting a division line on an existing border, or less than 0.01 outboard of one, or (when told to ignore invalid values) outside (0, 1), leaves the segment exactly as it was and hands back the strip that starts at that border; an invalid coordinate that is not to be ignored raises ValueError and leaves the segment as it was. Asking twice for the same line is the same as asking once.", "quantifier": "for every segment state reachable by subdivision calls and every real coordinate", "why_tests_cant": "Depends on the complete history of the segment, not only on the call at hand.", "anchors": ["src/lib/pytornado/objects/aircraft.py: WingSegment.add_subdivision"]}
{"id": "C04", "title": "Division lines are chord lines", "statement": "On every strip the leading-edge and trailing-edge spanwise coordinates agree on both borders, so a division line always joins equal spanwise fractions of leading and trailing edge.", "quantifier": "for every history of panelling calls as issued by the pre-panelling step", "why_tests_cant": "Must hold for every aircraft, not for sampled ones.", "anchors": ["src/lib/pytornado/objects/aircraft.py: WingSegment.add_subdivision", "src/lib/pytornado/objects/aircraft.py: WingSegment.add_subdivision_for_control", "src/lib/pytornado/aero/vlm.py: pre_panelling"]}
{"id": "C05", "title": "Slat, main area and flap tile every strip chordwise", "statement": "In each strip the slat (if any), the remaining main area and the flap (if any) join edge to edge: on the inner and on the outer border the slat runs from the leading edge to the point where the main area starts, and the main area runs to the point where the flap starts, which runs to the trailing edge. No chordwise gap or overlap ever appears, also after strips carrying devices are split.", "quantifier": "for every history of control-surface and division-line insertions that finishes without error, any interpolation results", "why_tests_cant": "The interplay of splitting and device insertion has unboundedly many histories.", "anchors": ["src/lib/pytornado/objects/aircraft.py: SegmentStrip._add_subarea", "src/lib/pytornado/objects/aircraft.py: SegmentStrip._update_subarea", "src/lib/pytornado/objects/aircraft.py: StripSubdivision.__init__", "src/lib/pytornado/objects/aircraft.py: WingSegment.add_subdivision"]}
{"id": "C06", "title": "Accepted slats and flaps keep a minimum chordwise distance", "statement": "A slat and a flap on the same strip are only accepted if the slat ends at least 0.01 of the chord in front of the flap on both borders; otherwise ValueError is raised. Hence the main area between them keeps a positive chordwise extent, which stays true when the strip is split, as long as no call raises.", "quantifier": "for every pair of devices, every order of insertion and every later split", "why_tests_cant": "Two device types times two orders times arbitrary real positions and later splits.", "anchors": ["src/lib/pytornado/objects/aircraft.py: MIN_XSI_LIMIT", "src/lib/pytornado/objects/aircraft.py: SegmentStrip._add_subarea", "src/lib/pytornado/objects/aircraft.py: xsi_interpol"]}
{"id": "C07", "title": "A control surface covers exactly its requested spanwise range", "statement": "After inserting a control surface from eta_inner to eta_outer on a segment, the strips carrying that device are exactly those between eta_inner and eta_outer: the device starts at eta_inner and ends at eta_outer (up to the 0.01 snapping distance).", "quantifier": "for every segment history and all eta_inner < eta_outer in [0, 1]", "why_tests_cant": "The failing cases depend on borders left by earlier devices.", "anchors": ["src/lib/pytornado/objects/aircraft.py: WingSegment.add_subdivision_for_control", "src/lib/pytornado/objects/aircraft.py: WingSegment._get_outer_neighbour_subdiv", "src/lib/pytornado/aero/vlm.py: pre_panelling"]}
{"id": "C08", "title": "Interpolated device edges lie on the straight device edge", "statement": "When a device edge crosses a division line, the chordwise position used there is the given inner (outer) position if the line is at the inner (outer) end, and in between it always lies between the inner and outer chordwise positions, for planar convex segments.", "quantifier": "for every planar convex segment, all positions in [0, 1]", "why_tests_cant": "Continuous family of segments; extreme taper and sweep cannot be exhausted.", "anchors": ["src/lib/pytornado/objects/aircraft.py: xsi_interpol", "src/lib/pytornado/objects/aircraft.py: get_abs_segment_point_coords"]}
{"id": "C09", "title": "The requested number of spanwise panels is delivered", "statement": "For a segment without control surfaces the pre-panelling step produces exactly num_s equally wide strips. (It holds for 1 <= num_s <= 100; for larger num_s the 0.01 limit silently drops division lines.)", "quantifier": "for every requested number of spanwise panels", "why_tests_cant": "A test checks a handful of panel counts; the drop starts at 101.", "anchors": ["src/lib/pytornado/aero/vlm.py: pre_panelling", "src/lib/pytornado/objects/aircraft.py: WingSegment.add_subdivision"]}
{"id": "C10", "title": "Automatic spanwise panel numbers are proportionate and sufficient", "statement": "With positive segment spans and a positive autopanel setting each segment without its own panel number receives at least one spanwise panel, and a wing without own panel numbers receives at least the requested number and fewer than the requested number plus the number of segments. User-given panel numbers are never overwritten.", "quantifier": "for every wing with any number of segments of any positive spans, every setting", "why_tests_cant": "Rounding behaviour over arbitrarily many real-valued spans.", "anchors": ["src/lib/pytornado/aero/vlm.py: set_autopanels", "src/lib/pytornado/objects/aircraft.py: Wing.span"]}
{"id": "C11", "title": "Panel bookkeeping partitions the panels", "statement": "The bookkeeping entries list every panel number 0..N-1 exactly once, in increasing order, consecutive entries being contiguous; for each subarea of a symmetric wing there is one entry for the original followed by one equally long entry for its mirror image, and N is the number of panels reported and allocated.", "quantifier": "for every aircraft (any number of wings, strips, subareas, symmetries, panel numbers >= 0)", "why_tests_cant": "Unbounded structure; off-by-one only shows with particular mixes of symmetric and asymmetric wings.", "anchors": ["src/lib/pytornado/aero/vlm.py: gen_lattice", "src/lib/pytornado/objects/vlm_struct.py: VLMLattice.update_bookkeeping"]}
{"id": "C12", "title": "The lattice generator writes every panel exactly once and inside its arrays", "statement": "Given the panel-number table produced by gen_lattice, the native lattice generator writes the data of every panel 0..N-1 exactly once, never writes outside the allocated arrays, and the panels written for one subarea are exactly those its bookkeeping entry names, in chordwise-fastest order.", "quantifier": "for every panel-number table (any number of subareas, any spanwise and chordwise counts)", "why_tests_cant": "Memory safety has to hold for all sizes; a stray write may go unnoticed in a test.", "anchors": ["src/lib/pytornado/aero/c_lattice.cpp: vlm_lattice", "src/lib/pytornado/aero/vlm.py: gen_lattice"]}
{"id": "C13", "title": "The symmetry flag table is never read out of bounds", "statement": "The native lattice generator reads one symmetry flag per subarea (mirror images counted); the table passed by gen_lattice holds one flag per panel. The reads are in bounds for every aircraft and setting the program accepts.", "quantifier": "for every aircraft and every accepted autopanel setting", "why_tests_cant": "The out-of-bounds read needs a setting that ordinary tests do not use and is silent at runtime.", "anchors": ["src/lib/pytornado/aero/c_lattice.cpp: vlm_lattice", "src/lib/pytornado/aero/vlm.py: gen_lattice", "src/lib/pytornado/objects/settings.py: Settings._check_settings_dict"]}
{"id": "C14", "title": "The lattice is watertight and spans the subarea", "statement": "Neighbouring panels of a subarea share their common edge exactly, the outermost panel corners coincide with the four corners of the subarea, and neighbouring subareas (across a division line or a hinge line with equal panel numbers) share their edges.", "quantifier": "for every quadrilateral (also twisted) and all panel counts", "why_tests_cant": "Continuous geometry and arbitrary counts.", "anchors": ["src/lib/pytornado/aero/c_lattice.cpp: vlm_lattice", "src/lib/pytornado/objects/aircraft.py: StripSubdivision.abs_vertices", "src/lib/pytornado/objects/aircraft.py: SegmentStrip.abs_vertices"]}
{"id": "C15", "title": "Bound vortex at quarter chord, collocation point at three quarters", "statement": "For each panel the bound vortex joins the quarter-chord points of the two side edges, its midpoint is the quarter-chord point of the panel centre line and the collocation point is the three-quarter-chord point of that centre line; both trailing vortices leave from the ends of the bound vortex along the free-stream direction.", "quantifier": "for every panel of every lattice", "why_tests_cant": "Universally quantified over geometry.", "anchors": ["src/lib/pytornado/aero/c_lattice.cpp: vlm_lattice"]}
{"id": "C16", "title": "Panel normals are unit vectors perpendicular to the panel", "statement": "For every non-degenerate panel the stored normal has length one; for a planar panel it is perpendicular to all edges and points to the side given by (spanwise edge) x (chordwise edge) reversed consistently for all panels of the subarea.", "quantifier": "for every panel geometry whose defining cross product does not vanish", "why_tests_cant": "Continuous geometry.", "anchors": ["src/lib/pytornado/aero/c_lattice.cpp: vlm_lattice"]}
{"id": "C17", "title": "Reported panel area is the true panel area", "statement": "The panel area stored for each panel is the surface area of the panel (for a parallelogram panel: the length of the cross product of its sides).", "quantifier": "for every planar parallelogram panel, in particular swept ones", "why_tests_cant": "A test with an unswept wing passes; the claim is about all sweep angles.", "anchors": ["src/lib/pytornado/aero/c_lattice.cpp: vlm_lattice", "src/lib/pytornado/objects/vlm_struct.py: VLMLattice"]}
{"id": "C18", "title": "Lattice statistics are consistent", "statement": "The reported minimum, maximum and average panel area and aspect ratio satisfy min <= average <= max, min and max are attained by a panel, and the average is the arithmetic mean over all panels.", "quantifier": "for every non-empty lattice whose panel values lie within the initial extremes used by the code", "why_tests_cant": "Unbounded number of panels; initial values of the running extremes matter.", "anchors": ["src/lib/pytornado/aero/c_lattice.cpp: vlm_lattice"]}
{"id": "C19", "title": "Mirroring a point is an isometric involution that fixes its plane", "statement": "Mirroring twice gives the original point, distances are preserved, and exactly the points of the symmetry plane (1: x-y, 2: x-z, 3: y-z) stay fixed; other symmetry flags raise ValueError.", "quantifier": "for all points and all flags", "why_tests_cant": "Infinite input space.", "anchors": ["src/lib/pytornado/objects/aircraft.py: mirror_point", "src/lib/pytornado/objects/aircraft.py: mirror_vertices", "src/lib/pytornado/objects/aircraft.py: order_mirrored_vertex_points"]}
{"id": "C20", "title": "The mirrored subarea is the exact mirror image", "statement": "The four corners used for the mirrored half of a symmetric wing are, as a set of positions, the mirror images of the four corners of the original subarea, for each symmetry flag and each control surface.", "quantifier": "for every segment, strip, subarea and symmetry flag 1, 2, 3", "why_tests_cant": "Needs all chordwise positions; a full-chord main area hides the error.", "anchors": ["src/lib/pytornado/objects/aircraft.py: StripSubdivision.abs_vertices", "src/lib/pytornado/objects/aircraft.py: SegmentStrip.abs_vertices", "src/lib/pytornado/objects/aircraft.py: order_mirrored_vertex_points"]}
{"id": "C21", "title": "The mirrored hinge line is the exact mirror image", "statement": "The two hinge points used on the mirrored half are the mirror images of the hinge points on the original half.", "quantifier": "for every segment, strip, device and symmetry flag 1, 2, 3", "why_tests_cant": "Same as C20.", "anchors": ["src/lib/pytornado/objects/aircraft.py: StripSubdivision.abs_hinge_vertices"]}
{"id": "C22", "title": "Subarea corners agree with the segment's own coordinate map", "statement": "The corner points of every strip and subarea equal the segment point with the same relative coordinates (eta, xsi) as given by the segment's coordinate map.", "quantifier": "for every segment, strip and subarea", "why_tests_cant": "Continuous family.", "anchors": ["src/lib/pytornado/objects/aircraft.py: SegmentStrip.abs_vertices", "src/lib/pytornado/objects/aircraft.py: StripSubdivision.abs_vertices", "src/lib/pytornado/objects/aircraft.py: get_abs_segment_point_coords"]}
{"id": "C23", "title": "A deformation of one wing half leaves the other half as designed", "statement": "If a deformation field is given only for one half of a symmetric wing, the strips of the other half have exactly the corners of the undeformed wing; likewise a zero deformation field reproduces the undeformed wing.", "quantifier": "for every wing, strip, symmetry flag and deformation field", "why_tests_cant": "Fields are arbitrary functions.", "anchors": ["src/lib/pytornado/objects/aircraft.py: SegmentStrip.abs_vertices", "src/lib/pytornado/objects/aircraft.py: WingSegment.get_deformed_segment_point", "src/lib/pytornado/objects/aircraft.py: Wing.is_deformed"]}
{"id": "C24", "title": "Chordwise camber stations are ordered and inside the subarea", "statement": "The relative chord stations at which the camber slope is taken are strictly increasing and lie strictly between the leading and trailing border of the subarea (midline), one per chordwise panel, at three quarters of each panel.", "quantifier": "for all panel counts and all subareas of positive length", "why_tests_cant": "All counts and positions.", "anchors": ["src/lib/pytornado/objects/aircraft.py: StripSubdivision.get_xsi_for_collocation_points"]}
{"id": "C25", "title": "Solving the system means flow tangency at every collocation point", "statement": "A circulation vector solves the assembled linear system if and only if at every collocation point the total flow (free stream, plus the apparent wind due to the aircraft's rotation about its centre of gravity, plus the flow induced by all horseshoe vortices) has no component along the panel normal.", "quantifier": "for every lattice, flight state and circulation vector", "why_tests_cant": "Statement about all lattices and states; tests compare single numbers.", "anchors": ["src/lib/pytornado/aero/c_downwash.cpp: vlm_downwash", "src/lib/pytornado/aero/c_boundary.cpp: vlm_boundary", "src/lib/pytornado/aero/vlm.py: calc_downwash", "src/lib/pytornado/aero/vlm.py: calc_boundary", "src/lib/pytornado/aero/vlm.py: solver"]}
{"id": "C26", "title": "The induced-velocity kernel is defined whenever a point is off the filament ends", "statement": "With epsilon in the accepted range (0, 1) the denominator of the vortex kernel is strictly positive for every point that differs from both filament ends, also for points on the filament or on its extension.", "quantifier": "for all points, all filaments and all accepted epsilon", "why_tests_cant": "Collinear configurations form a measure-zero set that tests miss.", "anchors": ["src/lib/pytornado/aero/c_downwash.cpp: vlm_downwash", "src/lib/pytornado/aero/c_results.cpp: vlm_results", "src/lib/pytornado/objects/settings.py: Settings._check_settings_dict"]}
{"id": "C27", "title": "The induced-velocity kernel is the Biot-Savart law", "statement": "With epsilon = 0 the kernel equals the textbook Biot-Savart velocity of a straight vortex filament of unit strength for every point off the line through the filament, and for epsilon > 0 it is the same vector scaled by a factor in (0, 1] whenever the two radius vectors enclose less than 90 degrees, and which tends to one with epsilon in general.", "quantifier": "for all points and filaments", "why_tests_cant": "Continuous domain.", "anchors": ["src/lib/pytornado/aero/c_downwash.cpp: vlm_downwash", "src/lib/pytornado/aero/c_results.cpp: vlm_results"]}
{"id": "C28", "title": "The bound vortex induces no velocity on itself", "statement": "At any point on the line through a vortex filament (other than its ends) that filament induces zero velocity; in particular the bound leg of a panel induces nothing at its own midpoint. Reversing a filament reverses the induced velocity.", "quantifier": "for all filaments and points on their line", "why_tests_cant": "Continuous domain.", "anchors": ["src/lib/pytornado/aero/c_downwash.cpp: vlm_downwash", "src/lib/pytornado/aero/c_results.cpp: vlm_results"]}
{"id": "C29", "title": "Panel forces obey Kutta-Joukowski", "statement": "The force on every panel is perpendicular to its bound vortex and to the local velocity at the bound vortex midpoint, is proportional to density and circulation and vanishes with the circulation.", "quantifier": "for every lattice, state and circulation", "why_tests_cant": "Universally quantified.", "anchors": ["src/lib/pytornado/aero/c_results.cpp: vlm_results"]}
{"id": "C30", "title": "Totals are the sums over the panels", "statement": "Total force and moment are the sums of all panel forces and of their moments about the reference point, irrespective of the order of the panels.", "quantifier": "for every number of panels and every panel data", "why_tests_cant": "Unbounded number of panels.", "anchors": ["src/lib/pytornado/aero/c_results.cpp: vlm_results"]}
{"id": "C31", "title": "Moments follow the transfer law", "statement": "Changing only the moment reference point changes the total moment by the cross product of (old reference - new reference) with the total force, and leaves forces unchanged.", "quantifier": "for every lattice, state and pair of reference points", "why_tests_cant": "Universally quantified.", "anchors": ["src/lib/pytornado/aero/c_results.cpp: vlm_results"]}
{"id": "C32", "title": "Wind-axes forces are a pure rotation of body-axes forces", "statement": "The drag, side and lift components have the same Euclidean norm as the body-axis force, the drag is the force component along the free-stream direction, and the transformation is orthogonal for every angle of attack and sideslip.", "quantifier": "for all angles and forces", "why_tests_cant": "Continuous domain; sign errors may hide at beta = 0.", "anchors": ["src/lib/pytornado/aero/c_results.cpp: vlm_coeffs", "src/lib/pytornado/aero/c_vlm.cpp: get_freestream_direction"]}
{"id": "C33", "title": "Python and native code use the same free-stream vector", "statement": "The free-stream velocity vector offered by the Python state object is airspeed times the unit free-stream direction used by the native kernels, for all angles, and has length equal to the airspeed.", "quantifier": "for all alpha, beta (degrees) and airspeeds", "why_tests_cant": "Two independent implementations; agreement needed everywhere.", "anchors": ["src/lib/pytornado/objects/state.py: FlightState.free_stream_velocity_vector", "src/lib/pytornado/aero/c_vlm.cpp: get_freestream_direction"]}
{"id": "C34", "title": "Coefficients are dimensionless loads; zero dynamic pressure is guarded", "statement": "Force coefficients times dynamic pressure times reference area reproduce the forces (moments additionally times reference span, chord, span); at zero dynamic pressure the coefficients are finite.", "quantifier": "for all states with non-zero reference quantities", "why_tests_cant": "Continuous domain plus the degenerate case.", "anchors": ["src/lib/pytornado/aero/c_results.cpp: vlm_coeffs"]}
{"id": "C35", "title": "Pressure coefficient is defined for every accepted state", "statement": "The panel pressure coefficient is never computed by a division by zero for any accepted flight state and non-degenerate panel.", "quantifier": "for every accepted flight state, including zero airspeed or zero density", "why_tests_cant": "The guard exists for the global coefficients only; the case is silent at runtime (inf/nan).", "anchors": ["src/lib/pytornado/aero/c_results.cpp: vlm_results", "src/lib/pytornado/objects/state.py: FlightState.update_from_dict"]}
{"id": "C36", "title": "Coefficients do not depend on density", "statement": "Changing only the density scales all panel forces, total forces and moments proportionally, leaves circulation unchanged and leaves all global coefficients and pressure coefficients unchanged.", "quantifier": "for every lattice and all non-zero densities (the statement on coefficients: for non-zero airspeed, as the coefficients are not normalised at zero airspeed)", "why_tests_cant": "Scaling law over a continuous parameter and the whole pipeline.", "anchors": ["src/lib/pytornado/aero/c_boundary.cpp: vlm_boundary", "src/lib/pytornado/aero/c_results.cpp: vlm_results", "src/lib/pytornado/aero/c_results.cpp: vlm_coeffs"]}
{"id": "C37", "title": "Coefficients do not depend on airspeed", "statement": "Multiplying airspeed and all rotation rates by a positive factor multiplies the circulation by that factor, forces by its square, and leaves all coefficients unchanged.", "quantifier": "for every lattice with a unique solution, all positive factors (the statement on coefficients: for non-zero airspeed and density)", "why_tests_cant": "Scaling law over the whole pipeline.", "anchors": ["src/lib/pytornado/aero/c_boundary.cpp: vlm_boundary", "src/lib/pytornado/aero/c_results.cpp: vlm_results", "src/lib/pytornado/aero/c_results.cpp: vlm_coeffs"]}
{"id": "C38", "title": "Results do not depend on where the aircraft sits", "statement": "Translating all vertices, the centre of gravity and the moment reference point by the same vector changes neither the system matrix nor the right-hand side nor forces, moments and coefficients.", "quantifier": "for every lattice, state and translation", "why_tests_cant": "Continuous group action over the whole pipeline.", "anchors": ["src/lib/pytornado/aero/c_lattice.cpp: vlm_lattice", "src/lib/pytornado/aero/c_downwash.cpp: vlm_downwash", "src/lib/pytornado/aero/c_boundary.cpp: vlm_boundary", "src/lib/pytornado/aero/c_results.cpp: vlm_results"]}
{"id": "C39", "title": "Symmetric aircraft in symmetric flight has no lateral loads", "statement": "If the lattice consists of panels and their x-z mirror images (as generated for symmetry 2), sideslip, roll rate and yaw rate are zero, the centre of gravity and reference point lie in the symmetry plane and the system has a unique solution, then mirrored panels carry equal circulation, and side force, rolling moment and yawing moment vanish exactly.", "quantifier": "for every symmetric lattice of any size and every such state", "why_tests_cant": "A statement about the exact solution of a linear system of any size.", "anchors": ["src/lib/pytornado/aero/c_lattice.cpp: vlm_lattice", "src/lib/pytornado/aero/c_downwash.cpp: vlm_downwash", "src/lib/pytornado/aero/c_boundary.cpp: vlm_boundary", "src/lib/pytornado/aero/c_results.cpp: vlm_results", "src/lib/pytornado/objects/aircraft.py: mirror_point"]}
{"id": "C40", "title": "The mirrored panels generated for symmetry 2 are mirror images", "statement": "For a subarea of an x-z symmetric wing, the lattice generated from the mirrored corners consists of the mirror images of the panels of the original: corners, collocation points, vortex points, areas and normals correspond panel by panel under reversal of the spanwise numbering.", "quantifier": "for every subarea and all panel counts", "why_tests_cant": "Universally quantified over geometry and counts.", "anchors": ["src/lib/pytornado/aero/c_lattice.cpp: vlm_lattice", "src/lib/pytornado/objects/aircraft.py: order_mirrored_vertex_points"]}
{"id": "C41", "title": "Flight-state input combinations are decided exactly as documented", "statement": "A state is accepted only if exactly airspeed+density, airspeed+altitude or mach+altitude are given numerically and all parameters have the same number of values; every other combination raises ValueError (IndexError for an empty dictionary), and documented combinations with alpha and beta, values convertible to numbers and altitudes inside the range of the atmosphere model are accepted.", "quantifier": "for every dictionary of parameters", "why_tests_cant": "All 16 combinations times list lengths times value kinds.", "anchors": ["src/lib/pytornado/objects/state.py: FlightState.update_from_dict"]}
{"id": "C42", "title": "Accepted states have airspeed and density for each entry", "statement": "After acceptance every flight state entry has a numeric airspeed and density: given values are kept unchanged, density computed from altitude, airspeed equal to Mach number times the speed of sound at that altitude.", "quantifier": "for every accepted input and every atmosphere model", "why_tests_cant": "Universally quantified.", "anchors": ["src/lib/pytornado/objects/state.py: FlightState.update_from_dict"]}
{"id": "C43", "title": "Angles outside [-90, 90] degrees are rejected", "statement": "A state whose angle of attack or sideslip lies outside [-90, 90] degrees raises ValueError.", "quantifier": "for every accepted combination and all angle values", "why_tests_cant": "The check exists in the code, so a reader trusts it; whether it ever fires is a statement about all values.", "anchors": ["src/lib/pytornado/objects/state.py: FlightState.check_values"]}
{"id": "C44", "title": "One flight state per entry, in order", "statement": "Iterating over the states yields exactly as many states as values were given, in order, each holding the primary parameters of its own index.", "quantifier": "for every accepted state with the three rates and any number of entries; without a rate the iteration raises TypeError", "why_tests_cant": "Any number of entries.", "anchors": ["src/lib/pytornado/objects/state.py: FlightState.iter_states"]}
{"id": "C45", "title": "Saved states can be loaded again", "statement": "Writing an accepted state to a state file and reading that file back gives the same state.", "quantifier": "for every accepted state", "why_tests_cant": "Round trip over all input combinations; fails for inputs tests do not round-trip.", "anchors": ["src/lib/pytornado/fileio/native/state.py: save", "src/lib/pytornado/fileio/native/state.py: load", "src/lib/pytornado/objects/state.py: FlightState.update_from_dict"]}
{"id": "C46", "title": "Settings validation accepts exactly well-typed settings", "statement": "The template check succeeds if and only if every template key is present with a value of the template type (recursively for nested dictionaries), extra keys are ignored, and the defaults of any template whose defaults are well typed pass the check.", "quantifier": "for every template and every dictionary of any depth", "why_tests_cant": "Recursive structure of unbounded depth.", "anchors": ["src/lib/pytornado/objects/utils.py: check_dict", "src/lib/pytornado/objects/utils.py: get_default_dict"]}
{"id": "C47", "title": "Epsilon outside (0, 1) is rejected", "statement": "Settings with hidden parameter epsilon not strictly between 0 and 1 never pass loading.", "quantifier": "for every settings dictionary", "why_tests_cant": "All values.", "anchors": ["src/lib/pytornado/objects/settings.py: Settings._check_settings_dict"]}
{"id": "C48", "title": "Unspecified settings keep their defaults", "statement": "Every setting that the user leaves out of the settings file has its documented default after loading, also inside the nested groups 'plot' and 'save_results'.", "quantifier": "for every settings dictionary with any subset of keys", "why_tests_cant": "Exponential number of key subsets.", "anchors": ["src/lib/pytornado/objects/settings.py: Settings.update_from_dict", "src/lib/pytornado/objects/utils.py: get_default_dict"]}
{"id": "C49", "title": "Saving settings does not change them", "statement": "Writing the settings to a file leaves the settings in memory unchanged, and the file contains exactly the settings whose key does not start with an underscore, at every level.", "quantifier": "for every settings dictionary", "why_tests_cant": "Recursive structure; in-place mutation is invisible to a test of the file.", "anchors": ["src/lib/pytornado/fileio/native/settings.py: save", "src/lib/pytornado/fileio/native/settings.py: clean_dict"]}
{"id": "C50", "title": "Settings survive a save/load round trip", "statement": "Loading a saved settings file yields the same visible settings, hidden ones being back at their defaults.", "quantifier": "for every valid settings dictionary", "why_tests_cant": "Round trip over all dictionaries.", "anchors": ["src/lib/pytornado/fileio/native/settings.py: save", "src/lib/pytornado/fileio/native/settings.py: load", "src/lib/pytornado/objects/settings.py: Settings.update_from_dict"]}
{"id": "C51", "title": "Component names stay unique and ordered", "statement": "Adding wings (and segments and controls of a wing) never replaces an existing component: a duplicate or empty name raises an error and leaves the model unchanged, otherwise the component is appended at the end; all names are distinct at all times.", "quantifier": "for every sequence of additions", "why_tests_cant": "All histories.", "anchors": ["src/lib/pytornado/objects/aircraft.py: Aircraft.add_wing", "src/lib/pytornado/objects/aircraft.py: Wing.add_segment", "src/lib/pytornado/objects/aircraft.py: Wing.add_control"]}
{"id": "C52", "title": "Control-surface validation", "statement": "A control surface passes its check only if device type is set, its deflections are numbers in [-90, 90], and (on one segment) it has positive spanwise extent; a missing mirror deflection on a symmetric wing becomes equal to the deflection, and an already present value is never changed.", "quantifier": "for every control definition and wing symmetry", "why_tests_cant": "Cross product of many optional fields.", "anchors": ["src/lib/pytornado/objects/aircraft.py: WingControl.check"]}
{"id": "C53", "title": "Spanwise positions of segments are contiguous", "statement": "For a wing whose segments have non-negative spans (not all zero) the relative positions start at 0, each segment starts where the previous one ends, positions are non-decreasing and the last one ends at 1.", "quantifier": "for every number of segments and all spans", "why_tests_cant": "Unbounded number of segments; negative spans break it.", "anchors": ["src/lib/pytornado/objects/aircraft.py: Wing.generate", "src/lib/pytornado/objects/aircraft.py: Wing.span"]}
{"id": "C54", "title": "Aircraft size is the diagonal of a box containing the aircraft", "statement": "The aircraft size is the length of the diagonal of an axis-parallel box that contains the origin, all segment vertices and all their mirror images, and is zero exactly for an aircraft without extent at the origin.", "quantifier": "for every aircraft", "why_tests_cant": "All geometries and symmetries.", "anchors": ["src/lib/pytornado/objects/aircraft.py: Aircraft.size"]}
{"id": "C55", "title": "Wing areas and spans add up", "statement": "Area and span of a wing are the sums over its segments, the aircraft area the sum over its wings; for a planar trapezoidal segment with parallel chords in x-direction the segment area is the area of the quadrilateral.", "quantifier": "for every aircraft", "why_tests_cant": "All geometries.", "anchors": ["src/lib/pytornado/objects/aircraft.py: Aircraft.area", "src/lib/pytornado/objects/aircraft.py: Wing.area", "src/lib/pytornado/objects/aircraft.py: Wing.span", "src/lib/pytornado/objects/aircraft.py: WingSegment.area"]}
{"id": "C56", "title": "Deformation fields reach the right wing half", "statement": "A deformation field named after a wing is assigned to the main half of that wing, a field named after a wing followed by '_m' to the mirrored half of that wing, names starting with '_' are ignored, and nothing else changes.", "quantifier": "for every set of wing names and field names", "why_tests_cant": "Arbitrary names, e.g. names containing '_m' inside.", "anchors": ["src/lib/pytornado/fileio/native/deformation.py: load"]}
{"id": "C57", "title": "Aircraft survive a save/load round trip", "statement": "Saving an aircraft definition and loading the file yields the same definition (names, references, vertices, geometry, panels, controls, airfoils), up to completion of missing mirror deflections.", "quantifier": "for every aircraft definition accepted by the loader", "why_tests_cant": "Arbitrary nested structure.", "anchors": ["src/lib/pytornado/fileio/native/aircraft.py: save", "src/lib/pytornado/fileio/native/aircraft.py: load"]}
{"id": "C58", "title": "Name cleaning", "statement": "Cleaning a name keeps exactly the allowed characters in their order, is idempotent, and never makes the name longer; non-strings raise ValueError.", "quantifier": "for all strings and all sets of extra allowed characters", "why_tests_cant": "All strings.", "anchors": ["src/lib/pytornado/fileio/utils.py: parse_str"]}
{"id": "C59", "title": "A run records one result row per flight state", "statement": "A finished standard run has, for each of the eighteen global quantities, exactly one value per flight state, in the order of the states, each computed from that state; a run without flight states does not finish normally.", "quantifier": "for every number of flight states", "why_tests_cant": "Unbounded number of states; the empty case raises.", "anchors": ["src/lib/pytornado/stdfun/run.py: standard_run", "src/lib/pytornado/objects/state.py: FlightState.iter_states"]}
{"id": "C60", "title": "Component iterators enumerate everything once", "statement": "The iterators over wings, segments, controls, strips and subareas visit every component exactly once in definition order and the counting helpers return their numbers.", "quantifier": "for every aircraft", "why_tests_cant": "Unbounded structure.", "anchors": ["src/lib/pytornado/objects/objecttools.py: all_wings", "src/lib/pytornado/objects/objecttools.py: all_segments", "src/lib/pytornado/objects/objecttools.py: all_controls", "src/lib/pytornado/objects/objecttools.py: all_subdivisions", "src/lib/pytornado/objects/objecttools.py: all_subareas", "src/lib/pytornado/objects/objecttools.py: count_all_subareas"]}
{"id": "C61", "title": "Subareas of a control surface can be listed", "statement": "Listing the subareas of a named control surface yields exactly the subareas belonging to it.", "quantifier": "for every panelled aircraft and control name", "why_tests_cant": "Fails for every aircraft with a strip, yet the function looks right.", "anchors": ["src/lib/pytornado/objects/objecttools.py: all_subareas_of_control"]}
{"id": "C62", "title": "Imported segment corners are re-ordered, never lost", "statement": "The corner re-ordering of the CPACS import always returns a permutation of the four imported corners, leaves already ordered corners alone, and afterwards the leading edge points are not behind the trailing edge points; spanwise order is a further expectation of the importer.", "quantifier": "for every quadruple of points", "why_tests_cant": "Continuous input; interplay of four conditional swaps.", "anchors": ["src/lib/pytornado/fileio/cpacs/aircraft.py: get_aircraft_wing_segments"]}
{"id": "C63", "title": "CPACS performance map: results are written to the right columns", "statement": "Lift, drag, side force and the three moment coefficients are written to the columns cl, cd, cs, cms (pitch), cmd (roll), cml (yaw), one value per flight state, and only these columns change.", "quantifier": "for every number of states and every existing file content", "why_tests_cant": "All contents.", "anchors": ["src/lib/pytornado/fileio/cpacs/results.py: save_aeroperformance_map", "src/lib/pytornado/fileio/cpacs/utils.py: add_vector"]}
{"id": "C64", "title": "Command line: exactly one action", "statement": "For each combination of command line flags at most one of run, convert, make example, list is executed; clean flags without a run file raise an error; clean-only never runs an analysis.", "quantifier": "for every combination of flags", "why_tests_cant": "Cross product of flags (finite, but covered completely by the proof).", "anchors": ["src/bin/_pytornado_exe.py: main"]}
{"id": "C65", "title": "The lattice topology is the same for all flight states of a run", "statement": "In a run over several flight states the subareas and panel numbers are generated once; the panel tables are the same for each state.", "quantifier": "for every number of states", "why_tests_cant": "Unbounded number of states.", "anchors": ["src/lib/pytornado/stdfun/run.py: standard_run", "src/lib/pytornado/aero/vlm.py: gen_lattice"]}
{"id": "C66", "title": "Native and Python mirroring agree", "statement": "The mirrored pass inside the native lattice generator, selected by a symmetry flag, produces exactly the panels which the generator produces from the corner points the Python side delivers for the mirrored half, with the same numbering.", "quantifier": "for every subarea, symmetry plane, panel counts and surrounding table", "why_tests_cant": "Two independent implementations have to agree on all geometries.", "anchors": ["src/lib/pytornado/aero/c_lattice.cpp: vlm_lattice", "src/lib/pytornado/objects/aircraft.py: mirror_point", "src/lib/pytornado/objects/aircraft.py: order_mirrored_vertex_points"]}
{"id": "C67", "title": "A segment can be defined by a reference point and geometry data", "statement": "As documented, a wing segment is generated from at least one vertex as reference point together with complete geometry data (chords, angles, span, sweep, dihedral), or from all four vertices.", "quantifier": "for every set of given vertices and all geometry data", "why_tests_cant": "All combinations of given and missing data with continuous values.", "anchors": ["src/lib/pytornado/objects/aircraft.py: WingSegment.generate", "src/lib/pytornado/objects/aircraft.py: WingSegment.check_vertices"]}
{"id": "C68", "title": "Geometry data of a segment describe its vertices", "statement": "Generating a segment keeps the given vertices and makes chords, span, sweep and section angles agree with them; the documented order of the vertices (leading edge in front) is enforced.", "quantifier": "for every quadruple of vertices and all other data", "why_tests_cant": "Continuous input; trigonometric relations.", "anchors": ["src/lib/pytornado/objects/aircraft.py: WingSegment.generate"]}
{"id": "C69", "title": "Dihedral of a segment is the dihedral of its axis", "statement": "The dihedral angle reported for a generated segment is the angle of the line between the axis points of inner and outer section in the y-z plane.", "quantifier": "for every quadruple of vertices and axis positions", "why_tests_cant": "Continuous input.", "anchors": ["src/lib/pytornado/objects/aircraft.py: WingSegment.generate"]}
{"id": "C70", "title": "Rotated normals stay unit vectors", "statement": "After lattice generation each panel normal has length one, whatever deflections and camber lines are applied.", "quantifier": "for every aircraft, deflection, camber line, flight state, with or without normal rotations", "why_tests_cant": "Continuous inputs; tests compare a few normals at given deflections.", "anchors": ["src/lib/pytornado/aero/vlm.py: gen_lattice (normal rotations)"]}
{"id": "C71", "title": "Each panel normal gets its own rotations, each exactly once", "statement": "The normal of a panel is the normal of the panel's own geometry, turned about the hinge of its own control by the deflection of its own side, then for the slope of the camber line at its own chordwise and spanwise station. No panel is turned twice and none is missed.", "quantifier": "for every panelled aircraft, deflection, camber line and flight state", "why_tests_cant": "Index arithmetic between subareas, panels and stations; unbounded numbers of wings, strips and panels.", "anchors": ["src/lib/pytornado/aero/vlm.py: gen_lattice (normal rotations)", "src/lib/pytornado/objects/aircraft.py: StripSubdivision.get_xsi_for_collocation_points"]}
{"id": "C72", "title": "Deflections act locally", "statement": "Changing deflections never makes lattice generation fail and changes neither panel numbers nor points; normals change only for panels of controls whose deflection changed on that very side of the aircraft.", "quantifier": "for every panelled aircraft and every pair of deflection settings", "why_tests_cant": "Non-interference between components of arbitrary aircraft.", "anchors": ["src/lib/pytornado/aero/vlm.py: gen_lattice (normal rotations)"]}
{"id": "C73", "title": "Without deflection and camber the normal rotations do nothing", "statement": "If each deflection is missing or zero and camber lines have no slope, results with and without the setting for normal rotations are the same, exceptions included.", "quantifier": "for every panelled aircraft and flight state", "why_tests_cant": "Equality of two execution paths for all inputs.", "anchors": ["src/lib/pytornado/aero/vlm.py: gen_lattice (normal rotations)"]}
{"id": "C74", "title": "Symmetric aircraft have symmetric lattices, camber and deflections included", "statement": "If each wing is mirrored in the x-z plane (with equal deflections on both sides) or lies in it, the lattice in flight without sideslip is mapped to itself by the reflection, panel normals included.", "quantifier": "for every aircraft of this kind and angle of attack", "why_tests_cant": "Universal over geometries.", "anchors": ["src/lib/pytornado/aero/vlm.py: gen_lattice", "src/lib/pytornado/objects/aircraft.py: StripSubdivision.abs_camber_line_rot_axis"]}
{"id": "C75", "title": "A deflection turns the surface rigidly about its hinge line", "statement": "The normals of a deflected control surface are those of the panels of the surface turned as a rigid body about its hinge line by the angle of deflection.", "quantifier": "for every control surface, angle and wing without camber", "why_tests_cant": "Continuous geometry and angles.", "anchors": ["src/lib/pytornado/aero/vlm.py: gen_lattice (normal rotations)", "src/lib/pytornado/objects/aircraft.py: StripSubdivision.abs_hinge_axis"]}
{"id": "C76", "title": "Lattice generation is total on panelled aircraft", "statement": "For each aircraft for which panelling succeeded, lattice generation raises no exception.", "quantifier": "for every panelled aircraft with valid symmetry flags, any deflection, deformation, camber and state", "why_tests_cant": "Absence of exceptions for all inputs.", "anchors": ["src/lib/pytornado/aero/vlm.py: gen_lattice"]}
{"id": "C77", "title": "Positive deflection is trailing edge down on both sides", "statement": "On a flat wing without camber a positive deflection below 90 degree tilts the panels of a control so that they fall to the rear, a negative one so that they rise, on the wing and on its x-z mirror image alike.", "quantifier": "for every flat wing, control, strip and angle between -90 and 90 degree", "why_tests_cant": "Sign convention over continuous geometries.", "anchors": ["src/lib/pytornado/aero/vlm.py: gen_lattice (normal rotations)", "src/lib/pytornado/objects/aircraft.py: StripSubdivision.abs_hinge_vertices"]}
{"id": "C78", "title": "Equal deflections of x-y mirrored wings are mirror images", "statement": "On a wing mirrored in the x-y plane (e.g. fins above and below), equal deflections turn the two halves of a control surface to mirror images of each other.", "quantifier": "for every such wing, control and angle", "why_tests_cant": "Continuous geometries and angles.", "anchors": ["src/lib/pytornado/aero/vlm.py: gen_lattice (normal rotations)", "src/lib/pytornado/objects/aircraft.py: StripSubdivision.abs_hinge_vertices"]}
{"id": "C79", "title": "A batch run is the single runs put together", "statement": "A run over several flight states finishes exactly if the run of each state on its own finishes; its table of global results has in each row the values of that single run, so no state influences another.", "quantifier": "for every aircraft and every number of flight states", "why_tests_cant": "State leaking from one analysis to the next shows only for particular combinations of states.", "anchors": ["src/lib/pytornado/stdfun/run.py: standard_run", "src/lib/pytornado/objects/state.py: FlightState.iter_states", "src/lib/pytornado/aero/vlm.py: calc_results"]}
{"id": "C80", "title": "The data returned by a run are those of the last flight state", "statement": "The lattice, matrix, right-hand side, panelwise and global results which a run returns all belong to the last flight state, and to no other.", "quantifier": "for every run over any number of states", "why_tests_cant": "Unbounded number of states and of panels.", "anchors": ["src/lib/pytornado/stdfun/run.py: standard_run", "src/lib/pytornado/aero/vlm.py: calc_downwash", "src/lib/pytornado/aero/vlm.py: calc_boundary", "src/lib/pytornado/aero/vlm.py: solver", "src/lib/pytornado/aero/vlm.py: calc_results"]}
{"id": "C81", "title": "Every result file holds the values of its own flight state", "statement": "The files which a run leaves are exactly those selected in the settings; the files of state i are in the directory numbered i, hold the values computed for state i, and no file of another state overwrites them, for any number of states; the performance map and the CPACS table have one entry per state in order.", "quantifier": "for every run, number of states and selection of result files", "why_tests_cant": "Unbounded number of states; numbers above 999 outgrow the three-digit format.", "anchors": ["src/lib/pytornado/fileio/native/results.py: save_all", "src/lib/pytornado/stdfun/run.py: standard_run", "src/lib/pytornado/objects/settings.py: Settings.generate_paths", "src/lib/pytornado/fileio/cpacs/results.py: save_aeroperformance_map"]}
{"id": "C82", "title": "The circulations of a finished run solve the linear system", "statement": "The circulations which a run returns satisfy the linear system of its matrix and right-hand side, that is, the flow through each panel vanishes.", "quantifier": "for every finished run", "why_tests_cant": "Whether the solver failed cannot be read off the output; depends on the real-valued matrix.", "anchors": ["src/lib/pytornado/aero/vlm.py: solver", "src/lib/pytornado/stdfun/run.py: standard_run"]}
{"id": "C83", "title": "A symmetric aircraft in symmetric flow has no lateral loads", "statement": "A run of an aircraft which is symmetric about the x-z plane, at zero sideslip, roll and yaw rate, reports zero side force, rolling moment and yawing moment.", "quantifier": "for every symmetric aircraft, panel numbers, deflection and angle of attack", "why_tests_cant": "Universal over geometries; involves the whole chain from panelling to the results.", "anchors": ["src/lib/pytornado/stdfun/run.py: standard_run", "src/lib/pytornado/aero/vlm.py: gen_lattice", "src/lib/pytornado/aero/c_results.cpp: vlm_results"]}
{"id": "C84", "title": "Every aircraft listed in the database can be made by its name", "statement": "The names which --list-example-from-db lists are those of the aircraft files in the database; --make-example-from-db with a listed name makes the project of exactly that file, and any other name ends the program without effect.", "quantifier": "for every directory of files and every name", "why_tests_cant": "Unbounded file names (dots, prefixes of each other, hidden files).", "anchors": ["src/lib/pytornado/database/tools.py: list_aircraft_names, get_aircraft_file_path", "src/bin/_pytornado_exe.py: main"]}
{"id": "C85", "title": "CPACS performance maps become one flight state per entry", "statement": "Loading an aeroperformance map from CPACS gives one flight state per entry, with altitude, Mach number, angle of attack and sideslip of that entry, zero rotation rates, and density and airspeed of the standard atmosphere at that altitude and Mach number; maps with missing vectors or vectors of unequal length are rejected.", "quantifier": "for every number of entries and every value", "why_tests_cant": "Unbounded number of entries; real-valued data.", "anchors": ["src/lib/pytornado/fileio/cpacs/state.py: load, _get_aero_dict_from_APM", "src/lib/pytornado/objects/state.py: FlightState.update_from_dict"]}
{"id": "C86", "title": "Control surfaces and deflections of CPACS files are imported faithfully", "statement": "Each control surface of the file appears on its own wing, at its own place and on existing segments, and has the deflections listed for it in the file; other control surfaces are not deflected.", "quantifier": "for every file: any number of wings, sections, devices and listed deflections", "why_tests_cant": "Unbounded structure; the loop over deflections is nested in the loop over wings.", "anchors": ["src/lib/pytornado/fileio/cpacs/aircraft.py: get_aircraft_controls, get_aircraft_wings"]}
{"id": "C87", "title": "Imported segments refer to files with their own airfoils", "statement": "After the import of a CPACS file the airfoil file which a segment refers to exists and holds the coordinates of the airfoil that the CPACS file gives for that segment.", "quantifier": "for every list of airfoils and names", "why_tests_cant": "Unbounded sets of names; names are cleaned and may collide.", "anchors": ["src/lib/pytornado/fileio/cpacs/aircraft.py: get_aircraft_airfoils, write_airfoil_files"]}
{"id": "C88", "title": "A control surface is where it was placed on the wing", "statement": "After pre-panelling, a strip carries a control surface exactly if it lies between the requested inner border (segment and relative coordinate) and the requested outer border; a control may reach over any number of segments. Controls whose segments do not exist or are in the wrong order are rejected.", "quantifier": "for every wing with any number of segments, controls and panel lines", "why_tests_cant": "Unbounded numbers of segments, controls and lines; controls are added one after another and divide each other's strips.", "anchors": ["src/lib/pytornado/aero/vlm.py: pre_panelling", "src/lib/pytornado/objects/aircraft.py: WingSegment.add_subdivision_for_control", "src/lib/pytornado/objects/aircraft.py: WingSegment.add_subdivision"]}
{"id": "C89", "title": "Device edges and hinge lines have no steps", "statement": "Where two strips with the same control surface meet, inside a segment or at the border of two segments, the edge of the device and its hinge line have the same relative chord positions on both sides; at the two ends of the control they are at the requested positions.", "quantifier": "for every wing, control surface, and number of segments and panel lines", "why_tests_cant": "Real-valued positions; unbounded number of divisions, each of which interpolates anew.", "anchors": ["src/lib/pytornado/aero/vlm.py: pre_panelling", "src/lib/pytornado/objects/aircraft.py: WingSegment.add_subdivision_for_control", "src/lib/pytornado/objects/aircraft.py: xsi_interpol"]}
{"id": "C90", "title": "Device edges stay straight however often they are divided", "statement": "On a planar convex segment all corners of panels along the edge of a device, and all points of its hinge line, are on one straight line between the ends of the device on that segment.", "quantifier": "for every planar convex segment, control and set of other controls and panel lines", "why_tests_cant": "Real-valued geometry; errors of repeated interpolation would only show for unusual tapers and sweeps.", "anchors": ["src/lib/pytornado/objects/aircraft.py: xsi_interpol", "src/lib/pytornado/objects/aircraft.py: WingSegment.add_subdivision"]}
{"id": "C91", "title": "Well-formed layouts of control surfaces are accepted", "statement": "Setting automatic panel numbers and pre-panelling succeed, and place every control surface, for every aircraft whose controls do not contradict each other: each lies on existing segments with its inner border inboard of its outer border and edges and hinge lines on the chord, and controls that overlap spanwise are a slat and a flap with at least 1 % of the chord between them.", "quantifier": "for every aircraft: any number of wings, segments, controls and panels", "why_tests_cant": "Unbounded; each added control or line divides strips and re-checks the devices on both halves, so that a late division can refuse what was accepted before.", "anchors": ["src/lib/pytornado/aero/vlm.py: pre_panelling", "src/lib/pytornado/aero/vlm.py: set_autopanels", "src/lib/pytornado/objects/aircraft.py: WingSegment.add_subdivision_for_control", "src/lib/pytornado/objects/aircraft.py: SegmentStrip._add_subarea"]}
{"id": "C92", "title": "An aircraft file is loaded exactly if it is well-formed, and with its own content", "statement": "Loading an aircraft file succeeds exactly if names of wings, and of segments and controls of each wing, are not empty and not repeated, reference values are positive, symmetries are among 0 to 3, each segment has four vertices, geometry data in their ranges, positive panel numbers and existing airfoils, each control is usable, and no wing with segments is without span. The loaded aircraft has the content of the file, entry by entry, in order.", "quantifier": "for every aircraft file: any number of wings, segments and controls", "why_tests_cant": "Unbounded files; all ways in which a file can be wrong.", "anchors": ["src/lib/pytornado/fileio/native/aircraft.py: load", "src/lib/pytornado/objects/aircraft.py: Aircraft.generate", "src/lib/pytornado/objects/aircraft.py: Wing.generate", "src/lib/pytornado/objects/aircraft.py: WingSegment.generate", "src/lib/pytornado/objects/aircraft.py: WingControl.check"]}
{"id": "C93", "title": "When a run finishes, and with which values", "statement": "A run finishes exactly if there is at least one flight state, the aircraft can be panelled, and each flight state has an analysis: all state values are finite, the lattice exists with at least one panel, every panel has finite points and normal, and no collocation point or bound-leg centre meets a vortex end. The values in the table are then those of the only such analysis, whatever the settings for saving files.", "quantifier": "for every aircraft, settings and any number of flight states", "why_tests_cant": "Unbounded; both directions: success and failure over all inputs.", "anchors": ["src/lib/pytornado/stdfun/run.py: standard_run", "src/lib/pytornado/aero/vlm.py: gen_lattice", "src/lib/pytornado/aero/vlm.py: calc_downwash", "src/lib/pytornado/aero/vlm.py: calc_boundary", "src/lib/pytornado/aero/vlm.py: solver", "src/lib/pytornado/aero/vlm.py: calc_results"]}
{"id": "C94", "title": "Runs over scaled flight states scale", "statement": "If every flight state is replaced by one with m times the density and k times the airspeed and the rotation rates (m, k not zero, different for each state), the run still finishes, all forces and moments are m k^2 times the old ones, and all coefficients are the same.", "quantifier": "for every aircraft, any number of flight states, all factors", "why_tests_cant": "Real-valued factors; a whole run including the linear system.", "anchors": ["src/lib/pytornado/stdfun/run.py: standard_run", "src/lib/pytornado/aero/c_downwash.cpp", "src/lib/pytornado/aero/c_boundary.cpp", "src/lib/pytornado/aero/c_results.cpp"]}
{"id": "C95", "title": "Another moment reference point", "statement": "If only the moment reference point of the aircraft is changed, the run still finishes, forces and force coefficients are the same, and the moments change by the cross product of the displacement and the force.", "quantifier": "for every aircraft, any number of flight states, every reference point", "why_tests_cant": "Real-valued; a sign error vanishes for the reference points that tests use.", "anchors": ["src/lib/pytornado/stdfun/run.py: standard_run", "src/lib/pytornado/aero/c_results.cpp", "src/lib/pytornado/aero/c_boundary.cpp"]}
{"id": "C96", "title": "Mirrored flight states of a symmetric aircraft", "statement": "For an aircraft that is symmetric with respect to the xz-plane, reversing sideslip, roll rate and yaw rate of all flight states leaves longitudinal forces, moments and coefficients unchanged and reverses the sign of the lateral ones.", "quantifier": "for every symmetric aircraft and any number of flight states", "why_tests_cant": "Real-valued; a whole run, over both halves of the lattice and the linear system.", "anchors": ["src/lib/pytornado/stdfun/run.py: standard_run", "src/lib/pytornado/aero/vlm.py: gen_lattice", "src/lib/pytornado/aero/c_results.cpp"]}
{"id": "C97", "title": "The place of the aircraft in the coordinate system does not matter", "statement": "If the whole aircraft with its deformation, centre of gravity and moment reference point is moved along the planes of symmetry of its wings, a run finishes if it did before and has the same values of all global quantities.", "quantifier": "for every aircraft, translation and any number of flight states", "why_tests_cant": "Real-valued; includes panelling, mirroring, rotation of normals and the linear system.", "anchors": ["src/lib/pytornado/stdfun/run.py: standard_run", "src/lib/pytornado/aero/vlm.py: gen_lattice", "src/lib/pytornado/objects/aircraft.py: WingSegment", "src/lib/pytornado/aero/c_lattice.cpp", "src/lib/pytornado/aero/c_downwash.cpp", "src/lib/pytornado/aero/c_boundary.cpp", "src/lib/pytornado/aero/c_results.cpp"]}
{"id": "C98", "title": "Which settings files are accepted, and what they mean", "statement": "A settings file is accepted exactly if aircraft (a .json or .xml file) and state are given and all other settings are left out or well-formed: panel numbers are integers, switches are True or False, groups are complete, epsilon is a float between 0 and 1. Settings that are left out have fixed values (4 automatic panels in each direction, nothing saved or plotted, rotations of normals on, epsilon 1e-6). The aircraft is read from CPACS exactly if its file is an XML file; states are read from CPACS exactly if the entry says so and the aircraft is, and RuntimeError is raised for a JSON aircraft.", "quantifier": "for every settings file with any entries", "why_tests_cant": "Unbounded nested dictionaries; all ways in which a file can be wrong.", "anchors": ["src/lib/pytornado/objects/settings.py: Settings.update_from_dict", "src/lib/pytornado/objects/settings.py: Settings._check_settings_dict", "src/lib/pytornado/objects/settings.py: Settings.state_is_cpacs", "src/lib/pytornado/objects/utils.py: check_dict", "src/lib/pytornado/fileio/native/settings.py: load"]}
{"id": "C99", "title": "A project in order is never answered by an exception", "statement": "If the settings, the aircraft file, the state file and the deformation file of a project are well-formed (numbers of panels positive, control surfaces without contradictions on flat segments, at least one segment and one flight state), the program, apart from plots, raises no exception: it finishes, or it meets a value that is not finite in a flight state, the lattice or the analysis.", "quantifier": "for every project: any settings, aircraft, flight states and deformations that are well-formed", "why_tests_cant": "Unbounded; a whole execution from the files to the results.", "anchors": ["src/lib/pytornado/stdfun/run.py: standard_run", "src/lib/pytornado/fileio/native/settings.py: load", "src/lib/pytornado/fileio/native/aircraft.py: load", "src/lib/pytornado/fileio/native/state.py: load", "src/lib/pytornado/fileio/native/deformation.py: load_deformation", "src/lib/pytornado/aero/vlm.py: set_autopanels", "src/lib/pytornado/aero/vlm.py: pre_panelling", "src/lib/pytornado/aero/vlm.py: gen_lattice"]}
{"id": "C100", "title": "A project that is not in order leaves no results", "statement": "If a file of a project is missing or not well-formed - settings, aircraft, flight states, or a deformation of an unknown wing - the program raises an exception and writes no result file.", "quantifier": "for every project and every way in which a file can be wrong", "why_tests_cant": "Absence of an effect over all wrong inputs.", "anchors": ["src/lib/pytornado/stdfun/run.py: standard_run", "src/lib/pytornado/fileio/native/settings.py: load", "src/lib/pytornado/fileio/native/aircraft.py: load", "src/lib/pytornado/fileio/native/state.py: load", "src/lib/pytornado/fileio/native/deformation.py: load_deformation"]}
{"id": "C101", "title": "Results belong to the files of the project", "statement": "If a run finishes, all files are well-formed and the values returned for each flight state of the state file are those of the analysis of the aircraft in the aircraft file: its corners, symmetries, airfoils, control surfaces with their deflections (the mirrored half takes the same deflection if none is given), reference values and deformation fields, with the numbers of panels, the tolerance and the switches of the settings or their documented defaults.", "quantifier": "for every project whose run finishes", "why_tests_cant": "Unbounded; a value from one entry could reach another one for inputs that tests do not have.", "anchors": ["src/lib/pytornado/stdfun/run.py: standard_run", "src/lib/pytornado/fileio/native/settings.py: load", "src/lib/pytornado/fileio/native/aircraft.py: load", "src/lib/pytornado/fileio/native/state.py: load", "src/lib/pytornado/fileio/native/deformation.py: load_deformation", "src/lib/pytornado/objects/settings.py: Settings"]}
{"id": "C102", "title": "A new project can be analysed", "statement": "Setting up a new project without an aircraft file writes a project whose analysis finishes with finite velocities and forces, with one flight state (100 m/s, density 1.225, angle of attack 2 degrees) and a rectangular wing with a flap. With an aircraft file a project is made exactly if the file can be loaded; it analyses the aircraft of the file exactly if no segment is changed by saving it, and the analysis finishes if the aircraft has the usual layout (see C153). A folder that exists is not touched; after any attempt, successful or not, further attempts are refused.", "quantifier": "for every aircraft file below any directories, every state of the disk", "why_tests_cant": "Unbounded aircraft files; absence of an effect on an existing folder; a failing attempt leaves a folder behind.", "anchors": ["src/lib/pytornado/stdfun/setup.py: setup_wkdir", "src/lib/pytornado/fileio/native/aircraft.py: save", "src/lib/pytornado/fileio/native/state.py: save", "src/lib/pytornado/fileio/native/settings.py: save"]}
{"id": "C103", "title": "A saved project is the same project", "statement": "If settings, aircraft and flight states of a project, as loaded, are saved in place of the files they were loaded from, the project can be loaded again and a run gives the same results.", "quantifier": "for every project that loads", "why_tests_cant": "Unbounded; what is lost by saving shows only for inputs that tests do not have.", "anchors": ["src/lib/pytornado/fileio/native/settings.py: save", "src/lib/pytornado/fileio/native/aircraft.py: save", "src/lib/pytornado/fileio/native/state.py: save", "src/lib/pytornado/stdfun/run.py: standard_run"]}
{"id": "C104", "title": "What is saved and plotted does not change the results", "statement": "The name of the project and its settings on saving and plotting have no influence on whether a run finishes, on the lattice, and on the results.", "quantifier": "for every native project and all pairs of settings that differ only in output", "why_tests_cant": "Independence of two executions over all inputs.", "anchors": ["src/lib/pytornado/stdfun/run.py: standard_run", "src/lib/pytornado/objects/settings.py: Settings"]}
{"id": "C105", "title": "A project leaves exactly the files its settings ask for", "statement": "A finished run of a project leaves, for each flight state, exactly the result files that the settings ask for (global.json, panelwise.dat, matrix.dat) in the directory of that state, and the performance map exactly if asked for; each path occurs once, each file holds the data of its state.", "quantifier": "for every native project whose run finishes, any number of flight states", "why_tests_cant": "Unbounded numbers of states; all combinations of settings; absence of other files.", "anchors": ["src/lib/pytornado/stdfun/run.py: standard_run", "src/lib/pytornado/fileio/native/results.py: save_all", "src/lib/pytornado/fileio/native/results.py: save_aeroperformance_map", "src/lib/pytornado/objects/settings.py: Settings.generate_paths"]}
{"id": "C106", "title": "A run that stops early keeps the results it has", "statement": "A run over at least one flight state that does not finish stops at the first flight state that cannot be analysed; it leaves exactly the requested files of the flight states before that one, with their data, and no performance map.  If the run of a project ends in an exception that does not come from a plot, then already at the first flight state: no file has been written.", "quantifier": "for every aircraft or project, any number of flight states, any reason to stop", "why_tests_cant": "Unbounded; partial effects of failing executions.", "anchors": ["src/lib/pytornado/stdfun/run.py: standard_run", "src/lib/pytornado/fileio/native/results.py: save_all"]}
{"id": "C107", "title": "Plots show the whole aircraft", "statement": "The axes of every plot have the same scale in all directions and views: they are laid around the smallest box with the origin and the surfaces of all wings and mirror images, plus five percent of the longest edge.  Everything drawn in a plot of the geometry lies inside the axes.", "quantifier": "for every aircraft: any number of wings and segments, all symmetries; all points of the surfaces", "why_tests_cant": "Unbounded; the extent of the drawing has to follow mirror images of all kinds.", "anchors": ["src/lib/pytornado/plot/plottools.py: _get_limits", "src/lib/pytornado/plot/plottools.py: _scale_plots", "src/lib/pytornado/plot/plottools.py: _scale_fig", "src/lib/pytornado/plot/plottools.py: plot2d3d"]}
{"id": "C108", "title": "The views of a plot agree", "statement": "In every plot of a run the three plane views show exactly the objects of the 3D view as seen along the missing axis, although mirror images are drawn separately for each view.  The plot of the geometry shows every segment, every control surface and hinge line, the mirror image of each, and the centre of gravity, and nothing else.  The plot of the lattice shows the outline of every panel and the centre of gravity, the control surfaces unless a half of a wing is deformed, and nothing else.", "quantifier": "for every aircraft, settings, flow, and lattice", "why_tests_cant": "Unbounded; agreement of separately written branches for three symmetries.", "anchors": ["src/lib/pytornado/plot/plottools.py: _plot_XYZ_points", "src/lib/pytornado/plot/plottools.py: add_wings", "src/lib/pytornado/plot/plottools.py: add_controls", "src/lib/pytornado/plot/plottools.py: add_CG", "src/lib/pytornado/plot/plottools.py: add_lattice", "src/lib/pytornado/plot/plottools.py: add_results", "src/lib/pytornado/plot/makeplots.py: make_all"]}
{"id": "C109", "title": "Plots of results show the results", "statement": "A plot of results contains the direction of the free stream and one patch per panel in the order of the panels.  The points of the patch lie on the panel and include its four corners; the colours of the patches grow with the values: the smallest value has the lowest colour, the largest the highest.", "quantifier": "for every lattice, all results that are finite, every flow with airspeed", "why_tests_cant": "Unbounded; correspondence of two sequences.", "anchors": ["src/lib/pytornado/plot/plottools.py: add_results", "src/lib/pytornado/plot/plottools.py: interpolate_quad", "src/lib/pytornado/plot/plottools.py: add_freestream_vector", "src/lib/pytornado/plot/makeplots.py: plot_results_aircraft"]}
{"id": "C110", "title": "Plotting does not change results", "statement": "If a run with plots finishes then it returns the results and leaves the files of the run without plots.  If it does not finish then it stops as without plots, or in an exception of a plot; then the files it has written are the first ones of those written without plots: those of all flight states up to the one whose plot has failed.  All plots of the states before have been made, and those of this state up to the one that has failed.", "quantifier": "for every project", "why_tests_cant": "Relates two executions for all inputs.", "anchors": ["src/lib/pytornado/stdfun/run.py: standard_run", "src/lib/pytornado/plot/makeplots.py: make_all", "src/lib/pytornado/plot/plottools.py: plot2d3d"]}
{"id": "C111", "title": "A project gets the plots it asks for", "statement": "A project in order is not answered by an exception of a plot: for every flight state exactly the plots named in the settings are made - matrix, geometry, lattice and the results in the given order (without names: pressure coefficients) - each saved and shown as asked for.", "quantifier": "for every project in order with any settings of plots", "why_tests_cant": "Unbounded; a whole execution from the files to the plots.", "anchors": ["src/lib/pytornado/plot/makeplots.py: make_all", "src/lib/pytornado/plot/makeplots.py: plot_geometry_aircraft", "src/lib/pytornado/plot/makeplots.py: plot_lattice_aircraft", "src/lib/pytornado/plot/makeplots.py: plot_results_aircraft", "src/lib/pytornado/plot/downwash.py: view_downwash", "src/lib/pytornado/objects/settings.py: Settings", "src/lib/pytornado/stdfun/run.py: standard_run"]}
{"id": "C112", "title": "Plots show the data of their flight state", "statement": "Each plot of a finished run belongs to a flight state and shows its data: the matrix plot the influence coefficients of this state, the plot of the lattice the panels of this state, a plot of results the named result of this state on its panels, the plot of the geometry the aircraft of the file.", "quantifier": "for every project that is not in CPACS format and every finished run with plots", "why_tests_cant": "Unbounded; whole executions with any number of flight states, in which one result object is used for all states.", "anchors": ["src/lib/pytornado/plot/makeplots.py: make_all", "src/lib/pytornado/plot/downwash.py: view_downwash", "src/lib/pytornado/plot/plottools.py: add_lattice", "src/lib/pytornado/plot/plottools.py: add_results", "src/lib/pytornado/stdfun/run.py: standard_run"]}
{"id": "C113", "title": "A CPACS file becomes the aircraft it describes", "statement": "A CPACS file with a model, wings, airfoils and positive reference values, whose wings can be imported, is loaded exactly if all its airfoils can be read, the directory for them exists and no wing is without span. The aircraft has the name, reference values, wings, segments, corners and airfoils of the file; every airfoil of the file is stored under the path at which the segments look for it, and no other airfoil file changes.", "quantifier": "for every CPACS file, every project directory and all airfoil files there are before", "why_tests_cant": "Unbounded numbers of wings, segments and airfoils; names are arbitrary and are cleaned before they are used as file names, in two different places which have to agree.", "anchors": ["src/lib/pytornado/fileio/cpacs/aircraft.py: load", "src/lib/pytornado/fileio/cpacs/aircraft.py: get_aircraft_refs", "src/lib/pytornado/fileio/cpacs/aircraft.py: write_airfoil_files", "src/lib/pytornado/fileio/cpacs/aircraft.py: get_aircraft_airfoils"]}
{"id": "C114", "title": "Conversion of a CPACS file keeps the aircraft", "statement": "The JSON file made by --cpacs2json loads to the same aircraft as the CPACS file itself. Whatever file can be used in an analysis can be converted, and the airfoil paths in the JSON file are relative, so the project can be moved.", "quantifier": "for every CPACS file and every directory the program is called in", "why_tests_cant": "Unbounded; a statement on the composition of two importers and one exporter.", "anchors": ["src/lib/pytornado/stdfun/setup.py: cpacs2pytornado", "src/lib/pytornado/fileio/cpacs/aircraft.py: load", "src/lib/pytornado/fileio/native/aircraft.py: save", "src/lib/pytornado/fileio/native/aircraft.py: load"]}
{"id": "C115", "title": "Analysis of a converted project gives the results of the CPACS project", "statement": "If the CPACS file of a project is converted and the settings are changed to use the JSON file, the analysis does the same: the same results, the same files, the same exceptions.", "quantifier": "for every project with a CPACS aircraft and every settings file that differs in the aircraft only", "why_tests_cant": "Relates two whole executions of the program; unbounded numbers of panels and flight states.", "anchors": ["src/lib/pytornado/stdfun/setup.py: cpacs2pytornado", "src/lib/pytornado/stdfun/run.py: standard_run", "src/lib/pytornado/fileio/cpacs/state.py: load", "src/lib/pytornado/fileio/native/state.py: load"]}
{"id": "C116", "title": "CPACS projects in order run, others write nothing", "statement": "If settings, CPACS file, flight states and deformations of a CPACS project are in order, the program raises no exception: the run finishes or stops because a value is not finite. If the settings, the CPACS file or the flight states are missing or cannot be used, the program raises an exception and writes no result file.", "quantifier": "for every project with a CPACS aircraft, with flight states from a state file or from the CPACS file", "why_tests_cant": "Absence of exceptions over whole executions for all inputs cannot be tested.", "anchors": ["src/lib/pytornado/stdfun/run.py: standard_run", "src/lib/pytornado/fileio/cpacs/aircraft.py: load", "src/lib/pytornado/fileio/cpacs/state.py: load"]}
{"id": "C117", "title": "Results of a CPACS project belong to its files", "statement": "The results of a finished run of a CPACS project are those of its files: every flight state of the state file, or of the aeroperformance map of the CPACS file if the settings say so, has been analysed, in order, on the wings of the CPACS file with their airfoils, its reference values, and the numbers of panels and tolerances of the settings; the values returned for a flight state are those of its analysis.", "quantifier": "for every project with a CPACS aircraft and every finished run", "why_tests_cant": "Whole executions with unbounded numbers of wings, panels and flight states.", "anchors": ["src/lib/pytornado/stdfun/run.py: standard_run", "src/lib/pytornado/fileio/cpacs/aircraft.py: load", "src/lib/pytornado/fileio/cpacs/state.py: load"]}
{"id": "C118", "title": "Which CPACS files can be imported", "statement": "A CPACS file is imported exactly if it is complete and consistent: names of wings, of segments of a wing and of controls of a wing are not empty (without special characters) and not used twice, every segment names its airfoils and they can be read, every device can be located on the segments, every control is usable with the deflections last listed for it, deflections are listed for controls of the first wing, the first device of each wing is at the trailing edge, reference values are positive and no wing is without span. Every wing of the file then becomes one wing, every segment one segment and every leading or trailing edge device one slat or flap where the device is; nothing else is added.", "quantifier": "for every CPACS file, with any number of wings, segments, devices and listed deflections", "why_tests_cant": "Quantifies over all files; after each wing deflections and checks are repeated for all wings so far, which must not change or reject anything accepted before.", "anchors": ["src/lib/pytornado/fileio/cpacs/aircraft.py: get_aircraft_wings, get_aircraft_wing_segments, get_aircraft_controls, get_aircraft_airfoils"]}
{"id": "C119", "title": "Gaps between segments of a wing are reported", "statement": "When a wing is generated, a warning names every pair of neighbouring segments between which there is a gap, and the wing itself; a wing without gaps, whether its segments are listed from root to tip or from tip to root, gives no warning.", "quantifier": "for every wing, with any number of segments at any places", "why_tests_cant": "The check compares directions of edges and of lines between vertices up to a tolerance, after signs were removed; which gaps this detects can only be told for all positions of the vertices.", "anchors": ["src/lib/pytornado/objects/aircraft.py: Wing.generate"]}
{"id": "C120", "title": "Geometrically similar aircraft have the same coefficients", "statement": "If all lengths of an aircraft and its reference values are multiplied by one factor (another size, or another unit of length) and the rates divided by it, every coefficient of every flight state stays the same; forces change with the square, moments with the cube of the factor.", "quantifier": "for every aircraft, every positive factor and every sequence of flight states", "why_tests_cant": "Whether any length that does not belong to the aircraft enters the results (lengths of trailing legs, tolerances, minimum widths) can only be told by following the factor through the whole calculation.", "anchors": ["src/lib/pytornado/stdfun/run.py: standard_run", "src/lib/pytornado/aero/c_lattice.cpp: vlm_lattice", "src/lib/pytornado/aero/c_downwash.cpp: vlm_downwash", "src/lib/pytornado/aero/c_results.cpp: vlm_results"]}
{"id": "C121", "title": "Native code gets what it expects and stays inside the arrays it is given", "statement": "In every run of an accepted aircraft, each native function finds every attribute and dictionary item that it looks up, with the type that it checks for (so that no call returns silently without doing anything); every element that it reads or writes by index arithmetic lies inside the array; and the arrays and dictionaries contain afterwards exactly the values that belong to each panel in the order in which Python reads them.", "quantifier": "for every aircraft, every settings, every sequence of flight states; at every call of a native function", "why_tests_cant": "A wrong index or array length in C++ corrupts memory only for some numbers of panels and often without visible effect; a refused argument only prints a line and leaves old values. Both have to be excluded for all numbers of wings, subareas and panels.", "anchors": ["src/lib/pytornado/aero/c_vlm.cpp: py2c_lattice, py2c_downwash, py2c_boundary, py2c_results", "src/lib/pytornado/aero/c_lattice.cpp: vlm_lattice", "src/lib/pytornado/aero/c_downwash.cpp: vlm_downwash", "src/lib/pytornado/aero/c_boundary.cpp: vlm_boundary", "src/lib/pytornado/aero/c_results.cpp: vlm_results", "src/lib/pytornado/aero/vlm.py: gen_lattice, calc_downwash, calc_boundary, calc_results"]}
{"id": "C122", "title": "The results on disk belong to the latest run of their settings file", "statement": "However often the program is started in a project folder, with whatever options, and however the user changes input files in between: the program never changes an input file; the result files of a settings file are exactly those that its latest run wrote, with the contents of that run, and runs of other settings files do not touch them; to start the program twice with the same options is the same as to start it once; the order in which different settings files are run does not matter.", "quantifier": "for every project folder and every sequence of changes and starts with any options", "why_tests_cant": "Each start is correct by itself; what mixes results up are sequences of starts with changed settings, other settings files and cleaning in between, of which there are infinitely many.", "anchors": ["src/bin/_pytornado_exe.py: main", "src/lib/pytornado/stdfun/run.py: get_settings, clean_project_dir, standard_run", "src/lib/pytornado/objects/settings.py: generate_paths, clean"]}
{"id": "C123", "title": "Motions superpose", "statement": "For a given aircraft at given angles of attack and sideslip, the circulations are a weighted sum of four fixed distributions, the weights being airspeed, roll rate, pitch rate and yaw rate; every force and every moment is the density times a fixed quadratic form of airspeed and rates, so that the loads of the sum and of the difference of two motions add up to twice the loads of the two motions; whether a run finishes does not depend on airspeeds, densities and rates.", "quantifier": "for every aircraft, every pair of angles, all airspeeds, densities and rates and any number of flight states", "why_tests_cant": "Linearity and quadratic dependence are statements about all combinations of four real numbers at once; a finite set of states cannot tell a quadratic form from another function.", "anchors": ["src/lib/pytornado/aero/vlm.py: calc_boundary, solver, calc_results", "src/lib/pytornado/aero/c_boundary.cpp: vlm_boundary", "src/lib/pytornado/aero/c_results.cpp: vlm_results"]}
{"id": "C124", "title": "The order of the wings does not matter", "statement": "If the wings of an aircraft are given in another order, a run finishes just as well, all forces, moments and coefficients of all flight states are the same, and corresponding panels have the same circulation, induced velocity, force and pressure coefficient.", "quantifier": "for every aircraft with any number of wings, every order of its wings, and all flight states", "why_tests_cant": "There are infinitely many aircraft and n! orders of n wings; the order decides the numbering of panels, hence every index in bookkeeping, influence matrix and sums.", "anchors": ["src/lib/pytornado/objects/objecttools.py: all_subareas", "src/lib/pytornado/aero/vlm.py: set_autopanels, gen_lattice, calc_downwash, solver, calc_results", "src/lib/pytornado/aero/c_lattice.cpp: vlm_lattice", "src/lib/pytornado/aero/c_downwash.cpp: vlm_downwash", "src/lib/pytornado/aero/c_results.cpp: vlm_results"]}
{"id": "C125", "title": "Only the surfaces matter", "statement": "If two aircraft have the same lifting surfaces - the same points and the same numbers of panels, whatever their order, names, sides and grouping into wings - a run finishes for both or for none and all forces, moments and coefficients of all flight states are the same; corresponding panels carry the same force, and circulation and pressure coefficient agree up to the sign that belongs to the side.", "quantifier": "for all pairs of aircraft whose wings without controls and camber have the same surfaces (the other wings being the same), all deformations and all flight states", "why_tests_cant": "The claim relates infinitely many pairs of inputs; the description decides numbering, orientation and mirroring of all panels, so that every sign in lattice, influence matrix, right-hand side, forces and sums takes part.", "anchors": ["src/lib/pytornado/objects/aircraft.py: SegmentStrip.abs_vertices, StripSubdivision.abs_vertices, mirror_vertices, order_mirrored_vertex_points", "src/lib/pytornado/aero/vlm.py: set_autopanels, pre_panelling, gen_lattice, solver", "src/lib/pytornado/aero/c_lattice.cpp: vlm_lattice", "src/lib/pytornado/aero/c_downwash.cpp: vlm_downwash", "src/lib/pytornado/aero/c_boundary.cpp: vlm_boundary", "src/lib/pytornado/aero/c_results.cpp: vlm_results"]}
{"id": "C126", "title": "A symmetry flag and a second wing are the same", "statement": "A symmetric wing without controls and camber may be replaced with two wings without symmetry, the second one with the reflected corner points and the deformation of the mirrored half: a run finishes for both descriptions or for none, and all global results are the same.", "quantifier": "for every aircraft, every symmetric wing of it (planes 1, 2 and 3), every deformation and all flight states", "why_tests_cant": "The mirrored half takes its own path through the code (mirrored points, reordered corners and relative coordinates, entries of the bookkeeping); whether it is equivalent to an explicit wing for all geometries cannot be sampled.", "anchors": ["src/lib/pytornado/objects/aircraft.py: mirror_point, mirror_vertices, order_mirrored_vertex_points, SegmentStrip.abs_vertices, WingSegment.get_deformed_segment_point", "src/lib/pytornado/aero/vlm.py: gen_lattice", "src/lib/pytornado/aero/c_lattice.cpp: vlm_lattice"]}
{"id": "C127", "title": "A segment may be described from either side", "statement": "Exchanging the inner and the outer corner points of any segments of a wing without controls and camber, with at most 100 spanwise panels, changes no global result and does not decide whether a run finishes.", "quantifier": "for every aircraft, all choices of segments of a wing and all flight states", "why_tests_cant": "Infinitely many geometries; the exchange reverses the order of strips, the direction of vortices and normals, hence rows, columns and signs of the system of equations.", "anchors": ["src/lib/pytornado/objects/aircraft.py: WingSegment.add_subdivision, SegmentStrip.abs_vertices", "src/lib/pytornado/aero/vlm.py: pre_panelling, gen_lattice", "src/lib/pytornado/aero/c_lattice.cpp: vlm_lattice", "src/lib/pytornado/aero/c_downwash.cpp: vlm_downwash", "src/lib/pytornado/aero/c_results.cpp: vlm_results"]}
{"id": "C128", "title": "A wing may be cut between segments", "statement": "A wing without controls and camber whose segments have given numbers of panels may be replaced with two wings, the first of which has the first segments and the second the others: a run finishes for both or for none, and all global results are the same.", "quantifier": "for every aircraft, every wing with any number of segments, every place between two segments and all flight states", "why_tests_cant": "Infinitely many aircraft; the cut changes every path in the bookkeeping and the span by which panels are distributed.", "anchors": ["src/lib/pytornado/objects/objecttools.py: all_subareas", "src/lib/pytornado/aero/vlm.py: set_autopanels, pre_panelling, gen_lattice", "src/lib/pytornado/aero/c_lattice.cpp: vlm_lattice"]}
{"id": "C129", "title": "Names do not matter", "statement": "Giving other names to the aircraft, its wings, their segments and controls, consistently in the aircraft file and the deformation file and without making two different names equal, changes nothing: the run of the project raises the same exception after writing the same files, or finishes with the same lattice, the same table of results and the same result files.", "quantifier": "for every project with an aircraft file in the native format, every such renaming and all flight states", "why_tests_cant": "Infinitely many names and aircraft; names are used as keys for finding segments, controls and deflections, as keys of the bookkeeping and, with special characters, to mark mirrored deformation fields.", "anchors": ["src/lib/pytornado/fileio/native/aircraft.py: load", "src/lib/pytornado/fileio/native/deformation.py: load", "src/lib/pytornado/objects/aircraft.py: Wing.add_segment, add_control", "src/lib/pytornado/aero/vlm.py: pre_panelling, gen_lattice", "src/lib/pytornado/objects/objecttools.py: all_subareas"]}
{"id": "C130", "title": "What an aircraft file means", "statement": "The loader accepts the JSON data of an aircraft file exactly if they have the documented entries with the documented types (described entry by entry) and the aircraft they describe is acceptable; the result is then that aircraft. The data describe at most one aircraft. Reference values, corners and deflections may be whole numbers or decimals; positions of controls must have a decimal point.", "quantifier": "for all JSON data, all folders and airfoil databases, and whatever schemadict does with unknown keys and booleans", "why_tests_cant": "Unboundedly many shapes of JSON data; a test looks at a handful of files. That nothing else is accepted is a statement about all data.", "anchors": ["src/lib/pytornado/fileio/native/aircraft.py: load", "src/lib/pytornado/objects/aircraft.py: Wing.add_segment, WingSegment.check_vertices, check_geometry, check_panels, WingControl.check, Aircraft.generate"]}
{"id": "C131", "title": "One fault in an aircraft file raises the fitting exception", "statement": "If an aircraft file that is accepted is changed in one place so that it has one fault, the loader raises the exception fitting this fault: KeyError for a missing entry, ComponentDefinitionError for an empty name or no deflection, ValueError for a name used before, for an unknown kind of control, symmetry or a deflection out of range, TypeError for a name or a deflection of the wrong type, AttributeError for a group which is no object.", "quantifier": "for all accepted files, all places (wing, segment, control) and all faults of these kinds", "why_tests_cant": "Faults can be at any place in files of any size; the order of checks decides about the exception.", "anchors": ["src/lib/pytornado/fileio/native/aircraft.py: load", "src/lib/pytornado/objects/aircraft.py: Aircraft.add_wing, Wing.add_segment, Wing.add_control, WingControl.check"]}
{"id": "C132", "title": "Entries under unknown keys have no effect", "statement": "An additional entry under a key that the program does not use, in the aircraft, a wing, a segment or a control, changes neither the aircraft that is loaded nor the exception that is raised.", "quantifier": "for all JSON data, all places, keys and values", "why_tests_cant": "Infinitely many keys, values and files, including files that are refused.", "anchors": ["src/lib/pytornado/fileio/native/aircraft.py: load"]}
{"id": "C133", "title": "The file that is written can be read", "statement": "The JSON data that the program writes for a loaded aircraft have all entries and types that its loader asks for; reading them again gives the same aircraft exactly if all section chords run backwards and all blade files lie in the directory airfoils.", "quantifier": "for all aircraft files that are accepted", "why_tests_cant": "Unboundedly many aircraft; the types which the loader asks for have to be met by every value the writer produces.", "anchors": ["src/lib/pytornado/fileio/native/aircraft.py: load, save", "src/lib/pytornado/fileio/utils.py: NDArrayEncoder, dump_pretty_json"]}
{"id": "C134", "title": "What a state file means", "statement": "The data in a state file are accepted exactly if they are a JSON object with the one key 'aero', whose value is an object that is a valid set of flight states; every value may be a number, a truth value, a string denoting a number or a list of these. The data have one meaning only. It does not matter in which order the parameters are written, whether one value is written as a list of one, and whether a whole number has a decimal point; also the exceptions are the same. Any other key next to 'aero', a missing 'aero' and data that are no object raise TypeError, 'aero' that is no object AttributeError, an empty object IndexError.", "quantifier": "for all JSON data, all pairs of JSON data that differ in the way of writing only, and all atmosphere models", "why_tests_cant": "JSON data are an infinite family of trees; tests try a few files and never all ways of writing the same states.", "anchors": ["src/lib/pytornado/fileio/native/state.py: load", "src/lib/pytornado/objects/state.py: FlightState.update_from_dict"]}
{"id": "C135", "title": "A run depends only on what the files mean", "statement": "A project is loaded exactly if its aircraft and state files have a meaning that is accepted, and then the whole run is the run of this meaning, with the same results, files and exceptions. If not, an exception is raised and no result file is written.", "quantifier": "for all projects made of arbitrary JSON data, including files that are no valid input", "why_tests_cant": "the claim is about every possible content of the files of a project; tests run a handful of valid projects.", "anchors": ["src/lib/pytornado/stdfun/run.py: standard_run", "src/lib/pytornado/fileio/native/aircraft.py: load", "src/lib/pytornado/fileio/native/state.py: load"]}
{"id": "C136", "title": "The files of a new project can be read", "statement": "The template project as it is written to disk, with whole numbers and null values, is read back as the template aircraft at the default flight state, and its analysis does not end in an exception. A project made from an aircraft file analyses the aircraft of this file exactly if no wing segment is changed by saving; a file that cannot be loaded raises the exception of loading.", "quantifier": "for all JSON data of an aircraft file, all behaviours of the schema package left open by its contract, and all linear solvers of the LAPACK contract", "why_tests_cant": "the round trip through the files of a new project is claimed for every aircraft file; a test creates one project and does not know all versions of the schema package.", "anchors": ["src/lib/pytornado/stdfun/setup.py: setup_wkdir", "src/lib/pytornado/fileio/native/aircraft.py: save", "src/lib/pytornado/fileio/native/state.py: save"]}
{"id": "C137", "title": "Flow along the surfaces causes no loads", "statement": "If all lifting surfaces described by the aircraft file are flat and lie in one plane together with their mirror images, no control is deflected and no airfoil has camber, then every flight state whose flow (free stream and rotation about the centre of gravity) is along this plane has zero forces, moments and coefficients. In particular wings in a horizontal plane at zero angle of attack without roll and pitch rate carry no load at any airspeed, density, sideslip angle and yaw rate.", "quantifier": "for all finished runs, all planes, outlines, numbers of wings, segments, controls and panels, all flight states along the plane, regular or singular systems, and all linear solvers of the LAPACK contract", "why_tests_cant": "the zero result must hold for every outline, panelling and plane, and also where the linear system is singular; a test checks one wing at one state with a tolerance.", "anchors": ["src/lib/pytornado/aero/vlm.py: gen_lattice", "src/lib/pytornado/aero/c_boundary.cpp: vlm_boundary", "src/lib/pytornado/aero/c_results.cpp: vlm_results", "src/lib/pytornado/aero/c_lattice.cpp: vlm_lattice", "src/lib/pytornado/stdfun/run.py: standard_run"]}
{"id": "C138", "title": "Files that describe the same surfaces give the same results", "statement": "Two projects with the same settings and flight states whose aircraft files describe the same lifting surfaces with the same numbers of panels can both be run or none can, and all forces, moments and coefficients are the same. It does not matter at which side a segment of a wing without controls and camber starts, whether a mirror image is requested with the symmetry flag or written as a second wing with reflected corners, how segments are put together to wings, in which order the wings are given and how wings and segments are called. A file rewritten in one of these ways is accepted if the first one is.", "quantifier": "for all well-formed aircraft files, all outlines, symmetry flags, numbers of wings and segments, all positions of a cut, all new names, all settings without deformation, all flight states, and all linear solvers of the LAPACK contract", "why_tests_cant": "two descriptions can be compared for single aircraft only; the order of the unknowns and the side of each panel differ in every rewritten file, and the automatic numbers of panels depend on the widths of all segments of the wing.", "anchors": ["src/lib/pytornado/fileio/native/aircraft.py: load", "src/lib/pytornado/objects/aircraft.py: Wing", "src/lib/pytornado/objects/aircraft.py: WingSegment", "src/lib/pytornado/aero/vlm.py: set_autopanels", "src/lib/pytornado/aero/vlm.py: gen_lattice", "src/lib/pytornado/stdfun/run.py: standard_run"]}
{"id": "C139", "title": "A flat aircraft flies as well upside down", "statement": "If all lifting surfaces described by the aircraft file are flat and lie in one horizontal plane together with their mirror images, no control is deflected and no airfoil has camber, then reversing the signs of all angles of attack, roll rates and pitch rates in the state file leaves the project runnable and, for each flight state, drag, side force, the forces and the moment in the plane and their coefficients unchanged; lift, the force normal to the plane and their coefficients get the opposite sign, and so do rolling and pitching moment about a reference point in the plane. So lift is an odd and drag an even function of the angle of attack.", "quantifier": "for all outlines, symmetry flags, numbers of wings, segments and panels, all heights of the plane, all airspeeds, densities, angles and rates (given as numbers, lists, or Mach number and altitude), all reference values with the centre of gravity in the plane or without roll and pitch rates, and all linear solvers of the LAPACK contract, also if the system is singular", "why_tests_cant": "a test compares two runs of one aircraft at one angle; the exact symmetry of the lift curve for every planform and every state is a statement about all of them.", "anchors": ["src/lib/pytornado/aero/c_lattice.cpp: vlm_lattice", "src/lib/pytornado/aero/c_downwash.cpp: vlm_downwash", "src/lib/pytornado/aero/c_boundary.cpp: vlm_boundary", "src/lib/pytornado/aero/c_results.cpp: vlm_results", "src/lib/pytornado/fileio/native/state.py: load", "src/lib/pytornado/stdfun/run.py: standard_run"]}
{"id": "C140", "title": "Reference values only normalise the results", "statement": "If two aircraft files differ in the reference values (and the name of the aircraft) only, the second project can be run if the first can. All forces are the same; the moments change by the moment of the resulting force about the displaced reference point; force coefficients change with the ratio of the reference areas and, with the same reference point, rolling and yawing moment coefficients with that of area times span, pitching moment coefficients with that of area times chord. The centre of gravity has no influence on any result unless there are rotation rates.", "quantifier": "for all aircraft files, deformations, controls, settings, flight states (also without airspeed), all positive reference areas, spans and chords, all reference points and centres of gravity, and all linear solvers of the LAPACK contract", "why_tests_cant": "a test fixes two sets of reference values for one aircraft; that no other quantity of the analysis depends on them has to hold for every file.", "anchors": ["src/lib/pytornado/fileio/native/aircraft.py: load", "src/lib/pytornado/aero/c_boundary.cpp: vlm_boundary", "src/lib/pytornado/aero/c_results.cpp: vlm_results", "src/lib/pytornado/aero/c_results.cpp: vlm_coeffs", "src/lib/pytornado/stdfun/run.py: standard_run"]}
{"id": "C141", "title": "Symmetric aircraft files give no lateral loads", "statement": "If every wing of the aircraft file is mirrored in the x-z plane, with mirror deflections left out or equal to the deflections, or is an undeflected flat fin in that plane, the reference points are in that plane too, and the deformation file, if there is one, deforms both halves like mirror images, then in every finished run side force, rolling and yawing moment and their coefficients are zero for each flight state given with zero sideslip, roll and yaw rate. Reversing the signs of all sideslip angles, roll and yaw rates in the state file reverses these results and leaves all others as they are; the project can still be run.", "quantifier": "for all aircraft files of that kind with any number of wings, segments and controls, all settings, all state files in any of the documented combinations, and all linear solvers of the LAPACK contract", "why_tests_cant": "a test looks at one aircraft and sees residuals of rounding; that every path from the file through panelling to the loads treats both halves alike has to hold for every file.", "anchors": ["src/lib/pytornado/fileio/native/aircraft.py: load", "src/lib/pytornado/objects/aircraft.py: WingControl.check", "src/lib/pytornado/aero/vlm.py: set_autopanels", "src/lib/pytornado/aero/c_lattice.cpp: vlm_lattice", "src/lib/pytornado/stdfun/run.py: standard_run", "src/lib/pytornado/aero/c_results.cpp: vlm_results"]}
{"id": "C142", "title": "The origin of the coordinates in the files does not matter", "statement": "If all points of the aircraft file (corners of segments, centre of gravity, moment reference point) and the fields of the deformation file are moved by the same vector, which lies in the plane of symmetry of each wing with a symmetry flag, then the moved file is accepted if the first one is, both projects can be run or none, and all forces, moments and coefficients of all flight states are the same.", "quantifier": "for all aircraft files with any wings, segments, controls and airfoils, all deformation files, settings and flight states, all vectors in the planes of symmetry, and all linear solvers of the LAPACK contract", "why_tests_cant": "a test moves one aircraft by one vector; that loading, checks, panelling, controls, deformation and moments use differences of positions only has to hold for every file and every vector.", "anchors": ["src/lib/pytornado/fileio/native/aircraft.py: load", "src/lib/pytornado/fileio/native/deformation.py: load", "src/lib/pytornado/objects/aircraft.py: WingSegment", "src/lib/pytornado/aero/vlm.py: gen_lattice", "src/lib/pytornado/aero/c_boundary.cpp: vlm_boundary", "src/lib/pytornado/aero/c_results.cpp: vlm_results", "src/lib/pytornado/stdfun/run.py: standard_run"]}
{"id": "C143", "title": "Only the flow conditions meant by the state file matter", "statement": "A state file can give airspeed and density, airspeed and altitude, or Mach number and altitude. In a finished run every flight state has exactly one set of flow conditions (airspeed, density, angles, rates). If two projects differ in their state files only, and state i of the second means the angles of the first, k_i times its airspeed and rates and m_i times its density, in whichever way both are given, then the second project can be run as well, all forces and moments of state i are multiplied by m_i k_i^2, and its coefficients are the same unless airspeed or density is zero. If every state of the second file means the flow of some state of the first, in whichever order, number and way, then the second project can be run and states with the same flow conditions have the same results.", "quantifier": "for all accepted state files (with the same number of states where factors other than one are used), all ways of giving them, all factors other than zero, all aircraft files, settings and deformation files, all atmosphere models, and all linear solvers of the LAPACK contract", "why_tests_cant": "tests compare one state given in two ways; which of the given values are used, and that nothing else of the state file reaches the solver, has to hold for every file.", "anchors": ["src/lib/pytornado/objects/state.py: FlightState.update_from_dict", "src/lib/pytornado/fileio/native/state.py: load", "src/lib/pytornado/aero/c_boundary.cpp: vlm_boundary", "src/lib/pytornado/aero/c_results.cpp: vlm_results", "src/lib/pytornado/stdfun/run.py: standard_run"]}
{"id": "C144", "title": "Turning aircraft and flow together turns the loads", "statement": "If all points of the aircraft file (corners, centre of gravity, moment reference point) and the deformation fields are turned by one rotation, and the flight states by the same (same airspeed and density, direction of flow and angular velocity turned), then the second project can be run as well; forces, moments and force coefficients are turned like vectors, drag and drag coefficient are the same and so is the magnitude of the force across the flow. In particular, an aircraft turned about the y-axis in its file, at an angle of attack changed by the same angle, has the same drag, side force, lift and pitching moment and the same coefficients. Mirrored wings can only be turned so that the normal of the plane of symmetry stays on its line. The numbers of spanwise panels must be given, or the widths of the segments in the y-z plane must be unchanged: numbers chosen automatically depend on those widths, so that turning an aircraft can change its mesh.", "quantifier": "for all rotations, all aircraft files (any camber, controls, deflections, deformation), settings and state files, and all linear solvers of the LAPACK contract, in exact arithmetic", "why_tests_cant": "the choice of axes enters every step (camber axis, hinge axis, strips, trailing legs, wind axes); tests try single angles and allow for errors of the size of a wrong sign in a small term.", "anchors": ["src/lib/pytornado/aero/vlm.py: set_autopanels, gen_lattice", "src/lib/pytornado/aero/c_lattice.cpp: vlm_lattice", "src/lib/pytornado/aero/c_boundary.cpp: vlm_boundary", "src/lib/pytornado/aero/c_results.cpp: vlm_results", "src/lib/pytornado/stdfun/run.py: standard_run"]}
{"id": "C145", "title": "A fin entered as a symmetric wing spoils the solution of the whole aircraft, without notice", "statement": "If a wing with symmetry about the x-z plane has a segment in that plane, so that it coincides with its mirror image, nothing reports this: whenever the run finishes, in every flight state the system of equations is singular and all reported forces and coefficients, of the other wings too, are computed from the right-hand side in place of the circulations.", "quantifier": "for every aircraft file with such a segment, any other wings, controls, airfoils, panel numbers, deformation that keeps the symmetry, settings and flight states", "why_tests_cant": "That a matrix of real numbers is singular, for any geometry and number of panels, cannot be found by running cases: rounding makes it almost singular, with results that differ from machine to machine.", "anchors": ["src/lib/pytornado/aero/vlm.py: gen_lattice, calc_downwash, solver", "src/lib/pytornado/aero/c_downwash.cpp: vlm_downwash", "src/lib/pytornado/objects/aircraft.py: WingSegmentSubArea.abs_vertices", "src/lib/pytornado/stdfun/run.py: standard_run"]}
{"id": "C146", "title": "The native code can count the panels", "statement": "A run that succeeds with exact integers of any size also succeeds with the 32-bit integers that the native code uses for its indices, and gives the same table, files and results: no index is computed wrongly, and nothing is read or written outside the arrays, however many panels there are.", "quantifier": "for all aircraft, panel numbers, settings and flight states, at the level of flat arrays and machine integers", "why_tests_cant": "The integers are only exceeded with more than 46340 panels, for which one matrix takes 17 GB; no test can run such a case, nor all the smaller ones.", "anchors": ["src/lib/pytornado/aero/c_downwash.cpp: vlm_downwash", "src/lib/pytornado/aero/c_lattice.cpp: vlm_lattice", "src/lib/pytornado/aero/c_boundary.cpp: vlm_boundary", "src/lib/pytornado/aero/c_results.cpp: vlm_results", "src/lib/pytornado/stdfun/run.py: standard_run"]}
{"id": "C147", "title": "The panels of a segment face the way the segment does", "statement": "Without deflections, camber and deformation, all panel normals of a segment lie on the side to which the segment faces, whatever its taper, sweep, twist, strips and control surfaces. For a plane segment each of them is the segment's normal_vector made a unit vector; on the mirrored side it is the mirror image for the plane xz and the opposite of the image for the planes xy and yz. The main_direction of a segment is perpendicular to its root chord and points from the root to the tip.", "quantifier": "for all aircraft that can be panelled, all corners of segments, panel numbers, symmetry planes and flow directions", "why_tests_cant": "The normals are computed by native code from points on panels; that none of them flips for some taper, sweep, strip or flap is a statement about all shapes.", "anchors": ["src/lib/pytornado/objects/aircraft.py: WingSegment.normal_vector", "src/lib/pytornado/objects/aircraft.py: WingSegment.main_direction", "src/lib/pytornado/aero/c_lattice.cpp: vlm_lattice", "src/lib/pytornado/objects/aircraft.py: StripSubdivision.abs_vertices"]}
{"id": "C148", "title": "Bound vortices lie ahead of their collocation points", "statement": "In every panel of an undeformed segment whose root and tip chord run backwards, the front edge and the bound vortex lie ahead of the collocation point and of the rear edge, on both sides of the wing and for each symmetry plane.", "quantifier": "for all aircraft that can be panelled, all corners of segments, strips, control surfaces, panel numbers, symmetry flags and flow directions", "why_tests_cant": "Whether a panel is the wrong way round depends on two exchanges of corners that can undo each other; results of a reversed panel look plausible.", "anchors": ["src/lib/pytornado/objects/aircraft.py: order_mirrored_vertex_points", "src/lib/pytornado/objects/aircraft.py: StripSubdivision.abs_vertices", "src/lib/pytornado/objects/aircraft.py: SegmentStrip.abs_vertices", "src/lib/pytornado/aero/c_lattice.cpp: vlm_lattice"]}
{"id": "C149", "title": "A surface entered twice spoils the solution of the whole aircraft, without notice", "statement": "If a segment of the aircraft file is there twice, once more with the same corners in the same or another wing, or as the mirror image of a segment of a wing with symmetry about the x-z plane (also: a wing that is given from tip to tip and has symmetry), nothing reports this: whenever the run finishes, in every flight state the system of equations is singular and all reported forces and coefficients are computed from the right-hand side in place of the circulations.", "quantifier": "for every aircraft file with such a pair of segments, with 1 to 100 spanwise panels, on wings without deformation and control surfaces; any other wings, airfoils, settings and flight states", "why_tests_cant": "That a matrix of real numbers is singular, for any geometry and number of panels, cannot be found by running cases: rounding makes it almost singular, with results that differ from machine to machine.", "anchors": ["src/lib/pytornado/aero/vlm.py: gen_lattice, calc_downwash, solver", "src/lib/pytornado/aero/c_downwash.cpp: vlm_downwash", "src/lib/pytornado/objects/aircraft.py: order_mirrored_vertex_points", "src/lib/pytornado/stdfun/run.py: standard_run"]}
{"id": "C150", "title": "The simplest wing lifts and has drag", "statement": "For a wing of one flat panel of any sweep and taper, in straight flight without sideslip, the equation for the circulation has exactly one solution, and the reported lift has the sign of the angle of attack and the reported induced drag is positive. In larger level wings each panel induces a velocity downwards at its own collocation point, so that no diagonal element of the matrix is zero.", "quantifier": "for every aircraft file with such a wing, every trapezium with root and tip chord along x, airspeed, density, angle of attack up to 90 degrees other than zero, and epsilon; the statement on own downwash for all panels of level segments, with strips and control surfaces, on both sides of wings with symmetry xy or xz", "why_tests_cant": "A sign error in one of the three vortex legs, in the boundary condition or in the wind axes shows for certain sweeps, tapers or angles only; the claim is an inequality over all shapes and angles.", "anchors": ["src/lib/pytornado/aero/c_lattice.cpp: vlm_lattice", "src/lib/pytornado/aero/c_downwash.cpp: vlm_downwash", "src/lib/pytornado/aero/c_boundary.cpp: vlm_boundary", "src/lib/pytornado/aero/c_results.cpp: vlm_results", "src/lib/pytornado/stdfun/run.py: standard_run"]}
{"id": "C151", "title": "Wings side by side can always be analysed", "statement": "If the input files are in order, the segments lie side by side seen from above (root and tip chords run backwards in planes y = const, tip to the right of the root, no two segments or mirror images over the same span), nothing is deformed and no flight state has sideslip, the run finishes for every flight state: no end of a vortex ever meets a collocation point or the middle of a bound vortex, no panel degenerates, and all induced velocities and forces are finite (coefficients may still be NaN for zero airspeed or density).", "quantifier": "for every project with such an aircraft; any sweep, taper, dihedral, twist, camber, control surfaces and deflections, numbers of panels, angles of attack, rates, airspeeds and settings", "why_tests_cant": "The induced velocities are singular at points that depend on geometry, panelling and flow direction; that no combination hits one cannot be found by trying combinations.", "anchors": ["src/lib/pytornado/aero/vlm.py: gen_lattice, calc_downwash, calc_rhs, solver, calc_results", "src/lib/pytornado/aero/c_downwash.cpp: vlm_downwash", "src/lib/pytornado/aero/c_lattice.cpp: vlm_lattice", "src/lib/pytornado/stdfun/run.py: standard_run"]}
{"id": "C152", "title": "Wings and tailplanes that do not meet can be analysed in all flight states", "statement": "If the input files are in order, any two segments lie side by side, one behind the other or one above the other (separated by a plane across a coordinate axis; side by side they may touch), the aircraft fits into a cube of 5 km and nothing is deformed, the run finishes for every flight state, also with sideslip: all induced velocities and forces are finite (coefficients may still be NaN for zero airspeed or density).", "quantifier": "for every project with such an aircraft; any sweep, taper, dihedral, twist, camber, control surfaces and deflections, numbers of panels, angles of attack and sideslip, rates, airspeeds and settings; root and tip chords run backwards in planes y = const, tip to the right of the root", "why_tests_cant": "With wakes of a finite length of 10 km that turn with the flow, collisions of vortex ends with points of other surfaces are isolated events; their absence for all angles and panellings is not a matter of samples.", "anchors": ["src/lib/pytornado/aero/vlm.py: gen_lattice, calc_downwash, calc_rhs, solver, calc_results", "src/lib/pytornado/aero/c_downwash.cpp: vlm_downwash", "src/lib/pytornado/aero/c_lattice.cpp: vlm_lattice", "src/lib/pytornado/stdfun/run.py: standard_run"]}
{"id": "C153", "title": "Aircraft with wings, tailplanes and fins can be analysed in all flight states", "statement": "If the input files are in order, the aircraft has the usual layout, fits into a cube of 5 km and nothing is deformed, the run finishes for every flight state, also with sideslip: all induced velocities and forces are finite (coefficients may still be NaN for zero airspeed or density). The usual layout: segments are wings with the tip to the right of the root or unmirrored upright fins with the tip above the root; any two of them are wings side by side, parts of a fin one above the other, a tailplane at the foot or on the top of a fin in the plane of symmetry, or one lies wholly behind or above the other.", "quantifier": "for every project with such an aircraft; any sweep, taper, dihedral, twist, camber, control surfaces (also rudders) and deflections, numbers of panels, angles of attack and sideslip, rates, airspeeds and settings", "why_tests_cant": "The wake of a fin lies in the plane in which other surfaces are mirrored and its vortices end where the tailplane begins; that none of these coincidences makes a velocity singular, for all panellings and angles, is not a matter of samples.", "anchors": ["src/lib/pytornado/aero/vlm.py: gen_lattice, calc_downwash, calc_rhs, solver, calc_results", "src/lib/pytornado/aero/c_downwash.cpp: vlm_downwash", "src/lib/pytornado/aero/c_lattice.cpp: vlm_lattice", "src/lib/pytornado/stdfun/run.py: standard_run"]}
{"id": "C154", "title": "Aircraft from CPACS files with the usual layout can be analysed in all flight states", "statement": "If the CPACS file and the settings are in order, the imported wings have the usual layout (see C153) and nothing is deformed, the run finishes for every flight state of the state file, or of the aeroperformance map of the CPACS file if the settings say so: all induced velocities and forces are finite.", "quantifier": "for every CPACS project with such an aircraft; any control surfaces and deflections, airfoils, numbers of panels, altitudes, Mach numbers, angles of attack and sideslip", "why_tests_cant": "Unbounded documents and flight states; finiteness for all angles and panellings is not a matter of samples.", "anchors": ["src/lib/pytornado/stdfun/run.py: standard_run", "src/lib/pytornado/fileio/cpacs/aircraft.py: load", "src/lib/pytornado/fileio/cpacs/state.py: load", "src/lib/pytornado/aero/vlm.py: gen_lattice, calc_downwash, calc_rhs, solver, calc_results", "src/lib/pytornado/aero/c_downwash.cpp: vlm_downwash"]}
