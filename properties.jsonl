{"id": "C01", "title": "The geometry-to-wind rotation is a proper rotation and the freestream keeps its speed", "statement": "For every angle of attack and sideslip the matrix returned by OperatingPoint.calculate_rotation_matrix_wind_to_geometry is orthogonal with determinant 1; the freestream direction is a unit vector, equal to (cos a cos b, -sin b, sin a cos b); and the freestream velocity in geometry axes has magnitude |V| whatever the angles.", "quantifier": "all real alpha, beta, velocity, density", "why_tests_cant": "A test samples a handful of angle pairs; a sign or transposition error can hide at alpha=0 or beta=0, and orthogonality must hold for the whole two-parameter family.", "anchors": ["pterasoftware/operating_point.py:OperatingPoint.calculate_rotation_matrix_wind_to_geometry", "pterasoftware/operating_point.py:OperatingPoint.calculate_freestream_direction_geometry_axes", "pterasoftware/operating_point.py:OperatingPoint.calculate_freestream_velocity_geometry_axes"]}
{"id": "C02", "title": "Wind-axes results are the geometry-axes results in a frame aligned with the freestream", "statement": "Expressed in wind axes (as the solvers do before reporting), the freestream is exactly (-V, 0, 0); every force and moment keeps its magnitude; the reported induced drag coefficient is the force component along the freestream over q*s_ref; and the lift is the component along a direction orthogonal to the freestream.", "quantifier": "all operating points with V>0 and all force vectors", "why_tests_cant": "The identity couples the sign flips in the rotation matrix, the transpose and the sign of the coefficients for every alpha, beta and force.", "anchors": ["pterasoftware/functions.py:process_steady_solver_forces", "pterasoftware/operating_point.py:OperatingPoint"]}
{"id": "C03", "title": "Panel normal, area and projected area are consistent", "statement": "For every non-degenerate panel the unit normal has length 1 and is orthogonal to both diagonals, the area is non-negative and is the sum of the areas of the two triangles of a planar convex panel; the projected area along a unit direction n is area*|n.normal|, hence never exceeds the area, with equality when n is the normal.", "quantifier": "all quadruples of panel vertices and all unit directions", "why_tests_cant": "Geometric identities over a 12-dimensional input space.", "anchors": ["pterasoftware/panel.py:Panel.area", "pterasoftware/panel.py:Panel.unit_normal", "pterasoftware/panel.py:Panel.calculate_projected_area"]}
{"id": "C04", "title": "Vortex line and collocation point obey the quarter/three-quarter chord rule", "statement": "For every panel the front bound vortex endpoints lie one quarter of the way from the leading to the trailing edge of each side edge, the collocation point is the midpoint of the three-quarter-chord points of the side edges, and these points move rigidly with the panel (translation, reflection with left/right swap).", "quantifier": "all quadruples of panel vertices", "why_tests_cant": "A swapped leg orientation gives the right answer on a symmetric rectangle and a wrong one elsewhere.", "anchors": ["pterasoftware/panel.py:Panel.front_left_vortex_vertex", "pterasoftware/panel.py:Panel.front_right_vortex_vertex", "pterasoftware/panel.py:Panel.collocation_point"]}
{"id": "C05", "title": "Reflection across a plane is the mirror map", "statement": "reflect_point_across_plane is an involution, preserves distances, fixes exactly the points of the plane, and moves every point along the plane normal so that the midpoint of a point and its image lies on the plane.", "quantifier": "all points, all plane points, all unit normals", "why_tests_cant": "An affine 4x4 matrix with 16 hand-written entries; a wrong entry shows only for normals with particular non-zero components.", "anchors": ["pterasoftware/functions.py:reflect_point_across_plane"]}
{"id": "C06", "title": "Angle-axis rotation matrices are proper rotations about the given axis", "statement": "For every angle and every non-zero axis angle_axis_rotation_matrix returns an orthogonal matrix of determinant 1 that fixes the axis, rotations about one axis compose by adding angles, and negating the angle inverts the rotation; the result does not depend on the axis length when the axis is not declared normalized.", "quantifier": "all angles and all non-zero axes", "why_tests_cant": "Nine hand-written entries; the property ranges over a sphere times a circle.", "anchors": ["pterasoftware/functions.py:angle_axis_rotation_matrix"]}
{"id": "C07", "title": "Cosine and uniform spacings are monotone grids with exact end points", "statement": "cosspace(min,max,n) and the uniform spacing have exactly n points, start at min, end at max, increase strictly when min<max, stay inside [min,max], and are symmetric about the midpoint, so no panel is inverted or empty.", "quantifier": "all min<max and all n>=2", "why_tests_cant": "n and the interval are unbounded.", "anchors": ["pterasoftware/functions.py:cosspace", "pterasoftware/meshing.py:mesh_wing"]}
{"id": "C08", "title": "Interpolation between section points is affine with exact end sections", "statement": "interp_between_points returns, for every pair of start/end points and every normalized spacing, the point start + s*(end-start): the array has one row per point and one column per spacing value, s=0 gives the start point, s=1 the end point, and every value in between lies on the segment.", "quantifier": "all point lists of equal length and all spacing lists", "why_tests_cant": "Sizes are unbounded and the row/column roles can be swapped without changing a square test case.", "anchors": ["pterasoftware/functions.py:interp_between_points"]}
{"id": "C09", "title": "A straight vortex segment induces exactly the Biot-Savart velocity", "statement": "For a vortex segment of age zero (or with no age given) and a point off its cut-off region, the induced velocity equals the Biot-Savart integral Gamma/(4 pi) * Int dl x r/|r|^3 along the segment, i.e. the classical Katz & Plotkin closed form.", "quantifier": "all segments, strengths and points outside the cut-off", "why_tests_cant": "The closed form is a rearranged expression whose equality with the integral is a calculus theorem, not something sampled values can settle.", "anchors": ["pterasoftware/aerodynamics.py:collapsed_velocities_from_line_vortices", "pterasoftware/aerodynamics.py:expanded_velocities_from_line_vortices"]}
{"id": "C10", "title": "Collapsed induced velocities are the sums of the expanded ones", "statement": "For line, ring and horseshoe vortices, the velocity at each point returned by the collapsed function equals the sum over vortices of the row returned by the expanded function, for any number of vortices and points, in any order of the vortices; the function for the chordwise segments of rings returns the part of the rings' velocity that is due to their left and right legs. The solver that assembles its matrix from the expanded function and evaluates its velocity with the collapsed one therefore uses one flow field.", "quantifier": "all numbers of vortices and points, strengths, ages, viscosities", "why_tests_cant": "Loops over unbounded lists with accumulators; the two functions are separate copies of the kernel.", "anchors": ["pterasoftware/aerodynamics.py:collapsed_velocities_from_ring_vortices", "pterasoftware/aerodynamics.py:expanded_velocities_from_ring_vortices", "pterasoftware/aerodynamics.py:collapsed_velocities_from_horseshoe_vortices", "pterasoftware/aerodynamics.py:expanded_velocities_from_horseshoe_vortices"]}
{"id": "C11", "title": "Induced velocity is odd in strength and orientation, and linear in strength when the core is absent", "statement": "Reversing a segment or negating its strength negates its velocity at every point; with zero age the velocity is linear in the strengths (superposition), and zero strength induces nothing.", "quantifier": "all segments, points, strengths, ages", "why_tests_cant": "The core size depends on |Gamma|, so linearity holds only on a sub-domain that must be stated exactly.", "anchors": ["pterasoftware/aerodynamics.py:collapsed_velocities_from_line_vortices"]}
{"id": "C12", "title": "Induced velocity is equivariant under rigid motions", "statement": "Translating the vortices and the evaluation points together leaves every velocity unchanged; rotating both rotates it; mirroring both mirrors it with opposite sign (velocity is an axial vector of the vortex line), including inside the cut-off region and for aged cores.", "quantifier": "all rigid motions, segments, points, ages", "why_tests_cant": "Ranges over the whole Euclidean group.", "anchors": ["pterasoftware/aerodynamics.py:collapsed_velocities_from_line_vortices", "pterasoftware/aerodynamics.py:expanded_velocities_from_line_vortices"]}
{"id": "C13", "title": "The kernel never divides by zero and on-line points see no self-velocity", "statement": "Whenever the kernel's main branch runs every denominator is strictly positive, for every non-negative age and viscosity; a point on the line of the segment (in particular each of its end points and its centre) receives exactly zero; a zero-length segment induces nothing.", "quantifier": "all segments, points, strengths, ages>=0, nu>=0", "why_tests_cant": "Absence of division by zero on a continuum.", "anchors": ["pterasoftware/aerodynamics.py:collapsed_velocities_from_line_vortices"]}
{"id": "C14", "title": "A viscous core only attenuates", "statement": "For every segment and point the induced velocity with a positive age is parallel to the age-zero velocity with a factor in [0,1], decreasing in age and in viscosity. Off the cut-off, the factor is h^2/(h^2 + r^2) with h the distance of the point from the line of the segment and r the Lamb-Oseen core radius, r^2 = 4 * 1.25643 * (viscosity + |strength| / 10000) * age.", "quantifier": "all segments, points, strengths and pairs of ages", "why_tests_cant": "Monotonicity over a continuum of ages.", "anchors": ["pterasoftware/aerodynamics.py:collapsed_velocities_from_line_vortices"]}
{"id": "C15", "title": "Ring edges cancel: neighbouring rings of equal strength act as one larger ring, and the trailing ring plus its horseshoe has no trailing-edge filament", "statement": "Two ring vortices of equal strength sharing an edge induce exactly the velocity of the outer six-segment loop at every point, wherever it is; a trailing-edge ring together with the horseshoe of equal strength attached to its back edge induces the velocity of a horseshoe attached at the front edge (back leg and finite leg cancel); a degenerate horseshoe or ring with coincident vertices induces nothing.", "quantifier": "all vertices, strengths (equal), points, equal ages", "why_tests_cant": "Must hold at every field point including those inside the cut-off.", "anchors": ["pterasoftware/aerodynamics.py:expanded_velocities_from_ring_vortices", "pterasoftware/steady_ring_vortex_lattice_method.py:SteadyRingVortexLatticeMethodSolver.initialize_panel_vortices"]}
{"id": "C16", "title": "Vortex objects stay consistent under any history of updates", "statement": "After any sequence of update_strength and update_position calls a RingVortex has four legs joined head to tail through its four vertices, all with the vortex's current strength, centre at the centroid of the current vertices, and an age changed by neither call; a HorseshoeVortex has three legs joined head to tail with its strength on every leg and two parallel semi-infinite legs of the given length.", "quantifier": "all histories of update calls", "why_tests_cant": "Histories are unbounded.", "anchors": ["pterasoftware/aerodynamics.py:RingVortex", "pterasoftware/aerodynamics.py:HorseshoeVortex", "pterasoftware/aerodynamics.py:LineVortex"]}
{"id": "C17", "title": "Wing construction accepts exactly the documented wings", "statement": "Wing(...) raises Exception unless there are at least two cross sections, the spacing name is valid, the root's leading edge is at the wing origin, the wing's plane normal equals the root's, the chordwise vector is orthogonal to the normal and every section's normal is compatible, and otherwise succeeds iff it has a chordwise panel, the sections' airfoils can be given their control surfaces and, on a symmetric wing, every section has a spanwise panel; WingCrossSection raises exactly on non-positive chord or an unknown spacing/control-surface name; Airplane raises exactly when it has no wings; add_control_surface raises its documented Exception exactly when |deflection|>90.", "quantifier": "all argument combinations", "why_tests_cant": "Decision logic over all argument combinations including their order.", "anchors": ["pterasoftware/geometry.py:Wing.__init__", "pterasoftware/geometry.py:WingCrossSection.__init__", "pterasoftware/geometry.py:Airplane.__init__"]}
{"id": "C18", "title": "Panel counts agree with the mesh", "statement": "After construction wing.panels has exactly num_chordwise_panels rows and num_spanwise_panels columns, num_spanwise_panels is the sum over all but the tip section (doubled when symmetric), num_panels is their product, and the airplane's and the solver's num_panels are the sums; every flattened solver array therefore has exactly one slot per panel.", "quantifier": "all wings, any number of sections and panels", "why_tests_cant": "Unbounded counts and stacking order.", "anchors": ["pterasoftware/meshing.py:mesh_wing", "pterasoftware/geometry.py:Wing.__init__", "pterasoftware/geometry.py:Airplane.__init__"]}
{"id": "C19", "title": "Edge flags and local indices are exact", "statement": "Exactly the panels of the first row are leading edge, exactly those of the last row trailing edge, exactly those of the first (last) column left (right) edge; every panel's local chordwise/spanwise position is its index in wing.panels, also for symmetric wings, so neighbour lookups in the solvers never leave the array.", "quantifier": "all wings, all panels", "why_tests_cant": "Flags are set by section before stacking and mirroring; the composition must hold for any section count.", "anchors": ["pterasoftware/meshing.py:mesh_wing", "pterasoftware/meshing.py:get_wing_section_panels"]}
{"id": "C20", "title": "The surface mesh is watertight", "statement": "Horizontally and vertically adjacent panels share their common vertices exactly: within one wing section always, across section borders when the sections' control-surface deflections agree, and across the symmetry plane for symmetric control surfaces.", "quantifier": "all wings, all adjacent panel pairs", "why_tests_cant": "Sizes unbounded; the claim is false in general for differing deflections (negation proved with a witness).", "anchors": ["pterasoftware/meshing.py:mesh_wing", "pterasoftware/meshing.py:get_wing_section_panel_vertices"]}
{"id": "C21", "title": "A symmetric wing is meshed as a mirror image", "statement": "For a symmetric wing the panel in column j and the one in the mirrored column are mirror images in the symmetry plane with left and right exchanged and equal row flags (when no asymmetric control surface is deflected); in general the left half is the mirror image of the right half of the wing whose asymmetric control surfaces are deflected the other way.", "quantifier": "all symmetric wings, all columns", "why_tests_cant": "Composition of reflection, flip and stacking for any size.", "anchors": ["pterasoftware/meshing.py:mesh_wing"]}
{"id": "C22", "title": "Cross-section and wing frames are orthonormal", "statement": "Whenever a wing is accepted with unit chordwise and normal vectors, its (chordwise, normal, up) triad and each section's triad after twist are right-handed orthonormal, a section's trailing edge is chord away from its leading edge, and twisting never changes chord or span direction.", "quantifier": "all accepted wings, all twists", "why_tests_cant": "Continuum of twists and frames.", "anchors": ["pterasoftware/geometry.py:WingCrossSection.unit_chordwise_vector", "pterasoftware/geometry.py:WingCrossSection.unit_up_vector", "pterasoftware/geometry.py:Wing.unit_up_vector"]}
{"id": "C23", "title": "Mean aerodynamic chord, span and areas are consistent", "statement": "On every accepted wing without twist and deflections, whose airfoils run from (0,0) to (1,0) without turning forwards, the projected area is the planform's trapezoidal area, whatever the numbers of panels, spacings and camber; so the mean aerodynamic chord lies between the smallest and the largest section chord, equals the chord of a rectangular wing and is at least the standard mean chord. Mirroring a wing with symmetric control surfaces doubles area and span and keeps both mean chords, whatever twist and camber. Wetted area is at least the projected area. (With twist the mean aerodynamic chord leaves the range of the chords: proved.)", "quantifier": "all accepted wings, numbers of sections and panels, spacings, chord and span distributions", "why_tests_cant": "Inequality over unbounded section lists.", "anchors": ["pterasoftware/geometry.py:Wing.mean_aerodynamic_chord", "pterasoftware/geometry.py:Wing.projected_area", "pterasoftware/geometry.py:Wing.span", "pterasoftware/geometry.py:Wing.standard_mean_chord", "pterasoftware/geometry.py:Wing.wetted_area"]}
{"id": "C24", "title": "NACA four-digit airfoils are closed correctly shaped outlines", "statement": "For every accepted four-digit name the camber line is continuous with continuous slope at the maximum-camber point, vanishes at both ends and peaks at m; a 00xx airfoil is symmetric about the chord; the outline runs upper surface trailing edge -> leading edge -> lower surface trailing edge with 199 points; and the leading edge belongs to both surfaces once. An outline is accepted exactly if its two sides, divided at the first of its foremost points, have equally many points or one is the nose alone; its camber line lies half way between the sides and its thickness is the distance between them. (The outlines of cambered names reach in front of x = 0 and are rejected unless they are repanelled first.)", "quantifier": "all digit strings, all chord fractions, all outlines", "why_tests_cant": "10^4 names times a continuum of positions.", "anchors": ["pterasoftware/geometry.py:Airfoil.populate_coordinates", "pterasoftware/geometry.py:Airfoil.populate_mcl_coordinates"]}
{"id": "C25", "title": "Control-surface deflection is a rigid rotation behind the hinge", "statement": "add_control_surface with zero deflection returns the same mean camber line and surfaces; for any deflection in [-90,90] points in front of the hinge are unchanged, points behind it are rotated rigidly about the hinge camber point (distances kept), a positive deflection moves a point straight behind the hinge downward, the point count is unchanged, and out-of-range deflections raise.", "quantifier": "all airfoils, hinge points, deflections", "why_tests_cant": "Continuum of deflections and arbitrary outlines.", "anchors": ["pterasoftware/geometry.py:Airfoil.add_control_surface"]}
{"id": "C26", "title": "Oscillation generators start at the base value, stay within amplitude and repeat", "statement": "oscillating_sinspace, oscillating_linspace and (for bounded custom functions) oscillating_customspace return exactly num_steps values, value i depends only on i*delta_time, starts at the base value (sine and linear), stays within amplitude of the base, repeats after one period, and is constant when amplitude or period is zero.", "quantifier": "all amplitudes, periods, bases, step counts and time steps", "why_tests_cant": "Unbounded step counts and continuum of parameters.", "anchors": ["pterasoftware/movement.py:oscillating_sinspace", "pterasoftware/movement.py:oscillating_linspace", "pterasoftware/movement.py:oscillating_customspace"]}
{"id": "C27", "title": "Movement argument validation and run length", "statement": "For airplanes whose wing movements move accepted wings with documented spacings and an unmoved root, positive speed and reference chords, non-negative periods and positive counts and time steps, Movement raises exactly when num_cycles is combined with num_steps or static motion, or num_chords with num_steps or non-static motion; otherwise an unspecified num_steps is the least integer whose duration covers the requested number of cycles (default 3) of the slowest motion (or chord lengths, default 10, travelled for static motion), and an unspecified time step is the average over the airplanes of the time the freestream needs to pass one chordwise panel of the main wing. For other airplanes the same conflicts raise, and otherwise only the generation of the airplanes and operating points of the steps can.", "quantifier": "all argument combinations, periods, velocities, chords", "why_tests_cant": "Decision table times a continuum.", "anchors": ["pterasoftware/movement.py:Movement.__init__"]}
{"id": "C28", "title": "The maximum period is the maximum over every moving part", "statement": "Movement.get_max_period is an upper bound of every period in every cross-section, wing, airplane and operating-point movement, is attained (or 0 when nothing moves), and is zero iff everything is static.", "quantifier": "all movement trees of any width", "why_tests_cant": "Nested maxima over unbounded trees.", "anchors": ["pterasoftware/movement.py:Movement.get_max_period", "pterasoftware/movement.py:AirplaneMovement.get_max_period", "pterasoftware/movement.py:WingMovement.get_max_period", "pterasoftware/movement.py:WingCrossSectionMovement.get_max_period", "pterasoftware/movement.py:OperatingPointMovement.get_max_period"]}
{"id": "C29", "title": "A motionless movement reproduces the base geometry", "statement": "With all amplitudes zero every generated time step's cross sections have the base leading-edge positions, chords, airfoils and twists, and every airplane and operating point has the base attributes. (False of the code in general: positions are recovered from two arctangents that are wrong when both dx and dz are non-zero or dy<0, and several attributes are not copied; the true part is proved and the failures are proved as negations.)", "quantifier": "all base geometries", "why_tests_cant": "The claim fails only on part of the input space, which must be delimited exactly.", "anchors": ["pterasoftware/movement.py:WingMovement.generate_wings", "pterasoftware/movement.py:WingCrossSectionMovement.generate_wing_cross_sections", "pterasoftware/movement.py:AirplaneMovement.generate_airplanes", "pterasoftware/movement.py:OperatingPointMovement.generate_operating_points"]}
{"id": "C30", "title": "Sweeping and heaving keep the span of every section", "statement": "For every non-vertical section and every step, the distance between a section's leading edge and its inner neighbour's equals the base distance, whatever the sweep and heave angles, so flapping is rigid section by section and the chord never changes.", "quantifier": "all amplitudes, periods, spacings, steps, sections", "why_tests_cant": "Continuum of angles and unbounded section lists.", "anchors": ["pterasoftware/movement.py:WingCrossSectionMovement.generate_wing_cross_sections"]}
{"id": "C31", "title": "Time steps stay aligned across airplanes and operating points", "statement": "UnsteadyProblem has exactly num_steps steady problems; the one at step k holds exactly the k-th snapshot of each airplane in order and the k-th operating point; generated snapshot lists all have length num_steps.", "quantifier": "all numbers of airplanes, wings, sections and steps", "why_tests_cant": "Nested list transpositions of unbounded size.", "anchors": ["pterasoftware/problems.py:UnsteadyProblem.__init__", "pterasoftware/movement.py:Movement.__init__", "pterasoftware/movement.py:AirplaneMovement.generate_airplanes"]}
{"id": "C32", "title": "The averaging window is exactly the last cycle and always has computed results", "statement": "For a static problem only the last step is used; otherwise the window starts at the step whose distance to the end covers one maximum period (or at 0 if the run is shorter), is never empty, never starts before 0, and every step in it has computed loads because results start at or before it.", "quantifier": "all num_steps>0, delta_time>0, max_period>=0, both values of only_final_results", "why_tests_cant": "Floor of a real quotient for all values.", "anchors": ["pterasoftware/problems.py:UnsteadyProblem.__init__", "pterasoftware/unsteady_ring_vortex_lattice_method.py:UnsteadyRingVortexLatticeMethodSolver.finalize_near_field_forces_and_moments"]}
{"id": "C33", "title": "Steady solutions satisfy the no-penetration condition", "statement": "After either steady solver runs, the total velocity it reports (calculate_solution_velocity) at every panel's collocation point is orthogonal to that panel's normal, for any number of airplanes, wings and panels, whenever the linear system is non-singular.", "quantifier": "all steady problems with a non-singular influence matrix", "why_tests_cant": "Joins the influence assembly, the linear solve, strength write-back and the velocity evaluation for every geometry.", "anchors": ["pterasoftware/steady_horseshoe_vortex_lattice_method.py", "pterasoftware/steady_ring_vortex_lattice_method.py"]}
{"id": "C34", "title": "Solving again gives the same answer", "statement": "Running a solver a second time on the same object yields the same strengths, loads and array sizes. (True of the horseshoe solver's strengths; false of the steady ring solver, which reuses the previous strengths as the unit strengths, and of the seed points and result lists, which are appended again.)", "quantifier": "all problems, any number of reruns", "why_tests_cant": "Depends on hidden state carried between runs.", "anchors": ["pterasoftware/steady_ring_vortex_lattice_method.py:SteadyRingVortexLatticeMethodSolver.run", "pterasoftware/steady_horseshoe_vortex_lattice_method.py:SteadyHorseshoeVortexLatticeMethodSolver.run"]}
{"id": "C35", "title": "Bound-vortex forces obey Kutta-Joukowski", "statement": "In every solver the force on a bound segment is density*strength*(velocity x segment): orthogonal to the local velocity and the segment, zero for zero strength, doubling with density; the moment is (segment centre - reference point) x force, so moving the reference point by d changes each moment by -(d x F).", "quantifier": "all panels, strengths, velocities, reference points", "why_tests_cant": "Identities over continuous inputs.", "anchors": ["pterasoftware/steady_horseshoe_vortex_lattice_method.py:SteadyHorseshoeVortexLatticeMethodSolver.calculate_near_field_forces_and_moments", "pterasoftware/steady_ring_vortex_lattice_method.py:SteadyRingVortexLatticeMethodSolver.calculate_near_field_forces_and_moments"]}
{"id": "C36", "title": "Each bound filament is loaded once", "statement": "In the ring solvers the total force is the sum over distinct bound filaments of density*net strength*(velocity x filament). (False of the code: interior chordwise filaments are loaded twice, once as a right leg and once as the neighbour's left leg; front filaments and wing-tip filaments once. The exact multiplicities and the negation are proved for both ring solvers.)", "quantifier": "all wings with any number of panels", "why_tests_cant": "The multiplicity depends on position in an arbitrary grid.", "anchors": ["pterasoftware/steady_ring_vortex_lattice_method.py:SteadyRingVortexLatticeMethodSolver.calculate_near_field_forces_and_moments", "pterasoftware/unsteady_ring_vortex_lattice_method.py:UnsteadyRingVortexLatticeMethodSolver.calculate_near_field_forces_and_moments"]}
{"id": "C37", "title": "Airplane totals are the sums of the panel loads", "statement": "Each airplane's total force (moment) in geometry axes is the sum of its own panels' forces (moments) and of no other airplane's; the wind-axes total is the rotated sum and equals the sum of the rotated panel loads; coefficients are the totals divided by q*s_ref (and b_ref, c_ref, b_ref for moments); panel coefficients weighted by panel area sum to s_ref times the airplane coefficient.", "quantifier": "all numbers of airplanes, wings, panels", "why_tests_cant": "Offsets into flattened arrays for arbitrary counts.", "anchors": ["pterasoftware/functions.py:process_steady_solver_forces", "pterasoftware/functions.py:process_unsteady_solver_forces", "pterasoftware/panel.py:Panel.update_coefficients"]}
{"id": "C38", "title": "Flattened solver arrays are aligned with panels", "statement": "The entry of every flattened solver array at a panel's global index belongs to that panel, the global index enumerates airplanes, wings and panels in order without gaps or overlaps, and the strengths returned by the linear solve are written back to the same panel's vortices.", "quantifier": "all nesting shapes", "why_tests_cant": "Counter bookkeeping over nested loops of arbitrary shape.", "anchors": ["pterasoftware/functions.py:update_ring_vortex_solvers_panel_attributes", "pterasoftware/steady_ring_vortex_lattice_method.py:SteadyRingVortexLatticeMethodSolver.collapse_geometry"]}
{"id": "C39", "title": "Bound vortices lie on the wing without gaps and trail along the freestream", "statement": "After initialization each bound ring's back edge is the front edge of the ring behind it and neighbouring rings share their side edge when the panels share theirs; the trailing row extends past the trailing edge by the panel's own vector (steady) or by a quarter of the distance travelled in one time step (unsteady). The horseshoes of the steady horseshoe solver have their bound leg on the panel's quarter chord; those behind the trailing edge of the steady ring solver cancel the back edge of the last rings; both trail 20 spans along the freestream.", "quantifier": "all wings and freestreams", "why_tests_cant": "Neighbour relations for arbitrary grids.", "anchors": ["pterasoftware/steady_ring_vortex_lattice_method.py:SteadyRingVortexLatticeMethodSolver.initialize_panel_vortices", "pterasoftware/unsteady_ring_vortex_lattice_method.py:UnsteadyRingVortexLatticeMethodSolver.initialize_panel_vortices", "pterasoftware/steady_horseshoe_vortex_lattice_method.py:SteadyHorseshoeVortexLatticeMethodSolver.initialize_panel_vortices"]}
{"id": "C40", "title": "The wake grows by exactly one row per time step and fills its preallocated arrays", "statement": "At step k every wing's wake has exactly k rows of rings (k+1 rows of vertices for k>0) and num_spanwise_panels columns, so that the number of wake rings visited at step k equals the size of the arrays preallocated for it: no write is out of bounds and no slot stays zero.", "quantifier": "all numbers of steps, airplanes, wings, panels", "why_tests_cant": "Induction over time steps.", "anchors": ["pterasoftware/unsteady_ring_vortex_lattice_method.py:UnsteadyRingVortexLatticeMethodSolver.run", "pterasoftware/unsteady_ring_vortex_lattice_method.py:UnsteadyRingVortexLatticeMethodSolver.populate_next_airplanes_wake"]}
{"id": "C41", "title": "Shed circulation is conserved (Kelvin/Helmholtz)", "statement": "The strength of the wake ring in row r at step k is the strength the trailing-edge ring in the same column had when it was shed, k-1-r steps into the run, and never changes afterwards.", "quantifier": "all runs, all rows and columns, prescribed or free wake", "why_tests_cant": "Invariant over the whole run history.", "anchors": ["pterasoftware/unsteady_ring_vortex_lattice_method.py:UnsteadyRingVortexLatticeMethodSolver.populate_next_airplanes_wake_vortices"]}
{"id": "C42", "title": "Wake ages count time since shedding", "statement": "The wake ring in row r at step k has age r*delta_time, so viscous cores grow with distance from the trailing edge.", "quantifier": "all runs, rows and columns", "why_tests_cant": "Invariant over the whole run history; aliasing of ring objects between steps could double count.", "anchors": ["pterasoftware/unsteady_ring_vortex_lattice_method.py:UnsteadyRingVortexLatticeMethodSolver.populate_next_airplanes_wake_vortices"]}
{"id": "C43", "title": "The wake is attached, connected and convected with the flow", "statement": "At every step the first wake row is attached to the back vertices of the bound trailing-edge rings, neighbouring wake rings share their edges exactly, and each vertex row is the row in front of it one step earlier moved by velocity*delta_time; with a prescribed wake the row r at step k is the trailing edge position at its shedding step plus the freestream displacements accumulated since.", "quantifier": "all runs, prescribed or free wake, any freestream history", "why_tests_cant": "Invariant over the whole run history.", "anchors": ["pterasoftware/unsteady_ring_vortex_lattice_method.py:UnsteadyRingVortexLatticeMethodSolver.populate_next_airplanes_wake_vortex_vertices", "pterasoftware/unsteady_ring_vortex_lattice_method.py:UnsteadyRingVortexLatticeMethodSolver.populate_next_airplanes_wake_vortices"]}
{"id": "C44", "title": "Recorded wake history is not rewritten by later steps", "statement": "The per-step wake arrays kept by the solver for drawing and animation are those of that step. (The wing objects of earlier steps are not so protected: their wake ring objects are shared with later steps and are moved and aged by them - proved as a negation on a heap model.)", "quantifier": "all runs, all earlier steps", "why_tests_cant": "Aliasing between time steps of object arrays.", "anchors": ["pterasoftware/unsteady_ring_vortex_lattice_method.py:UnsteadyRingVortexLatticeMethodSolver.collapse_geometry", "pterasoftware/unsteady_ring_vortex_lattice_method.py:UnsteadyRingVortexLatticeMethodSolver.populate_next_airplanes_wake_vortices"]}
{"id": "C45", "title": "Unsteady solutions satisfy no-penetration with the moving wall and wake", "statement": "At every step, at every collocation point, the velocity induced by bound rings and wake rings plus freestream plus apparent flapping velocity is orthogonal to the panel normal, with zero wake and flapping contribution at the first step.", "quantifier": "all steps of all runs with a non-singular influence matrix", "why_tests_cant": "Joins four contributions assembled in different methods at each step of an unbounded run.", "anchors": ["pterasoftware/unsteady_ring_vortex_lattice_method.py:UnsteadyRingVortexLatticeMethodSolver.calculate_vortex_strengths", "pterasoftware/unsteady_ring_vortex_lattice_method.py:UnsteadyRingVortexLatticeMethodSolver.calculate_wake_wing_influences", "pterasoftware/unsteady_ring_vortex_lattice_method.py:UnsteadyRingVortexLatticeMethodSolver.calculate_freestream_wing_influences"]}
{"id": "C46", "title": "Apparent flapping velocity is the backward difference of the wall motion", "statement": "At every point and every step after the first the flapping velocity is minus displacement over delta_time, zero for a wing that did not move, the same for every point of a wing translated rigidly (minus the translation velocity), and equal to freestream velocity superposition for a translating wing.", "quantifier": "all motions and steps", "why_tests_cant": "Continuum of motions.", "anchors": ["pterasoftware/unsteady_ring_vortex_lattice_method.py:UnsteadyRingVortexLatticeMethodSolver.calculate_current_flapping_velocities_at_collocation_points"]}
{"id": "C47", "title": "Final loads are the mean and root-mean-square over the averaging window", "statement": "For static problems the final loads are those of the last step, one entry per airplane and no means; otherwise per airplane the mean lies between the extremes of the window, the RMS is non-negative and at least |mean|, a constant history has mean equal to it and RMS equal to its absolute value, and the mean coefficient is the mean force over q*s_ref when q and s_ref are constant.", "quantifier": "all load histories and window lengths", "why_tests_cant": "Inequalities over unbounded windows.", "anchors": ["pterasoftware/unsteady_ring_vortex_lattice_method.py:UnsteadyRingVortexLatticeMethodSolver.finalize_near_field_forces_and_moments"]}
{"id": "C48", "title": "Steady trim returns trimmed arguments or four NaNs", "statement": "analyze_steady_trim returns either four arguments whose evaluation had objective below the cutoff, lying within the bounds handed to the optimizers, or four NaNs; it raises exactly when a base value lies outside its bounds; the operating point is left at the last evaluated arguments.", "quantifier": "all objective functions and all optimizer call sequences", "why_tests_cant": "Any optimizer schedule is possible; the early-exit exception and reset logic must be right for each.", "anchors": ["pterasoftware/trim.py:analyze_steady_trim"]}
{"id": "C49", "title": "Unsteady trim evaluates its objective on the loads the solver produced", "statement": "analyze_unsteady_trim obtains the final loads from the problem and returns arguments below the cutoff or three NaNs. (False: it reads attributes the problem never has, so the first evaluation always raises, and on non-convergence of a repaired version it would return four values instead of three; proved as a negation.)", "quantifier": "all problems and optimizer schedules", "why_tests_cant": "Requires tracking which attributes exist after any run.", "anchors": ["pterasoftware/trim.py:analyze_unsteady_trim", "pterasoftware/problems.py:UnsteadyProblem.__init__"]}
{"id": "C50", "title": "Convergence studies return the first converged setting of the sweep", "statement": "analyze_steady_convergence returns [None, None] exactly when no iteration passes; otherwise the returned aspect ratio and chordwise panel count belong to the supplied ranges, the iteration that passed is the first in sweep order, and the relative change to the neighbouring coarser setting is within the criterion in every swept dimension that was not declared saturated or single; analyze_unsteady_convergence likewise over wake state, wake length, aspect ratio and chordwise panels, and tries the free wake only after every prescribed-wake setting failed. The result of a setting is the one a new solver finds for the reference problem with other panels: the magnitudes of each airplane's force and moment coefficients (steady), or its selected final or root-mean-square coefficients (unsteady).", "quantifier": "all result functions, ranges and criteria", "why_tests_cant": "The result arrays are arbitrary; four nested loops with early exit.", "anchors": ["pterasoftware/convergence.py:analyze_steady_convergence", "pterasoftware/convergence.py:analyze_unsteady_convergence"]}
{"id": "C51", "title": "Printed and plotted forces agree in sign with the coefficients", "statement": "The induced drag, side force and lift shown by print_steady_results, print_unsteady_results and plot_results_versus_time have the sign of the corresponding coefficients. (False for induced drag and lift: the raw wind-axes components are shown, whose signs are opposite; proved as negation; true for side force and moments.)", "quantifier": "all solved problems", "why_tests_cant": "A relation between two outputs for all loads.", "anchors": ["pterasoftware/output.py:print_steady_results", "pterasoftware/output.py:print_unsteady_results", "pterasoftware/output.py:plot_results_versus_time"]}
{"id": "C52", "title": "Output surfaces index every panel's own vertices", "statement": "get_panel_surfaces and get_wake_ring_vortex_surfaces return four vertices and one quadrilateral face per panel, every face refers to existing vertices, to four consecutive ones, and to exactly its own panel's corners in cyclic order; get_scalars returns one value per panel in the same order.", "quantifier": "all airplanes, wings and panels; all steps", "why_tests_cant": "Counter arithmetic over nested loops.", "anchors": ["pterasoftware/output.py:get_panel_surfaces", "pterasoftware/output.py:get_wake_ring_vortex_surfaces", "pterasoftware/output.py:get_scalars"]}
{"id": "C53", "title": "Animation speed never exceeds 50 frames per second and keeps real-time ratio", "statement": "For every positive time step the integer frame rate of every animation is at most 50, at most the requested rate, positive when the time step is at most one second, and the reported speed factor is at most 1.", "quantifier": "all delta_time>0", "why_tests_cant": "Continuum of time steps with a floor.", "anchors": ["pterasoftware/output.py:animate"]}
{"id": "C54", "title": "Streamlines start at the trailing-edge seed points and follow the solution velocity", "statement": "calculate_streamlines returns num_steps+1 rows of points, the first being the seed points, each next point being the previous plus velocity there times delta_time; one streamline per seed point. After a run, the streamlines of a solver start from the middle of the back edge of every trailing-edge panel of every wing (in the unsteady solver: as it is at the last step) and follow the velocity the solver reports for 25 steps of 0.02 seconds. The line segments drawn for the streamlines join consecutive points of the same streamline and nothing else.", "quantifier": "all velocity fields, seed points and step counts; all airplanes, operating points and movements the constructors accept and all three solvers", "why_tests_cant": "Recursion over unbounded steps.", "anchors": ["pterasoftware/functions.py:calculate_streamlines", "pterasoftware/functions.py:update_ring_vortex_solvers_panel_attributes", "pterasoftware/steady_horseshoe_vortex_lattice_method.py:SteadyHorseshoeVortexLatticeMethodSolver.run", "pterasoftware/output.py:draw"]}
{"id": "C55", "title": "Logging level names are converted exactly", "statement": "convert_logging_level_name_to_value maps exactly the five documented names to strictly increasing numeric levels and raises for every other string.", "quantifier": "all strings", "why_tests_cant": "Infinite set of strings.", "anchors": ["pterasoftware/functions.py:convert_logging_level_name_to_value"]}
{"id": "C56", "title": "Meshes of a convergence study differ from the reference only in their panels", "statement": "In every iteration of analyze_steady_convergence and analyze_unsteady_convergence, the simulated airplanes (and their motions) have the reference's geometry: same reference points, weights, wing positions, symmetry, spacings, cross-section positions, planes, chords, twists, control surfaces and motion parameters. Only the panel counts differ: chordwise as requested, spanwise the integer nearest to the count that gives the requested panel aspect ratio, and at least one.", "quantifier": "all reference problems and movements, aspect ratios and chordwise panel counts", "why_tests_cant": "Quantifies over all geometries; dropped attributes only show for geometries that use them.", "anchors": ["pterasoftware/convergence.py:analyze_steady_convergence", "pterasoftware/convergence.py:analyze_unsteady_convergence"]}
{"id": "C57", "title": "Colour limits of drawn scalars bracket the mean and stay in range", "statement": "draw and animate choose, for every non-empty list of panel scalars, a sequential colour map when all have one sign, with limits three standard deviations from the mean cut off at the least and greatest value (so the mean is always between the limits), and otherwise a diverging map with symmetric, distinct limits of three standard deviations; the labels are the least and greatest scalars rounded to two decimals. Without scalars, or with one not computed, they raise.", "quantifier": "all lists of scalars", "why_tests_cant": "Quantifies over all value distributions; inequality between mean, deviation and extremes.", "anchors": ["pterasoftware/output.py:draw", "pterasoftware/output.py:animate"]}
{"id": "C58", "title": "Time plots pair each step's loads with its own time", "statement": "plot_results_versus_time of a finished run shows one point per step from the first results step on; the point of step k is at time k*delta_time and shows the loads the airplane has at step k.", "quantifier": "all unsteady problems, airplanes and steps, after any number of runs", "why_tests_cant": "Off-by-one alignment of two arrays for all histories.", "anchors": ["pterasoftware/output.py:plot_results_versus_time"]}
{"id": "C59", "title": "The results of every finished unsteady run can be printed", "statement": "print_unsteady_results succeeds on every finished unsteady run, with one report per airplane. (True of problems with a period; false of static problems with an airplane, where it always raises IndexError: proved both.)", "quantifier": "all unsteady problems, after any number of runs", "why_tests_cant": "Depends on how the finalisation fills its lists for every history.", "anchors": ["pterasoftware/output.py:print_unsteady_results"]}
{"id": "C60", "title": "Every finished unsteady run can be animated, one frame per step", "statement": "animate of a finished run makes one frame per step, showing the panels of that step, with the wake of that step on every frame but the first if wanted, and with the scalars of that step's panels if wanted, coloured on one scale for all steps. (True without scalars and for scalars when results were computed at every step; with only_final_results scalars always raise TypeError: proved both.)", "quantifier": "all unsteady problems and steps, after any number of runs", "why_tests_cant": "Quantifies over histories and per-step geometry.", "anchors": ["pterasoftware/output.py:animate"]}
{"id": "C61", "title": "Camber-line points at fractions of the line's length", "statement": "Asking an airfoil for points of its mean camber line at given fractions between 0 and 1 returns, in order, exactly the points of the line at these fractions of its length; fraction 0 is its first and 1 its last point.", "quantifier": "all airfoils whose camber line has at least two points, neighbouring ones distinct, and all lists of fractions", "why_tests_cant": "Ranges over all camber lines and all fractions, including those that fall on points of the line.", "anchors": ["pterasoftware/geometry.py:Airfoil.get_downsampled_mcl"]}
{"id": "C62", "title": "The mesh of a wing is the loft between its cross sections", "statement": "Every vertex of every panel of an accepted wing lies on the straight line between the points at the same fraction of the camber lines of the two neighbouring cross sections (deflected by the inner one's control surface, scaled by their chords, twisted about their normals, moved to their leading edges), at the requested chordwise and spanwise spacing. With ordinary airfoils the first and last rows of vertices run along the straight lines between the leading and the trailing edges.", "quantifier": "all accepted wings, cross sections, rows and columns", "why_tests_cant": "Ranges over all geometries, numbers of panels and spacings.", "anchors": ["pterasoftware/meshing.py:mesh_wing", "pterasoftware/meshing.py:get_wing_section_panel_vertices"]}
{"id": "C63", "title": "Speed and density only scale steady results", "statement": "Multiplying the freestream speed by c and the density by k, and changing nothing else, leaves a successful steady run successful, multiplies every velocity and vortex strength by c and every force and moment by k c^2, and changes no coefficient.", "quantifier": "both steady solvers, all airplanes, operating points, factors c and k other than zero (k = 0 allowed for loads), all states left by earlier runs", "why_tests_cant": "Ranges over all airplanes and all speeds and densities.", "anchors": ["pterasoftware/steady_horseshoe_vortex_lattice_method.py:SteadyHorseshoeVortexLatticeMethodSolver.run", "pterasoftware/steady_ring_vortex_lattice_method.py:SteadyRingVortexLatticeMethodSolver.run", "pterasoftware/functions.py:process_steady_solver_forces"]}
{"id": "C64", "title": "Steady results depend only on the attitude and place of the airplanes relative to the wind", "statement": "Turning all cross sections, wings and reference points rigidly and moving them leaves the airplanes accepted, with the same areas, chords, spans and panels (turned and moved). If the wind axes are turned along by another angle of attack and sideslip, every panel's strength and every force, moment and coefficient in wind axes stays. In particular moving all airplanes by one vector changes nothing, and pitching the airplanes by an angle is the same as adding it to the angle of attack.", "quantifier": "both steady solvers, all accepted airplanes, all rotations and translations, all operating points", "why_tests_cant": "Ranges over all geometries, rotations and translations.", "anchors": ["pterasoftware/geometry.py:Wing", "pterasoftware/geometry.py:Airplane", "pterasoftware/meshing.py:mesh_wing", "pterasoftware/operating_point.py:OperatingPoint", "pterasoftware/functions.py:process_steady_solver_forces"]}
{"id": "C65", "title": "Mirrored airplanes have mirrored results; symmetric ones no lateral loads", "statement": "Airplanes mirrored in the plane y = 0, at the opposite sideslip angle, have the mirrored velocities and loads: same drag, lift and pitching moment, opposite side force, rolling and yawing moment. A symmetric airplane without sideslip therefore has no side force, rolling or yawing moment. Wings built as symmetric about that plane are their own mirror images unless an asymmetric control surface is deflected; then deflecting it the other way gives the mirror image. A wing lying in the plane, such as a fin, is its own mirror image.", "quantifier": "both steady solvers, all accepted airplanes, operating points and states left by earlier runs", "why_tests_cant": "Ranges over all geometries and sideslip angles.", "anchors": ["pterasoftware/geometry.py:Wing", "pterasoftware/meshing.py:mesh_wing", "pterasoftware/functions.py:reflect_point_across_plane", "pterasoftware/steady_horseshoe_vortex_lattice_method.py:SteadyHorseshoeVortexLatticeMethodSolver.run", "pterasoftware/steady_ring_vortex_lattice_method.py:SteadyRingVortexLatticeMethodSolver.run"]}
{"id": "C66", "title": "The order of airplanes and wings does not matter", "statement": "Listing the airplanes of a steady problem, or the wings of an airplane, in another order leaves a successful run successful, with the same velocity at every point, the same strength and loads on every panel and the same force and moment on every airplane; the coefficients are the same if the reference dimensions are.", "quantifier": "both steady solvers, all accepted airplanes and wings, all renumberings", "why_tests_cant": "Ranges over all lists of airplanes and wings and all their permutations.", "anchors": ["pterasoftware/problems.py:SteadyProblem", "pterasoftware/geometry.py:Airplane", "pterasoftware/steady_horseshoe_vortex_lattice_method.py:SteadyHorseshoeVortexLatticeMethodSolver", "pterasoftware/steady_ring_vortex_lattice_method.py:SteadyRingVortexLatticeMethodSolver"]}
{"id": "C67", "title": "The generated motion is the prescribed motion", "statement": "At every step k of a movement, at time k delta_time: each airplane's reference point, each wing's leading edge, each cross section's pitch and each operating point's speed has the value its oscillation (sine, triangle or custom, with the given amplitude and period about the base value) prescribes; each outer cross section lies, at its base distance, from its inner neighbour in the direction of the prescribed sweep and heave angles, unless it is straight above or below that neighbour: then it does not move at all, whatever is prescribed. Airfoils, chords, control surfaces, panel numbers and spacings, symmetry, density and angles of the freestream stay at their base values (what does not is stated in C29). A movement with any other spacing name is rejected.", "quantifier": "all movements, numbers of steps and time steps that are accepted", "why_tests_cant": "Ranges over all amplitudes, periods, waveforms, wings, sections, step counts and time steps.", "anchors": ["pterasoftware/movement.py:Movement", "pterasoftware/movement.py:AirplaneMovement.generate_airplanes", "pterasoftware/movement.py:WingMovement.generate_wings", "pterasoftware/movement.py:WingCrossSectionMovement.generate_wing_cross_sections", "pterasoftware/movement.py:OperatingPointMovement.generate_operating_points"]}
{"id": "C68", "title": "Unsteady loads are proportional to the density", "statement": "Changing only the density of the operating point of an unsteady study to a positive multiple leaves the study accepted and a successful run successful: at every step the velocities, vortex strengths and wake are the same, forces and moments are multiplied by the ratio of the densities, and the coefficients stay.", "quantifier": "all accepted movements, numbers of steps and time steps, prescribed and free wakes, all positive ratios, states left by earlier runs", "why_tests_cant": "Ranges over all motions, histories and densities.", "anchors": ["pterasoftware/unsteady_ring_vortex_lattice_method.py:UnsteadyRingVortexLatticeMethodSolver.run", "pterasoftware/functions.py:process_unsteady_solver_forces", "pterasoftware/movement.py:Movement", "pterasoftware/problems.py:UnsteadyProblem"]}
{"id": "C69", "title": "Unsteady results do not depend on where the airplanes are", "statement": "Moving all airplanes of an unsteady study (wings and reference points of the base airplanes and their movements) by one vector leaves the study accepted and a successful run successful: at every step the flow, the panels and the wake are moved by that vector and the strengths, ages, forces, moments and coefficients are the same.", "quantifier": "all accepted movements, numbers of steps and time steps, prescribed and free wakes, all vectors, states left by earlier runs", "why_tests_cant": "Ranges over all motions, histories and translations.", "anchors": ["pterasoftware/unsteady_ring_vortex_lattice_method.py:UnsteadyRingVortexLatticeMethodSolver.run", "pterasoftware/movement.py:AirplaneMovement.generate_airplanes", "pterasoftware/movement.py:WingMovement.generate_wings", "pterasoftware/geometry.py:Wing"]}
{"id": "C70", "title": "Symmetric flapping has symmetric unsteady results", "statement": "For airplanes that stay their own mirror image in the plane y = 0 (wings built as symmetric about it, or fins in it, not moving sideways), reversing the sideslip angle of an unsteady study gives the mirror image of flow, panel loads and wake at every step: same drag, lift and pitching moment, opposite side force, rolling and yawing moment. Without sideslip there is no side force, rolling or yawing moment at any step and no flow across the plane.", "quantifier": "all accepted movements that are symmetric in that sense, numbers of steps and time steps, prescribed and free wakes, states left by earlier runs", "why_tests_cant": "Ranges over all symmetric geometries, motions, histories and sideslip angles.", "anchors": ["pterasoftware/unsteady_ring_vortex_lattice_method.py:UnsteadyRingVortexLatticeMethodSolver.run", "pterasoftware/movement.py:WingMovement.generate_wings", "pterasoftware/movement.py:WingCrossSectionMovement.generate_wing_cross_sections", "pterasoftware/meshing.py:mesh_wing"]}
{"id": "C71", "title": "Unsteady results do not depend on the order of airplanes and wings", "statement": "Listing the airplane movements of an unsteady study, or the wing movements of an airplane, in another order leaves the study accepted and a successful run successful, with the same time step and number of steps (defaults included, unless another wing is listed first and so provides other defaults): at every step the flow is the same at every point, and the panels, vortex strengths, wake rings, forces and moments are the same under the new numbers. Coefficients are the same if the same wing is listed first.", "quantifier": "all accepted movements, all reorderings, numbers of steps and time steps, prescribed and free wakes, states left by earlier runs", "why_tests_cant": "Ranges over all motions, histories and reorderings of lists of any length.", "anchors": ["pterasoftware/unsteady_ring_vortex_lattice_method.py:UnsteadyRingVortexLatticeMethodSolver.run", "pterasoftware/movement.py:Movement", "pterasoftware/movement.py:AirplaneMovement.generate_airplanes", "pterasoftware/problems.py:UnsteadyProblem"]}
{"id": "C72", "title": "What an unsteady run shows at a step depends on the motion up to that step only", "statement": "If two unsteady studies have the same time step and over the first N steps the same airplanes and operating points, finished runs of them (with the same kind of wake) show the same flow, panel rings, wake rings and, where both compute loads, loads and coefficients at each of these steps, whatever the later motion, the number of steps and the choice to compute final results only. In particular the same movements with fewer steps are accepted, run if the longer study runs, and give the beginning of the longer run.", "quantifier": "all pairs of accepted studies with a common beginning, numbers of steps, prescribed and free wakes, states left by earlier runs", "why_tests_cant": "Ranges over all continuations of all motions and over all run lengths.", "anchors": ["pterasoftware/unsteady_ring_vortex_lattice_method.py:UnsteadyRingVortexLatticeMethodSolver.run", "pterasoftware/movement.py:Movement", "pterasoftware/movement.py:WingMovement.generate_wings", "pterasoftware/movement.py:oscillating_sinspace", "pterasoftware/problems.py:UnsteadyProblem"]}
{"id": "C73", "title": "Surfaces parallel to the flow carry no load", "statement": "If the freestream, seen from the wings as they move, is parallel to every panel, then after a run of any of the three solvers every vortex (on the wings and, for the unsteady solver, in the wake) has zero strength, the flow is the freestream at every point, and all forces, moments and coefficients are zero; for the unsteady solver this holds at every step up to which the condition has held.", "quantifier": "all accepted airplanes, operating points and movements that satisfy the condition, prescribed and free wakes, states left by earlier runs", "why_tests_cant": "Ranges over all geometries, motions and histories.", "anchors": ["pterasoftware/steady_horseshoe_vortex_lattice_method.py:SteadyHorseshoeVortexLatticeMethodSolver.run", "pterasoftware/steady_ring_vortex_lattice_method.py:SteadyRingVortexLatticeMethodSolver.run", "pterasoftware/unsteady_ring_vortex_lattice_method.py:UnsteadyRingVortexLatticeMethodSolver.run"]}
{"id": "C74", "title": "An airfoil name means the same airfoil in every spelling", "statement": "Capital letters and blanks around an airfoil's name make no difference. 'naca' followed by four digits m, p, t, u is the NACA four-digit outline with maximum camber m/100 at p/10 and thickness (10 t + u)/100. Every other name is looked up in the database under that name; a name that is not there raises an exception. A database file that consists of a title line and rows of two numbers, with any blanks around them, gives exactly the points in these rows, in order. Whatever the title line says makes no difference, and a file of a single line has no points.", "quantifier": "all names (ASCII), all databases, all files of any number of rows, all panelling options", "why_tests_cant": "Ranges over all names and files.", "anchors": ["pterasoftware/geometry.py:Airfoil.populate_coordinates", "pterasoftware/geometry.py:Airfoil.__init__"]}
{"id": "C75", "title": "A picture of a solver shows what was solved", "statement": "After a run of any of the three solvers, drawing it succeeds in every combination of options (streamlines of the unsteady solver if the run computed them; a coefficient to colour by needs at least one panel). The picture shows every panel once, of the unsteady solver those of the last step; coloured, if wanted, by the panel's own coefficient at that step with the colour limits of exactly these values; all wake rings of the last step if wanted (none for steady solvers); and, if wanted, the lines that join consecutive points of the streamlines, which start at the middle of each trailing-edge panel's back edge and follow the solved flow.", "quantifier": "all accepted problems, all options, all states left by earlier runs, first and later unsteady runs", "why_tests_cant": "Ranges over all geometries, runs and options; a picture of wrongly aligned values looks plausible.", "anchors": ["pterasoftware/output.py:draw", "pterasoftware/output.py:plot_scalars", "pterasoftware/output.py:get_panel_surfaces", "pterasoftware/output.py:get_scalars", "pterasoftware/output.py:get_wake_ring_vortex_surfaces"]}
{"id": "C76", "title": "Steady results do not depend on the unit of length", "statement": "If every length given to the constructors is multiplied by the same positive factor (and a given reference area by its square), the constructors accept the airplanes again, with all vertices, spans, chords multiplied by the factor and areas by its square. In the same flow, a steady run of either solver then gives the same velocities at corresponding points, vortex strengths times the factor, forces times its square, moments times its cube, and the same coefficients. The code violates this for small lengths: filaments nearer than a fixed number are left out, so every airplane can be made so small that the solvers raise a singular-matrix error.", "quantifier": "all accepted airplanes, all operating points, all positive factors, both steady solvers", "why_tests_cant": "Ranges over all geometries and units.", "anchors": ["pterasoftware/aerodynamics.py:collapsed_velocities_from_line_vortices", "pterasoftware/steady_horseshoe_vortex_lattice_method.py:run", "pterasoftware/steady_ring_vortex_lattice_method.py:run", "pterasoftware/geometry.py:Airplane.__init__", "pterasoftware/meshing.py:mesh_wing"]}
{"id": "C77", "title": "Turning an airplane upside down and reversing the angle of attack reverses lift", "statement": "If every airfoil outline is turned upside down, every leading edge, reference point and direction is mirrored in the plane z = 0 and every twist and deflection is reversed, the constructors accept the airplanes again, with every panel mirrored in that plane and the same spans, areas, mean chords and reference dimensions. With the angle of attack reversed, both steady solvers then give mirrored velocities, opposite vortex strengths, the same drag, side force and yawing moment, and the opposite lift, rolling and pitching moment. An uncambered, untwisted airplane without dihedral or deflection is its own image, so its lift is an odd and its drag an even function of the angle of attack, and at zero angle of attack it has no lift. In unsteady studies, flapping, pitching and vertical motion are also reversed, and then every step (flow, vortices, wake, loads) is mirrored.", "quantifier": "all accepted airplanes and movements whose outlines have a nose in front of all other points (also when deflected), all operating points, both steady solvers, all unsteady runs and steps", "why_tests_cant": "Ranges over all geometries, motions and flow states.", "anchors": ["pterasoftware/geometry.py:Airfoil", "pterasoftware/geometry.py:Wing.__init__", "pterasoftware/meshing.py:mesh_wing", "pterasoftware/movement.py", "pterasoftware/steady_horseshoe_vortex_lattice_method.py:run", "pterasoftware/steady_ring_vortex_lattice_method.py:run", "pterasoftware/unsteady_ring_vortex_lattice_method.py:run"]}
{"id": "C78", "title": "Repanelling keeps the shape of an airfoil", "statement": "A repanelled airfoil with n points per side has its points at the n cosine-spaced x from 0 to 1: first back to front on the interpolant of the given upper side, then front to back on the interpolant of the given lower side, with the nose in front of all other points and the camber points half way between the sides. If the interpolants pass through their nodes, every given point at one of these x is kept, so an outline from x = 1 over a nose at x = 0 back to x = 1 keeps its nose and both ends of its trailing edge. If they also change sign with the values, repanelling commutes with turning the airfoil upside down, and a symmetric outline stays symmetric, with a straight camber line.", "quantifier": "all outlines the constructor accepts with repanelling, all numbers of points per side from two, all interpolators (with the stated properties where named)", "why_tests_cant": "Ranges over all outlines and numbers of points.", "anchors": ["pterasoftware/geometry.py:Airfoil.repanel_current_airfoil", "pterasoftware/geometry.py:Airfoil.populate_mcl_coordinates"]}
{"id": "C79", "title": "Printed texts and saved plots carry the right names and numbers", "statement": "print_steady_results and print_unsteady_results print one heading per airplane, with the airplanes' names in their order, and below each heading exactly one line per quantity (induced drag, side force, lift, rolling, pitching and yawing moment and their coefficients) that begins with the quantity's label and gives that airplane's value, within 0.0005, with its unit. plot_results_versus_time(save=True) leaves, for every airplane, four files that begin with its name and show its own forces, force coefficients, moments and moment coefficients at every step from the first results step on, each under the right label, with its name and the quantity in the title and the unit at the axis, and touches no other file.", "quantifier": "all finished runs of the three solvers, all numbers and names of airplanes, all ways of printing a number, all earlier contents of the directory", "why_tests_cant": "The loads of several airplanes are paired with names, labels and file names by position in nested loops; a mix-up shows only for particular numbers and names of airplanes, and one airplane's file can replace another's.", "anchors": ["pterasoftware/output.py: print_steady_results", "pterasoftware/output.py: print_unsteady_results", "pterasoftware/output.py: plot_results_versus_time", "pterasoftware/geometry.py: Airplane.__init__"]}
{"id": "C80", "title": "Reference points and reference dimensions enter moments and coefficients only", "statement": "Airplanes with the same wings but another reference point (x_ref, y_ref, z_ref), other reference dimensions (s_ref, c_ref, b_ref) and another weight give, in all three solvers, the same flow, wake, vortex strengths and forces, and the run of the one succeeds exactly when that of the other does. The moment of each panel and of each airplane changes by (old reference point - new reference point) x force, in geometry axes and in wind axes. Force coefficients scale with 1/s_ref; moment coefficients about the same point scale with 1/(s_ref b_ref), 1/(s_ref c_ref), 1/(s_ref b_ref). In an unsteady run each step's moments are about the reference point of that step.", "quantifier": "all airplanes and wings, all reference points and dimensions, all operating points; for unsteady runs all movements, steps and motions of the reference point", "why_tests_cant": "A test compares two reference points on one airplane; that nothing but the moments and coefficients depends on them, for every lattice and every step of a run with a wake, is a statement about all pairs of runs.", "anchors": ["pterasoftware/geometry.py: Airplane.__init__", "pterasoftware/movement.py: AirplaneMovement.generate_airplanes", "pterasoftware/functions.py: process_steady_solver_forces", "pterasoftware/steady_horseshoe_vortex_lattice_method.py: calculate_near_field_forces_and_moments", "pterasoftware/steady_ring_vortex_lattice_method.py: calculate_near_field_forces_and_moments", "pterasoftware/unsteady_ring_vortex_lattice_method.py: calculate_near_field_forces_and_moments"]}
{"id": "C81", "title": "Motions repeat, and the averaging window shows each phase once", "statement": "At two time steps between which every oscillation of a movement does a whole number of its periods, all airplanes (panels, wings, cross sections, reference points) and the operating point are the same. If all oscillations repeat after the largest period, and that period is a whole number m of time steps no longer than the run, then the results are averaged over the last m steps, and each step of the run has the airplanes and operating point of exactly one of these m steps: each phase of the motion is counted once.", "quantifier": "all movements (any number of airplanes, wings and cross sections; sine, linear and 2-pi-periodic custom spacings; any amplitudes and periods), time steps, run lengths and pairs of steps", "why_tests_cant": "A test samples one motion at some steps; that nothing of the geometry drifts, through the chain of cross sections each built on the one before, is a claim about every motion and every pair of steps.", "anchors": ["pterasoftware/movement.py: Movement, AirplaneMovement.generate_airplanes, WingMovement.generate_wings, WingCrossSectionMovement.generate_wing_cross_sections, oscillating_sinspace, oscillating_linspace, oscillating_customspace", "pterasoftware/problems.py: UnsteadyProblem.__init__"]}
{"id": "C82", "title": "A further cross section on the straight lines between two others changes nothing", "statement": "Let two neighbouring cross sections of a wing have the same airfoil, twist and orientation and uniform spanwise spacing with k + l panels between them. Inserting a cross section after k of these panels, with its leading edge on the straight line between theirs and its chord in proportion, leaves the wing as it was: it is accepted or rejected as before, with the same error, and has the same panels, areas, span, mean chord and mean aerodynamic chord. So airplanes get the same default reference dimensions, and the steady solvers give the same flow, vortex strengths, forces, moments and coefficients.", "quantifier": "all wings (any number of sections before and after, symmetric or not, any control surfaces, swept, tapered, with dihedral), all positions k, l > 0, all other wings and airplanes, all operating points, both steady solvers", "why_tests_cant": "A test splits one section of one wing; that the mesher, which treats each section on its own and stacks it, never shows the seam is a claim about all wings.", "anchors": ["pterasoftware/meshing.py: mesh_wing, get_wing_section_panel_vertices, get_wing_section_panels", "pterasoftware/geometry.py: Wing.__init__, Wing.span, Wing.mean_aerodynamic_chord, Wing.projected_area", "pterasoftware/functions.py: interp_between_points"]}
{"id": "C83", "title": "The reported flow is that of the vortices shown on the solved problem, and the freestream far away", "statement": "After a run of any of the three solvers, the velocity it reports at a point is the freestream plus the sum of the velocities of the straight filaments of the vortices a user finds on the panels and in the recorded wake, with the strengths, positions and ages stored there. At a distance d from all filaments, with none longer than d, it differs from the freestream by at most the sum of strength times length over 2 pi d squared, and so it tends to the freestream far away.", "quantifier": "all problems, all runs that end, all points of space, any number of panels, airplanes and steps", "why_tests_cant": "Tests sample a few points of a few solutions; that the stored vortices and the reported field are the same object, and how the field decays, is about all points and all solutions.", "anchors": ["pterasoftware/aerodynamics.py: collapsed_velocities_from_line_vortices, collapsed_velocities_from_ring_vortices, collapsed_velocities_from_horseshoe_vortices, HorseshoeVortex, RingVortex", "pterasoftware/steady_horseshoe_vortex_lattice_method.py: calculate_solution_velocity", "pterasoftware/steady_ring_vortex_lattice_method.py: calculate_solution_velocity", "pterasoftware/unsteady_ring_vortex_lattice_method.py: calculate_solution_velocity"]}
{"id": "C84", "title": "The flow conserves mass", "statement": "The velocity field reported after a run has zero divergence at every point, inside vortex cores too, except on the borders of the regions in which the code leaves a filament out.", "quantifier": "all problems, all runs that end of any of the three solvers, at every step of an unsteady run, all points off the cut-off borders", "why_tests_cant": "A divergence is a limit; finite differences at sample points neither give it nor cover all points and all vortex lattices.", "anchors": ["pterasoftware/aerodynamics.py: collapsed_velocities_from_line_vortices, collapsed_velocities_from_ring_vortices, collapsed_velocities_from_horseshoe_vortices, HorseshoeVortex, RingVortex", "pterasoftware/steady_horseshoe_vortex_lattice_method.py: calculate_solution_velocity", "pterasoftware/steady_ring_vortex_lattice_method.py: calculate_solution_velocity", "pterasoftware/unsteady_ring_vortex_lattice_method.py: calculate_solution_velocity"]}
{"id": "C85", "title": "The flow has vorticity at the far ends of the horseshoe legs only", "statement": "Off the filaments, the curl of the velocity reported by a steady solver is the sum over its horseshoe vortices of the vorticity of the two points where their legs end (twenty spans downstream), which is at most strength over 2 pi d squared at distance d from them; rings have none. In an unsteady run the flow of the bound rings is irrotational off their filaments at every step, and the whole flow is at the first two steps, before any wake ring has a core.", "quantifier": "all problems, all runs that end, all points clear of the filaments", "why_tests_cant": "A curl is a limit at a point; that a closed ring leaves no vorticity and an open horseshoe leaves that of its ends holds for every shape and strength or not at all.", "anchors": ["pterasoftware/aerodynamics.py: collapsed_velocities_from_line_vortices, collapsed_velocities_from_ring_vortices, collapsed_velocities_from_horseshoe_vortices, HorseshoeVortex, RingVortex", "pterasoftware/steady_horseshoe_vortex_lattice_method.py: calculate_solution_velocity", "pterasoftware/steady_ring_vortex_lattice_method.py: calculate_solution_velocity", "pterasoftware/unsteady_ring_vortex_lattice_method.py: calculate_solution_velocity"]}
{"id": "C86", "title": "Moving everything faster scales velocities and loads and keeps wake and coefficients", "statement": "Take any unsteady study that is accepted and make everything c > 0 times as fast: the freestream speed and its amplitude times c, all periods and the time step, if given, divided by c. The study is accepted with the same number of steps (also when it is derived from chords or cycles), the same airplanes at every step, and the same averaging window. If the kinematic viscosity grows in proportion (the same Reynolds number), the run succeeds whenever the first one does, and at every step the velocities and all vortex strengths are c times as large, all wake vortices are at the same places with 1/c of their age, all forces and moments are c^2 times as large, and the coefficients are the same.", "quantifier": "all accepted studies (any airplanes, wings, motions, operating-point motions), all factors c > 0, all viscosities >= 0 set on the operating points, prescribed and free wakes, all steps, all points of space, all solvers with any history", "why_tests_cant": "Reduced-frequency similarity must hold for every motion and factor; ages, core radii, step lengths, unsteady forces and the default time step each use time in a different place, and one wrong power of dt shows only for other speeds.", "anchors": ["pterasoftware/movement.py: Movement, oscillating_sinspace, oscillating_linspace", "pterasoftware/problems.py: UnsteadyProblem", "pterasoftware/unsteady_ring_vortex_lattice_method.py: UnsteadyRingVortexLatticeMethodSolver.run", "pterasoftware/aerodynamics.py: collapsed_velocities_from_ring_vortices"]}
{"id": "C87", "title": "Final and averaged results obey the same laws as the steps", "statement": "What an unsteady run reports at its end (the loads of the last step of a motionless problem; the means and root-mean-squares over the last cycle of a periodic one, one entry per airplane) follows the laws proved for the single steps: with another density forces and moments scale with it and coefficients stay; at another place everything stays; with the airplanes in another order the entries are in the other order; with the sideslip reversed, for symmetric motion, side force, rolling and yawing moment change sign; upside down with the angle of attack reversed, lift, rolling and pitching moment change sign; with everything c times as fast forces and moments are c^2 times as large and coefficients stay; root-mean-squares change by the absolute value of the factor. With other reference points or dimensions forces and force coefficients are reported the same, and if the reference point of an airplane is moved by a constant offset its final and mean moments are transferred to it. Without sideslip symmetric motion reports no side force, rolling or yawing moment. Asking for loads at the final steps only changes nothing in which studies are accepted, which runs end, the flow, wake and strengths of each step, or the final and averaged results.", "quantifier": "all accepted studies with a positive time step and no negative longest period, whose runs end; all solvers with any history; prescribed and free wakes; any number of airplanes and steps", "why_tests_cant": "Tests compare final numbers of single cases; the laws relate pairs of runs over all motions, and averaging over the wrong steps or mixing up airplanes breaks them only for some inputs.", "anchors": ["pterasoftware/unsteady_ring_vortex_lattice_method.py: UnsteadyRingVortexLatticeMethodSolver.finalize_near_field_forces_and_moments, run", "pterasoftware/problems.py: UnsteadyProblem", "pterasoftware/movement.py: Movement"]}
{"id": "C88", "title": "A run that raises or is interrupted leaves a problem that can be run again", "statement": "An unsteady run that raises does so because the linear system of some step is singular. Whether it raises or is interrupted between any two of its operations (a method of the solver at a step), running the same solver again, or a new solver on the same problem, succeeds exactly when the run of a fresh solver on an untouched problem does, and then gives the same strengths, loads and wakes. If it was stopped before the final results were appended, the next run reports the final results of an undisturbed run. The steps a stopped run completed hold what a complete run gives for them. The same holds of the steady horseshoe solver stopped between any two of the methods its run calls, and of the steady ring solver as long as it has not solved its linear system: running it again succeeds exactly when a fresh run does, with the same velocities, strengths and loads.", "quantifier": "all accepted unsteady problems, all solvers with any history (reruns, other solvers of the same problem, earlier stopped runs), every point between two operations at which a run may stop, prescribed and free wakes; all steady problems, all horseshoe solvers with any history, all ring solvers that have not solved yet", "why_tests_cant": "A run of n steps can stop at 9 n + 4 points, after any history of earlier runs; tests stop it nowhere.", "anchors": ["pterasoftware/unsteady_ring_vortex_lattice_method.py: UnsteadyRingVortexLatticeMethodSolver.run, collapse_geometry, calculate_vortex_strengths, populate_next_airplanes_wake, finalize_near_field_forces_and_moments", "pterasoftware/steady_horseshoe_vortex_lattice_method.py: SteadyHorseshoeVortexLatticeMethodSolver.run", "pterasoftware/steady_ring_vortex_lattice_method.py: SteadyRingVortexLatticeMethodSolver.run"]}
{"id": "C89", "title": "Wings in the same place are never solved", "statement": "If two wings given to a solver are in the same place (an airplane given twice, a wing given twice to an airplane), or a wing that lies in its own symmetry plane was declared symmetric (a fin with the default normals), every solver raises NumPy's error for a singular matrix; no results are reported.", "quantifier": "all airplanes made by the constructors, all operating points, any state left on the panels by earlier runs; all accepted unsteady problems in which this is so at one step, all solvers with any history, prescribed and free wakes", "why_tests_cant": "The system is singular for every geometry, paneling and flow; a solver that returned one of the many solutions would report loads that depend on the library's rounding, and tests try a few geometries only.", "anchors": ["pterasoftware/steady_horseshoe_vortex_lattice_method.py: SteadyHorseshoeVortexLatticeMethodSolver.run", "pterasoftware/steady_ring_vortex_lattice_method.py: SteadyRingVortexLatticeMethodSolver.run", "pterasoftware/unsteady_ring_vortex_lattice_method.py: UnsteadyRingVortexLatticeMethodSolver.run", "pterasoftware/meshing.py: mesh_wing"]}
{"id": "C90", "title": "Strengths that are not set yet are never used", "statement": "The solvers make the vortices of the panels with no strength (None) and fill the strengths in later, the unsteady solver for the panels of all time steps before the first one. No result depends on a strength before it has been set: with any numbers in the place of the unset strengths, a run succeeds or raises in the same way and leaves the same solver, panels, airplanes, wakes and result lists. In particular no time step looks at the strengths of a later one, or at its own before they are solved for.", "quantifier": "all solvers of the three kinds in any state (new, run before, run on geometry other solvers have used), all geometries and flows, prescribed and free wakes, every value for every unset strength", "why_tests_cant": "A read of an unset strength may occur for one layout of wings, one step or one order of panels only; tests see the layouts they try, and a value left from an earlier run hides the read.", "anchors": ["pterasoftware/steady_horseshoe_vortex_lattice_method.py: SteadyHorseshoeVortexLatticeMethodSolver.initialize_panel_vortices", "pterasoftware/steady_ring_vortex_lattice_method.py: SteadyRingVortexLatticeMethodSolver.initialize_panel_vortices", "pterasoftware/unsteady_ring_vortex_lattice_method.py: UnsteadyRingVortexLatticeMethodSolver.initialize_panel_vortices", "pterasoftware/unsteady_ring_vortex_lattice_method.py: UnsteadyRingVortexLatticeMethodSolver.run", "pterasoftware/aerodynamics.py: RingVortex.update_strength"]}
{"id": "C91", "title": "Only panels with area are solved", "statement": "The solvers return results that are numbers only if every panel has a positive area, and so a normal of length one, in an unsteady run at every time step; a wing with two neighbouring cross sections in the same place is accepted but has panels without area and never gets numbers. The linear solver returns the strengths exactly if the determinant of the matrix is not zero, and they are then the only solution of the equations.", "quantifier": "all airplanes made with the API, all operating points, all earlier runs on the same geometry, all unsteady problems, steps, wakes and histories of a solver; all square systems", "why_tests_cant": "Degenerate panels arise from combinations of sections, twists, deflections and motions that no finite set of meshes covers.", "anchors": ["pterasoftware/panel.py: Panel.unit_normal", "pterasoftware/panel.py: Panel.area", "pterasoftware/geometry.py: Wing", "pterasoftware/steady_horseshoe_vortex_lattice_method.py: SteadyHorseshoeVortexLatticeMethodSolver.calculate_vortex_strengths", "pterasoftware/steady_ring_vortex_lattice_method.py: SteadyRingVortexLatticeMethodSolver.calculate_vortex_strengths", "pterasoftware/unsteady_ring_vortex_lattice_method.py: UnsteadyRingVortexLatticeMethodSolver.calculate_vortex_strengths"]}
{"id": "C92", "title": "The vortex strengths exist and are the only possible ones", "statement": "A solver finishes a run exactly if the only strengths for which the vortices on the wings by themselves send no flow through any panel are zero, in an unsteady run at every time step. Speed, density, viscosity, earlier runs, wake and the velocity of the panels do not decide this. After a run the strengths on the panels are the only ones with which the vortices, the freestream and the recorded wake together send no flow through the panels, which move with the displacement since the previous step over the time step.", "quantifier": "all airplanes made with the API, all operating points, all earlier runs on the same geometry, all unsteady problems, steps, wakes and histories of a solver, all candidate strengths", "why_tests_cant": "That no other strengths would do and that no other circumstance makes a run fail ranges over all strengths and all geometries.", "anchors": ["pterasoftware/steady_horseshoe_vortex_lattice_method.py: SteadyHorseshoeVortexLatticeMethodSolver.run", "pterasoftware/steady_ring_vortex_lattice_method.py: SteadyRingVortexLatticeMethodSolver.run", "pterasoftware/unsteady_ring_vortex_lattice_method.py: UnsteadyRingVortexLatticeMethodSolver.run", "pterasoftware/unsteady_ring_vortex_lattice_method.py: UnsteadyRingVortexLatticeMethodSolver.calculate_vortex_strengths"]}
{"id": "C93", "title": "A repanelled airfoil follows the given outline without overshoot", "statement": "An outline can be repanelled exactly when its x decrease strictly from the first point to the nose and increase strictly from there to the last, with a further point on each side; otherwise a ValueError is raised. Between two neighbouring given points of a side, the points of that side of the repanelled airfoil lie between their heights and rise or fall as they do, so a side keeps any bounds its given points keep; a straight side stays straight; multiplying all heights by a number multiplies the repanelled heights by it. The names naca00xx give, for every number of points per side from two on, a symmetric airfoil with a straight camber line whose upper side is nowhere below the chord.", "quantifier": "all outlines with a nose (of any number of points), all numbers of points per side from two on, all positions on the outline, all factors, all names naca00xx in any case with blanks around them", "why_tests_cant": "Overshoot between points depends on the shape of the outline; a test looks at a few airfoils.", "anchors": ["pterasoftware/geometry.py: Airfoil.__init__, Airfoil.populate_coordinates, Airfoil.repanel_current_airfoil"]}
{"id": "C94", "title": "Whether wings belong to one airplane or to several makes no difference to the physics", "statement": "Take the same wings and distribute them among airplanes in another way (one airplane with a wing and a tail, or one airplane for each; any number of airplanes). The solvers succeed just the same. The velocity at every point, the vortex strengths, the forces on the panels, the wake and the sum of the forces of all airplanes are the same. The moment of a panel changes by the cross product of the shift of its reference point with its force, so the total moment about any common point is the same. For unsteady studies the same holds at every step when the time step is given, and, if nothing moves, also the number of steps.", "quantifier": "all lists of airplanes with wings of any meshes, all ways of distributing their wings among airplanes, all flows; steady horseshoe, steady ring and unsteady solver, every step, free and prescribed wakes", "why_tests_cant": "Panels are numbered and grouped by airplane and wing throughout the solvers; a slip in the numbering shows only for some groupings and meshes.", "anchors": ["pterasoftware/steady_horseshoe_vortex_lattice_method.py: SteadyHorseshoeVortexLatticeMethodSolver.run", "pterasoftware/steady_ring_vortex_lattice_method.py: SteadyRingVortexLatticeMethodSolver.run", "pterasoftware/unsteady_ring_vortex_lattice_method.py: UnsteadyRingVortexLatticeMethodSolver.run", "pterasoftware/movement.py: Movement.__init__"]}
{"id": "C95", "title": "Airplanes far apart do not influence each other", "statement": "Let every airplane of a steady problem be solvable alone in the problem's flow. For every tolerance there is a distance such that, once the airplanes have been moved to be at least that far from each other, in whatever directions, either steady solver solves them together, and every panel's strength, force and moment, every airplane's total force, total moment and coefficients, and the velocity at a point that keeps its place relative to an airplane are those of that airplane alone, up to the tolerance.", "quantifier": "all lists of constructed airplanes, each solvable alone, all operating points, both steady solvers, all tolerances, all displacements of the airplanes, all earlier contents of the objects", "why_tests_cant": "It is a limit: a test tries one formation at one distance and cannot tell a slow decay from an influence that stays; nor can it try every direction, number of airplanes or geometry.", "anchors": ["pterasoftware/steady_horseshoe_vortex_lattice_method.py:SteadyHorseshoeVortexLatticeMethodSolver.run", "pterasoftware/steady_ring_vortex_lattice_method.py:SteadyRingVortexLatticeMethodSolver.run", "pterasoftware/aerodynamics.py:collapsed_velocities_from_line_vortices", "pterasoftware/geometry.py:Airplane"]}
{"id": "C96", "title": "A small change of a steady problem changes the results only a little", "statement": "Let either steady solver solve a problem in which no evaluated point lies exactly where the solvers begin to leave out a filament. For every tolerance there is a margin such that every problem with the same numbers of airplanes, wings and panels whose speed, density, angles, reference points and dimensions, spans and panel vertices differ by less than the margin is solved too, and every panel's strength, force and moment, every airplane's total force and moment and, where the coefficients are defined, its coefficients, and the velocity at any point that is not at the cut-off differ by less than the tolerance. Across the cut-off the velocity does jump.", "quantifier": "all constructed airplanes, all operating points, both steady solvers, all problems that can be solved, all tolerances, all nearby problems, all earlier contents of the objects", "why_tests_cant": "Continuity is a statement about arbitrarily small changes in every direction; a test compares finitely many neighbours at chosen distances and cannot see a jump between them.", "anchors": ["pterasoftware/steady_horseshoe_vortex_lattice_method.py:SteadyHorseshoeVortexLatticeMethodSolver.run", "pterasoftware/steady_ring_vortex_lattice_method.py:SteadyRingVortexLatticeMethodSolver.run", "pterasoftware/aerodynamics.py:collapsed_velocities_from_line_vortices", "pterasoftware/panel.py:Panel", "pterasoftware/operating_point.py:OperatingPoint"]}
{"id": "C97", "title": "A small change of an unsteady problem changes every step only a little", "statement": "Let the unsteady solver solve a problem, with a free or a prescribed wake, in which no point at which it computes the velocity lies exactly where it begins to leave out a filament. For every tolerance there is a margin such that every problem with the same steps and the same numbers of airplanes, wings and panels whose time step and, at every step, speed, density, viscosity, angles, reference points and dimensions, spans and panel vertices differ by less than the margin is solved too, from any state its objects can be in, and at every step the strengths and corners of all bound rings, the corners, strengths and ages of all wake rings, the forces and moments of all panels and the forces, moments and, where defined, coefficients of all airplanes differ by less than the tolerance. So do the final loads of a problem without period, the means and root-mean-squares over the same averaging window of a problem with one, and the velocity at any point that is not at the cut-off.", "quantifier": "all constructed unsteady problems that can be solved, with any number of steps, both wake models, all tolerances, all nearby problems, all states of the solver objects", "why_tests_cant": "Errors of a free wake could grow from step to step without bound; that for any number of steps some margin suffices is a statement about arbitrarily small changes in every direction, which no finite set of neighbours shows.", "anchors": ["pterasoftware/unsteady_ring_vortex_lattice_method.py:UnsteadyRingVortexLatticeMethodSolver.run", "pterasoftware/unsteady_ring_vortex_lattice_method.py:UnsteadyRingVortexLatticeMethodSolver.populate_next_airplanes_wake_vortex_vertices", "pterasoftware/aerodynamics.py:collapsed_velocities_from_ring_vortices", "pterasoftware/problems.py:UnsteadyProblem"]}
{"id": "C98", "title": "A symmetric wing is the wing given in full", "statement": "Let a wing with symmetric=True and a unit normal be accepted. The wing with symmetric=False whose cross sections are given from the left tip through the root to the right tip (each left one with the mirrored leading edge, the same airfoil, chord and twist, the normal turned to point right again, and the panels, hinge and control surface of the section between it and its inner neighbour, with the deflection reversed for an asymmetric control surface) is accepted, and has exactly the same panels in the same order. If the tip has the normal of the root, its span, areas and mean chords are the same as well, and both steady solvers give the same strengths, loads, totals, coefficients and flow in any problem. If the tip is tilted, the span of the wing given in full, which is measured along its first section's normal, is shorter by the cosine of the tilt.", "quantifier": "all accepted symmetric wings (any number of cross sections, sweep, dihedral, twist, airfoils, control surfaces, spacings), all other wings and airplanes, both steady solvers", "why_tests_cant": "The two wings are meshed by different code (the mirrored half by reflecting and flipping arrays, the explicit half directly); agreement on some wings does not show it for all section lists, spacings and control surface types.", "anchors": ["pterasoftware/meshing.py:mesh_wing", "pterasoftware/geometry.py:Wing", "pterasoftware/functions.py:reflect_point_across_plane", "pterasoftware/functions.py:cosspace"]}
{"id": "C99", "title": "A small change of the description of a wing changes its mesh and the results only a little", "statement": "For every wing and every tolerance there is a bound such that a wing described by numbers (leading edges, chords, normals, twists and control surface deflections of its cross sections; leading edge, normal and chordwise direction of the wing) that differ by less than the bound has the same panels within the tolerance, and span, areas and, unless the projected area is zero, mean aerodynamic chord within the tolerance. If the normals are kept and the root stays at the wing's leading edge, such a wing is always accepted. For deflections to be changed, the deflected surface must leave the nose of the airfoil in front and be deflected by less than ninety degrees. It follows that the steady and the unsteady solvers accept problems with such airplanes and give strengths, loads and totals within any tolerance, as long as no evaluated point lies exactly on the border of the cut-off of a filament (C96, C97).", "quantifier": "all accepted wings and airplanes, all tolerances, all nearby descriptions; both steady solvers and the unsteady solver, all numbers of steps", "why_tests_cant": "A test compares particular pairs of wings; the bound has to hold for all of the infinitely many nearby descriptions, and deflecting a control surface runs through branches (split index, forward-most point, resampling) that could jump.", "anchors": ["pterasoftware/geometry.py:Wing", "pterasoftware/geometry.py:WingCrossSection", "pterasoftware/geometry.py:Airfoil.add_control_surface", "pterasoftware/geometry.py:Airfoil.get_downsampled_mcl", "pterasoftware/meshing.py:mesh_wing", "pterasoftware/geometry.py:Airplane"]}
{"id": "C100", "title": "A small change of a movement changes the motion and the unsteady results only a little", "statement": "For every movement and every tolerance there is a bound such that an accepted movement with the same number of steps whose amplitudes, periods, base numbers and time step differ by less than the bound has, at every step, wings, airplanes and operating points within the tolerance. A quantity at rest (amplitude zero) may also begin to move with a small amplitude and any period. It follows that the unsteady solver accepts the problem of such a movement and gives, at every step, rings, wakes, strengths, loads and coefficients within the tolerance, and means and root-mean-squares within the tolerance if the averaging window is the same. Custom functions have to be continuous, and no outer cross section may be straight above or below its inner neighbour at the first step: such a section ignores the motion prescribed for it, while one moved sideways by however little does not, so there the motion jumps.", "quantifier": "all accepted movements of any number of airplanes, wings and cross sections, all numbers of steps, all tolerances, all nearby movements", "why_tests_cant": "A test compares particular pairs of movements; the bound has to hold for all of the infinitely many nearby ones, and each cross section's position at each step is built from the position of its inner neighbour, through angles, waves and branches for amplitude zero, period zero and vertical sections.", "anchors": ["pterasoftware/movement.py:WingCrossSectionMovement.generate_wing_cross_sections", "pterasoftware/movement.py:WingMovement.generate_wings", "pterasoftware/movement.py:AirplaneMovement.generate_airplanes", "pterasoftware/movement.py:OperatingPointMovement.generate_operating_points", "pterasoftware/movement.py:oscillating_sinspace", "pterasoftware/movement.py:oscillating_linspace", "pterasoftware/movement.py:oscillating_customspace", "pterasoftware/problems.py:UnsteadyProblem"]}
{"id": "C101", "title": "An entry of the examples menu runs the example it names", "statement": "A click on an entry of the graphical interface's examples menu runs the example whose name the entry shows, however often and in whatever order the entries are clicked, and the line it writes into the terminal is true.", "quantifier": "all histories of clicks on all entries, all orders in which the operating system lists the directory, examples that come to their end, raise or are missing", "why_tests_cant": "A test clicks a few entries on one machine; the directory order is arbitrary and what a click does depends on everything that was run before.", "anchors": ["main.py:MainWindow.__init__", "main.py:MainWindow.exampleMenu", "main.py:MainWindow.printTerminalOutput", "pterasoftware/ui_resources/main_window.py:Ui_MainWindowDesign.retranslateUi", "examples/__init__.py"]}
{"id": "C102", "title": "Airplanes far apart do not influence each other during an unsteady run", "statement": "If the movement of every airplane is accepted and its unsteady problem can be solved with the airplane alone, then the movements of the airplanes built at places far enough apart are accepted and can be solved together, and at every time step the strengths, the wake (places, strengths and ages of its rings), the forces, moments and coefficients of every airplane, and the velocity at points beside it, are as near as desired to those of the airplane alone, moved to its place; so are the final, mean and root-mean-square results, if the averaging window is the same.", "quantifier": "all families of movements, numbers of steps, flows, states of the solvers, free or prescribed wakes, directions in which the airplanes are moved apart, tolerances and time steps", "why_tests_cant": "A test runs two airplanes at a few distances for a few steps; the statement is about all directions, all tolerances and an influence that accumulates over all steps of the free wake.", "anchors": ["pterasoftware/unsteady_ring_vortex_lattice_method.py:UnsteadyRingVortexLatticeMethodSolver.run", "pterasoftware/unsteady_ring_vortex_lattice_method.py:UnsteadyRingVortexLatticeMethodSolver.calculate_wing_wing_influences", "pterasoftware/unsteady_ring_vortex_lattice_method.py:UnsteadyRingVortexLatticeMethodSolver.populate_next_airplanes_wake_vortex_vertices", "pterasoftware/aerodynamics.py:expanded_velocities_from_ring_vortices", "pterasoftware/movement.py:Movement"]}
{"id": "C103", "title": "Unsteady results in other units of length and time", "statement": "Take any study that the movement classes accept, multiply every length in it by l and every velocity by c, and so every period and the time step by l / c. The changed study is accepted, with the same number of steps and the same steps to average over; the time step it chooses itself is l / c times the one chosen before, and at every step its airplanes are the enlarged ones. With the viscosity multiplied by l c (the same Reynolds number), its unsteady run succeeds if the first one did, and at every step the velocity at l q is c times that at q, bound and wake vortices are at l times their places with l c times the strengths and l / c times the ages, forces are (l c)^2 and moments l (l c)^2 times as large, and all coefficients are the same.", "quantifier": "all factors l, c > 0, lists of airplane movements, operating point movements, ways to set the run length and time step, viscosities, states of the solvers, free or prescribed wakes, panels, wake rings and time steps", "why_tests_cant": "A test compares two units on one case; the statement is about every case, and its failure for small units depends on absolute distances inside the solver that no single case shows.", "anchors": ["pterasoftware/unsteady_ring_vortex_lattice_method.py:UnsteadyRingVortexLatticeMethodSolver.run", "pterasoftware/aerodynamics.py:expanded_velocities_from_ring_vortices", "pterasoftware/movement.py:Movement", "pterasoftware/movement.py:WingCrossSectionMovement.generate_wing_cross_sections", "pterasoftware/problems.py:UnsteadyProblem"]}
{"id": "C104", "title": "The progress bar of an unsteady run never goes back and is full at the end", "statement": "While an unsteady solver runs, the progress bar it shows (at the default logging level) is advanced once when all bound vortices are in place, by a hundredth of what the steps take, up to rounding, and once after every step, in proportion to the number of bound and wake ring vortices. It never goes back, never passes its end, is full when the last step is done and not before. The amounts do not depend on earlier runs of the solver. (Not before: false of the code. From two steps on the bar is full when the last and largest step begins.)", "quantifier": "all problems made with the public classes, all states a solver can be in before a run (new, run before, interrupted, sharing its objects with another solver), all numbers of steps and panels", "why_tests_cant": "A test sees the bar of one run; the statement is about the amounts for every number of steps and panels and after every history of the solver.", "anchors": ["pterasoftware/unsteady_ring_vortex_lattice_method.py:UnsteadyRingVortexLatticeMethodSolver.run"]}
{"id": "C105", "title": "A panel can be asked for the velocity its vortices induce", "statement": "A panel's calculate_induced_velocity returns, for every point, the velocity of the ring vortex and the horseshoe vortex on the panel with their strengths, and calculate_normalized_induced_velocity the same with unit strengths. (False of the code: both call methods of the same name on the vortices, which have none. They return only for panels without vortices; after every run of every solver they raise an AttributeError for every panel and point.)", "quantifier": "all panels, all states of their vortices, all points; all problems, all runs of the three solvers, all steps", "why_tests_cant": "A test asks some panels at some points; the statement is about every panel after every run.", "anchors": ["pterasoftware/panel.py:Panel.calculate_induced_velocity", "pterasoftware/panel.py:Panel.calculate_normalized_induced_velocity", "pterasoftware/aerodynamics.py:RingVortex", "pterasoftware/aerodynamics.py:HorseshoeVortex"]}
{"id": "C106", "title": "Cross section objects may be shared by wings", "statement": "A cross section object may be given to any number of wings. Whatever wings are made from the same cross sections before or after, each construction succeeds or fails as with cross sections of its own; and at the end of the session the wing's panels, their numbers, its span, areas and mean chords and all attributes of its cross sections are as if they were its own. (False of one thing: a cross section's chordwise direction, and with it its trailing edge, is that of the last wing it was given to. It is right if no later wing with another chordwise direction shares the cross section.)", "quantifier": "all cross sections, all sequences of wing constructions sharing them in any way (also those that raise), all arguments of the wings", "why_tests_cant": "It ranges over all histories of constructions and all patterns of sharing; a test builds a few wings.", "anchors": ["pterasoftware/geometry.py:Wing.__init__", "pterasoftware/geometry.py:WingCrossSection.unit_chordwise_vector", "pterasoftware/geometry.py:WingCrossSection.trailing_edge", "pterasoftware/meshing.py:mesh_wing"]}
{"id": "C107", "title": "The speed written in a saved animation is the speed it plays at", "statement": "Every frame of a saved animation says at what percentage of the true speed it plays. The percentage, rounded to a whole number, is right: as many simulated seconds pass in a second of the animation. (False of the code: with at most 50 steps a second it says 100%, but the frame rate is rounded down. It plays at most half a percent faster than it says, and slower by less than half a percent and the length of a step; it is right exactly if there are more than 50 steps a second or at most 5 milliseconds of a second are left over after its whole number of steps. With steps of more than a second the frame rate is zero.)", "quantifier": "all animations of solvers with a positive time step; all finished runs", "why_tests_cant": "It ranges over a continuum of time steps, with a frame rate rounded down and a percentage rounded to nearest.", "anchors": ["pterasoftware/output.py:animate"]}
{"id": "C108", "title": "Airplane objects may be part of several steady problems", "statement": "An airplane object may be part of any number of steady problems, solved in any order with either solver. Whatever was solved, raised or interrupted before on problems that share its airplanes, a new solver raises exactly what it would raise with airplanes of its own, and otherwise computes the same velocities and leaves the same total loads on its airplanes and the same strengths and loads on their panels, which remain as the problem's results. (The last part is false: airplanes and panels hold the results of the last run only. They stay until a later run, or the user, concerns the airplane again.)", "quantifier": "all sets of airplanes, all histories of solver runs on problems that share them in any way, including runs that raise or are interrupted and leave anything on their airplanes; both solvers, all operating points", "why_tests_cant": "It ranges over all histories of runs and all patterns of sharing; state left on shared objects by one solver is found by the next.", "anchors": ["pterasoftware/problems.py:SteadyProblem.__init__", "pterasoftware/steady_horseshoe_vortex_lattice_method.py:SteadyHorseshoeVortexLatticeMethodSolver.run", "pterasoftware/steady_ring_vortex_lattice_method.py:SteadyRingVortexLatticeMethodSolver.run", "pterasoftware/functions.py:process_steady_solver_forces"]}
{"id": "C109", "title": "Several unsteady problems may be built from one movement", "statement": "Any number of unsteady problems, with all or only the final results, may be built from one movement. Solvers may be made for them and run in any order, interleaved, repeatedly and with either kind of wake, also when some runs raise or are interrupted, and when steady solvers or the user write to the panels and loads of the airplanes. Every run of a solver then raises exactly what a new solver of the same problem with a movement of its own would raise; otherwise it leaves the same vortex rings, loads, wake records and flow at every step, and appends the same final results to its own problem. The final results of the other problems of the movement are not changed, and stay. Finished runs with the same kind of wake, of any problems of the movement, leave the same vortex rings on the movement's panels at every step, and the same loads at every step for which both problems ask for them.", "quantifier": "all movements and viscosities, all families of problems built from them, all histories of making, running, aborting and interleaving their solvers, both kinds of wake", "why_tests_cant": "It ranges over all histories and interleavings of solvers that work on the same airplane, panel and wake objects.", "anchors": ["pterasoftware/problems.py:UnsteadyProblem.__init__", "pterasoftware/unsteady_ring_vortex_lattice_method.py:UnsteadyRingVortexLatticeMethodSolver.__init__", "pterasoftware/unsteady_ring_vortex_lattice_method.py:UnsteadyRingVortexLatticeMethodSolver.run", "pterasoftware/unsteady_ring_vortex_lattice_method.py:UnsteadyRingVortexLatticeMethodSolver.finalize_near_field_forces_and_moments"]}
