{
  "C29": {
    "status": "partial",
    "note": "The property as stated is false of the code. Proved: motionless movements reproduce the base wing if and only if every section is straight above/below its inner neighbour or to its right and displaced in at most one of x and z; airplane and operating point with default references/thrust/viscosity. Negations proved: C29_swept_dihedral_fails, C29_operating_point_fails, C29_airplane_drops_references."
  },
  "C34": {
    "status": "partial",
    "note": "True of the horseshoe solver for any number of reruns (seed points repeated once per run) and of any new horseshoe solver object whatever is on the panels (C34_horseshoe_new_solver), and of the unsteady solver for the strengths, loads and wake of every step, for any solver object of the problem and any number of reruns (C34_unsteady, C34_unsteady_reruns); its result lists are appended to again (C34_unsteady_lists). False of the ring solver object: C34_ring_fails exhibits a problem on which the second run succeeds with another strength; a new ring solver object does reproduce the strengths, arrays, velocities, loads and the vortices on the panels (C34_ring_new_solver)."
  },
  "C36": {
    "status": "partial",
    "note": "The property as stated is false of the code: C36_fails exhibits a run of the steady ring solver on a wing of two panels whose panel forces do not add up to the forces on its five distinct filaments; C36_unsteady_fails exhibits a run of the unsteady solver on the same wing. Proved besides: the exact multiplicities for every row of every wing of the steady ring solver and of every step of the unsteady solver (outer chordwise filaments once, inner ones twice)."
  },
  "C48": {
    "note": "For every pair of optimizers (strategies choosing the next point from the values seen). The imbalance is the one a new solver computes at the point, so purity of the objective is part of the theorem. C48_balance translates the cutoff into forces and moments."
  },
  "C49": {
    "status": "partial",
    "note": "The property is false of the code; its negation is proved for all inputs and optimizers: every evaluation raises, AttributeError when the simulation itself finishes (C49_evaluation_fails), so no trim condition is ever returned (C49_never_trims)."
  },
  "C50": {
    "note": "Proved for every table of results (C50_steady, C50_unsteady) and for the functions themselves (the _analysis theorems); C50_*_ends: an analysis whose iterations do not raise ends with a verdict. C50_zero_moment_masks and C50_unsteady_zero_coefficient state what the code does when a coefficient is exactly 0. C50_steady_iteration and C50_unsteady_iteration say what the result of a setting is."
  },
  "C56": {
    "status": "partial",
    "note": "Proved for everything but the planes: unit normal and chordwise vectors are dropped (C56_normals_dropped), neighbouring sections at the same y raise ZeroDivisionError (C56_vertical_fails) and short sections get no panels (C56_section_lost), which on a symmetric wing raises an error (C56_symmetric_section_fails). The property as stated is false of the code in these respects."
  },
  "C51": {
    "status": "partial",
    "note": "Proved for side force and moments of every finished run (steady, plots, and unsteady with constant dynamic pressure and references). False of induced drag and lift: in every run their products with the coefficients are <= 0, and C51_lift_fails exhibits a printed lift of -1 with CL = 2."
  },
  "C59": {
    "status": "partial",
    "note": "Proved for every finished run of a problem with a period (C59_periodic_partial). False of static problems: after every finished run printing raises IndexError (C59_static_fails)."
  },
  "C60": {
    "status": "partial",
    "note": "Proved without scalars for every run, and with scalars when results are computed at every step. False with scalars when only final results are computed: TypeError in every such run (C60_only_final_fails)."
  },
  "C23": {
    "note": "C23_projected_area derives the planform area from the panels themselves (camber lines lying flat); C23_projected_area_is_trapezoidal and C23_untwisted_wings are its consequences for untwisted wings. With twist the claim about the mean aerodynamic chord is false: C23_projected_area_twisted gives the area and C23_mac_of_twisted_wing_fails a rectangular wing of chord 1 with mean aerodynamic chord 2."
  },
  "C76": {
    "status": "partial",
    "note": "Proved where the change of unit leaves the set of cut-off filaments as it is (C76_length_unit_partial), in particular for every enlargement of airplanes without cut-offs (C76_enlarged). False of the code for small units: C76_small_fails."
  },
  "C79": {
    "status": "partial",
    "note": "Texts: proved for every finished run of the steady solvers and of unsteady problems with a period (printing raises for the others, C59); for the heading count of unsteady texts names must not begin with a tab. Plots: proved for every airplane whose name no later airplane has (C79_plots_partial), and other files are untouched. False of airplanes that share a name: their files show the last one only (C79_same_name_fails); C79_untitled_plots_lost exhibits a study whose plots are lost."
  },
  "C88": {
    "note": "An interrupt inside one of the operations is not covered: the preallocation loop, which appends one array per step, counts as one operation, and so does each method. A ring solver that has solved once does not repeat even complete runs (C34_ring_fails), so C88_ring_again is about those that have not."
  },
  "C89": {
    "note": "In exact arithmetic: with rounding, NumPy notices a singular matrix only if a pivot is exactly 0. If a panel has no area, Python gets NaN strengths instead of the error (see C91)."
  },
  "C90": {
    "note": "Equality of the whole states, without hypotheses on the solver. It shows that 0 for None in the model hides no error of the code."
  },
  "C91": {
    "note": "In Python the normal of such a panel is 0/0 = NaN and np.linalg.solve then returns NaN strengths instead of raising; in the model the run ends in LinAlgError. Either way there are no results that are numbers."
  },
  "C92": {
    "note": "Panels without area have the zero vector for their normal in the model, so the condition then fails and the model raises; Python gets NaN instead (see C91)."
  },
  "C93": {
    "note": "The interpolator is modelled from SciPy's published algorithm; SciPy's source is not in the repository. Cambered four-digit names are covered by the general statements; that their outlines meet the condition on x is not proved."
  },
  "C94": {
    "note": "The unsteady theorem about studies assumes that all airplanes have the same reference point moving alike; the one about problems does not. The default time step and the default number of steps of a motionless study do depend on the grouping, so they are excluded."
  },
  "C96": {
    "note": "Points exactly at the solvers' cut-off are excluded by hypothesis; C96_cut_off_jumps shows that the velocity jumps there. Over the reals; rounding is not modelled."
  },
  "C97": {
    "note": "Points exactly at the solver's cut-off are excluded by hypothesis (see C96_cut_off_jumps). The margin is not computed and may shrink with the number of steps. Over the reals; rounding is not modelled."
  },
  "C98": {
    "note": "Steady solvers only: the movements of a wing given from its left tip are not the mirrored movements of a symmetric wing. Over the reals; rounding is not modelled."
  },
  "C99": {
    "note": "The wings compared must satisfy the constructor's exact requirements (root normal equal to the wing normal, root at the origin, directions perpendicular), which a small change can violate. Hinge positions, airfoils, panel numbers and spacings are kept. Over the reals; rounding is not modelled."
  },
  "C100": {
    "note": "That a nearby movement is accepted is a hypothesis; C31 (C31_movement_accepted) gives it for every movement of accepted wings with documented spacings. Base reference dimensions, viscosities and normals are dropped by the code (C29) and play no part. Over the reals; rounding is not modelled."
  },
  "C101": {
    "note": "Proved: an entry at whose place the listing has the file of an example that has not yet run to its end runs exactly that example. False in general: a finished example is never run again though the terminal says so (C101_again_fails, C101_at_most_once); the entries are right for one order of the directory only (C101_order), and in alphabetical order every entry runs another file (C101_order_fails); a file beginning with \"py\" cannot be run (C101_py_prefix_fails). The widgets are not modelled; the body of the package examples itself (empty) is not counted as a run."
  },
  "C102": {
    "note": "Hypothesis: no point at which the velocity is computed for an airplane alone is exactly on the border of the region in which the solver leaves out a filament, where the computed velocity jumps (C96_cut_off_jumps). Loads are compared at the steps at which both runs compute results: with only_final_results the first such step depends on the longest period among all airplanes."
  },
  "C103": {
    "note": "Proved where the change of units leaves the set of cut-off filaments as it is (C103_similarity_partial): for every run and every factor from 1 up to some number above 1 (C103_slightly_enlarged), and for every factor from 1 on if no filament is cut off (C103_enlarged). What the study itself makes of the change holds without condition (C103_study). False of the code for small units: C103_small_fails."
  },
  "C104": {
    "note": "Proved: the bar never goes back or past its end, is full at the end, starts with a hundredth up to rounding, and its amounts are in proportion to the numbers of rings whatever the history of the solver. False: the bar is full before the last step begins (C104_early_fails); it is not full earlier than that (C104_not_before). How tqdm draws the bar is not modelled."
  },
  "C105": {
    "note": "Proved: panels without vortices answer with zero. False: with a vortex the methods raise AttributeError (C105_fails); after every run of every solver every panel does (C105_horseshoe_fails, C105_ring_fails, C105_unsteady_fails)."
  },
  "C106": {
    "note": "Proved: every construction gives what it gives with cross sections of its own, apart from the directions and trailing edges of the cross sections; those too unless a later wing with another chordwise direction shares them. False in that case (C106_trailing_edge_fails)."
  },
  "C107": {
    "note": "Proved: bounds for the difference between the speed said and played, and exactly when they agree to within half a percent. False in general (C107_fails, C107_slow_fails): the frame rate is rounded down, and the text does not take this into account."
  },
  "C108": {
    "note": "Proved: every new solver gives what it gives with airplanes of its own, after any history; the results stay until an event concerns the airplane. False: that they stay for good (C108_replaced_fails), since they are kept on the airplane objects and not with the problem."
  },
  "C109": {
    "note": "The results of single steps are kept on the movement's airplanes: a later run with the other kind of wake replaces them, which the claim allows; one with the same kind leaves the same (C109_steps). The final results belong to the problem and stay. Positive time step and non-negative period (C109_final) as in C32."
  }
}