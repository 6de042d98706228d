# A Lean 4 model of Ptera Software

Subject: `/repo` (camUrban/PteraSoftware, pinned commit), Python package `pterasoftware`.
All line numbers in this document and in the Lean comments refer to that commit.

## 1. Conventions of the model

* **Numbers.** Python floats are modelled as real numbers (`ℝ`, Mathlib) with exact arithmetic.
  Rounding, overflow, NaN propagation and `-0.0` are not modelled. Where the code compares with
  machine epsilon the model keeps the comparison, with the exact dyadic value 2^-52.
  `nan` appears only where the code writes it explicitly as a result (trim), as a constructor.
* **Errors.** A raised exception is a value: `Except Err α`, where `Err` distinguishes the Python
  exception class. Lean's totalised operations (`x / 0 = 0`, `√(-1) = 0`) are never relied on: where
  Python would produce NaN/inf or raise, the theorem carries exactly the guard that excludes it, or the
  model has an explicit branch.
* **Arrays.** A 2-D numpy array is a list of rows (`List (List α)`), `np.vstack` is `++`, `np.hstack` is
  row-wise `++`, `np.flip(axis=1)` reverses each row, `np.ravel` is `flatten`. A 1-D array is a list.
* **Objects.** An object is a structure; a method that mutates `self` is a function returning the new
  structure. Aliasing is modelled only where it matters (wake ring objects, C44) with an explicit heap. One
  object used in two places (a cross section in two wings, a wing in two airplanes) is two equal values in the model; in
  Python the second use overwrites what the first wrote (`wing_unit_chordwise_vector`, panel strengths and loads).
* **Loops** over ranges or arrays are structural recursion, `List.map`, `List.foldl`, `List.range`.
* **Library calls.** `np.linalg.solve` is the unique solution of the linear system or a `LinAlgError`
  (exact arithmetic). `np.linalg.norm`, `np.cross`, `np.dot`, `np.einsum` are their mathematical meanings.
  `scipy.optimize` minimisers are an arbitrary (universally quantified) sequence of evaluations of the
  objective.

## 2. Layout

* `lean/Verif/Core/*`: vectors, matrices, list grids (no code of the repo, only mathematics).
* `lean/Verif/Model/*`: the model, one file per Python module; every definition cites file and lines.
* `lean/Verif/Spec/*`: small specifications used in statements, independent of the model's helpers.
* `lean/Verif/Lemmas/*`: helper lemmas.
* `lean/Verif/Props/*`: property theorems only, named `Cnn_...`, each followed by an `example` showing a
  concrete, non-trivial case meeting its hypotheses.

## 3. Plan, property by property

| id | modelled | proof method |
|----|----------|--------------|
| C01 | operating_point.py 90-166, entry by entry | matrix algebra, sin²+cos²=1 |
| C02 | rotation, coefficient formulas of functions.py 270-528 | algebra |
| C03 | panel.py 120-421 | cross-product identities, √ |
| C04 | panel.py 180-226 | affine identities |
| C05 | functions.py 661-718 | algebra with unit normal |
| C06 | functions.py 94-151 | algebra, trig addition formulas |
| C07 | functions.py 58-91, np.linspace | cos strictly antitone on [0,π] |
| C08 | functions.py 722-757 | list lemmas |
| C09 | aerodynamics.py 766-1024 kernel; specification is an interval integral | fundamental theorem of calculus |
| C10 | aerodynamics.py 344-1024 loops as folds | induction on lists |
| C11 | kernel | algebra, case split on the cut-off |
| C12 | kernel | dot/cross invariance under orthogonal maps |
| C13 | kernel | positivity, Cauchy–Schwarz |
| C14 | kernel | monotonicity of x ↦ a/(b+x) |
| C15 | kernel + ring/horseshoe functions | C11 and list sums |
| C16 | aerodynamics.py 71-340 as a state machine | invariant by induction on op lists |
| C17 | geometry.py 48-147, 187-344, 524-667, 1128-1150 as decision procedures | case analysis |
| C18–C21 | meshing.py 33-519 over list grids | list induction over sections |
| C22 | geometry.py 346-355, 629-654 | C06 and cross products |
| C23 | geometry.py 358-496, meshing.py | weighted sums over section lists; `Props/Planform.lean`: telescoping sums over the rows and columns of panels; negation for twisted wings |
| C24 | geometry.py 717-998 | polynomial algebra, list lengths; camber line and thickness of an arbitrary outline by cases on the broadcast (`C24_sides`) |
| C25 | geometry.py 917-1191 | list split lemmas, 2-D rotations |
| C26 | movement.py 1364-1485, scipy sawtooth(width .5) | trig, floor arithmetic |
| C27 | movement.py 60-209 | case analysis, ceil |
| C28 | movement.py get_max_period (5 classes) | induction on lists |
| C29 | movement.py 319-449, 556-813, 973-1350 | arctan identities; negation witnesses |
| C30 | movement.py 1172-1181 | sin²+cos²=1 |
| C31 | movement.py 60-209, problems.py 122-143 | list lemmas |
| C32 | problems.py 43-143 | floor arithmetic |
| C33 | both steady solvers, whole run | linearity of influence (C11) + linear solve |
| C34 | state carried across `run` of steady solvers | equality / counterexample |
| C35–C36 | force methods of three solvers | algebra, sums over grids |
| C37–C38 | functions.py 270-607, collapse_geometry | fold/flatten lemmas |
| C39 | initialize_panel_vortices (steady, unsteady) | grid indexing |
| C40–C43 | unsteady solver run loop, wake methods | invariant by induction over steps |
| C44 | wake object arrays on a heap | invariant + counterexample |
| C45–C46 | unsteady solver influences and flapping | as C33 |
| C47 | finalize (1586-1727) | Cauchy–Schwarz over lists |
| C48–C49 | trim.py as a function of an arbitrary optimizer trace | induction over traces |
| C50 | convergence.py loops as a fold with early exit; one setting's iteration (remesh, solve, read coefficients) | induction; unfolding the iteration into a remeshed problem and a solver run |
| C51–C53 | output.py (data part; no graphics) | algebra, list lemmas, floor |
| C54 | functions.py 200-244, the seed points of the three solvers, the streamline polylines of output.py | induction; the run equations of the solvers with the flags of C19 |
| C55 | functions.py 247-267 | case analysis |
| C57–C60 | output.py draw, animate, plot_results_versus_time, print_unsteady_results (data part) | order and sum lemmas, alignment of lists, run invariants; negations for all runs |
| C61 | geometry.py get_downsampled_mcl (`Airfoil.downsampledMcl`) | interpolation between breakpoints at increasing arc lengths; `Spec/Loft.lean` defines length and position on a line independently |
| C62 | meshing.py mesh_wing and the functions it calls | the closed form of the mesh (`sectionPoint`) from `Lemmas/MeshCells`, plus C61 and the closed forms of the spacings |
| C63 | both steady solvers, functions.process_steady_solver_forces | one similarity theorem for both solvers (`Lemmas/Similar*`): an isometry, a scaling of speed and density and a renumbering carry a successful run to a successful run (unique solution of the transformed linear system); here the isometry is the identity |
| C64 | geometry.py Wing/Airplane, meshing.py, operating_point.py, both steady solvers | the mesh commutes with rigid motions (`Lemmas/MovedWing`), then the similarity theorem with the rotation between the two wind axes |
| C65 | as C64, with reflections | the similarity theorem with the reflection in y = 0 (left and right exchanged per wing); symmetric wings by C21 |
| C66 | both steady solvers | the similarity theorem with the identity and a renumbering |
| C67 | movement.py: all `generate_*` methods | the waveforms of C26 sampled, followed through each generator |
| C68 | movement.py, problems.py, the unsteady solver | a similarity invariant of the whole run (`Lemmas/UnsteadySimilar`, `UnsteadyImages`, `UnsteadyTotals`), by induction on the steps, with the identity and another density; started from the API by `Lemmas/Studies` |
| C69 | as C68 | the same invariant with a translation; the generators commute with it (`Lemmas/Shifted`) |
| C70 | as C68 | the same invariant with the reflection in y = 0; symmetric movements generate wings that are their own mirror images (`Lemmas/SymmetricMotion`) |
| C71 | as C68 | the same invariant with a renumbering of airplanes and wings; maxima, means and generated lists follow the renumbering (`Lemmas/Reordered`) |
| C72 | as C68 | the first N steps of a study are a study of N steps (`Lemmas/Prefix`: every generated list of values, sections, wings and airplanes is the beginning of the longer list); each of the two runs is compared with a run of that shorter study by the invariant of C68 (`Lemmas/Causal`) |
| C73 | the three solvers | the right-hand side of every system is zero, so the unique solution is (`Lemmas/ParallelFlow`); unsteady: by strong induction over the steps, since the wake carries the earlier strengths (C41); forces from C35, totals from C37 |
| C74 | `Airfoil.populate_coordinates` with the name and the text of the database file (`Model/AirfoilName`); the reading of one decimal number and the set of files are arguments | the first occurrence of "naca" is found exactly (it does not overlap itself); files by induction over the rows |
| C75 | `draw` and `plot_scalars` as the data they hand to pyvista (`Model/Output`) | from C52 (panels, wake), C57 (colours), C54 (streamlines are unique, so the drawn lines are theirs) and C37 (every panel has loads) |
| C76 | the two steady solvers and the constructors | all of meshing is homogeneous in the lengths (`Lemmas/ScaledWing`), so a unit filament's velocity is divided by the factor unless the cut-off test changes (`Lemmas/ScaledRuns`); the solution of the system is then the scaled one. Partial: the cut-offs are absolute numbers, and `C76_small_fails` shows that every airplane fails when it is small enough (all coefficients become zero) |
| C77 | airfoils, meshing, movements and all three solvers | the camber line, flaps and meshing commute with the mirroring in z = 0 for outlines with a sharp nose (`Lemmas/InvertedAirfoil`, `Lemmas/InvertedWing`); generated motion commutes with it (`Lemmas/InvertedMotion`); the runs are then images under an orthogonal matrix of determinant -1, as for C65 and C70. The hypothesis on noses is needed because `argmin` takes the first of several foremost points; `C77_flap_keeps_nose` gives a condition on the hinge under which deflected outlines meet it |
| C78 | geometry.py 1080-1126 (`repanel_current_airfoil`) with an arbitrary interpolator | list indexing; what is assumed of the interpolator (passing through its nodes, changing sign with the values) is a hypothesis of the theorems that need it, met by the piecewise linear interpolator in the example; PCHIP itself is not modelled |
| C79 | output.py print_steady_results, print_unsteady_results (text, line by line), plot_results_versus_time (figures and files) | list lemmas over the printed lines; file names split uniquely into name and ending; the runs' results from C37, C47 and C58; a negation for airplanes of one name |
| C80 | the three solvers, geometry.Airplane, movement.AirplaneMovement | the similarity theorems of C63 and C68, generalised to reference points that do not move along (`SimilarShapes`, `SimilarFlows`, `SimilarMotion`); the moment gains (reference point - new reference point) x force, which passes to sums and to wind axes because the rotation is proper |
| C81 | movement.py (all classes and spacings), problems.UnsteadyProblem | values of each oscillation at the two steps agree by periodicity of sine, sawtooth and the custom function; induction along the cross sections of a wing, then wings, airplanes, studies; the window by arithmetic of the floor and residues modulo m |
| C82 | meshing.mesh_wing, geometry.Wing, both steady solvers | the grid of a section is the stacking of the grids of its two parts (linear interpolation at equal steps), on the right and mirrored on the left; stacking is associative, so the loop over sections gives the same array (induction on the sections before); the chord integral is additive; solvers by C80, stated for airplanes with the same lattices |
| C83 | solvers' solution velocity against the vortex objects stored on panels and the wake record | the stacked arrays are those of the vortex objects (final heap), sums over filaments; each filament's velocity is at most Γ·l/(2πd²) by Cauchy–Schwarz; the limit from the bound and finitely many filaments |
| C84 | as C83 | the velocity of a filament is a scalar function of two quantities times r1 × r2; its partial derivatives by the chain rule, with the viscous core as a constant added to the denominator; inside the cut-off the velocity is locally constant; sums |
| C85 | as C83 | curl of one filament without core is the difference of two point terms, one for each end (direct computation); telescoping along the legs: three filaments leave the far ends, four in a ring cancel; wake rings at step 1 have age 0, so no core |
| C86 | studies with all speeds multiplied by c (periods and time step divided by c), viscosity in proportion | the generated samples depend on period and time step by their quotient only; induction over the steps with the invariant `StepFaster`: wake geometry equal, strengths times c, ages divided by c, so the core radius (viscosity plus strength, times age) is equal and every induced velocity is times c |
| C87 | result lists of the unsteady problem after runs of two related studies | the step laws of C68-C71, C77, C80 and C86 carried through the window of averaging steps, means and root-mean-squares (`finals_follow`); for `only_final_results` the two problems have the same steps (C72) and both compute loads in the window |
| C88 | the list of operations of a run and the solver after any prefix of it (`Model/Operations.lean`); such solvers are among the `Reached` ones of all unsteady theorems | a run is the fold of its operations; each keeps the invariant of `Reached`, later operations do not touch earlier steps (`Lemmas/Operations.lean`); for the steady solvers, the methods of `run` keep what a run starts from (`Lemmas/AbortedSteady.lean`) |
| C89 | geometry, influence matrices and `np.linalg.solve` of the three solvers | the vortices of two panels in the same place induce the same or opposite velocities, so two columns are proportional (`OnTop`, `linalgSolve_columns`); the mesh of a fin lies in the plane of its sections |
| C90 | all methods of the three solvers | the run with arbitrary numbers as initial strengths (`runUnset`, Spec/Unset) is equal to the run: two states whose panels agree before step `k` and up to strengths after it stay so (`SameUntil`), and storing the solution makes the panels of the step equal |
| C91 | `Panel.area`, `Panel.unit_normal`, the linear systems of the three solvers | a panel without area has the zero vector for its normal in the model, so its row of the matrix is zero, so the determinant is zero, so there is no unique solution; `linalgSolve_iff` connects the model of `np.linalg.solve` with Mathlib's determinant |
| C92 | the runs of the three solvers, their matrices and right-hand sides | `Spec/WellPosed.lean` places filaments with arbitrary strengths on the panels independently of the solvers; the matrix applied to strengths is the normal component of the flow of these filaments, so solvable = injective (Mathlib's determinant) and the solution is unique |
| C93 | `Airfoil(repanel=True)` with SciPy's `PchipInterpolator` (`Model/Pchip.lean`) | the derivatives lie between 0 and three times the neighbouring slopes; such a cubic is a mixture of four monotone ones (`Lemmas/Pchip.lean`) |
| C94 | the three solvers and `Movement` on two lists of airplanes with the same wings | the wings are matched one to one; an instance of the similarity lemmas (`Lemmas/SimilarRuns.lean`, `Lemmas/UnsteadySimilar.lean`) with the identity map; sums over airplanes are rearranged into sums over wings |
| C95 | both steady solvers on a formation of airplanes, each moved by its own displacement (`MovedSeparately`, `Apart`, Spec/FarApart) | the influence of a line vortex decays with the distance (Lemmas/Limits; the trailing legs have a finite length, so the directions do not matter); the formation's system tends to the block-diagonal one of the airplanes alone, whose solution is unique because each block's is; Cramer's rule makes the solution continuous in the system; loads are continuous in strengths and velocities; the distance comes by contradiction from a sequence of counterexamples |
| C96 | both steady solvers on two problems of the same shape that differ little (`SteadyProblem.Near`, `AtCutOff`, Spec/Nearby) | off the cut-off the velocity of a filament is continuous in its ends and in the point; the unit normals are continuous because only panels with area are solved (C91); Cramer's rule makes the strengths continuous in the system; loads and totals are continuous in strengths and velocities; the margin comes by contradiction from a sequence of counterexamples; `C96_cut_off_jumps` exhibits a filament whose velocity jumps at the cut-off, which is why such points are excluded |
| C97 | the unsteady solver on two problems of the same shape that differ little at every step (`UnsteadyProblem.Near`, `EvaluatedAt`, `StepNear`, Spec/NearbyUnsteady) | strong induction over the steps for a sequence of problems tending to the given one: wake vertices, strengths (Cramer's rule, C91, C92) and the flow of each step are limits of those of the nearby problems; loads follow from them; the margin comes by contradiction from a sequence of counterexamples; means and root-mean-squares by C47 and the triangle inequality |
| C98 | `Wing.create` with `symmetric=True`, and without it on the sections of both halves (`bothHalves`, Spec/FullWing) | reflection is minus the half turn about the normal, so that it commutes with twist; spacings are the same from either end; each flipped mirrored block is the block of the explicit left section; rows by induction over the sections; results by C80 |
| C99 | `Wing.create`, `Airplane.create`, `addControlSurface`, `downsampledMcl`, meshing, all solvers; nearness of descriptions in Spec/NearbyWings | sequences of wings whose numbers tend to those of a wing: rotation, twist, the hinge and the resampling of the camber line are limits (the forward-most point and the split index stay the same), so every vertex tends; results by C96 and C97; acceptance by C17 |
| C100 | `Movement.create`, all `generate` functions, `UnsteadyProblem.create`, unsteady solver; nearness of movements in Spec/NearbyMovements | sequences of movements whose numbers tend to those of a movement: the sine and the triangle wave are continuous and bounded, so every value of every step tends (also if the amplitude tends to zero and the period does anything); cross sections by induction from the root outwards; results by C99 and C97; `C100_vertical_jumps` shows that the exception is needed |
| C101 | main.py `MainWindow.exampleMenu` with the interpreter's table of modules, as a state machine over clicks | invariant by induction over the history: the modules that are not run again are those that have come to their end; names of files and modules by induction over the text; negations for clicking again, for the alphabetical order and for names beginning with "py"; `C101_order` says for which orders the menu is right |
| C102 | unsteady solver with several airplanes; movements built at moved places | the velocity a filament induces is at most a constant over the distance; along any sequence of joint problems with distances growing without bound, induction over the steps gives convergence of wake vertices, of the linear system (to a block-diagonal one), of its solution and of the flow; `C102_studies` is the statement about accepted movements |
| C103 | studies with lengths times l, velocities times c, times times l / c, viscosity times l c | the generated airplanes are homogeneous in the lengths (`Lemmas/ScaledStudy`, on top of C76's `ScaledWing`); induction over the steps with the invariant `StepScaled`: vertices times l, strengths times l c, so every core radius is times l and every induced velocity times c wherever the same filaments are cut off (`Lemmas/ScaledUnsteady`, `ScaledUnsteadyLoads`). Partial: the cut-offs are absolute numbers; `C103_slightly_enlarged` shows that every successful run can be enlarged somewhat, `C103_enlarged` that one without cut-offs can be enlarged at will, `C103_finals_partial` carries the laws over to the final and averaged results, and `C103_small_fails` that every study fails when it is small enough |
| C104 | the length of the bar and the amounts `run` advances it by (`Model/Progress.lean`) | closed form of the list of amounts; sums of prefixes of a list of non-negative numbers. Partial: the amount after a step is the one meant for the step that follows, so nothing is left for the last one: `C104_early_fails` shows that the bar is full when the last step begins, `C104_not_before` that it is not full earlier |
| C105 | the two methods of a panel and the missing methods of the vortices (`Model/PanelVelocity.lean`) | cases on the vortices present; the solvers leave a vortex on every panel (C35, C39). Partial: true only of panels without vortices; `C105_fails` characterises when the methods raise, `C105_horseshoe_fails`, `C105_ring_fails`, `C105_unsteady_fails` show that after a run they always do |
| C106 | `Wing.__init__` on a heap of cross section objects, sequences of constructions (`Model/SharedSections.lean`) | invariant: only the direction of a cross section changes; the checks and the mesh read the given attributes and the direction just written. Partial: `C106_trailing_edge_fails` shows that a later wing with another chordwise direction changes the trailing edge an earlier wing shows; `C106_exact_partial` that this is the only way |
| C107 | the rate, the speed and the text of animations (`Animation.text`) | rounding bounds for the two cases of `animationRate`; the exact condition is an equivalence. Partial: `C107_fails` (steps between half a second and a second play at less than the true speed under the text "Speed: 100%") and `C107_slow_fails` (rate zero) |
| C108 | airplane objects by identity, with what solvers find on them and write to them (`Model/SharedAirplanes.lean`); sessions of runs, those that raise leaving anything on their airplanes | a new solver's run does not depend on what it finds (C34), transported along the identities; frame argument for the airplanes not concerned. Partial: `C108_replaced_fails` (the same airplanes solved at another speed no longer show the first results) |
| C109 | the movement's objects, the result lists by problem and the solvers with their own attributes (`Model/SharedMovement.lean`); sessions are sequences of events (a solver made, run, stopped after any operations; panels and loads written) | invariant of sessions: the wakes at the first step are empty and every solver's arrays are as runs leave them; then as C34 and C88. Frame argument for the lists of other problems; single steps by C72's argument (`C109_steps`) |
| C56 | convergence.py 158-267, 699-945 (copies of the reference) | inversion of the successful copy; negations by evaluation |

## 4. Trusted base

* Lean 4.33.0's kernel and, for each theorem, at most the axioms `propext`, `Classical.choice`, `Quot.sound`
  (Mathlib's reals need them). No axiom is added, no `sorry`, `native_decide` or `bv_decide`.
* The correspondence between model and code, which is by reading (section 1 lists the conventions).
* Modelled (every function body is cited for at least three quarters of its lines): the functions and methods of `aerodynamics.py`, `convergence.py`, `functions.py`, `geometry.py`, `meshing.py`,
  `movement.py`, `operating_point.py`, `panel.py`, `problems.py`, `trim.py`, the three solver modules, and the data part of
  `output.py`, except what the next items list.
* Not modelled: floating-point rounding, numba compilation, matplotlib/pyvista/webp rendering (the data handed to them is),
  `Airfoil.draw`, the GUI (`ui_resources`, `main.py`, `models`) except its examples menu (C101), logging, the drawing of progress bars (what they are told is modelled: C104), wall-clock time, finding airfoil
  data files and parsing one decimal number (the text of a file and the number reader are arguments), SciPy's optimizers (arbitrary strategies). SciPy's `PchipInterpolator` is an
  argument of the airfoil model (an arbitrary function of its data, or an error); only C93 is about the algorithm SciPy publishes for it (`Model/Pchip.lean`, written from memory of it, SciPy's source not being at hand).
* Simplifications worth knowing: a negative age or viscosity makes `math.sqrt` raise in Python, where the model's square
  root is 0; file names are compared as texts, and a name with a line break counts as one line (C79); the state a failed or interrupted unsteady run leaves behind is
  tracked between the methods of the solver, not inside one (C88); an unset (`None`) strength or load reads as 0 in the
  model, where Python would raise: C90 shows that the solvers never read an unset strength; loads are read in two places only, summed for the airplane totals just after every panel of the step has been given its own (`C37_panel_loads`), and averaged over the final window, all of whose steps have them (`C37_unsteady_steps`, C32);
  a panel without area has a NaN normal in Python, which makes all strengths NaN without an error, and the zero vector for its normal in the model, which makes the system singular, so that a
  run that succeeds in the model has none (C91).

## 5. Where the code violates a property

Every row is a theorem with a witness or a general failure; the property's own entry keeps the full statement.

| property | what happens | theorem |
|----------|--------------|---------|
| C23 | twisted wings: the mean aerodynamic chord divides by the projected area; a wing of chord 1 twisted by 60 degrees gets 2 | `C23_mac_of_twisted_wing_fails` |
| C29 | a motionless movement does not reproduce a wing that is both swept and has dihedral (the exact condition is in `C29_static_wing_partial`) | `C29_swept_dihedral_fails` |
| C29 | generated operating points forget external thrust and viscosity | `C29_operating_point_fails` |
| C29 | generated airplanes have weight 0 and default reference dimensions | `C29_airplane_drops_references` |
| C34 | running a steady ring solver object twice can change the solution (strengths are reused as unit strengths) | `C34_ring_fails` |
| C36 | chordwise filaments shared by two panels are loaded twice | `C36_fails`, `C36_unsteady_fails`, `C36_multiplicities`, `C36_unsteady_multiplicities` |
| C49 | every evaluation of the unsteady trim objective raises, so unsteady trim never returns a condition | `C49_evaluation_fails`, `C49_never_trims` |
| C50 | steady: zero moment coefficients of the first airplane hide the changes of the others'; unsteady: a coefficient that stays 0 prevents convergence | `C50_zero_moment_masks`, `C50_unsteady_zero_coefficient` |
| C51 | the printed lift of a plate is -1 while its lift coefficient is 2 | `C51_lift_fails` |
| C56 | convergence studies replace normals and chordwise vectors by the defaults, divide by zero for neighbouring sections at one y, and give short sections no panels (an error on symmetric wings) | `C56_normals_dropped`, `C56_vertical_fails`, `C56_section_lost`, `C56_symmetric_section_fails` |
| C59 | printing the results of a static unsteady problem raises | `C59_static_fails` |
| C60 | animating scalars raises when the first steps' results are not computed | `C60_only_final_fails` |
| C76 | cut-off distances are absolute numbers: every airplane made small enough is refused with a singular system | `C76_small_fails` |
| C79 | airplanes that share a name (as all that were given none do) share their plot files: only the last one's plots are left | `C79_same_name_fails`, `C79_untitled_plots_lost` |
| C101 | a finished example is not run again though the terminal says so; with the repository's files in alphabetical order every entry of the menu runs another file; a file beginning with "py" is looked for under another name | `C101_again_fails`, `C101_order_fails`, `C101_py_prefix_fails` |
| C103 | the same for unsteady problems: every study fails when it is small enough | `C103_small_fails` |
| C104 | the progress bar is full when the last and largest step begins | `C104_early_fails` |
| C105 | a panel that has a vortex raises `AttributeError` when asked for the velocity its vortices induce | `C105_fails`, `C105_horseshoe_fails`, `C105_ring_fails`, `C105_unsteady_fails` |
| C106 | a cross section shared by wings with different chordwise directions shows the direction and trailing edge of the last one | `C106_trailing_edge_fails` |
| C107 | saved animations say "Speed: 100%" with at most 50 steps a second although the frame rate is rounded down (to zero for steps longer than a second) | `C107_fails`, `C107_slow_fails` |
| C108 | results are kept on the airplane and panel objects: solving a second problem that shares an airplane replaces the results of the first | `C108_replaced_fails` |

Also modelled as the code has it: steady trim only logs a wrong number of airplanes, and leaves the operating point at
the last evaluated arguments; solvers keep the freestream of their construction; the graphical
window's `updateDisplayText` always raises (`Window.updateDisplayText`).
