import Verif.Lemmas.Filaments
import Verif.Props.Scaling
import Verif.Props.UnsteadyExample

/-!
# C83, C84, C85: the flow field

The velocity a finished solver reports at any point is that of the vortices it shows, and the freestream. Far away only
the freestream is left (C83). The flow conserves mass (C84). Its vorticity is known (C85).
-/

namespace Ptera

open UnsteadySolver

/-! ## C83 -/

/-- C83 (horseshoe solver): after a run the reported velocity is the freestream and that of the horseshoe vortices on the
panels; at a distance `d` from the ends of all filaments, none longer than `d`, it differs from the freestream by at most
`Σ |Γ| l / (2 π d²)`; and it comes as near to the freestream as wanted far enough away. -/
theorem C83_horseshoe (problem : SteadyProblem) (hmade : ∀ a ∈ problem.airplanes, a.Made) (heap : PanelHeap)
    (loads : List AirplaneLoads) (s : HorseshoeSolver)
    (h : (HorseshoeSolver.create problem heap loads).run = .ok s) :
    let freestream := problem.operatingPoint.freestreamVelocity
    (∀ q, s.results.velocity q = filamentFlow 0 s.filaments q + freestream) ∧
    (∀ q d, 0 < d →
      (∀ f ∈ s.filaments, d ≤ (f.origin - q).norm ∧ d ≤ (f.termination - q).norm ∧ f.length ≤ d) →
      (s.results.velocity q - freestream).norm
        ≤ (s.filaments.map fun f => |f.strength| * f.length).sum / (2 * Real.pi * d ^ 2)) ∧
    (∀ ε > 0, ∃ R, ∀ q : V3, R ≤ q.norm → (s.results.velocity q - freestream).norm ≤ ε) := by
  intro freestream
  have hv : ∀ q, s.results.velocity q = filamentFlow 0 s.filaments q + freestream := fun q => by
    show (s.solutionVelocity [q]).headD 0 = _
    rw [HorseshoeSolver.run_filaments hmade h q]
    rfl
  refine ⟨hv, fun q d hd hf => ?_, fun ε hε => ?_⟩
  · rw [hv, add_sub_cancel_right]
    exact filamentFlow_far 0 _ q d hd hf
  · obtain ⟨R, hR⟩ := filamentFlow_vanishes 0 s.filaments ε hε
    exact ⟨R, fun q hq => by rw [hv, add_sub_cancel_right]; exact hR q hq⟩

/-- C83 (ring solver): the same, with the ring vortices of the panels and the horseshoe vortices behind the wings. -/
theorem C83_ring (problem : SteadyProblem) (hmade : ∀ a ∈ problem.airplanes, a.Made) (heap : PanelHeap)
    (loads : List AirplaneLoads) (s : RingSolver)
    (h : (RingSolver.create problem heap loads).run = .ok s) :
    let freestream := problem.operatingPoint.freestreamVelocity
    (∀ q, s.results.velocity q = filamentFlow 0 s.filaments q + freestream) ∧
    (∀ q d, 0 < d →
      (∀ f ∈ s.filaments, d ≤ (f.origin - q).norm ∧ d ≤ (f.termination - q).norm ∧ f.length ≤ d) →
      (s.results.velocity q - freestream).norm
        ≤ (s.filaments.map fun f => |f.strength| * f.length).sum / (2 * Real.pi * d ^ 2)) ∧
    (∀ ε > 0, ∃ R, ∀ q : V3, R ≤ q.norm → (s.results.velocity q - freestream).norm ≤ ε) := by
  intro freestream
  have hv : ∀ q, s.results.velocity q = filamentFlow 0 s.filaments q + freestream := fun q => by
    show (s.solutionVelocity [q]).headD 0 = _
    rw [RingSolver.run_filaments hmade h q]
    rfl
  refine ⟨hv, fun q d hd hf => ?_, fun ε hε => ?_⟩
  · rw [hv, add_sub_cancel_right]
    exact filamentFlow_far 0 _ q d hd hf
  · obtain ⟨R, hR⟩ := filamentFlow_vanishes 0 s.filaments ε hε
    exact ⟨R, fun q hq => by rw [hv, add_sub_cancel_right]; exact hR q hq⟩

/-- C83 (unsteady solver): the velocity the finished solver reports is the freestream of the last step and that of the
rings of the panels and of the wake of that step, with their viscous cores; and it comes as near to the freestream as
wanted far enough away. -/
theorem C83_unsteady {p : UnsteadyProblem} {s s' : UnsteadySolver} {pres sl : Bool} (hp : p.Made) (hs : Reached p s)
    (h : s.run pres sl = .ok s') (k : ℕ) (hk : p.numSteps = k + 1) :
    let op := p.operatingPointAt k
    let velocity := fun q => (s'.solutionVelocity [q]).headD 0
    (∀ q, velocity q = filamentFlow op.nu (s'.filaments k) q + op.freestreamVelocity) ∧
    (∀ q d, 0 < d →
      (∀ f ∈ s'.filaments k, d ≤ (f.origin - q).norm ∧ d ≤ (f.termination - q).norm ∧ f.length ≤ d) →
      (velocity q - op.freestreamVelocity).norm
        ≤ ((s'.filaments k).map fun f => |f.strength| * f.length).sum / (2 * Real.pi * d ^ 2)) ∧
    (∀ ε > 0, ∃ R, ∀ q : V3, R ≤ q.norm → (velocity q - op.freestreamVelocity).norm ≤ ε) := by
  intro op velocity
  have hprob : s'.problem = p := by
    obtain ⟨st, sm, ht⟩ := hs.trace hp h
    exact ht.final_eq.2.2.2.2.2.2
  have hv : ∀ q, velocity q = filamentFlow op.nu (s'.filaments k) q + op.freestreamVelocity := fun q => by
    show (s'.solutionVelocity [q]).headD 0 = _
    rw [C45_solution_velocity hp hs h k hk]
    simp only [List.map_cons, List.map_nil, List.headD_cons]
    rw [UnsteadySolver.flow_filaments, hprob]
  refine ⟨hv, fun q d hd hf => ?_, fun ε hε => ?_⟩
  · rw [hv, add_sub_cancel_right]
    exact filamentFlow_far _ _ q d hd hf
  · obtain ⟨R, hR⟩ := filamentFlow_vanishes op.nu (s'.filaments k) ε hε
    exact ⟨R, fun q hq => by rw [hv, add_sub_cancel_right]; exact hR q hq⟩

/-! ## C84 -/

/-- C84: the velocity a finished steady solver reports has no divergence at any point that is not just on the border of
the region in which the code leaves out a filament. -/
theorem C84_steady (problem : SteadyProblem) (hmade : ∀ a ∈ problem.airplanes, a.Made) (heap : PanelHeap)
    (loads : List AirplaneLoads) :
    (∀ s, (HorseshoeSolver.create problem heap loads).run = .ok s →
      ∀ q, (∀ f ∈ s.filaments, f.OffBorder q) → HasDivergence s.results.velocity q 0) ∧
    (∀ s, (RingSolver.create problem heap loads).run = .ok s →
      ∀ q, (∀ f ∈ s.filaments, f.OffBorder q) → HasDivergence s.results.velocity q 0) := by
  constructor
  · intro s h q hq
    rw [funext (C83_horseshoe problem hmade heap loads s h).1]
    simpa using (filamentFlow_divergence 0 s.filaments q hq).add (hasDivergence_const _ q)
  · intro s h q hq
    rw [funext (C83_ring problem hmade heap loads s h).1]
    simpa using (filamentFlow_divergence 0 s.filaments q hq).add (hasDivergence_const _ q)

/-- C84 (unsteady solver): the same for the flow of every step, cores included, and for the velocity the finished solver
reports. -/
theorem C84_unsteady {p : UnsteadyProblem} {s s' : UnsteadySolver} {pres sl : Bool} (hp : p.Made) (hs : Reached p s)
    (h : s.run pres sl = .ok s') (k : ℕ) (q : V3) (hq : ∀ f ∈ s'.filaments k, f.OffBorder q) :
    HasDivergence (flow s' k) q 0 ∧
    (p.numSteps = k + 1 → HasDivergence (fun q => (s'.solutionVelocity [q]).headD 0) q 0) := by
  have hd : HasDivergence (flow s' k) q 0 := by
    rw [funext (UnsteadySolver.flow_filaments s' k)]
    simpa using (filamentFlow_divergence _ (s'.filaments k) q hq).add (hasDivergence_const _ q)
  refine ⟨hd, fun hk => ?_⟩
  have e : (fun q => (s'.solutionVelocity [q]).headD 0) = flow s' k := by
    funext q
    rw [C45_solution_velocity hp hs h k hk]
    rfl
  rw [e]
  exact hd

/-! ## C85 -/

/-- C85 (horseshoe solver): at a point free of all filaments, the vorticity of the reported velocity is that of the far
ends of the legs, nothing else. -/
theorem C85_horseshoe (problem : SteadyProblem) (hmade : ∀ a ∈ problem.airplanes, a.Made) (heap : PanelHeap)
    (loads : List AirplaneLoads) (s : HorseshoeSolver)
    (h : (HorseshoeSolver.create problem heap loads).run = .ok s) (q : V3) (hq : ∀ f ∈ s.filaments, f.Free q) :
    HasCurl s.results.velocity q ((panelRefs problem.airplanes).map fun r =>
      (((s.heap r).horseshoe.map fun v => v.endVorticity q)).getD 0).sum := by
  rw [funext (C83_horseshoe problem hmade heap loads s h).1]
  have hairplanes : s.airplanes = problem.airplanes := by
    obtain ⟨x, _, _, rfl⟩ := HorseshoeSolver.run_result (counted_of_made hmade) (by simp [HorseshoeSolver.create]) h
    rfl
  have key := HasCurl.sum (panelRefs problem.airplanes)
    (fun r => filamentFlow 0 (((s.heap r).horseshoe.map (·.filaments)).getD []))
    (fun r => ((s.heap r).horseshoe.map fun v => v.endVorticity q).getD 0) q (by
      intro r hr
      cases hv : (s.heap r).horseshoe with
      | none => exact hasCurl_const 0 q
      | some v =>
        simp only [Option.map_some, Option.getD_some]
        refine horseshoe_curl 0 v q fun f hf => hq f ?_
        unfold HorseshoeSolver.filaments
        rw [hairplanes]
        exact List.mem_flatMap.mpr ⟨r, hr, by rw [hv]; exact hf⟩)
  have e : filamentFlow 0 s.filaments = fun p => ((panelRefs problem.airplanes).map fun r =>
      filamentFlow 0 (((s.heap r).horseshoe.map (·.filaments)).getD []) p).sum := by
    funext p
    unfold HorseshoeSolver.filaments
    rw [filamentFlow_flatMap, hairplanes]
  rw [e]
  simpa using key.add (hasCurl_const problem.operatingPoint.freestreamVelocity q)

theorem bound_curl (nu : ℝ) (as : List Airplane) (state : PanelHeap) (q : V3)
    (hq : ∀ f ∈ (panelRefs as).flatMap (fun r => ((state r).ring.map (·.filaments)).getD []), f.Free q) :
    HasCurl (filamentFlow nu ((panelRefs as).flatMap fun r => ((state r).ring.map (·.filaments)).getD [])) q 0 := by
  have key := HasCurl.sum (panelRefs as) (fun r => filamentFlow nu (((state r).ring.map (·.filaments)).getD []))
    (fun _ => 0) q (by
      intro r hr
      cases hv : (state r).ring with
      | none => exact hasCurl_const 0 q
      | some v =>
        simp only [Option.map_some, Option.getD_some]
        exact ring_curl nu _ _ _ _ _ q fun f hf => hq f (List.mem_flatMap.mpr ⟨r, hr, by rw [hv]; exact hf⟩))
  have e : filamentFlow nu ((panelRefs as).flatMap fun r => ((state r).ring.map (·.filaments)).getD [])
      = fun p => ((panelRefs as).map fun r => filamentFlow nu (((state r).ring.map (·.filaments)).getD []) p).sum := by
    funext p
    rw [filamentFlow_flatMap]
  rw [e]
  simpa using key

/-- C85 (ring solver): the rings on the panels have no vorticity off their sides; what there is comes from the far ends
of the horseshoe vortices behind the wings. -/
theorem C85_ring (problem : SteadyProblem) (hmade : ∀ a ∈ problem.airplanes, a.Made) (heap : PanelHeap)
    (loads : List AirplaneLoads) (s : RingSolver)
    (h : (RingSolver.create problem heap loads).run = .ok s) (q : V3) (hq : ∀ f ∈ s.filaments, f.Free q) :
    HasCurl s.results.velocity q (s.trailingVortices.map fun v => v.endVorticity q).sum := by
  rw [funext (C83_ring problem hmade heap loads s h).1]
  have h1 := bound_curl 0 s.airplanes s.heap q fun f hf => hq f (List.mem_append.mpr (Or.inl hf))
  have h2 := HasCurl.sum s.trailingVortices (fun v => filamentFlow 0 v.filaments) (fun v => v.endVorticity q) q
    fun v hv => horseshoe_curl 0 v q fun f hf =>
      hq f (List.mem_append.mpr (Or.inr (List.mem_flatMap.mpr ⟨v, hv, hf⟩)))
  have h3 := (h1.add h2).add (hasCurl_const problem.operatingPoint.freestreamVelocity q)
  have e : (fun q => filamentFlow 0 s.filaments q + problem.operatingPoint.freestreamVelocity) = fun p =>
      filamentFlow 0 ((panelRefs s.airplanes).flatMap fun r => ((s.heap r).ring.map (·.filaments)).getD []) p
        + (s.trailingVortices.map fun v => filamentFlow 0 v.filaments p).sum
        + problem.operatingPoint.freestreamVelocity := by
    funext p
    unfold RingSolver.filaments
    rw [filamentFlow_append, filamentFlow_flatMap _ s.trailingVortices]
  rw [e]
  simpa using h3

/-- C85: at a distance `d` or more from both far ends, the vorticity of the far ends is at most `|Γ| / (2 π d²)`. -/
theorem C85_small (v : HorseshoeVortex) (q : V3) (d : ℝ) (hd : 0 < d) (h1 : d ≤ (q - v.rightLegOrigin).norm)
    (h2 : d ≤ (q - v.leftLegTermination).norm) :
    (v.endVorticity q).norm ≤ |v.strength| / (2 * Real.pi * d ^ 2) := by
  have hpi := Real.pi_pos
  have one : ∀ a : V3, d ≤ a.norm → ((1 / a.norm ^ 3) • a).norm ≤ 1 / d ^ 2 := by
    intro a ha
    have ha0 : 0 < a.norm := lt_of_lt_of_le hd ha
    rw [V3.norm_smul, abs_of_pos (by positivity)]
    rw [show 1 / a.norm ^ 3 * a.norm = 1 / a.norm ^ 2 by field_simp]
    exact one_div_le_one_div_of_le (by positivity) (pow_le_pow_left₀ hd.le ha 2)
  unfold HorseshoeVortex.endVorticity
  rw [V3.norm_smul, abs_div, abs_of_pos (show 0 < 4 * Real.pi by positivity), sub_eq_add_neg]
  have h3 := V3.norm_add_le ((1 / (q - v.leftLegTermination).norm ^ 3) • (q - v.leftLegTermination))
    (-((1 / (q - v.rightLegOrigin).norm ^ 3) • (q - v.rightLegOrigin)))
  rw [V3.norm_neg] at h3
  have h4 := one _ h1
  have h5 := one _ h2
  calc |v.strength| / (4 * Real.pi) * _ ≤ |v.strength| / (4 * Real.pi) * (1 / d ^ 2 + 1 / d ^ 2) := by
        gcongr; linarith
    _ = |v.strength| / (2 * Real.pi * d ^ 2) := by field_simp; ring

/-- C85 (unsteady solver): the flow of the rings on the panels has no vorticity at a point free of them, at any step; and
at the first two steps, at which no wake ring has a core yet, neither has the whole flow. -/
theorem C85_unsteady {p : UnsteadyProblem} {s s' : UnsteadySolver} {pres sl : Bool} (hp : p.Made) (hs : Reached p s)
    (h : s.run pres sl = .ok s') (k : ℕ) (hk : k < p.numSteps) (q : V3) (hq : ∀ f ∈ s'.filaments k, f.Free q) :
    HasCurl (boundFlow s' k) q 0 ∧ (k ≤ 1 → HasCurl (flow s' k) q 0) := by
  have hprob : s'.problem = p := by
    obtain ⟨st, sm, ht⟩ := hs.trace hp h
    exact ht.final_eq.2.2.2.2.2.2
  have h1 := bound_curl (s'.problem.operatingPointAt k).nu (s'.problem.airplanesAt k) (s'.panels k) q fun f hf =>
    hq f (List.mem_append.mpr (Or.inl hf))
  have e1 : boundFlow s' k = filamentFlow (s'.problem.operatingPointAt k).nu
      ((panelRefs (s'.problem.airplanesAt k)).flatMap fun r => ((s'.panels k r).ring.map (·.filaments)).getD []) := by
    funext q
    rw [filamentFlow_flatMap]
    unfold boundFlow
    congr 2
    funext r
    unfold panelInduced
    cases (s'.panels k r).ring with
    | none => simp [filamentFlow]
    | some v =>
      simp [RingVortex.filaments, ringFilaments, filamentFlow, ringInduced]
      abel
  rw [e1]
  refine ⟨h1, fun hk1 => ?_⟩
  have hage : ∀ w ∈ s'.wakeArrays[k]?.getD [], w.age = 0 := by
    obtain ⟨st, sm, ht⟩ := hs.trace hp h
    intro w hw
    have hrec := ht.record_eq hk
    rw [List.getD_eq_getElem?_getD] at hrec
    rw [hrec] at hw
    obtain ⟨a, -, hw⟩ := List.mem_flatMap.mp hw
    obtain ⟨c, hc, rfl⟩ := List.mem_map.mp hw
    have hc0 : c.1 = 0 := by have := (mem_cellsOf.mp hc).1; omega
    show ((c.1 : ℕ) : ℝ) * p.deltaTime = 0
    rw [hc0]
    simp
  have h2 := HasCurl.sum (s'.wakeArrays[k]?.getD [])
    (fun w => filamentFlow (s'.problem.operatingPointAt k).nu w.filaments) (fun _ => 0) q (by
      intro w hw
      have hf : w.filaments = ringFilaments w.backRight w.frontRight w.frontLeft w.backLeft w.strength 0 := by
        unfold WakeSlot.filaments
        rw [hage w hw]
      rw [hf]
      refine ring_curl _ _ _ _ _ _ q fun f hf' => hq f (List.mem_append.mpr (Or.inr (List.mem_flatMap.mpr ⟨w, hw, ?_⟩)))
      rw [hf]
      exact hf')
  have h3 := (h1.add h2).add (hasCurl_const (s'.problem.operatingPointAt k).freestreamVelocity q)
  have e : flow s' k = fun p => filamentFlow (s'.problem.operatingPointAt k).nu
      ((panelRefs (s'.problem.airplanesAt k)).flatMap fun r => ((s'.panels k r).ring.map (·.filaments)).getD []) p
        + ((s'.wakeArrays[k]?.getD []).map fun w => filamentFlow (s'.problem.operatingPointAt k).nu w.filaments p).sum
        + (s'.problem.operatingPointAt k).freestreamVelocity := by
    funext x
    rw [UnsteadySolver.flow_filaments]
    unfold UnsteadySolver.filaments
    rw [filamentFlow_append, filamentFlow_flatMap _ (s'.wakeArrays[k]?.getD [])]
  rw [e]
  simpa using h3

/-! ## Concrete cases -/

/-- The hypotheses are met: both steady solvers solve the plate at 10 degrees of angle of attack; they show three and seven
filaments, and there are points free of all of them, off all borders. -/
example : ∃ (a : Airplane) (s : HorseshoeSolver) (t : RingSolver) (q q' : V3), a.Made ∧
    (HorseshoeSolver.create ⟨[a], { velocity := 10, density := 1, alpha := 10, beta := 0 }⟩ .fresh []).run = .ok s ∧
    (RingSolver.create ⟨[a], { velocity := 10, density := 1, alpha := 10, beta := 0 }⟩ .fresh []).run = .ok t ∧
    s.filaments.length = 3 ∧ t.filaments.length = 7 ∧
    (∀ f ∈ s.filaments, f.Free q ∧ f.OffBorder q) ∧ (∀ f ∈ t.filaments, f.Free q' ∧ f.OffBorder q') := by
  obtain ⟨a, hmade, hrefs, hp, hspan, -, -, -, -⟩ := plate_airplane_at 1 0
  set op : OperatingPoint := { velocity := 10, density := 1, alpha := 10, beta := 0 } with hop
  have hd : |op.freestreamDirection.y| ≤ op.freestreamDirection.x := flies_ahead 1 10 10 (by norm_num)
  obtain ⟨s, hs, -⟩ := plate_horseshoe_run op hmade hrefs hp hspan hd .fresh []
  obtain ⟨t, ht, -⟩ := plate_ring_run op hmade hrefs hp hspan hd .fresh []
  obtain ⟨q, hq⟩ := exists_free s.filaments
  obtain ⟨q', hq'⟩ := exists_free t.filaments
  have hm : ∀ b ∈ (⟨[a], op⟩ : SteadyProblem).airplanes, b.Made := by simpa using hmade
  have hsa : s.airplanes = [a] := by
    obtain ⟨x, _, _, rfl⟩ := HorseshoeSolver.run_result (counted_of_made hm) (by simp [HorseshoeSolver.create]) hs
    rfl
  have hta : t.airplanes = [a] := by
    obtain ⟨x, _, _, rfl⟩ := RingSolver.run_result (counted_of_made hm) (by simp [RingSolver.create])
      (by simp [RingSolver.create]) (by simp [RingSolver.create]) ht
    rfl
  have hlast : panelAt [a] ⟨0, 0, 1, 0⟩ = none := by
    by_contra hcon
    obtain ⟨p, hp'⟩ := Option.ne_none_iff_exists'.mp hcon
    have := (mem_panelRefs _ _).mpr ⟨p, hp'⟩
    rw [hrefs] at this
    simp at this
  refine ⟨a, s, t, q, q', hmade, hs, ht, ?_, ?_, hq, hq'⟩
  · obtain ⟨Γ, -, hv, -⟩ := HorseshoeSolver.run_values hm hs
    obtain ⟨v, hv, -⟩ := hv _ _ hp
    simp [HorseshoeSolver.filaments, hsa, hrefs, hv, HorseshoeVortex.filaments]
  · obtain ⟨A, w, hA, hw, -⟩ := panelAt_cell hp
    obtain ⟨ring, v, h1, h2, -⟩ := C39_trailing_horseshoes ⟨[a], op⟩ hm .fresh [] t ht _ _ hp hlast A hA w hw
    simp [RingSolver.filaments, RingSolver.trailingVortices, hta, hrefs, h1, h2, hlast, HorseshoeVortex.filaments,
      RingVortex.filaments, ringFilaments]

/-- The hypotheses are met: the heaving plate, at any angle of attack up to 90 degrees, at any step. -/
example (A P : ℝ) (n : ℕ) (hn : 0 < n) (dt density velocity alpha : ℝ) (ha : |alpha| ≤ 90) (hdt : 0 < dt)
    (hv : 0 < velocity) (pres sl : Bool) :
    ∃ (p : UnsteadyProblem) (s s' : UnsteadySolver), p.Made ∧ Reached p s ∧ s.run pres sl = .ok s' ∧ p.numSteps = n ∧
      ∀ k, ∃ q : V3, ∀ f ∈ s'.filaments k, f.Free q ∧ f.OffBorder q := by
  obtain ⟨p, hp, _⟩ := heaving_problem A P n hn dt density velocity alpha 0 false
  obtain ⟨s, hs⟩ := hp.create hn
  have hr : Reached p s := .fresh hs
  obtain ⟨s', h'⟩ := hp.run hdt.le hv.le (flies_ahead density velocity alpha ha) hr pres sl
  exact ⟨p, s, s', hp.made, hr, h', hp.steps, fun k => exists_free _⟩

end Ptera
