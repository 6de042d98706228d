import Verif.Lemmas.WellPosed
import Verif.Lemmas.UnsteadySimilar
import Verif.Lemmas.PlateRun
import Verif.Props.FlatPanels

/-!
# C92: the strengths found are the only possible ones, and when there are any
-/

namespace Ptera

open UnsteadySolver

/-- C92 (horseshoe solver): a run of a new solver returns results exactly if the only horseshoes on the panels that send
no flow through any panel have no strength; and then the strengths on the panels are the only ones with which, in the
freestream, no flow passes through any panel. -/
theorem C92_horseshoe (as : List Airplane) (hm : ∀ a ∈ as, a.Made) (op : OperatingPoint) (heap : PanelHeap)
    (loads : List AirplaneLoads) :
    let induced := fun Γ => filamentFlow 0 (horseshoesWith as op.freestreamDirection Γ)
    ((∃ s, (HorseshoeSolver.create ⟨as, op⟩ heap loads).run = .ok s) ↔
      ∀ Γ, NoFlowThrough as (induced Γ) (fun _ => 0) → AllZero as Γ) ∧
    ∀ s, (HorseshoeSolver.create ⟨as, op⟩ heap loads).run = .ok s → ∀ Γ,
      NoFlowThrough as (fun q => induced Γ q + op.freestreamVelocity) (fun _ => 0) ↔
        ∀ r p, panelAt as r = some p → ∃ v, (s.heap r).horseshoe = some v ∧ v.strength = Γ r := by
  intro induced
  set P : SteadyProblem := ⟨as, op⟩ with hP
  have hi : ∀ Γ q, induced Γ q = ((panelRefs as).map fun r => Γ r • HorseshoeSolver.panelUnit P r q).sum :=
    fun Γ q => HorseshoeSolver.flow_with (P := P) Γ q
  have hrow : ∀ Γ r p, panelAt as r = some p → (induced Γ p.collocationPoint).dot p.unitNormal
      = ((panelRefs as).map fun j => HorseshoeSolver.coefficient P r j * Γ j).sum := by
    intro Γ r p hp
    rw [hi, dot_sum_smul]
    unfold HorseshoeSolver.coefficient
    rw [geometryOf_eq (as := P.airplanes) hp]
  have hno : ∀ Γ, NoFlowThrough as (induced Γ) (fun _ => 0) ↔
      ∀ i ∈ panelRefs as, ((panelRefs as).map fun j => HorseshoeSolver.coefficient P i j * Γ j).sum = 0 := by
    intro Γ
    constructor
    · intro h i hmem
      obtain ⟨p, hp⟩ := (mem_panelRefs _ _).mp hmem
      have := h i p hp
      rwa [sub_zero, hrow Γ i p hp] at this
    · intro h r p hp
      rw [sub_zero, hrow Γ r p hp]
      exact h r ((mem_panelRefs _ _).mpr ⟨p, hp⟩)
  have hzero : ∀ Γ, AllZero as Γ ↔ ∀ i ∈ panelRefs as, Γ i = 0 := by
    intro Γ
    exact ⟨fun h i hmem => by obtain ⟨p, hp⟩ := (mem_panelRefs _ _).mp hmem; exact h i p hp,
      fun h r p hp => h r ((mem_panelRefs _ _).mpr ⟨p, hp⟩)⟩
  have hsolve := solve_iff_injective (A := HorseshoeSolver.coefficient P) (panelRefs_nodup as)
    ((panelRefs as).map (HorseshoeSolver.rhs P)) (by simp)
  refine ⟨?_, ?_⟩
  · simp only [hno, hzero]
    rw [← hsolve]
    constructor
    · rintro ⟨s, hs⟩
      obtain ⟨Γ, h1, _⟩ := HorseshoeSolver.run_values (P := P) hm hs
      exact ⟨_, h1⟩
    · rintro ⟨x, hx⟩
      exact HorseshoeSolver.run_of_solve (P := P) hm heap loads hx
  · intro s hs Γ'
    obtain ⟨Γ, h1, h2, _⟩ := HorseshoeSolver.run_values (P := P) hm hs
    have huniq := solve_iff_eq h1 Γ'
    constructor
    · intro h r p hp
      obtain ⟨v, e1, e2⟩ := h2 r p hp
      refine ⟨v, e1, e2.trans (huniq.mp ?_ r ((mem_panelRefs _ _).mpr ⟨p, hp⟩))⟩
      intro i hmem
      obtain ⟨c, hc⟩ := (mem_panelRefs _ _).mp hmem
      have := h i c hc
      rw [sub_zero, V3.add_dot, hrow Γ' i c hc] at this
      unfold HorseshoeSolver.rhs
      rw [geometryOf_eq (as := P.airplanes) hc]
      exact eq_neg_of_add_eq_zero_left this
    · intro h r p hp
      have := huniq.mpr (by
        intro i hmem
        obtain ⟨c, hc⟩ := (mem_panelRefs _ _).mp hmem
        obtain ⟨v, e1, e2⟩ := h2 i c hc
        obtain ⟨v', e3, e4⟩ := h i c hc
        rw [e1] at e3
        rw [← e2, ← e4, Option.some.inj e3]) r ((mem_panelRefs _ _).mpr ⟨p, hp⟩)
      rw [sub_zero, V3.add_dot, hrow Γ' r p hp]
      unfold HorseshoeSolver.rhs at this
      rw [geometryOf_eq (as := P.airplanes) hp] at this
      rw [this]
      exact neg_add_cancel _

/-- C92 (ring solver): the same of the rings on the panels and the horseshoes behind the last rows. -/
theorem C92_ring (as : List Airplane) (hm : ∀ a ∈ as, a.Made) (op : OperatingPoint) (heap : PanelHeap)
    (loads : List AirplaneLoads) :
    let induced := fun Γ => filamentFlow 0 (ringsWith as 0 Γ ++ trailingWith as op.freestreamDirection Γ)
    ((∃ s, (RingSolver.create ⟨as, op⟩ heap loads).run = .ok s) ↔
      ∀ Γ, NoFlowThrough as (induced Γ) (fun _ => 0) → AllZero as Γ) ∧
    ∀ s, (RingSolver.create ⟨as, op⟩ heap loads).run = .ok s → ∀ Γ,
      NoFlowThrough as (fun q => induced Γ q + op.freestreamVelocity) (fun _ => 0) ↔
        ∀ r p, panelAt as r = some p → ∃ v, (s.heap r).ring = some v ∧ v.strength = Γ r := by
  intro induced
  set P : SteadyProblem := ⟨as, op⟩ with hP
  have hi : ∀ Γ q, induced Γ q = ((panelRefs as).map fun r => Γ r • (RingSolver.create P).panelUnit r q).sum :=
    fun Γ q => RingSolver.flow_with (P := P) hm Γ q
  have hrow : ∀ Γ r p, panelAt as r = some p → (induced Γ p.collocationPoint).dot p.unitNormal
      = ((panelRefs as).map fun j => RingSolver.coefficient P r j * Γ j).sum := by
    intro Γ r p hp
    rw [hi, dot_sum_smul]
    unfold RingSolver.coefficient
    rw [geometryOf_eq (as := P.airplanes) hp]
  have hno : ∀ Γ, NoFlowThrough as (induced Γ) (fun _ => 0) ↔
      ∀ i ∈ panelRefs as, ((panelRefs as).map fun j => RingSolver.coefficient P i j * Γ j).sum = 0 := by
    intro Γ
    constructor
    · intro h i hmem
      obtain ⟨p, hp⟩ := (mem_panelRefs _ _).mp hmem
      have := h i p hp
      rwa [sub_zero, hrow Γ i p hp] at this
    · intro h r p hp
      rw [sub_zero, hrow Γ r p hp]
      exact h r ((mem_panelRefs _ _).mpr ⟨p, hp⟩)
  have hzero : ∀ Γ, AllZero as Γ ↔ ∀ i ∈ panelRefs as, Γ i = 0 := by
    intro Γ
    exact ⟨fun h i hmem => by obtain ⟨p, hp⟩ := (mem_panelRefs _ _).mp hmem; exact h i p hp,
      fun h r p hp => h r ((mem_panelRefs _ _).mpr ⟨p, hp⟩)⟩
  have hsolve := solve_iff_injective (A := RingSolver.coefficient P) (panelRefs_nodup as)
    ((panelRefs as).map (RingSolver.rhs P)) (by simp)
  refine ⟨?_, ?_⟩
  · simp only [hno, hzero]
    rw [← hsolve]
    constructor
    · rintro ⟨s, hs⟩
      obtain ⟨Γ, h1, _⟩ := RingSolver.run_values (P := P) hm hs
      exact ⟨_, h1⟩
    · rintro ⟨x, hx⟩
      exact RingSolver.run_of_solve (P := P) hm heap loads hx
  · intro s hs Γ'
    obtain ⟨Γ, h1, h2, _⟩ := RingSolver.run_values (P := P) hm hs
    have huniq := solve_iff_eq h1 Γ'
    constructor
    · intro h r p hp
      refine ⟨_, h2 r p hp, ?_⟩
      show Γ r = Γ' r
      refine huniq.mp ?_ r ((mem_panelRefs _ _).mpr ⟨p, hp⟩)
      intro i hmem
      obtain ⟨c, hc⟩ := (mem_panelRefs _ _).mp hmem
      have := h i c hc
      rw [sub_zero, V3.add_dot, hrow Γ' i c hc] at this
      unfold RingSolver.rhs
      rw [geometryOf_eq (as := P.airplanes) hc]
      exact eq_neg_of_add_eq_zero_left this
    · intro h r p hp
      have := huniq.mpr (by
        intro i hmem
        obtain ⟨c, hc⟩ := (mem_panelRefs _ _).mp hmem
        obtain ⟨v', e3, e4⟩ := h i c hc
        rw [h2 i c hc] at e3
        rw [← e4, ← Option.some.inj e3]
        rfl) r ((mem_panelRefs _ _).mpr ⟨p, hp⟩)
      rw [sub_zero, V3.add_dot, hrow Γ' r p hp]
      unfold RingSolver.rhs at this
      rw [geometryOf_eq (as := P.airplanes) hp] at this
      rw [this]
      exact neg_add_cancel _

/-- C92: whether a steady solver returns results depends on the airplanes and the direction of the freestream only, not on
its speed, the density or the viscosity, nor on what was solved before. -/
theorem C92_steady_conditions (as : List Airplane) (hm : ∀ a ∈ as, a.Made) (op op' : OperatingPoint)
    (ha : op'.alpha = op.alpha) (hb : op'.beta = op.beta) (heap heap' : PanelHeap) (loads loads' : List AirplaneLoads) :
    ((∃ s, (HorseshoeSolver.create ⟨as, op⟩ heap loads).run = .ok s) ↔
      ∃ s, (HorseshoeSolver.create ⟨as, op'⟩ heap' loads').run = .ok s) ∧
    ((∃ s, (RingSolver.create ⟨as, op⟩ heap loads).run = .ok s) ↔
      ∃ s, (RingSolver.create ⟨as, op'⟩ heap' loads').run = .ok s) := by
  have hd : op'.freestreamDirection = op.freestreamDirection := by
    rw [C01_freestream_direction, C01_freestream_direction, ha, hb]
  rw [(C92_horseshoe as hm op heap loads).1, (C92_horseshoe as hm op' heap' loads').1, (C92_ring as hm op heap loads).1,
    (C92_ring as hm op' heap' loads').1, hd]
  exact ⟨Iff.rfl, Iff.rfl⟩

section

variable {p : UnsteadyProblem} {s s' : UnsteadySolver} {pres sl : Bool}

/-- C92 (unsteady solver): a run returns results exactly if at no step there are strengths, other than zero, with which the
rings on the panels send no flow through any panel: the wake and the motion of the panels do not matter for this. -/
theorem C92_unsteady (hp : p.Made) (hs : Reached p s) (pres sl : Bool) :
    (∃ s', s.run pres sl = .ok s') ↔ ∀ k < p.numSteps, ∀ Γ,
      NoFlowThrough (p.airplanesAt k) (filamentFlow 0 (ringsWith (p.airplanesAt k)
        ((p.deltaTime / 4) • (p.operatingPointAt k).freestreamVelocity) Γ)) (fun _ => 0) →
      AllZero (p.airplanesAt k) Γ := by
  have hno : ∀ k Γ, NoFlowThrough (p.airplanesAt k) (filamentFlow 0 (ringsWith (p.airplanesAt k)
      ((p.deltaTime / 4) • (p.operatingPointAt k).freestreamVelocity) Γ)) (fun _ => 0) ↔
      ∀ i ∈ panelRefs (p.airplanesAt k), ((panelRefs (p.airplanesAt k)).map fun j =>
        (unitRing p k j (geometryOf (p.airplanesAt k) i).collocationPoint).dot
          (geometryOf (p.airplanesAt k) i).unitNormal * Γ j).sum = 0 := by
    intro k Γ
    constructor
    · intro h i hmem
      obtain ⟨c, hc⟩ := (mem_panelRefs _ _).mp hmem
      have := h i c hc
      rw [sub_zero, flow_with hp.regular.made, dot_sum_smul] at this
      rwa [geometryOf_eq hc]
    · intro h r c hc
      have := h r ((mem_panelRefs _ _).mpr ⟨c, hc⟩)
      rw [geometryOf_eq hc] at this
      rwa [sub_zero, flow_with hp.regular.made, dot_sum_smul]
  have hzero : ∀ k Γ, AllZero (p.airplanesAt k) Γ ↔ ∀ i ∈ panelRefs (p.airplanesAt k), Γ i = 0 := by
    intro k Γ
    exact ⟨fun h i hmem => by obtain ⟨c, hc⟩ := (mem_panelRefs _ _).mp hmem; exact h i c hc,
      fun h r c hc => h r ((mem_panelRefs _ _).mpr ⟨c, hc⟩)⟩
  constructor
  · rintro ⟨s', h⟩ k hk Γ
    obtain ⟨st, sm, ht⟩ := hs.trace hp h
    obtain ⟨X, hX, _⟩ := ht.values hp.regular hk
    rw [hno, hzero]
    unfold wingMatrix at hX
    exact (solve_iff_injective (panelRefs_nodup _) _ (by simp)).mp ⟨_, hX⟩ Γ
  · intro h
    refine run_solvable hp.regular (hs.good hp.regular) ?_ pres sl
    intro k hk b hb
    unfold wingMatrix
    refine (solve_iff_injective (panelRefs_nodup _) b hb).mpr fun Γ => ?_
    have := h k hk Γ
    rwa [hno, hzero] at this

/-- C92 (unsteady solver): after a run, at every step, the strengths on the panels are the only ones with which, in the
freestream and in the wake of that step, no flow passes through the moving panels. -/
theorem C92_unsteady_strengths (hp : p.Made) (hs : Reached p s) (h : s.run pres sl = .ok s') (k : ℕ)
    (hk : k < p.numSteps) (Γ : PanelRef → ℝ) :
    NoFlowThrough (p.airplanesAt k) (fun q => filamentFlow (p.operatingPointAt k).nu (ringsWith (p.airplanesAt k)
          ((p.deltaTime / 4) • (p.operatingPointAt k).freestreamVelocity) Γ
          ++ (s'.wakeArrays[k]?.getD []).flatMap (·.filaments)) q + (p.operatingPointAt k).freestreamVelocity)
        (wallVelocity p k) ↔
      ∀ r c, panelAt (p.airplanesAt k) r = some c → ∃ v, (s'.panels k r).ring = some v ∧ v.strength = Γ r := by
  obtain ⟨st, sm, ht⟩ := hs.trace hp h
  obtain ⟨X, hX, hring, _⟩ := ht.values hp.regular hk
  have hprob : s'.problem = p := ht.final_eq.2.2.2.2.2.2
  unfold wingMatrix at hX
  have huniq := solve_iff_eq hX Γ
  have hwake : ∀ q, filamentFlow (p.operatingPointAt k).nu ((s'.wakeArrays[k]?.getD []).flatMap (·.filaments)) q
      = wakeFlow s' k q := by
    intro q
    unfold wakeFlow
    rw [filamentFlow_flatMap, hprob]
    congr 1
    apply List.map_congr_left
    intro w _
    simp [WakeSlot.filaments, ringFilaments, filamentFlow, ringInduced]
    abel
  have hwall : ∀ r c, panelAt (p.airplanesAt k) r = some c → apparent p k (fun as => (geometryOf as r).collocationPoint)
      = -wallVelocity p k r := by
    intro r c hc
    cases k with
    | zero => simp [apparent, wallVelocity]
    | succ j =>
      have hmem : r ∈ panelRefs (p.airplanesAt j) := by
        rw [panelRefs_same hp.regular (by omega : j < p.numSteps) hk]
        exact (mem_panelRefs _ _).mpr ⟨c, hc⟩
      obtain ⟨c', hc'⟩ := (mem_panelRefs _ _).mp hmem
      simp only [apparent, wallVelocity, hc, hc', Nat.add_sub_cancel, geometryOf_eq hc, geometryOf_eq hc']
      rw [if_neg (by omega), smul_neg]
  have hrow : ∀ r c, panelAt (p.airplanesAt k) r = some c →
      ((filamentFlow (p.operatingPointAt k).nu (ringsWith (p.airplanesAt k)
          ((p.deltaTime / 4) • (p.operatingPointAt k).freestreamVelocity) Γ
          ++ (s'.wakeArrays[k]?.getD []).flatMap (·.filaments)) c.collocationPoint + (p.operatingPointAt k).freestreamVelocity
        - wallVelocity p k r).dot c.unitNormal = 0 ↔
      ((panelRefs (p.airplanesAt k)).map fun j => (unitRing p k j (geometryOf (p.airplanesAt k) r).collocationPoint).dot
          (geometryOf (p.airplanesAt k) r).unitNormal * Γ j).sum = rhsAt p s' k r) := by
    intro r c hc
    rw [filamentFlow_append, filamentFlow_young _ _ (ringsWith_young _ _ _), flow_with hp.regular.made, hwake, rhsAt,
      hwall r c hc, geometryOf_eq hc, ← dot_sum_smul, ← sub_eq_add_neg, add_assoc, add_sub_assoc, V3.add_dot]
    exact ⟨fun h => eq_neg_of_add_eq_zero_left h, fun h => by rw [h]; exact neg_add_cancel _⟩
  constructor
  · intro h r c hc
    refine ⟨_, hring r ((mem_panelRefs _ _).mpr ⟨c, hc⟩), ?_⟩
    show X r = Γ r
    refine huniq.mp ?_ r ((mem_panelRefs _ _).mpr ⟨c, hc⟩)
    intro i hmem
    obtain ⟨d, hd⟩ := (mem_panelRefs _ _).mp hmem
    exact (hrow i d hd).mp (h i d hd)
  · intro h r c hc
    refine (hrow r c hc).mpr (huniq.mpr ?_ r ((mem_panelRefs _ _).mpr ⟨c, hc⟩))
    intro i hmem
    obtain ⟨d, hd⟩ := (mem_panelRefs _ _).mp hmem
    obtain ⟨v, e1, e2⟩ := h i d hd
    rw [hring i hmem] at e1
    rw [← e2, ← Option.some.inj e1]
    rfl

end

/-- Runs to which this applies: the square plate is solved at every speed and density, and its strength is the only one. -/
example (op : OperatingPoint) (hd : |op.freestreamDirection.y| ≤ op.freestreamDirection.x) :
    ∃ (a : Airplane) (p : Panel) (s : HorseshoeSolver) (v : HorseshoeVortex),
      (HorseshoeSolver.create ⟨[a], op⟩).run = .ok s ∧ panelAt [a] ⟨0, 0, 0, 0⟩ = some p ∧
      (s.heap ⟨0, 0, 0, 0⟩).horseshoe = some v ∧ 0 < p.area ∧
      NoFlowThrough [a] (fun q => filamentFlow 0 (horseshoesWith [a] op.freestreamDirection fun _ => v.strength) q
        + op.freestreamVelocity) (fun _ => 0) ∧
      ∀ Γ, NoFlowThrough [a] (filamentFlow 0 (horseshoesWith [a] op.freestreamDirection Γ)) (fun _ => 0) →
        Γ ⟨0, 0, 0, 0⟩ = 0 := by
  obtain ⟨a, hmade, hrefs, hp, hspan, _⟩ := plate_airplane
  have hm : ∀ b ∈ [a], b.Made := by simpa using hmade
  obtain ⟨s, hs, _⟩ := plate_horseshoe_run (op := op) hmade hrefs hp hspan hd .fresh []
  obtain ⟨Γ, _, h2, _⟩ := HorseshoeSolver.run_values (P := ⟨[a], op⟩) hm hs
  obtain ⟨v, e1, e2⟩ := h2 _ _ hp
  have honly : ∀ r p, panelAt [a] r = some p → r = ⟨0, 0, 0, 0⟩ := by
    intro r p hr
    have := (mem_panelRefs [a] r).mpr ⟨p, hr⟩
    rwa [hrefs, List.mem_singleton] at this
  refine ⟨a, _, s, v, hs, hp, e1, (C91_steady [a] hm op .fresh [] (Or.inl ⟨s, hs⟩) _ _ hp).1, ?_, ?_⟩
  · refine ((C92_horseshoe [a] hm op .fresh []).2 s hs _).mpr ?_
    intro r p hr
    obtain rfl := honly r p hr
    exact ⟨v, e1, rfl⟩
  · intro Γ' h
    exact (C92_horseshoe [a] hm op .fresh []).1.mp ⟨s, hs⟩ Γ' h _ _ hp

/-- An unsteady one: the heaving plate. -/
example (A T : ℝ) (n : ℕ) (hn : 0 < n) (dt density velocity alpha : ℝ) (ha : |alpha| ≤ 90) (hdt : 0 < dt)
    (hv : 0 < velocity) (pres sl : Bool) : ∃ (p : UnsteadyProblem) (s s' : UnsteadySolver), p.Made ∧
      UnsteadySolver.create p = .ok s ∧ p.numSteps = n ∧ s.run pres sl = .ok s' ∧
      ∀ k < n, ∀ Γ, NoFlowThrough (p.airplanesAt k) (filamentFlow 0 (ringsWith (p.airplanesAt k)
        ((p.deltaTime / 4) • (p.operatingPointAt k).freestreamVelocity) Γ)) (fun _ => 0) →
        AllZero (p.airplanesAt k) Γ := by
  obtain ⟨p, hp, _⟩ := heaving_problem A T n hn dt density velocity alpha 0 false
  obtain ⟨s, hs⟩ := hp.create hn
  obtain ⟨s', h'⟩ := hp.run hdt.le hv.le (flies_ahead density velocity alpha ha) (.fresh hs) pres sl
  refine ⟨p, s, s', hp.made, hs, hp.steps, h', fun k hk Γ hΓ => ?_⟩
  exact (C92_unsteady hp.made (.fresh hs) pres sl).mp ⟨s', h'⟩ k (by rw [hp.steps]; exact hk) Γ hΓ

end Ptera
