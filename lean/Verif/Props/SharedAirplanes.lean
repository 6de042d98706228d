import Verif.Spec.SharedAirplanes
import Verif.Props.Trim
import Verif.Props.RingLattice
import Verif.Props.Scaling

/-!
# C108: airplane objects that are part of several steady problems
-/

namespace Ptera

open List

noncomputable section

namespace Hangar

variable {h h' : Hangar} {ids : List ℕ} {op : OperatingPoint} {method : SteadyMethod}

theorem idxOf_of_get (hn : ids.Nodup) {i a : ℕ} (hi : ids[i]? = some a) : a ∈ ids ∧ ids.idxOf a = i := by
  obtain ⟨h1, rfl⟩ := List.getElem?_eq_some_iff.mp hi
  exact ⟨List.getElem_mem h1, hn.idxOf_getElem i h1⟩

theorem panelAt_of {i a : ℕ} (hi : ids[i]? = some a) (g : ℕ → Airplane) (w row col : ℕ) :
    panelAt (ids.map g) ⟨i, w, row, col⟩ = panelAt [g a] ⟨0, w, row, col⟩ := by
  simp [panelAt, wingAt, List.getElem?_map, hi]

/-- Events leave the geometry and the airplanes they do not concern alone. -/
theorem Event.keeps (e : Event ids h h') : h'.geometry = h.geometry ∧ ∀ a ∉ ids, h.Untouched h' a := by
  cases e with
  | raised _ hg ho => exact ⟨hg, ho⟩
  | solved method op _ R hn hrun =>
    have key : ∀ panels loads, (h.store ids panels loads).geometry = h.geometry ∧
        ∀ a ∉ ids, h.Untouched (h.store ids panels loads) a := by
      intro panels loads
      refine ⟨rfl, fun a ha => ⟨rfl, ?_, fun w row col => ?_⟩⟩
      · simp [store, ha]
      · simp [store, ha]
    cases method with
    | horseshoe =>
      unfold solve runHorseshoe at hrun
      cases hr : (HorseshoeSolver.create (h.problem ids op) (h.found ids) (ids.filterMap h.totals)).run with
      | error e => rw [hr] at hrun; cases hrun
      | ok s => rw [hr] at hrun; cases hrun; exact key _ _
    | ring =>
      unfold solve runRing at hrun
      cases hr : (RingSolver.create (h.problem ids op) (h.found ids) (ids.filterMap h.totals)).run with
      | error e => rw [hr] at hrun; cases hrun
      | ok s => rw [hr] at hrun; cases hrun; exact key _ _

theorem Later.keeps {spared : List ℕ} (l : Later spared h h') :
    h'.geometry = h.geometry ∧ ∀ a ∈ spared, h.Untouched h' a := by
  induction l with
  | now => exact ⟨rfl, fun a _ => ⟨rfl, rfl, fun _ _ _ => rfl⟩⟩
  | event ids h' h'' _ hs e ih =>
    obtain ⟨g1, k1⟩ := ih
    obtain ⟨g2, k2⟩ := e.keeps
    refine ⟨g2.trans g1, fun a ha => ?_⟩
    obtain ⟨x1, x2, x3⟩ := k1 a ha
    obtain ⟨y1, y2, y3⟩ := k2 a fun hm => hs a hm ha
    exact ⟨y1.trans x1, y2.trans x2, fun w row col => (y3 w row col).trans (x3 w row col)⟩

theorem store_shows {panels : PanelHeap} {loads : List AirplaneLoads} (hn : ids.Nodup) {R : SteadyResults}
    (ht : R.totals = loads) (hl : ∀ i < ids.length, ∃ L, loads[i]? = some L)
    (hp : ∀ r p, panelAt (ids.map h.geometry) r = some p →
      (match method with
        | .horseshoe => (panels r).horseshoe.map (·.strength)
        | .ring => (panels r).ring.map (·.strength)) = R.strength r ∧ (panels r).loads = R.loads r) :
    (h.store ids panels loads).Shows method ids R := by
  intro i a hi
  obtain ⟨hm, hx⟩ := idxOf_of_get hn hi
  refine ⟨?_, ?_⟩
  · obtain ⟨L, hL⟩ := hl i (List.getElem?_eq_some_iff.mp hi).1
    refine ⟨L, by rw [ht, hL], ?_⟩
    simp [store, hm, hx, hL]
  · intro w row col p hpp
    have hpp' : panelAt (ids.map h.geometry) ⟨i, w, row, col⟩ = some p := by
      rw [panelAt_of hi]
      exact hpp
    obtain ⟨h1, h2⟩ := hp _ p hpp'
    have e : (h.store ids panels loads).panels ⟨a, w, row, col⟩ = panels ⟨i, w, row, col⟩ := by
      simp [store, hm, hx]
    refine ⟨?_, by rw [e]; exact h2⟩
    rw [← h1]
    cases method <;> simp only [strength, e]

end Hangar

open Hangar

variable {g : ℕ → Airplane} {h : Hangar} {ids : List ℕ} {op : OperatingPoint} {method : SteadyMethod}

/-- C108, as far as it holds: take any session in which solvers ran, raised or were interrupted, on problems that share
airplanes in any way. A new solver for any of the airplanes raises exactly what it would raise with airplanes of its own,
used nowhere before; otherwise it computes the same velocities, and its airplanes and their panels show the same results.
Airplanes of other problems keep theirs. -/
theorem C108_own_partial (hlater : Later [] { geometry := g } h) (hn : ids.Nodup) (hmade : ∀ a ∈ ids, (g a).Made) :
    (∀ e, steadyRun method ⟨ids.map g, op⟩ = .error e → h.solve method ids op = .error e) ∧
    ∀ R, steadyRun method ⟨ids.map g, op⟩ = .ok R →
      ∃ h' R', h.solve method ids op = .ok (h', R') ∧ R'.velocity = R.velocity ∧ h'.Shows method ids R ∧
        ∀ a ∉ ids, h.Untouched h' a := by
  have hg : h.geometry = g := hlater.keeps.1
  have hprob : h.problem ids op = ⟨ids.map g, op⟩ := by unfold Hangar.problem; rw [hg]
  have hm : ∀ a ∈ (⟨ids.map g, op⟩ : SteadyProblem).airplanes, a.Made := by
    intro a ha
    obtain ⟨b, hb, rfl⟩ := List.mem_map.mp ha
    exact hmade b hb
  have htot : ∀ R, steadyRun method ⟨ids.map g, op⟩ = .ok R → ∀ i < ids.length, ∃ L, R.totals[i]? = some L := by
    intro R hR i hi
    obtain ⟨R', -, -, -, h3⟩ := C63_speed_and_density method (ids.map g) hm op 1 1 one_ne_zero .fresh .fresh [] [] R hR
    obtain ⟨L, L', h4, -⟩ := h3 i (g ids[i]) (by simp [hi])
    exact ⟨L, h4⟩
  cases method with
  | horseshoe =>
    constructor
    · intro e he
      unfold steadyRun at he
      cases hr : (HorseshoeSolver.create ⟨ids.map g, op⟩).run with
      | ok s => rw [hr] at he; cases he
      | error e' =>
        rw [hr] at he
        cases he
        have he' := HorseshoeSolver.run_error _ (counted_of_made hm) _ _ hr
        unfold Hangar.solve Hangar.runHorseshoe
        rw [hprob]
        cases hr2 : (HorseshoeSolver.create ⟨ids.map g, op⟩ (h.found ids) (ids.filterMap h.totals)).run with
        | ok s =>
          obtain ⟨s', hs', -⟩ := C34_horseshoe_new_solver _ hm _ .fresh _ [] s hr2
          rw [hr] at hs'
          cases hs'
        | error e'' =>
          have := HorseshoeSolver.run_error _ (counted_of_made hm) _ _ hr2
          rw [this, he']
          rfl
    · intro R hR
      have hR0 := hR
      unfold steadyRun at hR
      cases hr : (HorseshoeSolver.create ⟨ids.map g, op⟩).run with
      | error e => rw [hr] at hR; cases hR
      | ok s =>
        rw [hr] at hR
        cases hR
        obtain ⟨s', h1, -, h3, -, h5, h6⟩ := C34_horseshoe_new_solver _ hm .fresh (h.found ids) []
          (ids.filterMap h.totals) s hr
        have hsolve : h.solve .horseshoe ids op = .ok (h.store ids s'.heap s'.loads, s'.results) := by
          unfold Hangar.solve Hangar.runHorseshoe
          rw [hprob, h1]
          rfl
        refine ⟨_, _, hsolve, ?_, ?_, (Event.solved (h := h) .horseshoe op _ _ hn hsolve).keeps.2⟩
        · funext q
          show (s'.solutionVelocity [q]).headD 0 = (s.solutionVelocity [q]).headD 0
          rw [h5]
        · refine store_shows hn h3.symm (by rw [h3]; exact htot _ hR0) ?_
          intro r p hp
          rw [hg] at hp
          obtain ⟨e1, e2⟩ := h6 r p hp
          exact ⟨by simp only [e1]; rfl, e2⟩
  | ring =>
    constructor
    · intro e he
      unfold steadyRun at he
      cases hr : (RingSolver.create ⟨ids.map g, op⟩).run with
      | ok s => rw [hr] at he; cases he
      | error e' =>
        rw [hr] at he
        cases he
        have hc := counted_of_made hm
        have := (RingSolver.Alike.run_error ⟨RingSolver.create_unsolved _ hc .fresh [],
          RingSolver.create_unsolved _ hc (h.found ids) (ids.filterMap h.totals), rfl, rfl, rfl⟩ hr).2
        unfold Hangar.solve Hangar.runRing
        rw [hprob, this]
        rfl
    · intro R hR
      have hR0 := hR
      unfold steadyRun at hR
      cases hr : (RingSolver.create ⟨ids.map g, op⟩).run with
      | error e => rw [hr] at hR; cases hR
      | ok s =>
        rw [hr] at hR
        cases hR
        obtain ⟨s', h1, -, -, -, h3, h5, h6⟩ := C34_ring_new_solver _ hm .fresh (h.found ids) []
          (ids.filterMap h.totals) s hr
        have hsolve : h.solve .ring ids op = .ok (h.store ids s'.heap s'.loads, s'.results) := by
          unfold Hangar.solve Hangar.runRing
          rw [hprob, h1]
          rfl
        refine ⟨_, _, hsolve, ?_, ?_, (Event.solved (h := h) .ring op _ _ hn hsolve).keeps.2⟩
        · funext q
          show (s'.solutionVelocity [q]).headD 0 = (s.solutionVelocity [q]).headD 0
          rw [h5]
        · refine store_shows hn h3.symm (by rw [h3]; exact htot _ hR0) ?_
          intro r p hp
          rw [hg] at hp
          obtain ⟨e1, e2, -⟩ := h6 r p hp
          exact ⟨by simp only [e1]; rfl, e2⟩

/-- C108, as far as it holds: the results of a problem stay on an airplane and its panels, whatever happens to other
airplanes later, until an event concerns that airplane. -/
theorem C108_kept_partial {h₁ h₂ : Hangar} (R : SteadyResults) (i a : ℕ) (hs : h₁.AirplaneShows method a i R)
    (hlater : Later [a] h₁ h₂) : h₂.AirplaneShows method a i R := by
  obtain ⟨k1, k2, k3⟩ := hlater.keeps.2 a (List.mem_singleton.mpr rfl)
  obtain ⟨⟨L, e1, e2⟩, e3⟩ := hs
  refine ⟨⟨L, e1, by rw [k2, e2]⟩, ?_⟩
  intro w row col p hp
  rw [k1] at hp
  have := e3 w row col p hp
  cases method <;> simpa only [strength, k3] using this

/-- C108 fails: solve any problem in which a panel has a vortex of some strength, then make and run a new solver for the
same airplanes at `c` times the speed. It succeeds, and the airplanes of the first problem no longer show its results. -/
theorem C108_replaced_fails (hlater : Later [] { geometry := g } h) (hn : ids.Nodup) (hmade : ∀ a ∈ ids, (g a).Made)
    (R : SteadyResults) (hR : steadyRun method ⟨ids.map g, op⟩ = .ok R) (i w row col : ℕ) (p : Panel)
    (hp : panelAt (ids.map g) ⟨i, w, row, col⟩ = some p) (Γ : ℝ) (hΓ : R.strength ⟨i, w, row, col⟩ = some Γ) (hne : Γ ≠ 0)
    (c : ℝ) (hc : c ≠ 0) (hc1 : c ≠ 1) :
    ∃ h₁ R₁ h₂ R₂, h.solve method ids op = .ok (h₁, R₁) ∧ h₁.Shows method ids R ∧
      h₁.solve method ids { op with velocity := c * op.velocity } = .ok (h₂, R₂) ∧ ¬ h₂.Shows method ids R := by
  have hm : ∀ a ∈ ids.map g, a.Made := by
    intro a ha
    obtain ⟨b, hb, rfl⟩ := List.mem_map.mp ha
    exact hmade b hb
  obtain ⟨h₁, R₁, e1, -, e2, -⟩ := (C108_own_partial (op := op) (method := method) hlater hn hmade).2 R hR
  have hl₁ : Later [] { geometry := g } h₁ :=
    .event ids h h₁ hlater (fun _ _ => List.not_mem_nil) (.solved method op h₁ R₁ hn e1)
  obtain ⟨R', hR', -, h3, -⟩ := C63_speed_and_density method (ids.map g) hm op c 1 hc .fresh .fresh [] [] R hR
  simp only [one_mul] at hR'
  obtain ⟨h₂, R₂, f1, -, f2, -⟩ := (C108_own_partial (op := { op with velocity := c * op.velocity }) (method := method)
    hl₁ hn hmade).2 R' hR'
  refine ⟨h₁, R₁, h₂, R₂, e1, e2, f1, ?_⟩
  intro hshow
  obtain ⟨x, L, L', s1, s2, -⟩ := h3 _ p hp
  rw [hΓ, Option.some.injEq] at s1
  subst s1
  obtain ⟨a, hi⟩ : ∃ a, ids[i]? = some a := by
    cases ha : ids[i]? with
    | some a => exact ⟨a, rfl⟩
    | none => simp [panelAt, wingAt, List.getElem?_map, ha] at hp
  have hgeo : h₂.geometry = g := by
    rw [(Event.solved (h := h₁) method _ h₂ R₂ hn f1).keeps.1, hl₁.keeps.1]
  have hp' : panelAt [h₂.geometry a] ⟨0, w, row, col⟩ = some p := by rw [hgeo, ← panelAt_of hi g]; exact hp
  have t1 := ((hshow i a hi).2 w row col p hp').1
  have t2 := ((f2 i a hi).2 w row col p hp').1
  rw [t1, hΓ, s2, Option.some.injEq] at t2
  rcases mul_left_eq_self₀.mp t2.symm with h' | h'
  · exact hc1 h'
  · exact hne h'

/-- The hypotheses are met: airplane objects that are plates, and either solver; the strength is not zero. -/
example (method : SteadyMethod) : ∃ (g : ℕ → Airplane) (R : SteadyResults) (p : Panel) (Γ : ℝ), (∀ a, (g a).Made) ∧
    Later [] { geometry := g } { geometry := g } ∧ steadyRun method ⟨[7].map g, steepFlow 10⟩ = .ok R ∧
    panelAt ([7].map g) ⟨0, 0, 0, 0⟩ = some p ∧ R.strength ⟨0, 0, 0, 0⟩ = some Γ ∧ Γ ≠ 0 := by
  obtain ⟨a, hmade, hrefs, hp, hspan, -⟩ := plate_airplane
  have hm : ∀ x ∈ (⟨[a], steepFlow 10⟩ : SteadyProblem).airplanes, x.Made := by simpa using hmade
  have only : ∀ r q, panelAt [a] r = some q → r = ⟨0, 0, 0, 0⟩ := by
    intro r q hq
    have := (mem_panelRefs [a] r).mpr ⟨q, hq⟩
    rw [hrefs] at this
    simpa using this
  cases method with
  | horseshoe =>
    obtain ⟨s, hs, hstr⟩ := plate_horseshoe_run (steepFlow 10) hmade hrefs hp hspan (steepFlow_ahead 10) PanelHeap.fresh []
    obtain ⟨-, hlen, hall⟩ := C38_horseshoe _ hm _ _ s hs
    rw [hstr] at hlen
    obtain ⟨slot, hslot⟩ : ∃ slot, s.slots[0]? = some slot :=
      ⟨_, List.getElem?_eq_getElem (by rw [← hlen]; norm_num)⟩
    obtain ⟨q, _, v, Γ, h1, -, h3, h4, h5⟩ := hall 0 slot hslot
    have h6 := only _ _ h1
    rw [h6] at h3
    refine ⟨fun _ => a, s.results, _, Γ, fun _ => hmade, .now, ?_, hp, ?_, ?_⟩
    · simp only [List.map_cons, List.map_nil, steadyRun]
      rw [hs]
      rfl
    · have : v.strength = Γ := h5.2.2.2.2.2.2.2.2.2.2.2.2.1
      simp [HorseshoeSolver.results, h3, this]
    · rw [hstr] at h4
      simp only [List.getElem?_cons_zero, Option.some.injEq] at h4
      rw [← h4, steepFlow_velocity]
      exact (div_neg_of_neg_of_pos (by norm_num) (plateHorseshoe_pos _ (steepFlow_ahead 10))).ne
  | ring =>
    obtain ⟨s, hs, hstr⟩ := plate_ring_run (steepFlow 10) hmade hrefs hp hspan (steepFlow_ahead 10) PanelHeap.fresh []
    obtain ⟨-, hlen, -, hall⟩ := C38_ring _ hm _ _ s hs
    rw [hstr] at hlen
    obtain ⟨slot, hslot⟩ : ∃ slot, s.slots[0]? = some slot :=
      ⟨_, List.getElem?_eq_getElem (by rw [← hlen]; norm_num)⟩
    obtain ⟨q, _, v, Γ, t, h1, -, h3, h4, -, h5⟩ := hall 0 slot hslot
    have h6 := only _ _ h1
    rw [h6] at h3
    refine ⟨fun _ => a, s.results, _, Γ, fun _ => hmade, .now, ?_, hp, ?_, ?_⟩
    · simp only [List.map_cons, List.map_nil, steadyRun]
      rw [hs]
      rfl
    · have : v.strength = Γ := h5.2.2.2.2.2.2.2.2.2.2.2.2.2.2.2.2.2.2.2.2.2.2.1
      simp [RingSolver.results, h3, this]
    · rw [hstr] at h4
      simp only [List.getElem?_cons_zero, Option.some.injEq] at h4
      rw [← h4, steepFlow_velocity]
      exact (div_neg_of_neg_of_pos (by norm_num) (plate_total_pos _ (steepFlow_ahead 10))).ne

end

end Ptera
