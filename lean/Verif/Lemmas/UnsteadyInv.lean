import Verif.Lemmas.UnsteadyLayout
import Verif.Lemmas.UnsteadyStep
import Verif.Lemmas.Shedding

/-! The invariant of the time loop. -/

namespace Ptera

/-- Number of spanwise panels of a wing of a problem. -/
def UnsteadyProblem.spanOf (p : UnsteadyProblem) (w : WingRef) : ℕ :=
  ((p.wing? w).map (·.numSpanwisePanels)).getD 0
/-- Number of chordwise panels of a wing of a problem. -/
def UnsteadyProblem.chordOf (p : UnsteadyProblem) (w : WingRef) : ℕ :=
  ((p.wing? w).map (·.spec.numChordwisePanels)).getD 0

theorem UnsteadyProblem.Regular.span_same {p : UnsteadyProblem} (h : p.Regular) {j k : ℕ} (hj : j < p.numSteps)
    (hk : k < p.numSteps) (a w : ℕ) : p.spanOf ⟨j, a, w⟩ = p.spanOf ⟨k, a, w⟩ := by
  have := h.wing_same hj hk a w
  unfold spanOf
  have e : ∀ o : Option Wing, o.map (·.numSpanwisePanels) = (o.map Wing.dims).map Prod.snd := by
    intro o; cases o <;> rfl
  rw [e, e, this]

theorem UnsteadyProblem.Regular.chord_same {p : UnsteadyProblem} (h : p.Regular) {j k : ℕ} (hj : j < p.numSteps)
    (hk : k < p.numSteps) (a w : ℕ) : p.chordOf ⟨j, a, w⟩ = p.chordOf ⟨k, a, w⟩ := by
  have := h.wing_same hj hk a w
  unfold chordOf
  have e : ∀ o : Option Wing, o.map (·.spec.numChordwisePanels) = (o.map Wing.dims).map Prod.fst := by
    intro o; cases o <;> rfl
  rw [e, e, this]

theorem UnsteadyProblem.Regular.wingRefs_move {p : UnsteadyProblem} (h : p.Regular) {j k : ℕ} (hj : j < p.numSteps)
    (hk : k < p.numSteps) {w : WingRef} (hw : w ∈ wingRefs j (p.airplanesAt j)) :
    { w with step := k } ∈ wingRefs k (p.airplanesAt k) := by
  obtain ⟨rfl, wing, hwing⟩ := mem_wingRefs.mp hw
  have := h.wing_same hj hk w.airplane w.wing
  refine mem_wingRefs.mpr ⟨rfl, ?_⟩
  have e : p.wing? ⟨w.step, w.airplane, w.wing⟩ = some wing := hwing
  rw [e] at this
  cases hk' : p.wing? { w with step := k } with
  | none => rw [hk'] at this; simp at this
  | some w' => exact ⟨w', rfl⟩

theorem UnsteadyProblem.Regular.counted {p : UnsteadyProblem} (h : p.Regular) (k : ℕ) :
    Counted (p.airplanesAt k) := counted_of_made (h.made k)

theorem sum_wingRefs (p : UnsteadyProblem) (k : ℕ) :
    ((wingRefs k (p.airplanesAt k)).map p.spanOf).sum = UnsteadySolver.totalSpanwise (p.airplanesAt k) := by
  unfold wingRefs UnsteadySolver.totalSpanwise
  rw [List.map_flatMap, List.flatMap_def, List.sum_flatten, List.map_map, ← sum_map_zipIdx (p.airplanesAt k) 0
    (fun a => (a.wings.map (·.numSpanwisePanels)).sum)]
  congr 1
  apply List.map_congr_left
  rintro ⟨a, i⟩ ha
  rw [List.mk_mem_zipIdx_iff_getElem?] at ha
  simp only [Function.comp, List.map_map]
  congr 1
  apply List.ext_getElem
  · simp
  · intro j h1 h2
    have hj : j < a.wings.length := by simpa using h1
    simp [UnsteadyProblem.spanOf, UnsteadyProblem.wing?, ha, hj]

namespace UnsteadySolver

/-- The ring of a panel of step `k`. -/
noncomputable def ringAt (s : UnsteadySolver) (k : ℕ) (r : PanelRef) : RingVortex :=
  ((s.panels k r).ring).getD (RingVortex.mk' 0 0 0 0 0)

/-- Strength of the trailing-edge ring of a wing in column `j`, at step `k`. -/
noncomputable def edgeStrength (p : UnsteadyProblem) (s : UnsteadySolver) (k : ℕ) (w : WingRef) (j : ℕ) : ℝ :=
  (s.ringAt k ⟨w.airplane, w.wing, p.chordOf w - 1, j⟩).strength

/-- The wake ring between vertices `(i, j)` and `(i + 1, j + 1)`. -/
noncomputable def wakeRing (V : List (List V3)) (i j : ℕ) (strength age : ℝ) : RingVortex :=
  { RingVortex.mk' (vertexAt V i j) (vertexAt V i (j + 1)) (vertexAt V (i + 1) j) (vertexAt V (i + 1) (j + 1))
      strength with age := age }

/-- The rings of step `j`, before their strengths are known. -/
noncomputable def boundRing (p : UnsteadyProblem) (j : ℕ) (r : PanelRef) : RingVortex :=
  panelRing (p.airplanesAt j) (p.operatingPointAt j).freestreamVelocity p.deltaTime r

structure WakeInv (p : UnsteadyProblem) (k : ℕ) (s : UnsteadySolver) (addr : WingRef → ℕ × ℕ → ℕ) : Prop where
  wakeAt : ∀ w ∈ wingRefs k (p.airplanesAt k), WakeAt s.toUnsteadyObjects w k (p.spanOf w) (addr w)
  apart : ∀ t ∈ wingRefs k (p.airplanesAt k), ∀ t' ∈ wingRefs k (p.airplanesAt k), t ≠ t' →
    ∀ i < k, ∀ j < p.spanOf t, ∀ i' < k, ∀ j' < p.spanOf t', addr t (i, j) ≠ addr t' (i', j')
  verts : 0 < k → ∀ w ∈ wingRefs k (p.airplanesAt k), (s.vertices w).length = k + 1 ∧
    ∀ row ∈ s.vertices w, row.length = p.spanOf w + 1
  objs : ∀ w ∈ wingRefs k (p.airplanesAt k), ∀ i < k, ∀ j < p.spanOf w,
    s.objects (addr w (i, j)) = wakeRing (s.vertices w) i j (edgeStrength p s (k - 1 - i) w j) (i * p.deltaTime)

structure Inv (p : UnsteadyProblem) (k : ℕ) (s : UnsteadySolver) : Prop where
  problem : s.problem = p
  arraysLen : p.numSteps ≤ s.wakeArrays.length
  arrays : ∀ j < p.numSteps, (s.wakeArrays.getD j []).length = j * totalSpanwise (p.airplanesAt j)
  rings : ∀ j < p.numSteps, ∀ r ∈ panelRefs (p.airplanesAt j), ∃ g,
    (s.panels j r).ring = some ((boundRing p j r).updateStrength g)
  wake : k < p.numSteps → ∃ addr, WakeInv p k s addr

theorem WakeAt.eq {o : UnsteadyObjects} {w : WingRef} {K n : ℕ} {addr : ℕ × ℕ → ℕ} (h : WakeAt o w K n addr) :
    o.wakes w = (List.range K).map fun i => (List.range n).map fun j => some (addr (i, j)) := by
  apply List.ext_getElem
  · simp [h.rows]
  · intro i h1 h2
    have hi : i < K := by simpa using h2
    have hrow := h.cols _ (List.getElem_mem h1)
    apply List.ext_getElem
    · simp [hrow]
    · intro j h3 h4
      have hj : j < n := by omega
      have := h.refs i hi j hj
      unfold refAt at this
      have e : (o.wakes w).getD i [] = (o.wakes w)[i] := by
        rw [List.getD_eq_getElem?_getD, List.getElem?_eq_getElem h1, Option.getD_some]
      rw [e, List.getD_eq_getElem?_getD, List.getElem?_eq_getElem h3, Option.getD_some] at this
      rw [this]
      simp

theorem WakeAt.flatten {o : UnsteadyObjects} {w : WingRef} {K n : ℕ} {addr : ℕ × ℕ → ℕ} (h : WakeAt o w K n addr) :
    (o.wakes w).flatten = ((cellsOf K n).map addr).map some := by
  rw [h.eq]
  unfold cellsOf
  rw [List.map_flatMap, List.map_flatMap, List.flatMap_def]
  simp only [List.map_map]
  rfl

theorem cellsOf_length (K n : ℕ) : (cellsOf K n).length = K * n := by
  unfold cellsOf
  simp [List.length_flatMap]

/-- The addresses of the wake rings of a step in the order of the loops. -/
def wakeAddresses (p : UnsteadyProblem) (k : ℕ) (addr : WingRef → ℕ × ℕ → ℕ) : List ℕ :=
  (wingRefs k (p.airplanesAt k)).flatMap fun w => (cellsOf k (p.spanOf w)).map (addr w)

theorem wakeAddresses_length (p : UnsteadyProblem) (k : ℕ) (addr : WingRef → ℕ × ℕ → ℕ) :
    (wakeAddresses p k addr).length = k * totalSpanwise (p.airplanesAt k) := by
  unfold wakeAddresses
  rw [← sum_wingRefs, List.length_flatMap, ← List.sum_map_mul_left]
  simp [cellsOf_length]

theorem totalPanels_same {p : UnsteadyProblem} (hp : p.Regular) {j k : ℕ} (hj : j < p.numSteps)
    (hk : k < p.numSteps) : totalPanels (p.airplanesAt j) = totalPanels (p.airplanesAt k) := by
  have key : ∀ i, i < p.numSteps → totalPanels (p.airplanesAt i)
      = ((layout (p.airplanesAt 0)).map fun l => (l.map fun d => d.1 * d.2).sum).sum := by
    intro i hi
    rw [← hp.same i hi]
    unfold totalPanels layout
    rw [List.map_map]
    congr 1
    apply List.map_congr_left
    intro a ha
    have hm := hp.made i a ha
    rw [hm.counted, List.length_flatMap]
    simp only [Function.comp, List.map_map]
    congr 1
    apply List.map_congr_left
    intro w hw
    obtain ⟨S, le, n, sym, u, m, sp, hc⟩ := hm.wings w hw
    have h2 := C18_wing_counts S le n sym u m sp w hc
    obtain ⟨hs, _⟩ := Wing.create_ok S le n sym u m sp w hc
    simp only [Function.comp, Wing.dims]
    rw [← h2.2.2.2.1, h2.2.2.2.2, hs]
  rw [key j hj, key k hk]

theorem Inv.ready {p : UnsteadyProblem} (hp : p.Regular) {k : ℕ} {s : UnsteadySolver} (h : Inv p k s)
    (hk : k < p.numSteps) {addr : WingRef → ℕ × ℕ → ℕ} (hw : WakeInv p k s addr) :
    Ready s k (s.ringAt k) (s.ringAt (k - 1)) (wakeAddresses p k addr) := by
  constructor
  · rw [h.problem]; exact hp.counted k
  · intro r hr
    rw [h.problem] at hr
    obtain ⟨g, hg⟩ := h.rings k hk r hr
    simp [ringAt, hg]
  · rw [h.problem]
    unfold wakeAddresses
    rw [List.map_flatMap]
    apply List.flatMap_congr
    intro w hmem
    exact (hw.wakeAt w hmem).flatten
  · rw [h.arrays k hk, wakeAddresses_length]
  · intro hpos
    rw [h.problem]
    refine ⟨by rw [panelRefs_length _ (hp.counted _), totalPanels_same hp (by omega) hk], ?_⟩
    intro r hr
    obtain ⟨g, hg⟩ := h.rings (k - 1) (by omega) r hr
    simp [ringAt, hg]

end UnsteadySolver
end Ptera
