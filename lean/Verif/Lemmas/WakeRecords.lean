import Verif.Lemmas.UnsteadyFlow
import Verif.Lemmas.Operations
import Verif.Lemmas.MadePanels

/-! The wake of a finished run, place by place. -/

namespace Ptera

open UnsteadySolver (cellsOf mem_cellsOf)

theorem mem_wakePlaces {p : UnsteadyProblem} {k : ℕ} {q : WakePlace} :
    q ∈ wakePlaces p k ↔ q.row < k ∧ ∃ wing, p.wing? ⟨k, q.airplane, q.wing⟩ = some wing ∧
      q.col < wing.numSpanwisePanels := by
  unfold wakePlaces UnsteadyProblem.wing?
  simp only [List.mem_flatMap, List.mem_map, List.mem_range, Prod.exists, List.mk_mem_zipIdx_iff_getElem?]
  constructor
  · rintro ⟨a, i, ha, w, j, hw, r, hr, c, hc, rfl⟩
    exact ⟨hr, w, by simp [ha, hw], hc⟩
  · rintro ⟨hr, wing, hw, hc⟩
    obtain ⟨a, ha, hw⟩ := Option.bind_eq_some_iff.mp hw
    exact ⟨a, _, ha, wing, _, hw, q.row, hr, q.col, hc, rfl⟩

/-- The wing a place is behind. -/
def WakePlace.ref (q : WakePlace) (k : ℕ) : WingRef := ⟨k, q.airplane, q.wing⟩

theorem wakePlaces_eq (p : UnsteadyProblem) (k : ℕ) :
    wakePlaces p k = (wingRefs k (p.airplanesAt k)).flatMap fun w =>
      (cellsOf k (p.spanOf w)).map fun c => ⟨w.airplane, w.wing, c.1, c.2⟩ := by
  unfold wakePlaces wingRefs
  rw [List.flatMap_assoc]
  apply List.flatMap_congr
  rintro ⟨a, i⟩ ha
  rw [List.mk_mem_zipIdx_iff_getElem?] at ha
  simp only
  rw [List.flatMap_map]
  apply zipIdx_flatMap_range
  intro j hj
  have hs : p.spanOf ⟨k, i, j⟩ = a.wings[j].numSpanwisePanels := by
    simp [UnsteadyProblem.spanOf, UnsteadyProblem.wing?, ha, hj]
  simp only [hs]
  unfold cellsOf
  rw [List.map_flatMap]
  simp only [List.map_map]
  rfl

theorem UnsteadyProblem.Regular.place_move {p : UnsteadyProblem} (hp : p.Regular) {j k : ℕ} (hj : j < p.numSteps)
    (hk : k < p.numSteps) {q : WakePlace} (hq : q ∈ wakePlaces p j) (hr : q.row < k) : q ∈ wakePlaces p k := by
  obtain ⟨_, wing, hw, hc⟩ := mem_wakePlaces.mp hq
  have h1 : q.ref j ∈ wingRefs j (p.airplanesAt j) := mem_wingRefs.mpr ⟨rfl, wing, hw⟩
  obtain ⟨_, wing', hw'⟩ := mem_wingRefs.mp (hp.wingRefs_move hj hk h1)
  have hs := hp.span_same hj hk q.airplane q.wing
  unfold UnsteadyProblem.spanOf at hs
  change p.wing? ⟨k, q.airplane, q.wing⟩ = some wing' at hw'
  rw [hw, hw'] at hs
  simp only [Option.map_some, Option.getD_some] at hs
  exact mem_wakePlaces.mpr ⟨hr, wing', hw', by omega⟩

theorem panelAt_isSome {p : UnsteadyProblem} (hp : p.Regular) {k a w : ℕ} {wing : Wing}
    (hw : p.wing? ⟨k, a, w⟩ = some wing) (i j : ℕ) :
    (panelAt (p.airplanesAt k) ⟨a, w, i, j⟩).isSome
      ↔ i < wing.spec.numChordwisePanels ∧ j < wing.numSpanwisePanels := by
  obtain ⟨air, ha, hwing⟩ := Option.bind_eq_some_iff.mp hw
  have hm : wing.Made := (hp.made k air (List.mem_of_getElem? ha)).wings wing (List.mem_of_getElem? hwing)
  rw [cell_panelAt (r := ⟨a, w, i, j⟩) ha hwing, Option.isSome_iff_exists, made_cells hm]
  obtain ⟨S, le, n, sym, u, m, sp, hc⟩ := hm
  obtain ⟨c1, _⟩ := C18_wing_counts S le n sym u m sp wing hc
  obtain ⟨hs, _⟩ := Wing.create_ok S le n sym u m sp wing hc
  rw [c1, hs]

/-- The trailing-edge panel of a column is the one in the last row. -/
theorem IsTrailing.eq {p : UnsteadyProblem} (hp : p.Regular) {k : ℕ} {q : WakePlace} {r : PanelRef}
    (h : IsTrailing p k q r) :
    r = ⟨q.airplane, q.wing, p.chordOf (q.ref k) - 1, q.col⟩ ∧ 0 < p.chordOf (q.ref k) ∧
      q.col < p.spanOf (q.ref k) := by
  obtain ⟨h1, h2, h3, h4, h5⟩ := h
  obtain ⟨x, hx⟩ := Option.isSome_iff_exists.mp h4
  obtain ⟨a, w, ha, hw, _⟩ := panelAt_cell hx
  have hwing : p.wing? ⟨k, r.airplane, r.wing⟩ = some w := by
    unfold UnsteadyProblem.wing?; simp [ha, hw]
  have e4 := (panelAt_isSome hp hwing r.row r.col).mp h4
  have e5 : ¬(r.row + 1 < w.spec.numChordwisePanels ∧ r.col < w.numSpanwisePanels) := by
    rw [← panelAt_isSome hp hwing]
    simp only [h5]
    simp
  rw [h1, h2] at hwing
  have hc : p.chordOf (q.ref k) = w.spec.numChordwisePanels := by
    simp [UnsteadyProblem.chordOf, WakePlace.ref, hwing]
  have hs : p.spanOf (q.ref k) = w.numSpanwisePanels := by
    simp [UnsteadyProblem.spanOf, WakePlace.ref, hwing]
  rw [hc, hs]
  refine ⟨?_, by omega, by omega⟩
  cases r
  simp only at h1 h2 h3 e4 e5 ⊢
  simp only [PanelRef.mk.injEq]
  omega

theorem isTrailing_of {p : UnsteadyProblem} (hp : p.Regular) {k : ℕ} {q : WakePlace}
    (hc : 0 < p.chordOf (q.ref k)) (hs : q.col < p.spanOf (q.ref k)) :
    IsTrailing p k q ⟨q.airplane, q.wing, p.chordOf (q.ref k) - 1, q.col⟩ := by
  cases hw : p.wing? (q.ref k) with
  | none => simp [UnsteadyProblem.chordOf, hw] at hc
  | some w =>
    have hc' : p.chordOf (q.ref k) = w.spec.numChordwisePanels := by simp [UnsteadyProblem.chordOf, hw]
    have hs' : p.spanOf (q.ref k) = w.numSpanwisePanels := by simp [UnsteadyProblem.spanOf, hw]
    rw [hs'] at hs
    rw [hc'] at hc ⊢
    refine ⟨rfl, rfl, rfl, (panelAt_isSome hp hw _ _).mpr ⟨by omega, hs⟩, ?_⟩
    have := (panelAt_isSome hp hw (w.spec.numChordwisePanels - 1 + 1) q.col).not.mpr (by omega)
    simpa using this

namespace UnsteadySolver

variable {p : UnsteadyProblem} {pres : Bool} {s s' : UnsteadySolver} {st sm : ℕ → UnsteadySolver}

theorem vertexAt_map {V : List (List V3)} {f : V3 → V3} {i j : ℕ} (hi : i < V.length)
    (hj : ∀ row ∈ V, j < row.length) : vertexAt (V.map fun r => r.map f) i j = f (vertexAt V i j) := by
  have h1 : (V.map fun r => r.map f).getD i [] = V[i].map f := by simp [List.getD_eq_getElem?_getD, hi]
  have h2 : V.getD i [] = V[i] := by simp [List.getD_eq_getElem?_getD, hi]
  have := hj _ (List.getElem_mem hi)
  unfold vertexAt
  rw [h1, h2]
  simp [List.getD_eq_getElem?_getD, this]

/-- The ring recorded at a place. -/
noncomputable def placeRing (p : UnsteadyProblem) (s' : UnsteadySolver) (k : ℕ) (q : WakePlace) : WakeSlot :=
  wakeSlot (wakeRing (s'.vertices (q.ref k)) q.row q.col (edgeStrength p s' (k - 1 - q.row) (q.ref k) q.col)
    (q.row * p.deltaTime))

theorem Trace.places (h : Trace p pres s s' st sm) {k : ℕ} (hk : k < p.numSteps) :
    s'.wakeArrays[k]? = some ((wakePlaces p k).map (placeRing p s' k)) := by
  have hl : k < s'.wakeArrays.length := by have := h.arraysLen; omega
  have := h.record_eq hk
  rw [List.getD_eq_getElem?_getD, List.getElem?_eq_getElem hl, Option.getD_some] at this
  rw [List.getElem?_eq_getElem hl, this, wakePlaces_eq, List.map_flatMap]
  congr 1
  apply List.flatMap_congr
  intro w hw
  rw [List.map_map]
  apply List.map_congr_left
  intro c _
  have hw' : w.step = k := (mem_wingRefs.mp hw).1
  have e : (⟨k, w.airplane, w.wing⟩ : WingRef) = w := by cases w; cases hw'; rfl
  simp only [Function.comp, placeRing, WakePlace.ref, e]

theorem Trace.wakeRecord (h : Trace p pres s s' st sm) {k : ℕ} (hk : k < p.numSteps) {q : WakePlace}
    (hq : q ∈ wakePlaces p k) : wakeRecord s' k q = some (placeRing p s' k q) := by
  unfold Ptera.wakeRecord
  rw [h.places hk, h.final_eq.2.2.2.2.2.2]
  have hi := List.idxOf_lt_length_of_mem hq
  simp [hi]

theorem ringAt_of_panels {r : PanelRef} {k : ℕ} {v : RingVortex} (h : (s.panels k r).ring = some v) :
    s.ringAt k r = v := by simp [ringAt, h]

/-- Vertices of a step. -/
theorem Trace.shape (h : Trace p pres s s' st sm) {k : ℕ} (hk : k < p.numSteps) (h0 : 0 < k) {w : WingRef}
    (hw : w ∈ wingRefs k (p.airplanesAt k)) :
    (s'.vertices w).length = k + 1 ∧ ∀ row ∈ s'.vertices w, row.length = p.spanOf w + 1 := by
  obtain ⟨addr, hi⟩ := (h.inv k (by omega)).wake hk
  rw [h.vertices (k := k) (by omega) (by rw [(mem_wingRefs.mp hw).1])]
  exact hi.verts h0 w hw

theorem Trace.edge_backLeft (h : Trace p pres s s' st sm) {j k : ℕ} (hj : j ≤ p.numSteps) (hk : k < p.numSteps)
    {r : PanelRef} (hr : r ∈ panelRefs (p.airplanesAt k)) :
    ((st j).ringAt k r).backLeft = (s'.ringAt k r).backLeft ∧
    ((st j).ringAt k r).backRight = (s'.ringAt k r).backRight := by
  obtain ⟨g, hg⟩ := (h.inv j hj).rings k hk r hr
  obtain ⟨g', hg'⟩ := h.rings hk hr
  rw [ringAt_of_panels hg, ringAt_of_panels hg']
  exact ⟨rfl, rfl⟩

/-- The first row of vertices of a step lies on the back edges of its trailing-edge rings. -/
theorem Trace.first_row (hp : p.Regular) (h : Trace p pres s s' st sm) {k : ℕ} (hk : k < p.numSteps) (h0 : 0 < k)
    {w : WingRef} (hw : w ∈ wingRefs k (p.airplanesAt k)) (hc : 0 < p.chordOf w) :
    (∀ j < p.spanOf w, vertexAt (s'.vertices w) 0 j
      = (s'.ringAt k ⟨w.airplane, w.wing, p.chordOf w - 1, j⟩).backLeft) ∧
    (0 < p.spanOf w → vertexAt (s'.vertices w) 0 (p.spanOf w)
      = (s'.ringAt k ⟨w.airplane, w.wing, p.chordOf w - 1, p.spanOf w - 1⟩).backRight) := by
  obtain ⟨m, rfl⟩ : ∃ m, k = m + 1 := ⟨k - 1, by omega⟩
  have hm : m < p.numSteps := by omega
  have hw' := hp.wingRefs_move hk hm hw
  obtain ⟨hstep, wing1, hwing1⟩ := mem_wingRefs.mp hw
  obtain ⟨_, wing, hwing⟩ := mem_wingRefs.mp hw'
  have hnext := h.next hk hw' hwing
  have e : ({ ({ w with step := m } : WingRef) with step := m + 1 } : WingRef) = w := by
    cases w; cases hstep; rfl
  rw [e] at hnext
  have hspan : p.spanOf w = wing.numSpanwisePanels := by
    have h1 := hp.span_same hk hm w.airplane w.wing
    have h2 : (⟨m + 1, w.airplane, w.wing⟩ : WingRef) = w := by cases w; cases hstep; rfl
    rw [h2] at h1
    rw [h1]
    change ((p.wing? { w with step := m }).map _).getD 0 = _
    rw [hwing]; rfl
  have hchord : p.chordOf w = wing.spec.numChordwisePanels := by
    have h1 := hp.chord_same hk hm w.airplane w.wing
    have h2 : (⟨m + 1, w.airplane, w.wing⟩ : WingRef) = w := by cases w; cases hstep; rfl
    rw [h2] at h1
    rw [h1]
    change ((p.wing? { w with step := m }).map _).getD 0 = _
    rw [hwing]; rfl
  obtain ⟨x, hx⟩ := h.solved m hm
  have hnext0 : ∀ j, vertexAt (s'.vertices w) 0 j = ((sm m).trailingVertices w wing).getD j 0 := by
    intro j
    rw [hnext]
    unfold nextVertices vertexAt
    have e2 : ({ ({ w with step := m } : WingRef) with step := ({ w with step := m } : WingRef).step + 1 } : WingRef)
        = w := by cases w; cases hstep; rfl
    simp only
    rw [e2]
    split_ifs <;> rfl
  have hring : ∀ j < wing.numSpanwisePanels,
      ((sm m).wingRing w (wing.spec.numChordwisePanels - 1) j).backLeft
        = (s'.ringAt (m + 1) ⟨w.airplane, w.wing, p.chordOf w - 1, j⟩).backLeft ∧
      ((sm m).wingRing w (wing.spec.numChordwisePanels - 1) j).backRight
        = (s'.ringAt (m + 1) ⟨w.airplane, w.wing, p.chordOf w - 1, j⟩).backRight := by
    intro j hj
    have hwing1' : p.wing? ⟨m + 1, w.airplane, w.wing⟩ = some wing1 := by
      have h2 : (⟨m + 1, w.airplane, w.wing⟩ : WingRef) = w := by cases w; cases hstep; rfl
      rw [h2]; exact hwing1
    have hc1 : p.chordOf w = wing1.spec.numChordwisePanels := by
      simp [UnsteadyProblem.chordOf, hwing1]
    have hs1 : p.spanOf w = wing1.numSpanwisePanels := by
      simp [UnsteadyProblem.spanOf, hwing1]
    have hr : (⟨w.airplane, w.wing, p.chordOf w - 1, j⟩ : PanelRef) ∈ panelRefs (p.airplanesAt (m + 1)) := by
      rw [mem_panelRefs, ← Option.isSome_iff_exists, panelAt_isSome hp hwing1']
      omega
    have hb := h.edge_backLeft (j := m) (by omega) hk hr
    rw [← hchord]
    unfold wingRing
    rw [hstep, hx.panels (m + 1) (by omega)]
    exact hb
  constructor
  · intro j hj
    rw [hspan] at hj
    rw [hnext0, ← (hring j hj).1]
    simp [trailingVertices, List.getD_eq_getElem?_getD, hj, Nat.lt_succ_of_lt hj]
  · intro hpos
    rw [hspan] at hpos ⊢
    rw [hnext0, ← (hring (wing.numSpanwisePanels - 1) (by omega)).2]
    simp [trailingVertices, List.getD_eq_getElem?_getD, hpos]

/-- The rows behind the first are the rows of the step before, moved. -/
theorem Trace.later_rows (h : Trace p pres s s' st sm) {k : ℕ} (hk : k + 1 < p.numSteps)
    {w : WingRef} (hw : w ∈ wingRefs k (p.airplanesAt k)) {i : ℕ} (hi : i ≤ k) {j : ℕ} (hj : j ≤ p.spanOf w) :
    vertexAt (s'.vertices { w with step := k + 1 }) (i + 1) j
      = (sm k).convect pres (vertexAt (s'.vertices (if k = 0 then { w with step := k + 1 } else w)) i j) := by
  obtain ⟨hstep, wing, hwing⟩ := mem_wingRefs.mp hw
  obtain ⟨x, hx⟩ := h.solved k (by omega)
  have hspan : p.spanOf w = wing.numSpanwisePanels := by simp [UnsteadyProblem.spanOf, hwing]
  rw [h.next hk hw hwing]
  by_cases h0 : k = 0
  · subst h0
    obtain rfl : i = 0 := by omega
    have hjl : j < wing.numSpanwisePanels + 1 := by omega
    rw [if_pos rfl, h.next hk hw hwing]
    unfold nextVertices
    rw [hx.step]
    simp only [if_true]
    have hl := trailingVertices_length (sm 0) { w with step := w.step + 1 } wing
    simp [vertexAt, List.getD_eq_getElem?_getD, hl, hjl]
  · rw [if_neg h0]
    unfold nextVertices
    rw [hx.step, if_neg h0]
    have hsh := h.shape (k := k) (by omega) (by omega) hw
    have hv : (sm k).vertices w = s'.vertices w := by
      rw [hx.vertices, h.vertices (k := k) (by omega) (by omega)]
    rw [hv]
    have := vertexAt_map (V := s'.vertices w) (f := (sm k).convect pres) (i := i) (j := j) (by omega)
      (fun row hr => by have := hsh.2 row hr; omega)
    rw [← this]
    simp [vertexAt]

/-- The wake arrays of the wings of a step do not change from that step on. -/
theorem Trace.wakes (h : Trace p pres s s' st sm) {k : ℕ} (hk : k ≤ p.numSteps) {w : WingRef} (hw : w.step ≤ k) :
    s'.wakes w = (st k).wakes w := by
  rw [h.final_eq.2.2.2.2.1, persist (st := st) (fun s => s.wakes w) k p.numSteps hk]
  intro j h1 h2
  obtain ⟨x, hx⟩ := h.solved j h2
  rw [(h.shed j h2).wakes w (by omega), hx.wakes]

/-- The ring objects of an earlier step's wake are those of the last step's wake, further back. -/
theorem Trace.shared (hp : p.Regular) (h : Trace p pres s s' st sm) {k d : ℕ} (hk : k + d < p.numSteps)
    {w : WingRef} (hw : w ∈ wingRefs k (p.airplanesAt k)) {i : ℕ} (hi : i < k) {j : ℕ} (hj : j < p.spanOf w) :
    refAt (s'.wakes { w with step := k + d }) (i + d) j = refAt (s'.wakes w) i j := by
  have hstep := (mem_wingRefs.mp hw).1
  induction d with
  | zero =>
    have : ({ w with step := k + 0 } : WingRef) = w := by cases w; cases hstep; rfl
    rw [this]; rfl
  | succ d ih =>
    have hw' := hp.wingRefs_move (j := k) (k := k + d) (by omega) (by omega) hw
    have hspan : p.spanOf { w with step := k + d } = p.spanOf w := by
      have h1 := hp.span_same (j := k + d) (k := k) (by omega) (by omega) w.airplane w.wing
      have h2 : (⟨k, w.airplane, w.wing⟩ : WingRef) = w := by cases w; cases hstep; rfl
      rw [h2] at h1
      exact h1
    have hs := (h.shed (k + d) (by omega)).shared (by omega) _ hw' (i + d) (by omega) j (by omega)
    obtain ⟨x, hx⟩ := h.solved (k + d) (by omega)
    rw [hx.wakes] at hs
    rw [← ih (by omega), h.wakes (k := k + d) (w := { w with step := k + d }) (by omega) (le_refl _), ← hs,
      ← h.wakes (k := k + d + 1) (by omega) (le_refl _)]
    rfl

/-- The objects a finished run leaves in the wake of the last step. -/
theorem Trace.objects (h : Trace p pres s s' st sm) (h0 : 0 < p.numSteps) {w : WingRef}
    (hw : w ∈ wingRefs (p.numSteps - 1) (p.airplanesAt (p.numSteps - 1))) {i : ℕ} (hi : i < p.numSteps - 1) {j : ℕ}
    (hj : j < p.spanOf w) :
    ∃ a, refAt (s'.wakes w) i j = some a ∧ s'.objects a = wakeRing (s'.vertices w) i j
      (edgeStrength p s' (p.numSteps - 1 - 1 - i) w j) (i * p.deltaTime) := by
  set k := p.numSteps - 1 with hkdef
  have hk : k < p.numSteps := by omega
  obtain ⟨addr, hinv⟩ := (h.inv k (by omega)).wake hk
  have hstep := (mem_wingRefs.mp hw).1
  obtain ⟨x, hx⟩ := h.solved k hk
  have hlast : st (k + 1) = sm k := (h.shed k hk).last (by omega)
  have hn : st p.numSteps = sm k := by rw [← hlast]; congr 1; omega
  refine ⟨addr w (i, j), ?_, ?_⟩
  · rw [h.wakes (k := k) (by omega) (by omega)]
    exact (hinv.wakeAt w hw).refs i hi j hj
  · rw [h.final_eq.2.2.2.2.2.1, hn, hx.objects, hinv.objs w hw i hi j hj, h.vertices (k := k) (by omega) (by omega)]
    congr 1
    exact edgeStrength_congr (h.panels_before (by omega) (by omega)) w j

theorem Reached.good (hp : p.Regular) (h : Reached p s) : Good p s := by
  induction h with
  | fresh hc =>
    unfold create at hc
    split at hc
    · simp at hc
    · simp only [Except.ok.injEq] at hc
      subst hc
      exact ⟨rfl, fun _ _ => rfl, Or.inl rfl⟩
  | rerun _ hrun ih =>
    obtain ⟨st, sm, ht⟩ := run_trace hp ih hrun
    exact ht.good ih
  | aborted _ hops h ih => exact ih.aborted hops h
  | another _ hc ih =>
    unfold create at hc
    split at hc
    · simp at hc
    · simp only [Except.ok.injEq] at hc
      subst hc
      exact ⟨rfl, ih.wakes, Or.inl rfl⟩

theorem Reached.trace (hp : p.Made) (h : Reached p s) {sl : Bool} (hr : s.run pres sl = .ok s') :
    ∃ st sm, Trace p pres s.begun s' st sm := run_trace hp.regular (h.good hp.regular) hr

end UnsteadySolver
end Ptera
