import Verif.Lemmas.Shifted
import Verif.Props.MirrorRuns

/-!
# Reference points and reference dimensions

C80: the reference point and the reference area, chord and span of an airplane enter the moments and the coefficients
only, and there as in the textbooks.
-/

namespace Ptera

open List UnsteadySolver

/-- Wings with the same panels and the same span. -/
def SameLattice (W W' : Wing) : Prop :=
  W'.panels = W.panels ∧ W'.span = W.span ∧ W'.numSpanwisePanels = W.numSpanwisePanels

/-- The same lattices of panels, with any reference point, reference dimensions and weight. -/
def SameWings (A A' : Airplane) : Prop := Forall₂ SameLattice A.wings A'.wings

theorem SameWings.of_eq {A A' : Airplane} (h : A'.wings = A.wings) : SameWings A A' := by
  unfold SameWings
  rw [h, List.forall₂_same]
  exact fun W _ => ⟨rfl, rfl, rfl⟩

/-- Moving the reference point of a moment from `x` to `x'`: the moment `m` of the force `f` becomes `m'`. -/
def Transferred (x x' f m m' : V3) : Prop := m' = m + (x - x').cross f

/-- Airplanes with the same wings have the same shapes. -/
theorem SimilarShapes.of_same {as as' : List Airplane} (h : Forall₂ SameWings as as') :
    SimilarShapes as as' M3.one 0 (fun _ _ => false) id (fun _ => id) where
  ortho := one_isRot.1
  airplanes := by
    intro a A hA
    obtain ⟨A', hA', hw⟩ := forall₂_at h a A hA
    refine ⟨A', hA', ?_, ?_, fun _ _ _ _ h => h⟩
    · intro w W hW
      obtain ⟨W', hW', l1, l2, l3⟩ := forall₂_at hw w W hW
      refine ⟨W', hW', l2, l3, by rw [l1], ?_⟩
      intro i j p p' hp hp'
      rw [l1] at hp'
      simp only [Bool.false_eq_true, if_false, hp, Option.some.injEq] at hp'
      subst hp'
      simp only [IsImage, one_mulVec, add_zero, Bool.false_eq_true, if_false, and_self]
    · intro w' hlt
      exact ⟨w', by rw [hw.length_eq]; exact hlt, rfl⟩
  onto := fun a ha => ⟨a, by rw [h.length_eq]; exact ha, rfl⟩
  injective := fun _ _ _ _ h => h

theorem offset_eq (A A' : Airplane) : M3.one.mulVec A.xyzRef + 0 - A'.xyzRef = A.xyzRef - A'.xyzRef := by
  rw [one_mulVec, add_zero]

/-- How the coefficients of an airplane depend on the references. -/
theorem IsCoefficients.references {op : OperatingPoint} {A A' : Airplane} {L L' : AirplaneLoads}
    (h : IsCoefficients op A L) (h' : IsCoefficients op A' L') (hs : A.sRef ≠ 0) (hf : L'.forceWind = L.forceWind) :
    L'.forceCoefficients = (A.sRef / A'.sRef) • L.forceCoefficients ∧
    (L'.momentWind = L.momentWind → A.bRef ≠ 0 → A.cRef ≠ 0 →
      L'.momentCoefficients.x = A.sRef * A.bRef / (A'.sRef * A'.bRef) * L.momentCoefficients.x ∧
      L'.momentCoefficients.y = A.sRef * A.cRef / (A'.sRef * A'.cRef) * L.momentCoefficients.y ∧
      L'.momentCoefficients.z = A.sRef * A.bRef / (A'.sRef * A'.bRef) * L.momentCoefficients.z) := by
  obtain ⟨a1, a2⟩ := h
  obtain ⟨b1, b2⟩ := h'
  have key : ∀ q s s' x : ℝ, s ≠ 0 → x / (q * s') = s / s' * (x / (q * s)) := by
    intro q s s' x hs
    by_cases hq : q = 0
    · simp [hq]
    · by_cases hs' : s' = 0
      · simp [hs']
      · field_simp
  constructor
  · rw [b1, a1, hf]
    ext
    · exact key _ _ _ _ hs
    · exact key _ _ _ _ hs
    · exact key _ _ _ _ hs
  · intro hm hb hc
    rw [b2, a2, hm]
    have key' : ∀ q s s' b b' x : ℝ, s ≠ 0 → b ≠ 0 → x / (q * s' * b') = s * b / (s' * b') * (x / (q * s * b)) := by
      intro q s s' b b' x hs hb
      rw [mul_assoc, mul_assoc]
      exact key _ _ _ _ (mul_ne_zero hs hb)
    exact ⟨key' _ _ _ _ _ _ hs hb, key' _ _ _ _ _ _ hs hc, key' _ _ _ _ _ _ hs hb⟩

/-- C80 for the steady solvers: airplanes with the same wings but other reference points, reference dimensions and
weights have the same flow, vortex strengths and forces; each moment is transferred to the new reference point, in
geometry axes and in wind axes, and the coefficients scale inversely with the reference dimensions. In particular the
run succeeds for the one if it does for the other. -/
theorem C80_steady (method : SteadyMethod) (as as' : List Airplane) (hmade : ∀ a ∈ as, a.Made)
    (hmade' : ∀ a ∈ as', a.Made) (hsame : Forall₂ SameWings as as') (op : OperatingPoint) (heap heap' : PanelHeap)
    (loads loads' : List AirplaneLoads) (R : SteadyResults) (h : steadyRun method ⟨as, op⟩ heap loads = .ok R) :
    let toWind := op.rotationWindToGeometry.transpose.mulVec
    ∃ R', steadyRun method ⟨as', op⟩ heap' loads' = .ok R' ∧
      (∀ q, R'.velocity q = R.velocity q) ∧
      (∀ r p A A', panelAt as r = some p → as[r.airplane]? = some A → as'[r.airplane]? = some A' →
        ∃ g L L', R.strength r = some g ∧ R'.strength r = some g ∧ R.loads r = some L ∧ R'.loads r = some L' ∧
          L'.forceGeometry = L.forceGeometry ∧ L'.forceWind = L.forceWind ∧
          Transferred A.xyzRef A'.xyzRef L.forceGeometry L.momentGeometry L'.momentGeometry ∧
          Transferred (toWind A.xyzRef) (toWind A'.xyzRef) L.forceWind L.momentWind L'.momentWind) ∧
      (∀ (a : ℕ) A A', as[a]? = some A → as'[a]? = some A' →
        ∃ L L' : AirplaneLoads, R.totals[a]? = some L ∧ R'.totals[a]? = some L' ∧ L'.forceWind = L.forceWind ∧
          Transferred (toWind A.xyzRef) (toWind A'.xyzRef) L.forceWind L.momentWind L'.momentWind ∧
          (A.sRef ≠ 0 → L'.forceCoefficients = (A.sRef / A'.sRef) • L.forceCoefficients) ∧
          (A'.xyzRef = A.xyzRef → A.sRef ≠ 0 → A.bRef ≠ 0 → A.cRef ≠ 0 →
            L'.momentCoefficients.x = A.sRef * A.bRef / (A'.sRef * A'.bRef) * L.momentCoefficients.x ∧
            L'.momentCoefficients.y = A.sRef * A.cRef / (A'.sRef * A'.cRef) * L.momentCoefficients.y ∧
            L'.momentCoefficients.z = A.sRef * A.bRef / (A'.sRef * A'.bRef) * L.momentCoefficients.z)) := by
  have hs : SimilarFlows ⟨as, op⟩ ⟨as', op⟩ M3.one 0 (fun _ _ => false) 1 1 id (fun _ => id) :=
    { airplanes := SimilarShapes.of_same hsame
      made := hmade
      made' := hmade'
      nonzero := one_ne_zero
      direction := by rw [one_mulVec]
      velocity := by rw [one_mulVec, one_smul]
      density := by rw [_root_.one_mul] }
  have hdet : M3.one.det = 1 := one_isRot.2
  intro toWind
  obtain ⟨R', hR', hv, hp, ht⟩ := steady_similar_flows (N := M3.one) method hs
    (by rw [M3.mul_one, M3.one_mul]) h heap' loads'
  refine ⟨R', hR', ?_, ?_, ?_⟩
  · intro q
    have := hv q
    rwa [one_mulVec, one_mulVec, add_zero, one_smul] at this
  · intro r p A A' hr hA hA'
    obtain ⟨g, L, L', h1, h2, h3, h4, h5, h6, h7⟩ := hp r p hr
    obtain ⟨h7, h8⟩ := h7 A A' hA hA'
    rw [imageRef_same] at h2 h4
    rw [orientation_one, _root_.mul_one, _root_.one_mul] at h2
    rw [one_pow, _root_.mul_one, one_smul, one_mulVec] at h5 h6
    rw [one_pow, _root_.mul_one, hdet, _root_.mul_one, one_smul, one_mulVec, offset_eq] at h7 h8
    refine ⟨g, L, L', h1, h2, h3, h4, h5, h6, ?_, ?_⟩
    · rw [h5] at h7
      exact h7
    · rw [h6, M3.mulVec_sub] at h8
      exact h8
  · intro a A A' hA hA'
    obtain ⟨B', L, L', h1, h2, h3, h4, h5, h6, h7⟩ := ht a A hA
    have e : as'[a]? = some B' := h1
    rw [hA', Option.some.injEq] at e
    subst e
    rw [one_pow, _root_.mul_one, one_smul, one_mulVec] at h4
    rw [one_pow, _root_.mul_one, hdet, _root_.mul_one, one_smul, one_mulVec, offset_eq, M3.mulVec_sub, h4] at h5
    refine ⟨L, L', h2, h3, h4, h5, ?_, ?_⟩
    · intro hsr
      exact (h6.references h7 hsr h4).1
    · intro href hsr hb hc
      refine (h6.references h7 hsr h4).2 ?_ hb hc
      rw [h5, href, sub_self]
      ext <;> simp [V3.cross]

/-- An airplane with other references. -/
theorem with_references {A : Airplane} (h : A.Made) (ref : V3) (weight s c b : ℝ) :
    ∃ A' : Airplane, A'.Made ∧ SameWings A A' ∧ A'.xyzRef = ref ∧ A'.sRef = s ∧ A'.cRef = c ∧ A'.bRef = b := by
  obtain ⟨wings, ref₀, w₀, s₀, c₀, b₀, hc, hw⟩ := h
  cases wings with
  | nil => simp [Airplane.create] at hc
  | cons main rest =>
    simp only [Airplane.create, Except.ok.injEq] at hc
    refine ⟨_, ⟨main :: rest, ref, weight, some s, some c, some b, rfl, hw⟩, ?_, rfl, rfl, rfl, rfl⟩
    rw [← hc]; exact .of_eq rfl

/-- The hypotheses are met: the plate in a freestream from below, with its reference point moved by any vector and its
reference dimensions changed. -/
example (method : SteadyMethod) (x y : V3) : ∃ (a a' : Airplane) (R R' : SteadyResults) (L L' : AirplaneLoads),
    a.Made ∧ a'.Made ∧ SameWings a a' ∧ a.xyzRef = x ∧ a'.xyzRef = y ∧
    steadyRun method ⟨[a], { velocity := 10, density := 1, alpha := 90, beta := 0 }⟩ = .ok R ∧
    steadyRun method ⟨[a'], { velocity := 10, density := 1, alpha := 90, beta := 0 }⟩ = .ok R' ∧
    R.totals[0]? = some L ∧ R'.totals[0]? = some L' ∧ L'.forceWind = L.forceWind := by
  obtain ⟨a, hmade, -, -, hx, R, hR⟩ := plate_steadyRun method 10 1 .fresh [] x
  obtain ⟨a', hmade', hw, hy, -, -, -⟩ := with_references hmade y 5 2 3 4
  obtain ⟨R', hR', -, -, ht⟩ := C80_steady method [a] [a'] (by simpa using hmade) (by simpa using hmade')
    (.cons hw .nil) _ .fresh .fresh [] [] R hR
  obtain ⟨L, L', h1, h2, h3, -⟩ := ht 0 a a' rfl rfl
  exact ⟨a, a', R, R', L, L', hmade, hmade', hw, hx, hy, hR, hR', h1, h2, h3⟩

/-! ## The unsteady solver -/

/-- Airplane movements with the same wing movements, whatever their base airplanes and the motions of their reference
points. -/
def SameWingMotion (m m' : AirplaneMovement) : Prop := m'.wingMovements = m.wingMovements

/-- Airplanes of movements with the same wing movements have the same wings. -/
theorem SameWingMotion.generate {m m' : AirplaneMovement} (h : SameWingMotion m m') {n : ℕ} {d : ℝ}
    {l l' : List Airplane} (hl : m.generate n d = .ok l) (hl' : m'.generate n d = .ok l') (k : ℕ) {A A' : Airplane}
    (hA : l[k]? = some A) (hA' : l'[k]? = some A') :
    SameWings A A' ∧ A'.sRef = A.sRef ∧ A'.cRef = A.cRef ∧ A'.bRef = A.bRef := by
  obtain ⟨xs, ys, zs, ws, -, -, -, h4, hn, hk⟩ := AirplaneMovement.generate_ok hl
  obtain ⟨xs', ys', zs', ws', -, -, -, h4', hn', hk'⟩ := AirplaneMovement.generate_ok hl'
  rw [h, h4, Except.ok.injEq] at h4'
  subst h4'
  have hkn : k < n := by rw [← hn]; exact (List.getElem?_eq_some_iff.mp hA).1
  obtain ⟨B, e1, e2⟩ := hk k hkn
  obtain ⟨B', e1', e2'⟩ := hk' k hkn
  rw [hA, Option.some.injEq] at e1
  rw [hA', Option.some.injEq] at e1'
  subst e1 e1'
  unfold Airplane.create at e2 e2'
  cases hw : ws.filterMap (·[k]?) with
  | nil => rw [hw] at e2; simp at e2
  | cons main rest =>
    rw [hw] at e2 e2'
    simp only [Except.ok.injEq] at e2 e2'
    rw [← e2, ← e2']
    exact ⟨.of_eq rfl, rfl, rfl, rfl⟩

/-- C80 for the unsteady solver: two studies with the same wing movements, the same operating points and the same time
steps, but other base airplanes and other motions of their reference points. If the one runs, so does the other, with
the same flow, wake, vortex strengths and forces at every step; where both compute loads, each moment is that about the
reference point of the step, and the force coefficients are the same. -/
theorem C80_unsteady (ams ams' : List AirplaneMovement) (om : OperatingPointMovement) (ns nc nch ns' nc' nch' : Option ℕ)
    (dt dt' : Option ℝ) (only only' : Bool) (p p' : UnsteadyProblem) (h : study ams om ns nc nch dt only = .ok p)
    (h' : study ams' om ns' nc' nch' dt' only' = .ok p') (hsame : Forall₂ SameWingMotion ams ams')
    (hn : p'.numSteps = p.numSteps) (hd : p'.deltaTime = p.deltaTime) (hc : p.Chordwise)
    (s s₁ z : UnsteadySolver) (prescribed streamlines streamlines' : Bool) (hr : Reached p s)
    (hrun : s.run prescribed streamlines = .ok s₁) (hz : Reached p' z) :
    ∃ z₁, z.run prescribed streamlines' = .ok z₁ ∧ ∀ k < p.numSteps,
      let toWind := (p.operatingPointAt k).rotationWindToGeometry.transpose.mulVec
      (∀ q, flow z₁ k q = flow s₁ k q) ∧
      (∀ r c, panelAt (p.airplanesAt k) r = some c → ∃ v v', (s₁.panels k r).ring = some v ∧
        (z₁.panels k r).ring = some v' ∧ v'.strength = v.strength) ∧
      (∀ c ∈ wakePlaces p k, ∃ w, wakeRecord s₁ k c = some w ∧ wakeRecord z₁ k c = some w) ∧
      (p.firstResultsStep ≤ k → p'.firstResultsStep ≤ k →
        (∀ r c A A', panelAt (p.airplanesAt k) r = some c → (p.airplanesAt k)[r.airplane]? = some A →
          (p'.airplanesAt k)[r.airplane]? = some A' → ∃ L L', (s₁.panels k r).loads = some L ∧
            (z₁.panels k r).loads = some L' ∧ L'.forceGeometry = L.forceGeometry ∧ L'.forceWind = L.forceWind ∧
            Transferred A.xyzRef A'.xyzRef L.forceGeometry L.momentGeometry L'.momentGeometry ∧
            Transferred (toWind A.xyzRef) (toWind A'.xyzRef) L.forceWind L.momentWind L'.momentWind) ∧
        (∀ (a : ℕ) A A', (p.airplanesAt k)[a]? = some A → (p'.airplanesAt k)[a]? = some A' →
          ∃ L L' : AirplaneLoads, (s₁.loads k)[a]? = some L ∧ (z₁.loads k)[a]? = some L' ∧
            L'.forceWind = L.forceWind ∧ L'.forceCoefficients = L.forceCoefficients ∧
            Transferred (toWind A.xyzRef) (toWind A'.xyzRef) L.forceWind L.momentWind L'.momentWind ∧
            (A'.xyzRef = A.xyzRef → L'.momentCoefficients = L.momentCoefficients))) := by
  obtain ⟨hmade, -, -, -, -, -, -, -, H, O, hH, hO, hk⟩ := study_parts h
  obtain ⟨hmade', -, -, -, -, -, -, -, H', O', hH', hO', hk'⟩ := study_parts h'
  rw [hn, hd] at hH' hO'
  rw [hO, Except.ok.injEq] at hO'
  subst hO'
  have hop : ∀ k < p.numSteps, p'.operatingPointAt k = p.operatingPointAt k := by
    intro k hkn
    have e1 := (hk k hkn).2
    have e2 := (hk' k (by rw [hn]; exact hkn)).2
    rw [e1, Option.some.injEq] at e2
    exact e2.symm
  have hair : ∀ k < p.numSteps, Forall₂ (fun A A' : Airplane => SameWings A A' ∧ A'.sRef = A.sRef ∧ A'.cRef = A.cRef ∧
      A'.bRef = A.bRef) (p.airplanesAt k) (p'.airplanesAt k) := by
    intro k hkn
    have a1 := (hk k hkn).1
    have a2 := (hk' k (by rw [hn]; exact hkn)).1
    refine forall₂_of_getElem? ?_ ?_
    · rw [← a1.length_eq, ← a2.length_eq, mapM_length hH, mapM_length hH', hsame.length_eq]
    · intro i A A' hA hA'
      have hi : i < H.length := by rw [a1.length_eq]; exact (List.getElem?_eq_some_iff.mp hA).1
      have hi₁ : i < ams.length := by rw [← mapM_length hH]; exact hi
      have hm := List.getElem?_eq_getElem hi₁
      obtain ⟨m', hm', hmm⟩ := forall₂_at hsame i _ hm
      obtain ⟨l, hl, hg⟩ := mapM_getElem? hH i _ hm
      obtain ⟨l', hl', hg'⟩ := mapM_getElem? hH' i _ hm'
      obtain ⟨B, hB, e⟩ := forall₂_at a1 i _ hl
      obtain ⟨B', hB', e'⟩ := forall₂_at a2 i _ hl'
      rw [hA, Option.some.injEq] at hB
      rw [hA', Option.some.injEq] at hB'
      subst hB hB'
      exact hmm.generate hg hg' k e e'
  have hs : SimilarMotion p p' M3.one 0 (fun _ _ => false) 1 id (fun _ => id) :=
    { made := hmade, made' := hmade', chordwise := hc, steps := hn.ge, time := hd
      similar := by
        intro k hkn
        exact {
          airplanes := SimilarShapes.of_same ((hair k hkn).imp fun _ _ h => h.1)
          made := hmade.regular.made k
          made' := hmade'.regular.made k
          nonzero := one_ne_zero
          direction := by simp only [hop k hkn, one_mulVec]
          velocity := by simp only [hop k hkn, one_mulVec, one_smul]
          density := by simp only [hop k hkn, _root_.one_mul] }
      nu := by intro k hkn; rw [hop k hkn]
      shared := by intro k _ a w hw; cases hw }
  obtain ⟨z₁, hrun'⟩ := hs.run_exists hr hrun hz hn.le prescribed streamlines'
  refine ⟨z₁, hrun', ?_⟩
  intro k hkn toWind
  obtain ⟨hf, hst, hw⟩ := hs.run_flow hr hrun hz hrun' k hkn
  have hdet : M3.one.det = 1 := one_isRot.2
  refine ⟨?_, ?_, ?_, ?_⟩
  · intro q
    have := hf q
    rwa [one_mulVec, one_mulVec, add_zero] at this
  · intro r c hc
    obtain ⟨v, v', h1, h2, h3⟩ := hst r c hc
    rw [imageRef_same] at h2
    rw [orientation_one, _root_.one_mul] at h3
    exact ⟨v, v', h1, h2, h3⟩
  · intro c hc
    obtain ⟨w, w', h1, h2, h3, h4, h5, h6, h7, h8⟩ := hw c hc
    refine ⟨w, h1, ?_⟩
    have e : placeImage p (fun _ _ => false) (fun a _ => id a) (fun _ => id) k c = c := rfl
    rw [e] at h2
    rw [h2]
    simp only [Bool.false_eq_true, if_false, one_mulVec, orientation_one, _root_.one_mul, add_zero] at h3 h4 h5 h6 h7
    congr 1
    cases w; cases w'
    simp only at h3 h4 h5 h6 h7 h8
    subst h3 h4 h5 h6 h7 h8
    rfl
  · intro hfr hfr'
    obtain ⟨hp, ht⟩ := hs.run_loads (N := M3.one) hr hrun hz hrun' k hkn
      (by rw [M3.mul_one, M3.one_mul, hop k hkn]) hfr hfr'
    rw [hop k hkn] at hp ht
    refine ⟨?_, ?_⟩
    · intro r c A A' hr hA hA'
      obtain ⟨L, L', h3, h4, h5, h6, h7⟩ := hp r c hr
      obtain ⟨h7, h8⟩ := h7 A A' hA hA'
      rw [imageRef_same] at h4
      rw [one_smul, one_mulVec] at h5 h6
      rw [hdet, _root_.mul_one, one_smul, one_mulVec, offset_eq] at h7 h8
      refine ⟨L, L', h3, h4, h5, h6, ?_, ?_⟩
      · rw [h5] at h7
        exact h7
      · rw [h6, M3.mulVec_sub] at h8
        exact h8
    · intro a A A' hA hA'
      obtain ⟨B', L, L', h1, h2, h3, h4, h5, h6, h7⟩ := ht a A hA
      rw [id, hA', Option.some.injEq] at h1
      subst h1
      obtain ⟨B', hB', -, d1, d2, d3⟩ := forall₂_at (hair k hkn) a A hA
      rw [hA', Option.some.injEq] at hB'
      subst hB'
      rw [one_smul, one_mulVec] at h4
      rw [hdet, _root_.mul_one, one_smul, one_mulVec, offset_eq, M3.mulVec_sub, h4] at h5
      obtain ⟨a1, a2⟩ := h6
      obtain ⟨b1, b2⟩ := h7
      refine ⟨L, L', h2, h3, h4, ?_, h5, ?_⟩
      · rw [a1, b1, h4, d1]
      · intro href
        have hm : L'.momentWind = L.momentWind := by
          rw [h5, href, sub_self]
          ext <;> simp [V3.cross]
        rw [a2, b2, hm, d1, d2, d3]

/-- The hypotheses are met: a heaving plate, with any other base airplane and reference point; it runs with
and without the prescribed wake. -/
example (A P : ℝ) (n : ℕ) (hn : 0 < n) (dt velocity alpha : ℝ) (ha : |alpha| ≤ 90) (hdt : 0 < dt) (hv : 0 < velocity)
    (only pres sl : Bool) (x : V3) :
    ∃ ams ams' om p p' s s₁ z, study ams om (some n) none none (some dt) only = .ok p ∧
      study ams' om (some n) none none (some dt) only = .ok p' ∧ Forall₂ SameWingMotion ams ams' ∧
      (∃ m m', ams = [m] ∧ ams' = [m'] ∧ m.base.xyzRef = 0 ∧ m'.base.xyzRef = x) ∧
      p.Chordwise ∧ p.numSteps = n ∧ p'.numSteps = n ∧ p'.deltaTime = p.deltaTime ∧
      Reached p s ∧ s.run pres sl = .ok s₁ ∧ Reached p' z := by
  obtain ⟨w, hw, -, h⟩ := heaving_movement_of 1 A P
  obtain ⟨a, ha1, hax⟩ : ∃ a, Airplane.create [w] = .ok a ∧ a.xyzRef = 0 := ⟨_, rfl, rfl⟩
  obtain ⟨a', ha2, hax'⟩ : ∃ a', Airplane.create [w] x 3 (some 2) (some 3) (some 4) = .ok a' ∧ a'.xyzRef = x :=
    ⟨_, rfl, rfl⟩
  obtain ⟨-, mv, p, h1, h2, hp, -⟩ := h a n hn dt { velocity := velocity, alpha := alpha, beta := 0 } only
  obtain ⟨-, mv', p', h1', h2', hp', -⟩ := h a' n hn dt { velocity := velocity, alpha := alpha, beta := 0 } only
  obtain ⟨s, hs⟩ := hp.create hn
  obtain ⟨z, hz⟩ := hp'.create hn
  have hr : Reached p s := .fresh hs
  obtain ⟨s₁, hrun⟩ := hp.run hdt.le hv.le (flies_ahead _ velocity alpha ha) hr pres sl
  refine ⟨[{ base := a, wingMovements := [heave w A P] }], [{ base := a', wingMovements := [heave w A P] }], _, p, p', s,
    s₁, z, bind_ok.mpr ⟨mv, h1, h2⟩, bind_ok.mpr ⟨mv', h1', h2'⟩, .cons rfl .nil,
    ⟨_, _, rfl, rfl, hax, hax'⟩, hp.chordwise, hp.steps, hp'.steps, ?_, hr, hrun, .fresh hz⟩
  rw [hp.dt, hp'.dt]

end Ptera
