import Verif.Lemmas.SolveAll
import Verif.Lemmas.SimilarTotals
import Verif.Lemmas.PlateUnsteady
import Verif.Lemmas.UnsteadyLattice
import Verif.Props.Wake

/-! Runs of the unsteady solver on problems that are images of each other. -/

namespace Ptera

open UnsteadySolver

/-- Velocity of a vortex ring of any age under an isometry, with left and right exchanged or not. -/
theorem ringInduced_image {M : M3} {t : V3} (hM : M.IsOrtho) (m : Bool) (nu : ℝ) (fr fl bl br : V3) (Γ age : ℝ) (q : V3) :
    ringInduced nu (M.mulVec (if m then fl else fr) + t) (M.mulVec (if m then fr else fl) + t)
      (M.mulVec (if m then br else bl) + t) (M.mulVec (if m then bl else br) + t) (orientation M m * Γ) age
      (M.mulVec q + t) = M.mulVec (ringInduced nu fr fl bl br Γ age q) := by
  have hent : ∀ a b : V3, ∀ g : ℝ, expandedEntry nu ⟨M.mulVec a + t, M.mulVec b + t, g, age⟩ (M.mulVec q + t)
      = M.det • M.mulVec (expandedEntry nu ⟨a, b, g, age⟩ q) := fun a b g => C12_isometry M hM t nu ⟨a, b, g, age⟩ q
  have hrev : ∀ a b : V3, ∀ g : ℝ, expandedEntry nu ⟨b, a, g, age⟩ q = -expandedEntry nu ⟨a, b, g, age⟩ q :=
    fun a b g => C11_odd_in_orientation nu g age a b q
  have hneg : ∀ a b : V3, ∀ g : ℝ, expandedEntry nu ⟨a, b, -g, age⟩ q = -expandedEntry nu ⟨a, b, g, age⟩ q :=
    fun a b g => C11_odd_in_strength nu g age a b q
  have hdd := det_mul_det hM
  have hdet : M.det = 1 ∨ M.det = -1 := by
    have : (M.det - 1) * (M.det + 1) = 0 := by linear_combination hdd
    rcases mul_eq_zero.mp this with h | h
    · left; linarith
    · right; linarith
  unfold ringInduced orientation
  cases m
  · simp only [Bool.false_eq_true, if_false, hent]
    rcases hdet with h | h <;> rw [h]
    · simp only [one_mul, mul_one, one_smul, M3.mulVec_add]
    · simp only [mul_one, neg_one_mul, hneg, M3.mulVec_neg, M3.mulVec_add, neg_smul, one_smul, neg_neg]
  · simp only [if_true, hent]
    rw [hrev fl bl, hrev fr fl, hrev br fr, hrev bl br]
    rcases hdet with h | h <;> rw [h]
    · simp only [one_mul, neg_one_mul, hneg, M3.mulVec_add, one_smul, neg_neg]
      abel
    · simp only [mul_neg, mul_one, neg_neg, one_mul, M3.mulVec_neg, M3.mulVec_add, neg_smul, one_smul]
      abel

/-- Two unsteady problems, the second the image of the first under `x ↦ M x + t`, with the density multiplied by `κ`. -/
structure SimilarUnsteady (p p' : UnsteadyProblem) (M : M3) (t : V3) (sw : ℕ → ℕ → Bool) (κ : ℝ) (ρ : ℕ → ℕ)
    (ω : ℕ → ℕ → ℕ) : Prop where
  made : p.Made
  made' : p'.Made
  chordwise : p.Chordwise
  steps : p.numSteps ≤ p'.numSteps
  time : p'.deltaTime = p.deltaTime
  similar : ∀ k < p.numSteps, SimilarProblems ⟨p.airplanesAt k, p.operatingPointAt k⟩
    ⟨p'.airplanesAt k, p'.operatingPointAt k⟩ M t sw 1 κ ρ ω
  nu : ∀ k < p.numSteps, (p'.operatingPointAt k).nu = (p.operatingPointAt k).nu
  shared : ∀ k < p.numSteps, ∀ a w, sw a w = true → SidesShared (p.airplanesAt k) a w

/-- The same, whatever the reference points. -/
structure SimilarMotion (p p' : UnsteadyProblem) (M : M3) (t : V3) (sw : ℕ → ℕ → Bool) (κ : ℝ) (ρ : ℕ → ℕ)
    (ω : ℕ → ℕ → ℕ) : Prop where
  made : p.Made
  made' : p'.Made
  chordwise : p.Chordwise
  steps : p.numSteps ≤ p'.numSteps
  time : p'.deltaTime = p.deltaTime
  similar : ∀ k < p.numSteps, SimilarFlows ⟨p.airplanesAt k, p.operatingPointAt k⟩
    ⟨p'.airplanesAt k, p'.operatingPointAt k⟩ M t sw 1 κ ρ ω
  nu : ∀ k < p.numSteps, (p'.operatingPointAt k).nu = (p.operatingPointAt k).nu
  shared : ∀ k < p.numSteps, ∀ a w, sw a w = true → SidesShared (p.airplanesAt k) a w

theorem SimilarUnsteady.motion {p p' : UnsteadyProblem} {M : M3} {t : V3} {sw : ℕ → ℕ → Bool} {κ : ℝ} {ρ : ℕ → ℕ}
    {ω : ℕ → ℕ → ℕ} (h : SimilarUnsteady p p' M t sw κ ρ ω) : SimilarMotion p p' M t sw κ ρ ω :=
  ⟨h.made, h.made', h.chordwise, h.steps, h.time, fun k hk => (h.similar k hk).flows, h.nu, h.shared⟩

/-- The same with wings matched whatever airplanes they belong to. -/
structure SimilarWingMotion (p p' : UnsteadyProblem) (M : M3) (t : V3) (sw : ℕ → ℕ → Bool) (κ : ℝ) (ρ ω : ℕ → ℕ → ℕ) :
    Prop where
  made : p.Made
  made' : p'.Made
  chordwise : p.Chordwise
  steps : p.numSteps ≤ p'.numSteps
  time : p'.deltaTime = p.deltaTime
  similar : ∀ k < p.numSteps, SimilarLattices ⟨p.airplanesAt k, p.operatingPointAt k⟩
    ⟨p'.airplanesAt k, p'.operatingPointAt k⟩ M t sw 1 κ ρ ω
  nu : ∀ k < p.numSteps, (p'.operatingPointAt k).nu = (p.operatingPointAt k).nu
  shared : ∀ k < p.numSteps, ∀ a w, sw a w = true → SidesShared (p.airplanesAt k) a w

theorem SimilarMotion.wings {p p' : UnsteadyProblem} {M : M3} {t : V3} {sw : ℕ → ℕ → Bool} {κ : ℝ} {ρ : ℕ → ℕ}
    {ω : ℕ → ℕ → ℕ} (h : SimilarMotion p p' M t sw κ ρ ω) : SimilarWingMotion p p' M t sw κ (fun a _ => ρ a) ω :=
  ⟨h.made, h.made', h.chordwise, h.steps, h.time, fun k hk => (h.similar k hk).lattices, h.nu, h.shared⟩

section

variable {p p' : UnsteadyProblem} {M : M3} {t : V3} {sw : ℕ → ℕ → Bool} {κ : ℝ} {ρ ω : ℕ → ℕ → ℕ}

namespace SimilarWingMotion

theorem ortho (hs : SimilarWingMotion p p' M t sw κ ρ ω) {k : ℕ} (hk : k < p.numSteps) : M.IsOrtho :=
  (hs.similar k hk).airplanes.ortho

theorem velocity (hs : SimilarWingMotion p p' M t sw κ ρ ω) {k : ℕ} (hk : k < p.numSteps) :
    (p'.operatingPointAt k).freestreamVelocity = M.mulVec (p.operatingPointAt k).freestreamVelocity := by
  have := (hs.similar k hk).velocity
  rwa [one_smul] at this

/-- The image of a panel is at the same place at every step. -/
theorem image_same (hp : p.Regular) {j k : ℕ} (hj : j < p.numSteps) (hk : k < p.numSteps) :
    imageRef (p.airplanesAt j) sw ρ ω = imageRef (p.airplanesAt k) sw ρ ω := by
  funext r
  have := hp.span_same hj hk r.airplane r.wing
  unfold imageRef
  have e : ∀ k, ((wingAt (p.airplanesAt k) r).map (·.numSpanwisePanels)).getD 0 = p.spanOf ⟨k, r.airplane, r.wing⟩ :=
    fun _ => rfl
  rw [e, e, this]

theorem ringBack (hs : SimilarWingMotion p p' M t sw κ ρ ω) {k : ℕ} (hk : k < p.numSteps) {r : PanelRef} {q : Panel}
    (hq : panelAt (p.airplanesAt k) r = some q) :
    (boundRing p' k (imageRef (p.airplanesAt k) sw ρ ω r)).backLeft
      = M.mulVec (if sw r.airplane r.wing then (boundRing p k r).backRight else (boundRing p k r).backLeft) + t ∧
    (boundRing p' k (imageRef (p.airplanesAt k) sw ρ ω r)).backRight
      = M.mulVec (if sw r.airplane r.wing then (boundRing p k r).backLeft else (boundRing p k r).backRight) + t := by
  have hsk := hs.similar k hk
  have hm := hs.made.regular.made k
  have hm' := hs.made'.regular.made k
  obtain ⟨q', hq', himg⟩ := hsk.airplanes.panel hm hm' hq
  have hte := hsk.airplanes.below hm hm' hq hq'
  obtain ⟨e1, e2, -⟩ := himg.points
  simp only at hq'
  simp only [boundRing, panelRing, RingVortex.mk', backLeftVertex, backRightVertex, geometryOf_eq hq, geometryOf_eq hq',
    hte, hs.velocity hk, hs.time]
  by_cases hb : q.isTrailingEdge
  · simp only [hb, if_true, e1, e2]
    obtain ⟨h1, h2, h3, h4⟩ := himg
    rw [h1, h2, h3, h4]
    cases sw r.airplane r.wing <;> simp only [if_true, if_false, Bool.false_eq_true, M3.mulVec_add, M3.mulVec_sub,
      M3.mulVec_smul] <;> constructor <;> abel
  · simp only [hb, Bool.false_eq_true, if_false]
    obtain ⟨c, hc⟩ := Option.ne_none_iff_exists'.mp (fun e => hb ((made_flags hm hq).trailing.mpr e))
    obtain ⟨c', hc', himg'⟩ := hsk.airplanes.panel hm hm' hc
    have hc2 : panelAt (p'.airplanesAt k) { imageRef (p.airplanesAt k) sw ρ ω r with
        row := (imageRef (p.airplanesAt k) sw ρ ω r).row + 1 } = some c' := hc'
    rw [geometryOf_eq hc, geometryOf_eq hc2]
    exact ⟨himg'.points.1, himg'.points.2.1⟩

theorem ring (hs : SimilarWingMotion p p' M t sw κ ρ ω) {k : ℕ} (hk : k < p.numSteps) {r : PanelRef} {q : Panel}
    (hq : panelAt (p.airplanesAt k) r = some q) :
    let v := boundRing p k r
    let v' := boundRing p' k (imageRef (p.airplanesAt k) sw ρ ω r)
    v'.frontLeft = M.mulVec (if sw r.airplane r.wing then v.frontRight else v.frontLeft) + t ∧
    v'.frontRight = M.mulVec (if sw r.airplane r.wing then v.frontLeft else v.frontRight) + t ∧
    v'.backLeft = M.mulVec (if sw r.airplane r.wing then v.backRight else v.backLeft) + t ∧
    v'.backRight = M.mulVec (if sw r.airplane r.wing then v.backLeft else v.backRight) + t := by
  have hsk := hs.similar k hk
  have hm := hs.made.regular.made k
  have hm' := hs.made'.regular.made k
  obtain ⟨q', hq', himg⟩ := hsk.airplanes.panel hm hm' hq
  obtain ⟨e1, e2, -⟩ := himg.points
  obtain ⟨e3, e4⟩ := hs.ringBack hk hq
  refine ⟨?_, ?_, e3, e4⟩
  · simp only at hq'
    simp only [boundRing, panelRing, RingVortex.mk', geometryOf_eq hq, geometryOf_eq hq']
    exact e1
  · simp only at hq'
    simp only [boundRing, panelRing, RingVortex.mk', geometryOf_eq hq, geometryOf_eq hq']
    exact e2

theorem unit (hs : SimilarWingMotion p p' M t sw κ ρ ω) {k : ℕ} (hk : k < p.numSteps) {r : PanelRef} {c : Panel}
    (hc : panelAt (p.airplanesAt k) r = some c) (q : V3) :
    unitRing p' k (imageRef (p.airplanesAt k) sw ρ ω r) (M.mulVec q + t)
      = orientation M (sw r.airplane r.wing) • M.mulVec (unitRing p k r q) := by
  obtain ⟨e1, e2, e3, e4⟩ := hs.ring hk hc
  unfold unitRing
  rw [e1, e2, e3, e4]
  exact ring_image (hs.ortho hk) _ _ _ _ _

end SimilarWingMotion

namespace UnsteadySolver

variable {pres : Bool} {s s' : UnsteadySolver} {st sm : ℕ → UnsteadySolver}

/-- The right-hand side of the system of step `k`. -/
noncomputable def rhsAt (p : UnsteadyProblem) (s' : UnsteadySolver) (k : ℕ) (i : PanelRef) : ℝ :=
  -((wakeFlow s' k (geometryOf (p.airplanesAt k) i).collocationPoint + (p.operatingPointAt k).freestreamVelocity
    + apparent p k fun as => (geometryOf as i).collocationPoint).dot (geometryOf (p.airplanesAt k) i).unitNormal)

/-- The strengths of step `k`, panel by panel. -/
theorem Trace.values (hp : p.Regular) (h : Trace p pres s s' st sm) {k : ℕ} (hk : k < p.numSteps) :
    ∃ Γ : PanelRef → ℝ,
      linalgSolve (wingMatrix p k) ((panelRefs (p.airplanesAt k)).map (rhsAt p s' k))
        = .ok ((panelRefs (p.airplanesAt k)).map Γ) ∧
      (∀ r ∈ panelRefs (p.airplanesAt k), (s'.panels k r).ring = some ((boundRing p k r).updateStrength (Γ r))) ∧
      ∀ q, boundFlow s' k q = ((panelRefs (p.airplanesAt k)).map fun r => Γ r • unitRing p k r q).sum := by
  have hinv := h.inv k (by omega)
  obtain ⟨addr, hw⟩ := hinv.wake hk
  obtain ⟨x, hx, hs1, hf⟩ := hinv.solve hp hk hw (h.solve k hk)
  rw [hinv.influences hp hk] at hx
  rw [hinv.rhs hp hk _ (by
    intro h0
    apply List.eq_nil_of_length_eq_zero
    rw [wakeAddresses_length, h0]
    simp)] at hx
  have hlen : x.length = (panelRefs (p.airplanesAt k)).length := by simpa using (linalgSolve_ok hx).1
  have hwf : ∀ q, wakeFlow ((st k).collapsed k ((st k).ringAt k) ((st k).ringAt (k - 1)) (wakeAddresses p k addr)) k q
      = wakeFlow s' k q := by
    intro q
    unfold wakeFlow
    have e := h.record hk
    rw [List.getD_eq_getElem?_getD, List.getD_eq_getElem?_getD] at e
    rw [e, hs1, (stepped_frame _ _ _ _ _ _).2.2.2.2.2.1, h.final_eq.2.2.2.2.2.2]
    have : ((st k).collapsed k ((st k).ringAt k) ((st k).ringAt (k - 1)) (wakeAddresses p k addr)).problem = p :=
      hinv.problem
    rw [this]
    rfl
  simp only [hwf] at hx
  have hflow := fun q => h.bound_flow hk hf hlen q
  obtain ⟨Γ, rfl⟩ := exists_values (panelRefs_nodup (p.airplanesAt k)) hlen
  refine ⟨Γ, hx, ?_, ?_⟩
  · intro r hr
    obtain ⟨g, hg⟩ := List.getElem?_of_mem hr
    rw [h.panels hk, hf.rings g r hg]
    obtain ⟨e, he⟩ := hinv.rings k hk r hr
    simp only [ringAt, he, Option.getD_some]
    have : ((panelRefs (p.airplanesAt k)).map Γ).getD g 0 = Γ r := by simp [hg]
    rw [this]
    rfl
  · intro q
    rw [hflow q]
    have := zipWith_map_self (panelRefs (p.airplanesAt k)) id Γ (fun a x => x • unitRing p k a q)
    rw [List.map_id] at this
    rw [this]
    rfl

end UnsteadySolver

theorem wakePlaces_nodup (p : UnsteadyProblem) (k : ℕ) : (wakePlaces p k).Nodup := by
  unfold wakePlaces
  apply nodup_zipIdx_flatMap _ _ _ (·.airplane)
  · intro x _ b hb
    simp only [List.mem_flatMap, List.mem_map] at hb
    obtain ⟨_, _, _, _, _, _, rfl⟩ := hb
    rfl
  · intro x _
    apply nodup_zipIdx_flatMap _ _ _ (·.wing)
    · intro y _ b hb
      simp only [List.mem_flatMap, List.mem_map] at hb
      obtain ⟨_, _, _, _, rfl⟩ := hb
      rfl
    · intro y _
      rw [List.nodup_flatMap]
      constructor
      · intro r _
        refine List.Nodup.map ?_ List.nodup_range
        intro x y hxy
        simpa using hxy
      · refine List.Pairwise.imp_of_mem ?_ (List.nodup_range (n := k))
        intro x y _ _ hxy
        simp only [Function.onFun, List.disjoint_left, List.mem_map]
        rintro _ ⟨_, _, rfl⟩ ⟨_, _, h⟩
        simp only [WakePlace.mk.injEq] at h
        exact hxy h.2.2.1.symm

/-- The place of the image of a wake ring. -/
def placeImage (p : UnsteadyProblem) (sw : ℕ → ℕ → Bool) (ρ ω : ℕ → ℕ → ℕ) (k : ℕ) (q : WakePlace) : WakePlace :=
  ⟨ρ q.airplane q.wing, ω q.airplane q.wing, q.row, if sw q.airplane q.wing then p.spanOf (q.ref k) - 1 - q.col else q.col⟩

namespace SimilarWingMotion

/-- Wings and their images. -/
theorem wing (hs : SimilarWingMotion p p' M t sw κ ρ ω) {k : ℕ} (hk : k < p.numSteps) {a w : ℕ} {W : Wing}
    (hW : p.wing? ⟨k, a, w⟩ = some W) :
    ∃ W', p'.wing? ⟨k, ρ a w, ω a w⟩ = some W' ∧ W'.numSpanwisePanels = W.numSpanwisePanels ∧
      W'.spec.numChordwisePanels = W.spec.numChordwisePanels := by
  obtain ⟨A, hA, hAW⟩ := Option.bind_eq_some_iff.mp hW
  obtain ⟨A', W', hA', hW', -, h2, h3, -⟩ := (hs.similar k hk).airplanes.wings a A w W hA hAW
  have hmade : W.Made := (hs.made.regular.made k A (List.mem_of_getElem? hA)).wings W (List.mem_of_getElem? hAW)
  have hmade' : W'.Made := (hs.made'.regular.made k A' (List.mem_of_getElem? hA')).wings W' (List.mem_of_getElem? hW')
  have count : ∀ W : Wing, W.Made → W.spec.numChordwisePanels = W.panels.length := by
    intro W hm
    obtain ⟨S, le, n, sym, u, m, sp, hc⟩ := hm
    obtain ⟨c1, _⟩ := C18_wing_counts S le n sym u m sp W hc
    obtain ⟨hs, _⟩ := Wing.create_ok S le n sym u m sp W hc
    rw [c1, hs]
  exact ⟨W', Option.bind_eq_some_iff.mpr ⟨A', hA', hW'⟩, h2, by rw [count _ hmade, count _ hmade', h3]⟩

theorem span (hs : SimilarWingMotion p p' M t sw κ ρ ω) {k : ℕ} (hk : k < p.numSteps) {a w : ℕ} {W : Wing}
    (hW : p.wing? ⟨k, a, w⟩ = some W) :
    p'.spanOf ⟨k, ρ a w, ω a w⟩ = p.spanOf ⟨k, a, w⟩ ∧ p'.chordOf ⟨k, ρ a w, ω a w⟩ = p.chordOf ⟨k, a, w⟩ := by
  obtain ⟨W', hW', h1, h2⟩ := hs.wing hk hW
  simp [UnsteadyProblem.spanOf, UnsteadyProblem.chordOf, hW, hW', h1, h2]

theorem wings_injective (hs : SimilarWingMotion p p' M t sw κ ρ ω) {k : ℕ} (hk : k < p.numSteps) {a w b v : ℕ} {W W' : Wing}
    (hW : p.wing? ⟨k, a, w⟩ = some W) (hW' : p.wing? ⟨k, b, v⟩ = some W') (h1 : ρ a w = ρ b v) (h2 : ω a w = ω b v) :
    a = b ∧ w = v := by
  obtain ⟨A, hA, hAW⟩ := Option.bind_eq_some_iff.mp hW
  obtain ⟨B, hB, hBW⟩ := Option.bind_eq_some_iff.mp hW'
  exact (hs.similar k hk).airplanes.injective _ _ _ _ _ _ _ _ hA hAW hB hBW h1 h2

theorem wings_onto (hs : SimilarWingMotion p p' M t sw κ ρ ω) {k : ℕ} (hk : k < p.numSteps) {a' w' : ℕ} {W' : Wing}
    (hW' : p'.wing? ⟨k, a', w'⟩ = some W') : ∃ a w W, p.wing? ⟨k, a, w⟩ = some W ∧ ρ a w = a' ∧ ω a w = w' := by
  obtain ⟨A', hA', hAW'⟩ := Option.bind_eq_some_iff.mp hW'
  obtain ⟨a, A, w, W, hA, hW, ea, ew⟩ := (hs.similar k hk).airplanes.onto _ _ _ _ hA' hAW'
  exact ⟨a, w, W, Option.bind_eq_some_iff.mpr ⟨A, hA, hW⟩, ea, ew⟩

theorem places_perm (hs : SimilarWingMotion p p' M t sw κ ρ ω) {k : ℕ} (hk : k < p.numSteps) :
    (wakePlaces p' k).Perm ((wakePlaces p k).map (placeImage p sw ρ ω k)) := by
  have hcol : ∀ {q : WakePlace} {W : Wing}, p.wing? ⟨k, q.airplane, q.wing⟩ = some W →
      p.spanOf (q.ref k) = W.numSpanwisePanels := by
    intro q W hW
    simp [UnsteadyProblem.spanOf, WakePlace.ref, hW]
  have hinj : ∀ q ∈ wakePlaces p k, ∀ q' ∈ wakePlaces p k, placeImage p sw ρ ω k q = placeImage p sw ρ ω k q' → q = q' := by
    intro q hq q' hq' h
    obtain ⟨-, W, hW, hc⟩ := mem_wakePlaces.mp hq
    obtain ⟨-, W', hW', hc'⟩ := mem_wakePlaces.mp hq'
    obtain ⟨e1, e2⟩ := hs.wings_injective hk hW hW' (congrArg WakePlace.airplane h) (congrArg WakePlace.wing h)
    have h3 := congrArg WakePlace.row h
    have e3 : q.row = q'.row := h3
    have h4 := congrArg WakePlace.col h
    simp only [placeImage, hcol hW, hcol hW'] at h4
    rw [← e1, ← e2, hW] at hW'
    cases hW'
    rw [← e1, ← e2] at h4
    have e4 : q.col = q'.col := by split at h4 <;> omega
    cases q; cases q'; simp_all
  apply (List.perm_ext_iff_of_nodup (wakePlaces_nodup p' k)
    ((List.nodup_map_iff_inj_on (wakePlaces_nodup p k)).mpr hinj)).mpr
  intro q'
  constructor
  · intro hq'
    obtain ⟨hr, W', hW', hc'⟩ := mem_wakePlaces.mp hq'
    obtain ⟨a, w, W, hW, ea, ew⟩ := hs.wings_onto hk hW'
    obtain ⟨W'', hW'', hn, -⟩ := hs.wing hk hW
    rw [ea, ew, hW'] at hW''
    cases hW''
    refine List.mem_map.mpr ⟨⟨a, w, q'.row, if sw a w then W.numSpanwisePanels - 1 - q'.col else q'.col⟩, ?_, ?_⟩
    · exact mem_wakePlaces.mpr ⟨hr, W, hW, by simp only; split <;> omega⟩
    · unfold placeImage
      simp only [WakePlace.ref]
      have : p.spanOf ⟨k, a, w⟩ = W.numSpanwisePanels := by simp [UnsteadyProblem.spanOf, hW]
      rw [this, ea, ew]
      cases q'
      simp only [WakePlace.mk.injEq, true_and]
      simp only at hc'
      split <;> omega
  · intro hq'
    obtain ⟨q, hq, rfl⟩ := List.mem_map.mp hq'
    obtain ⟨hr, W, hW, hc⟩ := mem_wakePlaces.mp hq
    obtain ⟨W', hW', hn, -⟩ := hs.wing hk hW
    refine mem_wakePlaces.mpr ⟨hr, W', hW', ?_⟩
    simp only [placeImage, hcol hW]
    split <;> omega

end SimilarWingMotion

end

section

variable {p p' : UnsteadyProblem} {M : M3} {t : V3} {sw : ℕ → ℕ → Bool} {κ : ℝ} {ρ ω : ℕ → ℕ → ℕ}
  {pres : Bool} {s s₁ z z₁ : UnsteadySolver} {st sm zt zm : ℕ → UnsteadySolver}

/-- The wake vertices of step `k` and their images. -/
def WakeImages (p : UnsteadyProblem) (M : M3) (t : V3) (sw : ℕ → ℕ → Bool) (ρ ω : ℕ → ℕ → ℕ)
    (s₁ z₁ : UnsteadySolver) (k : ℕ) : Prop :=
  ∀ a w W, p.wing? ⟨k, a, w⟩ = some W → 0 < W.numSpanwisePanels → ∀ i ≤ k, ∀ j ≤ W.numSpanwisePanels,
    vertexAt (z₁.vertices ⟨k, ρ a w, ω a w⟩) i (if sw a w then W.numSpanwisePanels - j else j)
      = M.mulVec (vertexAt (s₁.vertices ⟨k, a, w⟩) i j) + t

/-- The bound rings of step `k` and their images. -/
def StrengthImages (p p' : UnsteadyProblem) (M : M3) (sw : ℕ → ℕ → Bool) (ρ ω : ℕ → ℕ → ℕ)
    (s₁ z₁ : UnsteadySolver) (k : ℕ) : Prop :=
  ∀ r ∈ panelRefs (p.airplanesAt k), ∃ g, (s₁.panels k r).ring = some ((boundRing p k r).updateStrength g) ∧
    (z₁.panels k (imageRef (p.airplanesAt k) sw ρ ω r)).ring
      = some ((boundRing p' k (imageRef (p.airplanesAt k) sw ρ ω r)).updateStrength
          (orientation M (sw r.airplane r.wing) * g))

namespace SimilarWingMotion

theorem chord_pos (hs : SimilarWingMotion p p' M t sw κ ρ ω) {w : WingRef} {W : Wing} (hW : p.wing? w = some W) :
    0 < p.chordOf w := by
  have := hs.chordwise w W hW
  simpa [UnsteadyProblem.chordOf, hW] using this

/-- The panels at the trailing edge. -/
theorem edge_mem (hs : SimilarWingMotion p p' M t sw κ ρ ω) {k : ℕ} {a w j : ℕ} {W : Wing}
    (hW : p.wing? ⟨k, a, w⟩ = some W) (hj : j < W.numSpanwisePanels) :
    (⟨a, w, p.chordOf ⟨k, a, w⟩ - 1, j⟩ : PanelRef) ∈ panelRefs (p.airplanesAt k) := by
  have hc := hs.chord_pos hW
  have e : p.chordOf ⟨k, a, w⟩ = W.spec.numChordwisePanels := by simp [UnsteadyProblem.chordOf, hW]
  rw [mem_panelRefs, ← Option.isSome_iff_exists, panelAt_isSome hs.made.regular hW]
  exact ⟨by omega, hj⟩

theorem image_edge (hs : SimilarWingMotion p p' M t sw κ ρ ω) {k : ℕ} (hk : k < p.numSteps) {a w j : ℕ} {W : Wing}
    (hW : p.wing? ⟨k, a, w⟩ = some W) :
    imageRef (p.airplanesAt k) sw ρ ω ⟨a, w, p.chordOf ⟨k, a, w⟩ - 1, j⟩
      = ⟨ρ a w, ω a w, p'.chordOf ⟨k, ρ a w, ω a w⟩ - 1, if sw a w then W.numSpanwisePanels - 1 - j else j⟩ := by
  rw [(hs.span hk hW).2]
  unfold imageRef
  have e : ((wingAt (p.airplanesAt k) ⟨a, w, p.chordOf ⟨k, a, w⟩ - 1, j⟩).map (·.numSpanwisePanels)).getD 0
      = p.spanOf ⟨k, a, w⟩ := rfl
  have e2 : p.spanOf ⟨k, a, w⟩ = W.numSpanwisePanels := by simp [UnsteadyProblem.spanOf, hW]
  simp only [e, e2]

theorem wing_at (hs : SimilarWingMotion p p' M t sw κ ρ ω) {j k : ℕ} (hj : j < p.numSteps) (hk : k < p.numSteps) {a w : ℕ} {W : Wing}
    (hW : p.wing? ⟨k, a, w⟩ = some W) : ∃ V, p.wing? ⟨j, a, w⟩ = some V ∧ V.numSpanwisePanels = W.numSpanwisePanels ∧
      p.chordOf ⟨j, a, w⟩ = p.chordOf ⟨k, a, w⟩ := by
  have hmem : (⟨k, a, w⟩ : WingRef) ∈ wingRefs k (p.airplanesAt k) := mem_wingRefs.mpr ⟨rfl, W, hW⟩
  obtain ⟨-, V, hV⟩ := mem_wingRefs.mp (hs.made.regular.wingRefs_move hk hj hmem)
  have hV' : p.wing? ⟨j, a, w⟩ = some V := hV
  have h1 := hs.made.regular.span_same hj hk a w
  simp only [UnsteadyProblem.spanOf, hW, hV', Option.map_some, Option.getD_some] at h1
  exact ⟨V, hV', h1, hs.made.regular.chord_same hj hk a w⟩

theorem edge_strength (hs : SimilarWingMotion p p' M t sw κ ρ ω) {j k : ℕ} (hj : j < p.numSteps) (hk : k < p.numSteps)
    (hst : StrengthImages p p' M sw ρ ω s₁ z₁ j) {a w c : ℕ} {W : Wing} (hW : p.wing? ⟨k, a, w⟩ = some W)
    (hc : c < W.numSpanwisePanels) :
    edgeStrength p' z₁ j ⟨k, ρ a w, ω a w⟩ (if sw a w then W.numSpanwisePanels - 1 - c else c)
      = orientation M (sw a w) * edgeStrength p s₁ j ⟨k, a, w⟩ c := by
  obtain ⟨V, hV, hn, hch⟩ := hs.wing_at hj hk hW
  obtain ⟨g, h1, h2⟩ := hst _ (hs.edge_mem hV (j := c) (by omega))
  rw [hs.image_edge hj hV, hn] at h2
  have hch' : p'.chordOf ⟨j, ρ a w, ω a w⟩ = p'.chordOf ⟨k, ρ a w, ω a w⟩ := by
    rw [(hs.span hj hV).2, (hs.span hk hW).2, hch]
  rw [hch'] at h2
  rw [hch] at h1
  unfold edgeStrength
  simp only
  rw [ringAt_of_panels h1, ringAt_of_panels h2]
  rfl

theorem wake_flow (hs : SimilarWingMotion p p' M t sw κ ρ ω) (h : Trace p pres s s₁ st sm) (h' : Trace p' pres z z₁ zt zm)
    {k : ℕ} (hk : k < p.numSteps) (hv : 0 < k → WakeImages p M t sw ρ ω s₁ z₁ k)
    (hst : ∀ j < k, StrengthImages p p' M sw ρ ω s₁ z₁ j) (q : V3) :
    wakeFlow z₁ k (M.mulVec q + t) = M.mulVec (wakeFlow s₁ k q) := by
  unfold wakeFlow
  rw [h.places hk, h'.places (hk.trans_le hs.steps), h.final_eq.2.2.2.2.2.2, h'.final_eq.2.2.2.2.2.2, hs.nu k hk]
  simp only [Option.getD_some]
  rw [(((hs.places_perm hk).map _).map _).sum_eq, M3.mulVec_sum]
  simp only [List.map_map]
  congr 1
  apply List.map_congr_left
  intro c hc
  obtain ⟨hrow, W, hW, hcol⟩ := mem_wakePlaces.mp hc
  have hpos : 0 < W.numSpanwisePanels := by omega
  have hspan : p.spanOf (c.ref k) = W.numSpanwisePanels := by simp [UnsteadyProblem.spanOf, WakePlace.ref, hW]
  have hstr := hs.edge_strength (j := k - 1 - c.row) (by omega) hk (hst _ (by omega)) hW hcol
  have hvert := hv (by omega) c.airplane c.wing W hW hpos
  simp only [Function.comp]
  rw [← ringInduced_image (t := t) (hs.ortho hk) (sw c.airplane c.wing)]
  simp only [placeRing, placeImage, WakePlace.ref, wakeSlot, wakeRing, RingVortex.mk', hs.time]
  have hspan' : p.spanOf ⟨k, c.airplane, c.wing⟩ = W.numSpanwisePanels := hspan
  rw [hspan', hstr]
  have g : ∀ nu fr fl bl br x age y fr' fl' bl' br', fr = fr' → fl = fl' → bl = bl' → br = br' →
      ringInduced nu fr fl bl br x age y = ringInduced nu fr' fl' bl' br' x age y := by
    rintro _ _ _ _ _ _ _ _ _ _ _ _ rfl rfl rfl rfl; rfl
  have a1 := hvert c.row (by omega) c.col (by omega)
  have a2 := hvert c.row (by omega) (c.col + 1) (by omega)
  have a3 := hvert (c.row + 1) (by omega) c.col (by omega)
  have a4 := hvert (c.row + 1) (by omega) (c.col + 1) (by omega)
  rcases Bool.eq_false_or_eq_true (sw c.airplane c.wing) with hm | hm
  rotate_left
  all_goals rw [hm] at a1 a2 a3 a4 ⊢
  · simp only [Bool.false_eq_true, if_false] at a1 a2 a3 a4 ⊢
    exact g _ _ _ _ _ _ _ _ _ _ _ _ a2 a1 a3 a4
  · simp only [if_true] at a1 a2 a3 a4 ⊢
    have e1 : W.numSpanwisePanels - 1 - c.col = W.numSpanwisePanels - (c.col + 1) := by omega
    have e2 : W.numSpanwisePanels - 1 - c.col + 1 = W.numSpanwisePanels - c.col := by omega
    rw [e2, e1]
    exact g _ _ _ _ _ _ _ _ _ _ _ _ a1 a2 a4 a3

/-- The back vertices of the trailing-edge rings. -/
theorem edge_vertices (hs : SimilarWingMotion p p' M t sw κ ρ ω) (h : Trace p pres s s₁ st sm) {k : ℕ} (hk : k < p.numSteps)
    (h0 : 0 < k) {a w : ℕ} {W : Wing} (hW : p.wing? ⟨k, a, w⟩ = some W) :
    (∀ j < W.numSpanwisePanels, vertexAt (s₁.vertices ⟨k, a, w⟩) 0 j
      = (boundRing p k ⟨a, w, p.chordOf ⟨k, a, w⟩ - 1, j⟩).backLeft) ∧
    (0 < W.numSpanwisePanels → vertexAt (s₁.vertices ⟨k, a, w⟩) 0 W.numSpanwisePanels
      = (boundRing p k ⟨a, w, p.chordOf ⟨k, a, w⟩ - 1, W.numSpanwisePanels - 1⟩).backRight) := by
  have hmem : (⟨k, a, w⟩ : WingRef) ∈ wingRefs k (p.airplanesAt k) := mem_wingRefs.mpr ⟨rfl, W, hW⟩
  obtain ⟨h1, h2⟩ := h.first_row hs.made.regular hk h0 hmem (hs.chord_pos hW)
  have e2 : p.spanOf ⟨k, a, w⟩ = W.numSpanwisePanels := by simp [UnsteadyProblem.spanOf, hW]
  rw [e2] at h1 h2
  constructor
  · intro j hj
    obtain ⟨g, hg⟩ := h.rings hk (hs.edge_mem hW hj)
    rw [h1 j hj, ringAt_of_panels hg]
    rfl
  · intro hpos
    obtain ⟨g, hg⟩ := h.rings hk (hs.edge_mem hW (j := W.numSpanwisePanels - 1) (by omega))
    rw [h2 hpos, ringAt_of_panels hg]
    rfl

theorem symm_chordwise (hs : SimilarWingMotion p p' M t sw κ ρ ω) {k : ℕ} (hk : k < p.numSteps) {a w : ℕ} {W : Wing}
    (hW : p.wing? ⟨k, a, w⟩ = some W) (h' : Trace p' pres z z₁ zt zm) (h0 : 0 < k) :
    (∀ j < W.numSpanwisePanels, vertexAt (z₁.vertices ⟨k, ρ a w, ω a w⟩) 0 j
      = (boundRing p' k ⟨ρ a w, ω a w, p'.chordOf ⟨k, ρ a w, ω a w⟩ - 1, j⟩).backLeft) ∧
    (0 < W.numSpanwisePanels → vertexAt (z₁.vertices ⟨k, ρ a w, ω a w⟩) 0 W.numSpanwisePanels
      = (boundRing p' k ⟨ρ a w, ω a w, p'.chordOf ⟨k, ρ a w, ω a w⟩ - 1, W.numSpanwisePanels - 1⟩).backRight) := by
  obtain ⟨W', hW', hn, hc⟩ := hs.wing hk hW
  have hk' : k < p'.numSteps := hk.trans_le hs.steps
  have hmem : (⟨k, ρ a w, ω a w⟩ : WingRef) ∈ wingRefs k (p'.airplanesAt k) := mem_wingRefs.mpr ⟨rfl, W', hW'⟩
  have hpos : 0 < p'.chordOf ⟨k, ρ a w, ω a w⟩ := by rw [(hs.span hk hW).2]; exact hs.chord_pos hW
  obtain ⟨h1, h2⟩ := h'.first_row hs.made'.regular hk' h0 hmem hpos
  have e2 : p'.spanOf ⟨k, ρ a w, ω a w⟩ = W.numSpanwisePanels := by simp [UnsteadyProblem.spanOf, hW', hn]
  have hm : ∀ j < W.numSpanwisePanels, (⟨ρ a w, ω a w, p'.chordOf ⟨k, ρ a w, ω a w⟩ - 1, j⟩ : PanelRef)
      ∈ panelRefs (p'.airplanesAt k) := by
    intro j hj
    have e : p'.chordOf ⟨k, ρ a w, ω a w⟩ = W'.spec.numChordwisePanels := by simp [UnsteadyProblem.chordOf, hW']
    rw [mem_panelRefs, ← Option.isSome_iff_exists, panelAt_isSome hs.made'.regular hW']
    exact ⟨by omega, by omega⟩
  rw [e2] at h1 h2
  constructor
  · intro j hj
    obtain ⟨g, hg⟩ := h'.rings hk' (hm j hj)
    rw [h1 j hj, ringAt_of_panels hg]
    rfl
  · intro hp
    obtain ⟨g, hg⟩ := h'.rings hk' (hm (W.numSpanwisePanels - 1) (by omega))
    rw [h2 hp, ringAt_of_panels hg]
    rfl

theorem first_row (hs : SimilarWingMotion p p' M t sw κ ρ ω) (h : Trace p pres s s₁ st sm) (h' : Trace p' pres z z₁ zt zm)
    {k : ℕ} (hk : k < p.numSteps) (h0 : 0 < k) {a w : ℕ} {W : Wing} (hW : p.wing? ⟨k, a, w⟩ = some W)
    (hn : 0 < W.numSpanwisePanels) {j : ℕ} (hj : j ≤ W.numSpanwisePanels) :
    vertexAt (z₁.vertices ⟨k, ρ a w, ω a w⟩) 0 (if sw a w then W.numSpanwisePanels - j else j)
      = M.mulVec (vertexAt (s₁.vertices ⟨k, a, w⟩) 0 j) + t := by
  obtain ⟨v1, v2⟩ := hs.edge_vertices h hk h0 hW
  obtain ⟨v1', v2'⟩ := hs.symm_chordwise hk hW h' h0
  have hback : ∀ j < W.numSpanwisePanels,
      (boundRing p' k ⟨ρ a w, ω a w, p'.chordOf ⟨k, ρ a w, ω a w⟩ - 1, if sw a w then W.numSpanwisePanels - 1 - j else j⟩).backLeft
        = M.mulVec (if sw a w then (boundRing p k ⟨a, w, p.chordOf ⟨k, a, w⟩ - 1, j⟩).backRight
            else (boundRing p k ⟨a, w, p.chordOf ⟨k, a, w⟩ - 1, j⟩).backLeft) + t ∧
      (boundRing p' k ⟨ρ a w, ω a w, p'.chordOf ⟨k, ρ a w, ω a w⟩ - 1, if sw a w then W.numSpanwisePanels - 1 - j else j⟩).backRight
        = M.mulVec (if sw a w then (boundRing p k ⟨a, w, p.chordOf ⟨k, a, w⟩ - 1, j⟩).backLeft
            else (boundRing p k ⟨a, w, p.chordOf ⟨k, a, w⟩ - 1, j⟩).backRight) + t := by
    intro j hj
    obtain ⟨c, hc⟩ := (mem_panelRefs _ _).mp (hs.edge_mem hW hj)
    have := hs.ringBack hk hc
    rw [hs.image_edge hk hW] at this
    exact this
  rcases Bool.eq_false_or_eq_true (sw a w) with hm | hm
  rotate_left
  · rw [hm] at hback ⊢
    simp only [Bool.false_eq_true, if_false] at hback ⊢
    by_cases hlt : j < W.numSpanwisePanels
    · rw [v1 j hlt, v1' j hlt, (hback j hlt).1]
    · obtain rfl : j = W.numSpanwisePanels := by omega
      rw [v2 hn, v2' hn, (hback _ (by omega)).2]
  · have hshare := hs.shared k hk a w hm
    rw [hm] at hback ⊢
    simp only [if_true] at hback ⊢
    rcases Nat.eq_zero_or_pos j with rfl | hjp
    · rw [Nat.sub_zero, v2' hn, v1 0 hn]
      have := (hback 0 hn).2
      rw [Nat.sub_zero] at this
      exact this
    · rw [v1' _ (by omega)]
      have := (hback (j - 1) (by omega)).1
      rw [show W.numSpanwisePanels - 1 - (j - 1) = W.numSpanwisePanels - j by omega] at this
      rw [this]
      congr 2
      by_cases hlt : j < W.numSpanwisePanels
      · rw [v1 j hlt]
        obtain ⟨c, hc⟩ := (mem_panelRefs _ _).mp (hs.edge_mem hW (j := j - 1) (by omega))
        obtain ⟨d, hd⟩ := (mem_panelRefs _ _).mp (hs.edge_mem hW hlt)
        have hd' : panelAt (p.airplanesAt k) { (⟨a, w, p.chordOf ⟨k, a, w⟩ - 1, j - 1⟩ : PanelRef) with
            col := (⟨a, w, p.chordOf ⟨k, a, w⟩ - 1, j - 1⟩ : PanelRef).col + 1 } = some d := by
          simp only
          rw [show j - 1 + 1 = j by omega]
          exact hd
        have e := (ring_side (V := (p.operatingPointAt k).freestreamVelocity) (dt := p.deltaTime)
          (hs.made.regular.made k) hc hd' hshare).2
        simp only at e
        rw [show j - 1 + 1 = j by omega] at e
        exact e
      · obtain rfl : j = W.numSpanwisePanels := by omega
        rw [v2 hn]

theorem next_vertices (hs : SimilarWingMotion p p' M t sw κ ρ ω) (h : Trace p pres s s₁ st sm) (h' : Trace p' pres z z₁ zt zm)
    {k : ℕ} (hk : k + 1 < p.numSteps) (hv : 0 < k → WakeImages p M t sw ρ ω s₁ z₁ k)
    (hf : ∀ q, flow z₁ k (M.mulVec q + t) = M.mulVec (flow s₁ k q)) : WakeImages p M t sw ρ ω s₁ z₁ (k + 1) := by
  intro a w W hW hn i hi j hj
  cases i with
  | zero => exact hs.first_row h h' hk (by omega) hW hn hj
  | succ i =>
    obtain ⟨V, hV, hVn, -⟩ := hs.wing_at (j := k) (by omega) hk hW
    obtain ⟨V', hV', hVn', -⟩ := hs.wing (by omega) hV
    have hk' : k + 1 < p'.numSteps := hk.trans_le hs.steps
    have hmem : (⟨k, a, w⟩ : WingRef) ∈ wingRefs k (p.airplanesAt k) := mem_wingRefs.mpr ⟨rfl, V, hV⟩
    have hmem' : (⟨k, ρ a w, ω a w⟩ : WingRef) ∈ wingRefs k (p'.airplanesAt k) := mem_wingRefs.mpr ⟨rfl, V', hV'⟩
    have hsp : p.spanOf ⟨k, a, w⟩ = V.numSpanwisePanels := by simp [UnsteadyProblem.spanOf, hV]
    have hsp' : p'.spanOf ⟨k, ρ a w, ω a w⟩ = V'.numSpanwisePanels := by simp [UnsteadyProblem.spanOf, hV']
    have e := h.later_rows hk hmem (i := i) (by omega) (j := j) (by omega)
    have e' := h'.later_rows hk' hmem' (i := i) (by omega) (j := if sw a w then W.numSpanwisePanels - j else j)
      (by split <;> omega)
    have hconv : ∀ x, (zm k).convect pres (M.mulVec x + t) = M.mulVec ((sm k).convect pres x) + t := by
      intro x
      rw [h.convect hs.made.regular (by omega), h'.convect hs.made'.regular (by omega), hs.time, hf,
        hs.velocity (by omega)]
      cases pres <;> simp only [if_true, if_false, Bool.false_eq_true, M3.mulVec_add, M3.mulVec_smul] <;> abel
    simp only at e e'
    rw [e, e', ← hconv]
    congr 1
    by_cases h0 : k = 0
    · rw [if_pos h0, if_pos h0]
      obtain rfl : i = 0 := by omega
      exact hs.first_row h h' hk (by omega) hW hn hj
    · rw [if_neg h0, if_neg h0]
      have := hv (by omega) a w V hV (by omega) i (by omega) j (by omega)
      rw [hVn] at this
      exact this

end SimilarWingMotion

end
end Ptera
