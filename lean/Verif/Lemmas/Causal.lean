import Verif.Lemmas.Prefix
import Verif.Lemmas.Translated
import Verif.Spec.Causal

/-! Helper lemmas: unsteady problems with the same first steps. -/

namespace Ptera

open UnsteadySolver

variable {p p' q : UnsteadyProblem} {s s₁ z z₁ : UnsteadySolver} {pres sl sl' : Bool}

theorem create_some (hm : q.Made) (h0 : 0 < q.numSteps) : ∃ s, UnsteadySolver.create q = .ok s := by
  have hlen := hm.regular.steps
  unfold UnsteadySolver.create
  cases hsp : q.steadyProblems with
  | nil => rw [hsp] at hlen; simp at hlen; omega
  | cons a l => exact ⟨_, rfl⟩

/-- A panel's loads follow from its force and moment. -/
theorem panel_loads_of_force (hp : p.Made) (hs : Reached p s) (h : s.run pres sl = .ok s₁) {k : ℕ} (hk : k < p.numSteps)
    (hfirst : p.firstResultsStep ≤ (k : ℤ)) {r : PanelRef} {c : Panel} (hc : panelAt (p.airplanesAt k) r = some c)
    {L : PanelLoads} (hL : (s₁.panels k r).loads = some L) :
    L = panelLoads (p.operatingPointAt k) (geometryOf (p.airplanesAt k) r) L.forceGeometry L.momentGeometry := by
  obtain ⟨st, sm, ht⟩ := hs.trace hp h
  obtain ⟨F, M, heap, hpr⟩ := ht.processed hp.regular hk hfirst
  have h1 : s₁.panels k = (processForces (p.operatingPointAt k) (p.airplanesAt k) (panelRefs (p.airplanesAt k)) F M heap).1 :=
    (congrArg Prod.fst hpr)
  obtain ⟨g, hg⟩ := List.getElem?_of_mem ((mem_panelRefs _ _).mpr ⟨c, hc⟩)
  have hspec := (storePanelLoads_spec (p.operatingPointAt k) (p.airplanesAt k) (panelRefs (p.airplanesAt k)) F M heap
    (panelRefs_nodup _)).1 g r hg
  rw [h1] at hL
  simp only [processForces] at hL
  rw [hspec] at hL
  simp only [Option.some.injEq] at hL
  rw [← hL]
  rfl

theorem similar_same (hp : p.Made) (hp' : p'.Made) (hc : p.Chordwise) (hn : p.numSteps ≤ p'.numSteps)
    (hd : p'.deltaTime = p.deltaTime)
    (h : ∀ k < p.numSteps, p'.airplanesAt k = p.airplanesAt k ∧ p'.operatingPointAt k = p.operatingPointAt k) :
    SimilarUnsteady p p' M3.one 0 (fun _ _ => false) 1 id (fun _ => id) :=
  { made := hp, made' := hp', chordwise := hc, steps := hn, time := hd
    similar := by
      intro k hkn
      exact {
        airplanes := by simp only [(h k hkn).1]; exact SimilarAirplanes.refl _
        made := hp.regular.made k
        made' := hp'.regular.made k
        nonzero := one_ne_zero
        direction := by simp only [(h k hkn).2, one_mulVec]
        velocity := by simp only [(h k hkn).2, one_mulVec, one_smul]
        density := by simp only [(h k hkn).2, _root_.one_mul] }
    nu := by intro k hkn; rw [(h k hkn).2]
    shared := by intro k _ a w hw; cases hw }

/-- Runs of a problem and of one that begins with the same steps agree. -/
theorem agrees_of_same (hp : p.Made) (hp' : p'.Made) (hc : p.Chordwise) (hn : p.numSteps ≤ p'.numSteps)
    (hd : p'.deltaTime = p.deltaTime)
    (h : ∀ k < p.numSteps, p'.airplanesAt k = p.airplanesAt k ∧ p'.operatingPointAt k = p.operatingPointAt k)
    (hr : Reached p s) (hrun : s.run pres sl = .ok s₁) (hz : Reached p' z) (hrun' : z.run pres sl' = .ok z₁)
    (k : ℕ) (hk : k < p.numSteps) : StepAgrees p p' s₁ z₁ k := by
  have hs := similar_same hp hp' hc hn hd h
  obtain ⟨hair, hop⟩ := h k hk
  have hk' : k < p'.numSteps := hk.trans_le hn
  obtain ⟨hf, hst, hw⟩ := hs.run_flow hr hrun hz hrun' k hk
  have hdet : M3.one.det = 1 := one_isRot.2
  have hl := hs.run_loads (N := M3.one) hr hrun hz hrun' k hk (by rw [M3.mul_one, M3.one_mul, hop])
  refine ⟨?_, ?_, ?_, ?_, ?_⟩
  · intro q
    have := hf q
    rwa [one_mulVec, one_mulVec, add_zero] at this
  · intro r c hc
    obtain ⟨st, sm, ht⟩ := hr.trace hp hrun
    obtain ⟨zt, zm, ht'⟩ := hz.trace hp' hrun'
    obtain ⟨g, h1, h2⟩ := (hs.motion.wings.steps_similar ht ht' k hk).2.1 r ((mem_panelRefs _ _).mpr ⟨c, hc⟩)
    rw [imageRef_same, orientation_one, _root_.one_mul] at h2
    refine ⟨_, h1, ?_⟩
    rw [h2]
    simp only [boundRing, hair, hop, hd]
  · intro c hc
    obtain ⟨w, w', h1, h2, h3, h4, h5, h6, h7, h8⟩ := hw c hc
    refine ⟨w, h1, ?_⟩
    have e : placeImage p (fun _ _ => false) (fun a _ => id a) (fun _ => id) k c = c := rfl
    rw [e] at h2
    rw [h2]
    simp only [Bool.false_eq_true, if_false, one_mulVec, orientation_one, _root_.one_mul, add_zero] at h3 h4 h5 h6 h7
    congr 1
    cases w; cases w'
    simp only at h3 h4 h5 h6 h7 h8
    subst h3 h4 h5 h6 h7 h8
    rfl
  · intro hfr hfr' r c hc
    obtain ⟨L, L', h1, h2, h3, h4, -, -⟩ := (hl hfr hfr').1 r c hc
    rw [imageRef_same] at h2
    rw [one_mulVec, one_smul] at h3
    rw [one_mulVec, hdet, _root_.one_mul, one_smul] at h4
    refine ⟨L, h1, ?_⟩
    rw [h2, panel_loads_of_force hp' hz hrun' hk' hfr' (c := c) (by rw [hair]; exact hc) h2, h3, h4, hair, hop,
      ← panel_loads_of_force hp hr hrun hk hfr hc h1]
  · intro hfr hfr' a ha
    obtain ⟨A', L, L', h1, h2, h3, h4, h5, h6, h7⟩ := (hl hfr hfr').2 a _ (List.getElem?_eq_getElem ha)
    rw [one_mulVec, one_smul] at h4
    rw [one_mulVec, hdet, _root_.one_mul, one_smul] at h5
    rw [hair, id, List.getElem?_eq_getElem ha, Option.some.injEq] at h1
    subst h1
    obtain ⟨a1, a2⟩ := h6
    obtain ⟨b1, b2⟩ := h7
    simp only [hop, h4, h5] at b1 b2
    rw [← a1] at b1
    rw [← a2] at b2
    refine ⟨L, h2, ?_⟩
    rw [show (z₁.loads k)[a]? = some L' from h3]
    cases L; cases L'
    simp only at h4 h5 b1 b2
    subst h4 h5 b1 b2
    rfl

/-- The run over the first steps succeeds if the longer one does. -/
theorem run_prefix (hq : q.Made) (hp : p.Made) (hn : q.numSteps ≤ p.numSteps) (hd : q.deltaTime = p.deltaTime)
    (h : ∀ k < q.numSteps, q.airplanesAt k = p.airplanesAt k ∧ q.operatingPointAt k = p.operatingPointAt k)
    (hr : Reached p s) (hrun : s.run pres sl = .ok s₁) (hz : Reached q z) (pres' sl' : Bool) :
    ∃ z₁, z.run pres' sl' = .ok z₁ := by
  obtain ⟨st, sm, ht⟩ := hr.trace hp hrun
  refine C40_run_finishes hq hz ?_ pres' sl'
  intro k hk b hb
  obtain ⟨Γ, hΓ, -⟩ := ht.values hp.regular (hk.trans_le hn)
  obtain ⟨hair, hop⟩ := h k hk
  obtain ⟨x, hx⟩ := linalgSolve_all (panelRefs (p.airplanesAt k))
    (fun i j => (unitRing p k j (geometryOf (p.airplanesAt k) i).collocationPoint).dot (geometryOf (p.airplanesAt k) i).unitNormal)
    hΓ b (by rw [hb, hair])
  refine ⟨x, ?_⟩
  rw [← hx]
  simp only [wingMatrix, unitRing, boundRing, hair, hop, hd]

theorem chordwise_of_same (hc : p.Chordwise) (hq : q.Made)
    (h : ∀ k < q.numSteps, q.airplanesAt k = p.airplanesAt k) : q.Chordwise := by
  intro w wing hw
  by_cases hk : w.step < q.numSteps
  · refine hc w wing ?_
    unfold UnsteadyProblem.wing? at hw ⊢
    rwa [← h _ hk]
  · have : q.airplanesAt w.step = [] := by
      unfold UnsteadyProblem.airplanesAt
      rw [List.getElem?_eq_none (by rw [hq.regular.steps]; omega)]
      rfl
    simp [UnsteadyProblem.wing?, this] at hw

end Ptera
