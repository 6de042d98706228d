import Verif.Spec.SharedMovement
import Verif.Props.Aborted
import Verif.Lemmas.Causal

/-!
# C109: several unsteady problems built from one movement
-/

namespace Ptera

open UnsteadySolver

namespace MovementSession

/-- The wakes at the first step are empty, and the solvers are in the state constructors and runs leave them in. -/
def Sound (p : ℕ → UnsteadyProblem) (h : MovementSession) : Prop :=
  (∀ w : WingRef, w.step = 0 → h.objects.wakes w = []) ∧
  ∀ j i s, h.solvers j = some (i, s) → Good (p i) (h.present i s)

variable {p : ℕ → UnsteadyProblem} {h h' : MovementSession}

theorem Sound.recorded (hs : h.Sound p) {j i : ℕ} {s : UnsteadySolver} (hg : Good (p i) s) : (h.record j i s).Sound p := by
  refine ⟨fun w hw => hg.wakes w hw, fun j' i' s' hj => ?_⟩
  simp only [record] at hj
  split at hj
  · cases hj
    exact ⟨hg.problem, hg.wakes, hg.arrays⟩
  · have := hs.2 j' i' s' hj
    exact ⟨this.problem, fun w hw => hg.wakes w hw, this.arrays⟩

theorem Sound.event (hp : ∀ i, (p i).Made) (hs : h.Sound p) (e : Event p h h') : h'.Sound p := by
  cases e with
  | made j i s new =>
    refine ⟨hs.1, fun j' i' s' hj => ?_⟩
    simp only [enter] at hj
    split at hj
    · cases hj
      unfold UnsteadySolver.create at new
      split at new
      · cases new
      · cases new
        exact ⟨rfl, hs.1, Or.inl rfl⟩
    · have := hs.2 j' i' s' hj
      exact ⟨this.problem, this.wakes, this.arrays⟩
  | ran j i s pres sl _ hj hrun =>
    unfold MovementSession.run at hrun
    cases hr : (h.present i s).run pres sl with
    | error e => rw [hr] at hrun; cases hrun
    | ok s' =>
      rw [hr] at hrun
      cases hrun
      have hg := hs.2 j i s hj
      obtain ⟨st, sm, ht⟩ := run_trace (hp i).regular hg hr
      exact hs.recorded (ht.good hg)
  | stopped j i s s' pres sl ops hj hops hperf => exact hs.recorded ((hs.2 j i s hj).aborted hops hperf)
  | written panels loads =>
    refine ⟨hs.1, fun j i s hj => ?_⟩
    have := hs.2 j i s hj
    exact ⟨this.problem, this.wakes, this.arrays⟩

theorem Reached.sound (hp : ∀ i, (p i).Made) (hr : Reached p h) : h.Sound p := by
  induction hr with
  | start => exact ⟨fun _ _ => rfl, fun j i s hj => by cases hj⟩
  | event _ e ih => exact ih.event hp e

end MovementSession

section

variable {p : UnsteadyProblem} {s s' : UnsteadySolver} {pres sl : Bool}

/-- As `C34_unsteady`, for solvers whose objects other solvers may have worked on. -/
theorem UnsteadySolver.Good.same (hp : p.Made) {a b a' : UnsteadySolver} (ha : Good p a) (hb : Good p b)
    (h : a.run pres sl = .ok a') (sl' : Bool) : ∃ b', b.run pres sl' = .ok b' ∧ SameResults p a' b' := by
  obtain ⟨b', hb', hr⟩ := agree_run hp.regular hp.chordwise ha hb h sl'
  obtain ⟨st1, sm1, t1⟩ := run_trace hp.regular ha h
  obtain ⟨st2, sm2, t2⟩ := run_trace hp.regular hb hb'
  refine ⟨b', hb', ?_⟩
  intro k hk
  obtain ⟨_, h2, h3⟩ := agree_finished hp.regular hp.chordwise t1 t2 hr k hk
  refine ⟨fun r hmem => ⟨hr k hk r hmem, fun hf => (agree_loads hp.regular hp.chordwise t1 t2 hr hk hf).1 r hmem⟩,
    fun hf => (agree_loads hp.regular hp.chordwise t1 t2 hr hk hf).2, ?_, h3⟩
  have l1 := t1.arraysLen
  have l2 := t2.arraysLen
  have hk1 : k < a'.wakeArrays.length := by omega
  have hk2 : k < b'.wakeArrays.length := by omega
  rw [List.getD_eq_getElem?_getD, List.getD_eq_getElem?_getD, List.getElem?_eq_getElem hk1,
    List.getElem?_eq_getElem hk2, Option.getD_some, Option.getD_some] at h2
  rw [List.getElem?_eq_getElem hk1, List.getElem?_eq_getElem hk2, h2]

/-- As `C40_only_singular_fails`, for solvers whose objects other solvers may have worked on. -/
theorem UnsteadySolver.Good.error (hp : p.Made) (hg : Good p s) (e : Err) (h : s.run pres sl = .error e) :
    e = .linAlgError := by
  have key : ∀ n ≤ p.numSteps, (List.range n).foldlM (runStep pres) s.begun = .error e → e = .linAlgError := by
    intro n
    induction n with
    | zero => intro _ h; simp [pure, Except.pure] at h
    | succ n ih =>
      intro hn h
      rw [List.range_succ, List.foldlM_append] at h
      cases hx : (List.range n).foldlM (runStep pres) s.begun with
      | error e' =>
        rw [hx] at h
        simp only [bind, Except.bind, Except.error.injEq] at h
        exact ih (by omega) (by rw [hx, h])
      | ok t =>
        rw [hx] at h
        simp only [bind, Except.bind, List.foldlM_cons, List.foldlM_nil] at h
        have hi := inv_prefix hp.regular hg n (by omega) t hx
        obtain ⟨addr, hw⟩ := hi.wake (by omega)
        have hr := hi.ready hp.regular (by omega) hw
        cases hy : runStep pres t n with
        | ok u => rw [hy] at h; simp [pure, Except.pure] at h
        | error e' =>
          rw [hy] at h
          simp only [Except.error.injEq] at h
          subst h
          unfold runStep at hy
          rw [solveStep_eq hr] at hy
          cases hz : linalgSolve (t.assembled n (t.ringAt n) (t.ringAt (n - 1)) (wakeAddresses p n addr)).influences
              (List.zipWith (fun w f => -w - f)
                (t.assembled n (t.ringAt n) (t.ringAt (n - 1)) (wakeAddresses p n addr)).wake
                (t.assembled n (t.ringAt n) (t.ringAt (n - 1)) (wakeAddresses p n addr)).freestream) with
          | ok x => rw [hz] at hy; simp [Except.map, bind, Except.bind, pure, Except.pure] at hy
          | error e'' =>
            rw [hz] at hy
            simp only [Except.map, bind, Except.bind, Except.error.injEq] at hy
            rw [← hy]
            exact linalgSolve_error hz
  unfold UnsteadySolver.run at h
  rw [hg.problem] at h
  cases hx : (List.range p.numSteps).foldlM (runStep pres) s.begun with
  | error e' =>
    have hx' : (List.range p.numSteps).foldlM (runStep pres) s.preallocate.initializePanelVortices = .error e' := hx
    rw [hx'] at h
    simp only [bind, Except.bind, Except.error.injEq] at h
    exact key _ le_rfl (by rw [hx, h])
  | ok t =>
    have hx' : (List.range p.numSteps).foldlM (runStep pres) s.preallocate.initializePanelVortices = .ok t := hx
    rw [hx'] at h
    simp [bind, Except.bind, pure, Except.pure] at h

/-- A finished run appends the final results of an undisturbed run to the lists it finds. -/
theorem UnsteadySolver.Good.appended (hp : p.Made) {f f' : UnsteadySolver} (hf : UnsteadySolver.create p = .ok f)
    (hdt : 0 < p.deltaTime) (hP : 0 ≤ p.maxPeriod) (hg : Good p s) (h : f.run pres sl = .ok f')
    {sl' : Bool} (h' : s.run pres sl' = .ok s') (hsame : SameResults p f' s') :
    ∀ list ∈ [ResultLists.forces, ResultLists.forceCoefficients, ResultLists.moments, ResultLists.momentCoefficients],
      list s'.final = list s.final ++ list f'.final ∧ list s'.finalMean = list s.finalMean ++ list f'.finalMean ∧
      list s'.finalRms = list s.finalRms ++ list f'.finalRms := by
  have hrf : UnsteadySolver.Reached p f := .fresh hf
  obtain ⟨st1, sm1, t1⟩ := hrf.trace hp h
  obtain ⟨st2, sm2, t2⟩ := run_trace hp.regular hg h'
  have hfresh : f.final = {} ∧ f.finalMean = {} ∧ f.finalRms = {} := by
    unfold UnsteadySolver.create at hf
    split at hf
    · cases hf
    · cases hf; exact ⟨rfl, rfl, rfl⟩
  obtain ⟨f3, f4, f5⟩ := hfresh
  obtain ⟨w1, w2, _⟩ := hp.window (hrf.steps hp) hdt hP
  have hhist : ∀ g i, s'.history g i = f'.history g i := by
    intro g i
    unfold history averagingSteps
    rw [t1.final_eq.2.2.2.2.2.2, t2.final_eq.2.2.2.2.2.2]
    apply List.map_congr_left
    intro k hk
    have hk1 : k < p.numSteps := by simpa using List.mem_of_mem_drop hk
    have hk2 : p.firstAveragingStep.toNat ≤ k := by
      obtain ⟨i, hi, rfl⟩ := List.getElem_of_mem hk
      simp
    rw [(hsame k hk1).2.1 (by omega)]
  obtain ⟨g1, g2⟩ := t1.run_finals
  obtain ⟨k1, k2⟩ := t2.run_finals
  intro list hlist
  by_cases h0 : p.maxPeriod = 0
  · obtain ⟨a1, a2, a3⟩ := g1 h0
    obtain ⟨b1, b2, b3⟩ := k1 h0
    rw [foldl_appendResults] at a1 b1
    rw [b1, a1, b2, b3, a2, a3, f3, f4, f5]
    simp only [List.mem_cons, List.not_mem_nil, or_false] at hlist
    rcases hlist with rfl | rfl | rfl | rfl <;> simp [hhist]
  · obtain ⟨a1, a2, a3⟩ := g2 h0
    obtain ⟨b1, b2, b3⟩ := k2 h0
    rw [foldl_appendResults] at a2 a3 b2 b3
    rw [b2, a2, b3, b1, a1, a3, f3, f4, f5]
    simp only [List.mem_cons, List.not_mem_nil, or_false] at hlist
    rcases hlist with rfl | rfl | rfl | rfl <;> simp [hhist]

end

/-- Problems of one movement are problems the constructors made. -/
theorem UnsteadyProblem.OfMovement.made {ams : List AirplaneMovement} {om : OperatingPointMovement}
    {numSteps numCycles numChords : Option ℕ} {dt : Option ℝ} {mv : Movement} {nu : Option (ℕ → ℝ)}
    (hmv : Movement.create ams om numSteps numCycles numChords dt = .ok mv) (hnu : ∀ v ∈ nu, ∀ k, 0 ≤ v k)
    {p : UnsteadyProblem} (hp : p.OfMovement mv nu) : p.Made := by
  obtain ⟨only, q, h1, h2⟩ := hp
  refine ⟨ams, om, numSteps, numCycles, numChords, dt, mv, only, q, hmv, h1, ?_⟩
  cases nu with
  | none => exact Or.inl h2
  | some v => exact Or.inr ⟨v, hnu v rfl, h2⟩

/-- Problems of one movement have the same steps, with the same airplanes and operating points. -/
theorem UnsteadyProblem.OfMovement.same {mv : Movement} {nu : Option (ℕ → ℝ)} {p p' : UnsteadyProblem}
    (hp : p.OfMovement mv nu) (hp' : p'.OfMovement mv nu) :
    p'.numSteps = p.numSteps ∧ p'.deltaTime = p.deltaTime ∧ p'.steadyProblems = p.steadyProblems := by
  obtain ⟨only, q, h1, h2⟩ := hp
  obtain ⟨only', q', h1', h2'⟩ := hp'
  have key : q'.numSteps = q.numSteps ∧ q'.deltaTime = q.deltaTime ∧ q'.steadyProblems = q.steadyProblems := by
    unfold UnsteadyProblem.create at h1 h1'
    obtain ⟨P, e1, h1⟩ := bind_ok.mp h1
    obtain ⟨pr, e2, e3⟩ := bind_ok.mp h1
    obtain ⟨P', e1', h1'⟩ := bind_ok.mp h1'
    obtain ⟨pr', e2', e3'⟩ := bind_ok.mp h1'
    rw [e2] at e2'
    cases e2'
    rw [← pure_ok.mp e3, ← pure_ok.mp e3']
    exact ⟨rfl, rfl, rfl⟩
  subst h2 h2'
  cases nu with
  | none => exact key
  | some nu => exact ⟨key.1, key.2.1, by simp only [UnsteadyProblem.withViscosity, key.2.2]⟩

open MovementSession

variable {ams : List AirplaneMovement} {om : OperatingPointMovement} {numSteps numCycles numChords : Option ℕ}
  {dt : Option ℝ} {mv : Movement} {nu : Option (ℕ → ℝ)} {p : ℕ → UnsteadyProblem} {h : MovementSession}

/-- C109: build any problems from one movement, make solvers for them, and run these in any order and mode, also when some
raise or are stopped and when others write to panels and loads. Then any solver that is there raises exactly what a
new solver of the same problem with a movement of its own raises, and otherwise shows the same results. -/
theorem C109_own (hmv : Movement.create ams om numSteps numCycles numChords dt = .ok mv)
    (hnu : ∀ v ∈ nu, ∀ k, 0 ≤ v k) (hp : ∀ i, (p i).OfMovement mv nu) (hr : MovementSession.Reached p h) {j i : ℕ}
    {s : UnsteadySolver} (hj : h.solvers j = some (i, s)) {f : UnsteadySolver}
    (hf : UnsteadySolver.create (p i) = .ok f) (prescribed streamlines : Bool) :
    (∀ e, f.run prescribed streamlines = .error e → h.run j i s prescribed streamlines = .error e) ∧
    ∀ f', f.run prescribed streamlines = .ok f' →
      ∃ h' s', h.run j i s prescribed streamlines = .ok h' ∧ h'.solvers j = some (i, s') ∧
        SameResults (p i) f' (h'.present i s') := by
  have hm : ∀ i, (p i).Made := fun i => (hp i).made hmv hnu
  have hg := (hr.sound hm).2 j i s hj
  have hgf : Good (p i) f := (UnsteadySolver.Reached.fresh hf).good (hm i).regular
  constructor
  · intro e he
    unfold MovementSession.run
    cases hrun : (h.present i s).run prescribed streamlines with
    | ok s' =>
      obtain ⟨f', h1, -⟩ := hg.same (hm i) hgf hrun streamlines
      rw [he] at h1
      cases h1
    | error e' => rw [hg.error (hm i) e' hrun, hgf.error (hm i) e he]; rfl
  · intro f' hf'
    obtain ⟨s', h1, h2⟩ := hgf.same (hm i) hg hf' streamlines
    refine ⟨h.record j i s', s', ?_, by simp [record], ?_⟩
    · unfold MovementSession.run
      rw [h1]
      rfl
    · have : (h.record j i s').present i s' = s' := by simp [present, seen, record]
      rw [this]
      exact h2

/-- C109, final results: the run appends to the lists of its problem what a new solver of the same problem with a movement
of its own appends to empty lists, and does not change the lists of other problems. -/
theorem C109_final (hmv : Movement.create ams om numSteps numCycles numChords dt = .ok mv)
    (hnu : ∀ v ∈ nu, ∀ k, 0 ≤ v k) (hp : ∀ i, (p i).OfMovement mv nu) (hr : MovementSession.Reached p h) {j i : ℕ}
    {s : UnsteadySolver} (hj : h.solvers j = some (i, s)) {f f' : UnsteadySolver}
    (hf : UnsteadySolver.create (p i) = .ok f) (hdt : 0 < (p i).deltaTime) (hP : 0 ≤ (p i).maxPeriod)
    {prescribed streamlines : Bool} (hf' : f.run prescribed streamlines = .ok f') {h' : MovementSession}
    (hrun : h.run j i s prescribed streamlines = .ok h') :
    (∀ list ∈ [ResultLists.forces, ResultLists.forceCoefficients, ResultLists.moments, ResultLists.momentCoefficients],
      list (h'.lists i).final = list (h.lists i).final ++ list f'.final ∧
      list (h'.lists i).mean = list (h.lists i).mean ++ list f'.finalMean ∧
      list (h'.lists i).rms = list (h.lists i).rms ++ list f'.finalRms) ∧
    ∀ i' ≠ i, h'.lists i' = h.lists i' := by
  have hm : ∀ i, (p i).Made := fun i => (hp i).made hmv hnu
  have hg := (hr.sound hm).2 j i s hj
  have hgf : Good (p i) f := (UnsteadySolver.Reached.fresh hf).good (hm i).regular
  obtain ⟨s', h1, h2⟩ := hgf.same (hm i) hg hf' streamlines
  unfold MovementSession.run at hrun
  rw [h1] at hrun
  cases hrun
  refine ⟨?_, fun i' hi => by simp [record, hi]⟩
  have := hg.appended (hm i) hf hdt hP hf' h1 h2
  simpa [record, present, seen] using this

/-- C109, final results stay: whatever solvers of other problems of the movement do, the result lists of a problem do not
change. -/
theorem C109_kept {i : ℕ} {h₁ h₂ : MovementSession} (hs : Sparing p i h₁ h₂) : h₂.lists i = h₁.lists i := by
  induction hs with
  | now => rfl
  | made _ j i' s _ ih => exact ih
  | @ran h' h'' _ j i' s pres sl _ hrun ho ih =>
    unfold MovementSession.run at hrun
    cases hr : (h'.present i' s).run pres sl with
    | error e => rw [hr] at hrun; cases hrun
    | ok s' =>
      rw [hr] at hrun
      cases hrun
      rw [← ih]
      simp [record, ho.symm]
  | stopped _ j i' s s' pres sl ops _ _ _ ho ih =>
    rw [← ih]
    simp [record, ho.symm]
  | written _ panels loads ih => exact ih

/-- C109, results of single steps: these are kept on the movement's airplanes. Finished runs with the same kind of wake, of
any problems of the movement at any times, leave the same vortex rings there, and, from the step on from which both problems
ask for them, the same loads of panels and airplanes. -/
theorem C109_steps (hmv : Movement.create ams om numSteps numCycles numChords dt = .ok mv)
    (hnu : ∀ v ∈ nu, ∀ k, 0 ≤ v k) (hp : ∀ i, (p i).OfMovement mv nu) {h₁ h₁' h₂ h₂' : MovementSession}
    (hr₁ : MovementSession.Reached p h₁) (hr₂ : MovementSession.Reached p h₂) {j₁ i₁ j₂ i₂ : ℕ} {s₁ s₂ : UnsteadySolver}
    (hj₁ : h₁.solvers j₁ = some (i₁, s₁)) (hj₂ : h₂.solvers j₂ = some (i₂, s₂)) {prescribed sl₁ sl₂ : Bool}
    (hrun₁ : h₁.run j₁ i₁ s₁ prescribed sl₁ = .ok h₁') (hrun₂ : h₂.run j₂ i₂ s₂ prescribed sl₂ = .ok h₂') (k : ℕ)
    (hk : k < mv.numSteps) :
    (∀ r c, panelAt ((p i₁).airplanesAt k) r = some c →
      (h₂'.objects.panels k r).ring = (h₁'.objects.panels k r).ring ∧
      ((p i₁).firstResultsStep ≤ k → (p i₂).firstResultsStep ≤ k →
        (h₂'.objects.panels k r).loads = (h₁'.objects.panels k r).loads)) ∧
    ((p i₁).firstResultsStep ≤ k → (p i₂).firstResultsStep ≤ k → ∀ a < ((p i₁).airplanesAt k).length,
      (h₂'.objects.loads k)[a]? = (h₁'.objects.loads k)[a]?) := by
  have hm : ∀ i, (p i).Made := fun i => (hp i).made hmv hnu
  have hns : ∀ i, (p i).numSteps = mv.numSteps := by
    intro i
    obtain ⟨only, q, h1, h2⟩ := hp i
    unfold UnsteadyProblem.create at h1
    obtain ⟨P, e1, h1⟩ := bind_ok.mp h1
    obtain ⟨pr, e2, e3⟩ := bind_ok.mp h1
    have e3 := pure_ok.mp e3
    rw [h2, ← e3]
    cases nu <;> rfl
  obtain ⟨q1, q2, q3⟩ := (hp i₁).same (hp i₂)
  cases hsp : (p i₁).steadyProblems with
  | nil =>
    have h0 : (p i₁).airplanesAt k = [] := by simp [UnsteadyProblem.airplanesAt, hsp]
    rw [h0]
    refine ⟨fun r c hc => ?_, fun _ _ a ha => by simp at ha⟩
    simp [panelAt, wingAt] at hc
  | cons x xs =>
    obtain ⟨f₁, hf₁⟩ : ∃ f, UnsteadySolver.create (p i₁) = .ok f := by
      unfold UnsteadySolver.create; rw [hsp]; exact ⟨_, rfl⟩
    obtain ⟨f₂, hf₂⟩ : ∃ f, UnsteadySolver.create (p i₂) = .ok f := by
      unfold UnsteadySolver.create; rw [q3, hsp]; exact ⟨_, rfl⟩
    have key : ∀ {h h' : MovementSession} {j i : ℕ} {s f : UnsteadySolver} {sl : Bool}, MovementSession.Reached p h →
        h.solvers j = some (i, s) → UnsteadySolver.create (p i) = .ok f → h.run j i s prescribed sl = .ok h' →
        ∃ s' f', h'.objects = s'.toUnsteadyObjects ∧ f.run prescribed sl = .ok f' ∧ SameResults (p i) s' f' := by
      intro h h' j i s f sl hr hj hf hrun
      have hg := (hr.sound hm).2 j i s hj
      have hgf : Good (p i) f := (UnsteadySolver.Reached.fresh hf).good (hm i).regular
      unfold MovementSession.run at hrun
      cases hrun' : (h.present i s).run prescribed sl with
      | error e => rw [hrun'] at hrun; cases hrun
      | ok s' =>
        rw [hrun'] at hrun
        cases hrun
        obtain ⟨f', h1, h2⟩ := hg.same (hm i) hgf hrun' sl
        exact ⟨s', f', rfl, h1, h2⟩
    obtain ⟨t₁, g₁, e₁, r₁, m₁⟩ := key hr₁ hj₁ hf₁ hrun₁
    obtain ⟨t₂, g₂, e₂, r₂, m₂⟩ := key hr₂ hj₂ hf₂ hrun₂
    have hair : (p i₂).airplanesAt k = (p i₁).airplanesAt k := by simp only [UnsteadyProblem.airplanesAt, q3]
    have hagree := agrees_of_same (hm i₁) (hm i₂) (hm i₁).chordwise q1.ge q2
      (fun k _ => by simp only [UnsteadyProblem.airplanesAt, UnsteadyProblem.operatingPointAt, q3, and_self])
      (.fresh hf₁) r₁ (.fresh hf₂) r₂ k (by rw [hns]; exact hk)
    obtain ⟨a1, a2, -⟩ := m₁ k (by rw [hns]; exact hk)
    obtain ⟨b1, b2, -⟩ := m₂ k (by rw [hns]; exact hk)
    rw [e₁, e₂]
    constructor
    · intro r c hc
      have hmem := (mem_panelRefs _ _).mpr ⟨c, hc⟩
      obtain ⟨v, v1, v2⟩ := hagree.rings r c hc
      obtain ⟨x1, x2⟩ := a1 r hmem
      obtain ⟨y1, y2⟩ := b1 r (by rw [hair]; exact hmem)
      refine ⟨by rw [y1, x1, v1, v2], fun l1 l2 => ?_⟩
      obtain ⟨L, w1, w2⟩ := hagree.panels l1 l2 r c hc
      rw [y2 l2, x2 l1, w1, w2]
    · intro l1 l2 a ha
      obtain ⟨L, w1, w2⟩ := hagree.totals l1 l2 a ha
      rw [b2 l2, a2 l1, w1, w2]

/-- A concrete case: two problems of the movement of a heaving plate, the second with the final results only. A solver is
made for each, and the first is run, with a free or a prescribed wake. Then the second can be run, in any mode, and finds
panels and wakes that the first left. -/
example (A P : ℝ) (n : ℕ) (hn : 0 < n) (dt density velocity alpha : ℝ) (ha : |alpha| ≤ 90) (hdt : 0 < dt)
    (hv : 0 < velocity) (pres sl pres' sl' : Bool) :
    ∃ (ams : List AirplaneMovement) (om : OperatingPointMovement) (mv : Movement) (p : ℕ → UnsteadyProblem)
      (h h' : MovementSession) (s f f' : UnsteadySolver),
      Movement.create ams om (some n) none none (some dt) = .ok mv ∧ (∀ i, (p i).OfMovement mv none) ∧
      (p 0).onlyFinalResults = false ∧ (p 1).onlyFinalResults = true ∧ MovementSession.Reached p h ∧
      (∃ h₀ s₀, MovementSession.Reached p h₀ ∧ h₀.solvers 0 = some (0, s₀) ∧ h₀.run 0 0 s₀ pres sl = .ok h) ∧
      h.solvers 1 = some (1, s) ∧ (∀ i, 0 < (p i).deltaTime ∧ 0 ≤ (p i).maxPeriod) ∧
      UnsteadySolver.create (p 1) = .ok f ∧ f.run pres' sl' = .ok f' ∧ h.run 1 1 s pres' sl' = .ok h' ∧
      (∀ k < n, (h.objects.wakes ⟨k, 0, 0⟩).length = k) ∧ Sparing p 0 h h' := by
  obtain ⟨w, -, hw⟩ := heaving_movement A P
  have hw' := fun only => hw { wings := [], xyzRef := 0, weight := 0, sRef := 0, cRef := 0, bRef := 0, numPanels := 0 }
    n hn dt { density, velocity, alpha, beta := 0 } only
  obtain ⟨-, mv, p₀, e1, c₀, hp₀, o₀⟩ := hw' false
  obtain ⟨-, mv', p₁, e2, c₁, hp₁, o₁⟩ := hw' true
  rw [e1] at e2
  cases e2
  set p : ℕ → UnsteadyProblem := fun i => if i = 0 then p₀ else p₁ with hpdef
  have q0 : p 0 = p₀ := rfl
  have q1 : p 1 = p₁ := rfl
  have hof : ∀ i, (p i).OfMovement mv none := by
    intro i
    by_cases hi : i = 0
    · subst hi; exact ⟨false, p₀, c₀, rfl⟩
    · exact ⟨true, p₁, c₁, by simp [hpdef, hi]⟩
  have hd := flies_ahead density velocity alpha ha
  obtain ⟨f₀, hf₀⟩ := hp₀.create hn
  obtain ⟨f, hf⟩ := hp₁.create hn
  obtain ⟨f₀', hf₀'⟩ := hp₀.run hdt.le hv.le hd (.fresh hf₀) pres sl
  obtain ⟨f', hf'⟩ := hp₁.run hdt.le hv.le hd (.fresh hf) pres' sl'
  have hnu : ∀ v ∈ (none : Option (ℕ → ℝ)), ∀ k, 0 ≤ v k := by simp
  let h0 : MovementSession := {}
  have hc0 : UnsteadySolver.create (p 0) (h0.seen 0) = .ok f₀ := hf₀
  have hc1 : UnsteadySolver.create (p 1) ((h0.enter 0 0 f₀).seen 1) = .ok f := hf
  set h2 : MovementSession := (h0.enter 0 0 f₀).enter 1 1 f with hh2
  have r2 : MovementSession.Reached p h2 := .event (.event .start (.made 0 0 f₀ hc0)) (.made 1 1 f hc1)
  have s20 : h2.solvers 0 = some (0, f₀) := by simp [hh2, enter]
  have s21 : h2.solvers 1 = some (1, f) := by simp [hh2, enter]
  obtain ⟨h3, -, hrun, -, -⟩ := (C109_own e1 hnu hof r2 s20 (f := f₀) hf₀ pres sl).2 f₀' hf₀'
  have r3 : MovementSession.Reached p h3 := .event r2 (.ran 0 0 f₀ pres sl h3 s20 hrun)
  have hrun0 := hrun
  unfold MovementSession.run at hrun
  have hpres : h2.present 0 f₀ = f₀ := by
    unfold UnsteadySolver.create at hf₀
    split at hf₀
    · cases hf₀
    · cases hf₀; rfl
  rw [hpres, hf₀'] at hrun
  cases hrun
  have s31 : (h2.record 0 0 f₀').solvers 1 = some (1, f) := by simp [record, s21]
  obtain ⟨h4, s₄, hrun4, -, -⟩ := (C109_own e1 hnu hof r3 s31 (f := f) hf pres' sl').2 f' hf'
  refine ⟨_, _, mv, p, _, h4, f, f, f', e1, hof, o₀, o₁, r3, ⟨_, _, r2, s20, hrun0⟩, s31, ?_, hf, hf', hrun4, ?_, ?_⟩
  · intro i
    by_cases hi : i = 0
    · subst hi; rw [q0, hp₀.dt, hp₀.period]; exact ⟨hdt, le_max_left _ _⟩
    · have : p i = p₁ := by simp [hpdef, hi]
      rw [this, hp₁.dt, hp₁.period]; exact ⟨hdt, le_max_left _ _⟩
  · intro k hk
    obtain ⟨-, a, w, h1, h2, -⟩ := hp₀.step k hk
    exact (C40_shape hp₀.made (.fresh hf₀) hf₀' k (by rw [hp₀.steps]; exact hk) ⟨k, 0, 0⟩ w
      (by simp [UnsteadyProblem.wing?, h1, h2]) rfl).1
  · exact .ran .now 1 1 f pres' sl' s31 hrun4 (by decide)

end Ptera
