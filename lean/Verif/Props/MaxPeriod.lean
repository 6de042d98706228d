import Verif.Model.Movement
import Verif.Lemmas.MapM

/-!
# Properties C28 and C27: maximum period and run length of a movement
-/

namespace Ptera

noncomputable section

/-- Every period a user can set in a movement. -/
def allPeriods (ams : List AirplaneMovement) (om : OperatingPointMovement) : List ℝ :=
  om.velocity.period :: ams.flatMap fun am =>
    [am.xRef.period, am.yRef.period, am.zRef.period] ++ am.wingMovements.flatMap fun wm =>
      [wm.xLe.period, wm.yLe.period, wm.zLe.period] ++ wm.sectionMovements.flatMap fun s =>
        [s.sweeping.period, s.pitching.period, s.heaving.period]

/-- `m` is the maximum of the list. -/
def IsMax (m : ℝ) (l : List ℝ) : Prop := m ∈ l ∧ ∀ p ∈ l, p ≤ m

theorem foldl_max_isMax (l : List ℝ) (a : ℝ) : IsMax (l.foldl max a) (a :: l) := by
  induction l generalizing a with
  | nil => exact ⟨by simp, by simp⟩
  | cons b l ih =>
    simp only [List.foldl_cons]
    obtain ⟨h1, h2⟩ := ih (max a b)
    constructor
    · rcases List.mem_cons.mp h1 with h | h
      · rcases max_choice a b with e | e <;> rw [h, e] <;> simp
      · simp [h]
    · intro p hp
      have hm := h2 (max a b) (by simp)
      rcases List.mem_cons.mp hp with rfl | hp
      · exact le_trans (le_max_left _ _) hm
      · rcases List.mem_cons.mp hp with rfl | hp
        · exact le_trans (le_max_right _ _) hm
        · exact h2 p (by simp [hp])

theorem pyMax_isMax {l : List ℝ} {m : ℝ} (h : pyMax l = .ok m) : IsMax m l := by
  cases l with
  | nil => simp [pyMax] at h
  | cons a l =>
    simp only [pyMax, Except.ok.injEq] at h
    rw [← h]; exact foldl_max_isMax l a

theorem pyMax_ok {l : List ℝ} (h : l ≠ []) : ∃ m, pyMax l = .ok m := by
  cases l with
  | nil => exact absurd rfl h
  | cons a l => exact ⟨_, rfl⟩

theorem IsMax.max {m k : ℝ} {l : List ℝ} (h : IsMax m l) : IsMax (Max.max m k) (k :: l) := by
  constructor
  · rcases max_choice m k with e | e <;> rw [e]
    · simp [h.1]
    · simp
  · intro p hp
    rcases List.mem_cons.mp hp with rfl | hp
    · exact le_max_right _ _
    · exact le_trans (h.2 p hp) (le_max_left _ _)

/-- Maximum of a list of lists' maxima. -/
theorem isMax_flatMap {α : Type*} {l : List α} {f : α → List ℝ} {ms : List ℝ} {m : ℝ}
    (hms : List.Forall₂ (fun a k => IsMax k (f a)) l ms) (hm : IsMax m ms) : IsMax m (l.flatMap f) := by
  constructor
  · have : ∃ a ∈ l, m ∈ f a := by
      have h := hm.1
      clear hm
      induction hms with
      | nil => simp at h
      | cons hab _ ih =>
        rcases List.mem_cons.mp h with rfl | h
        · exact ⟨_, by simp, hab.1⟩
        · obtain ⟨a, ha, e⟩ := ih h; exact ⟨a, by simp [ha], e⟩
    exact List.mem_flatMap.mpr this
  · intro p hp
    obtain ⟨a, ha, hpa⟩ := List.mem_flatMap.mp hp
    have : ∃ k ∈ ms, p ≤ k := by
      clear hm hp
      induction hms with
      | nil => simp at ha
      | cons hab _ ih =>
        rcases List.mem_cons.mp ha with rfl | ha
        · exact ⟨_, by simp, hab.2 p hpa⟩
        · obtain ⟨k, hk, e⟩ := ih ha; exact ⟨k, by simp [hk], e⟩
    obtain ⟨k, hk, hle⟩ := this
    exact le_trans hle (hm.2 k hk)

theorem IsMax.perm {m : ℝ} {l l' : List ℝ} (h : IsMax m l) (hp : ∀ x, x ∈ l' ↔ x ∈ l) : IsMax m l' :=
  ⟨(hp m).mpr h.1, fun p hx => h.2 p ((hp p).mp hx)⟩

theorem sectionMax (s : WingCrossSectionMovement) :
    IsMax s.maxPeriod [s.sweeping.period, s.pitching.period, s.heaving.period] := by
  have h0 : IsMax s.sweeping.period [s.sweeping.period] := ⟨by simp, by simp⟩
  refine ((h0.max (k := s.pitching.period)).max (k := s.heaving.period)).perm ?_
  intro x; simp; tauto

theorem wingMax {wm : WingMovement} {p : ℝ} (h : wm.maxPeriod = .ok p) :
    IsMax p ([wm.xLe.period, wm.yLe.period, wm.zLe.period] ++ wm.sectionMovements.flatMap fun s =>
      [s.sweeping.period, s.pitching.period, s.heaving.period]) := by
  unfold WingMovement.maxPeriod at h
  obtain ⟨q, hq, h⟩ := bind_ok.mp h
  rw [pure_ok] at h
  have hf : List.Forall₂ (fun (a : WingCrossSectionMovement) (k : ℝ) =>
      IsMax k [a.sweeping.period, a.pitching.period, a.heaving.period])
      wm.sectionMovements (wm.sectionMovements.map (·.maxPeriod)) := by
    rw [List.forall₂_map_right_iff, List.forall₂_same]
    intro s _; exact sectionMax s
  have hm := isMax_flatMap hf (pyMax_isMax hq)
  rw [← h]
  refine (((hm.max (k := wm.xLe.period)).max (k := wm.yLe.period)).max (k := wm.zLe.period)).perm ?_
  intro x; simp only [List.cons_append, List.nil_append, List.mem_cons]; tauto

theorem airplaneMax {am : AirplaneMovement} {p : ℝ} (h : am.maxPeriod = .ok p) :
    IsMax p ([am.xRef.period, am.yRef.period, am.zRef.period] ++ am.wingMovements.flatMap fun wm =>
      [wm.xLe.period, wm.yLe.period, wm.zLe.period] ++ wm.sectionMovements.flatMap fun s =>
        [s.sweeping.period, s.pitching.period, s.heaving.period]) := by
  unfold AirplaneMovement.maxPeriod at h
  obtain ⟨ps, hps, h⟩ := bind_ok.mp h
  obtain ⟨q, hq, h⟩ := bind_ok.mp h
  rw [pure_ok] at h
  have hm := isMax_flatMap ((mapM_forall₂.mp hps).imp fun _ _ h => wingMax h) (pyMax_isMax hq)
  rw [← h]
  refine (((hm.max (k := am.xRef.period)).max (k := am.yRef.period)).max (k := am.zRef.period)).perm ?_
  intro x; simp only [List.cons_append, List.nil_append, List.mem_cons]; tauto

/-- C28: the maximum period is one of the periods set anywhere in the movement, and the largest of them. -/
theorem C28_max_period (ams : List AirplaneMovement) (om : OperatingPointMovement) (P : ℝ)
    (h : movementMaxPeriod ams om = .ok P) :
    P ∈ allPeriods ams om ∧ ∀ p ∈ allPeriods ams om, p ≤ P := by
  unfold movementMaxPeriod at h
  obtain ⟨ps, hps, h⟩ := bind_ok.mp h
  obtain ⟨q, hq, h⟩ := bind_ok.mp h
  rw [pure_ok] at h
  have hm := isMax_flatMap ((mapM_forall₂.mp hps).imp fun _ _ h => airplaneMax h) (pyMax_isMax hq)
  rw [← h]
  exact hm.max (k := om.velocity.period)

/-- C28: with non-negative periods it is zero exactly when nothing has a period. -/
theorem C28_zero_iff_static (ams : List AirplaneMovement) (om : OperatingPointMovement) (P : ℝ)
    (h : movementMaxPeriod ams om = .ok P) (hnn : ∀ p ∈ allPeriods ams om, 0 ≤ p) :
    P = 0 ↔ ∀ p ∈ allPeriods ams om, p = 0 := by
  obtain ⟨h1, h2⟩ := C28_max_period ams om P h
  constructor
  · intro h0 p hp
    exact le_antisymm (by rw [← h0]; exact h2 p hp) (hnn p hp)
  · intro hz; exact hz P h1

/-- C28: it is defined for every movement of at least one airplane with wings with cross sections. -/
theorem C28_defined (ams : List AirplaneMovement) (om : OperatingPointMovement) (h0 : ams ≠ [])
    (h1 : ∀ am ∈ ams, am.wingMovements ≠ [])
    (h2 : ∀ am ∈ ams, ∀ wm ∈ am.wingMovements, wm.sectionMovements ≠ []) :
    ∃ P, movementMaxPeriod ams om = .ok P := by
  have hw : ∀ wm : WingMovement, wm.sectionMovements ≠ [] → ∃ p, wm.maxPeriod = .ok p := by
    intro wm hne
    obtain ⟨p, hp⟩ := pyMax_ok (l := wm.sectionMovements.map (·.maxPeriod)) (by simpa using hne)
    exact ⟨_, bind_ok.mpr ⟨p, hp, pure_ok.mpr rfl⟩⟩
  have ha : ∀ am ∈ ams, ∃ p, am.maxPeriod = .ok p := by
    intro am ham
    obtain ⟨ps, hps⟩ := mapM_exists (f := fun w : WingMovement => w.maxPeriod) (l := am.wingMovements)
      fun wm hwm => hw wm (h2 am ham wm hwm)
    have hne : ps ≠ [] := by
      intro e; have := mapM_length hps; rw [e] at this; simp at this
      exact h1 am ham (List.eq_nil_of_length_eq_zero this.symm)
    obtain ⟨p, hp⟩ := pyMax_ok hne
    exact ⟨_, bind_ok.mpr ⟨ps, hps, bind_ok.mpr ⟨p, hp, pure_ok.mpr rfl⟩⟩⟩
  obtain ⟨ps, hps⟩ := mapM_exists (f := fun am : AirplaneMovement => am.maxPeriod) (l := ams) ha
  have hne : ps ≠ [] := by
    intro e; have := mapM_length hps; rw [e] at this; simp at this
    exact h0 (List.eq_nil_of_length_eq_zero this.symm)
  obtain ⟨p, hp⟩ := pyMax_ok hne
  exact ⟨_, bind_ok.mpr ⟨ps, hps, bind_ok.mpr ⟨p, hp, pure_ok.mpr rfl⟩⟩⟩

/-! ## C27 -/

/-- The conflicting argument combinations. -/
def ConflictingArguments (P : ℝ) (numSteps numCycles numChords : Option ℕ) : Prop :=
  (numCycles.isSome ∧ (numSteps.isSome ∨ P = 0)) ∨ (numChords.isSome ∧ (numSteps.isSome ∨ P ≠ 0))

theorem checkRunLength_ok_iff (P : ℝ) (numSteps numCycles numChords : Option ℕ) :
    (checkRunLength (.ok P) numSteps numCycles numChords = .ok ()
      ↔ ¬ ConflictingArguments P numSteps numCycles numChords) ∧
    (checkRunLength (.ok P) numSteps numCycles numChords = .error .exception
      ↔ ConflictingArguments P numSteps numCycles numChords) := by
  unfold ConflictingArguments checkRunLength
  cases numSteps <;> cases numCycles <;> cases numChords <;> by_cases hP : P = 0 <;>
    simp [hP, bind, Except.bind, pure, Except.pure]

/-- C27: conflicting arguments are rejected. -/
theorem C27_rejects (ams : List AirplaneMovement) (om : OperatingPointMovement) (P : ℝ)
    (hP : movementMaxPeriod ams om = .ok P) (numSteps numCycles numChords : Option ℕ) (dt : Option ℝ)
    (h : ConflictingArguments P numSteps numCycles numChords) :
    Movement.create ams om numSteps numCycles numChords dt = .error .exception := by
  unfold Movement.create
  rw [hP, (checkRunLength_ok_iff P _ _ _).2.mpr h]
  rfl

/-- The parts of an accepted movement. -/
theorem Movement.create_ok {ams : List AirplaneMovement} {om : OperatingPointMovement}
    {numSteps numCycles numChords : Option ℕ} {dt : Option ℝ} {mv : Movement}
    (h : Movement.create ams om numSteps numCycles numChords dt = .ok mv) :
    checkRunLength (movementMaxPeriod ams om) numSteps numCycles numChords = .ok () ∧
    (match dt with | some d => mv.deltaTime = d | none => defaultDeltaTime ams om = .ok mv.deltaTime) ∧
    runLength ams om mv.deltaTime numSteps numCycles numChords = .ok mv.numSteps ∧
    ams.mapM (fun am => am.generate mv.numSteps mv.deltaTime) = .ok mv.airplanes ∧
    om.generate mv.numSteps mv.deltaTime = .ok mv.operatingPoints ∧
    mv.airplaneMovements = ams ∧ mv.operatingPointMovement = om := by
  unfold Movement.create at h
  obtain ⟨_, hc, h⟩ := bind_ok.mp h
  obtain ⟨d, hd, h⟩ := bind_ok.mp h
  obtain ⟨n, hn, h⟩ := bind_ok.mp h
  obtain ⟨as, has, h⟩ := bind_ok.mp h
  obtain ⟨ops, hops, h⟩ := bind_ok.mp h
  rw [pure_ok] at h
  subst h
  refine ⟨hc, ?_, hn, has, hops, rfl, rfl⟩
  cases dt with
  | none => exact hd
  | some d' => simpa using (Except.ok.inj hd).symm

theorem ceil_isLeast (x dt : ℝ) (hdt : 0 < dt) (hx : 0 ≤ x) :
    IsLeast {n : ℕ | x ≤ n * dt} (⌈x / dt⌉).toNat ∧ ¬ ⌈x / dt⌉ < 0 := by
  have h0 : 0 ≤ ⌈x / dt⌉ := Int.ceil_nonneg (by positivity)
  refine ⟨⟨?_, ?_⟩, by omega⟩
  · have h1 := Int.le_ceil (x / dt)
    have h2 : ((⌈x / dt⌉).toNat : ℝ) = (⌈x / dt⌉ : ℝ) := by exact_mod_cast Int.toNat_of_nonneg h0
    simp only [Set.mem_ofPred_eq, h2]
    rwa [div_le_iff₀ hdt] at h1
  · intro n hn
    simp only [Set.mem_ofPred_eq] at hn
    rw [Int.toNat_le, Int.ceil_le]
    rw [div_le_iff₀ hdt]; exact_mod_cast hn

/-- C27: an accepted movement has no conflicting arguments, and its number of steps is the given one, or the least
number covering the requested cycles (default 3) of the slowest motion, or, for a static motion, the least number in
which the freestream travels the requested number (default 10) of the largest reference chord. -/
theorem C27_run_length (ams : List AirplaneMovement) (om : OperatingPointMovement) (P : ℝ)
    (hP : movementMaxPeriod ams om = .ok P) (numSteps numCycles numChords : Option ℕ) (dt : Option ℝ)
    (mv : Movement) (h : Movement.create ams om numSteps numCycles numChords dt = .ok mv)
    (hdt : 0 < mv.deltaTime) :
    ¬ ConflictingArguments P numSteps numCycles numChords ∧
    (∀ n, numSteps = some n → mv.numSteps = n) ∧
    (numSteps = none → 0 < P →
      IsLeast {n : ℕ | (numCycles.getD 3 : ℝ) * P ≤ n * mv.deltaTime} mv.numSteps) ∧
    (numSteps = none → P = 0 → 0 < om.base.velocity → ∀ c, IsMax c (ams.map (·.base.cRef)) → 0 ≤ c →
      IsLeast {n : ℕ | (numChords.getD 10 : ℝ) * c ≤ n * (mv.deltaTime * om.base.velocity)} mv.numSteps) := by
  obtain ⟨hc, _, hn, _⟩ := Movement.create_ok h
  rw [hP] at hc
  refine ⟨(checkRunLength_ok_iff P _ _ _).1.mp hc, ?_, ?_, ?_⟩
  · rintro n rfl
    simp only [runLength, Except.ok.injEq] at hn
    exact hn.symm
  · rintro rfl hpos
    obtain ⟨h1, h2⟩ := ceil_isLeast ((numCycles.getD 3 : ℝ) * P) mv.deltaTime hdt (by positivity)
    simp only [runLength, hP, bind, Except.bind, if_neg hpos.ne', pure, Except.pure, if_neg h2,
      Except.ok.injEq] at hn
    rw [← hn]; exact h1
  · rintro rfl hz hv c hcm hc0
    obtain ⟨c', hc'⟩ : ∃ c', pyMax (ams.map (·.base.cRef)) = .ok c' :=
      pyMax_ok (by intro e; rw [e] at hcm; simp [IsMax] at hcm)
    have hcc : c' = c := by
      have a := pyMax_isMax hc'
      exact le_antisymm (hcm.2 _ a.1) (a.2 _ hcm.1)
    subst hcc
    obtain ⟨h1, h2⟩ := ceil_isLeast ((numChords.getD 10 : ℝ) * c') (mv.deltaTime * om.base.velocity)
      (by positivity) (by positivity)
    simp only [runLength, hP, bind, Except.bind, if_pos hz, pure, Except.pure, hc', if_neg h2,
      Except.ok.injEq] at hn
    rw [← hn]; exact h1

/-- C27: the time step is the given one, or the average over the airplanes of the time the freestream needs to pass one
chordwise panel of the main wing. -/
theorem C27_delta_time (ams : List AirplaneMovement) (om : OperatingPointMovement)
    (numSteps numCycles numChords : Option ℕ) (dt : Option ℝ) (mv : Movement)
    (h : Movement.create ams om numSteps numCycles numChords dt = .ok mv) :
    (∀ d, dt = some d → mv.deltaTime = d) ∧
    (dt = none → ∃ ts : List ℝ, mv.deltaTime = ts.sum / ams.length ∧
      List.Forall₂ (fun (am : AirplaneMovement) t => ∃ w, am.base.wings.head? = some w ∧
        t = am.base.cRef / w.spec.numChordwisePanels / om.base.velocity) ams ts) := by
  obtain ⟨_, hd, _⟩ := Movement.create_ok h
  constructor
  · rintro d rfl; exact hd
  · rintro rfl
    simp only at hd
    unfold defaultDeltaTime at hd
    obtain ⟨ts, hts, hd⟩ := bind_ok.mp hd
    split_ifs at hd with hne
    rw [pure_ok] at hd
    refine ⟨ts, by rw [← hd, mapM_length hts], (mapM_forall₂.mp hts).imp ?_⟩
    intro am t ht
    cases hw : am.base.wings with
    | nil => rw [hw] at ht; simp at ht
    | cons w ws =>
      rw [hw] at ht
      exact ⟨w, by simp, (Except.ok.inj ht).symm⟩

/-- C27: nothing else is refused. If the arguments do not conflict, the periods, speed, reference chords and numbers of
chordwise panels are usable and a given time step is positive, then there is a positive time step and a number of steps
(positive, unless nothing was asked for) for which the movement is accepted as soon as the airplanes and operating points of that many steps can be generated;
and if they cannot, the movement raises. -/
theorem C27_accepts (ams : List AirplaneMovement) (om : OperatingPointMovement) (P : ℝ)
    (hP : movementMaxPeriod ams om = .ok P) (hnn : ∀ p ∈ allPeriods ams om, 0 ≤ p)
    (hv : 0 < om.base.velocity) (hc : ∀ am ∈ ams, 0 < am.base.cRef)
    (hw : ∀ am ∈ ams, ∃ w, am.base.wings.head? = some w ∧ 0 < w.spec.numChordwisePanels)
    (numSteps numCycles numChords : Option ℕ) (dt : Option ℝ) (hdt : ∀ d, dt = some d → 0 < d)
    (h : ¬ ConflictingArguments P numSteps numCycles numChords) :
    ∃ (n : ℕ) (d : ℝ), 0 < d ∧
      ((∀ m, numSteps = some m ∨ numCycles = some m ∨ numChords = some m → 0 < m) → 0 < n) ∧
      ((∃ mv, Movement.create ams om numSteps numCycles numChords dt = .ok mv) ↔
        (∀ am ∈ ams, ∃ as, am.generate n d = .ok as) ∧ ∃ ops, om.generate n d = .ok ops) ∧
      ∀ mv, Movement.create ams om numSteps numCycles numChords dt = .ok mv → mv.numSteps = n ∧ mv.deltaTime = d := by
  have hne : ams ≠ [] := by
    rintro rfl
    simp [movementMaxPeriod, pyMax, bind, Except.bind, pure, Except.pure] at hP
  have hP0 : 0 ≤ P := hnn P (C28_max_period ams om P hP).1
  obtain ⟨d, hd, hd0⟩ : ∃ d, chooseDeltaTime ams om dt = .ok d ∧ 0 < d := by
    cases dt with
    | some d => exact ⟨d, rfl, hdt d rfl⟩
    | none =>
      obtain ⟨ts, hts⟩ := mapM_exists (f := fun am : AirplaneMovement =>
        (match am.base.wings with
          | [] => .error .indexError
          | w :: _ => .ok (am.base.cRef / w.spec.numChordwisePanels / om.base.velocity) : Except Err ℝ)) (l := ams) (by
          intro am ham
          obtain ⟨w, h1, _⟩ := hw am ham
          cases hws : am.base.wings with
          | nil => rw [hws] at h1; simp at h1
          | cons w ws => exact ⟨_, rfl⟩)
      have hlen := mapM_length hts
      have hpos : ∀ t ∈ ts, 0 < t := by
        intro t ht
        obtain ⟨am, ham, e⟩ := mapM_mem' hts ht
        obtain ⟨w, h1, h2⟩ := hw am ham
        cases hws : am.base.wings with
        | nil => rw [hws] at h1; simp at h1
        | cons w' ws =>
          rw [hws] at h1 e
          simp only [List.head?_cons, Option.some.injEq] at h1
          subst h1
          rw [← Except.ok.inj e]
          have := hc am ham
          have h3 : (0 : ℝ) < w'.spec.numChordwisePanels := by exact_mod_cast h2
          positivity
      have hts0 : ts ≠ [] := by
        rintro rfl
        exact hne (List.eq_nil_of_length_eq_zero (by simpa using hlen.symm))
      refine ⟨ts.sum / ts.length, ?_, ?_⟩
      · exact bind_ok.mpr ⟨ts, hts, by rw [if_neg hts0]; rfl⟩
      · have h1 : 0 < ts.sum := List.sum_pos ts hpos hts0
        have h2 : (0 : ℝ) < ts.length := by exact_mod_cast List.length_pos_iff.mpr hts0
        positivity
  have hmany : ∀ (o : Option ℕ) (k : ℕ), 0 < k → (∀ m, o = some m → 0 < m) → 0 < o.getD k := by
    intro o k hk ho
    cases o with
    | none => exact hk
    | some m => exact ho m rfl
  have hpos : ∀ x t : ℝ, 0 < x → 0 < t → 0 < (⌈x / t⌉).toNat := by
    intro x t hx ht
    have : 0 < ⌈x / t⌉ := Int.ceil_pos.mpr (by positivity)
    omega
  obtain ⟨n, hn, hn0⟩ : ∃ n, runLength ams om d numSteps numCycles numChords = .ok n ∧
      ((∀ m, numSteps = some m ∨ numCycles = some m ∨ numChords = some m → 0 < m) → 0 < n) := by
    cases numSteps with
    | some n => exact ⟨n, rfl, fun h => h n (.inl rfl)⟩
    | none =>
      by_cases hz : P = 0
      · obtain ⟨c, hcm⟩ := pyMax_ok (l := ams.map (·.base.cRef)) (by simpa using hne)
        have hc0 : 0 < c := by
          obtain ⟨am, ham, e⟩ := List.mem_map.mp (pyMax_isMax hcm).1
          rw [← e]; exact hc am ham
        obtain ⟨-, h2⟩ := ceil_isLeast ((numChords.getD 10 : ℝ) * c) (d * om.base.velocity)
          (by positivity) (by positivity)
        refine ⟨_, by simp only [runLength, hP, bind, Except.bind, if_pos hz, pure, Except.pure, hcm, if_neg h2]; rfl,
          fun hm => ?_⟩
        have : (0 : ℝ) < numChords.getD 10 := by
          exact_mod_cast hmany numChords 10 (by norm_num) fun m e => hm m (.inr (.inr e))
        exact hpos _ _ (by positivity) (by positivity)
      · obtain ⟨-, h2⟩ := ceil_isLeast ((numCycles.getD 3 : ℝ) * P) d hd0 (by positivity)
        refine ⟨_, by simp only [runLength, hP, bind, Except.bind, if_neg hz, pure, Except.pure, if_neg h2]; rfl,
          fun hm => ?_⟩
        have : (0 : ℝ) < numCycles.getD 3 := by
          exact_mod_cast hmany numCycles 3 (by norm_num) fun m e => hm m (.inr (.inl e))
        have := lt_of_le_of_ne hP0 (Ne.symm hz)
        exact hpos _ _ (by positivity) hd0
  have hcheck : checkRunLength (movementMaxPeriod ams om) numSteps numCycles numChords = .ok () := by
    rw [hP]; exact (checkRunLength_ok_iff P _ _ _).1.mpr h
  have huniq : ∀ mv, Movement.create ams om numSteps numCycles numChords dt = .ok mv →
      mv.numSteps = n ∧ mv.deltaTime = d := by
    intro mv hmv
    obtain ⟨_, h2, h3, _⟩ := Movement.create_ok hmv
    have h4 : mv.deltaTime = d := by
      cases dt with
      | some d' => rw [h2]; exact Except.ok.inj hd
      | none => exact Except.ok.inj (h2.symm.trans hd)
    rw [h4, hn] at h3
    exact ⟨(Except.ok.inj h3).symm, h4⟩
  refine ⟨n, d, hd0, hn0, ⟨?_, ?_⟩, huniq⟩
  · rintro ⟨mv, hmv⟩
    obtain ⟨_, _, _, h4, h5, _⟩ := Movement.create_ok hmv
    rw [(huniq mv hmv).1, (huniq mv hmv).2] at h4 h5
    refine ⟨fun am ham => ?_, _, h5⟩
    obtain ⟨k, hk, rfl⟩ := List.getElem_of_mem ham
    have := mapM_forall₂.mp h4
    exact ⟨_, (List.forall₂_iff_get.mp this).2 k hk (by rw [mapM_length h4]; exact hk)⟩
  · rintro ⟨h1, ops, h2⟩
    obtain ⟨as, has⟩ := mapM_exists (f := fun am : AirplaneMovement => am.generate n d) (l := ams) h1
    exact ⟨_, bind_ok.mpr ⟨_, hcheck, bind_ok.mpr ⟨_, hd, bind_ok.mpr ⟨_, hn, bind_ok.mpr ⟨_, has,
      bind_ok.mpr ⟨_, h2, rfl⟩⟩⟩⟩⟩⟩

end

end Ptera
