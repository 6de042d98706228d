import Verif.Lemmas.Studies
import Verif.Props.Oscillation

/-! Helper lemmas: a study with fewer steps of the same length generates the first steps of the longer study. -/

namespace Ptera

open List

variable {n N : ℕ} {dt : ℝ}

theorem forall₂_take {α β : Type} {R : α → β → Prop} {l : List α} {r : List β} (h : Forall₂ R l r) (N : ℕ) :
    Forall₂ R (l.take N) (r.take N) := by
  induction h generalizing N with
  | nil => simp
  | cons h _ ih =>
    cases N with
    | zero => simp
    | succ N => simpa using ⟨h, ih N⟩

theorem mapM_range_take {ε β : Type} {f f' : ℕ → Except ε β} {r : List β} (hN : N ≤ n)
    (h : (List.range n).mapM f = .ok r) (hf : ∀ k < N, f' k = f k) : (List.range N).mapM f' = .ok (r.take N) := by
  have h2 := forall₂_take (mapM_forall₂.mp h) N
  rw [List.take_range, Nat.min_eq_left hN] at h2
  refine mapM_forall₂.mpr ?_
  rw [List.forall₂_iff_get] at h2 ⊢
  refine ⟨h2.1, fun i hi hi' => ?_⟩
  rw [hf _ (by simpa using hi)]
  exact h2.2 i hi hi'

theorem getD_take_lt {α : Type} (l : List α) (d : α) {k : ℕ} (hk : k < N) : (l.take N).getD k d = l.getD k d := by
  simp [List.getD_eq_getElem?_getD, hk]

theorem Samples.take {l l' : List ℝ} {w : ℝ → ℝ} (hN : N ≤ n) (h : Samples l n dt w) (h' : Samples l' N dt w) :
    l' = l.take N := by
  apply List.ext_getElem?
  intro i
  rw [List.getElem?_take]
  by_cases hi : i < N
  · rw [if_pos hi, h.2 i (by omega), h'.2 i hi]
  · rw [if_neg hi, List.getElem?_eq_none]
    rw [h'.1]; omega

theorem oscillatingSinspace_take (hN : N ≤ n) (A T b : ℝ) :
    oscillatingSinspace A T b N dt = (oscillatingSinspace A T b n dt).take N := by
  unfold oscillatingSinspace
  by_cases h : A = 0 ∨ T = 0
  · rw [if_pos h, if_pos h]; exact Samples.take hN (constList_samples n b dt) (constList_samples N b dt)
  · rw [if_neg h, if_neg h]; exact Samples.take hN (stepTimes_map n dt _) (stepTimes_map N dt _)

theorem oscillatingLinspace_take (hN : N ≤ n) (A T b : ℝ) :
    oscillatingLinspace A T b N dt = (oscillatingLinspace A T b n dt).take N := by
  unfold oscillatingLinspace
  by_cases h : A = 0 ∨ T = 0
  · rw [if_pos h, if_pos h]; exact Samples.take hN (constList_samples n b dt) (constList_samples N b dt)
  · rw [if_neg h, if_neg h]; exact Samples.take hN (stepTimes_map n dt _) (stepTimes_map N dt _)

theorem oscillatingCustomspace_take (hN : N ≤ n) (A T b : ℝ) (f : ℝ → ℝ) :
    oscillatingCustomspace A T b N dt f = (oscillatingCustomspace A T b n dt f).take N := by
  unfold oscillatingCustomspace
  by_cases h : A = 0 ∨ T = 0
  · rw [if_pos h, if_pos h]; exact Samples.take hN (constList_samples n b dt) (constList_samples N b dt)
  · rw [if_neg h, if_neg h]; exact Samples.take hN (stepTimes_map n dt _) (stepTimes_map N dt _)

theorem Oscillation.values_take (hN : N ≤ n) {o : Oscillation} {b : ℝ} {l : List ℝ} (h : o.values b n dt = .ok l) :
    o.values b N dt = .ok (l.take N) := by
  unfold Oscillation.values at h ⊢
  split_ifs at h ⊢
  · cases h; rw [oscillatingSinspace_take hN]
  · cases h; rw [oscillatingLinspace_take hN]

theorem Oscillation.valuesCustom_take (hN : N ≤ n) {o : Oscillation} {b : ℝ} {l : List ℝ}
    (h : o.valuesCustom b n dt = .ok l) : o.valuesCustom b N dt = .ok (l.take N) := by
  unfold Oscillation.valuesCustom at h ⊢
  split_ifs at h ⊢
  · cases h; rw [oscillatingSinspace_take hN]
  · cases h; rw [oscillatingLinspace_take hN]
  · cases hc : o.custom with
    | none => simp [hc] at h
    | some f =>
      simp only [hc, Except.ok.injEq] at h ⊢
      rw [← h, oscillatingCustomspace_take hN]

theorem WingCrossSectionMovement.generate_take (hN : N ≤ n) {m : WingCrossSectionMovement} {last last' : List V3}
    (hlast : ∀ k < N, last'.getD k 0 = last.getD k 0) {vertical : Bool} {span sweep heave : ℝ}
    {r : List WingCrossSection} (h : m.generate n dt last vertical span sweep heave = .ok r) :
    m.generate N dt last' vertical span sweep heave = .ok (r.take N) := by
  unfold WingCrossSectionMovement.generate at h ⊢
  obtain ⟨sw, h1, h⟩ := bind_ok.mp h
  obtain ⟨pi, h2, h⟩ := bind_ok.mp h
  obtain ⟨he, h3, h⟩ := bind_ok.mp h
  refine bind_ok.mpr ⟨_, Oscillation.valuesCustom_take hN h1, bind_ok.mpr ⟨_, Oscillation.valuesCustom_take hN h2,
    bind_ok.mpr ⟨_, Oscillation.valuesCustom_take hN h3, ?_⟩⟩⟩
  refine mapM_range_take hN h ?_
  intro k hk
  rw [getD_take_lt _ _ hk, getD_take_lt _ _ hk, getD_take_lt _ _ hk, hlast k hk]

theorem sectionHistory_take (h0 : 0 < N) (hN : N ≤ n) {last : Option (List WingCrossSection)}
    {m : WingCrossSectionMovement} {r : List WingCrossSection} (h : WingMovement.sectionHistory n dt last m = .ok r) :
    WingMovement.sectionHistory N dt (last.map (·.take N)) m = .ok (r.take N) := by
  unfold WingMovement.sectionHistory at h ⊢
  cases last with
  | none =>
    simp only [Option.map_none] at h ⊢
    split_ifs at h ⊢ with hc
    refine WingCrossSectionMovement.generate_take hN ?_ h
    intro k hk
    simp [List.getD_eq_getElem?_getD, hk, show k < n by omega]
  | some prev =>
    cases prev with
    | nil => simp at h
    | cons a l =>
      obtain ⟨M, rfl⟩ : ∃ M, N = M + 1 := ⟨N - 1, by omega⟩
      simp only [Option.map_some, List.take_succ_cons] at h ⊢
      have hl : ∀ k < M + 1, ((a :: l.take M).map (·.leadingEdge)).getD k 0 = ((a :: l).map (·.leadingEdge)).getD k 0 := by
        intro k hk
        cases k with
        | zero => rfl
        | succ k =>
          simp [List.getD_eq_getElem?_getD, show k < M by omega]
      split_ifs at h ⊢
      · exact WingCrossSectionMovement.generate_take hN hl h
      · exact WingCrossSectionMovement.generate_take hN hl h

theorem sectionHistories_take (h0 : 0 < N) (hN : N ≤ n) : ∀ {last : Option (List WingCrossSection)}
    {ms : List WingCrossSectionMovement} {r : List (List WingCrossSection)},
    WingMovement.sectionHistories n dt last ms = .ok r →
    WingMovement.sectionHistories N dt (last.map (·.take N)) ms = .ok (r.map (·.take N))
  | last, [], r, h => by
    simp only [WingMovement.sectionHistories, Except.ok.injEq] at h ⊢
    subst h; rfl
  | last, m :: ms, r, h => by
    unfold WingMovement.sectionHistories at h ⊢
    obtain ⟨a, h1, h⟩ := bind_ok.mp h
    obtain ⟨rest, h2, h⟩ := bind_ok.mp h
    rw [pure_ok] at h
    subst h
    exact bind_ok.mpr ⟨_, sectionHistory_take h0 hN h1, bind_ok.mpr ⟨_, sectionHistories_take h0 hN h2, rfl⟩⟩

theorem column_take {α : Type} (hs : List (List α)) {k : ℕ} (hk : k < N) :
    (hs.map (·.take N)).filterMap (·[k]?) = hs.filterMap (·[k]?) := by
  rw [List.filterMap_map]
  congr 1
  funext l
  simp [hk]

theorem WingMovement.generate_take (h0 : 0 < N) (hN : N ≤ n) {m : WingMovement} {r : List Wing}
    (h : m.generate n dt = .ok r) : m.generate N dt = .ok (r.take N) := by
  unfold WingMovement.generate at h ⊢
  obtain ⟨xs, h1, h⟩ := bind_ok.mp h
  obtain ⟨ys, h2, h⟩ := bind_ok.mp h
  obtain ⟨zs, h3, h⟩ := bind_ok.mp h
  obtain ⟨hs, h4, h⟩ := bind_ok.mp h
  refine bind_ok.mpr ⟨_, Oscillation.values_take hN h1, bind_ok.mpr ⟨_, Oscillation.values_take hN h2,
    bind_ok.mpr ⟨_, Oscillation.values_take hN h3, bind_ok.mpr ⟨_, sectionHistories_take h0 hN h4, ?_⟩⟩⟩⟩
  refine mapM_range_take hN h ?_
  intro k hk
  rw [getD_take_lt _ _ hk, getD_take_lt _ _ hk, getD_take_lt _ _ hk, column_take hs hk]

theorem mapM_take {α β ε : Type} {f f' : α → Except ε (List β)} {l : List α} {r : List (List β)}
    (hf : ∀ a y, f a = .ok y → f' a = .ok (y.take N)) (h : l.mapM f = .ok r) : l.mapM f' = .ok (r.map (·.take N)) := by
  rw [mapM_forall₂] at h ⊢
  induction h with
  | nil => simp
  | cons h _ ih => exact .cons (hf _ _ h) ih

theorem AirplaneMovement.generate_take (h0 : 0 < N) (hN : N ≤ n) {m : AirplaneMovement} {r : List Airplane}
    (h : m.generate n dt = .ok r) : m.generate N dt = .ok (r.take N) := by
  unfold AirplaneMovement.generate at h ⊢
  obtain ⟨xs, h1, h⟩ := bind_ok.mp h
  obtain ⟨ys, h2, h⟩ := bind_ok.mp h
  obtain ⟨zs, h3, h⟩ := bind_ok.mp h
  obtain ⟨ws, h4, h⟩ := bind_ok.mp h
  refine bind_ok.mpr ⟨_, Oscillation.values_take hN h1, bind_ok.mpr ⟨_, Oscillation.values_take hN h2,
    bind_ok.mpr ⟨_, Oscillation.values_take hN h3, bind_ok.mpr ⟨_,
      mapM_take (fun a y hy => WingMovement.generate_take h0 hN hy) h4, ?_⟩⟩⟩⟩
  refine mapM_range_take hN h ?_
  intro k hk
  rw [getD_take_lt _ _ hk, getD_take_lt _ _ hk, getD_take_lt _ _ hk, column_take ws hk]

theorem OperatingPointMovement.generate_take (hN : N ≤ n) {m : OperatingPointMovement} {r : List OperatingPoint}
    (h : m.generate n dt = .ok r) : m.generate N dt = .ok (r.take N) := by
  unfold OperatingPointMovement.generate at h ⊢
  obtain ⟨vs, h1, h⟩ := bind_ok.mp h
  refine bind_ok.mpr ⟨_, Oscillation.values_take hN h1, ?_⟩
  rw [pure_ok] at h ⊢
  rw [← h, ← List.map_take, List.take_range, Nat.min_eq_left hN]
  apply List.map_congr_left
  intro k hk
  rw [getD_take_lt _ _ (List.mem_range.mp hk)]

/-- The study of the first steps. -/
theorem study_take {ams : List AirplaneMovement} {om : OperatingPointMovement} {ns nc nch : Option ℕ} {dt : Option ℝ}
    {only : Bool} {p : UnsteadyProblem} (h : study ams om ns nc nch dt only = .ok p) (h0 : 0 < N) (hN : N ≤ p.numSteps)
    (only' : Bool) :
    ∃ q, study ams om (some N) none none (some p.deltaTime) only' = .ok q ∧ q.Made ∧ q.numSteps = N ∧
      q.deltaTime = p.deltaTime ∧
      ∀ k < N, q.airplanesAt k = p.airplanesAt k ∧ q.operatingPointAt k = p.operatingPointAt k := by
  obtain ⟨-, -, -, -, hP, -, -, -, H, O, hH, hO, hk⟩ := study_parts h
  have hH' := mapM_take (f' := fun am => AirplaneMovement.generate am N p.deltaTime)
    (fun a y hy => AirplaneMovement.generate_take h0 hN hy) hH
  have hO' := OperatingPointMovement.generate_take hN hO
  have hmv : Movement.create ams om (some N) none none (some p.deltaTime) = .ok
      { airplaneMovements := ams, operatingPointMovement := om, numSteps := N, deltaTime := p.deltaTime
        airplanes := H.map (·.take N), operatingPoints := O.take N } := by
    unfold Movement.create
    simp only [checkRunLength, chooseDeltaTime, runLength, bind, Except.bind, hH', hO']
    rfl
  obtain ⟨q, e, e1, e2, e3, -⟩ := C31_steady_problems ams om (some N) none none _ _ hmv p.maxPeriod hP only'
  have hst : study ams om (some N) none none (some p.deltaTime) only' = .ok q := bind_ok.mpr ⟨_, hmv, e⟩
  obtain ⟨b0, -, -, -, -, -, -, -, H'', O'', hH2, hO2, hk2⟩ := study_parts hst
  simp only at e1 e2
  rw [e1, e2] at hH2 hO2
  rw [hH', Except.ok.injEq] at hH2
  rw [hO', Except.ok.injEq] at hO2
  subst hH2 hO2
  refine ⟨q, hst, b0, e1, e2, ?_⟩
  intro k hkN
  obtain ⟨a1, a2⟩ := hk k (by omega)
  obtain ⟨c1, c2⟩ := hk2 k (by rw [e1]; exact hkN)
  constructor
  · rw [List.forall₂_map_left_iff] at c1
    have : ∀ {H : List (List Airplane)} {l l' : List Airplane},
        Forall₂ (fun (history : List Airplane) a => history[k]? = some a) H l →
        Forall₂ (fun (history : List Airplane) a => (history.take N)[k]? = some a) H l' → l' = l := by
      intro H l l' h1
      induction h1 generalizing l' with
      | nil => intro h2; cases h2; rfl
      | cons h _ ih =>
        intro h2
        cases h2 with
        | cons h' ht =>
          rw [ih ht]
          simp only [List.getElem?_take, if_pos hkN, h, Option.some.injEq] at h'
          rw [h']
    exact this a1 c1
  · rw [List.getElem?_take, if_pos hkN, a2, Option.some.injEq] at c2
    exact c2.symm

end Ptera
