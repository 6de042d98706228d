import Verif.Lemmas.NearbyMovements
import Verif.Props.NearbyWings

/-!
# C100: a small change of a movement changes the motion, and the results of the unsteady solver, only a little
-/

namespace Ptera

open Filter Topology List UnsteadySolver

/-! ## Smaller changes -/

theorem Oscillation.Near.mono {δ δ' : ℝ} (h : δ ≤ δ') {o o' : Oscillation} (n : o.Near δ o') : o.Near δ' o' :=
  { n with
    amplitude := n.amplitude.trans_le h
    period := n.period.imp (fun g => ⟨g.1, g.2.trans_le h⟩) id }

theorem WingCrossSectionMovement.Near.mono {δ δ' : ℝ} (h : δ ≤ δ') {m m' : WingCrossSectionMovement} (n : m.Near δ m') :
    m.Near δ' m' :=
  ⟨n.base.mono h, n.sweeping.mono h, n.pitching.mono h, n.heaving.mono h⟩

theorem WingMovement.Near.mono {δ δ' : ℝ} (h : δ ≤ δ') {m m' : WingMovement} (n : m.Near δ m') : m.Near δ' m' :=
  { n with
    leadingEdge := n.leadingEdge.trans_le h
    sections := n.sections.imp fun _ _ => WingCrossSectionMovement.Near.mono h
    xLe := n.xLe.mono h
    yLe := n.yLe.mono h
    zLe := n.zLe.mono h }

theorem AirplaneMovement.Near.mono {δ δ' : ℝ} (h : δ ≤ δ') {m m' : AirplaneMovement} (n : m.Near δ m') : m.Near δ' m' :=
  ⟨n.xyzRef.trans_le h, n.wings.imp fun _ _ => WingMovement.Near.mono h, n.xRef.mono h, n.yRef.mono h, n.zRef.mono h⟩

theorem OperatingPointMovement.Near.mono {δ δ' : ℝ} (h : δ ≤ δ') {m m' : OperatingPointMovement} (n : m.Near δ m') :
    m.Near δ' m' :=
  ⟨n.base_velocity.trans_le h, n.density.trans_le h, n.alpha.trans_le h, n.beta.trans_le h, n.velocity.mono h⟩

/-- What holds eventually for all sequences that come nearer holds for everything near enough. -/
theorem delta_of_seq {α : Type*} {P : ℝ → α → Prop} {Q : α → Prop}
    (h : ∀ (x : ℕ → α) (δ : ℕ → ℝ), Tendsto δ atTop (𝓝 0) → (∀ n, P (δ n) (x n)) → ∀ᶠ n in atTop, Q (x n)) :
    ∃ δ > 0, ∀ x, P δ x → Q x := by
  by_contra hcon
  push Not at hcon
  choose x hx hbad using fun n : ℕ => hcon (1 / ((n : ℝ) + 1)) (by positivity)
  obtain ⟨n, hn⟩ := (h x _ tendsto_one_div_add_atTop_nhds_zero_nat hx).exists
  exact hbad n hn

/-- One bound for all members of a list and another change. -/
theorem forall₂_delta_with {α τ : Type*} {R : ℝ → α → α → Prop} {D : ℝ → τ → Prop}
    (mono : ∀ {δ δ' a b}, δ ≤ δ' → R δ a b → R δ' a b) (monoD : ∀ {δ δ' t}, δ ≤ δ' → D δ t → D δ' t)
    {Q : τ → α → α → Prop} (l : List α) (h : ∀ a ∈ l, ∃ δ > 0, ∀ b t, R δ a b → D δ t → Q t a b) :
    ∃ δ > 0, ∀ m t, Forall₂ (R δ) l m → D δ t → Forall₂ (Q t) l m := by
  induction l with
  | nil => exact ⟨1, one_pos, fun m t hm _ => by cases hm; exact .nil⟩
  | cons a l ih =>
    obtain ⟨d1, p1, h1⟩ := h a (by simp)
    obtain ⟨d2, p2, h2⟩ := ih fun b hb => h b (by simp [hb])
    refine ⟨min d1 d2, lt_min p1 p2, fun m t hm hD => ?_⟩
    cases hm with
    | cons g1 g2 =>
      exact .cons (h1 _ t (mono (min_le_left _ _) g1) (monoD (min_le_left _ _) hD))
        (h2 _ t (g2.imp fun _ _ => mono (min_le_right _ _)) (monoD (min_le_right _ _) hD))

theorem forall₂_of_entries {α β : Type*} {R : α → β → Prop} {l : List α} {m : List β} (hl : l.length = m.length)
    (h : ∀ (i : ℕ) a b, l[i]? = some a → m[i]? = some b → R a b) : Forall₂ R l m :=
  List.forall₂_iff_get.mpr ⟨hl, fun i h1 h2 => h i _ _ (List.getElem?_eq_getElem h1) (List.getElem?_eq_getElem h2)⟩

/-! ## Wings, airplanes and operating points -/

/-- C100: a wing that moves slightly differently, in slightly different time steps, is at every step near the wing. -/
theorem C100_wings {m : WingMovement} {n : ℕ} {dt : ℝ} {ws : List Wing} (h : m.generate n dt = .ok ws)
    (hreg : m.Regular n dt) (ε : ℝ) (hε : 0 < ε) :
    ∃ δ > 0, ∀ (m' : WingMovement) (dt' : ℝ), m.Near δ m' → |dt' - dt| < δ → ∀ ws', m'.generate n dt' = .ok ws' →
      Forall₂ (Wing.Near ε) ws ws' := by
  obtain ⟨δ, hδ, key⟩ := delta_of_seq (α := WingMovement × ℝ × List Wing)
    (P := fun δ x => m.Near δ x.1 ∧ |x.2.1 - dt| < δ ∧ x.1.generate n x.2.1 = .ok x.2.2)
    (Q := fun x => Forall₂ (Wing.Near ε) ws x.2.2) (by
      intro x δ hδ hx
      have hdt : Tendsto (fun i => (x i).2.1) atTop (𝓝 dt) := num_tends hδ fun i => (hx i).2.1
      have hl : ∀ i, ws.length = (x i).2.2.length := by
        intro i
        rw [(WingMovement.generate_dims h).1, (WingMovement.generate_dims (hx i).2.2).1]
      have hall : ∀ᶠ i in atTop, ∀ k ∈ Finset.range n, ∀ w w', ws[k]? = some w → (x i).2.2[k]? = some w' → w.Near ε w' := by
        refine (eventually_all_finset _).mpr fun k hk => ?_
        have hk : k < ws.length := by rw [(WingMovement.generate_dims h).1]; exact Finset.mem_range.mp hk
        have := generated_wing_tends hδ (fun i => (hx i).1) hdt h (fun i => (hx i).2.2) hreg (k := k)
          (w := ws[k]) (W := fun i => (x i).2.2[k]'(by rw [← hl i]; exact hk)) (List.getElem?_eq_getElem hk)
          (fun i => List.getElem?_eq_getElem _) hε
        filter_upwards [this] with i hi w w' hw hw'
        rw [List.getElem?_eq_getElem hk] at hw; cases hw
        rw [List.getElem?_eq_getElem (by rw [← hl i]; exact hk)] at hw'; cases hw'
        exact hi
      filter_upwards [hall] with i hi
      refine forall₂_of_entries (hl i) fun k w w' hw hw' => hi k ?_ w w' hw hw'
      rw [Finset.mem_range, ← (WingMovement.generate_dims h).1]
      exact (List.getElem?_eq_some_iff.mp hw).1)
  exact ⟨δ, hδ, fun m' dt' h1 h2 ws' h3 => key (m', dt', ws') ⟨h1, h2, h3⟩⟩

theorem generated_xyzRef {am : AirplaneMovement} {n : ℕ} {dt : ℝ} {as : List Airplane} (h : am.generate n dt = .ok as) :
    ∃ xs ys zs, am.xRef.values am.base.xyzRef.x n dt = .ok xs ∧ am.yRef.values am.base.xyzRef.y n dt = .ok ys ∧
      am.zRef.values am.base.xyzRef.z n dt = .ok zs ∧ as.length = n ∧
      ∀ (k : ℕ) a, as[k]? = some a → a.xyzRef = ⟨xs.getD k 0, ys.getD k 0, zs.getD k 0⟩ := by
  obtain ⟨xs, ys, zs, ws, hx, hy, hz, _, hl, hk⟩ := AirplaneMovement.generate_ok h
  refine ⟨xs, ys, zs, hx, hy, hz, hl, fun k a ha => ?_⟩
  have hkn : k < n := by have := (List.getElem?_eq_some_iff.mp ha).1; omega
  obtain ⟨a', e1, e2⟩ := hk k hkn
  rw [ha] at e1; cases e1
  unfold Airplane.create at e2
  cases hws : ws.filterMap (·[k]?) with
  | nil => rw [hws] at e2; simp at e2
  | cons w l => rw [hws] at e2; simp only [Except.ok.injEq] at e2; rw [← e2]

/-- C100: an airplane that moves slightly differently is at every step near the airplane. -/
theorem C100_airplanes {m : AirplaneMovement} {n : ℕ} {dt : ℝ} {as : List Airplane} (h : m.generate n dt = .ok as)
    (hreg : ∀ wm ∈ m.wingMovements, wm.Regular n dt) (ε : ℝ) (hε : 0 < ε) :
    ∃ δ > 0, ∀ (m' : AirplaneMovement) (dt' : ℝ), m.Near δ m' → |dt' - dt| < δ → ∀ as', m'.generate n dt' = .ok as' →
      Forall₂ (Airplane.Near ε) as as' := by
  obtain ⟨xs, ys, zs, hx, hy, hz, hl, hxyz⟩ := generated_xyzRef h
  obtain ⟨_, _, _, _, _, _, _, hw⟩ := C67_airplanes m n dt as h
  obtain ⟨d₁, hd₁, k₁⟩ := forall₂_delta_with (R := WingMovement.Near) (D := fun δ (t : ℝ) => |t - dt| < δ)
    (Q := fun (t : ℝ) (wm wm' : WingMovement) => ∀ ws ws', wm.generate n dt = .ok ws → wm'.generate n t = .ok ws' →
      Forall₂ (Wing.Near ε) ws ws') (fun h g => g.mono h) (fun h g => lt_of_lt_of_le g h) m.wingMovements (by
      intro wm hwm
      by_cases hg : ∃ ws, wm.generate n dt = .ok ws
      · obtain ⟨ws, hg⟩ := hg
        obtain ⟨δ, hδ, key⟩ := C100_wings hg (hreg wm hwm) ε hε
        refine ⟨δ, hδ, fun wm' t h1 h2 v v' h3 h4 => ?_⟩
        rw [hg] at h3; cases h3
        exact key wm' t h1 h2 v' h4
      · exact ⟨1, one_pos, fun _ _ _ _ v _ h3 _ => absurd ⟨v, h3⟩ hg⟩)
  obtain ⟨d₂, hd₂, k₂⟩ := delta_of_seq (α := AirplaneMovement × ℝ × List Airplane)
    (P := fun δ x => m.Near δ x.1 ∧ |x.2.1 - dt| < δ ∧ x.1.generate n x.2.1 = .ok x.2.2)
    (Q := fun x => ∀ k ∈ Finset.range n, ∀ a a', as[k]? = some a → x.2.2[k]? = some a' → (a'.xyzRef - a.xyzRef).norm < ε) (by
      intro x δ hδ hx'
      have hdt : Tendsto (fun i => (x i).2.1) atTop (𝓝 dt) := num_tends hδ fun i => (hx' i).2.1
      choose xs' ys' zs' gx gy gz _ gxyz using fun i => generated_xyzRef (hx' i).2.2
      have hb := vec_tends hδ fun i => (hx' i).1.xyzRef
      refine (eventually_all_finset _).mpr fun k hk => ?_
      have hk := Finset.mem_range.mp hk
      have hT : V3.Tends (fun i => (⟨(xs' i).getD k 0, (ys' i).getD k 0, (zs' i).getD k 0⟩ : V3)) atTop
          ⟨xs.getD k 0, ys.getD k 0, zs.getD k 0⟩ :=
        ⟨values_tends hδ (fun i => (hx' i).1.xRef) hb.1 hdt hx gx hk,
          values_tends hδ (fun i => (hx' i).1.yRef) hb.2.1 hdt hy gy hk,
          values_tends hδ (fun i => (hx' i).1.zRef) hb.2.2 hdt hz gz hk⟩
      filter_upwards [tends_norm hT hε] with i hi a a' ha ha'
      rw [hxyz k a ha, gxyz i k a' ha']
      exact hi)
  refine ⟨min d₁ d₂, lt_min hd₁ hd₂, fun m' dt' h1 h2 as' h3 => ?_⟩
  obtain ⟨_, _, _, _, _, _, hl', hw'⟩ := C67_airplanes m' n dt' as' h3
  have hwings := k₁ m'.wingMovements dt' (h1.mono (min_le_left _ _)).wings (h2.trans_le (min_le_left _ _))
  have href := k₂ (m', dt', as') ⟨h1.mono (min_le_right _ _), h2.trans_le (min_le_right _ _), h3⟩
  refine forall₂_of_entries (hl.trans hl'.symm) fun k a a' ha ha' => ?_
  have hk : k < n := by rw [← hl]; exact (List.getElem?_eq_some_iff.mp ha).1
  refine ⟨0, 0, none, none, none, none, none, none, (AirplaneMovement.generate_defaults h ha).1,
    (AirplaneMovement.generate_defaults h3 ha').1, ?_, href k (Finset.mem_range.mpr hk) a a' ha ha', trivial, trivial, trivial⟩
  obtain ⟨-, e1, e2⟩ := hw k a ha
  obtain ⟨-, e1', e2'⟩ := hw' k a' ha'
  refine forall₂_of_entries (by rw [e1, e1', hwings.length_eq]) fun i w w' g g' => ?_
  have hi : i < m.wingMovements.length := by rw [← e1]; exact (List.getElem?_eq_some_iff.mp g).1
  have hi' : i < m'.wingMovements.length := by rw [← hwings.length_eq]; exact hi
  obtain ⟨ws, v, q1, q2, q3⟩ := e2 i _ (List.getElem?_eq_getElem hi)
  obtain ⟨ws', v', q1', q2', q3'⟩ := e2' i _ (List.getElem?_eq_getElem hi')
  rw [g] at q3; cases q3
  rw [g'] at q3'; cases q3'
  have hf := hwings.get hi hi' ws ws' q1 q1'
  obtain ⟨l, rfl⟩ := List.getElem?_eq_some_iff.mp q2
  obtain ⟨l', rfl⟩ := List.getElem?_eq_some_iff.mp q2'
  exact hf.get l l'

/-- C100: an operating point that changes slightly differently is at every step near the operating point. -/
theorem C100_operating_points {m : OperatingPointMovement} {n : ℕ} {dt : ℝ} {ops : List OperatingPoint}
    (h : m.generate n dt = .ok ops) (ε : ℝ) (hε : 0 < ε) :
    ∃ δ > 0, ∀ (m' : OperatingPointMovement) (dt' : ℝ), m.Near δ m' → |dt' - dt| < δ → ∀ ops', m'.generate n dt' = .ok ops' →
      Forall₂ (fun op op' : OperatingPoint => |op'.velocity - op.velocity| < ε ∧ |op'.density - op.density| < ε ∧
        |op'.alpha - op.alpha| < ε ∧ |op'.beta - op.beta| < ε ∧ op'.nu = op.nu) ops ops' := by
  obtain ⟨vs, hv, hl, hk⟩ := OperatingPointMovement.generate_ok h
  obtain ⟨d, hd, key⟩ := delta_of_seq (α := OperatingPointMovement × ℝ × List ℝ)
    (P := fun δ x => m.Near δ x.1 ∧ |x.2.1 - dt| < δ ∧ x.1.velocity.values x.1.base.velocity n x.2.1 = .ok x.2.2)
    (Q := fun x => ∀ k ∈ Finset.range n, |x.2.2.getD k 0 - vs.getD k 0| < ε) (by
      intro x δ hδ hx
      refine (eventually_all_finset _).mpr fun k hk => ?_
      exact tends_abs (values_tends hδ (fun i => (hx i).1.velocity) (num_tends hδ fun i => (hx i).1.base_velocity)
        (num_tends hδ fun i => (hx i).2.1) hv (fun i => (hx i).2.2) (Finset.mem_range.mp hk)) hε)
  refine ⟨min d ε, lt_min hd hε, fun m' dt' h1 h2 ops' h3 => ?_⟩
  obtain ⟨vs', hv', hl', hk'⟩ := OperatingPointMovement.generate_ok h3
  have hvel := key (m', dt', vs') ⟨h1.mono (min_le_left _ _), h2.trans_le (min_le_left _ _), hv'⟩
  have h1 := h1.mono (min_le_right d ε)
  refine forall₂_of_entries (hl.trans hl'.symm) fun k op op' ho ho' => ?_
  have hkn : k < n := by rw [← hl]; exact (List.getElem?_eq_some_iff.mp ho).1
  rw [hk k hkn] at ho; cases ho
  rw [hk' k hkn] at ho'; cases ho'
  exact ⟨hvel k (Finset.mem_range.mpr hkn), h1.density, h1.alpha, h1.beta, rfl⟩

/-! ## Problems and results -/

/-- C100: the unsteady problem of movements given with slightly different numbers is near the unsteady problem: the panels,
reference points and dimensions of every step, and the flow. -/
theorem C100_problem {ams : List AirplaneMovement} {om : OperatingPointMovement} {ns nc nch : Option ℕ} {dt : Option ℝ}
    {mv : Movement} {only : Bool} {p : UnsteadyProblem} (h1 : Movement.create ams om ns nc nch dt = .ok mv)
    (h2 : UnsteadyProblem.create mv only = .ok p)
    (hreg : ∀ am ∈ ams, ∀ wm ∈ am.wingMovements, wm.Regular mv.numSteps mv.deltaTime)
    (hA : ∀ k < p.numSteps, ∀ a ∈ p.airplanesAt k, a.sRef ≠ 0) (hN : 0 < p.numSteps) (ε : ℝ) (hε : 0 < ε) :
    ∃ δ > 0, ∀ ams' om' ns' nc' nch' dt' mv' only' q, Movement.create ams' om' ns' nc' nch' dt' = .ok mv' →
      UnsteadyProblem.create mv' only' = .ok q → Forall₂ (AirplaneMovement.Near δ) ams ams' → om.Near δ om' →
      mv'.numSteps = mv.numSteps → |mv'.deltaTime - mv.deltaTime| < δ → q.firstResultsStep = p.firstResultsStep →
      p.Near ε q := by
  have hp : p.Made := ⟨_, _, _, _, _, _, _, _, _, h1, h2, .inl rfl⟩
  obtain ⟨d, hd, k₀⟩ := steps_delta (Q := fun k δ => ∀ as', Forall₂ (Airplane.Near δ) (p.airplanesAt k) as' →
      Forall₂ (Airplane.MeshNear ε) (p.airplanesAt k) as')
    (fun hle hq as' hn => hq as' (hn.imp fun _ _ => Airplane.Near.mono hle)) p.numSteps
    (fun k hk => Airplane.meshes_near _ (hp.regular.made k)
      (fun a ha w hw s hs => by rw [((hp.defaults hk ha).2.2 w hw).2.2 s hs]; simp [V3.ext_iff])
      (fun a ha main hm => by rw [← (hp.defaults hk ha).2.1 main hm]; exact hA k hk a ha) ε hε)
  obtain ⟨eN, eT, -, ops, hops, -⟩ := UnsteadyProblem.create_generated h1 h2 hN
  obtain ⟨d₁, hd₁, k₁⟩ := forall₂_delta_with (R := AirplaneMovement.Near) (D := fun δ (t : ℝ) => |t - mv.deltaTime| < δ)
    (Q := fun (t : ℝ) (am am' : AirplaneMovement) => ∀ as as', am.generate mv.numSteps mv.deltaTime = .ok as →
      am'.generate mv.numSteps t = .ok as' → Forall₂ (Airplane.Near d) as as') (fun h g => g.mono h)
    (fun h g => lt_of_lt_of_le g h) ams (by
      intro am ham
      by_cases hg : ∃ as, am.generate mv.numSteps mv.deltaTime = .ok as
      · obtain ⟨as, hg⟩ := hg
        obtain ⟨δ, hδ, key⟩ := C100_airplanes hg (hreg am ham) d hd
        refine ⟨δ, hδ, fun am' t h1 h2 v v' h3 h4 => ?_⟩
        rw [hg] at h3; cases h3
        exact key am' t h1 h2 v' h4
      · exact ⟨1, one_pos, fun _ _ _ _ v _ h3 _ => absurd ⟨v, h3⟩ hg⟩)
  obtain ⟨d₂, hd₂, k₂⟩ := C100_operating_points hops ε hε
  refine ⟨min (min d₁ d₂) ε, lt_min (lt_min hd₁ hd₂) hε, ?_⟩
  intro ams' om' ns' nc' nch' dt' mv' only' q g1 g2 hams hom hn hdt hfirst
  have l1 : min (min d₁ d₂) ε ≤ d₁ := (min_le_left _ _).trans (min_le_left _ _)
  have l2 : min (min d₁ d₂) ε ≤ d₂ := (min_le_left _ _).trans (min_le_right _ _)
  have hqN : q.numSteps = p.numSteps := by
    rw [eN, ← hn]
    unfold UnsteadyProblem.create at g2
    obtain ⟨_, _, g2⟩ := bind_ok.mp g2
    obtain ⟨_, _, g2⟩ := bind_ok.mp g2
    rw [pure_ok] at g2
    rw [← g2]
  have hfl := k₁ ams' mv'.deltaTime (hams.imp fun _ _ => AirplaneMovement.Near.mono l1) (hdt.trans_le l1)
  have hstep : ∀ k < p.numSteps, Forall₂ (Airplane.MeshNear ε) (p.airplanesAt k) (q.airplanesAt k) ∧
      |(q.operatingPointAt k).velocity - (p.operatingPointAt k).velocity| < ε ∧
      |(q.operatingPointAt k).density - (p.operatingPointAt k).density| < ε ∧
      |(q.operatingPointAt k).alpha - (p.operatingPointAt k).alpha| < ε ∧
      |(q.operatingPointAt k).beta - (p.operatingPointAt k).beta| < ε ∧
      (q.operatingPointAt k).nu = (p.operatingPointAt k).nu := by
    intro k hk
    obtain ⟨_, _, hf, ops₁, o1, o2⟩ := UnsteadyProblem.create_generated h1 h2 hk
    obtain ⟨_, _, hf', ops₂, o1', o2'⟩ := UnsteadyProblem.create_generated g1 g2 (hqN ▸ hk)
    rw [hops] at o1; cases o1
    rw [hn] at o1' hf'
    refine ⟨k₀ k hk _ ?_, ?_⟩
    · refine forall₂_of_entries (by rw [← hf.length_eq, ← hf'.length_eq, hams.length_eq]) fun i a a' ha ha' => ?_
      obtain ⟨la, rfl⟩ := List.getElem?_eq_some_iff.mp ha
      obtain ⟨la', rfl⟩ := List.getElem?_eq_some_iff.mp ha'
      have li : i < ams.length := by rw [hf.length_eq]; exact la
      have li' : i < ams'.length := by rw [hf'.length_eq]; exact la'
      obtain ⟨as, q1, q2⟩ := hf.get li la
      obtain ⟨as', q1', q2'⟩ := hf'.get li' la'
      have := hfl.get li li' as as' q1 q1'
      obtain ⟨u, hu⟩ := List.getElem?_eq_some_iff.mp q2
      obtain ⟨u', hu'⟩ := List.getElem?_eq_some_iff.mp q2'
      have := this.get u u'
      simp only [List.get_eq_getElem] at this hu hu' ⊢
      rw [hu, hu'] at this
      exact this
    · have := k₂ om' mv'.deltaTime (hom.mono l2) (hdt.trans_le l2) ops₂ o1'
      obtain ⟨u, hu⟩ := List.getElem?_eq_some_iff.mp o2
      obtain ⟨u', hu'⟩ := List.getElem?_eq_some_iff.mp o2'
      have := this.get u u'
      simp only [List.get_eq_getElem] at this hu hu'
      rw [hu, hu'] at this
      exact this
  obtain ⟨_, eT', _⟩ := UnsteadyProblem.create_generated g1 g2 (hqN ▸ hN)
  refine ⟨hqN, hfirst, ?_, fun k hk => ?_, fun k hk => ?_⟩
  · rw [eT, eT']; exact hdt.trans_le (min_le_right _ _)
  · obtain ⟨s1, s2, s3, s4, s5, -⟩ := hstep k hk
    exact SteadyProblem.near_of_meshes s1 s2 s3 s4 s5
  · rw [(hstep k hk).2.2.2.2.2]; simpa using hε

/-- C100: movements given with slightly different numbers can be run too, with nearby results at every step. -/
theorem C100_unsteady {ams : List AirplaneMovement} {om : OperatingPointMovement} {ns nc nch : Option ℕ} {dt : Option ℝ}
    {mv : Movement} {only : Bool} {p : UnsteadyProblem} (h1 : Movement.create ams om ns nc nch dt = .ok mv)
    (h2 : UnsteadyProblem.create mv only = .ok p)
    (hreg : ∀ am ∈ ams, ∀ wm ∈ am.wingMovements, wm.Regular mv.numSteps mv.deltaTime)
    (hA : ∀ k < p.numSteps, ∀ a ∈ p.airplanesAt k, a.sRef ≠ 0) (hdt : p.deltaTime ≠ 0) {s s₁ : UnsteadySolver}
    {pres sl : Bool} (hs : Reached p s) (h₁ : s.run pres sl = .ok s₁)
    (hcut : ∀ k < p.numSteps, ∀ x, EvaluatedAt p pres s₁ k x → ∀ f ∈ s₁.filaments k, f.OffBorder x) (ε : ℝ) (hε : 0 < ε) :
    ∃ δ > 0, ∀ ams' om' ns' nc' nch' dt' mv' only' q, Movement.create ams' om' ns' nc' nch' dt' = .ok mv' →
      UnsteadyProblem.create mv' only' = .ok q → Forall₂ (AirplaneMovement.Near δ) ams ams' → om.Near δ om' →
      mv'.numSteps = mv.numSteps → |mv'.deltaTime - mv.deltaTime| < δ → q.firstResultsStep = p.firstResultsStep →
      ∀ z, Reached q z → ∀ sl', ∃ z₁, z.run pres sl' = .ok z₁ ∧ ∀ k < p.numSteps, StepNear p ε s₁ z₁ k := by
  have hp : p.Made := ⟨_, _, _, _, _, _, _, _, _, h1, h2, .inl rfl⟩
  obtain ⟨d, hd, k₁⟩ := C97_nearby hp hdt hs h₁ hcut ε hε
  obtain ⟨δ, hδ, k₂⟩ := C100_problem h1 h2 hreg hA (hs.steps hp) d hd
  exact ⟨δ, hδ, fun ams' om' ns' nc' nch' dt' mv' only' q g1 g2 g3 g4 g5 g6 g7 =>
    k₁ q ⟨_, _, _, _, _, _, _, _, _, g1, g2, .inl rfl⟩ (k₂ ams' om' ns' nc' nch' dt' mv' only' q g1 g2 g3 g4 g5 g6 g7)⟩

/-- C100: of motions with a period, the means and root-mean-squares over the last cycle of movements given with slightly
different numbers, with the same averaging window, are near. -/
theorem C100_averages {ams : List AirplaneMovement} {om : OperatingPointMovement} {ns nc nch : Option ℕ} {dt : Option ℝ}
    {mv : Movement} {only : Bool} {p : UnsteadyProblem} (h1 : Movement.create ams om ns nc nch dt = .ok mv)
    (h2 : UnsteadyProblem.create mv only = .ok p)
    (hreg : ∀ am ∈ ams, ∀ wm ∈ am.wingMovements, wm.Regular mv.numSteps mv.deltaTime) (hdt : 0 < p.deltaTime)
    {s s₁ : UnsteadySolver} {pres sl : Bool} (hs : Reached p s) (h₁ : s.run pres sl = .ok s₁)
    (hcut : ∀ k < p.numSteps, ∀ x, EvaluatedAt p pres s₁ k x → ∀ f ∈ s₁.filaments k, f.OffBorder x)
    (hper : 0 < p.maxPeriod)
    (hq : ∀ k < p.numSteps, (p.operatingPointAt k).density ≠ 0 ∧ (p.operatingPointAt k).velocity ≠ 0)
    (href : ∀ k < p.numSteps, ∀ a ∈ p.airplanesAt k, a.sRef ≠ 0 ∧ a.cRef ≠ 0 ∧ a.bRef ≠ 0) (ε : ℝ) (hε : 0 < ε) :
    ∃ δ > 0, ∀ ams' om' ns' nc' nch' dt' mv' only' q, Movement.create ams' om' ns' nc' nch' dt' = .ok mv' →
      UnsteadyProblem.create mv' only' = .ok q → Forall₂ (AirplaneMovement.Near δ) ams ams' → om.Near δ om' →
      mv'.numSteps = mv.numSteps → |mv'.deltaTime - mv.deltaTime| < δ → q.firstResultsStep = p.firstResultsStep →
      0 < q.maxPeriod → q.firstAveragingStep = p.firstAveragingStep →
      ∀ z, Reached q z → ∀ sl', ∃ z₁, z.run pres sl' = .ok z₁ ∧
      ∀ Q ∈ loadQuantities, ∀ i < (p.airplanesAt 0).length,
        (∃ v v', addedResult (Q.1 s.finalMean) (Q.1 s₁.finalMean) i = some v ∧
          addedResult (Q.1 z.finalMean) (Q.1 z₁.finalMean) i = some v' ∧ (v' - v).norm < ε) ∧
        (∃ v v', addedResult (Q.1 s.finalRms) (Q.1 s₁.finalRms) i = some v ∧
          addedResult (Q.1 z.finalRms) (Q.1 z₁.finalRms) i = some v' ∧ (v' - v).norm < ε) := by
  have hp : p.Made := ⟨_, _, _, _, _, _, _, _, _, h1, h2, .inl rfl⟩
  obtain ⟨d, hd, k₁⟩ := C97_averages hp hdt hs h₁ hcut hper hq href ε hε
  obtain ⟨δ, hδ, k₂⟩ := C100_problem h1 h2 hreg (fun k hk a ha => (href k hk a ha).1) (hs.steps hp) d hd
  exact ⟨δ, hδ, fun ams' om' ns' nc' nch' dt' mv' only' q g1 g2 g3 g4 g5 g6 g7 g8 g9 =>
    k₁ q ⟨_, _, _, _, _, _, _, _, _, g1, g2, .inl rfl⟩ g8 g9
      (k₂ ams' om' ns' nc' nch' dt' mv' only' q g1 g2 g3 g4 g5 g6 g7)⟩

/-! ## Sections straight above their neighbours -/

/-- The movement of a wing that sweeps and pitches its outer cross sections. -/
def tipMovement (w : Wing) (sweep pitch : Oscillation) : WingMovement :=
  { base := w
    sectionMovements := (w.sections.take 1).map (fun s => { base := s }) ++
      (w.sections.drop 1).map fun s => { base := s, sweeping := sweep, pitching := pitch } }

theorem tipMovement_proper (tip : V3) (sweep pitch : Oscillation) (h1 : sweep.spacing = "sine") (h2 : pitch.spacing = "sine") :
    ∃ w, (tipMovement w sweep pitch).Proper
        [plateSection 0 1 0 0 "symmetric" 4 "cosine", plateSection tip 1 0 0 "symmetric" 4 "cosine"] ∧
      Wing.create [plateSection 0 1 0 0 "symmetric" 4 "cosine", plateSection tip 1 0 0 "symmetric" 4 "cosine"] 0 ⟨0, 1, 0⟩
        true ⟨1, 0, 0⟩ 6 "uniform" = .ok w ∧
      w.sections = withChordwise ⟨1, 0, 0⟩
        [plateSection 0 1 0 0 "symmetric" 4 "cosine", plateSection tip 1 0 0 "symmetric" 4 "cosine"] := by
  obtain ⟨w, hw, hp, -⟩ := plateMovement_proper tip 6 (by norm_num)
  obtain ⟨hspec, hacc⟩ := Wing.create_ok _ _ _ _ _ _ _ _ hw
  have hst : w.sections = _ := hacc.stored
  rw [hspec] at hst
  refine ⟨w, ⟨hp.base, hp.fresh, ?_, ⟨Or.inl rfl, Or.inl rfl, Or.inl rfl⟩, ?_, ?_⟩, hw, hst⟩
  · simp only [tipMovement, List.map_append, List.map_map, Function.comp_def, List.map_id', List.take_append_drop]
  · intro m hm
    simp only [tipMovement, List.mem_append, List.mem_map] at hm
    rcases hm with ⟨s, _, rfl⟩ | ⟨s, _, rfl⟩
    · exact ⟨Or.inl rfl, Or.inl rfl, Or.inl rfl⟩
    · exact ⟨Or.inl h1, Or.inl h2, Or.inl rfl⟩
  · intro m hm
    simp only [tipMovement, hst, withChordwise, List.map_cons, List.map_nil, List.take_succ_cons, List.take_zero,
      List.drop_succ_cons, List.drop_zero, List.cons_append, List.nil_append, List.getElem?_cons_zero,
      Option.some.injEq] at hm
    subst hm
    exact ⟨rfl, rfl, rfl, rfl⟩

theorem tipMovement_sections {tip : V3} {sweep pitch : Oscillation} {w : Wing} (hst : w.sections = withChordwise ⟨1, 0, 0⟩
      [plateSection 0 1 0 0 "symmetric" 4 "cosine", plateSection tip 1 0 0 "symmetric" 4 "cosine"]) :
    (tipMovement w sweep pitch).sectionMovements =
      [{ base := { plateSection 0 1 0 0 "symmetric" 4 "cosine" with wingUnitChordwise := ⟨1, 0, 0⟩ } },
        { base := { plateSection tip 1 0 0 "symmetric" 4 "cosine" with wingUnitChordwise := ⟨1, 0, 0⟩ }
          sweeping := sweep, pitching := pitch }] := by
  simp [tipMovement, hst, withChordwise]

theorem tipMovement_regular {tip : V3} (hy : tip.y ≠ 0) {sweep pitch : Oscillation} (h1 : sweep.custom = none)
    (h2 : pitch.custom = none) {w : Wing} (hst : w.sections = withChordwise ⟨1, 0, 0⟩
      [plateSection 0 1 0 0 "symmetric" 4 "cosine", plateSection tip 1 0 0 "symmetric" 4 "cosine"]) (n : ℕ) (dt : ℝ) :
    (tipMovement w sweep pitch).Regular n dt := by
  have e := tipMovement_sections (sweep := sweep) (pitch := pitch) hst
  constructor
  · intro c hc o ho f hf
    rw [e] at hc
    simp only [List.mem_cons, List.not_mem_nil, or_false] at hc ho
    rcases hc with rfl | rfl <;> rcases ho with rfl | rfl | rfl <;> simp [h1, h2] at hf
  · intro ws v hg hv j c s hc hs
    obtain rfl : j = 0 := by
      have := (List.getElem?_eq_some_iff.mp hc).1
      rw [e] at this
      simpa using this
    obtain ⟨-, s', q1, q2, -⟩ := generated_root hg (m := { base :=
      { plateSection 0 1 0 0 "symmetric" 4 "cosine" with wingUnitChordwise := ⟨1, 0, 0⟩ } }) (by rw [e]; rfl) hv
    rw [hs] at q1; cases q1
    rw [e] at hc
    simp only [zero_add, List.getElem?_cons_succ, List.getElem?_cons_zero, Option.some.injEq] at hc
    subst hc
    rw [q2]
    exact hy

/-- Why no outer cross section may be straight above its neighbour: such a section ignores the motion prescribed for it, but
one that is moved sideways by as little as one likes does not. Here a fin pitches, or not. -/
theorem C100_vertical_jumps : ∃ (m : WingMovement) (ws : List Wing), m.generate 2 1 = .ok ws ∧ ∀ δ > 0, ∃ m' ws',
    m.Near δ m' ∧ m'.generate 2 1 = .ok ws' ∧ ¬ Forall₂ (Wing.Near 1) ws ws' := by
  set pitch : Oscillation := { amplitude := 10, period := 4 } with hpitch
  obtain ⟨w, hp, hw, hst⟩ := tipMovement_proper ⟨0, 0, 1⟩ {} pitch rfl rfl
  obtain ⟨ws, hg⟩ := C31_wings_generated _ _ hp 2 (by norm_num) 1
  refine ⟨_, ws, hg, fun δ hδ => ?_⟩
  obtain ⟨w', hp', hw', hst'⟩ := tipMovement_proper ⟨0, δ / 2, 1⟩ {} pitch rfl rfl
  obtain ⟨ws', hg'⟩ := C31_wings_generated _ _ hp' 2 (by norm_num) 1
  have e := tipMovement_sections (sweep := {}) (pitch := pitch) hst
  have e' := tipMovement_sections (sweep := {}) (pitch := pitch) hst'
  obtain ⟨hspec, -⟩ := Wing.create_ok _ _ _ _ _ _ _ _ hw
  obtain ⟨hspec', -⟩ := Wing.create_ok _ _ _ _ _ _ _ _ hw'
  have still : ∀ o : Oscillation, o.amplitude = 0 → o.Near δ o := fun o h =>
    ⟨rfl, rfl, by simpa using hδ, Or.inr ⟨h, Or.inl h⟩⟩
  refine ⟨_, ws', ?_, hg', ?_⟩
  · refine ⟨by simp [tipMovement, hspec, hspec'], by simp [tipMovement, hspec, hspec'], by simp [tipMovement, hspec, hspec'],
      by simpa [tipMovement, hspec, hspec'] using hδ, ?_, Or.inl (by rw [e, e']; simp [plateSection]), still _ rfl,
      still _ rfl, still _ rfl⟩
    rw [e, e']
    refine .cons ⟨⟨rfl, rfl, rfl, by simpa using hδ, rfl, rfl, by simpa using hδ, by simpa using hδ, by simpa using hδ,
      by simpa using hδ⟩, still _ rfl, still _ rfl, still _ rfl⟩ (.cons ⟨⟨rfl, rfl, rfl, by simpa [plateSection] using hδ, rfl, rfl,
        ?_, by simpa [plateSection] using hδ, by simpa [plateSection] using hδ, by simpa [plateSection] using hδ⟩, still _ rfl,
        ⟨rfl, rfl, by simpa using hδ, Or.inl ⟨by simp [hpitch], by simpa using hδ⟩⟩, still _ rfl⟩ .nil)
    have : (⟨0, δ / 2, 1⟩ - ⟨0, 0, 1⟩ : V3) = ⟨0, δ / 2, 0⟩ := by ext <;> simp
    simp only [plateSection]
    rw [this]
    unfold V3.norm V3.dot
    have h2 : (0 : ℝ) * 0 + δ / 2 * (δ / 2) + 0 * 0 = (δ / 2) ^ 2 := by ring
    rw [h2, Real.sqrt_sq (by linarith)]
    linarith
  · intro hf
    have hl := (WingMovement.generate_dims hg).1
    have hl' := (WingMovement.generate_dims hg').1
    have n1 := hf.get (i := 1) (by omega) (by omega)
    obtain ⟨s0, a1, a2, -⟩ := (generated_root hg (m := { base :=
      { plateSection 0 1 0 0 "symmetric" 4 "cosine" with wingUnitChordwise := ⟨1, 0, 0⟩ } }) (by rw [e]; rfl)
      (List.getElem?_eq_getElem (by omega : 0 < ws.length))).2
    obtain ⟨s0', a1', a2', -⟩ := (generated_root hg' (m := { base :=
      { plateSection 0 1 0 0 "symmetric" 4 "cosine" with wingUnitChordwise := ⟨1, 0, 0⟩ } }) (by rw [e']; rfl)
      (List.getElem?_eq_getElem (by omega : 0 < ws'.length))).2
    obtain ⟨s, b1, -, b2⟩ := C67_vertical _ 2 1 ws hg 0 _ (by rw [e]; rfl) _
      (List.getElem?_eq_getElem (by omega : 0 < ws.length)) s0 a1 (by rw [a2]; rfl) 1 _
      (List.getElem?_eq_getElem (by omega : 1 < ws.length))
    obtain ⟨_, s', -, b1', -, b2'⟩ := (generated_outer hg' (j := 0) (by rw [e']; rfl)
      (List.getElem?_eq_getElem (by omega : 0 < ws'.length)) a1' rfl (by
        rw [a2']; simp only [plateSection, V3.sub_y, V3.zero_y]; linarith)).2 1 _
      (List.getElem?_eq_getElem (by omega : 1 < ws'.length))
    have n2 : s.Near 1 s' := by
      obtain ⟨l, rfl⟩ := List.getElem?_eq_some_iff.mp b1
      obtain ⟨l', rfl⟩ := List.getElem?_eq_some_iff.mp b1'
      exact n1.sections.get l l'
    have n3 := n2.twist
    rw [b2, b2'] at n3
    have hval : pitch.valueAt 0 1 = 10 := by
      unfold Oscillation.valueAt Oscillation.wave
      rw [if_neg (by simp [hpitch]), if_pos (by simp [hpitch])]
      rw [show 2 * Real.pi / pitch.period * 1 = Real.pi / 2 by simp [hpitch]; ring, Real.sin_pi_div_two]
      simp [hpitch]
    simp only [plateSection, Nat.cast_one, mul_one] at n3
    rw [hval] at n3
    norm_num at n3

/-! ## Examples -/

/-- A flapping wing: amplitude, period and time step may change a little. -/
example (A P dt : ℝ) (hP : P ≠ 0) (n : ℕ) (hn : 0 < n) (ε : ℝ) (hε : 0 < ε) : ∃ w ws,
    (tipMovement w { amplitude := A, period := P } {}).generate n dt = .ok ws ∧ ws.length = n ∧
    ∃ δ > 0, ∀ A' P' dt' : ℝ, |A' - A| < δ → |P' - P| < δ → |dt' - dt| < δ → ∃ ws',
      (tipMovement w { amplitude := A', period := P' } {}).generate n dt' = .ok ws' ∧ Forall₂ (Wing.Near ε) ws ws' := by
  obtain ⟨w, hp, hw, hst⟩ := tipMovement_proper ⟨0, 4, 0⟩ { amplitude := A, period := P } {} rfl rfl
  obtain ⟨ws, hg⟩ := C31_wings_generated _ _ hp n hn dt
  obtain ⟨δ, hδ, h⟩ := C100_wings hg (tipMovement_regular (by norm_num) rfl rfl hst n dt) ε hε
  refine ⟨w, ws, hg, (WingMovement.generate_dims hg).1, δ, hδ, fun A' P' dt' hA hP' hdt => ?_⟩
  obtain ⟨w₂, hp', hw', -⟩ := tipMovement_proper ⟨0, 4, 0⟩ { amplitude := A', period := P' } {} rfl rfl
  rw [hw] at hw'; cases hw'
  obtain ⟨ws', hg'⟩ := C31_wings_generated _ _ hp' n hn dt'
  have still : ∀ o : Oscillation, o.amplitude = 0 → o.Near δ o := fun o h =>
    ⟨rfl, rfl, by simpa using hδ, Or.inr ⟨h, Or.inl h⟩⟩
  have same : ∀ s : WingCrossSection, s.Near δ s := fun s => by
    refine ⟨rfl, rfl, rfl, ?_, rfl, rfl, ?_, ?_, ?_, ?_⟩ <;> simpa using hδ
  refine ⟨ws', hg', h (tipMovement w { amplitude := A', period := P' } {}) dt'
    ⟨rfl, rfl, rfl, by simpa [tipMovement] using hδ, ?_, Or.inl ?_, still _ rfl, still _ rfl, still _ rfl⟩ hdt ws' hg'⟩
  · rw [tipMovement_sections hst, tipMovement_sections hst]
    exact .cons ⟨same _, still _ rfl, still _ rfl, still _ rfl⟩
      (.cons ⟨same _, ⟨rfl, rfl, hA, Or.inl ⟨hP, hP'⟩⟩, still _ rfl, still _ rfl⟩ .nil)
  · rw [tipMovement_sections hst, tipMovement_sections hst]; rfl

/-- A plate rising against the flow for any number of steps that also begins to heave a little, with any period. -/
example (n : ℕ) (hn : 0 < n) (a : Airplane) (ε : ℝ) (hε : 0 < ε) : ∃ w mv p s s₁,
    Movement.create [{ base := a, wingMovements := [heave w 0 0] }]
      { base := { density := 1, velocity := 1, alpha := 90, beta := 0 } } (some n) none none (some 1) = .ok mv ∧
    UnsteadyProblem.create mv = .ok p ∧ UnsteadySolver.create p = .ok s ∧ s.run true false = .ok s₁ ∧
    ∃ δ > 0, ∀ A P : ℝ, |A| < δ → ∃ mv' q z z₁,
      Movement.create [{ base := a, wingMovements := [heave w A P] }]
        { base := { density := 1, velocity := 1, alpha := 90, beta := 0 } } (some n) none none (some 1) = .ok mv' ∧
      UnsteadyProblem.create mv' = .ok q ∧ UnsteadySolver.create q = .ok z ∧ z.run true false = .ok z₁ ∧
      ∀ k < n, StepNear p ε s₁ z₁ k := by
  obtain ⟨w, hw, _, hall⟩ := heaving_movement_of 1 0 0
  set op : OperatingPoint := { density := 1, velocity := 1, alpha := 90, beta := 0 } with hop
  obtain ⟨_, mv, p, g1, g2, hp, _⟩ := hall a n hn 1 op false
  have hz : (fun k => (oscillatingSinspace 0 0 0 n 1).getD k 0) = fun _ => 0 := by
    funext k
    unfold oscillatingSinspace
    rw [if_pos (.inl rfl)]
    unfold constList
    rw [List.getD_eq_getElem?_getD, List.getElem?_replicate]
    split <;> simp
  rw [hz] at hp
  have hd : op.freestreamDirection = ⟨0, 0, 1⟩ := by
    rw [C01_freestream_direction, show op.alpha * Real.pi / 180 = Real.pi / 2 by simp only [op]; ring]
    simp [op]
  have hv : op.freestreamVelocity = ⟨0, 0, 1⟩ := by
    rw [OperatingPoint.freestreamVelocity, hd]
    ext <;> simp [op]
  obtain ⟨s, hs⟩ := hp.create hn
  have hr : Reached p s := .fresh hs
  obtain ⟨s₁, h₁⟩ := hp.run zero_le_one (by simp [op]) (by rw [hd]; simp) hr true false
  refine ⟨w, mv, p, s, s₁, g1, g2, hs, h₁, ?_⟩
  obtain ⟨hspec, hacc⟩ := Wing.create_ok _ _ _ _ _ _ _ _ hw
  have hst : w.sections = _ := hacc.stored
  obtain ⟨δ, hδ, h⟩ := C100_unsteady g1 g2 (by
      intro am ham wm hwm
      simp only [List.mem_singleton] at ham
      subst ham
      simp only [List.mem_singleton] at hwm
      subst hwm
      constructor
      · intro c hc o ho f hf
        simp only [heave, plateMovement, List.mem_map] at hc
        obtain ⟨t, _, rfl⟩ := hc
        simp only [List.mem_cons, List.not_mem_nil, or_false] at ho
        rcases ho with rfl | rfl | rfl <;> cases hf
      · intro ws v hg hv j c t hc ht
        simp only [heave, plateMovement, hst, withChordwise, plates, List.map_cons, List.map_nil] at hc
        obtain rfl : j = 0 := by
          have := (List.getElem?_eq_some_iff.mp hc).1
          simpa using this
        obtain ⟨-, s', q1, q2, -⟩ := generated_root hg (m := { base :=
          { plateSection ⟨0, 0, 0⟩ 1 0 0 "symmetric" 1 "uniform" with wingUnitChordwise := w.spec.unitChordwise } })
          (by simp [heave, plateMovement, hst, withChordwise, plates]) hv
        rw [ht] at q1; cases q1
        simp only [zero_add, List.getElem?_cons_succ, List.getElem?_cons_zero, Option.some.injEq] at hc
        subst hc
        rw [q2]
        simp [plateSection]) (by
      intro k hk b hb
      rw [hp.steps] at hk
      obtain ⟨_, _, w, e1, _, _, _, _, e6⟩ := hp.step k hk
      rw [e1, List.mem_singleton] at hb
      rw [hb, e6]; exact one_ne_zero) (by rw [hp.dt]; norm_num) hr h₁ (plate_rising_offBorder hp hv hr h₁) ε hε
  refine ⟨δ, hδ, fun A P hA => ?_⟩
  obtain ⟨w', hw', _, hall'⟩ := heaving_movement_of 1 A P
  rw [hw] at hw'; cases hw'
  obtain ⟨_, mv', q, g1', g2', hq, _⟩ := hall' a n hn 1 op false
  obtain ⟨z, hzc⟩ := hq.create hn
  have still : ∀ o : Oscillation, o.amplitude = 0 → o.Near δ o := fun o h =>
    ⟨rfl, rfl, by simpa using hδ, Or.inr ⟨h, Or.inl h⟩⟩
  have same : ∀ s : WingCrossSection, s.Near δ s := fun s => by
    refine ⟨rfl, rfl, rfl, ?_, rfl, rfl, ?_, ?_, ?_, ?_⟩ <;> simpa using hδ
  have first : ∀ {mv p}, UnsteadyProblem.create mv false = .ok p → p.firstResultsStep = 0 ∧ p.numSteps = mv.numSteps ∧
      p.deltaTime = mv.deltaTime := by
    intro mv p g
    unfold UnsteadyProblem.create at g
    obtain ⟨_, _, g⟩ := bind_ok.mp g
    obtain ⟨_, _, g⟩ := bind_ok.mp g
    rw [pure_ok] at g
    rw [← g]
    simp
  obtain ⟨f1, f2, f3⟩ := first g2
  obtain ⟨f1', f2', f3'⟩ := first g2'
  have hsec : Forall₂ (WingCrossSectionMovement.Near δ) (heave w 0 0).sectionMovements (heave w A P).sectionMovements :=
    List.forall₂_same.mpr fun m hm => by
      simp only [heave, plateMovement, List.mem_map] at hm
      obtain ⟨s, _, rfl⟩ := hm
      exact ⟨same s, still _ rfl, still _ rfl, still _ rfl⟩
  obtain ⟨z₁, hz₁, hnear⟩ := h _ _ _ _ _ _ mv' false q g1' g2' (.cons ⟨by simpa using hδ, .cons
      ⟨rfl, rfl, rfl, by simpa [heave, plateMovement] using hδ, hsec, Or.inl rfl, still _ rfl, still _ rfl,
        ⟨rfl, rfl, by simpa [heave] using hA, Or.inr ⟨rfl, Or.inr (by simp [heave])⟩⟩⟩ .nil,
      still _ rfl, still _ rfl, still _ rfl⟩ .nil)
    ⟨by simpa using hδ, by simpa using hδ, by simpa using hδ, by simpa using hδ, still _ rfl⟩
    (by rw [← f2, ← f2', hp.steps, hq.steps]) (by rw [← f3, ← f3', hp.dt, hq.dt]; simpa using hδ) (by rw [f1, f1']) z
    (.fresh hzc) false
  rw [hp.steps] at hnear
  exact ⟨mv', q, z, z₁, g1', g2', hzc, hz₁, hnear⟩

end Ptera
