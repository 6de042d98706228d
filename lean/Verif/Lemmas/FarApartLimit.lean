import Verif.Lemmas.FarApart

/-! Limits of the results of a steady solver when the airplanes are moved apart. -/

namespace Ptera

open Filter Topology

variable {ι : Type*} {F : Filter ι}

theorem Far.methodUnit {x : ι → V3} (h : Far x F) (method : SteadyMethod) (P : SteadyProblem) (r : PanelRef) :
    V3.Tends (fun n => methodUnit method P r (x n)) F 0 := by
  cases method with
  | horseshoe => exact h.unitVelocity _
  | ring =>
    have := (h.unitVelocity (ringLegs (ringSlot P.airplanes r (RingSolver.panelRing P.airplanes r)).backRight
      (ringSlot P.airplanes r (RingSolver.panelRing P.airplanes r)).frontRight
      (ringSlot P.airplanes r (RingSolver.panelRing P.airplanes r)).frontLeft
      (ringSlot P.airplanes r (RingSolver.panelRing P.airplanes r)).backLeft)).add
      (V3.Tends.smul (tendsto_const_nhds (x := ((RingSolver.create P).firstTrailing r).strength))
        (h.unitVelocity (horseshoeLegs ((RingSolver.create P).firstTrailing r).backRight
          ((RingSolver.create P).firstTrailing r).frontRight ((RingSolver.create P).firstTrailing r).frontLeft
          ((RingSolver.create P).firstTrailing r).backLeft)))
    rw [smul_zero, add_zero] at this
    exact this

/-- Sums over the panels of one airplane. -/
theorem sum_own {α : Type*} [AddCommMonoid α] {as : List Airplane} {a : Airplane} {i : ℕ} (ha : as[i]? = some a)
    (X : PanelRef → α) :
    ((panelRefs as).map fun r => if r.airplane = i then X r else 0).sum
      = ((panelRefs [a]).map fun r => X { r with airplane := i }).sum := by
  have e : ∀ l : List PanelRef, (l.map fun r => if r.airplane = i then X r else 0).sum
      = ((l.filter fun r => r.airplane = i).map X).sum := by
    intro l
    induction l with
    | nil => rfl
    | cons r l ih =>
      by_cases h : r.airplane = i
      · simp [h, ih]
      · simp [h, ih]
  rw [e, ((own_perm_alone ha).map X).sum_eq, List.map_map]
  rfl

theorem alone_zero {a : Airplane} {r : PanelRef} {p : Panel} (h : panelAt [a] r = some p) : r.airplane = 0 := by
  obtain ⟨A, w, hA, -⟩ := panelAt_cell h
  have := (List.getElem?_eq_some_iff.mp hA).1
  simpa using this

theorem alone_back {a : Airplane} {r : PanelRef} {p : Panel} (h : panelAt [a] r = some p) (i : ℕ) :
    ({ r with airplane := i } : PanelRef).alone = r := by
  have := alone_zero h
  cases r
  simp only at this
  subst this
  rfl

/-- The single airplanes have been solved. -/
def SolvedAlone (method : SteadyMethod) (op : OperatingPoint) (as : List Airplane) (S : ℕ → SteadyResults) : Prop :=
  ∀ i a, as[i]? = some a → a.Made ∧ ∃ heap loads, steadyRun method ⟨[a], op⟩ heap loads = .ok (S i)

namespace SolvedAlone

variable {method : SteadyMethod} {op : OperatingPoint} {as : List Airplane} {S : ℕ → SteadyResults}

/-- The strengths of the single airplanes, all together. -/
noncomputable def strengths (S : ℕ → SteadyResults) (r : PanelRef) : ℝ := ((S r.airplane).strength r.alone).getD 0

theorem values (h : SolvedAlone method op as S) {i : ℕ} {a : Airplane} (ha : as[i]? = some a) :
    linalgSolve ((panelRefs [a]).map fun r => (panelRefs [a]).map fun s => methodCoefficient method ⟨[a], op⟩ r s)
        ((panelRefs [a]).map (methodRhs ⟨[a], op⟩))
      = .ok ((panelRefs [a]).map fun r => strengths S { r with airplane := i }) ∧
    (∀ r p, panelAt [a] r = some p → (S i).strength r = some (strengths S { r with airplane := i })) ∧
    ∀ q, (S i).velocity q = ((panelRefs [a]).map fun r => strengths S { r with airplane := i } •
      methodUnit method ⟨[a], op⟩ r q).sum + op.freestreamVelocity := by
  obtain ⟨hm, heap, loads, hR⟩ := h i a ha
  obtain ⟨Γ, h1, h2, h3⟩ := steady_values (P := ⟨[a], op⟩) (by intro b hb; rw [List.mem_singleton] at hb; rwa [hb]) hR
  simp only at h1 h2 h3
  have e : ∀ r ∈ panelRefs [a], Γ r = strengths S { r with airplane := i } := by
    intro r hr
    obtain ⟨p, hp⟩ := (mem_panelRefs _ _).mp hr
    unfold strengths
    rw [alone_back hp, h2 r p hp]
    rfl
  rw [List.map_congr_left e] at h1
  refine ⟨h1, ?_, ?_⟩
  · intro r p hp
    rw [h2 r p hp, e r ((mem_panelRefs _ _).mpr ⟨p, hp⟩)]
  · intro q
    rw [h3]
    congr 2
    apply List.map_congr_left
    intro r hr
    rw [e r hr]

theorem coefficient_own (method : SteadyMethod) (op : OperatingPoint) {i : ℕ} {a : Airplane} (ha : as[i]? = some a)
    {r s : PanelRef} {p q : Panel} (hr : panelAt [a] r = some p) (hs : panelAt [a] s = some q) :
    methodCoefficient method ⟨as, op⟩ { r with airplane := i } { s with airplane := i }
      = methodCoefficient method ⟨[a], op⟩ r s := by
  have ha1 : as[({ r with airplane := i } : PanelRef).airplane]? = some a := ha
  have ha2 : as[({ s with airplane := i } : PanelRef).airplane]? = some a := ha
  simp only [methodCoefficient, geometryOf_alone ha1, methodUnit_alone method op ha2, alone_back hr, alone_back hs]

/-- The airplanes together, without influence on each other. -/
theorem block (h : SolvedAlone method op as S) :
    linalgSolve ((panelRefs as).map fun i => (panelRefs as).map fun j =>
        if j.airplane = i.airplane then methodCoefficient method ⟨as, op⟩ i j else 0)
      ((panelRefs as).map (methodRhs ⟨as, op⟩)) = .ok ((panelRefs as).map (strengths S)) := by
  have row : ∀ (i : ℕ) (a : Airplane), as[i]? = some a → ∀ (s : PanelRef) (p : Panel), panelAt [a] s = some p →
      ∀ Γ : PanelRef → ℝ, ((panelRefs as).map fun j => (if j.airplane = ({ s with airplane := i } : PanelRef).airplane
          then methodCoefficient method ⟨as, op⟩ { s with airplane := i } j else 0) * Γ j).sum
        = ((panelRefs [a]).map fun t => methodCoefficient method ⟨[a], op⟩ s t * Γ { t with airplane := i }).sum := by
    intro i a ha s p hs Γ
    have e := sum_own ha fun j => methodCoefficient method ⟨as, op⟩ { s with airplane := i } j * Γ j
    simp only [ite_mul, zero_mul]
    rw [e]
    congr 1
    apply List.map_congr_left
    intro t ht
    obtain ⟨q, hq⟩ := (mem_panelRefs _ _).mp ht
    rw [coefficient_own method op ha hs hq]
  have rhs : ∀ (i : ℕ) (a : Airplane), as[i]? = some a → ∀ (s : PanelRef) (p : Panel), panelAt [a] s = some p →
      methodRhs ⟨as, op⟩ { s with airplane := i } = methodRhs ⟨[a], op⟩ s := by
    intro i a ha s p hs
    have ha1 : as[({ s with airplane := i } : PanelRef).airplane]? = some a := ha
    simp only [methodRhs, geometryOf_alone ha1, alone_back hs]
  have split : ∀ r ∈ panelRefs as, ∃ a s p, as[r.airplane]? = some a ∧ panelAt [a] s = some p ∧
      r = { s with airplane := r.airplane } := by
    intro r hr
    obtain ⟨p, hp⟩ := (mem_panelRefs _ _).mp hr
    obtain ⟨a, w, ha, -⟩ := panelAt_cell hp
    rw [panelAt_alone ha] at hp
    exact ⟨a, r.alone, p, ha, hp, rfl⟩
  apply linalgSolve_of_unique
  · refine ⟨by simp, ?_⟩
    rw [matVec_values]
    apply List.map_congr_left
    intro r hr
    obtain ⟨a, s, p, ha, hs, e⟩ := split r hr
    have hsol := (linalgSolve_ok (h.values ha).1).2
    rw [matVec_values] at hsol
    have := map_inj_left hsol s ((mem_panelRefs _ _).mpr ⟨p, hs⟩)
    rw [e]
    rw [row _ a ha s p hs, rhs _ a ha s p hs, this]
  · intro y hy hm
    obtain ⟨Δ, rfl⟩ := exists_values (panelRefs_nodup as) (show y.length = (panelRefs as).length by simpa using hy)
    rw [matVec_values] at hm
    have hm' := map_inj_left hm
    apply List.map_congr_left
    intro r hr
    obtain ⟨a, s, p, ha, hs, e⟩ := split r hr
    have hu : ((panelRefs [a]).map fun t => Δ { t with airplane := r.airplane })
        = (panelRefs [a]).map fun t => strengths S { t with airplane := r.airplane } := by
      apply linalgSolve_unique (h.values ha).1
      refine ⟨by simp, ?_⟩
      rw [matVec_values]
      apply List.map_congr_left
      intro t ht
      obtain ⟨q, hq⟩ := (mem_panelRefs _ _).mp ht
      have hmem : ({ t with airplane := r.airplane } : PanelRef) ∈ panelRefs as := by
        refine (mem_panelRefs _ _).mpr ⟨q, ?_⟩
        have ha1 : as[({ t with airplane := r.airplane } : PanelRef).airplane]? = some a := ha
        rw [panelAt_alone ha1, alone_back hq]
        exact hq
      have := hm' _ hmem
      rw [row _ a ha t q hq, rhs _ a ha t q hq] at this
      exact this
    have := map_inj_left hu s ((mem_panelRefs _ _).mpr ⟨p, hs⟩)
    rw [e]
    exact this

end SolvedAlone

/-! ## Loads of a run -/

/-- Force, moment, and these in wind axes, of a panel; zero where nothing has been computed. -/
noncomputable def SteadyResults.forceOf (R : SteadyResults) (r : PanelRef) : V3 := ((R.loads r).map (·.forceWind)).getD 0
noncomputable def SteadyResults.momentOf (R : SteadyResults) (r : PanelRef) : V3 := ((R.loads r).map (·.momentWind)).getD 0

theorem steady_loads_wind {method : SteadyMethod} {P : SteadyProblem} (hm : ∀ a ∈ P.airplanes, a.Made)
    {heap : PanelHeap} {loads : List AirplaneLoads} {R : SteadyResults} (h : steadyRun method P heap loads = .ok R)
    {r : PanelRef} {p : Panel} {A : Airplane} (hp : panelAt P.airplanes r = some p)
    (hA : P.airplanes[r.airplane]? = some A) :
    let fm := panelForceMoment method P.airplanes P.operatingPoint.density A.xyzRef R.velocity (R.strengthIn P.airplanes) r
    (∃ L, R.loads r = some L) ∧
    R.forceOf r = P.operatingPoint.rotationWindToGeometry.transpose.mulVec fm.1 ∧
    R.momentOf r = P.operatingPoint.rotationWindToGeometry.transpose.mulVec fm.2 := by
  obtain ⟨L, h1, h2⟩ := steady_loads hm h hp hA
  obtain ⟨-, Q, -, hQ, -⟩ := steadyRun_totals method P hm heap loads R h _ A hA
  obtain ⟨q1, q2, q3⟩ := hQ r (List.mem_filter.mpr ⟨(mem_panelRefs _ _).mpr ⟨p, hp⟩, by simp⟩)
  rw [h1, Option.some.injEq] at q1
  subst q1
  refine ⟨⟨_, h1⟩, ?_, ?_⟩
  · simp only [SteadyResults.forceOf, h1, Option.map_some, Option.getD_some, q2, ← h2]
  · simp only [SteadyResults.momentOf, h1, Option.map_some, Option.getD_some, q3, ← h2]

theorem steady_totals_own {method : SteadyMethod} {P : SteadyProblem} (hm : ∀ a ∈ P.airplanes, a.Made)
    {heap : PanelHeap} {loads : List AirplaneLoads} {R : SteadyResults} (h : steadyRun method P heap loads = .ok R)
    {i : ℕ} {A : Airplane} (hA : P.airplanes[i]? = some A) :
    ∃ T, R.totals[i]? = some T ∧ T.forceWind = (((panelRefs P.airplanes).filter fun r => r.airplane = i).map R.forceOf).sum ∧
      T.momentWind = (((panelRefs P.airplanes).filter fun r => r.airplane = i).map R.momentOf).sum ∧
      IsCoefficients P.operatingPoint A T := by
  obtain ⟨T, Q, h1, hQ, h2, h3, h4⟩ := steadyRun_totals method P hm heap loads R h _ A hA
  refine ⟨T, h1, ?_, ?_, h4⟩
  · rw [h2]
    congr 1
    apply List.map_congr_left
    intro r hr
    simp [SteadyResults.forceOf, (hQ r hr).1]
  · rw [h3]
    congr 1
    apply List.map_congr_left
    intro r hr
    simp [SteadyResults.momentOf, (hQ r hr).1]

theorem sideForce_tends {ρ : ℝ} {k : ι → ℝ} {k₀ : ℝ} {v : ι → V3 → V3} {v₀ : V3 → V3} (hk : Tendsto k F (𝓝 k₀))
    (hv : ∀ q, V3.Tends (fun n => v n q) F (v₀ q)) (a b : V3) :
    V3.Tends (fun n => sideForce ρ (k n) (v n) a b) F (sideForce ρ k₀ v₀ a b) :=
  V3.Tends.smul (hk.const_mul ρ) ((hv _).cross (V3.Tends.const _))

theorem panelForceMoment_tends (method : SteadyMethod) (as : List Airplane) (ρ : ℝ) (ref : V3) {v : ι → V3 → V3}
    {v₀ : V3 → V3} {g : ι → PanelRef → ℝ} {g₀ : PanelRef → ℝ} (hv : ∀ q, V3.Tends (fun n => v n q) F (v₀ q))
    (hg : ∀ r, Tendsto (fun n => g n r) F (𝓝 (g₀ r))) (r : PanelRef) :
    V3.Tends (fun n => (panelForceMoment method as ρ ref (v n) (g n) r).1) F (panelForceMoment method as ρ ref v₀ g₀ r).1 ∧
    V3.Tends (fun n => (panelForceMoment method as ρ ref (v n) (g n) r).2) F (panelForceMoment method as ρ ref v₀ g₀ r).2 := by
  cases method with
  | horseshoe =>
    have hf := sideForce_tends (ρ := ρ) (hg r) hv (geometryOf as r).frontRightVortexVertex
      (geometryOf as r).frontLeftVortexVertex
    exact ⟨hf, (V3.Tends.const _).cross hf⟩
  | ring =>
    have h1 : Tendsto (fun n => g n r - (if r.row = 0 then 0 else g n { r with row := r.row - 1 })) F
        (𝓝 (g₀ r - (if r.row = 0 then 0 else g₀ { r with row := r.row - 1 }))) := by
      by_cases h : r.row = 0
      · simp only [h, if_true]
        exact (hg r).sub tendsto_const_nhds
      · simp only [h, if_false]
        exact (hg r).sub (hg _)
    have h2 : Tendsto (fun n => g n r - (if r.col = 0 then 0 else g n { r with col := r.col - 1 })) F
        (𝓝 (g₀ r - (if r.col = 0 then 0 else g₀ { r with col := r.col - 1 }))) := by
      by_cases h : r.col = 0
      · simp only [h, if_true]
        exact (hg r).sub tendsto_const_nhds
      · simp only [h, if_false]
        exact (hg r).sub (hg _)
    have h3 : Tendsto (fun n => g n r - g n { r with col := r.col + 1 }) F
        (𝓝 (g₀ r - g₀ { r with col := r.col + 1 })) := (hg r).sub (hg _)
    have f1 := fun a b => sideForce_tends (ρ := ρ) h1 hv a b
    have f2 := fun a b => sideForce_tends (ρ := ρ) h2 hv a b
    have f3 := fun a b => sideForce_tends (ρ := ρ) h3 hv a b
    exact ⟨((f1 _ _).add (f2 _ _)).add (f3 _ _), (((V3.Tends.const _).cross (f1 _ _)).add
      ((V3.Tends.const _).cross (f2 _ _))).add ((V3.Tends.const _).cross (f3 _ _))⟩

namespace SolvedAlone

variable {method : SteadyMethod} {op : OperatingPoint} {as : List Airplane} {S : ℕ → SteadyResults}

theorem coefficient_tends (method : SteadyMethod) (op : OperatingPoint) {d : ι → ℕ → V3}
    (hd : ∀ i j, i < as.length → j < as.length → i ≠ j → Far (fun n => d n i - d n j) F) {i j : PanelRef}
    (hi : i.airplane < as.length) (hj : j.airplane < as.length) :
    Tendsto (fun n => MovedSeparately.coefficient method op as (d n) i j) F
      (𝓝 (if j.airplane = i.airplane then methodCoefficient method ⟨as, op⟩ i j else 0)) := by
  by_cases h : j.airplane = i.airplane
  · rw [if_pos h]
    refine tendsto_const_nhds.congr fun n => ?_
    simp only [MovedSeparately.coefficient, methodCoefficient, h, sub_self, add_zero]
  · rw [if_neg h]
    have := ((((hd _ _ hi hj (Ne.symm h)).shift (geometryOf as i).collocationPoint).methodUnit method ⟨as, op⟩ j).dot
      (V3.Tends.const (geometryOf as i).unitNormal))
    rw [V3.zero_dot] at this
    exact this

theorem velocity_tends (h : SolvedAlone method op as S) {d : ι → ℕ → V3}
    (hd : ∀ i j, i < as.length → j < as.length → i ≠ j → Far (fun n => d n i - d n j) F) {Γ : ι → PanelRef → ℝ}
    (hΓ : ∀ r ∈ panelRefs as, Tendsto (fun n => Γ n r) F (𝓝 (strengths S r))) {i : ℕ} {a : Airplane}
    (ha : as[i]? = some a) (q : V3) :
    V3.Tends (fun n => ((panelRefs as).map fun r => Γ n r •
      methodUnit method ⟨as, op⟩ r (q + (d n i - d n r.airplane))).sum + op.freestreamVelocity) F ((S i).velocity q) := by
  rw [(h.values ha).2.2 q]
  refine V3.Tends.add ?_ (V3.Tends.const _)
  have e : ((panelRefs [a]).map fun r => strengths S { r with airplane := i } • methodUnit method ⟨[a], op⟩ r q).sum
      = ((panelRefs as).map fun r => if r.airplane = i then strengths S r • methodUnit method ⟨as, op⟩ r q else 0).sum := by
    rw [sum_own ha]
    congr 1
    apply List.map_congr_left
    intro r hr
    obtain ⟨p, hp⟩ := (mem_panelRefs _ _).mp hr
    have ha1 : as[({ r with airplane := i } : PanelRef).airplane]? = some a := ha
    rw [methodUnit_alone method op ha1, alone_back hp]
  rw [e]
  refine V3.Tends.listSum _ fun r hr => ?_
  by_cases hi : r.airplane = i
  · rw [if_pos hi]
    refine V3.Tends.smul (hΓ r hr) ?_
    simp only [hi, sub_self, add_zero]
    exact V3.Tends.const _
  · rw [if_neg hi]
    obtain ⟨p, hp⟩ := (mem_panelRefs _ _).mp hr
    obtain ⟨b, w, hb, -⟩ := panelAt_cell hp
    have := V3.Tends.smul (hΓ r hr) (((hd i r.airplane (List.getElem?_eq_some_iff.mp ha).1
      (List.getElem?_eq_some_iff.mp hb).1 (Ne.symm hi)).shift q).methodUnit method ⟨as, op⟩ r)
    rw [smul_zero] at this
    exact this

/-- The results of the airplanes together tend to the results of the airplanes alone. -/
theorem limits [F.NeBot] (h : SolvedAlone method op as S) {d : ι → ℕ → V3} {as' : ι → List Airplane}
    (hm : ∀ n, MovedSeparately (d n) as (as' n))
    (hd : ∀ i j, i < as.length → j < as.length → i ≠ j → Far (fun n => d n i - d n j) F)
    (heap : ι → PanelHeap) (loads : ι → List AirplaneLoads) :
    ∃ R : ι → SteadyResults, (∀ᶠ n in F, steadyRun method ⟨as' n, op⟩ (heap n) (loads n) = .ok (R n)) ∧
      (∀ r p, panelAt as r = some p → ∃ g : ι → ℝ, (∀ᶠ n in F, (R n).strength r = some (g n)) ∧
        Tendsto g F (𝓝 (strengths S r))) ∧
      (∀ i a, as[i]? = some a → ∀ q, V3.Tends (fun n => (R n).velocity (q + d n i)) F ((S i).velocity q)) ∧
      (∀ r p, panelAt as r = some p → V3.Tends (fun n => (R n).forceOf r) F ((S r.airplane).forceOf r.alone) ∧
        V3.Tends (fun n => (R n).momentOf r) F ((S r.airplane).momentOf r.alone)) := by
  have hmem : ∀ r ∈ panelRefs as, r.airplane < as.length := by
    intro r hr
    obtain ⟨p, hp⟩ := (mem_panelRefs _ _).mp hr
    obtain ⟨b, w, hb, -⟩ := panelAt_cell hp
    exact (List.getElem?_eq_some_iff.mp hb).1
  have hA : ∀ i ∈ panelRefs as, ∀ j ∈ panelRefs as, Tendsto (fun n => MovedSeparately.coefficient method op as (d n) i j) F
      (𝓝 (if j.airplane = i.airplane then methodCoefficient method ⟨as, op⟩ i j else 0)) := fun i hi j hj =>
    coefficient_tends method op hd (hmem i hi) (hmem j hj)
  have hnear := solve_near (panelRefs_nodup as) hA h.block (methodRhs ⟨as, op⟩)
  obtain ⟨Γ, hΓ⟩ := hnear.choice
  have hR : ∀ᶠ n in F, ∃ R, steadyRun method ⟨as' n, op⟩ (heap n) (loads n) = .ok R ∧
      (∀ r p, panelAt as r = some p → R.strength r = some (Γ n r)) ∧
      ∀ (i : ℕ) q, R.velocity (q + d n i) = ((panelRefs as).map fun r => Γ n r •
          methodUnit method ⟨as, op⟩ r (q + (d n i - d n r.airplane))).sum + op.freestreamVelocity := by
    filter_upwards [hΓ] with n hn
    exact (hm n).solve method op hn (heap n) (loads n)
  have : Nonempty SteadyResults := ⟨⟨fun _ => 0, fun _ => none, fun _ => none, []⟩⟩
  obtain ⟨R, hR⟩ := hR.choice
  have hΓt := solve_tendsto hA h.block hΓ
  have hvel : ∀ i a, as[i]? = some a → ∀ q, V3.Tends (fun n => (R n).velocity (q + d n i)) F ((S i).velocity q) := by
    intro i a ha q
    refine (h.velocity_tends hd hΓt ha q).congr' ?_
    filter_upwards [hR] with n hn
    exact (hn.2.2 i q).symm
  refine ⟨R, hR.mono fun n hn => hn.1, ?_, hvel, ?_⟩
  · intro r p hp
    exact ⟨fun n => Γ n r, hR.mono fun n hn => hn.2.1 r p hp, hΓt r ((mem_panelRefs _ _).mpr ⟨p, hp⟩)⟩
  · intro r p hp
    obtain ⟨a, w, ha, -⟩ := panelAt_cell hp
    obtain ⟨hmade, heap₁, loads₁, hS⟩ := h _ a ha
    have hmade1 : ∀ b ∈ [a], b.Made := by intro b hb; rw [List.mem_singleton] at hb; rwa [hb]
    have hp1 : panelAt [a] r.alone = some p := by rw [← panelAt_alone ha]; exact hp
    obtain ⟨-, s1, s2⟩ := steady_loads_wind (P := ⟨[a], op⟩) hmade1 hS (A := a) hp1 rfl
    simp only at s1 s2
    -- the strengths the user reads, everywhere on this airplane
    have hg : ∀ s : PanelRef, Tendsto (fun n => (R n).strengthIn (as' n) { s with airplane := r.airplane }) F
        (𝓝 ((S r.airplane).strengthIn [a] { s with airplane := 0 })) := by
      intro s
      have ha1 : as[({ s with airplane := r.airplane } : PanelRef).airplane]? = some a := ha
      have hal : ({ s with airplane := r.airplane } : PanelRef).alone = { s with airplane := 0 } := rfl
      cases hs : panelAt as { s with airplane := r.airplane } with
      | none =>
        have hs1 : panelAt [a] { s with airplane := 0 } = none := by rw [← hal, ← panelAt_alone ha1]; exact hs
        have e : (S r.airplane).strengthIn [a] { s with airplane := 0 } = 0 := by
          unfold SteadyResults.strengthIn
          rw [if_neg (by rw [hs1]; simp)]
        rw [e]
        refine tendsto_const_nhds.congr fun n => ?_
        unfold SteadyResults.strengthIn
        rw [if_neg]
        rintro ⟨q, hq⟩
        obtain ⟨q', hq'⟩ := (hm n).panel' hq
        rw [hs] at hq'
        cases hq'
      | some q =>
        have hs1 : panelAt [a] { s with airplane := 0 } = some q := by rw [← hal, ← panelAt_alone ha1]; exact hs
        have e : (S r.airplane).strengthIn [a] { s with airplane := 0 } = strengths S { s with airplane := r.airplane } := by
          unfold SteadyResults.strengthIn
          rw [if_pos ⟨q, hs1⟩]
          rfl
        rw [e]
        refine (hΓt _ ((mem_panelRefs _ _).mpr ⟨q, hs⟩)).congr' ?_
        filter_upwards [hR] with n hn
        unfold SteadyResults.strengthIn
        obtain ⟨q', hq', -⟩ := (hm n).panel hs
        rw [if_pos ⟨q', hq'⟩, hn.2.1 _ q hs]
        rfl
    have hlim := panelForceMoment_tends (F := F) method [a] op.density a.xyzRef
      (v := fun n q => (R n).velocity (q + d n r.airplane)) (v₀ := (S r.airplane).velocity)
      (g := fun n s => (R n).strengthIn (as' n) { s with airplane := r.airplane })
      (g₀ := fun s => (S r.airplane).strengthIn [a] { s with airplane := 0 }) (hvel _ a ha) hg r.alone
    have hz : panelForceMoment method [a] op.density a.xyzRef (S r.airplane).velocity
        (fun s => (S r.airplane).strengthIn [a] { s with airplane := 0 }) r.alone
        = panelForceMoment method [a] op.density a.xyzRef (S r.airplane).velocity ((S r.airplane).strengthIn [a]) r.alone := by
      rw [panelForceMoment_alone (as := [a]) (a := a) (r := r.alone) method rfl op.density a.xyzRef
        (S r.airplane).velocity ((S r.airplane).strengthIn [a])]
      rfl
    rw [hz] at hlim
    have hloads : ∀ᶠ n in F,
        (R n).forceOf r = op.rotationWindToGeometry.transpose.mulVec (panelForceMoment method [a] op.density a.xyzRef
          (fun q => (R n).velocity (q + d n r.airplane))
          (fun s => (R n).strengthIn (as' n) { s with airplane := r.airplane }) r.alone).1 ∧
        (R n).momentOf r = op.rotationWindToGeometry.transpose.mulVec (panelForceMoment method [a] op.density a.xyzRef
          (fun q => (R n).velocity (q + d n r.airplane))
          (fun s => (R n).strengthIn (as' n) { s with airplane := r.airplane }) r.alone).2 := by
      filter_upwards [hR] with n hn
      obtain ⟨a', ha', hmv⟩ := (hm n).at_ ha
      obtain ⟨p', hp', -⟩ := (hm n).panel hp
      obtain ⟨-, t1, t2⟩ := steady_loads_wind (P := ⟨as' n, op⟩) (hm n).made.2 hn.1 hp' ha'
      simp only at t1 t2
      have href : a'.xyzRef = a.xyzRef + d n r.airplane := by
        have := (C64_geometry one_isRot a a' hmv).2.2.2.2.2.1
        rwa [M3.one_mulVec] at this
      rw [href, (hm n).force method hp, panelForceMoment_alone method ha] at t1 t2
      exact ⟨t1, t2⟩
    rw [s1, s2]
    exact ⟨(hlim.1.mulVec _).congr' (hloads.mono fun n hn => hn.1.symm),
      (hlim.2.mulVec _).congr' (hloads.mono fun n hn => hn.2.symm)⟩

end SolvedAlone

end Ptera
