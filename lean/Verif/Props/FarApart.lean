import Verif.Spec.FarApart
import Verif.Lemmas.FarApartLimit
import Verif.Props.Scaling
import Verif.Props.Attitude

/-!
# C95: airplanes far apart do not influence each other
-/

namespace Ptera

open Filter Topology

/-- Steps `n` at which the airplanes are at least `n` apart take them infinitely far apart. -/
theorem far_of_apart {d : ℕ → ℕ → V3} {m : ℕ} (h : ∀ n : ℕ, Apart n (d n) m) :
    ∀ i j, i < m → j < m → i ≠ j → Far (fun n => d n i - d n j) atTop := fun i j hi hj hij =>
  tendsto_atTop_mono (fun n => h n i j hi hj hij) tendsto_natCast_atTop_atTop

theorem eventually_panels {as : List Airplane} {P : ℕ → PanelRef → Prop}
    (h : ∀ r p, panelAt as r = some p → ∀ᶠ n in atTop, P n r) :
    ∀ᶠ n in atTop, ∀ r p, panelAt as r = some p → P n r := by
  have := (Filter.eventually_all_finite (l := atTop) (List.finite_toSet (panelRefs as)) (p := fun r n => P n r)).mpr
    (by
      intro r hr
      obtain ⟨p, hp⟩ := (mem_panelRefs as r).mp hr
      exact h r p hp)
  filter_upwards [this] with n hn r p hp
  exact hn r ((mem_panelRefs as r).mpr ⟨p, hp⟩)

theorem eventually_airplanes {as : List Airplane} {P : ℕ → ℕ → Prop}
    (h : ∀ i a, as[i]? = some a → ∀ᶠ n in atTop, P n i) : ∀ᶠ n in atTop, ∀ i a, as[i]? = some a → P n i := by
  have := (Filter.eventually_all_finite (l := atTop) (Set.finite_lt_nat as.length) (p := fun i n => P n i)).mpr
    (fun i hi => h i as[i] (List.getElem?_eq_getElem hi))
  filter_upwards [this] with n hn i a ha
  exact hn i (List.getElem?_eq_some_iff.mp ha).1

/-- C95: let every airplane be solvable alone. Then, for every tolerance, the airplanes can be solved together as soon as
they have been moved far enough apart, in whatever directions, and every panel's strength, force and moment, and every
airplane's total force, moment and coefficients are those of the airplane alone, up to the tolerance. -/
theorem C95_far_apart (method : SteadyMethod) (op : OperatingPoint) (as : List Airplane) (hmade : ∀ a ∈ as, a.Made)
    (heaps : ℕ → PanelHeap) (loadss : ℕ → List AirplaneLoads) (S : ℕ → SteadyResults)
    (hS : ∀ i a, as[i]? = some a → steadyRun method ⟨[a], op⟩ (heaps i) (loadss i) = .ok (S i)) (ε : ℝ) (hε : 0 < ε) :
    ∃ D : ℝ, ∀ d as', MovedSeparately d as as' → Apart D d as.length → ∀ heap loads,
      ∃ R, steadyRun method ⟨as', op⟩ heap loads = .ok R ∧
        (∀ r p, panelAt as r = some p → ∃ (g g₀ : ℝ) (L L₀ : PanelLoads), R.strength r = some g ∧
          (S r.airplane).strength r.alone = some g₀ ∧ R.loads r = some L ∧ (S r.airplane).loads r.alone = some L₀ ∧
          |g - g₀| < ε ∧ (L.forceWind - L₀.forceWind).norm < ε ∧ (L.momentWind - L₀.momentWind).norm < ε) ∧
        (∀ i a, as[i]? = some a → ∃ T T₀ : AirplaneLoads, R.totals[i]? = some T ∧ (S i).totals[0]? = some T₀ ∧
          (T.forceWind - T₀.forceWind).norm < ε ∧ (T.momentWind - T₀.momentWind).norm < ε ∧
          (T.forceCoefficients - T₀.forceCoefficients).norm < ε ∧
          (T.momentCoefficients - T₀.momentCoefficients).norm < ε) := by
  have hA : SolvedAlone method op as S := fun i a ha =>
    ⟨hmade a (List.mem_of_getElem? ha), heaps i, loadss i, hS i a ha⟩
  by_contra hcon
  push Not at hcon
  choose d as' hm hap heap loads hbad using fun n : ℕ => hcon n
  obtain ⟨R, hR, hg, -, hf⟩ := hA.limits (F := atTop) hm (far_of_apart hap) heap loads
  -- the panels
  have hpanels : ∀ᶠ n in atTop, ∀ r p, panelAt as r = some p → ∃ (g g₀ : ℝ) (L L₀ : PanelLoads),
      (R n).strength r = some g ∧ (S r.airplane).strength r.alone = some g₀ ∧ (R n).loads r = some L ∧
      (S r.airplane).loads r.alone = some L₀ ∧
      |g - g₀| < ε ∧ (L.forceWind - L₀.forceWind).norm < ε ∧ (L.momentWind - L₀.momentWind).norm < ε := by
    apply eventually_panels
    intro r p hp
    obtain ⟨a, w, ha, -⟩ := panelAt_cell hp
    have hp1 : panelAt [a] r.alone = some p := by rw [← panelAt_alone ha]; exact hp
    have hmade1 : ∀ b ∈ [a], b.Made := by
      intro b hb; rw [List.mem_singleton] at hb; rw [hb]; exact hmade a (List.mem_of_getElem? ha)
    obtain ⟨⟨L₀, hL₀⟩, -⟩ := steady_loads_wind (P := ⟨[a], op⟩) hmade1 (hS _ a ha) (A := a) hp1 rfl
    have hs₀ : (S r.airplane).strength r.alone = some (SolvedAlone.strengths S r) := (hA.values ha).2.1 r.alone p hp1
    obtain ⟨g, hg1, hg2⟩ := hg r p hp
    obtain ⟨hf1, hf2⟩ := hf r p hp
    filter_upwards [hR, hg1, Metric.tendsto_nhds.mp hg2 ε hε, hf1.close hε, hf2.close hε] with n e1 e2 e3 e4 e5
    obtain ⟨a', ha', -⟩ := (hm n).at_ ha
    obtain ⟨p', hp', -⟩ := (hm n).panel hp
    obtain ⟨⟨L, hL⟩, -⟩ := steady_loads_wind (P := ⟨as' n, op⟩) (hm n).made.2 e1 hp' ha'
    simp only [SteadyResults.forceOf, SteadyResults.momentOf, hL, hL₀, Option.map_some, Option.getD_some] at e4 e5
    exact ⟨g n, _, L, L₀, e2, hs₀, hL, hL₀, by rwa [Real.dist_eq] at e3, e4, e5⟩
  -- the airplanes
  have htotals : ∀ᶠ n in atTop, ∀ i a, as[i]? = some a → ∃ T T₀ : AirplaneLoads, (R n).totals[i]? = some T ∧
      (S i).totals[0]? = some T₀ ∧
      (T.forceWind - T₀.forceWind).norm < ε ∧ (T.momentWind - T₀.momentWind).norm < ε ∧
      (T.forceCoefficients - T₀.forceCoefficients).norm < ε ∧
      (T.momentCoefficients - T₀.momentCoefficients).norm < ε := by
    apply eventually_airplanes
    intro i a ha
    have hmade1 : ∀ b ∈ [a], b.Made := by
      intro b hb; rw [List.mem_singleton] at hb; rw [hb]; exact hmade a (List.mem_of_getElem? ha)
    obtain ⟨T₀, t1, t2, t3, t4⟩ := steady_totals_own (P := ⟨[a], op⟩) hmade1 (hS i a ha) (i := 0) (A := a) rfl
    simp only at t2 t3 t4
    have hown : ∀ X Y : PanelRef → V3, (∀ r ∈ panelRefs [a], X r = Y { r with airplane := i }) →
        (((panelRefs [a]).filter fun r => r.airplane = 0).map X).sum
          = (((panelRefs as).filter fun r => r.airplane = i).map Y).sum := by
      intro X Y hXY
      rw [((own_perm_alone ha).map Y).sum_eq, List.map_map]
      have hall : ((panelRefs [a]).filter fun r => r.airplane = 0) = panelRefs [a] := by
        rw [List.filter_eq_self]
        intro r hr
        obtain ⟨p, hp⟩ := (mem_panelRefs _ _).mp hr
        simpa using alone_zero hp
      rw [hall]
      congr 1
      exact List.map_congr_left hXY
    rw [hown _ (fun r => (S r.airplane).forceOf r.alone) (by
      intro r hr
      obtain ⟨p, hp⟩ := (mem_panelRefs _ _).mp hr
      rw [alone_back hp])] at t2
    rw [hown _ (fun r => (S r.airplane).momentOf r.alone) (by
      intro r hr
      obtain ⟨p, hp⟩ := (mem_panelRefs _ _).mp hr
      rw [alone_back hp])] at t3
    have mem : ∀ r ∈ (panelRefs as).filter fun r => r.airplane = i, ∃ p, panelAt as r = some p := fun r hr =>
      (mem_panelRefs _ _).mp (List.mem_filter.mp hr).1
    have hF := V3.Tends.listSum (F := atTop) ((panelRefs as).filter fun r => r.airplane = i)
      (f := fun r n => (R n).forceOf r) (v := fun r => (S r.airplane).forceOf r.alone)
      (fun r hr => by obtain ⟨p, hp⟩ := mem r hr; exact (hf r p hp).1)
    have hM := V3.Tends.listSum (F := atTop) ((panelRefs as).filter fun r => r.airplane = i)
      (f := fun r n => (R n).momentOf r) (v := fun r => (S r.airplane).momentOf r.alone)
      (fun r hr => by obtain ⟨p, hp⟩ := mem r hr; exact (hf r p hp).2)
    rw [← t2] at hF
    rw [← t3] at hM
    set q := 0.5 * op.density * op.velocity ^ 2 with hq
    have hCF : V3.Tends (fun n => (⟨-(((panelRefs as).filter fun r => r.airplane = i).map (R n).forceOf).sum.x / (q * a.sRef),
        (((panelRefs as).filter fun r => r.airplane = i).map (R n).forceOf).sum.y / (q * a.sRef),
        -(((panelRefs as).filter fun r => r.airplane = i).map (R n).forceOf).sum.z / (q * a.sRef)⟩ : V3)) atTop
        T₀.forceCoefficients := by
      rw [t4.1]
      exact ⟨hF.1.neg.div_const _, hF.2.1.div_const _, hF.2.2.neg.div_const _⟩
    have hCM : V3.Tends (fun n => (⟨(((panelRefs as).filter fun r => r.airplane = i).map (R n).momentOf).sum.x
          / (q * a.sRef * a.bRef),
        (((panelRefs as).filter fun r => r.airplane = i).map (R n).momentOf).sum.y / (q * a.sRef * a.cRef),
        (((panelRefs as).filter fun r => r.airplane = i).map (R n).momentOf).sum.z / (q * a.sRef * a.bRef)⟩ : V3)) atTop
        T₀.momentCoefficients := by
      rw [t4.2]
      exact ⟨hM.1.div_const _, hM.2.1.div_const _, hM.2.2.div_const _⟩
    filter_upwards [hR, hF.close hε, hM.close hε, hCF.close hε, hCM.close hε] with n e1 e2 e3 e4 e5
    obtain ⟨a', ha', hmv⟩ := (hm n).at_ ha
    obtain ⟨g1, g2, g3, -⟩ := C64_geometry one_isRot a a' hmv
    obtain ⟨T, k1, k2, k3, k4⟩ := steady_totals_own (P := ⟨as' n, op⟩) (hm n).made.2 e1 ha'
    simp only at k2 k3 k4
    have hp : ((panelRefs (as' n)).filter fun r => r.airplane = i).Perm ((panelRefs as).filter fun r => r.airplane = i) := by
      have := (hm n).refs
      rw [List.map_id] at this
      exact this.filter _
    rw [(hp.map _).sum_eq] at k2 k3
    refine ⟨T, T₀, k1, t1, by rw [k2]; exact e2, by rw [k3]; exact e3, ?_, ?_⟩
    · rw [k4.1, k2, g1]; exact e4
    · rw [k4.2, k3, g1, g2, g3]; exact e5
  obtain ⟨n, h1, h2, h3⟩ := (hR.and (hpanels.and htotals)).exists
  obtain ⟨i, a, ha, hno⟩ := hbad n (R n) h1 h2
  obtain ⟨T, T₀, e1, e2, e3, e4, e5, e6⟩ := h3 i a ha
  exact absurd e6 (not_lt.mpr (hno T T₀ e1 e2 e3 e4 e5))

/-- C95: the same of the velocity at a point that keeps its place relative to one of the airplanes. -/
theorem C95_velocity (method : SteadyMethod) (op : OperatingPoint) (as : List Airplane) (hmade : ∀ a ∈ as, a.Made)
    (heaps : ℕ → PanelHeap) (loadss : ℕ → List AirplaneLoads) (S : ℕ → SteadyResults)
    (hS : ∀ i a, as[i]? = some a → steadyRun method ⟨[a], op⟩ (heaps i) (loadss i) = .ok (S i)) (i : ℕ)
    (hi : i < as.length) (q : V3) (ε : ℝ) (hε : 0 < ε) :
    ∃ D : ℝ, ∀ d as', MovedSeparately d as as' → Apart D d as.length → ∀ heap loads,
      ∃ R, steadyRun method ⟨as', op⟩ heap loads = .ok R ∧ (R.velocity (q + d i) - (S i).velocity q).norm < ε := by
  have hA : SolvedAlone method op as S := fun i a ha =>
    ⟨hmade a (List.mem_of_getElem? ha), heaps i, loadss i, hS i a ha⟩
  by_contra hcon
  push Not at hcon
  choose d as' hm hap heap loads hbad using fun n : ℕ => hcon n
  obtain ⟨R, hR, -, hv, -⟩ := hA.limits (F := atTop) hm (far_of_apart hap) heap loads
  obtain ⟨n, h1, h2⟩ := (hR.and ((hv i as[i] (List.getElem?_eq_getElem hi) q).close hε)).exists
  exact absurd h2 (not_lt.mpr (hbad n (R n) h1))

/-- C95: airplanes can be moved apart as far as one likes. -/
theorem C95_can_be_moved (as : List Airplane) (hmade : ∀ a ∈ as, a.Made) (D : ℝ) :
    ∃ d as', MovedSeparately d as as' ∧ Apart D d as.length := by
  have hex : ∀ i : Fin as.length, ∃ a', Airplane.Moved M3.one ⟨(i : ℝ) * |D|, 0, 0⟩ as[i] a' := fun i =>
    C64_can_be_built one_isRot _ _ (hmade _ (List.getElem_mem i.2))
  choose f hf using hex
  refine ⟨fun i => ⟨(i : ℝ) * |D|, 0, 0⟩, List.ofFn f, ⟨by simp, ?_⟩, ?_⟩
  · intro i a a' ha ha'
    obtain ⟨hi, rfl⟩ := List.getElem?_eq_some_iff.mp ha
    obtain ⟨hi', rfl⟩ := List.getElem?_eq_some_iff.mp ha'
    rw [List.getElem_ofFn]
    exact hf ⟨i, hi⟩
  · intro i j _ _ hij
    refine le_trans ?_ (V3.abs_x_le _)
    simp only [V3.sub_x]
    rw [← sub_mul, abs_mul, abs_abs]
    have h1 : (1 : ℝ) ≤ |(i : ℝ) - (j : ℝ)| := by
      have : (1 : ℤ) ≤ |(i : ℤ) - (j : ℤ)| := Int.one_le_abs (by omega)
      exact_mod_cast this
    nlinarith [le_abs_self D, abs_nonneg D]

/-- Two copies of a plate that is solved alone: moved far enough apart they are solved together, and the second one's
strength is that of the plate alone up to a thousandth. -/
example (method : SteadyMethod) : ∃ (a : Airplane) (R₀ : SteadyResults),
    steadyRun method ⟨[a], { velocity := 10, density := 1, alpha := 90, beta := 0 }⟩ = .ok R₀ ∧
    ∃ (d : ℕ → V3) (as' : List Airplane) (R : SteadyResults), MovedSeparately d [a, a] as' ∧
      steadyRun method ⟨as', { velocity := 10, density := 1, alpha := 90, beta := 0 }⟩ = .ok R ∧
      ∃ g g₀ : ℝ, R.strength ⟨1, 0, 0, 0⟩ = some g ∧ R₀.strength ⟨0, 0, 0, 0⟩ = some g₀ ∧ |g - g₀| < 1 / 1000 := by
  obtain ⟨a, hmade, hrefs, -, -, R₀, hR₀⟩ := plate_steadyRun method 10 1 .fresh []
  have hm : ∀ b ∈ [a, a], b.Made := by intro b hb; simp at hb; rwa [hb]
  have hS : ∀ (i : ℕ) (b : Airplane), [a, a][i]? = some b →
      steadyRun method ⟨[b], { velocity := 10, density := 1, alpha := 90, beta := 0 }⟩ .fresh [] = .ok R₀ := by
    intro i b hb
    have := List.mem_of_getElem? hb
    simp at this
    rw [this]
    exact hR₀
  obtain ⟨D, hD⟩ := C95_far_apart method _ [a, a] hm (fun _ => .fresh) (fun _ => []) (fun _ => R₀) hS (1 / 1000) (by norm_num)
  obtain ⟨d, as', h1, h2⟩ := C95_can_be_moved [a, a] hm D
  obtain ⟨R, hR, hp, -⟩ := hD d as' h1 h2 .fresh []
  have hmem : (⟨0, 0, 0, 0⟩ : PanelRef) ∈ panelRefs [a] := by rw [hrefs]; simp
  obtain ⟨p, hp0⟩ := (mem_panelRefs _ _).mp hmem
  have hp1 : panelAt [a, a] ⟨1, 0, 0, 0⟩ = some p := by
    rw [panelAt_alone (as := [a, a]) (a := a) (r := ⟨1, 0, 0, 0⟩) rfl]
    exact hp0
  obtain ⟨g, g₀, -, -, e1, e2, -, -, e3, -⟩ := hp _ p hp1
  exact ⟨a, R₀, hR₀, d, as', R, h1, hR, g, g₀, e1, e2, e3⟩

end Ptera
