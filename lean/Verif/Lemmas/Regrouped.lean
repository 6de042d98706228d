import Verif.Spec.Regrouped
import Verif.Props.UnsteadyOrder
import Verif.Props.Scaling

/-! Helper lemmas: the same wings, distributed among airplanes in another way. -/

namespace Ptera

theorem SimilarWings.of_regrouped {as as' : List Airplane} {ρ ω : ℕ → ℕ → ℕ} (h : Regrouped as as' ρ ω) :
    SimilarWings as as' M3.one 0 (fun _ _ => false) ρ ω where
  ortho := one_isRot.1
  wings := by
    intro a A w W hA hW
    obtain ⟨A', hA', hW'⟩ := h.kept a A w W hA hW
    refine ⟨A', W, hA', hW', rfl, rfl, rfl, ?_⟩
    intro i j p p' hp hp'
    simp only [Bool.false_eq_true, if_false, hp, Option.some.injEq] at hp'
    subst hp'
    simp only [IsImage, one_mulVec, add_zero, Bool.false_eq_true, if_false, and_self]
  onto := h.all
  injective := h.once

theorem Regrouped.panelAt {as as' : List Airplane} {ρ ω : ℕ → ℕ → ℕ} (h : Regrouped as as' ρ ω) {r : PanelRef} {c : Panel}
    (hc : Ptera.panelAt as r = some c) :
    Ptera.panelAt as' ⟨ρ r.airplane r.wing, ω r.airplane r.wing, r.row, r.col⟩ = some c := by
  obtain ⟨A, W, hA, hW, hcell⟩ := panelAt_cell hc
  obtain ⟨A', hA', hW'⟩ := h.kept _ A _ W hA hW
  simp only [Ptera.panelAt, wingAt, hA', hW', Option.bind_some]
  exact hcell

/-- Summing over the panels of each airplane sums over all panels. -/
theorem sum_airplanes {as : List Airplane} {T : List V3} {f : PanelRef → V3} (hlen : T.length = as.length)
    (h : ∀ a A, as[a]? = some A → T[a]? = some (((panelRefs as).filter fun r => r.airplane = a).map f).sum) :
    T.sum = ((panelRefs as).map f).sum := by
  have e : T = as.zipIdx.map fun x => ((airplaneRefs x.1 x.2).map f).sum := by
    apply List.ext_getElem?
    intro i
    by_cases hi : i < as.length
    · have hA := List.getElem?_eq_getElem hi
      rw [h i _ hA, panelRefs_filter as i _ hA, List.getElem?_map, List.getElem?_zipIdx, hA]
      simp
    · rw [List.getElem?_eq_none_iff.mpr (by omega), List.getElem?_eq_none_iff.mpr (by simp; omega)]
  rw [e]
  unfold panelRefs
  generalize as.zipIdx = l
  induction l with
  | nil => rfl
  | cons x xs ih => simp [ih]

/-- The reference point of a panel's airplane. -/
noncomputable def refOf (as : List Airplane) (r : PanelRef) : V3 := ((as[r.airplane]?).map (·.xyzRef)).getD 0

/-- The total force and moment on all airplanes, panel by panel. -/
theorem sum_loads {op : OperatingPoint} {as : List Airplane} {T : List AirplaneLoads} {Q : PanelRef → Option PanelLoads}
    (hlen : T.length = as.length)
    (h : ∀ a A, as[a]? = some A → ∃ (L : AirplaneLoads) (P : PanelRef → PanelLoads), T[a]? = some L ∧
      (∀ r ∈ (panelRefs as).filter fun r => r.airplane = a, Q r = some (P r)) ∧
      L.forceWind = (((panelRefs as).filter fun r => r.airplane = a).map fun r => (P r).forceWind).sum ∧
      L.momentWind = (((panelRefs as).filter fun r => r.airplane = a).map fun r => (P r).momentWind).sum) :
    allForces T = ((panelRefs as).map fun r => ((Q r).map (·.forceWind)).getD 0).sum ∧
    allMoments T = ((panelRefs as).map fun r => ((Q r).map (·.momentWind)).getD 0).sum ∧
    allMomentsAboutOrigin op as T = ((panelRefs as).map fun r => ((Q r).map (·.momentWind)).getD 0
      + (op.rotationWindToGeometry.transpose.mulVec (refOf as r)).cross (((Q r).map (·.forceWind)).getD 0)).sum := by
  refine ⟨?_, ?_, ?_⟩
  · apply sum_airplanes (by simp [hlen])
    intro a A hA
    obtain ⟨L, P, hL, hP, hf, -⟩ := h a A hA
    rw [List.getElem?_map, hL, Option.map_some, hf]
    congr 2
    apply List.map_congr_left
    intro r hr
    rw [hP r hr]; rfl
  · apply sum_airplanes (by simp [hlen])
    intro a A hA
    obtain ⟨L, P, hL, hP, -, hf⟩ := h a A hA
    rw [List.getElem?_map, hL, Option.map_some, hf]
    congr 2
    apply List.map_congr_left
    intro r hr
    rw [hP r hr]; rfl
  · apply sum_airplanes (by simp [hlen])
    intro a A hA
    obtain ⟨L, P, hL, hP, hf, hm⟩ := h a A hA
    rw [List.getElem?_zipWith, hA, hL]
    simp only [hf, hm]
    congr 1
    have e : ∀ l : List PanelRef, (∀ r ∈ l, Q r = some (P r) ∧ r.airplane = a) →
        (l.map fun r => (P r).momentWind).sum
          + (op.rotationWindToGeometry.transpose.mulVec A.xyzRef).cross (l.map fun r => (P r).forceWind).sum
        = (l.map fun r => ((Q r).map (·.momentWind)).getD 0
          + (op.rotationWindToGeometry.transpose.mulVec (refOf as r)).cross (((Q r).map (·.forceWind)).getD 0)).sum := by
      intro l
      induction l with
      | nil => intro _; ext <;> simp [V3.cross]
      | cons r l ih =>
        intro hl
        obtain ⟨h1, h2⟩ := hl r (by simp)
        have ih := ih (fun r hr => hl r (by simp [hr]))
        have e1 : refOf as r = A.xyzRef := by unfold refOf; rw [h2, hA]; rfl
        simp only [List.map_cons, List.sum_cons, h1, Option.map_some, Option.getD_some, e1]
        rw [← ih]
        generalize (l.map fun r => (P r).momentWind).sum = x
        generalize (l.map fun r => (P r).forceWind).sum = y
        ext <;> simp [V3.cross] <;> ring
    apply e
    intro r hr
    refine ⟨hP r hr, ?_⟩
    simpa using (List.mem_filter.mp hr).2

/-- Equal sums over the panels of the two groupings. -/
theorem sum_regrouped {as as' : List Airplane} {ρ ω : ℕ → ℕ → ℕ} (hm : ∀ a ∈ as, a.Made) (hm' : ∀ a ∈ as', a.Made)
    (h : Regrouped as as' ρ ω) {f f' : PanelRef → V3}
    (hf : ∀ r c, panelAt as r = some c → f' ⟨ρ r.airplane r.wing, ω r.airplane r.wing, r.row, r.col⟩ = f r) :
    ((panelRefs as').map f').sum = ((panelRefs as).map f).sum := by
  rw [(((SimilarWings.of_regrouped h).perm hm hm').map f').sum_eq, List.map_map]
  congr 1
  apply List.map_congr_left
  intro r hr
  obtain ⟨c, hc⟩ := (mem_panelRefs _ _).mp hr
  exact hf r c hc

/-- Total loads of the two groupings, given the loads of the panels. -/
theorem totals_regrouped {op : OperatingPoint} {as as' : List Airplane} {ρ ω : ℕ → ℕ → ℕ} (hm : ∀ a ∈ as, a.Made)
    (hm' : ∀ a ∈ as', a.Made) (h : Regrouped as as' ρ ω) {T T' : List AirplaneLoads} {Q Q' : PanelRef → Option PanelLoads}
    (hlen : T.length = as.length) (hlen' : T'.length = as'.length)
    (hT : ∀ a A, as[a]? = some A → ∃ (L : AirplaneLoads) (P : PanelRef → PanelLoads), T[a]? = some L ∧
      (∀ r ∈ (panelRefs as).filter fun r => r.airplane = a, Q r = some (P r)) ∧
      L.forceWind = (((panelRefs as).filter fun r => r.airplane = a).map fun r => (P r).forceWind).sum ∧
      L.momentWind = (((panelRefs as).filter fun r => r.airplane = a).map fun r => (P r).momentWind).sum)
    (hT' : ∀ a A, as'[a]? = some A → ∃ (L : AirplaneLoads) (P : PanelRef → PanelLoads), T'[a]? = some L ∧
      (∀ r ∈ (panelRefs as').filter fun r => r.airplane = a, Q' r = some (P r)) ∧
      L.forceWind = (((panelRefs as').filter fun r => r.airplane = a).map fun r => (P r).forceWind).sum ∧
      L.momentWind = (((panelRefs as').filter fun r => r.airplane = a).map fun r => (P r).momentWind).sum)
    (hQ : ∀ r c, panelAt as r = some c → ∃ L L', Q r = some L ∧
      Q' ⟨ρ r.airplane r.wing, ω r.airplane r.wing, r.row, r.col⟩ = some L' ∧ L'.forceWind = L.forceWind ∧
      ∀ A A', as[r.airplane]? = some A → as'[ρ r.airplane r.wing]? = some A' → L'.momentWind = L.momentWind
        + (op.rotationWindToGeometry.transpose.mulVec (A.xyzRef - A'.xyzRef)).cross L.forceWind) :
    allForces T' = allForces T ∧ allMomentsAboutOrigin op as' T' = allMomentsAboutOrigin op as T ∧
    ((∀ A ∈ as, ∀ A' ∈ as', A'.xyzRef = A.xyzRef) → allMoments T' = allMoments T) := by
  obtain ⟨f1, f2, f3⟩ := sum_loads (op := op) hlen hT
  obtain ⟨g1, g2, g3⟩ := sum_loads (op := op) hlen' hT'
  refine ⟨?_, ?_, ?_⟩
  · rw [f1, g1]
    apply sum_regrouped hm hm' h
    intro r c hc
    obtain ⟨L, L', h1, h2, h3, -⟩ := hQ r c hc
    rw [h1, h2]
    exact h3
  · rw [f3, g3]
    apply sum_regrouped hm hm' h
    intro r c hc
    obtain ⟨L, L', h1, h2, h3, h4⟩ := hQ r c hc
    obtain ⟨A, W, hA, hW, -⟩ := panelAt_cell hc
    obtain ⟨A', hA', -⟩ := h.kept _ A _ W hA hW
    rw [h1, h2]
    simp only [Option.map_some, Option.getD_some, refOf, hA, hA', h3, h4 A A' hA hA', M3.mulVec_sub]
    ext <;> simp [V3.cross] <;> ring
  · intro href
    rw [f2, g2]
    apply sum_regrouped hm hm' h
    intro r c hc
    obtain ⟨L, L', h1, h2, h3, h4⟩ := hQ r c hc
    obtain ⟨A, W, hA, hW, -⟩ := panelAt_cell hc
    obtain ⟨A', hA', -⟩ := h.kept _ A _ W hA hW
    rw [h1, h2]
    simp only [Option.map_some, Option.getD_some, h4 A A' hA hA']
    rw [href A (List.mem_of_getElem? hA) A' (List.mem_of_getElem? hA'), sub_self, M3.mulVec_zero]
    ext <;> simp [V3.cross]

theorem steadyRun_totals_length (method : SteadyMethod) (P : SteadyProblem) (hm : ∀ a ∈ P.airplanes, a.Made)
    (heap : PanelHeap) (loads : List AirplaneLoads) (R : SteadyResults) (h : steadyRun method P heap loads = .ok R) :
    R.totals.length = P.airplanes.length := by
  have hc := counted_of_made hm
  cases method with
  | horseshoe =>
    simp only [steadyRun] at h
    cases hr : (HorseshoeSolver.create P heap loads).run with
    | error e => rw [hr] at h; cases h
    | ok s =>
      rw [hr] at h
      cases h
      obtain ⟨x, -, -, rfl⟩ := HorseshoeSolver.run_result (s := HorseshoeSolver.create P heap loads) hc
        (by simp [HorseshoeSolver.create]) hr
      simp [HorseshoeSolver.results, HorseshoeSolver.calculateStreamlines, HorseshoeSolver.calculateForces, processForces]
      rfl
  | ring =>
    simp only [steadyRun] at h
    cases hr : (RingSolver.create P heap loads).run with
    | error e => rw [hr] at h; cases h
    | ok s =>
      rw [hr] at h
      cases h
      obtain ⟨x, -, -, rfl⟩ := RingSolver.run_result (s := RingSolver.create P heap loads) hc
        (by simp [RingSolver.create]) (by simp [RingSolver.create]) (by simp [RingSolver.create]) hr
      simp [RingSolver.results, RingSolver.calculateStreamlines, RingSolver.calculateForces, processForces]
      rfl

/-- Every wing of a list of airplanes, with its place. -/
def wingList (as : List Airplane) : List ((ℕ × ℕ) × Wing) :=
  as.zipIdx.flatMap fun x => x.1.wings.zipIdx.map fun y => ((x.2, y.2), y.1)

theorem mem_wingList {as : List Airplane} {a w : ℕ} {W : Wing} :
    ((a, w), W) ∈ wingList as ↔ ∃ A, as[a]? = some A ∧ A.wings[w]? = some W := by
  unfold wingList
  simp only [List.mem_flatMap, List.mem_map, Prod.exists, Prod.mk.injEq, List.mem_zipIdx_iff_getElem?]
  constructor
  · rintro ⟨A, b, hA, W', v, hW, ⟨rfl, rfl⟩, rfl⟩
    exact ⟨A, hA, hW⟩
  · rintro ⟨A, hA, hW⟩
    exact ⟨A, a, hA, W, w, hW, ⟨rfl, rfl⟩, rfl⟩

theorem wingList_wings (as : List Airplane) : (wingList as).map Prod.snd = as.flatMap (·.wings) := by
  have key : ∀ n, (as.zipIdx n).flatMap (fun x => x.1.wings) = as.flatMap (·.wings) := by
    intro n
    induction as generalizing n with
    | nil => rfl
    | cons x xs ih => simp [ih]
  unfold wingList
  rw [List.map_flatMap, ← key 0]
  congr 1
  funext x
  rw [List.map_map]
  exact List.zipIdx_map_fst 0 x.1.wings

theorem wingList_keys (as : List Airplane) : ((wingList as).map Prod.fst).Nodup := by
  unfold wingList
  rw [List.map_flatMap]
  apply nodup_zipIdx_flatMap _ _ _ Prod.fst
  · intro x _ b hb
    simp only [List.mem_map] at hb
    obtain ⟨_, ⟨y, _, rfl⟩, rfl⟩ := hb
    rfl
  · intro x _
    have : (List.map Prod.fst (x.1.wings.zipIdx.map fun y => ((x.2, y.2), y.1)))
        = (List.range' 0 x.1.wings.length).map fun i => (x.2, i) := by
      rw [← List.zipIdx_map_snd, List.map_map, List.map_map]
      rfl
    rw [this]
    exact List.Nodup.map (fun a b h => by simpa using h) List.nodup_range'

open List in
/-- Airplanes with the same wings altogether. -/
theorem regrouped_of_perm {as as' : List Airplane} (h : as.flatMap (·.wings) ~ as'.flatMap (·.wings)) :
    ∃ ρ ω, Regrouped as as' ρ ω := by
  rw [← wingList_wings, ← wingList_wings] at h
  obtain ⟨τ, h1, h2⟩ := perm_renumbering h
  have hlen : (wingList as').length = (wingList as).length := by simpa using h.length_eq.symm
  simp only [List.length_map] at h1 h2
  let key : ℕ → ℕ → ℕ := fun a w => ((wingList as).map Prod.fst).idxOf (a, w)
  let new : ℕ → ℕ → ℕ × ℕ := fun a w => (((wingList as').map Prod.fst)[τ (key a w)]?).getD (0, 0)
  have hkey : ∀ a A w W, as[a]? = some A → A.wings[w]? = some W → key a w < (wingList as).length ∧
      ∃ V, (wingList as)[key a w]? = some ((a, w), V) ∧ V = W := by
    intro a A w W hA hW
    have hm : ((a, w), W) ∈ wingList as := mem_wingList.mpr ⟨A, hA, hW⟩
    have hlt : key a w < ((wingList as).map Prod.fst).length :=
      List.idxOf_lt_length_of_mem (List.mem_map.mpr ⟨_, hm, rfl⟩)
    have hg : ((wingList as).map Prod.fst)[key a w]? = some (a, w) := by
      rw [List.getElem?_eq_getElem hlt, List.getElem_idxOf]
    rw [List.getElem?_map] at hg
    obtain ⟨x, hx, hxa⟩ := Option.map_eq_some_iff.mp hg
    obtain ⟨⟨b, v⟩, V⟩ := x
    simp only [Prod.mk.injEq] at hxa
    obtain ⟨rfl, rfl⟩ := hxa
    obtain ⟨B, hB, hV⟩ := mem_wingList.mp (List.mem_of_getElem? hx)
    rw [hA, Option.some.injEq] at hB
    subst hB
    rw [hW, Option.some.injEq] at hV
    exact ⟨by simpa using hlt, V, hx, hV.symm⟩
  have hnew : ∀ a A w W, as[a]? = some A → A.wings[w]? = some W →
      (wingList as')[τ (key a w)]? = some (new a w, W) := by
    intro a A w W hA hW
    obtain ⟨hlt, V, hV, rfl⟩ := hkey a A w W hA hW
    have e := h1 _ hlt
    rw [List.getElem?_map, List.getElem?_map, hV, Option.map_some, Option.map_eq_some_iff] at e
    obtain ⟨x, hx, hxv⟩ := e
    have : new a w = x.1 := by
      simp only [new]
      rw [List.getElem?_map, hx]
      rfl
    have hxv' : x.2 = V := hxv
    rw [hx, this, ← hxv']
  refine ⟨fun a w => (new a w).1, fun a w => (new a w).2, ?_, ?_, ?_⟩
  · intro a A w W hA hW
    exact mem_wingList.mp (List.mem_of_getElem? (hnew a A w W hA hW))
  · intro a' A' w' W' hA' hW'
    obtain ⟨j, hj⟩ := List.getElem?_of_mem (mem_wingList.mpr ⟨A', hA', hW'⟩)
    obtain ⟨i, hi, rfl⟩ := renumber_onto hlen h2 (by
      intro i hi
      have := h1 i hi
      rw [List.getElem?_map (l := wingList as), List.getElem?_eq_getElem hi] at this
      have := (List.getElem?_eq_some_iff.mp this).1
      rwa [List.length_map] at this) j (List.getElem?_eq_some_iff.mp hj).1
    have hx := List.getElem?_eq_getElem hi
    generalize (wingList as)[i] = x at hx
    obtain ⟨⟨a, w⟩, W⟩ := x
    obtain ⟨A, hA, hW⟩ := mem_wingList.mp (List.mem_of_getElem? hx)
    have hi' : key a w = i := by
      have hk : ((wingList as).map Prod.fst)[i]? = some (a, w) := by rw [List.getElem?_map, hx]; rfl
      obtain ⟨hl, hk⟩ := List.getElem?_eq_some_iff.mp hk
      simp only [key]
      rw [← hk]
      exact (wingList_keys as).idxOf_getElem i hl
    have e := hnew a A w W hA hW
    rw [hi', hj, Option.some.injEq, Prod.mk.injEq] at e
    refine ⟨a, A, w, W, hA, hW, ?_, ?_⟩
    · rw [← e.1]
    · rw [← e.1]
  · intro a A w W b B v V hA hW hB hV e1 e2
    have n1 := hnew a A w W hA hW
    have n2 := hnew b B v V hB hV
    have en : new a w = new b v := Prod.ext e1 e2
    obtain ⟨l1, U, k1, -⟩ := hkey a A w W hA hW
    obtain ⟨l2, U', k2, -⟩ := hkey b B v V hB hV
    have hτ : τ (key a w) = τ (key b v) := by
      have m1 : ((wingList as').map Prod.fst)[τ (key a w)]? = some (new a w) := by rw [List.getElem?_map, n1]; rfl
      have m2 : ((wingList as').map Prod.fst)[τ (key b v)]? = some (new a w) := by rw [List.getElem?_map, n2, en]; rfl
      obtain ⟨q1, q2⟩ := List.getElem?_eq_some_iff.mp m1
      obtain ⟨q3, q4⟩ := List.getElem?_eq_some_iff.mp m2
      exact ((wingList_keys as').getElem_inj_iff).mp (q2.trans q4.symm)
    have hk := h2 _ _ l1 l2 hτ
    rw [hk, k2, Option.some.injEq, Prod.mk.injEq, Prod.mk.injEq] at k1
    exact ⟨k1.1.1.symm, k1.1.2.symm⟩

end Ptera
