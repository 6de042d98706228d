import Verif.Spec.FarApart
import Verif.Lemmas.Limits
import Verif.Lemmas.SteadyFormulas

/-! Airplanes moved apart: their influences on each other vanish, their own stay. -/

namespace Ptera

open Filter Topology

/-! ## A panel knows its own airplane only -/

section alone

variable {as : List Airplane} {a : Airplane} {r : PanelRef}

theorem wingAt_alone (ha : as[r.airplane]? = some a) : wingAt as r = wingAt [a] r.alone := by
  simp [wingAt, ha, PanelRef.alone]

theorem panelAt_alone (ha : as[r.airplane]? = some a) : panelAt as r = panelAt [a] r.alone := by
  simp only [panelAt, wingAt_alone ha]
  rfl

theorem geometryOf_alone (ha : as[r.airplane]? = some a) : geometryOf as r = geometryOf [a] r.alone := by
  simp only [geometryOf, panelAt_alone ha]

theorem geometryOf_alone_below (ha : as[r.airplane]? = some a) :
    geometryOf as { r with row := r.row + 1 } = geometryOf [a] { r.alone with row := r.alone.row + 1 } :=
  geometryOf_alone (r := { r with row := r.row + 1 }) ha

theorem panelRing_alone (ha : as[r.airplane]? = some a) :
    RingSolver.panelRing as r = RingSolver.panelRing [a] r.alone := by
  simp only [RingSolver.panelRing, RingSolver.backLeftVertex, RingSolver.backRightVertex, geometryOf_alone ha,
    geometryOf_alone_below ha]

theorem methodUnit_alone (method : SteadyMethod) (op : OperatingPoint) (ha : as[r.airplane]? = some a) (q : V3) :
    methodUnit method ⟨as, op⟩ r q = methodUnit method ⟨[a], op⟩ r.alone q := by
  cases method with
  | horseshoe =>
    simp only [methodUnit, HorseshoeSolver.panelUnit, HorseshoeSolver.unit, HorseshoeSolver.slotOf,
      HorseshoeSolver.panelVortex, HorseshoeSolver.create, geometryOf_alone ha, wingAt_alone ha]
  | ring =>
    simp only [methodUnit, RingSolver.panelUnit, RingSolver.unit, ringSlot, RingSolver.firstTrailing,
      RingSolver.panelHorseshoe, RingSolver.backLeftVertex, RingSolver.backRightVertex, RingSolver.create,
      geometryOf_alone ha, geometryOf_alone_below ha, wingAt_alone ha, panelRing_alone ha]
    rfl

theorem panelForceMoment_alone (method : SteadyMethod) (ha : as[r.airplane]? = some a) (ρ : ℝ) (ref : V3) (v : V3 → V3)
    (g : PanelRef → ℝ) :
    panelForceMoment method as ρ ref v g r
      = panelForceMoment method [a] ρ ref v (fun s => g { s with airplane := r.airplane }) r.alone := by
  cases method with
  | horseshoe =>
    simp only [panelForceMoment, geometryOf_alone ha]
    rfl
  | ring =>
    simp only [panelForceMoment, panelRing_alone ha]
    rfl

/-- The panels of one airplane in a problem with several and in a problem with that airplane alone. -/
theorem own_perm_alone {i : ℕ} (ha : as[i]? = some a) :
    ((panelRefs as).filter fun r => r.airplane = i).Perm
      ((panelRefs [a]).map fun r => { r with airplane := i }) := by
  have h0 : ∀ r ∈ panelRefs [a], r.airplane = 0 := by
    intro r hr
    obtain ⟨p, hp⟩ := (mem_panelRefs _ _).mp hr
    obtain ⟨A, w, hA, -⟩ := panelAt_cell hp
    have := (List.getElem?_eq_some_iff.mp hA).1
    simpa using this
  apply (List.perm_ext_iff_of_nodup ((panelRefs_nodup as).filter _) ?_).mpr
  · intro r
    simp only [List.mem_filter, List.mem_map, mem_panelRefs, decide_eq_true_eq]
    constructor
    · rintro ⟨⟨p, hp⟩, rfl⟩
      exact ⟨r.alone, ⟨p, by rw [← panelAt_alone ha]; exact hp⟩, rfl⟩
    · rintro ⟨s, ⟨p, hp⟩, rfl⟩
      refine ⟨⟨p, ?_⟩, rfl⟩
      have e : s.airplane = 0 := h0 s ((mem_panelRefs _ _).mpr ⟨p, hp⟩)
      rw [panelAt_alone (r := { s with airplane := i }) ha, ← hp]
      congr 1
      cases s
      simp only at e
      subst e
      rfl
  · rw [List.nodup_map_iff_inj_on (panelRefs_nodup [a])]
    intro r hr s hs h
    have e1 := h0 r hr
    have e2 := h0 s hs
    cases r
    cases s
    simp_all

end alone

/-! ## Airplanes moved separately -/

namespace MovedSeparately

variable {d : ℕ → V3} {as as' : List Airplane} {op : OperatingPoint}

theorem at_ (h : MovedSeparately d as as') {i : ℕ} {a : Airplane} (ha : as[i]? = some a) :
    ∃ a', as'[i]? = some a' ∧ Airplane.Moved M3.one (d i) a a' := by
  have hi := (List.getElem?_eq_some_iff.mp ha).1
  have hi' : i < as'.length := by rw [h.1]; exact hi
  exact ⟨as'[i], List.getElem?_eq_getElem hi', h.2 i a _ ha (List.getElem?_eq_getElem hi')⟩

theorem at_' (h : MovedSeparately d as as') {i : ℕ} {a' : Airplane} (ha : as'[i]? = some a') :
    ∃ a, as[i]? = some a ∧ Airplane.Moved M3.one (d i) a a' := by
  have hi := (List.getElem?_eq_some_iff.mp ha).1
  have hi' : i < as.length := by rw [← h.1]; exact hi
  exact ⟨as[i], List.getElem?_eq_getElem hi', h.2 i _ a' (List.getElem?_eq_getElem hi') ha⟩

theorem made (h : MovedSeparately d as as') : (∀ a ∈ as, a.Made) ∧ ∀ a ∈ as', a.Made := by
  constructor
  · intro a ha
    obtain ⟨i, hi⟩ := List.getElem?_of_mem ha
    obtain ⟨a', -, hm⟩ := h.at_ hi
    exact hm.made.1
  · intro a' ha
    obtain ⟨i, hi⟩ := List.getElem?_of_mem ha
    obtain ⟨a, -, hm⟩ := h.at_' hi
    exact hm.made.2

theorem similar_alone {a a' : Airplane} {t : V3} (h : Airplane.Moved M3.one t a a') (op : OperatingPoint) :
    SimilarLattices ⟨[a], op⟩ ⟨[a'], op⟩ M3.one t (fun _ _ => false) 1 1 (fun i _ => id i) (fun _ => id) where
  airplanes := (SimilarAirplanes.of_moved one_isRot (List.Forall₂.cons h List.Forall₂.nil)).shapes.similarWings
  made := by intro b hb; rw [List.mem_singleton] at hb; subst hb; exact h.made.1
  made' := by intro b hb; rw [List.mem_singleton] at hb; subst hb; exact h.made.2
  nonzero := one_ne_zero
  direction := by rw [M3.one_mulVec]
  velocity := by rw [M3.one_mulVec, one_smul]
  density := by rw [one_mul]

theorem panel_alone {a a' : Airplane} {t : V3} (h : Airplane.Moved M3.one t a a') {r : PanelRef} {p : Panel}
    (hp : panelAt [a] r = some p) : ∃ p', panelAt [a'] r = some p' ∧ IsImage M3.one t false p p' := by
  have hs := similar_alone h {}
  obtain ⟨p', h1, h2⟩ := hs.airplanes.panel hs.made hs.made' hp
  exact ⟨p', by rw [imageRef_same] at h1; exact h1, h2⟩

theorem unit_alone {a a' : Airplane} {t : V3} (h : Airplane.Moved M3.one t a a') (method : SteadyMethod)
    (op : OperatingPoint) {r : PanelRef} {p : Panel} (hp : panelAt [a] r = some p) (q : V3) :
    methodUnit method ⟨[a'], op⟩ r (q + t) = methodUnit method ⟨[a], op⟩ r q := by
  have hs := similar_alone h op
  cases method with
  | horseshoe =>
    have := hs.horseshoeUnit hp q
    rw [imageRef_same, orientation_one, one_smul, M3.one_mulVec, M3.one_mulVec] at this
    exact this
  | ring =>
    have := hs.ringUnit hp q
    rw [imageRef_same, orientation_one, one_smul, M3.one_mulVec, M3.one_mulVec] at this
    exact this

theorem ring_alone {a a' : Airplane} {t : V3} (h : Airplane.Moved M3.one t a a') {r : PanelRef} {p : Panel}
    (hp : panelAt [a] r = some p) :
    let v := RingSolver.panelRing [a] r
    let v' := RingSolver.panelRing [a'] r
    v'.frontLeft = v.frontLeft + t ∧ v'.frontRight = v.frontRight + t ∧ v'.backLeft = v.backLeft + t ∧
      v'.backRight = v.backRight + t := by
  have hs := similar_alone h {}
  have := hs.ring hp
  simp only [imageRef_same, M3.one_mulVec, Bool.false_eq_true, if_false] at this
  exact this

/-- Places and normals of the panels. -/
theorem panel (h : MovedSeparately d as as') {r : PanelRef} {p : Panel} (hp : panelAt as r = some p) :
    ∃ p', panelAt as' r = some p' ∧ IsImage M3.one (d r.airplane) false p p' := by
  obtain ⟨a, w, ha, -⟩ := panelAt_cell hp
  obtain ⟨a', ha', hm⟩ := h.at_ ha
  rw [panelAt_alone ha] at hp
  obtain ⟨p', hp', hi⟩ := panel_alone hm hp
  exact ⟨p', by rw [panelAt_alone ha']; exact hp', hi⟩

theorem panel' (h : MovedSeparately d as as') {r : PanelRef} {p' : Panel} (hp : panelAt as' r = some p') :
    ∃ p, panelAt as r = some p := by
  obtain ⟨a', w, ha', -⟩ := panelAt_cell hp
  obtain ⟨a, ha, hm⟩ := h.at_' ha'
  rw [panelAt_alone ha'] at hp
  rw [panelAt_alone ha]
  have hs := similar_alone hm {}
  have hr := (hs.airplanes.perm hs.made hs.made').mem_iff.mp ((mem_panelRefs _ _).mpr ⟨p', hp⟩)
  obtain ⟨s, hs', e⟩ := List.mem_map.mp hr
  rw [imageRef_same] at e
  subst e
  exact (mem_panelRefs _ _).mp hs'

theorem refs (h : MovedSeparately d as as') : (panelRefs as').Perm ((panelRefs as).map id) := by
  rw [List.map_id]
  apply (List.perm_ext_iff_of_nodup (panelRefs_nodup _) (panelRefs_nodup _)).mpr
  intro r
  rw [mem_panelRefs, mem_panelRefs]
  exact ⟨fun ⟨p, hp⟩ => h.panel' hp, fun ⟨p, hp⟩ => by obtain ⟨p', hp', -⟩ := h.panel hp; exact ⟨p', hp'⟩⟩

theorem unit (h : MovedSeparately d as as') (method : SteadyMethod) (op : OperatingPoint) {r : PanelRef} {p : Panel}
    (hp : panelAt as r = some p) (q : V3) :
    methodUnit method ⟨as', op⟩ r (q + d r.airplane) = methodUnit method ⟨as, op⟩ r q := by
  obtain ⟨a, w, ha, -⟩ := panelAt_cell hp
  obtain ⟨a', ha', hm⟩ := h.at_ ha
  rw [methodUnit_alone method op ha, methodUnit_alone method op ha']
  rw [panelAt_alone ha] at hp
  exact unit_alone hm method op hp q

theorem normal (h : MovedSeparately d as as') {r : PanelRef} {p : Panel} (hp : panelAt as r = some p) :
    (geometryOf as' r).collocationPoint = (geometryOf as r).collocationPoint + d r.airplane ∧
      (geometryOf as' r).unitNormal = (geometryOf as r).unitNormal := by
  obtain ⟨p', hp', hi⟩ := h.panel hp
  rw [geometryOf_eq hp, geometryOf_eq hp', hi.points.2.2, hi.normal one_isRot.1, M3.one_mulVec, M3.one_mulVec,
    orientation_one, one_smul]
  exact ⟨rfl, rfl⟩

/-- The influence of panel `j` on panel `i` of the moved airplanes, in terms of those at the first places. -/
noncomputable def coefficient (method : SteadyMethod) (op : OperatingPoint) (as : List Airplane) (d : ℕ → V3)
    (i j : PanelRef) : ℝ :=
  (methodUnit method ⟨as, op⟩ j ((geometryOf as i).collocationPoint + (d i.airplane - d j.airplane))).dot
    (geometryOf as i).unitNormal

theorem coefficient_eq (h : MovedSeparately d as as') (method : SteadyMethod) (op : OperatingPoint) {i j : PanelRef}
    {p q : Panel} (hi : panelAt as i = some p) (hj : panelAt as j = some q) :
    methodCoefficient method ⟨as', op⟩ i j = coefficient method op as d i j := by
  unfold methodCoefficient coefficient
  obtain ⟨h1, h2⟩ := h.normal hi
  simp only
  rw [h1, h2, ← h.unit method op hj]
  congr 2
  abel

theorem rhs_eq (h : MovedSeparately d as as') (op : OperatingPoint) {i : PanelRef} {p : Panel}
    (hi : panelAt as i = some p) : methodRhs ⟨as', op⟩ i = methodRhs ⟨as, op⟩ i := by
  unfold methodRhs
  simp only
  rw [(h.normal hi).2]

/-- The system of the moved airplanes and the same system with the panels in the order of the airplanes at the first
places. -/
theorem solve (h : MovedSeparately d as as') (method : SteadyMethod) (op : OperatingPoint) {Γ : PanelRef → ℝ}
    (hΓ : linalgSolve ((panelRefs as).map fun i => (panelRefs as).map fun j => coefficient method op as d i j)
      ((panelRefs as).map (methodRhs ⟨as, op⟩)) = .ok ((panelRefs as).map Γ)) (heap : PanelHeap)
    (loads : List AirplaneLoads) :
    ∃ R, steadyRun method ⟨as', op⟩ heap loads = .ok R ∧
      (∀ r p, panelAt as r = some p → R.strength r = some (Γ r)) ∧
      ∀ (i : ℕ) q, R.velocity (q + d i) = ((panelRefs as).map fun r => Γ r •
          methodUnit method ⟨as, op⟩ r (q + (d i - d r.airplane))).sum + op.freestreamVelocity := by
  obtain ⟨Γ', h1, h2⟩ := linalgSolve_similar (panelRefs_nodup as') id h.refs (coefficient method op as d)
    (methodCoefficient method ⟨as', op⟩) (methodRhs ⟨as, op⟩) (methodRhs ⟨as', op⟩) (fun _ => 1) 1 one_ne_zero
    (fun _ => by norm_num)
    (by
      intro i hi j hj
      obtain ⟨p, hp⟩ := (mem_panelRefs _ _).mp hi
      obtain ⟨q, hq⟩ := (mem_panelRefs _ _).mp hj
      rw [id, id, h.coefficient_eq method op hp hq]; ring)
    (by
      intro i hi
      obtain ⟨p, hp⟩ := (mem_panelRefs _ _).mp hi
      rw [id, h.rhs_eq op hp]; ring) Γ hΓ
  have hmade := h.made.2
  obtain ⟨R, hR⟩ := steady_of_solve method (P := ⟨as', op⟩) hmade heap loads h1
  obtain ⟨Γ₂, g1, g2, g3⟩ := steady_values (P := ⟨as', op⟩) hmade hR
  simp only at g1 g2 g3
  have e := g1
  rw [h1] at e
  have e' := map_inj_left (Except.ok.inj e)
  have hst : ∀ r ∈ panelRefs as, Γ₂ r = Γ r := by
    intro r hr
    rw [← e' r (h.refs.mem_iff.mpr (by rw [List.map_id]; exact hr))]
    have := h2 r hr
    rw [id] at this
    rw [this]; ring
  refine ⟨R, hR, ?_, ?_⟩
  · intro r p hp
    obtain ⟨p', hp', -⟩ := h.panel hp
    rw [g2 r p' hp', hst r ((mem_panelRefs _ _).mpr ⟨p, hp⟩)]
  · intro i q
    rw [g3]
    congr 1
    rw [(h.refs.map fun r => Γ₂ r • methodUnit method ⟨as', op⟩ r (q + d i)).sum_eq, List.map_map]
    congr 1
    apply List.map_congr_left
    intro r hr
    obtain ⟨p, hp⟩ := (mem_panelRefs _ _).mp hr
    simp only [Function.comp, id]
    rw [hst r hr, ← h.unit method op hp]
    congr 2
    abel

theorem force (h : MovedSeparately d as as') (method : SteadyMethod) {r : PanelRef} {p : Panel}
    (hp : panelAt as r = some p) (ρ : ℝ) (ref : V3) (v : V3 → V3) (g : PanelRef → ℝ) :
    panelForceMoment method as' ρ (ref + d r.airplane) v g r
      = panelForceMoment method as ρ ref (fun q => v (q + d r.airplane)) g r := by
  have hmid : ∀ a b t : V3, (1 / 2 : ℝ) • (a + t + (b + t)) = (1 / 2 : ℝ) • (a + b) + t := by intros; module
  have hsub : ∀ a b t : V3, a + t - (b + t) = a - b := by intros; module
  have hside : ∀ k a b t, sideForce ρ k v (a + t) (b + t) = sideForce ρ k (fun q => v (q + t)) a b := by
    intro k a b t
    simp only [sideForce, hmid, hsub]
  cases method with
  | horseshoe =>
    obtain ⟨p', hp', hi⟩ := h.panel hp
    obtain ⟨e1, e2, -⟩ := hi.points
    simp only [M3.one_mulVec, Bool.false_eq_true, if_false] at e1 e2
    simp only [panelForceMoment, geometryOf_eq hp, geometryOf_eq hp', e1, e2, hside, hmid, hsub]
  | ring =>
    obtain ⟨a, w, ha, -⟩ := panelAt_cell hp
    obtain ⟨a', ha', hm⟩ := h.at_ ha
    rw [panelAt_alone ha] at hp
    obtain ⟨e1, e2, e3, e4⟩ := ring_alone hm hp
    simp only [panelForceMoment, panelRing_alone ha, panelRing_alone ha', e1, e2, e3, e4, hside, hmid, hsub]

end MovedSeparately

end Ptera
