import Verif.Props.References

/-!
# Exchanging one wing for another one with the same lattice: lemmas
-/

namespace Ptera

open List

/-- Results of an airplane in which one wing is exchanged for another one with the same panels, span, area and mean
chord. -/
theorem steady_of_same_lattice (method : SteadyMethod) {w w' : Wing} (hwm : w.Made) (hwm' : w'.Made)
    (hlat : SameLattice w w') (hS : w'.projectedArea = w.projectedArea)
    (hC : w'.meanAerodynamicChord = w.meanAerodynamicChord)
    (W₁ W₂ : List Wing) (hW₁ : ∀ v ∈ W₁, v.Made) (hW₂ : ∀ v ∈ W₂, v.Made) (ref : V3) (weight : ℝ)
    (sRef cRef bRef : Option ℝ) (a a' : Airplane)
    (ha : Airplane.create (W₁ ++ w :: W₂) ref weight sRef cRef bRef = .ok a)
    (ha' : Airplane.create (W₁ ++ w' :: W₂) ref weight sRef cRef bRef = .ok a')
    (A₁ A₂ : List Airplane) (hA₁ : ∀ b ∈ A₁, b.Made) (hA₂ : ∀ b ∈ A₂, b.Made) (op : OperatingPoint)
    (heap heap' : PanelHeap) (loads loads' : List AirplaneLoads) (R : SteadyResults)
    (hR : steadyRun method ⟨A₁ ++ a :: A₂, op⟩ heap loads = .ok R) :
    (a'.sRef = a.sRef ∧ a'.cRef = a.cRef ∧ a'.bRef = a.bRef) ∧
    ∃ R', steadyRun method ⟨A₁ ++ a' :: A₂, op⟩ heap' loads' = .ok R' ∧
      (∀ q, R'.velocity q = R.velocity q) ∧
      (∀ r p, panelAt (A₁ ++ a :: A₂) r = some p → ∃ g L L', R.strength r = some g ∧ R'.strength r = some g ∧
        R.loads r = some L ∧ R'.loads r = some L' ∧ L'.forceGeometry = L.forceGeometry ∧ L'.forceWind = L.forceWind ∧
        L'.momentGeometry = L.momentGeometry ∧ L'.momentWind = L.momentWind) ∧
      (∀ (i : ℕ) A, (A₁ ++ a :: A₂)[i]? = some A → ∃ L L', R.totals[i]? = some L ∧ R'.totals[i]? = some L' ∧
        L'.forceWind = L.forceWind ∧ L'.momentWind = L.momentWind ∧
        (A.sRef ≠ 0 → L'.forceCoefficients = L.forceCoefficients) ∧
        (A.sRef ≠ 0 → A.bRef ≠ 0 → A.cRef ≠ 0 → L'.momentCoefficients = L.momentCoefficients)) := by
  have hsame : ∀ v : Wing, SameLattice v v := fun v => ⟨rfl, rfl, rfl⟩
  have href : (a'.sRef = a.sRef ∧ a'.cRef = a.cRef ∧ a'.bRef = a.bRef) ∧ a'.xyzRef = a.xyzRef ∧ SameWings a a' := by
    cases W₁ with
    | nil =>
      simp only [List.nil_append, Airplane.create, Except.ok.injEq] at ha ha'
      subst ha ha'
      refine ⟨⟨by rw [hS], by rw [hC], by rw [hlat.2.1]⟩, rfl, .cons hlat ?_⟩
      rw [List.forall₂_same]
      exact fun v _ => hsame v
    | cons v W₁ =>
      simp only [List.cons_append, Airplane.create, Except.ok.injEq] at ha ha'
      subst ha ha'
      refine ⟨⟨rfl, rfl, rfl⟩, rfl, .cons (hsame v) ?_⟩
      refine List.rel_append ?_ (.cons hlat ?_)
      · rw [List.forall₂_same]; exact fun v _ => hsame v
      · rw [List.forall₂_same]; exact fun v _ => hsame v
  obtain ⟨hdim, hx, hwings⟩ := href
  refine ⟨hdim, ?_⟩
  have ham : a.Made := ⟨_, _, _, _, _, _, ha, by
    intro v hv
    simp only [List.mem_append, List.mem_cons] at hv
    rcases hv with hv | rfl | hv
    · exact hW₁ v hv
    · exact hwm
    · exact hW₂ v hv⟩
  have ham' : a'.Made := ⟨_, _, _, _, _, _, ha', by
    intro v hv
    simp only [List.mem_append, List.mem_cons] at hv
    rcases hv with hv | rfl | hv
    · exact hW₁ v hv
    · exact hwm'
    · exact hW₂ v hv⟩
  have hall : ∀ b : Airplane, b.Made → ∀ c ∈ A₁ ++ b :: A₂, c.Made := by
    intro b hb c hc
    simp only [List.mem_append, List.mem_cons] at hc
    rcases hc with hc | rfl | hc
    · exact hA₁ c hc
    · exact hb
    · exact hA₂ c hc
  have hF : Forall₂ (fun A A' : Airplane => SameWings A A' ∧ A'.xyzRef = A.xyzRef ∧ A'.sRef = A.sRef ∧ A'.cRef = A.cRef ∧
      A'.bRef = A.bRef) (A₁ ++ a :: A₂) (A₁ ++ a' :: A₂) := by
    refine List.rel_append ?_ (.cons ⟨hwings, hx, hdim⟩ ?_)
    · rw [List.forall₂_same]; exact fun v _ => ⟨.of_eq rfl, rfl, rfl, rfl, rfl⟩
    · rw [List.forall₂_same]; exact fun v _ => ⟨.of_eq rfl, rfl, rfl, rfl, rfl⟩
  obtain ⟨R', hR', hv, hp, ht⟩ := C80_steady method _ _ (hall a ham) (hall a' ham') (hF.imp fun _ _ h => h.1) op heap heap'
    loads loads' R hR
  have trans : ∀ {x x' f m m' : V3}, Transferred x x' f m m' → x' = x → m' = m := by
    intro x x' f m m' h e
    unfold Transferred at h
    rw [h, e, sub_self]
    ext <;> simp [V3.cross]
  refine ⟨R', hR', hv, ?_, ?_⟩
  · intro r p hr
    obtain ⟨A, hA⟩ : ∃ A, (A₁ ++ a :: A₂)[r.airplane]? = some A := by
      cases hA : (A₁ ++ a :: A₂)[r.airplane]? with
      | none => simp [panelAt, wingAt, hA] at hr
      | some A => exact ⟨A, rfl⟩
    obtain ⟨A', hA', -, hxx, -⟩ := forall₂_at hF _ _ hA
    obtain ⟨g, L, L', h1, h2, h3, h4, h5, h6, h7, h8⟩ := hp r p A A' hr hA hA'
    exact ⟨g, L, L', h1, h2, h3, h4, h5, h6, trans h7 hxx, trans h8 (by rw [hxx])⟩
  · intro i A hA
    obtain ⟨A', hA', -, hxx, d1, d2, d3⟩ := forall₂_at hF _ _ hA
    obtain ⟨L, L', h1, h2, h3, h4, h5, h6⟩ := ht i A A' hA hA'
    refine ⟨L, L', h1, h2, h3, trans h4 (by rw [hxx]), ?_, ?_⟩
    · intro hne
      rw [h5 hne, d1, div_self hne, one_smul]
    · intro hne hb hc
      obtain ⟨m1, m2, m3⟩ := h6 hxx hne hb hc
      rw [d1, d3, div_self (mul_ne_zero hne hb), _root_.one_mul] at m1 m3
      rw [d1, d2, div_self (mul_ne_zero hne hc), _root_.one_mul] at m2
      ext <;> assumption

end Ptera
