import Verif.Lemmas.Translated
import Verif.Props.Attitude

/-! Helper lemmas: the motion generated for a wing or an airplane elsewhere. -/

namespace Ptera

open List

theorem Oscillation.values_shift (o : Oscillation) (b c : ℝ) (n : ℕ) (dt : ℝ) :
    o.values (b + c) n dt = (o.values b n dt).map (List.map (· + c)) := by
  unfold Oscillation.values
  split_ifs
  · simp only [Except.map, oscillatingSinspace, constList]
    split_ifs
    · simp
    · simp [Function.comp_def, add_assoc]
  · simp only [Except.map, oscillatingLinspace, constList]
    split_ifs
    · simp
    · simp [Function.comp_def, add_assoc]
  · rfl

theorem getD_shift {l : List ℝ} {c : ℝ} {k : ℕ} (hk : k < l.length) : (l.map (· + c)).getD k 0 = l.getD k 0 + c := by
  simp [List.getD_eq_getElem?_getD, hk]

theorem wings_moved_spec {t : V3} {w w' : Wing} (h : Wing.Moved M3.one t w w') :
    w'.spec.leadingEdge = w.spec.leadingEdge + t ∧ w'.spec.symmetric = w.spec.symmetric ∧
      w'.spec.numChordwisePanels = w.spec.numChordwisePanels ∧ w'.spec.chordwiseSpacing = w.spec.chordwiseSpacing := by
  obtain ⟨S, le, n, sym, u, m, sp, h1, h2⟩ := h
  rw [(Wing.create_ok _ _ _ _ _ _ _ _ h1).1, (Wing.create_ok _ _ _ _ _ _ _ _ h2).1, one_mulVec]
  exact ⟨rfl, rfl, rfl, rfl⟩

theorem forall₂_of_getElem? {α β : Type} {R : α → β → Prop} {l : List α} {l' : List β} (hl : l'.length = l.length)
    (h : ∀ (i : ℕ) a b, l[i]? = some a → l'[i]? = some b → R a b) : Forall₂ R l l' := by
  rw [List.forall₂_iff_get]
  exact ⟨hl.symm, fun i h1 h2 => h i _ _ (List.getElem?_eq_getElem h1) (List.getElem?_eq_getElem h2)⟩

theorem WingMovement.Shifted.generate {t : V3} {m m' : WingMovement} (h : WingMovement.Shifted t m m') {n : ℕ}
    {d : ℝ} {ws : List Wing} (hg : m.generate n d = .ok ws) :
    ∃ ws', m'.generate n d = .ok ws' ∧ Forall₂ (Wing.Moved M3.one t) ws ws' := by
  obtain ⟨hb, hm⟩ := h
  obtain ⟨b1, b2, b3, b4⟩ := wings_moved_spec hb
  obtain ⟨xs, ys, zs, hs, h1, h2, h3, h4, hl, hk⟩ := WingMovement.generate_ok hg
  have l1 := Oscillation.values_length h1
  have l2 := Oscillation.values_length h2
  have l3 := Oscillation.values_length h3
  have key : ∀ k < n, ∃ w', Wing.create (hs.filterMap (·[k]?))
      (leadingEdge := ⟨(xs.map (· + t.x)).getD k 0, (ys.map (· + t.y)).getD k 0, (zs.map (· + t.z)).getD k 0⟩)
      (symmetric := m.base.spec.symmetric) (numChordwisePanels := m.base.spec.numChordwisePanels)
      (chordwiseSpacing := m.base.spec.chordwiseSpacing) = .ok w' ∧ ∀ w, ws[k]? = some w → Wing.Moved M3.one t w w' := by
    intro k hkn
    obtain ⟨w, hw, hc⟩ := hk k hkn
    obtain ⟨w', hw', hmv, -⟩ := C64_translated_wing _ _ _ _ _ _ _ w hc t
    refine ⟨w', ?_, ?_⟩
    · rw [getD_shift (by omega), getD_shift (by omega), getD_shift (by omega)]
      exact hw'
    · intro v hv
      rw [hw, Option.some.injEq] at hv
      rwa [← hv]
  obtain ⟨ws', hws'⟩ : ∃ ws', (List.range n).mapM (fun k => Wing.create (hs.filterMap (·[k]?))
      (leadingEdge := ⟨(xs.map (· + t.x)).getD k 0, (ys.map (· + t.y)).getD k 0, (zs.map (· + t.z)).getD k 0⟩)
      (symmetric := m.base.spec.symmetric) (numChordwisePanels := m.base.spec.numChordwisePanels)
      (chordwiseSpacing := m.base.spec.chordwiseSpacing)) = .ok ws' :=
    mapM_exists fun k hk' => by
      obtain ⟨w', h, -⟩ := key k (List.mem_range.mp hk')
      exact ⟨w', h⟩
  obtain ⟨hl', hk'⟩ := mapM_range hws'
  refine ⟨ws', ?_, forall₂_of_getElem? (by rw [hl, hl']) ?_⟩
  · unfold WingMovement.generate
    rw [hm]
    simp only [b1, b2, b3, b4, V3.add_x, V3.add_y, V3.add_z, Oscillation.values_shift, h1, h2, h3, h4, Except.map, bind,
      Except.bind]
    exact hws'
  · intro i a b ha hb
    have hi : i < n := by rw [← hl]; exact (List.getElem?_eq_some_iff.mp ha).1
    obtain ⟨w', e1, e2⟩ := hk' i hi
    obtain ⟨v, e3, e4⟩ := key i hi
    rw [e3, Except.ok.injEq] at e2
    rw [e1, Option.some.injEq] at hb
    rw [← hb, ← e2]
    exact e4 a ha

theorem column_forall₂ {α β : Type} {R : α → β → Prop} {H : List (List α)} {H' : List (List β)}
    (h : Forall₂ (Forall₂ R) H H') (k : ℕ) : Forall₂ R (H.filterMap (·[k]?)) (H'.filterMap (·[k]?)) := by
  induction h with
  | nil => exact .nil
  | @cons l l' H H' h1 _ ih =>
    rw [List.filterMap_cons, List.filterMap_cons]
    by_cases hk : k < l.length
    · have hk' : k < l'.length := by rw [← h1.length_eq]; exact hk
      rw [List.getElem?_eq_getElem hk, List.getElem?_eq_getElem hk']
      exact .cons ((List.forall₂_iff_get.mp h1).2 k hk hk') ih
    · have hk' : ¬ k < l'.length := by rw [← h1.length_eq]; exact hk
      rw [List.getElem?_eq_none (by omega), List.getElem?_eq_none (by omega)]
      exact ih

theorem mapM_related {ε α α' β β' : Type} {f : α → Except ε β} {f' : α' → Except ε β'} {R : α → α' → Prop}
    {S : β → β' → Prop} (hf : ∀ a a' b, R a a' → f a = .ok b → ∃ b', f' a' = .ok b' ∧ S b b') {l : List α} {l' : List α'}
    (hl : Forall₂ R l l') : ∀ {r : List β}, l.mapM f = .ok r → ∃ r', l'.mapM f' = .ok r' ∧ Forall₂ S r r' := by
  induction hl with
  | nil =>
    intro r h
    rw [mapM_nil_ok] at h
    subst h
    exact ⟨[], mapM_nil_ok.mpr rfl, .nil⟩
  | cons h1 _ ih =>
    intro r h
    obtain ⟨b, r1, e1, e2, rfl⟩ := mapM_cons_ok.mp h
    obtain ⟨b', e3, hs⟩ := hf _ _ _ h1 e1
    obtain ⟨r', e4, hr⟩ := ih e2
    exact ⟨b' :: r', mapM_cons_ok.mpr ⟨b', r', e3, e4, rfl⟩, .cons hs hr⟩

theorem AirplaneMovement.Shifted.generate {t : V3} {m m' : AirplaneMovement} (h : AirplaneMovement.Shifted t m m') {n : ℕ}
    {d : ℝ} {as : List Airplane} (hg : m.generate n d = .ok as) :
    ∃ as', m'.generate n d = .ok as' ∧ Forall₂ (Airplane.Moved M3.one t) as as' := by
  obtain ⟨hb, hw, hm⟩ := h
  have hx := (C64_geometry one_isRot _ _ hb).2.2.2.2.2.1
  rw [one_mulVec] at hx
  obtain ⟨xs, ys, zs, ws, h1, h2, h3, h4, hl, hk⟩ := AirplaneMovement.generate_ok hg
  have l1 := Oscillation.values_length h1
  have l2 := Oscillation.values_length h2
  have l3 := Oscillation.values_length h3
  obtain ⟨ws', h4', hws⟩ := mapM_related (f := fun w : WingMovement => w.generate n d)
    (f' := fun w : WingMovement => w.generate n d) (R := WingMovement.Shifted t) (S := Forall₂ (Wing.Moved M3.one t))
    (fun a a' b hab ha => WingMovement.Shifted.generate hab ha) hw h4
  have key : ∀ k < n, ∃ a', Airplane.create (ws'.filterMap (·[k]?))
      (xyzRef := ⟨(xs.map (· + t.x)).getD k 0, (ys.map (· + t.y)).getD k 0, (zs.map (· + t.z)).getD k 0⟩) = .ok a' ∧
      ∀ a, as[k]? = some a → Airplane.Moved M3.one t a a' := by
    intro k hkn
    obtain ⟨a, ha, hc⟩ := hk k hkn
    have hcol := column_forall₂ hws k
    rw [getD_shift (by omega), getD_shift (by omega), getD_shift (by omega)]
    have hne : ∃ a', Airplane.create (ws'.filterMap (·[k]?))
        (xyzRef := M3.one.mulVec ⟨xs.getD k 0, ys.getD k 0, zs.getD k 0⟩ + t) = .ok a' := by
      generalize ws.filterMap (·[k]?) = l at hc hcol
      generalize ws'.filterMap (·[k]?) = l' at hcol
      cases hcol with
      | nil => cases hc
      | cons _ _ => exact ⟨_, rfl⟩
    obtain ⟨a', ha'⟩ := hne
    refine ⟨a', ?_, ?_⟩
    · rw [one_mulVec] at ha'
      exact ha'
    · intro v hv
      rw [ha, Option.some.injEq] at hv
      rw [← hv]
      exact ⟨_, _, _, _, _, _, _, hc, ha', hcol⟩
  obtain ⟨as', has'⟩ : ∃ as', (List.range n).mapM (fun k => Airplane.create (ws'.filterMap (·[k]?))
      (xyzRef := ⟨(xs.map (· + t.x)).getD k 0, (ys.map (· + t.y)).getD k 0, (zs.map (· + t.z)).getD k 0⟩)) = .ok as' :=
    mapM_exists fun k hk' => by
      obtain ⟨w', h, -⟩ := key k (List.mem_range.mp hk')
      exact ⟨w', h⟩
  obtain ⟨hl', hk'⟩ := mapM_range has'
  refine ⟨as', ?_, forall₂_of_getElem? (by rw [hl, hl']) ?_⟩
  · unfold AirplaneMovement.generate
    rw [hm]
    simp only [hx, V3.add_x, V3.add_y, V3.add_z, Oscillation.values_shift, h1, h2, h3, h4', Except.map, bind,
      Except.bind]
    exact has'
  · intro i a b ha hb
    have hi : i < n := by rw [← hl]; exact (List.getElem?_eq_some_iff.mp ha).1
    obtain ⟨w', e1, e2⟩ := hk' i hi
    obtain ⟨v, e3, e4⟩ := key i hi
    rw [e3, Except.ok.injEq] at e2
    rw [e1, Option.some.injEq] at hb
    rw [← hb, ← e2]
    exact e4 a ha

theorem WingMovement.Shifted.maxPeriod {t : V3} {m m' : WingMovement} (h : WingMovement.Shifted t m m') :
    m'.maxPeriod = m.maxPeriod := by rw [h.2]; rfl

theorem mapM_congr₂ {ε α β : Type} {f f' : α → Except ε β} {R : α → α → Prop} (hf : ∀ a a', R a a' → f' a' = f a)
    {l l' : List α} (hl : Forall₂ R l l') : l'.mapM f' = l.mapM f := by
  induction hl with
  | nil => rfl
  | cons h1 _ ih => rw [List.mapM_cons, List.mapM_cons, hf _ _ h1, ih]

theorem AirplaneMovement.Shifted.maxPeriod {t : V3} {m m' : AirplaneMovement} (h : AirplaneMovement.Shifted t m m') :
    m'.maxPeriod = m.maxPeriod := by
  obtain ⟨-, hw, hm⟩ := h
  unfold AirplaneMovement.maxPeriod
  rw [hm]
  simp only
  rw [mapM_congr₂ (fun _ _ h => WingMovement.Shifted.maxPeriod h) hw]

variable {t : V3} {ams ams' : List AirplaneMovement} {om : OperatingPointMovement}

theorem shifted_maxPeriod (h : Forall₂ (AirplaneMovement.Shifted t) ams ams') :
    movementMaxPeriod ams' om = movementMaxPeriod ams om := by
  unfold movementMaxPeriod
  rw [mapM_congr₂ (fun _ _ h => AirplaneMovement.Shifted.maxPeriod h) h]

theorem shifted_cRef {m m' : AirplaneMovement} (h : AirplaneMovement.Shifted t m m') : m'.base.cRef = m.base.cRef :=
  (C64_geometry one_isRot _ _ h.1).2.1

theorem shifted_deltaTime (h : Forall₂ (AirplaneMovement.Shifted t) ams ams') (dt : Option ℝ) :
    chooseDeltaTime ams' om dt = chooseDeltaTime ams om dt := by
  cases dt with
  | some d => rfl
  | none =>
    unfold chooseDeltaTime defaultDeltaTime
    rw [mapM_congr₂ (R := AirplaneMovement.Shifted t) ?_ h]
    intro m m' hm
    rw [shifted_cRef hm]
    obtain ⟨wings, wings', ref, weight, s, c, b, h1, h2, hw⟩ := hm.1
    cases hw with
    | nil => cases h1
    | cons hw _ =>
      simp only [Airplane.create, Except.ok.injEq] at h1 h2
      rw [← h1, ← h2]
      simp only
      rw [(wings_moved_spec hw).2.2.1]

theorem shifted_runLength (h : Forall₂ (AirplaneMovement.Shifted t) ams ams') (d : ℝ) (ns nc nch : Option ℕ) :
    runLength ams' om d ns nc nch = runLength ams om d ns nc nch := by
  have e : ams'.map (·.base.cRef) = ams.map (·.base.cRef) := by
    induction h with
    | nil => rfl
    | cons h1 _ ih => rw [List.map_cons, List.map_cons, shifted_cRef h1, ih]
  unfold runLength
  rw [shifted_maxPeriod h, e]

end Ptera
