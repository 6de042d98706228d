import Verif.Spec.FarApartUnsteady
import Verif.Lemmas.FarApartLimit
import Verif.Lemmas.NearbyUnsteady

/-! Airplanes put together far apart: geometry, influences and the system of one step. -/

namespace Ptera

open Filter Topology UnsteadySolver

variable {ι : Type*} {F : Filter ι}

/-! ## A filament of any strength and age seen from far away -/

theorem filament_le (nu Γ age : ℝ) (A B x : V3) (hc : 0 ≤ (A - x).dot (B - x)) :
    (expandedEntry nu ⟨A, B, Γ, age⟩ x).norm ≤ |Γ| / (4 * Real.pi) * (1 / (A - x).norm + 1 / (B - x).norm) := by
  have hπ := Real.pi_pos
  have n1 := (A - x).norm_nonneg
  have n2 := (B - x).norm_nonneg
  rw [expandedEntry_eq]
  by_cases h : Cutoff ⟨A, B, Γ, age⟩ x
  · rw [if_pos h, V3.norm_zero]
    positivity
  · rw [if_neg h]
    unfold Cutoff at h
    push Not at h
    obtain ⟨h1, h2, h3⟩ := h
    have he : (0 : ℝ) < eps := by unfold eps; norm_num
    simp only at h1 h2 h3
    simp only [kernelCoeff]
    set core := (B - A).norm ^ 2 * coreRadius nu ⟨A, B, Γ, age⟩ ^ 2 with hcore
    have hcore0 : 0 ≤ core := by positivity
    set r1 := (A - x).norm with hr1
    set r2 := (B - x).norm with hr2
    set c := (A - x).dot (B - x) with hcd
    set u := (A - x).cross (B - x) with hu
    have p1 : 0 < r1 := lt_of_lt_of_le he h1
    have p2 : 0 < r2 := lt_of_lt_of_le he h2
    have p3 : 0 < u.norm ^ 2 := lt_of_lt_of_le he h3
    have p3' : 0 < u.norm := lt_of_le_of_ne u.norm_nonneg fun e => by rw [← e] at p3; norm_num at p3
    have hcs : c ≤ r1 * r2 := V3.dot_le _ _
    have hsq : u.norm ^ 2 = (r1 * r2 - c) * (r1 * r2 + c) := by
      have := V3.norm_cross_sq (A - x) (B - x)
      rw [← hu, ← hr1, ← hr2, ← hcd] at this
      rw [this]; ring
    have hle : r1 * r2 - c ≤ u.norm := by
      apply le_of_sq_le_sq _ (le_of_lt p3')
      rw [hsq]
      nlinarith
    have hd : 0 ≤ r1 * r2 - c := by linarith
    rw [V3.norm_smul, abs_div, abs_mul, abs_mul, abs_div, abs_of_nonneg hd, abs_of_pos (by linarith : 0 < r1 + r2),
      abs_of_pos (by positivity : 0 < 4 * Real.pi), abs_of_pos (by positivity : 0 < r1 * r2 * (u.norm ^ 2 + core))]
    have e : |Γ| / (4 * Real.pi) * (r1 + r2) * (r1 * r2 - c) / (r1 * r2 * (u.norm ^ 2 + core)) * u.norm
        = |Γ| / (4 * Real.pi) * (1 / r1 + 1 / r2) * ((r1 * r2 - c) * u.norm / (u.norm ^ 2 + core)) := by
      have : u.norm ^ 2 + core ≠ 0 := by positivity
      field_simp
      ring
    rw [e]
    have hq : (r1 * r2 - c) * u.norm / (u.norm ^ 2 + core) ≤ 1 := by
      rw [div_le_one (by positivity)]
      nlinarith
    have : 0 ≤ |Γ| / (4 * Real.pi) * (1 / r1 + 1 / r2) := by positivity
    nlinarith

theorem Far.tends {y x : ι → V3} {x₀ : V3} (h : Far y F) (hx : V3.Tends x F x₀) : Far (fun n => x n + y n) F := by
  have hx' := hx.norm
  refine tendsto_atTop_mono (f := fun n => (y n).norm + -(x n).norm) (fun n => ?_)
    (Filter.Tendsto.atTop_add h hx'.neg)
  have := V3.norm_add_le (x n + y n) (-x n)
  rw [show x n + y n + -x n = y n by abel, V3.norm_neg] at this
  linarith

theorem Far.filament {y A B : ι → V3} {A₀ B₀ : V3} {nu Γ age : ι → ℝ} {Γ₀ : ℝ} (h : Far y F) (hA : V3.Tends A F A₀)
    (hB : V3.Tends B F B₀) (hΓ : Tendsto Γ F (𝓝 Γ₀)) :
    V3.Tends (fun n => expandedEntry (nu n) ⟨A n, B n, Γ n, age n⟩ (y n)) F 0 := by
  have far : ∀ {C : ι → V3} {C₀ : V3}, V3.Tends C F C₀ → Tendsto (fun n => (C n - y n).norm) F atTop := by
    intro C C₀ hC
    have hC' : V3.Tends (fun n => -C n) F (-C₀) := by
      have := (V3.Tends.const (F := F) (0 : V3)).sub hC
      simpa only [zero_sub] using this
    refine (h.tends hC').congr fun n => ?_
    show (-C n + y n).norm = _
    rw [show C n - y n = -(-C n + y n) by abel, V3.norm_neg]
  have dA := far hA
  have dB := far hB
  refine V3.tends_zero (b := fun n => |Γ n| / (4 * Real.pi) * (1 / (A n - y n).norm + 1 / (B n - y n).norm)) ?_ ?_
  · have hp := dA.atTop_mul_atTop₀ dB
    have hAB := ((hA.sub hB).dot (hA.sub hB)).eventually_lt_const (lt_add_one _)
    filter_upwards [hp.eventually_ge_atTop ((A₀ - B₀).dot (A₀ - B₀) + 1), hAB] with n hn hn'
    apply filament_le
    have e : (A n - B n).dot (A n - B n) = (A n - y n).norm ^ 2 + (B n - y n).norm ^ 2 - 2 * (A n - y n).dot (B n - y n) := by
      rw [V3.norm_sq, V3.norm_sq]
      simp only [V3.dot, V3.sub_x, V3.sub_y, V3.sub_z]; ring
    nlinarith [sq_nonneg ((A n - y n).norm - (B n - y n).norm)]
  · have hA' : Tendsto (fun n => 1 / (A n - y n).norm) F (𝓝 0) := by
      simpa [one_div, Function.comp_def] using tendsto_inv_atTop_zero.comp dA
    have hB' : Tendsto (fun n => 1 / (B n - y n).norm) F (𝓝 0) := by
      simpa [one_div, Function.comp_def] using tendsto_inv_atTop_zero.comp dB
    have := (hΓ.abs.div_const (4 * Real.pi)).mul (hA'.add hB')
    simpa using this

theorem Far.ringInduced {y a b c d : ι → V3} {a₀ b₀ c₀ d₀ : V3} {nu Γ age : ι → ℝ} {Γ₀ : ℝ} (h : Far y F)
    (ha : V3.Tends a F a₀) (hb : V3.Tends b F b₀) (hc : V3.Tends c F c₀) (hd : V3.Tends d F d₀)
    (hΓ : Tendsto Γ F (𝓝 Γ₀)) :
    V3.Tends (fun n => ringInduced (nu n) (a n) (b n) (c n) (d n) (Γ n) (age n) (y n)) F 0 := by
  have := (((h.filament (nu := nu) (age := age) hd ha hΓ).add (h.filament (nu := nu) (age := age) ha hb hΓ)).add
    (h.filament (nu := nu) (age := age) hb hc hΓ)).add (h.filament (nu := nu) (age := age) hc hd hΓ)
  simp only [add_zero] at this
  exact this

theorem ringInduced_moved (nu Γ age : ℝ) (fr fl bl br q t : V3) :
    ringInduced nu (fr + t) (fl + t) (bl + t) (br + t) Γ age (q + t) = ringInduced nu fr fl bl br Γ age q := by
  have := ringInduced_image (t := t) one_isRot.1 false nu fr fl bl br Γ age q
  simpa only [M3.one_mulVec, Bool.false_eq_true, if_false, orientation_one, one_mul] using this

theorem unitVelocity_moved (br fr fl bl q t : V3) :
    unitVelocity (ringLegs (br + t) (fr + t) (fl + t) (bl + t)) (q + t) = unitVelocity (ringLegs br fr fl bl) q := by
  have := ring_image (M := M3.one) (t := t) (m := false) one_isRot.1 br fr fl bl q
  simpa only [M3.one_mulVec, Bool.false_eq_true, if_false, orientation_one, one_smul] using this

/-! ## Panels and wings -/

namespace Assembled

variable {m : ℕ} {P : ℕ → UnsteadyProblem} {d : ℕ → V3} {q : UnsteadyProblem}

theorem steps (h : Assembled m P d q) {i k : ℕ} (hi : i < m) (hk : k < q.numSteps) : k < (P i).numSteps := by
  rw [h.numSteps i hi]; exact hk

theorem panel (h : Assembled m P d q) {i k : ℕ} (hi : i < m) (hk : k < q.numSteps) {r : PanelRef} {pan : Panel}
    (hp : panelAt ((P i).airplanesAt k) r = some pan) :
    r.airplane = 0 ∧ ∃ pan', panelAt (q.airplanesAt k) (r.ofAirplane i) = some pan' ∧
      IsImage M3.one (d i) false pan pan' := by
  obtain ⟨a, a', h1, h2, h3⟩ := h.airplanes i hi k hk
  rw [h1] at hp
  obtain ⟨pan', hp', himg⟩ := MovedSeparately.panel_alone h3 hp
  refine ⟨alone_zero hp, pan', ?_, himg⟩
  have e := panelAt_alone (as := q.airplanesAt k) (r := r.ofAirplane i) h2
  rw [e]
  have := alone_back hp i
  unfold PanelRef.ofAirplane
  rw [this]
  exact hp'

theorem panel' (h : Assembled m P d q) {k : ℕ} (hk : k < q.numSteps) {r : PanelRef} {pan' : Panel}
    (hp : panelAt (q.airplanesAt k) r = some pan') :
    r.airplane < m ∧ ∃ pan, panelAt ((P r.airplane).airplanesAt k) r.alone = some pan := by
  obtain ⟨A, w, hA, -⟩ := panelAt_cell hp
  have hi : r.airplane < m := by
    rw [← h.count k hk]; exact (List.getElem?_eq_some_iff.mp hA).1
  refine ⟨hi, ?_⟩
  obtain ⟨a, a', h1, h2, h3⟩ := h.airplanes _ hi k hk
  rw [panelAt_alone h2] at hp
  rw [h1]
  have hs := MovedSeparately.similar_alone h3 {}
  have hr := (hs.airplanes.perm hs.made hs.made').mem_iff.mp ((mem_panelRefs _ _).mpr ⟨pan', hp⟩)
  obtain ⟨s, hs', e⟩ := List.mem_map.mp hr
  rw [imageRef_same] at e
  subst e
  exact (mem_panelRefs _ _).mp hs'

theorem ofAirplane_alone {r : PanelRef} (h : r.airplane = 0) (i : ℕ) : (r.ofAirplane i).alone = r := by
  cases r
  simp only at h
  subst h
  rfl

theorem alone_ofAirplane (r : PanelRef) : r.alone.ofAirplane r.airplane = r := rfl

/-- The panels of the airplanes together, by airplane. -/
theorem mem_refs (h : Assembled m P d q) {k : ℕ} (hk : k < q.numSteps) (r : PanelRef) :
    r ∈ panelRefs (q.airplanesAt k) ↔ r.airplane < m ∧ r.alone ∈ panelRefs ((P r.airplane).airplanesAt k) := by
  rw [mem_panelRefs, mem_panelRefs]
  constructor
  · rintro ⟨pan, hp⟩
    exact h.panel' hk hp
  · rintro ⟨hi, pan, hp⟩
    obtain ⟨-, pan', hp', -⟩ := h.panel hi hk hp
    exact ⟨pan', hp'⟩

theorem ref_zero (h : Assembled m P d q) {i k : ℕ} (hi : i < m) (hk : k < q.numSteps) {r : PanelRef}
    (hr : r ∈ panelRefs ((P i).airplanesAt k)) : r.airplane = 0 := by
  obtain ⟨pan, hp⟩ := (mem_panelRefs _ _).mp hr
  exact (h.panel hi hk hp).1

theorem ref_mem (h : Assembled m P d q) {i k : ℕ} (hi : i < m) (hk : k < q.numSteps) {r : PanelRef}
    (hr : r ∈ panelRefs ((P i).airplanesAt k)) : r.ofAirplane i ∈ panelRefs (q.airplanesAt k) := by
  rw [h.mem_refs hk, ofAirplane_alone (h.ref_zero hi hk hr)]
  exact ⟨hi, hr⟩

/-- The panels of one of the airplanes. -/
theorem own (h : Assembled m P d q) {i k : ℕ} (hi : i < m) (hk : k < q.numSteps) :
    ((panelRefs (q.airplanesAt k)).filter fun r => r.airplane = i).Perm
      ((panelRefs ((P i).airplanesAt k)).map fun r => r.ofAirplane i) := by
  apply (List.perm_ext_iff_of_nodup ((panelRefs_nodup _).filter _) ?_).mpr
  · intro r
    simp only [List.mem_filter, List.mem_map, decide_eq_true_eq]
    constructor
    · rintro ⟨hr, rfl⟩
      exact ⟨r.alone, ((h.mem_refs hk r).mp hr).2, rfl⟩
    · rintro ⟨s, hs, rfl⟩
      exact ⟨h.ref_mem hi hk hs, rfl⟩
  · rw [List.nodup_map_iff_inj_on (panelRefs_nodup _)]
    intro r hr s hs e
    rw [← ofAirplane_alone (h.ref_zero hi hk hr) i, e, ofAirplane_alone (h.ref_zero hi hk hs) i]

theorem sum_own (h : Assembled m P d q) {α : Type*} [AddCommMonoid α] {i k : ℕ} (hi : i < m) (hk : k < q.numSteps)
    (X : PanelRef → α) :
    ((panelRefs (q.airplanesAt k)).map fun r => if r.airplane = i then X r else 0).sum
      = ((panelRefs ((P i).airplanesAt k)).map fun r => X (r.ofAirplane i)).sum := by
  have e : ∀ l : List PanelRef, (l.map fun r => if r.airplane = i then X r else 0).sum
      = ((l.filter fun r => r.airplane = i).map X).sum := by
    intro l
    induction l with
    | nil => rfl
    | cons r l ih =>
      by_cases h : r.airplane = i
      · simp [h, ih]
      · simp [h, ih]
  rw [e, ((h.own hi hk).map X).sum_eq, List.map_map]
  rfl

theorem points (h : Assembled m P d q) {i k : ℕ} (hi : i < m) (hk : k < q.numSteps) {r : PanelRef} {pan : Panel}
    (hp : panelAt ((P i).airplanesAt k) r = some pan) :
    (geometryOf (q.airplanesAt k) (r.ofAirplane i)).collocationPoint
      = (geometryOf ((P i).airplanesAt k) r).collocationPoint + d i ∧
    (geometryOf (q.airplanesAt k) (r.ofAirplane i)).unitNormal = (geometryOf ((P i).airplanesAt k) r).unitNormal := by
  obtain ⟨-, pan', hp', himg⟩ := h.panel hi hk hp
  rw [geometryOf_eq hp, geometryOf_eq hp', himg.points.2.2, himg.normal one_isRot.1, M3.one_mulVec, M3.one_mulVec,
    orientation_one, one_smul]
  exact ⟨rfl, rfl⟩

/-- The corners of the rings on the panels. -/
theorem ring (h : Assembled m P d q) {i : ℕ} (hP : (P i).Made) (hq : q.Made) {k : ℕ} (hi : i < m) (hk : k < q.numSteps)
    {r : PanelRef} {pan : Panel} (hp : panelAt ((P i).airplanesAt k) r = some pan) :
    (boundRing q k (r.ofAirplane i)).frontLeft = (boundRing (P i) k r).frontLeft + d i ∧
    (boundRing q k (r.ofAirplane i)).frontRight = (boundRing (P i) k r).frontRight + d i ∧
    (boundRing q k (r.ofAirplane i)).backLeft = (boundRing (P i) k r).backLeft + d i ∧
    (boundRing q k (r.ofAirplane i)).backRight = (boundRing (P i) k r).backRight + d i := by
  obtain ⟨-, pan', hp', himg⟩ := h.panel hi hk hp
  have hm := hP.regular.made k
  have hm' := hq.regular.made k
  have hte : pan'.isTrailingEdge = pan.isTrailingEdge := by
    have e1 := (made_flags hm hp).trailing
    have e2 := (made_flags hm' hp').trailing
    have : pan'.isTrailingEdge = true ↔ pan.isTrailingEdge = true := by
      rw [e1, e2]
      constructor
      · intro hn
        cases hc : panelAt ((P i).airplanesAt k) { r with row := r.row + 1 } with
        | none => rfl
        | some c =>
          obtain ⟨-, c', hc', -⟩ := h.panel hi hk hc
          have : panelAt (q.airplanesAt k) { r.ofAirplane i with row := (r.ofAirplane i).row + 1 } = some c' := hc'
          rw [hn] at this
          cases this
      · intro hn
        cases hc : panelAt (q.airplanesAt k) { r.ofAirplane i with row := (r.ofAirplane i).row + 1 } with
        | none => rfl
        | some c =>
          obtain ⟨-, c', hc'⟩ := h.panel' hk hc
          have h0 := (h.panel hi hk hp).1
          have : ({ r.ofAirplane i with row := (r.ofAirplane i).row + 1 } : PanelRef).alone
              = { r with row := r.row + 1 } := by
            cases r
            simp only at h0
            subst h0
            rfl
          rw [this] at hc'
          have : panelAt ((P i).airplanesAt k) { r with row := r.row + 1 } = some c' := hc'
          rw [hn] at this
          cases this
    cases hb : pan'.isTrailingEdge <;> cases hb' : pan.isTrailingEdge <;> simp_all
  obtain ⟨e1, e2, -⟩ := himg.points
  simp only [M3.one_mulVec, Bool.false_eq_true, if_false] at e1 e2
  have hop := h.flow i hi k hk
  have hdt := h.deltaTime i hi
  simp only [boundRing, panelRing, RingVortex.mk', UnsteadySolver.backLeftVertex, UnsteadySolver.backRightVertex,
    geometryOf_eq hp, geometryOf_eq hp', hte, hop, hdt]
  refine ⟨e1, e2, ?_⟩
  by_cases hb : pan.isTrailingEdge
  · simp only [hb, if_true, e1, e2]
    obtain ⟨h1, h2, h3, h4⟩ := himg
    rw [h1, h2, h3, h4]
    simp only [M3.one_mulVec, Bool.false_eq_true, if_false]
    constructor <;> abel
  · simp only [hb, Bool.false_eq_true, if_false]
    obtain ⟨c, hc⟩ := Option.ne_none_iff_exists'.mp (fun e => hb ((made_flags hm hp).trailing.mpr e))
    obtain ⟨-, c', hc', himg'⟩ := h.panel hi hk hc
    have hc2 : panelAt (q.airplanesAt k) { r.ofAirplane i with row := (r.ofAirplane i).row + 1 } = some c' := hc'
    rw [geometryOf_eq hc, geometryOf_eq hc2]
    obtain ⟨f1, f2, -⟩ := himg'.points
    simp only [M3.one_mulVec, Bool.false_eq_true, if_false] at f1 f2
    exact ⟨f1, f2⟩

theorem unit (h : Assembled m P d q) {i : ℕ} (hP : (P i).Made) (hq : q.Made) {k : ℕ} (hi : i < m) (hk : k < q.numSteps)
    {r : PanelRef} {pan : Panel} (hp : panelAt ((P i).airplanesAt k) r = some pan) (x : V3) :
    unitRing q k (r.ofAirplane i) (x + d i) = unitRing (P i) k r x := by
  obtain ⟨e1, e2, e3, e4⟩ := h.ring hP hq hi hk hp
  unfold unitRing
  rw [e1, e2, e3, e4, unitVelocity_moved]

/-- The wings of one of the airplanes. -/
theorem wing (h : Assembled m P d q) {i : ℕ} (hP : (P i).Made) (hq : q.Made) {k : ℕ} (hi : i < m) (hk : k < q.numSteps)
    {w : ℕ} {W : Wing} (hW : (P i).wing? ⟨k, 0, w⟩ = some W) (hn : 0 < W.numSpanwisePanels) :
    ∃ W', q.wing? ⟨k, i, w⟩ = some W' ∧ W'.numSpanwisePanels = W.numSpanwisePanels ∧
      q.chordOf ⟨k, i, w⟩ = (P i).chordOf ⟨k, 0, w⟩ := by
  have hiff : ∀ r j, (panelAt ((P i).airplanesAt k) ⟨0, w, r, j⟩).isSome ↔
      (panelAt (q.airplanesAt k) ⟨i, w, r, j⟩).isSome := by
    intro r j
    rw [Option.isSome_iff_exists, Option.isSome_iff_exists]
    constructor
    · rintro ⟨pan, hp⟩
      obtain ⟨-, pan', hp', -⟩ := h.panel hi hk hp
      exact ⟨pan', hp'⟩
    · rintro ⟨pan, hp⟩
      exact (h.panel' hk hp).2
  have hch : 0 < W.spec.numChordwisePanels := hP.chordwise _ W hW
  have h0 := (hiff 0 0).mp ((panelAt_isSome hP.regular hW 0 0).mpr ⟨hch, hn⟩)
  obtain ⟨pan, hpan⟩ := Option.isSome_iff_exists.mp h0
  obtain ⟨A, W', hA, hW', -⟩ := panelAt_cell hpan
  have hqw : q.wing? ⟨k, i, w⟩ = some W' := Option.bind_eq_some_iff.mpr ⟨A, hA, hW'⟩
  have hcell : ∀ r j, r < W.spec.numChordwisePanels ∧ j < W.numSpanwisePanels ↔
      r < W'.spec.numChordwisePanels ∧ j < W'.numSpanwisePanels := by
    intro r j
    rw [← panelAt_isSome hP.regular hW, hiff, panelAt_isSome hq.regular hqw]
  have c0 := (hcell 0 0).mp ⟨hch, hn⟩
  have e1 : W'.numSpanwisePanels = W.numSpanwisePanels := by
    have a1 := hcell 0 (W.numSpanwisePanels)
    have a2 := hcell 0 (W'.numSpanwisePanels)
    omega
  have e2 : W'.spec.numChordwisePanels = W.spec.numChordwisePanels := by
    have a1 := hcell (W.spec.numChordwisePanels) 0
    have a2 := hcell (W'.spec.numChordwisePanels) 0
    omega
  exact ⟨W', hqw, e1, by simp [UnsteadyProblem.chordOf, hW, hqw, e2]⟩

theorem wing' (h : Assembled m P d q) (hP : ∀ i < m, (P i).Made) (hq : q.Made) {k : ℕ} (hk : k < q.numSteps) {i w : ℕ}
    {W' : Wing} (hW : q.wing? ⟨k, i, w⟩ = some W') (hn : 0 < W'.numSpanwisePanels) :
    i < m ∧ ∃ W, (P i).wing? ⟨k, 0, w⟩ = some W ∧ 0 < W.numSpanwisePanels := by
  have hch : 0 < W'.spec.numChordwisePanels := hq.chordwise _ W' hW
  obtain ⟨pan, hpan⟩ := Option.isSome_iff_exists.mp ((panelAt_isSome hq.regular hW 0 0).mpr ⟨hch, hn⟩)
  obtain ⟨hi, pan', hpan'⟩ := h.panel' hk hpan
  obtain ⟨A, W, hA, hW', -⟩ := panelAt_cell hpan'
  have hpw : (P i).wing? ⟨k, 0, w⟩ = some W := Option.bind_eq_some_iff.mpr ⟨A, hA, hW'⟩
  have hpan'' : panelAt ((P i).airplanesAt k) ⟨0, w, 0, 0⟩ = some pan' := hpan'
  exact ⟨hi, W, hpw, ((panelAt_isSome (hP i hi).regular hpw 0 0).mp (Option.isSome_iff_exists.mpr ⟨_, hpan''⟩)).2⟩

theorem wing_zero (h : Assembled m P d q) {i k a w : ℕ} (hi : i < m) (hk : k < q.numSteps) {W : Wing}
    (hW : (P i).wing? ⟨k, a, w⟩ = some W) : a = 0 := by
  obtain ⟨A, hA, -⟩ := Option.bind_eq_some_iff.mp hW
  obtain ⟨b, -, h1, -⟩ := h.airplanes i hi k hk
  simp only [h1] at hA
  have := (List.getElem?_eq_some_iff.mp hA).1
  simpa using this

/-- The places in the wakes, by airplane. -/
theorem mem_places (h : Assembled m P d q) (hP : ∀ i < m, (P i).Made) (hq : q.Made) {k : ℕ} (hk : k < q.numSteps)
    (c : WakePlace) :
    c ∈ wakePlaces q k ↔ c.airplane < m ∧ c.ofAirplane 0 ∈ wakePlaces (P c.airplane) k := by
  rw [mem_wakePlaces, mem_wakePlaces]
  constructor
  · rintro ⟨h1, W', hW', h2⟩
    obtain ⟨hi, W, hW, hpos⟩ := h.wing' hP hq hk hW' (by omega)
    obtain ⟨W₂, hW₂, e, -⟩ := h.wing (hP _ hi) hq hi hk hW hpos
    rw [hW'] at hW₂
    cases hW₂
    exact ⟨hi, h1, W, hW, by simp only [WakePlace.ofAirplane]; omega⟩
  · rintro ⟨hi, h1, W, hW, h2⟩
    obtain ⟨W', hW', e, -⟩ := h.wing (hP _ hi) hq hi hk hW (by omega)
    exact ⟨h1, W', hW', by simp only [WakePlace.ofAirplane] at h2; omega⟩

theorem place_zero (h : Assembled m P d q) {i k : ℕ} (hi : i < m) (hk : k < q.numSteps) {c : WakePlace}
    (hc : c ∈ wakePlaces (P i) k) : c.airplane = 0 := by
  obtain ⟨-, W, hW, -⟩ := mem_wakePlaces.mp hc
  exact h.wing_zero hi hk hW

theorem place_back {c : WakePlace} (h : c.airplane = 0) (i : ℕ) : (c.ofAirplane i).ofAirplane 0 = c := by
  cases c
  simp only at h
  subst h
  rfl

theorem place_mem (h : Assembled m P d q) (hP : ∀ i < m, (P i).Made) (hq : q.Made) {i k : ℕ} (hi : i < m)
    (hk : k < q.numSteps) {c : WakePlace} (hc : c ∈ wakePlaces (P i) k) : c.ofAirplane i ∈ wakePlaces q k := by
  rw [h.mem_places hP hq hk, place_back (h.place_zero hi hk hc)]
  exact ⟨hi, hc⟩

theorem sum_places (h : Assembled m P d q) (hP : ∀ i < m, (P i).Made) (hq : q.Made) {α : Type*} [AddCommMonoid α]
    {i k : ℕ} (hi : i < m) (hk : k < q.numSteps) (X : WakePlace → α) :
    ((wakePlaces q k).map fun c => if c.airplane = i then X c else 0).sum
      = ((wakePlaces (P i) k).map fun c => X (c.ofAirplane i)).sum := by
  have e : ∀ l : List WakePlace, (l.map fun c => if c.airplane = i then X c else 0).sum
      = ((l.filter fun c => c.airplane = i).map X).sum := by
    intro l
    induction l with
    | nil => rfl
    | cons c l ih =>
      by_cases h : c.airplane = i
      · simp [h, ih]
      · simp [h, ih]
  have hown : ((wakePlaces q k).filter fun c => c.airplane = i).Perm
      ((wakePlaces (P i) k).map fun c => c.ofAirplane i) := by
    apply (List.perm_ext_iff_of_nodup ((wakePlaces_nodup _ _).filter _) ?_).mpr
    · intro c
      simp only [List.mem_filter, List.mem_map, decide_eq_true_eq]
      constructor
      · rintro ⟨hc, rfl⟩
        exact ⟨c.ofAirplane 0, ((h.mem_places hP hq hk c).mp hc).2, rfl⟩
      · rintro ⟨s, hs, rfl⟩
        exact ⟨h.place_mem hP hq hi hk hs, rfl⟩
    · rw [List.nodup_map_iff_inj_on (wakePlaces_nodup _ _)]
      intro r hr s hs e
      rw [← place_back (h.place_zero hi hk hr) i, e, place_back (h.place_zero hi hk hs) i]
  rw [e, (hown.map X).sum_eq, List.map_map]
  rfl

theorem apparent (h : Assembled m P d q) {i : ℕ} (hP : (P i).Made) {k : ℕ} (hi : i < m) (hk : k < q.numSteps)
    {r : PanelRef} {pan : Panel} (hp : panelAt ((P i).airplanesAt k) r = some pan) :
    (UnsteadySolver.apparent q k fun as => (geometryOf as (r.ofAirplane i)).collocationPoint)
      = UnsteadySolver.apparent (P i) k fun as => (geometryOf as r).collocationPoint := by
  unfold UnsteadySolver.apparent
  by_cases h0 : k < 1
  · simp only [if_pos h0]
  · simp only [if_neg h0]
    have hr : r ∈ panelRefs ((P i).airplanesAt (k - 1)) := by
      rw [panelRefs_same hP.regular (h.steps hi (show k - 1 < q.numSteps by omega)) (h.steps hi hk)]
      exact (mem_panelRefs _ _).mpr ⟨pan, hp⟩
    obtain ⟨pan₀, hp₀⟩ := (mem_panelRefs _ _).mp hr
    rw [(h.points hi hk hp).1, (h.points hi (show k - 1 < q.numSteps by omega) hp₀).1, h.deltaTime i hi]
    congr 2
    abel

end Assembled

end Ptera
