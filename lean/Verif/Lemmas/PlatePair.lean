import Verif.Lemmas.PlateSymmetric
import Verif.Props.Attitude

/-! Helper lemmas: two airplanes, each a heaving plate, side by side. Concrete case for the theorems about the order of
airplanes. -/

namespace Ptera

open UnsteadySolver

namespace PlatePair

open SymmetricPlate

theorem accepted (y z : ℝ) : ∃ w, Wing.create (plates 1) ⟨0, y, z⟩ ⟨0, 1, 0⟩ false ⟨1, 0, 0⟩ 1 "uniform" = .ok w ∧
    w.numSpanwisePanels = 1 ∧ w.spec.numChordwisePanels = 1 ∧ ∃ P, w.panels = [[P]] ∧ IsStrip z y (y + 1) P := by
  obtain ⟨w, -, hw⟩ := plates_create 1 z
  obtain ⟨n1, n2, n3, -⟩ := strip_panels 1 z hw
  obtain ⟨w', hw', -, hp⟩ := C64_translated_wing _ _ _ _ _ _ _ _ hw ⟨0, y, 0⟩
  have e : (⟨0, 0, z⟩ + ⟨0, y, 0⟩ : V3) = ⟨0, y, z⟩ := by ext <;> simp
  rw [e] at hw'
  obtain ⟨hs, ha⟩ := Wing.create_ok _ _ _ _ _ _ _ w' hw'
  refine ⟨w', hw', ?_, by rw [hs], ?_⟩
  · rw [ha.nspan, hs]; simp [plates, plateSection]
  · rw [n2] at hp
    refine ⟨_, hp, ?_, ?_, ?_, ?_, ?_⟩ <;> simp [squareAt] <;> (try ext) <;> simp <;> try ring

theorem panels (y z : ℝ) {w : Wing}
    (hw : Wing.create (plates 1) ⟨0, y, z⟩ ⟨0, 1, 0⟩ false ⟨1, 0, 0⟩ 1 "uniform" = .ok w) :
    w.numSpanwisePanels = 1 ∧ w.spec.numChordwisePanels = 1 ∧ ∃ P, w.panels = [[P]] ∧ IsStrip z y (y + 1) P := by
  obtain ⟨w', hw', h⟩ := accepted y z
  rw [hw, Except.ok.injEq] at hw'
  subst hw'
  exact h

theorem proper (y A P : ℝ) : ∃ w, Wing.create (plates 1) ⟨0, y, 0⟩ ⟨0, 1, 0⟩ false ⟨1, 0, 0⟩ 1 "uniform" = .ok w ∧
      (plateMovement w).Proper (plates 1) ∧ (plateMovement w).Still ∧ (heave w A P).Proper (plates 1) := by
  obtain ⟨w, hw, -⟩ := accepted y 0
  obtain ⟨hspec, hacc⟩ := Wing.create_ok _ _ _ _ _ _ _ _ hw
  have hp : (plateMovement w).Proper (plates 1) := by
    refine ⟨?_, ?_, ?_, ?_, ?_, ?_⟩
    · simp only [plateMovement, hspec]; exact hw
    · intro s hs
      simp only [plates, List.mem_cons, List.not_mem_nil, or_false] at hs
      rcases hs with rfl | rfl <;> unfold WingCrossSection.create <;>
        rw [if_neg (by simp [plateSection]), if_neg (by simp [plateSection]), if_neg (by simp [plateSection])] <;> rfl
    · simp [plateMovement, Function.comp_def]
    · exact ⟨Or.inl rfl, Or.inl rfl, Or.inl rfl⟩
    · intro m' hm'
      simp only [plateMovement, List.mem_map] at hm'
      obtain ⟨s, _, rfl⟩ := hm'
      exact ⟨Or.inl rfl, Or.inl rfl, Or.inl rfl⟩
    · intro m' hm'
      simp only [plateMovement, List.getElem?_map, Option.map_eq_some_iff] at hm'
      obtain ⟨s, _, rfl⟩ := hm'
      exact ⟨rfl, rfl, rfl, rfl⟩
  refine ⟨w, hw, hp, ⟨⟨Or.inl rfl, Or.inl rfl, Or.inl rfl⟩, ?_⟩, ?_⟩
  · intro m' hm'
    simp only [plateMovement, List.mem_map] at hm'
    obtain ⟨s, _, rfl⟩ := hm'
    exact ⟨Or.inl rfl, Or.inl rfl, Or.inl rfl⟩
  · exact ⟨hp.base, hp.fresh, hp.bases, ⟨Or.inl rfl, Or.inl rfl, Or.inl rfl⟩, hp.sectionSpacings, hp.root⟩

theorem wings {y : ℝ} {w : Wing}
    (hw : Wing.create (plates 1) ⟨0, y, 0⟩ ⟨0, 1, 0⟩ false ⟨1, 0, 0⟩ 1 "uniform" = .ok w)
    (hp : (plateMovement w).Proper (plates 1)) (hs : (plateMovement w).Still)
    (A P : ℝ) (n : ℕ) (hn : 0 < n) (dt : ℝ) {ws : List Wing} (h : (heave w A P).generate n dt = .ok ws) :
    ∀ k < n, ∃ wk, ws[k]? = some wk ∧
      Wing.create (plates 1) ⟨0, y, (oscillatingSinspace A P 0 n dt).getD k 0⟩ ⟨0, 1, 0⟩ false ⟨1, 0, 0⟩ 1 "uniform"
        = .ok wk := by
  obtain ⟨xs, ys, zs, H, h1, h2, h3, h4, _, hk⟩ := WingMovement.generate_ok h
  obtain ⟨hspec, _⟩ := Wing.create_ok _ _ _ _ _ _ _ _ hw
  have hH : H = (plates 1).map (List.replicate n) := by
    refine (histories_still hp hs n hn dt h4).mpr ?_
    intro q hq
    simp [plates] at hq
    subst hq
    right
    simp [plateSection]
  have still : ∀ {l} {c : ℝ}, ({} : Oscillation).values c n dt = .ok l → l = List.replicate n c := by
    intro l c hl
    have hv : ({} : Oscillation).Valid := Or.inl rfl
    rw [hv.values_still (Or.inl rfl) c n dt] at hl
    exact (Except.ok.inj hl).symm
  have hx : xs = List.replicate n 0 := by
    change ({} : Oscillation).values w.spec.leadingEdge.x n dt = .ok xs at h1
    rw [hspec] at h1
    exact still h1
  have hy : ys = List.replicate n y := by
    change ({} : Oscillation).values w.spec.leadingEdge.y n dt = .ok ys at h2
    rw [hspec] at h2
    exact still h2
  have hz : zs = oscillatingSinspace A P 0 n dt := by
    change ({ amplitude := A, period := P } : Oscillation).values w.spec.leadingEdge.z n dt = .ok zs at h3
    rw [hspec] at h3
    simp [Oscillation.values] at h3
    exact h3.symm
  intro k hkn
  obtain ⟨wk, e1, e2⟩ := hk k hkn
  rw [hH, column_map_replicate _ _ _ hkn] at e2
  have e3 : (heave w A P).base.spec = w.spec := rfl
  rw [e3, hspec] at e2
  have x0 : xs.getD k 0 = 0 := by rw [hx, List.getD_eq_getElem?_getD]; simp [hkn]
  have y0 : ys.getD k 0 = y := by rw [hy, List.getD_eq_getElem?_getD]; simp [hkn]
  rw [x0, y0, hz] at e2
  exact ⟨wk, e1, e2⟩

/-- Two airplanes, each a plate one chord wide, starting at `y₁` and `y₂` and heaving alike. -/
theorem movement_at (A P : ℝ) : ∃ m : ℝ → AirplaneMovement, (∀ y, ∃ W, (m y).wingMovements = [W] ∧
      (m y).base.xyzRef = 0 ∧ (m y).xRef = {} ∧ (m y).yRef = {} ∧ (m y).zRef = {}) ∧
    ∀ (y₁ y₂ : ℝ) (n : ℕ) (_ : 0 < n) (dt : ℝ)
    (base : OperatingPoint) (only : Bool), (y₁ ≠ y₂ → m y₁ ≠ m y₂) ∧
    ∃ p, study [m y₁, m y₂] { base := base } (some n) none none (some dt) only = .ok p ∧ p.Made ∧ p.numSteps = n ∧
      p.deltaTime = dt ∧ p.maxPeriod = max 0 P ∧
      ∀ k < n, p.operatingPointAt k =
          { density := base.density, velocity := base.velocity, alpha := base.alpha, beta := base.beta } ∧
        ∃ a b u v C D, p.airplanesAt k = [a, b] ∧ a.wings = [u] ∧ b.wings = [v] ∧ u.panels = [[C]] ∧ v.panels = [[D]] ∧
          u.spec.numChordwisePanels = 1 ∧ v.spec.numChordwisePanels = 1 ∧ u.numSpanwisePanels = 1 ∧
          IsStrip ((oscillatingSinspace A P 0 n dt).getD k 0) y₁ (y₁ + 1) C ∧
          IsStrip ((oscillatingSinspace A P 0 n dt).getD k 0) y₂ (y₂ + 1) D := by
  choose U hU pU sU oU using fun y : ℝ => proper y A P
  have hA : ∀ y, ∃ a, Airplane.create [U y] = .ok a ∧ a.xyzRef = 0 := fun y => ⟨_, rfl, rfl⟩
  choose B hB hB0 using hA
  refine ⟨fun y => { base := B y, wingMovements := [heave (U y) A P] }, fun y => ⟨_, rfl, hB0 y, rfl, rfl, rfl⟩, ?_⟩
  intro y₁ y₂ n hn dt base only
  have hu := hU y₁
  have hv := hU y₂
  have pu := pU y₁
  have pv := pU y₂
  have su := sU y₁
  have sv := sU y₂
  have ou := oU y₁
  have ov := oU y₂
  dsimp only
  generalize U y₁ = u at *
  generalize U y₂ = v at *
  generalize B y₁ = a at *
  generalize B y₂ = b at *
  set am : AirplaneMovement := { base := a, wingMovements := [heave u A P] } with ham
  set bm : AirplaneMovement := { base := b, wingMovements := [heave v A P] } with hbm
  set om : OperatingPointMovement := { base := base } with hom
  have hne : y₁ ≠ y₂ → am ≠ bm := by
    intro hy h
    have h' : (heave u A P) = heave v A P := by simpa [ham, hbm] using congrArg AirplaneMovement.wingMovements h
    have h'' : u = v := congrArg WingMovement.base h'
    obtain ⟨e1, -⟩ := Wing.create_ok _ _ _ _ _ _ _ _ hu
    obtain ⟨e2, -⟩ := Wing.create_ok _ _ _ _ _ _ _ _ hv
    have : u.spec.leadingEdge.y = v.spec.leadingEdge.y := by rw [h'']
    rw [e1, e2] at this
    exact hy this
  refine ⟨hne, ?_⟩
  obtain ⟨mv, e1, e2, e3⟩ := C31_movement_accepted [am, bm] om (by simp) (by
      intro am' ham' wm hwm
      simp only [List.mem_cons, List.not_mem_nil, or_false] at ham'
      rcases ham' with rfl | rfl
      · simp [am] at hwm; subst hwm; exact ⟨_, ou⟩
      · simp [bm] at hwm; subst hwm; exact ⟨_, ov⟩) (by
      intro am' ham'
      simp only [List.mem_cons, List.not_mem_nil, or_false] at ham'
      rcases ham' with rfl | rfl <;> exact ⟨Or.inl rfl, Or.inl rfl, Or.inl rfl⟩) (Or.inl rfl) n hn dt
  have hmax : ∀ w : Wing, (plateMovement w).Proper (plates 1) → (heave w A P).maxPeriod = .ok (max 0 P) := by
    intro w hp
    have hsec' : w.sections = withChordwise ⟨1, 0, 0⟩ (plates 1) ∨ ∃ u, w.sections = withChordwise u (plates 1) :=
      .inr ⟨_, hp.sections.1⟩
    have : ∃ u, w.sections = withChordwise u (plates 1) := by rcases hsec' with h | h; exacts [⟨_, h⟩, h]
    obtain ⟨c, hc⟩ := this
    simp [WingMovement.maxPeriod, hc, withChordwise, plates, pyMax, WingCrossSectionMovement.maxPeriod,
      bind, Except.bind, pure, Except.pure, heave, plateMovement]
  have hP : movementMaxPeriod [am, bm] om = .ok (max 0 P) := by
    have ha' : am.maxPeriod = .ok (max 0 P) := by
      simp [AirplaneMovement.maxPeriod, am, hmax u pu, pyMax, bind, Except.bind, pure, Except.pure]
    have hb' : bm.maxPeriod = .ok (max 0 P) := by
      simp [AirplaneMovement.maxPeriod, bm, hmax v pv, pyMax, bind, Except.bind, pure, Except.pure]
    simp [movementMaxPeriod, ha', hb', pyMax, bind, Except.bind, pure, Except.pure, OperatingPointMovement.maxPeriod, om]
  obtain ⟨p, u1, u2, u3, u4, u5, u6⟩ := C31_steady_problems [am, bm] om _ _ _ _ mv e1 (max 0 P) hP only
  obtain ⟨_, _, _, g1, g2, _, _⟩ := Movement.create_ok e1
  refine ⟨p, bind_ok.mpr ⟨mv, e1, u1⟩, ⟨_, _, _, _, _, _, mv, only, _, e1, u1, .inl rfl⟩, by rw [u2, e2], by rw [u3, e3], u4,
    fun k hk => ⟨?_, ?_⟩⟩
  · obtain ⟨sp, s1, s2, s3⟩ := u6 k (by omega)
    have hops := C29_static_operating_point_partial om (Or.inl rfl) (Or.inl rfl) mv.numSteps mv.deltaTime
    rw [hops] at g2
    rw [← Except.ok.inj g2, List.getElem?_replicate, if_pos (by omega)] at s3
    simp only [UnsteadyProblem.operatingPointAt, s1, Option.map_some, Option.getD_some]
    rw [← Option.some.inj s3]
  · obtain ⟨sp, s1, s2, s3⟩ := u6 k (by omega)
    have hf := mapM_forall₂.mp g1
    obtain ⟨hist, tail, hgen, ht, hmv⟩ := List.forall₂_cons_left_iff.mp hf
    obtain ⟨hist2, tail2, hgen2, ht2, htl⟩ := List.forall₂_cons_left_iff.mp ht
    obtain rfl := List.forall₂_nil_left_iff.mp ht2
    subst htl
    rw [hmv] at s2
    obtain ⟨ak, tail', hak, ht', hsp⟩ := List.forall₂_cons_left_iff.mp s2
    obtain ⟨bk, tail2', hbk, ht2', htl'⟩ := List.forall₂_cons_left_iff.mp ht'
    obtain rfl := List.forall₂_nil_left_iff.mp ht2'
    subst htl'
    have key : ∀ (y : ℝ) (w : Wing) (A₀ : Airplane) (hist : List Airplane) (A' : Airplane),
        Wing.create (plates 1) ⟨0, y, 0⟩ ⟨0, 1, 0⟩ false ⟨1, 0, 0⟩ 1 "uniform" = .ok w →
        (plateMovement w).Proper (plates 1) → (plateMovement w).Still →
        ({ base := A₀, wingMovements := [heave w A P] } : AirplaneMovement).generate mv.numSteps mv.deltaTime = .ok hist →
        hist[k]? = some A' → ∃ wk C, A'.wings = [wk] ∧ wk.panels = [[C]] ∧ wk.spec.numChordwisePanels = 1 ∧
          wk.numSpanwisePanels = 1 ∧ IsStrip ((oscillatingSinspace A P 0 n dt).getD k 0) y (y + 1) C := by
      intro y w A₀ hist A' hw hp hs hgen hak
      obtain ⟨_, _, _, ws, _, _, _, hws, _, hall⟩ := AirplaneMovement.generate_ok hgen
      obtain ⟨wl, wtail, hwl, hwt, hws'⟩ := List.forall₂_cons_left_iff.mp (mapM_forall₂.mp hws)
      obtain rfl := List.forall₂_nil_left_iff.mp hwt
      subst hws'
      rw [e2, e3] at hwl
      obtain ⟨wk, w1, w2⟩ := wings hw hp hs A P n hn dt hwl k hk
      obtain ⟨n1, n2, C, n3, n4⟩ := panels _ _ w2
      obtain ⟨ak', a1, a2⟩ := hall k (by omega)
      rw [hak] at a1
      obtain rfl := Option.some.inj a1
      simp only [List.filterMap_cons, w1, List.filterMap_nil, Airplane.create, Except.ok.injEq] at a2
      exact ⟨wk, C, by rw [← a2], n3, n2, n1, n4⟩
    obtain ⟨uk, C, c1, c2, c3, c4, c5⟩ := key y₁ u a hist ak hu pu su hgen hak
    obtain ⟨vk, D, d1, d2, d3, d4, d5⟩ := key y₂ v b hist2 bk hv pv sv hgen2 hbk
    exact ⟨ak, bk, uk, vk, C, D, by simp [UnsteadyProblem.airplanesAt, s1, hsp], c1, d1, c2, d2, c3, d3, c4, c5, d5⟩

/-- Two airplanes, each a plate one chord wide, side by side and heaving alike. -/
theorem movement (A P : ℝ) (n : ℕ) (hn : 0 < n) (dt : ℝ) (base : OperatingPoint) (only : Bool) :
    ∃ am bm : AirplaneMovement, am ≠ bm ∧
    ∃ p, study [am, bm] { base := base } (some n) none none (some dt) only = .ok p ∧ p.Made ∧ p.numSteps = n ∧
      p.deltaTime = dt ∧ p.maxPeriod = max 0 P ∧
      ∀ k < n, p.operatingPointAt k =
          { density := base.density, velocity := base.velocity, alpha := base.alpha, beta := base.beta } ∧
        ∃ a b u v C D, p.airplanesAt k = [a, b] ∧ a.wings = [u] ∧ b.wings = [v] ∧ u.panels = [[C]] ∧ v.panels = [[D]] ∧
          u.spec.numChordwisePanels = 1 ∧ v.spec.numChordwisePanels = 1 ∧ u.numSpanwisePanels = 1 ∧
          IsStrip ((oscillatingSinspace A P 0 n dt).getD k 0) (-1) 0 C ∧
          IsStrip ((oscillatingSinspace A P 0 n dt).getD k 0) 0 1 D := by
  obtain ⟨m, -, hm⟩ := movement_at A P
  obtain ⟨hne, p, h1, h2, h3, h4, h5, h6⟩ := hm (-1) 0 n hn dt base only
  rw [neg_add_cancel, _root_.zero_add] at h6
  exact ⟨_, _, hne (by norm_num), p, h1, h2, h3, h4, h5, h6⟩

end PlatePair

end Ptera
