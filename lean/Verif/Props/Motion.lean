import Verif.Props.Oscillation
import Verif.Props.StaticMotion

/-!
# Generated motions

C67: reference points, leading edges, cross sections and speeds follow the oscillations that were asked for.
-/

namespace Ptera

noncomputable section

theorem oscillatingLinspace_triangle (A T k : ℝ) (n : ℕ) (dt : ℝ) : ∃ w, (A = 0 ∨ T = 0 → ∀ t, w t = k) ∧
    (0 < T → IsTriangleWave w A T k) ∧ Samples (oscillatingLinspace A T k n dt) n dt w := by
  by_cases h : A = 0 ∨ T = 0
  · by_cases hT : 0 < T
    · obtain ⟨w, h1, h2, h3⟩ := C26_uniform A T k n dt hT
      refine ⟨w, fun _ t => ?_, fun _ => h1, h2⟩
      have hA : A = 0 := h.resolve_right hT.ne'
      have := h3 t
      rw [hA, abs_zero] at this
      linarith [abs_nonpos_iff.mp this]
    · exact ⟨fun _ => k, fun _ _ => rfl, fun h => absurd h hT, (C26_constant A T k n dt id h).2.1⟩
  · by_cases hT : 0 < T
    · obtain ⟨w, h1, h2, -⟩ := C26_uniform A T k n dt hT
      exact ⟨w, fun h' => absurd h' h, fun _ => h1, h2⟩
    · refine ⟨fun t => A * sawtooth (2 * Real.pi / T * t + Real.pi / 2) + k, fun h' => absurd h' h,
        fun h => absurd h hT, ?_⟩
      unfold oscillatingLinspace
      rw [if_neg h]
      exact stepTimes_map n dt _

theorem Oscillation.valuesCustom_prescribed {o : Oscillation} {base : ℝ} {n : ℕ} {dt : ℝ} {l : List ℝ}
    (h : o.valuesCustom base n dt = .ok l) : ∃ w, o.Prescribes base w ∧ Samples l n dt w := by
  by_cases hs : o.spacing = "sine"
  · rw [valuesCustom, if_pos hs, Except.ok.injEq] at h
    subst h
    by_cases h0 : o.amplitude = 0 ∨ o.period = 0
    · exact ⟨fun _ => base, ⟨fun _ _ => rfl, fun a b => absurd h0 (by push Not; exact ⟨a, b⟩)⟩,
        (C26_constant _ _ _ _ _ id h0).1⟩
    · refine ⟨sineWave o.amplitude o.period base, ⟨fun h => absurd h h0, fun _ _ => .inl ⟨hs, fun _ => rfl⟩⟩, ?_⟩
      exact C26_sine _ _ _ _ _ (by push Not at h0; exact h0.2)
  · by_cases hu : o.spacing = "uniform"
    · rw [valuesCustom, if_neg hs, if_pos hu, Except.ok.injEq] at h
      subst h
      obtain ⟨w, h1, h2, h3⟩ := oscillatingLinspace_triangle o.amplitude o.period base n dt
      exact ⟨w, ⟨h1, fun _ _ => .inr (.inl ⟨hu, h2⟩)⟩, h3⟩
    · by_cases hc : o.spacing = "custom"
      · rw [valuesCustom, if_neg hs, if_neg hu, if_pos hc] at h
        cases hf : o.custom with
        | none => rw [hf] at h; cases h
        | some f =>
          rw [hf] at h
          cases h
          by_cases h0 : o.amplitude = 0 ∨ o.period = 0
          · exact ⟨fun _ => base, ⟨fun _ _ => rfl, fun a b => absurd h0 (by push Not; exact ⟨a, b⟩)⟩,
              (C26_constant _ _ _ _ _ f h0).2.2⟩
          · have h0' := h0
            push Not at h0'
            exact ⟨_, ⟨fun h => absurd h h0, fun _ _ => .inr (.inr ⟨hc, f, hf, fun _ => rfl⟩)⟩,
              C26_custom _ _ _ _ _ f h0'.1 h0'.2⟩
      · rw [valuesCustom, if_neg hs, if_neg hu, if_neg hc] at h
        cases h

theorem Oscillation.values_eq_custom {o : Oscillation} {base : ℝ} {n : ℕ} {dt : ℝ} {l : List ℝ}
    (h : o.values base n dt = .ok l) : o.valuesCustom base n dt = .ok l ∧ o.spacing ≠ "custom" := by
  unfold values at h
  unfold valuesCustom
  by_cases hs : o.spacing = "sine"
  · rw [if_pos hs] at h ⊢; exact ⟨h, by rw [hs]; decide⟩
  · by_cases hu : o.spacing = "uniform"
    · rw [if_neg hs, if_pos hu] at h ⊢; exact ⟨h, by rw [hu]; decide⟩
    · rw [if_neg hs, if_neg hu] at h; cases h

theorem Oscillation.values_prescribed {o : Oscillation} {base : ℝ} {n : ℕ} {dt : ℝ} {l : List ℝ}
    (h : o.values base n dt = .ok l) : ∃ w, o.Prescribes base w ∧ Samples l n dt w :=
  valuesCustom_prescribed (values_eq_custom h).1

theorem Samples.getD {l : List ℝ} {n : ℕ} {dt : ℝ} {w : ℝ → ℝ} (h : Samples l n dt w) {k : ℕ} (hk : k < n) :
    l.getD k 0 = w (k * dt) := by
  rw [List.getD, h.2 k hk]; rfl

/-- C67: the generated airplanes: at step `k` the reference point has moved as its oscillations prescribe for the time
`k Δt`, and the wings are those that the wing movements generate for step `k`. -/
theorem C67_airplanes (am : AirplaneMovement) (n : ℕ) (dt : ℝ) (airplanes : List Airplane)
    (h : am.generate n dt = .ok airplanes) :
    ∃ x y z : ℝ → ℝ, am.xRef.Prescribes am.base.xyzRef.x x ∧ am.yRef.Prescribes am.base.xyzRef.y y ∧
      am.zRef.Prescribes am.base.xyzRef.z z ∧ airplanes.length = n ∧
      ∀ (k : ℕ) a, airplanes[k]? = some a → a.xyzRef = ⟨x (k * dt), y (k * dt), z (k * dt)⟩ ∧
        a.wings.length = am.wingMovements.length ∧
        ∀ (i : ℕ) wm, am.wingMovements[i]? = some wm →
          ∃ (wings : List Wing) (w : Wing), wm.generate n dt = .ok wings ∧ wings[k]? = some w ∧ a.wings[i]? = some w := by
  obtain ⟨xs, ys, zs, ws, hx, hy, hz, hw, hlen, hk⟩ := AirplaneMovement.generate_ok h
  obtain ⟨x, px, sx⟩ := Oscillation.values_prescribed hx
  obtain ⟨y, py, sy⟩ := Oscillation.values_prescribed hy
  obtain ⟨z, pz, sz⟩ := Oscillation.values_prescribed hz
  refine ⟨x, y, z, px, py, pz, hlen, ?_⟩
  intro k a ha
  have hkn : k < n := by rw [← hlen]; exact (List.getElem?_eq_some_iff.mp ha).1
  obtain ⟨a', ha', hc⟩ := hk k hkn
  rw [ha, Option.some.injEq] at ha'
  subst ha'
  have hwl : ∀ l ∈ ws, k < l.length := by
    intro l hl
    obtain ⟨wm, _, e⟩ := mapM_mem' hw hl
    obtain ⟨_, _, _, _, _, _, _, _, e2, _⟩ := WingMovement.generate_ok e
    omega
  have hcl := column_length ws k hwl
  rw [mapM_length hw] at hcl
  have hwings : a.wings = ws.filterMap (·[k]?) ∧ a.xyzRef = ⟨xs.getD k 0, ys.getD k 0, zs.getD k 0⟩ := by
    cases hcol : ws.filterMap (·[k]?) with
    | nil => rw [hcol] at hc; cases hc
    | cons w l => rw [hcol] at hc; cases hc; exact ⟨rfl, rfl⟩
  refine ⟨by rw [hwings.2, sx.getD hkn, sy.getD hkn, sz.getD hkn], by rw [hwings.1, hcl], ?_⟩
  intro i wm hwm
  obtain ⟨wings, e1, e2⟩ := mapM_getElem? hw i wm hwm
  obtain ⟨_, _, _, _, _, _, _, _, e3, _⟩ := WingMovement.generate_ok e2
  refine ⟨wings, wings[k], e2, List.getElem?_eq_getElem (by omega), ?_⟩
  rw [hwings.1, column_getElem? ws k hwl, e1]
  exact List.getElem?_eq_getElem (by omega)

/-- C67: the generated wings: at step `k` the leading edge has moved as its oscillations prescribe. -/
theorem C67_wings (wm : WingMovement) (n : ℕ) (dt : ℝ) (wings : List Wing) (h : wm.generate n dt = .ok wings) :
    ∃ x y z : ℝ → ℝ, wm.xLe.Prescribes wm.base.spec.leadingEdge.x x ∧ wm.yLe.Prescribes wm.base.spec.leadingEdge.y y ∧
      wm.zLe.Prescribes wm.base.spec.leadingEdge.z z ∧ wings.length = n ∧
      ∀ (k : ℕ) w, wings[k]? = some w → w.spec.leadingEdge = ⟨x (k * dt), y (k * dt), z (k * dt)⟩ ∧
        w.spec.symmetric = wm.base.spec.symmetric ∧ w.spec.numChordwisePanels = wm.base.spec.numChordwisePanels ∧
        w.spec.chordwiseSpacing = wm.base.spec.chordwiseSpacing ∧ w.sections.length = wm.sectionMovements.length := by
  obtain ⟨xs, ys, zs, hs, hx, hy, hz, hh, hlen, hk⟩ := WingMovement.generate_ok h
  obtain ⟨x, px, sx⟩ := Oscillation.values_prescribed hx
  obtain ⟨y, py, sy⟩ := Oscillation.values_prescribed hy
  obtain ⟨z, pz, sz⟩ := Oscillation.values_prescribed hz
  refine ⟨x, y, z, px, py, pz, hlen, ?_⟩
  intro k w hw
  have hkn : k < n := by rw [← hlen]; exact (List.getElem?_eq_some_iff.mp hw).1
  obtain ⟨w', hw', hc⟩ := hk k hkn
  rw [hw, Option.some.injEq] at hw'
  subst hw'
  obtain ⟨hspec, hacc⟩ := Wing.create_ok _ _ _ _ _ _ _ _ hc
  obtain ⟨hsl, hj⟩ := sectionHistories_ok hh
  have hmem : ∀ h ∈ hs, k < h.length := by
    intro h' hh'
    obtain ⟨i, hi⟩ := List.mem_iff_getElem?.mp hh'
    have hil : i < hs.length := (List.getElem?_eq_some_iff.mp hi).1
    obtain ⟨h'', e1, e2, _⟩ := hj i _ (List.getElem?_eq_getElem (by omega))
    rw [hi] at e1; rw [Option.some.inj e1]; omega
  refine ⟨by rw [hspec, ← sx.getD hkn, ← sy.getD hkn, ← sz.getD hkn], by rw [hspec], by rw [hspec], by rw [hspec], ?_⟩
  rw [hacc.stored, withChordwise, List.length_map, column_length hs k hmem, hsl]

theorem snapshot_sections {wm : WingMovement} {n : ℕ} {dt : ℝ} {wings : List Wing} {hs : List (List WingCrossSection)}
    {le : ℕ → V3} (hh : WingMovement.sectionHistories n dt none wm.sectionMovements = .ok hs)
    (hk : ∀ k < n, ∃ w, wings[k]? = some w ∧ Wing.create (hs.filterMap (·[k]?)) (leadingEdge := le k)
      (symmetric := wm.base.spec.symmetric) (numChordwisePanels := wm.base.spec.numChordwisePanels)
      (chordwiseSpacing := wm.base.spec.chordwiseSpacing) = .ok w) (k : ℕ) (hkn : k < n) (w : Wing)
    (hw : wings[k]? = some w) (i : ℕ) :
    w.sections[i]? = ((hs[i]?).bind (·[k]?)).map fun s : WingCrossSection => { s with wingUnitChordwise := ⟨1, 0, 0⟩ } := by
  obtain ⟨hsl, hj⟩ := sectionHistories_ok hh
  have hmem : ∀ h ∈ hs, k < h.length := by
    intro h' hh'
    obtain ⟨i, hi⟩ := List.mem_iff_getElem?.mp hh'
    have hil : i < hs.length := (List.getElem?_eq_some_iff.mp hi).1
    obtain ⟨h'', e1, e2, _⟩ := hj i _ (List.getElem?_eq_getElem (by omega))
    rw [hi] at e1; rw [Option.some.inj e1]; omega
  obtain ⟨w', hw', hc⟩ := hk k hkn
  rw [hw] at hw'; rw [← Option.some.inj hw'] at hc
  obtain ⟨hspec, hacc⟩ := Wing.create_ok _ _ _ _ _ _ _ _ hc
  rw [hacc.stored, hspec, withChordwise, List.getElem?_map, column_getElem? _ _ hmem]

/-- C67: the root cross section stays at the wing's leading edge and pitches as prescribed. -/
theorem C67_root_section (wm : WingMovement) (n : ℕ) (dt : ℝ) (wings : List Wing) (h : wm.generate n dt = .ok wings)
    (m : WingCrossSectionMovement) (hm : wm.sectionMovements[0]? = some m) :
    ∃ pitch : ℝ → ℝ, m.pitching.Prescribes m.base.twist pitch ∧
      ∀ (k : ℕ) w, wings[k]? = some w → ∃ s, w.sections[0]? = some s ∧ s.leadingEdge = 0 ∧ s.twist = pitch (k * dt) ∧
        s.chord = m.base.chord ∧ s.airfoil = m.base.airfoil ∧ s.deflection = m.base.deflection ∧ s.hinge = m.base.hinge ∧
        s.controlSurfaceType = m.base.controlSurfaceType ∧ s.numSpanwisePanels = m.base.numSpanwisePanels ∧
        s.spanwiseSpacing = m.base.spanwiseSpacing := by
  obtain ⟨xs, ys, zs, hs, -, -, -, hh, hlen, hk⟩ := WingMovement.generate_ok h
  obtain ⟨hsl, hj⟩ := sectionHistories_ok hh
  obtain ⟨H, hH, hHl, hg⟩ := hj 0 m hm
  simp only [if_true, WingMovement.sectionHistory] at hg
  split_ifs at hg
  obtain ⟨sw, pi, he, -, h2, -, -, hstep⟩ := WingCrossSectionMovement.generate_ok hg
  obtain ⟨pitch, pp, sp⟩ := Oscillation.valuesCustom_prescribed h2
  refine ⟨pitch, pp, ?_⟩
  intro k w hw
  have hkn : k < n := by rw [← hlen]; exact (List.getElem?_eq_some_iff.mp hw).1
  have hsec := snapshot_sections hh hk k hkn w hw 0
  obtain ⟨s, hs', hb⟩ := hstep k hkn
  simp only [Bool.false_eq_true, if_false] at hb
  have hb' := rebuild_ok hb
  rw [hH, Option.bind_some, hs', Option.map_some] at hsec
  refine ⟨_, hsec, ?_, ?_, by rw [hb'], by rw [hb'], by rw [hb'], by rw [hb'], by rw [hb'], by rw [hb'], by rw [hb']⟩
  · rw [hb']
    simp only [List.getD, List.getElem?_replicate, hkn, if_true, Option.getD_some]
    ext <;> simp [WingCrossSectionMovement.movedLeadingEdge]
  · rw [hb', ← sp.getD hkn]

/-- C67: every other cross section that is not straight above or below its inner neighbour sweeps, heaves and pitches
as prescribed: its leading edge lies from its inner neighbour's, at their base distance, in the direction given by the
sweep and the heave angle of the time `k Δt`, which oscillate about their base values (the dihedral and the backward
slope of the base section). -/
theorem C67_sections (wm : WingMovement) (n : ℕ) (dt : ℝ) (wings : List Wing) (h : wm.generate n dt = .ok wings)
    (j : ℕ) (m : WingCrossSectionMovement) (hm : wm.sectionMovements[j + 1]? = some m) (w0 : Wing)
    (hw0 : wings[0]? = some w0) (s0 : WingCrossSection) (hs0 : w0.sections[j]? = some s0) (d : V3)
    (hd : d = m.base.leadingEdge - s0.leadingEdge) (hy : d.y ≠ 0) :
    ∃ sweep heave pitch : ℝ → ℝ, m.sweeping.Prescribes (Real.arctan (d.z / d.y) * 180 / Real.pi) sweep ∧
      m.heaving.Prescribes (Real.arctan (d.x / d.y) * 180 / Real.pi) heave ∧
      m.pitching.Prescribes m.base.twist pitch ∧
      ∀ (k : ℕ) w, wings[k]? = some w → ∃ inner outer, w.sections[j]? = some inner ∧ w.sections[j + 1]? = some outer ∧
        outer.leadingEdge = inner.leadingEdge + d.norm • sectionDirection (sweep (k * dt)) (heave (k * dt)) ∧
        outer.twist = pitch (k * dt) := by
  obtain ⟨xs, ys, zs, hs, -, -, -, hh, hlen, hk⟩ := WingMovement.generate_ok h
  obtain ⟨hsl, hj⟩ := sectionHistories_ok hh
  obtain ⟨H, hH, hHl, hg⟩ := hj (j + 1) m hm
  rw [if_neg (by omega), Nat.add_sub_cancel] at hg
  have hjlt : j < wm.sectionMovements.length := by
    have := (List.getElem?_eq_some_iff.mp hm).1; omega
  obtain ⟨I, hI, hIl, -⟩ := hj j _ (List.getElem?_eq_getElem hjlt)
  have h0n : 0 < n := by rw [← hlen]; exact (List.getElem?_eq_some_iff.mp hw0).1
  have i0 := snapshot_sections hh hk 0 h0n w0 hw0 j
  rw [hs0, hI] at i0
  rw [hI] at hg
  cases hIc : I with
  | nil => rw [hIc] at hIl; simp at hIl; omega
  | cons first rest =>
    have hle : s0.leadingEdge = first.leadingEdge := by
      rw [hIc] at i0
      simp only [Option.bind_some, List.getElem?_cons_zero, Option.map_some, Option.some.injEq] at i0
      rw [i0]
    rw [hle] at hd
    rw [hIc] at hg
    simp only [WingMovement.sectionHistory] at hg
    rw [← hd] at hg
    have hne : m.base.leadingEdge.y ≠ first.leadingEdge.y := by
      intro e; apply hy; rw [hd]; simp [e]
    rw [if_pos hne] at hg
    obtain ⟨sw, pi, he, h1, h2, h3, -, hstep⟩ := WingCrossSectionMovement.generate_ok hg
    obtain ⟨sweep, p1, q1⟩ := Oscillation.valuesCustom_prescribed h1
    obtain ⟨pitch, p2, q2⟩ := Oscillation.valuesCustom_prescribed h2
    obtain ⟨heave, p3, q3⟩ := Oscillation.valuesCustom_prescribed h3
    refine ⟨sweep, heave, pitch, p1, p3, p2, ?_⟩
    intro k w hw
    have hkn : k < n := by rw [← hlen]; exact (List.getElem?_eq_some_iff.mp hw).1
    have e1 := snapshot_sections hh hk k hkn w hw j
    have e2 := snapshot_sections hh hk k hkn w hw (j + 1)
    obtain ⟨o, ho, hb⟩ := hstep k hkn
    simp only [Bool.false_eq_true, if_false] at hb
    have hb' := rebuild_ok hb
    obtain ⟨i, hi⟩ : ∃ s, I[k]? = some s := ⟨_, List.getElem?_eq_getElem (by omega)⟩
    rw [hI, Option.bind_some, hi, Option.map_some] at e1
    rw [hH, Option.bind_some, ho, Option.map_some] at e2
    have e : (List.map (fun x => x.leadingEdge) (first :: rest)).getD k 0 = i.leadingEdge := by
      rw [← hIc]; simp [List.getD, hi]
    refine ⟨_, _, e1, e2, ?_, by rw [hb', ← q2.getD hkn]⟩
    rw [hb']
    simp only [e, q1.getD hkn, q3.getD hkn]
    have hn : Real.sqrt (d.x ^ 2 + d.y ^ 2 + d.z ^ 2) = d.norm := by
      unfold V3.norm V3.dot; congr 1; ring
    rw [hn]
    ext <;> simp [WingCrossSectionMovement.movedLeadingEdge, sectionDirection] <;> ring

theorem sectionHistory_rebuilt {n : ℕ} {dt : ℝ} {last : Option (List WingCrossSection)} {m : WingCrossSectionMovement}
    {H : List WingCrossSection} (h : WingMovement.sectionHistory n dt last m = .ok H) (k : ℕ) (hk : k < n) :
    ∃ s le tw, H[k]? = some s ∧
      s = { m.base with leadingEdge := le, twist := tw, unitNormal := ⟨0, 1, 0⟩, wingUnitChordwise := 0 } := by
  have hgen : ∃ last vertical span sweep heave, m.generate n dt last vertical span sweep heave = .ok H := by
    unfold WingMovement.sectionHistory at h
    split at h
    · split_ifs at h
      exact ⟨_, _, _, _, _, h⟩
    · split at h
      · cases h
      · simp only at h
        split_ifs at h
        · exact ⟨_, _, _, _, _, h⟩
        · exact ⟨_, _, _, _, _, h⟩
  obtain ⟨_, vertical, _, _, _, hgen⟩ := hgen
  obtain ⟨_, _, _, -, -, -, -, hstep⟩ := WingCrossSectionMovement.generate_ok hgen
  obtain ⟨s, h1, h2⟩ := hstep k hk
  cases vertical with
  | true => exact ⟨s, _, _, h1, rebuild_ok (by simpa using h2)⟩
  | false => exact ⟨s, _, _, h1, rebuild_ok (by simpa using h2)⟩

/-- C67: every cross section keeps, at every step, its airfoil, chord, control surface and panels. Its plane is the
default one, whatever that of the base section. -/
theorem C67_kept (wm : WingMovement) (n : ℕ) (dt : ℝ) (wings : List Wing) (h : wm.generate n dt = .ok wings)
    (j : ℕ) (m : WingCrossSectionMovement) (hm : wm.sectionMovements[j]? = some m) (k : ℕ) (w : Wing)
    (hw : wings[k]? = some w) :
    ∃ s, w.sections[j]? = some s ∧ s.airfoil = m.base.airfoil ∧ s.chord = m.base.chord ∧
      s.deflection = m.base.deflection ∧ s.hinge = m.base.hinge ∧ s.controlSurfaceType = m.base.controlSurfaceType ∧
      s.numSpanwisePanels = m.base.numSpanwisePanels ∧ s.spanwiseSpacing = m.base.spanwiseSpacing ∧
      s.unitNormal = ⟨0, 1, 0⟩ := by
  obtain ⟨xs, ys, zs, hs, -, -, -, hh, hlen, hk⟩ := WingMovement.generate_ok h
  obtain ⟨hsl, hj⟩ := sectionHistories_ok hh
  obtain ⟨H, hH, hHl, hg⟩ := hj j m hm
  have hkn : k < n := by rw [← hlen]; exact (List.getElem?_eq_some_iff.mp hw).1
  obtain ⟨s, le, tw, e1, e2⟩ := sectionHistory_rebuilt hg k hkn
  have e := snapshot_sections hh hk k hkn w hw j
  rw [hH, Option.bind_some, e1, Option.map_some] at e
  refine ⟨_, e, ?_⟩
  rw [e2]
  exact ⟨rfl, rfl, rfl, rfl, rfl, rfl, rfl, rfl⟩

/-- C67: a cross section straight above or below its inner neighbour does not move, whatever motion is prescribed for it
and however its inner neighbour moves: leading edge and pitch stay those of the base section. -/
theorem C67_vertical (wm : WingMovement) (n : ℕ) (dt : ℝ) (wings : List Wing) (h : wm.generate n dt = .ok wings)
    (j : ℕ) (m : WingCrossSectionMovement) (hm : wm.sectionMovements[j + 1]? = some m) (w0 : Wing)
    (hw0 : wings[0]? = some w0) (s0 : WingCrossSection) (hs0 : w0.sections[j]? = some s0)
    (hy : m.base.leadingEdge.y = s0.leadingEdge.y) (k : ℕ) (w : Wing) (hw : wings[k]? = some w) :
    ∃ s, w.sections[j + 1]? = some s ∧ s.leadingEdge = m.base.leadingEdge ∧ s.twist = m.base.twist := by
  obtain ⟨xs, ys, zs, hs, -, -, -, hh, hlen, hk⟩ := WingMovement.generate_ok h
  obtain ⟨hsl, hj⟩ := sectionHistories_ok hh
  obtain ⟨H, hH, hHl, hg⟩ := hj (j + 1) m hm
  rw [if_neg (by omega), Nat.add_sub_cancel] at hg
  have hjlt : j < wm.sectionMovements.length := by
    have := (List.getElem?_eq_some_iff.mp hm).1; omega
  obtain ⟨I, hI, hIl, -⟩ := hj j _ (List.getElem?_eq_getElem hjlt)
  have h0n : 0 < n := by rw [← hlen]; exact (List.getElem?_eq_some_iff.mp hw0).1
  have i0 := snapshot_sections hh hk 0 h0n w0 hw0 j
  rw [hs0, hI] at i0
  rw [hI] at hg
  have hkn : k < n := by rw [← hlen]; exact (List.getElem?_eq_some_iff.mp hw).1
  cases hIc : I with
  | nil => rw [hIc] at hIl; simp at hIl; omega
  | cons first rest =>
    have hle : s0.leadingEdge = first.leadingEdge := by
      rw [hIc] at i0
      simp only [Option.bind_some, List.getElem?_cons_zero, Option.map_some, Option.some.injEq] at i0
      rw [i0]
    rw [hle] at hy
    rw [hIc] at hg
    simp only [WingMovement.sectionHistory] at hg
    rw [if_neg (not_not.mpr hy)] at hg
    obtain ⟨sw, pi, he, -, -, -, -, hstep⟩ := WingCrossSectionMovement.generate_ok hg
    obtain ⟨o, ho, hb⟩ := hstep k hkn
    simp only [if_true] at hb
    have hb' := rebuild_ok hb
    have e2 := snapshot_sections hh hk k hkn w hw (j + 1)
    rw [hH, Option.bind_some, ho, Option.map_some] at e2
    exact ⟨_, e2, by rw [hb'], by rw [hb']⟩

/-- C67: the generated operating points: at step `k` the speed is what its oscillation prescribes; density, angle of
attack and sideslip stay. -/
theorem C67_operating_points (om : OperatingPointMovement) (n : ℕ) (dt : ℝ) (ops : List OperatingPoint)
    (h : om.generate n dt = .ok ops) :
    ∃ v : ℝ → ℝ, om.velocity.Prescribes om.base.velocity v ∧ ops.length = n ∧
      ∀ (k : ℕ) op, ops[k]? = some op → op.velocity = v (k * dt) ∧ op.density = om.base.density ∧
        op.alpha = om.base.alpha ∧ op.beta = om.base.beta := by
  obtain ⟨vs, h1, hl, hk⟩ := OperatingPointMovement.generate_ok h
  obtain ⟨v, pv, sv⟩ := Oscillation.values_prescribed h1
  refine ⟨v, pv, hl, ?_⟩
  intro k op hop
  have hkn : k < n := by rw [← hl]; exact (List.getElem?_eq_some_iff.mp hop).1
  rw [hk k hkn, Option.some.injEq] at hop
  subst hop
  exact ⟨sv.getD hkn, rfl, rfl, rfl⟩

/-- C67: a movement is accepted only if every oscillation in it has one of the documented spacings: "sine" or
"uniform", and for sweeping, pitching and heaving also "custom" with a function. -/
theorem C67_spacings (ams : List AirplaneMovement) (om : OperatingPointMovement) (numSteps numCycles numChords : Option ℕ)
    (dt : Option ℝ) (mv : Movement) (h : Movement.create ams om numSteps numCycles numChords dt = .ok mv) :
    (om.velocity.spacing = "sine" ∨ om.velocity.spacing = "uniform") ∧
    ∀ am ∈ ams, (∀ o ∈ [am.xRef, am.yRef, am.zRef], o.spacing = "sine" ∨ o.spacing = "uniform") ∧
      ∀ wm ∈ am.wingMovements, (∀ o ∈ [wm.xLe, wm.yLe, wm.zLe], o.spacing = "sine" ∨ o.spacing = "uniform") ∧
        ∀ m ∈ wm.sectionMovements, ∀ o ∈ [m.sweeping, m.pitching, m.heaving],
          o.spacing = "sine" ∨ o.spacing = "uniform" ∨ (o.spacing = "custom" ∧ o.custom.isSome) := by
  have key : ∀ {o : Oscillation} {b : ℝ} {n : ℕ} {dt : ℝ} {l : List ℝ}, o.values b n dt = .ok l →
      o.spacing = "sine" ∨ o.spacing = "uniform" := by
    intro o b n dt l h
    unfold Oscillation.values at h
    split_ifs at h with h1 h2
    · exact .inl h1
    · exact .inr h2
  have keyC : ∀ {o : Oscillation} {b : ℝ} {n : ℕ} {dt : ℝ} {l : List ℝ}, o.valuesCustom b n dt = .ok l →
      o.spacing = "sine" ∨ o.spacing = "uniform" ∨ (o.spacing = "custom" ∧ o.custom.isSome) := by
    intro o b n dt l h
    unfold Oscillation.valuesCustom at h
    split_ifs at h with h1 h2 h3
    · exact .inl h1
    · exact .inr (.inl h2)
    · cases hf : o.custom with
      | none => rw [hf] at h; cases h
      | some f => exact .inr (.inr ⟨h3, rfl⟩)
  obtain ⟨_, _, _, ha, ho, _, _⟩ := Movement.create_ok h
  obtain ⟨vs, h1, -⟩ := OperatingPointMovement.generate_ok ho
  refine ⟨key h1, ?_⟩
  intro am ham
  obtain ⟨as, -, e⟩ := mapM_mem ha ham
  obtain ⟨xs, ys, zs, ws, hx, hy, hz, hw, -⟩ := AirplaneMovement.generate_ok e
  refine ⟨by simpa using ⟨key hx, key hy, key hz⟩, ?_⟩
  intro wm hwm
  obtain ⟨wings, -, e⟩ := mapM_mem hw hwm
  obtain ⟨xs, ys, zs, hs, hx, hy, hz, hh, -⟩ := WingMovement.generate_ok e
  refine ⟨by simpa using ⟨key hx, key hy, key hz⟩, ?_⟩
  intro m hm
  obtain ⟨j, hj⟩ := List.mem_iff_getElem?.mp hm
  obtain ⟨H, -, -, hg⟩ := (sectionHistories_ok hh).2 j m hj
  have hgen : ∃ last vertical span sweep heave, m.generate mv.numSteps mv.deltaTime last vertical span sweep heave = .ok H := by
    unfold WingMovement.sectionHistory at hg
    split at hg
    · split_ifs at hg
      exact ⟨_, _, _, _, _, hg⟩
    · split at hg
      · cases hg
      · simp only at hg
        split_ifs at hg
        · exact ⟨_, _, _, _, _, hg⟩
        · exact ⟨_, _, _, _, _, hg⟩
  obtain ⟨_, _, _, _, _, hgen⟩ := hgen
  obtain ⟨_, _, _, h1, h2, h3, -⟩ := WingCrossSectionMovement.generate_ok hgen
  simpa using ⟨keyC h1, keyC h2, keyC h3⟩

/-- The hypotheses are met: a wing that plunges and whose tip flaps by 15 degrees twice a second. -/
example (n : ℕ) (hn : 0 < n) (dt : ℝ) : ∃ (wm : WingMovement) (wings : List Wing), wm.generate n dt = .ok wings ∧
    ∀ k < n, ∃ (w : Wing) (root tip : WingCrossSection), wings[k]? = some w ∧ w.sections[0]? = some root ∧
      w.sections[1]? = some tip ∧
      w.spec.leadingEdge = ⟨0, 0, 0 + 0.1 * Real.sin (2 * Real.pi * (k * dt) / 0.5)⟩ ∧ root.leadingEdge = 0 ∧
      tip.leadingEdge = 0 + (5 : ℝ) • sectionDirection (0 + 15 * Real.sin (2 * Real.pi * (k * dt) / 0.5)) 0 := by
  obtain ⟨w, h1, h2, h3⟩ := plateMovement_proper ⟨0, 5, 0⟩ 6 (by norm_num)
  have hsec := h2.sections.1
  let flap : WingMovement := { plateMovement w with
    zLe := { amplitude := 0.1, period := 0.5 }
    sectionMovements := [{ base := { plateSection 0 1 0 0 "symmetric" 4 "cosine" with wingUnitChordwise := ⟨1, 0, 0⟩ } },
      { base := { plateSection ⟨0, 5, 0⟩ 1 0 0 "symmetric" 4 "cosine" with wingUnitChordwise := ⟨1, 0, 0⟩ }
        sweeping := { amplitude := 15, period := 0.5 } }] }
  have hp : flap.Proper [plateSection 0 1 0 0 "symmetric" 4 "cosine",
      plateSection ⟨0, 5, 0⟩ 1 0 0 "symmetric" 4 "cosine"] := by
    refine ⟨h2.base, h2.fresh, ?_, ⟨h2.spacings.1, h2.spacings.2.1, Or.inl rfl⟩, ?_, ?_⟩
    · show _ = w.sections
      exact hsec.symm
    · intro m hm
      simp only [flap, List.mem_cons, List.not_mem_nil, or_false] at hm
      rcases hm with rfl | rfl
      · exact ⟨Or.inl rfl, Or.inl rfl, Or.inl rfl⟩
      · exact ⟨Or.inl rfl, Or.inl rfl, Or.inl rfl⟩
    · intro m hm
      simp [flap] at hm
      subst hm
      exact ⟨rfl, rfl, rfl, rfl⟩
  obtain ⟨wings, hw⟩ := C31_wings_generated flap _ hp n hn dt
  refine ⟨flap, wings, hw, ?_⟩
  obtain ⟨x, y, z, px, py, pz, hl, hle⟩ := C67_wings flap n dt wings hw
  obtain ⟨_, -, hr⟩ := C67_root_section flap n dt wings hw _ rfl
  have hw0 := List.getElem?_eq_getElem (show 0 < wings.length by omega)
  obtain ⟨r0, hr0, hr0le, -⟩ := hr 0 _ hw0
  obtain ⟨sweep, heave, pitch, p1, p2, -, ht⟩ := C67_sections flap n dt wings hw 0 _ rfl _ hw0 r0 hr0 ⟨0, 5, 0⟩
    (by rw [hr0le]; simp [plateSection]) (by norm_num)
  have hbase : flap.base.spec.leadingEdge = 0 := by
    show w.spec.leadingEdge = 0
    rw [(Wing.create_ok _ _ _ _ _ _ _ _ h1).1]
  intro k hk
  have hwk := List.getElem?_eq_getElem (show k < wings.length by omega)
  obtain ⟨root, hroot, hrle, -⟩ := hr k _ hwk
  obtain ⟨inner, tip, hi, ht, htle, -⟩ := ht k _ hwk
  rw [hroot, Option.some.injEq] at hi
  subst hi
  refine ⟨_, root, tip, hwk, hroot, ht, ?_, hrle, ?_⟩
  · rw [(hle k _ hwk).1, px.1 (.inl rfl), py.1 (.inl rfl)]
    rcases pz.2 (by norm_num [flap]) (by norm_num [flap]) with ⟨-, h⟩ | ⟨h, -⟩ | ⟨h, -⟩
    · rw [h, hbase]; rfl
    · exact absurd h (by simp [flap])
    · exact absurd h (by simp [flap])
  · rw [htle, hrle, p2.1 (.inl rfl)]
    have hn : (⟨0, 5, 0⟩ : V3).norm = 5 := by
      simp only [V3.norm, V3.dot]
      rw [show (0 * 0 + 5 * 5 + 0 * 0 : ℝ) = 5 ^ 2 by norm_num, Real.sqrt_sq (by norm_num)]
    rcases p1.2 (by norm_num) (by norm_num) with ⟨-, h⟩ | ⟨h, -⟩ | ⟨h, -⟩
    · rw [h, hn]
      simp [sineWave]
    · exact absurd h (by simp)
    · exact absurd h (by simp)

end

end Ptera
