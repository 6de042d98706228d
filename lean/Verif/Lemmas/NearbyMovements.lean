import Verif.Spec.NearbyMovements
import Verif.Lemmas.NearbyWings
import Verif.Lemmas.GeneratedAirplanes
import Mathlib.Topology.Algebra.Order.Floor
import Mathlib.Topology.Algebra.InfiniteSum.Real

/-! The positions that a movement generates depend continuously on its numbers. -/

namespace Ptera

open Filter Topology

/-! ## Waves -/

theorem sawtooth_eq (t : ℝ) : sawtooth t = 1 - |4 * Int.fract (t / (2 * Real.pi)) - 2| := by
  have hpi := Real.pi_pos
  unfold sawtooth
  have e : t - 2 * Real.pi * ⌊t / (2 * Real.pi)⌋ = 2 * Real.pi * Int.fract (t / (2 * Real.pi)) := by
    rw [Int.fract]; field_simp
  simp only [e]
  set u := Int.fract (t / (2 * Real.pi))
  split_ifs with h
  · have hu : u < 1 / 2 := by
      by_contra hc
      push Not at hc
      nlinarith
    rw [abs_of_neg (by linarith)]
    field_simp
    ring
  · have hu : 1 / 2 ≤ u := by
      by_contra hc
      push Not at hc
      apply h
      nlinarith
    rw [abs_of_nonneg (by linarith)]
    field_simp
    ring

theorem sawtooth_continuous : Continuous sawtooth := by
  have h : Continuous ((fun u : ℝ => 1 - |4 * u - 2|) ∘ Int.fract) :=
    ContinuousOn.comp_fract'' (by fun_prop) (by norm_num)
  have e : sawtooth = fun t => ((fun u : ℝ => 1 - |4 * u - 2|) ∘ Int.fract) (t / (2 * Real.pi)) := by
    funext t; rw [sawtooth_eq]; rfl
  rw [e]
  exact h.comp (continuous_id.div_const _)

theorem sawtooth_le_one (t : ℝ) : |sawtooth t| ≤ 1 := by
  rw [sawtooth_eq]
  have h1 := Int.fract_nonneg (t / (2 * Real.pi))
  have h2 := (Int.fract_lt_one (t / (2 * Real.pi))).le
  rw [abs_le]
  constructor
  · have : |4 * Int.fract (t / (2 * Real.pi)) - 2| ≤ 2 := abs_le.mpr ⟨by linarith, by linarith⟩
    linarith
  · linarith [abs_nonneg (4 * Int.fract (t / (2 * Real.pi)) - 2)]

/-- The wave of an oscillation, of amplitude one and period `2π`. -/
noncomputable def Oscillation.wave (o : Oscillation) (x : ℝ) : ℝ :=
  if o.spacing = "sine" then Real.sin x
  else if o.spacing = "uniform" then sawtooth (x + Real.pi / 2)
  else (o.custom.getD id) x

open Classical in
/-- The value of an oscillation at a time. -/
noncomputable def Oscillation.valueAt (o : Oscillation) (base t : ℝ) : ℝ :=
  if o.amplitude = 0 ∨ o.period = 0 then base else o.amplitude * o.wave (2 * Real.pi / o.period * t) + base

theorem Oscillation.valuesCustom_at {o : Oscillation} {base : ℝ} {n : ℕ} {dt : ℝ} {l : List ℝ}
    (h : o.valuesCustom base n dt = .ok l) {k : ℕ} (hk : k < n) : l.getD k 0 = o.valueAt base (k * dt) := by
  have key : Samples l n dt (o.valueAt base) := by
    unfold valuesCustom at h
    unfold valueAt wave
    by_cases hs : o.spacing = "sine"
    · rw [if_pos hs, Except.ok.injEq] at h
      subst h
      unfold oscillatingSinspace
      by_cases h0 : o.amplitude = 0 ∨ o.period = 0
      · simp only [if_pos h0]; exact constList_samples _ _ _
      · simp only [if_neg h0, if_pos hs, sub_zero]
        exact stepTimes_map n dt _
    · by_cases hu : o.spacing = "uniform"
      · rw [if_neg hs, if_pos hu, Except.ok.injEq] at h
        subst h
        unfold oscillatingLinspace
        by_cases h0 : o.amplitude = 0 ∨ o.period = 0
        · simp only [if_pos h0]; exact constList_samples _ _ _
        · simp only [if_neg h0, if_neg hs, if_pos hu]
          exact stepTimes_map n dt _
      · rw [if_neg hs, if_neg hu] at h
        by_cases hc : o.spacing = "custom"
        · rw [if_pos hc] at h
          cases hf : o.custom with
          | none => rw [hf] at h; cases h
          | some f =>
            rw [hf] at h
            cases h
            unfold oscillatingCustomspace
            by_cases h0 : o.amplitude = 0 ∨ o.period = 0
            · simp only [if_pos h0]; exact constList_samples _ _ _
            · simp only [if_neg h0, if_neg hs, if_neg hu, sub_zero, Option.getD_some]
              exact stepTimes_map n dt _
        · rw [if_neg hc] at h; cases h
  exact key.getD hk

theorem Oscillation.wave_le_one {o : Oscillation} (h : o.spacing = "sine" ∨ o.spacing = "uniform") (x : ℝ) : |o.wave x| ≤ 1 := by
  unfold wave
  by_cases hs : o.spacing = "sine"
  · rw [if_pos hs]; exact Real.abs_sin_le_one x
  · rw [if_neg hs, if_pos (h.resolve_left hs)]; exact sawtooth_le_one _

theorem Oscillation.wave_continuous {o : Oscillation} (h : ∀ f, o.custom = some f → Continuous f) : Continuous o.wave := by
  unfold wave
  by_cases hs : o.spacing = "sine"
  · simp only [if_pos hs]; exact Real.continuous_sin
  · by_cases hu : o.spacing = "uniform"
    · simp only [if_neg hs, if_pos hu]
      exact sawtooth_continuous.comp (continuous_id.add continuous_const)
    · simp only [if_neg hs, if_neg hu]
      cases hf : o.custom with
      | none => exact continuous_id
      | some f => exact h f hf

theorem Oscillation.Near.wave {δ : ℝ} {o o' : Oscillation} (h : o.Near δ o') : o'.wave = o.wave := by
  funext x
  unfold Oscillation.wave
  rw [h.spacing, h.custom]

variable {ι : Type*} {F : Filter ι}

theorem valueAt_tends {O : ι → Oscillation} {o : Oscillation} {δ : ι → ℝ} (hδ : Tendsto δ F (𝓝 0))
    (hn : ∀ n, o.Near (δ n) (O n)) (hsp : o.spacing = "sine" ∨ o.spacing = "uniform" ∨ o.spacing = "custom")
    (hc : ∀ f, o.custom = some f → Continuous f) {B t : ι → ℝ} {b s : ℝ} (hB : Tendsto B F (𝓝 b)) (ht : Tendsto t F (𝓝 s)) :
    Tendsto (fun n => (O n).valueAt (B n) (t n)) F (𝓝 (o.valueAt b s)) := by
  have hA : Tendsto (fun n => (O n).amplitude) F (𝓝 o.amplitude) := num_tends hδ fun n => (hn n).amplitude
  by_cases h1 : o.amplitude = 0 ∧ o.spacing ≠ "custom"
  · have hb : ∀ n, |(O n).valueAt (B n) (t n) - B n| ≤ |(O n).amplitude| := by
      intro n
      unfold Oscillation.valueAt
      split_ifs with h
      · simp
      · rw [add_sub_cancel_right, abs_mul, (hn n).wave]
        have hsp' : o.spacing = "sine" ∨ o.spacing = "uniform" := by
          rcases hsp with h | h | h
          · exact Or.inl h
          · exact Or.inr h
          · exact absurd h h1.2
        exact mul_le_of_le_one_right (abs_nonneg _) (Oscillation.wave_le_one hsp' _)
    rw [h1.1] at hA
    have hz : Tendsto (fun n => (O n).valueAt (B n) (t n) - B n) F (𝓝 0) :=
      squeeze_zero_norm (a := fun n => |(O n).amplitude|) hb (by simpa using hA.abs)
    have := hz.add hB
    simp only [sub_add_cancel, zero_add] at this
    unfold Oscillation.valueAt
    rw [if_pos (Or.inl h1.1)]
    exact this
  · by_cases h2 : o.period = 0
    · have hv : ∀ n, (O n).valueAt (B n) (t n) = B n := by
        intro n
        obtain ⟨ha, h⟩ := (hn n).period.resolve_left fun h => h.1 h2
        unfold Oscillation.valueAt
        rw [if_pos (Or.inl (h.resolve_right fun h => h1 ⟨ha, h⟩))]
      simp only [hv]
      unfold Oscillation.valueAt
      rw [if_pos (Or.inr h2)]
      exact hB
    · classical
      set T : ι → ℝ := fun n => if |(O n).period - o.period| < δ n then (O n).period else o.period with hT
      have hTt : Tendsto T F (𝓝 o.period) := by
        refine tendsto_iff_dist_tendsto_zero.mpr (squeeze_zero (fun _ => dist_nonneg) (fun n => ?_) hδ)
        rw [Real.dist_eq]
        simp only [hT]
        split_ifs with h
        · exact h.le
        · rw [sub_self, abs_zero]
          exact ((abs_nonneg _).trans_lt (hn n).amplitude).le
      have hne : ∀ᶠ n in F, T n ≠ 0 := hTt.eventually (isOpen_ne.mem_nhds h2)
      have hev : ∀ᶠ n in F, (O n).amplitude * o.wave (2 * Real.pi / T n * t n) + B n = (O n).valueAt (B n) (t n) := by
        filter_upwards [hne] with n hn0
        unfold Oscillation.valueAt
        rw [(hn n).wave]
        by_cases h : |(O n).period - o.period| < δ n
        · have e : T n = (O n).period := if_pos h
          rw [e] at hn0 ⊢
          by_cases ha : (O n).amplitude = 0
          · rw [if_pos (Or.inl ha), ha]; simp
          · rw [if_neg (by push Not; exact ⟨ha, hn0⟩)]
        · obtain ⟨ha, h'⟩ := (hn n).period.resolve_left fun g => h g.2
          have ha' := h'.resolve_right fun g => h1 ⟨ha, g⟩
          rw [if_pos (Or.inl ha'), ha']; simp
      have hlim : o.valueAt b s = o.amplitude * o.wave (2 * Real.pi / o.period * s) + b := by
        unfold Oscillation.valueAt
        by_cases ha : o.amplitude = 0
        · rw [if_pos (Or.inl ha), ha]; simp
        · rw [if_neg (by push Not; exact ⟨ha, h2⟩)]
      rw [hlim]
      refine Tendsto.congr' hev ((hA.mul ?_).add hB)
      exact ((Oscillation.wave_continuous hc).tendsto _).comp (((tendsto_const_nhds.div hTt h2)).mul ht)

/-! ## Cross sections -/

theorem Oscillation.valuesCustom_spacing {o : Oscillation} {base : ℝ} {n : ℕ} {dt : ℝ} {l : List ℝ}
    (h : o.valuesCustom base n dt = .ok l) : o.spacing = "sine" ∨ o.spacing = "uniform" ∨ o.spacing = "custom" := by
  unfold valuesCustom at h
  by_contra hc
  push Not at hc
  rw [if_neg hc.1, if_neg hc.2.1, if_neg hc.2.2] at h
  cases h

theorem generated_root {wm : WingMovement} {n : ℕ} {dt : ℝ} {wings : List Wing} (h : wm.generate n dt = .ok wings)
    {m : WingCrossSectionMovement} (hm : wm.sectionMovements[0]? = some m) {k : ℕ} {w : Wing} (hw : wings[k]? = some w) :
    (m.pitching.spacing = "sine" ∨ m.pitching.spacing = "uniform" ∨ m.pitching.spacing = "custom") ∧
    ∃ s, w.sections[0]? = some s ∧ s.leadingEdge = 0 ∧ s.twist = m.pitching.valueAt m.base.twist (k * dt) := by
  obtain ⟨xs, ys, zs, hs, -, -, -, hh, hlen, hk⟩ := WingMovement.generate_ok h
  obtain ⟨hsl, hj⟩ := sectionHistories_ok hh
  obtain ⟨H, hH, hHl, hg⟩ := hj 0 m hm
  simp only [if_true, WingMovement.sectionHistory] at hg
  split_ifs at hg
  obtain ⟨sw, pi, he, -, h2, -, -, hstep⟩ := WingCrossSectionMovement.generate_ok hg
  refine ⟨Oscillation.valuesCustom_spacing h2, ?_⟩
  have hkn : k < n := by rw [← hlen]; exact (List.getElem?_eq_some_iff.mp hw).1
  have hsec := snapshot_sections hh hk k hkn w hw 0
  obtain ⟨s, hs', hb⟩ := hstep k hkn
  simp only [Bool.false_eq_true, if_false] at hb
  have hb' := rebuild_ok hb
  rw [hH, Option.bind_some, hs', Option.map_some] at hsec
  refine ⟨_, hsec, ?_, ?_⟩
  · rw [hb']
    simp only [List.getD, List.getElem?_replicate, hkn, if_true, Option.getD_some]
    ext <;> simp [WingCrossSectionMovement.movedLeadingEdge]
  · rw [hb']; exact Oscillation.valuesCustom_at h2 hkn

theorem generated_outer {wm : WingMovement} {n : ℕ} {dt : ℝ} {wings : List Wing} (h : wm.generate n dt = .ok wings)
    {j : ℕ} {m : WingCrossSectionMovement} (hm : wm.sectionMovements[j + 1]? = some m) {w0 : Wing}
    (hw0 : wings[0]? = some w0) {s0 : WingCrossSection} (hs0 : w0.sections[j]? = some s0) {d : V3}
    (hd : d = m.base.leadingEdge - s0.leadingEdge) (hy : d.y ≠ 0) :
    (∀ o ∈ [m.sweeping, m.pitching, m.heaving], o.spacing = "sine" ∨ o.spacing = "uniform" ∨ o.spacing = "custom") ∧
    ∀ (k : ℕ) w, wings[k]? = some w → ∃ inner outer, w.sections[j]? = some inner ∧ w.sections[j + 1]? = some outer ∧
      outer.leadingEdge = inner.leadingEdge + d.norm • sectionDirection
        (m.sweeping.valueAt (Real.arctan (d.z / d.y) * 180 / Real.pi) (k * dt))
        (m.heaving.valueAt (Real.arctan (d.x / d.y) * 180 / Real.pi) (k * dt)) ∧
      outer.twist = m.pitching.valueAt m.base.twist (k * dt) := by
  obtain ⟨xs, ys, zs, hs, -, -, -, hh, hlen, hk⟩ := WingMovement.generate_ok h
  obtain ⟨hsl, hj⟩ := sectionHistories_ok hh
  obtain ⟨H, hH, hHl, hg⟩ := hj (j + 1) m hm
  rw [if_neg (by omega), Nat.add_sub_cancel] at hg
  have hjlt : j < wm.sectionMovements.length := by
    have := (List.getElem?_eq_some_iff.mp hm).1; omega
  obtain ⟨I, hI, hIl, -⟩ := hj j _ (List.getElem?_eq_getElem hjlt)
  have h0n : 0 < n := by rw [← hlen]; exact (List.getElem?_eq_some_iff.mp hw0).1
  have i0 := snapshot_sections hh hk 0 h0n w0 hw0 j
  rw [hs0, hI] at i0
  rw [hI] at hg
  cases hIc : I with
  | nil => rw [hIc] at hIl; simp at hIl; omega
  | cons first rest =>
    have hle : s0.leadingEdge = first.leadingEdge := by
      rw [hIc] at i0
      simp only [Option.bind_some, List.getElem?_cons_zero, Option.map_some, Option.some.injEq] at i0
      rw [i0]
    rw [hle] at hd
    rw [hIc] at hg
    simp only [WingMovement.sectionHistory] at hg
    rw [← hd] at hg
    have hne : m.base.leadingEdge.y ≠ first.leadingEdge.y := by
      intro e; apply hy; rw [hd]; simp [e]
    rw [if_pos hne] at hg
    obtain ⟨sw, pi, he, h1, h2, h3, -, hstep⟩ := WingCrossSectionMovement.generate_ok hg
    refine ⟨?_, ?_⟩
    · intro o ho
      simp only [List.mem_cons, List.not_mem_nil, or_false] at ho
      rcases ho with rfl | rfl | rfl
      · exact Oscillation.valuesCustom_spacing h1
      · exact Oscillation.valuesCustom_spacing h2
      · exact Oscillation.valuesCustom_spacing h3
    intro k w hw
    have hkn : k < n := by rw [← hlen]; exact (List.getElem?_eq_some_iff.mp hw).1
    have e1 := snapshot_sections hh hk k hkn w hw j
    have e2 := snapshot_sections hh hk k hkn w hw (j + 1)
    obtain ⟨o, ho, hb⟩ := hstep k hkn
    simp only [Bool.false_eq_true, if_false] at hb
    have hb' := rebuild_ok hb
    obtain ⟨i, hi⟩ : ∃ s, I[k]? = some s := ⟨_, List.getElem?_eq_getElem (by omega)⟩
    rw [hI, Option.bind_some, hi, Option.map_some] at e1
    rw [hH, Option.bind_some, ho, Option.map_some] at e2
    have e : (List.map (fun x => x.leadingEdge) (first :: rest)).getD k 0 = i.leadingEdge := by
      rw [← hIc]; simp [List.getD, hi]
    refine ⟨_, _, e1, e2, ?_, by rw [hb']; exact Oscillation.valuesCustom_at h2 hkn⟩
    rw [hb']
    simp only [e, Oscillation.valuesCustom_at h1 hkn, Oscillation.valuesCustom_at h3 hkn]
    have hn : Real.sqrt (d.x ^ 2 + d.y ^ 2 + d.z ^ 2) = d.norm := by
      unfold V3.norm V3.dot; congr 1; ring
    rw [hn]
    ext <;> simp [WingCrossSectionMovement.movedLeadingEdge, sectionDirection] <;> ring

theorem sectionDirection_tends {a b : ι → ℝ} {x y : ℝ} (ha : Tendsto a F (𝓝 x)) (hb : Tendsto b F (𝓝 y)) :
    V3.Tends (fun n => sectionDirection (a n) (b n)) F (sectionDirection x y) := by
  have hc : Continuous fun z : ℝ => Real.cos (z * Real.pi / 180) := by fun_prop
  have hs : Continuous fun z : ℝ => Real.sin (z * Real.pi / 180) := by fun_prop
  exact ⟨((hc.tendsto x).comp ha).mul ((hs.tendsto y).comp hb), ((hc.tendsto x).comp ha).mul ((hc.tendsto y).comp hb),
    (hs.tendsto x).comp ha⟩

theorem section_tends {M : ι → WingMovement} {wm : WingMovement} {δ : ι → ℝ} (hδ : Tendsto δ F (𝓝 0))
    (hn : ∀ n, wm.Near (δ n) (M n)) {dt : ι → ℝ} {dt₀ : ℝ} (hdt : Tendsto dt F (𝓝 dt₀)) {N : ℕ} {ws : List Wing}
    (h : wm.generate N dt₀ = .ok ws) {Ws : ι → List Wing} (h' : ∀ n, (M n).generate N (dt n) = .ok (Ws n))
    (hreg : wm.Regular N dt₀) (j : ℕ) : ∀ m, wm.sectionMovements[j]? = some m → ∀ (k : ℕ) (w : Wing) (W : ι → Wing),
      ws[k]? = some w → (∀ n, (Ws n)[k]? = some (W n)) → ∃ (s : WingCrossSection) (t : ι → WingCrossSection),
        w.sections[j]? = some s ∧ (∀ n, (W n).sections[j]? = some (t n)) ∧
        V3.Tends (fun n => (t n).leadingEdge) F s.leadingEdge ∧ Tendsto (fun n => (t n).twist) F (𝓝 s.twist) := by
  have hmoves : ∀ (j : ℕ) m, wm.sectionMovements[j]? = some m →
      ∃ m' : ι → WingCrossSectionMovement, ∀ n, (M n).sectionMovements[j]? = some (m' n) ∧ m.Near (δ n) (m' n) := by
    intro j m hm
    obtain ⟨l, rfl⟩ := List.getElem?_eq_some_iff.mp hm
    refine ⟨fun n => (M n).sectionMovements[j]'(by rw [← (hn n).sections.length_eq]; exact l), fun n => ⟨by simp, ?_⟩⟩
    exact (hn n).sections.get l _
  have htime : ∀ k : ℕ, Tendsto (fun n => (k : ℝ) * dt n) F (𝓝 (k * dt₀)) := fun k => hdt.const_mul _
  have hcont : ∀ {j : ℕ} {m : WingCrossSectionMovement}, wm.sectionMovements[j]? = some m → ∀ o ∈ [m.sweeping, m.pitching, m.heaving],
      ∀ f, o.custom = some f → Continuous f := fun hm => hreg.1 _ (List.mem_of_getElem? hm)
  induction j with
  | zero =>
    intro m hm k w W hw hW
    obtain ⟨m', hm'⟩ := hmoves 0 m hm
    obtain ⟨hsp, s, h1, h2, h3⟩ := generated_root h hm hw
    choose _ t g1 g2 g3 using fun n => generated_root (h' n) (hm' n).1 (hW n)
    refine ⟨s, t, h1, g1, ?_, ?_⟩
    · simp only [g2, h2]; exact V3.Tends.const 0
    · simp only [g3, h3]
      exact valueAt_tends hδ (fun n => (hm' n).2.pitching) hsp (hcont hm _ (by simp))
        (num_tends hδ fun n => (hm' n).2.base.twist) (htime k)
  | succ j ih =>
    intro m hm k w W hw hW
    obtain ⟨m', hm'⟩ := hmoves (j + 1) m hm
    have hjlt : j < wm.sectionMovements.length := by
      have := (List.getElem?_eq_some_iff.mp hm).1; omega
    have hlen := (WingMovement.generate_dims h).1
    have hlen' := fun n => (WingMovement.generate_dims (h' n)).1
    have h0 : 0 < N := by have := (List.getElem?_eq_some_iff.mp hw).1; omega
    obtain ⟨w0, hw0⟩ : ∃ w0, ws[0]? = some w0 := ⟨_, List.getElem?_eq_getElem (by omega)⟩
    obtain ⟨W0, hW0⟩ : ∃ W0 : ι → Wing, ∀ n, (Ws n)[0]? = some (W0 n) :=
      ⟨fun n => (Ws n)[0]'(by rw [hlen' n]; exact h0), fun n => by simp⟩
    obtain ⟨s0, t0, a1, a2, a3, -⟩ := ih _ (List.getElem?_eq_getElem hjlt) 0 w0 W0 hw0 hW0
    obtain ⟨i, i', b1, b2, b3, -⟩ := ih _ (List.getElem?_eq_getElem hjlt) k w W hw hW
    have hy : (m.base.leadingEdge - s0.leadingEdge).y ≠ 0 := by
      simpa [sub_ne_zero] using hreg.2 ws w0 h hw0 j m s0 hm a1
    have hD : V3.Tends (fun n => (m' n).base.leadingEdge - (t0 n).leadingEdge) F (m.base.leadingEdge - s0.leadingEdge) :=
      (vec_tends hδ fun n => (hm' n).2.base.leadingEdge).sub a3
    have hev : ∀ᶠ n in F, ((m' n).base.leadingEdge - (t0 n).leadingEdge).y ≠ 0 :=
      hD.2.1.eventually (isOpen_ne.mem_nhds hy)
    obtain ⟨hsp, hout⟩ := generated_outer h hm hw0 a1 rfl hy
    obtain ⟨inner, s, c1, c2, c3, c4⟩ := hout k w hw
    rw [b1] at c1; cases c1
    choose t e1 _ using fun n => C67_kept (M n) N (dt n) (Ws n) (h' n) (j + 1) (m' n) (hm' n).1 k (W n) (hW n)
    have hevs : ∀ᶠ n in F, (t n).leadingEdge = (i' n).leadingEdge +
        ((m' n).base.leadingEdge - (t0 n).leadingEdge).norm • sectionDirection
          ((m' n).sweeping.valueAt (Real.arctan (((m' n).base.leadingEdge - (t0 n).leadingEdge).z /
            ((m' n).base.leadingEdge - (t0 n).leadingEdge).y) * 180 / Real.pi) (k * dt n))
          ((m' n).heaving.valueAt (Real.arctan (((m' n).base.leadingEdge - (t0 n).leadingEdge).x /
            ((m' n).base.leadingEdge - (t0 n).leadingEdge).y) * 180 / Real.pi) (k * dt n)) ∧
        (t n).twist = (m' n).pitching.valueAt (m' n).base.twist (k * dt n) := by
      filter_upwards [hev] with n hy'
      obtain ⟨_, hout'⟩ := generated_outer (h' n) (hm' n).1 (hW0 n) (a2 n) rfl hy'
      obtain ⟨_, _, d1, d2, d3, d4⟩ := hout' k (W n) (hW n)
      rw [b2 n] at d1; cases d1
      rw [e1 n] at d2; cases d2
      exact ⟨d3, d4⟩
    have harc : ∀ {f : ι → ℝ} {x : ℝ}, Tendsto f F (𝓝 x) →
        Tendsto (fun n => Real.arctan (f n) * 180 / Real.pi) F (𝓝 (Real.arctan x * 180 / Real.pi)) := fun hf =>
      (((Real.continuous_arctan.tendsto _).comp hf).mul_const 180).div_const Real.pi
    refine ⟨s, t, c2, e1, ?_, ?_⟩
    · rw [c3]
      have hlim := b3.add (V3.Tends.smul hD.norm (sectionDirection_tends
        (valueAt_tends hδ (fun n => (hm' n).2.sweeping) (hsp _ (by simp)) (hcont hm _ (by simp))
          (harc (hD.2.2.div hD.2.1 hy)) (htime k))
        (valueAt_tends hδ (fun n => (hm' n).2.heaving) (hsp _ (by simp)) (hcont hm _ (by simp))
          (harc (hD.1.div hD.2.1 hy)) (htime k))))
      refine ⟨hlim.1.congr' ?_, hlim.2.1.congr' ?_, hlim.2.2.congr' ?_⟩
      · filter_upwards [hevs] with n hn'
        exact (congrArg V3.x hn'.1).symm
      · filter_upwards [hevs] with n hn'
        exact (congrArg V3.y hn'.1).symm
      · filter_upwards [hevs] with n hn'
        exact (congrArg V3.z hn'.1).symm
    · rw [c4]
      refine (valueAt_tends hδ (fun n => (hm' n).2.pitching) (hsp _ (by simp)) (hcont hm _ (by simp))
        (num_tends hδ fun n => (hm' n).2.base.twist) (htime k)).congr' ?_
      filter_upwards [hevs] with n hn'
      rw [hn'.2]

/-! ## Wings and airplanes -/

theorem Oscillation.values_at {o : Oscillation} {base : ℝ} {n : ℕ} {dt : ℝ} {l : List ℝ} (h : o.values base n dt = .ok l)
    {k : ℕ} (hk : k < n) : l.getD k 0 = o.valueAt base (k * dt) := valuesCustom_at (values_eq_custom h).1 hk

theorem Oscillation.values_spacing {o : Oscillation} {base : ℝ} {n : ℕ} {dt : ℝ} {l : List ℝ}
    (h : o.values base n dt = .ok l) : o.spacing = "sine" ∨ o.spacing = "uniform" := by
  unfold values at h
  by_contra hc
  push Not at hc
  rw [if_neg hc.1, if_neg hc.2] at h
  cases h

/-- A value of a movement without custom function tends. -/
theorem values_tends {O : ι → Oscillation} {o : Oscillation} {δ : ι → ℝ} (hδ : Tendsto δ F (𝓝 0))
    (hn : ∀ n, o.Near (δ n) (O n)) {B dt : ι → ℝ} {b dt₀ : ℝ} (hB : Tendsto B F (𝓝 b)) (hdt : Tendsto dt F (𝓝 dt₀)) {N : ℕ}
    {l : List ℝ} (h : o.values b N dt₀ = .ok l) {L : ι → List ℝ} (h' : ∀ n, (O n).values (B n) N (dt n) = .ok (L n)) {k : ℕ}
    (hk : k < N) : Tendsto (fun n => (L n).getD k 0) F (𝓝 (l.getD k 0)) := by
  have e : ∀ (p : Oscillation) (hp : p.spacing = "sine" ∨ p.spacing = "uniform") (c : ℝ) (t : ℝ),
      p.valueAt c t = ({ p with custom := none } : Oscillation).valueAt c t := by
    intro p hp c t
    unfold Oscillation.valueAt Oscillation.wave
    rcases hp with hp | hp <;> simp [hp]
  have hsp := Oscillation.values_spacing h
  simp only [fun n => Oscillation.values_at (h' n) hk, Oscillation.values_at h hk,
    fun n => e (O n) (Oscillation.values_spacing (h' n)), e o hsp]
  refine valueAt_tends (O := fun n => { O n with custom := none }) (o := { o with custom := none }) hδ
    (fun n => ⟨(hn n).spacing, rfl, (hn n).amplitude, (hn n).period⟩) ?_ (fun f hf => by cases hf) hB
    (hdt.const_mul _)
  rcases hsp with h | h
  · exact Or.inl h
  · exact Or.inr (Or.inl h)

theorem tends_norm {f : ι → V3} {v : V3} (h : V3.Tends f F v) {ε : ℝ} (hε : 0 < ε) : ∀ᶠ n in F, (f n - v).norm < ε := by
  have := (h.sub (V3.Tends.const v)).norm
  rw [sub_self, V3.norm_zero] at this
  exact this.eventually (gt_mem_nhds hε)

theorem tends_abs {f : ι → ℝ} {v : ℝ} (h : Tendsto f F (𝓝 v)) {ε : ℝ} (hε : 0 < ε) : ∀ᶠ n in F, |f n - v| < ε := by
  have := (h.sub_const v).abs
  rw [sub_self, abs_zero] at this
  exact this.eventually (gt_mem_nhds hε)

/-- The wings of a step of nearby movements are nearby. -/
theorem generated_wing_tends {M : ι → WingMovement} {wm : WingMovement} {δ : ι → ℝ} (hδ : Tendsto δ F (𝓝 0))
    (hn : ∀ n, wm.Near (δ n) (M n)) {dt : ι → ℝ} {dt₀ : ℝ} (hdt : Tendsto dt F (𝓝 dt₀)) {N : ℕ} {ws : List Wing}
    (h : wm.generate N dt₀ = .ok ws) {Ws : ι → List Wing} (h' : ∀ n, (M n).generate N (dt n) = .ok (Ws n))
    (hreg : wm.Regular N dt₀) {k : ℕ} {w : Wing} {W : ι → Wing} (hw : ws[k]? = some w)
    (hW : ∀ n, (Ws n)[k]? = some (W n)) {ε : ℝ} (hε : 0 < ε) : ∀ᶠ n in F, w.Near ε (W n) := by
  obtain ⟨hlen, hmade⟩ := WingMovement.generate_dims h
  have hk : k < N := by have := (List.getElem?_eq_some_iff.mp hw).1; omega
  obtain ⟨xs, ys, zs, H, hx, hy, hz, hH, -, hstep⟩ := WingMovement.generate_ok h
  choose xs' ys' zs' H' hx' hy' hz' hH' _ hstep' using fun n => WingMovement.generate_ok (h' n)
  obtain ⟨v, e1, e2⟩ := hstep k hk
  rw [hw] at e1; cases e1
  have e2' : ∀ n, Wing.create ((H' n).filterMap (·[k]?))
      (leadingEdge := ⟨(xs' n).getD k 0, (ys' n).getD k 0, (zs' n).getD k 0⟩) (symmetric := (M n).base.spec.symmetric)
      (numChordwisePanels := (M n).base.spec.numChordwisePanels)
      (chordwiseSpacing := (M n).base.spec.chordwiseSpacing) = .ok (W n) := by
    intro n
    obtain ⟨v, g1, g2⟩ := hstep' n k hk
    rw [hW n] at g1; cases g1
    exact g2
  obtain ⟨hspec, -⟩ := Wing.create_ok _ _ _ _ _ _ _ w e2
  have hspec' := fun n => (Wing.create_ok _ _ _ _ _ _ _ _ (e2' n)).1
  have hle : V3.Tends (fun n => (W n).spec.leadingEdge) F w.spec.leadingEdge := by
    have hb := vec_tends hδ fun n => (hn n).leadingEdge
    simp only [hspec, hspec']
    exact ⟨values_tends hδ (fun n => (hn n).xLe) hb.1 hdt hx hx' hk, values_tends hδ (fun n => (hn n).yLe) hb.2.1 hdt hy hy' hk,
      values_tends hδ (fun n => (hn n).zLe) hb.2.2 hdt hz hz' hk⟩
  have hsl : w.sections.length = wm.sectionMovements.length := by
    obtain ⟨_, _, _, _, _, _, _, g⟩ := C67_wings wm N dt₀ ws h
    exact (g k w hw).2.2.2.2
  have hsl' : ∀ n, (W n).sections.length = wm.sectionMovements.length := by
    intro n
    obtain ⟨_, _, _, _, _, _, _, g⟩ := C67_wings (M n) N (dt n) (Ws n) (h' n)
    rw [(g k (W n) (hW n)).2.2.2.2, (hn n).sections.length_eq]
  have hev : ∀ j < wm.sectionMovements.length, ∀ᶠ n in F, ∀ s t, w.sections[j]? = some s → (W n).sections[j]? = some t →
      s.Near ε t := by
    intro j hj
    obtain ⟨m, hm⟩ : ∃ m, wm.sectionMovements[j]? = some m := ⟨_, List.getElem?_eq_getElem hj⟩
    obtain ⟨s, t, a1, a2, a3, a4⟩ := section_tends hδ hn hdt h h' hreg j m hm k w W hw hW
    have hm' : ∀ n, ∃ m', (M n).sectionMovements[j]? = some m' ∧ m.Near (δ n) m' := by
      intro n
      obtain ⟨l, rfl⟩ := List.getElem?_eq_some_iff.mp hm
      exact ⟨_, List.getElem?_eq_getElem (by rw [← (hn n).sections.length_eq]; exact l), (hn n).sections.get l _⟩
    filter_upwards [tends_norm a3 hε, tends_abs a4 hε, hδ.eventually (gt_mem_nhds hε)] with n g1 g2 g3
    intro s₂ t₂ hs ht
    rw [a1] at hs; cases hs
    rw [a2 n] at ht; cases ht
    obtain ⟨m', q1, q2⟩ := hm' n
    obtain ⟨_, p0, p1, p2, p3, p4, p5, p6, p7, p8⟩ := C67_kept wm N dt₀ ws h j m hm k w hw
    rw [a1] at p0; cases p0
    obtain ⟨_, r0, r1, r2, r3, r4, r5, r6, r7, r8⟩ := C67_kept (M n) N (dt n) (Ws n) (h' n) j m' q1 k (W n) (hW n)
    rw [a2 n] at r0; cases r0
    refine ⟨?_, ?_, ?_, ?_, ?_, ?_, g1, ?_, ?_, g2⟩
    · rw [p1, r1, q2.base.airfoil]
    · rw [p5, r5, q2.base.controlSurfaceType]
    · rw [p4, r4, q2.base.hinge]
    · rw [p3, r3]; exact q2.base.deflection.trans g3
    · rw [p6, r6, q2.base.numSpanwisePanels]
    · rw [p7, r7, q2.base.spanwiseSpacing]
    · rw [p2, r2]; exact q2.base.chord.trans g3
    · rw [p8, r8]; simpa using hε
  have hall : ∀ᶠ n in F, ∀ j < wm.sectionMovements.length, ∀ s t, w.sections[j]? = some s → (W n).sections[j]? = some t →
      s.Near ε t := by
    have := (eventually_all_finset (Finset.range wm.sectionMovements.length) (l := F)
      (p := fun j n => ∀ s t, w.sections[j]? = some s → (W n).sections[j]? = some t → s.Near ε t)).mpr
        (fun j hj => hev j (Finset.mem_range.mp hj))
    filter_upwards [this] with n hn' j hj
    exact hn' j (Finset.mem_range.mpr hj)
  have hdefl : ∀ {v : Wing} {m : WingMovement} {t : ℝ} {vs : List Wing}, m.generate N t = .ok vs → vs[k]? = some v →
      v.sections.map (·.deflection) = m.sectionMovements.map (·.base.deflection) ∧
      ∀ {i : ℕ} {s}, v.sections[i]? = some s → ∃ c, m.sectionMovements[i]? = some c ∧ s.airfoil = c.base.airfoil ∧
        s.deflection = c.base.deflection ∧ s.hinge = c.base.hinge := by
    intro v m t vs hg hv
    obtain ⟨_, _, _, _, _, _, _, g⟩ := C67_wings m N t vs hg
    have hl := (g k v hv).2.2.2.2
    have key : ∀ {i : ℕ} {s}, v.sections[i]? = some s → ∃ c, m.sectionMovements[i]? = some c ∧ s.airfoil = c.base.airfoil ∧
        s.deflection = c.base.deflection ∧ s.hinge = c.base.hinge := by
      intro i s hs
      obtain ⟨c, hc⟩ : ∃ c, m.sectionMovements[i]? = some c :=
        ⟨_, List.getElem?_eq_getElem (by have := (List.getElem?_eq_some_iff.mp hs).1; omega)⟩
      obtain ⟨_, p0, p1, p2, p3, p4, -⟩ := C67_kept m N t vs hg i c hc k v hv
      rw [hs] at p0; cases p0
      exact ⟨c, hc, p1, p3, p4⟩
    refine ⟨?_, key⟩
    apply List.ext_getElem?
    intro i
    rw [List.getElem?_map, List.getElem?_map]
    rcases hs : v.sections[i]? with - | s
    · rw [List.getElem?_eq_none_iff] at hs
      rw [List.getElem?_eq_none (by omega)]; rfl
    · obtain ⟨c, hc, -, hd, -⟩ := key hs
      rw [hc]; simp [hd]
  filter_upwards [hall, tends_norm hle hε] with n g1 g2
  refine ⟨(hmade w (List.mem_of_getElem? hw)).1, ((WingMovement.generate_dims (h' n)).2 _ (List.mem_of_getElem? (hW n))).1,
    ?_, ?_, ?_, g2, ?_, ?_, ?_, ?_⟩
  · rw [hspec, hspec']; exact (hn n).symmetric
  · rw [hspec, hspec']; exact (hn n).numChordwisePanels
  · rw [hspec, hspec']; exact (hn n).chordwiseSpacing
  · rw [hspec, hspec']; simpa using hε
  · rw [hspec, hspec']; simpa using hε
  · rw [List.forall₂_iff_get]
    refine ⟨by rw [hsl, hsl'], fun i l1 l2 => ?_⟩
    exact g1 i (by rw [← hsl]; exact l1) _ _ (List.getElem?_eq_getElem l1) (List.getElem?_eq_getElem l2)
  · rcases (hn n).flaps with hf | hf
    · left
      rw [(hdefl h hw).1, (hdefl (h' n) (hW n)).1, hf]
    · right
      intro pre s t post e d hd
      have hs : w.sections[pre.length]? = some s := by rw [e]; simp
      have ht : w.sections[pre.length + 1]? = some t := by
        rw [e, List.getElem?_append_right (by omega)]; simp
      obtain ⟨c, hc, c1, c2, c3⟩ := (hdefl h hw).2 hs
      obtain ⟨c', hc', c1', -, -⟩ := (hdefl h hw).2 ht
      rw [c1, c3, c1']
      rw [c2] at hd
      obtain ⟨l1, rfl⟩ := List.getElem?_eq_some_iff.mp hc
      obtain ⟨l2, rfl⟩ := List.getElem?_eq_some_iff.mp hc'
      refine hf ((wm.sectionMovements.take pre.length).map (·.base)) _ _ ((wm.sectionMovements.drop (pre.length + 2)).map (·.base)) ?_ d hd
      have e' : wm.sectionMovements = wm.sectionMovements.take pre.length ++ wm.sectionMovements[pre.length] ::
          wm.sectionMovements[pre.length + 1] :: wm.sectionMovements.drop (pre.length + 2) := by
        conv_lhs => rw [← List.take_append_drop pre.length wm.sectionMovements]
        rw [List.drop_eq_getElem_cons l1, List.drop_eq_getElem_cons l2]
      have := congrArg (List.map (·.base)) e'
      simpa only [List.map_append, List.map_cons] using this

end Ptera
