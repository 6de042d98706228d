import Verif.Lemmas.FlowField
import Verif.Lemmas.SimilarRuns
import Verif.Lemmas.UnsteadyFlow
import Mathlib.Analysis.Real.Pi.Bounds

/-! The velocity a solver reports is that of the filaments it shows, and the freestream. -/

namespace Ptera

theorem filamentFlow_append (nu : ℝ) (l m : List Seg) (q : V3) :
    filamentFlow nu (l ++ m) q = filamentFlow nu l q + filamentFlow nu m q := by
  simp [filamentFlow]

theorem filamentFlow_flatMap {α : Type*} (nu : ℝ) (l : List α) (f : α → List Seg) (q : V3) :
    filamentFlow nu (l.flatMap f) q = (l.map fun a => filamentFlow nu (f a) q).sum := by
  induction l with
  | nil => simp [filamentFlow]
  | cons a l ih => rw [List.flatMap_cons, filamentFlow_append, ih]; simp

theorem unitVelocity_smul (legs : List (V3 × V3)) (Γ : ℝ) (q : V3) :
    Γ • unitVelocity legs q = filamentFlow 0 (legs.map fun l => ⟨l.1, l.2, Γ, 0⟩) q := by
  unfold unitVelocity filamentFlow
  rw [List.map_map]
  induction legs with
  | nil => simp
  | cons l legs ih =>
    simp only [List.map_cons, List.sum_cons, smul_add, ih, Function.comp]
    rw [expandedEntry_scale 0 Γ l.1 l.2 q]

theorem HorseshoeSolver.run_filaments {P : SteadyProblem} (hm : ∀ a ∈ P.airplanes, a.Made) {heap : PanelHeap}
    {loads : List AirplaneLoads} {s : HorseshoeSolver} (h : (create P heap loads).run = .ok s) (q : V3) :
    s.solutionVelocity [q] = [filamentFlow 0 s.filaments q + P.operatingPoint.freestreamVelocity] := by
  have hc := counted_of_made hm
  set S := create P heap loads with hS
  obtain ⟨x, hx, hlen, rfl⟩ := run_result (s := S) hc (by simp [S, create]) h
  have hlen' : x.length = (panelRefs P.airplanes).length := by rw [hlen, finalSlots_length]; rfl
  obtain ⟨Γ, rfl⟩ := exists_values (panelRefs_nodup P.airplanes) hlen'
  have e : (S.solved ((panelRefs P.airplanes).map Γ)).calculateForces.calculateStreamlines.solutionVelocity [q]
      = (S.solved ((panelRefs P.airplanes).map Γ)).solutionVelocity [q] := rfl
  rw [e, velocity_eq _ _ hlen]
  simp only [List.map_cons, List.map_nil]
  have hf : (S.solved ((panelRefs P.airplanes).map Γ)).calculateForces.calculateStreamlines.filaments
      = (panelRefs P.airplanes).flatMap fun r => ((S.panelVortex r).updateStrength (Γ r)).filaments := by
    unfold filaments
    apply List.flatMap_congr
    intro r hr
    obtain ⟨g, hg⟩ := List.getElem?_of_mem hr
    have hheap : (S.solved ((panelRefs P.airplanes).map Γ)).calculateForces.calculateStreamlines.heap r = _ :=
      (S.final_heap _).1 g r hg
    rw [hheap]
    have hg' : (panelRefs P.airplanes)[g]? = some r := hg
    simp only [List.getD_eq_getElem?_getD, List.getElem?_map, hg', Option.map_some, Option.getD_some]
  rw [hf, filamentFlow_flatMap]
  have e' : List.zipWith (fun a x => x • unit a q) (S.solved ((panelRefs P.airplanes).map Γ)).slots
      (S.solved ((panelRefs P.airplanes).map Γ)).strengths
      = (panelRefs P.airplanes).map fun r => Γ r • unit (slotOf S.airplanes r (S.panelVortex r)) q :=
    zipWith_map_self (panelRefs P.airplanes) (fun r => slotOf S.airplanes r (S.panelVortex r)) Γ
      (fun a x => x • unit a q)
  rw [e']
  congr 2
  congr 1
  apply List.map_congr_left
  intro r _
  unfold unit
  rw [unitVelocity_smul]
  rfl

theorem RingSolver.run_filaments {P : SteadyProblem} (hm : ∀ a ∈ P.airplanes, a.Made) {heap : PanelHeap}
    {loads : List AirplaneLoads} {s : RingSolver} (h : (create P heap loads).run = .ok s) (q : V3) :
    s.solutionVelocity [q] = [filamentFlow 0 s.filaments q + P.operatingPoint.freestreamVelocity] := by
  have hc := counted_of_made hm
  set S := create P heap loads with hS
  have hun : S.Unsolved := create_unsolved P hc heap loads
  obtain ⟨x, hx, hlen, rfl⟩ := run_result (s := S) hc (by simp [S, create]) (by simp [S, create])
    (by simp [S, create]) h
  have hlen' : x.length = (panelRefs P.airplanes).length := by rw [hlen, finalSlots_length]; rfl
  obtain ⟨Γ, rfl⟩ := exists_values (panelRefs_nodup P.airplanes) hlen'
  have e : (S.solved ((panelRefs P.airplanes).map Γ)).calculateForces.calculateStreamlines.solutionVelocity [q]
      = (S.solved ((panelRefs P.airplanes).map Γ)).solutionVelocity [q] := rfl
  rw [e, velocity_eq _ _ hlen]
  simp only [List.map_cons, List.map_nil]
  have e' := trailing_velocity hun ((panelRefs P.airplanes).map Γ) q hlen
  have e'' := zipWith_map_self (panelRefs P.airplanes) id Γ (fun r x => x • S.panelUnit r q)
  rw [List.map_id] at e''
  have e3 : (List.zipWith (fun a x => x • unit a q) (S.solved ((panelRefs P.airplanes).map Γ)).slots
      (S.solved ((panelRefs P.airplanes).map Γ)).strengths).sum
      + ((S.solved ((panelRefs P.airplanes).map Γ)).trailing.map fun t => t.strength • unitT t q).sum
      = ((panelRefs P.airplanes).map fun r => Γ r • S.panelUnit r q).sum := by
    refine Eq.trans e' ?_
    exact congrArg List.sum e''
  rw [e3]
  have hheap : ∀ r ∈ panelRefs P.airplanes, ∃ p, panelAt P.airplanes r = some p ∧
      ((S.solved ((panelRefs P.airplanes).map Γ)).calculateForces.calculateStreamlines.heap r).ring
        = some ((panelRing P.airplanes r).updateStrength (Γ r)) ∧
      ((S.solved ((panelRefs P.airplanes).map Γ)).calculateForces.calculateStreamlines.heap r).horseshoe
        = (if (geometryOf P.airplanes r).isTrailingEdge then some (S.panelHorseshoe r)
            else (S.heap r).horseshoe).map fun v => v.updateStrength (Γ r) := by
    intro r hr
    obtain ⟨p, hp⟩ := (mem_panelRefs _ _).mp hr
    obtain ⟨g, hg⟩ := List.getElem?_of_mem hr
    have hheap : (S.solved ((panelRefs P.airplanes).map Γ)).calculateForces.calculateStreamlines.heap r = _ :=
      (S.final_heap _).1 g r hg
    rw [hheap]
    simp only [List.getD_eq_getElem?_getD, List.getElem?_map, hg, Option.map_some, Option.getD_some]
    exact ⟨p, hp, rfl, rfl⟩
  have hsum : ∀ l : List PanelRef, (∀ r ∈ l, r ∈ panelRefs P.airplanes) →
      (l.map fun r => Γ r • S.panelUnit r q).sum
      = (l.map fun r => filamentFlow 0 ((((S.solved ((panelRefs P.airplanes).map Γ)).calculateForces.calculateStreamlines.heap
          r).ring.map (·.filaments)).getD []) q).sum
        + (l.map fun r => filamentFlow 0 ((if panelAt P.airplanes { r with row := r.row + 1 } = none then
            ((S.solved ((panelRefs P.airplanes).map Γ)).calculateForces.calculateStreamlines.heap r).horseshoe.toList
            else []).flatMap (·.filaments)) q).sum := by
    intro l hl
    rw [← List.sum_map_add]
    congr 1
    apply List.map_congr_left
    intro r hr
    obtain ⟨p, hp, h1, h2⟩ := hheap r (hl r hr)
    rw [h1, h2]
    unfold panelUnit
    rw [smul_add]
    congr 1
    · unfold unit
      rw [unitVelocity_smul]
      rfl
    · have hS' : S.airplanes = P.airplanes := rfl
      have hflag := (made_flags hm hp).trailing
      unfold firstTrailing
      rw [hS', geometryOf_eq hp]
      by_cases hte : p.isTrailingEdge = true
      · rw [if_pos hte, if_pos (hflag.mp hte), if_pos hte]
        simp only [Option.map_some, Option.toList_some, List.flatMap_cons, List.flatMap_nil, List.append_nil]
        simp only [trailingSlot, one_smul]
        unfold unitT
        rw [unitVelocity_smul]
        rfl
      · rw [if_neg hte, if_neg (fun e => hte (hflag.mpr e))]
        simp [filamentFlow]
  rw [hsum _ fun _ hr => hr]
  unfold filaments trailingVortices
  rw [filamentFlow_append, filamentFlow_flatMap, List.flatMap_assoc, filamentFlow_flatMap]
  rfl

theorem UnsteadySolver.flow_filaments (s : UnsteadySolver) (k : ℕ) (q : V3) :
    flow s k q = filamentFlow (s.problem.operatingPointAt k).nu (s.filaments k) q
      + (s.problem.operatingPointAt k).freestreamVelocity := by
  unfold flow UnsteadySolver.filaments boundFlow wakeFlow
  rw [filamentFlow_append, filamentFlow_flatMap, filamentFlow_flatMap]
  congr 3
  · congr 1
    funext r
    unfold panelInduced
    cases (s.panels k r).ring with
    | none => simp [filamentFlow]
    | some v =>
      simp [RingVortex.filaments, ringFilaments, filamentFlow, ringInduced]
      abel
  · congr 1
    funext w
    simp [WakeSlot.filaments, ringFilaments, filamentFlow, ringInduced]
    abel

/-! ## Far away -/

theorem V3.norm_sub_ge (a b : V3) : b.norm - a.norm ≤ (a - b).norm := by
  have := V3.norm_add_le a (b - a)
  rw [add_sub_cancel, V3.norm_sub_comm] at this
  linarith

theorem entry_far (nu : ℝ) (f : Seg) (q : V3) (d : ℝ) (hd : 0 < d) (h1 : d ≤ (f.origin - q).norm)
    (h2 : d ≤ (f.termination - q).norm) (hl : f.length ≤ d) :
    (expandedEntry nu f q).norm ≤ |f.strength| * f.length / (2 * Real.pi * d ^ 2) := by
  have hlen : 0 ≤ f.length := V3.norm_nonneg _
  rw [expandedEntry_eq]
  split_ifs with hc
  · rw [V3.norm_zero]
    positivity
  rw [V3.norm_smul]
  have hx : (f.origin - q).cross (f.termination - q) ≠ 0 := by
    intro e
    unfold Cutoff at hc
    push Not at hc
    have := hc.2.2
    rw [e] at this
    simp at this
    linarith [eps_pos']
  have hr := V3.norm_pos.mpr hx
  have hr2 := V3.norm_cross_sq (f.origin - q) (f.termination - q)
  -- the cross product is small
  have hL : f.length ^ 2 = (f.origin - q).norm ^ 2 + (f.termination - q).norm ^ 2
      - 2 * (f.origin - q).dot (f.termination - q) := by
    unfold Seg.length
    rw [V3.norm_sq, V3.norm_sq, V3.norm_sq]
    simp [V3.dot]; ring
  have hb1 : ((f.origin - q).cross (f.termination - q)).norm ≤ f.length * (f.origin - q).norm := by
    have e : (f.origin - q).cross (f.termination - q) = (f.origin - q).cross (f.termination - f.origin) := by
      ext <;> simp <;> ring
    rw [e, mul_comm]
    exact V3.norm_cross_le _ _
  have hb2 : ((f.origin - q).cross (f.termination - q)).norm ≤ f.length * (f.termination - q).norm := by
    have e : (f.origin - q).cross (f.termination - q) = -((f.termination - f.origin).cross (f.termination - q)) := by
      ext <;> simp <;> ring
    rw [e, V3.norm_neg]
    exact V3.norm_cross_le _ _
  unfold kernelCoeff
  rw [show (f.termination - f.origin).norm = f.length from rfl]
  generalize ((f.origin - q).cross (f.termination - q)).norm = r at *
  generalize (f.origin - q).norm = a at *
  generalize (f.termination - q).norm = b at *
  generalize (f.origin - q).dot (f.termination - q) = g at *
  generalize f.length = l at *
  generalize coreRadius nu f = c
  generalize f.strength = Γ
  have ha : 0 < a := lt_of_lt_of_le hd h1
  have hb : 0 < b := lt_of_lt_of_le hd h2
  have hg : 0 ≤ g := by nlinarith
  have hm : 0 ≤ a * b - g := by
    by_contra hcon
    push Not at hcon
    have h3 : (a * b) ^ 2 < g ^ 2 := pow_lt_pow_left₀ (by linarith) (by positivity) two_ne_zero
    have h4 := pow_pos hr 2
    rw [mul_pow] at h3
    linarith
  have hpi := Real.pi_pos
  have hnum : 0 ≤ (a + b) * (a * b - g) := mul_nonneg (by linarith) hm
  have hden : 0 < a * b * (r ^ 2 + l ^ 2 * c ^ 2) := by positivity
  rw [abs_div, abs_of_pos hden, show Γ / (4 * Real.pi) * (a + b) * (a * b - g) = Γ / (4 * Real.pi) * ((a + b) * (a * b - g)) by ring,
    abs_mul, abs_of_nonneg hnum, abs_div, abs_of_pos (show 0 < 4 * Real.pi by positivity)]
  -- |Γ|/4π (a+b)(ab-g) r / (ab (r²+l²c²)) ≤ |Γ| l / (2π d²)
  have key : (a + b) * (a * b - g) / (a * b * (r ^ 2 + l ^ 2 * c ^ 2)) * r ≤ 2 * l / d ^ 2 := by
    rw [div_mul_eq_mul_div, div_le_div_iff₀ hden (by positivity)]
    have s1 : (a + b) * r ≤ 2 * l * (a * b) := by nlinarith
    have s2 : (a * b - g) * (a * b) ≤ r ^ 2 + l ^ 2 * c ^ 2 := by
      have : 0 ≤ l ^ 2 * c ^ 2 := by positivity
      nlinarith
    have s3 : d ^ 2 ≤ a * b := by nlinarith
    calc (a + b) * (a * b - g) * r * d ^ 2 = ((a + b) * r) * (a * b - g) * d ^ 2 := by ring
      _ ≤ (2 * l * (a * b)) * (a * b - g) * d ^ 2 := by gcongr
      _ ≤ (2 * l * (a * b)) * (a * b - g) * (a * b) := by gcongr
      _ = 2 * l * (a * b) * ((a * b - g) * (a * b)) := by ring
      _ ≤ 2 * l * (a * b) * (r ^ 2 + l ^ 2 * c ^ 2) := by gcongr
      _ = 2 * l * (a * b * (r ^ 2 + l ^ 2 * c ^ 2)) := by ring
  calc |Γ| / (4 * Real.pi) * ((a + b) * (a * b - g)) / (a * b * (r ^ 2 + l ^ 2 * c ^ 2)) * r
      = |Γ| / (4 * Real.pi) * ((a + b) * (a * b - g) / (a * b * (r ^ 2 + l ^ 2 * c ^ 2)) * r) := by ring
    _ ≤ |Γ| / (4 * Real.pi) * (2 * l / d ^ 2) := by gcongr
    _ = |Γ| * l / (2 * Real.pi * d ^ 2) := by field_simp; ring

theorem filamentFlow_far (nu : ℝ) (l : List Seg) (q : V3) (d : ℝ) (hd : 0 < d)
    (h : ∀ f ∈ l, d ≤ (f.origin - q).norm ∧ d ≤ (f.termination - q).norm ∧ f.length ≤ d) :
    (filamentFlow nu l q).norm ≤ (l.map fun f => |f.strength| * f.length).sum / (2 * Real.pi * d ^ 2) := by
  induction l with
  | nil => simp [filamentFlow]
  | cons f l ih =>
    have h1 := h f (by simp)
    have h2 := ih fun g hg => h g (by simp [hg])
    have h3 := entry_far nu f q d hd h1.1 h1.2.1 h1.2.2
    have : filamentFlow nu (f :: l) q = expandedEntry nu f q + filamentFlow nu l q := by simp [filamentFlow]
    rw [this, List.map_cons, List.sum_cons, add_div]
    exact le_trans (V3.norm_add_le _ _) (add_le_add h3 h2)

/-- A number all corners and lengths of finitely many filaments are below. -/
theorem filaments_bounded (l : List Seg) :
    ∃ M : ℝ, 0 ≤ M ∧ ∀ f ∈ l, f.origin.norm ≤ M ∧ f.termination.norm ≤ M ∧ f.length ≤ M := by
  induction l with
  | nil => exact ⟨0, le_refl _, by simp⟩
  | cons f l ih =>
    obtain ⟨M, h0, hM⟩ := ih
    refine ⟨max M (max f.origin.norm (max f.termination.norm f.length)), le_max_of_le_left h0, ?_⟩
    intro g hg
    rcases List.mem_cons.mp hg with rfl | hg
    · exact ⟨by simp, by simp, by simp⟩
    · obtain ⟨a, b, c⟩ := hM g hg
      exact ⟨le_max_of_le_left a, le_max_of_le_left b, le_max_of_le_left c⟩

theorem filamentFlow_vanishes (nu : ℝ) (l : List Seg) (ε : ℝ) (hε : 0 < ε) :
    ∃ R : ℝ, ∀ q : V3, R ≤ q.norm → (filamentFlow nu l q).norm ≤ ε := by
  obtain ⟨M, h0, hM⟩ := filaments_bounded l
  set S := (l.map fun f => |f.strength| * f.length).sum with hS
  have hS0 : 0 ≤ S := by
    apply List.sum_nonneg
    intro x hx
    obtain ⟨f, -, rfl⟩ := List.mem_map.mp hx
    exact mul_nonneg (abs_nonneg _) (V3.norm_nonneg _)
  refine ⟨M + (M + 1 + S / ε), fun q hq => ?_⟩
  set d := M + 1 + S / ε with hdd
  have hse : 0 ≤ S / ε := div_nonneg hS0 hε.le
  have hd : 1 ≤ d := by linarith
  have hb := filamentFlow_far nu l q d (by linarith) (by
    intro f hf
    obtain ⟨a, b, c⟩ := hM f hf
    have e1 := V3.norm_sub_ge f.origin q
    have e2 := V3.norm_sub_ge f.termination q
    exact ⟨by linarith, by linarith, by linarith⟩)
  refine le_trans hb ?_
  rw [div_le_iff₀ (by positivity)]
  have h1 : S ≤ ε * d := by
    have : S = ε * (S / ε) := by field_simp
    rw [this]
    exact mul_le_mul_of_nonneg_left (by linarith) hε.le
  have h2 : ε * d ≤ ε * (2 * Real.pi * d ^ 2) := by
    apply mul_le_mul_of_nonneg_left _ hε.le
    have hp : (1 : ℝ) ≤ 2 * Real.pi := by linarith [Real.pi_gt_three]
    calc d = 1 * (1 * d) := by ring
      _ ≤ (2 * Real.pi) * (d * d) := by gcongr
      _ = 2 * Real.pi * d ^ 2 := by ring
  linarith

/-! ## Divergence and curl -/

theorem filamentFlow_divergence (nu : ℝ) (l : List Seg) (q : V3) (h : ∀ f ∈ l, f.OffBorder q) :
    HasDivergence (filamentFlow nu l) q 0 :=
  HasDivergence.sum l (fun f => expandedEntry nu f) q fun f hf => entry_divergence nu f q (h f hf)

theorem entry_curl_free (nu : ℝ) (A B q : V3) (Γ : ℝ) (h : (⟨A, B, Γ, 0⟩ : Seg).Free q) :
    HasCurl (expandedEntry nu ⟨A, B, Γ, 0⟩) q
      ((Γ / (4 * Real.pi)) • ((1 / (A - q).norm ^ 3) • (A - q) - (1 / (B - q).norm ^ 3) • (B - q))) := by
  rcases h with h | h
  · simp only at h
    subst h
    rw [sub_self, smul_zero]
    refine (hasCurl_const 0 q).congr fun e => ?_
    filter_upwards with u
    rw [expandedEntry_eq]
    split_ifs <;> simp
  · exact entry_curl nu A B q Γ h

theorem horseshoe_curl (nu : ℝ) (v : HorseshoeVortex) (q : V3) (h : ∀ f ∈ v.filaments, f.Free q) :
    HasCurl (filamentFlow nu v.filaments) q (v.endVorticity q) := by
  have h1 := entry_curl_free nu _ _ q _ (h ⟨v.rightLegOrigin, v.finiteLegOrigin, v.strength, 0⟩ (by simp [HorseshoeVortex.filaments]))
  have h2 := entry_curl_free nu _ _ q _ (h ⟨v.finiteLegOrigin, v.finiteLegTermination, v.strength, 0⟩ (by simp [HorseshoeVortex.filaments]))
  have h3 := entry_curl_free nu _ _ q _ (h ⟨v.finiteLegTermination, v.leftLegTermination, v.strength, 0⟩ (by simp [HorseshoeVortex.filaments]))
  have hs := h1.add (h2.add h3)
  have e : filamentFlow nu v.filaments = fun p => expandedEntry nu ⟨v.rightLegOrigin, v.finiteLegOrigin, v.strength, 0⟩ p
      + (expandedEntry nu ⟨v.finiteLegOrigin, v.finiteLegTermination, v.strength, 0⟩ p
        + expandedEntry nu ⟨v.finiteLegTermination, v.leftLegTermination, v.strength, 0⟩ p) := by
    funext p
    simp [filamentFlow, HorseshoeVortex.filaments]
  rw [e]
  convert hs using 1
  unfold HorseshoeVortex.endVorticity
  rw [V3.norm_sub_comm q, V3.norm_sub_comm q]
  module

theorem ring_curl (nu : ℝ) (br fr fl bl : V3) (Γ : ℝ) (q : V3) (h : ∀ f ∈ ringFilaments br fr fl bl Γ 0, f.Free q) :
    HasCurl (filamentFlow nu (ringFilaments br fr fl bl Γ 0)) q 0 := by
  have h1 := entry_curl_free nu _ _ q _ (h ⟨br, fr, Γ, 0⟩ (by simp [ringFilaments]))
  have h2 := entry_curl_free nu _ _ q _ (h ⟨fr, fl, Γ, 0⟩ (by simp [ringFilaments]))
  have h3 := entry_curl_free nu _ _ q _ (h ⟨fl, bl, Γ, 0⟩ (by simp [ringFilaments]))
  have h4 := entry_curl_free nu _ _ q _ (h ⟨bl, br, Γ, 0⟩ (by simp [ringFilaments]))
  have hs := h1.add (h2.add (h3.add h4))
  have e : filamentFlow nu (ringFilaments br fr fl bl Γ 0) = fun p => expandedEntry nu ⟨br, fr, Γ, 0⟩ p
      + (expandedEntry nu ⟨fr, fl, Γ, 0⟩ p + (expandedEntry nu ⟨fl, bl, Γ, 0⟩ p + expandedEntry nu ⟨bl, br, Γ, 0⟩ p)) := by
    funext p
    simp [filamentFlow, ringFilaments]
  rw [e]
  convert hs using 1
  module

/-! ## Points free of all filaments -/

/-- The twisted curve has no two parallel points: from some parameter on it is not parallel to a given vector. -/
theorem eventually_not_parallel (r : V3) (hr : r ≠ 0) :
    ∀ᶠ t : ℕ in Filter.atTop, r.cross ⟨1, t, (t : ℝ) ^ 2⟩ ≠ 0 := by
  by_cases hx : r.x = 0
  · filter_upwards with t h
    have h2 := congrArg V3.y h
    have h3 := congrArg V3.z h
    simp [hx] at h2 h3
    apply hr
    ext
    · exact hx
    · exact h3
    · exact h2
  · obtain ⟨N, hN⟩ := exists_nat_gt (r.y / r.x)
    filter_upwards [Filter.eventually_ge_atTop N] with t ht h
    have h3 := congrArg V3.z h
    simp at h3
    have : (t : ℝ) = r.y / r.x := by field_simp; linarith
    have hc : (N : ℝ) ≤ t := by exact_mod_cast ht
    linarith

theorem eventually_far (a b : V3) (hb : 0 < b.norm) : ∀ᶠ T : ℕ in Filter.atTop, 1 < (a - (T : ℝ) • b).norm := by
  obtain ⟨N, hN⟩ := exists_nat_gt ((a.norm + 1) / b.norm)
  filter_upwards [Filter.eventually_ge_atTop N] with T hT
  have h1 := V3.norm_sub_ge a ((T : ℝ) • b)
  rw [V3.norm_smul, abs_of_nonneg (by positivity)] at h1
  have hT' : (N : ℝ) ≤ T := by exact_mod_cast hT
  rw [div_lt_iff₀ hb] at hN
  have : (N : ℝ) * b.norm ≤ T * b.norm := mul_le_mul_of_nonneg_right hT' hb.le
  linarith

theorem eps_lt_one : eps < 1 := by unfold eps; norm_num

theorem eventually_free (f : Seg) (u : V3) (hu0 : u ≠ 0)
    (hu : f.origin ≠ f.termination → (f.termination - f.origin).cross u ≠ 0) :
    ∀ᶠ T : ℕ in Filter.atTop, f.Free ((T : ℝ) • u) ∧ f.OffBorder ((T : ℝ) • u) := by
  have hn := V3.norm_pos.mpr hu0
  have he := eps_lt_one
  by_cases hz : f.origin = f.termination
  · filter_upwards [eventually_far f.origin u hn, eventually_far f.termination u hn] with T h1 h2
    refine ⟨Or.inl hz, by linarith, by linarith, ?_⟩
    rw [hz, V3.cross_self, V3.norm_zero]
    have := eps_pos'
    intro e
    simp at e
    linarith
  · set X := (f.termination - f.origin).cross f.origin with hX
    set Y := (f.termination - f.origin).cross u with hY
    filter_upwards [eventually_far f.origin u hn, eventually_far f.termination u hn,
      eventually_far X Y (V3.norm_pos.mpr (hu hz))] with T h1 h2 h3
    have hc : f.Clear ((T : ℝ) • u) := by
      refine ⟨by linarith, by linarith, ?_⟩
      have e : (f.origin - (T : ℝ) • u).cross (f.termination - (T : ℝ) • u) = -(X - (T : ℝ) • Y) := by
        rw [hX, hY]
        ext <;> simp <;> ring
      rw [e, V3.norm_neg]
      nlinarith
    exact ⟨Or.inr hc, hc.offBorder⟩

theorem eventually_all {α : Type*} {F : Filter ℕ} (l : List α) (P : α → ℕ → Prop) (h : ∀ a ∈ l, ∀ᶠ t in F, P a t) :
    ∀ᶠ t in F, ∀ a ∈ l, P a t := by
  induction l with
  | nil => simp
  | cons a l ih =>
    filter_upwards [h a (by simp), ih fun b hb => h b (by simp [hb])] with t h1 h2 b hb
    rcases List.mem_cons.mp hb with rfl | hb
    · exact h1
    · exact h2 b hb

/-- There are points free of any finitely many filaments. -/
theorem exists_free (l : List Seg) : ∃ q : V3, ∀ f ∈ l, f.Free q ∧ f.OffBorder q := by
  have h1 : ∀ᶠ t : ℕ in Filter.atTop, ∀ f ∈ l, f.origin ≠ f.termination →
      (f.termination - f.origin).cross ⟨1, t, (t : ℝ) ^ 2⟩ ≠ 0 := by
    refine eventually_all l _ fun f _ => ?_
    by_cases hf : f.origin = f.termination
    · filter_upwards with t h using absurd hf h
    · filter_upwards [eventually_not_parallel _ (sub_ne_zero.mpr (Ne.symm hf))] with t ht _ using ht
  obtain ⟨t, ht⟩ := h1.exists
  have hu0 : (⟨1, t, (t : ℝ) ^ 2⟩ : V3) ≠ 0 := fun e => by
    have := congrArg V3.x e
    simp at this
  obtain ⟨T, hT⟩ := (eventually_all l _ fun f hf => eventually_free f _ hu0 (ht f hf)).exists
  exact ⟨_, hT⟩

end Ptera
