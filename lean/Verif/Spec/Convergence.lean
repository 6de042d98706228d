import Verif.Core.Vec
import Mathlib.Data.List.Forall2

/-!
# What a convergence study is supposed to find

This file does not refer to the model of `convergence.py`. A setting of the steady study is a panel aspect ratio `a` and
a number of chordwise panels `c`. The study goes through the aspect ratios downwards from `a₀` to `a₁` and, for each of
them, through the panel counts upwards from `c₀` to `c₁`, so that the next coarser settings of `(a, c)` are
`(a + 1, c)` and `(a, c - 1)`.
-/

namespace Ptera.Convergence

/-- A number changed from `last` to `this` by less than `percent`, or stayed zero. -/
def Near (percent this last : ℝ) : Prop := (this = 0 ∧ last = 0) ∨ 100 * |this - last| < percent * |last|

/-- The norms of force and moment coefficients of every airplane changed by less than `percent`. -/
def Close (percent : ℝ) (these last : List (ℝ × ℝ)) : Prop :=
  List.Forall₂ (fun t l => Near percent t.1 l.1 ∧ Near percent t.2 l.2) these last

/-- The bounds of the study: the aspect ratios from `a₀` down to `a₁`, and the panel counts from `c₀` up to `c₁`. -/
structure Bounds where
  a₀ : ℤ
  a₁ : ℤ
  c₀ : ℤ
  c₁ : ℤ

namespace Bounds

variable (b : Bounds)

/-- `(a, c)` is one of the settings of the study. -/
def Has (a c : ℤ) : Prop := b.a₁ ≤ a ∧ a ≤ b.a₀ ∧ b.c₀ ≤ c ∧ c ≤ b.c₁

/-- `(a', c')` comes before `(a, c)`. -/
def Before (a' c' a c : ℤ) : Prop := a < a' ∨ (a' = a ∧ c' < c)

variable (percent : ℝ) (results : ℤ → ℤ → List (ℝ × ℝ))

/-- The results at `(a, c)` are close to those of the next coarser aspect ratio. -/
def RatioConverged (a c : ℤ) : Prop := a < b.a₀ ∧ Close percent (results a c) (results (a + 1) c)

/-- The results at `(a, c)` are close to those of the next smaller panel count. -/
def ChordConverged (a c : ℤ) : Prop := b.c₀ < c ∧ Close percent (results a c) (results a (c - 1))

/-- The setting passes: in each dimension it is converged, or there is only one value, or the aspect ratio is 1. -/
def Passes (a c : ℤ) : Prop :=
  (b.a₀ = b.a₁ ∨ a = 1 ∨ b.RatioConverged percent results a c) ∧ (b.c₀ = b.c₁ ∨ b.ChordConverged percent results a c)

/-- `(a', c')` is the coarsest setting found to be good enough when `(a, c)` passes: the next coarser value in each
dimension that is converged, the value itself otherwise. -/
def Reports (a c a' c' : ℤ) : Prop :=
  ((b.a₀ = b.a₁ ∧ a' = a) ∨ (b.a₀ ≠ b.a₁ ∧ b.RatioConverged percent results a c ∧ a' = a + 1) ∨
    (b.a₀ ≠ b.a₁ ∧ ¬b.RatioConverged percent results a c ∧ a = 1 ∧ a' = a)) ∧
  ((b.c₀ = b.c₁ ∧ c' = c) ∨ (b.c₀ ≠ b.c₁ ∧ b.ChordConverged percent results a c ∧ c' = c - 1))

end Bounds

/-! ## The unsteady study -/

/-- Every selected coefficient of every airplane changed by less than `percent`. -/
def AllClose (percent : ℝ) (these last : List (List ℝ)) : Prop :=
  List.Forall₂ (List.Forall₂ fun t l => 100 * |t - l| < percent * |l|) these last

/-- A setting of the unsteady study: whether the wake is prescribed, the length of the wake in chords or cycles, the
panel aspect ratio, and the number of chordwise panels. -/
@[ext] structure Point where
  prescribed : Bool
  length : ℤ
  ratio : ℤ
  chord : ℤ

/-- The bounds of the unsteady study: which wakes are tried, the lengths from `l₀` up to `l₁`, and the others. -/
structure UnsteadyBounds extends Bounds where
  prescribed : Bool
  free : Bool
  l₀ : ℤ
  l₁ : ℤ

namespace UnsteadyBounds

variable (b : UnsteadyBounds)

/-- `p` is one of the settings of the study. -/
def Has (p : Point) : Prop :=
  (p.prescribed = true → b.prescribed = true) ∧ (p.prescribed = false → b.free = true) ∧ b.l₀ ≤ p.length ∧
    p.length ≤ b.l₁ ∧ b.toBounds.Has p.ratio p.chord

/-- `p` comes before `q`: prescribed wakes before free ones, then shorter before longer ones, and so on. -/
def Before (p q : Point) : Prop :=
  (p.prescribed = true ∧ q.prescribed = false) ∨
    (p.prescribed = q.prescribed ∧
      (p.length < q.length ∨ (p.length = q.length ∧ Bounds.Before p.ratio p.chord q.ratio q.chord)))

variable (percent : ℝ) (results : Point → List (List ℝ))

/-- The results of the free wake are close to those of the prescribed one. -/
def WakeConverged (p : Point) : Prop :=
  b.prescribed = true ∧ p.prescribed = false ∧ AllClose percent (results p) (results { p with prescribed := true })

/-- The results are close to those of the next shorter wake. -/
def LengthConverged (p : Point) : Prop :=
  b.l₀ < p.length ∧ AllClose percent (results p) (results { p with length := p.length - 1 })

/-- The results are close to those of the next coarser aspect ratio. -/
def RatioConverged (p : Point) : Prop :=
  p.ratio < b.a₀ ∧ AllClose percent (results p) (results { p with ratio := p.ratio + 1 })

/-- The results are close to those of the next smaller panel count. -/
def ChordConverged (p : Point) : Prop :=
  b.c₀ < p.chord ∧ AllClose percent (results p) (results { p with chord := p.chord - 1 })

/-- The setting passes: in each dimension it is converged, or there is only one value, or the value is as fine as
possible (a free wake, an aspect ratio of 1). -/
def Passes (p : Point) : Prop :=
  (¬(b.prescribed = true ∧ b.free = true) ∨ p.prescribed = false ∨ b.WakeConverged percent results p) ∧
  (b.l₀ = b.l₁ ∨ b.LengthConverged percent results p) ∧
  (b.a₀ = b.a₁ ∨ p.ratio = 1 ∨ b.RatioConverged percent results p) ∧
  (b.c₀ = b.c₁ ∨ b.ChordConverged percent results p)

/-- `q` is the coarsest setting found to be good enough when `p` passes. -/
def Reports (p q : Point) : Prop :=
  ((b.WakeConverged percent results p ∧ q.prescribed = true) ∨
    (¬b.WakeConverged percent results p ∧ q.prescribed = p.prescribed)) ∧
  ((b.l₀ = b.l₁ ∧ q.length = p.length) ∨
    (b.l₀ ≠ b.l₁ ∧ b.LengthConverged percent results p ∧ q.length = p.length - 1)) ∧
  ((b.a₀ = b.a₁ ∧ q.ratio = p.ratio) ∨ (b.a₀ ≠ b.a₁ ∧ b.RatioConverged percent results p ∧ q.ratio = p.ratio + 1) ∨
    (b.a₀ ≠ b.a₁ ∧ ¬b.RatioConverged percent results p ∧ p.ratio = 1 ∧ q.ratio = p.ratio)) ∧
  ((b.c₀ = b.c₁ ∧ q.chord = p.chord) ∨
    (b.c₀ ≠ b.c₁ ∧ b.ChordConverged percent results p ∧ q.chord = p.chord - 1))

end UnsteadyBounds

end Ptera.Convergence
