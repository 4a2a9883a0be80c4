import Verif.Model.CentralDiff
import Mathlib.Analysis.Calculus.Deriv.Add
import Mathlib.Analysis.Calculus.Deriv.Comp
import Mathlib.Analysis.Calculus.Deriv.Mul
import Mathlib.Analysis.Calculus.Deriv.Slope
import Mathlib.Analysis.Calculus.Deriv.Shift
import Mathlib.Tactic.FieldSimp
import Mathlib.Tactic.Ring
import Mathlib.Tactic.Linarith
import Mathlib.Tactic.Positivity
import Mathlib.Tactic.NormNum

/-! # C04: the central difference -/

namespace Verif.Props
open Verif Verif.CentralDiff

section Field
variable {K : Type} [Field K] [LinearOrder K]

/-- The step used for the point `t`: independent of the other points. -/
def cdStep (eps stepSize : K) (relative : Bool) (t : K) : K :=
  if relative then (if t * stepSize < eps then 2 * eps else t * stepSize) else stepSize

/-- **C04 (a).** For a function that acts point by point, the result has one entry per point, and
entry `i` is the symmetric difference quotient at point `i` with a step that depends on point `i`
only. -/
theorem c04_pointwise (eps : K) (x : List K) (f : K → K) (stepSize : K) (relative : Bool) :
    centralDifference eps x (List.map f) stepSize relative =
      .ok (x.map (fun t =>
        (f (t + cdStep eps stepSize relative t) - f (t - cdStep eps stepSize relative t)) /
          (2 * cdStep eps stepSize relative t))) := by
  have key : ∀ (s : K → K),
      List.zipWith (· - ·) ((x.map (fun t => f (t + s t)) ++ x.map (fun t => f (t - s t))).take
        ((x.map (fun t => f (t + s t)) ++ x.map (fun t => f (t - s t))).length / 2))
        ((x.map (fun t => f (t + s t)) ++ x.map (fun t => f (t - s t))).drop
        ((x.map (fun t => f (t + s t)) ++ x.map (fun t => f (t - s t))).length / 2)) =
      x.map (fun t => f (t + s t) - f (t - s t)) := by
    intro s
    have hl : (x.map (fun t => f (t + s t)) ++ x.map (fun t => f (t - s t))).length / 2
        = (x.map (fun t => f (t + s t))).length := by simp; omega
    rw [hl, List.take_left' rfl, List.drop_left' rfl, List.zipWith_map, List.zipWith_self]
  cases relative with
  | false =>
    have := key (fun _ => stepSize)
    simp only [centralDifference, steps, Bool.false_eq_true, if_false, npZip_right_single,
      List.map_append, List.map_map, Function.comp_def, List.map_cons, List.map_nil]
    rw [npZip_same _ _ _ (by simp; omega)]
    rw [this]
    simp [cdStep, Function.comp_def]
  | true =>
    have := key (fun t => if t * stepSize < eps then 2 * eps else t * stepSize)
    simp only [centralDifference, steps, if_true, List.map_map, Function.comp_def]
    rw [npZip_same _ _ _ (by simp), npZip_same _ _ _ (by simp)]
    simp only [List.zipWith_map_right, List.zipWith_self, List.map_append, List.map_map,
      Function.comp_def]
    rw [npZip_same _ _ _ (by simp; omega)]
    simp only [this]
    rw [npZip_same _ _ _ (by simp)]
    simp [cdStep, List.zipWith_map, List.zipWith_self]

variable [IsStrictOrderedRing K]

/-- The step is positive, also for points that are zero or negative. -/
theorem c04_step_pos (eps stepSize : K) (relative : Bool) (t : K) (he : 0 < eps)
    (hs : 0 < stepSize) : 0 < cdStep eps stepSize relative t := by
  unfold cdStep
  split
  · split
    · linarith
    · linarith
  · exact hs

/-- **C04 (b).** The central difference is exact for polynomials of degree at most two, at every
array of points, absolute and relative steps alike. -/
theorem c04_exact_quadratic (eps stepSize : K) (relative : Bool) (he : 0 < eps) (hs : 0 < stepSize)
    (a b c : K) (x : List K) :
    centralDifference eps x (List.map (fun t => a * t ^ 2 + b * t + c)) stepSize relative =
      .ok (x.map (fun t => 2 * a * t + b)) := by
  rw [c04_pointwise]
  congr 1
  apply List.map_congr_left
  intro t _
  have h := c04_step_pos eps stepSize relative t he hs
  generalize cdStep eps stepSize relative t = s at h
  have : s ≠ 0 := ne_of_gt h
  field_simp
  ring

/-- For cubics the error is exactly `a s²`: second order. -/
theorem c04_error_cubic (eps stepSize : K) (relative : Bool) (he : 0 < eps) (hs : 0 < stepSize)
    (a b c d : K) (x : List K) :
    centralDifference eps x (List.map (fun t => a * t ^ 3 + b * t ^ 2 + c * t + d)) stepSize relative
      = .ok (x.map (fun t => (3 * a * t ^ 2 + 2 * b * t + c) +
          a * cdStep eps stepSize relative t ^ 2)) := by
  rw [c04_pointwise]
  congr 1
  apply List.map_congr_left
  intro t _
  have h := c04_step_pos eps stepSize relative t he hs
  generalize cdStep eps stepSize relative t = s at h
  have : s ≠ 0 := ne_of_gt h
  field_simp
  ring

end Field

open Filter Topology

/-- The symmetric difference quotient converges to the derivative. -/
theorem c04_symm_quotient_tendsto (f : ℝ → ℝ) (f' t : ℝ) (h : HasDerivAt f f' t) :
    Tendsto (fun s => (f (t + s) - f (t - s)) / (2 * s)) (𝓝[≠] 0) (𝓝 f') := by
  have h1 : HasDerivAt (fun s => f (t + s) - f (t - s)) (2 * f') 0 := by
    have ha : HasDerivAt (fun s : ℝ => f (t + s)) f' 0 := by
      have : HasDerivAt f f' (t + 0) := by simpa using h
      simpa using HasDerivAt.comp_const_add t 0 this
    have hb : HasDerivAt (fun s : ℝ => f (t - s)) (-f') 0 := by
      have : HasDerivAt f f' (t - 0) := by simpa using h
      simpa using HasDerivAt.comp_const_sub t 0 this
    have := ha.sub hb
    rw [show 2 * f' = f' - -f' by ring]
    exact this
  have h2 := h1.tendsto_slope_zero
  have h3 := h2.const_mul (1 / 2 : ℝ)
  refine (h3.congr' ?_).trans (by rw [show 1 / 2 * (2 * f') = f' by ring])
  filter_upwards [self_mem_nhdsWithin] with s hs
  have : s ≠ 0 := hs
  simp
  field_simp

/-- **C04 (c).** For every function differentiable at the points, entry `i` of the central
difference converges to the derivative at point `i` as the (absolute) step tends to zero. -/
theorem c04_converges (eps : ℝ) (x : List ℝ) (f f' : ℝ → ℝ)
    (hf : ∀ t ∈ x, HasDerivAt f (f' t) t) (i : Nat) (hi : i < x.length) :
    Tendsto (fun s => match centralDifference eps x (List.map f) s false with
      | .ok d => d.getD i 0 | .error _ => 0) (𝓝[≠] 0) (𝓝 (f' (x[i]))) := by
  have h := c04_symm_quotient_tendsto f (f' x[i]) x[i] (hf _ (List.getElem_mem hi))
  refine h.congr' (Eventually.of_forall fun s => ?_)
  simp only [c04_pointwise]
  simp [List.getD, hi, cdStep]

/-- Same for relative steps at positive points: the scale factor tends to zero, provided it stays so
large that the machine-epsilon floor is not hit (`eps` is taken `0`, exact arithmetic). -/
theorem c04_converges_relative (x : List ℝ) (f f' : ℝ → ℝ)
    (hf : ∀ t ∈ x, HasDerivAt f (f' t) t) (hpos : ∀ t ∈ x, 0 < t) (i : Nat) (hi : i < x.length) :
    Tendsto (fun s => match centralDifference 0 x (List.map f) s true with
      | .ok d => d.getD i 0 | .error _ => 0) (𝓝[>] 0) (𝓝 (f' (x[i]))) := by
  have h := c04_symm_quotient_tendsto f (f' x[i]) x[i] (hf _ (List.getElem_mem hi))
  have hp := hpos _ (List.getElem_mem hi)
  have hm : Tendsto (fun s : ℝ => x[i] * s) (𝓝[>] 0) (𝓝[≠] 0) := by
    refine tendsto_nhdsWithin_iff.mpr ⟨?_, ?_⟩
    · have : Tendsto (fun s : ℝ => x[i] * s) (𝓝 0) (𝓝 (x[i] * 0)) :=
        (continuous_const.mul continuous_id).tendsto 0
      rw [mul_zero] at this
      exact this.mono_left nhdsWithin_le_nhds
    · filter_upwards [self_mem_nhdsWithin] with s hs
      have hs' : (0 : ℝ) < s := hs
      have : x[i] * s ≠ 0 := by positivity
      simpa using this
  refine (h.comp hm).congr' ?_
  filter_upwards [self_mem_nhdsWithin] with s hs
  have hs' : (0 : ℝ) < s := hs
  have : ¬ (x[i] * s < 0) := not_lt.mpr (by positivity)
  simp only [c04_pointwise, Function.comp]
  simp [List.getD, hi, cdStep, this]

example : centralDifference (1 / 1000 : ℚ) [1, 2, -3] (List.map (fun t => t ^ 2)) (1 / 10) true
    = .ok [2, 4, -6] := by
  have := c04_exact_quadratic (1 / 1000 : ℚ) (1 / 10) true (by norm_num) (by norm_num) 1 0 0 [1, 2, -3]
  norm_num at this
  exact this

/-- A function that is not point-wise and returns an odd number of values is rejected, not
mis-aligned. -/
example : centralDifference (1 / 1000 : ℚ) [1, 2, 3] (fun l => 0 :: l) (1 / 10) false
    = .error .valueError := by rfl

end Verif.Props
