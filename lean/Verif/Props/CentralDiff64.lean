import Verif.Model.CentralDiff64
import Verif.Props.Binary64
import Mathlib.Analysis.Calculus.MeanValue
import Mathlib.Analysis.SpecialFunctions.Log.Deriv

/-! # C146: numerical derivatives in double precision -/

namespace Verif.Props
open Verif Verif.Binary64 Verif.CentralDiff64

/-- The relative error of one rounding. -/
noncomputable def unit : ℝ := 1 / 2 ^ 53

/-- The error of one rounding next to zero. -/
noncomputable def tiny : ℝ := 1 / 2 ^ 1075

private theorem unit_pos : 0 < unit := by unfold unit; positivity
private theorem tiny_pos : 0 < tiny := by unfold tiny; positivity

/-- One rounding. -/
theorem fl_error (q : ℚ) : |((fl q : ℚ) : ℝ) - (q : ℝ)| ≤ unit * |(q : ℝ)| + tiny := by
  have h : |fl q - q| ≤ 1 / 2 ^ 53 * |q| + 1 / 2 ^ 1075 := by
    by_cases hq : q = 0
    · subst hq; simp [fl]
    refine (fl_err q).trans ?_
    have hz : (2 : ℚ) ^ Int.log 2 |q| ≤ |q| := by
      have := Int.zpow_log_le_self (b := 2) (by norm_num) (abs_pos.2 hq)
      exact_mod_cast this
    unfold lastPlace
    rcases le_total (Int.log 2 |q| - 52) (-1074) with h | h
    · rw [max_eq_right h]
      have : (2 : ℚ) ^ (-1074 : ℤ) / 2 = 1 / 2 ^ 1075 := by
        rw [zpow_neg, show ((1074 : ℤ)) = ((1074 : ℕ) : ℤ) by norm_num, zpow_natCast, pow_succ (2 : ℚ) 1074]
        field_simp
      rw [this]
      have : 0 ≤ 1 / 2 ^ 53 * |q| := by positivity
      linarith
    · rw [max_eq_left h, zpow_sub₀ (by norm_num)]
      have : (0 : ℚ) ≤ 1 / 2 ^ 1075 := by positivity
      have h2 : (2 : ℚ) ^ Int.log 2 |q| / 2 ^ (52 : ℤ) / 2 = 1 / 2 ^ 53 * 2 ^ Int.log 2 |q| := by
        norm_num; ring
      rw [h2]
      have := mul_le_mul_of_nonneg_left hz (show (0 : ℚ) ≤ 1 / 2 ^ 53 by positivity)
      linarith
  have h' : ((|fl q - q| : ℚ) : ℝ) ≤ ((1 / 2 ^ 53 * |q| + 1 / 2 ^ 1075 : ℚ) : ℝ) := by exact_mod_cast h
  push_cast at h'
  unfold unit tiny
  exact h'

/-- Doubling a double is exact. -/
theorem fl_double {h : ℚ} (hh : fl h = h) : fl (2 * h) = 2 * h := by
  obtain ⟨k, hk, e⟩ := fl_form h
  rw [hh] at e
  have e2 : 2 * h = k * 2 ^ (lastPlace h + 1) := by
    rw [zpow_add_one₀ (by norm_num), ← mul_assoc, ← e]
    ring
  rw [e2]
  exact fl_exact (by have := lastPlace_ge h; omega) hk

/-- **C146, rounding.**  Let `F` be a function with a Lipschitz constant `L` around `x`, `f` the doubles computed for it, with
errors up to `η`, and let the exact difference quotient with the step `h` be off by `τ / (2 h)`.  Then the computed quotient is
off by at most the sum of three terms: the truncation, the error of the computed values divided by the step, and the rounding
of the two points divided by the step; the roundings of the quotient itself add only a relative error of two units. -/
theorem c146_rounding (F : ℝ → ℝ) (F' L η τ : ℝ) (f : ℚ → ℚ) (x h : ℚ) (hh : fl h = h) (hpos : 0 < h)
    (hL : |F (fl (x + h) : ℚ) - F (x + h)| ≤ L * |((fl (x + h) : ℚ) : ℝ) - (x + h)|)
    (hL' : |F (fl (x - h) : ℚ) - F (x - h)| ≤ L * |((fl (x - h) : ℚ) : ℝ) - (x - h)|)
    (hL0 : 0 ≤ L)
    (h1 : |((f (fl (x + h)) : ℚ) : ℝ) - F (fl (x + h) : ℚ)| ≤ η)
    (h2 : |((f (fl (x - h)) : ℚ) : ℝ) - F (fl (x - h) : ℚ)| ≤ η)
    (hτ : |F (x + h) - F (x - h) - 2 * h * F'| ≤ τ) :
    |((quotient f x h : ℚ) : ℝ) - F'| ≤
      ((τ + 2 * η + 2 * L * (unit * (|(x : ℝ)| + h) + tiny)) * (1 + unit) ^ 2 + tiny * (1 + unit)) / (2 * h)
        + (2 * unit + unit ^ 2) * |F'| + tiny := by
  have hu := unit_pos
  have ht := tiny_pos
  have hR : (0 : ℝ) < h := by exact_mod_cast hpos
  set a : ℚ := fl (x + h) with ha
  set b : ℚ := fl (x - h) with hb
  set G : ℚ := f a - f b with hG
  set d : ℚ := fl G with hd
  have hq : quotient f x h = fl (d / (2 * h)) := by
    simp only [quotient, fl_double hh, ← ha, ← hb, ← hG, ← hd]
  have ea : |(a : ℝ) - (x + h)| ≤ unit * (|(x : ℝ)| + h) + tiny := by
    have := fl_error (x + h)
    push_cast at this
    have h3 : |(x : ℝ) + h| ≤ |(x : ℝ)| + h := by
      have := abs_add_le (x : ℝ) (h : ℝ)
      rwa [abs_of_pos hR] at this
    have := mul_le_mul_of_nonneg_left h3 hu.le
    rw [ha]
    linarith
  have eb : |(b : ℝ) - (x - h)| ≤ unit * (|(x : ℝ)| + h) + tiny := by
    have := fl_error (x - h)
    push_cast at this
    have h3 : |(x : ℝ) - h| ≤ |(x : ℝ)| + h := by
      have := abs_sub (x : ℝ) (h : ℝ)
      rwa [abs_of_pos hR] at this
    have := mul_le_mul_of_nonneg_left h3 hu.le
    rw [hb]
    linarith
  set E : ℝ := τ + 2 * η + 2 * L * (unit * (|(x : ℝ)| + h) + tiny) with hE
  have hGE : |(G : ℝ) - 2 * h * F'| ≤ E := by
    have k1 := hL.trans (mul_le_mul_of_nonneg_left ea hL0)
    have k2 := hL'.trans (mul_le_mul_of_nonneg_left eb hL0)
    have e : (G : ℝ) - 2 * h * F' = (((f a : ℚ) : ℝ) - F a) - (((f b : ℚ) : ℝ) - F b) + (F a - F (x + h)) - (F b - F (x - h)) +
        (F (x + h) - F (x - h) - 2 * h * F') := by
      rw [hG]; push_cast; ring
    rw [e, abs_le]
    rw [abs_le] at h1 h2 k1 k2 hτ
    constructor <;> · rw [hE]; linarith [h1.1, h1.2, h2.1, h2.2, k1.1, k1.2, k2.1, k2.2, hτ.1, hτ.2]
  have hdG : |(d : ℝ) - G| ≤ unit * |(G : ℝ)| + tiny := by rw [hd]; exact fl_error G
  have hD : |((quotient f x h : ℚ) : ℝ) - d / (2 * h)| ≤ unit * (|(d : ℝ)| / (2 * h)) + tiny := by
    have := fl_error (d / (2 * h))
    push_cast at this
    rw [hq]
    rwa [abs_div, abs_of_pos (show (0 : ℝ) < 2 * h by positivity)] at this
  have hGb : |(G : ℝ)| ≤ E + 2 * h * |F'| := by
    have := abs_add_le ((G : ℝ) - 2 * h * F') (2 * h * F')
    rw [sub_add_cancel, abs_mul (2 * (h : ℝ)), abs_of_pos (show (0 : ℝ) < 2 * h by positivity)] at this
    linarith
  have hdb : |(d : ℝ)| ≤ (1 + unit) * |(G : ℝ)| + tiny := by
    have := abs_add_le ((d : ℝ) - G) G
    rw [sub_add_cancel] at this
    linarith
  have htri : |((quotient f x h : ℚ) : ℝ) - F'| ≤
      |((quotient f x h : ℚ) : ℝ) - d / (2 * h)| + |(d : ℝ) - G| / (2 * h) + |(G : ℝ) - 2 * h * F'| / (2 * h) := by
    have e : ((quotient f x h : ℚ) : ℝ) - F' = (((quotient f x h : ℚ) : ℝ) - d / (2 * h)) + ((d : ℝ) - G) / (2 * h) +
        ((G : ℝ) - 2 * h * F') / (2 * h) := by
      field_simp; ring
    have p := abs_add_le ((((quotient f x h : ℚ) : ℝ) - d / (2 * h)) + ((d : ℝ) - G) / (2 * h)) (((G : ℝ) - 2 * h * F') / (2 * h))
    have p' := abs_add_le (((quotient f x h : ℚ) : ℝ) - d / (2 * h)) (((d : ℝ) - G) / (2 * h))
    rw [abs_div _ (2 * (h : ℝ)), abs_of_pos (show (0 : ℝ) < 2 * h by positivity)] at p p'
    rw [e]
    linarith
  have hkey : unit * |(d : ℝ)| + |(d : ℝ) - G| + |(G : ℝ) - 2 * h * F'| ≤
      E * (1 + unit) ^ 2 + tiny * (1 + unit) + 2 * h * ((2 * unit + unit ^ 2) * |F'|) := by
    have q1 := mul_le_mul_of_nonneg_left hdb hu.le
    have q2 := mul_le_mul_of_nonneg_left hGb (show 0 ≤ 2 * unit + unit ^ 2 by positivity)
    nlinarith
  have hdiv := div_le_div_of_nonneg_right hkey (show (0 : ℝ) ≤ 2 * h by positivity)
  have e1 : (unit * |(d : ℝ)| + |(d : ℝ) - G| + |(G : ℝ) - 2 * h * F'|) / (2 * h) =
      unit * (|(d : ℝ)| / (2 * h)) + |(d : ℝ) - G| / (2 * h) + |(G : ℝ) - 2 * h * F'| / (2 * h) := by ring
  have e2 : (E * (1 + unit) ^ 2 + tiny * (1 + unit) + 2 * h * ((2 * unit + unit ^ 2) * |F'|)) / (2 * h) =
      (E * (1 + unit) ^ 2 + tiny * (1 + unit)) / (2 * h) + (2 * unit + unit ^ 2) * |F'| := by
    field_simp
  rw [e1, e2] at hdiv
  linarith

/-- **C146, truncation.**  With a third derivative bounded by `M` between the two points, the difference of the values is off by
at most `M h ^ 3 / 3`. -/
theorem c146_truncation (F F1 F2 F3 : ℝ → ℝ) (M x h : ℝ) (hh : 0 ≤ h)
    (d1 : ∀ t ∈ Set.Icc (x - h) (x + h), HasDerivAt F (F1 t) t)
    (d2 : ∀ t ∈ Set.Icc (x - h) (x + h), HasDerivAt F1 (F2 t) t)
    (d3 : ∀ t ∈ Set.Icc (x - h) (x + h), HasDerivAt F2 (F3 t) t)
    (hM : ∀ t ∈ Set.Icc (x - h) (x + h), |F3 t| ≤ M) :
    |F (x + h) - F (x - h) - 2 * h * F1 x| ≤ M * h ^ 3 / 3 := by
  have mem1 : ∀ s ∈ Set.Icc 0 h, x + s ∈ Set.Icc (x - h) (x + h) := fun s hs => ⟨by linarith [hs.1], by linarith [hs.2]⟩
  have mem2 : ∀ s ∈ Set.Icc 0 h, x - s ∈ Set.Icc (x - h) (x + h) := fun s hs => ⟨by linarith [hs.2], by linarith [hs.1]⟩
  have plus : ∀ (G G' : ℝ → ℝ), (∀ t ∈ Set.Icc (x - h) (x + h), HasDerivAt G (G' t) t) → ∀ s ∈ Set.Icc 0 h,
      HasDerivAt (fun s => G (x + s)) (G' (x + s)) s := by
    intro G G' hG s hs
    have := (hG _ (mem1 s hs)).comp s ((hasDerivAt_id' s).const_add x)
    exact this.congr_deriv (by ring)
  have minus : ∀ (G G' : ℝ → ℝ), (∀ t ∈ Set.Icc (x - h) (x + h), HasDerivAt G (G' t) t) → ∀ s ∈ Set.Icc 0 h,
      HasDerivAt (fun s => G (x - s)) (-(G' (x - s))) s := by
    intro G G' hG s hs
    have := (hG _ (mem2 s hs)).comp s ((hasDerivAt_id' s).const_sub x)
    exact this.congr_deriv (by ring)
  have fence : ∀ (φ φ' B B' : ℝ → ℝ), φ 0 = 0 → B 0 = 0 → (∀ s ∈ Set.Icc 0 h, HasDerivAt φ (φ' s) s) →
      (∀ s, HasDerivAt B (B' s) s) → (∀ s ∈ Set.Icc 0 h, |φ' s| ≤ B' s) → ∀ s ∈ Set.Icc 0 h, |φ s| ≤ B s := by
    intro φ φ' B B' h0 hB0 hφ hB hb s hs
    have := image_norm_le_of_norm_deriv_right_le_deriv_boundary (f := φ) (f' := φ') (a := 0) (b := h) (B := B) (B' := B')
      (fun t ht => (hφ t ht).continuousAt.continuousWithinAt)
      (fun t ht => (hφ t ⟨ht.1, ht.2.le⟩).hasDerivWithinAt) (by simp [h0, hB0]) hB
      (fun t ht => by rw [Real.norm_eq_abs]; exact hb t ⟨ht.1, ht.2.le⟩) hs
    rwa [Real.norm_eq_abs] at this
  -- the second derivatives at the two points
  have s1 : ∀ s ∈ Set.Icc 0 h, |F2 (x + s) - F2 (x - s)| ≤ 2 * M * s := by
    refine fence (fun s => F2 (x + s) - F2 (x - s)) (fun s => F3 (x + s) - -(F3 (x - s))) _ (fun _ => 2 * M) (by simp) (by simp) ?_ ?_ ?_
    · exact fun s hs => (plus F2 F3 d3 s hs).sub (minus F2 F3 d3 s hs)
    · intro s; simpa using (hasDerivAt_id s).const_mul (2 * M)
    · intro s hs
      have a1 := hM _ (mem1 s hs)
      have a2 := hM _ (mem2 s hs)
      rw [abs_le] at a1 a2 ⊢
      constructor <;> linarith [a1.1, a1.2, a2.1, a2.2]
  have s2 : ∀ s ∈ Set.Icc 0 h, |F1 (x + s) + F1 (x - s) - 2 * F1 x| ≤ M * s ^ 2 := by
    refine fence (fun s => F1 (x + s) + F1 (x - s) - 2 * F1 x) (fun s => F2 (x + s) - F2 (x - s)) _ (fun s => 2 * M * s)
      (by simp; ring) (by simp) ?_ ?_ s1
    · intro s hs
      have := ((plus F1 F2 d2 s hs).add (minus F1 F2 d2 s hs)).sub_const (2 * F1 x)
      exact this.congr_deriv (by ring)
    · intro s
      have := (hasDerivAt_pow 2 s).const_mul M
      exact this.congr_deriv (by simp; ring)
  have s3 : ∀ s ∈ Set.Icc 0 h, |F (x + s) - F (x - s) - 2 * s * F1 x| ≤ M * s ^ 3 / 3 := by
    refine fence (fun s => F (x + s) - F (x - s) - 2 * s * F1 x) (fun s => F1 (x + s) + F1 (x - s) - 2 * F1 x) _
      (fun s => M * s ^ 2) (by simp) (by simp) ?_ ?_ s2
    · intro s hs
      have k := ((hasDerivAt_id s).const_mul 2).mul_const (F1 x)
      have := ((plus F F1 d1 s hs).sub (minus F F1 d1 s hs)).sub k
      exact this.congr_deriv (by simp)
    · intro s
      have := ((hasDerivAt_pow 3 s).const_mul M).div_const 3
      exact this.congr_deriv (by simp; ring)
  exact s3 h ⟨hh, le_refl h⟩

private theorem unit_le : unit ≤ 1112 / 10 ^ 19 := by unfold unit; norm_num

private theorem tiny_le : tiny ≤ 1 / 10 ^ 70 := by
  unfold tiny
  have : (2 : ℝ) ^ 240 ≤ 2 ^ 1075 := pow_le_pow_right₀ (by norm_num) (by norm_num)
  refine (one_div_le_one_div_of_le (by positivity) this).trans ?_
  norm_num

/-- The step of `pressure` is a millionth of the density. -/
theorem c146_step (x : ℚ) (hx : 1 / 10 ^ 9 ≤ x) :
    let h := relativeStep (fl (1 / 10 ^ 6)) x
    fl h = h ∧ (1 - 1 / 10 ^ 12) * ((x : ℝ) / 10 ^ 6) ≤ h ∧ (h : ℝ) ≤ (1 + 1 / 10 ^ 12) * (x / 10 ^ 6) := by
  have hu := unit_le
  have hu0 := unit_pos
  have ht := tiny_le
  have ht0 := tiny_pos
  have hxR : (1 / 10 ^ 9 : ℝ) ≤ x := by
    have := (Rat.cast_le (K := ℝ)).2 hx
    push_cast at this
    exact this
  set s : ℚ := fl (1 / 10 ^ 6) with hs
  have e1 := fl_error (1 / 10 ^ 6)
  rw [← hs] at e1
  push_cast at e1
  rw [abs_of_pos (show (0 : ℝ) < 1 / 10 ^ 6 by positivity)] at e1
  have e1' : |(s : ℝ) - 1 / 10 ^ 6| ≤ 1 / 10 ^ 21 := e1.trans (by linarith)
  rw [abs_le] at e1'
  set h0 : ℚ := fl (x * s) with hh0
  have e2 := fl_error (x * s)
  rw [← hh0] at e2
  push_cast at e2
  have spos : (0 : ℝ) < s := by linarith [e1'.1]
  have xpos : (0 : ℝ) < x := lt_of_lt_of_le (by positivity) hxR
  rw [abs_of_pos (mul_pos xpos spos)] at e2
  have xs1 : (x : ℝ) * s ≤ x * (1 / 10 ^ 6 + 1 / 10 ^ 21) := mul_le_mul_of_nonneg_left (by linarith [e1'.2]) xpos.le
  have xs2 : (x : ℝ) * (1 / 10 ^ 6 - 1 / 10 ^ 21) ≤ x * s := mul_le_mul_of_nonneg_left (by linarith [e1'.1]) xpos.le
  have e2' : |(h0 : ℝ) - x * s| ≤ x / 10 ^ 20 := by
    refine e2.trans ?_
    have := mul_le_mul hu xs1 (mul_pos xpos spos).le (by norm_num)
    linarith
  rw [abs_le] at e2'
  have lo : (1 - 1 / 10 ^ 12) * ((x : ℝ) / 10 ^ 6) ≤ h0 := by linarith [e2'.1]
  have hi : (h0 : ℝ) ≤ (1 + 1 / 10 ^ 12) * (x / 10 ^ 6) := by linarith [e2'.2]
  have hbig : ¬ h0 < eps := by
    intro hlt
    have : (h0 : ℝ) < (eps : ℚ) := by exact_mod_cast hlt
    have he : ((eps : ℚ) : ℝ) = 1 / 2 ^ 52 := by unfold eps; push_cast; rfl
    rw [he] at this
    have : (1 / 2 ^ 52 : ℝ) < 1 / 10 ^ 15 * (1 - 1 / 10 ^ 12) := by norm_num
    linarith
  have heq : relativeStep s x = h0 := by
    simp only [relativeStep, ← hh0, if_neg hbig]
  simp only [heq]
  exact ⟨by rw [hh0, fl_idem], lo, hi⟩

/-- The step is never below the spacing of the doubles at one, and a density whose millionth is below that spacing is moved by
twice the spacing, 4.4e-16: the lower of the two densities is then negative for a density up to 2.2e-16. -/
theorem c146_smallest (size x : ℚ) :
    1 / 2 ^ 52 ≤ relativeStep size x ∧
    (fl (x * size) < 1 / 2 ^ 52 → relativeStep size x = 1 / 2 ^ 51 ∧
      (x ≤ 1 / 2 ^ 52 → fl (x - relativeStep size x) < 0)) := by
  have h2 : fl (2 * eps) = 1 / 2 ^ 51 := by decide +kernel
  unfold relativeStep
  dsimp only
  refine ⟨?_, ?_⟩
  · split_ifs with h
    · rw [h2]; norm_num
    · exact not_lt.mp h
  · intro h
    have h' : fl (x * size) < eps := h
    rw [if_pos h', h2]
    refine ⟨rfl, fun hx => ?_⟩
    have hneg : x - 1 / 2 ^ 51 ≤ -(1 / 2 ^ 52) := by linarith
    have hR : ((x - 1 / 2 ^ 51 : ℚ) : ℝ) ≤ -(1 / 2 ^ 52) := by
      have := (Rat.cast_le (K := ℝ)).2 hneg
      push_cast at this ⊢
      exact this
    have e := fl_error (x - 1 / 2 ^ 51)
    rw [abs_of_nonpos (hR.trans (by norm_num))] at e
    have hu := unit_le
    have ht := tiny_le
    have hu' := mul_le_mul_of_nonneg_right hu (neg_nonneg.2 (hR.trans (by norm_num)))
    have hlt : ((fl (x - 1 / 2 ^ 51) : ℚ) : ℝ) < 0 := by
      have := (abs_le.1 e).2
      have h3 : (1 / 10 ^ 70 : ℝ) < 1 / 2 ^ 53 := by norm_num
      linarith
    exact_mod_cast hlt

/-- The terms of `c146_rounding` for a step of a millionth. -/
private theorem derivative_numbers (x h L M η D : ℝ) (hxR : 1 / 10 ^ 9 ≤ x) (hpos : 0 < h)
    (lo : (1 - 1 / 10 ^ 12) * (x / 10 ^ 6) ≤ h) (hi : h ≤ (1 + 1 / 10 ^ 12) * (x / 10 ^ 6))
    (hL0 : 0 ≤ L) (hM0 : 0 ≤ M) (hη0 : 0 ≤ η) (hF1 : |D| ≤ L)
    (hsum : unit * (|x| + h) + tiny ≤ 1112 / 10 ^ 19 * (1 + 11 / 10 ^ 7) * x) :
    ((M * h ^ 3 / 3 + 2 * η + 2 * L * (unit * (|x| + h) + tiny)) * (1 + unit) ^ 2 + tiny * (1 + unit)) / (2 * h)
        + (2 * unit + unit ^ 2) * |D| + tiny ≤
      17 / 10 ^ 14 * M * x ^ 2 + 1000001 * η / x + 12 / 10 ^ 11 * L + 1 / 10 ^ 50 := by
  have hu := unit_le
  have hu0 := unit_pos
  have ht := tiny_le
  have ht0 := tiny_pos
  have xpos : 0 < x := lt_of_lt_of_le (by positivity) hxR
  have hc : (1 + unit) ^ 2 ≤ 1 + 1 / 10 ^ 14 := by nlinarith
  have hc0 : (0 : ℝ) ≤ (1 + unit) ^ 2 := by positivity
  have inv : 1 / h ≤ 1000000 * (1 + 2 / 10 ^ 12) / x := by
    rw [div_le_div_iff₀ hpos xpos]
    linarith
  have hT : (M * h ^ 3 / 3) / (2 * h) ≤ 1667 / 10 ^ 16 * M * x ^ 2 := by
    have e : (M * h ^ 3 / 3) / (2 * h) = M / 6 * h ^ 2 := by field_simp; ring
    rw [e]
    have : h ^ 2 ≤ ((1 + 1 / 10 ^ 12) * (x / 10 ^ 6)) ^ 2 := pow_le_pow_left₀ hpos.le hi 2
    have h6 : (0 : ℝ) ≤ M / 6 := by positivity
    have := mul_le_mul_of_nonneg_left this h6
    have hMx : 0 ≤ M * x ^ 2 := by positivity
    nlinarith
  have hE : (2 * η) / (2 * h) ≤ 1000000 * (1 + 2 / 10 ^ 12) * (η / x) := by
    have e : (2 * η) / (2 * h) = η * (1 / h) := by field_simp
    rw [e]
    refine (mul_le_mul_of_nonneg_left inv hη0).trans (le_of_eq ?_)
    ring
  have hR : (2 * L * (unit * (|x| + h) + tiny)) / (2 * h) ≤ 1113 / 10 ^ 13 * L := by
    have e : (2 * L * (unit * (|x| + h) + tiny)) / (2 * h) = L * ((unit * (|x| + h) + tiny) / h) := by
      field_simp
    rw [e, mul_comm]
    refine mul_le_mul_of_nonneg_right ?_ hL0
    rw [div_le_iff₀ hpos]
    linarith
  have hS : tiny * (1 + unit) / (2 * h) ≤ 1 / 10 ^ 53 := by
    rw [div_le_iff₀ (by positivity)]
    have : tiny * (1 + unit) ≤ 1 / 10 ^ 70 * 2 := mul_le_mul ht (by linarith) (by positivity) (by norm_num)
    linarith
  have split : ((M * h ^ 3 / 3 + 2 * η + 2 * L * (unit * (|x| + h) + tiny)) * (1 + unit) ^ 2 + tiny * (1 + unit)) /
      (2 * h) = ((M * h ^ 3 / 3) / (2 * h) + (2 * η) / (2 * h) +
        (2 * L * (unit * (|x| + h) + tiny)) / (2 * h)) * (1 + unit) ^ 2 + tiny * (1 + unit) / (2 * h) := by ring
  rw [split]
  have hMx : 0 ≤ M * x ^ 2 := by positivity
  have hηx : 0 ≤ η / x := by positivity
  have hsumle := mul_le_mul (add_le_add (add_le_add hT hE) hR) hc hc0 (by positivity)
  have hq : (2 * unit + unit ^ 2) * |D| ≤ 1 / 10 ^ 14 * L := by
    have h1 : 2 * unit + unit ^ 2 ≤ 1 / 10 ^ 14 := by nlinarith
    exact mul_le_mul h1 hF1 (abs_nonneg _) (by norm_num)
  rw [mul_div_assoc 1000001 η x, mul_assoc (17 / 10 ^ 14 : ℝ)]
  rw [mul_assoc (1667 / 10 ^ 16 : ℝ)] at hsumle
  linarith

/-- The terms of `c146_rounding` for the step in the logarithm. -/
private theorem logarithmic_numbers (y h L M η D : ℝ) (hpos : 0 < h)
    (lo : (1 - 1 / 10 ^ 12) * (1 / 10 ^ 5) ≤ h) (hi : h ≤ (1 + 1 / 10 ^ 12) * (1 / 10 ^ 5))
    (hL0 : 0 ≤ L) (hM0 : 0 ≤ M) (hη0 : 0 ≤ η) (hF1 : |D| ≤ L)
    (hsum : unit * (|y| + h) + tiny ≤ 1112 / 10 ^ 19 * (321 / 10)) :
    ((M * h ^ 3 / 3 + 2 * η + 2 * L * (unit * (|y| + h) + tiny)) * (1 + unit) ^ 2 + tiny * (1 + unit)) / (2 * h)
        + (2 * unit + unit ^ 2) * |D| + tiny ≤
      17 / 10 ^ 12 * M + 100001 * η + 36 / 10 ^ 11 * L + 1 / 10 ^ 50 := by
  have hu := unit_le
  have hu0 := unit_pos
  have ht := tiny_le
  have ht0 := tiny_pos
  have hc : (1 + unit) ^ 2 ≤ 1 + 1 / 10 ^ 14 := by nlinarith
  have hc0 : (0 : ℝ) ≤ (1 + unit) ^ 2 := by positivity
  have hT : (M * h ^ 3 / 3) / (2 * h) ≤ 1667 / 10 ^ 14 * M := by
    have e : (M * h ^ 3 / 3) / (2 * h) = M / 6 * h ^ 2 := by field_simp; ring
    rw [e]
    have : h ^ 2 ≤ ((1 + 1 / 10 ^ 12) * (1 / 10 ^ 5)) ^ 2 := pow_le_pow_left₀ hpos.le hi 2
    have h6 : (0 : ℝ) ≤ M / 6 := by positivity
    have := mul_le_mul_of_nonneg_left this h6
    nlinarith
  have hE : (2 * η) / (2 * h) ≤ 100000 * (1 + 2 / 10 ^ 12) * η := by
    rw [div_le_iff₀ (by positivity)]
    have := mul_le_mul_of_nonneg_left lo hη0
    nlinarith
  have hR : (2 * L * (unit * (|y| + h) + tiny)) / (2 * h) ≤ 358 / 10 ^ 12 * L := by
    have e : (2 * L * (unit * (|y| + h) + tiny)) / (2 * h) = L * ((unit * (|y| + h) + tiny) / h) := by
      field_simp
    rw [e, mul_comm]
    refine mul_le_mul_of_nonneg_right ?_ hL0
    rw [div_le_iff₀ hpos]
    linarith
  have hS : tiny * (1 + unit) / (2 * h) ≤ 1 / 10 ^ 53 := by
    rw [div_le_iff₀ (by positivity)]
    have : tiny * (1 + unit) ≤ 1 / 10 ^ 70 * 2 := mul_le_mul ht (by linarith) (by positivity) (by norm_num)
    linarith
  have split : ((M * h ^ 3 / 3 + 2 * η + 2 * L * (unit * (|y| + h) + tiny)) * (1 + unit) ^ 2 + tiny * (1 + unit)) /
      (2 * h) = ((M * h ^ 3 / 3) / (2 * h) + (2 * η) / (2 * h) +
        (2 * L * (unit * (|y| + h) + tiny)) / (2 * h)) * (1 + unit) ^ 2 + tiny * (1 + unit) / (2 * h) := by ring
  rw [split]
  have hsumle := mul_le_mul (add_le_add (add_le_add hT hE) hR) hc hc0 (by positivity)
  have hq : (2 * unit + unit ^ 2) * |D| ≤ 1 / 10 ^ 14 * L := by
    have h1 : 2 * unit + unit ^ 2 ≤ 1 / 10 ^ 14 := by nlinarith
    exact mul_le_mul h1 hF1 (abs_nonneg _) (by norm_num)
  linarith

/-- **C146, the derivative in `pressure`.**  For densities from 1e-9 on and a Helmholtz energy whose computed values are off by
up to `η`, the computed derivative is off by at most 1.7e-13 `M x ^ 2` (the step is not infinitely small), 1.000001e6 `η / x`
(the error of the values) and 1.2e-10 `L` (the rounded points), where `L` and `M` bound the first and third derivatives
around the density. -/
theorem c146_derivative (F F1 F2 F3 : ℝ → ℝ) (L M η : ℝ) (f : ℚ → ℚ) (x : ℚ) (hx : 1 / 10 ^ 9 ≤ x)
    (d1 : ∀ t : ℝ, |t - x| ≤ 2 * (x / 10 ^ 6) → HasDerivAt F (F1 t) t)
    (d2 : ∀ t : ℝ, |t - x| ≤ 2 * (x / 10 ^ 6) → HasDerivAt F1 (F2 t) t)
    (d3 : ∀ t : ℝ, |t - x| ≤ 2 * (x / 10 ^ 6) → HasDerivAt F2 (F3 t) t)
    (hL : ∀ t : ℝ, |t - x| ≤ 2 * (x / 10 ^ 6) → |F1 t| ≤ L)
    (hM : ∀ t : ℝ, |t - x| ≤ 2 * (x / 10 ^ 6) → |F3 t| ≤ M)
    (hη : ∀ q : ℚ, |(q : ℝ) - x| ≤ 2 * (x / 10 ^ 6) → |((f q : ℚ) : ℝ) - F q| ≤ η) :
    |((quotient f x (relativeStep (fl (1 / 10 ^ 6)) x) : ℚ) : ℝ) - F1 x| ≤
      17 / 10 ^ 14 * M * x ^ 2 + 1000001 * η / x + 12 / 10 ^ 11 * L + 1 / 10 ^ 50 := by
  have hu := unit_le
  have hu0 := unit_pos
  have ht := tiny_le
  have ht0 := tiny_pos
  have hxR : (1 / 10 ^ 9 : ℝ) ≤ x := by
    have := (Rat.cast_le (K := ℝ)).2 hx
    push_cast at this
    exact this
  have xpos : (0 : ℝ) < x := lt_of_lt_of_le (by positivity) hxR
  obtain ⟨hfl, lo, hi⟩ := c146_step x hx
  set h : ℚ := relativeStep (fl (1 / 10 ^ 6)) x with hh
  have hpos : (0 : ℝ) < h := lt_of_lt_of_le (by positivity) lo
  have hposQ : 0 < h := by exact_mod_cast hpos
  have h0 : |(x : ℝ) - x| ≤ 2 * (x / 10 ^ 6) := by rw [sub_self, abs_zero]; positivity
  have hL0 : 0 ≤ L := (abs_nonneg _).trans (hL x h0)
  have hM0 : 0 ≤ M := (abs_nonneg _).trans (hM x h0)
  have hη0 : 0 ≤ η := (abs_nonneg _).trans (hη x h0)
  have inside : ∀ t : ℝ, t ∈ Set.Icc ((x : ℝ) - h) (x + h) → |t - x| ≤ 2 * (x / 10 ^ 6) := by
    intro t ht
    rw [abs_le]
    constructor <;> linarith [ht.1, ht.2]
  have hsum : unit * (|(x : ℝ)| + h) + tiny ≤ 1112 / 10 ^ 19 * (1 + 11 / 10 ^ 7) * x := by
    rw [abs_of_pos xpos]
    have h1 : (x : ℝ) + h ≤ (1 + 1000001 / 10 ^ 12) * x := by linarith
    have := mul_le_mul hu h1 (by positivity) (by norm_num)
    linarith
  have points : ∀ d : ℚ, |(d : ℝ)| ≤ h →
      |((fl (x + d) : ℚ) : ℝ) - x| ≤ 2 * (x / 10 ^ 6) ∧
        |F (fl (x + d) : ℚ) - F (x + d)| ≤ L * |((fl (x + d) : ℚ) : ℝ) - (x + d)| := by
    intro d hd
    have e := fl_error (x + d)
    push_cast at e
    have h3 : |(x : ℝ) + d| ≤ |(x : ℝ)| + h := (abs_add_le _ _).trans (by linarith)
    have h4 := mul_le_mul_of_nonneg_left h3 hu0.le
    have e' : |((fl (x + d) : ℚ) : ℝ) - (x + d)| ≤ 1112 / 10 ^ 19 * (1 + 11 / 10 ^ 7) * x := by linarith
    have near : |((fl (x + d) : ℚ) : ℝ) - x| ≤ 2 * (x / 10 ^ 6) := by
      rw [abs_le] at e' hd ⊢
      constructor <;> linarith [e'.1, e'.2, hd.1, hd.2]
    refine ⟨near, ?_⟩
    have near' : |((x : ℝ) + d) - x| ≤ 2 * (x / 10 ^ 6) := by
      rw [abs_le] at hd ⊢
      constructor <;> linarith [hd.1, hd.2]
    have := (convex_Icc ((x : ℝ) - 2 * ((x : ℝ) / 10 ^ 6)) ((x : ℝ) + 2 * ((x : ℝ) / 10 ^ 6))).norm_image_sub_le_of_norm_hasDerivWithin_le
      (f := F) (f' := F1) (C := L) (x := (x : ℝ) + d) (y := ((fl (x + d) : ℚ) : ℝ))
      (fun t ht => (d1 t (by rw [abs_le]; constructor <;> linarith [ht.1, ht.2])).hasDerivWithinAt)
      (fun t ht => by rw [Real.norm_eq_abs]; exact hL t (by rw [abs_le]; constructor <;> linarith [ht.1, ht.2]))
      (by rw [abs_le] at near'; constructor <;> linarith [near'.1, near'.2])
      (by rw [abs_le] at near; constructor <;> linarith [near.1, near.2])
    simpa [Real.norm_eq_abs] using this
  obtain ⟨n1, l1⟩ := points h (by rw [abs_of_pos hpos])
  obtain ⟨n2, l2⟩ := points (-h) (by push_cast; rw [abs_neg, abs_of_pos hpos])
  have hm : x + -h = x - h := by ring
  rw [hm] at n2 l2
  push_cast at l2
  have hm' : (x : ℝ) + -h = x - h := by ring
  rw [hm'] at l2
  have hτ := c146_truncation F F1 F2 F3 M x h hpos.le (fun t ht => d1 t (inside t ht)) (fun t ht => d2 t (inside t ht))
    (fun t ht => d3 t (inside t ht)) (fun t ht => hM t (inside t ht))
  have key := c146_rounding F (F1 x) L η _ f x h hfl hposQ l1 l2 hL0 (hη _ n1) (hη _ n2) hτ
  refine key.trans ?_
  exact derivative_numbers x h L M η (F1 x) hxR hpos lo hi hL0 hM0 hη0 (hL x h0) hsum

/-- The roundings of the last line of `pressure`. -/
private theorem pressure_numbers (x T R L M η D Dc a b c p : ℝ) (hx : 1 / 10 ^ 9 ≤ x) (hx' : x ≤ 10 ^ 9)
    (hT : 0 < T) (hT' : T ≤ 10 ^ 4) (hR : 0 < R) (hR' : R ≤ 10) (hM : 0 ≤ M) (hη : 0 ≤ η) (hL : |D| ≤ L)
    (key : |Dc - D| ≤ 17 / 10 ^ 14 * M * x ^ 2 + 1000001 * η / x + 12 / 10 ^ 11 * L + 1 / 10 ^ 50)
    (e1 : |a - Dc * T| ≤ unit * |Dc * T| + tiny) (e2 : |b - a * R| ≤ unit * |a * R| + tiny)
    (e3 : |c - x * x| ≤ unit * |x * x| + tiny) (e4 : |p - b * c| ≤ unit * |b * c| + tiny) :
    |p - T * R * x ^ 2 * D| ≤
      T * R * x ^ 2 * (171 / 10 ^ 15 * M * x ^ 2 + 1000002 * η / x + 13 / 10 ^ 11 * L) + 1 / 10 ^ 20 := by
  have hu := unit_le
  have hu0 := unit_pos
  have ht := tiny_le
  have ht0 := tiny_pos
  have xpos : 0 < x := lt_of_lt_of_le (by positivity) hx
  have hL0 : 0 ≤ L := (abs_nonneg _).trans hL
  have hηx : 0 ≤ η / x := by positivity
  have hMx : 0 ≤ M * x ^ 2 := by positivity
  set S : ℝ := T * R * x ^ 2 with hS
  have hSpos : 0 < S := by positivity
  have hRx : R * x ^ 2 ≤ 10 * (10 ^ 9) ^ 2 := mul_le_mul hR' (pow_le_pow_left₀ xpos.le hx' 2) (by positivity) (by norm_num)
  have hRx0 : 0 < R * x ^ 2 := by positivity
  have hx2 : x ^ 2 ≤ (10 ^ 9) ^ 2 := pow_le_pow_left₀ xpos.le hx' 2
  have hx2' : (1 / 10 ^ 9 : ℝ) ^ 2 ≤ x ^ 2 := pow_le_pow_left₀ (by positivity) hx 2
  have hSle : S ≤ 10 ^ 23 := by
    have : T * (R * x ^ 2) ≤ 10 ^ 4 * (10 * (10 ^ 9) ^ 2) := mul_le_mul hT' hRx hRx0.le (by norm_num)
    rw [hS, mul_assoc]
    refine this.trans (by norm_num)
  -- the square of the density
  have e3' : |c - x ^ 2| ≤ 1113 / 10 ^ 19 * x ^ 2 := by
    rw [← pow_two, abs_of_pos (show 0 < x ^ 2 by positivity)] at e3
    have := mul_le_mul_of_nonneg_right hu (show 0 ≤ x ^ 2 by positivity)
    nlinarith
  -- the first two products
  have ha : |b - Dc * T * R| ≤ 2225 / 10 ^ 19 * (|Dc| * T * R) + 1 / 10 ^ 68 := by
    have q1 : |a * R - Dc * T * R| ≤ (unit * (|Dc| * T) + tiny) * R := by
      rw [← sub_mul, abs_mul, abs_of_pos hR]
      rw [abs_mul, abs_of_pos hT] at e1
      exact mul_le_mul_of_nonneg_right e1 hR.le
    have q2 : |a * R| ≤ |Dc| * T * R + (unit * (|Dc| * T) + tiny) * R := by
      have := abs_add_le (a * R - Dc * T * R) (Dc * T * R)
      rw [sub_add_cancel, abs_mul (Dc * T), abs_mul Dc, abs_of_pos hT, abs_of_pos hR] at this
      linarith
    have q3 := abs_add_le (b - a * R) (a * R - Dc * T * R)
    rw [sub_add_sub_cancel] at q3
    have q4 := mul_le_mul_of_nonneg_left q2 hu0.le
    have hW : 0 ≤ |Dc| * T * R := by positivity
    set W := |Dc| * T * R with hWd
    have r1 : (unit * (|Dc| * T) + tiny) * R = unit * W + tiny * R := by rw [hWd]; ring
    rw [r1] at q1 q2 q4
    have r2 : tiny * R ≤ 1 / 10 ^ 70 * 10 := mul_le_mul ht hR' hR.le (by positivity)
    have r3 : unit * (tiny * R) ≤ 1 * (1 / 10 ^ 70 * 10) := mul_le_mul (by linarith) r2 (mul_pos ht0 hR).le zero_le_one
    have r4 : unit * W ≤ 1112 / 10 ^ 19 * W := mul_le_mul_of_nonneg_right hu hW
    have r5 : unit * (unit * W) ≤ 1112 / 10 ^ 19 * (1112 / 10 ^ 19 * W) := mul_le_mul hu r4 (mul_nonneg hu0.le hW) (by norm_num)
    have r6 : unit * (W + (unit * W + tiny * R)) = unit * W + unit * (unit * W) + unit * (tiny * R) := by ring
    rw [r6] at q4
    linarith
  have hb : |b * c - Dc * T * R * x ^ 2| ≤ 3339 / 10 ^ 19 * (|Dc| * S) + 1 / 10 ^ 48 := by
    have s1 : b * c - Dc * T * R * x ^ 2 = (b - Dc * T * R) * x ^ 2 + b * (c - x ^ 2) := by ring
    have s2 := abs_add_le ((b - Dc * T * R) * x ^ 2) (b * (c - x ^ 2))
    rw [abs_mul (b - _), abs_mul b, abs_of_pos (show 0 < x ^ 2 by positivity)] at s2
    have s3 := mul_le_mul_of_nonneg_right ha (show 0 ≤ x ^ 2 by positivity)
    have s4 : |b| ≤ (1 + 2225 / 10 ^ 19) * (|Dc| * T * R) + 1 / 10 ^ 68 := by
      have := abs_add_le (b - Dc * T * R) (Dc * T * R)
      rw [sub_add_cancel, abs_mul (Dc * T), abs_mul Dc, abs_of_pos hT, abs_of_pos hR] at this
      linarith
    have s5 := mul_le_mul s4 e3' (abs_nonneg _) (by positivity)
    have s6 : |Dc| * S = |Dc| * T * R * x ^ 2 := by rw [hS]; ring
    have hV : 0 ≤ |Dc| * T * R * x ^ 2 := by positivity
    rw [s1, s6]
    nlinarith
  have hp : |p - Dc * S| ≤ 4452 / 10 ^ 19 * (|Dc| * S) + 1 / 10 ^ 47 := by
    have s0 : Dc * T * R * x ^ 2 = Dc * S := by rw [hS]; ring
    rw [s0] at hb
    have s1 := abs_add_le (p - b * c) (b * c - Dc * S)
    rw [sub_add_sub_cancel] at s1
    have s2 := abs_add_le (b * c - Dc * S) (Dc * S)
    rw [sub_add_cancel, abs_mul Dc, abs_of_pos hSpos] at s2
    have hV : 0 ≤ |Dc| * S := by positivity
    have s3 := mul_le_mul hu (s2.trans (add_le_add_left hb _)) (abs_nonneg _) (by norm_num)
    linarith
  have hDc : |Dc| ≤ L + (17 / 10 ^ 14 * M * x ^ 2 + 1000001 * η / x + 12 / 10 ^ 11 * L + 1 / 10 ^ 50) := by
    have := abs_add_le (Dc - D) D
    rw [sub_add_cancel] at this
    linarith
  have fin := abs_add_le (p - Dc * S) (Dc * S - D * S)
  rw [sub_add_sub_cancel, ← sub_mul, abs_mul (Dc - D), abs_of_pos hSpos] at fin
  have f1 := mul_le_mul_of_nonneg_right key hSpos.le
  have f2 := mul_le_mul_of_nonneg_right hDc hSpos.le
  rw [mul_comm S D]
  rw [mul_div_assoc 1000001 η x, mul_assoc (17 / 10 ^ 14 : ℝ)] at f1 f2
  rw [mul_div_assoc 1000002 η x, mul_assoc (171 / 10 ^ 15 : ℝ)]
  set A := M * x ^ 2
  set B := η / x
  have g1 : 0 ≤ A * S := by positivity
  have g2 : 0 ≤ B * S := by positivity
  have g3 : 0 ≤ L * S := by positivity
  have x1 : (17 / 10 ^ 14 * A + 1000001 * B + 12 / 10 ^ 11 * L + 1 / 10 ^ 50) * S =
      17 / 10 ^ 14 * (A * S) + 1000001 * (B * S) + 12 / 10 ^ 11 * (L * S) + 1 / 10 ^ 50 * S := by ring
  have x2 : (L + (17 / 10 ^ 14 * A + 1000001 * B + 12 / 10 ^ 11 * L + 1 / 10 ^ 50)) * S =
      L * S + (17 / 10 ^ 14 * (A * S) + 1000001 * (B * S) + 12 / 10 ^ 11 * (L * S) + 1 / 10 ^ 50 * S) := by ring
  have x3 : S * (171 / 10 ^ 15 * A + 1000002 * B + 13 / 10 ^ 11 * L) =
      171 / 10 ^ 15 * (A * S) + 1000002 * (B * S) + 13 / 10 ^ 11 * (L * S) := by ring
  rw [x1] at f1
  rw [x2] at f2
  rw [x3]
  linarith

/-- **C146, the pressure.**  The same bounds for the pressure: it is off by the error of the derivative times `T R rho ^ 2`, and
by five more roundings. -/
theorem c146_pressure (F F1 F2 F3 : ℝ → ℝ) (L M η : ℝ) (f : ℚ → ℚ) (T R x : ℚ) (hx : 1 / 10 ^ 9 ≤ x)
    (hx' : x ≤ 10 ^ 9) (hT : 0 < T) (hT' : T ≤ 10 ^ 4) (hR : 0 < R) (hR' : R ≤ 10)
    (d1 : ∀ t : ℝ, |t - x| ≤ 2 * (x / 10 ^ 6) → HasDerivAt F (F1 t) t)
    (d2 : ∀ t : ℝ, |t - x| ≤ 2 * (x / 10 ^ 6) → HasDerivAt F1 (F2 t) t)
    (d3 : ∀ t : ℝ, |t - x| ≤ 2 * (x / 10 ^ 6) → HasDerivAt F2 (F3 t) t)
    (hL : ∀ t : ℝ, |t - x| ≤ 2 * (x / 10 ^ 6) → |F1 t| ≤ L)
    (hM : ∀ t : ℝ, |t - x| ≤ 2 * (x / 10 ^ 6) → |F3 t| ≤ M)
    (hη : ∀ q : ℚ, |(q : ℝ) - x| ≤ 2 * (x / 10 ^ 6) → |((f q : ℚ) : ℝ) - F q| ≤ η) :
    |((CentralDiff64.pressure f T R x : ℚ) : ℝ) - T * R * x ^ 2 * F1 x| ≤
      T * R * x ^ 2 * (171 / 10 ^ 15 * M * x ^ 2 + 1000002 * η / x + 13 / 10 ^ 11 * L) + 1 / 10 ^ 20 := by
  have key := c146_derivative F F1 F2 F3 L M η f x hx d1 d2 d3 hL hM hη
  have hxR : (1 / 10 ^ 9 : ℝ) ≤ x := by
    have := (Rat.cast_le (K := ℝ)).2 hx
    push_cast at this
    exact this
  have hxR' : (x : ℝ) ≤ 10 ^ 9 := by
    have := (Rat.cast_le (K := ℝ)).2 hx'
    push_cast at this
    exact this
  have h0 : |(x : ℝ) - x| ≤ 2 * (x / 10 ^ 6) := by
    have : (0 : ℝ) < x := lt_of_lt_of_le (by positivity) hxR
    rw [sub_self, abs_zero]; positivity
  set D : ℚ := quotient f x (relativeStep (fl (1 / 10 ^ 6)) x) with hD
  have hp : CentralDiff64.pressure f T R x = fl (fl (fl (D * T) * R) * fl (x * x)) := rfl
  have e1 := fl_error (D * T)
  have e2 := fl_error (fl (D * T) * R)
  have e3 := fl_error (x * x)
  have e4 := fl_error (fl (fl (D * T) * R) * fl (x * x))
  rw [hp]
  push_cast at e1 e2 e3 e4
  exact pressure_numbers x T R L M η (F1 x) D _ _ _ _ hxR hxR' (by exact_mod_cast hT) (by exact_mod_cast hT')
    (by exact_mod_cast hR) (by exact_mod_cast hR') ((abs_nonneg _).trans (hM x h0)) ((abs_nonneg _).trans (hη x h0)) (hL x h0)
    key e1 e2 e3 e4

/-- **C146, the ideal gas.**  The ideal part of the Helmholtz energy is the logarithm of the density, up to terms without the
density: with values off by up to `η`, the derivative has a relative error of at most 1.3e-10 and a million times `η`. -/
theorem c146_ideal (c η : ℝ) (f : ℚ → ℚ) (x : ℚ) (hx : 1 / 10 ^ 9 ≤ x) (hx' : x ≤ 10 ^ 9)
    (hη : ∀ q : ℚ, |(q : ℝ) - x| ≤ 2 * (x / 10 ^ 6) → |((f q : ℚ) : ℝ) - (Real.log q + c)| ≤ η) :
    |((quotient f x (relativeStep (fl (1 / 10 ^ 6)) x) : ℚ) : ℝ) - 1 / x| ≤ (13 / 10 ^ 11 + 1000001 * η) / x := by
  have hxR : (1 / 10 ^ 9 : ℝ) ≤ x := by
    have := (Rat.cast_le (K := ℝ)).2 hx
    push_cast at this
    exact this
  have hxR' : (x : ℝ) ≤ 10 ^ 9 := by
    have := (Rat.cast_le (K := ℝ)).2 hx'
    push_cast at this
    exact this
  have xpos : (0 : ℝ) < x := lt_of_lt_of_le (by positivity) hxR
  have pos : ∀ t : ℝ, |t - x| ≤ 2 * (x / 10 ^ 6) → (1 - 2 / 10 ^ 6) * (x : ℝ) ≤ t := by
    intro t ht
    rw [abs_le] at ht
    linarith [ht.1]
  have pos' : ∀ t : ℝ, |t - x| ≤ 2 * (x / 10 ^ 6) → 0 < t := fun t ht =>
    lt_of_lt_of_le (by positivity) (pos t ht)
  have key := c146_derivative (fun t => Real.log t + c) (fun t => t⁻¹) (fun t => -(t ^ 2)⁻¹) (fun t => 2 * (t ^ 3)⁻¹)
    (101 / 100 * (1 / x)) (3 * (1 / x ^ 3)) η f x hx
    (fun t ht => (Real.hasDerivAt_log (pos' t ht).ne').add_const c)
    (fun t ht => hasDerivAt_inv (pos' t ht).ne')
    (fun t ht => by
      have h := ((hasDerivAt_pow 2 t).inv (pow_ne_zero 2 (pos' t ht).ne')).neg
      refine h.congr_deriv ?_
      have := (pos' t ht).ne'
      field_simp
      norm_num
      ring)
    (fun t ht => by
      rw [abs_of_pos (inv_pos.2 (pos' t ht)), inv_eq_one_div, ← mul_div_assoc, div_le_div_iff₀ (pos' t ht) xpos]
      linarith [pos t ht])
    (fun t ht => by
      have ht0 := pos' t ht
      rw [abs_of_pos (by positivity), inv_eq_one_div, ← mul_div_assoc, ← mul_div_assoc,
        div_le_div_iff₀ (by positivity) (by positivity)]
      have := pow_le_pow_left₀ (by positivity) (pos t ht) 3
      have hx3 : (0 : ℝ) < (x : ℝ) ^ 3 := by positivity
      nlinarith)
    hη
  rw [inv_eq_one_div] at key
  refine key.trans ?_
  have e1 : 17 / 10 ^ 14 * (3 * (1 / (x : ℝ) ^ 3)) * x ^ 2 = 51 / 10 ^ 14 * (1 / x) := by field_simp; norm_num
  have e2 : (13 / 10 ^ 11 + 1000001 * η) / (x : ℝ) = 13 / 10 ^ 11 * (1 / x) + 1000001 * η / x := by ring
  have e3 : (1 / 10 ^ 9 : ℝ) ≤ 1 / x := one_div_le_one_div_of_le xpos hxR'
  rw [e1, e2]
  linarith

/-- **C146 fails for the consistency test of the fugacity coefficients**, which takes the same step of 1e-5 Pa at every pressure:
at 100 bar the pressures 1e7 + 1e-5 and 1e7 - 1e-5 are rounded so much that the derivative of the pressure with respect to
itself is off by more than 5e-5, and from 2 ^ 38 Pa on both are the pressure itself and every derivative is zero. -/
theorem c146_violated_absolute :
    5 / 10 ^ 5 < pressureDerivative id (10 ^ 7) - 1 ∧ pressureDerivative id (2 ^ 38) = 0 := by
  decide +kernel

/-- The same is seen with a gas that obeys `ln phi = B P`: the difference quotient at 200 bar misses `B` by one part in ten
thousand, though the values are rounded correctly and the function is a straight line. -/
theorem c146_violated_line :
    let B := fl (-(1 / 10 ^ 8))
    1 / 10 ^ 4 * -B < pressureDerivative (fun P => fl (B * P)) (2 * 10 ^ 7) - B := by
  decide +kernel

/-- **C146, fugacity coefficients.**  The derivative with respect to the logarithm of a partial density, with the step 1e-5:
logarithms up to 32 in size (densities from 1.3e-14 to 7.8e13) cost at most 1.7e-11 `M`, 1.00001e5 `η` and 3.6e-10 `L`. -/
theorem c146_logarithmic (F F1 F2 F3 : ℝ → ℝ) (L M η : ℝ) (f : ℚ → ℚ) (y : ℚ) (hy : |y| ≤ 32)
    (d1 : ∀ t : ℝ, |t - y| ≤ 2 / 10 ^ 5 → HasDerivAt F (F1 t) t)
    (d2 : ∀ t : ℝ, |t - y| ≤ 2 / 10 ^ 5 → HasDerivAt F1 (F2 t) t)
    (d3 : ∀ t : ℝ, |t - y| ≤ 2 / 10 ^ 5 → HasDerivAt F2 (F3 t) t)
    (hL : ∀ t : ℝ, |t - y| ≤ 2 / 10 ^ 5 → |F1 t| ≤ L)
    (hM : ∀ t : ℝ, |t - y| ≤ 2 / 10 ^ 5 → |F3 t| ≤ M)
    (hη : ∀ q : ℚ, |(q : ℝ) - y| ≤ 2 / 10 ^ 5 → |((f q : ℚ) : ℝ) - F q| ≤ η) :
    |((quotient f y (fl (1 / 10 ^ 5)) : ℚ) : ℝ) - F1 y| ≤
      17 / 10 ^ 12 * M + 100001 * η + 36 / 10 ^ 11 * L + 1 / 10 ^ 50 := by
  have hu := unit_le
  have hu0 := unit_pos
  have ht := tiny_le
  have ht0 := tiny_pos
  have hyR : |(y : ℝ)| ≤ 32 := by
    have := (Rat.cast_le (K := ℝ)).2 hy
    push_cast at this
    exact this
  have e1 := fl_error (1 / 10 ^ 5)
  set h : ℚ := fl (1 / 10 ^ 5) with hh
  push_cast at e1
  rw [abs_of_pos (show (0 : ℝ) < 1 / 10 ^ 5 by positivity)] at e1
  have e1' : |(h : ℝ) - 1 / 10 ^ 5| ≤ 1 / 10 ^ 20 := e1.trans (by linarith)
  have hfl : fl h = h := by rw [hh, fl_idem]
  rw [abs_le] at e1'
  have lo : (1 - 1 / 10 ^ 12) * (1 / 10 ^ 5) ≤ (h : ℝ) := by linarith [e1'.1]
  have hi : (h : ℝ) ≤ (1 + 1 / 10 ^ 12) * (1 / 10 ^ 5) := by linarith [e1'.2]
  have hpos : (0 : ℝ) < h := lt_of_lt_of_le (by norm_num) lo
  have hposQ : 0 < h := by exact_mod_cast hpos
  have h0 : |(y : ℝ) - y| ≤ 2 / 10 ^ 5 := by rw [sub_self, abs_zero]; positivity
  have hL0 : 0 ≤ L := (abs_nonneg _).trans (hL y h0)
  have hM0 : 0 ≤ M := (abs_nonneg _).trans (hM y h0)
  have hη0 : 0 ≤ η := (abs_nonneg _).trans (hη y h0)
  have inside : ∀ t : ℝ, t ∈ Set.Icc ((y : ℝ) - h) (y + h) → |t - y| ≤ 2 / 10 ^ 5 := by
    intro t ht
    rw [abs_le]
    constructor <;> linarith [ht.1, ht.2]
  have hsum : unit * (|(y : ℝ)| + h) + tiny ≤ 1112 / 10 ^ 19 * (321 / 10) := by
    have h1 : |(y : ℝ)| + h ≤ 32 + 1 / 10 ^ 4 := by linarith
    have := mul_le_mul hu h1 (by positivity) (by norm_num)
    linarith
  have points : ∀ d : ℚ, |(d : ℝ)| ≤ h →
      |((fl (y + d) : ℚ) : ℝ) - y| ≤ 2 / 10 ^ 5 ∧
        |F (fl (y + d) : ℚ) - F (y + d)| ≤ L * |((fl (y + d) : ℚ) : ℝ) - (y + d)| := by
    intro d hd
    have e := fl_error (y + d)
    push_cast at e
    have h3 : |(y : ℝ) + d| ≤ |(y : ℝ)| + h := (abs_add_le _ _).trans (by linarith)
    have h4 := mul_le_mul_of_nonneg_left h3 hu0.le
    have e' : |((fl (y + d) : ℚ) : ℝ) - (y + d)| ≤ 1112 / 10 ^ 19 * (321 / 10) := by linarith
    have near : |((fl (y + d) : ℚ) : ℝ) - y| ≤ 2 / 10 ^ 5 := by
      rw [abs_le] at e' hd ⊢
      constructor <;> linarith [e'.1, e'.2, hd.1, hd.2]
    refine ⟨near, ?_⟩
    have near' : |((y : ℝ) + d) - y| ≤ 2 / 10 ^ 5 := by
      rw [abs_le] at hd ⊢
      constructor <;> linarith [hd.1, hd.2]
    have := (convex_Icc ((y : ℝ) - 2 / 10 ^ 5) ((y : ℝ) + 2 / 10 ^ 5)).norm_image_sub_le_of_norm_hasDerivWithin_le
      (f := F) (f' := F1) (C := L) (x := (y : ℝ) + d) (y := ((fl (y + d) : ℚ) : ℝ))
      (fun t ht => (d1 t (by rw [abs_le]; constructor <;> linarith [ht.1, ht.2])).hasDerivWithinAt)
      (fun t ht => by rw [Real.norm_eq_abs]; exact hL t (by rw [abs_le]; constructor <;> linarith [ht.1, ht.2]))
      (by rw [abs_le] at near'; constructor <;> linarith [near'.1, near'.2])
      (by rw [abs_le] at near; constructor <;> linarith [near.1, near.2])
    simpa [Real.norm_eq_abs] using this
  obtain ⟨n1, l1⟩ := points h (by rw [abs_of_pos hpos])
  obtain ⟨n2, l2⟩ := points (-h) (by push_cast; rw [abs_neg, abs_of_pos hpos])
  have hm : y + -h = y - h := by ring
  rw [hm] at n2 l2
  push_cast at l2
  have hm' : (y : ℝ) + -h = y - h := by ring
  rw [hm'] at l2
  have hτ := c146_truncation F F1 F2 F3 M y h hpos.le (fun t ht => d1 t (inside t ht)) (fun t ht => d2 t (inside t ht))
    (fun t ht => d3 t (inside t ht)) (fun t ht => hM t (inside t ht))
  have key := c146_rounding F (F1 y) L η _ f y h hfl hposQ l1 l2 hL0 (hη _ n1) (hη _ n2) hτ
  refine key.trans ?_
  exact logarithmic_numbers y h L M η (F1 y) hpos lo hi hL0 hM0 hη0 (hL y h0) hsum

/-- The hypotheses are met: a Helmholtz energy that is the density itself, and the ideal gas with a logarithm correct to
1e-15. -/
example : ∃ f : ℚ → ℚ, ∀ q : ℚ, |((f q : ℚ) : ℝ) - (Real.log q + 0)| ≤ 1 / 10 ^ 15 := by
  have : ∀ q : ℚ, ∃ r : ℚ, |(r : ℝ) - (Real.log q + 0)| ≤ 1 / 10 ^ 15 := by
    intro q
    obtain ⟨r, h1, h2⟩ := exists_rat_btwn (show Real.log q + 0 < Real.log q + 0 + 1 / 10 ^ 15 by norm_num)
    exact ⟨r, by rw [abs_le]; constructor <;> linarith⟩
  choose f hf using this
  exact ⟨f, hf⟩

example : |((CentralDiff64.pressure id 300 (fl (8314 / 1000)) 1000 : ℚ) : ℝ) - 300 * ((fl (8314 / 1000) : ℚ) : ℝ) * 1000 ^ 2 * 1| ≤
    (300 * ((fl (8314 / 1000) : ℚ) : ℝ) * 1000 ^ 2 * (171 / 10 ^ 15 * 0 * 1000 ^ 2 + 1000002 * 0 / 1000 + 13 / 10 ^ 11 * 1)
      + 1 / 10 ^ 20 : ℝ) := by
  have := c146_pressure id (fun _ => 1) (fun _ => 0) (fun _ => 0) 1 0 0 id 300 (fl (8314 / 1000)) 1000 (by norm_num) (by norm_num)
    (by norm_num) (by norm_num) (by decide +kernel) (by decide +kernel) (fun t _ => hasDerivAt_id t)
    (fun t _ => hasDerivAt_const t 1) (fun t _ => hasDerivAt_const t 0) (fun _ _ => by simp) (fun _ _ => by simp)
    (fun q _ => by simp)
  push_cast at this
  exact this

end Verif.Props
