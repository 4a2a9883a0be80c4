import Verif.Model.AssocXika
import Mathlib.Analysis.SpecialFunctions.Log.Deriv
import Mathlib.Analysis.Calculus.Deriv.MeanValue
import Mathlib.Tactic.Linarith
import Mathlib.Tactic.Ring
import Mathlib.Tactic.FieldSimp
import Mathlib.Tactic.Positivity
import Mathlib.Tactic.LinearCombination

/-!
# C64: the bonding volume
-/

namespace Verif.Props
open Verif.Assoc

/-- The bonding volume in reduced form: `p = rd / L`, `x = d / L` with `L = rc + 2 rd`. -/
noncomputable def redVol (p x : ℝ) : ℝ :=
  -(6 * (1 - 3 * p)) * Real.log x + (1 - x) * (27 * p - 9 * p * x - 8 + x + x ^ 2)

theorem bondVol_red {rc rd d : ℝ} (hL : 0 < rc + 2 * rd) (hd : 0 < d) :
    bondVol rc rd d = Real.pi * d ^ 2 / (18 * rd ^ 2) *
      ((rc + 2 * rd) ^ 3 * redVol (rd / (rc + 2 * rd)) (d / (rc + 2 * rd))) := by
  unfold bondVol redVol
  rw [Real.log_div hL.ne' hd.ne', Real.log_div hd.ne' hL.ne']
  congr 1
  obtain ⟨L, hL'⟩ : ∃ L, L = rc + 2 * rd := ⟨_, rfl⟩
  rw [← hL'] at hL ⊢
  have hrc : rc = L - 2 * rd := by linarith
  rw [hrc]
  field_simp
  ring

theorem redVol_hasDeriv (p : ℝ) {x : ℝ} (hx : 0 < x) :
    HasDerivAt (redVol p) (3 * (1 - x) ^ 2 * (6 * p - x - 2) / x) x := by
  have h1 := (Real.hasDerivAt_log hx.ne').const_mul (-(6 * (1 - 3 * p)))
  have h2 := ((hasDerivAt_const x (1 : ℝ)).sub (hasDerivAt_id x)).mul
    ((((hasDerivAt_const x (27 * p)).sub ((hasDerivAt_id x).const_mul (9 * p))).sub_const 8).add
      (hasDerivAt_id x) |>.add ((hasDerivAt_id x).pow 2))
  have h3 := h1.add h2
  have : HasDerivAt (redVol p) _ x := h3
  refine this.congr_deriv ?_
  simp only [Pi.sub_apply, Pi.add_apply, Pi.pow_apply, id_eq]
  field_simp
  ring

theorem redVol_one (p : ℝ) : redVol p 1 = 0 := by simp [redVol]

theorem redVol_pos {p x : ℝ} (hx : 0 < x) (hx1 : x < 1) (hp : 6 * p < x + 2) : 0 < redVol p x := by
  have h : StrictAntiOn (redVol p) (Set.Icc x 1) := by
    refine strictAntiOn_of_deriv_neg (convex_Icc x 1) ?_ ?_
    · intro y hy
      exact (redVol_hasDeriv p (lt_of_lt_of_le hx hy.1)).continuousAt.continuousWithinAt
    · intro y hy
      rw [interior_Icc] at hy
      have hy0 : 0 < y := hx.trans hy.1
      rw [(redVol_hasDeriv p hy0).deriv]
      apply div_neg_of_neg_of_pos _ hy0
      exact mul_neg_of_pos_of_neg (mul_pos (by norm_num) (pow_pos (by linarith [hy.2]) 2))
        (by linarith [hy.1])
  have := h (Set.left_mem_Icc.2 hx1.le) (Set.right_mem_Icc.2 hx1.le) hx1
  rwa [redVol_one] at this

theorem redVol_neg {p x : ℝ} (hx1 : 1 < x) (hp : 2 * p < 1) : redVol p x < 0 := by
  have h : StrictAntiOn (redVol p) (Set.Icc 1 x) := by
    refine strictAntiOn_of_deriv_neg (convex_Icc 1 x) ?_ ?_
    · intro y hy
      exact (redVol_hasDeriv p (lt_of_lt_of_le one_pos hy.1)).continuousAt.continuousWithinAt
    · intro y hy
      rw [interior_Icc] at hy
      have hy0 : 0 < y := one_pos.trans hy.1
      rw [(redVol_hasDeriv p hy0).deriv]
      apply div_neg_of_neg_of_pos _ hy0
      refine mul_neg_of_pos_of_neg (mul_pos (by norm_num) ?_) (by linarith [hy.1])
      have : 0 < y - 1 := by linarith [hy.1]
      nlinarith
  have := h (Set.left_mem_Icc.2 hx1.le) (Set.right_mem_Icc.2 hx1.le) hx1
  rwa [redVol_one] at this

/-- **C64** (positive): the bonding volume is positive whenever the sites can reach each other,
`d < rc + 2 rd`, and are not placed too far outside the segment. -/
theorem c64_pos {rc rd d : ℝ} (hrc : 0 < rc) (hrd : 0 < rd) (hd : 0 < d) (hreach : d < rc + 2 * rd)
    (hin : 2 * rd < 2 * rc + d) : 0 < bondVol rc rd d := by
  have hL : 0 < rc + 2 * rd := by linarith
  rw [bondVol_red hL hd]
  refine mul_pos (by positivity) (mul_pos (by positivity) (redVol_pos (by positivity) ?_ ?_))
  · rwa [div_lt_one hL]
  · rw [← mul_div_assoc, div_lt_iff₀ hL, add_mul, div_mul_cancel₀ _ hL.ne']; linarith

/-- **C64** (limit of reach): the volume vanishes when the sites just touch. -/
theorem c64_contact {rc rd : ℝ} (hL : 0 < rc + 2 * rd) : bondVol rc rd (rc + 2 * rd) = 0 := by
  rw [bondVol_red hL hL, div_self hL.ne', redVol_one]; simp

/-- **C64** is violated beyond the reach of the sites: the volume is then negative instead of zero. -/
theorem c64_violated_out_of_reach {rc rd d : ℝ} (hrc : 0 < rc) (hrd : 0 < rd)
    (hfar : rc + 2 * rd < d) : bondVol rc rd d < 0 := by
  have hL : 0 < rc + 2 * rd := by linarith
  have hd : 0 < d := hL.trans hfar
  rw [bondVol_red hL hd]
  refine mul_neg_of_pos_of_neg (by positivity) (mul_neg_of_pos_of_neg (by positivity) (redVol_neg ?_ ?_))
  · rwa [one_lt_div hL]
  · rw [← mul_div_assoc, div_lt_one hL]; linarith

/-- **C64** (default site position, a quarter of the diameter): the sign of the volume is the sign of
`2 rc - d`. -/
theorem c64_default {rc d : ℝ} (hrc : 0 < rc) (hd : 0 < d) (rd : Option ℝ)
    (hrd : rd = none ∨ rd = some 0) :
    (0 < bondVolEntry (1 / 4) d rc rd ↔ d < 2 * rc) ∧ (bondVolEntry (1 / 4) d rc rd < 0 ↔ 2 * rc < d) := by
  have e : bondVolEntry (1 / 4) d rc rd = bondVol rc (1 / 4 * d) d := by
    unfold bondVolEntry
    rw [if_pos hrc.ne']
    rcases hrd with rfl | rfl <;> simp [siteDist]
  rw [e]
  rcases lt_trichotomy d (2 * rc) with h | h | h
  · have := c64_pos (rd := 1 / 4 * d) hrc (by linarith) hd (by linarith) (by linarith)
    exact ⟨⟨fun _ => h, fun _ => this⟩, ⟨fun g => by linarith, fun g => by linarith⟩⟩
  · have := c64_contact (rc := rc) (rd := 1 / 4 * d) (by linarith)
    rw [show rc + 2 * (1 / 4 * d) = d by linarith] at this
    rw [this]
    exact ⟨⟨fun g => by linarith, fun g => by linarith⟩, ⟨fun g => by linarith, fun g => by linarith⟩⟩
  · have := c64_violated_out_of_reach (rd := 1 / 4 * d) hrc (by linarith) (by linarith : rc + 2 * (1 / 4 * d) < d)
    exact ⟨⟨fun g => by linarith, fun g => by linarith⟩, ⟨fun _ => h, fun _ => this⟩⟩

/-- **C64** (no cutoff distance, no volume). -/
theorem c64_no_cutoff (ratio d : ℝ) (rd : Option ℝ) : bondVolEntry ratio d 0 rd = 0 := by
  simp [bondVolEntry]

/-- **C64** (units): measuring all lengths in other units scales the volume by the cube. -/
theorem c64_scale {s rc rd d : ℝ} (hs : 0 < s) (hL : 0 < rc + 2 * rd) (hd : 0 < d) (hrd : rd ≠ 0) :
    bondVol (s * rc) (s * rd) (s * d) = s ^ 3 * bondVol rc rd d := by
  have hL' : 0 < s * rc + 2 * (s * rd) := by nlinarith
  rw [bondVol_red hL hd, bondVol_red hL' (mul_pos hs hd)]
  have e : s * rc + 2 * (s * rd) = s * (rc + 2 * rd) := by ring
  rw [e, mul_div_mul_left _ _ hs.ne', mul_div_mul_left _ _ hs.ne']
  field_simp

/-- The hypotheses are met by typical distances (in nanometres), on both sides. -/
example : (0 : ℝ) < bondVol 0.21 0.075 0.3 ∧ bondVol 0.1 0.075 0.3 < 0 :=
  ⟨c64_pos (by norm_num) (by norm_num) (by norm_num) (by norm_num) (by norm_num),
   c64_violated_out_of_reach (by norm_num) (by norm_num) (by norm_num)⟩

end Verif.Props
