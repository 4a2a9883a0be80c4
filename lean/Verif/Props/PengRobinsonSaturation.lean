import Verif.Props.PengRobinsonCritical
import Verif.Props.Saturation
import Mathlib.Data.List.Sort

/-! # C136: the saturation state of the cubic equation of state -/

namespace Verif.Props
open Verif Verif.PengRobinson Filter Topology Set

/-! ## The reduced chemical potential -/

/-- The derivative of `reducedP`. -/
noncomputable def slope (t u : ℝ) : ℝ := slopeNum t u / ((1 - u) ^ 2 * (1 + 2 * u - u ^ 2) ^ 2)

theorem slope_den (u : ℝ) (h0 : 0 ≤ u) (h1 : u < 1) : 0 < (1 - u) ^ 2 * (1 + 2 * u - u ^ 2) ^ 2 := by
  have := pr_den u h0 h1
  have : 0 < 1 - u := by linarith
  positivity

/-- The logarithm of the fugacity, up to a constant, as a function of the packing. -/
noncomputable def redH (t u : ℝ) : ℝ := reducedP t u / u - Real.log (1 - u) + Real.log u -
  t / (2 * √2) * Real.log ((1 + (1 + √2) * u) / (1 + (1 - √2) * u))

theorem redH_deriv (t u : ℝ) (h0 : 0 < u) (h1 : u < 1) : HasDerivAt (redH t) (slope t u / u) u := by
  obtain ⟨hn, hd⟩ := c15_log_den_pos u h0.le h1
  have hs2 := c15_sqrt2_sq
  have hs : 0 < √2 := by linarith [c15_sqrt2_bounds.1]
  have hD := pr_den u h0.le h1
  have h1' : 1 - u ≠ 0 := by linarith
  have d1 : HasDerivAt (fun u => reducedP t u / u) ((slope t u * u - reducedP t u * 1) / u ^ 2) u :=
    (reducedP_deriv t u h0.le h1).div (hasDerivAt_id u) h0.ne'
  have d2 : HasDerivAt (fun u : ℝ => Real.log (1 - u)) (-1 / (1 - u)) u :=
    ((hasDerivAt_id u).const_sub 1).log h1'
  have d3 : HasDerivAt Real.log u⁻¹ u := Real.hasDerivAt_log h0.ne'
  have hprod : (1 + (1 + √2) * u) * (1 + (1 - √2) * u) = 1 + 2 * u - u ^ 2 := by linear_combination (-u ^ 2) * hs2
  have d4 : HasDerivAt (fun u : ℝ => Real.log ((1 + (1 + √2) * u) / (1 + (1 - √2) * u))) (2 * √2 / (1 + 2 * u - u ^ 2)) u := by
    have a1 : HasDerivAt (fun u : ℝ => 1 + (1 + √2) * u) (1 + √2) u := by
      simpa using ((hasDerivAt_id u).const_mul (1 + √2)).const_add 1
    have a2 : HasDerivAt (fun u : ℝ => 1 + (1 - √2) * u) (1 - √2) u := by
      simpa using ((hasDerivAt_id u).const_mul (1 - √2)).const_add 1
    refine ((a1.div a2 hd.ne').log (div_pos hn hd).ne').congr_deriv ?_
    rw [Pi.div_apply, ← hprod]
    field_simp
    ring
  refine ((((d1.sub d2).add d3).sub (d4.const_mul (t / (2 * √2)))).congr_deriv ?_)
  have e : reducedP t u = u ^ 2 * (1 / (u * (1 - u)) - t / (1 + 2 * u - u ^ 2)) := by
    unfold reducedP
    generalize 1 + 2 * u - u ^ 2 = D at hD
    have := hD.ne'
    field_simp
  rw [e]
  generalize slope t u = S
  generalize 1 + 2 * u - u ^ 2 = D at hD
  have := hD.ne'
  field_simp
  ring

/-! ## The two spinodal packings -/

/-- What `t` is compared with. -/
noncomputable def spinT (u : ℝ) : ℝ := (1 + 2 * u - u ^ 2) ^ 2 / (2 * u * (1 + u) * (1 - u) ^ 2)

theorem slopeNum_spinT (t u : ℝ) (h0 : 0 < u) (h1 : u < 1) :
    slopeNum t u = 2 * u * (1 + u) * (1 - u) ^ 2 * (spinT u - t) := by
  have := (critE_pos u h0 h1).ne'
  unfold slopeNum spinT
  rw [mul_sub, mul_div_cancel₀ _ this]
  ring

theorem spinT_deriv (u : ℝ) (h0 : 0 < u) (h1 : u < 1) :
    HasDerivAt spinT ((1 + 2 * u - u ^ 2) * (1 - u) * (2 * critPoly u) / (2 * u * (1 + u) * (1 - u) ^ 2) ^ 2) u := by
  have hM := (critE_pos u h0 h1).ne'
  have n : HasDerivAt (fun u : ℝ => (1 + 2 * u - u ^ 2) ^ 2) (2 * (1 + 2 * u - u ^ 2) * (2 - 2 * u)) u := by
    have d : HasDerivAt (fun u : ℝ => 1 + 2 * u - u ^ 2) (2 - 2 * u) u := by
      have := (((hasDerivAt_id u).const_mul 2).const_add 1).sub (hasDerivAt_pow 2 u)
      refine (this.congr_deriv ?_)
      simp
    refine (d.pow 2).congr_deriv ?_
    simp
  have m : HasDerivAt (fun u : ℝ => 2 * u * (1 + u) * (1 - u) ^ 2) (2 * (1 - u) * (1 - u - 4 * u ^ 2)) u := by
    have a : HasDerivAt (fun u : ℝ => 2 * u) 2 u := by simpa using (hasDerivAt_id u).const_mul 2
    have b : HasDerivAt (fun u : ℝ => 1 + u) 1 u := by simpa using (hasDerivAt_id u).const_add 1
    have c : HasDerivAt (fun u : ℝ => (1 - u) ^ 2) (2 * (1 - u) * (-1)) u := by
      refine (((hasDerivAt_id u).const_sub 1).pow 2).congr_deriv ?_
      simp
    refine ((a.mul b).mul c).congr_deriv ?_
    simp only [Pi.mul_apply]
    ring
  refine (n.div m hM).congr_deriv ?_
  congr 1
  unfold critPoly
  ring

theorem critPoly_sign (u : ℝ) (h0 : 0 ≤ u) : (u < critU → critPoly u < 0) ∧ (critU < u → 0 < critPoly u) := by
  have hc := critU_spec.2.2
  have hp := critU_pos
  unfold critPoly at *
  constructor <;> intro h <;> nlinarith [mul_nonneg h0 hp.le, sq_nonneg u, sq_nonneg critU, sq_nonneg (u + critU)]

theorem spinT_anti : StrictAntiOn spinT (Ioc 0 critU) := by
  have hlt := critU_lt
  refine strictAntiOn_of_deriv_neg (convex_Ioc _ _) ?_ ?_
  · intro u hu
    exact (spinT_deriv u hu.1 (lt_of_le_of_lt hu.2 hlt)).continuousAt.continuousWithinAt
  · intro u hu
    rw [interior_Ioc] at hu
    have h1 := hu.2.trans hlt
    rw [(spinT_deriv u hu.1 h1).deriv]
    refine div_neg_of_neg_of_pos ?_ (by have := critE_pos u hu.1 h1; positivity)
    have := pr_den u hu.1.le h1
    have h3 : 0 < 1 - u := by linarith
    have := (critPoly_sign u hu.1.le).1 hu.2
    exact mul_neg_of_pos_of_neg (by positivity) (by linarith)

theorem spinT_mono : StrictMonoOn spinT (Ico critU 1) := by
  have hpos := critU_pos
  refine strictMonoOn_of_deriv_pos (convex_Ico _ _) ?_ ?_
  · intro u hu
    exact (spinT_deriv u (lt_of_lt_of_le hpos hu.1) hu.2).continuousAt.continuousWithinAt
  · intro u hu
    rw [interior_Ico] at hu
    have h0 := hpos.trans hu.1
    rw [(spinT_deriv u h0 hu.2).deriv]
    have := pr_den u h0.le hu.2
    have h3 : 0 < 1 - u := by linarith [hu.2]
    have := (critPoly_sign u h0.le).2 hu.1
    have := critE_pos u h0 hu.2
    positivity

/-- The packings between which the pressure falls. -/
structure Loop (t u₁ u₂ : ℝ) : Prop where
  pos : 0 < u₁
  lt : u₁ < u₂
  lt_one : u₂ < 1
  tpos : 0 < t
  low : ∀ u, 0 ≤ u → u < u₁ → 0 < slopeNum t u
  mid : ∀ u, u₁ < u → u < u₂ → slopeNum t u < 0
  high : ∀ u, u₂ < u → u < 1 → 0 < slopeNum t u

theorem loop_exists (t : ℝ) (ht : critT < t) : ∃ u₁ u₂, Loop t u₁ u₂ := by
  have hc0 := critU_pos
  have hc1 := critU_lt
  have hcont : Continuous (slopeNum t) := by unfold slopeNum; fun_prop
  have hneg : slopeNum t critU < 0 := by
    rw [slopeNum_spinT t _ hc0 hc1]
    exact mul_neg_of_pos_of_neg (critE_pos _ hc0 hc1) (by change critT - t < 0; linarith)
  have e0 : slopeNum t 0 = 1 := by unfold slopeNum; ring
  have e1 : slopeNum t 1 = 4 := by unfold slopeNum; ring
  obtain ⟨u₁, ⟨a1, a2⟩, z1⟩ := intermediate_value_Icc' hc0.le hcont.continuousOn
    (show (0 : ℝ) ∈ Icc _ _ from ⟨hneg.le, by rw [e0]; norm_num⟩)
  obtain ⟨u₂, ⟨b1, b2⟩, z2⟩ := intermediate_value_Icc hc1.le hcont.continuousOn
    (show (0 : ℝ) ∈ Icc _ _ from ⟨hneg.le, by rw [e1]; norm_num⟩)
  have p1 : 0 < u₁ := lt_of_le_of_ne a1 (by rintro rfl; rw [e0] at z1; norm_num at z1)
  have p2 : u₁ < critU := lt_of_le_of_ne a2 (by rintro rfl; exact hneg.ne z1)
  have p3 : critU < u₂ := lt_of_le_of_ne b1 (by rintro rfl; exact hneg.ne z2)
  have p4 : u₂ < 1 := lt_of_le_of_ne b2 (by rintro rfl; rw [e1] at z2; norm_num at z2)
  have s1 : spinT u₁ = t := by
    rw [slopeNum_spinT t _ p1 (p2.trans hc1)] at z1
    have := (mul_eq_zero.1 z1).resolve_left (critE_pos _ p1 (p2.trans hc1)).ne'
    linarith
  have s2 : spinT u₂ = t := by
    rw [slopeNum_spinT t _ (hc0.trans p3) p4] at z2
    have := (mul_eq_zero.1 z2).resolve_left (critE_pos _ (hc0.trans p3) p4).ne'
    linarith
  refine ⟨u₁, u₂, p1, p2.trans p3, p4, by linarith [critT_bounds.1], ?_, ?_, ?_⟩
  · intro u h0 h1
    rcases h0.eq_or_lt with rfl | h0
    · rw [e0]; norm_num
    · have hu : u < 1 := h1.trans (p2.trans hc1)
      rw [slopeNum_spinT t u h0 hu]
      have := spinT_anti ⟨h0, (h1.trans p2).le⟩ ⟨p1, p2.le⟩ h1
      exact mul_pos (critE_pos u h0 hu) (by linarith)
  · intro u h1 h2
    have h0 := p1.trans h1
    have hu := h2.trans p4
    rw [slopeNum_spinT t u h0 hu]
    refine mul_neg_of_pos_of_neg (critE_pos u h0 hu) ?_
    rcases le_total u critU with h | h
    · have := spinT_anti ⟨p1, p2.le⟩ ⟨h0, h⟩ h1
      linarith
    · have := spinT_mono ⟨h, hu⟩ ⟨p3.le, p4⟩ h2
      linarith
  · intro u h1 h2
    have h0 := (hc0.trans p3).trans h1
    rw [slopeNum_spinT t u h0 h2]
    have := spinT_mono ⟨p3.le, p4⟩ ⟨(p3.trans h1).le, h2⟩ h1
    exact mul_pos (critE_pos u h0 h2) (by linarith)

section Loops
variable {t u₁ u₂ : ℝ} (L : Loop t u₁ u₂)
include L

theorem Loop.mono1 : StrictMonoOn (reducedP t) (Icc 0 u₁) := by
  have h1 := L.lt.trans L.lt_one
  refine strictMonoOn_of_deriv_pos (convex_Icc _ _) ?_ ?_
  · intro u hu
    exact (reducedP_deriv t u hu.1 (lt_of_le_of_lt hu.2 h1)).continuousAt.continuousWithinAt
  · intro u hu
    rw [interior_Icc] at hu
    rw [(reducedP_deriv t u hu.1.le (hu.2.trans h1)).deriv]
    exact div_pos (L.low u hu.1.le hu.2) (slope_den u hu.1.le (hu.2.trans h1))

theorem Loop.anti : StrictAntiOn (reducedP t) (Icc u₁ u₂) := by
  refine strictAntiOn_of_deriv_neg (convex_Icc _ _) ?_ ?_
  · intro u hu
    exact (reducedP_deriv t u (L.pos.le.trans hu.1) (lt_of_le_of_lt hu.2 L.lt_one)).continuousAt.continuousWithinAt
  · intro u hu
    rw [interior_Icc] at hu
    have h0 := (L.pos.trans hu.1).le
    have h1 := hu.2.trans L.lt_one
    rw [(reducedP_deriv t u h0 h1).deriv]
    exact div_neg_of_neg_of_pos (L.mid u hu.1 hu.2) (slope_den u h0 h1)

theorem Loop.mono2 : StrictMonoOn (reducedP t) (Ico u₂ 1) := by
  have hp := L.pos.trans L.lt
  refine strictMonoOn_of_deriv_pos (convex_Ico _ _) ?_ ?_
  · intro u hu
    exact (reducedP_deriv t u (hp.le.trans hu.1) hu.2).continuousAt.continuousWithinAt
  · intro u hu
    rw [interior_Ico] at hu
    have h0 := (hp.trans hu.1).le
    rw [(reducedP_deriv t u h0 hu.2).deriv]
    exact div_pos (L.high u hu.1 hu.2) (slope_den u h0 hu.2)

omit L in
theorem redP_cont {x y : ℝ} (hx : 0 ≤ x) (hy : y < 1) : ContinuousOn (reducedP t) (Icc x y) := fun u hu =>
  (reducedP_deriv t u (hx.trans hu.1) (lt_of_le_of_lt hu.2 hy)).continuousAt.continuousWithinAt

omit L in
/-- Where the pressure rises, the fugacity rises by the rise of the pressure over a packing in between. -/
theorem redH_rise {x y : ℝ} (hx : 0 < x) (hxy : x ≤ y) (hy : y < 1) (hs : ∀ u, x < u → u < y → 0 ≤ slope t u) :
    (reducedP t y - reducedP t x) / y ≤ redH t y - redH t x ∧ redH t y - redH t x ≤ (reducedP t y - reducedP t x) / x := by
  have hb : ∀ u ∈ Icc x y, 0 < u ∧ u < 1 := fun u hu => ⟨lt_of_lt_of_le hx hu.1, lt_of_le_of_lt hu.2 hy⟩
  have hd : ∀ c : ℝ, ∀ u ∈ Icc x y, HasDerivAt (fun u => redH t u - reducedP t u / c) (slope t u / u - slope t u / c) u :=
    fun c u hu => (redH_deriv t u (hb u hu).1 (hb u hu).2).sub
      ((reducedP_deriv t u (hb u hu).1.le (hb u hu).2).div_const c)
  have hy0 : 0 < y := lt_of_lt_of_le hx hxy
  constructor
  · have hm : MonotoneOn (fun u => redH t u - reducedP t u / y) (Icc x y) := by
      refine monotoneOn_of_deriv_nonneg (convex_Icc _ _) (fun u hu => (hd y u hu).continuousAt.continuousWithinAt) ?_ ?_
      · intro u hu
        rw [interior_Icc] at hu
        exact (hd y u (Ioo_subset_Icc_self hu)).differentiableAt.differentiableWithinAt
      · intro u hu
        rw [interior_Icc] at hu
        rw [(hd y u (Ioo_subset_Icc_self hu)).deriv]
        have h0 : 0 < u := hx.trans hu.1
        have := div_le_div_of_nonneg_left (hs u hu.1 hu.2) h0 hu.2.le
        linarith
    have := hm (left_mem_Icc.2 hxy) (right_mem_Icc.2 hxy) hxy
    simp only at this
    rw [sub_div]; linarith
  · have hm : AntitoneOn (fun u => redH t u - reducedP t u / x) (Icc x y) := by
      refine antitoneOn_of_deriv_nonpos (convex_Icc _ _) (fun u hu => (hd x u hu).continuousAt.continuousWithinAt) ?_ ?_
      · intro u hu
        rw [interior_Icc] at hu
        exact (hd x u (Ioo_subset_Icc_self hu)).differentiableAt.differentiableWithinAt
      · intro u hu
        rw [interior_Icc] at hu
        rw [(hd x u (Ioo_subset_Icc_self hu)).deriv]
        have := div_le_div_of_nonneg_left (hs u hu.1 hu.2) hx hu.1.le
        linarith
    have := hm (left_mem_Icc.2 hxy) (right_mem_Icc.2 hxy) hxy
    simp only at this
    rw [sub_div]; linarith

omit L in
theorem redH_shift_deriv (P u : ℝ) (h0 : 0 < u) (h1 : u < 1) :
    HasDerivAt (fun u => redH t u - (reducedP t u - P) / u) ((reducedP t u - P) / u ^ 2) u := by
  have hd : HasDerivAt (fun u => (reducedP t u - P) / u) ((slope t u * u - (reducedP t u - P) * 1) / u ^ 2) u :=
    ((reducedP_deriv t u h0.le h1).sub_const P).div (hasDerivAt_id u) h0.ne'
  refine ((redH_deriv t u h0 h1).sub hd).congr_deriv ?_
  field_simp
  ring

omit L in
/-- A hump of the pressure above its value at both ends raises the fugacity. -/
theorem redH_hump {x y : ℝ} (hx : 0 < x) (hxy : x < y) (hy : y < 1) (he : reducedP t x = reducedP t y)
    (hs : ∀ u, x < u → u < y → reducedP t x < reducedP t u) : redH t x < redH t y := by
  have hb : ∀ u ∈ Icc x y, 0 < u ∧ u < 1 := fun u hu => ⟨lt_of_lt_of_le hx hu.1, lt_of_le_of_lt hu.2 hy⟩
  have hm : StrictMonoOn (fun u => redH t u - (reducedP t u - reducedP t x) / u) (Icc x y) := by
    refine strictMonoOn_of_deriv_pos (convex_Icc _ _)
      (fun u hu => (redH_shift_deriv _ u (hb u hu).1 (hb u hu).2).continuousAt.continuousWithinAt) ?_
    intro u hu
    rw [interior_Icc] at hu
    have h0 := hx.trans hu.1
    rw [(redH_shift_deriv _ u h0 (hu.2.trans hy)).deriv]
    exact div_pos (sub_pos.2 (hs u hu.1 hu.2)) (by positivity)
  have := hm (left_mem_Icc.2 hxy.le) (right_mem_Icc.2 hxy.le) hxy
  simpa [he] using this

omit L in
/-- A dip of the pressure below its value at both ends lowers the fugacity. -/
theorem redH_dip {x y : ℝ} (hx : 0 < x) (hxy : x < y) (hy : y < 1) (he : reducedP t x = reducedP t y)
    (hs : ∀ u, x < u → u < y → reducedP t u < reducedP t x) : redH t y < redH t x := by
  have hb : ∀ u ∈ Icc x y, 0 < u ∧ u < 1 := fun u hu => ⟨lt_of_lt_of_le hx hu.1, lt_of_le_of_lt hu.2 hy⟩
  have hm : StrictAntiOn (fun u => redH t u - (reducedP t u - reducedP t x) / u) (Icc x y) := by
    refine strictAntiOn_of_deriv_neg (convex_Icc _ _)
      (fun u hu => (redH_shift_deriv _ u (hb u hu).1 (hb u hu).2).continuousAt.continuousWithinAt) ?_
    intro u hu
    rw [interior_Icc] at hu
    have h0 := hx.trans hu.1
    rw [(redH_shift_deriv _ u h0 (hu.2.trans hy)).deriv]
    exact div_neg_of_neg_of_pos (sub_neg.2 (hs u hu.1 hu.2)) (by positivity)
  have := hm (left_mem_Icc.2 hxy.le) (right_mem_Icc.2 hxy.le) hxy
  simpa [he] using this

/-- Two packings in equilibrium lie on the outer branches. -/
theorem Loop.outer {x y : ℝ} (hx : 0 < x) (hxy : x < y) (hy : y < 1) (hp : reducedP t x = reducedP t y)
    (hh : redH t x = redH t y) : x < u₁ ∧ u₂ < y := by
  constructor
  · by_contra hc
    rw [not_lt] at hc
    rcases le_or_gt y u₂ with h | h
    · exact absurd hp (L.anti ⟨hc, hxy.le.trans h⟩ ⟨hc.trans hxy.le, h⟩ hxy).ne'
    · rcases le_or_gt u₂ x with g | g
      · exact absurd hp (L.mono2 ⟨g, hxy.trans hy⟩ ⟨h.le, hy⟩ hxy).ne
      · refine absurd hh (redH_dip hx hxy hy hp ?_).ne'
        intro u h1 h2
        rcases le_total u u₂ with k | k
        · exact L.anti ⟨hc, g.le⟩ ⟨hc.trans h1.le, k⟩ h1
        · rw [hp]; exact L.mono2 ⟨k, h2.trans hy⟩ ⟨h.le, hy⟩ h2
  · by_contra hc
    rw [not_lt] at hc
    rcases le_or_gt u₁ x with h | h
    · exact absurd hp (L.anti ⟨h, hxy.le.trans hc⟩ ⟨h.trans hxy.le, hc⟩ hxy).ne'
    · rcases le_or_gt y u₁ with g | g
      · exact absurd hp (L.mono1 ⟨hx.le, h.le⟩ ⟨(hx.trans hxy).le, g⟩ hxy).ne
      · refine absurd hh (redH_hump hx hxy hy hp ?_).ne
        intro u h1 h2
        rcases le_total u u₁ with k | k
        · exact L.mono1 ⟨hx.le, h.le⟩ ⟨(hx.trans h1).le, k⟩ h1
        · rw [hp]; exact L.anti ⟨k, h2.le.trans hc⟩ ⟨g.le, hc⟩ h2

theorem Loop.slope_low (u : ℝ) (h0 : 0 ≤ u) (h1 : u < u₁) : 0 < slope t u :=
  div_pos (L.low u h0 h1) (slope_den u h0 (h1.trans (L.lt.trans L.lt_one)))

theorem Loop.slope_high (u : ℝ) (h0 : u₂ < u) (h1 : u < 1) : 0 < slope t u :=
  div_pos (L.high u h0 h1) (slope_den u ((L.pos.trans L.lt).trans h0).le h1)

/-- The difference of the fugacities of liquid and vapour falls with the pressure, at least by the gap of the spinodal volumes. -/
theorem Loop.falls {x y x' y' : ℝ} (hx : 0 < x) (hx1 : x' ≤ u₁) (hy2 : u₂ ≤ y) (hy : y' < 1) (hxx : x ≤ x') (hyy : y ≤ y')
    (hp : reducedP t x = reducedP t y) (hp' : reducedP t x' = reducedP t y') :
    (reducedP t x' - reducedP t x) * (1 / u₁ - 1 / u₂) ≤ (redH t y - redH t x) - (redH t y' - redH t x') ∧
      (redH t y - redH t x) - (redH t y' - redH t x') ≤ (reducedP t x' - reducedP t x) / x := by
  have h2 : 0 < u₂ := L.pos.trans L.lt
  have hy0 : 0 < y := lt_of_lt_of_le h2 hy2
  have hx0 : 0 < x' := lt_of_lt_of_le hx hxx
  obtain ⟨a1, a2⟩ := redH_rise (t := t) hx hxx (lt_of_le_of_lt hx1 (L.lt.trans L.lt_one))
    (fun u h1 h2 => (L.slope_low u (hx.trans h1).le (lt_of_lt_of_le h2 hx1)).le)
  obtain ⟨b1, b2⟩ := redH_rise (t := t) hy0 hyy hy (fun u h1 h2 => (L.slope_high u (lt_of_le_of_lt hy2 h1) (h2.trans hy)).le)
  rw [← hp, ← hp'] at b1 b2
  have hd : 0 ≤ reducedP t x' - reducedP t x :=
    sub_nonneg.2 (L.mono1.monotoneOn ⟨hx.le, hxx.trans hx1⟩ ⟨hx0.le, hx1⟩ hxx)
  have c1 : (reducedP t x' - reducedP t x) / u₁ ≤ (reducedP t x' - reducedP t x) / x' :=
    div_le_div_of_nonneg_left hd hx0 hx1
  have c2 : (reducedP t x' - reducedP t x) / y ≤ (reducedP t x' - reducedP t x) / u₂ :=
    div_le_div_of_nonneg_left hd h2 hy2
  have c3 : 0 ≤ (reducedP t x' - reducedP t x) / y' := div_nonneg hd (hy0.le.trans hyy)
  constructor
  · rw [mul_sub, mul_one_div, mul_one_div]; linarith
  · linarith

/-- At low packing the fugacity is as small as wanted. -/
theorem Loop.deep (M : ℝ) : ∃ v, 0 < v ∧ v < u₁ ∧ redH t v < M := by
  have hL := L.pos
  set v := min (u₁ / 2) (min (1 / 2) (Real.exp (M - 4))) with hv
  have hv0 : 0 < v := lt_min (by linarith) (lt_min (by norm_num) (Real.exp_pos _))
  have hv1 : v < u₁ := lt_of_le_of_lt (min_le_left _ _) (by linarith)
  have hv2 : v ≤ 1 / 2 := (min_le_right _ _).trans (min_le_left _ _)
  have hv3 : v ≤ Real.exp (M - 4) := (min_le_right _ _).trans (min_le_right _ _)
  refine ⟨v, hv0, hv1, ?_⟩
  have hv4 : v < 1 := by linarith
  have hlog : Real.log v ≤ M - 4 := by
    have := Real.log_le_log hv0 hv3
    rwa [Real.log_exp] at this
  have hD := pr_den v hv0.le hv4
  obtain ⟨hn, hd⟩ := c15_log_den_pos v hv0.le hv4
  have hs : 0 < √2 := by linarith [c15_sqrt2_bounds.1]
  have k1 : reducedP t v / v ≤ 2 := by
    rw [div_le_iff₀ hv0]
    unfold reducedP
    have : 0 ≤ t * (v ^ 2 / (1 + 2 * v - v ^ 2)) := mul_nonneg L.tpos.le (div_nonneg (sq_nonneg _) hD.le)
    have h2 : v / (1 - v) ≤ 2 * v := by rw [div_le_iff₀ (by linarith)]; nlinarith
    linarith
  have k2 : -1 ≤ Real.log (1 - v) := by
    have : Real.log (1 / 2) ≤ Real.log (1 - v) := Real.log_le_log (by norm_num) (by linarith)
    have h3 : Real.log (1 / 2) = -Real.log 2 := by rw [one_div, Real.log_inv]
    have h4 : Real.log 2 ≤ 2 - 1 := Real.log_le_sub_one_of_pos (by norm_num)
    linarith
  have k3 : 0 ≤ t / (2 * √2) * Real.log ((1 + (1 + √2) * v) / (1 + (1 - √2) * v)) := by
    refine mul_nonneg (div_nonneg L.tpos.le (by positivity)) (Real.log_nonneg ?_)
    rw [le_div_iff₀ hd]
    nlinarith [mul_pos hs hv0]
  unfold redH
  linarith

end Loops

/-- Below the critical temperature two packings are in equilibrium: the same pressure, positive, and the same fugacity. -/
theorem loop_equilibrium {t u₁ u₂ : ℝ} (L : Loop t u₁ u₂) : ∃ x y, 0 < x ∧ x < y ∧ y < 1 ∧ 0 < reducedP t x ∧
    reducedP t x = reducedP t y ∧ redH t x = redH t y := by
  have h2 : 0 < u₂ := L.pos.trans L.lt
  have h11 : u₁ < 1 := L.lt.trans L.lt_one
  have hz : reducedP t 0 = 0 := by simp [reducedP]
  have hmax : 0 < reducedP t u₁ := by
    rw [← hz]; exact L.mono1 ⟨le_rfl, L.pos.le⟩ ⟨L.pos.le, le_rfl⟩ L.pos
  have hdrop : reducedP t u₂ < reducedP t u₁ := L.anti ⟨le_rfl, L.lt.le⟩ ⟨L.lt.le, le_rfl⟩ L.lt
  -- the liquid branch reaches the pressure of the vapour spinodal
  obtain ⟨w, hw2, hw1, hw⟩ : ∃ w, u₂ < w ∧ w < 1 ∧ reducedP t u₁ < reducedP t w := by
    obtain ⟨w, a, b, c⟩ := pr_unbounded 1 1 t 1 (reducedP t u₁) u₂ (by norm_num) one_pos h2.le (by simpa using L.lt_one)
    rw [reducedP_eq 1 1 t 1 w (by norm_num) one_pos] at c
    exact ⟨w, a, by simpa using b, by simpa using c⟩
  have liq : ∀ P, reducedP t u₂ ≤ P → P ≤ reducedP t u₁ → ∃ l, u₂ ≤ l ∧ l < 1 ∧ reducedP t l = P := by
    intro P a b
    obtain ⟨l, hl, e⟩ := intermediate_value_Icc hw2.le (redP_cont (t := t) h2.le hw1) ⟨a, b.trans hw.le⟩
    exact ⟨l, hl.1, lt_of_le_of_lt hl.2 hw1, e⟩
  have vap : ∀ P, 0 < P → P ≤ reducedP t u₁ → ∃ v, 0 < v ∧ v ≤ u₁ ∧ reducedP t v = P := by
    intro P a b
    obtain ⟨v, hv, e⟩ := intermediate_value_Icc L.pos.le (redP_cont (t := t) le_rfl h11) ⟨by rw [hz]; exact a.le, b⟩
    refine ⟨v, lt_of_le_of_ne hv.1 ?_, hv.2, e⟩
    rintro rfl
    rw [hz] at e; exact a.ne e
  -- a pressure at which the liquid is above
  obtain ⟨v0, l0, hv0, hv01, hl0, hl01, he0, hpos0⟩ : ∃ v l, 0 < v ∧ v ≤ u₁ ∧ u₂ ≤ l ∧ l < 1 ∧ reducedP t v = reducedP t l ∧
      0 ≤ redH t l - redH t v := by
    rcases lt_or_ge 0 (reducedP t u₂) with hp | hp
    · obtain ⟨v, a, b, e⟩ := vap _ hp hdrop.le
      have hb : v < u₁ := lt_of_le_of_ne b (by rintro rfl; exact hdrop.ne' e)
      refine ⟨v, u₂, a, b, le_rfl, L.lt_one, e, ?_⟩
      refine (sub_pos.2 (redH_hump a (hb.trans L.lt) L.lt_one e ?_)).le
      intro u g1 g2
      rcases le_total u u₁ with k | k
      · exact L.mono1 ⟨a.le, b⟩ ⟨(a.trans g1).le, k⟩ g1
      · rw [e]; exact L.anti ⟨k, g2.le⟩ ⟨L.lt.le, le_rfl⟩ g2
    · obtain ⟨v, a, b, hM⟩ := L.deep (redH t u₂)
      have hpv : 0 < reducedP t v := by rw [← hz]; exact L.mono1 ⟨le_rfl, L.pos.le⟩ ⟨a.le, b.le⟩ a
      have hpu : reducedP t v ≤ reducedP t u₁ := L.mono1.monotoneOn ⟨a.le, b.le⟩ ⟨L.pos.le, le_rfl⟩ b.le
      obtain ⟨l, c, d, e⟩ := liq (reducedP t v) (hp.trans hpv.le) hpu
      refine ⟨v, l, a, b.le, c, d, e.symm, ?_⟩
      have h3 := (redH_rise (t := t) h2 c d fun u g1 g2 => (L.slope_high u g1 (g2.trans d)).le).1
      have h4 : 0 ≤ (reducedP t l - reducedP t u₂) / l := div_nonneg (by linarith) (h2.le.trans c)
      linarith
  -- at the pressure of the vapour spinodal it is below
  obtain ⟨l1, hl1, hl11, he1⟩ := liq _ hdrop.le le_rfl
  have hl1' : u₂ < l1 := lt_of_le_of_ne hl1 (by rintro rfl; exact hdrop.ne he1)
  have hneg1 : redH t l1 - redH t u₁ < 0 := by
    refine sub_neg.2 (redH_dip L.pos (L.lt.trans hl1') hl11 he1.symm ?_)
    intro u g1 g2
    rcases le_total u u₂ with k | k
    · exact L.anti ⟨le_rfl, L.lt.le⟩ ⟨g1.le, k⟩ g1
    · rw [← he1]; exact L.mono2 ⟨k, g2.trans hl11⟩ ⟨hl1, hl11⟩ g2
  -- in between there is a pressure where both agree
  set P0 := reducedP t v0 with hP0
  have hP0pos : 0 < P0 := by rw [← hz]; exact L.mono1 ⟨le_rfl, L.pos.le⟩ ⟨hv0.le, hv01⟩ hv0
  have hP01 : P0 ≤ reducedP t u₁ := L.mono1.monotoneOn ⟨hv0.le, hv01⟩ ⟨L.pos.le, le_rfl⟩ hv01
  have hP02 : reducedP t u₂ ≤ P0 := by
    rw [he0]; exact L.mono2.monotoneOn ⟨le_rfl, L.lt_one⟩ ⟨hl0, hl01⟩ hl0
  have ex : ∀ P, ∃ q : ℝ × ℝ, P ∈ Icc P0 (reducedP t u₁) →
      0 < q.1 ∧ q.1 ≤ u₁ ∧ u₂ ≤ q.2 ∧ q.2 < 1 ∧ reducedP t q.1 = P ∧ reducedP t q.2 = P := by
    intro P
    by_cases h : P ∈ Icc P0 (reducedP t u₁)
    · obtain ⟨v, a, b, c⟩ := vap P (lt_of_lt_of_le hP0pos h.1) h.2
      obtain ⟨l, d, e, f⟩ := liq P (hP02.trans h.1) h.2
      exact ⟨(v, l), fun _ => ⟨a, b, d, e, c, f⟩⟩
    · exact ⟨(0, 0), fun h' => absurd h' h⟩
  choose q hq using ex
  set Δ : ℝ → ℝ := fun P => redH t (q P).2 - redH t (q P).1 with hΔ
  have inj1 : ∀ x y, 0 < x → x ≤ u₁ → 0 < y → y ≤ u₁ → reducedP t x = reducedP t y → x = y := fun x y a b c d e =>
    L.mono1.injOn ⟨a.le, b⟩ ⟨c.le, d⟩ e
  have inj2 : ∀ x y, u₂ ≤ x → x < 1 → u₂ ≤ y → y < 1 → reducedP t x = reducedP t y → x = y := fun x y a b c d e =>
    L.mono2.injOn ⟨a, b⟩ ⟨c, d⟩ e
  have hlip : ∀ P ∈ Icc P0 (reducedP t u₁), ∀ P' ∈ Icc P0 (reducedP t u₁), P ≤ P' →
      0 ≤ Δ P - Δ P' ∧ Δ P - Δ P' ≤ (P' - P) * (1 / v0) := by
    intro P hP P' hP' hle
    obtain ⟨a1, a2, a3, a4, a5, a6⟩ := hq P hP
    obtain ⟨b1, b2, b3, b4, b5, b6⟩ := hq P' hP'
    have c1 : (q P).1 ≤ (q P').1 := (L.mono1.le_iff_le ⟨a1.le, a2⟩ ⟨b1.le, b2⟩).1 (by rw [a5, b5]; exact hle)
    have c2 : (q P).2 ≤ (q P').2 := (L.mono2.le_iff_le ⟨a3, a4⟩ ⟨b3, b4⟩).1 (by rw [a6, b6]; exact hle)
    have c3 : v0 ≤ (q P).1 := (L.mono1.le_iff_le ⟨hv0.le, hv01⟩ ⟨a1.le, a2⟩).1 (by rw [a5]; exact hP.1)
    obtain ⟨d1, d2⟩ := L.falls a1 b2 a3 b4 c1 c2 (a5.trans a6.symm) (b5.trans b6.symm)
    rw [a5, b5] at d1 d2
    have e1 : 0 ≤ 1 / u₁ - 1 / u₂ := sub_nonneg.2 (one_div_le_one_div_of_le L.pos L.lt.le)
    constructor
    · exact (mul_nonneg (sub_nonneg.2 hle) e1).trans d1
    · refine d2.trans ?_
      rw [mul_one_div]
      exact div_le_div_of_nonneg_left (sub_nonneg.2 hle) hv0 c3
  have hcont : ContinuousOn Δ (Icc P0 (reducedP t u₁)) := by
    have : LipschitzOnWith (Real.toNNReal (1 / v0)) Δ (Icc P0 (reducedP t u₁)) := by
      refine LipschitzOnWith.of_dist_le_mul fun P hP P' hP' => ?_
      rw [Real.dist_eq, Real.dist_eq, Real.coe_toNNReal _ (by positivity)]
      rcases le_total P P' with h | h
      · obtain ⟨g1, g2⟩ := hlip P hP P' hP' h
        rw [abs_of_nonneg g1, abs_of_nonpos (by linarith)]
        linarith
      · obtain ⟨g1, g2⟩ := hlip P' hP' P hP h
        rw [abs_of_nonpos (by linarith), abs_of_nonneg (by linarith)]
        linarith
    exact this.continuousOn
  have m0 : P0 ∈ Icc P0 (reducedP t u₁) := left_mem_Icc.2 hP01
  have m1 : reducedP t u₁ ∈ Icc P0 (reducedP t u₁) := right_mem_Icc.2 hP01
  have hΔ0 : 0 ≤ Δ P0 := by
    obtain ⟨a1, a2, a3, a4, a5, a6⟩ := hq P0 m0
    have e1 := inj1 _ _ a1 a2 hv0 hv01 a5
    have e2 := inj2 _ _ a3 a4 hl0 hl01 (a6.trans he0)
    simp only [hΔ, e1, e2]; exact hpos0
  have hΔ1 : Δ (reducedP t u₁) ≤ 0 := by
    obtain ⟨a1, a2, a3, a4, a5, a6⟩ := hq _ m1
    have e1 := inj1 _ _ a1 a2 L.pos le_rfl a5
    have e2 := inj2 _ _ a3 a4 hl1 hl11 (a6.trans he1.symm)
    simp only [hΔ, e1, e2]; exact hneg1.le
  obtain ⟨P, hP, hz0⟩ := intermediate_value_Icc' hP01 hcont ⟨hΔ1, hΔ0⟩
  obtain ⟨a1, a2, a3, a4, a5, a6⟩ := hq P hP
  exact ⟨(q P).1, (q P).2, a1, lt_of_le_of_lt a2 (lt_of_lt_of_le L.lt a3), a4, by rw [a5]; exact lt_of_lt_of_le hP0pos hP.1,
    a5.trans a6.symm, (sub_eq_zero.1 hz0).symm⟩

/-- There is one such pair only. -/
theorem loop_unique {t u₁ u₂ x y x' y' : ℝ} (L : Loop t u₁ u₂) (hx : 0 < x) (hxy : x < y) (hy : y < 1)
    (hp : reducedP t x = reducedP t y) (hh : redH t x = redH t y) (hx' : 0 < x') (hxy' : x' < y') (hy' : y' < 1)
    (hp' : reducedP t x' = reducedP t y') (hh' : redH t x' = redH t y') : x = x' ∧ y = y' := by
  -- of two pairs neither has the smaller pressure
  have key : ∀ x y x' y', 0 < x → x < y → y < 1 → reducedP t x = reducedP t y → redH t x = redH t y → 0 < x' → x' < y' → y' < 1 →
      reducedP t x' = reducedP t y' → redH t x' = redH t y' → ¬ reducedP t x < reducedP t x' := by
    intro x y x' y' hx hxy hy hp hh hx' hxy' hy' hp' hh' hlt
    obtain ⟨a1, a2⟩ := L.outer hx hxy hy hp hh
    obtain ⟨b1, b2⟩ := L.outer hx' hxy' hy' hp' hh'
    have c1 : x < x' := (L.mono1.lt_iff_lt ⟨hx.le, a1.le⟩ ⟨hx'.le, b1.le⟩).1 hlt
    have c2 : y < y' := (L.mono2.lt_iff_lt ⟨a2.le, hy⟩ ⟨b2.le, hy'⟩).1 (by rw [← hp, ← hp']; exact hlt)
    have d := (L.falls hx b1.le a2.le hy' c1.le c2.le hp hp').1
    rw [hh, hh', sub_self, sub_self, sub_self] at d
    have e1 : 0 < 1 / u₁ - 1 / u₂ := sub_pos.2 (one_div_lt_one_div_of_lt L.pos L.lt)
    exact absurd (mul_pos (sub_pos.2 hlt) e1) (not_lt.2 d)
  have he : reducedP t x = reducedP t x' := by
    rcases lt_trichotomy (reducedP t x) (reducedP t x') with h | h | h
    · exact absurd h (key x y x' y' hx hxy hy hp hh hx' hxy' hy' hp' hh')
    · exact h
    · exact absurd h (key x' y' x y hx' hxy' hy' hp' hh' hx hxy hy hp hh)
  obtain ⟨a1, a2⟩ := L.outer hx hxy hy hp hh
  obtain ⟨b1, b2⟩ := L.outer hx' hxy' hy' hp' hh'
  exact ⟨L.mono1.injOn ⟨hx.le, a1.le⟩ ⟨hx'.le, b1.le⟩ he, L.mono2.injOn ⟨a2.le, hy⟩ ⟨b2.le, hy'⟩ (by rw [← hp, ← hp', he])⟩

/-! ## Densities, pressures and fugacity coefficients of the code -/

section Pure
variable (R T : ℝ) (q : Par 1)

/-- `a / (b R T)` of a pure substance. -/
noncomputable def pureT : ℝ := q.ai 0 * q.alpha 0 / (q.bi 0 * (R * T))

theorem pure_mix (ha : 0 < q.ai 0 * q.alpha 0) (hk : q.kij 0 0 = 0) :
    bmix q (fun _ => 1) = q.bi 0 ∧ amix q (fun _ => 1) = q.ai 0 * q.alpha 0 := by
  have hsq : √(q.ai 0 * q.alpha 0 * q.ai 0 * q.alpha 0) = q.ai 0 * q.alpha 0 := by
    rw [show q.ai 0 * q.alpha 0 * q.ai 0 * q.alpha 0 = (q.ai 0 * q.alpha 0) ^ 2 by ring]
    exact Real.sqrt_sq ha.le
  constructor
  · simp [bmix]
  · simp [amix, hk, hsq]

variable {R T q}
variable (hRT : 0 < R * T) (hb : 0 < q.bi 0) (ha : 0 < q.ai 0 * q.alpha 0) (hk : q.kij 0 0 = 0)
include hRT hb ha hk

theorem pure_pressure (ρ : ℝ) :
    pressure R T q (fun _ => 1) ρ = R * T / q.bi 0 * reducedP (pureT R T q) (q.bi 0 * ρ) := by
  obtain ⟨h1, h2⟩ := pure_mix q ha hk
  unfold pressure
  rw [h1, h2, reducedP_eq R T _ _ ρ hRT hb]
  rfl

theorem pure_lnPhi (ρ : ℝ) (hρ : 0 < ρ) (hu : q.bi 0 * ρ < 1) (hP : 0 < pressure R T q (fun _ => 1) ρ) :
    lnPhi R T q (fun _ => 1) (pressure R T q (fun _ => 1) ρ) ρ 0 =
      redH (pureT R T q) (q.bi 0 * ρ) - 1 - Real.log (pressure R T q (fun _ => 1) ρ * q.bi 0 / (R * T)) := by
  rw [c15_pure_lnPhi R T q ρ hRT hρ hb hu ha hk hP]
  have e1 : reducedP (pureT R T q) (q.bi 0 * ρ) / (q.bi 0 * ρ) = pressure R T q (fun _ => 1) ρ / (R * T * ρ) := by
    rw [pure_pressure hRT hb ha hk]
    generalize R * T = w at hRT
    have := hRT.ne'
    field_simp
  have hz : 0 < pressure R T q (fun _ => 1) ρ / (R * T * ρ) := by positivity
  have e2 : pressure R T q (fun _ => 1) ρ * q.bi 0 / (R * T) =
      pressure R T q (fun _ => 1) ρ / (R * T * ρ) * (q.bi 0 * ρ) := by
    generalize R * T = w at hRT
    have := hRT.ne'
    field_simp
  unfold redH
  rw [e1, e2, Real.log_mul hz.ne' (by positivity)]
  have e3 : q.ai 0 * q.alpha 0 / (2 * √2 * q.bi 0 * (R * T)) = pureT R T q / (2 * √2) := by
    unfold pureT
    have hs : 0 < √2 := by linarith [c15_sqrt2_bounds.1]
    generalize R * T = w at hRT
    have := hRT.ne'
    field_simp
  rw [e3]
  ring

/-- Two densities with the pressure and the fugacity coefficient in common. -/
def Saturated (R T : ℝ) (q : Par 1) (s : ℝ × ℝ) : Prop :=
  0 < s.1 ∧ s.1 < s.2 ∧ s.2 < 1 / q.bi 0 ∧ 0 < pressure R T q (fun _ => 1) s.1 ∧
    pressure R T q (fun _ => 1) s.1 = pressure R T q (fun _ => 1) s.2 ∧
    phi R T q (fun _ => 1) (pressure R T q (fun _ => 1) s.1) s.1 0 =
      phi R T q (fun _ => 1) (pressure R T q (fun _ => 1) s.2) s.2 0

theorem saturated_reduced (s : ℝ × ℝ) : Saturated R T q s ↔
    0 < q.bi 0 * s.1 ∧ q.bi 0 * s.1 < q.bi 0 * s.2 ∧ q.bi 0 * s.2 < 1 ∧ 0 < reducedP (pureT R T q) (q.bi 0 * s.1) ∧
      reducedP (pureT R T q) (q.bi 0 * s.1) = reducedP (pureT R T q) (q.bi 0 * s.2) ∧
      redH (pureT R T q) (q.bi 0 * s.1) = redH (pureT R T q) (q.bi 0 * s.2) := by
  have hw : 0 < R * T / q.bi 0 := div_pos hRT hb
  have i1 : 0 < s.1 ↔ 0 < q.bi 0 * s.1 := (mul_pos_iff_of_pos_left hb).symm
  have i2 : s.1 < s.2 ↔ q.bi 0 * s.1 < q.bi 0 * s.2 := (mul_lt_mul_iff_of_pos_left hb).symm
  have i3 : s.2 < 1 / q.bi 0 ↔ q.bi 0 * s.2 < 1 := by rw [lt_div_iff₀ hb, mul_comm]
  have i4 : 0 < pressure R T q (fun _ => 1) s.1 ↔ 0 < reducedP (pureT R T q) (q.bi 0 * s.1) := by
    rw [pure_pressure hRT hb ha hk]; exact mul_pos_iff_of_pos_left hw
  have i5 : pressure R T q (fun _ => 1) s.1 = pressure R T q (fun _ => 1) s.2 ↔
      reducedP (pureT R T q) (q.bi 0 * s.1) = reducedP (pureT R T q) (q.bi 0 * s.2) := by
    rw [pure_pressure hRT hb ha hk, pure_pressure hRT hb ha hk]; exact mul_right_inj' hw.ne'
  unfold Saturated
  rw [i1, i2, i3, i4, i5]
  refine and_congr_right fun h1 => and_congr_right fun h2 => and_congr_right fun h3 => and_congr_right fun h4 =>
    and_congr_right fun h5 => ?_
  have j1 := i1.2 h1
  have j4 := i4.2 h4
  have j5 := i5.2 h5
  unfold phi
  rw [Real.exp_eq_exp, pure_lnPhi hRT hb ha hk s.1 j1 (h2.trans h3) j4,
    pure_lnPhi hRT hb ha hk s.2 (j1.trans (i2.2 h2)) h3 (j5 ▸ j4), j5]
  constructor <;> intro h <;> linarith

/-- **C136** (existence and uniqueness): if the attraction exceeds the critical one there is exactly one pair of densities with the pressure and the fugacity
coefficient in common. -/
theorem c136_saturation (hcrit : critT * (q.bi 0 * (R * T)) < q.ai 0 * q.alpha 0) : ∃! s : ℝ × ℝ, Saturated R T q s := by
  have ht : critT < pureT R T q := (lt_div_iff₀ (mul_pos hb hRT)).2 hcrit
  obtain ⟨u₁, u₂, L⟩ := loop_exists _ ht
  obtain ⟨x, y, h1, h2, h3, h4, h5, h6⟩ := loop_equilibrium L
  have e : ∀ w, q.bi 0 * (w / q.bi 0) = w := fun w => mul_div_cancel₀ w hb.ne'
  refine ⟨(x / q.bi 0, y / q.bi 0), ?_, ?_⟩
  · beta_reduce
    rw [saturated_reduced hRT hb ha hk]
    simp only [e]
    exact ⟨h1, h2, h3, h4, h5, h6⟩
  · rintro s hs
    rw [saturated_reduced hRT hb ha hk] at hs
    obtain ⟨g1, g2, g3, _, g5, g6⟩ := hs
    obtain ⟨k1, k2⟩ := loop_unique L g1 g2 g3 g5 g6 h1 h2 h3 h5 h6
    ext
    · simp only; rw [eq_div_iff hb.ne', mul_comm]; exact k1
    · simp only; rw [eq_div_iff hb.ne', mul_comm]; exact k2

/-- **C136** (above the critical point): otherwise there is none. -/
theorem c136_none (hcrit : q.ai 0 * q.alpha 0 ≤ critT * (q.bi 0 * (R * T))) (s : ℝ × ℝ) : ¬ Saturated R T q s := by
  rw [saturated_reduced hRT hb ha hk]
  rintro ⟨h1, h2, h3, -, h5, -⟩
  have ht : pureT R T q ≤ critT := (div_le_iff₀ (mul_pos hb hRT)).2 hcrit
  exact absurd h5 (reducedP_strictMono _ ht ⟨h1.le, h2.trans h3⟩ ⟨(h1.trans h2).le, h3⟩ h2).ne

/-- Three densities with the same pressure. -/
def Three (R T : ℝ) (q : Par 1) (P x y z : ℝ) : Prop :=
  0 < P ∧ 0 < x ∧ x < y ∧ y < z ∧ z < 1 / q.bi 0 ∧ pressure R T q (fun _ => 1) x = P ∧
    pressure R T q (fun _ => 1) y = P ∧ pressure R T q (fun _ => 1) z = P

omit hRT hb ha hk in
/-- Of three packings with the same pressure the outer ones lie on the outer branches. -/
theorem Loop.three {t u₁ u₂ x y z : ℝ} (L : Loop t u₁ u₂) (hx : 0 < x) (hxy : x < y) (hyz : y < z) (hz : z < 1)
    (h1 : reducedP t x = reducedP t y) (h2 : reducedP t y = reducedP t z) : x ≤ u₁ ∧ u₂ ≤ z := by
  constructor
  · by_contra hc
    rw [not_le] at hc
    rcases le_or_gt y u₂ with h | h
    · exact absurd h1 (L.anti ⟨hc.le, hxy.le.trans h⟩ ⟨(hc.trans hxy).le, h⟩ hxy).ne'
    · exact absurd h2 (L.mono2 ⟨h.le, hyz.trans hz⟩ ⟨(h.trans hyz).le, hz⟩ hyz).ne
  · by_contra hc
    rw [not_le] at hc
    rcases le_or_gt u₁ y with h | h
    · exact absurd h2 (L.anti ⟨h, (hyz.trans hc).le⟩ ⟨(lt_of_le_of_lt h hyz).le, hc.le⟩ hyz).ne'
    · exact absurd h1 (L.mono1 ⟨hx.le, (hxy.trans h).le⟩ ⟨(hx.trans hxy).le, h.le⟩ hxy).ne

/-- **C136** (the searched function is monotone): between two pressures, both with three densities, the difference of the fugacity coefficients
of the outer densities, which is the area the search squares, falls at least by the rise of the pressure times the width of any range of volumes in which the pressure rises with
the volume. -/
theorem c136_falls (P x y z P' x' y' z' ρ₁ ρ₂ : ℝ) (h : Three R T q P x y z) (h' : Three R T q P' x' y' z') (hPP : P ≤ P')
    (h1 : 0 < ρ₁) (h12 : ρ₁ < ρ₂) (h2 : ρ₂ < 1 / q.bi 0)
    (hanti : StrictAntiOn (pressure R T q (fun _ => 1)) (Icc ρ₁ ρ₂)) :
    (P' - P) * (1 / ρ₁ - 1 / ρ₂) ≤
      R * T * ((lnPhi R T q (fun _ => 1) P z 0 - lnPhi R T q (fun _ => 1) P x 0) -
        (lnPhi R T q (fun _ => 1) P' z' 0 - lnPhi R T q (fun _ => 1) P' x' 0)) := by
  have hw : 0 < R * T / q.bi 0 := div_pos hRT hb
  obtain ⟨p0, px, pxy, pyz, pz, ex, ey, ez⟩ := h
  obtain ⟨p0', px', pxy', pyz', pz', ex', ey', ez'⟩ := h'
  have bz : q.bi 0 * z < 1 := by rw [mul_comm]; exact (lt_div_iff₀ hb).1 pz
  have bz' : q.bi 0 * z' < 1 := by rw [mul_comm]; exact (lt_div_iff₀ hb).1 pz'
  have b2 : q.bi 0 * ρ₂ < 1 := by rw [mul_comm]; exact (lt_div_iff₀ hb).1 h2
  have lift : ∀ {a c : ℝ}, a < c → q.bi 0 * a < q.bi 0 * c := fun h => mul_lt_mul_of_pos_left h hb
  have hp := pure_pressure hRT hb ha hk
  set t := pureT R T q with ht
  -- there is a loop, because the pressure is not monotone
  have hcr : critT < t := by
    by_contra hc
    rw [not_lt] at hc
    have := reducedP_strictMono t hc ⟨(mul_pos hb px).le, (lift (pxy.trans pyz)).trans bz⟩
      ⟨(mul_pos hb (px.trans pxy)).le, (lift pyz).trans bz⟩ (lift pxy)
    rw [hp] at ex ey
    have e := mul_left_cancel₀ hw.ne' (ex.trans ey.symm)
    exact absurd e this.ne
  obtain ⟨u₁, u₂, L⟩ := loop_exists t hcr
  have red : ∀ {a c : ℝ}, pressure R T q (fun _ => 1) a = pressure R T q (fun _ => 1) c →
      reducedP t (q.bi 0 * a) = reducedP t (q.bi 0 * c) := fun {a c} h => by
    rw [hp, hp] at h; exact mul_left_cancel₀ hw.ne' h
  obtain ⟨o1, o2⟩ := L.three (mul_pos hb px) (lift pxy) (lift pyz) bz (red (ex.trans ey.symm)) (red (ey.trans ez.symm))
  obtain ⟨o1', o2'⟩ := L.three (mul_pos hb px') (lift pxy') (lift pyz') bz' (red (ex'.trans ey'.symm)) (red (ey'.trans ez'.symm))
  have rP : ∀ {a c : ℝ}, pressure R T q (fun _ => 1) a = c → reducedP t (q.bi 0 * a) = c / (R * T / q.bi 0) := fun {a c} h => by
    rw [hp] at h; rw [← h, mul_div_cancel_left₀ _ hw.ne']
  have hle : P / (R * T / q.bi 0) ≤ P' / (R * T / q.bi 0) := div_le_div_of_nonneg_right hPP hw.le
  have c1 : q.bi 0 * x ≤ q.bi 0 * x' := (L.mono1.le_iff_le ⟨(mul_pos hb px).le, o1⟩ ⟨(mul_pos hb px').le, o1'⟩).1 (by
    rw [rP ex, rP ex']; exact hle)
  have c2 : q.bi 0 * z ≤ q.bi 0 * z' := (L.mono2.le_iff_le ⟨o2, bz⟩ ⟨o2', bz'⟩).1 (by rw [rP ez, rP ez']; exact hle)
  have d := (L.falls (mul_pos hb px) o1' o2 bz' c1 c2 (red (ex.trans ez.symm)) (red (ex'.trans ez'.symm))).1
  rw [rP ex, rP ex'] at d
  -- the given range lies between the spinodal packings
  have hr : ∀ {a c : ℝ}, a ∈ Icc ρ₁ ρ₂ → c ∈ Icc ρ₁ ρ₂ → a < c → reducedP t (q.bi 0 * c) < reducedP t (q.bi 0 * a) :=
    fun {a c} h1 h2 h3 => by
      have := hanti h1 h2 h3
      rw [hp, hp] at this
      exact (mul_lt_mul_iff_of_pos_left hw).1 this
  have eb : ∀ w, q.bi 0 * (w / q.bi 0) = w := fun w => mul_div_cancel₀ w hb.ne'
  have k1 : u₁ ≤ q.bi 0 * ρ₁ := by
    by_contra hc
    rw [not_le] at hc
    set w := min (u₁ / q.bi 0) ρ₂ with hwd
    have w1 : ρ₁ < w := lt_min ((lt_div_iff₀ hb).2 (by rw [mul_comm]; exact hc)) h12
    have w2 : q.bi 0 * w ≤ u₁ := by
      have := mul_le_mul_of_nonneg_left (min_le_left (u₁ / q.bi 0) ρ₂) hb.le
      rwa [eb] at this
    have g1 := hr ⟨le_rfl, h12.le⟩ ⟨w1.le, min_le_right _ _⟩ w1
    have g2 := L.mono1 ⟨(mul_pos hb h1).le, hc.le⟩ ⟨(mul_pos hb (h1.trans w1)).le, w2⟩ (lift w1)
    exact lt_asymm g1 g2
  have k2 : q.bi 0 * ρ₂ ≤ u₂ := by
    by_contra hc
    rw [not_le] at hc
    set w := max (u₂ / q.bi 0) ρ₁ with hwd
    have w1 : w < ρ₂ := max_lt ((div_lt_iff₀ hb).2 (by rw [mul_comm]; exact hc)) h12
    have w2 : u₂ ≤ q.bi 0 * w := by
      have := mul_le_mul_of_nonneg_left (le_max_left (u₂ / q.bi 0) ρ₁) hb.le
      rwa [eb] at this
    have g1 := hr ⟨le_max_right _ _, w1.le⟩ ⟨h12.le, le_rfl⟩ w1
    have g2 := L.mono2 ⟨w2, (lift w1).trans b2⟩ ⟨hc.le, b2⟩ (lift w1)
    exact lt_asymm g1 g2
  have gap : 1 / (q.bi 0 * ρ₁) - 1 / (q.bi 0 * ρ₂) ≤ 1 / u₁ - 1 / u₂ :=
    sub_le_sub (one_div_le_one_div_of_le L.pos k1) (one_div_le_one_div_of_le (mul_pos hb (h1.trans h12)) k2)
  have hdp : 0 ≤ P' / (R * T / q.bi 0) - P / (R * T / q.bi 0) := sub_nonneg.2 hle
  have d2 := (mul_le_mul_of_nonneg_left gap hdp).trans d
  have fug : ∀ {a c : ℝ}, 0 < a → q.bi 0 * a < 1 → 0 < c → pressure R T q (fun _ => 1) a = c →
      lnPhi R T q (fun _ => 1) c a 0 = redH t (q.bi 0 * a) - 1 - Real.log (c * q.bi 0 / (R * T)) := fun {a c} h1 h2 h3 h4 => by
    have := pure_lnPhi hRT hb ha hk a h1 h2 (by rw [h4]; exact h3)
    rwa [h4] at this
  rw [fug px ((lift (pxy.trans pyz)).trans bz) p0 ex, fug (px.trans (pxy.trans pyz)) bz p0 ez,
    fug px' ((lift (pxy'.trans pyz')).trans bz') p0' ex', fug (px'.trans (pxy'.trans pyz')) bz' p0' ez']
  have e1 : (P' / (R * T / q.bi 0) - P / (R * T / q.bi 0)) * (1 / (q.bi 0 * ρ₁) - 1 / (q.bi 0 * ρ₂)) * (R * T) =
      (P' - P) * (1 / ρ₁ - 1 / ρ₂) := by
    generalize R * T = w at hRT
    have := hRT.ne'
    have := (h1.trans h12).ne'
    field_simp
  rw [← e1, mul_comm (R * T)]
  refine mul_le_mul_of_nonneg_right ?_ hRT.le
  linarith

theorem saturated_three (s : ℝ × ℝ) (hs : Saturated R T q s) : ∃ y, Three R T q (pressure R T q (fun _ => 1) s.1) s.1 y s.2 := by
  have hw : 0 < R * T / q.bi 0 := div_pos hRT hb
  have hcr : critT * (q.bi 0 * (R * T)) < q.ai 0 * q.alpha 0 := by
    by_contra hc
    exact c136_none hRT hb ha hk (not_lt.1 hc) s hs
  obtain ⟨h1, h2, h3, h4, h5, h6⟩ := (saturated_reduced hRT hb ha hk s).1 hs
  obtain ⟨u₁, u₂, L⟩ := loop_exists (pureT R T q) ((lt_div_iff₀ (mul_pos hb hRT)).2 hcr)
  obtain ⟨o1, o2⟩ := L.outer h1 h2 h3 h5 h6
  have a1 := L.mono1 ⟨h1.le, o1.le⟩ ⟨L.pos.le, le_rfl⟩ o1
  have a2 := L.mono2 ⟨le_rfl, L.lt_one⟩ ⟨o2.le, h3⟩ o2
  rw [← h5] at a2
  obtain ⟨w, ⟨w1, w2⟩, e⟩ := intermediate_value_Icc' L.lt.le (redP_cont (t := pureT R T q) L.pos.le L.lt_one) ⟨a2.le, a1.le⟩
  have eb : q.bi 0 * (w / q.bi 0) = w := mul_div_cancel₀ w hb.ne'
  refine ⟨w / q.bi 0, hs.2.2.2.1, hs.1, ?_, ?_, hs.2.2.1, rfl, ?_, hs.2.2.2.2.1.symm⟩
  · rw [lt_div_iff₀ hb, mul_comm]; exact lt_of_lt_of_le o1 w1
  · rw [div_lt_iff₀ hb, mul_comm s.2]; exact lt_of_le_of_lt w2 o2
  · rw [pure_pressure hRT hb ha hk, pure_pressure hRT hb ha hk, eb, e]

/-- **C136** (accuracy of the search): with a spline that reproduces the isotherm, the saturation pressure that is returned differs from the true one by less than
the root of the tolerance over the width of any range of volumes in which the pressure rises with the volume. -/
theorem c136_accuracy (E : Saturation.Ext ℝ) (hE : ScipyOk E) (tol pconv : ℝ) (xi vs qs : List ℝ) (p ρl ρv : ℝ) (hc : 0 < pconv)
    (hroots : ∀ r ∈ (E.scipy vs (shifted qs p)).roots, q.bi 0 < r ∧ pressure R T q (fun _ => 1) (1 / r) = p)
    (hint : ∀ a b, (E.scipy vs (shifted qs p)).integral a b = ∫ v in a..b, (pressure R T q (fun _ => 1) (1 / v) - p))
    (h3 : 3 ≤ (E.scipy vs (shifted qs p)).roots.length)
    (h : Saturation.saturation E tol pconv xi (.ok (vs, qs.map some)) = .ok (some (p, ρl, ρv)))
    (s : ℝ × ℝ) (hs : Saturated R T q s) (ρ₁ ρ₂ : ℝ) (h1 : 0 < ρ₁) (h12 : ρ₁ < ρ₂) (h2 : ρ₂ < 1 / q.bi 0)
    (hanti : StrictAntiOn (pressure R T q (fun _ => 1)) (Icc ρ₁ ρ₂)) :
    |p - pressure R T q (fun _ => 1) s.1| * (1 / ρ₁ - 1 / ρ₂) < √tol := by
  have hp : 0 < p := lt_of_lt_of_le hc (c92_range E hE tol pconv xi vs _ p ρl ρv h).1
  have hfug := c92_fugacity E hE tol pconv xi vs qs p ρl ρv R T q hRT hb ha hk hc hroots hint h3 h
  have hthree : ∃ y, Three R T q p ρv y ρl := by
    obtain ⟨qs', hq, ⟨r0, r1, r2, rest, hr, _, rfl, rfl⟩ | ⟨r0, r1, v, vl, pl, hr, _⟩⟩ := c92_equal_area E tol pconv xi vs _ p ρl ρv h
    · have : qs' = qs := (List.map_injective_iff.mpr (Option.some_injective ℝ) hq).symm
      subst this
      obtain ⟨s1, s2⟩ := hE.roots_sorted vs (shifted qs' p)
      rw [hr] at s1 hroots
      have h01 : r0 < r1 := (List.pairwise_cons.mp s1).1 r1 (by simp)
      have h12 : r1 < r2 := (List.pairwise_cons.mp (List.pairwise_cons.mp s1).2).1 r2 (by simp)
      obtain ⟨b0, e0⟩ := hroots r0 (by simp)
      obtain ⟨b1, e1⟩ := hroots r1 (by simp)
      obtain ⟨b2, e2⟩ := hroots r2 (by simp)
      have p0 := hb.trans b0
      have p1 := hb.trans b1
      have p2 := hb.trans b2
      exact ⟨1 / r1, hp, by positivity, one_div_lt_one_div_of_lt p1 h12, one_div_lt_one_div_of_lt p0 h01,
        one_div_lt_one_div_of_lt hb b0, e2, e1, e0⟩
    · have : qs' = qs := (List.map_injective_iff.mpr (Option.some_injective ℝ) hq).symm
      subst this
      rw [hr] at h3
      simp at h3
  obtain ⟨y, hy⟩ := hthree
  obtain ⟨w, hw⟩ := saturated_three hRT hb ha hk s hs
  have hzero : lnPhi R T q (fun _ => 1) (pressure R T q (fun _ => 1) s.1) s.2 0 -
      lnPhi R T q (fun _ => 1) (pressure R T q (fun _ => 1) s.1) s.1 0 = 0 := by
    have := hs.2.2.2.2.2
    rw [← hs.2.2.2.2.1] at this
    unfold phi at this
    rw [Real.exp_eq_exp] at this
    linarith
  rw [lt_div_iff₀ hRT] at hfug
  rcases le_total p (pressure R T q (fun _ => 1) s.1) with hle | hle
  · have k := c136_falls hRT hb ha hk p ρv y ρl _ s.1 w s.2 ρ₁ ρ₂ hy hw hle h1 h12 h2 hanti
    rw [hzero, sub_zero] at k
    rw [abs_of_nonpos (by linarith)]
    have := le_abs_self (lnPhi R T q (fun _ => 1) p ρl 0 - lnPhi R T q (fun _ => 1) p ρv 0)
    have := mul_le_mul_of_nonneg_left this hRT.le
    linarith
  · have k := c136_falls hRT hb ha hk _ s.1 w s.2 p ρv y ρl ρ₁ ρ₂ hw hy hle h1 h12 h2 hanti
    rw [hzero, zero_sub] at k
    rw [abs_of_nonneg (by linarith)]
    have := neg_le_abs (lnPhi R T q (fun _ => 1) p ρl 0 - lnPhi R T q (fun _ => 1) p ρv 0)
    have := mul_le_mul_of_nonneg_left this hRT.le
    linarith

omit hRT hb ha hk in
theorem list_three {l : List ℝ} {a b c : ℝ} (hl : l.Pairwise (· < ·)) (hm : ∀ r, r ∈ l ↔ r = a ∨ r = b ∨ r = c)
    (hab : a < b) (hbc : b < c) : l = [a, b, c] := by
  have h2 : [a, b, c].Pairwise (· < ·) := by simp [hab, hbc, hab.trans hbc]
  refine List.Perm.eq_of_pairwise' (r := (· < ·)) hl h2 ?_
  rw [List.perm_ext_iff_of_nodup (hl.imp fun h => h.ne) (h2.imp fun h => h.ne)]
  intro r; rw [hm]; simp

/-- There are no more than three densities with the same pressure. -/
theorem three_all (P x y z w : ℝ) (h : Three R T q P x y z) (hw : 0 < w) (hw1 : w < 1 / q.bi 0)
    (he : pressure R T q (fun _ => 1) w = P) : w = x ∨ w = y ∨ w = z := by
  have hc : 0 < R * T / q.bi 0 := div_pos hRT hb
  obtain ⟨p0, px, pxy, pyz, pz, ex, ey, ez⟩ := h
  have lift : ∀ {a c : ℝ}, a < c → q.bi 0 * a < q.bi 0 * c := fun h => mul_lt_mul_of_pos_left h hb
  have one : ∀ {a : ℝ}, a < 1 / q.bi 0 → q.bi 0 * a < 1 := fun h => by rw [mul_comm]; exact (lt_div_iff₀ hb).1 h
  have hp := pure_pressure hRT hb ha hk
  set t := pureT R T q with ht
  have red : ∀ {a c : ℝ}, pressure R T q (fun _ => 1) a = pressure R T q (fun _ => 1) c →
      reducedP t (q.bi 0 * a) = reducedP t (q.bi 0 * c) := fun {a c} h => by
    rw [hp, hp] at h; exact mul_left_cancel₀ hc.ne' h
  have hcr : critT < t := by
    by_contra hcc
    rw [not_lt] at hcc
    have := reducedP_strictMono t hcc ⟨(mul_pos hb px).le, (lift (pxy.trans pyz)).trans (one pz)⟩
      ⟨(mul_pos hb (px.trans pxy)).le, (lift pyz).trans (one pz)⟩ (lift pxy)
    exact absurd (red (ex.trans ey.symm)) this.ne
  obtain ⟨u₁, u₂, L⟩ := loop_exists t hcr
  -- the two outer ones of any three are on the outer branches
  have outer : ∀ {a b c : ℝ}, 0 < a → a < b → b < c → c < 1 / q.bi 0 → pressure R T q (fun _ => 1) a = P →
      pressure R T q (fun _ => 1) b = P → pressure R T q (fun _ => 1) c = P → q.bi 0 * a ≤ u₁ ∧ u₂ ≤ q.bi 0 * c :=
    fun h0 h1 h2 h3 e1 e2 e3 => L.three (mul_pos hb h0) (lift h1) (lift h2) (one h3) (red (e1.trans e2.symm)) (red (e2.trans e3.symm))
  have no : ∀ {a b c d : ℝ}, 0 < a → a < b → b < c → c < d → d < 1 / q.bi 0 → pressure R T q (fun _ => 1) a = P →
      pressure R T q (fun _ => 1) b = P → pressure R T q (fun _ => 1) c = P → pressure R T q (fun _ => 1) d = P → False := by
    intro a b c d h0 h1 h2 h3 h4 e1 e2 e3 e4
    obtain ⟨_, k1⟩ := outer h0 h1 h2 (h3.trans h4) e1 e2 e3
    exact absurd (red (e3.trans e4.symm)) (L.mono2 ⟨k1, (lift h3).trans (one h4)⟩ ⟨k1.trans (lift h3).le, one h4⟩ (lift h3)).ne
  rcases lt_trichotomy w x with h | h | h
  · exact (no hw h pxy pyz pz he ex ey ez).elim
  · exact Or.inl h
  rcases lt_trichotomy w y with h' | h' | h'
  · exact (no px h h' pyz pz ex he ey ez).elim
  · exact Or.inr (Or.inl h')
  rcases lt_trichotomy w z with h'' | h'' | h''
  · exact (no px pxy h' h'' pz ex ey he ez).elim
  · exact Or.inr (Or.inr h'')
  · exact (no px pxy pyz h'' hw1 ex ey ez he).elim

/-- A spline that reproduces the isotherm in a range of pressures: its roots are the volumes with that pressure, and its integrals the areas. -/
def Reproduces (R T : ℝ) (q : Par 1) (E : Saturation.Ext ℝ) (vs qs : List ℝ) (lo hi : ℝ) : Prop :=
  ∀ p ∈ Icc lo hi, (E.scipy vs (shifted qs p)).roots.Pairwise (· < ·) ∧
    (∀ r, r ∈ (E.scipy vs (shifted qs p)).roots ↔ q.bi 0 < r ∧ pressure R T q (fun _ => 1) (1 / r) = p) ∧
    ∀ a b, (E.scipy vs (shifted qs p)).integral a b = ∫ v in a..b, (pressure R T q (fun _ => 1) (1 / v) - p)

theorem objective_exact (E : Saturation.Ext ℝ) (vs qs : List ℝ) (lo hi P x y z : ℝ) (hP : P ∈ Icc lo hi)
    (hrep : Reproduces R T q E vs qs lo hi) (h : Three R T q P x y z) :
    (E.scipy vs (shifted qs P)).roots = [1 / z, 1 / y, 1 / x] ∧
    Saturation.objective E.scipy vs qs P =
      .ok (some ((R * T * (lnPhi R T q (fun _ => 1) P z 0 - lnPhi R T q (fun _ => 1) P x 0)) ^ 2)) := by
  obtain ⟨r1, r2, r3⟩ := hrep P hP
  have hall := three_all hRT hb ha hk P x y z
  have h' := h
  obtain ⟨p0, px, pxy, pyz, pz, ex, ey, ez⟩ := h'
  have py := px.trans pxy
  have pz0 := py.trans pyz
  have inv : ∀ {a : ℝ}, a < 1 / q.bi 0 → 0 < a → q.bi 0 < 1 / a := fun {a} h1 h2 => by
    rw [lt_div_iff₀ h2, mul_comm]; exact (lt_div_iff₀ hb).1 h1
  have hroots : (E.scipy vs (shifted qs P)).roots = [1 / z, 1 / y, 1 / x] := by
    refine list_three r1 ?_ (one_div_lt_one_div_of_lt py pyz) (one_div_lt_one_div_of_lt px pxy)
    intro r
    rw [r2]
    constructor
    · rintro ⟨g1, g2⟩
      have g0 := hb.trans g1
      have := hall (1 / r) h (by positivity) (one_div_lt_one_div_of_lt hb g1) g2
      rcases this with e | e | e
      · right; right; rw [← e, one_div_one_div]
      · right; left; rw [← e, one_div_one_div]
      · left; rw [← e, one_div_one_div]
    · rintro (rfl | rfl | rfl)
      · exact ⟨inv pz pz0, by rw [one_div_one_div]; exact ez⟩
      · exact ⟨inv (pyz.trans pz) py, by rw [one_div_one_div]; exact ey⟩
      · exact ⟨inv (pxy.trans (pyz.trans pz)) px, by rw [one_div_one_div]; exact ex⟩
  refine ⟨hroots, ?_⟩
  obtain ⟨f1, f2⟩ := fit_shifted E.scipy vs qs P
  have b0 := inv pz pz0
  have b1 := inv (pyz.trans pz) py
  have o1 := one_div_lt_one_div_of_lt py pyz
  have o2 := one_div_lt_one_div_of_lt px pxy
  have q0 : pressure R T q (fun _ => 1) (1 / (1 / z)) = P := by rw [one_div_one_div]; exact ez
  have q1 : pressure R T q (fun _ => 1) (1 / (1 / y)) = P := by rw [one_div_one_div]; exact ey
  have q2 : pressure R T q (fun _ => 1) (1 / (1 / x)) = P := by rw [one_div_one_div]; exact ex
  obtain ⟨i1, _⟩ := pr_area R T q _ _ P hRT hb b0 o1.le ha hk p0 q0 q1
  obtain ⟨i2, _⟩ := pr_area R T q _ _ P hRT hb b1 o2.le ha hk p0 q1 q2
  obtain ⟨_, i3⟩ := pr_area R T q _ _ P hRT hb b0 (o1.trans o2).le ha hk p0 q0 q2
  unfold shifted at f1 f2 hroots r3
  unfold Saturation.objective
  simp only [f1, f2, hroots]
  rw [r3, r3, intervalIntegral.integral_add_adjacent_intervals i1 i2, i3, one_div_one_div, one_div_one_div]

/-- **C136** (the search finds it): with a spline that reproduces the isotherm and a minimiser that finds the smallest value of the objective in its
bounds, the search returns the saturation pressure and the densities of liquid and vapour. -/
theorem c136_found (E : Saturation.Ext ℝ) (tol pconv : ℝ) (xi vs qs : List ℝ) (lo hi p : ℝ) (s : ℝ × ℝ) (hs : Saturated R T q s)
    (htol : 0 < tol) (hxi : (xi.filter (· ≠ 0)).length = 1) (hext : 2 ≤ (E.scipy vs (qs.map some)).extrema.length)
    (hbounds : Saturation.bounds pconv qs = .ok (lo, hi)) (hin : pressure R T q (fun _ => 1) s.1 ∈ Icc lo hi)
    (hthree : ∀ P ∈ Icc lo hi, ∃ x y z, Three R T q P x y z) (hrep : Reproduces R T q E vs qs lo hi)
    (hmin : E.minScalar (Saturation.objective E.scipy vs qs) lo hi = .ok p) (hp : p ∈ Icc lo hi)
    (hbest : ∀ y ∈ Icc lo hi, ∀ m m', Saturation.objective E.scipy vs qs p = .ok (some m) →
      Saturation.objective E.scipy vs qs y = .ok (some m') → m ≤ m')
    (hcheck : E.check (some p) = .ok ()) :
    Saturation.saturation E tol pconv xi (.ok (vs, qs.map some)) = .ok (some (pressure R T q (fun _ => 1) s.1, s.2, s.1)) := by
  obtain ⟨x, y, z, h3⟩ := hthree p hp
  obtain ⟨w, hw⟩ := saturated_three hRT hb ha hk s hs
  obtain ⟨hr, ho⟩ := objective_exact hRT hb ha hk E vs qs lo hi p x y z hp hrep h3
  obtain ⟨-, ho'⟩ := objective_exact hRT hb ha hk E vs qs lo hi _ s.1 w s.2 hin hrep hw
  have hzero : lnPhi R T q (fun _ => 1) (pressure R T q (fun _ => 1) s.1) s.2 0 -
      lnPhi R T q (fun _ => 1) (pressure R T q (fun _ => 1) s.1) s.1 0 = 0 := by
    have := hs.2.2.2.2.2
    rw [← hs.2.2.2.2.1] at this
    unfold phi at this
    rw [Real.exp_eq_exp] at this
    linarith
  have hle := hbest _ hin _ _ ho ho'
  rw [hzero, mul_zero] at hle
  have hz : lnPhi R T q (fun _ => 1) p z 0 - lnPhi R T q (fun _ => 1) p x 0 = 0 := by
    have h0 : (R * T * (lnPhi R T q (fun _ => 1) p z 0 - lnPhi R T q (fun _ => 1) p x 0)) ^ 2 = 0 :=
      le_antisymm (by simpa using hle) (sq_nonneg _)
    exact (mul_eq_zero.1 (pow_eq_zero_iff two_ne_zero |>.1 h0)).resolve_left hRT.ne'
  -- so these densities are in equilibrium
  have h3' := h3
  obtain ⟨p0, px, pxy, pyz, pz, ex, ey, ez⟩ := h3'
  have hsat : Saturated R T q (x, z) := by
    refine ⟨px, pxy.trans pyz, pz, by rw [ex]; exact p0, by rw [ex, ez], ?_⟩
    simp only [ex, ez]
    unfold phi
    rw [Real.exp_eq_exp]
    linarith
  have hcr : critT * (q.bi 0 * (R * T)) < q.ai 0 * q.alpha 0 := by
    by_contra hc
    exact c136_none hRT hb ha hk (not_lt.1 hc) s hs
  obtain ⟨s', -, hu⟩ := c136_saturation hRT hb ha hk hcr
  have e1 : (x, z) = s := (hu _ hsat).trans (hu _ hs).symm
  have e2 : p = pressure R T q (fun _ => 1) s.1 := by rw [← e1]; exact ex.symm
  -- the path through the code
  have hfil : (qs.map some).filterMap id = qs := by
    rw [List.filterMap_map]; simp
  have hfit : ¬ ((Saturation.fit E.scipy vs (qs.map some)).extrema.length < 2 ∨ (Saturation.fit E.scipy vs (qs.map some)).roots = none) := by
    rw [not_or]
    constructor
    · simp only [Saturation.fit, List.length_take]; omega
    · have : (qs.map some).any Option.isNone = false := by simp
      simp only [Saturation.fit, this]
      simp
  obtain ⟨f1, -⟩ := fit_shifted E.scipy vs qs p
  rw [hr] at f1
  unfold shifted at f1
  have hacc : Saturation.accept E tol vs qs p = .ok (some (p, z, x)) := by
    unfold Saturation.accept
    rw [ho, hz, mul_zero]
    simp [f1, htol]
  have hpure : Saturation.checkPure xi = .ok () := by
    unfold Saturation.checkPure; rw [if_pos hxi]
  unfold Saturation.saturation Saturation.search
  rw [hpure]
  simp only [if_neg hfit, hfil, hbounds, hmin, hacc, Option.map_some, hcheck]
  rw [← e2, ← e1]

theorem three_between (s : ℝ × ℝ) (hs : Saturated R T q s) : ∃ lo hi, 0 < lo ∧ lo < pressure R T q (fun _ => 1) s.1 ∧
    pressure R T q (fun _ => 1) s.1 < hi ∧ ∀ P ∈ Icc lo hi, ∃ x y z, Three R T q P x y z := by
  have hw : 0 < R * T / q.bi 0 := div_pos hRT hb
  have hcr : critT * (q.bi 0 * (R * T)) < q.ai 0 * q.alpha 0 := by
    by_contra hc
    exact c136_none hRT hb ha hk (not_lt.1 hc) s hs
  obtain ⟨h1, h2, h3, h4, h5, h6⟩ := (saturated_reduced hRT hb ha hk s).1 hs
  obtain ⟨u₁, u₂, L⟩ := loop_exists (pureT R T q) ((lt_div_iff₀ (mul_pos hb hRT)).2 hcr)
  obtain ⟨o1, o2⟩ := L.outer h1 h2 h3 h5 h6
  have a1 := L.mono1 ⟨h1.le, o1.le⟩ ⟨L.pos.le, le_rfl⟩ o1
  have a2 := L.mono2 ⟨le_rfl, L.lt_one⟩ ⟨o2.le, h3⟩ o2
  rw [← h5] at a2
  have hp := pure_pressure hRT hb ha hk
  obtain ⟨lo, l1, l2⟩ := exists_between (max_lt h4 a2)
  obtain ⟨hi, m1, m2⟩ := exists_between a1
  obtain ⟨w, hw2, hw1, hwp⟩ : ∃ w, u₂ < w ∧ w < 1 ∧ reducedP (pureT R T q) u₁ < reducedP (pureT R T q) w := by
    obtain ⟨w, a, b, c⟩ := pr_unbounded 1 1 (pureT R T q) 1 (reducedP (pureT R T q) u₁) u₂ (by norm_num) one_pos (L.pos.trans L.lt).le
      (by simpa using L.lt_one)
    rw [reducedP_eq 1 1 (pureT R T q) 1 w (by norm_num) one_pos] at c
    exact ⟨w, a, by simpa using b, by simpa using c⟩
  refine ⟨R * T / q.bi 0 * lo, R * T / q.bi 0 * hi, mul_pos hw (lt_of_le_of_lt (le_max_left _ _) l1), ?_, ?_, ?_⟩
  · rw [hp]; exact mul_lt_mul_of_pos_left l2 hw
  · rw [hp]; exact mul_lt_mul_of_pos_left m1 hw
  · intro P hP
    set P' := P / (R * T / q.bi 0) with hP'
    have e : R * T / q.bi 0 * P' = P := mul_div_cancel₀ P hw.ne'
    have b1 : lo ≤ P' := (le_div_iff₀ hw).2 (by rw [mul_comm]; exact hP.1)
    have b2 : P' ≤ hi := (div_le_iff₀ hw).2 (by rw [mul_comm]; exact hP.2)
    have c1 : 0 < P' := lt_of_lt_of_le (lt_of_le_of_lt (le_max_left _ _) l1) b1
    have c2 : reducedP (pureT R T q) u₂ < P' := lt_of_lt_of_le (lt_of_le_of_lt (le_max_right _ _) l1) b1
    have c3 : P' < reducedP (pureT R T q) u₁ := lt_of_le_of_lt b2 m2
    have hz : reducedP (pureT R T q) 0 = 0 := by simp [reducedP]
    have h11 := L.lt.trans L.lt_one
    obtain ⟨x, ⟨x1, x2⟩, ex⟩ := intermediate_value_Icc L.pos.le (redP_cont (t := pureT R T q) le_rfl h11) ⟨by rw [hz]; exact c1.le, c3.le⟩
    obtain ⟨y, ⟨y1, y2⟩, ey⟩ := intermediate_value_Icc' L.lt.le (redP_cont (t := pureT R T q) L.pos.le L.lt_one) ⟨c2.le, c3.le⟩
    obtain ⟨z, ⟨z1, z2⟩, ez⟩ := intermediate_value_Icc hw2.le (redP_cont (t := pureT R T q) (L.pos.trans L.lt).le hw1)
      ⟨c2.le, (c3.trans hwp).le⟩
    have x0 : 0 < x := lt_of_le_of_ne x1 (by rintro rfl; rw [hz] at ex; exact c1.ne ex)
    have xu : x < u₁ := lt_of_le_of_ne x2 (by rintro rfl; exact c3.ne' ex)
    have yu : y < u₂ := lt_of_le_of_ne y2 (by rintro rfl; exact c2.ne ey)
    have z11 : z < 1 := lt_of_le_of_lt z2 hw1
    have eb : ∀ w, q.bi 0 * (w / q.bi 0) = w := fun w => mul_div_cancel₀ w hb.ne'
    refine ⟨x / q.bi 0, y / q.bi 0, z / q.bi 0, by rw [← e]; exact mul_pos hw c1, by positivity,
      div_lt_div_of_pos_right (lt_of_lt_of_le xu y1) hb, div_lt_div_of_pos_right (lt_of_lt_of_le yu z1) hb,
      div_lt_div_of_pos_right z11 hb, ?_, ?_, ?_⟩
    · rw [hp, eb, ex, e]
    · rw [hp, eb, ey, e]
    · rw [hp, eb, ez, e]

open Classical in
/-- The volumes with a pressure, if there are three. -/
noncomputable def exactRoots (R T : ℝ) (q : Par 1) (P : ℝ) : List ℝ :=
  if h : ∃ c : ℝ × ℝ × ℝ, Three R T q P c.1 c.2.1 c.2.2 then [1 / h.choose.2.2, 1 / h.choose.2.1, 1 / h.choose.1] else []

omit hRT hb ha hk in
theorem pairwise_three {a b c : ℝ} (h1 : a < b) (h2 : b < c) : [a, b, c].Pairwise (· < ·) := by simp [h1, h2, h1.trans h2]

open Classical in
/-- Exact numerical procedures for one substance: the shift of the pressures is read from the first entry `q₀` of the curve. -/
noncomputable def exactExt (R T : ℝ) (q : Par 1) (q₀ Ps : ℝ) : Saturation.Ext ℝ where
  scipy := fun _ ps =>
    let P := match ps with
      | some a :: _ => q₀ - a
      | _ => 0
    { roots := exactRoots R T q P
      extrema := [1, 2]
      integral := fun a b => ∫ v in a..b, (pressure R T q (fun _ => 1) (1 / v) - P) }
  minScalar := fun _ lo hi => if lo ≤ Ps ∧ Ps ≤ hi then .ok Ps else .error .valueError
  density := fun _ _ _ => .error .valueError
  check := fun _ => .ok ()
  eps := 0

omit hb ha hk hRT in
theorem exactExt_ok (q₀ Ps : ℝ) : ScipyOk (exactExt R T q q₀ Ps) where
  min_bounds := by
    intro f lo hi x h
    simp only [exactExt] at h
    split_ifs at h with hc
    cases h; exact hc
  density_bounds := by intro p v r ρ h; cases h
  roots_sorted := by
    intro vs ps
    simp only [exactExt, exactRoots]
    split_ifs with h
    · obtain ⟨p0, px, pxy, pyz, pz, -⟩ := h.choose_spec
      have py := px.trans pxy
      have pz0 := py.trans pyz
      have k1 := one_div_lt_one_div_of_lt px pxy
      have k2 := one_div_lt_one_div_of_lt py pyz
      constructor
      · exact pairwise_three k2 k1
      · intro r hr
        simp only [List.mem_cons, List.not_mem_nil, or_false] at hr
        rcases hr with rfl | rfl | rfl <;> positivity
    · simp

/-- The hypotheses of `c136_found` can be met for every saturation state. -/
theorem c136_found_exists (s : ℝ × ℝ) (hs : Saturated R T q s) : ∃ (E : Saturation.Ext ℝ) (pconv : ℝ) (vs qs : List ℝ), ScipyOk E ∧
    0 < pconv ∧ Saturation.saturation E 1 pconv [1] (.ok (vs, qs.map some)) =
      .ok (some (pressure R T q (fun _ => 1) s.1, s.2, s.1)) := by
  obtain ⟨lo, hi, h0, h1, h2, h3⟩ := three_between hRT hb ha hk s hs
  have hlh : lo < hi := h1.trans h2
  refine ⟨exactExt R T q (lo + 1) (pressure R T q (fun _ => 1) s.1), lo, [], [lo + 1, lo, hi], exactExt_ok _ _, h0, ?_⟩
  have hsh : ∀ P, lo + 1 - (lo + 1 - P) = P := fun P => by ring
  have hrep : Reproduces R T q (exactExt R T q (lo + 1) (pressure R T q (fun _ => 1) s.1)) [] [lo + 1, lo, hi] lo hi := by
    intro P hP
    refine ⟨((exactExt_ok _ _).roots_sorted _ _).1, ?_, ?_⟩
    · intro r
      obtain ⟨x, y, z, h⟩ := h3 P hP
      have hex : ∃ c : ℝ × ℝ × ℝ, Three R T q P c.1 c.2.1 c.2.2 := ⟨(x, y, z), h⟩
      simp only [exactExt, shifted, List.map_cons, hsh]
      rw [exactRoots, dif_pos hex]
      have hc := hex.choose_spec
      have hall := three_all hRT hb ha hk P _ _ _ (1 / r) hc
      generalize hex.choose = c at hc hall
      obtain ⟨p0, px, pxy, pyz, pz, ex, ey, ez⟩ := hc
      have py := px.trans pxy
      have pz0 := py.trans pyz
      have inv : ∀ {a : ℝ}, a < 1 / q.bi 0 → 0 < a → q.bi 0 < 1 / a := fun {a} h1 h2 => by
        rw [lt_div_iff₀ h2, mul_comm]; exact (lt_div_iff₀ hb).1 h1
      simp only [List.mem_cons, List.not_mem_nil, or_false]
      constructor
      · rintro (rfl | rfl | rfl)
        · exact ⟨inv pz pz0, by rw [one_div_one_div]; exact ez⟩
        · exact ⟨inv (pyz.trans pz) py, by rw [one_div_one_div]; exact ey⟩
        · exact ⟨inv (pxy.trans (pyz.trans pz)) px, by rw [one_div_one_div]; exact ex⟩
      · rintro ⟨g1, g2⟩
        have g0 := hb.trans g1
        rcases hall (by positivity) (one_div_lt_one_div_of_lt hb g1) g2 with e | e | e
        · right; right; rw [← e, one_div_one_div]
        · right; left; rw [← e, one_div_one_div]
        · left; rw [← e, one_div_one_div]
    · intro a b
      simp only [exactExt, shifted, List.map_cons, hsh]
  have hin : pressure R T q (fun _ => 1) s.1 ∈ Icc lo hi := ⟨h1.le, h2.le⟩
  obtain ⟨w, hw⟩ := saturated_three hRT hb ha hk s hs
  have hob : Saturation.objective (exactExt R T q (lo + 1) (pressure R T q (fun _ => 1) s.1)).scipy [] [lo + 1, lo, hi]
      (pressure R T q (fun _ => 1) s.1) = .ok (some 0) := by
    rw [(objective_exact hRT hb ha hk _ [] _ lo hi _ s.1 w s.2 hin hrep hw).2]
    have := hs.2.2.2.2.2
    rw [← hs.2.2.2.2.1] at this
    unfold phi at this
    rw [Real.exp_eq_exp] at this
    rw [this]
    simp
  refine c136_found hRT hb ha hk _ 1 lo [1] [] [lo + 1, lo, hi] lo hi (pressure R T q (fun _ => 1) s.1) s hs one_pos (by simp) ?_ ?_ hin h3
    hrep ?_ hin ?_ rfl
  · simp [exactExt]
  · unfold Saturation.bounds Saturation.firstRise Saturation.firstRise
    simp [Saturation.argmax, Saturation.amin, hlh, not_lt.2 (show lo ≤ lo + 1 by linarith)]
  · simp [exactExt, h1.le, h2.le]
  · intro y hy m m' e1 e2
    rw [hob] at e1
    cases e1
    obtain ⟨x', y', z', h⟩ := h3 y hy
    rw [(objective_exact hRT hb ha hk _ [] _ lo hi _ x' y' z' hy hrep h).2] at e2
    cases e2
    positivity

end Pure

/-! ## The constants of the code -/

theorem pureSubstance_pos (R κ Tc Pc T : ℝ) (hR : 0 < R) (hTc : 0 < Tc) (hPc : 0 < Pc) (hα : 1 + κ * (1 - √(T / Tc)) ≠ 0) :
    0 < (pureSubstance R κ Tc Pc T).bi 0 ∧
      0 < (pureSubstance R κ Tc Pc T).ai 0 * (pureSubstance R κ Tc Pc T).alpha 0 ∧ (pureSubstance R κ Tc Pc T).kij 0 0 = 0 := by
  simp only [pureSubstance, realFormulas]
  exact ⟨by positivity, by positivity, trivial⟩

/-- **C136** (below the critical temperature of the library, and at it): exactly one saturation state. -/
theorem c136_subcritical (R κ Tc Pc T : ℝ) (hR : 0 < R) (hTc : 0 < Tc) (hPc : 0 < Pc) (hk0 : 0 ≤ κ) (hT0 : 0 < T) (hT : T ≤ Tc) :
    ∃! s, Saturated R T (pureSubstance R κ Tc Pc T) s := by
  have hs1 : √(T / Tc) ≤ 1 := Real.sqrt_le_one.2 ((div_le_one hTc).2 hT)
  have hα : (1 + κ * (1 - √(T / Tc))) ≠ 0 := by
    have : 0 ≤ κ * (1 - √(T / Tc)) := mul_nonneg hk0 (by linarith)
    linarith
  obtain ⟨hb, ha, hk⟩ := pureSubstance_pos R κ Tc Pc T hR hTc hPc hα
  refine c136_saturation (mul_pos hR hT0) hb ha hk ?_
  obtain ⟨e1, e2⟩ := pure_mix (pureSubstance R κ Tc Pc T) ha hk
  rw [← e1, ← e2, ← not_le]
  intro hle
  obtain ⟨P, r1, r2, r3, h0, h1, h2, h3, h4, h5⟩ := c135_subcritical R κ Tc Pc T hR hTc hPc hk0 hT0 hT
  have hb' : 0 < bmix (pureSubstance R κ Tc Pc T) (fun _ => 1) := by rw [e1]; exact hb
  obtain ⟨ρ, -, hu⟩ := c135_one_density R T _ _ P (mul_pos hR hT0) hb' hle h0
  have k1 := hu r1 ⟨h1, h2.trans (h3.trans h4), h5 _ (Or.inl rfl)⟩
  have k2 := hu r2 ⟨h1.trans h2, h3.trans h4, h5 _ (Or.inr (Or.inl rfl))⟩
  rw [k1, k2] at h2
  exact lt_irrefl _ h2

/-- **C136** (above it): none, for `κ` up to 0.999 and from `7 · 10⁻⁸` above. -/
theorem c136_supercritical_partial (R κ Tc Pc T : ℝ) (hR : 0 < R) (hTc : 0 < Tc) (hPc : 0 < Pc) (hk0 : 0 ≤ κ)
    (hk1 : κ ≤ 999 / 1000) (hT : (1 + 7 / 10 ^ 8) * Tc ≤ T) (hα : 1 + κ * (1 - √(T / Tc)) ≠ 0) :
    ¬ ∃ s, Saturated R T (pureSubstance R κ Tc Pc T) s := by
  rintro ⟨s, hs⟩
  have hT0 : 0 < T := lt_of_lt_of_le (by positivity) hT
  obtain ⟨hb, ha, hk⟩ := pureSubstance_pos R κ Tc Pc T hR hTc hPc hα
  obtain ⟨e1, e2⟩ := pure_mix (pureSubstance R κ Tc Pc T) ha hk
  obtain ⟨ρ, -, hu⟩ := c135_supercritical_partial R κ Tc Pc T _ hR hTc hPc hk0 hk1 hT hs.2.2.2.1
  rw [e1] at hu
  have k1 := hu s.1 ⟨hs.1, hs.2.1.trans hs.2.2.1, rfl⟩
  have k2 := hu s.2 ⟨hs.1.trans hs.2.1, hs.2.2.1, hs.2.2.2.2.1.symm⟩
  exact absurd (k1.trans k2.symm) hs.2.1.ne

/-- **C136, violated** (hot fluids): with `κ > 1` a saturation state appears again at high temperature. -/
theorem c136_violated_hot (R κ Tc Pc T : ℝ) (hR : 0 < R) (hTc : 0 < Tc) (hPc : 0 < Pc) (hk1 : 1 < κ)
    (hT : ((κ + 1) / (κ - 1)) ^ 2 ≤ T / Tc) : Tc < T ∧ ∃! s, Saturated R T (pureSubstance R κ Tc Pc T) s := by
  have hk1' : 0 < κ - 1 := by linarith
  have hq : 1 < (κ + 1) / (κ - 1) := by rw [lt_div_iff₀ hk1']; linarith
  have hTr1 : 1 < T / Tc := lt_of_lt_of_le (by nlinarith) hT
  have hTT : Tc < T := (one_lt_div hTc).1 hTr1
  have hT0 : 0 < T := hTc.trans hTT
  obtain ⟨hs, hs2⟩ := sqrt_ratio T Tc hTc hT0
  have hsq : (κ + 1) / (κ - 1) ≤ √(T / Tc) := by
    rw [← hs2] at hT
    exact le_of_sq_le_sq hT hs.le
  have hα : (1 + κ * (1 - √(T / Tc))) ≠ 0 := by
    rw [div_le_iff₀ hk1'] at hsq
    nlinarith
  obtain ⟨hb, ha, hk⟩ := pureSubstance_pos R κ Tc Pc T hR hTc hPc hα
  refine ⟨hTT, c136_saturation (mul_pos hR hT0) hb ha hk ?_⟩
  obtain ⟨e1, e2⟩ := pure_mix (pureSubstance R κ Tc Pc T) ha hk
  rw [← e1, ← e2, ← not_le]
  intro hle
  obtain ⟨P, r1, r2, r3, h0, h1, h2, h3, h4, h5⟩ := c135_violated_hot R κ Tc Pc T hR hTc hPc hk1 hT
  have hb' : 0 < bmix (pureSubstance R κ Tc Pc T) (fun _ => 1) := by rw [e1]; exact hb
  obtain ⟨ρ, -, hu⟩ := c135_one_density R T _ _ P (mul_pos hR hT0) hb' hle h0
  have k1 := hu r1 ⟨h1, h2.trans (h3.trans h4), h5 _ (Or.inl rfl)⟩
  have k2 := hu r2 ⟨h1.trans h2, h3.trans h4, h5 _ (Or.inr (Or.inl rfl))⟩
  rw [k1, k2] at h2
  exact lt_irrefl _ h2

/-- A substance with `κ = 1/2`, critical temperature 300 and critical pressure 5: one saturation state at half of the critical temperature. -/
example : ∃! s, Saturated 8 150 (pureSubstance 8 (1 / 2) 300 5 150) s :=
  c136_subcritical 8 (1 / 2) 300 5 150 (by norm_num) (by norm_num) (by norm_num) (by norm_num) (by norm_num) (by norm_num)

/-- The same substance at four times the critical temperature has none; one with `κ = 2` has one at nine times the critical temperature. -/
example : (¬ ∃ s, Saturated 8 1200 (pureSubstance 8 (1 / 2) 300 5 1200) s) ∧
    ∃! s, Saturated 8 2700 (pureSubstance 8 2 300 5 2700) s := by
  have h2 : √((1200 : ℝ) / 300) = 2 := by
    rw [show (1200 : ℝ) / 300 = 2 ^ 2 by norm_num]; exact Real.sqrt_sq (by norm_num)
  exact ⟨c136_supercritical_partial 8 (1 / 2) 300 5 1200 (by norm_num) (by norm_num) (by norm_num) (by norm_num) (by norm_num)
    (by norm_num) (by rw [h2]; norm_num),
    (c136_violated_hot 8 2 300 5 2700 (by norm_num) (by norm_num) (by norm_num) (by norm_num) (by norm_num)).2⟩

end Verif.Props
