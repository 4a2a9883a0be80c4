import Verif.Props.GammaSW
import Verif.Props.MergeSW
import Verif.Model.Interface
import Mathlib.Topology.Order.IntermediateValue

/-!
# C151: the effective packing fraction of the square-well fluid

The attraction of a well of range `λ` is that of hard spheres in contact at an effective packing fraction, a polynomial in
`λ` and the packing fraction (`zetaEff`).  `Amonomer` accepts packing fractions up to 0.65 and the bounds accept ranges
from one to ten.

The inequalities in two variables are shown by writing the polynomials with positive coefficients in the distances from
the four sides of a rectangle.
-/

namespace Verif.Props
open Verif Verif.Saft Verif.GammaSW Verif.SWTerms

/-! ## The polynomial -/

/-- The effective packing fraction as a polynomial in the range and the packing fraction. -/
private noncomputable def swEta (u z : ℝ) : ℝ :=
  z * (2.25855 - 1.50349 * u + 0.249434 * u ^ 2) + z ^ 2 * (-0.669270 + 1.40049 * u - 0.827739 * u ^ 2)
    + z ^ 3 * (10.1576 - 15.0427 * u + 5.30827 * u ^ 2)

/-- The polynomial divided by the packing fraction. -/
private noncomputable def swSlope (u z : ℝ) : ℝ :=
  (2.25855 - 1.50349 * u + 0.249434 * u ^ 2) + z * (-0.669270 + 1.40049 * u - 0.827739 * u ^ 2)
    + z ^ 2 * (10.1576 - 15.0427 * u + 5.30827 * u ^ 2)

private theorem zetaEff_eq (u z : ℝ) (h : 1 ≤ u) : zetaEff u z = swEta u z := by
  have : u ≠ 0 := by linarith
  simp only [zetaEff, if_pos this, cikl, cklCoef, swEta, Matrix.cons_val]
  ring

private theorem swEta_eq (u z : ℝ) : swEta u z = z * swSlope u z := by
  simp only [swEta, swSlope]; ring

/-- Packing fractions up to 0.65 and ranges up to 2.682. -/
private theorem sw_below (u z : ℝ) (hu0 : 1 ≤ u) (hu1 : u ≤ 1341/500) (hz0 : 0 ≤ z) (hz1 : z ≤ 13/20) :
    1/1000 ≤ 1 - swEta u z := by
  have key : 1 - swEta u z - 1/1000 =
      (1998000000/1553896357) * (1341/500 - u) ^ 2 * (13/20 - z) ^ 3 +
      (3996000000/1553896357) * (u - 1) * (1341/500 - u) * (13/20 - z) ^ 3 +
      (1998000000/1553896357) * (u - 1) ^ 2 * (13/20 - z) ^ 3 +
      (4688157800/1553896357) * (1341/500 - u) ^ 2 * z * (13/20 - z) ^ 2 +
      (57865110326/7769481785) * (u - 1) * (1341/500 - u) * z * (13/20 - z) ^ 2 +
      (7459350793299/1942370446250) * (u - 1) ^ 2 * z * (13/20 - z) ^ 2 +
      (3463874155/1553896357) * (1341/500 - u) ^ 2 * z ^ 2 * (13/20 - z) +
      (292089328373/38847408925) * (u - 1) * (1341/500 - u) * z ^ 2 * (13/20 - z) +
      (418186633374291/77694817850000) * (u - 1) ^ 2 * z ^ 2 * (13/20 - z) +
      (1082580465/3107792714) * (1341/500 - u) ^ 2 * z ^ 3 +
      (193268895997/38847408925) * (u - 1) * (1341/500 - u) * z ^ 3 +
      (238151053423/155389635700000) * (u - 1) ^ 2 * z ^ 3 := by
    simp only [swEta]
    ring
  have ha : 0 ≤ u - 1 := by linarith
  have hb : 0 ≤ 1341/500 - u := by linarith
  have hd : 0 ≤ 13/20 - z := by linarith
  refine sub_nonneg.1 ?_
  rw [key]
  clear key
  generalize u - 1 = a at *
  generalize 1341/500 - u = b at *
  generalize 13/20 - z = d at *
  positivity

/-- Ranges up to 1.599. -/
private theorem sw_positive (u z : ℝ) (hu0 : 1 ≤ u) (hu1 : u ≤ 1599/1000) (hz0 : 0 ≤ z) (hz1 : z ≤ 13/20) :
    1/10000 ≤ swSlope u z := by
  have key : swSlope u z - 1/10000 =
      (401757600/60637369) * (1599/1000 - u) ^ 2 * (13/20 - z) ^ 2 +
      (2814038844/303186845) * (u - 1) * (1599/1000 - u) * (13/20 - z) ^ 2 +
      (246061295317/75796711250) * (u - 1) ^ 2 * (13/20 - z) ^ 2 +
      (778420260/60637369) * (1599/1000 - u) ^ 2 * z * (13/20 - z) +
      (25892845662/1515934225) * (u - 1) * (1599/1000 - u) * z * (13/20 - z) +
      (12583648517153/3031868450000) * (u - 1) ^ 2 * z * (13/20 - z) +
      (448178390/60637369) * (1599/1000 - u) ^ 2 * z ^ 2 +
      (4196822868/1515934225) * (u - 1) * (1599/1000 - u) * z ^ 2 +
      (15458787109/6063736900000) * (u - 1) ^ 2 * z ^ 2 := by
    simp only [swSlope]
    ring
  have ha : 0 ≤ u - 1 := by linarith
  have hb : 0 ≤ 1599/1000 - u := by linarith
  have hd : 0 ≤ 13/20 - z := by linarith
  refine sub_nonneg.1 ?_
  rw [key]
  clear key
  generalize u - 1 = a at *
  generalize 1599/1000 - u = b at *
  generalize 13/20 - z = d at *
  positivity

/-- Ranges from 1.7 to 1.8. -/
private theorem sw_negative (u z : ℝ) (hu0 : 17/10 ≤ u) (hu1 : u ≤ 9/5) (hz0 : 3/5 ≤ z) (hz1 : z ≤ 13/20) :
    1/1000 ≤ -swSlope u z := by
  have key : -swSlope u z - 1/1000 =
      (5276329/12500) * (9/5 - u) ^ 2 * (13/20 - z) ^ 2 +
      (7910133/3125) * (u - 17/10) * (9/5 - u) * (13/20 - z) ^ 2 +
      (4511341/3125) * (u - 17/10) ^ 2 * (13/20 - z) ^ 2 +
      (119161667/50000) * (9/5 - u) ^ 2 * (z - 3/5) * (13/20 - z) +
      (24068721/3125) * (u - 17/10) * (9/5 - u) * (z - 3/5) * (13/20 - z) +
      (48461243/12500) * (u - 17/10) ^ 2 * (z - 3/5) * (13/20 - z) +
      (196853599/100000) * (9/5 - u) ^ 2 * (z - 3/5) ^ 2 +
      (64443899/12500) * (u - 17/10) * (9/5 - u) * (z - 3/5) ^ 2 +
      (60132921/25000) * (u - 17/10) ^ 2 * (z - 3/5) ^ 2 := by
    simp only [swSlope]
    ring
  have ha : 0 ≤ u - 17/10 := by linarith
  have hb : 0 ≤ 9/5 - u := by linarith
  have hc : 0 ≤ z - 3/5 := by linarith
  have hd : 0 ≤ 13/20 - z := by linarith
  refine sub_nonneg.1 ?_
  rw [key]
  clear key
  generalize u - 17/10 = a at *
  generalize 9/5 - u = b at *
  generalize z - 3/5 = c at *
  generalize 13/20 - z = d at *
  positivity

private theorem zetaEff_cont (u : ℝ) : Continuous (zetaEff u) := by
  unfold zetaEff
  split_ifs <;> fun_prop

private theorem zetaEff_zero (u : ℝ) : zetaEff u 0 = 0 := by simp [zetaEff]

/-- The contact value at an effective packing fraction below one. -/
private theorem contact_ge {η : ℝ} (h0 : 0 ≤ η) (h1 : η < 1) : 1 ≤ (1 - η / 2) / (1 - η) ^ 3 := by
  rw [le_div_iff₀ (pow_pos (by linarith) 3), one_mul]
  nlinarith [mul_nonneg h0 (by linarith : 0 ≤ 1 - η), mul_nonneg h0 h0]

/-! ## What holds -/

/-- **C151** (ranges up to 2.682): below one at every packing fraction that `Amonomer` accepts. -/
theorem c151_below_partial (lam z : ℝ) (h1 : 1 ≤ lam) (hl : lam ≤ 2.682) (hz : 0 ≤ z) (hz1 : z ≤ 0.65) : zetaEff lam z < 1 := by
  have := sw_below lam z h1 (by norm_num at hl ⊢; exact hl) hz (by norm_num at hz1 ⊢; exact hz1)
  rw [zetaEff_eq lam z h1]
  linarith

/-- **C151** (ranges up to 1.599): positive at every packing fraction that `Amonomer` accepts. -/
theorem c151_positive_partial (lam z : ℝ) (h1 : 1 ≤ lam) (hl : lam ≤ 1.599) (hz : 0 < z) (hz1 : z ≤ 0.65) :
    0 < zetaEff lam z := by
  have := sw_positive lam z h1 (by norm_num at hl ⊢; exact hl) hz.le (by norm_num at hz1 ⊢; exact hz1)
  rw [zetaEff_eq lam z h1, swEta_eq]
  exact mul_pos hz (by linarith)

/-- **C151** (contact value): positive where the effective packing fraction is below one, at least one where it is also
not negative, and below one where it is negative. -/
theorem c151_contact (lam z : ℝ) (h : zetaEff lam z < 1) :
    0 < g0HS lam z ∧ (0 ≤ zetaEff lam z → 1 ≤ g0HS lam z) ∧ (zetaEff lam z < 0 → g0HS lam z < 1) := by
  unfold g0HS
  generalize zetaEff lam z = η at *
  have hp : 0 < (1 - η) ^ 3 := pow_pos (by linarith) 3
  refine ⟨div_pos (by linarith) hp, fun h0 => contact_ge h0 h, fun h0 => ?_⟩
  rw [div_lt_one hp]
  nlinarith [mul_pos (neg_pos.2 h0) (by linarith : 0 < 1 - η), mul_pos (neg_pos.2 h0) (neg_pos.2 h0)]

/-- **C151** (attraction): with ranges up to 2.682 the first-order energy is not positive at any accepted density. -/
theorem c151_attraction_partial {m : ℕ} (M ρ T C : ℝ) (w σ lam α : Fin m → Fin m → ℝ) (hT : 0 < T) (hM : 0 ≤ M) (hρ : 0 ≤ ρ)
    (hw : ∀ k l, 0 ≤ w k l) (hα : ∀ k l, 0 ≤ α k l) (h1 : ∀ k l, 1 ≤ lam k l) (hl : ∀ k l, lam k l ≤ 2.682)
    (hz : 0 ≤ packing M ρ C w σ) (hz1 : packing M ρ C w σ ≤ 0.65) : afirst M ρ T C w σ lam α ≤ 0 := by
  unfold afirst
  have : 0 ≤ ∑ k, ∑ l, (ρ * M) * (w k l * α k l) * g0HS (lam k l) (packing M ρ C w σ) :=
    Finset.sum_nonneg fun k _ => Finset.sum_nonneg fun l _ =>
      mul_nonneg (mul_nonneg (mul_nonneg hρ hM) (mul_nonneg (hw k l) (hα k l)))
        (c151_contact _ _ (c151_below_partial _ _ (h1 k l) (hl k l) hz hz1)).1.le
  have h2 : 0 ≤ C ^ 2 / T := by positivity
  have := mul_nonneg h2 this
  linarith

/-- **C59** (every accepted density, ranges up to 2.682): the second-order energy is the one of the local compressibility
without a condition on the effective packing fraction. -/
theorem c59_asecond_accepted {m : ℕ} (M ρ T C : ℝ) (w σ lam α ε : Fin m → Fin m → ℝ) (h1 : ∀ k l, 1 ≤ lam k l)
    (hl : ∀ k l, lam k l ≤ 2.682) (hz : 0 ≤ packing M ρ C w σ) (hz1 : packing M ρ C w σ ≤ 0.65) :
    asecond M ρ T C w σ lam α ε
      = C / T ^ 2 * ∑ k, ∑ l, w k l *
          (khs (packing M ρ C w σ) / 2 * ε k l * ρ * deriv (pairA1 M C (α k l) (lam k l) w σ) ρ) :=
  c59_asecond M ρ T C w σ lam α ε fun k l => (c151_below_partial _ _ (h1 k l) (hl k l) hz hz1).ne

example : (1 : ℝ) ≤ 1.4 ∧ (1.4 : ℝ) ≤ 1.5 ∧ (0 : ℝ) ≤ 0.4 ∧ (0.4 : ℝ) ≤ 0.65 := by norm_num

/-! ## What does not hold -/

/-- **C151, violated** (sign): for ranges between 1.7 and 1.8 the effective packing fraction is negative at accepted
packing fractions from 0.6 on, and the contact value is then below that of the ideal gas. -/
theorem c151_violated_negative (lam z : ℝ) (h1 : 1.7 ≤ lam) (hl : lam ≤ 1.8) (hz : 0.6 ≤ z) (hz1 : z ≤ 0.65) :
    zetaEff lam z < 0 ∧ g0HS lam z < 1 := by
  have h : zetaEff lam z < 0 := by
    have := sw_negative lam z (by norm_num at h1 ⊢; exact h1) (by norm_num at hl ⊢; exact hl)
      (by norm_num at hz ⊢; exact hz) (by norm_num at hz1 ⊢; exact hz1)
    rw [zetaEff_eq lam z (by linarith), swEta_eq]
    exact mul_neg_of_pos_of_neg (by linarith) (by linarith)
  exact ⟨h, (c151_contact lam z (by linarith)).2.2 h⟩

/-- **C151, violated** (sign, longer ranges): for every range from 1.6 to 4.64 there is an accepted packing fraction at which the
effective one is negative and the contact value below that of the ideal gas. -/
theorem c151_violated_sign (lam : ℝ) (h1 : 1.6 ≤ lam) (hl : lam ≤ 4.64) :
    ∃ z, 0 < z ∧ z ≤ 0.65 ∧ zetaEff lam z < 0 ∧ g0HS lam z < 1 := by
  have hz : ∃ z, 0 < z ∧ z ≤ 0.65 ∧ zetaEff lam z < 0 := by
    by_cases a : lam ≤ 1.9
    · refine ⟨0.65, by norm_num, le_rfl, ?_⟩
      rw [zetaEff_eq lam _ (by linarith), swEta]
      norm_num at h1 a ⊢
      nlinarith [mul_nonneg (sub_nonneg.2 h1) (sub_nonneg.2 a)]
    by_cases b : lam ≤ 2.05
    · refine ⟨0.5, by norm_num, by norm_num, ?_⟩
      rw [zetaEff_eq lam _ (by linarith), swEta]
      norm_num at a b ⊢
      nlinarith [mul_nonneg (sub_nonneg.2 a.le) (sub_nonneg.2 b)]
    by_cases c : lam ≤ 2.5
    · refine ⟨0.35, by norm_num, by norm_num, ?_⟩
      rw [zetaEff_eq lam _ (by linarith), swEta]
      norm_num at b c ⊢
      nlinarith [mul_nonneg (sub_nonneg.2 b.le) (sub_nonneg.2 c)]
    · refine ⟨0.11, by norm_num, by norm_num, ?_⟩
      rw [zetaEff_eq lam _ (by linarith), swEta]
      norm_num at c hl ⊢
      nlinarith [mul_nonneg (sub_nonneg.2 c.le) (sub_nonneg.2 hl)]
  obtain ⟨z, hz0, hz1, hz⟩ := hz
  exact ⟨z, hz0, hz1, hz, (c151_contact lam z (by linarith)).2.2 hz⟩

/-- The bounds for the range of a well. -/
theorem c151_bounds : Interface.swExtreme.get? "lambda" = some (1, 10) := by decide

/-- **C151, violated** (0.65): a range from 2.683 on exceeds one at the largest accepted packing fraction. -/
theorem c151_violated_range (lam : ℝ) (h : 2.683 ≤ lam) : 1 < zetaEff lam 0.65 := by
  rw [zetaEff_eq lam _ (by linarith), swEta]
  nlinarith

/-- **C151, violated** (all longer ranges): from 1.6 on no range keeps the effective packing fraction between zero and one at all
accepted packing fractions; up to 1.599 every range does. -/
theorem c151_violated_from (lam : ℝ) (h1 : 1 ≤ lam) :
    (lam ≤ 1.599 → ∀ z, 0 < z → z ≤ 0.65 → 0 < zetaEff lam z ∧ zetaEff lam z < 1) ∧
    (1.6 ≤ lam → ∃ z, 0 < z ∧ z ≤ 0.65 ∧ (zetaEff lam z < 0 ∨ 1 < zetaEff lam z)) := by
  refine ⟨fun h z h0 hz => ⟨c151_positive_partial lam z h1 h h0 hz, c151_below_partial lam z h1 (h.trans (by norm_num)) h0.le hz⟩,
    fun h => ?_⟩
  by_cases hc : lam ≤ 4.64
  · obtain ⟨z, hz0, hz1, hz, _⟩ := c151_violated_sign lam h hc
    exact ⟨z, hz0, hz1, .inl hz⟩
  · exact ⟨0.65, by norm_num, le_rfl, .inr (c151_violated_range lam (by norm_num at hc ⊢; linarith))⟩

/-- For small packing fractions the effective one is away from one. -/
private theorem small_packing (lam z : ℝ) (h1 : 1 ≤ lam) (hl : lam ≤ 10) (hz : 0 ≤ z) (hz1 : z ≤ 0.001) :
    zetaEff lam z ≤ 0.9 := by
  rw [zetaEff_eq lam z h1, swEta]
  have hsq : lam ^ 2 ≤ 100 := by nlinarith
  have hsq0 : 0 ≤ lam ^ 2 := by positivity
  have a : z * (2.25855 - 1.50349 * lam + 0.249434 * lam ^ 2) ≤ z * 28 :=
    mul_le_mul_of_nonneg_left (by linarith) hz
  have b : z ^ 2 * (-0.669270 + 1.40049 * lam - 0.827739 * lam ^ 2) ≤ z ^ 2 * 14 :=
    mul_le_mul_of_nonneg_left (by linarith) (by positivity)
  have c : z ^ 3 * (10.1576 - 15.0427 * lam + 5.30827 * lam ^ 2) ≤ z ^ 3 * 550 :=
    mul_le_mul_of_nonneg_left (by linarith) (by positivity)
  have h2 : z ^ 2 ≤ 0.001 := by nlinarith
  have h3 : z ^ 3 ≤ 0.001 := by nlinarith [mul_nonneg hz (sq_nonneg z)]
  linarith

/-- Every value near one up to that at 0.65 is taken on below 0.65. -/
private theorem attainsSW (lam v : ℝ) (h1 : 2.683 ≤ lam) (hl : lam ≤ 10) (h0 : 0.9 < v) (hv : v < zetaEff lam 0.65) :
    ∃ z, 0.001 < z ∧ z < 0.65 ∧ zetaEff lam z = v := by
  have := intermediate_value_Icc (by norm_num : (0 : ℝ) ≤ 0.65) (zetaEff_cont lam).continuousOn
  obtain ⟨z, ⟨hz0, hz1⟩, e⟩ := this ⟨by rw [zetaEff_zero]; linarith, hv.le⟩
  refine ⟨z, ?_, lt_of_le_of_ne hz1 ?_, e⟩
  · by_contra hc
    have := small_packing lam z (by linarith) hl hz0 (not_lt.1 hc)
    linarith
  · rintro rfl
    exact hv.ne' e

/-- A small distance from one at which the contact value is large. -/
private theorem contact_large_sw (B δ₀ : ℝ) (h : 0 < δ₀) : ∃ δ, 0 < δ ∧ δ < δ₀ ∧ B < (1 - δ) / 2 / δ ^ 3 := by
  have hb : 0 < |B| + 2 := by positivity
  have hp : 0 < min (δ₀ / 2) (1 / (|B| + 2)) := lt_min (by linarith) (by positivity)
  refine ⟨min (δ₀ / 2) (1 / (|B| + 2)), hp, (min_le_left _ _).trans_lt (by linarith), ?_⟩
  have h1 := min_le_right (δ₀ / 2) (1 / (|B| + 2))
  generalize min (δ₀ / 2) (1 / (|B| + 2)) = δ at hp h1
  have h2 : δ * (|B| + 2) ≤ 1 := by rwa [le_div_iff₀ hb] at h1
  have h3 : δ ≤ 1 / 2 := by nlinarith [abs_nonneg B]
  rw [lt_div_iff₀ (by positivity)]
  have h5 : B * δ ^ 3 ≤ |B| * δ ^ 3 := mul_le_mul_of_nonneg_right (le_abs_self B) (by positivity)
  have h6 : |B| * δ < 1 := by nlinarith
  have h7 : |B| * δ ^ 3 < δ ^ 2 := by
    have : |B| * δ ^ 3 = |B| * δ * δ ^ 2 := by ring
    rw [this]
    nlinarith [pow_pos hp 2]
  nlinarith

/-- **C151, violated** (contact value): for a range from 2.683 to ten there is an accepted packing fraction at which the
denominator vanishes, and there are accepted ones at which the contact value is above and below every bound. -/
theorem c151_violated_pole (lam : ℝ) (h1 : 2.683 ≤ lam) (hl : lam ≤ 10) (B : ℝ) :
    (∃ z, 0.001 < z ∧ z < 0.65 ∧ zetaEff lam z = 1) ∧ (∃ z, 0.001 < z ∧ z < 0.65 ∧ B < g0HS lam z) ∧
      ∃ z, 0.001 < z ∧ z < 0.65 ∧ g0HS lam z < -B := by
  have hr := c151_violated_range lam h1
  refine ⟨attainsSW lam 1 h1 hl (by norm_num) hr, ?_, ?_⟩
  · obtain ⟨δ, hδ, hδ1, hδ3⟩ := contact_large_sw B 0.1 (by norm_num)
    obtain ⟨z, hz0, hz1, hv⟩ := attainsSW lam (1 - δ) h1 hl (by linarith) (by linarith)
    refine ⟨z, hz0, hz1, hδ3.trans ?_⟩
    unfold g0HS
    rw [hv, show 1 - (1 - δ) = δ by ring]
    exact div_lt_div_of_pos_right (by linarith) (by positivity)
  · obtain ⟨δ, hδ, hδ1, hδ3⟩ := contact_large_sw B (zetaEff lam 0.65 - 1) (by linarith)
    obtain ⟨z, hz0, hz1, hv⟩ := attainsSW lam (1 + δ) h1 hl (by linarith) (by linarith)
    refine ⟨z, hz0, hz1, ?_⟩
    unfold g0HS
    rw [hv]
    have : (1 - (1 + δ) / 2) / (1 - (1 + δ)) ^ 3 = -((1 - δ) / 2 / δ ^ 3) := by
      rw [show 1 - (1 + δ) = -δ by ring, neg_pow]
      have : δ ^ 3 ≠ 0 := by positivity
      field_simp
      ring
    rw [this, neg_lt_neg_iff]
    exact hδ3

variable {n m : ℕ}

/-- **C151, violated** (energy): in a fluid of groups of one diameter and one range from 2.683 to ten, `Amonomer` accepts
densities at which the first-order energy is below every bound and densities at which it is above every bound. -/
theorem c151_violated_energy (M T σ₀ lam : ℝ) (P : SWell n m) (x : Fin n → ℝ) (hx : ∀ i, 0 ≤ x i) (hν : ∀ i k, 0 ≤ P.g.ν i k)
    (hV : ∀ k, 0 ≤ P.g.V k) (hS : ∀ k, 0 ≤ P.g.S k) (hM : 0 < M) (hT : 0 < T) (hC : 0 < cmol2seg P.g x) (hσ : 0 < σ₀)
    (hPσ : P.σ = fun _ _ => σ₀) (hPl : P.lam = fun _ _ => lam) (h1 : 2.683 ≤ lam) (hl : lam ≤ 10)
    (hα : 0 < ∑ k, ∑ l, xskl P.g x k l * alphakl P k l) (B : ℝ) :
    (∃ ρ, 0 < ρ ∧ amonomer M P [ρ] T x = .ok [amono M P ρ T x] ∧ a1 M P ρ T x < -B) ∧
      ∃ ρ, 0 < ρ ∧ amonomer M P [ρ] T x = .ok [amono M P ρ T x] ∧ B < a1 M P ρ T x := by
  have hpi := Real.pi_pos
  -- the density at which the packing fraction is z
  set R := densityMax M (cmol2seg P.g x) (xskl P.g x) (fun _ _ => σ₀) 1 with hRdef
  have hsum : (∑ k : Fin m, ∑ l : Fin m, xskl P.g x k l * σ₀ ^ 3) = σ₀ ^ 3 := by
    have := (c17_xskl P.g x hx hν hV hS hC.ne').2.2
    rw [Finset.sum_congr rfl fun k _ => (Finset.sum_mul _ _ _).symm, ← Finset.sum_mul, this, one_mul]
  have hR : 0 < R := by
    rw [hRdef]; unfold densityMax; rw [hsum]; positivity
  have hpack1 : packing M R (cmol2seg P.g x) (xskl P.g x) (fun _ _ => σ₀) = 1 :=
    c57_sw_equal_diameters_partial M 1 σ₀ P.g x hx hν hV hS hM.ne' hC.ne' hσ.ne'
  have hpack : ∀ z, packing M (z * R) (cmol2seg P.g x) (xskl P.g x) (fun _ _ => σ₀) = z := by
    intro z
    have : packing M (z * R) (cmol2seg P.g x) (xskl P.g x) (fun _ _ => σ₀)
        = z * packing M R (cmol2seg P.g x) (xskl P.g x) (fun _ _ => σ₀) := by
      simp only [packing, moment]; ring
    rw [this, hpack1, mul_one]
  have hmax : densityMax M (cmol2seg P.g x) (xskl P.g x) P.σ 0.65 = 0.65 * R := by
    rw [hPσ, hRdef]; unfold densityMax; ring
  have hok : ∀ z, 0 < z → z < 0.65 → amonomer M P [z * R] T x = .ok [amono M P (z * R) T x] := by
    intro z h0 h1
    rw [c125_single, hmax, if_neg]
    rintro (h | h)
    · nlinarith
    · have : 0 < z * R := by positivity
      linarith
  set K := cmol2seg P.g x ^ 2 / T * (R * M) * ∑ k, ∑ l, xskl P.g x k l * alphakl P k l with hKdef
  have hK : 0 < K := by positivity
  have ha : ∀ z, a1 M P (z * R) T x = -(g0HS lam z * K * z) := by
    intro z
    simp only [a1, afirst]
    rw [hPσ, hPl, hpack, hKdef]
    simp only [Finset.mul_sum, Finset.sum_mul, ← Finset.sum_neg_distrib]
    refine Finset.sum_congr rfl fun k _ => Finset.sum_congr rfl fun l _ => ?_
    ring
  clear_value K R
  have far : ∀ g z : ℝ, |B| / (0.001 * K) < g → 0.001 < z → B < g * K * z := by
    intro g z hg hz
    have hg0 : 0 < g := lt_of_le_of_lt (by positivity) hg
    rw [div_lt_iff₀ (by positivity)] at hg
    have : g * K * 0.001 < g * K * z := mul_lt_mul_of_pos_left hz (mul_pos hg0 hK)
    linarith [le_abs_self B]
  obtain ⟨-, ⟨z, hz0, hz1, hz⟩, ⟨y, hy0, hy1, hy⟩⟩ := c151_violated_pole lam h1 hl (|B| / (0.001 * K))
  refine ⟨⟨z * R, mul_pos (by linarith) hR, hok z (by linarith) hz1, ?_⟩,
    ⟨y * R, mul_pos (by linarith) hR, hok y (by linarith) hy1, ?_⟩⟩
  · rw [ha, neg_lt_neg_iff]
    exact far _ z hz hz0
  · rw [ha]
    have := far (-g0HS lam y) y (by linarith) hy0
    linarith

/-- The hypotheses are met by one component of one group with a well of range three. -/
example : ∃ P : SWell 1 1, P.σ = (fun _ _ => 0.3) ∧ P.lam = (fun _ _ => 3) ∧ 0 < cmol2seg P.g (fun _ => 1) ∧
    0 < ∑ k, ∑ l, xskl P.g (fun _ => 1) k l * alphakl P k l := by
  refine ⟨⟨⟨fun _ _ => 1, fun _ => 1, fun _ => 1⟩, fun _ _ => 100, fun _ _ => 0.3, fun _ _ => 3, fun _ => 0⟩, rfl, rfl, ?_, ?_⟩
  · simp [cmol2seg]
  · have := Real.pi_pos
    simp only [Finset.univ_unique, Finset.sum_singleton, xskl, xsk, cmol2seg, alphakl, alpha]
    norm_num
    positivity

end Verif.Props
