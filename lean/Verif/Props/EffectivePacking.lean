import Verif.Props.GammaMie
import Verif.Props.SaftToolbox
import Verif.Model.Interface
import Mathlib.Topology.Order.IntermediateValue
import Mathlib.Topology.Algebra.Order.Field
import Mathlib.Analysis.Real.Pi.Bounds

/-!
# C150: the effective packing fraction of the Mie fluid

The attraction of a Mie potential with exponent `l` at the packing fraction `z` is that of hard spheres at an effective
packing fraction, a polynomial in `z` and `1/l` (`etaEff`).  The energy has the third power of one minus this fraction as
denominator.  `Amonomer` accepts every density with a packing fraction below one (C18), and the energy asks for the
exponents of the library, for their doubles and for their sum.

The inequalities in two variables are shown by writing the polynomials with positive coefficients in the distances from
the four sides of a rectangle.
-/

namespace Verif.Props
open Verif Verif.Saft Verif.GammaMie

/-! ## The polynomial -/

/-- The effective packing fraction as a polynomial in `u = 1/l` and `z`. -/
private noncomputable def mieEta (u z : ℝ) : ℝ :=
  z * (0.81096 + 1.7888 * u - 37.578 * u ^ 2 + 92.284 * u ^ 3)
    + z ^ 2 * (1.0205 - 19.341 * u + 151.26 * u ^ 2 - 463.50 * u ^ 3)
    + z ^ 3 * (-1.9057 + 22.845 * u - 228.14 * u ^ 2 + 973.92 * u ^ 3)
    + z ^ 4 * (1.0885 - 6.1962 * u + 106.98 * u ^ 2 - 677.64 * u ^ 3)

/-- The polynomial divided by `z`. -/
private noncomputable def mieSlope (u z : ℝ) : ℝ :=
  (0.81096 + 1.7888 * u - 37.578 * u ^ 2 + 92.284 * u ^ 3)
    + z * (1.0205 - 19.341 * u + 151.26 * u ^ 2 - 463.50 * u ^ 3)
    + z ^ 2 * (-1.9057 + 22.845 * u - 228.14 * u ^ 2 + 973.92 * u ^ 3)
    + z ^ 3 * (1.0885 - 6.1962 * u + 106.98 * u ^ 2 - 677.64 * u ^ 3)

private theorem etaEff_eq (l z : ℝ) : etaEff l z = mieEta (1 / l) z := by
  simp only [etaEff, ceff, cklCoef, mieEta, Matrix.cons_val, one_div]
  ring

private theorem mieEta_eq (u z : ℝ) : mieEta u z = z * mieSlope u z := by
  simp only [mieEta, mieSlope]; ring

private theorem inv_range {l a b : ℝ} (ha : 0 < a) (h1 : a ≤ l) (h2 : l ≤ b) : 1 / b ≤ 1 / l ∧ 1 / l ≤ 1 / a :=
  ⟨one_div_le_one_div_of_le (ha.trans_le h1) h2, one_div_le_one_div_of_le ha h1⟩

private theorem inv_third {l : ℝ} (h : 3 ≤ l) : 0 ≤ 1 / l ∧ 1 / l ≤ 1 / 3 :=
  ⟨by positivity, one_div_le_one_div_of_le (by norm_num) h⟩

/-- The part of `1 - η` between the two ends. -/
private theorem mie_criterion (u z : ℝ) (hu0 : 0 ≤ u) (hu1 : u ≤ 1/3) (hz0 : 0 ≤ z) (hz1 : z ≤ 1) :
    0 ≤ 1 - mieEta u z - (1 - mieEta u 1) * z ^ 5 - (1 - z) ^ 5 := by
  have key : 1 - mieEta u z - (1 - mieEta u 1) * z ^ 5 - (1 - z) ^ 5 - 0 =
      (1413801/12500) * (1/3 - u) ^ 3 * z * (1 - z) ^ 4 +
      (4040163/12500) * u * (1/3 - u) ^ 2 * z * (1 - z) ^ 4 +
      (2624049/6250) * u ^ 2 * (1/3 - u) * z * (1 - z) ^ 4 +
      (734093/6250) * u ^ 3 * z * (1 - z) ^ 4 +
      (7743141/50000) * (1/3 - u) ^ 3 * z ^ 2 * (1 - z) ^ 3 +
      (28713033/50000) * u * (1/3 - u) ^ 2 * z ^ 2 * (1 - z) ^ 3 +
      (34054443/50000) * u ^ 2 * (1/3 - u) * z ^ 2 * (1 - z) ^ 3 +
      (17802751/50000) * u ^ 3 * z ^ 2 * (1 - z) ^ 3 +
      (2685447/25000) * (1/3 - u) ^ 3 * z ^ 3 * (1 - z) ^ 2 +
      (13556511/25000) * u * (1/3 - u) ^ 2 * z ^ 3 * (1 - z) ^ 2 +
      (19043781/25000) * u ^ 2 * (1/3 - u) * z ^ 3 * (1 - z) ^ 2 +
      (4744617/25000) * u ^ 3 * z ^ 3 * (1 - z) ^ 2 +
      (956853/25000) * (1/3 - u) ^ 3 * z ^ 4 * (1 - z) +
      (5429709/25000) * u * (1/3 - u) ^ 2 * z ^ 4 * (1 - z) +
      (11426259/25000) * u ^ 2 * (1/3 - u) * z ^ 4 * (1 - z) +
      (732503/25000) * u ^ 3 * z ^ 4 * (1 - z) := by
    simp only [mieEta]
    ring
  have hb : 0 ≤ 1/3 - u := by linarith
  have hd : 0 ≤ 1 - z := by linarith
  refine sub_nonneg.1 ?_
  rw [key]
  clear key
  generalize 1/3 - u = b at *
  generalize 1 - z = d at *
  positivity

/-- Packing fractions up to 0.98. -/
private theorem mie_moderate (u z : ℝ) (hu0 : 0 ≤ u) (hu1 : u ≤ 1/3) (hz0 : 0 ≤ z) (hz1 : z ≤ 49/50) :
    1/1000 ≤ 1 - mieEta u z := by
  have key : 1 - mieEta u z - 1/1000 =
      (8429062500/282475249) * (1/3 - u) ^ 3 * (49/50 - z) ^ 5 +
      (25287187500/282475249) * u * (1/3 - u) ^ 2 * (49/50 - z) ^ 5 +
      (25287187500/282475249) * u ^ 2 * (1/3 - u) * (49/50 - z) ^ 5 +
      (8429062500/282475249) * u ^ 3 * (49/50 - z) ^ 5 +
      (35439687000/282475249) * (1/3 - u) ^ 3 * z * (49/50 - z) ^ 4 +
      (101388681000/282475249) * u * (1/3 - u) ^ 2 * z * (49/50 - z) ^ 4 +
      (130983088500/282475249) * u ^ 2 * (1/3 - u) * z * (49/50 - z) ^ 4 +
      (36772119500/282475249) * u ^ 3 * z * (49/50 - z) ^ 4 +
      (98397257625/564950498) * (1/3 - u) ^ 3 * z ^ 2 * (49/50 - z) ^ 3 +
      (360233650125/564950498) * u * (1/3 - u) ^ 2 * z ^ 2 * (49/50 - z) ^ 3 +
      (429092382375/564950498) * u ^ 2 * (1/3 - u) * z ^ 2 * (49/50 - z) ^ 3 +
      (219376064875/564950498) * u ^ 3 * z ^ 2 * (49/50 - z) ^ 3 +
      (137528556561/1129900996) * (1/3 - u) ^ 3 * z ^ 3 * (49/50 - z) ^ 2 +
      (679273826733/1129900996) * u * (1/3 - u) ^ 2 * z ^ 3 * (49/50 - z) ^ 2 +
      (945481499583/1129900996) * u ^ 2 * (1/3 - u) * z ^ 3 * (49/50 - z) ^ 2 +
      (248936938611/1129900996) * u ^ 3 * z ^ 3 * (49/50 - z) ^ 2 +
      (492423855741/11299009960) * (1/3 - u) ^ 3 * z ^ 4 * (49/50 - z) +
      (13813093762173/56495049800) * u * (1/3 - u) ^ 2 * z ^ 4 * (49/50 - z) +
      (28165002438831/56495049800) * u ^ 2 * (1/3 - u) * z ^ 4 * (49/50 - z) +
      (2153093871763/56495049800) * u ^ 3 * z ^ 4 * (49/50 - z) +
      (4658462631/11299009960) * (1/3 - u) ^ 3 * z ^ 5 +
      (652468738023/56495049800) * u * (1/3 - u) ^ 2 * z ^ 5 +
      (2660985497181/56495049800) * u ^ 2 * (1/3 - u) * z ^ 5 +
      (5975242028713/56495049800) * u ^ 3 * z ^ 5 := by
    simp only [mieEta]
    ring
  have hb : 0 ≤ 1/3 - u := by linarith
  have hd : 0 ≤ 49/50 - z := by linarith
  refine sub_nonneg.1 ?_
  rw [key]
  clear key
  generalize 1/3 - u = b at *
  generalize 49/50 - z = d at *
  positivity

/-- Exponents from 5.2. -/
private theorem mie_positive (u z : ℝ) (hu0 : 0 ≤ u) (hu1 : u ≤ 5/26) (hz0 : 0 ≤ z) (hz1 : z ≤ 1) :
    1/1000 ≤ mieSlope u z := by
  have key : mieSlope u z - 1/1000 =
      (44487053/390625) * (5/26 - u) ^ 3 * (1 - z) ^ 3 +
      (152355359/390625) * u * (5/26 - u) ^ 2 * (1 - z) ^ 3 +
      (189838493/781250) * u ^ 2 * (5/26 - u) * (1 - z) ^ 3 +
      (23099378/390625) * u ^ 3 * (1 - z) ^ 3 +
      (379024243/781250) * (5/26 - u) ^ 3 * z * (1 - z) ^ 2 +
      (420929652/390625) * u * (5/26 - u) ^ 2 * z * (1 - z) ^ 2 +
      (351578877/390625) * u ^ 2 * (5/26 - u) * z * (1 - z) ^ 2 +
      (94503943/781250) * u ^ 3 * z * (1 - z) ^ 2 +
      (281785023/781250) * (5/26 - u) ^ 3 * z ^ 2 * (1 - z) +
      (312081822/390625) * u * (5/26 - u) ^ 2 * z ^ 2 * (1 - z) +
      (123579547/390625) * u ^ 2 * (5/26 - u) * z ^ 2 * (1 - z) +
      (78863674/390625) * u ^ 3 * z ^ 2 * (1 - z) +
      (111306611/781250) * (5/26 - u) ^ 3 * z ^ 3 +
      (157417754/390625) * u * (5/26 - u) ^ 2 * z ^ 3 +
      (132685904/390625) * u ^ 2 * (5/26 - u) * z ^ 3 +
      (3299161/781250) * u ^ 3 * z ^ 3 := by
    simp only [mieSlope]
    ring
  have hb : 0 ≤ 5/26 - u := by linarith
  have hd : 0 ≤ 1 - z := by linarith
  refine sub_nonneg.1 ?_
  rw [key]
  clear key
  generalize 5/26 - u = b at *
  generalize 1 - z = d at *
  positivity

/-- Exponents up to five. -/
private theorem mie_negative (u z : ℝ) (hu0 : 1/5 ≤ u) (hu1 : u ≤ 1/3) (hz0 : 97/100 ≤ z) (hz1 : z ≤ 1) :
    1/1000 ≤ -mieSlope u z := by
  have key : -mieSlope u z - 1/1000 =
      (726616309/3200) * (1/3 - u) ^ 3 * (1 - z) ^ 3 +
      (78258580747/3200) * (u - 1/5) * (1/3 - u) ^ 2 * (1 - z) ^ 3 +
      (1737219898639/28800) * (u - 1/5) ^ 2 * (1/3 - u) * (1 - z) ^ 3 +
      (661683909599/17280) * (u - 1/5) ^ 3 * (1 - z) ^ 3 +
      (22717107/16) * (1/3 - u) ^ 3 * (z - 97/100) * (1 - z) ^ 2 +
      (1256012029/16) * (u - 1/5) * (1/3 - u) ^ 2 * (z - 97/100) * (1 - z) ^ 2 +
      (3061710337/16) * (u - 1/5) ^ 2 * (1/3 - u) * (z - 97/100) * (1 - z) ^ 2 +
      (17484252335/144) * (u - 1/5) ^ 3 * (z - 97/100) * (1 - z) ^ 2 +
      (8770575/4) * (1/3 - u) ^ 3 * (z - 97/100) ^ 2 * (1 - z) +
      (335559425/4) * (u - 1/5) * (1/3 - u) ^ 2 * (z - 97/100) ^ 2 * (1 - z) +
      (2427494575/12) * (u - 1/5) ^ 2 * (1/3 - u) * (z - 97/100) ^ 2 * (1 - z) +
      (4619184875/36) * (u - 1/5) ^ 3 * (z - 97/100) ^ 2 * (1 - z) +
      (2000875/2) * (1/3 - u) ^ 3 * (z - 97/100) ^ 3 +
      (59698125/2) * (u - 1/5) * (1/3 - u) ^ 2 * (z - 97/100) ^ 3 +
      (1282740625/18) * (u - 1/5) ^ 2 * (1/3 - u) * (z - 97/100) ^ 3 +
      (2440268125/54) * (u - 1/5) ^ 3 * (z - 97/100) ^ 3 := by
    simp only [mieSlope]
    ring
  have ha : 0 ≤ u - 1/5 := by linarith
  have hb : 0 ≤ 1/3 - u := by linarith
  have hc : 0 ≤ z - 97/100 := by linarith
  have hd : 0 ≤ 1 - z := by linarith
  refine sub_nonneg.1 ?_
  rw [key]
  clear key
  generalize u - 1/5 = a at *
  generalize 1/3 - u = b at *
  generalize z - 97/100 = c at *
  generalize 1 - z = d at *
  positivity

private theorem etaEff_cont (l : ℝ) : Continuous (etaEff l) := by unfold etaEff; fun_prop

private theorem etaEff_zero (l : ℝ) : etaEff l 0 = 0 := by simp [etaEff]

/-! ## What holds -/

/-- **C150** (criterion): the effective packing fraction of an exponent stays below one at all packing fractions below
one exactly when it does not exceed one at close packing. -/
theorem c150_iff (l : ℝ) (hl : 3 ≤ l) : (∀ z, 0 ≤ z → z < 1 → etaEff l z < 1) ↔ etaEff l 1 ≤ 1 := by
  constructor
  · intro h
    have hc : Filter.Tendsto (etaEff l) (nhdsWithin 1 (Set.Iio 1)) (nhds (etaEff l 1)) :=
      ((etaEff_cont l).tendsto 1).mono_left nhdsWithin_le_nhds
    refine le_of_tendsto hc ?_
    have h0 : ∀ᶠ z in nhdsWithin (1 : ℝ) (Set.Iio 1), (0 : ℝ) < z :=
      nhdsWithin_le_nhds (lt_mem_nhds (by norm_num))
    filter_upwards [h0, self_mem_nhdsWithin] with z hz hz1
    exact (h z hz.le hz1).le
  · intro h z hz hz1
    have hm := mie_criterion (1 / l) z (inv_third hl).1 (inv_third hl).2 hz hz1.le
    rw [← etaEff_eq, ← etaEff_eq] at hm
    have h1 : 0 ≤ (1 - etaEff l 1) * z ^ 5 := mul_nonneg (sub_nonneg.2 h) (pow_nonneg hz 5)
    have h2 : 0 < (1 - z) ^ 5 := pow_pos (sub_pos.2 hz1) 5
    linarith

/-- The value at close packing. -/
private theorem etaEff_one (l : ℝ) :
    etaEff l 1 = 1.01426 - 0.9034 * (1 / l) - 7.478 * (1 / l) ^ 2 - 74.936 * (1 / l) ^ 3 := by
  rw [etaEff_eq, mieEta]; ring

/-- **C150** (exponents up to 71): below one at every packing fraction below one. -/
theorem c150_below_partial (l z : ℝ) (h3 : 3 ≤ l) (hl : l ≤ 71) (hz : 0 ≤ z) (hz1 : z < 1) : etaEff l z < 1 := by
  refine (c150_iff l h3).2 ?_ z hz hz1
  rw [etaEff_one]
  obtain ⟨h, -⟩ := inv_range (by norm_num : (0 : ℝ) < 3) h3 hl
  generalize 1 / l = u at *
  have h0 : 0 ≤ u := le_trans (by norm_num) h
  have h2 : (1 / 71 : ℝ) ^ 2 ≤ u ^ 2 := pow_le_pow_left₀ (by norm_num) h 2
  have h3 : (1 / 71 : ℝ) ^ 3 ≤ u ^ 3 := pow_le_pow_left₀ (by norm_num) h 3
  norm_num at h2 h3 ⊢
  linarith

/-- **C150** (all exponents): below one up to the packing fraction 0.98. -/
theorem c150_moderate_partial (l z : ℝ) (h3 : 3 ≤ l) (hz : 0 ≤ z) (hz1 : z ≤ 0.98) : etaEff l z < 1 := by
  have := mie_moderate (1 / l) z (inv_third h3).1 (inv_third h3).2 hz (by norm_num at hz1 ⊢; exact hz1)
  rw [← etaEff_eq] at this
  linarith

/-- **C150** (exponents from 5.2): the effective packing fraction is positive. -/
theorem c150_positive_partial (l z : ℝ) (hl : 5.2 ≤ l) (hz : 0 < z) (hz1 : z ≤ 1) : 0 < etaEff l z := by
  have h : 1 / l ≤ 5 / 26 := by
    have := one_div_le_one_div_of_le (by norm_num : (0 : ℝ) < 5.2) hl
    refine this.trans (by norm_num)
  have := mie_positive (1 / l) z (by have : (0 : ℝ) < l := by linarith
                                     positivity) h hz.le hz1
  rw [etaEff_eq, mieEta_eq]
  exact mul_pos hz (by linarith)

example : (3 : ℝ) ≤ 12 ∧ (12 : ℝ) ≤ 71 ∧ (5.2 : ℝ) ≤ 12 := by norm_num

/-- **C150** (attraction): the mean attractive energy is negative wherever the effective packing fraction is below one,
and its size is at least that of the ideal gas where the fraction is not negative. -/
theorem c150_attraction (M ρ C l z ε d : ℝ) (hM : 0 < M) (hρ : 0 < ρ) (hC : 0 < C) (hε : 0 < ε) (hd : 0 < d) (h3 : 3 < l)
    (h : etaEff l z < 1) :
    a1sEff M ρ C l z ε d < 0 ∧
      (0 ≤ etaEff l z → a1sEff M ρ C l z ε d ≤ -(2 * Real.pi * C * (ε * (d ^ 3 * M ^ 2) / (l - 3)) * ρ)) := by
  have hpi := Real.pi_pos
  have hl : 0 < l - 3 := by linarith
  have hK : 0 < 2 * Real.pi * C * (ε * (d ^ 3 * M ^ 2) / (l - 3)) * ρ := by positivity
  have e : a1sEff M ρ C l z ε d =
      -((1 - etaEff l z / 2) / (1 - etaEff l z) ^ 3 * (2 * Real.pi * C * (ε * (d ^ 3 * M ^ 2) / (l - 3)) * ρ)) := by
    simp only [a1sEff]; ring
  rw [e]
  generalize 2 * Real.pi * C * (ε * (d ^ 3 * M ^ 2) / (l - 3)) * ρ = K at *
  generalize etaEff l z = η at *
  have hp : 0 < (1 - η) ^ 3 := pow_pos (by linarith) 3
  refine ⟨?_, fun h0 => ?_⟩
  · have : 0 < (1 - η / 2) / (1 - η) ^ 3 := div_pos (by linarith) hp
    have := mul_pos this hK
    linarith
  · have h1 : 1 ≤ (1 - η / 2) / (1 - η) ^ 3 := by
      rw [le_div_iff₀ hp, one_mul]
      nlinarith [mul_nonneg h0 (by linarith : 0 ≤ 1 - η), mul_nonneg h0 h0]
    have := mul_le_mul_of_nonneg_right h1 hK.le
    linarith

/-! ## What does not hold -/

/-- **C150, violated** (close packing): an exponent from 72 on exceeds one. -/
theorem c150_violated_exponent (l : ℝ) (hl : 72 ≤ l) : 1 < etaEff l 1 := by
  rw [etaEff_one]
  have h : 1 / l ≤ 1 / 72 := one_div_le_one_div_of_le (by norm_num) hl
  have h0 : 0 ≤ 1 / l := by
    have : (0 : ℝ) < l := by linarith
    positivity
  generalize 1 / l = u at *
  have h2 : u ^ 2 ≤ (1 / 72 : ℝ) ^ 2 := pow_le_pow_left₀ h0 h 2
  have h3 : u ^ 3 ≤ (1 / 72 : ℝ) ^ 3 := pow_le_pow_left₀ h0 h 3
  norm_num at h2 h3 ⊢
  linarith

/-- The exponents 2 λr with λr in the second half of what the bounds allow. -/
theorem c150_bounds : Interface.mieExtreme.get? "lambdar" = some (6, 100) ∧
    Interface.mieExtreme.get? "lambdaa" = some (3, 100) ∧ ∀ lr : ℝ, 36 ≤ lr → lr ≤ 100 → 72 ≤ 2 * lr := by
  refine ⟨by decide, by decide, fun lr h _ => by linarith⟩

/-- Every value up to that at close packing is taken on, from 0.98 on when it is near one. -/
private theorem attains (l v : ℝ) (hl : 3 ≤ l) (h0 : 0.999 < v) (h1 : v < etaEff l 1) :
    ∃ z, 0.98 < z ∧ z < 1 ∧ etaEff l z = v := by
  have := intermediate_value_Icc (zero_le_one (α := ℝ)) (etaEff_cont l).continuousOn
  obtain ⟨z, ⟨hz0, hz1⟩, e⟩ := this ⟨by rw [etaEff_zero]; linarith, h1.le⟩
  refine ⟨z, ?_, lt_of_le_of_ne hz1 ?_, e⟩
  · by_contra hc
    have := mie_moderate (1 / l) z (inv_third hl).1 (inv_third hl).2 hz0 (by norm_num at hc ⊢; exact hc)
    rw [← etaEff_eq, e] at this
    linarith
  · rintro rfl
    exact h1.ne' e

/-- A small distance from one at which the contact value is large. -/
private theorem contact_large (B δ₀ : ℝ) (h : 0 < δ₀) : ∃ δ, 0 < δ ∧ δ < δ₀ ∧ δ ≤ 1 / 2 ∧ B < (1 - δ) / 2 / δ ^ 3 := by
  refine ⟨min (δ₀ / 2) (1 / (|B| + 2)), ?_, ?_, ?_, ?_⟩
  · have : 0 < |B| + 2 := by positivity
    exact lt_min (by linarith) (by positivity)
  · exact (min_le_left _ _).trans_lt (by linarith)
  · refine (min_le_right _ _).trans ?_
    exact one_div_le_one_div_of_le (by norm_num) (by linarith [abs_nonneg B])
  · have hb : 0 < |B| + 2 := by positivity
    have hp : 0 < min (δ₀ / 2) (1 / (|B| + 2)) := lt_min (by linarith) (by positivity)
    have h1 := min_le_right (δ₀ / 2) (1 / (|B| + 2))
    generalize min (δ₀ / 2) (1 / (|B| + 2)) = δ at hp h1
    have h2 : δ * (|B| + 2) ≤ 1 := by rwa [le_div_iff₀ hb] at h1
    have h3 : δ ≤ 1 / 2 := by nlinarith [abs_nonneg B]
    rw [lt_div_iff₀ (by positivity)]
    have h4 : B ≤ |B| := le_abs_self B
    have h5 : B * δ ^ 3 ≤ |B| * δ ^ 3 := mul_le_mul_of_nonneg_right h4 (by positivity)
    have h6 : |B| * δ < 1 := by nlinarith
    have h7 : |B| * δ ^ 3 < δ ^ 2 := by
      have : |B| * δ ^ 3 = |B| * δ * δ ^ 2 := by ring
      rw [this]
      nlinarith [pow_pos hp 2]
    nlinarith

/-- **C150, violated** (pole): for an exponent from 72 on, which the second order needs as soon as the repulsive exponent
is 36, there are densities that the equation of state accepts at which the mean attractive energy is below every bound, and
densities at which it is above every bound. -/
theorem c150_violated_pole {m : ℕ} (M C l ε d : ℝ) (w D : Fin m → Fin m → ℝ) (hM : 0 < M) (hC : 0 < C) (hl : 72 ≤ l)
    (hε : 0 < ε) (hd : 0 < d) (hD : 0 < ∑ k, ∑ l, w k l * D k l ^ 3) (B : ℝ) :
    (∃ ρ, 0 < ρ ∧ ρ < densityMax M C w D 1 ∧ a1sEff M ρ C l (zetax M ρ C w D) ε d < -B) ∧
    ∃ ρ, 0 < ρ ∧ ρ < densityMax M C w D 1 ∧ B < a1sEff M ρ C l (zetax M ρ C w D) ε d := by
  have hpi := Real.pi_pos
  have h3 : 0 < l - 3 := by linarith
  have hR : 0 < densityMax M C w D 1 := by unfold densityMax; positivity
  have hz : ∀ z, zetax M (z * densityMax M C w D 1) C w D = z := by
    intro z
    have h1 := c18_zetax_linear M C w D z 0 (densityMax M C w D 1) 0
    rw [c18_at_density_max M C w D 1 hM.ne' hC.ne' hD.ne'] at h1
    simpa using h1
  generalize densityMax M C w D 1 = R at *
  have hK : 0 < 2 * Real.pi * C * (ε * (d ^ 3 * M ^ 2) / (l - 3)) * R := by positivity
  have e : ∀ z, a1sEff M (z * R) C l (zetax M (z * R) C w D) ε d =
      -((1 - etaEff l z / 2) / (1 - etaEff l z) ^ 3 * (2 * Real.pi * C * (ε * (d ^ 3 * M ^ 2) / (l - 3)) * R) * z) := by
    intro z
    rw [hz]; simp only [a1sEff]; ring
  generalize 2 * Real.pi * C * (ε * (d ^ 3 * M ^ 2) / (l - 3)) * R = K at *
  have h1 := c150_violated_exponent l hl
  -- a value of the contact function beyond the bound
  have far : ∀ g z : ℝ, |B| / (0.98 * K) < g → 0.98 < z → B < g * K * z := by
    intro g z hg hz
    rw [div_lt_iff₀ (by positivity)] at hg
    have hg0 : 0 < g := by
      by_contra hc
      have := mul_nonpos_of_nonpos_of_nonneg (not_lt.1 hc) (by positivity : 0 ≤ 0.98 * K)
      linarith [abs_nonneg B]
    have : g * K * 0.98 < g * K * z := mul_lt_mul_of_pos_left hz (mul_pos hg0 hK)
    linarith [le_abs_self B]
  constructor
  · obtain ⟨δ, hδ, hδ1, -, hδ3⟩ := contact_large (|B| / (0.98 * K)) 0.001 (by norm_num)
    obtain ⟨z, hz0, hz1, hv⟩ := attains l (1 - δ) (by linarith) (by linarith) (by linarith)
    refine ⟨z * R, by positivity, by nlinarith, ?_⟩
    rw [e, hv, neg_lt_neg_iff]
    refine far _ z (hδ3.trans ?_) hz0
    rw [show 1 - (1 - δ) = δ by ring]
    exact div_lt_div_of_pos_right (by linarith) (by positivity)
  · obtain ⟨δ, hδ, hδ1, -, hδ3⟩ := contact_large (|B| / (0.98 * K)) (etaEff l 1 - 1) (by linarith)
    obtain ⟨z, hz0, hz1, hv⟩ := attains l (1 + δ) (by linarith) (by linarith) (by linarith)
    refine ⟨z * R, by positivity, by nlinarith, ?_⟩
    rw [e, hv]
    have : -((1 - (1 + δ) / 2) / (1 - (1 + δ)) ^ 3 * K * z) = (1 - δ) / 2 / δ ^ 3 * K * z := by
      rw [show 1 - (1 + δ) = -δ by ring, neg_pow]
      have : δ ^ 3 ≠ 0 := by positivity
      field_simp
      ring
    rw [this]
    exact far _ z hδ3 hz0

/-- **C150, violated** (sign): for exponents from three to five, which the bounds allow for the attraction, the effective
packing fraction is negative near close packing. -/
theorem c150_violated_negative (l z : ℝ) (h3 : 3 ≤ l) (hl : l ≤ 5) (hz : 0.97 ≤ z) (hz1 : z ≤ 1) : etaEff l z < 0 := by
  obtain ⟨h1, h2⟩ := inv_range (by norm_num : (0 : ℝ) < 3) h3 hl
  have := mie_negative (1 / l) z h1 h2 (by norm_num at hz ⊢; exact hz) hz1
  rw [etaEff_eq, mieEta_eq]
  exact mul_neg_of_pos_of_neg (by linarith) (by linarith)

/-! ## The derivatives of C19 -/

variable {m : ℕ}

/-- **C19** (at every density below close packing): for repulsive exponents up to 35.5 all four coded derivatives are
derivatives at every density with a packing fraction below one. -/
theorem c19_derivatives_partial (M C la lr ε d x0 r : ℝ) (w D : Fin m → Fin m → ℝ) (hC : C ≠ 0) (hr : r ≠ 0)
    (h3 : 3 ≤ la) (hla : la ≤ lr) (hlr : 2 * lr ≤ 71) (hz0 : 0 ≤ zetax M (r / C) C w D)
    (hz : zetax M (r / C) C w D < 1) :
    HasDerivAt (fun r => khs (zetax M (r / C) C w D)) (dKHS ((r / C) * C) (zetax M (r / C) C w D)) r ∧
    (∀ l, 3 ≤ l → l ≤ 2 * lr → HasDerivAt (fun r => a1sEff M (r / C) C l (zetax M (r / C) C w D) ε d)
      (da1s M l (zetax M (r / C) C w D) ε d) r) ∧
    (∀ l, HasDerivAt (fun r => bEff M (r / C) l C d ε x0 (zetax M (r / C) C w D))
      (dB M l d ε x0 (zetax M (r / C) C w D)) r) ∧
    HasDerivAt (fun r => a1ii M (r / C) C d la lr x0 ε (zetax M (r / C) C w D))
      (da1ii M d la lr x0 ε (zetax M (r / C) C w D) / M) r ∧
    HasDerivAt (fun r => a2NoChi M (r / C) C d la lr x0 ε (zetax M (r / C) C w D))
      (da2 M (r / C) C ε d x0 lr la (zetax M (r / C) C w D) / M) r := by
  have hη : ∀ l, 3 ≤ l → l ≤ 2 * lr → etaEff l (zetax M (r / C) C w D) ≠ 1 := fun l h1 h2 =>
    (c150_below_partial l _ h1 (h2.trans hlr) hz0 hz).ne
  exact ⟨c19_dKHS M C r w D hC hr, fun l h1 h2 => c19_da1s M C l ε d r w D hC (hη l h1 h2),
    fun l => c19_dB M C l ε d x0 r w D hC hz.ne,
    c19_da1ii M C la lr ε d x0 r w D hC hz.ne (hη la h3 (by linarith)) (hη lr (by linarith) (by linarith)),
    c19_da2 M C la lr ε d x0 r w D hC hr hz.ne (hη _ (by linarith) (by linarith)) (hη _ (by linarith) (by linarith))
      (hη _ (by linarith) (by linarith))⟩

example : (3 : ℝ) ≤ 6 ∧ (6 : ℝ) ≤ 12 ∧ 2 * (12 : ℝ) ≤ 71 := by norm_num

/-- **C19, violated**: for an exponent from 72 on there is a density below close packing at which the first-order term is
not even continuous. -/
theorem c19_violated_pole (M C l ε d : ℝ) (w D : Fin m → Fin m → ℝ) (hM : 0 < M) (hC : 0 < C) (hl : 72 ≤ l)
    (hε : 0 < ε) (hd : 0 < d) (hD : 0 < ∑ k, ∑ l, w k l * D k l ^ 3) :
    ∃ r, 0 ≤ zetax M (r / C) C w D ∧ zetax M (r / C) C w D < 1 ∧
      ¬ ContinuousAt (fun r => a1sEff M (r / C) C l (zetax M (r / C) C w D) ε d) r := by
  have hlt : ∀ ρ, zetax M ρ C w D < 1 ↔ ρ < densityMax M C w D 1 := fun ρ => c18_lt_iff M C w D 1 ρ hM hC hD
  have h1 := c150_violated_exponent l hl
  have hR : 0 < densityMax M C w D 1 := by
    have hpi := Real.pi_pos
    unfold densityMax; positivity
  -- a packing fraction below one beyond the pole
  obtain ⟨z₁, hz0, hz1, hv⟩ := attains l ((1 + etaEff l 1) / 2) (by linarith) (by linarith) (by linarith)
  have hz : ∀ z, zetax M (z * densityMax M C w D 1) C w D = z := by
    intro z
    have h1 := c18_zetax_linear M C w D z 0 (densityMax M C w D 1) 0
    rw [c18_at_density_max M C w D 1 hM.ne' hC.ne' hD.ne'] at h1
    simpa using h1
  have hzz : ∀ ρ, zetax M ρ C w D = ρ / densityMax M C w D 1 := by
    intro ρ
    have := hz (ρ / densityMax M C w D 1)
    rwa [div_mul_cancel₀ _ hR.ne'] at this
  by_contra hno
  push Not at hno
  have hcont : ContinuousOn (fun r => a1sEff M (r / C) C l (zetax M (r / C) C w D) ε d)
      (Set.Icc 0 (z₁ * densityMax M C w D 1 * C)) := by
    intro r hr
    refine (hno r ?_ ?_).continuousWithinAt
    · rw [hzz]; have := hr.1; positivity
    · rw [hlt, div_lt_iff₀ hC]
      refine hr.2.trans_lt ?_
      exact mul_lt_mul_of_pos_right (by nlinarith) hC
  obtain ⟨B, hB⟩ := isCompact_Icc.exists_bound_of_continuousOn hcont
  -- but the energy is unbounded there
  have hpi := Real.pi_pos
  have h3 : 0 < l - 3 := by linarith
  have hK : 0 < 2 * Real.pi * C * (ε * (d ^ 3 * M ^ 2) / (l - 3)) * densityMax M C w D 1 := by positivity
  obtain ⟨δ, hδ, hδ1, -, hδ3⟩ := contact_large
    (|B| / (0.98 * (2 * Real.pi * C * (ε * (d ^ 3 * M ^ 2) / (l - 3)) * densityMax M C w D 1))) 0.001 (by norm_num)
  have hiv := intermediate_value_Icc (by linarith : (0 : ℝ) ≤ z₁) (etaEff_cont l).continuousOn
  obtain ⟨z, ⟨hza, hzb⟩, hzv⟩ := hiv (show 1 - δ ∈ Set.Icc (etaEff l 0) (etaEff l z₁) from
    ⟨by rw [etaEff_zero]; linarith, by rw [hv]; linarith⟩)
  have hz98 : 0.98 < z := by
    by_contra hc
    have := mie_moderate (1 / l) z (inv_third (by linarith : (3 : ℝ) ≤ l)).1 (inv_third (by linarith : (3 : ℝ) ≤ l)).2 hza
      (by norm_num at hc ⊢; exact hc)
    rw [← etaEff_eq, hzv] at this
    linarith
  have hb := hB (z * densityMax M C w D 1 * C) ⟨by positivity, by
    have := mul_le_mul_of_nonneg_right hzb hR.le
    exact mul_le_mul_of_nonneg_right this hC.le⟩
  simp only [mul_div_cancel_right₀ _ hC.ne', hz] at hb
  have e : a1sEff M (z * densityMax M C w D 1) C l z ε d =
      -((1 - etaEff l z / 2) / (1 - etaEff l z) ^ 3
        * (2 * Real.pi * C * (ε * (d ^ 3 * M ^ 2) / (l - 3)) * densityMax M C w D 1) * z) := by
    simp only [a1sEff]; ring
  rw [e, hzv, norm_neg, Real.norm_eq_abs] at hb
  generalize 2 * Real.pi * C * (ε * (d ^ 3 * M ^ 2) / (l - 3)) * densityMax M C w D 1 = K at *
  have hg : |B| / (0.98 * K) < (1 - (1 - δ) / 2) / (1 - (1 - δ)) ^ 3 := by
    refine hδ3.trans ?_
    rw [show 1 - (1 - δ) = δ by ring]
    exact div_lt_div_of_pos_right (by linarith) (by positivity)
  generalize (1 - (1 - δ) / 2) / (1 - (1 - δ)) ^ 3 = g at *
  have hg0 : 0 < g := lt_of_le_of_lt (by positivity) hg
  rw [div_lt_iff₀ (by positivity)] at hg
  have : g * K * 0.98 < g * K * z := mul_lt_mul_of_pos_left hz98 (mul_pos hg0 hK)
  have := le_abs_self (g * K * z)
  linarith [le_abs_self B]

example : (0 : ℝ) < ∑ k : Fin 1, ∑ l : Fin 1, (fun _ _ => 1 : Fin 1 → Fin 1 → ℝ) k l * (fun _ _ => 0.3 : Fin 1 → Fin 1 → ℝ) k l ^ 3 := by
  norm_num

end Verif.Props
