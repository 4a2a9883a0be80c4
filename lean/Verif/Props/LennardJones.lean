import Verif.Props.SecondOrderMie
import Verif.Props.EffectivePacking

/-!
# Lennard-Jones groups: the hard-sphere diameter and the brackets of the perturbation terms

The exponents 12 and 6 are the values most used.  The quadrature for the diameter becomes a sum of rational numbers once the
exponential is bounded by polynomials.  The brackets of the first- and second-order terms contain quotients of polynomials in
the packing fraction; these are bounded by polynomials of degree three or four, which leaves polynomials in two variables, and
these are shown positive on rectangles as in C150.
-/

namespace Verif.Props
open Verif Verif.Saft Verif.GammaMie Verif.MieTerms

/-! ## The diameter -/

/-- The exponent of the Boltzmann factor at a node of the quadrature, for `T = t ε`. -/
private def nodeX (t : ℚ) (p : ℤ × ℤ) : ℚ :=
  4 / t * ((2 / ((p.2 : ℚ) / 1000000000 + 1)) ^ 12 - (2 / ((p.2 : ℚ) / 1000000000 + 1)) ^ 6)

/-- The Taylor polynomial of the exponential. -/
private def tay (X : ℚ) : ℚ := 1 + X + X ^ 2 / 2 + X ^ 3 / 6 + X ^ 4 / 24 + X ^ 5 / 120

/-- The quadrature with the exponential replaced by its Taylor polynomial. -/
private def lowSum (t : ℚ) : ℚ := (gauss40.map fun p => (p.1 : ℚ) / 1000000000 * (1 - 1 / tay (nodeX t p))).sum

/-- The quadrature with the exponential replaced by a power. -/
private def upSum (t : ℚ) : ℚ := (gauss40.map fun p =>
  (p.1 : ℚ) / 1000000000 * (1 - if nodeX t p ≤ 8 then (1 - nodeX t p / 8) ^ 8 else 0)).sum

private theorem cast_sum (l : List (ℤ × ℤ)) (f : ℤ × ℤ → ℚ) : (((l.map f).sum : ℚ) : ℝ) = (l.map fun p => ((f p : ℚ) : ℝ)).sum := by
  induction l with
  | nil => simp
  | cons p t ih => simp only [List.map_cons, List.sum_cons, Rat.cast_add, ih]

private theorem tay_le (X : ℝ) (h : 0 ≤ X) : 1 + X + X ^ 2 / 2 + X ^ 3 / 6 + X ^ 4 / 24 + X ^ 5 / 120 ≤ Real.exp X := by
  have := Real.sum_le_exp_of_nonneg h 6
  simp only [Finset.sum_range_succ, Finset.sum_range_zero, Nat.factorial] at this
  norm_num at this
  linarith

private theorem node_range {p : ℤ × ℤ} (hp : p ∈ gauss40) :
    (0 : ℝ) < (p.1 / 1000000000 : ℝ) ∧ (0 : ℝ) < (p.2 / 1000000000 : ℝ) + 1 ∧ (p.2 / 1000000000 : ℝ) + 1 < 2 := by
  obtain ⟨h1, h2, h3⟩ := c60_tables.2.1 p hp
  have a : (0 : ℝ) < p.1 := by exact_mod_cast h1
  have b : (-1000000000 : ℝ) < p.2 := by exact_mod_cast h2
  have c : (p.2 : ℝ) < 1000000000 := by exact_mod_cast h3
  refine ⟨by positivity, ?_, ?_⟩
  · have : (-1 : ℝ) < p.2 / 1000000000 := by rw [lt_div_iff₀ (by norm_num)]; linarith
    linarith
  · have : (p.2 : ℝ) / 1000000000 < 1 := by rw [div_lt_iff₀ (by norm_num)]; linarith
    linarith

private theorem prefactor_12_6 : prefactor 12 6 = 4 := by
  unfold prefactor
  norm_num

private theorem int_12_6 (σ c y : ℝ) (hσ : 0 < σ) (hy : 0 < y) :
    dkkInt (0.5 * σ * y) c σ 12 6 = 1 - Real.exp (-(c * ((2 / y) ^ 12 - (2 / y) ^ 6))) := by
  have e : σ / (0.5 * σ * y) = 2 / y := by field_simp; norm_num
  have a : (2 / y) ^ (12 : ℝ) = (2 / y) ^ 12 := by exact_mod_cast Real.rpow_natCast (2 / y) 12
  have b : (2 / y) ^ (6 : ℝ) = (2 / y) ^ 6 := by exact_mod_cast Real.rpow_natCast (2 / y) 6
  unfold dkkInt
  rw [e, a, b]
  congr 1
  congr 1
  ring

/-- A bound from below of the diameter, from the Taylor polynomial of degree five of the exponential. -/
private theorem lj_diameter_ge (ε σ T : ℝ) (t c : ℚ) (hσ : 0 < σ) (hT : 0 < T) (ht : 0 < t) (hs : 2 * c ≤ lowSum t)
    (h : T ≤ t * ε) : c * σ ≤ groupDiameter ε σ T 12 6 := by
  have ht' : (0 : ℝ) < t := by exact_mod_cast ht
  have hs' : (2 : ℝ) * c ≤ (lowSum t : ℝ) := by exact_mod_cast hs
  have main : (lowSum t : ℝ) ≤ (gauss40.map fun p =>
      (p.1 / 1000000000 : ℝ) * dkkInt (0.5 * σ * ((p.2 / 1000000000 : ℝ) + 1)) (4 * ε / T) σ 12 6).sum := by
    rw [lowSum, cast_sum]
    refine List.sum_le_sum fun p hp => ?_
    obtain ⟨h1, h2, h3⟩ := node_range hp
    push_cast
    refine mul_le_mul_of_nonneg_left ?_ h1.le
    rw [int_12_6 _ _ _ hσ h2]
    simp only [tay, nodeX]
    push_cast
    generalize (p.2 / 1000000000 : ℝ) + 1 = y at *
    have hy : 1 ≤ 2 / y := by rw [le_div_iff₀ h2]; linarith
    have hq : 0 ≤ (2 / y) ^ 12 - (2 / y) ^ 6 := sub_nonneg.2 (pow_le_pow_right₀ hy (by norm_num))
    generalize (2 / y) ^ 12 - (2 / y) ^ 6 = q at *
    have hX : 0 ≤ 4 / (t : ℝ) * q := by positivity
    have hle : 4 / (t : ℝ) * q ≤ 4 * ε / T * q := by
      refine mul_le_mul_of_nonneg_right ?_ hq
      rw [div_le_div_iff₀ ht' hT]
      nlinarith
    have t1 := tay_le _ hX
    have t0 : 0 < 1 + 4 / (t : ℝ) * q + (4 / (t : ℝ) * q) ^ 2 / 2 + (4 / (t : ℝ) * q) ^ 3 / 6 + (4 / (t : ℝ) * q) ^ 4 / 24
      + (4 / (t : ℝ) * q) ^ 5 / 120 := by positivity
    have t2 := one_div_le_one_div_of_le t0 t1
    have t3 : Real.exp (-(4 * ε / T * q)) ≤ 1 / Real.exp (4 / (t : ℝ) * q) := by
      rw [one_div, ← Real.exp_neg]
      exact Real.exp_le_exp.2 (by linarith)
    linarith
  unfold groupDiameter dkk
  rw [prefactor_12_6]
  refine le_trans ?_ (mul_le_mul_of_nonneg_left (hs'.trans main) (by positivity))
  norm_num
  linarith

/-- A bound from above, from `(1 - X/8)⁸ ≤ exp (-X)`. -/
private theorem lj_diameter_le (ε σ T : ℝ) (t c : ℚ) (hσ : 0 < σ) (hT : 0 < T) (ht : 0 < t) (hs : upSum t ≤ 2 * c)
    (h : t * ε ≤ T) : groupDiameter ε σ T 12 6 ≤ c * σ := by
  have ht' : (0 : ℝ) < t := by exact_mod_cast ht
  have hs' : (upSum t : ℝ) ≤ (2 : ℝ) * c := by exact_mod_cast hs
  have main : (gauss40.map fun p =>
      (p.1 / 1000000000 : ℝ) * dkkInt (0.5 * σ * ((p.2 / 1000000000 : ℝ) + 1)) (4 * ε / T) σ 12 6).sum ≤ (upSum t : ℝ) := by
    rw [upSum, cast_sum]
    refine List.sum_le_sum fun p hp => ?_
    obtain ⟨h1, h2, h3⟩ := node_range hp
    push_cast
    refine mul_le_mul_of_nonneg_left ?_ h1.le
    rw [int_12_6 _ _ _ hσ h2]
    refine sub_le_sub_left ?_ _
    split_ifs with h8
    · have h8' := (Rat.cast_le (K := ℝ)).2 h8
      simp only [nodeX] at h8' ⊢
      push_cast at h8' ⊢
      generalize (p.2 / 1000000000 : ℝ) + 1 = y at *
      have hy : 1 ≤ 2 / y := by rw [le_div_iff₀ h2]; linarith
      have hq : 0 ≤ (2 / y) ^ 12 - (2 / y) ^ 6 := sub_nonneg.2 (pow_le_pow_right₀ hy (by norm_num))
      generalize (2 / y) ^ 12 - (2 / y) ^ 6 = q at *
      have hle : 4 * ε / T * q ≤ 4 / (t : ℝ) * q := by
        refine mul_le_mul_of_nonneg_right ?_ hq
        rw [div_le_div_iff₀ hT ht']
        nlinarith
      have := Real.one_sub_div_pow_le_exp_neg (n := 8) (t := 4 / (t : ℝ) * q) (by push_cast; exact h8')
      push_cast at this
      exact this.trans (Real.exp_le_exp.2 (by linarith))
    · push_cast
      exact (Real.exp_pos _).le
  unfold groupDiameter dkk
  rw [prefactor_12_6]
  refine le_trans (mul_le_mul_of_nonneg_left (main.trans hs') (by positivity)) ?_
  norm_num
  linarith

private theorem lj_sums : 2 * (83/100) ≤ lowSum 40 ∧ 2 * (956/1000) ≤ lowSum 2 ∧ 2 * (981/1000) ≤ lowSum (1/2) ∧ 2 * (8625/10000) ≤ lowSum 20
    ∧ upSum 12 ≤ 2 * (9/10) := by
  refine ⟨?_, ?_, ?_, ?_, ?_⟩ <;> decide +kernel

/-- **C60** (Lennard-Jones): how far the hard-sphere diameter lies below the diameter of the group. -/
theorem c60_lennard_jones (ε σ T : ℝ) (hσ : 0 < σ) (hT : 0 < T) :
    (T ≤ ε / 2 → 0.981 * σ ≤ groupDiameter ε σ T 12 6) ∧ (T ≤ 2 * ε → 0.956 * σ ≤ groupDiameter ε σ T 12 6) ∧
    (T ≤ 20 * ε → 0.8625 * σ ≤ groupDiameter ε σ T 12 6) ∧ (T ≤ 40 * ε → 0.83 * σ ≤ groupDiameter ε σ T 12 6) ∧
    (12 * ε ≤ T → groupDiameter ε σ T 12 6 ≤ 0.9 * σ) := by
  obtain ⟨s1, s2, s3, s4, s5⟩ := lj_sums
  refine ⟨fun h => ?_, fun h => ?_, fun h => ?_, fun h => ?_, fun h => ?_⟩
  · have := lj_diameter_ge ε σ T _ _ hσ hT (by norm_num) s3 (by push_cast; linarith)
    norm_num at this ⊢; exact this
  · have := lj_diameter_ge ε σ T _ _ hσ hT (by norm_num) s2 (by push_cast; linarith)
    norm_num at this ⊢; exact this
  · have := lj_diameter_ge ε σ T _ _ hσ hT (by norm_num) s4 (by push_cast; linarith)
    norm_num at this ⊢; exact this
  · have := lj_diameter_ge ε σ T _ _ hσ hT (by norm_num) s1 (by push_cast; linarith)
    norm_num at this ⊢; exact this
  · have := lj_diameter_le ε σ T _ _ hσ hT (by norm_num) s5 (by push_cast; linarith)
    norm_num at this ⊢; exact this

example : (0.981 : ℝ) * 3 ≤ groupDiameter 400 3 200 12 6 :=
  (c60_lennard_jones 400 3 200 (by norm_num) (by norm_num)).1 (by norm_num)

/-! ## Bounds -/

/-- The effective packing fraction of the exponent 6. -/
private noncomputable def lj6 (z : ℝ) : ℝ := (166219/337500) * z + (-883/6000) * z ^ 2 + (551/7500) * z ^ 3 + (-4939/45000) * z ^ 4

private theorem lj6_eq (z : ℝ) : etaEff 6 z = lj6 z := by
  simp only [etaEff, ceff, cklCoef, Matrix.cons_val, lj6]
  ring

/-- The effective packing fraction of the exponent 12. -/
private noncomputable def lj12 (z : ℝ) : ℝ := (8126713/10800000) * z + (611/3200) * z ^ 2 + (-46019/45000) * z ^ 3 + (332249/360000) * z ^ 4

private theorem lj12_eq (z : ℝ) : etaEff 12 z = lj12 z := by
  simp only [etaEff, ceff, cklCoef, Matrix.cons_val, lj12]
  ring

/-- The effective packing fraction of the exponent 18. -/
private noncomputable def lj18 (z : ℝ) : ℝ := (14765531/18225000) * z + (54007/162000) * z ^ 2 + (-1426013/1215000) * z ^ 3 + (291071/303750) * z ^ 4

private theorem lj18_eq (z : ℝ) : etaEff 18 z = lj18 z := by
  simp only [etaEff, ceff, cklCoef, Matrix.cons_val, lj18]
  ring

/-- The effective packing fraction of the exponent 24. -/
private noncomputable def lj24 (z : ℝ) : ℝ := (71446699/86400000) * z + (170381/384000) * z ^ 2 + (-25589/20000) * z ^ 3 + (2785061/2880000) * z ^ 4

private theorem lj24_eq (z : ℝ) : etaEff 24 z = lj24 z := by
  simp only [etaEff, ceff, cklCoef, Matrix.cons_val, lj24]
  ring

/-- A bound of the reduced contact value of the exponent 6. -/
private noncomputable def low6 (z : ℝ) : ℝ := (12493/12500) + (-177137/100000) * z + (166/3125) * z ^ 2 + (40191/50000) * z ^ 3

/-- From below. -/
private theorem low6_le (z : ℝ) (h0 : 0 ≤ z) (h1 : z ≤ 13/20) :
    low6 z * (1 - lj6 z) ^ 3 ≤ (1 - lj6 z / 2) * (1 - z) ^ 3 := by
  have hd : 0 ≤ 13/20 - z := by linarith
  have key : (1 - lj6 z / 2) * (1 - z) ^ 3 - low6 z * (1 - lj6 z) ^ 3 =
      (18350080000000000/51185893014090757) * (13/20 - z) ^ 15 +
      (8463732184186880000/1382019111380450439) * z ^ 1 * (13/20 - z) ^ 14 +
      (12726501275536903897088/310954300060601348775) * z ^ 2 * (13/20 - z) ^ 13 +
      (4832520821917746056372420608/30273195078015275541796875) * z ^ 3 * (13/20 - z) ^ 12 +
      (64340301272119641802850834432/151365975390076377708984375) * z ^ 4 * (13/20 - z) ^ 11 +
      (69687152927431420238305721344/84092208550042432060546875) * z ^ 5 * (13/20 - z) ^ 10 +
      (1534865441445934111416317554744/1261383128250636480908203125) * z ^ 6 * (13/20 - z) ^ 9 +
      (3443276042277002089402245803677/2522766256501272961816406250) * z ^ 7 * (13/20 - z) ^ 8 +
      (5028681473668279029172607690189/4204610427502121603027343750) * z ^ 8 * (13/20 - z) ^ 7 +
      (215966385750328312642129803699583/252276625650127296181640625000) * z ^ 9 * (13/20 - z) ^ 6 +
      (53108860372971289939917553999009/100910650260050918472656250000) * z ^ 10 * (13/20 - z) ^ 5 +
      (116021594145719658255083531197927/420461042750212160302734375000) * z ^ 11 * (13/20 - z) ^ 4 +
      (33766343267257867242869874596182927/302731950780152755417968750000000) * z ^ 12 * (13/20 - z) ^ 3 +
      (462949074854931975645816447527301967/15742061440567943281734375000000000) * z ^ 13 * (13/20 - z) ^ 2 +
      (67400989521299963566098839183269319/17491179378408825868593750000000000) * z ^ 14 * (13/20 - z) ^ 1 +
      (186500688931040846122065083055707503/2098941525409059104231250000000000000) * z ^ 15 := by
    simp only [low6, lj6]
    ring
  refine sub_nonneg.1 ?_
  rw [key]
  clear key
  positivity

/-- A bound of the reduced contact value of the exponent 12. -/
private noncomputable def up12 (z : ℝ) : ℝ := (25051/25000) + (-93687/100000) * z + (-104819/100000) * z ^ 2 + (93631/100000) * z ^ 3

/-- From above. -/
private theorem up12_le (z : ℝ) (h0 : 0 ≤ z) (h1 : z ≤ 13/20) :
    (1 - lj12 z / 2) * (1 - z) ^ 3 ≤ up12 z * (1 - lj12 z) ^ 3 := by
  have hd : 0 ≤ 13/20 - z := by linarith
  have key : up12 z * (1 - lj12 z) ^ 3 - (1 - lj12 z / 2) * (1 - z) ^ 3 =
      (66846720000000000/51185893014090757) * (13/20 - z) ^ 15 +
      (129058071403397120000/1382019111380450439) * z ^ 1 * (13/20 - z) ^ 14 +
      (209274962980681421522432/310954300060601348775) * z ^ 2 * (13/20 - z) ^ 13 +
      (63327150235649645818601207957/30273195078015275541796875) * z ^ 3 * (13/20 - z) ^ 12 +
      (918286699863459717803514709567/269095067360135782593750000) * z ^ 4 * (13/20 - z) ^ 11 +
      (34595021128904964811101279888647/12109278031206110216718750000) * z ^ 5 * (13/20 - z) ^ 10 +
      (871909222845390691491879191494099/968742242496488817337500000000) * z ^ 6 * (13/20 - z) ^ 9 +
      (71892921408310109978605666364267/143517369258739084050000000000) * z ^ 7 * (13/20 - z) ^ 8 +
      (16600665209562699103887042921376871/6458281616643258782250000000000) * z ^ 8 * (13/20 - z) ^ 7 +
      (2273726397644899386856456573316462399/516662529331460702580000000000000) * z ^ 9 * (13/20 - z) ^ 6 +
      (447801733895485399239012490616479009/114813895406991267240000000000000) * z ^ 10 * (13/20 - z) ^ 5 +
      (8562328260176186860391088279949144091/4133300234651685620640000000000000) * z ^ 11 * (13/20 - z) ^ 4 +
      (3273673554453910431577993346509206911/4843711212482444086687500000000000) * z ^ 12 * (13/20 - z) ^ 3 +
      (18558281628108007835487385389022969753/143287741467925101515520000000000000) * z ^ 13 * (13/20 - z) ^ 2 +
      (4092359530020137479460971998330191422621/322397418302831478409920000000000000000) * z ^ 14 * (13/20 - z) ^ 1 +
      (2725801786046964841747458080446755496379/6447948366056629568198400000000000000000) * z ^ 15 := by
    simp only [up12, lj12]
    ring
  refine sub_nonneg.1 ?_
  rw [key]
  clear key
  positivity

/-- A bound of the reduced contact value of the exponent 12. -/
private noncomputable def low12 (z : ℝ) : ℝ := (99903/100000) + (-2767/2500) * z + (12093/50000) * z ^ 2 + (-222831/100000) * z ^ 3 + (9777/4000) * z ^ 4

/-- From below. -/
private theorem low12_le (z : ℝ) (h0 : 0 ≤ z) (h1 : z ≤ 3/5) :
    low12 z * (1 - lj12 z) ^ 3 ≤ (1 - lj12 z / 2) * (1 - z) ^ 3 := by
  have hd : 0 ≤ 3/5 - z := by linarith
  have key : (1 - lj12 z / 2) * (1 - z) ^ 3 - low12 z * (1 - lj12 z) ^ 3 =
      (4736328125/1377495072) * (3/5 - z) ^ 16 +
      (39354301615625/1586874322944) * z ^ 1 * (3/5 - z) ^ 15 +
      (176650539232327931/1015599566684160) * z ^ 2 * (3/5 - z) ^ 14 +
      (62276878676728171922879197/54842376600944640000000) * z ^ 3 * (3/5 - z) ^ 13 +
      (131508168810910607199907147/27421188300472320000000) * z ^ 4 * (3/5 - z) ^ 12 +
      (643220404139617209241246973/50779978334208000000000) * z ^ 5 * (3/5 - z) ^ 11 +
      (147433685461272301551241582547/6855297075118080000000000) * z ^ 6 * (3/5 - z) ^ 10 +
      (40512608642931452776585371703/1713824268779520000000000) * z ^ 7 * (3/5 - z) ^ 9 +
      (20606832610152072875028853241/1269499458355200000000000) * z ^ 8 * (3/5 - z) ^ 8 +
      (44130686889080900593253963189/7140934453248000000000000) * z ^ 9 * (3/5 - z) ^ 7 +
      (60262050539305056886931796029/57127475625984000000000000) * z ^ 10 * (3/5 - z) ^ 6 +
      (20455042223163755241247697873/31737486458880000000000000) * z ^ 11 * (3/5 - z) ^ 5 +
      (4183522250318209535344412692151/4284560671948800000000000000) * z ^ 12 * (3/5 - z) ^ 4 +
      (2580299383749722522643829845157/4284560671948800000000000000) * z ^ 13 * (3/5 - z) ^ 3 +
      (2707049701864384135070505023/15868743229440000000000000) * z ^ 14 * (3/5 - z) ^ 2 +
      (526810796627150385821480024003/26778504199680000000000000000) * z ^ 15 * (3/5 - z) ^ 1 +
      (3827612814712162994727596669/13389252099840000000000000000) * z ^ 16 := by
    simp only [low12, lj12]
    ring
  refine sub_nonneg.1 ?_
  rw [key]
  clear key
  positivity

/-- A bound of the reduced contact value of the exponent 18. -/
private noncomputable def up18 (z : ℝ) : ℝ := (2001/2000) + (-48843/50000) * z + (37251/50000) * z ^ 2 + (-80337/25000) * z ^ 3 + (136007/50000) * z ^ 4

/-- From above. -/
private theorem up18_le (z : ℝ) (h0 : 0 ≤ z) (h1 : z ≤ 3/5) :
    (1 - lj18 z / 2) * (1 - z) ^ 3 ≤ up18 z * (1 - lj18 z) ^ 3 := by
  have hd : 0 ≤ 3/5 - z := by linarith
  have key : up18 z * (1 - lj18 z) ^ 3 - (1 - lj18 z / 2) * (1 - z) ^ 3 =
      (1220703125/688747536) * (3/5 - z) ^ 16 +
      (27929797421875/1338925209984) * z ^ 1 * (3/5 - z) ^ 15 +
      (43843417432547435/289207845356544) * z ^ 2 * (3/5 - z) ^ 14 +
      (3943484688370260593941903/5270812981623014400000) * z ^ 3 * (3/5 - z) ^ 13 +
      (3000996533363936480060181751/1317703245405753600000000) * z ^ 4 * (3/5 - z) ^ 12 +
      (19138893894103545937035441101/4392344151352512000000000) * z ^ 5 * (3/5 - z) ^ 11 +
      (766167033919908670966352504893/131770324540575360000000000) * z ^ 6 * (3/5 - z) ^ 10 +
      (4356235432005283005115306859483/658851622702876800000000000) * z ^ 7 * (3/5 - z) ^ 9 +
      (111154915460994292195782087089/14641147171175040000000000) * z ^ 8 * (3/5 - z) ^ 8 +
      (4380834381826082112663461059177/549043018919064000000000000) * z ^ 9 * (3/5 - z) ^ 7 +
      (34563332207003310455211939318157/5490430189190640000000000000) * z ^ 10 * (3/5 - z) ^ 6 +
      (1511077742691006535482663260401/457535849099220000000000000) * z ^ 11 * (3/5 - z) ^ 5 +
      (86151025199366342332334713396327/82356452837859600000000000000) * z ^ 12 * (3/5 - z) ^ 4 +
      (17511466579919121945095405173091/102945566047324500000000000000) * z ^ 13 * (3/5 - z) ^ 3 +
      (337407936188279939328982310929/34315188682441500000000000000) * z ^ 14 * (3/5 - z) ^ 2 +
      (2085414888565255875261744517813/2058911320946490000000000000000) * z ^ 15 * (3/5 - z) ^ 1 +
      (441734797627416926119724374009/1286819575591556250000000000000) * z ^ 16 := by
    simp only [up18, lj18]
    ring
  refine sub_nonneg.1 ?_
  rw [key]
  clear key
  positivity

/-- A bound of the reduced contact value of the exponent 24. -/
private noncomputable def low24 (z : ℝ) : ℝ := (3999/4000) + (-18801/20000) * z + (53661/50000) * z ^ 2 + (-89171/25000) * z ^ 3 + (5281/2000) * z ^ 4

/-- From below. -/
private theorem low24_le (z : ℝ) (h0 : 0 ≤ z) (h1 : z ≤ 3/5) :
    low24 z * (1 - lj24 z) ^ 3 ≤ (1 - lj24 z / 2) * (1 - z) ^ 3 := by
  have hd : 0 ≤ 3/5 - z := by linarith
  have key : (1 - lj24 z / 2) * (1 - z) ^ 3 - low24 z * (1 - lj24 z) ^ 3 =
      (1220703125/1377495072) * (3/5 - z) ^ 16 +
      (362338273671875/12694994583552) * z ^ 1 * (3/5 - z) ^ 15 +
      (2409838275061454335/12999674453557248) * z ^ 2 * (3/5 - z) ^ 14 +
      (534848317912313898640521967/1123171872787346227200000) * z ^ 3 * (3/5 - z) ^ 13 +
      (16876894786057440331537067101/28079296819683655680000000) * z ^ 4 * (3/5 - z) ^ 12 +
      (6511044574736708777320482679/7312316880125952000000000) * z ^ 5 * (3/5 - z) ^ 11 +
      (4957330380226158831527968342063/1754956051230228480000000000) * z ^ 6 * (3/5 - z) ^ 10 +
      (11108769882043429049917407072529/1754956051230228480000000000) * z ^ 7 * (3/5 - z) ^ 9 +
      (4063029211051483783240440438443/487487792008396800000000000) * z ^ 8 * (3/5 - z) ^ 8 +
      (49724507901869345275937239498717/7312316880125952000000000000) * z ^ 9 * (3/5 - z) ^ 7 +
      (52270855389003165164493785298899/14624633760251904000000000000) * z ^ 10 * (3/5 - z) ^ 6 +
      (500192250807789388860417447763/389990233606717440000000000) * z ^ 11 * (3/5 - z) ^ 5 +
      (833426332037599578821089958630507/2193695064037785600000000000000) * z ^ 12 * (3/5 - z) ^ 4 +
      (63625585788316739877005899766651/548423766009446400000000000000) * z ^ 13 * (3/5 - z) ^ 3 +
      (829338962791471731674256435229/28563737812992000000000000000) * z ^ 14 * (3/5 - z) ^ 2 +
      (50230151220913673301706255937/13389252099840000000000000000) * z ^ 15 * (3/5 - z) ^ 1 +
      (50278661859635689850543281/418414128120000000000000000) * z ^ 16 := by
    simp only [low24, lj24]
    ring
  refine sub_nonneg.1 ?_
  rw [key]
  clear key
  positivity

/-- The first order, with the bounds, in `u = σ/d`. -/
private noncomputable def firstPoly (u z : ℝ) : ℝ :=
  -(u ^ 3 * ((1 - z / 2 - low6 z) / 3 - 9 * z * (1 + z) / 2 / 6) - (1 - z / 2) / 3 + 9 * z * (1 + z) / 2 * (u / 2 - 1 / 3))
    + (u ^ 9 * ((1 - z / 2 - up12 z) / 9 - 9 * z * (1 + z) / 2 / 72) - (1 - z / 2) / 9 + 9 * z * (1 + z) / 2 * (u / 8 - 1 / 9))

/-- It is positive. -/
private theorem first_pos (u z : ℝ) (hu0 : 1 ≤ u) (hu1 : u ≤ 241/200) (hz0 : 0 ≤ z) (hz1 : z ≤ 13/20) :
    1/1000 ≤ firstPoly u z := by
  have ha : 0 ≤ u - 1 := by linarith
  have hb : 0 ≤ 241/200 - u := by linarith
  have hd : 0 ≤ 13/20 - z := by linarith
  obtain ⟨q0, e0⟩ : ∃ q : ℝ, q =
      (8139898880000000000000000/6473322988771790853) * (241/200 - u) ^ 9 +
      (8137715712000000000000000/719258109863532317) * (u - 1) * (241/200 - u) ^ 8 +
      (32540629164032000000000000/719258109863532317) * (u - 1) ^ 2 * (241/200 - u) ^ 7 +
      (75900075296890880000000000/719258109863532317) * (u - 1) ^ 3 * (241/200 - u) ^ 6 +
      (113800528287113830400000000/719258109863532317) * (u - 1) ^ 4 * (241/200 - u) ^ 5 +
      (113741974850006264832000000/719258109863532317) * (u - 1) ^ 5 * (241/200 - u) ^ 4 +
      (227345358787891994245120000/2157774329590596951) * (u - 1) ^ 6 * (241/200 - u) ^ 3 +
      (32454430625759149295052800/719258109863532317) * (u - 1) ^ 7 * (241/200 - u) ^ 2 +
      (623587296241591978856512/55327546912579409) * (u - 1) ^ 8 * (241/200 - u) +
      (15573726148086918363052424/12448698055330367025) * (u - 1) ^ 9 := ⟨_, rfl⟩
  have h0 : 0 ≤ q0 := by
    rw [e0]
    generalize u - 1 = a at *
    generalize 241/200 - u = b at *
    clear * - ha hb
    positivity
  obtain ⟨q1, e1⟩ : ∃ q : ℝ, q =
      (4255244288000000000000000/2157774329590596951) * (241/200 - u) ^ 9 +
      (12303719936000000000000000/719258109863532317) * (u - 1) * (241/200 - u) ^ 8 +
      (47415595687065600000000000/719258109863532317) * (u - 1) ^ 2 * (241/200 - u) ^ 7 +
      (319591211797567232000000000/2157774329590596951) * (u - 1) ^ 3 * (241/200 - u) ^ 6 +
      (153734080593821713920000000/719258109863532317) * (u - 1) ^ 4 * (241/200 - u) ^ 5 +
      (147718235176516703833600000/719258109863532317) * (u - 1) ^ 5 * (241/200 - u) ^ 4 +
      (94455591657834823012992000/719258109863532317) * (u - 1) ^ 6 * (241/200 - u) ^ 3 +
      (38728371659008861541709440/719258109863532317) * (u - 1) ^ 7 * (241/200 - u) ^ 2 +
      (273070573067644175723076/21279825735607465) * (u - 1) ^ 8 * (241/200 - u) +
      (168358386025873580635099277/124486980553303670250) * (u - 1) ^ 9 := ⟨_, rfl⟩
  have h1 : 0 ≤ q1 := by
    rw [e1]
    generalize u - 1 = a at *
    generalize 241/200 - u = b at *
    clear * - ha hb
    positivity
  obtain ⟨q2, e2⟩ : ∃ q : ℝ, q =
      (3201506816000000000000000/6473322988771790853) * (241/200 - u) ^ 9 +
      (2674736485888000000000000/719258109863532317) * (u - 1) * (241/200 - u) ^ 8 +
      (9002692166789120000000000/719258109863532317) * (u - 1) ^ 2 * (241/200 - u) ^ 7 +
      (54135370626742220800000000/2157774329590596951) * (u - 1) ^ 3 * (241/200 - u) ^ 6 +
      (24181975649355997056000000/719258109863532317) * (u - 1) ^ 4 * (241/200 - u) ^ 5 +
      (22917534895634671748480000/719258109863532317) * (u - 1) ^ 5 * (241/200 - u) ^ 4 +
      (15563242502893555797945600/719258109863532317) * (u - 1) ^ 6 * (241/200 - u) ^ 3 +
      (7297371572130110452796192/719258109863532317) * (u - 1) ^ 7 * (241/200 - u) ^ 2 +
      (4064535741024110642124717/1383188672814485225) * (u - 1) ^ 8 * (241/200 - u) +
      (977626379196067624752056797/2489739611066073405000) * (u - 1) ^ 9 := ⟨_, rfl⟩
  have h2 : 0 ≤ q2 := by
    rw [e2]
    generalize u - 1 = a at *
    generalize 241/200 - u = b at *
    clear * - ha hb
    positivity
  obtain ⟨q3, e3⟩ : ∃ q : ℝ, q =
      (235015961600000000000000/6473322988771790853) * (241/200 - u) ^ 9 +
      (137523579059200000000000/719258109863532317) * (u - 1) * (241/200 - u) ^ 8 +
      (381635651679488000000000/719258109863532317) * (u - 1) ^ 2 * (241/200 - u) ^ 7 +
      (2973359811629528320000000/2157774329590596951) * (u - 1) ^ 3 * (241/200 - u) ^ 6 +
      (2329731977083788486400000/719258109863532317) * (u - 1) ^ 4 * (241/200 - u) ^ 5 +
      (3799865699516030700512000/719258109863532317) * (u - 1) ^ 5 * (241/200 - u) ^ 4 +
      (11624241740503366660233920/2157774329590596951) * (u - 1) ^ 6 * (241/200 - u) ^ 3 +
      (11796433818091167835415624/3596290549317661585) * (u - 1) ^ 7 * (241/200 - u) ^ 2 +
      (30214449960264074080145821/27663773456289704500) * (u - 1) ^ 8 * (241/200 - u) +
      (7615899714078068733315142861/49794792221321468100000) * (u - 1) ^ 9 := ⟨_, rfl⟩
  have h3 : 0 ≤ q3 := by
    rw [e3]
    generalize u - 1 = a at *
    generalize 241/200 - u = b at *
    clear * - ha hb
    positivity
  have key : firstPoly u z - 1/1000 =
      q0 * (13/20 - z) ^ 3 + q1 * z * (13/20 - z) ^ 2 + q2 * z ^ 2 * (13/20 - z) + q3 * z ^ 3 := by
    rw [e0, e1, e2, e3]
    simp only [firstPoly, low6, up12]
    ring
  refine sub_nonneg.1 ?_
  rw [key]
  clear key e0 e1 e2 e3
  positivity

/-- The second order, with the bounds. -/
private noncomputable def secondPoly (u z : ℝ) : ℝ :=
  -(u ^ 9 * ((1 - z / 2 - low12 z) / 9 - 9 * z * (1 + z) / 2 / 72) - (1 - z / 2) / 9 + 9 * z * (1 + z) / 2 * (u / 8 - 1 / 9))
    + 2 * (u ^ 15 * ((1 - z / 2 - up18 z) / 15 - 9 * z * (1 + z) / 2 / 210) - (1 - z / 2) / 15 + 9 * z * (1 + z) / 2 * (u / 14 - 1 / 15))
    - (u ^ 21 * ((1 - z / 2 - low24 z) / 21 - 9 * z * (1 + z) / 2 / 420) - (1 - z / 2) / 21 + 9 * z * (1 + z) / 2 * (u / 20 - 1 / 21))

/-- It is positive. -/
private theorem second_pos (u z : ℝ) (hu0 : 1 ≤ u) (hu1 : u ≤ 1047/1000) (hz0 : 0 ≤ z) (hz1 : z ≤ 3/5) :
    1/100000 ≤ secondPoly u z := by
  have ha : 0 ≤ u - 1 := by linarith
  have hb : 0 ≤ 1047/1000 - u := by linarith
  have hd : 0 ≤ 3/5 - z := by linarith
  obtain ⟨q0, e0⟩ : ∃ q : ℝ, q =
      (330756250000000000000000000000000000000000000000000000000000000000/221186863515252860958158951262790932747) * (1047/1000 - u) ^ 21 +
      (330691037500000000000000000000000000000000000000000000000000000000/10532707786440612426578997679180520607) * (u - 1) * (1047/1000 - u) ^ 20 +
      (3306239777237500000000000000000000000000000000000000000000000000000/10532707786440612426578997679180520607) * (u - 1) ^ 2 * (1047/1000 - u) ^ 19 +
      (62805452677963637500000000000000000000000000000000000000000000000000/31598123359321837279736993037541561821) * (u - 1) ^ 3 * (1047/1000 - u) ^ 18 +
      (10465329458213653456250000000000000000000000000000000000000000000000/1170300865160068047397666408797835623) * (u - 1) ^ 4 * (1047/1000 - u) ^ 17 +
      (106722798056937779697456250000000000000000000000000000000000000000000/3510902595480204142192999226393506869) * (u - 1) ^ 5 * (1047/1000 - u) ^ 16 +
      (31614388781718517737605350000000000000000000000000000000000000000000/390100288386689349132555469599278541) * (u - 1) ^ 6 * (1047/1000 - u) ^ 15 +
      (1828690832202979651400203479100000000000000000000000000000000000000000/10532707786440612426578997679180520607) * (u - 1) ^ 7 * (1047/1000 - u) ^ 14 +
      (3199439572144986441730141411525206250000000000000000000000000000000000/10532707786440612426578997679180520607) * (u - 1) ^ 8 * (1047/1000 - u) ^ 13 +
      (41582424566484019301488548843418673443750000000000000000000000000000000/94794370077965511839210979112624685463) * (u - 1) ^ 9 * (1047/1000 - u) ^ 12 +
      (16628735136805005631473939256732272098500000000000000000000000000000000/31598123359321837279736993037541561821) * (u - 1) ^ 10 * (1047/1000 - u) ^ 11 +
      (16624377993705913374551409983839115858743750000000000000000000000000000/31598123359321837279736993037541561821) * (u - 1) ^ 11 * (1047/1000 - u) ^ 10 +
      (41549736398166700986080820367618702095990946562500000000000000000000000/94794370077965511839210979112624685463) * (u - 1) ^ 12 * (1047/1000 - u) ^ 9 +
      (3195246320175444188272023301179071503066374095937500000000000000000000/10532707786440612426578997679180520607) * (u - 1) ^ 13 * (1047/1000 - u) ^ 8 +
      (12777332928266170660154930754979472805427748512379375000000000000000000/73728954505084286986052983754263644249) * (u - 1) ^ 14 * (1047/1000 - u) ^ 7 +
      (2554714790859536786583496946987195867243250054589498375000000000000000/31598123359321837279736993037541561821) * (u - 1) ^ 15 * (1047/1000 - u) ^ 6 +
      (319242624554127560855797764376878608176322273320111398593750000000000/10532707786440612426578997679180520607) * (u - 1) ^ 16 * (1047/1000 - u) ^ 5 +
      (93865606759115099546920819993186005143008638330123724875781250000000/10532707786440612426578997679180520607) * (u - 1) ^ 17 * (1047/1000 - u) ^ 4 +
      (187670925773719310040105652594902640366547645272542981139885937500000/94794370077965511839210979112624685463) * (u - 1) ^ 18 * (1047/1000 - u) ^ 3 +
      (9874150576352019664701071315571508075181403668178534671234767187500/31598123359321837279736993037541561821) * (u - 1) ^ 19 * (1047/1000 - u) ^ 2 +
      (3948314993296843000446469821896478852077581110329511070313120498125/126392493437287349118947972150166247284) * (u - 1) ^ 20 * (1047/1000 - u) +
      (31575439263318940268982720704638439482036580054506888724942697292295/21233938897464274651983259321227929543712) * (u - 1) ^ 21 := ⟨_, rfl⟩
  have h0 : 0 ≤ q0 := by
    rw [e0]
    generalize u - 1 = a at *
    generalize 1047/1000 - u = b at *
    clear * - ha hb
    positivity
  obtain ⟨q1, e1⟩ : ∃ q : ℝ, q =
      (146822750000000000000000000000000000000000000000000000000000000000/31598123359321837279736993037541561821) * (1047/1000 - u) ^ 21 +
      (1025856983750000000000000000000000000000000000000000000000000000000/10532707786440612426578997679180520607) * (u - 1) * (1047/1000 - u) ^ 20 +
      (10239347652597500000000000000000000000000000000000000000000000000000/10532707786440612426578997679180520607) * (u - 1) ^ 2 * (1047/1000 - u) ^ 19 +
      (194178012235172397500000000000000000000000000000000000000000000000000/31598123359321837279736993037541561821) * (u - 1) ^ 3 * (1047/1000 - u) ^ 18 +
      (96901712124865371058750000000000000000000000000000000000000000000000/3510902595480204142192999226393506869) * (u - 1) ^ 4 * (1047/1000 - u) ^ 17 +
      (328819394612776742469532250000000000000000000000000000000000000000000/3510902595480204142192999226393506869) * (u - 1) ^ 5 * (1047/1000 - u) ^ 16 +
      (2625296993171944972806403535000000000000000000000000000000000000000000/10532707786440612426578997679180520607) * (u - 1) ^ 6 * (1047/1000 - u) ^ 15 +
      (39299124871156950887560502976505000000000000000000000000000000000000000/73728954505084286986052983754263644249) * (u - 1) ^ 7 * (1047/1000 - u) ^ 14 +
      (68630047628416879100706862421473960000000000000000000000000000000000000/73728954505084286986052983754263644249) * (u - 1) ^ 8 * (1047/1000 - u) ^ 13 +
      (890285117879018137152129762391599140740000000000000000000000000000000000/663560590545758582874476853788372798241) * (u - 1) ^ 9 * (1047/1000 - u) ^ 12 +
      (355333697340858251207639331867066325864516000000000000000000000000000000/221186863515252860958158951262790932747) * (u - 1) ^ 10 * (1047/1000 - u) ^ 11 +
      (354533343379455522366709764378167055605185510000000000000000000000000000/221186863515252860958158951262790932747) * (u - 1) ^ 11 * (1047/1000 - u) ^ 10 +
      (884277515588820081025208784428390300792838756332500000000000000000000000/663560590545758582874476853788372798241) * (u - 1) ^ 12 * (1047/1000 - u) ^ 9 +
      (67858572227890183294485650619749326721979949210647500000000000000000000/73728954505084286986052983754263644249) * (u - 1) ^ 13 * (1047/1000 - u) ^ 8 +
      (38680417837229968978405743408843567004250337662921285000000000000000000/73728954505084286986052983754263644249) * (u - 1) ^ 14 * (1047/1000 - u) ^ 7 +
      (54013890869845576679044435621114281706196954872067822779000000000000000/221186863515252860958158951262790932747) * (u - 1) ^ 15 * (1047/1000 - u) ^ 6 +
      (6733797881347453810219131810608399341487438691655542744068750000000000/73728954505084286986052983754263644249) * (u - 1) ^ 16 * (1047/1000 - u) ^ 5 +
      (1975060437602411345839335716571628369768083856387258196739406250000000/73728954505084286986052983754263644249) * (u - 1) ^ 17 * (1047/1000 - u) ^ 4 +
      (3938766853754002579104721761234704411810475169920736093342316687500000/663560590545758582874476853788372798241) * (u - 1) ^ 18 * (1047/1000 - u) ^ 3 +
      (206682146551069490260256472354377755740283239718003332418389766937500/221186863515252860958158951262790932747) * (u - 1) ^ 19 * (1047/1000 - u) ^ 2 +
      (82414015959965663535136856198785183264706039138316541238821634393425/884747454061011443832635805051163730988) * (u - 1) ^ 20 * (1047/1000 - u) +
      (469394594085153662645605498639252355583113365692603938085978578342377/106169694487321373259916296606139647718560) * (u - 1) ^ 21 := ⟨_, rfl⟩
  have h1 : 0 ≤ q1 := by
    rw [e1]
    generalize u - 1 = a at *
    generalize 1047/1000 - u = b at *
    clear * - ha hb
    positivity
  obtain ⟨q2, e2⟩ : ∃ q : ℝ, q =
      (15838550000000000000000000000000000000000000000000000000000000000/3510902595480204142192999226393506869) * (1047/1000 - u) ^ 21 +
      (110073658250000000000000000000000000000000000000000000000000000000/1170300865160068047397666408797835623) * (u - 1) * (1047/1000 - u) ^ 20 +
      (1092790573113500000000000000000000000000000000000000000000000000000/1170300865160068047397666408797835623) * (u - 1) ^ 2 * (1047/1000 - u) ^ 19 +
      (20612357458573395500000000000000000000000000000000000000000000000000/3510902595480204142192999226393506869) * (u - 1) ^ 3 * (1047/1000 - u) ^ 18 +
      (30693021871147176523750000000000000000000000000000000000000000000000/1170300865160068047397666408797835623) * (u - 1) ^ 4 * (1047/1000 - u) ^ 17 +
      (34530405925284929061968950000000000000000000000000000000000000000000/390100288386689349132555469599278541) * (u - 1) ^ 5 * (1047/1000 - u) ^ 16 +
      (822623347469884743822339308000000000000000000000000000000000000000000/3510902595480204142192999226393506869) * (u - 1) ^ 6 * (1047/1000 - u) ^ 15 +
      (12247974003047647341305149223936000000000000000000000000000000000000000/24576318168361428995350994584754548083) * (u - 1) ^ 7 * (1047/1000 - u) ^ 14 +
      (21274448049654356564368668557661297500000000000000000000000000000000000/24576318168361428995350994584754548083) * (u - 1) ^ 8 * (1047/1000 - u) ^ 13 +
      (274499719166919125567781247275595619964500000000000000000000000000000000/221186863515252860958158951262790932747) * (u - 1) ^ 9 * (1047/1000 - u) ^ 12 +
      (108974950052943478575408983486544714105134600000000000000000000000000000/73728954505084286986052983754263644249) * (u - 1) ^ 10 * (1047/1000 - u) ^ 11 +
      (108152442884729179521107569681515710506303703000000000000000000000000000/73728954505084286986052983754263644249) * (u - 1) ^ 11 * (1047/1000 - u) ^ 10 +
      (268331264175549383710762962288018192739673511489500000000000000000000000/221186863515252860958158951262790932747) * (u - 1) ^ 12 * (1047/1000 - u) ^ 9 +
      (20483710113323793581697234497633657252071163379968500000000000000000000/24576318168361428995350994584754548083) * (u - 1) ^ 13 * (1047/1000 - u) ^ 8 +
      (11615491603144301324687973288048156972498136422905296000000000000000000/24576318168361428995350994584754548083) * (u - 1) ^ 14 * (1047/1000 - u) ^ 7 +
      (16136882391326619094619894921642266243827302540677741546400000000000000/73728954505084286986052983754263644249) * (u - 1) ^ 15 * (1047/1000 - u) ^ 6 +
      (2001572759439541769594486253796544069929817707321885631365750000000000/24576318168361428995350994584754548083) * (u - 1) ^ 16 * (1047/1000 - u) ^ 5 +
      (584147861621814461577711976719108080877652990946920445803041250000000/24576318168361428995350994584754548083) * (u - 1) ^ 17 * (1047/1000 - u) ^ 4 +
      (1159238192677753959636723090622182980519515708218250971963568377500000/221186863515252860958158951262790932747) * (u - 1) ^ 18 * (1047/1000 - u) ^ 3 +
      (60538219851773250925346628032696486736528228334802626229360846907500/73728954505084286986052983754263644249) * (u - 1) ^ 19 * (1047/1000 - u) ^ 2 +
      (24026588944902854027702564759693946058872488523625039736056322684861/294915818020337147944211935017054576996) * (u - 1) ^ 20 * (1047/1000 - u) +
      (3405570443943460827020630527016427975510354192318025841207281407292781/884747454061011443832635805051163730988000) * (u - 1) ^ 21 := ⟨_, rfl⟩
  have h2 : 0 ≤ q2 := by
    rw [e2]
    generalize u - 1 = a at *
    generalize 1047/1000 - u = b at *
    clear * - ha hb
    positivity
  obtain ⟨q3, e3⟩ : ∃ q : ℝ, q =
      (266658940000000000000000000000000000000000000000000000000000000000/221186863515252860958158951262790932747) * (1047/1000 - u) ^ 21 +
      (261782271700000000000000000000000000000000000000000000000000000000/10532707786440612426578997679180520607) * (u - 1) * (1047/1000 - u) ^ 20 +
      (2569988453562700000000000000000000000000000000000000000000000000000/10532707786440612426578997679180520607) * (u - 1) ^ 2 * (1047/1000 - u) ^ 19 +
      (47938321801801069900000000000000000000000000000000000000000000000000/31598123359321837279736993037541561821) * (u - 1) ^ 3 * (1047/1000 - u) ^ 18 +
      (2614659867440971817350000000000000000000000000000000000000000000000/390100288386689349132555469599278541) * (u - 1) ^ 4 * (1047/1000 - u) ^ 17 +
      (78550221964094431315393330000000000000000000000000000000000000000000/3510902595480204142192999226393506869) * (u - 1) ^ 5 * (1047/1000 - u) ^ 16 +
      (205651180537677210656834072000000000000000000000000000000000000000000/3510902595480204142192999226393506869) * (u - 1) ^ 6 * (1047/1000 - u) ^ 15 +
      (9085745739091312760556798701650000000000000000000000000000000000000000/73728954505084286986052983754263644249) * (u - 1) ^ 7 * (1047/1000 - u) ^ 14 +
      (2230056344171109797128063733550228550000000000000000000000000000000000/10532707786440612426578997679180520607) * (u - 1) ^ 8 * (1047/1000 - u) ^ 13 +
      (28462192271701598344425489053939326700650000000000000000000000000000000/94794370077965511839210979112624685463) * (u - 1) ^ 9 * (1047/1000 - u) ^ 12 +
      (11177012245185309935033564426177764322686240000000000000000000000000000/31598123359321837279736993037541561821) * (u - 1) ^ 10 * (1047/1000 - u) ^ 11 +
      (10972467389722476097296133350433909194014498800000000000000000000000000/31598123359321837279736993037541561821) * (u - 1) ^ 11 * (1047/1000 - u) ^ 10 +
      (26927466533355465542014736161645547477527633483300000000000000000000000/94794370077965511839210979112624685463) * (u - 1) ^ 12 * (1047/1000 - u) ^ 9 +
      (2033132404227412419040725610697076310513580276747900000000000000000000/10532707786440612426578997679180520607) * (u - 1) ^ 13 * (1047/1000 - u) ^ 8 +
      (7981587925737317420994532863088047424470676697824611800000000000000000/73728954505084286986052983754263644249) * (u - 1) ^ 14 * (1047/1000 - u) ^ 7 +
      (1566457874238388472776776945198714361796789035865748094360000000000000/31598123359321837279736993037541561821) * (u - 1) ^ 15 * (1047/1000 - u) ^ 6 +
      (192108757296669491547368203041833941515342359684051515538150000000000/10532707786440612426578997679180520607) * (u - 1) ^ 16 * (1047/1000 - u) ^ 5 +
      (55422512819143283284285631532790869612557542396272448290883250000000/10532707786440612426578997679180520607) * (u - 1) ^ 17 * (1047/1000 - u) ^ 4 +
      (108695410609847025485176806393626210779980148071587857823909525500000/94794370077965511839210979112624685463) * (u - 1) ^ 18 * (1047/1000 - u) ^ 3 +
      (5607944658104207566155170804673688332877592877713970303075435431500/31598123359321837279736993037541561821) * (u - 1) ^ 19 * (1047/1000 - u) ^ 2 +
      (10990088031195951035695105679042571222332040459143100723039961793561/631962467186436745594739860750831236420) * (u - 1) ^ 20 * (1047/1000 - u) +
      (10763557736269767073736999448182660887633506937892007690622839997858367/13271211810915171657489537075767455964820000) * (u - 1) ^ 21 := ⟨_, rfl⟩
  have h3 : 0 ≤ q3 := by
    rw [e3]
    generalize u - 1 = a at *
    generalize 1047/1000 - u = b at *
    clear * - ha hb
    positivity
  obtain ⟨q4, e4⟩ : ∃ q : ℝ, q =
      (24749288000000000000000000000000000000000000000000000000000000000/221186863515252860958158951262790932747) * (1047/1000 - u) ^ 21 +
      (23847788990000000000000000000000000000000000000000000000000000000/10532707786440612426578997679180520607) * (u - 1) * (1047/1000 - u) ^ 20 +
      (229731138758360000000000000000000000000000000000000000000000000000/10532707786440612426578997679180520607) * (u - 1) ^ 2 * (1047/1000 - u) ^ 19 +
      (4203461005362499160000000000000000000000000000000000000000000000000/31598123359321837279736993037541561821) * (u - 1) ^ 3 * (1047/1000 - u) ^ 18 +
      (2023209154541058068140000000000000000000000000000000000000000000000/3510902595480204142192999226393506869) * (u - 1) ^ 4 * (1047/1000 - u) ^ 17 +
      (6618714016084992928258196000000000000000000000000000000000000000000/3510902595480204142192999226393506869) * (u - 1) ^ 5 * (1047/1000 - u) ^ 16 +
      (50916396322928191980708082760000000000000000000000000000000000000000/10532707786440612426578997679180520607) * (u - 1) ^ 6 * (1047/1000 - u) ^ 15 +
      (733873505410362344000036744821480000000000000000000000000000000000000/73728954505084286986052983754263644249) * (u - 1) ^ 7 * (1047/1000 - u) ^ 14 +
      (1232916697661720217707427409497729910000000000000000000000000000000000/73728954505084286986052983754263644249) * (u - 1) ^ 8 * (1047/1000 - u) ^ 13 +
      (15369535822010196569315675867026377611290000000000000000000000000000000/663560590545758582874476853788372798241) * (u - 1) ^ 9 * (1047/1000 - u) ^ 12 +
      (5887083131132428370328245859289587821434336000000000000000000000000000/221186863515252860958158951262790932747) * (u - 1) ^ 10 * (1047/1000 - u) ^ 11 +
      (5627779572853269534734116789211384929272024160000000000000000000000000/221186863515252860958158951262790932747) * (u - 1) ^ 11 * (1047/1000 - u) ^ 10 +
      (13421549202913171047534672816237903670147322627920000000000000000000000/663560590545758582874476853788372798241) * (u - 1) ^ 12 * (1047/1000 - u) ^ 9 +
      (982350768384171041193521053983347521500079468978160000000000000000000/73728954505084286986052983754263644249) * (u - 1) ^ 13 * (1047/1000 - u) ^ 8 +
      (532429903444795599859139011103474810496712551598391360000000000000000/73728954505084286986052983754263644249) * (u - 1) ^ 14 * (1047/1000 - u) ^ 7 +
      (704261076821896540092715832798662305564899725279198072384000000000000/221186863515252860958158951262790932747) * (u - 1) ^ 15 * (1047/1000 - u) ^ 6 +
      (82774593825358114871441702835482020240782633650600087421800000000000/73728954505084286986052983754263644249) * (u - 1) ^ 16 * (1047/1000 - u) ^ 5 +
      (22754745352523380907629858920879311791145201142974950960979000000000/73728954505084286986052983754263644249) * (u - 1) ^ 17 * (1047/1000 - u) ^ 4 +
      (42217565809287767509908324509887650318998643112082233595810026000000/663560590545758582874476853788372798241) * (u - 1) ^ 18 * (1047/1000 - u) ^ 3 +
      (2041666591524436105408299934110369593006972022556336267154373538000/221186863515252860958158951262790932747) * (u - 1) ^ 19 * (1047/1000 - u) ^ 2 +
      (926492282707057120101845518002517049603988070840303308495314547143/1105934317576264304790794756313954663735) * (u - 1) ^ 20 * (1047/1000 - u) +
      (118180209605795413177771736515289295725207636788712744936370618694103/3317802952728792914372384268941863991205000) * (u - 1) ^ 21 := ⟨_, rfl⟩
  have h4 : 0 ≤ q4 := by
    rw [e4]
    generalize u - 1 = a at *
    generalize 1047/1000 - u = b at *
    clear * - ha hb
    positivity
  have key : secondPoly u z - 1/100000 =
      q0 * (3/5 - z) ^ 4 + q1 * z * (3/5 - z) ^ 3 + q2 * z ^ 2 * (3/5 - z) ^ 2 + q3 * z ^ 3 * (3/5 - z) + q4 * z ^ 4 := by
    rw [e0, e1, e2, e3, e4]
    simp only [secondPoly, low12, up18, low24]
    ring
  refine sub_nonneg.1 ?_
  rw [key]
  clear key e0 e1 e2 e3 e4
  positivity

/-- At the packing fraction 0.8. -/
private theorem cold_neg (x : ℝ) (h0 : 1 ≤ x) (h1 : x ≤ 51/50) : -(x ^ 3 * ((1 - (4/5) / 2 - 1929/100000) / 3 - 9 * (4/5) * (1 + (4/5)) / 2 / 6) - (1 - (4/5) / 2) / 3 + 9 * (4/5) * (1 + (4/5)) / 2 * (x / 2 - 1 / 3)) + (x ^ 9 * ((1 - (4/5) / 2 - 7598/100000) / 9 - 9 * (4/5) * (1 + (4/5)) / 2 / 72) - (1 - (4/5) / 2) / 9 + 9 * (4/5) * (1 + (4/5)) / 2 * (x / 8 - 1 / 9)) ≤ -1/1000 := by
  have ha : 0 ≤ x - 1 := by linarith
  have hd : 0 ≤ 51/50 - x := by linarith
  have key : -1/1000 - (-(x ^ 3 * ((1 - (4/5) / 2 - 1929/100000) / 3 - 9 * (4/5) * (1 + (4/5)) / 2 / 6) - (1 - (4/5) / 2) / 3 + 9 * (4/5) * (1 + (4/5)) / 2 * (x / 2 - 1 / 3)) + (x ^ 9 * ((1 - (4/5) / 2 - 7598/100000) / 9 - 9 * (4/5) * (1 + (4/5)) / 2 / 72) - (1 - (4/5) / 2) / 9 + 9 * (4/5) * (1 + (4/5)) / 2 * (x / 8 - 1 / 9))) =
      (17792968750000/9) * (51/50 - x) ^ 9 +
      (20007421875000) * (x - 1) ^ 1 * (51/50 - x) ^ 8 +
      (87703617187500) * (x - 1) ^ 2 * (51/50 - x) ^ 7 +
      (219813071093750) * (x - 1) ^ 3 * (51/50 - x) ^ 6 +
      (348417779287500) * (x - 1) ^ 4 * (51/50 - x) ^ 5 +
      (363101487867000) * (x - 1) ^ 5 * (51/50 - x) ^ 4 +
      (249210895905810) * (x - 1) ^ 6 * (51/50 - x) ^ 3 +
      (543727552122699/5) * (x - 1) ^ 7 * (51/50 - x) ^ 2 +
      (27394900662163899/1000) * (x - 1) ^ 8 * (51/50 - x) ^ 1 +
      (455504746569286283/150000) * (x - 1) ^ 9 := by
    ring
  refine sub_nonneg.1 ?_
  rw [key]
  clear key
  positivity

/-- At the packing fraction 0.5. -/
private theorem hot_neg (x : ℝ) (h0 : 111/100 ≤ x) (h1 : x ≤ 29/25) : -(x ^ 9 * ((1 - (1/2) / 2 - 38134/100000) / 9 - 9 * (1/2) * (1 + (1/2)) / 2 / 72) - (1 - (1/2) / 2) / 9 + 9 * (1/2) * (1 + (1/2)) / 2 * (x / 8 - 1 / 9)) + 2 * (x ^ 15 * ((1 - (1/2) / 2 - 46625/100000) / 15 - 9 * (1/2) * (1 + (1/2)) / 2 / 210) - (1 - (1/2) / 2) / 15 + 9 * (1/2) * (1 + (1/2)) / 2 * (x / 14 - 1 / 15)) - (x ^ 21 * ((1 - (1/2) / 2 - 51756/100000) / 21 - 9 * (1/2) * (1 + (1/2)) / 2 / 420) - (1 - (1/2) / 2) / 21 + 9 * (1/2) * (1 + (1/2)) / 2 * (x / 20 - 1 / 21)) ≤ -1/10000 := by
  have ha : 0 ≤ x - 111/100 := by linarith
  have hd : 0 ≤ 29/25 - x := by linarith
  have key : -1/10000 - (-(x ^ 9 * ((1 - (1/2) / 2 - 38134/100000) / 9 - 9 * (1/2) * (1 + (1/2)) / 2 / 72) - (1 - (1/2) / 2) / 9 + 9 * (1/2) * (1 + (1/2)) / 2 * (x / 8 - 1 / 9)) + 2 * (x ^ 15 * ((1 - (1/2) / 2 - 46625/100000) / 15 - 9 * (1/2) * (1 + (1/2)) / 2 / 210) - (1 - (1/2) / 2) / 15 + 9 * (1/2) * (1 + (1/2)) / 2 * (x / 14 - 1 / 15)) - (x ^ 21 * ((1 - (1/2) / 2 - 51756/100000) / 21 - 9 * (1/2) * (1 + (1/2)) / 2 / 420) - (1 - (1/2) / 2) / 21 + 9 * (1/2) * (1 + (1/2)) / 2 * (x / 20 - 1 / 21))) =
      (720549476448179293380025887144476148112967759/1001358032226562500000) * (29/25 - x) ^ 21 +
      (2410780364289796728695864022986169216819211307/83446502685546875000) * (x - 111/100) ^ 1 * (29/25 - x) ^ 20 +
      (910535451673220258213396993245988255407721873/2086162567138671875) * (x - 111/100) ^ 2 * (29/25 - x) ^ 19 +
      (23563386915174212572804871736437632510528099172/6258487701416015625) * (x - 111/100) ^ 3 * (29/25 - x) ^ 18 +
      (45403870551928456987789213753890741291841344648/2086162567138671875) * (x - 111/100) ^ 4 * (29/25 - x) ^ 17 +
      (954916611774876678995639014619375360073298483296/10430812835693359375) * (x - 111/100) ^ 5 * (29/25 - x) ^ 16 +
      (3068864962733032952396677899138715900711962439936/10430812835693359375) * (x - 111/100) ^ 6 * (29/25 - x) ^ 15 +
      (222112386010153744483373657004166908119187889152/298023223876953125) * (x - 111/100) ^ 7 * (29/25 - x) ^ 14 +
      (3169307774456021286095680093361885531248792707072/2086162567138671875) * (x - 111/100) ^ 8 * (29/25 - x) ^ 13 +
      (47434775375122154372058520973795960091199814434816/18775463104248046875) * (x - 111/100) ^ 9 * (29/25 - x) ^ 12 +
      (108197136769579073801781204192637226118543756296192/31292438507080078125) * (x - 111/100) ^ 10 * (29/25 - x) ^ 11 +
      (122439220727140323248330689397795853313072754327552/31292438507080078125) * (x - 111/100) ^ 11 * (29/25 - x) ^ 10 +
      (68826582470135224638491389594455827713137114873856/18775463104248046875) * (x - 111/100) ^ 12 * (29/25 - x) ^ 9 +
      (5919206819151112749534464473704637726073392463872/2086162567138671875) * (x - 111/100) ^ 13 * (29/25 - x) ^ 8 +
      (537649801911894371153897879069815263264948355072/298023223876953125) * (x - 111/100) ^ 14 * (29/25 - x) ^ 7 +
      (9730583432365224845804201407023559124318217568256/10430812835693359375) * (x - 111/100) ^ 15 * (29/25 - x) ^ 6 +
      (4028549998389841853753772777500379873043625803776/10430812835693359375) * (x - 111/100) ^ 16 * (29/25 - x) ^ 5 +
      (260780883508259367457335645203878139519374983168/2086162567138671875) * (x - 111/100) ^ 17 * (29/25 - x) ^ 4 +
      (572311141294226031969202816038373624941396361216/18775463104248046875) * (x - 111/100) ^ 18 * (29/25 - x) ^ 3 +
      (32967418257090610969942953487179385724609757184/6258487701416015625) * (x - 111/100) ^ 19 * (29/25 - x) ^ 2 +
      (17999120905823608717740952339942814162408701952/31292438507080078125) * (x - 111/100) ^ 20 * (29/25 - x) ^ 1 +
      (2801780494367639978217156749714149862084182016/93877315521240234375) * (x - 111/100) ^ 21 := by
    ring
  refine sub_nonneg.1 ?_
  rw [key]
  clear key
  positivity

/-- The correction. -/
private theorem chi_lj (z : ℝ) (h0 : 0 ≤ z) (h1 : z ≤ 79/100) : 1/1000 ≤ 1 + (-64/125) * z + 4781/20 * z ^ 5 + (-109101/250) * z ^ 8 := by
  have hd : 0 ≤ 79/100 - z := by linarith
  have key : 1 + (-64/125) * z + 4781/20 * z ^ 5 + (-109101/250) * z ^ 8 - 1/1000 =
      (9990000000000000/1517108809906561) * (79/100 - z) ^ 8 +
      (75875200000000000/1517108809906561) * z ^ 1 * (79/100 - z) ^ 7 +
      (251406400000000000/1517108809906561) * z ^ 2 * (79/100 - z) ^ 6 +
      (474499200000000000/1517108809906561) * z ^ 3 * (79/100 - z) ^ 5 +
      (557732000000000000/1517108809906561) * z ^ 4 * (79/100 - z) ^ 4 +
      (1153442332180950000/1517108809906561) * z ^ 5 * (79/100 - z) ^ 3 +
      (2401490196542850000/1517108809906561) * z ^ 6 * (79/100 - z) ^ 2 +
      (2258317396542850000/1517108809906561) * z ^ 7 * (79/100 - z) ^ 1 +
      (19860794775621788339/379277202476640250) * z ^ 8 := by
    ring
  refine sub_nonneg.1 ?_
  rw [key]
  clear key
  positivity

/-! ## The brackets -/

/-- The ratio of the contact values at the effective and the true packing fraction, without `1 - z/2`. -/
private noncomputable def ratio (l z : ℝ) : ℝ := (1 - etaEff l z / 2) / (1 - etaEff l z) ^ 3 * (1 - z) ^ 3

/-- `suth`, times `x ^ (l - 3) (1 - z)³`, with the ratio as a parameter. -/
private noncomputable def red (k : ℕ) (z x R : ℝ) : ℝ :=
  x ^ k * ((1 - z / 2 - R) / k - 9 * z * (1 + z) / 2 / (k * (k - 1))) - (1 - z / 2) / k
    + 9 * z * (1 + z) / 2 * (x / (k - 1) - 1 / k)

private theorem red_anti (k : ℕ) (z x R S : ℝ) (hx : 0 ≤ x) (h : R ≤ S) : red k z x S ≤ red k z x R := by
  have : (1 - z / 2 - S) / k ≤ (1 - z / 2 - R) / k := div_le_div_of_nonneg_right (by linarith) (Nat.cast_nonneg k)
  have := mul_le_mul_of_nonneg_left (sub_le_sub_right this (9 * z * (1 + z) / 2 / (k * (k - 1)))) (pow_nonneg hx k)
  unfold red
  linarith

private theorem suth_red (k : ℕ) (l z x : ℝ) (hl : l = k + 3) (hk : 2 ≤ k) (hx : 0 < x) (hz : z < 1) :
    x ^ l * suth l z x = x ^ 3 / (1 - z) ^ 3 * red k z x (ratio l z) := by
  have hk' : (2 : ℝ) ≤ k := by exact_mod_cast hk
  have h3 : l - 3 = k := by rw [hl]; ring
  have h4 : l - 4 = k - 1 := by rw [hl]; ring
  have hz' : (1 - z) ≠ 0 := by linarith
  rw [suth_pow l z x hx (by rw [h3]; positivity) (by rw [h4]; linarith), h3, h4]
  have hp : x ^ l = x ^ 3 * x ^ k := by
    rw [show l = ((3 + k : ℕ) : ℝ) by rw [hl]; push_cast; ring, Real.rpow_natCast, pow_add]
  rw [hp]
  unfold red ratio
  generalize (1 - etaEff l z / 2) / (1 - etaEff l z) ^ 3 = H
  have hk1 : (k : ℝ) - 1 ≠ 0 := by linarith
  have hk0 : (k : ℝ) ≠ 0 := by linarith
  generalize x ^ k = b
  field_simp

private theorem ratio_ge (l z p η : ℝ) (e : etaEff l z = η) (h1 : η < 1) (h : p * (1 - η) ^ 3 ≤ (1 - η / 2) * (1 - z) ^ 3) : p ≤ ratio l z := by
  have : 0 < (1 - η) ^ 3 := pow_pos (by linarith) 3
  unfold ratio
  rw [e, div_mul_eq_mul_div, le_div_iff₀ this]
  exact h

private theorem ratio_le (l z p η : ℝ) (e : etaEff l z = η) (h1 : η < 1) (h : (1 - η / 2) * (1 - z) ^ 3 ≤ p * (1 - η) ^ 3) : ratio l z ≤ p := by
  have : 0 < (1 - η) ^ 3 := pow_pos (by linarith) 3
  unfold ratio
  rw [e, div_mul_eq_mul_div, div_le_iff₀ this]
  exact h

/-- The bracket of the first-order term is negative. -/
theorem lj_bracket_first (x z : ℝ) (h1 : 1 ≤ x) (hx : x ≤ 241/200) (h0 : 0 ≤ z) (hz : z ≤ 13/20) :
    x ^ (6 : ℝ) * suth 6 z x - x ^ (12 : ℝ) * suth 12 z x < 0 := by
  have hp : 0 < x := by linarith
  rw [suth_red 3 6 z x (by norm_num) (by norm_num) hp (by linarith), suth_red 9 12 z x (by norm_num) (by norm_num) hp (by linarith)]
  have a := red_anti 3 z x _ _ hp.le (ratio_ge 6 z _ _ (lj6_eq z) (by
    rw [← lj6_eq]; exact c150_moderate_partial _ _ (by norm_num) h0 (by norm_num; linarith)) (low6_le z h0 hz))
  have b := red_anti 9 z x _ _ hp.le (ratio_le 12 z _ _ (lj12_eq z) (by
    rw [← lj12_eq]; exact c150_moderate_partial _ _ (by norm_num) h0 (by norm_num; linarith)) (up12_le z h0 hz))
  have c := first_pos x z h1 hx h0 hz
  have d : firstPoly x z = -red 3 z x (low6 z) + red 9 z x (up12 z) := by
    unfold firstPoly red; push_cast; ring
  have e : 0 < x ^ 3 / (1 - z) ^ 3 := div_pos (pow_pos hp 3) (pow_pos (by linarith) 3)
  rw [← mul_sub]
  exact mul_neg_of_pos_of_neg e (by linarith)

/-- The bracket of the second-order term is negative. -/
theorem lj_bracket_second (x z : ℝ) (h1 : 1 ≤ x) (hx : x ≤ 1047/1000) (h0 : 0 ≤ z) (hz : z ≤ 3/5) :
    x ^ (2 * 6 : ℝ) * suth (2 * 6) z x - 2 * (x ^ (6 + 12 : ℝ) * suth (6 + 12) z x) + x ^ (2 * 12 : ℝ) * suth (2 * 12) z x < 0 := by
  have hp : 0 < x := by linarith
  have e12 : (2 * 6 : ℝ) = 12 := by norm_num
  have e18 : (6 + 12 : ℝ) = 18 := by norm_num
  have e24 : (2 * 12 : ℝ) = 24 := by norm_num
  rw [e12, e18, e24, suth_red 9 12 z x (by norm_num) (by norm_num) hp (by linarith),
    suth_red 15 18 z x (by norm_num) (by norm_num) hp (by linarith), suth_red 21 24 z x (by norm_num) (by norm_num) hp (by linarith)]
  have a := red_anti 9 z x _ _ hp.le (ratio_ge 12 z _ _ (lj12_eq z) (by
    rw [← lj12_eq]; exact c150_moderate_partial _ _ (by norm_num) h0 (by norm_num; linarith)) (low12_le z h0 hz))
  have b := red_anti 15 z x _ _ hp.le (ratio_le 18 z _ _ (lj18_eq z) (by
    rw [← lj18_eq]; exact c150_moderate_partial _ _ (by norm_num) h0 (by norm_num; linarith)) (up18_le z h0 hz))
  have c := red_anti 21 z x _ _ hp.le (ratio_ge 24 z _ _ (lj24_eq z) (by
    rw [← lj24_eq]; exact c150_moderate_partial _ _ (by norm_num) h0 (by norm_num; linarith)) (low24_le z h0 hz))
  have d := second_pos x z h1 hx h0 hz
  have f : secondPoly x z = -red 9 z x (low12 z) + 2 * red 15 z x (up18 z) - red 21 z x (low24 z) := by
    unfold secondPoly red; push_cast; ring
  have e : 0 < x ^ 3 / (1 - z) ^ 3 := div_pos (pow_pos hp 3) (pow_pos (by linarith) 3)
  have g : x ^ 3 / (1 - z) ^ 3 * red 9 z x (ratio 12 z) - 2 * (x ^ 3 / (1 - z) ^ 3 * red 15 z x (ratio 18 z))
      + x ^ 3 / (1 - z) ^ 3 * red 21 z x (ratio 24 z)
      = x ^ 3 / (1 - z) ^ 3 * (red 9 z x (ratio 12 z) - 2 * red 15 z x (ratio 18 z) + red 21 z x (ratio 24 z)) := by ring
  rw [g]
  exact mul_neg_of_pos_of_neg e (by linarith)

/-- At the packing fraction 0.8 the bracket of the first-order term is positive near contact. -/
theorem lj_bracket_cold (x : ℝ) (h1 : 1 ≤ x) (hx : x ≤ 51/50) :
    0 < x ^ (6 : ℝ) * suth 6 (4/5) x - x ^ (12 : ℝ) * suth 12 (4/5) x := by
  have hp : 0 < x := by linarith
  rw [suth_red 3 6 _ x (by norm_num) (by norm_num) hp (by norm_num), suth_red 9 12 _ x (by norm_num) (by norm_num) hp (by norm_num)]
  have a := red_anti 3 (4/5) x _ _ hp.le (ratio_le 6 (4/5) (1929/100000) _ (lj6_eq _) (by norm_num [lj6]) (by norm_num [lj6]))
  have b := red_anti 9 (4/5) x _ _ hp.le (ratio_ge 12 (4/5) (7598/100000) _ (lj12_eq _) (by norm_num [lj12]) (by norm_num [lj12]))
  have c := cold_neg x h1 hx
  have e : (0 : ℝ) < x ^ 3 / (1 - 4/5) ^ 3 := div_pos (pow_pos hp 3) (by norm_num)
  rw [← mul_sub]
  refine mul_pos e ?_
  simp only [red] at a b ⊢
  norm_num at a b c ⊢
  linarith

/-- At the packing fraction 0.5 the bracket of the second-order term is positive farther from contact. -/
theorem lj_bracket_hot (x : ℝ) (h1 : 111/100 ≤ x) (hx : x ≤ 29/25) :
    0 < x ^ (2 * 6 : ℝ) * suth (2 * 6) (1/2) x - 2 * (x ^ (6 + 12 : ℝ) * suth (6 + 12) (1/2) x)
      + x ^ (2 * 12 : ℝ) * suth (2 * 12) (1/2) x := by
  have hp : 0 < x := by linarith
  have e12 : (2 * 6 : ℝ) = 12 := by norm_num
  have e18 : (6 + 12 : ℝ) = 18 := by norm_num
  have e24 : (2 * 12 : ℝ) = 24 := by norm_num
  rw [e12, e18, e24, suth_red 9 12 _ x (by norm_num) (by norm_num) hp (by norm_num),
    suth_red 15 18 _ x (by norm_num) (by norm_num) hp (by norm_num), suth_red 21 24 _ x (by norm_num) (by norm_num) hp (by norm_num)]
  have a := red_anti 9 (1/2) x _ _ hp.le (ratio_le 12 (1/2) (38134/100000) _ (lj12_eq _) (by norm_num [lj12]) (by norm_num [lj12]))
  have b := red_anti 15 (1/2) x _ _ hp.le (ratio_ge 18 (1/2) (46625/100000) _ (lj18_eq _) (by norm_num [lj18]) (by norm_num [lj18]))
  have d := red_anti 21 (1/2) x _ _ hp.le (ratio_le 24 (1/2) (51756/100000) _ (lj24_eq _) (by norm_num [lj24]) (by norm_num [lj24]))
  have c := hot_neg x h1 hx
  have e : (0 : ℝ) < x ^ 3 / (1 - 1/2) ^ 3 := div_pos (pow_pos hp 3) (by norm_num)
  have g : x ^ 3 / (1 - 1/2) ^ 3 * red 9 (1/2) x (ratio 12 (1/2)) - 2 * (x ^ 3 / (1 - 1/2) ^ 3 * red 15 (1/2) x (ratio 18 (1/2)))
      + x ^ 3 / (1 - 1/2) ^ 3 * red 21 (1/2) x (ratio 24 (1/2))
      = x ^ 3 / (1 - 1/2) ^ 3 * (red 9 (1/2) x (ratio 12 (1/2)) - 2 * red 15 (1/2) x (ratio 18 (1/2)) + red 21 (1/2) x (ratio 24 (1/2))) := by ring
  rw [g]
  refine mul_pos e ?_
  simp only [red] at a b d ⊢
  norm_num at a b c d ⊢
  linarith

/-- The correction of the second-order term for Lennard-Jones groups is positive up to the reduced density 0.79. -/
theorem c153_lennard_jones_partial (zs : ℝ) (h0 : 0 ≤ zs) (h1 : zs ≤ 0.79) : 0 < 1 + chi zs (alphaOf 12 6) := by
  rw [c153_lennard_jones]
  have f0 : -64/125 ≤ f 0 (8/9) := by simp only [f, fmNum, fmDen, phimn, Matrix.cons_val]; norm_num
  have f1 : 4781/20 ≤ f 1 (8/9) := by simp only [f, fmNum, fmDen, phimn, Matrix.cons_val]; norm_num
  have f2 : -109101/250 ≤ f 2 (8/9) := by simp only [f, fmNum, fmDen, phimn, Matrix.cons_val]; norm_num
  have a := mul_le_mul_of_nonneg_left f0 h0
  have b := mul_le_mul_of_nonneg_left f1 (pow_nonneg h0 5)
  have c := mul_le_mul_of_nonneg_left f2 (pow_nonneg h0 8)
  have d := chi_lj zs h0 (by norm_num at h1 ⊢; exact h1)
  unfold chi
  linarith

end Verif.Props
