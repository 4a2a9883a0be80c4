import Verif.Model.PengRobinson
import Mathlib.Analysis.Calculus.Deriv.MeanValue
import Mathlib.Analysis.Calculus.Deriv.Inv
import Mathlib.Topology.Order.IntermediateValue
import Mathlib.Order.Monotone.Union
import Mathlib.Tactic.FieldSimp
import Mathlib.Tactic.LinearCombination
import Mathlib.Tactic.Positivity
import Mathlib.Tactic.NormNum
import Mathlib.Tactic.Linarith

/-! # C135: the critical point of the cubic equation of state -/

namespace Verif.Props
open Verif Verif.PengRobinson Filter Topology Set

/-- `P b / (R T)` as a function of the packing `u = b ρ`, for `t = a / (b R T)`. -/
noncomputable def reducedP (t u : ℝ) : ℝ := u / (1 - u) - t * (u ^ 2 / (1 + 2 * u - u ^ 2))

theorem reducedP_eq (R T a b ρ : ℝ) (hRT : 0 < R * T) (hb : 0 < b) :
    pressureAB R T a b ρ = R * T / b * reducedP (a / (b * (R * T))) (b * ρ) := by
  unfold pressureAB reducedP
  have e : (1 + b * ρ) + ρ * b * (1 - b * ρ) = 1 + 2 * (b * ρ) - (b * ρ) ^ 2 := by ring
  rw [e, mul_sub]
  generalize 1 - b * ρ = d1
  generalize 1 + 2 * (b * ρ) - (b * ρ) ^ 2 = d2
  have h1 : R * T * ρ / d1 = R * T / b * (b * ρ / d1) := by
    rw [div_mul_div_comm, mul_comm b d1, ← mul_assoc, mul_right_comm (R * T) b ρ, mul_div_mul_right _ _ hb.ne']
  have h2 : ρ ^ 2 * a / d2 = R * T / b * (a / (b * (R * T)) * ((b * ρ) ^ 2 / d2)) := by
    have : R * T / b * (a / (b * (R * T))) * (b * ρ) ^ 2 = ρ ^ 2 * a := by
      have hR : R * T ≠ 0 := hRT.ne'
      generalize R * T = w at hR
      field_simp
    rw [← mul_assoc, ← mul_div_assoc, this]
  rw [h1, h2]

theorem pr_den (u : ℝ) (h0 : 0 ≤ u) (h1 : u < 1) : 0 < 1 + 2 * u - u ^ 2 := by nlinarith

/-- What the sign of the derivative depends on. -/
def slopeNum (t u : ℝ) : ℝ := (1 + 2 * u - u ^ 2) ^ 2 - t * (2 * u * (1 + u) * (1 - u) ^ 2)

theorem reducedP_deriv (t u : ℝ) (h0 : 0 ≤ u) (h1 : u < 1) :
    HasDerivAt (reducedP t) (slopeNum t u / ((1 - u) ^ 2 * (1 + 2 * u - u ^ 2) ^ 2)) u := by
  have hD := pr_den u h0 h1
  have h1' : (1 - u) ≠ 0 := by linarith
  have d1 : HasDerivAt (fun u : ℝ => u / (1 - u)) ((1 * (1 - u) - u * (-1)) / (1 - u) ^ 2) u :=
    (hasDerivAt_id u).div ((hasDerivAt_id u).const_sub 1) h1'
  have d2 : HasDerivAt (fun u : ℝ => u ^ 2 / (1 + 2 * u - u ^ 2))
      ((2 * u * (1 + 2 * u - u ^ 2) - u ^ 2 * (2 - 2 * u)) / (1 + 2 * u - u ^ 2) ^ 2) u := by
    have n : HasDerivAt (fun u : ℝ => u ^ 2) (2 * u) u := by simpa using hasDerivAt_pow 2 u
    have d : HasDerivAt (fun u : ℝ => 1 + 2 * u - u ^ 2) (2 - 2 * u) u := by
      have := (((hasDerivAt_id u).const_mul 2).const_add 1).sub n
      refine (this.congr_deriv ?_)
      simp
    exact n.div d hD.ne'
  have := d1.sub (d2.const_mul t)
  refine this.congr_deriv ?_
  unfold slopeNum
  have hD' := hD.ne'
  generalize hDe : 1 + 2 * u - u ^ 2 = D at hD'
  have e1 : 1 * (1 - u) - u * (-1) = 1 := by ring
  have e2 : 2 * u * D - u ^ 2 * (2 - 2 * u) = 2 * u * (1 + u) := by rw [← hDe]; ring
  rw [e1, e2]
  field_simp

/-! ## The critical packing -/

/-- The condition for the smallest slope to be at `u`. -/
def critPoly (u : ℝ) : ℝ := 3 * u ^ 3 + 3 * u ^ 2 + 3 * u - 1

theorem critPoly_root : ∃ c : ℝ, 253076586 / 10 ^ 9 < c ∧ c < 253076587 / 10 ^ 9 ∧ critPoly c = 0 := by
  have hc : ContinuousOn critPoly (Icc (253076586 / 10 ^ 9) (253076587 / 10 ^ 9)) := by
    unfold critPoly; fun_prop
  have h0 : critPoly (253076586 / 10 ^ 9) < 0 := by unfold critPoly; norm_num
  have h1 : 0 < critPoly (253076587 / 10 ^ 9) := by unfold critPoly; norm_num
  obtain ⟨c, ⟨hc1, hc2⟩, hc0⟩ := intermediate_value_Icc (by norm_num) hc ⟨h0.le, h1.le⟩
  refine ⟨c, lt_of_le_of_ne hc1 ?_, lt_of_le_of_ne hc2 ?_, hc0⟩
  · intro h; rw [h, hc0] at h0; exact lt_irrefl _ h0
  · intro h; rw [← h, hc0] at h1; exact lt_irrefl _ h1

/-- The critical packing. -/
noncomputable def critU : ℝ := Classical.choose critPoly_root

theorem critU_spec : 253076586 / 10 ^ 9 < critU ∧ critU < 253076587 / 10 ^ 9 ∧ critPoly critU = 0 :=
  Classical.choose_spec critPoly_root

theorem critU_pos : 0 < critU := lt_trans (by norm_num) critU_spec.1
theorem critU_lt : critU < 1 := lt_trans critU_spec.2.1 (by norm_num)

/-- The critical value of `a / (b R T)`. -/
noncomputable def critT : ℝ := (1 + 2 * critU - critU ^ 2) ^ 2 / (2 * critU * (1 + critU) * (1 - critU) ^ 2)

theorem critE_pos (u : ℝ) (h0 : 0 < u) (h1 : u < 1) : 0 < 2 * u * (1 + u) * (1 - u) ^ 2 := by
  have : 0 < 1 - u := by linarith
  positivity

theorem slopeNum_crit : slopeNum critT critU = 0 := by
  unfold slopeNum critT
  rw [div_mul_cancel₀ _ (critE_pos _ critU_pos critU_lt).ne', sub_self]

/-- The derivative of `slopeNum` with respect to the packing. -/
def slopeNum' (t u : ℝ) : ℝ := 4 * (1 - u) * (1 + 2 * u - u ^ 2) - t * (2 - 4 * u - 6 * u ^ 2 + 8 * u ^ 3)

theorem slopeNum'_crit : slopeNum' critT critU = 0 := by
  have hE := (critE_pos _ critU_pos critU_lt).ne'
  have hq : critPoly critU = 0 := critU_spec.2.2
  have key : slopeNum' critT critU * (2 * critU * (1 + critU) * (1 - critU) ^ 2) = 0 := by
    have h := slopeNum_crit
    unfold slopeNum at h
    unfold critPoly at hq
    unfold slopeNum'
    linear_combination (2 - 4 * critU - 6 * critU ^ 2 + 8 * critU ^ 3) * h +
      2 * (1 - critU) * (1 + 2 * critU - critU ^ 2) * hq
  exact (mul_eq_zero.1 key).resolve_right hE

/-- The remainder of `slopeNum` at the critical packing, a quadratic polynomial in `u`. -/
def slopeQ (t c u : ℝ) : ℝ := (1 - 2 * t) * u ^ 2 + (2 * c * (1 - 2 * t) + (2 * t - 4)) * u +
  (3 * c ^ 2 * (1 - 2 * t) + 2 * c * (2 * t - 4) + (2 + 2 * t))

theorem slopeNum_taylor (t c u : ℝ) :
    slopeNum t u = slopeNum t c + slopeNum' t c * (u - c) + (u - c) ^ 2 * slopeQ t c u := by
  unfold slopeNum slopeNum' slopeQ; ring

theorem critT_bounds : (5.8773599 : ℝ) < critT ∧ critT < 5.87736 := by
  obtain ⟨h1, h2, -⟩ := critU_spec
  have hE := critE_pos _ critU_pos critU_lt
  unfold critT
  set c := critU
  constructor
  · rw [lt_div_iff₀ hE]
    have hd : (1 + 2 * (253076586 / 10 ^ 9) - (253076587 / 10 ^ 9) ^ 2 : ℝ) ≤ 1 + 2 * c - c ^ 2 := by nlinarith
    have hd2 : (1 + 2 * (253076586 / 10 ^ 9) - (253076587 / 10 ^ 9) ^ 2 : ℝ) ^ 2 ≤ (1 + 2 * c - c ^ 2) ^ 2 :=
      pow_le_pow_left₀ (by norm_num) hd 2
    have he : 2 * c * (1 + c) * (1 - c) ^ 2 ≤
        2 * (253076587 / 10 ^ 9) * (1 + 253076587 / 10 ^ 9) * (1 - 253076586 / 10 ^ 9) ^ 2 := by
      have a1 : 2 * c ≤ 2 * (253076587 / 10 ^ 9) := by linarith
      have a2 : 1 + c ≤ 1 + 253076587 / 10 ^ 9 := by linarith
      have a3 : (1 - c) ^ 2 ≤ (1 - 253076586 / 10 ^ 9) ^ 2 :=
        pow_le_pow_left₀ (by linarith) (by linarith) 2
      have hc : 0 < c := critU_pos
      gcongr
    calc _ ≤ 5.8773599 * (2 * (253076587 / 10 ^ 9) * (1 + 253076587 / 10 ^ 9) * (1 - 253076586 / 10 ^ 9) ^ 2) :=
          mul_le_mul_of_nonneg_left he (by norm_num)
      _ < _ := by norm_num
      _ ≤ _ := hd2
  · rw [div_lt_iff₀ hE]
    have hd : 1 + 2 * c - c ^ 2 ≤ (1 + 2 * (253076587 / 10 ^ 9) - (253076586 / 10 ^ 9) ^ 2 : ℝ) := by nlinarith
    have hd0 : 0 ≤ 1 + 2 * c - c ^ 2 := (pr_den c critU_pos.le critU_lt).le
    have hd2 : (1 + 2 * c - c ^ 2) ^ 2 ≤ (1 + 2 * (253076587 / 10 ^ 9) - (253076586 / 10 ^ 9) ^ 2 : ℝ) ^ 2 :=
      pow_le_pow_left₀ hd0 hd 2
    have he : 2 * (253076586 / 10 ^ 9) * (1 + 253076586 / 10 ^ 9) * (1 - 253076587 / 10 ^ 9) ^ 2 ≤
        2 * c * (1 + c) * (1 - c) ^ 2 := by
      have a1 : 2 * (253076586 / 10 ^ 9) ≤ 2 * c := by linarith
      have a2 : 1 + 253076586 / 10 ^ 9 ≤ 1 + c := by linarith
      have a3 : (1 - 253076587 / 10 ^ 9) ^ 2 ≤ (1 - c) ^ 2 :=
        pow_le_pow_left₀ (by norm_num) (by linarith) 2
      have hc : 0 < c := critU_pos
      gcongr
    calc _ ≤ _ := hd2
      _ < 5.87736 * (2 * (253076586 / 10 ^ 9) * (1 + 253076586 / 10 ^ 9) * (1 - 253076587 / 10 ^ 9) ^ 2) := by norm_num
      _ ≤ _ := mul_le_mul_of_nonneg_left he (by norm_num)

theorem slopeQ_pos (u : ℝ) (h0 : 0 ≤ u) (h1 : u ≤ 1) : 0 < slopeQ critT critU u := by
  have hc := critU_pos
  have hc1 := critU_lt
  have q0 : critU ^ 2 * slopeQ critT critU 0 = 1 := by
    have := slopeNum_taylor critT critU 0
    rw [slopeNum_crit, slopeNum'_crit] at this
    have e : slopeNum critT 0 = 1 := by unfold slopeNum; ring
    rw [e] at this
    linarith
  have q1 : (1 - critU) ^ 2 * slopeQ critT critU 1 = 4 := by
    have := slopeNum_taylor critT critU 1
    rw [slopeNum_crit, slopeNum'_crit] at this
    have e : slopeNum critT 1 = 4 := by unfold slopeNum; ring
    rw [e] at this
    linarith
  have p0 : 0 < slopeQ critT critU 0 := by
    by_contra h
    have := mul_nonpos_of_nonneg_of_nonpos (sq_nonneg critU) (not_lt.1 h)
    linarith
  have p1 : 0 < slopeQ critT critU 1 := by
    by_contra h
    have := mul_nonpos_of_nonneg_of_nonpos (sq_nonneg (1 - critU)) (not_lt.1 h)
    linarith
  -- concave, so above the straight line between its ends
  have e : slopeQ critT critU u = (1 - u) * slopeQ critT critU 0 + u * slopeQ critT critU 1 +
      (2 * critT - 1) * (u * (1 - u)) := by unfold slopeQ; ring
  have ht := critT_bounds.1
  rw [e]
  have a1 : 0 ≤ (2 * critT - 1) * (u * (1 - u)) :=
    mul_nonneg (by linarith) (mul_nonneg h0 (by linarith))
  have a2 : 0 < (1 - u) * slopeQ critT critU 0 + u * slopeQ critT critU 1 := by
    rcases h0.eq_or_lt with h | h
    · rw [← h]; linarith
    · have : 0 < u * slopeQ critT critU 1 := mul_pos h p1
      have : 0 ≤ (1 - u) * slopeQ critT critU 0 := mul_nonneg (by linarith) p0.le
      linarith
  linarith

theorem slopeNum_pos (t u : ℝ) (ht : t ≤ critT) (h0 : 0 ≤ u) (h1 : u < 1) (hu : u ≠ critU) : 0 < slopeNum t u := by
  have e : slopeNum t u = slopeNum critT u + (critT - t) * (2 * u * (1 + u) * (1 - u) ^ 2) := by unfold slopeNum; ring
  have h := slopeNum_taylor critT critU u
  rw [slopeNum_crit, slopeNum'_crit] at h
  have hq := slopeQ_pos u h0 h1.le
  have hs : 0 < (u - critU) ^ 2 := by
    have : u - critU ≠ 0 := sub_ne_zero.2 hu
    positivity
  have h2 : 0 ≤ (critT - t) * (2 * u * (1 + u) * (1 - u) ^ 2) := by
    have : 0 ≤ 1 - u := by linarith
    have : 0 ≤ critT - t := by linarith
    positivity
  rw [e, h]
  have := mul_pos hs hq
  linarith

/-- At or below the critical ratio the pressure rises with the density. -/
theorem reducedP_strictMono (t : ℝ) (ht : t ≤ critT) : StrictMonoOn (reducedP t) (Ico 0 1) := by
  have hcont : ∀ s ⊆ Ico (0 : ℝ) 1, ContinuousOn (reducedP t) s := fun s hs u hu =>
    (reducedP_deriv t u (hs hu).1 (hs hu).2).continuousAt.continuousWithinAt
  have hpos : ∀ u ∈ Ico (0 : ℝ) 1, u ≠ critU → 0 < deriv (reducedP t) u := by
    intro u hu hne
    rw [(reducedP_deriv t u hu.1 hu.2).deriv]
    have h1 := slopeNum_pos t u ht hu.1 hu.2 hne
    have h2 := pr_den u hu.1 hu.2
    have h3 : 0 < 1 - u := by linarith [hu.2]
    positivity
  have m1 : StrictMonoOn (reducedP t) (Icc 0 critU) := by
    refine strictMonoOn_of_deriv_pos (convex_Icc _ _) (hcont _ fun u hu => ⟨hu.1, lt_of_le_of_lt hu.2 critU_lt⟩) ?_
    intro u hu
    rw [interior_Icc] at hu
    exact hpos u ⟨hu.1.le, hu.2.trans critU_lt⟩ hu.2.ne
  have m2 : StrictMonoOn (reducedP t) (Ico critU 1) := by
    refine strictMonoOn_of_deriv_pos (convex_Ico _ _) (hcont _ fun u hu => ⟨critU_pos.le.trans hu.1, hu.2⟩) ?_
    intro u hu
    rw [interior_Ico] at hu
    exact hpos u ⟨critU_pos.le.trans hu.1.le, hu.2⟩ hu.1.ne'
  have := m1.union m2 (isGreatest_Icc critU_pos.le) (isLeast_Ico critU_lt)
  rwa [Icc_union_Ico_eq_Ico critU_pos.le critU_lt] at this

/-- Above the critical ratio the pressure falls somewhere. -/
theorem reducedP_loop (t : ℝ) (ht : critT < t) :
    ∃ u v, 0 < u ∧ u < v ∧ v < 1 ∧ reducedP t v < reducedP t u := by
  by_contra hcon
  push Not at hcon
  have hd := reducedP_deriv t critU critU_pos.le critU_lt
  have hneg : slopeNum t critU / ((1 - critU) ^ 2 * (1 + 2 * critU - critU ^ 2) ^ 2) < 0 := by
    refine div_neg_of_neg_of_pos ?_ ?_
    · have e : slopeNum t critU = slopeNum critT critU - (t - critT) * (2 * critU * (1 + critU) * (1 - critU) ^ 2) := by
        unfold slopeNum; ring
      rw [e, slopeNum_crit]
      have := mul_pos (sub_pos.2 ht) (critE_pos _ critU_pos critU_lt)
      linarith
    · have h2 := pr_den critU critU_pos.le critU_lt
      have h3 : 0 < 1 - critU := by linarith [critU_lt]
      positivity
  have hmono : MonotoneOn (reducedP t) (Ioo 0 1) := by
    intro u hu v hv huv
    rcases huv.eq_or_lt with rfl | h
    · exact le_rfl
    · exact hcon u v hu.1 h hv.2
  have hnn : 0 ≤ derivWithin (reducedP t) (Ioo 0 1) critU := hmono.derivWithin_nonneg
  rw [derivWithin_of_isOpen isOpen_Ioo ⟨critU_pos, critU_lt⟩, hd.deriv] at hnn
  linarith

/-! ## Densities at a pressure -/

theorem pr_zero (R T a b : ℝ) : pressureAB R T a b 0 = 0 := by unfold pressureAB; simp

theorem pr_continuous (R T a b : ℝ) (hRT : 0 < R * T) (hb : 0 < b) : ContinuousOn (pressureAB R T a b) (Ico 0 (1 / b)) := by
  intro ρ hρ
  have h0 : 0 ≤ b * ρ := mul_nonneg hb.le hρ.1
  have h1 : b * ρ < 1 := by rw [mul_comm]; exact (lt_div_iff₀ hb).1 hρ.2
  have hd := (reducedP_deriv (a / (b * (R * T))) _ h0 h1).continuousAt
  have hc : ContinuousAt (fun ρ => R * T / b * reducedP (a / (b * (R * T))) (b * ρ)) ρ := by
    refine continuousAt_const.mul ?_
    exact ContinuousAt.comp (f := fun ρ => b * ρ) hd (by fun_prop)
  have e : pressureAB R T a b = fun ρ => R * T / b * reducedP (a / (b * (R * T))) (b * ρ) :=
    funext fun ρ => reducedP_eq R T a b ρ hRT hb
  rw [e]
  exact hc.continuousWithinAt

/-- Close to the largest density the pressure exceeds every bound. -/
theorem pr_unbounded (R T a b P ρ₀ : ℝ) (hRT : 0 < R * T) (hb : 0 < b) (h0 : 0 ≤ ρ₀) (h1 : ρ₀ < 1 / b) :
    ∃ ρ, ρ₀ < ρ ∧ ρ < 1 / b ∧ P < pressureAB R T a b ρ := by
  set t := a / (b * (R * T)) with ht
  -- the attractive part is at most |t|
  have hu0 : b * ρ₀ < 1 := by rw [mul_comm]; exact (lt_div_iff₀ hb).1 h1
  have hu0' : 0 ≤ b * ρ₀ := mul_nonneg hb.le h0
  set M := |P * b / (R * T)| + |t| + 1 with hM
  have hM0 : 0 < M := by positivity
  -- a packing close to one
  set u := max ((b * ρ₀ + 1) / 2) (M / (M + 1)) with hu
  have hu1 : u < 1 := by
    rw [hu, max_lt_iff]
    exact ⟨by linarith, by rw [div_lt_one (by linarith)]; linarith⟩
  have hub : b * ρ₀ < u := lt_of_lt_of_le (by linarith) (le_max_left _ _)
  have hupos : 0 ≤ u := hu0'.trans hub.le
  have hM1 : M / (M + 1) ≤ u := le_max_right _ _
  have hrep : M ≤ u / (1 - u) := by
    rw [le_div_iff₀ (by linarith)]
    rw [div_le_iff₀ (by linarith)] at hM1
    nlinarith
  have hatt : u ^ 2 / (1 + 2 * u - u ^ 2) ≤ 1 := by
    rw [div_le_one (pr_den u hupos hu1)]
    nlinarith
  have hatt0 : 0 ≤ u ^ 2 / (1 + 2 * u - u ^ 2) := div_nonneg (sq_nonneg _) (pr_den u hupos hu1).le
  have hta : t * (u ^ 2 / (1 + 2 * u - u ^ 2)) ≤ |t| := by
    refine (le_abs_self _).trans ?_
    rw [abs_mul, abs_of_nonneg hatt0]
    exact mul_le_of_le_one_right (abs_nonneg _) hatt
  have hred : P * b / (R * T) < reducedP t u := by
    unfold reducedP
    have := le_abs_self (P * b / (R * T))
    linarith
  refine ⟨u / b, ?_, ?_, ?_⟩
  · rw [lt_div_iff₀ hb, mul_comm]; exact hub
  · exact div_lt_div_of_pos_right hu1 hb
  · rw [reducedP_eq R T a b _ hRT hb, mul_div_cancel₀ u hb.ne', ← ht]
    rw [div_lt_iff₀ hRT] at hred
    rw [div_mul_eq_mul_div, lt_div_iff₀ hb]
    linarith

/-- **C135** (when there is a loop). The pressure rises with the density, up to the density of closest packing, exactly if the ratio of
attraction to repulsion and temperature is at most the critical one, 5.87736. -/
theorem c135_monotone_iff (R T a b : ℝ) (hRT : 0 < R * T) (hb : 0 < b) :
    StrictMonoOn (pressureAB R T a b) (Ico 0 (1 / b)) ↔ a ≤ critT * (b * (R * T)) := by
  have hpos : 0 < R * T / b := div_pos hRT hb
  have hw : 0 < b * (R * T) := mul_pos hb hRT
  constructor
  · intro h
    by_contra hc
    rw [not_le] at hc
    obtain ⟨u, v, hu, huv, hv, hlt⟩ := reducedP_loop (a / (b * (R * T))) ((lt_div_iff₀ hw).2 hc)
    have m1 : u / b ∈ Ico 0 (1 / b) := ⟨by positivity, div_lt_div_of_pos_right (huv.trans hv) hb⟩
    have m2 : v / b ∈ Ico 0 (1 / b) := ⟨(div_pos (hu.trans huv) hb).le, div_lt_div_of_pos_right hv hb⟩
    have := h m1 m2 (div_lt_div_of_pos_right huv hb)
    rw [reducedP_eq R T a b _ hRT hb, reducedP_eq R T a b _ hRT hb, mul_div_cancel₀ _ hb.ne', mul_div_cancel₀ _ hb.ne'] at this
    exact absurd (mul_lt_mul_of_pos_left hlt hpos) (not_lt.2 this.le)
  · intro h ρ hρ σ hσ hlt
    rw [reducedP_eq R T a b _ hRT hb, reducedP_eq R T a b _ hRT hb]
    refine mul_lt_mul_of_pos_left ?_ hpos
    refine reducedP_strictMono _ ((div_le_iff₀ hw).2 h) ⟨mul_nonneg hb.le hρ.1, ?_⟩ ⟨mul_nonneg hb.le hσ.1, ?_⟩
      (mul_lt_mul_of_pos_left hlt hb)
    · rw [mul_comm]; exact (lt_div_iff₀ hb).1 hρ.2
    · rw [mul_comm]; exact (lt_div_iff₀ hb).1 hσ.2

/-- **C135** (supercritical fluids have one density): for every pressure. -/
theorem c135_one_density (R T a b P : ℝ) (hRT : 0 < R * T) (hb : 0 < b) (h : a ≤ critT * (b * (R * T))) (hP : 0 < P) :
    ∃! ρ, 0 < ρ ∧ ρ < 1 / b ∧ pressureAB R T a b ρ = P := by
  have hm := (c135_monotone_iff R T a b hRT hb).2 h
  have h1b : 0 < 1 / b := by positivity
  obtain ⟨σ, hσ0, hσ1, hσ⟩ := pr_unbounded R T a b P 0 hRT hb le_rfl h1b
  obtain ⟨ρ, hρ, hval⟩ := intermediate_value_Icc hσ0.le
    ((pr_continuous R T a b hRT hb).mono fun x hx => ⟨hx.1, lt_of_le_of_lt hx.2 hσ1⟩)
    (show P ∈ Icc _ _ from ⟨by rw [pr_zero]; exact hP.le, hσ.le⟩)
  have hρ0 : 0 < ρ := by
    rcases hρ.1.eq_or_lt with e | e
    · rw [← e, pr_zero] at hval; exact absurd hval hP.ne
    · exact e
  refine ⟨ρ, ⟨hρ0, lt_of_le_of_lt hρ.2 hσ1, hval⟩, ?_⟩
  rintro y ⟨hy0, hy1, hy⟩
  exact hm.injOn ⟨hy0.le, hy1⟩ ⟨hρ0.le, lt_of_le_of_lt hρ.2 hσ1⟩ (by rw [hy, hval])

/-- **C135** (subcritical fluids): for some pressure there are three densities. -/
theorem c135_three_densities (R T a b : ℝ) (hRT : 0 < R * T) (hb : 0 < b) (h : critT * (b * (R * T)) < a) :
    ∃ P ρ₁ ρ₂ ρ₃, 0 < P ∧ 0 < ρ₁ ∧ ρ₁ < ρ₂ ∧ ρ₂ < ρ₃ ∧ ρ₃ < 1 / b ∧ pressureAB R T a b ρ₁ = P ∧
      pressureAB R T a b ρ₂ = P ∧ pressureAB R T a b ρ₃ = P := by
  have hw : 0 < b * (R * T) := mul_pos hb hRT
  have hpos : 0 < R * T / b := div_pos hRT hb
  set f := pressureAB R T a b with hf
  have hcont := pr_continuous R T a b hRT hb
  rw [← hf] at hcont
  -- a rise to a positive pressure followed by a fall
  obtain ⟨σ, τ, hσ, hστ, hτ, hlt, hfσ⟩ : ∃ σ τ, 0 < σ ∧ σ < τ ∧ τ < 1 / b ∧ f τ < f σ ∧ 0 < f σ := by
    obtain ⟨u, v, hu, huv, hv, hlt⟩ := reducedP_loop (a / (b * (R * T))) ((lt_div_iff₀ hw).2 h)
    have e : ∀ w, f (w / b) = R * T / b * reducedP (a / (b * (R * T))) w := fun w => by
      rw [hf, reducedP_eq R T a b _ hRT hb, mul_div_cancel₀ _ hb.ne']
    rcases lt_or_ge 0 (f (u / b)) with hp | hp
    · refine ⟨u / b, v / b, by positivity, div_lt_div_of_pos_right huv hb, div_lt_div_of_pos_right hv hb, ?_, hp⟩
      rw [e, e]; exact mul_lt_mul_of_pos_left hlt hpos
    · -- at low density the pressure is positive
      set t := a / (b * (R * T)) with ht
      have ht0 : 0 < t := div_pos (lt_trans (mul_pos (by linarith [critT_bounds.1]) hw) h) hw
      set w := min (u / 2) (1 / (2 * t)) with hwdef
      have hw0 : 0 < w := lt_min (by linarith) (by positivity)
      have hwu : w < u := lt_of_le_of_lt (min_le_left _ _) (by linarith)
      have hwt : t * w ≤ 1 / 2 := by
        have := mul_le_mul_of_nonneg_left (min_le_right (u / 2) (1 / (2 * t))) ht0.le
        rw [← hwdef] at this
        refine this.trans (le_of_eq ?_)
        field_simp
      have hw1 : w < 1 := hwu.trans (huv.trans hv)
      have hwpos : 0 < reducedP t w := by
        unfold reducedP
        have hD := pr_den w hw0.le hw1
        have h1 : w < w / (1 - w) := by rw [lt_div_iff₀ (by linarith)]; nlinarith
        have h2 : t * (w ^ 2 / (1 + 2 * w - w ^ 2)) ≤ w := by
          rw [← mul_div_assoc, div_le_iff₀ hD]
          have h3 : t * w ^ 2 ≤ w * (1 / 2) := by
            have := mul_le_mul_of_nonneg_right hwt hw0.le
            nlinarith
          nlinarith
        linarith
      refine ⟨w / b, u / b, by positivity, div_lt_div_of_pos_right hwu hb, div_lt_div_of_pos_right (huv.trans hv) hb, ?_, ?_⟩
      · refine lt_of_le_of_lt hp ?_
        rw [e]; exact mul_pos hpos hwpos
      · rw [e]; exact mul_pos hpos hwpos
  obtain ⟨P, hP1, hP2⟩ := exists_between (max_lt hlt hfσ)
  have hPτ : f τ < P := lt_of_le_of_lt (le_max_left _ _) hP1
  have hP0 : 0 < P := lt_of_le_of_lt (le_max_right _ _) hP1
  obtain ⟨ω, hω0, hω1, hω⟩ := pr_unbounded R T a b P τ hRT hb (hσ.trans hστ).le hτ
  rw [← hf] at hω
  have sub : ∀ x y, 0 ≤ x → y < 1 / b → Icc x y ⊆ Ico 0 (1 / b) := fun x y hx hy z hz => ⟨hx.trans hz.1, lt_of_le_of_lt hz.2 hy⟩
  obtain ⟨ρ₁, h1, v1⟩ := intermediate_value_Icc hσ.le (hcont.mono (sub 0 σ le_rfl (hστ.trans hτ)))
    (show P ∈ Icc _ _ from ⟨by rw [hf, pr_zero]; exact hP0.le, hP2.le⟩)
  obtain ⟨ρ₂, h2, v2⟩ := intermediate_value_Icc' hστ.le (hcont.mono (sub σ τ hσ.le hτ))
    (show P ∈ Icc _ _ from ⟨hPτ.le, hP2.le⟩)
  obtain ⟨ρ₃, h3, v3⟩ := intermediate_value_Icc hω0.le (hcont.mono (sub τ ω (hσ.trans hστ).le hω1))
    (show P ∈ Icc _ _ from ⟨hPτ.le, hω.le⟩)
  have n1 : 0 < ρ₁ := by
    rcases h1.1.eq_or_lt with e | e
    · rw [← e, hf, pr_zero] at v1; exact absurd v1 hP0.ne
    · exact e
  have n2 : ρ₁ < σ := by
    rcases h1.2.eq_or_lt with e | e
    · rw [e] at v1; exact absurd v1 hP2.ne'
    · exact e
  have n3 : ρ₂ < τ := by
    rcases h2.2.eq_or_lt with e | e
    · rw [e] at v2; exact absurd v2 hPτ.ne
    · exact e
  have n4 : τ < ρ₃ := by
    rcases h3.1.eq_or_lt with e | e
    · rw [← e] at v3; exact absurd v3 hPτ.ne
    · exact e
  exact ⟨P, ρ₁, ρ₂, ρ₃, hP0, n1, lt_of_lt_of_le n2 h2.1, n3.trans n4, lt_of_le_of_lt h3.2 hω1, v1, v2, v3⟩

/-- Attraction 5 has one density at pressure 1, attraction 6 has three at some pressure. -/
example : (∃! ρ : ℝ, 0 < ρ ∧ ρ < 1 / 1 ∧ pressureAB 1 1 5 1 ρ = 1) ∧
    ∃ P ρ₁ ρ₂ ρ₃ : ℝ, 0 < P ∧ 0 < ρ₁ ∧ ρ₁ < ρ₂ ∧ ρ₂ < ρ₃ ∧ ρ₃ < 1 / 1 ∧ pressureAB 1 1 6 1 ρ₁ = P ∧
      pressureAB 1 1 6 1 ρ₂ = P ∧ pressureAB 1 1 6 1 ρ₃ = P :=
  ⟨c135_one_density 1 1 5 1 1 (by norm_num) one_pos (by linarith [critT_bounds.1]) one_pos,
    c135_three_densities 1 1 6 1 (by norm_num) one_pos (by linarith [critT_bounds.2])⟩

/-! ## A pure substance with the constants of the code -/

/-- The parameters of a pure substance with `Tc`, `Pc` and `κ` in the library. -/
noncomputable def pureSubstance (R κ Tc Pc T : ℝ) : Par 1 where
  ai := fun _ => (realFormulas R).ai Tc Pc
  bi := fun _ => (realFormulas R).bi Tc Pc
  alpha := fun _ => (realFormulas R).alpha κ T Tc
  kij := fun _ _ => 0

theorem pure_bmix (R κ Tc Pc T : ℝ) :
    bmix (pureSubstance R κ Tc Pc T) (fun _ => 1) = 0.07779607 * (R * Tc / Pc) := by
  simp [bmix, pureSubstance, realFormulas]

theorem pure_amix (R κ Tc Pc T : ℝ) (hPc : 0 < Pc) :
    amix (pureSubstance R κ Tc Pc T) (fun _ => 1) =
      0.45723553 * (R * Tc) ^ 2 / Pc * (1 + κ * (1 - √(T / Tc))) ^ 2 := by
  have h : 0 ≤ 0.45723553 * (R * Tc) ^ 2 / Pc * (1 + κ * (1 - √(T / Tc))) ^ 2 := by positivity
  simp only [amix, pureSubstance, realFormulas, Fin.sum_univ_one, one_mul, sub_zero, mul_one]
  rw [mul_assoc, Real.sqrt_mul_self h]

/-- The ratio that decides, from the reduced temperature `T / Tc = s²`. -/
theorem pure_ratio (R κ Tc Pc T : ℝ) (hR : 0 < R) (hTc : 0 < Tc) (hPc : 0 < Pc) (hT : 0 < T) :
    amix (pureSubstance R κ Tc Pc T) (fun _ => 1) ≤
        critT * (bmix (pureSubstance R κ Tc Pc T) (fun _ => 1) * (R * T)) ↔
      0.45723553 * (1 + κ * (1 - √(T / Tc))) ^ 2 ≤ critT * 0.07779607 * (T / Tc) := by
  rw [pure_bmix, pure_amix R κ Tc Pc T hPc]
  have hk : 0 < (R * Tc) ^ 2 / Pc := by positivity
  have e1 : 0.45723553 * (R * Tc) ^ 2 / Pc * (1 + κ * (1 - √(T / Tc))) ^ 2 =
      (R * Tc) ^ 2 / Pc * (0.45723553 * (1 + κ * (1 - √(T / Tc))) ^ 2) := by ring
  have e2 : critT * (0.07779607 * (R * Tc / Pc) * (R * T)) = (R * Tc) ^ 2 / Pc * (critT * 0.07779607 * (T / Tc)) := by
    field_simp
  rw [e1, e2]
  exact mul_le_mul_iff_of_pos_left hk

theorem sqrt_ratio (T Tc : ℝ) (hTc : 0 < Tc) (hT : 0 < T) : 0 < √(T / Tc) ∧ √(T / Tc) ^ 2 = T / Tc :=
  ⟨Real.sqrt_pos.2 (div_pos hT hTc), Real.sq_sqrt (div_pos hT hTc).le⟩

/-- **C135** (above the critical temperature of the library): for substances with `κ < 1` and from `7 · 10⁻⁸` above it, every pressure has exactly one
density. What is missing: temperatures closer to it, and `κ > 1`. -/
theorem c135_supercritical_partial (R κ Tc Pc T P : ℝ) (hR : 0 < R) (hTc : 0 < Tc) (hPc : 0 < Pc) (hk0 : 0 ≤ κ)
    (hk1 : κ ≤ 999 / 1000) (hT : (1 + 7 / 10 ^ 8) * Tc ≤ T) (hP : 0 < P) :
    ∃! ρ, 0 < ρ ∧ ρ < 1 / bmix (pureSubstance R κ Tc Pc T) (fun _ => 1) ∧
      pressure R T (pureSubstance R κ Tc Pc T) (fun _ => 1) ρ = P := by
  have hT0 : 0 < T := lt_of_lt_of_le (by positivity) hT
  have hb : 0 < bmix (pureSubstance R κ Tc Pc T) (fun _ => 1) := by rw [pure_bmix]; positivity
  refine c135_one_density R T _ _ P (mul_pos hR hT0) hb ?_ hP
  rw [pure_ratio R κ Tc Pc T hR hTc hPc hT0]
  obtain ⟨hs, hs2⟩ := sqrt_ratio T Tc hTc hT0
  set s := √(T / Tc)
  have hTr : 1 + 7 / 10 ^ 8 ≤ T / Tc := (le_div_iff₀ hTc).2 hT
  have hs1 : 1 ≤ s := by nlinarith
  have hcr := critT_bounds.1
  -- the factor is between -κ s and 1
  have hx1 : 1 + κ * (1 - s) ≤ 1 := by nlinarith
  have hx2 : -(999 / 1000 * s) ≤ 1 + κ * (1 - s) := by nlinarith
  rcases le_total 0 (1 + κ * (1 - s)) with h0 | h0
  · have hsq : (1 + κ * (1 - s)) ^ 2 ≤ 1 := by nlinarith
    have : critT * 0.07779607 * (1 + 7 / 10 ^ 8) ≤ critT * 0.07779607 * (T / Tc) :=
      mul_le_mul_of_nonneg_left hTr (by nlinarith)
    nlinarith
  · have hsq : (1 + κ * (1 - s)) ^ 2 ≤ (999 / 1000) ^ 2 * (T / Tc) := by rw [← hs2]; nlinarith
    have hTr0 : 0 < T / Tc := div_pos hT0 hTc
    have : 5.8773599 * 0.07779607 * (T / Tc) ≤ critT * 0.07779607 * (T / Tc) := by
      refine mul_le_mul_of_nonneg_right ?_ hTr0.le
      nlinarith
    nlinarith

/-- **C135** (below the critical temperature, and at it): for some pressure there are three densities. -/
theorem c135_subcritical (R κ Tc Pc T : ℝ) (hR : 0 < R) (hTc : 0 < Tc) (hPc : 0 < Pc) (hk0 : 0 ≤ κ) (hT0 : 0 < T) (hT : T ≤ Tc) :
    ∃ P ρ₁ ρ₂ ρ₃, 0 < P ∧ 0 < ρ₁ ∧ ρ₁ < ρ₂ ∧ ρ₂ < ρ₃ ∧ ρ₃ < 1 / bmix (pureSubstance R κ Tc Pc T) (fun _ => 1) ∧
      ∀ ρ, ρ = ρ₁ ∨ ρ = ρ₂ ∨ ρ = ρ₃ → pressure R T (pureSubstance R κ Tc Pc T) (fun _ => 1) ρ = P := by
  have hb : 0 < bmix (pureSubstance R κ Tc Pc T) (fun _ => 1) := by rw [pure_bmix]; positivity
  obtain ⟨P, r1, r2, r3, h0, h1, h2, h3, h4, h5, h6, h7⟩ := c135_three_densities R T
    (amix (pureSubstance R κ Tc Pc T) (fun _ => 1)) _ (mul_pos hR hT0) hb (by
      rw [← not_le, pure_ratio R κ Tc Pc T hR hTc hPc hT0, not_le]
      obtain ⟨hs, hs2⟩ := sqrt_ratio T Tc hTc hT0
      set s := √(T / Tc)
      have hTr : T / Tc ≤ 1 := (div_le_one hTc).2 hT
      have hs1 : s ≤ 1 := by nlinarith
      have hcr := critT_bounds.2
      have hcr0 := critT_bounds.1
      have hx : 1 ≤ 1 + κ * (1 - s) := by nlinarith
      have hsq : 1 ≤ (1 + κ * (1 - s)) ^ 2 := by nlinarith
      have hTr0 : 0 < T / Tc := div_pos hT0 hTc
      have : critT * 0.07779607 * (T / Tc) ≤ critT * 0.07779607 * 1 := mul_le_mul_of_nonneg_left hTr (by nlinarith)
      nlinarith)
  exact ⟨P, r1, r2, r3, h0, h1, h2, h3, h4, fun ρ hρ => by rcases hρ with rfl | rfl | rfl <;> assumption⟩

/-- **C135, violated**: at the critical temperature of the library itself there still is a pressure with three densities, because of the
rounding of the constants. -/
theorem c135_violated_at_critical (R κ Tc Pc : ℝ) (hR : 0 < R) (hTc : 0 < Tc) (hPc : 0 < Pc) (hk0 : 0 ≤ κ) :
    ¬ ∀ P, 0 < P → ∃! ρ, 0 < ρ ∧ ρ < 1 / bmix (pureSubstance R κ Tc Pc Tc) (fun _ => 1) ∧
      pressure R Tc (pureSubstance R κ Tc Pc Tc) (fun _ => 1) ρ = P := by
  intro h
  obtain ⟨P, r1, r2, r3, h0, h1, h2, h3, h4, h5⟩ := c135_subcritical R κ Tc Pc Tc hR hTc hPc hk0 hTc le_rfl
  obtain ⟨ρ, -, hu⟩ := h P h0
  have e1 := hu r1 ⟨h1, h2.trans (h3.trans h4), h5 _ (Or.inl rfl)⟩
  have e2 := hu r2 ⟨h1.trans h2, h3.trans h4, h5 _ (Or.inr (Or.inl rfl))⟩
  rw [e1, e2] at h2
  exact lt_irrefl _ h2

/-- **C135, violated** (hot fluids): for a substance with `κ > 1`, from the temperature `Tc ((κ + 1) / (κ - 1))²` on, there again is a pressure with
three densities, because `α` grows again. -/
theorem c135_violated_hot (R κ Tc Pc T : ℝ) (hR : 0 < R) (hTc : 0 < Tc) (hPc : 0 < Pc) (hk : 1 < κ)
    (hT : ((κ + 1) / (κ - 1)) ^ 2 ≤ T / Tc) :
    ∃ P ρ₁ ρ₂ ρ₃, 0 < P ∧ 0 < ρ₁ ∧ ρ₁ < ρ₂ ∧ ρ₂ < ρ₃ ∧ ρ₃ < 1 / bmix (pureSubstance R κ Tc Pc T) (fun _ => 1) ∧
      ∀ ρ, ρ = ρ₁ ∨ ρ = ρ₂ ∨ ρ = ρ₃ → pressure R T (pureSubstance R κ Tc Pc T) (fun _ => 1) ρ = P := by
  have hk1 : 0 < κ - 1 := by linarith
  have hq : 1 < (κ + 1) / (κ - 1) := by rw [lt_div_iff₀ hk1]; linarith
  have hTr0 : 0 < T / Tc := lt_of_lt_of_le (by positivity) hT
  have hT0 : 0 < T := by
    by_contra h
    exact absurd (div_nonpos_of_nonpos_of_nonneg (not_lt.1 h) hTc.le) (not_le.2 hTr0)
  have hb : 0 < bmix (pureSubstance R κ Tc Pc T) (fun _ => 1) := by rw [pure_bmix]; positivity
  obtain ⟨P, r1, r2, r3, h0, h1, h2, h3, h4, h5, h6, h7⟩ := c135_three_densities R T
    (amix (pureSubstance R κ Tc Pc T) (fun _ => 1)) _ (mul_pos hR hT0) hb (by
      rw [← not_le, pure_ratio R κ Tc Pc T hR hTc hPc hT0, not_le]
      obtain ⟨hs, hs2⟩ := sqrt_ratio T Tc hTc hT0
      set s := √(T / Tc)
      have hsq : (κ + 1) / (κ - 1) ≤ s := by
        rw [← hs2] at hT
        exact le_of_sq_le_sq hT hs.le
      rw [div_le_iff₀ hk1] at hsq
      have hx : s ≤ -(1 + κ * (1 - s)) := by nlinarith
      have hx2 : T / Tc ≤ (1 + κ * (1 - s)) ^ 2 := by
        rw [← hs2, ← neg_sq (1 + κ * (1 - s))]
        exact pow_le_pow_left₀ hs.le hx 2
      have hcr := critT_bounds.2
      have : critT * 0.07779607 * (T / Tc) < 0.45723553 * (T / Tc) :=
        mul_lt_mul_of_pos_right (by nlinarith) hTr0
      nlinarith)
  exact ⟨P, r1, r2, r3, h0, h1, h2, h3, h4, fun ρ hρ => by rcases hρ with rfl | rfl | rfl <;> assumption⟩

/-- **C135 (acentric factor).** κ is the polynomial of Peng and Robinson (1976) and rises with the acentric factor up to 2.85, beyond
all substances. -/
theorem c135_kappa (R : ℝ) :
    (∀ w, 100000 * (realFormulas R).kappa w = 37464 + 154226 * w - 26992 * w ^ 2) ∧
      StrictMonoOn (realFormulas R).kappa {w | w ≤ 57 / 20} := by
  refine ⟨fun w => by simp only [realFormulas]; ring, ?_⟩
  intro a ha b hb hab
  simp only [Set.mem_ofPred_eq] at ha hb
  simp only [realFormulas]
  nlinarith

/-- `κ` of a substance with the acentric factor 1/2 is above one. -/
example (R : ℝ) : 1 < (realFormulas R).kappa (1 / 2) := by norm_num [realFormulas]
/-- `κ` of a substance with the acentric factor 0.4 is below 0.999, that of a noble gas is positive. -/
example (R : ℝ) : 0 ≤ (realFormulas R).kappa 0 ∧ (realFormulas R).kappa (4 / 10) ≤ 999 / 1000 := by
  constructor <;> norm_num [realFormulas]

/-- A substance with `κ = 1/2`, critical temperature 300 and critical pressure 5, at twice and at half of the critical temperature. -/
example : (∃! ρ : ℝ, 0 < ρ ∧ ρ < 1 / bmix (pureSubstance 8 (1 / 2) 300 5 600) (fun _ => 1) ∧
      pressure 8 600 (pureSubstance 8 (1 / 2) 300 5 600) (fun _ => 1) ρ = 1) ∧
    ∃ P ρ₁ ρ₂ ρ₃ : ℝ, 0 < P ∧ 0 < ρ₁ ∧ ρ₁ < ρ₂ ∧ ρ₂ < ρ₃ ∧ ρ₃ < 1 / bmix (pureSubstance 8 (1 / 2) 300 5 150) (fun _ => 1) ∧
      ∀ ρ, ρ = ρ₁ ∨ ρ = ρ₂ ∨ ρ = ρ₃ → pressure 8 150 (pureSubstance 8 (1 / 2) 300 5 150) (fun _ => 1) ρ = P :=
  ⟨c135_supercritical_partial 8 (1 / 2) 300 5 600 1 (by norm_num) (by norm_num) (by norm_num) (by norm_num) (by norm_num) (by norm_num)
      one_pos,
    c135_subcritical 8 (1 / 2) 300 5 150 (by norm_num) (by norm_num) (by norm_num) (by norm_num) (by norm_num) (by norm_num)⟩

/-- **C135** (critical pressure): at the critical temperature and the packing where the slope is smallest, the pressure is the critical
pressure of the library up to `10⁻⁶`. -/
theorem c135_critical_pressure (R κ Tc Pc : ℝ) (hR : 0 < R) (hTc : 0 < Tc) (hPc : 0 < Pc) :
    |pressure R Tc (pureSubstance R κ Tc Pc Tc) (fun _ => 1) (critU / bmix (pureSubstance R κ Tc Pc Tc) (fun _ => 1)) - Pc| ≤
      Pc / 10 ^ 6 := by
  have hb : 0 < bmix (pureSubstance R κ Tc Pc Tc) (fun _ => 1) := by rw [pure_bmix]; positivity
  unfold pressure
  rw [reducedP_eq R Tc _ _ _ (mul_pos hR hTc) hb, mul_div_cancel₀ _ hb.ne', pure_bmix, pure_amix R κ Tc Pc Tc hPc,
    div_self hTc.ne', Real.sqrt_one]
  have e1 : R * Tc / (0.07779607 * (R * Tc / Pc)) = Pc / 0.07779607 := by field_simp
  have e2 : 0.45723553 * (R * Tc) ^ 2 / Pc * (1 + κ * (1 - 1)) ^ 2 / (0.07779607 * (R * Tc / Pc) * (R * Tc)) =
      0.45723553 / 0.07779607 := by
    rw [sub_self, mul_zero, add_zero, one_pow, mul_one]
    field_simp
  rw [e1, e2]
  obtain ⟨h1, h2, -⟩ := critU_spec
  have hc0 := critU_pos
  have hc1 := critU_lt
  have hD := pr_den critU hc0.le hc1
  have key : |reducedP (0.45723553 / 0.07779607) critU - 0.07779607| ≤ 0.07779607 / 10 ^ 6 := by
    unfold reducedP
    set c := critU
    have lo1 : (253076586 / 10 ^ 9) / (1 - 253076586 / 10 ^ 9) ≤ c / (1 - c) := by
      rw [div_le_div_iff₀ (by norm_num) (by linarith)]; nlinarith
    have hi1 : c / (1 - c) ≤ (253076587 / 10 ^ 9) / (1 - 253076587 / 10 ^ 9) := by
      rw [div_le_div_iff₀ (by linarith) (by norm_num)]; nlinarith
    have lo2 : (253076586 / 10 ^ 9) ^ 2 / (1 + 2 * (253076586 / 10 ^ 9) - (253076586 / 10 ^ 9) ^ 2) ≤ c ^ 2 / (1 + 2 * c - c ^ 2) := by
      rw [div_le_div_iff₀ (by norm_num) hD]; nlinarith
    have hi2 : c ^ 2 / (1 + 2 * c - c ^ 2) ≤ (253076587 / 10 ^ 9) ^ 2 / (1 + 2 * (253076587 / 10 ^ 9) - (253076587 / 10 ^ 9) ^ 2) := by
      rw [div_le_div_iff₀ hD (by norm_num)]; nlinarith
    rw [abs_le]
    constructor
    · have := mul_le_mul_of_nonneg_left hi2 (show (0 : ℝ) ≤ 0.45723553 / 0.07779607 by norm_num)
      have hn : -(0.07779607 / 10 ^ 6) ≤ (253076586 / 10 ^ 9) / (1 - 253076586 / 10 ^ 9) -
          0.45723553 / 0.07779607 * ((253076587 / 10 ^ 9) ^ 2 / (1 + 2 * (253076587 / 10 ^ 9) - (253076587 / 10 ^ 9) ^ 2)) -
            (0.07779607 : ℝ) := by norm_num
      linarith
    · have := mul_le_mul_of_nonneg_left lo2 (show (0 : ℝ) ≤ 0.45723553 / 0.07779607 by norm_num)
      have hn : (253076587 / 10 ^ 9) / (1 - 253076587 / 10 ^ 9) -
          0.45723553 / 0.07779607 * ((253076586 / 10 ^ 9) ^ 2 / (1 + 2 * (253076586 / 10 ^ 9) - (253076586 / 10 ^ 9) ^ 2)) -
            (0.07779607 : ℝ) ≤ 0.07779607 / 10 ^ 6 := by norm_num
      linarith
  have e3 : Pc / 0.07779607 * reducedP (0.45723553 / 0.07779607) critU - Pc =
      Pc / 0.07779607 * (reducedP (0.45723553 / 0.07779607) critU - 0.07779607) := by
    field_simp
  rw [e3, abs_mul, abs_of_pos (by positivity)]
  calc _ ≤ Pc / 0.07779607 * (0.07779607 / 10 ^ 6) := mul_le_mul_of_nonneg_left key (by positivity)
    _ = _ := by field_simp

/-- **C135** (corresponding states): two substances with the same `κ` have the same reduced pressure at the same reduced temperature and the same reduced
density. -/
theorem c135_corresponding (R κ Tc Pc Tc' Pc' t d : ℝ) (hR : 0 < R) (hTc : 0 < Tc) (hPc : 0 < Pc) (hTc' : 0 < Tc') (hPc' : 0 < Pc') (ht : 0 < t) :
    pressure R (t * Tc) (pureSubstance R κ Tc Pc (t * Tc)) (fun _ => 1) (d * (Pc / (R * Tc))) / Pc =
      pressure R (t * Tc') (pureSubstance R κ Tc' Pc' (t * Tc')) (fun _ => 1) (d * (Pc' / (R * Tc'))) / Pc' := by
  have key : ∀ Tc Pc : ℝ, 0 < Tc → 0 < Pc →
      pressure R (t * Tc) (pureSubstance R κ Tc Pc (t * Tc)) (fun _ => 1) (d * (Pc / (R * Tc))) / Pc =
        t / 0.07779607 * reducedP (0.45723553 / 0.07779607 * (1 + κ * (1 - √t)) ^ 2 / t) (0.07779607 * d) := by
    intro Tc Pc hTc hPc
    have hb : 0 < bmix (pureSubstance R κ Tc Pc (t * Tc)) (fun _ => 1) := by rw [pure_bmix]; positivity
    unfold pressure
    rw [reducedP_eq R (t * Tc) _ _ _ (by positivity) hb, pure_bmix, pure_amix R κ Tc Pc _ hPc, mul_div_cancel_right₀ t hTc.ne']
    have e1 : R * (t * Tc) / (0.07779607 * (R * Tc / Pc)) = Pc * (t / 0.07779607) := by field_simp
    have e2 : 0.45723553 * (R * Tc) ^ 2 / Pc * (1 + κ * (1 - √t)) ^ 2 / (0.07779607 * (R * Tc / Pc) * (R * (t * Tc))) =
        0.45723553 / 0.07779607 * (1 + κ * (1 - √t)) ^ 2 / t := by field_simp
    have e3 : 0.07779607 * (R * Tc / Pc) * (d * (Pc / (R * Tc))) = 0.07779607 * d := by field_simp
    rw [e1, e2, e3]
    field_simp
  rw [key Tc Pc hTc hPc, key Tc' Pc' hTc' hPc']

/-- **C135** (second virial coefficient): `(P / (R T ρ) - 1) / ρ → b - a / (R T)` at low density. -/
theorem c135_virial (R T a b : ℝ) (hRT : R * T ≠ 0) :
    Tendsto (fun ρ => (pressureAB R T a b ρ / (R * T * ρ) - 1) / ρ) (𝓝[≠] 0) (𝓝 (b - a / (R * T))) := by
  have h1 : ContinuousAt (fun ρ : ℝ => b / (1 - b * ρ) - a / (R * T) / ((1 + b * ρ) + ρ * b * (1 - b * ρ))) 0 := by
    apply ContinuousAt.sub
    · exact ContinuousAt.div (by fun_prop) (by fun_prop) (by norm_num)
    · exact ContinuousAt.div (by fun_prop) (by fun_prop) (by norm_num)
  have h2 := h1.tendsto
  simp only [mul_zero, sub_zero, div_one, zero_mul, add_zero] at h2
  refine (h2.mono_left nhdsWithin_le_nhds).congr' ?_
  have hne : ∀ᶠ ρ : ℝ in 𝓝 0, 1 - b * ρ ≠ 0 :=
    ContinuousAt.eventually_ne (g := fun ρ : ℝ => 1 - b * ρ) (by fun_prop) (by norm_num)
  have hne2 : ∀ᶠ ρ : ℝ in 𝓝 0, (1 + b * ρ) + ρ * b * (1 - b * ρ) ≠ 0 :=
    ContinuousAt.eventually_ne (g := fun ρ : ℝ => (1 + b * ρ) + ρ * b * (1 - b * ρ)) (by fun_prop) (by norm_num)
  filter_upwards [self_mem_nhdsWithin, nhdsWithin_le_nhds hne, nhdsWithin_le_nhds hne2] with ρ hρ h3 h4
  have hρ : ρ ≠ 0 := hρ
  unfold pressureAB
  have e : b / (1 - b * ρ) = (1 / (1 - b * ρ) - 1) / ρ := by
    field_simp; ring
  rw [e]
  generalize (1 + b * ρ) + ρ * b * (1 - b * ρ) = D at h4
  generalize 1 - b * ρ = E at h3
  generalize R * T = w at hRT
  field_simp
  ring

end Verif.Props
