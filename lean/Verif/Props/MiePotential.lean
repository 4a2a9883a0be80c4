import Verif.Proofs.GammaMie
import Mathlib.Analysis.Convex.SpecificFunctions.Basic

/-!
# C58, C60: the Mie prefactor and the temperature-dependent hard-sphere diameter
-/

namespace Verif.Props
open Verif.Saft Verif.GammaMie

/-! ## C58 -/

private theorem prefactor_pos {lr la : ℝ} (ha : 0 < la) (hlr : la < lr) : 0 < prefactor lr la := by
  unfold prefactor
  have h1 : 0 < lr - la := by linarith
  have h2 : 0 < lr / la := div_pos (by linarith) ha
  exact mul_pos (div_pos (by linarith) h1) (Real.rpow_pos_of_pos h2 _)

/-- **C58** (positive prefactor). -/
theorem c58_prefactor_pos (lr la : ℝ) (ha : 0 < la) (hlr : la < lr) : 0 < prefactor lr la :=
  prefactor_pos ha hlr

/-- **C58** (well depth): with the coded prefactor the reduced Mie potential never falls below minus
one ... -/
theorem c58_well_depth (lr la u : ℝ) (ha : 0 < la) (hlr : la < lr) (hu : 0 < u) :
    -1 ≤ prefactor lr la * (u ^ lr - u ^ la) := by
  have hlr0 : 0 < lr := by linarith
  have hδ : 0 < lr - la := by linarith
  have hp : 1 ≤ lr / la := (one_le_div ha).mpr hlr.le
  have hp0 : 0 < lr / la := by positivity
  -- the position of the minimum, raised to the power `la`
  set v₀ : ℝ := (lr / la) ^ (-(la / (lr - la))) with hv₀
  have hv₀pos : 0 < v₀ := Real.rpow_pos_of_pos hp0 _
  set v : ℝ := u ^ la with hv
  have hvpos : 0 < v := Real.rpow_pos_of_pos hu _
  have hulr : u ^ lr = v ^ (lr / la) := by
    rw [hv, ← Real.rpow_mul hu.le]
    congr 1
    field_simp
  have hv₀p : v₀ ^ (lr / la) = v₀ / (lr / la) := by
    rw [hv₀, ← Real.rpow_mul hp0.le]
    have : -(la / (lr - la)) * (lr / la) = -(la / (lr - la)) - 1 := by
      field_simp
      ring
    rw [this, Real.rpow_sub_one hp0.ne']
  -- Bernoulli's inequality for `t = v / v₀`
  have hb : 1 + lr / la * (v / v₀ - 1) ≤ (v / v₀) ^ (lr / la) := by
    have := one_add_mul_self_le_rpow_one_add (s := v / v₀ - 1) (by have := div_pos hvpos hv₀pos; linarith) hp
    simpa using this
  have hsplit : v ^ (lr / la) = v₀ / (lr / la) * (v / v₀) ^ (lr / la) := by
    rw [← hv₀p, ← Real.mul_rpow hv₀pos.le (div_pos hvpos hv₀pos).le, mul_div_cancel₀ _ hv₀pos.ne']
  have hmain : v₀ * (1 / (lr / la) - 1) ≤ v ^ (lr / la) - v := by
    rw [hsplit]
    have h1 := mul_le_mul_of_nonneg_left hb (div_pos hv₀pos hp0).le
    have h2 : v₀ / (lr / la) * (1 + lr / la * (v / v₀ - 1)) = v₀ * (1 / (lr / la) - 1) + v := by
      field_simp
      ring
    linarith
  have hC : prefactor lr la * (v₀ * (1 / (lr / la) - 1)) = -1 := by
    have hinv : (lr / la) ^ (la / (lr - la)) * v₀ = 1 := by
      rw [hv₀, ← Real.rpow_add hp0]; simp
    unfold prefactor
    calc lr / (lr - la) * (lr / la) ^ (la / (lr - la)) * (v₀ * (1 / (lr / la) - 1))
        = lr / (lr - la) * ((lr / la) ^ (la / (lr - la)) * v₀) * (1 / (lr / la) - 1) := by ring
      _ = -1 := by
          rw [hinv]
          field_simp
          ring
  rw [hulr, ← hC]
  exact mul_le_mul_of_nonneg_left hmain (prefactor_pos ha hlr).le

/-- **C58** (… and reaches minus one): at the distance `σ (lr/la)^(1/(lr-la))`. -/
theorem c58_well_reached (lr la : ℝ) (ha : 0 < la) (hlr : la < lr) :
    let u := (lr / la) ^ (-(1 / (lr - la)))
    0 < u ∧ prefactor lr la * (u ^ lr - u ^ la) = -1 := by
  intro u
  have hlr0 : 0 < lr := by linarith
  have hδ : 0 < lr - la := by linarith
  have hp0 : 0 < lr / la := by positivity
  refine ⟨Real.rpow_pos_of_pos hp0 _, ?_⟩
  have h1 : u ^ la = (lr / la) ^ (-(la / (lr - la))) := by
    simp only [u]
    rw [← Real.rpow_mul hp0.le]
    congr 1
    field_simp
  have h2 : u ^ lr = u ^ la / (lr / la) := by
    rw [h1]
    simp only [u]
    rw [← Real.rpow_mul hp0.le, ← Real.rpow_sub_one hp0.ne']
    congr 1
    field_simp
    ring
  have hinv : (lr / la) ^ (la / (lr - la)) * u ^ la = 1 := by
    rw [h1, ← Real.rpow_add hp0]; simp
  rw [h2]
  unfold prefactor
  calc lr / (lr - la) * (lr / la) ^ (la / (lr - la)) * (u ^ la / (lr / la) - u ^ la)
      = lr / (lr - la) * ((lr / la) ^ (la / (lr - la)) * u ^ la) * (1 / (lr / la) - 1) := by ring
    _ = -1 := by
        rw [hinv]
        field_simp
        ring

/-- **C58** (check): a zero repulsive exponent is rejected, and nothing else. -/
theorem c58_prefactor_error (ls : List (ℝ × ℝ)) :
    prefactorChecked ls = none ↔ ∃ l ∈ ls, l.1 = 0 := by
  unfold prefactorChecked
  split <;> simp_all

example : prefactor 12 6 = 4 := by
  unfold prefactor
  norm_num

/-! ## C60 -/

private theorem int_pos_lt_one {r CekT σ lr la : ℝ} (hr : 0 < r) (hrσ : r < σ) (hlr : la < lr)
    (hC : 0 < CekT) : 0 < dkkInt r CekT σ lr la ∧ dkkInt r CekT σ lr la < 1 := by
  have h1 : 1 < σ / r := (one_lt_div hr).mpr hrσ
  have h2 : (σ / r) ^ la < (σ / r) ^ lr := Real.rpow_lt_rpow_of_exponent_lt h1 hlr
  have h3 : -CekT * ((σ / r) ^ lr - (σ / r) ^ la) < 0 := by
    have := mul_pos hC (sub_pos.mpr h2)
    linarith
  unfold dkkInt
  constructor
  · have : Real.exp (-CekT * ((σ / r) ^ lr - (σ / r) ^ la)) < 1 := by
      rw [← Real.exp_zero]; exact Real.exp_lt_exp.mpr h3
    linarith
  · have := Real.exp_pos (-CekT * ((σ / r) ^ lr - (σ / r) ^ la))
    linarith

private theorem int_mono {r C₁ C₂ σ lr la : ℝ} (hr : 0 < r) (hrσ : r < σ) (hlr : la < lr)
    (hC : C₁ < C₂) : dkkInt r C₁ σ lr la < dkkInt r C₂ σ lr la := by
  have h1 : 1 < σ / r := (one_lt_div hr).mpr hrσ
  have h2 : (σ / r) ^ la < (σ / r) ^ lr := Real.rpow_lt_rpow_of_exponent_lt h1 hlr
  unfold dkkInt
  have : -C₂ * ((σ / r) ^ lr - (σ / r) ^ la) < -C₁ * ((σ / r) ^ lr - (σ / r) ^ la) := by
    have := mul_lt_mul_of_pos_right hC (sub_pos.mpr h2)
    linarith
  have := Real.exp_lt_exp.mpr this
  linarith

/-- The tables of the quadrature rule: 40 entries, positive weights adding up to at most two, nodes
strictly inside the interval. -/
theorem c60_tables : gauss40.length = 40 ∧ (∀ p ∈ gauss40, 0 < p.1 ∧ -1000000000 < p.2 ∧ p.2 < 1000000000) ∧
    (gauss40.map Prod.fst).sum ≤ 2000000000 := by decide +kernel

/-- **C60** (quadrature). The 40-point rule integrates every power below 80 from -1 to 1 up to the rounding
of its tables, `4·10⁻⁹`: it is the Gauss-Legendre rule. -/
theorem c60_gauss_exact : ∀ k : ℕ, k < 80 →
    |(gauss40.map fun p => ((p.1 : ℚ) / 1000000000) * ((p.2 : ℚ) / 1000000000) ^ k).sum
      - (1 - (-1 : ℚ) ^ (k + 1)) / ((k : ℚ) + 1)| ≤ 4 / 1000000000 := by decide +kernel

private theorem node_bounds {p : ℤ × ℤ} (hp : p ∈ gauss40) {σ : ℝ} (hσ : 0 < σ) :
    0 < (p.1 / 1000000000 : ℝ) ∧ 0 < 0.5 * σ * ((p.2 / 1000000000 : ℝ) + 1) ∧
      0.5 * σ * ((p.2 / 1000000000 : ℝ) + 1) < σ := by
  obtain ⟨h1, h2, h3⟩ := c60_tables.2.1 p hp
  have h1' : (0 : ℝ) < p.1 := by exact_mod_cast h1
  have h2' : (-1000000000 : ℝ) < p.2 := by exact_mod_cast h2
  have h3' : (p.2 : ℝ) < 1000000000 := by exact_mod_cast h3
  have a : -1 < (p.2 / 1000000000 : ℝ) := by rw [lt_div_iff₀ (by norm_num)]; linarith
  have b : (p.2 / 1000000000 : ℝ) < 1 := by rw [div_lt_iff₀ (by norm_num)]; linarith
  refine ⟨by positivity, ?_, ?_⟩
  · have : 0 < (p.2 / 1000000000 : ℝ) + 1 := by linarith
    positivity
  · have : (0.5 : ℝ) * σ * ((p.2 / 1000000000 : ℝ) + 1) < 0.5 * σ * 2 :=
      mul_lt_mul_of_pos_left (by linarith) (by positivity)
    linarith

private theorem gauss40_ne : gauss40 ≠ [] := by decide

/-- **C60** (positive). -/
theorem c60_diameter_pos (ε σ T lr la : ℝ) (hε : 0 < ε) (hσ : 0 < σ) (hT : 0 < T) (ha : 0 < la)
    (hlr : la < lr) : 0 < groupDiameter ε σ T lr la := by
  have hC : 0 < prefactor lr la * ε / T := by have := prefactor_pos ha hlr; positivity
  unfold groupDiameter dkk
  refine mul_pos (by positivity) ?_
  refine List.sum_pos _ ?_ (by simp [gauss40_ne])
  intro y hy
  obtain ⟨p, hp, rfl⟩ := List.mem_map.mp hy
  obtain ⟨h1, h2, h3⟩ := node_bounds hp hσ
  exact mul_pos h1 (int_pos_lt_one h2 h3 hlr hC).1

/-- **C60** (smaller than the bead diameter): at every positive temperature the hard-sphere diameter
computed with the coded quadrature tables is strictly smaller than the Mie diameter. -/
theorem c60_diameter_lt_sigma (ε σ T lr la : ℝ) (hε : 0 < ε) (hσ : 0 < σ) (hT : 0 < T) (ha : 0 < la)
    (hlr : la < lr) : groupDiameter ε σ T lr la < σ := by
  have hC : 0 < prefactor lr la * ε / T := by have := prefactor_pos ha hlr; positivity
  unfold groupDiameter dkk
  set S := (gauss40.map fun p =>
    (p.1 / 1000000000 : ℝ) * dkkInt (0.5 * σ * ((p.2 / 1000000000 : ℝ) + 1)) (prefactor lr la * ε / T) σ lr la).sum
    with hS
  have h1 : S < (gauss40.map fun p => (p.1 / 1000000000 : ℝ)).sum := by
    refine List.sum_lt_sum_of_ne_nil gauss40_ne _ _ fun p hp => ?_
    obtain ⟨h1, h2, h3⟩ := node_bounds hp hσ
    have := (int_pos_lt_one h2 h3 hlr hC).2
    nlinarith
  have h2 : (gauss40.map fun p => (p.1 / 1000000000 : ℝ)).sum ≤ 2 := by
    have e : (gauss40.map fun p => (p.1 / 1000000000 : ℝ)).sum
        = (((gauss40.map Prod.fst).sum : ℤ) : ℝ) / 1000000000 := by
      induction gauss40 with
      | nil => simp
      | cons p t ih => simp only [List.map_cons, List.sum_cons, ih]; push_cast; ring
    rw [e, div_le_iff₀ (by norm_num)]
    have := c60_tables.2.2
    have h : (((gauss40.map Prod.fst).sum : ℤ) : ℝ) ≤ 2000000000 := by exact_mod_cast this
    linarith
  have : 0.5 * σ * S < 0.5 * σ * 2 := mul_lt_mul_of_pos_left (by linarith) (by positivity)
  show 0.5 * σ * S < σ
  linarith

private theorem dkk_lt {σ lr la : ℝ} (hσ : 0 < σ) (hlr : la < lr) {ε₁ T₁ ε₂ T₂ c : ℝ}
    (h : c * ε₁ / T₁ < c * ε₂ / T₂) : dkk ε₁ σ T₁ c lr la < dkk ε₂ σ T₂ c lr la := by
  unfold dkk
  refine mul_lt_mul_of_pos_left ?_ (by positivity)
  refine List.sum_lt_sum_of_ne_nil gauss40_ne _ _ fun p hp => ?_
  obtain ⟨h1, h2, h3⟩ := node_bounds hp hσ
  exact mul_lt_mul_of_pos_left (int_mono h2 h3 hlr h) h1

/-- **C60** (spheres shrink on heating): the diameter is strictly decreasing in temperature. -/
theorem c60_diameter_anti_T (ε σ T₁ T₂ lr la : ℝ) (hε : 0 < ε) (hσ : 0 < σ) (hT : 0 < T₁)
    (hTT : T₁ < T₂) (ha : 0 < la) (hlr : la < lr) :
    groupDiameter ε σ T₂ lr la < groupDiameter ε σ T₁ lr la := by
  refine dkk_lt hσ hlr ?_
  have := prefactor_pos ha hlr
  exact div_lt_div_of_pos_left (by positivity) hT hTT

/-- **C60** (strictly increasing in the well depth). -/
theorem c60_diameter_mono_eps (ε₁ ε₂ σ T lr la : ℝ) (hσ : 0 < σ) (hT : 0 < T)
    (hε : ε₁ < ε₂) (ha : 0 < la) (hlr : la < lr) :
    groupDiameter ε₁ σ T lr la < groupDiameter ε₂ σ T lr la := by
  refine dkk_lt hσ hlr ?_
  have := prefactor_pos ha hlr
  exact div_lt_div_of_pos_right (mul_lt_mul_of_pos_left hε this) hT

/-- **C60** (proportional to the bead diameter). -/
theorem c60_diameter_scale (ε σ T lr la t : ℝ) (ht : t ≠ 0) :
    groupDiameter ε (t * σ) T lr la = t * groupDiameter ε σ T lr la := by
  unfold groupDiameter dkk
  have h : ∀ p : ℤ × ℤ, dkkInt (0.5 * (t * σ) * ((p.2 / 1000000000 : ℝ) + 1)) (prefactor lr la * ε / T) (t * σ) lr la
      = dkkInt (0.5 * σ * ((p.2 / 1000000000 : ℝ) + 1)) (prefactor lr la * ε / T) σ lr la := by
    intro p
    unfold dkkInt
    rw [show 0.5 * (t * σ) * ((p.2 / 1000000000 : ℝ) + 1) = t * (0.5 * σ * ((p.2 / 1000000000 : ℝ) + 1)) by ring,
      mul_div_mul_left _ _ ht]
  simp only [h]
  ring

example : (0 : ℝ) < 6 ∧ (6 : ℝ) < 12 ∧ (0 : ℝ) < 300 := by norm_num

end Verif.Props
