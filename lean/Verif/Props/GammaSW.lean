import Verif.Model.GammaSW
import Verif.Proofs.GammaMie
import Verif.Props.SaftToolbox

/-!
# C57, C59, C61: the square-well variant
-/

namespace Verif.Props
open Verif.Saft Verif.GammaMie Verif.GammaSW

variable {n m : ℕ}

/-! ## C59: coded derivatives -/

/-- **C59** (`_dzetaeff_dzetax`). -/
theorem c59_dzetaEff (lam z : ℝ) : HasDerivAt (zetaEff lam) (dzetaEff lam z) z := by
  unfold zetaEff dzetaEff
  by_cases h : lam ≠ 0
  · simp only [if_pos h]
    have h1 := (hasDerivAt_id z).mul_const (cikl lam 0)
    have h2 := ((hasDerivAt_id z).pow 2).mul_const (cikl lam 1)
    have h3 := ((hasDerivAt_id z).pow 3).mul_const (cikl lam 2)
    exact ((h1.add h2).add h3).congr_deriv (by simp)
  · simp only [if_neg h]
    exact hasDerivAt_const z 0

/-- **C59** (`dzetaijdlambda`): the second table `dckl_coef` in `calc_gSW` is consistent with the first
one: it gives the derivative in the well range. -/
theorem c59_dzetaDlam (lam z : ℝ) (hl : lam ≠ 0) :
    HasDerivAt (fun lam => zetaEff lam z) (dzetaDlam lam z) lam := by
  have e : (fun lam => z * cikl lam 0 + z ^ 2 * cikl lam 1 + z ^ 3 * cikl lam 2)
      =ᶠ[nhds lam] fun lam => zetaEff lam z := by
    filter_upwards [isOpen_ne.mem_nhds hl] with y hy
    exact (if_pos hy).symm
  refine HasDerivAt.congr_of_eventuallyEq ?_ e.symm
  have hc : ∀ q, HasDerivAt (fun lam => cikl lam q) (GammaSW.cklCoef q 1 + 2 * GammaSW.cklCoef q 2 * lam) lam := by
    intro q
    unfold cikl
    have h1 := (hasDerivAt_id lam).const_mul (GammaSW.cklCoef q 1)
    have h2 := ((hasDerivAt_id lam).pow 2).const_mul (GammaSW.cklCoef q 2)
    exact ((h1.const_add (GammaSW.cklCoef q 0 * 1)).add h2).congr_deriv (by simp; ring)
  refine ((((hc 0).const_mul z).add ((hc 1).const_mul (z ^ 2))).add
    ((hc 2).const_mul (z ^ 3))).congr_deriv ?_
  simp only [dzetaDlam, GammaSW.cklCoef, dcklCoef, Matrix.cons_val]
  ring

/-- **C59** (`g0HS` in the packing fraction): the product that `Asecond_order` forms is the derivative
of `calc_g0HS`. -/
theorem c59_dg0HS (lam z : ℝ) (h1 : zetaEff lam z ≠ 1) :
    HasDerivAt (g0HS lam) (dzetaEff lam z * dg0HS lam z) z := by
  refine ((hasDerivAt_contact h1).comp z (c59_dzetaEff lam z)).congr_deriv ?_
  unfold dg0HS
  rw [show (2.5 : ℝ) = 5 / 2 by norm_num]
  have h0 : (1 - zetaEff lam z) ≠ 0 := sub_ne_zero.mpr (Ne.symm h1)
  field_simp

/-- The first-order perturbation energy of one pair of groups, `-ρ_s α g₀`, as a function of the
density (Lymperiadis et al., eq. 24). -/
noncomputable def pairA1 (M C α lam : ℝ) (w σ : Fin m → Fin m → ℝ) (ρ : ℝ) : ℝ :=
  -(ρ * M * C * α * g0HS lam (packing M ρ C w σ))

/-- **C59** (first order): `Afirst_order` is the segment average of the pair energies. -/
theorem c59_afirst (M ρ T C : ℝ) (w σ lam α : Fin m → Fin m → ℝ) :
    afirst M ρ T C w σ lam α = C / T * ∑ k, ∑ l, w k l * pairA1 M C (α k l) (lam k l) w σ ρ := by
  unfold afirst pairA1
  rw [Finset.mul_sum, Finset.mul_sum]
  refine Finset.sum_congr rfl fun k _ => ?_
  rw [Finset.mul_sum, Finset.mul_sum]
  exact Finset.sum_congr rfl fun l _ => by ring

private theorem packing_linear (M C : ℝ) (w σ : Fin m → Fin m → ℝ) :
    ∃ κ, ∀ ρ, packing M ρ C w σ = ρ * κ :=
  ⟨M * C * ((∑ k, √(w k k) * σ k k ^ 3) * (Real.pi / 6)), fun ρ => by
    unfold packing moment; ring⟩

/-- **C59** (second order): `Asecond_order` is the segment average of half the compressibility times
the well depth times the density times the *density derivative* of the pair energy that
`Afirst_order` uses — the local compressibility approximation — for every density at which the
effective packing fractions are not one. -/
theorem c59_asecond (M ρ T C : ℝ) (w σ lam α ε : Fin m → Fin m → ℝ)
    (hη : ∀ k l, zetaEff (lam k l) (packing M ρ C w σ) ≠ 1) :
    asecond M ρ T C w σ lam α ε
      = C / T ^ 2 * ∑ k, ∑ l, w k l *
          (khs (packing M ρ C w σ) / 2 * ε k l * ρ * deriv (pairA1 M C (α k l) (lam k l) w σ) ρ) := by
  obtain ⟨κ, hκ⟩ := packing_linear M C w σ
  have hd : ∀ k l, deriv (pairA1 M C (α k l) (lam k l) w σ) ρ
      = -(M * C * α k l) * (g0HS (lam k l) (packing M ρ C w σ)
          + packing M ρ C w σ * (dzetaEff (lam k l) (packing M ρ C w σ)
            * dg0HS (lam k l) (packing M ρ C w σ))) := by
    intro k l
    have h := hη k l
    rw [hκ] at h ⊢
    have h2 := (hasDerivAt_mul_comp (c59_dg0HS (lam k l) (ρ * κ) h)).const_mul (-(M * C * α k l))
    have e : pairA1 M C (α k l) (lam k l) w σ
        = fun r => -(M * C * α k l) * (r * g0HS (lam k l) (r * κ)) := by
      funext r
      unfold pairA1
      rw [hκ]; ring
    rw [e]
    exact h2.deriv
  simp only [asecond, hd, dg0HS]
  rw [Finset.mul_sum, Finset.mul_sum]
  refine Finset.sum_congr rfl fun k _ => ?_
  rw [Finset.mul_sum, Finset.mul_sum]
  exact Finset.sum_congr rfl fun l _ => by ring

example : zetaEff (3 / 2) (1 / 10) ≠ 1 := by
  have h : (3 / 2 : ℝ) ≠ 0 := by norm_num
  simp only [zetaEff, if_pos h, cikl, GammaSW.cklCoef, Matrix.cons_val]
  norm_num

/-! ## C57: maximum density of the square-well variant -/

private theorem moment3_eq (M ρ C : ℝ) (w σ : Fin m → Fin m → ℝ) :
    moment M ρ C w σ 3 = ρ * M * (C * Real.pi * ∑ k, √(w k k) * σ k k ^ 3) / 6 := by
  unfold moment; ring

/-- **C57** (exact value): the packing fraction at the reported maximum density is the requested one
times the ratio of the diagonal to the pair average of the cubed diameters. -/
theorem c57_sw_ratio (M C maxpack : ℝ) (w σ : Fin m → Fin m → ℝ) (hM : M ≠ 0) (hC : C ≠ 0) :
    packing M (densityMax M C w σ maxpack) C w σ
      = maxpack * ((∑ k, √(w k k) * σ k k ^ 3) / ∑ k, ∑ l, w k l * σ k l ^ 3) := by
  rw [packing, moment3_eq]
  unfold densityMax
  have hp := Real.pi_ne_zero
  generalize (∑ k, √(w k k) * σ k k ^ 3) = s
  generalize (∑ k, ∑ l, w k l * σ k l ^ 3) = t
  rcases eq_or_ne t 0 with rfl | ht
  · simp
  · field_simp

/-- **C57** (the part that holds): when all groups have one diameter the reported density is the one
at the requested packing. -/
theorem c57_sw_equal_diameters_partial (M maxpack σ₀ : ℝ) (g : Groups n m) (x : Fin n → ℝ)
    (hx : ∀ i, 0 ≤ x i) (hν : ∀ i k, 0 ≤ g.ν i k) (hV : ∀ k, 0 ≤ g.V k) (hS : ∀ k, 0 ≤ g.S k)
    (hM : M ≠ 0) (hC : cmol2seg g x ≠ 0) (hσ : σ₀ ≠ 0) :
    packing M (densityMax M (cmol2seg g x) (xskl g x) (fun _ _ => σ₀) maxpack) (cmol2seg g x)
      (xskl g x) (fun _ _ => σ₀) = maxpack := by
  rw [c57_sw_ratio M _ maxpack _ _ hM hC]
  have h1 : (∑ k, √(xskl g x k k) * σ₀ ^ 3) = σ₀ ^ 3 := by
    rw [← Finset.sum_mul, Finset.sum_congr rfl fun k _ => c17_sqrt_diag g x hx hν hV hS k,
      c17_xsk_sum_one g x hC, one_mul]
  have h2 : (∑ k, ∑ l, xskl g x k l * σ₀ ^ 3) = σ₀ ^ 3 := by
    have := (c17_xskl g x hx hν hV hS hC).2.2
    rw [Finset.sum_congr rfl fun k _ => (Finset.sum_mul _ _ _).symm, ← Finset.sum_mul, this, one_mul]
  rw [h1, h2, div_self (pow_ne_zero 3 hσ), mul_one]

/-- **C57** (direction of the error): with the default arithmetic-mean diameters the packing fraction
at the reported maximum density is never below the requested one. -/
theorem c57_sw_overpacked (M maxpack : ℝ) (g : Groups n m) (x : Fin n → ℝ) (d : Fin m → ℝ)
    (hx : ∀ i, 0 ≤ x i) (hν : ∀ i k, 0 ≤ g.ν i k) (hV : ∀ k, 0 ≤ g.V k) (hS : ∀ k, 0 ≤ g.S k)
    (hM : M ≠ 0) (hC : cmol2seg g x ≠ 0) (hd : ∀ k, 0 < d k) (hp : 0 ≤ maxpack) :
    maxpack ≤ packing M (densityMax M (cmol2seg g x) (xskl g x) (dklOf d) maxpack) (cmol2seg g x)
      (xskl g x) (dklOf d) := by
  rw [c57_sw_ratio M _ maxpack _ _ hM hC]
  have hpos : 0 < ∑ k, ∑ l, xskl g x k l * dklOf d k l ^ 3 :=
    c18_pos g x hx hν hV hS hC _ fun k l => by unfold dklOf; linarith [hd k, hd l]
  have hle : (∑ k, ∑ l, xskl g x k l * dklOf d k l ^ 3) ≤ ∑ k, √(xskl g x k k) * dklOf d k k ^ 3 := by
    have hs := c17_xsk_sum_one g x hC
    have h0 := c17_xsk_nonneg g x hx hν hV hS
    have e1 : (∑ k, √(xskl g x k k) * dklOf d k k ^ 3)
        = ∑ k, ∑ l, xskl g x k l * ((d k ^ 3 + d l ^ 3) / 2) := by
      have a : (∑ k, ∑ l, xskl g x k l * d k ^ 3) = ∑ k, xsk g x k * d k ^ 3 := by
        refine Finset.sum_congr rfl fun k _ => ?_
        unfold xskl
        rw [← Finset.sum_mul, ← Finset.mul_sum, hs, mul_one]
      have b : (∑ k, ∑ l, xskl g x k l * d l ^ 3) = ∑ k, xsk g x k * d k ^ 3 := by
        rw [Finset.sum_comm]
        refine Finset.sum_congr rfl fun k _ => ?_
        unfold xskl
        rw [← Finset.sum_mul, ← Finset.sum_mul, hs, one_mul]
      have c : (∑ k, ∑ l, xskl g x k l * ((d k ^ 3 + d l ^ 3) / 2))
          = ((∑ k, ∑ l, xskl g x k l * d k ^ 3) + ∑ k, ∑ l, xskl g x k l * d l ^ 3) / 2 := by
        rw [← Finset.sum_add_distrib, Finset.sum_div]
        refine Finset.sum_congr rfl fun k _ => ?_
        rw [← Finset.sum_add_distrib, Finset.sum_div]
        exact Finset.sum_congr rfl fun l _ => by ring
      rw [c, a, b]
      have : (∑ k, √(xskl g x k k) * dklOf d k k ^ 3) = ∑ k, xsk g x k * d k ^ 3 := by
        refine Finset.sum_congr rfl fun k _ => ?_
        rw [c17_sqrt_diag g x hx hν hV hS k]
        unfold dklOf
        rw [show (d k + d k) / 2 = d k by ring]
      rw [this]; ring
    rw [e1]
    refine Finset.sum_le_sum fun k _ => Finset.sum_le_sum fun l _ => ?_
    refine mul_le_mul_of_nonneg_left ?_ (mul_nonneg (h0 k) (h0 l))
    unfold dklOf
    have : (d k ^ 3 + d l ^ 3) / 2 - ((d k + d l) / 2) ^ 3 = 3 / 8 * (d k + d l) * (d k - d l) ^ 2 := by
      ring
    have : 0 ≤ 3 / 8 * (d k + d l) * (d k - d l) ^ 2 := by
      have := hd k; have := hd l; positivity
    linarith
  calc maxpack = maxpack * 1 := (mul_one _).symm
    _ ≤ _ := mul_le_mul_of_nonneg_left ((one_le_div hpos).mpr hle) hp

/-- **C57** violated, consequence: within the parameter bounds of the code (`sigma` in [0.1, 10]) a
mixture of nine small spheres to one large one has packing fraction above one at the density that
`Amonomer` still accepts (`maxpack = 0.65`), where `log1p(-ζ₃)` is not defined. -/
theorem c57_violated_packing_above_one :
    let g : Groups 2 2 := ⟨![![1, 0], ![0, 1]], fun _ => 1, fun _ => 1⟩
    let x : Fin 2 → ℝ := ![9 / 10, 1 / 10]
    let σ := dklOf ![1, 10]
    1 < packing 1 (densityMax 1 (cmol2seg g x) (xskl g x) σ (65 / 100)) (cmol2seg g x) (xskl g x) σ := by
  intro g x σ
  have hC : cmol2seg g x = 1 := by simp [g, x, cmol2seg, Fin.sum_univ_two]; norm_num
  have h0 : xsk g x 0 = 9 / 10 := by simp [xsk, hC]; simp [g, x]
  have h1 : xsk g x 1 = 1 / 10 := by simp [xsk, hC]; simp [g, x]
  have hs : ∀ k, √(xskl g x k k) = xsk g x k := fun k =>
    Real.sqrt_mul_self (by fin_cases k <;> simp [h0, h1] <;> norm_num)
  rw [c57_sw_ratio 1 _ _ _ _ one_ne_zero (by rw [hC]; norm_num)]
  simp only [hs]
  simp only [xskl, Fin.sum_univ_two, h0, h1, σ, dklOf]
  simp
  norm_num

/-! ## C61: distance used for bonding volumes -/

/-- **C61** for the Mie variant: the distance depends only on the two components and is their own
diameter when they are equal. -/
theorem c61_mie (d : Fin n → ℝ) (i j : Fin n) :
    dijBarMie d i j = dijBarMie d j i ∧ dijBarMie d i i = d i := by
  constructor <;> unfold dijBarMie <;> ring

/-- **C61** for the square-well variant, the part that holds: with one component, or when all
component diameters agree, the distance is that diameter. -/
theorem c61_sw_partial (σ₀ : ℝ) (hn : n ≠ 0) (i j : Fin n) :
    dijBarSW (fun _ _ => σ₀) i j = σ₀ := by
  unfold dijBarSW
  have : (n : ℝ) ≠ 0 := Nat.cast_ne_zero.mpr hn
  simp
  field_simp
  ring

/-- **C61** violated for the square-well variant: the distance for two molecules of component 0 is not
its diameter once another component is in the mixture, whatever its mole fraction: it depends on the
diameter of the other component. -/
theorem c61_violated_sw (σ₀ σ₁ : ℝ) (h : σ₀ ≠ σ₁) :
    dijBarSW (dklOf ![σ₀, σ₁]) 0 0 ≠ σ₀ ∧
      dijBarSW (dklOf ![σ₀]) 0 0 = σ₀ := by
  constructor
  · simp only [dijBarSW, dklOf, Fin.sum_univ_two]
    simp
    intro hc
    apply h
    linarith
  · simp [dijBarSW, dklOf]

end Verif.Props
