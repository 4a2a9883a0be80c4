import Mathlib.Analysis.SpecialFunctions.Pow.Real
import Mathlib.Tactic.Linarith
import Mathlib.Tactic.Ring
import Mathlib.Tactic.FieldSimp
import Mathlib.Tactic.Positivity
import Verif.Model.MieTerms
import Verif.Props.MiePotential

/-!
# C115, C116: the coefficient functions of the perturbation terms, and the law of corresponding states
-/

namespace Verif.Props
open Verif Verif.Saft Verif.GammaMie Verif.MieTerms

variable {n m : ℕ}

/-! ## C115: `calc_fm` is defined for every Mie potential -/

/-- **C115**: the dimensionless van der Waals energy of a Mie potential is positive. -/
theorem c115_alpha_pos (lr la : ℝ) (ha : 3 < la) (hlr : la < lr) : 0 < alphaOf lr la := by
  have hp := c58_prefactor_pos lr la (by linarith) hlr
  have h1 : 0 < la - 3 := by linarith
  have h2 : 1 / (lr - 3) < 1 / (la - 3) := one_div_lt_one_div_of_lt h1 (by linarith)
  exact mul_pos hp (by linarith)

/-- **C115**: the denominators of the first six rows have no zero on the non-negative half line. -/
theorem c115_den_pos (q : Fin 7) (hq : q.val < 6) (α : ℝ) (hα : 0 ≤ α) : 0 < fmDen q α := by
  have h3 : 0 ≤ α ^ 3 := by positivity
  fin_cases q
  · show (0 : ℝ) < 1 + (-2.467982) * α + (-0.50272) * α ^ 2 + 8.0956883 * α ^ 3
    nlinarith [mul_nonneg hα (sq_nonneg (α - 0.34)), sq_nonneg (α - 0.34)]
  · show (0 : ℝ) < 1 + (-0.82376) * α + (-3.1935) * α ^ 2 + 3.709 * α ^ 3
    nlinarith [mul_nonneg hα (sq_nonneg (α - 0.68)), sq_nonneg (α - 0.68)]
  · show (0 : ℝ) < 1 + (-2.7171) * α + (2.0883) * α ^ 2 + 0 * α ^ 3
    nlinarith [mul_nonneg hα (sq_nonneg (α - 0.65)), sq_nonneg (α - 0.65)]
  · show (0 : ℝ) < 1 + (20.52142) * α + (-56.6377) * α ^ 2 + 40.53683 * α ^ 3
    nlinarith [mul_nonneg hα (sq_nonneg (α - 0.69)), sq_nonneg (α - 0.69)]
  · show (0 : ℝ) < 1 + (1103.742) * α + (-3264.61) * α ^ 2 + 2556.181 * α ^ 3
    nlinarith [mul_nonneg hα (sq_nonneg (α - 0.63)), sq_nonneg (α - 0.63)]
  · show (0 : ℝ) < 1 + (1390.2) * α + (-4518.2) * α ^ 2 + 4241.6 * α ^ 3
    nlinarith [mul_nonneg hα (sq_nonneg (α - 0.5)), sq_nonneg (α - 0.5)]
  · exact absurd hq (by decide)

/-- **C115**: for every Mie potential with `3 < λa < λr` the six functions the energy uses are defined, and are the
quotients of the tabulated cubics. -/
theorem c115_defined (q : ℕ) (h1 : 1 ≤ q) (h6 : q ≤ 6) (lr la : ℝ) (ha : 3 < la) (hlr : la < lr) :
    ∃ v j, j.val = q - 1 ∧ fm q (alphaOf lr la) = .ok v ∧ v = f j (alphaOf lr la) ∧
      0 < fmDen j (alphaOf lr la) ∧ v * fmDen j (alphaOf lr la) = fmNum j (alphaOf lr la) := by
  obtain ⟨k, rfl⟩ : ∃ k, q = k + 1 := ⟨q - 1, by omega⟩
  have hk : k < 7 := by omega
  have hd := c115_den_pos ⟨k, hk⟩ (by show k < 6; omega) _ (c115_alpha_pos lr la ha hlr).le
  exact ⟨f ⟨k, hk⟩ (alphaOf lr la), ⟨k, hk⟩, rfl, by simp [fm, hk, f], rfl, hd, div_mul_cancel₀ _ hd.ne'⟩

/-- **C115**: a row that does not exist is refused. -/
theorem c115_unknown_row (q : ℕ) (h : 7 < q) (α : ℝ) : fm q α = .error .indexError := by
  obtain ⟨k, rfl⟩ : ∃ k, q = k + 1 := ⟨q - 1, by omega⟩
  have : ¬ k < 7 := by omega
  simp [fm, this]

/-- **C115** (the published functions): the quotients of Lafitte et al. (2013), equations (39) with their table of
coefficients, for the six functions that the energy uses. -/
theorem c115_lafitte (α : ℝ) :
    fm 1 α = .ok ((7.5365557 - 37.60463 * α + 71.745953 * α ^ 2 - 46.83552 * α ^ 3)
      / (1 - 2.467982 * α - 0.50272 * α ^ 2 + 8.0956883 * α ^ 3)) ∧
    fm 2 α = .ok ((-359.44 + 1825.6 * α - 3168 * α ^ 2 + 1884.2 * α ^ 3)
      / (1 - 0.82376 * α - 3.1935 * α ^ 2 + 3.709 * α ^ 3)) ∧
    fm 3 α = .ok ((1550.9 - 5070.1 * α + 6534.6 * α ^ 2 - 3288.7 * α ^ 3) / (1 - 2.7171 * α + 2.0883 * α ^ 2)) ∧
    fm 4 α = .ok ((-1.19932 + 9.063632 * α - 17.9482 * α ^ 2 + 11.34027 * α ^ 3)
      / (1 + 20.52142 * α - 56.6377 * α ^ 2 + 40.53683 * α ^ 3)) ∧
    fm 5 α = .ok ((-1911.28 + 21390.175 * α - 51320.7 * α ^ 2 + 37064.54 * α ^ 3)
      / (1 + 1103.742 * α - 3264.61 * α ^ 2 + 2556.181 * α ^ 3)) ∧
    fm 6 α = .ok ((9236.9 - 129430 * α + 357230 * α ^ 2 - 315530 * α ^ 3)
      / (1 + 1390.2 * α - 4518.2 * α ^ 2 + 4241.6 * α ^ 3)) := by
  refine ⟨?_, ?_, ?_, ?_, ?_, ?_⟩ <;>
  · simp only [fm, fmNum, fmDen, phimn]
    rw [dif_pos (by norm_num)]
    simp only [Fin.mk_zero, Matrix.cons_val, Fin.reduceFinMk]
    congr 2 <;> ring

/-- **C115** (the fourth function is positive at the Lennard-Jones exponents): the third order is attractive there. -/
theorem c115_lennard_jones : alphaOf 12 6 = 8 / 9 ∧ 0 < f 3 (alphaOf 12 6) := by
  have ha : alphaOf 12 6 = 8 / 9 := by
    unfold alphaOf prefactor
    norm_num
  refine ⟨ha, ?_⟩
  · rw [ha]
    unfold f
    refine div_pos ?_ (c115_den_pos 3 (by decide) _ (by norm_num))
    simp only [fmNum, phimn, Matrix.cons_val]
    norm_num

/-- **C115** (compressibility correction): first, fifth and eighth power of the packing fraction with the first three
functions. -/
theorem c115_chi (zs α : ℝ) (v₁ v₂ v₃ : ℝ) (h1 : fm 1 α = .ok v₁) (h2 : fm 2 α = .ok v₂) (h3 : fm 3 α = .ok v₃) :
    chi zs α = zs * v₁ + zs ^ 5 * v₂ + zs ^ 8 * v₃ := by
  have e1 : v₁ = f 0 α := (Except.ok.inj h1).symm
  have e2 : v₂ = f 1 α := (Except.ok.inj h2).symm
  have e3 : v₃ = f 2 α := (Except.ok.inj h3).symm
  rw [e1, e2, e3, chi]

/-- **C115** (third order): minus the cube of the well depth with the fourth function, an exponential of the packing
fraction with the last two. -/
theorem c115_third (zs ε α : ℝ) (v₄ v₅ v₆ : ℝ) (h4 : fm 4 α = .ok v₄) (h5 : fm 5 α = .ok v₅) (h6 : fm 6 α = .ok v₆) :
    a3 zs ε α = -(ε ^ 3) * v₄ * zs * Real.exp (v₅ * zs + v₆ * zs ^ 2) := by
  have e1 : v₄ = f 3 α := (Except.ok.inj h4).symm
  have e2 : v₅ = f 4 α := (Except.ok.inj h5).symm
  have e3 : v₆ = f 5 α := (Except.ok.inj h6).symm
  rw [e1, e2, e3, a3, mul_comm (f 4 α), mul_comm (f 5 α)]; ring

/-- **C115**: the seventh row (whose entries are not coefficients of a quotient) has a pole at a positive
argument, and asking for the row zero silently gives this row. -/
theorem c115_row_zero : fmDen 6 (1 / 8) = 0 ∧ ∀ α, fm 0 α = fm 7 α := by
  constructor
  · simp only [fmDen, phimn, Matrix.cons_val]; norm_num
  · intro α; simp [fm]

/-- The Lennard-Jones potential. -/
example : alphaOf 12 6 = 8 / 9 := by
  have : ((12 : ℝ) / 6) ^ ((6 : ℝ) / (12 - 6)) = 2 := by
    rw [show ((6 : ℝ) / (12 - 6)) = 1 by norm_num, Real.rpow_one]; norm_num
  simp only [alphaOf, prefactor, this]; norm_num

/-! ## C116: corresponding states -/

/-- All energies multiplied by `t`. -/
def scaleE (t : ℝ) (P : Mie n m) : Mie n m := { P with ε := fun k l => t * P.ε k l, bε := fun k => t * P.bε k }

/-- All lengths multiplied by `s`. -/
def scaleL (s : ℝ) (P : Mie n m) : Mie n m := { P with σ := fun k l => s * P.σ k l, bσ := fun k => s * P.bσ k }

private theorem a1s_eps (t M ρ C l z ε d : ℝ) : a1sEff M ρ C l z (t * ε) d = t * a1sEff M ρ C l z ε d := by
  unfold a1sEff; ring

private theorem bEff_eps (t M ρ l C d ε x0 z : ℝ) : bEff M ρ l C d (t * ε) x0 z = t * bEff M ρ l C d ε x0 z := by
  unfold bEff; ring

private theorem da1s_eps (t M l z ε d : ℝ) : da1s M l z (t * ε) d = t * da1s M l z ε d := by
  unfold da1s; ring

private theorem dB_eps (t M l d ε x0 z : ℝ) : dB M l d (t * ε) x0 z = t * dB M l d ε x0 z := by
  unfold dB; ring

private theorem a1ii_eps (t M ρ C d la lr x0 ε z : ℝ) :
    a1ii M ρ C d la lr x0 (t * ε) z = t * a1ii M ρ C d la lr x0 ε z := by
  unfold a1ii; simp only [a1s_eps, bEff_eps]; ring

private theorem da1ii_eps (t M d la lr x0 ε z : ℝ) :
    da1ii M d la lr x0 (t * ε) z = t * da1ii M d la lr x0 ε z := by
  unfold da1ii; simp only [da1s_eps, dB_eps]; ring

private theorem a2_eps (t M ρ C d la lr x0 ε z : ℝ) :
    a2NoChi M ρ C d la lr x0 (t * ε) z = t ^ 2 * a2NoChi M ρ C d la lr x0 ε z := by
  unfold a2NoChi; simp only [a1s_eps, bEff_eps]; ring

private theorem da2_eps (t M ρ C ε d x0 lr la z : ℝ) :
    da2 M ρ C (t * ε) d x0 lr la z = t ^ 2 * da2 M ρ C ε d x0 lr la z := by
  unfold da2; simp only [a1s_eps, bEff_eps, da1s_eps, dB_eps]; ring

private theorem g1Of_eps (t M ρ C d la lr x0 ε z : ℝ) (ht : t ≠ 0) :
    g1Of M ρ C d la lr x0 (t * ε) z = g1Of M ρ C d la lr x0 ε z := by
  unfold g1Of
  simp only [a1s_eps, bEff_eps, da1ii_eps]
  rw [show (2 * Real.pi * (t * ε) * d ^ 3 * M ^ 2) = t * (2 * Real.pi * ε * d ^ 3 * M ^ 2) by ring]
  generalize 2 * Real.pi * ε * d ^ 3 * M ^ 2 = D
  rw [one_div, mul_inv]
  have : t⁻¹ * t = 1 := inv_mul_cancel₀ ht
  linear_combination (D⁻¹ * (3 * da1ii M d la lr x0 ε z
    - prefactor lr la * la * x0 ^ la * ((a1sEff M ρ C la z ε d + bEff M ρ la C d ε x0 z) * (1 / (ρ * C)))
    + prefactor lr la * lr * x0 ^ lr * ((a1sEff M ρ C lr z ε d + bEff M ρ lr C d ε x0 z) * (1 / (ρ * C))))) * this

private theorem g2Of_eps (t M ρ C d la lr x0 ε z : ℝ) (ht : t ≠ 0) :
    g2mcaOf M ρ C d la lr x0 (t * ε) z = g2mcaOf M ρ C d la lr x0 ε z := by
  unfold g2mcaOf
  simp only [a1s_eps, bEff_eps, da2_eps]
  rw [show (2 * Real.pi * (t * ε) ^ 2 * d ^ 3 * M ^ 2) = t ^ 2 * (2 * Real.pi * ε ^ 2 * d ^ 3 * M ^ 2) by ring]
  generalize 2 * Real.pi * ε ^ 2 * d ^ 3 * M ^ 2 = D
  rw [one_div, mul_inv]
  have h2 : (t ^ 2)⁻¹ * t ^ 2 = 1 := inv_mul_cancel₀ (pow_ne_zero 2 ht)
  linear_combination (D⁻¹ * (3 * da2 M ρ C ε d x0 lr la z
    - khs z / ρ / C * (ε * prefactor lr la ^ 2) * lr * x0 ^ (2 * lr)
      * (a1sEff M ρ C (2 * lr) z ε d + bEff M ρ (2 * lr) C d ε x0 z)
    + khs z / ρ / C * (ε * prefactor lr la ^ 2) * (lr + la) * x0 ^ (lr + la)
      * (a1sEff M ρ C (la + lr) z ε d + bEff M ρ (la + lr) C d ε x0 z)
    - khs z / ρ / C * (ε * prefactor lr la ^ 2) * la * x0 ^ (2 * la)
      * (a1sEff M ρ C (2 * la) z ε d + bEff M ρ (2 * la) C d ε x0 z))) * h2

private theorem dk_eps (t T : ℝ) (P : Mie n m) (ht : t ≠ 0) : dk (scaleE t P) (t * T) = dk P T := by
  funext k
  simp only [dk, scaleE, groupDiameter, dkk]
  rw [show prefactor (P.blr k) (P.bla k) * (t * P.bε k) / (t * T) = prefactor (P.blr k) (P.bla k) * P.bε k / T by
    rw [show prefactor (P.blr k) (P.bla k) * (t * P.bε k) = t * (prefactor (P.blr k) (P.bla k) * P.bε k) by ring,
      mul_div_mul_left _ _ ht]]

private theorem dkl_eps (t T : ℝ) (P : Mie n m) (ht : t ≠ 0) : dkl (scaleE t P) (t * T) = dkl P T := by
  unfold dkl; rw [dk_eps t T P ht]

private theorem x0kl_eps (t T : ℝ) (P : Mie n m) (ht : t ≠ 0) : x0kl (scaleE t P) (t * T) = x0kl P T := by
  funext k l; unfold x0kl; rw [dkl_eps t T P ht]; rfl

private theorem avg_eps (t : ℝ) (P : Mie n m) (q : Fin m → Fin m → ℝ) : avg (scaleE t P) q = avg P q := rfl

theorem epsii_eps (t : ℝ) (P : Mie n m) (i : Fin n) : epsii (scaleE t P) i = t * epsii P i := by
  simp only [epsii, avg, Finset.mul_sum]
  exact Finset.sum_congr rfl fun k _ => Finset.sum_congr rfl fun l _ => by
    show zfrac P i k * zfrac P i l * (t * P.ε k l) = _; ring

private theorem dii_eps (t T : ℝ) (P : Mie n m) (ht : t ≠ 0) : dii (scaleE t P) (t * T) = dii P T := by
  funext i; unfold dii; rw [avg_eps, dkl_eps t T P ht]

private theorem x0ii_eps (t T : ℝ) (P : Mie n m) (ht : t ≠ 0) : x0ii (scaleE t P) (t * T) = x0ii P T := by
  funext i; unfold x0ii; rw [dii_eps t T P ht]; rfl

private theorem zx_eps (t M ρ T : ℝ) (P : Mie n m) (x : Fin n → ℝ) (ht : t ≠ 0) :
    zx M (scaleE t P) ρ (t * T) x = zx M P ρ T x := by
  unfold zx; rw [dkl_eps t T P ht]; rfl

/-- **C116** (energy scale, hard spheres). -/
theorem c116_energy_hs (t M ρ T : ℝ) (P : Mie n m) (x : Fin n → ℝ) (ht : t ≠ 0) :
    ahs M (scaleE t P) ρ (t * T) x = ahs M P ρ T x := by
  unfold ahs; rw [dk_eps t T P ht]; rfl

private theorem scale_frac (c t T S : ℝ) (ht : t ≠ 0) : c / (t * T) * (t * S) = c / T * S := by
  rw [← mul_assoc, div_mul_eq_mul_div, mul_comm c t, mul_div_mul_left _ _ ht]

/-- **C116** (energy scale, first order). -/
theorem c116_energy_first (t M ρ T : ℝ) (P : Mie n m) (x : Fin n → ℝ) (ht : t ≠ 0) :
    afirst M (scaleE t P) ρ (t * T) x = afirst M P ρ T x := by
  unfold afirst
  rw [zx_eps t M ρ T P x ht, dkl_eps t T P ht, x0kl_eps t T P ht]
  simp only [scaleE, a1ii_eps, mul_assoc, ← Finset.mul_sum]
  exact scale_frac _ t T _ ht

/-- **C116** (energy scale, second order). -/
theorem c116_energy_second (t M ρ T : ℝ) (P : Mie n m) (x : Fin n → ℝ) (ht : t ≠ 0) :
    asecond M (scaleE t P) ρ (t * T) x = asecond M P ρ T x := by
  unfold asecond
  rw [zx_eps t M ρ T P x ht, dkl_eps t T P ht, x0kl_eps t T P ht]
  simp only [scaleE, a2_eps, mul_assoc, ← Finset.mul_sum, zxstar]
  rw [mul_pow]
  exact scale_frac _ (t ^ 2) (T ^ 2) _ (pow_ne_zero 2 ht)

/-- **C116** (energy scale, third order). -/
theorem c116_energy_third (t M ρ T : ℝ) (P : Mie n m) (x : Fin n → ℝ) (ht : t ≠ 0) :
    athird M (scaleE t P) ρ (t * T) x = athird M P ρ T x := by
  unfold athird
  have h : ∀ zs ε α, a3 zs (t * ε) α = t ^ 3 * a3 zs ε α := fun zs ε α => by unfold a3; ring
  simp only [scaleE, h, mul_assoc, ← Finset.mul_sum, zxstar]
  rw [mul_pow]
  exact scale_frac _ (t ^ 3) (T ^ 3) _ (pow_ne_zero 3 ht)

private theorem gii_eps (t M ρ T : ℝ) (P : Mie n m) (x : Fin n → ℝ) (i : Fin n) (ht : t ≠ 0) :
    gii M (scaleE t P) ρ (t * T) x i = gii M P ρ T x i := by
  have h1 : g1 M (scaleE t P) ρ (t * T) x i = g1 M P ρ T x i := by
    unfold g1
    rw [zx_eps t M ρ T P x ht, dii_eps t T P ht, x0ii_eps t T P ht, epsii_eps, g1Of_eps _ _ _ _ _ _ _ _ _ _ ht]; rfl
  have h2 : g2 M (scaleE t P) ρ (t * T) x i = g2 M P ρ T x i := by
    unfold g2 gammac
    rw [zx_eps t M ρ T P x ht, dii_eps t T P ht, x0ii_eps t T P ht, epsii_eps, g2Of_eps _ _ _ _ _ _ _ _ _ _ ht,
      mul_div_mul_left _ _ ht]; rfl
  unfold gii
  rw [h1, h2, zx_eps t M ρ T P x ht, x0ii_eps t T P ht, epsii_eps, mul_div_mul_left _ _ ht]
  generalize g1 M P ρ T x i = a
  simp only [mul_assoc, mul_div_mul_left _ _ ht]

/-- **C116** (energy scale, chain term). -/
theorem c116_energy_chain (t M ρ T : ℝ) (P : Mie n m) (x : Fin n → ℝ) (ht : t ≠ 0) :
    achain M (scaleE t P) ρ (t * T) x = achain M P ρ T x := by
  unfold achain
  rw [Finset.sum_congr rfl fun i _ => by rw [gii_eps t M ρ T P x i ht]]; rfl

/-- **C116** (energy scale, the guard of the monomer term included): multiplying all well depths and the temperature by
the same factor changes neither the result nor whether there is one. -/
theorem c116_energy_monomer (t M T : ℝ) (ρs : List ℝ) (P : Mie n m) (x : Fin n → ℝ) (ht : t ≠ 0) :
    amonomer M (scaleE t P) ρs (t * T) x = amonomer M P ρs T x := by
  unfold amonomer
  simp only [c116_energy_hs t M _ T P x ht, c116_energy_first t M _ T P x ht, c116_energy_second t M _ T P x ht,
    c116_energy_third t M _ T P x ht, dkl_eps t T P ht]
  rfl

/-! ### The length scale -/

private theorem a1s_len (s M ρ C l z ε d : ℝ) (hs : s ≠ 0) :
    a1sEff M (ρ / s ^ 3) C l z ε (s * d) = a1sEff M ρ C l z ε d := by
  unfold a1sEff
  have : ρ / s ^ 3 * s ^ 3 = ρ := div_mul_cancel₀ _ (pow_ne_zero 3 hs)
  generalize ρ / s ^ 3 = r at this
  subst this
  ring

private theorem bEff_len (s M ρ l C d ε x0 z : ℝ) (hs : s ≠ 0) :
    bEff M (ρ / s ^ 3) l C (s * d) ε x0 z = bEff M ρ l C d ε x0 z := by
  unfold bEff
  have : ρ / s ^ 3 * s ^ 3 = ρ := div_mul_cancel₀ _ (pow_ne_zero 3 hs)
  generalize ρ / s ^ 3 = r at this
  subst this
  ring

private theorem da1s_len (s M l z ε d : ℝ) : da1s M l z ε (s * d) = s ^ 3 * da1s M l z ε d := by
  unfold da1s; ring

private theorem dB_len (s M l d ε x0 z : ℝ) : dB M l (s * d) ε x0 z = s ^ 3 * dB M l d ε x0 z := by
  unfold dB; ring

private theorem da1ii_len (s M d la lr x0 ε z : ℝ) :
    da1ii M (s * d) la lr x0 ε z = s ^ 3 * da1ii M d la lr x0 ε z := by
  unfold da1ii; simp only [da1s_len, dB_len]; ring

private theorem a1ii_len (s M ρ C d la lr x0 ε z : ℝ) (hs : s ≠ 0) :
    a1ii M (ρ / s ^ 3) C (s * d) la lr x0 ε z = a1ii M ρ C d la lr x0 ε z := by
  unfold a1ii; simp only [a1s_len _ _ _ _ _ _ _ _ hs, bEff_len _ _ _ _ _ _ _ _ _ hs]

private theorem a2_len (s M ρ C d la lr x0 ε z : ℝ) (hs : s ≠ 0) :
    a2NoChi M (ρ / s ^ 3) C (s * d) la lr x0 ε z = a2NoChi M ρ C d la lr x0 ε z := by
  unfold a2NoChi; simp only [a1s_len _ _ _ _ _ _ _ _ hs, bEff_len _ _ _ _ _ _ _ _ _ hs]

private theorem da2_len (s M ρ C ε d x0 lr la z : ℝ) (hs : s ≠ 0) :
    da2 M (ρ / s ^ 3) C ε (s * d) x0 lr la z = s ^ 3 * da2 M ρ C ε d x0 lr la z := by
  unfold da2 dKHS
  simp only [a1s_len _ _ _ _ _ _ _ _ hs, bEff_len _ _ _ _ _ _ _ _ _ hs, da1s_len, dB_len]
  have h : z / (ρ / s ^ 3 * C) = s ^ 3 * (z / (ρ * C)) := by
    rw [div_mul_eq_mul_div, div_div_eq_mul_div]; ring
  rw [h]; ring

private theorem inv_dens (s ρ C : ℝ) : 1 / (ρ / s ^ 3 * C) = s ^ 3 * (1 / (ρ * C)) := by
  rw [div_mul_eq_mul_div, one_div_div]; ring

private theorem g1Of_len (s M ρ C d la lr x0 ε z : ℝ) (hs : s ≠ 0) :
    g1Of M (ρ / s ^ 3) C (s * d) la lr x0 ε z = g1Of M ρ C d la lr x0 ε z := by
  unfold g1Of
  simp only [a1s_len _ _ _ _ _ _ _ _ hs, bEff_len _ _ _ _ _ _ _ _ _ hs, da1ii_len, inv_dens]
  rw [show (2 * Real.pi * ε * (s * d) ^ 3 * M ^ 2) = s ^ 3 * (2 * Real.pi * ε * d ^ 3 * M ^ 2) by ring]
  generalize 2 * Real.pi * ε * d ^ 3 * M ^ 2 = D
  rw [one_div, mul_inv]
  have h2 : (s ^ 3)⁻¹ * s ^ 3 = 1 := inv_mul_cancel₀ (pow_ne_zero 3 hs)
  linear_combination (D⁻¹ * (3 * da1ii M d la lr x0 ε z
    - prefactor lr la * la * x0 ^ la * ((a1sEff M ρ C la z ε d + bEff M ρ la C d ε x0 z) * (1 / (ρ * C)))
    + prefactor lr la * lr * x0 ^ lr * ((a1sEff M ρ C lr z ε d + bEff M ρ lr C d ε x0 z) * (1 / (ρ * C))))) * h2

private theorem g2Of_len (s M ρ C d la lr x0 ε z : ℝ) (hs : s ≠ 0) :
    g2mcaOf M (ρ / s ^ 3) C (s * d) la lr x0 ε z = g2mcaOf M ρ C d la lr x0 ε z := by
  unfold g2mcaOf
  simp only [a1s_len _ _ _ _ _ _ _ _ hs, bEff_len _ _ _ _ _ _ _ _ _ hs, da2_len _ _ _ _ _ _ _ _ _ _ hs]
  rw [show (2 * Real.pi * ε ^ 2 * (s * d) ^ 3 * M ^ 2) = s ^ 3 * (2 * Real.pi * ε ^ 2 * d ^ 3 * M ^ 2) by ring,
    show khs z / (ρ / s ^ 3) / C = s ^ 3 * (khs z / ρ / C) by rw [div_div_eq_mul_div]; ring]
  generalize 2 * Real.pi * ε ^ 2 * d ^ 3 * M ^ 2 = D
  rw [one_div, mul_inv]
  have h2 : (s ^ 3)⁻¹ * s ^ 3 = 1 := inv_mul_cancel₀ (pow_ne_zero 3 hs)
  linear_combination (D⁻¹ * (3 * da2 M ρ C ε d x0 lr la z
    - khs z / ρ / C * (ε * prefactor lr la ^ 2) * lr * x0 ^ (2 * lr)
      * (a1sEff M ρ C (2 * lr) z ε d + bEff M ρ (2 * lr) C d ε x0 z)
    + khs z / ρ / C * (ε * prefactor lr la ^ 2) * (lr + la) * x0 ^ (lr + la)
      * (a1sEff M ρ C (la + lr) z ε d + bEff M ρ (la + lr) C d ε x0 z)
    - khs z / ρ / C * (ε * prefactor lr la ^ 2) * la * x0 ^ (2 * la)
      * (a1sEff M ρ C (2 * la) z ε d + bEff M ρ (2 * la) C d ε x0 z))) * h2

private theorem dk_len (s T : ℝ) (P : Mie n m) (hs : s ≠ 0) (k : Fin m) : dk (scaleL s P) T k = s * dk P T k :=
  c60_diameter_scale _ _ _ _ _ s hs

private theorem dkl_len (s T : ℝ) (P : Mie n m) (hs : s ≠ 0) (k l : Fin m) :
    dkl (scaleL s P) T k l = s * dkl P T k l := by
  simp only [dkl, dklOf, dk_len s T P hs]; ring

private theorem x0kl_len (s T : ℝ) (P : Mie n m) (hs : s ≠ 0) : x0kl (scaleL s P) T = x0kl P T := by
  funext k l; simp only [x0kl, dkl_len s T P hs]; exact mul_div_mul_left _ _ hs

private theorem zetax_len (s M ρ C : ℝ) (w d : Fin m → Fin m → ℝ) (hs : s ≠ 0) :
    zetax M (ρ / s ^ 3) C w (fun k l => s * d k l) = zetax M ρ C w d := by
  unfold zetax
  have h : (∑ k, ∑ l, w k l * ((s * d k l) ^ 3 * M)) = s ^ 3 * ∑ k, ∑ l, w k l * (d k l ^ 3 * M) := by
    simp only [Finset.mul_sum]
    exact Finset.sum_congr rfl fun k _ => Finset.sum_congr rfl fun l _ => by ring
  rw [h]
  have : ρ / s ^ 3 * s ^ 3 = ρ := div_mul_cancel₀ _ (pow_ne_zero 3 hs)
  generalize ρ / s ^ 3 = r at this
  subst this
  ring

private theorem zx_len (s M ρ T : ℝ) (P : Mie n m) (x : Fin n → ℝ) (hs : s ≠ 0) :
    zx M (scaleL s P) (ρ / s ^ 3) T x = zx M P ρ T x := by
  unfold zx
  rw [show dkl (scaleL s P) T = fun k l => s * dkl P T k l from funext fun k => funext fun l => dkl_len s T P hs k l]
  exact zetax_len s M ρ _ _ _ hs

private theorem zxstar_len (s M ρ : ℝ) (P : Mie n m) (x : Fin n → ℝ) (hs : s ≠ 0) :
    zxstar M (scaleL s P) (ρ / s ^ 3) x = zxstar M P ρ x := zetax_len s M ρ _ _ _ hs

/-- **C116** (length scale, first order). -/
theorem c116_length_first (s M ρ T : ℝ) (P : Mie n m) (x : Fin n → ℝ) (hs : s ≠ 0) :
    afirst M (scaleL s P) (ρ / s ^ 3) T x = afirst M P ρ T x := by
  unfold afirst
  rw [zx_len s M ρ T P x hs, x0kl_len s T P hs]
  simp only [dkl_len s T P hs, a1ii_len _ _ _ _ _ _ _ _ _ _ hs]
  rfl

/-- **C116** (length scale, second order). -/
theorem c116_length_second (s M ρ T : ℝ) (P : Mie n m) (x : Fin n → ℝ) (hs : s ≠ 0) :
    asecond M (scaleL s P) (ρ / s ^ 3) T x = asecond M P ρ T x := by
  unfold asecond
  rw [zx_len s M ρ T P x hs, zxstar_len s M ρ P x hs, x0kl_len s T P hs]
  simp only [dkl_len s T P hs, a2_len _ _ _ _ _ _ _ _ _ _ hs]
  rfl

/-- **C116** (length scale, third order). -/
theorem c116_length_third (s M ρ T : ℝ) (P : Mie n m) (x : Fin n → ℝ) (hs : s ≠ 0) :
    athird M (scaleL s P) (ρ / s ^ 3) T x = athird M P ρ T x := by
  unfold athird
  rw [zxstar_len s M ρ P x hs]
  rfl

/-- **C116** (length scale, hard spheres). -/
theorem c116_length_hs (s M ρ T : ℝ) (P : Mie n m) (x : Fin n → ℝ) (hs : s ≠ 0) :
    ahs M (scaleL s P) (ρ / s ^ 3) T x = ahs M P ρ T x := by
  have hs3 := pow_ne_zero 3 hs
  have hm : ∀ q, moment M (ρ / s ^ 3) (cmol2seg P.g x) (xskl P.g x) (dklOf (dk (scaleL s P) T)) q
      = s ^ q / s ^ 3 * moment M ρ (cmol2seg P.g x) (xskl P.g x) (dklOf (dk P T)) q := by
    intro q
    unfold moment
    have h : (∑ k, √(xskl P.g x k k) * dklOf (dk (scaleL s P) T) k k ^ q)
        = s ^ q * ∑ k, √(xskl P.g x k k) * dklOf (dk P T) k k ^ q := by
      rw [Finset.mul_sum]
      refine Finset.sum_congr rfl fun k _ => ?_
      have := dkl_len s T P hs k k
      unfold dkl at this
      rw [this, mul_pow]; ring
    rw [h]; ring
  unfold ahs mieHardSphere
  show aHSmie (n == 1) M (ρ / s ^ 3) (moment M (ρ / s ^ 3) (cmol2seg P.g x) (xskl P.g x) (dklOf (dk (scaleL s P) T)))
    = _
  unfold aHSmie
  simp only [hm]
  generalize moment M ρ (cmol2seg P.g x) (xskl P.g x) (dklOf (dk P T)) = e
  have e3 : s ^ 3 / s ^ 3 * e 3 = e 3 := by rw [div_self hs3, one_mul]
  have e2 : s ^ 2 / s ^ 3 * e 2 = s⁻¹ * e 2 := by congr 1; field_simp
  have e1 : s ^ 1 / s ^ 3 * e 1 = (s ^ 2)⁻¹ * e 1 := by congr 1; field_simp
  have e0 : s ^ 0 / s ^ 3 * e 0 = (s ^ 3)⁻¹ * e 0 := by congr 1; field_simp
  rw [e3, e2, e1, e0]
  have hf : 6 / (Real.pi * (ρ / s ^ 3) * M) = s ^ 3 * (6 / (Real.pi * ρ * M)) := by
    rw [show Real.pi * (ρ / s ^ 3) * M = Real.pi * ρ * M / s ^ 3 by ring, div_div_eq_mul_div]; ring
  rw [hf]
  have hA : (s⁻¹ * e 2) ^ 3 / e 3 ^ 2 - (s ^ 3)⁻¹ * e 0 = (s ^ 3)⁻¹ * (e 2 ^ 3 / e 3 ^ 2 - e 0) := by
    rw [mul_pow, inv_pow]; ring
  have hB : 3 * (s⁻¹ * e 2) / (1 - e 3) * ((s ^ 2)⁻¹ * e 1) = (s ^ 3)⁻¹ * (3 * e 2 / (1 - e 3) * e 1) := by
    have : (s ^ 3)⁻¹ = s⁻¹ * (s ^ 2)⁻¹ := by rw [← mul_inv]; congr 1; ring
    rw [this]; ring
  have hC : (s⁻¹ * e 2) ^ 3 / (e 3 * (1 - e 3) ^ 2) = (s ^ 3)⁻¹ * (e 2 ^ 3 / (e 3 * (1 - e 3) ^ 2)) := by
    rw [mul_pow, inv_pow]; ring
  rw [hA, hB, hC]
  have h1 : s ^ 3 * (s ^ 3)⁻¹ = 1 := mul_inv_cancel₀ hs3
  generalize 6 / (Real.pi * ρ * M) = F
  generalize e 2 ^ 3 / e 3 ^ 2 - e 0 = A
  generalize 3 * e 2 / (1 - e 3) * e 1 = B
  generalize e 2 ^ 3 / (e 3 * (1 - e 3) ^ 2) = D
  generalize Real.log (1 - e 3) = L
  split
  · linear_combination (F * (B + D)) * h1
  · linear_combination (F * (L * A + B + D)) * h1

/-- A physical parameter set, as far as the averages over the groups need it: non-negative counts, shapes and sizes,
positive diameters. -/
structure Sizes (P : Mie n m) (T : ℝ) : Prop where
  ν : ∀ i k, 0 ≤ P.g.ν i k
  V : ∀ k, 0 ≤ P.g.V k
  S : ∀ k, 0 ≤ P.g.S k
  σ : ∀ k l, 0 ≤ P.σ k l
  d : ∀ k l, 0 ≤ dkl P T k l

private theorem zfrac_nonneg {P : Mie n m} {T : ℝ} (h : Sizes P T) (i : Fin n) (k : Fin m) : 0 ≤ zfrac P i k :=
  div_nonneg (mul_nonneg (mul_nonneg (h.ν i k) (h.V k)) (h.S k))
    (Finset.sum_nonneg fun l _ => mul_nonneg (mul_nonneg (h.ν i l) (h.V l)) (h.S l))

theorem avg_len (s : ℝ) (P : Mie n m) (q : Fin m → Fin m → ℝ) (i : Fin n) (hs : 0 < s)
    (hz : ∀ k, 0 ≤ zfrac P i k) (hq : ∀ k l, 0 ≤ q k l) :
    avg P (fun k l => (s * q k l) ^ 3) i ^ ((1 : ℝ) / 3) = s * avg P (fun k l => q k l ^ 3) i ^ ((1 : ℝ) / 3) := by
  have h : avg P (fun k l => (s * q k l) ^ 3) i = s ^ 3 * avg P (fun k l => q k l ^ 3) i := by
    simp only [avg, Finset.mul_sum]
    exact Finset.sum_congr rfl fun k _ => Finset.sum_congr rfl fun l _ => by ring
  have hn : 0 ≤ avg P (fun k l => q k l ^ 3) i :=
    Finset.sum_nonneg fun k _ => Finset.sum_nonneg fun l _ =>
      mul_nonneg (mul_nonneg (hz k) (hz l)) (pow_nonneg (hq k l) 3)
  rw [h, Real.mul_rpow (by positivity) hn, ← Real.rpow_natCast, ← Real.rpow_mul hs.le]
  norm_num

/-- **C116** (length scale, chain term). -/
theorem c116_length_chain (s M ρ T : ℝ) (P : Mie n m) (x : Fin n → ℝ) (hs : 0 < s) (h : Sizes P T) :
    achain M (scaleL s P) (ρ / s ^ 3) T x = achain M P ρ T x := by
  have hs' := hs.ne'
  have hσ : ∀ i, sigii (scaleL s P) i = s * sigii P i := fun i =>
    avg_len s P P.σ i hs (zfrac_nonneg h i) h.σ
  have hd : ∀ i, dii (scaleL s P) T i = s * dii P T i := by
    intro i
    have e : dkl (scaleL s P) T = fun k l => s * dkl P T k l := funext fun k => funext fun l => dkl_len s T P hs' k l
    unfold dii
    rw [e]
    exact avg_len s P (dkl P T) i hs (zfrac_nonneg h i) h.d
  have hx : ∀ i, x0ii (scaleL s P) T i = x0ii P T i := fun i => by
    unfold x0ii; rw [hσ, hd, mul_div_mul_left _ _ hs']
  have h1 : ∀ i, g1 M (scaleL s P) (ρ / s ^ 3) T x i = g1 M P ρ T x i := fun i => by
    unfold g1
    rw [zx_len s M ρ T P x hs', hd, hx, g1Of_len _ _ _ _ _ _ _ _ _ _ hs']; rfl
  have h2 : ∀ i, g2 M (scaleL s P) (ρ / s ^ 3) T x i = g2 M P ρ T x i := fun i => by
    unfold g2
    rw [zx_len s M ρ T P x hs', zxstar_len s M ρ P x hs', hd, hx, g2Of_len _ _ _ _ _ _ _ _ _ _ hs']; rfl
  have h3 : ∀ i, gii M (scaleL s P) (ρ / s ^ 3) T x i = gii M P ρ T x i := fun i => by
    unfold gii
    rw [h1, h2, zx_len s M ρ T P x hs', hx]; rfl
  unfold achain
  rw [Finset.sum_congr rfl fun i _ => by rw [h3 i]]; rfl

/-- **C116** (length scale, the guard of the monomer term included). -/
theorem c116_length_monomer (s M T : ℝ) (ρs : List ℝ) (P : Mie n m) (x : Fin n → ℝ) (hs : 0 < s) :
    amonomer M (scaleL s P) (ρs.map (· / s ^ 3)) T x = amonomer M P ρs T x := by
  have hs' := hs.ne'
  have hs3 : 0 < s ^ 3 := by positivity
  have hmax : densityMax M (cmol2seg P.g x) (xskl P.g x) (dkl (scaleL s P) T) 1
      = densityMax M (cmol2seg P.g x) (xskl P.g x) (dkl P T) 1 / s ^ 3 := by
    unfold densityMax
    have h : (∑ k, ∑ l, xskl P.g x k l * dkl (scaleL s P) T k l ^ 3)
        = s ^ 3 * ∑ k, ∑ l, xskl P.g x k l * dkl P T k l ^ 3 := by
      simp only [Finset.mul_sum, dkl_len s T P hs']
      exact Finset.sum_congr rfl fun k _ => Finset.sum_congr rfl fun l _ => by ring
    rw [h, show cmol2seg P.g x * Real.pi * (s ^ 3 * ∑ k, ∑ l, xskl P.g x k l * dkl P T k l ^ 3)
      = (cmol2seg P.g x * Real.pi * ∑ k, ∑ l, xskl P.g x k l * dkl P T k l ^ 3) * s ^ 3 by ring, ← div_div,
      div_right_comm]
  unfold amonomer
  simp only [List.all_map, List.any_map, List.map_map, Function.comp_def, c116_length_hs s M _ T P x hs',
    c116_length_first s M _ T P x hs', c116_length_second s M _ T P x hs', c116_length_third s M _ T P x hs']
  have e1 : ∀ ρ : ℝ, (densityMax M (cmol2seg (scaleL s P).g x) (xskl (scaleL s P).g x) (dkl (scaleL s P) T) 1
      ≤ ρ / s ^ 3) ↔ densityMax M (cmol2seg P.g x) (xskl P.g x) (dkl P T) 1 ≤ ρ := by
    intro ρ
    show (densityMax M (cmol2seg P.g x) (xskl P.g x) (dkl (scaleL s P) T) 1 ≤ ρ / s ^ 3) ↔ _
    rw [hmax, div_le_div_iff_of_pos_right hs3]
  have e2 : ∀ ρ : ℝ, (ρ / s ^ 3 < 0) ↔ ρ < 0 := fun ρ => div_lt_iff₀ hs3 |>.trans (by rw [zero_mul])
  simp only [e1, e2]

end Verif.Props
