import Verif.Model.SWTerms

/-!
# C122: corresponding states of the square-well fluid
-/

namespace Verif.Props
open Verif Verif.Saft Verif.GammaSW Verif.CombiningRules Verif.SWTerms

variable {n m : ℕ}

/-- All well depths multiplied by `t`. -/
def swScaleE (t : ℝ) (P : SWell n m) : SWell n m := { P with ε := fun k l => t * P.ε k l }

/-- All lengths multiplied by `s`. -/
def swScaleL (s : ℝ) (P : SWell n m) : SWell n m := { P with σ := fun k l => s * P.σ k l }

/-! ## Energies -/

private theorem alpha_eps (t : ℝ) (P : SWell n m) (k l : Fin m) : alphakl (swScaleE t P) k l = t * alphakl P k l := by
  simp only [alphakl, alpha, swScaleE]; ring

private theorem neg_scale (c t T S : ℝ) (ht : t ≠ 0) : -(c / (t * T)) * (t * S) = -(c / T) * S := by
  rw [show c / (t * T) = t⁻¹ * (c / T) by rw [div_mul_eq_div_div_swap, div_eq_inv_mul _ t]]
  linear_combination (-(c / T) * S) * inv_mul_cancel₀ ht

/-- **C122** (energy scale): the hard-sphere term has no energy scale. -/
theorem c122_energy_hs (t M ρ : ℝ) (P : SWell n m) (x : Fin n → ℝ) : ahs M (swScaleE t P) ρ x = ahs M P ρ x := rfl

/-- **C122** (energy scale, first order). -/
theorem c122_energy_first (t M ρ T : ℝ) (P : SWell n m) (x : Fin n → ℝ) (ht : t ≠ 0) :
    a1 M (swScaleE t P) ρ (t * T) x = a1 M P ρ T x := by
  unfold a1 afirst
  have : ∀ k l, ρ * M * (xskl P.g x k l * alphakl (swScaleE t P) k l)
      * g0HS (P.lam k l) (packing M ρ (cmol2seg P.g x) (xskl P.g x) P.σ)
      = t * (ρ * M * (xskl P.g x k l * alphakl P k l)
      * g0HS (P.lam k l) (packing M ρ (cmol2seg P.g x) (xskl P.g x) P.σ)) := by
    intro k l; rw [alpha_eps]; ring
  show -(cmol2seg P.g x ^ 2 / (t * T)) * ∑ k, ∑ l, ρ * M * (xskl P.g x k l * alphakl (swScaleE t P) k l)
      * g0HS (P.lam k l) (packing M ρ (cmol2seg P.g x) (xskl P.g x) P.σ) = _
  simp only [this, ← Finset.mul_sum]
  exact neg_scale _ t T _ ht

/-- **C122** (energy scale, second order). -/
theorem c122_energy_second (t M ρ T : ℝ) (P : SWell n m) (x : Fin n → ℝ) (ht : t ≠ 0) :
    a2 M (swScaleE t P) ρ (t * T) x = a2 M P ρ T x := by
  unfold a2 asecond
  set z := packing M ρ (cmol2seg P.g x) (xskl P.g x) P.σ with hz
  have : ∀ k l, khs z * (cmol2seg P.g x * ρ * M) / 2 * (t * P.ε k l * alphakl (swScaleE t P) k l * xskl P.g x k l)
      * (g0HS (P.lam k l) z + z * dzetaEff (P.lam k l) z * (2.5 - zetaEff (P.lam k l) z) / (1 - zetaEff (P.lam k l) z) ^ 4)
      = t ^ 2 * (khs z * (cmol2seg P.g x * ρ * M) / 2 * (P.ε k l * alphakl P k l * xskl P.g x k l)
      * (g0HS (P.lam k l) z
        + z * dzetaEff (P.lam k l) z * (2.5 - zetaEff (P.lam k l) z) / (1 - zetaEff (P.lam k l) z) ^ 4)) := by
    intro k l; rw [alpha_eps]; ring
  show -(cmol2seg P.g x / (t * T) ^ 2) * ∑ k, ∑ l, khs z * (cmol2seg P.g x * ρ * M) / 2
      * (t * P.ε k l * alphakl (swScaleE t P) k l * xskl P.g x k l)
      * (g0HS (P.lam k l) z + z * dzetaEff (P.lam k l) z * (2.5 - zetaEff (P.lam k l) z)
        / (1 - zetaEff (P.lam k l) z) ^ 4) = _
  simp only [this, ← Finset.mul_sum]
  rw [mul_pow]
  exact neg_scale _ (t ^ 2) (T ^ 2) _ (pow_ne_zero 2 ht)

/-- **C122** (energy scale, the monomer term with its guard). -/
theorem c122_energy_monomer (t M T : ℝ) (ρs : List ℝ) (P : SWell n m) (x : Fin n → ℝ) (ht : t ≠ 0) :
    amonomer M (swScaleE t P) ρs (t * T) x = amonomer M P ρs T x := by
  unfold amonomer amono
  simp only [c122_energy_first t M _ T P x ht, c122_energy_second t M _ T P x ht, c122_energy_hs]
  rfl

private theorem epsii_eps (t : ℝ) (P : SWell n m) (i : Fin n) : epsii (swScaleE t P) i = t * epsii P i := by
  simp only [epsii, Finset.mul_sum]
  exact Finset.sum_congr rfl fun k _ => Finset.sum_congr rfl fun l _ => by
    show zfrac P i k * zfrac P i l * (t * P.ε k l) = _
    ring

private theorem epsij_eps (t : ℝ) (P : SWell n m) (i j : Fin n) (ht : 0 ≤ t) :
    epsij (swScaleE t P) i j = t * epsij P i j := by
  have hr : ∀ i j, squareWellBerthelot (compBead (swScaleE t P) i) (compBead (swScaleE t P) j) "epsilon" "sigma" "lambda"
      = t * squareWellBerthelot (compBead P i) (compBead P j) "epsilon" "sigma" "lambda" := by
    intro i j
    have hs : √(t * epsii P i * (t * epsii P j)) = t * √(epsii P i * epsii P j) := by
      rw [show t * epsii P i * (t * epsii P j) = t ^ 2 * (epsii P i * epsii P j) by ring, Real.sqrt_mul (sq_nonneg t),
        Real.sqrt_sq ht]
    have e : ∀ i, compBead (swScaleE t P) i "epsilon" = t * compBead P i "epsilon" := fun i => by
      simp [compBead, epsii_eps]
    have e2 : ∀ i, compBead (swScaleE t P) i "sigma" = compBead P i "sigma" := fun i => rfl
    have e3 : ∀ i, compBead (swScaleE t P) i "lambda" = compBead P i "lambda" := fun i => rfl
    have e4 : ∀ i, compBead P i "epsilon" = epsii P i := fun i => rfl
    simp only [squareWellBerthelot, weightedMean, e, e2, e3, e4, hs]
    ring
  unfold epsij crossOf
  split
  · exact epsii_eps t P i
  · split <;> exact hr _ _

/-- **C122** (energy scale, contact values and association). -/
theorem c122_energy_contact (t M ρ T : ℝ) (P : SWell n m) (x : Fin n → ℝ) (i j : Fin n) (ht : 0 < t) :
    gsw M (swScaleE t P) ρ (t * T) x i j = gsw M P ρ T x i j := by
  unfold gsw
  rw [epsij_eps t P i j ht.le]
  show gSW (t * T) (t * epsij P i j) (lamij P i j) (sigij P i i) (sigij P j j) (zeta M P ρ x 2) (zeta M P ρ x 3) = _
  simp only [gSW, mul_div_mul_left _ _ ht.ne']

/-- **C122** (energy scale, chain term). -/
theorem c122_energy_chain (t M ρ T : ℝ) (P : SWell n m) (x : Fin n → ℝ) (ht : 0 < t) :
    achain M (swScaleE t P) ρ (t * T) x = achain M P ρ T x := by
  unfold achain
  rw [Finset.sum_congr rfl fun i _ => by rw [c122_energy_contact t M ρ T P x i i ht]]; rfl

/-! ## Lengths -/

private theorem zeta_len (s M ρ : ℝ) (P : SWell n m) (x : Fin n → ℝ) (q : ℕ) :
    zeta M (swScaleL s P) (ρ / s ^ 3) x q = s ^ q / s ^ 3 * zeta M P ρ x q := by
  unfold zeta moment
  have h : (∑ k, √(xskl P.g x k k) * (s * P.σ k k) ^ q) = s ^ q * ∑ k, √(xskl P.g x k k) * P.σ k k ^ q := by
    rw [Finset.mul_sum]
    exact Finset.sum_congr rfl fun k _ => by rw [mul_pow]; ring
  show ρ / s ^ 3 * M * cmol2seg P.g x * ((∑ k, √(xskl P.g x k k) * (s * P.σ k k) ^ q) * (Real.pi / 6)) = _
  rw [h]; ring

private theorem alpha_len (s : ℝ) (P : SWell n m) (k l : Fin m) : alphakl (swScaleL s P) k l = s ^ 3 * alphakl P k l := by
  simp only [alphakl, alpha, swScaleL]; ring

private theorem pack_len (s M ρ : ℝ) (P : SWell n m) (x : Fin n → ℝ) (hs : s ≠ 0) :
    packing M (ρ / s ^ 3) (cmol2seg P.g x) (xskl P.g x) (swScaleL s P).σ
      = packing M ρ (cmol2seg P.g x) (xskl P.g x) P.σ := by
  have := zeta_len s M ρ P x 3
  rw [div_self (pow_ne_zero 3 hs), one_mul] at this
  exact this

/-- **C122** (length scale, hard spheres). -/
theorem c122_length_hs (s M ρ : ℝ) (P : SWell n m) (x : Fin n → ℝ) (hs : s ≠ 0) :
    ahs M (swScaleL s P) (ρ / s ^ 3) x = ahs M P ρ x := by
  have hs3 := pow_ne_zero 3 hs
  unfold ahs aHSsw aHSmie
  simp only [zeta_len]
  generalize zeta M P ρ x = e
  have e3 : s ^ 3 / s ^ 3 * e 3 = e 3 := by rw [div_self hs3, one_mul]
  have e2 : s ^ 2 / s ^ 3 * e 2 = s⁻¹ * e 2 := by congr 1; field_simp
  have e1 : s ^ 1 / s ^ 3 * e 1 = (s ^ 2)⁻¹ * e 1 := by congr 1; field_simp
  have e0 : s ^ 0 / s ^ 3 * e 0 = (s ^ 3)⁻¹ * e 0 := by congr 1; field_simp
  rw [e3, e2, e1, e0]
  have hf : 6 / (Real.pi * (ρ / s ^ 3) * M) = s ^ 3 * (6 / (Real.pi * ρ * M)) := by
    rw [show Real.pi * (ρ / s ^ 3) * M = Real.pi * ρ * M / s ^ 3 by ring, div_div_eq_mul_div]; ring
  rw [hf]
  have hA : (s⁻¹ * e 2) ^ 3 / e 3 ^ 2 - (s ^ 3)⁻¹ * e 0 = (s ^ 3)⁻¹ * (e 2 ^ 3 / e 3 ^ 2 - e 0) := by
    rw [mul_pow, inv_pow]; ring
  have hB : 3 * (s⁻¹ * e 2) / (1 - e 3) * ((s ^ 2)⁻¹ * e 1) = (s ^ 3)⁻¹ * (3 * e 2 / (1 - e 3) * e 1) := by
    have : (s ^ 3)⁻¹ = s⁻¹ * (s ^ 2)⁻¹ := by rw [← mul_inv]; congr 1; ring
    rw [this]; ring
  have hC : (s⁻¹ * e 2) ^ 3 / (e 3 * (1 - e 3) ^ 2) = (s ^ 3)⁻¹ * (e 2 ^ 3 / (e 3 * (1 - e 3) ^ 2)) := by
    rw [mul_pow, inv_pow]; ring
  rw [hA, hB, hC]
  have h1 : s ^ 3 * (s ^ 3)⁻¹ = 1 := mul_inv_cancel₀ hs3
  generalize 6 / (Real.pi * ρ * M) = F
  generalize e 2 ^ 3 / e 3 ^ 2 - e 0 = A
  generalize 3 * e 2 / (1 - e 3) * e 1 = B
  generalize e 2 ^ 3 / (e 3 * (1 - e 3) ^ 2) = D
  generalize Real.log (1 - e 3) = L
  simp only [Bool.false_eq_true, if_false]
  linear_combination (F * (L * A + B + D)) * h1

private theorem dens_cancel (s : ℝ) (hs : s ≠ 0) (ρ M a : ℝ) : ρ / s ^ 3 * M * (s ^ 3 * a) = ρ * M * a := by
  have := pow_ne_zero 3 hs
  field_simp

/-- **C122** (length scale, first order). -/
theorem c122_length_first (s M ρ T : ℝ) (P : SWell n m) (x : Fin n → ℝ) (hs : s ≠ 0) :
    a1 M (swScaleL s P) (ρ / s ^ 3) T x = a1 M P ρ T x := by
  unfold a1 afirst
  show -(cmol2seg P.g x ^ 2 / T) * ∑ k, ∑ l, ρ / s ^ 3 * M * (xskl P.g x k l * alphakl (swScaleL s P) k l)
      * g0HS (P.lam k l) (packing M (ρ / s ^ 3) (cmol2seg P.g x) (xskl P.g x) (swScaleL s P).σ) = _
  rw [pack_len s M ρ P x hs]
  congr 1
  refine Finset.sum_congr rfl fun k _ => Finset.sum_congr rfl fun l _ => ?_
  rw [alpha_len, show xskl P.g x k l * (s ^ 3 * alphakl P k l) = s ^ 3 * (xskl P.g x k l * alphakl P k l) by ring,
    dens_cancel s hs]

/-- **C122** (length scale, second order). -/
theorem c122_length_second (s M ρ T : ℝ) (P : SWell n m) (x : Fin n → ℝ) (hs : s ≠ 0) :
    a2 M (swScaleL s P) (ρ / s ^ 3) T x = a2 M P ρ T x := by
  unfold a2 asecond
  have hp := pack_len s M ρ P x hs
  set z := packing M ρ (cmol2seg P.g x) (xskl P.g x) P.σ with hz
  show -(cmol2seg P.g x / T ^ 2) * ∑ k, ∑ l,
      khs (packing M (ρ / s ^ 3) (cmol2seg P.g x) (xskl P.g x) (swScaleL s P).σ) * (cmol2seg P.g x * (ρ / s ^ 3) * M) / 2
      * (P.ε k l * alphakl (swScaleL s P) k l * xskl P.g x k l)
      * (g0HS (P.lam k l) (packing M (ρ / s ^ 3) (cmol2seg P.g x) (xskl P.g x) (swScaleL s P).σ)
        + packing M (ρ / s ^ 3) (cmol2seg P.g x) (xskl P.g x) (swScaleL s P).σ
        * dzetaEff (P.lam k l) (packing M (ρ / s ^ 3) (cmol2seg P.g x) (xskl P.g x) (swScaleL s P).σ)
        * (2.5 - zetaEff (P.lam k l) (packing M (ρ / s ^ 3) (cmol2seg P.g x) (xskl P.g x) (swScaleL s P).σ))
        / (1 - zetaEff (P.lam k l) (packing M (ρ / s ^ 3) (cmol2seg P.g x) (xskl P.g x) (swScaleL s P).σ)) ^ 4) = _
  rw [hp]
  congr 1
  refine Finset.sum_congr rfl fun k _ => Finset.sum_congr rfl fun l _ => ?_
  rw [alpha_len]
  have h3 := pow_ne_zero 3 hs
  congr 1
  generalize khs z = K
  field_simp

/-- **C122** (length scale, the monomer term with its guard). -/
theorem c122_length_monomer (s M T : ℝ) (ρs : List ℝ) (P : SWell n m) (x : Fin n → ℝ) (hs : 0 < s) :
    amonomer M (swScaleL s P) (ρs.map (· / s ^ 3)) T x = amonomer M P ρs T x := by
  have hs' := hs.ne'
  have hs3 : 0 < s ^ 3 := by positivity
  have hmax : densityMax M (cmol2seg P.g x) (xskl P.g x) (swScaleL s P).σ 0.65
      = densityMax M (cmol2seg P.g x) (xskl P.g x) P.σ 0.65 / s ^ 3 := by
    unfold densityMax
    have h : (∑ k, ∑ l, xskl P.g x k l * (swScaleL s P).σ k l ^ 3)
        = s ^ 3 * ∑ k, ∑ l, xskl P.g x k l * P.σ k l ^ 3 := by
      simp only [Finset.mul_sum, swScaleL]
      exact Finset.sum_congr rfl fun k _ => Finset.sum_congr rfl fun l _ => by ring
    rw [h, show cmol2seg P.g x * Real.pi * (s ^ 3 * ∑ k, ∑ l, xskl P.g x k l * P.σ k l ^ 3)
      = (cmol2seg P.g x * Real.pi * ∑ k, ∑ l, xskl P.g x k l * P.σ k l ^ 3) * s ^ 3 by ring, ← div_div,
      div_right_comm]
  unfold amonomer amono
  simp only [List.all_map, List.any_map, List.map_map, Function.comp_def, c122_length_hs s M _ P x hs',
    c122_length_first s M _ T P x hs', c122_length_second s M _ T P x hs']
  have e1 : ∀ ρ : ℝ, (densityMax M (cmol2seg (swScaleL s P).g x) (xskl (swScaleL s P).g x) (swScaleL s P).σ 0.65
      < ρ / s ^ 3) ↔ densityMax M (cmol2seg P.g x) (xskl P.g x) P.σ 0.65 < ρ := by
    intro ρ
    show (densityMax M (cmol2seg P.g x) (xskl P.g x) (swScaleL s P).σ 0.65 < ρ / s ^ 3) ↔ _
    rw [hmax, div_lt_div_iff_of_pos_right hs3]
  have e2 : ∀ ρ : ℝ, (ρ / s ^ 3 < 0) ↔ ρ < 0 := fun ρ => div_lt_iff₀ hs3 |>.trans (by rw [zero_mul])
  simp only [e1, e2]

/-- What the averages over the groups need: non-negative counts, shapes and sizes. -/
structure SizesSW (P : SWell n m) : Prop where
  ν : ∀ i k, 0 ≤ P.g.ν i k
  V : ∀ k, 0 ≤ P.g.V k
  S : ∀ k, 0 ≤ P.g.S k
  σ : ∀ k, 0 ≤ P.σ k k

theorem SizesSW.zfrac_nonneg {P : SWell n m} (h : SizesSW P) (i : Fin n) (k : Fin m) : 0 ≤ zfrac P i k :=
  div_nonneg (mul_nonneg (mul_nonneg (h.ν i k) (h.V k)) (h.S k))
    (Finset.sum_nonneg fun l _ => mul_nonneg (mul_nonneg (h.ν i l) (h.V l)) (h.S l))

private theorem sigii_len (s : ℝ) (P : SWell n m) (i : Fin n) (hs : 0 < s) (h : SizesSW P) :
    sigii (swScaleL s P) i = s * sigii P i := by
  have e : (∑ k, zfrac P i k * (s * P.σ k k) ^ 3) = s ^ 3 * ∑ k, zfrac P i k * P.σ k k ^ 3 := by
    rw [Finset.mul_sum]
    exact Finset.sum_congr rfl fun k _ => by ring
  have hn : 0 ≤ ∑ k, zfrac P i k * P.σ k k ^ 3 :=
    Finset.sum_nonneg fun k _ => mul_nonneg (h.zfrac_nonneg i k) (pow_nonneg (h.σ k) 3)
  show (∑ k, zfrac P i k * (s * P.σ k k) ^ 3) ^ ((1 : ℝ) / 3) = _
  rw [e, Real.mul_rpow (by positivity) hn, ← Real.rpow_natCast, ← Real.rpow_mul hs.le, sigii]
  norm_num

private theorem lam_len (s : ℝ) (P : SWell n m) (i j : Fin n) (hs : 0 < s) (h : SizesSW P) :
    weightedMean (compBead (swScaleL s P) i) (compBead (swScaleL s P) j) "lambda" "sigma"
      = weightedMean (compBead P i) (compBead P j) "lambda" "sigma" := by
  have e2 : ∀ i, compBead (swScaleL s P) i "sigma" = s * compBead P i "sigma" := fun i => by
    simpa [compBead] using sigii_len s P i hs h
  have e3 : ∀ i, compBead (swScaleL s P) i "lambda" = compBead P i "lambda" := fun i => rfl
  simp only [weightedMean, e2, e3]
  rw [← mul_add, ← mul_div_mul_left _ (compBead P i "sigma" + compBead P j "sigma") hs.ne']
  congr 1; ring

private theorem eps_len (s : ℝ) (P : SWell n m) (i j : Fin n) (hs : 0 < s) (h : SizesSW P) :
    squareWellBerthelot (compBead (swScaleL s P) i) (compBead (swScaleL s P) j) "epsilon" "sigma" "lambda"
      = squareWellBerthelot (compBead P i) (compBead P j) "epsilon" "sigma" "lambda" := by
  have e1 : ∀ i, compBead (swScaleL s P) i "epsilon" = compBead P i "epsilon" := fun i => rfl
  have e2 : ∀ i, compBead (swScaleL s P) i "sigma" = s * compBead P i "sigma" := fun i => by
    simpa [compBead] using sigii_len s P i hs h
  have e3 : ∀ i, compBead (swScaleL s P) i "lambda" = compBead P i "lambda" := fun i => rfl
  simp only [squareWellBerthelot, lam_len s P i j hs h, e1, e2, e3]
  generalize compBead P i "sigma" = a
  generalize compBead P j "sigma" = b
  have hq : √((s * a) ^ 3 * (s * b) ^ 3) = s ^ 3 * √(a ^ 3 * b ^ 3) := by
    rw [show (s * a) ^ 3 * (s * b) ^ 3 = (s ^ 3) ^ 2 * (a ^ 3 * b ^ 3) by ring, Real.sqrt_mul (sq_nonneg _),
      Real.sqrt_sq (by positivity)]
  rw [hq, ← mul_add, mul_pow, mul_assoc (s ^ 3), mul_div_mul_left _ _ (by positivity : s ^ 3 ≠ 0)]

/-- **C122** (length scale, contact values and association). -/
theorem c122_length_contact (s M ρ T : ℝ) (P : SWell n m) (x : Fin n → ℝ) (i j : Fin n) (hs : 0 < s) (h : SizesSW P) :
    gsw M (swScaleL s P) (ρ / s ^ 3) T x i j = gsw M P ρ T x i j := by
  have hs' := hs.ne'
  have he : epsij (swScaleL s P) i j = epsij P i j := by
    unfold epsij crossOf
    simp only [eps_len s P _ _ hs h]; rfl
  have hl : lamij (swScaleL s P) i j = lamij P i j := by
    unfold lamij crossOf
    simp only [lam_len s P _ _ hs h]; rfl
  have hσ : ∀ i, sigij (swScaleL s P) i i = s * sigij P i i := fun i => by
    simp [sigij, crossOf, sigii_len s P i hs h]
  unfold gsw
  rw [he, hl, hσ, hσ, zeta_len, zeta_len, div_self (pow_ne_zero 3 hs'), one_mul]
  generalize sigij P i i = a
  generalize sigij P j j = b
  generalize zeta M P ρ x 2 = z2
  generalize zeta M P ρ x 3 = z3
  have hg : gHS (s ^ 2 / s ^ 3 * z2) z3 (s * a) (s * b) = gHS z2 z3 a b := by
    have e : s ^ 2 / s ^ 3 * z2 = s⁻¹ * z2 := by congr 1; field_simp
    have et : s * a * (s * b) / (s * a + s * b) = s * (a * b / (a + b)) := by
      rw [← mul_add, show s * a * (s * b) = s * (s * (a * b)) by ring, mul_div_mul_left _ _ hs', mul_div_assoc]
    simp only [gHS, e, et]
    generalize a * b / (a + b) = t
    have h1 := mul_inv_cancel₀ hs'
    have e1 : 3 * (s * t) * (s⁻¹ * z2 / (1 - z3) ^ 2) = 3 * t * (z2 / (1 - z3) ^ 2) := by
      linear_combination (3 * t * (z2 / (1 - z3) ^ 2)) * h1
    have e2 : 2 * (s * t) ^ 2 * ((s⁻¹ * z2) ^ 2 / (1 - z3) ^ 3) = 2 * t ^ 2 * (z2 ^ 2 / (1 - z3) ^ 3) := by
      linear_combination (2 * t ^ 2 * (z2 ^ 2 / (1 - z3) ^ 3)) * (s * s⁻¹ + 1) * h1
    rw [e1, e2]
  simp only [gSW, hg]

/-- **C122** (length scale, chain term). -/
theorem c122_length_chain (s M ρ T : ℝ) (P : SWell n m) (x : Fin n → ℝ) (hs : 0 < s) (h : SizesSW P) :
    achain M (swScaleL s P) (ρ / s ^ 3) T x = achain M P ρ T x := by
  unfold achain
  rw [Finset.sum_congr rfl fun i _ => by rw [c122_length_contact s M ρ T P x i i hs h]]; rfl

/-- A square-well fluid of dimers of two unlike groups. -/
noncomputable def swDimer : SWell 1 2 where
  g := ⟨fun _ _ => 1, fun _ => 1, fun _ => 1⟩
  ε := fun _ _ => 200
  σ := fun k l => if k = l then (if k = 0 then 0.3 else 0.4) else 0.35
  lam := fun _ _ => 1.5
  rings := fun _ => 0

theorem swDimer_sizes : SizesSW swDimer where
  ν := fun _ _ => by simp [swDimer]
  V := fun _ => by simp [swDimer]
  S := fun _ => by simp [swDimer]
  σ := fun k => by simp only [swDimer, if_true]; split <;> norm_num

example (M ρ T : ℝ) : achain M (swScaleL 2 swDimer) (ρ / 2 ^ 3) T (fun _ => 1) = achain M swDimer ρ T (fun _ => 1) :=
  c122_length_chain 2 M ρ T swDimer _ (by norm_num) swDimer_sizes

example (M ρ T : ℝ) : achain M (swScaleE 3 swDimer) ρ (3 * T) (fun _ => 1) = achain M swDimer ρ T (fun _ => 1) :=
  c122_energy_chain 3 M ρ T swDimer _ (by norm_num)

end Verif.Props
