import Mathlib.Tactic.IntervalCases
import Mathlib.Analysis.MeanInequalities
import Verif.Model.AssocIntegral
import Verif.Props.MergeMie
import Verif.Props.MieSymmetry

/-!
# C126: the correlation of the association integral

The branches of the code add up to one polynomial in the reduced density and the reduced temperature; the combining rule;
reduced units; several names for one component or group.
-/

namespace Verif.Props
open Verif Verif.Saft Verif.GammaMie Verif.MieTerms Verif.AssocIntegral

variable {n m n' m' : ℕ}

/-- **C126** (table): an entry is used exactly when the exponents add up to at most ten, and those are exactly the entries
that are not zero. -/
theorem c126_table : ∀ p < 11, ∀ q < 11, coef p q ≠ 0 ↔ p + q ≤ 10 := by decide +kernel

/-- **C126** (powers): the stored powers of the density give `(σ³ ρ) ^ p` in every branch. -/
theorem c126_power (s ρ : ℝ) (p : ℕ) (hp : p ≤ 10) : power s ρ p = (s * ρ) ^ p := by
  interval_cases p <;> simp only [power] <;> ring

private theorem list_range_sum (k : ℕ) (F : ℕ → ℝ) : ((List.range k).map F).sum = ∑ i ∈ Finset.range k, F i := by
  induction k with
  | zero => simp
  | succ k ih => rw [List.range_succ, Finset.sum_range_succ, ← ih]; simp

/-- **C126** (polynomial): the double loop with its branches is the polynomial of total degree ten. -/
theorem c126_polynomial (s ρ τ : ℝ) :
    series s ρ τ = ∑ p ∈ Finset.range 11, ∑ q ∈ Finset.range 11, (coef p q : ℝ) * (s * ρ) ^ p * τ ^ q := by
  unfold series
  rw [list_range_sum]
  refine Finset.sum_congr rfl fun p hp => ?_
  have hp' : p < 11 := Finset.mem_range.mp hp
  rw [list_range_sum]
  simp only [c126_power s ρ p (by omega)]
  refine Finset.sum_subset (fun q hq => ?_) fun q hq hq' => ?_
  · simp only [Finset.mem_range] at hq ⊢; omega
  · have hz : coef p q = 0 := by
      by_contra h
      have := (c126_table p hp' q (Finset.mem_range.mp hq)).mp h
      simp only [Finset.mem_range] at hq'; omega
    simp [hz]

/-- **C126** (zero density): only the temperature remains, with the first row of the table. -/
theorem c126_zero_density (s τ : ℝ) : series s 0 τ = ∑ q ∈ Finset.range 11, (coef 0 q : ℝ) * τ ^ q := by
  rw [c126_polynomial, Finset.sum_eq_single 0]
  · simp
  · intro p _ hp; simp [hp]
  · simp

private theorem series_rat (s ρ τ : ℚ) :
    series s ρ τ = ((∑ p ∈ Finset.range 11, ∑ q ∈ Finset.range 11, coef p q * (s * ρ) ^ p * τ ^ q : ℚ) : ℝ) := by
  rw [c126_polynomial]
  push_cast
  rfl

/-- **C126** (values): the correlation at four states, to seven decimals, as a separate evaluation of the source's
table gives them.  The terms cancel to a thousandth of their size at the reduced temperature ten, so that a wrong
digit of a large coefficient shows. -/
theorem c126_values :
    |series 1 0 1 - 0.0234042| < 1e-7 ∧ |series 1 0 10 - 0.0301222| < 1e-7 ∧
      |series 1 1 1 - 0.0413746| < 1e-7 ∧ |series 1 1 10 - 0.0716104| < 1e-7 := by
  have key : ∀ (ρ τ v : ℚ), |(∑ p ∈ Finset.range 11, ∑ q ∈ Finset.range 11, coef p q * (1 * ρ) ^ p * τ ^ q) - v| < 1e-7 →
      |series 1 ρ τ - v| < 1e-7 := fun ρ τ v h => by
    have := series_rat 1 ρ τ
    rw [Rat.cast_one] at this
    rw [this, ← Rat.cast_sub, ← Rat.cast_abs, show (1e-7 : ℝ) = ((1e-7 : ℚ) : ℝ) by norm_num]
    exact Rat.cast_lt.2 h
  refine ⟨?_, ?_, ?_, ?_⟩
  · have := key 0 1 0.0234042 (by decide +kernel)
    norm_num at this ⊢; exact this
  · have := key 0 10 0.0301222 (by decide +kernel)
    norm_num at this ⊢; exact this
  · have := key 1 1 0.0413746 (by decide +kernel)
    norm_num at this ⊢; exact this
  · have := key 1 10 0.0716104 (by decide +kernel)
    norm_num at this ⊢; exact this

/-! ### The combining rule -/

/-- **C126** (combining rule, mirrored): the matrix is symmetric whatever the order of the components. -/
theorem c126_cross_symmetric (σ ε : Fin n → ℝ) (i j : Fin n) :
    epsilonij σ ε i j = epsilonij σ ε j i ∧ epsilonij σ ε i j = epsCross σ ε i j := by
  have h : ∀ i j, epsCross σ ε i j = epsCross σ ε j i := fun i j => by
    unfold epsCross; rw [mul_comm (σ i), mul_comm (ε i), add_comm (σ i)]
  have e : ∀ i j, epsilonij σ ε i j = epsCross σ ε i j := fun i j => by
    unfold epsilonij; split_ifs
    · rfl
    · exact h j i
  exact ⟨by rw [e, e, h], e i j⟩

/-- **C126** (combining rule, like pairs): the energy of a component with itself. -/
theorem c126_cross_self (σ ε : Fin n → ℝ) (i : Fin n) (hσ : 0 < σ i) (hε : 0 ≤ ε i) : epsilonij σ ε i i = ε i := by
  rw [(c126_cross_symmetric σ ε i i).2, epsCross, Real.sqrt_mul_self hσ.le, Real.sqrt_mul_self hε, add_self_div_two]
  field_simp

/-- **C126** (combining rule, unlike pairs): positive, at most the geometric mean, and equal to it for equal sizes. -/
theorem c126_cross_bounds (σ ε : Fin n → ℝ) (i j : Fin n) (hi : 0 < σ i) (hj : 0 < σ j) (h1 : 0 < ε i) (h2 : 0 < ε j) :
    0 < epsilonij σ ε i j ∧ epsilonij σ ε i j ≤ √(ε i * ε j) ∧ (σ i = σ j → epsilonij σ ε i j = √(ε i * ε j)) := by
  rw [(c126_cross_symmetric σ ε i j).2, epsCross]
  have hs : 0 < √(σ i * σ j) := Real.sqrt_pos.mpr (mul_pos hi hj)
  have he : 0 < √(ε i * ε j) := Real.sqrt_pos.mpr (mul_pos h1 h2)
  have ha : 0 < (σ i + σ j) / 2 := by linarith
  have hle : √(σ i * σ j) ≤ (σ i + σ j) / 2 := by
    rw [Real.sqrt_le_left ha.le]
    nlinarith [sq_nonneg (σ i - σ j)]
  refine ⟨by positivity, ?_, fun h => ?_⟩
  · rw [div_le_iff₀ (by positivity), mul_comm]
    exact mul_le_mul_of_nonneg_left (pow_le_pow_left₀ hs.le hle 3) he.le
  · rw [h, Real.sqrt_mul_self hj.le, add_self_div_two, mul_div_assoc, mul_comm, div_mul_cancel₀]
    positivity

/-! ### Symmetry and reduced units -/

/-- **C126** (symmetry): the correlation of `i` with `j` is that of `j` with `i`. -/
theorem c126_symmetric (M : ℝ) (P : Mie n m) (ρ T : ℝ) (x : Fin n → ℝ) (i j : Fin n) :
    iij M P ρ T x i j = iij M P ρ T x j i := by
  unfold iij calcIij; rw [(c126_cross_symmetric (sigii P) (epsii P) i j).1]

/-- **C126** (pure fluids and mixtures of one component): the reduced temperature is the temperature over the average well
depth of the component. -/
theorem c126_like (M : ℝ) (P : Mie n m) (ρ T : ℝ) (x : Fin n → ℝ) (i : Fin n) (hσ : 0 < sigii P i) (hε : 0 ≤ epsii P i) :
    iij M P ρ T x i i = series (sigmax3 M P.σ (xskl P.g x)) ρ (T / epsii P i) := by
  unfold iij calcIij; rw [c126_cross_self _ _ _ hσ hε]

/-- **C126** (reduced density): times the number of segments per molecule and `π / 6`, the reduced density is the packing
fraction of spheres of the size `σ`; the correlation itself takes the density of molecules. -/
theorem c126_reduced_density (M : ℝ) (P : Mie n m) (ρ : ℝ) (x : Fin n → ℝ) :
    sigmax3 M P.σ (xskl P.g x) * ρ * cmol2seg P.g x * (Real.pi / 6) = zxstar M P ρ x := by
  unfold sigmax3 zxstar zetax; ring

/-- **C126** (energy scale): well depths and temperature times the same factor. -/
theorem c126_energy (t M ρ T : ℝ) (P : Mie n m) (x : Fin n → ℝ) (ht : 0 < t) :
    iij M (scaleE t P) ρ (t * T) x = iij M P ρ T x := by
  have e : epsii (scaleE t P) = fun i => t * epsii P i := funext fun i => epsii_eps t P i
  have h : ∀ i j, epsCross (sigii P) (fun i => t * epsii P i) i j = t * epsCross (sigii P) (epsii P) i j := fun i j => by
    unfold epsCross
    rw [show t * epsii P i * (t * epsii P j) = t ^ 2 * (epsii P i * epsii P j) by ring,
      Real.sqrt_mul (sq_nonneg t), Real.sqrt_sq ht.le]
    ring
  funext i j
  unfold iij calcIij
  rw [e, (c126_cross_symmetric _ _ i j).2, (c126_cross_symmetric _ _ i j).2]
  rw [show sigii (scaleE t P) = sigii P from rfl, h, mul_div_mul_left _ _ ht.ne']
  rfl

/-- **C126** (length scale): sizes times a factor, density divided by its cube. -/
theorem c126_length (s M ρ T : ℝ) (P : Mie n m) (x : Fin n → ℝ) (hs : 0 < s) (h : Sizes P T) :
    iij M (scaleL s P) (ρ / s ^ 3) T x = iij M P ρ T x := by
  have hσ : sigii (scaleL s P) = fun i => s * sigii P i := funext fun i =>
    avg_len s P P.σ i hs (fun k => div_nonneg (mul_nonneg (mul_nonneg (h.ν i k) (h.V k)) (h.S k))
      (Finset.sum_nonneg fun l _ => mul_nonneg (mul_nonneg (h.ν i l) (h.V l)) (h.S l))) h.σ
  have hx : ∀ i j, epsCross (fun i => s * sigii P i) (epsii P) i j = epsCross (sigii P) (epsii P) i j := fun i j => by
    unfold epsCross
    rw [show s * sigii P i * (s * sigii P j) = s ^ 2 * (sigii P i * sigii P j) by ring,
      Real.sqrt_mul (sq_nonneg s), Real.sqrt_sq hs.le,
      show (s * √(sigii P i * sigii P j)) ^ 3 * √(epsii P i * epsii P j)
        = s ^ 3 * (√(sigii P i * sigii P j) ^ 3 * √(epsii P i * epsii P j)) by ring,
      show ((s * sigii P i + s * sigii P j) / 2) ^ 3 = s ^ 3 * ((sigii P i + sigii P j) / 2) ^ 3 by ring,
      mul_div_mul_left _ _ (pow_ne_zero 3 hs.ne')]
  have h3 : sigmax3 M (scaleL s P).σ (xskl P.g x) * (ρ / s ^ 3) = sigmax3 M P.σ (xskl P.g x) * ρ := by
    have e : sigmax3 M (scaleL s P).σ (xskl P.g x) = s ^ 3 * sigmax3 M P.σ (xskl P.g x) := by
      simp only [sigmax3, Finset.mul_sum, scaleL]
      exact Finset.sum_congr rfl fun k _ => Finset.sum_congr rfl fun l _ => by ring
    rw [e]
    field_simp
  funext i j
  unfold iij calcIij
  rw [(c126_cross_symmetric _ _ i j).2, (c126_cross_symmetric _ _ i j).2, hσ,
    show epsii (scaleL s P) = epsii P from rfl, hx, c126_polynomial, c126_polynomial,
    show (scaleL s P).g = P.g from rfl, h3]

/-! ### Several names for one component or group -/

/-- **C126** (components): listing the components several times or in another order gives the same correlation for the
same pairs of substances. -/
theorem c126_components (f : Fin n' → Fin n) (M ρ T : ℝ) (P : Mie n m) (x' : Fin n' → ℝ) (i j : Fin n') :
    iij M (relistC f P) ρ T x' i j = iij M P ρ T (collected f x') (f i) (f j) := by
  unfold iij calcIij
  rw [(c126_cross_symmetric _ _ i j).2, (c126_cross_symmetric _ _ (f i) (f j)).2,
    show (relistC f P).g = relistG f P.g from rfl, relist_xskl]
  rfl

/-- **C126** (groups): several names for one group give the same correlation. -/
theorem c126_groups (h : Fin m' → Fin m) (ν' : Fin n → Fin m' → ℝ) (P : Mie n m) (hν : Renames h ν' P.g)
    (M ρ T : ℝ) (x : Fin n → ℝ) : iij M (renameP h ν' P) ρ T x = iij M P ρ T x := by
  have av : ∀ (q : Fin m → Fin m → ℝ) i, avg (renameP h ν' P) (fun k l => q (h k) (h l)) i = avg P q i := fun q i => by
    have := collected_sum2 h (zfrac (renameP h ν' P) i) q
    rw [← (zfrac_rename hν i).2] at this
    exact this.symm
  have he : epsii (renameP h ν' P) = epsii P := funext (av P.ε)
  have hs : sigii (renameP h ν' P) = sigii P := funext fun i => by
    unfold sigii; rw [← av (fun k l => P.σ k l ^ 3)]; rfl
  have h3 : sigmax3 M (renameP h ν' P).σ (xskl (renameP h ν' P).g x) = sigmax3 M P.σ (xskl P.g x) := by
    have := rename_pairs hν x fun k l => P.σ k l ^ 3 * M
    unfold sigmax3
    calc _ = ∑ k, ∑ l, P.σ (h k) (h l) ^ 3 * M * xskl (renameG h ν' P.g) x k l :=
          Finset.sum_congr rfl fun k _ => Finset.sum_congr rfl fun l _ => by
            show xskl (renameG h ν' P.g) x k l * (P.σ (h k) (h l) ^ 3 * M) = _; ring
      _ = _ := this
      _ = _ := Finset.sum_congr rfl fun k _ => Finset.sum_congr rfl fun l _ => by ring
  funext i j
  unfold iij calcIij
  rw [he, hs, h3]

/-- **C126** (dispatch): of the two correlations that `calc_gr_assoc` offers, only this one gives values; the other raises
(C121). -/
theorem c126_dispatch (M : ℝ) (P : Mie n m) (ρ T : ℝ) (x : Fin n → ℝ) (kt : String) :
    calcGr M P ρ T x kt = if kt = "klab" then .ok (iij M P ρ T x)
      else if kt = "ijklab" then .error .indexError else .error .valueError := by
  unfold calcGr
  split_ifs with h1 h2
  · rw [grAssoc, if_pos h1]
  · rw [h2]; exact c121_violated_always_raises _ M ρ T P x
  · rw [grAssoc, if_neg h1, if_neg h2]

end Verif.Props
