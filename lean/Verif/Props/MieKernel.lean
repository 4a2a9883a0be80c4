import Verif.Model.MieKernel
import Mathlib.Tactic.NormNum
import Mathlib.Tactic.Positivity
import Mathlib.Tactic.Linarith
import Mathlib.Tactic.FieldSimp

/-!
# C133: implementations and element types
-/

namespace Verif.Props
open Verif Verif.Saft Verif.GammaMie Verif.MieTerms Verif.MieKernel Verif.Assoc

/-! ## Floats -/

theorem zetaPow_float (z : ℝ) (i : ℕ) : zetaPow .float z i = z ^ (i + 1) := by
  induction i with
  | zero => simp [zetaPow, store]
  | succ i ih => rw [zetaPow, ih]; simp [store, pow_succ]

/-- **C133** (packing). With floats the stored arrays are the effective packing fraction and its derivative. -/
theorem c133_packing (l z : ℝ) : eta .float l z = etaEff l z ∧ rhosDetaStored .float l z = rhosDeta l z := by
  constructor
  · simp only [eta, zetaPow_float, store, Fin.sum_univ_four, etaEff]
    simp
  · simp only [rhosDetaStored, zetaPow_float, store, Fin.sum_univ_four, rhosDeta]
    simp
    norm_num

/-- **C133** (functions). With floats the functions of the three files are those of the model of the terms. -/
theorem c133_functions (M ρ C l la lr z ε d x0 : ℝ) :
    a1s .float M ρ C l z ε d = a1sEff M ρ C l z ε d ∧ da1sStored .float M l z ε d = da1s M l z ε d ∧
      a1iiStored .float M ρ C d la lr x0 ε z = a1ii M ρ C d la lr x0 ε z := by
  have h : ∀ l, a1s .float M ρ C l z ε d = a1sEff M ρ C l z ε d := by
    intro l
    simp only [a1s, a1sEff, (c133_packing l z).1]
  refine ⟨h l, ?_, ?_⟩
  · simp only [da1sStored, da1s, (c133_packing l z).1, (c133_packing l z).2]
  · simp only [a1iiStored, a1ii, h]

/-- **C133** (first order). With floats the three implementations return the same energies, one for each density. -/
theorem c133_first_partial {n m : ℕ} (impl : Impl) (M : ℝ) (P : Mie n m) (ρs : List ℝ) (T : ℝ) (x : Fin n → ℝ) :
    afirstArray impl .float M P ρs T x = .ok (ρs.map fun ρ => afirst M P ρ T x) := by
  unfold afirstArray call
  rw [if_neg (by simp)]
  congr 1
  refine List.map_congr_left fun ρ _ => ?_
  simp only [(c133_functions M ρ (cmol2seg P.g x) 0 _ _ (zx M P ρ T x) _ _ _).2.2]
  rfl

/-- **C133** (second order). With floats the three implementations return the same energies, one for each density. -/
theorem c133_second_partial {n m : ℕ} (impl : Impl) (M : ℝ) (P : Mie n m) (ρs : List ℝ) (T : ℝ) (x : Fin n → ℝ) :
    asecondArray impl .float M P ρs T x = .ok (ρs.map fun ρ => asecond M P ρ T x) := by
  unfold asecondArray call
  rw [if_neg (by simp)]
  congr 1
  refine List.map_congr_left fun ρ _ => ?_
  simp only [a2Stored, fun M ρ C l z ε d => (c133_functions M ρ C l 0 0 z ε d 0).1]
  rfl

/-- **C133** (chains). With floats the three implementations return the same energies, one for each density. -/
theorem c133_chain_partial {n m : ℕ} (impl : Impl) (M : ℝ) (P : Mie n m) (ρs : List ℝ) (T : ℝ) (x : Fin n → ℝ) :
    achainArray impl .float M P ρs T x = .ok (ρs.map fun ρ => achain M P ρ T x) := by
  unfold achainArray call
  rw [if_neg (by simp)]
  congr 1
  refine List.map_congr_left fun ρ _ => ?_
  simp only [giiStored, g1Stored, g2mcaStored, da1iiStored, da2Stored, fun M ρ C l z ε d => (c133_functions M ρ C l 0 0 z ε d 0).1,
    fun M l z ε d => (c133_functions M 0 0 l 0 0 z ε d 0).2.1]
  rfl

/-! ## Integers -/

private theorem store_int_zero (v : ℝ) (h0 : 0 ≤ v) (h1 : v < 1) : store .int v = 0 := by
  have : ⌊v⌋ = 0 := Int.floor_eq_zero_iff.2 ⟨h0, h1⟩
  simp [store, h0, this]

/-- **C133** (what an array of integers keeps). The number kept is whole, not further from zero than the number assigned, on the same side of it, and
differs by less than one. -/
theorem c133_truncation (v : ℝ) : ∃ n : ℤ, store .int v = n ∧ |(n : ℝ)| ≤ |v| ∧ |v - n| < 1 ∧ 0 ≤ n * v := by
  by_cases h : 0 ≤ v
  · have hn : (0 : ℝ) ≤ (⌊v⌋ : ℝ) := by exact_mod_cast Int.floor_nonneg.2 h
    have h1 := Int.floor_le v
    have h2 := Int.lt_floor_add_one v
    refine ⟨⌊v⌋, by simp [store, h], ?_, ?_, mul_nonneg hn h⟩
    · rwa [abs_of_nonneg hn, abs_of_nonneg h]
    · rw [abs_of_nonneg (by linarith)]; linarith
  · have h' : v < 0 := not_le.1 h
    have h1 := Int.le_ceil v
    have h2 := Int.ceil_lt_add_one v
    have hn : ((⌈v⌉ : ℤ) : ℝ) ≤ 0 := by exact_mod_cast Int.ceil_le.2 (by simpa using h'.le)
    refine ⟨⌈v⌉, by simp [store, h], ?_, ?_, mul_nonneg_of_nonpos_of_nonpos hn h'.le⟩
    · rw [abs_of_nonpos hn, abs_of_neg h']; linarith
    · rw [abs_of_nonpos (by linarith)]; linarith

/-- **C133** (whole numbers). With integer densities the effective packing fraction and its derivative are whole numbers, at any packing fraction. -/
theorem c133_whole (l z : ℝ) : (∃ n : ℤ, eta .int l z = n) ∧ ∃ n : ℤ, rhosDetaStored .int l z = n :=
  ⟨(c133_truncation _).imp fun _ h => h.1, (c133_truncation _).imp fun _ h => h.1⟩

/-- **C133, violated** (python and cython). Densities given as integers lose the effective packing fraction: it is zero at
every density. -/
theorem c133_violated_packing (l z : ℝ) (h0 : 0 ≤ z) (h1 : z < 1) :
    eta .int l z = 0 ∧ rhosDetaStored .int l z = 0 := by
  have hp : ∀ i, zetaPow .int z i = 0 := by
    intro i
    cases i with
    | zero => exact store_int_zero z h0 h1
    | succ i =>
      rw [zetaPow, store_int_zero z h0 h1, mul_zero]
      simp [store]
  constructor <;> simp [eta, rhosDetaStored, hp, store]

/-- **C133, violated** (python and cython). The mean attractive energy is then that of the ideal gas limit: it grows in
proportion to the density. -/
theorem c133_violated_a1s (M ρ C l z ε d : ℝ) (h0 : 0 ≤ z) (h1 : z < 1) :
    a1s .int M ρ C l z ε d = -(2 * Real.pi * C * (ε * (d ^ 3 * M ^ 2) / (l - 3)) * ρ) ∧
    da1sStored .int M l z ε d = -(2 * Real.pi * (ε * (d ^ 3 * M ^ 2) / (l - 3))) := by
  obtain ⟨e1, e2⟩ := c133_violated_packing l z h0 h1
  constructor
  · simp only [a1s, e1]; ring
  · simp only [da1sStored, e1, e2]; ring

/-- **C133, violated** (numba). Densities given as integers are refused. -/
theorem c133_violated_numba {n m : ℕ} (M : ℝ) (P : Mie n m) (ρs : List ℝ) (T : ℝ) (x : Fin n → ℝ) :
    afirstArray .numba (arrayType true) M P ρs T x = .error .typeError ∧
    ∃ l, afirstArray .python (arrayType true) M P ρs T x = .ok l := by
  simp [afirstArray, call, arrayType]

/-- **C133, violated** (numba). The same holds for the second order and the chains. -/
theorem c133_violated_numba_terms {n m : ℕ} (M : ℝ) (P : Mie n m) (ρs : List ℝ) (T : ℝ) (x : Fin n → ℝ) :
    asecondArray .numba (arrayType true) M P ρs T x = .error .typeError ∧ achainArray .numba (arrayType true) M P ρs T x = .error .typeError ∧
    (∃ l, asecondArray .python (arrayType true) M P ρs T x = .ok l) ∧ ∃ l, achainArray .python (arrayType true) M P ρs T x = .ok l := by
  simp [asecondArray, achainArray, call, arrayType]

/-- The effective packing fraction of the exponent six at the packing fraction 0.4 lies between 0.17 and 0.18. -/
private theorem eta_six : 0.17 < etaEff 6 0.4 ∧ etaEff 6 0.4 < 0.18 := by
  constructor <;> (simp only [etaEff, ceff, cklCoef, Matrix.cons_val]; norm_num)

/-- **C133, violated** (value). At the packing fraction 0.4 and the exponent six the attractive energy from integers is
less than 63 % of the energy from floats. -/
theorem c133_violated_value (M ρ C ε d : ℝ) (hM : 0 < M) (hρ : 0 < ρ) (hC : 0 < C) (hε : 0 < ε) (hd : 0 < d) :
    |a1s .int M ρ C 6 0.4 ε d| < 0.63 * |a1s .float M ρ C 6 0.4 ε d| := by
  rw [(c133_violated_a1s M ρ C 6 0.4 ε d (by norm_num) (by norm_num)).1, (c133_functions M ρ C 6 0 0 0.4 ε d 0).1]
  obtain ⟨h1, h2⟩ := eta_six
  have hpi := Real.pi_pos
  simp only [a1sEff]
  generalize etaEff 6 0.4 = η at h1 h2
  have hB : 0 < 2 * Real.pi * C * (ε * (d ^ 3 * M ^ 2) / (6 - 3)) * ρ := by
    have : (0 : ℝ) < 6 - 3 := by norm_num
    positivity
  have e : -(1 - η / 2) / (1 - η) ^ 3 * 2 * Real.pi * C * (ε * (d ^ 3 * M ^ 2) / (6 - 3)) * ρ =
      -((1 - η / 2) / (1 - η) ^ 3 * (2 * Real.pi * C * (ε * (d ^ 3 * M ^ 2) / (6 - 3)) * ρ)) := by ring
  rw [e, abs_neg, abs_neg, abs_of_pos hB]
  generalize 2 * Real.pi * C * (ε * (d ^ 3 * M ^ 2) / (6 - 3)) * ρ = B at hB
  have hq : 1.59 < (1 - η / 2) / (1 - η) ^ 3 := by
    have hp : 0 < (1 - η) ^ 3 := by
      have : 0 < 1 - η := by linarith
      positivity
    rw [lt_div_iff₀ hp]
    nlinarith [mul_pos (show 0 < η - 0.17 by linarith) (show 0 < 0.18 - η by linarith),
      mul_pos (mul_pos (show 0 < η - 0.17 by linarith) (show 0 < 0.18 - η by linarith)) (show 0 < 1 - η by linarith)]
  rw [abs_of_pos (by positivity)]
  nlinarith

/-- The second order for the exponents 12 and 6 at the reduced distance one, where the terms of `calc_Bkl` vanish. -/
private theorem a2_contact (dt : DType) (M ρ C d ε z : ℝ) (hM : M ≠ 0) : a2Stored dt M ρ C d 6 12 1 ε z =
    -(khs z * Real.pi * C * ρ * ε ^ 2 * d ^ 3 * M * prefactor 12 6 ^ 2) *
      ((1 - eta dt 12 z / 2) / (1 - eta dt 12 z) ^ 3 / 9 - 2 * ((1 - eta dt 18 z / 2) / (1 - eta dt 18 z) ^ 3) / 15 +
        (1 - eta dt 24 z / 2) / (1 - eta dt 24 z) ^ 3 / 21) := by
  have b0 : ∀ l, bEff M ρ l C d ε 1 z = 0 := fun l => by
    have hj : jFun l 1 = 0 := by
      rw [jFun, Real.one_rpow, Real.one_rpow, show (1 : ℝ) - 1 * (l - 3) + 1 * (l - 4) = 0 by ring, zero_div]
    have hi : iFun l 1 = 0 := by rw [iFun, Real.one_rpow, sub_self, zero_div]
    simp only [bEff, hi, hj, mul_zero, sub_zero]
  simp only [a2Stored, a1s, b0, Real.one_rpow, show (2 : ℝ) * 6 = 12 by norm_num, show (6 : ℝ) + 12 = 18 by norm_num,
    show (2 : ℝ) * 12 = 24 by norm_num, neg_div]
  generalize (1 - eta dt 12 z / 2) / (1 - eta dt 12 z) ^ 3 = g12
  generalize (1 - eta dt 18 z / 2) / (1 - eta dt 18 z) ^ 3 = g18
  generalize (1 - eta dt 24 z / 2) / (1 - eta dt 24 z) ^ 3 = g24
  field_simp
  ring

/-- **C133, violated** (value of the second order). For the exponents 12 and 6, at the packing fraction 0.4 and the reduced distance one, the second order from integers is
less than 65 % of the one from floats. -/
theorem c133_violated_second (M ρ C ε d : ℝ) (hM : 0 < M) (hρ : 0 < ρ) (hC : 0 < C) (hε : 0 < ε) (hd : 0 < d) :
    |a2Stored .int M ρ C d 6 12 1 ε 0.4| < 0.65 * |a2Stored .float M ρ C d 6 12 1 ε 0.4| := by
  rw [a2_contact .int _ _ _ _ _ _ hM.ne', a2_contact .float _ _ _ _ _ _ hM.ne']
  have hk : 0 < khs 0.4 := by unfold khs; norm_num
  have hp : 0 < prefactor 12 6 := by unfold prefactor; positivity
  have hpi := Real.pi_pos
  have hB : 0 < khs 0.4 * Real.pi * C * ρ * ε ^ 2 * d ^ 3 * M * prefactor 12 6 ^ 2 := by positivity
  generalize khs 0.4 * Real.pi * C * ρ * ε ^ 2 * d ^ 3 * M * prefactor 12 6 ^ 2 = B at hB
  have e0 : ∀ l, eta .int l 0.4 = 0 := fun l => (c133_violated_packing l 0.4 (by norm_num) (by norm_num)).1
  simp only [e0, (c133_packing _ _).1]
  have hf : (395 / 10000 : ℝ) < (1 - etaEff 12 0.4 / 2) / (1 - etaEff 12 0.4) ^ 3 / 9 -
      2 * ((1 - etaEff 18 0.4 / 2) / (1 - etaEff 18 0.4) ^ 3) / 15 + (1 - etaEff 24 0.4 / 2) / (1 - etaEff 24 0.4) ^ 3 / 21 := by
    simp only [etaEff, ceff, cklCoef, Matrix.cons_val]
    norm_num
  generalize (1 - etaEff 12 0.4 / 2) / (1 - etaEff 12 0.4) ^ 3 / 9 - 2 * ((1 - etaEff 18 0.4 / 2) / (1 - etaEff 18 0.4) ^ 3) / 15 +
    (1 - etaEff 24 0.4 / 2) / (1 - etaEff 24 0.4) ^ 3 / 21 = G at hf
  have hG : 0 < G := by linarith
  rw [neg_mul, neg_mul, abs_neg, abs_neg, abs_of_pos (mul_pos hB hG), abs_of_pos (mul_pos hB (by norm_num))]
  nlinarith

/-! ## Exponents of zero -/

/-- **C133, violated** (exponents). An exponent of zero raises in the python file and gives NaN in the compiled ones. -/
theorem c133_violated_exponent (la : ℝ) (ls : List (ℝ × ℝ)) :
    prefactorOf .python ((0, la) :: ls) = .error .valueError ∧
    ∃ r, prefactorOf .numba ((0, la) :: ls) = .ok (none :: r) ∧ prefactorOf .cython ((0, la) :: ls) = .ok (none :: r) := by
  refine ⟨?_, ls.map (fun l => open Classical in if l.1 = 0 then none else some (prefactor l.1 l.2)), ?_, ?_⟩
  · unfold prefactorOf
    rw [if_pos ⟨⟨(0, la), by simp, rfl⟩, rfl⟩]
  · unfold prefactorOf
    rw [if_neg (by simp)]
    simp
  · unfold prefactorOf
    rw [if_neg (by simp)]
    simp

/-- **C133** (exponents). Without one the three agree. -/
theorem c133_exponents (impl : Impl) (ls : List (ℝ × ℝ)) (h : ∀ l ∈ ls, l.1 ≠ 0) :
    prefactorOf impl ls = .ok (ls.map fun l => some (prefactor l.1 l.2)) := by
  unfold prefactorOf
  rw [if_neg (by rintro ⟨⟨l, hl, e⟩, _⟩; exact h l hl e)]
  congr 1
  refine List.map_congr_left fun l hl => ?_
  rw [if_neg (h l hl)]

example : ∀ l ∈ [((12 : ℝ), (6 : ℝ)), (10, 6)], l.1 ≠ 0 := by simp

end Verif.Props
