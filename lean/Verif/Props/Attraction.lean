import Verif.Props.LennardJones
import Verif.Props.MieSymmetry

/-!
# C155: the perturbation terms of the Mie fluid lower the energy

The first-order term is the mean attractive energy over the hard-sphere fluid, the second-order term minus a variance and the
third-order term a fitted negative quantity.  For Lennard-Jones groups all three are negative in the range where a liquid
exists, and the sections below say where they are not.
-/

namespace Verif.Props
open Verif Verif.Saft Verif.GammaMie Verif.MieTerms

variable {n m : ℕ}

/-- All groups have the exponents 12 and 6, and the diameter of a pair is the arithmetic mean. -/
structure LennardJones (P : Mie n m) : Prop where
  lr : ∀ k l, P.lr k l = 12
  la : ∀ k l, P.la k l = 6
  blr : ∀ k, P.blr k = 12
  bla : ∀ k, P.bla k = 6
  σ : ∀ k l, P.σ k l = (P.bσ k + P.bσ l) / 2

/-- A weighted sum over the pairs of groups that occur. -/
private theorem weighted_pos (P : Mie n m) (T : ℝ) (x : Fin n → ℝ) (h : Phys P T x) (F : Fin m → Fin m → ℝ)
    (hF : ∀ k l, 0 < F k l) : 0 < ∑ k, ∑ l, F k l * xskl P.g x k l := by
  classical
  obtain ⟨-, hnn, hone⟩ := c17_xskl P.g x h.x0 h.ν h.V h.S h.cmol_pos.ne'
  have nn : ∀ k l, 0 ≤ F k l * xskl P.g x k l := fun k l => mul_nonneg (hF k l).le (hnn k l)
  obtain ⟨k, l, hkl⟩ : ∃ k l, 0 < xskl P.g x k l := by
    by_contra hc
    push Not at hc
    have : ∑ k, ∑ l, xskl P.g x k l ≤ 0 := Finset.sum_nonpos fun k _ => Finset.sum_nonpos fun l _ => hc k l
    linarith
  exact Finset.sum_pos' (fun k _ => Finset.sum_nonneg fun l _ => nn k l) ⟨k, Finset.mem_univ k,
    Finset.sum_pos' (fun l _ => nn k l) ⟨l, Finset.mem_univ l, mul_pos (hF k l) hkl⟩⟩

private theorem weighted_neg (P : Mie n m) (T : ℝ) (x : Fin n → ℝ) (h : Phys P T x) (F : Fin m → Fin m → ℝ)
    (hF : ∀ k l, F k l < 0) : ∑ k, ∑ l, F k l * xskl P.g x k l < 0 := by
  have := weighted_pos P T x h (fun k l => -F k l) fun k l => neg_pos.2 (hF k l)
  simp only [neg_mul, Finset.sum_neg_distrib] at this
  linarith

/-- The contact distance of a pair, when the diameters of the groups are known up to a factor. -/
private theorem x0_le (P : Mie n m) (T : ℝ) (x : Fin n → ℝ) (h : Phys P T x) (hP : LennardJones P) (c : ℝ)
    (hd : ∀ k, P.bσ k ≤ c * dk P T k) (k l : Fin m) : x0kl P T k l ≤ c := by
  unfold x0kl
  rw [div_le_iff₀ (h.dkl_pos k l), hP.σ]
  show _ ≤ c * ((dk P T k + dk P T l) / 2)
  linarith [hd k, hd l]

private theorem x0_ge (P : Mie n m) (T : ℝ) (x : Fin n → ℝ) (h : Phys P T x) (hP : LennardJones P) (c : ℝ)
    (hd : ∀ k, c * dk P T k ≤ P.bσ k) (k l : Fin m) : c ≤ x0kl P T k l := by
  unfold x0kl
  rw [le_div_iff₀ (h.dkl_pos k l), hP.σ]
  show c * ((dk P T k + dk P T l) / 2) ≤ _
  linarith [hd k, hd l]

private theorem x0_one (P : Mie n m) (T : ℝ) (x : Fin n → ℝ) (h : Phys P T x) (hP : LennardJones P) (k l : Fin m) :
    1 ≤ x0kl P T k l :=
  x0_ge P T x h hP 1 (fun k => by
    rw [one_mul]
    exact (c60_diameter_lt_sigma _ _ _ _ _ (h.bε k) (h.bσ k) h.T (h.bla k) (h.blr k)).le) k l

private theorem zx_nonneg (M ρ T : ℝ) (P : Mie n m) (x : Fin n → ℝ) (h : Phys P T x) (hM : 0 < M) (hρ : 0 < ρ) :
    0 ≤ zx M P ρ T x := by
  have hpi := Real.pi_pos
  have hC := h.cmol_pos
  have hnn := (c17_xskl P.g x h.x0 h.ν h.V h.S hC.ne').2.1
  have : 0 ≤ ∑ k, ∑ l, xskl P.g x k l * (dkl P T k l ^ 3 * M) := Finset.sum_nonneg fun k _ => Finset.sum_nonneg fun l _ =>
    mul_nonneg (hnn k l) (mul_nonneg (pow_nonneg (h.dkl_pos k l).le 3) hM.le)
  unfold zx zetax
  positivity

private theorem zs_pos (M ρ T : ℝ) (P : Mie n m) (x : Fin n → ℝ) (h : Phys P T x) (hM : 0 < M) (hρ : 0 < ρ) :
    0 < zxstar M P ρ x := by
  have hpi := Real.pi_pos
  have hC := h.cmol_pos
  have := weighted_pos P T x h (fun k l => P.σ k l ^ 3 * M) fun k l => mul_pos (pow_pos (h.σ k l) 3) hM
  have : 0 < ∑ k, ∑ l, xskl P.g x k l * (P.σ k l ^ 3 * M) := by
    refine this.trans_eq (Finset.sum_congr rfl fun k _ => Finset.sum_congr rfl fun l _ => mul_comm _ _)
  unfold zxstar zetax
  positivity

/-- The reduced density is at most the packing fraction times the third power of the largest contact distance. -/
private theorem zs_le (M ρ T : ℝ) (P : Mie n m) (x : Fin n → ℝ) (h : Phys P T x) (hM : 0 < M) (hρ : 0 < ρ) (c : ℝ)
    (hc : ∀ k l, x0kl P T k l ≤ c) : zxstar M P ρ x ≤ c ^ 3 * zx M P ρ T x := by
  have hpi := Real.pi_pos
  have hC := h.cmol_pos
  have hnn := (c17_xskl P.g x h.x0 h.ν h.V h.S hC.ne').2.1
  have key : ∑ k, ∑ l, xskl P.g x k l * (P.σ k l ^ 3 * M) ≤ c ^ 3 * ∑ k, ∑ l, xskl P.g x k l * (dkl P T k l ^ 3 * M) := by
    rw [Finset.mul_sum]
    refine Finset.sum_le_sum fun k _ => ?_
    rw [Finset.mul_sum]
    refine Finset.sum_le_sum fun l _ => ?_
    have hs : P.σ k l ≤ c * dkl P T k l := by
      have := hc k l
      unfold x0kl at this
      rwa [div_le_iff₀ (h.dkl_pos k l)] at this
    have h3 : P.σ k l ^ 3 ≤ (c * dkl P T k l) ^ 3 := pow_le_pow_left₀ (h.σ k l).le hs 3
    have := mul_le_mul_of_nonneg_left (mul_le_mul_of_nonneg_right h3 hM.le) (hnn k l)
    refine this.trans_eq (by ring)
  unfold zxstar zx zetax
  have := mul_le_mul_of_nonneg_left key (by positivity : 0 ≤ ρ * cmol2seg P.g x * (Real.pi / 6))
  linarith

private theorem khs_pos' {z : ℝ} (h0 : 0 ≤ z) (h1 : z < 1) : 0 < khs z := by
  unfold khs
  refine div_pos (pow_pos (by linarith) 4) ?_
  nlinarith [mul_nonneg h0 (sub_nonneg.2 h1.le), mul_nonneg (mul_nonneg h0 h0) (sub_nonneg.2 h1.le), sq_nonneg z, sq_nonneg (z ^ 2)]

/-! ## The terms of one pair -/

private theorem a1_form (M ρ C d x ε z : ℝ) (hM : M ≠ 0) : a1ii M ρ C d 6 12 x ε z =
    2 * Real.pi * C * ρ * ε * (d ^ 3 * M) * prefactor 12 6 *
      (x ^ (6 : ℝ) * suth 6 z x - x ^ (12 : ℝ) * suth 12 z x) := by
  unfold a1ii
  rw [suth_eq, suth_eq]
  field_simp

private theorem a2_form (M ρ C d x ε z : ℝ) (hM : M ≠ 0) : a2NoChi M ρ C d 6 12 x ε z =
    khs z / 2 * (2 * Real.pi * C * ρ * ε * (d ^ 3 * M)) * (ε * prefactor 12 6 ^ 2) *
      (x ^ (2 * 6 : ℝ) * suth (2 * 6) z x - 2 * (x ^ (6 + 12 : ℝ) * suth (6 + 12) z x) + x ^ (2 * 12 : ℝ) * suth (2 * 12) z x) := by
  unfold a2NoChi
  rw [suth_eq, suth_eq, suth_eq]
  field_simp

private theorem pre_pos : 0 < prefactor 12 6 := c58_prefactor_pos 12 6 (by norm_num) (by norm_num)

/-! ## The first order -/

/-- **C155** (first order): up to forty times the energies of the groups and up to the packing fraction 0.65 the first-order
term of Lennard-Jones groups is negative. -/
theorem c155_first_partial (M ρ T : ℝ) (P : Mie n m) (x : Fin n → ℝ) (h : Phys P T x) (hP : LennardJones P) (hM : 0 < M)
    (hρ : 0 < ρ) (hT : ∀ k, T ≤ 40 * P.bε k) (hz : zx M P ρ T x ≤ 0.65) : afirst M P ρ T x < 0 := by
  have hpi := Real.pi_pos
  have hC := h.cmol_pos
  have hT0 := h.T
  have hx : ∀ k l, x0kl P T k l ≤ 241/200 := x0_le P T x h hP _ fun k => by
    have := (c60_lennard_jones (P.bε k) (P.bσ k) T (h.bσ k) hT0).2.2.2.1 (hT k)
    unfold dk
    rw [hP.blr, hP.bla]
    have := h.bσ k
    norm_num at *
    linarith
  have hz0 := zx_nonneg M ρ T P x h hM hρ
  unfold afirst
  simp only [hP.lr, hP.la]
  refine mul_neg_of_pos_of_neg (by positivity) (weighted_neg P T x h _ fun k l => ?_)
  rw [a1_form _ _ _ _ _ _ _ hM.ne']
  have hd := h.dkl_pos k l
  have he := h.ε k l
  have hp := pre_pos
  exact mul_neg_of_pos_of_neg (by positivity) (lj_bracket_first _ _ (x0_one P T x h hP k l) (hx k l) hz0
    (by norm_num at hz ⊢; exact hz))

/-- A density of given packing fraction below one is accepted. -/
private theorem accepted (M T z : ℝ) (P : Mie n m) (x : Fin n → ℝ) (h : Phys P T x) (hM : 0 < M) (hz : 0 < z) (hz1 : z < 1) :
    ∃ ρ > 0, (∃ out, amonomer M P [ρ] T x = .ok out) ∧ zx M P ρ T x = z := by
  have hpi := Real.pi_pos
  have hC := h.cmol_pos
  have hD : 0 < ∑ k, ∑ l, xskl P.g x k l * dkl P T k l ^ 3 := c18_pos P.g x h.x0 h.ν h.V h.S hC.ne' _ h.dkl_pos
  have hR : 0 < densityMax M (cmol2seg P.g x) (xskl P.g x) (dkl P T) 1 := by unfold densityMax; positivity
  have hmax : densityMax M (cmol2seg P.g x) (xskl P.g x) (dkl P T) z = z * densityMax M (cmol2seg P.g x) (xskl P.g x) (dkl P T) 1 := by
    unfold densityMax; ring
  have hρ0 : 0 < densityMax M (cmol2seg P.g x) (xskl P.g x) (dkl P T) z := by rw [hmax]; positivity
  have h1 : ¬ (densityMax M (cmol2seg P.g x) (xskl P.g x) (dkl P T) 1 ≤ densityMax M (cmol2seg P.g x) (xskl P.g x) (dkl P T) z ∨
      densityMax M (cmol2seg P.g x) (xskl P.g x) (dkl P T) z < 0) := by
    rw [not_or, not_le, not_lt]
    refine ⟨?_, hρ0.le⟩
    rw [hmax]
    nlinarith
  exact ⟨densityMax M (cmol2seg P.g x) (xskl P.g x) (dkl P T) z, hρ0, ⟨_, (c120_single M _ T P x).trans (if_neg h1)⟩,
    c18_at_density_max M _ _ _ z hM.ne' hC.ne' hD.ne'⟩

/-- **C155, violated** (first order): below half the energies of the groups the code accepts a density at which the
first-order term of Lennard-Jones groups is positive. -/
theorem c155_violated_first (M T : ℝ) (P : Mie n m) (x : Fin n → ℝ) (h : Phys P T x) (hP : LennardJones P) (hM : 0 < M)
    (hT : ∀ k, T ≤ P.bε k / 2) :
    ∃ ρ > 0, (∃ out, amonomer M P [ρ] T x = .ok out) ∧ zx M P ρ T x = 4/5 ∧ 0 < afirst M P ρ T x := by
  obtain ⟨ρ, hρ, ha, hz⟩ := accepted M T (4/5) P x h hM (by norm_num) (by norm_num)
  refine ⟨ρ, hρ, ha, hz, ?_⟩
  have hpi := Real.pi_pos
  have hC := h.cmol_pos
  have hT0 := h.T
  have hx : ∀ k l, x0kl P T k l ≤ 51/50 := x0_le P T x h hP _ fun k => by
    have := (c60_lennard_jones (P.bε k) (P.bσ k) T (h.bσ k) hT0).1 (hT k)
    unfold dk
    rw [hP.blr, hP.bla]
    have := h.bσ k
    norm_num at *
    linarith
  unfold afirst
  simp only [hP.lr, hP.la, hz]
  refine mul_pos (by positivity) (weighted_pos P T x h _ fun k l => ?_)
  rw [a1_form _ _ _ _ _ _ _ hM.ne']
  have hd := h.dkl_pos k l
  have he := h.ε k l
  have hp := pre_pos
  exact mul_pos (by positivity) (lj_bracket_cold _ (x0_one P T x h hP k l) (hx k l))

/-! ## The second order -/

/-- **C153** (Lennard-Jones): up to twice the energies of the groups and up to the packing fraction 0.6 the second-order term
is negative. -/
theorem c153_mie_partial (M ρ T : ℝ) (P : Mie n m) (x : Fin n → ℝ) (h : Phys P T x) (hP : LennardJones P) (hM : 0 < M)
    (hρ : 0 < ρ) (hT : ∀ k, T ≤ 2 * P.bε k) (hz : zx M P ρ T x ≤ 0.6) : asecond M P ρ T x < 0 := by
  have hpi := Real.pi_pos
  have hC := h.cmol_pos
  have hT0 := h.T
  have hx : ∀ k l, x0kl P T k l ≤ 1047/1000 := x0_le P T x h hP _ fun k => by
    have := (c60_lennard_jones (P.bε k) (P.bσ k) T (h.bσ k) hT0).2.1 (hT k)
    unfold dk
    rw [hP.blr, hP.bla]
    have := h.bσ k
    norm_num at *
    linarith
  have hz0 := zx_nonneg M ρ T P x h hM hρ
  have hzs := zs_le M ρ T P x h hM hρ _ hx
  have hchi := c153_lennard_jones_partial _ (zs_pos M ρ T P x h hM hρ).le (by norm_num at *; linarith)
  have hk := khs_pos' hz0 (by norm_num at *; linarith)
  unfold asecond
  simp only [hP.lr, hP.la]
  refine mul_neg_of_pos_of_neg (by positivity) (weighted_neg P T x h _ fun k l => mul_neg_of_neg_of_pos ?_ hchi)
  rw [a2_form _ _ _ _ _ _ _ hM.ne']
  have hd := h.dkl_pos k l
  have he := h.ε k l
  have hp := pre_pos
  exact mul_neg_of_pos_of_neg (by positivity) (lj_bracket_second _ _ (x0_one P T x h hP k l) (hx k l) hz0
    (by norm_num at hz ⊢; exact hz))

/-- **C153, violated** (Lennard-Jones): between twelve and twenty times the energies of the groups the code accepts the
packing fraction one half, and the second-order term is positive there. -/
theorem c153_violated_hot (M T : ℝ) (P : Mie n m) (x : Fin n → ℝ) (h : Phys P T x) (hP : LennardJones P) (hM : 0 < M)
    (hT : ∀ k, 12 * P.bε k ≤ T) (hT1 : ∀ k, T ≤ 20 * P.bε k) :
    ∃ ρ > 0, (∃ out, amonomer M P [ρ] T x = .ok out) ∧ zx M P ρ T x = 1/2 ∧ 0 < asecond M P ρ T x := by
  obtain ⟨ρ, hρ, ha, hz⟩ := accepted M T (1/2) P x h hM (by norm_num) (by norm_num)
  refine ⟨ρ, hρ, ha, hz, ?_⟩
  have hpi := Real.pi_pos
  have hC := h.cmol_pos
  have hT0 := h.T
  have hx : ∀ k l, x0kl P T k l ≤ 29/25 := x0_le P T x h hP _ fun k => by
    have := (c60_lennard_jones (P.bε k) (P.bσ k) T (h.bσ k) hT0).2.2.1 (hT1 k)
    unfold dk
    rw [hP.blr, hP.bla]
    have := h.bσ k
    norm_num at *
    linarith
  have hx' : ∀ k l, 111/100 ≤ x0kl P T k l := x0_ge P T x h hP _ fun k => by
    have := (c60_lennard_jones (P.bε k) (P.bσ k) T (h.bσ k) hT0).2.2.2.2 (hT k)
    unfold dk
    rw [hP.blr, hP.bla]
    have := h.bσ k
    norm_num at *
    linarith
  have hzs := zs_le M ρ T P x h hM hρ _ hx
  rw [hz] at hzs
  have hchi := c153_lennard_jones_partial _ (zs_pos M ρ T P x h hM hρ).le (by norm_num at *; linarith)
  have hk : 0 < khs (1/2) := khs_pos' (by norm_num) (by norm_num)
  unfold asecond
  simp only [hP.lr, hP.la, hz]
  refine mul_pos (by positivity) (weighted_pos P T x h _ fun k l => mul_pos ?_ hchi)
  rw [a2_form _ _ _ _ _ _ _ hM.ne']
  have hd := h.dkl_pos k l
  have he := h.ε k l
  have hp := pre_pos
  exact mul_pos (by positivity) (lj_bracket_hot _ (hx' k l) (hx k l))

/-! ## The third order -/

/-- **C155** (third order): its sign at every state is that of the fitted function `f₄` of the van der Waals energies. -/
theorem c155_third (M ρ T : ℝ) (P : Mie n m) (x : Fin n → ℝ) (h : Phys P T x) (hM : 0 < M) (hρ : 0 < ρ) :
    ((∀ k l, 0 < f 3 (alphaOf (P.lr k l) (P.la k l))) → athird M P ρ T x < 0) ∧
    ((∀ k l, f 3 (alphaOf (P.lr k l) (P.la k l)) < 0) → 0 < athird M P ρ T x) := by
  have hC := h.cmol_pos
  have hT := h.T
  have hz := zs_pos M ρ T P x h hM hρ
  have e : ∀ k l, 0 < P.ε k l ^ 3 := fun k l => pow_pos (h.ε k l) 3
  constructor <;> intro hf <;> unfold athird <;> dsimp only
  · refine mul_neg_of_pos_of_neg (by positivity) (weighted_neg P T x h _ fun k l => ?_)
    exact mul_neg_of_neg_of_pos (mul_neg_of_pos_of_neg hz (by rw [neg_mul]; exact neg_neg_of_pos (mul_pos (e k l) (hf k l))))
      (Real.exp_pos _)
  · refine mul_pos (by positivity) (weighted_pos P T x h _ fun k l => ?_)
    exact mul_pos (mul_pos hz (by rw [neg_mul]; exact neg_pos.2 (mul_neg_of_pos_of_neg (e k l) (hf k l)))) (Real.exp_pos _)

/-- **C155** (third order): negative when the van der Waals energies are at least 0.21. -/
theorem c155_third_partial (M ρ T : ℝ) (P : Mie n m) (x : Fin n → ℝ) (h : Phys P T x) (hM : 0 < M) (hρ : 0 < ρ)
    (hα : ∀ k l, 0.21 ≤ alphaOf (P.lr k l) (P.la k l)) : athird M P ρ T x < 0 := by
  refine (c155_third M ρ T P x h hM hρ).1 fun k l => ?_
  have := hα k l
  generalize alphaOf (P.lr k l) (P.la k l) = α at *
  refine div_pos ?_ (c115_den_pos 3 (by decide) α (by linarith))
  simp only [fmNum, phimn, Matrix.cons_val]
  nlinarith [mul_nonneg (sub_nonneg.2 this) (sq_nonneg (α - 0.64)), sq_nonneg (α - 0.64)]

/-- **C155, violated** (third order): positive at every density when they are at most 0.2. -/
theorem c155_violated_third (M ρ T : ℝ) (P : Mie n m) (x : Fin n → ℝ) (h : Phys P T x) (hM : 0 < M) (hρ : 0 < ρ)
    (h0 : ∀ k l, 0 ≤ alphaOf (P.lr k l) (P.la k l)) (hα : ∀ k l, alphaOf (P.lr k l) (P.la k l) ≤ 0.2) :
    0 < athird M P ρ T x := by
  refine (c155_third M ρ T P x h hM hρ).2 fun k l => ?_
  have a := hα k l
  have b := h0 k l
  generalize alphaOf (P.lr k l) (P.la k l) = α at *
  refine div_neg_of_neg_of_pos ?_ (c115_den_pos 3 (by decide) α b)
  simp only [fmNum, phimn, Matrix.cons_val]
  nlinarith [mul_nonneg b (sub_nonneg.2 a), mul_nonneg (mul_nonneg b b) (sub_nonneg.2 a)]

/-! ## All terms -/

/-- **C155** (all orders): up to twice the energies of the groups and up to the packing fraction 0.6 the attraction of
Lennard-Jones groups lowers the energy of the monomers below that of hard spheres. -/
theorem c155_monomer_partial (M ρ T : ℝ) (P : Mie n m) (x : Fin n → ℝ) (h : Phys P T x) (hP : LennardJones P) (hM : 0 < M)
    (hρ : 0 < ρ) (hT : ∀ k, T ≤ 2 * P.bε k) (hz : zx M P ρ T x ≤ 0.6) (out : List ℝ) (ho : amonomer M P [ρ] T x = .ok out) :
    ∃ a, out = [a] ∧ a < ahs M P ρ T x := by
  have a1 := c155_first_partial M ρ T P x h hP hM hρ (fun k => by linarith [hT k, h.bε k]) (by norm_num at *; linarith)
  have a2 := c153_mie_partial M ρ T P x h hP hM hρ hT hz
  have a3 := c155_third_partial M ρ T P x h hM hρ fun k l => by
    rw [hP.lr, hP.la, c153_lennard_jones]; norm_num
  obtain ⟨-, -, rfl⟩ := c120_pointwise_partial M T [ρ] P x out ho
  exact ⟨_, rfl, by linarith⟩

/-! ## A molecule -/

/-- The chain of two groups of `MieLimits` has these exponents. -/
private theorem dimer_lj : LennardJones dimer := ⟨fun _ _ => rfl, fun _ _ => rfl, fun _ => rfl, fun _ => rfl, fun _ _ => rfl⟩

private theorem dimer_at (T : ℝ) (hT : 0 < T) : Phys dimer T (fun _ => 1) := { dimer_phys with T := hT }

example : LennardJones dimer ∧ Phys dimer 40 (fun _ => 1) ∧ ∀ k, (40 : ℝ) ≤ dimer.bε k / 2 :=
  ⟨dimer_lj, dimer_at 40 (by norm_num), fun _ => by simp [dimer]; norm_num⟩

example (M : ℝ) (hM : 0 < M) : ∃ ρ > 0, (∃ out, amonomer M dimer [ρ] 40 (fun _ => 1) = .ok out) ∧
    zx M dimer ρ 40 (fun _ => 1) = 4/5 ∧ 0 < afirst M dimer ρ 40 (fun _ => 1) :=
  c155_violated_first M 40 dimer _ (dimer_at 40 (by norm_num)) dimer_lj hM fun _ => by simp [dimer]; norm_num

example (M : ℝ) (hM : 0 < M) : ∃ ρ > 0, (∃ out, amonomer M dimer [ρ] 1500 (fun _ => 1) = .ok out) ∧
    zx M dimer ρ 1500 (fun _ => 1) = 1/2 ∧ 0 < asecond M dimer ρ 1500 (fun _ => 1) :=
  c153_violated_hot M 1500 dimer _ (dimer_at 1500 (by norm_num)) dimer_lj hM (fun _ => by simp [dimer]; norm_num)
    fun _ => by simp [dimer]; norm_num

/-- At 150, one and a half times the energy of the groups, and the packing fraction 0.4 the attraction lowers the energy. -/
example (M : ℝ) (hM : 0 < M) : ∃ ρ > 0, ∃ a, amonomer M dimer [ρ] 150 (fun _ => 1) = .ok [a] ∧ a < ahs M dimer ρ 150 (fun _ => 1) := by
  have h := dimer_at 150 (by norm_num)
  obtain ⟨ρ, hρ, ⟨out, ho⟩, hz⟩ := accepted M 150 0.4 dimer _ h hM (by norm_num) (by norm_num)
  obtain ⟨a, rfl, ha⟩ := c155_monomer_partial M ρ 150 dimer _ h dimer_lj hM hρ (fun _ => by simp [dimer]; norm_num)
    (by rw [hz]; norm_num) out ho
  exact ⟨ρ, hρ, a, ho, ha⟩

/-- Groups with the exponents 30 and 15, which the bounds allow, have a van der Waals energy below 0.2. -/
theorem c155_short_ranged : alphaOf 30 15 = 5 / 27 := by
  unfold alphaOf prefactor
  norm_num

/-- A chain of two such groups. -/
noncomputable def shortDimer : Mie 1 2 :=
  { dimer with lr := fun _ _ => 30, la := fun _ _ => 15, blr := fun _ => 30, bla := fun _ => 15 }

private theorem short_avg (c : ℝ) (i : Fin 1) : avg shortDimer (fun _ _ => c) i = c := by
  simp [avg, zfrac, zki, shortDimer, dimer]; ring

theorem shortDimer_phys : Phys shortDimer 300 (fun _ => 1) :=
  { dimer_phys with
    la := fun _ _ => by simp [shortDimer]; norm_num
    lr := fun _ _ => by simp [shortDimer]; norm_num
    la4 := fun _ _ => by simp [shortDimer]
    lr4 := fun _ _ => by simp [shortDimer]
    lai4 := fun i => by
      show avg shortDimer (fun _ _ => 15) i ≠ 4
      rw [short_avg]; norm_num
    lri4 := fun i => by
      show avg shortDimer (fun _ _ => 30) i ≠ 4
      rw [short_avg]; norm_num
    bla := fun _ => by simp [shortDimer]
    blr := fun _ => by simp [shortDimer]; norm_num }

/-- **C155, violated** (third order, a molecule): positive at every density. -/
theorem c155_violated_short_ranged (M ρ : ℝ) (hM : 0 < M) (hρ : 0 < ρ) : 0 < athird M shortDimer ρ 300 (fun _ => 1) := by
  refine c155_violated_third M ρ 300 shortDimer _ shortDimer_phys hM hρ (fun k l => ?_) fun k l => ?_ <;>
    · show _ ≤ _
      simp only [shortDimer, c155_short_ranged]
      norm_num

end Verif.Props
