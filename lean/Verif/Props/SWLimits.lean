import Mathlib.Analysis.SpecialFunctions.Integrals.Basic
import Mathlib.Analysis.Complex.ExponentialBounds
import Verif.Props.MieLimits
import Verif.Props.GammaSW
import Verif.Props.SWScaling

/-!
# C123: the square-well fluid at low density

The monomer energy vanishes linearly with the density.  Its slope is the second virial coefficient of the mixture, to
second order in the inverse temperature.  The chain term does not vanish.
-/

namespace Verif.Props
open Verif Verif.Saft Verif.GammaSW Verif.SWTerms Filter Topology

variable {n m : ℕ}

/-- A physical state: positive temperature, a composition, groups with positive well depths and sizes and ranges above
one; unlike sizes are the mean. -/
structure PhysSW (P : SWell n m) (T : ℝ) (x : Fin n → ℝ) : Prop where
  T : 0 < T
  x0 : ∀ i, 0 ≤ x i
  xsum : ∑ i, x i = 1
  ν : ∀ i k, 0 ≤ P.g.ν i k
  V : ∀ k, 0 ≤ P.g.V k
  S : ∀ k, 0 ≤ P.g.S k
  seg : ∀ i, 0 < ∑ k, zki P i k
  ε : ∀ k l, 0 < P.ε k l
  σ : ∀ k, 0 < P.σ k k
  σm : ∀ k l, P.σ k l = (P.σ k k + P.σ l l) / 2
  lam : ∀ k l, 1 < P.lam k l

namespace PhysSW
variable {P : SWell n m} {T : ℝ} {x : Fin n → ℝ}

theorem sizes (h : PhysSW P T x) : SizesSW P := ⟨h.ν, h.V, h.S, fun k => (h.σ k).le⟩

theorem cmol_pos (h : PhysSW P T x) : 0 < cmol2seg P.g x := by
  have e : cmol2seg P.g x = ∑ i, x i * ∑ k, zki P i k := by
    simp only [cmol2seg, zki, Finset.mul_sum]
    exact Finset.sum_congr rfl fun i _ => Finset.sum_congr rfl fun k _ => by ring
  rw [e]
  obtain ⟨i, -, hi⟩ : ∃ i ∈ Finset.univ, 0 < x i := by
    by_contra hc
    push Not at hc
    have : ∑ i, x i ≤ 0 := Finset.sum_nonpos hc
    rw [h.xsum] at this
    linarith
  exact Finset.sum_pos' (fun j _ => mul_nonneg (h.x0 j) (h.seg j).le) ⟨i, Finset.mem_univ _, mul_pos hi (h.seg i)⟩

theorem xsk_nonneg (h : PhysSW P T x) (k : Fin m) : 0 ≤ xsk P.g x k :=
  div_nonneg (mul_nonneg (mul_nonneg (Finset.sum_nonneg fun i _ => mul_nonneg (h.x0 i) (h.ν i k)) (h.V k)) (h.S k))
    h.cmol_pos.le

theorem xsk_sum (h : PhysSW P T x) : ∑ k, xsk P.g x k = 1 := by
  simp only [xsk, ← Finset.sum_div]
  rw [div_eq_one_iff_eq h.cmol_pos.ne']
  simp only [cmol2seg, Finset.sum_mul]
  rw [Finset.sum_comm]

/-- The moment per unit of density, without the square root. -/
theorem mom (M : ℝ) (h : PhysSW P T x) (q : ℕ) :
    zeta M P 1 x q = M * cmol2seg P.g x * (Real.pi / 6) * ∑ k, xsk P.g x k * P.σ k k ^ q := by
  have : ∀ k, √(xskl P.g x k k) = xsk P.g x k := fun k => by
    rw [xskl, ← sq, Real.sqrt_sq (h.xsk_nonneg k)]
  simp only [zeta, moment, this]; ring

theorem mom3_pos (M : ℝ) (hM : 0 < M) (h : PhysSW P T x) : 0 < zeta M P 1 x 3 := by
  rw [h.mom]
  obtain ⟨k, -, hk⟩ : ∃ k ∈ Finset.univ, 0 < xsk P.g x k := by
    by_contra hc
    push Not at hc
    have : ∑ k, xsk P.g x k ≤ 0 := Finset.sum_nonpos hc
    rw [h.xsk_sum] at this
    linarith
  have hS : 0 < ∑ k, xsk P.g x k * P.σ k k ^ 3 :=
    Finset.sum_pos' (fun k _ => mul_nonneg (h.xsk_nonneg k) (pow_nonneg (h.σ k).le 3))
      ⟨k, Finset.mem_univ _, mul_pos hk (pow_pos (h.σ k) 3)⟩
  have := Real.pi_pos
  have := h.cmol_pos
  positivity

theorem zfrac_sum (h : PhysSW P T x) (i : Fin n) : ∑ k, zfrac P i k = 1 := by
  simp only [zfrac, ← Finset.sum_div]
  exact div_self (h.seg i).ne'

/-- An average over the groups of a component lies above every lower bound of the entries. -/
theorem avg_gt (h : PhysSW P T x) (i : Fin n) (q : Fin m → Fin m → ℝ) (b : ℝ) (hq : ∀ k l, b < q k l) :
    b < ∑ k, ∑ l, zfrac P i k * zfrac P i l * q k l := by
  have hb : b = ∑ k, ∑ l, zfrac P i k * zfrac P i l * b := by
    simp only [← Finset.sum_mul, ← Finset.mul_sum, h.zfrac_sum, mul_one, one_mul]
  have hd : 0 < ∑ k, ∑ l, zfrac P i k * zfrac P i l * (q k l - b) := by
    obtain ⟨k, -, hk⟩ : ∃ k ∈ Finset.univ, 0 < zfrac P i k := by
      by_contra hc
      push Not at hc
      have : ∑ k, zfrac P i k ≤ 0 := Finset.sum_nonpos hc
      rw [h.zfrac_sum] at this
      linarith
    have hz := h.sizes.zfrac_nonneg i
    have hn : ∀ k l, 0 ≤ zfrac P i k * zfrac P i l * (q k l - b) := fun k l =>
      mul_nonneg (mul_nonneg (hz k) (hz l)) (by linarith [hq k l])
    exact Finset.sum_pos' (fun k _ => Finset.sum_nonneg fun l _ => hn k l) ⟨k, Finset.mem_univ _,
      Finset.sum_pos' (fun l _ => hn k l) ⟨k, Finset.mem_univ _, mul_pos (mul_pos hk hk) (by linarith [hq k k])⟩⟩
  have : ∑ k, ∑ l, zfrac P i k * zfrac P i l * (q k l - b)
      = (∑ k, ∑ l, zfrac P i k * zfrac P i l * q k l) - ∑ k, ∑ l, zfrac P i k * zfrac P i l * b := by
    simp only [mul_sub, Finset.sum_sub_distrib]
  rw [this] at hd
  linarith

theorem epsii_pos (h : PhysSW P T x) (i : Fin n) : 0 < epsii P i := h.avg_gt i P.ε 0 h.ε
theorem lamii_gt (h : PhysSW P T x) (i : Fin n) : 1 < lamii P i := h.avg_gt i P.lam 1 h.lam

end PhysSW

private theorem zeff_cont (lam : ℝ) : Continuous (zetaEff lam) :=
  continuous_iff_continuousAt.mpr fun z => (c59_dzetaEff lam z).continuousAt

private theorem dzeff_cont (lam : ℝ) : Continuous (dzetaEff lam) := by
  unfold dzetaEff; split <;> fun_prop

private theorem ddl_cont (lam : ℝ) : Continuous (dzetaDlam lam) := by
  unfold dzetaDlam; fun_prop

private theorem zeff_zero (lam : ℝ) : zetaEff lam 0 = 0 := by
  unfold zetaEff; split <;> simp

private theorem g0_cont (lam : ℝ) : ContinuousAt (g0HS lam) 0 := by
  have := (zeff_cont lam).continuousAt (x := 0)
  unfold g0HS
  fun_prop (disch := simp [zeff_zero])

private theorem g0_zero (lam : ℝ) : g0HS lam 0 = 1 := by simp [g0HS, zeff_zero]

private theorem zeta_lin (M ρ : ℝ) (P : SWell n m) (x : Fin n → ℝ) (q : ℕ) : zeta M P ρ x q = ρ * zeta M P 1 x q :=
  moment_lin _ _ _ _ _ q

private theorem zeta_tendsto (M : ℝ) (P : SWell n m) (x : Fin n → ℝ) (q : ℕ) :
    Tendsto (fun ρ => zeta M P ρ x q) (𝓝[≠] 0) (𝓝 0) := by
  have h : Continuous fun ρ : ℝ => ρ * zeta M P 1 x q := by fun_prop
  have := h.tendsto 0
  simp only [zero_mul] at this
  exact (this.mono_left nhdsWithin_le_nhds).congr fun ρ => (zeta_lin M ρ P x q).symm

/-- **C123** (first order): the slope is the mean-field energy of van der Waals. -/
theorem c123_first (M T : ℝ) (P : SWell n m) (x : Fin n → ℝ) :
    Tendsto (fun ρ => a1 M P ρ T x / ρ) (𝓝[≠] 0)
      (𝓝 (-(cmol2seg P.g x ^ 2 * M / T) * ∑ k, ∑ l, xskl P.g x k l * alphakl P k l)) := by
  have hk : ∀ k l, Tendsto (fun ρ => xskl P.g x k l * alphakl P k l * g0HS (P.lam k l) (zeta M P ρ x 3)) (𝓝[≠] 0)
      (𝓝 (xskl P.g x k l * alphakl P k l * g0HS (P.lam k l) 0)) := fun k l =>
    ((g0_cont (P.lam k l)).tendsto.comp (zeta_tendsto M P x 3)).const_mul _
  refine (to_lim ((tendsto_sum2 hk).const_mul (-(cmol2seg P.g x ^ 2 * M / T))) ?_).congr' ?_
  · simp only [g0_zero, mul_one]
  · filter_upwards [self_mem_nhdsWithin] with ρ hρ
    have hρ : ρ ≠ 0 := hρ
    have e : a1 M P ρ T x = -(cmol2seg P.g x ^ 2 * M / T)
        * (∑ k, ∑ l, xskl P.g x k l * alphakl P k l * g0HS (P.lam k l) (zeta M P ρ x 3)) * ρ := by
      simp only [a1, afirst, packing, zeta, Finset.mul_sum, Finset.sum_mul]
      exact Finset.sum_congr rfl fun k _ => Finset.sum_congr rfl fun l _ => by ring
    rw [e, mul_div_cancel_right₀ _ hρ]

/-- **C123** (second order). -/
theorem c123_second (M T : ℝ) (P : SWell n m) (x : Fin n → ℝ) :
    Tendsto (fun ρ => a2 M P ρ T x / ρ) (𝓝[≠] 0)
      (𝓝 (-(cmol2seg P.g x ^ 2 * M / (2 * T ^ 2)) * ∑ k, ∑ l, xskl P.g x k l * (P.ε k l * alphakl P k l))) := by
  let G : ℝ → ℝ → ℝ := fun lam z =>
    khs z * (g0HS lam z + z * dzetaEff lam z * (2.5 - zetaEff lam z) / (1 - zetaEff lam z) ^ 4)
  have hG : ∀ lam, ContinuousAt (G lam) 0 := by
    intro lam
    have h1 := g0_cont lam
    have h2 := (zeff_cont lam).continuousAt (x := 0)
    have h3 := (dzeff_cont lam).continuousAt (x := 0)
    have h4 : ContinuousAt khs 0 := by
      unfold khs
      fun_prop (disch := norm_num)
    show ContinuousAt (fun z =>
      khs z * (g0HS lam z + z * dzetaEff lam z * (2.5 - zetaEff lam z) / (1 - zetaEff lam z) ^ 4)) 0
    fun_prop (disch := simp [zeff_zero])
  have hG0 : ∀ lam, G lam 0 = 1 := fun lam => by simp [G, g0_zero, khs]
  have hk : ∀ k l, Tendsto (fun ρ => xskl P.g x k l * (P.ε k l * alphakl P k l) * G (P.lam k l) (zeta M P ρ x 3)) (𝓝[≠] 0)
      (𝓝 (xskl P.g x k l * (P.ε k l * alphakl P k l) * G (P.lam k l) 0)) := fun k l =>
    ((hG (P.lam k l)).tendsto.comp (zeta_tendsto M P x 3)).const_mul _
  refine (to_lim ((tendsto_sum2 hk).const_mul (-(cmol2seg P.g x ^ 2 * M / (2 * T ^ 2)))) ?_).congr' ?_
  · simp only [hG0, mul_one]
  · filter_upwards [self_mem_nhdsWithin] with ρ hρ
    have hρ : ρ ≠ 0 := hρ
    have e : a2 M P ρ T x = -(cmol2seg P.g x ^ 2 * M / (2 * T ^ 2))
        * (∑ k, ∑ l, xskl P.g x k l * (P.ε k l * alphakl P k l) * G (P.lam k l) (zeta M P ρ x 3)) * ρ := by
      simp only [a2, asecond, packing, zeta, Finset.mul_sum, Finset.sum_mul, G]
      refine Finset.sum_congr rfl fun k _ => Finset.sum_congr rfl fun l _ => ?_
      rw [show 2 * T ^ 2 = T ^ 2 * 2 by ring, ← div_div]
      generalize moment M ρ (cmol2seg P.g x) (xskl P.g x) P.σ 3 = z
      ring
    rw [e, mul_div_cancel_right₀ _ hρ]

/-- The second virial coefficient of a square-well pair, expanded to second order in `e = ε/T`. -/
noncomputable def virialSW (σ lam e : ℝ) : ℝ := 2 * Real.pi / 3 * σ ^ 3 * (1 - (lam ^ 3 - 1) * (e + e ^ 2 / 2))

/-- **C123** (hard spheres): the slope is the second virial coefficient of the hard-sphere mixture. -/
theorem c123_hard_spheres (M T : ℝ) (P : SWell n m) (x : Fin n → ℝ) (hM : 0 < M) (h : PhysSW P T x) :
    Tendsto (fun ρ => ahs M P ρ x / ρ) (𝓝[≠] 0)
      (𝓝 (cmol2seg P.g x ^ 2 * M * ∑ k, ∑ l, xskl P.g x k l * (2 * Real.pi / 3 * P.σ k l ^ 3))) := by
  have hs := hs_slope false M (zeta M P 1 x) hM.ne' (h.mom3_pos M hM).ne'
  refine (to_lim hs ?_).congr fun ρ => ?_
  · simp only [Bool.false_eq_true, if_false, h.mom]
    have hpi := Real.pi_ne_zero
    have hM' := hM.ne'
    have e : (∑ k, ∑ l, xskl P.g x k l * (2 * Real.pi / 3 * P.σ k l ^ 3))
        = Real.pi / 6 * (3 * (∑ k, xsk P.g x k * P.σ k k ^ 1) * (∑ k, xsk P.g x k * P.σ k k ^ 2)
          + (∑ k, xsk P.g x k * P.σ k k ^ 0) * ∑ k, xsk P.g x k * P.σ k k ^ 3) := by
      have e1 : ∀ k l, xskl P.g x k l * (2 * Real.pi / 3 * P.σ k l ^ 3)
          = Real.pi / 12 * (3 * (xsk P.g x k * P.σ k k ^ 1 * (xsk P.g x l * P.σ l l ^ 2))
            + xsk P.g x k * P.σ k k ^ 0 * (xsk P.g x l * P.σ l l ^ 3)
            + (3 * (xsk P.g x k * P.σ k k ^ 2 * (xsk P.g x l * P.σ l l ^ 1))
            + xsk P.g x k * P.σ k k ^ 3 * (xsk P.g x l * P.σ l l ^ 0))) := fun k l => by
        rw [h.σm k l, xskl]; ring
      simp only [e1, ← Finset.mul_sum, Finset.sum_add_distrib, ← Finset.sum_mul]
      ring
    rw [e]
    field_simp
  · rw [ahs, aHSsw, show zeta M P ρ x = fun q => ρ * zeta M P 1 x q from funext fun q => zeta_lin M ρ P x q]

/-- **C123** (virial coefficient): the monomer energy has as slope the second virial coefficient of the mixture of
square-well groups, to second order in the inverse temperature. -/
theorem c123_virial (M T : ℝ) (P : SWell n m) (x : Fin n → ℝ) (hM : 0 < M) (h : PhysSW P T x) :
    Tendsto (fun ρ => amono M P ρ T x / ρ) (𝓝[≠] 0)
      (𝓝 (cmol2seg P.g x ^ 2 * M * ∑ k, ∑ l, xskl P.g x k l * virialSW (P.σ k l) (P.lam k l) (P.ε k l / T))) := by
  have ht := ((c123_hard_spheres M T P x hM h).add (c123_first M T P x)).add (c123_second M T P x)
  refine (to_lim ht ?_).congr fun ρ => ?_
  · simp only [Finset.mul_sum, ← Finset.sum_add_distrib]
    refine Finset.sum_congr rfl fun k _ => Finset.sum_congr rfl fun l _ => ?_
    have := h.T.ne'
    simp only [alphakl, alpha, virialSW]
    field_simp
    ring
  · simp only [amono]; ring

/-- The exact second virial coefficient of a square-well pair, `2π ∫ (1 - exp(-u/T)) r² dr`: the hard core up to `σ`, the
well up to `λσ`. -/
noncomputable def virialExact (σ lam e : ℝ) : ℝ :=
  2 * Real.pi * ((∫ r in (0 : ℝ)..σ, r ^ 2) + (1 - Real.exp e) * ∫ r in σ..(lam * σ), r ^ 2)

/-- **C123** (quality of the expansion): the coefficient lies above the exact one, by no more than the third order. -/
theorem c123_expansion (σ lam e : ℝ) (hσ : 0 ≤ σ) (hl : 1 ≤ lam) (he : 0 ≤ e) :
    virialExact σ lam e ≤ virialSW σ lam e ∧
    virialSW σ lam e ≤ virialExact σ lam e + 2 * Real.pi / 3 * σ ^ 3 * (lam ^ 3 - 1) * (Real.exp e * e ^ 3 / 6) := by
  have hx : virialExact σ lam e = 2 * Real.pi / 3 * σ ^ 3 * (1 - (lam ^ 3 - 1) * (Real.exp e - 1)) := by
    unfold virialExact
    simp only [integral_pow]
    push_cast
    ring
  have h1 : 1 + e + e ^ 2 / 2 ≤ Real.exp e := Real.quadratic_le_exp_of_nonneg he
  have h2 : Real.exp e ≤ 1 + e + e ^ 2 / 2 + Real.exp e * e ^ 3 / 6 := by
    have hf : ∀ y ∈ Set.Ici (0 : ℝ), 0 ≤ 1 + y + y ^ 2 / 2 + Real.exp y * y ^ 3 / 6 - Real.exp y := by
      have mono : ∀ (f f' : ℝ → ℝ), (∀ y, HasDerivAt f (f' y) y) → f 0 = 0 → (∀ y, 0 ≤ y → 0 ≤ f' y) →
          ∀ y, 0 ≤ y → 0 ≤ f y := by
        intro f f' hd h0 hp y hy
        have hm : MonotoneOn f (Set.Ici 0) := monotoneOn_of_hasDerivWithinAt_nonneg (convex_Ici 0)
          (fun y _ => (hd y).continuousAt.continuousWithinAt) (fun y _ => (hd y).hasDerivWithinAt)
          (fun y hy => hp y (by rw [interior_Ici] at hy; exact le_of_lt hy))
        have := hm (Set.mem_Ici.mpr le_rfl) (Set.mem_Ici.mpr hy) hy
        rwa [h0] at this
      intro y hy
      have g3 : ∀ y, 0 ≤ y → 0 ≤ 1 + (Real.exp y * y ^ 3 / 6 + Real.exp y * y ^ 2 / 2) * 1
          + (Real.exp y * y ^ 2 / 2 + Real.exp y * y) - Real.exp y := by
        refine mono _ (fun y => Real.exp y * y ^ 3 / 6 + Real.exp y * y ^ 2 * (3 / 2) + Real.exp y * y * 3) ?_ ?_ ?_
        · intro y
          have hE := Real.hasDerivAt_exp y
          have hp3 := hasDerivAt_pow 3 y
          have hp2 := hasDerivAt_pow 2 y
          have := (((((hE.mul hp3).div_const 6).add ((hE.mul hp2).div_const 2)).mul_const 1).const_add 1).add
            (((hE.mul hp2).div_const 2).add (hE.mul (hasDerivAt_id y)))
          refine (this.sub hE).congr_deriv ?_
          simp only [id]
          push_cast
          ring
        · simp
        · intro y hy
          have := Real.exp_pos y
          positivity
      have g2 : ∀ y, 0 ≤ y → 0 ≤ 1 + y + (Real.exp y * y ^ 3 / 6 + Real.exp y * y ^ 2 / 2) - Real.exp y := by
        refine mono _ (fun y => 1 + (Real.exp y * y ^ 3 / 6 + Real.exp y * y ^ 2 / 2) * 1
          + (Real.exp y * y ^ 2 / 2 + Real.exp y * y) - Real.exp y) ?_ ?_ g3
        · intro y
          have hE := Real.hasDerivAt_exp y
          have := ((hasDerivAt_id y).const_add 1).add (((hE.mul (hasDerivAt_pow 3 y)).div_const 6).add
            ((hE.mul (hasDerivAt_pow 2 y)).div_const 2))
          refine (this.sub hE).congr_deriv ?_
          push_cast
          ring
        · simp
      refine mono (fun y => 1 + y + y ^ 2 / 2 + Real.exp y * y ^ 3 / 6 - Real.exp y)
        (fun y => 1 + y + (Real.exp y * y ^ 3 / 6 + Real.exp y * y ^ 2 / 2) - Real.exp y) ?_ ?_ g2 y hy
      · intro y
        have hE := Real.hasDerivAt_exp y
        have := (((hasDerivAt_id y).const_add 1).add ((hasDerivAt_pow 2 y).div_const 2)).add
          ((hE.mul (hasDerivAt_pow 3 y)).div_const 6)
        refine (this.sub hE).congr_deriv ?_
        push_cast
        ring
      · simp
    have := hf e he
    linarith
  have hc : 0 ≤ 2 * Real.pi / 3 * σ ^ 3 * (lam ^ 3 - 1) := by
    have : (1 : ℝ) ≤ lam ^ 3 := one_le_pow₀ hl
    have := Real.pi_pos
    have : 0 ≤ lam ^ 3 - 1 := by linarith
    positivity
  rw [hx, virialSW]
  constructor
  · nlinarith [mul_le_mul_of_nonneg_left h1 hc]
  · nlinarith [mul_le_mul_of_nonneg_left h2 hc]

/-- **C123** (vanishing): the monomer energy vanishes with the density. -/
theorem c123_vanish (M T : ℝ) (P : SWell n m) (x : Fin n → ℝ) (hM : 0 < M) (h : PhysSW P T x) :
    Tendsto (fun ρ => amono M P ρ T x) (𝓝[≠] 0) (𝓝 0) := by
  have hid : Tendsto (fun ρ : ℝ => ρ) (𝓝[≠] 0) (𝓝 0) := (continuous_id.tendsto 0).mono_left nhdsWithin_le_nhds
  have := (c123_virial M T P x hM h).mul hid
  rw [mul_zero] at this
  refine this.congr' ?_
  filter_upwards [self_mem_nhdsWithin] with ρ hρ
  exact div_mul_cancel₀ _ hρ

/-- **C123** (contact): the contact value of the dilute gas is that of the square-well potential to first order in the
inverse temperature, `1 + ε/T`. -/
theorem c123_contact (M T : ℝ) (P : SWell n m) (x : Fin n → ℝ) (i j : Fin n) :
    Tendsto (fun ρ => gsw M P ρ T x i j) (𝓝[≠] 0) (𝓝 (1 + epsij P i j / T)) := by
  generalize hl : lamij P i j = lam
  have h1 := g0_cont lam
  have h2 := (zeff_cont lam).continuousAt (x := 0)
  have h3 := (dzeff_cont lam).continuousAt (x := 0)
  have h4 := (ddl_cont lam).continuousAt (x := 0)
  have hc : ContinuousAt (fun z : ℝ => epsij P i j / T * (g0HS lam z + (lam ^ 3 - 1) * dg0HS lam z
      * (lam / 3 * dzetaDlam lam z - z * dzetaEff lam z))) 0 := by
    unfold dg0HS
    fun_prop (disch := simp [zeff_zero])
  have hh : ContinuousAt (fun ρ : ℝ => gHS (ρ * zeta M P 1 x 2) (ρ * zeta M P 1 x 3) (sigij P i i) (sigij P j j)) 0 := by
    unfold gHS
    fun_prop (disch := norm_num)
  have t1 := hh.tendsto.mono_left (nhdsWithin_le_nhds (s := {0}ᶜ))
  have t2 := hc.tendsto.comp (zeta_tendsto M P x 3)
  refine (to_lim (t1.add t2) ?_).congr fun ρ => ?_
  · have : dzetaDlam lam 0 = 0 := by simp [dzetaDlam]
    simp [gHS, g0_zero, this]
  · simp only [Function.comp, gsw, gSW, hl, zeta_lin M ρ P x]

/-- **C123 violated** (ideal gas): the chain term, hence the residual Helmholtz energy, does not vanish with the density:
the logarithm of the contact value is used, not that of the cavity function, which tends to one. -/
theorem c123_violated_chain (M T : ℝ) (P : SWell n m) (x : Fin n → ℝ) (h : PhysSW P T x) :
    Tendsto (fun ρ => achain M P ρ T x) (𝓝[≠] 0) (𝓝 (-∑ i, x i * beadsum P i * Real.log (1 + epsii P i / T))) := by
  refine Tendsto.neg (tendsto_finsetSum _ fun i _ => ?_)
  have hp : (0 : ℝ) < 1 + epsii P i / T := by have := div_pos (h.epsii_pos i) h.T; linarith
  have e : epsij P i i = epsii P i := by simp [epsij, crossOf]
  have := c123_contact M T P x i i
  rw [e] at this
  exact ((Real.continuousAt_log hp.ne').tendsto.comp this).const_mul _

theorem swDimer_phys : PhysSW swDimer 300 (fun _ => 1) where
  T := by norm_num
  x0 := fun _ => zero_le_one
  xsum := by simp
  ν := swDimer_sizes.ν
  V := swDimer_sizes.V
  S := swDimer_sizes.S
  seg := fun _ => by simp [zki, swDimer]
  ε := fun _ _ => by norm_num [swDimer]
  σ := fun k => by simp only [swDimer, if_true]; split <;> norm_num
  σm := fun k l => by fin_cases k <;> fin_cases l <;> norm_num [swDimer]
  lam := fun _ _ => by norm_num [swDimer]

/-- **C123 violated** (witness): the residual energy of the dilute dimer is below -1/2, that of an ideal gas is zero. -/
theorem c123_violated_dimer (M : ℝ) (hM : 0 < M) :
    ∃ L : ℝ, L < -(1 / 2) ∧
      Tendsto (fun ρ => amono M swDimer ρ 300 (fun _ => 1) + achain M swDimer ρ 300 (fun _ => 1)) (𝓝[≠] 0) (𝓝 L) := by
  have h := swDimer_phys
  refine ⟨0 + -∑ i : Fin 1, 1 * beadsum swDimer i * Real.log (1 + epsii swDimer i / 300), ?_,
    (c123_vanish M 300 swDimer _ hM h).add (c123_violated_chain M 300 swDimer _ h)⟩
  have hb : beadsum swDimer 0 = 1 := by simp [beadsum, swDimer]; norm_num
  have he : epsii swDimer 0 = 200 := by
    have : epsii swDimer 0 = ∑ k, ∑ l, zfrac swDimer 0 k * zfrac swDimer 0 l * 200 := rfl
    rw [this]
    simp only [← Finset.sum_mul, ← Finset.mul_sum, h.zfrac_sum, mul_one, one_mul]
  simp only [Fin.sum_univ_one, hb, he, one_mul, zero_add, neg_lt_neg_iff]
  rw [Real.lt_log_iff_exp_lt (by norm_num)]
  have h1 : Real.exp (1 / 2) ^ 2 = Real.exp 1 := by rw [← Real.exp_nat_mul]; norm_num
  have h2 := Real.exp_one_lt_d9
  have h3 := Real.exp_pos (1 / 2)
  nlinarith

end Verif.Props
