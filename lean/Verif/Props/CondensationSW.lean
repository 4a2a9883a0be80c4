import Mathlib.Analysis.Calculus.FDeriv.Analytic
import Mathlib.Analysis.Calculus.ContDiff.RCLike
import Mathlib.Topology.Algebra.MetricSpace.Lipschitz
import Verif.Props.Compression
import Verif.Props.EffectivePackingSW
import Verif.Props.SecondOrderSW
import Mathlib.Analysis.Calculus.MeanValue

/-!
# C172: a square-well fluid condenses when it is cold, and not when it is hot

The pressure is `R T (ρ + ρ² ∂a/∂ρ)` with the monomer energy `a` (C104).  At high temperatures the isotherm rises up to the
largest density, at low temperatures the pressure is negative at small densities.
-/

namespace Verif.Props
open Verif Verif.Saft Verif.GammaSW Verif.SWTerms Filter Topology

variable {n m : ℕ}

/-- The pressure of the monomers divided by `R T`, from the derivative of their energy. -/
noncomputable def pressureSW (M T : ℝ) (P : SWell n m) (x : Fin n → ℝ) (ρ : ℝ) : ℝ :=
  ρ + ρ ^ 2 * deriv (fun r => amono M P r T x) ρ

/-! ## The terms as functions of the temperature -/

private theorem a1_T (M ρ T : ℝ) (P : SWell n m) (x : Fin n → ℝ) : a1 M P ρ T x = a1 M P ρ 1 x / T := by
  simp only [a1, afirst]
  ring

private theorem a2_T (M ρ T : ℝ) (P : SWell n m) (x : Fin n → ℝ) : a2 M P ρ T x = a2 M P ρ 1 x / T ^ 2 := by
  simp only [a2, asecond]
  ring

private theorem pack_lin (M ρ : ℝ) (P : SWell n m) (x : Fin n → ℝ) :
    packing M ρ (cmol2seg P.g x) (xskl P.g x) P.σ = ρ * zeta M P 1 x 3 := moment_lin _ _ _ _ _ 3

/-! ## Smoothness -/

private theorem zetaEff_analytic (lam z : ℝ) : AnalyticAt ℝ (zetaEff lam) z := by
  by_cases h : lam ≠ 0
  · have : zetaEff lam = fun z => z * cikl lam 0 + z ^ 2 * cikl lam 1 + z ^ 3 * cikl lam 2 := by
      funext z; simp only [zetaEff, if_pos h]
    rw [this]
    fun_prop
  · have : zetaEff lam = fun _ => 0 := by funext z; simp only [zetaEff, if_neg h]
    rw [this]
    fun_prop

private theorem dzetaEff_analytic (lam z : ℝ) : AnalyticAt ℝ (dzetaEff lam) z := by
  by_cases h : lam ≠ 0
  · have : dzetaEff lam = fun z => 1 * cikl lam 0 + 2 * z * cikl lam 1 + 3 * z ^ 2 * cikl lam 2 := by
      funext z; simp only [dzetaEff, if_pos h]
    rw [this]
    fun_prop
  · have : dzetaEff lam = fun _ => 0 := by funext z; simp only [dzetaEff, if_neg h]
    rw [this]
    fun_prop

private theorem g0_analytic (lam z : ℝ) (h : zetaEff lam z < 1) : AnalyticAt ℝ (g0HS lam) z := by
  have h1 := zetaEff_analytic lam z
  have h2 : (1 - zetaEff lam z) ^ 3 ≠ 0 := pow_ne_zero _ (by linarith)
  unfold g0HS
  fun_prop (disch := assumption)

private theorem fluct_analytic (lam z : ℝ) (h : zetaEff lam z < 1) :
    AnalyticAt ℝ (fun z => g0HS lam z + z * dzetaEff lam z * (2.5 - zetaEff lam z) / (1 - zetaEff lam z) ^ 4) z := by
  have h1 := zetaEff_analytic lam z
  have h3 := dzetaEff_analytic lam z
  have h4 := g0_analytic lam z h
  have h2 : (1 - zetaEff lam z) ^ 4 ≠ 0 := pow_ne_zero _ (by linarith)
  fun_prop (disch := assumption)

private theorem khs_analytic (z : ℝ) (h0 : 0 ≤ z) (h1 : z < 1) : AnalyticAt ℝ khs z := by
  have h2 : 1 + 4 * z + 4 * z ^ 2 - 4 * z ^ 3 + z ^ 4 ≠ 0 := by
    have : 0 < 1 + 4 * z + 4 * z ^ 2 - 4 * z ^ 3 + z ^ 4 := by
      nlinarith [mul_nonneg h0 (sub_nonneg.2 h1.le), mul_nonneg (mul_nonneg h0 h0) (sub_nonneg.2 h1.le), pow_nonneg h0 4]
    exact this.ne'
  unfold khs
  fun_prop (disch := assumption)

private theorem a1_analytic (M ρ : ℝ) (P : SWell n m) (x : Fin n → ℝ)
    (h : ∀ k l, zetaEff (P.lam k l) (ρ * zeta M P 1 x 3) < 1) : AnalyticAt ℝ (fun r => a1 M P r 1 x) ρ := by
  have e : (fun r => a1 M P r 1 x) = fun r => -(cmol2seg P.g x ^ 2 / 1) *
      ∑ k, ∑ l, (r * M) * (xskl P.g x k l * alphakl P k l) * g0HS (P.lam k l) (r * zeta M P 1 x 3) := by
    funext r
    simp only [a1, afirst, pack_lin]
  rw [e]
  have hc : ∀ k l, AnalyticAt ℝ (fun r => g0HS (P.lam k l) (r * zeta M P 1 x 3)) ρ := fun k l =>
    AnalyticAt.fun_comp (g := g0HS (P.lam k l)) (f := fun r => r * zeta M P 1 x 3) (g0_analytic _ _ (h k l)) (by fun_prop)
  refine AnalyticAt.mul (by fun_prop) (Finset.analyticAt_fun_sum _ fun k _ => Finset.analyticAt_fun_sum _ fun l _ => ?_)
  exact AnalyticAt.mul (by fun_prop) (hc k l)

private theorem a2_analytic (M ρ : ℝ) (P : SWell n m) (x : Fin n → ℝ) (h0 : 0 ≤ ρ * zeta M P 1 x 3) (h1 : ρ * zeta M P 1 x 3 < 1)
    (h : ∀ k l, zetaEff (P.lam k l) (ρ * zeta M P 1 x 3) < 1) : AnalyticAt ℝ (fun r => a2 M P r 1 x) ρ := by
  have e : (fun r => a2 M P r 1 x) = fun r => -(cmol2seg P.g x / 1 ^ 2) *
      ∑ k, ∑ l, khs (r * zeta M P 1 x 3) * (cmol2seg P.g x * r * M) / 2 * (P.ε k l * alphakl P k l * xskl P.g x k l) *
        (g0HS (P.lam k l) (r * zeta M P 1 x 3) + r * zeta M P 1 x 3 * dzetaEff (P.lam k l) (r * zeta M P 1 x 3) *
          (2.5 - zetaEff (P.lam k l) (r * zeta M P 1 x 3)) / (1 - zetaEff (P.lam k l) (r * zeta M P 1 x 3)) ^ 4) := by
    funext r
    simp only [a2, asecond, pack_lin]
  rw [e]
  have hk : AnalyticAt ℝ (fun r => khs (r * zeta M P 1 x 3)) ρ :=
    AnalyticAt.fun_comp (g := khs) (f := fun r => r * zeta M P 1 x 3) (khs_analytic _ h0 h1) (by fun_prop)
  have hc : ∀ k l, AnalyticAt ℝ (fun r => g0HS (P.lam k l) (r * zeta M P 1 x 3) + r * zeta M P 1 x 3 *
      dzetaEff (P.lam k l) (r * zeta M P 1 x 3) * (2.5 - zetaEff (P.lam k l) (r * zeta M P 1 x 3)) /
        (1 - zetaEff (P.lam k l) (r * zeta M P 1 x 3)) ^ 4) ρ := fun k l =>
    AnalyticAt.fun_comp (f := fun r => r * zeta M P 1 x 3) (fluct_analytic _ _ (h k l)) (by fun_prop)
  refine AnalyticAt.mul (by fun_prop) (Finset.analyticAt_fun_sum _ fun k _ => Finset.analyticAt_fun_sum _ fun l _ => ?_)
  refine AnalyticAt.mul ?_ (hc k l)
  fun_prop

/-! ## The pressure -/

private theorem moments_pos {P : SWell n m} {T : ℝ} {x : Fin n → ℝ} (M : ℝ) (hM : 0 < M) (h : PhysSW P T x) (q : ℕ) :
    0 < zeta M P 1 x q := by
  have hp := Real.pi_pos
  have hC := h.cmol_pos
  rw [h.mom]
  obtain ⟨k, hk⟩ : ∃ k, 0 < xsk P.g x k := by
    by_contra hn
    push Not at hn
    have : ∑ k, xsk P.g x k ≤ 0 := Finset.sum_nonpos fun k _ => hn k
    rw [h.xsk_sum] at this
    linarith
  have hS : 0 < ∑ k, xsk P.g x k * P.σ k k ^ q :=
    Finset.sum_pos' (fun k _ => mul_nonneg (h.xsk_nonneg k) (pow_nonneg (h.σ k).le q))
      ⟨k, Finset.mem_univ k, mul_pos hk (pow_pos (h.σ k) q)⟩
  positivity

/-- The three parts of the pressure. -/
private theorem pressure_parts {P : SWell n m} {T' : ℝ} {x : Fin n → ℝ} (M T ρ : ℝ) (hM : 0 < M) (h : PhysSW P T' x) (hρ : 0 < ρ)
    (h1 : ρ * zeta M P 1 x 3 < 1) (he : ∀ k l, zetaEff (P.lam k l) (ρ * zeta M P 1 x 3) < 1) :
    pressureSW M T P x ρ = ρ + 6 / (Real.pi * M) * zBMCSL (fun q => ρ * zeta M P 1 x q) +
      ρ ^ 2 * deriv (fun r => a1 M P r 1 x) ρ / T + ρ ^ 2 * deriv (fun r => a2 M P r 1 x) ρ / T ^ 2 := by
  have hz := moments_pos M hM h
  have d0 : HasDerivAt (fun r => SWTerms.ahs M P r x) (6 / (Real.pi * ρ * M) * zBMCSL (fun q => ρ * zeta M P 1 x q) / ρ) ρ := by
    have := c91_bmcsl M ρ (zeta M P 1 x) hM hρ (hz 3) h1
    refine this.congr_of_eventuallyEq (Eventually.of_forall fun r => ?_)
    show SWTerms.ahs M P r x = _
    unfold SWTerms.ahs aHSsw
    rw [show zeta M P r x = fun q => r * zeta M P 1 x q from funext fun q => moment_lin _ _ _ _ _ q]
  have d1 := (a1_analytic M ρ P x he).differentiableAt.hasDerivAt
  have d2 := (a2_analytic M ρ P x (mul_pos hρ (hz 3)).le h1 he).differentiableAt.hasDerivAt
  have d := ((d0.add (d1.div_const T)).add (d2.div_const (T ^ 2))).congr_of_eventuallyEq (f₁ := fun r => amono M P r T x)
    (Eventually.of_forall fun r => by simp only [amono, a1_T M r T, a2_T M r T, Pi.add_apply])
  unfold pressureSW
  rw [d.deriv]
  have hp := Real.pi_ne_zero
  field_simp
  ring

/-- The pressure of the hard spheres does not fall. -/
private theorem zBMCSL_mono (c : ℕ → ℝ) (hc : ∀ q, 0 ≤ c q) {r s : ℝ} (hr : 0 ≤ r) (hrs : r ≤ s) (hs : s * c 3 < 1) :
    zBMCSL (fun q => r * c q) ≤ zBMCSL (fun q => s * c q) := by
  have h3 := hc 3
  have hs0 : 0 ≤ s := hr.trans hrs
  have hle : r * c 3 ≤ s * c 3 := mul_le_mul_of_nonneg_right hrs h3
  have hd : 0 < 1 - s * c 3 := by linarith
  have hd' : 0 < 1 - r * c 3 := by linarith
  have form : ∀ t, t * c 3 < 1 → zBMCSL (fun q => t * c q) = t * c 0 * (t * c 3) * (1 / (1 - t * c 3)) + 3 * (t * c 1) * (t * c 2) * (1 / (1 - t * c 3)) ^ 2
      + (t * c 2) ^ 3 * (2 * (1 / (1 - t * c 3)) ^ 3 + (1 / (1 - t * c 3)) ^ 2) := fun t ht => by
    have : 1 - t * c 3 ≠ 0 := by linarith
    unfold zBMCSL
    field_simp
    ring
  rw [form r (by linarith), form s hs]
  have hi : 1 / (1 - r * c 3) ≤ 1 / (1 - s * c 3) := one_div_le_one_div_of_le hd (by linarith)
  have hi0 : 0 ≤ 1 / (1 - r * c 3) := by positivity
  have h0 := hc 0
  have h1 := hc 1
  have h2 := hc 2
  gcongr

/-- A function with derivatives of every order is Lipschitz on a closed interval, and so is its part of the pressure. -/
private theorem part_lipschitz {f : ℝ → ℝ} {top : ℝ} (hf : ∀ r ∈ Set.Icc 0 top, AnalyticAt ℝ f r) :
    ∃ K : ℝ, 0 ≤ K ∧ ∀ r ∈ Set.Icc 0 top, ∀ s ∈ Set.Icc 0 top, |s ^ 2 * deriv f s - r ^ 2 * deriv f r| ≤ K * |s - r| := by
  have hl : LocallyLipschitzOn (Set.Icc 0 top) (fun r => r ^ 2 * deriv f r) := by
    intro r hr
    have ha : AnalyticAt ℝ (fun r => r ^ 2 * deriv f r) r := by
      have := (hf r hr).deriv
      fun_prop
    obtain ⟨K, t, ht, hK⟩ := ha.contDiffAt (n := 1).exists_lipschitzOnWith
    exact ⟨K, t, mem_nhdsWithin_of_mem_nhds ht, hK⟩
  obtain ⟨K, hK⟩ := hl.exists_lipschitzOnWith_of_compact isCompact_Icc
  refine ⟨K, K.2, fun r hr s hs => ?_⟩
  have := hK.dist_le_mul s hs r hr
  rwa [Real.dist_eq, Real.dist_eq] at this

/-- **C151** (exactly): for a range of at least one the effective packing fraction is below one at all accepted packing fractions if
and only if it is at the largest, 0.65; so it is for ranges up to 2.682 and not from 2.683 on. -/
theorem c151_below_iff (lam : ℝ) (h1 : 1 ≤ lam) :
    (∀ z, 0 ≤ z → z ≤ 0.65 → zetaEff lam z < 1) ↔ zetaEff lam 0.65 < 1 := by
  refine ⟨fun h => h _ (by norm_num) le_rfl, fun h z h0 hz => ?_⟩
  by_cases ha : lam ≤ 2.682
  · exact c151_below_partial lam z h1 ha h0 hz
  by_cases hb : 2.683 ≤ lam
  · exact absurd (c151_violated_range lam hb) (not_lt.2 h.le)
  have ha := (not_le.1 ha).le
  have hb := (not_le.1 hb).le
  refine lt_of_le_of_lt ?_ h
  have hlam : lam ≠ 0 := by linarith
  have e : ∀ y, zetaEff lam y = y * (2.25855 - 1.50349 * lam + 0.249434 * lam ^ 2)
      + y ^ 2 * (-0.669270 + 1.40049 * lam - 0.827739 * lam ^ 2) + y ^ 3 * (10.1576 - 15.0427 * lam + 5.30827 * lam ^ 2) := by
    intro y
    simp only [zetaEff, if_pos hlam, cikl, cklCoef, Matrix.cons_val]
    ring
  have c1 : 0 ≤ 2.25855 - 1.50349 * lam + 0.249434 * lam ^ 2 := by norm_num at ha hb ⊢; nlinarith
  have c2 : -3 ≤ -0.669270 + 1.40049 * lam - 0.827739 * lam ^ 2 := by norm_num at ha hb ⊢; nlinarith
  have c3 : 7.9 ≤ 10.1576 - 15.0427 * lam + 5.30827 * lam ^ 2 := by norm_num at ha hb ⊢; nlinarith
  rw [e, e]
  generalize 2.25855 - 1.50349 * lam + 0.249434 * lam ^ 2 = a at *
  generalize -0.669270 + 1.40049 * lam - 0.827739 * lam ^ 2 = b at *
  generalize 10.1576 - 15.0427 * lam + 5.30827 * lam ^ 2 = c at *
  have hq : 0 ≤ a + b * (0.65 + z) + c * (0.4225 + 0.65 * z + z ^ 2) := by
    have k1 : -3 * (0.65 + z) ≤ b * (0.65 + z) := mul_le_mul_of_nonneg_right c2 (by linarith)
    have k2 : 7.9 * (0.4225 + 0.65 * z + z ^ 2) ≤ c * (0.4225 + 0.65 * z + z ^ 2) :=
      mul_le_mul_of_nonneg_right c3 (by positivity)
    nlinarith [sq_nonneg z]
  have := mul_nonneg (sub_nonneg.2 hz) hq
  nlinarith

/-- **C151** (exactly, both sides): the effective packing fraction is between zero and one at all accepted packing fractions if and
only if the range is below 1.6 and it is positive at the largest packing fraction, 0.65, as it is up to 1.599. -/
theorem c151_between_iff (lam : ℝ) (h1 : 1 ≤ lam) :
    (∀ z, 0 < z → z ≤ 0.65 → 0 < zetaEff lam z ∧ zetaEff lam z < 1) ↔ lam < 1.6 ∧ 0 < zetaEff lam 0.65 := by
  constructor
  · refine fun h => ⟨?_, (h _ (by norm_num) le_rfl).1⟩
    by_contra hc
    obtain ⟨z, h0, hz, hb⟩ := (c151_violated_from lam h1).2 (not_lt.1 hc)
    obtain ⟨ha, hb'⟩ := h z h0 hz
    rcases hb with hb | hb <;> linarith
  rintro ⟨hl, hp⟩ z h0 hz
  refine ⟨?_, c151_below_partial lam z h1 (hl.le.trans (by norm_num)) h0.le hz⟩
  by_cases ha : lam ≤ 1.599
  · exact c151_positive_partial lam z h1 ha h0 hz
  have ha := (not_le.1 ha).le
  have hlam : lam ≠ 0 := by linarith
  have e : ∀ y, zetaEff lam y = y * ((2.25855 - 1.50349 * lam + 0.249434 * lam ^ 2)
      + y * (-0.669270 + 1.40049 * lam - 0.827739 * lam ^ 2) + y ^ 2 * (10.1576 - 15.0427 * lam + 5.30827 * lam ^ 2)) := by
    intro y
    simp only [zetaEff, if_pos hlam, cikl, cklCoef, Matrix.cons_val]
    ring
  have c2 : -0.669270 + 1.40049 * lam - 0.827739 * lam ^ 2 ≤ 0 := by norm_num at ha hl ⊢; nlinarith
  have c3 : 10.1576 - 15.0427 * lam + 5.30827 * lam ^ 2 ≤ 0 := by norm_num at ha hl ⊢; nlinarith
  rw [e] at hp ⊢
  have hp' := pos_of_mul_pos_right hp (by norm_num)
  refine mul_pos h0 (lt_of_lt_of_le hp' ?_)
  generalize 2.25855 - 1.50349 * lam + 0.249434 * lam ^ 2 = a at *
  generalize -0.669270 + 1.40049 * lam - 0.827739 * lam ^ 2 = b at *
  generalize 10.1576 - 15.0427 * lam + 5.30827 * lam ^ 2 = c at *
  have k1 := mul_le_mul_of_nonpos_right hz c2
  have k2 := mul_le_mul_of_nonpos_right (pow_le_pow_left₀ h0.le hz 2) c3
  linarith

/-- **C172** (hot): above some temperature the pressure increases strictly with the density, up to the largest accepted packing
fraction, if the effective packing fractions are below one there (C151), as they are for all ranges up to 2.682 diameters. -/
theorem c172_hot_partial (M top T' : ℝ) (P : SWell n m) (x : Fin n → ℝ) (hM : 0 < M) (h : PhysSW P T' x) 
    (hl : ∀ k l, zetaEff (P.lam k l) 0.65 < 1)
    (htop : zeta M P top x 3 ≤ 0.65) : ∃ T₁ > 0, ∀ T ≥ T₁, StrictMonoOn (pressureSW M T P x) (Set.Ioc 0 top) := by
  have hz := moments_pos M hM h
  have hlin : zeta M P top x 3 = top * zeta M P 1 x 3 := moment_lin _ _ _ _ _ 3
  have hin : ∀ r ∈ Set.Icc 0 top, 0 ≤ r * zeta M P 1 x 3 ∧ r * zeta M P 1 x 3 ≤ 0.65 := fun r hr =>
    ⟨mul_nonneg hr.1 (hz 3).le, (mul_le_mul_of_nonneg_right hr.2 (hz 3).le).trans (by rw [← hlin]; exact htop)⟩
  have he : ∀ r ∈ Set.Icc 0 top, ∀ k l, zetaEff (P.lam k l) (r * zeta M P 1 x 3) < 1 := fun r hr k l =>
    (c151_below_iff _ (h.lam k l).le).2 (hl k l) _ (hin r hr).1 (hin r hr).2
  obtain ⟨K₁, hK₁, h1⟩ := part_lipschitz fun r hr => a1_analytic M r P x (he r hr)
  obtain ⟨K₂, hK₂, h2⟩ := part_lipschitz fun r hr =>
    a2_analytic M r P x (hin r hr).1 (lt_of_le_of_lt (hin r hr).2 (by norm_num)) (he r hr)
  refine ⟨K₁ + K₂ + 1, by linarith, fun T hT r hr s hs hrs => ?_⟩
  have hr' : r ∈ Set.Icc 0 top := ⟨hr.1.le, hr.2⟩
  have hs' : s ∈ Set.Icc 0 top := ⟨hs.1.le, hs.2⟩
  have hT0 : 0 < T := by linarith
  have hT1 : 1 ≤ T := by linarith
  rw [pressure_parts M T r hM h hr.1 (lt_of_le_of_lt (hin r hr').2 (by norm_num)) (he r hr'),
    pressure_parts M T s hM h hs.1 (lt_of_le_of_lt (hin s hs').2 (by norm_num)) (he s hs')]
  have hd : 0 < s - r := by linarith
  have b1 := (abs_le.1 (h1 r hr' s hs')).1
  have b2 := (abs_le.1 (h2 r hr' s hs')).1
  rw [abs_of_pos hd] at b1 b2
  have hb := zBMCSL_mono (zeta M P 1 x) (fun q => (hz q).le) hr.1.le hrs.le (lt_of_le_of_lt (hin s hs').2 (by norm_num))
  have hp := Real.pi_pos
  have hb' := mul_le_mul_of_nonneg_left hb (show 0 ≤ 6 / (Real.pi * M) by positivity)
  generalize deriv (fun r => a1 M P r 1 x) s = A at *
  generalize deriv (fun r => a2 M P r 1 x) s = B at *
  generalize deriv (fun r => a1 M P r 1 x) r = A' at *
  generalize deriv (fun r => a2 M P r 1 x) r = B' at *
  have c1 : -(K₁ * (s - r)) / T ≤ (s ^ 2 * A - r ^ 2 * A') / T := div_le_div_of_nonneg_right b1 hT0.le
  have c2 : -(K₂ * (s - r)) / T ^ 2 ≤ (s ^ 2 * B - r ^ 2 * B') / T ^ 2 := div_le_div_of_nonneg_right b2 (by positivity)
  have c3 : K₂ * (s - r) / T ^ 2 ≤ K₂ * (s - r) / T := by
    refine div_le_div_of_nonneg_left (by positivity) hT0 ?_
    nlinarith
  have c4 : K₁ * (s - r) / T + K₂ * (s - r) / T < s - r := by
    rw [← add_div, div_lt_iff₀ hT0]
    nlinarith
  rw [sub_div] at c1 c2
  rw [neg_div] at c1 c2
  linarith

/-! ## Low densities -/

/-- Close to zero density every term can be differentiated. -/
private theorem small_densities {P : SWell n m} (M : ℝ) (x : Fin n → ℝ) :
    ∀ᶠ r in 𝓝 (0 : ℝ), r * zeta M P 1 x 3 < 1 ∧ ∀ k l, zetaEff (P.lam k l) (r * zeta M P 1 x 3) < 1 := by
  have hc : ContinuousAt (fun r : ℝ => r * zeta M P 1 x 3) 0 := by fun_prop
  refine (hc.eventually_lt continuousAt_const (by simp)).and ?_
  rw [eventually_all]
  intro k
  rw [eventually_all]
  intro l
  have h1 : ContinuousAt (fun r : ℝ => zetaEff (P.lam k l) (r * zeta M P 1 x 3)) 0 :=
    ContinuousAt.comp' (g := zetaEff (P.lam k l)) (f := fun r : ℝ => r * zeta M P 1 x 3) (zetaEff_analytic _ _).continuousAt hc
  refine h1.eventually_lt continuousAt_const ?_
  rw [zero_mul]
  simp [zetaEff]

/-- **C172** (gas): at every temperature the pressure is positive at small densities. -/
theorem c172_gas (M T : ℝ) (P : SWell n m) (x : Fin n → ℝ) (hM : 0 < M) (h : PhysSW P T x) :
    ∀ᶠ ρ in 𝓝[>] (0 : ℝ), 0 < pressureSW M T P x ρ := by
  have hz := moments_pos M hM h
  have hs := small_densities (P := P) M x
  obtain ⟨-, he0⟩ := hs.self_of_nhds
  have c1 : ContinuousAt (deriv fun r => a1 M P r 1 x) 0 := (a1_analytic M 0 P x he0).deriv.continuousAt
  have c2 : ContinuousAt (deriv fun r => a2 M P r 1 x) 0 := (a2_analytic M 0 P x (by simp) (by simp) he0).deriv.continuousAt
  have c3 : ContinuousAt (fun ρ : ℝ => 1 + ρ * (deriv (fun r => a1 M P r 1 x) ρ / T + deriv (fun r => a2 M P r 1 x) ρ / T ^ 2)) 0 := by
    fun_prop
  have hpos : ∀ᶠ ρ in 𝓝 (0 : ℝ), 0 < 1 + ρ * (deriv (fun r => a1 M P r 1 x) ρ / T + deriv (fun r => a2 M P r 1 x) ρ / T ^ 2) :=
    continuousAt_const.eventually_lt c3 (by simp)
  filter_upwards [self_mem_nhdsWithin, mem_nhdsWithin_of_mem_nhds hs, mem_nhdsWithin_of_mem_nhds hpos] with ρ hρ h1 h2
  have hρ : 0 < ρ := hρ
  rw [pressure_parts M T ρ hM h hρ h1.1 h1.2]
  have hb : 0 ≤ zBMCSL (fun q => ρ * zeta M P 1 x q) := by
    refine le_trans (le_of_eq ?_) (zBMCSL_mono (zeta M P 1 x) (fun q => (hz q).le) le_rfl hρ.le h1.1)
    simp [zBMCSL]
  have hp := Real.pi_pos
  have hb' : 0 ≤ 6 / (Real.pi * M) * zBMCSL (fun q => ρ * zeta M P 1 x q) := by positivity
  have h3 := mul_pos hρ h2
  have e : ρ * (1 + ρ * (deriv (fun r => a1 M P r 1 x) ρ / T + deriv (fun r => a2 M P r 1 x) ρ / T ^ 2)) =
      ρ + ρ ^ 2 * deriv (fun r => a1 M P r 1 x) ρ / T + ρ ^ 2 * deriv (fun r => a2 M P r 1 x) ρ / T ^ 2 := by ring
  rw [e] at h3
  linarith

/-- The slope of the second-order term is negative at small densities. -/
private theorem second_slope {P : SWell n m} {T : ℝ} {x : Fin n → ℝ} (M : ℝ) (hM : 0 < M) (h : PhysSW P T x) :
    ∀ᶠ ρ in 𝓝 (0 : ℝ), deriv (fun r => a2 M P r 1 x) ρ < 0 := by
  obtain ⟨-, he0⟩ := (small_densities (P := P) M x).self_of_nhds
  have ha := a2_analytic M 0 P x (by simp) (by simp) he0
  refine ha.deriv.continuousAt.eventually_lt continuousAt_const ?_
  have h0 : a2 M P 0 1 x = 0 := by simp [a2, asecond]
  have hd : HasDerivAt (fun r => a2 M P r 1 x)
      (-(cmol2seg P.g x ^ 2 * M / (2 * 1 ^ 2)) * ∑ k, ∑ l, xskl P.g x k l * (P.ε k l * alphakl P k l)) 0 := by
    rw [hasDerivAt_iff_tendsto_slope]
    refine (c123_second M 1 P x).congr fun ρ => ?_
    rw [slope_def_field, h0, sub_zero, sub_zero]
  rw [hd.deriv]
  have hp := Real.pi_pos
  have hC := h.cmol_pos
  have hterm : ∀ k l, 0 < P.ε k l * alphakl P k l := fun k l => by
    have h1 := h.ε k l
    have h2 : 0 < P.σ k l := by rw [h.σm]; linarith [h.σ k, h.σ l]
    have h3 : 0 < P.lam k l ^ 3 - 1 := by
      have := one_lt_pow₀ (h.lam k l) (three_ne_zero)
      linarith
    unfold alphakl alpha
    positivity
  have hw : ∀ k l, 0 ≤ xskl P.g x k l := (c17_xskl P.g x h.x0 h.ν h.V h.S hC.ne').2.1
  have hw1 := (c17_xskl P.g x h.x0 h.ν h.V h.S hC.ne').2.2
  have hsum : 0 < ∑ k, ∑ l, xskl P.g x k l * (P.ε k l * alphakl P k l) := by
    obtain ⟨k, l, hkl⟩ : ∃ k l, 0 < xskl P.g x k l := by
      by_contra hn
      push Not at hn
      have : ∑ k, ∑ l, xskl P.g x k l ≤ 0 := Finset.sum_nonpos fun k _ => Finset.sum_nonpos fun l _ => hn k l
      rw [hw1] at this
      linarith
    refine Finset.sum_pos' (fun k _ => Finset.sum_nonneg fun l _ => mul_nonneg (hw k l) (hterm k l).le)
      ⟨k, Finset.mem_univ _, Finset.sum_pos' (fun l _ => mul_nonneg (hw k l) (hterm k l).le)
        ⟨l, Finset.mem_univ _, mul_pos hkl (hterm k l)⟩⟩
  have : 0 < cmol2seg P.g x ^ 2 * M / (2 * 1 ^ 2) := by positivity
  exact mul_neg_of_neg_of_pos (by linarith) hsum

private theorem quadratic_neg {a b c : ℝ} (hc : c < 0) : ∃ T₀ > 0, ∀ T ∈ Set.Ioo 0 T₀, a + b / T + c / T ^ 2 < 0 := by
  refine ⟨min 1 (-c / (|a| + |b| + 1)), lt_min one_pos (div_pos (by linarith) (by positivity)), fun T hT => ?_⟩
  have h0 := hT.1
  have h1 : T < 1 := hT.2.trans_le (min_le_left _ _)
  have h2 : T * (|a| + |b| + 1) < -c := (lt_div_iff₀ (by positivity)).1 (hT.2.trans_le (min_le_right _ _))
  have e : a + b / T + c / T ^ 2 = (a * T ^ 2 + b * T + c) / T ^ 2 := by field_simp
  rw [e]
  refine div_neg_of_neg_of_pos ?_ (by positivity)
  have h3 : a * T ^ 2 ≤ |a| * T := by
    have := le_abs_self a
    have h4 : a * T ^ 2 ≤ |a| * T ^ 2 := mul_le_mul_of_nonneg_right this (by positivity)
    have h5 : |a| * T ^ 2 ≤ |a| * T := mul_le_mul_of_nonneg_left (by nlinarith) (abs_nonneg a)
    linarith
  have h4 : b * T ≤ |b| * T := mul_le_mul_of_nonneg_right (le_abs_self b) h0.le
  nlinarith

/-- **C172** (cold): at every sufficiently small density the pressure is negative once the fluid is cold enough, although it is
positive at still smaller densities: the isotherm has a loop. -/
theorem c172_cold (M T' : ℝ) (P : SWell n m) (x : Fin n → ℝ) (hM : 0 < M) (h : PhysSW P T' x) :
    ∃ ρ₁ > 0, ∀ ρ ∈ Set.Ioo 0 ρ₁, ∃ T₀ > 0, ∀ T ∈ Set.Ioo 0 T₀,
      pressureSW M T P x ρ < 0 ∧ ∃ ρ' ∈ Set.Ioo 0 ρ, 0 < pressureSW M T P x ρ' := by
  obtain ⟨ρ₁, h1, hρ₁⟩ := Metric.eventually_nhds_iff.1 ((small_densities (P := P) M x).and (second_slope M hM h))
  refine ⟨ρ₁, h1, fun ρ hρ => ?_⟩
  obtain ⟨⟨f1, f2⟩, f3⟩ := hρ₁ (y := ρ) (by rw [Real.dist_eq, sub_zero, abs_of_pos hρ.1]; exact hρ.2)
  obtain ⟨T₀, hT₀, hneg⟩ := quadratic_neg (a := ρ + 6 / (Real.pi * M) * zBMCSL (fun q => ρ * zeta M P 1 x q))
    (b := ρ ^ 2 * deriv (fun r => a1 M P r 1 x) ρ) (mul_neg_of_pos_of_neg (pow_pos hρ.1 2) f3)
  refine ⟨T₀, hT₀, fun T hT => ⟨?_, ?_⟩⟩
  · rw [pressure_parts M T ρ hM h hρ.1 f1 f2]
    exact hneg T hT
  · have hg := c172_gas M T P x hM { h with T := hT.1 }
    obtain ⟨ρ', hp, hm⟩ := (hg.and (Ioo_mem_nhdsGT hρ.1)).exists
    exact ⟨ρ', hm, hp⟩

/-- **C172**: below some temperature the isotherm is not monotone up to the largest density, above another one it is. -/
theorem c172_isotherms_partial (M top T' : ℝ) (P : SWell n m) (x : Fin n → ℝ) (hM : 0 < M) (h : PhysSW P T' x) 
    (hl : ∀ k l, zetaEff (P.lam k l) 0.65 < 1)
    (h0 : 0 < top) (htop : zeta M P top x 3 ≤ 0.65) :
    ∃ T₀ > 0, ∃ T₁ ≥ T₀, (∀ T ∈ Set.Ioo 0 T₀, ¬MonotoneOn (pressureSW M T P x) (Set.Ioc 0 top)) ∧
      ∀ T ≥ T₁, StrictMonoOn (pressureSW M T P x) (Set.Ioc 0 top) := by
  obtain ⟨ρ₁, h1, hc⟩ := c172_cold M T' P x hM h
  obtain ⟨T₁, hT₁, hh⟩ := c172_hot_partial M top T' P x hM h hl htop
  have hm : 0 < min ρ₁ top := lt_min h1 h0
  obtain ⟨T₀, hT₀, hcold⟩ := hc (min ρ₁ top / 2) ⟨by linarith, by linarith [min_le_left ρ₁ top]⟩
  refine ⟨T₀, hT₀, max T₀ T₁, le_max_left _ _, fun T hT hmono => ?_, fun T hT => hh T ((le_max_right _ _).trans hT)⟩
  obtain ⟨p1, ρ', hρ', p2⟩ := hcold T hT
  have := hmono (a := ρ') (b := min ρ₁ top / 2) ⟨hρ'.1, by linarith [hρ'.2, min_le_right ρ₁ top]⟩
    ⟨by linarith, by linarith [min_le_right ρ₁ top]⟩ hρ'.2.le
  linarith

/-- Spheres, molecules of one segment, have no other residual energy (without association). -/
theorem c172_spheres (M ρ T : ℝ) (P : SWell n m) (x : Fin n → ℝ) (h : ∀ i, beadsum P i = 0) :
    amono M P ρ T x + achain M P ρ T x = amono M P ρ T x := by
  simp [achain, h]

/-! ## Long-ranged wells -/

private theorem amono_diff {P : SWell n m} {T' : ℝ} {x : Fin n → ℝ} (M T ρ : ℝ) (hM : 0 < M) (h : PhysSW P T' x) (hρ : 0 < ρ)
    (h1 : ρ * zeta M P 1 x 3 < 1) (he : ∀ k l, zetaEff (P.lam k l) (ρ * zeta M P 1 x 3) < 1) :
    DifferentiableAt ℝ (fun r => amono M P r T x) ρ := by
  have hz := moments_pos M hM h
  have d0 : DifferentiableAt ℝ (fun r => SWTerms.ahs M P r x) ρ := by
    have := (c91_bmcsl M ρ (zeta M P 1 x) hM hρ (hz 3) h1).differentiableAt
    refine this.congr_of_eventuallyEq (Eventually.of_forall fun r => ?_)
    show SWTerms.ahs M P r x = _
    unfold SWTerms.ahs aHSsw
    rw [show zeta M P r x = fun q => r * zeta M P 1 x q from funext fun q => moment_lin _ _ _ _ _ q]
  have d1 := (a1_analytic M ρ P x he).differentiableAt
  have d2 := (a2_analytic M ρ P x (mul_pos hρ (hz 3)).le h1 he).differentiableAt
  exact ((d0.add (d1.div_const T)).add (d2.div_const (T ^ 2))).congr_of_eventuallyEq
    (Eventually.of_forall fun r => by simp only [amono, a1_T M r T, a2_T M r T, Pi.add_apply])

/-- Where the effective packing fraction rises towards one the energy is as negative as the contact value is large. -/
private theorem amono_low {P : SWell n m} {T lam : ℝ} {x : Fin n → ℝ} (M ρ top : ℝ) (hM : 0 < M) (h : PhysSW P T x)
    (hPl : P.lam = fun _ _ => lam) (hρ : 0 < ρ) (hle : ρ ≤ top) (htop : zeta M P top x 3 ≤ 0.65)
    (h1 : zetaEff lam (ρ * zeta M P 1 x 3) < 1) (h0 : 0 ≤ zetaEff lam (ρ * zeta M P 1 x 3))
    (hd : 0 ≤ dzetaEff lam (ρ * zeta M P 1 x 3)) :
    amono M P ρ T x ≤ SWTerms.ahs M P top x -
      cmol2seg P.g x ^ 2 / T * (ρ * M) * (∑ k, ∑ l, xskl P.g x k l * alphakl P k l) * (1 / 2 / (1 - zetaEff lam (ρ * zeta M P 1 x 3))) := by
  have hz := moments_pos M hM h
  have hC := h.cmol_pos
  have hT := h.T
  have hw : ∀ k l, 0 ≤ xskl P.g x k l := (c17_xskl P.g x h.x0 h.ν h.V h.S hC.ne').2.1
  have hα : ∀ k l, 0 ≤ alphakl P k l := fun k l => by
    have hp := Real.pi_pos
    have h1 := h.ε k l
    have h2 : 0 < P.σ k l := by rw [h.σm]; linarith [h.σ k, h.σ l]
    have h3 : 0 < P.lam k l ^ 3 - 1 := by
      have := one_lt_pow₀ (h.lam k l) (three_ne_zero)
      linarith
    unfold alphakl alpha
    positivity
  have hlin : zeta M P top x 3 = top * zeta M P 1 x 3 := moment_lin _ _ _ _ _ 3
  have hρz : ρ * zeta M P 1 x 3 ≤ 0.65 := (mul_le_mul_of_nonneg_right hle (hz 3).le).trans (by rw [← hlin]; exact htop)
  have hρ0 : 0 ≤ ρ * zeta M P 1 x 3 := (mul_pos hρ (hz 3)).le
  have hs : SWTerms.ahs M P ρ x ≤ SWTerms.ahs M P top x := by
    obtain ⟨f1, -, f3, -⟩ := c154_sw_partial M T P x hM h
    refine f3.monotoneOn ⟨hρ, (f1 ρ).1 ?_⟩ ⟨hρ.trans_le hle, (f1 top).1 (lt_of_le_of_lt htop (by norm_num))⟩ hle
    rw [show zeta M P ρ x 3 = ρ * zeta M P 1 x 3 from moment_lin _ _ _ _ _ 3]
    exact lt_of_le_of_lt hρz (by norm_num)
  have h2 : a2 M P ρ T x ≤ 0 := by
    refine (c153_energy M ρ T _ _ P.σ P.lam (alphakl P) P.ε hT.ne' hM hρ.le hC hw hα (fun k l => (h.ε k l).le) ?_ ?_ fun k l => ?_).1
    · rw [pack_lin]; exact hρ0
    · rw [pack_lin]; exact lt_of_le_of_lt hρz (by norm_num)
    · rw [pack_lin, hPl]
      unfold fluctuationSW g0HS
      have e1 : 0 < 1 - zetaEff lam (ρ * zeta M P 1 x 3) := by linarith
      have e2 : 0 < 1 - zetaEff lam (ρ * zeta M P 1 x 3) / 2 := by linarith
      have e3 : 0 < 2.5 - zetaEff lam (ρ * zeta M P 1 x 3) := by norm_num; linarith
      positivity
  have ha : a1 M P ρ T x = -(cmol2seg P.g x ^ 2 / T * (ρ * M) * (∑ k, ∑ l, xskl P.g x k l * alphakl P k l) *
      g0HS lam (ρ * zeta M P 1 x 3)) := by
    simp only [a1, afirst, pack_lin]
    rw [hPl]
    simp only [Finset.mul_sum, Finset.sum_mul, ← Finset.sum_neg_distrib]
    refine Finset.sum_congr rfl fun k _ => Finset.sum_congr rfl fun l _ => ?_
    ring
  have hg : 1 / 2 / (1 - zetaEff lam (ρ * zeta M P 1 x 3)) ≤ g0HS lam (ρ * zeta M P 1 x 3) := by
    unfold g0HS
    generalize zetaEff lam (ρ * zeta M P 1 x 3) = e at *
    have e1 : 0 < 1 - e := by linarith
    rw [div_le_div_iff₀ e1 (by positivity)]
    have e2 : (1 - e) ^ 3 ≤ 1 - e := by
      have : (1 - e) ^ 2 ≤ 1 := pow_le_one₀ e1.le (by linarith)
      nlinarith
    nlinarith
  have hK : 0 ≤ cmol2seg P.g x ^ 2 / T * (ρ * M) * (∑ k, ∑ l, xskl P.g x k l * alphakl P k l) :=
    mul_nonneg (by positivity) (Finset.sum_nonneg fun k _ => Finset.sum_nonneg fun l _ => mul_nonneg (hw k l) (hα k l))
  have := mul_le_mul_of_nonneg_left hg hK
  unfold amono
  linarith

/-- **C172, violated** (long-ranged wells): with one range for which the effective packing fraction reaches one, which those from
2.683 to ten diameters do that the bounds allow, the pressure is negative at some accepted density at *every* temperature: the
energy falls below every bound. -/
theorem c172_violated_range (M top T lam : ℝ) (P : SWell n m) (x : Fin n → ℝ) (hM : 0 < M) (h : PhysSW P T x)
    (hPl : P.lam = fun _ _ => lam) (h1 : 1 ≤ zetaEff lam 0.65) (htop : zeta M P top x 3 = 0.65) :
    ∃ ρ ∈ Set.Ioo 0 top, pressureSW M T P x ρ < 0 := by
  have hz := moments_pos M hM h
  have hlin : zeta M P top x 3 = top * zeta M P 1 x 3 := moment_lin _ _ _ _ _ 3
  have htz : top * zeta M P 1 x 3 = 0.65 := by rw [← hlin]; exact htop
  have ht0 : 0 < top := by
    by_contra hc
    have := mul_nonpos_of_nonpos_of_nonneg (not_lt.1 hc) (hz 3).le
    rw [htz] at this
    norm_num at this
  have hcont : Continuous fun ρ : ℝ => zetaEff lam (ρ * zeta M P 1 x 3) :=
    continuous_iff_continuousAt.2 fun ρ => ContinuousAt.comp' (g := zetaEff lam) (f := fun r : ℝ => r * zeta M P 1 x 3)
      (zetaEff_analytic _ _).continuousAt (by fun_prop)
  -- the first density at which the effective packing fraction is one
  obtain ⟨p, ⟨⟨hp0, hpt⟩, hp1⟩, hleast⟩ : ∃ p, IsLeast (Set.Icc 0 top ∩ {ρ | 1 ≤ zetaEff lam (ρ * zeta M P 1 x 3)}) p := by
    refine (isCompact_Icc.inter_right (isClosed_le continuous_const hcont)).exists_isLeast ⟨top, ⟨ht0.le, le_rfl⟩, ?_⟩
    show 1 ≤ zetaEff lam (top * zeta M P 1 x 3)
    rw [htz]
    exact h1
  have hp1 : 1 ≤ zetaEff lam (p * zeta M P 1 x 3) := hp1
  have hbelow : ∀ r, 0 ≤ r → r < p → zetaEff lam (r * zeta M P 1 x 3) < 1 := fun r h0 hr => by
    by_contra hc
    have := hleast ⟨⟨h0, hr.le.trans hpt⟩, not_lt.1 hc⟩
    linarith
  have hp : 0 < p := by
    rcases hp0.eq_or_lt with e | e
    · rw [← e, zero_mul] at hp1
      simp [zetaEff] at hp1
      linarith
    · exact e
  set A := ∑ k, ∑ l, xskl P.g x k l * alphakl P k l with hA
  have hApos : 0 < A := by
    have hpi := Real.pi_pos
    have hC := h.cmol_pos
    have hw : ∀ k l, 0 ≤ xskl P.g x k l := (c17_xskl P.g x h.x0 h.ν h.V h.S hC.ne').2.1
    have hw1 := (c17_xskl P.g x h.x0 h.ν h.V h.S hC.ne').2.2
    have hterm : ∀ k l, 0 < alphakl P k l := fun k l => by
      have h1 := h.ε k l
      have h2 : 0 < P.σ k l := by rw [h.σm]; linarith [h.σ k, h.σ l]
      have h3 : 0 < P.lam k l ^ 3 - 1 := by
        have := one_lt_pow₀ (h.lam k l) (three_ne_zero)
        linarith
      unfold alphakl alpha
      positivity
    obtain ⟨k, l, hkl⟩ : ∃ k l, 0 < xskl P.g x k l := by
      by_contra hn
      push Not at hn
      have : ∑ k, ∑ l, xskl P.g x k l ≤ 0 := Finset.sum_nonpos fun k _ => Finset.sum_nonpos fun l _ => hn k l
      rw [hw1] at this
      linarith
    exact Finset.sum_pos' (fun k _ => Finset.sum_nonneg fun l _ => mul_nonneg (hw k l) (hterm k l).le)
      ⟨k, Finset.mem_univ _, Finset.sum_pos' (fun l _ => mul_nonneg (hw k l) (hterm k l).le)
        ⟨l, Finset.mem_univ _, mul_pos hkl (hterm k l)⟩⟩
  have hC := h.cmol_pos
  have hT := h.T
  set K := cmol2seg P.g x ^ 2 / T * (p / 2 * M) * A with hK
  have hKpos : 0 < K := by positivity
  -- how close to one the effective packing fraction has to be
  set B := |SWTerms.ahs M P top x - amono M P (p / 2) T x + 2| + 1 with hB
  have hBpos : 0 < B := by positivity
  set δ := min (1 / 2) (K / (2 * B)) with hδ
  have hδ0 : 0 < δ := lt_min (by norm_num) (by positivity)
  obtain ⟨b, hb, hbnear⟩ : ∃ b < p, ∀ r, b < r → r < p → 1 - δ < zetaEff lam (r * zeta M P 1 x 3) := by
    have hev : ∀ᶠ r in 𝓝 p, 1 - δ < zetaEff lam (r * zeta M P 1 x 3) :=
      continuousAt_const.eventually_lt hcont.continuousAt (by linarith)
    obtain ⟨ε, hε, hh⟩ := Metric.eventually_nhds_iff.1 hev
    refine ⟨p - ε, by linarith, fun r h1 h2 => hh ?_⟩
    rw [Real.dist_eq, abs_lt]
    constructor <;> linarith
  set b' := max b (p / 2) with hb'
  have hb'p : b' < p := max_lt hb (by linarith)
  have hb'0 : p / 2 ≤ b' := le_max_right _ _
  -- a density before it at which the effective packing fraction rises
  obtain ⟨c, ⟨hc1, hc2⟩, hc3⟩ : ∃ c ∈ Set.Ioo b' p, 0 < dzetaEff lam (c * zeta M P 1 x 3) := by
    have hd : ∀ r, HasDerivAt (fun ρ : ℝ => zetaEff lam (ρ * zeta M P 1 x 3)) (dzetaEff lam (r * zeta M P 1 x 3) * zeta M P 1 x 3) r :=
      fun r => HasDerivAt.comp (h₂ := zetaEff lam) (h := fun ρ : ℝ => ρ * zeta M P 1 x 3) r
        (c59_dzetaEff lam (r * zeta M P 1 x 3)) (by simpa using (hasDerivAt_id r).mul_const (zeta M P 1 x 3))
    obtain ⟨c, hc, he⟩ := exists_hasDerivAt_eq_slope _ _ hb'p hcont.continuousOn fun r _ => hd r
    refine ⟨c, hc, ?_⟩
    have hlt := hbelow b' (by linarith) hb'p
    have : 0 < dzetaEff lam (c * zeta M P 1 x 3) * zeta M P 1 x 3 := by
      rw [he]
      exact div_pos (by linarith) (by linarith)
    exact (mul_pos_iff_of_pos_right (hz 3)).1 this
  have hcb : b < c := (le_max_left _ _).trans_lt hc1
  have hcp : p / 2 < c := hb'0.trans_lt hc1
  have hlt := hbelow c (by linarith) hc2
  have hnear := hbnear c hcb hc2
  have hδ1 : δ ≤ 1 / 2 := min_le_left _ _
  have hδ2 : δ ≤ K / (2 * B) := min_le_right _ _
  have hlow := amono_low M c top hM h hPl (by linarith) (hc2.le.trans hpt) htop.le hlt (by linarith) hc3.le
  have hbig : B ≤ K * (1 / 2 / (1 - zetaEff lam (c * zeta M P 1 x 3))) := by
    have hg : 0 < 1 - zetaEff lam (c * zeta M P 1 x 3) := by linarith
    rw [div_div, mul_one_div, le_div_iff₀ (by positivity)]
    have : (1 - zetaEff lam (c * zeta M P 1 x 3)) * (2 * B) ≤ K := by
      rw [← le_div_iff₀ (by positivity)]
      linarith
    linarith
  have hKc : K * (1 / 2 / (1 - zetaEff lam (c * zeta M P 1 x 3))) ≤
      cmol2seg P.g x ^ 2 / T * (c * M) * A * (1 / 2 / (1 - zetaEff lam (c * zeta M P 1 x 3))) := by
    have hg : 0 < 1 - zetaEff lam (c * zeta M P 1 x 3) := by linarith
    refine mul_le_mul_of_nonneg_right ?_ (by positivity)
    rw [hK]
    refine mul_le_mul_of_nonneg_right (mul_le_mul_of_nonneg_left ?_ (by positivity)) hApos.le
    exact mul_le_mul_of_nonneg_right hcp.le hM.le
  have hdrop : amono M P c T x < amono M P (p / 2) T x - 2 := by
    have := le_abs_self (SWTerms.ahs M P top x - amono M P (p / 2) T x + 2)
    linarith
  -- the energy falls steeply somewhere in between
  have hsmall : ∀ r, r ≤ c → r * zeta M P 1 x 3 < 1 := fun r hr => by
    have : r * zeta M P 1 x 3 ≤ top * zeta M P 1 x 3 := mul_le_mul_of_nonneg_right (by linarith) (hz 3).le
    rw [htz] at this
    exact lt_of_le_of_lt this (by norm_num)
  have hdiff : ∀ r ∈ Set.Icc (p / 2) c, DifferentiableAt ℝ (fun r => amono M P r T x) r := fun r hr =>
    amono_diff M T r hM h (by linarith [hr.1]) (hsmall r hr.2) fun k l => by
      rw [hPl]
      exact hbelow r (by linarith [hr.1]) (by linarith [hr.2])
  obtain ⟨η, ⟨hη1, hη2⟩, he⟩ := exists_deriv_eq_slope (fun r => amono M P r T x) hcp
    (fun r hr => (hdiff r hr).continuousAt.continuousWithinAt)
    (fun r hr => (hdiff r ⟨hr.1.le, hr.2.le⟩).differentiableWithinAt)
  refine ⟨η, ⟨by linarith, by linarith⟩, ?_⟩
  unfold pressureSW
  rw [he]
  have hη : 0 < η := by linarith
  have hcc : 0 < c - p / 2 := by linarith
  have hs : (amono M P c T x - amono M P (p / 2) T x) / (c - p / 2) < -(2 / p) := by
    rw [div_lt_iff₀ hcc]
    have : 2 / p * (c - p / 2) ≤ 2 / p * p := mul_le_mul_of_nonneg_left (by linarith) (by positivity)
    have e : 2 / p * p = 2 := by field_simp
    linarith
  have hfin : η * ((amono M P c T x - amono M P (p / 2) T x) / (c - p / 2)) < -1 := by
    have h1 := mul_lt_mul_of_pos_left hs hη
    have h2 : 1 ≤ η * (2 / p) := by
      rw [mul_div_assoc', le_div_iff₀ hp]
      linarith
    linarith
  nlinarith

/-! ## Long-ranged wells in mixtures -/

/-- Where the effective packing fraction is above three quarters, it does not fall. -/
private theorem rising (lam z : ℝ) (h1 : 1 ≤ lam) (h0 : 0 ≤ z) (hz : z ≤ 0.65) (he : 3 / 4 < zetaEff lam z) : 0 ≤ dzetaEff lam z := by
  have hlam : lam ≠ 0 := by linarith
  simp only [zetaEff, dzetaEff, if_pos hlam] at he ⊢
  have e1 : cikl lam 0 = 2.25855 - 1.50349 * lam + 0.249434 * lam ^ 2 := by simp only [cikl, cklCoef, Matrix.cons_val]; ring
  have e2 : cikl lam 1 = -0.669270 + 1.40049 * lam - 0.827739 * lam ^ 2 := by simp only [cikl, cklCoef, Matrix.cons_val]; ring
  have e3 : cikl lam 2 = 10.1576 - 15.0427 * lam + 5.30827 * lam ^ 2 := by simp only [cikl, cklCoef, Matrix.cons_val]; ring
  have c2 : cikl lam 1 ≤ 0 := by rw [e2]; norm_num; nlinarith
  by_cases hl : lam ≤ 5.5
  · by_contra hc
    have c1 : cikl lam 0 ≤ 1.54 := by rw [e1]; norm_num at hl ⊢; nlinarith
    generalize cikl lam 0 = a at *
    generalize cikl lam 1 = b at *
    generalize cikl lam 2 = c at *
    have k1 : z * (1 * a + 2 * z * b + 3 * z ^ 2 * c) ≤ 0 := mul_nonpos_of_nonneg_of_nonpos h0 (not_le.1 hc).le
    have k2 : z ^ 2 * b ≤ 0 := mul_nonpos_of_nonneg_of_nonpos (sq_nonneg z) c2
    have k3 : z * a ≤ z * 1.54 := mul_le_mul_of_nonneg_left c1 h0
    norm_num at hz k3
    linarith
  · obtain ⟨u, hu, rfl⟩ : ∃ u, 0 ≤ u ∧ lam = 5.5 + u := ⟨lam - 5.5, by linarith, by ring⟩
    have hd : cikl (5.5 + u) 1 ^ 2 ≤ 3 * cikl (5.5 + u) 0 * cikl (5.5 + u) 2 := by
      rw [e1, e2, e3]
      norm_num
      nlinarith [pow_nonneg hu 2, pow_nonneg hu 3, pow_nonneg hu 4]
    have c3 : 0 < cikl (5.5 + u) 2 := by rw [e3]; norm_num; nlinarith [pow_nonneg hu 2]
    generalize cikl (5.5 + u) 0 = a at *
    generalize cikl (5.5 + u) 1 = b at *
    generalize cikl (5.5 + u) 2 = c at *
    refine nonneg_of_mul_nonneg_right (a := c) ?_ c3
    nlinarith [sq_nonneg (3 * c * z + b)]

/-- The fluctuation term is bounded from below where the effective packing fraction is below one. -/
private theorem fluct_low (lam : ℝ) (h1 : 1 ≤ lam) :
    ∃ F, 0 ≤ F ∧ ∀ z, 0 ≤ z → z ≤ 0.65 → zetaEff lam z < 1 → -F ≤ fluctuationSW lam z := by
  have hlam : lam ≠ 0 := by linarith
  have hc : Continuous (zetaEff lam) := continuous_iff_continuousAt.2 fun z => (zetaEff_analytic lam z).continuousAt
  have hd : Continuous (dzetaEff lam) := by
    have : dzetaEff lam = fun z => 1 * cikl lam 0 + 2 * z * cikl lam 1 + 3 * z ^ 2 * cikl lam 2 := by
      funext z; simp only [dzetaEff, if_pos hlam]
    rw [this]
    fun_prop
  obtain ⟨L, hL⟩ := (isCompact_Icc (a := (0 : ℝ)) (b := 0.65)).exists_bound_of_continuousOn
    (f := fun z => z * dzetaEff lam z) (by fun_prop)
  have hL0 : 0 ≤ L := (norm_nonneg _).trans (hL 0 ⟨le_rfl, by norm_num⟩)
  refine ⟨L * 448, by positivity, fun z h0 hz he => ?_⟩
  have hb := (abs_le.1 (hL z ⟨h0, hz⟩)).1
  have e1 : 0 < 1 - zetaEff lam z := by linarith
  have hg : 0 ≤ g0HS lam z := by
    unfold g0HS
    have : 0 < 1 - zetaEff lam z / 2 := by linarith
    positivity
  have e3 : 0 < 2.5 - zetaEff lam z := by norm_num; linarith
  have hq : 0 ≤ (2.5 - zetaEff lam z) / (1 - zetaEff lam z) ^ 4 := by positivity
  unfold fluctuationSW
  rw [mul_div_assoc]
  by_cases hs : 3 / 4 < zetaEff lam z
  · have := mul_nonneg (mul_nonneg h0 (rising lam z h1 h0 hz hs)) hq
    have := mul_nonneg hL0 (by norm_num : (0 : ℝ) ≤ 448)
    linarith
  · have hq2 : (2.5 - zetaEff lam z) / (1 - zetaEff lam z) ^ 4 ≤ 448 := by
      rw [div_le_iff₀ (by positivity)]
      obtain ⟨v, hv, hev⟩ : ∃ v, 1 / 4 ≤ v ∧ zetaEff lam z = 1 - v := ⟨1 - zetaEff lam z, by linarith, by ring⟩
      rw [hev, show 1 - (1 - v) = v by ring]
      have p3 : (1 / 4 : ℝ) ^ 3 ≤ v ^ 3 := pow_le_pow_left₀ (by norm_num) hv 3
      have p4 : (1 / 4 : ℝ) ^ 4 ≤ v ^ 4 := pow_le_pow_left₀ (by norm_num) hv 4
      have p5 : v * (1 / 4 : ℝ) ^ 3 ≤ v * v ^ 3 := mul_le_mul_of_nonneg_left p3 (by linarith)
      norm_num at *
      nlinarith
    have k1 : -(L * ((2.5 - zetaEff lam z) / (1 - zetaEff lam z) ^ 4)) ≤ z * dzetaEff lam z * ((2.5 - zetaEff lam z) / (1 - zetaEff lam z) ^ 4) := by
      rw [← neg_mul]
      exact mul_le_mul_of_nonneg_right hb hq
    have k2 := mul_le_mul_of_nonneg_left hq2 hL0
    linarith

/-- The energy of a mixture is as negative as one of its contact values is large. -/
private theorem amono_low_mix {P : SWell n m} {T : ℝ} {x : Fin n → ℝ} (M ρ top F : ℝ) (hM : 0 < M) (h : PhysSW P T x)
    (hρ : 0 < ρ) (hle : ρ ≤ top) (htop : zeta M P top x 3 ≤ 0.65) (hF : 0 ≤ F)
    (h1 : ∀ k l, zetaEff (P.lam k l) (ρ * zeta M P 1 x 3) < 1)
    (hfl : ∀ k l, -F ≤ fluctuationSW (P.lam k l) (ρ * zeta M P 1 x 3)) (k₀ l₀ : Fin m)
    (h0 : 0 ≤ zetaEff (P.lam k₀ l₀) (ρ * zeta M P 1 x 3)) :
    amono M P ρ T x ≤ SWTerms.ahs M P top x +
      cmol2seg P.g x ^ 2 * top * M / (2 * T ^ 2) * ((∑ k, ∑ l, P.ε k l * alphakl P k l * xskl P.g x k l) * F) -
      cmol2seg P.g x ^ 2 / T * (ρ * M) * (xskl P.g x k₀ l₀ * alphakl P k₀ l₀) *
        (1 / 2 / (1 - zetaEff (P.lam k₀ l₀) (ρ * zeta M P 1 x 3))) := by
  have hz := moments_pos M hM h
  have hC := h.cmol_pos
  have hT := h.T
  have hw : ∀ k l, 0 ≤ xskl P.g x k l := (c17_xskl P.g x h.x0 h.ν h.V h.S hC.ne').2.1
  have hα : ∀ k l, 0 ≤ alphakl P k l := fun k l => by
    have hp := Real.pi_pos
    have h1 := h.ε k l
    have h2 : 0 < P.σ k l := by rw [h.σm]; linarith [h.σ k, h.σ l]
    have h3 : 0 < P.lam k l ^ 3 - 1 := by
      have := one_lt_pow₀ (h.lam k l) (three_ne_zero)
      linarith
    unfold alphakl alpha
    positivity
  have hlin : zeta M P top x 3 = top * zeta M P 1 x 3 := moment_lin _ _ _ _ _ 3
  have hρz : ρ * zeta M P 1 x 3 ≤ 0.65 := (mul_le_mul_of_nonneg_right hle (hz 3).le).trans (by rw [← hlin]; exact htop)
  have hρ0 : 0 ≤ ρ * zeta M P 1 x 3 := (mul_pos hρ (hz 3)).le
  have hρ1 : ρ * zeta M P 1 x 3 < 1 := lt_of_le_of_lt hρz (by norm_num)
  have hs : SWTerms.ahs M P ρ x ≤ SWTerms.ahs M P top x := by
    obtain ⟨f1, -, f3, -⟩ := c154_sw_partial M T P x hM h
    refine f3.monotoneOn ⟨hρ, (f1 ρ).1 ?_⟩ ⟨hρ.trans_le hle, (f1 top).1 (lt_of_le_of_lt htop (by norm_num))⟩ hle
    rw [show zeta M P ρ x 3 = ρ * zeta M P 1 x 3 from moment_lin _ _ _ _ _ 3]
    exact hρ1
  have hW : ∀ k l, 0 ≤ P.ε k l * alphakl P k l * xskl P.g x k l := fun k l =>
    mul_nonneg (mul_nonneg (h.ε k l).le (hα k l)) (hw k l)
  have h2 : a2 M P ρ T x ≤ cmol2seg P.g x ^ 2 * top * M / (2 * T ^ 2) * ((∑ k, ∑ l, P.ε k l * alphakl P k l * xskl P.g x k l) * F) := by
    have e : a2 M P ρ T x = cmol2seg P.g x ^ 2 * ρ * M * khs (ρ * zeta M P 1 x 3) / (2 * T ^ 2) *
        ∑ k, ∑ l, P.ε k l * alphakl P k l * xskl P.g x k l * -fluctuationSW (P.lam k l) (ρ * zeta M P 1 x 3) := by
      simp only [a2, asecond, fluctuationSW, pack_lin, Finset.mul_sum]
      refine Finset.sum_congr rfl fun k _ => Finset.sum_congr rfl fun l _ => ?_
      field_simp
    rw [e]
    have hk1 := (c20_le_one _ hρ0 hρ1).1
    have hk0 : 0 ≤ khs (ρ * zeta M P 1 x 3) := by
      generalize ρ * zeta M P 1 x 3 = y at hρ0 hρ1
      unfold khs
      refine div_nonneg (pow_nonneg (by linarith) 4) ?_
      nlinarith [mul_nonneg hρ0 (sub_nonneg.2 hρ1.le), mul_nonneg (mul_nonneg hρ0 hρ0) (sub_nonneg.2 hρ1.le), pow_nonneg hρ0 4]
    have hsum : ∑ k, ∑ l, P.ε k l * alphakl P k l * xskl P.g x k l * -fluctuationSW (P.lam k l) (ρ * zeta M P 1 x 3) ≤
        (∑ k, ∑ l, P.ε k l * alphakl P k l * xskl P.g x k l) * F := by
      simp only [Finset.sum_mul]
      refine Finset.sum_le_sum fun k _ => Finset.sum_le_sum fun l _ => mul_le_mul_of_nonneg_left ?_ (hW k l)
      linarith [hfl k l]
    have hS : 0 ≤ (∑ k, ∑ l, P.ε k l * alphakl P k l * xskl P.g x k l) * F :=
      mul_nonneg (Finset.sum_nonneg fun k _ => Finset.sum_nonneg fun l _ => hW k l) hF
    refine (mul_le_mul_of_nonneg_left hsum (by positivity)).trans (mul_le_mul_of_nonneg_right ?_ hS)
    refine div_le_div_of_nonneg_right ?_ (by positivity)
    have t0 : 0 ≤ top := by linarith
    calc cmol2seg P.g x ^ 2 * ρ * M * khs (ρ * zeta M P 1 x 3) ≤ cmol2seg P.g x ^ 2 * ρ * M * 1 :=
          mul_le_mul_of_nonneg_left hk1 (by positivity)
      _ ≤ cmol2seg P.g x ^ 2 * top * M := by
          rw [mul_one]
          exact mul_le_mul_of_nonneg_right (mul_le_mul_of_nonneg_left hle (by positivity)) hM.le
  have hgp : ∀ k l, 0 ≤ g0HS (P.lam k l) (ρ * zeta M P 1 x 3) := fun k l => by
    have e1 : 0 < 1 - zetaEff (P.lam k l) (ρ * zeta M P 1 x 3) := by linarith [h1 k l]
    have e2 : 0 < 1 - zetaEff (P.lam k l) (ρ * zeta M P 1 x 3) / 2 := by linarith [h1 k l]
    unfold g0HS
    positivity
  have ha : a1 M P ρ T x ≤ -(cmol2seg P.g x ^ 2 / T * (ρ * M) * (xskl P.g x k₀ l₀ * alphakl P k₀ l₀) *
      g0HS (P.lam k₀ l₀) (ρ * zeta M P 1 x 3)) := by
    simp only [a1, afirst, pack_lin]
    have nn : ∀ k l, 0 ≤ ρ * M * (xskl P.g x k l * alphakl P k l) * g0HS (P.lam k l) (ρ * zeta M P 1 x 3) := fun k l =>
      mul_nonneg (mul_nonneg (by positivity) (mul_nonneg (hw k l) (hα k l))) (hgp k l)
    have q1 := Finset.single_le_sum (fun l _ => nn k₀ l) (Finset.mem_univ l₀)
    have q2 := Finset.single_le_sum (f := fun k => ∑ l, ρ * M * (xskl P.g x k l * alphakl P k l) * g0HS (P.lam k l) (ρ * zeta M P 1 x 3))
      (fun k _ => Finset.sum_nonneg fun l _ => nn k l) (Finset.mem_univ k₀)
    have q3 := mul_le_mul_of_nonneg_left (q1.trans q2) (by positivity : 0 ≤ cmol2seg P.g x ^ 2 / T)
    linarith
  have hg : 1 / 2 / (1 - zetaEff (P.lam k₀ l₀) (ρ * zeta M P 1 x 3)) ≤ g0HS (P.lam k₀ l₀) (ρ * zeta M P 1 x 3) := by
    have h1' := h1 k₀ l₀
    unfold g0HS
    generalize zetaEff (P.lam k₀ l₀) (ρ * zeta M P 1 x 3) = e at *
    have e1 : 0 < 1 - e := by linarith
    rw [div_le_div_iff₀ e1 (by positivity)]
    have e2 : (1 - e) ^ 3 ≤ 1 - e := by
      have : (1 - e) ^ 2 ≤ 1 := pow_le_one₀ e1.le (by linarith)
      nlinarith
    nlinarith
  have hK : 0 ≤ cmol2seg P.g x ^ 2 / T * (ρ * M) * (xskl P.g x k₀ l₀ * alphakl P k₀ l₀) :=
    mul_nonneg (by positivity) (mul_nonneg (hw k₀ l₀) (hα k₀ l₀))
  have := mul_le_mul_of_nonneg_left hg hK
  unfold amono
  linarith

/-- **C172, violated** (mixtures): if the effective packing fraction of one pair of groups reaches one and all groups are present,
the pressure is negative at some accepted density at *every* temperature. -/
theorem c172_violated_mixture (M top T : ℝ) (P : SWell n m) (x : Fin n → ℝ) (hM : 0 < M) (h : PhysSW P T x)
    (hx : ∀ k l, 0 < xskl P.g x k l) (h1 : ∃ k l, 1 ≤ zetaEff (P.lam k l) 0.65) (htop : zeta M P top x 3 = 0.65) :
    ∃ ρ ∈ Set.Ioo 0 top, pressureSW M T P x ρ < 0 := by
  have hz := moments_pos M hM h
  have hlin : zeta M P top x 3 = top * zeta M P 1 x 3 := moment_lin _ _ _ _ _ 3
  have htz : top * zeta M P 1 x 3 = 0.65 := by rw [← hlin]; exact htop
  have ht0 : 0 < top := by
    by_contra hc
    have := mul_nonpos_of_nonpos_of_nonneg (not_lt.1 hc) (hz 3).le
    rw [htz] at this
    norm_num at this
  have hcont : ∀ k l, Continuous fun ρ : ℝ => zetaEff (P.lam k l) (ρ * zeta M P 1 x 3) := fun k l =>
    continuous_iff_continuousAt.2 fun ρ => ContinuousAt.comp' (g := zetaEff (P.lam k l)) (f := fun r : ℝ => r * zeta M P 1 x 3)
      (zetaEff_analytic _ _).continuousAt (by fun_prop)
  -- the first density at which one of the effective packing fractions is one
  obtain ⟨p, ⟨⟨hp0, hpt⟩, hp1⟩, hleast⟩ :
      ∃ p, IsLeast (Set.Icc 0 top ∩ ⋃ k, ⋃ l, {ρ | 1 ≤ zetaEff (P.lam k l) (ρ * zeta M P 1 x 3)}) p := by
    refine (isCompact_Icc.inter_right (isClosed_iUnion_of_finite fun k => isClosed_iUnion_of_finite fun l =>
      isClosed_le continuous_const (hcont k l))).exists_isLeast ⟨top, ⟨ht0.le, le_rfl⟩, ?_⟩
    obtain ⟨k, l, hkl⟩ := h1
    refine Set.mem_iUnion.2 ⟨k, Set.mem_iUnion.2 ⟨l, ?_⟩⟩
    show 1 ≤ zetaEff (P.lam k l) (top * zeta M P 1 x 3)
    rw [htz]
    exact hkl
  obtain ⟨k₀, hp1⟩ := Set.mem_iUnion.1 hp1
  obtain ⟨l₀, hp1⟩ := Set.mem_iUnion.1 hp1
  have hp1 : 1 ≤ zetaEff (P.lam k₀ l₀) (p * zeta M P 1 x 3) := hp1
  have hbelow : ∀ r, 0 ≤ r → r < p → ∀ k l, zetaEff (P.lam k l) (r * zeta M P 1 x 3) < 1 := fun r h0 hr k l => by
    by_contra hc
    have := hleast ⟨⟨h0, hr.le.trans hpt⟩, Set.mem_iUnion.2 ⟨k, Set.mem_iUnion.2 ⟨l, not_lt.1 hc⟩⟩⟩
    linarith
  have hp : 0 < p := by
    rcases hp0.eq_or_lt with e | e
    · rw [← e, zero_mul] at hp1
      simp [zetaEff] at hp1
      linarith
    · exact e
  -- a common bound of the fluctuation terms
  choose F hF0 hF using fun k l => fluct_low (P.lam k l) (h.lam k l).le
  have hFs : ∀ k l, F k l ≤ ∑ k, ∑ l, F k l := fun k l =>
    (Finset.single_le_sum (fun l _ => hF0 k l) (Finset.mem_univ l)).trans
      (Finset.single_le_sum (f := fun k => ∑ l, F k l) (fun k _ => Finset.sum_nonneg fun l _ => hF0 k l) (Finset.mem_univ k))
  have hFn : 0 ≤ ∑ k, ∑ l, F k l := Finset.sum_nonneg fun k _ => Finset.sum_nonneg fun l _ => hF0 k l
  set A := xskl P.g x k₀ l₀ * alphakl P k₀ l₀ with hA
  have hApos : 0 < A := by
    have hpi := Real.pi_pos
    refine mul_pos (hx _ _) ?_
    have h1 := h.ε k₀ l₀
    have h2 : 0 < P.σ k₀ l₀ := by rw [h.σm]; linarith [h.σ k₀, h.σ l₀]
    have h3 : 0 < P.lam k₀ l₀ ^ 3 - 1 := by
      have := one_lt_pow₀ (h.lam k₀ l₀) (three_ne_zero)
      linarith
    unfold alphakl alpha
    positivity
  have hC := h.cmol_pos
  have hT := h.T
  set K := cmol2seg P.g x ^ 2 / T * (p / 2 * M) * A with hK
  have hKpos : 0 < K := by positivity
  set U := SWTerms.ahs M P top x +
    cmol2seg P.g x ^ 2 * top * M / (2 * T ^ 2) * ((∑ k, ∑ l, P.ε k l * alphakl P k l * xskl P.g x k l) * ∑ k, ∑ l, F k l) with hU
  set B := |U - amono M P (p / 2) T x + 2| + 1 with hB
  have hBpos : 0 < B := by positivity
  set δ := min (1 / 2) (K / (2 * B)) with hδ
  have hδ0 : 0 < δ := lt_min (by norm_num) (by positivity)
  obtain ⟨b, hb, hbnear⟩ : ∃ b < p, ∀ r, b < r → r < p → 1 - δ < zetaEff (P.lam k₀ l₀) (r * zeta M P 1 x 3) := by
    have hev : ∀ᶠ r in 𝓝 p, 1 - δ < zetaEff (P.lam k₀ l₀) (r * zeta M P 1 x 3) :=
      continuousAt_const.eventually_lt (hcont k₀ l₀).continuousAt (by linarith)
    obtain ⟨ε, hε, hh⟩ := Metric.eventually_nhds_iff.1 hev
    refine ⟨p - ε, by linarith, fun r h1 h2 => hh ?_⟩
    rw [Real.dist_eq, abs_lt]
    constructor <;> linarith
  obtain ⟨c, hc1, hc2⟩ := exists_between (max_lt hb (by linarith : p / 2 < p))
  have hcb : b < c := (le_max_left _ _).trans_lt hc1
  have hcp : p / 2 < c := (le_max_right _ _).trans_lt hc1
  have hsmall : ∀ r, r ≤ c → r * zeta M P 1 x 3 ≤ 0.65 := fun r hr => by
    have : r * zeta M P 1 x 3 ≤ top * zeta M P 1 x 3 := mul_le_mul_of_nonneg_right (by linarith) (hz 3).le
    rwa [htz] at this
  have hlt := hbelow c (by linarith) hc2
  have hnear := hbnear c hcb hc2
  have hδ1 : δ ≤ 1 / 2 := min_le_left _ _
  have hδ2 : δ ≤ K / (2 * B) := min_le_right _ _
  have hlow := amono_low_mix M c top (∑ k, ∑ l, F k l) hM h (by linarith) (hc2.le.trans hpt) htop.le hFn hlt
    (fun k l => (neg_le_neg (hFs k l)).trans (hF k l _ (mul_nonneg (by linarith) (hz 3).le) (hsmall c le_rfl) (hlt k l)))
    k₀ l₀ (by linarith)
  rw [← hA, ← hU] at hlow
  have hlt0 := hlt k₀ l₀
  have hg : 0 < 1 - zetaEff (P.lam k₀ l₀) (c * zeta M P 1 x 3) := by linarith
  have hbig : B ≤ K * (1 / 2 / (1 - zetaEff (P.lam k₀ l₀) (c * zeta M P 1 x 3))) := by
    rw [div_div, mul_one_div, le_div_iff₀ (by positivity)]
    have : (1 - zetaEff (P.lam k₀ l₀) (c * zeta M P 1 x 3)) * (2 * B) ≤ K := by
      rw [← le_div_iff₀ (by positivity)]
      linarith
    linarith
  have hKc : K * (1 / 2 / (1 - zetaEff (P.lam k₀ l₀) (c * zeta M P 1 x 3))) ≤
      cmol2seg P.g x ^ 2 / T * (c * M) * A * (1 / 2 / (1 - zetaEff (P.lam k₀ l₀) (c * zeta M P 1 x 3))) := by
    refine mul_le_mul_of_nonneg_right ?_ (by positivity)
    rw [hK]
    refine mul_le_mul_of_nonneg_right (mul_le_mul_of_nonneg_left ?_ (by positivity)) hApos.le
    exact mul_le_mul_of_nonneg_right hcp.le hM.le
  have hdrop : amono M P c T x < amono M P (p / 2) T x - 2 := by
    have := le_abs_self (U - amono M P (p / 2) T x + 2)
    linarith
  -- the energy falls steeply somewhere in between
  have hdiff : ∀ r ∈ Set.Icc (p / 2) c, DifferentiableAt ℝ (fun r => amono M P r T x) r := fun r hr =>
    amono_diff M T r hM h (by linarith [hr.1]) (lt_of_le_of_lt (hsmall r hr.2) (by norm_num)) fun k l =>
      hbelow r (by linarith [hr.1]) (by linarith [hr.2]) k l
  obtain ⟨η, ⟨hη1, hη2⟩, he⟩ := exists_deriv_eq_slope (fun r => amono M P r T x) hcp
    (fun r hr => (hdiff r hr).continuousAt.continuousWithinAt)
    (fun r hr => (hdiff r ⟨hr.1.le, hr.2.le⟩).differentiableWithinAt)
  refine ⟨η, ⟨by linarith, by linarith⟩, ?_⟩
  unfold pressureSW
  rw [he]
  have hη : 0 < η := by linarith
  have hcc : 0 < c - p / 2 := by linarith
  have hs : (amono M P c T x - amono M P (p / 2) T x) / (c - p / 2) < -(2 / p) := by
    rw [div_lt_iff₀ hcc]
    have : 2 / p * (c - p / 2) ≤ 2 / p * p := mul_le_mul_of_nonneg_left (by linarith) (by positivity)
    have e : 2 / p * p = 2 := by field_simp
    linarith
  have hfin : η * ((amono M P c T x - amono M P (p / 2) T x) / (c - p / 2)) < -1 := by
    have h1 := mul_lt_mul_of_pos_left hs hη
    have h2 : 1 ≤ η * (2 / p) := by
      rw [mul_div_assoc', le_div_iff₀ hp]
      linarith
    linarith
  nlinarith

/-- **C172** (hot, exactly): if all groups are present, the isotherms up to the largest accepted packing fraction rise above some
temperature if and only if the effective packing fractions of all pairs of groups are below one at it; otherwise none does. -/
theorem c172_hot_iff (M top T' : ℝ) (P : SWell n m) (x : Fin n → ℝ) (hM : 0 < M) (h : PhysSW P T' x)
    (hx : ∀ k l, 0 < xskl P.g x k l) (htop : zeta M P top x 3 = 0.65) :
    ((∃ T₁ > 0, ∀ T ≥ T₁, StrictMonoOn (pressureSW M T P x) (Set.Ioc 0 top)) ↔ ∀ k l, zetaEff (P.lam k l) 0.65 < 1) ∧
      ((∃ T > 0, MonotoneOn (pressureSW M T P x) (Set.Ioc 0 top)) → ∀ k l, zetaEff (P.lam k l) 0.65 < 1) := by
  have key : (∃ T > 0, MonotoneOn (pressureSW M T P x) (Set.Ioc 0 top)) → ∀ k l, zetaEff (P.lam k l) 0.65 < 1 := by
    rintro ⟨T, hT, hm⟩ k l
    by_contra hc
    have hT' : PhysSW P T x := { h with T := hT }
    obtain ⟨ρ, hρ, hneg⟩ := c172_violated_mixture M top T P x hM hT' hx ⟨k, l, not_lt.1 hc⟩ htop
    obtain ⟨r, hp, hr⟩ := ((c172_gas M T P x hM hT').and (Ioo_mem_nhdsGT hρ.1)).exists
    have := hm ⟨hr.1, hr.2.le.trans hρ.2.le⟩ ⟨hρ.1, hρ.2.le⟩ hr.2.le
    linarith
  exact ⟨⟨fun ⟨T, hT, hm⟩ => key ⟨T, hT, (hm T le_rfl).monotoneOn⟩, fun hl => c172_hot_partial M top T' P x hM h hl htop.le⟩, key⟩

/-- Argon-like spheres with a well of 1.7 diameters. -/
noncomputable def swArgon : SWell 1 1 where
  g := ⟨fun _ _ => 1, fun _ => 1, fun _ => 1⟩
  ε := fun _ _ => 100
  σ := fun _ _ => 0.34
  lam := fun _ _ => 1.7
  rings := fun _ => 0

theorem swArgon_phys : PhysSW swArgon 300 (fun _ => 1) where
  T := by norm_num
  x0 := fun _ => by norm_num
  xsum := by simp
  ν := fun _ _ => by simp [swArgon]
  V := fun _ => by simp [swArgon]
  S := fun _ => by simp [swArgon]
  seg := fun _ => by simp [zki, swArgon]
  ε := fun _ _ => by simp [swArgon]
  σ := fun _ => by simp only [swArgon]; norm_num
  σm := fun _ _ => by simp only [swArgon]; norm_num
  lam := fun _ _ => by simp only [swArgon]; norm_num

/-- They condense below some temperature and not above another one, whatever the largest density. -/
example (top : ℝ) (h0 : 0 < top) (htop : zeta 1 swArgon top (fun _ => 1) 3 ≤ 0.65) :
    ∃ T₀ > 0, ∃ T₁ ≥ T₀, (∀ T ∈ Set.Ioo 0 T₀, ¬MonotoneOn (pressureSW 1 T swArgon fun _ => 1) (Set.Ioc 0 top)) ∧
      ∀ T ≥ T₁, StrictMonoOn (pressureSW 1 T swArgon fun _ => 1) (Set.Ioc 0 top) :=
  c172_isotherms_partial 1 top 300 swArgon _ one_pos swArgon_phys
    (fun _ _ => c151_below_partial _ _ (by simp only [swArgon]; norm_num) (by simp only [swArgon]; norm_num) (by norm_num) le_rfl)
    h0 htop

/-- With a well of three diameters the pressure is negative somewhere at every temperature, even at a million kelvin. -/
example (T top : ℝ) (hT : 0 < T) (htop : zeta 1 { swArgon with lam := fun _ _ => 3 } top (fun _ => 1) 3 = 0.65) :
    ∃ ρ ∈ Set.Ioo 0 top, pressureSW 1 T { swArgon with lam := fun _ _ => 3 } (fun _ => 1) ρ < 0 :=
  c172_violated_range 1 top T 3 _ _ one_pos
    { T := hT, x0 := swArgon_phys.x0, xsum := swArgon_phys.xsum, ν := swArgon_phys.ν, V := swArgon_phys.V, S := swArgon_phys.S,
      seg := swArgon_phys.seg, ε := swArgon_phys.ε, σ := swArgon_phys.σ, σm := swArgon_phys.σm, lam := fun _ _ => by norm_num }
    rfl (c151_violated_range 3 (by norm_num)).le htop

/-- Two kinds of spheres; only the pairs of the second kind have a well of three diameters. -/
noncomputable def swPair : SWell 2 2 where
  g := ⟨fun i k => if i = k then 1 else 0, fun _ => 1, fun _ => 1⟩
  ε := fun _ _ => 100
  σ := fun _ _ => 0.34
  lam := fun k l => if k = 1 ∧ l = 1 then 3 else 1.7
  rings := fun _ => 0

/-- Their equimolar mixture has a negative pressure somewhere at every temperature, so that no isotherm rises throughout. -/
example (T top : ℝ) (hT : 0 < T) (htop : zeta 1 swPair top (fun _ => 1 / 2) 3 = 0.65) :
    (∃ ρ ∈ Set.Ioo 0 top, pressureSW 1 T swPair (fun _ => 1 / 2) ρ < 0) ∧
      ¬∃ T₁ > 0, ∀ T ≥ T₁, StrictMonoOn (pressureSW 1 T swPair fun _ => 1 / 2) (Set.Ioc 0 top) := by
  have hp : PhysSW swPair T (fun _ => 1 / 2) :=
    { T := hT
      x0 := fun _ => by norm_num
      xsum := by simp
      ν := fun i k => by simp only [swPair]; split <;> norm_num
      V := fun _ => by simp [swPair]
      S := fun _ => by simp [swPair]
      seg := fun _ => by simp [zki, swPair]
      ε := fun _ _ => by simp [swPair]
      σ := fun _ => by simp only [swPair]; norm_num
      σm := fun _ _ => by simp only [swPair]; norm_num
      lam := fun _ _ => by simp only [swPair]; split <;> norm_num }
  have hx : ∀ k l, 0 < xskl swPair.g (fun _ => 1 / 2) k l := fun k l => by
    simp [xskl, xsk, cmol2seg, swPair]
  have h3 : 1 ≤ zetaEff (swPair.lam 1 1) 0.65 := (c151_violated_range 3 (by norm_num)).le
  refine ⟨c172_violated_mixture 1 top T swPair _ one_pos hp hx ⟨1, 1, h3⟩ htop, fun hc => ?_⟩
  exact absurd ((c172_hot_iff 1 top T swPair _ one_pos hp hx htop).1.1 hc 1 1) (not_lt.2 h3)

example : ∀ i, beadsum swArgon i = 0 := fun _ => by simp [beadsum, swArgon]

end Verif.Props
