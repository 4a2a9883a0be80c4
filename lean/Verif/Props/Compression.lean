import Mathlib.Analysis.Calculus.Deriv.MeanValue
import Mathlib.Algebra.BigOperators.Field
import Verif.Props.HardSphere
import Verif.Props.MieSymmetry
import Verif.Props.SWLimits

/-!
# C154: hard spheres resist compression

The hard-sphere term is computed from the packing fraction of the groups' own diameters (the third moment), the guard of the
monomer term and the maximum density from the one of the pair diameters.
-/

namespace Verif.Props
open Verif Verif.Saft Filter Topology

variable {n m : ℕ}

/-- The coded energy with the factor `1/ρ` cancelled, for moments `ρ c_q`. -/
private theorem hs_form (pure : Bool) (M ρ : ℝ) (c : ℕ → ℝ) (hM : 0 < M) (hρ : 0 < ρ) (hc : 0 < c 3) (h1 : ρ * c 3 < 1) :
    aHSmie pure M ρ (fun q => ρ * c q) = 6 / (Real.pi * M) *
      ((if pure then 0 else Real.log (1 - ρ * c 3) * (c 2 ^ 3 / c 3 ^ 2 - c 0)) + 3 * c 1 * c 2 / c 3 * (ρ * c 3 / (1 - ρ * c 3))
        + c 2 ^ 3 / c 3 ^ 2 * (ρ * c 3 / (1 - ρ * c 3) ^ 2)) := by
  have hp := Real.pi_pos
  have hne : 1 - ρ * c 3 ≠ 0 := by linarith
  cases pure
  · simp only [aHSmie, Bool.false_eq_true, if_false]
    generalize Real.log (1 - ρ * c 3) = L
    generalize hu : 1 - ρ * c 3 = u at hne
    field_simp
  · simp only [aHSmie, if_true]
    generalize hu : 1 - ρ * c 3 = u at hne
    field_simp
    ring

private theorem neg_log_le {z : ℝ} (h1 : z < 1) : -Real.log (1 - z) ≤ z / (1 - z) := by
  have h : 0 < 1 - z := by linarith
  have := Real.log_le_sub_one_of_pos (inv_pos.mpr h)
  rw [Real.log_inv] at this
  have e : (1 - z)⁻¹ - 1 = z / (1 - z) := by field_simp; ring
  linarith

/-- **C154** (size): the energy is at least the square of `z/(1 - z)` in the packing fraction, times a positive factor. -/
theorem c154_bound (pure : Bool) (M ρ : ℝ) (c : ℕ → ℝ) (hM : 0 < M) (hρ : 0 < ρ) (hc : 0 < c 3) (h1 : ρ * c 3 < 1)
    (h0 : 0 ≤ c 0) (hc1 : 0 ≤ c 1) (hc2 : 0 ≤ c 2) :
    6 / (Real.pi * M) * (c 2 ^ 3 / c 3 ^ 2) * (ρ * c 3 / (1 - ρ * c 3)) ^ 2 ≤ aHSmie pure M ρ (fun q => ρ * c q) := by
  have hp := Real.pi_pos
  have hz : 0 < ρ * c 3 := by positivity
  have hu : 0 < 1 - ρ * c 3 := by linarith
  have hA : 0 ≤ c 2 ^ 3 / c 3 ^ 2 := by positivity
  have hB : 0 ≤ 3 * c 1 * c 2 / c 3 * (ρ * c 3 / (1 - ρ * c 3)) := by positivity
  have e : ρ * c 3 / (1 - ρ * c 3) ^ 2 = (ρ * c 3 / (1 - ρ * c 3)) ^ 2 + ρ * c 3 / (1 - ρ * c 3) := by
    field_simp; ring
  have hq : 0 ≤ ρ * c 3 / (1 - ρ * c 3) := by positivity
  rw [hs_form pure M ρ c hM hρ hc h1, mul_assoc]
  refine mul_le_mul_of_nonneg_left ?_ (by positivity)
  rw [e]
  cases pure
  · simp only [Bool.false_eq_true, if_false]
    have hl := neg_log_le h1
    have hl0 : Real.log (1 - ρ * c 3) ≤ 0 := Real.log_nonpos hu.le (by linarith)
    nlinarith [mul_nonneg hA (sub_nonneg.mpr hl), mul_nonneg h0 (neg_nonneg.mpr hl0)]
  · simp only [if_true]
    nlinarith [mul_nonneg hA hq]

/-- **C154** (the formula): for moments proportional to the density the coded energy is positive and increases strictly with the
density up to the packing fraction one, where it exceeds every bound. -/
theorem c154_formula (pure : Bool) (M : ℝ) (c : ℕ → ℝ) (hM : 0 < M) (h0 : 0 ≤ c 0) (hc1 : 0 ≤ c 1) (hc2 : 0 < c 2)
    (hc : 0 < c 3) :
    (∀ ρ ∈ Set.Ioo 0 (1 / c 3), 0 < aHSmie pure M ρ (fun q => ρ * c q)) ∧
    StrictMonoOn (fun ρ => aHSmie pure M ρ (fun q => ρ * c q)) (Set.Ioo 0 (1 / c 3)) ∧
    Tendsto (fun ρ => aHSmie pure M ρ (fun q => ρ * c q)) (𝓝[<] (1 / c 3)) atTop := by
  have hp := Real.pi_pos
  have hlt : ∀ ρ, ρ ∈ Set.Ioo 0 (1 / c 3) → 0 < ρ ∧ ρ * c 3 < 1 := fun ρ h => ⟨h.1, (lt_div_iff₀ hc).mp h.2⟩
  have hA : 0 < c 2 ^ 3 / c 3 ^ 2 := by positivity
  refine ⟨fun ρ h => ?_, ?_, ?_⟩
  · obtain ⟨hρ, h1⟩ := hlt ρ h
    have hu : 0 < 1 - ρ * c 3 := by linarith
    refine lt_of_lt_of_le ?_ (c154_bound pure M ρ c hM hρ hc h1 h0 hc1 hc2.le)
    positivity
  · cases pure
    · have hd : ∀ ρ ∈ Set.Ioo 0 (1 / c 3), HasDerivAt (fun ρ => aHSmie false M ρ (fun q => ρ * c q))
          (6 / (Real.pi * ρ * M) * zBMCSL (fun q => ρ * c q) / ρ) ρ := fun ρ h =>
        c91_bmcsl M ρ c hM (hlt ρ h).1 hc (hlt ρ h).2
      refine strictMonoOn_of_deriv_pos (convex_Ioo _ _) (fun ρ h => (hd ρ h).continuousAt.continuousWithinAt) ?_
      intro ρ h
      rw [interior_Ioo] at h
      obtain ⟨hρ, h1⟩ := hlt ρ h
      rw [(hd ρ h).deriv]
      have hu : 0 < 1 - ρ * c 3 := by linarith
      have hu3 : 0 < 3 - ρ * c 3 := by linarith
      have : 0 < zBMCSL (fun q => ρ * c q) := by
        unfold zBMCSL
        positivity
      positivity
    · intro a ha b hb hab
      obtain ⟨ha0, ha1⟩ := hlt a ha
      obtain ⟨hb0, hb1⟩ := hlt b hb
      beta_reduce
      rw [hs_form true M a c hM ha0 hc ha1, hs_form true M b c hM hb0 hc hb1]
      have hua : 0 < 1 - a * c 3 := by linarith
      have hub : 0 < 1 - b * c 3 := by linarith
      have hz : a * c 3 < b * c 3 := mul_lt_mul_of_pos_right hab hc
      have hz0 : 0 < a * c 3 := by positivity
      have q1 : a * c 3 / (1 - a * c 3) ≤ b * c 3 / (1 - b * c 3) := by
        rw [div_le_div_iff₀ hua hub]; nlinarith
      have q2 : a * c 3 / (1 - a * c 3) ^ 2 < b * c 3 / (1 - b * c 3) ^ 2 := by
        have : (1 - b * c 3) ^ 2 ≤ (1 - a * c 3) ^ 2 := by
          have : 1 - b * c 3 ≤ 1 - a * c 3 := by linarith
          gcongr
        exact div_lt_div₀ hz this (by positivity) (by positivity)
      refine mul_lt_mul_of_pos_left ?_ (by positivity)
      simp only [if_true]
      have := mul_le_mul_of_nonneg_left q1 (show 0 ≤ 3 * c 1 * c 2 / c 3 by positivity)
      have := mul_lt_mul_of_pos_left q2 hA
      linarith
  · have hev : ∀ᶠ ρ in 𝓝[<] (1 / c 3), ρ ∈ Set.Ioo 0 (1 / c 3) := Ioo_mem_nhdsLT (by positivity)
    have hb : Tendsto (fun ρ => 6 / (Real.pi * M) * (c 2 ^ 3 / c 3 ^ 2) * (ρ * c 3 / (1 - ρ * c 3)) ^ 2) (𝓝[<] (1 / c 3))
        atTop := by
      refine Tendsto.const_mul_atTop (by positivity) ?_
      refine (tendsto_pow_atTop two_ne_zero).comp ?_
      have hn : Tendsto (fun ρ : ℝ => ρ * c 3) (𝓝[<] (1 / c 3)) (𝓝 1) := by
        have : Tendsto (fun ρ : ℝ => ρ * c 3) (𝓝 (1 / c 3)) (𝓝 (1 / c 3 * c 3)) := tendsto_id.mul_const _
        rw [one_div_mul_cancel hc.ne'] at this
        exact this.mono_left nhdsWithin_le_nhds
      have hi : Tendsto (fun ρ : ℝ => (1 - ρ * c 3)⁻¹) (𝓝[<] (1 / c 3)) atTop := by
        refine tendsto_inv_nhdsGT_zero.comp (tendsto_nhdsWithin_of_tendsto_nhds_of_eventually_within _ ?_ ?_)
        · have := hn.const_sub 1
          rwa [sub_self] at this
        · filter_upwards [hev] with ρ h
          have := (hlt ρ h).2
          simp only [Set.mem_Ioi]; linarith
      simpa only [div_eq_mul_inv] using hn.pos_mul_atTop one_pos hi
    refine tendsto_atTop_mono' _ ?_ hb
    filter_upwards [hev] with ρ h
    exact c154_bound pure M ρ c hM (hlt ρ h).1 hc (hlt ρ h).2 h0 hc1 hc2.le

example : (0 : ℝ) < 6 / (Real.pi * 1) * (1 ^ 3 / 1 ^ 2) * (1 / 2 * 1 / (1 - 1 / 2 * 1)) ^ 2 := by
  have := Real.pi_pos
  norm_num; positivity

section Mie
open Verif.GammaMie Verif.MieTerms

private theorem mie_moment {P : Mie n m} {T : ℝ} {x : Fin n → ℝ} (M ρ : ℝ) (h : Phys P T x) (q : ℕ) :
    moment M ρ (cmol2seg P.g x) (xskl P.g x) (dkl P T) q =
      ρ * (M * cmol2seg P.g x * (Real.pi / 6) * ∑ k, xsk P.g x k * dk P T k ^ q) := by
  unfold moment
  have : (∑ k, √(xskl P.g x k k) * dkl P T k k ^ q) = ∑ k, xsk P.g x k * dk P T k ^ q := by
    refine Finset.sum_congr rfl fun k _ => ?_
    rw [c17_sqrt_diag P.g x h.x0 h.ν h.V h.S k, show dkl P T k k = dk P T k by unfold dkl dklOf; ring]
  rw [this]; ring

private theorem mie_sum_pos {P : Mie n m} {T : ℝ} {x : Fin n → ℝ} (h : Phys P T x) (q : ℕ) :
    0 < ∑ k, xsk P.g x k * dk P T k ^ q := by
  have h0 := c17_xsk_nonneg P.g x h.x0 h.ν h.V h.S
  have h1 := c17_xsk_sum_one P.g x h.cmol_pos.ne'
  have hex : ∃ k, 0 < xsk P.g x k := by
    by_contra hn
    push Not at hn
    have : ∑ k, xsk P.g x k ≤ 0 := Finset.sum_nonpos fun k _ => hn k
    linarith
  obtain ⟨k, hk⟩ := hex
  exact Finset.sum_pos' (fun l _ => mul_nonneg (h0 l) (pow_nonneg (h.dk_pos l).le q))
    ⟨k, Finset.mem_univ k, mul_pos hk (pow_pos (h.dk_pos k) q)⟩

/-- **C154** (Mie): as long as the packing fraction of the groups' own diameters is below one, the hard-sphere term of every
state is positive and increases strictly with the density; it exceeds every bound as that packing fraction goes to one. -/
theorem c154_mie_partial (M T : ℝ) (P : Mie n m) (x : Fin n → ℝ) (hM : 0 < M) (h : Phys P T x) :
    let top := 1 / moment M 1 (cmol2seg P.g x) (xskl P.g x) (dkl P T) 3
    (∀ ρ, moment M ρ (cmol2seg P.g x) (xskl P.g x) (dkl P T) 3 < 1 ↔ ρ < top) ∧
    (∀ ρ ∈ Set.Ioo 0 top, 0 < ahs M P ρ T x) ∧
    StrictMonoOn (fun ρ => ahs M P ρ T x) (Set.Ioo 0 top) ∧
    Tendsto (fun ρ => ahs M P ρ T x) (𝓝[<] top) atTop := by
  intro top
  have hp := Real.pi_pos
  have hC := h.cmol_pos
  have hpos : ∀ q, 0 < moment M 1 (cmol2seg P.g x) (xskl P.g x) (dkl P T) q := fun q => by
    rw [mie_moment M 1 h q, one_mul]
    have := mie_sum_pos h q
    positivity
  have he : ∀ ρ, ahs M P ρ T x =
      aHSmie (n == 1) M ρ (fun q => ρ * moment M 1 (cmol2seg P.g x) (xskl P.g x) (dkl P T) q) := fun ρ => by
    unfold ahs mieHardSphere
    rw [show (moment M ρ (cmol2seg P.g x) (xskl P.g x) (dklOf (dk P T)))
      = fun q => ρ * moment M 1 (cmol2seg P.g x) (xskl P.g x) (dkl P T) q from funext fun q => moment_lin _ _ _ _ _ q]
  refine ⟨fun ρ => ?_, ?_⟩
  · rw [moment_lin M ρ]
    exact (lt_div_iff₀ (hpos 3)).symm
  · simp only [he]
    exact c154_formula (n == 1) M _ hM (hpos 0).le (hpos 1).le (hpos 2) (hpos 3)

/-- The two sums of cubed diameters: of the groups' own and of the pairs'. -/
private theorem cube_sums {P : Mie n m} {T : ℝ} {x : Fin n → ℝ} (h : Phys P T x) :
    ∑ k, xsk P.g x k * dk P T k ^ 3 = (∑ k, ∑ l, xskl P.g x k l * dkl P T k l ^ 3)
      + ∑ k, ∑ l, xskl P.g x k l * (3 / 8 * (dk P T k + dk P T l) * (dk P T k - dk P T l) ^ 2) := by
  have hs := c17_xsk_sum_one P.g x h.cmol_pos.ne'
  have a : (∑ k, ∑ l, xskl P.g x k l * dk P T k ^ 3) = ∑ k, xsk P.g x k * dk P T k ^ 3 := by
    refine Finset.sum_congr rfl fun k _ => ?_
    unfold xskl
    rw [← Finset.sum_mul, ← Finset.mul_sum, hs, mul_one]
  have b : (∑ k, ∑ l, xskl P.g x k l * dk P T l ^ 3) = ∑ k, xsk P.g x k * dk P T k ^ 3 := by
    rw [Finset.sum_comm]
    refine Finset.sum_congr rfl fun k _ => ?_
    unfold xskl
    rw [← Finset.sum_mul, ← Finset.sum_mul, hs, one_mul]
  have c : (∑ k, ∑ l, xskl P.g x k l * dkl P T k l ^ 3)
      + ∑ k, ∑ l, xskl P.g x k l * (3 / 8 * (dk P T k + dk P T l) * (dk P T k - dk P T l) ^ 2)
      = ((∑ k, ∑ l, xskl P.g x k l * dk P T k ^ 3) + ∑ k, ∑ l, xskl P.g x k l * dk P T l ^ 3) / 2 := by
    rw [← Finset.sum_add_distrib, ← Finset.sum_add_distrib, Finset.sum_div]
    refine Finset.sum_congr rfl fun k _ => ?_
    rw [← Finset.sum_add_distrib, ← Finset.sum_add_distrib, Finset.sum_div]
    refine Finset.sum_congr rfl fun l _ => ?_
    unfold dkl dklOf
    ring
  rw [c, a, b]; ring

private theorem zx_eq {P : Mie n m} {T : ℝ} {x : Fin n → ℝ} (M ρ : ℝ) :
    zx M P ρ T x = ρ * (M * cmol2seg P.g x * (Real.pi / 6) * ∑ k, ∑ l, xskl P.g x k l * dkl P T k l ^ 3) := by
  simp only [zx, zetax, ← mul_assoc, ← Finset.sum_mul]; ring

/-- **C154** (two packing fractions): the one of the hard-sphere term is at least the one the guard looks at and at most four
times as large. -/
theorem c154_packings (M ρ T : ℝ) (P : Mie n m) (x : Fin n → ℝ) (hM : 0 < M) (hρ : 0 ≤ ρ) (h : Phys P T x) :
    zx M P ρ T x ≤ moment M ρ (cmol2seg P.g x) (xskl P.g x) (dkl P T) 3 ∧
    moment M ρ (cmol2seg P.g x) (xskl P.g x) (dkl P T) 3 ≤ 4 * zx M P ρ T x := by
  have hp := Real.pi_pos
  have hC := h.cmol_pos
  have hw := (c17_xskl P.g x h.x0 h.ν h.V h.S hC.ne').2.1
  rw [mie_moment M ρ h 3, zx_eq, cube_sums h]
  have hd := h.dk_pos
  have n1 : 0 ≤ ∑ k, ∑ l, xskl P.g x k l * (3 / 8 * (dk P T k + dk P T l) * (dk P T k - dk P T l) ^ 2) :=
    Finset.sum_nonneg fun k _ => Finset.sum_nonneg fun l _ => mul_nonneg (hw k l) (by
      have := hd k; have := hd l; positivity)
  have n2 : ∑ k, ∑ l, xskl P.g x k l * (3 / 8 * (dk P T k + dk P T l) * (dk P T k - dk P T l) ^ 2)
      ≤ 3 * ∑ k, ∑ l, xskl P.g x k l * dkl P T k l ^ 3 := by
    rw [Finset.mul_sum]
    refine Finset.sum_le_sum fun k _ => ?_
    rw [Finset.mul_sum]
    refine Finset.sum_le_sum fun l _ => ?_
    have := mul_le_mul_of_nonneg_left (show 3 / 8 * (dk P T k + dk P T l) * (dk P T k - dk P T l) ^ 2
      ≤ 3 * dkl P T k l ^ 3 by
        have h1 := hd k; have h2 := hd l
        have : 3 * dkl P T k l ^ 3 - 3 / 8 * (dk P T k + dk P T l) * (dk P T k - dk P T l) ^ 2
            = 3 / 2 * (dk P T k + dk P T l) * (dk P T k * dk P T l) := by unfold dkl dklOf; ring
        have : 0 ≤ 3 / 2 * (dk P T k + dk P T l) * (dk P T k * dk P T l) := by positivity
        linarith) (hw k l)
    linarith
  have hk : 0 ≤ ρ * (M * cmol2seg P.g x * (Real.pi / 6)) := by positivity
  constructor
  · nlinarith [mul_nonneg hk n1]
  · nlinarith [mul_le_mul_of_nonneg_left n2 hk]

/-- **C154** (states that are safe): at a packing fraction below one quarter the hard-sphere term of every Mie state is positive. -/
theorem c154_quarter_partial (M ρ T : ℝ) (P : Mie n m) (x : Fin n → ℝ) (hM : 0 < M) (hρ : 0 < ρ) (h : Phys P T x)
    (hz : zx M P ρ T x < 1 / 4) : moment M ρ (cmol2seg P.g x) (xskl P.g x) (dkl P T) 3 < 1 ∧ 0 < ahs M P ρ T x := by
  have h1 := (c154_packings M ρ T P x hM hρ.le h).2
  have h3 : moment M ρ (cmol2seg P.g x) (xskl P.g x) (dkl P T) 3 < 1 := by linarith
  have := c154_mie_partial M T P x hM h
  exact ⟨h3, this.2.1 ρ ⟨hρ, (this.1 ρ).1 h3⟩⟩

/-- **C154** violated: as soon as two groups of different diameters are present, there are densities the guard of the monomer
term accepts at which the packing fraction of the hard-sphere term is above one; for a mixture that is the logarithm of a
negative number. -/
theorem c154_violated_packing (M T : ℝ) (P : Mie n m) (x : Fin n → ℝ) (hM : 0 < M) (h : Phys P T x) (k l : Fin m)
    (hk : 0 < xsk P.g x k) (hl : 0 < xsk P.g x l) (hd : dk P T k ≠ dk P T l) :
    ∃ ρ, 0 < ρ ∧ (∃ out, amonomer M P [ρ] T x = .ok out) ∧ zx M P ρ T x < 1 ∧
      1 < moment M ρ (cmol2seg P.g x) (xskl P.g x) (dkl P T) 3 := by
  have hp := Real.pi_pos
  have hC := h.cmol_pos
  have hw := (c17_xskl P.g x h.x0 h.ν h.V h.S hC.ne').2.1
  have hS : 0 < ∑ k, ∑ l, xskl P.g x k l * dkl P T k l ^ 3 :=
    c18_pos P.g x h.x0 h.ν h.V h.S hC.ne' _ fun k l => h.dkl_pos k l
  have hn : ∀ k l, 0 ≤ xskl P.g x k l * (3 / 8 * (dk P T k + dk P T l) * (dk P T k - dk P T l) ^ 2) := fun k l =>
    mul_nonneg (hw k l) (by have := h.dk_pos k; have := h.dk_pos l; positivity)
  have hD : 0 < ∑ k, ∑ l, xskl P.g x k l * (3 / 8 * (dk P T k + dk P T l) * (dk P T k - dk P T l) ^ 2) := by
    refine Finset.sum_pos' (fun k _ => Finset.sum_nonneg fun l _ => hn k l) ⟨k, Finset.mem_univ k, ?_⟩
    refine Finset.sum_pos' (fun l _ => hn k l) ⟨l, Finset.mem_univ l, ?_⟩
    have := h.dk_pos k; have := h.dk_pos l
    have : 0 < (dk P T k - dk P T l) ^ 2 := by have := sub_ne_zero.mpr hd; positivity
    exact mul_pos (mul_pos hk hl) (by positivity)
  have hcs := cube_sums h
  set S := ∑ k, ∑ l, xskl P.g x k l * dkl P T k l ^ 3 with hSdef
  set D := ∑ k, ∑ l, xskl P.g x k l * (3 / 8 * (dk P T k + dk P T l) * (dk P T k - dk P T l) ^ 2) with hDdef
  have hK : 0 < M * cmol2seg P.g x * (Real.pi / 6) := by positivity
  set ρ := 1 / (M * cmol2seg P.g x * (Real.pi / 6) * (S + D / 2)) with hρ
  have hρ0 : 0 < ρ := by positivity
  have hz : zx M P ρ T x < 1 := by
    rw [zx_eq, ← hSdef, hρ, one_div_mul_eq_div, div_lt_one (by positivity)]
    exact mul_lt_mul_of_pos_left (by linarith) hK
  refine ⟨ρ, hρ0, ?_, hz, ?_⟩
  · rw [c120_single, if_neg]
    · exact ⟨_, rfl⟩
    · rw [c120_guard_packing M ρ T P x hM h hS]
      intro hc
      rcases hc with hc | hc <;> linarith
  · rw [mie_moment M ρ h 3, hcs, hρ, one_div_mul_eq_div, one_lt_div (by positivity)]
    exact mul_lt_mul_of_pos_left (by linarith) hK

/-- **C154** violated: the hard-sphere energy of a molecule with groups of different diameters falls when it is compressed from
one density the guard accepts to another. -/
theorem c154_violated_falls (M T : ℝ) (P : Mie 1 m) (x : Fin 1 → ℝ) (hM : 0 < M) (h : Phys P T x) (k l : Fin m)
    (hk : 0 < xsk P.g x k) (hl : 0 < xsk P.g x l) (hd : dk P T k ≠ dk P T l) :
    ∃ ρ₁ ρ₂, 0 < ρ₁ ∧ ρ₁ < ρ₂ ∧ (∃ out, amonomer M P [ρ₁] T x = .ok out) ∧ (∃ out, amonomer M P [ρ₂] T x = .ok out) ∧
      ahs M P ρ₂ T x < ahs M P ρ₁ T x := by
  have hS : 0 < ∑ k, ∑ l, xskl P.g x k l * dkl P T k l ^ 3 :=
    c18_pos P.g x h.x0 h.ν h.V h.S h.cmol_pos.ne' _ fun k l => h.dkl_pos k l
  obtain ⟨ρ₂, h2, hok, hz, hm⟩ := c154_violated_packing M T P x hM h k l hk hl hd
  obtain ⟨hiff, -, -, htop⟩ := c154_mie_partial M T P x hM h
  have hpos : 0 < 1 / moment M 1 (cmol2seg P.g x) (xskl P.g x) (dkl P T) 3 := by
    refine (hiff 0).1 ?_
    simp [moment]
  have hlt : 1 / moment M 1 (cmol2seg P.g x) (xskl P.g x) (dkl P T) 3 ≤ ρ₂ := by
    by_contra hn
    exact absurd ((hiff ρ₂).2 (not_le.mp hn)) (not_lt.mpr hm.le)
  obtain ⟨ρ₁, hb, hI⟩ := ((htop.eventually_gt_atTop (ahs M P ρ₂ T x)).and (Ioo_mem_nhdsLT hpos)).exists
  have h3 := (hiff ρ₁).2 hI.2
  have hz1 := (c154_packings M ρ₁ T P x hM hI.1.le h).1
  refine ⟨ρ₁, ρ₂, hI.1, hI.2.trans_le hlt, ?_, hok, hb⟩
  rw [c120_single, if_neg]
  · exact ⟨_, rfl⟩
  · rw [c120_guard_packing M ρ₁ T P x hM h hS]
    intro hc
    rcases hc with hc | hc
    · linarith
    · linarith [hI.1]

/-- The diatomic molecule with one group twice as large as the other is such a molecule. -/
example : Phys dimer 300 (fun _ => 1) ∧ 0 < xsk dimer.g (fun _ => 1) 0 ∧ 0 < xsk dimer.g (fun _ => 1) 1 ∧
    dk dimer 300 0 ≠ dk dimer 300 1 := by
  have hC : cmol2seg dimer.g (fun _ => 1) = 2 := by simp [cmol2seg, dimer]
  refine ⟨dimer_phys, ?_, ?_, ?_⟩
  · unfold xsk; rw [hC]; simp [dimer]
  · unfold xsk; rw [hC]; simp [dimer]
  · have h2 : dk dimer 300 1 = 2 * dk dimer 300 0 := by
      have := c60_diameter_scale 100 1 300 12 6 2 two_ne_zero
      rw [mul_one] at this
      exact this
    have := dimer_phys.dk_pos 0
    rw [h2]
    intro e
    linarith

end Mie

/-- **C154** (square well): the same of the square-well variant. -/
theorem c154_sw_partial (M T : ℝ) (P : SWTerms.SWell n m) (x : Fin n → ℝ) (hM : 0 < M) (h : PhysSW P T x) :
    let top := 1 / SWTerms.zeta M P 1 x 3
    (∀ ρ, SWTerms.zeta M P ρ x 3 < 1 ↔ ρ < top) ∧
    (∀ ρ ∈ Set.Ioo 0 top, 0 < SWTerms.ahs M P ρ x) ∧
    StrictMonoOn (fun ρ => SWTerms.ahs M P ρ x) (Set.Ioo 0 top) ∧
    Tendsto (fun ρ => SWTerms.ahs M P ρ x) (𝓝[<] top) atTop := by
  intro top
  have hp := Real.pi_pos
  have hC := h.cmol_pos
  have hpos : ∀ q, 0 < SWTerms.zeta M P 1 x q := fun q => by
    rw [h.mom]
    obtain ⟨k, hk⟩ : ∃ k, 0 < xsk P.g x k := by
      by_contra hn
      push Not at hn
      have : ∑ k, xsk P.g x k ≤ 0 := Finset.sum_nonpos fun k _ => hn k
      rw [h.xsk_sum] at this
      linarith
    have hS : 0 < ∑ k, xsk P.g x k * P.σ k k ^ q :=
      Finset.sum_pos' (fun k _ => mul_nonneg (h.xsk_nonneg k) (pow_nonneg (h.σ k).le q))
        ⟨k, Finset.mem_univ k, mul_pos hk (pow_pos (h.σ k) q)⟩
    positivity
  have he : ∀ ρ, SWTerms.ahs M P ρ x = aHSmie false M ρ (fun q => ρ * SWTerms.zeta M P 1 x q) := fun ρ => by
    unfold SWTerms.ahs aHSsw
    rw [show SWTerms.zeta M P ρ x = fun q => ρ * SWTerms.zeta M P 1 x q from funext fun q => moment_lin _ _ _ _ _ q]
  refine ⟨fun ρ => ?_, ?_⟩
  · rw [show SWTerms.zeta M P ρ x 3 = ρ * SWTerms.zeta M P 1 x 3 from moment_lin _ _ _ _ _ 3]
    exact (lt_div_iff₀ (hpos 3)).symm
  · simp only [he]
    exact c154_formula false M _ hM (hpos 0).le (hpos 1).le (hpos 2) (hpos 3)

/-- A square-well molecule of two groups. -/
example (M : ℝ) (hM : 0 < M) : 0 < 1 / SWTerms.zeta M swDimer 1 (fun _ => 1) 3 :=
  one_div_pos.mpr (swDimer_phys.mom3_pos M hM)

end Verif.Props
