import Verif.Model.SaftToolbox
import Mathlib.Algebra.BigOperators.Field
import Mathlib.Tactic.Linarith
import Mathlib.Tactic.Ring
import Mathlib.Tactic.FieldSimp
import Mathlib.Tactic.Positivity

/-!
# C17, C18, C20, C56: segment fractions, packing fractions and the hard-sphere reference
-/

namespace Verif.Props
open Verif.Saft

variable {n m : ℕ}

/-! ## C17 -/

/-- **C17** (non-negative). -/
theorem c17_xsk_nonneg (g : Groups n m) (x : Fin n → ℝ) (hx : ∀ i, 0 ≤ x i) (hν : ∀ i k, 0 ≤ g.ν i k)
    (hV : ∀ k, 0 ≤ g.V k) (hS : ∀ k, 0 ≤ g.S k) (k : Fin m) : 0 ≤ xsk g x k := by
  unfold xsk cmol2seg
  apply div_nonneg
  · exact mul_nonneg (mul_nonneg (Finset.sum_nonneg fun i _ => mul_nonneg (hx i) (hν i k)) (hV k)) (hS k)
  · exact Finset.sum_nonneg fun i _ => Finset.sum_nonneg fun j _ =>
      mul_nonneg (mul_nonneg (mul_nonneg (hx i) (hν i j)) (hV j)) (hS j)

/-- **C17** (sum to one).  No sign condition is needed: it is enough that the segment total is not
zero. -/
theorem c17_xsk_sum_one (g : Groups n m) (x : Fin n → ℝ) (hC : cmol2seg g x ≠ 0) :
    ∑ k, xsk g x k = 1 := by
  unfold xsk
  rw [← Finset.sum_div, div_eq_one_iff_eq hC]
  unfold cmol2seg
  rw [Finset.sum_comm]
  refine Finset.sum_congr rfl fun k _ => ?_
  rw [Finset.sum_mul, Finset.sum_mul]

/-- **C17** (each segment fraction is at most one). -/
theorem c17_xsk_le_one (g : Groups n m) (x : Fin n → ℝ) (hx : ∀ i, 0 ≤ x i) (hν : ∀ i k, 0 ≤ g.ν i k)
    (hV : ∀ k, 0 ≤ g.V k) (hS : ∀ k, 0 ≤ g.S k) (hC : cmol2seg g x ≠ 0) (k : Fin m) :
    xsk g x k ≤ 1 := by
  rw [← c17_xsk_sum_one g x hC]
  exact Finset.single_le_sum (fun i _ => c17_xsk_nonneg g x hx hν hV hS i) (Finset.mem_univ k)

/-- **C17** (the pair matrix is symmetric, non-negative and sums to one). -/
theorem c17_xskl (g : Groups n m) (x : Fin n → ℝ) (hx : ∀ i, 0 ≤ x i) (hν : ∀ i k, 0 ≤ g.ν i k)
    (hV : ∀ k, 0 ≤ g.V k) (hS : ∀ k, 0 ≤ g.S k) (hC : cmol2seg g x ≠ 0) :
    (∀ k l, xskl g x k l = xskl g x l k) ∧ (∀ k l, 0 ≤ xskl g x k l) ∧
      ∑ k, ∑ l, xskl g x k l = 1 := by
  refine ⟨fun k l => mul_comm _ _, fun k l => mul_nonneg (c17_xsk_nonneg g x hx hν hV hS k)
    (c17_xsk_nonneg g x hx hν hV hS l), ?_⟩
  have h : ∀ k, ∑ l, xskl g x k l = xsk g x k := by
    intro k
    unfold xskl
    rw [← Finset.mul_sum, c17_xsk_sum_one g x hC, mul_one]
  rw [Finset.sum_congr rfl fun k _ => h k, c17_xsk_sum_one g x hC]

/-- **C17** (marginals): every row of the pair matrix sums to the segment fraction, so the fractions
can be read back from the matrix, as `Ahard_sphere` does through the diagonal. -/
theorem c17_sqrt_diag (g : Groups n m) (x : Fin n → ℝ) (hx : ∀ i, 0 ≤ x i) (hν : ∀ i k, 0 ≤ g.ν i k)
    (hV : ∀ k, 0 ≤ g.V k) (hS : ∀ k, 0 ≤ g.S k) (k : Fin m) : √(xskl g x k k) = xsk g x k :=
  Real.sqrt_mul_self (c17_xsk_nonneg g x hx hν hV hS k)

/-- **C17** (linear in composition). -/
theorem c17_cmol2seg_linear (g : Groups n m) (x y : Fin n → ℝ) (a b : ℝ) :
    cmol2seg g (fun i => a * x i + b * y i) = a * cmol2seg g x + b * cmol2seg g y := by
  unfold cmol2seg
  rw [Finset.mul_sum, Finset.mul_sum, ← Finset.sum_add_distrib]
  refine Finset.sum_congr rfl fun i _ => ?_
  rw [Finset.mul_sum, Finset.mul_sum, ← Finset.sum_add_distrib]
  exact Finset.sum_congr rfl fun j _ => by ring

/-- **C17** (scaling all mole fractions leaves the segment fractions unchanged). -/
theorem c17_xsk_scale (g : Groups n m) (x : Fin n → ℝ) (t : ℝ) (ht : t ≠ 0) (k : Fin m) :
    xsk g (fun i => t * x i) k = xsk g x k := by
  have h : cmol2seg g (fun i => t * x i) = t * cmol2seg g x := by
    have := c17_cmol2seg_linear g x x t 0
    simpa using this
  have h2 : (∑ i, t * x i * g.ν i k) = t * ∑ i, x i * g.ν i k := by
    rw [Finset.mul_sum]
    exact Finset.sum_congr rfl fun i _ => by ring
  unfold xsk
  rw [h, h2, mul_assoc t, mul_assoc t, mul_div_mul_left _ _ ht]

/-- **C17** (value): the fraction of group `k` times the conversion factor is the number of segments
of that group per molecule, shape factor included. -/
theorem c17_xsk_count (g : Groups n m) (x : Fin n → ℝ) (hC : cmol2seg g x ≠ 0) (k : Fin m) :
    xsk g x k * cmol2seg g x = ∑ i, x i * (g.ν i k * (g.V k * g.S k)) := by
  unfold xsk
  rw [div_mul_cancel₀ _ hC, Finset.sum_mul, Finset.sum_mul]
  exact Finset.sum_congr rfl fun i _ => by ring

/-- A two-component, two-group system: ethanol-like `CH3-CH2` chains of different lengths. -/
noncomputable def c17_example : Groups 2 2 := ⟨![![2, 1], ![0, 3]], ![1, 2], ![1 / 2, 1]⟩

example : cmol2seg c17_example ![1 / 4, 3 / 4] = 21 / 4 ∧ cmol2seg c17_example ![1 / 4, 3 / 4] ≠ 0 := by
  have h : cmol2seg c17_example ![1 / 4, 3 / 4] = 21 / 4 := by
    simp [cmol2seg, c17_example, Fin.sum_univ_two]; norm_num
  exact ⟨h, by rw [h]; norm_num⟩

example : (∀ i, (0 : ℝ) ≤ ![1 / 4, 3 / 4] i) ∧ (∀ i k, 0 ≤ c17_example.ν i k) ∧
    (∀ k, 0 ≤ c17_example.V k) ∧ (∀ k, 0 ≤ c17_example.S k) := by
  refine ⟨?_, ?_, ?_, ?_⟩ <;> (simp [Fin.forall_fin_two, c17_example]; try norm_num)

/-! ## C18 -/

/-- **C18** (the packing fraction is linear in density). -/
theorem c18_zetax_linear (M C : ℝ) (w d : Fin m → Fin m → ℝ) (a b ρ ρ' : ℝ) :
    zetax M (a * ρ + b * ρ') C w d = a * zetax M ρ C w d + b * zetax M ρ' C w d := by
  unfold zetax; ring

private theorem zetax_eq (M ρ C : ℝ) (w d : Fin m → Fin m → ℝ) :
    zetax M ρ C w d = ρ * M * (C * Real.pi * ∑ k, ∑ l, w k l * d k l ^ 3) / 6 := by
  unfold zetax
  have : (∑ k, ∑ l, w k l * (d k l ^ 3 * M)) = (∑ k, ∑ l, w k l * d k l ^ 3) * M := by
    rw [Finset.sum_mul]
    refine Finset.sum_congr rfl fun k _ => ?_
    rw [Finset.sum_mul]
    exact Finset.sum_congr rfl fun l _ => by ring
  rw [this]; ring

/-- **C18** (exact): at the reported maximum density the packing fraction is the requested one. -/
theorem c18_at_density_max (M C : ℝ) (w d : Fin m → Fin m → ℝ) (maxpack : ℝ) (hM : M ≠ 0) (hC : C ≠ 0)
    (hd : ∑ k, ∑ l, w k l * d k l ^ 3 ≠ 0) :
    zetax M (densityMax M C w d maxpack) C w d = maxpack := by
  rw [zetax_eq]
  unfold densityMax
  have hp := Real.pi_ne_zero
  generalize (∑ k, ∑ l, w k l * d k l ^ 3) = s at hd
  field_simp

/-- **C18** (below, the packing fraction is smaller): the packing fraction is strictly increasing in
density, so densities below (above) the reported maximum are exactly those packed less (more). -/
theorem c18_lt_iff (M C : ℝ) (w d : Fin m → Fin m → ℝ) (maxpack ρ : ℝ) (hM : 0 < M) (hC : 0 < C)
    (hd : 0 < ∑ k, ∑ l, w k l * d k l ^ 3) :
    zetax M ρ C w d < maxpack ↔ ρ < densityMax M C w d maxpack := by
  have h := c18_at_density_max M C w d maxpack hM.ne' hC.ne' hd.ne'
  rw [zetax_eq] at h ⊢
  have hp := Real.pi_pos
  have hc : 0 < M * (C * Real.pi * ∑ k, ∑ l, w k l * d k l ^ 3) / 6 := by positivity
  rw [mul_assoc, mul_div_assoc] at h ⊢
  constructor
  · intro h1
    by_contra h2
    have := mul_le_mul_of_nonneg_right (not_lt.mp h2) hc.le
    linarith
  · intro h1
    have := mul_lt_mul_of_pos_right h1 hc
    linarith

/-- **C18** (what it excludes): `Amonomer` (gamma_mie.py:683-689) compares densities with the maximum
at `maxpack = 1`; a density below that has packing fraction below one, so that the logarithm and the
powers of `1 - ζ` in the model are those of a positive number. -/
theorem c18_packing_lt_one (M C : ℝ) (w d : Fin m → Fin m → ℝ) (ρ : ℝ) (hM : 0 < M) (hC : 0 < C)
    (hd : 0 < ∑ k, ∑ l, w k l * d k l ^ 3) (hρ : ρ < densityMax M C w d 1) :
    0 < 1 - zetax M ρ C w d := by
  have := (c18_lt_iff M C w d 1 ρ hM hC hd).mpr hρ
  linarith

/-- The hypotheses hold for the pair fractions of a real mixture with positive diameters. -/
theorem c18_pos (g : Groups n m) (x : Fin n → ℝ) (hx : ∀ i, 0 ≤ x i) (hν : ∀ i k, 0 ≤ g.ν i k)
    (hV : ∀ k, 0 ≤ g.V k) (hS : ∀ k, 0 ≤ g.S k) (hC : cmol2seg g x ≠ 0) (d : Fin m → Fin m → ℝ)
    (hd : ∀ k l, 0 < d k l) : 0 < ∑ k, ∑ l, xskl g x k l * d k l ^ 3 := by
  obtain ⟨-, h0, h1⟩ := c17_xskl g x hx hν hV hS hC
  by_contra hneg
  have hnn : ∀ k l, 0 ≤ xskl g x k l * d k l ^ 3 := fun k l => mul_nonneg (h0 k l) (pow_pos (hd k l) 3).le
  have hz : ∑ k, ∑ l, xskl g x k l * d k l ^ 3 = 0 :=
    le_antisymm (not_lt.mp hneg) (Finset.sum_nonneg fun k _ => Finset.sum_nonneg fun l _ => hnn k l)
  rw [Finset.sum_eq_zero_iff_of_nonneg fun k _ => Finset.sum_nonneg fun l _ => hnn k l] at hz
  have hw : ∀ k l, xskl g x k l = 0 := by
    intro k l
    have := hz k (Finset.mem_univ k)
    rw [Finset.sum_eq_zero_iff_of_nonneg fun l _ => hnn k l] at this
    have := this l (Finset.mem_univ l)
    exact (mul_eq_zero.mp this).resolve_right (pow_pos (hd k l) 3).ne'
  simp [hw] at h1

example : 0 < ∑ k, ∑ l, (fun _ _ => 1 / 4 : Fin 2 → Fin 2 → ℝ) k l * (dklOf ![1, 2] k l) ^ 3 := by
  simp [Fin.sum_univ_two, dklOf]; norm_num

/-! ## C57: the square-well maximum density

In the square-well variant the packing fraction is the third moment of the *diagonal* diameters
(`reduced_density(...)[:, 3]`) but the maximum density uses the full matrix of pair diameters. -/

/-- **C57** violated: for an equimolar mixture of two spheres of diameter 1 and 2 with the default
mean diameter, the packing fraction at the density reported for packing 13/20 is 26/35, not 13/20. -/
theorem c57_violated_sw_density_max :
    let g : Groups 2 2 := ⟨![![1, 0], ![0, 1]], fun _ => 1, fun _ => 1⟩
    let x : Fin 2 → ℝ := fun _ => 1 / 2
    let σ := dklOf ![1, 2]
    moment 1 (densityMax 1 (cmol2seg g x) (xskl g x) σ (13 / 20)) (cmol2seg g x) (xskl g x) σ 3
      = 26 / 35 := by
  intro g x σ
  have hC : cmol2seg g x = 1 := by simp [g, x, cmol2seg, Fin.sum_univ_two]; norm_num
  have hx : ∀ k l, xskl g x k l = 1 / 4 := by
    intro k l
    simp only [xskl, xsk, hC]
    fin_cases k <;> fin_cases l <;> simp [g, x] <;> norm_num
  have hs : √(1 / 4 : ℝ) = 1 / 2 := by
    rw [show (1 / 4 : ℝ) = (1 / 2) * (1 / 2) by norm_num]; exact Real.sqrt_mul_self (by norm_num)
  simp only [moment, densityMax, hC, hx, hs, Fin.sum_univ_two, σ, dklOf]
  have hp := Real.pi_ne_zero
  simp
  field_simp
  norm_num

/-! ## C20 -/

private theorem khs_den_pos (z : ℝ) : 0 < 1 + 4 * z + 4 * z ^ 2 - 4 * z ^ 3 + z ^ 4 := by
  have h : 1 + 4 * z + 4 * z ^ 2 - 4 * z ^ 3 + z ^ 4 = (1 + 2 * z - z ^ 2) ^ 2 + 2 * z ^ 2 := by ring
  rw [h]
  rcases eq_or_ne z 0 with rfl | hz
  · norm_num
  · positivity

/-- **C20** (positive). -/
theorem c20_pos (z : ℝ) (h1 : z < 1) : 0 < khs z :=
  div_pos (pow_pos (by linarith) 4) (khs_den_pos z)

/-- **C20** (strictly decreasing in packing). -/
theorem c20_strictAnti (a b : ℝ) (ha : 0 ≤ a) (hab : a < b) (hb : b < 1) : khs b < khs a := by
  unfold khs
  have hnum : (1 - b) ^ 4 < (1 - a) ^ 4 := pow_lt_pow_left₀ (by linarith) (by linarith) (by norm_num)
  have hden : 1 + 4 * a + 4 * a ^ 2 - 4 * a ^ 3 + a ^ 4 ≤ 1 + 4 * b + 4 * b ^ 2 - 4 * b ^ 3 + b ^ 4 := by
    have h : 1 + 4 * b + 4 * b ^ 2 - 4 * b ^ 3 + b ^ 4 - (1 + 4 * a + 4 * a ^ 2 - 4 * a ^ 3 + a ^ 4)
        = (b - a) * (4 * a * (1 - a) + 4 * b * (1 - b) + 4 * (1 - a * b) + (a + b) * (a ^ 2 + b ^ 2)) := by
      ring
    have hab1 : a * b ≤ 1 := by nlinarith
    have h2 : 0 ≤ (b - a) * (4 * a * (1 - a) + 4 * b * (1 - b) + 4 * (1 - a * b) + (a + b) * (a ^ 2 + b ^ 2)) := by
      apply mul_nonneg (by linarith)
      have : 0 ≤ 4 * a * (1 - a) := mul_nonneg (by linarith) (by linarith)
      have : 0 ≤ 4 * b * (1 - b) := mul_nonneg (by linarith) (by linarith)
      have : 0 ≤ (a + b) * (a ^ 2 + b ^ 2) := mul_nonneg (by linarith) (by positivity)
      linarith
    linarith
  exact div_lt_div₀ hnum hden (pow_nonneg (by linarith) 4) (khs_den_pos a)

/-- **C20** (one exactly at zero packing). -/
theorem c20_zero : khs 0 = 1 := by simp [khs]

/-- **C20** (at most one, with equality exactly at zero packing). -/
theorem c20_le_one (z : ℝ) (h0 : 0 ≤ z) (h1 : z < 1) : khs z ≤ 1 ∧ (khs z = 1 ↔ z = 0) := by
  rcases eq_or_lt_of_le h0 with rfl | h
  · exact ⟨c20_zero.le, by simp [c20_zero]⟩
  · have := c20_strictAnti 0 z le_rfl h h1
    rw [c20_zero] at this
    exact ⟨this.le, ⟨fun e => absurd e this.ne, fun e => absurd e h.ne'⟩⟩

example : khs (1 / 2) = 1 / 57 := by norm_num [khs]

/-! ## C56: a substance split into two identical components

The mixture of two copies of one substance is that substance.  The square-well hard-sphere energy has
this property; the Mie one drops a term when there is exactly one component. -/

/-- The same substance entered twice. -/
def twice (g : Groups 1 m) : Groups 2 m := ⟨fun _ => g.ν 0, g.V, g.S⟩

private theorem split_cmol (g : Groups 1 m) (t : ℝ) :
    cmol2seg (twice g) ![t, 1 - t] = cmol2seg g ![1] := by
  simp only [cmol2seg, twice, Fin.sum_univ_two, Fin.sum_univ_one, Matrix.cons_val_zero,
    Matrix.cons_val_one]
  rw [← Finset.sum_add_distrib]
  exact Finset.sum_congr rfl fun j _ => by simp; ring

private theorem split_xskl (g : Groups 1 m) (t : ℝ) :
    xskl (twice g) ![t, 1 - t] = xskl g ![1] := by
  have h : ∀ k, xsk (twice g) ![t, 1 - t] k = xsk g ![1] k := by
    intro k
    unfold xsk
    rw [split_cmol]
    have h : (∑ i, ![t, 1 - t] i * (twice g).ν i k) = ∑ i, ![1] i * g.ν i k := by
      simp [twice, Fin.sum_univ_two]; ring
    rw [h]; rfl
  funext k l
  unfold xskl
  rw [h, h]

/-- **C56** for the square-well variant: splitting a substance in two changes nothing, for every
proportion. -/
theorem c56_sw_split (M ρ t : ℝ) (g : Groups 1 m) (d : Fin m → Fin m → ℝ) :
    aHSsw M ρ (moment M ρ (cmol2seg (twice g) ![t, 1 - t]) (xskl (twice g) ![t, 1 - t]) d)
      = aHSsw M ρ (moment M ρ (cmol2seg g ![1]) (xskl g ![1]) d) := by
  rw [split_cmol, split_xskl]

/-- **C56** for the Mie variant, exact discrepancy: what splitting a substance in two adds to the
hard-sphere energy. -/
theorem c56_mie_split_difference (M ρ t : ℝ) (g : Groups 1 m) (d : Fin m → ℝ) :
    mieHardSphere M ρ (twice g) ![t, 1 - t] d - mieHardSphere M ρ g ![1] d
      = 6 / (Real.pi * ρ * M) *
        (Real.log (1 - moment M ρ (cmol2seg g ![1]) (xskl g ![1]) (dklOf d) 3) *
          (moment M ρ (cmol2seg g ![1]) (xskl g ![1]) (dklOf d) 2 ^ 3
            / moment M ρ (cmol2seg g ![1]) (xskl g ![1]) (dklOf d) 3 ^ 2
            - moment M ρ (cmol2seg g ![1]) (xskl g ![1]) (dklOf d) 0)) := by
  simp only [mieHardSphere, aHSmie, split_cmol, split_xskl]
  simp
  ring

/-- **C56** for the Mie variant, the part that holds: when all groups of the substance have the same
diameter, splitting it in two changes nothing. -/
theorem c56_mie_split_partial (M ρ t : ℝ) (g : Groups 1 m) (d₀ : ℝ) (hd : d₀ ≠ 0) :
    mieHardSphere M ρ (twice g) ![t, 1 - t] (fun _ => d₀) = mieHardSphere M ρ g ![1] (fun _ => d₀) := by
  have h := c56_mie_split_difference M ρ t g (fun _ => d₀)
  have hm : ∀ q, moment M ρ (cmol2seg g ![1]) (xskl g ![1]) (dklOf fun _ => d₀) q
      = moment M ρ (cmol2seg g ![1]) (xskl g ![1]) (dklOf fun _ => d₀) 0 * d₀ ^ q := by
    intro q
    simp only [moment, dklOf, pow_zero, mul_one, ← Finset.sum_mul]
    rw [show (d₀ + d₀) / 2 = d₀ by ring]
    ring
  rw [hm 3, hm 2] at h
  generalize moment M ρ (cmol2seg g ![1]) (xskl g ![1]) (dklOf fun _ => d₀) 0 = e at h
  have h0 : (e * d₀ ^ 2) ^ 3 / (e * d₀ ^ 3) ^ 2 - e = 0 := by
    rcases eq_or_ne e 0 with rfl | he
    · simp
    · field_simp; ring
  rw [h0, mul_zero, mul_zero] at h
  linarith

/-- **C56** violated for the Mie variant: a molecule made of two groups with diameters 1 and 2, at
packing fraction one half, changes its hard-sphere energy when it is entered as two components. -/
theorem c56_violated_mie_split :
    let g : Groups 1 2 := ⟨fun _ _ => 1, fun _ => 1, fun _ => 1⟩
    mieHardSphere 1 (1 / (3 * Real.pi)) (twice g) ![1 / 2, 1 - 1 / 2] ![1, 2]
      ≠ mieHardSphere 1 (1 / (3 * Real.pi)) g ![1] ![1, 2] := by
  intro g hcon
  have h := c56_mie_split_difference 1 (1 / (3 * Real.pi)) (1 / 2) g ![1, 2]
  rw [hcon, sub_self] at h
  have hC : cmol2seg g ![1] = 2 := by simp [g, cmol2seg]
  have hx : ∀ k l, xskl g ![1] k l = 1 / 4 := by
    intro k l
    simp only [xskl, xsk, hC]
    simp [g]; norm_num
  have hs : √(1 / 4 : ℝ) = 1 / 2 := by
    rw [show (1 / 4 : ℝ) = (1 / 2) * (1 / 2) by norm_num]; exact Real.sqrt_mul_self (by norm_num)
  have hp := Real.pi_ne_zero
  have hm : ∀ q, moment 1 (1 / (3 * Real.pi)) (cmol2seg g ![1]) (xskl g ![1]) (dklOf ![1, 2]) q
      = (1 + 2 ^ q) / 18 := by
    intro q
    simp only [moment, hC, hx, hs, Fin.sum_univ_two, dklOf]
    simp
    field_simp
    ring
  simp only [hm] at h
  have hl : Real.log (1 - (1 + 2 ^ 3) / 18 : ℝ) ≠ 0 := by
    apply Real.log_ne_zero_of_pos_of_ne_one <;> norm_num
  have : (6 / (Real.pi * (1 / (3 * Real.pi)) * 1) : ℝ) = 18 := by field_simp; norm_num
  rw [this] at h
  have h2 := h.symm
  rw [mul_eq_zero, mul_eq_zero] at h2
  rcases h2 with h2 | h2 | h2
  · norm_num at h2
  · exact hl h2
  · norm_num at h2

end Verif.Props
