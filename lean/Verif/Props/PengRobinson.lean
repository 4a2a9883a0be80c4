import Verif.Model.PengRobinson
import Mathlib.Analysis.SpecialFunctions.Log.Deriv
import Mathlib.Analysis.Calculus.Deriv.Inv
import Mathlib.MeasureTheory.Integral.IntervalIntegral.FundThmCalculus
import Mathlib.Algebra.BigOperators.Group.Finset.Sigma
import Mathlib.Tactic.FieldSimp
import Mathlib.Tactic.LinearCombination
import Mathlib.Tactic.Positivity
import Mathlib.Tactic.NormNum
import Mathlib.Tactic.Linarith

/-! # C14, C15, C16: Peng-Robinson pressure, fugacity and mixing -/

namespace Verif.Props
open Verif Verif.PengRobinson Filter Topology

variable {n : ℕ}

/-! ## C14 -/

/-- The second denominator of the pressure, in terms of the packing `u = bρ`. -/
theorem c14_den_pos (u : ℝ) (h0 : 0 ≤ u) (h1 : u < 1) : 0 < (1 + u) + u * (1 - u) := by nlinarith

/-- **C14.** At every density from 0 to the reported maximum density both denominators are positive. -/
theorem c14_denominators (p : Par n) (x : Fin n → ℝ) (maxpack ρ : ℝ) (hb : 0 < bmix p x)
    (hm : maxpack < 1) (h0 : 0 ≤ ρ) (h1 : ρ ≤ densityMax p x maxpack) :
    0 < 1 - bmix p x * ρ ∧
      0 < (1 + bmix p x * ρ) + ρ * bmix p x * (1 - bmix p x * ρ) := by
  have hu : bmix p x * ρ ≤ maxpack := by
    unfold densityMax at h1
    rw [le_div_iff₀ hb] at h1
    linarith
  have hu1 : bmix p x * ρ < 1 := lt_of_le_of_lt hu hm
  refine ⟨by linarith, ?_⟩
  have := c14_den_pos (bmix p x * ρ) (by positivity) hu1
  rw [mul_comm ρ (bmix p x)]
  exact this

/-- **C14.** The packing at the reported maximum density is the requested one. -/
theorem c14_densityMax (p : Par n) (x : Fin n → ℝ) (maxpack : ℝ) (hb : 0 < bmix p x) :
    bmix p x * densityMax p x maxpack = maxpack := by
  unfold densityMax; field_simp

/-- **C14.** The pressure is that of an ideal gas at low density: `P/ρ → R T`. -/
theorem c14_ideal_limit (R T a b : ℝ) :
    Tendsto (fun ρ => pressureAB R T a b ρ / ρ) (𝓝[≠] 0) (𝓝 (R * T)) := by
  have h1 : ContinuousAt (fun ρ : ℝ => R * T / (1 - b * ρ) -
      ρ * a / ((1 + b * ρ) + ρ * b * (1 - b * ρ))) 0 := by
    apply ContinuousAt.sub
    · apply ContinuousAt.div
      · fun_prop
      · fun_prop
      · norm_num
    · apply ContinuousAt.div
      · fun_prop
      · fun_prop
      · norm_num
  have h2 := h1.tendsto
  simp only [mul_zero, sub_zero, div_one, zero_mul, add_zero] at h2
  refine (h2.mono_left nhdsWithin_le_nhds).congr' ?_
  filter_upwards [self_mem_nhdsWithin] with ρ hρ
  have hρ : ρ ≠ 0 := hρ
  unfold pressureAB
  rw [sub_div]
  congr 1
  · rw [div_right_comm, mul_div_assoc (R * T) ρ ρ, div_self hρ, mul_one]
  · rw [div_right_comm, show ρ ^ 2 * a / ρ = ρ * a by field_simp]

/-- **C14.** With the code's pressure, `Z = P/(RTρ)` is a root of the Peng-Robinson cubic. -/
theorem c14_cubic (R T a b ρ : ℝ) (hRT : R * T ≠ 0) (hρ : ρ ≠ 0) (h1 : 1 - b * ρ ≠ 0)
    (h2 : (1 + b * ρ) + ρ * b * (1 - b * ρ) ≠ 0) :
    let P := pressureAB R T a b ρ
    let Z := P / (R * T * ρ)
    let A := a * P / (R * T) ^ 2
    let B := b * P / (R * T)
    Z ^ 3 - (1 - B) * Z ^ 2 + (A - 3 * B ^ 2 - 2 * B) * Z - (A * B - B ^ 2 - B ^ 3) = 0 := by
  intro P Z A B
  -- everything in terms of the packing and a reduced attraction
  have hR : R ≠ 0 := left_ne_zero_of_mul hRT
  have hT : T ≠ 0 := right_ne_zero_of_mul hRT
  have hA : A = (a * ρ / (R * T)) * Z := by
    simp only [A, Z]; field_simp
  have hB : B = (b * ρ) * Z := by
    simp only [B, Z]; field_simp
  have hZ : Z * ((1 - b * ρ) * ((1 + b * ρ) + ρ * b * (1 - b * ρ))) =
      ((1 + b * ρ) + ρ * b * (1 - b * ρ)) - (a * ρ / (R * T)) * (1 - b * ρ) := by
    have h1' : 1 - ρ * b ≠ 0 := by rw [mul_comm]; exact h1
    have h2' : 1 + ρ * b + ρ * b * (1 - ρ * b) ≠ 0 := by
      rw [mul_comm ρ b] at h2 ⊢; exact h2
    simp only [Z, P, pressureAB]; field_simp
  rw [hA, hB]
  linear_combination Z ^ 2 * hZ

/-- **C14.** Evaluated through the code's mixing rules. -/
theorem c14_mixture_cubic (R T : ℝ) (p : Par n) (x : Fin n → ℝ) (maxpack ρ : ℝ) (hRT : 0 < R * T)
    (hb : 0 < bmix p x) (hm : maxpack < 1) (h0 : 0 < ρ) (h1 : ρ ≤ densityMax p x maxpack) :
    let P := pressure R T p x ρ
    let Z := P / (R * T * ρ)
    let A := amix p x * P / (R * T) ^ 2
    let B := bmix p x * P / (R * T)
    Z ^ 3 - (1 - B) * Z ^ 2 + (A - 3 * B ^ 2 - 2 * B) * Z - (A * B - B ^ 2 - B ^ 3) = 0 := by
  obtain ⟨d1, d2⟩ := c14_denominators p x maxpack ρ hb hm h0.le h1
  exact c14_cubic R T (amix p x) (bmix p x) ρ hRT.ne' h0.ne' d1.ne' d2.ne'

/-! ## C16 -/

/-- Parameters in another order (or with repetitions). -/
def reindex {m : ℕ} (p : Par n) (f : Fin m → Fin n) : Par m where
  ai i := p.ai (f i)
  bi i := p.bi (f i)
  alpha i := p.alpha (f i)
  kij i j := p.kij (f i) (f j)

/-- **C16.** Listing components in any way — permuted, or with a component split into several
identical ones that interact with each other like the component with itself — leaves the mixture
parameters unchanged, as long as the fractions of the copies add up. -/
theorem c16_lumping {m : ℕ} (p : Par n) (f : Fin m → Fin n) (x : Fin n → ℝ) (y : Fin m → ℝ)
    (hy : ∀ i, x i = ∑ j with f j = i, y j) :
    amix (reindex p f) y = amix p x ∧ bmix (reindex p f) y = bmix p x := by
  have key : ∀ g : Fin n → ℝ, ∑ j, y j * g (f j) = ∑ i, x i * g i := by
    intro g
    rw [← Finset.sum_fiberwise (s := Finset.univ) (g := f)]
    refine Finset.sum_congr rfl fun i _ => ?_
    rw [hy i, Finset.sum_mul]
    refine Finset.sum_congr rfl fun j hj => ?_
    rw [(Finset.mem_filter.mp hj).2]
  constructor
  · unfold amix reindex
    simp only
    have h1 : ∀ i : Fin m, ∑ j, y i * y j * √(p.ai (f i) * p.alpha (f i) * p.ai (f j) *
        p.alpha (f j)) * (1 - p.kij (f i) (f j)) =
        y i * ∑ j, x j * (√(p.ai (f i) * p.alpha (f i) * p.ai j * p.alpha j) *
          (1 - p.kij (f i) j)) := by
      intro i
      rw [← key (fun j => √(p.ai (f i) * p.alpha (f i) * p.ai j * p.alpha j) *
          (1 - p.kij (f i) j)), Finset.mul_sum]
      exact Finset.sum_congr rfl fun j _ => by ring
    simp only [h1]
    rw [key (fun i => ∑ j, x j * (√(p.ai i * p.alpha i * p.ai j * p.alpha j) * (1 - p.kij i j)))]
    refine Finset.sum_congr rfl fun i _ => ?_
    rw [Finset.mul_sum]
    exact Finset.sum_congr rfl fun j _ => by ring
  · unfold bmix reindex
    exact key p.bi

/-- **C16, permutation.** -/
theorem c16_permutation (R T maxpack : ℝ) (p : Par n) (σ : Equiv.Perm (Fin n)) (x : Fin n → ℝ)
    (ρ : ℝ) :
    pressure R T (reindex p σ) (fun i => x (σ i)) ρ = pressure R T p x ρ ∧
      densityMax (reindex p σ) (fun i => x (σ i)) maxpack = densityMax p x maxpack := by
  have h := c16_lumping p σ x (fun i => x (σ i)) (by
    intro i
    have hs : (Finset.univ.filter fun j => σ j = i) = {σ.symm i} := by
      ext j
      simp only [Finset.mem_filter, Finset.mem_univ, true_and, Finset.mem_singleton]
      constructor
      · rintro rfl; simp
      · rintro rfl; simp
    rw [hs]; simp)
  unfold pressure densityMax
  rw [h.1, h.2]
  exact ⟨rfl, rfl⟩

/-- **C16, splitting.** A pure component described as two identical ones without interaction
coefficient has the same pressure and maximum density, whatever the split. -/
theorem c16_split_pure (R T maxpack ρ x₀ x₁ : ℝ) (p : Par 1) (hx : x₀ + x₁ = 1) :
    pressure R T (reindex p (fun _ : Fin 2 => 0)) ![x₀, x₁] ρ = pressure R T p (fun _ => 1) ρ ∧
      densityMax (reindex p (fun _ : Fin 2 => 0)) ![x₀, x₁] maxpack =
        densityMax p (fun _ => 1) maxpack := by
  have h := c16_lumping p (fun _ : Fin 2 => 0) (fun _ => 1) ![x₀, x₁] (by
    intro i
    have : i = 0 := Subsingleton.elim _ _
    subst this
    simp [Fin.sum_univ_two, hx])
  unfold pressure densityMax
  rw [h.1, h.2]
  exact ⟨rfl, rfl⟩

/-- **C16.** Fugacity coefficients follow their component when components are listed differently. -/
theorem c16_fugacity {m : ℕ} (R T P ρ : ℝ) (p : Par n) (f : Fin m → Fin n) (x : Fin n → ℝ)
    (y : Fin m → ℝ) (hy : ∀ i, x i = ∑ j with f j = i, y j) (i : Fin m) :
    lnPhi R T (reindex p f) y P ρ i = lnPhi R T p x P ρ (f i) := by
  obtain ⟨ha, hb⟩ := c16_lumping p f x y hy
  have key : ∀ g : Fin n → ℝ, ∑ j, y j * g (f j) = ∑ i, x i * g i := by
    intro g
    rw [← Finset.sum_fiberwise (s := Finset.univ) (g := f)]
    refine Finset.sum_congr rfl fun i _ => ?_
    rw [hy i, Finset.sum_mul]
    refine Finset.sum_congr rfl fun j hj => ?_
    rw [(Finset.mem_filter.mp hj).2]
  unfold lnPhi
  simp only [ha, hb]
  rw [show (∑ j, y j * (√((reindex p f).ai i * (reindex p f).alpha i * P / (R * T) ^ 2 *
      ((reindex p f).ai j * (reindex p f).alpha j * P / (R * T) ^ 2)) *
      (1 - (reindex p f).kij i j))) =
      ∑ j, x j * (√(p.ai (f i) * p.alpha (f i) * P / (R * T) ^ 2 *
        (p.ai j * p.alpha j * P / (R * T) ^ 2)) * (1 - p.kij (f i) j)) from
      key (fun j => √(p.ai (f i) * p.alpha (f i) * P / (R * T) ^ 2 *
        (p.ai j * p.alpha j * P / (R * T) ^ 2)) * (1 - p.kij (f i) j))]
  rfl

/-! ## C15 -/

/-- The residual Helmholtz energy of the mole numbers `N` in the volume `V`, divided by `RT`. -/
noncomputable def helmholtz (R T : ℝ) (p : Par n) (N : Fin n → ℝ) (V : ℝ) : ℝ :=
  -(∑ i, N i) * Real.log (1 - bmix p N / V) -
    amix p N / (2 * √2 * bmix p N * (R * T)) *
      Real.log ((1 + (1 + √2) * (bmix p N / V)) / (1 + (1 - √2) * (bmix p N / V)))

theorem c15_sqrt2_sq : √2 * √2 = (2 : ℝ) := Real.mul_self_sqrt (by norm_num)

theorem c15_sqrt2_bounds : 1 < √2 ∧ √2 < 2 := by
  constructor
  · rw [Real.lt_sqrt (by norm_num)]; norm_num
  · rw [Real.sqrt_lt' (by norm_num)]; norm_num

theorem c15_log_den_pos (u : ℝ) (h0 : 0 ≤ u) (h1 : u < 1) :
    0 < 1 + (1 + √2) * u ∧ 0 < 1 + (1 - √2) * u := by
  obtain ⟨h2, h3⟩ := c15_sqrt2_bounds
  constructor
  · positivity
  · nlinarith

/-- `∑ⱼ xⱼ aᵢⱼ` -/
noncomputable def arow (p : Par n) (x : Fin n → ℝ) (i : Fin n) : ℝ :=
  ∑ j, x j * (√(p.ai i * p.alpha i * p.ai j * p.alpha j) * (1 - p.kij i j))

/-- Closed form of the coded expression at the coded pressure, up to `log Z`. -/
theorem c15_lnPhi_closed (R T : ℝ) (p : Par n) (x : Fin n → ℝ) (ρ : ℝ) (i : Fin n)
    (hRT : 0 < R * T) (hρ : 0 < ρ) (hb : 0 < bmix p x) (hu : bmix p x * ρ < 1)
    (ha : amix p x ≠ 0) (hP : 0 < pressure R T p x ρ) :
    lnPhi R T p x (pressure R T p x ρ) ρ i +
        Real.log (pressure R T p x ρ / (R * T * ρ)) =
      p.bi i / bmix p x * (pressure R T p x ρ / (R * T * ρ) - 1) - Real.log (1 - bmix p x * ρ) +
        1 / (2 * √2 * bmix p x * (R * T)) * (amix p x * p.bi i / bmix p x - 2 * arow p x i) *
          Real.log ((1 + (1 + √2) * (bmix p x * ρ)) / (1 + (1 - √2) * (bmix p x * ρ))) := by
  generalize hPP : pressure R T p x ρ = P at *
  generalize hbb : bmix p x = b at *
  generalize haa : amix p x = a at *
  have hZ : 0 < P / (R * T * ρ) := by positivity
  have hd := c15_log_den_pos (b * ρ) (by positivity) hu
  have hs : 0 < √2 := by linarith [c15_sqrt2_bounds.1]
  unfold lnPhi
  simp only [hbb, haa]
  -- the sum
  have hsum : ∑ j, x j * (√(p.ai i * p.alpha i * P / (R * T) ^ 2 *
      (p.ai j * p.alpha j * P / (R * T) ^ 2)) * (1 - p.kij i j)) =
      P / (R * T) ^ 2 * arow p x i := by
    unfold arow
    rw [Finset.mul_sum]
    refine Finset.sum_congr rfl fun j _ => ?_
    have : p.ai i * p.alpha i * P / (R * T) ^ 2 * (p.ai j * p.alpha j * P / (R * T) ^ 2) =
        (P / (R * T) ^ 2) ^ 2 * (p.ai i * p.alpha i * p.ai j * p.alpha j) := by ring
    rw [this, Real.sqrt_mul (by positivity), Real.sqrt_sq (by positivity)]
    ring
  rw [hsum]
  -- the logarithms
  have hB : b * P / (R * T) = (b * ρ) * (P / (R * T * ρ)) := by field_simp
  have hl1 : Real.log (P / (R * T * ρ) - b * P / (R * T)) =
      Real.log (P / (R * T * ρ)) + Real.log (1 - b * ρ) := by
    rw [hB, ← Real.log_mul hZ.ne' (by linarith : 1 - b * ρ ≠ 0)]
    congr 1; ring
  have hl2 : (P / (R * T * ρ) + (1 + √2) * (b * P / (R * T))) /
      (P / (R * T * ρ) + (1 - √2) * (b * P / (R * T))) =
      (1 + (1 + √2) * (b * ρ)) / (1 + (1 - √2) * (b * ρ)) := by
    rw [hB]
    rw [show P / (R * T * ρ) + (1 + √2) * (b * ρ * (P / (R * T * ρ))) =
        (P / (R * T * ρ)) * (1 + (1 + √2) * (b * ρ)) by ring,
      show P / (R * T * ρ) + (1 - √2) * (b * ρ * (P / (R * T * ρ))) =
        (P / (R * T * ρ)) * (1 + (1 - √2) * (b * ρ)) by ring]
    exact mul_div_mul_left _ _ hZ.ne'
  rw [hl1, hl2]
  generalize Real.log ((1 + (1 + √2) * (b * ρ)) / (1 + (1 - √2) * (b * ρ))) = L
  generalize Real.log (1 - b * ρ) = L1
  have hR : R ≠ 0 := left_ne_zero_of_mul hRT.ne'
  have hT : T ≠ 0 := right_ne_zero_of_mul hRT.ne'
  field_simp
  ring

theorem c15_bmix_add (p : Par n) (x : Fin n → ℝ) (i : Fin n) (t : ℝ) :
    bmix p (x + Pi.single i t) = bmix p x + t * p.bi i := by
  unfold bmix
  simp only [Pi.add_apply, add_mul, Finset.sum_add_distrib]
  congr 1
  rw [Finset.sum_eq_single i]
  · simp
  · intro j _ hj; simp [hj]
  · intro h; exact absurd (Finset.mem_univ i) h

theorem c15_sum_add (x : Fin n → ℝ) (i : Fin n) (t : ℝ) :
    ∑ j, (x + Pi.single i t : Fin n → ℝ) j = (∑ j, x j) + t := by
  simp only [Pi.add_apply, Finset.sum_add_distrib]
  congr 1
  rw [Finset.sum_eq_single i]
  · simp
  · intro j _ hj; simp [hj]
  · intro h; exact absurd (Finset.mem_univ i) h

/-- The attraction parameter of the mixture is a quadratic form. -/
theorem c15_amix_add (p : Par n) (hk : ∀ i j, p.kij i j = p.kij j i) (x : Fin n → ℝ) (i : Fin n)
    (t : ℝ) :
    amix p (x + Pi.single i t) = amix p x + t * (2 * arow p x i) +
      t ^ 2 * (√(p.ai i * p.alpha i * p.ai i * p.alpha i) * (1 - p.kij i i)) := by
  -- abbreviate the coefficients
  let c : Fin n → Fin n → ℝ := fun k l => √(p.ai k * p.alpha k * p.ai l * p.alpha l) * (1 - p.kij k l)
  have hc : ∀ k l, c k l = c l k := by
    intro k l
    simp only [c, hk k l]
    congr 2; ring
  have hform : ∀ z : Fin n → ℝ, amix p z = ∑ k, z k * ∑ l, z l * c k l := by
    intro z
    unfold amix
    refine Finset.sum_congr rfl fun k _ => ?_
    rw [Finset.mul_sum]
    exact Finset.sum_congr rfl fun l _ => by simp only [c]; ring
  have hs : ∀ g : Fin n → ℝ, ∑ k, (Pi.single i t : Fin n → ℝ) k * g k = t * g i := by
    intro g
    rw [Finset.sum_eq_single i]
    · simp
    · intro j _ hj; simp [hj]
    · intro h; exact absurd (Finset.mem_univ i) h
  have hrow : ∀ k, ∑ l, (x + Pi.single i t : Fin n → ℝ) l * c k l = (∑ l, x l * c k l) + t * c k i := by
    intro k
    simp only [Pi.add_apply, add_mul, Finset.sum_add_distrib]
    rw [hs (fun l => c k l)]
  rw [hform, hform]
  simp only [hrow]
  have hexp : ∑ k, (x + Pi.single i t : Fin n → ℝ) k * ((∑ l, x l * c k l) + t * c k i) =
      (∑ k, x k * ((∑ l, x l * c k l) + t * c k i)) +
        t * ((∑ l, x l * c i l) + t * c i i) := by
    simp only [Pi.add_apply, add_mul, Finset.sum_add_distrib]
    rw [hs (fun k => (∑ l, x l * c k l) + t * c k i)]
  rw [hexp]
  have hexp2 : ∑ k, x k * ((∑ l, x l * c k l) + t * c k i) =
      (∑ k, x k * ∑ l, x l * c k l) + t * ∑ k, x k * c i k := by
    rw [Finset.mul_sum, ← Finset.sum_add_distrib]
    refine Finset.sum_congr rfl fun k _ => ?_
    rw [hc k i]; ring
  rw [hexp2]
  have har : arow p x i = ∑ k, x k * c i k := rfl
  rw [har]
  simp only [c]
  ring

/-- Scalar calculus behind the composition derivative. -/
theorem c15_scalar_deriv (RT a b bi d e ρ : ℝ) (hRT : 0 < RT) (hρ : 0 < ρ) (hb : 0 < b)
    (hu : b * ρ < 1) :
    HasDerivAt (fun t : ℝ => -(1 + t) * Real.log (1 - (b + t * bi) * ρ) -
      (a + t * d + t ^ 2 * e) / (2 * √2 * (b + t * bi) * RT) *
        Real.log ((1 + (1 + √2) * ((b + t * bi) * ρ)) / (1 + (1 - √2) * ((b + t * bi) * ρ))))
      (bi / b * (b * ρ / (1 - b * ρ) - a * ρ / RT / ((1 + b * ρ) + ρ * b * (1 - b * ρ))) -
        Real.log (1 - b * ρ) +
        1 / (2 * √2 * b * RT) * (a * bi / b - d) *
          Real.log ((1 + (1 + √2) * (b * ρ)) / (1 + (1 - √2) * (b * ρ)))) 0 := by
  obtain ⟨hn, hd⟩ := c15_log_den_pos (b * ρ) (by positivity) hu
  have hs2 := c15_sqrt2_sq
  have hs : 0 < √2 := by linarith [c15_sqrt2_bounds.1]
  generalize √2 = s at *
  have hB : HasDerivAt (fun t : ℝ => b + t * bi) bi 0 := by
    have := ((hasDerivAt_id (0 : ℝ)).mul_const bi).const_add b
    simpa using this
  have hBρ : HasDerivAt (fun t : ℝ => (b + t * bi) * ρ) (bi * ρ) 0 := hB.mul_const ρ
  have h1u : 1 - b * ρ ≠ 0 := by linarith
  have hden : (0 : ℝ) < (1 + b * ρ) + ρ * b * (1 - b * ρ) := by
    have := c14_den_pos (b * ρ) (by positivity) hu
    rw [mul_comm ρ b]; exact this
  -- first logarithm
  have hl1 : HasDerivAt (fun t : ℝ => Real.log (1 - (b + t * bi) * ρ)) (-(bi * ρ) / (1 - b * ρ)) 0 := by
    have h := (hBρ.const_sub 1).log (by simpa using h1u)
    simpa using h
  -- quotient and second logarithm
  have hnum : HasDerivAt (fun t : ℝ => 1 + (1 + s) * ((b + t * bi) * ρ)) ((1 + s) * (bi * ρ)) 0 :=
    (hBρ.const_mul (1 + s)).const_add 1
  have hdn : HasDerivAt (fun t : ℝ => 1 + (1 - s) * ((b + t * bi) * ρ)) ((1 - s) * (bi * ρ)) 0 :=
    (hBρ.const_mul (1 - s)).const_add 1
  have hq := hnum.div hdn (by simpa using hd.ne')
  have hl2 := hq.log (by
    simp only [Pi.div_apply, zero_mul, add_zero]
    exact (div_pos hn hd).ne')
  have hprod : (1 + (1 + s) * (b * ρ)) * (1 + (1 - s) * (b * ρ)) =
      (1 + b * ρ) + ρ * b * (1 - b * ρ) := by linear_combination (-(b * ρ) ^ 2) * hs2
  have hl2' : HasDerivAt (fun t : ℝ => Real.log ((1 + (1 + s) * ((b + t * bi) * ρ)) /
      (1 + (1 - s) * ((b + t * bi) * ρ))))
      (2 * s * (bi * ρ) / ((1 + b * ρ) + ρ * b * (1 - b * ρ))) 0 := by
    refine hl2.congr_deriv ?_
    simp only [Pi.div_apply, zero_mul, add_zero]
    rw [← hprod]
    field_simp
    ring
  -- prefactor
  have hD : HasDerivAt (fun t : ℝ => a + t * d + t ^ 2 * e) d 0 := by
    have h1 := ((hasDerivAt_id (0 : ℝ)).mul_const d).const_add a
    have h2 := (hasDerivAt_pow 2 (0 : ℝ)).mul_const e
    have := h1.add h2
    refine this.congr_deriv ?_
    simp
  have hBB : HasDerivAt (fun t : ℝ => 2 * s * (b + t * bi) * RT) (2 * s * bi * RT) 0 :=
    (hB.const_mul (2 * s)).mul_const RT
  have hpre := hD.div hBB (by simp only [zero_mul, add_zero]; positivity)
  have hN : HasDerivAt (fun t : ℝ => -(1 + t)) (-1) 0 := ((hasDerivAt_id (0 : ℝ)).const_add 1).neg
  have htot := (hN.mul hl1).sub (hpre.mul hl2')
  refine htot.congr_deriv ?_
  simp only [Pi.div_apply, zero_mul, add_zero, ne_eq, OfNat.ofNat_ne_zero, not_false_eq_true, zero_pow]
  generalize Real.log ((1 + (1 + s) * (b * ρ)) / (1 + (1 - s) * (b * ρ))) = L
  generalize Real.log (1 - b * ρ) = L1
  generalize hDD : (1 + b * ρ) + ρ * b * (1 - b * ρ) = DD at *
  generalize hUU : 1 - b * ρ = UU at *
  field_simp
  ring

/-- **C15, composition derivative.** For every mixture, the logarithm of the coded fugacity
coefficient of component `i` at the coded pressure is the derivative of the residual Helmholtz energy
with respect to the amount of `i` at fixed temperature and volume, minus `log Z`. -/
theorem c15_fugacity_helmholtz (R T : ℝ) (p : Par n) (hk : ∀ i j, p.kij i j = p.kij j i)
    (x : Fin n → ℝ) (hx : ∑ j, x j = 1) (ρ : ℝ) (i : Fin n) (hRT : 0 < R * T) (hρ : 0 < ρ)
    (hb : 0 < bmix p x) (hu : bmix p x * ρ < 1) (ha : amix p x ≠ 0)
    (hP : 0 < pressure R T p x ρ) :
    HasDerivAt (fun t => helmholtz R T p (x + Pi.single i t) (1 / ρ))
      (lnPhi R T p x (pressure R T p x ρ) ρ i + Real.log (pressure R T p x ρ / (R * T * ρ))) 0 := by
  rw [c15_lnPhi_closed R T p x ρ i hRT hρ hb hu ha hP]
  have h := c15_scalar_deriv (R * T) (amix p x) (bmix p x) (p.bi i) (2 * arow p x i)
    (√(p.ai i * p.alpha i * p.ai i * p.alpha i) * (1 - p.kij i i)) ρ hRT hρ hb hu
  have hfun : (fun t => helmholtz R T p (x + Pi.single i t) (1 / ρ)) = fun t : ℝ =>
      -(1 + t) * Real.log (1 - (bmix p x + t * p.bi i) * ρ) -
      (amix p x + t * (2 * arow p x i) + t ^ 2 * (√(p.ai i * p.alpha i * p.ai i * p.alpha i) *
        (1 - p.kij i i))) / (2 * √2 * (bmix p x + t * p.bi i) * (R * T)) *
        Real.log ((1 + (1 + √2) * ((bmix p x + t * p.bi i) * ρ)) /
          (1 + (1 - √2) * ((bmix p x + t * p.bi i) * ρ))) := by
    funext t
    unfold helmholtz
    rw [c15_bmix_add, c15_amix_add p hk, c15_sum_add, hx]
    simp only [div_div_eq_mul_div, div_one]
  rw [hfun]
  refine h.congr_deriv ?_
  congr 3
  unfold pressure pressureAB
  have h1u : 1 - bmix p x * ρ ≠ 0 := by linarith
  have hden : (1 + bmix p x * ρ) + ρ * bmix p x * (1 - bmix p x * ρ) ≠ 0 := by
    have := c14_den_pos (bmix p x * ρ) (by positivity) hu
    rw [mul_comm ρ]; exact this.ne'
  have hR : R ≠ 0 := left_ne_zero_of_mul hRT.ne'
  have hT : T ≠ 0 := right_ne_zero_of_mul hRT.ne'
  generalize (1 + bmix p x * ρ) + ρ * bmix p x * (1 - bmix p x * ρ) = DD at *
  generalize hUU : 1 - bmix p x * ρ = UU at *
  have : bmix p x * ρ = 1 - UU := by linarith
  rw [this]
  field_simp
  ring

/-- **C15, volume derivative.** The coded pressure is that of the same Helmholtz energy:
`P = RT (1/V - ∂(A/RT)/∂V)` for one mole. -/
theorem c15_pressure_helmholtz (R T : ℝ) (p : Par n) (x : Fin n → ℝ) (hx : ∑ j, x j = 1) (V : ℝ)
    (hRT : 0 < R * T) (hV : 0 < V) (hb : 0 < bmix p x) (hu : bmix p x < V) :
    HasDerivAt (fun v => helmholtz R T p x v)
      (1 / V - pressure R T p x (1 / V) / (R * T)) V := by
  unfold helmholtz pressure pressureAB
  rw [hx]
  generalize bmix p x = b at *
  generalize amix p x = a at *
  have hR : R ≠ 0 := left_ne_zero_of_mul hRT.ne'
  have hT : T ≠ 0 := right_ne_zero_of_mul hRT.ne'
  have hbV : HasDerivAt (fun v : ℝ => b / v) (-(b / V ^ 2)) V := by
    have h := (hasDerivAt_inv hV.ne').const_mul b
    refine (h.congr_deriv ?_)
    ring
  have hb1 : b / V < 1 := by rw [div_lt_one hV]; exact hu
  obtain ⟨hn, hd⟩ := c15_log_den_pos (b / V) (by positivity) hb1
  have hs2 := c15_sqrt2_sq
  have hs : 0 < √2 := by linarith [c15_sqrt2_bounds.1]
  generalize √2 = s at *
  have hl1 := (hbV.const_sub 1).log (by linarith : 1 - b / V ≠ 0)
  have hnum := (hbV.const_mul (1 + s)).const_add 1
  have hdn := (hbV.const_mul (1 - s)).const_add 1
  have hl2 := (hnum.div hdn hd.ne').log (div_pos hn hd).ne'
  have hVb : V - b ≠ 0 := by linarith
  have hn' : V + (1 + s) * b ≠ 0 := by
    have : V * (1 + (1 + s) * (b / V)) = V + (1 + s) * b := by field_simp
    rw [← this]; positivity
  have hd' : V + (1 - s) * b ≠ 0 := by
    have : V * (1 + (1 - s) * (b / V)) = V + (1 - s) * b := by field_simp
    rw [← this]; positivity
  have hprod : (V + (1 + s) * b) * (V + (1 - s) * b) = V ^ 2 + 2 * b * V - b ^ 2 := by
    linear_combination (-b ^ 2) * hs2
  have hprod0 : V ^ 2 + 2 * b * V - b ^ 2 ≠ 0 := by rw [← hprod]; exact mul_ne_zero hn' hd'
  have e1 : 1 - b / V = (V - b) / V := by field_simp
  have e2 : 1 + (1 + s) * (b / V) = (V + (1 + s) * b) / V := by field_simp
  have e3 : 1 + (1 - s) * (b / V) = (V + (1 - s) * b) / V := by field_simp
  have hl1' : HasDerivAt (fun v : ℝ => Real.log (1 - b / v)) (b / (V * (V - b))) V := by
    refine hl1.congr_deriv ?_
    rw [e1]; field_simp
  have hl2' : HasDerivAt (fun v : ℝ => Real.log ((1 + (1 + s) * (b / v)) / (1 + (1 - s) * (b / v))))
      (-(2 * s * b) / (V ^ 2 + 2 * b * V - b ^ 2)) V := by
    refine hl2.congr_deriv ?_
    simp only [Pi.div_apply]
    rw [e2, e3, ← hprod]
    field_simp
    ring
  have htot := (hl1'.const_mul (-1)).sub (hl2'.const_mul (a / (2 * s * b * (R * T))))
  refine htot.congr_deriv ?_
  have e4 : 1 - b * (1 / V) = (V - b) / V := by field_simp
  have e5 : (1 + b * (1 / V)) + 1 / V * b * (1 - b * (1 / V)) =
      (V ^ 2 + 2 * b * V - b ^ 2) / V ^ 2 := by field_simp; ring
  rw [e5, e4]
  generalize V ^ 2 + 2 * b * V - b ^ 2 = Q at *
  field_simp
  ring

/-! ### Pure component -/

/-- A pure component. -/
theorem c15_pure_lnPhi (R T : ℝ) (p : Par 1) (ρ : ℝ) (hRT : 0 < R * T) (hρ : 0 < ρ)
    (hb : 0 < p.bi 0) (hu : p.bi 0 * ρ < 1) (ha : 0 < p.ai 0 * p.alpha 0) (hk : p.kij 0 0 = 0)
    (hP : 0 < pressure R T p (fun _ => 1) ρ) :
    lnPhi R T p (fun _ => 1) (pressure R T p (fun _ => 1) ρ) ρ 0 =
      pressure R T p (fun _ => 1) ρ / (R * T * ρ) - 1 -
        Real.log (pressure R T p (fun _ => 1) ρ / (R * T * ρ)) - Real.log (1 - p.bi 0 * ρ) -
        p.ai 0 * p.alpha 0 / (2 * √2 * p.bi 0 * (R * T)) *
          Real.log ((1 + (1 + √2) * (p.bi 0 * ρ)) / (1 + (1 - √2) * (p.bi 0 * ρ))) := by
  have hbm : bmix p (fun _ => 1) = p.bi 0 := by simp [bmix]
  have hsq : √(p.ai 0 * p.alpha 0 * p.ai 0 * p.alpha 0) = p.ai 0 * p.alpha 0 := by
    rw [show p.ai 0 * p.alpha 0 * p.ai 0 * p.alpha 0 = (p.ai 0 * p.alpha 0) ^ 2 by ring]
    exact Real.sqrt_sq ha.le
  have ham : amix p (fun _ => 1) = p.ai 0 * p.alpha 0 := by simp [amix, hk, hsq]
  have har : arow p (fun _ => 1) 0 = p.ai 0 * p.alpha 0 := by simp [arow, hk, hsq]
  have h := c15_lnPhi_closed R T p (fun _ => 1) ρ 0 hRT hρ (by rw [hbm]; exact hb)
    (by rw [hbm]; exact hu) (by rw [ham]; exact ha.ne') hP
  rw [hbm, ham, har] at h
  have e : p.ai 0 * p.alpha 0 * p.bi 0 / p.bi 0 - 2 * (p.ai 0 * p.alpha 0) =
      -(p.ai 0 * p.alpha 0) := by field_simp; ring
  rw [e, div_self hb.ne', one_mul] at h
  have e2 : 1 / (2 * √2 * p.bi 0 * (R * T)) * -(p.ai 0 * p.alpha 0) =
      -(p.ai 0 * p.alpha 0 / (2 * √2 * p.bi 0 * (R * T))) := by ring
  rw [e2] at h
  linarith

/-- The antiderivative used for the equal-area rule. -/
noncomputable def areaPrim (RT a b P₀ ρ : ℝ) : ℝ :=
  RT * (Real.log ρ - Real.log (1 - b * ρ) - a / (2 * √2 * b * RT) *
    Real.log ((1 + (1 + √2) * (b * ρ)) / (1 + (1 - √2) * (b * ρ)))) + P₀ / ρ

theorem c15_areaPrim_deriv (R T a b P₀ ρ : ℝ) (hRT : 0 < R * T) (hρ : 0 < ρ) (hb : 0 < b)
    (hu : b * ρ < 1) :
    HasDerivAt (areaPrim (R * T) a b P₀) ((pressureAB R T a b ρ - P₀) / ρ ^ 2) ρ := by
  obtain ⟨hn, hd⟩ := c15_log_den_pos (b * ρ) (by positivity) hu
  have hs2 := c15_sqrt2_sq
  have hs : 0 < √2 := by linarith [c15_sqrt2_bounds.1]
  have hR : R ≠ 0 := left_ne_zero_of_mul hRT.ne'
  have hT : T ≠ 0 := right_ne_zero_of_mul hRT.ne'
  unfold areaPrim pressureAB
  generalize √2 = s at *
  have hbρ : HasDerivAt (fun r : ℝ => b * r) b ρ := by
    simpa using (hasDerivAt_id ρ).const_mul b
  have h1u : 1 - b * ρ ≠ 0 := by linarith
  have hden : (0 : ℝ) < (1 + b * ρ) + ρ * b * (1 - b * ρ) := by
    have := c14_den_pos (b * ρ) (by positivity) hu
    rw [mul_comm ρ b]; exact this
  have hl0 := Real.hasDerivAt_log hρ.ne'
  have hl1 : HasDerivAt (fun r : ℝ => Real.log (1 - b * r)) (-b / (1 - b * ρ)) ρ :=
    (hbρ.const_sub 1).log h1u
  have hl2 := (((hbρ.const_mul (1 + s)).const_add 1).div ((hbρ.const_mul (1 - s)).const_add 1)
    hd.ne').log (div_pos hn hd).ne'
  have hprod : (1 + (1 + s) * (b * ρ)) * (1 + (1 - s) * (b * ρ)) =
      (1 + b * ρ) + ρ * b * (1 - b * ρ) := by linear_combination (-(b * ρ) ^ 2) * hs2
  have hl2' : HasDerivAt (fun r : ℝ => Real.log ((1 + (1 + s) * (b * r)) / (1 + (1 - s) * (b * r))))
      (2 * s * b / ((1 + b * ρ) + ρ * b * (1 - b * ρ))) ρ := by
    refine hl2.congr_deriv ?_
    simp only [Pi.div_apply]
    rw [← hprod]
    field_simp
    ring
  have hinv := (hasDerivAt_inv hρ.ne').const_mul P₀
  have htot := (((hl0.sub hl1).sub (hl2'.const_mul (a / (2 * s * b * (R * T))))).const_mul
    (R * T)).add hinv
  have hfun : ((fun y => R * T * (Real.log y - Real.log (1 - b * y) -
      a / (2 * s * b * (R * T)) * Real.log ((1 + (1 + s) * (b * y)) / (1 + (1 - s) * (b * y))))) +
      fun y => P₀ * y⁻¹) = fun ρ => R * T * (Real.log ρ - Real.log (1 - b * ρ) -
      a / (2 * s * b * (R * T)) * Real.log ((1 + (1 + s) * (b * ρ)) / (1 + (1 - s) * (b * ρ)))) +
      P₀ / ρ := by
    funext y; simp only [Pi.add_apply, div_eq_mul_inv]
  rw [← hfun]
  refine htot.congr_deriv ?_
  generalize hDD : (1 + b * ρ) + ρ * b * (1 - b * ρ) = DD at *
  generalize hUU : 1 - b * ρ = UU at *
  have hbU : b * ρ = 1 - UU := by linarith
  field_simp
  rw [show UU - -(ρ * b) = 1 by linarith]
  ring

theorem c15_areaPrim_eq (R T : ℝ) (p : Par 1) (ρ : ℝ) (hRT : 0 < R * T) (hρ : 0 < ρ)
    (hb : 0 < p.bi 0) (hu : p.bi 0 * ρ < 1) (ha : 0 < p.ai 0 * p.alpha 0) (hk : p.kij 0 0 = 0)
    (P₀ : ℝ) (hP : 0 < P₀) (hPe : pressure R T p (fun _ => 1) ρ = P₀) :
    areaPrim (R * T) (p.ai 0 * p.alpha 0) (p.bi 0) P₀ ρ =
      R * T * (lnPhi R T p (fun _ => 1) P₀ ρ 0 + 1 + Real.log (P₀ / (R * T))) := by
  have h := c15_pure_lnPhi R T p ρ hRT hρ hb hu ha hk (by rw [hPe]; exact hP)
  rw [hPe] at h
  rw [h]
  unfold areaPrim
  have hlog : Real.log (P₀ / (R * T * ρ)) = Real.log (P₀ / (R * T)) - Real.log ρ := by
    rw [← div_div, Real.log_div (by positivity) hρ.ne']
  rw [hlog]
  have hR : R ≠ 0 := left_ne_zero_of_mul hRT.ne'
  have hT : T ≠ 0 := right_ne_zero_of_mul hRT.ne'
  have : P₀ / ρ = R * T * (P₀ / (R * T * ρ)) := by field_simp
  rw [this]
  ring

/-- **C15, equal-area rule.** For a pure component and two densities with the same pressure, the coded
fugacity coefficients are equal exactly when the areas between the coded isotherm and the line of
constant pressure cancel (`∫ (P - P₀)/ρ² dρ = 0`), which is the Maxwell construction. -/
theorem c15_equal_area (R T : ℝ) (p : Par 1) (ρ₁ ρ₂ P₀ : ℝ) (hRT : 0 < R * T) (h1 : 0 < ρ₁)
    (h12 : ρ₁ ≤ ρ₂) (hb : 0 < p.bi 0) (hu : p.bi 0 * ρ₂ < 1) (ha : 0 < p.ai 0 * p.alpha 0)
    (hk : p.kij 0 0 = 0) (hP : 0 < P₀) (hP1 : pressure R T p (fun _ => 1) ρ₁ = P₀)
    (hP2 : pressure R T p (fun _ => 1) ρ₂ = P₀) :
    phi R T p (fun _ => 1) P₀ ρ₁ 0 = phi R T p (fun _ => 1) P₀ ρ₂ 0 ↔
      ∫ ρ in ρ₁..ρ₂, (pressure R T p (fun _ => 1) ρ - P₀) / ρ ^ 2 = 0 := by
  have hu1 : p.bi 0 * ρ₁ < 1 := lt_of_le_of_lt (mul_le_mul_of_nonneg_left h12 hb.le) hu
  have hbm : bmix p (fun _ => 1) = p.bi 0 := by simp [bmix]
  have hsq : √(p.ai 0 * p.alpha 0 * p.ai 0 * p.alpha 0) = p.ai 0 * p.alpha 0 := by
    rw [show p.ai 0 * p.alpha 0 * p.ai 0 * p.alpha 0 = (p.ai 0 * p.alpha 0) ^ 2 by ring]
    exact Real.sqrt_sq ha.le
  have ham : amix p (fun _ => 1) = p.ai 0 * p.alpha 0 := by simp [amix, hk, hsq]
  have hPfun : ∀ ρ, pressure R T p (fun _ => 1) ρ =
      pressureAB R T (p.ai 0 * p.alpha 0) (p.bi 0) ρ := by
    intro ρ; unfold pressure; rw [hbm, ham]
  have hint : ∫ ρ in ρ₁..ρ₂, (pressure R T p (fun _ => 1) ρ - P₀) / ρ ^ 2 =
      areaPrim (R * T) (p.ai 0 * p.alpha 0) (p.bi 0) P₀ ρ₂ -
        areaPrim (R * T) (p.ai 0 * p.alpha 0) (p.bi 0) P₀ ρ₁ := by
    simp only [hPfun]
    have hbounds : ∀ ρ ∈ Set.uIcc ρ₁ ρ₂, 0 < ρ ∧ p.bi 0 * ρ < 1 := by
      intro ρ hρ
      rw [Set.uIcc_of_le h12] at hρ
      exact ⟨lt_of_lt_of_le h1 hρ.1, lt_of_le_of_lt (mul_le_mul_of_nonneg_left hρ.2 hb.le) hu⟩
    refine intervalIntegral.integral_eq_sub_of_hasDerivAt ?_ ?_
    · intro ρ hρ
      exact c15_areaPrim_deriv R T _ _ P₀ ρ hRT (hbounds ρ hρ).1 hb (hbounds ρ hρ).2
    · apply ContinuousOn.intervalIntegrable
      unfold pressureAB
      have hc : ∀ ρ ∈ Set.uIcc ρ₁ ρ₂, 1 - p.bi 0 * ρ ≠ 0 := fun ρ hρ => by
        have := (hbounds ρ hρ).2; linarith
      have hc2 : ∀ ρ ∈ Set.uIcc ρ₁ ρ₂,
          (1 + p.bi 0 * ρ) + ρ * p.bi 0 * (1 - p.bi 0 * ρ) ≠ 0 := fun ρ hρ => by
        have := c14_den_pos (p.bi 0 * ρ) (by have := (hbounds ρ hρ).1; positivity) (hbounds ρ hρ).2
        rw [mul_comm ρ]; exact this.ne'
      refine ContinuousOn.div (ContinuousOn.sub (ContinuousOn.sub (ContinuousOn.div ?_ ?_ hc)
        (ContinuousOn.div ?_ ?_ hc2)) ?_) ?_ ?_
      any_goals fun_prop
      intro ρ hρ
      exact pow_ne_zero 2 (hbounds ρ hρ).1.ne'
  rw [hint, c15_areaPrim_eq R T p ρ₂ hRT (lt_of_lt_of_le h1 h12) hb hu ha hk P₀ hP hP2,
    c15_areaPrim_eq R T p ρ₁ hRT h1 hb hu1 ha hk P₀ hP hP1]
  unfold phi
  rw [Real.exp_eq_exp]
  constructor
  · intro h; rw [h]; ring
  · intro h
    have h2 : R * T * (lnPhi R T p (fun _ => 1) P₀ ρ₂ 0 - lnPhi R T p (fun _ => 1) P₀ ρ₁ 0) = 0 := by
      linarith
    rcases mul_eq_zero.mp h2 with h3 | h3
    · exact absurd h3 hRT.ne'
    · linarith

/-- **C15, ideal limit.** For every mixture the coded logarithm of the fugacity coefficient tends to 0
at vanishing density. -/
theorem c15_ideal_limit (R T : ℝ) (p : Par n) (x : Fin n → ℝ) (i : Fin n) (hRT : 0 < R * T)
    (hb : 0 < bmix p x) (ha : amix p x ≠ 0) :
    Tendsto (fun ρ => lnPhi R T p x (pressure R T p x ρ) ρ i) (𝓝[>] 0) (𝓝 0) := by
  have hZ : Tendsto (fun ρ => pressure R T p x ρ / (R * T * ρ)) (𝓝[>] 0) (𝓝 1) := by
    have h := (c14_ideal_limit R T (amix p x) (bmix p x)).mono_left
      (nhdsWithin_mono 0 (fun y (hy : 0 < y) => ne_of_gt hy) : 𝓝[>] (0:ℝ) ≤ 𝓝[≠] 0)
    have h2 := h.div_const (R * T)
    rw [div_self hRT.ne'] at h2
    refine h2.congr' ?_
    filter_upwards [self_mem_nhdsWithin] with ρ hρ
    have hρ : 0 < ρ := hρ
    unfold pressure
    rw [div_div, mul_comm ρ]
  have hlin : Tendsto (fun ρ : ℝ => bmix p x * ρ) (𝓝[>] 0) (𝓝 0) := by
    have : Tendsto (fun ρ : ℝ => bmix p x * ρ) (𝓝 0) (𝓝 (bmix p x * 0)) :=
      (continuous_const.mul continuous_id).tendsto 0
    rw [mul_zero] at this
    exact this.mono_left nhdsWithin_le_nhds
  have hl1 : Tendsto (fun ρ : ℝ => Real.log (1 - bmix p x * ρ)) (𝓝[>] 0) (𝓝 0) := by
    have h := (hlin.const_sub 1)
    rw [sub_zero] at h
    have := h.log one_ne_zero
    rwa [Real.log_one] at this
  have hl2 : Tendsto (fun ρ : ℝ => Real.log ((1 + (1 + √2) * (bmix p x * ρ)) /
      (1 + (1 - √2) * (bmix p x * ρ)))) (𝓝[>] 0) (𝓝 0) := by
    have h1 := (hlin.const_mul (1 + √2)).const_add 1
    have h2 := (hlin.const_mul (1 - √2)).const_add 1
    simp only [mul_zero, add_zero] at h1 h2
    have h3 := h1.div h2 one_ne_zero
    rw [div_one] at h3
    have := h3.log one_ne_zero
    rwa [Real.log_one] at this
  have hlZ : Tendsto (fun ρ => Real.log (pressure R T p x ρ / (R * T * ρ))) (𝓝[>] 0) (𝓝 0) := by
    have := hZ.log one_ne_zero
    rwa [Real.log_one] at this
  have hclosed := ((((hZ.sub_const 1).const_mul (p.bi i / bmix p x)).sub hl1).add
    (hl2.const_mul (1 / (2 * √2 * bmix p x * (R * T)) * (amix p x * p.bi i / bmix p x -
      2 * arow p x i)))).sub hlZ
  simp only [sub_self, mul_zero, add_zero] at hclosed
  refine hclosed.congr' ?_
  have hev1 : ∀ᶠ ρ in 𝓝[>] (0 : ℝ), 0 < pressure R T p x ρ / (R * T * ρ) :=
    hZ.eventually (lt_mem_nhds one_pos)
  have hev2 : ∀ᶠ ρ in 𝓝[>] (0 : ℝ), bmix p x * ρ < 1 := hlin.eventually (gt_mem_nhds one_pos)
  filter_upwards [self_mem_nhdsWithin, hev1, hev2] with ρ hρ hz hu
  have hρ : 0 < ρ := hρ
  have hP : 0 < pressure R T p x ρ := by
    have : pressure R T p x ρ = pressure R T p x ρ / (R * T * ρ) * (R * T * ρ) :=
      (div_mul_cancel₀ _ (by positivity)).symm
    rw [this]; positivity
  have := c15_lnPhi_closed R T p x ρ i hRT hρ hb hu ha hP
  linarith

/-- A concrete state for the hypotheses: a pure component with `a = b = R = T = 1` at half the close
packing has positive pressure. -/
example : ∃ p : Par 1, 0 < bmix p (fun _ => 1) ∧ bmix p (fun _ => 1) * (1/2) < 1 ∧
    amix p (fun _ => 1) ≠ 0 ∧ 0 < pressure 1 1 p (fun _ => 1) (1/2) ∧ p.kij 0 0 = 0 ∧
    0 < p.ai 0 * p.alpha 0 := by
  refine ⟨⟨fun _ => 1, fun _ => 1, fun _ => 1, fun _ _ => 0⟩, ?_, ?_, ?_, ?_, rfl, by norm_num⟩
  · simp [bmix]
  · simp [bmix]; norm_num
  · simp [amix]
  · simp [pressure, pressureAB, amix, bmix]; norm_num

end Verif.Props
