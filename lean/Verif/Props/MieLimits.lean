import Mathlib.Analysis.SpecialFunctions.Pow.Continuity
import Mathlib.Analysis.SpecialFunctions.Log.Deriv
import Mathlib.Topology.Algebra.Order.Field
import Mathlib.Algebra.BigOperators.Field
import Verif.Props.MieScaling

/-!
# C117, C118: the limit of zero density

The perturbation terms vanish linearly with the density, with the slopes of the underlying theory; the contact values of
the chain term tend to those of the ideal gas, so the chain term vanishes too.
-/

namespace Verif.Props
open Verif Verif.Saft Verif.GammaMie Verif.MieTerms Filter Topology

variable {n m : ℕ}

/-- A physical state: positive temperature, a composition, groups with positive well depths and sizes and exponents
`3 < λa < λr`.  The exponent 4 is excluded: the code divides zero by zero there. -/
structure Phys (P : Mie n m) (T : ℝ) (x : Fin n → ℝ) : Prop where
  T : 0 < T
  x0 : ∀ i, 0 ≤ x i
  xsum : ∑ i, x i = 1
  ν : ∀ i k, 0 ≤ P.g.ν i k
  V : ∀ k, 0 ≤ P.g.V k
  S : ∀ k, 0 ≤ P.g.S k
  seg : ∀ i, 0 < ∑ k, zki P i k
  ε : ∀ k l, 0 < P.ε k l
  σ : ∀ k l, 0 < P.σ k l
  la : ∀ k l, 3 < P.la k l
  lr : ∀ k l, P.la k l < P.lr k l
  la4 : ∀ k l, P.la k l ≠ 4
  lr4 : ∀ k l, P.lr k l ≠ 4
  lai4 : ∀ i, laii P i ≠ 4
  lri4 : ∀ i, lrii P i ≠ 4
  bε : ∀ k, 0 < P.bε k
  bσ : ∀ k, 0 < P.bσ k
  bla : ∀ k, 0 < P.bla k
  blr : ∀ k, P.bla k < P.blr k

namespace Phys
variable {P : Mie n m} {T : ℝ} {x : Fin n → ℝ}

theorem dk_pos (h : Phys P T x) (k : Fin m) : 0 < dk P T k :=
  c60_diameter_pos _ _ _ _ _ (h.bε k) (h.bσ k) h.T (h.bla k) (h.blr k)

theorem dkl_pos (h : Phys P T x) (k l : Fin m) : 0 < dkl P T k l := by
  have := h.dk_pos k; have := h.dk_pos l
  show 0 < (dk P T k + dk P T l) / 2
  linarith

theorem cmol_pos (h : Phys P T x) : 0 < cmol2seg P.g x := by
  have e : cmol2seg P.g x = ∑ i, x i * ∑ k, zki P i k := by
    simp only [cmol2seg, zki, Finset.mul_sum]
    exact Finset.sum_congr rfl fun i _ => Finset.sum_congr rfl fun k _ => by ring
  rw [e]
  obtain ⟨i, -, hi⟩ : ∃ i ∈ Finset.univ, 0 < x i := by
    by_contra hc
    push Not at hc
    have : ∑ i, x i ≤ 0 := Finset.sum_nonpos hc
    rw [h.xsum] at this
    linarith
  exact Finset.sum_pos' (fun i _ => mul_nonneg (h.x0 i) (h.seg i).le) ⟨i, Finset.mem_univ _, mul_pos hi (h.seg i)⟩

theorem zfrac_nonneg (h : Phys P T x) (i : Fin n) (k : Fin m) : 0 ≤ zfrac P i k :=
  div_nonneg (mul_nonneg (mul_nonneg (h.ν i k) (h.V k)) (h.S k)) (h.seg i).le

theorem zfrac_sum (h : Phys P T x) (i : Fin n) : ∑ k, zfrac P i k = 1 := by
  simp only [zfrac, ← Finset.sum_div]
  exact div_self (h.seg i).ne'

theorem avg_pos (h : Phys P T x) (q : Fin m → Fin m → ℝ) (hq : ∀ k l, 0 < q k l) (i : Fin n) : 0 < avg P q i := by
  obtain ⟨k, -, hk⟩ : ∃ k ∈ Finset.univ, 0 < zfrac P i k := by
    by_contra hc
    push Not at hc
    have : ∑ k, zfrac P i k ≤ 0 := Finset.sum_nonpos hc
    rw [h.zfrac_sum] at this
    linarith
  have hn : ∀ k l, 0 ≤ zfrac P i k * zfrac P i l * q k l := fun k l =>
    mul_nonneg (mul_nonneg (h.zfrac_nonneg i k) (h.zfrac_nonneg i l)) (hq k l).le
  exact Finset.sum_pos' (fun k _ => Finset.sum_nonneg fun l _ => hn k l)
    ⟨k, Finset.mem_univ _, Finset.sum_pos' (fun l _ => hn k l)
      ⟨k, Finset.mem_univ _, mul_pos (mul_pos hk hk) (hq k k)⟩⟩

theorem avg_const (h : Phys P T x) (c : ℝ) (i : Fin n) : avg P (fun _ _ => c) i = c := by
  simp only [avg, ← Finset.sum_mul, ← Finset.mul_sum, h.zfrac_sum, mul_one, one_mul]

theorem avg_sub (P : Mie n m) (q r : Fin m → Fin m → ℝ) (i : Fin n) :
    avg P (fun k l => q k l - r k l) i = avg P q i - avg P r i := by
  simp only [avg, mul_sub, Finset.sum_sub_distrib]

theorem epsii_pos (h : Phys P T x) (i : Fin n) : 0 < epsii P i := h.avg_pos _ h.ε i

theorem laii_gt (h : Phys P T x) (i : Fin n) : 3 < laii P i := by
  have := h.avg_pos (fun k l => P.la k l - 3) (fun k l => by have := h.la k l; linarith) i
  rw [avg_sub P P.la (fun _ _ => 3), h.avg_const] at this
  unfold laii; linarith

theorem lrii_gt (h : Phys P T x) (i : Fin n) : laii P i < lrii P i := by
  have := h.avg_pos (fun k l => P.lr k l - P.la k l) (fun k l => by have := h.lr k l; linarith) i
  rw [avg_sub P P.lr P.la] at this
  unfold laii lrii; linarith

theorem dii_pos (h : Phys P T x) (i : Fin n) : 0 < dii P T i :=
  Real.rpow_pos_of_pos (h.avg_pos _ (fun k l => pow_pos (h.dkl_pos k l) 3) i) _

theorem sigii_pos (h : Phys P T x) (i : Fin n) : 0 < sigii P i :=
  Real.rpow_pos_of_pos (h.avg_pos _ (fun k l => pow_pos (h.σ k l) 3) i) _

theorem x0ii_pos (h : Phys P T x) (i : Fin n) : 0 < x0ii P T i := div_pos (h.sigii_pos i) (h.dii_pos i)

theorem x0kl_pos (h : Phys P T x) (k l : Fin m) : 0 < x0kl P T k l := div_pos (h.σ k l) (h.dkl_pos k l)

end Phys

/-! ## The building blocks near zero density -/

/-- `(a1s + B)/(ρs 2π ε d³ M²)` as a function of the packing fraction. -/
private noncomputable def kF (l x0 z : ℝ) : ℝ :=
  -((1 - etaEff l z / 2) / (1 - etaEff l z) ^ 3) / (l - 3) + (1 - z / 2) / (1 - z) ^ 3 * iFun l x0
    - 9 * z * (1 + z) / (2 * (1 - z) ^ 3) * jFun l x0

/-- `(da1s + dB)/(2π ε d³ M²)` as a function of the packing fraction. -/
private noncomputable def dkF (l x0 z : ℝ) : ℝ :=
  -((1 - etaEff l z / 2) / (1 - etaEff l z) ^ 3
      + (5 - 2 * etaEff l z) / (2 * (1 - etaEff l z) ^ 4) * rhosDeta l z) / (l - 3)
    + ((1 - z / 2) / (1 - z) ^ 3 * iFun l x0 - 9 * z * (1 + z) / (2 * (1 - z) ^ 3) * jFun l x0
      + ((5 - 2 * z) * z / (2 * (1 - z) ^ 4) * iFun l x0
        - 9 * z * (z ^ 2 + 4 * z + 1) / (2 * (1 - z) ^ 4) * jFun l x0))

private theorem sum_kF (M ρ C l x0 z ε d : ℝ) :
    a1sEff M ρ C l z ε d + bEff M ρ l C d ε x0 z = (ρ * C) * (2 * Real.pi * ε * d ^ 3 * M ^ 2) * kF l x0 z := by
  unfold a1sEff bEff kF; ring

private theorem sum_dkF (M l x0 z ε d : ℝ) :
    da1s M l z ε d + dB M l d ε x0 z = (2 * Real.pi * ε * d ^ 3 * M ^ 2) * dkF l x0 z := by
  unfold da1s dB dkF; ring

private theorem eta_zero (l : ℝ) : etaEff l 0 = 0 := by simp [etaEff]

private theorem kF_zero (l x0 : ℝ) : kF l x0 0 = -(x0 ^ (3 - l) / (l - 3)) := by
  simp only [kF, eta_zero, iFun]; ring

private theorem dkF_zero (l x0 : ℝ) : dkF l x0 0 = -(x0 ^ (3 - l) / (l - 3)) := by
  simp only [dkF, eta_zero, iFun, rhosDeta]; ring

private theorem eta_cont (l : ℝ) : Continuous (etaEff l) := by unfold etaEff; fun_prop

private theorem kF_cont (l x0 : ℝ) : ContinuousAt (kF l x0) 0 := by
  have h := (eta_cont l).continuousAt (x := 0)
  unfold kF
  fun_prop (disch := norm_num [eta_zero])

private theorem dkF_cont (l x0 : ℝ) : ContinuousAt (dkF l x0) 0 := by
  have h := (eta_cont l).continuousAt (x := 0)
  have h' : Continuous (rhosDeta l) := by unfold rhosDeta; fun_prop
  unfold dkF
  fun_prop (disch := norm_num [eta_zero])

private theorem khs_cont : Continuous khs := by
  unfold khs
  exact Continuous.div (by fun_prop) (by fun_prop) fun z => (GammaMie.khs_den_pos z).ne'

private theorem pow_cancel {x0 : ℝ} (h : 0 < x0) (l : ℝ) : x0 ^ l * x0 ^ (3 - l) = x0 ^ 3 := by
  rw [← Real.rpow_add h, show l + (3 - l) = ((3 : ℕ) : ℝ) by push_cast; ring, Real.rpow_natCast]

private theorem zx_tendsto (M : ℝ) (P : Mie n m) (T : ℝ) (x : Fin n → ℝ) :
    Tendsto (fun ρ => zx M P ρ T x) (𝓝[≠] 0) (𝓝 0) := by
  have : Continuous fun ρ => zx M P ρ T x := by unfold zx zetax; fun_prop
  have h := this.tendsto 0
  simp only [zx, zetax, zero_mul] at h
  exact h.mono_left nhdsWithin_le_nhds

private theorem zxstar_tendsto (M : ℝ) (P : Mie n m) (x : Fin n → ℝ) :
    Tendsto (fun ρ => zxstar M P ρ x) (𝓝[≠] 0) (𝓝 0) := by
  have : Continuous fun ρ => zxstar M P ρ x := by unfold zxstar zetax; fun_prop
  have h := this.tendsto 0
  simp only [zxstar, zetax, zero_mul] at h
  exact h.mono_left nhdsWithin_le_nhds

theorem to_lim {f : ℝ → ℝ} {F : Filter ℝ} {a b : ℝ} (h : Tendsto f F (𝓝 a)) (e : a = b) : Tendsto f F (𝓝 b) :=
  e ▸ h

/-- A double sum of limits. -/
theorem tendsto_sum2 {F : Filter ℝ} {f : Fin m → Fin m → ℝ → ℝ} {a : Fin m → Fin m → ℝ}
    (h : ∀ k l, Tendsto (f k l) F (𝓝 (a k l))) : Tendsto (fun ρ => ∑ k, ∑ l, f k l ρ) F (𝓝 (∑ k, ∑ l, a k l)) :=
  tendsto_finsetSum _ fun k _ => tendsto_finsetSum _ fun l _ => h k l

/-! ## C117: slopes of the monomer terms -/

/-- **C117** (first order): at low density the first-order term is the mean-field energy of van der Waals, with the
integrated Mie energy `ε σ³ α` of every pair of groups; the hard-sphere diameter has dropped out. -/
theorem c117_first (M T : ℝ) (P : Mie n m) (x : Fin n → ℝ) (hM : M ≠ 0) (h : Phys P T x) :
    Tendsto (fun ρ => afirst M P ρ T x / ρ) (𝓝[≠] 0)
      (𝓝 (-(2 * Real.pi * M * cmol2seg P.g x ^ 2 / T) *
        ∑ k, ∑ l, P.ε k l * P.σ k l ^ 3 * alphaOf (P.lr k l) (P.la k l) * xskl P.g x k l)) := by
  have hk : ∀ k l, Tendsto (fun ρ => a1ii M ρ (cmol2seg P.g x) (dkl P T k l) (P.la k l) (P.lr k l) (x0kl P T k l)
      (P.ε k l) (zx M P ρ T x) * xskl P.g x k l / ρ) (𝓝[≠] 0)
      (𝓝 (-(2 * Real.pi * M * cmol2seg P.g x) *
        (P.ε k l * P.σ k l ^ 3 * alphaOf (P.lr k l) (P.la k l) * xskl P.g x k l))) := by
    intro k l
    have ta := (kF_cont (P.la k l) (x0kl P T k l)).tendsto.comp (zx_tendsto M P T x)
    have tr := (kF_cont (P.lr k l) (x0kl P T k l)).tendsto.comp (zx_tendsto M P T x)
    have hd := (h.dkl_pos k l).ne'
    have hx := h.x0kl_pos k l
    have hσ : P.σ k l = x0kl P T k l * dkl P T k l := (div_mul_cancel₀ _ hd).symm
    rw [hσ]
    generalize x0kl P T k l = y at *
    have pa := pow_cancel hx (P.la k l)
    have pr := pow_cancel hx (P.lr k l)
    have lim := ((ta.const_mul (y ^ P.la k l)).sub (tr.const_mul (y ^ P.lr k l))).const_mul
      (prefactor (P.lr k l) (P.la k l) * (cmol2seg P.g x * (2 * Real.pi * P.ε k l * dkl P T k l ^ 3 * M))
        * xskl P.g x k l)
    refine (to_lim lim ?_).congr' ?_
    · simp only [kF_zero, alphaOf]
      rw [show y ^ P.la k l * -(y ^ (3 - P.la k l) / (P.la k l - 3))
            = -((y ^ P.la k l * y ^ (3 - P.la k l)) * (1 / (P.la k l - 3))) by ring,
        show y ^ P.lr k l * -(y ^ (3 - P.lr k l) / (P.lr k l - 3))
            = -((y ^ P.lr k l * y ^ (3 - P.lr k l)) * (1 / (P.lr k l - 3))) by ring, pa, pr]
      ring
    · filter_upwards [self_mem_nhdsWithin] with ρ hρ
      have hρ : ρ ≠ 0 := hρ
      simp only [a1ii, sum_kF, Function.comp]
      generalize kF (P.la k l) y _ = A
      generalize kF (P.lr k l) y _ = B
      generalize y ^ P.la k l = u
      generalize y ^ P.lr k l = v
      field_simp
  have hs := (tendsto_sum2 hk).const_mul (cmol2seg P.g x / T)
  refine (to_lim hs ?_).congr fun ρ => ?_
  · simp only [← Finset.mul_sum]; ring
  · simp only [afirst, ← Finset.sum_div]; ring

/-- **C117** (second order). -/
theorem c117_second (M T : ℝ) (P : Mie n m) (x : Fin n → ℝ) (hM : M ≠ 0) (h : Phys P T x) :
    Tendsto (fun ρ => asecond M P ρ T x / ρ) (𝓝[≠] 0)
      (𝓝 (-(Real.pi * M * cmol2seg P.g x ^ 2 / T ^ 2) *
        ∑ k, ∑ l, P.ε k l ^ 2 * P.σ k l ^ 3 * prefactor (P.lr k l) (P.la k l) ^ 2 *
          (1 / (2 * P.la k l - 3) - 2 / (P.la k l + P.lr k l - 3) + 1 / (2 * P.lr k l - 3)) * xskl P.g x k l)) := by
  have hk : ∀ k l, Tendsto (fun ρ => a2NoChi M ρ (cmol2seg P.g x) (dkl P T k l) (P.la k l) (P.lr k l) (x0kl P T k l)
      (P.ε k l) (zx M P ρ T x) * (1 + chi (zxstar M P ρ x) (alphaOf (P.lr k l) (P.la k l))) * xskl P.g x k l / ρ)
      (𝓝[≠] 0)
      (𝓝 (-(Real.pi * M * cmol2seg P.g x) *
        (P.ε k l ^ 2 * P.σ k l ^ 3 * prefactor (P.lr k l) (P.la k l) ^ 2 *
          (1 / (2 * P.la k l - 3) - 2 / (P.la k l + P.lr k l - 3) + 1 / (2 * P.lr k l - 3)) * xskl P.g x k l))) := by
    intro k l
    have tz := zx_tendsto M P T x
    have ta := (kF_cont (2 * P.la k l) (x0kl P T k l)).tendsto.comp tz
    have tar := (kF_cont (P.la k l + P.lr k l) (x0kl P T k l)).tendsto.comp tz
    have tr := (kF_cont (2 * P.lr k l) (x0kl P T k l)).tendsto.comp tz
    have tk := (khs_cont.tendsto 0).comp tz
    have tc : Tendsto (fun ρ => chi (zxstar M P ρ x) (alphaOf (P.lr k l) (P.la k l))) (𝓝[≠] 0) (𝓝 0) := by
      have hc : Continuous fun zs => chi zs (alphaOf (P.lr k l) (P.la k l)) := by unfold chi; fun_prop
      refine to_lim ((hc.tendsto 0).comp (zxstar_tendsto M P x)) ?_
      simp [chi]
    have hd := (h.dkl_pos k l).ne'
    have hx := h.x0kl_pos k l
    have hσ : P.σ k l = x0kl P T k l * dkl P T k l := (div_mul_cancel₀ _ hd).symm
    rw [hσ]
    generalize x0kl P T k l = y at *
    have pa := pow_cancel hx (2 * P.la k l)
    have par := pow_cancel hx (P.la k l + P.lr k l)
    have pr := pow_cancel hx (2 * P.lr k l)
    have lim := ((tk.mul (((ta.const_mul (y ^ (2 * P.la k l))).sub
      (tar.const_mul (2 * y ^ (P.la k l + P.lr k l)))).add (tr.const_mul (y ^ (2 * P.lr k l))))).mul
      (tc.const_add 1)).const_mul
      (prefactor (P.lr k l) (P.la k l) ^ 2 * (cmol2seg P.g x * (Real.pi * P.ε k l ^ 2 * dkl P T k l ^ 3 * M))
        * xskl P.g x k l)
    refine (to_lim lim ?_).congr' ?_
    · simp only [kF_zero, khs]
      rw [show y ^ (2 * P.la k l) * -(y ^ (3 - 2 * P.la k l) / (2 * P.la k l - 3))
            = -((y ^ (2 * P.la k l) * y ^ (3 - 2 * P.la k l)) * (1 / (2 * P.la k l - 3))) by ring,
        show 2 * y ^ (P.la k l + P.lr k l) * -(y ^ (3 - (P.la k l + P.lr k l)) / (P.la k l + P.lr k l - 3))
            = -((y ^ (P.la k l + P.lr k l) * y ^ (3 - (P.la k l + P.lr k l))) * (2 / (P.la k l + P.lr k l - 3))) by ring,
        show y ^ (2 * P.lr k l) * -(y ^ (3 - 2 * P.lr k l) / (2 * P.lr k l - 3))
            = -((y ^ (2 * P.lr k l) * y ^ (3 - 2 * P.lr k l)) * (1 / (2 * P.lr k l - 3))) by ring, pa, par, pr]
      norm_num
      ring
    · filter_upwards [self_mem_nhdsWithin] with ρ hρ
      have hρ : ρ ≠ 0 := hρ
      simp only [a2NoChi, sum_kF, Function.comp]
      generalize kF (2 * P.la k l) y _ = A
      generalize kF (P.la k l + P.lr k l) y _ = A'
      generalize kF (2 * P.lr k l) y _ = B
      generalize y ^ (2 * P.la k l) = u
      generalize y ^ (P.la k l + P.lr k l) = u'
      generalize y ^ (2 * P.lr k l) = v
      generalize khs _ = K
      generalize chi _ _ = X
      field_simp
  have hs := (tendsto_sum2 hk).const_mul (cmol2seg P.g x / T ^ 2)
  refine (to_lim hs ?_).congr fun ρ => ?_
  · simp only [← Finset.mul_sum]; ring
  · simp only [asecond, ← Finset.sum_div]; ring

/-- **C117** (third order). -/
theorem c117_third (M T : ℝ) (P : Mie n m) (x : Fin n → ℝ) :
    Tendsto (fun ρ => athird M P ρ T x / ρ) (𝓝[≠] 0)
      (𝓝 (-(Real.pi / 6 * M * cmol2seg P.g x ^ 2 / T ^ 3) * (∑ k, ∑ l, xskl P.g x k l * P.σ k l ^ 3) *
        ∑ k, ∑ l, P.ε k l ^ 3 * f 3 (alphaOf (P.lr k l) (P.la k l)) * xskl P.g x k l)) := by
  have hk : ∀ k l, Tendsto (fun ρ => a3 (zxstar M P ρ x) (P.ε k l) (alphaOf (P.lr k l) (P.la k l)) * xskl P.g x k l / ρ)
      (𝓝[≠] 0)
      (𝓝 (-(Real.pi / 6 * M * cmol2seg P.g x * (∑ k, ∑ l, xskl P.g x k l * P.σ k l ^ 3)) *
        (P.ε k l ^ 3 * f 3 (alphaOf (P.lr k l) (P.la k l)) * xskl P.g x k l))) := by
    intro k l
    generalize alphaOf (P.lr k l) (P.la k l) = α
    have hc : Continuous fun zs => Real.exp (zs * f 4 α + zs ^ 2 * f 5 α) := by fun_prop
    have te := ((hc.tendsto 0).comp (zxstar_tendsto M P x)).const_mul
      (-(Real.pi / 6 * M * cmol2seg P.g x * (∑ k, ∑ l, xskl P.g x k l * P.σ k l ^ 3)) *
        (P.ε k l ^ 3 * f 3 α * xskl P.g x k l))
    refine (to_lim te (by simp)).congr' ?_
    filter_upwards [self_mem_nhdsWithin] with ρ hρ
    have hρ : ρ ≠ 0 := hρ
    have hz : zxstar M P ρ x
        = ρ * (Real.pi / 6 * M * cmol2seg P.g x * (∑ k, ∑ l, xskl P.g x k l * P.σ k l ^ 3)) := by
      simp only [zxstar, zetax, ← mul_assoc, ← Finset.sum_mul]; ring
    simp only [a3, Function.comp]
    generalize Real.exp _ = E
    rw [hz]
    field_simp
  have hs := (tendsto_sum2 hk).const_mul (cmol2seg P.g x / T ^ 3)
  refine (to_lim hs ?_).congr fun ρ => ?_
  · simp only [← Finset.mul_sum]; ring
  · simp only [athird, ← Finset.sum_div]; ring

/-- **C117** (signs): the slopes of the first and of the second order are attractive for every pair of groups. -/
theorem c117_attractive (lr la ε σ : ℝ) (ha : 3 < la) (hlr : la < lr) (hε : 0 < ε) (hσ : 0 < σ) :
    0 < ε * σ ^ 3 * alphaOf lr la ∧
    0 < ε ^ 2 * σ ^ 3 * prefactor lr la ^ 2 * (1 / (2 * la - 3) - 2 / (la + lr - 3) + 1 / (2 * lr - 3)) := by
  have hp := c58_prefactor_pos lr la (by linarith) hlr
  have h1 : 0 < 2 * la - 3 := by linarith
  have h2 : 0 < 2 * lr - 3 := by linarith
  have h3 : 0 < la + lr - 3 := by linarith
  have hc : 1 / (2 * la - 3) - 2 / (la + lr - 3) + 1 / (2 * lr - 3)
      = 2 * (lr - la) ^ 2 / ((2 * la - 3) * (la + lr - 3) * (2 * lr - 3)) := by
    field_simp; ring
  have hd : 0 < (lr - la) ^ 2 := by have : lr - la ≠ 0 := by linarith
                                    positivity
  refine ⟨mul_pos (by positivity) (c115_alpha_pos lr la ha hlr), ?_⟩
  rw [hc]
  positivity

/-- The part of a moment that does not depend on the density. -/
private noncomputable def mom (M : ℝ) (P : Mie n m) (T : ℝ) (x : Fin n → ℝ) (q : ℕ) : ℝ :=
  moment M 1 (cmol2seg P.g x) (xskl P.g x) (dkl P T) q

theorem moment_lin (M ρ C : ℝ) (w d : Fin m → Fin m → ℝ) (q : ℕ) :
    moment M ρ C w d q = ρ * moment M 1 C w d q := by
  unfold moment; ring

private theorem log_slope (c : ℝ) : Tendsto (fun ρ : ℝ => Real.log (1 - ρ * c) / ρ) (𝓝[≠] 0) (𝓝 (-c)) := by
  have h : HasDerivAt (fun ρ : ℝ => Real.log (1 - ρ * c)) (-c) 0 := by
    have h1 : HasDerivAt (fun ρ : ℝ => 1 - ρ * c) (-c) 0 := by
      simpa using ((hasDerivAt_id (0 : ℝ)).mul_const c).const_sub 1
    simpa using h1.log (by norm_num)
  have := hasDerivAt_iff_tendsto_slope.mp h
  refine this.congr fun ρ => ?_
  simp [slope_def_field]

theorem hs_slope (pure : Bool) (M : ℝ) (c : ℕ → ℝ) (hM : M ≠ 0) (hc : c 3 ≠ 0) :
    Tendsto (fun ρ => aHSmie pure M ρ (fun q => ρ * c q) / ρ) (𝓝[≠] 0)
      (𝓝 (6 / (Real.pi * M) * (3 * c 1 * c 2 + if pure then c 2 ^ 3 / c 3 else c 0 * c 3))) := by
  have hpi := Real.pi_ne_zero
  have tA : Tendsto (fun ρ : ℝ => 3 * c 2 / (1 - ρ * c 3) * c 1) (𝓝[≠] 0) (𝓝 (3 * c 2 / (1 - 0 * c 3) * c 1)) := by
    have : ContinuousAt (fun ρ : ℝ => 3 * c 2 / (1 - ρ * c 3) * c 1) 0 := by fun_prop (disch := norm_num)
    exact this.tendsto.mono_left nhdsWithin_le_nhds
  have tB : Tendsto (fun ρ : ℝ => c 2 ^ 3 / (c 3 * (1 - ρ * c 3) ^ 2)) (𝓝[≠] 0)
      (𝓝 (c 2 ^ 3 / (c 3 * (1 - 0 * c 3) ^ 2))) := by
    have : ContinuousAt (fun ρ : ℝ => c 2 ^ 3 / (c 3 * (1 - ρ * c 3) ^ 2)) 0 := by fun_prop (disch := simp [hc])
    exact this.tendsto.mono_left nhdsWithin_le_nhds
  have tL := (log_slope (c 3)).mul_const (c 2 ^ 3 / c 3 ^ 2 - c 0)
  cases pure with
  | true =>
    refine (to_lim ((tA.add tB).const_mul (6 / (Real.pi * M))) ?_).congr' ?_
    · simp only [zero_mul, sub_zero, one_pow, mul_one, div_one, if_true]; ring
    · filter_upwards [self_mem_nhdsWithin] with ρ hρ
      have hρ : ρ ≠ 0 := hρ
      simp only [aHSmie, if_true]
      generalize hq : 1 - ρ * c 3 = q
      by_cases h0 : q = 0
      · subst h0; simp
      · field_simp
        ring
  | false =>
    refine (to_lim (((tL.add tA).add tB).const_mul (6 / (Real.pi * M))) ?_).congr' ?_
    · simp only [Bool.false_eq_true, if_false, zero_mul, sub_zero, one_pow, mul_one, div_one]
      field_simp
      ring
    · filter_upwards [self_mem_nhdsWithin] with ρ hρ
      have hρ : ρ ≠ 0 := hρ
      simp only [aHSmie, Bool.false_eq_true, if_false]
      generalize hq : 1 - ρ * c 3 = q
      generalize Real.log q = L
      by_cases h0 : q = 0
      · subst h0; simp; field_simp
      · field_simp

/-- The moment of the third order is positive at a physical state. -/
private theorem mom3_pos (M T : ℝ) (P : Mie n m) (x : Fin n → ℝ) (hM : 0 < M) (h : Phys P T x) :
    0 < moment M 1 (cmol2seg P.g x) (xskl P.g x) (dkl P T) 3 := by
  have hC := h.cmol_pos
  have hxs : ∀ k, 0 ≤ xsk P.g x k := fun k =>
    div_nonneg (mul_nonneg (mul_nonneg (Finset.sum_nonneg fun i _ => mul_nonneg (h.x0 i) (h.ν i k)) (h.V k)) (h.S k)) hC.le
  have hsum : ∑ k, xsk P.g x k = 1 := by
    simp only [xsk, ← Finset.sum_div]
    rw [div_eq_one_iff_eq hC.ne']
    simp only [cmol2seg, Finset.sum_mul]
    rw [Finset.sum_comm]
  obtain ⟨k, -, hk⟩ : ∃ k ∈ Finset.univ, 0 < xsk P.g x k := by
    by_contra hc
    push Not at hc
    have : ∑ k, xsk P.g x k ≤ 0 := Finset.sum_nonpos hc
    rw [hsum] at this
    linarith
  have hS : 0 < ∑ k, √(xskl P.g x k k) * dkl P T k k ^ 3 :=
    Finset.sum_pos' (fun k _ => mul_nonneg (Real.sqrt_nonneg _) (pow_nonneg (h.dkl_pos k k).le 3))
      ⟨k, Finset.mem_univ _, mul_pos (Real.sqrt_pos.mpr (mul_pos hk hk)) (pow_pos (h.dkl_pos k k) 3)⟩
  have := Real.pi_pos
  unfold moment
  positivity

/-- **C117** (hard spheres): the slope at low density.  For a mixture it is the second virial coefficient of hard
spheres, `c₀c₃ + 3c₁c₂` in the moments `c_q` per unit of density; for one component `c₀c₃` is replaced by `c₂³/c₃`. -/
theorem c117_hard_spheres (M T : ℝ) (P : Mie n m) (x : Fin n → ℝ) (hM : 0 < M) (h : Phys P T x) :
    Tendsto (fun ρ => ahs M P ρ T x / ρ) (𝓝[≠] 0)
      (𝓝 (6 / (Real.pi * M) *
        (3 * moment M 1 (cmol2seg P.g x) (xskl P.g x) (dkl P T) 1 * moment M 1 (cmol2seg P.g x) (xskl P.g x) (dkl P T) 2
          + if (n == 1) = true then moment M 1 (cmol2seg P.g x) (xskl P.g x) (dkl P T) 2 ^ 3
                / moment M 1 (cmol2seg P.g x) (xskl P.g x) (dkl P T) 3
            else moment M 1 (cmol2seg P.g x) (xskl P.g x) (dkl P T) 0
                * moment M 1 (cmol2seg P.g x) (xskl P.g x) (dkl P T) 3))) := by
  refine (hs_slope (n == 1) M (moment M 1 (cmol2seg P.g x) (xskl P.g x) (dkl P T)) hM.ne'
    (mom3_pos M T P x hM h).ne').congr fun ρ => ?_
  unfold ahs mieHardSphere
  rw [show (moment M ρ (cmol2seg P.g x) (xskl P.g x) (dklOf (dk P T)))
    = fun q => ρ * moment M 1 (cmol2seg P.g x) (xskl P.g x) (dkl P T) q from funext fun q => moment_lin _ _ _ _ _ q]

/-- **C117** (the monomer terms vanish): a function with a finite slope vanishes with the density. -/
theorem c117_vanish (M T : ℝ) (P : Mie n m) (x : Fin n → ℝ) (hM : 0 < M) (h : Phys P T x) :
    Tendsto (fun ρ => ahs M P ρ T x + afirst M P ρ T x + asecond M P ρ T x + athird M P ρ T x) (𝓝[≠] 0) (𝓝 0) := by
  have hv : ∀ {F : ℝ → ℝ} {a : ℝ}, Tendsto (fun ρ => F ρ / ρ) (𝓝[≠] 0) (𝓝 a) → Tendsto F (𝓝[≠] 0) (𝓝 0) := by
    intro F a hF
    have hid : Tendsto (fun ρ : ℝ => ρ) (𝓝[≠] 0) (𝓝 0) := tendsto_id.mono_left nhdsWithin_le_nhds
    refine (to_lim (hF.mul hid) (mul_zero a)).congr' ?_
    filter_upwards [self_mem_nhdsWithin] with ρ hρ
    exact div_mul_cancel₀ _ hρ
  have := ((hv (c117_hard_spheres M T P x hM h)).add (hv (c117_first M T P x hM.ne' h))).add
    (hv (c117_second M T P x hM.ne' h)) |>.add (hv (c117_third M T P x))
  simpa using this

/-- A diatomic molecule of two groups with the same potential, one twice as large as the other. -/
noncomputable def dimer : Mie 1 2 where
  g := ⟨fun _ _ => 1, fun _ => 1, fun _ => 1⟩
  ε := fun _ _ => 100
  σ := fun k l => (![1, 2] k + ![1, 2] l) / 2
  lr := fun _ _ => 12
  la := fun _ _ => 6
  bε := fun _ => 100
  bσ := ![1, 2]
  blr := fun _ => 12
  bla := fun _ => 6
  rings := fun _ => 0

private theorem dimer_avg (c : ℝ) (i : Fin 1) : avg dimer (fun _ _ => c) i = c := by
  simp [avg, zfrac, zki, dimer]; ring

/-- The molecule at room temperature is a physical state (and shows that the hypotheses above can be met). -/
theorem dimer_phys : Phys dimer 300 (fun _ => 1) where
  T := by norm_num
  x0 := by intro i; norm_num
  xsum := by simp
  ν := by intro i k; simp [dimer]
  V := by intro k; simp [dimer]
  S := by intro k; simp [dimer]
  seg := by intro i; simp [zki, dimer]
  ε := by intro k l; simp [dimer]
  σ := by intro k l; fin_cases k <;> fin_cases l <;> norm_num [dimer]
  la := by intro k l; norm_num [dimer]
  lr := by intro k l; norm_num [dimer]
  la4 := by intro k l; norm_num [dimer]
  lr4 := by intro k l; norm_num [dimer]
  lai4 := by intro i; show avg dimer (fun _ _ => 6) i ≠ 4; rw [dimer_avg]; norm_num
  lri4 := by intro i; show avg dimer (fun _ _ => 12) i ≠ 4; rw [dimer_avg]; norm_num
  bε := by intro k; norm_num [dimer]
  bσ := by intro k; fin_cases k <;> norm_num [dimer]
  bla := by intro k; norm_num [dimer]
  blr := by intro k; norm_num [dimer]

/-- **C117**, where it fails: the second virial coefficient of hard spheres is `c₀c₃ + 3c₁c₂` whatever the number of
components.  For a pure fluid of a molecule with two groups of different sizes the coded slope is another number. -/
theorem c117_violated_dimer (M : ℝ) (hM : 0 < M) :
    ¬ Tendsto (fun ρ => ahs M dimer ρ 300 (fun _ => 1) / ρ) (𝓝[≠] 0)
      (𝓝 (6 / (Real.pi * M) *
        (3 * moment M 1 (cmol2seg dimer.g fun _ => 1) (xskl dimer.g fun _ => 1) (dkl dimer 300) 1
            * moment M 1 (cmol2seg dimer.g fun _ => 1) (xskl dimer.g fun _ => 1) (dkl dimer 300) 2
          + moment M 1 (cmol2seg dimer.g fun _ => 1) (xskl dimer.g fun _ => 1) (dkl dimer 300) 0
            * moment M 1 (cmol2seg dimer.g fun _ => 1) (xskl dimer.g fun _ => 1) (dkl dimer 300) 3))) := by
  intro hT
  have hL := c117_hard_spheres M 300 dimer (fun _ => 1) hM dimer_phys
  have he := tendsto_nhds_unique hT hL
  have hp : 6 / (Real.pi * M) ≠ 0 := div_ne_zero (by norm_num) (mul_ne_zero Real.pi_ne_zero hM.ne')
  have he := mul_left_cancel₀ hp he
  have hd : 0 < dk dimer 300 0 := dimer_phys.dk_pos 0
  have h2 : dk dimer 300 1 = 2 * dk dimer 300 0 := by
    have := c60_diameter_scale 100 1 300 12 6 2 two_ne_zero
    rw [mul_one] at this
    exact this
  have hC : cmol2seg dimer.g (fun _ => 1) = 2 := by simp [cmol2seg, dimer]
  have hx : ∀ k, xskl dimer.g (fun _ => 1) k k = (1 / 2) ^ 2 := fun k => by
    unfold xskl xsk; rw [hC]; simp [dimer]; ring
  have hm : ∀ q, moment M 1 (cmol2seg dimer.g fun _ => 1) (xskl dimer.g fun _ => 1) (dkl dimer 300) q
      = M * (Real.pi / 6) * (1 + 2 ^ q) * dk dimer 300 0 ^ q := by
    intro q
    have d0 : dkl dimer 300 0 0 = dk dimer 300 0 := by unfold dkl dklOf; ring
    have d1 : dkl dimer 300 1 1 = 2 * dk dimer 300 0 := by unfold dkl dklOf; rw [h2]; ring
    simp only [moment, hC, hx, Real.sqrt_sq (show (0 : ℝ) ≤ 1 / 2 by norm_num), Fin.sum_univ_two, Fin.isValue, d0, d1]
    rw [mul_pow]; ring
  simp only [hm] at he
  have hq : M * (Real.pi / 6) ≠ 0 := mul_ne_zero hM.ne' (by have := Real.pi_ne_zero; positivity)
  generalize M * (Real.pi / 6) = Q at he hq
  generalize dk dimer 300 0 = D at he hd
  have hD := hd.ne'
  norm_num at he
  field_simp at he
  norm_num at he

/-! ## C118: the chain term -/

private theorem g1_form (M ρ C d la lr x0 ε z : ℝ) (hM : M ≠ 0) (hρ : ρ ≠ 0) (hC : C ≠ 0) (hd : d ≠ 0) (hε : ε ≠ 0) :
    g1Of M ρ C d la lr x0 ε z = prefactor lr la * (3 * (x0 ^ la * dkF la x0 z - x0 ^ lr * dkF lr x0 z)
      - la * x0 ^ la * kF la x0 z + lr * x0 ^ lr * kF lr x0 z) := by
  have hpi := Real.pi_ne_zero
  simp only [g1Of, da1ii, sum_kF, sum_dkF]
  generalize kF la x0 z = a
  generalize kF lr x0 z = b
  generalize dkF la x0 z = a'
  generalize dkF lr x0 z = b'
  generalize x0 ^ la = u
  generalize x0 ^ lr = v
  field_simp

private noncomputable def dkhsZ (z : ℝ) : ℝ :=
  4 * (z ^ 2 - 5 * z - 2) * (1 - z) ^ 3 / (z ^ 4 - 4 * z ^ 3 + 4 * z ^ 2 + 4 * z + 1) ^ 2 * z

private theorem g2_form (M ρ C d la lr x0 ε z : ℝ) (hM : M ≠ 0) (hρ : ρ ≠ 0) (hC : C ≠ 0) (hd : d ≠ 0) (hε : ε ≠ 0) :
    g2mcaOf M ρ C d la lr x0 ε z = prefactor lr la ^ 2 *
      (3 / 2 * ((x0 ^ (2 * la) * dkF (2 * la) x0 z - 2 * x0 ^ (la + lr) * dkF (la + lr) x0 z
          + x0 ^ (2 * lr) * dkF (2 * lr) x0 z) * khs z
        + (x0 ^ (2 * la) * kF (2 * la) x0 z - 2 * x0 ^ (la + lr) * kF (la + lr) x0 z
          + x0 ^ (2 * lr) * kF (2 * lr) x0 z) * dkhsZ z)
        + khs z * (-(lr * x0 ^ (2 * lr) * kF (2 * lr) x0 z) + (lr + la) * x0 ^ (la + lr) * kF (la + lr) x0 z
          - la * x0 ^ (2 * la) * kF (2 * la) x0 z)) := by
  have hpi := Real.pi_ne_zero
  have hk : dKHS (ρ * C) z = dkhsZ z / (ρ * C) := by unfold dKHS dkhsZ; ring
  simp only [g2mcaOf, da2, sum_kF, sum_dkF, hk]
  rw [add_comm lr la]
  generalize kF (2 * la) x0 z = a
  generalize kF (la + lr) x0 z = c
  generalize kF (2 * lr) x0 z = b
  generalize dkF (2 * la) x0 z = a'
  generalize dkF (la + lr) x0 z = c'
  generalize dkF (2 * lr) x0 z = b'
  generalize x0 ^ (2 * la) = u
  generalize x0 ^ (la + lr) = w
  generalize x0 ^ (2 * lr) = v
  generalize khs z = K
  generalize dkhsZ z = D
  rw [show (0.5 : ℝ) = 1 / 2 by norm_num]
  field_simp
  ring

/-- **C118** (first-order contact value): it vanishes at zero density, for every component. -/
theorem c118_g1_zero (M T : ℝ) (P : Mie n m) (x : Fin n → ℝ) (hM : M ≠ 0) (h : Phys P T x) (i : Fin n) :
    Tendsto (fun ρ => g1 M P ρ T x i) (𝓝[≠] 0) (𝓝 0) := by
  have tz := zx_tendsto M P T x
  have hla := h.laii_gt i
  have hlr := h.lrii_gt i
  have hx := h.x0ii_pos i
  have pa := pow_cancel hx (laii P i)
  have pr := pow_cancel hx (lrii P i)
  have h1 : laii P i - 3 ≠ 0 := by linarith
  have h2 : lrii P i - 3 ≠ 0 := by linarith
  unfold g1
  generalize laii P i = la at *
  generalize lrii P i = lr at *
  generalize x0ii P T i = y at *
  have lim := (((((dkF_cont la y).tendsto.comp tz).const_mul (y ^ la)).sub
      (((dkF_cont lr y).tendsto.comp tz).const_mul (y ^ lr))).const_mul 3).sub
      (((kF_cont la y).tendsto.comp tz).const_mul (la * y ^ la)) |>.add
      (((kF_cont lr y).tendsto.comp tz).const_mul (lr * y ^ lr)) |>.const_mul (prefactor lr la)
  refine (to_lim lim ?_).congr' ?_
  · simp only [kF_zero, dkF_zero]
    have e : 3 * (y ^ la * -(y ^ (3 - la) / (la - 3)) - y ^ lr * -(y ^ (3 - lr) / (lr - 3)))
        - la * y ^ la * -(y ^ (3 - la) / (la - 3)) + lr * y ^ lr * -(y ^ (3 - lr) / (lr - 3))
        = (y ^ la * y ^ (3 - la)) * ((la - 3) / (la - 3)) - (y ^ lr * y ^ (3 - lr)) * ((lr - 3) / (lr - 3)) := by ring
    rw [e, pa, pr, div_self h1, div_self h2]
    ring
  · filter_upwards [self_mem_nhdsWithin] with ρ hρ
    exact (g1_form M ρ _ _ la lr y _ _ hM hρ h.cmol_pos.ne' (h.dii_pos i).ne' (h.epsii_pos i).ne').symm

private theorem dkhsZ_cont : Continuous dkhsZ := by
  unfold dkhsZ
  refine Continuous.mul (Continuous.div (by fun_prop) (by fun_prop) fun z => ?_) continuous_id
  have := GammaMie.khs_den_pos z
  exact pow_ne_zero 2 (by linarith)

/-- **C118** (second-order contact value): it vanishes at zero density, for every component. -/
theorem c118_g2_zero (M T : ℝ) (P : Mie n m) (x : Fin n → ℝ) (hM : M ≠ 0) (h : Phys P T x) (i : Fin n) :
    Tendsto (fun ρ => g2 M P ρ T x i) (𝓝[≠] 0) (𝓝 0) := by
  have tz := zx_tendsto M P T x
  have hla := h.laii_gt i
  have hlr := h.lrii_gt i
  have hx := h.x0ii_pos i
  have tg : Tendsto (fun ρ => gammac (zxstar M P ρ x) (epsii P i) T (alphaOf (lrii P i) (laii P i))) (𝓝[≠] 0)
      (𝓝 0) := by
    have hc : Continuous fun zs => gammac zs (epsii P i) T (alphaOf (lrii P i) (laii P i)) := by
      unfold gammac; fun_prop
    refine to_lim ((hc.tendsto 0).comp (zxstar_tendsto M P x)) ?_
    simp [gammac]
  have h1 : 2 * laii P i - 3 ≠ 0 := by linarith
  have h2 : 2 * lrii P i - 3 ≠ 0 := by linarith
  have h3 : laii P i + lrii P i - 3 ≠ 0 := by linarith
  unfold g2
  generalize alphaOf (lrii P i) (laii P i) = α at *
  generalize laii P i = la at *
  generalize lrii P i = lr at *
  generalize x0ii P T i = y at *
  have pa := pow_cancel hx (2 * la)
  have pc := pow_cancel hx (la + lr)
  have pr := pow_cancel hx (2 * lr)
  have ka := ((kF_cont (2 * la) y).tendsto.comp tz)
  have kc := ((kF_cont (la + lr) y).tendsto.comp tz)
  have kr := ((kF_cont (2 * lr) y).tendsto.comp tz)
  have da := ((dkF_cont (2 * la) y).tendsto.comp tz)
  have dc := ((dkF_cont (la + lr) y).tendsto.comp tz)
  have dr := ((dkF_cont (2 * lr) y).tendsto.comp tz)
  have tk := (khs_cont.tendsto 0).comp tz
  have td := (dkhsZ_cont.tendsto 0).comp tz
  have lim := ((((((da.const_mul (y ^ (2 * la))).sub (dc.const_mul (2 * y ^ (la + lr)))).add
      (dr.const_mul (y ^ (2 * lr)))).mul tk).add
      ((((ka.const_mul (y ^ (2 * la))).sub (kc.const_mul (2 * y ^ (la + lr)))).add
      (kr.const_mul (y ^ (2 * lr)))).mul td)).const_mul (3 / 2)).add
      (tk.mul (((kr.const_mul (lr * y ^ (2 * lr))).neg.add (kc.const_mul ((lr + la) * y ^ (la + lr)))).sub
        (ka.const_mul (la * y ^ (2 * la))))) |>.const_mul (prefactor lr la ^ 2)
  have lim2 := (tg.const_add 1).mul lim
  refine (to_lim lim2 ?_).congr' ?_
  · simp only [kF_zero, dkF_zero]
    have hk0 : khs 0 = 1 := by simp [khs]
    have hd0 : dkhsZ 0 = 0 := by simp [dkhsZ]
    rw [hk0, hd0]
    have e : 3 / 2 * ((y ^ (2 * la) * -(y ^ (3 - 2 * la) / (2 * la - 3))
          - 2 * y ^ (la + lr) * -(y ^ (3 - (la + lr)) / (la + lr - 3))
          + y ^ (2 * lr) * -(y ^ (3 - 2 * lr) / (2 * lr - 3))) * 1
        + (y ^ (2 * la) * -(y ^ (3 - 2 * la) / (2 * la - 3))
          - 2 * y ^ (la + lr) * -(y ^ (3 - (la + lr)) / (la + lr - 3))
          + y ^ (2 * lr) * -(y ^ (3 - 2 * lr) / (2 * lr - 3))) * 0)
        + 1 * (-(lr * y ^ (2 * lr) * -(y ^ (3 - 2 * lr) / (2 * lr - 3)))
          + (lr + la) * y ^ (la + lr) * -(y ^ (3 - (la + lr)) / (la + lr - 3))
          - la * y ^ (2 * la) * -(y ^ (3 - 2 * la) / (2 * la - 3)))
        = (y ^ (2 * la) * y ^ (3 - 2 * la)) * (((2 * la - 3) / (2 * la - 3)) / 2)
          - (y ^ (la + lr) * y ^ (3 - (la + lr))) * ((la + lr - 3) / (la + lr - 3))
          + (y ^ (2 * lr) * y ^ (3 - 2 * lr)) * (((2 * lr - 3) / (2 * lr - 3)) / 2) := by ring
    rw [e, pa, pc, pr, div_self h1, div_self h2, div_self h3]
    ring
  · filter_upwards [self_mem_nhdsWithin] with ρ hρ
    rw [g2_form M ρ _ _ la lr y _ _ hM hρ h.cmol_pos.ne' (h.dii_pos i).ne' (h.epsii_pos i).ne']
    rfl

/-- **C118** (contact value): at zero density the radial distribution function at contact is that of an ideal gas. -/
theorem c118_contact (M T : ℝ) (P : Mie n m) (x : Fin n → ℝ) (hM : M ≠ 0) (h : Phys P T x) (i : Fin n) :
    Tendsto (fun ρ => gii M P ρ T x i) (𝓝[≠] 0) (𝓝 1) := by
  have hc : ContinuousAt (gdHS (x0ii P T i)) 0 := by unfold gdHS; fun_prop (disch := norm_num)
  have t0 : Tendsto (fun ρ => gdHS (x0ii P T i) (zx M P ρ T x)) (𝓝[≠] 0) (𝓝 1) :=
    to_lim (hc.tendsto.comp (zx_tendsto M P T x)) (by simp [gdHS])
  have t1 := c118_g1_zero M T P x hM h i
  have t2 := c118_g2_zero M T P x hM h i
  have hT := h.T.ne'
  have e1 := (t1.const_mul (epsii P i)).div (t0.const_mul T) (by simpa using hT)
  have e2 := (t2.const_mul ((epsii P i / T) ^ 2)).div t0 one_ne_zero
  have te := (Real.continuous_exp.tendsto _).comp (e1.add e2)
  exact to_lim (t0.mul te) (by simp)

/-- **C118** (limit): the chain term vanishes at zero density. -/
theorem c118_chain_zero (M T : ℝ) (P : Mie n m) (x : Fin n → ℝ) (hM : M ≠ 0) (h : Phys P T x) :
    Tendsto (fun ρ => achain M P ρ T x) (𝓝[≠] 0) (𝓝 0) := by
  have hi : ∀ i, Tendsto (fun ρ => x i * beadsum P i * Real.log (gii M P ρ T x i)) (𝓝[≠] 0) (𝓝 0) := fun i =>
    to_lim (((Real.continuousAt_log one_ne_zero).tendsto.comp (c118_contact M T P x hM h i)).const_mul _) (by simp)
  have := (tendsto_finsetSum Finset.univ fun i _ => hi i).neg
  simpa [achain] using this

/-- **C118** (the logarithm): the contact value is positive at every density and temperature, and its logarithm is the
hard-sphere part plus the two corrections. -/
theorem c118_contact_pos (M ρ T : ℝ) (P : Mie n m) (x : Fin n → ℝ) (i : Fin n) :
    0 < gii M P ρ T x i ∧ Real.log (gii M P ρ T x i) = Real.log (gdHS (x0ii P T i) (zx M P ρ T x))
      + (epsii P i / T * g1 M P ρ T x i + (epsii P i / T) ^ 2 * g2 M P ρ T x i)
        / gdHS (x0ii P T i) (zx M P ρ T x) := by
  have hg : 0 < gdHS (x0ii P T i) (zx M P ρ T x) := Real.exp_pos _
  refine ⟨mul_pos hg (Real.exp_pos _), ?_⟩
  unfold gii
  rw [Real.log_mul hg.ne' (Real.exp_ne_zero _), Real.log_exp, mul_comm T, ← div_div, add_div]
  ring

private lemma tanh_mono {a b : ℝ} (h : a ≤ b) : Real.tanh a ≤ Real.tanh b := by
  rw [Real.tanh_eq_sinh_div_cosh, Real.tanh_eq_sinh_div_cosh, div_le_div_iff₀ (Real.cosh_pos _) (Real.cosh_pos _)]
  have := Real.sinh_nonneg_iff.mpr (sub_nonneg.mpr h)
  rw [Real.sinh_sub] at this
  linarith [mul_comm (Real.cosh b) (Real.sinh a)]

/-- **C118** (the correction of the second-order contact value): it vanishes without attraction and at zero density, is
never negative, is at most twenty times the packing fraction times the Mayer function at the depth of the well, and grows
with the range of the attraction. -/
theorem c118_correction (zs ε T α : ℝ) (hz : 0 ≤ zs) (hε : 0 ≤ ε) (hT : 0 < T) :
    gammac zs 0 T α = 0 ∧ gammac 0 ε T α = 0 ∧ 0 ≤ gammac zs ε T α ∧
      gammac zs ε T α ≤ 20 * zs * (Real.exp (ε / T) - 1) ∧
      ∀ β, α ≤ β → gammac zs ε T α ≤ gammac zs ε T β := by
  have hm : 0 ≤ Real.exp (ε / T) - 1 := by
    have := Real.one_le_exp (div_nonneg hε hT.le)
    linarith
  have he1 : Real.exp (-6.7 * zs + -8 * zs ^ 2) ≤ 1 := Real.exp_le_one_iff.mpr (by nlinarith [sq_nonneg zs])
  have he0 := (Real.exp_pos (-6.7 * zs + -8 * zs ^ 2)).le
  refine ⟨by simp [gammac], by simp [gammac], ?_, ?_, fun β hβ => ?_⟩
  · have := Real.tanh_lt_one (10 * (0.57 - α))
    unfold gammac
    exact mul_nonneg (mul_nonneg (mul_nonneg (by linarith) hz) hm) he0
  · have h1 := Real.tanh_lt_one (10 * (0.57 - α))
    have h2 := Real.neg_one_lt_tanh (10 * (0.57 - α))
    unfold gammac
    refine (mul_le_of_le_one_right (mul_nonneg (mul_nonneg (by linarith) hz) hm) he1).trans ?_
    exact mul_le_mul_of_nonneg_right (mul_le_mul_of_nonneg_right (by linarith) hz) hm
  · have h1 : Real.tanh (10 * (0.57 - β)) ≤ Real.tanh (10 * (0.57 - α)) := tanh_mono (by linarith)
    unfold gammac
    exact mul_le_mul_of_nonneg_right (mul_le_mul_of_nonneg_right (mul_le_mul_of_nonneg_right (by linarith) hz) hm) he0

/-- **C118** (the threshold of the range): without the tail of the hyperbolic tangent, at `α = 0.57` the correction is ten
times packing fraction, Mayer function and damping. -/
theorem c118_threshold (zs ε T : ℝ) :
    gammac zs ε T 0.57 = 10 * zs * (Real.exp (ε / T) - 1) * Real.exp (-(6.7 * zs + 8 * zs ^ 2)) := by
  unfold gammac
  rw [show (0.57 : ℝ) - 0.57 = 0 by ring, mul_zero, Real.tanh_zero,
    show -6.7 * zs + -8 * zs ^ 2 = -(6.7 * zs + 8 * zs ^ 2) by ring]
  ring

/-- **C118** (monomers): a mixture of molecules of one segment each has no chain term. -/
theorem c118_monomers (M ρ T : ℝ) (P : Mie n m) (x : Fin n → ℝ) (hr : ∀ i, P.rings i = 0)
    (h1 : ∀ i, ∑ k, P.g.ν i k * P.g.V k * P.g.S k = 1) : achain M P ρ T x = 0 := by
  have : ∀ i, beadsum P i = 0 := fun i => by simp [beadsum, hr i, h1 i]
  simp [achain, this]

/-- **C118** (bonds): a linear molecule of `s` segments has `s - 1` bonds, a ring of `s` segments has `s`; the chain
term of a pure fluid is minus the number of bonds times the logarithm of the contact value. -/
theorem c118_bonds (M ρ T s r : ℝ) (P : Mie 1 m) (hr : P.rings 0 = r) (hs : ∑ k, P.g.ν 0 k * P.g.V k * P.g.S k = s) :
    achain M P ρ T (fun _ => 1) = -(s - 1 + r) * Real.log (gii M P ρ T (fun _ => 1) 0) := by
  simp only [achain, beadsum, Fin.sum_univ_one, Fin.isValue, hr, hs]
  ring

example : beadsum dimer 0 = 1 := by simp [beadsum, dimer]; norm_num

example (M : ℝ) (hM : M ≠ 0) : Tendsto (fun ρ => achain M dimer ρ 300 fun _ => 1) (𝓝[≠] 0) (𝓝 0) :=
  c118_chain_zero M 300 dimer _ hM dimer_phys

/-- The hypotheses of `c116_length_chain`. -/
example : Sizes dimer 300 :=
  ⟨dimer_phys.ν, dimer_phys.V, dimer_phys.S, fun k l => (dimer_phys.σ k l).le, fun k l => (dimer_phys.dkl_pos k l).le⟩

end Verif.Props
