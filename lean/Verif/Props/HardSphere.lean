import Mathlib.Analysis.SpecialFunctions.Log.Deriv
import Mathlib.Analysis.Calculus.Deriv.Inv
import Mathlib.Analysis.Calculus.Deriv.Pow
import Mathlib.Analysis.SpecialFunctions.Pow.Deriv
import Verif.Props.SaftToolbox
import Verif.Model.GammaMie
import Verif.Model.GammaSW

/-!
# C91: the hard-sphere terms belong to one hard-sphere equation of state
-/

namespace Verif.Props
open Verif.Saft

variable {n m : ℕ}

/-- The Carnahan-Starling compressibility factor. -/
noncomputable def zCS (z : ℝ) : ℝ := (1 + z + z ^ 2 - z ^ 3) / (1 - z) ^ 3

/-- The Carnahan-Starling excess energy per segment. -/
noncomputable def aCS (z : ℝ) : ℝ := (4 * z - 3 * z ^ 2) / (1 - z) ^ 2

/-- The compressibility factor of the mixture equation of Boublík, Mansoori, Carnahan, Starling and
Leland from the four moments (in units of the number density), without the ideal part. -/
noncomputable def zBMCSL (ζ : ℕ → ℝ) : ℝ :=
  ζ 0 * ζ 3 / (1 - ζ 3) + 3 * ζ 1 * ζ 2 / (1 - ζ 3) ^ 2 + (3 - ζ 3) * ζ 2 ^ 3 / (1 - ζ 3) ^ 3

/-- **C91** (equal diameters). With one diameter the coded energy is the Carnahan-Starling energy times
the number of segments, with and without the special case for one component. -/
theorem c91_equal_diameters (pure : Bool) (M ρ C d : ℝ) (hM : 0 < M) (hρ : 0 < ρ) (hC : 0 < C)
    (hd : 0 < d) (h1 : ρ * M * C * (Real.pi / 6) * d ^ 3 < 1) :
    aHSmie pure M ρ (fun q => ρ * M * C * (Real.pi / 6) * d ^ q) =
      C * aCS (ρ * M * C * (Real.pi / 6) * d ^ 3) := by
  have hp := Real.pi_pos
  have hk : 0 < ρ * M * C * (Real.pi / 6) := by positivity
  have ht : 6 / (Real.pi * ρ * M) = C / (ρ * M * C * (Real.pi / 6)) := by field_simp
  unfold aHSmie aCS
  simp only [ht]
  set k := ρ * M * C * (Real.pi / 6) with hkdef
  have hne : (1 - k * d ^ 3) ≠ 0 := by linarith
  have hlog : (k * d ^ 2) ^ 3 / (k * d ^ 3) ^ 2 - k * d ^ 0 = 0 := by
    field_simp; ring
  rw [hlog]
  have hk0 := hk.ne'
  have hd0 := hd.ne'
  have : (if pure = true then 0 else Real.log (1 - k * d ^ 3) * 0) = (0 : ℝ) := by split <;> simp
  rw [this]
  field_simp
  ring

/-- **C91** (equal diameters, mixture). The Mie hard-sphere term of a mixture all of whose groups have
the same diameter is Carnahan-Starling at the packing fraction of `calc_zetax`. -/
theorem c91_mixture (M ρ d : ℝ) (g : Groups n m) (x : Fin n → ℝ) (hx : ∀ i, 0 ≤ x i)
    (hν : ∀ i k, 0 ≤ g.ν i k) (hV : ∀ k, 0 ≤ g.V k) (hS : ∀ k, 0 ≤ g.S k) (hC : 0 < cmol2seg g x)
    (hM : 0 < M) (hρ : 0 < ρ) (hd : 0 < d)
    (h1 : zetax M ρ (cmol2seg g x) (xskl g x) (dklOf fun _ => d) < 1) :
    mieHardSphere M ρ g x (fun _ => d) =
      cmol2seg g x * aCS (zetax M ρ (cmol2seg g x) (xskl g x) (dklOf fun _ => d)) := by
  have hdd : ∀ k l : Fin m, dklOf (fun _ => d) k l = d := by intro k l; simp [dklOf]
  have hmom : moment M ρ (cmol2seg g x) (xskl g x) (dklOf fun _ => d) =
      fun q => ρ * M * cmol2seg g x * (Real.pi / 6) * d ^ q := by
    funext q
    unfold moment
    have : (∑ k, √(xskl g x k k) * dklOf (fun _ => d) k k ^ q) = d ^ q := by
      simp only [hdd, c17_sqrt_diag g x hx hν hV hS]
      rw [← Finset.sum_mul, c17_xsk_sum_one g x hC.ne', one_mul]
    rw [this]; ring
  have hz : zetax M ρ (cmol2seg g x) (xskl g x) (dklOf fun _ => d) =
      ρ * M * cmol2seg g x * (Real.pi / 6) * d ^ 3 := by
    unfold zetax
    simp only [hdd]
    have : (∑ k, ∑ l, xskl g x k l * (d ^ 3 * M)) = d ^ 3 * M := by
      simp only [← Finset.sum_mul]
      rw [(c17_xskl g x hx hν hV hS hC.ne').2.2, one_mul]
    rw [this]; ring
  rw [hz] at h1 ⊢
  unfold mieHardSphere
  rw [hmom]
  exact c91_equal_diameters _ M ρ _ d hM hρ hC hd h1

/-- **C91** (mixtures). The density derivative of the coded energy is the BMCSL pressure: `ρ ∂a/∂ρ` is
the excess compressibility factor. -/
theorem c91_bmcsl (M ρ : ℝ) (c : ℕ → ℝ) (hM : 0 < M) (hρ : 0 < ρ) (hc : 0 < c 3) (h1 : ρ * c 3 < 1) :
    HasDerivAt (fun ρ => aHSmie false M ρ (fun q => ρ * c q))
      (6 / (Real.pi * ρ * M) * zBMCSL (fun q => ρ * c q) / ρ) ρ := by
  have hp := Real.pi_pos
  have hne : 1 - ρ * c 3 ≠ 0 := by linarith
  have hc3 := hc.ne'
  have hρ0 := hρ.ne'
  have hM0 := hM.ne'
  have hp0 := hp.ne'
  -- the same function with the factor `1/ρ` cancelled
  have hloc : (fun ρ => aHSmie false M ρ (fun q => ρ * c q)) =ᶠ[nhds ρ]
      fun ρ => 6 / (Real.pi * M) * (Real.log (1 - ρ * c 3) * (c 2 ^ 3 / c 3 ^ 2 - c 0)
        + 3 * c 1 * c 2 * (ρ / (1 - ρ * c 3)) + c 2 ^ 3 / c 3 * (ρ / (1 - ρ * c 3) ^ 2)) := by
    have hopen : {y : ℝ | 0 < y ∧ y * c 3 < 1} ∈ nhds ρ := by
      refine IsOpen.mem_nhds ?_ ⟨hρ, h1⟩
      exact (isOpen_lt continuous_const continuous_id).inter
        (isOpen_lt (continuous_id.mul continuous_const) continuous_const)
    filter_upwards [hopen] with y hy
    obtain ⟨hy0, hy1⟩ := hy
    have hyne : 1 - y * c 3 ≠ 0 := by linarith
    have hy0' := hy0.ne'
    simp only [aHSmie, Bool.false_eq_true, if_false]
    generalize Real.log (1 - y * c 3) = L
    field_simp
  refine HasDerivAt.congr_of_eventuallyEq ?_ hloc
  have hid : HasDerivAt (fun y : ℝ => 1 - y * c 3) (-c 3) ρ := by
    have := ((hasDerivAt_id ρ).mul_const (c 3)).const_sub 1
    simpa using this
  have hlog := hid.log hne
  have hdiv := (hasDerivAt_id ρ).div hid hne
  have hsq := hid.pow 2
  have hdiv2 := (hasDerivAt_id ρ).div hsq (pow_ne_zero 2 hne)
  have hall := (((hlog.mul_const (c 2 ^ 3 / c 3 ^ 2 - c 0)).add (hdiv.const_mul (3 * c 1 * c 2))).add
    (hdiv2.const_mul (c 2 ^ 3 / c 3))).const_mul (6 / (Real.pi * M))
  refine hall.congr_deriv ?_
  simp only [zBMCSL, id_eq, Pi.pow_apply, Nat.cast_ofNat]
  rw [show 2 - 1 = 1 from rfl, pow_one]
  have hu : ρ * c 3 = 1 - (1 - ρ * c 3) := by ring
  have hz : ∀ u : ℝ, u ≠ 0 → ∀ z : ℝ, z = 1 - u → z = ρ * c 3 →
      6 / (Real.pi * M) * (-c 3 / u * (c 2 ^ 3 / c 3 ^ 2 - c 0)
        + 3 * c 1 * c 2 * ((1 * u - ρ * -c 3) / u ^ 2)
        + c 2 ^ 3 / c 3 * ((1 * u ^ 2 - ρ * (2 * u * -c 3)) / (u ^ 2) ^ 2))
      = 6 / (Real.pi * ρ * M) * (ρ * c 0 * z / u + 3 * (ρ * c 1) * (ρ * c 2) / u ^ 2
        + (3 - z) * (ρ * c 2) ^ 3 / u ^ 3) / ρ := by
    intro u hu0 z hz1 hz2
    have hc3' : c 3 = (1 - u) / ρ := by field_simp; linarith
    have hu1 : (1 - u) ≠ 0 := by rw [← hz1, hz2]; positivity
    rw [hc3', hz1]
    field_simp
    ring
  exact hz _ hne _ hu rfl

/-- **C91** (Carnahan-Starling energy and pressure). -/
theorem c91_cs_energy (z : ℝ) (h1 : z < 1) : HasDerivAt (fun z => aCS z) ((zCS z - 1) / z) z ∨ z = 0 := by
  by_cases hz : z = 0
  · exact Or.inr hz
  left
  have hne : 1 - z ≠ 0 := by linarith
  have hnum : HasDerivAt (fun z : ℝ => 4 * z - 3 * z ^ 2) (4 - 6 * z) z := by
    have := ((hasDerivAt_id z).const_mul 4).sub ((hasDerivAt_pow 2 z).const_mul 3)
    refine this.congr_deriv ?_
    norm_num; ring
  have hden : HasDerivAt (fun z : ℝ => (1 - z) ^ 2) (2 * (1 - z) * (-1)) z := by
    have := ((hasDerivAt_id z).const_sub 1).pow 2
    refine this.congr_deriv ?_
    simp
  refine (hnum.div hden (pow_ne_zero 2 hne)).congr_deriv ?_
  unfold zCS
  field_simp
  ring

/-- **C91** (compressibility). `calc_KHS` is the inverse of the derivative of `z Z(z)`, that is the
isothermal compressibility of Carnahan-Starling spheres in units of the ideal gas. -/
theorem c91_khs (z : ℝ) (h1 : z < 1) : HasDerivAt (fun z => z * zCS z) (1 / khs z) z := by
  have hne : 1 - z ≠ 0 := by linarith
  have hnum : HasDerivAt (fun z : ℝ => z * (1 + z + z ^ 2 - z ^ 3)) (1 + 2 * z + 3 * z ^ 2 - 4 * z ^ 3) z := by
    have h := (((hasDerivAt_id z).add (hasDerivAt_pow 2 z)).add (hasDerivAt_pow 3 z)).sub
      (hasDerivAt_pow 4 z)
    have e : (fun z : ℝ => z * (1 + z + z ^ 2 - z ^ 3)) = fun z => z + z ^ 2 + z ^ 3 - z ^ 4 := by
      funext z; ring
    rw [e]
    refine h.congr_deriv ?_
    norm_num
  have hden : HasDerivAt (fun z : ℝ => (1 - z) ^ 3) (3 * (1 - z) ^ 2 * (-1)) z := by
    have := ((hasDerivAt_id z).const_sub 1).pow 3
    refine this.congr_deriv ?_
    simp
  have h := hnum.div hden (pow_ne_zero 3 hne)
  have e : (fun z => z * zCS z) = fun z => z * (1 + z + z ^ 2 - z ^ 3) / (1 - z) ^ 3 := by
    funext z; unfold zCS; ring
  rw [e]
  refine h.congr_deriv ?_
  unfold khs
  field_simp
  ring

/-- **C91** (contact value). The contact value of the square-well variant at an effective packing
fraction is the one of Carnahan-Starling: `Z = 1 + 4 η g`. -/
theorem c91_contact (lam z : ℝ) (h1 : GammaSW.zetaEff lam z ≠ 1) :
    zCS (GammaSW.zetaEff lam z) = 1 + 4 * GammaSW.zetaEff lam z * GammaSW.g0HS lam z := by
  have hne : 1 - GammaSW.zetaEff lam z ≠ 0 := fun h => h1 (by linarith)
  unfold zCS GammaSW.g0HS
  field_simp
  ring

/-- **C91** (contact value, Mie). At contact (`x0 = 1`) the radial distribution function of the Mie
variant is `exp(3 z/(2 (1-z)) - 3 z²/(8 (1-z)²)) / (1 - z)`. -/
theorem c91_contact_mie (z : ℝ) (h1 : z < 1) :
    GammaMie.gdHS 1 z =
      Real.exp (3 * z / (2 * (1 - z)) - 3 * z ^ 2 / (8 * (1 - z) ^ 2)) / (1 - z) := by
  have hne : 1 - z ≠ 0 := by linarith
  have hpos : 0 < 1 - z := by linarith
  unfold GammaMie.gdHS
  have e : -Real.log (1 - z) + (42 * z - 39 * z ^ 2 + 9 * z ^ 3 - 2 * z ^ 4) / (6 * (1 - z) ^ 3)
      + (z ^ 4 + 6 * z ^ 2 - 12 * z) / (2 * (1 - z) ^ 3) * 1
      + -3 * z ^ 2 / (8 * (1 - z) ^ 2) * 1 ^ 2
      + (-(z ^ 4) + 3 * z ^ 2 + 3 * z) / (6 * (1 - z) ^ 3) * 1 ^ 3
      = (3 * z / (2 * (1 - z)) - 3 * z ^ 2 / (8 * (1 - z) ^ 2)) - Real.log (1 - z) := by
    generalize Real.log (1 - z) = L
    field_simp
    ring
  simp only
  rw [e, Real.exp_sub, Real.exp_log hpos]

/-- **C91** (low density). To first order in the packing fraction the radial distribution function of the
Mie variant is the exact one: one plus the overlap `8 - 6 x₀ + x₀³/2` of two exclusion spheres. -/
theorem c91_low_density (x0 : ℝ) :
    GammaMie.gdHS x0 0 = 1 ∧ HasDerivAt (fun z => GammaMie.gdHS x0 z) (8 - 6 * x0 + x0 ^ 3 / 2) 0 := by
  have hid : HasDerivAt (fun z : ℝ => 1 - z) (-1) 0 := by
    simpa using (hasDerivAt_id (0 : ℝ)).const_sub 1
  have hp : ∀ (a b c d : ℝ) (N : ℕ) (K : ℝ), K ≠ 0 →
      HasDerivAt (fun z : ℝ => (a * z + b * z ^ 2 + c * z ^ 3 + d * z ^ 4) / (K * (1 - z) ^ N)) (a / K) 0 := by
    intro a b c d N K hK
    have hnum : HasDerivAt (fun z : ℝ => a * z + b * z ^ 2 + c * z ^ 3 + d * z ^ 4) a 0 := by
      have h := ((((hasDerivAt_id (0 : ℝ)).const_mul a).add ((hasDerivAt_pow 2 (0 : ℝ)).const_mul b)).add
        ((hasDerivAt_pow 3 (0 : ℝ)).const_mul c)).add ((hasDerivAt_pow 4 (0 : ℝ)).const_mul d)
      refine h.congr_deriv ?_
      simp
    have hden := (hid.pow N).const_mul K
    have hne : K * ((fun z : ℝ => 1 - z) ^ N) 0 ≠ 0 := by simp [hK]
    refine (hnum.div hden hne).congr_deriv ?_
    simp [pow_two]
    field_simp
  refine ⟨by simp [GammaMie.gdHS], ?_⟩
  have hlog : HasDerivAt (fun z : ℝ => -Real.log (1 - z)) 1 0 := by
    exact (hid.log (by norm_num)).neg.congr_deriv (by norm_num)
  have h0 := hp 42 (-39) 9 (-2) 3 6 (by norm_num)
  have h1 := (hp (-12) 6 0 1 3 2 (by norm_num)).mul_const x0
  have h2 := (hp 0 (-3) 0 0 2 8 (by norm_num)).mul_const (x0 ^ 2)
  have h3 := (hp 3 3 0 (-1) 3 6 (by norm_num)).mul_const (x0 ^ 3)
  have h := ((((hlog.add h0).add h1).add h2).add h3).exp
  refine (h.congr_of_eventuallyEq (Filter.Eventually.of_forall fun z => ?_)).congr_deriv ?_
  · unfold GammaMie.gdHS
    simp only [Pi.add_apply]
    congr 1
    ring
  · simp
    ring

/-- **C91** (range integrals). `I(λ, x₀)` is the integral of `x²/x^λ` from contact to `x₀`: it vanishes at
`x₀ = 1` and its derivative is the integrand. -/
theorem c91_iFun (l x0 : ℝ) (hl : l ≠ 3) (hx : 0 < x0) :
    GammaMie.iFun l 1 = 0 ∧ HasDerivAt (fun x => GammaMie.iFun l x) (x0 ^ (2 : ℕ) * x0 ^ (-l)) x0 := by
  have h3 : l - 3 ≠ 0 := sub_ne_zero.mpr hl
  refine ⟨by simp [GammaMie.iFun], ?_⟩
  unfold GammaMie.iFun
  have h := ((Real.hasDerivAt_rpow_const (x := x0) (p := 3 - l) (Or.inl hx.ne')).const_sub 1).div_const
    (l - 3)
  refine h.congr_deriv ?_
  have e : x0 ^ (3 - l - 1) = x0 ^ (2 : ℕ) * x0 ^ (-l) := by
    rw [← Real.rpow_natCast x0 2, ← Real.rpow_add hx]; congr 1; push_cast; ring
  rw [e]; field_simp; ring

/-- **C91** (range integrals). `J(λ, x₀)` is the integral of `(x³ - x²)/x^λ` from contact to `x₀`. -/
theorem c91_jFun (l x0 : ℝ) (hl : l ≠ 3) (hl4 : l ≠ 4) (hx : 0 < x0) :
    GammaMie.jFun l 1 = 0 ∧
      HasDerivAt (fun x => GammaMie.jFun l x) ((x0 ^ (3 : ℕ) - x0 ^ (2 : ℕ)) * x0 ^ (-l)) x0 := by
  have h3 : l - 3 ≠ 0 := sub_ne_zero.mpr hl
  have h4 : l - 4 ≠ 0 := sub_ne_zero.mpr hl4
  refine ⟨by simp [GammaMie.jFun]; left; ring, ?_⟩
  unfold GammaMie.jFun
  have hr4 := Real.hasDerivAt_rpow_const (x := x0) (p := 4 - l) (Or.inl hx.ne')
  have hr3 := Real.hasDerivAt_rpow_const (x := x0) (p := 3 - l) (Or.inl hx.ne')
  have h := (((hr4.mul_const (l - 3)).const_sub 1).add (hr3.mul_const (l - 4))).div_const
    ((l - 3) * (l - 4))
  have e4 : x0 ^ (4 - l - 1) = x0 ^ (3 : ℕ) * x0 ^ (-l) := by
    rw [← Real.rpow_natCast x0 3, ← Real.rpow_add hx]; congr 1; push_cast; ring
  have e3 : x0 ^ (3 - l - 1) = x0 ^ (2 : ℕ) * x0 ^ (-l) := by
    rw [← Real.rpow_natCast x0 2, ← Real.rpow_add hx]; congr 1; push_cast; ring
  refine h.congr_deriv ?_
  rw [e4, e3]; field_simp; ring

/-- The hypotheses hold for a liquid-like packing. -/
example : (0.4 : ℝ) * 1 * 1 * (Real.pi / 6) * 1 ^ 3 < 1 := by
  have := Real.pi_lt_d2; norm_num at *; linarith
example : zCS (1 / 2) = 13 := by norm_num [zCS]

end Verif.Props
