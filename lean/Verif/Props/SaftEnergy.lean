import Verif.Model.SaftEnergy
import Verif.Props.EosToolbox
import Mathlib.Analysis.SpecialFunctions.Log.Deriv
import Mathlib.Analysis.SpecialFunctions.ExpDeriv
import Mathlib.Analysis.SpecialFunctions.Sqrt
import Mathlib.Analysis.Calculus.MeanValue
import Mathlib.Analysis.Calculus.Deriv.Prod
import Mathlib.Analysis.Calculus.FDeriv.Pi
import Mathlib.Algebra.BigOperators.Fin
import Mathlib.Tactic.FieldSimp
import Mathlib.Tactic.Ring
import Mathlib.Tactic.Linarith
import Mathlib.Tactic.Positivity
import Mathlib.Tactic.NormNum

/-! # C103–C105: Helmholtz energy, pressure and fugacity coefficients of SAFT -/

set_option linter.unusedSectionVars false

namespace Verif.Props
open Verif Verif.SaftEnergy

/-! ## C103: the ideal contribution -/

theorem extSum_fin (l : List ℝ) : extSum (l.map Ext.fin) = .fin l.sum := by
  have : ∀ (l : List ℝ) (a : ℝ), (l.map Ext.fin).foldl Ext.add (.fin a) = .fin (a + l.sum) := by
    intro l
    induction l with
    | nil => intro a; simp
    | cons b l ih =>
      intro a
      simp only [List.map_cons, List.foldl_cons, List.sum_cons]
      rw [show Ext.add (.fin a) (.fin b) = .fin (a + b) from rfl, ih]
      congr 1
      ring
  simpa [extSum] using this l 0

/-- The wavelength of a molecule of mass `m` in nanometres. -/
noncomputable def waveLength (T m : ℝ) : ℝ :=
  Real.sqrt (planck ^ 2 * Nav / (2 * Real.pi * kb * m * T)) * m2nm

/-- The sum over the components of the ideal contribution, without the last term. -/
noncomputable def idealValue (T ρ : ℝ) (xm : List (ℝ × ℝ)) : ℝ :=
  (xm.map fun q => q.1 * Real.log (waveLength T q.2 ^ 3 * (ρ * moleculePerNm3 * q.1))).sum

theorem kb_pos : 0 < kb := by unfold kb; norm_num
theorem planck_pos : 0 < planck := by unfold planck; norm_num
theorem nav_pos : 0 < Nav := by unfold Nav; norm_num
theorem m2nm_pos : 0 < m2nm := by unfold m2nm; norm_num
theorem gasConst_pos : 0 < SaftEnergy.R := by unfold SaftEnergy.R; norm_num
theorem perNm3_pos : 0 < moleculePerNm3 := by unfold moleculePerNm3; norm_num
theorem machEps_pos : 0 < SaftEnergy.eps := by unfold SaftEnergy.eps; norm_num

/-- **C103** (constants): the constants of Boltzmann, Planck and Avogadro are within 10⁻⁶ of the SI ones, the gas constant is the SI one, and the factor for
densities is the number of Avogadro per cubic nanometre; fractions count from the distance of one to the next double on.  The gas constant is not the product of the first and third, from which
it differs by less than 4 · 10⁻⁷. -/
theorem c103_constants : |kb / (1.380649e-23) - 1| < 1e-6 ∧ |planck / (6.62607015e-34) - 1| < 1e-7 ∧ |Nav / (6.02214076e23) - 1| < 1e-7 ∧
    SaftEnergy.R = 8.31446261815324 ∧ moleculePerNm3 = Nav / m2nm ^ 3 ∧ m2nm = 10 ^ 9 ∧ SaftEnergy.eps * 2 ^ 52 = 1 ∧
    3e-7 < |kb * Nav / SaftEnergy.R - 1| ∧ |kb * Nav / SaftEnergy.R - 1| < 4e-7 := by
  unfold kb planck Nav SaftEnergy.R moleculePerNm3 m2nm SaftEnergy.eps
  refine ⟨?_, ?_, ?_, rfl, ?_, ?_, ?_, ?_, ?_⟩
  · rw [abs_lt]; constructor <;> norm_num
  · rw [abs_lt]; constructor <;> norm_num
  · rw [abs_lt]; constructor <;> norm_num
  · norm_num
  · norm_num
  · norm_num
  · rw [lt_abs]; right; norm_num
  · rw [abs_lt]; constructor <;> norm_num

theorem waveLength_pos {T m : ℝ} (hT : 0 < T) (hm : 0 < m) : 0 < waveLength T m := by
  have := kb_pos; have := planck_pos; have := nav_pos; have := m2nm_pos
  unfold waveLength
  positivity

theorem broglie_eq {T m : ℝ} (hT : 0 < T) (hm : 0 < m) : broglie T m = .fin (waveLength T m) := by
  have h1 := kb_pos; have h2 := planck_pos; have h3 := nav_pos; have h4 := m2nm_pos
  have hd : 2 * Real.pi * m * T ≠ 0 := by positivity
  have hn : 0 ≤ planck * Nav * m2nm * (planck / kb * m2nm) / (2 * Real.pi * m * T) := by positivity
  unfold broglie
  simp only [Ext.div, if_neg hd, extSqrt, if_pos hn, waveLength]
  congr 1
  rw [show planck * Nav * m2nm * (planck / kb * m2nm) / (2 * Real.pi * m * T)
    = planck ^ 2 * Nav / (2 * Real.pi * kb * m * T) * m2nm ^ 2 by field_simp, Real.sqrt_mul (by positivity),
    Real.sqrt_sq h4.le]

theorem logBroglie_eq {T m ρ x : ℝ} (hT : 0 < T) (hm : 0 < m) (hρ : 0 < ρ) (hx : 0 < x) :
    logBroglie T (ρ * moleculePerNm3) x m = .fin (Real.log (waveLength T m ^ 3 * (ρ * moleculePerNm3 * x))) := by
  have h := waveLength_pos hT hm
  have h4 := perNm3_pos
  unfold logBroglie
  rw [broglie_eq hT hm]
  simp only [Ext.mul, extLog]
  rw [if_pos (by positivity)]
  congr 2
  ring

theorem idealSum_eq {T ρ : ℝ} (hT : 0 < T) (hρ : 0 < ρ) (xm : List (ℝ × ℝ)) (h : ∀ q ∈ xm, 0 < q.1 ∧ 0 < q.2) :
    idealSum T ρ xm = .fin (idealValue T ρ xm) := by
  unfold idealSum idealValue
  rw [← extSum_fin, List.map_map]
  congr 1
  refine List.map_congr_left fun q hq => ?_
  simp only [Function.comp, logBroglie_eq hT (h q hq).2 hρ (h q hq).1, Ext.mul]

/-- The components that are taken into account, with their masses. -/
noncomputable def significant (xi massi : List ℝ) : List (ℝ × ℝ) := (xi.zip massi).filter fun q => ¬ q.1 < SaftEnergy.eps

theorem significant_pos {xi massi : List ℝ} (hm : ∀ m ∈ massi, 0 < m) :
    ∀ q ∈ significant xi massi, 0 < q.1 ∧ 0 < q.2 := by
  intro q hq
  obtain ⟨h1, h2⟩ := List.mem_filter.1 hq
  exact ⟨machEps_pos.trans_le (not_lt.1 (by simpa using h2)), hm _ (List.of_mem_zip h1).2⟩

/-- **C103.** With one positive mass per component and a positive temperature, the ideal contribution at positive densities
is the sum of `x log(Λ³ ρ x)` over the significant components, less one, with the thermal wavelength
`Λ = h √(Nav / (2π kb m T))` and the number density in the same unit of length. -/
theorem c103_ideal (rho : List ℝ) (T : ℝ) (xi massi : List ℝ) (hl : xi.length = massi.length) (hm : ∀ m ∈ massi, 0 < m)
    (hT : 0 < T) (hρ : ∀ ρ ∈ rho, 0 < ρ) :
    abroglie rho T xi massi = .ok (rho.map fun ρ => .fin (idealValue T ρ (significant xi massi) - 1)) := by
  unfold abroglie
  rw [c49_aligned SaftEnergy.eps xi massi hl]
  simp only [bind, Except.bind]
  rw [List.zip_unzip]
  have hs : rho.map (fun ρ => idealSum T ρ (significant xi massi))
      = (rho.map fun ρ => idealValue T ρ (significant xi massi)).map Ext.fin := by
    rw [List.map_map]
    refine List.map_congr_left fun ρ hr => ?_
    rw [idealSum_eq hT (hρ ρ hr) _ (significant_pos hm)]
    rfl
  unfold significant at hs
  rw [hs, extSum_fin]
  simp only [reduceCtorEq, if_false, List.map_map]
  congr 1

/-- **C103.** The derivative with respect to the density is the sum of the fractions over the density: the pressure of an
ideal gas. -/
theorem c103_density_derivative {T ρ : ℝ} (hT : 0 < T) (hρ : 0 < ρ) (xm : List (ℝ × ℝ)) (h : ∀ q ∈ xm, 0 < q.1 ∧ 0 < q.2) :
    HasDerivAt (fun r => idealValue T r xm) ((xm.map (·.1)).sum / ρ) ρ := by
  induction xm with
  | nil => simpa [idealValue] using hasDerivAt_const ρ (0 : ℝ)
  | cons q xm ih =>
    have hq := h q (by simp)
    have ih := ih fun r hr => h r (List.mem_cons_of_mem _ hr)
    have hw := waveLength_pos hT hq.2
    have hp := perNm3_pos
    have h1 : HasDerivAt (fun r : ℝ => q.1 * Real.log (waveLength T q.2 ^ 3 * (r * moleculePerNm3 * q.1))) (q.1 / ρ) ρ := by
      have h2 : HasDerivAt (fun r : ℝ => waveLength T q.2 ^ 3 * (r * moleculePerNm3 * q.1))
          (waveLength T q.2 ^ 3 * (1 * moleculePerNm3 * q.1)) ρ :=
        (((hasDerivAt_id ρ).mul_const _).mul_const _).const_mul _
      refine ((h2.log (by have := hq.1; positivity)).const_mul q.1).congr_deriv ?_
      have := hq.1
      field_simp
    have h3 := h1.add ih
    simp only [idealValue, List.map_cons, List.sum_cons]
    exact h3.congr_deriv (by rw [add_div])

/-- **C103.** The derivative with respect to the temperature gives the energy `3/2 R T` of an ideal gas. -/
theorem c103_temperature_derivative {T ρ : ℝ} (hT : 0 < T) (hρ : 0 < ρ) (xm : List (ℝ × ℝ))
    (h : ∀ q ∈ xm, 0 < q.1 ∧ 0 < q.2) :
    HasDerivAt (fun t => idealValue t ρ xm) (-(3 / 2 * (xm.map (·.1)).sum / T)) T := by
  induction xm with
  | nil => simpa [idealValue] using hasDerivAt_const T (0 : ℝ)
  | cons q xm ih =>
    have hq := h q (by simp)
    have ih := ih fun r hr => h r (List.mem_cons_of_mem _ hr)
    have hp := perNm3_pos; have hk := kb_pos; have hh := planck_pos; have hn := nav_pos; have hmm := m2nm_pos
    obtain ⟨hx, hm⟩ := hq
    have hpi := Real.pi_pos
    obtain ⟨c, hc, hc0⟩ : ∃ c, (∀ t, planck ^ 2 * Nav / (2 * Real.pi * kb * q.2 * t) = c / t) ∧ 0 < c := by
      refine ⟨planck ^ 2 * Nav / (2 * Real.pi * kb * q.2), fun t => ?_, by positivity⟩
      rw [div_div]
    have h1 : HasDerivAt (fun t : ℝ => q.1 * Real.log (waveLength t q.2 ^ 3 * (ρ * moleculePerNm3 * q.1)))
        (-(3 / 2 * q.1 / T)) T := by
      have hd : HasDerivAt (fun t : ℝ => c / t) (-(c / T ^ 2)) T := by
        simpa [div_eq_mul_inv] using (hasDerivAt_inv hT.ne').const_mul c
      have hs : HasDerivAt (fun t : ℝ => Real.sqrt (c / t)) (-(c / T ^ 2) / (2 * Real.sqrt (c / T))) T :=
        hd.sqrt (by positivity)
      have hw : HasDerivAt (fun t : ℝ => waveLength t q.2 ^ 3 * (ρ * moleculePerNm3 * q.1))
          ((3 * (Real.sqrt (c / T) * m2nm) ^ 2 * (-(c / T ^ 2) / (2 * Real.sqrt (c / T)) * m2nm)) *
            (ρ * moleculePerNm3 * q.1)) T := by
        simp only [waveLength, hc]
        exact (((hs.mul_const m2nm).pow 3).congr_deriv (by ring)).mul_const _
      have hpos : waveLength T q.2 ^ 3 * (ρ * moleculePerNm3 * q.1) ≠ 0 := by
        have := waveLength_pos hT hm
        positivity
      refine ((hw.log hpos).const_mul q.1).congr_deriv ?_
      simp only [waveLength, hc]
      have hr : Real.sqrt (c / T) ^ 2 = c / T := Real.sq_sqrt (by positivity)
      have hr0 : 0 < Real.sqrt (c / T) := Real.sqrt_pos.2 (by positivity)
      generalize Real.sqrt (c / T) = r at hr hr0
      have hcT : c = r ^ 2 * T := by rw [hr]; field_simp
      rw [hcT]
      field_simp
    have h3 := h1.add ih
    simp only [idealValue, List.map_cons, List.sum_cons]
    exact h3.congr_deriv (by ring)

/-- **C103.** Mixing of ideal gases: the energy of the mixture is that of the pure components at the same density plus the
sum of `x log x`. -/
theorem c103_mixing {T ρ : ℝ} (hT : 0 < T) (hρ : 0 < ρ) (xm : List (ℝ × ℝ)) (h : ∀ q ∈ xm, 0 < q.1 ∧ 0 < q.2) :
    idealValue T ρ xm = (xm.map fun q => q.1 * idealValue T ρ [(1, q.2)]).sum + (xm.map fun q => q.1 * Real.log q.1).sum := by
  induction xm with
  | nil => simp [idealValue]
  | cons q xm ih =>
    have hq := h q (by simp)
    have ih := ih fun r hr => h r (List.mem_cons_of_mem _ hr)
    have hw := waveLength_pos hT hq.2
    have hp := perNm3_pos
    simp only [idealValue, List.map_cons, List.sum_cons, List.map_nil, List.sum_nil] at ih ⊢
    rw [ih]
    have : Real.log (waveLength T q.2 ^ 3 * (ρ * moleculePerNm3 * q.1))
        = Real.log (waveLength T q.2 ^ 3 * (ρ * moleculePerNm3 * 1)) + Real.log q.1 := by
      rw [← Real.log_mul (by positivity) hq.1.ne']
      congr 1
      ring
    rw [this]
    ring

/-- **C103** is violated: a negative fraction is left out without an error, so that the fractions do not sum to one. -/
theorem c103_violated_negative (rho : List ℝ) (T : ℝ) (xi massi : List ℝ) (hl : xi.length = massi.length) (x m : ℝ)
    (hx : x < 0) : abroglie rho T (xi ++ [x]) (massi ++ [m]) = abroglie rho T xi massi := by
  unfold abroglie
  rw [c49_aligned _ _ _ hl, c49_aligned _ _ _ (by simp [hl])]
  rw [List.zip_append hl]
  have : x < SaftEnergy.eps := hx.trans machEps_pos
  simp [List.filter_append, this]

/-- **C103** is violated: a density of zero, for which the logarithm does not exist, is not refused; the result is minus
infinity. -/
theorem c103_violated_zero (T x m : ℝ) (hT : 0 < T) (hm : 0 < m) (hx : SaftEnergy.eps ≤ x) :
    abroglie [0] T [x] [m] = .ok [.ninf] := by
  have h0 : 0 < x := machEps_pos.trans_le hx
  unfold abroglie
  rw [c49_unchanged SaftEnergy.eps [x] [m] (by simp) (by simpa using hx)]
  have hlog : logBroglie T (0 * moleculePerNm3) x m = .ninf := by
    unfold logBroglie
    rw [broglie_eq hT hm]
    simp [Ext.mul, extLog]
  have hs : idealSum T 0 [(x, m)] = .ninf := by
    unfold idealSum extSum
    simp only [List.map_cons, List.map_nil, hlog, Ext.mul, Ext.signInf, if_pos h0, Ext.neg, List.foldl_cons,
      List.foldl_nil, Ext.add]
  simp [bind, Except.bind, hs, extSum, Ext.add, Ext.sub, Ext.neg]

example : abroglie [100, 2000] 300 [1 / 4, 3 / 4] [1 / 50, 1 / 20]
    = .ok ([100, 2000].map fun ρ => .fin (idealValue 300 ρ (significant [1 / 4, 3 / 4] [1 / 50, 1 / 20]) - 1)) :=
  c103_ideal _ _ _ _ rfl (by simp) (by norm_num) (by simp)

/-! ## C104: Helmholtz energy and pressure -/

theorem density_vec (rho : List ℝ) (h0 : rho ≠ []) (h : ∀ ρ ∈ rho, 0 ≤ ρ) : density (.vec (rho.map some)) = .ok rho := by
  have h1 : CheckDensity.screen (rho.map some) = .ok (rho.map some) := by
    unfold CheckDensity.screen
    rw [if_neg (by simp), if_neg (by simpa using h0), if_neg (by simpa using h)]
  simp [density, CheckDensity.checkDensity, h1, bind, Except.bind]

theorem density_neg (rho : List ℝ) (h : ∃ ρ ∈ rho, ρ < 0) : density (.vec (rho.map some)) = .error .valueError := by
  have h1 : CheckDensity.screen (rho.map some) = .error .valueError := by
    unfold CheckDensity.screen
    rw [if_neg (by simp)]
    split
    · rfl
    · rw [if_pos (by simpa using h)]
  simp [density, CheckDensity.checkDensity, h1, bind, Except.bind]

/-- A contribution that is computed density by density and gives numbers. -/
def PointWise (c : Contribution) (T : ℝ) (xi : List (Option ℝ)) (f : ℝ → ℝ) : Prop :=
  ∀ rho : List ℝ, rho ≠ [] → (∀ ρ ∈ rho, 0 ≤ ρ) → c rho T xi = .ok (rho.map fun ρ => .fin (f ρ))

theorem addTo_fin (rho : List ℝ) (f g : ℝ → ℝ) :
    addTo (rho.map fun ρ => .fin (f ρ)) (rho.map fun ρ => .fin (g ρ)) = .ok (rho.map fun ρ => .fin (f ρ + g ρ)) := by
  unfold addTo
  rw [if_pos (.inl (by simp)), npZip_same _ _ _ (by simp), List.zipWith_map, List.zipWith_self]
  rfl

theorem addAll_fin (T : ℝ) (xi : List (Option ℝ)) (rho : List ℝ) (h0 : rho ≠ []) (h : ∀ ρ ∈ rho, 0 ≤ ρ) :
    ∀ (cs : List Contribution) (fs : List (ℝ → ℝ)) (a : ℝ → ℝ), List.Forall₂ (fun c f => PointWise c T xi f) cs fs →
      addAll rho T xi cs (rho.map fun ρ => .fin (a ρ)) = .ok (rho.map fun ρ => .fin (a ρ + (fs.map (· ρ)).sum)) := by
  intro cs fs a hf
  induction hf generalizing a with
  | nil => simp [addAll]
  | cons hc _ ih =>
    simp only [addAll, hc rho h0 h, addTo_fin, bind, Except.bind]
    rw [ih]
    simp [add_assoc]

/-- The fractions are not negative. -/
def noNegative (xi : List (Option ℝ)) : Prop := ∀ x ∈ xi, ∀ v, x = some v → 0 ≤ v

theorem any_negative {xi : List (Option ℝ)} (h : noNegative xi) :
    xi.any SaftEnergy.negative = false := by
  rw [List.any_eq_false]
  intro x hx
  cases x with
  | none => simp [SaftEnergy.negative]
  | some v => simpa [SaftEnergy.negative] using h _ hx v rfl

/-- **C104.** The residual energy is the sum of all contributions, with the association contribution if and only if it is
switched on; every density is treated by itself. -/
theorem c104_residual (E : Eos) (T : ℝ) (xi : List (Option ℝ)) (hn : xi.length = E.n) (hx : noNegative xi)
    (fs : List (ℝ → ℝ)) (hf : List.Forall₂ (fun c f => PointWise c T xi f) E.res fs) (g : ℝ → ℝ)
    (hg : (E.assoc = none ∧ g = fun _ => 0) ∨ ∃ c, E.assoc = some c ∧ PointWise c T xi g)
    (rho : List ℝ) (h0 : rho ≠ []) (h : ∀ ρ ∈ rho, 0 ≤ ρ) :
    SaftEnergy.residual E rho T xi = .ok (rho.map fun ρ => .fin ((fs.map (· ρ)).sum + g ρ)) := by
  have h1 := addAll_fin T xi rho h0 h E.res fs (fun _ => 0) hf
  unfold SaftEnergy.residual
  simp only [hn, ne_eq, not_true_eq_false, if_false, density_vec rho h0 h, any_negative hx, Bool.false_eq_true, bind,
    Except.bind, pure, Except.pure, h1]
  rcases hg with ⟨hg, rfl⟩ | ⟨c, hg, hc⟩
  · simp [hg]
  · simp only [hg, hc rho h0 h, addTo_fin]
    simp

/-- The residual energy is a function of the density. -/
def ResidualIs (E : Eos) (T : ℝ) (xi : List (Option ℝ)) (a : ℝ → ℝ) : Prop :=
  ∀ rho : List ℝ, rho ≠ [] → (∀ ρ ∈ rho, 0 ≤ ρ) → SaftEnergy.residual E rho T xi = .ok (rho.map fun ρ => .fin (a ρ))

/-- The objects with one positive mass per component and the method for the ideal contribution that exists. -/
structure GoodEos (E : Eos) (xi : List ℝ) : Prop where
  size : xi.length = E.n
  massi : xi.length = E.massi.length
  pos : ∀ m ∈ E.massi, 0 < m
  method : E.method = "Abroglie"

theorem ideal_eq {E : Eos} {T : ℝ} {xi : List ℝ} (hE : GoodEos E xi) (hT : 0 < T) (rho : List ℝ) (h0 : rho ≠ [])
    (h : ∀ ρ ∈ rho, 0 < ρ) :
    ideal E rho T (xi.map some) = .ok (rho.map fun ρ => .fin (idealValue T ρ (significant xi E.massi) - 1)) := by
  have h1 : (xi.map some).any (fun x : Option ℝ => x.isNone) = false := by simp
  have h2 : (xi.map some).filterMap id = xi := by
    rw [List.filterMap_map]; simp
  unfold ideal
  simp only [List.length_map, hE.size, ne_eq, not_true_eq_false, if_false, density_vec rho h0 fun r hr => (h r hr).le, h1,
    Bool.false_eq_true, hE.method, or_self, bind, Except.bind, pure, Except.pure, h2, idealContribution, if_true]
  exact c103_ideal rho T xi E.massi hE.massi hE.pos hT h

theorem helmholtz_eq {E : Eos} {T : ℝ} {xi : List ℝ} {a : ℝ → ℝ} (hE : GoodEos E xi) (hT : 0 < T)
    (ha : ResidualIs E T (xi.map some) a) (rho : List ℝ) (h0 : rho ≠ []) (h : ∀ ρ ∈ rho, 0 < ρ) :
    helmholtz E rho T (xi.map some)
      = .ok (rho.map fun ρ => .fin (a ρ + (idealValue T ρ (significant xi E.massi) - 1))) := by
  unfold helmholtz
  simp only [List.length_map, hE.size, ne_eq, not_true_eq_false, if_false, density_vec rho h0 fun r hr => (h r hr).le,
    ha rho h0 fun r hr => (h r hr).le, ideal_eq hE hT rho h0 h, bind, Except.bind, pure, Except.pure]
  rw [npZip_same _ _ _ (by simp), List.zipWith_map, List.zipWith_self]
  rfl

/-- The step of the difference quotient at one density. -/
noncomputable def pressureStep (s ρ : ℝ) : ℝ := if ρ * s < SaftEnergy.eps then 2 * SaftEnergy.eps else ρ * s

theorem pressureStep_pos {s ρ : ℝ} : 0 < pressureStep s ρ := by
  have := machEps_pos
  unfold pressureStep
  split
  · linarith
  · linarith

theorem pressureStep_lt {s ρ : ℝ} (h1 : s < 1) (hρ : 2 * SaftEnergy.eps < ρ) : pressureStep s ρ < ρ := by
  have := machEps_pos
  unfold pressureStep
  split
  · exact hρ
  · nlinarith

/-- The difference quotient of the energy. -/
noncomputable def quotient (A : ℝ → ℝ) (h ρ : ℝ) : ℝ := (A (ρ + h) - A (ρ - h)) / (2 * h)

/-- **C104.** The pressure at a density above twice the machine precision is `R T ρ²` times the difference quotient of the
total energy, for every density by itself. -/
theorem c104_pressure {E : Eos} {T s : ℝ} {xi : List ℝ} {a : ℝ → ℝ} (hE : GoodEos E xi) (hT : 0 < T) (h1 : s < 1)
    (ha : ResidualIs E T (xi.map some) a) (rho : List ℝ) (hr : rho ≠ []) (h : ∀ ρ ∈ rho, 2 * SaftEnergy.eps < ρ) :
    pressure E rho T (xi.map some) s = .ok (rho.map fun ρ => .fin
      (quotient (fun r => a r + (idealValue T r (significant xi E.massi) - 1)) (pressureStep s ρ) ρ * T * SaftEnergy.R * ρ ^ 2)) := by
  have he := machEps_pos
  have hp : ∀ ρ ∈ rho, 0 < ρ := fun ρ hr => by have := h ρ hr; linarith
  have hst : CentralDiff.steps SaftEnergy.eps s true rho = rho.map (pressureStep s) := by
    simp [CentralDiff.steps, pressureStep, Function.comp_def]
  have hup : List.zipWith (· + ·) rho (rho.map (pressureStep s)) = rho.map fun ρ => ρ + pressureStep s ρ := by
    rw [List.zipWith_map_right, List.zipWith_self]
  have hdn : List.zipWith (· - ·) rho (rho.map (pressureStep s)) = rho.map fun ρ => ρ - pressureStep s ρ := by
    rw [List.zipWith_map_right, List.zipWith_self]
  have hpos : ∀ r ∈ (rho.map fun ρ => ρ + pressureStep s ρ) ++ rho.map fun ρ => ρ - pressureStep s ρ, 0 < r := by
    intro r hr
    rcases List.mem_append.1 hr with hr | hr <;> obtain ⟨ρ, hρ, rfl⟩ := List.mem_map.1 hr
    · exact add_pos (hp ρ hρ) pressureStep_pos
    · exact sub_pos.2 (pressureStep_lt h1 (h ρ hρ))
  unfold pressure
  simp only [List.length_map, hE.size, ne_eq, not_true_eq_false, if_false, density_vec rho hr fun r hr => (hp r hr).le,
    bind, Except.bind, pure, Except.pure, hst, hup, hdn]
  rw [helmholtz_eq hE hT ha _ (by simpa using fun h => absurd h hr) hpos]
  simp only [List.map_append, List.map_map]
  set A := fun r => a r + (idealValue T r (significant xi E.massi) - 1)
  have hlen : ∀ (u v : List (Ext ℝ)), u.length = v.length → (u ++ v).length / 2 = u.length := by
    intro u v h; simp; omega
  rw [hlen _ _ (by simp), List.take_left' (by simp), List.drop_left' (by simp), npZip_same _ _ _ (by simp)]
  simp only
  rw [List.zipWith_map, List.zipWith_self, npZip_same _ _ _ (by simp), List.zipWith_map, List.zipWith_self]
  simp only
  rw [npZip_same _ _ _ (by simp), List.zipWith_map_left, List.zipWith_self]
  congr 1
  refine List.map_congr_left fun ρ _ => ?_
  have : 2 * pressureStep s ρ ≠ 0 := by
    have := pressureStep_pos (s := s) (ρ := ρ); positivity
  simp only [Function.comp, Ext.sub, Ext.neg, Ext.add, Ext.div, if_neg this, Ext.mul, quotient, A]
  congr 1

/-- **C104.** The pressure is the exact thermodynamic pressure, `R T ρ² ∂A/∂ρ`, at a density within the step of the one
requested: `ρ` is replaced by `ξ` in the derivative only.  `X` is the sum of the significant fractions. -/
theorem c104_mean_value {E : Eos} {T s : ℝ} {xi : List ℝ} {a a' : ℝ → ℝ} (hE : GoodEos E xi) (hT : 0 < T) (h1 : s < 1)
    (ha : ResidualIs E T (xi.map some) a) (hd : ∀ r, 0 < r → HasDerivAt a (a' r) r) (rho : List ℝ) (hr : rho ≠ [])
    (h : ∀ ρ ∈ rho, 2 * SaftEnergy.eps < ρ) :
    ∃ p : ℝ → ℝ, pressure E rho T (xi.map some) s = .ok (rho.map fun ρ => .fin (p ρ)) ∧
      ∀ ρ ∈ rho, ∃ ξ, |ξ - ρ| < pressureStep s ρ ∧
        p ρ = SaftEnergy.R * T * ρ ^ 2 * (((significant xi E.massi).map (·.1)).sum / ξ + a' ξ) := by
  refine ⟨_, c104_pressure hE hT h1 ha rho hr h, fun ρ hρ => ?_⟩
  have hs := pressureStep_pos (s := s) (ρ := ρ)
  have hlt := pressureStep_lt h1 (h ρ hρ)
  set k := pressureStep s ρ
  set A := fun r => a r + (idealValue T r (significant xi E.massi) - 1)
  have hA : ∀ r, 0 < r → HasDerivAt A (((significant xi E.massi).map (·.1)).sum / r + a' r) r := fun r hr =>
    ((hd r hr).add ((c103_density_derivative hT hr _ (significant_pos hE.pos)).sub_const 1)).congr_deriv (add_comm _ _)
  obtain ⟨ξ, hξ, he⟩ := exists_hasDerivAt_eq_slope A (fun r => ((significant xi E.massi).map (·.1)).sum / r + a' r)
    (show ρ - k < ρ + k by linarith)
    (fun r hr => (hA r (lt_of_lt_of_le (sub_pos.2 hlt) hr.1)).continuousAt.continuousWithinAt)
    (fun r hr => hA r ((sub_pos.2 hlt).trans hr.1))
  refine ⟨ξ, ?_, ?_⟩
  · rw [abs_lt]; constructor <;> linarith [hξ.1, hξ.2]
  · rw [he, quotient, show ρ + k - (ρ - k) = 2 * k by ring]
    ring

/-- The factor by which the difference quotient changes the pressure of an ideal gas. -/
noncomputable def idealFactor (s : ℝ) : ℝ := (Real.log (1 + s) - Real.log (1 - s)) / (2 * s)

/-- The factor differs from one by at most `s² / (1 - s²)`. -/
theorem c104_ideal_factor {s : ℝ} (h0 : 0 < s) (h1 : s < 1) : 1 ≤ idealFactor s ∧ idealFactor s ≤ 1 / (1 - s ^ 2) := by
  have hs := Real.hasSum_log_sub_log_of_abs_lt_one (x := s) (by rw [abs_of_pos h0]; exact h1)
  have hq : s ^ 2 < 1 := by nlinarith
  have hg : HasSum (fun k : ℕ => 2 * s * (s ^ 2) ^ k) (2 * s * (1 - s ^ 2)⁻¹) :=
    (hasSum_geometric_of_lt_one (by positivity) hq).mul_left _
  have hle : ∀ k : ℕ, 2 * (1 / (2 * (k : ℝ) + 1)) * s ^ (2 * k + 1) ≤ 2 * s * (s ^ 2) ^ k := by
    intro k
    have : s ^ (2 * k + 1) = s * (s ^ 2) ^ k := by rw [pow_add, pow_mul]; ring
    rw [this]
    have h2 : (1 : ℝ) / (2 * k + 1) ≤ 1 := by
      rw [div_le_one (by positivity)]
      have : (0 : ℝ) ≤ k := by positivity
      linarith
    have h3 : 0 ≤ s * (s ^ 2) ^ k := by positivity
    nlinarith
  have hub := hasSum_le hle hs hg
  have hlb : 2 * s ≤ Real.log (1 + s) - Real.log (1 - s) := by
    have := le_hasSum hs 0 fun k _ => by positivity
    simpa using this
  unfold idealFactor
  constructor
  · rw [le_div_iff₀ (by positivity)]; linarith
  · rw [div_le_iff₀ (by positivity)]
    calc _ ≤ _ := hub
      _ = _ := by rw [one_div]; ring

/-- **C104.** An ideal gas: the pressure is `ρ R T` (times the sum of the significant fractions) up to a relative error of
at most `s² / (1 - s²)`, never below it. -/
theorem c104_ideal_gas {E : Eos} {T s : ℝ} {xi : List ℝ} (hE : GoodEos E xi) (hT : 0 < T) (h0 : 0 < s) (h1 : s < 1)
    (ha : ResidualIs E T (xi.map some) fun _ => 0) (rho : List ℝ) (hr : rho ≠ []) (h : ∀ ρ ∈ rho, 2 * SaftEnergy.eps < ρ)
    (hs : ∀ ρ ∈ rho, SaftEnergy.eps ≤ ρ * s) :
    pressure E rho T (xi.map some) s = .ok (rho.map fun ρ =>
      .fin (ρ * SaftEnergy.R * T * (((significant xi E.massi).map (·.1)).sum * idealFactor s))) := by
  rw [c104_pressure hE hT h1 ha rho hr h]
  congr 1
  refine List.map_congr_left fun ρ hρ => ?_
  have hst : pressureStep s ρ = ρ * s := by simp [pressureStep, not_lt.2 (hs ρ hρ)]
  have hp : 0 < ρ := by have := h ρ hρ; have := machEps_pos; linarith
  have hlog : ∀ xm : List (ℝ × ℝ), (∀ q ∈ xm, 0 < q.1 ∧ 0 < q.2) → ∀ t, 0 < 1 + t →
      idealValue T (ρ + ρ * t) xm = idealValue T ρ xm + (xm.map (·.1)).sum * Real.log (1 + t) := by
    intro xm hx t ht
    induction xm with
    | nil => simp [idealValue]
    | cons q xm ih =>
      have hq := hx q (by simp)
      have ih := ih fun r hr => hx r (List.mem_cons_of_mem _ hr)
      have hw := waveLength_pos hT hq.2
      have hq1 := hq.1
      have hn := perNm3_pos
      simp only [idealValue, List.map_cons, List.sum_cons] at ih ⊢
      rw [ih, show waveLength T q.2 ^ 3 * ((ρ + ρ * t) * moleculePerNm3 * q.1)
        = waveLength T q.2 ^ 3 * (ρ * moleculePerNm3 * q.1) * (1 + t) by ring, Real.log_mul (by positivity) ht.ne']
      ring
  have hu := hlog _ (significant_pos (xi := xi) hE.pos) s (by linarith)
  have hl := hlog _ (significant_pos (xi := xi) hE.pos) (-s) (by linarith)
  rw [show ρ + ρ * -s = ρ - ρ * s by ring, ← sub_eq_add_neg] at hl
  simp only [quotient, hst, hu, hl, idealFactor]
  congr 1
  field_simp
  ring

/-- **C104** is violated: the pressure at zero density, and at densities below twice the machine precision, is not that of
an ideal gas; the difference quotient asks for a negative density, which is refused. -/
theorem c104_violated_zero (E : Eos) (T s : ℝ) (xi : List (Option ℝ)) (hn : xi.length = E.n) (h1 : s ≤ 1 / 2) (rho : List ℝ)
    (h : ∀ ρ ∈ rho, 0 ≤ ρ) (hz : ∃ ρ ∈ rho, ρ < 2 * SaftEnergy.eps) : pressure E rho T xi s = .error .valueError := by
  obtain ⟨ρ, hρ, hlt⟩ := hz
  have he := machEps_pos
  have hst : CentralDiff.steps SaftEnergy.eps s true rho = rho.map (pressureStep s) := by
    simp [CentralDiff.steps, pressureStep, Function.comp_def]
  have hdn : List.zipWith (· - ·) rho (rho.map (pressureStep s)) = rho.map fun ρ => ρ - pressureStep s ρ := by
    rw [List.zipWith_map_right, List.zipWith_self]
  have hneg : ρ - pressureStep s ρ < 0 := by
    have h2 := h ρ hρ
    have : ρ * s < SaftEnergy.eps := by nlinarith
    simp only [pressureStep, this, if_true]
    linarith
  unfold pressure
  simp only [hn, ne_eq, not_true_eq_false, if_false, density_vec rho (List.ne_nil_of_mem hρ) h, bind, Except.bind, pure,
    Except.pure, hst, hdn]
  have : helmholtz E (List.zipWith (· + ·) rho (rho.map (pressureStep s)) ++ rho.map fun ρ => ρ - pressureStep s ρ) T xi
      = .error .valueError := by
    unfold helmholtz
    rw [density_neg _ ⟨_, List.mem_append_right _ (List.mem_map_of_mem hρ), hneg⟩]
    simp [hn, bind, Except.bind, pure, Except.pure]
  rw [this]

/-! ## C105: fugacity coefficients -/

section Fugacity
variable {n : ℕ}

/-- The residual energy as a function of the densities of the components. -/
def EnergyIs (E : Eos) (T : ℝ) (F : (Fin n → ℝ) → ℝ) : Prop :=
  ∀ r : Fin n → ℝ, (∀ i, 0 ≤ r i) → 0 < ∑ i, r i →
    SaftEnergy.residual E [∑ i, r i] T (List.ofFn fun i => some (r i / ∑ j, r j)) = .ok [.fin (F r)]

/-- The densities of the components with one of them multiplied by `exp δ`. -/
noncomputable def shift (v : Fin n → ℝ) (i : Fin n) (δ : ℝ) : Fin n → ℝ := Function.update v i (v i * Real.exp δ)

theorem shifted_eq (ρ : ℝ) (x : Fin n → ℝ) (i : Fin n) (δ : ℝ) :
    shifted ρ (List.ofFn x) i δ = List.ofFn (shift (fun j => ρ * x j) i δ) := by
  unfold shifted shift
  apply List.ext_getElem
  · simp
  · intro k h1 h2
    have hk : k < n := by simpa using h2
    rw [List.getElem_modify]
    simp only [List.getElem_map, List.getElem_ofFn, Function.update_apply]
    by_cases h : (i : ℕ) = k
    · subst h; simp
    · have : ¬ (⟨k, hk⟩ : Fin n) = i := fun e => h (by rw [← e])
      simp [h, this]

theorem atDensities_eq {E : Eos} {T : ℝ} {F : (Fin n → ℝ) → ℝ} (hF : EnergyIs E T F) (r : Fin n → ℝ) (h0 : ∀ i, 0 ≤ r i)
    (h1 : 0 < ∑ i, r i) : atDensities (SaftEnergy.residual E) T (List.ofFn r) = .ok (.fin (F r)) := by
  unfold atDensities
  have hs : (List.ofFn r).sum = ∑ i, r i := List.sum_ofFn
  have hm : (List.ofFn r).map (fun v => if (List.ofFn r).sum = 0 then none else some (v / (List.ofFn r).sum))
      = List.ofFn fun i => some (r i / ∑ j, r j) := by
    rw [List.map_ofFn]
    congr 1
    funext i
    simp [hs, h1.ne']
  simp only [hm]
  rw [hs, hF r h0 h1]
  rfl

theorem mapM_ok {α β : Type} (f : α → Except PyErr β) (g : α → β) : ∀ (l : List α), (∀ a ∈ l, f a = .ok (g a)) →
    l.mapM f = .ok (l.map g)
  | [], _ => rfl
  | a :: l, h => by
    rw [List.mapM_cons, h a (by simp), mapM_ok f g l fun b hb => h b (List.mem_cons_of_mem _ hb)]
    rfl

/-- The derivative of the energy with respect to the density of a component that is used. -/
noncomputable def usedPartial (F : (Fin n → ℝ) → ℝ) (ρ dy : ℝ) (x : Fin n → ℝ) (i : Fin n) : ℝ :=
  if x i = 0 then SaftEnergy.eps
  else (F (shift (fun j => ρ * x j) i dy) - F (shift (fun j => ρ * x j) i (-dy))) / (2 * dy) / (ρ * x i)

/-- The logarithms of the fugacity coefficients. -/
noncomputable def lnFug (F : (Fin n → ℝ) → ℝ) (P ρ T dy : ℝ) (x : Fin n → ℝ) (i : Fin n) : ℝ :=
  F (fun j => ρ * x j) + ρ * usedPartial F ρ dy x i - Real.log (P / (ρ * T * SaftEnergy.R))

theorem shift_nonneg {v : Fin n → ℝ} (h : ∀ i, 0 ≤ v i) (i : Fin n) (δ : ℝ) (j : Fin n) : 0 ≤ shift v i δ j := by
  unfold shift
  rw [Function.update_apply]
  split
  · have := h i; positivity
  · exact h j

theorem shift_sum_pos {v : Fin n → ℝ} (h : ∀ i, 0 ≤ v i) (i : Fin n) (hi : 0 < v i) (δ : ℝ) : 0 < ∑ j, shift v i δ j := by
  refine Finset.sum_pos' (fun j _ => shift_nonneg h i δ j) ⟨i, Finset.mem_univ _, ?_⟩
  simp only [shift, Function.update_self]
  positivity

/-- The fugacity coefficients at any pressure. -/
theorem fugacity_any_pressure {E : Eos} {T P ρ dy : ℝ} {F : (Fin n → ℝ) → ℝ} (hF : EnergyIs E T F) (hn : E.n = n) (x : Fin n → ℝ)
    (hx : ∀ i, 0 ≤ x i) (h1 : ∑ i, x i = 1) (hρ : 0 < ρ) (hT : 0 < T) (hdy : dy ≠ 0) (lm : Bool) :
    fugacity E (.num P) (.num ρ) (List.ofFn x) (.num T) dy lm =
      .ok (List.ofFn fun i => extExp (Ext.sub (.fin (F (fun j => ρ * x j) + ρ * usedPartial F ρ dy x i)) (extLog (.fin (P / (ρ * T * SaftEnergy.R)))))) := by
  have hR := gasConst_pos
  have hd : density (.scalar (some ρ)) = .ok [ρ] := by
    have : CheckDensity.screen [some ρ] = .ok [some ρ] := by
      unfold CheckDensity.screen
      rw [if_neg (by simp), if_neg (by simp), if_neg (by simpa using hρ.le)]
    simp [density, CheckDensity.checkDensity, this, bind, Except.bind]
  have hv0 : ∀ i, 0 ≤ (fun j => ρ * x j) i := fun i => mul_nonneg hρ.le (hx i)
  have hv1 : ∑ i, ρ * x i = ρ := by rw [← Finset.mul_sum, h1, mul_one]
  have ha : SaftEnergy.residual E [ρ] T ((List.ofFn x).map some) = .ok [.fin (F fun j => ρ * x j)] := by
    have := hF (fun j => ρ * x j) hv0 (by rw [hv1]; exact hρ)
    rw [hv1] at this
    rw [← this, List.map_ofFn]
    congr 2
    funext i
    simp only [Function.comp]
    congr 1
    field_simp
  have hp : partials (SaftEnergy.residual E) ρ T dy (List.ofFn x) true
      = .ok (List.ofFn fun i => .fin (usedPartial F ρ dy x i)) := by
    unfold partials
    simp only [if_true]
    rw [mapM_ok _ (fun q => if h : q.2 < n then Ext.fin (usedPartial F ρ dy x ⟨q.2, h⟩) else .nan)]
    · congr 1
      apply List.ext_getElem
      · simp
      · intro k h1 h2
        have hk : k < n := by simpa using h2
        simp [hk]
    · intro q hq
      obtain ⟨y, k⟩ := q
      obtain ⟨hk, hy⟩ := List.mem_zipIdx' hq
      have hk' : k < n := by simpa using hk
      simp only [List.getElem_ofFn] at hy
      simp only [hk', dif_pos, logPartial, hy, usedPartial]
      by_cases h0 : x ⟨k, hk'⟩ = 0
      · simp [h0]
      · have hxp : 0 < x ⟨k, hk'⟩ := lt_of_le_of_ne (hx _) (Ne.symm h0)
        have hvp : 0 < (fun j => ρ * x j) ⟨k, hk'⟩ := mul_pos hρ hxp
        have e1 : ∀ δ, atDensities (SaftEnergy.residual E) T (shifted ρ (List.ofFn x) k δ)
            = .ok (.fin (F (shift (fun j => ρ * x j) ⟨k, hk'⟩ δ))) := fun δ => by
          have := shifted_eq ρ x ⟨k, hk'⟩ δ
          simp only at this
          rw [this, atDensities_eq hF _ (shift_nonneg hv0 _ _) (shift_sum_pos hv0 _ hvp _)]
        rw [e1, e1]
        have h2 : 2 * dy ≠ 0 := by simpa using hdy
        have h3 : ρ * x ⟨k, hk'⟩ ≠ 0 := hvp.ne'
        simp only [ne_eq, h0, not_false_eq_true, if_true, bind, Except.bind, if_false, Ext.sub, Ext.neg, Ext.add, Ext.div, h2, h3]
        congr 1
  have hz' : ρ * T * SaftEnergy.R ≠ 0 := by positivity
  unfold fugacity
  simp only [List.length_ofFn, hn, ne_eq, not_true_eq_false, if_false, Arg.scalar, hd, ha, hp, bind, Except.bind, pure,
    Except.pure]
  have hzip : ∀ (a : Ext ℝ) (l : List (Ext ℝ)), npZip Ext.add [a] l = .ok (l.map (Ext.add a)) := by
    intro a l
    unfold npZip
    split
    · rename_i h
      obtain ⟨b, rfl⟩ := List.length_eq_one_iff.1 h.symm
      rfl
    · rfl
  rw [hzip]
  simp only [List.map_map, List.map_ofFn]
  congr 2
  funext i
  simp only [Function.comp, Ext.div, if_neg hz', Ext.mul, Ext.add]

/-- **C105.** The fugacity coefficients are `exp(A + ρ ∂A/∂ρᵢ − ln Z)` with the residual energy `A`, the compressibility
factor of the pressure that is given, and derivatives by central differences in the logarithm of `ρᵢ`. -/
theorem c105_formula {E : Eos} {T P ρ dy : ℝ} {F : (Fin n → ℝ) → ℝ} (hF : EnergyIs E T F) (hn : E.n = n) (x : Fin n → ℝ)
    (hx : ∀ i, 0 ≤ x i) (h1 : ∑ i, x i = 1) (hρ : 0 < ρ) (hT : 0 < T) (hP : 0 < P) (hdy : dy ≠ 0) (lm : Bool) :
    fugacity E (.num P) (.num ρ) (List.ofFn x) (.num T) dy lm = .ok (List.ofFn fun i => .fin (Real.exp (lnFug F P ρ T dy x i))) := by
  have hR := gasConst_pos
  have hz : 0 < P / (ρ * T * SaftEnergy.R) := by positivity
  rw [fugacity_any_pressure hF hn x hx h1 hρ hT hdy lm]
  congr 2
  funext i
  simp only [extLog, if_pos hz, Ext.sub, Ext.neg, Ext.add, extExp, lnFug]
  congr 1

/-- **C105, violated for pressures that are not positive**: they are not refused.  At zero every coefficient is infinite, at a negative pressure none
is a number. -/
theorem c105_violated_pressure {E : Eos} {T P ρ dy : ℝ} {F : (Fin n → ℝ) → ℝ} (hF : EnergyIs E T F) (hn : E.n = n) (x : Fin n → ℝ)
    (hx : ∀ i, 0 ≤ x i) (h1 : ∑ i, x i = 1) (hρ : 0 < ρ) (hT : 0 < T) (hdy : dy ≠ 0) (lm : Bool) :
    (P = 0 → fugacity E (.num P) (.num ρ) (List.ofFn x) (.num T) dy lm = .ok (List.ofFn fun _ : Fin n => .pinf)) ∧
    (P < 0 → fugacity E (.num P) (.num ρ) (List.ofFn x) (.num T) dy lm = .ok (List.ofFn fun _ : Fin n => .nan)) := by
  have hR := gasConst_pos
  have hz : 0 < ρ * T * SaftEnergy.R := by positivity
  rw [fugacity_any_pressure hF hn x hx h1 hρ hT hdy lm]
  constructor
  · rintro rfl
    simp [extLog, Ext.sub, Ext.neg, Ext.add, extExp]
  · intro hP
    have : P / (ρ * T * SaftEnergy.R) < 0 := div_neg_of_neg_of_pos hP hz
    simp [extLog, not_lt.2 this.le, this.ne, Ext.sub, Ext.neg, Ext.add, extExp]

/-- **C105** (infinite energies): a residual energy of minus infinity gives a component that is absent the coefficient zero. -/
theorem c105_infinite (dy : ℝ) (lm : Bool) :
    fugacity { n := 1, massi := [1], method := "Abroglie", res := [fun r _ _ => .ok (r.map fun _ => .ninf)], assoc := none }
      (.num 1) (.num 1) [0] (.num 300) dy lm = .ok [.fin 0] := by
  have hR := gasConst_pos
  have hs : CheckDensity.screen [some (1 : ℝ)] = .ok [some 1] := by
    unfold CheckDensity.screen
    rw [if_neg (by simp), if_neg (by simp), if_neg (by simp)]
  simp [fugacity, Arg.scalar, density, CheckDensity.checkDensity, hs, bind, Except.bind, SaftEnergy.residual, negative, addAll, addTo, npZip,
    partials, logPartial, List.mapM_cons, pure, Except.pure, Ext.add, Ext.mul, Ext.div, hR, hR.ne', extLog, Ext.sub, Ext.neg, extExp]

/-- **C105.** The pressure that is given enters by its inverse only; it is not compared with the pressure at the density
that is given. -/
theorem c105_pressure_scaling (F : (Fin n → ℝ) → ℝ) (P P' ρ T dy : ℝ) (x : Fin n → ℝ) (i : Fin n) (hρ : 0 < ρ) (hT : 0 < T)
    (hP : 0 < P) (hP' : 0 < P') :
    Real.exp (lnFug F P' ρ T dy x i) = Real.exp (lnFug F P ρ T dy x i) * (P / P') := by
  have hR := gasConst_pos
  rw [← Real.exp_log (show 0 < P / P' by positivity), ← Real.exp_add]
  congr 1
  unfold lnFug
  rw [Real.log_div hP.ne' (by positivity), Real.log_div hP'.ne' (by positivity), Real.log_div hP.ne' hP'.ne']
  ring

/-- **C105.** In an ideal gas the coefficients of the components present are one at the pressure `ρ R T`. -/
theorem c105_ideal_gas (ρ T dy : ℝ) (x : Fin n → ℝ) (i : Fin n) (hi : x i ≠ 0) (hρ : 0 < ρ) (hT : 0 < T) :
    Real.exp (lnFug (fun _ => 0) (ρ * T * SaftEnergy.R) ρ T dy x i) = 1 := by
  have hR := gasConst_pos
  have : ρ * T * SaftEnergy.R ≠ 0 := by positivity
  simp [lnFug, usedPartial, hi, div_self this]

/-- **C105.** The derivative that is used is exact for a mixture in which the density of the component is multiplied by
some `exp η` with `η` between `-dy` and `dy`, apart from that factor. -/
theorem c105_mean_value (F : (Fin n → ℝ) → ℝ) (ρ dy : ℝ) (x : Fin n → ℝ) (i : Fin n) (hi : 0 < x i) (hρ : 0 < ρ) (hdy : 0 < dy)
    (D : ℝ → ℝ) (hD : ∀ r, 0 < r → HasDerivAt (fun r => F (Function.update (fun j => ρ * x j) i r)) (D r) r) :
    ∃ η, -dy < η ∧ η < dy ∧ usedPartial F ρ dy x i = Real.exp η * D (ρ * x i * Real.exp η) := by
  have hv : 0 < ρ * x i := mul_pos hρ hi
  have hg : ∀ δ, HasDerivAt (fun δ => F (shift (fun j => ρ * x j) i δ))
      (D (ρ * x i * Real.exp δ) * (ρ * x i * Real.exp δ)) δ := by
    intro δ
    have h1 : HasDerivAt (fun δ => ρ * x i * Real.exp δ) (ρ * x i * Real.exp δ) δ := (Real.hasDerivAt_exp δ).const_mul _
    exact (hD _ (by positivity)).comp δ h1
  obtain ⟨η, h1, h2⟩ := exists_hasDerivAt_eq_slope _ _ (show -dy < dy by linarith)
    (fun δ _ => (hg δ).continuousAt.continuousWithinAt) (fun δ _ => hg δ)
  refine ⟨η, h1.1, h1.2, ?_⟩
  rw [usedPartial, if_neg hi.ne', show 2 * dy = dy - -dy by ring, ← h2]
  field_simp

theorem symmetric_slope {g : ℝ → ℝ} {g' : ℝ} (hg : HasDerivAt g g' 0) :
    Filter.Tendsto (fun δ => (g δ - g (-δ)) / (2 * δ)) (nhdsWithin 0 {0}ᶜ) (nhds g') := by
  have h1 : HasDerivAt (fun δ => g (-δ)) (-g') 0 := by
    have : HasDerivAt g g' (-0) := by simpa using hg
    exact (this.comp (0 : ℝ) (hasDerivAt_neg 0)).congr_deriv (by ring)
  have h2 : HasDerivAt (fun δ => (g δ - g (-δ)) / 2) g' 0 := ((hg.sub h1).div_const 2).congr_deriv (by ring)
  have h3 := h2.tendsto_slope_zero
  refine h3.congr fun δ => ?_
  simp only [zero_add, neg_zero, sub_self, zero_div, sub_zero, smul_eq_mul]
  rw [div_eq_mul_inv, div_eq_mul_inv, mul_inv]
  ring

/-- **C105.** As the step goes to zero the coefficients satisfy the Gibbs relation: the sum of `xᵢ ln φᵢ` is the residual
Gibbs energy `A + (Z - 1) - ln Z`, with `Z - 1 = ρ ∂A/∂ρ`, for every energy that can be differentiated. -/
theorem c105_gibbs (F : (Fin n → ℝ) → ℝ) (P ρ T : ℝ) (x : Fin n → ℝ) (h1 : ∑ i, x i = 1) (hρ : 0 < ρ)
    (hF : DifferentiableAt ℝ F fun j => ρ * x j) :
    Filter.Tendsto (fun dy => ∑ i, x i * lnFug F P ρ T dy x i) (nhdsWithin 0 {0}ᶜ)
      (nhds (F (fun j => ρ * x j) + ρ * deriv (fun r => F fun j => r * x j) ρ - Real.log (P / (ρ * T * SaftEnergy.R)))) := by
  set v : Fin n → ℝ := fun j => ρ * x j
  set L := fderiv ℝ F v
  have hL : HasFDerivAt F L v := hF.hasFDerivAt
  have hpart : ∀ i, Filter.Tendsto (fun dy => x i * usedPartial F ρ dy x i) (nhdsWithin 0 {0}ᶜ) (nhds (L (Pi.single i (x i)))) := by
    intro i
    by_cases h0 : x i = 0
    · simp [h0]
    · have hg : HasDerivAt (fun δ => F (shift v i δ)) (L (Pi.single i (v i))) 0 := by
        have hs : HasDerivAt (fun δ => shift v i δ) (Pi.single i (v i)) 0 := by
          rw [hasDerivAt_pi]
          intro j
          simp only [shift, Function.update_apply, Pi.single_apply]
          by_cases hj : j = i
          · simp only [hj, if_true]
            simpa using (Real.hasDerivAt_exp 0).const_mul (v i)
          · simp only [hj, if_false]
            exact hasDerivAt_const _ _
        have h0' : shift v i 0 = v := by simp [shift]
        have hL' : HasFDerivAt F L (shift v i 0) := by rw [h0']; exact hL
        exact hL'.comp_hasDerivAt (0 : ℝ) hs
      have ht := (symmetric_slope hg).mul_const (1 / ρ)
      have hlim : L (Pi.single i (v i)) * (1 / ρ) = L (Pi.single i (x i)) := by
        have : Pi.single i (v i) = ρ • (Pi.single i (x i) : Fin n → ℝ) := by
          rw [← Pi.single_smul]; rfl
        rw [this, map_smul, smul_eq_mul]
        field_simp
      rw [hlim] at ht
      refine ht.congr fun δ => ?_
      rw [usedPartial, if_neg h0]
      change _ = x i * ((F (shift v i δ) - F (shift v i (-δ))) / (2 * δ) / (ρ * x i))
      generalize (F (shift v i δ) - F (shift v i (-δ))) / (2 * δ) = q
      field_simp
  have hsum := tendsto_finsetSum Finset.univ fun i _ => hpart i
  have hx : ∑ i, L (Pi.single i (x i)) = L x := by
    rw [← map_sum, Finset.univ_sum_single]
  have hder : deriv (fun r => F fun j => r * x j) ρ = L x := by
    have hs : HasDerivAt (fun r : ℝ => fun j => r * x j) x ρ := by
      rw [hasDerivAt_pi]
      intro j
      simpa using (hasDerivAt_id ρ).mul_const (x j)
    exact (hL.comp_hasDerivAt ρ hs).deriv
  rw [hx, ← hder] at hsum
  have := ((hsum.const_mul ρ).const_add (F v)).sub_const (Real.log (P / (ρ * T * SaftEnergy.R)))
  refine this.congr fun dy => ?_
  unfold lnFug
  have e : ∀ i, x i * (F v + ρ * usedPartial F ρ dy x i - Real.log (P / (ρ * T * SaftEnergy.R)))
      = x i * (F v - Real.log (P / (ρ * T * SaftEnergy.R))) + ρ * (x i * usedPartial F ρ dy x i) := fun i => by ring
  rw [show (∑ i, x i * (F (fun j => ρ * x j) + ρ * usedPartial F ρ dy x i - Real.log (P / (ρ * T * SaftEnergy.R))))
    = ∑ i, (x i * (F v - Real.log (P / (ρ * T * SaftEnergy.R))) + ρ * (x i * usedPartial F ρ dy x i)) from
      Finset.sum_congr rfl fun i _ => e i]
  rw [Finset.sum_add_distrib, ← Finset.sum_mul, h1, ← Finset.mul_sum]
  ring

/-- **C105** is violated: the coefficient of an absent component does not depend on the energy of a mixture with that
component, so that it is not the one at infinite dilution. -/
theorem c105_violated_absent (F : (Fin n → ℝ) → ℝ) (P ρ T dy : ℝ) (x : Fin n → ℝ) (i : Fin n) (hi : x i = 0) :
    lnFug F P ρ T dy x i = F (fun j => ρ * x j) + ρ * SaftEnergy.eps - Real.log (P / (ρ * T * SaftEnergy.R)) := by
  simp [lnFug, usedPartial, hi]

/-- **C105** is violated: the option `log_method` has no effect. -/
theorem c105_violated_log_method (E : Eos) (P ρ T : Arg) (xi : List ℝ) (dy : ℝ) :
    fugacity E P ρ xi T dy true = fugacity E P ρ xi T dy false := rfl

/-- Arrays of more than one number are refused. -/
theorem c105_scalar (E : Eos) (P ρ : Arg) (xi : List ℝ) (t u : ℝ) (l : List ℝ) (dy : ℝ) (lm : Bool) :
    fugacity E P ρ xi (.arr (t :: u :: l)) dy lm = .error .valueError := by
  unfold fugacity
  by_cases h : xi.length = E.n <;> simp [h, Arg.scalar, bind, Except.bind]

end Fugacity

/-- A mixture of two with the residual energy `b ρ`: a second virial coefficient. -/
noncomputable def virialEos : Eos where
  n := 2
  massi := [1 / 50, 1 / 20]
  method := "Abroglie"
  res := [fun rho _ _ => .ok (rho.map fun ρ => .fin (ρ / 10000))]
  assoc := none

/-- The hypotheses of the theorems on the pressure can be met. -/
example : GoodEos virialEos [1 / 4, 3 / 4] ∧ ResidualIs virialEos 300 ([1 / 4, 3 / 4].map some) (fun ρ => ρ / 10000) := by
  refine ⟨⟨rfl, rfl, ?_, rfl⟩, fun rho h0 h => ?_⟩
  · simp [virialEos]
  · have := c104_residual virialEos 300 ([1 / 4, 3 / 4].map some) rfl (by
      intro x hx v hv
      simp only [List.map_cons, List.map_nil, List.mem_cons, List.not_mem_nil, or_false] at hx
      rcases hx with rfl | rfl <;> cases hv <;> norm_num)
      [fun ρ => ρ / 10000] (.cons (fun _ _ _ => rfl) .nil) (fun _ => 0) (.inl ⟨rfl, rfl⟩) rho h0 h
    simpa using this

/-- The hypothesis of the theorems on the fugacity coefficients can be met. -/
example : EnergyIs (n := 2) virialEos 300 (fun r => (r 0 + r 1) / 10000) := by
  intro r h0 h1
  have := c104_residual virialEos 300 (List.ofFn fun i => some (r i / ∑ j, r j)) (by simp [virialEos]) (by
      intro x hx v hv
      obtain ⟨i, rfl⟩ := (List.mem_ofFn' _ _).1 hx
      cases hv
      exact div_nonneg (h0 i) h1.le)
    [fun ρ => ρ / 10000] (.cons (fun _ _ _ => rfl) .nil) (fun _ => 0) (.inl ⟨rfl, rfl⟩) [∑ i, r i] (by simp)
    (by simpa using h1.le)
  rw [this]
  simp [Fin.sum_univ_two]

/-- **C104 (refusals).** A composition of another length, or with a negative fraction, and a negative density are refused. -/
theorem c104_refused (E : Eos) (rho : List ℝ) (T : ℝ) (xi : List (Option ℝ)) :
    (xi.length ≠ E.n → SaftEnergy.residual E rho T xi = .error .valueError) ∧
    (rho ≠ [] → (∀ ρ ∈ rho, 0 ≤ ρ) → (∃ v, some v ∈ xi ∧ v < 0) → SaftEnergy.residual E rho T xi = .error .valueError) := by
  constructor
  · intro h
    simp [SaftEnergy.residual, h, bind, Except.bind]
  · rintro h0 h ⟨v, hv, hneg⟩
    by_cases hn : xi.length = E.n
    · have hany : xi.any SaftEnergy.negative = true :=
        List.any_eq_true.2 ⟨some v, hv, by simpa [SaftEnergy.negative] using hneg⟩
      simp [SaftEnergy.residual, hn, density_vec rho h0 h, hany, bind, Except.bind, pure, Except.pure]
    · simp [SaftEnergy.residual, hn, bind, Except.bind]

/-- **C104 (refusals).** A composition of another length is refused by each of the functions. -/
theorem c104_length (E : Eos) (rho : List ℝ) (T s : ℝ) (xi : List (Option ℝ)) (h : xi.length ≠ E.n) :
    SaftEnergy.ideal E rho T xi = .error .valueError ∧ SaftEnergy.helmholtz E rho T xi = .error .valueError ∧
      SaftEnergy.pressure E rho T xi s = .error .valueError := by
  simp [SaftEnergy.ideal, SaftEnergy.helmholtz, SaftEnergy.pressure, h, bind, Except.bind]

/-- **C105** (the derivative without the logarithm): the symmetric difference quotient in the density of each component that is present,
and the machine epsilon for each one that is not. -/
theorem c105_plain (func : List ℝ → ℝ → List (Option ℝ) → Except PyErr (List (Ext ℝ))) (ρ T dy : ℝ) (xi : List ℝ) (F : List ℝ → ℝ)
    (hF : ∀ r, atDensities func T r = .ok (.fin (F r))) (hρ : ρ ≠ 0) (hdy : dy ≠ 0) :
    partials func ρ T dy xi false = .ok (xi.zipIdx.map fun q => if q.1 = 0 then .fin SaftEnergy.eps else
      .fin ((F ((xi.map (ρ * ·)).modify q.2 (· + dy)) - F ((xi.map (ρ * ·)).modify q.2 (· - dy))) / (2 * dy))) := by
  unfold partials
  refine mapM_ok _ _ _ fun q hq => ?_
  obtain ⟨y, k⟩ := q
  obtain ⟨hk, hy⟩ := List.mem_zipIdx' hq
  dsimp only at hk hy ⊢
  simp only [Bool.false_eq_true, if_false, plainPartial]
  by_cases h0 : y = 0
  · simp [h0]
  · have hm : ∀ g : ℝ → ℝ, (xi.map (ρ * ·)).modify k (fun v => if v ≠ 0 then g v else v) = (xi.map (ρ * ·)).modify k g := fun g => by
      apply List.ext_getElem
      · simp
      · intro i h1 h2
        rw [List.getElem_modify, List.getElem_modify]
        split
        · rename_i hik
          subst hik
          have : ρ * xi[k] ≠ 0 := mul_ne_zero hρ (by rw [← hy]; exact h0)
          simp [this]
        · rfl
    have h2 : 2 * dy ≠ 0 := by simpa using hdy
    rw [hm (· + dy), hm (· - dy), hF, hF]
    simp [h0, hdy, bind, Except.bind, Ext.sub, Ext.neg, Ext.add, Ext.div, sub_eq_add_neg]

/-- The function is called with one density and the first entry of its result is used; an empty result is an error. -/
theorem c105_first_entry (func : List ℝ → ℝ → List (Option ℝ) → Except PyErr (List (Ext ℝ))) (T : ℝ) (r : List ℝ) (h : r.sum ≠ 0) :
    atDensities func T r = (match func [r.sum] T (r.map fun v => some (v / r.sum)) with
      | .ok [] => .error .indexError
      | .ok (v :: _) => .ok v
      | .error e => .error e) := by
  unfold atDensities
  simp only [h, if_false, bind, Except.bind]
  cases func [r.sum] T (r.map fun v => some (v / r.sum)) with
  | error e => rfl
  | ok l => cases l <;> rfl

/-- The derivatives of the sum of the squares of the densities of two components out of three. -/
example : partials (fun ρ _ x => .ok (ρ.map fun v => .fin (((x.filterMap id).map fun y => (v * y) ^ 2).sum))) 10 300 (1 / 2) [1 / 5, 0, 4 / 5]
    false = .ok [.fin 4, .fin SaftEnergy.eps, .fin 16] := by
  norm_num [partials, plainPartial, atDensities, List.zipIdx, List.modify, bind, Except.bind, pure, Except.pure, Ext.sub, Ext.neg, Ext.add,
    Ext.div]

end Verif.Props
