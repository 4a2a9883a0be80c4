import Mathlib.Analysis.SpecialFunctions.Log.Deriv
import Mathlib.Tactic.FieldSimp
import Mathlib.Tactic.Linarith
import Verif.Model.Consistency
import Verif.Model.PengRobinson
import Verif.Props.SaftEnergy

/-!
# C110–C113: the consistency tests of an equation of state and the activity coefficients
-/

namespace Verif.Props
open Verif Verif.Consistency

set_option linter.unusedSectionVars false

variable {n : ℕ}

/-! ## C112: the fugacity coefficient of a mixture -/

/-- The mean of the logarithms of the coefficients `φ` with the weights `x`. -/
noncomputable def meanLog (x φ : List ℝ) : ℝ := (List.zipWith (fun x f => x * Real.log f) x φ).sum

theorem weighted_eq (x φ : List ℝ) (h : x.length = φ.length) : weighted x φ = .ok (meanLog x φ) := by
  simp [weighted, npZip_same _ _ _ h, meanLog, bind, Except.bind]

theorem compo_array (x : List ℝ) (hx : x ≠ []) : (Compo.one x).isArray = .ok false := by
  cases x with
  | nil => exact absurd rfl hx
  | cons => rfl

/-- An empty composition, or an empty array of compositions, is refused. -/
theorem c112_empty (φ : Phi) (P T r : Cond) :
    mixture φ P T (.one []) r = .error .indexError ∧ mixture φ P T (.many []) r = .error .indexError := ⟨rfl, rfl⟩

/-- **C112.** For single conditions: the mean of the logarithms, weighted with the composition. -/
theorem c112_one (φ : Phi) (P T r : ℝ) (x f : List ℝ) (hx : x ≠ []) (hl : x.length = f.length) (h : φ P r x T = .ok f) :
    mixture φ (.one P) (.one T) (.one x) (.one r) = .ok (.one (meanLog x f)) := by
  simp [mixture, arrays, Cond.isArray, compo_array x hx, bind, Except.bind, h, weighted_eq x f hl]

/-- **C112.** More than one array of conditions is refused, whatever the equation of state. -/
theorem c112_arrays (φ : Phi) (P T r : Cond) (xi : Compo) (b : Bool) (hb : xi.isArray = .ok b)
    (h : 1 < P.isArray.toNat + T.isArray.toNat + b.toNat + r.isArray.toNat) :
    mixture φ P T xi r = .error .valueError := by
  simp [mixture, arrays, hb, bind, Except.bind, h]

/-- **C112.** The same, pair by pair. -/
theorem c112_two_arrays (φ : Phi) (P T r : Cond) (ps qs : List ℝ) (xs : List (List ℝ)) (x : List ℝ) (hx : x ≠ []) (hxs : xs ≠ []) :
    mixture φ (.many ps) (.many qs) (.one x) r = .error .valueError ∧ mixture φ (.many ps) T (.one x) (.many qs) = .error .valueError ∧
      mixture φ P (.many ps) (.one x) (.many qs) = .error .valueError ∧ mixture φ (.many ps) T (.many xs) r = .error .valueError ∧
      mixture φ P (.many ps) (.many xs) r = .error .valueError ∧ mixture φ P T (.many xs) (.many ps) = .error .valueError := by
  have h0 : (Compo.many xs).isArray = .ok true := by
    cases xs with
    | nil => exact absurd rfl hxs
    | cons => rfl
  have h1 := compo_array x hx
  refine ⟨?_, ?_, ?_, ?_, ?_, ?_⟩
  · exact c112_arrays φ _ _ _ _ _ h1 (by cases r <;> simp [Cond.isArray])
  · exact c112_arrays φ _ _ _ _ _ h1 (by cases T <;> simp [Cond.isArray])
  · exact c112_arrays φ _ _ _ _ _ h1 (by cases P <;> simp [Cond.isArray])
  · exact c112_arrays φ _ _ _ _ _ h0 (by cases T <;> cases r <;> simp [Cond.isArray])
  · exact c112_arrays φ _ _ _ _ _ h0 (by cases P <;> cases r <;> simp [Cond.isArray])
  · exact c112_arrays φ _ _ _ _ _ h0 (by cases P <;> cases T <;> simp [Cond.isArray])

/-- **C112.** An array of pressures gives the values for the single pressures. -/
theorem c112_pressures (φ : Phi) (ps : List ℝ) (T r : ℝ) (x : List ℝ) (hx : x ≠ []) (f : ℝ → List ℝ)
    (hl : ∀ p ∈ ps, x.length = (f p).length) (h : ∀ p ∈ ps, φ p r x T = .ok (f p)) :
    mixture φ (.many ps) (.one T) (.one x) (.one r) = .ok (.many (ps.map fun p => meanLog x (f p))) := by
  have : ps.mapM (fun p => (φ p r x T).bind fun f => weighted x f) = .ok (ps.map fun p => meanLog x (f p)) :=
    mapM_ok _ _ _ fun p hp => by simp [h p hp, Except.bind, weighted_eq x _ (hl p hp)]
  simp [mixture, arrays, Cond.isArray, compo_array x hx, bind, Except.bind] at this ⊢
  simp [this]

/-- **C112.** An array of temperatures gives the values for the single temperatures. -/
theorem c112_temperatures (φ : Phi) (P : ℝ) (ts : List ℝ) (r : ℝ) (x : List ℝ) (hx : x ≠ []) (f : ℝ → List ℝ)
    (hl : ∀ t ∈ ts, x.length = (f t).length) (h : ∀ t ∈ ts, φ P r x t = .ok (f t)) :
    mixture φ (.one P) (.many ts) (.one x) (.one r) = .ok (.many (ts.map fun t => meanLog x (f t))) := by
  have : ts.mapM (fun t => (φ P r x t).bind fun f => weighted x f) = .ok (ts.map fun t => meanLog x (f t)) :=
    mapM_ok _ _ _ fun p hp => by simp [h p hp, Except.bind, weighted_eq x _ (hl p hp)]
  simp [mixture, arrays, Cond.isArray, compo_array x hx, bind, Except.bind] at this ⊢
  simp [this]

/-- **C112.** An array of densities gives the values for the single densities. -/
theorem c112_densities (φ : Phi) (P T : ℝ) (rs : List ℝ) (x : List ℝ) (hx : x ≠ []) (f : ℝ → List ℝ)
    (hl : ∀ r ∈ rs, x.length = (f r).length) (h : ∀ r ∈ rs, φ P r x T = .ok (f r)) :
    mixture φ (.one P) (.one T) (.one x) (.many rs) = .ok (.many (rs.map fun r => meanLog x (f r))) := by
  have : rs.mapM (fun r => (φ P r x T).bind fun f => weighted x f) = .ok (rs.map fun r => meanLog x (f r)) :=
    mapM_ok _ _ _ fun p hp => by simp [h p hp, Except.bind, weighted_eq x _ (hl p hp)]
  simp [mixture, arrays, Cond.isArray, compo_array x hx, bind, Except.bind] at this ⊢
  simp [this]

/-- **C112.** For an array of compositions every entry adds the weights of *all* the compositions of the array. -/
theorem c112_compositions (φ : Phi) (P T r : ℝ) (xs : List (List ℝ)) (hx : xs ≠ []) (f : List ℝ → List ℝ)
    (hl : ∀ x ∈ xs, ∀ y ∈ xs, y.length = (f x).length) (h : ∀ x ∈ xs, φ P r x T = .ok (f x)) :
    mixture φ (.one P) (.one T) (.many xs) (.one r)
      = .ok (.many (xs.map fun x => (xs.map fun y => meanLog y (f x)).sum)) := by
  have h0 : (Compo.many xs).isArray = .ok true := by
    cases xs with
    | nil => exact absurd rfl hx
    | cons => rfl
  have : xs.mapM (fun x => (φ P r x T).bind fun f => weightedAll xs f)
      = .ok (xs.map fun x => (xs.map fun y => meanLog y (f x)).sum) :=
    mapM_ok _ _ _ fun x hp => by
      have e : xs.mapM (fun y => weighted y (f x)) = .ok (xs.map fun y => meanLog y (f x)) :=
        mapM_ok _ _ _ fun y hy => weighted_eq y _ (hl x hp y hy)
      simp [h x hp, Except.bind, weightedAll, e, bind]
  simp [mixture, arrays, Cond.isArray, h0, bind, Except.bind] at this ⊢
  simp [this]

/-- A fluid whose components have the coefficients two at every state. -/
noncomputable def twoPhi : Phi := fun _ _ x _ => .ok (x.map fun _ => 2)

/-- **C112, violated.** Every composition alone gives `ln 2`, the array of the three gives `3 ln 2` for each. -/
theorem c112_violated_compositions :
    (∀ x ∈ [[1, 0], [1 / 2, 1 / 2], [0, (1 : ℝ)]],
      mixture twoPhi (.one 1) (.one 1) (.one x) (.one 1) = .ok (.one (Real.log 2))) ∧
    mixture twoPhi (.one 1) (.one 1) (.many [[1, 0], [1 / 2, 1 / 2], [0, 1]]) (.one 1)
      = .ok (.many [3 * Real.log 2, 3 * Real.log 2, 3 * Real.log 2]) ∧ Real.log 2 ≠ 3 * Real.log 2 := by
  have hp : 0 < Real.log 2 := Real.log_pos (by norm_num)
  refine ⟨?_, ?_, by linarith⟩
  · intro x hx
    simp only [List.mem_cons, List.not_mem_nil, or_false] at hx
    rcases hx with rfl | rfl | rfl <;>
    · rw [c112_one twoPhi 1 1 1 _ _ (by simp) (by simp) rfl]
      simp [meanLog]
      try ring
  · rw [c112_compositions twoPhi 1 1 1 _ (by simp) (fun x => x.map fun _ => 2) (by simp) (fun _ _ => rfl)]
    simp [meanLog]
    ring

/-! ## C110: the first test -/

/-- **C110.** The test compares the difference quotient of the mean logarithm at *fixed density* with `(Z - 1) / P`. -/
theorem c110_value (R : ℝ) (φ : Phi) (P T r s : ℝ) (x f g : List ℝ) (hx : x ≠ []) (hf : x.length = f.length)
    (hg : x.length = g.length) (h1 : φ (P + s) r x T = .ok f) (h2 : φ (P - s) r x T = .ok g) :
    test1 R φ P T x r s = .ok ((meanLog x f - meanLog x g) / (2 * s) - (P / (r * T * R) - 1) / P) := by
  have e : mixture φ (.many [P + s, P - s]) (.one T) (.one x) (.one r) = .ok (.many [meanLog x f, meanLog x g]) := by
    simp [mixture, arrays, Cond.isArray, compo_array x hx, bind, Except.bind, h1, h2, weighted_eq x f hf,
      weighted_eq x g hg, pure, Except.pure]
  simp [test1, e, bind, Except.bind]

theorem meanLog_ofFn (x f : Fin n → ℝ) : meanLog (List.ofFn x) (List.ofFn fun i => Real.exp (f i)) = ∑ i, x i * f i := by
  unfold meanLog
  rw [← List.sum_ofFn]
  congr 1
  apply List.ext_getElem <;> simp

/-- The logarithms of the pressures around `P`. -/
theorem log_quotient {P s : ℝ} (hs : 0 < s) (hP : s < P) :
    (Real.log (P + s) - Real.log (P - s)) / (2 * s) = idealFactor (s / P) / P := by
  have h0 : 0 < P := hs.trans hP
  have h1 : 0 < 1 - s / P := by rw [sub_pos, div_lt_one h0]; exact hP
  have e1 : P + s = P * (1 + s / P) := by field_simp
  have e2 : P - s = P * (1 - s / P) := by field_simp
  rw [e1, e2, Real.log_mul h0.ne' (by positivity), Real.log_mul h0.ne' h1.ne']
  unfold idealFactor
  field_simp
  ring

theorem factor_bounds {P s : ℝ} (hs : 0 < s) (hP : s < P) :
    1 ≤ idealFactor (s / P) ∧ idealFactor (s / P) ≤ 1 / (1 - (s / P) ^ 2) := by
  have h0 : 0 < P := hs.trans hP
  exact c104_ideal_factor (div_pos hs h0) ((div_lt_one h0).2 hP)

/-- **C110, violated.** With the fugacity coefficients of the SAFT equations the residual is `- 1 / (ρ R T)` up to the error
of the quotient, for *every* residual energy `F`: the test fails for consistent equations of state, because the density is
not changed with the pressure, and it says nothing about the energy. -/
theorem c110_violated_saft (φ : Phi) (F : (Fin n → ℝ) → ℝ) (P T r s dy : ℝ) (x : Fin n → ℝ) (hx : ∑ i, x i = 1)
    (hs : 0 < s) (hP : s < P) (hr : 0 < r) (hT : 0 < T)
    (h : ∀ p, 0 < p → φ p r (List.ofFn x) T = .ok (List.ofFn fun i => Real.exp (lnFug F p r T dy x i))) :
    ∃ res, test1 SaftEnergy.R φ P T (List.ofFn x) r s = .ok res ∧
      res = - (1 / (r * T * SaftEnergy.R)) - (idealFactor (s / P) - 1) / P ∧
      res ≤ - (1 / (r * T * SaftEnergy.R)) ∧ res < 0 := by
  have hR := gasConst_pos
  have h0 : 0 < P := hs.trans hP
  have hn : List.ofFn x ≠ [] := by
    intro e
    have : n = 0 := by simpa using congrArg List.length e
    subst this
    simp at hx
  refine ⟨_, c110_value _ _ _ _ _ _ _ _ _ hn (by simp) (by simp) (h _ (by linarith)) (h _ (by linarith)), ?_⟩
  have key : (meanLog (List.ofFn x) (List.ofFn fun i => Real.exp (lnFug F (P + s) r T dy x i))
      - meanLog (List.ofFn x) (List.ofFn fun i => Real.exp (lnFug F (P - s) r T dy x i))) / (2 * s)
      = - (idealFactor (s / P) / P) := by
    rw [meanLog_ofFn, meanLog_ofFn, ← log_quotient hs hP, ← Finset.sum_sub_distrib]
    have : ∀ i, x i * lnFug F (P + s) r T dy x i - x i * lnFug F (P - s) r T dy x i
        = x i * (Real.log (P - s) - Real.log (P + s)) := fun i => by
      unfold lnFug
      rw [Real.log_div (by linarith) (by positivity), Real.log_div (by linarith) (by positivity)]
      ring
    rw [Finset.sum_congr rfl fun i _ => this i, ← Finset.sum_mul, hx]
    ring
  rw [key]
  have e : -(idealFactor (s / P) / P) - (P / (r * T * SaftEnergy.R) - 1) / P
      = - (1 / (r * T * SaftEnergy.R)) - (idealFactor (s / P) - 1) / P := by
    field_simp
    ring
  have hb := (factor_bounds hs hP).1
  have hq : 0 < 1 / (r * T * SaftEnergy.R) := by positivity
  have h3 : 0 ≤ (idealFactor (s / P) - 1) / P := div_nonneg (by linarith) h0.le
  exact ⟨e, by rw [e]; linarith, by rw [e]; linarith⟩

/-- The mean logarithm of the Peng–Robinson coefficients depends on the given pressure like `P / (ρ R T) - ln P`. -/
theorem pr_pressure (R T : ℝ) (p : PengRobinson.Par n) (x : Fin n → ℝ) (r P : ℝ) (hx : ∑ i, x i = 1) (hP : 0 < P)
    (hR : 0 < R) (hT : 0 < T) (hr : 0 < r) (hb : PengRobinson.bmix p x ≠ 0) (hv : PengRobinson.bmix p x * r < 1) :
    ∑ i, x i * PengRobinson.lnPhi R T p x P r i
      = ∑ i, x i * PengRobinson.lnPhi R T p x 1 r i + ((P - 1) / (R * T * r) - Real.log P) := by
  set b := PengRobinson.bmix p x with hbd
  have key : ∀ i, PengRobinson.lnPhi R T p x P r i = PengRobinson.lnPhi R T p x 1 r i
      + (p.bi i / b * ((P - 1) / (R * T * r)) - Real.log P) := by
    intro i
    unfold PengRobinson.lnPhi
    simp only [← hbd]
    have e0 : PengRobinson.amix p x * P / (R * T) ^ 2 / (2 * √2 * (b * P / (R * T)))
        = PengRobinson.amix p x * 1 / (R * T) ^ 2 / (2 * √2 * (b * 1 / (R * T))) := by
      field_simp
    have e1 : (P / (R * T * r) + (1 + √2) * (b * P / (R * T))) / (P / (R * T * r) + (1 - √2) * (b * P / (R * T)))
        = (1 / (R * T * r) + (1 + √2) * (b * 1 / (R * T))) / (1 / (R * T * r) + (1 - √2) * (b * 1 / (R * T))) := by
      rw [show P / (R * T * r) + (1 + √2) * (b * P / (R * T))
          = P * (1 / (R * T * r) + (1 + √2) * (b * 1 / (R * T))) by ring,
        show P / (R * T * r) + (1 - √2) * (b * P / (R * T))
          = P * (1 / (R * T * r) + (1 - √2) * (b * 1 / (R * T))) by ring, mul_div_mul_left _ _ hP.ne']
    have e2 : p.bi i * P / (R * T) / (b * P / (R * T)) = p.bi i / b := by field_simp
    have e2' : p.bi i * 1 / (R * T) / (b * 1 / (R * T)) = p.bi i / b := by field_simp
    have e3 : (∑ j, x j * (√(p.ai i * p.alpha i * P / (R * T) ^ 2 * (p.ai j * p.alpha j * P / (R * T) ^ 2))
          * (1 - p.kij i j))) = P * ∑ j, x j * (√(p.ai i * p.alpha i * 1 / (R * T) ^ 2
            * (p.ai j * p.alpha j * 1 / (R * T) ^ 2)) * (1 - p.kij i j)) := by
      rw [Finset.mul_sum]
      refine Finset.sum_congr rfl fun j _ => ?_
      have : p.ai i * p.alpha i * P / (R * T) ^ 2 * (p.ai j * p.alpha j * P / (R * T) ^ 2)
          = P ^ 2 * (p.ai i * p.alpha i * 1 / (R * T) ^ 2 * (p.ai j * p.alpha j * 1 / (R * T) ^ 2)) := by ring
      rw [this, Real.sqrt_mul (by positivity), Real.sqrt_sq hP.le]
      ring
    have e4 : ∀ S : ℝ, 2 * (P * S) / (PengRobinson.amix p x * P / (R * T) ^ 2)
        = 2 * S / (PengRobinson.amix p x * 1 / (R * T) ^ 2) := by
      intro S
      rw [show 2 * (P * S) = P * (2 * S) by ring,
        show PengRobinson.amix p x * P / (R * T) ^ 2 = P * (PengRobinson.amix p x * 1 / (R * T) ^ 2) by ring,
        mul_div_mul_left _ _ hP.ne']
    have e5 : Real.log (P / (R * T * r) - b * P / (R * T))
        = Real.log P + Real.log (1 / (R * T * r) - b * 1 / (R * T)) := by
      rw [← Real.log_mul hP.ne']
      · congr 1; ring
      · have : 1 / (R * T * r) - b * 1 / (R * T) = (1 - b * r) / (R * T * r) := by field_simp
        rw [this]
        have : 0 < 1 - b * r := by linarith
        positivity
    have e6 : p.bi i * P / (R * T) * (P / (R * T * r) - 1) / (b * P / (R * T)) = p.bi i / b * (P / (R * T * r) - 1) := by
      field_simp
    have e7 : p.bi i * 1 / (R * T) * (1 / (R * T * r) - 1) / (b * 1 / (R * T)) = p.bi i / b * (1 / (R * T * r) - 1) := by
      field_simp
    rw [e0, e1, e2, e2', e3, e4, e5, e6, e7]
    ring
  rw [Finset.sum_congr rfl fun i _ => by rw [key i, mul_add], Finset.sum_add_distrib]
  congr 1
  have : ∀ i, x i * (p.bi i / b * ((P - 1) / (R * T * r)) - Real.log P)
      = x i * p.bi i * ((P - 1) / (R * T * r) / b) - x i * Real.log P := fun i => by
    field_simp
  rw [Finset.sum_congr rfl fun i _ => this i, Finset.sum_sub_distrib, ← Finset.sum_mul, ← Finset.sum_mul, hx]
  have hb' : ∑ i, x i * p.bi i = b := rfl
  rw [hb']
  field_simp

/-- **C110.** With the coefficients of Peng and Robinson the residual is the error of the quotient, at every density below
the pole and for all parameters: the density need not belong to the pressure, and an error in any parameter or in the
attractive terms cannot be seen. -/
theorem c110_pr (R : ℝ) (φ : Phi) (p : PengRobinson.Par n) (P T r s : ℝ) (x : Fin n → ℝ) (hx : ∑ i, x i = 1) (hR : 0 < R)
    (hs : 0 < s) (hP : s < P) (hr : 0 < r) (hT : 0 < T) (hb : PengRobinson.bmix p x ≠ 0)
    (hv : PengRobinson.bmix p x * r < 1)
    (h : ∀ q, 0 < q → φ q r (List.ofFn x) T = .ok (List.ofFn fun i => PengRobinson.phi R T p x q r i)) :
    ∃ res, test1 R φ P T (List.ofFn x) r s = .ok res ∧ res = - ((idealFactor (s / P) - 1) / P) ∧
      |res| ≤ (1 / (1 - (s / P) ^ 2) - 1) / P := by
  have h0 : 0 < P := hs.trans hP
  have hn : List.ofFn x ≠ [] := by
    intro e
    have : n = 0 := by simpa using congrArg List.length e
    subst this
    simp at hx
  refine ⟨_, c110_value _ _ _ _ _ _ _ _ _ hn (by simp) (by simp) (h _ (by linarith)) (h _ (by linarith)), ?_⟩
  have e : ((meanLog (List.ofFn x) (List.ofFn fun i => PengRobinson.phi R T p x (P + s) r i)
      - meanLog (List.ofFn x) (List.ofFn fun i => PengRobinson.phi R T p x (P - s) r i)) / (2 * s)
      - (P / (r * T * R) - 1) / P) = - ((idealFactor (s / P) - 1) / P) := by
    unfold PengRobinson.phi
    rw [meanLog_ofFn, meanLog_ofFn, pr_pressure R T p x r (P + s) hx (by linarith) hR hT hr hb hv,
      pr_pressure R T p x r (P - s) hx (by linarith) hR hT hr hb hv]
    generalize (∑ i, x i * PengRobinson.lnPhi R T p x 1 r i) = S
    have hq := log_quotient hs hP
    have e1 : (S + ((P + s - 1) / (R * T * r) - Real.log (P + s)) - (S + ((P - s - 1) / (R * T * r) - Real.log (P - s))))
        / (2 * s) = 1 / (R * T * r) - (Real.log (P + s) - Real.log (P - s)) / (2 * s) := by
      field_simp
      ring
    rw [e1, hq]
    field_simp
    ring
  obtain ⟨h1, h2⟩ := factor_bounds hs hP
  refine ⟨e, ?_⟩
  rw [e, abs_neg, abs_of_nonneg (div_nonneg (by linarith) h0.le)]
  gcongr

/-! ## C111: the second test -/

/-- The composition after the amount of the first of `n0` moles has been changed by `d`. -/
noncomputable def changed (n0 d : ℝ) (x : Fin (n + 1) → ℝ) (i : Fin (n + 1)) : ℝ :=
  (x i * n0 + if i = 0 then d else 0) / (n0 * (∑ j, x j) + d)

theorem shifted_moles (n0 d : ℝ) (x : Fin (n + 1) → ℝ) :
    (let ni := (x 0 * n0 + d) :: List.ofFn (fun i : Fin n => x i.succ * n0); ni.map (· / ni.sum))
      = List.ofFn (changed n0 d x) := by
  have hs : ((x 0 * n0 + d) :: List.ofFn (fun i : Fin n => x i.succ * n0)).sum = n0 * (∑ j, x j) + d := by
    rw [List.sum_cons, List.sum_ofFn, Fin.sum_univ_succ, mul_add, Finset.mul_sum]
    simp only [mul_comm n0]
    ring
  simp only [hs, List.ofFn_succ, List.map_cons, List.map_ofFn]
  have h1 : ∀ i : Fin n, changed n0 d x i.succ = x i.succ * n0 / (n0 * ∑ j, x j + d) := fun i => by
    simp [changed, Fin.succ_ne_zero]
  have h0 : changed n0 d x 0 = (x 0 * n0 + d) / (n0 * ∑ j, x j + d) := by simp [changed]
  simp only [h0, h1]
  rfl

/-- **C111.** One of the shifted states: the amount must not be negative; the composition is normalised. -/
theorem c111_shifted (φ : Phi) (nn n0 P r T : ℝ) (x : Fin (n + 1) → ℝ) :
    shiftedLog φ nn n0 P r (List.ofFn x) T =
      if x 0 * n0 + (nn - n0) < 0 then .error .valueError
      else (φ P r (List.ofFn (changed n0 (nn - n0) x)) T).map (List.map Real.log) := by
  have := shifted_moles n0 (nn - n0) x
  unfold shiftedLog
  rw [List.ofFn_succ, List.map_cons, List.map_ofFn]
  have hf : (fun a => a * n0) ∘ (fun i : Fin n => x i.succ) = fun i : Fin n => x i.succ * n0 := rfl
  rw [hf]
  simp only at this ⊢
  rw [this]
  split
  · rfl
  · cases φ P r (List.ofFn (changed n0 (nn - n0) x)) T <;> rfl

/-- **C111.** The step must be smaller than the number of moles. -/
theorem c111_step (φ : Phi) (P T r s n0 : ℝ) (xi : List ℝ) (h : n0 ≤ s) : test2 φ P T xi r s n0 = .error .valueError := by
  simp [test2, h]

/-- **C111.** A step larger than the amount of the first component raises. -/
theorem c111_amount (φ : Phi) (P T r s n0 : ℝ) (x : Fin (n + 1) → ℝ) (hs : s < n0) (h0 : 0 ≤ s) (hx : 0 ≤ x 0)
    (h : x 0 * n0 < s) (f : List ℝ) (hf : φ P r (List.ofFn (changed n0 s x)) T = .ok f) :
    test2 φ P T (List.ofFn x) r s n0 = .error .valueError := by
  have hn : 0 < n0 := h0.trans_lt hs
  unfold test2
  rw [if_neg (not_le.2 hs), c111_shifted, c111_shifted, if_neg, if_pos]
  · have e : n0 + s - n0 = s := by ring
    simp only [e, hf, bind, Except.bind, Except.map]
  · linarith
  · have : 0 ≤ x 0 * n0 := by positivity
    linarith

/-- **C111, violated.** The value is the *difference* `Σ xᵢ (ln φᵢ(x⁺) - ln φᵢ(x⁻))`: the division by the step has been
undone, it is no derivative. -/
theorem c111_value (φ : Phi) (P T r s n0 : ℝ) (x : Fin (n + 1) → ℝ) (f : (Fin (n + 1) → ℝ) → Fin (n + 1) → ℝ) (h0 : 0 < s)
    (hs : s < n0) (hx : s ≤ x 0 * n0)
    (h : ∀ y, φ P r (List.ofFn y) T = .ok (List.ofFn fun i => Real.exp (f y i))) :
    test2 φ P T (List.ofFn x) r s n0 = .ok (∑ i, x i * (f (changed n0 s x) i - f (changed n0 (-s) x) i)) := by
  unfold test2
  rw [if_neg (not_le.2 hs), c111_shifted, c111_shifted, if_neg (by linarith), if_neg (by linarith), h, h]
  have e1 : n0 + s - n0 = s := by ring
  have e2 : n0 - s - n0 = -s := by ring
  simp only [e1, e2, Except.map, bind, Except.bind, List.length_append, List.length_map, List.length_ofFn]
  have hl : (n + 1 + (n + 1)) / 2 = n + 1 := by omega
  rw [hl, List.take_left' (by simp), List.drop_left' (by simp), npZip_same _ _ _ (by simp)]
  simp only
  rw [npZip_same _ _ _ (by simp)]
  have : List.zipWith (fun x v => x * (v / (2 * s))) (List.ofFn x)
      (List.zipWith (fun a b => a - b) ((List.ofFn fun i => Real.exp (f (changed n0 s x) i)).map Real.log)
        ((List.ofFn fun i => Real.exp (f (changed n0 (-s) x) i)).map Real.log))
      = List.ofFn fun i => x i * ((f (changed n0 s x) i - f (changed n0 (-s) x) i) / (2 * s)) := by
    apply List.ext_getElem
    · simp
    · intro k h1 h2
      simp only [List.getElem_zipWith, List.getElem_map, List.getElem_ofFn, Real.log_exp]
  rw [this]
  simp only [List.sum_ofFn, Finset.sum_mul]
  congr 1
  refine Finset.sum_congr rfl fun i _ => ?_
  field_simp

theorem changed_tendsto (n0 : ℝ) (x : Fin (n + 1) → ℝ) (hn : 0 < n0) (hx : ∑ i, x i = 1) (c : ℝ) :
    Filter.Tendsto (fun s => changed n0 (c * s) x) (nhds 0) (nhds x) := by
  rw [tendsto_pi_nhds]
  intro i
  have : ContinuousAt (fun s => changed n0 (c * s) x i) 0 := by
    unfold changed
    refine ContinuousAt.div ?_ ?_ ?_
    · split
      · fun_prop
      · fun_prop
    · fun_prop
    · simp [hx, hn.ne']
  have h := this.tendsto
  have e : changed n0 (c * 0) x i = x i := by
    simp only [changed, hx]
    have := hn.ne'
    simp
    field_simp
  rwa [e] at h

/-- **C111, violated.** Whatever the coefficients are, if they depend continuously on the composition the residual tends to
zero with the step: a small value says nothing about consistency. -/
theorem c111_violated_blind (x : Fin (n + 1) → ℝ) (f : (Fin (n + 1) → ℝ) → Fin (n + 1) → ℝ) (n0 : ℝ) (hn : 0 < n0)
    (hx : ∑ i, x i = 1) (hf : ContinuousAt f x) :
    Filter.Tendsto (fun s => ∑ i, x i * (f (changed n0 s x) i - f (changed n0 (-s) x) i)) (nhds 0) (nhds 0) := by
  have h1 : Filter.Tendsto (fun s => f (changed n0 s x)) (nhds 0) (nhds (f x)) := by
    have := hf.tendsto.comp (changed_tendsto n0 x hn hx 1)
    simpa [Function.comp_def] using this
  have h2 : Filter.Tendsto (fun s => f (changed n0 (-s) x)) (nhds 0) (nhds (f x)) := by
    have := hf.tendsto.comp (changed_tendsto n0 x hn hx (-1))
    simpa [Function.comp_def] using this
  have : Filter.Tendsto (fun s => ∑ i, x i * (f (changed n0 s x) i - f (changed n0 (-s) x) i)) (nhds 0)
      (nhds (∑ i, x i * (f x i - f x i))) :=
    tendsto_finsetSum _ fun i _ => Filter.Tendsto.const_mul _
      ((tendsto_pi_nhds.1 h1 i).sub (tendsto_pi_nhds.1 h2 i))
  simpa using this

/-- The logarithms of the coefficients of a gas of two with the second virial coefficients `B₁₁ = 1`, `B₁₂ = B₂₂ = 0` at
the given pressure (in units of `R T`) and density. -/
noncomputable def virialLog (P r : ℝ) (y : Fin 2 → ℝ) (i : Fin 2) : ℝ :=
  (if i = 0 then 2 * r * y 0 else 0) - Real.log (P / r)

/-- **C111.** This gas is consistent: at constant pressure `ρ (1 + ρ x₁²)` the coefficients obey the relation of Gibbs and
Duhem along every differentiable path. -/
theorem c111_virial_consistent (x r : ℝ → ℝ) (x' r' P t : ℝ) (hP : 0 < P) (hr : ∀ u, 0 < r u) (dx : HasDerivAt x x' t)
    (dr : HasDerivAt r r' t) (hp : ∀ u, r u * (1 + r u * x u ^ 2) = P) :
    ∃ d0 d1, HasDerivAt (fun u => virialLog P (r u) ![x u, 1 - x u] 0) d0 t ∧
      HasDerivAt (fun u => virialLog P (r u) ![x u, 1 - x u] 1) d1 t ∧ x t * d0 + (1 - x t) * d1 = 0 := by
  have hq : HasDerivAt (fun u => Real.log (P / r u)) (-(r' / r t)) t := by
    have h1 : (fun u => Real.log (P / r u)) = fun u => Real.log P - Real.log (r u) := by
      funext u
      rw [Real.log_div hP.ne' (hr u).ne']
    rw [h1]
    have := (dr.log (hr t).ne').const_sub (Real.log P)
    exact this
  have hm : HasDerivAt (fun u => 2 * r u * x u) (2 * r' * x t + 2 * r t * x') t :=
    (dr.const_mul 2).fun_mul dx
  have h0 : HasDerivAt (fun u => virialLog P (r u) ![x u, 1 - x u] 0) (2 * r' * x t + 2 * r t * x' - -(r' / r t)) t := by
    simpa [virialLog] using hm.fun_sub hq
  have h1 : HasDerivAt (fun u => virialLog P (r u) ![x u, 1 - x u] 1) (0 - -(r' / r t)) t := by
    have := (hasDerivAt_const t (0 : ℝ)).fun_sub hq
    simpa [virialLog] using this
  refine ⟨_, _, h0, h1, ?_⟩
  have hpd : HasDerivAt (fun u => r u * (1 + r u * x u ^ 2))
      (r' * (1 + r t * x t ^ 2) + r t * (r' * x t ^ 2 + r t * (2 * x t * x'))) t := by
    have h2 : HasDerivAt (fun u => x u ^ 2) (2 * x t * x') t := by
      simpa using dx.fun_pow 2
    have := dr.fun_mul ((dr.fun_mul h2).const_add 1)
    exact this
  have hc : HasDerivAt (fun u => r u * (1 + r u * x u ^ 2)) 0 t := by
    simp only [hp]
    exact hasDerivAt_const t P
  have e := hpd.unique hc
  have hrt := (hr t).ne'
  field_simp
  nlinarith [e]

/-- The gas as a procedure; compositions of another number of components raise. -/
noncomputable def virialPhi : Phi := fun P r y _ =>
  match y with
  | [a, b] => .ok (List.ofFn fun i => Real.exp (virialLog P r ![a, b] i))
  | _ => .error .valueError

/-- **C111, violated.** For this consistent gas the test, which keeps the density, gives `ρ s / (1 - s²)` and not zero. -/
theorem c111_violated_consistent (P T r s : ℝ) (h0 : 0 < s) (hs : s ≤ 1 / 2) :
    test2 virialPhi P T [1 / 2, 1 / 2] r s 1 = .ok (r * s / (1 - s ^ 2)) := by
  have e := c111_value virialPhi P T r s 1 ![1 / 2, 1 / 2] (fun y => virialLog P r y) h0 (by linarith)
    (by simpa using hs) (by
      intro y
      have : ![y 0, y 1] = y := by
        funext i
        fin_cases i <;> rfl
      have h2 : List.ofFn y = [y 0, y 1] := by simp [List.ofFn_succ]
      rw [h2]
      simp only [virialPhi, this])
  have hl : List.ofFn ![(1 : ℝ) / 2, 1 / 2] = [1 / 2, 1 / 2] := by simp
  rw [hl] at e
  rw [e]
  congr 1
  have h1 : 1 + s ≠ 0 := by linarith
  have h2 : 1 - s ≠ 0 := by linarith
  have h2' : 1 + -s ≠ 0 := by linarith
  have h3 : 1 - s ^ 2 ≠ 0 := by
    have : 1 - s ^ 2 = (1 + s) * (1 - s) := by ring
    rw [this]
    exact mul_ne_zero h1 h2
  have hsum : ∀ f : Fin (1 + 1) → ℝ, ∑ i, f i = f 0 + f 1 := Fin.sum_univ_two
  simp only [hsum, virialLog, changed, Matrix.cons_val_zero, Matrix.cons_val_one, if_true,
    Fin.isValue, one_ne_zero, if_false]
  have h4 : 1 * ((1 : ℝ) / 2 + 1 / 2) + s = 1 + s := by ring
  have h5 : 1 * ((1 : ℝ) / 2 + 1 / 2) + -s = 1 - s := by ring
  rw [h4, h5]
  generalize Real.log (P / r) = L
  have h6 : 1 - s ^ 2 = (1 + s) * (1 - s) := by ring
  rw [h6]
  field_simp
  ring

/-! ## C113: activity coefficients -/

/-- **C113.** The saturation pressures of the pure components and `γᵢ = yᵢ P / (Psatᵢ xᵢ)`. -/
theorem c113_value (psat : ℕ → Except PyErr ℝ) (P : ℝ) (x y ps : Fin n → ℝ) (h : ∀ i : Fin n, psat i = .ok (ps i)) :
    activity psat P (List.ofFn x) (List.ofFn y)
      = .ok (List.ofFn fun i => y i * P / (ps i * x i), List.ofFn ps) := by
  have e : (List.range n).mapM psat = .ok (List.ofFn ps) := by
    rw [mapM_ok psat (fun k => if h : k < n then ps ⟨k, h⟩ else 0)]
    · congr 1
      apply List.ext_getElem
      · simp
      · intro k h1 h2
        have hk : k < n := by simpa using h2
        simp [hk]
    · intro k hk
      have hk' : k < n := by simpa using hk
      simp [hk', ← h ⟨k, hk'⟩]
  simp only [activity, List.length_ofFn, e, bind, Except.bind]
  rw [npZip_same _ _ _ (by simp)]
  simp only
  rw [npZip_same _ _ _ (by simp)]
  simp only
  congr 2
  apply List.ext_getElem <;> simp

/-- **C113.** Modified law of Raoult: the partial pressures `xᵢ γᵢ Psatᵢ` are those of the vapour and add up to the pressure.
-/
theorem c113_raoult (P : ℝ) (x y ps : Fin n → ℝ) (hx : ∀ i, x i ≠ 0) (hp : ∀ i, ps i ≠ 0) :
    (∀ i, x i * (y i * P / (ps i * x i)) * ps i = y i * P) ∧
      (∑ i, y i = 1 → ∑ i, x i * (y i * P / (ps i * x i)) * ps i = P) := by
  have h : ∀ i, x i * (y i * P / (ps i * x i)) * ps i = y i * P := fun i => by
    have := hx i
    have := hp i
    field_simp
  exact ⟨h, fun hy => by rw [Finset.sum_congr rfl fun i _ => h i, ← Finset.sum_mul, hy, one_mul]⟩

/-- **C113.** The coefficient is one exactly when the component follows Raoult's law. -/
theorem c113_ideal (P x y ps : ℝ) (hx : x ≠ 0) (hp : ps ≠ 0) : y * P / (ps * x) = 1 ↔ y * P = x * ps := by
  rw [div_eq_one_iff_eq (mul_ne_zero hp hx), mul_comm x]

/-- **C113.** The pressure enters as a factor. -/
theorem c113_pressure (psat : ℕ → Except PyErr ℝ) (P c : ℝ) (x y ps : Fin n → ℝ) (h : ∀ i : Fin n, psat i = .ok (ps i)) :
    ∃ g : Fin n → ℝ, activity psat P (List.ofFn x) (List.ofFn y) = .ok (List.ofFn g, List.ofFn ps) ∧
      activity psat (c * P) (List.ofFn x) (List.ofFn y) = .ok (List.ofFn fun i => c * g i, List.ofFn ps) := by
  refine ⟨_, c113_value psat P x y ps h, ?_⟩
  rw [c113_value psat (c * P) x y ps h]
  congr 3
  funext i
  ring

/-- **C113.** A failure of a saturation pressure is passed on, that of the first component that fails. -/
theorem c113_error (psat : ℕ → Except PyErr ℝ) (P : ℝ) (xi yi : List ℝ) (k : ℕ) (hk : k < xi.length) (e : PyErr)
    (ok : ∀ j < k, ∃ v, psat j = .ok v) (h : psat k = .error e) : activity psat P xi yi = .error e := by
  have key : (List.range xi.length).mapM psat = .error e := by
    have hs : List.range xi.length = List.range k ++ k :: (List.range' (k + 1) (xi.length - (k + 1))) := by
      rw [List.range_eq_range', List.range_eq_range', show xi.length = k + (1 + (xi.length - (k + 1))) by omega,
        ← List.range'_append_1, ← List.range'_append_1]
      simp
      omega
    have hv : ∃ l, (List.range k).mapM psat = .ok l := by
      classical
      choose! v hv using ok
      exact ⟨_, mapM_ok psat v _ fun a ha => hv a (by simpa using ha)⟩
    obtain ⟨l, hl⟩ := hv
    rw [hs, List.mapM_append, hl, List.mapM_cons, h]
    rfl
  simp [activity, key, bind, Except.bind]

/-! ## The hypotheses can be met -/

/-- C110: an ideal gas of two. -/
example : ∃ res, test1 SaftEnergy.R (fun p r y t => match y with
      | [a, b] => .ok (List.ofFn fun i => Real.exp (lnFug (fun _ => 0) p r t (1 / 100) ![a, b] i))
      | _ => .error .valueError) 100000 300 (List.ofFn ![1 / 4, 3 / 4]) 40 (1 / 100000) = .ok res ∧ res < 0 := by
  obtain ⟨res, h1, -, -, h2⟩ := c110_violated_saft (n := 2) (fun p r y t => match y with
      | [a, b] => .ok (List.ofFn fun i => Real.exp (lnFug (fun _ => 0) p r t (1 / 100) ![a, b] i))
      | _ => .error .valueError) (fun _ => 0) 100000 300 40 (1 / 100000) (1 / 100) ![1 / 4, 3 / 4]
      (by simp [Fin.sum_univ_two]; norm_num) (by norm_num) (by norm_num) (by norm_num) (by norm_num) (by
        intro p _
        simp)
  exact ⟨res, h1, h2⟩

/-- C110: parameters and a state for Peng and Robinson. -/
example : let p : PengRobinson.Par 2 := ⟨fun _ => 1, fun _ => 1 / 1000, fun _ => 1, fun _ _ => 0⟩
    let x : Fin 2 → ℝ := ![1 / 4, 3 / 4]
    ∑ i, x i = 1 ∧ PengRobinson.bmix p x ≠ 0 ∧ PengRobinson.bmix p x * 40 < 1 := by
  simp only [PengRobinson.bmix, Fin.sum_univ_two, Matrix.cons_val_zero, Matrix.cons_val_one]
  norm_num

/-- C111: a path of constant pressure of the gas: constant. -/
example : ∃ x r : ℝ → ℝ, (∀ u, 0 < r u) ∧ (∀ u, r u * (1 + r u * x u ^ 2) = 2) ∧ HasDerivAt x 0 0 ∧ HasDerivAt r 0 0 :=
  ⟨fun _ => 1, fun _ => 1, by simp, by norm_num, hasDerivAt_const _ _, hasDerivAt_const _ _⟩

/-- C113: an azeotrope. -/
example : activity (fun k => .ok ((k : ℝ) + 1)) 2 (List.ofFn ![1 / 2, 1 / 2]) (List.ofFn ![1 / 2, 1 / 2])
    = .ok (List.ofFn ![2, 1], List.ofFn ![1, 2]) := by
  rw [c113_value (n := 2) _ 2 _ _ ![1, 2] (by intro i; fin_cases i <;> norm_num)]
  congr 3
  · funext i; fin_cases i <;> norm_num

end Verif.Props
