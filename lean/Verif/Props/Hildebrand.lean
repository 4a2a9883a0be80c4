import Mathlib.Tactic.FieldSimp
import Mathlib.Tactic.Linarith
import Mathlib.Tactic.Positivity
import Verif.Model.Hildebrand
import Verif.Props.PressureVolume

/-!
# C114: the solubility parameter
-/

namespace Verif.Props
open Verif Verif.PressureVolume Verif.Hildebrand

/-- **C114.** The parameter is the root of `- U ρ` for a residual energy that is not positive, and an exception otherwise. -/
theorem c114_parameter (u r : ℝ) (hr : 0 ≤ r) :
    (0 < u ↔ parameter u r = .error .valueError) ∧
      (u ≤ 0 → ∃ d, parameter u r = .ok d ∧ 0 ≤ d ∧ d ^ 2 = -u * r) := by
  unfold parameter
  constructor
  · constructor
    · intro h; rw [if_pos h]
    · intro h
      by_contra hn
      rw [if_neg hn] at h
      cases h
  · intro h
    rw [if_neg (not_lt.2 h)]
    exact ⟨_, rfl, Real.sqrt_nonneg _, Real.sq_sqrt (mul_nonneg (by linarith) hr)⟩

/-- **C114.** Three curves of the same length give one value of the integrand for every volume. -/
theorem c114_integrand (R T dT : ℝ) (v : List ℝ) (p1 p2 p : ℝ → ℝ) :
    integrand R T dT (v.map p1) (v.map p2) (v.map p)
      = .ok (v.map fun v => (p2 v - p1 v) / (2 * dT) / R - p v / (R * T)) := by
  unfold integrand
  rw [npZip_same _ _ _ (by simp)]
  simp only [bind, Except.bind]
  rw [npZip_same _ _ _ (by simp)]
  congr 1
  apply List.ext_getElem <;> simp

/-- **C114.** For pressures `T f(v) - g(v)`, as those of van der Waals, the integrand is exactly `g(v) / (R T)`, whatever the
step of the temperature. -/
theorem c114_linear (R T dT : ℝ) (hR : R ≠ 0) (hT : T ≠ 0) (hd : dT ≠ 0) (v : List ℝ) (f g : ℝ → ℝ) :
    integrand R T dT (v.map fun v => (T - dT) * f v - g v) (v.map fun v => (T + dT) * f v - g v)
      (v.map fun v => T * f v - g v) = .ok (v.map fun v => g v / (R * T)) := by
  rw [c114_integrand]
  congr 1
  apply List.map_congr_left
  intro w _
  field_simp
  ring

/-- The line of the tail is fitted to the last four points. -/
theorem c114_last_four (l : List ℝ) (a b c d : ℝ) : lastFour (l ++ [a, b, c, d]) = [a, b, c, d] := by
  simp [lastFour]

/-- **C114.** The energy: `-R T` times the integral, and the triangle beyond the last volume only if the integrand has not
decayed. -/
theorem c114_energy (t : Tools) (R T tol rhol vl fl i : ℝ) (v f : List ℝ) (hv : v.getLast? = some vl)
    (hf : f.getLast? = some fl) (hi : t.integral v f (1 / rhol) vl = .ok i) :
    (fl ≤ tol → energy t R T tol rhol v f = .ok (-(R * T) * i)) ∧
      (tol < fl → ∀ a b, t.line (lastFour v) (lastFour f) = (a, b) →
        energy t R T tol rhol v f = .ok (-(R * T) * (i + fl * (-b / a - vl) / 2))) := by
  constructor
  · intro h
    simp only [energy, hv, hf, hi, bind, Except.bind, gt_iff_lt, not_lt.2 h, if_false]
  · intro h a b e
    simp only [energy, hv, hf, hi, bind, Except.bind, gt_iff_lt, h, if_true, e]
    congr 1
    ring

/-- **C114.** The triangle: with a falling line through the last point the correction adds the area under that line beyond
the last volume. -/
theorem c114_triangle (a b vl fl : ℝ) (ha : a < 0) (hl : fl = a * vl + b) (hf : 0 ≤ fl) :
    0 ≤ fl * (-b / a - vl) / 2 ∧ a * (-b / a) + b = 0 ∧ vl ≤ -b / a := by
  have h1 : a * (-b / a) + b = 0 := by
    have := ha.ne
    field_simp
    ring
  have h2 : vl ≤ -b / a := by
    rw [le_div_iff_of_neg ha]
    linarith
  exact ⟨by have : 0 ≤ -b / a - vl := by linarith
            positivity, h1, h2⟩

/-- **C114, violated.** With a rising line the same formula subtracts: the point where the line is zero lies before the last
volume, and the cohesive energy becomes smaller instead of larger. -/
theorem c114_violated_rising (a b vl fl : ℝ) (ha : 0 < a) (hl : fl = a * vl + b) (hf : 0 < fl) :
    fl * (-b / a - vl) / 2 < 0 := by
  have h2 : -b / a < vl := by
    rw [div_lt_iff₀ ha]
    linarith
  have : -b / a - vl < 0 := by linarith
  have := mul_neg_of_pos_of_neg hf this
  linarith

/-- The three curves have the volumes `v`. -/
structure SameGrid (P : ℝ → ℝ → ℝ) (o : Opts ℝ) (eosMax rhol T dT : ℝ) (v : List ℝ) : Prop where
  low : arrays (P (T - dT)) o (some rhol) eosMax = .ok (v, v.map fun v => P (T - dT) (1 / v))
  high : arrays (P (T + dT)) o (some rhol) eosMax = .ok (v, v.map fun v => P (T + dT) (1 / v))
  mid : arrays (P T) o (some rhol) eosMax = .ok (v, v.map fun v => P T (1 / v))

/-- **C114.** The whole calculation when the three curves have the same volumes. -/
theorem c114_value (t : Tools) (P : ℝ → ℝ → ℝ) (o : Opts ℝ) (eosMax R rhol T dT tol : ℝ) (v : List ℝ)
    (h : SameGrid P o eosMax rhol T dT v) :
    hildebrand t P o false eosMax R rhol T dT tol =
      (energy t R T tol rhol v (t.smooth (v.map fun v =>
        (P (T + dT) (1 / v) - P (T - dT) (1 / v)) / (2 * dT) / R - P T (1 / v) / (R * T)))).bind
        fun u => Hildebrand.parameter u rhol := by
  unfold hildebrand
  simp only [Bool.false_eq_true, if_false, h.low, h.high, h.mid, bind, Except.bind, Hildebrand.compare, c114_integrand, if_true]

/-- **C114.** An ideal gas has the parameter zero, if the filter keeps zeros and the integral of zeros is zero. -/
theorem c114_ideal (t : Tools) (o : Opts ℝ) (eosMax R rhol T dT tol : ℝ) (v : List ℝ) (hR : R ≠ 0) (hT : T ≠ 0)
    (hd : dT ≠ 0) (htol : 0 ≤ tol) (hv : v ≠ []) (h : SameGrid (fun T ρ => ρ * R * T) o eosMax rhol T dT v)
    (hs : ∀ l : List ℝ, (∀ x ∈ l, x = 0) → (t.smooth l).length = l.length ∧ ∀ x ∈ t.smooth l, x = 0)
    (hi : ∀ (l : List ℝ) a b, (∀ x ∈ l, x = 0) → t.integral v l a b = .ok 0) :
    hildebrand t (fun T ρ => ρ * R * T) o false eosMax R rhol T dT tol = .ok 0 := by
  rw [c114_value t _ o eosMax R rhol T dT tol v h]
  have e : (v.map fun v => ((1 / v * R * (T + dT)) - (1 / v * R * (T - dT))) / (2 * dT) / R - 1 / v * R * T / (R * T))
      = v.map fun _ => 0 := by
    apply List.map_congr_left
    intro w _
    field_simp
    ring
  rw [e]
  obtain ⟨hl, hz⟩ := hs (v.map fun _ => 0) (by simp)
  set l := t.smooth (v.map fun _ => 0)
  have hne : l ≠ [] := by
    intro h0
    rw [h0] at hl
    exact hv (by simpa using hl.symm)
  have hlast : l.getLast? = some 0 := by
    rw [List.getLast?_eq_some_getLast hne, hz _ (List.getLast_mem hne)]
  have hvl := List.getLast?_eq_some_getLast hv
  rw [(c114_energy t R T tol rhol _ 0 0 v l hvl hlast (hi l _ _ hz)).1 htol]
  simp [Hildebrand.parameter, Except.bind]

/-- **C114.** Grids of different lengths are an exception. -/
theorem c114_lengths (t : Tools) (P : ℝ → ℝ → ℝ) (o : Opts ℝ) (eosMax R rhol T dT tol : ℝ) (c1 c2 c : List ℝ × List ℝ)
    (h1 : arrays (P (T - dT)) o (some rhol) eosMax = .ok c1) (h2 : arrays (P (T + dT)) o (some rhol) eosMax = .ok c2)
    (h : arrays (P T) o (some rhol) eosMax = .ok c) (hl : c.1.length ≠ c2.1.length) :
    hildebrand t P o false eosMax R rhol T dT tol = .error .typeError := by
  simp [hildebrand, h1, h2, h, bind, Except.bind, Hildebrand.compare, hl]

/-- **C114.** A maximum density among the options for the curves is passed twice and raises. -/
theorem c114_max_twice (t : Tools) (P : ℝ → ℝ → ℝ) (o : Opts ℝ) (eosMax R rhol T dT tol : ℝ) :
    hildebrand t P o true eosMax R rhol T dT tol = .error .typeError := rfl

/-- **C114, violated.** The curves never reach the density of the liquid: the smallest volume is larger than `1 / ρ`, so the
integral begins outside of the range of the spline. -/
theorem c114_violated_start (P : ℝ → ℝ → ℝ) (o : Opts ℝ) (eosMax rhol T dT : ℝ) (v : List ℝ) (hr : 0 < rhol)
    (hf : 0 < o.minFrac) (hi : 0 < o.inc) (hdv : 0 < o.dv) (h : SameGrid P o eosMax rhol T dT v) :
    ∀ w ∈ v, 1 / rhol < w := by
  have hc : chosenMax (some rhol) eosMax = rhol := by simp [chosenMax, hr.ne']
  obtain ⟨hs, hp, -, -, w0, hw0, -, hlt⟩ := c89_curve (P T) o (some rhol) eosMax (by rw [hc]; exact hr) hf hi hdv _ _ h.mid
  rw [hc] at hlt
  intro w hw
  have h0 : 0 < w0 := hp w0 (List.mem_of_head? hw0)
  have hle : w0 ≤ w := by
    cases v with
    | nil => simp at hw
    | cons a l =>
      obtain rfl : a = w0 := by simpa using hw0
      rcases List.mem_cons.1 hw with rfl | hw
      · exact le_rfl
      · exact ((List.pairwise_cons.1 hs).1 w hw).le
  refine lt_of_lt_of_le ?_ hle
  rw [div_lt_iff₀ hr]
  rw [div_lt_iff₀ h0] at hlt
  linarith

theorem extend_length (P : ℝ → ℝ) (pmin : ℝ) (npts n : ℕ) (q : ℝ) (r : List ℝ) (h : GoodDensities (q :: r)) (hn : 2 ≤ npts)
    (hq : pmin < P q) : (q :: r).length < (extend P pmin npts (n + 1) (q :: r)).length := by
  have e : extend P pmin npts (n + 1) (q :: r) = extend P pmin npts n (extendOnce npts (q :: r)) := by
    simp [extend, hq]
  obtain ⟨hg, -, -⟩ := extendOnce_spec npts q r h
  obtain ⟨-, ⟨l, hl⟩, -⟩ := extend_spec P pmin npts n _ hg
  rw [e, hl]
  simp [extendOnce]
  omega

/-- **C114, violated.** Even for an ideal gas: if the pressure at the smallest density of the grid lies below the wanted one
at `T` and above it at `T + dT`, the grids are extended differently and the calculation raises. -/
theorem c114_violated_grid (t : Tools) (o : Opts ℝ) (eosMax R rhol T dT tol q : ℝ) (r : List ℝ) (n : ℕ) (hr : 0 < rhol)
    (hf : 0 < o.minFrac) (hi : 0 < o.inc) (hdv : 0 < o.dv) (hb : base o rhol = .ok (q :: r)) (hn : 2 ≤ o.npts)
    (hm : o.maxiter = n + 1) (h1 : q * R * T ≤ o.pmin) (h2 : o.pmin < q * R * (T + dT)) :
    hildebrand t (fun T ρ => ρ * R * T) o false eosMax R rhol T dT tol = .error .typeError := by
  have hc : chosenMax (some rhol) eosMax = rhol := by simp [chosenMax, hr.ne']
  obtain ⟨hg, -, -, -⟩ := base_spec o rhol hr hf hi hdv _ hb
  have ha : ∀ P : ℝ → ℝ, arrays P o (some rhol) eosMax =
      .ok ((extend P o.pmin o.npts o.maxiter (q :: r)).reverse.map (1 / ·),
        (extend P o.pmin o.npts o.maxiter (q :: r)).reverse.map P) := fun P => by
    simp [arrays, hc, hb]
  refine c114_lengths t _ o eosMax R rhol T dT tol _ _ _ (ha _) (ha _) (ha _) ?_
  simp only [List.length_map, List.length_reverse]
  have e1 := (extend_spec (fun ρ => ρ * R * T) o.pmin o.npts o.maxiter (q :: r) hg).2.2 (by simpa using h1)
  have e2 := extend_length (fun ρ => ρ * R * (T + dT)) o.pmin o.npts n q r hg hn h2
  rw [e1, hm]
  exact e2.ne

/-! ## The hypotheses can be met -/

/-- The options of the code. -/
noncomputable def codeOpts (pmin : ℝ) : Opts ℝ := ⟨1 / 500000, 5, 1 / 10000, pmin, 25, 2, 20, 1000000⟩

/-- A grid of densities exists, so that the first value decides about the extension. -/
theorem codeOpts_base (pmin : ℝ) : ∃ q r, base (codeOpts pmin) 20000 = .ok (q :: r) ∧ 0 < q := by
  obtain ⟨vs, ps, h⟩ := c89_defined (fun ρ : ℝ => ρ) (codeOpts pmin) (some 20000) 1
    (by simp [chosenMax]; norm_num) (by simp [chosenMax, codeOpts]; norm_num) (by norm_num [codeOpts])
    (by simp [chosenMax]) (by norm_num [codeOpts]) (by norm_num [codeOpts]) (by
      have h1 : ⌈1 / (chosenMax (some 20000) (1 : ℝ) * (codeOpts pmin).minFrac) / (codeOpts pmin).dv⌉₊ ≤ 250000 := by
        rw [Nat.ceil_le]; simp [chosenMax, codeOpts]; norm_num
      have h2 : ⌈chosenMax (some 20000) (1 : ℝ) / (codeOpts pmin).inc⌉₊ ≤ 4000 := by
        rw [Nat.ceil_le]; simp [chosenMax, codeOpts]; norm_num
      have h3 : (codeOpts pmin).maxLen = 1000000 := rfl
      omega)
  cases hb : base (codeOpts pmin) 20000 with
  | error e => simp [arrays, chosenMax, hb] at h
  | ok r =>
    obtain ⟨hg, -, ⟨q, hq, -, -⟩, -⟩ := base_spec (codeOpts pmin) 20000 (by norm_num) (by norm_num [codeOpts])
      (by norm_num [codeOpts]) (by norm_num [codeOpts]) r hb
    cases r with
    | nil => simp at hq
    | cons a l => exact ⟨a, l, rfl, hg.2.1 a (by simp)⟩

/-- C114: there is a smallest pressure for which the calculation for an ideal gas raises. -/
example (t : Tools) : ∃ pmin, hildebrand t (fun T ρ => ρ * 8 * T) (codeOpts pmin) false 1 8 20000 300 (1 / 10) (1 / 10000)
    = .error .typeError := by
  obtain ⟨q, r, hb, hq⟩ := codeOpts_base 0
  refine ⟨q * 8 * 300, c114_violated_grid t _ 1 8 20000 300 (1 / 10) (1 / 10000) q r 24 (by norm_num) (by norm_num [codeOpts])
    (by norm_num [codeOpts]) (by norm_num [codeOpts]) hb (by norm_num [codeOpts]) rfl le_rfl ?_⟩
  simp only [codeOpts]
  nlinarith

/-- C114: with a large smallest pressure the three curves have the same volumes. -/
example : ∃ pmin v, SameGrid (fun T ρ => ρ * 8 * T) (codeOpts pmin) 1 20000 300 (1 / 10) v := by
  obtain ⟨q, r, hb, hq⟩ := codeOpts_base 0
  have hb' : base (codeOpts (q * 8 * 301)) 20000 = .ok (q :: r) := hb
  obtain ⟨hg, -, -, -⟩ := base_spec (codeOpts 0) 20000 (by norm_num) (by norm_num [codeOpts])
      (by norm_num [codeOpts]) (by norm_num [codeOpts]) _ hb
  have ha : ∀ T : ℝ, T ≤ 301 → arrays (fun ρ => ρ * 8 * T) (codeOpts (q * 8 * 301)) (some 20000) 1 =
      .ok ((q :: r).reverse.map (1 / ·), ((q :: r).reverse.map (1 / ·)).map fun v => 1 / v * 8 * T) := fun T hT => by
    have e := (extend_spec (fun ρ => ρ * 8 * T) (q * 8 * 301) (codeOpts (q * 8 * 301)).npts
      (codeOpts (q * 8 * 301)).maxiter (q :: r) hg).2.2 (by
        intro w hw
        obtain rfl : q = w := by simpa using hw
        have : 0 < q * 8 := by linarith
        exact mul_le_mul_of_nonneg_left hT this.le)
    have hc : chosenMax (some 20000) (1 : ℝ) = 20000 := by simp [chosenMax]
    have e' : extend (fun ρ => ρ * 8 * T) (codeOpts (q * 8 * 301)).pmin (codeOpts (q * 8 * 301)).npts
      (codeOpts (q * 8 * 301)).maxiter (q :: r) = q :: r := e
    simp only [arrays, hc, hb', e', List.map_map]
    congr 2
    apply List.map_congr_left
    intro w _
    simp
  exact ⟨q * 8 * 301, _, ha _ (by norm_num), ha _ (by norm_num), ha _ (by norm_num)⟩

end Verif.Props
