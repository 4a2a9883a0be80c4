import Verif.Model.Bubble64
import Verif.Props.Fugacity64
import Verif.Props.Equilibrium64
import Mathlib.Analysis.Complex.ExponentialBounds

/-!
# The equilibrium objective of the Peng-Robinson equation in double precision (C177)
-/

namespace Verif.Props
open Verif Verif.Binary64 Verif.Mixing64

variable {n : ℕ}

/-- A phase whose fugacity coefficients are of ordinary size; `M` measures the terms of their logarithms. -/
structure SanePhase (R T P ρ : ℚ) (p : Mixing64.Par n) (x : Fin n → ℚ) (M : ℝ) : Prop where
  state : SaneState R T P ρ
  sane : Sane p x
  a : 1 / 10 ^ 19 ≤ PengRobinson.amix (realPar p) (fun i => (x i : ℝ))
  b : 1 / 10 ^ 19 ≤ PengRobinson.bmix (realPar p) (fun i => (x i : ℝ))
  packing : PengRobinson.bmix (realPar p) (fun i => (x i : ℝ)) * ρ ≤ 49 / 50
  size : ∀ i, 1 + phiSize R T (realPar p) (fun i => (x i : ℝ)) P ρ i ≤ M
  low : ∀ i, 1 / 10 ^ 40 ≤ PengRobinson.phi R T (realPar p) (fun i => (x i : ℝ)) P ρ i
  high : ∀ i, PengRobinson.phi R T (realPar p) (fun i => (x i : ℝ)) P ρ i ≤ 10 ^ 40

/-- **C177** The coefficients of such a phase have a small relative error. -/
theorem c177_phi {sq lg ex : ℚ → ℚ} (hsq : GoodSquare sq) (hl : GoodLog lg) (he : GoodExp ex) (hn : n ≤ 20) {R T P ρ : ℚ} {p : Mixing64.Par n}
    {x : Fin n → ℚ} {M : ℝ} (hM : M ≤ 10 ^ 9) (h1 : 1 ≤ M) (h : SanePhase R T P ρ p x M) (i : Fin n) :
    |((Fugacity64.phi sq lg ex R T p x P ρ i : ℚ) : ℝ) - PengRobinson.phi R T (realPar p) (fun i => (x i : ℝ)) P ρ i| ≤
      31 / 10 ^ 13 * M * PengRobinson.phi R T (realPar p) (fun i => (x i : ℝ)) P ρ i ∧
    Coefficient (Fugacity64.phi sq lg ex R T p x P ρ i) := by
  have hs := h.size i
  have hlo := h.low i
  have hhi := h.high i
  have e := c176_phi hsq hl he h.state h.sane hn h.a h.b h.packing i (by linarith)
  generalize PengRobinson.phi R T (realPar p) (fun i => (x i : ℝ)) P ρ i = φ at *
  generalize Fugacity64.phi sq lg ex R T p x P ρ i = q at *
  generalize phiSize R T (realPar p) (fun i => (x i : ℝ)) P ρ i = S at *
  have φ0 : 0 < φ := lt_of_lt_of_le (by norm_num) hlo
  have t1 : (1 : ℝ) / 10 ^ 250 ≤ 1 / 10 ^ 13 * φ := by
    have := mul_le_mul_of_nonneg_left hlo (by norm_num : (0 : ℝ) ≤ 1 / 10 ^ 13)
    exact le_trans (by norm_num) this
  have t2 : 3 / 10 ^ 12 * (1 + S) * φ ≤ 3 / 10 ^ 12 * M * φ :=
    mul_le_mul_of_nonneg_right (mul_le_mul_of_nonneg_left hs (by norm_num)) φ0.le
  have t3 : 1 / 10 ^ 13 * φ ≤ 1 / 10 ^ 13 * M * φ := mul_le_mul_of_nonneg_right (by linarith) φ0.le
  have e' : |((q : ℚ) : ℝ) - φ| ≤ 31 / 10 ^ 13 * M * φ := by linarith only [e, t1, t2, t3]
  refine ⟨e', ?_⟩
  have t4 : 31 / 10 ^ 13 * M * φ ≤ 1 / 100 * φ := mul_le_mul_of_nonneg_right (by linarith) φ0.le
  obtain ⟨u1, u2⟩ := abs_le.1 e'
  have v1 : (1 : ℝ) / 10 ^ 50 ≤ (q : ℝ) := by
    have : (1 : ℝ) / 10 ^ 50 ≤ 99 / 100 * (1 / 10 ^ 40) := by norm_num
    linarith only [u1, t4, hlo, this]
  have v2 : (q : ℝ) ≤ 10 ^ 50 := by
    have : (101 / 100 * 10 ^ 40 : ℝ) ≤ 10 ^ 50 := by norm_num
    linarith only [u2, t4, hhi, this]
  constructor
  · refine (Rat.cast_le (K := ℝ)).1 ?_
    push_cast
    exact v1
  · refine (Rat.cast_le (K := ℝ)).1 ?_
    push_cast
    exact v2

/-- Two small relative errors in a quotient. -/
private theorem quotient_near {e x u u' v v' : ℝ} (hx : 0 ≤ x) (hu : 0 ≤ u) (hv : 0 < v) (he0 : 0 ≤ e) (he : e ≤ 1 / 100) (h : |u' - u| ≤ e * u)
    (g : |v' - v| ≤ e * v) : |x * u' / v' - x * u / v| ≤ 204 / 100 * e * (x * u / v) := by
  obtain ⟨h1, h2⟩ := abs_le.1 h
  obtain ⟨g1, g2⟩ := abs_le.1 g
  have hv' : 0 < v' := by nlinarith
  have lo : 99 / 100 * v ≤ v' := by nlinarith
  have e1 : x * u' / v' - x * u / v = x * (u' * v - u * v') / (v' * v) := by field_simp
  rw [e1, abs_div, abs_of_pos (mul_pos hv' hv), div_le_iff₀ (mul_pos hv' hv), abs_mul, abs_of_nonneg hx]
  have e2 : |u' * v - u * v'| ≤ 2 * e * (u * v) := by
    rw [show u' * v - u * v' = (u' - u) * v - u * (v' - v) by ring]
    refine (abs_sub _ _).trans ?_
    rw [abs_mul, abs_mul, abs_of_pos hv, abs_of_nonneg hu]
    have a := mul_le_mul_of_nonneg_right h hv.le
    have b := mul_le_mul_of_nonneg_left g hu
    linarith
  have e3 : 204 / 100 * e * (x * u / v) * (v' * v) = 204 / 100 * e * (x * u) * v' := by field_simp
  rw [e3]
  have e4 := mul_le_mul_of_nonneg_left e2 hx
  have e5 := mul_le_mul_of_nonneg_left lo (show 0 ≤ 204 / 100 * e * (x * u) by positivity)
  have e6 : 0 ≤ e * (x * u) * v := by positivity
  nlinarith

/-- The share of a component by the formulas. -/
noncomputable def shareOf (R T : ℝ) (p : PengRobinson.Par n) (P : ℝ) (x : Fin n → ℝ) (ρ : ℝ) (y : Fin n → ℝ) (ρ' : ℝ) (i : Fin n) : ℝ :=
  x i * PengRobinson.phi R T p x P ρ i / PengRobinson.phi R T p y P ρ' i

private theorem frac_nonneg {p : Mixing64.Par n} {x : Fin n → ℚ} (h : Sane p x) (i : Fin n) : 0 ≤ x i := by
  rcases h.x i with e | e
  · exact e.ge
  · exact le_trans (by norm_num) e

/-- **C177** The equilibrium objective of two phases, from the parameters and the densities to the last subtraction. -/
theorem c177_objective {sq lg ex : ℚ → ℚ} (hsq : GoodSquare sq) (hl : GoodLog lg) (he : GoodExp ex) (hn : n ≤ 20) {R T P ρ ρ' : ℚ} {p : Mixing64.Par n}
    {x y : Fin n → ℚ} {M : ℝ} (hM : M ≤ 10 ^ 9) (h1 : 1 ≤ M) (h : SanePhase R T P ρ p x M) (h' : SanePhase R T P ρ' p y M)
    (hc : checkFractions (List.ofFn x) = .ok ()) :
    ∃ v, Bubble64.objective sq lg ex R T p P x ρ y ρ' = .ok v ∧
      |(v : ℝ) - ((∑ i, shareOf R T (realPar p) P (fun i => (x i : ℝ)) ρ (fun i => (y i : ℝ)) ρ' i) - 1)| ≤
        7 / 10 ^ 12 * M * ((∑ i, shareOf R T (realPar p) P (fun i => (x i : ℝ)) ρ (fun i => (y i : ℝ)) ρ' i) + 1) := by
  have c1 := c177_phi hsq hl he hn hM h1 h
  have c2 := c177_phi hsq hl he hn hM h1 h'
  obtain ⟨v, hv, hb⟩ := c170_objective (List.ofFn x) (Bubble64.phis sq lg ex R T p x P ρ) (Bubble64.phis sq lg ex R T p y P ρ')
    (by
      intro a ha
      obtain ⟨i, rfl⟩ := List.mem_ofFn.1 ha
      exact frac_nonneg h.sane i)
    (by
      intro a ha
      obtain ⟨i, rfl⟩ := List.mem_ofFn.1 ha
      exact (c1 i).2)
    (by
      intro a ha
      obtain ⟨i, rfl⟩ := List.mem_ofFn.1 ha
      exact (c2 i).2)
    (by rw [List.length_ofFn]; omega) hc
  refine ⟨v, hv, ?_⟩
  rw [List.length_ofFn] at hb
  have tot : totalShare (List.ofFn x) (Bubble64.phis sq lg ex R T p x P ρ) (Bubble64.phis sq lg ex R T p y P ρ') =
      ∑ i, (x i : ℝ) * (Fugacity64.phi sq lg ex R T p x P ρ i : ℚ) / (Fugacity64.phi sq lg ex R T p y P ρ' i : ℚ) := by
    unfold totalShare Bubble64.phis
    rw [← List.sum_ofFn]
    congr 1
    apply List.ext_getElem <;> simp
  rw [tot] at hb
  have near : ∀ i, |(x i : ℝ) * (Fugacity64.phi sq lg ex R T p x P ρ i : ℚ) / (Fugacity64.phi sq lg ex R T p y P ρ' i : ℚ) -
      shareOf R T (realPar p) P (fun i => (x i : ℝ)) ρ (fun i => (y i : ℝ)) ρ' i| ≤
      204 / 100 * (31 / 10 ^ 13 * M) * shareOf R T (realPar p) P (fun i => (x i : ℝ)) ρ (fun i => (y i : ℝ)) ρ' i := by
    intro i
    exact quotient_near (by exact_mod_cast frac_nonneg h.sane i) (le_trans (by norm_num) (h.low i)) (lt_of_lt_of_le (by norm_num) (h'.low i))
      (by linarith) (by linarith) (c1 i).1 (c2 i).1
  have s0 : ∀ i, 0 ≤ shareOf R T (realPar p) P (fun i => (x i : ℝ)) ρ (fun i => (y i : ℝ)) ρ' i := by
    intro i
    have a : (0 : ℝ) ≤ x i := by exact_mod_cast frac_nonneg h.sane i
    exact div_nonneg (mul_nonneg a (le_trans (by norm_num) (h.low i))) (le_trans (by norm_num) (h'.low i))
  have sumnear : |(∑ i, (x i : ℝ) * (Fugacity64.phi sq lg ex R T p x P ρ i : ℚ) / (Fugacity64.phi sq lg ex R T p y P ρ' i : ℚ)) -
      ∑ i, shareOf R T (realPar p) P (fun i => (x i : ℝ)) ρ (fun i => (y i : ℝ)) ρ' i| ≤
      204 / 100 * (31 / 10 ^ 13 * M) * ∑ i, shareOf R T (realPar p) P (fun i => (x i : ℝ)) ρ (fun i => (y i : ℝ)) ρ' i := by
    rw [← Finset.sum_sub_distrib, Finset.mul_sum]
    exact (Finset.abs_sum_le_sum_abs _ _).trans (Finset.sum_le_sum fun i _ => near i)
  have t0 : 0 ≤ ∑ i, shareOf R T (realPar p) P (fun i => (x i : ℝ)) ρ (fun i => (y i : ℝ)) ρ' i := Finset.sum_nonneg fun i _ => s0 i
  generalize (∑ i, shareOf R T (realPar p) P (fun i => (x i : ℝ)) ρ (fun i => (y i : ℝ)) ρ' i) = t at *
  generalize (∑ i, (x i : ℝ) * (Fugacity64.phi sq lg ex R T p x P ρ i : ℚ) / (Fugacity64.phi sq lg ex R T p y P ρ' i : ℚ)) = t' at *
  have nR : (n : ℝ) ≤ 20 := by exact_mod_cast hn
  have b1 : 204 / 100 * (31 / 10 ^ 13 * M) * t ≤ 1 / 100 * t := mul_le_mul_of_nonneg_right (by linarith) t0
  obtain ⟨a1, a2⟩ := abs_le.1 sumnear
  have t0' : 0 ≤ t' := by linarith
  have b2 : ((n : ℝ) + 2) * t' ≤ 22 * t' := mul_le_mul_of_nonneg_right (by linarith) t0'
  have b3 : t ≤ M * t := le_mul_of_one_le_left t0 h1
  have d := abs_add_le ((v : ℝ) - (t' - 1)) (t' - t)
  rw [show (v : ℝ) - (t' - 1) + (t' - t) = v - (t - 1) by ring] at d
  nlinarith only [d, hb, sumnear, b1, b2, b3, a1, a2, t0, h1]

/-- **C177** The computed objective has the right sign unless the phases are near equilibrium. -/
theorem c177_sign {sq lg ex : ℚ → ℚ} (hsq : GoodSquare sq) (hl : GoodLog lg) (he : GoodExp ex) (hn : n ≤ 20) {R T P ρ ρ' : ℚ} {p : Mixing64.Par n}
    {x y : Fin n → ℚ} {M : ℝ} (hM : M ≤ 10 ^ 9) (h1 : 1 ≤ M) (h : SanePhase R T P ρ p x M) (h' : SanePhase R T P ρ' p y M) (v : ℚ)
    (hv : Bubble64.objective sq lg ex R T p P x ρ y ρ' = .ok v) :
    (15 / 10 ^ 12 * M < (∑ i, shareOf R T (realPar p) P (fun i => (x i : ℝ)) ρ (fun i => (y i : ℝ)) ρ' i) - 1 → 0 < v) ∧
    ((∑ i, shareOf R T (realPar p) P (fun i => (x i : ℝ)) ρ (fun i => (y i : ℝ)) ρ' i) - 1 < -(15 / 10 ^ 12 * M) → v < 0) := by
  have hc : checkFractions (List.ofFn x) = .ok () := by
    cases hc : checkFractions (List.ofFn x) with
    | ok u => rfl
    | error e =>
      have := (c170_refused (List.ofFn x) (Bubble64.phis sq lg ex R T p x P ρ) (Bubble64.phis sq lg ex R T p y P ρ') e hc).1
      unfold Bubble64.objective at hv
      rw [this] at hv
      cases hv
  obtain ⟨w, hw, hb⟩ := c177_objective hsq hl he hn hM h1 h h' hc
  rw [hv] at hw
  cases hw
  generalize (∑ i, shareOf R T (realPar p) P (fun i => (x i : ℝ)) ρ (fun i => (y i : ℝ)) ρ' i) = t at *
  obtain ⟨a1, a2⟩ := abs_le.1 hb
  have small : 7 / 10 ^ 12 * M ≤ 7 / 1000 := by linarith
  constructor
  · intro ht
    have : (0 : ℝ) < v := by nlinarith
    exact_mod_cast this
  · intro ht
    have : (v : ℝ) < 0 := by nlinarith
    exact_mod_cast this

/-- **C177** Every new mole fraction of the other phase has a small relative error. -/
theorem c177_new {sq lg ex : ℚ → ℚ} (hsq : GoodSquare sq) (hl : GoodLog lg) (he : GoodExp ex) (hn : n ≤ 20) {R T P ρ ρ' : ℚ} {p : Mixing64.Par n}
    {x y : Fin n → ℚ} {M : ℝ} (hM : M ≤ 10 ^ 9) (h1 : 1 ≤ M) (h : SanePhase R T P ρ p x M) (h' : SanePhase R T P ρ' p y M)
    (hc : checkFractions (List.ofFn x) = .ok ()) :
    ∃ z, Bubble64.newFractions sq lg ex R T p P x ρ y ρ' = .ok z ∧ ∃ hz : z.length = n, ∀ i : Fin n,
      |((z[i] : ℚ) : ℝ) - shareOf R T (realPar p) P (fun i => (x i : ℝ)) ρ (fun i => (y i : ℝ)) ρ' i| ≤
        7 / 10 ^ 12 * M * shareOf R T (realPar p) P (fun i => (x i : ℝ)) ρ (fun i => (y i : ℝ)) ρ' i + 1 / 10 ^ 190 := by
  have c1 := c177_phi hsq hl he hn hM h1 h
  have c2 := c177_phi hsq hl he hn hM h1 h'
  obtain ⟨z, hz, hlen, hb⟩ := c170_new (List.ofFn x) (Bubble64.phis sq lg ex R T p x P ρ) (Bubble64.phis sq lg ex R T p y P ρ')
    (by
      intro a ha
      obtain ⟨i, rfl⟩ := List.mem_ofFn.1 ha
      exact frac_nonneg h.sane i)
    (by
      intro a ha
      obtain ⟨i, rfl⟩ := List.mem_ofFn.1 ha
      exact (c1 i).2)
    (by
      intro a ha
      obtain ⟨i, rfl⟩ := List.mem_ofFn.1 ha
      exact (c2 i).2) hc (by simp [Bubble64.phis]) (by simp [Bubble64.phis])
  have hlen' : z.length = n := by rw [hlen, List.length_ofFn]
  refine ⟨z, hz, hlen', fun i => ?_⟩
  obtain ⟨_, _, hi⟩ := hb i (by rw [List.length_ofFn]; exact i.2) (by rw [hlen']; exact i.2)
  simp only [Bubble64.phis, List.getElem_ofFn, Fin.eta] at hi
  have q := quotient_near (x := (x i : ℝ)) (by exact_mod_cast frac_nonneg h.sane i) (le_trans (by norm_num) (h.low i))
    (lt_of_lt_of_le (by norm_num) (h'.low i)) (show 0 ≤ 31 / 10 ^ 13 * M by linarith) (by linarith) (c1 i).1 (c2 i).1
  have s0 : 0 ≤ (x i : ℝ) * PengRobinson.phi R T (realPar p) (fun i => (x i : ℝ)) P ρ i / PengRobinson.phi R T (realPar p) (fun i => (y i : ℝ)) P ρ' i := by
    have a : (0 : ℝ) ≤ x i := by exact_mod_cast frac_nonneg h.sane i
    exact div_nonneg (mul_nonneg a (le_trans (by norm_num) (h.low i))) (le_trans (by norm_num) (h'.low i))
  unfold shareOf
  change |((z[(i : ℕ)]'_ : ℚ) : ℝ) - _| ≤ _
  generalize (x i : ℝ) * PengRobinson.phi R T (realPar p) (fun i => (x i : ℝ)) P ρ i / PengRobinson.phi R T (realPar p) (fun i => (y i : ℝ)) P ρ' i = s at *
  generalize (x i : ℝ) * (Fugacity64.phi sq lg ex R T p x P ρ i : ℚ) / (Fugacity64.phi sq lg ex R T p y P ρ' i : ℚ) = s' at *
  generalize z[(i : ℕ)]'_ = w at *
  have d := abs_add_le ((w : ℝ) - s') (s' - s)
  rw [sub_add_sub_cancel] at d
  have b1 : 204 / 100 * (31 / 10 ^ 13 * M) * s ≤ 1 / 100 * s := mul_le_mul_of_nonneg_right (by linarith) s0
  have b3 : s ≤ M * s := le_mul_of_one_le_left s0 h1
  obtain ⟨a1, a2⟩ := abs_le.1 q
  nlinarith only [d, hi, q, b1, b3, a1, a2, s0, h1]

/-! ## The hypotheses can be met -/

/-- Two phases of different density. -/
theorem third_phase {ρ : ℚ} (hρ : ρ = 1 ∨ ρ = 1 / 2) : SanePhase 1 1 1 ρ third (fun _ => 1) 100 := by
  obtain ⟨h1, h2, h3, h4, h5⟩ := third_size hρ
  obtain ⟨lg, hl⟩ := good_library.1
  have e := (lnPhi_err goodSquare_mul hl h1 c176_violated_packing.1 (by norm_num) h2 h3 h4 0).2.trans h5
  have e40 : Real.exp 50 ≤ 10 ^ 40 := by
    have : Real.exp 50 = Real.exp 1 ^ 50 := by rw [← Real.exp_nat_mul]; norm_num
    rw [this]
    have h := Real.exp_one_lt_d9
    refine (pow_le_pow_left₀ (Real.exp_pos _).le (show Real.exp 1 ≤ 3 by linarith) 50).trans (by norm_num)
  obtain ⟨u1, u2⟩ := abs_le.1 e
  refine ⟨h1, c176_violated_packing.1, h2, h3, h4, ?_, ?_, ?_⟩
  · intro i
    rw [Subsingleton.elim i 0]
    linarith
  · intro i
    rw [Subsingleton.elim i 0]
    refine le_trans ?_ (Real.exp_le_exp.2 u1)
    rw [Real.exp_neg, one_div]
    exact inv_anti₀ (Real.exp_pos _) e40
  · intro i
    rw [Subsingleton.elim i 0]
    exact (Real.exp_le_exp.2 u2).trans e40

example : SanePhase 1 1 1 1 third (fun _ => 1) 100 ∧ SanePhase 1 1 1 (1 / 2) third (fun _ => 1) 100 ∧
    checkFractions (List.ofFn fun _ : Fin 1 => (1 : ℚ)) = .ok () :=
  ⟨third_phase (Or.inl rfl), third_phase (Or.inr rfl), by decide +kernel⟩

end Verif.Props
