import Verif.Model.Flash64
import Verif.Props.Rounding
import Verif.Props.Pressure64

/-!
# The compositions of the flash in double precision (C169)
-/

namespace Verif.Props
open Verif Verif.Binary64 Verif.Flash64

/-- A double below one is below it by half of the spacing at one. -/
theorem below_one {k : ℚ} (hk : fl k = k) (h : k < 1) : k ≤ 1 - 1 / 2 ^ 54 := by
  by_contra hn
  push Not at hn
  have := fl_near_one (δ := k - 1) (abs_le.2 ⟨by linarith, by linarith [show (0 : ℚ) ≤ 1 / 2 ^ 54 by norm_num]⟩)
  rw [add_sub_cancel, hk] at this
  linarith

/-- A double above one is above it by half of the spacing at one. -/
theorem above_one {k : ℚ} (hk : fl k = k) (h : 1 < k) : 1 + 1 / 2 ^ 54 ≤ k := by
  by_contra hn
  push Not at hn
  have := fl_near_one (δ := k - 1) (abs_le.2 ⟨by linarith [show (0 : ℚ) ≤ 1 / 2 ^ 54 by norm_num], by linarith⟩)
  rw [add_sub_cancel, hk] at this
  linarith

/-- The first mole fraction, from a numerator and a denominator. -/
private theorem first_fraction {n d : ℚ} (hn : 1 / 2 ^ 54 ≤ n) (hnd : n ≤ d) (hd : d ≤ 10 ^ 41) :
    0 ≤ fl (fl n / fl d) ∧ fl (fl n / fl d) ≤ 1 ∧
      |((fl (fl n / fl d) : ℚ) : ℝ) - n / d| ≤ 34 / 10 ^ 17 * ((n : ℝ) / d) := by
  have n0 : 0 < n := lt_of_lt_of_le (by norm_num) hn
  have d0 : 0 < d := n0.trans_le hnd
  have hnR : (1 : ℝ) / 2 ^ 54 ≤ n := by have := (Rat.cast_le (K := ℝ)).2 hn; push_cast at this; exact this
  have hndR : (n : ℝ) ≤ d := (Rat.cast_le (K := ℝ)).2 hnd
  have hdR : (d : ℝ) ≤ 10 ^ 41 := by have := (Rat.cast_le (K := ℝ)).2 hd; push_cast at this; exact this
  have nR : (0 : ℝ) < n := lt_of_lt_of_le (by norm_num) hnR
  have dR : (0 : ℝ) < d := nR.trans_le hndR
  have e1 := fl_rel (q := n) (le_trans (by norm_num) hnR)
  have e2 := fl_rel (q := d) (le_trans (by norm_num) (hnR.trans hndR))
  have k1 := abs_le.1 e1
  have k2 := abs_le.1 e2
  have hN : 0 ≤ fl n := fl_nonneg n0.le
  have hD : (0 : ℝ) < (fl d : ℚ) := by linarith
  have hD' : 0 < fl d := by exact_mod_cast hD
  refine ⟨fl_nonneg (div_nonneg hN hD'.le), fl_le_double fl_one ((div_le_one hD').2 (fl_mono hnd)), ?_⟩
  have e3 := quot_rel nR dR (by norm_num) e1 e2
  have hX : (1 : ℝ) / 10 ^ 60 ≤ n / d := by
    rw [le_div_iff₀ dR]
    refine le_trans ?_ hnR
    have := mul_le_mul_of_nonneg_left hdR (show (0 : ℝ) ≤ 1 / 10 ^ 60 by norm_num)
    exact this.trans (by norm_num)
  have X0 : (0 : ℝ) < n / d := div_pos nR dR
  have k3 := abs_le.1 e3
  have e4 := round_rel (p := fl n / fl d) (by push_cast; rfl) e3 (by
    have : ((112 / 10 ^ 18 + 112 / 10 ^ 18) / (1 - 112 / 10 ^ 18) : ℝ) * (n / d) ≤ 1 / 2 * (n / d) :=
      mul_le_mul_of_nonneg_right (by norm_num) X0.le
    linarith [k3.1])
  refine e4.trans (mul_le_mul_of_nonneg_right (by norm_num) X0.le)

/-- The second one is the complement of the first. -/
private theorem second_fraction {x0 : ℚ} {X : ℝ} (h0 : 0 ≤ x0) (h1 : x0 ≤ 1) (hX1 : X ≤ 1)
    (h : |(x0 : ℝ) - X| ≤ 34 / 10 ^ 17 * X) :
    0 ≤ fl (1 - x0) ∧ fl (1 - x0) ≤ 1 ∧ |((fl (1 - x0) : ℚ) : ℝ) - (1 - X)| ≤ 46 / 10 ^ 17 := by
  refine ⟨fl_nonneg (by linarith), fl_le_double fl_one (by linarith), ?_⟩
  have e := fl_any (1 - x0)
  have h0R : (0 : ℝ) ≤ x0 := by exact_mod_cast h0
  have h1R : (x0 : ℝ) ≤ 1 := by exact_mod_cast h1
  push_cast at e
  rw [abs_of_nonneg (show (0 : ℝ) ≤ 1 - x0 by linarith)] at e
  have k := abs_le.1 e
  have k' := abs_le.1 h
  have t : (1 : ℝ) / 10 ^ 250 ≤ 1 / 10 ^ 20 := by norm_num
  rw [abs_le]
  constructor <;> linarith

/-- Dividing two fractions by their sum. -/
private theorem normalised_round {a b : ℚ} {A B t e : ℝ} (ha : fl a = a) (a0 : 0 ≤ a) (b0 : 0 ≤ b) (hA : 0 ≤ A) (hB : 0 ≤ B)
    (hAB : A + B = 1) (ht : |(a : ℝ) - A| + |(b : ℝ) - B| ≤ t) (ht' : t ≤ 1 / 100) (he : 22 / 10 * t + 3 / 10 ^ 16 ≤ e) :
    let s := npSum [a, b]
    let y := if s ≠ 1 then (fl (a / s), fl (b / s)) else (a, b)
    |((y.1 : ℚ) : ℝ) - A| ≤ e ∧ |((y.2 : ℚ) : ℝ) - B| ≤ e := by
  intro s y
  have hs : s = fl (a + b) := npSum_pair a b ha
  have aR : (0 : ℝ) ≤ a := by exact_mod_cast a0
  have bR : (0 : ℝ) ≤ b := by exact_mod_cast b0
  have t0 : 0 ≤ t := le_trans (by positivity) ht
  have hea : |(a : ℝ) - A| ≤ t := by linarith [abs_nonneg ((b : ℝ) - B)]
  have heb : |(b : ℝ) - B| ≤ t := by linarith [abs_nonneg ((a : ℝ) - A)]
  have tz : (1 : ℝ) / 10 ^ 250 ≤ 1 / 10 ^ 30 := by norm_num
  by_cases h1 : s = 1
  · have hy : y = (a, b) := by simp only [y, h1]; simp
    rw [hy]
    exact ⟨by linarith, by linarith⟩
  · have hy : y = (fl (a / s), fl (b / s)) := by simp only [y]; rw [if_pos h1]
    have es := fl_any (a + b)
    rw [← hs] at es
    push_cast at es
    rw [abs_of_nonneg (show (0 : ℝ) ≤ a + b by linarith)] at es
    have hsum : |(a : ℝ) + b - 1| ≤ t := by
      have : (a : ℝ) + b - 1 = (a - A) + (b - B) := by rw [← hAB]; ring
      rw [this]
      exact (abs_add_le _ _).trans ht
    have ks := abs_le.1 es
    have kq := abs_le.1 hsum
    have s1 : |(s : ℝ) - 1| ≤ t + 115 / 10 ^ 18 := by rw [abs_le]; constructor <;> linarith
    have k1 := abs_le.1 s1
    have sp : (98 / 100 : ℝ) ≤ s := by linarith
    have s0 : (0 : ℝ) < s := by linarith
    have part : ∀ (c : ℚ) (C : ℝ), 0 ≤ (c : ℝ) → 0 ≤ C → C ≤ 1 → |(c : ℝ) - C| ≤ t →
        |((fl (c / s) : ℚ) : ℝ) - C| ≤ e := by
      intro c C c0 C0 C1 hc
      have q1 : |(c : ℝ) / s - C| ≤ (2 * t + 115 / 10 ^ 18) / (98 / 100) := by
        have e1 : (c : ℝ) / s - C = ((c - C) - C * (s - 1)) / s := by field_simp; ring
        rw [e1, abs_div, abs_of_pos s0, div_le_div_iff₀ s0 (by norm_num)]
        have u1 : |((c : ℝ) - C) - C * (s - 1)| ≤ 2 * t + 115 / 10 ^ 18 := by
          refine (abs_sub _ _).trans ?_
          rw [abs_mul, abs_of_nonneg C0]
          have := mul_le_mul C1 s1 (abs_nonneg _) (by norm_num)
          linarith
        have := mul_le_mul u1 (show (98 / 100 : ℝ) ≤ s from sp) (by norm_num) (by positivity)
        linarith
      have e2 := fl_any (c / s)
      push_cast at e2
      have kk := abs_le.1 q1
      have : |(c : ℝ) / s| ≤ 11 / 10 := by
        rw [abs_of_nonneg (div_nonneg c0 s0.le)]
        linarith [kk.2]
      have k2 := abs_le.1 e2
      rw [abs_le]
      constructor <;> linarith [kk.1, kk.2]
    rw [hy]
    exact ⟨part a A aR hA (by linarith) hea, part b B bR hB (by linarith) heb⟩

/-- **C169** (the light component is listed first).  The liquid fractions are accepted as fractions, the first is right to within
3.4e-16 of itself, and all four fractions are right to within 3e-15. -/
theorem c169_light_first (k0 k1 : ℚ) (hk1 : fl k1 = k1) (h0 : 1 < k0) (h0' : k0 ≤ 10 ^ 40) (h1 : 0 ≤ k1) (h1' : k1 < 1) :
    let x := liquidX (k0, k1)
    let y := vaporY (k0, k1) x
    checkFractions [x.1, x.2] = .ok () ∧ 0 ≤ x.1 ∧ 0 ≤ x.2 ∧
    |((x.1 : ℚ) : ℝ) - (1 - k1) / (k0 - k1)| ≤ 34 / 10 ^ 17 * ((1 - k1) / (k0 - k1)) ∧
    |((x.2 : ℚ) : ℝ) - (k0 - 1) / (k0 - k1)| ≤ 46 / 10 ^ 17 ∧
    |((y.1 : ℚ) : ℝ) - k0 * ((1 - k1) / (k0 - k1))| ≤ 3 / 10 ^ 15 ∧
    |((y.2 : ℚ) : ℝ) - k1 * ((k0 - 1) / (k0 - k1))| ≤ 3 / 10 ^ 15 := by
  have hb := below_one hk1 h1'
  obtain ⟨p0, p1, pe⟩ := first_fraction (n := 1 - k1) (d := k0 - k1) (by linarith) (by linarith)
    (by linarith [show (10 : ℚ) ^ 40 ≤ 10 ^ 41 by norm_num])
  have r0 : (1 : ℝ) < k0 := by exact_mod_cast h0
  have r0' : (k0 : ℝ) ≤ 10 ^ 40 := by exact_mod_cast h0'
  have r1 : (0 : ℝ) ≤ k1 := by exact_mod_cast h1
  have r1' : (k1 : ℝ) < 1 := by exact_mod_cast h1'
  have rb : (k1 : ℝ) ≤ 1 - 1 / 2 ^ 54 := by
    have := (Rat.cast_le (K := ℝ)).2 hb
    push_cast at this
    exact this
  push_cast at pe
  have dp : (0 : ℝ) < k0 - k1 := by linarith
  set x0 : ℚ := fl (fl (1 - k1) / fl (k0 - k1)) with hx0
  set X : ℝ := (1 - k1) / (k0 - k1) with hX
  have X0 : 0 < X := div_pos (by linarith) dp
  have X1 : X ≤ 1 := (div_le_one dp).2 (by linarith)
  have hXc : (k0 - 1) / (k0 - k1) = 1 - X := by rw [hX]; field_simp; ring
  have hYs : k0 * X + k1 * (1 - X) = 1 := by
    have : X * (k0 - k1) = 1 - k1 := div_mul_cancel₀ _ dp.ne'
    linarith
  obtain ⟨q0, q1, qe⟩ := second_fraction p0 p1 X1 pe
  intro x y
  have hx : x = (x0, fl (1 - x0)) := by
    simp only [x, liquidX]
    rw [← hx0, if_neg (not_lt.2 p0), if_neg (not_lt.2 q0)]
  have hy : y = vaporY (k0, k1) (x0, fl (1 - x0)) := by simp only [y, hx]
  rw [hx]
  refine ⟨c69_complement (fl_idem _) p0 p1, p0, q0, pe, by rw [hXc]; exact qe, ?_⟩
  have kX : (1 : ℝ) / 10 ^ 60 ≤ k0 * X := by
    have h2 : (1 : ℝ) / 10 ^ 59 ≤ X := by
      rw [hX, le_div_iff₀ dp]
      have : (k0 : ℝ) - k1 ≤ 10 ^ 40 := by linarith
      have := mul_le_mul_of_nonneg_left this (show (0 : ℝ) ≤ 1 / 10 ^ 59 by norm_num)
      refine this.trans (le_trans (by norm_num) (show (1 : ℝ) / 2 ^ 54 ≤ 1 - k1 by linarith))
    have := mul_le_mul r0.le h2 (by norm_num) (by linarith)
    exact le_trans (by norm_num) this
  have pr := prod_rel (e := 0) (show (0 : ℝ) < k0 by linarith) X0 (show |(k0 : ℝ) - k0| ≤ 0 * k0 by simp) pe
  have e0 := round_rel (p := k0 * x0) (by push_cast; rfl) pr (by
    have := (abs_le.1 pr).1
    linarith)
  have Y0 : 0 ≤ k0 * X := le_trans (by norm_num) kX
  have Y1 : 0 ≤ k1 * (1 - X) := mul_nonneg r1 (by linarith)
  have f1 := fl_any (k1 * fl (1 - x0))
  push_cast at f1
  have q0R : (0 : ℝ) ≤ (fl (1 - x0) : ℚ) := by exact_mod_cast q0
  have q1R : ((fl (1 - x0) : ℚ) : ℝ) ≤ 1 := by exact_mod_cast q1
  have tz : (1 : ℝ) / 10 ^ 250 ≤ 1 / 10 ^ 30 := by norm_num
  have pos1 : 0 ≤ (k1 : ℝ) * (fl (1 - x0) : ℚ) := mul_nonneg r1 q0R
  have le1 : (k1 : ℝ) * (fl (1 - x0) : ℚ) ≤ 1 := by
    have := mul_le_mul r1'.le q1R q0R (by norm_num)
    linarith
  rw [abs_of_nonneg pos1] at f1
  have g1 : |(k1 : ℝ) * (fl (1 - x0) : ℚ) - k1 * (1 - X)| ≤ 46 / 10 ^ 17 := by
    rw [← mul_sub, abs_mul, abs_of_nonneg r1]
    have := mul_le_mul r1'.le qe (abs_nonneg _) (by norm_num)
    linarith
  have e1 : |((fl (k1 * fl (1 - x0)) : ℚ) : ℝ) - k1 * (1 - X)| ≤ 58 / 10 ^ 17 := by
    refine (abs_sub_le _ ((k1 : ℝ) * (fl (1 - x0) : ℚ)) _).trans ?_
    linarith
  have e0' : |((fl (k0 * x0) : ℚ) : ℝ) - k0 * X| ≤ 46 / 10 ^ 17 := by
    refine e0.trans ?_
    have : k0 * X ≤ 1 := by linarith
    have := mul_le_mul_of_nonneg_left this (show (0 : ℝ) ≤ 46 / 10 ^ 17 by norm_num)
    refine le_trans (mul_le_mul_of_nonneg_right ?_ Y0) (this.trans (by norm_num))
    norm_num
  have fin := normalised_round (a := fl (k0 * x0)) (b := fl (k1 * fl (1 - x0))) (A := k0 * X) (B := k1 * (1 - X))
    (t := 104 / 10 ^ 17) (e := 3 / 10 ^ 15) (fl_idem _) (fl_nonneg (mul_nonneg (by linarith) p0)) (fl_nonneg (mul_nonneg h1 q0))
    Y0 Y1 hYs (by linarith) (by norm_num) (by norm_num)
  rw [hy, hXc]
  exact fin

/-- **C169** (the light component is listed second), which holds in part only.  The liquid fractions are right as before, but the
error of the vapour fractions grows with the ratio of the light component. -/
theorem c169_heavy_first_partial (k0 k1 : ℚ) (hk1 : fl k1 = k1) (h0 : 0 ≤ k0) (h0' : k0 < 1) (h1 : 1 < k1) (h1' : k1 ≤ 10 ^ 12) :
    let x := liquidX (k0, k1)
    let y := vaporY (k0, k1) x
    checkFractions [x.1, x.2] = .ok () ∧ 0 ≤ x.1 ∧ 0 ≤ x.2 ∧
    |((x.1 : ℚ) : ℝ) - (1 - k1) / (k0 - k1)| ≤ 34 / 10 ^ 17 * ((1 - k1) / (k0 - k1)) ∧
    |((x.2 : ℚ) : ℝ) - (k0 - 1) / (k0 - k1)| ≤ 46 / 10 ^ 17 ∧
    |((y.1 : ℚ) : ℝ) - k0 * ((1 - k1) / (k0 - k1))| ≤ 2 / 10 ^ 15 * (1 + k1) ∧
    |((y.2 : ℚ) : ℝ) - k1 * ((k0 - 1) / (k0 - k1))| ≤ 2 / 10 ^ 15 * (1 + k1) := by
  have ha := above_one hk1 h1
  obtain ⟨p0, p1, pe⟩ := first_fraction (n := k1 - 1) (d := k1 - k0) (by linarith) (by linarith)
    (by linarith [show (10 : ℚ) ^ 12 ≤ 10 ^ 41 by norm_num])
  have r0 : (0 : ℝ) ≤ k0 := by exact_mod_cast h0
  have r0' : (k0 : ℝ) < 1 := by exact_mod_cast h0'
  have r1 : (1 : ℝ) < k1 := by exact_mod_cast h1
  have r1' : (k1 : ℝ) ≤ 10 ^ 12 := by exact_mod_cast h1'
  push_cast at pe
  have dp : (0 : ℝ) < k1 - k0 := by linarith
  have hflip : fl (fl (1 - k1) / fl (k0 - k1)) = fl (fl (k1 - 1) / fl (k1 - k0)) := by
    rw [← neg_sub k1 1, ← neg_sub k1 k0, fl_neg, fl_neg, neg_div_neg_eq]
  have hXf : ((1 : ℝ) - k1) / (k0 - k1) = (k1 - 1) / (k1 - k0) := by
    rw [← neg_sub (k1 : ℝ) 1, ← neg_sub (k1 : ℝ) k0, neg_div_neg_eq]
  set x0 : ℚ := fl (fl (k1 - 1) / fl (k1 - k0)) with hx0
  set X : ℝ := (k1 - 1) / (k1 - k0) with hX
  have X0 : 0 < X := div_pos (by linarith) dp
  have X1 : X ≤ 1 := (div_le_one dp).2 (by linarith)
  have hXc : ((k0 : ℝ) - 1) / (k0 - k1) = 1 - X := by
    rw [← neg_sub (1 : ℝ) k0, ← neg_sub (k1 : ℝ) k0, neg_div_neg_eq, hX]
    field_simp
    ring
  have hYs : k0 * X + k1 * (1 - X) = 1 := by
    have : X * (k1 - k0) = k1 - 1 := div_mul_cancel₀ _ dp.ne'
    linarith
  obtain ⟨q0, q1, qe⟩ := second_fraction p0 p1 X1 pe
  intro x y
  have hx : x = (x0, fl (1 - x0)) := by
    simp only [x, liquidX]
    rw [hflip, if_neg (not_lt.2 p0), if_neg (not_lt.2 q0)]
  have hy : y = vaporY (k0, k1) (x0, fl (1 - x0)) := by simp only [y, hx]
  rw [hx, hXf, hXc]
  refine ⟨c69_complement (fl_idem _) p0 p1, p0, q0, pe, qe, ?_⟩
  have p0R : (0 : ℝ) ≤ x0 := by exact_mod_cast p0
  have p1R : (x0 : ℝ) ≤ 1 := by exact_mod_cast p1
  have q0R : (0 : ℝ) ≤ (fl (1 - x0) : ℚ) := by exact_mod_cast q0
  have q1R : ((fl (1 - x0) : ℚ) : ℝ) ≤ 1 := by exact_mod_cast q1
  have tz : (1 : ℝ) / 10 ^ 250 ≤ 1 / 10 ^ 30 := by norm_num
  have Y0 : 0 ≤ k0 * X := mul_nonneg r0 X0.le
  have Y1 : 0 ≤ k1 * (1 - X) := mul_nonneg (by linarith) (by linarith)
  have f0 := fl_any (k0 * x0)
  have f1 := fl_any (k1 * fl (1 - x0))
  push_cast at f0 f1
  rw [abs_of_nonneg (mul_nonneg r0 p0R)] at f0
  rw [abs_of_nonneg (mul_nonneg (by linarith) q0R)] at f1
  have l0 : (k0 : ℝ) * x0 ≤ 1 := by
    have := mul_le_mul r0'.le p1R p0R (by norm_num)
    linarith
  have l1 : (k1 : ℝ) * (fl (1 - x0) : ℚ) ≤ k1 := by
    have := mul_le_mul_of_nonneg_left q1R (show (0 : ℝ) ≤ k1 by linarith)
    linarith
  have g0 : |(k0 : ℝ) * x0 - k0 * X| ≤ 34 / 10 ^ 17 := by
    rw [← mul_sub, abs_mul, abs_of_nonneg r0]
    have h2 : |(x0 : ℝ) - X| ≤ 34 / 10 ^ 17 := pe.trans (by linarith)
    have := mul_le_mul r0'.le h2 (abs_nonneg _) (by norm_num)
    linarith
  have g1 : |(k1 : ℝ) * (fl (1 - x0) : ℚ) - k1 * (1 - X)| ≤ 46 / 10 ^ 17 * k1 := by
    rw [← mul_sub, abs_mul, abs_of_nonneg (by linarith : (0 : ℝ) ≤ k1)]
    have := mul_le_mul_of_nonneg_left qe (show (0 : ℝ) ≤ k1 by linarith)
    linarith
  have e0 : |((fl (k0 * x0) : ℚ) : ℝ) - k0 * X| ≤ 46 / 10 ^ 17 := by
    refine (abs_sub_le _ ((k0 : ℝ) * x0) _).trans ?_
    linarith
  have e1 : |((fl (k1 * fl (1 - x0)) : ℚ) : ℝ) - k1 * (1 - X)| ≤ 58 / 10 ^ 17 * k1 := by
    refine (abs_sub_le _ ((k1 : ℝ) * (fl (1 - x0) : ℚ)) _).trans ?_
    linarith
  have fin := normalised_round (a := fl (k0 * x0)) (b := fl (k1 * fl (1 - x0))) (A := k0 * X) (B := k1 * (1 - X))
    (t := 58 / 10 ^ 17 * (1 + k1)) (e := 2 / 10 ^ 15 * (1 + k1)) (fl_idem _) (fl_nonneg (mul_nonneg h0 p0))
    (fl_nonneg (mul_nonneg (by linarith) q0)) Y0 Y1 hYs (by linarith) (by linarith) (by linarith)
  rw [hy]
  exact fin

/-- **C169 is violated** when the heavy component is listed first.  The fraction of a light component that hardly dissolves is
the small difference `1 - x`, and multiplying it with its ratio makes the rounding of `x` large: with the ratios 1/2 and 1e12 the
vapour is off by more than 2e-5, and with 2 ^ 60 there is no light component in either phase, while both phases are right in the
other order. -/
theorem c169_violated_order :
    (let y := vaporY (1 / 2, 10 ^ 12) (liquidX (1 / 2, 10 ^ 12))
     2 / 10 ^ 5 < 1 / 2 * ((1 - 10 ^ 12) / (1 / 2 - 10 ^ 12)) - y.1) ∧
    liquidX (1 / 2, 2 ^ 60) = (1, 0) ∧ vaporY (1 / 2, 2 ^ 60) (1, 0) = (1, 0) ∧
    liquidX (2 ^ 60, 1 / 2) = (1 / 2 ^ 61, 1) ∧ vaporY (2 ^ 60, 1 / 2) (1 / 2 ^ 61, 1) = (1 / 2, 1 / 2) := by
  decide +kernel

/-- **C169 is violated**: a vapour of the flash is refused as a composition by the calculations that test whether its fractions
add up to one (with the ratios 0.3 and 2.5; a dew point at the composition just found raises). -/
theorem c169_violated_sum :
    let k := (fl (3 / 10), fl (5 / 2))
    let y := vaporY k (liquidX k)
    checkFractions [y.1, y.2] = .error .valueError := by
  decide +kernel

/-- A difference of two doubles keeps its sign. -/
theorem fl_sub_pos {a b : ℚ} (ha : fl a = a) (hb : fl b = b) (h : b < a) : 0 < fl (a - b) := by
  obtain ⟨m, hm⟩ := double_multiple ha
  obtain ⟨n, hn⟩ := double_multiple hb
  have hp : (0 : ℚ) < 2 ^ (-1074 : ℤ) := by positivity
  have hlt : n < m := by
    rw [hm, hn] at h
    exact_mod_cast lt_of_mul_lt_mul_right h hp.le
  have hd : fl (((1 : ℤ) : ℚ) * 2 ^ (-1074 : ℤ)) = ((1 : ℤ) : ℚ) * 2 ^ (-1074 : ℤ) := fl_exact (by norm_num) (by norm_num)
  have hle : ((1 : ℤ) : ℚ) * 2 ^ (-1074 : ℤ) ≤ a - b := by
    rw [hm, hn, ← sub_mul, ← Int.cast_sub]
    exact mul_le_mul_of_nonneg_right (by exact_mod_cast (by omega : (1 : ℤ) ≤ m - n)) hp.le
  have := double_le_fl hd hle
  refine lt_of_lt_of_le ?_ this
  simp

/-- **C169** (no two phases).  When both components prefer the vapour, or both the liquid, the fraction that comes out negative
is replaced: the liquid is then the second component with 1.5e-8 of the first. -/
theorem c169_one_sided (k0 k1 : ℚ) (hk0 : fl k0 = k0) (hk1 : fl k1 = k1) (h0 : 0 ≤ k0) (hb : k0 ≤ 10 ^ 40)
    (h : 1 < k1 ∧ k1 < k0 ∨ k0 < k1 ∧ k1 < 1) : liquidX (k0, k1) = (1 / 2 ^ 26, 1 - 1 / 2 ^ 26) := by
  have small : ∀ n d : ℚ, 1 / 2 ^ 54 ≤ n → 0 < fl d → d ≤ 10 ^ 40 → 0 < fl (fl n / fl d) := by
    intro n d hn hd0 hd
    have hdd : fl (1 / 2 ^ 54) = 1 / 2 ^ 54 := by decide +kernel
    have hN : 1 / 2 ^ 54 ≤ fl n := double_le_fl hdd hn
    have h40 : fl (2 ^ 140) = 2 ^ 140 := by decide +kernel
    have hD : fl d ≤ 2 ^ 140 := fl_le_double h40 (hd.trans (by norm_num))
    have h200 : fl (1 / 2 ^ 200) = 1 / 2 ^ 200 := by decide +kernel
    refine lt_of_lt_of_le (by norm_num) (double_le_fl h200 ?_)
    rw [le_div_iff₀ hd0]
    have := mul_le_mul_of_nonneg_left hD (show (0 : ℚ) ≤ 1 / 2 ^ 200 by norm_num)
    exact this.trans (le_trans (by norm_num) hN)
  have hx : fl (fl (1 - k1) / fl (k0 - k1)) < 0 := by
    rcases h with ⟨h1, h2⟩ | ⟨h1, h2⟩
    · have := small (k1 - 1) (k0 - k1) (by linarith [above_one hk1 h1]) (fl_sub_pos hk0 hk1 h2) (by linarith)
      rw [← neg_sub k1 1, fl_neg, neg_div, fl_neg]
      linarith
    · have := small (1 - k1) (k1 - k0) (by linarith [below_one hk1 h2]) (fl_sub_pos hk1 hk0 h1) (by linarith)
      rw [← neg_sub k1 k0, fl_neg, div_neg, fl_neg]
      linarith
  have he : fl (1 - Flash64.eps) = 1 - 1 / 2 ^ 26 := by decide +kernel
  unfold liquidX
  dsimp only
  rw [if_pos hx, he]
  rfl

/-- **C169 (both ratios on one side of one, the second further away).**  The liquid is the first component with a trace of the second
one, or without it when the quotient rounds to one. -/
theorem c169_one_sided_second (k0 k1 : ℚ) (hk0 : fl k0 = k0) (hk1 : fl k1 = k1) (h : 1 < k0 ∧ k0 < k1 ∨ k1 < k0 ∧ k0 < 1) :
    liquidX (k0, k1) = (1 - 1 / 2 ^ 26, 1 / 2 ^ 26) ∨ liquidX (k0, k1) = (1, 0) := by
  have hx : 1 ≤ fl (fl (1 - k1) / fl (k0 - k1)) := by
    refine double_le_fl fl_one ?_
    rcases h with ⟨h1, h2⟩ | ⟨h1, h2⟩
    · rw [← neg_sub k1 1, ← neg_sub k1 k0, fl_neg, fl_neg, neg_div_neg_eq, one_le_div (fl_sub_pos hk1 hk0 h2)]
      exact fl_mono (by linarith)
    · rw [one_le_div (fl_sub_pos hk0 hk1 h1)]
      exact fl_mono (by linarith)
  have he : fl (1 - Flash64.eps) = 1 - 1 / 2 ^ 26 := by decide +kernel
  unfold liquidX
  dsimp only
  rw [if_neg (by linarith)]
  rcases hx.eq_or_lt with e | e
  · right
    rw [← e, sub_self, fl_zero, if_neg (lt_irrefl _)]
  · left
    have := fl_sub_pos (fl_idem _) fl_one e
    rw [if_pos (by rw [← neg_sub, fl_neg]; linarith), he]
    rfl

/-- The hypotheses are met, for instance by the ratios 4 and 1/4. -/
example : fl (1 / 4) = 1 / 4 ∧ checkFractions [(liquidX (4, 1 / 4)).1, (liquidX (4, 1 / 4)).2] = .ok () ∧
    |(liquidX (4, 1 / 4)).1 - 1 / 5| < 1 / 2 ^ 54 ∧ (liquidX (4, 1 / 4)).1 ≠ 1 / 5 := by decide +kernel

example : liquidX (2, 3) = (1 - 1 / 2 ^ 26, 1 / 2 ^ 26) ∧ liquidX (3, 2) = (1 / 2 ^ 26, 1 - 1 / 2 ^ 26) ∧ liquidX (1 / 4, 1 / 2) = (1 / 2 ^ 26, 1 - 1 / 2 ^ 26) := by
  decide +kernel

end Verif.Props
