import Verif.Model.Fugacity64
import Verif.Props.Component64
import Verif.Props.Objective64

/-!
# The fugacity coefficients of the Peng-Robinson equation in double precision (C176)
-/

namespace Verif.Props
open Verif Verif.Binary64 Verif.Mixing64

/-! ## Errors relative to a magnitude -/

/-- A number of at most the magnitude `M` with an error of at most `e M`. -/
def Err (e x' x M : ℝ) : Prop := |x' - x| ≤ e * M ∧ |x| ≤ M

theorem Err.mag {e x' x M : ℝ} (h : Err e x' x M) : 0 ≤ M := (abs_nonneg _).trans h.2

theorem Err.mono {e e' x' x M M' : ℝ} (h : Err e x' x M) (he : e ≤ e') (he0 : 0 ≤ e') (hM : M ≤ M') : Err e' x' x M' :=
  ⟨h.1.trans (mul_le_mul he hM h.mag he0), h.2.trans hM⟩

theorem Err.of_within {k : ℕ} {s S e : ℝ} (h : Within k s S) (hk : k ≤ 10 ^ 14) (he : (k : ℝ) * (124 / 10 ^ 18) ≤ e) : Err e s S S :=
  ⟨(h.relative hk).trans (mul_le_mul_of_nonneg_right he h.1), (abs_of_nonneg h.1).le⟩

theorem Err.mul {e f x' x M y' y N : ℝ} (h : Err e x' x M) (g : Err f y' y N) (he : 0 ≤ e) :
    Err (e + f + e * f) (x' * y') (x * y) (M * N) := by
  have hM := h.mag
  have hN := g.mag
  have hf : 0 ≤ f * N := (abs_nonneg _).trans g.1
  refine ⟨?_, by rw [abs_mul]; exact mul_le_mul h.2 g.2 (abs_nonneg _) hM⟩
  have e1 : x' * y' - x * y = (x' - x) * (y' - y) + (x' - x) * y + x * (y' - y) := by ring
  rw [e1]
  refine (abs_add_le _ _).trans ((add_le_add (abs_add_le _ _) le_rfl).trans ?_)
  rw [abs_mul, abs_mul, abs_mul]
  have t1 := mul_le_mul h.1 g.1 (abs_nonneg _) (mul_nonneg he hM)
  have t2 := mul_le_mul h.1 g.2 (abs_nonneg _) (mul_nonneg he hM)
  have t3 := mul_le_mul h.2 g.1 (abs_nonneg _) hM
  nlinarith only [t1, t2, t3]

theorem Err.add {e x' x M y' y N : ℝ} (h : Err e x' x M) (g : Err e y' y N) : Err e (x' + y') (x + y) (M + N) := by
  refine ⟨?_, (abs_add_le _ _).trans (add_le_add h.2 g.2)⟩
  rw [show x' + y' - (x + y) = (x' - x) + (y' - y) by ring, mul_add]
  exact (abs_add_le _ _).trans (add_le_add h.1 g.1)

theorem Err.neg {e x' x M : ℝ} (h : Err e x' x M) : Err e (-x') (-x) M := by
  refine ⟨?_, by rw [abs_neg]; exact h.2⟩
  rw [show -x' - -x = -(x' - x) by ring, abs_neg]
  exact h.1

theorem Err.sub {e x' x M y' y N : ℝ} (h : Err e x' x M) (g : Err e y' y N) : Err e (x' - y') (x - y) (M + N) := by
  rw [sub_eq_add_neg, sub_eq_add_neg]
  exact h.add g.neg

theorem Err.round {e x M : ℝ} {q : ℚ} (h : Err e q x M) (he : e ≤ 1 / 10 ^ 10) (hM : 1 / 10 ^ 140 ≤ M) :
    Err (e + 113 / 10 ^ 18) ((fl q : ℚ) : ℝ) x M := by
  refine ⟨?_, h.2⟩
  have h0 := h.mag
  have a := fl_any q
  have b : |(q : ℝ)| ≤ (1 + 1 / 10 ^ 10) * M := by
    have := abs_add_le ((q : ℝ) - x) x
    rw [sub_add_cancel] at this
    have h1 := h.1.trans (mul_le_mul_of_nonneg_right he h0)
    have h2 := h.2
    linarith
  have c : (1 : ℝ) / 10 ^ 250 ≤ 1 / 10 ^ 30 * (1 / 10 ^ 140) := by norm_num
  have d := abs_add_le (((fl q : ℚ) : ℝ) - q) ((q : ℝ) - x)
  rw [sub_add_sub_cancel] at d
  have h1 := h.1
  nlinarith

theorem Err.div {e d x' x M y' y : ℝ} (h : Err e x' x M) (hy : 0 < y) (g : |y' - y| ≤ d * y) (hd : d ≤ 1 / 10) (he : 0 ≤ e) :
    Err ((e + d) / (1 - d)) (x' / y') (x / y) (M / y) := by
  have hM := h.mag
  have hd0 : 0 ≤ d := by
    have := (abs_nonneg _).trans g
    exact nonneg_of_mul_nonneg_left this hy
  obtain ⟨g1, g2⟩ := abs_le.1 g
  have hy1 : (1 - d) * y ≤ y' := by linarith
  have hp : 0 < (1 - d) * y := mul_pos (by linarith) hy
  have hy' : 0 < y' := hp.trans_le hy1
  refine ⟨?_, by rw [abs_div, abs_of_pos hy]; exact div_le_div_of_nonneg_right h.2 hy.le⟩
  have e1 : x' / y' - x / y = ((x' - x) * y + x * (y - y')) / (y' * y) := by field_simp; ring
  rw [e1, abs_div, abs_of_pos (mul_pos hy' hy), div_le_iff₀ (mul_pos hy' hy)]
  have t : |(x' - x) * y + x * (y - y')| ≤ (e + d) * M * y := by
    refine (abs_add_le _ _).trans ?_
    rw [abs_mul, abs_mul, abs_of_pos hy, abs_sub_comm y y']
    have t1 := mul_le_mul_of_nonneg_right h.1 hy.le
    have t2 := mul_le_mul h.2 g (abs_nonneg _) hM
    linarith
  refine t.trans ?_
  have e2 : (e + d) / (1 - d) * (M / y) * (y' * y) = (e + d) * M * (y' / (1 - d)) := by field_simp
  rw [e2]
  refine mul_le_mul_of_nonneg_left ?_ (mul_nonneg (by linarith) hM)
  rw [le_div_iff₀ (by linarith)]
  linarith

/-- What is known about the library's logarithm: off by at most two units. -/
def GoodLog (lg : ℚ → ℚ) : Prop := ∀ q : ℚ, 0 < q → |((lg q : ℚ) : ℝ) - Real.log q| ≤ 224 / 10 ^ 18 * |Real.log q| + 1 / 10 ^ 250

/-- What is known about the library's exponential: off by at most two units. -/
def GoodExp (ex : ℚ → ℚ) : Prop := ∀ q : ℚ, |((ex q : ℚ) : ℝ) - Real.exp q| ≤ 224 / 10 ^ 18 * Real.exp q + 1 / 10 ^ 250

theorem log_close {x x' d : ℝ} (hx : 0 < x) (h : |x' - x| ≤ d * x) (hd : d ≤ 1 / 2) : 0 < x' ∧ |Real.log x' - Real.log x| ≤ 2 * d := by
  obtain ⟨h1, h2⟩ := abs_le.1 h
  have hd0 : 0 ≤ d := nonneg_of_mul_nonneg_left ((abs_nonneg _).trans h) hx
  have hp : 0 < x' := by nlinarith
  refine ⟨hp, ?_⟩
  have hlog : Real.log x' - Real.log x = Real.log (x' / x) := (Real.log_div hp.ne' hx.ne').symm
  have ht : 0 < x' / x := div_pos hp hx
  have u1 : x' / x ≤ 1 + d := by rw [div_le_iff₀ hx]; linarith
  have u2 : 1 - d ≤ x' / x := by rw [le_div_iff₀ hx]; linarith
  have l1 := Real.log_le_sub_one_of_pos ht
  have l2 := Real.one_sub_inv_le_log_of_pos ht
  have l3 : (x' / x)⁻¹ ≤ 1 + 2 * d := by
    rw [inv_le_iff_one_le_mul₀ ht]
    nlinarith
  rw [hlog, abs_le]
  constructor <;> linarith

theorem log_err {lg : ℚ → ℚ} (hl : GoodLog lg) {q : ℚ} {x d : ℝ} (hx : 0 < x) (h : |(q : ℝ) - x| ≤ d * x) (hd : d ≤ 1 / 10 ^ 10) :
    Err (2 * d + 225 / 10 ^ 18) ((lg q : ℚ) : ℝ) (Real.log x) (1 + |Real.log x|) := by
  obtain ⟨hp, hc⟩ := log_close hx h (by linarith)
  have hp' : 0 < q := by exact_mod_cast hp
  have h1 := hl q hp'
  have hd0 : 0 ≤ d := nonneg_of_mul_nonneg_left ((abs_nonneg _).trans h) hx
  have h2 : |Real.log q| ≤ |Real.log x| + 2 * d := by
    have := abs_add_le (Real.log q - Real.log x) (Real.log x)
    rw [sub_add_cancel] at this
    linarith
  have h3 := abs_add_le (((lg q : ℚ) : ℝ) - Real.log q) (Real.log q - Real.log x)
  rw [sub_add_sub_cancel] at h3
  have h4 := abs_nonneg (Real.log x)
  refine ⟨?_, by linarith⟩
  have h5 : (1 : ℝ) / 10 ^ 250 ≤ 1 / 10 ^ 30 := by norm_num
  have h6 := mul_nonneg hd0 h4
  nlinarith

/-! ## The numbers that enter -/

variable {n : ℕ}

/-- A state at which nothing underflows. -/
structure SaneState (R T P ρ : ℚ) : Prop where
  hR : (1 : ℝ) / 10 ^ 10 ≤ R
  hT : (1 : ℝ) / 10 ^ 10 ≤ T
  hRT : (R : ℝ) * T ≤ 10 ^ 10
  hP : (1 : ℝ) ≤ P
  hP' : (P : ℝ) ≤ 10 ^ 20
  hρ : (1 : ℝ) / 10 ^ 10 ≤ ρ
  hρ' : (ρ : ℝ) ≤ 10 ^ 20

private theorem mul_ge {a b x y : ℝ} (ha : 0 ≤ a) (hb : 0 ≤ b) (h : a ≤ x) (g : b ≤ y) : a * b ≤ x * y :=
  mul_le_mul h g hb (ha.trans h)

private theorem div_ge {a b x y : ℝ} (ha : 0 ≤ a) (h : a ≤ x) (hy : 0 < y) (g : y ≤ b) : a / b ≤ x / y :=
  div_le_div₀ (ha.trans h) h hy g

private theorem RT_ge {R T P ρ : ℚ} (h : SaneState R T P ρ) : (1 : ℝ) / 10 ^ 20 ≤ R * T :=
  le_trans (by norm_num) (mul_ge (by norm_num) (by norm_num) h.hR h.hT)

private theorem RT_within {R T P ρ : ℚ} (h : SaneState R T P ρ) : Within 1 ((fl (R * T) : ℚ) : ℝ) ((R : ℝ) * T) := by
  refine Within.round' (q := R * T) (k := 0) ?_ (by norm_num) (Or.inr (le_trans (by norm_num) (RT_ge h)))
  push_cast
  exact Within.exact (le_trans (by norm_num) (RT_ge h))

private theorem RT2_within {sq : ℚ → ℚ} (hsq : GoodSquare sq) {R T P ρ : ℚ} (h : SaneState R T P ρ) :
    Within 5 ((sq (fl (R * T)) : ℚ) : ℝ) (((R : ℝ) * T) ^ 2) := by
  have w := RT_within h
  refine square_within hsq w ?_
  have := mul_ge (by norm_num) (by norm_num) (show (1 / 2 : ℝ) ≤ (1 - 112 / 10 ^ 18) ^ 1 by norm_num) (RT_ge h)
  exact le_trans (le_trans (by norm_num) this) w.2.1

private theorem RT2_bounds {R T P ρ : ℚ} (h : SaneState R T P ρ) : 0 < ((R : ℝ) * T) ^ 2 ∧ ((R : ℝ) * T) ^ 2 ≤ 10 ^ 20 := by
  have := RT_ge h
  have h0 : (0 : ℝ) < R * T := lt_of_lt_of_le (by norm_num) this
  refine ⟨by positivity, ?_⟩
  have := pow_le_pow_left₀ h0.le h.hRT 2
  exact this.trans (by norm_num)

private theorem Z_within {R T P ρ : ℚ} (h : SaneState R T P ρ) :
    Within 5 ((Fugacity64.compressibility R T P ρ : ℚ) : ℝ) ((P : ℝ) / (R * T * ρ)) ∧
    (1 : ℝ) / 10 ^ 30 ≤ (P : ℝ) / (R * T * ρ) ∧ (P : ℝ) / (R * T * ρ) ≤ 10 ^ 50 := by
  have rt := RT_ge h
  have d1 : (1 : ℝ) / 10 ^ 30 ≤ R * T * ρ := le_trans (by norm_num) (mul_ge (by norm_num) (by norm_num) rt h.hρ)
  have d0 : (0 : ℝ) < R * T * ρ := lt_of_lt_of_le (by norm_num) d1
  have d2 : (R : ℝ) * T * ρ ≤ 10 ^ 30 :=
    (mul_le_mul h.hRT h.hρ' (le_trans (by norm_num) h.hρ) (by norm_num)).trans (by norm_num)
  have z1 : (1 : ℝ) / 10 ^ 30 ≤ (P : ℝ) / (R * T * ρ) := div_ge (by norm_num) h.hP d0 d2
  refine ⟨?_, z1, ?_⟩
  · have w := Within.round' (q := fl (R * T) * ρ) (k := 1) (S := (R : ℝ) * T * ρ)
      (by push_cast; exact (RT_within h).mul (l := 0) (Within.exact (le_trans (by norm_num) h.hρ))) (by norm_num)
      (Or.inr (le_trans (by norm_num) d1))
    refine Within.round' (q := P / fl (fl (R * T) * ρ)) (k := 4) ?_ (by norm_num) (Or.inr (le_trans (by norm_num) z1))
    push_cast
    exact (Within.exact (le_trans (by norm_num) h.hP)).quot w d0
  · rw [div_le_iff₀ d0]
    have := mul_le_mul_of_nonneg_left d1 (by norm_num : (0 : ℝ) ≤ 10 ^ 50)
    exact h.hP'.trans (le_trans (by norm_num) this)

private theorem Bi_within {R T P ρ : ℚ} (h : SaneState R T P ρ) {b : ℚ} (hb : (1 : ℝ) / 10 ^ 20 ≤ b) :
    Within 4 ((fl (fl (b * P) / fl (R * T)) : ℚ) : ℝ) ((b : ℝ) * P / (R * T)) ∧ (1 : ℝ) / 10 ^ 30 ≤ (b : ℝ) * P / (R * T) := by
  have rt := RT_ge h
  have r0 : (0 : ℝ) < R * T := lt_of_lt_of_le (by norm_num) rt
  have bp : (1 : ℝ) / 10 ^ 20 ≤ b * P := le_trans (by norm_num) (mul_ge (by norm_num) (by norm_num) hb h.hP)
  have z1 : (1 : ℝ) / 10 ^ 30 ≤ (b : ℝ) * P / (R * T) := le_trans (by norm_num) (div_ge (by norm_num) bp r0 h.hRT)
  refine ⟨?_, z1⟩
  have w := Within.round' (q := b * P) (k := 0) (S := (b : ℝ) * P) (by push_cast; exact Within.exact (le_trans (by norm_num) bp)) (by norm_num)
    (Or.inr (le_trans (by norm_num) bp))
  refine Within.round' (q := fl (b * P) / fl (R * T)) (k := 3) ?_ (by norm_num) (Or.inr (le_trans (by norm_num) z1))
  push_cast
  exact w.quot (RT_within h) r0

private theorem B_within {R T P ρ : ℚ} (h : SaneState R T P ρ) {b : ℚ} {β : ℝ} {k : ℕ} (w0 : Within k b β) (hk : k ≤ 1000) (hb : (1 : ℝ) / 10 ^ 19 ≤ β) :
    Within (k + 4) ((fl (fl (b * P) / fl (R * T)) : ℚ) : ℝ) (β * P / (R * T)) ∧ (1 : ℝ) / 10 ^ 30 ≤ β * P / (R * T) := by
  have rt := RT_ge h
  have r0 : (0 : ℝ) < R * T := lt_of_lt_of_le (by norm_num) rt
  have bp : (1 : ℝ) / 10 ^ 19 ≤ β * P := le_trans (by norm_num) (mul_ge (by norm_num) (by norm_num) hb h.hP)
  have z1 : (1 : ℝ) / 10 ^ 30 ≤ β * P / (R * T) := le_trans (by norm_num) (div_ge (by norm_num) bp r0 h.hRT)
  refine ⟨?_, z1⟩
  have w := Within.round_big (q := b * P) (k := k) (S := β * P) (by push_cast; exact w0.mul (l := 0) (Within.exact (le_trans (by norm_num) h.hP))) (by omega)
    (Or.inr (le_trans (by norm_num) bp))
  refine Within.round_big (q := fl (b * P) / fl (R * T)) (k := k + 1 + 2 * 1) ?_ (by omega) (Or.inr (le_trans (by norm_num) z1))
  push_cast
  exact w.quot (RT_within h) r0

private theorem A_within {sq : ℚ → ℚ} (hsq : GoodSquare sq) {R T P ρ : ℚ} (h : SaneState R T P ρ) {a : ℚ} {α : ℝ} {k : ℕ} (w0 : Within k a α)
    (hk : k ≤ 1000) (ha : (1 : ℝ) / 10 ^ 40 ≤ α) :
    Within (k + 12) ((fl (fl (a * P) / sq (fl (R * T))) : ℚ) : ℝ) (α * P / (R * T) ^ 2) ∧ α / 10 ^ 20 ≤ α * P / (R * T) ^ 2 := by
  obtain ⟨r0, r1⟩ := RT2_bounds h
  have a0 : 0 ≤ α := le_trans (by norm_num) ha
  have bp : α ≤ α * P := le_mul_of_one_le_right a0 h.hP
  have z1 : α / 10 ^ 20 ≤ α * P / (R * T) ^ 2 := div_ge a0 bp r0 r1
  have z2 : (1 : ℝ) / 10 ^ 60 ≤ α / 10 ^ 20 := by
    rw [le_div_iff₀ (by norm_num)]
    exact le_trans (by norm_num) ha
  refine ⟨?_, z1⟩
  have w := Within.round_big (q := a * P) (k := k) (S := α * P) (by push_cast; exact w0.mul (l := 0) (Within.exact (le_trans (by norm_num) h.hP))) (by omega)
    (Or.inr (le_trans (le_trans (by norm_num) ha) bp))
  refine Within.round_big (q := fl (a * P) / sq (fl (R * T))) (k := k + 1 + 2 * 5) ?_ (by omega) (Or.inr (le_trans (le_trans (by norm_num) z2) z1))
  push_cast
  exact w.quot (RT2_within hsq h) r0

/-- The root of two. -/
private theorem root2 : Within 1 ((flSqrt 2 : ℚ) : ℝ) (√2) := by
  have := sqrt_within (q := 2) (k := 0) (S := 2) (by push_cast; exact Within.exact (by norm_num)) (by norm_num)
  exact this

private theorem root2_bounds : (1414213 : ℝ) / 10 ^ 6 < √2 ∧ √2 < 1414214 / 10 ^ 6 :=
  ⟨Real.lt_sqrt_of_sq_lt (by norm_num), (Real.sqrt_lt' (by norm_num)).2 (by norm_num)⟩

/-! ## The parts of the logarithm -/

/-- **C176** `tmp1` is computed to a few parts in 10^14. -/
theorem c176_tmp1 {lg : ℚ → ℚ} (hl : GoodLog lg) {a b z : ℚ} {A B Z : ℝ} {k l : ℕ} (wa : Within k a A) (wb : Within l b B) (wz : Within 5 z Z)
    (hk : k ≤ 420) (hll : l ≤ 25) (hA : 1 / 10 ^ 39 ≤ A) (hB : 1 / 10 ^ 30 ≤ B) (hZ : 1 / 10 ^ 30 ≤ Z) (hZ' : Z ≤ 10 ^ 50) (hBZ : B ≤ 49 / 50 * Z) :
    Err (97 / 10 ^ 15) ((Fugacity64.tmp1 lg a b z : ℚ) : ℝ) (A / (2 * √2 * B) * Real.log ((Z + (1 + √2) * B) / (Z + (1 - √2) * B)))
      (A / (2 * √2 * B) * (1 + |Real.log ((Z + (1 + √2) * B) / (Z + (1 - √2) * B))|)) := by
  obtain ⟨s1, s2⟩ := root2_bounds
  have hB0 : 0 < B := lt_of_lt_of_le (by norm_num) hB
  have hZ0 : 0 < Z := lt_of_lt_of_le (by norm_num) hZ
  have hA0 : 0 < A := lt_of_lt_of_le (by norm_num) hA
  have hk' : (k : ℝ) ≤ 420 := by exact_mod_cast hk
  have hl' : (l : ℝ) ≤ 25 := by exact_mod_cast hll
  -- the denominator of the factor
  have w2 : Within 2 ((fl (2 * flSqrt 2) : ℚ) : ℝ) (2 * √2) := by
    refine Within.round' (q := 2 * flSqrt 2) (k := 1) ?_ (by norm_num) (Or.inr (by linarith [show (1 : ℝ) / 10 ^ 140 ≤ 1 by norm_num]))
    push_cast
    exact (Within.exact (by norm_num)).mul (k := 0) root2 |>.mono (by norm_num)
  have den1 : (1 : ℝ) / 10 ^ 30 ≤ 2 * √2 * B := le_trans hB (le_mul_of_one_le_left hB0.le (by linarith))
  have den0 : 0 < 2 * √2 * B := lt_of_lt_of_le (by norm_num) den1
  have w3 : Within (l + 3) ((fl (fl (2 * flSqrt 2) * b) : ℚ) : ℝ) (2 * √2 * B) := by
    have := Within.round_big (q := fl (2 * flSqrt 2) * b) (k := 2 + l) (S := 2 * √2 * B) (by push_cast; exact w2.mul wb) (by omega)
      (Or.inr (le_trans (by norm_num) den1))
    exact this.mono (by omega)
  have r3 := w3.relative (by omega)
  have r3' : |((fl (fl (2 * flSqrt 2) * b) : ℚ) : ℝ) - 2 * √2 * B| ≤ 35 / 10 ^ 16 * (2 * √2 * B) :=
    r3.trans (mul_le_mul_of_nonneg_right (by push_cast; linarith) den0.le)
  have ea : Err (521 / 10 ^ 16) (a : ℝ) A A := Err.of_within wa (by omega) (by linarith)
  have eq := ea.div den0 r3' (by norm_num) (by norm_num)
  have den2 : 2 * √2 * B ≤ 10 ^ 51 := by
    have : 2 * √2 * B ≤ 3 * (49 / 50 * 10 ^ 50) := mul_le_mul (by linarith) (hBZ.trans (by linarith)) hB0.le (by norm_num)
    exact this.trans (by norm_num)
  have qb : (1 : ℝ) / 10 ^ 90 ≤ A / (2 * √2 * B) := le_trans (by norm_num) (div_ge (by norm_num) hA den0 den2)
  have eq' : Err (557 / 10 ^ 16) (((a / fl (fl (2 * flSqrt 2) * b) : ℚ)) : ℝ) (A / (2 * √2 * B)) (A / (2 * √2 * B)) := by
    rw [Rat.cast_div]
    exact eq.mono (by norm_num) (by norm_num) le_rfl
  have f1 := (eq'.round (by norm_num) (le_trans (by norm_num) qb)).mono (e' := 56 / 10 ^ 15) (by norm_num) (by norm_num) le_rfl
  -- the numerator under the logarithm
  have wp : Within 2 ((fl (1 + flSqrt 2) : ℚ) : ℝ) (1 + √2) := by
    refine Within.round' (q := 1 + flSqrt 2) (k := 1) ?_ (by norm_num) (Or.inr (by linarith [show (1 : ℝ) / 10 ^ 140 ≤ 1 by norm_num]))
    push_cast
    exact ((Within.exact (by norm_num)).mono (by norm_num)).add root2
  have pb : (1 : ℝ) / 10 ^ 30 ≤ (1 + √2) * B := le_trans hB (le_mul_of_one_le_left hB0.le (by linarith))
  have wpB : Within (l + 3) ((fl (fl (1 + flSqrt 2) * b) : ℚ) : ℝ) ((1 + √2) * B) := by
    have := Within.round_big (q := fl (1 + flSqrt 2) * b) (k := 2 + l) (S := (1 + √2) * B) (by push_cast; exact wp.mul wb) (by omega)
      (Or.inr (le_trans (by norm_num) pb))
    exact this.mono (by omega)
  have Nb : (1 : ℝ) / 10 ^ 30 ≤ Z + (1 + √2) * B := by linarith [le_trans (by norm_num : (0 : ℝ) ≤ 1 / 10 ^ 30) pb]
  have N0 : 0 < Z + (1 + √2) * B := lt_of_lt_of_le (by norm_num) Nb
  have wN : Within (l + 9) ((fl (z + fl (fl (1 + flSqrt 2) * b)) : ℚ) : ℝ) (Z + (1 + √2) * B) := by
    refine Within.round_big (q := z + fl (fl (1 + flSqrt 2) * b)) (k := l + 8) ?_ (by omega) (Or.inr (le_trans (by norm_num) Nb))
    push_cast
    have := wpB.mono (l := l + 8) (by omega)
    exact (wz.mono (by omega)).add this
  have eN : Err (43 / 10 ^ 16) ((fl (z + fl (fl (1 + flSqrt 2) * b)) : ℚ) : ℝ) (Z + (1 + √2) * B) (Z + (1 + √2) * B) :=
    Err.of_within wN (by omega) (by push_cast; linarith)
  -- its denominator
  have em : Err (2 / 10 ^ 16) ((1 - flSqrt 2 : ℚ) : ℝ) (1 - √2) 1 := by
    have := root2.relative (by norm_num)
    push_cast at this
    refine ⟨?_, by rw [abs_le]; constructor <;> linarith⟩
    push_cast
    rw [show (1 : ℝ) - (flSqrt 2 : ℚ) - (1 - √2) = -((flSqrt 2 : ℚ) - √2) by ring, abs_neg]
    linarith
  have em' := (em.round (by norm_num) (by norm_num)).mono (e' := 32 / 10 ^ 17) (by norm_num) (by norm_num) le_rfl
  have eb : Err (31 / 10 ^ 16) (b : ℝ) B B := Err.of_within wb (by omega) (by linarith)
  have emb : Err (35 / 10 ^ 16) ((fl (1 - flSqrt 2) * b : ℚ) : ℝ) ((1 - √2) * B) B := by
    rw [Rat.cast_mul]
    exact (em'.mul eb (by norm_num)).mono (by norm_num) (by norm_num) (by rw [one_mul])
  have emb' := (emb.round (by norm_num) (le_trans (by norm_num) hB)).mono (e' := 37 / 10 ^ 16) (by norm_num) (by norm_num) le_rfl
  have ez : Err (37 / 10 ^ 16) (z : ℝ) Z Z := Err.of_within wz (by norm_num) (by norm_num)
  have eD : Err (37 / 10 ^ 16) ((z + fl (fl (1 - flSqrt 2) * b) : ℚ) : ℝ) (Z + (1 - √2) * B) (Z + B) := by
    rw [Rat.cast_add]
    exact ez.add emb'
  have eD' := eD.round (by norm_num) (show 1 / 10 ^ 140 ≤ Z + B by linarith [show (1 : ℝ) / 10 ^ 140 ≤ 1 / 10 ^ 30 by norm_num])
  have Dlow : 58 / 100 * Z ≤ Z + (1 - √2) * B := by nlinarith
  have D0 : 0 < Z + (1 - √2) * B := by nlinarith
  have rD : |((fl (z + fl (fl (1 - flSqrt 2) * b)) : ℚ) : ℝ) - (Z + (1 - √2) * B)| ≤ 14 / 10 ^ 15 * (Z + (1 - √2) * B) := by
    refine eD'.1.trans ?_
    nlinarith
  have eR := eN.div D0 rD (by norm_num) (by norm_num)
  have R1 : 1 ≤ (Z + (1 + √2) * B) / (Z + (1 - √2) * B) := by
    rw [one_le_div D0]
    nlinarith
  have R0 : 0 < (Z + (1 + √2) * B) / (Z + (1 - √2) * B) := lt_of_lt_of_le (by norm_num) R1
  have eR' : Err (184 / 10 ^ 16) ((fl (z + fl (fl (1 + flSqrt 2) * b)) / fl (z + fl (fl (1 - flSqrt 2) * b)) : ℚ) : ℝ)
      ((Z + (1 + √2) * B) / (Z + (1 - √2) * B)) ((Z + (1 + √2) * B) / (Z + (1 - √2) * B)) := by
    rw [Rat.cast_div]
    exact eR.mono (by norm_num) (by norm_num) le_rfl
  have eR'' := (eR'.round (by norm_num) (le_trans (by norm_num) R1)).mono (e' := 19 / 10 ^ 15) (by norm_num) (by norm_num) le_rfl
  have eL := (log_err hl R0 eR''.1 (by norm_num)).mono (e' := 39 / 10 ^ 15) (by norm_num) (by norm_num) le_rfl
  have eP := f1.mul eL (by norm_num)
  unfold Fugacity64.tmp1
  set L := Real.log ((Z + (1 + √2) * B) / (Z + (1 - √2) * B))
  have hL : 0 ≤ |L| := abs_nonneg _
  have eP' : Err (96 / 10 ^ 15) ((fl (a / fl (fl (2 * flSqrt 2) * b)) *
      lg (fl (fl (z + fl (fl (1 + flSqrt 2) * b)) / fl (z + fl (fl (1 - flSqrt 2) * b)))) : ℚ) : ℝ)
      (A / (2 * √2 * B) * L) (A / (2 * √2 * B) * (1 + |L|)) := by
    rw [Rat.cast_mul]
    exact eP.mono (by norm_num) (by norm_num) le_rfl
  refine (eP'.round (by norm_num) ?_).mono (by norm_num) (by norm_num) le_rfl
  exact le_trans (le_trans (by norm_num) qb) (le_mul_of_one_le_right (le_trans (by norm_num) qb) (by linarith))

/-- **C176** `tmp2` is computed to a few parts in 10^14. -/
theorem c176_tmp2 {a b bi s : ℚ} {A B Bi S : ℝ} {k l m : ℕ} (wa : Within k a A) (wb : Within l b B) (wi : Within 4 bi Bi) (ws : Within m s S)
    (hk : k ≤ 420) (hll : l ≤ 25) (hm : m ≤ 51) (hA : 1 / 10 ^ 39 ≤ A) (hB : 1 / 10 ^ 30 ≤ B) (hB' : B ≤ 10 ^ 50) (hi : 1 / 10 ^ 30 ≤ Bi) :
    Err (60 / 10 ^ 15) ((Fugacity64.tmp2 bi b s a : ℚ) : ℝ) (Bi / B - 2 * S / A) (2 * (Bi / B) + 2 * S / A) := by
  have hB0 : 0 < B := lt_of_lt_of_le (by norm_num) hB
  have hA0 : 0 < A := lt_of_lt_of_le (by norm_num) hA
  have hk' : (k : ℝ) ≤ 420 := by exact_mod_cast hk
  have hl' : (l : ℝ) ≤ 25 := by exact_mod_cast hll
  have hm' : (m : ℝ) ≤ 51 := by exact_mod_cast hm
  have ei : Err (5 / 10 ^ 16) (bi : ℝ) Bi Bi := Err.of_within wi (by norm_num) (by norm_num)
  have rb : |(b : ℝ) - B| ≤ 31 / 10 ^ 16 * B := (Err.of_within wb (by omega) (by linarith)).1
  have ra : |(a : ℝ) - A| ≤ 521 / 10 ^ 16 * A := (Err.of_within wa (by omega) (by linarith)).1
  have es : Err (64 / 10 ^ 16) (s : ℝ) S S := Err.of_within ws (by omega) (by linarith)
  have hS : 0 ≤ S := es.mag
  have q1 : (1 : ℝ) / 10 ^ 80 ≤ Bi / B := le_trans (by norm_num) (div_ge (by norm_num) hi hB0 hB')
  have q0 : 0 < Bi / B := lt_of_lt_of_le (by norm_num) q1
  have e1 : Err (37 / 10 ^ 16) ((bi / b : ℚ) : ℝ) (Bi / B) (Bi / B) := by
    rw [Rat.cast_div]
    exact (ei.div hB0 rb (by norm_num) (by norm_num)).mono (by norm_num) (by norm_num) le_rfl
  have e2 := (e1.round (by norm_num) (le_trans (by norm_num) q1)).mono (e' := 590 / 10 ^ 16) (by norm_num) (by norm_num) le_rfl
  have q2 : (1 : ℝ) / 10 ^ 119 ≤ Bi / B * A := le_trans (by norm_num) (mul_ge (by norm_num) (by norm_num) q1 hA)
  have e3 : Err (64 / 10 ^ 16) ((2 * s : ℚ) : ℝ) (2 * S) (2 * S + Bi / B * A) := by
    have h1 := es.1
    refine ⟨?_, ?_⟩
    · push_cast
      rw [← mul_sub, abs_mul, abs_of_pos (by norm_num : (0 : ℝ) < 2)]
      linarith [le_trans (by norm_num : (0 : ℝ) ≤ 1 / 10 ^ 119) q2]
    · rw [abs_of_nonneg (by linarith)]
      linarith [le_trans (by norm_num : (0 : ℝ) ≤ 1 / 10 ^ 119) q2]
  have e4 := (e3.round (by norm_num) (by linarith [show (1 : ℝ) / 10 ^ 140 ≤ 1 / 10 ^ 119 by norm_num])).mono (e' := 66 / 10 ^ 16) (by norm_num)
    (by norm_num) le_rfl
  have e5 : Err (588 / 10 ^ 16) ((fl (2 * s) / a : ℚ) : ℝ) (2 * S / A) (2 * S / A + Bi / B) := by
    have := (e4.div hA0 ra (by norm_num) (by norm_num)).mono (e' := 588 / 10 ^ 16) (by norm_num) (by norm_num) le_rfl
    rw [add_div, mul_div_cancel_right₀ _ hA0.ne'] at this
    rw [Rat.cast_div]
    exact this
  have q3 : 0 ≤ 2 * S / A := by positivity
  have e6 := (e5.round (by norm_num) (by linarith [show (1 : ℝ) / 10 ^ 140 ≤ 1 / 10 ^ 80 by norm_num])).mono (e' := 590 / 10 ^ 16) (by norm_num)
    (by norm_num) le_rfl
  have e7 : Err (590 / 10 ^ 16) ((fl (bi / b) - fl (fl (2 * s) / a) : ℚ) : ℝ) (Bi / B - 2 * S / A) (2 * (Bi / B) + 2 * S / A) := by
    rw [Rat.cast_sub]
    exact (e2.sub e6).mono le_rfl (by norm_num) (by linarith)
  exact (e7.round (by norm_num) (by linarith [show (1 : ℝ) / 10 ^ 140 ≤ 1 / 10 ^ 80 by norm_num])).mono (by norm_num) (by norm_num) le_rfl

/-- **C176** `tmp3` is computed to a few parts in 10^13, however small `Z - B` is next to `Z`, up to a fiftieth. -/
theorem c176_tmp3 {lg : ℚ → ℚ} (hl : GoodLog lg) {b bi z : ℚ} {B Bi Z : ℝ} {l : ℕ} (wb : Within l b B) (wi : Within 4 bi Bi) (wz : Within 5 z Z)
    (hll : l ≤ 25) (hB : 1 / 10 ^ 30 ≤ B) (hZ : 1 / 10 ^ 30 ≤ Z) (hZ' : Z ≤ 10 ^ 50) (hi : 1 / 10 ^ 30 ≤ Bi) (hBZ : B ≤ 49 / 50 * Z) :
    Err (67 / 10 ^ 14) ((Fugacity64.tmp3 lg bi b z : ℚ) : ℝ) (Bi * (Z - 1) / B - Real.log (Z - B))
      (Bi * (Z + 1) / B + (1 + |Real.log (Z - B)|)) := by
  have hB0 : 0 < B := lt_of_lt_of_le (by norm_num) hB
  have hZ0 : 0 < Z := lt_of_lt_of_le (by norm_num) hZ
  have hl' : (l : ℝ) ≤ 25 := by exact_mod_cast hll
  have ei : Err (5 / 10 ^ 16) (bi : ℝ) Bi Bi := Err.of_within wi (by norm_num) (by norm_num)
  have eb : Err (31 / 10 ^ 16) (b : ℝ) B B := Err.of_within wb (by omega) (by linarith)
  have ez : Err (62 / 10 ^ 17) (z : ℝ) Z Z := Err.of_within wz (by norm_num) (by norm_num)
  have e1 : Err (62 / 10 ^ 17) ((z - 1 : ℚ) : ℝ) (Z - 1) (Z + 1) := by
    rw [Rat.cast_sub]
    exact ez.sub ⟨by norm_num, by norm_num⟩
  have e2 := (e1.round (by norm_num) (by linarith [show (1 : ℝ) / 10 ^ 140 ≤ 1 by norm_num])).mono (e' := 75 / 10 ^ 17) (by norm_num) (by norm_num) le_rfl
  have e3 : Err (13 / 10 ^ 16) ((bi * fl (z - 1) : ℚ) : ℝ) (Bi * (Z - 1)) (Bi * (Z + 1)) := by
    rw [Rat.cast_mul]
    exact (ei.mul e2 (by norm_num)).mono (by norm_num) (by norm_num) le_rfl
  have m1 : (1 : ℝ) / 10 ^ 30 ≤ Bi * (Z + 1) := le_trans hi (le_mul_of_one_le_right (le_trans (by norm_num) hi) (by linarith))
  have e4 := (e3.round (by norm_num) (le_trans (by norm_num) m1)).mono (e' := 15 / 10 ^ 16) (by norm_num) (by norm_num) le_rfl
  have e5 : Err (47 / 10 ^ 16) ((fl (bi * fl (z - 1)) / b : ℚ) : ℝ) (Bi * (Z - 1) / B) (Bi * (Z + 1) / B) := by
    rw [Rat.cast_div]
    exact (e4.div hB0 eb.1 (by norm_num) (by norm_num)).mono (by norm_num) (by norm_num) le_rfl
  have hB' : B ≤ 10 ^ 50 := by linarith
  have m2 : (1 : ℝ) / 10 ^ 80 ≤ Bi * (Z + 1) / B := le_trans (by norm_num) (div_ge (by norm_num) m1 hB0 hB')
  have e6 := (e5.round (by norm_num) (le_trans (by norm_num) m2)).mono (e' := 66 / 10 ^ 14) (by norm_num) (by norm_num) le_rfl
  have f1 : Err (31 / 10 ^ 16) ((z - b : ℚ) : ℝ) (Z - B) (Z + B) := by
    rw [Rat.cast_sub]
    exact (ez.mono (by norm_num) (by norm_num) le_rfl).sub eb
  have f2 := f1.round (by norm_num) (by linarith [show (1 : ℝ) / 10 ^ 140 ≤ 1 / 10 ^ 30 by norm_num])
  have d0 : 0 < Z - B := by linarith
  have f3 : |((fl (z - b) : ℚ) : ℝ) - (Z - B)| ≤ 3285 / 10 ^ 16 * (Z - B) := by
    refine f2.1.trans ?_
    have : Z + B ≤ 99 * (Z - B) := by linarith
    refine (mul_le_mul_of_nonneg_left this (by norm_num)).trans ?_
    rw [← mul_assoc]
    exact mul_le_mul_of_nonneg_right (by norm_num) d0.le
  have f4 := (log_err hl d0 f3 (by norm_num)).mono (e' := 66 / 10 ^ 14) (by norm_num) (by norm_num) le_rfl
  have g : Err (66 / 10 ^ 14) ((fl (fl (bi * fl (z - 1)) / b) - lg (fl (z - b)) : ℚ) : ℝ) (Bi * (Z - 1) / B - Real.log (Z - B))
      (Bi * (Z + 1) / B + (1 + |Real.log (Z - B)|)) := by
    rw [Rat.cast_sub]
    exact e6.sub f4
  refine (g.round (by norm_num) ?_).mono (by norm_num) (by norm_num) le_rfl
  have := abs_nonneg (Real.log (Z - B))
  linarith [show (1 : ℝ) / 10 ^ 140 ≤ 1 by norm_num, le_trans (by norm_num : (0 : ℝ) ≤ 1 / 10 ^ 80) m2]

/-! ## The sum over the partners -/

private theorem ge20 {q : ℚ} (h : 1 / 10 ^ 20 ≤ q) : (1 : ℝ) / 10 ^ 20 ≤ q := by
  have := (Rat.cast_le (K := ℝ)).2 h
  push_cast at this
  exact this

private theorem ai_within {sq : ℚ → ℚ} (hsq : GoodSquare sq) {R T P ρ : ℚ} (h : SaneState R T P ρ) {p : Mixing64.Par n} {x : Fin n → ℚ} (hs : Sane p x)
    (i : Fin n) : Within 13 ((Fugacity64.ai sq R T P p i : ℚ) : ℝ) ((p.ai i : ℝ) * p.alpha i * P / (R * T) ^ 2) ∧
      (1 : ℝ) / 10 ^ 60 ≤ (p.ai i : ℝ) * p.alpha i * P / (R * T) ^ 2 := by
  have a := ge20 (hs.a i)
  have b := ge20 (hs.alpha i)
  have ab : (1 : ℝ) / 10 ^ 40 ≤ (p.ai i : ℝ) * p.alpha i := le_trans (by norm_num) (mul_ge (by norm_num) (by norm_num) a b)
  have w : Within 1 ((fl (p.ai i * p.alpha i) : ℚ) : ℝ) ((p.ai i : ℝ) * p.alpha i) := by
    refine Within.round' (q := p.ai i * p.alpha i) (k := 0) ?_ (by norm_num) (Or.inr (le_trans (by norm_num) ab))
    push_cast
    exact Within.exact (le_trans (by norm_num) ab)
  obtain ⟨h1, h2⟩ := A_within hsq h w (by norm_num) ab
  refine ⟨h1, le_trans ?_ h2⟩
  rw [le_div_iff₀ (by norm_num)]
  exact le_trans (by norm_num) ab

/-- **C176** The sum over the partners of a component is computed with as many roundings as there are components, and 31. -/
theorem c176_attraction {sq : ℚ → ℚ} (hsq : GoodSquare sq) {R T P ρ : ℚ} (h : SaneState R T P ρ) {p : Mixing64.Par n} {x : Fin n → ℚ} (hs : Sane p x)
    (i : Fin n) : Within (n + 31) ((Fugacity64.attraction sq R T P p x i : ℚ) : ℝ)
      (∑ j, (x j : ℝ) * (√(((p.ai i : ℝ) * p.alpha i * P / (R * T) ^ 2) * ((p.ai j : ℝ) * p.alpha j * P / (R * T) ^ 2)) * (1 - p.kij i j))) := by
  have key : ∀ j, Within 31 ((fl (x j * fl (flSqrt (fl (Fugacity64.ai sq R T P p i * Fugacity64.ai sq R T P p j)) * fl (1 - p.kij i j))) : ℚ) : ℝ)
      ((x j : ℝ) * (√(((p.ai i : ℝ) * p.alpha i * P / (R * T) ^ 2) * ((p.ai j : ℝ) * p.alpha j * P / (R * T) ^ 2)) * (1 - p.kij i j))) := by
    intro j
    obtain ⟨w1, b1⟩ := ai_within hsq h hs i
    obtain ⟨w2, b2⟩ := ai_within hsq h hs j
    generalize (p.ai i : ℝ) * p.alpha i * P / (R * T) ^ 2 = X at *
    generalize (p.ai j : ℝ) * p.alpha j * P / (R * T) ^ 2 = Y at *
    have b3 : (1 : ℝ) / 10 ^ 120 ≤ X * Y := le_trans (by norm_num) (mul_ge (by norm_num) (by norm_num) b1 b2)
    have w3 := Within.round_big (q := Fugacity64.ai sq R T P p i * Fugacity64.ai sq R T P p j) (k := 13 + 13) (S := X * Y)
      (by push_cast; exact w1.mul w2) (by norm_num) (Or.inr (le_trans (by norm_num) b3))
    have w4 := sqrt_within w3 (by
      have := lt_of_lt_of_le (mul_pos (by norm_num) (lt_of_lt_of_le (by norm_num) b3)) w3.2.1
      exact_mod_cast this)
    have b4 : (1 : ℝ) / 10 ^ 60 ≤ √(X * Y) := Real.le_sqrt_of_sq_le (le_trans (by norm_num) b3)
    obtain ⟨w5, b5⟩ := fraction_within (hs.k i j).1 (hs.k i j).2
    have b6 : √(X * Y) * (1 - (p.kij i j : ℝ)) = 0 ∨ 1 / 10 ^ 77 ≤ √(X * Y) * (1 - (p.kij i j : ℝ)) := by
      rcases b5 with b5 | b5
      · left; rw [b5, mul_zero]
      · right; exact le_trans (by norm_num) (mul_ge (by norm_num) (by norm_num) b4 b5)
    have w6 := Within.round_big (q := flSqrt (fl (Fugacity64.ai sq R T P p i * Fugacity64.ai sq R T P p j)) * fl (1 - p.kij i j)) (k := 28 + 1)
      (S := √(X * Y) * (1 - p.kij i j)) (by push_cast; exact w4.mul w5) (by norm_num) (b6.imp id (le_trans (by norm_num)))
    have w7 : Within 0 ((x j : ℚ) : ℝ) (x j) := by
      refine Within.exact ?_
      rcases hs.x j with e | e
      · rw [e]; simp
      · exact le_trans (by norm_num) (ge20 e)
    refine Within.round_big (q := x j * fl (flSqrt (fl (Fugacity64.ai sq R T P p i * Fugacity64.ai sq R T P p j)) * fl (1 - p.kij i j))) (k := 0 + 30) ?_
      (by norm_num) ?_
    · push_cast
      exact w7.mul w6
    · rcases hs.x j with e | e
      · left; rw [e]; simp
      · rcases b6 with b6 | b6
        · left; rw [b6, mul_zero]
        · right; exact le_trans (by norm_num) (mul_ge (by norm_num) (by norm_num) (ge20 e) b6)
  have := sum_within (List.finRange n)
    (fun j => fl (x j * fl (flSqrt (fl (Fugacity64.ai sq R T P p i * Fugacity64.ai sq R T P p j)) * fl (1 - p.kij i j)))) _ 31
    (fun j _ => ⟨fl_idem _, key j⟩)
  rw [List.length_finRange, ← List.ofFn_eq_map (f := fun j => (x j : ℝ) * _), List.sum_ofFn] at this
  exact this

private theorem assemble {u1 u2 u3 : ℚ} {X1 X2 X3 M1 M2 M3 : ℝ} (t1 : Err (97 / 10 ^ 15) (u1 : ℝ) X1 M1) (t2 : Err (60 / 10 ^ 15) (u2 : ℝ) X2 M2)
    (t3 : Err (67 / 10 ^ 14) (u3 : ℝ) X3 M3) (m3 : 1 ≤ M3) :
    Err (1 / 10 ^ 12) ((fl (fl (u1 * u2) + u3) : ℚ) : ℝ) (X1 * X2 + X3) (M1 * M2 + M3) := by
  have m12 : 0 ≤ M1 * M2 := mul_nonneg t1.mag t2.mag
  have tp : Err (158 / 10 ^ 15) ((u1 * u2 : ℚ) : ℝ) (X1 * X2) (M1 * M2 + M3) := by
    rw [Rat.cast_mul]
    exact (t1.mul t2 (by norm_num)).mono (by norm_num) (by norm_num) (by linarith)
  have big : (1 : ℝ) / 10 ^ 140 ≤ M1 * M2 + M3 := by linarith [show (1 : ℝ) / 10 ^ 140 ≤ 1 by norm_num]
  have tr := (tp.round (by norm_num) big).mono (e' := 16 / 10 ^ 14) (by norm_num) (by norm_num) le_rfl
  have ts : Err (83 / 10 ^ 14) ((fl (u1 * u2) + u3 : ℚ) : ℝ) (X1 * X2 + X3) (M1 * M2 + M3) := by
    refine ⟨?_, ?_⟩
    · rw [Rat.cast_add, show ((fl (u1 * u2) : ℚ) : ℝ) + u3 - (X1 * X2 + X3) = (((fl (u1 * u2) : ℚ) : ℝ) - X1 * X2) + (u3 - X3) by ring]
      have c := tr.1
      have d := t3.1
      refine (abs_add_le _ _).trans ?_
      linarith
    · refine (abs_add_le _ _).trans (add_le_add ?_ t3.2)
      rw [abs_mul]
      exact mul_le_mul t1.2 t2.2 (abs_nonneg _) t1.mag
  exact (ts.round (by norm_num) big).mono (by norm_num) (by norm_num) le_rfl

/-! ## The logarithm of the fugacity coefficient -/

/-- The sizes of the parts of the logarithm, which measure its error. -/
noncomputable def phiSize (R T : ℝ) (p : PengRobinson.Par n) (x : Fin n → ℝ) (P ρ : ℝ) (i : Fin n) : ℝ :=
  let Z := P / (R * T * ρ)
  let Ai := fun i => p.ai i * p.alpha i * P / (R * T) ^ 2
  let Bi := p.bi i * P / (R * T)
  let B := PengRobinson.bmix p x * P / (R * T)
  let A := PengRobinson.amix p x * P / (R * T) ^ 2
  A / (2 * √2 * B) * (1 + |Real.log ((Z + (1 + √2) * B) / (Z + (1 - √2) * B))|) *
      (2 * (Bi / B) + 2 * (∑ j, x j * (√(Ai i * Ai j) * (1 - p.kij i j))) / A) +
    (Bi * (Z + 1) / B + (1 + |Real.log (Z - B)|))

/-- The logarithm is not larger than the sizes of its parts, and computed to one part in 10^12 of them. -/
theorem lnPhi_err {sq lg : ℚ → ℚ} (hsq : GoodSquare sq) (hl : GoodLog lg) {R T P ρ : ℚ} (h : SaneState R T P ρ) {p : Mixing64.Par n}
    {x : Fin n → ℚ} (hs : Sane p x) (hn : n ≤ 20) (ha : 1 / 10 ^ 19 ≤ PengRobinson.amix (realPar p) (fun i => (x i : ℝ)))
    (hb : 1 / 10 ^ 19 ≤ PengRobinson.bmix (realPar p) (fun i => (x i : ℝ)))
    (hd : PengRobinson.bmix (realPar p) (fun i => (x i : ℝ)) * ρ ≤ 49 / 50) (i : Fin n) :
    Err (1 / 10 ^ 12) ((Fugacity64.lnPhi sq lg R T p x P ρ i : ℚ) : ℝ) (PengRobinson.lnPhi R T (realPar p) (fun i => (x i : ℝ)) P ρ i)
      (phiSize R T (realPar p) (fun i => (x i : ℝ)) P ρ i) := by
  have nn : n * n ≤ 20 * 20 := Nat.mul_le_mul hn hn
  obtain ⟨wz, z1, z2⟩ := Z_within h
  obtain ⟨wi, i1⟩ := Bi_within h (ge20 (hs.b i))
  obtain ⟨wb, b1⟩ := B_within h (c173_covolume p x hs) (by omega) hb
  obtain ⟨wa, a1⟩ := A_within hsq h (c173_attraction p x hs) (by omega) (le_trans (by norm_num) ha)
  have ws := c176_attraction hsq h hs i
  have a2 : (1 : ℝ) / 10 ^ 39 ≤ PengRobinson.amix (realPar p) (fun i => (x i : ℝ)) * P / (R * T) ^ 2 := by
    refine le_trans ?_ a1
    rw [le_div_iff₀ (by norm_num)]
    exact le_trans (by norm_num) ha
  have hBZ : PengRobinson.bmix (realPar p) (fun i => (x i : ℝ)) * P / (R * T) ≤ 49 / 50 * ((P : ℝ) / (R * T * ρ)) := by
    have r0 : (0 : ℝ) < R * T := lt_of_lt_of_le (by norm_num) (RT_ge h)
    have ρ0 : (0 : ℝ) < ρ := lt_of_lt_of_le (by norm_num) h.hρ
    have P0 : (0 : ℝ) < P := lt_of_lt_of_le (by norm_num) h.hP
    have e : 49 / 50 * ((P : ℝ) / (R * T * ρ)) = 49 / 50 / ρ * (P / (R * T)) := by field_simp
    rw [e, mul_div_assoc]
    refine mul_le_mul_of_nonneg_right ?_ (by positivity)
    rw [le_div_iff₀ ρ0]
    exact hd
  have t1 := c176_tmp1 hl wa wb wz (by omega) (by omega) a2 b1 z1 z2 hBZ
  have b2 : PengRobinson.bmix (realPar p) (fun i => (x i : ℝ)) * P / (R * T) ≤ 10 ^ 50 :=
    hBZ.trans (le_trans (mul_le_mul_of_nonneg_left z2 (by norm_num)) (by norm_num))
  have t2 := c176_tmp2 wa wb wi ws (by omega) (by omega) (by omega) a2 b1 b2 i1
  have t3 := c176_tmp3 hl wb wi wz (by omega) b1 z1 z2 i1 hBZ
  refine assemble t1 t2 t3 ?_
  have c1 : 0 ≤ (p.bi i : ℝ) * P / (R * T) * ((P : ℝ) / (R * T * ρ) + 1) / (PengRobinson.bmix (realPar p) (fun i => (x i : ℝ)) * P / (R * T)) := by
    refine div_nonneg (mul_nonneg ?_ ?_) ?_
    · exact le_trans (by norm_num) i1
    · exact add_nonneg (le_trans (by norm_num) z1) zero_le_one
    · exact le_trans (by norm_num) b1
  have c2 := abs_nonneg (Real.log ((P : ℝ) / (R * T * ρ) - PengRobinson.bmix (realPar p) (fun i => (x i : ℝ)) * P / (R * T)))
  exact le_add_of_nonneg_of_le c1 (le_add_of_nonneg_right c2)

/-- **C176** The logarithm of the fugacity coefficient is computed to one part in 10^12 of the sizes of its parts, for up to
twenty components, up to 98 % of the density at which the covolume fills space. -/
theorem c176_lnPhi {sq lg : ℚ → ℚ} (hsq : GoodSquare sq) (hl : GoodLog lg) {R T P ρ : ℚ} (h : SaneState R T P ρ) {p : Mixing64.Par n}
    {x : Fin n → ℚ} (hs : Sane p x) (hn : n ≤ 20) (ha : 1 / 10 ^ 19 ≤ PengRobinson.amix (realPar p) (fun i => (x i : ℝ)))
    (hb : 1 / 10 ^ 19 ≤ PengRobinson.bmix (realPar p) (fun i => (x i : ℝ)))
    (hd : PengRobinson.bmix (realPar p) (fun i => (x i : ℝ)) * ρ ≤ 49 / 50) (i : Fin n) :
    |((Fugacity64.lnPhi sq lg R T p x P ρ i : ℚ) : ℝ) - PengRobinson.lnPhi R T (realPar p) (fun i => (x i : ℝ)) P ρ i| ≤
      1 / 10 ^ 12 * phiSize R T (realPar p) (fun i => (x i : ℝ)) P ρ i :=
  (lnPhi_err hsq hl h hs hn ha hb hd i).1

/-- **C176** The fugacity coefficient is computed to three parts in 10^12 of the sizes of the parts of its logarithm. -/
theorem c176_phi {sq lg ex : ℚ → ℚ} (hsq : GoodSquare sq) (hl : GoodLog lg) (he : GoodExp ex) {R T P ρ : ℚ} (h : SaneState R T P ρ)
    {p : Mixing64.Par n} {x : Fin n → ℚ} (hs : Sane p x) (hn : n ≤ 20) (ha : 1 / 10 ^ 19 ≤ PengRobinson.amix (realPar p) (fun i => (x i : ℝ)))
    (hb : 1 / 10 ^ 19 ≤ PengRobinson.bmix (realPar p) (fun i => (x i : ℝ)))
    (hd : PengRobinson.bmix (realPar p) (fun i => (x i : ℝ)) * ρ ≤ 49 / 50) (i : Fin n)
    (hM : phiSize R T (realPar p) (fun i => (x i : ℝ)) P ρ i ≤ 10 ^ 10) :
    |((Fugacity64.phi sq lg ex R T p x P ρ i : ℚ) : ℝ) - PengRobinson.phi R T (realPar p) (fun i => (x i : ℝ)) P ρ i| ≤
      3 / 10 ^ 12 * (1 + phiSize R T (realPar p) (fun i => (x i : ℝ)) P ρ i) * PengRobinson.phi R T (realPar p) (fun i => (x i : ℝ)) P ρ i +
        1 / 10 ^ 250 := by
  have d := c176_lnPhi hsq hl h hs hn ha hb hd i
  unfold Fugacity64.phi PengRobinson.phi
  have g := he (Fugacity64.lnPhi sq lg R T p x P ρ i)
  generalize Fugacity64.lnPhi sq lg R T p x P ρ i = q at *
  generalize PengRobinson.lnPhi R T (realPar p) (fun i => (x i : ℝ)) P ρ i = y at *
  generalize phiSize R T (realPar p) (fun i => (x i : ℝ)) P ρ i = M at *
  have hM0 : 0 ≤ M := by linarith [abs_nonneg ((q : ℝ) - y)]
  have small : |(q : ℝ) - y| ≤ 1 := by linarith
  have c := Real.abs_exp_sub_one_le small
  have hy := Real.exp_pos y
  have e1 : Real.exp q - Real.exp y = Real.exp y * (Real.exp (q - y) - 1) := by
    rw [mul_sub, ← Real.exp_add, add_sub_cancel, mul_one]
  have e2 : |Real.exp q - Real.exp y| ≤ 2 / 10 ^ 12 * M * Real.exp y := by
    rw [e1, abs_mul, abs_of_pos hy, mul_comm]
    exact mul_le_mul_of_nonneg_right (c.trans (by linarith)) hy.le
  have e3 : Real.exp q ≤ 2 * Real.exp y := by
    have := (abs_le.1 e2).2
    nlinarith
  have e4 := abs_add_le (((ex q : ℚ) : ℝ) - Real.exp q) (Real.exp q - Real.exp y)
  rw [sub_add_sub_cancel] at e4
  nlinarith [mul_nonneg hM0 hy.le]

/-! ## Next to the densest packing -/

/-- A substance whose covolume is a third, rounded. -/
def third : Mixing64.Par 1 where
  ai := fun _ => 1
  bi := fun _ => fl (1 / 3)
  alpha := fun _ => 1
  kij := fun _ _ => 0

/-- **C176** The limit on the density is needed: at a density below the densest packing, `Z - B` is computed as zero, though it is
positive, and the code takes the logarithm of zero. -/
theorem c176_violated_packing :
    Sane third (fun _ => 1) ∧ SaneState 1 1 1 3 ∧ PengRobinson.bmix (realPar third) (fun _ => ((1 : ℚ) : ℝ)) * ((3 : ℚ) : ℝ) < 1 ∧
      fl (Fugacity64.compressibility 1 1 1 3 - Fugacity64.b 1 1 1 third (fun _ => 1)) = 0 := by
  have hb : fl (1 / 3) = 6004799503160661 / 18014398509481984 := by decide +kernel
  refine ⟨⟨fun _ => Or.inr (by norm_num), fun _ => by simp [third]; norm_num, fun _ => by simp only [third, hb]; norm_num,
    fun _ => by simp [third]; norm_num, fun _ _ => ⟨fl_zero, by simp [third]⟩⟩, ?_, ?_, by decide +kernel⟩
  · constructor <;> norm_num
  · unfold PengRobinson.bmix realPar
    simp only [Fin.sum_univ_one, third, hb]
    norm_num

/-! ## The hypotheses can be met -/

/-- Some logarithm and some exponential are good. -/
theorem good_library : (∃ lg, GoodLog lg) ∧ ∃ ex, GoodExp ex := by
  have key : ∀ f : ℚ → ℝ, ∃ g : ℚ → ℚ, ∀ q, |((g q : ℚ) : ℝ) - f q| ≤ 1 / 10 ^ 250 := by
    intro f
    have : ∀ q, ∃ r : ℚ, |((r : ℚ) : ℝ) - f q| ≤ 1 / 10 ^ 250 := by
      intro q
      obtain ⟨r, h1, h2⟩ := exists_rat_btwn (show f q < f q + 1 / 10 ^ 250 by linarith [show (0 : ℝ) < 1 / 10 ^ 250 by positivity])
      refine ⟨r, ?_⟩
      rw [abs_of_pos (by linarith)]
      linarith
    exact ⟨fun q => (this q).choose, fun q => (this q).choose_spec⟩
  constructor
  · obtain ⟨g, hg⟩ := key (fun q => Real.log q)
    refine ⟨g, fun q _ => (hg q).trans ?_⟩
    have := abs_nonneg (Real.log q)
    linarith
  · obtain ⟨g, hg⟩ := key (fun q => Real.exp q)
    refine ⟨g, fun q => (hg q).trans ?_⟩
    have := Real.exp_pos q
    linarith

/-- The substance of a third at two densities. -/
theorem third_size {ρ : ℚ} (hρ : ρ = 1 ∨ ρ = 1 / 2) : SaneState 1 1 1 ρ ∧ 1 / 10 ^ 19 ≤ PengRobinson.amix (realPar third) (fun _ => ((1 : ℚ) : ℝ)) ∧
    1 / 10 ^ 19 ≤ PengRobinson.bmix (realPar third) (fun _ => ((1 : ℚ) : ℝ)) ∧
    PengRobinson.bmix (realPar third) (fun _ => ((1 : ℚ) : ℝ)) * (ρ : ℝ) ≤ 49 / 50 ∧
    phiSize ((1 : ℚ) : ℝ) ((1 : ℚ) : ℝ) (realPar third) (fun _ => ((1 : ℚ) : ℝ)) ((1 : ℚ) : ℝ) ρ 0 ≤ 50 := by
  have hb : fl (1 / 3) = 6004799503160661 / 18014398509481984 := by decide +kernel
  have ea : PengRobinson.amix (realPar third) (fun _ => ((1 : ℚ) : ℝ)) = 1 := by
    unfold PengRobinson.amix realPar
    simp [third]
  have eb : PengRobinson.bmix (realPar third) (fun _ => ((1 : ℚ) : ℝ)) = 6004799503160661 / 18014398509481984 := by
    unfold PengRobinson.bmix realPar
    simp only [Fin.sum_univ_one, third, hb]
    norm_num
  refine ⟨by rcases hρ with rfl | rfl <;> constructor <;> norm_num, by rw [ea]; norm_num, by rw [eb]; norm_num,
    by rw [eb]; rcases hρ with rfl | rfl <;> norm_num, ?_⟩
  obtain ⟨z, hz, z1, z2⟩ : ∃ z : ℝ, ((1 : ℚ) : ℝ) / (((1 : ℚ) : ℝ) * ((1 : ℚ) : ℝ) * (ρ : ℝ)) = z ∧ 1 ≤ z ∧ z ≤ 2 := by
    refine ⟨_, rfl, ?_, ?_⟩ <;> rcases hρ with rfl | rfl <;> norm_num
  unfold phiSize
  dsimp only
  rw [ea, eb, hz]
  obtain ⟨s1, s2⟩ := root2_bounds
  simp only [realPar, third, hb, Fin.sum_univ_one]
  push_cast
  norm_num
  have l0 : ∀ {y : ℝ}, 1 / 4 ≤ y → y ≤ 4 → |Real.log y| ≤ 3 := by
    intro y h1 h2
    have u := Real.log_le_sub_one_of_pos (show 0 < y by linarith)
    have v := Real.one_sub_inv_le_log_of_pos (show 0 < y by linarith)
    have w : y⁻¹ ≤ 4 := by
      rw [inv_le_comm₀ (by linarith) (by norm_num)]
      linarith
    rw [abs_le]
    constructor <;> linarith
  have d0 : 0 < z + (1 - √2) * (6004799503160661 / 18014398509481984 : ℝ) := by nlinarith
  have l1 := l0 (y := (z + (1 + √2) * (6004799503160661 / 18014398509481984)) / (z + (1 - √2) * (6004799503160661 / 18014398509481984)))
    (by rw [le_div_iff₀ d0]; nlinarith) (by rw [div_le_iff₀ d0]; nlinarith)
  have l2 := l0 (y := z - 6004799503160661 / 18014398509481984) (by linarith) (by linarith)
  have i1 : (√2)⁻¹ ≤ 1 := inv_le_one_of_one_le₀ (by linarith)
  have i0 : 0 ≤ (√2)⁻¹ := by positivity
  have n1 := abs_nonneg (Real.log ((z + (1 + √2) * (6004799503160661 / 18014398509481984)) / (z + (1 - √2) * (6004799503160661 / 18014398509481984))))
  have m := mul_le_mul i1 (add_le_add_right l1 1) (by linarith) zero_le_one
  generalize |Real.log ((z + (1 + √2) * (6004799503160661 / 18014398509481984)) / (z + (1 - √2) * (6004799503160661 / 18014398509481984)))| = L at *
  nlinarith only [m, l2, z1, z2]

example : Sane third (fun _ => 1) ∧ ∃ sq lg ex, GoodSquare sq ∧ GoodLog lg ∧ GoodExp ex :=
  ⟨c176_violated_packing.1, _, _, _, goodSquare_mul, good_library.1.choose_spec, good_library.2.choose_spec⟩

end Verif.Props
