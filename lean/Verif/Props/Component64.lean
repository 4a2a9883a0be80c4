import Verif.Model.Component64
import Verif.Props.Mixing64
import Verif.Props.PengRobinsonHeating

/-!
# From the critical constants to the pressure in double precision (C174)
-/

namespace Verif.Props
open Verif Verif.Binary64 Verif.Mixing64

/-- What is known about the library's square: one is its own square, and a square is off by at most two units. -/
def GoodSquare (sq : ℚ → ℚ) : Prop :=
  sq 1 = 1 ∧ ∀ q, |((sq q : ℚ) : ℝ) - (q : ℝ) ^ 2| ≤ 224 / 10 ^ 18 * (q : ℝ) ^ 2 + 1 / 10 ^ 250

/-- A rounded product is such a square. -/
theorem goodSquare_mul : GoodSquare fun q => fl (q * q) := by
  refine ⟨by decide +kernel, fun q => ?_⟩
  have h := fl_any (q * q)
  have e : ((q * q : ℚ) : ℝ) = (q : ℝ) ^ 2 := by push_cast; ring
  rw [e, abs_of_nonneg (by positivity : (0 : ℝ) ≤ (q : ℝ) ^ 2)] at h
  have : 0 ≤ (q : ℝ) ^ 2 := by positivity
  show |((fl (q * q) : ℚ) : ℝ) - (q : ℝ) ^ 2| ≤ _
  linarith

theorem square_within {k : ℕ} {sq : ℚ → ℚ} (hsq : GoodSquare sq) {q : ℚ} {S : ℝ} (h : Within k q S) (hq : 1 / 10 ^ 60 ≤ (q : ℝ)) :
    Within (k + k + 3) ((sq q : ℚ) : ℝ) (S ^ 2) := by
  have h1 := abs_le.1 (hsq.2 q)
  have h2 : (1 : ℝ) / 10 ^ 120 ≤ (q : ℝ) ^ 2 := by
    have := pow_le_pow_left₀ (by norm_num) hq 2
    exact le_trans (by norm_num) this
  have h3 : (1 : ℝ) / 10 ^ 250 ≤ 1 / 10 ^ 30 * (q : ℝ) ^ 2 := by linarith [show (1 : ℝ) / 10 ^ 250 ≤ 1 / 10 ^ 30 * (1 / 10 ^ 120) by norm_num]
  have h4 := h.mul h
  rw [← pow_two, ← pow_two] at h4
  have : Within 3 ((sq q : ℚ) : ℝ) ((q : ℝ) ^ 2) := by
    refine ⟨by positivity, ?_, ?_⟩
    · have : ((1 : ℝ) - 112 / 10 ^ 18) ^ 3 * (q : ℝ) ^ 2 ≤ (1 - 224 / 10 ^ 18 - 1 / 10 ^ 30) * (q : ℝ) ^ 2 :=
        mul_le_mul_of_nonneg_right (by norm_num) (by positivity)
      linarith
    · have : (1 + 224 / 10 ^ 18 + 1 / 10 ^ 30) * (q : ℝ) ^ 2 ≤ ((1 : ℝ) + 112 / 10 ^ 18) ^ 3 * (q : ℝ) ^ 2 :=
        mul_le_mul_of_nonneg_right (by norm_num) (by positivity)
      linarith
  exact (this.trans h4).mono (by omega)

theorem Within.quot {k l : ℕ} {s S t U : ℝ} (h : Within k s S) (g : Within l t U) (hU : 0 < U) : Within (k + 2 * l) (s / t) (S / U) := by
  have ht : 0 < t := lt_of_lt_of_le (mul_pos (pow_pos (by norm_num) _) hU) g.2.1
  have c : ∀ j : ℕ, (1 : ℝ) ≤ (1 + 112 / 10 ^ 18) ^ (2 * j) * (1 - 112 / 10 ^ 18) ^ j := fun j => by
    rw [pow_mul, ← mul_pow]
    exact one_le_pow₀ (by norm_num)
  have d : ∀ j : ℕ, ((1 : ℝ) - 112 / 10 ^ 18) ^ (2 * j) * (1 + 112 / 10 ^ 18) ^ j ≤ 1 := fun j => by
    rw [pow_mul, ← mul_pow]
    exact pow_le_one₀ (by norm_num) (by norm_num)
  have hm : ∀ j : ℕ, (0 : ℝ) ≤ (1 - 112 / 10 ^ 18) ^ j := fun j => pow_nonneg (by norm_num) _
  have hp : ∀ j : ℕ, (0 : ℝ) ≤ (1 + 112 / 10 ^ 18) ^ j := fun j => pow_nonneg (by norm_num) _
  refine ⟨div_nonneg h.1 hU.le, ?_, ?_⟩
  · rw [mul_div_assoc', div_le_div_iff₀ hU ht, pow_add]
    have h1 := mul_le_mul_of_nonneg_left g.2.2 (mul_nonneg (mul_nonneg (hm k) (hm (2 * l))) h.1)
    have h2 := mul_le_mul_of_nonneg_left (d l) (mul_nonneg (mul_nonneg (hm k) h.1) hU.le)
    have h3 := mul_le_mul_of_nonneg_right h.2.1 hU.le
    nlinarith
  · rw [mul_div_assoc', div_le_div_iff₀ ht hU, pow_add]
    have h1 := mul_le_mul_of_nonneg_left g.2.1 (mul_nonneg (mul_nonneg (hp k) (hp (2 * l))) h.1)
    have h2 := mul_le_mul_of_nonneg_left (c l) (mul_nonneg (mul_nonneg (hp k) h.1) hU.le)
    have h3 := mul_le_mul_of_nonneg_right h.2.2 hU.le
    nlinarith

theorem const_within (c : ℚ) (h : 1 / 10 ^ 20 ≤ c) : Within 1 ((fl c : ℚ) : ℝ) (c : ℝ) := by
  have h' := (Rat.cast_le (K := ℝ)).2 h
  push_cast at h'
  exact (Within.exact (le_trans (by norm_num) h')).round' (by norm_num) (Or.inr (le_trans (by norm_num) h'))

/-- Constants of a substance that are not absurd. -/
structure SaneSubstance (R Tc Pc : ℚ) : Prop where
  hR : (1 : ℝ) / 10 ^ 10 ≤ R
  hTc : (1 : ℝ) / 10 ^ 10 ≤ Tc
  hPc : (1 : ℝ) / 10 ^ 10 ≤ Pc
  top : (Pc : ℝ) ≤ 10 ^ 20

/-- **C174** (the attraction of a component): eight roundings. -/
theorem c174_ai {sq : ℚ → ℚ} (hsq : GoodSquare sq) {R Tc Pc : ℚ} (h : SaneSubstance R Tc Pc) :
    Within 8 ((Component64.ai sq R Tc Pc : ℚ) : ℝ) ((PengRobinson.realFormulas R).ai Tc Pc) := by
  have hR0 : (0 : ℝ) < R := lt_of_lt_of_le (by norm_num) h.hR
  have hT0 : (0 : ℝ) < Tc := lt_of_lt_of_le (by norm_num) h.hTc
  have hP0 : (0 : ℝ) < Pc := lt_of_lt_of_le (by norm_num) h.hPc
  have hRT : (1 : ℝ) / 10 ^ 20 ≤ R * Tc := by
    have := mul_le_mul h.hR h.hTc (by norm_num) hR0.le
    exact le_trans (by norm_num) this
  have w1 := Within.round' (q := R * Tc) (by push_cast; exact (Within.exact hR0.le).mul (Within.exact hT0.le)) (by norm_num)
    (Or.inr (le_trans (by norm_num) hRT))
  have hq : (1 : ℝ) / 10 ^ 60 ≤ (fl (R * Tc) : ℚ) := by
    refine le_trans ?_ w1.2.1
    refine le_trans ?_ (mul_le_mul_of_nonneg_left hRT (pow_nonneg (by norm_num) _))
    norm_num
  have w2 := square_within hsq w1 hq
  have hS : (1 : ℝ) / 10 ^ 40 ≤ ((R : ℝ) * Tc) ^ 2 := by
    have := pow_le_pow_left₀ (by norm_num) hRT 2
    exact le_trans (by norm_num) this
  have w3 := (const_within 0.45723553 (by norm_num)).mul w2
  have w4 := Within.round' (q := fl 0.45723553 * sq (fl (R * Tc))) (by push_cast; push_cast at w3; exact w3) (by norm_num)
    (Or.inr (by nlinarith [show (1 : ℝ) / 10 ^ 140 ≤ 0.4 * (1 / 10 ^ 40) by norm_num]))
  have w5 := w4.quot (Within.exact hP0.le) hP0
  have w6 := Within.round' (q := fl (fl 0.45723553 * sq (fl (R * Tc))) / Pc) (by push_cast; push_cast at w5; exact w5) (by norm_num)
    (Or.inr (by
      rw [le_div_iff₀ hP0]
      nlinarith [h.top, show (1 : ℝ) / 10 ^ 140 * 10 ^ 20 ≤ 0.4 * (1 / 10 ^ 40) by norm_num]))
  have e : (0.45723553 : ℝ) * ((R : ℝ) * Tc) ^ 2 / Pc = (PengRobinson.realFormulas R).ai Tc Pc := rfl
  rw [e] at w6
  exact w6

/-- **C174** (the covolume of a component): four roundings. -/
theorem c174_bi {R Tc Pc : ℚ} (h : SaneSubstance R Tc Pc) :
    Within 4 ((Component64.bi R Tc Pc : ℚ) : ℝ) ((PengRobinson.realFormulas R).bi Tc Pc) := by
  have hR0 : (0 : ℝ) < R := lt_of_lt_of_le (by norm_num) h.hR
  have hT0 : (0 : ℝ) < Tc := lt_of_lt_of_le (by norm_num) h.hTc
  have hP0 : (0 : ℝ) < Pc := lt_of_lt_of_le (by norm_num) h.hPc
  have hRT : (1 : ℝ) / 10 ^ 20 ≤ R * Tc := by
    have := mul_le_mul h.hR h.hTc (by norm_num) hR0.le
    exact le_trans (by norm_num) this
  have hq : (1 : ℝ) / 10 ^ 40 ≤ R * Tc / Pc := by
    rw [le_div_iff₀ hP0]
    nlinarith [h.top, show (1 : ℝ) / 10 ^ 40 * 10 ^ 20 ≤ 1 / 10 ^ 20 by norm_num]
  have w1 := Within.round' (q := R * Tc) (by push_cast; exact (Within.exact hR0.le).mul (Within.exact hT0.le)) (by norm_num)
    (Or.inr (le_trans (by norm_num) hRT))
  have w2 := w1.quot (Within.exact hP0.le) hP0
  have w3 := Within.round' (q := fl (R * Tc) / Pc) (by push_cast; exact w2) (by norm_num) (Or.inr (le_trans (by norm_num) hq))
  have w4 := (const_within 0.07779607 (by norm_num)).mul w3
  have w5 := Within.round' (q := fl 0.07779607 * fl (fl (R * Tc) / Pc)) (by push_cast; push_cast at w4; exact w4) (by norm_num)
    (Or.inr (by nlinarith [show (1 : ℝ) / 10 ^ 140 ≤ 0.07 * (1 / 10 ^ 40) by norm_num]))
  have e : (0.07779607 : ℝ) * ((R : ℝ) * Tc / Pc) = (PengRobinson.realFormulas R).bi Tc Pc := rfl
  rw [e] at w5
  exact w5

/-! ## The temperature -/

/-- **C174** (`kappa`): for acentric factors up to one in size, the error is below `2e-15`. -/
theorem c174_kappa {sq : ℚ → ℚ} (hsq : GoodSquare sq) {ω : ℚ} (hω : |(ω : ℝ)| ≤ 1) :
    |((Component64.kappa sq ω : ℚ) : ℝ) - (PengRobinson.realFormulas 1).kappa ω| ≤ 2 / 10 ^ 15 := by
  have tiny0 : (1 : ℝ) / 10 ^ 250 ≤ 1 / 10 ^ 30 := by norm_num
  have c1 := fl_any 0.37464
  have c2 := fl_any 1.54226
  have c3 := fl_any 0.26992
  push_cast at c1 c2 c3
  rw [abs_of_pos (show (0 : ℝ) < 0.37464 by norm_num)] at c1
  rw [abs_of_pos (show (0 : ℝ) < 1.54226 by norm_num)] at c2
  rw [abs_of_pos (show (0 : ℝ) < 0.26992 by norm_num)] at c3
  obtain ⟨o1, o2⟩ := abs_le.1 hω
  have hω2 : (ω : ℝ) ^ 2 ≤ 1 := by nlinarith
  have hω0 : 0 ≤ (ω : ℝ) ^ 2 := by positivity
  have q := hsq.2 ω
  unfold Component64.kappa
  show |_ - (0.37464 + 1.54226 * (ω : ℝ) - 0.26992 * (ω : ℝ) ^ 2)| ≤ _
  set a := fl 0.37464
  set b := fl 1.54226
  set c := fl 0.26992
  obtain ⟨a1, a2⟩ := abs_le.1 c1
  obtain ⟨b1, b2⟩ := abs_le.1 c2
  obtain ⟨d1, d2⟩ := abs_le.1 c3
  obtain ⟨q1, q2⟩ := abs_le.1 q
  -- the product with the acentric factor
  have e1 : |(b : ℝ) * ω - 1.54226 * ω| ≤ 174 / 10 ^ 18 := by
    rw [← sub_mul, abs_mul]
    refine (mul_le_mul (c2.trans (add_le_add_right tiny0 _)) hω (abs_nonneg _) (by positivity)).trans ?_
    norm_num
  obtain ⟨e2, e3⟩ := abs_le.1 e1
  have m := fl_any (b * ω)
  push_cast at m
  have mb : |(b : ℝ) * ω| ≤ 1.543 := by rw [abs_le]; constructor <;> linarith only [e2, e3, o1, o2]
  obtain ⟨m1, m2⟩ := abs_le.1 (m.trans (add_le_add (mul_le_mul_of_nonneg_left mb (by norm_num)) tiny0))
  -- the sum
  have s := fl_any (a + fl (b * ω))
  push_cast at s
  have sb : |(a : ℝ) + (fl (b * ω) : ℚ)| ≤ 1.92 := by rw [abs_le]; constructor <;> linarith only [e2, e3, o1, o2, m1, m2, a1, a2, tiny0]
  obtain ⟨s1, s2⟩ := abs_le.1 (s.trans (add_le_add (mul_le_mul_of_nonneg_left sb (by norm_num)) tiny0))
  -- the square
  have qb : |((sq ω : ℚ) : ℝ)| ≤ 1 + 3 / 10 ^ 16 := by rw [abs_le]; constructor <;> linarith only [q1, q2, hω0, hω2, tiny0]
  have r : |(c : ℝ) * (sq ω : ℚ) - 0.26992 * (ω : ℝ) ^ 2| ≤ 92 / 10 ^ 18 := by
    have e : (c : ℝ) * (sq ω : ℚ) - 0.26992 * (ω : ℝ) ^ 2 = (c - 0.26992) * (sq ω : ℚ) + 0.26992 * ((sq ω : ℚ) - (ω : ℝ) ^ 2) := by ring
    rw [e]
    refine (abs_add_le _ _).trans ?_
    rw [abs_mul, abs_mul, abs_of_pos (show (0 : ℝ) < 0.26992 by norm_num)]
    have t1 := mul_le_mul (c3.trans (add_le_add_right tiny0 _)) qb (abs_nonneg _) (by positivity)
    have t2 := mul_le_mul_of_nonneg_left (q.trans (add_le_add (mul_le_mul_of_nonneg_left hω2 (by norm_num)) tiny0)) (show (0 : ℝ) ≤ 0.26992 by norm_num)
    refine (add_le_add t1 t2).trans ?_
    norm_num
  obtain ⟨r1, r2⟩ := abs_le.1 r
  have u := fl_any (c * sq ω)
  push_cast at u
  have ub : |(c : ℝ) * (sq ω : ℚ)| ≤ 0.27 := by rw [abs_le]; constructor <;> linarith only [r1, r2, hω0, hω2]
  obtain ⟨u1, u2⟩ := abs_le.1 (u.trans (add_le_add (mul_le_mul_of_nonneg_left ub (by norm_num)) tiny0))
  -- the difference
  have v := fl_any (fl (a + fl (b * ω)) - fl (c * sq ω))
  push_cast at v
  have vb : |((fl (a + fl (b * ω)) : ℚ) : ℝ) - (fl (c * sq ω) : ℚ)| ≤ 2.2 := by
    rw [abs_le]
    constructor <;> linarith only [e2, e3, o1, o2, m1, m2, a1, a2, s1, s2, r1, r2, u1, u2, hω0, hω2, tiny0]
  obtain ⟨v1, v2⟩ := abs_le.1 (v.trans (add_le_add (mul_le_mul_of_nonneg_left vb (by norm_num)) tiny0))
  rw [abs_le]
  constructor <;> linarith only [e2, e3, m1, m2, a1, a2, s1, s2, r1, r2, u1, u2, v1, v2, tiny0]

/-- **C174** (`alpha`): where `1 + kappa (1 - sqrt (T / Tc))` is at least one half, the relative error is below `9e-15`. -/
theorem c174_alpha {sq : ℚ → ℚ} (hsq : GoodSquare sq) {κ T Tc : ℚ} (hκ : (0 : ℝ) ≤ κ) (hκ' : (κ : ℝ) ≤ 3) (hT : (1 : ℝ) / 10 ^ 10 ≤ T)
    (hTc : (1 : ℝ) / 10 ^ 10 ≤ Tc) (hTc' : (Tc : ℝ) ≤ 10 ^ 20) (hy : 1 / 2 ≤ 1 + (κ : ℝ) * (1 - √((T : ℝ) / Tc))) :
    |((Component64.alpha sq κ T Tc : ℚ) : ℝ) - (PengRobinson.realFormulas 1).alpha κ T Tc| ≤
      9 / 10 ^ 15 * (PengRobinson.realFormulas 1).alpha κ T Tc := by
  have tiny0 : (1 : ℝ) / 10 ^ 250 ≤ 1 / 10 ^ 30 := by norm_num
  have hT0 : (0 : ℝ) < T := lt_of_lt_of_le (by norm_num) hT
  have hTc0 : (0 : ℝ) < Tc := lt_of_lt_of_le (by norm_num) hTc
  have hq : (1 : ℝ) / 10 ^ 30 ≤ T / Tc := by
    rw [le_div_iff₀ hTc0]
    linarith [show (1 : ℝ) / 10 ^ 30 * 10 ^ 20 = 1 / 10 ^ 10 by norm_num]
  have w1 := Within.round' (q := T / Tc) (by push_cast; exact (Within.exact hT0.le).quot (Within.exact hTc0.le) hTc0) (by norm_num)
    (Or.inr (le_trans (by norm_num) hq))
  have p1 : 0 < fl (T / Tc) := by
    have : (0 : ℝ) < (fl (T / Tc) : ℚ) :=
      lt_of_lt_of_le (mul_pos (pow_pos (by norm_num) _) (lt_of_lt_of_le (by norm_num) hq)) w1.2.1
    exact_mod_cast this
  have w2 := (sqrt_within w1 p1).relative (by norm_num)
  unfold Component64.alpha
  show |_ - (1 + (κ : ℝ) * (1 - √((T : ℝ) / Tc))) ^ 2| ≤ 9 / 10 ^ 15 * (1 + (κ : ℝ) * (1 - √((T : ℝ) / Tc))) ^ 2
  set s := √((T : ℝ) / Tc)
  set s' := flSqrt (fl (T / Tc))
  have hs0 : 0 ≤ s := Real.sqrt_nonneg _
  push_cast at w2
  have hKs : (κ : ℝ) * s ≤ κ + 1 / 2 := by linarith
  have hKs0 : 0 ≤ (κ : ℝ) * s := mul_nonneg hκ hs0
  -- the root, times kappa
  have f1 : |(κ : ℝ) * s' - κ * s| ≤ 868 / 10 ^ 18 := by
    rw [← mul_sub, abs_mul, abs_of_nonneg hκ]
    have := mul_le_mul_of_nonneg_left w2 hκ
    linarith
  obtain ⟨f2, f3⟩ := abs_le.1 f1
  -- one minus the root, times kappa
  have g := fl_any (1 - s')
  push_cast at g
  have g1 : |(κ : ℝ) * (fl (1 - s') : ℚ) - κ * (1 - s')| ≤ 337 / 10 ^ 18 := by
    rw [← mul_sub, abs_mul, abs_of_nonneg hκ]
    have h1 := mul_le_mul_of_nonneg_left g hκ
    have h2 : (κ : ℝ) * |1 - (s' : ℝ)| ≤ 3 + 1 / 10 ^ 15 := by
      have : (κ : ℝ) * |1 - (s' : ℝ)| = |κ * (1 - (s' : ℝ))| := by rw [abs_mul, abs_of_nonneg hκ]
      rw [this, abs_le]
      constructor <;> linarith only [f2, f3, hKs, hKs0, hκ, hκ']
    have h3 : (κ : ℝ) * (1 / 10 ^ 250) ≤ 3 * (1 / 10 ^ 30) := mul_le_mul hκ' tiny0 (by norm_num) (by norm_num)
    linarith
  obtain ⟨g2, g3⟩ := abs_le.1 g1
  have m := fl_any (κ * fl (1 - s'))
  push_cast at m
  have mb : |(κ : ℝ) * (fl (1 - s') : ℚ)| ≤ 3 + 1 / 10 ^ 14 := by rw [abs_le]; constructor <;> nlinarith
  obtain ⟨m1, m2⟩ := abs_le.1 (m.trans (add_le_add (mul_le_mul_of_nonneg_left mb (by norm_num)) tiny0))
  have v := fl_any (1 + fl (κ * fl (1 - s')))
  push_cast at v
  have vb : |(1 : ℝ) + (fl (κ * fl (1 - s')) : ℚ)| ≤ 4 + 1 / 10 ^ 13 := by rw [abs_le]; constructor <;> nlinarith
  obtain ⟨v1, v2⟩ := abs_le.1 (v.trans (add_le_add (mul_le_mul_of_nonneg_left vb (by norm_num)) tiny0))
  set y := 1 + (κ : ℝ) * (1 - s) with hydef
  set y' := fl (1 + fl (κ * fl (1 - s')))
  have k : |(y' : ℝ) - y| ≤ 2 / 10 ^ 15 := by rw [abs_le]; constructor <;> linarith
  have k' : |(y' : ℝ) - y| ≤ 4 / 10 ^ 15 * y := by linarith
  have hy0 : 0 < y := by linarith
  have kk := prod_rel hy0 hy0 k' k'
  rw [← pow_two, ← pow_two] at kk
  have h := hsq.2 y'
  obtain ⟨z1, z2⟩ := abs_le.1 kk
  have hyy : (1 : ℝ) / 4 ≤ y ^ 2 := by nlinarith
  obtain ⟨h1, h2⟩ := abs_le.1 h
  rw [abs_le]
  constructor <;> linarith

private theorem flSqrt_one : flSqrt 1 = 1 := by decide +kernel

/-- **C174** (the critical temperature): there `alpha` is exactly one. -/
theorem c174_critical {sq : ℚ → ℚ} (hsq : GoodSquare sq) (κ Tc : ℚ) (hTc : Tc ≠ 0) : Component64.alpha sq κ Tc Tc = 1 := by
  unfold Component64.alpha
  rw [div_self hTc, fl_one, flSqrt_one, sub_self, fl_zero, mul_zero, fl_zero, add_zero, fl_one, hsq.1]

/-! ## Heating -/

/-- The rounded square root is the square root in its last place, and never more than half of it away. -/
private theorem sqrt_form {q : ℚ} (hq : 0 < q) : ∃ k : ℤ, flSqrt q = k * 2 ^ (Int.log 2 q / 2 - 52) ∧
    |(k : ℝ) - √((q / 4 ^ (Int.log 2 q / 2 - 52) : ℚ) : ℝ)| ≤ 1 / 2 := by
  unfold flSqrt
  rw [if_neg (not_le.2 hq)]
  dsimp only
  set s := q / 4 ^ (Int.log 2 q / 2 - 52) with hs
  have hs0 : 0 < s := div_pos hq (by positivity)
  set n := Nat.sqrt ⌊s⌋₊
  have hn1 : (n : ℝ) ≤ √(s : ℝ) := by
    refine Real.le_sqrt_of_sq_le ?_
    have h3 : ((n * n : ℕ) : ℚ) ≤ s := le_trans (by exact_mod_cast Nat.sqrt_le _) (Nat.floor_le hs0.le)
    have := (Rat.cast_le (K := ℝ)).2 h3
    push_cast at this
    nlinarith
  have hn2 : √(s : ℝ) < n + 1 := by
    refine (Real.sqrt_lt' (by positivity)).2 ?_
    have h2 : s < ((n + 1) * (n + 1) : ℕ) := (Nat.floor_lt hs0.le).1 (Nat.lt_succ_sqrt _)
    have := (Rat.cast_lt (K := ℝ)).2 h2
    push_cast at this
    nlinarith
  have e : ((n : ℝ) + 1 / 2) ^ 2 = n ^ 2 + n + 1 / 4 := by ring
  by_cases hc : s ≤ (n : ℚ) ^ 2 + n + 1 / 4
  · refine ⟨n, by rw [if_pos hc]; push_cast; rfl, ?_⟩
    have hc' := (Rat.cast_le (K := ℝ)).2 hc
    push_cast at hc'
    have : √(s : ℝ) ≤ n + 1 / 2 := Real.sqrt_le_iff.2 ⟨by positivity, by rw [e]; exact hc'⟩
    rw [abs_le]
    push_cast
    constructor <;> linarith
  · refine ⟨n + 1, by rw [if_neg hc]; push_cast; rfl, ?_⟩
    have hc' := (Rat.cast_lt (K := ℝ)).2 (not_le.1 hc)
    push_cast at hc'
    have : (n : ℝ) + 1 / 2 ≤ √(s : ℝ) := Real.le_sqrt_of_sq_le (by rw [e]; exact hc'.le)
    rw [abs_le]
    push_cast
    constructor <;> linarith

private theorem scaled {q : ℚ} (hq : 0 < q) : (2 : ℝ) ^ 52 ≤ √((q / 4 ^ (Int.log 2 q / 2 - 52) : ℚ) : ℝ) ∧
    √((q / 4 ^ (Int.log 2 q / 2 - 52) : ℚ) : ℝ) < 2 ^ 53 := by
  set h := Int.log 2 q / 2 with hh
  have hpos : (0 : ℚ) < 4 ^ (h - 52) := by positivity
  have h1 : (2 : ℚ) ^ (2 * h) ≤ q :=
    le_trans (zpow_le_zpow_right₀ (by norm_num) (show 2 * h ≤ Int.log 2 q by omega))
      (by exact_mod_cast Int.zpow_log_le_self (b := 2) (by norm_num) hq)
  have h2 : q < (2 : ℚ) ^ (2 * h + 2) :=
    lt_of_lt_of_le (by exact_mod_cast Int.lt_zpow_succ_log_self (b := 2) (by norm_num) q)
      (zpow_le_zpow_right₀ (by norm_num) (show Int.log 2 q + 1 ≤ 2 * h + 2 by omega))
  have e4 : (4 : ℚ) ^ (h - 52) = 2 ^ (2 * h) / 2 ^ (104 : ℤ) := by
    rw [← zpow_sub₀ (by norm_num), show (4 : ℚ) = 2 ^ (2 : ℤ) by norm_num, ← zpow_mul]
    congr 1
    ring
  have hp : (0 : ℚ) < 2 ^ (2 * h) := by positivity
  have s1 : (2 : ℚ) ^ 104 ≤ q / 4 ^ (h - 52) := by
    rw [le_div_iff₀ hpos, e4, ← zpow_natCast, Nat.cast_ofNat, mul_div_cancel₀ _ (by positivity)]
    exact h1
  have s2 : q / 4 ^ (h - 52) < (2 : ℚ) ^ 106 := by
    rw [div_lt_iff₀ hpos, e4]
    refine lt_of_lt_of_eq h2 ?_
    rw [zpow_add₀ (by norm_num)]
    norm_num
    ring
  have s1' := (Rat.cast_le (K := ℝ)).2 s1
  have s2' := (Rat.cast_lt (K := ℝ)).2 s2
  rw [show (((2 : ℚ) ^ 104 : ℚ) : ℝ) = (2 ^ 52) ^ 2 by push_cast; norm_num] at s1'
  rw [show (((2 : ℚ) ^ 106 : ℚ) : ℝ) = (2 ^ 53) ^ 2 by push_cast; norm_num] at s2'
  exact ⟨Real.le_sqrt_of_sq_le s1', (Real.sqrt_lt' (by positivity)).2 s2'⟩

/-- **C174** (the square root): it does not decrease. -/
theorem c174_sqrt_mono {a b : ℚ} (h : a ≤ b) : flSqrt a ≤ flSqrt b := by
  have nonneg : ∀ q, 0 ≤ flSqrt q := fun q => by
    unfold flSqrt
    split_ifs
    · exact le_rfl
    · positivity
  rcases le_or_gt a 0 with ha | ha
  · have : flSqrt a = 0 := by unfold flSqrt; rw [if_pos ha]
    rw [this]
    exact nonneg b
  have hb : 0 < b := ha.trans_le h
  obtain ⟨k, ek, hk⟩ := sqrt_form ha
  obtain ⟨l, el, hl⟩ := sqrt_form hb
  obtain ⟨a1, a2⟩ := scaled ha
  obtain ⟨b1, b2⟩ := scaled hb
  have hlog : Int.log 2 a ≤ Int.log 2 b := Int.log_mono_right ha h
  rcases (Int.ediv_le_ediv (by norm_num : (0 : ℤ) < 2) hlog).eq_or_lt with he | he
  · -- the same last place
    rcases h.eq_or_lt with rfl | hlt
    · exact le_rfl
    rw [ek, el, he]
    rw [he] at hk a1 a2
    refine mul_le_mul_of_nonneg_right ?_ (by positivity)
    have hs : √((a / 4 ^ (Int.log 2 b / 2 - 52) : ℚ) : ℝ) < √((b / 4 ^ (Int.log 2 b / 2 - 52) : ℚ) : ℝ) := by
      refine Real.sqrt_lt_sqrt (by exact_mod_cast (div_pos ha (by positivity)).le) ?_
      exact_mod_cast div_lt_div_of_pos_right hlt (by positivity)
    have : (k : ℝ) < l + 1 := by
      have := (abs_le.1 hk).2
      have := (abs_le.1 hl).1
      linarith
    have : k < l + 1 := by exact_mod_cast this
    exact_mod_cast Int.lt_add_one_iff.1 this
  · have hk1 : k ≤ 2 ^ 53 := by
      have : (k : ℝ) < 2 ^ 53 + 1 := by have := (abs_le.1 hk).2; linarith
      have : k < 2 ^ 53 + 1 := by exact_mod_cast this
      omega
    have hl1 : 2 ^ 52 ≤ l := by
      have : (2 : ℝ) ^ 52 - 1 < l := by have := (abs_le.1 hl).1; linarith
      have : (2 : ℤ) ^ 52 - 1 < l := by exact_mod_cast this
      omega
    rw [ek, el]
    have hk2 : (k : ℚ) ≤ 2 ^ 53 := by exact_mod_cast hk1
    have hl2 : (2 : ℚ) ^ 52 ≤ l := by exact_mod_cast hl1
    calc (k : ℚ) * 2 ^ (Int.log 2 a / 2 - 52) ≤ 2 ^ 53 * 2 ^ (Int.log 2 a / 2 - 52) := mul_le_mul_of_nonneg_right hk2 (by positivity)
      _ = 2 ^ 52 * 2 ^ (Int.log 2 a / 2 - 52 + 1) := by rw [zpow_add₀ (by norm_num)]; ring
      _ ≤ 2 ^ 52 * 2 ^ (Int.log 2 b / 2 - 52) := mul_le_mul_of_nonneg_left (zpow_le_zpow_right₀ (by norm_num) (by omega)) (by positivity)
      _ ≤ l * 2 ^ (Int.log 2 b / 2 - 52) := mul_le_mul_of_nonneg_right hl2 (by positivity)

/-- **C174** (heating): the computed `alpha` does not rise with the temperature while the number that is squared is not negative. -/
theorem c174_heating {sq : ℚ → ℚ} (hsq : ∀ a b, 0 ≤ a → a ≤ b → sq a ≤ sq b) {κ T₁ T₂ Tc : ℚ} (hκ : 0 ≤ κ) (hTc : 0 < Tc) (h : T₁ ≤ T₂)
    (hy : 0 ≤ fl (1 + fl (κ * fl (1 - flSqrt (fl (T₂ / Tc)))))) : Component64.alpha sq κ T₂ Tc ≤ Component64.alpha sq κ T₁ Tc := by
  refine hsq _ _ hy (fl_mono (add_le_add_right (fl_mono (mul_le_mul_of_nonneg_left (fl_mono ?_) hκ)) 1))
  have := c174_sqrt_mono (fl_mono (div_le_div_of_nonneg_right h hTc.le))
  linarith

/-- **C174** (no bound where `alpha` vanishes): just above four critical temperatures a substance with `kappa = 1` has a positive
`alpha`, and the computed one is zero. -/
theorem c174_violated_zero : ∃ κ T Tc : ℚ, fl κ = κ ∧ fl T = T ∧ fl Tc = Tc ∧
    Component64.alpha (fun q => fl (q * q)) κ T Tc = 0 ∧ 0 < (PengRobinson.realFormulas 1).alpha κ T Tc := by
  refine ⟨1, 4 + 1 / 2 ^ 50, 1, fl_one, by decide +kernel, fl_one, by decide +kernel, ?_⟩
  show 0 < (1 + ((1 : ℚ) : ℝ) * (1 - √(((4 + 1 / 2 ^ 50 : ℚ) : ℝ) / ((1 : ℚ) : ℝ)))) ^ 2
  push_cast
  have : (2 : ℝ) < √((4 + 1 / 2 ^ 50) / 1) := Real.lt_sqrt_of_sq_lt (by norm_num)
  exact sq_pos_of_neg (by linarith)

/-! ## The pressure -/

variable {n : ℕ}

/-- When every `a alpha` changes by a relative `e`, so does the attraction of the mixture. -/
private theorem amix_change {p q : PengRobinson.Par n} {x : Fin n → ℝ} {e : ℝ} (he : 0 ≤ e) (he1 : e ≤ 1) (hx : ∀ i, 0 ≤ x i)
    (hk : ∀ i j, p.kij i j ≤ 1) (hkk : q.kij = p.kij) (hp : ∀ i, 0 ≤ p.ai i * p.alpha i)
    (h : ∀ i, |q.ai i * q.alpha i - p.ai i * p.alpha i| ≤ e * (p.ai i * p.alpha i)) :
    |PengRobinson.amix q x - PengRobinson.amix p x| ≤ e * PengRobinson.amix p x := by
  have key : ∀ i j, |√(q.ai i * q.alpha i * q.ai j * q.alpha j) - √(p.ai i * p.alpha i * p.ai j * p.alpha j)| ≤
      e * √(p.ai i * p.alpha i * p.ai j * p.alpha j) := fun i j => by
    rw [show q.ai i * q.alpha i * q.ai j * q.alpha j = q.ai i * q.alpha i * (q.ai j * q.alpha j) by ring,
      show p.ai i * p.alpha i * p.ai j * p.alpha j = p.ai i * p.alpha i * (p.ai j * p.alpha j) by ring]
    obtain ⟨i1, i2⟩ := abs_le.1 (h i)
    obtain ⟨j1, j2⟩ := abs_le.1 (h j)
    have pi := hp i
    have pj := hp j
    set A := p.ai i * p.alpha i
    set B := p.ai j * p.alpha j
    set A' := q.ai i * q.alpha i
    set B' := q.ai j * q.alpha j
    have AB : 0 ≤ A * B := mul_nonneg pi pj
    have lo : (1 - e) ^ 2 * (A * B) ≤ A' * B' := by
      have := mul_le_mul (show (1 - e) * A ≤ A' by linarith) (show (1 - e) * B ≤ B' by linarith) (mul_nonneg (by linarith) pj)
        (le_trans (mul_nonneg (by linarith) pi) (show (1 - e) * A ≤ A' by linarith))
      linarith [show (1 - e) * A * ((1 - e) * B) = (1 - e) ^ 2 * (A * B) by ring]
    have hi : A' * B' ≤ (1 + e) ^ 2 * (A * B) := by
      have := mul_le_mul (show A' ≤ (1 + e) * A by linarith) (show B' ≤ (1 + e) * B by linarith)
        (le_trans (mul_nonneg (by linarith) pj) (show (1 - e) * B ≤ B' by linarith)) (mul_nonneg (by linarith) pi)
      linarith [show (1 + e) * A * ((1 + e) * B) = (1 + e) ^ 2 * (A * B) by ring]
    have lo' := Real.sqrt_le_sqrt lo
    have hi' := Real.sqrt_le_sqrt hi
    rw [Real.sqrt_mul (sq_nonneg _), Real.sqrt_sq (by linarith)] at lo'
    rw [Real.sqrt_mul (sq_nonneg (1 + e)), Real.sqrt_sq (by linarith)] at hi'
    rw [abs_le]
    constructor <;> linarith
  unfold PengRobinson.amix
  rw [← Finset.sum_sub_distrib, Finset.mul_sum]
  refine (Finset.abs_sum_le_sum_abs _ _).trans (Finset.sum_le_sum fun i _ => ?_)
  rw [← Finset.sum_sub_distrib, Finset.mul_sum]
  refine (Finset.abs_sum_le_sum_abs _ _).trans (Finset.sum_le_sum fun j _ => ?_)
  rw [hkk, ← sub_mul, ← mul_sub, abs_mul, abs_mul, abs_of_nonneg (mul_nonneg (hx i) (hx j)), abs_of_nonneg (show 0 ≤ 1 - p.kij i j by linarith [hk i j])]
  have := mul_le_mul_of_nonneg_right (mul_le_mul_of_nonneg_left (key i j) (mul_nonneg (hx i) (hx j))) (show 0 ≤ 1 - p.kij i j by linarith [hk i j])
  linarith

private theorem bmix_change {p q : PengRobinson.Par n} {x : Fin n → ℝ} {e : ℝ} (hx : ∀ i, 0 ≤ x i)
    (h : ∀ i, |q.bi i - p.bi i| ≤ e * p.bi i) : |PengRobinson.bmix q x - PengRobinson.bmix p x| ≤ e * PengRobinson.bmix p x := by
  unfold PengRobinson.bmix
  rw [← Finset.sum_sub_distrib, Finset.mul_sum]
  refine (Finset.abs_sum_le_sum_abs _ _).trans (Finset.sum_le_sum fun i _ => ?_)
  rw [← mul_sub, abs_mul, abs_of_nonneg (hx i)]
  have := mul_le_mul_of_nonneg_left (h i) (hx i)
  linarith

/-- A mixture whose constants and temperature are within the range of the bounds. -/
structure SaneMixture (R : ℚ) (κ Tc Pc : Fin n → ℚ) (T : ℚ) : Prop where
  substance : ∀ i, SaneSubstance R (Tc i) (Pc i)
  top : ∀ i, (Tc i : ℝ) ≤ 10 ^ 20
  temperature : (1 : ℝ) / 10 ^ 10 ≤ T
  kappa : ∀ i, (0 : ℝ) ≤ κ i ∧ (κ i : ℝ) ≤ 3
  y : ∀ i, 1 / 2 ≤ 1 + (κ i : ℝ) * (1 - √((T : ℝ) / Tc i))

/-- **C174** (the parameters of the mixture): from the constants of the components. -/
theorem c174_mixture {sq : ℚ → ℚ} (hsq : GoodSquare sq) {R T : ℚ} {κ Tc Pc : Fin n → ℚ} {k : Fin n → Fin n → ℚ} {x : Fin n → ℚ}
    (hm : SaneMixture R κ Tc Pc T) (h : Sane (Component64.par sq R κ Tc Pc k T) x) (hn : n ≤ 20) :
    let p := mixtureOf (R : ℝ) (fun i => (κ i : ℝ)) (fun i => (Tc i : ℝ)) (fun i => (Pc i : ℝ)) (fun i j => (k i j : ℝ)) T
    |((Mixing64.amix (Component64.par sq R κ Tc Pc k T) x : ℚ) : ℝ) - PengRobinson.amix p (fun i => (x i : ℝ))| ≤
      62 / 10 ^ 15 * PengRobinson.amix p (fun i => (x i : ℝ)) ∧
    |((Mixing64.bmix (Component64.par sq R κ Tc Pc k T) x : ℚ) : ℝ) - PengRobinson.bmix p (fun i => (x i : ℝ))| ≤
      34 / 10 ^ 16 * PengRobinson.bmix p (fun i => (x i : ℝ)) := by
  intro p
  obtain ⟨h1, h2⟩ := c173_relative _ x h (by omega)
  have hn' : (n : ℝ) ≤ 20 := by exact_mod_cast hn
  have hn0 : (0 : ℝ) ≤ n := by positivity
  have hx : ∀ i, (0 : ℝ) ≤ x i := fun i => by
    rcases h.x i with e | e
    · rw [e]; simp
    · exact_mod_cast le_trans (by norm_num) e
  have hk : ∀ i j, p.kij i j ≤ 1 := fun i j => by
    have := (h.k i j).2
    show ((k i j : ℚ) : ℝ) ≤ 1
    exact_mod_cast this
  have wa := fun i => c174_ai hsq (hm.substance i)
  have wb := fun i => c174_bi (hm.substance i)
  have ha0 : ∀ i, 0 ≤ p.ai i := fun i => (wa i).1
  have hb0 : ∀ i, 0 ≤ p.bi i := fun i => (wb i).1
  have hα0 : ∀ i, 0 ≤ p.alpha i := fun i => sq_nonneg _
  have ra := fun i => (wa i).relative (by norm_num)
  have rb := fun i => (wb i).relative (by norm_num)
  have rα : ∀ i, |((Component64.alpha sq (κ i) T (Tc i) : ℚ) : ℝ) - p.alpha i| ≤ 9 / 10 ^ 15 * p.alpha i := fun i =>
    c174_alpha hsq (hm.kappa i).1 (hm.kappa i).2 hm.temperature (hm.substance i).hTc (hm.top i) (hm.y i)
  have c1 := amix_change (p := p) (q := realPar (Component64.par sq R κ Tc Pc k T)) (x := fun i => (x i : ℝ)) (e := 1 / 10 ^ 14)
    (by norm_num) (by norm_num) hx hk rfl (fun i => mul_nonneg (ha0 i) (hα0 i)) (fun i => by
      have A := ra i
      have B := rα i
      have pa := ha0 i
      have pα := hα0 i
      show |((Component64.ai sq R (Tc i) (Pc i) : ℚ) : ℝ) * (Component64.alpha sq (κ i) T (Tc i) : ℚ) - p.ai i * p.alpha i| ≤ _
      push_cast at A
      change |((Component64.ai sq R (Tc i) (Pc i) : ℚ) : ℝ) - p.ai i| ≤ 8 * (124 / 10 ^ 18) * p.ai i at A
      set u := ((Component64.ai sq R (Tc i) (Pc i) : ℚ) : ℝ)
      set v := ((Component64.alpha sq (κ i) T (Tc i) : ℚ) : ℝ)
      have e : u * v - p.ai i * p.alpha i = (u - p.ai i) * (v - p.alpha i) + (u - p.ai i) * p.alpha i + p.ai i * (v - p.alpha i) := by ring
      rw [e]
      refine (abs_add_le _ _).trans ((add_le_add (abs_add_le _ _) le_rfl).trans ?_)
      rw [abs_mul, abs_mul, abs_mul, abs_of_nonneg pa, abs_of_nonneg pα]
      have t1 := mul_le_mul A B (abs_nonneg _) (by positivity)
      have t2 := mul_le_mul_of_nonneg_right A pα
      have t3 := mul_le_mul_of_nonneg_left B pa
      have t4 := mul_nonneg pa pα
      generalize p.ai i = r at *
      generalize p.alpha i = w at *
      nlinarith only [t1, t2, t3, t4])
  have c2 := bmix_change (p := p) (q := realPar (Component64.par sq R κ Tc Pc k T)) (x := fun i => (x i : ℝ)) (e := 496 / 10 ^ 18) hx
    (fun i => by
      have := rb i
      push_cast at this
      refine this.trans (le_of_eq ?_)
      show _ = 496 / 10 ^ 18 * (PengRobinson.realFormulas (R : ℝ)).bi (Tc i) (Pc i)
      ring)
  have a0 : 0 ≤ PengRobinson.amix p (fun i => (x i : ℝ)) := Finset.sum_nonneg fun i _ => Finset.sum_nonneg fun j _ =>
    mul_nonneg (mul_nonneg (mul_nonneg (hx i) (hx j)) (Real.sqrt_nonneg _)) (by linarith [hk i j])
  have b0 : 0 ≤ PengRobinson.bmix p (fun i => (x i : ℝ)) := Finset.sum_nonneg fun i _ => mul_nonneg (hx i) (hb0 i)
  have a0' : 0 ≤ PengRobinson.amix (realPar (Component64.par sq R κ Tc Pc k T)) (fun i => (x i : ℝ)) := by
    have := (abs_le.1 c1).1; linarith
  have b0' : 0 ≤ PengRobinson.bmix (realPar (Component64.par sq R κ Tc Pc k T)) (fun i => (x i : ℝ)) := by
    have := (abs_le.1 c2).1; linarith
  have h1' := abs_le.1 (h1.trans (mul_le_mul_of_nonneg_right (show _ ≤ (506 : ℝ) / 10 ^ 16 by nlinarith) a0'))
  have h2' := abs_le.1 (h2.trans (mul_le_mul_of_nonneg_right (show _ ≤ (2604 : ℝ) / 10 ^ 18 by linarith) b0'))
  obtain ⟨c3, c4⟩ := abs_le.1 c1
  obtain ⟨c5, c6⟩ := abs_le.1 c2
  refine ⟨abs_le.2 ⟨?_, ?_⟩, abs_le.2 ⟨?_, ?_⟩⟩
  · linarith [h1'.1]
  · linarith [h1'.2]
  · linarith [h2'.1]
  · linarith [h2'.2]

/-- **C174** (from the constants of the substances to the pressure): computed in double precision for up to twenty components, the
pressure misses that of the equation of state by at most `2e-13` times the sum of its repulsive and attractive parts. -/
theorem c174_pressure {sq : ℚ → ℚ} (hsq : GoodSquare sq) {R T ρ : ℚ} {κ Tc Pc : Fin n → ℚ} {k : Fin n → Fin n → ℚ} {x : Fin n → ℚ}
    (hm : SaneMixture R κ Tc Pc T) (h : Sane (Component64.par sq R κ Tc Pc k T) x) (hn : n ≤ 20)
    (hR : (1 : ℝ) / 10 ^ 20 ≤ R) (hρ : (1 : ℝ) / 10 ^ 20 ≤ ρ) (p : PengRobinson.Par n)
    (hp : p = mixtureOf (R : ℝ) (fun i => (κ i : ℝ)) (fun i => (Tc i : ℝ)) (fun i => (Pc i : ℝ)) (fun i j => (k i j : ℝ)) T)
    (ha : 1 / 10 ^ 19 ≤ PengRobinson.amix p (fun i => (x i : ℝ))) (hb : 1 / 10 ^ 19 ≤ PengRobinson.bmix p (fun i => (x i : ℝ)))
    (hβ : (PengRobinson.bmix p (fun i => (x i : ℝ))) * ρ ≤ 49 / 50) :
    |((Mixing64.pressure R T (Component64.par sq R κ Tc Pc k T) x ρ : ℚ) : ℝ) - PengRobinson.pressure R T p (fun i => (x i : ℝ)) ρ| ≤
      2 / 10 ^ 13 * (repulsive R T (PengRobinson.bmix p (fun i => (x i : ℝ))) ρ +
        attractive (PengRobinson.amix p (fun i => (x i : ℝ))) (PengRobinson.bmix p (fun i => (x i : ℝ))) ρ) := by
  subst hp
  obtain ⟨h1, h2⟩ := c174_mixture hsq hm h hn
  exact pressure_change hR (le_trans (by norm_num) hm.temperature) hρ ha hb hβ h1 h2

/-- Propane and butane near room temperature. -/
example : SaneMixture (n := 2) (fl 8.314) ![fl 0.6, fl 0.67] ![fl 369.8, fl 425.1] ![fl 4248000, fl 3796000] 300 ∧
    Sane (Component64.par (n := 2) (fun q => fl (q * q)) (fl 8.314) ![fl 0.6, fl 0.67] ![fl 369.8, fl 425.1] ![fl 4248000, fl 3796000]
      (fun _ _ => 0) 300) fun _ => 1 / 2 := by
  have b1 : (1 : ℚ) ≤ fl 8.314 := by decide +kernel
  have b2 : (300 : ℚ) ≤ fl 369.8 := by decide +kernel
  have b3 : fl 369.8 ≤ (400 : ℚ) := by decide +kernel
  have b4 : (300 : ℚ) ≤ fl 425.1 := by decide +kernel
  have b5 : fl 425.1 ≤ (500 : ℚ) := by decide +kernel
  have b6 : (1 : ℚ) ≤ fl 4248000 := by decide +kernel
  have b7 : fl 4248000 ≤ (10 ^ 10 : ℚ) := by decide +kernel
  have b8 : (1 : ℚ) ≤ fl 3796000 := by decide +kernel
  have b9 : fl 3796000 ≤ (10 ^ 10 : ℚ) := by decide +kernel
  have c1 : (0 : ℚ) ≤ fl 0.6 := by decide +kernel
  have c2 : fl 0.6 ≤ (3 : ℚ) := by decide +kernel
  have c3 : (0 : ℚ) ≤ fl 0.67 := by decide +kernel
  have c4 : fl 0.67 ≤ (3 : ℚ) := by decide +kernel
  have B1 := (Rat.cast_le (K := ℝ)).2 b1
  have B2 := (Rat.cast_le (K := ℝ)).2 b2
  have B3 := (Rat.cast_le (K := ℝ)).2 b3
  have B4 := (Rat.cast_le (K := ℝ)).2 b4
  have B5 := (Rat.cast_le (K := ℝ)).2 b5
  have B6 := (Rat.cast_le (K := ℝ)).2 b6
  have B7 := (Rat.cast_le (K := ℝ)).2 b7
  have B8 := (Rat.cast_le (K := ℝ)).2 b8
  have B9 := (Rat.cast_le (K := ℝ)).2 b9
  have C1 := (Rat.cast_le (K := ℝ)).2 c1
  have C2 := (Rat.cast_le (K := ℝ)).2 c2
  have C3 := (Rat.cast_le (K := ℝ)).2 c3
  have C4 := (Rat.cast_le (K := ℝ)).2 c4
  push_cast at B1 B2 B3 B4 B5 B6 B7 B8 B9 C1 C2 C3 C4
  have root : ∀ t : ℝ, 300 ≤ t → √(((300 : ℚ) : ℝ) / t) ≤ 1 := fun t ht => by
    rw [Real.sqrt_le_left zero_le_one, one_pow]
    push_cast
    rw [div_le_one (by linarith)]
    exact ht
  refine ⟨⟨?_, ?_, by norm_num, ?_, ?_⟩, ⟨fun _ => by norm_num, by decide +kernel, by decide +kernel, by decide +kernel,
    fun _ _ => ⟨fl_zero, by show (0 : ℚ) ≤ 1; norm_num⟩⟩⟩
  · intro i
    fin_cases i
    · exact ⟨by linarith, by show _ ≤ ((fl 369.8 : ℚ) : ℝ); linarith, by show _ ≤ ((fl 4248000 : ℚ) : ℝ); linarith, by show ((fl 4248000 : ℚ) : ℝ) ≤ _; linarith⟩
    · exact ⟨by linarith, by show _ ≤ ((fl 425.1 : ℚ) : ℝ); linarith, by show _ ≤ ((fl 3796000 : ℚ) : ℝ); linarith, by show ((fl 3796000 : ℚ) : ℝ) ≤ _; linarith⟩
  · intro i
    fin_cases i
    · show ((fl 369.8 : ℚ) : ℝ) ≤ _; linarith
    · show ((fl 425.1 : ℚ) : ℝ) ≤ _; linarith
  · intro i
    fin_cases i
    · exact ⟨C1, C2⟩
    · exact ⟨C3, C4⟩
  · intro i
    fin_cases i
    · show _ ≤ 1 + ((fl 0.6 : ℚ) : ℝ) * (1 - √(((300 : ℚ) : ℝ) / ((fl 369.8 : ℚ) : ℝ)))
      have := mul_nonneg C1 (sub_nonneg.2 (root _ B2))
      linarith
    · show _ ≤ 1 + ((fl 0.67 : ℚ) : ℝ) * (1 - √(((300 : ℚ) : ℝ) / ((fl 425.1 : ℚ) : ℝ)))
      have := mul_nonneg C3 (sub_nonneg.2 (root _ B4))
      linarith

end Verif.Props
