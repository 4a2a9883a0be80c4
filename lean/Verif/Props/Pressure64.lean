import Verif.Model.Pressure64
import Verif.Props.CentralDiff64
import Verif.Props.PengRobinsonDensity

/-!
# The pressure of the cubic equation of state in double precision (C168)
-/

namespace Verif.Props
open Verif Verif.Binary64 Set

private theorem unit_small : unit ≤ 1112 / 10 ^ 19 := by unfold unit; norm_num

private theorem tiny_small : tiny ≤ 1 / 10 ^ 250 := by
  unfold tiny
  refine one_div_le_one_div_of_le (by norm_num) ?_
  rw [show 250 = 50 * 5 by norm_num, show 1075 = 215 * 5 by norm_num, pow_mul, pow_mul]
  exact pow_le_pow_left₀ (by norm_num) (by norm_num) 5

/-- One rounding, of any number. -/
theorem fl_any (q : ℚ) : |((fl q : ℚ) : ℝ) - q| ≤ 112 / 10 ^ 18 * |(q : ℝ)| + 1 / 10 ^ 250 := by
  refine (fl_error q).trans (add_le_add (mul_le_mul_of_nonneg_right ?_ (abs_nonneg _)) tiny_small)
  exact unit_small.trans (by norm_num)

/-- One rounding of a number that is not very small. -/
theorem fl_rel {q : ℚ} (h : (1 : ℝ) / 10 ^ 150 ≤ q) : |((fl q : ℚ) : ℝ) - q| ≤ 112 / 10 ^ 18 * q := by
  have h0 : (0 : ℝ) < q := lt_of_lt_of_le (by norm_num) h
  have := fl_error q
  rw [abs_of_pos h0] at this
  have h1 := mul_le_mul_of_nonneg_right unit_small h0.le
  have h2 : tiny ≤ 1 / 10 ^ 100 * q := by
    refine tiny_small.trans ?_
    have := mul_le_mul_of_nonneg_left h (show (0 : ℝ) ≤ 1 / 10 ^ 100 by norm_num)
    refine le_trans (by norm_num) this
  have h3 : (1112 : ℝ) / 10 ^ 19 * q + 1 / 10 ^ 100 * q ≤ 112 / 10 ^ 18 * q := by
    rw [← add_mul]
    exact mul_le_mul_of_nonneg_right (by norm_num) h0.le
  linarith

/-- Errors of a product. -/
theorem prod_rel {x y x' y' e g : ℝ} (hx : 0 < x) (hy : 0 < y) (h : |x' - x| ≤ e * x) (k : |y' - y| ≤ g * y) :
    |x' * y' - x * y| ≤ (e + g + e * g) * (x * y) := by
  have he : 0 ≤ e * x := (abs_nonneg _).trans h
  have e1 : x' * y' - x * y = (x' - x) * (y' - y) + (x' - x) * y + x * (y' - y) := by ring
  rw [e1]
  refine (abs_add_three _ _ _).trans ?_
  rw [abs_mul, abs_mul, abs_mul, abs_of_pos hx, abs_of_pos hy]
  have t1 := mul_le_mul h k (abs_nonneg _) he
  have t2 := mul_le_mul_of_nonneg_right h hy.le
  have t3 := mul_le_mul_of_nonneg_left k hx.le
  nlinarith

/-- Errors of a quotient. -/
theorem quot_rel {x y x' y' e g : ℝ} (hx : 0 < x) (hy : 0 < y) (hg : g < 1) (h : |x' - x| ≤ e * x) (k : |y' - y| ≤ g * y) :
    |x' / y' - x / y| ≤ (e + g) / (1 - g) * (x / y) := by
  have hg' : 0 < 1 - g := by linarith
  have hy' : (1 - g) * y ≤ y' := by have := (abs_le.1 k).1; linarith
  have hp : 0 < y' := lt_of_lt_of_le (mul_pos hg' hy) hy'
  have e1 : x' / y' - x / y = ((x' - x) * y - x * (y' - y)) / (y' * y) := by field_simp; ring
  rw [e1, abs_div, abs_of_pos (mul_pos hp hy), div_le_iff₀ (mul_pos hp hy)]
  have t : |(x' - x) * y - x * (y' - y)| ≤ (e + g) * (x * y) := by
    refine (abs_sub _ _).trans ?_
    rw [abs_mul, abs_mul, abs_of_pos hx, abs_of_pos hy]
    have t2 := mul_le_mul_of_nonneg_right h hy.le
    have t3 := mul_le_mul_of_nonneg_left k hx.le
    nlinarith
  refine t.trans ?_
  have hs : 0 ≤ e + g := by
    have a1 : 0 ≤ e := by have := (abs_nonneg _).trans h; exact nonneg_of_mul_nonneg_left this hx
    have a2 : 0 ≤ g := by have := (abs_nonneg _).trans k; exact nonneg_of_mul_nonneg_left this hy
    linarith
  have e2 : (e + g) / (1 - g) * (x / y) * (y' * y) = (e + g) * x * (y' / (1 - g)) := by field_simp
  rw [e2]
  have : y ≤ y' / (1 - g) := by rw [le_div_iff₀ hg']; linarith
  have := mul_le_mul_of_nonneg_left this (mul_nonneg hs hx.le)
  linarith

/-- A rounding after an error. -/
theorem round_rel {q q' e : ℝ} {p : ℚ} (hp : (p : ℝ) = q') (h : |q' - q| ≤ e * q) (hb : 1 / 10 ^ 150 ≤ q') :
    |((fl p : ℚ) : ℝ) - q| ≤ (e + 112 / 10 ^ 18 + 112 / 10 ^ 18 * e) * q := by
  have h1 := fl_rel (q := p) (by rw [hp]; exact hb)
  rw [hp] at h1
  have h2 := (abs_le.1 h).2
  have h3 : |((fl p : ℚ) : ℝ) - q| ≤ |((fl p : ℚ) : ℝ) - q'| + |q' - q| := abs_sub_le _ _ _
  nlinarith

/-- The two parts of the pressure. -/
noncomputable def repulsive (R T b ρ : ℝ) : ℝ := R * T * ρ / (1 - b * ρ)

/-- The part with the parameter `a`. -/
noncomputable def attractive (a b ρ : ℝ) : ℝ := ρ ^ 2 * a / ((1 + b * ρ) + ρ * b * (1 - b * ρ))

/-- The covolume and the density: their product, and its distance from one. -/
private theorem covolume {b ρ : ℚ} (hb : (1 : ℝ) / 10 ^ 20 ≤ b) (hρ : (1 : ℝ) / 10 ^ 20 ≤ ρ) (hβ : (b : ℝ) * ρ ≤ 99 / 100) :
    |((fl (b * ρ) : ℚ) : ℝ) - b * ρ| ≤ 112 / 10 ^ 18 * (b * ρ) ∧ 0 < (b : ℝ) * ρ ∧
    |((fl (1 - fl (b * ρ)) : ℚ) : ℝ) - (1 - b * ρ)| ≤ 226 / 10 ^ 18 ∧
    |((fl (1 - fl (b * ρ)) : ℚ) : ℝ) - (1 - b * ρ)| ≤ 113 / 10 ^ 16 * (1 - b * ρ) := by
  have b0 : (0 : ℝ) < b := lt_of_lt_of_le (by norm_num) hb
  have r0 : (0 : ℝ) < ρ := lt_of_lt_of_le (by norm_num) hρ
  have hprod : (1 : ℝ) / 10 ^ 40 ≤ b * ρ := by
    have := mul_le_mul hb hρ (by norm_num) b0.le
    exact le_trans (by norm_num) this
  have h1 : |((fl (b * ρ) : ℚ) : ℝ) - b * ρ| ≤ 112 / 10 ^ 18 * (b * ρ) := by
    have := fl_rel (q := b * ρ) (by push_cast; exact le_trans (by norm_num) hprod)
    push_cast at this
    exact this
  set β := (b : ℝ) * ρ
  have β0 : 0 < β := mul_pos b0 r0
  have k1 := abs_le.1 h1
  have h2 := fl_rel (q := 1 - fl (b * ρ)) (by push_cast; linarith)
  push_cast at h2
  have k2 := abs_le.1 h2
  refine ⟨h1, β0, ?_, ?_⟩ <;> rw [abs_le] <;> constructor <;> linarith

/-- **C168** (the repulsive part). -/
private theorem repulsive_round {R T b ρ : ℚ} (hR : (1 : ℝ) / 10 ^ 20 ≤ R) (hT : (1 : ℝ) / 10 ^ 20 ≤ T) (hb : (1 : ℝ) / 10 ^ 20 ≤ b)
    (hρ : (1 : ℝ) / 10 ^ 20 ≤ ρ) (hβ : (b : ℝ) * ρ ≤ 99 / 100) :
    |((fl (fl (fl (R * T) * ρ) / fl (1 - fl (b * ρ))) : ℚ) : ℝ) - repulsive R T b ρ| ≤ 118 / 10 ^ 16 * repulsive R T b ρ ∧
      1 / 10 ^ 61 ≤ repulsive R T b ρ := by
  obtain ⟨-, β0, -, hq⟩ := covolume hb hρ hβ
  have R0 : (0 : ℝ) < R := lt_of_lt_of_le (by norm_num) hR
  have T0 : (0 : ℝ) < T := lt_of_lt_of_le (by norm_num) hT
  have r0 : (0 : ℝ) < ρ := lt_of_lt_of_le (by norm_num) hρ
  have hRT : (1 : ℝ) / 10 ^ 40 ≤ R * T := le_trans (by norm_num) (mul_le_mul hR hT (by norm_num) R0.le)
  have hRTρ : (1 : ℝ) / 10 ^ 60 ≤ R * T * ρ := le_trans (by norm_num) (mul_le_mul hRT hρ (by norm_num) (mul_pos R0 T0).le)
  have n1 : |((fl (R * T) : ℚ) : ℝ) - R * T| ≤ 112 / 10 ^ 18 * (R * T) := by
    have := fl_rel (q := R * T) (by push_cast; exact le_trans (by norm_num) hRT)
    push_cast at this; exact this
  have n2 := prod_rel (g := 0) (mul_pos R0 T0) r0 n1 (show |(ρ : ℝ) - ρ| ≤ 0 * ρ by simp)
  have k2 := abs_le.1 n2
  have n3 := round_rel (p := fl (R * T) * ρ) (by push_cast; rfl) n2 (by linarith)
  have n4 := quot_rel (mul_pos (mul_pos R0 T0) r0) (show (0 : ℝ) < 1 - b * ρ by linarith) (by norm_num) n3 hq
  have hX : (1 : ℝ) / 10 ^ 60 ≤ repulsive R T b ρ := by
    unfold repulsive
    rw [le_div_iff₀ (by linarith)]
    refine le_trans ?_ hRTρ
    have : (1 : ℝ) - b * ρ ≤ 1 := by linarith
    linarith
  rw [show (R : ℝ) * T * ρ / (1 - b * ρ) = repulsive R T b ρ from rfl] at n4
  have k4 := abs_le.1 n4
  have hlow : (1 : ℝ) / 10 ^ 150 ≤ ((fl (fl (R * T) * ρ) : ℚ) : ℝ) / ((fl (1 - fl (b * ρ)) : ℚ) : ℝ) := by
    have : (112 / 10 ^ 18 + 0 + 112 / 10 ^ 18 * 0 + 112 / 10 ^ 18 + 112 / 10 ^ 18 * (112 / 10 ^ 18 + 0 + 112 / 10 ^ 18 * 0) + 113 / 10 ^ 16) / (1 - 113 / 10 ^ 16) ≤ (1 / 2 : ℝ) := by
      norm_num
    have := mul_le_mul_of_nonneg_right this (le_trans (by norm_num) hX)
    linarith
  have n5 := round_rel (p := fl (fl (R * T) * ρ) / fl (1 - fl (b * ρ))) (by push_cast; rfl) n4 hlow
  refine ⟨n5.trans (mul_le_mul_of_nonneg_right (by norm_num) (le_trans (by norm_num) hX)), le_trans (by norm_num) hX⟩

/-- **C168** (the attractive part). -/
private theorem attractive_round {a b ρ : ℚ} (ha : (1 : ℝ) / 10 ^ 20 ≤ a) (hb : (1 : ℝ) / 10 ^ 20 ≤ b)
    (hρ : (1 : ℝ) / 10 ^ 20 ≤ ρ) (hβ : (b : ℝ) * ρ ≤ 99 / 100) :
    |((fl (fl (fl (ρ * ρ) * a) / fl (fl (1 + fl (b * ρ)) + fl (fl (ρ * b) * fl (1 - fl (b * ρ))))) : ℚ) : ℝ) - attractive a b ρ| ≤
      2 / 10 ^ 15 * attractive a b ρ ∧ 0 < attractive a b ρ := by
  obtain ⟨hp, β0, hq, -⟩ := covolume hb hρ hβ
  have a0 : (0 : ℝ) < a := lt_of_lt_of_le (by norm_num) ha
  have r0 : (0 : ℝ) < ρ := lt_of_lt_of_le (by norm_num) hρ
  have hrr : (1 : ℝ) / 10 ^ 40 ≤ ρ * ρ := le_trans (by norm_num) (mul_le_mul hρ hρ (by norm_num) r0.le)
  have hrra : (1 : ℝ) / 10 ^ 60 ≤ ρ * ρ * a := le_trans (by norm_num) (mul_le_mul hrr ha (by norm_num) (mul_pos r0 r0).le)
  -- the denominator
  rw [show ρ * b = b * ρ from mul_comm _ _]
  have hD : (1 + (b : ℝ) * ρ) + ρ * b * (1 - b * ρ) = 1 + b * ρ + b * ρ * (1 - b * ρ) := by ring
  have d1 := fl_rel (q := 1 + fl (b * ρ)) (by push_cast; have := (abs_le.1 hp).1; linarith)
  have d2 := fl_any (fl (b * ρ) * fl (1 - fl (b * ρ)))
  have d3 := fl_any (fl (1 + fl (b * ρ)) + fl (fl (b * ρ) * fl (1 - fl (b * ρ))))
  push_cast at d1 d2 d3
  have hatt : attractive a b ρ = ρ * ρ * a / (1 + b * ρ + b * ρ * (1 - b * ρ)) := by
    unfold attractive; rw [hD]; congr 1; ring
  set β := (b : ℝ) * ρ
  set p := ((fl (b * ρ) : ℚ) : ℝ)
  set q := ((fl (1 - fl (b * ρ)) : ℚ) : ℝ)
  set m := ((fl (fl (b * ρ) * fl (1 - fl (b * ρ))) : ℚ) : ℝ)
  set c := ((fl (1 + fl (b * ρ)) : ℚ) : ℝ)
  set d := ((fl (fl (1 + fl (b * ρ)) + fl (fl (b * ρ) * fl (1 - fl (b * ρ)))) : ℚ) : ℝ)
  have kp := abs_le.1 hp
  have kq := abs_le.1 hq
  have p0 : 0 ≤ p := by linarith
  have p1 : p ≤ 1 := by linarith
  have q0 : 0 ≤ q := by linarith
  have q1 : q ≤ 101 / 100 := by linarith
  have pq0 : 0 ≤ p * q := mul_nonneg p0 q0
  have pq1 : p * q ≤ 101 / 100 := by nlinarith
  have e1 : |p * q - β * (1 - β)| ≤ 340 / 10 ^ 18 := by
    have : p * q - β * (1 - β) = (p - β) * q + β * (q - (1 - β)) := by ring
    rw [this]
    refine (abs_add_le _ _).trans ?_
    rw [abs_mul, abs_mul, abs_of_nonneg q0, abs_of_pos β0]
    have t1 : |p - β| * q ≤ 112 / 10 ^ 18 * (101 / 100) := mul_le_mul (hp.trans (by linarith)) q1 q0 (by norm_num)
    have t2 : β * |q - (1 - β)| ≤ 1 * (226 / 10 ^ 18) := mul_le_mul (by linarith) hq (abs_nonneg _) (by norm_num)
    linarith
  rw [abs_of_nonneg pq0] at d2
  have k0 : (1 : ℝ) / 10 ^ 250 ≤ 1 / 10 ^ 20 := by norm_num
  have ke := abs_le.1 e1
  have k1 := abs_le.1 d1
  have k2 := abs_le.1 d2
  have hcm : |c + m| ≤ 31 / 10 := by rw [abs_le]; constructor <;> linarith
  have k3 := abs_le.1 (d3.trans (add_le_add (mul_le_mul_of_nonneg_left hcm (by norm_num)) k0))
  have hββ : 0 ≤ β * (1 - β) := mul_nonneg β0.le (by linarith)
  set D := 1 + β + β * (1 - β)
  have D1 : 1 ≤ D := by simp only [D]; linarith
  have hd : |d - D| ≤ 12 / 10 ^ 16 * D := by
    have : |d - D| ≤ 12 / 10 ^ 16 := by rw [abs_le]; simp only [D]; constructor <;> linarith
    linarith
  have n1 : |((fl (ρ * ρ) : ℚ) : ℝ) - ρ * ρ| ≤ 112 / 10 ^ 18 * (ρ * ρ) := by
    have := fl_rel (q := ρ * ρ) (by push_cast; exact le_trans (by norm_num) hrr)
    push_cast at this; exact this
  have n2 := prod_rel (g := 0) (mul_pos r0 r0) a0 n1 (show |(a : ℝ) - a| ≤ 0 * a by simp)
  have g2 := abs_le.1 n2
  have n3 := round_rel (p := fl (ρ * ρ) * a) (by push_cast; rfl) n2 (by linarith)
  have n4 := quot_rel (mul_pos (mul_pos r0 r0) a0) (show 0 < D by linarith) (by norm_num) n3 hd
  rw [← hatt] at n4
  have hY : (1 : ℝ) / 10 ^ 62 ≤ attractive a b ρ := by
    rw [hatt, le_div_iff₀ (by linarith)]
    refine le_trans ?_ hrra
    have : D ≤ 3 := by simp only [D]; linarith [mul_le_mul (show β ≤ 1 by linarith) (show 1 - β ≤ 1 by linarith) (by linarith) (by norm_num)]
    linarith
  have g4 := abs_le.1 n4
  have hlow : (1 : ℝ) / 10 ^ 150 ≤ ((fl (fl (ρ * ρ) * a) : ℚ) : ℝ) / d := by
    have : (112 / 10 ^ 18 + 0 + 112 / 10 ^ 18 * 0 + 112 / 10 ^ 18 + 112 / 10 ^ 18 * (112 / 10 ^ 18 + 0 + 112 / 10 ^ 18 * 0) + 12 / 10 ^ 16) / (1 - 12 / 10 ^ 16) ≤ (1 / 2 : ℝ) := by
      norm_num
    have := mul_le_mul_of_nonneg_right this (le_trans (by norm_num) hY)
    linarith
  have n5 := round_rel (p := fl (fl (ρ * ρ) * a) / fl (fl (1 + fl (b * ρ)) + fl (fl (b * ρ) * fl (1 - fl (b * ρ))))) (by push_cast; rfl) n4 hlow
  exact ⟨n5.trans (mul_le_mul_of_nonneg_right (by norm_num) (le_trans (by norm_num) hY)), lt_of_lt_of_le (by norm_num) hY⟩

/-- **C168** (rounding of the pressure): the pressure computed in double precision misses that of the equation of state by at most `2e-14` times the sum of its
repulsive and attractive parts, at all densities that the density search visits. -/
theorem c168_pressure (R T a b ρ : ℚ) (hR : (1 : ℝ) / 10 ^ 20 ≤ R) (hT : (1 : ℝ) / 10 ^ 20 ≤ T) (ha : (1 : ℝ) / 10 ^ 20 ≤ a)
    (hb : (1 : ℝ) / 10 ^ 20 ≤ b) (hρ : (1 : ℝ) / 10 ^ 20 ≤ ρ) (hβ : (b : ℝ) * ρ ≤ 99 / 100) :
    |((Pressure64.pressure R T a b ρ : ℚ) : ℝ) - PengRobinson.pressureAB R T a b ρ| ≤ 2 / 10 ^ 14 * (repulsive R T b ρ + attractive a b ρ) := by
  obtain ⟨h1, hX⟩ := repulsive_round hR hT hb hρ hβ
  obtain ⟨h2, hY⟩ := attractive_round ha hb hρ hβ
  have e : PengRobinson.pressureAB R T a b ρ = repulsive R T b ρ - attractive a b ρ := rfl
  unfold Pressure64.pressure
  dsimp only
  set x := fl (fl (fl (R * T) * ρ) / fl (1 - fl (b * ρ)))
  set y := fl (fl (fl (ρ * ρ) * a) / fl (fl (1 + fl (b * ρ)) + fl (fl (ρ * b) * fl (1 - fl (b * ρ)))))
  have h3 := fl_any (x - y)
  push_cast at h3
  rw [e]
  set X := repulsive (R : ℝ) T b ρ
  set Y := attractive (a : ℝ) b ρ
  have k1 := abs_le.1 h1
  have k2 := abs_le.1 h2
  have hxy : |(x : ℝ) - y| ≤ 2 * (X + Y) := by rw [abs_le]; constructor <;> linarith [show (0 : ℝ) < 1 / 10 ^ 61 by norm_num]
  have ht : (1 : ℝ) / 10 ^ 250 ≤ 1 / 10 ^ 20 * X := by
    have := mul_le_mul_of_nonneg_left hX (show (0 : ℝ) ≤ 1 / 10 ^ 20 by norm_num)
    exact le_trans (by norm_num) this
  have k3 := abs_le.1 (h3.trans (add_le_add (mul_le_mul_of_nonneg_left hxy (by norm_num)) ht))
  rw [abs_le]
  constructor <;> linarith [show (0 : ℝ) < 1 / 10 ^ 61 by norm_num]

/-- **C168** (dilute phases): where the attraction is at most half of the repulsion, the relative error is below `6e-14`. -/
theorem c168_relative (R T a b ρ : ℚ) (hR : (1 : ℝ) / 10 ^ 20 ≤ R) (hT : (1 : ℝ) / 10 ^ 20 ≤ T) (ha : (1 : ℝ) / 10 ^ 20 ≤ a)
    (hb : (1 : ℝ) / 10 ^ 20 ≤ b) (hρ : (1 : ℝ) / 10 ^ 20 ≤ ρ) (hβ : (b : ℝ) * ρ ≤ 99 / 100) (h : attractive a b ρ ≤ repulsive R T b ρ / 2) :
    |((Pressure64.pressure R T a b ρ : ℚ) : ℝ) - PengRobinson.pressureAB R T a b ρ| ≤ 6 / 10 ^ 14 * PengRobinson.pressureAB R T a b ρ := by
  refine (c168_pressure R T a b ρ hR hT ha hb hρ hβ).trans ?_
  have e : PengRobinson.pressureAB R T a b ρ = repulsive R T b ρ - attractive a b ρ := rfl
  rw [e]
  linarith

/-- **C168** (the sign that the root finder sees): the computed difference between the pressure and the set pressure has the sign of the exact one unless that is below
`3e-14` of the two parts. -/
theorem c168_sign (R T a b Pset ρ : ℚ) (hR : (1 : ℝ) / 10 ^ 20 ≤ R) (hT : (1 : ℝ) / 10 ^ 20 ≤ T) (ha : (1 : ℝ) / 10 ^ 20 ≤ a)
    (hb : (1 : ℝ) / 10 ^ 20 ≤ b) (hρ : (1 : ℝ) / 10 ^ 20 ≤ ρ) (hβ : (b : ℝ) * ρ ≤ 99 / 100) :
    (3 / 10 ^ 14 * (repulsive R T b ρ + attractive a b ρ) < PengRobinson.pressureAB R T a b ρ - Pset → 0 < Pressure64.splineError R T a b Pset ρ) ∧
    (PengRobinson.pressureAB R T a b ρ - Pset < -(3 / 10 ^ 14 * (repulsive R T b ρ + attractive a b ρ)) →
      Pressure64.splineError R T a b Pset ρ < 0) := by
  have k := abs_le.1 (c168_pressure R T a b ρ hR hT ha hb hρ hβ)
  obtain ⟨-, hX⟩ := repulsive_round hR hT hb hρ hβ
  obtain ⟨-, hY⟩ := attractive_round ha hb hρ hβ
  have h := fl_any (Pressure64.pressure R T a b ρ - Pset)
  push_cast at h
  have ht : (1 : ℝ) / 10 ^ 250 ≤ 1 / 10 ^ 20 * repulsive R T b ρ := by
    have := mul_le_mul_of_nonneg_left hX (show (0 : ℝ) ≤ 1 / 10 ^ 20 by norm_num)
    exact le_trans (by norm_num) this
  have hX0 : 0 < repulsive (R : ℝ) T b ρ := lt_of_lt_of_le (by norm_num) hX
  unfold Pressure64.splineError
  constructor
  · intro g
    have pos : 1 / 10 ^ 14 * repulsive R T b ρ < (Pressure64.pressure R T a b ρ : ℝ) - Pset := by linarith
    rw [abs_of_pos (lt_trans (by positivity) pos)] at h
    have : (0 : ℝ) < (fl (Pressure64.pressure R T a b ρ - Pset) : ℚ) := by have := (abs_le.1 h).1; linarith
    exact_mod_cast this
  · intro g
    have neg : (Pressure64.pressure R T a b ρ : ℝ) - Pset < -(1 / 10 ^ 14 * repulsive R T b ρ) := by linarith
    rw [abs_of_neg (lt_trans neg (by simp only [Left.neg_neg_iff]; positivity))] at h
    have : ((fl (Pressure64.pressure R T a b ρ - Pset) : ℚ) : ℝ) < 0 := by have := (abs_le.1 h).2; linarith
    exact_mod_cast this

/-- **C168** (the density): where the computed difference changes its sign between two densities on a branch that rises with at least the slope `m`, the density of the
equation of state lies between them, up to `3e-14` of the two parts divided by the slope. -/
theorem c168_density (R T a b Pset lo hi : ℚ) (hR : (1 : ℝ) / 10 ^ 20 ≤ R) (hT : (1 : ℝ) / 10 ^ 20 ≤ T) (ha : (1 : ℝ) / 10 ^ 20 ≤ a)
    (hb : (1 : ℝ) / 10 ^ 20 ≤ b) (hlo : (1 : ℝ) / 10 ^ 20 ≤ lo) (hlh : lo < hi) (hβ : (b : ℝ) * hi ≤ 99 / 100)
    (slo : Pressure64.splineError R T a b Pset lo ≤ 0) (shi : 0 ≤ Pressure64.splineError R T a b Pset hi) (S : Set ℝ) (m w : ℝ) (hm : 0 < m)
    (hslope : ∀ ρ ∈ S, ∀ ρ' ∈ S, ρ ≤ ρ' → m * (ρ' - ρ) ≤ PengRobinson.pressureAB R T a b ρ' - PengRobinson.pressureAB R T a b ρ)
    (hw : w ∈ S) (hl : (lo : ℝ) ∈ S) (hh : (hi : ℝ) ∈ S) (ew : PengRobinson.pressureAB R T a b w = Pset) :
    lo - 3 / 10 ^ 14 * (repulsive R T b lo + attractive a b lo) / m ≤ w ∧ w ≤ hi + 3 / 10 ^ 14 * (repulsive R T b hi + attractive a b hi) / m := by
  have b0 : (0 : ℝ) < b := lt_of_lt_of_le (by norm_num) hb
  have hlh' : (lo : ℝ) < hi := by exact_mod_cast hlh
  have hβ' : (b : ℝ) * lo ≤ 99 / 100 := le_trans (mul_le_mul_of_nonneg_left hlh'.le b0.le) hβ
  have k1 := (c168_sign R T a b Pset lo hR hT ha hb hlo hβ').1
  have k2 := (c168_sign R T a b Pset hi hR hT ha hb (hlo.trans hlh'.le) hβ).2
  have g1 := not_lt.1 (fun h => absurd (k1 h) (not_lt.2 slo))
  have g2 := not_lt.1 (fun h => absurd (k2 h) (not_lt.2 shi))
  have pos : ∀ ρ : ℚ, (1 : ℝ) / 10 ^ 20 ≤ ρ → (b : ℝ) * ρ ≤ 99 / 100 → 0 ≤ 3 / 10 ^ 14 * (repulsive R T b ρ + attractive a b ρ) := fun ρ h h' => by
    have h1 := (repulsive_round hR hT hb h h').2
    have h2 := (attractive_round ha hb h h').2
    have : (0 : ℝ) < 1 / 10 ^ 61 := by norm_num
    have : 0 ≤ repulsive (R : ℝ) T b ρ + attractive a b ρ := by linarith
    positivity
  constructor
  · rw [sub_le_comm, le_div_iff₀ hm]
    rcases le_total (lo : ℝ) w with h | h
    · have := pos lo hlo hβ'
      nlinarith
    · have := hslope w hw lo hl h
      rw [ew] at this
      linarith
  · rw [← sub_le_iff_le_add', le_div_iff₀ hm]
    rcases le_total w (hi : ℝ) with h | h
    · have := pos hi (hlo.trans hlh'.le) hβ
      nlinarith
    · have := hslope hi hh w hw h
      rw [ew] at this
      linarith

/-- C168: a relative error is not bounded, and the sign can be wrong: with the doubles next to density 2/5 and attraction 41/6 the pressure is positive, the computed one
negative. -/
theorem c168_violated_sign : ∃ a ρ : ℚ, fl a = a ∧ fl ρ = ρ ∧ a = fl (41 / 6) ∧ ρ = fl (2 / 5) ∧ 0 < PengRobinson.pressureAB 1 1 a 1 ρ ∧
    Pressure64.pressure 1 1 a 1 ρ < 0 := by
  refine ⟨7693649363424597/1125899906842624, 3602879701896397/9007199254740992, by decide +kernel, by decide +kernel, by decide +kernel, by decide +kernel, ?_, by decide +kernel⟩
  unfold PengRobinson.pressureAB
  norm_num

/-- A gas at density 1/8: the hypotheses hold and the attraction is below half of the repulsion. -/
example : |((Pressure64.pressure 1 1 1 1 (1 / 8) : ℚ) : ℝ) - PengRobinson.pressureAB 1 1 1 1 (1 / 8)| ≤ 6 / 10 ^ 14 * PengRobinson.pressureAB 1 1 1 1 (1 / 8) := by
  have := c168_relative 1 1 1 1 (1 / 8) (by norm_num) (by norm_num) (by norm_num) (by norm_num) (by norm_num) (by norm_num)
    (by unfold attractive repulsive; norm_num)
  simpa using this

/-- The sign at a bracket around density 1/8, the slope between its ends, and the density that it encloses. -/
example : ∃ w : ℝ, PengRobinson.pressureAB 1 1 1 1 w = 1 / 8 ∧
    1 / 10 - 3 / 10 ^ 14 * (repulsive 1 1 1 (1 / 10) + attractive 1 1 (1 / 10)) / (1 / 2) ≤ w ∧
    w ≤ 1 / 7 + 3 / 10 ^ 14 * (repulsive 1 1 1 (1 / 7) + attractive 1 1 (1 / 7)) / (1 / 2) := by
  have hc := (pr_continuous 1 1 1 1 (by norm_num) one_pos).mono
    (show Icc (1 / 10 : ℝ) (1 / 7) ⊆ Ico 0 (1 / 1) from fun z hz => ⟨by linarith [hz.1], by linarith [hz.2]⟩)
  obtain ⟨w, hw, e⟩ := intermediate_value_Icc (by norm_num) hc
    (show (1 / 8 : ℝ) ∈ Icc _ _ from by constructor <;> (unfold PengRobinson.pressureAB; norm_num))
  have hslope : ∀ ρ ∈ Icc (1 / 10 : ℝ) (1 / 7), ∀ ρ' ∈ Icc (1 / 10 : ℝ) (1 / 7), ρ ≤ ρ' →
      1 / 2 * (ρ' - ρ) ≤ PengRobinson.pressureAB 1 1 1 1 ρ' - PengRobinson.pressureAB 1 1 1 1 ρ := by
    intro ρ h ρ' h' hle
    have e1 : ρ' - ρ ≤ ρ' / (1 - ρ') - ρ / (1 - ρ) := by
      have h1 : (0 : ℝ) < 1 - ρ' := by linarith [h'.2]
      have h2 : (0 : ℝ) < 1 - ρ := by linarith [h.2]
      rw [div_sub_div _ _ h1.ne' h2.ne', le_div_iff₀ (mul_pos h1 h2)]
      have : (1 - ρ') * (1 - ρ) ≤ 1 := by nlinarith [h.1, h'.1]
      nlinarith
    have e2 : ρ' ^ 2 / (1 + ρ' + ρ' * (1 - ρ')) - ρ ^ 2 / (1 + ρ + ρ * (1 - ρ)) ≤ ρ' ^ 2 - ρ ^ 2 := by
      have h1 : (1 : ℝ) ≤ 1 + ρ' + ρ' * (1 - ρ') := by nlinarith [h'.1, h'.2]
      have h2 : (1 : ℝ) ≤ 1 + ρ + ρ * (1 - ρ) := by nlinarith [h.1, h.2]
      have h3 : 1 + ρ + ρ * (1 - ρ) ≤ 1 + ρ' + ρ' * (1 - ρ') := by nlinarith [h.2, h'.2]
      have k1 : ρ ^ 2 / (1 + ρ' + ρ' * (1 - ρ')) ≤ ρ ^ 2 / (1 + ρ + ρ * (1 - ρ)) :=
        div_le_div_of_nonneg_left (sq_nonneg _) (by linarith) h3
      have k2 : (ρ' ^ 2 - ρ ^ 2) / (1 + ρ' + ρ' * (1 - ρ')) ≤ ρ' ^ 2 - ρ ^ 2 :=
        div_le_self (by nlinarith [h.1]) h1
      rw [sub_div] at k2
      linarith
    unfold PengRobinson.pressureAB
    simp only [one_mul, mul_one]
    nlinarith [h.2, h'.2]
  have := c168_density 1 1 1 1 (1 / 8) (1 / 10) (1 / 7) (by norm_num) (by norm_num) (by norm_num) (by norm_num) (by norm_num) (by norm_num) (by norm_num)
    (by decide +kernel) (by decide +kernel) (Icc (1 / 10) (1 / 7)) (1 / 2) w (by norm_num) (by simpa using hslope) hw
    (by constructor <;> norm_num) (by constructor <;> norm_num) (by simpa using e)
  exact ⟨w, e, by simpa using this.1, by simpa using this.2⟩

end Verif.Props
