import Verif.Props.Binary64

/-!
# Rounding keeps the order and the sign of numbers
-/

namespace Verif.Props
open Verif Verif.Binary64

/-- Rounding to an integer keeps the order. -/
theorem rnd_mono {a b : ℚ} (h : a ≤ b) : rnd a ≤ rnd b := by
  have hf : ⌊a⌋ ≤ ⌊b⌋ := Int.floor_le_floor h
  have a1 := Int.floor_le a
  have b1 := Int.floor_le b
  have ha : rnd a ≤ ⌊a⌋ + 1 := by unfold rnd; dsimp only; split_ifs <;> omega
  have hb : ⌊b⌋ ≤ rnd b := by unfold rnd; dsimp only; split_ifs <;> omega
  rcases hf.lt_or_eq with hlt | heq
  · omega
  · unfold rnd
    dsimp only
    rw [← heq] at b1 ⊢
    split_ifs <;> first | omega | (exfalso; linarith)

/-- Rounding to an integer treats both signs alike. -/
theorem rnd_neg (q : ℚ) : rnd (-q) = -rnd q := by
  have h1 := Int.floor_le q
  have h2 := Int.lt_floor_add_one q
  by_cases hz : (⌊q⌋ : ℚ) = q
  · rw [← hz, ← Int.cast_neg, rnd_int, rnd_int]
  · have hlt : (⌊q⌋ : ℚ) < q := lt_of_le_of_ne h1 hz
    have hfl : ⌊-q⌋ = -⌊q⌋ - 1 := by
      rw [Int.floor_eq_iff]
      push_cast
      constructor <;> linarith
    unfold rnd
    dsimp only
    rw [hfl]
    push_cast
    split_ifs <;> first | omega | (exfalso; linarith)

theorem lastPlace_neg (q : ℚ) : lastPlace (-q) = lastPlace q := by unfold lastPlace; rw [abs_neg]

/-- Rounding treats both signs alike. -/
theorem fl_neg (q : ℚ) : fl (-q) = -fl q := by
  unfold fl
  by_cases h : q = 0
  · simp [h]
  · rw [if_neg h, if_neg (neg_ne_zero.2 h), lastPlace_neg, neg_div, rnd_neg]
    push_cast
    ring

/-- What is not negative stays so. -/
theorem fl_nonneg {q : ℚ} (h : 0 ≤ q) : 0 ≤ fl q := by
  unfold fl
  split_ifs with h0
  · exact le_rfl
  · have hp : (0 : ℚ) < 2 ^ lastPlace q := by positivity
    have : rnd 0 ≤ rnd (q / 2 ^ lastPlace q) := rnd_mono (by positivity)
    have h1 : rnd 0 = 0 := by decide +kernel
    rw [h1] at this
    have : (0 : ℚ) ≤ rnd (q / 2 ^ lastPlace q) := by exact_mod_cast this
    positivity

private theorem fl_mono_pos {a b : ℚ} (ha : 0 < a) (h : a ≤ b) : fl a ≤ fl b := by
  have hb : 0 < b := ha.trans_le h
  have hlog : Int.log 2 |a| ≤ Int.log 2 |b| := by
    rw [abs_of_pos ha, abs_of_pos hb]
    exact Int.log_mono_right ha h
  have hpl : lastPlace a ≤ lastPlace b := by unfold lastPlace; omega
  have pa : (0 : ℚ) < 2 ^ lastPlace a := by positivity
  have pb : (0 : ℚ) < 2 ^ lastPlace b := by positivity
  unfold fl
  rw [if_neg ha.ne', if_neg hb.ne']
  rcases hpl.lt_or_eq with hlt | heq
  · have e1 : a < 2 ^ (lastPlace a + 53) := by
      have h1 : |a| < 2 ^ (Int.log 2 |a| + 1) := mod_cast Int.lt_zpow_succ_log_self (b := 2) (by norm_num) |a|
      rw [abs_of_pos ha] at h1
      refine h1.trans_le (zpow_le_zpow_right₀ (by norm_num) ?_)
      unfold lastPlace
      rw [abs_of_pos ha]
      omega
    have e2 : (2 : ℚ) ^ (lastPlace b + 52) ≤ b := by
      have h1 : (2 : ℚ) ^ Int.log 2 |b| ≤ |b| := by
        have := Int.zpow_log_le_self (b := 2) (by norm_num) (abs_pos.2 hb.ne')
        exact_mod_cast this
      rw [abs_of_pos hb] at h1
      refine le_trans (zpow_le_zpow_right₀ (by norm_num) ?_) h1
      have := lastPlace_ge a
      have : lastPlace b = max (Int.log 2 b - 52) (-1074) := by unfold lastPlace; rw [abs_of_pos hb]
      omega
    have r1 : rnd (a / 2 ^ lastPlace a) ≤ 2 ^ 53 := by
      have : rnd (a / 2 ^ lastPlace a) ≤ rnd ((2 ^ 53 : ℤ) : ℚ) := by
        apply rnd_mono
        rw [div_le_iff₀ pa]
        rw [zpow_add₀ (by norm_num)] at e1
        push_cast
        norm_num at e1 ⊢
        linarith
      rwa [rnd_int] at this
    have r2 : 2 ^ 52 ≤ rnd (b / 2 ^ lastPlace b) := by
      have : rnd ((2 ^ 52 : ℤ) : ℚ) ≤ rnd (b / 2 ^ lastPlace b) := by
        apply rnd_mono
        rw [le_div_iff₀ pb]
        rw [zpow_add₀ (by norm_num)] at e2
        push_cast
        norm_num at e2 ⊢
        linarith
      rwa [rnd_int] at this
    have s1 : (rnd (a / 2 ^ lastPlace a) : ℚ) ≤ 2 ^ 53 := by exact_mod_cast r1
    have s2 : (2 ^ 52 : ℚ) ≤ rnd (b / 2 ^ lastPlace b) := by exact_mod_cast r2
    have e3 : (2 : ℚ) * 2 ^ lastPlace a ≤ 2 ^ lastPlace b := by
      rw [mul_comm, ← zpow_add_one₀ (by norm_num)]
      exact zpow_le_zpow_right₀ (by norm_num) (by omega)
    have t1 := mul_le_mul_of_nonneg_right s1 pa.le
    have t2 := mul_le_mul_of_nonneg_right s2 pb.le
    linarith
  · rw [heq]
    have : rnd (a / 2 ^ lastPlace b) ≤ rnd (b / 2 ^ lastPlace b) := rnd_mono (by gcongr)
    have : (rnd (a / 2 ^ lastPlace b) : ℚ) ≤ rnd (b / 2 ^ lastPlace b) := by exact_mod_cast this
    exact mul_le_mul_of_nonneg_right this pb.le

/-- Rounding keeps the order. -/
theorem fl_mono {a b : ℚ} (h : a ≤ b) : fl a ≤ fl b := by
  rcases lt_or_ge 0 a with ha | ha
  · exact fl_mono_pos ha h
  · have h1 : fl a ≤ 0 := by
      have := fl_nonneg (q := -a) (by linarith)
      rw [fl_neg] at this
      linarith
    rcases le_or_gt 0 b with hb | hb
    · exact h1.trans (fl_nonneg hb)
    · have := fl_mono_pos (a := -b) (b := -a) (by linarith) (by linarith)
      rw [fl_neg, fl_neg] at this
      linarith

/-- A number below a double is not rounded above it. -/
theorem fl_le_double {a d : ℚ} (hd : fl d = d) (h : a ≤ d) : fl a ≤ d := by
  have := fl_mono h
  rwa [hd] at this

/-- A number above a double is not rounded below it. -/
theorem double_le_fl {a d : ℚ} (hd : fl d = d) (h : d ≤ a) : d ≤ fl a := by
  have := fl_mono h
  rwa [hd] at this

theorem fl_one : fl 1 = 1 := by decide +kernel

theorem fl_zero : fl 0 = 0 := by decide +kernel

end Verif.Props
