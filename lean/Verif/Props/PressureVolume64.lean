import Verif.Model.PressureVolume64
import Verif.Props.Pressure64
import Verif.Props.Rounding
import Verif.Props.PressureVolume
import Mathlib.Tactic.Linarith
import Mathlib.Tactic.Positivity
import Mathlib.Tactic.FieldSimp

/-!
# C171: the pressure curve on a grid of doubles

The spline through the pressure curve needs specific volumes that increase strictly.  In double precision two neighbouring
volumes could be rounded to the same number; the theorems below show how far apart they stay.
-/

namespace Verif.Props
open Verif Verif.Binary64 Verif.PressureVolume

/-- One rounding of a number that is not very small. -/
theorem fl_relQ {q : ℚ} (h : 1 / 10 ^ 150 ≤ q) : |fl q - q| ≤ 112 / 10 ^ 18 * q := by
  have h' := (Rat.cast_le (K := ℝ)).2 h
  push_cast at h'
  have := fl_rel h'
  refine (Rat.cast_le (K := ℝ)).1 ?_
  push_cast
  exact this

/-- One rounding of any number that is not negative. -/
theorem fl_anyQ {q : ℚ} (h : 0 ≤ q) : |fl q - q| ≤ 112 / 10 ^ 18 * q + 1 / 10 ^ 250 := by
  have := fl_any q
  rw [abs_of_nonneg (show (0 : ℝ) ≤ (q : ℝ) by exact_mod_cast h)] at this
  refine (Rat.cast_le (K := ℝ)).1 ?_
  push_cast
  exact this

/-- Every number of a list is by a relative `δ` larger than those before it. -/
def Apart (δ : ℚ) (l : List ℚ) : Prop := l.Pairwise fun a b => a * (1 + δ) ≤ b

/-- The inverses of two numbers that are apart stay apart when they are rounded. -/
theorem inverse_apart {a b δ δ' : ℚ} (ha : 1 / 10 ^ 140 ≤ a) (hb : b ≤ 10 ^ 140) (hδ' : 0 ≤ δ') (hδ1 : δ ≤ 1)
    (hδ : δ' + 1 / 10 ^ 15 ≤ δ) (h : a * (1 + δ) ≤ b) : fl (1 / b) * (1 + δ') ≤ fl (1 / a) := by
  have ha0 : 0 < a := lt_of_lt_of_le (by norm_num) ha
  have hab : a ≤ b := by nlinarith
  have hb0 : 0 < b := lt_of_lt_of_le ha0 hab
  have h1 : 1 / 10 ^ 150 ≤ 1 / b := by
    rw [div_le_div_iff₀ (by positivity) hb0]
    have : (10 : ℚ) ^ 140 ≤ 10 ^ 150 := by norm_num
    linarith
  have h2 : 1 / b ≤ 1 / a := one_div_le_one_div_of_le ha0 hab
  have e1 := (abs_le.1 (fl_relQ h1)).2
  have e2 := (abs_le.1 (fl_relQ (h1.trans h2))).1
  have h3 : 1 / b * (1 + δ) ≤ 1 / a := by
    rw [one_div_mul_eq_div, div_le_div_iff₀ hb0 ha0]
    linarith
  have hB : 0 < 1 / b := by positivity
  have h4 : fl (1 / b) ≤ (1 + 112 / 10 ^ 18) * (1 / b) := by linarith
  have h5 : (1 - 112 / 10 ^ 18) * (1 / a) ≤ fl (1 / a) := by linarith
  refine le_trans (mul_le_mul_of_nonneg_right h4 (by linarith)) (le_trans ?_ h5)
  have h6 : (1 - 112 / 10 ^ 18) * (1 / b * (1 + δ)) ≤ (1 - 112 / 10 ^ 18) * (1 / a) :=
    mul_le_mul_of_nonneg_left h3 (by norm_num)
  refine le_trans ?_ h6
  have h7 : (1 + 112 / 10 ^ 18) * (1 + δ') ≤ (1 - 112 / 10 ^ 18) * (1 + δ) := by
    have : δ' ≤ 1 := by linarith
    linarith
  have := mul_le_mul_of_nonneg_left h7 hB.le
  linarith

/-! ## The even grids -/

/-- The step that numpy multiplies. -/
private theorem step_near {a b s : ℚ} (ha : 1 / 10 ^ 140 ≤ a) (hab : a < b) (hs : b ≤ 10 ^ 10 * s) :
    |fl (a + s) - (a + s)| ≤ 112 / 10 ^ 18 * (a + s) ∧ |fl (fl (a + s) - a) - (fl (a + s) - a)| ≤ 12 / 10 ^ 17 * s ∧
    |fl (a + s) - a - s| ≤ 112 / 10 ^ 18 * (a + s) := by
  have ha0 : 0 < a := lt_of_lt_of_le (by norm_num) ha
  have hs0 : 1 / 10 ^ 150 ≤ s := by
    have : (1 : ℚ) / 10 ^ 150 * 10 ^ 10 = 1 / 10 ^ 140 := by norm_num
    nlinarith
  have hsp : 0 < s := lt_of_lt_of_le (by norm_num) hs0
  have e1 := fl_relQ (q := a + s) (by linarith)
  have e1' := abs_le.1 e1
  have hd : 1 / 10 ^ 250 ≤ 1 / 10 ^ 19 * s := by
    have : (1 : ℚ) / 10 ^ 250 ≤ 1 / 10 ^ 19 * (1 / 10 ^ 150) := by norm_num
    linarith
  have hlo : 0 ≤ fl (a + s) - a := by linarith
  have e2 := fl_anyQ hlo
  refine ⟨e1, e2.trans ?_, by rw [show fl (a + s) - a - s = fl (a + s) - (a + s) by ring]; exact e1⟩
  linarith

/-- How many numbers `np.arange` makes. -/
private theorem count_le {a b s : ℚ} (ha : 1 / 10 ^ 140 ≤ a) (hab : a < b) (hs : b ≤ 10 ^ 10 * s) {i : ℕ}
    (hi : i < ⌈fl (fl (b - a) / s)⌉₊) : (i : ℚ) * s ≤ (1 + 23 / 10 ^ 17) * (b - a) + 1 / 10 ^ 80 * b := by
  have ha0 : 0 < a := lt_of_lt_of_le (by norm_num) ha
  have hs0 : 1 / 10 ^ 150 ≤ s := by
    have : (1 : ℚ) / 10 ^ 150 * 10 ^ 10 = 1 / 10 ^ 140 := by norm_num
    nlinarith
  have hsp : 0 < s := lt_of_lt_of_le (by norm_num) hs0
  rcases Nat.eq_zero_or_pos i with rfl | hi1
  · have h1 : 0 < b - a := by linarith
    have h2 : 0 < b := by linarith
    rw [Nat.cast_zero, zero_mul]
    positivity
  have h := Nat.lt_ceil.1 hi
  have h1 := (abs_le.1 (fl_anyQ (q := b - a) (by linarith))).2
  have h2 : 0 ≤ fl (b - a) := fl_nonneg (by linarith)
  have h3 := (abs_le.1 (fl_anyQ (q := fl (b - a) / s) (by positivity))).2
  have h4 : (i : ℚ) ≤ (1 + 112 / 10 ^ 18) * (fl (b - a) / s) + 1 / 10 ^ 250 := by linarith
  have h5 : (i : ℚ) * s ≤ (1 + 112 / 10 ^ 18) * fl (b - a) + 1 / 10 ^ 250 * s := by
    have := mul_le_mul_of_nonneg_right h4 hsp.le
    have e : ((1 + 112 / 10 ^ 18) * (fl (b - a) / s) + 1 / 10 ^ 250) * s = (1 + 112 / 10 ^ 18) * fl (b - a) + 1 / 10 ^ 250 * s := by
      field_simp
    linarith
  have h6 : (1 : ℚ) / 10 ^ 250 ≤ 1 / 10 ^ 90 * b := by
    have : (1 : ℚ) / 10 ^ 250 ≤ 1 / 10 ^ 90 * (1 / 10 ^ 140) := by norm_num
    linarith
  have h7 : (1 : ℚ) / 10 ^ 250 * s ≤ 1 / 10 ^ 90 * s := mul_le_mul_of_nonneg_right (by norm_num) hsp.le
  have h8 : s ≤ i * s := le_mul_of_one_le_left hsp.le (by exact_mod_cast hi1)
  have hsb : s ≤ 2 * b := by linarith
  linarith

/-- The step is close to the wanted one. -/
private theorem step_le {a b s : ℚ} (ha : 1 / 10 ^ 140 ≤ a) (hab : a < b) (hs : b ≤ 10 ^ 10 * s) :
    99999 / 100000 * s ≤ fl (fl (a + s) - a) ∧ fl (fl (a + s) - a) ≤ 100001 / 100000 * s ∧
    (a ≤ s → fl (fl (a + s) - a) ≤ (1 + 35 / 10 ^ 17) * s) := by
  have ha0 : 0 < a := lt_of_lt_of_le (by norm_num) ha
  obtain ⟨-, h2, h3⟩ := step_near ha hab hs
  have h2' := abs_le.1 h2
  have h3' := abs_le.1 h3
  refine ⟨by linarith, by linarith, fun h => by linarith⟩

/-- Every entry is close to its place on a grid with the step that numpy multiplies. -/
private theorem entry_near {a b s : ℚ} (ha : 1 / 10 ^ 140 ≤ a) (hab : a < b) (hs : b ≤ 10 ^ 10 * s) {i : ℕ}
    (hi : i < ⌈fl (fl (b - a) / s)⌉₊) :
    |PressureVolume64.entry a s i - (a + i * fl (fl (a + s) - a))| ≤ 4 / 10 ^ 16 * b := by
  have ha0 : 0 < a := lt_of_lt_of_le (by norm_num) ha
  have hb0 : 0 < b := by linarith
  have hc := count_le ha hab hs hi
  obtain ⟨d1, d2, -⟩ := step_le ha hab hs
  obtain ⟨-, h2, h3⟩ := step_near ha hab hs
  match i, hi, hc with
  | 0, _, _ =>
    simp only [PressureVolume64.entry, Nat.cast_zero, zero_mul, add_zero, sub_self, abs_zero]
    positivity
  | 1, _, hc =>
    simp only [PressureVolume64.entry, Nat.cast_one, one_mul] at hc ⊢
    rw [show fl (a + s) - (a + fl (fl (a + s) - a)) = -(fl (fl (a + s) - a) - (fl (a + s) - a)) by ring, abs_neg]
    linarith
  | j + 2, _, hc =>
    simp only [PressureVolume64.entry]
    generalize fl (fl (a + s) - a) = d at *
    have hj : (1 : ℚ) ≤ ((j + 2 : ℕ) : ℚ) := by exact_mod_cast (by omega : 1 ≤ j + 2)
    generalize ((j + 2 : ℕ) : ℚ) = k at *
    have hs0 : 0 < s := by linarith
    have hd0 : 0 < d := by linarith
    have hx1 : k * d ≤ 100001 / 100000 * (k * s) := by
      have := mul_le_mul_of_nonneg_left d2 (by linarith : (0 : ℚ) ≤ k)
      linarith
    have hx0 : 0 ≤ k * d := by positivity
    have e1 := abs_le.1 (fl_anyQ hx0)
    have hx2 : 0 ≤ fl (k * d) := fl_nonneg hx0
    have e2 := abs_le.1 (fl_relQ (q := a + fl (k * d)) (by
      have : (1 : ℚ) / 10 ^ 150 ≤ 1 / 10 ^ 140 := by norm_num
      linarith))
    have h6 : (1 : ℚ) / 10 ^ 250 ≤ 1 / 10 ^ 90 * b := by
      have : (1 : ℚ) / 10 ^ 250 ≤ 1 / 10 ^ 90 * (1 / 10 ^ 140) := by norm_num
      linarith
    rw [abs_le]
    constructor <;> linarith

/-- **C171, grid**: two entries of `np.arange` are at least 0.99 steps apart, so no two doubles coincide as long as the step is
not smaller than the last number divided by 10^10; all lie between the ends, the last one up to rounding. -/
theorem c171_arange {a b s : ℚ} (ha : 1 / 10 ^ 140 ≤ a) (hab : a < b) (hs : b ≤ 10 ^ 10 * s) :
    (s ≤ fl (b - a) → ∃ l, PressureVolume64.arange a b s = a :: l) ∧
    (PressureVolume64.arange a b s).Pairwise (fun x y => 99 / 100 * s ≤ y - x) ∧
    (∀ x ∈ PressureVolume64.arange a b s, a ≤ x ∧ x ≤ 1001 / 1000 * b) ∧
    (a ≤ s → ∀ x ∈ PressureVolume64.arange a b s, x ≤ (1 + 2 / 10 ^ 15) * b) ∧
    Apart (9 / 10 ^ 11) (PressureVolume64.arange a b s) := by
  have ha0 : 0 < a := lt_of_lt_of_le (by norm_num) ha
  have hb0 : 0 < b := by linarith
  have hs0 : 0 < s := by linarith
  obtain ⟨d1, d2, d3⟩ := step_le ha hab hs
  have near := fun i => entry_near ha hab hs (i := i)
  have cnt := fun i => count_le ha hab hs (i := i)
  have gap : ∀ i j, i < j → j < ⌈fl (fl (b - a) / s)⌉₊ →
      99 / 100 * s ≤ PressureVolume64.entry a s j - PressureVolume64.entry a s i := by
    intro i j hij hj
    have h1 := (abs_le.1 (near j hj)).1
    have h2 := (abs_le.1 (near i (hij.trans hj))).2
    have h3 : ((i : ℚ) + 1) * fl (fl (a + s) - a) ≤ j * fl (fl (a + s) - a) :=
      mul_le_mul_of_nonneg_right (by exact_mod_cast hij) (by linarith)
    generalize fl (fl (a + s) - a) = d at *
    linarith
  have low : ∀ i, i < ⌈fl (fl (b - a) / s)⌉₊ → a ≤ PressureVolume64.entry a s i := by
    intro i hi
    rcases Nat.eq_zero_or_pos i with rfl | h
    · exact le_rfl
    · have := gap 0 i h hi
      simp only [PressureVolume64.entry] at this ⊢
      linarith
  have high : ∀ i, i < ⌈fl (fl (b - a) / s)⌉₊ → PressureVolume64.entry a s i ≤ 1001 / 1000 * b := by
    intro i hi
    have h1 := (abs_le.1 (near i hi)).2
    have h2 := cnt i hi
    have h3 := mul_le_mul_of_nonneg_left d2 (Nat.cast_nonneg (α := ℚ) i)
    generalize fl (fl (a + s) - a) = d at *
    linarith
  have high' : a ≤ s → ∀ i, i < ⌈fl (fl (b - a) / s)⌉₊ → PressureVolume64.entry a s i ≤ (1 + 2 / 10 ^ 15) * b := by
    intro has i hi
    have h1 := (abs_le.1 (near i hi)).2
    have h2 := cnt i hi
    have h3 := mul_le_mul_of_nonneg_left (d3 has) (Nat.cast_nonneg (α := ℚ) i)
    generalize fl (fl (a + s) - a) = d at *
    linarith
  refine ⟨fun hlen => ?_, ?_, ?_, ?_, ?_⟩
  · have hpos : 0 < ⌈fl (fl (b - a) / s)⌉₊ := by
      rw [Nat.ceil_pos]
      exact lt_of_lt_of_le one_pos (double_le_fl fl_one ((one_le_div hs0).2 hlen))
    obtain ⟨N, hN⟩ := Nat.exists_eq_succ_of_ne_zero hpos.ne'
    refine ⟨((List.range N).map Nat.succ).map (PressureVolume64.entry a s), ?_⟩
    unfold PressureVolume64.arange
    rw [hN, List.range_succ_eq_map]
    rfl
  · unfold PressureVolume64.arange
    rw [List.pairwise_map]
    exact List.pairwise_lt_range.imp_of_mem fun _ hj hij => gap _ _ hij (List.mem_range.1 hj)
  · intro x hx
    obtain ⟨i, hi, rfl⟩ := List.mem_map.1 hx
    exact ⟨low i (List.mem_range.1 hi), high i (List.mem_range.1 hi)⟩
  · intro has x hx
    obtain ⟨i, hi, rfl⟩ := List.mem_map.1 hx
    exact high' has i (List.mem_range.1 hi)
  · unfold PressureVolume64.arange Apart
    rw [List.pairwise_map]
    refine List.pairwise_lt_range.imp_of_mem fun {i j} hi hj hij => ?_
    have h1 := gap _ _ hij (List.mem_range.1 hj)
    have h2 := high i (List.mem_range.1 hi)
    linarith

/-- The grid of the densities of a fluid with at most 2 mol/m3. -/
example : PressureVolume64.arange (1 / 2) 2 (1 / 2) = [1 / 2, 1, 3 / 2] := by decide +kernel

/-! ## The finer grid in the volume -/

private theorem apart_reverse_inverse {l : List ℚ} (h : Apart (9 / 10 ^ 11) l) (hl : ∀ x ∈ l, 1 / 10 ^ 140 ≤ x ∧ x ≤ 10 ^ 140) :
    Apart (8 / 10 ^ 11) (l.reverse.map fun v => fl (1 / v)) := by
  unfold Apart at *
  rw [List.pairwise_map, List.pairwise_reverse]
  exact h.imp_of_mem fun {x y} hx hy hxy =>
    inverse_apart (hl x hx).1 (hl y hy).2 (by norm_num) (by norm_num) (by norm_num) hxy

private theorem vspace_getElem {r : List ℚ} {k : ℕ} {x : ℚ} (h : (PressureVolume64.vspace r)[k]? = some x) :
    ∃ a b, r[k]? = some a ∧ r[k + 1]? = some b ∧ x = fl (fl (1 / a) - fl (1 / b)) := by
  unfold PressureVolume64.vspace at h
  rw [List.getElem?_zipWith_eq_some] at h
  obtain ⟨a, b, h1, h2, rfl⟩ := h
  rw [List.getElem?_tail] at h2
  exact ⟨a, b, h1, h2, rfl⟩

private theorem inv_bounds {q : ℚ} (h : 1 / 10 ^ 140 ≤ q) (h' : q ≤ 10 ^ 140) :
    (1 - 112 / 10 ^ 18) * (1 / q) ≤ fl (1 / q) ∧ fl (1 / q) ≤ (1 + 112 / 10 ^ 18) * (1 / q) := by
  have h0 : 0 < q := lt_of_lt_of_le (by norm_num) h
  have h1 : 1 / 10 ^ 150 ≤ 1 / q := by
    rw [div_le_div_iff₀ (by positivity) h0]
    have : (10 : ℚ) ^ 140 ≤ 10 ^ 150 := by norm_num
    linarith
  have := abs_le.1 (fl_relQ h1)
  constructor <;> linarith

/-- **C171, change of grid**: where the densities are replaced by an even grid in the volume, they stay apart, the two parts
fit together, and all stay above a third of the lowest density and, up to rounding, not above the largest one. -/
theorem c171_regrid {minrho dv top : ℚ} {r r' : List ℚ} (hm : 1 / 10 ^ 100 ≤ minrho) (hdv : 11 / 10 ≤ 10 ^ 10 * (dv * minrho))
    (htop : top ≤ 10 ^ 100) (hr : Apart (9 / 10 ^ 11) r) (h0 : ∃ l, r = minrho :: l) (hb : ∀ x ∈ r, minrho ≤ x ∧ x ≤ top)
    (h : PressureVolume64.regrid minrho dv r = .ok r') :
    Apart (7 / 10 ^ 11) r' ∧ (∀ x ∈ r', minrho / 3 ≤ x ∧ x ≤ (1 + 1 / 10 ^ 15) * top) ∧ r' ≠ [] := by
  have hm0 : 0 < minrho := lt_of_lt_of_le (by norm_num) hm
  have hm1 : (1 : ℚ) / 10 ^ 140 ≤ minrho := le_trans (by norm_num) hm
  have ht1 : top ≤ 10 ^ 140 := htop.trans (by norm_num)
  unfold PressureVolume64.regrid at h
  split at h
  · cases h
  split at h
  · cases h
    obtain ⟨l, rfl⟩ := h0
    refine ⟨hr.imp_of_mem fun {x y} hx _ hxy => ?_, fun x hx => ⟨?_, ?_⟩, by simp⟩
    · have := (hb x hx).1
      linarith
    · have := (hb x hx).1
      linarith
    · have := hb x hx
      linarith
  rename_i k hk
  split at h
  · cases h
  rename_i q hq
  cases h
  have hkm := (whereBig_mem dv (PressureVolume64.vspace r) k).1 (List.mem_of_getLast? hk)
  obtain ⟨g, hg, hgdv⟩ := hkm
  obtain ⟨p, q', hp, hq', rfl⟩ := vspace_getElem hg
  obtain rfl : q' = q := by rw [hq] at hq'; exact (Option.some.inj hq').symm
  have hqr := List.mem_of_getElem? hq
  have hpr := List.mem_of_getElem? hp
  have hqb := hb _ hqr
  have hq0 : 0 < q' := lt_of_lt_of_le hm0 hqb.1
  have hqa : minrho * (1 + 9 / 10 ^ 11) ≤ q' := by
    obtain ⟨l, rfl⟩ := h0
    rw [List.getElem?_cons_succ] at hq
    exact (List.pairwise_cons.1 hr).1 _ (List.mem_of_getElem? hq)
  have hqi := inv_bounds (hm1.trans hqb.1) (hqb.2.trans ht1)
  have hmi := inv_bounds hm1 ((hqb.1.trans hqb.2).trans ht1)
  have hpi : fl (1 / p) ≤ fl (1 / minrho) := fl_mono (one_div_le_one_div_of_le hm0 (hb p hpr).1)
  have hab' := inverse_apart (δ' := 8 / 10 ^ 11) hm1 (hqb.2.trans ht1) (by norm_num) (by norm_num) (by norm_num) hqa
  have hiq : 1 / 10 ^ 100 ≤ 1 / q' := one_div_le_one_div_of_le hq0 (hqb.2.trans htop)
  have him : 1 / minrho ≤ 10 ^ 100 := by
    rw [div_le_iff₀ hm0]
    have : (1 : ℚ) / 10 ^ 100 * 10 ^ 100 = 1 := by norm_num
    nlinarith
  have hdv' : 1 / minrho ≤ 10 / 11 * (10 ^ 10 * dv) := by
    rw [div_le_iff₀ hm0]
    linarith
  have eq1 : 1 / q' * q' = 1 := one_div_mul_cancel hq0.ne'
  have em1 : 1 / minrho * minrho = 1 := one_div_mul_cancel hm0.ne'
  have hip : 0 < 1 / minrho := by positivity
  have hfg : fl (fl (1 / p) - fl (1 / q')) ≤ fl (fl (1 / minrho) - fl (1 / q')) := fl_mono (by linarith)
  generalize ha : fl (1 / q') = a at *
  generalize hbb : fl (1 / minrho) = b at *
  have ha1 : 1 / 10 ^ 140 ≤ a := by
    have : (1 : ℚ) / 10 ^ 140 ≤ (1 - 112 / 10 ^ 18) * (1 / 10 ^ 100) := by norm_num
    linarith
  have ha0 : 0 < a := lt_of_lt_of_le (by norm_num) ha1
  have hlt : a < b := by linarith
  have hb1 : 1001 / 1000 * b ≤ 10 ^ 140 := by
    have : (1001 : ℚ) / 1000 * ((1 + 112 / 10 ^ 18) * 10 ^ 100) ≤ 10 ^ 140 := by norm_num
    linarith
  obtain ⟨g1, -, g3, -, g5⟩ := c171_arange ha1 hlt (by linarith : b ≤ 10 ^ 10 * dv)
  obtain ⟨l2, hl2⟩ := g1 (hgdv.le.trans hfg)
  have hin : ∀ x ∈ (PressureVolume64.arange a b dv).reverse.map fun v => fl (1 / v),
      minrho / 3 ≤ x ∧ x ≤ (1 + 3 / 10 ^ 16) * q' := by
    intro x hx
    obtain ⟨v, hv, rfl⟩ := List.mem_map.1 hx
    obtain ⟨v1, v2⟩ := g3 v (List.mem_reverse.1 hv)
    have hv0 : 0 < v := lt_of_lt_of_le ha0 v1
    have hvi := inv_bounds (ha1.trans v1) (v2.trans hb1)
    constructor
    · refine le_trans ?_ hvi.1
      have h1 : v * minrho ≤ 2 := by nlinarith
      have h2 : minrho / 2 ≤ 1 / v := by
        rw [le_div_iff₀ hv0]
        linarith
      linarith
    · refine hvi.2.trans ?_
      have h1 : 1 / v ≤ (1 + 115 / 10 ^ 18) * q' := by
        rw [div_le_iff₀ hv0]
        have h2 : (1 + 115 / 10 ^ 18) * q' * ((1 - 112 / 10 ^ 18) * (1 / q')) ≤ (1 + 115 / 10 ^ 18) * q' * v :=
          mul_le_mul_of_nonneg_left (hqi.1.trans v1) (by positivity)
        have h3 : (1 + 115 / 10 ^ 18) * q' * ((1 - 112 / 10 ^ 18) * (1 / q')) = (1 + 115 / 10 ^ 18) * (1 - 112 / 10 ^ 18) * (1 / q' * q') := by
          ring
        rw [h3, eq1] at h2
        exact le_trans (by norm_num) h2
      linarith
  have hdrop : ∀ y ∈ r.drop (k + 2), q' * (1 + 9 / 10 ^ 11) ≤ y := by
    intro y hy
    obtain ⟨t, ht, rfl⟩ := List.mem_iff_getElem.1 hy
    rw [List.length_drop] at ht
    rw [List.getElem_drop]
    obtain ⟨hk1, rfl⟩ := List.getElem?_eq_some_iff.1 hq
    exact List.pairwise_iff_getElem.1 hr (k + 1) (k + 2 + t) hk1 (by omega) (by omega)
  refine ⟨?_, ?_, ?_⟩
  · unfold Apart
    rw [List.pairwise_append]
    refine ⟨?_, ?_, ?_⟩
    · refine (apart_reverse_inverse g5 fun x hx => ⟨ha1.trans (g3 x hx).1, (g3 x hx).2.trans hb1⟩).imp_of_mem
        fun {x y} hx _ hxy => ?_
      have := (hin x hx).1
      linarith
    · refine (hr.sublist (List.drop_sublist _ _)).imp_of_mem fun {x y} hx _ hxy => ?_
      have := (hb x (List.mem_of_mem_drop hx)).1
      linarith
    · intro x hx y hy
      have h1 := (hin x hx).2
      have h2 := hdrop y hy
      linarith
  · intro x hx
    rcases List.mem_append.1 hx with hx | hx
    · have := hin x hx
      exact ⟨this.1, by linarith⟩
    · have := hb x (List.mem_of_mem_drop hx)
      exact ⟨by linarith, by linarith⟩
  · rw [hl2]
    simp

/-! ## The extension to low pressures -/

/-- The half and the step of `np.linspace`. -/
private theorem half_near {m q : ℚ} (hq : 1 / 10 ^ 139 ≤ q) (h1 : 1 ≤ m) (h2 : m ≤ 10 ^ 9) :
    |fl (q / 2) - q / 2| ≤ 6 / 10 ^ 17 * q ∧
    |m * fl (fl (q - fl (q / 2)) / m) - q / 2| ≤ 2 / 10 ^ 16 * q := by
  have hq0 : 0 < q := lt_of_lt_of_le (by norm_num) hq
  have hm0 : 0 < m := by linarith
  have hn : (1 : ℚ) / 10 ^ 150 ≤ 1 / 10 ^ 10 * (1 / 10 ^ 139) := by norm_num
  have e1 := abs_le.1 (fl_relQ (q := q / 2) (by linarith))
  have e2 := abs_le.1 (fl_relQ (q := q - fl (q / 2)) (by linarith))
  generalize fl (q / 2) = s at *
  have hΔ : 1 / 4 * q ≤ fl (q - s) := by linarith
  generalize fl (q - s) = Δ at *
  have h3 : 1 / 10 ^ 9 * (1 / 4 * q) ≤ Δ / m := by
    rw [le_div_iff₀ hm0]
    nlinarith
  have e3 := abs_le.1 (fl_relQ (q := Δ / m) (by linarith))
  have e4 : m * (Δ / m) = Δ := by field_simp
  have u1 := mul_le_mul_of_nonneg_left e3.1 hm0.le
  have u2 := mul_le_mul_of_nonneg_left e3.2 hm0.le
  have e5 : m * (112 / 10 ^ 18 * (Δ / m)) = 112 / 10 ^ 18 * Δ := by rw [← e4]; field_simp
  have e6 : m * (-(112 / 10 ^ 18 * (Δ / m))) = -(112 / 10 ^ 18 * Δ) := by rw [← e5]; ring
  rw [e6, mul_sub, e4] at u1
  rw [e5, mul_sub, e4] at u2
  constructor <;> rw [abs_le] <;> constructor <;> linarith

/-- **C171** Every point is close to its place on a grid with the rounded step. -/
theorem c171_point {npts : ℕ} {q : ℚ} (hq : 1 / 10 ^ 139 ≤ q) (h2 : (npts : ℚ) ≤ 10 ^ 9) {i : ℕ} (hi : i < npts - 1) :
    |PressureVolume64.point npts q i - (fl (q / 2) + i * fl (fl (q - fl (q / 2)) / ((npts : ℚ) - 1)))| ≤ 3 / 10 ^ 16 * q := by
  have hq0 : 0 < q := lt_of_lt_of_le (by norm_num) hq
  have hm : (i : ℚ) + 1 ≤ (npts : ℚ) - 1 := by
    have : i + 2 ≤ npts := by omega
    have : ((i + 2 : ℕ) : ℚ) ≤ npts := by exact_mod_cast this
    push_cast at this
    linarith
  have hi0 : (0 : ℚ) ≤ i := Nat.cast_nonneg i
  obtain ⟨e1, e2⟩ := half_near hq (m := (npts : ℚ) - 1) (by linarith) (by linarith)
  unfold PressureVolume64.point
  have hst : 0 ≤ fl (fl (q - fl (q / 2)) / ((npts : ℚ) - 1)) := by
    refine fl_nonneg (div_nonneg (fl_nonneg ?_) (by linarith))
    have := (abs_le.1 e1).2
    linarith
  generalize fl (fl (q - fl (q / 2)) / ((npts : ℚ) - 1)) = st at *
  generalize fl (q / 2) = s at *
  generalize (npts : ℚ) - 1 = m at *
  generalize (i : ℚ) = k at *
  have hks : k * st ≤ m * st := mul_le_mul_of_nonneg_right (by linarith) hst
  have hk0 : 0 ≤ k * st := mul_nonneg hi0 hst
  have e1' := abs_le.1 e1
  have e2' := abs_le.1 e2
  have e3 := abs_le.1 (fl_anyQ hk0)
  have hf0 := fl_nonneg hk0
  have e4 := abs_le.1 (fl_relQ (q := fl (k * st) + s) (by
    have : (1 : ℚ) / 10 ^ 150 ≤ 1 / 10 * (1 / 10 ^ 139) := by norm_num
    linarith))
  have ht : (1 : ℚ) / 10 ^ 250 ≤ 1 / 10 ^ 90 * q := by
    have : (1 : ℚ) / 10 ^ 250 ≤ 1 / 10 ^ 90 * (1 / 10 ^ 139) := by norm_num
    linarith
  rw [abs_le]
  constructor <;> linarith

/-- **C171, extension**: the points put in front of the lowest density are apart from each other and from it, and not below its
half (up to rounding). -/
theorem c171_extend_once {npts : ℕ} {q hi : ℚ} {r : List ℚ} (hq : 1 / 10 ^ 139 ≤ q) (h2 : (npts : ℚ) ≤ 10 ^ 9)
    (h : Apart (7 / 10 ^ 11) (q :: r)) (hb : ∀ x ∈ q :: r, q ≤ x ∧ x ≤ hi) :
    Apart (7 / 10 ^ 11) (PressureVolume64.extendOnce npts (q :: r)) ∧
    (∀ x ∈ PressureVolume64.extendOnce npts (q :: r), 49 / 100 * q ≤ x ∧ x ≤ hi) ∧
    ∃ l, PressureVolume64.extendOnce npts (q :: r) = l ++ q :: r := by
  have hq0 : 0 < q := lt_of_lt_of_le (by norm_num) hq
  have facts : ∀ i, i < npts - 1 → 49 / 100 * q ≤ PressureVolume64.point npts q i ∧
      PressureVolume64.point npts q i * (1 + 7 / 10 ^ 11) ≤ q ∧ ∀ j, i < j → j < npts - 1 →
        PressureVolume64.point npts q i * (1 + 7 / 10 ^ 11) ≤ PressureVolume64.point npts q j := by
    intro i hi
    have hm : (i : ℚ) + 1 ≤ (npts : ℚ) - 1 := by
      have : i + 2 ≤ npts := by omega
      have : ((i + 2 : ℕ) : ℚ) ≤ npts := by exact_mod_cast this
      push_cast at this
      linarith
    have hi0 : (0 : ℚ) ≤ i := Nat.cast_nonneg i
    have near := fun j => c171_point hq h2 (i := j)
    obtain ⟨e1, e2⟩ := half_near hq (m := (npts : ℚ) - 1) (by linarith) (by linarith)
    generalize PressureVolume64.point npts q = f at *
    generalize fl (fl (q - fl (q / 2)) / ((npts : ℚ) - 1)) = st at *
    generalize fl (q / 2) = s at *
    have hm9 : (npts : ℚ) - 1 ≤ 10 ^ 9 := by linarith
    generalize (npts : ℚ) - 1 = m at *
    have e1' := abs_le.1 e1
    have e2' := abs_le.1 e2
    have hst : 49 / 100 * (1 / 10 ^ 9) * q ≤ st := by
      by_contra hc
      push Not at hc
      have hm0 : 0 < m := by linarith
      rcases le_or_gt st 0 with hs0 | hs0
      · have : m * st ≤ 0 := mul_nonpos_of_nonneg_of_nonpos hm0.le hs0
        linarith
      · have : m * st ≤ 10 ^ 9 * st := mul_le_mul_of_nonneg_right hm9 hs0.le
        linarith
    have hst0 : 0 ≤ st := le_trans (by positivity) hst
    have n1 := abs_le.1 (near i hi)
    have hks : ((i : ℚ) + 1) * st ≤ m * st := mul_le_mul_of_nonneg_right hm hst0
    have hk0 : 0 ≤ (i : ℚ) * st := mul_nonneg hi0 hst0
    refine ⟨by linarith, by linarith, fun j hij hj => ?_⟩
    have n2 := abs_le.1 (near j hj)
    have hjs : ((i : ℚ) + 1) * st ≤ j * st := mul_le_mul_of_nonneg_right (by exact_mod_cast hij) hst0
    linarith
  refine ⟨?_, ?_, ⟨_, rfl⟩⟩
  · unfold PressureVolume64.extendOnce Apart
    rw [List.pairwise_append]
    refine ⟨?_, h, ?_⟩
    · rw [List.pairwise_map]
      exact List.pairwise_lt_range.imp_of_mem fun {i j} hi hj hij =>
        (facts i (List.mem_range.1 hi)).2.2 j hij (List.mem_range.1 hj)
    · intro x hx y hy
      obtain ⟨i, hi, rfl⟩ := List.mem_map.1 hx
      exact (facts i (List.mem_range.1 hi)).2.1.trans (hb y hy).1
  · intro x hx
    rcases List.mem_append.1 hx with hx | hx
    · obtain ⟨i, hi, rfl⟩ := List.mem_map.1 hx
      have f := facts i (List.mem_range.1 hi)
      have := (hb q List.mem_cons_self).2
      exact ⟨f.1, by linarith [f.1, f.2.1]⟩
    · have := hb x hx
      exact ⟨by linarith, this.2⟩

/-- The lowest density is the first. -/
private theorem head_lowest {q hi : ℚ} {r : List ℚ} (hq : 0 < q) (h : Apart (7 / 10 ^ 11) (q :: r)) (hb : ∀ x ∈ q :: r, x ≤ hi) :
    ∀ x ∈ q :: r, q ≤ x ∧ x ≤ hi := by
  intro x hx
  refine ⟨?_, hb x hx⟩
  rcases List.mem_cons.1 hx with rfl | hx'
  · exact le_rfl
  · have := (List.pairwise_cons.1 h).1 x hx'
    linarith

/-- **C171, extensions**: after any number of extensions the densities are still apart. -/
theorem c171_extend (P : ℚ → ℚ) (pmin : ℚ) {npts : ℕ} (h2 : (npts : ℚ) ≤ 10 ^ 9) (n : ℕ) :
    ∀ (lo hi : ℚ) (r : List ℚ), 1 / 10 ^ 139 ≤ (49 / 100) ^ n * lo → Apart (7 / 10 ^ 11) r → (∀ x ∈ r, lo ≤ x ∧ x ≤ hi) →
    Apart (7 / 10 ^ 11) (PressureVolume64.extend P pmin npts n r) ∧
    (∀ x ∈ PressureVolume64.extend P pmin npts n r, (49 / 100) ^ n * lo ≤ x ∧ x ≤ hi) ∧
    ∃ l, PressureVolume64.extend P pmin npts n r = l ++ r := by
  induction n with
  | zero =>
    intro lo hi r _ h hb
    refine ⟨h, fun x hx => ?_, [], rfl⟩
    have := hb x hx
    exact ⟨by linarith, this.2⟩
  | succ n ih =>
    intro lo hi r hlo h hb
    have hp1 : (49 / 100 : ℚ) ^ (n + 1) ≤ 1 := pow_le_one₀ (by norm_num) (by norm_num)
    have hl0 : 0 < lo := by
      have : (0 : ℚ) < (49 / 100) ^ (n + 1) * lo := lt_of_lt_of_le (by norm_num) hlo
      exact (mul_pos_iff_of_pos_left (by positivity)).1 this
    have hlo' : (49 / 100 : ℚ) ^ (n + 1) * lo ≤ lo := mul_le_of_le_one_left hl0.le hp1
    unfold PressureVolume64.extend
    match r, h, hb with
    | [], h, hb => exact ⟨h, by simp, [], rfl⟩
    | q :: r', h, hb =>
      have hq := hb q List.mem_cons_self
      have hq0 : 0 < q := by linarith
      have hl := head_lowest hq0 h fun x hx => (hb x hx).2
      dsimp only
      split_ifs with hP
      · obtain ⟨f1, f2, l, f3⟩ := c171_extend_once (hlo.trans (hlo'.trans hq.1)) h2 h hl
        have e : (49 / 100 : ℚ) ^ n * (49 / 100 * lo) = (49 / 100) ^ (n + 1) * lo := by rw [pow_succ]; ring
        obtain ⟨g1, g2, l', g3⟩ := ih (49 / 100 * lo) hi _ (by rw [e]; exact hlo) f1 fun x hx =>
          ⟨by linarith [(f2 x hx).1], (f2 x hx).2⟩
        rw [e] at g2
        exact ⟨g1, g2, l' ++ l, by rw [g3, f3, List.append_assoc]⟩
      · refine ⟨h, fun x hx => ?_, [], rfl⟩
        have := hb x hx
        exact ⟨by linarith, this.2⟩

/-! ## The whole curve -/


/-- **C171** The extension goes on exactly while the pressure at the lowest density is above the wanted one: in the end it is not, or the
lowest density has come close to a half at each of the steps allowed; and nothing is put in front when it is not to begin with. -/
theorem c171_reaches (P : ℚ → ℚ) (pmin : ℚ) {npts : ℕ} (h1 : 2 ≤ npts) (h2 : (npts : ℚ) ≤ 10 ^ 9) (n : ℕ) :
    ∀ (q : ℚ) (r : List ℚ), 1 / 10 ^ 139 ≤ (49 / 100) ^ n * q →
    (P q ≤ pmin → PressureVolume64.extend P pmin npts n (q :: r) = q :: r) ∧
    ∃ q' l, PressureVolume64.extend P pmin npts n (q :: r) = q' :: l ∧ (P q' ≤ pmin ∨ q' ≤ (51 / 100) ^ n * q) := by
  induction n with
  | zero =>
    intro q r _
    exact ⟨fun _ => rfl, q, r, rfl, Or.inr (by simp)⟩
  | succ n ih =>
    intro q r hq
    have hpow : (49 / 100 : ℚ) ^ (n + 1) ≤ 1 := pow_le_one₀ (by norm_num) (by norm_num)
    have hpos : (0 : ℚ) < (49 / 100) ^ (n + 1) := by positivity
    have hq0 : 0 < q := by
      by_contra hc
      have := mul_nonpos_of_nonneg_of_nonpos hpos.le (not_lt.1 hc)
      have h3 : (0 : ℚ) < 1 / 10 ^ 139 := by norm_num
      linarith
    have hq1 : 1 / 10 ^ 139 ≤ q := hq.trans (mul_le_of_le_one_left hq0.le hpow)
    refine ⟨fun hp => ?_, ?_⟩
    · simp only [PressureVolume64.extend]
      rw [if_neg (by simpa using hp)]
    · simp only [PressureVolume64.extend]
      by_cases hp : P q > pmin
      · rw [if_pos hp]
        obtain ⟨m, rfl⟩ : ∃ m, npts = m + 2 := ⟨npts - 2, by omega⟩
        have c := abs_le.1 (c171_point hq1 h2 (i := 0) (by omega))
        have d := abs_le.1 (fl_relQ (q := q / 2) (by
          have : (1 : ℚ) / 10 ^ 150 ≤ 1 / 10 ^ 10 * (1 / 10 ^ 139) := by norm_num
          linarith))
        have e : PressureVolume64.extendOnce (m + 2) (q :: r) =
            PressureVolume64.point (m + 2) q 0 :: (((List.range m).map Nat.succ).map (PressureVolume64.point (m + 2) q) ++ q :: r) := by
          simp only [PressureVolume64.extendOnce, show m + 2 - 1 = m + 1 by omega, List.range_succ_eq_map, List.map_cons, List.cons_append]
        rw [e]
        rw [Nat.cast_zero, zero_mul, add_zero] at c
        generalize PressureVolume64.point (m + 2) q 0 = q1 at *
        have g1 : 49 / 100 * q ≤ q1 := by linarith
        have g2 : q1 ≤ 51 / 100 * q := by linarith
        obtain ⟨_, q', l, h3, h4⟩ := ih q1 (((List.range m).map Nat.succ).map (PressureVolume64.point (m + 2) q) ++ q :: r) (by
          rw [pow_succ (49 / 100 : ℚ) n, mul_assoc] at hq
          exact hq.trans (mul_le_mul_of_nonneg_left g1 (by positivity)))
        refine ⟨q', l, h3, h4.imp id fun h => h.trans ?_⟩
        rw [pow_succ (51 / 100 : ℚ) n, mul_assoc]
        exact mul_le_mul_of_nonneg_left g2 (by positivity)
      · rw [if_neg hp]
        exact ⟨q, r, rfl, Or.inl (not_lt.1 hp)⟩

/-- The default options, from the lowest density of the smallest maximum density allowed. -/
example : (2 : ℕ) ≤ 20 ∧ ((20 : ℕ) : ℚ) ≤ 10 ^ 9 ∧ (1 : ℚ) / 10 ^ 139 ≤ (49 / 100) ^ 25 * (5 / 500000) := by norm_num

/-- Options with which the grid is not finer than doubles can tell apart; the default options are among them. -/
structure FineGrid (o : Opts ℚ) (rmax : ℚ) : Prop where
  pos : 0 < rmax
  low : 1 / 10 ^ 90 ≤ rmax * o.minFrac
  inc : rmax ≤ 10 ^ 10 * o.inc
  dv : 1 ≤ 10 ^ 9 * (o.dv * (rmax * o.minFrac))
  npts : (o.npts : ℚ) ≤ 10 ^ 9
  iter : o.maxiter ≤ 100

/-- **C171** The densities before they are inverted keep apart. -/
theorem c171_base {o : Opts ℚ} {rmax : ℚ} {r : List ℚ} (h : FineGrid o rmax) (hr : PressureVolume64.base o rmax = .ok r) :
    Apart (7 / 10 ^ 11) r ∧ r ≠ [] ∧ (∀ x ∈ r, rmax * o.minFrac / 4 ≤ x ∧ x ≤ 10 ^ 6) ∧
    (fl (rmax * o.minFrac) ≤ o.inc → ∀ x ∈ r, x ≤ (1 + 4 / 10 ^ 15) * rmax) := by
  unfold PressureVolume64.base at hr
  dsimp only at hr
  have hp := h.pos
  have hm := abs_le.1 (fl_relQ (q := rmax * o.minFrac) (le_trans (by norm_num) h.low))
  have hlow := h.low
  have hdv := h.dv
  have hinc := h.inc
  have hn : (1 : ℚ) / 10 ^ 100 ≤ 1 / 2 * (1 / 10 ^ 90) := by norm_num
  have hl0 : (0 : ℚ) < 1 / 10 ^ 90 := by norm_num
  generalize rmax * o.minFrac = w at *
  generalize hmin : fl w = minrho at *
  have hm0 : 1 / 2 * w ≤ minrho := by linarith
  have hm1 : 1 / 10 ^ 100 ≤ minrho := by linarith
  have hm2 : (1 : ℚ) / 10 ^ 140 ≤ minrho := le_trans (by norm_num) hm1
  split_ifs at hr with hg1 hg2
  push Not at hg1 hg2
  have hi0 : 0 < o.inc := by linarith
  have hlt : minrho < rmax := by
    by_contra hc
    push Not at hc
    have : fl (rmax - minrho) ≤ 0 := by rw [← fl_zero]; exact fl_mono (by linarith)
    linarith
  have hdv0 : 0 < o.dv := by
    by_contra hc
    push Not at hc
    have : o.dv * w ≤ 0 := mul_nonpos_of_nonpos_of_nonneg hc (by linarith)
    linarith
  have hdv' : 11 / 10 ≤ 10 ^ 10 * (o.dv * minrho) := by
    have h1 : o.dv * (1 / 2 * w) ≤ o.dv * minrho := mul_le_mul_of_nonneg_left hm0 hdv0.le
    have h2 : o.dv * (1 / 2 * w) = 1 / 2 * (o.dv * w) := by ring
    linarith
  obtain ⟨g1, -, g3, g4, g5⟩ := c171_arange hm2 hlt hinc
  have key : ∀ top, top ≤ 10 ^ 100 → (∀ x ∈ PressureVolume64.arange minrho rmax o.inc, x ≤ top) →
      Apart (7 / 10 ^ 11) r ∧ (∀ x ∈ r, minrho / 3 ≤ x ∧ x ≤ (1 + 1 / 10 ^ 15) * top) ∧ r ≠ [] := by
    intro top ht hx
    cases hreg : PressureVolume64.regrid minrho o.dv (PressureVolume64.arange minrho rmax o.inc) with
    | error e => rw [hreg] at hr; cases hr
    | ok r1 =>
      rw [hreg] at hr
      dsimp only at hr
      split_ifs at hr
      cases hr
      exact c171_regrid hm1 hdv' ht g5 (g1 hg2) (fun x h => ⟨(g3 x h).1, hx x h⟩) hreg
  obtain ⟨k1, k2, k3⟩ := key (1001 / 1000 * rmax) (by
    have : (1001 : ℚ) / 1000 * 100000 ≤ 10 ^ 100 := by norm_num
    linarith) fun x hx => (g3 x hx).2
  refine ⟨k1, k3, fun x hx => ?_, fun hs x hx => ?_⟩
  · have := k2 x hx
    exact ⟨by linarith, by linarith⟩
  · have := (key ((1 + 2 / 10 ^ 15) * rmax) (by
      have : (1001 : ℚ) / 1000 * 100000 ≤ 10 ^ 100 := by norm_num
      linarith) (g4 hs)).2.1 x hx
    linarith [this.2]

/-- **C171**: whenever `pressure_vs_volume_arrays` returns, the volumes it hands to the spline increase strictly although every
step is rounded: each is by a relative 6e-11 larger than the one before, and there is at least one.  There is one pressure for
each, computed at a density whose rounded inverse is the volume.  No density exceeds the largest one by more than a relative
4e-15, if the lowest density is not above the increment. -/
theorem c171_volumes (P : ℚ → ℚ) (o : Opts ℚ) (given : Option ℚ) (eosMax : ℚ) (h : FineGrid o (chosenMax given eosMax))
    (vs ps : List ℚ) (hv : PressureVolume64.arrays P o given eosMax = .ok (vs, ps)) :
    vs.Pairwise (· < ·) ∧ Apart (6 / 10 ^ 11) vs ∧ vs ≠ [] ∧
    ∃ ρs : List ℚ, vs = ρs.map (fun ρ => fl (1 / ρ)) ∧ ps = ρs.map P ∧ (∀ ρ ∈ ρs, 0 < ρ) ∧ ρs.Pairwise (· > ·) ∧
      (fl (chosenMax given eosMax * o.minFrac) ≤ o.inc → ∀ ρ ∈ ρs, ρ ≤ (1 + 4 / 10 ^ 15) * chosenMax given eosMax) := by
  unfold PressureVolume64.arrays at hv
  generalize chosenMax given eosMax = rmax at *
  cases hb : PressureVolume64.base o rmax with
  | error e => rw [hb] at hv; cases hv
  | ok r =>
    rw [hb] at hv
    dsimp only at hv
    simp only [Except.ok.injEq, Prod.mk.injEq] at hv
    obtain ⟨rfl, rfl⟩ := hv
    obtain ⟨b1, b2, b3, b4⟩ := c171_base h hb
    have hw : 0 < rmax * o.minFrac := lt_of_lt_of_le (by norm_num) h.low
    have hlo : (1 : ℚ) / 10 ^ 139 ≤ (49 / 100) ^ o.maxiter * (rmax * o.minFrac / 4) := by
      have h1 : (49 / 100 : ℚ) ^ 100 ≤ (49 / 100) ^ o.maxiter := pow_le_pow_of_le_one (by norm_num) (by norm_num) h.iter
      have h2 : (1 : ℚ) / 10 ^ 139 ≤ (49 / 100) ^ 100 * (1 / 10 ^ 90 / 4) := by norm_num
      refine h2.trans (mul_le_mul h1 ?_ (by norm_num) (by positivity))
      linarith [h.low]
    obtain ⟨c1, c2, l, c3⟩ := c171_extend P o.pmin h.npts o.maxiter _ _ r hlo b1 b3
    have c4 : fl (rmax * o.minFrac) ≤ o.inc →
        ∀ x ∈ PressureVolume64.extend P o.pmin o.npts o.maxiter r, x ≤ (1 + 4 / 10 ^ 15) * rmax := fun hs x hx =>
      ((c171_extend P o.pmin h.npts o.maxiter _ _ r hlo b1 fun x hx => ⟨(b3 x hx).1, b4 hs x hx⟩).2.1 x hx).2
    have hne : PressureVolume64.extend P o.pmin o.npts o.maxiter r ≠ [] := by rw [c3]; simp [b2]
    generalize PressureVolume64.extend P o.pmin o.npts o.maxiter r = e at *
    have hpos : ∀ x ∈ e, 0 < x := fun x hx => lt_of_lt_of_le (lt_of_lt_of_le (by norm_num) hlo) (c2 x hx).1
    have hap : Apart (6 / 10 ^ 11) (e.reverse.map fun ρ => fl (1 / ρ)) := by
      unfold Apart at *
      rw [List.pairwise_map, List.pairwise_reverse]
      exact c1.imp_of_mem fun {x y} hx hy hxy =>
        inverse_apart (le_trans (by norm_num) (hlo.trans (c2 x hx).1)) ((c2 y hy).2.trans (by norm_num)) (by norm_num)
          (by norm_num) (by norm_num) hxy
    refine ⟨?_, hap, by simpa using hne, e.reverse, rfl, rfl, fun ρ hρ => hpos ρ (List.mem_reverse.1 hρ), ?_, fun hs ρ hρ =>
      c4 hs ρ (List.mem_reverse.1 hρ)⟩
    · refine hap.imp_of_mem fun {x y} hx _ hxy => ?_
      obtain ⟨ρ, hρ, rfl⟩ := List.mem_map.1 hx
      have h1 := c2 ρ (List.mem_reverse.1 hρ)
      have h2 := (inv_bounds (le_trans (by norm_num) (hlo.trans h1.1)) (h1.2.trans (by norm_num))).1
      have h3 : 0 < 1 / ρ := one_div_pos.2 (hpos ρ (List.mem_reverse.1 hρ))
      linarith
    · rw [List.pairwise_reverse]
      exact c1.imp_of_mem fun {x y} hx _ hxy => by
        have := hpos x hx
        show y > x
        linarith

/-- The default options of calc.py:25-35 (with the fractions as they are written) and every maximum density from the increment
on are covered. -/
theorem c171_default (rmax : ℚ) (h : 5 ≤ rmax) (h' : rmax ≤ 100000) :
    FineGrid { minFrac := 1 / 500000, inc := 5, dv := 1 / 10000, pmin := 100, maxiter := 25, multfactor := 2, npts := 20, maxLen := 500000 } rmax where
  pos := by linarith
  low := by
    have : (1 : ℚ) / 10 ^ 90 ≤ 5 * (1 / 500000) := by norm_num
    dsimp only
    linarith
  inc := by dsimp only; linarith
  dv := by dsimp only; linarith
  npts := by norm_num
  iter := by norm_num

/-- A curve of an ideal gas (the pressure is the density times 1000), with two densities of the even grid, six of the grid in
the volume and two of the extension. -/
example : ∃ vs ps, PressureVolume64.arrays (fun ρ => 1000 * ρ)
    { minFrac := 1 / 8, inc := 1, dv := 1 / 4, pmin := 100, maxiter := 1, multfactor := 2, npts := 3, maxLen := 10 } (some 4) 0
    = .ok (vs, ps) ∧ vs.take 2 = [fl (1 / 3.5), fl (1 / 2.5)] ∧ vs.length = 10 := by
  refine ⟨[2573485501354569 / 9007199254740992, 3602879701896397 / 9007199254740992, 5854679515581645 / 9007199254740992,
    2026619832316723 / 2251799813685248, 2589569785738035 / 2251799813685248, 3152519739159347 / 2251799813685248,
    3715469692580659 / 2251799813685248, 8556839292003943 / 4503599627370496, 1426139882000657 / 562949953421312,
    8556839292003943 / 2251799813685248], [3500, 2500, 108259606427175375 / 70368744177664, 312749974122951125 / 281474976710656,
    489521698627227875 / 562949953421312, 804214219173302875 / 1125899906842624, 682363579904620625 / 1125899906842624,
    592578898338223125 / 1125899906842624, 444434173753667375 / 1125899906842624, 592578898338223125 / 2251799813685248], ?_, ?_, rfl⟩
  · decide +kernel
  · decide +kernel

/-- **C171, violated**: the last density of the grid can lie above the maximum density. -/
theorem c171_violated_top : ∃ x ∈ PressureVolume64.arange (fl (fl 8.4 * fl 0.5)) (fl 8.4) (fl 0.7), fl 8.4 < x := by
  decide +kernel

end Verif.Props
