import Verif.Model.Objective64
import Verif.Props.Mixing64

/-!
# The objective of parameter fitting in double precision (C175)
-/

namespace Verif.Props
open Verif Verif.Binary64 Verif.Objective64

/-! ## Doubles -/

/-- Two different doubles differ by more than `2 ^ -54` of either. -/
theorem double_gap {t r : ℚ} (ht : fl t = t) (hr : fl r = r) (hr0 : r ≠ 0) (h : t ≠ r) : |r| / 2 ^ 54 ≤ |t - r| := by
  have rpos : 0 < |r| := abs_pos.2 hr0
  rcases lt_or_ge |t| (|r| / 2) with hs | hs
  · have := abs_sub_abs_le_abs_sub r t
    rw [abs_sub_comm] at this
    have : |r| / 2 ^ 54 ≤ |r| / 2 := div_le_div_of_nonneg_left rpos.le (by norm_num) (by norm_num)
    linarith
  have tpos : 0 < |t| := lt_of_lt_of_le (by linarith) hs
  have hlog : Int.log 2 |r| - 1 ≤ Int.log 2 |t| := by
    refine (Int.zpow_le_iff_le_log (b := 2) (by norm_num) tpos).1 ?_
    have h1 : ((2 : ℕ) : ℚ) ^ Int.log 2 |r| ≤ |r| := Int.zpow_log_le_self (by norm_num) rpos
    rw [zpow_sub₀ (by norm_num), zpow_one]
    push_cast at h1 ⊢
    linarith
  obtain ⟨m, -, em⟩ := fl_form t
  obtain ⟨n, -, en⟩ := fl_form r
  rw [ht] at em
  rw [hr] at en
  have e1 : lastPlace r - 1 ≤ lastPlace t := by unfold lastPlace; omega
  set e := lastPlace r - 1 with he
  obtain ⟨d, hd⟩ := Int.le.dest e1
  have hp : (0 : ℚ) < 2 ^ e := by positivity
  have em' : t = ((m * 2 ^ d : ℤ) : ℚ) * 2 ^ e := by
    rw [em, ← hd, zpow_add₀ (by norm_num), zpow_natCast]
    push_cast
    ring
  have en' : r = ((n * 2 : ℤ) : ℚ) * 2 ^ e := by
    rw [en, show lastPlace r = e + 1 by omega, zpow_add₀ (by norm_num)]
    push_cast
    ring
  have hne : m * 2 ^ d - n * 2 ≠ 0 := by
    intro h0
    apply h
    rw [em', en', sub_eq_zero.1 h0]
  have h1 : (1 : ℚ) ≤ |((m * 2 ^ d - n * 2 : ℤ) : ℚ)| := by
    rw [← Int.cast_abs]
    exact_mod_cast Int.one_le_abs hne
  have h2 : |t - r| = |((m * 2 ^ d - n * 2 : ℤ) : ℚ)| * 2 ^ e := by
    rw [em', en', ← sub_mul, abs_mul, abs_of_pos hp]
    push_cast
    rfl
  have h3 : |r| < 2 ^ (e + 54) := by
    refine lt_of_lt_of_le (by exact_mod_cast Int.lt_zpow_succ_log_self (b := 2) (by norm_num) |r|) (zpow_le_zpow_right₀ (by norm_num) ?_)
    unfold lastPlace at he
    omega
  rw [h2, div_le_iff₀ (by positivity)]
  rw [zpow_add₀ (by norm_num), show ((54 : ℤ)) = ((54 : ℕ) : ℤ) by norm_num, zpow_natCast] at h3
  have : 2 ^ e ≤ |((m * 2 ^ d - n * 2 : ℤ) : ℚ)| * 2 ^ e := le_mul_of_one_le_left hp.le h1
  nlinarith

/-- Rounding does not care about the sign. -/
theorem fl_abs (q : ℚ) : |fl q| = fl |q| := by
  rcases le_total 0 q with h | h
  · rw [abs_of_nonneg h, abs_of_nonneg (fl_nonneg h)]
  · rw [abs_of_nonpos h, fl_neg, abs_of_nonpos]
    have := fl_nonneg (neg_nonneg.2 h)
    rw [fl_neg] at this
    linarith

/-- The rounded sum of nonnegative doubles that are each close to a number. -/
theorem sum_within {α : Type} (l : List α) (f : α → ℚ) (F : α → ℝ) (k : ℕ) (h : ∀ a ∈ l, fl (f a) = f a ∧ Within k (f a) (F a)) :
    Within (l.length + k) ((npSum (l.map f) : ℚ) : ℝ) (l.map F).sum := by
  have hsum : Within k (((l.map f).sum : ℚ) : ℝ) (l.map F).sum := by
    induction l with
    | nil => exact ⟨by simp, by simp, by simp⟩
    | cons i l ih =>
      rw [List.map_cons, List.sum_cons, List.map_cons, List.sum_cons, Rat.cast_add]
      exact (h i (by simp)).2.add (ih fun a ha => h a (List.mem_cons_of_mem _ ha))
  have hnear := npSum_near (l.map f) fun a ha => by
    obtain ⟨i, hi, rfl⟩ := List.mem_map.1 ha
    have := (h i hi).2.nonneg
    exact ⟨(h i hi).1, by exact_mod_cast this⟩
  rw [List.length_map] at hnear
  obtain ⟨-, h2, h3, h4⟩ := hnear
  have h2' := (Rat.cast_le (K := ℝ)).2 h2
  have h3' := (Rat.cast_le (K := ℝ)).2 h3
  have h4' := (Rat.cast_le (K := ℝ)).2 h4
  rw [Rat.cast_zero] at h2'
  rw [Rat.cast_mul] at h3' h4'
  have hw : Within l.length ((npSum (l.map f) : ℚ) : ℝ) (((l.map f).sum : ℚ) : ℝ) := by
    refine ⟨h2', le_trans (mul_le_mul_of_nonneg_right ?_ h2') h3', h4'.trans (mul_le_mul_of_nonneg_right ?_ h2')⟩
    · push_cast
      exact pow_le_pow_left₀ (by norm_num) (by norm_num) _
    · push_cast
      exact pow_le_pow_left₀ (by norm_num) (by norm_num) _
  exact hw.trans hsum

/-! ## The deviations -/

/-- A point whose numbers are doubles of ordinary size. -/
structure SanePoint (p : Point) : Prop where
  test : fl p.test = p.test
  ref : fl p.ref = p.ref
  size : 1 / 10 ^ 50 ≤ |p.ref|
  weight : p.weight = 0 ∨ 1 / 10 ^ 50 ≤ p.weight

/-- The relative deviation that is meant. -/
def relDev (p : Point) : ℚ := |p.test - p.ref| / |p.ref|

theorem relDev_cases {p : Point} (h : SanePoint p) : relDev p = 0 ∧ p.test = p.ref ∨ 1 / 2 ^ 54 ≤ relDev p ∧ p.test ≠ p.ref := by
  have r0 : 0 < |p.ref| := lt_of_lt_of_le (by norm_num) h.size
  by_cases e : p.test = p.ref
  · left
    exact ⟨by simp [relDev, e], e⟩
  · right
    refine ⟨?_, e⟩
    have := double_gap h.test h.ref (abs_pos.1 r0) e
    unfold relDev
    rw [le_div_iff₀ r0]
    linarith

private theorem relDev_nonneg (p : Point) : 0 ≤ relDev p := div_nonneg (abs_nonneg _) (abs_nonneg _)

private theorem abs_dev (p : Point) : |dev p| = fl (fl |p.test - p.ref| / |p.ref|) := by
  unfold dev
  rw [fl_abs, abs_div, fl_abs]

private theorem ge_real {a : ℝ} {b q : ℚ} (h : b ≤ q) (e : a = (b : ℝ)) : a ≤ (q : ℝ) := by
  rw [e]
  exact_mod_cast h

/-- **C175** (a deviation): two roundings. -/
theorem c175_dev {p : Point} (h : SanePoint p) : Within 2 ((|dev p| : ℚ) : ℝ) ((relDev p : ℚ) : ℝ) := by
  have r0 : 0 < |p.ref| := lt_of_lt_of_le (by norm_num) h.size
  have r0' : (0 : ℝ) < (|p.ref| : ℚ) := by exact_mod_cast r0
  rw [abs_dev]
  have w0 : Within 0 ((|p.test - p.ref| : ℚ) : ℝ) ((|p.test - p.ref| : ℚ) : ℝ) := Within.exact (by exact_mod_cast abs_nonneg _)
  have w1 := w0.round' (by norm_num) (by
    by_cases e : p.test = p.ref
    · left; simp [e]
    · right
      have := double_gap h.test h.ref (abs_pos.1 r0) e
      refine ge_real (b := 1 / 10 ^ 140) ?_ (by push_cast; rfl)
      refine le_trans ?_ this
      rw [le_div_iff₀ (by positivity)]
      exact le_trans (by norm_num) h.size)
  have e : ((relDev p : ℚ) : ℝ) = ((|p.test - p.ref| : ℚ) : ℝ) / (|p.ref| : ℚ) := by unfold relDev; push_cast; rfl
  rw [e]
  refine Within.round' (q := fl |p.test - p.ref| / |p.ref|) (k := 1) ?_ (by norm_num) ?_
  · rw [Rat.cast_div]
    obtain ⟨a, b, c⟩ := w1
    refine ⟨div_nonneg a r0'.le, ?_, ?_⟩
    · rw [← mul_div_assoc]; exact div_le_div_of_nonneg_right b r0'.le
    · rw [← mul_div_assoc]; exact div_le_div_of_nonneg_right c r0'.le
  · rw [← e]
    rcases relDev_cases h with ⟨z, -⟩ | ⟨z, -⟩
    · left; rw [z]; simp
    · right
      exact ge_real (b := 1 / 10 ^ 140) (le_trans (by norm_num) z) (by push_cast; rfl)

private theorem weight_nonneg {p : Point} (h : SanePoint p) : 0 ≤ p.weight := by
  rcases h.weight with e | e
  · exact e.ge
  · exact le_trans (by norm_num) e

/-- **C175** (a term of the squared measures): six roundings. -/
theorem c175_square {p : Point} (h : SanePoint p) :
    Within 6 ((fl (fl (dev p * dev p) * p.weight) : ℚ) : ℝ) ((relDev p ^ 2 * p.weight : ℚ) : ℝ) := by
  have w := c175_dev h
  have e : dev p * dev p = |dev p| * |dev p| := (abs_mul_abs_self _).symm
  have ww := w.mul w
  have w2 : Within 5 ((fl (dev p * dev p) : ℚ) : ℝ) ((relDev p ^ 2 : ℚ) : ℝ) := by
    rw [e]
    refine Within.round' (q := |dev p| * |dev p|) (k := 4) (by rw [Rat.cast_mul, pow_two, Rat.cast_mul]; exact ww) (by norm_num) ?_
    rcases relDev_cases h with ⟨z, -⟩ | ⟨z, -⟩
    · left; rw [z]; simp
    · right
      refine ge_real (b := 1 / 10 ^ 140) ?_ (by push_cast; rfl)
      exact le_trans (by norm_num) (pow_le_pow_left₀ (by norm_num) z 2)
  refine Within.round' (q := fl (dev p * dev p) * p.weight) (k := 5) ?_ (by norm_num) ?_
  · rw [Rat.cast_mul, Rat.cast_mul]
    exact w2.mul (Within.exact (by exact_mod_cast weight_nonneg h))
  · rcases relDev_cases h with ⟨z, -⟩ | ⟨z, -⟩
    · left; rw [z]; simp
    · rcases h.weight with g | g
      · left; rw [g]; simp
      · right
        refine ge_real (b := 1 / 10 ^ 140) ?_ (by push_cast; rfl)
        exact le_trans (by norm_num) (mul_le_mul (pow_le_pow_left₀ (by norm_num) z 2) g (by norm_num) (by positivity))

/-- **C175** (a term of the percentage): three roundings. -/
theorem c175_size {p : Point} (h : SanePoint p) : Within 3 ((fl (|dev p| * p.weight) : ℚ) : ℝ) ((relDev p * p.weight : ℚ) : ℝ) := by
  refine Within.round' (q := |dev p| * p.weight) (k := 2) ?_ (by norm_num) ?_
  · rw [Rat.cast_mul, Rat.cast_mul]
    exact (c175_dev h).mul (Within.exact (by exact_mod_cast weight_nonneg h))
  · rcases relDev_cases h with ⟨z, -⟩ | ⟨z, -⟩
    · left; rw [z]; simp
    · rcases h.weight with g | g
      · left; rw [g]; simp
      · right
        refine ge_real (b := 1 / 10 ^ 140) ?_ (by push_cast; rfl)
        exact le_trans (by norm_num) (mul_le_mul z g (by norm_num) (le_trans (by norm_num) z))

/-! ## The measures -/

theorem Within.round_big {k : ℕ} {q : ℚ} {S : ℝ} (h : Within k q S) (hk : k ≤ 10 ^ 14) (hS : S = 0 ∨ 1 / 10 ^ 140 ≤ S) :
    Within (k + 1) ((fl q : ℚ) : ℝ) S := by
  refine h.round ?_
  have hr := h.relative hk
  rcases hS with rfl | hS
  · left
    rw [mul_zero, sub_zero] at hr
    have := abs_nonpos_iff.1 hr
    exact_mod_cast this
  · right
    refine (Rat.cast_le (K := ℝ)).1 ?_
    push_cast
    have hk' : (k : ℝ) ≤ 10 ^ 14 := by exact_mod_cast hk
    have h1 := (abs_le.1 hr).1
    have h2 : (k : ℝ) * (124 / 10 ^ 18) * S ≤ 1 / 2 * S := mul_le_mul_of_nonneg_right (by linarith) h.1
    have h3 : (1 : ℝ) / 10 ^ 150 ≤ 1 / 2 * (1 / 10 ^ 140) := by norm_num
    linarith

/-- The sum of the squared relative deviations with their weights. -/
def exactSquares (l : List Point) : ℚ := (l.map fun p => relDev p ^ 2 * p.weight).sum

/-- The sum of the relative deviations with their weights. -/
def exactSizes (l : List Point) : ℚ := (l.map fun p => relDev p * p.weight).sum

private theorem sum_cases (l : List Point) (f : Point → ℚ) (c : ℚ) (h : ∀ p ∈ l, f p = 0 ∨ c ≤ f p) (hc : 0 ≤ c) :
    0 ≤ (l.map f).sum ∧ (((l.map f).sum = 0 ∧ ∀ p ∈ l, f p = 0) ∨ c ≤ (l.map f).sum) := by
  induction l with
  | nil => simp
  | cons p l ih =>
    obtain ⟨h1, h2⟩ := ih fun q hq => h q (List.mem_cons_of_mem _ hq)
    rw [List.map_cons, List.sum_cons]
    rcases h p (by simp) with e | e
    · rw [e, zero_add]
      refine ⟨h1, h2.imp (fun g => ⟨g.1, ?_⟩) id⟩
      intro q hq
      rcases List.mem_cons.1 hq with rfl | hq
      · exact e
      · exact g.2 q hq
    · exact ⟨by linarith, Or.inr (by linarith)⟩

private theorem square_cases {p : Point} (h : SanePoint p) : relDev p ^ 2 * p.weight = 0 ∨ 1 / 10 ^ 90 ≤ relDev p ^ 2 * p.weight := by
  rcases relDev_cases h with ⟨z, -⟩ | ⟨z, -⟩
  · left; rw [z]; simp
  · rcases h.weight with g | g
    · left; rw [g, mul_zero]
    · right
      exact le_trans (by norm_num) (mul_le_mul (pow_le_pow_left₀ (by norm_num) z 2) g (by norm_num) (by positivity))

private theorem size_cases {p : Point} (h : SanePoint p) : relDev p * p.weight = 0 ∨ 1 / 10 ^ 90 ≤ relDev p * p.weight := by
  rcases relDev_cases h with ⟨z, -⟩ | ⟨z, -⟩
  · left; rw [z, zero_mul]
  · rcases h.weight with g | g
    · left; rw [g, mul_zero]
    · right
      exact le_trans (by norm_num) (mul_le_mul z g (by norm_num) (le_trans (by norm_num) z))

private theorem cast_sum (l : List Point) (f : Point → ℚ) : (((l.map f).sum : ℚ) : ℝ) = (l.map fun p => ((f p : ℚ) : ℝ)).sum := by
  induction l with
  | nil => simp
  | cons p l ih => rw [List.map_cons, List.sum_cons, List.map_cons, List.sum_cons, Rat.cast_add, ih]

/-- **C175** (the sum of the squares): one rounding per point, and six more. -/
theorem c175_sum {l : List Point} (h : ∀ p ∈ l, SanePoint p) :
    Within (l.length + 6) ((sumSquares l : ℚ) : ℝ) ((exactSquares l : ℚ) : ℝ) := by
  unfold sumSquares squares exactSquares
  rw [cast_sum]
  exact sum_within l _ _ 6 fun p hp => ⟨fl_idem _, c175_square (h p hp)⟩

private theorem mean_within {l : List ℚ} {S : ℚ} {k : ℕ} (h : Within k ((npSum l : ℚ) : ℝ) (S : ℝ)) (hk : k ≤ 10 ^ 14) (h0 : l ≠ [])
    (hn : l.length ≤ 10 ^ 13) (hS : S = 0 ∨ 1 / 10 ^ 90 ≤ S) : Within (k + 1) ((mean l : ℚ) : ℝ) ((S / l.length : ℚ) : ℝ) := by
  have n0 : (0 : ℚ) < l.length := by exact_mod_cast List.length_pos_iff.2 h0
  have n0' : (0 : ℝ) < l.length := by exact_mod_cast n0
  have n1 : (l.length : ℚ) ≤ 10 ^ 13 := by exact_mod_cast hn
  refine Within.round_big (q := npSum l / l.length) ?_ hk ?_
  · rw [Rat.cast_div, Rat.cast_div, Rat.cast_natCast]
    obtain ⟨a, b, c⟩ := h
    refine ⟨div_nonneg a n0'.le, ?_, ?_⟩
    · rw [← mul_div_assoc]; exact div_le_div_of_nonneg_right b n0'.le
    · rw [← mul_div_assoc]; exact div_le_div_of_nonneg_right c n0'.le
  · rcases hS with e | e
    · left; rw [e]; simp
    · right
      refine ge_real (b := 1 / 10 ^ 140) ?_ (by push_cast; rfl)
      rw [le_div_iff₀ n0]
      exact le_trans (mul_le_mul_of_nonneg_left n1 (by norm_num)) (le_trans (by norm_num) e)

private theorem squares_cases {l : List Point} (h : ∀ p ∈ l, SanePoint p) :
    0 ≤ exactSquares l ∧ ((exactSquares l = 0 ∧ ∀ p ∈ l, relDev p ^ 2 * p.weight = 0) ∨ 1 / 10 ^ 90 ≤ exactSquares l) :=
  sum_cases l _ _ (fun p hp => square_cases (h p hp)) (by norm_num)

private theorem sizes_cases {l : List Point} (h : ∀ p ∈ l, SanePoint p) :
    0 ≤ exactSizes l ∧ ((exactSizes l = 0 ∧ ∀ p ∈ l, relDev p * p.weight = 0) ∨ 1 / 10 ^ 90 ≤ exactSizes l) :=
  sum_cases l _ _ (fun p hp => size_cases (h p hp)) (by norm_num)

/-- **C175** (the average of the squares): one rounding per point, and seven more. -/
theorem c175_average {l : List Point} (h : ∀ p ∈ l, SanePoint p) (h0 : l ≠ []) (hn : l.length ≤ 10 ^ 13) :
    Within (l.length + 7) ((average l : ℚ) : ℝ) ((exactSquares l / l.length : ℚ) : ℝ) := by
  have := mean_within (l := squares l) (c175_sum h) (by omega) (by simpa [squares] using h0) (by simpa [squares] using hn)
    ((squares_cases h).2.imp And.left id)
  rw [show (squares l).length = l.length by simp [squares]] at this
  exact this

/-- **C175** (the percentage): one rounding per point, and five more. -/
theorem c175_percent {l : List Point} (h : ∀ p ∈ l, SanePoint p) (h0 : l ≠ []) (hn : l.length ≤ 10 ^ 13) :
    Within (l.length + 5) ((percent l : ℚ) : ℝ) ((exactSizes l / l.length * 100 : ℚ) : ℝ) := by
  have hs : Within (l.length + 3) ((npSum (sizes l) : ℚ) : ℝ) ((exactSizes l : ℚ) : ℝ) := by
    unfold sizes exactSizes
    rw [cast_sum]
    exact sum_within l _ _ 3 fun p hp => ⟨fl_idem _, c175_size (h p hp)⟩
  have hc := (sizes_cases h).2
  have hm := mean_within (l := sizes l) hs (by omega) (by simpa [sizes] using h0) (by simpa [sizes] using hn) (hc.imp And.left id)
  rw [show (sizes l).length = l.length by simp [sizes]] at hm
  have n0 : (0 : ℚ) < l.length := by exact_mod_cast List.length_pos_iff.2 h0
  have n1 : (l.length : ℚ) ≤ 10 ^ 13 := by exact_mod_cast hn
  refine Within.round_big (q := mean (sizes l) * 100) ?_ (by omega) ?_
  · rw [Rat.cast_mul, Rat.cast_mul]
    exact hm.mul (l := 0) (Within.exact (by norm_num))
  · rcases hc with e | e
    · left
      rw [e.1]
      simp
    · right
      refine ge_real (b := 1 / 10 ^ 140) ?_ (by push_cast; rfl)
      have : 1 / 10 ^ 140 ≤ exactSizes l / l.length := by
        rw [le_div_iff₀ n0]
        exact le_trans (mul_le_mul_of_nonneg_left n1 (by norm_num)) (le_trans (by norm_num) e)
      linarith

private theorem zero_iff {k : ℕ} {s S : ℚ} (h : Within k (s : ℝ) (S : ℝ)) : 0 ≤ s ∧ (s = 0 ↔ S = 0) := by
  have h0 := h.nonneg
  refine ⟨by exact_mod_cast h0, ⟨fun e => ?_, fun e => ?_⟩⟩
  · have h1 := h.2.1
    rw [e, Rat.cast_zero] at h1
    have : (S : ℝ) ≤ 0 := by
      by_contra hc
      have := mul_pos (pow_pos (show (0 : ℝ) < 1 - 112 / 10 ^ 18 by norm_num) k) (not_le.1 hc)
      linarith
    have h2 := le_antisymm this h.1
    exact_mod_cast h2
  · have h1 := h.2.2
    rw [e, Rat.cast_zero, mul_zero] at h1
    have h2 := le_antisymm h1 h0
    exact_mod_cast h2

/-- **C175** (a perfect match): the three plain measures are never negative, and zero exactly when every point of positive weight is
matched to the last place. -/
theorem c175_match {l : List Point} (h : ∀ p ∈ l, SanePoint p) (h0 : l ≠ []) (hn : l.length ≤ 10 ^ 13) :
    (0 ≤ sumSquares l ∧ (sumSquares l = 0 ↔ ∀ p ∈ l, 0 < p.weight → p.test = p.ref)) ∧
    (0 ≤ average l ∧ (average l = 0 ↔ ∀ p ∈ l, 0 < p.weight → p.test = p.ref)) ∧
    (0 ≤ percent l ∧ (percent l = 0 ↔ ∀ p ∈ l, 0 < p.weight → p.test = p.ref)) := by
  have n0 : (l.length : ℚ) ≠ 0 := by exact_mod_cast (List.length_pos_iff.2 h0).ne'
  have each : ∀ p ∈ l, (relDev p = 0 ∨ p.weight = 0) ↔ (0 < p.weight → p.test = p.ref) := fun p hp => by
    have w := weight_nonneg (h p hp)
    rcases relDev_cases (h p hp) with ⟨z, e⟩ | ⟨z, e⟩
    · simp [z, e]
    · have : relDev p ≠ 0 := (lt_of_lt_of_le (by norm_num) z).ne'
      constructor
      · rintro (g | g) hw
        · exact absurd g this
        · exact absurd g hw.ne'
      · intro g
        right
        by_contra hw
        exact e (g (lt_of_le_of_ne w (Ne.symm hw)))
  have key1 : exactSquares l = 0 ↔ ∀ p ∈ l, 0 < p.weight → p.test = p.ref := by
    constructor
    · intro e p hp
      rcases (squares_cases h).2 with g | g
      · refine (each p hp).1 ?_
        have := g.2 p hp
        rcases mul_eq_zero.1 this with t | t
        · exact Or.inl (pow_eq_zero_iff (by norm_num) |>.1 t)
        · exact Or.inr t
      · have : (1 : ℚ) / 10 ^ 90 ≤ 0 := g.trans e.le
        norm_num at this
    · intro g
      refine List.sum_eq_zero fun x hx => ?_
      obtain ⟨p, hp, rfl⟩ := List.mem_map.1 hx
      rcases (each p hp).2 (g p hp) with t | t <;> simp [t]
  have key2 : exactSizes l = 0 ↔ ∀ p ∈ l, 0 < p.weight → p.test = p.ref := by
    constructor
    · intro e p hp
      rcases (sizes_cases h).2 with g | g
      · exact (each p hp).1 (mul_eq_zero.1 (g.2 p hp))
      · have : (1 : ℚ) / 10 ^ 90 ≤ 0 := g.trans e.le
        norm_num at this
    · intro g
      refine List.sum_eq_zero fun x hx => ?_
      obtain ⟨p, hp, rfl⟩ := List.mem_map.1 hx
      rcases (each p hp).2 (g p hp) with t | t <;> simp [t]
  have a1 := zero_iff (c175_sum h)
  have a2 := zero_iff (c175_average h h0 hn)
  have a3 := zero_iff (c175_percent h h0 hn)
  refine ⟨⟨a1.1, a1.2.trans key1⟩, ⟨a2.1, a2.2.trans ?_⟩, ⟨a3.1, a3.2.trans ?_⟩⟩
  · rw [div_eq_zero_iff, or_iff_left n0, key1]
  · rw [mul_eq_zero, or_iff_left (by norm_num), div_eq_zero_iff, or_iff_left n0, key2]

/-- **C175 is violated** by a tiny weight: a point that is not matched counts for nothing. -/
theorem c175_violated_weight : ∃ p : Point, fl p.test = p.test ∧ fl p.ref = p.ref ∧ fl p.weight = p.weight ∧ 0 < p.weight ∧
    p.test ≠ p.ref ∧ sumSquares [p] = 0 :=
  ⟨⟨1 + 1 / 2 ^ 52, 1, 1 / 2 ^ 1000⟩, by decide +kernel⟩

/-! ## Further off is worse -/

private theorem seqSum_mono {l m : List ℚ} (h : List.Forall₂ (· ≤ ·) l m) : ∀ s t, s ≤ t → seqSum s l ≤ seqSum t m := by
  induction h with
  | nil => intro s t hst; exact hst
  | cons hd _ ih => intro s t hst; exact ih _ _ (fl_mono (add_le_add hst hd))

private theorem getD_mono {l m : List ℚ} (h : List.Forall₂ (· ≤ ·) l m) (i : ℕ) : l.getD i 0 ≤ m.getD i 0 := by
  induction h generalizing i with
  | nil => simp
  | cons hd _ ih =>
    cases i with
    | zero => simpa using hd
    | succ i => simpa using ih i

private theorem npSum_mono {l m : List ℚ} (h : List.Forall₂ (· ≤ ·) l m) : npSum l ≤ npSum m := by
  have hl := h.length_eq
  unfold npSum
  rw [← hl]
  split_ifs
  · exact seqSum_mono h 0 0 le_rfl
  · dsimp only
    have acc : ∀ k j, accum l k j ≤ accum m k j := fun k j => by
      unfold accum
      have : ∀ (r : List ℕ) (s t : ℚ), s ≤ t → r.foldl (fun s i => fl (s + l.getD (8 * (i + 1) + j) 0)) s ≤
          r.foldl (fun s i => fl (s + m.getD (8 * (i + 1) + j) 0)) t := by
        intro r
        induction r with
        | nil => intro s t hst; exact hst
        | cons a r ih => intro s t hst; exact ih _ _ (fl_mono (add_le_add hst (getD_mono h _)))
      exact this _ _ _ (getD_mono h j)
    have hd : ∀ k, List.Forall₂ (· ≤ ·) (l.drop k) (m.drop k) := fun k => List.forall₂_drop k h
    refine seqSum_mono (hd _) _ _ (fl_mono (add_le_add (fl_mono (add_le_add (fl_mono (add_le_add (acc _ _) (acc _ _)))
      (fl_mono (add_le_add (acc _ _) (acc _ _))))) (fl_mono (add_le_add (fl_mono (add_le_add (acc _ _) (acc _ _)))
      (fl_mono (add_le_add (acc _ _) (acc _ _)))))))

/-- The second prediction of the same point is at least as far off. -/
def Worse (p q : Point) : Prop := q.ref = p.ref ∧ q.weight = p.weight ∧ 0 ≤ p.weight ∧ |p.test - p.ref| ≤ |q.test - q.ref|

/-- **C175** (further off is worse): when every prediction is at least as far from its reference, none of the computed measures is smaller. -/
theorem c175_worse {l m : List Point} (h : List.Forall₂ Worse l m) :
    sumSquares l ≤ sumSquares m ∧ average l ≤ average m ∧ percent l ≤ percent m := by
  have hl := h.length_eq
  have hd : ∀ p q : Point, Worse p q → |dev p| ≤ |dev q| := fun p q ⟨h1, _, _, h4⟩ => by
    rw [abs_dev, abs_dev, h1]
    rw [h1] at h4
    exact fl_mono (div_le_div_of_nonneg_right (fl_mono h4) (abs_nonneg _))
  have s1 : List.Forall₂ (· ≤ ·) (squares l) (squares m) := by
    unfold squares
    rw [List.forall₂_map_left_iff, List.forall₂_map_right_iff]
    refine h.imp fun p q w => fl_mono ?_
    rw [w.2.1]
    refine mul_le_mul_of_nonneg_right (fl_mono ?_) w.2.2.1
    rw [← abs_mul_abs_self, ← abs_mul_abs_self (dev q)]
    exact mul_self_le_mul_self (abs_nonneg _) (hd p q w)
  have s2 : List.Forall₂ (· ≤ ·) (sizes l) (sizes m) := by
    unfold sizes
    rw [List.forall₂_map_left_iff, List.forall₂_map_right_iff]
    refine h.imp fun p q w => fl_mono ?_
    rw [w.2.1]
    exact mul_le_mul_of_nonneg_right (hd p q w) w.2.2.1
  have mean_mono : ∀ {a b : List ℚ}, List.Forall₂ (· ≤ ·) a b → mean a ≤ mean b := fun {a b} g => by
    unfold mean
    rw [← g.length_eq]
    exact fl_mono (div_le_div_of_nonneg_right (npSum_mono g) (by positivity))
  exact ⟨npSum_mono s1, mean_mono s1, fl_mono (mul_le_mul_of_nonneg_right (mean_mono s2) (by norm_num))⟩

/-! ## The penalty -/

/-- What is known about the library's eighth power: not negative, and off by at most two units. -/
def GoodPower (pow8 : ℚ → ℚ) : Prop :=
  ∀ q, 0 ≤ pow8 q ∧ |((pow8 q : ℚ) : ℝ) - (q : ℝ) ^ 8| ≤ 224 / 10 ^ 18 * (q : ℝ) ^ 8 + 1 / 10 ^ 250

/-- **C175** (the penalty): nothing within the bounds; outside, with a bound that is not tiny, it is positive and within nineteen
roundings of the eighth power of a thousand times the distance. -/
theorem c175_penalty {pow8 : ℚ → ℚ} (hp : GoodPower pow8) {p lo hi : ℚ} (h1 : fl p = p) (h2 : fl lo = lo) (h3 : fl hi = hi)
    (b1 : 1 / 10 ^ 10 ≤ |lo|) (b2 : 1 / 10 ^ 10 ≤ |hi|) :
    (lo ≤ p → p ≤ hi → penalty pow8 p lo hi = 0) ∧
    (p < lo → Within 19 ((penalty pow8 p lo hi : ℚ) : ℝ) (((1000 * (lo - p)) ^ 8 : ℚ) : ℝ) ∧ 0 < penalty pow8 p lo hi) ∧
    (lo ≤ p → hi < p → Within 19 ((penalty pow8 p lo hi : ℚ) : ℝ) (((1000 * (p - hi)) ^ 8 : ℚ) : ℝ) ∧ 0 < penalty pow8 p lo hi) := by
  have key : ∀ b : ℚ, fl b = b → 1 / 10 ^ 10 ≤ |b| → p ≠ b →
      Within 19 ((pow8 (fl (1000 * fl (p - b))) : ℚ) : ℝ) (((1000 * |p - b|) ^ 8 : ℚ) : ℝ) ∧ 0 < pow8 (fl (1000 * fl (p - b))) := by
    intro b hb hb1 hne
    have g := double_gap h1 hb (abs_pos.1 (lt_of_lt_of_le (by norm_num) hb1)) hne
    have g1 : 1 / 10 ^ 27 ≤ |p - b| := by
      refine le_trans ?_ g
      rw [le_div_iff₀ (by positivity)]
      exact le_trans (by norm_num) hb1
    have w0 : Within 0 ((|p - b| : ℚ) : ℝ) ((|p - b| : ℚ) : ℝ) := Within.exact (by exact_mod_cast abs_nonneg _)
    have w1 := w0.round' (by norm_num) (Or.inr (ge_real (b := 1 / 10 ^ 140) (le_trans (by norm_num) g1) (by push_cast; rfl)))
    have w2 : Within 2 ((fl (1000 * fl |p - b|) : ℚ) : ℝ) ((1000 * |p - b| : ℚ) : ℝ) := by
      refine Within.round' (q := 1000 * fl |p - b|) (k := 1) ?_ (by norm_num) (Or.inr ?_)
      · rw [Rat.cast_mul, Rat.cast_mul]
        exact (Within.exact (S := ((1000 : ℚ) : ℝ)) (by norm_num)).mul (k := 0) w1
      · exact ge_real (b := 1 / 10 ^ 140) (le_trans (by norm_num) (mul_le_mul_of_nonneg_left g1 (by norm_num : (0 : ℚ) ≤ 1000))) (by push_cast; rfl)
    have e : |fl (1000 * fl (p - b))| = fl (1000 * fl |p - b|) := by
      rw [fl_abs, abs_mul, fl_abs]
      norm_num
    rw [← e] at w2
    set u := fl (1000 * fl (p - b))
    set S : ℚ := 1000 * |p - b| with hS
    have hS0 : 1 / 10 ^ 24 ≤ S := by
      have := mul_le_mul_of_nonneg_left g1 (by norm_num : (0 : ℚ) ≤ 1000)
      exact le_trans (by norm_num) this
    have w4 := w2.mul w2
    have w8 := w4.mul w4
    have w16 := w8.mul w8
    have e8 : ((|u| : ℚ) : ℝ) * (|u| : ℚ) * (((|u| : ℚ) : ℝ) * (|u| : ℚ)) * (((|u| : ℚ) : ℝ) * (|u| : ℚ) * (((|u| : ℚ) : ℝ) * (|u| : ℚ))) = (u : ℝ) ^ 8 := by
      have : ((|u| : ℚ) : ℝ) * (|u| : ℚ) = (u : ℝ) ^ 2 := by
        push_cast
        rw [abs_mul_abs_self, pow_two]
      rw [this]
      ring
    have eS : (S : ℝ) * S * (S * S) * (S * S * (S * S)) = ((S ^ 8 : ℚ) : ℝ) := by push_cast; ring
    rw [e8, eS] at w16
    have hS8 : (1 : ℝ) / 10 ^ 192 ≤ ((S ^ 8 : ℚ) : ℝ) :=
      ge_real (b := 1 / 10 ^ 192) (le_trans (by norm_num) (pow_le_pow_left₀ (by norm_num) hS0 8)) (by push_cast; rfl)
    obtain ⟨q0, q1⟩ := hp u
    have lower : (1 : ℝ) / 2 ≤ (1 - 112 / 10 ^ 18) ^ 16 := by norm_num
    have hu8 : (1 : ℝ) / 10 ^ 193 ≤ (u : ℝ) ^ 8 := by
      refine le_trans ?_ w16.2.1
      refine le_trans ?_ (mul_le_mul lower hS8 (by norm_num) (le_trans (by norm_num) lower))
      norm_num
    obtain ⟨z1, z2⟩ := abs_le.1 q1
    have tiny0 : (1 : ℝ) / 10 ^ 250 ≤ 1 / 10 ^ 30 * (1 / 10 ^ 193) := by norm_num
    have w3 : Within 3 ((pow8 u : ℚ) : ℝ) ((u : ℝ) ^ 8) := by
      refine ⟨by positivity, ?_, ?_⟩
      · have : ((1 : ℝ) - 112 / 10 ^ 18) ^ 3 ≤ 1 - 225 / 10 ^ 18 := by norm_num
        have := mul_le_mul_of_nonneg_right this (show 0 ≤ (u : ℝ) ^ 8 by positivity)
        linarith
      · have : (1 : ℝ) + 225 / 10 ^ 18 ≤ (1 + 112 / 10 ^ 18) ^ 3 := by norm_num
        have := mul_le_mul_of_nonneg_right this (show 0 ≤ (u : ℝ) ^ 8 by positivity)
        linarith
    refine ⟨w3.trans w16, ?_⟩
    have : (0 : ℝ) < (pow8 u : ℚ) := lt_of_lt_of_le (mul_pos (pow_pos (by norm_num) 3) (lt_of_lt_of_le (by norm_num) hu8)) w3.2.1
    exact_mod_cast this
  refine ⟨fun a b => ?_, fun a => ?_, fun a b => ?_⟩
  · unfold penalty
    rw [if_neg (not_lt.2 a), if_neg (not_lt.2 b)]
  · unfold penalty
    rw [if_pos a]
    have := key lo h2 b1 a.ne
    rw [abs_of_neg (sub_neg.2 a), neg_sub] at this
    exact this
  · unfold penalty
    rw [if_neg (not_lt.2 a), if_pos b]
    have := key hi h3 b2 b.ne'
    rw [abs_of_pos (sub_pos.2 b)] at this
    exact this

/-- **C175** (the total): penalties never lower the objective, and nothing changes within the bounds. -/
theorem c175_total {pow8 : ℚ → ℚ} (hp : ∀ q, 0 ≤ pow8 q) (l : List (ℚ × ℚ × ℚ)) (total : ℚ) (ht : fl total = total) :
    total ≤ addPenalties pow8 total l ∧ ((∀ p ∈ l, p.2.1 ≤ p.1 ∧ p.1 ≤ p.2.2) → addPenalties pow8 total l = total) := by
  have pen : ∀ p lo hi, 0 ≤ penalty pow8 p lo hi := fun p lo hi => by
    unfold penalty
    split_ifs
    · exact hp _
    · exact hp _
    · exact le_rfl
  induction l generalizing total with
  | nil => exact ⟨le_rfl, fun _ => rfl⟩
  | cons p l ih =>
    obtain ⟨i1, i2⟩ := ih (fl (total + penalty pow8 p.1 p.2.1 p.2.2)) (fl_idem _)
    have step : total ≤ fl (total + penalty pow8 p.1 p.2.1 p.2.2) := double_le_fl ht (by linarith [pen p.1 p.2.1 p.2.2])
    refine ⟨step.trans i1, fun h => ?_⟩
    have e : penalty pow8 p.1 p.2.1 p.2.2 = 0 := by
      unfold penalty
      rw [if_neg (not_lt.2 (h p (by simp)).1), if_neg (not_lt.2 (h p (by simp)).2)]
    have := i2 fun q hq => h q (List.mem_cons_of_mem _ hq)
    rw [e, add_zero, ht] at this
    show addPenalties pow8 (fl (total + penalty pow8 p.1 p.2.1 p.2.2)) l = total
    rw [e, add_zero, ht]
    exact this

/-- **C175 is violated** outside the bounds: with an objective of one, a parameter that is a hundred-thousandth below its lower bound of
one costs nothing, and neither does a slightly negative parameter whose lower bound is zero, whatever the objective. -/
theorem c175_violated_penalty :
    (let p := fl 0.99999
     p < 1 ∧ 0 < penalty (fun q => fl (q ^ 8)) p 1 2 ∧ addPenalties (fun q => fl (q ^ 8)) 1 [(p, 1, 2)] = 1) ∧
    penalty (fun q => fl (q ^ 8)) (-1 / 2 ^ 200) 0 2 = 0 := by decide +kernel

/-- Two points, one matched to the last place and one not. -/
example : SanePoint ⟨fl 1.1, fl 1.1, 1⟩ ∧ SanePoint ⟨fl 1.2, fl 1.1, fl 0.5⟩ ∧ sumSquares [⟨fl 1.1, fl 1.1, 1⟩] = 0 ∧
    0 < sumSquares [⟨fl 1.1, fl 1.1, 1⟩, ⟨fl 1.2, fl 1.1, fl 0.5⟩] ∧ Worse ⟨fl 1.1, fl 1.1, 1⟩ ⟨fl 1.2, fl 1.1, 1⟩ := by
  refine ⟨⟨by decide +kernel, by decide +kernel, by decide +kernel, by decide +kernel⟩,
    ⟨by decide +kernel, by decide +kernel, by decide +kernel, by decide +kernel⟩, by decide +kernel, by decide +kernel, rfl, rfl, by decide +kernel, by decide +kernel⟩

end Verif.Props
