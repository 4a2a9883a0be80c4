import Verif.Model.Binary64
import Mathlib.Algebra.Order.Field.Power
import Mathlib.Tactic.Linarith
import Mathlib.Tactic.Positivity
import Mathlib.Tactic.Ring
import Mathlib.Tactic.LinearCombination
import Mathlib.Algebra.BigOperators.Intervals
import Mathlib.Algebra.BigOperators.Fin
import Mathlib.Tactic.NormNum
import Mathlib.Tactic.FieldSimp

/-!
# C69: a composition that adds up to one is accepted
-/

namespace Verif.Props

open Verif Verif.Binary64

/-! ## Rounding -/

/-- Rounding to an integer is off by at most one half. -/
theorem rnd_err (q : ℚ) : |(rnd q : ℚ) - q| ≤ 1 / 2 := by
  have h1 := Int.floor_le q
  have h2 := Int.lt_floor_add_one q
  unfold rnd
  dsimp only
  split_ifs <;> push_cast <;> rw [abs_le] <;> constructor <;> linarith

theorem rnd_int (z : ℤ) : rnd (z : ℚ) = z := by
  unfold rnd
  norm_num

/-- Every double is a whole number of units in the last place. -/
theorem fl_grid (q : ℚ) : ∃ k : ℤ, fl q = k * 2 ^ lastPlace q := by
  unfold fl
  split
  · exact ⟨0, by simp⟩
  · exact ⟨_, rfl⟩

theorem fl_err (q : ℚ) : |fl q - q| ≤ 2 ^ lastPlace q / 2 := by
  have hp : (0 : ℚ) < 2 ^ lastPlace q := by positivity
  unfold fl
  split
  · rename_i h; subst h; simpa using (half_pos hp).le
  · have h := rnd_err (q / 2 ^ lastPlace q)
    have e : (rnd (q / 2 ^ lastPlace q) : ℚ) * 2 ^ lastPlace q - q =
        (rnd (q / 2 ^ lastPlace q) - q / 2 ^ lastPlace q) * 2 ^ lastPlace q := by
      field_simp
    rw [e, abs_mul, abs_of_pos hp]
    nlinarith

theorem log_abs_lt {q : ℚ} {e : ℤ} (hq : q ≠ 0) (h : |q| < 2 ^ e) : Int.log 2 |q| < e := by
  have := (Int.lt_zpow_iff_log_lt (b := 2) (by norm_num) (x := e) (abs_pos.2 hq)).1
    (by exact_mod_cast h)
  exact this

theorem log_abs_ge {q : ℚ} {e : ℤ} (hq : q ≠ 0) (h : (2 : ℚ) ^ e ≤ |q|) : e ≤ Int.log 2 |q| :=
  (Int.zpow_le_iff_le_log (b := 2) (by norm_num) (x := e) (abs_pos.2 hq)).1 (by exact_mod_cast h)

theorem log_abs_eq {q : ℚ} {e : ℤ} (h1 : (2 : ℚ) ^ e ≤ |q|) (h2 : |q| < 2 ^ (e + 1)) :
    Int.log 2 |q| = e := by
  have hq : q ≠ 0 := by
    rintro rfl
    have : (0 : ℚ) < 2 ^ e := by positivity
    simp at h1; linarith
  have := log_abs_lt hq h2
  have := log_abs_ge hq h1
  omega

/-- A number with at most 53 significant digits is a double. -/
theorem fl_exact {k : ℤ} {e : ℤ} (he : -1074 ≤ e) (hk : |k| ≤ 2 ^ 53) :
    fl (k * 2 ^ e : ℚ) = k * 2 ^ e := by
  by_cases hk0 : k = 0
  · simp [hk0, fl]
  have hpe : (0 : ℚ) < 2 ^ e := by positivity
  set q : ℚ := k * 2 ^ e with hq
  have hq0 : q ≠ 0 := mul_ne_zero (by exact_mod_cast hk0) hpe.ne'
  have habs : |q| = |k| * 2 ^ e := by rw [hq, abs_mul, abs_of_pos hpe]; norm_cast
  have key : ∃ z : ℤ, q / 2 ^ lastPlace q = z := by
    by_cases hlt : |k| = 2 ^ 53
    · have hl : Int.log 2 |q| = e + 53 := by
        apply log_abs_eq
        · rw [habs, hlt, zpow_add₀ (by norm_num)]
          norm_num; rw [mul_comm]
        · rw [habs, hlt, zpow_add₀ (by norm_num), zpow_add₀ (by norm_num)]
          norm_num; nlinarith
      have hlp : lastPlace q = e + 1 := by unfold lastPlace; omega
      rcases abs_eq (by positivity : (0 : ℤ) ≤ 2 ^ 53) |>.1 hlt with h | h
      · refine ⟨2 ^ 52, ?_⟩
        rw [hlp, hq, h, zpow_add₀ (by norm_num)]; field_simp; norm_num
      · refine ⟨-2 ^ 52, ?_⟩
        rw [hlp, hq, h, zpow_add₀ (by norm_num)]; field_simp; norm_num
    · have hk' : |k| < 2 ^ 53 := lt_of_le_of_ne hk hlt
      have hl : Int.log 2 |q| < e + 53 := by
        apply log_abs_lt hq0
        rw [habs, zpow_add₀ (by norm_num), mul_comm]
        have : (|k| : ℚ) < 2 ^ 53 := by exact_mod_cast hk'
        have h3 := mul_lt_mul_of_pos_left this hpe
        push_cast
        calc _ < _ := h3
          _ = _ := by norm_num
      have hlp : lastPlace q ≤ e := by unfold lastPlace; omega
      obtain ⟨d, hd⟩ := Int.le.dest hlp
      refine ⟨k * 2 ^ d, ?_⟩
      have h2 : (2 : ℚ) ^ lastPlace q ≠ 0 := by positivity
      have h3 : (2 : ℚ) ^ e = 2 ^ lastPlace q * 2 ^ d := by
        rw [← zpow_natCast, ← zpow_add₀ (by norm_num), hd]
      rw [div_eq_iff h2]
      push_cast
      rw [mul_assoc, mul_comm ((2 : ℚ) ^ d), ← h3]
  obtain ⟨z, hz⟩ := key
  have hpl : (2 : ℚ) ^ lastPlace q ≠ 0 := by positivity
  rw [fl, if_neg hq0, hz, rnd_int, ← hz, div_mul_cancel₀ _ hpl]

/-- Every double has at most 53 significant digits. -/
theorem fl_form (q : ℚ) : ∃ k : ℤ, |k| ≤ 2 ^ 53 ∧ fl q = k * 2 ^ lastPlace q := by
  by_cases hq : q = 0
  · exact ⟨0, by simp, by simp [fl, hq]⟩
  refine ⟨rnd (q / 2 ^ lastPlace q), ?_, by rw [fl, if_neg hq]⟩
  have hp : (0 : ℚ) < 2 ^ lastPlace q := by positivity
  have h1 : |q| < 2 ^ (Int.log 2 |q| + 1) :=
    mod_cast Int.lt_zpow_succ_log_self (b := 2) (by norm_num) |q|
  have h2 : (2 : ℚ) ^ (Int.log 2 |q| + 1) ≤ 2 ^ (lastPlace q + 53) :=
    zpow_le_zpow_right₀ (by norm_num) (by unfold lastPlace; omega)
  rw [zpow_add₀ (by norm_num : (2 : ℚ) ≠ 0) (lastPlace q)] at h2
  have h3 : |q / 2 ^ lastPlace q| < 2 ^ 53 := by
    rw [abs_div, abs_of_pos hp, div_lt_iff₀ hp]
    calc |q| < _ := h1
      _ ≤ _ := h2
      _ = _ := by rw [mul_comm]; norm_num
  have h4 := rnd_err (q / 2 ^ lastPlace q)
  have h5 : |(rnd (q / 2 ^ lastPlace q) : ℚ)| < 2 ^ 53 + 1 := by
    calc |(rnd (q / 2 ^ lastPlace q) : ℚ)|
        = |(rnd (q / 2 ^ lastPlace q) - q / 2 ^ lastPlace q) + q / 2 ^ lastPlace q| := by ring_nf
      _ ≤ _ := abs_add_le _ _
      _ < _ := by linarith
  have h6 : |rnd (q / 2 ^ lastPlace q)| < 2 ^ 53 + 1 := by exact_mod_cast h5
  omega

theorem lastPlace_ge (q : ℚ) : -1074 ≤ lastPlace q := le_max_right _ _

/-- Rounding a double changes nothing. -/
theorem fl_idem (q : ℚ) : fl (fl q) = fl q := by
  obtain ⟨k, hk, e⟩ := fl_form q
  rw [e]
  exact fl_exact (lastPlace_ge q) hk

/-- Around one, half a unit in the last place below is rounded away. -/
theorem fl_near_one {δ : ℚ} (h : |δ| ≤ 1 / 2 ^ 54) : fl (1 + δ) = 1 := by
  obtain ⟨hl, hu⟩ := abs_le.1 h
  norm_num at hl hu
  have hpos : 0 < 1 + δ := by linarith
  have habs : |1 + δ| = 1 + δ := abs_of_pos hpos
  by_cases hd : 0 ≤ δ
  · have hlog : Int.log 2 |1 + δ| = 0 := by
      apply log_abs_eq <;> rw [habs] <;> norm_num <;> linarith
    have hlp : lastPlace (1 + δ) = -52 := by unfold lastPlace; omega
    rw [fl, if_neg hpos.ne', hlp]
    have : rnd ((1 + δ) / 2 ^ (-52 : ℤ)) = 2 ^ 52 := by
      have hf : ⌊(1 + δ) / 2 ^ (-52 : ℤ)⌋ = 2 ^ 52 := by
        rw [Int.floor_eq_iff]; norm_num; constructor <;> linarith
      unfold rnd
      dsimp only
      rw [hf, if_pos]
      norm_num; linarith
    rw [this]; norm_num
  · have hlog : Int.log 2 |1 + δ| = -1 := by
      apply log_abs_eq <;> rw [habs] <;> norm_num <;> linarith
    have hlp : lastPlace (1 + δ) = -53 := by unfold lastPlace; omega
    rw [fl, if_neg hpos.ne', hlp]
    have : rnd ((1 + δ) / 2 ^ (-53 : ℤ)) = 2 ^ 53 := by
      have hf : ⌊(1 + δ) / 2 ^ (-53 : ℤ)⌋ = 2 ^ 53 - 1 := by
        rw [Int.floor_eq_iff]; norm_num; constructor <;> linarith
      unfold rnd
      dsimp only
      rw [hf, if_neg (by norm_num; linarith)]
      split
      · norm_num
      · norm_num
    rw [this]; norm_num

theorem int_le_of_le_half {d : ℤ} {n : ℤ} (h : |(d : ℚ)| ≤ 1 / 2 + n) : |d| ≤ n := by
  have : (|d| : ℚ) < n + 1 := by linarith
  have : |d| < n + 1 := by exact_mod_cast this
  omega

/-- The roundings of a number up to one half and of its complement add up to one. -/
theorem pair_half {x : ℚ} (h0 : 0 ≤ x) (h1 : x ≤ 1 / 2) : fl (fl x + fl (1 - x)) = 1 := by
  rcases h0.eq_or_lt with rfl | h0
  · decide +kernel
  rcases h1.eq_or_lt with rfl | h1
  · decide +kernel
  -- the complement lies in [1/2, 1)
  have hb : |1 - x| = 1 - x := abs_of_pos (by linarith)
  have hlb : lastPlace (1 - x) = -53 := by
    have : Int.log 2 |1 - x| = -1 := by
      apply log_abs_eq <;> rw [hb] <;> norm_num <;> linarith
    unfold lastPlace; omega
  have hla : lastPlace x ≤ -54 := by
    have : Int.log 2 |x| < -1 := by
      apply log_abs_lt h0.ne'
      rw [abs_of_pos h0]; norm_num; linarith
    unfold lastPlace; omega
  obtain ⟨a, ha⟩ := fl_grid x
  obtain ⟨b, hbb⟩ := fl_grid (1 - x)
  have ea := fl_err x
  have eb := fl_err (1 - x)
  rw [hlb] at hbb eb
  obtain ⟨i, hi⟩ := Int.le.dest hla
  set u : ℚ := 2 ^ lastPlace x with hu
  have hup : 0 < u := by rw [hu]; positivity
  have hui : u * 2 ^ i = 1 / 2 ^ 54 := by
    rw [hu, ← zpow_natCast, ← zpow_add₀ (by norm_num), hi]; norm_num
  have hδ : fl x + fl (1 - x) = 1 + ((a + b * 2 ^ (i + 1) - 2 ^ (i + 54) : ℤ) : ℚ) * u := by
    rw [ha, hbb]
    push_cast
    have e1 : (2 : ℚ) ^ (-53 : ℤ) = 2 ^ (i + 1) * u := by
      rw [pow_succ, mul_right_comm, mul_comm ((2 : ℚ) ^ i) u, hui]; norm_num
    have e2 : (1 : ℚ) = 2 ^ (i + 54) * u := by
      rw [pow_add, mul_right_comm, mul_comm ((2 : ℚ) ^ i) u, hui]; norm_num
    rw [e1]
    linear_combination (-1 : ℚ) * e2
  rw [hδ]
  apply fl_near_one
  set d : ℤ := a + b * 2 ^ (i + 1) - 2 ^ (i + 54) with hd
  have hdu : |(d : ℚ) * u| ≤ u / 2 + 1 / 2 ^ 54 := by
    have : (d : ℚ) * u = (fl x - x) + (fl (1 - x) - (1 - x)) := by linarith
    rw [this]
    refine (abs_add_le _ _).trans (add_le_add ea (eb.trans (by norm_num)))
  have hd' : |d| ≤ 2 ^ i := by
    apply int_le_of_le_half
    rw [abs_mul, abs_of_pos hup, ← hui] at hdu
    push_cast
    have : |(d : ℚ)| * u ≤ (1 / 2 + 2 ^ i) * u := by linarith
    exact le_of_mul_le_mul_right this hup
  have : |(d : ℚ)| ≤ 2 ^ i := by exact_mod_cast hd'
  rw [abs_mul, abs_of_pos hup, ← hui, mul_comm u]
  exact mul_le_mul_of_nonneg_right this hup.le

/-! ## Sums -/

theorem seqSum_rel {P : ℕ → ℚ → ℚ → Prop} (mono : ∀ {k k' s S}, P k s S → k ≤ k' → P k' s S)
    (add : ∀ {k s S s' S'}, P k s S → P k s' S' → P (k + 1) (fl (s + s')) (S + S'))
    (l : List ℚ) (hl : ∀ x ∈ l, P 0 x x) (k : ℕ) (s S : ℚ) (hs : P k s S) :
    P (k + l.length) (seqSum s l) (S + l.sum) := by
  induction l generalizing k s S with
  | nil => simpa [seqSum] using hs
  | cons x l ih =>
    have h := ih (fun y hy => hl y (List.mem_cons_of_mem _ hy)) (k + 1) (fl (s + x)) (S + x)
      (add hs (mono (hl x List.mem_cons_self) (Nat.zero_le _)))
    rw [List.length_cons, List.sum_cons, ← add_assoc S]
    have e : k + (l.length + 1) = k + 1 + l.length := by omega
    rw [e]
    exact h

theorem accum_rel {P : ℕ → ℚ → ℚ → Prop} (mono : ∀ {k k' s S}, P k s S → k ≤ k' → P k' s S)
    (h0 : P 0 0 0)
    (add : ∀ {k s S s' S'}, P k s S → P k s' S' → P (k + 1) (fl (s + s')) (S + S'))
    (l : List ℚ) (hl : ∀ x ∈ l, P 0 x x) (m j : ℕ) (hm : 1 ≤ m) :
    P (m - 1) (accum l m j) (∑ i ∈ Finset.range m, l.getD (8 * i + j) 0) := by
  have hx : ∀ i, P 0 (l.getD i 0) (l.getD i 0) := fun i => by
    rw [List.getD_eq_getElem?_getD]
    cases h : l[i]? with
    | none => exact h0
    | some x => exact hl x (List.mem_of_getElem? h)
  have key : ∀ q : ℕ, P q ((List.range q).foldl (fun s i => fl (s + l.getD (8 * (i + 1) + j) 0))
      (l.getD j 0)) (∑ i ∈ Finset.range (q + 1), l.getD (8 * i + j) 0) := by
    intro q
    induction q with
    | zero => simpa using hx j
    | succ q ih =>
      rw [List.range_succ, List.foldl_append, Finset.sum_range_succ]
      exact add ih (mono (hx _) (Nat.zero_le _))
  have := key (m - 1)
  rwa [Nat.sub_add_cancel hm] at this

theorem sum_blocks (f : ℕ → ℚ) (m : ℕ) :
    ∑ t ∈ Finset.range (8 * m), f t = (((∑ i ∈ Finset.range m, f (8 * i + 0)) +
      ∑ i ∈ Finset.range m, f (8 * i + 1)) + ((∑ i ∈ Finset.range m, f (8 * i + 2)) +
      ∑ i ∈ Finset.range m, f (8 * i + 3))) + (((∑ i ∈ Finset.range m, f (8 * i + 4)) +
      ∑ i ∈ Finset.range m, f (8 * i + 5)) + ((∑ i ∈ Finset.range m, f (8 * i + 6)) +
      ∑ i ∈ Finset.range m, f (8 * i + 7))) := by
  induction m with
  | zero => simp
  | succ m ih =>
    have e : 8 * (m + 1) = 8 * m + 1 + 1 + 1 + 1 + 1 + 1 + 1 + 1 := by omega
    rw [e]
    simp only [Finset.sum_range_succ, ih, Nat.add_zero]
    ring_nf

theorem take_sum (l : List ℚ) (n : ℕ) : (l.take n).sum = ∑ t ∈ Finset.range n, l.getD t 0 := by
  induction n with
  | zero => simp
  | succ n ih =>
    rw [Finset.sum_range_succ, ← ih, List.take_add_one, List.sum_append]
    congr 1
    rw [List.getD_eq_getElem?_getD]
    cases l[n]? <;> simp

/-- What holds for the terms and is kept by every rounded addition holds for numpy's sum; every
number goes through at most as many additions as there are terms. -/
theorem npSum_rel {P : ℕ → ℚ → ℚ → Prop} (mono : ∀ {k k' s S}, P k s S → k ≤ k' → P k' s S)
    (h0 : P 0 0 0)
    (add : ∀ {k s S s' S'}, P k s S → P k s' S' → P (k + 1) (fl (s + s')) (S + S'))
    (l : List ℚ) (hl : ∀ x ∈ l, P 0 x x) : P l.length (npSum l) l.sum := by
  unfold npSum
  split
  · simpa using seqSum_rel (P := P) mono add l hl 0 0 0 h0
  · rename_i hlen
    dsimp only
    set m := l.length / 8 with hm
    have hm1 : 1 ≤ m := by omega
    have ha := fun j => accum_rel (P := P) mono h0 add l hl m j hm1
    have hres := add (add (add (ha 0) (ha 1)) (add (ha 2) (ha 3)))
      (add (add (ha 4) (ha 5)) (add (ha 6) (ha 7)))
    have h := seqSum_rel (P := P) mono add (l.drop (8 * m)) (fun x hx => hl x (List.mem_of_mem_drop hx)) _ _ _
      hres
    rw [← sum_blocks (fun t => l.getD t 0), ← take_sum, List.sum_take_add_sum_drop] at h
    refine mono h ?_
    rw [List.length_drop]
    omega

/-- The exact sum on a common grid of spacing 2⁻⁵³. -/
def OnGrid (_ : ℕ) (s S : ℚ) : Prop := ∃ K : ℕ, S = K * 2 ^ (-53 : ℤ) ∧ (S ≤ 1 → s = S)

/-- C69: mole fractions that are multiples of 2⁻⁵³, such as quarters, are accepted exactly if they add
up to one. -/
theorem c69_grid (x : List ℚ) (hx : ∀ a ∈ x, ∃ K : ℕ, a = K * 2 ^ (-53 : ℤ)) (hs : x.sum = 1) :
    checkFractions x = .ok () := by
  have h := npSum_rel (P := OnGrid) (fun h _ => h) ⟨0, by simp⟩ (fun {k s S s' S'} => by
    rintro ⟨K, hK, h⟩ ⟨K', hK', h'⟩
    refine ⟨K + K', by rw [hK, hK']; push_cast; ring, fun hle => ?_⟩
    have hp : (0 : ℚ) < 2 ^ (-53 : ℤ) := by positivity
    have hS : 0 ≤ S := by rw [hK]; positivity
    have hS' : 0 ≤ S' := by rw [hK']; positivity
    rw [h (by linarith), h' (by linarith)]
    have e : S + S' = ((K + K' : ℤ) : ℚ) * 2 ^ (-53 : ℤ) := by rw [hK, hK']; push_cast; ring
    rw [e]
    apply fl_exact (by norm_num)
    rw [e] at hle
    have : ((K + K' : ℤ) : ℚ) ≤ 2 ^ 53 := by
      have := (le_div_iff₀ hp).2 hle
      norm_num at this ⊢
      exact this
    have : (K + K' : ℤ) ≤ 2 ^ 53 := by exact_mod_cast this
    rw [abs_of_nonneg (by positivity)]
    exact this) x (fun a ha => by
      obtain ⟨K, hK⟩ := hx a ha
      exact ⟨K, hK, fun _ => rfl⟩)
  obtain ⟨K, hK, h⟩ := h
  unfold checkFractions
  rw [h hs.le, hs]
  simp

/-- C69: a pure component is accepted, in any position. -/
theorem c69_pure (n i : ℕ) (hi : i < n) :
    checkFractions (List.ofFn fun j : Fin n => if (j : ℕ) = i then (1 : ℚ) else 0) = .ok () := by
  apply c69_grid
  · intro a ha
    obtain ⟨j, rfl⟩ := (List.mem_ofFn' _ _).1 ha
    by_cases h : (j : ℕ) = i
    · exact ⟨2 ^ 53, by simp only [h, if_true]; norm_num⟩
    · exact ⟨0, by simp only [h, if_false]; norm_num⟩
  · rw [List.sum_ofFn, Finset.sum_eq_single (⟨i, hi⟩ : Fin n)]
    · simp
    · intro b _ hb
      rw [if_neg fun h => hb (Fin.ext h)]
    · simp

theorem npSum_pair (a b : ℚ) (ha : fl a = a) : npSum [a, b] = fl (a + b) := by
  simp [npSum, seqSum, ha]

/-- C69: two fractions that add up to one are accepted, whatever digits are needed to write them. -/
theorem c69_pair {x : ℚ} (h0 : 0 ≤ x) (h1 : x ≤ 1) : checkFractions [fl x, fl (1 - x)] = .ok () := by
  have : fl (fl x + fl (1 - x)) = 1 := by
    rcases le_total x (1 / 2) with h | h
    · exact pair_half h0 h
    · have := pair_half (x := 1 - x) (by linarith) (by linarith)
      rwa [sub_sub_cancel, add_comm] at this
  unfold checkFractions
  rw [npSum_pair _ _ (fl_idem x), this]
  simp

/-- C69: the second fraction may be computed as the complement of the first. -/
theorem c69_complement {x : ℚ} (hx : fl x = x) (h0 : 0 ≤ x) (h1 : x ≤ 1) :
    checkFractions [x, fl (1 - x)] = .ok () := by
  have := c69_pair h0 h1
  rwa [hx] at this

/-- C69: two amounts divided by their sum are accepted if the sum needed no rounding. -/
theorem c69_normalised_partial {a b : ℚ} (ha : 0 ≤ a) (hb : 0 ≤ b) (hab : 0 < a + b)
    (hs : fl (a + b) = a + b) :
    checkFractions [fl (a / fl (a + b)), fl (b / fl (a + b))] = .ok () := by
  rw [hs]
  have e : b / (a + b) = 1 - a / (a + b) := by field_simp; ring
  rw [e]
  exact c69_pair (by positivity) ((div_le_one hab).2 (by linarith))

/-- C69 is violated without that condition: 0.1 and 0.3 divided by their sum are refused. -/
theorem c69_violated_normalised :
    checkFractions [fl (fl (1 / 10) / fl (fl (1 / 10) + fl (3 / 10))),
      fl (fl (3 / 10) / fl (fl (1 / 10) + fl (3 / 10)))] = .error .valueError := by
  decide +kernel

/-- C69 is violated by three components: 0.2, 0.7 and 0.1 are refused. -/
theorem c69_violated_decimal :
    (1 / 5 + 7 / 10 + 1 / 10 : ℚ) = 1 ∧
      checkFractions [fl (1 / 5), fl (7 / 10), fl (1 / 10)] = .error .valueError :=
  ⟨by norm_num, by decide +kernel⟩

/-- C69: whether a mixture is accepted depends on the order in which its components are listed. -/
theorem c69_violated_order : ∃ x y : List ℚ, x.Perm y ∧ checkFractions x = .ok () ∧
    checkFractions y = .error .valueError :=
  ⟨[fl (1 / 10), fl (1 / 5), fl (7 / 10)], [fl (1 / 5), fl (7 / 10), fl (1 / 10)],
    by decide +kernel, by decide +kernel, by decide +kernel⟩

/-- C69: equal fractions of up to five components are accepted. -/
theorem c69_equimolar (n : ℕ) (h1 : 1 ≤ n) (h5 : n ≤ 5) :
    checkFractions (List.replicate n (fl (1 / n))) = .ok () := by
  have : ∀ n ∈ [1, 2, 3, 4, 5], checkFractions (List.replicate n (fl (1 / n))) = .ok () := by
    decide +kernel
  exact this n (by simp; omega)

/-- C69 is violated by equal fractions of six components, and of twenty, whose sum is above one. -/
theorem c69_violated_equimolar :
    checkFractions (List.replicate 6 (fl (1 / 6))) = .error .valueError ∧
      npSum (List.replicate 6 (fl (1 / 6))) < 1 ∧
      checkFractions (List.replicate 20 (fl (1 / 20))) = .error .valueError ∧
      1 < npSum (List.replicate 20 (fl (1 / 20))) := by
  decide +kernel

/-- C69: from eight components on the sum is formed in pairs, so that this mixture is accepted although adding from left to
right does not give one. -/
theorem c69_eight :
    checkFractions ([12, 2, 20, 12, 2, 20, 20, 12].map fun k : ℚ => fl (k / 100)) = .ok () ∧
      seqSum 0 ([12, 2, 20, 12, 2, 20, 20, 12].map fun k : ℚ => fl (k / 100)) ≠ 1 := by
  decide +kernel

/-- C69: a mixture of seven components that is accepted is refused when a component that is absent is listed too. -/
theorem c69_violated_absent :
    checkFractions ([5, 5, 5, 20, 5, 30, 30].map fun k : ℚ => fl (k / 100)) = .ok () ∧
      checkFractions (([5, 5, 5, 20, 5, 30, 30].map fun k : ℚ => fl (k / 100)) ++ [0]) = .error .valueError := by
  decide +kernel

/-- `s` is a double within `k` roundings of the non-negative number `S`. -/
def Near (k : ℕ) (s S : ℚ) : Prop :=
  fl s = s ∧ 0 ≤ S ∧ (1 - 1 / 2 ^ 53) ^ k * S ≤ s ∧ s ≤ (1 + 1 / 2 ^ 53) ^ k * S

/-- Every double is a multiple of the smallest one. -/
theorem double_multiple {s : ℚ} (h : fl s = s) : ∃ k : ℤ, s = k * 2 ^ (-1074 : ℤ) := by
  obtain ⟨k, _, e⟩ := fl_form s
  obtain ⟨d, hd⟩ := Int.le.dest (lastPlace_ge s)
  refine ⟨k * 2 ^ d, ?_⟩
  rw [← h, e, ← hd, zpow_add₀ (by norm_num), zpow_natCast]
  push_cast
  rw [mul_assoc, mul_comm ((2 : ℚ) ^ d)]

/-- The relative error of a sum of two doubles. -/
theorem fl_add_rel {s t : ℚ} (hs : fl s = s) (ht : fl t = t) (h0 : 0 ≤ s + t) :
    |fl (s + t) - (s + t)| ≤ 1 / 2 ^ 53 * (s + t) := by
  rcases h0.eq_or_lt with h | hp
  · rw [← h]; simp [fl]
  by_cases hn : -1022 ≤ Int.log 2 |s + t|
  · have h := fl_err (s + t)
    have hl : lastPlace (s + t) = Int.log 2 |s + t| - 52 := by unfold lastPlace; omega
    have hz : (2 : ℚ) ^ Int.log 2 |s + t| ≤ s + t := by
      have := Int.zpow_log_le_self (b := 2) (by norm_num) (abs_pos.2 hp.ne')
      rw [abs_of_pos hp] at this ⊢
      exact_mod_cast this
    rw [hl, zpow_sub₀ (by norm_num)] at h
    refine h.trans ?_
    norm_num
    linarith
  · obtain ⟨a, ha⟩ := double_multiple hs
    obtain ⟨b, hb⟩ := double_multiple ht
    have e : s + t = ((a + b : ℤ) : ℚ) * 2 ^ (-1074 : ℤ) := by
      rw [ha, hb, Int.cast_add, add_mul]
    have hlt : |s + t| < 2 ^ (-1074 + 53 : ℤ) :=
      lt_of_lt_of_le (mod_cast Int.lt_zpow_succ_log_self (b := 2) (by norm_num) |s + t|)
        (zpow_le_zpow_right₀ (by norm_num) (by omega))
    have hk : |a + b| ≤ 2 ^ 53 := by
      have hpos : (0 : ℚ) < 2 ^ (-1074 : ℤ) := by positivity
      rw [zpow_add₀ (by norm_num), e, abs_mul, abs_of_pos hpos, mul_comm] at hlt
      have := lt_of_mul_lt_mul_left hlt hpos.le
      have h2 : (|a + b| : ℤ) < (2 ^ 53 : ℤ) := by exact_mod_cast this
      exact h2.le
    have := fl_exact (by norm_num) hk (e := -1074)
    rw [← e] at this
    rw [this]
    simp
    positivity

/-- numpy's sum of non-negative doubles is off by at most one rounding per number. -/
theorem npSum_near (x : List ℚ) (hx : ∀ a ∈ x, fl a = a ∧ 0 ≤ a) : Near x.length (npSum x) x.sum := by
  exact npSum_rel (P := Near) (fun {k k' s S} h hk => by
    obtain ⟨h1, h2, h3, h4⟩ := h
    refine ⟨h1, h2, le_trans ?_ h3, le_trans h4 ?_⟩
    · exact mul_le_mul_of_nonneg_right (pow_le_pow_of_le_one (by norm_num) (by norm_num) hk) h2
    · exact mul_le_mul_of_nonneg_right (pow_le_pow_right₀ (by norm_num) hk) h2)
    ⟨by simp [fl], le_rfl, by simp, by simp⟩ (fun {k s S s' S'} => by
      rintro ⟨h1, h2, h3, h4⟩ ⟨h1', h2', h3', h4'⟩
      have hs : 0 ≤ s := le_trans (mul_nonneg (pow_nonneg (by norm_num) _) h2) h3
      have hs' : 0 ≤ s' := le_trans (mul_nonneg (pow_nonneg (by norm_num) _) h2') h3'
      have hr := abs_le.1 (fl_add_rel h1 h1' (add_nonneg hs hs'))
      refine ⟨fl_idem _, add_nonneg h2 h2', ?_, ?_⟩
      · calc (1 - 1 / 2 ^ 53) ^ (k + 1) * (S + S')
            = (1 - 1 / 2 ^ 53) * ((1 - 1 / 2 ^ 53) ^ k * S + (1 - 1 / 2 ^ 53) ^ k * S') := by ring
          _ ≤ (1 - 1 / 2 ^ 53) * (s + s') :=
            mul_le_mul_of_nonneg_left (add_le_add h3 h3') (by norm_num)
          _ ≤ fl (s + s') := by linarith [hr.1]
      · calc fl (s + s') ≤ (1 + 1 / 2 ^ 53) * (s + s') := by linarith [hr.2]
          _ ≤ (1 + 1 / 2 ^ 53) * ((1 + 1 / 2 ^ 53) ^ k * S + (1 + 1 / 2 ^ 53) ^ k * S') :=
            mul_le_mul_of_nonneg_left (add_le_add h4 h4') (by norm_num)
          _ = _ := by ring) x (fun a ha => ⟨(hx a ha).1, (hx a ha).2, by simp, by simp⟩)

/-- C69: what is accepted adds up to one within one rounding per component. -/
theorem c69_close (x : List ℚ) (hx : ∀ a ∈ x, fl a = a ∧ 0 ≤ a) (h : checkFractions x = .ok ()) :
    (1 - 1 / 2 ^ 53) ^ x.length * x.sum ≤ 1 ∧ 1 ≤ (1 + 1 / 2 ^ 53) ^ x.length * x.sum := by
  have hsum : npSum x = 1 := by
    unfold checkFractions at h
    split at h
    · cases h
    · rename_i h'; exact not_not.1 h'
  obtain ⟨-, -, h3, h4⟩ := npSum_near x hx
  rw [hsum] at h3 h4
  exact ⟨h3, h4⟩

/-- Non-vacuity: quarters, a pair of thirds, amounts with an exact sum, and an accepted mixture of
three components that are no multiples of 2⁻⁵³. -/
example : checkFractions [1 / 4, 1 / 4, 1 / 2] = .ok () ∧
    checkFractions [fl (1 / 3), fl (2 / 3)] = .ok () ∧ fl (3 + 4) = 3 + 4 ∧
    checkFractions [fl (1 / 10), fl (1 / 5), fl (7 / 10)] = .ok () ∧
    (∀ a ∈ [fl (1 / 10), fl (1 / 5), fl (7 / 10)], fl a = a ∧ 0 ≤ a) := by
  decide +kernel

end Verif.Props
