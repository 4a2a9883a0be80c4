import Verif.Model.Mixing64
import Verif.Props.PressureVolume64
import Verif.Props.Flash64
import Mathlib.Analysis.SpecialFunctions.Sqrt

/-!
# The mixing rules of the cubic equation of state in double precision (C173)
-/

namespace Verif.Props
open Verif Verif.Binary64 Verif.Mixing64

/-- `s` is within `k` roundings of the number `S`, which is not negative. -/
def Within (k : ℕ) (s S : ℝ) : Prop := 0 ≤ S ∧ (1 - 112 / 10 ^ 18) ^ k * S ≤ s ∧ s ≤ (1 + 112 / 10 ^ 18) ^ k * S

theorem Within.nonneg {k : ℕ} {s S : ℝ} (h : Within k s S) : 0 ≤ s :=
  le_trans (mul_nonneg (pow_nonneg (by norm_num) _) h.1) h.2.1

theorem Within.exact {S : ℝ} (h : 0 ≤ S) : Within 0 S S := ⟨h, by simp, by simp⟩

theorem Within.mono {k l : ℕ} {s S : ℝ} (h : Within k s S) (hk : k ≤ l) : Within l s S :=
  ⟨h.1, le_trans (mul_le_mul_of_nonneg_right (pow_le_pow_of_le_one (by norm_num) (by norm_num) hk) h.1) h.2.1,
    le_trans h.2.2 (mul_le_mul_of_nonneg_right (pow_le_pow_right₀ (by norm_num) hk) h.1)⟩

theorem Within.mul {k l : ℕ} {s S t U : ℝ} (h : Within k s S) (g : Within l t U) : Within (k + l) (s * t) (S * U) := by
  refine ⟨mul_nonneg h.1 g.1, ?_, ?_⟩
  · have := mul_le_mul h.2.1 g.2.1 (mul_nonneg (pow_nonneg (by norm_num) _) g.1) h.nonneg
    rw [pow_add]
    linarith
  · have := mul_le_mul h.2.2 g.2.2 g.nonneg (mul_nonneg (pow_nonneg (by norm_num) _) h.1)
    rw [pow_add]
    linarith

theorem Within.round {k : ℕ} {q : ℚ} {S : ℝ} (h : Within k q S) (hq : q = 0 ∨ 1 / 10 ^ 150 ≤ q) :
    Within (k + 1) ((fl q : ℚ) : ℝ) S := by
  have hb : (1 - 112 / 10 ^ 18) * (q : ℝ) ≤ (fl q : ℚ) ∧ ((fl q : ℚ) : ℝ) ≤ (1 + 112 / 10 ^ 18) * q := by
    rcases hq with rfl | hq
    · simp [fl]
    · have := abs_le.1 (fl_relQ hq)
      have h1 : (1 - 112 / 10 ^ 18) * q ≤ fl q := by linarith
      have h2 : fl q ≤ (1 + 112 / 10 ^ 18) * q := by linarith
      have h1 := (Rat.cast_le (K := ℝ)).2 h1
      have h2 := (Rat.cast_le (K := ℝ)).2 h2
      push_cast at h1 h2
      exact ⟨h1, h2⟩
  refine ⟨h.1, ?_, ?_⟩
  · have := mul_le_mul_of_nonneg_left h.2.1 (show (0 : ℝ) ≤ 1 - 112 / 10 ^ 18 by norm_num)
    rw [pow_succ]
    linarith [hb.1]
  · have := mul_le_mul_of_nonneg_left h.2.2 (show (0 : ℝ) ≤ 1 + 112 / 10 ^ 18 by norm_num)
    rw [pow_succ]
    linarith [hb.2]

theorem Within.sqrt {k : ℕ} {s S : ℝ} (h : Within k s S) : Within k (√s) (√S) := by
  refine ⟨Real.sqrt_nonneg _, ?_, ?_⟩
  · refine Real.le_sqrt_of_sq_le ?_
    rw [mul_pow, Real.sq_sqrt h.1]
    refine le_trans (mul_le_mul_of_nonneg_right ?_ h.1) h.2.1
    have h0 : (0 : ℝ) ≤ (1 - 112 / 10 ^ 18) ^ k := pow_nonneg (by norm_num) _
    have h1 : ((1 : ℝ) - 112 / 10 ^ 18) ^ k ≤ 1 := pow_le_one₀ (by norm_num) (by norm_num)
    nlinarith
  · refine Real.sqrt_le_iff.2 ⟨mul_nonneg (pow_nonneg (by norm_num) _) (Real.sqrt_nonneg _), ?_⟩
    rw [mul_pow, Real.sq_sqrt h.1]
    refine le_trans h.2.2 (mul_le_mul_of_nonneg_right ?_ h.1)
    have h1 : 1 ≤ ((1 : ℝ) + 112 / 10 ^ 18) ^ k := one_le_pow₀ (by norm_num)
    nlinarith

/-! ## The square root -/

/-- **C173** (the square root): the computed square root is within one rounding of the square root. -/
theorem c173_sqrt {q : ℚ} (hq : 0 < q) : |((flSqrt q : ℚ) : ℝ) - √q| ≤ 1 / 2 ^ 53 * √q := by
  unfold flSqrt
  rw [if_neg (not_le.2 hq)]
  dsimp only
  set h := Int.log 2 q / 2 with hh
  set s := q / 4 ^ (h - 52) with hs
  set n := Nat.sqrt ⌊s⌋₊ with hn
  have hpos : (0 : ℚ) < 4 ^ (h - 52) := by positivity
  have hs0 : 0 < s := div_pos hq hpos
  have hq1 : (2 : ℚ) ^ (2 * h) ≤ q := by
    refine le_trans (zpow_le_zpow_right₀ (by norm_num) (by omega)) (?_ : (2 : ℚ) ^ Int.log 2 q ≤ q)
    exact_mod_cast Int.zpow_log_le_self (b := 2) (by norm_num) hq
  have e4 : (4 : ℚ) ^ (h - 52) = 2 ^ (2 * h) / 2 ^ (104 : ℤ) := by
    rw [← zpow_sub₀ (by norm_num), show (4 : ℚ) = 2 ^ (2 : ℤ) by norm_num, ← zpow_mul]
    congr 1
    ring
  have hs1 : (2 : ℚ) ^ (104 : ℤ) ≤ s := by
    rw [hs, le_div_iff₀ hpos, e4]
    have : (0 : ℚ) < 2 ^ (104 : ℤ) := by positivity
    rw [mul_div_cancel₀ _ this.ne']
    exact hq1
  -- the integer part of the root
  have hn1 : (n : ℝ) ≤ √(s : ℝ) := by
    refine Real.le_sqrt_of_sq_le ?_
    have h1 : n * n ≤ ⌊s⌋₊ := Nat.sqrt_le _
    have h2 : ((⌊s⌋₊ : ℕ) : ℚ) ≤ s := Nat.floor_le hs0.le
    have h3 : ((n * n : ℕ) : ℚ) ≤ s := le_trans (by exact_mod_cast h1) h2
    have := (Rat.cast_le (K := ℝ)).2 h3
    push_cast at this
    nlinarith
  have hn2 : √(s : ℝ) < n + 1 := by
    refine (Real.sqrt_lt' (by positivity)).2 ?_
    have h1 : ⌊s⌋₊ < (n + 1) * (n + 1) := Nat.lt_succ_sqrt _
    have h2 : s < ((n + 1) * (n + 1) : ℕ) := (Nat.floor_lt hs0.le).1 h1
    have := (Rat.cast_lt (K := ℝ)).2 h2
    push_cast at this
    nlinarith
  have key : |(((if s ≤ (n : ℚ) ^ 2 + n + 1 / 4 then (n : ℚ) else n + 1) : ℚ) : ℝ) - √(s : ℝ)| ≤ 1 / 2 := by
    have e : ((n : ℝ) + 1 / 2) ^ 2 = n ^ 2 + n + 1 / 4 := by ring
    split_ifs with hc
    · have hc' := (Rat.cast_le (K := ℝ)).2 hc
      push_cast at hc'
      have : √(s : ℝ) ≤ n + 1 / 2 := Real.sqrt_le_iff.2 ⟨by positivity, by rw [e]; exact hc'⟩
      rw [abs_le]
      push_cast
      constructor <;> linarith
    · have hc' := (Rat.cast_lt (K := ℝ)).2 (not_le.1 hc)
      push_cast at hc'
      have : (n : ℝ) + 1 / 2 ≤ √(s : ℝ) := Real.le_sqrt_of_sq_le (by rw [e]; exact hc'.le)
      rw [abs_le]
      push_cast
      constructor <;> linarith
  have hroot : √(q : ℝ) = √(s : ℝ) * 2 ^ (h - 52) := by
    have e : (q : ℝ) = (s : ℝ) * (2 ^ (h - 52)) ^ 2 := by
      have : q = s * 4 ^ (h - 52) := by rw [hs, div_mul_cancel₀ _ hpos.ne']
      have := congrArg (Rat.cast (K := ℝ)) this
      push_cast at this
      rw [this, ← zpow_natCast, ← zpow_mul, mul_comm _ ((2 : ℕ) : ℤ), zpow_mul]
      norm_num
    rw [e, Real.sqrt_mul (by exact_mod_cast hs0.le), Real.sqrt_sq (by positivity)]
  have hbig : (2 : ℝ) ^ 52 ≤ √(s : ℝ) := by
    refine Real.le_sqrt_of_sq_le ?_
    have := (Rat.cast_le (K := ℝ)).2 hs1
    push_cast at this
    refine le_trans (le_of_eq ?_) this
    rw [← pow_mul]
    norm_cast
  rw [hroot, Rat.cast_mul, show (((2 : ℚ) ^ (h - 52) : ℚ) : ℝ) = 2 ^ (h - 52) by push_cast; rfl, ← sub_mul, abs_mul,
    abs_of_pos (show (0 : ℝ) < 2 ^ (h - 52) by positivity), ← mul_assoc]
  refine mul_le_mul_of_nonneg_right (key.trans ?_) (by positivity)
  have : (1 : ℝ) / 2 = 1 / 2 ^ 53 * 2 ^ 52 := by norm_num
  rw [this]
  exact mul_le_mul_of_nonneg_left hbig (by norm_num)

theorem sqrt_within {k : ℕ} {q : ℚ} {S : ℝ} (h : Within k q S) (hq : 0 < q) : Within (k + 1) ((flSqrt q : ℚ) : ℝ) (√S) := by
  have h1 := abs_le.1 (c173_sqrt hq)
  have h2 := h.sqrt
  have h0 : 0 ≤ √(q : ℝ) := Real.sqrt_nonneg _
  have e : (1 : ℝ) / 2 ^ 53 ≤ 112 / 10 ^ 18 := by norm_num
  have e1 := mul_le_mul_of_nonneg_right e h0
  refine ⟨h2.1, ?_, ?_⟩
  · have := mul_le_mul_of_nonneg_left h2.2.1 (show (0 : ℝ) ≤ 1 - 112 / 10 ^ 18 by norm_num)
    rw [pow_succ]
    linarith [h1.1]
  · have := mul_le_mul_of_nonneg_left h2.2.2 (show (0 : ℝ) ≤ 1 + 112 / 10 ^ 18 by norm_num)
    rw [pow_succ]
    linarith [h1.2]

/-! ## The terms -/

variable {n : ℕ}

/-- Parameters and mole fractions of a mixture that are not absurdly small; absent components are allowed. -/
structure Sane (p : Mixing64.Par n) (x : Fin n → ℚ) : Prop where
  x : ∀ i, x i = 0 ∨ 1 / 10 ^ 20 ≤ x i
  a : ∀ i, 1 / 10 ^ 20 ≤ p.ai i
  b : ∀ i, 1 / 10 ^ 20 ≤ p.bi i
  alpha : ∀ i, 1 / 10 ^ 20 ≤ p.alpha i
  k : ∀ i j, fl (p.kij i j) = p.kij i j ∧ p.kij i j ≤ 1

/-- The same parameters as real numbers. -/
noncomputable def realPar (p : Mixing64.Par n) : PengRobinson.Par n where
  ai := fun i => p.ai i
  bi := fun i => p.bi i
  alpha := fun i => p.alpha i
  kij := fun i j => p.kij i j

theorem Within.round' {k : ℕ} {q : ℚ} {S : ℝ} (h : Within k q S) (hk : k ≤ 20) (hS : S = 0 ∨ 1 / 10 ^ 140 ≤ S) :
    Within (k + 1) ((fl q : ℚ) : ℝ) S := by
  refine h.round ?_
  rcases hS with rfl | hS
  · left
    have h1 := h.2.2
    have h2 := h.nonneg
    rw [mul_zero] at h1
    exact_mod_cast le_antisymm h1 h2
  · right
    refine (Rat.cast_le (K := ℝ)).1 ?_
    push_cast
    refine le_trans ?_ h.2.1
    have h1 : (1 / 2 : ℝ) ≤ (1 - 112 / 10 ^ 18) ^ k :=
      le_trans (by norm_num) (pow_le_pow_of_le_one (by norm_num) (by norm_num) hk)
    refine le_trans ?_ (mul_le_mul h1 hS (by norm_num) (pow_nonneg (by norm_num) _))
    norm_num

theorem fraction_within {k : ℚ} (hk : fl k = k) (h : k ≤ 1) :
    Within 1 ((fl (1 - k) : ℚ) : ℝ) (1 - (k : ℝ)) ∧ ((1 - k : ℝ) = 0 ∨ 1 / 10 ^ 17 ≤ (1 - k : ℝ)) := by
  have h0 : 0 ≤ 1 - k := by linarith
  have h0' : (0 : ℝ) ≤ 1 - k := by exact_mod_cast h0
  have h2 : (1 - k : ℝ) = 0 ∨ 1 / 10 ^ 17 ≤ (1 - k : ℝ) := by
    rcases h.eq_or_lt with e | e
    · left; rw [e]; norm_num
    · right
      have h3 := below_one hk e
      have h3 := (Rat.cast_le (K := ℝ)).2 h3
      push_cast at h3
      have : (1 : ℝ) / 10 ^ 17 ≤ 1 / 2 ^ 54 := by norm_num
      linarith
  refine ⟨?_, h2⟩
  have := Within.round' (k := 0) (q := 1 - k) (S := 1 - (k : ℝ)) (by push_cast; exact Within.exact h0') (by norm_num)
    (h2.imp id fun h => le_trans (by norm_num) h)
  exact this

private theorem cast_ge {q : ℚ} (h : 1 / 10 ^ 20 ≤ q) : (1 : ℝ) / 10 ^ 20 ≤ q := by
  have := (Rat.cast_le (K := ℝ)).2 h
  push_cast at this
  exact this

private theorem mul_ge {a b x y : ℝ} (ha : 0 ≤ a) (hb : 0 ≤ b) (h : a ≤ x) (g : b ≤ y) : a * b ≤ x * y :=
  mul_le_mul h g hb (ha.trans h)

/-- **C173** (one term of the double loop): it is within eight roundings of the exact one. -/
theorem c173_term (p : Mixing64.Par n) (x : Fin n → ℚ) (h : Sane p x) (i j : Fin n) :
    Within 8 ((term p x i j : ℚ) : ℝ)
      ((x i : ℝ) * x j * √((p.ai i : ℝ) * p.alpha i * p.ai j * p.alpha j) * (1 - p.kij i j)) := by
  have a1 := cast_ge (h.a i)
  have a2 := cast_ge (h.alpha i)
  have a3 := cast_ge (h.a j)
  have a4 := cast_ge (h.alpha j)
  have b1 := mul_ge (by norm_num) (by norm_num) a1 a2
  have b2 := mul_ge (by norm_num) (by norm_num) b1 a3
  have b3 := mul_ge (by norm_num) (by norm_num) b2 a4
  have n0 : ∀ {r : ℝ}, 1 / 10 ^ 20 ≤ r → 0 ≤ r := fun h => le_trans (by norm_num) h
  have w1 := ((Within.exact (n0 a1)).mul (Within.exact (n0 a2)))
  have w1 := Within.round' (q := p.ai i * p.alpha i) (by push_cast; exact w1) (by norm_num) (Or.inr (le_trans (by norm_num) b1))
  have w2 := Within.round' (q := fl (p.ai i * p.alpha i) * p.ai j) (by push_cast; exact w1.mul (Within.exact (n0 a3))) (by norm_num)
    (Or.inr (le_trans (by norm_num) b2))
  have w3 := Within.round' (q := fl (fl (p.ai i * p.alpha i) * p.ai j) * p.alpha j) (by push_cast; exact w2.mul (Within.exact (n0 a4)))
    (by norm_num) (Or.inr (le_trans (by norm_num) b3))
  have p3 : 0 < fl (fl (fl (p.ai i * p.alpha i) * p.ai j) * p.alpha j) := by
    have : (0 : ℝ) < (fl (fl (fl (p.ai i * p.alpha i) * p.ai j) * p.alpha j) : ℚ) := by
      refine lt_of_lt_of_le ?_ w3.2.1
      exact mul_pos (pow_pos (by norm_num) _) (lt_of_lt_of_le (by norm_num) b3)
    exact_mod_cast this
  have w4 := sqrt_within w3 p3
  have b4 : (1 : ℝ) / 10 ^ 40 ≤ √((p.ai i : ℝ) * p.alpha i * p.ai j * p.alpha j) :=
    Real.le_sqrt_of_sq_le (le_trans (by norm_num) b3)
  have hx0 : ∀ i, (0 : ℝ) ≤ x i := fun i => by
    rcases h.x i with e | e
    · rw [e]; simp
    · exact n0 (cast_ge e)
  have hxx : (x i : ℝ) * x j = 0 ∨ 1 / 10 ^ 40 ≤ (x i : ℝ) * x j := by
    rcases h.x i with e | e
    · left; rw [e]; simp
    rcases h.x j with g | g
    · left; rw [g]; simp
    right
    exact le_trans (by norm_num) (mul_ge (by norm_num) (by norm_num) (cast_ge e) (cast_ge g))
  have w5 := Within.round' (q := x i * x j) (by push_cast; exact (Within.exact (hx0 i)).mul (Within.exact (hx0 j))) (by norm_num)
    (hxx.imp id fun h => le_trans (by norm_num) h)
  have c6 : (x i : ℝ) * x j * √((p.ai i : ℝ) * p.alpha i * p.ai j * p.alpha j) = 0 ∨
      1 / 10 ^ 80 ≤ (x i : ℝ) * x j * √((p.ai i : ℝ) * p.alpha i * p.ai j * p.alpha j) := by
    rcases hxx with e | e
    · left; rw [e, zero_mul]
    · right; exact le_trans (by norm_num) (mul_ge (by norm_num) (by norm_num) e b4)
  have w6 := Within.round' (q := fl (x i * x j) * flSqrt (fl (fl (fl (p.ai i * p.alpha i) * p.ai j) * p.alpha j)))
    (by push_cast; exact w5.mul w4) (by norm_num) (c6.imp id fun h => le_trans (by norm_num) h)
  obtain ⟨w7, c7⟩ := fraction_within (h.k i j).1 (h.k i j).2
  have c8 : (x i : ℝ) * x j * √((p.ai i : ℝ) * p.alpha i * p.ai j * p.alpha j) * (1 - p.kij i j) = 0 ∨
      1 / 10 ^ 97 ≤ (x i : ℝ) * x j * √((p.ai i : ℝ) * p.alpha i * p.ai j * p.alpha j) * (1 - p.kij i j) := by
    rcases c6 with e | e
    · left; rw [e, zero_mul]
    rcases c7 with g | g
    · left; rw [g, mul_zero]
    right; exact le_trans (by norm_num) (mul_ge (by norm_num) (by norm_num) e g)
  exact Within.round' (q := fl (fl (x i * x j) * flSqrt (fl (fl (fl (p.ai i * p.alpha i) * p.ai j) * p.alpha j))) * fl (1 - p.kij i j))
    (by push_cast; exact w6.mul w7) (by norm_num) (c8.imp id fun h => le_trans (by norm_num) h)

/-! ## The sums -/

theorem Within.add {k : ℕ} {s S t U : ℝ} (h : Within k s S) (g : Within k t U) : Within k (s + t) (S + U) :=
  ⟨add_nonneg h.1 g.1, by linarith [h.2.1, g.2.1], by linarith [h.2.2, g.2.2]⟩

theorem Within.trans {k l : ℕ} {s t S : ℝ} (h : Within k s t) (g : Within l t S) : Within (k + l) s S := by
  refine ⟨g.1, ?_, ?_⟩
  · refine le_trans ?_ h.2.1
    rw [pow_add, mul_assoc]
    exact mul_le_mul_of_nonneg_left g.2.1 (pow_nonneg (by norm_num) _)
  · refine h.2.2.trans ?_
    rw [pow_add, mul_assoc]
    exact mul_le_mul_of_nonneg_left g.2.2 (pow_nonneg (by norm_num) _)

private theorem add_double {k : ℕ} {s t : ℚ} {S U : ℝ} (hs : fl s = s) (ht : fl t = t) (h : Within k s S) (g : Within k t U) :
    Within (k + 1) ((fl (s + t) : ℚ) : ℝ) (S + U) := by
  have w := h.add g
  have h0 : 0 ≤ s + t := by
    have := w.nonneg
    exact_mod_cast this
  have e := abs_le.1 (fl_add_rel hs ht h0)
  have h1 : (1 - 112 / 10 ^ 18) * (s + t) ≤ fl (s + t) := by nlinarith [e.1]
  have h2 : fl (s + t) ≤ (1 + 112 / 10 ^ 18) * (s + t) := by nlinarith [e.2]
  have h1 := (Rat.cast_le (K := ℝ)).2 h1
  have h2 := (Rat.cast_le (K := ℝ)).2 h2
  push_cast at h1 h2
  refine Within.trans (k := 1) (l := k) (t := (s : ℝ) + t) ?_ w |>.mono (by omega)
  exact ⟨w.nonneg, by simpa using h1, by simpa using h2⟩

private theorem fold_within {ι : Type} (t : ι → ℚ) (T : ι → ℝ) (m : ℕ) (ht : ∀ i, fl (t i) = t i ∧ Within m (t i) (T i)) (l : List ι) :
    ∀ (k : ℕ) (s : ℚ) (S : ℝ), fl s = s → m ≤ k → Within k s S →
      Within (k + l.length) ((l.foldl (fun s i => fl (s + t i)) s : ℚ) : ℝ) (S + (l.map T).sum) := by
  induction l with
  | nil => intro k s S _ _ h; simpa using h
  | cons i l ih =>
    intro k s S hs hm h
    have := ih (k + 1) (fl (s + t i)) (S + T i) (fl_idem _) (by omega) (add_double hs (ht i).1 h ((ht i).2.mono hm))
    rw [List.foldl_cons, List.length_cons, List.map_cons, List.sum_cons, ← add_assoc S,
      show k + (l.length + 1) = k + 1 + l.length by omega]
    exact this

/-- **C173** (the attraction of the mixture): the parameter is within one rounding per pair of components, and eight more, of the exact
one. -/
theorem c173_attraction (p : Mixing64.Par n) (x : Fin n → ℚ) (h : Sane p x) :
    Within (n * n + 8) ((Mixing64.amix p x : ℚ) : ℝ) (PengRobinson.amix (realPar p) (fun i => (x i : ℝ))) := by
  have := fold_within (fun t : Fin n × Fin n => term p x t.1 t.2) _ 8 (fun t => ⟨fl_idem _, c173_term p x h t.1 t.2⟩)
    ((List.finRange n).flatMap fun i => (List.finRange n).map fun j => (i, j)) 8 0 0 fl_zero le_rfl
    ⟨le_rfl, by simp, by simp⟩
  have w := this.mono (l := n * n + 8) (by simp [List.length_flatMap, add_comm])
  have e : (0 + (List.map (fun t : Fin n × Fin n => (x t.1 : ℝ) * x t.2 * √((p.ai t.1 : ℝ) * p.alpha t.1 * p.ai t.2 * p.alpha t.2) *
      (1 - p.kij t.1 t.2)) ((List.finRange n).flatMap fun i => (List.finRange n).map fun j => (i, j))).sum) =
      PengRobinson.amix (realPar p) (fun i => (x i : ℝ)) := by
    rw [zero_add, List.map_flatMap]
    simp only [List.flatMap, List.sum_flatten, List.map_map, PengRobinson.amix, realPar, Fin.sum_univ_def, Function.comp_def]
  rw [e] at w
  exact w

/-- **C173** (the covolume of the mixture): the parameter is within one rounding per component, and one more, of the exact one. -/
theorem c173_covolume (p : Mixing64.Par n) (x : Fin n → ℚ) (h : Sane p x) :
    Within (n + 1) ((Mixing64.bmix p x : ℚ) : ℝ) (PengRobinson.bmix (realPar p) (fun i => (x i : ℝ))) := by
  have hx0 : ∀ i, (0 : ℝ) ≤ x i := fun i => by
    rcases h.x i with e | e
    · rw [e]; simp
    · exact le_trans (by norm_num) (cast_ge e)
  have hterm : ∀ i, Within 1 ((fl (x i * p.bi i) : ℚ) : ℝ) ((x i : ℝ) * p.bi i) := fun i => by
    have b := cast_ge (h.b i)
    refine Within.round' (q := x i * p.bi i) (by push_cast; exact (Within.exact (hx0 i)).mul (Within.exact (le_trans (by norm_num) b)))
      (by norm_num) ?_
    rcases h.x i with e | e
    · left; rw [e]; simp
    · right; exact le_trans (by norm_num) (mul_ge (by norm_num) (by norm_num) (cast_ge e) b)
  have hsum : ∀ l : List (Fin n), Within 1 (((l.map fun i => fl (x i * p.bi i)).sum : ℚ) : ℝ) (l.map fun i => (x i : ℝ) * p.bi i).sum := by
    intro l
    induction l with
    | nil => exact ⟨by simp, by simp, by simp⟩
    | cons i l ih =>
      rw [List.map_cons, List.sum_cons, List.map_cons, List.sum_cons, Rat.cast_add]
      exact (hterm i).add ih
  have hnear := npSum_near ((List.finRange n).map fun i => fl (x i * p.bi i)) fun a ha => by
    obtain ⟨i, -, rfl⟩ := List.mem_map.1 ha
    have := (hterm i).nonneg
    exact ⟨fl_idem _, by exact_mod_cast this⟩
  have hw : Within n ((Mixing64.bmix p x : ℚ) : ℝ) ((((List.finRange n).map fun i => fl (x i * p.bi i)).sum : ℚ) : ℝ) := by
    rw [List.length_map, List.length_finRange] at hnear
    obtain ⟨-, h2, h3, h4⟩ := hnear
    have h2' := (Rat.cast_le (K := ℝ)).2 h2
    have h3' := (Rat.cast_le (K := ℝ)).2 h3
    have h4' := (Rat.cast_le (K := ℝ)).2 h4
    rw [Rat.cast_zero] at h2'
    rw [Rat.cast_mul] at h3' h4'
    refine ⟨h2', le_trans (mul_le_mul_of_nonneg_right ?_ h2') h3', h4'.trans (mul_le_mul_of_nonneg_right ?_ h2')⟩
    · push_cast
      exact pow_le_pow_left₀ (by norm_num) (by norm_num) n
    · push_cast
      exact pow_le_pow_left₀ (by norm_num) (by norm_num) n
  have := hw.trans (hsum _)
  convert this using 1
  simp only [PengRobinson.bmix, realPar, Fin.sum_univ_def]

/-! ## Relative errors -/

theorem Within.relative {k : ℕ} {s S : ℝ} (h : Within k s S) (hk : k ≤ 10 ^ 14) : |s - S| ≤ k * (124 / 10 ^ 18) * S := by
  have hk' : (k : ℝ) ≤ 10 ^ 14 := by exact_mod_cast hk
  have hk0 : (0 : ℝ) ≤ k := by positivity
  have h1 : 1 - (k : ℝ) * (112 / 10 ^ 18) ≤ (1 - 112 / 10 ^ 18) ^ k := by
    have := one_add_mul_le_pow (show (-2 : ℝ) ≤ -(112 / 10 ^ 18) by norm_num) k
    rw [← sub_eq_add_neg] at this
    linarith
  have h2 : ((1 : ℝ) + 112 / 10 ^ 18) ^ k ≤ 1 + k * (124 / 10 ^ 18) := by
    have e : ((1 : ℝ) + 112 / 10 ^ 18) ^ k * (1 - 112 / 10 ^ 18) ^ k ≤ 1 := by
      rw [← mul_pow]
      exact pow_le_one₀ (by norm_num) (by norm_num)
    have h3 : ((1 : ℝ) + 112 / 10 ^ 18) ^ k * (1 - k * (112 / 10 ^ 18)) ≤ 1 :=
      le_trans (mul_le_mul_of_nonneg_left h1 (pow_nonneg (by norm_num) _)) e
    have h4 : 0 < 1 - (k : ℝ) * (112 / 10 ^ 18) := by linarith
    have h5 : 1 ≤ (1 + (k : ℝ) * (124 / 10 ^ 18)) * (1 - k * (112 / 10 ^ 18)) := by nlinarith
    by_contra hc
    have := mul_lt_mul_of_pos_right (not_le.1 hc) h4
    linarith
  have g1 := mul_le_mul_of_nonneg_right h1 h.1
  have g2 := mul_le_mul_of_nonneg_right h2 h.1
  have := h.2.1
  have := h.2.2
  have hk1 := mul_nonneg hk0 h.1
  rw [abs_le]
  constructor <;> linarith

/-- **C173** (relative errors of the parameters): a mixture of up to a thousand components. -/
theorem c173_relative (p : Mixing64.Par n) (x : Fin n → ℚ) (h : Sane p x) (hn : n ≤ 1000) :
    |((Mixing64.amix p x : ℚ) : ℝ) - PengRobinson.amix (realPar p) (fun i => (x i : ℝ))| ≤
      ((n : ℝ) ^ 2 + 8) * (124 / 10 ^ 18) * PengRobinson.amix (realPar p) (fun i => (x i : ℝ)) ∧
    |((Mixing64.bmix p x : ℚ) : ℝ) - PengRobinson.bmix (realPar p) (fun i => (x i : ℝ))| ≤
      ((n : ℝ) + 1) * (124 / 10 ^ 18) * PengRobinson.bmix (realPar p) (fun i => (x i : ℝ)) := by
  have h1 := (c173_attraction p x h).relative (by nlinarith)
  have h2 := (c173_covolume p x h).relative (by omega)
  push_cast at h1 h2
  exact ⟨by rw [sq]; exact h1, h2⟩

/-- **C173** (the order of the components): when the components are listed in another order, the parameters change by no more than
rounding errors. -/
theorem c173_order_partial (p : Mixing64.Par n) (x : Fin n → ℚ) (h : Sane p x) (hn : n ≤ 1000) (σ : Equiv.Perm (Fin n)) :
    let p' : Mixing64.Par n := ⟨p.ai ∘ σ, p.bi ∘ σ, p.alpha ∘ σ, fun i j => p.kij (σ i) (σ j)⟩
    |((Mixing64.amix p' (x ∘ σ) : ℚ) : ℝ) - Mixing64.amix p x| ≤
      2 * (((n : ℝ) ^ 2 + 8) * (124 / 10 ^ 18) * PengRobinson.amix (realPar p) (fun i => (x i : ℝ))) ∧
    |((Mixing64.bmix p' (x ∘ σ) : ℚ) : ℝ) - Mixing64.bmix p x| ≤
      2 * (((n : ℝ) + 1) * (124 / 10 ^ 18) * PengRobinson.bmix (realPar p) (fun i => (x i : ℝ))) := by
  intro p'
  have h' : Sane p' (x ∘ σ) := ⟨fun i => h.x _, fun i => h.a _, fun i => h.b _, fun i => h.alpha _, fun i j => h.k _ _⟩
  obtain ⟨a1, b1⟩ := c173_relative p x h hn
  obtain ⟨a2, b2⟩ := c173_relative p' (x ∘ σ) h' hn
  have ea : PengRobinson.amix (realPar p') (fun i => ((x ∘ σ) i : ℝ)) = PengRobinson.amix (realPar p) (fun i => (x i : ℝ)) := by
    simp only [PengRobinson.amix, realPar, p', Function.comp]
    rw [← Equiv.sum_comp σ fun i => ∑ j, (x i : ℝ) * x j * √((p.ai i : ℝ) * p.alpha i * p.ai j * p.alpha j) * (1 - p.kij i j)]
    refine Finset.sum_congr rfl fun i _ => ?_
    rw [← Equiv.sum_comp σ fun j => (x (σ i) : ℝ) * x j * √((p.ai (σ i) : ℝ) * p.alpha (σ i) * p.ai j * p.alpha j) * (1 - p.kij (σ i) j)]
  have eb : PengRobinson.bmix (realPar p') (fun i => ((x ∘ σ) i : ℝ)) = PengRobinson.bmix (realPar p) (fun i => (x i : ℝ)) := by
    simp only [PengRobinson.bmix, realPar, p', Function.comp]
    rw [← Equiv.sum_comp σ fun j => (x j : ℝ) * p.bi j]
  rw [ea] at a2
  rw [eb] at b2
  constructor
  · refine (abs_sub_le _ (PengRobinson.amix (realPar p) (fun i => (x i : ℝ))) _).trans ?_
    rw [abs_sub_comm _ ((Mixing64.amix p x : ℚ) : ℝ)]
    linarith
  · refine (abs_sub_le _ (PengRobinson.bmix (realPar p) (fun i => (x i : ℝ))) _).trans ?_
    rw [abs_sub_comm _ ((Mixing64.bmix p x : ℚ) : ℝ)]
    linarith

/-- C173: the order matters in the last place. Equal amounts of two components with parameters seven and one. -/
theorem c173_violated_order : ∃ (p : Mixing64.Par 2) (x : Fin 2 → ℚ), Sane p x ∧
    Mixing64.amix p x ≠ Mixing64.amix ⟨p.ai ∘ Equiv.swap 0 1, p.bi ∘ Equiv.swap 0 1, p.alpha ∘ Equiv.swap 0 1,
      fun i j => p.kij (Equiv.swap 0 1 i) (Equiv.swap 0 1 j)⟩ (x ∘ Equiv.swap 0 1) := by
  refine ⟨⟨![7, 1], fun _ => 1, fun _ => 1, fun _ _ => 0⟩, fun _ => 1 / 2, ?_, by decide +kernel⟩
  exact ⟨fun i => by norm_num, fun i => by fin_cases i <;> norm_num, fun i => by norm_num, fun i => by norm_num,
    fun _ _ => ⟨fl_zero, by norm_num⟩⟩

/-- **C173** (a pure substance): the parameter is that of the substance up to nine roundings. -/
theorem c173_pure_partial (a b α : ℚ) (ha : 1 / 10 ^ 20 ≤ a) (hb : 1 / 10 ^ 20 ≤ b) (hα : 1 / 10 ^ 20 ≤ α) :
    let p : Mixing64.Par 1 := ⟨fun _ => a, fun _ => b, fun _ => α, fun _ _ => 0⟩
    |((Mixing64.amix p fun _ => 1 : ℚ) : ℝ) - a * α| ≤ 112 / 10 ^ 17 * (a * α) ∧ (fl b = b → Mixing64.bmix p (fun _ => 1) = b) := by
  intro p
  have h : Sane p fun _ => 1 :=
    ⟨fun _ => by norm_num, fun _ => ha, fun _ => hb, fun _ => hα, fun _ _ => ⟨fl_zero, by norm_num [p]⟩⟩
  have h1 := (c173_relative p _ h (by norm_num)).1
  have ha' := cast_ge ha
  have hα' := cast_ge hα
  have hp : 0 ≤ (a : ℝ) * α := mul_nonneg (le_trans (by norm_num) ha') (le_trans (by norm_num) hα')
  have e : (PengRobinson.amix (realPar p) fun _ => ((1 : ℚ) : ℝ)) = a * α := by
    simp only [PengRobinson.amix, realPar, p, Finset.univ_unique, Finset.sum_const, Finset.card_singleton, one_smul]
    rw [show (a : ℝ) * α * a * α = (a * α) ^ 2 by ring, Real.sqrt_sq hp]
    norm_num
  rw [e] at h1
  refine ⟨h1.trans (mul_le_mul_of_nonneg_right (by norm_num) hp), fun hfb => ?_⟩
  have : (List.finRange 1).map (fun i => fl ((1 : ℚ) * p.bi i)) = [b] := by simp [p, List.finRange_succ, hfb]
  unfold Mixing64.bmix
  rw [this]
  simp [npSum, seqSum, hfb]

/-- C173: the parameter of a pure substance is not exactly its product: with 5/2 and the double next to 39/100 it differs. -/
theorem c173_violated_pure : Mixing64.amix (n := 1) ⟨fun _ => 5 / 2, fun _ => 1, fun _ => fl (39 / 100), fun _ _ => 0⟩ (fun _ => 1) ≠
    fl (5 / 2 * fl (39 / 100)) := by decide +kernel

/-! ## The pressure -/

theorem repulsive_change {R T b b' ρ e : ℝ} (hRT : 0 < R * T) (hρ : 0 < ρ) (hβ : b * ρ ≤ 49 / 50) (he0 : 0 ≤ e) (he : 49 * e < 1)
    (h : |b' - b| ≤ e * b) : |repulsive R T b' ρ - repulsive R T b ρ| ≤ 49 * e / (1 - 49 * e) * repulsive R T b ρ := by
  have hd : 0 < 1 - b * ρ := by linarith
  have k : |(1 - b' * ρ) - (1 - b * ρ)| ≤ 49 * e * (1 - b * ρ) := by
    rw [show (1 - b' * ρ) - (1 - b * ρ) = -((b' - b) * ρ) by ring, abs_neg, abs_mul, abs_of_pos hρ]
    have h1 := mul_le_mul_of_nonneg_right h hρ.le
    have h2 : e * (b * ρ) ≤ e * (49 * (1 - b * ρ)) := mul_le_mul_of_nonneg_left (by linarith) he0
    nlinarith
  have := quot_rel (x := R * T * ρ) (x' := R * T * ρ) (e := 0) (mul_pos hRT hρ) hd he (by simp) k
  rw [zero_add] at this
  exact this

theorem attractive_change {a a' b b' ρ e g : ℝ} (ha : 0 < a) (hb : 0 < b) (hρ : 0 < ρ) (hβ : b * ρ ≤ 49 / 50) (he0 : 0 ≤ e) (he : 2 * e < 1)
    (h : |b' - b| ≤ e * b) (hb' : 0 ≤ b' * ρ) (hβ' : b' * ρ ≤ 1) (ka : |a' - a| ≤ g * a) :
    |attractive a' b' ρ - attractive a b ρ| ≤ (g + 2 * e) / (1 - 2 * e) * attractive a b ρ := by
  have hβ0 : 0 < b * ρ := mul_pos hb hρ
  have hD : 0 < (1 + b * ρ) + ρ * b * (1 - b * ρ) := by nlinarith
  have k1 : |ρ ^ 2 * a' - ρ ^ 2 * a| ≤ g * (ρ ^ 2 * a) := by
    rw [← mul_sub, abs_mul, abs_of_pos (by positivity : (0 : ℝ) < ρ ^ 2)]
    have := mul_le_mul_of_nonneg_left ka (by positivity : (0 : ℝ) ≤ ρ ^ 2)
    linarith
  have k2 : |((1 + b' * ρ) + ρ * b' * (1 - b' * ρ)) - ((1 + b * ρ) + ρ * b * (1 - b * ρ))| ≤ 2 * e * ((1 + b * ρ) + ρ * b * (1 - b * ρ)) := by
    rw [show ((1 + b' * ρ) + ρ * b' * (1 - b' * ρ)) - ((1 + b * ρ) + ρ * b * (1 - b * ρ)) = (b' - b) * ρ * (2 - b * ρ - b' * ρ) by ring,
      abs_mul, abs_mul, abs_of_pos hρ, abs_of_nonneg (by linarith : 0 ≤ 2 - b * ρ - b' * ρ)]
    have h1 : |b' - b| * ρ ≤ e * (b * ρ) := by have := mul_le_mul_of_nonneg_right h hρ.le; linarith
    have h2 : |b' - b| * ρ * (2 - b * ρ - b' * ρ) ≤ e * (b * ρ) * 2 :=
      mul_le_mul h1 (by linarith) (by linarith) (mul_nonneg he0 hβ0.le)
    have h3 : e * (b * ρ) ≤ e * ((1 + b * ρ) + ρ * b * (1 - b * ρ)) := mul_le_mul_of_nonneg_left (by nlinarith) he0
    linarith
  exact quot_rel (by positivity) hD he k1 k2

/-- The pressure with slightly wrong parameters, computed in double precision. -/
theorem pressure_change {R T ρ a' b' : ℚ} {a b : ℝ} (hR : (1 : ℝ) / 10 ^ 20 ≤ R) (hT : (1 : ℝ) / 10 ^ 20 ≤ T) (hρ : (1 : ℝ) / 10 ^ 20 ≤ ρ)
    (ha : 1 / 10 ^ 19 ≤ a) (hb : 1 / 10 ^ 19 ≤ b) (hβ : b * ρ ≤ 49 / 50)
    (k1 : |(a' : ℝ) - a| ≤ 62 / 10 ^ 15 * a) (k2 : |(b' : ℝ) - b| ≤ 34 / 10 ^ 16 * b) :
    |((Pressure64.pressure R T a' b' ρ : ℚ) : ℝ) - PengRobinson.pressureAB R T a b ρ| ≤
      2 / 10 ^ 13 * (repulsive R T b ρ + attractive a b ρ) := by
  have a0 : 0 < a := lt_of_lt_of_le (by norm_num) ha
  have b0 : 0 < b := lt_of_lt_of_le (by norm_num) hb
  have r0 : (0 : ℝ) < ρ := lt_of_lt_of_le (by norm_num) hρ
  have l1 := (abs_le.1 k1)
  have l2 := (abs_le.1 k2)
  have a1 : (1 : ℝ) / 10 ^ 20 ≤ a' := by
    have : 1 / 10 ^ 20 ≤ (1 - 62 / 10 ^ 15) * a := le_trans (by norm_num) (mul_le_mul_of_nonneg_left ha (by norm_num))
    linarith
  have b1 : (1 : ℝ) / 10 ^ 20 ≤ b' := by
    have : 1 / 10 ^ 20 ≤ (1 - 34 / 10 ^ 16) * b := le_trans (by norm_num) (mul_le_mul_of_nonneg_left hb (by norm_num))
    linarith
  have hβ' : (b' : ℝ) * ρ ≤ 99 / 100 := by
    have : (b' : ℝ) * ρ ≤ (1 + 34 / 10 ^ 16) * b * ρ := mul_le_mul_of_nonneg_right (by linarith) r0.le
    nlinarith
  have hβ0 : 0 ≤ (b' : ℝ) * ρ := mul_nonneg (le_trans (by norm_num) b1) r0.le
  have main := c168_pressure R T a' b' ρ hR hT a1 b1 hρ hβ'
  have hRT : (0 : ℝ) < R * T := mul_pos (lt_of_lt_of_le (by norm_num) hR) (lt_of_lt_of_le (by norm_num) hT)
  have g1 := repulsive_change hRT r0 hβ (by norm_num) (by norm_num) k2
  have g2 := attractive_change a0 b0 r0 hβ (by norm_num) (by norm_num) k2 hβ0 (by linarith) k1
  have X0 : 0 ≤ repulsive (R : ℝ) T b ρ := by
    unfold repulsive
    have : 0 < 1 - b * ρ := by linarith
    positivity
  have Y0 : 0 ≤ attractive a b ρ := by
    unfold attractive
    have : 0 < 1 - b * ρ := by linarith
    positivity
  rw [show PengRobinson.pressureAB R T a b ρ = repulsive R T b ρ - attractive a b ρ from rfl]
  rw [show PengRobinson.pressureAB R T a' b' ρ = repulsive R T b' ρ - attractive a' b' ρ from rfl] at main
  have g1' := abs_le.1 (g1.trans (mul_le_mul_of_nonneg_right (by norm_num : (49 * (34 / 10 ^ 16) / (1 - 49 * (34 / 10 ^ 16)) : ℝ) ≤ 1667 / 10 ^ 16) X0))
  have g2' := abs_le.1 (g2.trans (mul_le_mul_of_nonneg_right
    (by norm_num : ((62 / 10 ^ 15 + 2 * (34 / 10 ^ 16)) / (1 - 2 * (34 / 10 ^ 16)) : ℝ) ≤ 1667 / 10 ^ 16) Y0))
  have m := abs_le.1 main
  rw [abs_le]
  constructor <;> linarith

/-- **C173** (the pressure of a mixture): computed in double precision from the parameters of up to twenty components, the pressure
misses that of the equation of state by at most `2e-13` times the sum of its repulsive and attractive parts. -/
theorem c173_pressure (R T ρ : ℚ) (p : Mixing64.Par n) (x : Fin n → ℚ) (h : Sane p x) (hn : n ≤ 20)
    (hR : (1 : ℝ) / 10 ^ 20 ≤ R) (hT : (1 : ℝ) / 10 ^ 20 ≤ T) (hρ : (1 : ℝ) / 10 ^ 20 ≤ ρ)
    (ha : 1 / 10 ^ 19 ≤ PengRobinson.amix (realPar p) (fun i => (x i : ℝ)))
    (hb : 1 / 10 ^ 19 ≤ PengRobinson.bmix (realPar p) (fun i => (x i : ℝ)))
    (hβ : (PengRobinson.bmix (realPar p) (fun i => (x i : ℝ))) * ρ ≤ 49 / 50) :
    |((Mixing64.pressure R T p x ρ : ℚ) : ℝ) - PengRobinson.pressure R T (realPar p) (fun i => x i) ρ| ≤
      2 / 10 ^ 13 * (repulsive R T (PengRobinson.bmix (realPar p) (fun i => (x i : ℝ))) ρ +
        attractive (PengRobinson.amix (realPar p) (fun i => (x i : ℝ))) (PengRobinson.bmix (realPar p) (fun i => (x i : ℝ))) ρ) := by
  obtain ⟨h1, h2⟩ := c173_relative p x h (by omega)
  have hn' : (n : ℝ) ≤ 20 := by exact_mod_cast hn
  have hn0 : (0 : ℝ) ≤ n := by positivity
  have a0 : 0 < PengRobinson.amix (realPar p) (fun i => (x i : ℝ)) := lt_of_lt_of_le (by norm_num) ha
  have b0 : 0 < PengRobinson.bmix (realPar p) (fun i => (x i : ℝ)) := lt_of_lt_of_le (by norm_num) hb
  exact pressure_change hR hT hρ ha hb hβ (h1.trans (mul_le_mul_of_nonneg_right (by nlinarith) a0.le))
    (h2.trans (mul_le_mul_of_nonneg_right (by linarith) b0.le))

/-- Propane and butane in equal amounts. -/
example : Sane (n := 2) ⟨![fl 1.0166, fl 1.5], ![fl 5.6e-5, fl 7.2e-5], fun _ => fl 1.1, fun _ _ => 0⟩ fun _ => 1 / 2 :=
  ⟨fun _ => by norm_num, by decide +kernel, by decide +kernel, by decide +kernel, fun _ _ => ⟨fl_zero, by norm_num⟩⟩

end Verif.Props
