import Verif.Model.Equilibrium64
import Verif.Props.Rounding
import Verif.Props.Pressure64

/-!
# The objective of bubble and dew points in double precision (C170)
-/

namespace Verif.Props
open Verif Verif.Binary64 Verif.Equilibrium64

/-- Fugacity coefficients that the machine can divide without overflow. -/
def Coefficient (φ : ℚ) : Prop := 1 / 10 ^ 50 ≤ φ ∧ φ ≤ 10 ^ 50

/-- The sum of the shares by the formula. -/
noncomputable def totalShare (x own other : List ℚ) : ℝ :=
  ((x.zip (own.zip other)).map fun p => (p.1 : ℝ) * p.2.1 / p.2.2).sum

/-- One share is right to within two roundings. -/
theorem c170_share {x own other : ℚ} (hx : 0 ≤ x) (ho : 0 ≤ own) (ht : 1 / 10 ^ 50 ≤ other) :
    0 ≤ share x own other ∧
    |((share x own other : ℚ) : ℝ) - x * own / other| ≤ 225 / 10 ^ 18 * ((x : ℝ) * own / other) + 1 / 10 ^ 190 := by
  have t0 : 0 < other := lt_of_lt_of_le (by norm_num) ht
  have xR : (0 : ℝ) ≤ x := by exact_mod_cast hx
  have oR : (0 : ℝ) ≤ own := by exact_mod_cast ho
  have tR : (1 : ℝ) / 10 ^ 50 ≤ other := by have := (Rat.cast_le (K := ℝ)).2 ht; push_cast at this; exact this
  have tp : (0 : ℝ) < other := lt_of_lt_of_le (by norm_num) tR
  refine ⟨fl_nonneg (div_nonneg (fl_nonneg (mul_nonneg hx ho)) t0.le), ?_⟩
  have e1 := fl_any (x * own)
  push_cast at e1
  rw [abs_of_nonneg (mul_nonneg xR oR)] at e1
  set X : ℝ := (x : ℝ) * own / other with hX
  have X0 : 0 ≤ X := div_nonneg (mul_nonneg xR oR) tp.le
  have e2 : |((fl (x * own) : ℚ) : ℝ) / other - X| ≤ 112 / 10 ^ 18 * X + 1 / 10 ^ 200 := by
    rw [hX, ← sub_div, abs_div, abs_of_pos tp, div_le_iff₀ tp]
    have h1 : (112 / 10 ^ 18 * ((x : ℝ) * own / other) + 1 / 10 ^ 200) * other =
        112 / 10 ^ 18 * ((x : ℝ) * own) + 1 / 10 ^ 200 * other := by field_simp
    rw [h1]
    have h2 := mul_le_mul_of_nonneg_left tR (show (0 : ℝ) ≤ 1 / 10 ^ 200 by norm_num)
    have h3 : (1 : ℝ) / 10 ^ 200 * (1 / 10 ^ 50) = 1 / 10 ^ 250 := by norm_num
    linarith
  have e3 := fl_any (fl (x * own) / other)
  push_cast at e3
  have k2 := abs_le.1 e2
  have hb : |((fl (x * own) : ℚ) : ℝ) / other| ≤ (1 + 112 / 10 ^ 18) * X + 1 / 10 ^ 200 := by
    rw [abs_of_nonneg (div_nonneg (by exact_mod_cast fl_nonneg (mul_nonneg hx ho)) tp.le)]
    linarith [k2.2]
  have e4 : |((share x own other : ℚ) : ℝ) - X| ≤
      |((share x own other : ℚ) : ℝ) - ((fl (x * own) : ℚ) : ℝ) / other| + |((fl (x * own) : ℚ) : ℝ) / other - X| :=
    abs_sub_le _ _ _
  have z1 : (1 : ℝ) / 10 ^ 250 ≤ 1 / 10 ^ 200 := by norm_num
  have z2 : (3 : ℝ) / 10 ^ 200 ≤ 1 / 10 ^ 190 := by norm_num
  have z3 : (0 : ℝ) ≤ 1 / 10 ^ 200 := by norm_num
  unfold share at e4 ⊢
  have hb' := mul_le_mul_of_nonneg_left hb (show (0 : ℝ) ≤ 112 / 10 ^ 18 by norm_num)
  have : (112 / 10 ^ 18 : ℝ) * ((1 + 112 / 10 ^ 18) * X + 1 / 10 ^ 200) ≤ 113 / 10 ^ 18 * X + 1 / 10 ^ 200 := by
    have a1 : (112 / 10 ^ 18 : ℝ) * (1 + 112 / 10 ^ 18) ≤ 113 / 10 ^ 18 := by norm_num
    have := mul_le_mul_of_nonneg_right a1 X0
    linarith
  linarith

/-- The shares of all components. -/
private theorem shares_error (l : List (ℚ × ℚ × ℚ)) (hl : ∀ p ∈ l, 0 ≤ p.1 ∧ 0 ≤ p.2.1 ∧ 1 / 10 ^ 50 ≤ p.2.2) :
    0 ≤ (l.map fun p => (p.1 : ℝ) * p.2.1 / p.2.2).sum ∧
    |(((l.map fun p => share p.1 p.2.1 p.2.2).sum : ℚ) : ℝ) - (l.map fun p => (p.1 : ℝ) * p.2.1 / p.2.2).sum| ≤
      225 / 10 ^ 18 * (l.map fun p => (p.1 : ℝ) * p.2.1 / p.2.2).sum + l.length * (1 / 10 ^ 190) := by
  induction l with
  | nil => simp
  | cons p l ih =>
    obtain ⟨i0, i1⟩ := ih fun q hq => hl q (List.mem_cons_of_mem _ hq)
    obtain ⟨h0, h1, h2⟩ := hl p (List.mem_cons_self ..)
    obtain ⟨-, s1⟩ := c170_share h0 h1 h2
    have h2R : (0 : ℝ) < p.2.2 := by exact_mod_cast lt_of_lt_of_le (by norm_num) h2
    have q0 : 0 ≤ (p.1 : ℝ) * p.2.1 / p.2.2 :=
      div_nonneg (mul_nonneg (by exact_mod_cast h0) (by exact_mod_cast h1)) h2R.le
    simp only [List.map_cons, List.sum_cons, List.length_cons]
    refine ⟨by linarith, ?_⟩
    rw [Rat.cast_add, Nat.cast_succ]
    have e : ∀ a b c d : ℝ, a + b - (c + d) = (a - c) + (b - d) := fun a b c d => by ring
    rw [e]
    refine (abs_add_le _ _).trans ?_
    linarith

/-- Powers of one rounding. -/
private theorem roundings (n : ℕ) (hn : n ≤ 10 ^ 9) :
    (1 : ℝ) - n * (112 / 10 ^ 18) ≤ (1 - 1 / 2 ^ 53) ^ n ∧ (1 + 1 / 2 ^ 53 : ℝ) ^ n ≤ 1 + n * (113 / 10 ^ 18) := by
  have hnR : (n : ℝ) ≤ 10 ^ 9 := by exact_mod_cast hn
  have n0 : (0 : ℝ) ≤ n := by positivity
  have hb := one_add_mul_le_pow (a := -(1 / 2 ^ 53 : ℝ)) (by norm_num) n
  rw [← sub_eq_add_neg] at hb
  have h1 : (n : ℝ) * (1 / 2 ^ 53) ≤ n * (1112 / 10 ^ 19) := mul_le_mul_of_nonneg_left (by norm_num) n0
  have h2 : (1 : ℝ) - n * (1112 / 10 ^ 19) ≤ (1 - 1 / 2 ^ 53) ^ n := by linarith
  refine ⟨by linarith, ?_⟩
  have hp : (0 : ℝ) < (1 - 1 / 2 ^ 53) ^ n := pow_pos (by norm_num) n
  have hm : (1 + 1 / 2 ^ 53 : ℝ) ^ n * (1 - 1 / 2 ^ 53) ^ n ≤ 1 := by
    rw [← mul_pow]
    exact pow_le_one₀ (by norm_num) (by norm_num)
  have hle : (1 + 1 / 2 ^ 53 : ℝ) ^ n ≤ 1 / (1 - 1 / 2 ^ 53) ^ n := by
    rw [le_div_iff₀ hp]; exact hm
  refine hle.trans ?_
  rw [div_le_iff₀ hp]
  have h3 : (0 : ℝ) ≤ 1 + n * (113 / 10 ^ 18) := by positivity
  have h4 := mul_le_mul_of_nonneg_left h2 h3
  refine le_trans ?_ h4
  have h5 : (n : ℝ) * n ≤ 10 ^ 9 * n := mul_le_mul_of_nonneg_right hnR n0
  nlinarith

/-- **C170.**  The computed objective of a bubble or dew point of `n` components misses its formula by at most 2.3e-16 times
`n + 2` times the sum of the shares, plus one rounding. -/
theorem c170_objective (x own other : List ℚ) (hx : ∀ a ∈ x, 0 ≤ a) (ho : ∀ a ∈ own, Coefficient a)
    (ht : ∀ a ∈ other, Coefficient a) (hn : x.length ≤ 10 ^ 6) (hc : checkFractions x = .ok ()) :
    ∃ v, objective x own other = .ok v ∧
      |(v : ℝ) - (totalShare x own other - 1)| ≤ 23 / 10 ^ 17 * ((x.length + 2) * totalShare x own other + 1) := by
  have hobj : objective x own other = .ok (fl (npSum (shares x own other) - 1)) := by
    simp only [objective, hc, bind, Except.bind, pure, Except.pure]
  refine ⟨_, hobj, ?_⟩
  set l := x.zip (own.zip other) with hl
  have hmem : ∀ p ∈ l, 0 ≤ p.1 ∧ 0 ≤ p.2.1 ∧ 1 / 10 ^ 50 ≤ p.2.2 := by
    intro p hp
    obtain ⟨p1, p2, p3⟩ := p
    have h1 := List.of_mem_zip hp
    have h2 := List.of_mem_zip h1.2
    exact ⟨hx _ h1.1, le_trans (by norm_num) (ho _ h2.1).1, (ht _ h2.2).1⟩
  have hlen : l.length ≤ x.length := by rw [hl, List.length_zip]; exact min_le_left _ _
  obtain ⟨S0, hS⟩ := shares_error l hmem
  rw [show (l.map fun p => (p.1 : ℝ) * p.2.1 / p.2.2).sum = totalShare x own other from rfl] at S0 hS
  set S := totalShare x own other
  have hnear := npSum_near (shares x own other) (by
    intro a ha
    simp only [shares, List.mem_map] at ha
    obtain ⟨p, hp, rfl⟩ := ha
    obtain ⟨h0, h1, h2⟩ := hmem p hp
    exact ⟨fl_idem _, (c170_share h0 h1 h2).1⟩)
  rw [show (shares x own other) = l.map fun p => share p.1 p.2.1 p.2.2 from rfl] at hnear ⊢
  set T := (l.map fun p => share p.1 p.2.1 p.2.2).sum with hT
  set s := npSum (l.map fun p => share p.1 p.2.1 p.2.2) with hs
  obtain ⟨-, T0, n1, n2⟩ := hnear
  rw [List.length_map] at n1 n2
  have lR : (l.length : ℝ) ≤ x.length := by exact_mod_cast hlen
  have xR : (x.length : ℝ) ≤ 10 ^ 6 := by exact_mod_cast hn
  have l0 : (0 : ℝ) ≤ l.length := by positivity
  obtain ⟨r1, r2⟩ := roundings l.length (by omega)
  have T0R : (0 : ℝ) ≤ T := by exact_mod_cast T0
  have m1 : ((1 : ℝ) - 1 / 2 ^ 53) ^ l.length * T ≤ s := by
    have := (Rat.cast_le (K := ℝ)).2 n1; push_cast at this; exact this
  have m2 : (s : ℝ) ≤ (1 + 1 / 2 ^ 53) ^ l.length * T := by
    have := (Rat.cast_le (K := ℝ)).2 n2; push_cast at this; exact this
  have m1' := (mul_le_mul_of_nonneg_right r1 T0R).trans m1
  have m2' := m2.trans (mul_le_mul_of_nonneg_right r2 T0R)
  have kS := abs_le.1 hS
  set N : ℝ := (x.length : ℝ) with hN
  have N0 : 0 ≤ N := l0.trans lR
  have tiny1 : (l.length : ℝ) * (1 / 10 ^ 190) ≤ 1 / 10 ^ 180 := by
    have := mul_le_mul_of_nonneg_right (lR.trans xR) (show (0 : ℝ) ≤ 1 / 10 ^ 190 by norm_num)
    exact this.trans (by norm_num)
  have tz : (1 : ℝ) / 10 ^ 180 ≤ 1 / 10 ^ 30 := by norm_num
  have tz2 : (1 : ℝ) / 10 ^ 250 ≤ 1 / 10 ^ 30 := by norm_num
  have T1 : (T : ℝ) ≤ (1 + 225 / 10 ^ 18) * S + 1 / 10 ^ 30 := by linarith [kS.2]
  have lT : (l.length : ℝ) * T ≤ N * ((1 + 225 / 10 ^ 18) * S + 1 / 10 ^ 30) := mul_le_mul lR T1 T0R N0
  have NS : 0 ≤ N * S := mul_nonneg N0 S0
  have lT2 : (l.length : ℝ) * T * (113 / 10 ^ 18) ≤ 114 / 10 ^ 18 * (N * S) + 1 / 10 ^ 30 := by
    have := mul_le_mul_of_nonneg_right lT (show (0 : ℝ) ≤ 113 / 10 ^ 18 by norm_num)
    have h6 : N * (1 / 10 ^ 30) * (113 / 10 ^ 18) ≤ 1 / 10 ^ 30 := by
      have := mul_le_mul_of_nonneg_right xR (show (0 : ℝ) ≤ 1 / 10 ^ 30 * (113 / 10 ^ 18) by norm_num)
      rw [← mul_assoc] at this
      exact this.trans (by norm_num)
    nlinarith
  have lT0 : 0 ≤ (l.length : ℝ) * T := mul_nonneg l0 T0R
  have sS : |(s : ℝ) - S| ≤ 114 / 10 ^ 18 * (N * S) + 225 / 10 ^ 18 * S + 2 / 10 ^ 30 := by
    rw [abs_le]
    constructor <;> linarith [kS.1, kS.2]
  have kk := abs_le.1 sS
  have e := fl_any (s - 1)
  push_cast at e
  have hab : |(s : ℝ) - 1| ≤ S + 1 + (114 / 10 ^ 18 * (N * S) + 225 / 10 ^ 18 * S + 2 / 10 ^ 30) := by
    rw [abs_le]; constructor <;> linarith [kk.1, kk.2]
  have hab' := mul_le_mul_of_nonneg_left hab (show (0 : ℝ) ≤ 112 / 10 ^ 18 by norm_num)
  have ke := abs_le.1 e
  have hgoal : (23 : ℝ) / 10 ^ 17 * ((N + 2) * S + 1) = 23 / 10 ^ 17 * (N * S) + 46 / 10 ^ 17 * S + 23 / 10 ^ 17 := by ring
  rw [hgoal, abs_le]
  constructor <;> linarith [ke.1, ke.2, kk.1, kk.2]

/-- **C170, the sign.**  The sign of the computed objective is that of the formula unless the formula is closer to zero than the
error; with a sum of shares up to two and up to ten components, closer than 6e-15. -/
theorem c170_sign (x own other : List ℚ) (hx : ∀ a ∈ x, 0 ≤ a) (ho : ∀ a ∈ own, Coefficient a)
    (ht : ∀ a ∈ other, Coefficient a) (hn : x.length ≤ 10) (hc : checkFractions x = .ok ()) (v : ℚ)
    (hv : objective x own other = .ok v) :
    (6 / 10 ^ 15 < totalShare x own other - 1 → 0 < v) ∧ (totalShare x own other - 1 < -(6 / 10 ^ 15) → v < 0) := by
  obtain ⟨w, hw, he⟩ := c170_objective x own other hx ho ht (by omega) hc
  rw [hv] at hw
  cases hw
  have nR : (x.length : ℝ) ≤ 10 := by exact_mod_cast hn
  have S0 : 0 ≤ totalShare x own other := by
    refine (shares_error (x.zip (own.zip other)) ?_).1
    rintro ⟨p1, p2, p3⟩ hp
    have h1 := List.of_mem_zip hp
    have h2 := List.of_mem_zip h1.2
    exact ⟨hx _ h1.1, le_trans (by norm_num) (ho _ h2.1).1, (ht _ h2.2).1⟩
  set S := totalShare x own other
  have hb : ((x.length : ℝ) + 2) * S ≤ 12 * S := mul_le_mul_of_nonneg_right (by linarith) S0
  have k := abs_le.1 he
  constructor
  · intro h
    have : (0 : ℝ) < v := by linarith [k.1]
    exact_mod_cast this
  · intro h
    have : (v : ℝ) < 0 := by linarith [k.2]
    exact_mod_cast this

/-- **C170, the pressure.**  Let the exact objective `F` fall through zero at `P` with at least the slope `m`, and let the computed
one, which misses it by no more than `δ`, be positive at `lo` and negative at `hi`.  Then `P` is between `lo` and `hi` up to
`δ / m`. -/
theorem c170_enclosed (F g : ℝ → ℝ) (P lo hi m δ : ℝ) (hm : 0 < m) (below : ∀ p ≤ P, m * (P - p) ≤ F p)
    (above : ∀ p, P ≤ p → F p ≤ -(m * (p - P))) (hg : ∀ p, |g p - F p| ≤ δ) (hlo : 0 < g lo) (hhi : g hi < 0) :
    lo ≤ P + δ / m ∧ P - δ / m ≤ hi := by
  have d0 : 0 ≤ δ := (abs_nonneg _).trans (hg P)
  have q0 : 0 ≤ δ / m := div_nonneg d0 hm.le
  constructor
  · rcases le_total lo P with h | h
    · linarith
    · have h1 := above lo h
      have h2 := (abs_le.1 (hg lo)).2
      have : (lo - P) * m ≤ δ := by linarith
      have := (le_div_iff₀ hm).2 this
      linarith
  · rcases le_total hi P with h | h
    · have h1 := below hi h
      have h2 := (abs_le.1 (hg hi)).1
      have : (P - hi) * m ≤ δ := by linarith
      have := (le_div_iff₀ hm).2 this
      linarith
    · linarith

/-- **C170, new compositions.**  A component that is absent stays absent; every other fraction is right to within two roundings. -/
theorem c170_new (x own other : List ℚ) (hx : ∀ a ∈ x, 0 ≤ a) (ho : ∀ a ∈ own, Coefficient a) (ht : ∀ a ∈ other, Coefficient a)
    (hc : checkFractions x = .ok ()) (h1 : own.length = x.length) (h2 : other.length = x.length) :
    ∃ y, newFractions x own other = .ok y ∧ y.length = x.length ∧
      ∀ i (hi : i < x.length) (hy : i < y.length), 0 ≤ y[i] ∧ (x[i] = 0 → y[i] = 0) ∧
        |((y[i] : ℚ) : ℝ) - x[i] * own[i] / other[i]| ≤ 225 / 10 ^ 18 * ((x[i] : ℝ) * own[i] / other[i]) + 1 / 10 ^ 190 := by
  refine ⟨(x.zip (own.zip other)).map fun p => if p.1 ≠ 0 then share p.1 p.2.1 p.2.2 else 0,
    by simp only [newFractions, hc, bind, Except.bind, pure, Except.pure], ?_, ?_⟩
  · simp [h1, h2]
  · intro i hi hy
    simp only [List.getElem_map, List.getElem_zip]
    have a := hx _ (List.getElem_mem hi)
    have b := (ho _ (List.getElem_mem (show i < own.length by omega))).1
    have c := (ht _ (List.getElem_mem (show i < other.length by omega))).1
    obtain ⟨s0, s1⟩ := c170_share a (le_trans (by norm_num) b) c
    by_cases h0 : x[i] = 0
    · simp [h0]
    · rw [if_pos h0]
      exact ⟨s0, fun h => absurd h h0, s1⟩

/-- **C170, a pure component.**  The computed objective is zero exactly when the quotient of the two coefficients rounds to one. -/
theorem c170_pure (own other : ℚ) (ho : fl own = own) : objective [1] [own] [other] = .ok (fl (fl (own / other) - 1)) ∧
    (own = other → other ≠ 0 → objective [1] [own] [other] = .ok 0) := by
  have hc : checkFractions [1] = .ok () := by decide +kernel
  have h : objective [1] [own] [other] = .ok (fl (fl (own / other) - 1)) := by
    simp [objective, hc, bind, Except.bind, pure, Except.pure, shares, share, ho, npSum, seqSum, fl_idem]
  refine ⟨h, ?_⟩
  rintro rfl h0
  rw [h, div_self h0, fl_one, sub_self, fl_zero]

/-- **C170, a composition that does not add up** is refused, before any fugacity coefficient is used. -/
theorem c170_refused (x own other : List ℚ) (e : PyErr) (h : checkFractions x = .error e) :
    objective x own other = .error e ∧ newFractions x own other = .error e := by
  simp only [objective, newFractions, h, bind, Except.bind, and_self]

/-- **C170 is violated** for the trivial solution: with the same fugacity coefficients in both phases the objective of a mixture
is not zero in general, and the new composition is not the given one. -/
theorem c170_violated_trivial :
    let x := [fl (1 / 10), fl (9 / 10)]
    let φ := [fl (7 / 10), fl (3 / 10)]
    objective x φ φ ≠ .ok 0 ∧ newFractions x φ φ ≠ .ok x := by
  decide +kernel

/-- The hypotheses are met: equal parts with coefficients 2 and 1/2, and 1 and 1. -/
example : checkFractions [1 / 2, 1 / 2] = .ok () ∧ objective [1 / 2, 1 / 2] [2, 1 / 2] [1, 1] = .ok (1 / 4) ∧
    newFractions [1, 0] [2, 1 / 2] [1, 1] = .ok [2, 0] ∧
    objective [fl (1 / 10), fl (1 / 5)] [2, 1 / 2] [1, 1] = .error .valueError := by decide +kernel

example : Coefficient 2 ∧ Coefficient (1 / 2) := by constructor <;> constructor <;> norm_num

end Verif.Props
