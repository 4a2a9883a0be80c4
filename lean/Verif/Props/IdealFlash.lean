import Verif.Props.Flash

/-!
# C161: the flash of an ideal mixture

When the ratio of the fugacity coefficients does not depend on the compositions, the phases are known in closed form.  Here the loop of
the flash is followed to them.
-/

set_option linter.unusedSectionVars false

namespace Verif.Props
open Verif Verif.Flash

variable {K : Type} [Field K] [LinearOrder K] [IsStrictOrderedRing K]

/-- A flash without limits on the mole fractions of a mixture with the K-values `a` and `c` at all compositions, of which one is at most
one and the other at least one, within the range of the search, and not both within a millionth of one. -/
structure IdealFlash (o : Opts K) (a c : K) (fl fv : ℕ) : Prop where
  m : o.m = 0
  M : o.M = 1
  tol : 0 < o.tol
  rand : ∀ i, 0 < o.rand i ∧ o.rand i < 1
  fug : ∀ x y, o.fug x y = .ok ⟨(.fin a, .fin c), fl, fv⟩
  first : 0 < a
  ne : a ≠ c
  sides : (1 ≤ a ∧ eps ≤ c ∧ c ≤ 1) ∨ (a ≤ 1 ∧ 1 ≤ c ∧ c ≤ 100000000)
  away : ¬ (|a - 1| < 1 / 1000000 ∧ |c - 1| < 1 / 1000000)

section
variable {o : Opts K} {a c : K} {fl fv : ℕ}

private theorem second_pos (H : IdealFlash o a c fl fv) : 0 < c := by
  rcases H.sides with ⟨-, h, -⟩ | ⟨-, h, -⟩
  · exact eps_pos.trans_le h
  · exact zero_lt_one.trans_le h

private theorem keeps (H : IdealFlash o a c fl fv) (u : K) (hu : 0 < u ∧ u < 1) :
    constrainKi 0 1 u (.fin a, .fin c) = .ok ((.fin a, .fin c), false) := by
  obtain ⟨a', c', b, h, -, -, -, -, -, hk⟩ := c32_default u a c hu H.first H.ne
  obtain ⟨rfl, rfl, rfl⟩ := hk H.sides
  exact h

private theorem ideal_step (H : IdealFlash o a c fl fv) (i : ℕ) (s : St K) (hs : Proper s.k) :
    (∃ e k', e < o.tol ∧ relChange (a, c) s.k = .ok e ∧ |a - s.k.1| + |c - s.k.2| < o.tol ∧
        step o i s = .ok (⟨liquidX s.k, vaporY s.k (liquidX s.k), fl, fv, e, s.k, s.k⟩, k', true)) ∨
      (∃ out s', step o i s = .ok (out, s', false) ∧ s.crit < 2 ∧ |s.k.1 - 1| < 1 / 1000000 ∧ |s.k.2 - 1| < 1 / 1000000 ∧
        s'.k = (1 / eps, eps)) ∨
      (∃ out s', step o i s = .ok (out, s', false) ∧ s'.k = (a, c) ∧ s.k ≠ (a, c)) := by
  obtain ⟨e, he⟩ := relChange_total (a, c) s.k hs
  have hc := keeps H (o.rand i) (H.rand i)
  have hstep : step o i s =
      if |s.k.1 - 1| < 1 / 1000000 ∧ |s.k.2 - 1| < 1 / 1000000 ∧ s.crit < 2 then
        .ok (⟨liquidX s.k, vaporY s.k (liquidX s.k), fl, fv, |a - s.k.1| + |c - s.k.2|, restart s.crit s.k, restart s.crit s.k⟩,
          ⟨restart s.crit s.k, s.crit + 1, s.reset⟩, false)
      else if |a - s.k.1| + |c - s.k.2| < o.tol then
        (if e < o.tol then .ok (⟨liquidX s.k, vaporY s.k (liquidX s.k), fl, fv, e, s.k, s.k⟩, ⟨s.k, s.crit, s.reset⟩, true)
        else .ok (⟨liquidX s.k, vaporY s.k (liquidX s.k), fl, fv, e, (a, c), s.k⟩, ⟨(a, c), s.crit, s.reset⟩, false))
      else .ok (⟨liquidX s.k, vaporY s.k (liquidX s.k), fl, fv, |a - s.k.1| + |c - s.k.2|, (a, c), s.k⟩,
        ⟨(a, c), s.crit, s.reset⟩, false) := by
    unfold step
    simp only [bind, Except.bind, throw, throwThe, MonadExceptOf.throw, pure, Except.pure, hs.1, if_false, H.fug, H.m, H.M, hc, finite]
    simp only [ne_eq, not_true_eq_false, if_false, Bool.false_eq_true, he]
  rw [hstep]
  by_cases h1 : |s.k.1 - 1| < 1 / 1000000 ∧ |s.k.2 - 1| < 1 / 1000000 ∧ s.crit < 2
  · rw [if_pos h1]
    refine .inr (.inl ⟨_, _, rfl, h1.2.2, h1.1, h1.2.1, ?_⟩)
    have h2 := h1.2.2
    show restart s.crit s.k = _
    generalize s.crit = f at *
    interval_cases f
    · exact (c70_violated s.k s.k).2
    · exact (c70_violated s.k s.k).1 ▸ (c70_violated s.k s.k).2
  · rw [if_neg h1]
    by_cases h2 : |a - s.k.1| + |c - s.k.2| < o.tol
    · rw [if_pos h2]
      by_cases h3 : e < o.tol
      · rw [if_pos h3]
        exact .inl ⟨e, _, h3, he, h2, rfl⟩
      · rw [if_neg h3]
        refine .inr (.inr ⟨_, _, rfl, rfl, fun hk => h3 ?_⟩)
        rw [c68_relative_change _ _ hs.2.1 hs.2.2, hk] at he
        have : e = 0 := by
          injection he with he
          rw [← he]; simp
        rw [this]; exact H.tol
    · rw [if_neg h2]
      refine .inr (.inr ⟨_, _, rfl, rfl, fun hk => h2 ?_⟩)
      rw [hk]; simpa using H.tol

/-- What the loop ends with. -/
private def Ends (o : Opts K) (a c : K) (fl fv : ℕ) (r : Except PyErr (Out K)) (from_ : List (Pair K)) : Prop :=
  ∃ k ∈ from_, ∃ e, e < o.tol ∧ |a - k.1| + |c - k.2| < o.tol ∧ r = .ok ⟨liquidX k, vaporY k (liquidX k), fl, fv, e, k, k⟩

private theorem ideal_end (H : IdealFlash o a c fl fv) (n i : ℕ) (s : St K) (hk : s.k = (a, c)) :
    loop o (n + 2) i s = .ok ⟨liquidX (a, c), vaporY (a, c) (liquidX (a, c)), fl, fv, 0, (a, c), (a, c)⟩ := by
  have hs : Proper s.k := by rw [hk]; exact ⟨H.ne, H.first, second_pos H⟩
  rcases ideal_step H i s hs with ⟨e, k', h1, he, h2, h3⟩ | ⟨_, _, -, -, h1, h2, -⟩ | ⟨_, _, -, -, h⟩
  · have : e = 0 := by
      rw [c68_relative_change _ _ hs.2.1 hs.2.2, hk] at he
      injection he with he
      rw [← he]; simp
    subst this
    simp only [loop, bind, Except.bind, pure, Except.pure, h3, if_true, hk]
  · rw [hk] at h1 h2; exact absurd ⟨h1, h2⟩ H.away
  · exact absurd hk h

private theorem ideal_middle (H : IdealFlash o a c fl fv) (n i : ℕ) (s : St K) (hk : s.k = (1 / eps, eps)) :
    Ends o a c fl fv (loop o (n + 3) i s) [(a, c), (1 / eps, eps)] := by
  have hs : Proper s.k := by
    rw [hk]; exact ⟨(eps_lt_one.trans one_lt_inv_eps).ne', zero_lt_one.trans one_lt_inv_eps, eps_pos⟩
  rcases ideal_step H i s hs with ⟨e, k', h1, he, h2, h3⟩ | ⟨_, _, -, -, -, h2, -⟩ | ⟨out, s', h, h', -⟩
  · refine ⟨s.k, by simp [hk], e, h1, h2, ?_⟩
    simp only [loop, bind, Except.bind, pure, Except.pure, h3, if_true]
  · exfalso
    rw [hk] at h2
    have : (eps : K) ≤ 1 / 2 := by unfold eps; norm_num
    rw [abs_lt] at h2
    have := h2.1
    norm_num at this ⊢
    linarith
  · refine ⟨(a, c), by simp, 0, H.tol, by simpa using H.tol, ?_⟩
    simp only [loop, bind, Except.bind, pure, Except.pure, h]
    exact ideal_end H n (i + 1) s' h'

private theorem ideal_loop (H : IdealFlash o a c fl fv) (n i : ℕ) (s : St K) (hs : Proper s.k) :
    Ends o a c fl fv (loop o (n + 4) i s) [(a, c), (1 / eps, eps), s.k] := by
  rcases ideal_step H i s hs with ⟨e, k', h1, he, h2, h3⟩ | ⟨out, s', h, -, -, -, h'⟩ | ⟨out, s', h, h', -⟩
  · refine ⟨s.k, by simp, e, h1, h2, ?_⟩
    simp only [loop, bind, Except.bind, pure, Except.pure, h3, if_true]
  · obtain ⟨k, hk', e, h1, h2, h3⟩ := ideal_middle H n (i + 1) s' h'
    refine ⟨k, by simp at hk' ⊢; tauto, e, h1, h2, ?_⟩
    simp only [loop, bind, Except.bind, pure, Except.pure, h]
    exact h3
  · refine ⟨(a, c), by simp, 0, H.tol, by simpa using H.tol, ?_⟩
    simp only [loop, bind, Except.bind, pure, Except.pure, h]
    exact ideal_end H (n + 1) (i + 1) s' h'

private theorem ideal_admissible (H : IdealFlash o a c fl fv) : Admissible 0 1 a c :=
  admissible_default a c H.ne (H.sides.imp (fun h => ⟨h.1, eps_pos.le.trans h.2.1, h.2.2⟩) fun h => ⟨H.first.le, h.1, h.2.1⟩)

private theorem finish_kept (x y k : Pair K) (e : K) (h1 : ¬ IsVapor fl) (h2 : fv ≠ 1) :
    finish ⟨x, y, fl, fv, e, k, k⟩ = ⟨x, fl, y, fv, e⟩ := by
  have : switch fl fv x.1 y.1 = false := by
    unfold switch
    rw [if_neg]
    unfold IsVapor at h1
    tauto
  simp [finish, this]

/-- **C161** (from any saturation pressures): the flash of a mixture with constant K-values ends with phases whose own K-values are those,
up to the tolerance, and says so. -/
theorem c161_flash (H : IdealFlash o a c fl fv) (hit : 4 ≤ o.maxiter) (h1 : ¬ IsVapor fl) (h2 : fv ≠ 1) (P setP u : K) (hP : 0 < P)
    (hu : 0 < u ∧ u < 1) (psat : Option K × Option K) (hp : 0 < psat.1.getD setP) (hne : psat.1.getD setP ≠ psat.2.getD setP) :
    ∃ k x y e, calcFlash o 2 P setP u psat = .ok ⟨x, fl, y, fv, e⟩ ∧ Balanced k x y ∧ |a - k.1| + |c - k.2| < o.tol ∧ e < o.tol := by
  obtain ⟨a', c', b, hc, hac, ha, hcp, had, -⟩ := c32_default u (psat.1.getD setP / P) (psat.2.getD setP / P) hu
    (div_pos hp hP) (fun h => hne (by rwa [div_left_inj' hP.ne'] at h))
  obtain ⟨n, hn⟩ := Nat.exists_eq_add_of_le' hit
  obtain ⟨k, hk, e, he, hke, hl⟩ := ideal_loop H n 0 ⟨(a', c'), 0, 0⟩ ⟨hac, ha, hcp⟩
  have hb : Balanced k (liquidX k) (vaporY k (liquidX k)) := by
    simp only [List.mem_cons, List.not_mem_nil, or_false] at hk
    rcases hk with rfl | rfl | rfl
    · exact liquid_vapor _ H.ne (ideal_admissible H)
    · have h := (eps_lt_one (K := K)).trans one_lt_inv_eps
      exact liquid_vapor _ h.ne' (admissible_default _ _ h.ne' (.inl ⟨one_lt_inv_eps.le, eps_pos.le, eps_lt_one.le⟩))
    · exact liquid_vapor _ hac had
  refine ⟨k, liquidX k, vaporY k (liquidX k), e, ?_, hb, hke, he⟩
  unfold calcFlash
  simp only [bind, Except.bind, pure, Except.pure, ne_eq, not_true_eq_false, if_false, firstK, Ext.div, hP.ne', H.m, H.M, hc,
    finite, hn, hl, finish_kept _ _ _ _ h1 h2]

end

/-- **C161** (Raoult's law): when the K-values are the saturation pressures over the pressure, and the pressure lies between them, the flash
returns the two phases of Raoult's law exactly and reports no error. -/
theorem c161_raoult (o : Opts K) (P setP u p1 p2 : K) (fl fv : ℕ) (hP : 0 < P) (H : IdealFlash o (p1 / P) (p2 / P) fl fv)
    (hit : 2 ≤ o.maxiter) (h1 : ¬ IsVapor fl) (h2 : fv ≠ 1) (hu : 0 < u ∧ u < 1) :
    calcFlash o 2 P setP u (some p1, some p2) = .ok ⟨((P - p2) / (p1 - p2), (p1 - P) / (p1 - p2)), fl,
      (p1 * ((P - p2) / (p1 - p2)) / P, p2 * ((p1 - P) / (p1 - p2)) / P), fv, 0⟩ := by
  obtain ⟨n, hn⟩ := Nat.exists_eq_add_of_le' hit
  have hl := ideal_end H n 0 ⟨(p1 / P, p2 / P), 0, 0⟩ rfl
  have hd : p1 - p2 ≠ 0 := by
    intro h
    exact H.ne (by rw [sub_eq_zero.1 h])
  have hx0 : (1 - p2 / P) / (p1 / P - p2 / P) = (P - p2) / (p1 - p2) := by
    rw [← sub_div, div_div_eq_mul_div, sub_mul, one_mul, div_mul_cancel₀ _ hP.ne']
  have hx1 : 1 - (P - p2) / (p1 - p2) = (p1 - P) / (p1 - p2) := by
    field_simp; ring
  obtain ⟨⟨b1, b2⟩, -, -⟩ := ideal_admissible H
  rw [hx0] at b1 b2
  have hx : liquidX (p1 / P, p2 / P) = ((P - p2) / (p1 - p2), (p1 - P) / (p1 - p2)) := by
    unfold liquidX
    simp only [hx0]
    rw [if_neg (not_lt.2 b1), if_neg (not_lt.2 (by linarith)), hx1]
  have hs : p1 / P * ((P - p2) / (p1 - p2)) + p2 / P * ((p1 - P) / (p1 - p2)) = 1 := by
    field_simp; ring
  have hy : vaporY (p1 / P, p2 / P) (liquidX (p1 / P, p2 / P)) =
      (p1 * ((P - p2) / (p1 - p2)) / P, p2 * ((p1 - P) / (p1 - p2)) / P) := by
    unfold vaporY
    simp only [hx, hs, ne_eq, not_true_eq_false, if_false]
    rw [Prod.mk.injEq]; constructor <;> ring
  unfold calcFlash
  simp only [bind, Except.bind, pure, Except.pure, ne_eq, not_true_eq_false, if_false, firstK, Ext.div, hP.ne', H.m, H.M, Option.getD_some,
    keeps H u hu, finite, hn, hl, finish_kept _ _ _ _ h1 h2]
  rw [hy, hx]

/-- A mixture whose K-values are 2 and 3/2 at all compositions: at this pressure it is a gas. -/
def dryGas : Opts ℚ where
  m := 0
  M := 1
  tol := 1 / 1000000000
  maxiter := 100
  fug := fun _ _ => .ok ⟨(.fin 2, .fin (3 / 2)), 1, 0⟩
  rand := fun _ => 1 / 2

/-- **C161, violated** (one phase): outside the two-phase region two phases are returned all the same.  The smaller K-value is replaced by
a random number twenty times, and the error compares the last two random numbers, here equal ones. -/
theorem c161_violated_one_phase : ∃ r, calcFlash dryGas 2 1 1 (1 / 2) (some 2, some (3 / 2)) = .ok r ∧ r.err = 0 ∧
    r.flagl = 1 ∧ r.flagv = 0 ∧ 0 < r.x.1 ∧ r.x.1 < 1 ∧ r.y.1 = 2 * r.x.1 ∧ r.y.2 < 3 / 2 * r.x.2 ∧
    ¬ ∃ x y : Pair ℚ, Balanced (2, 3 / 2) x y := by
  refine ⟨⟨(67108863 / 201326591, 134217728 / 201326591), 1, (134217726 / 201326591, 67108865 / 201326591), 0, 0⟩, ?_, rfl, rfl, rfl,
    by norm_num, by norm_num, by norm_num, by norm_num, ?_⟩
  · exact of_decide_eq_true (by decide +kernel)
  · rintro ⟨x, y, -, ⟨h1, -, h2, -, h3⟩, ⟨-, -, -, -, h4⟩, h5, h6⟩
    simp only at h5 h6
    linarith

/-- The hypotheses are met: saturation pressures 3 and 1/2 at the pressure 1. -/
example : IdealFlash { nearCritical with maxiter := 5, fug := fun _ _ => .ok ⟨(.fin 3, .fin (1 / 2)), 1, 0⟩ } (3 / 1) (1 / 2 / 1) 1 0 :=
  ⟨rfl, rfl, by norm_num [nearCritical], fun _ => by norm_num [nearCritical], fun _ _ => by norm_num, by norm_num, by norm_num,
    by left; norm_num [eps], by norm_num [abs_lt]⟩

end Verif.Props
