import Mathlib.Algebra.Order.Ring.Rat
import Mathlib.Tactic.IntervalCases
import Verif.Proofs.Flash

/-!
# C31, C32, C68, C70: the binary flash
-/

set_option linter.unusedSectionVars false

namespace Verif.Props

open Verif Verif.Flash

variable {K : Type} [Field K] [LinearOrder K]

/-! ## C32: constraining the K-values -/

/-- The mole fractions of the first component that the K-values `a` and `c` produce lie between `m`
and `M` in both phases. -/
def Admissible (m M a c : K) : Prop :=
  (m ≤ (1 - c) / (a - c) ∧ (1 - c) / (a - c) ≤ M) ∧ (m ≤ a * ((1 - c) / (a - c)) ∧ a * ((1 - c) / (a - c)) ≤ M)

/-- K-values on opposite sides of one. -/
def Straddle (a c : K) : Prop := (1 ≤ a ∧ c ≤ 1) ∨ (a ≤ 1 ∧ 1 ≤ c)

theorem constrain_checks (m M u : K) (k k' : Ext K × Ext K) (b : Bool)
    (h : constrainKi m M u k = .ok (k', b)) :
    (0 ≤ m ∧ m ≤ 1) ∧ (0 ≤ M ∧ M ≤ 1) ∧
      (let x := liquid0 k'.1 k'.2
       Ext.lt x (.fin m) = false ∧ Ext.lt (Ext.mul k'.1 x) (.fin m) = false ∧
       Ext.lt (.fin M) x = false ∧ Ext.lt (.fin M) (Ext.mul k'.1 x) = false) := by
  unfold constrainKi at h
  cases hr : range0 k.1 k.2 with
  | error e => simp only [hr, bind, Except.bind] at h; cases h
  | ok r =>
    simp only [hr, bind, Except.bind, throw, throwThe, MonadExceptOf.throw, pure, Except.pure] at h
    split at h
    · cases h
    · rename_i h1
      split at h
      · cases h
      · rename_i h2
        split at h
        · cases h
        · rename_i h3
          split at h
          · cases h
          · rename_i h4
            cases h
            push Not at h1 h2
            simp only [Bool.or_eq_true, not_or, Bool.not_eq_true] at h3 h4
            exact ⟨h1, h2, h3.1, h3.2, h4.1, h4.2⟩

/-- **C32** (what comes out is right): whatever goes in, two different K-values that come out produce
mole fractions within the limits, and therefore lie on opposite sides of one. -/
theorem c32_sound [IsStrictOrderedRing K] (m M u : K) (k : Ext K × Ext K) (a c : K) (b : Bool)
    (h : constrainKi m M u k = .ok ((.fin a, .fin c), b)) (hac : a ≠ c) :
    Admissible m M a c ∧ Straddle a c := by
  obtain ⟨⟨hm, hm1⟩, ⟨hM, hM1⟩, h1, h2, h3, h4⟩ := constrain_checks m M u k _ b h
  simp only [liquid0_fin a c hac, Ext.mul, lt_fin, decide_eq_false_iff_not, not_lt] at h1 h2 h3 h4
  refine ⟨⟨⟨h1, h3⟩, h2, h4⟩, ?_⟩
  have hx0 := hm.trans h1
  have hx1 := h3.trans hM1
  rcases lt_or_gt_of_ne hac with hlt | hgt
  · right
    have hd : a - c < 0 := sub_neg.2 hlt
    rw [div_le_one_of_neg hd] at hx1
    have : 1 - c ≤ 0 := by
      by_contra hc
      push Not at hc
      exact absurd hx0 (not_le.2 (div_neg_of_pos_of_neg hc hd))
    constructor <;> linarith
  · left
    have hd : 0 < a - c := sub_pos.2 hgt
    rw [div_le_one hd] at hx1
    have : 0 ≤ 1 - c := by
      by_contra hc
      push Not at hc
      exact absurd hx0 (not_le.2 (div_neg_of_neg_of_pos hc hd))
    constructor <;> linarith

theorem constrain_run (m M u k0 k1 lo hi a k' : K) (b : Bool) (los his : List (Ext K))
    (hm : 0 ≤ m ∧ m ≤ 1) (hM : 0 ≤ M ∧ M ≤ 1)
    (hr : range0 (.fin k0) (.fin k1) = .ok (.fin lo, .fin hi)) (hf : fixK0 (.fin k0) (.fin k1) = .fin a)
    (hb : bounds m M (.fin a) (.fin k1) = (los, his))
    (hs : resetK1 u (.fin k1) (.fin lo) (.fin hi) los his = (.fin k', b)) (hne : a ≠ k')
    (had : Admissible m M a k') : constrainKi m M u (.fin k0, .fin k1) = .ok ((.fin a, .fin k'), b) := by
  obtain ⟨⟨h1, h2⟩, h3, h4⟩ := had
  unfold constrainKi
  simp only [hr, bind, Except.bind, hf, hb, hs, liquid0_fin a k' hne, Ext.mul, lt_fin, not_lt.2 hm.1, not_lt.2 hm.2,
    not_lt.2 hM.1, not_lt.2 hM.2, or_self, if_false, not_lt.2 h1, not_lt.2 h2, not_lt.2 h3, not_lt.2 h4,
    decide_false, Bool.or_self, Bool.false_eq_true, pure, Except.pure]

theorem mem_keepPos {b h : Ext K} : h ∈ keepPos b ↔ Ext.lt (.fin 0) b = true ∧ h = b := by
  unfold keepPos
  split <;> simp [*]

variable [IsStrictOrderedRing K]

omit [IsStrictOrderedRing K] in
theorem eps_pos [IsStrictOrderedRing K] : (0 : K) < eps := by unfold eps; positivity

theorem eps_lt_one : (eps : K) < 1 := by
  unfold eps
  rw [div_lt_one (by positivity)]
  norm_num

theorem one_lt_inv_eps : (1 : K) < 1 / eps := by
  rw [lt_div_iff₀ eps_pos, one_mul]
  exact eps_lt_one

/-- Bounds for a first K-value above one. -/
theorem within_above (m M a : K) (hM : M ≤ 1) (ha : 1 < a) (k : K) (hk : eps ≤ k) (hk1 : k ≤ 1)
    (hfeas : m < 1 ∧ 0 < 1 - m * a) :
    Admissible m M a k ↔
      Within eps 1 (boundY M (.fin a) :: keepPos (boundX M (.fin a))) (boundY m (.fin a) :: keepPos (boundX m (.fin a))) k := by
  obtain ⟨hm1, hmp⟩ := hfeas
  have hk0 : 0 < k := eps_pos.trans_le hk
  have hd : 0 < a - k := by linarith
  have hma : 0 < a - m := by linarith
  have hMa : 0 < a - M := by linarith
  have hm1' : 0 < 1 - m := by linarith
  have hxm : boundX m (.fin a) = .fin ((1 - m * a) / (1 - m)) := boundX_fin m a hm1.ne
  have hym : boundY m (.fin a) = .fin ((1 - m) * a / (a - m)) := boundY_fin m a (by linarith)
  have hyM : boundY M (.fin a) = .fin ((1 - M) * a / (a - M)) := boundY_fin M a (by linarith)
  have hposm : Ext.lt (.fin 0) (boundX m (.fin a)) = true := by
    rw [hxm, lt_fin]; exact decide_eq_true (div_pos hmp hm1')
  unfold Admissible Within
  rw [le_div_iff₀ hd, div_le_iff₀ hd, ← mul_div_assoc, le_div_iff₀ hd, div_le_iff₀ hd]
  simp only [List.mem_cons, mem_keepPos, hposm, true_and, forall_eq_or_imp, forall_eq]
  rw [hym, hxm, hyM, lt_fin, lt_fin, lt_fin, decide_eq_false_iff_not, decide_eq_false_iff_not,
    decide_eq_false_iff_not, not_lt, not_lt, not_lt, div_le_iff₀ hMa, le_div_iff₀ hma, le_div_iff₀ hm1']
  have hX : (∀ h, Ext.lt (.fin 0) (boundX M (.fin a)) = true ∧ h = boundX M (.fin a) → Ext.lt (.fin k) h = false)
      ↔ 1 - k ≤ M * (a - k) := by
    by_cases hM1 : M = 1
    · subst hM1
      constructor
      · intro _; linarith
      · rintro _ h ⟨h1, rfl⟩
        have : boundX 1 (.fin a) = .ninf := by
          have h5 : ¬ (a < 1) := by linarith
          simp [boundX, Ext.div, Ext.sub, Ext.mul, Ext.neg, Ext.add, Ext.signInf]
          rw [if_neg h5, if_pos ha]
        rw [this]; rfl
    · have hM1' : 0 < 1 - M := sub_pos.2 (lt_of_le_of_ne hM hM1)
      rw [boundX_fin M a hM1]
      constructor
      · intro h
        by_cases hp : 0 < (1 - M * a) / (1 - M)
        · have h6 := h _ ⟨decide_eq_true hp, rfl⟩
          rw [lt_fin, decide_eq_false_iff_not, not_lt, div_le_iff₀ hM1'] at h6
          linarith
        · push Not at hp
          rw [div_le_iff₀ hM1'] at hp
          nlinarith
      · rintro h _ ⟨_, rfl⟩
        rw [lt_fin, decide_eq_false_iff_not, not_lt, div_le_iff₀ hM1']
        linarith
  rw [hX]
  constructor
  · rintro ⟨⟨h1, h2⟩, h3, h4⟩
    exact ⟨hk, hk1, ⟨by linarith, h2⟩, by linarith, by linarith⟩
  · rintro ⟨_, _, ⟨h1, h2⟩, h3, h4⟩
    exact ⟨⟨by linarith, h2⟩, by linarith, by linarith⟩

/-- Bounds for a first K-value between zero and one. -/
theorem within_below (m M a : K) (hM : M ≤ 1) (ha0 : 0 < a) (ha : a < 1) (k : K) (hk : 1 ≤ k)
    (hk1 : k ≤ 100000000) (hfeas : m < a) :
    Admissible m M a k ↔
      Within 1 100000000 (boundX m (.fin a) :: keepPos (boundY m (.fin a)))
        (boundX M (.fin a) :: keepPos (boundY M (.fin a))) k := by
  have hm1 : m < 1 := hfeas.trans ha
  have hd : 0 < k - a := by linarith
  have hma : 0 < a - m := by linarith
  have hm1' : 0 < 1 - m := by linarith
  have hxm : boundX m (.fin a) = .fin ((1 - m * a) / (1 - m)) := boundX_fin m a hm1.ne
  have hym : boundY m (.fin a) = .fin ((1 - m) * a / (a - m)) := boundY_fin m a hfeas.ne'
  have hposm : Ext.lt (.fin 0) (boundY m (.fin a)) = true := by
    rw [hym, lt_fin]; exact decide_eq_true (by positivity)
  have hfrac : (1 - k) / (a - k) = (k - 1) / (k - a) := by
    rw [← neg_div_neg_eq, neg_sub, neg_sub]
  unfold Admissible Within
  rw [hfrac, le_div_iff₀ hd, div_le_iff₀ hd, ← mul_div_assoc, le_div_iff₀ hd, div_le_iff₀ hd]
  simp only [List.mem_cons, mem_keepPos, hposm, true_and, forall_eq_or_imp, forall_eq]
  rw [hym, hxm, lt_fin, lt_fin, decide_eq_false_iff_not, decide_eq_false_iff_not,
    not_lt, not_lt, div_le_iff₀ hma, div_le_iff₀ hm1']
  have hX : Ext.lt (boundX M (.fin a)) (.fin k) = false ↔ k - 1 ≤ M * (k - a) := by
    by_cases hM1 : M = 1
    · subst hM1
      have : boundX 1 (.fin a) = .pinf := by
        simp [boundX, Ext.div, Ext.sub, Ext.mul, Ext.neg, Ext.add, Ext.signInf]
        intro h; linarith
      rw [this]
      constructor
      · intro _; linarith
      · intro _; rfl
    · have hM1' : 0 < 1 - M := sub_pos.2 (lt_of_le_of_ne hM hM1)
      rw [boundX_fin M a hM1, lt_fin, decide_eq_false_iff_not, not_lt, le_div_iff₀ hM1']
      constructor <;> intro h <;> linarith
  have hY : (∀ h, Ext.lt (.fin 0) (boundY M (.fin a)) = true ∧ h = boundY M (.fin a) → Ext.lt h (.fin k) = false)
      ↔ a * (k - 1) ≤ M * (k - a) := by
    rcases lt_trichotomy a M with h | h | h
    · have h1 : a * (k - 1) ≤ M * (k - a) := by nlinarith
      rw [boundY_fin M a h.ne]
      refine ⟨fun _ => h1, ?_⟩
      rintro _ _ ⟨h2, rfl⟩
      have h3 : (1 - M) * a / (a - M) ≤ 0 :=
        div_nonpos_of_nonneg_of_nonpos (mul_nonneg (by linarith) ha0.le) (by linarith)
      rw [lt_fin] at h2
      exact absurd (of_decide_eq_true h2) (not_lt.2 h3)
    · subst h
      have : boundY a (.fin a) = .pinf := by
        have : 0 < (1 - a) * a := mul_pos (by linarith) ha0
        simp [boundY, Ext.div, Ext.sub, Ext.mul, Ext.neg, Ext.add, Ext.signInf, this]
      rw [this]
      constructor
      · intro _; nlinarith
      · rintro _ _ ⟨_, rfl⟩; rfl
    · have hMa : 0 < a - M := by linarith
      rw [boundY_fin M a h.ne']
      have hp : 0 < (1 - M) * a / (a - M) := div_pos (mul_pos (by linarith) ha0) hMa
      constructor
      · intro h5
        have h6 := h5 _ ⟨decide_eq_true hp, rfl⟩
        rw [lt_fin, decide_eq_false_iff_not, not_lt, le_div_iff₀ hMa] at h6
        linarith
      · rintro h5 _ ⟨_, rfl⟩
        rw [lt_fin, decide_eq_false_iff_not, not_lt, le_div_iff₀ hMa]
        linarith
  rw [hX, hY]
  constructor
  · rintro ⟨⟨h1, h2⟩, h3, h4⟩
    exact ⟨hk, hk1, ⟨by linarith, by linarith⟩, h2, h4⟩
  · rintro ⟨_, _, ⟨h1, h2⟩, h3, h4⟩
    exact ⟨⟨by linarith, h3⟩, by linarith, h4⟩

/-- The first K-value after the side check. -/
def effective (k0 k1 : K) : K :=
  if k1 < k0 then (if k0 < 1 then 1 / eps else k0) else (if 1 < k0 then eps else k0)

omit [IsStrictOrderedRing K] in
theorem fix_effective [IsStrictOrderedRing K] (k0 k1 : K) (h0 : 0 < k0) (hne : k0 ≠ k1) :
    fixK0 (.fin k0) (.fin k1) = .fin (effective k0 k1) := by
  have he : (eps : K) ≠ 0 := eps_pos.ne'
  unfold fixK0 effective
  simp only [lt_fin, Ext.div, he, if_false, Bool.and_eq_true, Bool.or_eq_true, decide_eq_true_eq]
  rcases lt_or_gt_of_ne hne with h | h
  · simp only [h, not_lt.2 h.le, false_and, if_false, true_and, not_lt.2 h0.le, or_false]
    split <;> rfl
  · simp only [h, not_lt.2 h.le, false_and, if_false, true_and, if_true]
    split <;> rfl

/-- **C32** (feasible limits are met, first component more volatile): when some second K-value in the
search range meets the limits, the constraint succeeds, and a second K-value that meets them already
is left alone. -/
theorem c32_feasible_above (m M u k0 k1 : K) (hm : 0 ≤ m ∧ m ≤ 1) (hM : 0 ≤ M ∧ M ≤ 1) (hu : 0 ≤ u ∧ u ≤ 1)
    (h0 : 0 < k0) (hlt : k1 < k0) (ha : effective k0 k1 ≠ 1)
    (hf : ∃ k, eps ≤ k ∧ k ≤ 1 ∧ Admissible m M (effective k0 k1) k) :
    ∃ k' b, constrainKi m M u (.fin k0, .fin k1) = .ok ((.fin (effective k0 k1), .fin k'), b) ∧
      eps ≤ k' ∧ k' ≤ 1 ∧ Admissible m M (effective k0 k1) k' ∧
      (eps ≤ k1 → k1 ≤ 1 → Admissible m M (effective k0 k1) k1 → k' = k1 ∧ b = false) := by
  have hfix := fix_effective k0 k1 h0 hlt.ne'
  have ha1 : 1 < effective k0 k1 := by
    refine lt_of_le_of_ne ?_ (Ne.symm ha)
    unfold effective
    rw [if_pos hlt]
    split
    · exact one_lt_inv_eps.le
    · rename_i h; exact not_lt.1 h
  have hka : k1 < effective k0 k1 := by
    unfold effective
    rw [if_pos hlt]
    split
    · rename_i h; exact (hlt.trans h).trans one_lt_inv_eps
    · exact hlt
  generalize hae : effective k0 k1 = a at *
  obtain ⟨k, hk, hk1, had⟩ := hf
  have hfeas : m < 1 ∧ 0 < 1 - m * a := by
    have hd : 0 < a - k := by linarith
    have h1 := had.1.1
    rw [le_div_iff₀ hd] at h1
    have hk0 : 0 < k := eps_pos.trans_le hk
    have hm1 : m < 1 := by
      by_contra hc
      have : m = 1 := le_antisymm hm.2 (not_lt.1 hc)
      subst this
      linarith
    exact ⟨hm1, by nlinarith⟩
  have hiff := within_above m M a hM.2 ha1
  obtain ⟨k', b, hres, hw, huse, _⟩ := resetK1_spec u k1 eps 1 _ _ hu.1 hu.2 ⟨k, (hiff k hk hk1 hfeas).1 had⟩
  have had' := (hiff k' hw.1 hw.2.1 hfeas).2 hw
  refine ⟨k', b, ?_, hw.1, hw.2.1, had', fun h5 h6 h7 => huse ((hiff k1 h5 h6 hfeas).1 h7)⟩
  refine constrain_run m M u k0 k1 eps 1 a k' b _ _ hm hM ?_ hfix ?_ hres ?_ had'
  · simp [range0, lt_fin, hlt]
  · simp [bounds, lt_fin, hka]
  · exact (hw.2.1.trans_lt ha1).ne'

/-- **C32** (feasible limits are met, first component less volatile). -/
theorem c32_feasible_below (m M u k0 k1 : K) (hm : 0 ≤ m ∧ m ≤ 1) (hM : 0 ≤ M ∧ M ≤ 1) (hu : 0 ≤ u ∧ u ≤ 1)
    (h0 : 0 < k0) (hlt : k0 < k1) (ha : effective k0 k1 ≠ 1)
    (hf : ∃ k, 1 ≤ k ∧ k ≤ 100000000 ∧ Admissible m M (effective k0 k1) k) :
    ∃ k' b, constrainKi m M u (.fin k0, .fin k1) = .ok ((.fin (effective k0 k1), .fin k'), b) ∧
      1 ≤ k' ∧ k' ≤ 100000000 ∧ Admissible m M (effective k0 k1) k' ∧
      (1 ≤ k1 → k1 ≤ 100000000 → Admissible m M (effective k0 k1) k1 → k' = k1 ∧ b = false) := by
  have hfix := fix_effective k0 k1 h0 hlt.ne
  have ha1 : effective k0 k1 < 1 := by
    refine lt_of_le_of_ne ?_ ha
    unfold effective
    rw [if_neg (not_lt.2 hlt.le)]
    split
    · exact eps_lt_one.le
    · rename_i h; exact not_lt.1 h
  have ha0 : 0 < effective k0 k1 := by
    unfold effective
    rw [if_neg (not_lt.2 hlt.le)]
    split
    · exact eps_pos
    · exact h0
  have hka : effective k0 k1 < k1 := by
    unfold effective
    rw [if_neg (not_lt.2 hlt.le)]
    split
    · rename_i h; exact eps_lt_one.trans (h.trans hlt)
    · exact hlt
  generalize hae : effective k0 k1 = a at *
  obtain ⟨k, hk, hk1, had⟩ := hf
  have hfeas : m < a := by
    have hd : 0 < k - a := by linarith
    have h1 := had.2.1
    rw [← neg_div_neg_eq, neg_sub, neg_sub, ← mul_div_assoc, le_div_iff₀ hd] at h1
    by_contra hc
    push Not at hc
    have h2 : a * (k - a) ≤ m * (k - a) := mul_le_mul_of_nonneg_right hc hd.le
    nlinarith
  have hiff := within_below m M a hM.2 ha0 ha1
  obtain ⟨k', b, hres, hw, huse, _⟩ := resetK1_spec u k1 1 100000000 _ _ hu.1 hu.2 ⟨k, (hiff k hk hk1 hfeas).1 had⟩
  have had' := (hiff k' hw.1 hw.2.1 hfeas).2 hw
  refine ⟨k', b, ?_, hw.1, hw.2.1, had', fun h5 h6 h7 => huse ((hiff k1 h5 h6 hfeas).1 h7)⟩
  refine constrain_run m M u k0 k1 1 100000000 a k' b _ _ hm hM ?_ hfix ?_ hres ?_ had'
  · simp [range0, lt_fin, hlt, not_lt.2 hlt.le]
  · simp [bounds, lt_fin, hka, not_lt.2 hka.le]
  · exact (ha1.trans_le hw.1).ne

theorem admissible_default (a k : K) (hne : a ≠ k) (h : (1 ≤ a ∧ 0 ≤ k ∧ k ≤ 1) ∨ (0 ≤ a ∧ a ≤ 1 ∧ 1 ≤ k)) :
    Admissible 0 1 a k := by
  unfold Admissible
  rcases h with ⟨h1, h2, h3⟩ | ⟨h1, h2, h3⟩
  · have hd : 0 < a - k := sub_pos.2 (lt_of_le_of_ne (h3.trans h1) (Ne.symm hne))
    rw [le_div_iff₀ hd, div_le_iff₀ hd, ← mul_div_assoc, le_div_iff₀ hd, div_le_iff₀ hd]
    refine ⟨⟨by linarith, by linarith⟩, ?_, ?_⟩ <;> nlinarith
  · have hd : 0 < k - a := sub_pos.2 (lt_of_le_of_ne (h2.trans h3) hne)
    rw [← neg_div_neg_eq, neg_sub, neg_sub, le_div_iff₀ hd, div_le_iff₀ hd, ← mul_div_assoc, le_div_iff₀ hd,
      div_le_iff₀ hd]
    refine ⟨⟨by linarith, by linarith⟩, ?_, ?_⟩ <;> nlinarith

theorem bound_default (a : K) (ha : 0 < a) : boundX 0 (.fin a) = .fin 1 ∧ boundY 0 (.fin a) = .fin 1 := by
  rw [boundX_fin _ _ zero_ne_one, boundY_fin _ _ ha.ne']
  simp [ha.ne']

omit [IsStrictOrderedRing K] in
theorem boundX_one (a : K) : boundX 1 (.fin a) = Ext.signInf (1 - a) := by
  simp [boundX, Ext.div, Ext.sub, Ext.mul, Ext.neg, Ext.add, sub_eq_add_neg]

omit [IsStrictOrderedRing K] in
theorem boundY_one (a : K) : boundY 1 (.fin a) = if a = 1 then .nan else .fin 0 := by
  split
  · rename_i h; subst h
    simp [boundY, Ext.div, Ext.sub, Ext.mul, Ext.neg, Ext.add, Ext.signInf]
  · rename_i h; rw [boundY_fin _ _ h]; simp

theorem within_default_above (a k : K) (ha : 1 ≤ a) (hk : eps ≤ k) (hk1 : k ≤ 1) :
    Within eps 1 (boundY 1 (.fin a) :: keepPos (boundX 1 (.fin a)))
      (boundY 0 (.fin a) :: keepPos (boundX 0 (.fin a))) k := by
  obtain ⟨h1, h2⟩ := bound_default a (zero_lt_one.trans_le ha)
  have hk0 : 0 ≤ k := eps_pos.le.trans hk
  refine ⟨hk, hk1, ?_, ?_⟩
  · intro h hh
    rcases List.mem_cons.1 hh with rfl | hh
    · rw [boundY_one]
      split
      · rfl
      · simpa [lt_fin] using hk0
    · rw [mem_keepPos, boundX_one] at hh
      have h5 : ¬ (0 < 1 - a) := by linarith
      have h6 := hh.1
      rw [Ext.signInf, if_neg h5] at h6
      split at h6 <;> simp [Ext.lt] at h6
  · simp [h1, h2, mem_keepPos, lt_fin, hk1]

theorem within_default_below (a k : K) (ha0 : 0 < a) (ha : a ≤ 1) (hk : 1 ≤ k) (hk1 : k ≤ 100000000) :
    Within 1 100000000 (boundX 0 (.fin a) :: keepPos (boundY 0 (.fin a)))
      (boundX 1 (.fin a) :: keepPos (boundY 1 (.fin a))) k := by
  obtain ⟨h1, h2⟩ := bound_default a ha0
  refine ⟨hk, hk1, ?_, ?_⟩
  · simp [h1, h2, mem_keepPos, lt_fin, hk]
  · intro h hh
    rcases List.mem_cons.1 hh with rfl | hh
    · rw [boundX_one, Ext.signInf]
      split
      · rfl
      · rename_i h3
        have h4 : a = 1 := le_antisymm ha (by linarith)
        subst h4
        simp [Ext.lt]
    · rw [mem_keepPos, boundY_one] at hh
      obtain ⟨h3, rfl⟩ := hh
      split at h3 <;> simp [Ext.lt] at h3

/-- **C32** (no limits): without limits on the mole fractions, two different positive K-values are
always turned into two different positive K-values on opposite sides of one; K-values that are on
opposite sides already, the second one in the search range, are left alone. -/
theorem c32_default (u k0 k1 : K) (hu : 0 < u ∧ u < 1) (h0 : 0 < k0) (hne : k0 ≠ k1) :
    ∃ a c b, constrainKi 0 1 u (.fin k0, .fin k1) = .ok ((.fin a, .fin c), b) ∧ a ≠ c ∧ 0 < a ∧ 0 < c ∧
      Admissible 0 1 a c ∧ Straddle a c ∧
      ((1 ≤ k0 ∧ eps ≤ k1 ∧ k1 ≤ 1) ∨ (k0 ≤ 1 ∧ 1 ≤ k1 ∧ k1 ≤ 100000000) → a = k0 ∧ c = k1 ∧ b = false) := by
  have hm : (0 : K) ≤ 0 ∧ (0 : K) ≤ 1 := ⟨le_refl _, zero_le_one⟩
  have hM : (0 : K) ≤ 1 ∧ (1 : K) ≤ 1 := ⟨zero_le_one, le_refl _⟩
  have he := eps_pos (K := K)
  have he1 := eps_lt_one (K := K)
  have hbig : (1 : K) ≤ 100000000 := by norm_num
  have hfix := fix_effective k0 k1 h0 hne
  rcases lt_or_gt_of_ne hne with hlt | hlt
  · have hca : effective k0 k1 = if 1 < k0 then eps else k0 := by
      rw [effective, if_neg (not_lt.2 hlt.le)]
    have ha1 : effective k0 k1 ≤ 1 := by
      rw [hca]; split
      · exact he1.le
      · rename_i h; exact not_lt.1 h
    have ha0 : 0 < effective k0 k1 := by
      rw [hca]; split
      · exact he
      · exact h0
    have hka : effective k0 k1 < k1 := by
      rw [hca]; split
      · rename_i h; exact he1.trans (h.trans hlt)
      · exact hlt
    have hkeep : k0 ≤ 1 → effective k0 k1 = k0 := fun h => by rw [hca, if_neg (not_lt.2 h)]
    generalize effective k0 k1 = a at *
    have hw := within_default_below a
    obtain ⟨k', b, hres, hwk, huse, hnot⟩ :=
      resetK1_spec u k1 1 100000000 _ _ hu.1.le hu.2.le ⟨1, hw 1 ha0 ha1 (le_refl _) hbig⟩
    have hak : a ≠ k' := by
      by_cases hin : 1 ≤ k1 ∧ k1 ≤ 100000000
      · rw [(huse (hw k1 ha0 ha1 hin.1 hin.2)).1]; exact hka.ne
      · obtain ⟨_, p, q, hp, hq, hall, rfl⟩ := hnot (fun h => hin ⟨h.1, h.2.1⟩)
        have h3 := (hall 1 (hw 1 ha0 ha1 (le_refl _) hbig)).1
        have h4 := (hall 100000000 (hw 100000000 ha0 ha1 hbig (le_refl _))).2
        have hp1 : p = 1 := le_antisymm h3 hp
        have hq1 : q = 100000000 := le_antisymm hq h4
        subst hp1 hq1
        have : (0 : K) < (100000000 - 1) * u := mul_pos (by norm_num) hu.1
        intro h; linarith
    have had := admissible_default a k' hak (Or.inr ⟨ha0.le, ha1, hwk.1⟩)
    refine ⟨a, k', b, ?_, hak, ha0, zero_lt_one.trans_le hwk.1, had, Or.inr ⟨ha1, hwk.1⟩, ?_⟩
    · refine constrain_run 0 1 u k0 k1 1 100000000 a k' b _ _ hm hM ?_ hfix ?_ hres hak had
      · simp [range0, lt_fin, hlt, not_lt.2 hlt.le]
      · simp [bounds, lt_fin, hka, not_lt.2 hka.le]
    · rintro (⟨h3, h4, h5⟩ | ⟨h3, h4, h5⟩)
      · exact absurd (h5.trans h3) (not_le.2 hlt)
      · obtain ⟨h6, h7⟩ := huse (hw k1 ha0 ha1 h4 h5)
        exact ⟨hkeep h3, h6, h7⟩
  · have hca : effective k0 k1 = if k0 < 1 then 1 / eps else k0 := by
      rw [effective, if_pos hlt]
    have ha1 : 1 ≤ effective k0 k1 := by
      rw [hca]; split
      · exact one_lt_inv_eps.le
      · rename_i h; exact not_lt.1 h
    have hka : k1 < effective k0 k1 := by
      rw [hca]; split
      · rename_i h; exact (hlt.trans h).trans one_lt_inv_eps
      · exact hlt
    have hkeep : 1 ≤ k0 → effective k0 k1 = k0 := fun h => by rw [hca, if_neg (not_lt.2 h)]
    generalize effective k0 k1 = a at *
    have hw := within_default_above a
    obtain ⟨k', b, hres, hwk, huse, hnot⟩ :=
      resetK1_spec u k1 eps 1 _ _ hu.1.le hu.2.le ⟨1, hw 1 ha1 he1.le (le_refl _)⟩
    have hak : a ≠ k' := by
      by_cases hin : eps ≤ k1 ∧ k1 ≤ 1
      · rw [(huse (hw k1 ha1 hin.1 hin.2)).1]; exact hka.ne'
      · obtain ⟨_, p, q, hp, hq, hall, rfl⟩ := hnot (fun h => hin ⟨h.1, h.2.1⟩)
        have h3 := (hall eps (hw eps ha1 (le_refl _) he1.le)).1
        have h4 := (hall 1 (hw 1 ha1 he1.le (le_refl _))).2
        have hp1 : p = eps := le_antisymm h3 hp
        have hq1 : q = 1 := le_antisymm hq h4
        subst hp1 hq1
        have : (0 : K) < (1 - eps) * (1 - u) := mul_pos (by linarith) (by linarith [hu.2])
        intro h; nlinarith
    have had := admissible_default a k' hak (Or.inl ⟨ha1, he.le.trans hwk.1, hwk.2.1⟩)
    refine ⟨a, k', b, ?_, hak, zero_lt_one.trans_le ha1, he.trans_le hwk.1, had, Or.inl ⟨ha1, hwk.2.1⟩, ?_⟩
    · refine constrain_run 0 1 u k0 k1 eps 1 a k' b _ _ hm hM ?_ hfix ?_ hres hak had
      · simp [range0, lt_fin, hlt]
      · simp [bounds, lt_fin, hka]
    · rintro (⟨h3, h4, h5⟩ | ⟨h3, h4, h5⟩)
      · obtain ⟨h6, h7⟩ := huse (hw k1 ha1 h4 h5)
        exact ⟨hkeep h3, h6, h7⟩
      · exact absurd (h3.trans h4) (not_le.2 hlt)

omit [Field K] [IsStrictOrderedRing K] in
/-- **C32** is violated: equal K-values, and K-values that are NaN, stop the calculation with an
undefined variable instead of being constrained or reported. -/
theorem c32_violated_equal [Field K] (m M u : K) (k : Ext K) :
    constrainKi m M u (k, k) = .error .unboundLocal ∧ constrainKi m M u (.nan, k) = .error .unboundLocal ∧
      constrainKi m M u (k, .nan) = .error .unboundLocal := by
  have h1 : Ext.lt k k = false := by cases k <;> simp [Ext.lt]
  have h2 : Ext.lt k .nan = false := by cases k <;> rfl
  have h3 : Ext.lt .nan k = false := by cases k <;> rfl
  refine ⟨?_, ?_, ?_⟩ <;>
    simp [constrainKi, range0, h1, h2, h3, bind, Except.bind]

/-- **C32** is violated: with an upper limit below one and a first K-value of exactly one, the result is
a pair of ones, which produces no mole fractions at all. -/
theorem c32_violated_unit : constrainKi (K := ℚ) 0 (9 / 10) (1 / 2) (.fin 1, .fin (1 / 2)) = .ok ((.fin 1, .fin 1), true) ∧
    liquid0 (.fin (1 : ℚ)) (.fin 1) = .nan := by
  constructor <;> decide +kernel

example : constrainKi (K := ℚ) 0 1 (1 / 2) (.fin 3, .fin (1 / 2)) = .ok ((.fin 3, .fin (1 / 2)), false) := by
  decide +kernel
example : constrainKi (K := ℚ) (1 / 10) (4 / 10) (1 / 2) (.fin 2, .fin (1 / 5)) = .ok ((.fin 2, .fin (59 / 72)), true) := by
  decide +kernel
/-- The hypotheses of `c32_feasible_above` are met with these limits. -/
example : effective (2 : ℚ) (1 / 5) ≠ 1 ∧ ∃ k, eps ≤ k ∧ k ≤ 1 ∧ Admissible (1 / 10 : ℚ) (4 / 10) (effective 2 (1 / 5)) k := by
  refine ⟨by decide +kernel, 3 / 4, by decide +kernel, by decide +kernel, ?_⟩
  unfold Admissible
  decide +kernel

/-! ## C31: compositions of the flash -/

/-- Mole fractions of two components. -/
def IsComposition (z : Pair K) : Prop := 0 ≤ z.1 ∧ z.1 ≤ 1 ∧ 0 ≤ z.2 ∧ z.2 ≤ 1 ∧ z.1 + z.2 = 1

/-- Liquid and vapour compositions that belong to the K-values `k`. -/
def Balanced (k x y : Pair K) : Prop :=
  k.1 ≠ k.2 ∧ IsComposition x ∧ IsComposition y ∧ y.1 = k.1 * x.1 ∧ y.2 = k.2 * x.2

theorem liquid_vapor (k : Pair K) (hne : k.1 ≠ k.2) (h : Admissible 0 1 k.1 k.2) :
    Balanced k (liquidX k) (vaporY k (liquidX k)) := by
  obtain ⟨⟨h1, h2⟩, h3, h4⟩ := h
  have hd : k.1 - k.2 ≠ 0 := sub_ne_zero.2 hne
  have hx : liquidX k = ((1 - k.2) / (k.1 - k.2), 1 - (1 - k.2) / (k.1 - k.2)) := by
    unfold liquidX
    rw [if_neg (not_lt.2 h1), if_neg (not_lt.2 (by linarith))]
  have hs : k.1 * ((1 - k.2) / (k.1 - k.2)) + k.2 * (1 - (1 - k.2) / (k.1 - k.2)) = 1 := by
    field_simp
    ring
  have hy : vaporY k (liquidX k) = (k.1 * ((1 - k.2) / (k.1 - k.2)), k.2 * (1 - (1 - k.2) / (k.1 - k.2))) := by
    unfold vaporY
    simp only [hx]
    rw [if_neg (not_not.2 hs)]
  rw [hy, hx]
  generalize (1 - k.2) / (k.1 - k.2) = x at *
  refine ⟨hne, ⟨h1, h2, ?_, ?_, ?_⟩, ⟨h3, h4, ?_, ?_, hs⟩, rfl, rfl⟩ <;> simp only <;> linarith

/-- K-values that, when different, give mole fractions in the unit interval. -/
def Fit (k : Pair K) : Prop := k.1 ≠ k.2 → Admissible 0 1 k.1 k.2

omit [Field K] [LinearOrder K] [IsStrictOrderedRing K] in
theorem finite_ok {k : Ext K × Ext K} {a : Pair K} (h : finite k = .ok a) : k = (.fin a.1, .fin a.2) := by
  obtain ⟨x, y⟩ := k
  cases x <;> cases y <;> simp [finite] at h
  subst h; rfl

theorem fit_constrain {m M u : K} {k : Ext K × Ext K} {c : (Ext K × Ext K) × Bool} {a : Pair K}
    (h : constrainKi m M u k = .ok c) (hf : finite c.1 = .ok a) : Fit a := by
  intro hne
  have := finite_ok hf
  obtain ⟨ck, cb⟩ := c
  simp only at this
  subst this
  obtain ⟨⟨⟨h1, h2⟩, h3, h4⟩, _⟩ := c32_sound m M u k a.1 a.2 cb h hne
  obtain ⟨⟨hm, _⟩, ⟨_, hM⟩, _⟩ := constrain_checks m M u k _ cb h
  exact ⟨⟨hm.trans h1, h2.trans hM⟩, hm.trans h3, h4.trans hM⟩

theorem fit_swap {k : Pair K} (h : Fit k) : Fit (k.2, k.1) := by
  intro hne
  simp only at hne ⊢
  obtain ⟨⟨h1, h2⟩, h3, h4⟩ := h (Ne.symm hne)
  have hd : k.1 - k.2 ≠ 0 := sub_ne_zero.2 (Ne.symm hne)
  have hd2 : k.2 - k.1 ≠ 0 := sub_ne_zero.2 hne
  have hx : (1 - k.1) / (k.2 - k.1) = 1 - (1 - k.2) / (k.1 - k.2) := by
    rw [← neg_div_neg_eq, neg_sub, neg_sub, eq_sub_iff_add_eq, ← add_div, div_eq_one_iff_eq hd]
    ring
  have hs : k.2 * (1 - (1 - k.2) / (k.1 - k.2)) = 1 - k.1 * ((1 - k.2) / (k.1 - k.2)) := by
    field_simp
    ring
  unfold Admissible
  rw [hx, hs]
  exact ⟨⟨by linarith, by linarith⟩, by linarith, by linarith⟩

omit [LinearOrder K] [IsStrictOrderedRing K] in
/-- **C70** is violated: both restarts of a search that has collapsed begin with the same K-values. -/
theorem c70_violated (k k' : Pair K) : restart 0 k = restart 1 k' ∧ restart 0 k = (1 / eps, eps) := by
  simp [restart, setAt]

/-- **C70, violated, in numbers.** Both restarts begin with the K-values 67108864 and its inverse; the second is the square
root of the distance from one to the next number. -/
theorem c70_violated_numbers (f : ℕ) (hf : f < 2) (k : Pair K) :
    restart f k = (67108864, 1 / 67108864) ∧ (restart f k).2 ^ 2 = 1 / 2 ^ 52 := by
  have h : restart f k = (1 / eps, eps) := by
    interval_cases f
    · exact (c70_violated k k).2
    · exact (c70_violated k k).1 ▸ (c70_violated k k).2
  rw [h]
  unfold eps
  refine ⟨?_, ?_⟩
  · rw [Prod.mk.injEq]; constructor <;> norm_num
  · norm_num

theorem fit_restart (f : ℕ) (hf : f < 2) (k : Pair K) : Fit (restart f k) := by
  have h : restart f k = (1 / eps, eps) := by
    interval_cases f
    · exact (c70_violated k k).2
    · exact (c70_violated k k).1 ▸ (c70_violated k k).2
  rw [h]
  intro hne
  exact admissible_default _ _ hne (Or.inl ⟨one_lt_inv_eps.le, eps_pos.le, eps_lt_one.le⟩)

theorem step_spec (o : Opts K) (i : ℕ) (s : St K) (r : Out K × St K × Bool) (h : step o i s = .ok r)
    (hs : Fit s.k) : Balanced s.k r.1.x r.1.y ∧ Fit r.2.1.k := by
  unfold step at h
  simp only [bind, Except.bind, throw, throwThe, MonadExceptOf.throw, pure, Except.pure] at h
  split at h
  · cases h
  · rename_i hne
    have hb := liquid_vapor s.k hne (hs hne)
    cases hf : o.fug (liquidX s.k) (vaporY s.k (liquidX s.k)) with
    | error e => simp only [hf] at h; cases h
    | ok f =>
      simp only [hf] at h
      cases hc : constrainKi o.m o.M (o.rand i) f.k with
      | error e => simp only [hc] at h; cases h
      | ok c =>
        simp only [hc] at h
        cases hk : finite c.1 with
        | error e => simp only [hk] at h; cases h
        | ok kc =>
          simp only [hk] at h
          have hfit := fit_constrain hc hk
          cases hn : finite f.k with
          | error e => simp only [hn] at h; cases h
          | ok kn =>
            simp only [hn] at h
            generalize (if c.2 = true then s.reset + 1 else s.reset) = reset at h
            split at h
            · split at h
              · cases h; exact ⟨hb, fit_swap hfit⟩
              · split at h
                · cases he : relChange kc s.k with
                  | error e => simp only [he] at h; cases h
                  | ok e => simp only [he] at h; cases h; exact ⟨hb, hfit⟩
                · cases h; exact ⟨hb, hfit⟩
            · rename_i hkk
              have hkk : kn = kc := not_not.1 hkk
              subst hkk
              split at h
              · rename_i hcr
                cases h; exact ⟨hb, fit_restart _ hcr.2.2 _⟩
              · split at h
                · cases he : relChange kn s.k with
                  | error e => simp only [he] at h; cases h
                  | ok e =>
                    simp only [he] at h
                    split at h
                    · cases h; exact ⟨hb, hs⟩
                    · cases h; exact ⟨hb, hfit⟩
                · cases h; exact ⟨hb, hfit⟩

theorem loop_spec (o : Opts K) : ∀ (n i : ℕ) (s : St K) (r : Out K), loop o n i s = .ok r → Fit s.k →
    ∃ k, Balanced k r.x r.y
  | 0, _, _, _, h, _ => by cases h
  | 1, i, s, r, h, hs => by
    simp only [loop, bind, Except.bind, pure, Except.pure] at h
    cases ht : step o i s with
    | error e => simp only [ht] at h; cases h
    | ok t =>
      simp only [ht] at h
      cases he : relChange t.1.k t.1.kprev with
      | error e => simp only [he] at h; cases h
      | ok e => simp only [he] at h; cases h; exact ⟨_, (step_spec o i s t ht hs).1⟩
  | n + 2, i, s, r, h, hs => by
    simp only [loop, bind, Except.bind, pure, Except.pure] at h
    cases ht : step o i s with
    | error e => simp only [ht] at h; cases h
    | ok t =>
      simp only [ht] at h
      obtain ⟨h1, h2⟩ := step_spec o i s t ht hs
      split at h
      · cases h; exact ⟨_, h1⟩
      · exact loop_spec o (n + 1) (i + 1) _ r h h2

/-- **C31**: whatever the fugacities and the limits, the compositions that a flash returns are mole
fractions, and one is obtained from the other by multiplying with a pair of K-values. -/
theorem c31_balance (o : Opts K) (n : ℕ) (P setP u : K) (psat : Option K × Option K) (r : Result K)
    (h : calcFlash o n P setP u psat = .ok r) :
    ∃ k, Balanced k r.x r.y ∨ Balanced k r.y r.x := by
  unfold calcFlash at h
  simp only [bind, Except.bind, throw, throwThe, MonadExceptOf.throw, pure, Except.pure] at h
  split at h
  · cases h
  · cases hc : constrainKi o.m o.M u (firstK P setP psat) with
    | error e => simp only [hc] at h; cases h
    | ok c =>
      simp only [hc] at h
      cases hk : finite c.1 with
      | error e => simp only [hk] at h; cases h
      | ok k =>
        simp only [hk] at h
        cases hl : loop o o.maxiter 0 ⟨k, 0, 0⟩ with
        | error e => simp only [hl] at h; cases h
        | ok t =>
          simp only [hl] at h
          cases h
          obtain ⟨k', hb⟩ := loop_spec o _ _ _ _ hl (fit_constrain hc hk)
          refine ⟨k', ?_⟩
          unfold finish
          split
          · exact Or.inr hb
          · exact Or.inl hb

/-- Two different positive K-values. -/
def Proper (k : Pair K) : Prop := k.1 ≠ k.2 ∧ 0 < k.1 ∧ 0 < k.2

omit [IsStrictOrderedRing K] in
theorem relChange_total (new old : Pair K) (h : Proper old) : ∃ e, relChange new old = .ok e := by
  unfold relChange
  split
  · exact ⟨_, rfl⟩
  · rw [if_pos h.2.2]; exact ⟨_, rfl⟩

/-- Settings without limits, with fugacities that never fail and give different positive K-values. -/
structure Healthy (o : Opts K) : Prop where
  m : o.m = 0
  M : o.M = 1
  rand : ∀ i, 0 < o.rand i ∧ o.rand i < 1
  fug : ∀ x y, ∃ f k, o.fug x y = .ok f ∧ f.k = (.fin k.1, .fin k.2) ∧ Proper k

theorem step_total (o : Opts K) (ho : Healthy o) (i : ℕ) (s : St K) (hs : Proper s.k) :
    ∃ r, step o i s = .ok r ∧ Proper r.2.1.k ∧ Proper r.1.kprev := by
  obtain ⟨f, kn, hf, hfk, hkn⟩ := ho.fug (liquidX s.k) (vaporY s.k (liquidX s.k))
  obtain ⟨a, c, b, hc, hac, ha, hcp, _⟩ := c32_default (o.rand i) kn.1 kn.2 (ho.rand i) hkn.2.1 hkn.1
  have hkc : Proper (a, c) := ⟨hac, ha, hcp⟩
  have hre : Proper (1 / (eps : K), (eps : K)) :=
    ⟨(eps_lt_one.trans one_lt_inv_eps).ne', zero_lt_one.trans one_lt_inv_eps, eps_pos⟩
  unfold step
  simp only [bind, Except.bind, throw, throwThe, MonadExceptOf.throw, pure, Except.pure, hs.1, if_false, hf, hfk,
    ho.m, ho.M, hc, finite]
  generalize (if b = true then s.reset + 1 else s.reset) = reset
  obtain ⟨e1, he1⟩ := relChange_total (a, c) s.k hs
  obtain ⟨e2, he2⟩ := relChange_total kn s.k hs
  split
  · split
    · exact ⟨_, rfl, ⟨Ne.symm hac, hcp, ha⟩, hs⟩
    · split
      · rw [he1]; exact ⟨_, rfl, hkc, hs⟩
      · exact ⟨_, rfl, hkc, hs⟩
  · split
    · rename_i hcr
      have h : restart s.crit s.k = (1 / eps, eps) := by
        have := hcr.2.2
        generalize s.crit = f at *
        interval_cases f
        · exact (c70_violated s.k s.k).2
        · exact (c70_violated s.k s.k).1 ▸ (c70_violated s.k s.k).2
      exact ⟨_, rfl, by simpa only [h] using hre, by simpa only [h] using hre⟩
    · split
      · have : (kn.1, kn.2) = kn := rfl
        rw [this, he2]
        simp only
        split
        · exact ⟨_, rfl, hs, hs⟩
        · exact ⟨_, rfl, hkn, hs⟩
      · exact ⟨_, rfl, hkn, hs⟩

theorem loop_total (o : Opts K) (ho : Healthy o) : ∀ (n i : ℕ) (s : St K), Proper s.k → ∃ r, loop o (n + 1) i s = .ok r
  | 0, i, s, hs => by
    obtain ⟨r, hr, _, h2⟩ := step_total o ho i s hs
    obtain ⟨e, he⟩ := relChange_total r.1.k r.1.kprev h2
    simp only [loop, bind, Except.bind, pure, Except.pure, hr, he]
    exact ⟨_, rfl⟩
  | n + 1, i, s, hs => by
    obtain ⟨r, hr, h1, _⟩ := step_total o ho i s hs
    simp only [loop, bind, Except.bind, pure, Except.pure, hr]
    split
    · exact ⟨_, rfl⟩
    · exact loop_total o ho n (i + 1) _ h1

/-- **C31** (the flash finishes): without limits on the mole fractions, with different positive
saturation pressures and fugacities that give different positive K-values, every flash of a binary
mixture returns a result. -/
theorem c31_total (o : Opts K) (ho : Healthy o) (hn : 0 < o.maxiter) (P setP u : K) (hP : 0 < P) (hu : 0 < u ∧ u < 1)
    (psat : Option K × Option K) (h1 : 0 < psat.1.getD setP) (hne : psat.1.getD setP ≠ psat.2.getD setP) :
    ∃ r, calcFlash o 2 P setP u psat = .ok r := by
  obtain ⟨a, c, b, hc, hac, ha, hcp, _⟩ := c32_default u (psat.1.getD setP / P) (psat.2.getD setP / P) hu
    (div_pos h1 hP) (fun h => hne (by rwa [div_left_inj' hP.ne'] at h))
  obtain ⟨n, hn'⟩ := Nat.exists_eq_succ_of_ne_zero hn.ne'
  obtain ⟨r, hr⟩ := loop_total o ho n 0 ⟨(a, c), 0, 0⟩ ⟨hac, ha, hcp⟩
  unfold calcFlash
  simp only [bind, Except.bind, pure, Except.pure, ne_eq, not_true_eq_false, if_false, firstK, Ext.div, hP.ne', ho.m, ho.M, hc,
    finite, hn', Nat.succ_eq_add_one, hr]
  exact ⟨_, rfl⟩

omit [IsStrictOrderedRing K] in
/-- **C31** (only binary mixtures): any other number of components is rejected. -/
theorem c31_binary (o : Opts K) (n : ℕ) (hn : n ≠ 2) (P setP u : K) (psat : Option K × Option K) :
    calcFlash o n P setP u psat = .error .valueError := by
  unfold calcFlash
  rw [if_pos hn]; rfl

/-! ## C68: the reported error -/

omit [IsStrictOrderedRing K] in
/-- **C68** (what holds): leaving the loop before the resets are exhausted means that the K-values
behind the returned compositions agree with the ratio of the fugacity coefficients at these
compositions to the tolerance. -/
theorem c68_converged_partial (o : Opts K) (i : ℕ) (s s' : St K) (r : Out K) (h : step o i s = .ok (r, s', true))
    (hr : s'.reset ≠ 20) :
    ∃ f kn, o.fug r.x r.y = .ok f ∧ f.k = (.fin kn.1, .fin kn.2) ∧ |kn.1 - s.k.1| + |kn.2 - s.k.2| < o.tol ∧
      relChange kn s.k = .ok r.err ∧ r.err < o.tol := by
  unfold step at h
  simp only [bind, Except.bind, throw, throwThe, MonadExceptOf.throw, pure, Except.pure] at h
  split at h
  · cases h
  · cases hf : o.fug (liquidX s.k) (vaporY s.k (liquidX s.k)) with
    | error e => simp only [hf] at h; cases h
    | ok f =>
      simp only [hf] at h
      cases hc : constrainKi o.m o.M (o.rand i) f.k with
      | error e => simp only [hc] at h; cases h
      | ok c =>
        simp only [hc] at h
        cases hk : finite c.1 with
        | error e => simp only [hk] at h; cases h
        | ok kc =>
          simp only [hk] at h
          cases hn : finite f.k with
          | error e => simp only [hn] at h; cases h
          | ok kn =>
            simp only [hn] at h
            generalize (if c.2 = true then s.reset + 1 else s.reset) = reset at h
            split at h
            · split at h
              · cases h
              · split at h
                · rename_i h20
                  cases he : relChange kc s.k with
                  | error e => simp only [he] at h; cases h
                  | ok e => simp only [he] at h; cases h; exact absurd h20 hr
                · cases h
            · split at h
              · cases h
              · split at h
                · rename_i herr
                  cases he : relChange kn s.k with
                  | error e => simp only [he] at h; cases h
                  | ok e =>
                    simp only [he] at h
                    split at h
                    · rename_i he2
                      cases h
                      exact ⟨f, kn, hf, finite_ok hn, herr, he, he2⟩
                    · cases h
                · cases h

/-- A flash whose first K-values are nearly one, with fugacities that give 2 and 1/2. -/
def nearCritical : Opts ℚ where
  m := 0
  M := 1
  tol := 1 / 1000000000
  maxiter := 1
  fug := fun _ _ => .ok ⟨(.fin 2, .fin (1 / 2)), 1, 0⟩
  rand := fun _ => 1 / 2

/-- **C68** is violated: when the last iteration is a restart, the error is reported as zero although
the K-values (about one) and the fugacities (2 and 1/2) disagree. -/
theorem c68_violated : ∃ r, calcFlash nearCritical 2 1 1 (1 / 2) (some (1 + 1 / 10000000), some (1 - 1 / 10000000)) = .ok r ∧
    r.err = 0 ∧ r.err < nearCritical.tol ∧
      ∀ k, Balanced k r.x r.y → k.1 ≤ 1 + 1 / 10000000 := by
  refine ⟨⟨(1 / 2, 1 / 2), 1, ((1 + 1 / 10000000) / 2, (1 - 1 / 10000000) / 2), 0, 0⟩, ?_, rfl, by decide +kernel, ?_⟩
  · exact of_decide_eq_true (by decide +kernel)
  · rintro ⟨a, c⟩ ⟨_, _, _, h, _⟩
    simp only at h
    linarith

/-- The hypotheses of `c31_total` are met. -/
example : Healthy nearCritical :=
  ⟨rfl, rfl, fun _ => by norm_num [nearCritical], fun _ _ => ⟨_, (2, 1 / 2), rfl, rfl, by norm_num [Proper]⟩⟩

/-- A converging flash: the fugacities always give the K-values 2 and 1/2. -/
example : (calcFlash { nearCritical with maxiter := 5 } 2 1 1 (1 / 2) (some 3, some (1 / 4))).map (fun r => (r.x, r.y, r.err))
    = .ok ((1 / 3, 2 / 3), (2 / 3, 1 / 3), 0) := by decide +kernel

/-! ## C100: labels of the phases, and the error that is reported -/

/-- **C68** (the error): for positive K-values the error is the relative change of the smaller one, the first if they are
equal. -/
theorem c68_relative_change (new old : Pair K) (h1 : 0 < old.1) (h2 : 0 < old.2) :
    relChange new old = .ok (if old.1 ≤ old.2 then |new.1 - old.1| / old.1 else |new.2 - old.2| / old.2) := by
  unfold relChange
  by_cases h : old.1 ≤ old.2 <;> simp [h, h1, h2]

/-- A flag of a vapour or an ideal gas. -/
def IsVapor (f : ℕ) : Prop := f = 0 ∨ f = 4

/-- **C100** (what is returned): the two phases of the last iteration with their own flags, in one of the two orders, and
its error. -/
theorem c100_pairs (r : Out K) :
    finish r = ⟨r.x, r.flagl, r.y, r.flagv, r.err⟩ ∨ finish r = ⟨r.y, r.flagv, r.x, r.flagl, r.err⟩ := by
  unfold finish
  split
  · exact .inr rfl
  · exact .inl rfl

/-- **C100** (labels): unless both phases are vapours or both are liquids, the phase called liquid is not a vapour
and the phase called vapour is not a liquid. -/
theorem c100_labels (r : Out K) (hv : ¬ (IsVapor r.flagl ∧ IsVapor r.flagv)) (hl : ¬ (r.flagl = 1 ∧ r.flagv = 1)) :
    ¬ IsVapor (finish r).flagl ∧ (finish r).flagv ≠ 1 := by
  unfold IsVapor at *
  unfold finish switch
  by_cases h1 : r.flagl = 0 ∨ r.flagl = 4
  · have h2 : ¬ (r.flagv = 0 ∨ r.flagv = 4) := fun h => hv ⟨h1, h⟩
    have h3 : ¬ r.flagl = 1 := by omega
    have h4 : (r.flagl = 0 ∨ r.flagl = 4 ∨ r.flagv = 1) := by omega
    have h5 : ¬ (r.flagl = 1 ∨ r.flagv = 0 ∨ r.flagv = 4) := by omega
    simp only [h4, h5, if_true, if_false]
    omega
  · by_cases h2 : r.flagv = 1
    · have h3 : ¬ r.flagl = 1 := fun h => hl ⟨h, h2⟩
      have h4 : (r.flagl = 0 ∨ r.flagl = 4 ∨ r.flagv = 1) := by omega
      have h5 : ¬ (r.flagl = 1 ∨ r.flagv = 0 ∨ r.flagv = 4) := by omega
      simp only [h4, h5, if_true, if_false]
      omega
    · have h4 : ¬ (r.flagl = 0 ∨ r.flagl = 4 ∨ r.flagv = 1) := by omega
      simp only [h4, if_false, Bool.false_eq_true]
      omega

/-- **C100** (no needless exchange): phases that are labelled properly stay as they are. -/
theorem c100_kept (r : Out K) (h1 : ¬ IsVapor r.flagl) (h2 : r.flagv ≠ 1) :
    finish r = ⟨r.x, r.flagl, r.y, r.flagv, r.err⟩ := by
  unfold IsVapor at h1
  have h4 : ¬ (r.flagl = 0 ∨ r.flagl = 4 ∨ r.flagv = 1) := by omega
  simp [finish, switch, h4]

/-- **C100** (ties): two vapours or two liquids are put in the order of the first component, and only then. -/
theorem c100_tie (r : Out K) (h : (IsVapor r.flagl ∧ IsVapor r.flagv) ∨ (r.flagl = 1 ∧ r.flagv = 1)) :
    (finish r).x.1 ≤ (finish r).y.1 ∧ (r.x.1 ≤ r.y.1 → finish r = ⟨r.x, r.flagl, r.y, r.flagv, r.err⟩) := by
  unfold IsVapor at h
  have h4 : (r.flagl = 0 ∨ r.flagl = 4 ∨ r.flagv = 1) := by omega
  have h5 : (r.flagl = 1 ∨ r.flagv = 0 ∨ r.flagv = 4) := by omega
  have hsw : switch r.flagl r.flagv r.x.1 r.y.1 = decide (r.y.1 < r.x.1) := by simp only [switch, h4, h5, if_true]
  unfold finish
  rw [hsw]
  by_cases hlt : r.y.1 < r.x.1
  · simp [hlt, hlt.le]
  · simp [hlt, not_lt.1 hlt]

/-- A vapour called liquid, two liquids in the wrong order. -/
example : finish (K := ℚ) ⟨(1 / 4, 3 / 4), (1 / 2, 1 / 2), 4, 2, 0, (1, 1), (1, 1)⟩ = ⟨(1 / 2, 1 / 2), 2, (1 / 4, 3 / 4), 4, 0⟩ ∧
    finish (K := ℚ) ⟨(1 / 2, 1 / 2), (1 / 4, 3 / 4), 1, 1, 0, (1, 1), (1, 1)⟩ = ⟨(1 / 4, 3 / 4), 1, (1 / 2, 1 / 2), 1, 0⟩ := by
  decide +kernel

/-- Positive K-values, with the smaller one second. -/
example : relChange (K := ℚ) (3, 1 / 4) (2, 1 / 2) = .ok (1 / 2) := by decide +kernel

end Verif.Props
