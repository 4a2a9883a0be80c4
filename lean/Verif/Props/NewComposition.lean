import Mathlib.Algebra.Order.Field.Basic
import Mathlib.Data.Rat.Defs
import Mathlib.Algebra.Order.Ring.Rat
import Mathlib.Data.List.Nodup
import Mathlib.Tactic.Linarith
import Mathlib.Tactic.Positivity
import Mathlib.Tactic.FieldSimp
import Mathlib.Tactic.Ring
import Verif.Model.NewComposition
import Verif.Props.Composition

/-!
# C96, C97: new guesses for the composition of a binary phase
-/

set_option linter.unusedSectionVars false

namespace Verif.Props
open Verif Verif.NewComposition

variable {K : Type} [Field K] [LinearOrder K] [IsStrictOrderedRing K]

/-- Objective and flag belong to the bound. -/
def EndOk (obj : Obj K) (e : End K) : Prop := obj e.b = .ok (e.obj, e.flag)

/-- `v` lies between `a` and `b`. -/
def Between (v a b : K) : Prop := min a b ≤ v ∧ v ≤ max a b

theorem between_mid (a b : K) : Between ((a + b) / 2) a b := by
  rcases le_total a b with h | h
  · exact ⟨by rw [min_eq_left h]; linarith, by rw [max_eq_right h]; linarith⟩
  · exact ⟨by rw [min_eq_right h]; linarith, by rw [max_eq_left h]; linarith⟩

theorem between_trans {v a b c d : K} (h : Between v a b) (ha : Between a c d) (hb : Between b c d) :
    Between v c d :=
  ⟨le_trans (le_min ha.1 hb.1) h.1, le_trans h.2 (max_le ha.2 hb.2)⟩

theorem between_left (a b : K) : Between a a b := ⟨min_le_left _ _, le_max_left _ _⟩
theorem between_right (a b : K) : Between b a b := ⟨min_le_right _ _, le_max_right _ _⟩

theorem bisect_spec (obj : Obj K) (tol : K) (e0 e1 m e0' e1' : End K) (high high' : Bool)
    (hm : m.b = (e0.b + e1.b) / 2) (h0 : EndOk obj e0) (h1 : EndOk obj e1) (hmo : EndOk obj m)
    (h : bisect tol e0 e1 high m = .ok (e0', e1', high')) :
    EndOk obj e0' ∧ EndOk obj e1' ∧ Between e0'.b e0.b e1.b ∧ Between e1'.b e0.b e1.b ∧
      |e1'.b - e0'.b| = |e1.b - e0.b| / 2 := by
  have hb : Between m.b e0.b e1.b := by rw [hm]; exact between_mid _ _
  have w1 : |m.b - e0.b| = |e1.b - e0.b| / 2 := by
    rw [hm, show (e0.b + e1.b) / 2 - e0.b = (e1.b - e0.b) / 2 by ring, abs_div, abs_two]
  have w2 : |e1.b - m.b| = |e1.b - e0.b| / 2 := by
    rw [hm, show e1.b - (e0.b + e1.b) / 2 = (e1.b - e0.b) / 2 by ring, abs_div, abs_two]
  have w3 : |m.b - e1.b| = |e1.b - e0.b| / 2 := by rw [abs_sub_comm, w2]
  unfold bisect at h
  repeat' split at h
  all_goals first
    | cases h; done
    | (injection h with h; injection h with h2 h; injection h with h3 h4; subst h2 h3
       exact ⟨by assumption, by assumption, by first | exact hb | exact between_left _ _ | exact between_right _ _,
         by first | exact hb | exact between_left _ _ | exact between_right _ _, by assumption⟩)

theorem bracketLoop_spec (obj : Obj K) (tol : K) : ∀ (n : ℕ) (e0 e1 : End K) (high : Bool) (r0 r1 : End K),
    EndOk obj e0 → EndOk obj e1 → bracketLoop obj tol n e0 e1 high = .ok (r0, r1) →
    EndOk obj r0 ∧ EndOk obj r1 ∧ Between r0.b e0.b e1.b ∧ Between r1.b e0.b e1.b ∧
      (|r1.b - r0.b| < tol ∨ |r1.b - r0.b| = |e1.b - e0.b| / 2 ^ n)
  | 0, e0, e1, high, r0, r1, h0, h1, h => by
    simp only [bracketLoop] at h
    injection h with h
    injection h with h2 h3
    subst h2 h3
    exact ⟨h0, h1, between_left _ _, between_right _ _, Or.inr (by simp)⟩
  | n + 1, e0, e1, high, r0, r1, h0, h1, h => by
    simp only [bracketLoop, bind, Except.bind] at h
    cases ho : obj ((e0.b + e1.b) / 2) with
    | error e => simp only [ho] at h; cases h
    | ok p =>
      obtain ⟨o, f⟩ := p
      simp only [ho] at h
      cases hbs : bisect tol e0 e1 high ⟨(e0.b + e1.b) / 2, o, f⟩ with
      | error e => simp only [hbs] at h; cases h
      | ok q =>
        obtain ⟨e0', e1', high'⟩ := q
        simp only [hbs] at h
        obtain ⟨g0, g1, g2, g3, g4⟩ := bisect_spec obj tol e0 e1 ⟨(e0.b + e1.b) / 2, o, f⟩ e0' e1' high high' rfl h0 h1 ho hbs
        split at h
        · rename_i hlt
          injection h with h
          injection h with h2 h3
          subst h2 h3
          exact ⟨g0, g1, g2, g3, Or.inl hlt⟩
        · obtain ⟨k0, k1, k2, k3, k4⟩ := bracketLoop_spec obj tol n e0' e1' high' r0 r1 g0 g1 h
          refine ⟨k0, k1, between_trans k2 g2 g3, between_trans k3 g2 g3, ?_⟩
          rcases k4 with k4 | k4
          · exact Or.inl k4
          · right
            rw [k4, g4, pow_succ]
            field_simp

/-- No vapour has an objective above the threshold `1 / tol`. -/
def Tame (obj : Obj K) (tol : K) : Prop := ∀ y o, obj y = .ok (some o, 0) → o ≤ 1 / tol

theorem bracketLoop_flags (obj : Obj K) (tol : K) (ht : Tame obj tol) : ∀ (n : ℕ) (e0 e1 r0 r1 : End K),
    bracketLoop obj tol n e0 e1 false = .ok (r0, r1) → r0.flag = e0.flag ∧ r1.flag = e1.flag
  | 0, e0, e1, r0, r1, h => by
    simp only [bracketLoop] at h
    injection h with h
    injection h with h2 h3
    subst h2 h3
    exact ⟨rfl, rfl⟩
  | n + 1, e0, e1, r0, r1, h => by
    simp only [bracketLoop, bind, Except.bind] at h
    cases ho : obj ((e0.b + e1.b) / 2) with
    | error e => simp only [ho] at h; cases h
    | ok p =>
      obtain ⟨o, f⟩ := p
      simp only [ho] at h
      have hno : ¬ (f = 0 ∧ ltO (some (1 / tol)) o = true) := by
        rintro ⟨rfl, hlt⟩
        cases o with
        | none => simp [ltO] at hlt
        | some v =>
          have := ht _ v ho
          simp only [ltO, decide_eq_true_eq] at hlt
          exact absurd hlt (not_lt.mpr this)
      cases hbs : bisect tol e0 e1 false ⟨(e0.b + e1.b) / 2, o, f⟩ with
      | error e => simp only [hbs] at h; cases h
      | ok q =>
        obtain ⟨e0', e1', high'⟩ := q
        simp only [hbs] at h
        have hq : e0'.flag = e0.flag ∧ e1'.flag = e1.flag ∧ high' = false := by
          simp only [bisect, Bool.not_false, if_true, if_neg hno] at hbs
          split at hbs
          · rename_i he
            injection hbs with hbs
            injection hbs with h2 hbs
            injection hbs with h3 h4
            subst h2 h3
            exact ⟨he.symm, rfl, h4.symm⟩
          · split at hbs
            · rename_i he
              injection hbs with hbs
              injection hbs with h2 hbs
              injection hbs with h3 h4
              subst h2 h3
              exact ⟨rfl, he.symm, h4.symm⟩
            · cases hbs
        obtain ⟨q0, q1, q2⟩ := hq
        subst q2
        split at h
        · injection h with h
          injection h with h2 h3
          subst h2 h3
          exact ⟨q0, q1⟩
        · obtain ⟨k0, k1⟩ := bracketLoop_flags obj tol ht n e0' e1' r0 r1 h
          exact ⟨k0.trans q0, k1.trans q1⟩

theorem chooseEnd_spec (e0 e1 e : End K) (h : chooseEnd e0 e1 = .ok e) : e = e0 ∨ e = e1 := by
  unfold chooseEnd at h
  repeat' split at h
  all_goals first
    | cases h; done
    | (injection h with h; subst h; first | exact Or.inl rfl | exact Or.inr rfl)

/-- The vapour end is returned when only one end is a vapour, otherwise the end with the smaller objective. -/
theorem c96_choice (e0 e1 : End K) :
    (e0.flag = 0 → e1.flag ≠ 0 → chooseEnd e0 e1 = .ok e0) ∧
    (e0.flag ≠ 0 → e1.flag = 0 → chooseEnd e0 e1 = .ok e1) ∧
    ((e0.flag = 0 ↔ e1.flag = 0) → ∀ a b, e0.obj = some a → e1.obj = some b →
      ∃ e o, chooseEnd e0 e1 = .ok e ∧ (e = e0 ∨ e = e1) ∧ e.obj = some o ∧ o ≤ a ∧ o ≤ b) := by
  refine ⟨fun h0 h1 => by simp [chooseEnd, h0, h1], fun h0 h1 => by simp [chooseEnd, h0, h1], ?_⟩
  intro h a b ha hb
  have n1 : ¬ (e0.flag = 0 ∧ e1.flag ≠ 0) := fun k => k.2 (h.1 k.1)
  have n2 : ¬ (e0.flag ≠ 0 ∧ e1.flag = 0) := fun k => k.1 (h.2 k.2)
  simp only [chooseEnd, n1, n2, if_false, ha, hb]
  by_cases hab : a ≤ b
  · exact ⟨e0, a, by simp [hab], Or.inl rfl, ha, le_refl _, hab⟩
  · exact ⟨e1, b, by simp [hab], Or.inr rfl, hb, (not_le.1 hab).le, le_refl _⟩

example : chooseEnd (⟨1, some 3, 1⟩ : End ℚ) ⟨2, some 2, 1⟩ = .ok ⟨2, some 2, 1⟩ := by
  simp only [chooseEnd]; norm_num

/-- **C96** (every result). The composition found between two mole fractions lies between them, its fractions add up
to one, and the flag is its own. -/
theorem c96_bracket (obj : Obj K) (b0 b1 tol : K) (maxiter : ℕ) (y : List K) (f : ℕ)
    (h : bracket obj b0 b1 tol maxiter = .ok (y, f)) :
    ∃ v o, y = [v, 1 - v] ∧ y.sum = 1 ∧ Between v b0 b1 ∧ obj v = .ok (o, f) := by
  simp only [bracket, bind, Except.bind] at h
  cases h0 : obj b0 with
  | error e => simp only [h0] at h; cases h
  | ok p0 =>
    obtain ⟨o0, f0⟩ := p0
    simp only [h0] at h
    cases h1 : obj b1 with
    | error e => simp only [h1] at h; cases h
    | ok p1 =>
      obtain ⟨o1, f1⟩ := p1
      simp only [h1] at h
      split at h
      · injection h with h
        injection h with h2 h3
        subst h2 h3
        exact ⟨b1, o1, rfl, by simp, between_right _ _, h1⟩
      · cases hl : bracketLoop obj tol maxiter ⟨b0, o0, f0⟩ ⟨b1, o1, f1⟩ false with
        | error e => simp only [hl] at h; cases h
        | ok q =>
          obtain ⟨e0, e1⟩ := q
          simp only [hl] at h
          obtain ⟨g0, g1, g2, g3, _⟩ := bracketLoop_spec obj tol maxiter ⟨b0, o0, f0⟩ ⟨b1, o1, f1⟩ false e0 e1 h0 h1 hl
          cases hc : chooseEnd e0 e1 with
          | error e => simp only [hc] at h; cases h
          | ok e =>
            simp only [hc] at h
            split at h
            · cases h
            · injection h with h
              injection h with h2 h3
              subst h2 h3
              rcases chooseEnd_spec _ _ _ hc with rfl | rfl
              · exact ⟨e.b, e.obj, rfl, by simp, g2, g0⟩
              · exact ⟨e.b, e.obj, rfl, by simp, g3, g1⟩

/-- **C96** (the end of the vapour). If one of the mole fractions gives a vapour and the other does not, the result is
a vapour, and within the tolerance of it there is a mole fraction with the flag of the other; provided the objective of
vapours stays below the inverse tolerance and the iterations suffice. -/
theorem c96_boundary_partial (obj : Obj K) (b0 b1 tol : K) (maxiter : ℕ) (y : List K) (f f0 f1 : ℕ) (o0 o1 : Option K)
    (h : bracket obj b0 b1 tol maxiter = .ok (y, f)) (ht : Tame obj tol)
    (h0 : obj b0 = .ok (o0, f0)) (h1 : obj b1 = .ok (o1, f1)) (hf : f0 = 0 ∧ f1 ≠ 0 ∨ f0 ≠ 0 ∧ f1 = 0)
    (hw : |b1 - b0| < tol * 2 ^ maxiter) :
    f = 0 ∧ ∃ v w o o', y = [v, 1 - v] ∧ obj v = .ok (o, 0) ∧ obj w = .ok (o', f0 + f1) ∧ Between v b0 b1 ∧
      Between w b0 b1 ∧ |v - w| < tol := by
  have hne : f0 ≠ f1 := by omega
  simp only [bracket, bind, Except.bind, h0, h1, if_neg hne] at h
  cases hl : bracketLoop obj tol maxiter ⟨b0, o0, f0⟩ ⟨b1, o1, f1⟩ false with
  | error e => simp only [hl] at h; cases h
  | ok q =>
    obtain ⟨e0, e1⟩ := q
    simp only [hl] at h
    obtain ⟨g0, g1, g2, g3, g4⟩ := bracketLoop_spec obj tol maxiter ⟨b0, o0, f0⟩ ⟨b1, o1, f1⟩ false e0 e1 h0 h1 hl
    obtain ⟨k0, k1⟩ := bracketLoop_flags obj tol ht maxiter _ _ e0 e1 hl
    simp only at k0 k1 g2 g3 g4
    have hlt : |e1.b - e0.b| < tol := by
      rcases g4 with g4 | g4
      · exact g4
      · rw [g4, div_lt_iff₀ (by positivity)]; exact hw
    cases hc : chooseEnd e0 e1 with
    | error e => simp only [hc] at h; cases h
    | ok e =>
      simp only [hc] at h
      split at h
      · cases h
      · injection h with h
        injection h with h2 h3
        subst h2 h3
        unfold EndOk at g0 g1
        rcases hf with ⟨hf0, hf1⟩ | ⟨hf0, hf1⟩
        · have he : e = e0 := by
            rw [chooseEnd, if_pos ⟨by rw [k0, hf0], by rw [k1]; exact hf1⟩] at hc
            injection hc with hc
            exact hc.symm
          subst he
          refine ⟨by rw [k0, hf0], e.b, e1.b, e.obj, e1.obj, rfl, ?_, ?_, g2, g3, by rw [abs_sub_comm]; exact hlt⟩
          · rw [g0, k0, hf0]
          · rw [g1, k1, hf0, Nat.zero_add]
        · have he : e = e1 := by
            rw [chooseEnd, if_neg (by rw [k0]; exact fun hh => hf0 hh.1),
              if_pos ⟨by rw [k0]; exact hf0, by rw [k1, hf1]⟩] at hc
            injection hc with hc
            exact hc.symm
          subst he
          refine ⟨by rw [k1, hf1], e.b, e0.b, e.obj, e0.obj, rfl, ?_, ?_, g3, g2, hlt⟩
          · rw [g1, k1, hf1]
          · rw [g0, k0, hf1, Nat.add_zero]

/-- A fluid that is a vapour below the mole fraction `1/3` and a liquid above. -/
def stepObj : Obj ℚ := fun y => .ok (some 1, if y < 1/3 then 0 else 1)

/-- The boundary is found from below. -/
example : bracket stepObj (1/100) (99/100) (1/100) 50 = .ok ([1061/3200, 1 - 1061/3200], 0) ∧
    (1/3 - 1/100 : ℚ) < 1061/3200 ∧ (1061/3200 : ℚ) < 1/3 := by decide +kernel

example : Tame stepObj (1/100) := by
  intro y o h
  simp only [stepObj, Except.ok.injEq, Prod.mk.injEq, Option.some.injEq] at h
  rw [← h.1]; norm_num

/-- **C96, violated.** A third kind of fluid between a vapour and a liquid, such as a critical one, ends the search with
`IndexError`. -/
theorem c96_violated_third_flag :
    bracket (fun (y : ℚ) => .ok (some 1, if y < 1/3 then 0 else if y < 2/3 then 2 else 1)) (1/100) (99/100) (1/100) 50 =
      .error .indexError := by decide +kernel

/-- **C96, violated.** Two mole fractions of the same kind give the upper one, here a liquid, although there is a vapour
between them. -/
theorem c96_violated_same_flag :
    bracket (fun (y : ℚ) => .ok (some 1, if 1/3 < y ∧ y < 2/3 then 0 else 1)) (1/100) (99/100) (1/100) 50 =
      .ok ([99/100, 1 - 99/100], 1) := by decide +kernel

/-- **C96, violated.** Once a vapour had a large objective the flags are no longer looked at: a liquid is returned
although one of the two mole fractions is a vapour. -/
theorem c96_violated_high_objective :
    ∃ v, bracket (fun (y : ℚ) => if y < 1/4 then .ok (some 50, 0) else if y < 3/10 then .ok (some 1, 1)
        else if y < 3/4 then .ok (some 1000, 0) else .ok (some 1, 1)) (1/100) (99/100) (1/100) 50 = .ok ([v, 1 - v], 1) ∧
      1/4 ≤ v ∧ v < 3/10 := by
  exact ⟨51/200, by decide +kernel, by norm_num, by norm_num⟩

theorem argmin_fold {α : Type} (f : α → K) : ∀ (r : List α) (a : α),
    (r.foldl (fun m x => if f x < f m then x else m) a ∈ a :: r) ∧
      ∀ x ∈ a :: r, f (r.foldl (fun m x => if f x < f m then x else m) a) ≤ f x
  | [], a => by simp
  | b :: r, a => by
    simp only [List.foldl_cons]
    obtain ⟨h1, h2⟩ := argmin_fold f r (if f b < f a then b else a)
    split at h1
    · rename_i hlt
      simp only [if_pos hlt] at h2 ⊢
      refine ⟨List.mem_cons_of_mem _ h1, ?_⟩
      intro x hx
      rcases List.mem_cons.mp hx with rfl | hx
      · exact le_trans (h2 b (by simp)) hlt.le
      · exact h2 x hx
    · rename_i hlt
      simp only [if_neg hlt] at h2 ⊢
      refine ⟨?_, ?_⟩
      · rcases List.mem_cons.mp h1 with h1 | h1
        · rw [h1]; simp
        · exact List.mem_cons_of_mem _ (List.mem_cons_of_mem _ h1)
      · intro x hx
        rcases List.mem_cons.mp hx with rfl | hx
        · exact h2 x (by simp)
        · rcases List.mem_cons.mp hx with rfl | hx
          · exact le_trans (h2 a (by simp)) (not_lt.mp hlt)
          · exact h2 x (List.mem_cons_of_mem _ hx)

theorem argmin_spec {α : Type} (f : α → K) (l : List α) (a : α) (h : argmin f l = some a) :
    a ∈ l ∧ ∀ x ∈ l, f a ≤ f x := by
  cases l with
  | nil => simp [argmin] at h
  | cons b r =>
    simp only [argmin, Option.some.injEq] at h
    rw [← h]
    exact argmin_fold f r b

theorem foldl_min_spec : ∀ (r : List K) (a : K), r.foldl min a ∈ a :: r ∧ ∀ x ∈ a :: r, r.foldl min a ≤ x
  | [], a => by simp
  | b :: r, a => by
    simp only [List.foldl_cons]
    obtain ⟨h1, h2⟩ := foldl_min_spec r (min a b)
    refine ⟨?_, ?_⟩
    · rcases List.mem_cons.mp h1 with h1 | h1
      · rw [h1]
        rcases min_choice a b with h | h <;> rw [h] <;> simp
      · exact List.mem_cons_of_mem _ (List.mem_cons_of_mem _ h1)
    · intro x hx
      have hm := h2 (min a b) (by simp)
      rcases List.mem_cons.mp hx with rfl | hx
      · exact le_trans hm (min_le_left _ _)
      · rcases List.mem_cons.mp hx with rfl | hx
        · exact le_trans hm (min_le_right _ _)
        · exact h2 x (List.mem_cons_of_mem _ hx)

theorem minL_spec (l : List K) (m : K) (h : minL l = some m) : m ∈ l ∧ ∀ x ∈ l, m ≤ x := by
  cases l with
  | nil => simp [minL] at h
  | cons a r =>
    simp only [minL, Option.some.injEq] at h
    rw [← h]
    exact foldl_min_spec r a

/-- Dropping the smallest value removes one entry, which has the smallest value. -/
theorem dropArgmin_spec (f : K → K) (l : List K) (hl : l ≠ []) (hd : l.Nodup) :
    ∃ n ∈ l, (∀ x ∈ l, f n ≤ f x) ∧ ∀ x, x ∈ dropArgmin f l ↔ x ∈ l ∧ x ≠ n := by
  unfold dropArgmin
  cases hm : minL (l.map f) with
  | none =>
    cases l with
    | nil => exact absurd rfl hl
    | cons a r => simp [minL] at hm
  | some m =>
    obtain ⟨h1, h2⟩ := minL_spec _ _ hm
    obtain ⟨n0, hn0, hn0'⟩ := List.mem_map.mp h1
    have hlt : l.findIdx (fun x => decide (f x = m)) < l.length :=
      List.findIdx_lt_length_of_exists ⟨n0, hn0, by simpa using hn0'⟩
    have hget := List.findIdx_getElem (w := hlt)
    simp only [decide_eq_true_eq] at hget
    refine ⟨l[l.findIdx fun x => decide (f x = m)], List.getElem_mem _, ?_, ?_⟩
    · intro x hx
      rw [hget]
      exact h2 _ (List.mem_map_of_mem hx)
    · intro x
      simp only
      rw [← hd.erase_getElem _ hlt]
      rw [hd.mem_erase_iff]
      exact and_comm

/-- The values of the objective on the grid. -/
theorem valid_spec (obj : Obj K) : ∀ (grid : List K) (g : List (K × K)), valid obj grid = .ok g →
    ∀ p, p ∈ g ↔ p.1 ∈ grid ∧ ∃ f, obj p.1 = .ok (some p.2, f)
  | [], g, h, p => by
    simp only [valid, Except.ok.injEq] at h
    subst h
    simp
  | y :: r, g, h, p => by
    simp only [valid, bind, Except.bind] at h
    cases ho : obj y with
    | error e => simp only [ho] at h; cases h
    | ok q =>
      obtain ⟨o, f⟩ := q
      simp only [ho] at h
      cases ht : valid obj r with
      | error e => simp only [ht] at h; cases h
      | ok t =>
        simp only [ht] at h
        have ih := valid_spec obj r t ht p
        cases o with
        | none =>
          simp only [Except.ok.injEq] at h
          subst h
          rw [ih]
          constructor
          · rintro ⟨h1, h2⟩; exact ⟨List.mem_cons_of_mem _ h1, h2⟩
          · rintro ⟨h1, f', h2⟩
            rcases List.mem_cons.mp h1 with h1 | h1
            · rw [h1, ho] at h2; simp at h2
            · exact ⟨h1, f', h2⟩
        | some v =>
          simp only [Except.ok.injEq] at h
          subst h
          rw [List.mem_cons, ih]
          constructor
          · rintro (rfl | ⟨h1, h2⟩)
            · exact ⟨by simp, f, ho⟩
            · exact ⟨List.mem_cons_of_mem _ h1, h2⟩
          · rintro ⟨h1, f', h2⟩
            rcases List.mem_cons.mp h1 with h1 | h1
            · left
              rw [h1, ho] at h2
              simp only [Except.ok.injEq, Prod.mk.injEq, Option.some.injEq] at h2
              exact Prod.ext h1 h2.1.symm
            · exact Or.inr ⟨h1, f', h2⟩

/-- Not a number is the result exactly when no grid point has a value. -/
theorem c97_none_iff (vap : Bool) (obj : Obj K) (grid : List K) (spline : List (K × K) → Spline K) (feed : K)
    (hok : ∀ y ∈ grid, ∃ o f, obj y = .ok (o, f)) :
    findNew vap obj grid spline feed = .ok none ↔ ∀ y ∈ grid, ∃ f, obj y = .ok (none, f) := by
  obtain ⟨g, hg⟩ : ∃ g, valid obj grid = .ok g := by
    clear spline
    induction grid with
    | nil => exact ⟨[], rfl⟩
    | cons y r ih =>
      obtain ⟨t, ht⟩ := ih fun z hz => hok z (List.mem_cons_of_mem _ hz)
      obtain ⟨o, f, ho⟩ := hok y (by simp)
      simp only [valid, bind, Except.bind, ho, ht]
      cases o <;> simp
  have hv := valid_spec obj grid g hg
  simp only [findNew, bind, Except.bind, hg]
  constructor
  · intro h y hy
    obtain ⟨o, f, ho⟩ := hok y hy
    cases o with
    | none => exact ⟨f, ho⟩
    | some v =>
      exfalso
      have hmem : (y, v) ∈ g := (hv (y, v)).mpr ⟨hy, f, ho⟩
      cases g with
      | nil => simp at hmem
      | cons p t =>
        cases t with
        | nil => simp at h
        | cons q t =>
          simp only at h
          split at h
          · cases h
          · split at h
            · simp at h
            · split at h <;> simp at h
  · intro h
    cases g with
    | nil => rfl
    | cons p t =>
      exfalso
      obtain ⟨h1, f, h2⟩ := (hv p).mp (by simp)
      obtain ⟨f', h3⟩ := h p.1 h1
      rw [h3] at h2
      simp at h2

theorem minima_mem (S : Spline K) (g : List (K × K)) (v : K) (h : v ∈ minima S g) :
    (v ∈ S.roots ∧ 0 < S.curv v) ∨ ∃ w, (v, w) ∈ g := by
  unfold minima at h
  simp only [List.mem_append] at h
  rcases h with (h | h) | h
  · right
    split at h
    · rename_i y w _ _ t
      split at h
      · rw [List.mem_singleton] at h
        exact ⟨w, by rw [h]; simp⟩
      · cases h
    · cases h
  · left
    rw [List.mem_filter] at h
    exact ⟨h.1, by simpa using h.2⟩
  · right
    split at h
    · rename_i y w _ _ t hr
      split at h
      · rw [List.mem_singleton] at h
        refine ⟨w, ?_⟩
        rw [← List.mem_reverse, hr, h]
        simp
      · cases h
    · cases h

/-- Evaluation of the remaining candidates. -/
theorem evals_spec (obj : Obj K) : ∀ (l : List K) (e : List (K × K × ℕ)),
    l.mapM (evalAt obj) = .ok e →
    e.map (·.1) = l ∧ ∀ p ∈ e, obj p.1 = .ok (some p.2.1, p.2.2)
  | [], e, h => by
    simp only [List.mapM_nil, pure, Except.pure, Except.ok.injEq] at h
    subst h
    simp
  | y :: r, e, h => by
    simp only [List.mapM_cons, bind, Except.bind, pure, Except.pure, evalAt] at h
    cases ho : obj y with
    | error e => simp only [ho] at h; cases h
    | ok q =>
      obtain ⟨o, f⟩ := q
      simp only [ho] at h
      cases o with
      | none => simp only at h; cases h
      | some v =>
        simp only at h
        split at h
        · cases h
        · rename_i t ht
          injection h with h
          subst h
          obtain ⟨h1, h2⟩ := evals_spec obj r t (by simpa only [evalAt, bind, Except.bind] using ht)
          refine ⟨by simp [h1], ?_⟩
          intro p hp
          rcases List.mem_cons.mp hp with rfl | hp
          · exact ho
          · exact h2 p hp

/-- The choice among several candidates for a vapour: the lowest objective among those that are not liquids. -/
theorem notLiquid_spec (obj : Obj K) (l r : List K) (h : notLiquid obj l = .ok r) :
    (∀ v ∈ r, v ∈ l) ∧ (r = [] → l = []) ∧
    (1 < l.length → ∃ v o f, r = [v] ∧ obj v = .ok (some o, f) ∧
      (f = 1 → ∀ w ∈ l, ∃ o', obj w = .ok (some o', 1)) ∧
      ∀ w ∈ l, ∀ o' f', obj w = .ok (some o', f') → (f' ≠ 1 ∨ f = 1) → o ≤ o') := by
  unfold notLiquid at h
  split at h
  · rename_i hlen
    simp only [bind, Except.bind] at h
    split at h
    · cases h
    · rename_i e he
      obtain ⟨h1, h2⟩ := evals_spec obj l e he
      split at h
      · cases h
      · rename_i p hp
        injection h with h
        subst h
        obtain ⟨a1, a2⟩ := argmin_spec _ _ _ hp
        have hpe : p ∈ e := by
          split at a1
          · exact a1
          · exact (List.mem_filter.mp a1).1
        have hpl : p.1 ∈ l := by rw [← h1]; exact List.mem_map_of_mem hpe
        refine ⟨by simpa using hpl, by simp, ?_⟩
        intro _
        refine ⟨p.1, p.2.1, p.2.2, rfl, h2 p hpe, ?_, ?_⟩
        · intro hf w hw
          rw [← h1] at hw
          obtain ⟨q, hq, rfl⟩ := List.mem_map.mp hw
          refine ⟨q.2.1, ?_⟩
          have hall : (e.filter fun p => decide (p.2.2 ≠ 1)).isEmpty = true := by
            by_contra hne
            rw [if_neg hne] at a1
            have := (List.mem_filter.mp a1).2
            simp [hf] at this
          rw [List.isEmpty_iff, List.filter_eq_nil_iff] at hall
          have := hall q hq
          simp only [ne_eq, decide_not, Bool.not_eq_true', decide_eq_false_iff_not, not_not] at this
          rw [h2 q hq, this]
        · intro w hw o' f' ho hcase
          rw [← h1] at hw
          obtain ⟨q, hq, rfl⟩ := List.mem_map.mp hw
          rw [h2 q hq] at ho
          simp only [Except.ok.injEq, Prod.mk.injEq, Option.some.injEq] at ho
          rw [← ho.1]
          apply a2
          split
          · exact hq
          · rename_i hne
            rw [if_neg hne] at a1
            have hp1 := (List.mem_filter.mp a1).2
            rw [List.mem_filter]
            refine ⟨hq, ?_⟩
            rcases hcase with hcase | hcase
            · rw [ho.2]; simpa using hcase
            · simp [hcase] at hp1
  · rename_i hlen
    injection h with h
    subst h
    exact ⟨fun v hv => hv, fun h => h, fun hc => absurd hc hlen⟩

/-- **C97** (what a new guess is). A new guess `v` has fractions that add up to one, and (a) is a stationary point of the
spline, or a grid point with a value of the objective; (b) with several stationary points it is a minimum and not the one nearest
to the other phase, or there is only that one and `v` has the lowest value on the grid; (c) for a
vapour it is not a liquid if another remaining minimum is not, and then has the lowest objective of these. -/
theorem c97_guess (vap : Bool) (obj : Obj K) (grid : List K) (spline : List (K × K) → Spline K) (feed : K) (y : List K)
    (hfeed : 0 < feed) (h : findNew vap obj grid spline feed = .ok (some y))
    (hnd : ∀ g, valid obj grid = .ok g → (minima (spline g) g).Nodup) :
    ∃ g v, valid obj grid = .ok g ∧ y = [v, 1 - v] ∧ y.sum = 1 ∧ (v ∈ (spline g).roots ∨ v ∈ grid) ∧
      ((spline g).roots = [] → ∃ w, (v, w) ∈ g ∧ ∀ p ∈ g, |w| ≤ |p.2|) ∧
      (1 < (spline g).roots.length → ∃ n ∈ minima (spline g) g,
        (∀ m ∈ minima (spline g) g, |n - feed| ≤ |m - feed|) ∧
        ((v ∈ minima (spline g) g ∧ v ≠ n) ∨
          minima (spline g) g = [n] ∧ ∃ w, (v, w) ∈ g ∧ ∀ p ∈ g, |w| ≤ |p.2|) ∧
        (vap = true → 2 < (minima (spline g) g).length → ∃ o f, obj v = .ok (some o, f) ∧
          ∀ m ∈ minima (spline g) g, m ≠ n → ∀ o' f', obj m = .ok (some o', f') →
            (f' ≠ 1 → f ≠ 1 ∧ o ≤ o') ∧ (f = 1 → o ≤ o'))) := by
  simp only [findNew, bind, Except.bind] at h
  cases hg : valid obj grid with
  | error e => simp only [hg] at h; cases h
  | ok g =>
    simp only [hg] at h
    have hv := valid_spec obj grid g hg
    have hgrid : ∀ v w, (v, w) ∈ g → v ∈ grid := fun v w hm => ((hv (v, w)).mp hm).1
    obtain ⟨p0, p1, t, hgt⟩ : ∃ p0 p1 t, g = p0 :: p1 :: t := by
      cases g with
      | nil => simp at h
      | cons a s =>
        cases s with
        | nil => simp at h
        | cons b s => exact ⟨a, b, s, rfl⟩
    have hdist : ∀ a b : K, |a - feed| / feed ≤ |b - feed| / feed → |a - feed| ≤ |b - feed| := fun a b hab =>
      (div_le_div_iff_of_pos_right hfeed).mp hab
    refine ⟨g, ?_⟩
    simp only [hgt] at h
    rw [← hgt] at h
    split at h
    · cases h
    · rename_i mins hmins
      by_cases hlen : 1 < (spline g).roots.length
      · rw [if_pos hlen] at hmins
        split at hmins
        · cases hmins
        · rename_i hne
          obtain ⟨n, hn, hnmin, hrest⟩ := dropArgmin_spec (fun y => |y - feed| / feed) _ hne (hnd g hg)
          have hmr : (∀ v ∈ mins, v ∈ dropArgmin (fun y => |y - feed| / feed) (minima (spline g) g)) ∧
              (mins = [] → dropArgmin (fun y => |y - feed| / feed) (minima (spline g) g) = []) := by
            split at hmins
            · exact ⟨(notLiquid_spec _ _ _ hmins).1, (notLiquid_spec _ _ _ hmins).2.1⟩
            · injection hmins with hmins
              subst hmins
              exact ⟨fun v hv => hv, fun h => h⟩
          cases mins with
          | nil =>
            simp only at h
            split at h
            · cases h
            · rename_i p hp
              injection h with h
              injection h with h
              subst h
              obtain ⟨a1, a2⟩ := argmin_spec _ _ _ hp
              have hd := hmr.2 rfl
              have hone : minima (spline g) g = [n] := by
                have hall : ∀ x ∈ minima (spline g) g, x = n := by
                  intro x hx
                  by_contra hxn
                  have := (hrest x).mpr ⟨hx, hxn⟩
                  rw [hd] at this
                  cases this
                cases hms : minima (spline g) g with
                | nil => rw [hms] at hn; cases hn
                | cons a s =>
                  rw [hms] at hall
                  have ha := hall a (by simp)
                  cases s with
                  | nil => rw [ha]
                  | cons b s =>
                    have hb := hall b (by simp)
                    have := hnd g hg
                    rw [hms, ha, hb] at this
                    simp at this
              refine ⟨p.1, rfl, rfl, by simp, Or.inr (hgrid p.1 p.2 a1), fun hr => by simp [hr] at hlen, ?_⟩
              intro _
              refine ⟨n, hn, fun m hm => hdist _ _ (hnmin m hm), Or.inr ⟨hone, p.2, a1, a2⟩, ?_⟩
              intro _ h2
              rw [hone] at h2
              simp at h2
          | cons v r =>
            simp only at h
            injection h with h
            injection h with h
            subst h
            have hvm := (hrest v).mp (hmr.1 v (by simp))
            refine ⟨v, rfl, rfl, by simp, ?_, fun hr => by simp [hr] at hlen, ?_⟩
            · rcases minima_mem _ _ _ hvm.1 with hm | ⟨w, hm⟩
              · exact Or.inl hm.1
              · exact Or.inr (hgrid v w hm)
            · intro _
              refine ⟨n, hn, fun m hm => hdist _ _ (hnmin m hm), Or.inl hvm, ?_⟩
              intro hvap h2
              rw [if_pos hvap] at hmins
              have hl2 : 1 < (dropArgmin (fun y => |y - feed| / feed) (minima (spline g) g)).length := by
                unfold dropArgmin
                split
                · omega
                · exact lt_of_lt_of_le (by omega) (List.le_length_eraseIdx _ _)
              obtain ⟨v', o, f, e1, e2, e3, e4⟩ := (notLiquid_spec _ _ _ hmins).2.2 hl2
              have hvv : v = v' := by injection e1
              subst hvv
              refine ⟨o, f, e2, ?_⟩
              intro m hm hmn o' f' ho'
              have hmd := (hrest m).mpr ⟨hm, hmn⟩
              refine ⟨fun hf' => ⟨?_, e4 m hmd o' f' ho' (Or.inl hf')⟩, fun hf => e4 m hmd o' f' ho' (Or.inr hf)⟩
              intro hf
              obtain ⟨o'', e5⟩ := e3 hf m hmd
              rw [ho'] at e5
              simp only [Except.ok.injEq, Prod.mk.injEq] at e5
              exact hf' e5.2
      · rw [if_neg hlen] at hmins
        injection hmins with hmins
        cases hmv : mins with
        | nil =>
          rw [hmv] at h
          simp only at h
          split at h
          · cases h
          · rename_i p hp
            injection h with h
            injection h with h
            subst h
            obtain ⟨a1, a2⟩ := argmin_spec _ _ _ hp
            exact ⟨p.1, rfl, rfl, by simp, Or.inr (hgrid p.1 p.2 a1), fun _ => ⟨p.2, a1, a2⟩,
              fun hc => absurd hc hlen⟩
        | cons v r =>
          rw [hmv] at h
          simp only at h
          injection h with h
          injection h with h
          subst h
          rw [hmv] at hmins
          refine ⟨v, rfl, rfl, by simp, Or.inl (by rw [hmins]; simp), fun hr => ?_, fun hc => absurd hc hlen⟩
          rw [hr] at hmins
          cases hmins

/-- A grid, an objective with two minima and its spline. -/
def twoMin : Obj ℚ := fun y => .ok (some (if y = 1/10 then 2 else if y = 3/10 then 1 else if y = 1/2 then 3
  else if y = 7/10 then 1/2 else 4), if y < 1/5 then 1 else 0)

def twoSpline : List (ℚ × ℚ) → Spline ℚ := fun _ => ⟨[3/10, 1/2, 7/10], fun r => if r = 1/2 then -1 else 1⟩

/-- The minimum near the liquid is the trivial solution, the other one is the new guess. -/
example : findNew true twoMin [1/10, 3/10, 1/2, 7/10, 9/10] twoSpline (1/4) = .ok (some [7/10, 1 - 7/10]) ∧
    findNew true twoMin [1/10, 3/10, 1/2, 7/10, 9/10] twoSpline (3/4) = .ok (some [3/10, 1 - 3/10]) := by decide +kernel

example : ∀ g, valid twoMin [1/10, 3/10, 1/2, 7/10, 9/10] = .ok g → (minima (twoSpline g) g).Nodup := by
  intro g hg
  have h : valid twoMin [1/10, 3/10, 1/2, 7/10, 9/10] = .ok [(1/10, 2), (3/10, 1), (1/2, 3), (7/10, 1/2), (9/10, 4)] := by
    decide +kernel
  rw [h] at hg
  injection hg with hg
  subst hg
  decide +kernel

/-- **C97, violated.** A single stationary point is the new guess also when it is the maximum of the objective. -/
theorem c97_violated_maximum :
    findNew true (fun (y : ℚ) => .ok (some (1 - (y - 1/2) ^ 2), 0)) [0, 1/4, 1/2, 3/4, 1] (fun _ => ⟨[1/2], fun _ => -2⟩) (1/4) =
      .ok (some [1/2, 1 - 1/2]) ∧
    ∀ y ∈ [0, 1/4, 3/4, (1 : ℚ)], 1 - (y - 1/2) ^ 2 < 1 - (1/2 - 1/2 : ℚ) ^ 2 := by decide +kernel

/-- **C97, violated.** Of several minima of a liquid the leftmost is taken, not the lowest. -/
theorem c97_violated_leftmost :
    findNew false (fun (y : ℚ) => .ok (some (if y = 1/10 then 5 else if y = 3/10 then 1 else if y = 1/2 then 0 else 2), 1))
      [1/10, 1/5, 3/10, 1/2, 9/10] (fun _ => ⟨[1/10, 1/5, 3/10, 1/2], fun r => if r = 1/5 then -1 else 1⟩) (3/10) =
      .ok (some [1/10, 1 - 1/10]) := by decide +kernel

/-- **C97, violated.** One grid point without fugacity coefficients ends the search, although the search is meant to find
compositions that have them. -/
theorem c97_violated_nan (fug : Composition.Fug ℚ) (f : ℕ) (xi : List ℚ) (φl : List (Option ℚ)) (r : List ℚ) (y : ℚ)
    (vap : Bool) (spline : List (ℚ × ℚ) → Spline ℚ) (feed : ℚ)
    (hf : fug [y, 1 - y] = .ok ([none, none], f)) :
    findNew vap (fun v => Composition.objectiveVapor fug xi φl [v, 1 - v]) (y :: r) spline feed = .error .valueError := by
  have h1 : Composition.normalise [y, 1 - y] = .ok [y, 1 - y] := by simp [Composition.normalise]
  have h2 : PhaseDensity.newMoleFractions .vapor xi φl [none, none] = .error .valueError := by
    simp [PhaseDensity.newMoleFractions]
  simp [findNew, valid, Composition.objectiveVapor, h1, hf, h2, bind, Except.bind]

end Verif.Props
