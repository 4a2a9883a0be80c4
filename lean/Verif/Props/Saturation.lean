import Mathlib.Algebra.Order.Field.Basic
import Mathlib.Data.Rat.Defs
import Mathlib.Algebra.Order.Ring.Rat
import Mathlib.Tactic.Linarith
import Mathlib.Tactic.Positivity
import Mathlib.Tactic.FieldSimp
import Mathlib.MeasureTheory.Integral.IntervalIntegral.FundThmCalculus
import Verif.Props.PengRobinson
import Verif.Model.Saturation

/-!
# C92, C93: saturation of a pure component
-/

set_option linter.unusedSectionVars false

namespace Verif.Props
open Verif Verif.Saturation

variable {K : Type} [Field K] [LinearOrder K] [IsStrictOrderedRing K]

theorem firstRise_spec : ∀ (ps : List K) (i : ℕ), firstRise ps = some i →
    (∃ a b, ps[i]? = some a ∧ ps[i + 1]? = some b ∧ a < b) ∧
    ∀ k < i, ∃ a b, ps[k]? = some a ∧ ps[k + 1]? = some b ∧ b ≤ a
  | [], i, h => by simp [firstRise] at h
  | [a], i, h => by simp [firstRise] at h
  | a :: b :: r, i, h => by
    simp only [firstRise] at h
    split at h
    · rename_i hab
      injection h with h
      subst h
      exact ⟨⟨a, b, rfl, rfl, hab⟩, fun k hk => absurd hk (Nat.not_lt_zero k)⟩
    · rename_i hab
      cases hf : firstRise (b :: r) with
      | none => simp [hf] at h
      | some j =>
        simp only [hf, Option.map_some] at h
        injection h with h
        subst h
        obtain ⟨h1, h2⟩ := firstRise_spec (b :: r) j hf
        refine ⟨by simpa using h1, ?_⟩
        intro k hk
        cases k with
        | zero => exact ⟨a, b, rfl, rfl, not_lt.mp hab⟩
        | succ k => simpa using h2 k (by omega)

theorem firstRise_none : ∀ (ps : List K), firstRise ps = none →
    ∀ k a b, ps[k]? = some a → ps[k + 1]? = some b → b ≤ a
  | [], _, k, a, b, ha, _ => by simp at ha
  | [x], _, k, a, b, ha, hb => by simp at hb
  | x :: y :: r, h, k, a, b, ha, hb => by
    simp only [firstRise] at h
    split at h
    · cases h
    · rename_i hxy
      have hf : firstRise (y :: r) = none := by
        cases hf : firstRise (y :: r) with
        | none => rfl
        | some j => simp [hf] at h
      cases k with
      | zero =>
        simp at ha hb
        subst ha; subst hb
        exact not_lt.mp hxy
      | succ k => exact firstRise_none (y :: r) hf k a b (by simpa using ha) (by simpa using hb)

theorem argmax_spec : ∀ (l : List K) (i : ℕ) (m : K), argmax l = some (i, m) →
    l[i]? = some m ∧ (∀ x ∈ l, x ≤ m) ∧ ∀ k < i, ∀ x, l[k]? = some x → x < m
  | [], i, m, h => by simp [argmax] at h
  | a :: r, i, m, h => by
    simp only [argmax] at h
    cases hr : argmax r with
    | none =>
      simp only [hr] at h
      injection h with h
      obtain ⟨rfl, rfl⟩ := Prod.mk.injEq .. ▸ h
      have : r = [] := by
        cases r with
        | nil => rfl
        | cons b t =>
          exfalso
          simp only [argmax] at hr
          cases ht : argmax t with
          | none => simp [ht] at hr
          | some p => simp only [ht] at hr; split at hr <;> cases hr
      subst this
      exact ⟨rfl, by simp, fun k hk => absurd hk (Nat.not_lt_zero k)⟩
    | some p =>
      obtain ⟨j, m'⟩ := p
      obtain ⟨h1, h2, h3⟩ := argmax_spec r j m' hr
      simp only [hr] at h
      split at h
      · rename_i ham
        injection h with h
        obtain ⟨rfl, rfl⟩ := Prod.mk.injEq .. ▸ h
        refine ⟨by simpa using h1, ?_, ?_⟩
        · intro x hx
          rcases List.mem_cons.mp hx with rfl | hx
          · exact ham.le
          · exact h2 x hx
        · intro k hk x hx
          cases k with
          | zero => simp at hx; subst hx; exact ham
          | succ k => exact h3 k (by omega) x (by simpa using hx)
      · rename_i ham
        injection h with h
        obtain ⟨rfl, rfl⟩ := Prod.mk.injEq .. ▸ h
        refine ⟨rfl, ?_, fun k hk => absurd hk (Nat.not_lt_zero k)⟩
        intro x hx
        rcases List.mem_cons.mp hx with rfl | hx
        · exact le_rfl
        · exact le_trans (h2 x hx) (not_lt.mp ham)

theorem argmax_isSome : ∀ (l : List K), l ≠ [] → ∃ p, argmax l = some p
  | [], h => absurd rfl h
  | a :: r, _ => by
    simp only [argmax]
    cases argmax r with
    | none => exact ⟨_, rfl⟩
    | some p => simp only; split <;> exact ⟨_, rfl⟩

theorem amin_spec : ∀ (l : List K) (m : K), amin l = some m → m ∈ l ∧ ∀ x ∈ l, m ≤ x
  | [], m, h => by simp [amin] at h
  | a :: r, m, h => by
    simp only [amin] at h
    cases hr : amin r with
    | none =>
      simp only [hr] at h
      injection h with h
      subst h
      have : r = [] := by
        cases r with
        | nil => rfl
        | cons b t =>
          exfalso
          simp only [amin] at hr
          cases ht : amin t with
          | none => simp [ht] at hr
          | some p => simp [ht] at hr
      subst this
      simp
    | some m' =>
      obtain ⟨h1, h2⟩ := amin_spec r m' hr
      simp only [hr] at h
      injection h with h
      subst h
      constructor
      · rcases min_choice a m' with e | e
        · rw [e]; simp
        · rw [e]; exact List.mem_cons_of_mem _ h1
      · intro x hx
        rcases List.mem_cons.mp hx with rfl | hx
        · exact min_le_left _ _
        · exact le_trans (min_le_right _ _) (h2 x hx)

theorem amin_isSome (l : List K) (h : l ≠ []) : ∃ m, amin l = some m := by
  cases l with
  | nil => exact absurd rfl h
  | cons a r =>
    simp only [amin]
    cases amin r with
    | none => exact ⟨_, rfl⟩
    | some p => exact ⟨_, rfl⟩

/-- **C92** (bounds of the search). Along increasing volume the pressure first falls to the point `i`
where it starts to rise; the upper bound is the largest pressure from there on and the lower one the
smallest pressure between the two, or the given smallest pressure if that is larger. -/
theorem c92_bounds (pconv : K) (ps : List K) (lo hi : K) (h : bounds pconv ps = .ok (lo, hi)) :
    ∃ (i j : ℕ) (a : K), i < j ∧ (∀ k < i, ∀ x y, ps[k]? = some x → ps[k + 1]? = some y → y ≤ x) ∧
      (∃ x y, ps[i]? = some x ∧ ps[i + 1]? = some y ∧ x < y) ∧
      ps[j]? = some hi ∧ (∀ k x, i ≤ k → ps[k]? = some x → x ≤ hi) ∧
      (∃ k, i ≤ k ∧ k < j ∧ ps[k]? = some a) ∧ (∀ k x, i ≤ k → k < j → ps[k]? = some x → a ≤ x) ∧
      lo = max pconv a ∧ a < hi := by
  unfold bounds at h
  cases hf : firstRise ps with
  | none => simp only [hf] at h; cases h
  | some i =>
    simp only [hf] at h
    obtain ⟨⟨x, y, hx, hy, hxy⟩, hbefore⟩ := firstRise_spec ps i hf
    cases hm : argmax (ps.drop i) with
    | none => simp only [hm] at h; cases h
    | some p =>
      obtain ⟨j, m⟩ := p
      simp only [hm] at h
      obtain ⟨g1, g2, g3⟩ := argmax_spec _ _ _ hm
      cases ha : amin ((ps.drop i).take j) with
      | none => simp only [ha] at h; cases h
      | some a =>
        simp only [ha] at h
        injection h with h
        obtain ⟨rfl, rfl⟩ := Prod.mk.injEq .. ▸ h
        obtain ⟨a1, a2⟩ := amin_spec _ _ ha
        obtain ⟨k, hk⟩ := List.mem_iff_getElem?.mp a1
        have hkj : k < j := by
          by_contra hc
          rw [List.getElem?_take, if_neg hc] at hk
          cases hk
        rw [List.getElem?_take_of_lt hkj, List.getElem?_drop] at hk
        rw [List.getElem?_drop] at g1
        refine ⟨i, i + j, a, by omega, ?_, ⟨x, y, hx, hy, hxy⟩, g1, ?_, ⟨i + k, by omega, by omega, hk⟩,
          ?_, rfl, ?_⟩
        · intro k hk x y hx hy
          obtain ⟨a', b', ha', hb', hab⟩ := hbefore k hk
          rw [hx] at ha'; rw [hy] at hb'
          injection ha' with ha'; injection hb' with hb'
          rw [ha', hb']; exact hab
        · intro k x hk hx
          refine g2 x (List.mem_iff_getElem?.mpr ⟨k - i, ?_⟩)
          rw [List.getElem?_drop, show i + (k - i) = k by omega]; exact hx
        · intro k x hik hkj' hx
          refine a2 x (List.mem_iff_getElem?.mpr ⟨k - i, ?_⟩)
          rw [List.getElem?_take_of_lt (by omega), List.getElem?_drop, show i + (k - i) = k by omega]
          exact hx
        · exact g3 k hkj a (by rw [List.getElem?_drop]; exact hk)

/-- **C92** (bounds exist). The bounds are found exactly when the pressure rises somewhere. -/
theorem c92_bounds_defined (pconv : K) (ps : List K) :
    (∃ b, bounds pconv ps = .ok b) ↔ ∃ k x y, ps[k]? = some x ∧ ps[k + 1]? = some y ∧ x < y := by
  constructor
  · rintro ⟨⟨lo, hi⟩, h⟩
    obtain ⟨i, _, _, _, _, ⟨x, y, hx, hy, hxy⟩, _⟩ := c92_bounds pconv ps lo hi h
    exact ⟨i, x, y, hx, hy, hxy⟩
  · rintro ⟨k, x, y, hx, hy, hxy⟩
    unfold bounds
    cases hf : firstRise ps with
    | none => exact absurd (firstRise_none ps hf k x y hx hy) (not_le.mpr hxy)
    | some i =>
      obtain ⟨⟨a, b, ha, hb, hab⟩, _⟩ := firstRise_spec ps i hf
      have hne : ps.drop i ≠ [] := by
        intro hc
        have := List.getElem?_drop (xs := ps) (i := i) (j := 0)
        rw [hc, Nat.add_zero, ha] at this
        simp at this
      obtain ⟨⟨j, m⟩, hm⟩ := argmax_isSome _ hne
      simp only [hm]
      obtain ⟨g1, g2, g3⟩ := argmax_spec _ _ _ hm
      have hj : j ≠ 0 := by
        rintro rfl
        rw [List.getElem?_drop, Nat.add_zero, ha] at g1
        injection g1 with g1
        subst g1
        have : b ≤ a := g2 b (List.mem_iff_getElem?.mpr ⟨1, by rw [List.getElem?_drop]; exact hb⟩)
        exact absurd this (not_le.mpr hab)
      have hne2 : (ps.drop i).take j ≠ [] := by
        intro hc
        have := List.take_eq_nil_iff.mp hc
        rcases this with h | h
        · exact hj h
        · exact hne h
      obtain ⟨lo, hlo⟩ := amin_isSome _ hne2
      simp only [hlo]
      exact ⟨_, rfl⟩

/-- What is asked of scipy: the bounded minimiser returns a point within its bounds, the refined density
lies within its bounds, and the roots of a spline are positive and increasing. -/
structure ScipyOk (E : Saturation.Ext K) : Prop where
  min_bounds : ∀ f lo hi x, E.minScalar f lo hi = .ok x → lo ≤ x ∧ x ≤ hi
  density_bounds : ∀ p v r ρ, E.density p v r = .ok ρ →
    1 / (100 * v) ≤ ρ ∧ ρ ≤ 1 / (11 / 10 * r)
  roots_sorted : ∀ vs ps, (E.scipy vs ps).roots.Pairwise (· < ·) ∧ ∀ r ∈ (E.scipy vs ps).roots, 0 < r

theorem saturation_steps (E : Saturation.Ext K) (tol pconv : K) (xi : List K)
    (curve : Except PyErr (List K × List (Option K))) (r : Option (K × K × K))
    (h : saturation E tol pconv xi curve = .ok r) :
    (xi.filter (· ≠ 0)).length = 1 ∧ ∃ vs ps, curve = .ok (vs, ps) ∧ search E tol pconv vs ps = .ok r ∧
      E.check (r.map (·.1)) = .ok () := by
  unfold saturation checkPure at h
  split at h
  · rename_i hc
    split at hc <;> simp_all
  · rename_i hc
    split at hc
    · rename_i hx
      refine ⟨hx, ?_⟩
      cases hcv : curve with
      | error e => simp only [hcv] at h; cases h
      | ok c =>
        obtain ⟨vs, ps⟩ := c
        simp only [hcv] at h
        cases hs : search E tol pconv vs ps with
        | error e => simp only [hs] at h; cases h
        | ok r' =>
          simp only [hs] at h
          cases hk : E.check (r'.map (·.1)) with
          | error e => simp only [hk] at h; cases h
          | ok u =>
            simp only [hk] at h
            injection h with h
            subst h
            exact ⟨vs, ps, rfl, hs, hk⟩
    · split at hc <;> cases hc

theorem filterMap_of_not_none : ∀ (ps : List (Option K)), ps.any Option.isNone = false →
    ps = (ps.filterMap id).map some
  | [], _ => rfl
  | none :: r, h => by simp at h
  | some a :: r, h => by
    have h' : r.any Option.isNone = false := by simpa using h
    have := filterMap_of_not_none r h'
    have e : (some a :: r).filterMap id = a :: r.filterMap id := rfl
    rw [e, List.map_cons, ← this]

theorem search_steps (E : Saturation.Ext K) (tol pconv : K) (vs : List K) (ps : List (Option K))
    (p ρl ρv : K) (h : search E tol pconv vs ps = .ok (some (p, ρl, ρv))) :
    2 ≤ (E.scipy vs ps).extrema.length ∧ ∃ qs lo hi, ps = qs.map some ∧ bounds pconv qs = .ok (lo, hi) ∧
      E.minScalar (objective E.scipy vs qs) lo hi = .ok p ∧ accept E tol vs qs p = .ok (some (p, ρl, ρv)) := by
  unfold search at h
  split at h
  · cases h
  · rename_i hc
    rw [not_or] at hc
    obtain ⟨hc1, hc2⟩ := hc
    have hnan : ps.any Option.isNone = false := by
      by_contra hn
      rw [Bool.not_eq_false] at hn
      exact hc2 (by simp [fit, hn])
    have hq := filterMap_of_not_none ps hnan
    refine ⟨?_, ps.filterMap id, ?_⟩
    · simp only [fit, List.length_take] at hc1; omega
    cases hb : bounds pconv (ps.filterMap id) with
    | error e => simp only [hb] at h; cases h
    | ok b =>
      obtain ⟨lo, hi⟩ := b
      simp only [hb] at h
      cases hm : E.minScalar (objective E.scipy vs (ps.filterMap id)) lo hi with
      | error e => simp only [hm] at h; cases h
      | ok p' =>
        simp only [hm] at h
        have : p' = p := by
          unfold accept at h
          cases ho : objective E.scipy vs (ps.filterMap id) p' with
          | error e => simp only [ho] at h; cases h
          | ok o =>
            simp only [ho] at h
            split at h
            · split at h
              · split at h
                · cases h
                · split at h
                  · cases h
                  · injection h with h; injection h with h; injection h
              · injection h with h; injection h with h; injection h
              · cases h
            · cases h
        subst this
        exact ⟨lo, hi, hq, rfl, hm, h⟩

/-- The curve seen from pressure `p`. -/
def shifted (qs : List K) (p : K) : List (Option K) := qs.map fun q => some (q - p)

theorem fit_shifted (scipy : List K → List (Option K) → Spline K) (vs qs : List K) (p : K) :
    (fit scipy vs (shifted qs p)).roots = some (scipy vs (shifted qs p)).roots ∧
    (fit scipy vs (shifted qs p)).integral = (scipy vs (shifted qs p)).integral := by
  constructor
  · simp [fit, shifted]
  · rfl

/-- **C92** (range). A saturation pressure lies between the smallest and the largest pressure of the loop,
and is never below the given smallest pressure. -/
theorem c92_range (E : Saturation.Ext K) (hE : ScipyOk E) (tol pconv : K) (xi vs : List K)
    (ps : List (Option K)) (p ρl ρv : K)
    (h : saturation E tol pconv xi (.ok (vs, ps)) = .ok (some (p, ρl, ρv))) :
    pconv ≤ p ∧ ∃ i j lo hi : K, some i ∈ ps ∧ some j ∈ ps ∧ i < j ∧ some lo ∈ ps ∧ some hi ∈ ps ∧
      lo ≤ p ∧ p ≤ hi ∧ lo ≤ i ∧ j ≤ hi := by
  obtain ⟨_, vs', ps', hc, hs, _⟩ := saturation_steps E tol pconv xi _ _ h
  injection hc with hc
  obtain ⟨rfl, rfl⟩ := Prod.mk.injEq .. ▸ hc
  obtain ⟨_, qs, lo, hi, rfl, hb, hm, _⟩ := search_steps E tol pconv vs ps p ρl ρv hs
  obtain ⟨m1, m2⟩ := hE.min_bounds _ _ _ _ hm
  obtain ⟨i, j, a, hij, _, ⟨x, y, hx, hy, hxy⟩, hj, hmax, ⟨k, _, _, hk⟩, hmin, hlo, _⟩ :=
    c92_bounds pconv qs lo hi hb
  have mem : ∀ {n : ℕ} {z : K}, qs[n]? = some z → some z ∈ qs.map some := fun h =>
    List.mem_map_of_mem (List.mem_iff_getElem?.mpr ⟨_, h⟩)
  refine ⟨le_trans (by rw [hlo]; exact le_max_left _ _) m1, x, y, a, hi, mem hx, mem hy, hxy, mem hk,
    mem hj, le_trans (by rw [hlo]; exact le_max_right _ _) m1, m2, hmin i x le_rfl hij hx,
    hmax (i + 1) y (by omega) hy⟩

/-- **C92** (equal areas). At an accepted saturation pressure the areas between the spline and the line of
that pressure, left and right of the middle root, cancel up to the tolerance, and the densities are those of the
first and the third root.  With two roots the second area is completed by the triangle up to the zero of the line through
the last four points, and the density of the vapour is the refined one. -/
theorem c92_equal_area (E : Saturation.Ext K) (tol pconv : K) (xi vs : List K)
    (ps : List (Option K)) (p ρl ρv : K)
    (h : saturation E tol pconv xi (.ok (vs, ps)) = .ok (some (p, ρl, ρv))) :
    ∃ qs, ps = qs.map some ∧
      ((∃ r0 r1 r2 rest, (E.scipy vs (shifted qs p)).roots = r0 :: r1 :: r2 :: rest ∧
        ((E.scipy vs (shifted qs p)).integral r0 r1 + (E.scipy vs (shifted qs p)).integral r1 r2) ^ 2 < tol ∧
        ρl = 1 / r0 ∧ ρv = 1 / r2) ∨
      ∃ r0 r1 v vl pl, (E.scipy vs (shifted qs p)).roots = [r0, r1] ∧ vs.getLast? = some vl ∧ qs.getLast? = some pl ∧
        tailRoot vs (qs.map (· - p)) = some v ∧
        ((E.scipy vs (shifted qs p)).integral r0 r1 + ((E.scipy vs (shifted qs p)).integral r1 vl
          + (pl - p) * (v - vl) / 2)) ^ 2 < tol ∧ ρl = 1 / r0 ∧
        E.density p (if v < 0 then E.eps else v) r1 = .ok ρv) := by
  obtain ⟨_, vs', ps', hc, hs, _⟩ := saturation_steps E tol pconv xi _ _ h
  injection hc with hc
  obtain ⟨rfl, rfl⟩ := Prod.mk.injEq .. ▸ hc
  obtain ⟨_, qs, lo, hi, rfl, _, _, ha⟩ := search_steps E tol pconv vs ps p ρl ρv hs
  obtain ⟨f1, f2⟩ := fit_shifted E.scipy vs qs p
  refine ⟨qs, rfl, ?_⟩
  unfold accept at ha
  rw [show (fit E.scipy vs (qs.map fun q => some (q - p))).roots = _ from f1] at ha
  cases ho : objective E.scipy vs qs p with
  | error e => simp only [ho] at ha; cases ha
  | ok o =>
    simp only [ho] at ha
    split at ha
    · rename_i hlt
      match hr : (E.scipy vs (shifted qs p)).roots with
      | [] => simp only [hr] at ha; cases ha
      | [_] => simp only [hr] at ha; cases ha
      | [r0, r1] =>
        right
        simp only [hr] at ha
        cases ht : tailRoot vs (qs.map (· - p)) with
        | none => simp only [ht] at ha; cases ha
        | some v =>
          simp only [ht] at ha
          cases hd : E.density p (if v < 0 then E.eps else v) r1 with
          | error e => simp only [hd] at ha; cases ha
          | ok ρ =>
            simp only [hd] at ha
            injection ha with ha
            injection ha with ha
            obtain ⟨_, ha⟩ := Prod.mk.injEq .. ▸ ha
            obtain ⟨ha1, ha2⟩ := Prod.mk.injEq .. ▸ ha
            rw [one_div_one_div] at ha2
            have hfr : (fit E.scipy vs (qs.map fun q => some (q - p))).roots = some [r0, r1] := by
              rw [← hr]; exact f1
            have hfi : (fit E.scipy vs (qs.map fun q => some (q - p))).integral =
              (E.scipy vs (shifted qs p)).integral := f2
            simp only [objective, hfr, hfi] at ho
            cases hvl : vs.getLast? with
            | none => simp [hvl] at ho
            | some vl =>
              cases hpl : qs.getLast? with
              | none => simp [hvl, hpl] at ho
              | some pl =>
                simp only [hvl, hpl, ht] at ho
                injection ho with ho
                subst ho
                exact ⟨r0, r1, v, vl, pl, rfl, rfl, rfl, rfl, by simpa using hlt, ha1.symm, ha2 ▸ hd⟩
      | r0 :: r1 :: r2 :: rest =>
        left
        simp only [hr] at ha
        injection ha with ha
        injection ha with ha
        obtain ⟨_, ha⟩ := Prod.mk.injEq .. ▸ ha
        obtain ⟨ha1, ha2⟩ := Prod.mk.injEq .. ▸ ha
        refine ⟨r0, r1, r2, rest, rfl, ?_, ha1.symm, ha2.symm⟩
        have hobj : objective E.scipy vs qs p =
            .ok (some (((E.scipy vs (shifted qs p)).integral r0 r1
              + (E.scipy vs (shifted qs p)).integral r1 r2) ^ 2)) := by
          have hfr : (fit E.scipy vs (qs.map fun q => some (q - p))).roots = some (r0 :: r1 :: r2 :: rest) := by
            rw [← hr]; exact f1
          simp only [objective, hfr]
          rfl
        rw [ho] at hobj
        injection hobj with hobj
        rw [hobj] at hlt
        simpa using hlt
    · cases ha

/-- **C92** (densities). The vapour is lighter than the liquid and both densities are positive. -/
theorem c92_densities (E : Saturation.Ext K) (hE : ScipyOk E) (tol pconv : K) (xi vs : List K)
    (ps : List (Option K)) (p ρl ρv : K) (hpos : ∀ p v r ρ, E.density p v r = .ok ρ → 0 < ρ)
    (h : saturation E tol pconv xi (.ok (vs, ps)) = .ok (some (p, ρl, ρv))) : 0 < ρv ∧ ρv < ρl := by
  obtain ⟨qs, rfl, ⟨r0, r1, r2, rest, hr, _, rfl, rfl⟩ | ⟨r0, r1, v, vl, pl, hr, -, -, -, -, rfl, hd⟩⟩ :=
    c92_equal_area E tol pconv xi vs ps p ρl ρv h
  · obtain ⟨s1, s2⟩ := hE.roots_sorted vs (shifted qs p)
    rw [hr] at s1 s2
    have h0 : 0 < r0 := s2 r0 (by simp)
    have h2 : 0 < r2 := s2 r2 (by simp)
    have h02 : r0 < r2 := (List.pairwise_cons.mp s1).1 r2 (by simp)
    exact ⟨one_div_pos.mpr h2, one_div_lt_one_div_of_lt h0 h02⟩
  · obtain ⟨s1, s2⟩ := hE.roots_sorted vs (shifted qs p)
    rw [hr] at s1 s2
    have h0 : 0 < r0 := s2 r0 (by simp)
    have h01 : r0 < r1 := (List.pairwise_cons.mp s1).1 r1 (by simp)
    refine ⟨hpos _ _ _ _ hd, lt_of_le_of_lt (hE.density_bounds _ _ _ _ hd).2 ?_⟩
    refine one_div_lt_one_div_of_lt h0 ?_
    linarith

section PR
open Verif.PengRobinson MeasureTheory

/-- For a pure Peng-Robinson fluid the area between the isotherm in the volume and the line of constant
pressure is the difference of the logarithms of the fugacity coefficients times `RT`. -/
theorem pr_area (R T : ℝ) (q : Par 1) (v0 v2 P₀ : ℝ) (hRT : 0 < R * T) (hb : 0 < q.bi 0)
    (h0 : q.bi 0 < v0) (h02 : v0 ≤ v2) (ha : 0 < q.ai 0 * q.alpha 0) (hk : q.kij 0 0 = 0) (hP : 0 < P₀)
    (hP0 : pressure R T q (fun _ => 1) (1 / v0) = P₀) (hP2 : pressure R T q (fun _ => 1) (1 / v2) = P₀) :
    IntervalIntegrable (fun v => pressure R T q (fun _ => 1) (1 / v) - P₀) volume v0 v2 ∧
    ∫ v in v0..v2, (pressure R T q (fun _ => 1) (1 / v) - P₀) =
      R * T * (lnPhi R T q (fun _ => 1) P₀ (1 / v0) 0 - lnPhi R T q (fun _ => 1) P₀ (1 / v2) 0) := by
  have hbm : bmix q (fun _ => 1) = q.bi 0 := by simp [bmix]
  have hsq : √(q.ai 0 * q.alpha 0 * q.ai 0 * q.alpha 0) = q.ai 0 * q.alpha 0 := by
    rw [show q.ai 0 * q.alpha 0 * q.ai 0 * q.alpha 0 = (q.ai 0 * q.alpha 0) ^ 2 by ring]
    exact Real.sqrt_sq ha.le
  have ham : amix q (fun _ => 1) = q.ai 0 * q.alpha 0 := by simp [amix, hk, hsq]
  have hPfun : ∀ ρ, pressure R T q (fun _ => 1) ρ =
      pressureAB R T (q.ai 0 * q.alpha 0) (q.bi 0) ρ := by
    intro ρ; unfold pressure; rw [hbm, ham]
  have hv0 : 0 < v0 := lt_trans hb h0
  have hbounds : ∀ v ∈ Set.uIcc v0 v2, 0 < v ∧ q.bi 0 * (1 / v) < 1 := by
    intro v hv
    rw [Set.uIcc_of_le h02] at hv
    have hv' : 0 < v := lt_of_lt_of_le hv0 hv.1
    refine ⟨hv', ?_⟩
    rw [mul_one_div, div_lt_one hv']
    exact lt_of_lt_of_le h0 hv.1
  have hder : ∀ v ∈ Set.uIcc v0 v2, HasDerivAt
      (fun v => -areaPrim (R * T) (q.ai 0 * q.alpha 0) (q.bi 0) P₀ (1 / v))
      (pressure R T q (fun _ => 1) (1 / v) - P₀) v := by
    intro v hv
    obtain ⟨hv', hu⟩ := hbounds v hv
    have h1 := c15_areaPrim_deriv R T (q.ai 0 * q.alpha 0) (q.bi 0) P₀ (1 / v) hRT (by positivity) hb hu
    have h2 : HasDerivAt (fun v : ℝ => 1 / v) (-(v ^ 2)⁻¹) v := by
      simpa using hasDerivAt_inv hv'.ne'
    have h3 := (h1.comp v h2).neg
    refine h3.congr_deriv ?_
    rw [hPfun]
    field_simp
  have hcont : ContinuousOn (fun v => pressure R T q (fun _ => 1) (1 / v) - P₀) (Set.uIcc v0 v2) := by
    simp only [hPfun]
    unfold pressureAB
    have hne : ∀ v ∈ Set.uIcc v0 v2, v ≠ 0 := fun v hv => (hbounds v hv).1.ne'
    have hinv : ContinuousOn (fun v : ℝ => 1 / v) (Set.uIcc v0 v2) :=
      continuousOn_const.div continuousOn_id hne
    have hc : ∀ v ∈ Set.uIcc v0 v2, 1 - q.bi 0 * (1 / v) ≠ 0 := fun v hv => by
      have := (hbounds v hv).2; linarith
    have hc2 : ∀ v ∈ Set.uIcc v0 v2,
        (1 + q.bi 0 * (1 / v)) + 1 / v * q.bi 0 * (1 - q.bi 0 * (1 / v)) ≠ 0 := fun v hv => by
      have := c14_den_pos (q.bi 0 * (1 / v)) (by have := (hbounds v hv).1; positivity) (hbounds v hv).2
      rw [mul_comm (1 / v)]; exact this.ne'
    refine ContinuousOn.sub (ContinuousOn.sub (ContinuousOn.div ?_ ?_ hc)
      (ContinuousOn.div ?_ ?_ hc2)) continuousOn_const
    all_goals fun_prop (disch := assumption)
  refine ⟨hcont.intervalIntegrable, ?_⟩
  rw [intervalIntegral.integral_eq_sub_of_hasDerivAt hder hcont.intervalIntegrable]
  have hm0 : v0 ∈ Set.uIcc v0 v2 := Set.left_mem_uIcc
  have hm2 : v2 ∈ Set.uIcc v0 v2 := Set.right_mem_uIcc
  have p0 : 0 < 1 / v0 := one_div_pos.mpr hv0
  have p2 : 0 < 1 / v2 := one_div_pos.mpr (hbounds v2 hm2).1
  rw [c15_areaPrim_eq R T q (1 / v0) hRT p0 hb (hbounds v0 hm0).2 ha hk P₀ hP hP0,
    c15_areaPrim_eq R T q (1 / v2) hRT p2 hb (hbounds v2 hm2).2 ha hk P₀ hP hP2]
  ring

/-- **C92** (equilibrium). For a pure Peng-Robinson fluid and a spline that reproduces the isotherm, the
logarithms of the fugacity coefficients of the two phases returned differ by less than `√tol / RT`. -/
theorem c92_fugacity (E : Saturation.Ext ℝ) (hE : ScipyOk E) (tol pconv : ℝ) (xi vs qs : List ℝ)
    (p ρl ρv : ℝ) (R T : ℝ) (q : Par 1) (hRT : 0 < R * T) (hb : 0 < q.bi 0)
    (ha : 0 < q.ai 0 * q.alpha 0) (hk : q.kij 0 0 = 0) (hc : 0 < pconv)
    (hroots : ∀ r ∈ (E.scipy vs (shifted qs p)).roots,
      q.bi 0 < r ∧ pressure R T q (fun _ => 1) (1 / r) = p)
    (hint : ∀ a b, (E.scipy vs (shifted qs p)).integral a b =
      ∫ v in a..b, (pressure R T q (fun _ => 1) (1 / v) - p))
    (h3 : 3 ≤ (E.scipy vs (shifted qs p)).roots.length)
    (h : saturation E tol pconv xi (.ok (vs, qs.map some)) = .ok (some (p, ρl, ρv))) :
    |lnPhi R T q (fun _ => 1) p ρl 0 - lnPhi R T q (fun _ => 1) p ρv 0| < √tol / (R * T) := by
  have hp : 0 < p := lt_of_lt_of_le hc (c92_range E hE tol pconv xi vs _ p ρl ρv h).1
  obtain ⟨qs', hq, ⟨r0, r1, r2, rest, hr, hlt, rfl, rfl⟩ | ⟨r0, r1, v, vl, pl, hr, _⟩⟩ :=
    c92_equal_area E tol pconv xi vs _ p ρl ρv h
  · have : qs' = qs := (List.map_injective_iff.mpr (Option.some_injective ℝ) hq).symm
    subst this
    obtain ⟨s1, s2⟩ := hE.roots_sorted vs (shifted qs' p)
    rw [hr] at s1 hroots
    have h01 : r0 < r1 := (List.pairwise_cons.mp s1).1 r1 (by simp)
    have h02 : r0 < r2 := (List.pairwise_cons.mp s1).1 r2 (by simp)
    have h12 : r1 < r2 := (List.pairwise_cons.mp (List.pairwise_cons.mp s1).2).1 r2 (by simp)
    obtain ⟨b0, e0⟩ := hroots r0 (by simp)
    obtain ⟨b1, e1⟩ := hroots r1 (by simp)
    obtain ⟨b2, e2⟩ := hroots r2 (by simp)
    obtain ⟨i1, _⟩ := pr_area R T q r0 r1 p hRT hb b0 h01.le ha hk hp e0 e1
    obtain ⟨i2, _⟩ := pr_area R T q r1 r2 p hRT hb b1 h12.le ha hk hp e1 e2
    obtain ⟨_, i3⟩ := pr_area R T q r0 r2 p hRT hb b0 h02.le ha hk hp e0 e2
    rw [hint, hint, intervalIntegral.integral_add_adjacent_intervals i1 i2, i3] at hlt
    rw [lt_div_iff₀ hRT, ← abs_of_pos hRT, ← abs_mul, mul_comm]
    exact Real.lt_sqrt_of_sq_lt (by rw [sq_abs]; exact hlt)
  · have : qs' = qs := (List.map_injective_iff.mpr (Option.some_injective ℝ) hq).symm
    subst this
    rw [hr] at h3
    simp at h3

end PR

/-- **C92** (equilibrium, every equation of state). Let the spline reproduce the isotherm `P` as a function of the volume
and let `w` be the logarithm of the fugacity along it, `dw = v dP / RT`.  If there are three roots, the fugacities of the
two phases returned, hence their fugacity coefficients at the same pressure, agree up to `√tol / RT`. -/
theorem c92_consistent_partial (E : Saturation.Ext ℝ) (hE : ScipyOk E) (tol pconv : ℝ) (xi vs qs : List ℝ)
    (p ρl ρv RT : ℝ) (P P' w : ℝ → ℝ) (hRT : 0 < RT)
    (hroots : ∀ r ∈ (E.scipy vs (shifted qs p)).roots, P r = p)
    (hint : ∀ a b, (E.scipy vs (shifted qs p)).integral a b = ∫ v in a..b, (P v - p))
    (hP : ∀ v, 0 < v → HasDerivAt P (P' v) v) (hw : ∀ v, 0 < v → HasDerivAt w (v * P' v / RT) v)
    (h3 : 3 ≤ (E.scipy vs (shifted qs p)).roots.length)
    (h : saturation E tol pconv xi (.ok (vs, qs.map some)) = .ok (some (p, ρl, ρv))) :
    |w (1 / ρl) - w (1 / ρv)| < √tol / RT := by
  obtain ⟨qs', hq, ⟨r0, r1, r2, rest, hr, hlt, rfl, rfl⟩ | ⟨r0, r1, v, vl, pl, hr, _⟩⟩ :=
    c92_equal_area E tol pconv xi vs _ p ρl ρv h
  · have : qs' = qs := (List.map_injective_iff.mpr (Option.some_injective ℝ) hq).symm
    subst this
    obtain ⟨s1, s2⟩ := hE.roots_sorted vs (shifted qs' p)
    rw [hr] at s1 s2 hroots
    have h0 : 0 < r0 := s2 r0 (by simp)
    have h01 : r0 < r1 := (List.pairwise_cons.mp s1).1 r1 (by simp)
    have h02 : r0 < r2 := (List.pairwise_cons.mp s1).1 r2 (by simp)
    have h12 : r1 < r2 := (List.pairwise_cons.mp (List.pairwise_cons.mp s1).2).1 r2 (by simp)
    have hi : ∀ a b, 0 < a → a ≤ b → IntervalIntegrable (fun v => P v - p) MeasureTheory.volume a b := by
      intro a b ha hab
      refine ContinuousOn.intervalIntegrable fun v hv => ?_
      rw [Set.uIcc_of_le hab] at hv
      exact ((hP v (ha.trans_le hv.1)).continuousAt.sub continuousAt_const).continuousWithinAt
    have hG : ∀ v ∈ Set.uIcc r0 r2, HasDerivAt (fun v => v * P v - p * v - RT * w v) (P v - p) v := by
      intro v hv
      rw [Set.uIcc_of_le h02.le] at hv
      have hv0 := h0.trans_le hv.1
      have := (((hasDerivAt_id' v).mul (hP v hv0)).sub ((hasDerivAt_id' v).const_mul p)).sub ((hw v hv0).const_mul RT)
      refine this.congr_deriv ?_
      field_simp
      ring
    have hI := intervalIntegral.integral_eq_sub_of_hasDerivAt hG (hi r0 r2 h0 h02.le)
    rw [hint, hint, intervalIntegral.integral_add_adjacent_intervals (hi r0 r1 h0 h01.le)
      (hi r1 r2 (h0.trans h01) h12.le), hI, hroots r0 (by simp), hroots r2 (by simp)] at hlt
    rw [one_div_one_div, one_div_one_div, lt_div_iff₀ hRT, ← abs_of_pos hRT, ← abs_mul]
    refine Real.lt_sqrt_of_sq_lt (by rw [sq_abs]; refine lt_of_eq_of_lt ?_ hlt; ring)
  · have : qs' = qs := (List.map_injective_iff.mpr (Option.some_injective ℝ) hq).symm
    subst this
    rw [hr] at h3
    simp at h3

/-! An isotherm whose curve ends before the vapour: the pressure is 100 at the volumes 1, 5.6113 and 10, and the curve
ends at 9. -/

section Tail
variable {F : Type} [Field F]

/-- The isotherm. -/
def tailIso (v : F) : F := 100 - (v - 1) * (v - 56113 / 10000) * (v - 10)

/-- The area between the isotherm and the pressure 100. -/
def tailArea (x y : F) : F :=
  let A := fun v : F => -(v ^ 4 / 4 - 166113 / 10000 * v ^ 3 / 3 + 717243 / 10000 * v ^ 2 / 2 - 56113 / 1000 * v)
  A y - A x

/-- The volumes of the curve. -/
def tailVolumes : List F := [1 / 2, 1, 2, 4, 6, 8, 87 / 10, 88 / 10, 89 / 10, 9]
end Tail

/-- scipy for this curve: exact roots and areas, the extrema rounded; the refined density is that of the vapour. -/
def tailExt : Saturation.Ext ℚ where
  scipy := fun _ _ => ⟨[1, 56113 / 10000], [29 / 10, 81 / 10], tailArea⟩
  minScalar := fun _ lo hi => if lo ≤ 100 ∧ 100 ≤ hi then .ok 100 else .error .other
  density := fun _ v r => if 1 / (100 * v) ≤ 1 / 10 ∧ 1 / 10 ≤ 1 / (11 / 10 * r) then .ok (1 / 10) else .error .other
  check := fun _ => .ok ()
  eps := 1 / 2 ^ 52

/-- **C92, violated** (the vapour beyond the curve). With two roots a saturation pressure is accepted, with the default
tolerance, although the areas do not cancel: at volumes 1 and 10, where the isotherm has the pressure returned, the
isotherm cuts off an area of more than 13, so that the fugacities differ. -/
theorem c92_violated_tail : ScipyOk tailExt ∧
    saturation tailExt (1 / 1000000) 1 [1] (.ok (tailVolumes, tailVolumes.map fun v => some (tailIso v)))
      = .ok (some (100, 1, 1 / 10)) ∧
    (∀ r ∈ (tailExt.scipy tailVolumes (shifted (tailVolumes.map tailIso) 100)).roots, tailIso r = 100) ∧
    (∀ x y : ℝ, tailArea x y = ∫ v in x..y, (tailIso v - 100)) ∧
    tailIso (1 / 1 : ℚ) = 100 ∧ tailIso (1 / (1 / 10) : ℚ) = 100 ∧ tailArea (1 : ℚ) 10 < -13 := by
  refine ⟨⟨?_, ?_, ?_⟩, by decide +kernel, by decide +kernel, ?_, by decide +kernel, by decide +kernel, by decide +kernel⟩
  · intro f lo hi x h
    simp only [tailExt] at h
    split_ifs at h with hc
    injection h with h
    exact h ▸ hc
  · intro p v r ρ h
    simp only [tailExt] at h
    split_ifs at h with hc
    injection h with h
    exact h ▸ hc
  · intro vs ps
    refine ⟨?_, ?_⟩ <;> simp only [tailExt] <;> norm_num
  · intro x y
    have hd : ∀ v : ℝ, HasDerivAt (fun v : ℝ => -(v ^ 4 / 4 - 166113 / 10000 * v ^ 3 / 3 + 717243 / 10000 * v ^ 2 / 2
        - 56113 / 1000 * v)) (tailIso v - 100) v := by
      intro v
      have := (((((hasDerivAt_id' v).fun_pow 4).div_const 4).sub ((((hasDerivAt_id' v).fun_pow 3).const_mul
        (166113 / 10000)).div_const 3)).add ((((hasDerivAt_id' v).fun_pow 2).const_mul (717243 / 10000)).div_const 2)).sub
        ((hasDerivAt_id' v).const_mul (56113 / 1000)) |>.neg
      refine this.congr_deriv ?_
      simp only [tailIso]
      norm_num
      ring
    have hc : Continuous fun v : ℝ => tailIso v - 100 := by unfold tailIso; fun_prop
    rw [intervalIntegral.integral_eq_sub_of_hasDerivAt (fun v _ => hd v) (hc.intervalIntegrable x y)]
    rfl

/-! ## C93 -/

/-- **C93** (compositions). A calculation with a result was for one component. -/
theorem c93_pure (E : Saturation.Ext K) (tol pconv : K) (xi : List K)
    (curve : Except PyErr (List K × List (Option K))) (r : Option (K × K × K))
    (h : saturation E tol pconv xi curve = .ok r) : ∃! i : Fin xi.length, xi[i] ≠ 0 := by
  obtain ⟨hx, _⟩ := saturation_steps E tol pconv xi curve r h
  clear h
  induction xi with
  | nil => simp at hx
  | cons a t ih =>
    by_cases ha : a = 0
    · subst ha
      have hx' : (t.filter (· ≠ 0)).length = 1 := by simpa using hx
      obtain ⟨i, hi, hu⟩ := ih hx'
      refine ⟨i.succ, by simpa using hi, ?_⟩
      intro j hj
      refine Fin.cases ?_ (fun j hj => ?_) j hj
      · intro h0; simp at h0
      · rw [hu j (by simpa using hj)]
    · have hx' : (t.filter (· ≠ 0)).length = 0 := by simpa [ha] using hx
      have hnil : ∀ y ∈ t, y = 0 := by
        intro y hy
        by_contra hne
        have : y ∈ t.filter (· ≠ 0) := List.mem_filter.mpr ⟨hy, by simpa using hne⟩
        rw [List.length_eq_zero_iff.mp hx'] at this
        cases this
      refine ⟨⟨0, by simp⟩, by simpa using ha, ?_⟩
      intro j hj
      refine Fin.cases (fun _ => rfl) (fun j hj => ?_) j hj
      have hj' : t[j.val]'(by have := j.isLt; simpa using this) ≠ 0 := by simpa using hj
      exact absurd (hnil _ (List.getElem_mem _)) hj'

/-- **C93** (no loop). Without two extrema, or with a pressure that is not a number, there is no saturation
pressure and no density. -/
theorem c93_supercritical (E : Saturation.Ext K) (tol pconv : K) (vs : List K) (ps : List (Option K))
    (h : (E.scipy vs ps).extrema.length < 2 ∨ none ∈ ps) : search E tol pconv vs ps = .ok none := by
  unfold search
  rw [if_pos]
  rcases h with h | h
  · left
    simp only [fit, List.length_take]
    omega
  · right
    have : ps.any Option.isNone = true := List.any_eq_true.mpr ⟨none, h, rfl⟩
    simp [fit, this]

/-- Only the first two extrema of the spline are kept, in order. -/
theorem c93_extrema (scipy : List K → List (Option K) → Spline K) (vs : List K) (ps : List (Option K)) :
    (fit scipy vs ps).extrema.length = min 2 (scipy vs ps).extrema.length ∧
      (fit scipy vs ps).extrema <+: (scipy vs ps).extrema :=
  ⟨by simp [fit], List.take_prefix _ _⟩

private theorem sum_zip (xs ys : List K) (h : xs.length = ys.length) (s b : K) :
    (List.zipWith (fun x y => y - (s * x + b)) xs ys).sum = ys.sum - s * xs.sum - (xs.length : ℕ) * b ∧
    (List.zipWith (fun x y => x * (y - (s * x + b))) xs ys).sum =
      (List.zipWith (· * ·) xs ys).sum - s * (xs.map fun x => x * x).sum - b * xs.sum := by
  induction xs generalizing ys with
  | nil =>
    cases ys with
    | nil => simp
    | cons y ys => simp at h
  | cons x xs ih =>
    cases ys with
    | nil => simp at h
    | cons y ys =>
      obtain ⟨i1, i2⟩ := ih ys (by simpa using h)
      simp only [List.zipWith_cons_cons, List.sum_cons, i1, i2, List.map_cons, List.length_cons]
      push_cast
      constructor <;> ring

/-- The line is the least squares line: its residuals add up to zero, alone and weighted with the abscissae. -/
theorem c92_line (xs ys : List K) (h : xs.length = ys.length)
    (hd : (xs.length : K) * (xs.map fun x => x * x).sum - xs.sum * xs.sum ≠ 0) :
    (List.zipWith (fun x y => y - ((line xs ys).1 * x + (line xs ys).2)) xs ys).sum = 0 ∧
    (List.zipWith (fun x y => x * (y - ((line xs ys).1 * x + (line xs ys).2))) xs ys).sum = 0 := by
  have hn : (xs.length : K) ≠ 0 := by
    intro e
    have : xs = [] := by
      have : xs.length = 0 := by exact_mod_cast e
      exact List.length_eq_zero_iff.1 this
    subst this
    simp at hd
  obtain ⟨h1, h2⟩ := sum_zip xs ys h (line xs ys).1 (line xs ys).2
  rw [h1, h2]
  simp only [line]
  generalize (xs.map fun x => x * x).sum = sxx at hd ⊢
  generalize (List.zipWith (· * ·) xs ys).sum = sxy
  generalize xs.sum = sx at hd ⊢
  generalize ys.sum = sy
  generalize (xs.length : K) = n at hd hn ⊢
  rw [← pow_two] at hd
  constructor
  · field_simp
    ring
  · field_simp
    ring

/-- The line through points of a straight line is that line. -/
theorem c92_line_exact (x1 x2 x3 x4 a b : K) (h1 : x1 < x2) (h2 : x2 < x3) (h3 : x3 < x4) :
    line [x1, x2, x3, x4] [a * x1 + b, a * x2 + b, a * x3 + b, a * x4 + b] = (a, b) := by
  have hd : (4 : K) * (x1 * x1 + (x2 * x2 + (x3 * x3 + x4 * x4))) -
      (x1 + (x2 + (x3 + x4))) * (x1 + (x2 + (x3 + x4))) ≠ 0 := by
    have e : (4 : K) * (x1 * x1 + (x2 * x2 + (x3 * x3 + x4 * x4))) -
      (x1 + (x2 + (x3 + x4))) * (x1 + (x2 + (x3 + x4))) = (x2 - x1) ^ 2 + (x3 - x1) ^ 2 + (x4 - x1) ^ 2 +
      (x3 - x2) ^ 2 + (x4 - x2) ^ 2 + (x4 - x3) ^ 2 := by ring
    rw [e]
    have : 0 < (x2 - x1) ^ 2 := by have := sub_pos.2 h1; positivity
    positivity
  have e1 : (line [x1, x2, x3, x4] [a * x1 + b, a * x2 + b, a * x3 + b, a * x4 + b]).1 = a := by
    simp only [line, List.length_cons, List.length_nil, List.sum_cons, List.sum_nil, List.map_cons, List.map_nil,
      List.zipWith_cons_cons, List.zipWith_nil_left, add_zero]
    push_cast
    rw [div_eq_iff (by norm_num; exact hd)]
    ring
  refine Prod.ext e1 ?_
  have e2 : (line [x1, x2, x3, x4] [a * x1 + b, a * x2 + b, a * x3 + b, a * x4 + b]).2 =
      ((a * x1 + b + (a * x2 + b + (a * x3 + b + (a * x4 + b)))) - a * (x1 + (x2 + (x3 + x4)))) / 4 := by
    rw [show (line [x1, x2, x3, x4] [a * x1 + b, a * x2 + b, a * x3 + b, a * x4 + b]).2 =
      (([a * x1 + b, a * x2 + b, a * x3 + b, a * x4 + b] : List K).sum -
        (line [x1, x2, x3, x4] [a * x1 + b, a * x2 + b, a * x3 + b, a * x4 + b]).1 * [x1, x2, x3, x4].sum) /
        (([x1, x2, x3, x4] : List K).length : ℕ) from rfl, e1]
    simp only [List.length_cons, List.length_nil, List.sum_cons, List.sum_nil, add_zero]
    norm_num
  rw [e2]
  field_simp
  ring

/-- **C92** (vapour branch beyond the curve). With two roots, and a curve that ends in a straight line, the area that is
compared is completed by the triangle between the end of the curve and the zero of that line, all relative to the pressure
tried. -/
theorem c92_triangle (scipy : List K → List (Option K) → Spline K) (v0 p0 : List K) (x1 x2 x3 x4 a b shift r0 r1 : K)
    (h1 : x1 < x2) (h2 : x2 < x3) (h3 : x3 < x4) (ha : a ≠ 0)
    (hr : (scipy (v0 ++ [x1, x2, x3, x4])
      ((p0 ++ [a * x1 + b + shift, a * x2 + b + shift, a * x3 + b + shift, a * x4 + b + shift]).map
        fun p => some (p - shift))).roots = [r0, r1]) :
    let vs := v0 ++ [x1, x2, x3, x4]
    let ps := p0 ++ [a * x1 + b + shift, a * x2 + b + shift, a * x3 + b + shift, a * x4 + b + shift]
    let I := (scipy vs (ps.map fun p => some (p - shift))).integral
    objective scipy vs ps shift = .ok (some ((I r0 r1 + (I r1 x4 - (a * x4 + b) ^ 2 / (2 * a))) ^ 2)) := by
  intro vs ps I
  have hv : lastFour vs = [x1, x2, x3, x4] := by simp [lastFour, vs]
  have hp : lastFour (ps.map (· - shift)) = [a * x1 + b, a * x2 + b, a * x3 + b, a * x4 + b] := by
    simp [lastFour, ps]
  have ht : tailRoot vs (ps.map (· - shift)) = some (-b / a) := by
    simp only [tailRoot, hv, hp, c92_line_exact x1 x2 x3 x4 a b h1 h2 h3, ha, if_false]
  have hroots : (fit scipy vs (ps.map fun p => some (p - shift))).roots = some [r0, r1] := by
    exact (fit_shifted scipy vs ps shift).1.trans (congrArg some hr)
  have l1 : vs.getLast? = some x4 := by simp [vs]
  have l2 : ps.getLast? = some (a * x4 + b + shift) := by simp [ps]
  unfold objective
  simp only [hroots, l1, l2, ht]
  congr 3
  have : (a * x4 + b + shift - shift) * (-b / a - x4) / 2 = - ((a * x4 + b) ^ 2 / (2 * a)) := by
    field_simp
    ring
  rw [this]
  show (I r0 r1 + (I r1 x4 + _)) = _
  ring

/-- A pressure at which the area is not a finite number is not accepted. -/
theorem c93_not_finite (E : Saturation.Ext K) (tol : K) (vs ps : List K) (p : K)
    (h : objective E.scipy vs ps p = .ok none) : accept E tol vs ps p = .ok none := by
  simp [accept, h]

/-- A spline whose loop is described by the given roots and whose areas cancel. -/
def loopExt (roots : List ℚ) (x : ℚ) : Saturation.Ext ℚ :=
  { scipy := fun _ _ => ⟨roots, [3/2, 5/2], fun _ _ => 0⟩
    minScalar := fun _ lo hi => if hi < lo then .error .valueError else .ok (max lo (min x hi))
    density := fun _ _ r => .ok (1 / (2 * r))
    check := fun _ => .ok ()
    eps := 1 }

/-- A loop with its saturation pressure. -/
example : saturation (loopExt [1, 2, 3] 5) (1/10) 1 [0, 1] (.ok ([1, 3/2, 5/2, 4], [some 9, some 2, some 7, some 3]))
    = .ok (some (5, 1, 1/3)) := by decide +kernel
/-- A loop whose vapour branch is not reached by the curve. -/
example : saturation (loopExt [1, 2] 5) (1/10) 1 [0, 1] (.ok ([1, 3/2, 5/2, 4, 5, 6], [some 9, some 2, some 8, some 7, some 6, some 5]))
    = .ok (some (5, 1, 1/4)) := by decide +kernel

/-- A curve whose last four points lie on the line `7 - v`. -/
example : objective (loopExt [1, 2] 5).scipy [1, 2, 3, 4, 5] [10, 7, 6, 5, 4] (2 : ℚ) = .ok (some 4) ∧
    (4 : ℚ) = (0 + (0 - ((-1) * 5 + 7) ^ 2 / (2 * (-1)))) ^ 2 := by decide +kernel
/-- A level end of the curve. -/
example : objective (loopExt [1, 2] 5).scipy [1, 2, 3, 4, 5] [10, 7, 7, 7, 7] (2 : ℚ) = .ok none := by decide +kernel

/-- **C93, violated.** For a mixture with one dominant component the message about it cannot be made: the
calculation fails with `TypeError`. -/
theorem c93_violated_message :
    saturation (loopExt [1, 2, 3] 5) (1/10) 1 [95/100, 5/100] (.ok ([1], [some 1])) = .error .typeError := by
  decide +kernel

/-- **C93, violated.** A substance whose pressure loop stays below the smallest pressure of 1 Pa has no
saturation pressure: the search fails because its bounds are in the wrong order. -/
theorem c93_violated_low_pressure :
    saturation (loopExt [1, 2, 3] (1/2)) (1/10) 1 [1]
      (.ok ([1, 3/2, 5/2, 4], [some 9, some (1/4), some (3/4), some (1/8)])) = .error .valueError := by
  decide +kernel

/-- **C93, violated.** With more than three roots the vapour density is that of the third root, not the
last one as the comment says. -/
theorem c93_violated_last_root :
    saturation (loopExt [1, 2, 3, 4, 5] 5) (1/10) 1 [1]
      (.ok ([1, 3/2, 5/2, 4], [some 9, some 2, some 7, some 3])) = .ok (some (5, 1, 1/3)) := by
  decide +kernel

/-- **C93, violated.** The fugacity coefficients at the end are only for a message, but if they cannot be
computed the whole calculation fails. -/
theorem c93_violated_check (e : PyErr) :
    saturation { loopExt [1, 2, 3] 5 with check := fun _ => .error e } (1/10) 1 [1]
      (.ok ([1, 3/2, 5/2, 4], [some 9, some 2, some 7, some 3])) = .error e := by
  cases e <;> decide +kernel

end Verif.Props
