import Mathlib.Algebra.Order.Archimedean.Basic
import Mathlib.Tactic.NormNum
import Verif.Props.PressureRange

/-!
# C162: the pressure range of a mixture whose objective falls through zero once
-/

set_option linter.unusedSectionVars false

namespace Verif.Props

open Verif.PressureRange Verif.PhaseDensity Verif.Composition

section

variable {K : Type} [Field K] [LinearOrder K]

/-- A mixture that has a liquid and, above it, a vapour of another composition at every pressure, and whose objective `f`
falls with the pressure: it is positive below the bubble pressure `S` and negative above it.  The vapour is found from every guess
in `G`, and its composition is in `G` again. -/
structure FallingThrough (G : List K → Prop) (o : PressureRange.Opts K) (E : PressureRange.Env K) (f : K → K) (S : K) : Prop where
  phases : ∀ p, 0 < p → ∃ φl, E.liq p = .ok (φl, 1) ∧ φl.any (·.isNone) = false ∧ ∀ yi, G yi → ∃ y φv flag,
    E.vap yi φl p = .ok (y, φv, flag) ∧ G y ∧ (flag = some 0 ∨ flag = some 2 ∨ flag = some 4) ∧
      isTrivial o.xytol E.xi y = false ∧ equilibriumObjective .vapor E.xi φl φv = .ok (f p)
  above : ∀ p, 0 < p → p < S → 0 < f p
  below : ∀ p, S < p → f p < 0
  falls : ∀ p q, 0 < p → p ≤ q → f q ≤ f p

variable [IsStrictOrderedRing K] {G : List K → Prop} {o : PressureRange.Opts K} {E : PressureRange.Env K} {f : K → K} {S : K}

private theorem falling_vapor (H : FallingThrough G o E f S) {p : K} (hp : 0 < p) : ∃ φl, E.liq p = .ok (φl, 1) ∧ φl.any (·.isNone) = false ∧
    ∀ yi, G yi → ∃ y flag, vapor E yi φl p = .ok (y, flag, f p) ∧ G y ∧ notVapor flag = false ∧ isTrivial o.xytol E.xi y = false := by
  obtain ⟨φl, h1, h2, h3⟩ := H.phases p hp
  refine ⟨φl, h1, h2, fun yi hy => ?_⟩
  obtain ⟨y, φv, flag, e, hG, hf, ht, ho⟩ := h3 yi hy
  refine ⟨y, flag, ?_, hG, ?_, ht⟩
  · simp [vapor, e, ho, bind, Except.bind]
  · rcases hf with rfl | rfl | rfl <;> rfl

/-- One iteration of the first loop below the bubble pressure. -/
private theorem falling_low_found (H : FallingThrough G o E f S) (L : PressureRange.Limits K) (s : PressureRange.St K) (hg : G s.yi) (hp : 0 < s.p)
    (h : 0 < f s.p) : ∃ y, G y ∧ lowStep o E L s = .ok (({ s with yi := y, obj := some (f s.p) }).setLo E s.p (some (f s.p)), true) := by
  obtain ⟨φl, h1, h2, h3⟩ := falling_vapor H hp
  obtain ⟨y, flag, h4, hy, h5, h6⟩ := h3 s.yi hg
  refine ⟨y, hy, ?_⟩
  simp only [lowStep, h1, bind, Except.bind, h2, lowPhase, lowLiquid, h4, h5, h6]
  simp [h]

/-- One iteration of the first loop above the bubble pressure. -/
private theorem falling_low_high (H : FallingThrough G o E f S) (L : PressureRange.Limits K) (s : PressureRange.St K) (hg : G s.yi) (hp : 0 < s.p)
    (h : f s.p < 0) : ∃ y, G y ∧ lowStep o E L s = (do
      let s'' ← lowCheck L (clamp L (tooHigh o E L { s with yi := y, obj := some (f s.p) } (f s.p)))
      .ok (s'', false)) := by
  obtain ⟨φl, h1, h2, h3⟩ := falling_vapor H hp
  obtain ⟨y, flag, h4, hy, h5, h6⟩ := h3 s.yi hg
  refine ⟨y, hy, ?_⟩
  simp only [lowStep, h1, bind, Except.bind, h2, lowPhase, lowLiquid, h4, h5, h6]
  simp [h, h.not_gt]

/-- What the first loop hands over: a lower end below the bubble pressure, and either the upper end it was given or one above
the bubble pressure. -/
private structure Handed (G : List K → Prop) (f : K → K) (S : K) (s s' : PressureRange.St K) : Prop where
  good : G s'.yi
  pos : 0 < s'.P0
  lt : s'.P0 < S
  val : s'.O0 = some (f s'.P0)
  crit : s'.critical = s.critical
  hi : (s'.P0 = s.p ∧ s'.P1 = s.P1 ∧ s'.fmax = s.fmax) ∨ S < s'.P1

private theorem falling_low (H : FallingThrough G o E f S) (hs : ∀ p, E.store p = p) (ho : GoodOpts o) (L : PressureRange.Limits K)
    (hL : L.hardLo = false) : ∀ (k n : ℕ) (s : PressureRange.St K), G s.yi → 0 < s.p → s.fmin = false → k + 2 ≤ n → o.minfactor ^ k * s.p < S →
      (∀ j < k, o.minfactor ^ j * s.p ≠ S) → ∃ s', lowLoop o E L n s = .ok s' ∧ Handed G f S s s' := by
  intro k
  induction k with
  | zero =>
    intro n s hg hp hm hn hk _
    obtain ⟨m, rfl⟩ : ∃ m, n = m + 2 := ⟨n - 2, by omega⟩
    rw [pow_zero, one_mul] at hk
    obtain ⟨y, hy, e⟩ := falling_low_found H L s hg hp (H.above _ hp hk)
    refine ⟨_, by simp only [lowLoop, e, bind, Except.bind]; simp; rfl, ?_⟩
    simp only [St.setLo, keep_id E hs]
    exact ⟨hy, hp, hk, rfl, rfl, .inl ⟨rfl, rfl, rfl⟩⟩
  | succ k ih =>
    intro n s hg hp hm hn hk hne
    obtain ⟨m, rfl⟩ : ∃ m, n = m + 2 := ⟨n - 2, by omega⟩
    have h0 := hne 0 (by omega)
    rw [pow_zero, one_mul] at h0
    rcases lt_or_gt_of_ne h0 with hlt | hgt
    · obtain ⟨y, hy, e⟩ := falling_low_found H L s hg hp (H.above _ hp hlt)
      refine ⟨_, by simp only [lowLoop, e, bind, Except.bind]; simp; rfl, ?_⟩
      simp only [St.setLo, keep_id E hs]
      exact ⟨hy, hp, hlt, rfl, rfl, .inl ⟨rfl, rfl, rfl⟩⟩
    · obtain ⟨y, hy, e⟩ := falling_low_high H L s hg hp (H.below _ hgt)
      have hmul : 0 < o.minfactor * s.p := mul_pos ho.min hp
      obtain ⟨t, ht, htp, htm, htc, ht1, hty⟩ : ∃ t, tooHigh o E L { s with yi := y, obj := some (f s.p) } (f s.p) = t ∧
          t.p = o.minfactor * s.p ∧ t.fmin = false ∧ t.critical = s.critical ∧ t.P1 = s.p ∧ t.yi = y := by
        refine ⟨_, rfl, ?_⟩
        simp only [tooHigh, hm, hL, downTo, lowerTo, St.setHi, keep_id E hs]
        simp only [Bool.or_self, Bool.false_eq_true, if_false]
        split_ifs <;> simp [St.setLo]
      have hcl : lowCheck L (clamp L t) = .ok t := by
        simp [clamp, lowCheck, hL, htm, htp, hmul]
      rw [ht, hcl] at e
      obtain ⟨s', h', hh⟩ := ih (m + 1) t (by rw [hty]; exact hy) (by rw [htp]; exact hmul) htm (by omega)
        (by rw [htp, ← mul_assoc, ← pow_succ]; exact hk)
        (fun j hj => by rw [htp, ← mul_assoc, ← pow_succ]; exact hne (j + 1) (by omega))
      refine ⟨s', ?_, hh.good, hh.pos, hh.lt, hh.val, hh.crit.trans htc, .inr ?_⟩
      · rw [lowLoop]
        simp only [e, bind, Except.bind]
        simpa using h'
      · rcases hh.hi with ⟨_, h1, _⟩ | h1
        · rw [h1, ht1]; exact hgt
        · exact h1

/-- An iteration of the second loop above the bubble pressure finds the range. -/
private theorem falling_high_found (H : FallingThrough G o E f S) (hs : ∀ p, E.store p = p) (L : PressureRange.Limits K) (n : ℕ) (first : Bool)
    (objs : List (Option K)) (s : PressureRange.St K) (hg : G s.yi) (hp : 0 < s.p) (h : f s.p < 0) : ∃ r, highStep o E L n first objs s = .ok (.found r) ∧
      r.P1 = s.p ∧ r.P0 = (if s.P1 < s.p then s.P1 else s.P0) ∧ r.critical = s.critical ∧ r.well = false := by
  obtain ⟨φl, h1, h2, h3⟩ := falling_vapor H hp
  obtain ⟨y, flag, h4, hy, h5, h6⟩ := h3 s.yi hg
  refine ⟨_, by simp only [highStep, h1, bind, Except.bind, h2, h4, h5, h6]; simp only [Bool.false_eq_true, if_false, if_pos h]; rfl, ?_⟩
  by_cases hc : s.P1 < s.p <;> simp [hc, St.range, St.setHi, St.setLo, keep_id E hs]

/-- An iteration of the second loop below the bubble pressure, without an upper limit: the range moves up. -/
private theorem falling_high_next (H : FallingThrough G o E f S) (hs : ∀ p, E.store p = p) (L : PressureRange.Limits K) (hL : L.hardHi = false)
    (n : ℕ) (first : Bool) (objs : List (Option K)) (s : PressureRange.St K) (hg : G s.yi) (hp : 0 < s.p) (hm : s.fmax = false) (h : 0 ≤ f s.p)
    (hr : rising first (f s.p) (objs.headD none) = false) : ∃ s', highStep o E L n first objs s = .ok (.next s' (some (f s.p) :: objs)) ∧
      s'.P1 = s.p ∧ s'.P0 = (if s.P1 < s.p then s.P1 else s.P0) ∧ o.maxfactor * s.p ≤ s'.p ∧ s'.fmax = false ∧ s'.critical = s.critical ∧ G s'.yi := by
  obtain ⟨φl, h1, h2, h3⟩ := falling_vapor H hp
  obtain ⟨y, flag, h4, hy, h5, h6⟩ := h3 s.yi hg
  refine ⟨_, by
    simp only [highStep, h1, bind, Except.bind, h2, h4, h5, h6]
    simp only [Bool.false_eq_true, if_false, if_neg (not_lt.2 h), positive, hr, hm, hL]; rfl, ?_⟩
  have hx : ∀ t : PressureRange.St K, o.maxfactor * t.P1 ≤ extrapolate o t := by
    intro t
    unfold extrapolate
    split
    · split_ifs
      · exact le_rfl
      · exact le_max_right _ _
    · exact le_rfl
  refine ⟨?_, ?_, ?_, ?_, ?_, ?_⟩
  · by_cases hc : s.P1 < s.p <;> simp [hc, St.setHi, St.setLo, keep_id E hs]
  · by_cases hc : s.P1 < s.p <;> simp [hc, St.setHi, St.setLo, keep_id E hs]
  · refine le_of_eq_of_le ?_ (hx _)
    by_cases hc : s.P1 < s.p <;> simp [hc, St.setHi, St.setLo, keep_id E hs]
  · by_cases hc : s.P1 < s.p <;> simp [hc, St.setHi, St.setLo]
  · by_cases hc : s.P1 < s.p <;> simp [hc, St.setHi, St.setLo]
  · by_cases hc : s.P1 < s.p <;> simpa [hc, St.setHi, St.setLo] using hy

private theorem falling_high (H : FallingThrough G o E f S) (hs : ∀ p, E.store p = p) (ho : GoodOpts o) (L : PressureRange.Limits K)
    (hL : L.hardHi = false) : ∀ (k n : ℕ) (first : Bool) (objs : List (Option K)) (s : PressureRange.St K), G s.yi → 0 < s.P0 → s.P0 < s.P1 →
      s.P0 ≤ S → s.P1 ≤ s.p → s.fmax = false → ((first = true ∧ s.p = s.P1) ∨ (objs.headD none = some (f s.P1) ∧ 0 ≤ f s.P1)) →
      o.ptol ≤ s.p - (if s.P1 < s.p then s.P1 else s.P0) → o.ptol ≤ (o.maxfactor - 1) * s.p → S < o.maxfactor ^ k * s.p → k + 2 ≤ n →
      ∃ r, highLoop o E L n first objs s = .ok (some r) ∧ r.P0 ≤ S ∧ S ≤ r.P1 ∧ r.critical = s.critical ∧ r.well = false := by
  intro k
  induction k with
  | zero =>
    intro n first objs s hg h0 h01 hS hp hm hf ht ht' hk hn
    obtain ⟨m, rfl⟩ : ∃ m, n = m + 2 := ⟨n - 2, by omega⟩
    rw [pow_zero, one_mul] at hk
    have hpos : 0 < s.p := (h0.trans h01).trans_le hp
    obtain ⟨r, e, r1, r0, rc, rw'⟩ := falling_high_found H hs L (m + 1) first objs s hg hpos (H.below _ hk)
    refine ⟨r, by simp [highLoop, e, bind, Except.bind], ?_, by rw [r1]; exact hk.le, rc, rw'⟩
    rw [r0]
    by_cases hc : s.P1 < s.p
    · rw [if_pos hc]
      rcases hf with ⟨_, hf⟩ | ⟨_, hf⟩
      · exact absurd hf hc.ne'
      · by_contra hcon
        exact absurd (H.below _ (not_le.1 hcon)) (not_lt.2 hf)
    · rw [if_neg hc]; exact hS
  | succ k ih =>
    intro n first objs s hg h0 h01 hS hp hm hf ht ht' hk hn
    obtain ⟨m, rfl⟩ : ∃ m, n = m + 2 := ⟨n - 2, by omega⟩
    have hpos : 0 < s.p := (h0.trans h01).trans_le hp
    have hle : (if s.P1 < s.p then s.P1 else s.P0) ≤ S := by
      by_cases hc : s.P1 < s.p
      · rw [if_pos hc]
        rcases hf with ⟨_, hf⟩ | ⟨_, hf⟩
        · exact absurd hf hc.ne'
        · by_contra hcon
          exact absurd (H.below _ (not_le.1 hcon)) (not_lt.2 hf)
      · rw [if_neg hc]; exact hS
    by_cases hneg : f s.p < 0
    · obtain ⟨r, e, r1, r0, rc, rw'⟩ := falling_high_found H hs L (m + 1) first objs s hg hpos hneg
      refine ⟨r, by simp [highLoop, e, bind, Except.bind], by rw [r0]; exact hle, ?_, rc, rw'⟩
      rw [r1]
      by_contra hcon
      exact absurd (H.above _ hpos (not_le.1 hcon)) hneg.not_gt
    · have hnn := not_lt.1 hneg
      have hr : rising first (f s.p) (objs.headD none) = false := by
        unfold rising
        rcases hf with ⟨rfl, _⟩ | ⟨e, hf⟩
        · rfl
        · rw [e]
          have h1 := H.falls _ _ (h0.trans h01) hp
          simp only [Option.any_some, Bool.and_eq_false_iff, decide_eq_false_iff_not]
          right
          intro hcon
          linarith
      obtain ⟨t, e, t1, t0, tp, tm, tc, ty⟩ := falling_high_next H hs L hL (m + 1) first objs s hg hpos hm hnn hr
      have hgrow : s.p < o.maxfactor * s.p := by
        have := mul_lt_mul_of_pos_right ho.max hpos
        linarith
      have htp : 0 < t.p := (hpos.trans hgrow).trans_le tp
      have hgap : ¬ |t.P1 - t.P0| < o.ptol := by
        rw [t1, t0, not_lt]
        exact ht.trans (le_abs_self _)
      have hlt : (if s.P1 < s.p then s.P1 else s.P0) < s.p := by
        by_cases hc : s.P1 < s.p
        · rw [if_pos hc]; exact hc
        · rw [if_neg hc]; exact h01.trans_le hp
      have hpos0 : 0 < (if s.P1 < s.p then s.P1 else s.P0) := by
        by_cases hc : s.P1 < s.p
        · rw [if_pos hc]; exact h0.trans h01
        · rw [if_neg hc]; exact h0
      have hup : t.P1 < t.p := by rw [t1]; exact hgrow.trans_le tp
      obtain ⟨r, h, ha, hb, hc, hw⟩ := ih (m + 1) false (some (f s.p) :: objs) t ty (by rw [t0]; exact hpos0) (by rw [t0, t1]; exact hlt)
        (by rw [t0]; exact hle) hup.le tm (.inr ⟨by rw [t1]; rfl, by rw [t1]; exact hnn⟩)
        (by rw [if_pos hup, t1]; nlinarith)
        (ht'.trans (mul_le_mul_of_nonneg_left (hgrow.le.trans tp) (by linarith [ho.max])))
        (hk.trans_le (by rw [pow_succ, mul_assoc]; exact mul_le_mul_of_nonneg_left tp (pow_nonneg (by linarith [ho.max]) _))) (by omega)
      refine ⟨r, ?_, ha, hb, hc.trans tc, hw⟩
      rw [highLoop]
      simp only [e, bind, Except.bind, if_neg (not_le.2 htp), if_neg hgap]
      simpa using h

/-- **C162** (without limits): the search encloses the bubble pressure, if it can be reached within the iterations by the two factors and
if the lower loop does not meet it exactly. -/
theorem c162_range (H : FallingThrough G o E f S) (hs : ∀ p, E.store p = p) (ho : GoodOpts o) (hr : ∀ n, 0 < E.rand n ∧ E.rand n < 1)
    (h0 : o.pmin = none) (h1 : o.pmax = none) (hlo : 0 < lowLimit o E)
    (hw : upper o E ≤ lowLimit o E ∨ lowLimit o E + o.ptol ≤ upper o E) (htol : o.ptol ≤ (o.maxfactor - 1) * lowLimit o E) (k : ℕ)
    (hk : k + 2 ≤ o.maxiter) (hdown : o.minfactor ^ k * lowLimit o E < S) (hup : S < o.maxfactor ^ k * lowLimit o E)
    (hne : ∀ j < k, o.minfactor ^ j * lowLimit o E ≠ S) (yi : List K) (hg : G yi) :
    ∃ r, PressureRange.search o E yi = .ok (some r) ∧ GoodRange E r ∧ r.P0 ≤ S ∧ S ≤ r.P1 := by
  have hhL : (limits o E).hardLo = false := by simp [limits, h0]
  have hhH : (limits o E).hardHi = false := by simp [limits, h1]
  have hmax : 0 < o.maxfactor := lt_trans one_pos ho.max
  obtain ⟨s', e, hh⟩ := falling_low H hs ho (limits o E) hhL k o.maxiter (start (limits o E) yi) hg hlo rfl hk hdown hne
  suffices h : ∃ r, highLoop o E (limits o E) o.maxiter true [(between o E s').O1] { between o E s' with p := (between o E s').P1 } =
      .ok (some r) ∧ r.P0 ≤ S ∧ S ≤ r.P1 ∧ r.critical = false ∧ r.well = false by
    obtain ⟨r, h, a, b, c, d⟩ := h
    have hres : PressureRange.search o E yi = .ok (some r) := by
      simp only [PressureRange.search, e, bind, Except.bind]
      exact h
    exact ⟨r, hres, c98_range_partial ho hs hr hlo yi r hres c d, a, b⟩
  have hcrit : s'.critical = false := hh.crit
  rcases hh.hi with ⟨hp0, hp1, hfm⟩ | hhi
  · have hp0' : s'.P0 = lowLimit o E := hp0
    have hp1' : s'.P1 = highLimit o E (lowLimit o E) := hp1
    have hfm' : s'.fmax = false := hfm
    have hle : lowLimit o E * o.maxfactor ≤ s'.P1 ∨ s'.P1 ≤ s'.P0 ∨ s'.P0 + o.ptol ≤ s'.P1 := by
      rw [hp1', highLimit, hp0']
      by_cases hc : upper o E < lowLimit o E
      · rw [if_pos hc]; exact .inl le_rfl
      · rw [if_neg hc]
        exact .inr hw
    obtain ⟨t, ht, t0, t1, tm, tc, ty⟩ : ∃ t, between o E s' = t ∧ t.P0 = lowLimit o E ∧ t.P0 + o.ptol ≤ t.P1 ∧ t.fmax = false ∧
        t.critical = false ∧ G t.yi := by
      refine ⟨_, rfl, ?_⟩
      unfold between
      by_cases hc : s'.P1 ≤ s'.P0
      · rw [if_pos hc]
        refine ⟨hp0', ?_, hfm', hcrit, hh.good⟩
        simp only [keep_id E hs]
        rw [hp0']
        linarith
      · rw [if_neg hc]
        refine ⟨hp0', ?_, hfm', hcrit, hh.good⟩
        rcases hle with h | h | h
        · rw [hp0']; linarith
        · exact absurd h hc
        · exact h
    rw [ht]
    have htp : t.P0 < t.P1 := lt_of_lt_of_le (lt_add_of_pos_right _ ho.tol) t1
    obtain ⟨r, h, a, b, c, d⟩ := falling_high H hs ho (limits o E) hhH k o.maxiter true [t.O1] { t with p := t.P1 }
      ty (by rw [t0]; exact hlo) htp (by rw [t0, ← hp0']; exact hh.lt.le) le_rfl tm (.inl ⟨rfl, rfl⟩)
      (by dsimp only; rw [if_neg (lt_irrefl _)]; linarith)
      (htol.trans (mul_le_mul_of_nonneg_left (by rw [← t0]; exact htp.le) (by linarith [ho.max])))
      (hup.trans_le (mul_le_mul_of_nonneg_left (by rw [← t0]; exact htp.le) (pow_nonneg hmax.le _))) hk
    exact ⟨r, h, a, b, c.trans tc, d⟩
  · have hlt : s'.P0 < s'.P1 := hh.lt.trans hhi
    have hb : between o E s' = s' := if_neg (not_le.2 hlt)
    rw [hb]
    obtain ⟨n, hn⟩ : ∃ n, o.maxiter = n + 2 := ⟨o.maxiter - 2, by omega⟩
    obtain ⟨r, h, r1, r0, rc, rw'⟩ := falling_high_found H hs (limits o E) (n + 1) true [s'.O1] { s' with p := s'.P1 }
      hh.good (hh.pos.trans hlt) (H.below _ hhi)
    rw [hn]
    refine ⟨r, by simp [highLoop, h, bind, Except.bind], ?_, ?_, rc.trans hcrit, rw'⟩
    · rw [r0]; dsimp only; rw [if_neg (lt_irrefl _)]; exact hh.lt.le
    · rw [r1]; exact hhi.le

/-- **C162** (limits on both sides of the bubble pressure): the range is the one that was given. -/
theorem c162_limits (H : FallingThrough G o E f S) (hs : ∀ p, E.store p = p) (lo hi : K) (h0 : o.pmin = some lo) (h1 : o.pmax = some hi)
    (hlo : 0 < lo) (hl : lo < S) (hu : S < hi) (hk : 2 ≤ o.maxiter) (yi : List K) (hg : G yi) :
    ∃ r, PressureRange.search o E yi = .ok (some r) ∧ r.P0 = lo ∧ r.P1 = hi ∧ r.guess = some (crossing lo hi (f lo) (f hi)) := by
  have hL : limits o E = ⟨lo, hi, true, true⟩ := by
    simp [limits, lowLimit, highLimit, upper, h0, h1, (hl.trans hu).not_gt]
  obtain ⟨n, hn⟩ : ∃ n, o.maxiter = n + 2 := ⟨o.maxiter - 2, by omega⟩
  obtain ⟨y, hy, e⟩ := falling_low_found H ⟨lo, hi, true, true⟩ (start ⟨lo, hi, true, true⟩ yi) hg hlo (H.above _ hlo hl)
  obtain ⟨φl, g1, g2, g3⟩ := falling_vapor H (hlo.trans (hl.trans hu))
  obtain ⟨y', flag, g4, _, g5, g6⟩ := g3 y hy
  have hneg := H.below _ hu
  have hne : f hi ≠ f lo := ((hneg.trans (H.above _ hlo hl))).ne
  simp only [start, St.setLo, keep_id E hs] at e
  refine ⟨_, by
    simp only [PressureRange.search, hL, hn, lowLoop, start, e, bind, Except.bind]
    simp only [Nat.add_eq_zero_iff, one_ne_zero, and_false, if_false, if_true, between, if_neg (not_le.2 (hl.trans hu)), highLoop, highStep,
      g1, g2, g4, g5, g6, bind, Except.bind, Bool.false_eq_true, if_pos hneg, lt_irrefl]
    rfl, ?_, ?_, ?_⟩
  · rfl
  · simp [St.range, St.setHi, keep_id E hs]
  · simp [St.range, St.setHi, keep_id E hs, guess, (hl.trans hu).ne', hne]

/-- **C162** (a lower limit above the bubble pressure): the search raises. -/
theorem c162_below_limit (H : FallingThrough G o E f S) (hs : ∀ p, E.store p = p) (lo : K) (h0 : o.pmin = some lo) (hlo : 0 < lo) (hl : S < lo)
    (hk : 0 < o.maxiter) (yi : List K) (hg : G yi) : PressureRange.search o E yi = .error .valueError := by
  obtain ⟨n, hn⟩ : ∃ n, o.maxiter = n + 1 := ⟨o.maxiter - 1, by omega⟩
  have hL : (limits o E).hardLo = true := by simp [limits, h0]
  have hlo' : (limits o E).lo = lo := by simp [limits, lowLimit, h0]
  obtain ⟨y, _, e⟩ := falling_low_high H (limits o E) (start (limits o E) yi) hg (by simpa [start, hlo'] using hlo)
    (by simpa [start, hlo'] using H.below _ hl)
  have : lowStep o E (limits o E) (start (limits o E) yi) = .error .valueError := by
    rw [e]
    simp [tooHigh, start, hL, hlo', downTo, St.setHi, keep_id E hs, St.mid, clamp, lowCheck, bind, Except.bind, hlo.not_ge]
  simp only [PressureRange.search, hn, lowLoop, this, bind, Except.bind]

/-- **C162** is violated: with an upper limit below the bubble pressure a range is returned that does not contain it, instead of none.  It is enough that the objective at
the random pressure tried next is more than a tenth above that at the limit: this counts as a rise, and the pressure of the minimiser becomes the upper end
because the objective there is positive. -/
theorem c162_violated_above_limit (H : FallingThrough G o E f S) (hs : ∀ p, E.store p = p) (lo hi p : K) (h0 : o.pmin = some lo) (h1 : o.pmax = some hi)
    (hlo : 0 < lo) (hlh : lo < hi) (hu : hi < S) (n : ℕ) (hk : o.maxiter = n + 3) (ht : o.ptol ≤ hi - lo) (hr : 0 < E.rand (n + 2) ∧ E.rand (n + 2) < 1)
    (hj : 11 / 10 * f hi < f ((hi - lo) * E.rand (n + 2) + lo)) (hp : 0 < p) (hpS : p < S)
    (hw : E.well lo ((hi - lo) * E.rand (n + 2) + lo) = .ok (p, f p)) (yi : List K) (hg : G yi) :
    ∃ r, PressureRange.search o E yi = .ok (some r) ∧ r.P0 = lo ∧ r.P1 = p ∧ r.P0 < S ∧ r.P1 < S ∧ r.O0 = some (f lo) ∧ r.O1 = some (f p) ∧
      0 < f lo ∧ 0 < f p := by
  have hl := hlh.trans hu
  have hL : limits o E = ⟨lo, hi, true, true⟩ := by
    simp [limits, lowLimit, highLimit, upper, h0, h1, hlh.not_gt]
  obtain ⟨y, hy, e⟩ := falling_low_found H ⟨lo, hi, true, true⟩ (start ⟨lo, hi, true, true⟩ yi) hg hlo (H.above _ hlo hl)
  obtain ⟨φl, g1, g2, g3⟩ := falling_vapor H (hlo.trans hlh)
  obtain ⟨y', flag, g4, hy', g5, g6⟩ := g3 y hy
  have hd : 0 < hi - lo := sub_pos.2 hlh
  have hq : 0 < (hi - lo) * E.rand (n + 2) + lo := add_pos (mul_pos hd hr.1) hlo
  obtain ⟨φl', k1, k2, k3⟩ := falling_vapor H hq
  obtain ⟨y'', flag', k4, _, k5, k6⟩ := k3 y' hy'
  have hpos := H.above _ (hlo.trans hlh) hu
  have hqS : (hi - lo) * E.rand (n + 2) + lo < S := by
    have := mul_lt_mul_of_pos_left hr.2 hd
    rw [mul_one] at this
    have : (hi - lo) * E.rand (n + 2) + lo < hi := by linarith
    exact this.trans hu
  have hpos' := H.above _ hq hqS
  have hpp := H.above _ hp hpS
  have habs : ¬ |hi - lo| < o.ptol := by rw [abs_of_pos hd]; exact not_lt.2 ht
  simp only [start, St.setLo, keep_id E hs] at e
  refine ⟨⟨lo, p, if p = lo ∨ f p = f lo then none else some (crossing lo p (f lo) (f p)), some (f lo), some (f p), false, true⟩, ?_, rfl, rfl, hl, hpS, rfl, rfl, H.above _ hlo hl, hpp⟩
  · simp only [PressureRange.search, hL, hk, lowLoop, start, e, bind, Except.bind]
    simp only [Nat.add_eq_zero_iff, one_ne_zero, OfNat.ofNat_ne_zero, and_false, if_false, if_true, between, if_neg (not_le.2 hlh), highLoop, highStep,
      g1, g2, g4, g5, g6, bind, Except.bind, Bool.false_eq_true, if_neg hpos.not_gt, positive, rising, Bool.not_true, Bool.false_and,
      if_neg hq.not_ge, if_neg habs, k1, k2, k4, k5, k6, if_neg hpos'.not_gt]
    simp [hj, inWell, St.setHi, keep_id E hs, hw, hpp, bind, Except.bind, St.range, guess]

/-- **C162** is violated: a search that begins exactly at the bubble pressure raises. -/
theorem c162_violated_start (H : FallingThrough G o E f S) (hlo : 0 < lowLimit o E) (hz : f (lowLimit o E) = 0)
    (hk : 0 < o.maxiter) (yi : List K) (hg : G yi) : PressureRange.search o E yi = .error .valueError := by
  obtain ⟨n, hn⟩ : ∃ n, o.maxiter = n + 1 := ⟨o.maxiter - 1, by omega⟩
  obtain ⟨φl, g1, g2, g3⟩ := falling_vapor H hlo
  obtain ⟨y', flag, g4, _, g5, g6⟩ := g3 yi hg
  have : lowStep o E (limits o E) (start (limits o E) yi) = .error .valueError := by
    simp [lowStep, start, limits, g1, g2, lowPhase, lowLiquid, g4, g5, g6, hz, bind, Except.bind]
  simp only [PressureRange.search, hn, lowLoop, this, bind, Except.bind]

end

section
variable {K : Type} [Field K] [LinearOrder K]

/-- **C162** is violated: if the vapour has the composition of the liquid, within the tolerance, at every pressure at which there is one, as for
a pure substance and for a mixture at its azeotrope, then no pressure range is found. -/
theorem c162_violated_same_composition (o : PressureRange.Opts K) (E : PressureRange.Env K)
    (h : ∀ yi φl p y φv flag, E.vap yi φl p = .ok (y, φv, flag) → isTrivial o.xytol E.xi y = true) (yi : List K) (r : PressureRange.Range K) :
    PressureRange.search o E yi ≠ .ok (some r) := by
  have hstep : ∀ L n first objs s r, highStep o E L n first objs s ≠ .ok (.found r) := by
    intro L n first objs s r e
    unfold highStep at e
    simp only [bind, Except.bind] at e
    cases hl : E.liq s.p with
    | error x => rw [hl] at e; cases e
    | ok v =>
      rw [hl] at e
      dsimp only at e
      by_cases hn : v.1.any (·.isNone) = true
      · rw [if_pos hn] at e; cases e
      · rw [if_neg hn] at e
        cases hv : vapor E s.yi v.1 s.p with
        | error x => rw [hv] at e; cases e
        | ok w =>
          rw [hv] at e
          have ht : isTrivial o.xytol E.xi w.1 = true := by
            unfold vapor at hv
            simp only [bind, Except.bind] at hv
            cases hw : E.vap s.yi v.1 s.p with
            | error x => rw [hw] at hv; cases hv
            | ok u =>
              rw [hw] at hv
              dsimp only at hv
              cases hq : equilibriumObjective .vapor E.xi v.1 u.2.1 with
              | error x => rw [hq] at hv; cases hv
              | ok q =>
                rw [hq] at hv
                cases hv
                exact h _ _ _ _ _ _ hw
          dsimp only at e
          rw [if_pos ht] at e
          split_ifs at e <;> cases e
  have hloop : ∀ L n first objs s, highLoop o E L n first objs s ≠ .ok (some r) := by
    intro L n
    induction n with
    | zero => intro first objs s e; cases e
    | succ n ih =>
      intro first objs s e
      unfold highLoop at e
      simp only [bind, Except.bind] at e
      cases hh : highStep o E L n first objs s with
      | error x => rw [hh] at e; cases e
      | ok v =>
        rw [hh] at e
        cases v with
        | found r' => exact hstep _ _ _ _ _ _ hh
        | failed => cases e
        | skip s' objs' =>
          dsimp only at e
          split_ifs at e
          · cases e
          · exact ih _ _ _ e
        | next s' objs' =>
          dsimp only at e
          split_ifs at e
          · cases e
          · exact ih _ _ _ e
  intro e
  unfold PressureRange.search at e
  simp only [bind, Except.bind] at e
  cases hl : lowLoop o E (limits o E) o.maxiter (start (limits o E) yi) with
  | error x => rw [hl] at e; cases e
  | ok s =>
    rw [hl] at e
    exact hloop _ _ _ _ _ e

variable [IsStrictOrderedRing K]

/-- **C162** is violated: for a pure substance no range is found.  (The calculation types take its saturation
pressure instead, calculation_types.py:153-156.) -/
theorem c162_violated_pure (o : PressureRange.Opts K) (E : PressureRange.Env K) (hx : E.xi = [1]) (ht : 0 < o.xytol)
    (h : ∀ yi φl p y φv flag, E.vap yi φl p = .ok (y, φv, flag) → y = [1]) (yi : List K) (r : PressureRange.Range K) :
    PressureRange.search o E yi ≠ .ok (some r) := by
  refine c162_violated_same_composition o E (fun yi φl p y φv flag e => ?_) yi r
  rw [h _ _ _ _ _ _ e, hx]
  simp [isTrivial, ht]

/-- A mixture that follows the law of Raoult: the coefficients of the liquid are the saturation pressures divided by the pressure, the vapour is an
ideal gas of the composition of Raoult's law, which differs from that of the liquid and is found from every guess in `G`. -/
structure RaoultMixture (G : List K → Prop) (o : PressureRange.Opts K) (E : PressureRange.Env K) (sat : List K) : Prop where
  sum : E.xi.sum = 1
  length : sat.length = E.xi.length
  positive : ∀ a ∈ E.xi, 0 < a
  saturation : ∀ a ∈ sat, 0 < a
  liquid : ∀ p, 0 < p → E.liq p = .ok (sat.map (fun a => some (a / p)), 1)
  vapor : ∀ p, 0 < p → ∀ yi, G yi → E.vap yi (sat.map (fun a => some (a / p))) p =
    .ok ((List.zipWith (· * ·) E.xi sat).map (· / (List.zipWith (· * ·) E.xi sat).sum), sat.map (fun _ => some 1), some 0)
  closed : G ((List.zipWith (· * ·) E.xi sat).map (· / (List.zipWith (· * ·) E.xi sat).sum))
  differs : o.xytol ≤ (List.zipWith (fun a b => |a - b| / a) E.xi
    ((List.zipWith (· * ·) E.xi sat).map (· / (List.zipWith (· * ·) E.xi sat).sum))).sum

private theorem raoult_sum (p : K) : ∀ x sat : List K,
    ((x.zip ((sat.map fun a => some (a / p)).zip (sat.map fun _ => (some 1 : Option K)))).map fun q => q.1 * q.2.1.getD 0 / q.2.2.getD 0).sum =
      (List.zipWith (· * ·) x sat).sum / p := by
  intro x
  induction x with
  | nil => intro sat; simp
  | cons a x ih =>
    intro sat
    cases sat with
    | nil => simp
    | cons b sat =>
      have := ih sat
      simp only [List.map_cons, List.zip_cons_cons, List.sum_cons, List.zipWith_cons_cons, this, Option.getD_some, div_one]
      ring

private theorem raoult_nonneg : ∀ x sat : List K, (∀ a ∈ x, 0 < a) → (∀ a ∈ sat, 0 < a) → 0 ≤ (List.zipWith (· * ·) x sat).sum := by
  intro x
  induction x with
  | nil => intro sat _ _; simp
  | cons a x ih =>
    intro sat hx hs
    cases sat with
    | nil => simp
    | cons b sat =>
      simp only [List.zipWith_cons_cons, List.sum_cons]
      exact add_nonneg (mul_nonneg (hx a (by simp)).le (hs b (by simp)).le)
        (ih sat (fun c hc => hx c (by simp [hc])) (fun c hc => hs c (by simp [hc])))

/-- **C162** (law of Raoult): the objective of such a mixture falls, and its bubble pressure is the sum of the saturation pressures weighted with the
mole fractions; so `c162_range` and `c162_limits` apply to it. -/
theorem c162_raoult {G : List K → Prop} {o : PressureRange.Opts K} {E : PressureRange.Env K} {sat : List K} (H : RaoultMixture G o E sat) :
    FallingThrough G o E (fun p => (List.zipWith (· * ·) E.xi sat).sum / p - 1) (List.zipWith (· * ·) E.xi sat).sum := by
  have hS := raoult_nonneg E.xi sat H.positive H.saturation
  refine ⟨fun p hp => ⟨_, H.liquid p hp, ?_, fun yi hy => ⟨_, _, _, H.vapor p hp yi hy, H.closed, .inl rfl, ?_, ?_⟩⟩, fun p hp h => ?_, fun p h => ?_,
    fun p q hp h => ?_⟩
  · simp
  · simp only [isTrivial, Bool.and_eq_false_iff, decide_eq_false_iff_not, not_lt]
    exact .inr H.differs
  · unfold equilibriumObjective
    simp only [H.sum, ne_eq, not_true_eq_false, if_false, reduceCtorEq]
    have h1 : (sat.map fun _ => (some 1 : Option K)).any (·.isNone) = false := by simp
    have h2 : (sat.map fun a => some (a / p)).any (·.isNone) = false := by simp
    simp only [h1, h2, Bool.false_eq_true, if_false]
    rw [← raoult_sum p E.xi sat]
  · have : 1 < (List.zipWith (· * ·) E.xi sat).sum / p := (one_lt_div hp).2 h
    simpa using this
  · have : (List.zipWith (· * ·) E.xi sat).sum / p < 1 := (div_lt_one (hS.trans_lt h)).2 h
    simpa using this
  · have : (List.zipWith (· * ·) E.xi sat).sum / q ≤ (List.zipWith (· * ·) E.xi sat).sum / p := div_le_div_of_nonneg_left hS hp h
    simpa using this

end

/-- A mixture of equal parts of two substances with saturation pressures of 1000 Pa and 3000 Pa. -/
def equalParts : PressureRange.Env ℚ where
  xi := [1 / 2, 1 / 2]
  extremaP := []
  liq := fun p => .ok ([some (1000 / p), some (3000 / p)], 1)
  vap := fun _ _ _ => .ok ([1 / 4, 3 / 4], [some 1, some 1], some 0)
  rand := fun _ => 1 / 2
  well := fun _ _ => .error .valueError
  store := id

/-- The hypotheses of `c162_raoult` and `c162_range` are met, -/
example : RaoultMixture (fun _ => True) (rangeOpts none none) equalParts [1000, 3000] ∧ GoodOpts (rangeOpts none none) ∧
    (1 / 2 : ℚ) ^ 2 * lowLimit (rangeOpts none none) equalParts < 2000 ∧ (2000 : ℚ) < 2 ^ 2 * lowLimit (rangeOpts none none) equalParts ∧
    ∀ j < 2, (1 / 2 : ℚ) ^ j * lowLimit (rangeOpts none none) equalParts ≠ 2000 := by
  refine ⟨⟨?_, ?_, ?_, ?_, ?_, ?_, trivial, ?_⟩, ⟨?_, ?_, ?_⟩, ?_, ?_, ?_⟩
  · decide +kernel
  · rfl
  · simp [equalParts]
  · simp
  · intro p _; rfl
  · intro p _ yi _
    simp only [equalParts, List.map_cons, List.map_nil, List.zipWith_cons_cons, List.zipWith_nil_left, List.sum_cons, List.sum_nil]
    norm_num
  all_goals decide +kernel

/-- and the range that is found from the default lower limit of 1000 Pa and the default upper one of 100000 Pa. -/
example : (PressureRange.search (rangeOpts none none) equalParts [1 / 2, 1 / 2]).toOption.map (Option.map fun r => (r.P0, r.P1)) =
    some (some (1000, 100000)) := by
  decide +kernel

/-- The hypotheses of `c162_violated_start`: a search from the bubble pressure itself. -/
example : lowLimit (rangeOpts (some 2000) none) equalParts = 2000 ∧ (2000 : ℚ) / 2000 - 1 = 0 ∧
    PressureRange.search (rangeOpts (some 2000) none) equalParts [1 / 2, 1 / 2] = .error .valueError := by
  refine ⟨rfl, by norm_num, ?_⟩
  decide +kernel

/-- `c162_violated_above_limit`: limits of 100 Pa and 1000 Pa, a bubble pressure of 2000 Pa, and a minimiser that returns the end of its bounds. -/
example : (11 / 10 * (2000 / 1000 - 1) < (2000 / ((1000 - 100) * (1 / 2) + 100) - 1 : ℚ)) ∧
    (PressureRange.search (rangeOpts (some 100) (some 1000)) { equalParts with well := fun _ p => .ok (p, 2000 / p - 1) } [1 / 2, 1 / 2]).toOption.map
      (Option.map fun r => (r.P0, r.P1, r.guess)) = some (some (100, 550, some (1245 / 2))) := by
  refine ⟨by norm_num, ?_⟩
  decide +kernel

/-- Two substances of the same saturation pressure, to which `c162_violated_same_composition` applies: the search from limits on both sides of the
bubble pressure halves the range until it is too narrow, and raises. -/
example : PressureRange.search (rangeOpts (some 1000) (some 4000))
    { equalParts with liq := fun p => .ok ([some (2000 / p), some (2000 / p)], 1), vap := fun _ _ _ => .ok ([1 / 2, 1 / 2], [some 1, some 1], some 0) }
    [1 / 2, 1 / 2] = .error .valueError := by
  decide +kernel

end Verif.Props
