import Mathlib.Tactic.NormNum
import Mathlib.Tactic.SplitIfs
import Verif.Props.DewRange

/-!
# C163: the pressure range of a mixture whose dew objective rises through zero once
-/

set_option linter.unusedSectionVars false

namespace Verif.Props

open Verif.PressureRange Verif.PhaseDensity
open Verif.Composition (isTrivial)

section

variable {K : Type} [Field K] [LinearOrder K]

/-- A mixture that has a vapour and, at equilibrium with it, a liquid at every pressure, and whose objective `f` rises with the pressure: it is
negative below the dew pressure `S` and positive above it.  (In `Env` the given phase, here the vapour, is called `liq`, the other one `vap`.) -/
structure RisingThrough (o : PressureRange.Opts K) (E : PressureRange.Env K) (f : K → K) (S : K) : Prop where
  phases : ∀ p, 0 < p → ∃ φv flag, E.liq p = .ok (φv, flag) ∧ (flag = 0 ∨ flag = 2 ∨ flag = 4) ∧ φv.any (·.isNone) = false ∧ ∀ xi, ∃ x φl g,
    E.vap xi φv p = .ok (x, φl, g) ∧ ¬ (isTrivial o.xytol E.xi x = true ∧ g = some 2) ∧ equilibriumObjective .liquid E.xi φl φv = .ok (f p)
  below : ∀ p, 0 < p → p < S → f p < 0
  above : ∀ p, S < p → 0 < f p
  rises : ∀ p q, 0 < p → p < q → f p < f q

variable [IsStrictOrderedRing K] {o : PressureRange.Opts K} {E : PressureRange.Env K} {f : K → K} {S : K}

private theorem rising_liquid (H : RisingThrough o E f S) {p : K} (hp : 0 < p) : ∃ φv flag, E.liq p = .ok (φv, flag) ∧ notVapor (some flag) = false ∧
    φv.any (·.isNone) = false ∧ ∀ xi, ∃ x g, DewRange.liquid E xi φv p = .ok (x, g, f p) ∧ (isTrivial o.xytol E.xi x && g == some 2) = false := by
  obtain ⟨φv, flag, h1, hf, h2, h3⟩ := H.phases p hp
  refine ⟨φv, flag, h1, ?_, h2, fun xi => ?_⟩
  · rcases hf with rfl | rfl | rfl <;> rfl
  · obtain ⟨x, φl, g, e, ht, ho⟩ := h3 xi
    refine ⟨x, g, ?_, ?_⟩
    · simp [DewRange.liquid, h2, e, ho, bind, Except.bind]
    · rw [Bool.eq_false_iff]
      intro hc
      rw [Bool.and_eq_true, beq_iff_eq] at hc
      exact ht hc

/-- One iteration of the first loop, by the sign of the objective. -/
private theorem rising_low (H : RisingThrough o E f S) (L : PressureRange.Limits K) (n : ℕ) (s : PressureRange.St K) (hp : 0 < s.p) : ∃ x,
    DewRange.lowStep o E L n s = if f s.p < 0 then .ok (({ s with yi := x, obj := some (f s.p) }).setLo E s.p (some (f s.p)), true) else (do
      let s'' ← DewRange.ordered o E L (if 0 < f s.p then DewRange.tooHigh o E { s with yi := x, obj := some (f s.p) } (f s.p) else
        { s with yi := x, obj := some (f s.p) })
      let s'' ← DewRange.lowCheck L (DewRange.clamp E L n s'')
      .ok (s'', false)) := by
  obtain ⟨φv, flag, h1, hf, h2, h3⟩ := rising_liquid H hp
  obtain ⟨x, g, h4, h5⟩ := h3 s.yi
  refine ⟨x, ?_⟩
  simp only [DewRange.lowStep, h1, bind, Except.bind, h2, DewRange.lowPhase, hf, DewRange.lowVapor, h4, h5]
  by_cases hn : f s.p < 0
  · simp [hn]
  · by_cases hq : 0 < f s.p <;> simp [hn, hq]

/-- **C163** is violated: if the objective is not negative at the lowest pressure, that is, if the dew pressure is not above it, then the search never leaves
this pressure and raises, whether or not a lower limit was given. -/
theorem c163_violated_low (H : RisingThrough o E f S) (hs : ∀ p, E.store p = p) (hlo : 0 < lowLimit o E)
    (hk : 0 < o.maxiter) (hmax : lowLimit o E ≤ highLimit o E (lowLimit o E)) (hS : 0 ≤ f (lowLimit o E)) (xi : List K) :
    DewRange.search o E xi = .error .valueError := by
  have key : ∀ (n : ℕ) (s : PressureRange.St K), 0 < n → s.p = lowLimit o E → s.P0 = lowLimit o E → lowLimit o E ≤ s.P1 →
      DewRange.lowLoop o E (limits o E) n s = .error .valueError := by
    intro n
    induction n with
    | zero => intro s hn; omega
    | succ n ih =>
      intro s _ hp h0 h1
      obtain ⟨x, e⟩ := rising_low H (limits o E) n s (by rw [hp]; exact hlo)
      rw [if_neg (by rw [hp]; exact not_lt.2 hS)] at e
      obtain ⟨t, ht, tp, t0, t1⟩ : ∃ t, (if 0 < f s.p then DewRange.tooHigh o E { s with yi := x, obj := some (f s.p) } (f s.p) else
          { s with yi := x, obj := some (f s.p) }) = t ∧ t.p = lowLimit o E ∧ t.P0 = lowLimit o E ∧ lowLimit o E ≤ t.P1 := by
        refine ⟨_, rfl, ?_⟩
        by_cases hq : 0 < f s.p
        · rw [if_pos hq]
          simp only [DewRange.tooHigh, St.setHi, keep_id E hs, hp, h0]
          refine ⟨by ring, trivial, le_rfl⟩
        · rw [if_neg hq]
          exact ⟨hp, h0, h1⟩
      rw [ht] at e
      have ho' : DewRange.ordered o E (limits o E) t = .ok t := by
        unfold DewRange.ordered
        rw [if_neg (by rw [t0]; exact not_lt.2 t1)]
      have hcl : DewRange.clamp E (limits o E) n t = t := by
        unfold DewRange.clamp
        rw [if_neg]
        rw [tp, t0]
        simp [t1]
      rw [ho'] at e
      simp only [bind, Except.bind, hcl, DewRange.lowCheck] at e
      rw [DewRange.lowLoop]
      rw [e, tp]
      simp only [bind, Except.bind]
      by_cases hh : ((limits o E).hardLo && decide ((limits o E).lo = lowLimit o E)) = true
      · rw [if_pos hh]
      · rw [if_neg hh, if_neg (not_le.2 hlo)]
        dsimp only
        by_cases hn : n = 0
        · rw [if_pos hn]
        · rw [if_neg hn]
          simpa using ih t (Nat.pos_of_ne_zero hn) tp t0 t1
  simp only [DewRange.search, bind, Except.bind]
  rw [key o.maxiter (start (limits o E) xi) hk rfl rfl hmax]

/-- An iteration of the second loop above the dew pressure finds the range. -/
private theorem rising_high_found (H : RisingThrough o E f S) (hs : ∀ p, E.store p = p) (L : PressureRange.Limits K) (first : Bool)
    (objs : List (Option K)) (s : PressureRange.St K) (hp : 0 < s.p) (h : 0 < f s.p) : ∃ r, DewRange.highStep o E L first objs s = .ok (.found r) ∧
      r.P1 = s.p ∧ r.P0 = (if s.P1 < s.p then s.P1 else s.P0) := by
  obtain ⟨φv, flag, h1, hf, h2, h3⟩ := rising_liquid H hp
  obtain ⟨x, g, h4, h5⟩ := h3 s.yi
  cases first <;> refine ⟨_, by
    simp only [DewRange.highStep, h1, bind, Except.bind, h4, DewRange.highPhase, hf]
    simp only [Bool.false_eq_true, if_false, if_true, if_pos h]; rfl, ?_⟩ <;>
  by_cases hc : s.P1 < s.p <;> simp [hc, St.range, St.setHi, St.setLo, keep_id E hs]

private theorem extrapolate_ge (t : PressureRange.St K) : o.maxfactor * t.P1 ≤ extrapolate o t := by
  unfold extrapolate
  split
  · split_ifs
    · exact le_rfl
    · exact le_max_right _ _
  · exact le_rfl

/-- An iteration of the second loop below the dew pressure, without an upper limit: the range moves up. -/
private theorem rising_high_next (H : RisingThrough o E f S) (hs : ∀ p, E.store p = p) (L : PressureRange.Limits K) (hL : L.hardHi = false)
    (first : Bool) (objs : List (Option K)) (s : PressureRange.St K) (hp : 0 < s.p) (hv : s.vapor = false) (h : f s.p ≤ 0)
    (hO0 : s.O0 = some (f s.P0)) (hO1 : s.P1 < s.p → first = false ∧ s.O1 = some (f s.P1)) (h0 : 0 < s.P0) (h1' : 0 < s.P1) (h0p : s.P0 < s.p)
    (hr : DewRange.falling first (f s.p) (objs.headD none) = false) :
    ∃ s', DewRange.highStep o E L first objs s = .ok (.next s' (some (f s.p) :: objs)) ∧ s'.P1 = s.p ∧
      s'.P0 = (if s.P1 < s.p then s.P1 else s.P0) ∧ o.maxfactor * s.p ≤ s'.p ∧ s'.vapor = false ∧ s'.O0 = some (f s'.P0) ∧ s'.O1 = some (f s'.P1) := by
  obtain ⟨φv, flag, h1, hf, h2, h3⟩ := rising_liquid H hp
  obtain ⟨x, g, h4, h5⟩ := h3 s.yi
  obtain ⟨u, hu, u1, u0, uO0, uO1, uv, up⟩ : ∃ u : PressureRange.St K,
      u = { s with yi := x, obj := some (f s.p), O1 := if first then some (f s.p) else s.O1 } ∧ u.P1 = s.P1 ∧ u.P0 = s.P0 ∧ u.O0 = s.O0 ∧
        (s.P1 < s.p → u.O1 = some (f s.P1)) ∧ u.vapor = false ∧ u.p = s.p :=
    ⟨_, rfl, rfl, rfl, rfl, fun hc => by obtain ⟨rfl, ho⟩ := hO1 hc; simpa using ho, hv, rfl⟩
  have hstep : DewRange.highStep o E L first objs s = DewRange.negative o E L first objs u (f s.p) := by
    subst hu
    simp only [DewRange.highStep, h1, bind, Except.bind, h4, DewRange.highPhase, hf]
    cases first <;> simp [not_lt.2 h, hv]
  obtain ⟨t, ht, t1, t0, tv, tO0, tO1⟩ : ∃ t : PressureRange.St K,
      t = (if u.P1 < u.p then u.setLo E u.P1 u.O1 else u).setHi E (if u.P1 < u.p then u.setLo E u.P1 u.O1 else u).p (some (f s.p)) ∧ t.P1 = s.p ∧
        t.P0 = (if s.P1 < s.p then s.P1 else s.P0) ∧ t.vapor = false ∧ t.O0 = some (f t.P0) ∧ t.O1 = some (f t.P1) := by
    refine ⟨_, rfl, ?_⟩
    by_cases hc : s.P1 < s.p
    · simp [u1, up, hc, St.setHi, St.setLo, keep_id E hs, uv, uO1 hc]
    · simp [u1, up, hc, St.setHi, keep_id E hs, uv, hO0, uO0, u0]
  have hlt : f t.P0 < f t.P1 := by
    rw [t0, t1]
    by_cases hc : s.P1 < s.p
    · rw [if_pos hc]; exact H.rises _ _ h1' hc
    · rw [if_neg hc]; exact H.rises _ _ h0 h0p
  have hend : DewRange.endless t = false := by
    unfold DewRange.endless
    rw [tO0, tO1]
    simp [hlt.ne']
  refine ⟨{ t with p := extrapolate o t }, ?_, t1, t0, ?_, tv, tO0, tO1⟩
  · rw [hstep]
    simp only [DewRange.negative, hr, hL, Bool.false_eq_true, if_false]
    rw [← ht, hend]
    simp
  · exact (le_of_eq (by rw [t1])).trans (extrapolate_ge t)

private theorem rising_high (H : RisingThrough o E f S) (hs : ∀ p, E.store p = p) (ho : GoodOpts o) (L : PressureRange.Limits K)
    (hL : L.hardHi = false) : ∀ (k n : ℕ) (first : Bool) (objs : List (Option K)) (s : PressureRange.St K), 0 < s.P0 → s.P0 < s.P1 →
      s.P0 ≤ S → s.P1 ≤ s.p → s.vapor = false → s.O0 = some (f s.P0) →
      ((first = true ∧ s.p = s.P1) ∨ (first = false ∧ s.O1 = some (f s.P1) ∧ objs.headD none = some (f s.P1) ∧ f s.P1 ≤ 0)) →
      S < o.maxfactor ^ k * s.p → k + 2 ≤ n →
      ∃ r, DewRange.highLoop o E L n first objs s = .ok (some r) ∧ r.P0 ≤ S ∧ S ≤ r.P1 := by
  intro k
  induction k with
  | zero =>
    intro n first objs s h0 h01 hS hp hv hO hf hk hn
    obtain ⟨m, rfl⟩ : ∃ m, n = m + 2 := ⟨n - 2, by omega⟩
    rw [pow_zero, one_mul] at hk
    have hpos : 0 < s.p := (h0.trans h01).trans_le hp
    obtain ⟨r, e, r1, r0⟩ := rising_high_found H hs L first objs s hpos (H.above _ hk)
    refine ⟨r, by simp [DewRange.highLoop, e, bind, Except.bind], ?_, by rw [r1]; exact hk.le⟩
    rw [r0]
    by_cases hc : s.P1 < s.p
    · rw [if_pos hc]
      rcases hf with ⟨_, hf⟩ | ⟨_, _, _, hf⟩
      · exact absurd hf hc.ne'
      · by_contra hcon
        exact absurd (H.above _ (not_le.1 hcon)) (not_lt.2 hf)
    · rw [if_neg hc]; exact hS
  | succ k ih =>
    intro n first objs s h0 h01 hS hp hv hO hf hk hn
    obtain ⟨m, rfl⟩ : ∃ m, n = m + 2 := ⟨n - 2, by omega⟩
    have hpos : 0 < s.p := (h0.trans h01).trans_le hp
    have hle : (if s.P1 < s.p then s.P1 else s.P0) ≤ S := by
      by_cases hc : s.P1 < s.p
      · rw [if_pos hc]
        rcases hf with ⟨_, hf⟩ | ⟨_, _, _, hf⟩
        · exact absurd hf hc.ne'
        · by_contra hcon
          exact absurd (H.above _ (not_le.1 hcon)) (not_lt.2 hf)
      · rw [if_neg hc]; exact hS
    by_cases hneg : 0 < f s.p
    · obtain ⟨r, e, r1, r0⟩ := rising_high_found H hs L first objs s hpos hneg
      refine ⟨r, by simp [DewRange.highLoop, e, bind, Except.bind], by rw [r0]; exact hle, ?_⟩
      rw [r1]
      by_contra hcon
      exact absurd (H.below _ hpos (not_le.1 hcon)) hneg.not_gt
    · have hnn := not_lt.1 hneg
      have hr : DewRange.falling first (f s.p) (objs.headD none) = false := by
        unfold DewRange.falling
        rcases hf with ⟨rfl, _⟩ | ⟨rfl, _, e, hf⟩
        · rfl
        · rw [e]
          have h1 : f s.P1 ≤ f s.p := by
            rcases hp.lt_or_eq with h | h
            · exact (H.rises _ _ (h0.trans h01) h).le
            · rw [h]
          simp only [Option.any_some, Bool.and_eq_false_iff, decide_eq_false_iff_not]
          right
          intro hcon
          linarith
      obtain ⟨t, e, t1, t0, tp, tv, tO0, tO1⟩ := rising_high_next H hs L hL first objs s hpos hv hnn hO
        (fun hc => by
          rcases hf with ⟨_, hf⟩ | ⟨a, b, _⟩
          · exact absurd hf hc.ne'
          · exact ⟨a, b⟩) h0 (h0.trans h01) (h01.trans_le hp) hr
      have hgrow : s.p < o.maxfactor * s.p := by
        have := mul_lt_mul_of_pos_right ho.max hpos
        linarith
      have hlt : (if s.P1 < s.p then s.P1 else s.P0) < s.p := by
        by_cases hc : s.P1 < s.p
        · rw [if_pos hc]; exact hc
        · rw [if_neg hc]; exact h01.trans_le hp
      have hpos0 : 0 < (if s.P1 < s.p then s.P1 else s.P0) := by
        by_cases hc : s.P1 < s.p
        · rw [if_pos hc]; exact h0.trans h01
        · rw [if_neg hc]; exact h0
      have hup : t.P1 < t.p := by rw [t1]; exact hgrow.trans_le tp
      obtain ⟨r, h, ha, hb⟩ := ih (m + 1) false (some (f s.p) :: objs) t (by rw [t0]; exact hpos0) (by rw [t0, t1]; exact hlt)
        (by rw [t0]; exact hle) hup.le tv tO0 (.inr ⟨rfl, tO1, by rw [t1]; rfl, by rw [t1]; exact hnn⟩)
        (hk.trans_le (by rw [pow_succ, mul_assoc]; exact mul_le_mul_of_nonneg_left tp (pow_nonneg (by linarith [ho.max]) _))) (by omega)
      refine ⟨r, ?_, ha, hb⟩
      rw [DewRange.highLoop]
      simp only [e, bind, Except.bind]
      simpa using h

/-- **C163** (without an upper limit, the dew pressure above the lowest one): the search encloses the dew pressure if it can be reached within the iterations. -/
theorem c163_range (H : RisingThrough o E f S) (hs : ∀ p, E.store p = p) (ho : GoodOpts o) (h1 : o.pmax = none) (hlo : 0 < lowLimit o E) (k : ℕ)
    (hk : k + 2 ≤ o.maxiter) (hdown : lowLimit o E < S) (hup : S < o.maxfactor ^ k * lowLimit o E) (xi : List K) :
    ∃ r, DewRange.search o E xi = .ok (some r) ∧ GoodDew E (limits o E) r ∧ r.P0 < r.P1 ∧ r.P0 ≤ S ∧ S ≤ r.P1 := by
  have hhH : (limits o E).hardHi = false := by simp [limits, h1]
  have hmax : 0 < o.maxfactor := lt_trans one_pos ho.max
  obtain ⟨m, hm⟩ : ∃ m, o.maxiter = m + 2 := ⟨o.maxiter - 2, by omega⟩
  obtain ⟨x, e⟩ := rising_low H (limits o E) (m + 1) (start (limits o E) xi) hlo
  have hneg : f (start (limits o E) xi).p < 0 := H.below _ hlo hdown
  rw [if_pos hneg] at e
  simp only [start, St.setLo, keep_id E hs] at e
  obtain ⟨s', hs', p0, p1, o0, v⟩ : ∃ s', DewRange.lowLoop o E (limits o E) o.maxiter (start (limits o E) xi) = .ok s' ∧ s'.P0 = lowLimit o E ∧
      s'.P1 = highLimit o E (lowLimit o E) ∧ s'.O0 = some (f (lowLimit o E)) ∧ True := by
    refine ⟨_, by rw [hm]; simp only [DewRange.lowLoop, start, e, bind, Except.bind]; simp; rfl, rfl, rfl, rfl, trivial⟩
  obtain ⟨t, ht, t0, t1, tO⟩ : ∃ t, DewRange.between E s' = t ∧ t.P0 = lowLimit o E ∧ t.P0 < t.P1 ∧ t.O0 = some (f t.P0) := by
    refine ⟨_, rfl, ?_⟩
    unfold DewRange.between
    by_cases hc : s'.P1 ≤ s'.P0
    · rw [if_pos hc]
      refine ⟨p0, ?_, by rw [p0]; exact o0⟩
      simp only [keep_id E hs, p0]
      linarith
    · rw [if_neg hc]
      exact ⟨p0, not_le.1 hc, by rw [p0]; exact o0⟩
  obtain ⟨r, h, a, b⟩ := rising_high H hs ho (limits o E) hhH k o.maxiter true [t.O1] { t with p := t.P1, vapor := false, fmin := false }
    (by rw [t0]; exact hlo) t1 (by rw [t0]; exact hdown.le) le_rfl rfl tO (.inl ⟨rfl, rfl⟩)
    (hup.trans_le (mul_le_mul_of_nonneg_left (by rw [← t0]; exact t1.le) (pow_nonneg hmax.le _))) hk
  have hres : DewRange.search o E xi = .ok (some r) := by
    simp only [DewRange.search, hs', bind, Except.bind, ht]
    exact h
  have hg := c101_range_partial ho hs hlo xi r hres
  exact ⟨r, hres, hg, hg.2.2.1 hhH, a, b⟩

/-- **C163** (limits on both sides of the dew pressure): the range is the one that was given. -/
theorem c163_limits (H : RisingThrough o E f S) (hs : ∀ p, E.store p = p) (lo hi : K) (h0 : o.pmin = some lo) (h1 : o.pmax = some hi)
    (hlo : 0 < lo) (hl : lo < S) (hu : S < hi) (hk : 2 ≤ o.maxiter) (xi : List K) :
    ∃ r, DewRange.search o E xi = .ok (some r) ∧ r.P0 = lo ∧ r.P1 = hi := by
  have hL : limits o E = ⟨lo, hi, true, true⟩ := by
    simp [limits, lowLimit, highLimit, upper, h0, h1, (hl.trans hu).not_gt]
  obtain ⟨m, hm⟩ : ∃ m, o.maxiter = m + 2 := ⟨o.maxiter - 2, by omega⟩
  obtain ⟨x, e⟩ := rising_low H ⟨lo, hi, true, true⟩ (m + 1) (start ⟨lo, hi, true, true⟩ xi) hlo
  have hneg : f (start (⟨lo, hi, true, true⟩ : PressureRange.Limits K) xi).p < 0 := H.below _ hlo hl
  rw [if_pos hneg] at e
  simp only [start, St.setLo, keep_id E hs] at e
  obtain ⟨s', hs', p0, p1⟩ : ∃ s', DewRange.lowLoop o E ⟨lo, hi, true, true⟩ o.maxiter (start ⟨lo, hi, true, true⟩ xi) = .ok s' ∧ s'.P0 = lo ∧
      s'.P1 = hi := by
    refine ⟨_, by rw [hm]; simp only [DewRange.lowLoop, start, e, bind, Except.bind]; simp; rfl, rfl, rfl⟩
  have hb : DewRange.between E s' = s' := if_neg (by rw [p0, p1]; exact not_le.2 (hl.trans hu))
  obtain ⟨r, h, r1, r0⟩ := rising_high_found H hs ⟨lo, hi, true, true⟩ true [s'.O1] { s' with p := s'.P1, vapor := false, fmin := false }
    (by rw [p1]; exact hlo.trans (hl.trans hu)) (by rw [p1]; exact H.above _ hu)
  refine ⟨r, ?_, ?_, r1.trans p1⟩
  · simp only [DewRange.search, hL, hs', bind, Except.bind, hb]
    rw [hm]
    simp [DewRange.highLoop, h, bind, Except.bind]
  · rw [r0]
    dsimp only
    rw [if_neg (lt_irrefl _), p0]

/-- **C163** (an upper limit below the dew pressure): the search returns NaN. -/
theorem c163_above_limit (H : RisingThrough o E f S) (hs : ∀ p, E.store p = p) (lo hi : K) (h0 : o.pmin = some lo) (h1 : o.pmax = some hi)
    (hlo : 0 < lo) (hlh : lo < hi) (hu : hi < S) (hk : 2 ≤ o.maxiter) (xi : List K) : DewRange.search o E xi = .ok none := by
  have hl := hlh.trans hu
  have hhi := hlo.trans hlh
  have hneg' := H.below _ hhi hu
  have hL : limits o E = ⟨lo, hi, true, true⟩ := by
    simp [limits, lowLimit, highLimit, upper, h0, h1, hlh.not_gt]
  obtain ⟨m, hm⟩ : ∃ m, o.maxiter = m + 2 := ⟨o.maxiter - 2, by omega⟩
  obtain ⟨x, e⟩ := rising_low H ⟨lo, hi, true, true⟩ (m + 1) (start ⟨lo, hi, true, true⟩ xi) hlo
  have hneg : f (start (⟨lo, hi, true, true⟩ : PressureRange.Limits K) xi).p < 0 := H.below _ hlo hl
  rw [if_pos hneg] at e
  simp only [start, St.setLo, keep_id E hs] at e
  obtain ⟨s', hs', p0, p1⟩ : ∃ s', DewRange.lowLoop o E ⟨lo, hi, true, true⟩ o.maxiter (start ⟨lo, hi, true, true⟩ xi) = .ok s' ∧ s'.P0 = lo ∧
      s'.P1 = hi := by
    refine ⟨_, by rw [hm]; simp only [DewRange.lowLoop, start, e, bind, Except.bind]; simp; rfl, rfl, rfl⟩
  have hb : DewRange.between E s' = s' := if_neg (by rw [p0, p1]; exact not_le.2 hlh)
  -- the pressure stays at the limit
  have key : ∀ (n : ℕ) (first : Bool) (objs : List (Option K)) (s : PressureRange.St K), 0 < n → s.p = hi → s.P1 = hi → s.vapor = false →
      (first = false → objs.headD none = some (f hi)) → DewRange.highLoop o E ⟨lo, hi, true, true⟩ n first objs s = .ok none := by
    intro n
    induction n with
    | zero => intro first objs s hn; omega
    | succ n ih =>
      intro first objs s _ hp hP1 hv ho
      obtain ⟨φv, flag, g1, gf, g2, g3⟩ := rising_liquid H hhi
      obtain ⟨x, g, g4, g5⟩ := g3 s.yi
      have hfall : DewRange.falling first (f hi) (objs.headD none) = false := by
        cases first with
        | true => rfl
        | false =>
          rw [ho rfl]
          simp only [DewRange.falling, Option.any_some, Bool.not_false, Bool.true_and, decide_eq_false_iff_not, not_lt]
          linarith
      obtain ⟨t, ht, tp, t1, tv⟩ : ∃ t, DewRange.highStep o E ⟨lo, hi, true, true⟩ first objs s = .ok (.next t (some (f hi) :: objs)) ∧ t.p = hi ∧
          t.P1 = hi ∧ t.vapor = false := by
        cases first <;> refine ⟨_, by
          simp only [DewRange.highStep, hp, g1, bind, Except.bind, g4, DewRange.highPhase, gf]
          simp only [Bool.false_eq_true, if_false, if_true, if_neg hneg'.not_gt, hv, DewRange.negative, hfall]; rfl, ?_, ?_, ?_⟩ <;>
        simp [St.mid, St.setLo, keep_id E hs, hP1]
      simp only [DewRange.highLoop, ht, bind, Except.bind]
      by_cases hn : n = 0
      · rw [if_pos hn]
      · rw [if_neg hn]
        exact ih false _ t (by omega) tp t1 tv fun _ => rfl
  simp only [DewRange.search, hL, hs', bind, Except.bind, hb]
  exact key _ _ _ _ (by omega) p1 p1 rfl fun h => by cases h

/-- A mixture that follows the law of Raoult: the vapour is an ideal gas, the coefficients of the liquid are the saturation pressures
divided by the pressure.  (The given phase, here the vapour, is called `liq`, the other one `vap`.) -/
structure RaoultVapor (E : PressureRange.Env K) (sat : List K) : Prop where
  sum : E.xi.sum = 1
  length : sat.length = E.xi.length
  positive : ∀ a ∈ E.xi, 0 < a
  saturation : ∀ a ∈ sat, 0 < a
  vapor : ∀ p, 0 < p → E.liq p = .ok (sat.map (fun _ => some 1), 0)
  liquid : ∀ p, 0 < p → ∀ xi, ∃ x, E.vap xi (sat.map (fun _ => some 1)) p = .ok (x, sat.map (fun a => some (a / p)), some 1)

private theorem raoult_dew_sum (p : K) (hp : 0 < p) : ∀ y sat : List K, (∀ a ∈ sat, 0 < a) →
    ((y.zip ((sat.map fun a => some (a / p)).zip (sat.map fun _ => (some 1 : Option K)))).map fun q => q.1 * q.2.2.getD 0 / q.2.1.getD 0).sum =
      (List.zipWith (· / ·) y sat).sum * p := by
  intro y
  induction y with
  | nil => intro sat _; simp
  | cons a y ih =>
    intro sat hs
    cases sat with
    | nil => simp
    | cons b sat =>
      have := ih sat (fun c hc => hs c (by simp [hc]))
      have hb : b ≠ 0 := (hs b (by simp)).ne'
      simp only [List.map_cons, List.zip_cons_cons, List.sum_cons, List.zipWith_cons_cons, this, Option.getD_some]
      field_simp

private theorem raoult_dew_pos : ∀ y sat : List K, sat.length = y.length → y ≠ [] → (∀ a ∈ y, 0 < a) → (∀ a ∈ sat, 0 < a) →
    0 < (List.zipWith (· / ·) y sat).sum := by
  have key : ∀ y sat : List K, (∀ a ∈ y, 0 < a) → (∀ a ∈ sat, 0 < a) → 0 ≤ (List.zipWith (· / ·) y sat).sum := by
    intro y
    induction y with
    | nil => intro sat _ _; simp
    | cons a y ih =>
      intro sat hx hs
      cases sat with
      | nil => simp
      | cons b sat =>
        simp only [List.zipWith_cons_cons, List.sum_cons]
        exact add_nonneg (div_nonneg (hx a (by simp)).le (hs b (by simp)).le)
          (ih sat (fun c hc => hx c (by simp [hc])) (fun c hc => hs c (by simp [hc])))
  intro y sat hl hne hx hs
  cases y with
  | nil => exact absurd rfl hne
  | cons a y =>
    cases sat with
    | nil => simp at hl
    | cons b sat =>
      simp only [List.zipWith_cons_cons, List.sum_cons]
      exact add_pos_of_pos_of_nonneg (div_pos (hx a (by simp)) (hs b (by simp)))
        (key y sat (fun c hc => hx c (by simp [hc])) (fun c hc => hs c (by simp [hc])))

/-- **C163** (law of Raoult): the objective of such a mixture rises, and its dew pressure is the reciprocal of the sum of the mole fractions over the
saturation pressures; so `c163_range`, `c163_limits` and `c163_violated_low` apply to it. -/
theorem c163_raoult {o : PressureRange.Opts K} {E : PressureRange.Env K} {sat : List K} (H : RaoultVapor E sat) :
    RisingThrough o E (fun p => (List.zipWith (· / ·) E.xi sat).sum * p - 1) (1 / (List.zipWith (· / ·) E.xi sat).sum) := by
  have hne : E.xi ≠ [] := by
    intro h
    have := H.sum
    rw [h] at this
    simp at this
  have hS := raoult_dew_pos E.xi sat H.length hne H.positive H.saturation
  refine ⟨fun p hp => ⟨_, _, H.vapor p hp, .inl rfl, ?_, fun xi => ?_⟩, fun p hp h => ?_, fun p h => ?_, fun p q hp h => ?_⟩
  · simp
  · obtain ⟨x, e⟩ := H.liquid p hp xi
    refine ⟨_, _, _, e, by simp, ?_⟩
    unfold equilibriumObjective
    simp only [H.sum, ne_eq, not_true_eq_false, if_false, reduceCtorEq]
    have h1 : (sat.map fun _ => (some 1 : Option K)).any (·.isNone) = false := by simp
    have h2 : (sat.map fun a => some (a / p)).any (·.isNone) = false := by simp
    simp only [h1, h2, Bool.false_eq_true, if_false]
    rw [← raoult_dew_sum p hp E.xi sat H.saturation]
  · have := (lt_div_iff₀' hS).1 h
    simpa using this
  · have := (div_lt_iff₀' hS).1 h
    simpa using this
  · have := mul_lt_mul_of_pos_left h hS
    simpa using this

end

/-- A vapour of equal parts of two substances with saturation pressures of 1000 Pa and 3000 Pa; its dew pressure is 1500 Pa. -/
def equalVapor : PressureRange.Env ℚ where
  xi := [1 / 2, 1 / 2]
  extremaP := []
  liq := fun _ => .ok ([some 1, some 1], 0)
  vap := fun _ _ p => .ok ([3 / 4, 1 / 4], [some (1000 / p), some (3000 / p)], some 1)
  rand := fun _ => 1 / 2
  well := fun _ _ => .error .valueError
  store := id

/-- The hypotheses of `c163_raoult` and `c163_range` are met, and the range that is found. -/
example : RaoultVapor equalVapor [1000, 3000] ∧ 1 / (List.zipWith (· / ·) equalVapor.xi [1000, 3000]).sum = 1500 ∧
    lowLimit (rangeOpts none none) equalVapor < 1500 ∧ (1500 : ℚ) < 2 ^ 2 * lowLimit (rangeOpts none none) equalVapor ∧
    (DewRange.search (rangeOpts none none) equalVapor [1 / 2, 1 / 2]).toOption.map (Option.map fun r => (r.P0, r.P1)) =
      some (some (1000, 100000)) := by
  refine ⟨⟨?_, ?_, ?_, ?_, ?_, ?_⟩, ?_, ?_, ?_, ?_⟩
  · decide +kernel
  · rfl
  · simp [equalVapor]
  · simp
  · intro p _; rfl
  · intro p _ xi; exact ⟨_, rfl⟩
  all_goals decide +kernel

/-- The hypotheses of `c163_violated_low`: a dew pressure of 600 Pa is below the default lower limit of 1000 Pa. -/
example : DewRange.search (rangeOpts none none) { equalVapor with vap := fun _ _ p => .ok ([3 / 4, 1 / 4], [some (400 / p), some (1200 / p)], some 1) }
    [1 / 2, 1 / 2] = .error .valueError ∧ 1 / (List.zipWith (· / ·) equalVapor.xi [400, 1200]).sum = 600 := by
  constructor <;> decide +kernel

/-- `c163_above_limit`: an upper limit of 1000 Pa and a dew pressure of 1500 Pa. -/
example : DewRange.search (rangeOpts (some 100) (some 1000)) equalVapor [1 / 2, 1 / 2] = .ok none := by
  decide +kernel

end Verif.Props
