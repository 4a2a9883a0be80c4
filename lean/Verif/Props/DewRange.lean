import Verif.Model.DewRange
import Verif.Props.PressureRange

/-!
# C101, C102: the pressure range of a dew point
-/

set_option linter.unusedSectionVars false

namespace Verif.Props

open Verif.PressureRange Verif.PhaseDensity

section

variable {K : Type} [Field K] [LinearOrder K]

/-! ## C101: a change of sign between the ends -/

/-- The objective was evaluated at a pressure: the vapour and liquid calculations at this pressure, the latter from some
guess, give this value. -/
def DewEvaluated (E : PressureRange.Env K) (p v : K) : Prop :=
  ∃ φv f x r, E.liq p = .ok (φv, f) ∧ E.vap x φv p = .ok r ∧ equilibriumObjective .liquid E.xi r.2.1 φv = .ok v

theorem liquid_evaluated (E : PressureRange.Env K) (φv : List (Option K)) (f : ℕ) (p : K) (hl : E.liq p = .ok (φv, f))
    (xi x : List K) (g : Option ℕ) (v : K) (h : DewRange.liquid E xi φv p = .ok (x, g, v)) : DewEvaluated E p v := by
  unfold DewRange.liquid at h
  simp only [bind, Except.bind] at h
  split at h
  · cases h
  · cases hv : E.vap xi φv p with
    | error e => simp only [hv] at h; cases h
    | ok r =>
      simp only [hv] at h
      cases ho : equilibriumObjective .liquid E.xi r.2.1 φv with
      | error e => simp only [ho] at h; cases h
      | ok w =>
        simp only [ho] at h
        obtain ⟨rfl, rfl, rfl⟩ : r.1 = x ∧ r.2.2 = g ∧ w = v := by simpa using h
        exact ⟨φv, f, xi, r, hl, hv, ho⟩

variable [IsStrictOrderedRing K]

variable {o : PressureRange.Opts K} {E : PressureRange.Env K} {L : PressureRange.Limits K} {s : PressureRange.St K}

/-- Positive ends. -/
def PosEnds (s : PressureRange.St K) : Prop := 0 < s.P0 ∧ 0 < s.P1

theorem dew_sameFluid_pos (ho : GoodOpts o) (hs : ∀ p, E.store p = p) (h : PosSt s) (v : K) :
    PosEnds (DewRange.sameFluid o E L s v) := by
  unfold DewRange.sameFluid
  split
  · exact (upTo_pos ho hs _ (setLo_pos hs h _)).2
  · exact (setHi_pos (s := { s with fmax := true }) hs h (some v)).2

theorem dew_reproduced_pos (ho : GoodOpts o) (hs : ∀ p, E.store p = p) (h0 : 0 < L.lo) (h1 : 0 < L.hi) (h : PosSt s) (v : K) :
    PosEnds (DewRange.reproduced o E L s v) := by
  unfold DewRange.reproduced
  split
  · exact (reset_pos ho hs h0 h1).2
  · exact dew_sameFluid_pos ho hs h v

theorem dew_wrongPhase_pos (ho : GoodOpts o) (hs : ∀ p, E.store p = p) (h : PosSt s) (v : K) :
    PosEnds (DewRange.wrongPhase o E L s v) := by
  unfold DewRange.wrongPhase
  split
  · exact (upTo_pos ho hs _ (setLo_pos (s := { s with fmin := true }) hs h _)).2
  · exact (downTo_pos ho hs _ (setHi_pos (s := { s with fmax := true }) hs h _)).2

theorem dew_ordered_pos (ho : GoodOpts o) (hs : ∀ p, E.store p = p) (h : PosEnds s) {t : PressureRange.St K}
    (e : DewRange.ordered o E L s = .ok t) : PosEnds t := by
  unfold DewRange.ordered at e
  split at e
  · split at e
    · cases e
      exact ⟨by simpa [PressureRange.St.setLo, keep_id E hs] using mul_pos ho.min h.2, h.2⟩
    · split at e
      · cases e
        exact ⟨h.1, by simpa [PressureRange.St.setHi, keep_id E hs] using mul_pos (lt_trans one_pos ho.max) h.1⟩
      · cases e
  · cases e; exact h

/-- One iteration of the first loop: pressures stay positive, and a lower end that is found has a negative objective. -/
theorem dew_lowStep_spec (ho : GoodOpts o) (hs : ∀ p, E.store p = p) (h0 : 0 < L.lo) (h1 : 0 < L.hi) (h : PosSt s) (n : ℕ)
    {t : PressureRange.St K} {b : Bool} (e : DewRange.lowStep o E L n s = .ok (t, b)) :
    PosSt t ∧ (b = true → ∃ v, t.O0 = some v ∧ v < 0 ∧ DewEvaluated E t.P0 v) := by
  unfold DewRange.lowStep at e
  simp only [bind, Except.bind] at e
  cases hl : E.liq s.p with
  | error _ => simp only [hl] at e; cases e
  | ok q =>
    obtain ⟨φv, f⟩ := q
    simp only [hl] at e
    split at e
    · cases e
      exact ⟨downTo_pos ho hs _ (setHi_pos (s := { s with fmax := true }) hs h _), by simp⟩
    · have key : ∀ (u : PressureRange.St K) (c : Bool),
          DewRange.lowPhase o E L s φv f = .ok (u, c) →
          PosEnds u ∧ (c = true → PosSt u ∧ ∃ v, u.O0 = some v ∧ v < 0 ∧ DewEvaluated E u.P0 v) := by
        intro u c hu
        unfold DewRange.lowPhase at hu
        split at hu
        · unfold DewRange.lowLiquid at hu
          cases hobj : s.obj with
          | none => simp only [hobj, Except.map] at hu; cases hu
          | some v =>
            simp only [hobj, Except.map] at hu
            cases hu
            refine ⟨?_, by simp⟩
            have h' : PosSt (DewRange.atLimit L s) := by unfold DewRange.atLimit; split <;> exact h
            exact dew_wrongPhase_pos ho hs h' v
        · unfold DewRange.lowVapor at hu
          simp only [bind, Except.bind] at hu
          cases hv : DewRange.liquid E s.yi φv s.p with
          | error _ => simp only [hv] at hu; cases hu
          | ok q =>
            obtain ⟨x, g, v⟩ := q
            simp only [hv] at hu
            have hp : PosSt { s with yi := x, obj := some v } := h
            have hev := liquid_evaluated E φv f s.p hl _ _ _ _ hv
            split at hu
            · cases hu
              exact ⟨dew_reproduced_pos ho hs h0 h1 hp v, by simp⟩
            · split at hu
              · rename_i hneg
                cases hu
                refine ⟨(setLo_pos hs hp _).2, fun _ => ⟨setLo_pos hs hp _, v, rfl, hneg, ?_⟩⟩
                simpa [PressureRange.St.setLo, keep_id E hs] using hev
              · split at hu
                · cases hu
                  refine ⟨?_, by simp⟩
                  unfold DewRange.tooHigh
                  exact (setHi_pos (s := { s with yi := x, obj := some v, fmax := true }) hs h (some v)).2
                · cases hu
                  exact ⟨h.2, by simp⟩
      cases hu : DewRange.lowPhase o E L s φv f with
      | error _ => simp only [hu] at e; cases e
      | ok q =>
        obtain ⟨u, c⟩ := q
        simp only [hu] at e
        obtain ⟨k1, k2⟩ := key u c hu
        split at e
        · rename_i hc
          cases e
          obtain ⟨k3, k4⟩ := k2 hc
          exact ⟨k3, fun _ => k4⟩
        · cases hr : DewRange.ordered o E L u with
          | error _ => simp only [hr] at e; cases e
          | ok u' =>
            simp only [hr] at e
            have k3 := dew_ordered_pos ho hs k1 hr
            cases hc : DewRange.lowCheck L (DewRange.clamp E L n u') with
            | error _ => simp only [hc] at e; cases e
            | ok w =>
              simp only [hc] at e
              cases e
              refine ⟨?_, by simp⟩
              have hP : (DewRange.clamp E L n u').P0 = u'.P0 ∧ (DewRange.clamp E L n u').P1 = u'.P1 := by
                unfold DewRange.clamp; split <;> exact ⟨rfl, rfl⟩
              unfold DewRange.lowCheck at hc
              split at hc
              · cases hc
              · split at hc
                · cases hc
                · rename_i hpos
                  cases hc
                  exact ⟨not_le.1 hpos, hP.1 ▸ k3.1, hP.2 ▸ k3.2⟩

theorem dew_lowLoop_spec (ho : GoodOpts o) (hs : ∀ p, E.store p = p) (h0 : 0 < L.lo) (h1 : 0 < L.hi) (n : ℕ) :
    ∀ {s t : PressureRange.St K}, PosSt s → DewRange.lowLoop o E L n s = .ok t →
      PosSt t ∧ ∃ v, t.O0 = some v ∧ v < 0 ∧ DewEvaluated E t.P0 v := by
  induction n with
  | zero => intro s t _ e; cases e
  | succ n ih =>
    intro s t h e
    simp only [DewRange.lowLoop, bind, Except.bind] at e
    cases hl : DewRange.lowStep o E L n s with
    | error _ => simp only [hl] at e; cases e
    | ok q =>
      obtain ⟨u, b⟩ := q
      simp only [hl] at e
      obtain ⟨k1, k2⟩ := dew_lowStep_spec ho hs h0 h1 h n hl
      split at e
      · cases e
      · split at e
        · rename_i hb
          cases e
          exact ⟨k1, k2 hb⟩
        · exact ih k1 e

/-- The invariant of the second loop. -/
structure DewInv (E : PressureRange.Env K) (L : PressureRange.Limits K) (s : PressureRange.St K) : Prop where
  pos : 0 < s.P0
  le : s.P0 ≤ s.P1
  lep : s.P0 ≤ s.p
  strict : L.hardHi = false → s.P0 < s.P1 ∧ s.P0 < s.p ∧ (s.vapor = true → s.p < s.P1)
  top : L.hardHi = true ∨ s.vapor = true → s.p ≤ s.P1
  low : ∃ v, s.O0 = some v ∧ v ≤ 0 ∧ DewEvaluated E s.P0 v
  high : s.P1 < s.p → ∃ v, s.O1 = some v ∧ v ≤ 0 ∧ DewEvaluated E s.P1 v

/-- What a range should be: the objective is not positive at the lower and positive at the upper end, and the guess
lies between them; without an upper limit the ends differ. -/
def GoodDew (E : PressureRange.Env K) (L : PressureRange.Limits K) (r : PressureRange.Range K) : Prop :=
  0 < r.P0 ∧ r.P0 ≤ r.P1 ∧ (L.hardHi = false → r.P0 < r.P1) ∧ (∃ v, v ≤ 0 ∧ DewEvaluated E r.P0 v) ∧
    (∃ v, 0 < v ∧ DewEvaluated E r.P1 v) ∧ (r.P0 < r.P1 → ∃ g, r.guess = some g ∧ r.P0 ≤ g ∧ g < r.P1)

theorem crossing_between' {P0 P1 O0 O1 : K} (hP : P0 < P1) (h0 : O0 ≤ 0) (h1 : 0 < O1) :
    P0 ≤ crossing P0 P1 O0 O1 ∧ crossing P0 P1 O0 O1 < P1 := by
  have h := crossing_between hP (neg_nonneg.2 h0) (neg_lt_zero.2 h1)
  have e : crossing P0 P1 (-O0) (-O1) = crossing P0 P1 O0 O1 := by
    have hd : P1 - P0 ≠ 0 := (sub_pos.2 hP).ne'
    have h2 : O1 - O0 ≠ 0 := by linarith
    have h3 : -O1 - -O0 ≠ 0 := by intro hh; apply h2; linarith
    unfold crossing
    have e1 : (-O1 - -O0) / (P1 - P0) = -((O1 - O0) / (P1 - P0)) := by ring
    rw [e1]
    have e2 : -O1 - -((O1 - O0) / (P1 - P0)) * P1 = -(O1 - (O1 - O0) / (P1 - P0) * P1) := by ring
    simp only [e2, div_neg, neg_neg, neg_div]
  rwa [e] at h

theorem extrapolate_gt (ho : GoodOpts o) (h : 0 < s.P1) : s.P1 < extrapolate o s := by
  have hm : s.P1 < o.maxfactor * s.P1 := by nlinarith [ho.max]
  unfold extrapolate
  split
  · split
    · exact hm
    · exact hm.trans_le (le_max_right _ _)
  · exact hm

/-- What an iteration of the second loop may end with. -/
def DewOk (E : PressureRange.Env K) (L : PressureRange.Limits K) : High K → Prop
  | .found r => GoodDew E L r
  | .failed => False
  | .skip _ _ => False
  | .next s _ => DewInv E L s

theorem mid_le {a b : K} (h : a ≤ b) : a ≤ (b - a) / 2 + a ∧ (b - a) / 2 + a ≤ b := by constructor <;> linarith

theorem dew_highPhase_spec (ho : GoodOpts o) (hs : ∀ p, E.store p = p) (objs : List (Option K)) (first : Bool)
    (hf : first = true → s.p = s.P1) (h : DewInv E L s) (f : ℕ) (v : K) (hev : DewEvaluated E s.p v) {q : High K}
    (e : DewRange.highPhase o E L first objs s f v = .ok q) : DewOk E L q := by
  have hk : ∀ (u : PressureRange.St K) p, keep E u p = p := keep_id E hs
  obtain ⟨u, hu, u1, u2, u3, u4, u5, u6⟩ : ∃ u : PressureRange.St K, (if first = true then { s with O1 := some v } else s) = u ∧
      u.p = s.p ∧ u.P0 = s.P0 ∧ u.P1 = s.P1 ∧ u.O0 = s.O0 ∧ u.vapor = s.vapor ∧ (s.P1 < s.p → u.O1 = s.O1) := by
    cases first with
    | false => exact ⟨s, rfl, rfl, rfl, rfl, rfl, rfl, fun _ => rfl⟩
    | true => exact ⟨_, rfl, rfl, rfl, rfl, rfl, rfl, fun hh => absurd hh (by rw [hf rfl]; exact lt_irrefl _)⟩
  have hi : DewInv E L u :=
    ⟨u2 ▸ h.pos, by rw [u2, u3]; exact h.le, by rw [u2, u1]; exact h.lep, by rw [u1, u2, u3, u5]; exact h.strict,
      by rw [u1, u3, u5]; exact h.top, by rw [u4, u2]; exact h.low, by
        intro hh
        rw [u1, u3] at hh
        rw [u6 hh, u3]; exact h.high hh⟩
  rw [← u1] at hev
  clear u1 u2 u3 u4 u5 u6
  unfold DewRange.highPhase at e
  simp only [hu] at e
  clear hu hf h
  have m0 := mid_le hi.lep
  split at e
  · cases e
    simp only [DewOk, PressureRange.St.setHi, PressureRange.St.mid, hk]
    refine ⟨hi.pos, hi.lep, m0.1, fun hh => ?_, fun _ => m0.2, hi.low, fun hh => absurd hh (not_lt.2 m0.2)⟩
    obtain ⟨_, k, _⟩ := hi.strict hh
    have := mid_between k
    exact ⟨k, this.1, fun _ => this.2⟩
  · split at e
    · rename_i hpos
      cases e
      by_cases hp : u.P1 < u.p
      · obtain ⟨w, w1, w2, w3⟩ := hi.high hp
        simp only [DewOk, GoodDew, hp, if_true, PressureRange.St.setHi, PressureRange.St.setLo, PressureRange.St.range, guess, hk, w1]
        refine ⟨hi.pos.trans_le hi.le, hp.le, fun _ => trivial, ⟨w, w2, w3⟩, ⟨v, hpos, hev⟩, fun _ => ⟨_, ?_, crossing_between' hp w2 hpos⟩⟩
        simp [hp.ne', (w2.trans_lt hpos).ne']
      · obtain ⟨w, w1, w2, w3⟩ := hi.low
        simp only [DewOk, GoodDew, hp, if_false, PressureRange.St.setHi, PressureRange.St.range, guess, hk, w1]
        refine ⟨hi.pos, hi.lep, fun hh => (hi.strict hh).2.1, ⟨w, w2, w3⟩, ⟨v, hpos, hev⟩,
          fun hlt => ⟨_, ?_, crossing_between' hlt w2 hpos⟩⟩
        simp [hlt.ne', (w2.trans_lt hpos).ne']
    · rename_i hpos
      have hv := not_lt.1 hpos
      split at e
      · rename_i hvap
        cases e
        have ht := hi.top (.inr hvap)
        have m1 := mid_le ht
        simp only [DewOk, PressureRange.St.setLo, PressureRange.St.mid, hk]
        refine ⟨hi.pos.trans_le hi.lep, ht, m1.1, fun hh => ?_, fun _ => m1.2, ⟨v, rfl, hv, hev⟩, fun hh => absurd hh (not_lt.2 m1.2)⟩
        have k := (hi.strict hh).2.2 hvap
        have := mid_between k
        exact ⟨k, this.1, fun _ => this.2⟩
      · rename_i hvap
        unfold DewRange.negative at e
        split at e
        · cases e
        · split at e
          · rename_i hh
            cases e
            have ht := hi.top (.inl hh)
            have m1 := mid_le ht
            simp only [DewOk, PressureRange.St.setLo, PressureRange.St.mid, hk]
            exact ⟨hi.pos.trans_le hi.lep, ht, m1.1, fun h' => (by rw [hh] at h'; cases h'), fun _ => m1.2, ⟨v, rfl, hv, hev⟩,
              fun hh => absurd hh (not_lt.2 m1.2)⟩
          · rename_i hh
            have hh' : L.hardHi = false := by simpa using hh
            simp only at e
            rw [if_neg (fun hend => by rw [if_pos hend] at e; cases e)] at e
            cases e
            obtain ⟨k1, k2, _⟩ := hi.strict hh'
            have hex : ∀ t : PressureRange.St K, t.P1 = u.p → t.P1 < extrapolate o t := fun t ht =>
              extrapolate_gt ho (by rw [ht]; exact hi.pos.trans_le hi.lep)
            by_cases hp : u.P1 < u.p
            · obtain ⟨w, w1, w2, w3⟩ := hi.high hp
              simp only [hp, if_true]
              have hx := hex (((u.setLo E u.P1 u.O1)).setHi E u.p (some v)) (by simp [PressureRange.St.setHi, hk])
              have hx' := hx
              simp only [PressureRange.St.setHi, PressureRange.St.setLo, hk] at hx'
              simp only [DewOk]
              refine ⟨?_, ?_, ?_, ?_, ?_, ?_, ?_⟩ <;>
                simp only [PressureRange.St.setHi, PressureRange.St.setLo, hk]
              · exact hi.pos.trans_le hi.le
              · exact hp.le
              · exact (hp.trans hx').le
              · exact fun _ => ⟨hp, hp.trans hx', fun hc => absurd hc (by simpa using hvap)⟩
              · rintro (hc | hc)
                · exact absurd hc hh
                · exact absurd hc hvap
              · exact ⟨w, w1, w2, w3⟩
              · exact fun _ => ⟨v, rfl, hv, hev⟩
            · simp only [hp, if_false]
              have hx := hex (u.setHi E u.p (some v)) (by simp [PressureRange.St.setHi, hk])
              have hx' : u.p < extrapolate o (u.setHi E u.p (some v)) := by
                simpa [PressureRange.St.setHi, hk] using hx
              simp only [DewOk]
              generalize extrapolate o _ = z at hx' ⊢
              refine ⟨?_, ?_, ?_, ?_, ?_, ?_, ?_⟩ <;>
                simp only [PressureRange.St.setHi, hk]
              · exact hi.pos
              · exact k2.le
              · exact (k2.trans hx').le
              · exact fun _ => ⟨k2, k2.trans hx', fun hc => absurd hc (by simpa using hvap)⟩
              · rintro (hc | hc)
                · exact absurd hc hh
                · exact absurd hc hvap
              · exact hi.low
              · exact fun _ => ⟨v, rfl, hv, hev⟩

theorem dew_highStep_spec (ho : GoodOpts o) (hs : ∀ p, E.store p = p) (objs : List (Option K)) (first : Bool)
    (hf : first = true → s.p = s.P1) (h : DewInv E L s) {q : High K}
    (e : DewRange.highStep o E L first objs s = .ok q) : DewOk E L q := by
  unfold DewRange.highStep at e
  simp only [bind, Except.bind] at e
  cases hl : E.liq s.p with
  | error _ => simp only [hl] at e; cases e
  | ok w =>
    obtain ⟨φv, f⟩ := w
    simp only [hl] at e
    cases hv : DewRange.liquid E s.yi φv s.p with
    | error _ => simp only [hv] at e; cases e
    | ok w =>
      obtain ⟨x, g, v⟩ := w
      simp only [hv] at e
      exact dew_highPhase_spec (s := { s with yi := x, obj := some v }) ho hs objs first hf
        ⟨h.pos, h.le, h.lep, h.strict, h.top, h.low, h.high⟩ f v (liquid_evaluated E φv f s.p hl _ _ _ _ hv) e

theorem dew_highLoop_spec (ho : GoodOpts o) (hs : ∀ p, E.store p = p) (n : ℕ) :
    ∀ (first : Bool) (objs : List (Option K)) (s : PressureRange.St K), (first = true → s.p = s.P1) → DewInv E L s →
      ∀ r, DewRange.highLoop o E L n first objs s = .ok (some r) → GoodDew E L r := by
  induction n with
  | zero => intro _ _ s _ _ r e; cases e
  | succ n ih =>
    intro first objs s hf h r e
    simp only [DewRange.highLoop, bind, Except.bind] at e
    cases hq : DewRange.highStep o E L first objs s with
    | error _ => simp only [hq] at e; cases e
    | ok q =>
      simp only [hq] at e
      have k := dew_highStep_spec ho hs objs first hf h hq
      cases q with
      | found r' =>
        simp only at e
        split at e
        · cases e
        · cases e; exact k
      | failed => cases e
      | skip t o' => exact absurd k id
      | next t o' =>
        simp only at e
        split at e
        · cases e
        · exact ih false o' t (by simp) k r e

/-- **C101** (what holds): a range that is returned has a positive lower end, an upper end not below it, an objective that is
not positive at the lower and positive at the upper end, and a guess between them; without an upper limit the ends
differ.  The pressures are floating-point numbers, and the lowest one is positive. -/
theorem c101_range_partial (ho : GoodOpts o) (hs : ∀ p, E.store p = p) (h0 : 0 < lowLimit o E) (xi : List K)
    (r : PressureRange.Range K) (e : DewRange.search o E xi = .ok (some r)) : GoodDew E (limits o E) r := by
  have h1 : 0 < (limits o E).hi := by
    show 0 < highLimit o E (lowLimit o E)
    unfold highLimit
    split
    · exact mul_pos h0 (lt_trans one_pos ho.max)
    · rename_i hh; exact h0.trans_le (not_lt.1 hh)
  unfold DewRange.search at e
  simp only [bind, Except.bind] at e
  cases hl : DewRange.lowLoop o E (limits o E) o.maxiter (PressureRange.start (limits o E) xi) with
  | error _ => simp only [hl] at e; cases e
  | ok s =>
    simp only [hl] at e
    obtain ⟨⟨_, p0, p1⟩, v, v1, v2, v3⟩ :=
      dew_lowLoop_spec ho hs h0 h1 o.maxiter (s := PressureRange.start (limits o E) xi) ⟨h0, h0, h1⟩ hl
    refine dew_highLoop_spec ho hs o.maxiter true _ _ ?_ ?_ r e
    · intro _; rfl
    · unfold DewRange.between
      by_cases hP : s.P1 ≤ s.P0
      · simp only [hP, if_true, keep_id E hs]
        have : s.P0 < s.P0 * (11 / 10) := by linarith
        exact ⟨p0, this.le, this.le, fun _ => ⟨this, this, by simp⟩, fun _ => le_refl _, ⟨v, v1, v2.le, v3⟩,
          fun hh => absurd hh (lt_irrefl _)⟩
      · simp only [hP, if_false]
        have := not_le.1 hP
        exact ⟨p0, this.le, this.le, fun _ => ⟨this, this, by simp⟩, fun _ => le_refl _, ⟨v, v1, v2.le, v3⟩,
          fun hh => absurd hh (lt_irrefl _)⟩

/-- **C101** is violated: when the objective falls while the pressure is raised, the search stops with a `TypeError`,
whatever the objective does elsewhere. -/
theorem c101_violated_well (o : PressureRange.Opts K) (E : PressureRange.Env K) (L : PressureRange.Limits K)
    (s : PressureRange.St K) (f : ℕ) (hf : f = 0 ∨ f = 2 ∨ f = 4) (obj q : K) (objs : List (Option K)) (hn : obj ≤ 0)
    (hv : s.vapor = false) (hq : obj < 11 / 10 * q) :
    DewRange.highPhase o E L false (some q :: objs) s f obj = .error .typeError := by
  have h1 : notVapor (some f) = false := by rcases hf with rfl | rfl | rfl <;> rfl
  simp [DewRange.highPhase, h1, not_lt.2 hn, hv, DewRange.negative, DewRange.falling, hq]

/-- **C101** is violated: when the objective has the same negative value at two pressures, the pressure at which it would
be zero on a straight line is infinite, and the search goes on there (`other`), although `maxfactor` times the upper end was meant as
the smallest step. -/
theorem c101_violated_endless (o : PressureRange.Opts K) (E : PressureRange.Env K) (L : PressureRange.Limits K)
    (s : PressureRange.St K) (f : ℕ) (hf : f = 0 ∨ f = 2 ∨ f = 4) (obj : K) (objs : List (Option K)) (hn : obj < 0)
    (hv : s.vapor = false) (hh : L.hardHi = false) (hs : ∀ p, E.store p = p) (h0 : s.O0 = some obj) (hp : s.p = s.P1)
    (hP : s.P0 < s.P1) : DewRange.highPhase o E L true objs s f obj = .error .other := by
  have h1 : notVapor (some f) = false := by rcases hf with rfl | rfl | rfl <;> rfl
  have hk := keep_id E hs
  simp [DewRange.highPhase, h1, not_lt.2 hn.le, hv, DewRange.negative, DewRange.falling, hh, hp, DewRange.endless,
    PressureRange.St.setHi, hk, h0, hn, hP.ne']

/-- Without a slope (an objective of zero at both ends, or one pressure for both) there is no such infinity, and the search goes
on at `maxfactor` times the upper end. -/
theorem c101_flat (o : PressureRange.Opts K) (E : PressureRange.Env K) (L : PressureRange.Limits K)
    (s : PressureRange.St K) (f : ℕ) (hf : f = 0 ∨ f = 2 ∨ f = 4) (obj : K) (objs : List (Option K)) (hn : obj ≤ 0)
    (hv : s.vapor = false) (hh : L.hardHi = false) (hs : ∀ p, E.store p = p) (h0 : s.O0 = some obj) (hp : s.p = s.P1)
    (hP : obj = 0 ∨ s.P0 = s.P1) : ∃ t, DewRange.highPhase o E L true objs s f obj = .ok (.next t (some obj :: objs)) ∧
      t.p = o.maxfactor * s.P1 ∧ t.P0 = s.P0 ∧ t.P1 = s.P1 := by
  have h1 : notVapor (some f) = false := by rcases hf with rfl | rfl | rfl <;> rfl
  have hk := keep_id E hs
  rcases hP with rfl | hP
  · simp [DewRange.highPhase, h1, hv, DewRange.negative, DewRange.falling, hh, hp, DewRange.endless,
      PressureRange.St.setHi, hk, h0, PressureRange.extrapolate]
  · simp [DewRange.highPhase, h1, not_lt.2 hn, hv, DewRange.negative, DewRange.falling, hh, hp, DewRange.endless,
      PressureRange.St.setHi, hk, h0, hP, PressureRange.extrapolate]

/-- **C101** is violated: a liquid at the first pressure is not followed by another pressure; the search stops because a
variable is unbound. -/
theorem c101_violated_unbound (o : PressureRange.Opts K) (E : PressureRange.Env K) (xi : List K) (φv : List (Option K)) (f : ℕ)
    (hm : 0 < o.maxiter) (hl : E.liq (lowLimit o E) = .ok (φv, f)) (hn : φv.any (·.isNone) = false)
    (hf : f = 1 ∨ f = 3) : DewRange.search o E xi = .error .unboundLocal := by
  obtain ⟨n, hn'⟩ : ∃ n, o.maxiter = n + 1 := ⟨o.maxiter - 1, by omega⟩
  have h1 : notVapor (some f) = true := by rcases hf with rfl | rfl <;> rfl
  have hl' : E.liq (PressureRange.start (limits o E) xi).p = .ok (φv, f) := hl
  have hstep : DewRange.lowStep o E (limits o E) n (PressureRange.start (limits o E) xi) = .error .unboundLocal := by
    unfold DewRange.lowStep
    simp only [hl', bind, Except.bind, hn, Bool.false_eq_true, if_false, DewRange.lowPhase, h1, if_true]
    rfl
  unfold DewRange.search
  simp only [hn', DewRange.lowLoop, hstep, bind, Except.bind]

/-- **C101** is violated: an objective of zero at the trial leaves everything as it is, so that an exact solution is not
recognised. -/
theorem c101_violated_zero (o : PressureRange.Opts K) (E : PressureRange.Env K) (L : PressureRange.Limits K)
    (s : PressureRange.St K) (φv : List (Option K)) (x : List K) (g : Option ℕ)
    (h : DewRange.liquid E s.yi φv s.p = .ok (x, g, 0)) (ht : Composition.isTrivial o.xytol E.xi x = false) :
    DewRange.lowVapor o E L s φv = .ok ({ s with yi := x, obj := some 0 }, false) := by
  simp [DewRange.lowVapor, h, ht, bind, Except.bind]

/-- **C101** is violated: a single iteration never suffices. -/
theorem c101_violated_last_iteration (o : PressureRange.Opts K) (E : PressureRange.Env K) (hm : o.maxiter = 1) (xi : List K)
    (r : Option (PressureRange.Range K)) : DewRange.search o E xi ≠ .ok r := by
  intro e
  unfold DewRange.search at e
  simp only [hm, DewRange.lowLoop, bind, Except.bind] at e
  cases hl : DewRange.lowStep o E (limits o E) 0 (PressureRange.start (limits o E) xi) with
  | error _ => simp only [hl] at e; cases e
  | ok q => simp only [hl, if_true] at e; cases e

/-! ## C102: the limits restrict the search -/

/-- The first state of the first loop. -/
def AtStart (L : PressureRange.Limits K) (s : PressureRange.St K) : Prop :=
  s.P0 = L.lo ∧ s.p = L.lo ∧ L.lo < s.P1 ∧ s.P1 ≤ L.hi

/-- The states of the first loop: inside the limits, the first one, or stuck at the lower limit where the vapour has no
coefficients. -/
def DewLow (L : PressureRange.Limits K) (E : PressureRange.Env K) (s : PressureRange.St K) : Prop :=
  Inside L s ∨ AtStart L s ∨ (AtLow L s ∧ ∃ φv f, E.liq L.lo = .ok (φv, f) ∧ φv.any (·.isNone) = true)

theorem DewLow.within (hL : L.lo < L.hi) (h : DewLow L E s) : L.lo ≤ s.p ∧ s.p ≤ L.hi := by
  rcases h with h | h | h
  · exact ⟨h.1.trans h.2.2.1.le, h.2.2.2.le.trans h.2.1⟩
  · rw [h.2.1]; exact ⟨le_refl _, hL.le⟩
  · rw [h.1.2.2]; exact ⟨le_refl _, hL.le⟩

theorem dew_lowPhase_inside (hlo : L.hardLo = true) (hhi : L.hardHi = true) (hL : L.lo < L.hi) (hs : ∀ p, E.store p = p)
    (hm : 0 < o.minfactor ∧ o.minfactor < 1) (φv : List (Option K)) (f : ℕ) (h : Inside L s ∨ AtStart L s)
    {t : PressureRange.St K} {b : Bool} (e : DewRange.lowPhase o E L s φv f = .ok (t, b)) :
    (b = true → L.lo ≤ t.P0 ∧ t.P0 < t.P1 ∧ t.P1 ≤ L.hi) ∧ (b = false → Inside L t ∨ AtStart L t ∨ AtLow L t) := by
  have b0 : L.lo ≤ s.p := by
    rcases h with h | h
    · exact h.1.trans h.2.2.1.le
    · exact h.2.1.ge
  have b1 : s.P1 ≤ L.hi := by
    rcases h with h | h
    · exact h.2.1
    · exact h.2.2.2
  have b2 : s.p < s.P1 := by
    rcases h with h | h
    · exact h.2.2.2
    · exact h.2.1 ▸ h.2.2.1
  have up : ∀ u : PressureRange.St K, u.p = s.p → u.P1 = s.P1 → ∀ v, Inside L (upTo o E L.hardHi (u.setLo E u.p v)) := by
    intro u u1 u2 v
    simp only [upTo, hhi, if_true]
    exact lo_mid_inside hs (u1 ▸ b0) (u2 ▸ b1) (by rw [u1, u2]; exact b2) v
  have down : ∀ u : PressureRange.St K, u.p = s.p → u.P0 = s.P0 → ∀ v,
      Inside L { u.setHi E u.p v with p := (u.setHi E u.p v).mid } ∨ AtLow L { u.setHi E u.p v with p := (u.setHi E u.p v).mid } := by
    intro u u1 u2 v
    rcases h with h | h
    · exact .inl (hi_mid_inside hs (u2 ▸ h.1) (by rw [u1]; exact b2.le.trans b1) (by rw [u1, u2]; exact h.2.2.1) v)
    · exact .inr (hi_mid_atLow hs (u2.trans h.1) (u1.trans h.2.1) v)
  have both : ∀ {u : PressureRange.St K}, Inside L u ∨ AtLow L u → Inside L u ∨ AtStart L u ∨ AtLow L u :=
    fun h => h.elim .inl fun h => .inr (.inr h)
  unfold DewRange.lowPhase at e
  split at e
  · unfold DewRange.lowLiquid at e
    cases hobj : s.obj with
    | none => simp only [hobj, Except.map] at e; cases e
    | some v =>
      simp only [hobj, Except.map] at e
      cases e
      refine ⟨by simp, fun _ => both ?_⟩
      obtain ⟨u, hu, u1, u2, u3⟩ : ∃ u : PressureRange.St K, DewRange.atLimit L s = u ∧ u.p = s.p ∧ u.P0 = s.P0 ∧ u.P1 = s.P1 := by
        refine ⟨_, rfl, ?_, ?_, ?_⟩ <;> unfold DewRange.atLimit <;> split <;> rfl
      rw [hu]
      unfold DewRange.wrongPhase
      split
      · exact .inl (up { u with fmin := true } u1 u3 _)
      · simp only [downTo, hlo, Bool.or_true, if_true]
        exact down { u with fmax := true } u1 u2 _
  · unfold DewRange.lowVapor at e
    simp only [bind, Except.bind] at e
    cases hv : DewRange.liquid E s.yi φv s.p with
    | error _ => simp only [hv] at e; cases e
    | ok q =>
      obtain ⟨x, g, v⟩ := q
      simp only [hv] at e
      split at e
      · cases e
        refine ⟨by simp, fun _ => both ?_⟩
        unfold DewRange.reproduced
        split
        · exact .inl (reset_inside hhi hL)
        · unfold DewRange.sameFluid
          split
          · exact .inl (up { s with yi := x, obj := some v } rfl rfl _)
          · simp only [hlo, Bool.or_true, if_true]
            exact down { s with yi := x, obj := some v, fmax := true } rfl rfl _
      · split at e
        · cases e
          refine ⟨fun _ => ?_, by simp⟩
          simp only [PressureRange.St.setLo, keep_id E hs]
          exact ⟨b0, b2, b1⟩
        · split at e
          · cases e
            refine ⟨by simp, fun _ => both ?_⟩
            unfold DewRange.tooHigh
            simp only [PressureRange.St.setHi, keep_id E hs, Inside, AtLow]
            rcases h with h | h
            · have hd : 0 < s.p - s.P0 := sub_pos.2 h.2.2.1
              refine .inl ⟨h.1, b2.le.trans b1, ?_, ?_⟩ <;> nlinarith [hm.1, hm.2, mul_pos hd hm.1]
            · refine .inr ⟨h.1, h.2.1, ?_⟩
              rw [h.1, h.2.1]; ring
          · cases e
            exact ⟨by simp, fun _ => h.elim .inl fun h => .inr (.inl h)⟩

theorem dew_lowStep_inside (hlo : L.hardLo = true) (hhi : L.hardHi = true) (hL : L.lo < L.hi) (hs : ∀ p, E.store p = p)
    (hm : 0 < o.minfactor ∧ o.minfactor < 1) (n : ℕ) (h : DewLow L E s) {t : PressureRange.St K} {b : Bool}
    (e : DewRange.lowStep o E L n s = .ok (t, b)) :
    (b = true → L.lo ≤ t.P0 ∧ t.P0 < t.P1 ∧ t.P1 ≤ L.hi) ∧ (b = false → DewLow L E t) := by
  unfold DewRange.lowStep at e
  simp only [bind, Except.bind] at e
  cases hl : E.liq s.p with
  | error _ => simp only [hl] at e; cases e
  | ok q =>
    obtain ⟨φv, f⟩ := q
    simp only [hl] at e
    split at e
    · rename_i hn
      cases e
      refine ⟨by simp, fun _ => ?_⟩
      simp only [downTo, hlo, if_true]
      rcases h with h | h | h
      · exact .inl (hi_mid_inside (s := { s with fmax := true }) hs h.1 (h.2.2.2.le.trans h.2.1) h.2.2.1 _)
      · exact .inr (.inr ⟨hi_mid_atLow (s := { s with fmax := true }) hs h.1 h.2.1 _, φv, f, h.2.1 ▸ hl, hn⟩)
      · exact .inr (.inr ⟨hi_mid_atLow (s := { s with fmax := true }) hs h.1.1 h.1.2.2 _, h.2⟩)
    · rename_i hn
      have h' : Inside L s ∨ AtStart L s := by
        rcases h with h | h | h
        · exact .inl h
        · exact .inr h
        · obtain ⟨φ', f', h1, h2⟩ := h.2
          rw [h.1.2.2, h1] at hl
          cases hl
          exact absurd h2 hn
      cases hu : DewRange.lowPhase o E L s φv f with
      | error _ => simp only [hu] at e; cases e
      | ok q =>
        obtain ⟨u, c⟩ := q
        simp only [hu] at e
        obtain ⟨k1, k2⟩ := dew_lowPhase_inside hlo hhi hL hs hm φv f h' hu
        split at e
        · rename_i hc
          cases e
          exact ⟨fun _ => k1 hc, by simp⟩
        · rename_i hc
          have k3 := k2 (by simpa using hc)
          have hord : u.P0 ≤ u.p ∧ u.p ≤ u.P1 := by
            rcases k3 with k | k | k
            · exact ⟨k.2.2.1.le, k.2.2.2.le⟩
            · exact ⟨by rw [k.1, k.2.1], by rw [k.2.1]; exact k.2.2.1.le⟩
            · rw [k.1, k.2.1, k.2.2]; exact ⟨le_refl _, le_refl _⟩
          have ho' : DewRange.ordered o E L u = .ok u := by
            simp [DewRange.ordered, not_lt.2 (hord.1.trans hord.2)]
          have hcl : DewRange.clamp E L n u = u := by
            simp [DewRange.clamp, not_lt.2 hord.1, not_lt.2 hord.2]
          simp only [ho', hcl] at e
          cases hd : DewRange.lowCheck L u with
          | error _ => simp only [hd] at e; cases e
          | ok w =>
            simp only [hd] at e
            cases e
            refine ⟨by simp, fun _ => ?_⟩
            unfold DewRange.lowCheck at hd
            split at hd
            · cases hd
            · rename_i hne
              split at hd
              · cases hd
              · cases hd
                rcases k3 with k | k | k
                · exact .inl k
                · simp [hlo, k.2.1] at hne
                · simp [hlo, k.2.2] at hne

/-- The pressures of the second loop. -/
def DewIn (L : PressureRange.Limits K) (s : PressureRange.St K) : Prop :=
  L.lo ≤ s.P0 ∧ s.P0 ≤ s.p ∧ s.p ≤ s.P1 ∧ s.P1 ≤ L.hi

theorem dew_highStep_inside (hhi : L.hardHi = true) (hs : ∀ p, E.store p = p) (first : Bool) (objs : List (Option K))
    (h : DewIn L s) {t : PressureRange.St K} {objs' : List (Option K)} {q : High K}
    (e : DewRange.highStep o E L first objs s = .ok q) (hq : q = .skip t objs' ∨ q = .next t objs') : DewIn L t := by
  have hk : ∀ (u : PressureRange.St K) p, keep E u p = p := keep_id E hs
  have up : ∀ u : PressureRange.St K, u.p = s.p → u.P1 = s.P1 → ∀ v,
      DewIn L { u.setLo E u.p v with p := (u.setLo E u.p v).mid } := by
    intro u u1 u2 v
    have := mid_le h.2.2.1
    simp only [DewIn, PressureRange.St.setLo, PressureRange.St.mid, hk, u1, u2]
    exact ⟨h.1.trans h.2.1, this.1, this.2, h.2.2.2⟩
  have down : ∀ u : PressureRange.St K, u.p = s.p → u.P0 = s.P0 → ∀ v,
      DewIn L { u.setHi E u.p v with p := (u.setHi E u.p v).mid } := by
    intro u u1 u2 v
    have := mid_le h.2.1
    simp only [DewIn, PressureRange.St.setHi, PressureRange.St.mid, hk, u1, u2]
    exact ⟨h.1, this.1, this.2, h.2.2.1.trans h.2.2.2⟩
  unfold DewRange.highStep at e
  simp only [bind, Except.bind] at e
  cases hl : E.liq s.p with
  | error _ => simp only [hl] at e; cases e
  | ok w =>
    obtain ⟨φv, f⟩ := w
    simp only [hl] at e
    cases hv : DewRange.liquid E s.yi φv s.p with
    | error _ => simp only [hv] at e; cases e
    | ok w =>
      obtain ⟨x, g, v⟩ := w
      simp only [hv] at e
      unfold DewRange.highPhase at e
      obtain ⟨u, hu, u1, u2, u3⟩ : ∃ u : PressureRange.St K,
          (if first = true then ({ s with yi := x, obj := some v, O1 := some v } : PressureRange.St K)
            else { s with yi := x, obj := some v }) = u ∧ u.p = s.p ∧ u.P0 = s.P0 ∧ u.P1 = s.P1 := by
        refine ⟨_, rfl, ?_, ?_, ?_⟩ <;> split <;> rfl
      simp only [hu] at e
      split at e
      · cases e
        rcases hq with hq | hq <;> cases hq
        exact down { u with vapor := true } u1 u2 _
      · split at e
        · cases e
          rcases hq with hq | hq <;> cases hq
        · split at e
          · cases e
            rcases hq with hq | hq <;> cases hq
            exact up u u1 u3 _
          · unfold DewRange.negative at e
            split at e
            · cases e
            · simp only [hhi, if_true] at e
              cases e
              rcases hq with hq | hq <;> cases hq
              exact up u u1 u3 _

variable {liq : K → Except PyErr (List (Option K) × ℕ)}
  {vap : List K → List (Option K) → K → Except PyErr (Composition.Result K)}

theorem liquid_congr (xi : List K) (φv : List (Option K)) (p : K) (h : ∀ y φ, vap y φ p = E.vap y φ p) :
    DewRange.liquid (withPhases E liq vap) xi φv p = DewRange.liquid E xi φv p := by
  unfold DewRange.liquid
  rw [show (withPhases E liq vap).vap xi φv p = E.vap xi φv p from h _ _]
  rfl

theorem dew_lowStep_congr (n : ℕ) (hl : liq s.p = E.liq s.p) (hv : ∀ y φ, vap y φ s.p = E.vap y φ s.p) :
    DewRange.lowStep o (withPhases E liq vap) L n s = DewRange.lowStep o E L n s := by
  have h1 : ∀ φv f, DewRange.lowPhase o (withPhases E liq vap) L s φv f = DewRange.lowPhase o E L s φv f := by
    intro φv f
    unfold DewRange.lowPhase DewRange.lowVapor
    rw [liquid_congr _ _ _ hv]
    rfl
  unfold DewRange.lowStep
  rw [show (withPhases E liq vap).liq s.p = E.liq s.p from hl]
  simp only [h1]
  rfl

theorem dew_highStep_congr (first : Bool) (objs : List (Option K)) (hl : liq s.p = E.liq s.p)
    (hv : ∀ y φ, vap y φ s.p = E.vap y φ s.p) :
    DewRange.highStep o (withPhases E liq vap) L first objs s = DewRange.highStep o E L first objs s := by
  unfold DewRange.highStep
  rw [show (withPhases E liq vap).liq s.p = E.liq s.p from hl]
  simp only [liquid_congr _ _ _ hv]
  rfl

theorem dew_lowLoop_congr (hlo : L.hardLo = true) (hhi : L.hardHi = true) (hL : L.lo < L.hi) (hs : ∀ p, E.store p = p)
    (hm : 0 < o.minfactor ∧ o.minfactor < 1)
    (hl : ∀ p, L.lo ≤ p → p ≤ L.hi → liq p = E.liq p ∧ ∀ y φ, vap y φ p = E.vap y φ p) (n : ℕ) :
    ∀ s, DewLow L E s → DewRange.lowLoop o (withPhases E liq vap) L n s = DewRange.lowLoop o E L n s ∧
      ∀ t, DewRange.lowLoop o E L n s = .ok t → L.lo ≤ t.P0 ∧ t.P0 < t.P1 ∧ t.P1 ≤ L.hi := by
  induction n with
  | zero => intro s _; exact ⟨rfl, fun t e => by cases e⟩
  | succ n ih =>
    intro s h
    obtain ⟨w1, w2⟩ := h.within hL
    obtain ⟨l1, l2⟩ := hl s.p w1 w2
    have hstep : DewRange.lowStep o (withPhases E liq vap) L n s = DewRange.lowStep o E L n s := dew_lowStep_congr n l1 l2
    simp only [DewRange.lowLoop, hstep, bind, Except.bind]
    cases he : DewRange.lowStep o E L n s with
    | error _ => exact ⟨rfl, fun t e => by cases e⟩
    | ok q =>
      obtain ⟨t, b⟩ := q
      obtain ⟨k1, k2⟩ := dew_lowStep_inside hlo hhi hL hs hm n h he
      simp only
      split
      · exact ⟨rfl, fun t e => by cases e⟩
      · cases b with
        | true => exact ⟨rfl, fun t' e => by cases e; exact k1 rfl⟩
        | false => exact ih t (k2 rfl)

theorem dew_highLoop_congr (hhi : L.hardHi = true) (hs : ∀ p, E.store p = p)
    (hl : ∀ p, L.lo ≤ p → p ≤ L.hi → liq p = E.liq p ∧ ∀ y φ, vap y φ p = E.vap y φ p) (n : ℕ) :
    ∀ first objs s, DewIn L s →
      DewRange.highLoop o (withPhases E liq vap) L n first objs s = DewRange.highLoop o E L n first objs s := by
  induction n with
  | zero => intro _ _ s _; rfl
  | succ n ih =>
    intro first objs s h
    obtain ⟨l1, l2⟩ := hl s.p (h.1.trans h.2.1) (h.2.2.1.trans h.2.2.2)
    have hstep : DewRange.highStep o (withPhases E liq vap) L first objs s = DewRange.highStep o E L first objs s :=
      dew_highStep_congr first objs l1 l2
    simp only [DewRange.highLoop, hstep, bind, Except.bind]
    cases he : DewRange.highStep o E L first objs s with
    | error _ => rfl
    | ok q =>
      cases q with
      | found r => rfl
      | failed => rfl
      | skip t objs' =>
        simp only
        rw [ih _ _ _ (dew_highStep_inside hhi hs first objs h he (.inl rfl))]
      | next t objs' =>
        simp only
        rw [ih _ _ _ (dew_highStep_inside hhi hs first objs h he (.inr rfl))]

/-- **C102** (what holds): with both limits given, the lower below the upper, the search asks for the phases only at
pressures between them: calculations that differ elsewhere give the same result. -/
theorem c102_limits_partial (lo hi : K) (h0 : o.pmin = some lo) (h1 : o.pmax = some hi) (hL : lo < hi)
    (hm : 0 < o.minfactor ∧ o.minfactor < 1) (hs : ∀ p, E.store p = p)
    (hl : ∀ p, lo ≤ p → p ≤ hi → liq p = E.liq p ∧ ∀ y φ, vap y φ p = E.vap y φ p) (xi : List K) :
    DewRange.search o (withPhases E liq vap) xi = DewRange.search o E xi := by
  have hlim : limits o E = ⟨lo, hi, true, true⟩ := by
    simp [limits, lowLimit, highLimit, upper, h0, h1, not_lt.2 hL.le]
  have hlim' : limits o (withPhases E liq vap) = ⟨lo, hi, true, true⟩ := by
    simp [limits, lowLimit, highLimit, upper, h0, h1, not_lt.2 hL.le]
  unfold DewRange.search
  simp only [hlim, hlim', bind, Except.bind]
  obtain ⟨e1, e2⟩ := dew_lowLoop_congr (o := o) (E := E) (L := ⟨lo, hi, true, true⟩) rfl rfl hL hs hm hl o.maxiter
    (PressureRange.start ⟨lo, hi, true, true⟩ xi) (.inr (.inl ⟨rfl, rfl, hL, le_refl _⟩))
  rw [e1]
  cases he : DewRange.lowLoop o E ⟨lo, hi, true, true⟩ o.maxiter (PressureRange.start ⟨lo, hi, true, true⟩ xi) with
  | error _ => rfl
  | ok s =>
    obtain ⟨k1, k2, k3⟩ := e2 s he
    have hb : ∀ F : PressureRange.Env K, DewRange.between F s = s := fun F => by simp [DewRange.between, not_le.2 k2]
    simp only [hb]
    exact dew_highLoop_congr rfl hs hl _ _ _ _ ⟨k1, k2.le, le_refl _, k3⟩

end

/-! ### Searches that can be computed -/

/-- A mixture of two components whose objective is a given function of the pressure and whose vapour has a given
flag. -/
def dewEnv (f : ℚ → ℚ) (flag : ℚ → ℕ) (ext : List ℚ) (store : ℚ → ℚ) : PressureRange.Env ℚ where
  xi := [1 / 2, 1 / 2]
  extremaP := ext
  liq := fun p => .ok ([some (1 + f p), some (1 + f p)], flag p)
  vap := fun _ _ _ => .ok ([1 / 4, 3 / 4], [some 1, some 1], some 1)
  rand := fun _ => 1 / 2
  well := fun _ _ => .error .typeError
  store := store

/-- A search that succeeds: the hypotheses of `c101_range_partial` are met. -/
example : GoodOpts (rangeOpts none none) ∧
    DewRange.search (rangeOpts none none) (dewEnv (fun p => p / 1000 - 5) (fun _ => 0) [-1, 3000] id) [1 / 2, 1 / 2]
      = .ok (some ⟨3000, 6000, some 5000, some (-2), some 1, false, false⟩) := by
  refine ⟨⟨?_, ?_, ?_⟩, ?_⟩ <;> decide +kernel

/-- **C101** is violated: the objective changes sign between 10000 and 12000, but falls before; `TypeError`. -/
theorem c101_violated_sign_change_lost :
    DewRange.search (rangeOpts none none) (dewEnv (fun p => (p / 1000 - 6) ^ 2 - 30) (fun _ => 0) [-1, 3000] id) [1 / 2, 1 / 2]
      = .error .typeError ∧
    ((10000 / 1000 - 6) ^ 2 - 30 : ℚ) < 0 ∧ (0 : ℚ) < (12000 / 1000 - 6) ^ 2 - 30 := by
  refine ⟨?_, ?_, ?_⟩ <;> decide +kernel

/-- **C101** is violated: the objective is the same at the two ends of the first range and changes sign above; the search
goes on at an infinite pressure. -/
theorem c101_violated_plateau :
    DewRange.search (rangeOpts none none) (dewEnv (fun p => if p ≤ 4000 then -1 / 2 else 1) (fun _ => 0) [-1, 3000] id)
      [1 / 2, 1 / 2] = .error .other := by
  decide +kernel

/-- **C101** is violated: the objective is negative at both limits and positive between them; the range collapses at the
upper one and the result is NaN. -/
theorem c101_violated_upper_limit :
    DewRange.search (rangeOpts (some 1000) (some 8000))
      (dewEnv (fun p => if 2000 ≤ p ∧ p ≤ 7000 then 1 else -1 / 2) (fun _ => 0) [] id) [1 / 2, 1 / 2] = .ok none := by
  decide +kernel

/-- **C101** is violated: with limits that are integers the ends are rounded towards zero; the objective is negative at
both ends of the range. -/
theorem c101_violated_integers :
    DewRange.search (rangeOpts (some 4) (some 9))
      (dewEnv (fun p => p - 25 / 4) (fun p => if p = 9 then 1 else 0) [] (fun q => (⌊q⌋ : ℚ))) [1 / 2, 1 / 2]
      = .ok (some ⟨4, 6, some (29 / 5), some (-9 / 4), some (1 / 4), false, false⟩) ∧
    (6 - 25 / 4 : ℚ) < 0 := by
  constructor <;> decide +kernel

/-- A search between two limits, to which `c102_limits_partial` applies. -/
example : DewRange.search (rangeOpts (some 1000) (some 8000)) (dewEnv (fun p => p / 1000 - 5) (fun _ => 0) [] id)
    [1 / 2, 1 / 2] = .ok (some ⟨1000, 8000, some 5000, some (-4), some 3, false, false⟩) := by
  decide +kernel

/-- **C102** is violated: an upper limit below the default lower one is replaced; the range found lies above it. -/
theorem c102_violated_upper_limit :
    DewRange.search (rangeOpts none (some 500)) (dewEnv (fun p => p / 1000 - 3 / 2) (fun _ => 0) [] id) [1 / 2, 1 / 2]
      = .ok (some ⟨1000, 2000, some 1500, some (-1 / 2), some (1 / 2), false, false⟩) := by
  decide +kernel

/-- **C102** is violated: with equal limits the range found goes beyond them. -/
theorem c102_violated_equal_limits :
    DewRange.search (rangeOpts (some 1000) (some 1000)) (dewEnv (fun p => p / 1000 - 21 / 20) (fun _ => 0) [] id) [1 / 2, 1 / 2]
      = .ok (some ⟨1000, 1100, some 1050, some (-1 / 20), some (1 / 20), false, false⟩) := by
  decide +kernel

/-! ## C101, C102: single steps -/

variable {K : Type} [Field K] [LinearOrder K] [IsStrictOrderedRing K]

/-- **C102** (at the lower limit): a liquid at the lower limit makes the search go up, to the middle between the limit and
the upper end. -/
theorem c102_at_lower_limit (o : PressureRange.Opts K) (E : PressureRange.Env K) (L : PressureRange.Limits K)
    (s : PressureRange.St K) (obj : K) (hs : ∀ p, E.store p = p) (hlo : L.hardLo = true) (hhi : L.hardHi = true)
    (hp : s.p = L.lo) (ho : s.obj = some obj) :
    ∃ s', DewRange.lowLiquid o E L s = .ok s' ∧ s'.critical = true ∧ s'.P0 = L.lo ∧ s'.p = (s.P1 - L.lo) / 2 + L.lo := by
  refine ⟨_, by simp only [DewRange.lowLiquid, ho]; rfl, ?_⟩
  have hk : keep E s L.lo = L.lo := by unfold keep; split <;> simp [hs]
  simp [DewRange.wrongPhase, DewRange.atLimit, hlo, hp, upTo, hhi, PressureRange.St.setLo, PressureRange.St.mid]
  unfold keep at hk ⊢
  simp only [hs, ite_self] at hk ⊢
  exact ⟨trivial, trivial⟩

/-- **C102** (the end of an iteration): the search for the lower end goes on at every positive pressure except a given lower limit,
and is ended with a `ValueError` at all others. -/
theorem c102_goes_on (L : PressureRange.Limits K) (s : PressureRange.St K) :
    (0 < s.p → (L.hardLo = true → L.lo ≠ s.p) → DewRange.lowCheck L s = .ok s) ∧
    (s.p ≤ 0 ∨ (L.hardLo = true ∧ L.lo = s.p) → DewRange.lowCheck L s = .error .valueError) := by
  unfold DewRange.lowCheck
  constructor
  · intro hp hl
    rw [if_neg (by simpa using hl), if_neg (not_le.2 hp)]
  · intro h
    split
    · rfl
    · rename_i hc
      rw [if_pos]
      rcases h with h | h
      · exact h
      · exact absurd (by simpa using h) hc

/-- **C102** (random pressure): a pressure outside of a bounded range is replaced by one inside it. -/
theorem c102_clamp (E : PressureRange.Env K) (L : PressureRange.Limits K) (n : ℕ) (s : PressureRange.St K)
    (hr : 0 ≤ E.rand n ∧ E.rand n ≤ 1) (h : s.P0 ≤ s.P1) (h1 : s.fmax = true ∨ L.hardHi = true)
    (h2 : s.fmin = true ∨ L.hardLo = true) :
    s.P0 ≤ (DewRange.clamp E L n s).p ∧ (DewRange.clamp E L n s).p ≤ s.P1 := by
  unfold DewRange.clamp
  split
  · have hd : 0 ≤ s.P1 - s.P0 := sub_nonneg.2 h
    have hm := mul_le_mul_of_nonneg_left hr.2 hd
    have hm0 := mul_nonneg hd hr.1
    constructor <;> simp only <;> linarith
  · rename_i hc
    have e1 : (s.fmax || L.hardHi) = true := by rcases h1 with h | h <;> simp [h]
    have e2 : (s.fmin || L.hardLo) = true := by rcases h2 with h | h <;> simp [h]
    simp only [e1, e2, Bool.true_and, Bool.or_eq_true, decide_eq_true_eq, not_or, not_lt] at hc
    exact ⟨hc.1, hc.2⟩

/-- **C102** (the vapour found again, going down): the pressure becomes the upper end, and the next one is a fixed fraction of
it or, when a lower bound is known, the middle of the range; it is taken unless it is below the smallest pressure allowed. -/
theorem c102_found_again (o : PressureRange.Opts K) (E : PressureRange.Env K) (L : PressureRange.Limits K)
    (s : PressureRange.St K) (obj : K) (hs : ∀ p, E.store p = p) (hc : s.critical = false) (next : K)
    (hnext : next = if s.fmin = true ∨ L.hardLo = true then (s.p - s.P0) / 2 + s.P0 else o.minfactor * s.p) :
    (o.pminAllowed ≤ next → ∃ s', DewRange.reproduced o E L s obj = s' ∧ s'.p = next ∧ s'.P1 = s.p ∧ s'.O1 = some obj ∧
      s'.P0 = s.P0 ∧ s'.O0 = s.O0 ∧ s'.fmax = true ∧ s'.critical = false) ∧
    (next < o.pminAllowed → ∃ s', DewRange.reproduced o E L s obj = s' ∧ s'.critical = true ∧ s'.P0 = L.lo ∧
      s'.O0 = none ∧ s'.O1 = none ∧ s'.fmax = false ∧
      (L.hardHi = true → s'.p = (L.hi - L.lo) / 2 + L.lo ∧ s'.P1 = L.hi) ∧
      (L.hardHi = false → s'.p = o.maxfactor * L.lo ∧ s'.P1 = max L.hi (o.maxfactor * L.lo))) := by
  have hk : ∀ (t : PressureRange.St K) (p : K), keep E t p = p := by
    intro t p; unfold keep; split <;> simp [hs]
  have hsame : DewRange.sameFluid o E L s obj = { s with fmax := true, P1 := s.p, O1 := some obj, p := next } := by
    rw [hnext]
    by_cases hb : s.fmin = true ∨ L.hardLo = true
    · have : (s.fmin || L.hardLo) = true := by simpa using hb
      simp [DewRange.sameFluid, hc, PressureRange.St.setHi, hk, PressureRange.St.mid, hb]
    · have : (s.fmin || L.hardLo) = false := by simpa using hb
      simp [DewRange.sameFluid, hc, PressureRange.St.setHi, hk, this, hb]
  constructor
  · intro h
    refine ⟨_, rfl, ?_⟩
    unfold DewRange.reproduced
    rw [hsame]
    simp [not_lt.2 h, hc]
  · intro h
    refine ⟨_, rfl, ?_⟩
    unfold DewRange.reproduced
    rw [hsame]
    simp only [h, if_true]
    cases hh : L.hardHi with
    | true => simp [reset, hh, PressureRange.St.mid]
    | false =>
      unfold reset raiseTo
      simp only [hh, Bool.false_eq_true, if_false, PressureRange.St.setHi, hk]
      split
      · rename_i hlt
        simp [max_eq_right (le_of_lt hlt)]
      · rename_i hlt
        simp [max_eq_left (not_lt.1 hlt)]

/-- Going down from 100 with the smallest pressure allowed at 40, and at 60. -/
example : ∀ o : PressureRange.Opts ℚ, o.minfactor = 1/2 → o.maxfactor = 2 → o.pminAllowed = 40 ∨ o.pminAllowed = 60 →
    (DewRange.reproduced o (dewEnv (fun p => p) (fun _ => 0) [] id) ⟨10, 1000, false, false⟩
      ⟨100, 10, 1000, none, none, false, [], false, false, false, false, false, none⟩ 1).p =
      if o.pminAllowed = 40 then 50 else 20 := by
  intro o h1 h2 h3
  rcases h3 with h3 | h3 <;>
    norm_num [DewRange.reproduced, DewRange.sameFluid, PressureRange.St.setHi, keep, dewEnv, h1, h2, h3, reset, raiseTo]

end Verif.Props
