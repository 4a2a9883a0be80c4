import Mathlib.Algebra.Order.Field.Basic
import Mathlib.Algebra.Order.Floor.Ring
import Mathlib.Algebra.Order.Ring.Rat
import Mathlib.Data.Rat.Floor
import Mathlib.Tactic.Linarith
import Mathlib.Tactic.Ring
import Mathlib.Tactic.FieldSimp
import Mathlib.Tactic.Positivity
import Verif.Model.PressureRange

/-!
# C98, C99: the pressure range of a bubble point
-/

set_option linter.unusedSectionVars false

namespace Verif.Props

open Verif.PressureRange Verif.PhaseDensity

section

variable {K : Type} [Field K] [LinearOrder K]

/-! ## C98: a change of sign between the ends -/

/-- The objective was evaluated at a pressure: the liquid and vapour calculations at this pressure, the latter from some
guess, give this value. -/
def Evaluated (E : PressureRange.Env K) (p v : K) : Prop :=
  ∃ φl f y r, E.liq p = .ok (φl, f) ∧ E.vap y φl p = .ok r ∧ equilibriumObjective .vapor E.xi φl r.2.1 = .ok v

theorem vapor_evaluated (E : PressureRange.Env K) (φl : List (Option K)) (f : ℕ) (p : K) (hl : E.liq p = .ok (φl, f))
    (yi y : List K) (g : Option ℕ) (v : K) (h : PressureRange.vapor E yi φl p = .ok (y, g, v)) : Evaluated E p v := by
  unfold PressureRange.vapor at h
  simp only [bind, Except.bind] at h
  cases hv : E.vap yi φl p with
  | error e => simp only [hv] at h; cases h
  | ok r =>
    simp only [hv] at h
    cases ho : equilibriumObjective .vapor E.xi φl r.2.1 with
    | error e => simp only [ho] at h; cases h
    | ok w =>
      simp only [ho] at h
      obtain ⟨rfl, rfl, rfl⟩ : r.1 = y ∧ r.2.2 = g ∧ w = v := by simpa using h
      exact ⟨φl, f, yi, r, hl, hv, ho⟩

variable [IsStrictOrderedRing K]

/-- Positive pressures. -/
def PosSt (s : PressureRange.St K) : Prop := 0 < s.p ∧ 0 < s.P0 ∧ 0 < s.P1

theorem mid_pos {s : PressureRange.St K} (h0 : 0 < s.P0) (h1 : 0 < s.P1) : 0 < s.mid := by
  unfold PressureRange.St.mid
  have : (s.P1 - s.P0) / 2 + s.P0 = (s.P1 + s.P0) / 2 := by ring
  rw [this]; positivity

theorem keep_id (E : PressureRange.Env K) (hs : ∀ p, E.store p = p) (s : PressureRange.St K) (p : K) :
    keep E s p = p := by unfold keep; split <;> simp [hs]

theorem raiseTo_pos (E : PressureRange.Env K) (hs : ∀ p, E.store p = p) {s : PressureRange.St K} {p : K} (hp : 0 < p)
    (h0 : 0 < s.P0) (h1 : 0 < s.P1) : PosSt (raiseTo E s p) := by
  unfold raiseTo PosSt PressureRange.St.setHi
  split
  · exact ⟨hp, h0, by simpa [keep_id E hs] using hp⟩
  · exact ⟨hp, h0, h1⟩

theorem lowerTo_pos (E : PressureRange.Env K) (hs : ∀ p, E.store p = p) {s : PressureRange.St K} {p : K} (hp : 0 < p)
    (h0 : 0 < s.P0) (h1 : 0 < s.P1) : PosSt (lowerTo E s p) := by
  unfold lowerTo PosSt PressureRange.St.setLo
  split
  · exact ⟨hp, by simpa [keep_id E hs] using hp, h1⟩
  · exact ⟨hp, h0, h1⟩

/-- The options a caller may use: positive factors, the larger above one. -/
structure GoodOpts (o : PressureRange.Opts K) : Prop where
  max : 1 < o.maxfactor
  min : 0 < o.minfactor
  tol : 0 < o.ptol

variable {o : PressureRange.Opts K} {E : PressureRange.Env K} {L : PressureRange.Limits K} {s : PressureRange.St K}

theorem upTo_pos (ho : GoodOpts o) (hs : ∀ p, E.store p = p) (b : Bool) (h : PosSt s) : PosSt (upTo o E b s) := by
  unfold upTo
  split
  · exact ⟨mid_pos h.2.1 h.2.2, h.2.1, h.2.2⟩
  · exact raiseTo_pos E hs (mul_pos (lt_trans one_pos ho.max) h.1) h.2.1 h.2.2

theorem downTo_pos (ho : GoodOpts o) (hs : ∀ p, E.store p = p) (b : Bool) (h : PosSt s) : PosSt (downTo o E b s) := by
  unfold downTo
  split
  · exact ⟨mid_pos h.2.1 h.2.2, h.2.1, h.2.2⟩
  · exact lowerTo_pos E hs (mul_pos ho.min h.1) h.2.1 h.2.2

theorem reset_pos (ho : GoodOpts o) (hs : ∀ p, E.store p = p) (h0 : 0 < L.lo) (h1 : 0 < L.hi) : PosSt (reset o E L s) := by
  unfold reset
  dsimp only
  split
  · exact ⟨mid_pos h0 h1, h0, h1⟩
  · exact raiseTo_pos E hs (mul_pos (lt_trans one_pos ho.max) h0) h0 h1

theorem setLo_pos (hs : ∀ p, E.store p = p) (h : PosSt s) (v : Option K) : PosSt (s.setLo E s.p v) :=
  ⟨h.1, by simpa [PressureRange.St.setLo, keep_id E hs] using h.1, h.2.2⟩

theorem setHi_pos (hs : ∀ p, E.store p = p) (h : PosSt s) (v : Option K) : PosSt (s.setHi E s.p v) :=
  ⟨h.1, h.2.1, by simpa [PressureRange.St.setHi, keep_id E hs] using h.1⟩

theorem toMid_pos (h : PosSt s) : PosSt { s with p := s.mid } := ⟨mid_pos h.2.1 h.2.2, h.2.1, h.2.2⟩

theorem critFluid_pos (ho : GoodOpts o) (hs : ∀ p, E.store p = p) (h0 : 0 < L.lo) (h1 : 0 < L.hi) (h : PosSt s) (v : K) :
    PosSt (critFluid o E L s v) := by
  unfold critFluid
  dsimp only
  split
  · split
    · exact reset_pos ho hs h0 h1
    · exact toMid_pos (setLo_pos (s := { s with fmin := true }) hs h _)
  · split
    · exact toMid_pos (setHi_pos (s := { s with fmax := true }) hs h _)
    · split
      · exact upTo_pos ho hs _ (setLo_pos hs h _)
      · exact downTo_pos ho hs _ (setHi_pos (s := { s with fmax := true }) hs h _)

theorem reproduced_pos (ho : GoodOpts o) (hs : ∀ p, E.store p = p) (h0 : 0 < L.lo) (h1 : 0 < L.hi) (h : PosSt s) (v : K) :
    PosSt (reproduced o E L s v) := by
  unfold reproduced
  split
  · exact reset_pos ho hs h0 h1
  · exact critFluid_pos ho hs h0 h1 h v

theorem foundLiquid_pos (ho : GoodOpts o) (hs : ∀ p, E.store p = p) (h : PosSt s) (v : K) :
    PosSt (foundLiquid o E L s v) := by
  unfold foundLiquid
  dsimp only
  have h' : PosSt (if (L.hardLo && decide (s.p ≤ L.lo)) = true then { s with critical := true, fmax := false } else s) := by
    split
    · exact h
    · exact h
  generalize (if (L.hardLo && decide (s.p ≤ L.lo)) = true then { s with critical := true, fmax := false } else s) = t at h' ⊢
  split
  · exact upTo_pos ho hs _ (setLo_pos (s := { t with liquid := true, fmin := true }) hs h' _)
  · exact downTo_pos ho hs _ (setHi_pos (s := { t with liquid := true, fmax := true }) hs h' _)

/-- One iteration of the first loop: pressures stay positive, and a lower end that is found has a positive
objective. -/
theorem lowStep_spec (ho : GoodOpts o) (hs : ∀ p, E.store p = p) (h0 : 0 < L.lo) (h1 : 0 < L.hi) (h : PosSt s)
    {t : PressureRange.St K} {b : Bool} (e : lowStep o E L s = .ok (t, b)) :
    PosSt t ∧ (b = true → ∃ v, t.O0 = some v ∧ 0 < v ∧ Evaluated E t.P0 v) := by
  unfold lowStep at e
  simp only [bind, Except.bind] at e
  cases hl : E.liq s.p with
  | error _ => simp only [hl] at e; cases e
  | ok q =>
    obtain ⟨φl, f⟩ := q
    simp only [hl] at e
    split at e
    · cases e
      exact ⟨downTo_pos ho hs _ (setHi_pos (s := { s with fmax := true, liquid := true }) hs h _), by simp⟩
    · have key : ∀ (u : PressureRange.St K) (c : Bool),
          lowPhase o E L s φl f = .ok (u, c) →
          (0 < u.P0 ∧ 0 < u.P1) ∧ (c = true → PosSt u ∧ ∃ v, u.O0 = some v ∧ 0 < v ∧ Evaluated E u.P0 v) := by
        intro u c hu
        unfold lowPhase at hu
        split at hu
        · unfold lowLiquid at hu
          simp only [bind, Except.bind] at hu
          cases hv : PressureRange.vapor E s.yi φl s.p with
          | error _ => simp only [hv] at hu; cases hu
          | ok q =>
            obtain ⟨y, g, v⟩ := q
            simp only [hv] at hu
            have hp : PosSt { s with yi := y, obj := some v } := h
            have hev := vapor_evaluated E φl f s.p hl _ _ _ _ hv
            split at hu
            · cases hu
              exact ⟨(reproduced_pos ho hs h0 h1 hp v).2, by simp⟩
            · split at hu
              · cases hu
                exact ⟨(foundLiquid_pos ho hs hp v).2, by simp⟩
              · split at hu
                · rename_i hpos
                  cases hu
                  refine ⟨(setLo_pos hs hp _).2, fun _ => ⟨setLo_pos hs hp _, v, rfl, hpos, ?_⟩⟩
                  simpa [PressureRange.St.setLo, keep_id E hs] using hev
                · split at hu
                  · cases hu
                    exact ⟨(downTo_pos ho hs _ (setHi_pos
                      (s := { s with yi := y, obj := some v, fmax := true, liquid := true }) hs h _)).2, by simp⟩
                  · cases hu
        · cases hu
          refine ⟨?_, by simp⟩
          unfold lowVapor
          dsimp only
          have h2 := setLo_pos (s := { s with vapor := true, fmin := true }) hs h none
          split
          · exact h2.2
          · exact h2.2
      cases hu : lowPhase o E L s φl f with
      | error _ => simp only [hu] at e; cases e
      | ok q =>
        obtain ⟨u, c⟩ := q
        simp only [hu] at e
        obtain ⟨k1, k2⟩ := key u c hu
        split at e
        · rename_i hc
          cases e
          obtain ⟨k3, k4⟩ := k2 hc
          exact ⟨k3, fun _ => k4⟩
        · cases hc : lowCheck L (clamp L u) with
          | error _ => simp only [hc] at e; cases e
          | ok w =>
            simp only [hc] at e
            cases e
            refine ⟨?_, by simp⟩
            have hP : (clamp L u).P0 = u.P0 ∧ (clamp L u).P1 = u.P1 := by unfold clamp; split <;> exact ⟨rfl, rfl⟩
            unfold lowCheck at hc
            split at hc
            · cases hc
            · rename_i hpos
              split at hc
              · cases hc
              · cases hc
                exact ⟨not_le.1 hpos, hP.1 ▸ k1.1, hP.2 ▸ k1.2⟩

theorem lowLoop_spec (ho : GoodOpts o) (hs : ∀ p, E.store p = p) (h0 : 0 < L.lo) (h1 : 0 < L.hi) (n : ℕ) :
    ∀ {s t : PressureRange.St K}, PosSt s → lowLoop o E L n s = .ok t →
      PosSt t ∧ ∃ v, t.O0 = some v ∧ 0 < v ∧ Evaluated E t.P0 v := by
  induction n with
  | zero => intro s t _ e; cases e
  | succ n ih =>
    intro s t h e
    simp only [lowLoop, bind, Except.bind] at e
    cases hl : lowStep o E L s with
    | error _ => simp only [hl] at e; cases e
    | ok q =>
      obtain ⟨u, b⟩ := q
      simp only [hl] at e
      obtain ⟨k1, k2⟩ := lowStep_spec ho hs h0 h1 h hl
      split at e
      · cases e
      · split at e
        · rename_i hb
          cases e
          exact ⟨k1, k2 hb⟩
        · exact ih k1 e

/-- The invariant of the second loop when no critical fluid is sought. -/
structure HighInv (E : PressureRange.Env K) (s : PressureRange.St K) : Prop where
  pos : 0 < s.P0
  lt : s.P0 < s.P1
  ltp : s.P0 < s.p
  max : s.fmax = true → s.p ≤ s.P1
  crit : s.critical = false
  low : ∃ v, s.O0 = some v ∧ 0 ≤ v ∧ Evaluated E s.P0 v
  high : s.P1 < s.p → ∃ v, s.O1 = some v ∧ 0 ≤ v ∧ Evaluated E s.P1 v

/-- What a range should be: the objective is not negative at the lower and negative at the upper end, and the guess
lies between them. -/
def GoodRange (E : PressureRange.Env K) (r : PressureRange.Range K) : Prop :=
  0 < r.P0 ∧ r.P0 < r.P1 ∧ (∃ v, 0 ≤ v ∧ Evaluated E r.P0 v) ∧ (∃ v, v < 0 ∧ Evaluated E r.P1 v) ∧
    ∃ g, r.guess = some g ∧ r.P0 ≤ g ∧ g < r.P1

theorem crossing_between {P0 P1 O0 O1 : K} (hP : P0 < P1) (h0 : 0 ≤ O0) (h1 : O1 < 0) :
    P0 ≤ crossing P0 P1 O0 O1 ∧ crossing P0 P1 O0 O1 < P1 := by
  have hd : 0 < P1 - P0 := sub_pos.2 hP
  have hO : 0 < O0 - O1 := by linarith
  have e : crossing P0 P1 O0 O1 = P0 + (P1 - P0) * (O0 / (O0 - O1)) := by
    unfold crossing
    have h2 : O1 - O0 ≠ 0 := by linarith
    have h3 : O0 - O1 ≠ 0 := hO.ne'
    field_simp
    ring
  have h4 : 0 ≤ O0 / (O0 - O1) := div_nonneg h0 hO.le
  have h5 : O0 / (O0 - O1) < 1 := by rw [div_lt_one hO]; linarith
  rw [e]
  constructor
  · nlinarith
  · nlinarith

/-- What an iteration of the second loop may end with. -/
def HighOk (o : PressureRange.Opts K) (E : PressureRange.Env K) : High K → Prop
  | .found r => r.well = false → GoodRange E r
  | .failed => True
  | .skip s _ => HighInv E s
  | .next s _ => ¬ |s.P1 - s.P0| < o.ptol → HighInv E s

theorem highStep_spec (ho : GoodOpts o) (hs : ∀ p, E.store p = p) (hr : ∀ n, 0 < E.rand n ∧ E.rand n < 1) (n : ℕ)
    (first : Bool) (objs : List (Option K)) (h : HighInv E s) {q : High K} (e : highStep o E L n first objs s = .ok q) :
    HighOk o E q := by
  have hk : ∀ (u : PressureRange.St K) p, keep E u p = p := keep_id E hs
  unfold highStep at e
  simp only [bind, Except.bind] at e
  have hmid : ∀ a b : K, a < b → a < (b - a) / 2 + a ∧ (b - a) / 2 + a < b := fun a b hab => by
    constructor <;> linarith
  cases hl : E.liq s.p with
  | error _ => simp only [hl] at e; cases e
  | ok w =>
    obtain ⟨φl, f⟩ := w
    simp only [hl] at e
    split at e
    · cases e
      obtain ⟨m1, m2⟩ := hmid _ _ h.ltp
      simp only [HighOk, PressureRange.St.setHi, PressureRange.St.mid, hk]
      exact ⟨h.pos, h.ltp, m1, fun _ => m2.le, h.crit, h.low, fun hh => absurd hh (not_lt.2 m2.le)⟩
    · cases hv : PressureRange.vapor E s.yi φl s.p with
      | error _ => simp only [hv] at e; cases e
      | ok w =>
        obtain ⟨y, g, v⟩ := w
        simp only [hv] at e
        have hev := vapor_evaluated E φl f s.p hl _ _ _ _ hv
        obtain ⟨m1, m2⟩ := hmid _ _ h.ltp
        split at e
        · simp only [h.crit, Bool.false_eq_true, if_false] at e
          cases e
          simp only [HighOk, PressureRange.St.setHi, PressureRange.St.mid, hk]
          exact fun _ => ⟨h.pos, h.ltp, m1, fun _ => m2.le, rfl, h.low, fun hh => absurd hh (not_lt.2 m2.le)⟩
        · split at e
          · cases e
            simp only [HighOk, PressureRange.St.setHi, PressureRange.St.mid, hk]
            exact fun _ => ⟨h.pos, h.ltp, m1, fun _ => m2.le, h.crit, h.low, fun hh => absurd hh (not_lt.2 m2.le)⟩
          · split at e
            · rename_i hneg
              cases e
              intro _
              by_cases hp : s.P1 < s.p
              · obtain ⟨w, w1, w2, w3⟩ := h.high hp
                simp only [hp, if_true, PressureRange.St.setHi, PressureRange.St.setLo, PressureRange.St.range, guess, hk, w1]
                refine ⟨h.pos.trans h.lt, hp, ⟨w, w2, w3⟩, ⟨v, hneg, hev⟩, _, ?_, crossing_between hp w2 hneg⟩
                simp [hp.ne', (hneg.trans_le w2).ne]
              · obtain ⟨w, w1, w2, w3⟩ := h.low
                simp only [hp, if_false, PressureRange.St.setHi, PressureRange.St.range, guess, hk, w1]
                refine ⟨h.pos, h.ltp, ⟨w, w2, w3⟩, ⟨v, hneg, hev⟩, _, ?_, crossing_between h.ltp w2 hneg⟩
                simp [h.ltp.ne', (hneg.trans_le w2).ne]
            · rename_i hneg
              have hv0 : 0 ≤ v := not_lt.1 hneg
              unfold positive at e
              dsimp only at e
              split at e
              · unfold inWell at e
                simp only [bind, Except.bind] at e
                generalize E.well _ _ = ww at e
                cases ww with
                | error _ => cases e
                | ok ww =>
                  dsimp only at e
                  split at e
                  · cases e; intro hh; cases hh
                  · cases e; trivial
              · split at e
                · rename_i hmax
                  cases e
                  have hp1 := h.max hmax
                  intro hptol
                  simp only [PressureRange.St.setLo, PressureRange.St.mid, hk] at hptol ⊢
                  have hlt : s.p < s.P1 := by
                    rcases hp1.lt_or_eq with h' | h'
                    · exact h'
                    · exfalso; apply hptol; rw [h']; simpa using ho.tol
                  obtain ⟨m3, m4⟩ := hmid _ _ hlt
                  exact ⟨h.pos.trans h.ltp, hlt, m3, fun _ => m4.le, h.crit, ⟨v, rfl, hv0, hev⟩,
                    fun hh => absurd hh (not_lt.2 m4.le)⟩
                · rename_i hmax
                  split at e
                  · cases e
                    intro _
                    obtain ⟨r0, r1⟩ := hr n
                    have hd := sub_pos.2 h.lt
                    have p1 : s.P0 < (s.P1 - s.P0) * E.rand n + s.P0 := by
                      have := mul_pos hd r0; linarith
                    have p2 : (s.P1 - s.P0) * E.rand n + s.P0 ≤ s.P1 := by nlinarith
                    exact ⟨h.pos, h.lt, p1, fun _ => p2, h.crit, h.low, fun hh => absurd hh (not_lt.2 p2)⟩
                  · cases e
                    intro _
                    have hext : ∀ u : PressureRange.St K, 0 < u.P1 → u.P1 < extrapolate o u := by
                      intro u hu
                      have : u.P1 < o.maxfactor * u.P1 := by nlinarith [ho.max]
                      unfold extrapolate
                      split
                      · split
                        · exact this
                        · exact this.trans_le (le_max_right _ _)
                      · exact this
                    by_cases hp : s.P1 < s.p
                    · obtain ⟨w, w1, w2, w3⟩ := h.high hp
                      simp only [hp, if_true]
                      have hx := hext ((({ s with yi := y, obj := some v } : PressureRange.St K).setLo E s.P1 s.O1).setHi E s.p
                        (some v)) (by simpa [PressureRange.St.setHi, hk] using (h.pos.trans h.lt).trans hp)
                      simp only [PressureRange.St.setHi, PressureRange.St.setLo, hk] at hx ⊢
                      exact ⟨h.pos.trans h.lt, hp, hp.trans hx, fun hm => absurd hm hmax, h.crit, ⟨w, w1, w2, w3⟩,
                        fun _ => ⟨v, rfl, hv0, hev⟩⟩
                    · simp only [hp, if_false]
                      have hx := hext (({ s with yi := y, obj := some v } : PressureRange.St K).setHi E s.p (some v))
                        (by simpa [PressureRange.St.setHi, hk] using h.pos.trans h.ltp)
                      simp only [PressureRange.St.setHi, hk] at hx ⊢
                      exact ⟨h.pos, h.ltp, h.ltp.trans hx, fun hm => absurd hm hmax, h.crit, h.low,
                        fun _ => ⟨v, rfl, hv0, hev⟩⟩

theorem highLoop_spec (ho : GoodOpts o) (hs : ∀ p, E.store p = p) (hr : ∀ n, 0 < E.rand n ∧ E.rand n < 1) (n : ℕ) :
    ∀ (first : Bool) (objs : List (Option K)) (s : PressureRange.St K), HighInv E s → ∀ r,
      highLoop o E L n first objs s = .ok (some r) → r.well = false → GoodRange E r := by
  induction n with
  | zero => intro _ _ _ _ r e; cases e
  | succ n ih =>
    intro first objs s h r e
    simp only [highLoop, bind, Except.bind] at e
    cases hq : highStep o E L n first objs s with
    | error _ => simp only [hq] at e; cases e
    | ok q =>
      have hok := highStep_spec ho hs hr n first objs h hq
      simp only [hq] at e
      cases q with
      | found r' =>
        simp only at e
        split at e
        · cases e
        · cases e; exact hok
      | failed => cases e
      | skip s' objs' =>
        simp only at e
        split at e
        · cases e
        · exact ih _ _ _ hok _ e
      | next s' objs' =>
        simp only at e
        split at e
        · cases e
        · split at e
          · cases e
          · rename_i htol
            split at e
            · cases e
            · exact ih _ _ _ (hok htol) _ e

/-- The second loop does not change whether a critical fluid is sought. -/
theorem highLoop_critical (n : ℕ) : ∀ (first : Bool) (objs : List (Option K)) (s : PressureRange.St K) r,
    highLoop o E L n first objs s = .ok (some r) → r.critical = s.critical := by
  have hraise : ∀ (s : PressureRange.St K) p, (raiseTo E s p).critical = s.critical := fun s p => by
    unfold raiseTo; split <;> rfl
  have hup : ∀ b (s : PressureRange.St K), (upTo o E b s).critical = s.critical := fun b s => by
    unfold upTo; split
    · rfl
    · exact hraise _ _
  have hstep : ∀ n first objs (s : PressureRange.St K) q, highStep o E L n first objs s = .ok q →
      match q with
      | .found r => r.critical = s.critical
      | .failed => True
      | .skip t _ => t.critical = s.critical
      | .next t _ => t.critical = s.critical := by
    intro n first objs s q e
    unfold highStep at e
    simp only [bind, Except.bind] at e
    cases hl : E.liq s.p with
    | error _ => simp only [hl] at e; cases e
    | ok w =>
      simp only [hl] at e
      split at e
      · cases e; rfl
      · cases hv : PressureRange.vapor E s.yi w.1 s.p with
        | error _ => simp only [hv] at e; cases e
        | ok w =>
          simp only [hv] at e
          split at e
          · split at e
            · cases e; exact hup _ _
            · cases e; rfl
          · split at e
            · cases e; rfl
            · split at e
              · cases e
                simp only [PressureRange.St.range]
                split <;> rfl
              · unfold positive at e
                dsimp only at e
                split at e
                · unfold inWell at e
                  simp only [bind, Except.bind] at e
                  generalize E.well _ _ = ww at e
                  cases ww with
                  | error _ => cases e
                  | ok ww =>
                    dsimp only at e
                    split at e
                    · cases e; rfl
                    · cases e; trivial
                · split at e
                  · cases e; rfl
                  · split at e
                    · cases e; rfl
                    · cases e
                      dsimp only
                      split <;> rfl
  induction n with
  | zero => intro _ _ _ r e; cases e
  | succ n ih =>
    intro first objs s r e
    simp only [highLoop, bind, Except.bind] at e
    cases hq : highStep o E L n first objs s with
    | error _ => simp only [hq] at e; cases e
    | ok q =>
      have hok := hstep _ _ _ _ _ hq
      simp only [hq] at e
      cases q with
      | found r' =>
        simp only at e
        split at e
        · cases e
        · cases e; exact hok
      | failed => cases e
      | skip s' objs' =>
        simp only at e
        split at e
        · cases e
        · exact (ih _ _ _ _ e).trans hok
      | next s' objs' =>
        simp only at e
        split at e
        · cases e
        · split at e
          · cases e
          · split at e
            · cases e
            · exact (ih _ _ _ _ e).trans hok

/-- **C98** (what holds): a range that was found without looking for a critical fluid and without the minimiser has a
positive lower end, an upper end above it, an objective that is not negative at the lower and negative
at the upper end, and a guess between them.  The pressures are floating-point numbers, and the lowest one is positive. -/
theorem c98_range_partial (ho : GoodOpts o) (hs : ∀ p, E.store p = p) (hr : ∀ n, 0 < E.rand n ∧ E.rand n < 1)
    (hlo : 0 < lowLimit o E) (yi : List K) (r : PressureRange.Range K)
    (e : PressureRange.search o E yi = .ok (some r)) (hc : r.critical = false) (hw : r.well = false) : GoodRange E r := by
  unfold PressureRange.search at e
  simp only [bind, Except.bind] at e
  have hhi : 0 < (limits o E).hi := by
    simp only [limits, highLimit]
    by_cases hcl : upper o E < lowLimit o E
    · rw [if_pos hcl]; exact mul_pos hlo (lt_trans one_pos ho.max)
    · rw [if_neg hcl]; exact hlo.trans_le (not_lt.1 hcl)
  cases hl : lowLoop o E (limits o E) o.maxiter (PressureRange.start (limits o E) yi) with
  | error _ => simp only [hl] at e; cases e
  | ok s =>
    simp only [hl] at e
    obtain ⟨⟨_, p0, p1⟩, v, v1, v2, v3⟩ := lowLoop_spec ho hs hlo hhi _ (s := PressureRange.start (limits o E) yi)
      ⟨hlo, hlo, hhi⟩ hl
    refine highLoop_spec ho hs hr _ _ _ _ ?_ _ e hw
    have hcr := highLoop_critical _ _ _ _ _ e
    rw [hc] at hcr
    simp only [between] at hcr ⊢
    by_cases hP : s.P1 ≤ s.P0
    · simp only [hP, if_true, keep_id E hs] at hcr ⊢
      have : s.P0 < s.P0 * o.maxfactor := by nlinarith [ho.max]
      exact ⟨p0, this, this, fun _ => le_refl _, hcr.symm, ⟨v, v1, v2.le, v3⟩, fun hh => absurd hh (lt_irrefl _)⟩
    · simp only [hP, if_false] at hcr ⊢
      exact ⟨p0, not_le.1 hP, not_le.1 hP, fun _ => le_refl _, hcr.symm, ⟨v, v1, v2.le, v3⟩,
        fun hh => absurd hh (lt_irrefl _)⟩

/-- **C98** is violated: the minimiser's pressure becomes the upper end exactly when the objective there is positive, so
that there is no change of sign; when the sign has changed, the search fails. -/
theorem c98_violated_well (E : PressureRange.Env K) (s : PressureRange.St K) (p v : K)
    (h : E.well s.P0 s.P1 = .ok (p, v)) :
    (0 < v → ∃ r, inWell E s = .ok (.found r) ∧ r.O1 = some v) ∧ (v < 0 → inWell E s = .ok .failed) := by
  constructor
  · intro hv
    simp [inWell, h, bind, Except.bind, hv, PressureRange.St.range, PressureRange.St.setHi]
  · intro hv
    simp [inWell, h, bind, Except.bind, not_lt.2 hv.le]

/-- **C98** is violated: a single iteration never suffices: the lower end found in the last iteration is
rejected. -/
theorem c98_violated_last_iteration (o : PressureRange.Opts K) (E : PressureRange.Env K) (hm : o.maxiter = 1) (yi : List K)
    (r : Option (PressureRange.Range K)) : PressureRange.search o E yi ≠ .ok r := by
  intro e
  unfold PressureRange.search at e
  simp only [hm, lowLoop, bind, Except.bind] at e
  cases hl : lowStep o E (limits o E) (PressureRange.start (limits o E) yi) with
  | error _ => simp only [hl] at e; cases e
  | ok q => simp only [hl, if_true] at e; cases e

/-- **C98** is violated: a vapour that cannot be attained, whose coefficients are NaN, does not make the search try another
pressure; it stops. -/
theorem c98_violated_no_vapor (o : PressureRange.Opts K) (E : PressureRange.Env K) (L : PressureRange.Limits K)
    (s : PressureRange.St K) (φl : List (Option K)) (hl : E.liq s.p = .ok (φl, 1)) (hn : φl.any (·.isNone) = false)
    (y : List K) (φv : List (Option K)) (g : Option ℕ) (hv : E.vap s.yi φl s.p = .ok (y, φv, g)) (hnan : none ∈ φv) :
    lowStep o E L s = .error .valueError := by
  have h1 : φv.any (·.isNone) = true := List.any_eq_true.2 ⟨none, hnan, rfl⟩
  have h2 : equilibriumObjective .vapor E.xi φl φv = .error .valueError := by
    unfold equilibriumObjective
    simp [h1]
  simp [lowStep, hl, hn, lowPhase, lowLiquid, PressureRange.vapor, hv, h2, bind, Except.bind]

/-! ## C99: the limits restrict the search -/

/-- Inside the limits, strictly between the ends. -/
def Inside (L : PressureRange.Limits K) (s : PressureRange.St K) : Prop :=
  L.lo ≤ s.P0 ∧ s.P1 ≤ L.hi ∧ s.P0 < s.p ∧ s.p < s.P1

/-- Everything at the lower limit. -/
def AtLow (L : PressureRange.Limits K) (s : PressureRange.St K) : Prop := s.P0 = L.lo ∧ s.P1 = L.lo ∧ s.p = L.lo

/-- The states of the first loop: inside the limits, the first one, or stuck at the lower limit where the liquid has no
coefficients. -/
def LowInv (L : PressureRange.Limits K) (E : PressureRange.Env K) (s : PressureRange.St K) : Prop :=
  Inside L s ∨ (s.P0 = L.lo ∧ s.p = L.lo ∧ L.lo < s.P1 ∧ s.P1 ≤ L.hi ∧ s.liquid = false ∧ s.vapor = false ∧ s.critical = false)
    ∨ (AtLow L s ∧ ∃ φl f, E.liq L.lo = .ok (φl, f) ∧ φl.any (·.isNone) = true)

theorem LowInv.within (hL : L.lo < L.hi) (h : LowInv L E s) : L.lo ≤ s.p ∧ s.p ≤ L.hi := by
  rcases h with h | h | h
  · exact ⟨h.1.trans h.2.2.1.le, h.2.2.2.le.trans h.2.1⟩
  · rw [h.2.1]; exact ⟨le_refl _, hL.le⟩
  · rw [h.1.2.2]; exact ⟨le_refl _, hL.le⟩

theorem mid_between {a b : K} (h : a < b) : a < (b - a) / 2 + a ∧ (b - a) / 2 + a < b := by
  constructor <;> linarith

theorem reset_inside (hhi : L.hardHi = true) (hL : L.lo < L.hi) : Inside L (reset o E L s) := by
  obtain ⟨m1, m2⟩ := mid_between hL
  unfold reset
  simp only [hhi, if_true]
  exact ⟨le_refl _, le_refl _, m1, m2⟩

/-- The next pressure between the trial and the upper end. -/
theorem lo_mid_inside (hs : ∀ p, E.store p = p) (h0 : L.lo ≤ s.p) (h1 : s.P1 ≤ L.hi) (h : s.p < s.P1) (v : Option K) :
    Inside L { s.setLo E s.p v with p := (s.setLo E s.p v).mid } := by
  obtain ⟨m1, m2⟩ := mid_between h
  simp only [Inside, PressureRange.St.setLo, PressureRange.St.mid, keep_id E hs]
  exact ⟨h0, h1, m1, m2⟩

/-- The next pressure between the lower end and the trial. -/
theorem hi_mid_inside (hs : ∀ p, E.store p = p) (h0 : L.lo ≤ s.P0) (h1 : s.p ≤ L.hi) (h : s.P0 < s.p) (v : Option K) :
    Inside L { s.setHi E s.p v with p := (s.setHi E s.p v).mid } := by
  obtain ⟨m1, m2⟩ := mid_between h
  simp only [Inside, PressureRange.St.setHi, PressureRange.St.mid, keep_id E hs]
  exact ⟨h0, h1, m1, m2⟩

/-- The same at the lower limit. -/
theorem hi_mid_atLow (hs : ∀ p, E.store p = p) (h0 : s.P0 = L.lo) (h1 : s.p = L.lo) (v : Option K) :
    AtLow L { s.setHi E s.p v with p := (s.setHi E s.p v).mid } := by
  simp only [AtLow, PressureRange.St.setHi, PressureRange.St.mid, keep_id E hs, h0, h1]
  simp

theorem check_inside (hlo : L.hardLo = true) {t : PressureRange.St K} (h : Inside L s ∨ AtLow L s)
    (e : lowCheck L (clamp L s) = .ok t) : Inside L t := by
  have hc : clamp L s = s := by
    unfold clamp
    have h1 : ¬ s.p < s.P0 ∧ ¬ s.P1 < s.p := by
      rcases h with h | h
      · exact ⟨not_lt.2 h.2.2.1.le, not_lt.2 h.2.2.2.le⟩
      · rw [h.1, h.2.1, h.2.2]; exact ⟨lt_irrefl _, lt_irrefl _⟩
    simp [h1.1, h1.2]
  rw [hc] at e
  unfold lowCheck at e
  split at e
  · cases e
  · split at e
    · cases e
    · rename_i hne
      cases e
      rcases h with h | h
      · exact h
      · simp [hlo, h.2.2] at hne

theorem lowPhase_inside (hlo : L.hardLo = true) (hhi : L.hardHi = true) (hL : L.lo < L.hi)
    (hs : ∀ p, E.store p = p) (φl : List (Option K)) (f : ℕ)
    (h : Inside L s ∨ (s.P0 = L.lo ∧ s.p = L.lo ∧ L.lo < s.P1 ∧ s.P1 ≤ L.hi ∧ s.liquid = false ∧ s.vapor = false ∧
      s.critical = false)) {t : PressureRange.St K} {b : Bool} (e : lowPhase o E L s φl f = .ok (t, b)) :
    (b = true → L.lo ≤ t.P0 ∧ t.P0 < t.P1 ∧ t.P1 ≤ L.hi) ∧ (b = false → Inside L t ∨ AtLow L t) := by
  have b0 : L.lo ≤ s.p := by
    rcases h with h | h
    · exact h.1.trans h.2.2.1.le
    · exact h.2.1.ge
  have b1 : s.P1 ≤ L.hi := by
    rcases h with h | h
    · exact h.2.1
    · exact h.2.2.2.1
  have b2 : s.p < s.P1 := by
    rcases h with h | h
    · exact h.2.2.2
    · exact h.2.1 ▸ h.2.2.1
  have up : ∀ u : PressureRange.St K, u.p = s.p → u.P1 = s.P1 → ∀ v, Inside L (upTo o E L.hardHi (u.setLo E u.p v)) := by
    intro u u1 u2 v
    simp only [upTo, hhi, if_true]
    exact lo_mid_inside hs (u1 ▸ b0) (u2 ▸ b1) (by rw [u1, u2]; exact b2) v
  have down : ∀ u : PressureRange.St K, u.p = s.p → u.P0 = s.P0 → ∀ v,
      Inside L { u.setHi E u.p v with p := (u.setHi E u.p v).mid } ∨ AtLow L { u.setHi E u.p v with p := (u.setHi E u.p v).mid } := by
    intro u u1 u2 v
    rcases h with h | h
    · exact .inl (hi_mid_inside hs (u2 ▸ h.1) (by rw [u1]; exact b2.le.trans b1) (by rw [u1, u2]; exact h.2.2.1) v)
    · exact .inr (hi_mid_atLow hs (u2.trans h.1) (u1.trans h.2.1) v)
  unfold lowPhase at e
  split at e
  · unfold lowLiquid at e
    simp only [bind, Except.bind] at e
    cases hv : PressureRange.vapor E s.yi φl s.p with
    | error _ => simp only [hv] at e; cases e
    | ok q =>
      obtain ⟨y, g, v⟩ := q
      simp only [hv] at e
      split at e
      · cases e
        refine ⟨by simp, fun _ => ?_⟩
        have hc : Inside L (critFluid o E L { s with yi := y, obj := some v } v) ∨
            AtLow L (critFluid o E L { s with yi := y, obj := some v } v) := by
          unfold critFluid
          dsimp only
          split
          · split
            · exact .inl (reset_inside hhi hL)
            · exact .inl (lo_mid_inside (s := { s with yi := y, obj := some v, fmin := true }) hs b0 b1 b2 _)
          · split
            · exact down { s with yi := y, obj := some v, fmax := true } rfl rfl _
            · split
              · exact .inl (up { s with yi := y, obj := some v } rfl rfl _)
              · simp only [downTo, hlo, if_true]
                exact down { s with yi := y, obj := some v, fmax := true } rfl rfl _
        unfold reproduced
        split
        · exact .inl (reset_inside hhi hL)
        · exact hc
      · split at e
        · cases e
          refine ⟨by simp, fun _ => ?_⟩
          unfold foundLiquid
          dsimp only
          have ht : ∃ u : PressureRange.St K, (if (L.hardLo && decide (s.p ≤ L.lo)) = true then
              ({ s with yi := y, obj := some v, critical := true, fmax := false } : PressureRange.St K)
              else { s with yi := y, obj := some v }) = u ∧ u.p = s.p ∧ u.P0 = s.P0 ∧ u.P1 = s.P1 := by
            refine ⟨_, rfl, ?_, ?_, ?_⟩ <;> split <;> rfl
          obtain ⟨u, hu, u1, u2, u3⟩ := ht
          rw [hu]
          split
          · exact .inl (up { u with liquid := true, fmin := true } u1 u3 _)
          · simp only [downTo, hlo, Bool.or_true, if_true]
            exact down { u with liquid := true, fmax := true } u1 u2 _
        · split at e
          · cases e
            refine ⟨fun _ => ?_, by simp⟩
            simp only [PressureRange.St.setLo, keep_id E hs]
            exact ⟨b0, b2, b1⟩
          · split at e
            · cases e
              refine ⟨by simp, fun _ => ?_⟩
              simp only [tooHigh, downTo, hlo, Bool.or_true, if_true]
              exact down { s with yi := y, obj := some v, fmax := true, liquid := true } rfl rfl _
            · cases e
  · cases e
    refine ⟨by simp, fun _ => .inl ?_⟩
    simp only [lowVapor, hhi, Bool.or_true, if_true]
    exact lo_mid_inside (s := { s with vapor := true, fmin := true }) hs b0 b1 b2 _

theorem lowStep_inside (hlo : L.hardLo = true) (hhi : L.hardHi = true) (hL : L.lo < L.hi) (hs : ∀ p, E.store p = p)
    (h : LowInv L E s) {t : PressureRange.St K} {b : Bool} (e : lowStep o E L s = .ok (t, b)) :
    (b = true → L.lo ≤ t.P0 ∧ t.P0 < t.P1 ∧ t.P1 ≤ L.hi) ∧ (b = false → LowInv L E t) := by
  unfold lowStep at e
  simp only [bind, Except.bind] at e
  cases hl : E.liq s.p with
  | error _ => simp only [hl] at e; cases e
  | ok q =>
    obtain ⟨φl, f⟩ := q
    simp only [hl] at e
    split at e
    · rename_i hn
      cases e
      refine ⟨by simp, fun _ => ?_⟩
      simp only [downTo, hlo, if_true]
      rcases h with h | h | h
      · exact .inl (hi_mid_inside (s := { s with fmax := true, liquid := true }) hs h.1 (h.2.2.2.le.trans h.2.1) h.2.2.1 _)
      · exact .inr (.inr ⟨hi_mid_atLow (s := { s with fmax := true, liquid := true }) hs h.1 h.2.1 _, φl, f, h.2.1 ▸ hl, hn⟩)
      · exact .inr (.inr ⟨hi_mid_atLow (s := { s with fmax := true, liquid := true }) hs h.1.1 h.1.2.2 _, h.2⟩)
    · rename_i hn
      have h' : Inside L s ∨ (s.P0 = L.lo ∧ s.p = L.lo ∧ L.lo < s.P1 ∧ s.P1 ≤ L.hi ∧ s.liquid = false ∧ s.vapor = false ∧
          s.critical = false) := by
        rcases h with h | h | h
        · exact .inl h
        · exact .inr h
        · obtain ⟨φ', f', h1, h2⟩ := h.2
          rw [h.1.2.2, h1] at hl
          cases hl
          exact absurd h2 hn
      cases hu : lowPhase o E L s φl f with
      | error _ => simp only [hu] at e; cases e
      | ok q =>
        obtain ⟨u, c⟩ := q
        simp only [hu] at e
        obtain ⟨k1, k2⟩ := lowPhase_inside hlo hhi hL hs φl f h' hu
        split at e
        · rename_i hc
          cases e
          exact ⟨fun _ => k1 hc, by simp⟩
        · rename_i hc
          cases hd : lowCheck L (clamp L u) with
          | error _ => simp only [hd] at e; cases e
          | ok w =>
            simp only [hd] at e
            cases e
            exact ⟨by simp, fun _ => .inl (check_inside hlo (k2 (by simpa using hc)) hd)⟩

/-- The pressures of the second loop. -/
structure HighIn (L : PressureRange.Limits K) (s : PressureRange.St K) : Prop where
  lo : L.lo ≤ s.P0
  lt : s.P0 < s.P1
  hi : s.P1 ≤ L.hi
  ltp : s.P0 < s.p
  le : s.p ≤ s.P1

/-- What an iteration of the second loop leaves. -/
def HighInOk (o : PressureRange.Opts K) (L : PressureRange.Limits K) : High K → Prop
  | .found _ => True
  | .failed => True
  | .skip s _ => HighIn L s
  | .next s _ => ¬ |s.P1 - s.P0| < o.ptol → HighIn L s

theorem Inside.highIn (h : Inside L s) : HighIn L s := ⟨h.1, h.2.2.1.trans h.2.2.2, h.2.1, h.2.2.1, h.2.2.2.le⟩

theorem highStep_inside (htol : 0 < o.ptol) (hhi : L.hardHi = true) (hs : ∀ p, E.store p = p)
    (hr : ∀ n, 0 < E.rand n ∧ E.rand n < 1) (n : ℕ) (first : Bool) (objs : List (Option K)) (h : HighIn L s) {q : High K}
    (e : highStep o E L n first objs s = .ok q) : HighInOk o L q := by
  have up : ∀ u : PressureRange.St K, u.p = s.p → u.P1 = s.P1 → ∀ v,
      ¬ |(u.setLo E u.p v).P1 - (u.setLo E u.p v).P0| < o.ptol →
      HighIn L { u.setLo E u.p v with p := (u.setLo E u.p v).mid } := by
    intro u u1 u2 v ht
    simp only [PressureRange.St.setLo, keep_id E hs, u1, u2] at ht
    have hlt : s.p < s.P1 := by
      rcases h.le.lt_or_eq with h' | h'
      · exact h'
      · exfalso; apply ht; rw [h']; simpa using htol
    exact (lo_mid_inside hs (by rw [u1]; exact h.lo.trans h.ltp.le) (u2 ▸ h.hi) (by rw [u1, u2]; exact hlt) v).highIn
  have down : ∀ u : PressureRange.St K, u.p = s.p → u.P0 = s.P0 → ∀ v,
      HighIn L { u.setHi E u.p v with p := (u.setHi E u.p v).mid } := by
    intro u u1 u2 v
    exact (hi_mid_inside hs (u2 ▸ h.lo) (by rw [u1]; exact h.le.trans h.hi) (by rw [u1, u2]; exact h.ltp) v).highIn
  unfold highStep at e
  simp only [bind, Except.bind] at e
  cases hl : E.liq s.p with
  | error _ => simp only [hl] at e; cases e
  | ok w =>
    obtain ⟨φl, f⟩ := w
    simp only [hl] at e
    split at e
    · cases e
      exact down { s with fmax := true } rfl rfl _
    · cases hv : PressureRange.vapor E s.yi φl s.p with
      | error _ => simp only [hv] at e; cases e
      | ok w =>
        obtain ⟨y, g, v⟩ := w
        simp only [hv] at e
        split at e
        · split at e
          · cases e
            simp only [upTo, hhi, if_true]
            exact up { s with yi := y, obj := some v } rfl rfl _
          · cases e
            exact fun _ => down { s with yi := y, obj := some v, fmax := true } rfl rfl _
        · split at e
          · cases e
            exact fun _ => down { s with yi := y, obj := some v, fmax := true } rfl rfl _
          · split at e
            · cases e; trivial
            · unfold positive at e
              dsimp only at e
              split at e
              · unfold inWell at e
                simp only [bind, Except.bind] at e
                generalize E.well _ _ = ww at e
                cases ww with
                | error _ => cases e
                | ok ww =>
                  dsimp only at e
                  split at e
                  · cases e; trivial
                  · cases e; trivial
              · split at e
                · cases e
                  exact up { s with yi := y, obj := some v } rfl rfl _
                · cases e
                  intro _
                  obtain ⟨r0, r1⟩ := hr n
                  have hd := sub_pos.2 h.lt
                  refine ⟨h.lo, h.lt, h.hi, ?_, ?_⟩
                  · have := mul_pos hd r0
                    show s.P0 < (s.P1 - s.P0) * E.rand n + s.P0
                    linarith
                  · show (s.P1 - s.P0) * E.rand n + s.P0 ≤ s.P1
                    nlinarith

/-- The same environment with other liquid and vapour calculations. -/
def withPhases (E : PressureRange.Env K) (liq : K → Except PyErr (List (Option K) × ℕ))
    (vap : List K → List (Option K) → K → Except PyErr (Composition.Result K)) : PressureRange.Env K :=
  { E with liq := liq, vap := vap }

variable {liq : K → Except PyErr (List (Option K) × ℕ)}
  {vap : List K → List (Option K) → K → Except PyErr (Composition.Result K)}

theorem vapor_congr (yi : List K) (φl : List (Option K)) (p : K) (h : ∀ y φ, vap y φ p = E.vap y φ p) :
    PressureRange.vapor (withPhases E liq vap) yi φl p = PressureRange.vapor E yi φl p := by
  unfold PressureRange.vapor
  rw [show (withPhases E liq vap).vap yi φl p = E.vap yi φl p from h _ _]
  rfl

theorem lowStep_congr (hl : liq s.p = E.liq s.p) (hv : ∀ y φ, vap y φ s.p = E.vap y φ s.p) :
    lowStep o (withPhases E liq vap) L s = lowStep o E L s := by
  have h1 : ∀ φl f, lowPhase o (withPhases E liq vap) L s φl f = lowPhase o E L s φl f := by
    intro φl f
    unfold lowPhase lowLiquid
    rw [vapor_congr _ _ _ hv]
    rfl
  unfold lowStep
  rw [show (withPhases E liq vap).liq s.p = E.liq s.p from hl]
  simp only [h1]
  rfl

theorem highStep_congr (n : ℕ) (first : Bool) (objs : List (Option K)) (hl : liq s.p = E.liq s.p)
    (hv : ∀ y φ, vap y φ s.p = E.vap y φ s.p) :
    highStep o (withPhases E liq vap) L n first objs s = highStep o E L n first objs s := by
  unfold highStep
  rw [show (withPhases E liq vap).liq s.p = E.liq s.p from hl]
  simp only [vapor_congr _ _ _ hv]
  rfl

theorem lowLoop_congr (hlo : L.hardLo = true) (hhi : L.hardHi = true) (hL : L.lo < L.hi) (hs : ∀ p, E.store p = p)
    (hl : ∀ p, L.lo ≤ p → p ≤ L.hi → liq p = E.liq p ∧ ∀ y φ, vap y φ p = E.vap y φ p) (n : ℕ) :
    ∀ s, LowInv L E s → lowLoop o (withPhases E liq vap) L n s = lowLoop o E L n s ∧
      ∀ t, lowLoop o E L n s = .ok t → L.lo ≤ t.P0 ∧ t.P0 < t.P1 ∧ t.P1 ≤ L.hi := by
  induction n with
  | zero => intro s _; exact ⟨rfl, fun t e => by cases e⟩
  | succ n ih =>
    intro s h
    obtain ⟨w1, w2⟩ := h.within hL
    obtain ⟨l1, l2⟩ := hl s.p w1 w2
    have hstep : lowStep o (withPhases E liq vap) L s = lowStep o E L s := lowStep_congr l1 l2
    simp only [lowLoop, hstep, bind, Except.bind]
    cases he : lowStep o E L s with
    | error _ => exact ⟨rfl, fun t e => by cases e⟩
    | ok q =>
      obtain ⟨t, b⟩ := q
      obtain ⟨k1, k2⟩ := lowStep_inside hlo hhi hL hs h he
      simp only
      split
      · exact ⟨rfl, fun t e => by cases e⟩
      · cases b with
        | true => exact ⟨rfl, fun t' e => by cases e; exact k1 rfl⟩
        | false => exact ih t (k2 rfl)

theorem highLoop_congr (htol : 0 < o.ptol) (hhi : L.hardHi = true) (hs : ∀ p, E.store p = p)
    (hr : ∀ n, 0 < E.rand n ∧ E.rand n < 1)
    (hl : ∀ p, L.lo ≤ p → p ≤ L.hi → liq p = E.liq p ∧ ∀ y φ, vap y φ p = E.vap y φ p) (n : ℕ) :
    ∀ first objs s, HighIn L s → highLoop o (withPhases E liq vap) L n first objs s = highLoop o E L n first objs s := by
  induction n with
  | zero => intro _ _ s _; rfl
  | succ n ih =>
    intro first objs s h
    obtain ⟨l1, l2⟩ := hl s.p (h.lo.trans h.ltp.le) (h.le.trans h.hi)
    have hstep : highStep o (withPhases E liq vap) L n first objs s = highStep o E L n first objs s :=
      highStep_congr n first objs l1 l2
    simp only [highLoop, hstep, bind, Except.bind]
    cases he : highStep o E L n first objs s with
    | error _ => rfl
    | ok q =>
      have k := highStep_inside htol hhi hs hr n first objs h he
      cases q with
      | found r => rfl
      | failed => rfl
      | skip t objs' =>
        simp only
        rw [ih _ _ _ k]
      | next t objs' =>
        simp only
        split
        · rfl
        · split
          · rfl
          · rename_i ht
            rw [ih _ _ _ (k ht)]

/-- **C99** (what holds): with both limits given, the lower below the upper, the search asks for the phases only at pressures
between them: calculations that differ elsewhere give the same result. -/
theorem c99_limits_partial (lo hi : K) (h0 : o.pmin = some lo) (h1 : o.pmax = some hi) (hL : lo < hi) (htol : 0 < o.ptol)
    (hs : ∀ p, E.store p = p) (hr : ∀ n, 0 < E.rand n ∧ E.rand n < 1)
    (hl : ∀ p, lo ≤ p → p ≤ hi → liq p = E.liq p ∧ ∀ y φ, vap y φ p = E.vap y φ p) (yi : List K) :
    PressureRange.search o (withPhases E liq vap) yi = PressureRange.search o E yi := by
  have hlim : limits o E = ⟨lo, hi, true, true⟩ := by
    simp [limits, lowLimit, highLimit, upper, h0, h1, not_lt.2 hL.le]
  have hlim' : limits o (withPhases E liq vap) = ⟨lo, hi, true, true⟩ := by
    simp [limits, lowLimit, highLimit, upper, h0, h1, not_lt.2 hL.le]
  unfold PressureRange.search
  simp only [hlim, hlim', bind, Except.bind]
  obtain ⟨e1, e2⟩ := lowLoop_congr (o := o) (E := E) (L := ⟨lo, hi, true, true⟩) rfl rfl hL hs hl o.maxiter
    (PressureRange.start ⟨lo, hi, true, true⟩ yi) (.inr (.inl ⟨rfl, rfl, hL, le_refl _, rfl, rfl, rfl⟩))
  rw [e1]
  cases he : lowLoop o E ⟨lo, hi, true, true⟩ o.maxiter (PressureRange.start ⟨lo, hi, true, true⟩ yi) with
  | error _ => rfl
  | ok s =>
    obtain ⟨k1, k2, k3⟩ := e2 s he
    have hb : ∀ F : PressureRange.Env K, between o F s = s := fun F => by simp [between, not_le.2 k2]
    simp only [hb]
    exact highLoop_congr htol rfl hs hr hl _ _ _ _ ⟨k1, k2, k3, k2, le_refl _⟩

end

/-! ### Searches that can be computed -/

/-- A mixture of two components whose objective is a given function of the pressure and whose vapour has a given
flag. -/
def rangeEnv (f : ℚ → ℚ) (flag : ℚ → ℕ) (ext : List ℚ) (well : ℚ × ℚ) (store : ℚ → ℚ) : PressureRange.Env ℚ where
  xi := [1 / 2, 1 / 2]
  extremaP := ext
  liq := fun p => .ok ([some (1 + f p), some (1 + f p)], 1)
  vap := fun _ _ p => .ok ([1 / 4, 3 / 4], [some 1, some 1], some (flag p))
  rand := fun _ => 1 / 2
  well := fun _ _ => .ok well
  store := store

/-- The default options. -/
def rangeOpts (pmin pmax : Option ℚ) : PressureRange.Opts ℚ := ⟨pmin, pmax, 200, 1 / 100, 1 / 100, 2, 1 / 2, 100⟩

/-- A search that succeeds: the hypotheses of `c98_range_partial` are met. -/
example : GoodOpts (rangeOpts none none) ∧
    PressureRange.search (rangeOpts none none) (rangeEnv (fun p => 5 - p / 1000) (fun _ => 0) [-1, 3000] (0, 0) id) [1 / 2, 1 / 2]
      = .ok (some ⟨3000, 6000, some 5000, some 2, some (-1), false, false⟩) := by
  refine ⟨⟨?_, ?_, ?_⟩, ?_⟩ <;> decide +kernel

/-- **C98** is violated: the objective has a minimum above zero; the range has no change of sign and the guess lies
outside. -/
theorem c98_violated_no_sign_change :
    PressureRange.search (rangeOpts none none)
      (rangeEnv (fun p => (p / 1000 - 5) ^ 2 + 1) (fun _ => 0) [1000, 4000] (5000, 1) id) [1 / 2, 1 / 2]
      = .ok (some ⟨1000, 5000, some 5250, some 17, some 1, false, true⟩) := by
  decide +kernel

/-- **C98** is violated: the objective has a minimum below zero, which the minimiser finds; the search
returns NaN. -/
theorem c98_violated_sign_change_lost :
    PressureRange.search (rangeOpts none none)
      (rangeEnv (fun p => (p / 1000 - 5) ^ 2 - 1 / 2) (fun _ => 0) [1000, 4000] (5000, -1 / 2) id) [1 / 2, 1 / 2]
      = .ok none := by
  decide +kernel

/-- **C98** is violated: looking for a critical fluid, a pressure with a negative objective becomes the lower end, and the
guess is zero. -/
theorem c98_violated_critical :
    PressureRange.search (rangeOpts (some 1000) none)
      (rangeEnv (fun p => if p ≤ 2000 then 1 else if p ≤ 8000 then -1 else -2) (fun p => if p = 1000 ∨ p = 8000 then 1 else 0)
        [1000, 8000] (0, 0) id) [1 / 2, 1 / 2]
      = .ok (some ⟨8000, 16000, some 0, some (-1), some (-2), true, false⟩) := by
  decide +kernel

/-- **C98** is violated: with limits that are integers the ends are rounded towards zero; the objective is positive at
both ends of the range and its zero is not in it. -/
theorem c98_violated_integers :
    PressureRange.search (rangeOpts (some 4) (some 9))
      (rangeEnv (fun p => 25 / 4 - p) (fun p => if p = 9 then 1 else 0) [] (0, 0) (fun q => (⌊q⌋ : ℚ))) [1 / 2, 1 / 2]
      = .ok (some ⟨4, 6, some (29 / 5), some (9 / 4), some (-1 / 4), false, false⟩) ∧
    (25 / 4 - 6 : ℚ) > 0 := by
  constructor <;> decide +kernel

/-- A search between two limits, to which `c99_limits_partial` applies. -/
example : PressureRange.search (rangeOpts (some 1000) (some 8000)) (rangeEnv (fun p => 5 - p / 1000) (fun _ => 0) [] (0, 0) id)
    [1 / 2, 1 / 2] = .ok (some ⟨1000, 8000, some 5000, some 4, some (-3), false, false⟩) := by
  decide +kernel

/-- **C99** is violated: an upper limit below the default lower one is replaced; the range found lies above it. -/
theorem c99_violated_upper_limit :
    PressureRange.search (rangeOpts none (some 500)) (rangeEnv (fun p => 3 / 2 - p / 1000) (fun _ => 0) [] (0, 0) id) [1 / 2, 1 / 2]
      = .ok (some ⟨1000, 2000, some 1500, some (1 / 2), some (-1 / 2), false, false⟩) := by
  decide +kernel

/-- **C99** is violated: with equal limits the range found goes beyond them. -/
theorem c99_violated_equal_limits :
    PressureRange.search (rangeOpts (some 1000) (some 1000)) (rangeEnv (fun p => 3 / 2 - p / 1000) (fun _ => 0) [] (0, 0) id)
      [1 / 2, 1 / 2] = .ok (some ⟨1000, 2000, some 1500, some (1 / 2), some (-1 / 2), false, false⟩) := by
  decide +kernel

/-! ## C98, C99: single steps -/

variable {K : Type} [Field K] [LinearOrder K] [IsStrictOrderedRing K]

private theorem foldl_min_le (l : List K) (a : K) : l.foldl min a ≤ a ∧ (∀ b ∈ l, l.foldl min a ≤ b) ∧ l.foldl min a ∈ a :: l := by
  induction l generalizing a with
  | nil => simp
  | cons c t ih =>
    obtain ⟨h1, h2, h3⟩ := ih (min a c)
    refine ⟨h1.trans (min_le_left _ _), fun b hb => ?_, ?_⟩
    · rcases List.mem_cons.1 hb with rfl | hb
      · exact h1.trans (min_le_right _ _)
      · exact h2 b hb
    · rcases List.mem_cons.1 h3 with h | h
      · rw [List.foldl_cons, h]
        rcases min_choice a c with e | e <;> rw [e] <;> simp
      · exact List.mem_cons_of_mem _ (List.mem_cons_of_mem _ h)

private theorem foldl_max_ge (l : List K) (a : K) : a ≤ l.foldl max a ∧ (∀ b ∈ l, b ≤ l.foldl max a) ∧ l.foldl max a ∈ a :: l := by
  induction l generalizing a with
  | nil => simp
  | cons c t ih =>
    obtain ⟨h1, h2, h3⟩ := ih (max a c)
    refine ⟨(le_max_left _ _).trans h1, fun b hb => ?_, ?_⟩
    · rcases List.mem_cons.1 hb with rfl | hb
      · exact (le_max_right _ _).trans h1
      · exact h2 b hb
    · rcases List.mem_cons.1 h3 with h | h
      · rw [List.foldl_cons, h]
        rcases max_choice a c with e | e <;> rw [e] <;> simp
      · exact List.mem_cons_of_mem _ (List.mem_cons_of_mem _ h)

/-- **C99** (limits not given): without extrema of the isotherm the search runs from 1000 to 100000 Pa.  With extrema it runs
from the smallest of their pressures, or from 1000 Pa if that is negative, to the largest, or to a multiple of the lower limit
if the largest is below it; neither is a hard limit. -/
theorem c99_default_limits (o : PressureRange.Opts K) (E : PressureRange.Env K) (h0 : o.pmin = none) (h1 : o.pmax = none) :
    (E.extremaP = [] → PressureRange.limits o E = ⟨1000, 100000, false, false⟩) ∧
    ∀ lo ∈ E.extremaP, ∀ hi ∈ E.extremaP, (∀ p ∈ E.extremaP, lo ≤ p ∧ p ≤ hi) →
      PressureRange.limits o E =
        if 0 ≤ lo then ⟨lo, hi, false, false⟩
        else if 1000 ≤ hi then ⟨1000, hi, false, false⟩ else ⟨1000, 1000 * o.maxfactor, false, false⟩ := by
  constructor
  · intro h
    simp [PressureRange.limits, lowLimit, highLimit, upper, h0, h1, h]
    norm_num
  · intro lo hlo hi hhi hb
    match he : E.extremaP with
    | [] => rw [he] at hlo; cases hlo
    | a :: l =>
      rw [he] at hlo hhi hb
      obtain ⟨m1, m2, m3⟩ := foldl_min_le l a
      obtain ⟨x1, x2, x3⟩ := foldl_max_ge l a
      have e1 : minOf a l = lo := by
        refine le_antisymm ?_ (hb _ m3).1
        rcases List.mem_cons.1 hlo with h | h
        · exact m1.trans_eq h.symm
        · exact m2 _ h
      have e2 : maxOf a l = hi := by
        refine le_antisymm (hb _ x3).2 ?_
        rcases List.mem_cons.1 hhi with h | h
        · exact h.trans_le x1
        · exact x2 _ h
      have hle : lo ≤ hi := (hb _ hlo).2
      simp only [PressureRange.limits, lowLimit, highLimit, upper, h0, h1, he, e1, e2]
      by_cases hn : lo < 0
      · rw [if_pos hn, if_neg (not_le.2 hn)]
        by_cases hh : hi < 1000
        · rw [if_pos hh, if_neg (not_le.2 hh)]; rfl
        · rw [if_neg hh, if_pos (not_lt.1 hh)]; rfl
      · rw [if_neg hn, if_pos (not_lt.1 hn), if_neg (not_lt.2 hle)]; rfl

/-- An isotherm with extrema at -1, 2000 and 500 Pa. -/
example : PressureRange.limits (rangeOpts none none) (rangeEnv (fun p => p) (fun _ => 0) [-1, 2000, 500] (0, 0) id)
    = ⟨1000, 2000, false, false⟩ := by
  have := (c99_default_limits (rangeOpts none none) (rangeEnv (fun p => p) (fun _ => 0) [-1, 2000, 500] (0, 0) id) rfl rfl).2
    (-1) (by decide +kernel) 2000 (by decide +kernel) (by decide +kernel)
  rw [this]
  norm_num

/-- **C98** (new start): the range is the limits, the upper end raised if there is no upper limit; fractions are kept, whatever
the type of the limits. -/
theorem c98_new_start (o : PressureRange.Opts K) (E : PressureRange.Env K) (L : PressureRange.Limits K)
    (s : PressureRange.St K) :
    (PressureRange.reset o E L s).P0 = L.lo ∧ (PressureRange.reset o E L s).critical = true ∧
    (PressureRange.reset o E L s).P1 = if L.hardHi then L.hi else max L.hi (o.maxfactor * L.lo) := by
  unfold PressureRange.reset
  by_cases h : L.hardHi = true
  · simp [h]
  · by_cases h2 : L.hi < o.maxfactor * L.lo
    · simp [h, raiseTo, h2, PressureRange.St.setHi, keep, max_eq_right h2.le]
    · simp [h, raiseTo, h2, max_eq_left (not_lt.1 h2)]

/-- **C98** (kind of fluid): a critical fluid counts as the liquid; at any other pressure without a liquid the lower end is
raised to that pressure. -/
theorem c98_fluid (o : PressureRange.Opts K) (E : PressureRange.Env K) (L : PressureRange.Limits K) (s : PressureRange.St K)
    (φl : List (Option K)) :
    PressureRange.lowPhase o E L s φl 2 = PressureRange.lowPhase o E L s φl 1 ∧
    ∀ flag, flag ≠ 1 → flag ≠ 2 → ∃ s', PressureRange.lowPhase o E L s φl flag = .ok (s', false) ∧
      s'.P0 = keep E s s.p ∧ s'.vapor = true ∧ s'.O0 = none := by
  constructor
  · simp [PressureRange.lowPhase]
  · intro flag h1 h2
    refine ⟨PressureRange.lowVapor o E L s, by simp [PressureRange.lowPhase, h1, h2], ?_⟩
    unfold PressureRange.lowVapor PressureRange.St.setLo
    cases h : (s.fmax || L.hardHi) <;> simp [h, keep]

/-- **C98** (rise): the objective counts as rising exactly if it is more than a tenth above a positive earlier value. -/
theorem c98_rising (obj q : K) (hq : 0 < q) :
    (rising false obj (some q) = true ↔ 1 / 10 < (obj - q) / q) ∧ rising true obj (some q) = false ∧
    rising false obj none = false := by
  refine ⟨?_, rfl, rfl⟩
  simp only [rising, Bool.not_false, Option.any_some, Bool.true_and, decide_eq_true_eq]
  rw [lt_div_iff₀ hq]
  constructor <;> intro h <;> linarith

/-- **C98** (composition found again): before a liquid, a vapour or a critical fluid was seen, a vapour with the composition of the liquid makes its
pressure the upper end, also below a given upper limit.  Without a lower limit the next pressure is the lower one by the factor, down to and
including the allowed minimum; below that the search starts again, looking for a critical fluid. -/
theorem c98_found_again (o : PressureRange.Opts K) (E : PressureRange.Env K) (L : PressureRange.Limits K) (s : PressureRange.St K) (obj : K)
    (h1 : s.liquid = false) (h2 : s.vapor = false) (h3 : s.critical = false) (h4 : L.hardLo = false) :
    (o.pminAllowed ≤ o.minfactor * s.p → (PressureRange.reproduced o E L s obj).p = o.minfactor * s.p ∧
      (PressureRange.reproduced o E L s obj).P1 = keep E s s.p ∧ (PressureRange.reproduced o E L s obj).fmax = true ∧
      (PressureRange.reproduced o E L s obj).critical = false) ∧
    (o.minfactor * s.p < o.pminAllowed → (PressureRange.reproduced o E L s obj).critical = true ∧
      (PressureRange.reproduced o E L s obj).P0 = L.lo ∧ (PressureRange.reproduced o E L s obj).fmax = false) := by
  have e : critFluid o E L s obj = lowerTo E (({ s with fmax := true }).setHi E s.p (some obj)) (o.minfactor * s.p) := by
    simp [critFluid, downTo, h1, h2, h3, h4, PressureRange.St.setHi]
  have ep : (critFluid o E L s obj).p = o.minfactor * s.p := by
    rw [e]; unfold lowerTo; split_ifs <;> rfl
  constructor
  · intro h
    rw [PressureRange.reproduced, ep, if_neg (not_lt.2 h), e]
    unfold lowerTo
    split_ifs <;> exact ⟨rfl, rfl, rfl, h3⟩
  · intro h
    rw [PressureRange.reproduced, ep, if_pos h]
    obtain ⟨a, b, -⟩ := c98_new_start o E L (critFluid o E L s obj)
    refine ⟨b, a, ?_⟩
    unfold PressureRange.reset raiseTo
    dsimp only
    split_ifs <;> rfl

/-- **C98** (after a liquid): once a liquid was seen and the upper end is found or given, such a pressure becomes the lower end, and the next one is
the middle of the range, unless the range has become narrower than the tolerance. -/
theorem c98_found_again_liquid (o : PressureRange.Opts K) (E : PressureRange.Env K) (L : PressureRange.Limits K) (s : PressureRange.St K) (obj : K)
    (h1 : s.liquid = true) (h2 : s.fmax = true ∨ L.hardHi = true) (h3 : o.ptol ≤ |s.P1 - keep E s s.p|)
    (h4 : o.pminAllowed ≤ (s.P1 - keep E s s.p) / 2 + keep E s s.p) :
    (PressureRange.reproduced o E L s obj).P0 = keep E s s.p ∧ (PressureRange.reproduced o E L s obj).O0 = some obj ∧
      (PressureRange.reproduced o E L s obj).P1 = s.P1 ∧ (PressureRange.reproduced o E L s obj).fmin = true ∧
      (PressureRange.reproduced o E L s obj).p = (s.P1 - keep E s s.p) / 2 + keep E s s.p := by
  have hb : (s.fmax || L.hardHi) = true := by rcases h2 with h | h <;> simp [h]
  have e : critFluid o E L s obj = { ({ s with fmin := true }).setLo E s.p (some obj) with
      p := (s.P1 - keep E s s.p) / 2 + keep E s s.p } := by
    simp only [critFluid, hb, h1, Bool.and_self, if_true]
    exact if_neg (not_lt.2 h3)
  rw [PressureRange.reproduced, e, if_neg (not_lt.2 h4)]
  exact ⟨rfl, rfl, rfl, rfl, rfl⟩

/-- **C98** (pressure outside the range): when both ends are found or given, a pressure outside them is replaced by the upper end (line 1377 divides the
width by one, where the other lines halve it).  A pressure inside the range, or with one end open, is kept. -/
theorem c98_outside (L : PressureRange.Limits K) (s : PressureRange.St K) :
    (L.hardLo = true ∨ s.fmin = true → L.hardHi = true ∨ s.fmax = true → s.p < s.P0 ∨ s.P1 < s.p → clamp L s = { s with p := s.P1 }) ∧
    (s.P0 ≤ s.p → s.p ≤ s.P1 → clamp L s = s) ∧
    (L.hardLo = false → s.fmin = false → clamp L s = s) ∧ (L.hardHi = false → s.fmax = false → clamp L s = s) := by
  refine ⟨fun h1 h2 h3 => ?_, fun h1 h2 => ?_, fun h1 h2 => ?_, fun h1 h2 => ?_⟩
  · have e1 : (L.hardLo || s.fmin) = true := by rcases h1 with h | h <;> simp [h]
    have e2 : (L.hardHi || s.fmax) = true := by rcases h2 with h | h <;> simp [h]
    have e3 : (decide (s.p < s.P0) || decide (s.P1 < s.p)) = true := by rcases h3 with h | h <;> simp [h]
    rw [clamp, e1, e2, e3]
    simp
  · rw [clamp, decide_eq_false (not_lt.2 h1), decide_eq_false (not_lt.2 h2)]
    simp
  · simp [clamp, h1, h2]
  · simp [clamp, h1, h2]

/-- **C98** (guess): there is a guess exactly if both ends have an objective value, and both the ends and the values differ; it is then the pressure
at which the straight line through them is zero. -/
theorem c98_guess (s : PressureRange.St K) (g : K) :
    guess s = some g ↔ ∃ O0 O1, s.O0 = some O0 ∧ s.O1 = some O1 ∧ s.P0 ≠ s.P1 ∧ O0 ≠ O1 ∧ O0 * (s.P1 - g) = O1 * (s.P0 - g) := by
  cases h0 : s.O0 with
  | none => simp [guess, h0]
  | some O0 =>
    cases h1 : s.O1 with
    | none => simp [guess, h0, h1]
    | some O1 =>
      simp only [guess, h0, h1, Option.some.injEq]
      constructor
      · intro h
        split_ifs at h with hc
        rw [not_or] at hc
        refine ⟨O0, O1, rfl, rfl, fun e => hc.1 e.symm, fun e => hc.2 e.symm, ?_⟩
        rw [Option.some.injEq] at h
        rw [← h]
        unfold crossing
        have a := sub_ne_zero.2 hc.1
        have b := sub_ne_zero.2 hc.2
        field_simp
        ring
      · rintro ⟨A, B, rfl, rfl, hp, ho, e⟩
        have a := sub_ne_zero.2 (Ne.symm hp)
        have b := sub_ne_zero.2 (Ne.symm ho)
        rw [if_neg (by rw [not_or]; exact ⟨hp.symm, ho.symm⟩), Option.some.injEq]
        unfold crossing
        field_simp
        linarith [e]

/-- The search from 1000 to 100000 Pa, at the first composition found again, and at a pressure of 5 in the range from 10 to 20. -/
example : ∃ (s t : PressureRange.St ℚ) (L : PressureRange.Limits ℚ), s.liquid = false ∧ s.vapor = false ∧ s.critical = false ∧ L.hardLo = false ∧
    t.liquid = true ∧ t.fmax = true ∧ t.fmin = true ∧ t.p < t.P0 ∧ clamp L t = { t with p := 20 } := by
  let s : PressureRange.St ℚ := ⟨2000, 1000, 100000, none, none, false, [1], false, false, false, false, false, none⟩
  let t : PressureRange.St ℚ := ⟨5, 10, 20, none, none, false, [1], true, true, false, true, false, none⟩
  exact ⟨s, t, ⟨1000, 100000, false, false⟩, rfl, rfl, rfl, rfl, rfl, rfl, rfl, by norm_num [t],
    (c98_outside ⟨1000, 100000, false, false⟩ t).1 (Or.inr rfl) (Or.inr rfl) (Or.inl (by norm_num [t]))⟩

end Verif.Props
