import Verif.Model.Equilibrium
import Verif.Props.BubbleDew
import Verif.Props.Composition
import Verif.Props.Flash
import Mathlib.Algebra.Order.BigOperators.Group.List
import Mathlib.Tactic.LinearCombination
import Mathlib.Tactic.SplitIfs

/-!
# C134: how far a bubble point, or a flash, is from equal fugacities
-/

namespace Verif.Props
open Verif Verif.CalcTypes Verif.BubbleDew Verif.PhaseDensity Verif.Composition Verif.Equilibrium

/-- The mole numbers `xᵢ φˡᵢ / φᵛᵢ` of a vapour with the fugacities of the liquid. -/
def isoNumbers (x : List ℚ) (φl φv : List (Option ℚ)) : List ℚ :=
  (x.zip (φl.zip φv)).map fun p => p.1 * p.2.1.getD 0 / p.2.2.getD 0

theorem newMole_iso (x : List ℚ) (φl φv : List (Option ℚ)) (new : List ℚ)
    (h : newMoleFractions .vapor x φl φv = .ok new) :
    new = isoNumbers x φl φv ∧ x.sum = 1 ∧ none ∉ φl ∧ none ∉ φv := by
  unfold newMoleFractions at h
  rw [if_neg (by decide)] at h
  split at h
  · cases h
  · rename_i hs
    split at h
    · cases h
    · rename_i hv
      split at h
      · cases h
      · rename_i hl
        injection h with h
        refine ⟨?_, not_not.1 hs, ?_, ?_⟩
        · rw [← h, isoNumbers]
          refine List.map_congr_left fun p _ => ?_
          unfold newFraction
          split
          · rfl
          · rename_i hp
            rw [not_not.1 hp]; simp
        · intro hc; exact hl (List.any_eq_true.2 ⟨none, hc, rfl⟩)
        · intro hc; exact hv (List.any_eq_true.2 ⟨none, hc, rfl⟩)

theorem objective_iso (x : List ℚ) (φl φv : List (Option ℚ)) (o : ℚ)
    (h : equilibriumObjective .vapor x φl φv = .ok o) :
    o = (isoNumbers x φl φv).sum - 1 ∧ x.sum = 1 ∧ none ∉ φl ∧ none ∉ φv := by
  unfold equilibriumObjective at h
  rw [if_neg (by decide)] at h
  split at h
  · cases h
  · rename_i hs
    split at h
    · cases h
    · rename_i hv
      split at h
      · cases h
      · rename_i hl
        injection h with h
        refine ⟨h.symm, not_not.1 hs, ?_, ?_⟩
        · intro hc; exact hl (List.any_eq_true.2 ⟨none, hc, rfl⟩)
        · intro hc; exact hv (List.any_eq_true.2 ⟨none, hc, rfl⟩)

theorem csum_some (l : List ℚ) : csum (l.map some) = some l.sum := by
  induction l with
  | nil => rfl
  | cons a l ih => simp [csum, ih]

theorem numbers_some (l : List ℚ) : numbers (l.map some) = .ok l := by
  have h : (l.map some).mapM id = some l := by
    induction l with
    | nil => rfl
    | cons a l ih => simp [ih]
  simp [numbers, h]

theorem numbers_ok (c : Comp) (l : List ℚ) (h : numbers c = .ok l) : c = l.map some := by
  have key : ∀ (c : Comp) (l : List ℚ), c.mapM id = some l → c = l.map some := by
    intro c
    induction c with
    | nil => intro l h; simp at h; subst h; rfl
    | cons a c ih =>
      intro l h
      cases a with
      | none => simp at h
      | some a =>
        cases hc : c.mapM id with
        | none => simp [hc] at h
        | some l' =>
          simp [hc] at h
          subst h
          simp [ih l' hc]
  unfold numbers at h
  cases hm : c.mapM id with
  | none => simp only [hm] at h; cases h
  | some l' =>
    simp only [hm] at h
    injection h with h
    subst h
    exact key c l' hm

/-- Normalised numbers that are not NaN. -/
theorem normalise_numbers (l y : List ℚ) (h : BubbleDew.normalise (l.map some) = y.map some) :
    y = l.map (· / l.sum) ∧ (y ≠ [] → y.sum = 1) := by
  unfold BubbleDew.normalise at h
  rw [csum_some] at h
  simp only [List.map_map] at h
  by_cases hs : l.sum = 0
  · cases l with
    | nil => simp at h; subst h; simp
    | cons a l =>
      cases y with
      | nil => simp at h
      | cons b y => simp [hs] at h
  · have h' : (l.map (· / l.sum)).map some = y.map some := by
      rw [← h]; simp [hs]
    have hy : l.map (· / l.sum) = y := (Option.some_injective ℚ).list_map h'
    refine ⟨hy.symm, fun _ => ?_⟩
    rw [← hy, comp_sum_div, div_self hs]

/-- **C134** (the state that is returned). A bubble point at a pressure that is not negative comes with a composition that
is what the inner loop at this pressure ended with, divided by its sum.  Both phases have fugacity coefficients without NaN
there, and the objective that is returned is what the mole numbers `xᵢ φˡᵢ / φᵛᵢ` miss one by. -/
theorem c134_state (F : Fluid) (Pset : ℚ) (m : String) (pg : Option ℚ) (T : ℚ) (xi : List ℚ)
    (st st' : BubbleDew.State) (r : BubbleDew.Result)
    (h : bubblePoint F Pset m pg T xi st = (.ok r, st')) (hP : 0 ≤ r.P) :
    ∃ φl fl guess tol ynew φ f y φv fv, F.liquid T r.P xi = .ok (φl, fl) ∧
      vaporComposition (vaporEnv F T r.P xi φl tol) guess xi φl = .ok (ynew, φ, f) ∧
      y = ynew.map (· / ynew.sum) ∧ (y ≠ [] → y.sum = 1) ∧ bubbleComp r = y.map some ∧
      F.vapor T r.P y = .ok (φv, fv) ∧ xi.sum = 1 ∧ none ∉ φl ∧ none ∉ φv ∧
      r.obj = some ((isoNumbers xi φl φv).sum - 1) ∧ tol = tightenTol st.tol := by
  obtain ⟨ps, lo, hi, est, a, g, g', -, -, -, -, -, -, hob, hfin, -⟩ := calcPoint_ok _ _ _ _ _ _ _ _ _ _ h
  obtain ⟨guess, new, a', -, hin, hv, hg'⟩ := objective_ok _ _ _ _ _ _ _ _ hP hob
  subst hg'
  simp only [bubbleEnv, Prod.mk.injEq] at hin hv
  replace hin := hin.1
  unfold bubbleInner at hin
  unfold bubbleObj at hv
  simp only [bind, Except.bind] at hin hv
  cases hl : F.liquid T r.P xi with
  | error e => simp only [hl] at hin; cases hin
  | ok p =>
    obtain ⟨φl, fl⟩ := p
    simp only [hl] at hin hv
    cases hg : numbers guess with
    | error e => simp only [hg] at hin; cases hin
    | ok gl =>
      simp only [hg] at hin
      cases hc : vaporComposition (vaporEnv F T r.P xi φl (tightenTol st.tol)) gl xi φl with
      | error e => simp only [hc] at hin; cases hin
      | ok q =>
        obtain ⟨ynew, φ, f⟩ := q
        simp only [hc] at hin
        injection hin with hin
        subst hin
        cases hn : numbers (BubbleDew.normalise (ynew.map some)) with
        | error e => simp only [hn] at hv; cases hv
        | ok y =>
          simp only [hn] at hv
          have hy := numbers_ok _ _ hn
          obtain ⟨y1, y2⟩ := normalise_numbers _ _ hy
          cases hf : F.vapor T r.P y with
          | error e => simp only [hf] at hv; cases hv
          | ok w =>
            obtain ⟨φv, fv⟩ := w
            simp only [hf] at hv
            cases ho : equilibriumObjective .vapor xi φl φv with
            | error e => simp only [ho] at hv; cases hv
            | ok o =>
              simp only [ho] at hv
              injection hv with hv
              obtain ⟨o1, o2, o3, o4⟩ := objective_iso _ _ _ _ ho
              refine ⟨φl, fl, gl, _, ynew, φ, f, y, φv, fv, rfl, hc, y1, y2, ?_, hf, o2, o3, o4, ?_, rfl⟩
              · rw [bubbleComp, hfin, ← hy]; rfl
              · rw [← hv, o1]

/-- The mole numbers `yᵢ φᵛᵢ / φˡᵢ` of a liquid with the fugacities of the vapour. -/
def isoLiquid (y : List ℚ) (φl φv : List (Option ℚ)) : List ℚ :=
  (y.zip (φl.zip φv)).map fun p => p.1 * p.2.2.getD 0 / p.2.1.getD 0

theorem objective_isoLiquid (y : List ℚ) (φl φv : List (Option ℚ)) (o : ℚ)
    (h : equilibriumObjective .liquid y φl φv = .ok o) :
    o = (isoLiquid y φl φv).sum - 1 ∧ y.sum = 1 ∧ none ∉ φl ∧ none ∉ φv := by
  unfold equilibriumObjective at h
  rw [if_neg (by decide)] at h
  split at h
  · cases h
  · rename_i hs
    split at h
    · cases h
    · rename_i hv
      split at h
      · cases h
      · rename_i hl
        injection h with h
        refine ⟨h.symm, not_not.1 hs, ?_, ?_⟩
        · intro hc; exact hl (List.any_eq_true.2 ⟨none, hc, rfl⟩)
        · intro hc; exact hv (List.any_eq_true.2 ⟨none, hc, rfl⟩)

/-- **C134** (the state of a dew point). The objective that is returned belongs to the composition that the inner loop at this pressure ended with,
divided by its sum, which is the one that is left behind and not returned. -/
theorem c134_dew_state (F : Fluid) (Pset : ℚ) (m : String) (pg : Option ℚ) (T : ℚ) (yi : List ℚ)
    (st st' : BubbleDew.State) (r : BubbleDew.Result)
    (h : dewPoint F Pset m pg T yi st = (.ok r, st')) (hP : 0 ≤ r.P) :
    ∃ φv fv guess xnew φ f x φl fl, F.vapor T r.P yi = .ok (φv, fv) ∧
      liquidComposition (liquidEnv F T r.P yi φv (tightenTol st.tol)) guess yi φv = .ok (xnew, φ, f) ∧
      x = xnew.map (· / xnew.sum) ∧ (x ≠ [] → x.sum = 1) ∧ r.final = x.map some ∧ st'.glob = some (x.map some) ∧
      F.liquid T r.P x = .ok (φl, fl) ∧ yi.sum = 1 ∧ none ∉ φl ∧ none ∉ φv ∧
      r.obj = some ((isoLiquid yi φl φv).sum - 1) := by
  obtain ⟨ps, lo, hi, est, a, g, g', -, -, -, -, -, -, hob, hfin, hst⟩ := calcPoint_ok _ _ _ _ _ _ _ _ _ _ h
  obtain ⟨guess, new, a', -, hin, hv, hg'⟩ := objective_ok _ _ _ _ _ _ _ _ hP hob
  subst hg'
  simp only [dewEnv, Prod.mk.injEq] at hin hv
  replace hin := hin.1
  unfold dewInner at hin
  unfold dewObj at hv
  simp only [bind, Except.bind] at hin hv
  cases hl : F.vapor T r.P yi with
  | error e => simp only [hl] at hin; cases hin
  | ok p =>
    obtain ⟨φv, fv⟩ := p
    simp only [hl] at hin hv
    cases hg : numbers guess with
    | error e => simp only [hg] at hin; cases hin
    | ok gl =>
      simp only [hg] at hin
      cases hc : liquidComposition (liquidEnv F T r.P yi φv (tightenTol st.tol)) gl yi φv with
      | error e => simp only [hc] at hin; cases hin
      | ok q =>
        obtain ⟨xnew, φ, f⟩ := q
        simp only [hc] at hin
        injection hin with hin
        subst hin
        cases hn : numbers (BubbleDew.normalise (xnew.map some)) with
        | error e => simp only [hn] at hv; cases hv
        | ok x =>
          simp only [hn] at hv
          have hx := numbers_ok _ _ hn
          obtain ⟨x1, x2⟩ := normalise_numbers _ _ hx
          cases hf : F.liquid T r.P x with
          | error e => simp only [hf] at hv; cases hv
          | ok w =>
            obtain ⟨φl, fl⟩ := w
            simp only [hf] at hv
            cases ho : equilibriumObjective .liquid yi φl φv with
            | error e => simp only [ho] at hv; cases hv
            | ok o =>
              simp only [ho] at hv
              injection hv with hv
              obtain ⟨o1, o2, o3, o4⟩ := objective_isoLiquid _ _ _ _ ho
              refine ⟨φv, fv, gl, xnew, φ, f, x, φl, fl, rfl, hc, x1, x2, ?_, ?_, hf, o2, o3, o4, ?_⟩
              · rw [hfin, ← hx]; rfl
              · rw [hst, ← hx]
              · rw [← hv, o1]

theorem flagOf_ok (f : PhaseFug) (T P : ℚ) (c : Comp) (v : Num) (h : flagOf f T c P = .ok v) :
    ∃ l φ n, c = l.map some ∧ f T P l = .ok (φ, n) ∧ v = some (n : ℚ) := by
  unfold flagOf at h
  simp only [bind, Except.bind] at h
  cases hn : numbers c with
  | error e => simp only [hn] at h; cases h
  | ok l =>
    simp only [hn] at h
    cases hf : f T P l with
    | error e => simp only [hf] at h; cases h
    | ok w =>
      obtain ⟨φ, n⟩ := w
      simp only [hf] at h
      injection h with h
      exact ⟨l, φ, n, numbers_ok _ _ hn, hf, h.symm⟩

/-- **C134** (flags of the two phases): the given phase at the pressure that is returned, and the other one at the composition the calculation started from. -/
theorem c134_flags (F : Fluid) (Pset : ℚ) (m : String) (pg : Option ℚ) (T : ℚ) (given : List ℚ) (st st' : BubbleDew.State) (r : BubbleDew.Result) :
    (bubblePoint F Pset m pg T given st = (.ok r, st') → (∃ φ n, F.liquid T r.P given = .ok (φ, n) ∧ r.flagGiven = some (n : ℚ)) ∧
      ∃ y φ n, r.start = y.map some ∧ F.vapor T r.P y = .ok (φ, n) ∧ r.flagSought = some (n : ℚ)) ∧
    (dewPoint F Pset m pg T given st = (.ok r, st') → (∃ φ n, F.vapor T r.P given = .ok (φ, n) ∧ r.flagGiven = some (n : ℚ)) ∧
      ∃ x φ n, r.start = x.map some ∧ F.liquid T r.P x = .ok (φ, n) ∧ r.flagSought = some (n : ℚ)) := by
  have given_ok : ∀ (f : PhaseFug), flagOf f T (given.map some) r.P = .ok r.flagGiven →
      ∃ φ n, f T r.P given = .ok (φ, n) ∧ r.flagGiven = some (n : ℚ) := fun f h => by
    obtain ⟨l, φ, n, h1, h2, h3⟩ := flagOf_ok f T r.P _ _ h
    rw [← (Option.some_injective ℚ).list_map h1] at h2
    exact ⟨φ, n, h2, h3⟩
  constructor <;> intro h
  · obtain ⟨ps, lo, hi, est, a, g, g', -, -, -, -, hfg, hfs, -⟩ := calcPoint_ok _ _ _ _ _ _ _ _ _ _ h
    exact ⟨given_ok F.liquid hfg, flagOf_ok _ _ _ _ _ hfs⟩
  · obtain ⟨ps, lo, hi, est, a, g, g', -, -, -, -, hfg, hfs, -⟩ := calcPoint_ok _ _ _ _ _ _ _ _ _ _ h
    exact ⟨given_ok F.vapor hfg, flagOf_ok _ _ _ _ _ hfs⟩

/-- **C134** (where the pressure comes from): the solver searches the range that was found, from the estimate that came with it unless one was given. -/
theorem c134_bracket (F : Fluid) (Pset : ℚ) (m : String) (pg : Option ℚ) (T : ℚ) (given : List ℚ) (st st' : BubbleDew.State) (r : BubbleDew.Result) :
    (bubblePoint F Pset m pg T given st = (.ok r, st') → ∃ (y : List ℚ) (R : PressureRange.Range ℚ) (g : Option Comp), r.start = y.map some ∧
      PressureRange.search F.rangeOpts { F.range T given with
        xi := given
        liq := fun P => F.liquid T P given
        vap := fun y φl P => vaporComposition (vaporEnv F T P given φl st.tol) y given φl } y = .ok (some R) ∧
      runSolver (BubbleDew.objective (bubbleEnv F) T given st.tol) (F.solver m (startP pg R.P0 R.P1 R.guess) R.P0 R.P1)
        ((F.left T given r.start st.tol).or (some r.start)) = (.ok r.P, g)) ∧
    (dewPoint F Pset m pg T given st = (.ok r, st') → ∃ (x : List ℚ) (R : PressureRange.Range ℚ) (g : Option Comp), r.start = x.map some ∧
      DewRange.search F.rangeOpts { F.range T given with
        xi := given
        liq := fun P => F.vapor T P given
        vap := fun x φv P => liquidComposition (liquidEnv F T P given φv st.tol) x given φv } x = .ok (some R) ∧
      runSolver (BubbleDew.objective (dewEnv F) T given st.tol) (F.solver m (startP pg R.P0 R.P1 R.guess) R.P0 R.P1)
        ((F.left T given r.start st.tol).or (some r.start)) = (.ok r.P, g)) := by
  have out : ∀ (o : Option (PressureRange.Range ℚ)) lo hi est, rangeOut o = (some lo, some hi, est) →
      ∃ R, o = some R ∧ lo = R.P0 ∧ hi = R.P1 ∧ est = R.guess := by
    intro o lo hi est h
    cases o with
    | none => simp [rangeOut] at h
    | some R =>
      simp only [rangeOut, Prod.mk.injEq, Option.some.injEq] at h
      exact ⟨R, rfl, h.1.symm, h.2.1.symm, h.2.2.symm⟩
  constructor <;> intro h
  · obtain ⟨ps, lo, hi, est, a, g, g', -, -, hpr, hrun, -⟩ := calcPoint_ok _ _ _ _ _ _ _ _ _ _ h
    simp only [bubbleEnv, Prod.mk.injEq] at hpr
    obtain ⟨hpr, rfl⟩ := hpr
    unfold bubbleRange at hpr
    simp only [bind, Except.bind] at hpr
    cases hn : numbers r.start with
    | error e => simp only [hn] at hpr; cases hpr
    | ok y =>
      simp only [hn] at hpr
      split at hpr
      · cases hpr
      · rename_i o ho
        injection hpr with hpr
        obtain ⟨R, rfl, rfl, rfl, rfl⟩ := out _ _ _ _ hpr
        exact ⟨y, R, g, numbers_ok _ _ hn, ho, hrun⟩
  · obtain ⟨ps, lo, hi, est, a, g, g', -, -, hpr, hrun, -⟩ := calcPoint_ok _ _ _ _ _ _ _ _ _ _ h
    simp only [dewEnv, Prod.mk.injEq] at hpr
    obtain ⟨hpr, rfl⟩ := hpr
    unfold dewRange at hpr
    simp only [bind, Except.bind] at hpr
    cases hn : numbers r.start with
    | error e => simp only [hn] at hpr; cases hpr
    | ok x =>
      simp only [hn] at hpr
      split at hpr
      · cases hpr
      · rename_i o ho
        injection hpr with hpr
        obtain ⟨R, rfl, rfl, rfl, rfl⟩ := out _ _ _ _ hpr
        exact ⟨x, R, g, numbers_ok _ _ hn, ho, hrun⟩

/-- **C134** (limits of the inner loops): fifty steps for a vapour, twenty for a liquid, the tolerance of the caller or 1e-6, and compositions closer than
five percent count as trivial. -/
theorem c134_inner_limits (F : Fluid) (T P : ℚ) (z : List ℚ) (φ : List (Option ℚ)) (tol : Option ℚ) :
    (vaporEnv F T P z φ tol).maxiter = 50 ∧ (liquidEnv F T P z φ tol).maxiter = 20 ∧
      (∀ E ∈ [vaporEnv F T P z φ tol, liquidEnv F T P z φ tol], E.tol = tol.getD (1 / 10 ^ 6) ∧ E.tolTrivial = 5 / 100) := by
  refine ⟨rfl, rfl, ?_⟩
  simp only [List.mem_cons, List.not_mem_nil, or_false, forall_eq_or_imp, forall_eq, vaporEnv, liquidEnv]
  norm_num

/-- **C134** (first composition). Without a composition left by an earlier point, a point of two components starts from the composition of the other
phase of an ideal mixture at the pressure at which it is estimated, which does not depend on that pressure. -/
theorem c134_start (F : Fluid) (Pset : ℚ) (m : String) (pg : Option ℚ) (T z1 z2 p1 p2 : ℚ) (tol : Option ℚ) (pm : Option String)
    (st' : BubbleDew.State) (r : BubbleDew.Result) (h1 : F.psat T [1, 0] = .ok (some p1)) (h2 : F.psat T [0, 1] = .ok (some p2))
    (hz1 : 0 < z1) (hz2 : 0 < z2) (hp1 : 0 < p1) (hp2 : 0 < p2) (hpg : ∀ p, pg = some p → 0 < p) :
    (bubblePoint F Pset m pg T [z1, z2] ⟨none, tol, pm⟩ = (.ok r, st') →
      r.start = [some (z1 * p1 / (z1 * p1 + z2 * p2)), some (z2 * p2 / (z1 * p1 + z2 * p2))]) ∧
    (dewPoint F Pset m pg T [z1, z2] ⟨none, tol, pm⟩ = (.ok r, st') →
      r.start = [some (z1 / p1 / (z1 / p1 + z2 / p2)), some (z2 / p2 / (z1 / p1 + z2 / p2))]) := by
  have hps : ∀ E : BubbleDew.Env, E.psat = F.psat → psats E T Pset 2 = .ok [p1, p2] := by
    intro E hE
    have c0 : pureComp 2 0 = [1, 0] := by decide
    have c1 : pureComp 2 1 = [0, 1] := by decide
    simp [psats, Parallel.runChunk, List.range_succ, c0, c1, hE, h1, h2]
  have hs : 0 < z1 / p1 + z2 / p2 := add_pos (div_pos hz1 hp1) (div_pos hz2 hp2)
  obtain ⟨P, hP, hP0⟩ : ∃ P, firstP pg [z1, z2] [p1, p2] = some P ∧ 0 < P := by
    cases pg with
    | some p => exact ⟨p, rfl, hpg p rfl⟩
    | none =>
      refine ⟨1 / (z1 / p1 + z2 / p2), ?_, one_div_pos.2 hs⟩
      simp [firstP, initialP, qdiv, hp1.ne', hp2.ne', csum, hs.ne']
  constructor <;> intro h
  · obtain ⟨ps, lo, hi, est, a, g, g', hq, hst, -⟩ := calcPoint_ok _ _ _ _ _ _ _ _ _ _ h
    have hq' := hps (bubbleEnv F) rfl
    rw [show [z1, z2].length = 2 from rfl, hq'] at hq
    cases hq
    rw [hst, hP]
    have : z1 * p1 / P + z2 * p2 / P ≠ 0 := (add_pos (div_pos (mul_pos hz1 hp1) hP0) (div_pos (mul_pos hz2 hp2) hP0)).ne'
    have hn : z1 * p1 + z2 * p2 ≠ 0 := (add_pos (mul_pos hz1 hp1) (mul_pos hz2 hp2)).ne'
    simp [startGuess, raoultVapor, qdiv, hP0.ne', nansum, this]
    constructor <;> field_simp
  · obtain ⟨ps, lo, hi, est, a, g, g', hq, hst, -⟩ := calcPoint_ok _ _ _ _ _ _ _ _ _ _ h
    have hq' := hps (dewEnv F) rfl
    rw [show [z1, z2].length = 2 from rfl, hq'] at hq
    cases hq
    rw [hst, hP]
    have : P * (z1 / p1) + P * (z2 / p2) ≠ 0 := (add_pos (mul_pos hP0 (div_pos hz1 hp1)) (mul_pos hP0 (div_pos hz2 hp2))).ne'
    simp [startGuess, raoultLiquid, BubbleDew.normalise, csum, qdiv, hp1.ne', hp2.ne', this]
    rw [← mul_add]
    constructor <;> exact mul_div_mul_left _ _ hP0.ne'

/-! ## Where the composition comes from -/

/-- The compositions that the numerical procedures propose add up to one. -/
def ProcsSum (E : Composition.Env ℚ) : Prop :=
  (∀ t, E.findNew = .ok (some t) → t.sum = 1) ∧ ∀ n, (E.rand n).sum = 1

theorem propose_sum (ph : Phase) (noPhase : ℕ → Bool) (E : Composition.Env ℚ) (hE : ProcsSum E) (other : List ℚ)
    (φo : List (Option ℚ)) (n : ℕ) (s : Composition.State ℚ) (t : Trial ℚ) (c r : Bool)
    (h : propose ph noPhase E other φo n s = .ok (some t, c, r)) : t.tmp.sum = 1 := by
  unfold propose at h
  simp only [bind, Except.bind] at h
  cases hn : Composition.normalise s.y with
  | error e => simp only [hn] at h; cases h
  | ok tmp =>
    have ht := (comp_normalise _ _ hn).1
    simp only [hn] at h
    cases hf : E.fug tmp with
    | error e => simp only [hf] at h; cases h
    | ok p =>
      simp only [hf] at h
      split at h
      · split at h
        · cases hN : E.findNew with
          | error e => simp only [hN] at h; cases h
          | ok o =>
            cases o with
            | none => simp only [hN] at h; injection h with h; injection h with h; cases h
            | some u =>
              simp only [hN] at h
              cases hfu : E.fug u with
              | error e => simp only [hfu] at h; cases h
              | ok p' =>
                simp only [hfu] at h
                split at h
                · cases h
                · injection h with h
                  injection h with h
                  injection h with h
                  subst h
                  exact hE.1 u hN
        · injection h with h
          injection h with h
          injection h with h
          subst h
          exact ht
      · split at h
        · split at h
          · cases h
          · rename_i o ho
            cases o with
            | none => simp only at h; injection h with h; injection h with h; cases h
            | some u =>
              simp only at h
              cases hfu : E.fug u with
              | error e => simp only [hfu] at h; cases h
              | ok p' =>
                simp only [hfu] at h
                split at h
                · cases h
                · injection h with h
                  injection h with h
                  injection h with h
                  subst h
                  split at ho
                  · exact hE.1 u ho
                  · injection ho with ho
                    injection ho with ho
                    rw [← ho]
                    exact hE.2 n
        · split at h
          · cases h
          · injection h with h
            injection h with h
            injection h with h
            subst h
            exact ht

theorem vaporLoop_sum (E : Composition.Env ℚ) (hE : ProcsSum E) (xi : List ℚ) (φl : List (Option ℚ)) :
    ∀ (n : ℕ) (s : Composition.State ℚ) (a : After ℚ), vaporLoop E xi φl n s = .ok (some a) → a.trial.tmp.sum = 1
  | 0, s, a, h => by simp [vaporLoop] at h
  | n + 1, s, a, h => by
    simp only [vaporLoop, bind, Except.bind] at h
    cases hp : propose .vapor (· == 1) E xi φl n s with
    | error e => simp only [hp] at h; cases h
    | ok p =>
      obtain ⟨t?, c, r⟩ := p
      simp only [hp] at h
      cases t? with
      | none => simp only at h; injection h with h; cases h
      | some t =>
        simp only at h
        have ht := propose_sum _ _ E hE xi φl n s t c r hp
        cases hy : Composition.normalise t.new with
        | error e => simp only [hy] at h; cases h
        | ok y2 =>
          simp only [hy] at h
          cases hf : E.fug y2 with
          | error e => simp only [hf] at h; cases h
          | ok q =>
            simp only [hf] at h
            split at h
            · split at h
              · split at h
                · cases h
                · rename_i y2' hb
                  cases hf' : E.fug y2' with
                  | error e => simp only [hf'] at h; cases h
                  | ok q' =>
                    simp only [hf'] at h
                    injection h with h
                    injection h with h
                    subst h
                    exact ht
              · cases h
            · split at h
              · cases h
              · split at h
                · injection h with h
                  injection h with h
                  subst h
                  exact ht
                · exact vaporLoop_sum E hE xi φl n _ a h

/-- **C134** (where the composition of a bubble point comes from; C94 without the condition that coefficients were
returned, because the outer loop does not look at them). It is (a) the normalised mole numbers that belong to the vapour of
a composition `u`, which the loop accepted because its smallest entry is kept, or although `u` has no density at all; or (b) from a bisection; or
(c) from a least squares fit, whatever is left of its objective; or (d) not a result: its vapour does not exist. -/
theorem c134_sources (E : Composition.Env ℚ) (hE : ProcsSum E) (yi xi : List ℚ) (φl : List (Option ℚ)) (y : List ℚ)
    (φ : List (Option ℚ)) (flag : Option ℕ) (h : vaporComposition E yi xi φl = .ok (y, φ, flag)) :
    (∃ u φu fu, E.fug u = .ok (φu, fu) ∧ u.sum = 1 ∧ none ∉ φu ∧ y = (isoNumbers xi φl φu).map (· / (isoNumbers xi φl φu).sum) ∧
        y.sum = 1 ∧ (SmallestKept E.tol u y ∨ fu = 3)) ∨
      (∃ b1 b2, E.bracket b1 b2 = .ok y) ∨
      (∃ b y1, E.leastSquares b = .ok y1 ∧ y = [y1, 1 - y1]) ∨
      (isBinary y = false ∧ ∃ φu fu, E.fug y = .ok (φu, fu) ∧ (none ∈ φu ∨ fu = 1)) := by
  unfold vaporComposition at h
  split at h
  · cases h
  · simp only [bind, Except.bind] at h
    cases hn : Composition.normalise yi with
    | error e => simp only [hn] at h; cases h
    | ok y0 =>
      simp only [hn] at h
      cases hl : vaporLoop E xi φl E.maxiter ⟨y0, [yi.sum], true, true⟩ with
      | error e => simp only [hl] at h; cases h
      | ok a? =>
        simp only [hl] at h
        cases a? with
        | none => simp only [vaporFinish] at h; cases h
        | some a =>
          obtain ⟨s1, s2, s3, s4⟩ := vaporLoop_spec E xi φl _ _ a hl
          have hsum := vaporLoop_sum E hE xi φl _ _ a hl
          -- a normalised set of mole numbers that the loop has made
          have made : ∀ y, Composition.normalise a.trial.new = .ok y → (SmallestKept E.tol a.trial.tmp y ∨ a.trial.flag = 3) →
              (∃ u φu fu, E.fug u = .ok (φu, fu) ∧ u.sum = 1 ∧ none ∉ φu ∧
                  y = (isoNumbers xi φl φu).map (· / (isoNumbers xi φl φu).sum) ∧
                  y.sum = 1 ∧ (SmallestKept E.tol u y ∨ fu = 3)) ∨
                (isBinary y = false ∧ ∃ φu fu, E.fug y = .ok (φu, fu) ∧ (none ∈ φu ∨ fu = 1)) := by
            intro y hy hk
            obtain ⟨n1, _, n3⟩ := comp_normalise _ _ hy
            rcases s3 with hs | ⟨hs, hbin, hnt⟩
            · left
              obtain ⟨e1, -, -, e4⟩ := newMole_iso xi φl a.trial.φ a.trial.new (by simpa [newNumbers] using hs)
              exact ⟨_, _, _, s1, hsum, e4, by rw [← e1]; exact n3, n1, hk⟩
            · right
              rw [hy] at hnt
              injection hnt with hnt
              rw [hnt]
              exact ⟨hbin, _, _, s1, hs⟩
          simp only [vaporFinish] at h
          cases hm : minPos a.trial.tmp with
          | none => simp only [hm] at h; cases h
          | some m =>
            simp only [hm] at h
            split at h
            · rename_i h3
              simp only [bind, Except.bind] at h
              cases hy : Composition.normalise a.trial.new with
              | error e => simp only [hy] at h; cases h
              | ok y' =>
                simp only [hy] at h
                injection h with h
                injection h with h _
                subst h
                rcases made _ hy (Or.inr h3) with k | k
                · exact Or.inl k
                · exact Or.inr (Or.inr (Or.inr k))
            · split at h
              · simp only [bind, Except.bind] at h
                split at h
                · cases h
                · split at h
                  · cases h
                  · split at h
                    · cases h
                    · split at h
                      · cases h
                      · split at h
                        · cases h
                        · rename_i y1 hy1
                          split at h
                          · cases h
                          · split at h
                            · cases h
                            · split at h
                              · injection h with h
                                injection h with h _
                                exact Or.inr (Or.inr (Or.inl ⟨_, y1, hy1, h.symm⟩))
                              · injection h with h
                                injection h with h _
                                exact Or.inr (Or.inr (Or.inl ⟨_, y1, hy1, h.symm⟩))
              · rename_i hlast
                injection h with h
                injection h with h1 _
                subst h1
                rcases s4 with hb | ⟨hnew, hk⟩
                · exact Or.inr (Or.inl hb)
                · rcases made _ hnew (Or.inl (hk (by simpa using hlast))) with k | k
                  · exact Or.inl k
                  · exact Or.inr (Or.inr (Or.inr k))

/-! ## How far the fugacities are from equal -/

/-- A composition of two components whose smallest entry is kept: both entries are kept, also when one is negative. -/
theorem kept_close (tol u1 u2 y1 y2 : ℚ) (hu : u1 + u2 = 1) (hy : y1 + y2 = 1) (hy1 : 0 ≤ y1) (hy2 : 0 ≤ y2)
    (ht : tol ≤ 1 / 2) (h : SmallestKept tol [u1, u2] [y1, y2]) : |y1 - u1| ≤ 2 * tol := by
  obtain ⟨i, a, b, ha, hb, ha0, -, hlt⟩ := h
  have habs : |b - a| < tol * a := (div_lt_iff₀ ha0).mp hlt
  have htol : 0 < tol := by
    have := lt_of_le_of_lt (abs_nonneg _) habs
    exact (pos_iff_pos_of_mul_pos this).mpr ha0
  have fin : b ≤ 1 → |b - a| ≤ 2 * tol := by
    intro hb1
    have h1 := (abs_lt.1 habs).1
    have h2 : a < 2 := by nlinarith
    nlinarith
  have hneg : |y2 - u2| = |y1 - u1| := by
    rw [← abs_neg (y1 - u1)]; congr 1; linarith
  match i, ha, hb with
  | 0, ha, hb =>
    simp at ha hb
    subst ha hb
    exact fin (by linarith)
  | 1, ha, hb =>
    simp at ha hb
    subst ha hb
    rw [← hneg]
    exact fin (by linarith)
  | (k + 2), ha, hb => simp at ha

/-- Mole numbers `k` at a composition that is made of the mole numbers `c`, which differ by at most `d`. -/
theorem residual_bound (c1 c2 k1 k2 d : ℚ) (h1 : 0 < c1) (h2 : 0 < c2) (d1 : |k1 - c1| ≤ d) (d2 : |k2 - c2| ≤ d) :
    |k1 - c1 / (c1 + c2)| ≤ |k1 + k2 - 1| + 3 * d := by
  have hs : 0 < c1 + c2 := by linarith
  set q := c1 / (c1 + c2) with hq
  have hq0 : 0 ≤ q := by positivity
  have hq1 : q ≤ 1 := by rw [hq, div_le_one hs]; linarith
  have hc : c1 = q * (c1 + c2) := by rw [hq]; field_simp
  have e : k1 - q = (k1 - c1) + q * ((c1 + c2) - 1) := by linear_combination hc
  have b1 : |q * ((c1 + c2) - 1)| ≤ |c1 + c2 - 1| := by
    rw [abs_mul, abs_of_nonneg hq0]
    exact mul_le_of_le_one_left (abs_nonneg _) hq1
  have b2 : |c1 + c2 - 1| ≤ |k1 + k2 - 1| + 2 * d := by
    have e2 : c1 + c2 - 1 = (k1 + k2 - 1) - (k1 - c1) - (k2 - c2) := by ring
    rw [e2]
    have := abs_sub ((k1 + k2 - 1) - (k1 - c1)) (k2 - c2)
    have := abs_sub (k1 + k2 - 1) (k1 - c1)
    linarith
  rw [e]
  have := abs_add_le (k1 - c1) (q * ((c1 + c2) - 1))
  linarith

/-- Two phases of two components at a pressure: the coefficients are positive, there are none for a fluid without a
density, and the mole numbers change with the composition of the vapour at most by the factor `L`. -/
structure BinaryPhases (F : Fluid) (T P x1 x2 L : ℚ) : Prop where
  liq : ∀ φ f, F.liquid T P [x1, x2] = .ok (φ, f) → φ.length = 2 ∧ ∀ v, some v ∈ φ → 0 < v
  vap : ∀ u φ f, F.vapor T P u = .ok (φ, f) → u.length = 2 ∧ φ.length = 2 ∧ (∀ v, some v ∈ φ → 0 < v) ∧ (f = 3 → none ∈ φ)
  lip : ∀ φl fl u1 φu fu v1 φv fv, F.liquid T P [x1, x2] = .ok (φl, fl) → F.vapor T P [u1, 1 - u1] = .ok (φu, fu) →
    F.vapor T P [v1, 1 - v1] = .ok (φv, fv) → ∀ (i : ℕ) k c, (isoNumbers [x1, x2] φl φv)[i]? = some k →
      (isoNumbers [x1, x2] φl φu)[i]? = some c → |k - c| ≤ L * |v1 - u1|

theorem two_numbers (φ : List (Option ℚ)) (h : φ.length = 2) (hn : none ∉ φ) : ∃ a b, φ = [some a, some b] := by
  match φ, h with
  | [none, _], _ => simp at hn
  | [some a, none], _ => simp at hn
  | [some a, some b], _ => exact ⟨a, b, rfl⟩

/-- **C134** (a bubble point of two components). Unless its composition is from a bisection, from a least squares fit or has
no vapour, the fugacities of each component in the two phases that are returned agree, as mole numbers, up to the objective that is returned
and a multiple of the tolerance of the inner loop.  What is missing: the exceptions are not reported. -/
theorem c134_residual_partial (F : Fluid) (Pset : ℚ) (m : String) (pg : Option ℚ) (T x1 x2 L : ℚ)
    (st st' : BubbleDew.State) (r : BubbleDew.Result) (hx1 : 0 < x1) (hx2 : 0 < x2) (hL : 0 ≤ L)
    (h : bubblePoint F Pset m pg T [x1, x2] st = (.ok r, st')) (hP : 0 ≤ r.P) (hF : BinaryPhases F T r.P x1 x2 L)
    (hE : ∀ φl, ProcsSum (F.procs T r.P [x1, x2] φl)) (htol : ∀ t, st.tol = some t → t ≤ 1 / 2) :
    ∃ φl fl y φv fv obj, F.liquid T r.P [x1, x2] = .ok (φl, fl) ∧ F.vapor T r.P y = .ok (φv, fv) ∧
      bubbleComp r = y.map some ∧ r.obj = some obj ∧
      ((∃ y1 y2 k1 k2, y = [y1, y2] ∧ y1 + y2 = 1 ∧ 0 < y1 ∧ 0 < y2 ∧ isoNumbers [x1, x2] φl φv = [k1, k2] ∧
          |k1 - y1| ≤ |obj| + 6 * L * (tightenTol st.tol).getD (1 / 1000000) ∧
          |k2 - y2| ≤ |obj| + 6 * L * (tightenTol st.tol).getD (1 / 1000000)) ∨
        (∃ b1 b2 w, (F.procs T r.P [x1, x2] φl).bracket b1 b2 = .ok w ∧ y = w.map (· / w.sum)) ∨
        (∃ b y1, (F.procs T r.P [x1, x2] φl).leastSquares b = .ok y1 ∧ y = [y1, 1 - y1]) ∨
        isBinary y = false) := by
  obtain ⟨φl, fl, guess, tol, ynew, φ, f, y, φv, fv, hl, hc, hy, hysum, hcomp, hv, -, hnl, hnv, hobj, htl⟩ :=
    c134_state F Pset m pg T [x1, x2] st st' r h hP
  refine ⟨φl, fl, y, φv, fv, _, hl, hv, hcomp, hobj, ?_⟩
  have hE' : ProcsSum (vaporEnv F T r.P [x1, x2] φl tol) := hE φl
  have tolle : tol.getD (1 / 1000000) ≤ 1 / 2 := by
    rw [htl]
    cases hs : st.tol with
    | none => simp only [tightenTol, Option.getD_none]; norm_num
    | some t =>
      have := htol t hs
      simp only [tightenTol]
      split_ifs
      · simp only [Option.getD_some]; norm_num
      · simpa using this
  rcases c134_sources _ hE' _ _ _ _ _ _ hc with ⟨u, φu, fu, hfu, husum, hnu, hyn, hyn1, hk⟩ | ⟨b1, b2, hb⟩ |
    ⟨b, z1, hb, hz⟩ | ⟨hbin, -⟩
  · left
    have hyy : y = ynew := by rw [hy, hyn1]; simp
    rw [← hyy] at hyn hyn1 hk
    obtain ⟨ulen, φlen, upos, u3⟩ := hF.vap _ _ _ hfu
    obtain ⟨ylen, φvlen, vpos, -⟩ := hF.vap _ _ _ hv
    obtain ⟨φllen, lpos⟩ := hF.liq _ _ hl
    obtain ⟨l1, l2, rfl⟩ := two_numbers φl φllen hnl
    obtain ⟨a1, a2, rfl⟩ := two_numbers φu φlen hnu
    obtain ⟨v1, v2, rfl⟩ := two_numbers φv φvlen hnv
    have hkept : SmallestKept (tol.getD (1 / 1000000)) u y := by
      rcases hk with hk | hk
      · exact hk
      · exact absurd (u3 hk) hnu
    have pl1 := lpos l1 (by simp)
    have pl2 := lpos l2 (by simp)
    have pa1 := upos a1 (by simp)
    have pa2 := upos a2 (by simp)
    match u, ulen, y, ylen with
    | [u1, u2], _, [y1, y2], _ =>
      simp only [isoNumbers, List.zip_cons_cons, List.zip_nil_right, List.map_cons, List.map_nil, Option.getD_some,
        List.sum_cons, List.sum_nil, add_zero, List.cons.injEq, and_true] at hyn hyn1 husum ⊢
      have pc1 : 0 < x1 * l1 / a1 := by positivity
      have pc2 : 0 < x2 * l2 / a2 := by positivity
      have ps : 0 < x1 * l1 / a1 + x2 * l2 / a2 := by linarith
      have py1 : 0 < y1 := by rw [hyn.1]; positivity
      have py2 : 0 < y2 := by rw [hyn.2]; positivity
      have hclose := kept_close _ u1 u2 y1 y2 husum hyn1 py1.le py2.le tolle hkept
      have eu : u2 = 1 - u1 := by linarith
      have ey : y2 = 1 - y1 := by linarith
      have lip := hF.lip _ _ u1 _ fu y1 _ fv hl (by rw [← eu]; exact hfu) (by rw [← ey]; exact hv)
      have d1 := lip 0 (x1 * l1 / v1) (x1 * l1 / a1) (by simp [isoNumbers]) (by simp [isoNumbers])
      have d2 := lip 1 (x2 * l2 / v2) (x2 * l2 / a2) (by simp [isoNumbers]) (by simp [isoNumbers])
      have hd : L * |y1 - u1| ≤ L * (2 * tol.getD (1 / 1000000)) := mul_le_mul_of_nonneg_left hclose hL
      have r1 := residual_bound _ _ _ _ _ pc1 pc2 (d1.trans hd) (d2.trans hd)
      have r2 := residual_bound _ _ _ _ _ pc2 pc1 (d2.trans hd) (d1.trans hd)
      rw [← hyn.1] at r1
      rw [add_comm (x2 * l2 / a2), ← hyn.2, add_comm (x2 * l2 / v2)] at r2
      refine ⟨y1, y2, _, _, ⟨rfl, rfl⟩, hyn1, py1, py2, ⟨rfl, rfl⟩, ?_, ?_⟩
      · rw [← htl]; linarith
      · rw [← htl]; linarith
  · exact Or.inr (Or.inl ⟨b1, b2, ynew, hb, hy⟩)
  · refine Or.inr (Or.inr (Or.inl ⟨b, z1, hb, ?_⟩))
    rw [hy, hz]; simp
  · refine Or.inr (Or.inr (Or.inr ?_))
    have hz : (y.all (· ≠ 0)) = true → ynew.all (· ≠ 0) = true := by
      intro hall
      rw [List.all_eq_true] at hall ⊢
      intro z hz
      have := hall (z / ynew.sum) (by rw [hy]; exact List.mem_map_of_mem hz)
      simp only [ne_eq, decide_eq_true_eq] at this ⊢
      intro h0
      exact this (by rw [h0, zero_div])
    have hlen : y.length = ynew.length := by rw [hy, List.length_map]
    by_contra hb
    rw [Bool.not_eq_false] at hb
    unfold isBinary at hb hbin
    rw [Bool.and_eq_true] at hb
    rw [hlen] at hb
    rw [hb.1, hz hb.2] at hbin
    cases hbin

/-- **C134** (exactly): if the mole numbers do not depend on the composition of the vapour and the outer loop has solved its equation
exactly, the two phases have the same fugacities. -/
theorem c134_exact_partial (F : Fluid) (Pset : ℚ) (m : String) (pg : Option ℚ) (T x1 x2 : ℚ)
    (st st' : BubbleDew.State) (r : BubbleDew.Result) (hx1 : 0 < x1) (hx2 : 0 < x2)
    (h : bubblePoint F Pset m pg T [x1, x2] st = (.ok r, st')) (hP : 0 ≤ r.P) (hF : BinaryPhases F T r.P x1 x2 0)
    (hE : ∀ φl, ProcsSum (F.procs T r.P [x1, x2] φl)) (htol : ∀ t, st.tol = some t → t ≤ 1 / 2)
    (hobj : r.obj = some 0) :
    ∃ φl fl y φv fv, F.liquid T r.P [x1, x2] = .ok (φl, fl) ∧ F.vapor T r.P y = .ok (φv, fv) ∧ bubbleComp r = y.map some ∧
      (isoNumbers [x1, x2] φl φv = y ∨
        (∃ b1 b2 w, (F.procs T r.P [x1, x2] φl).bracket b1 b2 = .ok w ∧ y = w.map (· / w.sum)) ∨
        (∃ b y1, (F.procs T r.P [x1, x2] φl).leastSquares b = .ok y1 ∧ y = [y1, 1 - y1]) ∨
        isBinary y = false) := by
  obtain ⟨φl, fl, y, φv, fv, obj, hl, hv, hc, ho, hres⟩ :=
    c134_residual_partial F Pset m pg T x1 x2 0 st st' r hx1 hx2 le_rfl h hP hF hE htol
  refine ⟨φl, fl, y, φv, fv, hl, hv, hc, ?_⟩
  rw [hobj] at ho
  injection ho with ho
  rcases hres with ⟨y1, y2, k1, k2, hy, -, -, -, hk, b1, b2⟩ | hres
  · left
    rw [← ho] at b1 b2
    simp only [abs_zero, mul_zero, zero_mul, add_zero] at b1 b2
    have e1 := sub_eq_zero.1 (abs_nonpos_iff.1 b1)
    have e2 := sub_eq_zero.1 (abs_nonpos_iff.1 b2)
    rw [hk, hy, e1, e2]
  · exact Or.inr hres

/-! ## Ideal mixtures -/

/-- Procedures of scipy and numpy for the examples. -/
def plainProcs : Composition.Env ℚ where
  fug := fun _ => .error .other
  findNew := .ok (some [1/4, 3/4])
  rand := fun _ => [1/2, 1/4, 1/4]
  bracket := fun _ b => .ok [b, 1 - b]
  leastSquares := fun x => .ok x
  objective := fun _ => .error .other
  maxiter := 0
  tol := 0
  tolTrivial := 0

/-- A root finder that halves a range four times. -/
def halving : ℕ → ℚ → ℚ → Solver
  | 0, lo, hi => .done ((lo + hi) / 2)
  | n + 1, lo, hi => .ask ((lo + hi) / 2) fun v =>
    if v = some 0 then .done ((lo + hi) / 2)
    else if v.any (0 < ·) then halving n ((lo + hi) / 2) hi else halving n lo ((lo + hi) / 2)

/-- A mixture that follows Raoult's law with the vapour pressures `ps`, with procedures for the examples. -/
def raoultFluid (ps : List ℚ) : Fluid where
  liquid := fun _ P x => if x.length = ps.length then .ok (ps.map fun p => some (p / P), 1) else .error .other
  vapor := fun _ _ y => if y.length = ps.length then .ok (ps.map fun _ => some 1, 0) else .error .other
  psat := fun _ c => .ok (some (List.zipWith (· * ·) c ps).sum)
  procs := fun _ _ _ _ => plainProcs
  range := fun _ _ => ⟨[], [], fun _ => .error .other, fun _ _ _ => .error .other, fun _ => 1/2, fun _ _ => .error .other, id⟩
  rangeOpts := ⟨some 1000, some 4000, 20, 1/100, 1/100, 2, 1/2, 100⟩
  left := fun _ _ _ _ => none
  solver := fun _ _ lo hi => halving 4 lo hi

/-- A bubble point of an ideal mixture, from the saturation pressures to the result: the pressure is the mean of the vapour
pressures. -/
example : (bubblePoint (raoultFluid [4000, 1000]) 0 "bisect" none 300 [1/2, 1/2] ⟨none, none, none⟩).1.map
    (fun r => (r.P, bubbleComp r, r.obj)) = .ok (2500, [some (4/5), some (1/5)], some 0) := by decide +kernel

/-- **C134** (Raoult's law): for every ideal mixture of any number of components, with any procedures, the objective returned with a
bubble point is zero exactly if the pressure is the sum of the partial pressures. -/
theorem c134_raoult (F : Fluid) (ps xi : List ℚ) (hlen : xi.length = ps.length)
    (hl : ∀ T P x, x.length = ps.length → F.liquid T P x = .ok (ps.map fun p => some (p / P), 1))
    (hv : ∀ T P y φ f, F.vapor T P y = .ok (φ, f) → φ = ps.map fun _ => some 1)
    (Pset : ℚ) (m : String) (pg : Option ℚ) (T : ℚ) (st st' : BubbleDew.State) (r : BubbleDew.Result)
    (h : bubblePoint F Pset m pg T xi st = (.ok r, st')) (hP : 0 < r.P) :
    r.obj = some ((List.zipWith (· * ·) xi ps).sum / r.P - 1) ∧
      (r.obj = some 0 ↔ r.P = (List.zipWith (· * ·) xi ps).sum) := by
  obtain ⟨φl, fl, guess, tol, ynew, φ, f, y, φv, fv, hl', hc, hy, hysum, hcomp, hv', -, hnl, hnv, hobj, htl⟩ :=
    c134_state F Pset m pg T xi st st' r h hP.le
  rw [hl T r.P xi hlen] at hl'
  injection hl' with hl'
  injection hl' with hl' _
  have hv'' := hv _ _ _ _ _ hv'
  have key : ∀ (xi ps : List ℚ), xi.length = ps.length →
      (isoNumbers xi (ps.map fun p => some (p / r.P)) (ps.map fun _ => some 1)).sum =
        (List.zipWith (· * ·) xi ps).sum / r.P := by
    intro xi
    induction xi with
    | nil => intro ps _; simp [isoNumbers]
    | cons x xi ih =>
      intro ps hlen
      cases ps with
      | nil => simp at hlen
      | cons p ps =>
        have := ih ps (by simpa using hlen)
        simp only [isoNumbers, List.map_cons, List.zip_cons_cons, List.sum_cons, List.zipWith_cons_cons] at this ⊢
        rw [this]
        simp only [Option.getD_some]
        field_simp
  have e : r.obj = some ((List.zipWith (· * ·) xi ps).sum / r.P - 1) := by
    rw [hobj, ← hl', hv'', key xi ps hlen]
  refine ⟨e, ?_⟩
  rw [e, Option.some_inj, sub_eq_zero, div_eq_one_iff_eq hP.ne']
  exact eq_comm

/-- The hypotheses of `c134_residual_partial` and `c134_exact_partial` are met, also for components that are not alike. -/
example (P : ℚ) (hP : 0 < P) : BinaryPhases (raoultFluid [4000, 1000]) 300 P (1/2) (1/2) 0 where
  liq := by
    intro φ f h
    simp [raoultFluid] at h
    rw [← h.1]
    refine ⟨rfl, ?_⟩
    intro v hv
    simp at hv
    rcases hv with rfl | rfl <;> positivity
  vap := by
    intro u φ f h
    simp only [raoultFluid] at h
    split at h
    · rename_i hu
      injection h with h
      injection h with h1 h2
      subst h1 h2
      refine ⟨hu, rfl, ?_, by decide⟩
      intro v hv
      simp at hv
      rw [hv]; norm_num
    · cases h
  lip := by
    intro φl fl u1 φu fu v1 φv fv _ h2 h3 i k c hk hc
    simp [raoultFluid] at h2 h3
    rw [← h3.1] at hk
    rw [← h2.1] at hc
    rw [hk] at hc
    injection hc with hc
    rw [hc]; simp

/-! ## Where equal fugacities are missed -/

/-- A vapour of three components whose coefficients exchange the larger two mole fractions; the smallest is kept. -/
def swapFluid : Fluid :=
  { raoultFluid [1, 1, 1] with
    liquid := fun _ P _ => .ok ([some (2500 / P), some (2500 / P), some (2500 / P)], 1)
    vapor := fun _ _ y =>
      match y with
      | [a, b, c] => .ok ([some ((1/4) / a), some ((1/4) / c), some ((1/2) / b)], 0)
      | _ => .error .other
    psat := fun _ c => .ok (some (List.zipWith (· * ·) c [1000, 2000, 2000]).sum) }

/-- **C134, violated** (three components): the inner loop only compares the smallest mole fraction, so that a bubble point is
returned with an objective of exactly zero although the fugacities of two of the components differ by a factor of two. -/
theorem c134_violated_ternary :
    (bubblePoint swapFluid 0 "bisect" none 300 [1/4, 1/4, 1/2] ⟨none, none, none⟩).1.map
      (fun r => (r.P, bubbleComp r, r.obj)) = .ok (2500, [some (1/7), some (2/7), some (4/7)], some 0) ∧
    swapFluid.liquid 300 2500 [1/4, 1/4, 1/2] = .ok ([some 1, some 1, some 1], 1) ∧
    (swapFluid.vapor 300 2500 [1/7, 2/7, 4/7]).map (fun v => isoNumbers [1/4, 1/4, 1/2] [some 1, some 1, some 1] v.1) =
      .ok [1/7, 4/7, 2/7] := by
  decide +kernel

/-- Two components: an ideal vapour at low and high pressures; in between, its coefficients exchange the mole fractions. -/
def restlessFluid : Fluid :=
  { raoultFluid [1, 1] with
    liquid := fun _ P _ => .ok ([some (1250 / P), some (3750 / P)], 1)
    vapor := fun _ P y =>
      match y with
      | [a, b] => if 2000 < P ∧ P < 3000 then .ok ([some ((1/4) / b), some ((3/4) / a)], 0) else .ok ([some 1, some 1], 0)
      | _ => .error .other
    psat := fun _ c => .ok (some (List.zipWith (· * ·) c [1250, 3750]).sum) }

/-- **C134, violated** (two components): the inner loop does not converge in fifty iterations and its least squares fit leaves
more than the tolerance, so that it returns NaN for the coefficients; the objective of the outer loop discards them, and a bubble point is
returned with an objective of exactly zero although the fugacities differ by a factor of three. -/
theorem c134_violated_unconverged :
    (bubblePoint restlessFluid 0 "bisect" none 300 [1/2, 1/2] ⟨none, none, none⟩).1.map
      (fun r => (r.P, bubbleComp r, r.obj)) = .ok (2500, [some (1/4), some (3/4)], some 0) ∧
    restlessFluid.liquid 300 2500 [1/2, 1/2] = .ok ([some (1/2), some (3/2)], 1) ∧
    (restlessFluid.vapor 300 2500 [1/4, 3/4]).map (fun v => isoNumbers [1/2, 1/2] [some (1/2), some (3/2)] v.1) =
      .ok [3/4, 1/4] ∧
    vaporComposition (vaporEnv restlessFluid 300 2500 [1/2, 1/2] [some (1/2), some (3/2)] none) [1/4, 3/4] [1/2, 1/2]
      [some (1/2), some (3/2)] = .ok ([1/4, 3/4], [none, none], some 3) := by
  decide +kernel

/-- The same ideal mixture with other limits of the pressure. -/
def raoultDew : Fluid := { raoultFluid [4000, 1000] with rangeOpts := ⟨some 1200, some 2000, 20, 1/100, 1/100, 2, 1/2, 100⟩ }

/-- **C134, violated** (dew points): for an ideal mixture, after another calculation has left its composition behind, the pressure is
right and the objective is exactly zero, but the composition that is returned is the one left behind.  The liquid in equilibrium is the
one that was calculated and dropped. -/
theorem c134_violated_dew :
    (dewPoint raoultDew 0 "bisect" none 300 [1/2, 1/2] ⟨some [some (2/3), some (1/3)], none, none⟩).1.map
      (fun r => (r.P, dewComp r, r.final, r.obj)) =
        .ok (1600, [some (2/3), some (1/3)], [some (1/5), some (4/5)], some 0) ∧
    isoNumbers [1/5, 4/5] [some (4000/1600), some (1000/1600)] [some 1, some 1] = [1/2, 1/2] ∧
    isoNumbers [2/3, 1/3] [some (4000/1600), some (1000/1600)] [some 1, some 1] = [5/3, 5/24] := by
  decide +kernel

end Verif.Props

namespace Verif.Props
open Verif Verif.Flash

variable {K : Type} [Field K] [LinearOrder K] [IsStrictOrderedRing K]

/-- Two phases whose fugacities, as mole numbers of the vapour, agree up to the tolerance times the mole fraction. -/
def NearEqual (o : Flash.Opts K) (x y : Pair K) : Prop :=
  ∃ (f : FugOut K) (kn : Pair K), o.fug x y = .ok f ∧ f.k = (.fin kn.1, .fin kn.2) ∧ |x.1 * kn.1 - y.1| ≤ x.1 * o.tol ∧ |x.2 * kn.2 - y.2| ≤ x.2 * o.tol

theorem step_nearEqual (o : Flash.Opts K) (i : ℕ) (s s' : Flash.St K) (r : Flash.Out K)
    (h : Flash.step o i s = .ok (r, s', true)) (hr : s'.reset ≠ 20) (hs : Fit s.k) : NearEqual o r.x r.y := by
  obtain ⟨f, kn, h1, h2, h3, -, -⟩ := c68_converged_partial o i s s' r h hr
  obtain ⟨⟨-, hx, -, e1, e2⟩, -⟩ := step_spec o i s _ h hs
  refine ⟨f, kn, h1, h2, ?_, ?_⟩
  · simp only at e1
    rw [e1, mul_comm s.k.1, ← mul_sub, abs_mul, abs_of_nonneg hx.1]
    have := abs_nonneg (kn.2 - s.k.2)
    exact mul_le_mul_of_nonneg_left (by linarith) hx.1
  · simp only at e2
    rw [e2, mul_comm s.k.2, ← mul_sub, abs_mul, abs_of_nonneg hx.2.2.1]
    have := abs_nonneg (kn.1 - s.k.1)
    exact mul_le_mul_of_nonneg_left (by linarith) hx.2.2.1

/-- An iteration that ended the search without convergence: the twentieth reset, or the last one. -/
def GaveUp (o : Flash.Opts K) (last : ℕ) (x y : Pair K) : Prop :=
  ∃ j s s' b r, Flash.step o j s = .ok (r, s', b) ∧ r.x = x ∧ r.y = y ∧ (s'.reset = 20 ∨ j = last)

theorem loop_nearEqual (o : Flash.Opts K) : ∀ (n i : ℕ) (s : Flash.St K) (r : Flash.Out K), Flash.loop o n i s = .ok r →
    Fit s.k → NearEqual o r.x r.y ∨ GaveUp o (i + n - 1) r.x r.y
  | 0, _, _, _, h, _ => by cases h
  | 1, i, s, r, h, hs => by
    right
    simp only [Flash.loop, bind, Except.bind, pure, Except.pure] at h
    cases ht : Flash.step o i s with
    | error e => simp only [ht] at h; cases h
    | ok t =>
      simp only [ht] at h
      cases he : relChange t.1.k t.1.kprev with
      | error e => simp only [he] at h; cases h
      | ok e =>
        simp only [he] at h
        cases h
        exact ⟨i, s, t.2.1, t.2.2, t.1, ht, rfl, rfl, Or.inr (by omega)⟩
  | n + 2, i, s, r, h, hs => by
    simp only [Flash.loop, bind, Except.bind, pure, Except.pure] at h
    cases ht : Flash.step o i s with
    | error e => simp only [ht] at h; cases h
    | ok t =>
      obtain ⟨r1, s1, b⟩ := t
      simp only [ht] at h
      obtain ⟨-, h2⟩ := step_spec o i s _ ht hs
      split at h
      · rename_i hb
        cases h
        subst hb
        by_cases hr : s1.reset = 20
        · exact Or.inr ⟨i, s, s1, true, _, ht, rfl, rfl, Or.inl hr⟩
        · exact Or.inl (step_nearEqual o i s s1 _ ht hr hs)
      · have := loop_nearEqual o (n + 1) (i + 1) _ r h h2
        have e : i + 1 + (n + 1) - 1 = i + (n + 2) - 1 := by omega
        rwa [e] at this

/-- **C134** (flash). The two phases that a flash returns, in one of the two orders, have fugacities that agree up to the tolerance, unless the
search was given up after twenty resets or in the last iteration.  What is missing: giving up is not reported (C68). -/
theorem c134_flash_partial (o : Flash.Opts K) (n : ℕ) (P setP u : K) (psat : Option K × Option K) (r : Flash.Result K)
    (h : calcFlash o n P setP u psat = .ok r) :
    ∃ x y, ((r.x = x ∧ r.y = y) ∨ (r.x = y ∧ r.y = x)) ∧ (NearEqual o x y ∨ GaveUp o (o.maxiter - 1) x y) := by
  unfold calcFlash at h
  simp only [bind, Except.bind, throw, throwThe, MonadExceptOf.throw, pure, Except.pure] at h
  split at h
  · cases h
  · cases hc : constrainKi o.m o.M u (firstK P setP psat) with
    | error e => simp only [hc] at h; cases h
    | ok c =>
      simp only [hc] at h
      cases hk : finite c.1 with
      | error e => simp only [hk] at h; cases h
      | ok k =>
        simp only [hk] at h
        cases hl : Flash.loop o o.maxiter 0 ⟨k, 0, 0⟩ with
        | error e => simp only [hl] at h; cases h
        | ok t =>
          simp only [hl] at h
          cases h
          have := loop_nearEqual o _ _ _ _ hl (fit_constrain hc hk)
          rw [Nat.zero_add] at this
          refine ⟨t.x, t.y, ?_, this⟩
          unfold finish
          split
          · exact Or.inr ⟨rfl, rfl⟩
          · exact Or.inl ⟨rfl, rfl⟩

/-- A flash that converges, and what its phases are. -/
example : NearEqual { nearCritical with maxiter := 5 } ((1 / 3, 2 / 3) : Pair ℚ) (2 / 3, 1 / 3) :=
  ⟨_, (2, 1 / 2), rfl, rfl, by norm_num [nearCritical], by norm_num [nearCritical]⟩

/-- **C134** (flash of an ideal mixture). With the saturation pressures on both sides of the pressure and ratios of fugacity coefficients that are those of the law of
Raoult, the flash returns the compositions of the law of Raoult, with the flags of the phases and without error. -/
theorem c134_flash_raoult (o : Flash.Opts K) (P p1 p2 setP u : K) (fl fv : ℕ) (hP : 0 < P) (hp1 : 0 < p1) (hp2 : 0 < p2) (hne : p1 ≠ p2)
    (hm : o.m = 0) (hM : o.M = 1) (hu : 0 < u ∧ u < 1) (hr : ∀ i, 0 < o.rand i ∧ o.rand i < 1) (htol : 0 < o.tol) (hmax : 0 < o.maxiter)
    (hfug : ∀ x y, o.fug x y = .ok ⟨(.fin (p1 / P), .fin (p2 / P)), fl, fv⟩) (hfl : fl ≠ 0 ∧ fl ≠ 4) (hfv : fv ≠ 1)
    (hrange : (P ≤ p1 ∧ Flash.eps * P ≤ p2 ∧ p2 ≤ P) ∨ (p1 ≤ P ∧ P ≤ p2 ∧ p2 ≤ 100000000 * P))
    (hcrit : ¬ (|p1 / P - 1| < 1 / 1000000 ∧ |p2 / P - 1| < 1 / 1000000)) :
    ∃ r, calcFlash o 2 P setP u (some p1, some p2) = .ok r ∧ r.x = ((P - p2) / (p1 - p2), (p1 - P) / (p1 - p2)) ∧
      r.y = (p1 / P * r.x.1, p2 / P * r.x.2) ∧ r.flagl = fl ∧ r.flagv = fv ∧ r.err = 0 := by
  have k0 : 0 < p1 / P := div_pos hp1 hP
  have k1 : 0 < p2 / P := div_pos hp2 hP
  have kne : p1 / P ≠ p2 / P := fun h => hne ((div_left_inj' hP.ne').1 h)
  have hside : (1 ≤ p1 / P ∧ Flash.eps ≤ p2 / P ∧ p2 / P ≤ 1) ∨ (p1 / P ≤ 1 ∧ 1 ≤ p2 / P ∧ p2 / P ≤ 100000000) := by
    rcases hrange with ⟨a, b, c⟩ | ⟨a, b, c⟩
    · exact Or.inl ⟨(one_le_div hP).2 a, (le_div_iff₀ hP).2 b, (div_le_one hP).2 c⟩
    · exact Or.inr ⟨(div_le_one hP).2 a, (one_le_div hP).2 b, (div_le_iff₀ hP).2 c⟩
  have hcon : ∀ v, 0 < v ∧ v < 1 → constrainKi o.m o.M v (.fin (p1 / P), .fin (p2 / P)) = .ok ((.fin (p1 / P), .fin (p2 / P)), false) := by
    intro v hv
    rw [hm, hM]
    obtain ⟨a, c, b, h1, -, -, -, -, -, h2⟩ := c32_default v (p1 / P) (p2 / P) hv k0 kne
    obtain ⟨rfl, rfl, rfl⟩ := h2 hside
    exact h1
  have had : Admissible 0 1 (p1 / P) (p2 / P) := by
    refine admissible_default _ _ kne ?_
    rcases hside with ⟨a, -, c⟩ | ⟨a, b, -⟩
    · exact Or.inl ⟨a, k1.le, c⟩
    · exact Or.inr ⟨k0.le, a, b⟩
  set k : Pair K := (p1 / P, p2 / P) with hk
  have hrel : relChange k k = .ok 0 := by
    unfold relChange
    by_cases h : 0 < k.1 ∧ (k.1 ≤ k.2 ∨ ¬ 0 < k.2)
    · rw [if_pos h]; simp
    · rw [if_neg h, if_pos (show 0 < k.2 from k1)]; simp
  have hstep : ∀ i, Flash.step o i ⟨k, 0, 0⟩ =
      .ok (⟨liquidX k, vaporY k (liquidX k), fl, fv, 0, k, k⟩, ⟨k, 0, 0⟩, true) := by
    intro i
    have hc : ¬ (|p1 / P - 1| < 1 / 1000000 ∧ |p2 / P - 1| < 1 / 1000000 ∧ 0 < 2) := fun h => hcrit ⟨h.1, h.2.1⟩
    simp only [Flash.step, bind, Except.bind, throw, throwThe, MonadExceptOf.throw, pure, Except.pure, hk, kne, if_false, hfug,
      hcon _ (hr i), finite, sub_self, abs_zero, add_zero, Bool.false_eq_true, ne_eq, not_true_eq_false, hc, htol, if_true]
    rw [← hk, hrel]
    simp only [htol, if_true]
  have hloop : Flash.loop o o.maxiter 0 ⟨k, 0, 0⟩ = .ok ⟨liquidX k, vaporY k (liquidX k), fl, fv, 0, k, k⟩ := by
    obtain ⟨n, hn⟩ : ∃ n, o.maxiter = n + 1 := ⟨o.maxiter - 1, by omega⟩
    rw [hn]
    cases n with
    | zero => simp only [Flash.loop, bind, Except.bind, hstep, hrel, pure, Except.pure]
    | succ n => simp only [Flash.loop, bind, Except.bind, hstep, if_true, pure, Except.pure]
  have hfin : calcFlash o 2 P setP u (some p1, some p2) = .ok ⟨liquidX k, fl, vaporY k (liquidX k), fv, 0⟩ := by
    have hd : ∀ p : K, Ext.div (.fin p) (.fin P) = .fin (p / P) := fun p => by simp [Ext.div, hP.ne']
    simp only [calcFlash, bind, Except.bind, throw, throwThe, MonadExceptOf.throw, pure, Except.pure, ne_eq, not_true_eq_false, if_false,
      firstK, Option.getD_some, hd, hcon u hu, finite, ← hk, hloop, finish, switch, hfl.1, hfl.2, hfv, or_self, Bool.false_eq_true]
  have hd : p1 - p2 ≠ 0 := sub_ne_zero.2 hne
  have hkd : p1 / P - p2 / P ≠ 0 := sub_ne_zero.2 kne
  have hx1 : (1 - p2 / P) / (p1 / P - p2 / P) = (P - p2) / (p1 - p2) := by
    have hP' : P ≠ 0 := hP.ne'
    rw [div_eq_div_iff hkd hd]
    field_simp
  have hb := liquid_vapor k kne had
  obtain ⟨-, hx, -, e1, e2⟩ := hb
  refine ⟨_, hfin, ?_, Prod.ext e1 e2, rfl, rfl, rfl⟩
  have hl : (liquidX k).1 = (P - p2) / (p1 - p2) := by
    have h0 : 0 ≤ (1 - k.2) / (k.1 - k.2) := had.1.1
    have h1 : (1 - k.2) / (k.1 - k.2) ≤ 1 := had.1.2
    rw [← hx1]
    unfold liquidX
    rw [if_neg (not_lt.2 h0), if_neg (not_lt.2 (by linarith))]
  refine Prod.ext hl ?_
  have hs : (liquidX k).1 + (liquidX k).2 = 1 := hx.2.2.2.2
  show (liquidX k).2 = (p1 - P) / (p1 - p2)
  rw [eq_sub_of_add_eq' hs, hl]
  field_simp
  ring

/-- Flash of an ideal mixture with the saturation pressures 4000 and 1000 at the pressure `P`. -/
def raoultFlash (P : ℚ) (maxiter : ℕ) : Flash.Opts ℚ :=
  ⟨0, 1, 1 / 1000, maxiter, fun _ _ => .ok ⟨(.fin (4000 / P), .fin (1000 / P)), 1, 0⟩, fun _ => 1 / 2⟩

example : ∃ r, calcFlash (raoultFlash 2000 100) 2 2000 100000 (1 / 2) (some 4000, some 1000) = .ok r ∧
    r.x = (1 / 3, 2 / 3) ∧ r.y = (2 / 3, 1 / 3) ∧ r.err = 0 := by
  obtain ⟨r, h, hx, hy, -, -, he⟩ := c134_flash_raoult (raoultFlash 2000 100) 2000 4000 1000 100000 (1 / 2) 1 0 (by norm_num) (by norm_num)
    (by norm_num) (by norm_num) rfl rfl (by norm_num) (fun _ => by norm_num [raoultFlash]) (by norm_num [raoultFlash])
    (by norm_num [raoultFlash]) (fun _ _ => rfl) (by decide) (by decide)
    (Or.inl ⟨by norm_num, by norm_num [Flash.eps], by norm_num⟩) (by norm_num [abs_lt])
  refine ⟨r, h, by rw [hx]; norm_num, by rw [hy, hx]; norm_num, he⟩

/-- K-values both below one, the first the larger: the first is replaced, and this is not counted as a reset. -/
theorem constrain_both_below (v k0 k1 : K) (hv : 0 < v ∧ v < 1) (h1 : Flash.eps ≤ k1) (h01 : k1 < k0) (h0 : k0 < 1) :
    constrainKi 0 1 v (.fin k0, .fin k1) = .ok ((.fin (1 / Flash.eps), .fin k1), false) := by
  have he := eps_pos (K := K)
  have he1 := eps_lt_one (K := K)
  have hk0 : 0 < k0 := (he.trans_le h1).trans h01
  have hfix := fix_effective k0 k1 hk0 h01.ne'
  have hca : effective k0 k1 = 1 / Flash.eps := by rw [effective, if_pos h01, if_pos h0]
  rw [hca] at hfix
  have ha1 : (1 : K) ≤ 1 / Flash.eps := one_lt_inv_eps.le
  have hka : k1 < 1 / Flash.eps := (h01.trans h0).trans one_lt_inv_eps
  generalize (1 : K) / Flash.eps = a at *
  have hw := within_default_above a
  have hk1 : k1 ≤ 1 := (h01.trans h0).le
  obtain ⟨k', b, hres, -, huse, -⟩ := resetK1_spec v k1 Flash.eps 1 _ _ hv.1.le hv.2.le ⟨1, hw 1 ha1 he1.le (le_refl _)⟩
  obtain ⟨rfl, rfl⟩ := huse (hw k1 ha1 h1 hk1)
  refine constrain_run 0 1 v k0 k' Flash.eps 1 a k' false _ _ ⟨le_refl _, zero_le_one⟩ ⟨zero_le_one, le_refl _⟩ ?_ hfix ?_ hres hka.ne'
    (admissible_default a k' hka.ne' (Or.inl ⟨ha1, he.le.trans h1, hk1⟩))
  · simp [range0, lt_fin, h01]
  · simp [bounds, lt_fin, hka]

/-- **C134, C68 violated.** Above the saturation pressures of both components an ideal mixture is a liquid at every composition. If the first
component is the more volatile one, the flash nevertheless returns a liquid and a vapour and reports the error zero, for any number of iterations and
whatever the random numbers are: in each iteration the first K-value is replaced by the same large number, and the reported error is the change of the
K-values. The ratio of the mole fractions of the first component is that large number, while the ratio of its fugacity coefficients is less than one. -/
theorem c134_violated_flash_outside (o : Flash.Opts K) (P p1 p2 setP u : K) (hP : 0 < P) (h21 : p2 < p1) (h1P : p1 < P)
    (h2 : Flash.eps * P ≤ p2) (hm : o.m = 0) (hM : o.M = 1) (hu : 0 < u ∧ u < 1) (hr : ∀ i, 0 < o.rand i ∧ o.rand i < 1) (hmax : 0 < o.maxiter)
    (hfug : ∀ x y, o.fug x y = .ok ⟨(.fin (p1 / P), .fin (p2 / P)), 1, 0⟩) :
    ∃ r, calcFlash o 2 P setP u (some p1, some p2) = .ok r ∧ r.err = 0 ∧ r.flagl = 1 ∧ r.flagv = 0 ∧
      r.y.1 = 1 / Flash.eps * r.x.1 ∧ 0 < r.x.1 ∧ p1 / P < 1 ∧ (1 : K) < 1 / Flash.eps := by
  have he := eps_pos (K := K)
  have k1e : Flash.eps ≤ p2 / P := (le_div_iff₀ hP).2 h2
  have k10 : p2 / P < p1 / P := (div_lt_div_iff_of_pos_right hP).2 h21
  have k01 : p1 / P < 1 := (div_lt_one hP).2 h1P
  have kne : 1 / Flash.eps ≠ p2 / P := ((k10.trans k01).trans one_lt_inv_eps).ne'
  have hcon : ∀ v, 0 < v ∧ v < 1 → constrainKi o.m o.M v (.fin (p1 / P), .fin (p2 / P)) =
      .ok ((.fin (1 / Flash.eps), .fin (p2 / P)), false) := by
    intro v hv
    rw [hm, hM]
    exact constrain_both_below v _ _ hv k1e k10 k01
  have had : Admissible 0 1 (1 / Flash.eps) (p2 / P) :=
    admissible_default _ _ kne (Or.inl ⟨one_lt_inv_eps.le, he.le.trans k1e, (k10.trans k01).le⟩)
  have k0ne : p1 / P ≠ 1 / Flash.eps := (k01.trans one_lt_inv_eps).ne
  set k : Pair K := (1 / Flash.eps, p2 / P) with hk
  have hrel : relChange k k = .ok 0 := by
    have hpos : 0 < k.2 := he.trans_le k1e
    unfold relChange
    by_cases h : 0 < k.1 ∧ (k.1 ≤ k.2 ∨ ¬ 0 < k.2)
    · rw [if_pos h]; simp
    · rw [if_neg h, if_pos hpos]; simp
  have hstep : ∀ i, Flash.step o i ⟨k, 0, 0⟩ =
      .ok (⟨liquidX k, vaporY k (liquidX k), 1, 0, |p1 / P - k.1| + |p2 / P - k.2|, k, k⟩, ⟨k, 0, 0⟩, false) := by
    intro i
    have hkk : ((p1 / P, p2 / P) : Pair K) ≠ k := fun h => k0ne (congrArg Prod.fst h)
    simp only [Flash.step, bind, Except.bind, throw, throwThe, MonadExceptOf.throw, pure, Except.pure, hk, kne, if_false, hfug,
      hcon _ (hr i), finite, Bool.false_eq_true, ne_eq]
    rw [← hk]
    simp only [hkk, not_false_eq_true, if_true]
    rfl
  have hloop : ∀ n i, Flash.loop o (n + 1) i ⟨k, 0, 0⟩ = .ok ⟨liquidX k, vaporY k (liquidX k), 1, 0, 0, k, k⟩ := by
    intro n
    induction n with
    | zero => intro i; simp only [Flash.loop, bind, Except.bind, hstep, hrel, pure, Except.pure]
    | succ n ih => intro i; simp only [Flash.loop, bind, Except.bind, hstep, Bool.false_eq_true, if_false]; exact ih _
  obtain ⟨n, hn⟩ : ∃ n, o.maxiter = n + 1 := ⟨o.maxiter - 1, by omega⟩
  have hfin : calcFlash o 2 P setP u (some p1, some p2) = .ok ⟨liquidX k, 1, vaporY k (liquidX k), 0, 0⟩ := by
    have hd : ∀ p : K, Ext.div (.fin p) (.fin P) = .fin (p / P) := fun p => by simp [Ext.div, hP.ne']
    simp only [calcFlash, bind, Except.bind, throw, throwThe, MonadExceptOf.throw, pure, Except.pure, ne_eq, not_true_eq_false, if_false,
      firstK, Option.getD_some, hd, hcon u hu, finite, ← hk, hn, hloop, finish, switch]
    simp
  obtain ⟨-, hx, -, e1, -⟩ := liquid_vapor k kne had
  refine ⟨_, hfin, rfl, rfl, rfl, e1, ?_, k01, one_lt_inv_eps⟩
  have h0 : 0 ≤ (1 - k.2) / (k.1 - k.2) := had.1.1
  have h1 : (1 - k.2) / (k.1 - k.2) ≤ 1 := had.1.2
  have hl : (liquidX k).1 = (1 - k.2) / (k.1 - k.2) := by
    unfold liquidX
    rw [if_neg (not_lt.2 h0), if_neg (not_lt.2 (by linarith))]
  show 0 < (liquidX k).1
  rw [hl]
  exact div_pos (sub_pos.2 (k10.trans k01)) (sub_pos.2 ((k10.trans k01).trans one_lt_inv_eps))

example : ∃ r, calcFlash (raoultFlash 5000 100) 2 5000 100000 (1 / 2) (some 4000, some 1000) = .ok r ∧ r.err = 0 ∧
    1000000 * r.x.1 < r.y.1 := by
  obtain ⟨r, h, he, -, -, hy, hx, -⟩ := c134_violated_flash_outside (raoultFlash 5000 100) 5000 4000 1000 100000 (1 / 2) (by norm_num)
    (by norm_num) (by norm_num) (by norm_num [Flash.eps]) rfl rfl (by norm_num) (fun _ => by norm_num [raoultFlash])
    (by norm_num [raoultFlash]) (fun _ _ => rfl)
  refine ⟨r, h, he, ?_⟩
  rw [hy]
  exact mul_lt_mul_of_pos_right (by norm_num [Flash.eps]) hx

end Verif.Props
