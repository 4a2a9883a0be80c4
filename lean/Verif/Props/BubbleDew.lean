import Verif.Model.BubbleDew
import Mathlib.Tactic.NormNum
import Mathlib.Tactic.Linarith
import Mathlib.Tactic.SplitIfs

/-!
# C35, C36, C38, C72: bubble and dew points in a batch
-/

namespace Verif.Props
open Verif Verif.Parallel Verif.CalcTypes Verif.BubbleDew

/-- The steps of a successful calculation. -/
theorem calcPoint_ok (env : Env) (ra : Num → List ℚ → List ℚ → Comp) (Pset : ℚ) (m : String)
    (pg : Option ℚ) (T : ℚ) (z : List ℚ) (st st' : State) (r : Result)
    (h : calcPoint env ra Pset m pg T z st = (.ok r, st')) :
    ∃ ps lo hi est a g g', psats env T Pset z.length = .ok ps ∧
      r.start = startGuess st.glob (ra (firstP pg z ps) z ps) ∧
      env.prange T z r.start st.tol = (.ok (some lo, some hi, est), a) ∧
      runSolver (objective env T z st.tol) (env.solver m (startP pg lo hi est) lo hi)
        (a.or (some r.start)) = (.ok r.P, g) ∧
      env.flagGiven T z r.P = .ok r.flagGiven ∧ env.flagSought T r.start r.P = .ok r.flagSought ∧
      objective env T z (tightenTol st.tol) r.P g = (.ok r.obj, g') ∧ r.final = g'.getD [] ∧
      st' = { st with glob := g', tol := tightenTol st.tol } := by
  unfold calcPoint at h
  cases hps : psats env T Pset z.length with
  | error e => simp only [hps] at h; cases h
  | ok ps =>
    simp only [hps] at h
    generalize hs : startGuess st.glob (ra (firstP pg z ps) z ps) = start at h
    match hpr : env.prange T z start st.tol with
    | (.error e, a) => simp only [hpr] at h; cases h
    | (.ok (none, x, y), a) => simp only [hpr] at h; cases h
    | (.ok (some lo, none, y), a) => simp only [hpr] at h; cases h
    | (.ok (some lo, some hi, est), a) =>
      simp only [hpr] at h
      match hso : runSolver (objective env T z st.tol) (env.solver m (startP pg lo hi est) lo hi)
          (a.or (some start)) with
      | (.error e, g) => simp only [hso] at h; cases h
      | (.ok P, g) =>
        simp only [hso] at h
        cases hfg : env.flagGiven T z P with
        | error e => simp only [hfg] at h; cases h
        | ok fg =>
          simp only [hfg] at h
          cases hfs : env.flagSought T start P with
          | error e => simp only [hfs] at h; cases h
          | ok fs =>
            simp only [hfs] at h
            match hob : objective env T z (tightenTol st.tol) P g with
            | (.error e, g') => simp only [hob] at h; cases h
            | (.ok obj, g') =>
              simp only [hob] at h
              cases h
              exact ⟨ps, lo, hi, est, a, g, g', rfl, hs.symm, hpr, hso, hfg,
                hfs, hob, rfl, rfl⟩

/-- What one evaluation of the objective at a non-negative pressure does. -/
theorem objective_ok (env : Env) (T : ℚ) (z : List ℚ) (tol : Option ℚ) (P : ℚ) (g g' : Option Comp)
    (v : Num) (hP : 0 ≤ P) (h : objective env T z tol P g = (.ok v, g')) :
    ∃ guess new a, g = some guess ∧ env.inner T z guess tol P = (.ok new, a) ∧
      env.objAt T z (normalise new) P = .ok v ∧ g' = some (normalise new) := by
  unfold objective at h
  rw [if_neg (not_lt.mpr hP)] at h
  cases g with
  | none => cases h
  | some guess =>
    match hi : env.inner T z guess tol P with
    | (.error e, a) => simp only [hi] at h; cases h
    | (.ok new, a) =>
      simp only [hi] at h
      have h1 := congrArg Prod.fst h
      have h2 := congrArg Prod.snd h
      exact ⟨guess, new, a, rfl, hi, h1, h2.symm⟩

/-! ## C72: the composition that is returned -/

/-- **C72, bubble point.**  The composition returned with a bubble pressure is the normalised result
of the inner loop at that pressure, and the returned objective value is the one at that pressure and
composition. -/
theorem c72_bubble (env : Env) (Pset : ℚ) (m : String) (pg : Option ℚ) (T : ℚ) (z : List ℚ)
    (st st' : State) (r : Result)
    (h : calcPoint env raoultVapor Pset m pg T z st = (.ok r, st')) (hP : 0 ≤ r.P) :
    ∃ guess tol new a, env.inner T z guess tol r.P = (.ok new, a) ∧ bubbleComp r = normalise new ∧
      env.objAt T z (bubbleComp r) r.P = .ok r.obj := by
  obtain ⟨ps, lo, hi, est, a, g, g', -, -, -, -, -, -, hob, hfin, -⟩ :=
    calcPoint_ok _ _ _ _ _ _ _ _ _ _ h
  obtain ⟨guess, new, a', -, hin, hv, hg'⟩ := objective_ok _ _ _ _ _ _ _ _ hP hob
  subst hg'
  refine ⟨guess, _, new, a', hin, ?_, ?_⟩
  · rw [bubbleComp, hfin]; rfl
  · rw [bubbleComp, hfin]; exact hv

/-- **C72 is violated by the dew point.**  Whatever the mixture, the temperature, the thermodynamic
model and the solver: if an earlier calculation in the process has left a composition, that
composition is what the dew-point calculation returns. -/
theorem c72_violated_dew (env : Env) (Pset : ℚ) (m : String) (pg : Option ℚ) (T : ℚ) (z : List ℚ)
    (st st' : State) (r : Result) (c : Comp)
    (h : calcPoint env raoultLiquid Pset m pg T z st = (.ok r, st'))
    (hg : st.glob = some c) (hc : ∀ a ∈ c, a ≠ none) : dewComp r = c := by
  obtain ⟨ps, lo, hi, est, a, g, g', -, hs, -⟩ := calcPoint_ok _ _ _ _ _ _ _ _ _ _ h
  have hany : c.any Option.isNone = false := by
    rw [List.any_eq_false]
    intro x hx
    have := hc x hx
    cases x with
    | none => exact absurd rfl this
    | some v => simp
  rw [dewComp, hs, hg, startGuess, if_neg (by rw [hany]; decide)]

/-- In a fresh process the dew-point calculation returns the ideal (Raoult) estimate it started
from, not the solution. -/
theorem c72_violated_dew_fresh (env : Env) (Pset : ℚ) (m : String) (T : ℚ) (z : List ℚ)
    (st st' : State) (r : Result)
    (h : calcPoint env raoultLiquid Pset m none T z st = (.ok r, st')) (hg : st.glob = none) :
    ∃ ps, psats env T Pset z.length = .ok ps ∧ dewComp r = raoultLiquid (initialP z ps) z ps := by
  obtain ⟨ps, lo, hi, est, a, g, g', hps, hs, -⟩ := calcPoint_ok _ _ _ _ _ _ _ _ _ _ h
  refine ⟨ps, hps, ?_⟩
  rw [dewComp, hs, hg, startGuess, firstP]

/-- **C72 is violated for the phase flag of the sought phase**, of the bubble and of the dew point:
it is evaluated at the guess the calculation started from. -/
theorem c72_violated_flag (env : Env) (ra : Num → List ℚ → List ℚ → Comp) (Pset : ℚ) (m : String)
    (pg : Option ℚ) (T : ℚ) (z : List ℚ) (st st' : State) (r : Result)
    (h : calcPoint env ra Pset m pg T z st = (.ok r, st')) :
    env.flagSought T r.start r.P = .ok r.flagSought := by
  obtain ⟨ps, lo, hi, est, a, g, g', -, -, -, -, -, hfs, -⟩ := calcPoint_ok _ _ _ _ _ _ _ _ _ _ h
  exact hfs

/-- A model mixture for the examples: the sought composition is the given one in reverse order, the
objective is the deviation from 1 Pa, the root finder evaluates it once. -/
def mirrorEnv : Env where
  psat := fun _ _ => .ok (some 1)
  prange := fun _ _ _ _ => (.ok (some 0, some 2, some 1), none)
  inner := fun _ z _ _ _ => (.ok (z.reverse.map some), none)
  objAt := fun _ _ _ P => .ok (some (P - 1))
  flagGiven := fun _ _ _ => .ok (some 0)
  flagSought := fun _ c _ => .ok (c.head?.getD none)
  solver := fun m _ _ _ => .ask 1 (fun _ => .done (if m = "brentq" then 1 else 1 + 1 / 2))

/-- Two dew points in a fresh process: the first returns its starting guess, the second returns the
solution of the first. -/
theorem c72_violated_dew_witness :
    (runBatch (dewJob mirrorEnv {}) [⟨300, [1/4, 3/4], none⟩, ⟨300, [1/3, 2/3], none⟩]
      ⟨none, none, none⟩).1.map (fun row => row[1]?) =
    [some (.vec [some (1/4), some (3/4)]), some (.vec [some (3/4), some (1/4)])] ∧
    (runBatch (bubbleJob mirrorEnv {}) [⟨300, [1/4, 3/4], none⟩, ⟨300, [1/3, 2/3], none⟩]
      ⟨none, none, none⟩).1.map (fun row => row[1]?) =
    [some (.vec [some (3/4), some (1/4)]), some (.vec [some (2/3), some (1/3)])] := by
  decide +kernel

/-! ## C38: history -/

/-- The numerical procedures give an answer that does not depend on where they start. -/
def GuessFree (env : Env) : Prop :=
  ∀ T z g g' tol, env.prange T z g tol = env.prange T z g' tol ∧
    ∀ P, env.inner T z g tol P = env.inner T z g' tol P

theorem objective_guessFree (env : Env) (hf : GuessFree env) (T : ℚ) (z : List ℚ) (tol : Option ℚ)
    (P : ℚ) (c c' : Comp) :
    (objective env T z tol P (some c)).1 = (objective env T z tol P (some c')).1 ∧
    (∃ d d', (objective env T z tol P (some c)).2 = some d ∧
      (objective env T z tol P (some c')).2 = some d') ∧
    (0 ≤ P → ∀ v, (objective env T z tol P (some c)).1 = .ok v →
      (objective env T z tol P (some c)).2 = (objective env T z tol P (some c')).2) := by
  unfold objective
  by_cases hP : P < 0
  · simp only [if_pos hP]
    exact ⟨trivial, ⟨c, c', rfl, rfl⟩, fun h => absurd hP (not_lt.mpr h)⟩
  · simp only [if_neg hP]
    rw [(hf T z c c' tol).2 P]
    match env.inner T z c' tol P with
    | (.error e, a) =>
      refine ⟨rfl, ?_, fun _ v hv => by cases hv⟩
      cases a with
      | none => exact ⟨c, c', rfl, rfl⟩
      | some d => exact ⟨d, d, rfl, rfl⟩
    | (.ok new, a) => exact ⟨rfl, ⟨_, _, rfl, rfl⟩, fun _ _ _ => rfl⟩

theorem runSolver_guessFree (env : Env) (hf : GuessFree env) (T : ℚ) (z : List ℚ) (tol : Option ℚ)
    (s : Solver) (c c' : Comp) :
    (runSolver (objective env T z tol) s (some c)).1 =
      (runSolver (objective env T z tol) s (some c')).1 ∧
    ∃ d d', (runSolver (objective env T z tol) s (some c)).2 = some d ∧
      (runSolver (objective env T z tol) s (some c')).2 = some d' := by
  induction s generalizing c c' with
  | done P => exact ⟨rfl, c, c', rfl, rfl⟩
  | fail e => exact ⟨rfl, c, c', rfl, rfl⟩
  | ask P next ih =>
    unfold runSolver
    obtain ⟨h1, ⟨d, d', h2, h3⟩, -⟩ := objective_guessFree env hf T z tol P c c'
    match he : objective env T z tol P (some c), he' : objective env T z tol P (some c') with
    | (.error e, g), (.error e', g') =>
      rw [he, he'] at h1
      rw [he] at h2
      rw [he'] at h3
      simp only at h1 h2 h3 ⊢
      exact ⟨by cases h1; rfl, d, d', h2, h3⟩
    | (.error e, g), (.ok v, g') => rw [he, he'] at h1; cases h1
    | (.ok v, g), (.error e, g') => rw [he, he'] at h1; cases h1
    | (.ok v, g), (.ok v', g') =>
      rw [he, he'] at h1
      rw [he] at h2
      rw [he'] at h3
      simp only at h1 h2 h3 ⊢
      cases h1
      subst h2; subst h3
      exact ih v d d'

/-- **C38, what holds.**  If the inner loop and the search of the pressure range do not depend on
where they start, then pressure, solved composition, objective and the flag of the given phase do
not depend on what was calculated before.  (The flag of the sought phase still does, see
`c72_violated_flag`, and so does the composition returned by a dew point.) -/
theorem c38_partial (env : Env) (hf : GuessFree env) (ra : Num → List ℚ → List ℚ → Comp) (Pset : ℚ)
    (m : String) (pg : Option ℚ) (T : ℚ) (z : List ℚ) (st₁ st₂ s₁ s₂ : State) (r₁ r₂ : Result)
    (htol : st₁.tol = st₂.tol)
    (h₁ : calcPoint env ra Pset m pg T z st₁ = (.ok r₁, s₁))
    (h₂ : calcPoint env ra Pset m pg T z st₂ = (.ok r₂, s₂)) (hP : 0 ≤ r₁.P) :
    r₁.P = r₂.P ∧ r₁.final = r₂.final ∧ r₁.obj = r₂.obj ∧ r₁.flagGiven = r₂.flagGiven := by
  obtain ⟨ps, lo, hi, est, a, g, g', hps, hs, hpr, hso, hfg, hfs, hob, hfin, -⟩ :=
    calcPoint_ok _ _ _ _ _ _ _ _ _ _ h₁
  obtain ⟨ps', lo', hi', est', a', k, k', hps', hs', hpr', hso', hfg', hfs', hob', hfin',
    -⟩ := calcPoint_ok _ _ _ _ _ _ _ _ _ _ h₂
  rw [← htol] at hpr' hso' hob'
  rw [(hf T z r₁.start r₂.start st₁.tol).1, hpr'] at hpr
  cases hpr
  have hor : ∀ x : Comp, ∃ d, a.or (some x) = some d := by
    intro x; cases a with
    | none => exact ⟨x, rfl⟩
    | some d => exact ⟨d, rfl⟩
  obtain ⟨c, hc⟩ := hor r₁.start
  obtain ⟨c', hc'⟩ := hor r₂.start
  rw [hc] at hso
  rw [hc'] at hso'
  obtain ⟨e1, d, d', e2, e3⟩ := runSolver_guessFree env hf T z st₁.tol
    (env.solver m (startP pg lo hi est) lo hi) c c'
  rw [hso, hso'] at e1
  rw [hso] at e2
  rw [hso'] at e3
  simp only at e1 e2 e3
  have hPP : r₁.P = r₂.P := Except.ok.inj e1
  subst e2; subst e3
  obtain ⟨o1, -, o3⟩ := objective_guessFree env hf T z (tightenTol st₁.tol) r₁.P d d'
  have o4 := o3 hP r₁.obj (by rw [hob])
  rw [hPP] at o1 o4 hob hfg
  rw [hob, hob'] at o1 o4
  simp only at o1 o4
  refine ⟨hPP, ?_, Except.ok.inj o1, ?_⟩
  · rw [hfin, hfin', o4]
  · rw [hfg] at hfg'; exact Except.ok.inj hfg'

/-- A mixture with two solutions for the sought composition: the inner loop finds the one closer to
its guess, and the pressure is found where the objective vanishes for that composition. -/
def twoSolutions : Env where
  psat := fun _ z => .ok (some (if z.head? = some 1 then 3 else 1))
  prange := fun _ _ _ _ => (.ok (some 0, some 2, some 1), none)
  inner := fun _ _ g _ _ => (.ok (match g with
    | some a :: _ => if a < 1 / 2 then [some (1/4), some (3/4)] else [some (3/4), some (1/4)]
    | _ => [none, none]), none)
  objAt := fun _ _ c P => .ok (c.head?.join.map fun a => P - a)
  flagGiven := fun _ _ _ => .ok (some 1)
  flagSought := fun _ _ _ => .ok (some 0)
  solver := fun _ _ _ _ => .ask 1 (fun v => .done (1 - v.getD 0))

/-- Non-vacuity of `c38_partial`. -/
example : GuessFree mirrorEnv := fun _ _ _ _ _ => ⟨rfl, fun _ => rfl⟩

/-- **C38 is violated.**  The same bubble point gives another pressure and composition when another
bubble point has been calculated before. -/
theorem c38_violated :
    ∃ env : Env, ∃ p q : Point, ∃ st : State, st.glob = none ∧
      (bubbleJob env {} p st).1 ≠ (bubbleJob env {} p (bubbleJob env {} q st).2).1 ∧
      (bubbleJob env {} p st).1 =
        [.scal (some (1/4)), .vec [some (1/4), some (3/4)], .scal (some 0), .scal (some 1),
          .scal (some 0)] ∧
      (bubbleJob env {} p (bubbleJob env {} q st).2).1 =
        [.scal (some (3/4)), .vec [some (3/4), some (1/4)], .scal (some 0), .scal (some 1),
          .scal (some 0)] :=
  ⟨twoSolutions, ⟨300, [1/10, 9/10], none⟩, ⟨300, [9/10, 1/10], none⟩, ⟨none, none, none⟩, rfl,
    by decide +kernel, by decide +kernel, by decide +kernel⟩

/-- A mixture of any number of components whose inner loop needs a guess of the right length, as
array arithmetic does. -/
def shapeEnv : Env where
  psat := fun _ _ => .ok (some 1)
  prange := fun _ _ _ _ => (.ok (some 0, some 2, some 1), none)
  inner := fun _ z g _ _ =>
    (if g.length = z.length then .ok (z.map some) else .error .valueError, none)
  objAt := fun _ _ _ P => .ok (some (P - 1))
  flagGiven := fun _ _ _ => .ok (some 1)
  flagSought := fun _ _ _ => .ok (some 0)
  solver := fun _ _ _ _ => .ask 1 (fun _ => .done 1)

/-- **C38 is violated across mixtures**: after a binary mixture, a ternary mixture fails although it
succeeds in a fresh process. -/
theorem c38_violated_components :
    let p : Point := ⟨300, [1/3, 1/3, 1/3], none⟩
    let q : Point := ⟨300, [1/2, 1/2], none⟩
    (bubbleJob shapeEnv {} p ⟨none, none, none⟩).1.head? = some (.scal (some 1)) ∧
    (bubbleJob shapeEnv {} p (bubbleJob shapeEnv {} q ⟨none, none, none⟩).2).1 =
      [.scal none, .vec [none, none, none], .scal (some 3), .scal (some 3), .scal none] := by
  decide +kernel

/-! ## C36: options -/

/-- A mixture point: not exactly one component present. -/
def Point.IsMixture (p : Point) : Prop := (p.given.filter (· ≠ 0)).length ≠ 1

theorem pointJob_pmethod (env : Env) (ra : Num → List ℚ → List ℚ → Comp) (pick : Result → Comp)
    (fl : Num → Num → List (Cell Num)) (o : Opts) (p : Point) (st : State)
    (hp : Point.IsMixture p) : (pointJob env ra pick fl o p st).2.pmethod = none := by
  have hcalc : ∀ m st, (calcPoint env ra o.Pset m p.Pguess p.T p.given st).2.pmethod = st.pmethod := by
    intro m st
    unfold calcPoint
    cases psats env p.T o.Pset p.given.length with
    | error e => rfl
    | ok ps =>
      simp only
      generalize startGuess st.glob _ = start
      match env.prange p.T p.given start st.tol with
      | (.error e, a) => rfl
      | (.ok (none, x, y), a) => rfl
      | (.ok (some lo, none, y), a) => rfl
      | (.ok (some lo, some hi, est), a) =>
        simp only
        match runSolver (objective env p.T p.given st.tol)
          (env.solver m (startP p.Pguess lo hi est) lo hi) (a.or (some start)) with
        | (.error e, g) => rfl
        | (.ok P, g) =>
          simp only
          cases env.flagGiven p.T p.given P with
          | error e => rfl
          | ok fg =>
            simp only
            cases env.flagSought p.T start P with
            | error e => rfl
            | ok fs =>
              simp only
              match objective env p.T p.given (tightenTol st.tol) P g with
              | (.error e, g') => rfl
              | (.ok obj, g') => rfl
  have htake : (takeMethod o st).2.pmethod = none := by
    unfold takeMethod
    cases h : st.pmethod with
    | some m => rfl
    | none => exact h
  unfold pointJob
  have hp' : ¬ (nonzero p.given).length = 1 := hp
  simp only [if_neg hp']
  have := hcalc (takeMethod o st).1 (takeMethod o st).2
  rw [htake] at this
  match hc : calcPoint env ra o.Pset (takeMethod o st).1 p.Pguess p.T p.given (takeMethod o st).2 with
  | (.ok r, s2) => rw [hc] at this; simpa [hc] using this
  | (.error e, s2) => rw [hc] at this; simpa [hc] using this

/-- **C36 is violated: only the first mixture of a serial batch sees the selected method.**  After
any mixture point the method is gone from the shared options, so that the next point is run exactly as
if the user had not selected one. -/
theorem c36_violated_forgotten (env : Env) (o : Opts) (p q : Point) (st : State)
    (hp : Point.IsMixture p) :
    bubbleJob env o q (bubbleJob env o p st).2 =
      bubbleJob env o q { (bubbleJob env o p st).2 with pmethod := none } ∧
    dewJob env o q (dewJob env o p st).2 =
      dewJob env o q { (dewJob env o p st).2 with pmethod := none } := by
  constructor
  · have := pointJob_pmethod env raoultVapor bubbleComp (fun fs fg => [.scal fs, .scal fg]) o p st hp
    unfold bubbleJob
    rw [← this]
  · have := pointJob_pmethod env raoultLiquid dewComp (fun fs fg => [.scal fg, .scal fs]) o p st hp
    unfold dewJob
    rw [← this]

/-- The same point twice, with a selected method, in serial: two different results; and a pool that
hands out the points one by one gives yet another answer for the second. -/
theorem c36_violated_method :
    ∃ env : Env, ∃ p : Point, ∃ st : State, st.pmethod = some "brentq" ∧
      (runBatch (bubbleJob env {}) [p, p] st).1.map List.head? =
        [some (.scal (some 1)), some (.scal (some (3/2)))] ∧
      (runPool (bubbleJob env {}) 1 [p, p] st (fun _ => none)).flatten.map List.head? =
        [some (.scal (some 1)), some (.scal (some 1))] :=
  ⟨mirrorEnv, ⟨300, [1/4, 3/4], none⟩, ⟨none, none, some "brentq"⟩, rfl, by decide +kernel,
    by decide +kernel⟩

/-- Two environments that differ at most in what they do for methods other than `m`. -/
def AgreeOn (m : String) (e e' : Env) : Prop :=
  e'.psat = e.psat ∧ e'.prange = e.prange ∧ e'.inner = e.inner ∧ e'.objAt = e.objAt ∧
    e'.flagGiven = e.flagGiven ∧ e'.flagSought = e.flagSought ∧ e'.solver m = e.solver m

theorem objective_agree {m : String} {e e' : Env} (h : AgreeOn m e e') (T : ℚ) (z : List ℚ)
    (tol : Option ℚ) : objective e' T z tol = objective e T z tol := by
  obtain ⟨h1, h2, h3, h4, h5, h6, h7⟩ := h
  funext P g
  unfold objective
  rw [h3, h4]

theorem calcPoint_agree {m : String} {e e' : Env} (h : AgreeOn m e e')
    (ra : Num → List ℚ → List ℚ → Comp) (Pset : ℚ) (pg : Option ℚ) (T : ℚ) (z : List ℚ) :
    calcPoint e' ra Pset m pg T z = calcPoint e ra Pset m pg T z := by
  have ho := objective_agree h T z
  obtain ⟨h1, h2, h3, h4, h5, h6, h7⟩ := h
  funext st
  unfold calcPoint psats
  simp only [h1, h2, h5, h6, h7, ho]

theorem pointJob_agree {m : String} {e e' : Env} (h : AgreeOn m e e')
    (ra : Num → List ℚ → List ℚ → Comp) (pick : Result → Comp)
    (fl : Num → Num → List (Cell Num)) (o : Opts) (p : Point) (st : State)
    (hm : (takeMethod o st).1 = m) :
    pointJob e' ra pick fl o p st = pointJob e ra pick fl o p st := by
  have hc := calcPoint_agree h ra o.Pset p.Pguess p.T p.given
  unfold pointJob
  rw [h.1]
  simp only [hm, hc]

/-- **C36, what holds (a).**  A method given directly as the option `method`, not inside the pressure
options, is used for every point of a serial batch: the result does not depend on what any other
method would do. -/
theorem c36_direct_partial (e e' : Env) (o : Opts) (h : AgreeOn o.method e e') (pts : List Point)
    (st : State) (hst : st.pmethod = none) :
    runBatch (bubbleJob e' o) pts st = runBatch (bubbleJob e o) pts st ∧
    runBatch (dewJob e' o) pts st = runBatch (dewJob e o) pts st := by
  have key : ∀ (ra : Num → List ℚ → List ℚ → Comp) (pick : Result → Comp)
      (fl : Num → Num → List (Cell Num)) (pts : List Point) (st : State), st.pmethod = none →
      runBatch (pointJob e' ra pick fl o) pts st = runBatch (pointJob e ra pick fl o) pts st := by
    intro ra pick fl pts
    induction pts with
    | nil => intro st _; rfl
    | cons p ps ih =>
      intro st hst
      have htm : (takeMethod o st).1 = o.method := by simp [takeMethod, hst]
      have hnext : (pointJob e ra pick fl o p st).2.pmethod = none := by
        by_cases hp : Point.IsMixture p
        · exact pointJob_pmethod e ra pick fl o p st hp
        · have hp' : (nonzero p.given).length = 1 := not_not.mp hp
          unfold pointJob
          simp only [if_pos hp']
          cases e.psat p.T p.given <;> exact hst
      simp only [runBatch, pointJob_agree h ra pick fl o p st htm, ih _ hnext]
  exact ⟨key _ _ _ pts st hst, key _ _ _ pts st hst⟩

/-- **C36, what holds (b).**  A pool that hands out points one by one applies the method selected in
the pressure options to every point. -/
theorem c36_pool_partial (e e' : Env) (o : Opts) (m : String) (h : AgreeOn m e e') (pts : List Point)
    (st : State) (hst : st.pmethod = some m) (globs : Nat → Option Comp) :
    runPool (bubbleJob e' o) 1 pts st globs = runPool (bubbleJob e o) 1 pts st globs ∧
    runPool (dewJob e' o) 1 pts st globs = runPool (dewJob e o) 1 pts st globs := by
  have key : ∀ (ra : Num → List ℚ → List ℚ → Comp) (pick : Result → Comp)
      (fl : Num → Num → List (Cell Num)),
      runPool (pointJob e' ra pick fl o) 1 pts st globs =
        runPool (pointJob e ra pick fl o) 1 pts st globs := by
    intro ra pick fl
    unfold runPool
    apply List.map_congr_left
    intro i _
    have hlen : (chunkAt 1 pts i).length ≤ 1 := by simp [chunkAt]
    match hch : chunkAt 1 pts i, hlen with
    | [], _ => rfl
    | [p], _ =>
      have htm : (takeMethod o { st with glob := globs i }).1 = m := by simp [takeMethod, hst]
      simp only [runBatch, pointJob_agree h ra pick fl o p _ htm]
    | _ :: _ :: _, hl => simp at hl
  exact ⟨key _ _ _, key _ _ _⟩

theorem runBatch_length (job : Point → State → Out × State) (pts : List Point) (st : State) :
    (runBatch job pts st).1.length = pts.length := by
  induction pts generalizing st with
  | nil => rfl
  | cons p ps ih => simp [runBatch, ih]

/-- **C36, the chunks of a pool.**  No chunk is empty or larger than asked for, together they have one result for every
point, and the results of chunk `i` are those of a serial batch of its points, with the options as they were at the start. -/
theorem c36_pool_chunks (job : Point → State → Out × State) (c : Nat) (hc : 0 < c) (pts : List Point) (st : State)
    (globs : Nat → Option Comp) :
    (∀ r ∈ runPool job c pts st globs, 0 < r.length ∧ r.length ≤ c) ∧
    ((runPool job c pts st globs).map List.length).sum = pts.length ∧
    ∀ (i : Nat) (r : List Out), (runPool job c pts st globs)[i]? = some r →
      r = (runBatch job ((pts.drop (i * c)).take c) { st with glob := globs i }).1 := by
  have hdiv : ∀ i, i < (pts.length + c - 1) / c → i * c < pts.length := by
    intro i hi
    have := (Nat.lt_div_iff_mul_lt hc).mp hi
    omega
  refine ⟨?_, ?_, ?_⟩
  · intro r hr
    simp only [runPool, numChunks, List.mem_map, List.mem_range] at hr
    obtain ⟨i, hi, rfl⟩ := hr
    have := hdiv i hi
    rw [runBatch_length, chunkAt, List.length_take, List.length_drop]
    omega
  · have hsum : ∀ m, m * c ≤ pts.length + c - 1 →
        ((List.range m).map fun i => min c (pts.length - i * c)).sum = min (m * c) pts.length := by
      intro m
      induction m with
      | zero => intro _; simp
      | succ m ih =>
        intro h
        have h' : m * c ≤ pts.length + c - 1 := by
          rw [Nat.add_mul, one_mul] at h; omega
        rw [List.range_succ, List.map_append, List.sum_append, ih h']
        simp only [List.map_cons, List.map_nil, List.sum_cons, List.sum_nil]
        rw [Nat.add_mul, one_mul] at h ⊢
        omega
    have hcov : pts.length ≤ (pts.length + c - 1) / c * c := by
      have := Nat.div_add_mod' (pts.length + c - 1) c
      have := Nat.mod_lt (pts.length + c - 1) hc
      omega
    have := hsum ((pts.length + c - 1) / c) (Nat.div_mul_le_self _ _)
    rw [min_eq_right hcov] at this
    rw [← this]
    congr 1
    simp only [runPool, numChunks, List.map_map]
    apply List.map_congr_left
    intro i _
    simp [runBatch_length, chunkAt]
  · intro i r hr
    simp only [runPool, List.getElem?_map, Option.map_eq_some_iff] at hr
    obtain ⟨j, hj, rfl⟩ := hr
    obtain ⟨hj1, rfl⟩ := List.getElem?_eq_some_iff.mp hj
    simp [chunkAt]

/-- Non-vacuity. -/
example : AgreeOn "brentq" mirrorEnv { mirrorEnv with
    solver := fun _ _ _ _ => .ask 1 (fun _ => .done 1) } :=
  ⟨rfl, rfl, rfl, rfl, rfl, rfl, rfl⟩

/-- **C36 is violated for the tolerance of the inner loop**: a successful point changes the tolerance
that the user chose for all later points of the batch. -/
theorem c36_violated_tol (env : Env) (ra : Num → List ℚ → List ℚ → Comp) (Pset : ℚ) (m : String)
    (pg : Option ℚ) (T : ℚ) (z : List ℚ) (st st' : State) (r : Result) (t : ℚ)
    (h : calcPoint env ra Pset m pg T z st = (.ok r, st')) (ht : st.tol = some t)
    (hbig : t > 1 / 10 ^ 10) : st'.tol = some (1 / 10 ^ 10) ∧ st'.tol ≠ st.tol := by
  obtain ⟨ps, lo, hi, est, a, g, g', -, -, -, -, -, -, -, -, hst⟩ :=
    calcPoint_ok _ _ _ _ _ _ _ _ _ _ h
  have : st'.tol = some (1 / 10 ^ 10) := by
    rw [hst, ht, tightenTol]; simp only [hbig, if_true]
  refine ⟨this, ?_⟩
  rw [this, ht]
  intro he
  have := Option.some.inj he
  exact absurd this (ne_of_lt hbig)

/-- Without a tolerance of the user nothing is changed. -/
theorem c36_tol_partial (t : Option ℚ) (h : ∀ x, t = some x → x ≤ 1 / 10 ^ 10) : tightenTol t = t := by
  cases t with
  | none => rfl
  | some x => rw [tightenTol, if_neg (not_lt.mpr (h x rfl))]

/-! ## C35 for bubble and dew points -/

/-- **C35.**  The jobs never raise, always give five quantities, and a mixture point whose calculation
raises is reported as NaN with both flags 3. -/
theorem c35_bubble_dew (env : Env) (o : Opts) (p : Point) (st : State) :
    (bubbleJob env o p st).1.length = 5 ∧ (dewJob env o p st).1.length = 5 ∧
    (Point.IsMixture p → ∀ e s, calcPoint env raoultVapor o.Pset (takeMethod o st).1 p.Pguess p.T
        p.given (takeMethod o st).2 = (.error e, s) →
      bubbleJob env o p st = ([.scal none, .vec (List.replicate p.given.length none),
        .scal (some 3), .scal (some 3), .scal none], s)) ∧
    (Point.IsMixture p → ∀ e s, calcPoint env raoultLiquid o.Pset (takeMethod o st).1 p.Pguess p.T
        p.given (takeMethod o st).2 = (.error e, s) →
      dewJob env o p st = ([.scal none, .vec (List.replicate p.given.length none),
        .scal (some 3), .scal (some 3), .scal none], s)) := by
  have key : ∀ (ra : Num → List ℚ → List ℚ → Comp) (pick : Result → Comp)
      (fl : Num → Num → List (Cell Num)), (∀ a b, (fl a b).length = 2) →
      (pointJob env ra pick fl o p st).1.length = 5 ∧
      (Point.IsMixture p → ∀ e s, calcPoint env ra o.Pset (takeMethod o st).1 p.Pguess p.T
        p.given (takeMethod o st).2 = (.error e, s) →
      pointJob env ra pick fl o p st = ([.scal none, .vec (List.replicate p.given.length none),
        .scal (some 3), .scal (some 3), .scal none], s)) := by
    intro ra pick fl hfl
    constructor
    · unfold pointJob
      by_cases hp : (nonzero p.given).length = 1
      · simp only [if_pos hp]
        cases env.psat p.T p.given <;> rfl
      · simp only [if_neg hp]
        match calcPoint env ra o.Pset (takeMethod o st).1 p.Pguess p.T p.given
          (takeMethod o st).2 with
        | (.ok r, s) => simp [hfl]
        | (.error e, s) => rfl
    · intro hp e s hc
      have hp' : ¬ (nonzero p.given).length = 1 := hp
      unfold pointJob
      simp only [if_neg hp', hc]
      rfl
  obtain ⟨a1, a2⟩ := key raoultVapor bubbleComp (fun fs fg => [.scal fs, .scal fg]) (fun _ _ => rfl)
  obtain ⟨b1, b2⟩ := key raoultLiquid dewComp (fun fs fg => [.scal fg, .scal fs]) (fun _ _ => rfl)
  exact ⟨a1, b1, a2, b2⟩

/-- **C35 is violated by a point with one component above its critical temperature**: the
saturation calculation reports NaN, and the row still carries the flags of a valid vapor and
liquid and a perfect objective. -/
theorem c35_violated_pure (env : Env) (o : Opts) (p : Point) (st : State)
    (hp : (p.given.filter (· ≠ 0)).length = 1) (h : env.psat p.T p.given = .ok none) :
    (bubbleJob env o p st).1 = [.scal none, .vec (p.given.map some), .scal (some 0), .scal (some 1),
      .scal (some 0)] := by
  have hp' : (nonzero p.given).length = 1 := hp
  unfold bubbleJob pointJob
  simp only [if_pos hp', h]

/-- Non-vacuity. -/
example : (bubbleJob { mirrorEnv with psat := fun _ _ => .ok none } {} ⟨300, [1, 0], none⟩
    ⟨none, none, none⟩).1 =
    [.scal none, .vec [some 1, some 0], .scal (some 0), .scal (some 1), .scal (some 0)] := by
  decide +kernel

end Verif.Props
