import Mathlib.Data.Nat.Log
import Mathlib.Data.Rat.Floor
import Verif.Props.Raoult
import Verif.Props.RaoultPoint

/-!
# C164: a batch of bubble points of ideal mixtures

`c164_bubble` is put together with the loop that finds the composition of the vapour (`c160_vapor`), and with the state that one point of a batch
leaves for the next.
-/

namespace Verif.Props

open Verif Verif.BubbleDew Verif.CalcTypes Verif.PhaseDensity

/-- Guesses of a composition of `n` entries from which the loop finds the vapour. -/
def goodGuess (n : ℕ) (y : List ℚ) : Prop := y.length = n ∧ y.sum ≠ 0 ∧ LoneSmallest (y.map (· / y.sum))

/-- The vapour composition of Raoult's law. -/
def raoultComposition (x sat : List ℚ) : List ℚ := (List.zipWith (· * ·) x sat).map (· / (List.zipWith (· * ·) x sat).sum)

/-- What the loop hands over to the objective. -/
def loopAnswer (r : Except PyErr (Composition.Result ℚ)) : Except PyErr Comp :=
  match r with
  | .ok r => .ok (r.1.map some)
  | .error e => .error e

/-- A bubble point of an ideal mixture, with everything that is called: the search for the range, the loop for the composition, the root finder. -/
structure IdealBubble (env : BubbleDew.Env) (opts : BubbleDew.Opts) (τ : ℚ) (p : BubbleDew.Point) (sat : List ℚ) where
  o : PressureRange.Opts ℚ
  E : PressureRange.Env ℚ
  /-- the loop for the composition at a pressure -/
  L : ℚ → Composition.Env ℚ
  k : ℕ
  given : E.xi = p.given
  sum : p.given.sum = 1
  length : sat.length = p.given.length
  positive : ∀ a ∈ p.given, 0 < a
  saturation : ∀ a ∈ sat, 0 < a
  mixture : (nonzero p.given).length ≠ 1
  liquid : ∀ P, 0 < P → E.liq P = .ok (sat.map (fun a => some (a / P)), 1)
  loop : ∀ P y φ, E.vap y φ P = Composition.vaporComposition (L P) y p.given φ
  gas : ∀ P, 0 < P → ∀ z : List ℚ, z.length = p.given.length → z.sum = 1 → (L P).fug z = .ok (sat.map (fun _ => some 1), 0)
  tolerance : ∀ P, 0 < P → 0 < (L P).tol ∧ 4 ≤ (L P).maxiter
  found : ∀ P, 0 < P → ∃ b : List ℚ, (L P).findNew = .ok (some b) ∧ b.length = p.given.length ∧ b.sum = 1 ∧ LoneSmallest b
  random : ∀ P, 0 < P → ∀ n, ((L P).rand n).length = p.given.length ∧ ((L P).rand n).sum = 1 ∧ LoneSmallest ((L P).rand n)
  lone : LoneSmallest (raoultComposition p.given sat)
  differs : o.xytol ≤ (List.zipWith (fun a b => |a - b| / a) p.given (raoultComposition p.given sat)).sum
  range : ∀ y tol, env.prange p.T p.given (y.map some) tol = (handedOver (PressureRange.search o E y), none)
  inner : ∀ y tol P, 0 < P →
    env.inner p.T p.given (y.map some) tol P = (loopAnswer (Composition.vaporComposition (L P) y p.given (sat.map fun a => some (a / P))), none)
  objective : ∀ P, 0 < P → env.objAt p.T p.given ((raoultComposition p.given sat).map some) P =
    .ok (some ((List.zipWith (· * ·) p.given sat).sum / P - 1))
  flags : ∀ P, 0 < P → env.flagGiven p.T p.given P = .ok (some 1) ∧ ∀ c, env.flagSought p.T c P = .ok (some 0)
  psats : BubbleDew.psats env p.T opts.Pset p.given.length = .ok sat
  guess : ∀ P ∈ p.Pguess, 0 < P
  store : ∀ q, E.store q = q
  good : GoodOpts o
  rand : ∀ n, 0 < E.rand n ∧ E.rand n < 1
  unlimited : o.pmin = none ∧ o.pmax = none
  low : 0 < PressureRange.lowLimit o E
  width : PressureRange.upper o E ≤ PressureRange.lowLimit o E ∨ PressureRange.lowLimit o E + o.ptol ≤ PressureRange.upper o E
  step : o.ptol ≤ (o.maxfactor - 1) * PressureRange.lowLimit o E
  enough : k + 2 ≤ o.maxiter
  down : o.minfactor ^ k * PressureRange.lowLimit o E < (List.zipWith (· * ·) p.given sat).sum
  up : (List.zipWith (· * ·) p.given sat).sum < o.maxfactor ^ k * PressureRange.lowLimit o E
  missed : ∀ j < k, o.minfactor ^ j * PressureRange.lowLimit o E ≠ (List.zipWith (· * ·) p.given sat).sum
  solver : ∀ m q lo hi, lo ≤ hi → Encloses (env.solver m q lo hi) lo hi τ

section
variable {env : BubbleDew.Env} {opts : BubbleDew.Opts} {τ : ℚ} {p : BubbleDew.Point} {sat : List ℚ}

private theorem sum_map_div (l : List ℚ) (c : ℚ) : (l.map (· / c)).sum = l.sum / c := by
  induction l with
  | nil => simp
  | cons a l ih => simp [ih, add_div]

private theorem numbers (P : ℚ) : ∀ x sat : List ℚ, (∀ a ∈ x, 0 < a) →
    ((x.zip ((sat.map fun a => some (a / P)).zip (sat.map fun _ => (some 1 : Option ℚ)))).map fun q => newFraction .vapor q.1 (q.2.1.getD 0) (q.2.2.getD 0)) =
      (List.zipWith (· * ·) x sat).map (· / P) := by
  intro x
  induction x with
  | nil => intro sat _; simp
  | cons a x ih =>
    intro sat hx
    cases sat with
    | nil => simp
    | cons b sat =>
      have h := ih sat fun c hc => hx c (by simp [hc])
      have ha : a ≠ 0 := (hx a (by simp)).ne'
      simp only [List.map_cons, List.zip_cons_cons, List.zipWith_cons_cons, h, Option.getD_some]
      simp [newFraction, ha, mul_div_assoc]

private theorem weighted_pos (I : IdealBubble env opts τ p sat) : 0 < (List.zipWith (· * ·) p.given sat).sum :=
  (mul_pos (pow_pos I.good.min _) I.low).trans I.down

private theorem sum_raoult (I : IdealBubble env opts τ p sat) : (raoultComposition p.given sat).sum = 1 := by
  rw [raoultComposition, sum_map_div, div_self (weighted_pos I).ne']

private theorem good_raoult (I : IdealBubble env opts τ p sat) : goodGuess p.given.length (raoultComposition p.given sat) := by
  have h := sum_raoult I
  refine ⟨by simp [raoultComposition, I.length], by rw [h]; exact one_ne_zero, ?_⟩
  rw [h]
  simpa using I.lone

/-- From every good guess the loop ends at the composition of Raoult's law. -/
private theorem loop_raoult (I : IdealBubble env opts τ p sat) (P : ℚ) (hP : 0 < P) (y : List ℚ) (hy : goodGuess p.given.length y) :
    Composition.vaporComposition (I.L P) y p.given (sat.map fun a => some (a / P)) =
      .ok (raoultComposition p.given sat, sat.map (fun _ => some 1), some 0) := by
  have hS := weighted_pos I
  have hsum : ((List.zipWith (· * ·) p.given sat).map (· / P)).sum = (List.zipWith (· * ·) p.given sat).sum / P := sum_map_div _ _
  have hnorm : ((List.zipWith (· * ·) p.given sat).map (· / P)).map (· / ((List.zipWith (· * ·) p.given sat).map (· / P)).sum) =
      raoultComposition p.given sat := by
    rw [hsum, List.map_map, raoultComposition]
    refine List.map_congr_left fun a _ => ?_
    simp only [Function.comp]
    rw [div_div_div_cancel_right₀ hP.ne']
  have H : IdealPhase .vapor (I.L P) p.given (sat.map fun a => some (a / P)) (sat.map fun _ => some 1) 0
      ((List.zipWith (· * ·) p.given sat).map (· / P)) :=
    { coefficients := I.gas P hP
      number := by simp
      new := by
        have h1 : (sat.map fun _ => (some 1 : Option ℚ)).any (·.isNone) = false := by simp
        have h2 : (sat.map fun a => some (a / P)).any (·.isNone) = false := by simp
        simp only [newMoleFractions, I.sum, h1, h2, ne_eq, not_true_eq_false, if_false, if_true, reduceCtorEq, Bool.false_eq_true]
        rw [numbers P p.given sat I.positive]
      length := by simp [I.length]
      total := by rw [hsum]; exact (div_pos hS hP).ne'
      found := I.found P hP
      random := I.random P hP }
  have h := c160_vapor (I.tolerance P hP).1 (I.tolerance P hP).2 H (by decide) (by decide) (by simp) y hy.2.1 hy.1 hy.2.2 (by rw [hnorm]; exact I.lone)
  rw [h, hnorm]

private theorem normal_raoult (I : IdealBubble env opts τ p sat) :
    BubbleDew.normalise ((raoultComposition p.given sat).map some) = (raoultComposition p.given sat).map some := by
  have key : ∀ l : List ℚ, csum (l.map some) = some l.sum := by
    intro l
    induction l with
    | nil => rfl
    | cons a l ih => simp [csum, ih]
  simp [BubbleDew.normalise, key, sum_raoult I]

private theorem vapor_guess (P : ℚ) (hP : 0 < P) (x : List ℚ) (sat : List ℚ) (hS : (List.zipWith (· * ·) x sat).sum ≠ 0) :
    raoultVapor (some P) x sat = (raoultComposition x sat).map some := by
  have key : ∀ x sat : List ℚ, List.zipWith (fun x p => (some P : Num).bind fun P => qdiv (x * p) P) x sat =
      ((List.zipWith (· * ·) x sat).map (· / P)).map some := by
    intro x
    induction x with
    | nil => intro sat; simp
    | cons a x ih =>
      intro sat
      cases sat with
      | nil => simp
      | cons b sat =>
        have h := ih sat
        simp only [List.zipWith_cons_cons, List.map_cons, h]
        simp [qdiv, hP.ne']
  have hn : ∀ l : List ℚ, nansum (l.map some) = l.sum := by
    intro l
    induction l with
    | nil => rfl
    | cons a l ih => simp [nansum, ih]
  unfold raoultVapor
  simp only [key, hn, sum_map_div]
  simp only [List.map_map, raoultComposition]
  refine List.map_congr_left fun a _ => ?_
  simp only [Function.comp, Option.bind_some, qdiv, if_neg (div_ne_zero hS hP.ne')]
  rw [div_div_div_cancel_right₀ hP.ne']

/-- **C164** (one bubble point, with the loop for the composition): from nothing or from a good guess left by the point before, the job returns Raoult's pressure within
`τ` and Raoult's composition, and it leaves a good guess. -/
theorem c164_bubble_loop (I : IdealBubble env opts τ p sat) (st : BubbleDew.State)
    (hst : st.glob = none ∨ ∃ y, st.glob = some (y.map some) ∧ goodGuess p.given.length y) :
    ∃ P st', bubbleJob env opts p st = ([.scal (some P), .vec ((raoultComposition p.given sat).map some), .scal (some 0), .scal (some 1),
        .scal (some ((List.zipWith (· * ·) p.given sat).sum / P - 1))], st') ∧
      st'.glob = some ((raoultComposition p.given sat).map some) ∧ goodGuess p.given.length (raoultComposition p.given sat) ∧
      |P - (List.zipWith (· * ·) p.given sat).sum| ≤ τ := by
  have hgr := good_raoult I
  have hS := weighted_pos I
  have M : RaoultMixture (goodGuess p.given.length) I.o I.E sat :=
    { sum := by rw [I.given]; exact I.sum
      length := by rw [I.given]; exact I.length
      positive := by rw [I.given]; exact I.positive
      saturation := I.saturation
      liquid := I.liquid
      vapor := by
        intro P hP y hy
        rw [I.given, I.loop, loop_raoult I P hP y hy]
        rfl
      closed := by rw [I.given]; exact hgr
      differs := by rw [I.given]; exact I.differs }
  have H : FixedComposition (fun c => ∃ y, c = y.map some ∧ goodGuess p.given.length y) env p.T p.given ((raoultComposition p.given sat).map some)
      (fun P => (List.zipWith (· * ·) p.given sat).sum / P - 1) (some 1) (some 0) :=
    { closed := ⟨_, rfl, hgr⟩
      inner := by
        rintro _ ⟨y, rfl, hy⟩ tol P hP
        exact ⟨none, by rw [I.inner y tol P hP, loop_raoult I P hP y hy]; rfl⟩
      normal := normal_raoult I
      objective := I.objective
      given := fun P hP => (I.flags P hP).1
      sought := fun c P hP => (I.flags P hP).2 c }
  have hg : ∃ y, startGuess st.glob (raoultVapor (firstP p.Pguess p.given sat) p.given sat) = y.map some ∧ goodGuess p.given.length y := by
    rcases hst with h | ⟨y, h, hy⟩
    · refine ⟨_, ?_, hgr⟩
      obtain ⟨P0, hP0, e⟩ : ∃ P0, 0 < P0 ∧ firstP p.Pguess p.given sat = some P0 := by
        cases hpg : p.Pguess with
        | none =>
          have hQ : 0 < (List.zipWith (· / ·) p.given sat).sum := by
            have : ∀ x s : List ℚ, (∀ a ∈ x, 0 < a) → (∀ a ∈ s, 0 < a) → 0 ≤ (List.zipWith (· / ·) x s).sum ∧
                ((List.zipWith (· / ·) x s).sum = 0 → (List.zipWith (· * ·) x s).sum = 0) := by
              intro x
              induction x with
              | nil => intro s _ _; simp
              | cons a x ih =>
                intro s hx hs
                cases s with
                | nil => simp
                | cons b s =>
                  have h1 := (ih s (fun c hc => hx c (by simp [hc])) (fun c hc => hs c (by simp [hc]))).1
                  have h2 : 0 < a / b := div_pos (hx a (by simp)) (hs b (by simp))
                  simp only [List.zipWith_cons_cons, List.sum_cons]
                  exact ⟨by linarith, fun h => absurd h (by linarith)⟩
            obtain ⟨h1, h2⟩ := this p.given sat I.positive I.saturation
            exact lt_of_le_of_ne h1 fun h => hS.ne' (h2 h.symm)
          exact ⟨_, one_div_pos.2 hQ, initial_pressure_eq _ _ I.saturation hQ.ne'⟩
        | some P0 => exact ⟨P0, I.guess P0 (by rw [hpg]; rfl), rfl⟩
      rw [h, e]
      exact vapor_guess P0 hP0 _ _ hS.ne'
    · refine ⟨y, ?_, hy⟩
      rw [h]
      simp [startGuess]
  obtain ⟨T, z, pg⟩ := p
  have hx : I.E.xi = z := I.given
  obtain ⟨P, st', h1, h2, h3⟩ := c164_bubble env T sat I.o I.E (goodGuess z.length) M (by rw [hx]; exact H) (by rw [hx]; exact I.range) I.store I.good I.rand I.unlimited.1
    I.unlimited.2 I.low I.width I.step I.k I.enough (by rw [hx]; exact I.down) (by rw [hx]; exact I.up) (by rw [hx]; exact I.missed) τ I.solver opts pg st sat
    (by rw [hx]; exact I.psats) (by rw [hx]; exact I.mixture) (by rw [hx]; exact hg)
  rw [hx] at h1 h2 h3
  exact ⟨P, st', h1, h2, hgr, h3⟩

end

/-- **C164** (a batch of bubble points): every row of a batch of bubble points of ideal mixtures of the same number of components holds Raoult's pressure
within `τ` and Raoult's composition. -/
theorem c164_bubble_batch (env : BubbleDew.Env) (opts : BubbleDew.Opts) (τ : ℚ) (n : ℕ) (pts : List (BubbleDew.Point × List ℚ))
    (h : ∀ q ∈ pts, q.1.given.length = n ∧ Nonempty (IdealBubble env opts τ q.1 q.2)) (st : BubbleDew.State)
    (hst : st.glob = none ∨ ∃ y, st.glob = some (y.map some) ∧ goodGuess n y) :
    List.Forall₂ (fun q row => ∃ P, row = [.scal (some P), .vec ((raoultComposition q.1.given q.2).map some), .scal (some 0), .scal (some 1),
        .scal (some ((List.zipWith (· * ·) q.1.given q.2).sum / P - 1))] ∧ |P - (List.zipWith (· * ·) q.1.given q.2).sum| ≤ τ)
      pts (runBatch (bubbleJob env opts) (pts.map (·.1)) st).1 := by
  induction pts generalizing st with
  | nil => exact .nil
  | cons q pts ih =>
    obtain ⟨hn, ⟨I⟩⟩ := h q (by simp)
    obtain ⟨P, st', h1, h2, h3, h4⟩ := c164_bubble_loop I st (by rw [hn]; exact hst)
    simp only [List.map_cons, runBatch, h1]
    refine .cons ⟨P, rfl, h4⟩ (ih (fun r hr => h r (by simp [hr])) st' (.inr ⟨_, h2, by rw [← hn]; exact h3⟩))

/-! ### A batch that can be computed -/

/-- Bisection to an interval of the length `τ`. -/
def bisectTo (τ lo hi : ℚ) : Solver := bisection (Nat.clog 2 ⌈(hi - lo) / τ⌉₊) lo hi

/-- It encloses the zero within `τ`, in whatever range. -/
theorem bisectTo_encloses (τ : ℚ) (hτ : 0 < τ) (lo hi : ℚ) (h : lo ≤ hi) : Encloses (bisectTo τ lo hi) lo hi τ := by
  intro f hf
  obtain ⟨g, P, a, b, e, h1, h2, h3, h4, h5, h6⟩ := bisection_encloses (Nat.clog 2 ⌈(hi - lo) / τ⌉₊) lo hi h f hf
  refine ⟨g, P, a, b, e, h1, h2, h3, h4, h5, h6.trans ?_⟩
  have k1 : (hi - lo) / τ ≤ (⌈(hi - lo) / τ⌉₊ : ℚ) := Nat.le_ceil _
  have k2 : (⌈(hi - lo) / τ⌉₊ : ℚ) ≤ 2 ^ Nat.clog 2 ⌈(hi - lo) / τ⌉₊ := by exact_mod_cast Nat.le_pow_clog (by norm_num) _
  rw [div_le_iff₀ (by positivity)]
  rw [div_le_iff₀ hτ] at k1
  nlinarith

/-- The loop for the vapour of two components that is an ideal gas. -/
def gasLoop : Composition.Env ℚ :=
  { fug := fun _ => .ok ([some 1, some 1], 0)
    findNew := .ok (some [1 / 4, 3 / 4])
    rand := fun _ => [1 / 3, 2 / 3]
    bracket := fun _ b => .ok [b, 1 - b]
    leastSquares := fun x => .ok x
    objective := fun _ => .ok (some 0)
    maxiter := 20
    tol := 1 / 100
    tolTrivial := 1 / 20 }

/-- The range of a mixture of equal parts of substances with the saturation pressures `a` and `b`, with the loop. -/
def gasRange (a b : ℚ) : PressureRange.Env ℚ where
  xi := [1 / 2, 1 / 2]
  extremaP := []
  liq := fun p => .ok ([some (a / p), some (b / p)], 1)
  vap := fun y φ _ => Composition.vaporComposition gasLoop y [1 / 2, 1 / 2] φ
  rand := fun _ => 1 / 2
  well := fun _ _ => .error .valueError
  store := id

/-- Two substances of 1000 Pa and 3000 Pa, whose saturation pressures are proportional to the temperature. -/
def gasPoint (τ : ℚ) : BubbleDew.Env where
  psat := fun T z => .ok (if z = [1, 0] then some (10 * T / 3) else some (10 * T))
  prange := fun T _ c _ => (handedOver (PressureRange.search (rangeOpts none none) (gasRange (10 * T / 3) (10 * T)) (c.map (·.getD 0))), none)
  inner := fun T z c _ P =>
    (loopAnswer (Composition.vaporComposition gasLoop (c.map (·.getD 0)) z [some (10 * T / 3 / P), some (10 * T / P)]), none)
  objAt := fun T _ _ P => .ok (some (20 * T / 3 / P - 1))
  flagGiven := fun _ _ _ => .ok (some 1)
  flagSought := fun _ _ _ => .ok (some 0)
  solver := fun _ _ lo hi => bisectTo τ lo hi

/-- What two points at 300 K and 450 K give. -/
example : (runBatch (bubbleJob (gasPoint 100) {}) [⟨300, [1 / 2, 1 / 2], none⟩, ⟨450, [1 / 2, 1 / 2], some 900⟩] ⟨none, none, none⟩).1.map (fun row =>
      (row.head?.map fun c =>
        match c with
        | .scal (some P) => (decide (|P - 2000| ≤ 200), decide (|P - 3000| ≤ 200))
        | _ => (false, false), row[1]?)) =
    [(some (true, false), some (.vec [some (1 / 4), some (3 / 4)])), (some (false, true), some (.vec [some (1 / 4), some (3 / 4)]))] := by
  decide +kernel

/-- The hypotheses of `c164_bubble_loop` and `c164_bubble_batch` are met. -/
example : Nonempty (IdealBubble (gasPoint 100) {} 100 ⟨300, [1 / 2, 1 / 2], none⟩ [1000, 3000]) :=
  ⟨{ o := rangeOpts none none
     E := gasRange 1000 3000
     L := fun _ => gasLoop
     k := 2
     given := rfl
     sum := by decide +kernel
     length := rfl
     positive := by simp
     saturation := by simp
     mixture := by decide +kernel
     liquid := fun P _ => rfl
     loop := fun P y φ => rfl
     gas := fun P _ z _ _ => rfl
     tolerance := fun P _ => by decide +kernel
     found := fun P _ => ⟨[1 / 4, 3 / 4], rfl, rfl, by decide +kernel, [], 1 / 4, [3 / 4], rfl, by norm_num, by simp; norm_num⟩
     random := fun P _ n => ⟨rfl, by simp only [gasLoop]; norm_num, [], 1 / 3, [2 / 3], rfl, by norm_num, by simp; norm_num⟩
     lone := ⟨[], 1 / 4, [3 / 4], by decide +kernel, by norm_num, by simp; norm_num⟩
     differs := by decide +kernel
     range := fun y tol => by
       have : (y.map some).map (·.getD 0) = y := by simp [Function.comp_def]
       simp only [gasPoint, this]
       norm_num
     inner := fun y tol P _ => by
       have : (y.map some).map (·.getD 0) = y := by simp [Function.comp_def]
       simp only [gasPoint, this, List.map_cons, List.map_nil]
       norm_num
     objective := fun P _ => by
       simp only [gasPoint, List.zipWith_cons_cons, List.zipWith_nil_left, List.sum_cons, List.sum_nil]
       norm_num
     flags := fun P _ => ⟨rfl, fun _ => rfl⟩
     psats := by decide +kernel
     guess := by simp
     store := fun _ => rfl
     good := ⟨by decide +kernel, by decide +kernel, by decide +kernel⟩
     rand := fun _ => by simp only [gasRange]; norm_num
     unlimited := ⟨rfl, rfl⟩
     low := by decide +kernel
     width := by decide +kernel
     step := by decide +kernel
     enough := by decide +kernel
     down := by decide +kernel
     up := by decide +kernel
     missed := by decide +kernel
     solver := fun _ _ lo hi h => bisectTo_encloses 100 (by norm_num) lo hi h }⟩

end Verif.Props
