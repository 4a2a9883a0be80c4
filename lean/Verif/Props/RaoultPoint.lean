import Mathlib.Tactic.NormNum
import Mathlib.Tactic.Linarith
import Mathlib.Tactic.Ring
import Verif.Props.BubbleDew
import Verif.Props.FallingObjective
import Verif.Props.RisingObjective

/-!
# C164: bubble and dew points of a mixture that follows the law of Raoult
-/

namespace Verif.Props

open Verif Verif.BubbleDew Verif.CalcTypes

/-! ## Solvers that enclose a zero -/

/-- What a root finder answers for a function with values everywhere. -/
def solverAnswer (f : ℚ → ℚ) : Solver → Except PyErr ℚ
  | .done P => .ok P
  | .fail e => .error e
  | .ask P next => solverAnswer f (next (some (f P)))

/-- The root finder asks only for pressures that are not below `lo`. -/
def asksAbove (lo : ℚ) (f : ℚ → ℚ) : Solver → Prop
  | .done _ => True
  | .fail _ => True
  | .ask P next => lo ≤ P ∧ asksAbove lo f (next (some (f P)))

/-- A root finder that encloses a zero: for every function with a change of sign between the bounds it ends, after asking for values between them only, at a
point of an interval of at most the length `τ` in which the function changes its sign. -/
def Encloses (s : Solver) (lo hi τ : ℚ) : Prop :=
  ∀ f : ℚ → ℚ, f lo * f hi ≤ 0 → asksAbove lo f s ∧ ∃ P a b, solverAnswer f s = .ok P ∧ lo ≤ a ∧ a ≤ P ∧ P ≤ b ∧ b ≤ hi ∧ f a * f b ≤ 0 ∧ b - a ≤ τ

/-- Halving an interval `n` times, given the value at its lower end. -/
def halvings : ℕ → ℚ → ℚ → ℚ → Solver
  | 0, lo, hi, _ => .done ((lo + hi) / 2)
  | n + 1, lo, hi, v => .ask ((lo + hi) / 2) fun w =>
    match w with
    | none => .fail .valueError
    | some w => if v * w ≤ 0 then halvings n lo ((lo + hi) / 2) v else halvings n ((lo + hi) / 2) hi w

/-- Bisection. -/
def bisection (n : ℕ) (lo hi : ℚ) : Solver := .ask lo fun v =>
  match v with
  | none => .fail .valueError
  | some v => halvings n lo hi v

private theorem halving_encloses (f : ℚ → ℚ) (L : ℚ) : ∀ (n : ℕ) (lo hi : ℚ), L ≤ lo → lo ≤ hi → f lo * f hi ≤ 0 →
    asksAbove L f (halvings n lo hi (f lo)) ∧ ∃ P a b, solverAnswer f (halvings n lo hi (f lo)) = .ok P ∧ lo ≤ a ∧ a ≤ P ∧ P ≤ b ∧ b ≤ hi ∧
      f a * f b ≤ 0 ∧ b - a ≤ (hi - lo) / 2 ^ n := by
  intro n
  induction n with
  | zero =>
    intro lo hi hL h hf
    exact ⟨trivial, (lo + hi) / 2, lo, hi, rfl, le_rfl, by linarith, by linarith, le_rfl, hf, by simp⟩
  | succ n ih =>
    intro lo hi hL h hf
    have h1 : lo ≤ (lo + hi) / 2 := by linarith
    have h2 : (lo + hi) / 2 ≤ hi := by linarith
    simp only [halvings, asksAbove, solverAnswer]
    by_cases hv : f lo * f ((lo + hi) / 2) ≤ 0
    · rw [if_pos hv]
      obtain ⟨g, P, a, b, e, ha, hb, hc, hd, he, hw⟩ := ih lo ((lo + hi) / 2) hL h1 hv
      refine ⟨⟨hL.trans h1, g⟩, P, a, b, e, ha, hb, hc, hd.trans h2, he, hw.trans (le_of_eq ?_)⟩
      rw [pow_succ]
      field_simp
      ring
    · rw [if_neg hv]
      have hs : f ((lo + hi) / 2) * f hi ≤ 0 := by
        by_contra hcon
        push Not at hv hcon
        have h3 : 0 < f lo * f ((lo + hi) / 2) * (f ((lo + hi) / 2) * f hi) := mul_pos hv hcon
        nlinarith [mul_self_nonneg (f ((lo + hi) / 2))]
      obtain ⟨g, P, a, b, e, ha, hb, hc, hd, he, hw⟩ := ih ((lo + hi) / 2) hi (hL.trans h1) h2 hs
      refine ⟨⟨hL.trans h1, g⟩, P, a, b, e, h1.trans ha, hb, hc, hd, he, hw.trans (le_of_eq ?_)⟩
      rw [pow_succ]
      field_simp
      ring

/-- Bisection is such a root finder. -/
theorem bisection_encloses (n : ℕ) (lo hi : ℚ) (h : lo ≤ hi) : Encloses (bisection n lo hi) lo hi ((hi - lo) / 2 ^ n) := by
  intro f hf
  obtain ⟨g, r⟩ := halving_encloses f lo n lo hi le_rfl h hf
  exact ⟨⟨le_rfl, g⟩, r⟩

/-! ## Points whose sought composition does not depend on the pressure -/

/-- A point at which the composition of the sought phase is `C` and the objective `f` at every pressure; `flagG` and `flagS` are the flags of the given
and of the sought phase.  The composition is found from every guess in `G`, and it is in `G`. -/
structure FixedComposition (G : Comp → Prop) (env : BubbleDew.Env) (T : ℚ) (z : List ℚ) (C : Comp) (f : ℚ → ℚ) (flagG flagS : Num) : Prop where
  closed : G C
  inner : ∀ guess, G guess → ∀ tol P, 0 < P → ∃ a, env.inner T z guess tol P = (.ok C, a)
  normal : BubbleDew.normalise C = C
  objective : ∀ P, 0 < P → env.objAt T z C P = .ok (some (f P))
  given : ∀ P, 0 < P → env.flagGiven T z P = .ok flagG
  sought : ∀ c P, 0 < P → env.flagSought T c P = .ok flagS

section
variable {G : Comp → Prop} {env : BubbleDew.Env} {T : ℚ} {z : List ℚ} {C : Comp} {f : ℚ → ℚ} {flagG flagS : Num}

private theorem fixed_objective (H : FixedComposition G env T z C f flagG flagS) (tol : Option ℚ) (P : ℚ) (hP : 0 < P) (c : Comp) (hc : G c) :
    BubbleDew.objective env T z tol P (some c) = (.ok (some (f P)), some C) := by
  obtain ⟨a, e⟩ := H.inner c hc tol P hP
  simp [BubbleDew.objective, hP.not_gt, e, H.normal, H.objective P hP]

private theorem fixed_solver (H : FixedComposition G env T z C f flagG flagS) (tol : Option ℚ) (lo : ℚ) (hlo : 0 < lo) :
    ∀ (s : Solver) (c : Comp) (P : ℚ), G c → asksAbove lo f s → solverAnswer f s = .ok P →
      ∃ c', G c' ∧ runSolver (BubbleDew.objective env T z tol) s (some c) = (.ok P, some c') := by
  intro s
  induction s with
  | done Q => intro c P hc _ h; cases h; exact ⟨c, hc, rfl⟩
  | fail e => intro c P _ _ h; cases h
  | ask Q next ih =>
    intro c P hc ha h
    obtain ⟨c', hc', e⟩ := ih (some (f Q)) C P H.closed ha.2 h
    refine ⟨c', hc', ?_⟩
    rw [runSolver, fixed_objective H tol Q (hlo.trans_le ha.1) c hc]
    exact e

/-- A root finder that encloses the zero ends within `τ` of the zero of the objective, with the fixed composition, and with the objective at this
pressure. -/
theorem fixed_point (H : FixedComposition G env T z C f flagG flagS) (ra : Num → List ℚ → List ℚ → Comp) (Pset : ℚ) (m : String) (pg : Option ℚ)
    (st : BubbleDew.State) (ps : List ℚ) (hps : psats env T Pset z.length = .ok ps)
    (hg : G (startGuess st.glob (ra (firstP pg z ps) z ps))) (lo hi τ : ℚ) (est : Num) (a : Option Comp)
    (hr : env.prange T z (startGuess st.glob (ra (firstP pg z ps) z ps)) st.tol = (.ok (some lo, some hi, est), a)) (ha : ∀ c ∈ a, G c) (hlo : 0 < lo)
    (hf : f lo * f hi ≤ 0) (hs : Encloses (env.solver m (startP pg lo hi est) lo hi) lo hi τ) :
    ∃ r st', calcPoint env ra Pset m pg T z st = (.ok r, st') ∧ st'.glob = some C ∧ r.start = startGuess st.glob (ra (firstP pg z ps) z ps) ∧ r.final = C ∧
      r.flagGiven = flagG ∧ r.flagSought = flagS ∧ r.obj = some (f r.P) ∧
      ∃ u v, lo ≤ u ∧ u ≤ r.P ∧ r.P ≤ v ∧ v ≤ hi ∧ f u * f v ≤ 0 ∧ v - u ≤ τ := by
  obtain ⟨hask, P, u, v, e, h1, h2, h3, h4, h5, h6⟩ := hs f hf
  have hP : 0 < P := hlo.trans_le (h1.trans h2)
  obtain ⟨c, hgc, hc⟩ : ∃ c, G c ∧ a.or (some (startGuess st.glob (ra (firstP pg z ps) z ps))) = some c := by
    cases a with
    | none => exact ⟨_, hg, rfl⟩
    | some c => exact ⟨c, ha c rfl, rfl⟩
  obtain ⟨c', hgc', hrun⟩ := fixed_solver H st.tol lo hlo _ c P hgc hask e
  refine ⟨⟨P, startGuess st.glob (ra (firstP pg z ps) z ps), C, flagG, flagS, some (f P)⟩, { st with glob := some C, tol := tightenTol st.tol }, ?_,
    rfl, rfl, rfl, rfl, rfl, rfl, u, v, h1, h2, h3, h4, h5, h6⟩
  simp only [calcPoint, hps, hr, hc, hrun, H.given P hP, H.sought _ P hP, fixed_objective H _ P hP c' hgc']
  rfl

end

/-! ## C164 -/

/-- What the search for a pressure range hands over: the ends and the guess, or NaN. -/
def handedOver (s : Except PyErr (Option (PressureRange.Range ℚ))) : Except PyErr (Num × Num × Num) :=
  match s with
  | .ok (some r) => .ok (some r.P0, some r.P1, r.guess)
  | .ok none => .ok (none, none, none)
  | .error e => .error e

private theorem raoult_zero (S a b : ℚ) (ha : 0 < a) (hab : a ≤ b) (h : (S / a - 1) * (S / b - 1) ≤ 0) : a ≤ S ∧ S ≤ b := by
  have hb := ha.trans_le hab
  constructor
  · by_contra hc
    push Not at hc
    have h1 : S / a - 1 < 0 := by rw [sub_neg]; exact (div_lt_one ha).2 hc
    have h2 : S / b - 1 < 0 := by rw [sub_neg]; exact (div_lt_one hb).2 (hc.trans_le hab)
    exact absurd h (not_le.2 (mul_pos_of_neg_of_neg h1 h2))
  · by_contra hc
    push Not at hc
    have h1 : 0 < S / a - 1 := by rw [sub_pos]; exact (one_lt_div ha).2 (hab.trans_lt hc)
    have h2 : 0 < S / b - 1 := by rw [sub_pos]; exact (one_lt_div hb).2 hc
    exact absurd h (not_le.2 (mul_pos h1 h2))

private theorem raoult_signs (S a b : ℚ) (ha : 0 < a) (h1 : a ≤ S) (h2 : S ≤ b) : (S / a - 1) * (S / b - 1) ≤ 0 := by
  have hb : 0 < b := ha.trans_le (h1.trans h2)
  have h3 : 0 ≤ S / a - 1 := by rw [sub_nonneg]; exact (one_le_div ha).2 h1
  have h4 : S / b - 1 ≤ 0 := by rw [sub_nonpos]; exact (div_le_one hb).2 h2
  exact mul_nonpos_of_nonneg_of_nonpos h3 h4

/-- **C164** (bubble point): for a mixture that follows the law of Raoult the job returns the sum of the saturation pressures weighted with the mole fractions, within the
length `τ` to which the root finder encloses the zero, the vapour composition of Raoult's law exactly, from whatever the calculations before have left, and the
objective at the pressure that is returned. -/
theorem c164_bubble (env : BubbleDew.Env) (T : ℚ) (sat : List ℚ) (o : PressureRange.Opts ℚ) (E : PressureRange.Env ℚ) (G : List ℚ → Prop) (M : RaoultMixture G o E sat)
    (H : FixedComposition (fun c => ∃ y, c = y.map some ∧ G y) env T E.xi (((List.zipWith (· * ·) E.xi sat).map (· / (List.zipWith (· * ·) E.xi sat).sum)).map some) (fun P => (List.zipWith (· * ·) E.xi sat).sum / P - 1) (some 1) (some 0))
    (hrange : ∀ y tol, env.prange T E.xi (y.map some) tol = (handedOver (PressureRange.search o E y), none))
    (hst : ∀ p, E.store p = p) (ho : GoodOpts o) (hrand : ∀ n, 0 < E.rand n ∧ E.rand n < 1)
    (h0 : o.pmin = none) (h1 : o.pmax = none) (hlo : 0 < PressureRange.lowLimit o E)
    (hw : PressureRange.upper o E ≤ PressureRange.lowLimit o E ∨ PressureRange.lowLimit o E + o.ptol ≤ PressureRange.upper o E)
    (htol : o.ptol ≤ (o.maxfactor - 1) * PressureRange.lowLimit o E) (k : ℕ) (hk : k + 2 ≤ o.maxiter)
    (hdown : o.minfactor ^ k * PressureRange.lowLimit o E < (List.zipWith (· * ·) E.xi sat).sum)
    (hup : (List.zipWith (· * ·) E.xi sat).sum < o.maxfactor ^ k * PressureRange.lowLimit o E)
    (hne : ∀ j < k, o.minfactor ^ j * PressureRange.lowLimit o E ≠ (List.zipWith (· * ·) E.xi sat).sum)
    (τ : ℚ) (hs : ∀ m p lo hi, lo ≤ hi → Encloses (env.solver m p lo hi) lo hi τ)
    (opts : BubbleDew.Opts) (pg : Option ℚ) (st : BubbleDew.State) (ps : List ℚ) (hps : psats env T opts.Pset E.xi.length = .ok ps)
    (hmix : (nonzero E.xi).length ≠ 1)
    (hg : ∃ y, startGuess st.glob (raoultVapor (firstP pg E.xi ps) E.xi ps) = y.map some ∧ G y) :
    ∃ P st', bubbleJob env opts ⟨T, E.xi, pg⟩ st =
        ([.scal (some P), .vec (((List.zipWith (· * ·) E.xi sat).map (· / (List.zipWith (· * ·) E.xi sat).sum)).map some), .scal (some 0),
          .scal (some 1), .scal (some ((List.zipWith (· * ·) E.xi sat).sum / P - 1))], st') ∧
      st'.glob = some (((List.zipWith (· * ·) E.xi sat).map (· / (List.zipWith (· * ·) E.xi sat).sum)).map some) ∧ |P - (List.zipWith (· * ·) E.xi sat).sum| ≤ τ := by
  set S := (List.zipWith (· * ·) E.xi sat).sum with hSdef
  have hglob : (takeMethod opts st).2.glob = st.glob := by
    unfold takeMethod
    split <;> rfl
  rw [← hglob] at hg
  obtain ⟨yi, hyi, hG⟩ := hg
  have e := hrange yi (takeMethod opts st).2.tol
  obtain ⟨r, hr, hr', hr0, hr1⟩ := c162_range (c162_raoult M) hst ho hrand h0 h1 hlo hw htol k hk hdown hup hne yi hG
  rw [hr, ← hyi] at e
  obtain ⟨R, st', hcalc, hst', _, hfin, hfg, hfs, hobj, u, v, h1', h2', h3', h4', h5', h6'⟩ := fixed_point H raoultVapor opts.Pset (takeMethod opts st).1 pg (takeMethod opts st).2 ps hps
    ⟨yi, hyi, hG⟩ r.P0 r.P1 τ r.guess none e (fun _ h => by cases h) hr'.1 (raoult_signs S r.P0 r.P1 hr'.1 hr0 hr1) (hs _ _ _ _ hr'.2.1.le)
  obtain ⟨hu, hv⟩ := raoult_zero S u v (hr'.1.trans_le h1') (h2'.trans h3') h5'
  refine ⟨R.P, st', ?_, hst', ?_⟩
  · simp only [bubbleJob, pointJob, if_neg hmix, hcalc, bubbleComp, hfin, hfg, hfs, hobj]
    rfl
  · rw [abs_le]
    constructor <;> linarith

private theorem dew_zero (Q a b : ℚ) (hQ : 0 < Q) (hab : a ≤ b) (h : (Q * a - 1) * (Q * b - 1) ≤ 0) : a ≤ 1 / Q ∧ 1 / Q ≤ b := by
  have hm : Q * a ≤ Q * b := mul_le_mul_of_nonneg_left hab hQ.le
  constructor
  · rw [le_div_iff₀' hQ]
    by_contra hc
    push Not at hc
    nlinarith
  · rw [div_le_iff₀' hQ]
    by_contra hc
    push Not at hc
    nlinarith

private theorem dew_signs (Q a b : ℚ) (hQ : 0 < Q) (h1 : a ≤ 1 / Q) (h2 : 1 / Q ≤ b) : (Q * a - 1) * (Q * b - 1) ≤ 0 := by
  rw [le_div_iff₀' hQ] at h1
  rw [div_le_iff₀' hQ] at h2
  exact mul_nonpos_of_nonpos_of_nonneg (by linarith) (by linarith)

/-- The dew point as it is computed, with the liquid composition that was there before the solution. -/
private theorem dew_row (env : BubbleDew.Env) (T : ℚ) (sat : List ℚ) (C : Comp) (o : PressureRange.Opts ℚ) (E : PressureRange.Env ℚ) (M : RaoultVapor E sat)
    (H : FixedComposition (fun _ => True) env T E.xi C (fun P => (List.zipWith (· / ·) E.xi sat).sum * P - 1) (some 0) (some 1))
    (hrange : ∀ c tol, ∃ xi a, env.prange T E.xi c tol = (handedOver (DewRange.search o E xi), a))
    (hst : ∀ p, E.store p = p) (ho : GoodOpts o) (h1 : o.pmax = none) (hlo : 0 < PressureRange.lowLimit o E) (k : ℕ) (hk : k + 2 ≤ o.maxiter)
    (hQ : 0 < (List.zipWith (· / ·) E.xi sat).sum) (hdown : PressureRange.lowLimit o E < 1 / (List.zipWith (· / ·) E.xi sat).sum)
    (hup : 1 / (List.zipWith (· / ·) E.xi sat).sum < o.maxfactor ^ k * PressureRange.lowLimit o E)
    (τ : ℚ) (hs : ∀ m p lo hi, lo ≤ hi → Encloses (env.solver m p lo hi) lo hi τ)
    (opts : BubbleDew.Opts) (pg : Option ℚ) (st : BubbleDew.State) (ps : List ℚ) (hps : psats env T opts.Pset E.xi.length = .ok ps)
    (hmix : (nonzero E.xi).length ≠ 1) :
    ∃ P st', dewJob env opts ⟨T, E.xi, pg⟩ st =
        ([.scal (some P), .vec (startGuess (takeMethod opts st).2.glob (raoultLiquid (firstP pg E.xi ps) E.xi ps)), .scal (some 0),
          .scal (some 1), .scal (some ((List.zipWith (· / ·) E.xi sat).sum * P - 1))], st') ∧
      |P - 1 / (List.zipWith (· / ·) E.xi sat).sum| ≤ τ := by
  set Q := (List.zipWith (· / ·) E.xi sat).sum with hQdef
  obtain ⟨xi, a, e⟩ := hrange (startGuess (takeMethod opts st).2.glob (raoultLiquid (firstP pg E.xi ps) E.xi ps)) (takeMethod opts st).2.tol
  obtain ⟨r, hr, hg, hlt, hr0, hr1⟩ := c163_range (c163_raoult M (o := o)) hst ho h1 hlo k hk hdown hup xi
  rw [hr] at e
  obtain ⟨R, st', hcalc, _, hstart, hfin, hfg, hfs, hobj, u, v, h1', h2', h3', h4', h5', h6'⟩ := fixed_point H raoultLiquid opts.Pset (takeMethod opts st).1 pg
    (takeMethod opts st).2 ps hps trivial r.P0 r.P1 τ r.guess a e (fun _ _ => trivial) hg.1 (dew_signs Q r.P0 r.P1 hQ hr0 hr1) (hs _ _ _ _ hlt.le)
  obtain ⟨hu, hv⟩ := dew_zero Q u v hQ (h2'.trans h3') h5'
  refine ⟨R.P, st', ?_, ?_⟩
  · simp only [dewJob, pointJob, if_neg hmix, hcalc, dewComp, hstart, hfg, hfs, hobj]
    rfl
  · rw [abs_le]
    constructor <;> linarith

private theorem csum_some (l : List ℚ) : csum (l.map some) = some l.sum := by
  induction l with
  | nil => rfl
  | cons a l ih => simp [csum, ih]

private theorem raoultLiquid_eq (P : ℚ) (hP : 0 < P) : ∀ y sat : List ℚ, (∀ a ∈ sat, 0 < a) → (List.zipWith (· / ·) y sat).sum ≠ 0 →
    raoultLiquid (some P) y sat = ((List.zipWith (· / ·) y sat).map (· / (List.zipWith (· / ·) y sat).sum)).map some := by
  intro y sat hs hne
  have key : ∀ y sat : List ℚ, (∀ a ∈ sat, 0 < a) →
      List.zipWith (fun y p => (some P : Num).bind fun P => (qdiv y p).map (P * ·)) y sat = ((List.zipWith (· / ·) y sat).map (P * ·)).map some := by
    intro y
    induction y with
    | nil => intro sat _; simp
    | cons a y ih =>
      intro sat hs
      cases sat with
      | nil => simp
      | cons b sat =>
        have hb : b ≠ 0 := (hs b (by simp)).ne'
        have := ih sat (fun c hc => hs c (by simp [hc]))
        simp only [List.zipWith_cons_cons, List.map_cons, this]
        simp [qdiv, hb]
  unfold raoultLiquid
  rw [key y sat hs]
  have hsum : ((List.zipWith (· / ·) y sat).map (P * ·)).sum = P * (List.zipWith (· / ·) y sat).sum := by
    generalize List.zipWith (· / ·) y sat = l
    induction l with
    | nil => simp
    | cons a l ih => simp [ih, mul_add]
  unfold BubbleDew.normalise
  rw [csum_some, hsum]
  simp only [List.map_map]
  refine List.map_congr_left fun x _ => ?_
  simp only [Function.comp, Option.bind_some, if_neg (mul_ne_zero hP.ne' hne)]
  rw [mul_div_mul_left _ _ hP.ne']

/-- The first pressure that is tried, when all saturation pressures are positive. -/
theorem initial_pressure_eq (y sat : List ℚ) (hs : ∀ a ∈ sat, 0 < a) (hne : (List.zipWith (· / ·) y sat).sum ≠ 0) :
    initialP y sat = some (1 / (List.zipWith (· / ·) y sat).sum) := by
  have key : ∀ y sat : List ℚ, (∀ a ∈ sat, 0 < a) → List.zipWith qdiv y sat = (List.zipWith (· / ·) y sat).map some := by
    intro y
    induction y with
    | nil => intro sat _; simp
    | cons a y ih =>
      intro sat hs
      cases sat with
      | nil => simp
      | cons b sat =>
        have hb : b ≠ 0 := (hs b (by simp)).ne'
        have := ih sat (fun c hc => hs c (by simp [hc]))
        simp only [List.zipWith_cons_cons, List.map_cons, this]
        simp [qdiv, hb]
  rw [initialP, key y sat hs, csum_some]
  simp only [Option.bind_some, qdiv, if_neg hne]

/-- **C164** (dew point, when nothing is left of an earlier calculation): for a mixture that follows the law of Raoult with the saturation pressures of the equation of
state the job returns the reciprocal of the sum of the mole fractions over the saturation pressures, within `τ`, and the liquid composition of Raoult's
law exactly. -/
theorem c164_dew (env : BubbleDew.Env) (T : ℚ) (sat : List ℚ) (C : Comp) (o : PressureRange.Opts ℚ) (E : PressureRange.Env ℚ) (M : RaoultVapor E sat)
    (H : FixedComposition (fun _ => True) env T E.xi C (fun P => (List.zipWith (· / ·) E.xi sat).sum * P - 1) (some 0) (some 1))
    (hrange : ∀ c tol, ∃ xi a, env.prange T E.xi c tol = (handedOver (DewRange.search o E xi), a))
    (hst : ∀ p, E.store p = p) (ho : GoodOpts o) (h1 : o.pmax = none) (hlo : 0 < PressureRange.lowLimit o E) (k : ℕ) (hk : k + 2 ≤ o.maxiter)
    (hdown : PressureRange.lowLimit o E < 1 / (List.zipWith (· / ·) E.xi sat).sum)
    (hup : 1 / (List.zipWith (· / ·) E.xi sat).sum < o.maxfactor ^ k * PressureRange.lowLimit o E)
    (τ : ℚ) (hs : ∀ m p lo hi, lo ≤ hi → Encloses (env.solver m p lo hi) lo hi τ)
    (opts : BubbleDew.Opts) (pg : Option ℚ) (hpg : ∀ P ∈ pg, 0 < P) (st : BubbleDew.State) (hps : psats env T opts.Pset E.xi.length = .ok sat)
    (hmix : (nonzero E.xi).length ≠ 1) (hglob : st.glob = none) :
    ∃ P st', dewJob env opts ⟨T, E.xi, pg⟩ st =
        ([.scal (some P), .vec (((List.zipWith (· / ·) E.xi sat).map (· / (List.zipWith (· / ·) E.xi sat).sum)).map some), .scal (some 0),
          .scal (some 1), .scal (some ((List.zipWith (· / ·) E.xi sat).sum * P - 1))], st') ∧
      |P - 1 / (List.zipWith (· / ·) E.xi sat).sum| ≤ τ := by
  have hQ : 0 < (List.zipWith (· / ·) E.xi sat).sum := one_div_pos.1 (hlo.trans hdown)
  obtain ⟨P, st', h, hd⟩ := dew_row env T sat C o E M H hrange hst ho h1 hlo k hk hQ hdown hup τ hs opts pg st sat hps hmix
  refine ⟨P, st', ?_, hd⟩
  have hg : (takeMethod opts st).2.glob = none := by
    unfold takeMethod
    split <;> exact hglob
  rw [h, hg]
  obtain ⟨P0, hP0, e⟩ : ∃ P0, 0 < P0 ∧ firstP pg E.xi sat = some P0 := by
    cases pg with
    | none => exact ⟨_, one_div_pos.2 hQ, initial_pressure_eq _ _ M.saturation hQ.ne'⟩
    | some P0 => exact ⟨P0, hpg P0 rfl, rfl⟩
  simp only [startGuess, e]
  rw [raoultLiquid_eq P0 hP0 E.xi sat M.saturation hQ.ne']

/-- **C164** is violated (dew point, after another calculation): the liquid composition that is returned is the one that the calculation before has left, whatever the
saturation pressures. -/
theorem c164_violated_dew (env : BubbleDew.Env) (T : ℚ) (sat : List ℚ) (C : Comp) (o : PressureRange.Opts ℚ) (E : PressureRange.Env ℚ) (M : RaoultVapor E sat)
    (H : FixedComposition (fun _ => True) env T E.xi C (fun P => (List.zipWith (· / ·) E.xi sat).sum * P - 1) (some 0) (some 1))
    (hrange : ∀ c tol, ∃ xi a, env.prange T E.xi c tol = (handedOver (DewRange.search o E xi), a))
    (hst : ∀ p, E.store p = p) (ho : GoodOpts o) (h1 : o.pmax = none) (hlo : 0 < PressureRange.lowLimit o E) (k : ℕ) (hk : k + 2 ≤ o.maxiter)
    (hdown : PressureRange.lowLimit o E < 1 / (List.zipWith (· / ·) E.xi sat).sum)
    (hup : 1 / (List.zipWith (· / ·) E.xi sat).sum < o.maxfactor ^ k * PressureRange.lowLimit o E)
    (τ : ℚ) (hs : ∀ m p lo hi, lo ≤ hi → Encloses (env.solver m p lo hi) lo hi τ)
    (opts : BubbleDew.Opts) (pg : Option ℚ) (st : BubbleDew.State) (ps : List ℚ) (hps : psats env T opts.Pset E.xi.length = .ok ps)
    (hmix : (nonzero E.xi).length ≠ 1) (c : Comp) (hglob : st.glob = some c) (hc : ∀ a ∈ c, a ≠ none) :
    ∃ P st', dewJob env opts ⟨T, E.xi, pg⟩ st = ([.scal (some P), .vec c, .scal (some 0),
        .scal (some 1), .scal (some ((List.zipWith (· / ·) E.xi sat).sum * P - 1))], st') ∧
      |P - 1 / (List.zipWith (· / ·) E.xi sat).sum| ≤ τ := by
  have hQ : 0 < (List.zipWith (· / ·) E.xi sat).sum := one_div_pos.1 (hlo.trans hdown)
  obtain ⟨P, st', h, hd⟩ := dew_row env T sat C o E M H hrange hst ho h1 hlo k hk hQ hdown hup τ hs opts pg st ps hps hmix
  refine ⟨P, st', ?_, hd⟩
  have hg : (takeMethod opts st).2.glob = some c := by
    unfold takeMethod
    split <;> exact hglob
  have hany : c.any Option.isNone = false := by
    rw [List.any_eq_false]
    intro a ha h
    exact hc a ha (Option.isNone_iff_eq_none.mp h)
  rw [h, hg]
  simp [startGuess, hany]

/-! ### Jobs that can be computed -/

/-- The bubble point of `equalParts`, with bisection. -/
def equalPartsPoint (n : ℕ) : BubbleDew.Env where
  psat := fun _ z => .ok (if z = [1, 0] then some 1000 else some 3000)
  prange := fun _ _ _ _ => (handedOver (PressureRange.search (rangeOpts none none) equalParts [1 / 2, 1 / 2]), none)
  inner := fun _ _ _ _ _ => (.ok [some (1 / 4), some (3 / 4)], none)
  objAt := fun _ _ _ P => .ok (some (2000 / P - 1))
  flagGiven := fun _ _ _ => .ok (some 1)
  flagSought := fun _ _ _ => .ok (some 0)
  solver := fun _ _ lo hi => bisection n lo hi

/-- The hypotheses of `c164_bubble`, and what twelve halvings of the range from 1000 Pa to 100000 Pa give. -/
example : FixedComposition (fun _ => True) (equalPartsPoint 12) 300 [1 / 2, 1 / 2] [some (1 / 4), some (3 / 4)] (fun P => 2000 / P - 1) (some 1) (some 0) ∧
    (bubbleJob (equalPartsPoint 12) {} ⟨300, [1 / 2, 1 / 2], none⟩ ⟨some [some (9 / 10), some (1 / 10)], none, none⟩).1[1]? =
      some (.vec [some (1 / 4), some (3 / 4)]) ∧
    (bubbleJob (equalPartsPoint 12) {} ⟨300, [1 / 2, 1 / 2], none⟩ ⟨some [some (9 / 10), some (1 / 10)], none, none⟩).1.head?.map (fun c =>
      match c with
      | .scal (some P) => decide (|P - 2000| ≤ 99000 / 2 ^ 12)
      | _ => false) = some true := by
  refine ⟨⟨trivial, fun _ _ _ _ _ => ⟨none, rfl⟩, ?_, fun _ _ => rfl, fun _ _ => rfl, fun _ _ _ => rfl⟩, ?_, ?_⟩ <;> decide +kernel

/-- The dew point of `equalVapor`, with bisection. -/
def equalVaporPoint (n : ℕ) : BubbleDew.Env where
  psat := fun _ z => .ok (if z = [1, 0] then some 1000 else some 3000)
  prange := fun _ _ _ _ => (handedOver (DewRange.search (rangeOpts none none) equalVapor [1 / 2, 1 / 2]), none)
  inner := fun _ _ _ _ _ => (.ok [some (3 / 4), some (1 / 4)], none)
  objAt := fun _ _ _ P => .ok (some (1 / 1500 * P - 1))
  flagGiven := fun _ _ _ => .ok (some 0)
  flagSought := fun _ _ _ => .ok (some 1)
  solver := fun _ _ lo hi => bisection n lo hi

/-- The hypotheses of `c164_dew` and `c164_violated_dew`, and what twelve halvings of the range give, at first and after another calculation. -/
example : FixedComposition (fun _ => True) (equalVaporPoint 12) 300 [1 / 2, 1 / 2] [some (3 / 4), some (1 / 4)] (fun P => 1 / 1500 * P - 1) (some 0) (some 1) ∧
    (dewJob (equalVaporPoint 12) {} ⟨300, [1 / 2, 1 / 2], none⟩ ⟨none, none, none⟩).1[1]? = some (.vec [some (3 / 4), some (1 / 4)]) ∧
    (dewJob (equalVaporPoint 12) {} ⟨300, [1 / 2, 1 / 2], none⟩ ⟨some [some (9 / 10), some (1 / 10)], none, none⟩).1[1]? =
      some (.vec [some (9 / 10), some (1 / 10)]) := by
  refine ⟨⟨trivial, fun _ _ _ _ _ => ⟨none, rfl⟩, ?_, fun _ _ => rfl, fun _ _ => rfl, fun _ _ _ => rfl⟩, ?_, ?_⟩ <;> decide +kernel

end Verif.Props
