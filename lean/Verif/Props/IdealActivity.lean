import Verif.Props.Rows
import Verif.Props.IdealFlash
import Verif.Props.RaoultBatch

/-!
# C165: activity coefficients of an ideal mixture

A mixture that follows the law of Raoult has the activity coefficients one.  Here the job for activity coefficients is followed to them, in the modes in
which it finds the phases itself.
-/

namespace Verif.Props

open Verif Verif.BubbleDew Verif.CalcTypes Verif.Rows

private theorem known_some (l : List ℚ) : known (l.map some) = .ok l := by
  have : (l.map some).mapM id = some l := by
    induction l with
    | nil => rfl
    | cons a l ih => simp only [List.map_cons, List.mapM_cons, id, ih]; rfl
  simp [known, this]

private theorem bubble_gammas (P S : ℚ) (hS : S ≠ 0) : ∀ x sat : List ℚ, (∀ a ∈ x, 0 < a) → (∀ a ∈ sat, 0 < a) → sat.length = x.length →
    gammas (some P) (x.map some) (((List.zipWith (· * ·) x sat).map (· / S)).map some) (sat.map some) = List.replicate x.length (some (P / S)) := by
  intro x
  induction x with
  | nil => intro sat _ _ h; cases sat <;> simp_all [gammas]
  | cons a x ih =>
    intro sat hx hs hl
    cases sat with
    | nil => simp at hl
    | cons b sat =>
      have h := ih sat (fun c hc => hx c (by simp [hc])) (fun c hc => hs c (by simp [hc])) (by simpa using hl)
      have ha : a ≠ 0 := (hx a (by simp)).ne'
      have hb : b ≠ 0 := (hs b (by simp)).ne'
      unfold gammas at h ⊢
      simp only [List.zipWith_cons_cons, List.map_cons, h, List.length_cons, List.replicate_succ]
      congr 1
      simp only [ndiv, nmul, Option.bind_some, Option.map_some, qdiv, if_neg (mul_ne_zero hb ha)]
      congr 1
      field_simp

private theorem dew_gammas (P Q : ℚ) (hQ : Q ≠ 0) : ∀ y sat : List ℚ, (∀ a ∈ y, 0 < a) → (∀ a ∈ sat, 0 < a) → sat.length = y.length →
    gammas (some P) (((List.zipWith (· / ·) y sat).map (· / Q)).map some) (y.map some) (sat.map some) = List.replicate y.length (some (P * Q)) := by
  intro y
  induction y with
  | nil => intro sat _ _ h; cases sat <;> simp_all [gammas]
  | cons a y ih =>
    intro sat hx hs hl
    cases sat with
    | nil => simp at hl
    | cons b sat =>
      have h := ih sat (fun c hc => hx c (by simp [hc])) (fun c hc => hs c (by simp [hc])) (by simpa using hl)
      have ha : a ≠ 0 := (hx a (by simp)).ne'
      have hb : b ≠ 0 := (hs b (by simp)).ne'
      unfold gammas at h ⊢
      simp only [List.zipWith_cons_cons, List.map_cons, h, List.length_cons, List.replicate_succ]
      congr 1
      have hd : b * (a / b / Q) ≠ 0 := mul_ne_zero hb (div_ne_zero (div_ne_zero ha hb) hQ)
      simp only [ndiv, nmul, Option.bind_some, Option.map_some, qdiv, if_neg hd]
      congr 1
      field_simp

/-- A row that is not a failed one comes from a calculation that did not raise. -/
private theorem row_calc {env : BubbleDew.Env} {ra : Num → List ℚ → List ℚ → Comp} {pick : Result → Comp} {flags : Num → Num → List (Parallel.Cell Num)}
    {opts : BubbleDew.Opts} {p : BubbleDew.Point} {st st' : BubbleDew.State} {P : ℚ} {row : Out} (hmix : (nonzero p.given).length ≠ 1)
    (h : pointJob env ra pick flags opts p st = (.scal (some P) :: row, st')) :
    ∃ r, calcPoint env ra opts.Pset (takeMethod opts st).1 p.Pguess p.T p.given (takeMethod opts st).2 = (.ok r, st') ∧ r.P = P ∧
      row = .vec (pick r) :: (flags r.flagSought r.flagGiven ++ [.scal r.obj]) := by
  unfold pointJob at h
  simp only [if_neg hmix] at h
  cases hc : calcPoint env ra opts.Pset (takeMethod opts st).1 p.Pguess p.T p.given (takeMethod opts st).2 with
  | mk res s =>
    rw [hc] at h
    cases res with
    | error e => simp at h
    | ok r =>
      simp only [Prod.mk.injEq, List.cons_append, List.nil_append, List.cons.injEq, Parallel.Cell.scal.injEq, Option.some.injEq] at h
      obtain ⟨⟨h1, h2⟩, h3⟩ := h
      exact ⟨r, by rw [h3], h1, h2.symm⟩

/-- **C165** (liquid given): the row has the bubble pressure of Raoult's law within `τ`, its vapour, and one coefficient for all components, which differs from one by no more than `τ`
divided by the bubble pressure.  From nothing or from a good guess left by the point before; it leaves a good guess. -/
theorem c165_bubble {env envD : BubbleDew.Env} {opts : BubbleDew.Opts} {τ : ℚ} {p : BubbleDew.Point} {sat : List ℚ} (I : IdealBubble env opts τ p sat)
    (fl : ℚ → Num → Except PyErr FlashResult) (nc : ℕ) (Pin : Num) (yin : Comp)
    (hps : purePressures envD p.T p.given.length = .ok (sat.map some)) (st : BubbleDew.State)
    (hst : st.glob = none ∨ ∃ y, st.glob = some (y.map some) ∧ goodGuess p.given.length y) :
    ∃ P γ ob st', activityJob envD env fl nc opts .bubblePoint ⟨p.T, Pin, p.given.map some, yin, p.Pguess⟩ st =
        ([.scal (some p.T), .scal (some P), .vec (p.given.map some), .vec ((raoultComposition p.given sat).map some), .scal (some 0), .scal (some 1), .scal ob,
          .vec (sat.map some), .vec (List.replicate p.given.length (some γ))], st') ∧
      st'.glob = some ((raoultComposition p.given sat).map some) ∧ goodGuess p.given.length (raoultComposition p.given sat) ∧
      |P - (List.zipWith (· * ·) p.given sat).sum| ≤ τ ∧ |γ - 1| ≤ τ / (List.zipWith (· * ·) p.given sat).sum := by
  obtain ⟨P, st', h1, h2, h3, h4⟩ := c164_bubble_loop I st hst
  obtain ⟨r, hc, rP, hr⟩ := row_calc I.mixture h1
  simp only [List.cons_append, List.nil_append, List.cons.injEq, Parallel.Cell.scal.injEq, Parallel.Cell.vec.injEq, bubbleComp, and_true] at hr
  obtain ⟨r1, r2, r3, r4⟩ := hr
  have hS : 0 < (List.zipWith (· * ·) p.given sat).sum := (mul_pos (pow_pos I.good.min _) I.low).trans I.down
  refine ⟨P, P / (List.zipWith (· * ·) p.given sat).sum, r.obj, st', ?_, h2, h3, h4, ?_⟩
  · have hl : (raoultComposition p.given sat).length = p.given.length := h3.1
    simp only [activityJob, phases, known_some, hc, bubbleComp, ← r1, ← r2, ← r3, rP, activity, List.length_map, hps, hl, if_true]
    rw [raoultComposition, bubble_gammas P _ hS.ne' p.given sat I.positive I.saturation I.length]
  · rw [show P / (List.zipWith (· * ·) p.given sat).sum - 1 = (P - (List.zipWith (· * ·) p.given sat).sum) / (List.zipWith (· * ·) p.given sat).sum by
      rw [sub_div, div_self hS.ne'], abs_div, abs_of_pos hS]
    exact div_le_div_of_nonneg_right h4 hS.le

/-- **C165** (a batch of liquids): the same for every row of a batch of mixtures of the same number of components. -/
theorem c165_bubble_batch (env envD : BubbleDew.Env) (opts : BubbleDew.Opts) (τ : ℚ) (n nc : ℕ) (fl : ℚ → Num → Except PyErr FlashResult) (pts : List (BubbleDew.Point × List ℚ))
    (h : ∀ q ∈ pts, q.1.given.length = n ∧ Nonempty (IdealBubble env opts τ q.1 q.2) ∧ purePressures envD q.1.T n = .ok (q.2.map some)) (st : BubbleDew.State)
    (hst : st.glob = none ∨ ∃ y, st.glob = some (y.map some) ∧ goodGuess n y) :
    List.Forall₂ (fun q row => ∃ γ, row.getLast? = some (.vec (List.replicate n (some γ))) ∧ |γ - 1| ≤ τ / (List.zipWith (· * ·) q.1.given q.2).sum)
      pts (activityRows envD env fl nc opts .bubblePoint (pts.map fun q => ⟨q.1.T, none, q.1.given.map some, [], q.1.Pguess⟩) st) := by
  induction pts generalizing st with
  | nil => exact .nil
  | cons q pts ih =>
    obtain ⟨hn, ⟨I⟩, hps⟩ := h q (by simp)
    obtain ⟨P, γ, ob, st', h1, h2, h3, h4, h5⟩ := c165_bubble I fl nc none [] (by rw [hn]; exact hps) st (by rw [hn]; exact hst)
    simp only [List.map_cons, activityRows, h1]
    refine .cons ⟨γ, by rw [hn]; rfl, h5⟩ (ih (fun r hr => h r (by simp [hr])) st' (.inr ⟨_, h2, by rw [← hn]; exact h3⟩))

/-- **C165** (temperature and pressure given): the coefficients are exactly one. -/
theorem c165_flash (envD envB : BubbleDew.Env) (opts : BubbleDew.Opts) (T P setP u p1 p2 : ℚ) (o : Flash.Opts ℚ) (fl fv : ℕ) (hP : 0 < P)
    (H : IdealFlash o (p1 / P) (p2 / P) fl fv) (hit : 2 ≤ o.maxiter) (h1 : ¬ IsVapor fl) (h2 : fv ≠ 1) (hu : 0 < u ∧ u < 1)
    (hp1 : 0 < p1) (hp2 : 0 < p2) (hm1 : P ≠ p1) (hm2 : P ≠ p2)
    (calcf : ℚ → Num → Except PyErr FlashResult)
    (hf : calcf T (some P) = (Flash.calcFlash o 2 P setP u (some p1, some p2)).map fun r =>
      ⟨[some r.x.1, some r.x.2], some r.flagl, [some r.y.1, some r.y.2], some r.flagv, some r.err⟩)
    (hps : purePressures envD T 2 = .ok [some p1, some p2]) (nc : ℕ) (xi yi : Comp) (pg : Option ℚ) (st : BubbleDew.State) :
    (activityJob envD envB calcf nc opts .flash ⟨T, some P, xi, yi, pg⟩ st).1.getLast? = some (.vec [some 1, some 1]) := by
  have e := c161_raoult o P setP u p1 p2 fl fv hP H hit h1 h2 hu
  rw [e] at hf
  have hne : p1 - p2 ≠ 0 := by
    intro h
    exact H.ne (by rw [sub_eq_zero.1 h])
  have hx1 : (P - p2) / (p1 - p2) ≠ 0 := div_ne_zero (sub_ne_zero.2 hm2) hne
  have hx2 : (p1 - P) / (p1 - p2) ≠ 0 := div_ne_zero (sub_ne_zero.2 hm1.symm) hne
  have key : ∀ s x : ℚ, s ≠ 0 → x ≠ 0 → ndiv (nmul (some (s * x / P)) (some P)) (nmul (some s) (some x)) = some 1 := by
    intro s x hs hx
    simp only [ndiv, nmul, Option.bind_some, Option.map_some, qdiv, if_neg (mul_ne_zero hs hx)]
    rw [div_mul_cancel₀ _ hP.ne', div_self (mul_ne_zero hs hx)]
  simp only [activityJob, phases, hf, Except.map, activity, List.length_cons, List.length_nil, hps, if_true, gammas, List.zipWith_cons_cons,
    List.zipWith_nil_left, key p1 _ hp1.ne' hx1, key p2 _ hp2.ne' hx2]
  rfl

/-- What the job for activity coefficients makes of the row of a dew point. -/
private theorem dew_activity (env envB : BubbleDew.Env) (opts : BubbleDew.Opts) (fl : ℚ → Num → Except PyErr FlashResult) (nc : ℕ) (p : BubbleDew.Point)
    (hmix : (nonzero p.given).length ≠ 1) (st st' : BubbleDew.State) (P : ℚ) (c : Comp) (f1 f2 ob : Num) (sat : List ℚ)
    (h : dewJob env opts p st = ([.scal (some P), .vec c, .scal f1, .scal f2, .scal ob], st')) (hc : c.length = p.given.length)
    (hps : purePressures env p.T p.given.length = .ok (sat.map some)) (Pin : Num) (xin : Comp) :
    activityJob env envB fl nc opts .dewPoint ⟨p.T, Pin, xin, p.given.map some, p.Pguess⟩ st =
      ([.scal (some p.T), .scal (some P), .vec c, .vec (p.given.map some), .scal f1, .scal f2, .scal ob, .vec (sat.map some),
        .vec (gammas (some P) c (p.given.map some) (sat.map some))], st') := by
  obtain ⟨r, hcalc, rP, hr⟩ := row_calc hmix h
  simp only [List.cons_append, List.nil_append, List.cons.injEq, Parallel.Cell.scal.injEq, Parallel.Cell.vec.injEq, and_true] at hr
  obtain ⟨r1, r2, r3, r4⟩ := hr
  simp only [activityJob, phases, known_some, hcalc, ← r1, ← r2, ← r3, ← r4, rP, activity, hc, hps, List.length_map, if_true]

/-- **C165** (vapour given, nothing left of an earlier calculation): one coefficient for all components, which differs from one by no more than `τ` divided
by the dew pressure. -/
theorem c165_dew (env envB : BubbleDew.Env) (T : ℚ) (sat : List ℚ) (C : Comp) (o : PressureRange.Opts ℚ) (E : PressureRange.Env ℚ) (M : RaoultVapor E sat)
    (H : FixedComposition (fun _ => True) env T E.xi C (fun P => (List.zipWith (· / ·) E.xi sat).sum * P - 1) (some 0) (some 1))
    (hrange : ∀ c tol, ∃ xi a, env.prange T E.xi c tol = (handedOver (DewRange.search o E xi), a))
    (hst : ∀ p, E.store p = p) (ho : GoodOpts o) (h1 : o.pmax = none) (hlo : 0 < PressureRange.lowLimit o E) (k : ℕ) (hk : k + 2 ≤ o.maxiter)
    (hdown : PressureRange.lowLimit o E < 1 / (List.zipWith (· / ·) E.xi sat).sum)
    (hup : 1 / (List.zipWith (· / ·) E.xi sat).sum < o.maxfactor ^ k * PressureRange.lowLimit o E)
    (τ : ℚ) (hs : ∀ m p lo hi, lo ≤ hi → Encloses (env.solver m p lo hi) lo hi τ)
    (opts : BubbleDew.Opts) (pg : Option ℚ) (hpg : ∀ P ∈ pg, 0 < P) (st : BubbleDew.State) (hps : psats env T opts.Pset E.xi.length = .ok sat)
    (hpure : purePressures env T E.xi.length = .ok (sat.map some)) (hmix : (nonzero E.xi).length ≠ 1) (hglob : st.glob = none)
    (fl : ℚ → Num → Except PyErr FlashResult) (nc : ℕ) (Pin : Num) (xin : Comp) :
    ∃ γ, (activityJob env envB fl nc opts .dewPoint ⟨T, Pin, xin, E.xi.map some, pg⟩ st).1.getLast? = some (.vec (List.replicate E.xi.length (some γ))) ∧
      |γ - 1| ≤ τ * (List.zipWith (· / ·) E.xi sat).sum := by
  obtain ⟨P, st', h, hd⟩ := c164_dew env T sat C o E M H hrange hst ho h1 hlo k hk hdown hup τ hs opts pg hpg st hps hmix hglob
  have hQ : 0 < (List.zipWith (· / ·) E.xi sat).sum := one_div_pos.1 (hlo.trans hdown)
  have e := dew_activity env envB opts fl nc ⟨T, E.xi, pg⟩ hmix st st' P _ _ _ _ sat h (by simp [M.length]) hpure Pin xin
  refine ⟨P * (List.zipWith (· / ·) E.xi sat).sum, ?_, ?_⟩
  · rw [e, ← dew_gammas P _ hQ.ne' E.xi sat M.positive M.saturation M.length]
    rfl
  · have : P * (List.zipWith (· / ·) E.xi sat).sum - 1 = (P - 1 / (List.zipWith (· / ·) E.xi sat).sum) * (List.zipWith (· / ·) E.xi sat).sum := by
      field_simp
    rw [this, abs_mul, abs_of_pos hQ]
    exact mul_le_mul_of_nonneg_right hd hQ.le

/-- **C165** is violated (vapour given, after another calculation): the coefficients are those of the liquid that the calculation before has left, so that they
are one only if that was the liquid of Raoult's law. -/
theorem c165_violated_dew (env envB : BubbleDew.Env) (T : ℚ) (sat : List ℚ) (C : Comp) (o : PressureRange.Opts ℚ) (E : PressureRange.Env ℚ) (M : RaoultVapor E sat)
    (H : FixedComposition (fun _ => True) env T E.xi C (fun P => (List.zipWith (· / ·) E.xi sat).sum * P - 1) (some 0) (some 1))
    (hrange : ∀ c tol, ∃ xi a, env.prange T E.xi c tol = (handedOver (DewRange.search o E xi), a))
    (hst : ∀ p, E.store p = p) (ho : GoodOpts o) (h1 : o.pmax = none) (hlo : 0 < PressureRange.lowLimit o E) (k : ℕ) (hk : k + 2 ≤ o.maxiter)
    (hdown : PressureRange.lowLimit o E < 1 / (List.zipWith (· / ·) E.xi sat).sum)
    (hup : 1 / (List.zipWith (· / ·) E.xi sat).sum < o.maxfactor ^ k * PressureRange.lowLimit o E)
    (τ : ℚ) (hs : ∀ m p lo hi, lo ≤ hi → Encloses (env.solver m p lo hi) lo hi τ)
    (opts : BubbleDew.Opts) (pg : Option ℚ) (st : BubbleDew.State) (hps : psats env T opts.Pset E.xi.length = .ok sat)
    (hpure : purePressures env T E.xi.length = .ok (sat.map some)) (hmix : (nonzero E.xi).length ≠ 1) (c : List ℚ) (hglob : st.glob = some (c.map some))
    (hc : c.length = E.xi.length) (fl : ℚ → Num → Except PyErr FlashResult) (nc : ℕ) (Pin : Num) (xin : Comp) :
    ∃ P g, (activityJob env envB fl nc opts .dewPoint ⟨T, Pin, xin, E.xi.map some, pg⟩ st).1.getLast? = some (.vec g) ∧
      |P - 1 / (List.zipWith (· / ·) E.xi sat).sum| ≤ τ ∧
      ∀ (i : ℕ) (y s x : ℚ), E.xi[i]? = some y → sat[i]? = some s → c[i]? = some x → x ≠ 0 → g[i]? = some (some (y * P / (s * x))) ∧
        (g[i]? = some (some 1) → x = y * P / s) := by
  obtain ⟨P, st', h, hd⟩ := c164_violated_dew env T sat C o E M H hrange hst ho h1 hlo k hk hdown hup τ hs opts pg st sat hps hmix _ hglob (by simp)
  have e := dew_activity env envB opts fl nc ⟨T, E.xi, pg⟩ hmix st st' P _ _ _ _ sat h (by simpa using hc) hpure Pin xin
  refine ⟨P, _, by rw [e]; rfl, hd, ?_⟩
  intro i y s x hy hs' hx hx0
  have hs0 : s ≠ 0 := (M.saturation s (List.mem_of_getElem? hs')).ne'
  have hg : (gammas (some P) (c.map some) (E.xi.map some) (sat.map some))[i]? = some (some (y * P / (s * x))) := by
    simp [gammas, List.getElem?_zipWith, List.getElem?_map, hy, hs', hx, ndiv, nmul, qdiv, hs0, hx0]
  refine ⟨hg, fun h1 => ?_⟩
  rw [hg] at h1
  simp only [Option.some.injEq] at h1
  field_simp at h1 ⊢
  linarith

/-! ### Rows that can be computed -/

/-- Vapours of two substances of 1000 Pa and 3000 Pa. -/
def vapors : BubbleDew.Env where
  psat := fun _ z => .ok (if z = [1, 0] then some 1000 else some 3000)
  prange := fun _ _ _ _ => (.ok (some 1000, some 4000, none), none)
  inner := fun _ z _ _ _ =>
    let x := List.zipWith (· / ·) z [1000, 3000]
    (.ok (x.map fun a => some (a / x.sum)), none)
  objAt := fun _ z _ P => .ok (some ((List.zipWith (· / ·) z [1000, 3000]).sum * P - 1))
  flagGiven := fun _ _ _ => .ok (some 0)
  flagSought := fun _ _ _ => .ok (some 1)
  solver := fun _ _ lo hi => bisectTo 10 lo hi

/-- **C165** is violated: the coefficients of the second vapour of a batch. -/
theorem c165_violated_batch :
    (activityRows vapors vapors (fun _ _ => .error .valueError) 2 {} .dewPoint
      [⟨300, none, [], [some (1 / 2), some (1 / 2)], none⟩, ⟨300, none, [], [some (1 / 4), some (3 / 4)], none⟩] ⟨none, none, none⟩).map (fun row =>
        match row.getLast? with
        | some (.vec [some a, some b]) => some (decide (|a - 1| ≤ 1 / 100), decide (|b - 1| ≤ 1 / 100), decide (|a - 2 / 3| ≤ 1 / 100), decide (|b - 2| ≤ 1 / 100))
        | _ => none) =
      [some (true, true, false, false), some (false, false, true, true)] := by
  decide +kernel

/-- The saturation pressures that `c165_bubble` asks for, beside the hypotheses of `c164_bubble_loop`, and the coefficients of two liquids of a batch. -/
example : purePressures (gasPoint 100) 300 2 = .ok [some 1000, some 3000] ∧
    (activityRows (gasPoint 100) (gasPoint 100) (fun _ _ => .error .valueError) 2 {} .bubblePoint
      [⟨300, none, [some (1 / 2), some (1 / 2)], [], none⟩, ⟨450, none, [some (1 / 2), some (1 / 2)], [], none⟩] ⟨none, none, none⟩).map (fun row =>
        match row.getLast? with
        | some (.vec [some a, some b]) => some (decide (a = b), decide (|a - 1| ≤ 100 / 2000))
        | _ => none) = [some (true, true), some (true, true)] := by
  constructor <;> decide +kernel

/-- The coefficients of a flash, with saturation pressures of 3 and 1/2 at the pressure 1, as in the example of `c161_raoult`. -/
example :
    (activityJob { vapors with psat := fun _ z => .ok (if z = [1, 0] then some 3 else some (1 / 2)) } vapors (fun _ _ =>
      (Flash.calcFlash { nearCritical with maxiter := 5, fug := fun _ _ => .ok ⟨(.fin 3, .fin (1 / 2)), 1, 0⟩ } 2 1 1 (1 / 2) (some 3, some (1 / 2))).map fun r =>
        ⟨[some r.x.1, some r.x.2], some r.flagl, [some r.y.1, some r.y.2], some r.flagv, some r.err⟩) 2 {} .flash ⟨300, some 1, [], [], none⟩ ⟨none, none, none⟩).1.getLast? =
      some (.vec [some 1, some 1]) := by
  decide +kernel

end Verif.Props
