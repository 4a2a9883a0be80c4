import Verif.Model.BubbleDew
import Mathlib.Tactic.FieldSimp
import Mathlib.Tactic.Ring

/-!
# C106: the initial guesses of bubble and dew points
-/

namespace Verif.Props
open Verif Verif.BubbleDew Verif.CalcTypes Verif.Parallel

/-- The sum of numbers none of which is NaN. -/
theorem csum_some (l : List ℚ) : csum (l.map some) = some l.sum := by
  induction l with
  | nil => rfl
  | cons a l ih => simp [csum, ih]

theorem nansum_some (l : List ℚ) : nansum (l.map some) = l.sum := by
  induction l with
  | nil => rfl
  | cons a l ih => simp [nansum, ih]

theorem sum_map_div (l : List ℚ) (s : ℚ) : (l.map (· / s)).sum = l.sum / s := by
  induction l with
  | nil => simp
  | cons a l ih => simp only [List.map_cons, List.sum_cons, ih]; ring

theorem sum_map_mul_left' (l : List ℚ) (s : ℚ) : (l.map (s * ·)).sum = s * l.sum := by
  induction l with
  | nil => simp
  | cons a l ih => simp only [List.map_cons, List.sum_cons, ih]; ring

/-- C106: numbers are divided by their sum, and then add up to one. -/
theorem c106_normalise (l : List ℚ) (h : l.sum ≠ 0) :
    normalise (l.map some) = (l.map (· / l.sum)).map some ∧ (l.map (· / l.sum)).sum = 1 := by
  refine ⟨?_, ?_⟩
  · simp [normalise, csum_some, h]
  · rw [sum_map_div, div_self h]

example : normalise [some 1, some 3] = [some (1 / 4), some (3 / 4)] := by decide +kernel

/-- C106: a NaN anywhere, or a sum of zero, makes every entry NaN. -/
theorem c106_normalise_nan (c : Comp) (h : none ∈ c ∨ csum c = some 0) :
    normalise c = c.map fun _ => none := by
  have hn : none ∈ c → csum c = none := by
    intro hm
    induction c with
    | nil => simp at hm
    | cons a l ih =>
      cases a with
      | none => simp [csum]
      | some x =>
        have hm' : none ∈ l := by simpa using hm
        have : csum l = none := by
          clear h
          induction l with
          | nil => simp at hm'
          | cons b l ihl =>
            cases b with
            | none => simp [csum]
            | some y => exact ih (Or.inl hm') hm'
        simp [csum, this]
  rcases h with h | h
  · simp [normalise, hn h]
  · simp only [normalise, h, if_true]
    apply List.map_congr_left
    intro a _
    cases a <;> rfl

example : normalise [some 1, none] = [none, none] := by decide +kernel
example : normalise [some 1, some (-1)] = [none, none] := by decide +kernel

/-- `runChunk` on calls that all succeed. -/
theorem runChunk_map {α β : Type} (f : α → Except PyErr β) (g : α → β) :
    ∀ l : List α, (∀ a ∈ l, f a = .ok (g a)) → runChunk f l = .ok (l.map g) := by
  intro l
  induction l with
  | nil => intro _; rfl
  | cons a l ih =>
    intro h
    have h1 := h a (by simp)
    have h2 := ih fun b hb => h b (by simp [hb])
    simp [runChunk, h1, h2]

/-- C106: the pure component pressures are the saturation pressures, and the set value for a component
above its critical point. -/
theorem c106_psats (env : Env) (T Pset : ℚ) (n : ℕ) (q : ℕ → Num)
    (h : ∀ i < n, env.psat T ((List.range n).map fun j => if j = i then 1 else 0) = .ok (q i)) :
    psats env T Pset n = .ok ((List.range n).map fun i => (q i).getD Pset) := by
  unfold psats
  apply runChunk_map
  intro i hi
  have := h i (by simpa using hi)
  simp only [pureComp, this]
  cases q i <;> rfl

/-- C106: an exception of a saturation search leaves the calculation. -/
theorem c106_psats_error (env : Env) (T Pset : ℚ) (n i : ℕ) (e : PyErr) (hi : i < n)
    (h : env.psat T ((List.range n).map fun j => if j = i then 1 else 0) = .error e) :
    ∃ e', psats env T Pset n = .error e' := by
  unfold psats
  have key : ∀ l : List ℕ, i ∈ l → ∃ e', runChunk (fun i =>
      match env.psat T (pureComp n i) with
      | .error e => .error e
      | .ok none => .ok Pset
      | .ok (some p) => .ok p) l = .error e' := by
    intro l
    induction l with
    | nil => intro h; simp at h
    | cons a l ih =>
      intro hm
      rcases List.mem_cons.1 hm with rfl | hm
      · exact ⟨e, by simp [runChunk, pureComp, h]⟩
      · obtain ⟨e', he⟩ := ih hm
        simp only [runChunk, he]
        rcases env.psat T (pureComp n a) with _ | _ | _ <;> simp
  exact key _ (by simpa using hi)

theorem zipWith_qdiv : ∀ (z ps : List ℚ), (∀ p ∈ ps, p ≠ 0) →
    List.zipWith qdiv z ps = (List.zipWith (· / ·) z ps).map some := by
  intro z
  induction z with
  | nil => intro ps _; simp
  | cons a z ih =>
    intro ps h
    cases ps with
    | nil => simp
    | cons p ps =>
      have := h p (by simp)
      simp [qdiv, this, ih ps fun q hq => h q (by simp [hq])]

/-- C106: the pressure of the ideal estimate is the ideal dew pressure of the given composition: the
one at which the ideal liquid `z_i P / P_i` in equilibrium with it adds up to one. -/
theorem c106_initial (z ps : List ℚ) (hp : ∀ p ∈ ps, p ≠ 0)
    (hs : (List.zipWith (· / ·) z ps).sum ≠ 0) :
    ∃ P, initialP z ps = some P ∧ (List.zipWith (fun z p => P * (z / p)) z ps).sum = 1 ∧ P ≠ 0 := by
  refine ⟨1 / (List.zipWith (· / ·) z ps).sum, ?_, ?_, ?_⟩
  · simp only [initialP, zipWith_qdiv z ps hp, csum_some, Option.bind_some, qdiv, hs, if_false]
  · have : ∀ s : ℚ, List.zipWith (fun z p => s * (z / p)) z ps
        = (List.zipWith (· / ·) z ps).map (s * ·) := by
      intro s
      rw [List.map_zipWith]
    rw [this, sum_map_mul_left', one_div, inv_mul_cancel₀ hs]
  · simp [hs]

example : initialP [1 / 2, 1 / 2] [2, 6] = some 3 := by decide +kernel

theorem zipWith_vapor (P : ℚ) (hP : P ≠ 0) (xi ps : List ℚ) :
    List.zipWith (fun x p => (some P : Num).bind fun P => qdiv (x * p) P) xi ps
      = ((List.zipWith (· * ·) xi ps).map (· / P)).map some := by
  rw [List.map_zipWith, List.map_zipWith]
  simp [qdiv, hP]

/-- C106: the guess of the vapor is Raoult's law: the partial pressures divided by their sum, whatever
the pressure it was made with. -/
theorem c106_raoult_vapor (P : ℚ) (hP : P ≠ 0) (xi ps : List ℚ)
    (hs : (List.zipWith (· * ·) xi ps).sum ≠ 0) :
    raoultVapor (some P) xi ps
      = ((List.zipWith (· * ·) xi ps).map (· / (List.zipWith (· * ·) xi ps).sum)).map some ∧
    ((List.zipWith (· * ·) xi ps).map (· / (List.zipWith (· * ·) xi ps).sum)).sum = 1 := by
  refine ⟨?_, by rw [sum_map_div, div_self hs]⟩
  unfold raoultVapor
  rw [zipWith_vapor P hP]
  set w := List.zipWith (· * ·) xi ps
  have hw : w.sum / P ≠ 0 := div_ne_zero hs hP
  simp only [nansum_some, sum_map_div]
  simp only [List.map_map]
  apply List.map_congr_left
  intro a _
  simp only [Function.comp, qdiv, hw, if_false, Option.bind_some]
  rw [div_div_div_cancel_right₀ hP]

example : raoultVapor (some 5) [1 / 4, 3 / 4] [8, 2] = [some (4 / 7), some (3 / 7)] := by
  decide +kernel

theorem zipWith_liquid (P : ℚ) (yi ps : List ℚ) (hp : ∀ p ∈ ps, p ≠ 0) :
    List.zipWith (fun y p => (some P : Num).bind fun P => (qdiv y p).map (P * ·)) yi ps
      = ((List.zipWith (· / ·) yi ps).map (P * ·)).map some := by
  induction yi generalizing ps with
  | nil => simp
  | cons a z ih =>
    cases ps with
    | nil => simp
    | cons p ps =>
      have := hp p (by simp)
      simp only [List.zipWith_cons_cons, List.map_cons, ih ps fun q hq => hp q (by simp [hq])]
      simp [qdiv, this]

/-- C106: the guess of the liquid is Raoult's law: the ratios to the saturation pressures divided by
their sum, whatever the pressure it was made with. -/
theorem c106_raoult_liquid (P : ℚ) (hP : P ≠ 0) (yi ps : List ℚ) (hp : ∀ p ∈ ps, p ≠ 0)
    (hs : (List.zipWith (· / ·) yi ps).sum ≠ 0) :
    raoultLiquid (some P) yi ps
      = ((List.zipWith (· / ·) yi ps).map (· / (List.zipWith (· / ·) yi ps).sum)).map some ∧
    ((List.zipWith (· / ·) yi ps).map (· / (List.zipWith (· / ·) yi ps).sum)).sum = 1 := by
  refine ⟨?_, by rw [sum_map_div, div_self hs]⟩
  unfold raoultLiquid
  rw [zipWith_liquid P yi ps hp]
  set w := List.zipWith (· / ·) yi ps
  have hw : (w.map (P * ·)).sum ≠ 0 := by rw [sum_map_mul_left']; exact mul_ne_zero hP hs
  rw [(c106_normalise _ hw).1, sum_map_mul_left', List.map_map, List.map_map, List.map_map]
  apply List.map_congr_left
  intro a _
  simp only [Function.comp]
  rw [mul_div_mul_left _ _ hP]

example : raoultLiquid (some 5) [1 / 4, 3 / 4] [8, 2] = [some (1 / 13), some (12 / 13)] := by
  decide +kernel

/-- C106: the two estimates are inverse to one another: from the vapor estimated for a liquid, the
liquid estimated for that vapor is the liquid one started from. -/
theorem c106_raoult_inverse (P Q : ℚ) (hP : P ≠ 0) (hQ : Q ≠ 0) (xi ps yi : List ℚ)
    (hl : xi.length = ps.length) (hp : ∀ p ∈ ps, p ≠ 0) (hx : xi.sum = 1)
    (hs : (List.zipWith (· * ·) xi ps).sum ≠ 0)
    (hy : raoultVapor (some P) xi ps = yi.map some) :
    raoultLiquid (some Q) yi ps = xi.map some := by
  rw [(c106_raoult_vapor P hP xi ps hs).1] at hy
  have hy' := (List.map_injective_iff.2 (Option.some_injective _)) hy
  subst hy'
  generalize (List.zipWith (· * ·) xi ps).sum = s at hs
  have key : ∀ (xi ps : List ℚ), xi.length = ps.length → (∀ p ∈ ps, p ≠ 0) →
      List.zipWith (· / ·) ((List.zipWith (· * ·) xi ps).map (· / s)) ps = xi.map (· / s) := by
    intro xi
    induction xi with
    | nil => intro ps _ _; simp
    | cons x xi ih =>
      intro ps hl hp
      cases ps with
      | nil => simp at hl
      | cons p ps =>
        have hp0 : p ≠ 0 := hp p (by simp)
        simp only [List.zipWith_cons_cons, List.map_cons]
        rw [ih ps (by simpa using hl) fun q hq => hp q (by simp [hq])]
        congr 1
        field_simp
  have h2 := key xi ps hl hp
  have hs2 : (xi.map (· / s)).sum = 1 / s := by rw [sum_map_div, hx]
  have h3 := (c106_raoult_liquid Q hQ _ ps hp (by rw [h2, hs2]; exact one_div_ne_zero hs)).1
  rw [h3, h2, hs2, List.map_map, List.map_map]
  apply List.map_congr_left
  intro a _
  simp only [Function.comp]
  congr 1
  field_simp

/-- C106: made with a pressure of zero, which a guess of the user may be, the estimate of the vapor is
NaN in every entry. -/
theorem c106_violated_zero (xi ps : List ℚ) (hl : xi.length = ps.length) :
    raoultVapor (some 0) xi ps = xi.map fun _ => none := by
  unfold raoultVapor
  generalize nansum _ = s
  simp only [List.map_zipWith]
  induction xi generalizing ps with
  | nil => simp
  | cons x xi ih =>
    cases ps with
    | nil => simp at hl
    | cons p ps => simp [qdiv] at *; exact ih ps hl

/-- C106: the search starts from the pressure guessed by the user if that lies in the range found, and
from the estimate otherwise. -/
theorem c106_start (lo hi : ℚ) (est : Num) :
    (∀ p, lo ≤ p → p ≤ hi → startP (some p) lo hi est = some p) ∧
    (∀ p, p < lo ∨ hi < p → startP (some p) lo hi est = est) ∧ startP none lo hi est = est := by
  refine ⟨fun p h1 h2 => ?_, fun p h => ?_, rfl⟩
  · simp only [startP]
    rw [if_neg]
    rintro (h | h)
    · exact absurd h (not_lt.2 h2)
    · exact absurd h (not_lt.2 h1)
  · simp only [startP]
    rw [if_pos]
    rcases h with h | h
    · exact Or.inr h
    · exact Or.inl h

example : startP (some 3) 1 5 (some 2) = some 3 ∧ startP (some 7) 1 5 (some 2) = some 2 := by
  decide +kernel

/-- C106: when no range was found (one end is NaN) the calculation raises `ValueError`. -/
theorem c106_no_range (env : Env) (raoult : Num → List ℚ → List ℚ → Comp) (Pset : ℚ)
    (method : String) (Pguess : Option ℚ) (T : ℚ) (given : List ℚ) (st : State) (ps : List ℚ)
    (hps : psats env T Pset given.length = .ok ps)
    (hr : ∀ start tol, ∃ lo hi est a, env.prange T given start tol = (.ok (lo, hi, est), a) ∧
      (lo = none ∨ hi = none)) :
    (calcPoint env raoult Pset method Pguess T given st).1 = .error .valueError := by
  obtain ⟨lo, hi, est, a, h, hn⟩ := hr
    (startGuess st.glob (raoult (firstP Pguess given ps) given ps)) st.tol
  simp only [calcPoint, hps, h]
  cases lo with
  | none => rfl
  | some lo =>
    cases hi with
    | none => rfl
    | some hi => simp at hn

end Verif.Props
