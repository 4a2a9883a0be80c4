import Verif.Spec.SolveRoot
import Mathlib.Tactic.Tauto

/-!
# C03: solver selection, and C51: bounds are handed to bounded solvers
-/

namespace Verif.Props
open Verif Verif.SolveRoot Verif.Spec

variable {ν : Type} [DecidableEq ν]

omit [DecidableEq ν] in
/-- Rows accepted by the length check have two entries each. -/
theorem c03_rows_are_pairs (mu : Bool) (rows : List (Row ν)) (rs : List (List (Item ν)))
    (h : checkRows mu rows = .ok rs) : rows = rs.map Row.row ∧ ∀ r ∈ rs, r.length = 2 := by
  induction rows generalizing rs with
  | nil => simp only [checkRows, Except.ok.injEq] at h; subst h; simp
  | cons r rows ih =>
    cases r with
    | none => simp [checkRows] at h
    | num v => simp [checkRows] at h
    | row l =>
      unfold checkRows at h
      split at h
      · cases h
      · split at h
        · cases h
        · rename_i hl hm
          split at h
          · cases h
          · rename_i rs' hrs
            cases h
            obtain ⟨h1, h2⟩ := ih rs' hrs
            constructor
            · simp [h1]
            · intro r hr
              simp only [List.mem_cons] at hr
              rcases hr with rfl | hr
              · omega
              · exact h2 r hr

/-- **C03, violated (1).** With no guess, minimisers and least squares are run without one. -/
theorem c03_violated_no_guess (lo hi : ν) :
    ∃ c, solveRoot .tnc .none (onePair lo hi false) = .ok c ∧ ¬ Applicable c := by
  refine ⟨⟨.tnc, .none, none⟩, rfl, ?_⟩
  simp [Applicable, Bracketing]

/-- **C03, violated (2).** A bracketing solver is run with an end point `None`. -/
theorem c03_violated_none_endpoint (hi : ν) :
    ∃ c, solveRoot .bisect .scalar (.seq true [.none, .num hi]) = .ok c ∧ ¬ Applicable c := by
  refine ⟨⟨.bisect, .scalar, some [[.none, .num hi]]⟩, rfl, ?_⟩
  simp [Applicable, Bracketing]

/-- **C03, violated (3).** A root solver that needs no bounds, with a guess and without bounds, never
runs: the exception is a `TypeError` (from `bounds[0]`), not a `ValueError`. -/
theorem c03_violated_no_bounds (m : Meth) (x0 : Guess) (hm : whitelisted m = true)
    (hg : x0 ≠ .none) : solveRoot m x0 (.none : Bounds ν) = .error .typeError := by
  unfold solveRoot replaceGuess
  simp [hm, hg, normalise]

/-- **C03, violated (4).** Two of the accepted method names have no solver behind them. -/
theorem c03_violated_no_branch (m : Meth) (hm : m = .hybrBroyden1 ∨ m = .hybrBroyden2)
    (x0 : Guess) (lo hi : ν) (t : Bool) :
    solveRoot m x0 (onePair lo hi t) = .error .unboundLocal := by
  rcases hm with rfl | rfl <;>
    simp [solveRoot, whitelisted, replaceGuess, replacedWithoutGuess, replaceVector, isBracket,
      normalise, onePair, Item.isiterable, replaceBounds, checkRows, dispatch]

/-- **C03, violated (5).** Bounds given as a tuple of pairs are rejected with a `TypeError`. -/
theorem c03_violated_tuple_of_pairs (m : Meth) (lo hi : ν) (x0 : Guess) (hg : x0 ≠ .none)
    (hm : whitelisted m = true) (r : List (Item ν)) (hr : ∀ i ∈ r, ∃ p : ν × ν, i = .seq [some p.1, some p.2]) :
    solveRoot m x0 (.seq false (.seq [some lo, some hi] :: r)) = .error .typeError := by
  have hany : (r.map Item.toRow).any (fun r => r = Row.none) = false := by
    rw [List.any_eq_false]
    intro x hx
    obtain ⟨i, hi', rfl⟩ := List.mem_map.mp hx
    obtain ⟨p, rfl⟩ := hr i hi'
    simp [Item.toRow]
  have hrow : ((Item.seq [some lo, some hi] :: r).map Item.toRow).any (fun r => r = Row.none)
      = false := by
    rw [List.map_cons, List.any_cons, hany]; simp [Item.toRow]
  simp only [solveRoot, hm, replaceGuess, hg, false_and, if_false, normalise, Item.isiterable,
    replaceBounds, hrow, Bool.true_eq_false, Bool.false_eq_true, if_true]
  simp [Item.toRow, checkRows]

/-- **C03, partial.**  With a guess, and bounds given as one pair of numbers or as a non-empty list
of pairs of numbers, every supported method other than the two unimplemented ones runs exactly one
applicable solver; an unsupported method is a `ValueError`.  Missing for the full property: calls
without a guess for minimisers (`c03_violated_no_guess`), end points `None`
(`c03_violated_none_endpoint`), missing bounds (`c03_violated_no_bounds`), the two names without
a branch (`c03_violated_no_branch`), tuples of pairs (`c03_violated_tuple_of_pairs`). -/
theorem c03_guess_given_partial (m : Meth) (x0 : Guess) (hx : x0 ≠ .none) (b : Bounds ν)
    (hb : (∃ lo hi t, b = onePair lo hi t) ∨ (∃ p l, b = pairList (p :: l)))
    (hm : m ≠ .hybrBroyden1 ∧ m ≠ .hybrBroyden2) :
    (whitelisted m = false ∧ solveRoot m x0 b = .error .valueError) ∨
    (whitelisted m = true ∧ ∃ c, solveRoot m x0 b = .ok c ∧ Applicable c ∧ c.guess = x0 ∧
      c.solver = if (m = .brentq ∨ m = .bisect) ∧ x0.size > 1 then .leastSquares else m) := by
  cases hw : whitelisted m with
  | false => left; simp [solveRoot, hw]
  | true =>
    right
    refine ⟨rfl, ?_⟩
    obtain ⟨rows, hrows, lo, hi, r, hne⟩ : ∃ rs : List (List (Item ν)),
        (∃ mu, normalise b = .ok (mu, rs.map Row.row) ∧ checkRows mu (rs.map Row.row) = .ok rs) ∧
        ∃ lo hi r, rs = [.num lo, .num hi] :: r := by
      rcases hb with ⟨lo, hi, t, rfl⟩ | ⟨p, l, rfl⟩
      · refine ⟨[[.num lo, .num hi]], ⟨true, ?_, ?_⟩, lo, hi, [], rfl⟩
        · simp [onePair, normalise, Item.isiterable]
        · simp [checkRows]
      · have hmap : ∀ l : List (ν × ν), (l.map (fun p => Item.seq [some p.1, some p.2])).map Item.toRow
            = (l.map (fun p => [Item.num p.1, Item.num p.2])).map Row.row := by
          intro l; simp [Function.comp_def, Item.toRow, Item.ofOption]
        have hck : ∀ l : List (ν × ν), checkRows true ((l.map (fun p => [Item.num p.1, Item.num p.2])).map Row.row)
            = .ok (l.map (fun p => [Item.num p.1, Item.num p.2])) := by
          intro l
          induction l with
          | nil => rfl
          | cons q l ih => simp only [List.map_cons, checkRows, ih]; simp
        refine ⟨(p :: l).map (fun p => [Item.num p.1, Item.num p.2]), ⟨true, ?_, hck (p :: l)⟩, p.1, p.2, _, rfl⟩
        rw [← hmap]
        simp [pairList, normalise, Item.isiterable]
    obtain ⟨mu, hn, hc⟩ := hrows
    have hany : (rows.map Row.row).any (fun r => r = Row.none) = false := by
      rw [List.any_eq_false]; intro x hx
      obtain ⟨i, _, rfl⟩ := List.mem_map.mp hx
      simp
    have hred : solveRoot m x0 b = dispatch (replaceVector m x0) x0 rows := by
      simp only [solveRoot, hw, replaceGuess, hx, false_and, if_false, hn, replaceBounds, hany, hc,
        Bool.true_eq_false, Bool.false_eq_true]
    rw [hred]
    subst hne
    cases m <;> simp_all [replaceVector, isBracket, dispatch, Applicable, Bracketing, whitelisted]
    · by_cases hs : 1 < x0.size
      · simp [hs, hx]
      · simp [hs]; omega
    · by_cases hs : 1 < x0.size
      · simp [hs, hx]
      · simp [hs]; omega

/-- **C03, partial (no guess).** Without a guess, a root-finding method given one pair of numbers is
replaced by bisection on that pair, and bracketing methods run on that pair. -/
theorem c03_no_guess_partial (m : Meth) (hm : replacedWithoutGuess m = true ∨ m = .bisect ∨ m = .brentq)
    (lo hi : ν) (t : Bool) :
    ∃ c, solveRoot m .none (onePair lo hi t) = .ok c ∧ Applicable c ∧
      (c.solver = if m = .brentq then .brentq else .bisect) := by
  cases m <;>
    simp_all [replacedWithoutGuess, solveRoot, whitelisted, replaceGuess, replaceVector, isBracket,
      normalise, onePair, Item.isiterable, replaceBounds, checkRows, dispatch, Applicable, Bracketing,
      Guess.size]

/-- Without a guess and without bounds, root-finding methods are rejected with `ValueError`. -/
theorem c03_no_guess_no_bounds (m : Meth) (hm : replacedWithoutGuess m = true) :
    solveRoot m .none (.none : Bounds ν) = .error .valueError := by
  cases m <;> simp_all [replacedWithoutGuess, solveRoot, whitelisted, replaceGuess]

/-- **C03** (which methods need a guess): the ten root finders of scipy's `root`, and no other accepted name; without a
guess each of them is replaced by bisection on the given pair. -/
theorem c03_root_finders (m : Meth) (lo hi : ν) (t : Bool) :
    (∃ g b, solveRoot m .none (onePair lo hi t) = .ok ⟨.bisect, g, b⟩) ↔
      m ∈ [.broyden1, .broyden2, .anderson, .hybr, .lm, .linearmixing, .diagbroyden, .excitingmixing, .krylov, .dfSane,
        .bisect] := by
  cases m <;>
    simp [replacedWithoutGuess, solveRoot, whitelisted, replaceGuess, replaceVector, isBracket,
      normalise, onePair, Item.isiterable, replaceBounds, checkRows, dispatch, Guess.size]

/-- **C03** (several unknowns): a bracketing method given a guess of more than one number is replaced by least squares, and only then. -/
theorem c03_vector_guess (m : Meth) (hm : m = .brentq ∨ m = .bisect) (n : Nat) (lo hi : ν) (t : Bool) :
    solveRoot m (.vec n) (onePair lo hi t) = .ok ⟨if 1 < n then .leastSquares else m, .vec n, some [[.num lo, .num hi]]⟩ := by
  by_cases hn : 1 < n
  · rcases hm with rfl | rfl <;>
      simp [solveRoot, whitelisted, replaceGuess, replacedWithoutGuess, replaceVector, isBracket, normalise, onePair, Item.isiterable, replaceBounds,
        checkRows, dispatch, Guess.size, hn]
  · rcases hm with rfl | rfl <;>
      simp [solveRoot, whitelisted, replaceGuess, replacedWithoutGuess, replaceVector, isBracket, normalise, onePair, Item.isiterable, replaceBounds,
        checkRows, dispatch, Guess.size, hn]

/-- **C03** (no bounds in the list): an empty sequence of bounds is an `IndexError` whatever the method. -/
theorem c03_empty_bounds (m : Meth) (hm : whitelisted m = true) (x0 : Guess) (t : Bool) :
    solveRoot m x0 (.seq t [] : Bounds ν) = .error .indexError := by
  unfold solveRoot replaceGuess
  by_cases h : x0 = .none ∧ replacedWithoutGuess m = true <;> simp [hm, h, normalise]

/-- **C03**, where it fails: for a row of bounds that is `None` a bracketing method should be replaced by one that needs no
bounds; the row is refused a few lines later.  Without a guess the exception is the intended one. -/
theorem c03_violated_none_row (m : Meth) (hm : m = .brentq ∨ m = .bisect) (x0 : Guess) (hx : x0.size ≤ 1) (lo hi : ν) :
    solveRoot m x0 (.seq true [.seq [some lo, some hi], .none]) =
      if x0 = .none then .error .valueError else .error .typeError := by
  have h1 : ¬ 1 < x0.size := by omega
  have h2 : ∀ m, replaceVector m x0 = m := fun m => by simp [replaceVector, h1]
  have h3 : ∀ m, replaceVector m .none = m := fun m => by simp [replaceVector, Guess.size]
  rcases hm with rfl | rfl <;> by_cases h : x0 = .none <;>
    simp [replacedWithoutGuess, solveRoot, whitelisted, replaceGuess, h2, h3, isBracket,
      normalise, Item.isiterable, Item.toRow, Item.ofOption, replaceBounds, checkRows, h]

/-- **C51, violated.** A minimiser that supports bounds is run without them unless there are exactly
two unknowns: for one unknown (or three and more) the user's bounds are dropped. -/
theorem c51_violated (m : Meth) (hm : m = .tnc ∨ m = .lbfgsb ∨ m = .slsqp) (x0 : Guess)
    (hx : x0 ≠ .none) (p : ν × ν) (l : List (ν × ν)) (hl : l.length ≠ 1) :
    solveRoot m x0 (pairList (p :: l)) = .ok ⟨m, x0, none⟩ := by
  have hmap : ∀ l : List (ν × ν), (l.map (fun p => Item.seq [some p.1, some p.2])).map Item.toRow
      = (l.map (fun p => [Item.num p.1, Item.num p.2])).map Row.row := by
    intro l; simp [Function.comp_def, Item.toRow, Item.ofOption]
  have hck : ∀ l : List (ν × ν), checkRows true ((l.map (fun p => [Item.num p.1, Item.num p.2])).map Row.row)
      = .ok (l.map (fun p => [Item.num p.1, Item.num p.2])) := by
    intro l
    induction l with
    | nil => rfl
    | cons q l ih => simp only [List.map_cons, checkRows, ih]; simp
  have hn : normalise (pairList (p :: l)) =
      .ok (true, ((p :: l).map (fun p => [Item.num p.1, Item.num p.2])).map Row.row) := by
    rw [← hmap]; simp [pairList, normalise, Item.isiterable]
  have hb : isBracket m = false := by rcases hm with rfl | rfl | rfl <;> rfl
  have hw : whitelisted m = true := by rcases hm with rfl | rfl | rfl <;> rfl
  have hred : solveRoot m x0 (pairList (p :: l)) =
      dispatch m x0 ((p :: l).map (fun p => [Item.num p.1, Item.num p.2])) := by
    simp only [solveRoot, hw, replaceGuess, hx, false_and, if_false, hn, replaceBounds, hck,
      Bool.true_eq_false, Bool.false_eq_true, replaceVector, hb, and_false]
  rw [hred]
  rcases hm with rfl | rfl | rfl <;> simp [dispatch, hl]

/-- **C51, partial.** Two unknowns: the bounds reach the minimiser. -/
theorem c51_two_unknowns_partial (m : Meth) (hm : m = .tnc ∨ m = .lbfgsb ∨ m = .slsqp) (x0 : Guess)
    (hx : x0 ≠ .none) (p q : ν × ν) :
    solveRoot m x0 (pairList [p, q]) =
      .ok ⟨m, x0, some [[.num p.1, .num p.2], [.num q.1, .num q.2]]⟩ := by
  rcases hm with rfl | rfl | rfl <;>
    simp [solveRoot, whitelisted, replaceGuess, replacedWithoutGuess, replaceVector, isBracket,
      normalise, pairList, Item.isiterable, Item.toRow, Item.ofOption, replaceBounds, checkRows,
      dispatch, hx]

example : solveRoot .brentq (.vec 2) (pairList [((0 : Int), 1), (2, 3)])
    = .ok ⟨.leastSquares, .vec 2, some [[.num 0, .num 1], [.num 2, .num 3]]⟩ := by decide
example : solveRoot .hybr .none (onePair (0 : Int) 1 true)
    = .ok ⟨.bisect, .none, some [[.num 0, .num 1]]⟩ := by decide

end Verif.Props
