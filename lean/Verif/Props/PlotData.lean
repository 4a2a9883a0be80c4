import Verif.Model.PlotData
import Mathlib.Tactic.Linarith

/-!
# C182: points for plots
-/

namespace Verif.Props
open Verif Verif.PlotData

variable {K V : Type} [LinearOrder K]

/-- The distinct abscissae, in increasing order. -/
theorem c182_sorted (x : List (Option K)) :
    (sortedSet x).Pairwise (· < ·) ∧ ∀ v, v ∈ sortedSet x ↔ some v ∈ x := by
  constructor
  · have h1 : (sortedSet x).Pairwise (· ≤ ·) := by
      exact List.pairwise_insertionSort _ _
    have h2 : (sortedSet x).Nodup := (List.perm_insertionSort _ _).nodup_iff.2 (List.nodup_dedup _)
    exact (h1.and h2).imp fun h => lt_of_le_of_ne h.1 h.2
  · intro v
    simp [sortedSet]

private theorem pick_ok (x : List (Option K)) (y : List V) (v : K) (h : some v ∈ x) (hy : x.length ≤ y.length) :
    ∃ (w : V) (j : ℕ), pick x y v = .ok w ∧ x[j]? = some (some v) ∧ (∀ k < j, x[k]? ≠ some (some v)) ∧ y[j]? = some w := by
  have hs : (x.findIdx? (· == some v)).isSome := by
    rw [List.findIdx?_isSome]
    simpa using h
  obtain ⟨j, hj⟩ := Option.isSome_iff_exists.1 hs
  obtain ⟨hl, he, hk⟩ := List.findIdx?_eq_some_iff_getElem.1 hj
  have hjy : j < y.length := by omega
  refine ⟨y[j], j, ?_, ?_, ?_, ?_⟩
  · simp only [pick, hj, List.getElem?_eq_getElem hjy]
  · rw [List.getElem?_eq_getElem hl]
    simpa using he
  · intro k hkj hc
    have := hk k hkj
    rw [List.getElem?_eq_getElem (by omega)] at hc
    simp only [Option.some.injEq] at hc
    simp [hc] at this
  · exact List.getElem?_eq_getElem hjy

private theorem picks_ok {α β : Type} (f : α → Except PyErr β) (Q : α → β → Prop) :
    ∀ l : List α, (∀ a ∈ l, ∃ b, f a = .ok b ∧ Q a b) → ∃ bs, l.mapM f = .ok bs ∧ List.Forall₂ Q l bs
  | [], _ => ⟨[], rfl, .nil⟩
  | a :: l, h => by
    obtain ⟨b, hb, hq⟩ := h a (by simp)
    obtain ⟨bs, hbs, hqs⟩ := picks_ok f Q l fun c hc => h c (List.mem_cons_of_mem _ hc)
    exact ⟨b :: bs, by rw [List.mapM_cons, hb, hbs]; rfl, .cons hq hqs⟩

/-- **C182**: without NaN and with an ordinate for every abscissa, the result has the distinct abscissae in increasing order,
each with the ordinate of its first occurrence. -/
theorem c182_points_partial (x : List (Option K)) (y : List V) (hn : none ∉ x) (hy : x.length ≤ y.length) :
    ∃ xs ys, clean x y = .ok (xs, ys) ∧ xs.Pairwise (· < ·) ∧ (∀ v, v ∈ xs ↔ some v ∈ x) ∧
      List.Forall₂ (fun v w => ∃ j : ℕ, x[j]? = some (some v) ∧ (∀ k < j, x[k]? ≠ some (some v)) ∧ y[j]? = some w) xs ys := by
  obtain ⟨h1, h2⟩ := c182_sorted x
  obtain ⟨ys, he, hq⟩ := picks_ok (pick x y)
    (fun v w => ∃ j : ℕ, x[j]? = some (some v) ∧ (∀ k < j, x[k]? ≠ some (some v)) ∧ y[j]? = some w) (sortedSet x) (by
      intro v hv
      obtain ⟨w, j, a, b, c, d⟩ := pick_ok x y v ((h2 v).1 hv) hy
      exact ⟨w, a, j, b, c, d⟩)
  refine ⟨sortedSet x, ys, ?_, h1, h2, hq⟩
  simp only [clean, he, bind, Except.bind, if_neg hn]

/-- **C182** (nothing to clean): increasing abscissae with as many ordinates are returned unchanged. -/
theorem c182_unchanged (x : List K) (y : List V) (h : x.Pairwise (· < ·)) (hy : x.length = y.length) :
    clean (x.map some) y = .ok (x, y) := by
  obtain ⟨xs, ys, he, h1, h2, h3⟩ := c182_points_partial (x.map some) y (by simp) (by simp [hy])
  have hx : xs = x := by
    refine List.Perm.eq_of_pairwise (le := fun a b => a < b) (fun a b _ _ hab hba => absurd hab (not_lt_of_gt hba)) h1 h ?_
    refine (List.perm_ext_iff_of_nodup (h1.imp ne_of_lt) (h.imp ne_of_lt)).2 fun v => ?_
    rw [h2]
    simp
  subst hx
  have hl := h3.length_eq
  have : ys = y := by
    refine List.ext_getElem (by omega) fun i a b => ?_
    have hi : i < xs.length := by omega
    obtain ⟨j, e1, -, e3⟩ := (List.forall₂_iff_get.1 h3).2 i hi a
    rw [List.getElem?_map] at e1
    have hj : j < xs.length := by
      by_contra hc
      rw [List.getElem?_eq_none (by omega)] at e1
      simp at e1
    rw [List.getElem?_eq_getElem hj] at e1
    simp only [Option.map_some, Option.some.injEq, List.get_eq_getElem] at e1
    have hij : j = i := by
      exact (List.Nodup.getElem_inj_iff (h.imp ne_of_lt)).1 e1
    subst hij
    rw [List.getElem?_eq_getElem b] at e3
    simp only [Option.some.injEq, List.get_eq_getElem] at e3
    exact e3.symm
  rw [he, this]

/-- **C182** (twice): cleaning a second time changes nothing. -/
theorem c182_twice (x : List (Option K)) (y : List V) (xs : List K) (ys : List V) (hn : none ∉ x) (hy : x.length ≤ y.length)
    (h : clean x y = .ok (xs, ys)) : clean (xs.map some) ys = .ok (xs, ys) := by
  obtain ⟨xs', ys', he, h1, -, h3⟩ := c182_points_partial x y hn hy
  rw [h] at he
  cases he
  exact c182_unchanged xs ys h1 h3.length_eq

/-- **C182**, where it fails: one NaN among the abscissae, as in the lists of pressures of rows without a result, makes all points
an IndexError. -/
theorem c182_violated_nan (x : List (Option K)) (y : List V) (hn : none ∈ x) : clean x y = .error .indexError := by
  have : ∀ l : List K, (∃ ys, l.mapM (pick x y) = .ok ys) ∨ l.mapM (pick x y) = .error .indexError := by
    intro l
    induction l with
    | nil => exact .inl ⟨[], rfl⟩
    | cons a l ih =>
      rw [List.mapM_cons]
      have hp : (∃ w, pick x y a = .ok w) ∨ pick x y a = .error .indexError := by
        unfold pick
        split
        · exact .inr rfl
        · split
          · exact .inr rfl
          · exact .inl ⟨_, rfl⟩
      rcases hp with ⟨w, hw⟩ | hw
      · rcases ih with ⟨ys, h⟩ | h
        · exact .inl ⟨w :: ys, by rw [hw, h]; rfl⟩
        · exact .inr (by rw [hw, h]; rfl)
      · exact .inr (by rw [hw]; rfl)
  rcases this (sortedSet x) with ⟨ys, h⟩ | h
  · simp only [clean, h, bind, Except.bind, if_pos hn]
  · simp only [clean, h, bind, Except.bind]

/-- **C182**, where it fails: without an ordinate for the first occurrence of an abscissa the result is an IndexError. -/
theorem c182_violated_short (v : K) : clean [some v] ([] : List V) = .error .indexError := by
  have : sortedSet [some v] = [v] := by
    obtain ⟨h1, h2⟩ := c182_sorted [some v]
    have hp : (sortedSet [some v]).Perm [v] :=
      (List.perm_ext_iff_of_nodup (h1.imp ne_of_lt) (by simp)).2 fun w => by rw [h2]; simp
    exact List.perm_singleton.1 hp
  simp only [clean, this, List.mapM_cons, List.mapM_nil, pick, bind, Except.bind]
  simp

/-- Not vacuous: the second of two equal abscissae is left out. -/
example : clean [some (3 : ℤ), some 1, some 3, some 2] ["a", "b", "c", "d"] = .ok ([1, 2, 3], ["b", "d", "a"]) := by
  decide +kernel

end Verif.Props
