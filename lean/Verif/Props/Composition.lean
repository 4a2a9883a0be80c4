import Mathlib.Algebra.Order.Field.Basic
import Mathlib.Data.Rat.Defs
import Mathlib.Algebra.Order.Ring.Rat
import Mathlib.Algebra.BigOperators.Group.List.Basic
import Mathlib.Tactic.Linarith
import Mathlib.Tactic.Positivity
import Mathlib.Tactic.FieldSimp
import Mathlib.Tactic.Ring
import Mathlib.Tactic.NormNum
import Verif.Model.Composition

/-!
# C94, C95: the loops that find the composition of the other phase
-/

set_option linter.unusedSectionVars false

namespace Verif.Props
open Verif Verif.PhaseDensity Verif.Composition

variable {K : Type} [Field K] [LinearOrder K] [IsStrictOrderedRing K]

theorem comp_sum_div (l : List K) (s : K) : (l.map (· / s)).sum = l.sum / s := by
  induction l with
  | nil => simp
  | cons a t ih => simp only [List.map_cons, List.sum_cons, ih]; ring

theorem comp_normalise (y z : List K) (h : Composition.normalise y = .ok z) :
    z.sum = 1 ∧ y.sum ≠ 0 ∧ z = y.map (· / y.sum) := by
  unfold Composition.normalise at h
  split at h
  · cases h
  · rename_i hy
    injection h with h
    subst h
    exact ⟨by rw [comp_sum_div, div_self hy], hy, rfl⟩

theorem minPos_spec : ∀ (l : List K) (m : K), minPos l = some m → m ∈ l ∧ 0 < m ∧ ∀ x ∈ l, 0 < x → m ≤ x
  | [], m, h => by simp [minPos] at h
  | a :: r, m, h => by
    simp only [minPos] at h
    cases hr : minPos r with
    | none =>
      simp only [hr] at h
      split at h
      · rename_i ha
        injection h with h
        subst h
        refine ⟨by simp, ha, ?_⟩
        intro x hx hx0
        rcases List.mem_cons.mp hx with rfl | hx1
        · exact le_rfl
        · exfalso
          clear ha hx
          induction r with
          | nil => cases hx1
          | cons b t ih =>
            simp only [minPos] at hr
            cases ht : minPos t with
            | none =>
              simp only [ht] at hr
              split at hr
              · cases hr
              · rename_i hb
                rcases List.mem_cons.mp hx1 with rfl | hx'
                · exact hb hx0
                · exact ih ht hx'
            | some m' => simp only [ht] at hr; split at hr <;> cases hr
      · cases h
    | some m' =>
      obtain ⟨h1, h2, h3⟩ := minPos_spec r m' hr
      simp only [hr] at h
      split at h
      · rename_i ha
        injection h with h
        subst h
        refine ⟨by simp, ha.1, ?_⟩
        intro x hx hx0
        rcases List.mem_cons.mp hx with rfl | hx
        · exact le_rfl
        · exact le_trans ha.2.le (h3 x hx hx0)
      · rename_i ha
        injection h with h
        subst h
        refine ⟨List.mem_cons_of_mem _ h1, h2, ?_⟩
        intro x hx hx0
        rcases List.mem_cons.mp hx with rfl | hx
        · by_contra hc
          exact ha ⟨hx0, not_le.mp hc⟩
        · exact h3 x hx hx0

/-- The smallest positive entry of the composition `u` is unique and becomes in `y` one that differs by a
fraction below `tol`. -/
def SmallestKept (tol : K) (u y : List K) : Prop :=
  ∃ (i : ℕ) (a b : K), u[i]? = some a ∧ y[i]? = some b ∧ 0 < a ∧ (∀ x ∈ u, 0 < x → a ≤ x) ∧
    |b - a| / a < tol

theorem smallestChange_spec (tol : K) (u y : List K) (c : K) (h : smallestChange u y = .ok c) (hc : c < tol) :
    SmallestKept tol u y := by
  unfold smallestChange at h
  cases hm : minPos u with
  | none => simp only [hm] at h; cases h
  | some m =>
    simp only [hm] at h
    obtain ⟨h1, h2, h3⟩ := minPos_spec u m hm
    split at h
    · rename_i p hp
      injection h with h
      have hmem : p ∈ (u.zip y).filter (fun p => p.1 = m) := by rw [hp]; simp
      obtain ⟨hz, hpm⟩ := List.mem_filter.mp hmem
      have hpm' : p.1 = m := by simpa using hpm
      obtain ⟨i, hi⟩ := List.mem_iff_getElem?.mp hz
      rw [List.getElem?_zip_eq_some] at hi
      refine ⟨i, p.1, p.2, hi.1, hi.2, by rw [hpm']; exact h2, ?_, by rw [h]; exact hc⟩
      rw [hpm']; exact h3
    · cases h

/-- New mole numbers of the phase sought. -/
def newNumbers (ph : Phase) (other : List K) (φo φ : List (Option K)) : Except PyErr (List K) :=
  if ph = .vapor then newMoleFractions .vapor other φo φ else newMoleFractions .liquid other φ φo

theorem propose_spec (ph : Phase) (noPhase : ℕ → Bool) (E : Env K) (other : List K) (φo : List (Option K))
    (n : ℕ) (s : State K) (t : Trial K) (c r : Bool)
    (h : propose ph noPhase E other φo n s = .ok (some t, c, r)) :
    E.fug t.tmp = .ok (t.φ, t.flag) ∧
      (newNumbers ph other φo t.φ = .ok t.new ∨
        ((none ∈ t.φ ∨ noPhase t.flag = true) ∧ isBinary t.tmp = false ∧
          Composition.normalise t.new = .ok t.tmp)) := by
  unfold propose at h
  simp only [bind, Except.bind] at h
  cases hn : Composition.normalise s.y with
  | error e => simp only [hn] at h; cases h
  | ok tmp =>
    simp only [hn] at h
    cases hf : E.fug tmp with
    | error e => simp only [hf] at h; cases h
    | ok p =>
      obtain ⟨φ, flag⟩ := p
      simp only [hf] at h
      split at h
      · rename_i hc
        split at h
        · cases hN : E.findNew with
          | error e => simp only [hN] at h; cases h
          | ok o =>
            cases o with
            | none => simp only [hN] at h; injection h with h; injection h with h; cases h
            | some u =>
              simp only [hN] at h
              cases hfu : E.fug u with
              | error e => simp only [hfu] at h; cases h
              | ok p' =>
                simp only [hfu] at h
                split at h
                · cases h
                · rename_i new hnew
                  injection h with h
                  injection h with h
                  injection h with h
                  subst h
                  exact ⟨hfu, Or.inl hnew⟩
        · rename_i hbin
          injection h with h
          injection h with h
          injection h with h
          subst h
          refine ⟨hf, Or.inr ⟨?_, by simpa using hbin, hn⟩⟩
          rw [Bool.and_eq_true, Bool.or_eq_true, List.any_eq_true] at hc
          rcases hc.1 with ⟨x, hx, hx'⟩ | hc
          · left
            rw [Option.isNone_iff_eq_none] at hx'
            subst hx'
            exact hx
          · exact Or.inr hc
      · split at h
        · split at h
          · cases h
          · rename_i o ho
            cases o with
            | none => simp only at h; injection h with h; injection h with h; cases h
            | some u =>
              simp only at h
              cases hfu : E.fug u with
              | error e => simp only [hfu] at h; cases h
              | ok p' =>
                simp only [hfu] at h
                split at h
                · cases h
                · rename_i new hnew
                  injection h with h
                  injection h with h
                  injection h with h
                  subst h
                  exact ⟨hfu, Or.inl hnew⟩
        · split at h
          · cases h
          · rename_i new hnew
            injection h with h
            injection h with h
            injection h with h
            subst h
            exact ⟨hf, Or.inl hnew⟩

/-- What the vapour loop can end with. -/
theorem vaporLoop_spec (E : Env K) (xi : List K) (φl : List (Option K)) : ∀ (n : ℕ) (s : State K) (a : After K),
    vaporLoop E xi φl n s = .ok (some a) →
    E.fug a.trial.tmp = .ok (a.trial.φ, a.trial.flag) ∧ E.fug a.y2 = .ok (a.φ2, a.flag2) ∧
    (newNumbers .vapor xi φl a.trial.φ = .ok a.trial.new ∨
      ((none ∈ a.trial.φ ∨ a.trial.flag = 1) ∧ isBinary a.trial.tmp = false ∧
        Composition.normalise a.trial.new = .ok a.trial.tmp)) ∧
    ((∃ b1 b2, E.bracket b1 b2 = .ok a.y2) ∨
      Composition.normalise a.trial.new = .ok a.y2 ∧
        (a.last = false → SmallestKept E.tol a.trial.tmp a.y2))
  | 0, s, a, h => by simp [vaporLoop] at h
  | n + 1, s, a, h => by
    simp only [vaporLoop, bind, Except.bind] at h
    cases hp : propose .vapor (· == 1) E xi φl n s with
    | error e => simp only [hp] at h; cases h
    | ok p =>
      obtain ⟨t?, c, r⟩ := p
      simp only [hp] at h
      cases t? with
      | none => simp only at h; injection h with h; cases h
      | some t =>
        simp only at h
        obtain ⟨p1, p2⟩ := propose_spec _ _ E xi φl n s t c r hp
        have p2' : newNumbers .vapor xi φl t.φ = .ok t.new ∨ ((none ∈ t.φ ∨ t.flag = 1) ∧
            isBinary t.tmp = false ∧ Composition.normalise t.new = .ok t.tmp) := by
          simpa using p2
        cases hy : Composition.normalise t.new with
        | error e => simp only [hy] at h; cases h
        | ok y2 =>
          simp only [hy] at h
          cases hf : E.fug y2 with
          | error e => simp only [hf] at h; cases h
          | ok q =>
            obtain ⟨φ2, flag2⟩ := q
            simp only [hf] at h
            split at h
            · split at h
              · split at h
                · cases h
                · rename_i y2' hb
                  cases hf' : E.fug y2' with
                  | error e => simp only [hf'] at h; cases h
                  | ok q' =>
                    simp only [hf'] at h
                    injection h with h
                    injection h with h
                    subst h
                    exact ⟨p1, hf', p2', Or.inl ⟨_, _, hb⟩⟩
              · cases h
            · split at h
              · cases h
              · rename_i conv hconv
                split at h
                · rename_i hcl
                  injection h with h
                  injection h with h
                  subst h
                  refine ⟨p1, hf, p2', Or.inr ⟨hy, ?_⟩⟩
                  intro hlast
                  rw [Bool.or_eq_true] at hcl
                  rcases hcl with hcl | hcl
                  · subst hcl
                    split at hconv
                    · cases hs : smallestChange t.tmp y2 with
                      | error e => simp only [hs, Except.map] at hconv; cases hconv
                      | ok d =>
                        simp only [hs, Except.map] at hconv
                        injection hconv with hconv
                        exact smallestChange_spec _ _ _ d hs (by simpa using hconv)
                    · injection hconv with hconv
                      cases hconv
                  · rw [hcl] at hlast; cases hlast
                · exact vaporLoop_spec E xi φl n _ a h

/-- **C94** (where a vapour composition comes from). A composition returned with fugacity coefficients
(a) reproduces itself: it is the normalised set of mole numbers that the liquid and the vapour of composition `u` give, and
the smallest fraction of `u` has changed by less than the tolerance; or (b) was found by bisection; or (c) was found
by least squares and its objective is within the tolerance; or (d) is a composition of other than two present components which gives a
liquid.  The coefficients and the flag belong to the composition in each case. -/
theorem c94_sources_partial (E : Env K) (yi xi : List K) (φl : List (Option K)) (y : List K) (φ : List (Option K))
    (flag : Option ℕ) (h : vaporComposition E yi xi φl = .ok (y, φ, flag)) (hφ : none ∉ φ) :
    (∃ f, flag = some f ∧ E.fug y = .ok (φ, f)) ∧
    ((∃ u φu fu new, E.fug u = .ok (φu, fu) ∧ newMoleFractions .vapor xi φl φu = .ok new ∧
        y = new.map (· / new.sum) ∧ y.sum = 1 ∧ SmallestKept E.tol u y) ∨
      (∃ b1 b2, E.bracket b1 b2 = .ok y) ∨
      (∃ y1 o, y = [y1, 1 - y1] ∧ E.objective y = .ok o ∧ ∀ v, o = some v → v ≤ E.tol) ∨
      (flag = some 1 ∧ isBinary y = false)) := by
  unfold vaporComposition at h
  split at h
  · cases h
  · simp only [bind, Except.bind] at h
    cases hn : Composition.normalise yi with
    | error e => simp only [hn] at h; cases h
    | ok y0 =>
      simp only [hn] at h
      cases hl : vaporLoop E xi φl E.maxiter ⟨y0, [yi.sum], true, true⟩ with
      | error e => simp only [hl] at h; cases h
      | ok a? =>
        simp only [hl] at h
        cases a? with
        | none => simp only [vaporFinish] at h; cases h
        | some a =>
          obtain ⟨s1, s2, s3, s4⟩ := vaporLoop_spec E xi φl _ _ a hl
          simp only [vaporFinish] at h
          cases hm : minPos a.trial.tmp with
          | none => simp only [hm] at h; cases h
          | some m =>
            simp only [hm] at h
            have hne : a.trial.tmp ≠ [] := by
              intro hc; rw [hc] at hm; simp [minPos] at hm
            have hnan : none ∈ a.trial.tmp.map (fun _ => (none : Option K)) := by
              cases ht : a.trial.tmp with
              | nil => exact absurd ht hne
              | cons b r => simp
            split at h
            · simp only [bind, Except.bind] at h
              split at h
              · cases h
              · injection h with h
                injection h with _ h
                injection h with h _
                exact absurd (h ▸ hnan) hφ
            · split at h
              · simp only [bind, Except.bind] at h
                split at h
                · cases h
                · split at h
                  · cases h
                  · split at h
                    · cases h
                    · split at h
                      · cases h
                      · split at h
                        · cases h
                        · rename_i y1 hy1
                          split at h
                          · cases h
                          · rename_i q hq
                            split at h
                            · cases h
                            · rename_i o ho
                              split at h
                              · injection h with h
                                injection h with _ h
                                injection h with h _
                                exact absurd (h ▸ hnan) hφ
                              · rename_i hany
                                injection h with h
                                injection h with h1 h
                                injection h with h2 h3
                                subst h1 h2 h3
                                refine ⟨⟨q.2, rfl, hq⟩, Or.inr (Or.inr (Or.inl ⟨y1, o, rfl, ho, ?_⟩))⟩
                                intro v hv
                                subst hv
                                simpa using hany
              · rename_i hlast
                injection h with h
                injection h with h1 h
                injection h with h2 h3
                subst h1 h2 h3
                refine ⟨⟨_, rfl, s2⟩, ?_⟩
                rcases s4 with hb | ⟨hnew, hk⟩
                · exact Or.inr (Or.inl hb)
                · rcases s3 with hs | ⟨hs, hbin, hnt⟩
                  · left
                    obtain ⟨n1, _, n3⟩ := comp_normalise _ _ hnew
                    refine ⟨a.trial.tmp, a.trial.φ, a.trial.flag, a.trial.new, s1, ?_, n3, n1, hk (by simpa using hlast)⟩
                    simpa [newNumbers] using hs
                  · right; right; right
                    rw [hnew] at hnt
                    injection hnt with hnt
                    rw [← hnt] at s1
                    rw [s1] at s2
                    injection s2 with s2
                    injection s2 with e1 e2
                    rw [hnt]
                    refine ⟨?_, hbin⟩
                    rcases hs with hs | hs
                    · exact absurd (e1 ▸ hs) hφ
                    · rw [← e2, hs]

/-- Two mole fractions: if the smaller one keeps its value up to a fraction `tol`, both differ from the old ones by less
than `tol / 2`. -/
theorem c94_binary_close (tol u1 u2 y1 y2 : K) (hu1 : 0 < u1) (hu2 : 0 < u2) (hu : [u1, u2].sum = 1)
    (hy : [y1, y2].sum = 1) (h : SmallestKept tol [u1, u2] [y1, y2]) :
    |y1 - u1| < tol / 2 ∧ |y2 - u2| < tol / 2 := by
  obtain ⟨i, a, b, ha, hb, ha0, hmin, hlt⟩ := h
  simp only [List.sum_cons, List.sum_nil, add_zero] at hu hy
  have h1 : a ≤ u1 := hmin u1 (by simp) hu1
  have h2 : a ≤ u2 := hmin u2 (by simp) hu2
  have habs : |b - a| < tol * a := (div_lt_iff₀ ha0).mp hlt
  have htol : 0 < tol := by
    have := lt_of_le_of_lt (abs_nonneg _) habs
    exact (pos_iff_pos_of_mul_pos this).mpr ha0
  have hle : tol * a ≤ tol / 2 := by nlinarith
  have hneg : |y2 - u2| = |y1 - u1| := by
    rw [← abs_neg (y1 - u1)]; congr 1; linarith
  match i, ha, hb with
  | 0, ha, hb =>
    simp at ha hb
    subst ha hb
    exact ⟨by linarith, by rw [hneg]; linarith⟩
  | 1, ha, hb =>
    simp at ha hb
    subst ha hb
    exact ⟨by rw [← hneg]; linarith, by linarith⟩
  | (k + 2), ha, hb => simp at ha

/-- A test environment: fugacity coefficients `φ` everywhere with flag `f`. -/
def testEnv (φ : List ℚ) (f maxiter : ℕ) : Env ℚ :=
  { fug := fun _ => .ok (φ.map some, f)
    findNew := .ok (some [1/4, 3/4])
    rand := fun _ => [1/2, 1/4, 1/4]
    bracket := fun _ b => .ok [b, 1 - b]
    leastSquares := fun x => .ok x
    objective := fun _ => .ok (some 0)
    maxiter := maxiter
    tol := 1/100
    tolTrivial := 1/20 }

/-- An ideal mixture converges to the composition that Raoult's law gives. -/
example : vaporComposition (testEnv [1, 2] 0 9) [1/3, 2/3] [1/2, 1/2] [some 2, some 1] =
    .ok ([4/5, 1/5], [some 1, some 2], some 0) := by decide +kernel

/-- **C94** (nothing there): when the last trial has flag 3 the coefficients and the flag returned are NaN; when it has
another flag and the loop converged, they are those of the composition returned. -/
theorem c94_unattainable (E : Env K) (a : After K) (hm : (minPos a.trial.tmp).isSome) :
    (a.trial.flag = 3 → ∀ y, Composition.normalise a.trial.new = .ok y →
      vaporFinish E (some a) = .ok (y, a.trial.tmp.map fun _ => none, none)) ∧
    (a.trial.flag ≠ 3 → a.last = false → vaporFinish E (some a) = .ok (a.y2, a.φ2, some a.flag2)) := by
  obtain ⟨m, hm⟩ := Option.isSome_iff_exists.1 hm
  constructor
  · intro h y hy
    simp [vaporFinish, hm, h, hy, bind, Except.bind]
  · intro h hl
    simp [vaporFinish, hm, h, hl]

/-- **C94, violated.** A mixture of three components whose guess only exists as a liquid is returned unchanged in
the first iteration, although nothing was solved: every guess is a result, whatever the liquid is. -/
theorem c94_violated_no_vapor (E : Env K) (y1 y2 y3 : K) (xi : List K) (φl φ : List (Option K))
    (h1 : 0 < y1) (h12 : y1 < y2) (h23 : y2 < y3) (hsum : y1 + (y2 + y3) = 1)
    (hφ : φl.any (·.isNone) = false) (hfug : E.fug [y1, y2, y3] = .ok (φ, 1))
    (htol : 0 < E.tol) (hit : 1 < E.maxiter) :
    vaporComposition E [y1, y2, y3] xi φl = .ok ([y1, y2, y3], φ, some 1) := by
  obtain ⟨n, hn⟩ := Nat.exists_eq_add_of_lt hit
  have hn' : E.maxiter = n + 1 + 1 := by omega
  have h2 : 0 < y2 := lt_trans h1 h12
  have h3 : 0 < y3 := lt_trans h2 h23
  have hnorm : Composition.normalise [y1, y2, y3] = .ok [y1, y2, y3] := by
    simp [Composition.normalise, hsum]
  have hmin : minPos [y1, y2, y3] = some y1 := by
    simp [minPos, h1, h2, h3, h12, h23]
  have hch : smallestChange [y1, y2, y3] [y1, y2, y3] = .ok 0 := by
    simp [smallestChange, hmin, h12.ne', (lt_trans h12 h23).ne']
  simp [vaporComposition, hφ, hnorm, hn', vaporLoop, propose, hfug, isBinary, bind, Except.bind, bouncing,
    hch, Except.map, htol, vaporFinish, hmin]

/-- **C94, violated.** Two equal smallest fractions make the test of convergence fail. -/
theorem c94_violated_equal_fractions :
    vaporComposition (testEnv [1, 1] 0 9) [1/2, 1/2] [1/4, 3/4] [some 2, some (2/3)] = .error .valueError := by
  decide +kernel

/-- **C94, violated.** A composition that converges in the last permitted iteration is not returned: for three
components the result then has two. -/
theorem c94_violated_last_iteration :
    vaporComposition (testEnv [1, 1, 2] 0 2) [1/2, 1/3, 1/6] [1/2, 1/4, 1/4] [some 1, some 2, some 1] =
      .ok ([4/9, 5/9], [some 1, some 1, some 2], some 0) ∧
    vaporComposition (testEnv [1, 1, 2] 0 3) [1/2, 1/3, 1/6] [1/2, 1/4, 1/4] [some 1, some 2, some 1] =
      .ok ([4/9, 4/9, 1/9], [some 1, some 1, some 2], some 0) := by decide +kernel

/-- **C94, violated.** When no vapour composition exists the documented NaN result with a flag is not reached: the
calculation fails with `ValueError`. -/
theorem c94_violated_nan (E : Env K) (yi xi : List K) (φl φ0 : List (Option K)) (y0 : List K)
    (hφ : φl.any (·.isNone) = false) (hy : Composition.normalise yi = .ok y0)
    (hy' : Composition.normalise y0 = .ok y0) (hb : isBinary y0 = true)
    (hfug : E.fug y0 = .ok (φ0, 1)) (hnew : E.findNew = .ok none) (hit : 0 < E.maxiter) :
    vaporComposition E yi xi φl = .error .valueError := by
  obtain ⟨n, hn⟩ := Nat.exists_eq_add_of_lt hit
  rw [Nat.zero_add] at hn
  simp [vaporComposition, hφ, hy, hn, vaporLoop, propose, hy', hfug, hb, hnew, bind, Except.bind, vaporFinish]

/-- What the liquid loop can end with. -/
theorem liquidLoop_spec (E : Env K) (yi : List K) (φv : List (Option K)) : ∀ (n : ℕ) (s : State K) (t : Trial K)
    (last : Bool), liquidLoop E yi φv n s = .ok (some (t, last)) →
    E.fug t.tmp = .ok (t.φ, t.flag) ∧
    (newNumbers .liquid yi φv t.φ = .ok t.new ∨
      ((none ∈ t.φ ∨ t.flag = 0 ∨ t.flag = 4) ∧ isBinary t.tmp = false)) ∧
    (last = false → ∃ x2, Composition.normalise t.new = .ok x2 ∧ SmallestKept E.tol t.tmp x2)
  | 0, s, t, last, h => by simp [liquidLoop] at h
  | n + 1, s, t, last, h => by
    simp only [liquidLoop, bind, Except.bind] at h
    cases hp : propose .liquid (fun f => f == 0 || f == 4) E yi φv n s with
    | error e => simp only [hp] at h; cases h
    | ok p =>
      obtain ⟨t?, c, r⟩ := p
      simp only [hp] at h
      cases t? with
      | none => simp only at h; injection h with h; cases h
      | some t' =>
        simp only at h
        obtain ⟨p1, p2⟩ := propose_spec _ _ E yi φv n s t' c r hp
        have p2' : newNumbers .liquid yi φv t'.φ = .ok t'.new ∨ ((none ∈ t'.φ ∨ t'.flag = 0 ∨ t'.flag = 4) ∧
            isBinary t'.tmp = false) := by
          rcases p2 with p2 | ⟨p2, p3, _⟩
          · exact Or.inl p2
          · exact Or.inr ⟨by simpa using p2, p3⟩
        split at h
        · cases h
        · rename_i conv hconv
          split at h
          · rename_i hcl
            injection h with h
            injection h with h
            injection h with h1 h2
            subst h1
            refine ⟨p1, p2', ?_⟩
            intro hlast
            rw [← h2] at hlast
            rw [Bool.or_eq_true] at hcl
            rcases hcl with hcl | hcl
            · subst hcl
              split at hconv
              · cases hn : Composition.normalise t'.new with
                | error e => simp only [hn] at hconv; cases hconv
                | ok x2 =>
                  simp only [hn] at hconv
                  cases hs : smallestChange t'.tmp x2 with
                  | error e => simp only [hs, Except.map] at hconv; cases hconv
                  | ok d =>
                    simp only [hs, Except.map] at hconv
                    injection hconv with hconv
                    exact ⟨x2, rfl, smallestChange_spec _ _ _ d hs (by simpa using hconv)⟩
              · injection hconv with hconv
                cases hconv
            · rw [hcl] at hlast; cases hlast
          · exact liquidLoop_spec E yi φv n _ t last h

/-- **C94 and C95** (the trivial solution).  A trial whose relative distance from the composition of the other phase, summed
over the components, is below the tolerance is replaced the first time: by the composition that the search over the whole
range finds for two components, by a random one for more.  A trial that is not that close is kept. -/
theorem c94_trivial (ph : Phase) (noPhase : ℕ → Bool) (E : Env K) (other tmp : List K) (φo φ : List (Option K)) (flag n : ℕ)
    (s : State K) (hs : s.trivial = true) (hn : Composition.normalise s.y = .ok tmp) (hf : E.fug tmp = .ok (φ, flag))
    (hφ : ∀ a ∈ φ, a ≠ none) (hp : noPhase flag = false) (hx : ∀ x ∈ other, x ≠ 0) (newOf : List (Option K) → Except PyErr (List K))
    (hnew : newOf = fun φ => if ph = .vapor then newMoleFractions .vapor other φo φ else newMoleFractions .liquid other φ φo) :
    ((List.zipWith (fun x y => |x - y| / x) other tmp).sum < E.tolTrivial → ∀ t φ' flag' new,
      (tmp.length = 2 → (∀ a ∈ tmp, a ≠ 0) → E.findNew = .ok (some t)) →
      (tmp.length ≠ 2 → E.rand n = t) → (∀ a ∈ tmp, a ≠ 0) →
      E.fug t = .ok (φ', flag') → newOf φ' = .ok new →
      ∃ c, propose ph noPhase E other φo n s = .ok (some ⟨t, φ', flag', new⟩, c, false)) ∧
    (E.tolTrivial ≤ (List.zipWith (fun x y => |x - y| / x) other tmp).sum → ∀ new, newOf φ = .ok new →
      propose ph noPhase E other φo n s = .ok (some ⟨tmp, φ, flag, new⟩, s.check, true)) := by
  have hany : φ.any (·.isNone) = false := by
    rw [List.any_eq_false]
    intro a ha h
    exact hφ a ha (Option.isNone_iff_eq_none.mp h)
  have hall : other.all (· ≠ 0) = true := by simpa using hx
  subst hnew
  constructor
  · intro hlt t φ' flag' new h2 h3 h0 hf' hnew
    have htriv : isTrivial E.tolTrivial other tmp = true := by
      simp only [isTrivial, hall, Bool.true_and, decide_eq_true_eq]
      exact hlt
    by_cases hl : tmp.length = 2
    · have hb : isBinary tmp = true := by simpa [isBinary, hl] using h0
      exact ⟨_, by simp [propose, hn, hf, hany, hp, hs, htriv, hb, h2 hl h0, hf', hnew, bind, Except.bind]; rfl⟩
    · have hb : isBinary tmp = false := by simp [isBinary, hl]
      exact ⟨_, by simp [propose, hn, hf, hany, hp, hs, htriv, hb, h3 hl, hf', hnew, bind, Except.bind]; rfl⟩
  · intro hge new hnew
    have htriv : isTrivial E.tolTrivial other tmp = false := by
      simp only [isTrivial, hall, Bool.true_and, decide_eq_false_iff_not, not_lt]
      exact hge
    simp [propose, hn, hf, hany, hp, hs, htriv, hnew, bind, Except.bind]

/-- **C94 and C95**: a component that is absent from the other phase makes the distance infinite, so that no trial counts as
trivial. -/
theorem c94_trivial_absent (tol : K) (other tmp : List K) (h : 0 ∈ other) : isTrivial tol other tmp = false := by
  have : other.all (· ≠ 0) = false := by
    rw [List.all_eq_false]
    exact ⟨0, h, by simp⟩
  unfold isTrivial
  rw [this, Bool.false_and]

/-- **C94** (bouncing).  Sums that alternate between two values are recognised after five of them; fewer sums, and sums that
only rise or only fall, never are. -/
theorem c94_bouncing (a b : K) (hab : a ≠ b) (l : List K) :
    (l ≠ [] → bouncing b (a :: b :: a :: l) = true) ∧
    (∀ total : K, ∀ t : List K, t.length < 4 → bouncing total t = false) ∧
    (∀ total t0 t1 t2 : K, t2 ≤ t1 ∧ t1 ≤ t0 ∧ t0 ≤ total ∨ total ≤ t0 ∧ t0 ≤ t1 ∧ t1 ≤ t2 →
      bouncing total (t0 :: t1 :: t2 :: l) = false) := by
  refine ⟨?_, ?_, ?_⟩
  · intro hl
    obtain ⟨x, r, rfl⟩ := List.exists_cons_of_ne_nil hl
    simp only [bouncing, sub_self, abs_zero, add_zero, decide_eq_true_eq]
    exact abs_pos.mpr (sub_ne_zero.mpr (Ne.symm hab))
  · intro total t ht
    match t, ht with
    | [], _ => rfl
    | [_], _ => rfl
    | [_, _], _ => rfl
    | [_, _, _], _ => rfl
  · intro total t0 t1 t2 h
    cases l with
    | nil => rfl
    | cons x r =>
      simp only [bouncing, decide_eq_false_iff_not, not_lt]
      rcases h with ⟨h1, h2, h3⟩ | ⟨h1, h2, h3⟩
      · rw [abs_of_nonneg (sub_nonneg.mpr h3), abs_of_nonneg (sub_nonneg.mpr (h2.trans h3)),
          abs_of_nonneg (sub_nonneg.mpr (h1.trans h2))]
        linarith
      · rw [abs_of_nonpos (sub_nonpos.mpr h1), abs_of_nonpos (sub_nonpos.mpr (h1.trans h2)),
          abs_of_nonpos (sub_nonpos.mpr (h2.trans h3))]
        linarith

/-- **C94** (bouncing): when the sums bounce and the phase flag of the trial differs from that of its successor, the result
comes from the bisection between the first fractions of the two; it is the loop's last step. -/
theorem c94_bounced (E : Env K) (xi : List K) (φl : List (Option K)) (n : ℕ) (s : State K) (t : Trial K) (c v : Bool)
    (a b : K) (ra rb y2' : List K) (φ2 φ2' : List (Option K)) (flag2 flag2' : ℕ)
    (hp : propose .vapor (· == 1) E xi φl n s = .ok (some t, c, v)) (hy : Composition.normalise t.new = .ok (b :: rb))
    (hf : E.fug (b :: rb) = .ok (φ2, flag2)) (ht : t.tmp = a :: ra) (hb : bouncing t.new.sum s.totals = true)
    (hne : t.flag ≠ flag2) (hbr : E.bracket (min a b) (max a b) = .ok y2') (hf' : E.fug y2' = .ok (φ2', flag2')) :
    vaporLoop E xi φl (n + 1) s = .ok (some ⟨t, y2', φ2', flag2', n == 0⟩) := by
  simp [vaporLoop, hp, hy, hf, ht, hb, hne, hbr, hf', bind, Except.bind]

/-- Five sums that alternate; a trial equal to the liquid. -/
example : bouncing (2 : ℚ) [1, 2, 1, 2] = true ∧ bouncing (4 : ℚ) [3, 2, 1, 0] = false ∧
    isTrivial (1 / 100 : ℚ) [1/4, 3/4] [1/4, 3/4] = true ∧ isTrivial (1 / 10 : ℚ) [1/4, 3/4] [1/5, 4/5] = false := by
  decide +kernel

/-- **C95** (where a liquid composition comes from).  A returned composition (a) reproduces itself: the mole numbers
that it and the vapour give have, normalised, the same smallest fraction up to the tolerance, and the coefficients
and the flag belong to it; or (b) does not have two present components and gives no liquid; or (c) is
whatever least squares returned. -/
theorem c95_sources_partial (E : Env K) (xi yi : List K) (φv : List (Option K)) (x : List K) (φ : List (Option K))
    (flag : Option ℕ) (h : liquidComposition E xi yi φv = .ok (x, φ, flag)) :
    ((∃ f, flag = some f ∧ E.fug x = .ok (φ, f)) ∧
      ((∃ new, newMoleFractions .liquid yi φ φv = .ok new ∧ SmallestKept E.tol x (new.map (· / new.sum))) ∨
        ((none ∈ φ ∨ flag = some 0 ∨ flag = some 4) ∧ isBinary x = false))) ∨
    (∃ x0 x1, E.leastSquares x0 = .ok x1 ∧ x = [x1, 1 - x1]) := by
  unfold liquidComposition at h
  split at h
  · cases h
  · simp only [bind, Except.bind] at h
    cases hn : Composition.normalise xi with
    | error e => simp only [hn] at h; cases h
    | ok y0 =>
      simp only [hn] at h
      cases hl : liquidLoop E yi φv E.maxiter ⟨y0, [y0.sum], true, true⟩ with
      | error e => simp only [hl] at h; cases h
      | ok a? =>
        simp only [hl] at h
        cases a? with
        | none => simp only [liquidFinish] at h; cases h
        | some a =>
          obtain ⟨t, last⟩ := a
          obtain ⟨s1, s2, s3⟩ := liquidLoop_spec E yi φv _ _ t last hl
          simp only [liquidFinish, bind, Except.bind] at h
          cases hx : Composition.normalise t.new with
          | error e => simp only [hx] at h; cases h
          | ok x2 =>
            simp only [hx] at h
            cases hm : minPos t.tmp with
            | none => simp only [hm] at h; cases h
            | some m =>
              simp only [hm] at h
              split at h
              · right
                split at h
                · cases h
                · split at h
                  · cases h
                  · split at h
                    · cases h
                    · split at h
                      · cases h
                      · rename_i x1 hx1
                        split at h
                        · cases h
                        · injection h with h
                          injection h with h1 _
                          exact ⟨_, x1, hx1, h1.symm⟩
              · rename_i hlast
                left
                injection h with h
                injection h with h1 h
                injection h with h2 h3
                subst h1 h2 h3
                refine ⟨⟨_, rfl, s1⟩, ?_⟩
                rcases s2 with s2 | ⟨s2, s4⟩
                · left
                  obtain ⟨x2', e1, e2⟩ := s3 (by simpa using hlast)
                  obtain ⟨_, _, e3⟩ := comp_normalise _ _ e1
                  exact ⟨t.new, by simpa [newNumbers] using s2, e3 ▸ e2⟩
                · right
                  refine ⟨?_, s4⟩
                  simpa using s2

/-- An ideal mixture converges to the composition that Raoult's law gives. -/
example : liquidComposition (testEnv [4, 1] 1 9) [1/3, 2/3] [4/5, 1/5] [some 1, some 2] =
    .ok ([1/3, 2/3], [some 4, some 1], some 1) := by decide +kernel

/-- A liquid whose first coefficient depends on the composition. -/
def slopeEnv (maxiter : ℕ) : Env ℚ :=
  { testEnv [] 1 maxiter with
    fug := fun x => .ok ([some (2 + x.headD 0), some 1], 1)
    objective := fun _ => .ok (some 1000)
    leastSquares := fun _ => .ok (9/10) }

/-- **C95, violated.** When the iterations are used up, the composition that least squares returns is handed out
whatever its objective, with the fugacity coefficients of another composition. -/
theorem c95_violated_last_iteration :
    liquidComposition (slopeEnv 1) [1/3, 2/3] [4/5, 1/5] [some 1, some 2] =
      .ok ([9/10, 1/10], [some (7/3), some 1], some 1) ∧
    (slopeEnv 1).fug [9/10, 1/10] = .ok ([some (29/10), some 1], 1) ∧
    (slopeEnv 1).objective [9/10, 1/10] = .ok (some 1000) := by decide +kernel

/-- **C94** (the objective of the vapour). It vanishes at every composition that reproduces itself. -/
theorem c94_objective_zero (fug : Fug K) (xi yi y new : List K) (φl φ : List (Option K)) (f : ℕ)
    (hy : Composition.normalise yi = .ok y) (hf : fug y = .ok (φ, f))
    (hnew : newMoleFractions .vapor xi φl φ = .ok new) (hfix : Composition.normalise new = .ok y) :
    objectiveVapor fug xi φl yi = .ok (some 0, f) := by
  have hφ : φ.any (·.isNone) = false := by
    unfold newMoleFractions at hnew
    split at hnew
    · cases hnew
    · split at hnew
      · cases hnew
      · split at hnew
        · cases hnew
        · rename_i h
          exact Bool.eq_false_iff.mpr h
  have hnew' : new = (xi.zip (φl.zip φ)).map fun p => newFraction .vapor p.1 (p.2.1.getD 0) (p.2.2.getD 0) := by
    unfold newMoleFractions at hnew
    repeat' split at hnew
    all_goals first | rfl | (cases hnew; done) | (injection hnew with hnew; exact hnew.symm)
  have hns : ¬ new.sum = 0 := by
    intro h0
    simp [Composition.normalise, h0] at hfix
  simp only [objectiveVapor, bind, Except.bind, hy, hf, hnew, hfix, hφ]
  simp only [Bool.false_eq_true, if_false]
  rw [if_neg hns]
  congr 3
  subst hnew'
  clear hnew hfix hφ hf hy hns
  induction xi generalizing φl φ with
  | nil => simp
  | cons a r ih =>
    cases φl with
    | nil => simp
    | cons b s =>
      cases φ with
      | nil => simp
      | cons c t =>
        simp only [List.zip_cons_cons, List.map_cons, List.zipWith_cons_cons, List.sum_cons]
        rw [ih]
        by_cases ha : a = 0
        · simp [newFraction, ha]
        · simp [newFraction, ha]

/-- **C94, C95** (no new composition). The objective is NaN, and no exception is raised, when all new mole numbers are zero. -/
theorem c94_objective_nan (fug : Fug K) (other t y : List K) (φo φ : List (Option K)) (f : ℕ)
    (hy : Composition.normalise t = .ok y) (hf : fug y = .ok (φ, f)) :
    (∀ new, newMoleFractions .vapor other φo φ = .ok new → new.sum = 0 → objectiveVapor fug other φo t = .ok (none, f)) ∧
    (∀ new, newMoleFractions .liquid other φ φo = .ok new → new.sum = 0 → objectiveLiquid fug other φo t = .ok (none, f)) := by
  constructor
  · intro new h h0
    simp [objectiveVapor, hy, hf, h, h0, bind, Except.bind]
  · intro new h h0
    simp [objectiveLiquid, hy, hf, h, h0, bind, Except.bind]

example : objectiveVapor (testEnv [1, 2] 0 9).fug [1/2, 1/2] [some 0, some 0] [4/5, 1/5] = .ok (none, 0) :=
  (c94_objective_nan _ _ _ [4/5, 1/5] _ [some 1, some 2] 0 (by decide +kernel) (by decide +kernel)).1 [0, 0]
    (by decide +kernel) (by decide +kernel)

/-- The hypotheses hold for the composition of Raoult's law. -/
example : objectiveVapor (testEnv [1, 2] 0 9).fug [1/2, 1/2] [some 2, some 1] [4/5, 1/5] = .ok (some 0, 0) :=
  c94_objective_zero _ _ _ [4/5, 1/5] [1, 1/4] _ [some 1, some 2] 0 (by decide +kernel) (by decide +kernel)
    (by decide +kernel) (by decide +kernel)

/-- **C94, violated.** The objective which the last resort minimises and which decides whether its result is accepted is
zero for wrong compositions: with Raoult's law for every composition. -/
theorem c94_violated_objective (y1 y2 : ℚ) (hy : y1 + y2 = 1) :
    objectiveVapor (testEnv [1, 2] 0 9).fug [1/2, 1/2] [some 2, some 1] [y1, y2] = .ok (some 0, 0) := by
  have h1 : newMoleFractions .vapor ([1/2, 1/2] : List ℚ) [some 2, some 1] [some 1, some 2] = .ok [1, 1/4] := by
    decide +kernel
  have h2 : Composition.normalise ([1, 1/4] : List ℚ) = .ok [4/5, 1/5] := by decide +kernel
  have h3 : Composition.normalise [y1, y2] = .ok [y1, y2] := by simp [Composition.normalise, hy]
  have h4 : (testEnv [1, 2] 0 9).fug = fun _ => .ok ([some 1, some 2], 0) := by simp [testEnv]
  simp only [objectiveVapor, bind, Except.bind, h3, h4, h1, h2]
  decide +kernel

/-- **C95, violated.** The objective of the liquid multiplies by the trial composition.  With coefficients that do
not depend on the composition it vanishes only at the composition of the vapour, the trivial solution, and not
at the solution. -/
theorem c95_violated_objective (φ1 φ2 ψ1 ψ2 y1 y2 x1 x2 : K) (h1 : 0 < φ1) (h2 : 0 < φ2) (g1 : 0 < ψ1) (g2 : 0 < ψ2)
    (hy1 : 0 < y1) (hy2 : 0 < y2) (hy : y1 + y2 = 1) (hx : x1 + x2 = 1) (f : ℕ) :
    ∃ o, objectiveLiquid (fun _ => .ok ([some φ1, some φ2], f)) [y1, y2] [some ψ1, some ψ2] [x1, x2] =
      .ok (some o, f) ∧ (o = 0 ↔ x1 = y1 ∧ x2 = y2) := by
  have hs : 0 < y1 * ψ1 / φ1 + y2 * ψ2 / φ2 := by positivity
  have hn : newMoleFractions .liquid [y1, y2] [some φ1, some φ2] [some ψ1, some ψ2] =
      .ok [y1 * ψ1 / φ1, y2 * ψ2 / φ2] := by
    simp [newMoleFractions, hy, newFraction, hy1.ne', hy2.ne']
  have h3 : Composition.normalise [x1, x2] = .ok [x1, x2] := by simp [Composition.normalise, hx]
  obtain ⟨z, hz⟩ : ∃ z, Composition.normalise [y1 * ψ1 / φ1, y2 * ψ2 / φ2] = .ok z := by
    simp [Composition.normalise, hs.ne']
  refine ⟨|y1 * ψ1 / φ1 - x1 * ψ1 / φ1| + |y2 * ψ2 / φ2 - x2 * ψ2 / φ2|, ?_, ?_⟩
  · simp [objectiveLiquid, h3, hn, hz, hs.ne', bind, Except.bind]
  · rw [add_eq_zero_iff_of_nonneg (abs_nonneg _) (abs_nonneg _), abs_eq_zero, abs_eq_zero]
    have e1 : y1 * ψ1 / φ1 - x1 * ψ1 / φ1 = (y1 - x1) * (ψ1 / φ1) := by ring
    have e2 : y2 * ψ2 / φ2 - x2 * ψ2 / φ2 = (y2 - x2) * (ψ2 / φ2) := by ring
    rw [e1, e2, mul_eq_zero, mul_eq_zero, or_iff_left (by positivity), or_iff_left (by positivity), sub_eq_zero,
      sub_eq_zero, eq_comm, @eq_comm _ y2]

end Verif.Props
