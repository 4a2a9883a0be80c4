import Verif.Model.GlobalMethods
import Mathlib.Algebra.Order.Field.Basic
import Mathlib.Algebra.Order.Field.Rat
import Mathlib.Tactic.NormNum
import Mathlib.Tactic.Linarith
import Mathlib.Tactic.Ring
import Mathlib.Tactic.FieldSimp

/-! # C45: grid minimisation, C83: the grid -/

namespace Verif.Props
open Verif Verif.GlobalMethods

variable {K : Type} [Field K] [LinearOrder K]

/-! ## C45 -/

omit [Field K] in
theorem c45_lt_trans (a b c : Ext K) (h1 : Ext.lt a b = true) (h2 : Ext.lt b c = true) :
    Ext.lt a c = true := by
  cases a <;> cases b <;> cases c <;> simp_all [Ext.lt]
  exact lt_trans h1 h2

omit [Field K] in
theorem c45_not_lt_trans (a b c : Ext K) (hb : b ≠ .nan) (h1 : Ext.lt a b = false)
    (h2 : Ext.lt b c = false) : Ext.lt a c = false := by
  cases a <;> cases b <;> cases c <;> simp_all [Ext.lt]
  exact le_trans h2 h1

omit [Field K] in
theorem c45_lt_irrefl (a : Ext K) : Ext.lt a a = false := by
  cases a <;> simp [Ext.lt]

omit [Field K] in
theorem c45_lt_of_lt_not (a b c : Ext K) (h1 : Ext.lt a b = true) (h2 : Ext.lt c b = false)
    (hc : c ≠ .nan) : Ext.lt a c = true := by
  cases a <;> cases b <;> cases c <;> simp_all [Ext.lt]
  exact lt_of_lt_of_le h1 h2

omit [Field K] in
theorem c45_lt_ne_nan (a b : Ext K) (h : Ext.lt a b = true) : a ≠ .nan := by
  cases a <;> simp_all [Ext.lt]

/-- The loop keeps a candidate that no later one beats and that beats every earlier one of its own
list strictly. -/
theorem c45_loop {R : Type} (best : Ext K × R) (cs : List (Ext K × R)) (hb : best.1 ≠ .nan) :
    (pickLoop best cs).1 ≠ .nan ∧ Ext.lt best.1 (pickLoop best cs).1 = false ∧
    (∀ c ∈ cs, Ext.lt c.1 (pickLoop best cs).1 = false) ∧
    (pickLoop best cs = best ∨ ∃ i : Nat, cs[i]? = some (pickLoop best cs) ∧
      Ext.lt (pickLoop best cs).1 best.1 = true ∧
      ∀ (j : Nat) (c : Ext K × R), j < i → cs[j]? = some c → c.1 ≠ .nan →
        Ext.lt (pickLoop best cs).1 c.1 = true) := by
  induction cs generalizing best with
  | nil => exact ⟨hb, c45_lt_irrefl _, by simp, Or.inl rfl⟩
  | cons c cs ih =>
    simp only [pickLoop]
    by_cases hc : Ext.lt c.1 best.1 = true
    · simp only [hc, if_true]
      have hcn := c45_lt_ne_nan _ _ hc
      obtain ⟨h0, h1, h2, h3⟩ := ih c hcn
      refine ⟨h0, ?_, ?_, Or.inr ?_⟩
      · -- the result is not above c, and c is below best
        by_contra hcon
        rw [Bool.not_eq_false] at hcon
        have := c45_lt_trans _ _ _ hc hcon
        rw [h1] at this; cases this
      · intro d hd
        rcases List.mem_cons.mp hd with e | e
        · subst e; exact h1
        · exact h2 d e
      · rcases h3 with h3 | ⟨i, hi, hlt, hall⟩
        · refine ⟨0, by rw [h3]; rfl, by rw [h3]; exact hc, ?_⟩
          intro j _ hj; omega
        · refine ⟨i + 1, by simpa using hi, c45_lt_trans _ _ _ hlt hc, ?_⟩
          intro j d hj hd hdn
          cases j with
          | zero => simp at hd; subst hd; exact hlt
          | succ j => exact hall j d (by omega) (by simpa using hd) hdn
    · rw [Bool.not_eq_true] at hc
      simp only [hc, Bool.false_eq_true, if_false]
      obtain ⟨h0, h1, h2, h3⟩ := ih best hb
      refine ⟨h0, h1, ?_, ?_⟩
      · intro d hd
        rcases List.mem_cons.mp hd with e | e
        · subst e; exact c45_not_lt_trans _ _ _ hb hc h1
        · exact h2 d e
      · rcases h3 with h3 | ⟨i, hi, hlt, hall⟩
        · exact Or.inl h3
        · refine Or.inr ⟨i + 1, by simpa using hi, hlt, ?_⟩
          intro j d hj hd hdn
          cases j with
          | zero => simp at hd; subst hd; exact c45_lt_of_lt_not _ _ _ hlt hc hdn
          | succ j => exact hall j d (by omega) (by simpa using hd) hdn

/-- **C45 (a).** If the first candidate has an objective value at all (not NaN), the candidate chosen is one of
the list, no candidate is below it, and every candidate before it is strictly above it (or NaN): it is
the first one with the smallest value. -/
theorem c45_first_best {R : Type} (c : Ext K × R) (cs : List (Ext K × R)) (hc : c.1 ≠ .nan) :
    ∃ (r : Ext K × R) (i : Nat), pick (c :: cs) = .ok r ∧ (c :: cs)[i]? = some r ∧
      (∀ d ∈ c :: cs, Ext.lt d.1 r.1 = false) ∧
      ∀ (j : Nat) (d : Ext K × R), j < i → (c :: cs)[j]? = some d → d.1 ≠ .nan → Ext.lt r.1 d.1 = true := by
  obtain ⟨_, _, h2, h3⟩ := c45_loop c (c :: cs) hc
  refine ⟨pickLoop c (c :: cs), ?_⟩
  rcases h3 with h3 | ⟨i, hi, _, hall⟩
  · refine ⟨0, rfl, by rw [h3]; rfl, h2, ?_⟩
    intro j _ hj; omega
  · exact ⟨i, rfl, hi, h2, hall⟩

/-- **C45 (b).** A failed start, whose value is infinite, never wins over a start with a finite value. -/
theorem c45_failure_never_wins {R : Type} (l : List (Ext K × R)) (r : Ext K × R) (c : Ext K × R)
    (hl : l.head? = some c) (hc : c.1 ≠ .nan) (h : pick l = .ok r) (a : K) (d : R)
    (hd : (Ext.fin a, d) ∈ l) : r.1 ≠ .pinf ∧ r.1 ≠ .nan := by
  cases l with
  | nil => simp at hl
  | cons c' cs =>
    simp only [List.head?_cons, Option.some.injEq] at hl
    subst hl
    obtain ⟨h0, _, h2, _⟩ := c45_loop c' (c' :: cs) hc
    simp only [pick, Except.ok.injEq] at h
    rw [← h]
    refine ⟨?_, h0⟩
    intro hp
    have := h2 _ hd
    rw [hp] at this
    simp [Ext.lt] at this

example : pick [(Ext.pinf, "a"), (.fin (3 : ℚ), "b"), (.nan, "c"), (.fin 1, "d"), (.fin 1, "e")] =
    .ok (.fin 1, "d") := by decide +kernel

/-- **C45, violated.** If the value of the first start is NaN, it is the result whatever the others are. -/
theorem c45_violated_nan {R : Type} (r : R) (cs : List (Ext K × R)) :
    pick ((.nan, r) :: cs) = .ok (.nan, r) := by
  have : ∀ cs : List (Ext K × R), pickLoop (Ext.nan, r) cs = (.nan, r) := by
    intro cs
    induction cs with
    | nil => rfl
    | cons c cs ih =>
      simp only [pickLoop]
      have : Ext.lt c.1 (Ext.nan : Ext K) = false := by cases c.1 <;> rfl
      simp only [this, Bool.false_eq_true, if_false]
      exact ih
  simp only [pick, this]

/-- **C45 (c).** A start (of more than one parameter) from which the minimisation fails gets an infinite
objective and does not end the search. -/
theorem c45_failed_start (solve : Minimiser K) (p : Problem K) (l : List (Ext K)) (hl : l ≠ [])
    (hn : l.length = p.nNames) (e : PyErr) (hs : solve (objAt p none) (.vec l) = .error e) :
    ∃ r, gridJob solve (objAt p none) (.vec l) = .ok (r, .pinf) := by
  have hm : minimised solve (objAt p none) (.vec l) = .vec (List.replicate l.length .nan) := by
    unfold minimised; rw [hs]; rfl
  have ho : objAt p none (.vec (List.replicate l.length .nan)) = .ok .pinf := by
    simp only [objAt, Objective.computeObj, List.length_replicate, hn, ne_eq, not_true, if_false, Nat.lt_irrefl]
    rw [if_pos]
    rw [List.any_eq_true]
    refine ⟨.nan, ?_, rfl⟩
    rw [List.mem_replicate]
    exact ⟨by rw [← hn]; exact fun h => hl (List.length_eq_zero_iff.mp h), rfl⟩
  exact ⟨_, by unfold gridJob; rw [hm, ho]⟩

/-- **C45, violated.** With one fitted parameter the starting points are numbers, and a single failing
minimisation ends the whole search with an exception. -/
theorem c45_violated_one_parameter (solve : Minimiser K) (p : Problem K) (x : Ext K) (xs : List (Pt K))
    (e : PyErr) (hs : solve (objAt p none) (.scalar x) = .error e) :
    gridMin solve p (.scalar x :: xs) = .error .typeError := by
  have hm : minimised solve (objAt p none) (.scalar x) = .scalar .nan := by
    unfold minimised; rw [hs]; rfl
  simp only [gridMin, List.map_cons, gridJobs, gridJob, hm, objAt]

/-- The jobs are done in order. -/
theorem c45_jobs (solve : Minimiser K) (js : List ((Pt K → Except PyErr (Ext K)) × Pt K))
    (rs : List (Pt K × Ext K)) (h : gridJobs solve js = .ok rs) :
    rs.length = js.length ∧ ∀ (i : Nat) (r : Pt K × Ext K), rs[i]? = some r →
      ∃ j, js[i]? = some j ∧ r.1 = minimised solve j.1 j.2 ∧ j.1 r.1 = .ok r.2 := by
  induction js generalizing rs with
  | nil =>
    simp only [gridJobs, Except.ok.injEq] at h
    subst h
    exact ⟨rfl, by simp⟩
  | cons j js ih =>
    simp only [gridJobs] at h
    cases hj : gridJob solve j.1 j.2 with
    | error e => simp only [hj] at h; cases h
    | ok r =>
      simp only [hj] at h
      cases hjs : gridJobs solve js with
      | error e => simp only [hjs] at h; cases h
      | ok rs' =>
        simp only [hjs, Except.ok.injEq] at h
        subst h
        obtain ⟨h1, h2⟩ := ih rs' hjs
        refine ⟨by simp [h1], ?_⟩
        intro i r' hr'
        cases i with
        | zero =>
          simp only [List.getElem?_cons_zero, Option.some.injEq] at hr'
          subst hr'
          refine ⟨j, rfl, ?_⟩
          unfold gridJob at hj
          cases ho : j.1 (minimised solve j.1 j.2) with
          | error e => simp only [ho] at hj; cases hj
          | ok f =>
            simp only [ho, Except.ok.injEq] at hj
            subst hj
            exact ⟨rfl, ho⟩
        | succ i => exact h2 i r' (by simpa using hr')

/-- **C45 (d).** The result of a search without split is what the local minimiser made of one of the starts,
with the objective of exactly these parameters, and no start led to a lower objective. -/
theorem c45_result (solve : Minimiser K) (p : Problem K) (x0s : List (Pt K)) (f : Ext K) (x : Pt K)
    (h : gridMin solve p x0s = .ok (f, x)) :
    (∃ x0 ∈ x0s, x = minimised solve (objAt p none) x0) ∧ objAt p none x = .ok f ∧
    ((∀ x0 ∈ x0s, objAt p none (minimised solve (objAt p none) x0) ≠ .ok .nan) →
      ∀ x0 ∈ x0s, ∀ g, objAt p none (minimised solve (objAt p none) x0) = .ok g → Ext.lt g f = false) := by
  unfold gridMin at h
  cases hj : gridJobs solve (x0s.map (fun x => (objAt p none, x))) with
  | error e => simp only [hj] at h; cases h
  | ok rs =>
    simp only [hj] at h
    obtain ⟨hlen, hall⟩ := c45_jobs solve _ rs hj
    have each : ∀ (i : Nat) (r : Pt K × Ext K), rs[i]? = some r →
        ∃ x0, x0s[i]? = some x0 ∧ r.1 = minimised solve (objAt p none) x0 ∧ objAt p none r.1 = .ok r.2 := by
      intro i r hr
      obtain ⟨j, h1, h2, h3⟩ := hall i r hr
      rw [List.getElem?_map] at h1
      cases hx : x0s[i]? with
      | none => rw [hx] at h1; cases h1
      | some x0 =>
        rw [hx] at h1
        simp only [Option.map_some, Option.some.injEq] at h1
        subst h1
        exact ⟨x0, rfl, h2, h3⟩
    -- the result is one of the candidates
    have member : ∀ (best : Ext K × Pt K) (cs : List (Ext K × Pt K)),
        pickLoop best cs = best ∨ pickLoop best cs ∈ cs := by
      intro best cs
      induction cs generalizing best with
      | nil => exact Or.inl rfl
      | cons c cs ih =>
        simp only [pickLoop]
        by_cases hc : Ext.lt c.1 best.1 = true
        · simp only [hc, if_true]
          rcases ih c with h | h
          · exact Or.inr (by rw [h]; exact List.mem_cons_self ..)
          · exact Or.inr (List.mem_cons_of_mem _ h)
        · simp only [hc]
          rcases ih best with h | h
          · exact Or.inl h
          · exact Or.inr (List.mem_cons_of_mem _ h)
    cases rs with
    | nil => simp only [List.map_nil, pick] at h; cases h
    | cons r0 rs' =>
      have hmem : (f, x) ∈ (r0 :: rs').map (fun r => (r.2, r.1)) := by
        simp only [List.map_cons, pick, Except.ok.injEq] at h
        rcases member (r0.2, r0.1) ((r0.2, r0.1) :: rs'.map (fun r => (r.2, r.1))) with h1 | h1
        · rw [h1] at h; rw [← h]; simp
        · rw [h] at h1; simpa using h1
      obtain ⟨r, hr1, hr2⟩ := List.mem_map.mp hmem
      obtain ⟨i, hi⟩ := List.mem_iff_getElem?.mp hr1
      obtain ⟨x0, hx0, hx, hf⟩ := each i r hi
      simp only [Prod.mk.injEq] at hr2
      obtain ⟨e1, e2⟩ := hr2
      subst e1 e2
      refine ⟨⟨x0, List.mem_of_getElem? hx0, hx⟩, hf, ?_⟩
      intro hnn y hy g hg
      obtain ⟨k, hk⟩ := List.mem_iff_getElem?.mp hy
      have hkl : k < (r0 :: rs').length := by
        rw [hlen, List.length_map]
        by_contra hcon
        rw [List.getElem?_eq_none (by omega)] at hk; cases hk
      obtain ⟨y', hy', hr', hf'⟩ := each k (r0 :: rs')[k] (List.getElem?_eq_getElem hkl)
      rw [hk] at hy'; cases hy'
      rw [hr', hg] at hf'
      have hg' : g = (r0 :: rs')[k].2 := by cases hf'; rfl
      obtain ⟨z, hz, hz1, hz2⟩ := each 0 r0 rfl
      have h0 : r0.2 ≠ .nan := by
        intro hcon
        rw [hz1, hcon] at hz2
        exact hnn z (List.mem_of_getElem? hz) hz2
      obtain ⟨_, _, h2, _⟩ := c45_loop (r0.2, r0.1) ((r0.2, r0.1) :: rs'.map (fun r => (r.2, r.1))) h0
      simp only [List.map_cons, pick, Except.ok.injEq] at h
      rw [h] at h2
      have := h2 ((r0 :: rs')[k].2, (r0 :: rs')[k].1) (by
        rw [← List.map_cons (f := fun r : Pt K × Ext K => (r.2, r.1))]
        exact List.mem_map.mpr ⟨(r0 :: rs')[k], List.getElem_mem _, rfl⟩)
      rw [hg']; exact this

/-- **C45 (e).** With split dimensions the reported parameters are the frozen ones, in front, followed by the
minimised ones, and the reported objective is the one of this whole list. -/
theorem c45_split_result (solve : Minimiser K) (p : Problem K) (fs starts : List (Pt K)) (f : Ext K)
    (x : List (Ext K)) (hl : fs.length = starts.length)
    (h : gridMinSplit solve p fs starts = .ok (f, x)) :
    ∃ (fl rl : List (Ext K)) (s : Pt K), Pt.vec fl ∈ fs ∧ s ∈ starts ∧
      minimised solve (objAt p (some (.vec fl))) s = .vec rl ∧
      objAt p (some (.vec fl)) (.vec rl) = .ok f ∧ x = fl ++ rl := by
  unfold gridMinSplit at h
  cases hj : gridJobs solve ((fs.zip starts).map (fun q => (objAt p (some q.1), q.2))) with
  | error e => simp only [hj] at h; cases h
  | ok rs =>
    simp only [hj] at h
    cases hw : withFrozen fs rs with
    | error e => simp only [hw] at h; cases h
    | ok t =>
      simp only [hw] at h
      obtain ⟨hlen, hall⟩ := c45_jobs solve _ rs hj
      have frozen : ∀ (fs : List (Pt K)) (rs : List (Pt K × Ext K)) (t : List (Ext K × List (Ext K))),
          withFrozen fs rs = .ok t → ∀ c ∈ t, ∃ (i : Nat) (fl rl : List (Ext K)),
            fs[i]? = some (.vec fl) ∧ rs[i]? = some (.vec rl, c.1) ∧ c.2 = fl ++ rl := by
        intro fs
        induction fs with
        | nil =>
          intro rs t ht c hc
          simp only [withFrozen, Except.ok.injEq] at ht
          subst ht; simp at hc
        | cons g gs ih =>
          intro rs t ht c hc
          cases rs with
          | nil => simp only [withFrozen] at ht; cases ht
          | cons r rs =>
            simp only [withFrozen] at ht
            cases g with
            | scalar y => simp only [Pt.toList] at ht; cases ht
            | vec gl =>
              simp only [Pt.toList] at ht
              obtain ⟨r1, r2⟩ := r
              cases r1 with
              | scalar y => simp only at ht; cases ht
              | vec rl =>
                simp only at ht
                cases hrec : withFrozen gs rs with
                | error e => simp only [hrec] at ht; cases ht
                | ok t' =>
                  simp only [hrec, Except.ok.injEq] at ht
                  subst ht
                  rcases List.mem_cons.mp hc with e | e
                  · subst e; exact ⟨0, gl, rl, rfl, rfl, rfl⟩
                  · obtain ⟨i, fl, rl', h1, h2, h3⟩ := ih rs t' hrec c e
                    exact ⟨i + 1, fl, rl', by simpa using h1, by simpa using h2, h3⟩
      have member : ∀ (cs : List (Ext K × List (Ext K))) (best : Ext K × List (Ext K)),
          pickLoop best cs = best ∨ pickLoop best cs ∈ cs := by
        intro cs
        induction cs with
        | nil => intro best; exact Or.inl rfl
        | cons c cs ih =>
          intro best
          simp only [pickLoop]
          by_cases hc : Ext.lt c.1 best.1 = true
          · simp only [hc, if_true]
            rcases ih c with h | h
            · exact Or.inr (by rw [h]; exact List.mem_cons_self ..)
            · exact Or.inr (List.mem_cons_of_mem _ h)
          · simp only [hc]
            rcases ih best with h | h
            · exact Or.inl h
            · exact Or.inr (List.mem_cons_of_mem _ h)
      have hmem : (f, x) ∈ t := by
        cases t with
        | nil => simp only [pick] at h; cases h
        | cons c cs =>
          simp only [pick, Except.ok.injEq] at h
          rcases member (c :: cs) c with h1 | h1
          · rw [h1] at h; rw [← h]; exact List.mem_cons_self ..
          · rw [h] at h1; exact h1
      obtain ⟨i, fl, rl, h1, h2, h3⟩ := frozen fs rs t hw (f, x) hmem
      obtain ⟨j, hj1, hj2, hj3⟩ := hall i (.vec rl, f) h2
      have hi : i < fs.length := by
        by_contra hcon
        rw [List.getElem?_eq_none (by omega)] at h1; cases h1
      have hz : (fs.zip starts)[i]? = some (.vec fl, starts[i]'(by omega)) := by
        rw [List.getElem?_eq_getElem (by simp; omega), List.getElem_zip]
        rw [List.getElem?_eq_getElem hi] at h1
        simp only [Option.some.injEq] at h1
        rw [h1]
      rw [List.getElem?_map, hz] at hj1
      simp only [Option.map_some, Option.some.injEq] at hj1
      subst hj1
      exact ⟨fl, rl, starts[i]'(by omega), List.mem_of_getElem? h1, List.getElem_mem _, hj2.symm, hj3, h3⟩

/-- The objective with frozen parameters is the one of the whole list, if together they are as many as
the fitted parameters and some are frozen. -/
theorem c45_frozen_objective (p : Problem K) (fl rl : List (Ext K)) (hf : fl ≠ [])
    (hn : (fl ++ rl).length = p.nNames) :
    objAt p (some (.vec fl)) (.vec rl) = objAt p none (.vec (fl ++ rl)) := by
  have h1 : rl.length ≠ p.nNames := by
    rw [← hn, List.length_append]
    have : fl.length ≠ 0 := fun h => hf (List.length_eq_zero_iff.mp h)
    omega
  simp only [objAt, Pt.toList, if_pos h1, Objective.computeObj]
  simp only [hn, ne_eq, not_true, if_false]

/-- **C45, violated.** Freezing exactly one dimension on the grid never works: the frozen values are numbers
there, and every evaluation of the objective raises.  The minimiser is any that evaluates the objective
at its starting point and does not catch what it raises. -/
theorem c45_violated_split_one (solve : Minimiser K) (p : Problem K) (n : Nat) (hn : 0 < n) (b : K × K)
    (rl : List (Ext K)) (starts : List (Pt K)) (hr : rl.length ≠ p.nNames)
    (hs : ∀ obj x e, obj x = .error e → ∃ e', solve obj x = .error e') :
    gridMinSplit solve p (startPoints n [b]) (.vec rl :: starts) = .error .typeError := by
  have hax : ∃ x xs, startPoints n [b] = Pt.scalar x :: xs := by
    unfold startPoints axis
    cases n with
    | zero => omega
    | succ m =>
      rw [List.range_succ_eq_map]
      exact ⟨_, _, rfl⟩
  obtain ⟨x, xs, hx⟩ := hax
  have hobj : ∀ l : List (Ext K), l.length ≠ p.nNames → objAt p (some (.scalar x)) (.vec l) = .error .typeError := by
    intro l hl
    simp only [objAt, if_pos hl, Pt.toList]
  obtain ⟨e', he⟩ := hs _ _ _ (hobj rl hr)
  have hm : minimised solve (objAt p (some (.scalar x))) (.vec rl) = .vec (List.replicate rl.length .nan) := by
    unfold minimised; rw [he]; rfl
  rw [hx]
  unfold gridMinSplit
  simp only [List.zip_cons_cons, List.map_cons, gridJobs, gridJob, hm,
    hobj (List.replicate rl.length .nan) (by rw [List.length_replicate]; exact hr)]

/-- A minimiser that evaluates its starting point and returns it. -/
def idleMin : Minimiser ℚ := fun obj x => match obj x with | .error e => .error e | .ok _ => .ok x

/-- The search over the grid of two parameters, and the failing one with one frozen dimension. -/
example : gridMin idleMin
      ⟨2, fun l => [.ok (match l with | [.fin a, .fin b] => .fin ((a - 1) * (a - 1) + b * b + 1) | _ => .pinf)],
        [(.fin 0, .fin 2), (.fin 0, .fin 2)]⟩
      (startPoints 3 [((0 : ℚ), 2), (0, 2)]) = .ok (.fin 1, .vec [.fin 1, .fin 0]) := by
  decide +kernel

example : gridMinSplit idleMin
      ⟨2, fun _ => [.ok (.fin 1)], [(.fin 0, .fin 2), (.fin 0, .fin 2)]⟩
      (startPoints 3 [((0 : ℚ), 2)]) (List.replicate 3 (.vec [.fin 1])) = .error .typeError :=
  c45_violated_split_one _ _ 3 (by decide) _ _ _ (by decide)
    (fun obj x e h => ⟨e, by unfold idleMin; rw [h]⟩)

/-! ## C83 -/

variable [IsStrictOrderedRing K]

theorem c83_axis (n : Nat) (hn : 2 ≤ n) (b : K × K) (hb : b.1 ≤ b.2) :
    (axis n b).length = n ∧ (∀ x ∈ axis n b, b.1 ≤ x ∧ x ≤ b.2) ∧ b.1 ∈ axis n b ∧ b.2 ∈ axis n b := by
  have h1 : (1 : K) ≤ (n : K) - 1 := by
    have : ((2 : Nat) : K) ≤ (n : K) := Nat.cast_le.mpr hn
    have h2 : ((2 : Nat) : K) = 2 := by norm_num
    linarith
  have hpos : (0 : K) < (n : K) - 1 := by linarith
  refine ⟨by simp [axis], ?_, ?_, ?_⟩
  · intro x hx
    obtain ⟨i, hi, rfl⟩ := List.mem_map.mp hx
    have hi' : i < n := List.mem_range.mp hi
    have hile : (i : K) ≤ (n : K) - 1 := by
      have : ((i + 1 : Nat) : K) ≤ (n : K) := Nat.cast_le.mpr hi'
      push_cast at this
      linarith
    have hd : 0 ≤ b.2 - b.1 := by linarith
    have hi0 : (0 : K) ≤ i := Nat.cast_nonneg _
    have hfrac : (i : K) * ((b.2 - b.1) / ((n : K) - 1)) ≤ b.2 - b.1 := by
      have : (i : K) * ((b.2 - b.1) / ((n : K) - 1)) ≤ ((n : K) - 1) * ((b.2 - b.1) / ((n : K) - 1)) :=
        mul_le_mul_of_nonneg_right hile (div_nonneg hd hpos.le)
      rwa [mul_div_cancel₀ _ hpos.ne'] at this
    have hfrac0 : 0 ≤ (i : K) * ((b.2 - b.1) / ((n : K) - 1)) := mul_nonneg hi0 (div_nonneg hd hpos.le)
    constructor <;> linarith
  · exact List.mem_map.mpr ⟨0, List.mem_range.mpr (by omega), by simp⟩
  · refine List.mem_map.mpr ⟨n - 1, List.mem_range.mpr (by omega), ?_⟩
    have : ((n - 1 : Nat) : K) = (n : K) - 1 := by
      rw [Nat.cast_sub (by omega)]; norm_num
    rw [this, mul_div_cancel₀ _ hpos.ne']
    ring

/-- **C83.** The grid of starting points has the requested number of values for each parameter, stays within the
bounds, and includes every corner of the box they form. -/
theorem c83_grid (n : Nat) (hn : 2 ≤ n) (bs : List (K × K)) (hb : ∀ b ∈ bs, b.1 ≤ b.2) :
    (gridPoints n bs).length = n ^ bs.length ∧
    (∀ x ∈ gridPoints n bs, x.length = bs.length ∧
      ∀ (i : Nat) (v : K) (b : K × K), x[i]? = some v → bs[i]? = some b → b.1 ≤ v ∧ v ≤ b.2) ∧
    ∀ x : List K, x.length = bs.length →
      (∀ (i : Nat) (v : K) (b : K × K), x[i]? = some v → bs[i]? = some b → v = b.1 ∨ v = b.2) →
      x ∈ gridPoints n bs := by
  induction bs with
  | nil =>
    refine ⟨rfl, ?_, ?_⟩
    · intro x hx
      simp only [gridPoints, List.mem_singleton] at hx
      subst hx; simp
    · intro x hx _
      have : x = [] := List.length_eq_zero_iff.mp hx
      simp [gridPoints, this]
  | cons b bs ih =>
    obtain ⟨h1, h2, h3⟩ := ih (fun c hc => hb c (List.mem_cons_of_mem _ hc))
    obtain ⟨a1, a2, a3, a4⟩ := c83_axis n hn b (hb b (List.mem_cons_self ..))
    refine ⟨?_, ?_, ?_⟩
    · simp only [gridPoints, List.length_flatMap, List.length_map, h1, List.length_cons]
      rw [List.map_const', List.sum_replicate, a1, pow_succ, mul_comm]
      rfl
    · intro x hx
      simp only [gridPoints, List.mem_flatMap, List.mem_map] at hx
      obtain ⟨v, hv, r, hr, rfl⟩ := hx
      obtain ⟨hl, hw⟩ := h2 r hr
      refine ⟨by simp [hl], ?_⟩
      intro i w c hi hc
      cases i with
      | zero =>
        simp only [List.getElem?_cons_zero, Option.some.injEq] at hi hc
        subst hi hc
        exact a2 v hv
      | succ i => exact hw i w c (by simpa using hi) (by simpa using hc)
    · intro x hx hcorner
      cases x with
      | nil => simp at hx
      | cons v r =>
        simp only [gridPoints, List.mem_flatMap, List.mem_map]
        refine ⟨v, ?_, r, ?_, rfl⟩
        · rcases hcorner 0 v b rfl rfl with e | e
          · rw [e]; exact a3
          · rw [e]; exact a4
        · apply h3 r (by simpa using hx)
          intro i w c hi hc
          exact hcorner (i + 1) w c (by simpa using hi) (by simpa using hc)

example : gridPoints 3 [((0 : ℚ), 2), (10, 20)] =
    [[0, 10], [0, 15], [0, 20], [1, 10], [1, 15], [1, 20], [2, 10], [2, 15], [2, 20]] := by
  decide +kernel

end Verif.Props
