import Verif.Model.Objective
import Mathlib.Algebra.Order.Field.Basic
import Mathlib.Algebra.Order.Field.Rat
import Mathlib.Algebra.Order.BigOperators.Group.List
import Mathlib.Algebra.BigOperators.Group.List.Basic
import Mathlib.Tactic.NormNum
import Mathlib.Tactic.Positivity
import Mathlib.Tactic.Linarith
import Mathlib.Tactic.Ring

/-!
# C39, C40: the total objective of a fit
-/

namespace Verif.Props
open Verif Verif.Objective

variable {K : Type} [Field K] [LinearOrder K] [IsStrictOrderedRing K]

/-- A number or plus infinity. -/
def NumOrInf (a : Ext K) : Prop := a = .pinf ∨ ∃ x, a = .fin x

omit [IsStrictOrderedRing K] in
theorem proper_add {a b : Ext K} (ha : NumOrInf a) (hb : NumOrInf b) : NumOrInf (Ext.add a b) := by
  rcases ha with rfl | ⟨x, rfl⟩ <;> rcases hb with rfl | ⟨y, rfl⟩
  · exact Or.inl rfl
  · exact Or.inl rfl
  · exact Or.inl rfl
  · exact Or.inr ⟨_, rfl⟩

omit [IsStrictOrderedRing K] in
theorem proper_sum {l : List (Ext K)} (h : ∀ a ∈ l, NumOrInf a) : NumOrInf (sum l) := by
  induction l with
  | nil => exact Or.inr ⟨0, rfl⟩
  | cons a l ih =>
    exact proper_add (h a (List.mem_cons_self ..)) (ih fun b hb => h b (List.mem_cons_of_mem _ hb))

omit [IsStrictOrderedRing K] in
theorem proper_nansum {l : List (Ext K)} (h : ∀ a ∈ l, a ≠ .ninf) : NumOrInf (nansum l) := by
  apply proper_sum
  intro b hb
  obtain ⟨a, ha, rfl⟩ := List.mem_map.mp hb
  have := h a ha
  cases a with
  | fin x => exact Or.inr ⟨x, rfl⟩
  | pinf => exact Or.inl rfl
  | ninf => exact absurd rfl this
  | nan => exact Or.inr ⟨0, rfl⟩

omit [IsStrictOrderedRing K] in
theorem sum_pinf {l : List (Ext K)} (h : ∀ a ∈ l, NumOrInf a) (hm : Ext.pinf ∈ l) :
    sum l = .pinf := by
  induction l with
  | nil => cases hm
  | cons a l ih =>
    have hl := fun b hb => h b (List.mem_cons_of_mem a hb)
    change Ext.add a (sum l) = .pinf
    rcases List.mem_cons.mp hm with rfl | hm
    · rcases proper_sum hl with h1 | ⟨x, h1⟩ <;> rw [h1] <;> rfl
    · rw [ih hl hm]
      rcases h a (List.mem_cons_self ..) with rfl | ⟨x, rfl⟩ <;> rfl

omit [IsStrictOrderedRing K] in
theorem nansum_pinf {l : List (Ext K)} (h : ∀ a ∈ l, a ≠ .ninf) (hm : Ext.pinf ∈ l) :
    nansum l = .pinf := by
  apply sum_pinf
  · intro b hb
    obtain ⟨a, ha, rfl⟩ := List.mem_map.mp hb
    have := h a ha
    cases a with
    | fin x => exact Or.inr ⟨x, rfl⟩
    | pinf => exact Or.inl rfl
    | ninf => exact absurd rfl this
    | nan => exact Or.inr ⟨0, rfl⟩
  · exact List.mem_map.mpr ⟨_, hm, rfl⟩

/-- The eighth power in the penalty, for a number. -/
theorem penalty_proper {p : Ext K} (hp : p ≠ .nan) (b : Ext K × Ext K) : NumOrInf (penalty p b) := by
  have h1000 : (0 : K) < 1000 := by norm_num
  obtain ⟨lo, hi⟩ := b
  unfold penalty
  simp only
  split
  · next h =>
    cases p with
    | nan => exact absurd rfl hp
    | pinf => cases lo <;> cases h
    | ninf =>
      cases lo with
      | nan => cases h
      | ninf => cases h
      | pinf => simp [Ext.sub, Ext.neg, Ext.add, Ext.mul, Ext.signInf, h1000, NumOrInf]
      | fin l => simp [Ext.sub, Ext.neg, Ext.add, Ext.mul, Ext.signInf, h1000, NumOrInf]
    | fin x =>
      cases lo with
      | nan => cases h
      | ninf => cases h
      | pinf => simp [Ext.sub, Ext.neg, Ext.add, Ext.mul, Ext.signInf, h1000, NumOrInf]
      | fin l => exact Or.inr ⟨_, rfl⟩
  · split
    · next h =>
      cases p with
      | nan => exact absurd rfl hp
      | ninf => cases hi <;> cases h
      | pinf =>
        cases hi with
        | nan => cases h
        | pinf => cases h
        | ninf => simp [Ext.sub, Ext.neg, Ext.add, Ext.mul, Ext.signInf, h1000, NumOrInf]
        | fin l => simp [Ext.sub, Ext.neg, Ext.add, Ext.mul, Ext.signInf, h1000, NumOrInf]
      | fin x =>
        cases hi with
        | nan => cases h
        | pinf => cases h
        | ninf => simp [Ext.sub, Ext.neg, Ext.add, Ext.mul, Ext.signInf, h1000, NumOrInf]
        | fin l => exact Or.inr ⟨_, rfl⟩
    · exact Or.inr ⟨0, rfl⟩

theorem addPenalties_proper : ∀ (ps : List (Ext K)) (bs : List (Ext K × Ext K)) (t v : Ext K),
    (∀ p ∈ ps, p ≠ .nan) → NumOrInf t → addPenalties ps bs t = .ok v →
    NumOrInf v ∧ (t = .pinf → v = .pinf)
  | [], bs, t, v, _, ht, h => by
    cases bs <;> (cases h; exact ⟨ht, id⟩)
  | p :: ps, [], t, v, _, _, h => by cases h
  | p :: ps, b :: bs, t, v, hp, ht, h => by
    have hpen := penalty_proper (hp p (List.mem_cons_self ..)) b
    obtain ⟨h1, h2⟩ := addPenalties_proper ps bs _ v (fun q hq => hp q (List.mem_cons_of_mem _ hq))
      (proper_add ht hpen) h
    refine ⟨h1, fun e => h2 ?_⟩
    rw [e]
    rcases hpen with h | ⟨x, h⟩ <;> rw [h] <;> rfl

/-! ## C39 -/

omit [IsStrictOrderedRing K] in
/-- The steps of `compute_obj`. -/
theorem computeObj_ok {params : List (Ext K)} {n : Nat}
    {data : List (Ext K) → List (Except PyErr (Ext K))} {bounds : List (Ext K × Ext K)}
    {frozen : Option (List (Ext K))} {v : Ext K}
    (h : computeObj params n data bounds frozen = .ok v) :
    ∃ ps, (params.length = n ∧ ps = params ∨ params.length ≠ n ∧ ∃ f, frozen = some f ∧ ps = f ++ params) ∧
      ((∃ p ∈ ps, p = .nan) ∧ v = .pinf ∨
       (∀ p ∈ ps, p ≠ .nan) ∧ ∃ t, addPenalties ps bounds (nansum ((data ps).map seen)) = .ok t ∧
         v = if t = .fin 0 ∧ isNan (sum ((data ps).map seen)) then .pinf else t) := by
  have key : ∀ ps : List (Ext K), (if ps.any isNan then Except.ok Ext.pinf
      else
        match addPenalties ps bounds (nansum ((data ps).map seen)) with
        | .error e => .error e
        | .ok t => .ok (if t = .fin 0 ∧ isNan (sum ((data ps).map seen)) then .pinf else t))
        = (.ok v : Except PyErr (Ext K)) →
      ((∃ p ∈ ps, p = .nan) ∧ v = .pinf ∨
       (∀ p ∈ ps, p ≠ .nan) ∧ ∃ t, addPenalties ps bounds (nansum ((data ps).map seen)) = .ok t ∧
         v = if t = .fin 0 ∧ isNan (sum ((data ps).map seen)) then .pinf else t) := by
    intro ps hk
    by_cases hn : ps.any isNan
    · rw [if_pos hn] at hk
      cases hk
      obtain ⟨p, hp, hp2⟩ := List.any_eq_true.mp hn
      refine Or.inl ⟨⟨p, hp, ?_⟩, rfl⟩
      cases p <;> first | rfl | cases hp2
    · rw [if_neg hn] at hk
      have hn' : ∀ p ∈ ps, p ≠ .nan := by
        intro p hp e
        exact hn (List.any_eq_true.mpr ⟨p, hp, by rw [e]; rfl⟩)
      cases ha : addPenalties ps bounds (nansum ((data ps).map seen)) with
      | error e => rw [ha] at hk; cases hk
      | ok t =>
        rw [ha] at hk
        exact Or.inr ⟨hn', t, rfl, (Except.ok.inj hk).symm⟩
  unfold computeObj at h
  by_cases hl : params.length ≠ n
  · cases frozen with
    | none => simp only [if_pos hl] at h; cases h
    | some f =>
      simp only [if_pos hl] at h
      split at h
      · cases h
      · exact ⟨f ++ params, Or.inr ⟨hl, f, rfl, rfl⟩, key _ h⟩
  · simp only [if_neg hl] at h
    rw [if_neg (by omega)] at h
    exact ⟨params, Or.inl ⟨not_not.mp hl, rfl⟩, key _ h⟩

/-- **C39.**  Whatever the data sets return or raise, as long as none returns minus infinity, the
total objective is a number or plus infinity, never NaN. -/
theorem c39_never_nan_partial (params : List (Ext K)) (n : Nat)
    (data : List (Ext K) → List (Except PyErr (Ext K))) (bounds : List (Ext K × Ext K))
    (frozen : Option (List (Ext K))) (v : Ext K)
    (hdata : ∀ ps, ∀ r ∈ data ps, r ≠ .ok .ninf)
    (h : computeObj params n data bounds frozen = .ok v) : v ≠ .nan ∧ v ≠ .ninf := by
  obtain ⟨ps, -, h | ⟨hnn, t, ht, hv⟩⟩ := computeObj_ok h
  · rw [h.2]; exact ⟨by simp, by simp⟩
  · have hs : ∀ a ∈ (data ps).map seen, a ≠ .ninf := by
      intro a ha
      obtain ⟨r, hr, rfl⟩ := List.mem_map.mp ha
      have := hdata ps r hr
      cases r with
      | error e => simp [seen]
      | ok x => intro e; exact this (by rw [← e]; rfl)
    obtain ⟨hp, -⟩ := addPenalties_proper _ _ _ _ hnn (proper_nansum hs) ht
    rw [hv]
    split
    · exact ⟨by simp, by simp⟩
    · rcases hp with rfl | ⟨x, rfl⟩ <;> exact ⟨by simp, by simp⟩

/-- **C39.**  A NaN parameter gives plus infinity. -/
theorem c39_nan_parameter (params : List (Ext K)) (n : Nat)
    (data : List (Ext K) → List (Except PyErr (Ext K))) (bounds : List (Ext K × Ext K))
    (frozen : Option (List (Ext K))) (hl : params.length = n) (hn : Ext.nan ∈ params) :
    computeObj params n data bounds frozen = .ok .pinf := by
  unfold computeObj
  have : params.any isNan = true := List.any_eq_true.mpr ⟨_, hn, rfl⟩
  simp only [hl, ne_eq, not_true_eq_false, if_false, this, if_true, Nat.lt_irrefl]

/-- **C39.**  A raising data set gives plus infinity, unless another one returns minus infinity. -/
theorem c39_raise (params : List (Ext K)) (n : Nat)
    (data : List (Ext K) → List (Except PyErr (Ext K))) (bounds : List (Ext K × Ext K))
    (frozen : Option (List (Ext K))) (v : Ext K) (e : PyErr)
    (hdata : ∀ ps, ∀ r ∈ data ps, r ≠ .ok .ninf) (hraise : ∀ ps, .error e ∈ data ps)
    (h : computeObj params n data bounds frozen = .ok v) : v = .pinf := by
  obtain ⟨ps, -, h | ⟨hnn, t, ht, hv⟩⟩ := computeObj_ok h
  · exact h.2
  · have hs : ∀ a ∈ (data ps).map seen, a ≠ .ninf := by
      intro a ha
      obtain ⟨r, hr, rfl⟩ := List.mem_map.mp ha
      have := hdata ps r hr
      cases r with
      | error e => simp [seen]
      | ok x => intro e; exact this (by rw [← e]; rfl)
    have hm : Ext.pinf ∈ (data ps).map seen := List.mem_map.mpr ⟨_, hraise ps, rfl⟩
    obtain ⟨-, h2⟩ := addPenalties_proper _ _ _ _ hnn (proper_nansum hs) ht
    have := h2 (nansum_pinf hs hm)
    rw [hv, this]
    simp

/-- **C39, results exist**: with as many parameters as names and bounds for all of them a value is
always returned. -/
theorem c39_total (params : List (Ext K)) (n : Nat)
    (data : List (Ext K) → List (Except PyErr (Ext K))) (bounds : List (Ext K × Ext K))
    (frozen : Option (List (Ext K))) (hl : params.length = n) (hb : n ≤ bounds.length) :
    ∃ v, computeObj params n data bounds frozen = .ok v := by
  have hadd : ∀ (ps : List (Ext K)) (bs : List (Ext K × Ext K)) (t : Ext K),
      ps.length ≤ bs.length → ∃ v, addPenalties ps bs t = .ok v := by
    intro ps
    induction ps with
    | nil => intro bs t _; cases bs <;> exact ⟨t, rfl⟩
    | cons p ps ih =>
      intro bs t hle
      cases bs with
      | nil => simp at hle
      | cons b bs => exact ih bs _ (by simpa using hle)
  unfold computeObj
  simp only [hl, ne_eq, not_true_eq_false, if_false, Nat.lt_irrefl]
  split
  · exact ⟨_, rfl⟩
  · obtain ⟨v, hv⟩ := hadd params bounds (nansum ((data params).map seen)) (by omega)
    simp only [hv]
    exact ⟨_, rfl⟩

/-- **C39, wrong numbers of parameters.** Values that do not match the names end the evaluation with an error of a value when
no parameters are frozen; with frozen parameters that are too few it is an error of an index. -/
theorem c39_too_few (params f : List (Ext K)) (n : Nat) (data : List (Ext K) → List (Except PyErr (Ext K)))
    (bounds : List (Ext K × Ext K)) (hl : params.length ≠ n) :
    computeObj params n data bounds none = .error .valueError ∧
    (f.length + params.length < n → computeObj params n data bounds (some f) = .error .indexError) := by
  refine ⟨by simp only [computeObj, if_pos hl], fun h => ?_⟩
  have : (f ++ params).length < n := by simpa using h
  simp only [computeObj, if_pos hl, if_pos this]

/-- One parameter and one frozen one for three names. -/
example : computeObj (K := ℚ) [.fin 1] 3 (fun _ => [.ok (.fin 3)]) [] (some [.fin 2]) = .error .indexError ∧
    computeObj (K := ℚ) [.fin 1] 3 (fun _ => [.ok (.fin 3)]) [] none = .error .valueError := by decide +kernel

/-- **C39** (bounds): with fewer pairs of bounds than parameters, none of which is NaN, IndexError is raised. -/
theorem c39_few_bounds (params : List (Ext K)) (n : Nat) (data : List (Ext K) → List (Except PyErr (Ext K)))
    (bounds : List (Ext K × Ext K)) (frozen : Option (List (Ext K))) (hl : params.length = n) (hn : Ext.nan ∉ params)
    (hb : bounds.length < n) : computeObj params n data bounds frozen = .error .indexError := by
  have hadd : ∀ (ps : List (Ext K)) (bs : List (Ext K × Ext K)) (t : Ext K), bs.length < ps.length →
      addPenalties ps bs t = .error .indexError := by
    intro ps
    induction ps with
    | nil => intro bs t h; simp at h
    | cons p ps ih =>
      intro bs t h
      cases bs with
      | nil => rfl
      | cons b bs => exact ih bs _ (by simpa using h)
  have : params.any isNan = false := by
    rw [List.any_eq_false]
    intro x hx h
    cases x <;> simp [isNan] at h
    exact hn hx
  simp [computeObj, hl, this, hadd params bounds _ (hl ▸ hb)]

/-- **C39 is violated** when one data set returns minus infinity and another one raises: the sum is
NaN. -/
theorem c39_violated :
    computeObj (K := ℚ) [.fin 1] 1 (fun _ => [.ok .ninf, .error .valueError]) [(.fin 0, .fin 2)] none
      = .ok .nan := by
  decide +kernel

/-- Non-vacuity. -/
example : computeObj (K := ℚ) [.fin 1, .fin 5] 2 (fun _ => [.ok (.fin 3), .ok .nan])
    [(.fin 0, .fin 2), (.fin 0, .fin 4)] none = .ok (.fin (3 + 1000 ^ 8)) := by decide +kernel
example : computeObj (K := ℚ) [.fin 1] 1 (fun _ => [.ok (.fin 3), .error .valueError])
    [(.fin 0, .fin 2)] none = .ok .pinf := by decide +kernel
example : computeObj (K := ℚ) [.fin 5] 2 (fun _ => [.ok (.fin 3)])
    [(.fin 0, .fin 2), (.fin 0, .fin 4)] (some [.fin 1]) = .ok (.fin (3 + 1000 ^ 8)) := by
  decide +kernel

/-! ## C40 -/

/-- The penalty documented for a parameter outside its bounds. -/
def pen (p lo hi : K) : K :=
  if p < lo then (1000 * (lo - p)) ^ 8 else if hi < p then (1000 * (p - hi)) ^ 8 else 0

omit [IsStrictOrderedRing K] in
theorem penalty_fin (p lo hi : K) : penalty (.fin p) (.fin lo, .fin hi) = .fin (pen p lo hi) := by
  unfold penalty pen
  simp only [Ext.lt, decide_eq_true_eq]
  split
  · simp only [Ext.sub, Ext.neg, Ext.add, Ext.mul, Ext.fin.injEq]; ring
  · split
    · simp only [Ext.sub, Ext.neg, Ext.add, Ext.mul, Ext.fin.injEq]; ring
    · rfl

/-- **C40.**  The penalty vanishes exactly within the bounds. -/
theorem c40_zero_iff (p lo hi : K) : pen p lo hi = 0 ↔ lo ≤ p ∧ p ≤ hi := by
  unfold pen
  split
  · next h =>
    have : 0 < (1000 * (lo - p)) ^ 8 := by
      have : 0 < lo - p := sub_pos.mpr h
      positivity
    exact ⟨fun e => absurd e this.ne', fun e => absurd h (not_lt.mpr e.1)⟩
  · next h1 =>
    split
    · next h =>
      have : 0 < (1000 * (p - hi)) ^ 8 := by
        have : 0 < p - hi := sub_pos.mpr h
        positivity
      exact ⟨fun e => absurd e this.ne', fun e => absurd h (not_lt.mpr e.2)⟩
    · next h2 => exact ⟨fun _ => ⟨not_lt.mp h1, not_lt.mp h2⟩, fun _ => rfl⟩

/-- **C40.**  The penalty is never negative. -/
theorem c40_nonneg (p lo hi : K) : 0 ≤ pen p lo hi := by
  unfold pen
  split
  · exact Even.pow_nonneg (by decide) _
  · split
    · exact Even.pow_nonneg (by decide) _
    · exact le_refl _

/-- **C40.**  The penalty grows strictly with the distance from the bounds, on both sides. -/
theorem c40_grows (p q lo hi : K) :
    (p < q → q < lo → pen q lo hi < pen p lo hi) ∧
    (lo ≤ hi → hi < p → p < q → pen p lo hi < pen q lo hi) := by
  constructor
  · intro h1 h2
    unfold pen
    rw [if_pos h2, if_pos (h1.trans h2)]
    have ha : 0 < lo - q := sub_pos.mpr h2
    exact pow_lt_pow_left₀ (by linarith) (by positivity) (by norm_num)
  · intro h0 h1 h2
    unfold pen
    rw [if_neg (not_lt.mpr (h0.trans h1.le)), if_pos h1,
      if_neg (not_lt.mpr (h0.trans (h1.trans h2).le)), if_pos (h1.trans h2)]
    have ha : 0 < p - hi := sub_pos.mpr h1
    exact pow_lt_pow_left₀ (by linarith) (by positivity) (by norm_num)

theorem addPenalties_fin : ∀ (ps : List K) (bs : List (K × K)) (t : K), ps.length = bs.length →
    addPenalties (ps.map Ext.fin) (bs.map fun b => (Ext.fin b.1, Ext.fin b.2)) (.fin t) =
      .ok (.fin (t + (ps.zipWith (fun p b => pen p b.1 b.2) bs).sum))
  | [], [], t, _ => by simp [addPenalties]
  | [], b :: bs, t, h => by simp at h
  | p :: ps, [], t, h => by simp at h
  | p :: ps, b :: bs, t, h => by
    simp only [List.map_cons, addPenalties, penalty_fin, Ext.add]
    rw [addPenalties_fin ps bs _ (by simpa using h)]
    simp only [List.zipWith_cons_cons, List.sum_cons]
    rw [add_assoc]

omit [IsStrictOrderedRing K] [LinearOrder K] in
theorem nansum_fin (l : List K) : nansum (l.map Ext.fin) = .fin l.sum := by
  induction l with
  | nil => rfl
  | cons a l ih =>
    change Ext.add (.fin a) (nansum (l.map Ext.fin)) = _
    rw [ih]
    rfl

omit [IsStrictOrderedRing K] [LinearOrder K] in
theorem sum_fin (l : List K) : sum (l.map Ext.fin) = .fin l.sum := by
  induction l with
  | nil => rfl
  | cons a l ih =>
    change Ext.add (.fin a) (sum (l.map Ext.fin)) = _
    rw [ih]
    rfl

/-- **C40.**  For numbers, the total objective is the sum of the objectives of the data sets plus the
penalties. -/
theorem c40_total (ps : List K) (bs : List (K × K)) (objs : List K) (hl : ps.length = bs.length)
    (frozen : Option (List (Ext K))) :
    computeObj (ps.map Ext.fin) ps.length (fun _ => objs.map fun x => .ok (.fin x))
      (bs.map fun b => (Ext.fin b.1, Ext.fin b.2)) frozen =
    .ok (.fin (objs.sum + (ps.zipWith (fun p b => pen p b.1 b.2) bs).sum)) := by
  have hnan : (ps.map Ext.fin).any (isNan (K := K)) = false := by
    rw [List.any_eq_false]
    intro x hx
    obtain ⟨y, -, rfl⟩ := List.mem_map.mp hx
    simp [isNan]
  have hseen : (objs.map fun x => (.ok (.fin x) : Except PyErr (Ext K))).map seen =
      objs.map Ext.fin := by
    rw [List.map_map]; rfl
  unfold computeObj
  simp only [List.length_map, ne_eq, not_true_eq_false, if_false, Nat.lt_irrefl, hnan, hseen, nansum_fin, sum_fin,
    addPenalties_fin ps bs _ hl, isNan]
  simp

/-- **C40.**  Inside the bounds the total is the sum of the data sets; with a parameter outside it is
larger. -/
theorem c40_inside_outside (ps : List K) (bs : List (K × K)) (hl : ps.length = bs.length) :
    ((∀ q ∈ ps.zip bs, q.2.1 ≤ q.1 ∧ q.1 ≤ q.2.2) →
      (ps.zipWith (fun p b => pen p b.1 b.2) bs).sum = 0) ∧
    ((∃ q ∈ ps.zip bs, ¬ (q.2.1 ≤ q.1 ∧ q.1 ≤ q.2.2)) →
      0 < (ps.zipWith (fun p b => pen p b.1 b.2) bs).sum) := by
  induction ps generalizing bs with
  | nil => simp
  | cons p ps ih =>
    cases bs with
    | nil => simp at hl
    | cons b bs =>
      obtain ⟨h1, h2⟩ := ih bs (by simpa using hl)
      have hnn : 0 ≤ (ps.zipWith (fun p b => pen p b.1 b.2) bs).sum := by
        by_cases hq : ∃ q ∈ ps.zip bs, ¬ (q.2.1 ≤ q.1 ∧ q.1 ≤ q.2.2)
        · exact (h2 hq).le
        · rw [h1 (fun q hq' => not_not.mp fun hn => hq ⟨q, hq', hn⟩)]
      simp only [List.zip_cons_cons, List.zipWith_cons_cons, List.sum_cons, List.mem_cons,
        forall_eq_or_imp, exists_eq_or_imp]
      constructor
      · rintro ⟨ha, hb⟩
        rw [h1 hb, (c40_zero_iff _ _ _).mpr ha, add_zero]
      · rintro (ha | hb)
        · have : 0 < pen p b.1 b.2 :=
            lt_of_le_of_ne (c40_nonneg _ _ _) (fun e => ha ((c40_zero_iff _ _ _).mp e.symm))
          linarith
        · have := h2 hb
          have := c40_nonneg p b.1 b.2
          linarith

/-- Non-vacuity. -/
example : pen (3 : ℚ) 0 2 = 1000 ^ 8 ∧ pen (1 : ℚ) 0 2 = 0 ∧ pen (-1 : ℚ) 0 2 = 1000 ^ 8 := by
  decide +kernel

end Verif.Props
