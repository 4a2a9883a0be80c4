import Verif.Proofs.AssocXika
import Mathlib.Tactic.NormNum
import Mathlib.Analysis.SpecialFunctions.Exp

/-!
# C21, C22, C62, C63, C66: the association iteration
-/

namespace Verif.Props
open Verif.Assoc

variable {K : Type} [Field K] [LinearOrder K] [IsStrictOrderedRing K] {n : ℕ}

/-! ## C21: the elements stay in `(0, 1]` -/

/-- Non-negative inputs: the hypotheses of C21. -/
structure NonNeg (S : Sites K n) : Prop where
  x : ∀ i, 0 ≤ S.x i
  ν : ∀ i k, 0 ≤ S.ν i k
  nk : ∀ k a, 0 ≤ S.nk k a
  F : ∀ k l a b, 0 ≤ S.F k l a b
  vol : ∀ i j k l a b, 0 ≤ S.vol.at i j k l a b

/-- **C21** (the factors of the sums are non-negative). -/
theorem c21_coef_nonneg (S : Sites K n) (h : NonNeg S) {M ρ : K} (hM : 0 ≤ M) (hρ : 0 ≤ ρ)
    (g : ℕ → ℕ → K) (hg : ∀ i j, 0 ≤ g i j) (s t : Fin n) : 0 ≤ coef S M ρ g s t := by
  unfold coef
  have := h.x; have := h.ν; have := h.nk; have := h.F; have := h.vol
  exact mul_nonneg (mul_nonneg (mul_nonneg (mul_nonneg (mul_nonneg hM hρ) (h.x _)) (h.ν _ _))
    (h.nk _ _)) (mul_nonneg (mul_nonneg (h.F _ _ _ _) (h.vol _ _ _ _ _ _)) (hg _ _))

/-- **C21** (at every iteration): whatever the number of iterations, the tolerance and the damping in
`(0, 1]`, elements in `(0, 1]` lead to elements in `(0, 1]`. -/
theorem c21_iter_phys (c : Fin n → Fin n → K) (hc : ∀ s t, 0 ≤ c s t) (tol : K) {damp : K}
    (hd : 0 < damp) (hd1 : damp ≤ 1) (fuel : ℕ) (X : Fin n → K) (hX : ∀ s, 0 < X s ∧ X s ≤ 1)
    (s : Fin n) : 0 < (iter c tol damp fuel X).1 s ∧ (iter c tol damp fuel X).1 s ≤ 1 := by
  induction fuel generalizing X with
  | zero => exact hX s
  | succ f ih =>
    rw [iter]
    split
    · exact hX s
    · have := ih (update damp X (rhs c X))
        (update_phys hd hd1 hX (rhs_phys c hc X fun s => (hX s).1.le))
      split <;> rename_i h <;> rw [h] at this <;> exact this

theorem sweep_phys (tol : K) {damp : K} (hd : 0 < damp) (hd1 : damp ≤ 1) (maxiter : ℕ)
    (cs : List (Fin n → Fin n → K)) (hcs : ∀ c ∈ cs, ∀ s t, 0 ≤ c s t) (X : Fin n → K)
    (hX : ∀ s, 0 < X s ∧ X s ≤ 1) :
    ∀ r ∈ sweep tol damp maxiter cs X, ∀ s, 0 < r.1 s ∧ r.1 s ≤ 1 := by
  induction cs generalizing X with
  | nil => simp [sweep]
  | cons c cs ih =>
    intro r hr
    rw [sweep] at hr
    have h1 := c21_iter_phys c (hcs c (by simp)) tol hd hd1 maxiter X hX
    rcases List.mem_cons.1 hr with rfl | hr
    · exact h1
    · exact ih (fun c hc => hcs c (by simp [hc])) _ h1 r hr

/-- **C21**: for every array of non-negative densities, every fraction returned is in `(0, 1]`. -/
theorem c21_phys (S : Sites K n) (h : NonNeg S) {M : K} (hM : 0 ≤ M) (rows : List (K × (ℕ → ℕ → K)))
    (hr : ∀ r ∈ rows, 0 ≤ r.1 ∧ ∀ i j, 0 ≤ r.2 i j) (maxiter : ℕ) (tol : K) {damp : K}
    (hd : 0 < damp) (hd1 : damp ≤ 1) :
    ∀ r ∈ calcXika S M rows maxiter tol damp, ∀ s, 0 < r.1 s ∧ r.1 s ≤ 1 := by
  apply sweep_phys tol hd hd1
  · intro c hc
    obtain ⟨r, hr', rfl⟩ := List.mem_map.1 hc
    exact c21_coef_nonneg S h hM (hr r hr').1 r.2 (hr r hr').2
  · intro s; constructor <;> norm_num

omit [IsStrictOrderedRing K] in
/-- **C21** (one row per density). -/
theorem c21_length (S : Sites K n) (M : K) (rows : List (K × (ℕ → ℕ → K))) (maxiter : ℕ)
    (tol damp : K) : (calcXika S M rows maxiter tol damp).length = rows.length := by
  have : ∀ (cs : List (Fin n → Fin n → K)) (X : Fin n → K),
      (sweep tol damp maxiter cs X).length = cs.length := by
    intro cs
    induction cs with
    | nil => intro X; rfl
    | cons c cs ih => intro X; rw [sweep]; simp [ih]
  rw [calcXika, this, List.length_map]

/-- **C21** (energy): fractions in `(0, 1]` give a non-positive association energy. -/
theorem c21_aassoc_nonpos (S : Sites ℝ n) (h : NonNeg S) (X : Fin n → ℝ)
    (hX : ∀ s, 0 < X s ∧ X s ≤ 1) : aassoc S X ≤ 0 := by
  refine Finset.sum_nonpos fun s _ => ?_
  split
  · refine mul_nonpos_of_nonneg_of_nonpos
      (mul_nonneg (mul_nonneg (h.x _) (h.ν _ _)) (h.nk _ _)) ?_
    have := Real.log_le_sub_one_of_pos (hX s).1
    linarith [(hX s).2]
  · exact le_rfl

/-- **C21** (Mayer function): attractive site energies give non-negative strengths. -/
theorem c21_mayer_nonneg {ε T : ℝ} (hε : 0 ≤ ε) (hT : 0 < T) : 0 ≤ mayer ε T := by
  have : 1 ≤ Real.exp (ε / T) := Real.one_le_exp (div_nonneg hε hT.le)
  unfold mayer; linarith

/-- A component with one group carrying two sites that bond to each other. -/
def twoSites (F : ℚ) : Sites ℚ 2 where
  comp := fun _ => 0
  grp := fun _ => 0
  site := fun s => s
  x := fun _ => 1
  ν := fun _ _ => 1
  nk := fun _ _ => 1
  F := fun _ _ a b => if a = b then 0 else F
  vol := .klab fun _ _ _ _ => 1

/-- Not vacuous: after three iterations the two sites are partly bonded. -/
example : NonNeg (twoSites 6) ∧
    (calcXika (twoSites 6) 1 [(1, fun _ _ => 1)] 3).map (fun r => (r.1 0, r.1 1)) =
      [(5/17, 5/17)] := by
  refine ⟨⟨?_, ?_, ?_, ?_, ?_⟩, ?_⟩
  · intro i; simp [twoSites]
  · intro i k; simp [twoSites]
  · intro i k; simp [twoSites]
  · intro k l a b; simp only [twoSites]; split <;> norm_num
  · intro i j k l a b; simp [twoSites, Vol.at]
  · decide +kernel

/-! ## C62: the iteration solves the mass-action equations -/

/-- **C62** (uniqueness): the mass-action equations with non-negative factors have at most one
solution with entries in `(0, 1]`. -/
theorem c62_unique (c : Fin n → Fin n → K) (hc : ∀ s t, 0 ≤ c s t) (X Z : Fin n → K)
    (hX : ∀ s, 0 < X s ∧ X s ≤ 1) (hZ : ∀ s, 0 < Z s ∧ Z s ≤ 1)
    (eX : ∀ s, X s = 1 / (1 + ∑ t, c s t * X t)) (eZ : ∀ s, Z s = 1 / (1 + ∑ t, c s t * Z t)) :
    X = Z := by
  obtain ⟨t, ht, hw, hmin⟩ := exists_min_within X Z hX hZ
  have fX : rhs c X = X := funext fun s => (eX s).symm
  have fZ : rhs c Z = Z := funext fun s => (eZ s).symm
  funext s
  let S : K := ∑ s, ∑ t, c s t
  have hS : ∀ s, ∑ t, c s t ≤ S := fun s =>
    Finset.single_le_sum (f := fun s => ∑ t, c s t)
      (fun s _ => Finset.sum_nonneg fun t _ => hc s t) (Finset.mem_univ s)
  have hS0 := rowBound_nonneg c hc hS s
  have hm0 : 0 < 1 / (1 + S) := by positivity
  have hm1 : 1 / (1 + S) ≤ 1 := (div_le_one (by linarith)).2 (by linarith)
  have h := rhs_within c hc hX hZ hS ht hw
  rw [fX, fZ] at h
  have h1 : 1 ≤ 1 + (1 - 1 / (1 + S)) * (t - 1) := by
    have := mul_nonneg (sub_nonneg.2 hm1) (sub_nonneg.2 ht)
    linarith
  have h2 := hmin _ h1 h
  have h3 : 1 / (1 + S) * (t - 1) ≤ 0 := by linarith
  have h4 : t - 1 ≤ 0 := by
    by_contra hc'
    exact absurd h3 (not_le.2 (mul_pos hm0 (not_le.1 hc')))
  have h5 : t = 1 := le_antisymm (by linarith) ht
  rw [h5] at hw
  obtain ⟨a, b⟩ := hw s
  linarith

omit [IsStrictOrderedRing K] in
/-- What the loop returns: the elements after some number of updates, and either the residual there
is below the tolerance or all iterations are used up. -/
theorem iter_spec (c : Fin n → Fin n → K) (tol damp : K) (fuel : ℕ) (X : Fin n → K) :
    ∃ k ≤ fuel, (iter c tol damp fuel X).1 = (fun Y => update damp Y (rhs c Y))^[k] X ∧
      (((iter c tol damp fuel X).2 = some (obj (rhs c (iter c tol damp fuel X).1)
          (iter c tol damp fuel X).1) ∧
        obj (rhs c (iter c tol damp fuel X).1) (iter c tol damp fuel X).1 < tol) ∨
       (k = fuel ∧ ∀ e ∈ (iter c tol damp fuel X).2, ¬ e < tol)) := by
  induction fuel generalizing X with
  | zero => exact ⟨0, le_rfl, rfl, .inr ⟨rfl, by simp [iter]⟩⟩
  | succ f ih =>
    rw [iter]
    split
    · rename_i h
      exact ⟨0, Nat.zero_le _, rfl, .inl ⟨rfl, h⟩⟩
    · rename_i hn
      obtain ⟨k, hk, e, r⟩ := ih (update damp X (rhs c X))
      refine ⟨k + 1, by omega, ?_⟩
      rw [Function.iterate_succ_apply]
      split
      · rename_i Y e' hY
        rw [hY] at e r
        refine ⟨e, r.imp id ?_⟩
        rintro ⟨h1, h2⟩
        exact ⟨by omega, h2⟩
      · rename_i Y hY
        rw [hY] at e r
        refine ⟨e, .inr ?_⟩
        rcases r with ⟨h1, _⟩ | ⟨h1, _⟩
        · exact absurd h1 (by simp)
        · exact ⟨by omega, by simpa using hn⟩

/-- **C62** (rate): if `Z` solves the equations, then after all iterations the elements agree with
`Z` up to a factor that tends to one geometrically — for every start, and whichever steps are
damped — unless the loop stopped early because the residual is below the tolerance. -/
theorem c62_rate (c : Fin n → Fin n → K) (hc : ∀ s t, 0 ≤ c s t) (tol : K) {damp : K}
    (hd : 0 < damp) (hd1 : damp ≤ 1) {S : K} (hS0 : 0 ≤ S) (hS : ∀ s, ∑ t, c s t ≤ S)
    (X Z : Fin n → K) (hX : ∀ s, 0 < X s ∧ X s ≤ 1) (hZ : ∀ s, 0 < Z s ∧ Z s ≤ 1)
    (eZ : ∀ s, Z s = 1 / (1 + ∑ t, c s t * Z t)) {t : K} (ht : 1 ≤ t)
    (hw : ∀ s, X s ≤ t * Z s ∧ Z s ≤ t * X s) (fuel : ℕ) :
    let r := iter c tol damp fuel X
    (∑ s, |1 / (1 + ∑ u, c s u * r.1 u) - r.1 s| < tol) ∨
      ∀ s, |r.1 s - Z s| ≤ (1 - damp / (1 + S)) ^ fuel * (t - 1) := by
  intro r
  have fZ : rhs c Z = Z := funext fun s => (eZ s).symm
  have hdS : damp / (1 + S) ≤ 1 := (div_le_one (by linarith)).2 (by linarith)
  have hstep : ∀ k, Phys ((fun Y => update damp Y (rhs c Y))^[k] X) ∧
      Within (1 + (1 - damp / (1 + S)) ^ k * (t - 1)) ((fun Y => update damp Y (rhs c Y))^[k] X) Z := by
    intro k
    induction k with
    | zero => exact ⟨hX, by simp only [pow_zero, one_mul, add_sub_cancel]; exact hw⟩
    | succ k ih =>
      rw [Function.iterate_succ_apply']
      refine ⟨update_phys hd hd1 ih.1 (rhs_phys c hc _ fun s => (ih.1 s).1.le), ?_⟩
      have := update_within c hc ih.1 hZ fZ hS0 hS hd hd1
        (one_le_pow_contract (sub_nonneg.2 hdS) ht k) ih.2
      convert this using 1
      rw [pow_succ]; ring
  obtain ⟨k, _, e, h⟩ := iter_spec c tol damp fuel X
  rcases h with ⟨_, h⟩ | ⟨rfl, _⟩
  · exact .inl h
  · refine .inr fun s => ?_
    have h := hstep k
    rw [← e] at h
    have := h.2.abs_sub_le h.1 hZ (one_le_pow_contract (sub_nonneg.2 hdS) ht k) s
    simpa using this

/-- **C62** (accuracy): elements whose residual is below the tolerance are within
`tol / (m ^ 2 - tol)` of the solution, where `m = 1 / (1 + S)` bounds every fraction from below. -/
theorem c62_accuracy (c : Fin n → Fin n → K) (hc : ∀ s t, 0 ≤ c s t) {S : K} (hS0 : 0 ≤ S)
    (hS : ∀ s, ∑ t, c s t ≤ S) (X Z : Fin n → K) (hX : ∀ s, 0 < X s ∧ X s ≤ 1)
    (hZ : ∀ s, 0 < Z s ∧ Z s ≤ 1) (eZ : ∀ s, Z s = 1 / (1 + ∑ t, c s t * Z t)) {tol : K}
    (htol : tol < (1 / (1 + S)) ^ 2) (hr : ∑ s, |1 / (1 + ∑ u, c s u * X u) - X s| < tol) (s : Fin n) :
    |X s - Z s| ≤ tol / ((1 / (1 + S)) ^ 2 - tol) := by
  have fZ : rhs c Z = Z := funext fun s => (eZ s).symm
  obtain ⟨t, ht, hw, hmin⟩ := exists_min_within X Z hX hZ
  generalize hm : 1 / (1 + S) = m at *
  have hm0 : 0 < m := by rw [← hm]; positivity
  have hm1 : m ≤ 1 := by rw [← hm]; exact (div_le_one (by linarith)).2 (by linarith)
  have hmm : m ^ 2 ≤ m := by rw [sq]; exact mul_le_of_le_one_left hm0.le hm1
  have hcomp : ∀ s, |rhs c X s - X s| < tol := fun s =>
    lt_of_le_of_lt (Finset.single_le_sum (f := fun s => |rhs c X s - X s|)
      (fun _ _ => abs_nonneg _) (Finset.mem_univ s)) hr
  have htol0 : 0 < tol := lt_of_le_of_lt (abs_nonneg _) (hcomp s)
  have hY := rhs_phys c hc X fun s => (hX s).1.le
  have hge : ∀ s, m ≤ rhs c X s := fun s => by rw [← hm]; exact rhs_ge c hc X hX hS s
  have hmt : 0 < m - tol := by linarith
  -- `X` and its image agree up to the factor `1 + e`
  obtain ⟨e, he⟩ : ∃ e, e = tol / (m - tol) := ⟨_, rfl⟩
  have he0 : 0 < e := by rw [he]; positivity
  have hem : e * (m - tol) = tol := by rw [he]; field_simp
  have hXY : Within (1 + e) X (rhs c X) := by
    intro s
    have h := abs_lt.1 (hcomp s)
    have hs := hge s
    constructor
    · have : e * (m - tol) ≤ e * rhs c X s := mul_le_mul_of_nonneg_left (by linarith) he0.le
      linarith
    · have : e * (m - tol) ≤ e * X s := mul_le_mul_of_nonneg_left (by linarith) he0.le
      linarith
  have hYZ := rhs_within c hc hX hZ hS ht hw
  rw [fZ, hm] at hYZ
  have h1 : 0 ≤ (1 - m) * (t - 1) := mul_nonneg (sub_nonneg.2 hm1) (sub_nonneg.2 ht)
  have hXZ := hXY.trans (by linarith) (by linarith) hYZ
  have h2 : 1 ≤ (1 + e) * (1 + (1 - m) * (t - 1)) := by
    have := mul_nonneg he0.le h1
    linarith
  have h3 := hmin _ h2 hXZ
  have h4 : (t - 1) * (m - e * (1 - m)) ≤ e := by linarith
  have h5 : (t - 1) * (m ^ 2 - tol) ≤ tol := by
    have := mul_le_mul_of_nonneg_right h4 hmt.le
    have e1 : (t - 1) * (m - e * (1 - m)) * (m - tol) =
        (t - 1) * (m * (m - tol) - e * (m - tol) * (1 - m)) := by ring
    rw [e1, hem] at this
    have e2 : m * (m - tol) - tol * (1 - m) = m ^ 2 - tol := by ring
    rwa [e2] at this
  exact (hw.abs_sub_le hX hZ ht s).trans ((le_div_iff₀ (by linarith)).2 h5)

/-- **C62** (existence): over the reals the equations do have a solution in `(0, 1]`. -/
theorem c62_exists (c : Fin n → Fin n → ℝ) (hc : ∀ s t, 0 ≤ c s t) :
    ∃ Z : Fin n → ℝ, (∀ s, 0 < Z s ∧ Z s ≤ 1) ∧ ∀ s, Z s = 1 / (1 + ∑ t, c s t * Z t) := by
  let S : ℝ := ∑ s, ∑ t, c s t
  have hS : ∀ s, ∑ t, c s t ≤ S := fun s =>
    Finset.single_le_sum (f := fun s => ∑ t, c s t)
      (fun s _ => Finset.sum_nonneg fun t _ => hc s t) (Finset.mem_univ s)
  have hS0 : 0 ≤ S := Finset.sum_nonneg fun s _ => Finset.sum_nonneg fun t _ => hc s t
  have hm1 : 1 / (1 + S) ≤ 1 := (div_le_one (by linarith)).2 (by linarith)
  have hm0 : 0 < 1 / (1 + S) := by positivity
  let u : ℕ → Fin n → ℝ := fun k => (rhs c)^[k] fun _ => 1
  have hu : ∀ k, Phys (u k) := by
    intro k
    induction k with
    | zero => intro s; simp [u]
    | succ k ih =>
      show Phys ((rhs c)^[k + 1] fun _ => 1)
      rw [Function.iterate_succ_apply']
      exact rhs_phys c hc _ fun s => (ih s).1.le
  have hsucc : ∀ k, u (k + 1) = rhs c (u k) := fun k => Function.iterate_succ_apply' _ _ _
  obtain ⟨t, ht, hw, -⟩ := exists_min_within (u 0) (u 1) (hu 0) (hu 1)
  have hwk : ∀ k, Within (1 + (1 - 1 / (1 + S)) ^ k * (t - 1)) (u k) (u (k + 1)) := by
    intro k
    induction k with
    | zero => simpa using hw
    | succ k ih =>
      have := rhs_within c hc (hu k) (hu (k + 1)) hS
        (one_le_pow_contract (sub_nonneg.2 hm1) ht k) ih
      rw [hsucc (k + 1)]
      nth_rewrite 1 [hsucc k]
      convert this using 1
      rw [pow_succ]; ring
  have hdist : ∀ s k, dist (u k s) (u (k + 1) s) ≤ (t - 1) * (1 - 1 / (1 + S)) ^ k := by
    intro s k
    have := (hwk k).abs_sub_le (hu k) (hu (k + 1)) (one_le_pow_contract (sub_nonneg.2 hm1) ht k) s
    rw [Real.dist_eq]
    linarith
  have hconv : ∀ s, ∃ z, Filter.Tendsto (fun k => u k s) Filter.atTop (nhds z) := fun s =>
    cauchySeq_tendsto_of_complete
      (cauchySeq_of_le_geometric _ _ (by linarith) (hdist s))
  choose Z hZ using hconv
  have hge : ∀ s, 1 / (1 + S) ≤ Z s := fun s => by
    refine ge_of_tendsto ((hZ s).comp (Filter.tendsto_add_atTop_nat 1)) (Filter.Eventually.of_forall ?_)
    intro k
    show _ ≤ u (k + 1) s
    rw [hsucc]
    exact rhs_ge c hc (u k) (hu k) hS s
  have hle : ∀ s, Z s ≤ 1 := fun s =>
    le_of_tendsto (hZ s) (Filter.Eventually.of_forall fun k => (hu k s).2)
  refine ⟨Z, fun s => ⟨lt_of_lt_of_le hm0 (hge s), hle s⟩, fun s => ?_⟩
  have hden : 0 < 1 + ∑ t, c s t * Z t := by
    have := den_ge_one c hc Z (fun s => (hm0.le.trans (hge s))) s
    linarith
  have h1 : Filter.Tendsto (fun k => rhs c (u k) s) Filter.atTop
      (nhds (1 / (1 + ∑ t, c s t * Z t))) := by
    unfold rhs
    refine Filter.Tendsto.div tendsto_const_nhds (tendsto_const_nhds.add ?_) hden.ne'
    exact tendsto_finsetSum _ fun t _ => (hZ t).const_mul _
  have h2 : Filter.Tendsto (fun k => rhs c (u k) s) Filter.atTop (nhds (Z s)) := by
    have := (hZ s).comp (Filter.tendsto_add_atTop_nat 1)
    refine this.congr fun k => ?_
    show u (k + 1) s = _
    rw [hsucc]
  exact tendsto_nhds_unique h2 h1

omit [IsStrictOrderedRing K] in
/-- **C62** (what is reported): when the error stored for a density is below the tolerance, it is the
residual of the elements stored for it. -/
theorem c62_reported (c : Fin n → Fin n → K) (tol damp : K) (fuel : ℕ) (X : Fin n → K) {e : K}
    (h : (iter c tol damp fuel X).2 = some e) (he : e < tol) :
    e = ∑ s, |1 / (1 + ∑ t, c s t * (iter c tol damp fuel X).1 t) - (iter c tol damp fuel X).1 s| := by
  obtain ⟨k, -, -, ⟨h1, -⟩ | ⟨-, h1⟩⟩ := iter_spec c tol damp fuel X
  · rw [h] at h1; exact Option.some_injective _ h1
  · exact absurd he (h1 e h)

/-- The scalar iteration behind `twoSites c`, on numerators and denominators. -/
def run (c : ℕ) : ℕ → ℕ → ℕ → ℕ × ℕ × Bool
  | 0, p, q => (p, q, false)
  | f + 1, p, q =>
    let D := q + c * p
    let d := (q * q - p * D) + (p * D - q * q)
    if 2 * d * 10 ^ 12 < q * D then (p, q, true)
    else if 2 * d > 1000 * (p * D) then run c f (9 * (p * D) + q * q) (10 * (q * D))
    else run c f q D

theorem obj_const (v w : ℚ) : obj (n := 2) (fun _ => v) (fun _ => w) = 2 * |v - w| := by
  simp [obj]

theorem vmax_const (v : ℚ) : vmax (n := 2) (fun _ => v) = v := by
  simp [vmax, List.ofFn_succ]

theorem rhs_const (c v : ℚ) :
    rhs (n := 2) (fun s t => if s = t then 0 else c) (fun _ => v) = fun _ => 1 / (1 + c * v) := by
  funext s
  fin_cases s <;> simp [rhs, Fin.sum_univ_two]

theorem iter_run (c f p q : ℕ) (hp : 0 < p) (hq : 0 < q) :
    (iter (n := 2) (fun s t => if s = t then 0 else (c : ℚ)) (1 / 10 ^ 12) (1 / 10) f
        fun _ => (p : ℚ) / q).1 = (fun _ => ((run c f p q).1 : ℚ) / (run c f p q).2.1) ∧
      ((run c f p q).2.2 = false → ∀ e ∈ (iter (n := 2) (fun s t => if s = t then 0 else (c : ℚ))
        (1 / 10 ^ 12) (1 / 10) f fun _ => (p : ℚ) / q).2, ¬ e < 1 / 10 ^ 12) := by
  induction f generalizing p q with
  | zero => simp [iter, run]
  | succ f ih =>
    have hp' : (0 : ℚ) < p := by exact_mod_cast hp
    have hq' : (0 : ℚ) < q := by exact_mod_cast hq
    have hD : 0 < q + c * p := by omega
    have hD' : (0 : ℚ) < q + c * p := by exact_mod_cast hD
    have hnew : (1 : ℚ) / (1 + c * (p / q)) = q / (q + c * p) := by
      field_simp
    have habs : |(q : ℚ) / (q + c * p) - p / q| =
        ((q * q - p * (q + c * p)) + (p * (q + c * p) - q * q) : ℕ) / (q * (q + c * p)) := by
      have e : (q : ℚ) / (q + c * p) - p / q = (q * q - p * (q + c * p)) / (q * (q + c * p)) := by
        field_simp
      rw [e, abs_div, abs_of_pos (mul_pos hq' hD')]
      congr 1
      rcases Nat.le_total (q * q) (p * (q + c * p)) with h | h
      · rw [Nat.sub_eq_zero_of_le h, zero_add, Nat.cast_sub h, abs_of_nonpos]
        · push_cast; ring
        · have : ((q * q : ℕ) : ℚ) ≤ (p * (q + c * p) : ℕ) := by exact_mod_cast h
          push_cast at this; linarith
      · rw [Nat.sub_eq_zero_of_le h, add_zero, Nat.cast_sub h, abs_of_nonneg]
        · push_cast; ring
        · have : ((p * (q + c * p) : ℕ) : ℚ) ≤ (q * q : ℕ) := by exact_mod_cast h
          push_cast at this; linarith
    rw [iter, run]
    simp only [rhs_const, hnew, obj_const, habs]
    generalize hd : (q * q - p * (q + c * p)) + (p * (q + c * p) - q * q) = d
    have htest : (2 * ((d : ℚ) / (q * (q + c * p))) < 1 / 10 ^ 12) ↔
        2 * d * 10 ^ 12 < q * (q + c * p) := by
      rw [← mul_div_assoc, div_lt_div_iff₀ (by positivity) (by positivity), one_mul]
      exact_mod_cast Iff.rfl
    by_cases h1 : 2 * d * 10 ^ 12 < q * (q + c * p)
    · rw [if_pos (htest.2 h1), if_pos h1]
      simp
    · rw [if_neg (fun h => h1 (htest.1 h)), if_neg h1]
      have hdamp : (2 * ((d : ℚ) / (q * (q + c * p))) / (p / q) > 1000) ↔
          2 * d > 1000 * (p * (q + c * p)) := by
        have : 2 * ((d : ℚ) / (q * (q + c * p))) / (p / q) = 2 * d / (p * (q + c * p)) := by
          field_simp
        rw [this, gt_iff_lt, lt_div_iff₀ (by positivity)]
        exact_mod_cast Iff.rfl
      have hup : update (n := 2) (1 / 10) (fun _ => (p : ℚ) / q) (fun _ => (q : ℚ) / (q + c * p)) =
          if 2 * d > 1000 * (p * (q + c * p)) then
            fun _ => ((9 * (p * (q + c * p)) + q * q : ℕ) : ℚ) / (10 * (q * (q + c * p)) : ℕ)
          else fun _ => (q : ℚ) / (q + c * p : ℕ) := by
        unfold update
        rw [obj_const, vmax_const, habs, hd]
        by_cases h2 : 2 * d > 1000 * (p * (q + c * p))
        · rw [if_pos (hdamp.2 h2), if_pos h2]
          funext s
          push_cast
          field_simp
          ring
        · rw [if_neg (fun h => h2 (hdamp.1 h)), if_neg h2]
          push_cast
          rfl
      rw [hup]
      by_cases h2 : 2 * d > 1000 * (p * (q + c * p))
      · rw [if_pos h2, if_pos h2]
        have := ih (9 * (p * (q + c * p)) + q * q) (10 * (q * (q + c * p))) (by positivity) (by positivity)
        split
        · rename_i Y e hY
          rw [hY] at this
          exact this
        · rename_i Y hY
          rw [hY] at this
          refine ⟨this.1, fun _ e he => ?_⟩
          rw [Option.mem_some_iff] at he
          rw [← he]
          exact fun h => h1 (htest.1 h)
      · rw [if_neg h2, if_neg h2]
        have := ih q (q + c * p) hq hD
        split
        · rename_i Y e hY
          rw [hY] at this
          exact this
        · rename_i Y hY
          rw [hY] at this
          refine ⟨this.1, fun _ e he => ?_⟩
          rw [Option.mem_some_iff] at he
          rw [← he]
          exact fun h => h1 (htest.1 h)

theorem coef_twoSites (F : ℚ) :
    coef (twoSites F) 1 1 (fun _ _ => 1) = fun s t => if s = t then 0 else F := by
  funext s t
  fin_cases s <;> fin_cases t <;> simp [coef, twoSites, Vol.at]

omit [IsStrictOrderedRing K] in
theorem iter_isSome (c : Fin n → Fin n → K) (tol damp : K) (f : ℕ) (X : Fin n → K) :
    ((iter c tol damp (f + 1) X).2).isSome := by
  rw [iter]
  split
  · rfl
  · split <;> rfl

/-- **C62** is violated when the 500 iterations do not suffice: for two sites of strength `10 ^ 6`
the fractions returned are almost twice the solution, the error stored is above the tolerance, and
the caller drops that error (Aassoc.py:39, 41, 44: `Xika, _ = …`). -/
theorem c62_violated :
    ∃ X e, calcXika (twoSites 1000000) 1 [(1, fun _ _ => 1)] = [(X, some e)] ∧
      ¬ e < 1 / 10 ^ 12 ∧
      ∀ Z : Fin 2 → ℚ, (∀ s, 0 < Z s ∧ Z s ≤ 1) →
        (∀ s, Z s = 1 / (1 + ∑ t, coef (twoSites 1000000) 1 1 (fun _ _ => 1) s t * Z t)) →
        ∀ s, X s > 19 / 10 * Z s := by
  have hrun := iter_run 1000000 500 1 2 (by norm_num) (by norm_num)
  have h1 : (run 1000000 500 1 2).2.2 = false := by decide +kernel
  have h2 : (run 1000000 500 1 2).1 * 10000 > 19 * (run 1000000 500 1 2).2.1 := by decide +kernel
  have h3 : 0 < (run 1000000 500 1 2).2.1 := by decide +kernel
  have hcalc : calcXika (twoSites 1000000) 1 [(1, fun _ _ => 1)] =
      [iter (n := 2) (fun s t => if s = t then 0 else ((1000000 : ℕ) : ℚ)) (1 / 10 ^ 12) (1 / 10) 500
        fun _ => ((1 : ℕ) : ℚ) / (2 : ℕ)] := by
    rw [calcXika, List.map_cons, List.map_nil, sweep, sweep, coef_twoSites]
    norm_num
  have hsome := iter_isSome (n := 2) (fun s t => if s = t then 0 else ((1000000 : ℕ) : ℚ))
    (1 / 10 ^ 12) (1 / 10) 499 (fun _ => ((1 : ℕ) : ℚ) / (2 : ℕ))
  generalize iter (n := 2) (fun s t => if s = t then 0 else ((1000000 : ℕ) : ℚ)) (1 / 10 ^ 12)
    (1 / 10) 500 (fun _ => ((1 : ℕ) : ℚ) / (2 : ℕ)) = r at hrun hcalc hsome
  generalize run 1000000 500 1 2 = w at hrun h1 h2 h3
  obtain ⟨X, o⟩ := r
  obtain ⟨e, rfl⟩ := Option.isSome_iff_exists.1 hsome
  refine ⟨X, e, hcalc, hrun.2 h1 e rfl, ?_⟩
  intro Z hZ eZ
  rw [coef_twoSites] at eZ
  have e0 := eZ 0
  have e1 := eZ 1
  simp only [Fin.sum_univ_two, if_true] at e0 e1
  rw [if_neg (by decide)] at e0 e1
  have z0 := (hZ 0).1
  have z1 := (hZ 1).1
  rw [eq_div_iff (by linarith)] at e0 e1
  have h01 : Z 0 = Z 1 := by linarith
  have hlt : Z 0 < 1 / 1000 := by
    by_contra hge
    have hge := not_lt.1 hge
    have : Z 0 * Z 1 ≥ 1 / 1000 * (1 / 1000) := by
      rw [← h01]; exact mul_le_mul hge hge (by norm_num) z0.le
    nlinarith
  have hX : ∀ s, X s > 19 / 10000 := by
    intro s
    rw [show X s = _ from congrFun hrun.1 s, gt_iff_lt, lt_div_iff₀ (by exact_mod_cast h3)]
    have : ((19 * w.2.1 : ℕ) : ℚ) < (w.1 * 10000 : ℕ) := by
      exact_mod_cast h2
    push_cast at this
    linarith
  intro s
  have := hX s
  fin_cases s
  · simp only [Fin.zero_eta] at this ⊢; linarith
  · simp only [Fin.mk_one] at this ⊢; linarith

/-! ## C22: one density at a time -/

/-- One site that bonds to itself with strength `F`. -/
def oneSite (F : ℚ) : Sites ℚ 1 where
  comp := fun _ => 0
  grp := fun _ => 0
  site := fun _ => 0
  x := fun _ => 1
  ν := fun _ _ => 1
  nk := fun _ _ => 1
  F := fun _ _ _ _ => F
  vol := .klab fun _ _ _ _ => 1

/-- For strength two, iterations that start away from the solution `1 / 2` never reach it. -/
theorem iter_two_ne (tol damp : ℚ) (f : ℕ) (X : Fin 1 → ℚ) (h1 : 1 / 3 ≤ X 0) (h2 : X 0 ≤ 1)
    (h3 : X 0 ≠ 1 / 2) : (iter (fun _ _ => 2) tol damp f X).1 0 ≠ 1 / 2 := by
  induction f generalizing X with
  | zero => exact h3
  | succ f ih =>
    have hr : rhs (n := 1) (fun _ _ => (2 : ℚ)) X 0 = 1 / (1 + 2 * X 0) := by simp [rhs]
    have hlo : 1 / 3 ≤ rhs (n := 1) (fun _ _ => (2 : ℚ)) X 0 := by
      rw [hr, div_le_div_iff₀ (by norm_num) (by linarith)]; linarith
    have hhi : rhs (n := 1) (fun _ _ => (2 : ℚ)) X 0 ≤ 1 := by
      rw [hr, div_le_one (by linarith)]; linarith
    have hne : rhs (n := 1) (fun _ _ => (2 : ℚ)) X 0 ≠ 1 / 2 := by
      rw [hr, Ne, div_eq_div_iff (by linarith) (by norm_num)]
      intro h; apply h3; linarith
    have hup : update damp X (rhs (fun _ _ => 2) X) = rhs (fun _ _ => 2) X := by
      unfold update
      rw [if_neg]
      have : vmax X = X 0 := by simp [vmax, List.ofFn_succ]
      have ho : obj (rhs (fun _ _ => 2) X) X = |rhs (fun _ _ => 2) X 0 - X 0| := by simp [obj]
      rw [this, ho, not_lt, div_le_iff₀ (by linarith)]
      refine (abs_le.2 ⟨?_, ?_⟩ : |rhs (fun _ _ => 2) X 0 - X 0| ≤ 1).trans (by linarith)
      · linarith
      · linarith
    rw [iter]
    split
    · exact h3
    · rw [hup]
      have := ih (rhs (fun _ _ => 2) X) hlo hhi hne
      split <;> rename_i hY <;> rw [hY] at this <;> exact this

/-- **C63** (what holds): the fraction is in `(0, 1]` if no site interacts with itself, that is if all
strengths are non-negative (C21); and without any association it is one. -/
theorem c63_none_partial (fuel : ℕ) (tol : K) (htol : 0 < tol) (damp : K) (htol1 : tol ≤ 1 / 2) :
    (iter (fun _ _ => 0) tol damp (fuel + 2) fun _ : Fin 1 => 1 / 2).1 = fun _ => 1 := by
  have hr : ∀ X : Fin 1 → K, rhs (n := 1) (fun _ _ => 0) X = fun _ => 1 := by
    intro X; funext s; simp [rhs]
  have ho : obj (n := 1) (fun _ => (1 : K)) (fun _ => 1 / 2) = 1 / 2 := by
    simp only [obj, Finset.univ_unique, Fin.default_eq_zero, Finset.sum_const, Finset.card_singleton,
      one_smul]
    norm_num
  have hv : vmax (n := 1) (fun _ => (1 : K) / 2) = 1 / 2 := by simp [vmax, List.ofFn_succ]
  rw [iter, hr, ho, if_neg (not_lt.2 htol1)]
  have hu : update damp (fun _ : Fin 1 => (1 : K) / 2) (fun _ => 1) = fun _ => 1 := by
    unfold update
    rw [ho, hv, div_self (by norm_num), if_neg (by norm_num)]
  rw [hu]
  have : (iter (fun _ _ => 0) tol damp (fuel + 1) fun _ : Fin 1 => (1 : K)).1 = fun _ => 1 := by
    rw [iter, hr, if_pos]
    simpa [obj] using htol
  split <;> rename_i hY <;> rw [hY] at this <;> exact this

omit [IsStrictOrderedRing K] in
theorem calcXika_two (S : Sites K 1) (M : K) (r q : K × (ℕ → ℕ → K)) (maxiter : ℕ) (tol damp : K) :
    (calcXika S M [r, q] maxiter tol damp).map (fun r => r.1 0) =
      [(iter (coef S M r.1 r.2) tol damp maxiter fun _ => 1 / 2).1 0,
       (iter (coef S M q.1 q.2) tol damp maxiter
        (iter (coef S M r.1 r.2) tol damp maxiter fun _ => 1 / 2).1).1 0] := rfl

theorem iter_zero_density (m : ℕ) (hm : 2 ≤ m) : (iter (coef (oneSite 1) 1 0 fun _ _ => 1)
    (1 / 10 ^ 12) (1 / 10) m fun _ => (1 : ℚ) / 2).1 0 = 1 := by
  have hc : coef (oneSite 1) 1 0 (fun _ _ => 1) = fun _ _ => 0 := by
    funext s t; simp [coef, oneSite, Vol.at]
  obtain ⟨f, rfl⟩ := Nat.exists_eq_add_of_le' hm
  rw [hc, c63_none_partial f _ (by norm_num) _ (by norm_num)]

theorem calcXika_alone (m : ℕ) (hm : 1 ≤ m) :
    (calcXika (oneSite 1) 1 [(2, fun _ _ => 1)] m).map (fun r => r.1 0) = [1 / 2] := by
  have hc : coef (oneSite 1) 1 2 (fun _ _ => 1) = fun _ _ => 2 := by
    funext s t; simp [coef, oneSite, Vol.at]
  have hr : rhs (n := 1) (fun _ _ => (2 : ℚ)) (fun _ => 1 / 2) = fun _ => 1 / 2 := by
    funext s; simp [rhs]; norm_num
  obtain ⟨f, rfl⟩ := Nat.exists_eq_add_of_le' hm
  rw [calcXika, List.map_cons, List.map_nil, sweep, sweep, List.map_cons, List.map_nil, hc, iter, hr,
    if_pos (by simp [obj])]

theorem calcXika_pair (m : ℕ) (hm : 2 ≤ m) :
    ∃ y, (calcXika (oneSite 1) 1 [(0, fun _ _ => 1), (2, fun _ _ => 1)] m).map (fun r => r.1 0) =
        [1, y] ∧ y ≠ 1 / 2 := by
  have h0 := iter_zero_density m hm
  have hc : coef (oneSite 1) 1 2 (fun _ _ => 1) = fun _ _ => 2 := by
    funext s t; simp [coef, oneSite, Vol.at]
  rw [calcXika_two]
  dsimp only
  rw [hc]
  generalize (iter (coef (oneSite 1) 1 0 fun _ _ => 1) (1 / 10 ^ 12) (1 / 10)
    m fun _ => (1 : ℚ) / 2).1 = X at *
  exact ⟨(iter (fun _ _ => 2) (1 / 10 ^ 12) (1 / 10) m X).1 0, by rw [h0],
    iter_two_ne _ _ _ X (by rw [h0]; norm_num) (by rw [h0]) (by rw [h0]; norm_num)⟩

/-- **C22** is violated: the loop over densities continues from the elements of the previous
density, so that the value at a density depends on the densities before it. -/
theorem c22_violated :
    (calcXika (oneSite 1) 1 [(2, fun _ _ => 1)]).map (fun r => r.1 0) = [1 / 2] ∧
      ∃ y, (calcXika (oneSite 1) 1 [(0, fun _ _ => 1), (2, fun _ _ => 1)]).map (fun r => r.1 0) =
        [1, y] ∧ y ≠ 1 / 2 :=
  ⟨calcXika_alone 500 (by norm_num), calcXika_pair 500 (by norm_num)⟩

theorem sweep_getElem (tol damp : K) (maxiter : ℕ) (pre : List (Fin n → Fin n → K))
    (c : Fin n → Fin n → K) (post : List (Fin n → Fin n → K)) (X : Fin n → K) (hd : 0 < damp)
    (hd1 : damp ≤ 1) (hpre : ∀ c ∈ pre, ∀ s t, 0 ≤ c s t) (hX : Phys X) :
    ∃ Y, Phys Y ∧ (sweep tol damp maxiter (pre ++ c :: post) X)[pre.length]? =
      some (iter c tol damp maxiter Y) := by
  induction pre generalizing X with
  | nil => exact ⟨X, hX, by simp [sweep]⟩
  | cons d pre ih =>
    rw [List.cons_append, sweep]
    simpa using ih (iter d tol damp maxiter X).1 (fun c hc => hpre c (by simp [hc]))
      (c21_iter_phys d (hpre d (by simp)) tol hd hd1 maxiter X hX)

/-- **C22** (what holds): at a density for which the array evaluation and the evaluation alone both
report an error below the tolerance, they agree to `2 tol / (m ^ 2 - tol)`, where `m = 1 / (1 + S)`
and `S` bounds the sums of strengths.  Missing for the full property: exact agreement, which fails
(`c22_violated`), and any bound when the iterations run out (`c62_violated`). -/
theorem c22_partial (S : Sites ℝ n) (h : NonNeg S) {M : ℝ} (hM : 0 ≤ M)
    (pre post : List (ℝ × (ℕ → ℕ → ℝ))) (r : ℝ × (ℕ → ℕ → ℝ))
    (hr : ∀ q ∈ pre ++ [r], 0 ≤ q.1 ∧ ∀ i j, 0 ≤ q.2 i j) (maxiter : ℕ) {tol damp : ℝ}
    (hd : 0 < damp) (hd1 : damp ≤ 1) {B : ℝ} (hB0 : 0 ≤ B)
    (hB : ∀ s, ∑ t, coef S M r.1 r.2 s t ≤ B) (htol : tol < (1 / (1 + B)) ^ 2)
    {X Y : Fin n → ℝ} {e f : ℝ}
    (hX : (calcXika S M (pre ++ r :: post) maxiter tol damp)[pre.length]? = some (X, some e))
    (hY : (calcXika S M [r] maxiter tol damp)[0]? = some (Y, some f))
    (he : e < tol) (hf : f < tol) (s : Fin n) :
    |X s - Y s| ≤ 2 * (tol / ((1 / (1 + B)) ^ 2 - tol)) := by
  have hc := c21_coef_nonneg S h hM (hr r (by simp)).1 r.2 (hr r (by simp)).2
  have hhalf : Phys (fun _ : Fin n => (1 : ℝ) / 2) := fun s => by constructor <;> norm_num
  obtain ⟨X0, hX0, eX⟩ := sweep_getElem tol damp maxiter (pre.map fun r => coef S M r.1 r.2)
    (coef S M r.1 r.2) (post.map fun r => coef S M r.1 r.2) _ hd hd1 (by
      intro c hc
      obtain ⟨q, hq, rfl⟩ := List.mem_map.1 hc
      have := hr q (by simp [hq])
      exact c21_coef_nonneg S h hM this.1 q.2 this.2) hhalf
  rw [calcXika, List.map_append, List.map_cons] at hX
  rw [List.length_map, hX] at eX
  have eX := (Option.some_injective _ eX).symm
  rw [calcXika, List.map_cons, List.map_nil, sweep, sweep, List.getElem?_cons_zero] at hY
  have eY := Option.some_injective _ hY
  obtain ⟨Z, hZ, fZ⟩ := c62_exists _ hc
  have rX := c62_reported _ tol damp maxiter X0 (e := e) (by rw [eX]) he
  have rY := c62_reported _ tol damp maxiter _ (e := f) (by rw [eY]) hf
  have pX := c21_iter_phys _ hc tol hd hd1 maxiter X0 hX0
  have pY := c21_iter_phys _ hc tol hd hd1 maxiter _ hhalf
  rw [eX] at rX pX
  rw [eY] at rY pY
  have a1 := c62_accuracy _ hc hB0 hB X Z pX hZ fZ htol (by rw [← rX]; exact he) s
  have a2 := c62_accuracy _ hc hB0 hB Y Z pY hZ fZ htol (by rw [← rY]; exact hf) s
  calc |X s - Y s| = |(X s - Z s) - (Y s - Z s)| := by ring_nf
    _ ≤ |X s - Z s| + |Y s - Z s| := abs_sub _ _
    _ ≤ _ := by linarith

/-! ## C63: sites declared to interact with themselves -/

/-- **C63** is violated: a site declared to interact with itself gets a negative strength (see
`calc_assoc_matrices`), and for every strength in `[-1/4, 0)` the fraction of unbonded sites that is
returned is larger than one, whatever the number of iterations (at least one). -/
theorem c63_violated {q : ℚ} (hq : 0 < q) (hq1 : q ≤ 1 / 4) {f : ℕ} (hf : 0 < f) (tol damp : ℚ)
    (htol : tol ≤ 1 / 2) :
    1 < (iter (fun _ _ => -q) tol damp f fun _ : Fin 1 => 1 / 2).1 0 := by
  have step : ∀ X : Fin 1 → ℚ, 1 / 2 ≤ X 0 → X 0 ≤ 2 →
      (1 < rhs (n := 1) (fun _ _ => -q) X 0 ∧ rhs (n := 1) (fun _ _ => -q) X 0 ≤ 2) ∧
        update damp X (rhs (fun _ _ => -q) X) = rhs (fun _ _ => -q) X := by
    intro X h1 h2
    have hr : rhs (n := 1) (fun _ _ => -q) X 0 = 1 / (1 - q * X 0) := by
      simp [rhs, sub_eq_add_neg]
    have a : 0 < q * X 0 := mul_pos hq (by linarith)
    have b : q * X 0 ≤ 1 / 4 * 2 := mul_le_mul hq1 h2 (by linarith) (by norm_num)
    have hlo : 1 < rhs (n := 1) (fun _ _ => -q) X 0 := by
      rw [hr, lt_div_iff₀ (by linarith)]; linarith
    have hhi : rhs (n := 1) (fun _ _ => -q) X 0 ≤ 2 := by
      rw [hr, div_le_iff₀ (by linarith)]; linarith
    refine ⟨⟨hlo, hhi⟩, ?_⟩
    unfold update
    rw [if_neg]
    have : vmax X = X 0 := by simp [vmax, List.ofFn_succ]
    have ho : obj (rhs (fun _ _ => -q) X) X = |rhs (fun _ _ => -q) X 0 - X 0| := by simp [obj]
    rw [this, ho, not_lt, div_le_iff₀ (by linarith)]
    refine (abs_le.2 ⟨?_, ?_⟩ : |rhs (fun _ _ => -q) X 0 - X 0| ≤ 2).trans (by linarith)
    · linarith
    · linarith
  have main : ∀ (f : ℕ) (X : Fin 1 → ℚ), 1 < X 0 → X 0 ≤ 2 →
      1 < (iter (fun _ _ => -q) tol damp f X).1 0 := by
    intro f
    induction f with
    | zero => intro X h _; exact h
    | succ f ih =>
      intro X h1 h2
      obtain ⟨⟨h3, h4⟩, h5⟩ := step X (by linarith) h2
      rw [iter]
      split
      · exact h1
      · rw [h5]
        have := ih _ h3 h4
        split <;> rename_i hY <;> rw [hY] at this <;> exact this
  obtain ⟨f, rfl⟩ := Nat.exists_eq_succ_of_ne_zero hf.ne'
  obtain ⟨⟨h3, h4⟩, h5⟩ := step (fun _ => 1 / 2) le_rfl (by norm_num)
  rw [iter, if_neg]
  · rw [h5]
    have := main f _ h3 h4
    split <;> rename_i hY <;> rw [hY] at this <;> exact this
  · have ho : obj (rhs (fun _ _ => -q) fun _ : Fin 1 => 1 / 2) (fun _ => 1 / 2) =
        |rhs (n := 1) (fun _ _ => -q) (fun _ => 1 / 2) 0 - 1 / 2| := by simp [obj]
    rw [ho, not_lt]
    exact (htol.trans (by linarith)).trans (le_abs_self _)

/-- **C63**: the strength of such a site is indeed negative, and above minus one. -/
theorem c63_mayer_neg {ε T : ℝ} (hε : ε < 0) (hT : 0 < T) : -1 < mayer ε T ∧ mayer ε T < 0 := by
  have h1 := Real.exp_pos (ε / T)
  have h2 : Real.exp (ε / T) < 1 := by
    rw [← Real.exp_zero]; exact Real.exp_lt_exp.2 (div_neg_of_neg_of_pos hε hT)
  unfold mayer
  constructor <;> linarith

/-! ## C66: which implementation runs -/

/-- **C66** is violated: the compiled extension is never used.  Asking for it raises when it is not
loaded, and silently runs another implementation when it is. -/
theorem c66_violated (loaded compiled python numba : Bool) (rank : ℕ) (flag : Bool × Bool)
    (h : importAassoc loaded compiled = .ok flag) :
    calcXikaWrap flag true python numba rank ≠ .ok .cython := by
  unfold importAassoc at h
  unfold calcXikaWrap
  cases loaded <;> cases compiled <;> simp at h <;> subst h <;> split <;> simp
  all_goals cases python <;> simp

/-- **C66** (cython requested, not loaded): an exception. -/
theorem c66_violated_raises (compiled python numba : Bool) (rank : ℕ) (hr : rank = 4 ∨ rank = 6)
    (flag : Bool × Bool) (h : importAassoc false compiled = .ok flag) :
    calcXikaWrap flag true python numba rank = .error .other := by
  simp [importAassoc] at h
  subst h
  simp [calcXikaWrap, hr]

/-- **C66** (what holds): the other two implementations are selected as requested. -/
theorem c66_partial (numba : Bool) (rank : ℕ) (hr : rank = 4 ∨ rank = 6) (flag : Bool × Bool) :
    calcXikaWrap flag false true numba rank = .ok .python ∧
      calcXikaWrap flag false false true rank = .ok .numba := by
  constructor <;> simp [calcXikaWrap, hr]

/-- Both kinds of import that succeed exist. -/
example : importAassoc false false = .ok (true, false) ∧ importAassoc true true = .ok (false, true) :=
  ⟨rfl, rfl⟩

end Verif.Props
