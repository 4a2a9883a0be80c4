import Verif.Props.AssocXika
import Verif.Props.AssocRange
import Mathlib.Tactic.Linarith
import Mathlib.Tactic.LinearCombination

/-!
# C180: the unbonded sites at the densities the equation of state accepts

C21 keeps the fractions of unbonded sites between zero and one for strengths that are not negative.  C127 shows that the
correlation that multiplies the strengths is negative at densities that the equation of state accepts.  Here the two meet.
-/

namespace Verif.Props
open Verif Verif.Assoc

section General
variable {K : Type} [Field K] [LinearOrder K] [IsStrictOrderedRing K] {n : ℕ}

omit [IsStrictOrderedRing K] in
private theorem vmax_ge (X : Fin n → K) (b : K) (hn : 0 < n) (h : ∀ s, b ≤ X s) : b ≤ vmax X := by
  obtain ⟨m, rfl⟩ : ∃ m, n = m + 1 := ⟨n - 1, by omega⟩
  rw [vmax, List.ofFn_succ]
  have aux : ∀ (l : List K) (a : K), b ≤ a → b ≤ l.foldl max a := by
    intro l
    induction l with
    | nil => intro a ha; exact ha
    | cons c l ih => intro a ha; exact ih _ (ha.trans (le_max_left _ _))
  exact aux _ _ (h 0)

private theorem rhs_above (c : Fin n → Fin n → K) (hc : ∀ s t, c s t ≤ 0) (hs : ∀ s, -(1 / 4) ≤ ∑ t, c s t)
    (hneg : ∀ s, ∑ t, c s t < 0) (X : Fin n → K) (hX : ∀ s, 1 / 2 ≤ X s ∧ X s < 2) (s : Fin n) :
    1 < rhs c X s ∧ rhs c X s < 2 := by
  have hlo : 2 * ∑ t, c s t ≤ ∑ t, c s t * X t := by
    rw [Finset.mul_sum]
    exact Finset.sum_le_sum fun t _ => by nlinarith [hc s t, (hX t).2]
  have hhi : ∑ t, c s t * X t ≤ (1 / 2) * ∑ t, c s t := by
    rw [Finset.mul_sum]
    exact Finset.sum_le_sum fun t _ => by nlinarith [hc s t, (hX t).1]
  have hlo' : 2 * ∑ t, c s t < ∑ t, c s t * X t := by
    rw [Finset.mul_sum]
    have hex : ∃ t ∈ Finset.univ, c s t < 0 := by
      by_contra hno
      have : 0 ≤ ∑ t, c s t := Finset.sum_nonneg fun t ht => le_of_not_gt fun h => hno ⟨t, ht, h⟩
      exact absurd (hneg s) (not_lt.mpr this)
    obtain ⟨t, ht, hlt⟩ := hex
    refine Finset.sum_lt_sum (fun t _ => by nlinarith [hc s t, (hX t).2]) ⟨t, ht, ?_⟩
    nlinarith [(hX t).2]
  have h1 := hneg s
  have h2 := hs s
  have hp : 0 < 1 + ∑ t, c s t * X t := by linarith
  unfold rhs
  exact ⟨by rw [lt_div_iff₀ hp]; linarith, by rw [div_lt_iff₀ hp]; linarith⟩

private theorem update_plain (damp : K) (hn : 0 < n) (hn3 : n ≤ 333) (old new : Fin n → K)
    (ho : ∀ s, 1 / 2 ≤ old s ∧ old s < 2) (hnew : ∀ s, 1 < new s ∧ new s < 2) : update damp old new = new := by
  have hv := vmax_ge old (1 / 2) hn fun s => (ho s).1
  have hob : obj new old ≤ 333 * (3 / 2) := by
    have : obj new old ≤ ∑ _s : Fin n, (3 / 2 : K) := by
      refine Finset.sum_le_sum fun s _ => ?_
      rw [abs_le]
      constructor <;> linarith [(ho s).1, (ho s).2, (hnew s).1, (hnew s).2]
    refine this.trans ?_
    rw [Finset.sum_const, Finset.card_univ, Fintype.card_fin, nsmul_eq_mul]
    have : (n : K) ≤ 333 := by exact_mod_cast hn3
    nlinarith
  unfold update
  rw [if_neg]
  rw [gt_iff_lt, not_lt, div_le_iff₀ (by linarith)]
  linarith

private theorem iter_above (c : Fin n → Fin n → K) (hc : ∀ s t, c s t ≤ 0) (hs : ∀ s, -(1 / 4) ≤ ∑ t, c s t)
    (hneg : ∀ s, ∑ t, c s t < 0) (hn : 0 < n) (hn3 : n ≤ 333) (tol damp : K) (fuel : ℕ) :
    ∀ X : Fin n → K, (∀ s, 1 < X s ∧ X s < 2) →
      ∀ s, 1 < (iter c tol damp fuel X).1 s ∧ (iter c tol damp fuel X).1 s < 2 := by
  induction fuel with
  | zero => intro X hX; exact hX
  | succ f ih =>
    intro X hX
    have hX' : ∀ s, 1 / 2 ≤ X s ∧ X s < 2 := fun s => ⟨by linarith [(hX s).1], (hX s).2⟩
    have hr := rhs_above c hc hs hneg X hX'
    rw [iter]
    split
    · exact hX
    · have hu := update_plain damp hn hn3 X _ hX' hr
      have := ih (update damp X (rhs c X)) (by rw [hu]; exact hr)
      split <;> rename_i h <;> rw [h] at this <;> exact this

/-- **C180** (weak negative strengths): if the factors of a site add up to a negative number not below -1/4, then every
fraction of unbonded sites that is returned lies above one (and below two), whatever the number of iterations. -/
theorem c180_exceeds (c : Fin n → Fin n → K) (hc : ∀ s t, c s t ≤ 0) (hs : ∀ s, -(1 / 4) ≤ ∑ t, c s t)
    (hneg : ∀ s, ∑ t, c s t < 0) (hn : 0 < n) (hn3 : n ≤ 333) {tol : K} (ht : tol ≤ 1 / 2) (damp : K) (fuel : ℕ)
    (s : Fin n) :
    1 < (iter c tol damp (fuel + 1) fun _ => 1 / 2).1 s ∧ (iter c tol damp (fuel + 1) fun _ => 1 / 2).1 s < 2 := by
  have hX : ∀ _s : Fin n, (1 : K) / 2 ≤ 1 / 2 ∧ (1 : K) / 2 < 2 := fun _ => ⟨le_rfl, by norm_num⟩
  have hr := rhs_above c hc hs hneg (fun _ => 1 / 2) hX
  have hbig : ¬ obj (rhs c fun _ => 1 / 2) (fun _ => 1 / 2) < tol := by
    have h1 : |rhs c (fun _ => 1 / 2) s - 1 / 2| ≤ obj (rhs c fun _ => 1 / 2) (fun _ => 1 / 2) :=
      Finset.single_le_sum (f := fun s => |rhs c (fun _ => 1 / 2) s - (1 / 2 : K)|) (fun _ _ => abs_nonneg _)
        (Finset.mem_univ s)
    have h2 := le_abs_self (rhs c (fun _ => 1 / 2) s - 1 / 2)
    have h3 := (hr s).1
    intro h
    linarith
  have hu := update_plain damp hn hn3 (fun _ => 1 / 2) _ hX hr
  have := iter_above c hc hs hneg hn hn3 tol damp fuel (update damp (fun _ => 1 / 2) (rhs c fun _ => 1 / 2))
    (by rw [hu]; exact hr)
  rw [iter, if_neg hbig]
  split <;> rename_i h <;> rw [h] at this <;> exact this s

/-- Not vacuous: two kinds of sites that attract each other only. -/
example : (∀ s t : Fin 2, (if s = t then (0 : ℚ) else -(1 / 5)) ≤ 0) ∧
    (∀ s : Fin 2, -(1 / 4) ≤ ∑ t, (if s = t then (0 : ℚ) else -(1 / 5))) ∧
    ∀ s : Fin 2, ∑ t, (if s = t then (0 : ℚ) else -(1 / 5)) < 0 := by
  decide +kernel

/-- **C180** (stronger negative strengths): if the factors of every site add up to less than -1/4, the equations of mass
action have no solution with positive fractions at all. -/
theorem c180_no_solution (c : Fin n → Fin n → K) (hc : ∀ s t, c s t ≤ 0) {a : K} (ha : 1 / 4 < a)
    (hs : ∀ s, ∑ t, c s t ≤ -a) (hn : 0 < n) (X : Fin n → K) (hX : ∀ s, 0 < X s) : rhs c X ≠ X := by
  intro h
  have : Nonempty (Fin n) := ⟨⟨0, hn⟩⟩
  obtain ⟨s, -, hmin⟩ := Finset.exists_min_image Finset.univ X Finset.univ_nonempty
  have e : 1 / (1 + ∑ t, c s t * X t) = X s := congrFun h s
  have hp : 0 < 1 + ∑ t, c s t * X t := by
    by_contra hno
    have : 1 / (1 + ∑ t, c s t * X t) ≤ 0 := one_div_nonpos.2 (not_lt.1 hno)
    linarith [hX s]
  have hle : ∑ t, c s t * X t ≤ (∑ t, c s t) * X s := by
    rw [Finset.sum_mul]
    exact Finset.sum_le_sum fun t ht => mul_le_mul_of_nonpos_left (hmin t ht) (hc s t)
  rw [div_eq_iff hp.ne'] at e
  have h1 : (∑ t, c s t) * X s ≤ -a * X s := mul_le_mul_of_nonneg_right (hs s) (hX s).le
  have h2 : X s * ∑ t, c s t * X t ≤ X s * (-a * X s) := mul_le_mul_of_nonneg_left (hle.trans h1) (hX s).le
  nlinarith [sq_nonneg (X s - 2), sq_nonneg (a * X s - 1 / 2), hX s, mul_pos (hX s) (hX s)]

/-- **C180** (the loop does not end by itself): one kind of sites whose factor is below -1/4 by more than twice the
tolerance times its size.  No iterate meets the tolerance: all iterations are made, and the error stored is not small. -/
theorem c180_unconverged (k : K) {tol : K} (ht : 0 < tol) (hk : 2 * tol * k ≤ k - 1 / 4) (hk0 : 1 / 4 < k)
    (hk1 : k * tol ≤ 1) (damp : K) (fuel : ℕ) (X : Fin 1 → K) :
    (∀ Y : Fin 1 → K, ¬ obj (rhs (fun _ _ => -k) Y) Y < tol) ∧
    ∀ e ∈ (iter (fun _ _ : Fin 1 => -k) tol damp fuel X).2, ¬ e < tol := by
  have key : ∀ Y : Fin 1 → K, ¬ obj (rhs (fun _ _ => -k) Y) Y < tol := by
    intro Y h
    have h0 : |1 / (1 + -k * Y 0) - Y 0| < tol := by simpa [obj, rhs] using h
    by_cases hz : 1 + -k * Y 0 = 0
    · rw [hz, div_zero, zero_sub, abs_neg] at h0
      have h1 : k * Y 0 = 1 := by linear_combination -hz
      have h2 : k * |Y 0| < k * tol := mul_lt_mul_of_pos_left h0 (by linarith)
      have h3 : k * Y 0 ≤ k * |Y 0| := mul_le_mul_of_nonneg_left (le_abs_self _) (by linarith)
      linarith
    · generalize hy : 1 + -k * Y 0 = y at h0 hz
      have hY : k * Y 0 = 1 - y := by rw [← hy]; ring
      have h1 : |1 / y - Y 0| * (k * |y|) < tol * (k * |y|) :=
        mul_lt_mul_of_pos_right h0 (mul_pos (by linarith) (abs_pos.2 hz))
      have h2 : |1 / y - Y 0| * (k * |y|) = |k - y * (1 - y)| := by
        have hkk : k * |y| = |k * y| := by rw [abs_mul, abs_of_pos (show (0 : K) < k by linarith)]
        rw [hkk, ← abs_mul]
        congr 1
        rw [← hY]
        field_simp
      rw [h2] at h1
      have h3 := le_abs_self (k - y * (1 - y))
      have hkt : 0 < k * tol := mul_pos (by linarith) ht
      have habs : |y| ≤ 1 / 2 + |y - 1 / 2| := by
        have := abs_add_le (1 / 2 : K) (y - 1 / 2)
        rw [abs_of_pos (show (0 : K) < 1 / 2 by norm_num)] at this
        rwa [show (1 / 2 : K) + (y - 1 / 2) = y by ring] at this
      have hsq : |y - 1 / 2| ^ 2 = (y - 1 / 2) ^ 2 := sq_abs _
      generalize |y - 1 / 2| = u at habs hsq
      have h4 : tol * (k * |y|) ≤ k * tol * (1 / 2 + u) := by
        have := mul_le_mul_of_nonneg_left habs hkt.le
        linarith
      generalize hw : k * tol = w at hkt h4 hk1
      have h5 : 2 * w ≤ k - 1 / 4 := by rw [← hw]; linarith
      nlinarith [sq_nonneg (u - w / 2), mul_nonneg hkt.le (sub_nonneg.2 hk1)]
  refine ⟨key, fun e he => ?_⟩
  obtain ⟨j, -, -, ⟨h1, h2⟩ | ⟨-, h1⟩⟩ := iter_spec (fun _ _ : Fin 1 => -k) tol damp fuel X
  · exact absurd h2 (key _)
  · exact h1 e he

/-- Not vacuous, with the tolerance of the code: a factor of -1. -/
example : (0 : ℚ) < 1 / 10 ^ 12 ∧ (2 : ℚ) * (1 / 10 ^ 12) * 1 ≤ 1 - 1 / 4 ∧ (1 / 4 : ℚ) < 1 := by norm_num

omit [IsStrictOrderedRing K] in
private theorem cycle_step (damp : K) (x y : K) (h : 1 / (1 + -1 * x) = y) (hx : |y - x| / x ≤ 1000) :
    update damp (fun _ : Fin 1 => x) (rhs (fun _ _ => -1) fun _ => x) = fun _ => y := by
  have hr : rhs (fun _ _ : Fin 1 => (-1 : K)) (fun _ => x) = fun _ => y := by
    funext s
    simpa [rhs] using h
  rw [hr, update, if_neg]
  simpa [obj, vmax] using hx

/-- **C180** (a negative fraction): for one kind of sites with the factor -1 the iterates repeat 1/2, 2, -1, and after
the 500 iterations of the code the fraction of unbonded sites returned is -1, whose logarithm the energy needs. -/
theorem c180_cycle (tol damp : K) (h0 : 0 < tol) (h1 : tol ≤ 1 / 4) :
    (iter (fun _ _ : Fin 1 => (-1 : K)) tol damp 500 fun _ => 1 / 2).1 = fun _ => -1 := by
  obtain ⟨j, hj, e, hor⟩ := iter_spec (fun _ _ : Fin 1 => (-1 : K)) tol damp 500 fun _ => 1 / 2
  have hno := (c180_unconverged (1 : K) h0 (by linarith) (by norm_num) (by linarith) damp 500 fun _ => 1 / 2).1
  have hj : j = 500 := by
    rcases hor with ⟨-, h2⟩ | ⟨h2, -⟩
    · exact absurd h2 (hno _)
    · exact h2
  subst hj
  rw [e]
  set f : (Fin 1 → K) → Fin 1 → K := fun Y => update damp Y (rhs (fun _ _ => -1) Y) with hf
  have s1 : f (fun _ => 1 / 2) = fun _ => 2 :=
    cycle_step damp (1 / 2) 2 (by norm_num) (by rw [abs_of_pos (by norm_num)]; norm_num)
  have s2 : f (fun _ => 2) = fun _ => -1 :=
    cycle_step damp 2 (-1) (by norm_num) (by rw [abs_of_neg (by norm_num)]; norm_num)
  have s3 : f (fun _ => -1) = fun _ => 1 / 2 :=
    cycle_step damp (-1) (1 / 2) (by norm_num) (by rw [abs_of_pos (by norm_num)]; norm_num)
  have h3 : f^[3] (fun _ => 1 / 2) = fun _ => 1 / 2 := by
    rw [Function.iterate_succ_apply', Function.iterate_succ_apply', Function.iterate_one, s1, s2, s3]
  rw [show 500 = 2 + 3 * 166 from rfl, Function.iterate_add_apply, Function.iterate_mul,
    Function.iterate_fixed h3, Function.iterate_succ_apply', Function.iterate_one, s1, s2]

end General

/-! ### The energy -/

/-- **C180** (positive energy): fractions above one and below two give a positive association energy, where C21 has
a negative one. -/
theorem c180_energy {n : ℕ} (S : Sites ℝ n) (hn : 0 < n) (hx : ∀ i, 0 < S.x i) (hν : ∀ i k, 0 < S.ν i k)
    (hk : ∀ k a, 0 < S.nk k a) (X : Fin n → ℝ) (hX : ∀ s, 1 < X s ∧ X s < 2) : 0 < aassoc S X := by
  have : Nonempty (Fin n) := ⟨⟨0, hn⟩⟩
  refine Finset.sum_pos (fun s _ => ?_) Finset.univ_nonempty
  rw [if_pos (hk _ _).ne']
  have h1 := (hX s).1
  have h2 := (hX s).2
  have hlog := Real.one_sub_inv_le_log_of_pos (show 0 < X s by linarith)
  have hinv : (X s)⁻¹ < 1 - (X s - 1) / 2 := by
    rw [inv_lt_iff_one_lt_mul₀ (by linarith)]
    nlinarith
  have hpos := mul_pos (mul_pos (hx (S.comp s)) (hν (S.comp s) (S.grp s))) (hk (S.grp s) (S.site s))
  exact mul_pos hpos (by linarith)

/-! ### With the correlation of the code -/

/-- One kind of self-associating sites on one group of one component. -/
def bondSite (F v : ℝ) : Sites ℝ 1 where
  comp := fun _ => 0
  grp := fun _ => 0
  site := fun _ => 0
  x := fun _ => 1
  ν := fun _ _ => 1
  nk := fun _ _ => 1
  F := fun _ _ _ _ => F
  vol := .klab fun _ _ _ _ => v

/-- The correlation of the code as the array that the association iteration reads. -/
noncomputable def assocSlice {n m : ℕ} (M : ℝ) (P : MieTerms.Mie n m) (ρ T : ℝ) (x : Fin n → ℝ) (i j : ℕ) : ℝ :=
  if h : i < n ∧ j < n then AssocIntegral.iij M P ρ T x ⟨i, h.1⟩ ⟨j, h.2⟩ else 0

/-- **C180**: at reduced densities up to 1.125 and reduced temperatures up to 10, for every mixture, every list of sites and
every list of densities, the fractions of unbonded sites are above zero and at most one. -/
theorem c180_within_partial {n m l : ℕ} (S : Sites ℝ l) (h : NonNeg S) (M T : ℝ) (hM : 0 ≤ M) (P : MieTerms.Mie n m)
    (x : Fin n → ℝ) (ρs : List ℝ)
    (hρ : ∀ ρ ∈ ρs, 0 ≤ ρ ∧ 0 ≤ AssocIntegral.sigmax3 M P.σ (Saft.xskl P.g x) * ρ ∧
      AssocIntegral.sigmax3 M P.σ (Saft.xskl P.g x) * ρ ≤ 9 / 8)
    (hT : ∀ i j, 0 ≤ T / AssocIntegral.epsilonij (MieTerms.sigii P) (MieTerms.epsii P) i j ∧
      T / AssocIntegral.epsilonij (MieTerms.sigii P) (MieTerms.epsii P) i j ≤ 10) :
    ∀ r ∈ calcXika S M (ρs.map fun ρ => (ρ, assocSlice M P ρ T x)), ∀ s, 0 < r.1 s ∧ r.1 s ≤ 1 := by
  refine c21_phys S h hM _ (fun r hr => ?_) _ _ (by norm_num) (by norm_num)
  obtain ⟨ρ, hmem, rfl⟩ := List.mem_map.1 hr
  obtain ⟨h0, h1, h2⟩ := hρ ρ hmem
  refine ⟨h0, fun i j => ?_⟩
  dsimp only
  unfold assocSlice
  split
  · exact (c127_positive_partial M P ρ T x _ _ h1 h2 (hT _ _).1 (hT _ _).2).1.le
  · exact le_rfl

private theorem coef_bondSite (F v M ρ : ℝ) (g : ℕ → ℕ → ℝ) :
    coef (bondSite F v) M ρ g = fun _ _ => M * ρ * (F * v * g 0 0) := by
  funext s t
  simp [coef, bondSite, Vol.at]

private theorem calcXika_bondSite (F v M ρ k : ℝ) (g : ℕ → ℕ → ℝ) (h : M * ρ * (F * v * g 0 0) = k) :
    calcXika (bondSite F v) M [(ρ, g)] =
      [((iter (fun _ _ => k) (1 / 10 ^ 12) (1 / 10) 500 fun _ => 1 / 2).1,
        (iter (fun _ _ : Fin 1 => k) (1 / 10 ^ 12) (1 / 10) 500 fun _ => 1 / 2).2)] := by
  have : coef (bondSite F v) M ρ g = fun _ _ => k := by rw [coef_bondSite, h]
  rw [calcXika, List.map_cons, List.map_nil, this]
  rfl

/-- **C180**, where it fails: for Lennard-Jones spheres with one kind of sites and every temperature between 50 and 800 K (site
attraction positive) there is a density that the equation of state accepts at which, for a range of bonding volumes, the
fraction of unbonded sites exceeds one and the association energy is positive, and for another bonding volume the fraction
returned is -1, which has no logarithm. -/
theorem c180_violated_spheres (M T F : ℝ) (hM : 0 < M) (h1 : 50 ≤ T) (h2 : T ≤ 800) (hF : 0 < F) :
    ∃ ρ, 0 < ρ ∧ (∃ a, MieTerms.amonomer M sphere [ρ] T (fun _ => 1) = .ok [a]) ∧
      ∃ v, 0 < v ∧
        (∀ w, 0 < w → w ≤ v / 4 → ∃ X e, calcXika (bondSite F w) M [(ρ, assocSlice M sphere ρ T fun _ => 1)] = [(X, e)] ∧
          1 < X 0 ∧ X 0 < 2 ∧ 0 < aassoc (bondSite F w) X) ∧
        ∃ X e, calcXika (bondSite F v) M [(ρ, assocSlice M sphere ρ T fun _ => 1)] = [(X, e)] ∧ X 0 = -1 := by
  obtain ⟨ρ, hρ, hacc, hneg⟩ := c127_violated_spheres M T hM h1 h2
  have hg : assocSlice M sphere ρ T (fun _ => 1) 0 0 = AssocIntegral.iij M sphere ρ T (fun _ => 1) 0 0 := by
    simp [assocSlice]
  generalize AssocIntegral.iij M sphere ρ T (fun _ => 1) 0 0 = g at hg hneg
  have hk : 0 < M * ρ * F * -g := by
    have : 0 < -g := by linarith
    positivity
  refine ⟨ρ, hρ, hacc, 1 / (M * ρ * F * -g), by positivity, ?_, ?_⟩
  · intro w hw hwv
    have hc : M * ρ * (F * w * g) < 0 := by
      have : M * ρ * (F * w * g) = -((M * ρ * F * -g) * w) := by ring
      rw [this]
      have := mul_pos hk hw
      linarith
    have hc4 : -(1 / 4) ≤ M * ρ * (F * w * g) := by
      have e : M * ρ * (F * w * g) = -((M * ρ * F * -g) * w) := by ring
      have := mul_le_mul_of_nonneg_left hwv hk.le
      have e2 : (M * ρ * F * -g) * (1 / (M * ρ * F * -g) / 4) = 1 / 4 := by
        generalize M * ρ * F * -g = k at hk
        field_simp
      rw [e]
      linarith
    have hb := c180_exceeds (n := 1) (fun _ _ => M * ρ * (F * w * g)) (fun _ _ => hc.le) (fun _ => by simpa using hc4)
      (fun _ => by simpa using hc) one_pos (by norm_num) (tol := 1 / 10 ^ 12) (by norm_num) (1 / 10) 499
    refine ⟨_, _, calcXika_bondSite F w M ρ _ _ (by rw [hg]), ?_⟩
    exact ⟨(hb 0).1, (hb 0).2, c180_energy _ one_pos (fun _ => one_pos) (fun _ _ => one_pos) (fun _ _ => one_pos) _ hb⟩
  · have e : M * ρ * (F * (1 / (M * ρ * F * -g)) * g) = -1 := by
      have : g ≠ 0 := hneg.ne
      field_simp
    refine ⟨_, _, calcXika_bondSite F _ M ρ (-1) _ (by rw [hg, e]), ?_⟩
    exact congrFun (c180_cycle (K := ℝ) (1 / 10 ^ 12) (1 / 10) (by norm_num) (by norm_num)) 0

/-- Not vacuous: 300 K and unit site attraction. -/
example : ∃ ρ : ℝ, 0 < ρ ∧ ∃ a, MieTerms.amonomer 1 sphere [ρ] 300 (fun _ => 1) = .ok [a] := by
  obtain ⟨ρ, h, ha, -⟩ := c180_violated_spheres 1 300 1 one_pos (by norm_num) (by norm_num) one_pos
  exact ⟨ρ, h, ha⟩

end Verif.Props
