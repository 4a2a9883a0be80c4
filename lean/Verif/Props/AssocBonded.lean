import Verif.Props.AssocConverges

/-!
# C62, C181: fluids with at most 14 of 15 sites bonded

Each step brings the fractions closer to the solution by a factor that is the largest fraction of bonded sites in the
solution.  With at most four kinds of sites, of each of which at least one in fifteen is not bonded, 500 steps suffice.
-/

namespace Verif.Props
open Verif Verif.Assoc Verif.SaftEnergy

variable {K : Type} [Field K] [LinearOrder K] [IsStrictOrderedRing K] {n : ℕ}

/-- **C62** (rate by the bonded fraction): one step divides the distance to the solution, as the excess of the factor between
them over one, by the inverse of the largest bonded fraction of the solution. -/
theorem c62_bonded_step (c : Fin n → Fin n → K) (hc : ∀ s t, 0 ≤ c s t) {X Z : Fin n → K} (hX : ∀ s, 0 < X s)
    (hZ : ∀ s, 0 < Z s ∧ Z s ≤ 1) (eZ : ∀ s, Z s = 1 / (1 + ∑ t, c s t * Z t)) {ζ t : K} (hζ : ∀ s, ζ ≤ Z s) (ht : 1 ≤ t)
    (hw : ∀ s, X s ≤ t * Z s ∧ Z s ≤ t * X s) (s : Fin n) :
    rhs c X s ≤ (1 + (1 - ζ) * (t - 1)) * Z s ∧ Z s ≤ (1 + (1 - ζ) * (t - 1)) * rhs c X s := by
  obtain ⟨a, ha⟩ : ∃ a, a = ∑ u, c s u * Z u := ⟨_, rfl⟩
  obtain ⟨b, hb⟩ : ∃ b, b = ∑ u, c s u * X u := ⟨_, rfl⟩
  have ha0 : 0 ≤ a := by rw [ha]; exact Finset.sum_nonneg fun u _ => mul_nonneg (hc s u) (hZ u).1.le
  have hb0 : 0 ≤ b := by rw [hb]; exact Finset.sum_nonneg fun u _ => mul_nonneg (hc s u) (hX u).le
  have hba : b ≤ t * a := by
    rw [ha, hb, Finset.mul_sum]
    refine Finset.sum_le_sum fun u _ => ?_
    have := mul_le_mul_of_nonneg_left (hw u).1 (hc s u)
    linarith
  have hab : a ≤ t * b := by
    rw [ha, hb, Finset.mul_sum]
    refine Finset.sum_le_sum fun u _ => ?_
    have := mul_le_mul_of_nonneg_left (hw u).2 (hc s u)
    linarith
  have hz := eZ s
  rw [← ha] at hz
  have ha1 : 0 < 1 + a := by linarith
  have hb1 : 0 < 1 + b := by linarith
  have hζa : ζ * (1 + a) ≤ 1 := by
    have := hζ s
    rw [hz, le_div_iff₀ ha1] at this
    exact this
  have hr : rhs c X s = 1 / (1 + b) := by rw [rhs, hb]
  have hq : a * (t - 1) ≤ (1 - ζ) * (t - 1) * (1 + a) := by
    have : a ≤ (1 - ζ) * (1 + a) := by linarith
    have := mul_le_mul_of_nonneg_right this (sub_nonneg.2 ht)
    linarith
  rw [hr, hz, mul_one_div, mul_one_div]
  constructor
  · rw [div_le_div_iff₀ hb1 ha1, one_mul]
    -- `(1 + a)² t ≤ (1 + a t)(t + a)`
    have ht0 : 0 < t := by linarith
    have h1 : (1 + a) * (1 + a) * t ≤ (1 + a * t) * (t + a) := by
      have : 0 ≤ a * ((t - 1) * (t - 1)) := mul_nonneg ha0 (mul_self_nonneg _)
      linarith
    have h2 : t + a ≤ t * (1 + b) := by linarith
    have h3 : (1 + a * t) * (t + a) ≤ (1 + a * t) * (t * (1 + b)) :=
      mul_le_mul_of_nonneg_left h2 (by have := mul_nonneg ha0 ht0.le; linarith)
    have h4 : 1 + a * t ≤ (1 + (1 - ζ) * (t - 1)) * (1 + a) := by linarith
    have h5 : (1 + a * t) * (t * (1 + b)) ≤ (1 + (1 - ζ) * (t - 1)) * (1 + a) * (t * (1 + b)) :=
      mul_le_mul_of_nonneg_right h4 (by positivity)
    have h6 : (1 + a) * ((1 + a) * t) ≤ ((1 + (1 - ζ) * (t - 1)) * (1 + b)) * ((1 + a) * t) := by
      calc (1 + a) * ((1 + a) * t) = (1 + a) * (1 + a) * t := by ring
        _ ≤ _ := h1.trans (h3.trans h5)
        _ = _ := by ring
    exact le_of_mul_le_mul_right h6 (by positivity)
  · rw [div_le_div_iff₀ ha1 hb1, one_mul]
    linarith

/-- **C62** (convergence by the bonded fraction): if the solution has fractions of at least `ζ` and the start agrees with it up
to the factor `t`, with `n t ≤ 1000 ζ`, then no step is damped, and the residual is below the tolerance after `fuel + 1` steps at
the latest when `2 n (t - 1) (1 - ζ) ^ fuel` is. -/
theorem c62_bonded_converges (c : Fin n → Fin n → K) (hc : ∀ s t, 0 ≤ c s t) {tol : K} (htol : 0 < tol) (damp : K)
    (Z : Fin n → K) (hZ : ∀ s, 0 < Z s ∧ Z s ≤ 1) (eZ : ∀ s, Z s = 1 / (1 + ∑ t, c s t * Z t)) {ζ t₀ : K} (hζ0 : 0 < ζ)
    (hζ1 : ζ ≤ 1) (hζ : ∀ s, ζ ≤ Z s) (hn : n * t₀ ≤ 1000 * ζ) (fuel : ℕ) (X : Fin n → K) (hX : ∀ s, 0 < X s ∧ X s ≤ 1) {t : K}
    (ht : 1 ≤ t) (ht0 : t ≤ t₀) (hw : ∀ s, X s ≤ t * Z s ∧ Z s ≤ t * X s)
    (hf : 2 * n * (t - 1) * (1 - ζ) ^ fuel < tol) :
    (∃ e, (iter c tol damp (fuel + 1) X).2 = some e ∧ e < tol) ∧
      ∀ s, (0 < (iter c tol damp (fuel + 1) X).1 s ∧ (iter c tol damp (fuel + 1) X).1 s ≤ 1) ∧
        Z s ≤ t₀ * (iter c tol damp (fuel + 1) X).1 s := by
  have hq0 : 0 ≤ 1 - ζ := by linarith
  induction fuel generalizing X t with
  | zero =>
    have hR : Assoc.Phys (rhs c X) := rhs_phys c hc X fun s => (hX s).1.le
    have h' : Within (1 + (1 - ζ) * (t - 1)) (rhs c X) Z := c62_bonded_step c hc (fun s => (hX s).1) hZ eZ hζ ht hw
    have ht' : 1 ≤ 1 + (1 - ζ) * (t - 1) := by
      have := mul_nonneg hq0 (sub_nonneg.2 ht)
      linarith
    have hq1 : (1 - ζ) * (t - 1) ≤ t - 1 := mul_le_of_le_one_left (by linarith) (by linarith)
    have ho : obj (rhs c X) X ≤ 2 * n * (t - 1) := by
      calc obj (rhs c X) X ≤ ∑ _s : Fin n, 2 * (t - 1) := by
            refine Finset.sum_le_sum fun s _ => ?_
            have a := abs_le.1 (Within.abs_sub_le hR hZ ht' h' s)
            have b := abs_le.1 (Within.abs_sub_le hX hZ ht hw s)
            rw [abs_le]
            constructor <;> linarith [a.1, a.2, b.1, b.2]
        _ = 2 * n * (t - 1) := by
            rw [Finset.sum_const, Finset.card_univ, Fintype.card_fin, nsmul_eq_mul]; ring
    rw [pow_zero, mul_one] at hf
    rw [iter]
    rw [if_pos (ho.trans_lt hf)]
    exact ⟨⟨_, rfl, ho.trans_lt hf⟩, fun s => ⟨hX s, (hw s).2.trans (mul_le_mul_of_nonneg_right ht0 (hX s).1.le)⟩⟩
  | succ f ih =>
    have hR : Assoc.Phys (rhs c X) := rhs_phys c hc X fun s => (hX s).1.le
    have h' := c62_bonded_step c hc (fun s => (hX s).1) hZ eZ hζ ht hw
    have ht' : 1 ≤ 1 + (1 - ζ) * (t - 1) := by
      have := mul_nonneg hq0 (sub_nonneg.2 ht)
      linarith
    have hq1 : (1 - ζ) * (t - 1) ≤ t - 1 := mul_le_of_le_one_left (by linarith) (by linarith)
    have hi := ih (rhs c X) hR ht' (by linarith) h' (by
      refine lt_of_eq_of_lt ?_ hf
      rw [pow_succ]; ring)
    rw [iter]
    by_cases h : obj (rhs c X) X < tol
    · rw [if_pos h]
      exact ⟨⟨_, rfl, h⟩, fun s => ⟨hX s, (hw s).2.trans (mul_le_mul_of_nonneg_right ht0 (hX s).1.le)⟩⟩
    rw [if_neg h]
    have hup : update damp X (rhs c X) = rhs c X := by
      rcases Nat.eq_zero_or_pos n with h0 | h0
      · exact absurd htol (by rw [obj_zero_of_empty h0] at h; exact h)
      have hv := le_vmax X ⟨0, h0⟩
      have hx := (hX ⟨0, h0⟩).1
      have ht1 : 0 < t₀ := by linarith
      rw [update, if_neg]
      rw [gt_iff_lt, not_lt, div_le_iff₀ (hx.trans_le hv)]
      have ho := obj_le _ _ hR hX
      have h1 : ζ ≤ t₀ * X ⟨0, h0⟩ :=
        (hζ ⟨0, h0⟩).trans ((hw ⟨0, h0⟩).2.trans (mul_le_mul_of_nonneg_right ht0 hx.le))
      have h2 : (n : K) * t₀ ≤ 1000 * X ⟨0, h0⟩ * t₀ := by linarith
      have h3 : (n : K) ≤ 1000 * X ⟨0, h0⟩ := le_of_mul_le_mul_right h2 ht1
      linarith
    rw [hup]
    obtain ⟨⟨e, he, hlt⟩, hr⟩ := hi
    rcases hit : iter c tol damp (f + 1) (rhs c X) with ⟨Y, o⟩
    rw [hit] at he hr
    simp only at he hr
    subst he
    exact ⟨⟨e, rfl, hlt⟩, hr⟩

/-- **C62** (accuracy by the bonded fraction): fractions of at least `x₀` whose residual is below the tolerance agree with the
solution up to a factor `t` with `(t - 1) (ζ - e) ≤ e`, where `e = tol / (x₀ - tol)`. -/
theorem c62_bonded_accuracy (c : Fin n → Fin n → K) (hc : ∀ s t, 0 ≤ c s t) (X Z : Fin n → K) (hX : ∀ s, 0 < X s ∧ X s ≤ 1)
    (hZ : ∀ s, 0 < Z s ∧ Z s ≤ 1) (eZ : ∀ s, Z s = 1 / (1 + ∑ t, c s t * Z t)) {ζ x₀ e tol : K} (hζ0 : 0 < ζ)
    (hζ : ∀ s, ζ ≤ Z s) (hx : ∀ s, x₀ ≤ X s) (he0 : 0 ≤ e) (he : tol ≤ e * (x₀ - tol))
    (hr : ∑ s, |1 / (1 + ∑ u, c s u * X u) - X s| < tol) :
    ∃ t, 1 ≤ t ∧ (t - 1) * (ζ - e) ≤ e ∧ ∀ s, X s ≤ t * Z s ∧ Z s ≤ t * X s := by
  obtain ⟨t, h1, hw, hmin⟩ := exists_min_within X Z hX hZ
  refine ⟨t, h1, ?_, hw⟩
  rcases Nat.eq_zero_or_pos n with h0 | h0
  · subst h0
    have := hmin 1 le_rfl fun s => s.elim0
    have h2 : t = 1 := le_antisymm this h1
    rw [h2, sub_self, zero_mul]
    exact he0
  have hζ1 : ζ ≤ 1 := (hζ ⟨0, h0⟩).trans (hZ ⟨0, h0⟩).2
  have hres : ∀ s, |rhs c X s - X s| < tol := fun s =>
    lt_of_le_of_lt (Finset.single_le_sum (f := fun s => |rhs c X s - X s|)
      (fun _ _ => abs_nonneg _) (Finset.mem_univ s)) hr
  have hXR : Within (1 + e) X (rhs c X) := by
    intro s
    have h2 := abs_lt.1 (hres s)
    have h3 := hx s
    have h4 : e * (x₀ - tol) ≤ e * rhs c X s := mul_le_mul_of_nonneg_left (by linarith) he0
    have h5 : e * (x₀ - tol) ≤ e * X s := mul_le_mul_of_nonneg_left (by linarith [(hres s), abs_nonneg (rhs c X s - X s)]) he0
    constructor <;> linarith [h2.1, h2.2]
  have hq := mul_nonneg (sub_nonneg.2 hζ1) (sub_nonneg.2 h1)
  have hRZ : Within (1 + (1 - ζ) * (t - 1)) (rhs c X) Z := c62_bonded_step c hc (fun s => (hX s).1) hZ eZ hζ h1 hw
  have hW := Within.trans (by linarith) (by linarith) hXR hRZ
  have h3 := hmin _ (by
    have : 0 ≤ e * (1 + (1 - ζ) * (t - 1)) := mul_nonneg he0 (by linarith)
    linarith) hW
  have h4 : 0 ≤ e * ζ * (t - 1) := mul_nonneg (mul_nonneg he0 hζ0.le) (sub_nonneg.2 h1)
  linarith

/-- One density: with a start of at least 1 / 15.001. -/
private theorem bonded_density (c : Fin n → Fin n → ℝ) (hc : ∀ s t, 0 ≤ c s t) (hn : n ≤ 4) (X Z : Fin n → ℝ)
    (hX : ∀ s, 1 / 15.001 ≤ X s ∧ X s ≤ 1) (hZ : ∀ s, 1 / 15 ≤ Z s ∧ Z s ≤ 1)
    (eZ : ∀ s, Z s = 1 / (1 + ∑ t, c s t * Z t)) :
    (∃ e, (iter c (1 / 10 ^ 12) (1 / 10) 500 X).2 = some e ∧ e < 1 / 10 ^ 12) ∧
      (∀ s, 1 / 15.001 ≤ (iter c (1 / 10 ^ 12) (1 / 10) 500 X).1 s ∧ (iter c (1 / 10 ^ 12) (1 / 10) 500 X).1 s ≤ 1) ∧
      ∀ s, (iter c (1 / 10 ^ 12) (1 / 10) 500 X).1 s ≤ (1 + 2.3e-10) * Z s ∧
        Z s ≤ (1 + 2.3e-10) * (iter c (1 / 10 ^ 12) (1 / 10) 500 X).1 s := by
  have hZ' : ∀ s, 0 < Z s ∧ Z s ≤ 1 := fun s => ⟨by linarith [(hZ s).1], (hZ s).2⟩
  have hnK : (n : ℝ) ≤ 4 := by exact_mod_cast hn
  have hX' : ∀ s, 0 < X s ∧ X s ≤ 1 := fun s => ⟨lt_of_lt_of_le (by norm_num) (hX s).1, (hX s).2⟩
  obtain ⟨hcv, hr⟩ := c62_bonded_converges c hc (tol := 1 / 10 ^ 12) (by norm_num) (1 / 10) Z hZ' eZ (ζ := 1 / 15)
    (t₀ := 15.001) (by norm_num) (by norm_num) (fun s => (hZ s).1) (by norm_num; linarith) 499 X hX' (t := 15.001) (by norm_num)
    le_rfl (by
      intro s
      have h1 := hX s
      have h2 := hZ s
      norm_num at h1 h2 ⊢
      constructor <;> linarith) (by
      have h1 := weak_power
      rw [show (1 : ℝ) - 1 / 15 = 14 / 15 by norm_num]
      have h0 : (0 : ℝ) ≤ (14 / 15) ^ 499 := by positivity
      generalize (14 / 15 : ℝ) ^ 499 = w at h0 h1
      have hn0 : (0 : ℝ) ≤ n := Nat.cast_nonneg n
      have h2 : 2 * (n : ℝ) * (15.001 - 1) * w ≤ 113 * w :=
        mul_le_mul_of_nonneg_right (by norm_num; linarith) h0
      refine h2.trans_lt ?_
      have : (113 : ℝ) * (2 / 10 ^ 15) < 1 / 10 ^ 12 := by norm_num
      linarith)
  obtain ⟨e, he, hlt⟩ := hcv
  have hres := c62_reported c (1 / 10 ^ 12) (1 / 10) 500 X he hlt
  rw [hres] at hlt
  refine ⟨⟨e, he, by rw [hres]; exact hlt⟩, ?_⟩
  generalize (iter c (1 / 10 ^ 12) (1 / 10) 500 X).1 = Y at hr hlt ⊢
  have hYp : ∀ s, 0 < Y s ∧ Y s ≤ 1 := fun s => (hr s).1
  -- first pass
  obtain ⟨t, h1, h2, hw⟩ := c62_bonded_accuracy c hc Y Z hYp hZ' eZ (ζ := 1 / 15) (x₀ := 1 / 226) (e := 2.3e-10)
    (by norm_num) (fun s => (hZ s).1) (fun s => by
      have a := (hr s).2
      have b := (hZ s).1
      norm_num at a b ⊢
      linarith) (by norm_num) (by norm_num) hlt
  have ht : t ≤ 1.00001 := by norm_num at h2 ⊢; linarith
  have hY : ∀ s, 1 / 15.001 ≤ Y s := fun s => by
    have a := (hw s).2.trans (mul_le_mul_of_nonneg_right ht (hYp s).1.le)
    have b := (hZ s).1
    norm_num at a b ⊢
    linarith
  -- second pass
  obtain ⟨t', h1', h2', hw'⟩ := c62_bonded_accuracy c hc Y Z hYp hZ' eZ (ζ := 1 / 15) (x₀ := 1 / 15.001) (e := 1.51e-11)
    (by norm_num) (fun s => (hZ s).1) hY (by norm_num) (by norm_num) hlt
  have ht' : t' ≤ 1 + 2.3e-10 := by norm_num at h2' ⊢; linarith
  exact ⟨fun s => ⟨hY s, (hYp s).2⟩, fun s => ⟨(hw' s).1.trans (mul_le_mul_of_nonneg_right ht' (hZ' s).1.le),
    (hw' s).2.trans (mul_le_mul_of_nonneg_right ht' (hYp s).1.le)⟩⟩

/-- **C62** (up to 14 of 15 sites bonded): for at most four kinds of sites, if at every density at least one in fifteen sites of
each kind is not bonded in the solution, then the 500 steps of the code suffice at every density of the array, and the
fractions returned agree with the solution up to the factor `1 + 2.3e-10`. -/
theorem c62_bonded (S : Sites ℝ n) (hN : NonNeg S) (hn : n ≤ 4) (M : ℝ) (hM : 0 ≤ M) (rows : List (ℝ × (ℕ → ℕ → ℝ)))
    (hρ : ∀ r ∈ rows, 0 ≤ r.1 ∧ ∀ i j, 0 ≤ r.2 i j) (Z : ℝ × (ℕ → ℕ → ℝ) → Fin n → ℝ)
    (hZ : ∀ r ∈ rows, ∀ s, 1 / 15 ≤ Z r s ∧ Z r s ≤ 1)
    (eZ : ∀ r ∈ rows, ∀ s, Z r s = 1 / (1 + ∑ t, coef S M r.1 r.2 s t * Z r t)) :
    List.Forall₂ (fun r q => (∃ e, q.2 = some e ∧ e < 1 / 10 ^ 12) ∧
      ∀ s, q.1 s ≤ (1 + 2.3e-10) * Z r s ∧ Z r s ≤ (1 + 2.3e-10) * q.1 s) rows (calcXika S M rows) := by
  have key : ∀ (rows : List (ℝ × (ℕ → ℕ → ℝ))) (X : Fin n → ℝ), (∀ s, 1 / 15.001 ≤ X s ∧ X s ≤ 1) →
      (∀ r ∈ rows, 0 ≤ r.1 ∧ ∀ i j, 0 ≤ r.2 i j) → (∀ r ∈ rows, ∀ s, 1 / 15 ≤ Z r s ∧ Z r s ≤ 1) →
      (∀ r ∈ rows, ∀ s, Z r s = 1 / (1 + ∑ t, coef S M r.1 r.2 s t * Z r t)) →
      List.Forall₂ (fun r q => (∃ e, q.2 = some e ∧ e < 1 / 10 ^ 12) ∧
        ∀ s, q.1 s ≤ (1 + 2.3e-10) * Z r s ∧ Z r s ≤ (1 + 2.3e-10) * q.1 s) rows
        (sweep (1 / 10 ^ 12) (1 / 10) 500 (rows.map fun r => coef S M r.1 r.2) X) := by
    intro rows
    induction rows with
    | nil => intro X _ _ _ _; exact .nil
    | cons r rows ih =>
      intro X hX hρ hZ eZ
      have hr := hρ r (by simp)
      have hc : ∀ s t, 0 ≤ coef S M r.1 r.2 s t := c21_coef_nonneg S hN hM hr.1 _ hr.2
      obtain ⟨d1, d2, d3⟩ := bonded_density _ hc hn X (Z r) hX (hZ r (by simp)) (eZ r (by simp))
      rw [List.map_cons, sweep]
      exact .cons ⟨d1, d3⟩ (ih _ d2 (fun r' h => hρ r' (List.mem_cons_of_mem _ h))
        (fun r' h => hZ r' (List.mem_cons_of_mem _ h)) (fun r' h => eZ r' (List.mem_cons_of_mem _ h)))
  exact key rows _ (fun _ => ⟨by norm_num, by norm_num⟩) hρ hZ eZ

/-- Fractions that agree up to a factor give energies that do. -/
theorem c181_energy_within (S : Sites ℝ n) (h : NonNeg S) {d : ℝ} (hd : 0 ≤ d) (X Z : Fin n → ℝ)
    (hX : ∀ s, 0 < X s) (hX1 : ∀ s, X s ≤ 1) (hZ : ∀ s, 0 < Z s ∧ Z s ≤ 1)
    (hw : ∀ s, X s ≤ (1 + d) * Z s ∧ Z s ≤ (1 + d) * X s) :
    |Assoc.aassoc S X - Assoc.aassoc S Z| ≤ (∑ s, siteNumber S s) * (3 / 2 * d) := by
  have hN : ∀ s, 0 ≤ siteNumber S s := fun s => by
    unfold siteNumber
    exact mul_nonneg (mul_nonneg (h.x _) (h.ν _ _)) (h.nk _ _)
  unfold Assoc.aassoc
  rw [← Finset.sum_sub_distrib, Finset.sum_mul]
  refine (Finset.abs_sum_le_sum_abs _ _).trans (Finset.sum_le_sum fun s _ => ?_)
  have hlog : ∀ a b : ℝ, 0 < a → 0 < b → a ≤ (1 + d) * b → Real.log a - Real.log b ≤ d := by
    intro a b ha hb hab
    rw [← Real.log_div ha.ne' hb.ne']
    refine (Real.log_le_sub_one_of_pos (div_pos ha hb)).trans ?_
    rw [sub_le_iff_le_add, div_le_iff₀ hb]
    linarith
  split_ifs with hk
  · rw [← mul_sub, abs_mul]
    have : |S.x (S.comp s) * S.ν (S.comp s) (S.grp s) * S.nk (S.grp s) (S.site s)| = siteNumber S s := abs_of_nonneg (hN s)
    rw [this]
    refine mul_le_mul_of_nonneg_left ?_ (hN s)
    have h1 := hlog _ _ (hX s) (hZ s).1 (hw s).1
    have h2 := hlog _ _ (hZ s).1 (hX s) (hw s).2
    have h3 : d * Z s ≤ d := mul_le_of_le_one_right hd (hZ s).2
    have h4 : d * X s ≤ d := mul_le_of_le_one_right hd (hX1 s)
    have h5 := hw s
    rw [abs_le]
    constructor <;> linarith [h5.1, h5.2]
  · rw [sub_self, abs_zero]
    exact mul_nonneg (hN s) (by linarith)

/-- **C181** (up to 14 of 15 sites bonded): for at most four kinds of sites, of each of which at least one in fifteen is not bonded
at the two densities of the stencil, the pressure of the code differs from the one with the exact fractions by at most 0.00035
times the number of sites per molecule times the pressure of an ideal gas, if the step is a millionth of the density. -/
theorem c181_pressure_bonded {l : ℕ} {E : Eos} {T ρ : ℝ} {xi : List ℝ} (hE : GoodEos E xi) (hT : 0 < T)
    (hx : noNegative (xi.map some)) (hρ : 1 ≤ ρ)
    (fs : List (ℝ → ℝ)) (hf : List.Forall₂ (fun c f => PointWise c T (xi.map some) f) E.res fs)
    (A : AssocContribution.Data l) (hA : E.assoc = some (AssocContribution.aassoc A)) (hn : xi.length = A.n)
    (g : ℝ → ℕ → ℕ → ℝ) (hg : ∀ r, 0 ≤ r → A.gr r T (xi.map some) = .ok (g r)) (hg0 : ∀ r i j, 0 ≤ g r i j)
    (S : Sites ℝ l) (hS : S = AssocContribution.sites A T (xi.map some)) (hN : NonNeg S) (hl : l ≤ 4)
    (Z : ℝ → Fin l → ℝ) (hZ : ∀ r, r = ρ + ρ * 1e-6 ∨ r = ρ - ρ * 1e-6 → ∀ i, 1 / 15 ≤ Z r i ∧ Z r i ≤ 1)
    (eZ : ∀ r, r = ρ + ρ * 1e-6 ∨ r = ρ - ρ * 1e-6 → ∀ i,
      Z r i = 1 / (1 + ∑ t, coef S moleculePerNm3 r (g r) i t * Z r t)) :
    ∃ p, pressure E [ρ] T (xi.map some) 1e-6 = .ok [.fin p] ∧
      |p - quotient (fun r => (fs.map (· r)).sum + Assoc.aassoc S (Z r) + (idealValue T r (significant xi E.massi) - 1))
        (ρ * 1e-6) ρ * T * SaftEnergy.R * ρ ^ 2| ≤ 0.00035 * (∑ i, siteNumber S i) * (ρ * SaftEnergy.R * T) := by
  have heps : SaftEnergy.eps < 1 / 10 ^ 15 := by unfold SaftEnergy.eps; norm_num
  have hR := gasConst_pos
  have hρ0 : 0 < ρ := by linarith
  have hstep : pressureStep 1e-6 ρ = ρ * 1e-6 := by
    unfold pressureStep
    rw [if_neg]
    norm_num at heps ⊢
    linarith
  have ha : 0 ≤ ρ + ρ * 1e-6 := by norm_num; linarith
  have hb : 0 ≤ ρ - ρ * 1e-6 := by norm_num; linarith
  generalize hup : ρ + ρ * 1e-6 = a at *
  generalize hdn : ρ - ρ * 1e-6 = b at *
  have hpos : ∀ r ∈ [a, b], 0 ≤ r := by
    intro r hr
    simp only [List.mem_cons, List.not_mem_nil, or_false] at hr
    rcases hr with rfl | rfl <;> assumption
  have hval := c181_fractions A [a, b] T (xi.map some) (by rw [List.length_map]; exact hn) (by simp) hpos g
    fun r hr => hg r (hpos r hr)
  rw [← hS] at hval
  have hfr := c62_bonded S hN hl moleculePerNm3 perNm3_pos.le [(a, g a), (b, g b)]
    (by
      intro r hr
      simp only [List.mem_cons, List.not_mem_nil, or_false] at hr
      rcases hr with rfl | rfl
      · exact ⟨ha, hg0 _⟩
      · exact ⟨hb, hg0 _⟩) (fun r => Z r.1)
    (by
      intro r hr
      simp only [List.mem_cons, List.not_mem_nil, or_false] at hr
      rcases hr with rfl | rfl
      · exact hZ _ (.inl rfl)
      · exact hZ _ (.inr rfl))
    (by
      intro r hr
      simp only [List.mem_cons, List.not_mem_nil, or_false] at hr
      rcases hr with rfl | rfl
      · exact eZ _ (.inl rfl)
      · exact eZ _ (.inr rfl))
  set r1 := iter (coef S moleculePerNm3 a (g a)) (1 / 10 ^ 12) (1 / 10) 500 fun _ => 1 / 2 with hr1
  set r2 := iter (coef S moleculePerNm3 b (g b)) (1 / 10 ^ 12) (1 / 10) 500 r1.1 with hr2
  have hX : calcXika S moleculePerNm3 [(a, g a), (b, g b)] = [r1, r2] := rfl
  rw [hX] at hfr
  have n1 : ∀ i t, 0 ≤ coef S moleculePerNm3 a (g a) i t := c21_coef_nonneg S hN perNm3_pos.le ha _ (hg0 a)
  have n2 : ∀ i t, 0 ≤ coef S moleculePerNm3 b (g b) i t := c21_coef_nonneg S hN perNm3_pos.le hb _ (hg0 b)
  have p1 : ∀ i, 0 < r1.1 i ∧ r1.1 i ≤ 1 :=
    c21_iter_phys _ n1 _ (by norm_num) (by norm_num) 500 _ fun _ => ⟨by norm_num, by norm_num⟩
  have p2 : ∀ i, 0 < r2.1 i ∧ r2.1 i ≤ 1 :=
    c21_iter_phys _ n2 _ (by norm_num) (by norm_num) 500 _ p1
  cases hfr with
  | cons f1 hfr =>
    cases hfr with
    | cons f2 _ =>
      have z : ∀ r, r = a ∨ r = b → ∀ i, 0 < Z r i ∧ Z r i ≤ 1 := fun r hr i =>
        ⟨by linarith [(hZ r hr i).1], (hZ r hr i).2⟩
      have d1 := c181_energy_within S hN (d := 2.3e-10) (by norm_num) r1.1 (Z a) (fun i => (p1 i).1) (fun i => (p1 i).2)
        (z a (.inl rfl)) f1.2
      have d2 := c181_energy_within S hN (d := 2.3e-10) (by norm_num) r2.1 (Z b) (fun i => (p2 i).1) (fun i => (p2 i).2)
        (z b (.inr rfl)) f2.2
      obtain ⟨p, hp, hpe⟩ := c181_pressure (s := 1e-6) (ρ := ρ) (δ := (∑ i, siteNumber S i) * (3 / 2 * 2.3e-10)) hE hT (by norm_num) hx
        (by linarith [heps, show (1 : ℝ) / 10 ^ 15 < 1 / 2 by norm_num]) fs hf _ hA (fun r => Assoc.aassoc S (Z r))
        (Assoc.aassoc S r1.1) (Assoc.aassoc S r2.1) (by
          rw [hstep, hup, hdn, hval, List.map_cons, List.map_cons, List.map_nil, hX]
          simp only [List.map_cons, List.map_nil, c181_energy S r1.1 fun i => (p1 i).1,
            c181_energy S r2.1 fun i => (p2 i).1])
        (by rw [hstep, hup]; exact d1) (by rw [hstep, hdn]; exact d2)
      rw [hstep] at hpe
      refine ⟨p, hp, hpe.trans ?_⟩
      have hs : 0 ≤ ∑ i, siteNumber S i := Finset.sum_nonneg fun i _ => by
        unfold siteNumber
        exact mul_nonneg (mul_nonneg (hN.x _) (hN.ν _ _)) (hN.nk _ _)
      rw [div_le_iff₀ (by positivity)]
      generalize ∑ i, siteNumber S i = N at hs
      have hk : 0 ≤ SaftEnergy.R * T * ρ ^ 2 * N := by positivity
      have := mul_le_mul_of_nonneg_left (show (3 / 2 * 2.3e-10 : ℝ) ≤ 0.00035 * 1e-6 by norm_num) hk
      calc SaftEnergy.R * T * ρ ^ 2 * (N * (3 / 2 * 2.3e-10)) = SaftEnergy.R * T * ρ ^ 2 * N * (3 / 2 * 2.3e-10) := by ring
        _ ≤ _ := this
        _ = _ := by ring

/-- Not vacuous: one kind of sites of strength 210, of which one in fifteen is not bonded. -/
example : List.Forall₂ (fun _ q => (∃ e, q.2 = some e ∧ e < 1 / 10 ^ 12) ∧
      ∀ s, q.1 s ≤ (1 + 2.3e-10) * (1 / 15) ∧ 1 / 15 ≤ (1 + 2.3e-10) * q.1 s) [((1 : ℝ), fun _ _ : ℕ => (1 : ℝ))]
    (calcXika (⟨fun _ => 0, fun _ => 0, fun _ => 0, fun _ => 1, fun _ _ => 1, fun _ _ => 1, fun _ _ _ _ => 210,
      .klab fun _ _ _ _ => 1⟩ : Sites ℝ 1) 1 [(1, fun _ _ => 1)]) :=
  c62_bonded _ ⟨by simp, by simp, by simp, by simp, by simp [Vol.at]⟩ (by norm_num) 1 (by norm_num) _ (by simp)
    (fun _ _ => 1 / 15) (by norm_num) (by simp [coef, Vol.at]; norm_num)

end Verif.Props
