import Verif.Props.AssocContribution
import Verif.Props.AssocCompiled

/-!
# C62, C181: fluids for which the iteration converges

With strengths that add up to at most 14 for each of at most ten kinds of sites, 500 steps suffice, and the pressure is
accurate without further assumptions.
-/

namespace Verif.Props
open Verif Verif.Assoc Verif.SaftEnergy

variable {K : Type} [Field K] [LinearOrder K] [IsStrictOrderedRing K] {n : ℕ}

/-- **C62** (convergence): with strengths that add up to at most `S` for each site and no damping (`n (1 + S) ≤ 1000`), the
residual is below the tolerance after `fuel + 1` steps at the latest when `2 n (t - 1) (S / (1 + S)) ^ fuel` is; `t` is the
factor between the start and the solution.  The fractions returned are not below `1 / (1 + S)`. -/
theorem c62_converges (c : Fin n → Fin n → K) (hc : ∀ s t, 0 ≤ c s t) {S : K} (hS0 : 0 ≤ S) (hS : ∀ s, ∑ t, c s t ≤ S)
    (hn : n * (1 + S) ≤ 1000) {tol : K} (htol : 0 < tol) (damp : K) (Z : Fin n → K) (hZ : ∀ s, 0 < Z s ∧ Z s ≤ 1)
    (eZ : ∀ s, Z s = 1 / (1 + ∑ t, c s t * Z t)) (fuel : ℕ) (X : Fin n → K)
    (hX : ∀ s, 1 / (1 + S) ≤ X s ∧ X s ≤ 1) {t : K} (ht : 1 ≤ t) (hw : ∀ s, X s ≤ t * Z s ∧ Z s ≤ t * X s)
    (hf : 2 * n * (t - 1) * (S / (1 + S)) ^ fuel < tol) :
    (∃ e, (iter c tol damp (fuel + 1) X).2 = some e ∧ e < tol) ∧
      ∀ s, 1 / (1 + S) ≤ (iter c tol damp (fuel + 1) X).1 s ∧ (iter c tol damp (fuel + 1) X).1 s ≤ 1 := by
  have fZ : rhs c Z = Z := funext fun s => (eZ s).symm
  have hS1 : 0 < 1 + S := by linarith
  have hm0 : 0 < 1 / (1 + S) := by positivity
  have hq : 1 - 1 / (1 + S) = S / (1 + S) := by field_simp; ring
  have hq0 : 0 ≤ S / (1 + S) := by positivity
  induction fuel generalizing X t with
  | zero =>
    have hP : Assoc.Phys X := fun s => ⟨hm0.trans_le (hX s).1, (hX s).2⟩
    have hR : Assoc.Phys (rhs c X) := rhs_phys c hc X fun s => (hP s).1.le
    have h' := rhs_within c hc hP hZ hS ht hw
    rw [fZ, hq] at h'
    have ht' : 1 ≤ 1 + S / (1 + S) * (t - 1) := by
      have := mul_nonneg hq0 (sub_nonneg.2 ht)
      linarith
    have hq1 : S / (1 + S) * (t - 1) ≤ t - 1 :=
      mul_le_of_le_one_left (by linarith) ((div_le_one hS1).2 (by linarith))
    have ho : obj (rhs c X) X ≤ 2 * n * (t - 1) := by
      calc obj (rhs c X) X ≤ ∑ _s : Fin n, 2 * (t - 1) := by
            refine Finset.sum_le_sum fun s _ => ?_
            have a := abs_le.1 (Within.abs_sub_le hR hZ ht' h' s)
            have b := abs_le.1 (Within.abs_sub_le hP hZ ht hw s)
            rw [abs_le]
            constructor <;> linarith [a.1, a.2, b.1, b.2]
        _ = 2 * n * (t - 1) := by
            rw [Finset.sum_const, Finset.card_univ, Fintype.card_fin, nsmul_eq_mul]; ring
    rw [pow_zero, mul_one] at hf
    rw [iter]
    rw [if_pos (ho.trans_lt hf)]
    exact ⟨⟨_, rfl, ho.trans_lt hf⟩, hX⟩
  | succ f ih =>
    have hP : Assoc.Phys X := fun s => ⟨hm0.trans_le (hX s).1, (hX s).2⟩
    have hR : Assoc.Phys (rhs c X) := rhs_phys c hc X fun s => (hP s).1.le
    have h' := rhs_within c hc hP hZ hS ht hw
    rw [fZ, hq] at h'
    have ht' : 1 ≤ 1 + S / (1 + S) * (t - 1) := by
      have := mul_nonneg hq0 (sub_nonneg.2 ht)
      linarith
    have hX' : ∀ s, 1 / (1 + S) ≤ rhs c X s ∧ rhs c X s ≤ 1 := fun s => ⟨rhs_ge c hc X hP hS s, (hR s).2⟩
    have hi := ih (rhs c X) hX' ht' h' (by
      refine lt_of_eq_of_lt ?_ hf
      rw [pow_succ]; ring)
    rw [iter]
    by_cases h : obj (rhs c X) X < tol
    · rw [if_pos h]
      exact ⟨⟨_, rfl, h⟩, hX⟩
    rw [if_neg h]
    have hup : update damp X (rhs c X) = rhs c X := by
      rcases Nat.eq_zero_or_pos n with h0 | h0
      · exact absurd htol (by rw [obj_zero_of_empty h0] at h; exact h)
      have hv := (hX ⟨0, h0⟩).1.trans (le_vmax X ⟨0, h0⟩)
      rw [update, if_neg]
      rw [gt_iff_lt, not_lt, div_le_iff₀ (hm0.trans_le hv)]
      have ho := obj_le _ _ hR hP
      have : (n : K) ≤ 1000 * (1 / (1 + S)) := by
        rw [mul_one_div, le_div_iff₀ hS1]; exact hn
      linarith
    rw [hup]
    obtain ⟨⟨e, he, hlt⟩, hr⟩ := hi
    rcases hit : iter c tol damp (f + 1) (rhs c X) with ⟨Y, o⟩
    rw [hit] at he hr
    simp only at he hr
    subst he
    exact ⟨⟨e, rfl, hlt⟩, hr⟩

theorem weak_power : (14 / 15 : ℝ) ^ 499 ≤ 2 / 10 ^ 15 := by
  have h : (14 / 15 : ℝ) ^ 83 ≤ 1 / 300 := by norm_num
  have e : (14 / 15 : ℝ) ^ 499 = ((14 / 15) ^ 83) ^ 6 * (14 / 15) := by
    rw [← pow_mul, ← pow_succ]
  rw [e]
  have := pow_le_pow_left₀ (by positivity) h 6
  calc ((14 / 15 : ℝ) ^ 83) ^ 6 * (14 / 15) ≤ (1 / 300) ^ 6 * (14 / 15) :=
        mul_le_mul_of_nonneg_right this (by norm_num)
    _ ≤ 2 / 10 ^ 15 := by norm_num

/-- **C62** (weak bonds): for at most ten kinds of sites whose strengths add up to at most 14 each, the 500 steps of the code
suffice at every density of the array: the residual is below the tolerance. -/
theorem c62_weak (S : Sites ℝ n) (hN : NonNeg S) (hn : n ≤ 10) (M : ℝ) (hM : 0 ≤ M) (rows : List (ℝ × (ℕ → ℕ → ℝ)))
    (hρ : ∀ r ∈ rows, 0 ≤ r.1 ∧ ∀ i j, 0 ≤ r.2 i j) (hB : ∀ r ∈ rows, ∀ s, ∑ t, coef S M r.1 r.2 s t ≤ 14) :
    ∀ q ∈ calcXika S M rows, ∃ e, q.2 = some e ∧ e < 1 / 10 ^ 12 := by
  have key : ∀ (rows : List (ℝ × (ℕ → ℕ → ℝ))) (X : Fin n → ℝ), (∀ s, 1 / (1 + 14) ≤ X s ∧ X s ≤ 1) →
      (∀ r ∈ rows, 0 ≤ r.1 ∧ ∀ i j, 0 ≤ r.2 i j) → (∀ r ∈ rows, ∀ s, ∑ t, coef S M r.1 r.2 s t ≤ 14) →
      ∀ q ∈ sweep (1 / 10 ^ 12) (1 / 10) 500 (rows.map fun r => coef S M r.1 r.2) X, ∃ e, q.2 = some e ∧ e < 1 / 10 ^ 12 := by
    intro rows
    induction rows with
    | nil => intro X _ _ _ q hq; simp [sweep] at hq
    | cons r rows ih =>
      intro X hX hρ hB q hq
      have hr := hρ r (by simp)
      have hc : ∀ s t, 0 ≤ coef S M r.1 r.2 s t := c21_coef_nonneg S hN hM hr.1 _ hr.2
      obtain ⟨Z, hZ, eZ⟩ := c62_exists (coef S M r.1 r.2) hc
      have hZm : ∀ s, 1 / (1 + 14) ≤ Z s := fun s => by
        have := rhs_ge _ hc Z hZ (hB r (by simp)) s
        rwa [rhs, ← eZ s] at this
      have hnK : (n : ℝ) ≤ 10 := by exact_mod_cast hn
      have hcv := c62_converges (coef S M r.1 r.2) hc (S := 14) (by norm_num) (hB r (by simp)) (by linarith)
        (tol := 1 / 10 ^ 12) (by norm_num) (1 / 10) Z hZ eZ 499 X hX (t := 15) (by norm_num) (by
          intro s
          constructor
          · linarith [(hX s).2, hZm s]
          · linarith [(hZ s).2, (hX s).1]) (by
          have h1 := weak_power
          rw [show (14 : ℝ) / (1 + 14) = 14 / 15 by norm_num]
          have h0 : (0 : ℝ) ≤ (14 / 15) ^ 499 := by positivity
          generalize (14 / 15 : ℝ) ^ 499 = w at h0 h1
          have hn0 : (0 : ℝ) ≤ n := Nat.cast_nonneg n
          have h2 : 2 * (n : ℝ) * (15 - 1) * w ≤ 280 * w := mul_le_mul_of_nonneg_right (by linarith) h0
          refine h2.trans_lt ?_
          have : (280 : ℝ) * (2 / 10 ^ 15) < 1 / 10 ^ 12 := by norm_num
          linarith)
      rw [List.map_cons, sweep] at hq
      rcases List.mem_cons.1 hq with rfl | hq
      · exact hcv.1
      · exact ih _ hcv.2 (fun r' h => hρ r' (List.mem_cons_of_mem _ h)) (fun r' h => hB r' (List.mem_cons_of_mem _ h)) q hq
  exact key rows _ (fun _ => ⟨by norm_num, by norm_num⟩) hρ hB

/-- **C181** (weakly bonded fluids): for at most ten kinds of sites whose strengths add up to at most 14 at the two densities of
the stencil (for one kind of sites that is up to three quarters bonded), the pressure of the code differs from the one with the
exact fractions by at most 0.0035 times the number of sites per molecule times the pressure of an ideal gas, if the step is a
millionth of the density. -/
theorem c181_pressure_weak {l : ℕ} {E : Eos} {T ρ : ℝ} {xi : List ℝ} (hE : GoodEos E xi) (hT : 0 < T)
    (hx : noNegative (xi.map some)) (hρ : 1 ≤ ρ)
    (fs : List (ℝ → ℝ)) (hf : List.Forall₂ (fun c f => PointWise c T (xi.map some) f) E.res fs)
    (A : AssocContribution.Data l) (hA : E.assoc = some (AssocContribution.aassoc A)) (hn : xi.length = A.n)
    (g : ℝ → ℕ → ℕ → ℝ) (hg : ∀ r, 0 ≤ r → A.gr r T (xi.map some) = .ok (g r)) (hg0 : ∀ r i j, 0 ≤ g r i j)
    (S : Sites ℝ l) (hS : S = AssocContribution.sites A T (xi.map some)) (hN : NonNeg S) (hl : l ≤ 10)
    (hB : ∀ r, r = ρ + ρ * 1e-6 ∨ r = ρ - ρ * 1e-6 → ∀ i, ∑ t, coef S moleculePerNm3 r (g r) i t ≤ 14)
    (Z : ℝ → Fin l → ℝ) (hZ : ∀ r i, 0 < Z r i ∧ Z r i ≤ 1)
    (eZ : ∀ r i, Z r i = 1 / (1 + ∑ t, coef S moleculePerNm3 r (g r) i t * Z r t)) :
    ∃ p, pressure E [ρ] T (xi.map some) 1e-6 = .ok [.fin p] ∧
      |p - quotient (fun r => (fs.map (· r)).sum + Assoc.aassoc S (Z r) + (idealValue T r (significant xi E.massi) - 1))
        (ρ * 1e-6) ρ * T * SaftEnergy.R * ρ ^ 2| ≤ 0.0035 * (∑ i, siteNumber S i) * (ρ * SaftEnergy.R * T) := by
  have heps : SaftEnergy.eps < 1 / 10 ^ 15 := by unfold SaftEnergy.eps; norm_num
  have hR := gasConst_pos
  have hρ0 : 0 < ρ := by linarith
  have hstep : pressureStep 1e-6 ρ = ρ * 1e-6 := by
    unfold pressureStep
    rw [if_neg]
    norm_num at heps ⊢
    linarith
  have hconv := c62_weak S hN hl moleculePerNm3 perNm3_pos.le [(ρ + ρ * 1e-6, g (ρ + ρ * 1e-6)), (ρ - ρ * 1e-6, g (ρ - ρ * 1e-6))]
    (by
      intro r hr
      simp only [List.mem_cons, List.not_mem_nil, or_false] at hr
      rcases hr with rfl | rfl
      · exact ⟨by norm_num; linarith, hg0 _⟩
      · exact ⟨by norm_num; linarith, hg0 _⟩)
    (by
      intro r hr
      simp only [List.mem_cons, List.not_mem_nil, or_false] at hr
      rcases hr with rfl | rfl
      · exact hB _ (.inl rfl)
      · exact hB _ (.inr rfl))
  obtain ⟨p, hp, hb⟩ := c181_pressure_accurate (s := 1e-6) (ρ := ρ) hE hT (by norm_num) hx
    (by linarith [heps, show (1 : ℝ) / 10 ^ 15 < 1 / 2 by norm_num]) fs hf A hA hn g hg hg0 S hS hN (B := 14)
    (m := 1 / (1 + 14)) (tol := 1 / 10 ^ 12) (by norm_num) (by rw [hstep]; exact hB) rfl rfl (by norm_num) Z hZ eZ
    (by rw [hstep]; exact hconv)
  rw [hstep] at hb
  refine ⟨p, hp, hb.trans ?_⟩
  have hs : 0 ≤ ∑ i, siteNumber S i := Finset.sum_nonneg fun i _ => by
    unfold siteNumber
    exact mul_nonneg (mul_nonneg (hN.x _) (hN.ν _ _)) (hN.nk _ _)
  have hnum : (1 / 10 ^ 12 / ((1 / (1 + 14)) ^ 2 - 1 / 10 ^ 12) * (1 / (1 / (1 + 14) - 1 / 10 ^ 12) + 1 / 2) : ℝ) ≤
      0.0035 * 1e-6 := by norm_num
  rw [div_le_iff₀ (by positivity)]
  generalize (1 / 10 ^ 12 / ((1 / (1 + 14)) ^ 2 - 1 / 10 ^ 12) * (1 / (1 / (1 + 14) - 1 / 10 ^ 12) + 1 / 2) : ℝ) = d at hnum
  generalize ∑ i, siteNumber S i = N at hs
  have hk : 0 ≤ SaftEnergy.R * T * ρ ^ 2 * N := by positivity
  have := mul_le_mul_of_nonneg_left hnum hk
  calc SaftEnergy.R * T * ρ ^ 2 * (N * d) = SaftEnergy.R * T * ρ ^ 2 * N * d := by ring
    _ ≤ _ := this
    _ = _ := by ring

/-- Not vacuous: sites of strength 14. -/
example : ∀ q ∈ calcXika (⟨fun _ => 0, fun _ => 0, fun _ => 0, fun _ => 1, fun _ _ => 1, fun _ _ => 1, fun _ _ _ _ => 14,
    .klab fun _ _ _ _ => 1⟩ : Sites ℝ 1) 1 [(1, fun _ _ => 1)], ∃ e, q.2 = some e ∧ e < 1 / 10 ^ 12 :=
  c62_weak _ ⟨by simp, by simp, by simp, by simp, by simp [Vol.at]⟩ (by norm_num) 1 (by norm_num) _ (by simp)
    (by simp [coef, Vol.at])

end Verif.Props
