import Verif.Props.MergeMie
import Verif.Props.SWLimits
import Verif.Props.ContactSW

/-!
# C124 for the square-well fluid, C125: guard, order and symmetry of its terms
-/

namespace Verif.Props
open Verif Verif.Saft Verif.GammaSW Verif.CombiningRules Verif.SWTerms

variable {n n' m m' : ℕ}

/-- The description whose component `i'` is the substance `f i'`. -/
def relistSW (f : Fin n' → Fin n) (P : SWell n m) : SWell n' m :=
  { P with g := relistG f P.g, rings := fun i => P.rings (f i) }

/-- **C124** (components, square-well monomers): every term, hard spheres included. -/
theorem c124_components_sw (f : Fin n' → Fin n) (M ρ T : ℝ) (P : SWell n m) (x' : Fin n' → ℝ) :
    ahs M (relistSW f P) ρ x' = ahs M P ρ (collected f x') ∧
    a1 M (relistSW f P) ρ T x' = a1 M P ρ T (collected f x') ∧
    a2 M (relistSW f P) ρ T x' = a2 M P ρ T (collected f x') := by
  refine ⟨?_, ?_, ?_⟩
  · unfold ahs zeta relistSW; rw [relist_cmol, relist_xskl]
  · unfold a1 relistSW; rw [relist_cmol, relist_xskl]; rfl
  · unfold a2 relistSW; rw [relist_cmol, relist_xskl]; rfl

/-- **C124** (components, the guard and the list of densities). -/
theorem c124_components_sw_monomer (f : Fin n' → Fin n) (M T : ℝ) (ρs : List ℝ) (P : SWell n m) (x' : Fin n' → ℝ) :
    amonomer M (relistSW f P) ρs T x' = amonomer M P ρs T (collected f x') := by
  have h : ∀ ρ, amono M (relistSW f P) ρ T x' = amono M P ρ T (collected f x') := fun ρ => by
    obtain ⟨h1, h2, h3⟩ := c124_components_sw f M ρ T P x'
    unfold amono; rw [h1, h2, h3]
  unfold amonomer
  simp only [h]
  rw [show cmol2seg (relistSW f P).g x' = cmol2seg P.g (collected f x') from relist_cmol f P.g x',
    show xskl (relistSW f P).g x' = xskl P.g (collected f x') from relist_xskl f P.g x']
  rfl

/-- **C124** (components, square-well chains). -/
theorem c124_components_sw_chain (f : Fin n' → Fin n) (M ρ T : ℝ) (P : SWell n m) (x' : Fin n' → ℝ) :
    achain M (relistSW f P) ρ T x' = achain M P ρ T (collected f x') := by
  have hz : ∀ q, zeta M (relistSW f P) ρ x' q = zeta M P ρ (collected f x') q := fun q => by
    unfold zeta relistSW; rw [relist_cmol, relist_xskl]
  have h : ∀ i, gsw M (relistSW f P) ρ T x' i i = gsw M P ρ T (collected f x') (f i) (f i) := fun i => by
    unfold gsw
    rw [hz, hz]
    simp only [epsij, lamij, sigij, crossOf, if_true]
    rfl
  have e : ∀ i, collected f x' i * beadsum P i * Real.log (gsw M P ρ T (collected f x') i i)
      = collected f x' i * (beadsum P i * Real.log (gsw M P ρ T (collected f x') i i)) := fun i => by ring
  unfold achain
  simp only [h, e]
  rw [collected_sum f x' fun i => beadsum P i * Real.log (gsw M P ρ T (collected f x') i i)]
  congr 1
  refine Finset.sum_congr rfl fun i _ => ?_
  rw [mul_assoc]; rfl

/-- The parameter set under the new names: equal parameters for all names of a group. -/
def renameSW (h : Fin m' → Fin m) (ν' : Fin n → Fin m' → ℝ) (P : SWell n m) : SWell n m' where
  g := renameG h ν' P.g
  ε := fun k l => P.ε (h k) (h l)
  σ := fun k l => P.σ (h k) (h l)
  lam := fun k l => P.lam (h k) (h l)
  rings := P.rings

/-- **C124** (groups, square-well monomers). -/
theorem c124_groups_sw (h : Fin m' → Fin m) (ν' : Fin n → Fin m' → ℝ) (P : SWell n m) (hν : Renames h ν' P.g)
    (M ρ T : ℝ) (x : Fin n → ℝ) (hx : ∀ i, 0 ≤ x i) (h0 : ∀ i k, 0 ≤ ν' i k) (hV : ∀ k, 0 ≤ P.g.V k)
    (hS : ∀ k, 0 ≤ P.g.S k) :
    ahs M (renameSW h ν' P) ρ x = ahs M P ρ x ∧ a1 M (renameSW h ν' P) ρ T x = a1 M P ρ T x ∧
    a2 M (renameSW h ν' P) ρ T x = a2 M P ρ T x := by
  have hC : cmol2seg (renameSW h ν' P).g x = cmol2seg P.g x := rename_cmol hν x
  have hm : ∀ q, zeta M (renameSW h ν' P) ρ x q = zeta M P ρ x q := fun q =>
    rename_moment hν x hx h0 hV hS M ρ P.σ q
  have hp : packing M ρ (cmol2seg P.g x) (xskl (renameSW h ν' P).g x) (renameSW h ν' P).σ
      = packing M ρ (cmol2seg P.g x) (xskl P.g x) P.σ := by
    have := hm 3
    unfold zeta at this
    rw [hC] at this
    exact this
  refine ⟨?_, ?_, ?_⟩
  · unfold ahs; rw [funext hm]
  · unfold a1 afirst
    rw [hC, hp]
    congr 1
    have e := rename_pairs hν x fun k l => ρ * M * alphakl P k l
      * g0HS (P.lam k l) (packing M ρ (cmol2seg P.g x) (xskl P.g x) P.σ)
    calc _ = ∑ k, ∑ l, ρ * M * alphakl P (h k) (h l)
          * g0HS (P.lam (h k) (h l)) (packing M ρ (cmol2seg P.g x) (xskl P.g x) P.σ)
          * xskl (renameG h ν' P.g) x k l :=
          Finset.sum_congr rfl fun k _ => Finset.sum_congr rfl fun l _ => by
            show ρ * M * (xskl (renameG h ν' P.g) x k l * alphakl P (h k) (h l)) * g0HS (P.lam (h k) (h l)) _ = _
            ring
      _ = _ := e
      _ = _ := Finset.sum_congr rfl fun k _ => Finset.sum_congr rfl fun l _ => by ring
  · unfold a2 asecond
    rw [hC]
    simp only [hp]
    congr 1
    set z := packing M ρ (cmol2seg P.g x) (xskl P.g x) P.σ
    have e := rename_pairs hν x fun k l => khs z * (cmol2seg P.g x * ρ * M) / 2 * (P.ε k l * alphakl P k l)
      * (g0HS (P.lam k l) z + z * dzetaEff (P.lam k l) z * (2.5 - zetaEff (P.lam k l) z) / (1 - zetaEff (P.lam k l) z) ^ 4)
    calc _ = ∑ k, ∑ l, khs z * (cmol2seg P.g x * ρ * M) / 2 * (P.ε (h k) (h l) * alphakl P (h k) (h l))
          * (g0HS (P.lam (h k) (h l)) z + z * dzetaEff (P.lam (h k) (h l)) z * (2.5 - zetaEff (P.lam (h k) (h l)) z)
            / (1 - zetaEff (P.lam (h k) (h l)) z) ^ 4) * xskl (renameG h ν' P.g) x k l :=
          Finset.sum_congr rfl fun k _ => Finset.sum_congr rfl fun l _ => by
            show khs z * (cmol2seg P.g x * ρ * M) / 2
              * (P.ε (h k) (h l) * alphakl P (h k) (h l) * xskl (renameG h ν' P.g) x k l)
              * (g0HS (P.lam (h k) (h l)) z + z * dzetaEff (P.lam (h k) (h l)) z * (2.5 - zetaEff (P.lam (h k) (h l)) z)
                / (1 - zetaEff (P.lam (h k) (h l)) z) ^ 4) = _
            ring
      _ = _ := e
      _ = _ := Finset.sum_congr rfl fun k _ => Finset.sum_congr rfl fun l _ => by ring

private theorem zfrac_renameSW {h : Fin m' → Fin m} {ν' : Fin n → Fin m' → ℝ} {P : SWell n m} (hν : Renames h ν' P.g)
    (i : Fin n) : ∑ k, zki (renameSW h ν' P) i k = ∑ k, zki P i k ∧
      zfrac P i = collected h (zfrac (renameSW h ν' P) i) := by
  have e : ∑ k, zki (renameSW h ν' P) i k = ∑ k, zki P i k := by
    have := collected_sum h (ν' i) fun k => P.g.V k * P.g.S k
    have e1 : ∀ k, zki P i k = collected h (ν' i) k * (P.g.V k * P.g.S k) := fun k => by
      rw [zki, hν i k]; ring
    have e2 : ∀ k, zki (renameSW h ν' P) i k = ν' i k * (P.g.V (h k) * P.g.S (h k)) := fun k => by
      simp only [zki, renameSW, renameG]; ring
    simp only [e1, e2, this]
  refine ⟨e, ?_⟩
  funext k
  unfold zfrac collected
  rw [e, zki, hν i k, collected, Finset.sum_mul, Finset.sum_mul, Finset.sum_div]
  refine Finset.sum_congr rfl fun k' _ => ?_
  split
  · next hk => simp only [zki, renameSW, renameG, hk]
  · simp

/-- **C124** (groups, square-well contact values and chains). -/
theorem c124_groups_sw_chain (h : Fin m' → Fin m) (ν' : Fin n → Fin m' → ℝ) (P : SWell n m) (hν : Renames h ν' P.g)
    (M ρ T : ℝ) (x : Fin n → ℝ) (hx : ∀ i, 0 ≤ x i) (h0 : ∀ i k, 0 ≤ ν' i k) (hV : ∀ k, 0 ≤ P.g.V k)
    (hS : ∀ k, 0 ≤ P.g.S k) :
    (∀ i j, gsw M (renameSW h ν' P) ρ T x i j = gsw M P ρ T x i j) ∧
    achain M (renameSW h ν' P) ρ T x = achain M P ρ T x := by
  have hm : ∀ q, zeta M (renameSW h ν' P) ρ x q = zeta M P ρ x q := fun q =>
    rename_moment hν x hx h0 hV hS M ρ P.σ q
  have he : ∀ i, epsii (renameSW h ν' P) i = epsii P i := fun i => by
    have := collected_sum2 h (zfrac (renameSW h ν' P) i) P.ε
    rw [← (zfrac_renameSW hν i).2] at this
    exact this.symm
  have hl : ∀ i, lamii (renameSW h ν' P) i = lamii P i := fun i => by
    have := collected_sum2 h (zfrac (renameSW h ν' P) i) P.lam
    rw [← (zfrac_renameSW hν i).2] at this
    exact this.symm
  have hs : ∀ i, sigii (renameSW h ν' P) i = sigii P i := fun i => by
    have := collected_sum h (zfrac (renameSW h ν' P) i) fun k => P.σ k k ^ 3
    rw [← (zfrac_renameSW hν i).2] at this
    unfold sigii
    rw [this]
    rfl
  have hb : compBead (renameSW h ν' P) = compBead P := by
    funext i p
    simp only [compBead, he, hl, hs]
  have hg : ∀ i j, gsw M (renameSW h ν' P) ρ T x i j = gsw M P ρ T x i j := fun i j => by
    unfold gsw epsij lamij sigij
    rw [hm, hm, hb, funext he, funext hl, funext hs]
  refine ⟨hg, ?_⟩
  have hbs : ∀ i, beadsum (renameSW h ν' P) i = beadsum P i := fun i => by
    unfold beadsum
    congr 1
    exact (zfrac_renameSW hν i).1
  simp only [achain, hg, hbs]

/-! ## C125 -/

/-- **C125** (symmetry): the contact value of two components does not depend on their order. -/
theorem c125_contact_symmetric (M ρ T : ℝ) (P : SWell n m) (x : Fin n → ℝ) (i j : Fin n) :
    gsw M P ρ T x i j = gsw M P ρ T x j i := by
  have hc : ∀ (s : Fin n → ℝ) (r : Fin n → Fin n → ℝ), crossOf s r i j = crossOf s r j i := fun s r => by
    unfold crossOf
    by_cases hij : i = j
    · subst hij; rfl
    · rw [if_neg hij, if_neg (Ne.symm hij)]
      rcases lt_or_gt_of_ne hij with h | h
      · rw [if_pos h, if_neg (not_lt.mpr h.le)]
      · rw [if_neg (not_lt.mpr h.le), if_pos h]
  unfold gsw
  rw [show epsij P i j = epsij P j i from hc _ _, show lamij P i j = lamij P j i from hc _ _]
  simp only [gSW, c109_ghs_symmetric _ _ (sigij P i i)]

/-- **C125** (sizes of pairs): the size of a pair of components is the mean of their sizes, whichever comes first. -/
theorem c125_pair_size (P : SWell n m) (i j : Fin n) : sigij P i j = (sigii P i + sigii P j) / 2 := by
  unfold sigij crossOf
  split
  · next h => subst h; ring
  · split
    · simp [mean, compBead]
    · simp [mean, compBead, add_comm]

/-- **C125** (ranges of pairs): the range of a pair times the sum of the sizes is the sum of the reaches of the two
components, so it lies between their ranges. -/
theorem c125_pair_range (P : SWell n m) (i j : Fin n) (hi : 0 < sigii P i) (hj : 0 < sigii P j) :
    lamij P i j * (sigii P i + sigii P j) = lamii P i * sigii P i + lamii P j * sigii P j ∧
      min (lamii P i) (lamii P j) ≤ lamij P i j ∧ lamij P i j ≤ max (lamii P i) (lamii P j) := by
  have h : lamij P i j * (sigii P i + sigii P j) = lamii P i * sigii P i + lamii P j * sigii P j := by
    unfold lamij crossOf
    split
    · next h => subst h; ring
    · split
      · simp only [weightedMean, compBead, reduceIte, String.reduceEq]
        field_simp
      · simp only [weightedMean, compBead, reduceIte, String.reduceEq]
        rw [div_mul_eq_mul_div, div_eq_iff (by positivity)]
        ring
  refine ⟨h, ?_, ?_⟩
  · have h1 := min_le_left (lamii P i) (lamii P j)
    have h2 := min_le_right (lamii P i) (lamii P j)
    by_contra hlt
    nlinarith
  · have h1 := le_max_left (lamii P i) (lamii P j)
    have h2 := le_max_right (lamii P i) (lamii P j)
    by_contra hlt
    nlinarith

/-- **C125** (depths of pairs): for two components of one size and one range the depth is the geometric mean. -/
theorem c125_pair_depth (P : SWell n m) (i j : Fin n) (hs : sigii P j = sigii P i) (hl : lamii P j = lamii P i)
    (h0 : 0 < sigii P i) (h1 : 1 < lamii P i) (he : 0 ≤ epsii P i) :
    epsij P i j = √(epsii P i * epsii P j) := by
  have key : ∀ a b : ℝ, √(a * b) * (√(sigii P i ^ 3 * sigii P i ^ 3) * 8 / (sigii P i + sigii P i) ^ 3) *
      (√((lamii P i ^ 3 - 1) * (lamii P i ^ 3 - 1)) /
        (((lamii P i * sigii P i + lamii P i * sigii P i) / (sigii P i + sigii P i)) ^ 3 - 1)) = √(a * b) := fun a b => by
    have hl3 : 0 < lamii P i ^ 3 - 1 := by nlinarith [sq_nonneg (lamii P i - 1)]
    rw [Real.sqrt_mul_self (by positivity), Real.sqrt_mul_self hl3.le,
      show (lamii P i * sigii P i + lamii P i * sigii P i) / (sigii P i + sigii P i) = lamii P i by field_simp,
      div_self hl3.ne', show sigii P i ^ 3 * 8 / (sigii P i + sigii P i) ^ 3 = 1 by field_simp; ring]
    ring
  unfold epsij crossOf
  split
  · next h => subst h; rw [Real.sqrt_mul_self he]
  · split
    · simp only [squareWellBerthelot, weightedMean, compBead, reduceIte, String.reduceEq, hs, hl]
      exact key _ _
    · simp only [squareWellBerthelot, weightedMean, compBead, reduceIte, String.reduceEq, hs, hl]
      rw [key, mul_comm]

/-- The hypotheses hold for two components that are the same molecule. -/
example : epsij (relistSW (fun _ : Fin 2 => 0) swDimer) 0 1 =
    √(epsii (relistSW (fun _ : Fin 2 => 0) swDimer) 0 * epsii (relistSW (fun _ : Fin 2 => 0) swDimer) 1) := by
  refine c125_pair_depth _ _ _ rfl rfl ?_ (swDimer_phys.lamii_gt 0) (swDimer_phys.epsii_pos 0).le
  refine Real.rpow_pos_of_pos ?_ _
  have : (∑ k, zfrac swDimer 0 k) = 1 := swDimer_phys.zfrac_sum 0
  have h : ∀ k, 0 ≤ zfrac swDimer 0 k := swDimer_phys.sizes.zfrac_nonneg 0
  refine (Finset.sum_nonneg fun k _ => mul_nonneg (h k) (pow_nonneg (swDimer_phys.σ k).le 3)).lt_of_ne fun h0 => ?_
  have h0 := (Finset.sum_eq_zero_iff_of_nonneg fun k _ =>
    mul_nonneg (h k) (pow_nonneg (swDimer_phys.σ k).le 3)).1 h0.symm
  have : ∀ k, zfrac swDimer 0 k = 0 := fun k => by
    rcases mul_eq_zero.1 (h0 k (Finset.mem_univ k)) with h | h
    · exact h
    · exact absurd h (pow_pos (swDimer_phys.σ k) 3).ne'
  simp [this] at *

/-- **C125** (bonds): a linear molecule of `s` segments has `s - 1` bonds, and every ring adds one; the chain term of a
pure fluid is minus the number of bonds times the logarithm of the contact value. -/
theorem c125_bonds (M ρ T s r : ℝ) (P : SWell 1 m) (hr : P.rings 0 = r) (hs : ∑ k, P.g.ν 0 k * P.g.V k * P.g.S k = s) :
    achain M P ρ T (fun _ => 1) = -(s - 1 + r) * Real.log (gsw M P ρ T (fun _ => 1) 0 0) := by
  simp only [achain, beadsum, Fin.sum_univ_one, Fin.isValue, hr, hs]
  ring

/-- **C125** (one density): refused exactly above the packing fraction 0.65 of the guard, or when negative. -/
theorem c125_single (M ρ T : ℝ) (P : SWell n m) (x : Fin n → ℝ) :
    amonomer M P [ρ] T x =
      if densityMax M (cmol2seg P.g x) (xskl P.g x) P.σ 0.65 < ρ ∨ ρ < 0 then .error .valueError
      else .ok [amono M P ρ T x] := by
  classical
  unfold amonomer
  by_cases h1 : densityMax M (cmol2seg P.g x) (xskl P.g x) P.σ 0.65 < ρ
  · simp [h1]
  · by_cases h2 : ρ < 0 <;> simp [h1, h2]

/-- **C125** (list): what comes out is the energy at every density, in order. -/
theorem c125_pointwise_partial (M T : ℝ) (ρs out : List ℝ) (P : SWell n m) (x : Fin n → ℝ)
    (h : amonomer M P ρs T x = .ok out) : out = ρs.map fun ρ => amono M P ρ T x := by
  classical
  unfold amonomer at h
  split at h
  · cases h
  · split at h
    · cases h
    · exact (Except.ok.inj h).symm

/-- **C125** (negative densities): refused wherever they stand. -/
theorem c125_negative (M T : ℝ) (ρs : List ℝ) (P : SWell n m) (x : Fin n → ℝ) (ρ : ℝ) (hρ : ρ ∈ ρs) (h0 : ρ < 0) :
    amonomer M P ρs T x = .error .valueError := by
  classical
  unfold amonomer
  split
  · rfl
  · rw [if_pos]
    simp only [List.any_eq_true, decide_eq_true_eq]
    exact ⟨ρ, hρ, h0⟩

/-- **C125 violated** (mixed list): a density above the limit is refused alone but passes beside an admissible one. -/
theorem c125_violated_mixed (M T ρ ρ' : ℝ) (P : SWell n m) (x : Fin n → ℝ) (h0 : 0 ≤ ρ) (h0' : 0 ≤ ρ')
    (h : ρ ≤ densityMax M (cmol2seg P.g x) (xskl P.g x) P.σ 0.65)
    (h' : densityMax M (cmol2seg P.g x) (xskl P.g x) P.σ 0.65 < ρ') :
    amonomer M P [ρ'] T x = .error .valueError ∧
    amonomer M P [ρ, ρ'] T x = .ok [amono M P ρ T x, amono M P ρ' T x] := by
  classical
  constructor
  · rw [c125_single, if_pos (Or.inl h')]
  · unfold amonomer
    simp [not_lt.mpr h, not_lt.mpr h0, not_lt.mpr h0']

/-- At a physical state there are densities on both sides of the limit. -/
example (M : ℝ) (hM : 0 < M) : ∃ ρ ρ' : ℝ,
    amonomer M swDimer [ρ'] 300 (fun _ => 1) = .error .valueError ∧
    amonomer M swDimer [ρ, ρ'] 300 (fun _ => 1)
      = .ok [amono M swDimer ρ 300 (fun _ => 1), amono M swDimer ρ' 300 (fun _ => 1)] := by
  have hC := swDimer_phys.cmol_pos
  have hσ : ∀ k l, 0 ≤ swDimer.σ k l := fun k l => by
    rw [swDimer_phys.σm]; have := swDimer_phys.σ k; have := swDimer_phys.σ l; linarith
  have h0 : 0 ≤ densityMax M (cmol2seg swDimer.g fun _ => 1) (xskl swDimer.g fun _ => 1) swDimer.σ 0.65 := by
    have hS : 0 ≤ ∑ k, ∑ l, xskl swDimer.g (fun _ => 1) k l * swDimer.σ k l ^ 3 :=
      Finset.sum_nonneg fun k _ => Finset.sum_nonneg fun l _ =>
        mul_nonneg (mul_nonneg (swDimer_phys.xsk_nonneg k) (swDimer_phys.xsk_nonneg l)) (pow_nonneg (hσ k l) 3)
    have := Real.pi_pos
    unfold densityMax
    positivity
  exact ⟨0, _, c125_violated_mixed M 300 0 _ swDimer _ le_rfl (by linarith) h0 (lt_add_one _)⟩

end Verif.Props
