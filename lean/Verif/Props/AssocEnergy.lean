import Verif.Model.AssocXika
import Mathlib.Analysis.SpecialFunctions.Log.Deriv
import Mathlib.Analysis.Calculus.Deriv.Add
import Mathlib.Analysis.Calculus.Deriv.Mul
import Mathlib.Analysis.SpecialFunctions.Sqrt
import Mathlib.Tactic.FieldSimp
import Mathlib.Tactic.LinearCombination

/-!
# C107: the association energy and the mass-action equations belong to one another

`sites s` below is the number of sites `s` per molecule of the mixture.  The equations that
`calc_Xika` iterates are the equations of chemical equilibrium of the bonds, and the energy of
`saft.py` is the stationary value of the functional whose stationarity conditions they are
(Michelsen and Hendriks).
-/

namespace Verif.Props
open Verif Verif.Assoc

variable {n : ℕ}

/-- The number of sites `s` per molecule. -/
def siteNumber (S : Sites ℝ n) (s : Fin n) : ℝ :=
  S.x (S.comp s) * S.ν (S.comp s) (S.grp s) * S.nk (S.grp s) (S.site s)

/-- The interaction is the same from either side. -/
structure Reciprocal (S : Sites ℝ n) (g : ℕ → ℕ → ℝ) : Prop where
  F : ∀ k l a b, S.F k l a b = S.F l k b a
  vol : ∀ i j k l a b, S.vol.at i j k l a b = S.vol.at j i l k b a
  g : ∀ i j, g i j = g j i

/-- C107: the number of bonds between sites `s` and `t` is the same counted from either side. -/
theorem c107_bonds (S : Sites ℝ n) (M ρ : ℝ) (g : ℕ → ℕ → ℝ) (h : Reciprocal S g) (X : Fin n → ℝ)
    (s t : Fin n) :
    siteNumber S s * X s * (coef S M ρ g s t * X t) = siteNumber S t * X t * (coef S M ρ g t s * X s) := by
  simp only [siteNumber, coef]
  rw [h.F (S.grp t) (S.grp s), h.vol (S.comp t) (S.comp s), h.g (S.comp t) (S.comp s)]
  ring

/-- C107: at a solution the sites that are bonded are as many as their bonds. -/
theorem c107_balance (c : Fin n → Fin n → ℝ) (X : Fin n → ℝ) (hX : ∀ s, 0 < X s) (h : rhs c X = X)
    (s : Fin n) : 1 - X s = X s * ∑ t, c s t * X t := by
  have h1 : 1 / (1 + ∑ t, c s t * X t) = X s := congrFun h s
  have hd : 1 + ∑ t, c s t * X t ≠ 0 := by
    intro h0
    rw [h0] at h1
    simp at h1
    exact absurd h1 (hX s).ne
  have : X s * (1 + ∑ t, c s t * X t) = 1 := by rw [← h1]; field_simp
  linarith

/-- The functional whose stationary value is the association energy. -/
noncomputable def qAssoc (N : Fin n → ℝ) (c : Fin n → Fin n → ℝ) (X : Fin n → ℝ) : ℝ :=
  (∑ s, N s * (Real.log (X s) - X s + 1)) - 1 / 2 * ∑ s, ∑ t, N s * c s t * X s * X t

/-- The association energy without the test for sites that do not exist. -/
theorem aassoc_eq (S : Sites ℝ n) (X : Fin n → ℝ) :
    aassoc S X = ∑ s, siteNumber S s * (Real.log (X s) + (1 - X s) / 2) := by
  unfold aassoc siteNumber
  apply Finset.sum_congr rfl
  intro s _
  split_ifs with h
  · rfl
  · have : S.nk (S.grp s) (S.site s) = 0 := by simpa using h
    rw [this]; ring

/-- C107: at a solution the energy of the code is the value of the functional. -/
theorem c107_value (S : Sites ℝ n) (M ρ : ℝ) (g : ℕ → ℕ → ℝ) (X : Fin n → ℝ) (hX : ∀ s, 0 < X s)
    (h : rhs (coef S M ρ g) X = X) :
    aassoc S X = qAssoc (siteNumber S) (coef S M ρ g) X := by
  rw [aassoc_eq, qAssoc, Finset.mul_sum, ← Finset.sum_sub_distrib]
  apply Finset.sum_congr rfl
  intro s _
  have hb := c107_balance _ X hX h s
  have : ∑ t, siteNumber S s * coef S M ρ g s t * X s * X t
      = siteNumber S s * (X s * ∑ t, coef S M ρ g s t * X t) := by
    rw [Finset.mul_sum, Finset.mul_sum]
    exact Finset.sum_congr rfl fun t _ => by ring
  rw [this, ← hb]
  ring

/-- C107: a solution is a stationary point of the functional. -/
theorem c107_stationary (N : Fin n → ℝ) (c : Fin n → Fin n → ℝ)
    (hc : ∀ s t, N s * c s t = N t * c t s) (X : Fin n → ℝ) (hX : ∀ s, 0 < X s) (h : rhs c X = X)
    (V : Fin n → ℝ) : HasDerivAt (fun u => qAssoc N c fun s => X s + u * V s) 0 0 := by
  have hx : ∀ s, HasDerivAt (fun u : ℝ => X s + u * V s) (V s) 0 := fun s => by
    simpa using ((hasDerivAt_id (0 : ℝ)).mul_const (V s)).const_add (X s)
  have h0 : ∀ s, X s + (0 : ℝ) * V s = X s := fun s => by ring
  have d1 : HasDerivAt (fun u : ℝ => ∑ s, N s * (Real.log (X s + u * V s) - (X s + u * V s) + 1))
      (∑ s, N s * (V s / X s - V s)) 0 := by
    apply HasDerivAt.fun_sum
    intro s _
    have hl := (hx s).log (by rw [h0]; exact (hX s).ne')
    rw [h0] at hl
    exact ((hl.sub (hx s)).add_const 1).const_mul (N s)
  have d2 : HasDerivAt (fun u : ℝ => ∑ s, ∑ t, N s * c s t * (X s + u * V s) * (X t + u * V t))
      (∑ s, ∑ t, (N s * c s t * V s * X t + N s * c s t * X s * V t)) 0 := by
    apply HasDerivAt.fun_sum
    intro s _
    apply HasDerivAt.fun_sum
    intro t _
    have := ((hx s).const_mul (N s * c s t)).fun_mul (hx t)
    simpa only [h0] using this
  have hd := d1.sub (d2.const_mul (1 / 2))
  refine HasDerivAt.congr_deriv hd ?_
  have swap : ∑ s, ∑ t, N s * c s t * X s * V t = ∑ s, ∑ t, N s * c s t * V s * X t := by
    rw [Finset.sum_comm]
    refine Finset.sum_congr rfl fun s _ => Finset.sum_congr rfl fun t _ => ?_
    rw [hc t s]; ring
  have e1 : ∑ s, ∑ t, (N s * c s t * V s * X t + N s * c s t * X s * V t)
      = 2 * ∑ s, ∑ t, N s * c s t * V s * X t := by
    rw [two_mul]
    nth_rw 2 [← swap]
    rw [← Finset.sum_add_distrib]
    exact Finset.sum_congr rfl fun s _ => Finset.sum_add_distrib
  rw [e1, ← mul_assoc, one_div_mul_cancel two_ne_zero, one_mul, ← Finset.sum_sub_distrib]
  apply Finset.sum_eq_zero
  intro s _
  have hb := c107_balance c X hX h s
  have : ∑ t, N s * c s t * V s * X t = N s * V s * ∑ t, c s t * X t := by
    rw [Finset.mul_sum]
    exact Finset.sum_congr rfl fun t _ => by ring
  rw [this]
  have hs := (hX s).ne'
  have : ∑ t, c s t * X t = (1 - X s) / X s := by rw [hb]; field_simp
  rw [this]
  field_simp
  ring

/-- C107: the equations the code iterates have the symmetry that the stationarity needs. -/
theorem c107_reciprocal (S : Sites ℝ n) (M ρ : ℝ) (g : ℕ → ℕ → ℝ) (h : Reciprocal S g) (s t : Fin n) :
    siteNumber S s * coef S M ρ g s t = siteNumber S t * coef S M ρ g t s := by
  have := c107_bonds S M ρ g h (fun _ => 1) s t
  simpa using this

/-- C107: without bonds the energy is zero. -/
theorem c107_unbonded (S : Sites ℝ n) : aassoc S (fun _ => 1) = 0 := by
  rw [aassoc_eq]
  simp

/-- C107: when there are sites, the energy is zero only without bonds. -/
theorem c107_zero_iff (S : Sites ℝ n) (hN : ∀ s, 0 < siteNumber S s) (X : Fin n → ℝ)
    (hX : ∀ s, 0 < X s ∧ X s ≤ 1) : aassoc S X = 0 ↔ ∀ s, X s = 1 := by
  rw [aassoc_eq]
  have hle : ∀ s, Real.log (X s) + (1 - X s) / 2 ≤ (X s - 1) / 2 := fun s => by
    have := Real.log_le_sub_one_of_pos (hX s).1
    linarith
  have hnp : ∀ s ∈ Finset.univ, siteNumber S s * (Real.log (X s) + (1 - X s) / 2) ≤ 0 := fun s _ =>
    mul_nonpos_of_nonneg_of_nonpos (hN s).le (by linarith [hle s, (hX s).2])
  rw [Finset.sum_eq_zero_iff_of_nonpos hnp]
  constructor
  · intro h s
    have h1 := h s (Finset.mem_univ s)
    have h2 := (mul_eq_zero.1 h1).resolve_left (hN s).ne'
    have := hle s
    exact le_antisymm (hX s).2 (by linarith)
  · intro h s _
    rw [h s]; simp

/-- C107: along a family of solutions the derivative of the energy with the density is minus one half
of the bonded sites over the density, the interaction being independent of the density. -/
theorem c107_density (N : Fin n → ℝ) (c : Fin n → Fin n → ℝ)
    (hc : ∀ s t, N s * c s t = N t * c t s) (X : ℝ → Fin n → ℝ) (X' : Fin n → ℝ) {ρ : ℝ} (hρ : ρ ≠ 0)
    (hX : ∀ᶠ r in nhds ρ, (∀ s, 0 < X r s) ∧ rhs (fun s t => r * c s t) (X r) = X r)
    (hd : ∀ s, HasDerivAt (fun r => X r s) (X' s) ρ) :
    HasDerivAt (fun r => ∑ s, N s * (Real.log (X r s) + (1 - X r s) / 2))
      (-(∑ s, N s * (1 - X ρ s)) / (2 * ρ)) ρ := by
  have hX0 : ∀ s, 0 < X ρ s := hX.self_of_nhds.1
  have hder : HasDerivAt (fun r => ∑ s, N s * (Real.log (X r s) + (1 - X r s) / 2))
      (∑ s, N s * (X' s / X ρ s - X' s / 2)) ρ := by
    apply HasDerivAt.fun_sum
    intro s _
    have hl := (hd s).log (hX0 s).ne'
    refine HasDerivAt.congr_deriv ((hl.add (((hd s).const_sub 1).div_const 2)).const_mul (N s)) ?_
    ring
  refine HasDerivAt.congr_deriv hder ?_
  have hev : ∀ s, ∀ᶠ r in nhds ρ, 1 - X r s = X r s * (r * ∑ t, c s t * X r t) := fun s => by
    filter_upwards [hX] with r hr
    rw [c107_balance _ (X r) hr.1 hr.2 s, Finset.mul_sum, Finset.mul_sum, Finset.mul_sum]
    exact Finset.sum_congr rfl fun t _ => by ring
  have hb : ∀ s, 1 - X ρ s = X ρ s * (ρ * ∑ t, c s t * X ρ t) := fun s => (hev s).self_of_nhds
  -- the derivative of the equations
  have hS : ∀ s, HasDerivAt (fun r => ∑ t, c s t * X r t) (∑ t, c s t * X' t) ρ := fun s =>
    HasDerivAt.fun_sum fun t _ => (hd t).const_mul (c s t)
  have hlin : ∀ s, -X' s = X' s * (ρ * ∑ t, c s t * X ρ t)
      + X ρ s * ((∑ t, c s t * X ρ t) + ρ * ∑ t, c s t * X' t) := fun s => by
    have e1 : HasDerivAt (fun r => 1 - X r s) (-X' s) ρ := (hd s).const_sub 1
    have e2 : HasDerivAt (fun r => X r s * (r * ∑ t, c s t * X r t))
        (X' s * (ρ * ∑ t, c s t * X ρ t)
          + X ρ s * (1 * (∑ t, c s t * X ρ t) + ρ * ∑ t, c s t * X' t)) ρ :=
      (hd s).mul ((hasDerivAt_id ρ).mul (hS s))
    simpa using (e1.congr_of_eventuallyEq ((hev s).mono fun r hr => hr.symm)).unique e2
  have hsym : ∑ s, N s * (X ρ s * ∑ t, c s t * X' t) = ∑ s, N s * (X' s * ∑ t, c s t * X ρ t) := by
    have l : ∑ s, N s * (X ρ s * ∑ t, c s t * X' t) = ∑ s, ∑ t, N s * c s t * X ρ s * X' t :=
      Finset.sum_congr rfl fun s _ => by
        rw [Finset.mul_sum, Finset.mul_sum]; exact Finset.sum_congr rfl fun t _ => by ring
    have r : ∑ s, N s * (X' s * ∑ t, c s t * X ρ t) = ∑ s, ∑ t, N s * c s t * X' s * X ρ t :=
      Finset.sum_congr rfl fun s _ => by
        rw [Finset.mul_sum, Finset.mul_sum]; exact Finset.sum_congr rfl fun t _ => by ring
    rw [l, r, Finset.sum_comm]
    refine Finset.sum_congr rfl fun s _ => Finset.sum_congr rfl fun t _ => ?_
    rw [hc t s]; ring
  -- abbreviations
  set W : Fin n → ℝ := fun s => ∑ t, c s t * X ρ t with hW
  set W' : Fin n → ℝ := fun s => ∑ t, c s t * X' t with hW'
  have hone : ∀ s, X' s / X ρ s = X' s * (1 + ρ * W s) := fun s => by
    have h1 := hb s
    have hne := (hX0 s).ne'
    rw [div_eq_iff hne]
    have : X ρ s * (1 + ρ * W s) = 1 := by
      have : 1 - X ρ s = X ρ s * (ρ * W s) := h1
      linarith
    calc X' s = X' s * 1 := (mul_one _).symm
      _ = X' s * (X ρ s * (1 + ρ * W s)) := by rw [this]
      _ = X' s * (1 + ρ * W s) * X ρ s := by ring
  have hA : ∑ s, N s * (X' s / X ρ s - X' s / 2)
      = 1 / 2 * ∑ s, N s * X' s + ρ * ∑ s, N s * (X' s * W s) := by
    rw [Finset.mul_sum, Finset.mul_sum, ← Finset.sum_add_distrib]
    refine Finset.sum_congr rfl fun s _ => ?_
    rw [hone s]; ring
  have hB : ∑ s, N s * (1 - X ρ s) = ρ * ∑ s, N s * (X ρ s * W s) := by
    rw [Finset.mul_sum]
    refine Finset.sum_congr rfl fun s _ => ?_
    rw [hb s]; ring
  have hsum : -∑ s, N s * X' s = 2 * (ρ * ∑ s, N s * (X' s * W s)) + ∑ s, N s * (X ρ s * W s) := by
    have e : -∑ s, N s * X' s = (ρ * ∑ s, N s * (X' s * W s)) + ((∑ s, N s * (X ρ s * W s))
        + ρ * ∑ s, N s * (X ρ s * W' s)) := by
      rw [Finset.mul_sum, Finset.mul_sum, ← Finset.sum_add_distrib, ← Finset.sum_add_distrib,
        ← Finset.sum_neg_distrib]
      refine Finset.sum_congr rfl fun s _ => ?_
      have : -X' s = X' s * (ρ * W s) + X ρ s * (W s + ρ * W' s) := hlin s
      linear_combination N s * this
    rw [e, hsym]; ring
  rw [hA, hB]
  generalize (∑ s, N s * X' s) = p at *
  generalize (∑ s, N s * (X' s * W s)) = q at *
  generalize (∑ s, N s * (X ρ s * W s)) = r at *
  field_simp
  linarith

/-! Two sites that bond with each other only, at a point where half of them are bonded. -/

/-- One component, one group, two sites; `F` couples the two. -/
def pairSites : Sites ℝ 2 where
  comp _ := 0
  grp _ := 0
  site s := s.val
  x _ := 1
  ν _ _ := 1
  nk _ _ := 1
  F _ _ a b := if a = b then 0 else 2
  vol := .klab fun _ _ _ _ => 1

example : Reciprocal pairSites (fun _ _ => 1) := by
  constructor
  · intro k l a b; simp only [pairSites, eq_comm]
  · intro i j k l a b; rfl
  · intro i j; rfl

example : rhs (coef pairSites 1 1 fun _ _ => 1) (fun _ => 1 / 2) = fun _ => 1 / 2 := by
  funext s
  fin_cases s <;> simp [rhs, coef, pairSites, Vol.at, Fin.sum_univ_two] <;> norm_num

example : ∀ s, siteNumber pairSites s = 1 := fun s => by simp [siteNumber, pairSites]

/-- The solution of the equation of one site that bonds with itself, as a function of the density. -/
noncomputable def selfBond (r : ℝ) : Fin 1 → ℝ := fun _ => (Real.sqrt (1 + 8 * r) - 1) / (4 * r)

example : ∀ᶠ r in nhds (1 : ℝ), (∀ s, 0 < selfBond r s) ∧
    rhs (fun _ _ => r * 2) (selfBond r) = selfBond r := by
  filter_upwards [lt_mem_nhds (show (0 : ℝ) < 1 by norm_num)] with r hr
  have hw : Real.sqrt (1 + 8 * r) ^ 2 = 1 + 8 * r := Real.sq_sqrt (by linarith)
  have hw1 : 1 < Real.sqrt (1 + 8 * r) := by
    rw [Real.lt_sqrt (by norm_num)]; linarith
  have hpos : ∀ s, 0 < selfBond r s := fun s => div_pos (by linarith) (by linarith)
  refine ⟨hpos, funext fun s => ?_⟩
  have hp := hpos s
  simp only [rhs, Finset.univ_unique, Finset.sum_singleton]
  have hx : selfBond r default = selfBond r s := rfl
  rw [hx, div_eq_iff (by positivity)]
  simp only [selfBond]
  generalize Real.sqrt (1 + 8 * r) = w at *
  field_simp
  nlinarith

example : ∃ d, HasDerivAt (fun r => selfBond r 0) d 1 := by
  have h1 : HasDerivAt (fun r : ℝ => 1 + 8 * r) (8 * 1) 1 :=
    ((hasDerivAt_id (1 : ℝ)).const_mul 8).const_add 1
  have h2 := (h1.sqrt (by norm_num)).sub_const 1
  exact ⟨_, h2.div ((hasDerivAt_id (1 : ℝ)).const_mul 4) (by norm_num)⟩

end Verif.Props
