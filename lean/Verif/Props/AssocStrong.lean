import Verif.Props.AssocContribution

/-!
# C181: strongly associating fluids

The iteration makes at most 500 steps at each density and starts the next density where it stopped.  The pressure compares the
energies at two densities that differ by two millionths, so what the iteration still moves between them counts as pressure.
-/

namespace Verif.Props
open Verif Verif.Assoc Verif.SaftEnergy

/-- The iteration for one kind of sites with the factor `a / b`, on numerators and denominators; the flag says that no step was
damped. -/
def strongRun (a b : ℕ) : ℕ → ℕ → ℕ → ℕ × ℕ × Bool
  | 0, p, q => (p, q, true)
  | f + 1, p, q =>
    let D := b * q + a * p
    let d := (b * q * q - p * D) + (p * D - b * q * q)
    if d * 10 ^ 12 < q * D then (p, q, true)
    else if d > 1000 * (p * D) then (p, q, false)
    else strongRun a b f (b * q) D

private theorem strong_iter (a b f p q : ℕ) (ha : 0 < a) (hb : 0 < b) (hp : 0 < p) (hq : 0 < q)
    (h : (strongRun a b f p q).2.2 = true) :
    (iter (n := 1) (fun _ _ => (a : ℝ) / b) (1 / 10 ^ 12) (1 / 10) f fun _ => (p : ℝ) / q).1 =
      fun _ => ((strongRun a b f p q).1 : ℝ) / (strongRun a b f p q).2.1 := by
  induction f generalizing p q with
  | zero => simp [iter, strongRun]
  | succ f ih =>
    have hp' : (0 : ℝ) < p := by exact_mod_cast hp
    have hq' : (0 : ℝ) < q := by exact_mod_cast hq
    have ha' : (0 : ℝ) < a := by exact_mod_cast ha
    have hb' : (0 : ℝ) < b := by exact_mod_cast hb
    have hD : 0 < b * q + a * p := by positivity
    obtain ⟨D, hDe⟩ : ∃ D, D = b * q + a * p := ⟨_, rfl⟩
    have hD0 : 0 < D := by omega
    have hD' : (0 : ℝ) < D := by exact_mod_cast hD0
    have hDc : (D : ℝ) = b * q + a * p := by rw [hDe]; push_cast; rfl
    have hnew : rhs (fun _ _ : Fin 1 => (a : ℝ) / b) (fun _ => (p : ℝ) / q) = fun _ => ((b * q : ℕ) : ℝ) / D := by
      funext s
      simp only [rhs, Finset.univ_unique, Finset.sum_singleton]
      rw [hDc]
      push_cast
      field_simp
    obtain ⟨d, hde⟩ : ∃ d, d = (b * q * q - p * D) + (p * D - b * q * q) := ⟨_, rfl⟩
    have hobj : obj (fun _ : Fin 1 => ((b * q : ℕ) : ℝ) / D) (fun _ => (p : ℝ) / q) = d / (q * D) := by
      simp only [obj, Finset.univ_unique, Finset.sum_singleton]
      have e : ((b * q : ℕ) : ℝ) / D - p / q = ((b * q * q : ℕ) - (p * D : ℕ) : ℝ) / (q * D) := by
        push_cast
        field_simp
      rw [e, abs_div, abs_of_pos (mul_pos hq' hD')]
      congr 1
      rcases Nat.le_total (b * q * q) (p * D) with h | h
      · rw [hde, Nat.sub_eq_zero_of_le h, zero_add, Nat.cast_sub h, abs_of_nonpos]
        · ring
        · have : ((b * q * q : ℕ) : ℝ) ≤ (p * D : ℕ) := by exact_mod_cast h
          linarith
      · rw [hde, Nat.sub_eq_zero_of_le h, add_zero, Nat.cast_sub h, abs_of_nonneg]
        have : ((p * D : ℕ) : ℝ) ≤ (b * q * q : ℕ) := by exact_mod_cast h
        linarith
    have htest : obj (fun _ : Fin 1 => ((b * q : ℕ) : ℝ) / D) (fun _ => (p : ℝ) / q) < 1 / 10 ^ 12 ↔ d * 10 ^ 12 < q * D := by
      rw [hobj, div_lt_div_iff₀ (mul_pos hq' hD') (by norm_num), one_mul]
      exact_mod_cast Iff.rfl
    have hdamp : obj (fun _ : Fin 1 => ((b * q : ℕ) : ℝ) / D) (fun _ => (p : ℝ) / q) / vmax (fun _ : Fin 1 => (p : ℝ) / q) > 1000 ↔
        d > 1000 * (p * D) := by
      have hv : vmax (fun _ : Fin 1 => (p : ℝ) / q) = p / q := by simp [vmax]
      rw [hobj, hv, gt_iff_lt, gt_iff_lt, show (d : ℝ) / (q * D) / (p / q) = d / (p * D) by field_simp,
        lt_div_iff₀ (mul_pos hp' hD')]
      exact_mod_cast Iff.rfl
    rw [strongRun] at h ⊢
    rw [iter]
    simp only [← hDe, ← hde] at h ⊢
    rw [hnew]
    by_cases h1 : d * 10 ^ 12 < q * D
    · rw [if_pos (htest.2 h1), if_pos h1]
    · rw [if_neg fun hh => h1 (htest.1 hh)]
      rw [if_neg h1] at h ⊢
      by_cases h2 : d > 1000 * (p * D)
      · rw [if_pos h2] at h
        exact absurd h (by simp)
      · rw [if_neg h2] at h ⊢
        have hu : update (1 / 10) (fun _ : Fin 1 => (p : ℝ) / q) (fun _ => ((b * q : ℕ) : ℝ) / D) =
            fun _ => ((b * q : ℕ) : ℝ) / D := by
          unfold update
          rw [if_neg fun hh => h2 (hdamp.1 hh)]
        rw [hu]
        have := ih (b * q) D (by positivity) hD0 h
        split <;> rename_i hh <;> rw [hh] at this <;> exact this

private theorem strong_iter' (a b f p q : ℕ) (ha : 0 < a) (hb : 0 < b) (hp : 0 < p) (hq : 0 < q) (w : ℕ × ℕ × Bool)
    (hw : w = strongRun a b f p q) (h : w.2.2 = true) :
    (iter (n := 1) (fun _ _ => (a : ℝ) / b) (1 / 10 ^ 12) (1 / 10) f fun _ => (p : ℝ) / q).1 =
      fun _ => (w.1 : ℝ) / w.2.1 := by
  subst hw
  exact strong_iter a b f p q ha hb hp hq h

private def firstRun : ℕ × ℕ × Bool := strongRun 1000001 500 500 1 2
private def secondRun : ℕ × ℕ × Bool := strongRun 999999 500 500 firstRun.1 firstRun.2.1

private theorem strong_flags : firstRun.2.2 = true ∧ secondRun.2.2 = true ∧ 0 < firstRun.1 ∧ 0 < firstRun.2.1 ∧
    0 < secondRun.2.1 := by decide +kernel

private theorem strong_first : 221126368 * firstRun.2.1 ≤ 10 ^ 10 * firstRun.1 ∧
    10 ^ 10 * firstRun.1 ≤ 221126369 * firstRun.2.1 := by decide +kernel

private theorem strong_second : 221120882 * secondRun.2.1 ≤ 10 ^ 10 * secondRun.1 ∧
    10 ^ 10 * secondRun.1 ≤ 221120883 * secondRun.2.1 := by decide +kernel

/-- The fractions after 500 steps with the factor 2000.002, and after 500 more with 1999.998. -/
private theorem strong_fractions :
    ∃ x y : ℝ, (iter (n := 1) (fun _ _ => (1000001 : ℝ) / 500) (1 / 10 ^ 12) (1 / 10) 500 fun _ => 1 / 2).1 = (fun _ => x) ∧
      (iter (n := 1) (fun _ _ => (999999 : ℝ) / 500) (1 / 10 ^ 12) (1 / 10) 500 fun _ => x).1 = (fun _ => y) ∧
      0.0221126368 ≤ x ∧ x ≤ 0.0221126369 ∧ 0.0221120882 ≤ y ∧ y ≤ 0.0221120883 := by
  obtain ⟨h1, h2, h3, h4, h5⟩ := strong_flags
  have d1 := firstRun.eq_1
  have d2 := secondRun.eq_1
  obtain ⟨a1, a2⟩ := strong_first
  obtain ⟨b1, b2⟩ := strong_second
  generalize firstRun = w at d1 d2 h1 h2 h3 h4 h5 a1 a2 b1 b2
  generalize secondRun = w' at d2 h2 h5 b1 b2
  have e1 := strong_iter' 1000001 500 500 1 2 (by norm_num) (by norm_num) (by norm_num) (by norm_num) w d1 h1
  have e2 := strong_iter' 999999 500 500 w.1 w.2.1 (by norm_num) (by norm_num) h3 h4 w' d2 h2
  have q1 : (0 : ℝ) < w.2.1 := by exact_mod_cast h4
  have q2 : (0 : ℝ) < w'.2.1 := by exact_mod_cast h5
  have a1' : (221126368 : ℝ) * w.2.1 ≤ 10 ^ 10 * w.1 := by exact_mod_cast a1
  have a2' : (10 : ℝ) ^ 10 * w.1 ≤ 221126369 * w.2.1 := by exact_mod_cast a2
  have b1' : (221120882 : ℝ) * w'.2.1 ≤ 10 ^ 10 * w'.1 := by exact_mod_cast b1
  have b2' : (10 : ℝ) ^ 10 * w'.1 ≤ 221120883 * w'.2.1 := by exact_mod_cast b2
  refine ⟨(w.1 : ℝ) / w.2.1, (w'.1 : ℝ) / w'.2.1, ?_, ?_, ?_, ?_, ?_, ?_⟩
  · rw [← e1]; norm_num
  · rw [← e2]; norm_num
  · rw [le_div_iff₀ q1]; linarith
  · rw [div_le_iff₀ q1]; linarith
  · rw [le_div_iff₀ q2]; linarith
  · rw [div_le_iff₀ q2]; linarith

/-- One kind of self-associating sites with a correlation that is one at all densities. -/
noncomputable def strongData (ε v : ℝ) : AssocContribution.Data 1 where
  n := 1
  comp := fun _ => 0
  grp := fun _ => 0
  site := fun _ => 0
  ν := fun _ _ => 1
  nk := fun _ _ => 1
  ε := fun _ _ _ _ => ε
  vol := fun _ => .klab fun _ _ _ _ => v
  gr := fun _ _ _ => .ok fun _ _ => 1

/-- A fluid with these sites and no other residual contribution. -/
noncomputable def strongEos (ε v : ℝ) : Eos where
  n := 1
  massi := [1]
  method := "Abroglie"
  res := []
  assoc := some (AssocContribution.aassoc (strongData ε v))

private theorem coef_strong (ε v T r : ℝ) :
    coef (AssocContribution.sites (strongData ε v) T [some 1]) moleculePerNm3 r (fun _ _ => 1) =
      fun _ _ => moleculePerNm3 * r * (mayer ε T * v) := by
  funext s t
  simp [coef, strongData, AssocContribution.sites, Vol.at]

private theorem aassoc_strong (ε v T : ℝ) (X : Fin 1 → ℝ) :
    Assoc.aassoc (AssocContribution.sites (strongData ε v) T [some 1]) X = Real.log (X 0) + (1 - X 0) / 2 := by
  simp [Assoc.aassoc, strongData, AssocContribution.sites]

private theorem strong_gap {x y z t : ℝ} (hx0 : 0 < x) (hy0 : 0 < y) (z0 : 0 < z) (t0 : 0 < t)
    (ez : z * (1 + 1000001 / 500 * z) = 1) (et : t * (1 + 999999 / 500 * t) = 1)
    (x1 : 0.0221126368 ≤ x) (x2 : x ≤ 0.0221126369) (y1 : 0.0221120882 ≤ y) (y2 : y ≤ 0.0221120883) :
    0.000025 < (Real.log x + (1 - x) / 2 - (Real.log y + (1 - y) / 2)) -
      (Real.log z + (1 - z) / 2 - (Real.log t + (1 - t) / 2)) := by
  have z1 : z ≤ 0.0221120664 := by
    by_contra h
    norm_num at h
    nlinarith
  have z2 : 0.0221120663 ≤ z := by
    by_contra h
    norm_num at h
    nlinarith
  have t1 : 0.0221120882 ≤ t := by
    by_contra h
    norm_num at h
    nlinarith
  have t2 : t ≤ 0.0221120883 := by
    by_contra h
    norm_num at h
    nlinarith
  have l1 : 0.0000257 ≤ Real.log x - Real.log z := by
    rw [← Real.log_div hx0.ne' z0.ne']
    have := Real.one_sub_inv_le_log_of_pos (div_pos hx0 z0)
    rw [inv_div] at this
    refine le_trans ?_ this
    rw [le_sub_iff_add_le, ← le_sub_iff_add_le', div_le_iff₀ hx0]
    norm_num at x1 z1 ⊢
    linarith
  have l2 : Real.log y - Real.log t ≤ 0.00000001 := by
    rw [← Real.log_div hy0.ne' t0.ne']
    refine (Real.log_le_sub_one_of_pos (div_pos hy0 t0)).trans ?_
    rw [sub_le_iff_le_add, div_le_iff₀ t0]
    norm_num at y2 t1 ⊢
    linarith
  norm_num at l1 l2 x2 z2 y1 t2 ⊢
  linarith

/-- **C181**, where it fails although all strengths are positive: sites of which 97.8 percent are bonded (a factor of 2000).  At
every temperature and density there is a bonding volume with that factor, and the pressure that is returned for it exceeds the
pressure with the solution of the equations of mass action by more than twelve times the pressure of an ideal gas, because
the iteration is still moving when its 500 steps are used up. -/
theorem c181_violated_strong (T ρ ε : ℝ) (hT : 0 < T) (hρ : 1 ≤ ρ) (hε : 0 < ε) :
    ∃ v, 0 < v ∧ ∃ p, pressure (strongEos ε v) [ρ] T [some 1] 1e-6 = .ok [.fin p] ∧
      ∀ Z : ℝ → Fin 1 → ℝ, (∀ r i, 0 < Z r i ∧ Z r i ≤ 1) →
        (∀ r i, Z r i = 1 / (1 + ∑ t, coef (AssocContribution.sites (strongData ε v) T [some 1]) moleculePerNm3 r
          (fun _ _ => 1) i t * Z r t)) →
        12 * (ρ * SaftEnergy.R * T) < p - quotient (fun r =>
          Assoc.aassoc (AssocContribution.sites (strongData ε v) T [some 1]) (Z r) +
            (idealValue T r (significant [1] [1]) - 1)) (ρ * 1e-6) ρ * T * SaftEnergy.R * ρ ^ 2 := by
  have hF : 0 < mayer ε T := by
    unfold mayer
    have : 0 < ε / T := div_pos hε hT
    have := Real.add_one_lt_exp this.ne'
    linarith
  have hM := perNm3_pos
  have hR := gasConst_pos
  have hρ0 : 0 < ρ := by linarith
  have heps : SaftEnergy.eps < 1 / 10 ^ 15 := by unfold SaftEnergy.eps; norm_num
  obtain ⟨v, hv⟩ : ∃ v, v = 2000 / (moleculePerNm3 * ρ * mayer ε T) := ⟨_, rfl⟩
  have hstep : pressureStep 1e-6 ρ = ρ * 1e-6 := by
    unfold pressureStep
    rw [if_neg]
    norm_num at heps ⊢
    linarith
  have hk : ∀ x : ℝ, moleculePerNm3 * (ρ * x) * (mayer ε T * v) = 2000 * x := by
    intro x
    rw [hv]
    field_simp
  have hup : moleculePerNm3 * (ρ + ρ * 1e-6) * (mayer ε T * v) = 1000001 / 500 := by
    rw [show ρ + ρ * 1e-6 = ρ * (1 + 1e-6) by ring, hk]; norm_num
  have hdn : moleculePerNm3 * (ρ - ρ * 1e-6) * (mayer ε T * v) = 999999 / 500 := by
    rw [show ρ - ρ * 1e-6 = ρ * (1 - 1e-6) by ring, hk]; norm_num
  have hpos1 : 0 < ρ + ρ * 1e-6 := by norm_num; linarith
  have hpos2 : 0 < ρ - ρ * 1e-6 := by norm_num; linarith
  obtain ⟨x, y, hx, hy, x1, x2, y1, y2⟩ := strong_fractions
  have hx0 : 0 < x := by norm_num at x1; linarith
  have hy0 : 0 < y := by norm_num at y1; linarith
  have hcalc : calcXika (AssocContribution.sites (strongData ε v) T [some 1]) moleculePerNm3
      [(ρ + ρ * 1e-6, fun _ _ => 1), (ρ - ρ * 1e-6, fun _ _ => 1)] =
      [iter (fun _ _ => (1000001 : ℝ) / 500) (1 / 10 ^ 12) (1 / 10) 500 fun _ => 1 / 2,
        iter (fun _ _ => (999999 : ℝ) / 500) (1 / 10 ^ 12) (1 / 10) 500 fun _ => x] := by
    simp only [calcXika, List.map_cons, List.map_nil, coef_strong, hup, hdn, sweep, hx]
  have hassoc : AssocContribution.aassoc (strongData ε v) [ρ + ρ * 1e-6, ρ - ρ * 1e-6] T [some 1] =
      .ok [.fin (Real.log x + (1 - x) / 2), .fin (Real.log y + (1 - y) / 2)] := by
    rw [c181_fractions (strongData ε v) _ T [some 1] rfl (by simp) (by
      intro r hr
      simp only [List.mem_cons, List.not_mem_nil, or_false] at hr
      rcases hr with rfl | rfl
      · exact hpos1.le
      · exact hpos2.le) (fun _ _ _ => 1) (fun _ _ => rfl)]
    rw [List.map_cons, List.map_cons, List.map_nil, hcalc, List.map_cons, List.map_cons, List.map_nil, hx, hy,
      c181_energy _ _ fun _ => hx0, c181_energy _ _ fun _ => hy0, aassoc_strong, aassoc_strong]
  have hE : GoodEos (strongEos ε v) [1] := ⟨rfl, rfl, by simp [strongEos], rfl⟩
  have hne : ρ - ρ * 1e-6 ≠ ρ + ρ * 1e-6 := by
    intro h
    norm_num at h
    linarith
  obtain ⟨p, hp, hpe⟩ := c181_pressure (δ := 0) (s := 1e-6) (ρ := ρ) hE hT (by norm_num) (by
    intro a ha w hw
    simp only [List.map_cons, List.map_nil, List.mem_singleton] at ha
    rw [ha] at hw
    rw [← Option.some.inj hw]
    norm_num) (by linarith [heps, show (1 : ℝ) / 10 ^ 15 < 1 / 2 by norm_num]) [] .nil _ rfl
    (fun r => if r = ρ + ρ * 1e-6 then Real.log x + (1 - x) / 2 else Real.log y + (1 - y) / 2) _ _
    (by rw [hstep]; exact hassoc) (by rw [hstep, if_pos rfl, sub_self, abs_zero])
    (by rw [hstep, if_neg hne, sub_self, abs_zero])
  refine ⟨v, by rw [hv]; positivity, p, hp, fun Z hZ eZ => ?_⟩
  rw [mul_zero, zero_div] at hpe
  have hpe := sub_eq_zero.1 (abs_eq_zero.1 (le_antisymm hpe (abs_nonneg _)))
  rw [hstep] at hpe
  rw [hpe]
  simp only [quotient, if_pos, if_neg hne, List.map_nil, List.sum_nil, aassoc_strong]
  have hm : (strongEos ε v).massi = [1] := rfl
  rw [hm]
  obtain ⟨z, hz⟩ : ∃ z, z = Z (ρ + ρ * 1e-6) 0 := ⟨_, rfl⟩
  obtain ⟨t, ht⟩ : ∃ t, t = Z (ρ - ρ * 1e-6) 0 := ⟨_, rfl⟩
  have ez := eZ (ρ + ρ * 1e-6) 0
  have et := eZ (ρ - ρ * 1e-6) 0
  have z0 := (hZ (ρ + ρ * 1e-6) 0).1
  have t0 := (hZ (ρ - ρ * 1e-6) 0).1
  simp only [coef_strong, Finset.univ_unique, Finset.sum_singleton, Fin.default_eq_zero, hup, hdn] at ez et
  rw [← hz] at ez z0 ⊢
  rw [← ht] at et t0 ⊢
  rw [eq_div_iff (by positivity)] at ez et
  have key := strong_gap hx0 hy0 z0 t0 ez et x1 x2 y1 y2
  generalize Real.log x + (1 - x) / 2 = A at key ⊢
  generalize Real.log y + (1 - y) / 2 = B at key ⊢
  generalize Real.log z + (1 - z) / 2 = C at key ⊢
  generalize Real.log t + (1 - t) / 2 = D at key ⊢
  generalize idealValue T (ρ + ρ * 1e-6) (significant [1] [1]) = i1
  generalize idealValue T (ρ - ρ * 1e-6) (significant [1] [1]) = i2
  have e : (0 + A + (i1 - 1) - (0 + B + (i2 - 1))) / (2 * (ρ * 1e-6)) * T * SaftEnergy.R * ρ ^ 2 -
      (C + (i1 - 1) - (D + (i2 - 1))) / (2 * (ρ * 1e-6)) * T * SaftEnergy.R * ρ ^ 2 =
      (ρ * SaftEnergy.R * T) * ((A - B - (C - D)) * 500000) := by
    field_simp
    ring
  rw [e]
  have hRT : 0 < ρ * SaftEnergy.R * T := by positivity
  have : 12 < (A - B - (C - D)) * 500000 := by
    norm_num at key
    linarith
  nlinarith

/-- Not vacuous: at 300 K and one mole per litre. -/
example : ∃ v, 0 < v ∧ ∃ p, pressure (strongEos 2000 v) [1000] 300 [some 1] 1e-6 = .ok [.fin p] := by
  obtain ⟨v, h, p, hp, -⟩ := c181_violated_strong 300 1000 2000 (by norm_num) (by norm_num) (by norm_num)
  exact ⟨v, h, p, hp⟩

end Verif.Props
