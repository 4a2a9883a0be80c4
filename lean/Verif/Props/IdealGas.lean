import Verif.Props.PengRobinsonDensity

/-!
# Where the vapour search assumes an ideal gas (C159)
-/

namespace Verif.Props
open Verif Verif.PhaseDensity Verif.PengRobinson Set

/-! ## Fugacity coefficients at low density -/

/-- The factor `Z (1 - u)` under the logarithm, with `t = a ρ / (R T)` and `u = b ρ`. -/
private theorem gas_factor {u t : ℝ} (hu : 0 < u) (hu1 : u ≤ 1 / 10) (ht : 0 < t) (ht1 : t ≤ 1 / 2) :
    |1 / (1 - u) - t / (1 + 2 * u - u ^ 2) - 1| ≤ 10 / 9 * u + t ∧ 0 < 1 / (1 - u) - t / (1 + 2 * u - u ^ 2) ∧
      |Real.log (1 / (1 - u) - t / (1 + 2 * u - u ^ 2)) + Real.log (1 - u)| ≤ 2 * t := by
  have h1 : 0 < 1 - u := by linarith
  have hd : 1 ≤ 1 + 2 * u - u ^ 2 := by nlinarith
  have hd0 : 0 < 1 + 2 * u - u ^ 2 := by linarith
  have hq : t / (1 + 2 * u - u ^ 2) ≤ t := div_le_self ht.le hd
  have hq0 : 0 < t / (1 + 2 * u - u ^ 2) := div_pos ht hd0
  have hi : 1 / (1 - u) = 1 + u / (1 - u) := by field_simp; ring
  have hu0 : 0 ≤ u / (1 - u) := div_nonneg hu.le h1.le
  have hu9 : u / (1 - u) ≤ 10 / 9 * u := by rw [div_le_iff₀ h1]; nlinarith
  set z := 1 / (1 - u) - t / (1 + 2 * u - u ^ 2) with hz
  have hzpos : 0 < z := by rw [hz, hi]; linarith
  refine ⟨abs_le.2 ⟨by rw [hz, hi]; nlinarith, by rw [hz, hi]; linarith⟩, hzpos, ?_⟩
  rw [← Real.log_mul hzpos.ne' h1.ne']
  have hw : z * (1 - u) = 1 - t / (1 + 2 * u - u ^ 2) * (1 - u) := by
    rw [hz, sub_mul, one_div_mul_cancel h1.ne']
  have hw1 : z * (1 - u) ≤ 1 := by rw [hw]; nlinarith [mul_pos hq0 h1]
  have hw0 : 1 - t ≤ z * (1 - u) := by rw [hw]; nlinarith [mul_nonneg hq0.le hu.le]
  have hwp : 0 < z * (1 - u) := mul_pos hzpos h1
  have hlog : Real.log (z * (1 - u)) ≤ 0 := Real.log_nonpos hwp.le hw1
  have hlow := Real.one_sub_inv_le_log_of_pos hwp
  have hinv : (z * (1 - u))⁻¹ ≤ 1 + 2 * t := by
    rw [inv_le_iff_one_le_mul₀ hwp]
    nlinarith
  rw [abs_le]
  exact ⟨by linarith, by linarith⟩

/-- The logarithm that stems from the attraction. -/
private theorem gas_log {u : ℝ} (hu : 0 < u) (hu1 : u ≤ 1 / 10) :
    0 ≤ Real.log ((1 + (1 + √2) * u) / (1 + (1 - √2) * u)) ∧
      Real.log ((1 + (1 + √2) * u) / (1 + (1 - √2) * u)) ≤ 20 / 19 * (2 * √2 * u) := by
  have s2 : √2 ^ 2 = 2 := Real.sq_sqrt (by norm_num)
  have s0 : 0 < √2 := Real.sqrt_pos.2 (by norm_num)
  have s1 : √2 < 3 / 2 := by nlinarith
  have hden : 19 / 20 ≤ 1 + (1 - √2) * u := by nlinarith
  have hden0 : 0 < 1 + (1 - √2) * u := by linarith
  have hsu : 0 < √2 * u := mul_pos s0 hu
  constructor
  · refine Real.log_nonneg ?_
    rw [le_div_iff₀ hden0]
    nlinarith
  · have hpos : 0 < (1 + (1 + √2) * u) / (1 + (1 - √2) * u) := div_pos (by nlinarith) hden0
    refine (Real.log_le_sub_one_of_pos hpos).trans ?_
    rw [sub_le_iff_le_add, div_le_iff₀ hden0]
    nlinarith [mul_le_mul_of_nonneg_left hden hsu.le]

/-- **C159** (low densities): at a density at which the repulsive volume fills at most a tenth of the volume and the attraction is at most half of `R T`, the logarithms of the
fugacity coefficients are at most the density times a constant of the mixture, so that they vanish with the density. -/
theorem c159_low {n : ℕ} (R T : ℝ) (p : Par n) (x : Fin n → ℝ) (ρ : ℝ) (i : Fin n) (hRT : 0 < R * T) (hρ : 0 < ρ)
    (hb : 0 < bmix p x) (ha : 0 < amix p x) (hbi : 0 ≤ p.bi i) (hu : bmix p x * ρ ≤ 1 / 10) (ht : amix p x * ρ ≤ R * T / 2) :
    0 < pressure R T p x ρ ∧ |lnPhi R T p x (pressure R T p x ρ) ρ i| ≤
      ρ * (2 * p.bi i + (2 * amix p x + 3 * (amix p x * p.bi i / bmix p x + |arow p x i|)) / (R * T)) := by
  have hu0 : 0 < bmix p x * ρ := mul_pos hb hρ
  have ht0 : 0 < amix p x * ρ / (R * T) := div_pos (mul_pos ha hρ) hRT
  have ht1 : amix p x * ρ / (R * T) ≤ 1 / 2 := by rw [div_le_iff₀ hRT]; linarith
  have hZ : pressure R T p x ρ / (R * T * ρ) =
      1 / (1 - bmix p x * ρ) - amix p x * ρ / (R * T) / (1 + 2 * (bmix p x * ρ) - (bmix p x * ρ) ^ 2) := by
    unfold pressure pressureAB
    have e : (1 + bmix p x * ρ) + ρ * bmix p x * (1 - bmix p x * ρ) = 1 + 2 * (bmix p x * ρ) - (bmix p x * ρ) ^ 2 := by ring
    rw [e]
    have h1 : 1 - bmix p x * ρ ≠ 0 := by intro h; linarith
    have h2 : 1 + 2 * (bmix p x * ρ) - (bmix p x * ρ) ^ 2 ≠ 0 := by intro h; nlinarith
    generalize 1 - bmix p x * ρ = d at h1
    generalize 1 + 2 * (bmix p x * ρ) - (bmix p x * ρ) ^ 2 = e at h2
    generalize R * T = w at hRT
    have := hRT.ne'
    field_simp
  obtain ⟨g1, g2, g3⟩ := gas_factor hu0 hu ht0 ht1
  rw [← hZ] at g1 g2 g3
  have hP : 0 < pressure R T p x ρ := by
    have := mul_pos g2 (mul_pos hRT hρ)
    rwa [div_mul_cancel₀ _ (mul_pos hRT hρ).ne'] at this
  refine ⟨hP, ?_⟩
  have hc := c15_lnPhi_closed R T p x ρ i hRT hρ hb (by linarith) ha.ne' hP
  obtain ⟨l0, l1⟩ := gas_log hu0 hu
  have s0 : 0 < √2 := Real.sqrt_pos.2 (by norm_num)
  set L := Real.log ((1 + (1 + √2) * (bmix p x * ρ)) / (1 + (1 - √2) * (bmix p x * ρ)))
  set Z := pressure R T p x ρ / (R * T * ρ)
  set lnφ := lnPhi R T p x (pressure R T p x ρ) ρ i
  have hβ : 0 ≤ p.bi i / bmix p x := div_nonneg hbi hb.le
  have e : lnφ = p.bi i / bmix p x * (Z - 1) - (Real.log Z + Real.log (1 - bmix p x * ρ)) +
      (amix p x * p.bi i / bmix p x - 2 * arow p x i) * (1 / (2 * √2 * bmix p x * (R * T)) * L) := by
    linear_combination hc
  have hL : |1 / (2 * √2 * bmix p x * (R * T)) * L| ≤ 20 / 19 * (ρ / (R * T)) := by
    have hc0 : 0 < 2 * √2 * bmix p x * (R * T) := by positivity
    rw [abs_of_nonneg (mul_nonneg (one_div_pos.2 hc0).le l0), one_div_mul_eq_div, div_le_iff₀ hc0]
    refine l1.trans (le_of_eq ?_)
    generalize R * T = w at hRT
    have := hRT.ne'
    field_simp
  have hm : |amix p x * p.bi i / bmix p x - 2 * arow p x i| ≤ amix p x * p.bi i / bmix p x + 2 * |arow p x i| := by
    refine (abs_sub _ _).trans (le_of_eq ?_)
    rw [abs_of_nonneg (div_nonneg (mul_nonneg ha.le hbi) hb.le), abs_mul, abs_of_pos (two_pos)]
  have hm0 : 0 ≤ amix p x * p.bi i / bmix p x := div_nonneg (mul_nonneg ha.le hbi) hb.le
  have hw : 0 < ρ / (R * T) := div_pos hρ hRT
  have t1 : |p.bi i / bmix p x * (Z - 1)| ≤ p.bi i / bmix p x * (10 / 9 * (bmix p x * ρ) + amix p x * ρ / (R * T)) := by
    rw [abs_mul, abs_of_nonneg hβ]; exact mul_le_mul_of_nonneg_left g1 hβ
  have t2 := (abs_mul _ _).le.trans (mul_le_mul hm hL (abs_nonneg _) (by positivity))
  have e1 : p.bi i / bmix p x * (10 / 9 * (bmix p x * ρ) + amix p x * ρ / (R * T)) =
      10 / 9 * (p.bi i * ρ) + amix p x * p.bi i / bmix p x * (ρ / (R * T)) := by
    generalize R * T = w at hRT
    have := hRT.ne'
    field_simp
  rw [e1] at t1
  have e2 : amix p x * ρ / (R * T) = amix p x * (ρ / (R * T)) := mul_div_assoc _ _ _
  rw [e2] at g3
  have e3 : ρ * (2 * p.bi i + (2 * amix p x + 3 * (amix p x * p.bi i / bmix p x + |arow p x i|)) / (R * T)) =
      2 * (p.bi i * ρ) + (2 * amix p x + 3 * (amix p x * p.bi i / bmix p x + |arow p x i|)) * (ρ / (R * T)) := by
    rw [mul_add, mul_div_assoc', mul_comm ρ (_ + _), mul_div_assoc]; ring
  rw [e3, e]
  have hbρ : 0 ≤ p.bi i * ρ := mul_nonneg hbi hρ.le
  have h3 := abs_add_le (p.bi i / bmix p x * (Z - 1) - (Real.log Z + Real.log (1 - bmix p x * ρ)))
    ((amix p x * p.bi i / bmix p x - 2 * arow p x i) * (1 / (2 * √2 * bmix p x * (R * T)) * L))
  have h4 := abs_sub (p.bi i / bmix p x * (Z - 1)) (Real.log Z + Real.log (1 - bmix p x * ρ))
  nlinarith [mul_nonneg hm0 hw.le, mul_nonneg (abs_nonneg (arow p x i)) hw.le]

/-! ## The search -/

/-- **C159** (when an ideal gas is assumed): there is no root on the curve, the curve does not lie below the pressure at the point where this is tested, and all
pressures on it are positive; or there are two roots and the least squares fit raises an exception. -/
theorem c159_flag {K : Type} [Field K] [LinearOrder K] (I : Iso K) (r : Option K) :
    vaporDensity I = .ok (r, 4) ↔ r = none ∧ I.nanRoot = false ∧
      ((I.roots = [] ∧ 0 ≤ I.spline I.endDensity ∧ 0 < I.minP) ∨
        ∃ r₁ r₂, I.roots = [r₁, r₂] ∧ 0 ≤ I.spline r₁ + I.P ∧ ∃ e, I.lsq (1 / I.vroot) I.feps (1 / (11 / 10 * r₂)) = .error e) := by
  have key : ∀ s b, vaporSeed I = .ok (s, b) → (vaporDensity I = .ok (r, 4) ↔ s = (r, 4) ∧ r = none) ∨ ∃ ρ, s = (some ρ, 4) := by
    rintro ⟨_ | ρ, f⟩ b h
    · left
      simp only [vaporDensity, h, bind, Except.bind, Except.ok.injEq, Prod.mk.injEq]
      constructor
      · rintro ⟨rfl, rfl⟩; exact ⟨⟨rfl, rfl⟩, rfl⟩
      · rintro ⟨h, -⟩; exact h
    · by_cases h4 : f = 4
      · right; exact ⟨ρ, by rw [h4]⟩
      left
      simp only [vaporDensity, h, bind, Except.bind, Prod.mk.injEq]
      constructor
      · intro k
        split_ifs at k
        · cases hv : vaporRefine I b ρ <;> simp [hv] at k
          exact absurd k.2 h4
        · simp at k; exact absurd k.2 h4
      · rintro ⟨⟨-, k⟩, -⟩; exact absurd k h4
  cases hn : I.nanRoot
  · rcases hr : I.roots with _ | ⟨r₁, _ | ⟨r₂, _ | ⟨r₃, l⟩⟩⟩
    · by_cases h1 : I.spline I.endDensity < 0
      · cases hl : I.lsq I.rhoFirst I.feps I.rhoMax with
        | error e =>
          rcases key _ _ (by simp only [vaporSeed, hn, hr, h1, if_true, hl]; rfl) with k | ⟨_, k⟩
          · rw [k]; simp [h1]
          · simp at k
        | ok ρ =>
          rcases key _ _ (by simp only [vaporSeed, hn, hr, h1, if_true, hl]; rfl) with k | ⟨_, k⟩
          · rw [k]
            constructor
            · rintro ⟨k1, k2⟩; rw [k2] at k1; simp at k1
            · rintro ⟨-, -, ⟨-, k1, -⟩ | ⟨_, _, k1, -⟩⟩
              · exact absurd h1 (not_lt.2 k1)
              · simp at k1
          · simp at k; split_ifs at k <;> simp at k
      · by_cases h2 : 0 < I.minP
        · rcases key _ _ (by simp only [vaporSeed, hn, hr, h1, h2, if_true, if_false]; rfl) with k | ⟨_, k⟩
          · rw [k]
            simp only [lastRoot, hr, List.getLast?_nil, Prod.mk.injEq]
            exact ⟨fun e => ⟨e.2, trivial, Or.inl ⟨trivial, not_lt.1 h1, h2⟩⟩, fun e => ⟨⟨e.1.symm, trivial⟩, e.1⟩⟩
          · simp [lastRoot, hr] at k
        · rcases key _ _ (by simp only [vaporSeed, hn, hr, h1, h2, if_false]; rfl) with k | ⟨_, k⟩
          · rw [k]; simp [h2]
          · simp at k
    · cases ho : oneRoot I r₁ with
      | error e => simp [vaporDensity, vaporSeed, hn, hr, ho, bind, Except.bind]
      | ok s =>
        have hs : s.2 ≠ 4 := by
          simp only [oneRoot] at ho
          split_ifs at ho <;> cases ho <;> simp
        rcases key _ _ (by simp only [vaporSeed, hn, hr, ho, bind, Except.bind]; rfl) with k | ⟨_, k⟩
        · rw [k]
          simp only [List.cons_ne_nil, List.cons.injEq, reduceCtorEq, and_false, false_and, exists_false, or_self, iff_false]
          rintro ⟨rfl, -⟩; exact hs rfl
        · rw [k] at hs; exact absurd rfl hs
    · by_cases h1 : I.spline r₁ + I.P < 0
      · rcases key _ _ (by simp only [vaporSeed, hn, hr, h1, if_true]; rfl) with k | ⟨_, k⟩
        · rw [k]; simp [h1]
        · simp at k
      · rcases key _ _ (by simp only [vaporSeed, hn, hr, h1, if_false]; rfl) with k | ⟨_, k⟩
        · rw [k]
          cases hl : I.lsq (1 / I.vroot) I.feps (1 / (11 / 10 * r₂)) with
          | error e =>
            simp only [lastRoot, hr, List.getLast?_cons_cons, List.getLast?_singleton, hl, Prod.mk.injEq]
            exact ⟨fun k => ⟨k.2, trivial, Or.inr ⟨r₁, r₂, rfl, not_lt.1 h1, e, hl⟩⟩, fun k => ⟨⟨k.1.symm, trivial⟩, k.1⟩⟩
          | ok ρ =>
            simp only [lastRoot, hr, List.getLast?_cons_cons, List.getLast?_singleton, hl, Prod.mk.injEq]
            constructor
            · rintro ⟨⟨-, k⟩, -⟩; exact absurd k (by decide)
            · rintro ⟨-, -, ⟨k, -⟩ | ⟨s₁, s₂, k, -, e, k'⟩⟩
              · simp at k
              · simp only [List.cons.injEq, and_true] at k
                rw [← k.2, hl] at k'; cases k'
        · cases hl : I.lsq (1 / I.vroot) I.feps (1 / (11 / 10 * r₂)) <;>
            simp only [lastRoot, hr, List.getLast?_cons_cons, List.getLast?_singleton, hl, Prod.mk.injEq, reduceCtorEq, false_and] at k
          exact absurd k.2 (by decide)
    · rcases key _ _ (by simp only [vaporSeed, hn, hr]; rfl) with k | ⟨_, k⟩
      · rw [k]; simp
      · simp at k
  · rcases key _ _ (by simp only [vaporSeed, hn, if_true]; rfl) with k | ⟨_, k⟩
    · rw [k]; simp
    · simp at k

/-- Without a root a continuous curve stays on one side of the pressure. -/
private theorem one_side {f : ℝ → ℝ} {ρm vlo vhi P : ℝ} {I : Iso ℝ} (E : Exact f ρm vlo vhi P I) (hcont : ContinuousOn f (Ico 0 ρm))
    (hr : I.roots = []) (v w : ℝ) (hv : vlo ≤ v ∧ v ≤ vhi) (hw : vlo ≤ w ∧ w ≤ vhi) (h : P ≤ f (1 / v)) : P < f (1 / w) := by
  by_contra hc
  rw [not_lt] at hc
  have h1 := E.inv hv.1
  have h2 := E.inv hw.1
  have hmem : P ∈ f '' uIcc (1 / w) (1 / v) :=
    intermediate_value_uIcc (hcont.mono fun z hz => ⟨(le_min h2.1.le h1.1.le).trans hz.1, lt_of_le_of_lt hz.2 (max_lt h2.2 h1.2)⟩)
      (Icc_subset_uIcc ⟨hc, h⟩)
  obtain ⟨z, hz, e⟩ := hmem
  have hz0 : 0 < z := lt_of_lt_of_le (lt_min h2.1 h1.1) hz.1
  have : (1 / z) ∈ I.roots := by
    rw [E.roots_mem, one_div_one_div]
    refine ⟨?_, ?_, e⟩
    · rw [le_one_div (E.range.1) hz0]
      exact hz.2.trans (max_le (one_div_le_one_div_of_le E.range.1 hw.1) (one_div_le_one_div_of_le E.range.1 hv.1))
    · have hvhi : 0 < vhi := lt_of_lt_of_le E.range.1 (hv.1.trans hv.2)
      rw [one_div_le hz0 hvhi]
      exact (le_min (one_div_le_one_div_of_le (lt_of_lt_of_le E.range.1 hw.1) hw.2)
        (one_div_le_one_div_of_le (lt_of_lt_of_le E.range.1 hv.1) hv.2)).trans hz.1
  rw [hr] at this
  cases this

/-- **C159** (what is assumed to be an ideal gas): if the search assumes an ideal gas because there is no root, and the number at which it asks the spline lies in the range of volumes,
then the whole curve lies above the pressure, and a density below the lowest one of the curve has the pressure. -/
theorem c159_assumed {f : ℝ → ℝ} {ρm vlo vhi P : ℝ} {I : Iso ℝ} (E : Exact f ρm vlo vhi P I) (hcont : ContinuousOn f (Ico 0 ρm))
    (h0 : f 0 = 0) (hP : 0 < P) (hv : vlo ≤ vhi) (hin : vlo ≤ I.endDensity ∧ I.endDensity ≤ vhi) (hr : I.roots = [])
    (r : Option ℝ) (h : vaporDensity I = .ok (r, 4)) :
    (∀ v, vlo ≤ v → v ≤ vhi → P < f (1 / v)) ∧ ∃ ρ, 0 < ρ ∧ ρ < 1 / vhi ∧ f ρ = P := by
  obtain ⟨-, -, ⟨-, hs, -⟩ | ⟨_, _, k, -⟩⟩ := (c159_flag I r).1 h
  swap
  · rw [hr] at k; cases k
  rw [E.spline _ hin.1 hin.2] at hs
  have all : ∀ v, vlo ≤ v → v ≤ vhi → P < f (1 / v) := fun v h1 h2 => one_side E hcont hr _ v hin ⟨h1, h2⟩ (by linarith)
  refine ⟨all, ?_⟩
  have hi := E.inv hv
  obtain ⟨ρ, hρ, e⟩ := intermediate_value_Icc hi.1.le (hcont.mono fun z hz => ⟨hz.1, lt_of_le_of_lt hz.2 hi.2⟩)
    (show P ∈ Icc _ _ from ⟨by rw [h0]; exact hP.le, (all vhi hv le_rfl).le⟩)
  refine ⟨ρ, lt_of_le_of_ne hρ.1 ?_, lt_of_le_of_ne hρ.2 ?_, e⟩
  · rintro rfl; linarith
  · rintro rfl; exact absurd (all vhi hv le_rfl) (by rw [e]; exact lt_irrefl _)

/-- **C159** (and conversely): if the curve lies above the pressure and its pressures are positive, an ideal gas is assumed: density zero, coefficients one. -/
theorem c159_reported {f : ℝ → ℝ} {ρm vlo vhi P : ℝ} {I : Iso ℝ} (E : Exact f ρm vlo vhi P I) (n : ℕ)
    (hin : vlo ≤ I.endDensity ∧ I.endDensity ≤ vhi) (hmin : 0 < I.minP)
    (h : ∀ v, vlo ≤ v → v ≤ vhi → P < f (1 / v)) (fug : Option ℝ → Except PyErr (List (Option ℝ))) :
    vaporDensity I = .ok (none, 4) ∧
      (vaporDensity I).bind (vaporFugacity n fug) = .ok (List.replicate n (some 1), some 0, 4) := by
  have hr : I.roots = [] := by
    rw [List.eq_nil_iff_forall_not_mem]
    intro v hv
    obtain ⟨h1, h2, h3⟩ := (E.roots_mem v).1 hv
    exact absurd (h v h1 h2) (by rw [h3]; exact lt_irrefl _)
  have hd : vaporDensity I = .ok (none, 4) := by
    refine (c159_flag I none).2 ⟨rfl, E.noNan, Or.inl ⟨hr, ?_, hmin⟩⟩
    rw [E.spline _ hin.1 hin.2]
    linarith [h _ hin.1 hin.2]
  exact ⟨hd, by rw [hd]; exact c34_ideal n fug none⟩

/-- **C159** (the error): where the density search of the cubic equation of state, for any mixture, assumes an ideal gas because there is no root, the mixture has a vapour at this
pressure, less dense than all points of the curve, and the logarithms of its fugacity coefficients are at most the lowest density of the curve times a constant
of the mixture; the search says zero. -/
theorem c159_error {n : ℕ} (R T : ℝ) (p : Par n) (x : Fin n → ℝ) {vlo vhi P : ℝ} {I : Iso ℝ} (hRT : 0 < R * T)
    (hb : 0 < bmix p x) (ha : 0 < amix p x) (hbi : ∀ i, 0 ≤ p.bi i) (hu : bmix p x ≤ vhi / 10) (ht : amix p x ≤ R * T / 2 * vhi)
    (E : Exact (pressure R T p x) (1 / bmix p x) vlo vhi P I) (hP : 0 < P) (hv : vlo ≤ vhi)
    (hin : vlo ≤ I.endDensity ∧ I.endDensity ≤ vhi) (hr : I.roots = []) (r : Option ℝ) (h : vaporDensity I = .ok (r, 4)) :
    ∃ ρ, 0 < ρ ∧ ρ < 1 / vhi ∧ pressure R T p x ρ = P ∧ ∀ i, |lnPhi R T p x P ρ i| ≤
      1 / vhi * (2 * p.bi i + (2 * amix p x + 3 * (amix p x * p.bi i / bmix p x + |arow p x i|)) / (R * T)) := by
  have hvhi : 0 < vhi := lt_of_lt_of_le E.range.1 hv
  obtain ⟨-, ρ, h0, h1, e⟩ := c159_assumed E (pr_continuous R T _ _ hRT hb) (by simp [pressure, pressureAB]) hP hv hin hr r h
  have hle : ρ * vhi ≤ 1 := by rw [lt_div_iff₀ hvhi] at h1; exact h1.le
  refine ⟨ρ, h0, h1, e, fun i => ?_⟩
  have hlow := (c159_low R T p x ρ i hRT h0 hb ha (hbi i) (by nlinarith) (by nlinarith)).2
  rw [e] at hlow
  refine hlow.trans (mul_le_mul_of_nonneg_right h1.le ?_)
  have := hbi i
  positivity

/-- **C159** (default range): if the curve reaches down to two millionths of close packing, as with the default of the smallest density, the coefficients of a pure substance of
the library between half and all of its critical temperature, with `κ` up to one, differ from one by less than `4 · 10⁻⁴` in the logarithm. -/
theorem c159_default (R κ Tc Pc T : ℝ) {vlo vhi P : ℝ} {I : Iso ℝ} (hR : 0 < R) (hTc : 0 < Tc) (hPc : 0 < Pc) (hk0 : 0 ≤ κ) (hk1 : κ ≤ 1)
    (hT : Tc / 2 ≤ T) (hT' : T ≤ Tc) (hvhi : 500000 * (0.07779607 * (R * Tc / Pc)) ≤ vhi)
    (E : Exact (pressure R T (pureSubstance R κ Tc Pc T) (fun _ => 1)) (1 / bmix (pureSubstance R κ Tc Pc T) (fun _ => 1)) vlo vhi P I)
    (hP : 0 < P) (hv : vlo ≤ vhi) (hin : vlo ≤ I.endDensity ∧ I.endDensity ≤ vhi) (hr : I.roots = []) (r : Option ℝ)
    (h : vaporDensity I = .ok (r, 4)) :
    ∃ ρ, 0 < ρ ∧ ρ < 1 / vhi ∧ pressure R T (pureSubstance R κ Tc Pc T) (fun _ => 1) ρ = P ∧
      |lnPhi R T (pureSubstance R κ Tc Pc T) (fun _ => 1) P ρ 0| ≤ 4 / 10 ^ 4 := by
  have hT0 : 0 < T := lt_of_lt_of_le (by positivity) hT
  have hRT : 0 < R * T := mul_pos hR hT0
  have hq1 : T / Tc ≤ 1 := (div_le_one hTc).2 hT'
  have hq2 : 1 / 2 ≤ T / Tc := by rw [le_div_iff₀ hTc]; linarith
  have hs1 : √(T / Tc) ≤ 1 := Real.sqrt_le_one.2 hq1
  have hs2 : 7 / 10 ≤ √(T / Tc) := Real.le_sqrt_of_sq_le (by norm_num; linarith)
  have hκ0 : 0 ≤ κ * (1 - √(T / Tc)) := mul_nonneg hk0 (by linarith)
  have hκ1 : κ * (1 - √(T / Tc)) ≤ 3 / 10 := by nlinarith
  obtain ⟨hb, ha, hk⟩ := pureSubstance_pos R κ Tc Pc T hR hTc hPc (by linarith)
  obtain ⟨e1, e2⟩ := pure_mix (pureSubstance R κ Tc Pc T) ha hk
  have e3 : arow (pureSubstance R κ Tc Pc T) (fun _ => 1) 0 = amix (pureSubstance R κ Tc Pc T) (fun _ => 1) := by
    simp [arow, amix]
  have hB0 : 0 < R * Tc / Pc := by positivity
  have hbb : (pureSubstance R κ Tc Pc T).bi 0 = 0.07779607 * (R * Tc / Pc) := rfl
  have haa : (pureSubstance R κ Tc Pc T).ai 0 * (pureSubstance R κ Tc Pc T).alpha 0 ≤
      20 * (0.07779607 * (R * Tc / Pc)) * (R * T) := by
    have hα : (1 + κ * (1 - √(T / Tc))) ^ 2 ≤ 1.69 := by nlinarith
    change 0.45723553 * (R * Tc) ^ 2 / Pc * (1 + κ * (1 - √(T / Tc))) ^ 2 ≤ _
    have e : 0.45723553 * (R * Tc) ^ 2 / Pc = 0.45723553 * (R * Tc / Pc) * (R * Tc) := by
      field_simp
    rw [e]
    have hX : 0 < 0.45723553 * (R * Tc / Pc) * (R * Tc) := by positivity
    refine (mul_le_mul_of_nonneg_left hα hX.le).trans ?_
    have : R * Tc ≤ 2 * (R * T) := by nlinarith
    nlinarith [mul_le_mul_of_nonneg_left this hB0.le]
  set q := pureSubstance R κ Tc Pc T
  have hvp : 0 < vhi := lt_of_lt_of_le E.range.1 hv
  have hbv : q.bi 0 ≤ vhi / 500000 := by rw [hbb]; linarith
  rw [← hbb] at haa
  have hav : q.ai 0 * q.alpha 0 ≤ 20 * (vhi / 500000) * (R * T) :=
    haa.trans (mul_le_mul_of_nonneg_right (by linarith) hRT.le)
  obtain ⟨ρ, h0, h1, e, hb'⟩ := c159_error R T q (fun _ => 1) hRT (by rw [e1]; exact hb) (by rw [e2]; exact ha)
    (fun i => by rw [Subsingleton.elim i 0]; exact hb.le) (by rw [e1]; linarith) (by rw [e2]; nlinarith [mul_pos hRT hvp]) E hP hv hin hr r h
  refine ⟨ρ, h0, h1, e, (hb' 0).trans ?_⟩
  rw [e3, e2, e1, abs_of_pos ha, mul_div_assoc, div_self hb.ne', mul_one]
  have hq : (2 * (q.ai 0 * q.alpha 0) + 3 * (q.ai 0 * q.alpha 0 + q.ai 0 * q.alpha 0)) / (R * T) ≤ 160 * (vhi / 500000) := by
    rw [div_le_iff₀ hRT]; linarith
  rw [one_div_mul_eq_div, div_le_iff₀ hvp]
  linarith

/-- The hypotheses of `c159_error` and `c159_default` are met by every substance of the library at its critical temperature. -/
theorem c159_default_exists (R κ Tc Pc : ℝ) (hR : 0 < R) (hTc : 0 < Tc) (hPc : 0 < Pc) :
    ∃ (vlo vhi P : ℝ) (I : Iso ℝ), 500000 * (0.07779607 * (R * Tc / Pc)) ≤ vhi ∧
      Exact (pressure R Tc (pureSubstance R κ Tc Pc Tc) (fun _ => 1)) (1 / bmix (pureSubstance R κ Tc Pc Tc) (fun _ => 1)) vlo vhi P I ∧
      0 < P ∧ vlo ≤ vhi ∧ (vlo ≤ I.endDensity ∧ I.endDensity ≤ vhi) ∧ I.roots = [] ∧ vaporDensity I = .ok (none, 4) := by
  have hRT : 0 < R * Tc := mul_pos hR hTc
  have h1 : √(Tc / Tc) = 1 := by rw [div_self hTc.ne', Real.sqrt_one]
  obtain ⟨hb, ha, hk⟩ := pureSubstance_pos R κ Tc Pc Tc hR hTc hPc (by rw [h1]; simp)
  obtain ⟨e1, e2⟩ := pure_mix (pureSubstance R κ Tc Pc Tc) ha hk
  have hbv : (pureSubstance R κ Tc Pc Tc).bi 0 = 0.07779607 * (R * Tc / Pc) := rfl
  have hav : (pureSubstance R κ Tc Pc Tc).ai 0 * (pureSubstance R κ Tc Pc Tc).alpha 0 =
      0.45723553 / 0.07779607 * ((pureSubstance R κ Tc Pc Tc).bi 0 * (R * Tc)) := by
    rw [hbv]
    change 0.45723553 * (R * Tc) ^ 2 / Pc * (1 + κ * (1 - √(Tc / Tc))) ^ 2 = _
    rw [h1]
    field_simp
    ring
  have hf : pressure R Tc (pureSubstance R κ Tc Pc Tc) (fun _ => 1) =
      pressureAB R Tc ((pureSubstance R κ Tc Pc Tc).ai 0 * (pureSubstance R κ Tc Pc Tc).alpha 0) ((pureSubstance R κ Tc Pc Tc).bi 0) := by
    funext ρ; unfold pressure; rw [e1, e2]
  rw [hf, e1, ← hbv]
  generalize (pureSubstance R κ Tc Pc Tc).bi 0 = b at hb hav
  generalize (pureSubstance R κ Tc Pc Tc).ai 0 * (pureSubstance R κ Tc Pc Tc).alpha 0 = a at ha hav
  have hw : 0 < b * (R * Tc) := mul_pos hb hRT
  obtain ⟨ρ₁, ρ₂, L⟩ := pr_looped (R := R) (T := Tc) (a := a) (b := b) hRT hb (by
    rw [hav]; exact mul_lt_mul_of_pos_right (lt_trans critT_bounds.2 (by norm_num)) hw)
  have hcont := pr_continuous R Tc a b hRT hb
  have hpos : ∀ ρ, 0 < ρ → ρ < 1 / b → 0 < pressureAB R Tc a b ρ := by
    intro ρ h0 hm
    have hu0 : 0 < b * ρ := mul_pos hb h0
    have hu1 : b * ρ < 1 := by rw [mul_comm]; exact (lt_div_iff₀ hb).1 hm
    unfold pressureAB
    have hd : 0 < 1 - b * ρ := by linarith
    have hd2 : 0 < (1 + b * ρ) + ρ * b * (1 - b * ρ) := by nlinarith
    rw [sub_pos, div_lt_div_iff₀ hd2 hd]
    have h6 : a ≤ 6 * (b * (R * Tc)) := by rw [hav]; exact mul_le_mul_of_nonneg_right (by norm_num) hw.le
    have h7 : 6 * (b * ρ) * (1 - b * ρ) < (1 + b * ρ) + ρ * b * (1 - b * ρ) := by nlinarith [sq_nonneg (5 * (b * ρ) - 2)]
    have h8 : a * ρ * (1 - b * ρ) ≤ R * Tc * (6 * (b * ρ) * (1 - b * ρ)) := by
      have := mul_le_mul_of_nonneg_right h6 (mul_pos h0 hd).le
      nlinarith
    have h9 := mul_lt_mul_of_pos_left h7 hRT
    have h10 := mul_lt_mul_of_pos_left (lt_of_le_of_lt h8 h9) h0
    nlinarith
  generalize hg : pressureAB R Tc a b = f at L hcont hpos
  have hρ₂ : 0 < ρ₂ := L.pos.trans L.lt
  set σ := (ρ₂ + 1 / b) / 2 with hσ
  have hσ1 : ρ₂ < σ := by rw [hσ]; linarith [L.lt_max]
  have hσ2 : σ < 1 / b := by rw [hσ]; linarith [L.lt_max]
  have hσ0 : 0 < σ := hρ₂.trans hσ1
  set vhi := max (500000 * b) (1 / ρ₁) with hvhi
  have hv1 : 1 / ρ₁ ≤ vhi := le_max_right _ _
  have hvp : 0 < vhi := lt_of_lt_of_le (one_div_pos.2 L.pos) hv1
  have hi1 : 1 / vhi ≤ ρ₁ := by rw [one_div_le hvp L.pos]; exact hv1
  have hi0 : 0 < 1 / vhi := one_div_pos.2 hvp
  have hv : 1 / σ ≤ vhi := (one_div_le_one_div_of_le L.pos (L.lt.trans hσ1).le).trans hv1
  have inv : ∀ r, 1 / σ ≤ r → r ≤ vhi → 1 / r ∈ Icc (1 / vhi) σ := fun r h2 h5 => by
    have hr : 0 < r := lt_of_lt_of_le (one_div_pos.2 hσ0) h2
    exact ⟨one_div_le_one_div_of_le hr h5, by rw [one_div_le hr hσ0]; exact h2⟩
  obtain ⟨m, hm, hmin⟩ := isCompact_Icc.exists_isMinOn (s := Icc (1 / vhi) σ) ⟨σ, (hi1.trans (L.lt.trans hσ1).le), le_rfl⟩
    (hcont.mono fun z hz => ⟨hi0.le.trans hz.1, lt_of_le_of_lt hz.2 hσ2⟩)
  have hfm : 0 < f m := hpos m (lt_of_lt_of_le hi0 hm.1) (lt_of_le_of_lt hm.2 hσ2)
  have habove : ∀ v, 1 / σ ≤ v → v ≤ vhi → f m / 2 < f (1 / v) := fun v h2 h5 => by
    have := isMinOn_iff.1 hmin _ (inv v h2 h5); linarith
  have hf0 : f 0 = 0 := by rw [← hg]; simp [pressureAB]
  obtain ⟨c, -, hc⟩ := intermediate_value_Icc hi0.le (hcont.mono fun z hz => ⟨hz.1, lt_of_le_of_lt hz.2 (lt_of_le_of_lt hi1 (L.lt.trans L.lt_max))⟩)
    (show f m / 2 ∈ Icc _ _ from ⟨by rw [hf0]; linarith, by
      have := habove vhi hv le_rfl; linarith⟩)
  have E := isoOf_all (f := f) (ρm := 1 / b) (P := f m / 2) (c := c) (rhoMax := σ) (vlo := 1 / σ) (vhi := vhi) (roots := [])
    (extrema := [1 / ρ₂, 1 / ρ₁]) hcont (one_div_pos.2 hσ0) (by rw [one_div_one_div]; exact hσ2) (by simp)
    (fun r => by
      simp only [List.not_mem_nil, false_iff]
      rintro ⟨h2, h5, h⟩
      exact absurd (habove r h2 h5) (by rw [h]; exact lt_irrefl _))
    (by
      simp only [List.pairwise_cons, List.mem_singleton, forall_eq, List.not_mem_nil, false_implies, implies_true, List.Pairwise.nil, and_true]
      exact one_div_lt_one_div_of_lt L.pos L.lt)
    (fun r => by
      simp only [List.mem_cons, List.not_mem_nil, or_false]
      have hs1 : 1 / σ ≤ 1 / ρ₁ := one_div_le_one_div_of_le L.pos (L.lt.trans hσ1).le
      have hs2 : 1 / σ ≤ 1 / ρ₂ := one_div_le_one_div_of_le hρ₂ hσ1.le
      have hs3 : 1 / ρ₂ ≤ vhi := (one_div_le_one_div_of_le L.pos L.lt.le).trans hv1
      constructor
      · rintro (rfl | rfl)
        · exact ⟨hs2, hs3, by rw [one_div_one_div]; exact (L.extr_iff _ hρ₂ L.lt_max).2 (Or.inr rfl)⟩
        · exact ⟨hs1, hv1, by rw [one_div_one_div]; exact (L.extr_iff _ L.pos (L.lt.trans L.lt_max)).2 (Or.inl rfl)⟩
      · rintro ⟨h2, h5, h⟩
        have hr := inv r h2 h5
        rcases (L.extr_iff _ (lt_of_lt_of_le hi0 hr.1) (lt_of_le_of_lt hr.2 hσ2)).1 h with h | h
        · right; rw [← h, one_div_one_div]
        · left; rw [← h, one_div_one_div])
    hc hσ2
  have E' : Exact f (1 / b) (1 / σ) vhi (f m / 2) { isoOf f (f m / 2) c σ [] [1 / ρ₂, 1 / ρ₁] with endDensity := vhi, minP := f m } :=
    ⟨E.range, E.noNan, E.roots_sorted, E.roots_mem, E.ext_sorted, E.ext_mem, E.spline, E.err, E.press, E.top, E.brent⟩
  exact ⟨1 / σ, vhi, f m / 2, _, le_max_left _ _, E', by linarith, hv, ⟨hv, le_rfl⟩, rfl,
    (c159_reported E' 1 ⟨hv, le_rfl⟩ hfm habove fun _ => .ok []).1⟩

/-! ## Where it is wrong -/

/-- A pure substance with attraction 5, above its critical temperature. -/
noncomputable def gasPar : Par 1 := ⟨fun _ => 5, fun _ => 1, fun _ => 1, fun _ _ => 0⟩

private theorem gas_mix : bmix gasPar (fun _ => 1) = 1 ∧ amix gasPar (fun _ => 1) = 5 := by
  obtain ⟨e1, e2⟩ := pure_mix gasPar (by norm_num [gasPar]) rfl
  exact ⟨e1.trans rfl, e2.trans (by norm_num [gasPar])⟩

private theorem gas_mono : StrictMonoOn (pressure 1 1 gasPar (fun _ => 1)) (Ico 0 (1 / bmix gasPar (fun _ => 1))) := by
  have := (c135_monotone_iff 1 1 5 1 (by norm_num) one_pos).2 (by linarith [critT_bounds.1])
  unfold pressure
  rw [gas_mix.1, gas_mix.2]
  exact this

/-- A search that sees the isotherm of `gasPar` between the densities 1/5 and 1/2 and asks the spline at `e`, where it gives `s` beyond the range. -/
noncomputable def gasIso (P c e s : ℝ) : Iso ℝ :=
  { isoOf (pressure 1 1 gasPar (fun _ => 1)) P c (99 / 100) [] [] with
    spline := fun v => if v ≤ 5 then pressure 1 1 gasPar (fun _ => 1) (1 / v) - P else s
    endDensity := e
    minP := pressure 1 1 gasPar (fun _ => 1) (1 / 5) }

private theorem gas_exact (c e s : ℝ) (h0 : 0 < c) (h1 : c < 1) (hc : c < 1 / 5 ∨ 1 / 2 < c) :
    Exact (pressure 1 1 gasPar (fun _ => 1)) (1 / bmix gasPar (fun _ => 1)) 2 5 (pressure 1 1 gasPar (fun _ => 1) c)
      (gasIso (pressure 1 1 gasPar (fun _ => 1) c) c e s) := by
  have hm : 1 / bmix gasPar (fun _ => 1) = 1 := by rw [gas_mix.1, div_one]
  have inv : ∀ r : ℝ, 2 ≤ r → r ≤ 5 → 1 / 5 ≤ 1 / r ∧ 1 / r ≤ 1 / 2 := fun r h2 h5 =>
    ⟨one_div_le_one_div_of_le (by linarith) h5, one_div_le_one_div_of_le (by norm_num) h2⟩
  have E := isoOf_all (f := pressure 1 1 gasPar (fun _ => 1)) (ρm := 1 / bmix gasPar (fun _ => 1)) (P := pressure 1 1 gasPar (fun _ => 1) c) (c := c)
    (rhoMax := 99 / 100) (vlo := 2) (vhi := 5) (roots := []) (extrema := [])
    (pr_continuous 1 1 _ _ (by norm_num) (by rw [gas_mix.1]; exact one_pos)) (by norm_num) (by rw [hm]; norm_num) (by simp)
    (fun r => by
      simp only [List.not_mem_nil, false_iff]
      rintro ⟨h2, h5, h⟩
      obtain ⟨i1, i2⟩ := inv r h2 h5
      have := gas_mono.injOn (show 1 / r ∈ Ico 0 _ from ⟨by linarith, by rw [hm]; linarith⟩) ⟨h0.le, by rw [hm]; exact h1⟩ h
      rcases hc with hc | hc <;> linarith)
    (by simp)
    (fun r => by
      simp only [List.not_mem_nil, false_iff]
      rintro ⟨h2, h5, h⟩
      obtain ⟨i1, i2⟩ := inv r h2 h5
      exact not_extr_of_mono gas_mono (Ico_mem_nhds (by linarith) (by rw [hm]; linarith)) h)
    rfl (by rw [hm]; norm_num)
  exact ⟨E.range, E.noNan, E.roots_sorted, E.roots_mem, E.ext_sorted, E.ext_mem, fun v _ h5 => if_pos h5, E.err, E.press, E.top, E.brent⟩

/-- **C159, violated** (short curves): if the options let the curve end at a fifth of close packing, a vapour of half that density is taken for an ideal gas; its coefficient is
less than `exp(-1/10)`, and the search says one. -/
theorem c159_violated_short : ∃ (P : ℝ) (I : Iso ℝ), Exact (pressure 1 1 gasPar (fun _ => 1)) (1 / bmix gasPar (fun _ => 1)) 2 5 P I ∧
    pressure 1 1 gasPar (fun _ => 1) (1 / 10) = P ∧ lnPhi 1 1 gasPar (fun _ => 1) P (1 / 10) 0 < -(1 / 10) ∧
    ∀ fug, (vaporDensity I).bind (vaporFugacity 1 fug) = .ok ([some 1], some 0, 4) := by
  have hm : 1 / bmix gasPar (fun _ => 1) = 1 := by rw [gas_mix.1, div_one]
  have E := gas_exact (1 / 10) 3 0 (by norm_num) (by norm_num) (Or.inl (by norm_num))
  refine ⟨_, gasIso _ (1 / 10) 3 0, E, rfl, ?_, fun fug => ?_⟩
  · have hP : pressure 1 1 gasPar (fun _ => 1) (1 / 10) = 74 / 1071 := by
      simp only [pressure, gas_mix.1, gas_mix.2, pressureAB]; norm_num
    rw [c15_pure_lnPhi 1 1 gasPar (1 / 10) (by norm_num) (by norm_num) one_pos (by norm_num [gasPar]) (by norm_num [gasPar]) rfl
      (by rw [hP]; norm_num), hP]
    simp only [gasPar]
    have s2 : √2 ^ 2 = 2 := Real.sq_sqrt (by norm_num)
    have s0 : 0 < √2 := Real.sqrt_pos.2 (by norm_num)
    have s1 : √2 < 3 / 2 := by nlinarith
    have hden : 0 < 1 + (1 - √2) * (1 * (1 / 10)) := by linarith
    have hnum : 0 < 1 + (1 + √2) * (1 * (1 / 10)) := by linarith
    have hL := Real.one_sub_inv_le_log_of_pos (div_pos hnum hden)
    have hLe : 1 - ((1 + (1 + √2) * (1 * (1 / 10))) / (1 + (1 - √2) * (1 * (1 / 10))))⁻¹ =
        √2 / 5 / (1 + (1 + √2) * (1 * (1 / 10))) := by
      rw [inv_div, eq_div_iff hnum.ne', sub_mul, div_mul_cancel₀ _ hnum.ne']; ring
    rw [hLe] at hL
    have h4 : 2 / 5 ≤ 5 * 1 / (2 * √2 * 1 * (1 * 1)) * Real.log ((1 + (1 + √2) * (1 * (1 / 10))) / (1 + (1 - √2) * (1 * (1 / 10)))) := by
      refine le_trans ?_ (mul_le_mul_of_nonneg_left hL (by positivity))
      rw [div_mul_div_comm, le_div_iff₀ (by positivity)]
      nlinarith
    have h5 : Real.log (74 / 1071 / (1 * 1 * (1 / 10))) + Real.log (1 - 1 * (1 / 10)) ≥ -(54 / 100) := by
      rw [← Real.log_mul (by norm_num) (by norm_num)]
      have e : (74 / 1071 / (1 * 1 * (1 / 10)) * (1 - 1 * (1 / 10)) : ℝ) ≥ (100 / 127) ^ 2 := by norm_num
      have h6 := Real.log_le_log (by norm_num) e
      rw [Real.log_pow] at h6
      have h7 := Real.one_sub_inv_le_log_of_pos (show (0 : ℝ) < 100 / 127 by norm_num)
      norm_num at h6 h7 ⊢
      linarith
    norm_num at h4 h5 ⊢
    linarith
  · refine (c159_reported E 1 ⟨by norm_num [gasIso], by norm_num [gasIso]⟩ ?_ (fun v h2 h5 => ?_) fug).2
    · simp only [gasIso, pressure, gas_mix.1, gas_mix.2, pressureAB]; norm_num
    · have h6 : 1 / 5 ≤ 1 / v := one_div_le_one_div_of_le (by linarith) h5
      have h7 : 1 / v ≤ 1 / 2 := one_div_le_one_div_of_le (by norm_num) h2
      exact gas_mono ⟨by norm_num, by rw [hm]; norm_num⟩ ⟨by linarith, by rw [hm]; linarith⟩ (by linarith)

/-- **C159, violated** (dense fluids): the spline is asked at the lowest *density*, as if it were a volume. If that number lies beyond the range of volumes and the spline does not happen to be
negative there, a fluid compressed beyond the densest point of the curve is taken for an ideal gas. -/
theorem c159_violated_dense : ∃ (P : ℝ) (I : Iso ℝ), Exact (pressure 1 1 gasPar (fun _ => 1)) (1 / bmix gasPar (fun _ => 1)) 2 5 P I ∧
    5 < I.endDensity ∧ (∀ ρ, 0 ≤ ρ → ρ < 1 → (pressure 1 1 gasPar (fun _ => 1) ρ = P ↔ ρ = 9 / 10)) ∧
    ∀ fug, (vaporDensity I).bind (vaporFugacity 1 fug) = .ok ([some 1], some 0, 4) := by
  have hm : 1 / bmix gasPar (fun _ => 1) = 1 := by rw [gas_mix.1, div_one]
  refine ⟨_, gasIso _ (9 / 10) 6 0, gas_exact (9 / 10) 6 0 (by norm_num) (by norm_num) (Or.inr (by norm_num)), by norm_num [gasIso], fun ρ h0 h1 => ⟨fun h => ?_, fun h => by rw [h]⟩, fun fug => ?_⟩
  · exact gas_mono.injOn ⟨h0, by rw [hm]; exact h1⟩ ⟨by norm_num, by rw [hm]; norm_num⟩ h
  · have : vaporDensity (gasIso (pressure 1 1 gasPar (fun _ => 1) (9 / 10)) (9 / 10) 6 0) = .ok (none, 4) := by
      refine (c159_flag _ none).2 ⟨rfl, rfl, Or.inl ⟨rfl, ?_, ?_⟩⟩
      · simp only [gasIso]; norm_num
      · simp only [gasIso, pressure, gas_mix.1, gas_mix.2, pressureAB]; norm_num
    rw [this]; rfl

end Verif.Props
