import Verif.Props.PengRobinsonCritical

/-!
# C157: heating a fluid of the cubic equation of state

At constant density heating raises the pressure, because the repulsion grows with the temperature and the attraction does not,
as long as `α` falls.  At constant pressure it therefore lowers the density, of the vapour and of the liquid.
-/

namespace Verif.Props
open Verif Verif.PengRobinson Filter Topology Set

/-- The parameters of a mixture with these constants in the library, at the temperature `T`. -/
noncomputable def mixtureOf {n : ℕ} (R : ℝ) (κ Tc Pc : Fin n → ℝ) (k : Fin n → Fin n → ℝ) (T : ℝ) : Par n where
  ai := fun i => (realFormulas R).ai (Tc i) (Pc i)
  bi := fun i => (realFormulas R).bi (Tc i) (Pc i)
  alpha := fun i => (realFormulas R).alpha (κ i) T (Tc i)
  kij := k

/-- For a pure substance this is `pureSubstance`. -/
theorem mixtureOf_pure (R κ Tc Pc T : ℝ) : mixtureOf R (fun _ : Fin 1 => κ) (fun _ => Tc) (fun _ => Pc) (fun _ _ => 0) T = pureSubstance R κ Tc Pc T :=
  rfl

/-- More repulsion and less attraction give a higher pressure. -/
theorem pressureAB_mono (R T₁ T₂ a₁ a₂ b ρ : ℝ) (hR : 0 < R) (hT : T₁ < T₂) (ha : a₂ ≤ a₁) (hb : 0 ≤ b) (h0 : 0 < ρ) (h1 : b * ρ < 1) :
    pressureAB R T₁ a₁ b ρ < pressureAB R T₂ a₂ b ρ := by
  unfold pressureAB
  have hu : 0 ≤ b * ρ := mul_nonneg hb h0.le
  have hD : 0 < (1 + b * ρ) + ρ * b * (1 - b * ρ) := by
    rw [mul_comm ρ b]
    have := mul_nonneg hu (sub_pos.2 h1).le
    linarith
  have e1 : R * T₁ * ρ / (1 - b * ρ) < R * T₂ * ρ / (1 - b * ρ) :=
    div_lt_div_of_pos_right (mul_lt_mul_of_pos_right (mul_lt_mul_of_pos_left hT hR) h0) (sub_pos.2 h1)
  have e2 : ρ ^ 2 * a₂ / ((1 + b * ρ) + ρ * b * (1 - b * ρ)) ≤ ρ ^ 2 * a₁ / ((1 + b * ρ) + ρ * b * (1 - b * ρ)) :=
    div_le_div_of_nonneg_right (mul_le_mul_of_nonneg_left ha (sq_nonneg ρ)) hD.le
  linarith

section
variable {n : ℕ} {R : ℝ} {κ Tc Pc : Fin n → ℝ} {k : Fin n → Fin n → ℝ} {T₁ T₂ : ℝ} {x : Fin n → ℝ}
  (hR : 0 < R) (hTc : ∀ i, 0 < Tc i) (hPc : ∀ i, 0 < Pc i) (hκ : ∀ i, 0 ≤ κ i) (hk : ∀ i j, k i j ≤ 1) (hx : ∀ i, 0 ≤ x i)
  (hT₁ : 0 < T₁) (hT : T₁ < T₂) (hα : ∀ i, 0 ≤ 1 + κ i * (1 - √(T₂ / Tc i)))
include hR hTc hPc hκ hk hx hT₁ hT hα

omit hk hx hR hPc in
private theorem alpha_falls (i : Fin n) : (mixtureOf R κ Tc Pc k T₂).alpha i ≤ (mixtureOf R κ Tc Pc k T₁).alpha i := by
  have hs : √(T₁ / Tc i) ≤ √(T₂ / Tc i) := Real.sqrt_le_sqrt (div_le_div_of_nonneg_right hT.le (hTc i).le)
  have := mul_le_mul_of_nonneg_left hs (hκ i)
  simp only [mixtureOf, realFormulas]
  exact pow_le_pow_left₀ (hα i) (by linarith) 2

/-- **C157** (the attraction): heating does not raise it. -/
theorem c157_attraction : amix (mixtureOf R κ Tc Pc k T₂) x ≤ amix (mixtureOf R κ Tc Pc k T₁) x := by
  refine Finset.sum_le_sum fun i _ => Finset.sum_le_sum fun j _ => ?_
  have hi := alpha_falls (R := R) (Pc := Pc) (k := k) hTc hκ hT₁ hT hα i
  have hj := alpha_falls (R := R) (Pc := Pc) (k := k) hTc hκ hT₁ hT hα j
  have ai : ∀ l, 0 ≤ (realFormulas R).ai (Tc l) (Pc l) := fun l => by
    have := hPc l
    simp only [realFormulas]
    positivity
  have al : ∀ l T, 0 ≤ (mixtureOf R κ Tc Pc k T).alpha l := fun l T => by
    simp only [mixtureOf, realFormulas]
    positivity
  refine mul_le_mul_of_nonneg_right (mul_le_mul_of_nonneg_left (Real.sqrt_le_sqrt ?_) (mul_nonneg (hx i) (hx j))) (sub_nonneg.2 (hk i j))
  change (realFormulas R).ai (Tc i) (Pc i) * _ * (realFormulas R).ai (Tc j) (Pc j) * _ ≤
    (realFormulas R).ai (Tc i) (Pc i) * _ * (realFormulas R).ai (Tc j) (Pc j) * _
  refine mul_le_mul (mul_le_mul_of_nonneg_right (mul_le_mul_of_nonneg_left hi (ai i)) (ai j)) hj (al j T₂) ?_
  exact mul_nonneg (mul_nonneg (ai i) (al i T₁)) (ai j)

/-- **C157** (constant density): heating raises the pressure, at every density below close packing and in every mixture with interaction parameters up to one, as
long as no `α` has passed its zero. -/
theorem c157_isochore (ρ : ℝ) (h0 : 0 < ρ) (h1 : bmix (mixtureOf R κ Tc Pc k T₁) x * ρ < 1) :
    pressure R T₁ (mixtureOf R κ Tc Pc k T₁) x ρ < pressure R T₂ (mixtureOf R κ Tc Pc k T₂) x ρ := by
  have hb : 0 ≤ bmix (mixtureOf R κ Tc Pc k T₁) x := Finset.sum_nonneg fun i _ => mul_nonneg (hx i) (by
    have := hPc i; have := hTc i
    simp only [mixtureOf, realFormulas]
    positivity)
  exact pressureAB_mono R T₁ T₂ _ _ _ ρ hR hT (c157_attraction hR hTc hPc hκ hk hx hT₁ hT hα) hb h0 h1

/-- **C157** (constant pressure): the lowest density with a given pressure, that of the vapour, and the highest one, that of the liquid, both fall on heating. -/
theorem c157_isobar (P : ℝ) (hP : 0 < P) (hpos : 0 < bmix (mixtureOf R κ Tc Pc k T₁) x) (ρ₁ ρ₂ : ℝ) (h₁0 : 0 < ρ₁)
    (h₁b : ρ₁ < 1 / bmix (mixtureOf R κ Tc Pc k T₁) x) (h₂0 : 0 < ρ₂) (h₂b : ρ₂ < 1 / bmix (mixtureOf R κ Tc Pc k T₁) x)
    (e₁ : pressure R T₁ (mixtureOf R κ Tc Pc k T₁) x ρ₁ = P) (e₂ : pressure R T₂ (mixtureOf R κ Tc Pc k T₂) x ρ₂ = P) :
    ((∀ ρ, 0 < ρ → ρ < 1 / bmix (mixtureOf R κ Tc Pc k T₁) x → pressure R T₂ (mixtureOf R κ Tc Pc k T₂) x ρ = P → ρ₂ ≤ ρ) → ρ₂ < ρ₁) ∧
    ((∀ ρ, 0 < ρ → ρ < 1 / bmix (mixtureOf R κ Tc Pc k T₁) x → pressure R T₁ (mixtureOf R κ Tc Pc k T₁) x ρ = P → ρ ≤ ρ₁) → ρ₂ < ρ₁) := by
  set b := bmix (mixtureOf R κ Tc Pc k T₁) x with hbdef
  have hT₂ := hT₁.trans hT
  have up : ∀ ρ, 0 < ρ → ρ < 1 / b → pressure R T₁ (mixtureOf R κ Tc Pc k T₁) x ρ < pressure R T₂ (mixtureOf R κ Tc Pc k T₂) x ρ := fun ρ h0 h1 =>
    c157_isochore hR hTc hPc hκ hk hx hT₁ hT hα ρ h0 (by rw [mul_comm]; exact (lt_div_iff₀ hpos).1 h1)
  constructor
  · intro hlow
    have h := up ρ₁ h₁0 h₁b
    rw [e₁] at h
    have hc : ContinuousOn (pressure R T₂ (mixtureOf R κ Tc Pc k T₂) x) (Icc 0 ρ₁) :=
      (pr_continuous R T₂ _ _ (mul_pos hR hT₂) hpos).mono fun ρ hρ => ⟨hρ.1, lt_of_le_of_lt hρ.2 h₁b⟩
    have hz : pressure R T₂ (mixtureOf R κ Tc Pc k T₂) x 0 = 0 := pr_zero _ _ _ _
    obtain ⟨ρ, hρ, e⟩ := intermediate_value_Ioo h₁0.le hc ⟨by rw [hz]; exact hP, h⟩
    exact lt_of_le_of_lt (hlow ρ hρ.1 (hρ.2.trans h₁b) e) hρ.2
  · intro hhigh
    by_contra hc
    rw [not_lt] at hc
    have h := up ρ₂ h₂0 h₂b
    rw [e₂] at h
    -- at `T₁` the pressure at `ρ₂` is below `P` and becomes larger than `P` near close packing
    obtain ⟨w, hw1, hw2, hw3⟩ := pr_unbounded R T₁ (amix (mixtureOf R κ Tc Pc k T₁) x) b P ρ₂ (mul_pos hR hT₁) hpos h₂0.le h₂b
    have hcont : ContinuousOn (pressure R T₁ (mixtureOf R κ Tc Pc k T₁) x) (Icc ρ₂ w) :=
      (pr_continuous R T₁ _ _ (mul_pos hR hT₁) hpos).mono fun ρ hρ => ⟨h₂0.le.trans hρ.1, lt_of_le_of_lt hρ.2 hw2⟩
    obtain ⟨ρ, hρ, e⟩ := intermediate_value_Ioo hw1.le hcont ⟨h, hw3⟩
    exact absurd (hhigh ρ (h₂0.trans hρ.1) (hρ.2.trans hw2) e) (not_le.2 (lt_of_le_of_lt hc hρ.1))

/-- **C157** (one density): a gas that is above its critical state at both temperatures expands on heating at constant pressure. -/
theorem c157_gas (P : ℝ) (hP : 0 < P) (hpos : 0 < bmix (mixtureOf R κ Tc Pc k T₁) x)
    (hc : amix (mixtureOf R κ Tc Pc k T₁) x ≤ critT * (bmix (mixtureOf R κ Tc Pc k T₁) x * (R * T₁))) :
    ∃ ρ₁ ρ₂, ρ₂ < ρ₁ ∧
      (∀ ρ, 0 < ρ ∧ ρ < 1 / bmix (mixtureOf R κ Tc Pc k T₁) x ∧ pressure R T₁ (mixtureOf R κ Tc Pc k T₁) x ρ = P ↔ ρ = ρ₁) ∧
      ∀ ρ, 0 < ρ ∧ ρ < 1 / bmix (mixtureOf R κ Tc Pc k T₁) x ∧ pressure R T₂ (mixtureOf R κ Tc Pc k T₂) x ρ = P ↔ ρ = ρ₂ := by
  have hT₂ := hT₁.trans hT
  have ht : 0 < critT := lt_trans (by norm_num) critT_bounds.1
  have hc₂ : amix (mixtureOf R κ Tc Pc k T₂) x ≤ critT * (bmix (mixtureOf R κ Tc Pc k T₁) x * (R * T₂)) := by
    refine (c157_attraction hR hTc hPc hκ hk hx hT₁ hT hα).trans (hc.trans ?_)
    have := mul_le_mul_of_nonneg_left hT.le hR.le
    gcongr
  obtain ⟨ρ₁, h₁, u₁⟩ := c135_one_density R T₁ _ _ P (mul_pos hR hT₁) hpos hc hP
  obtain ⟨ρ₂, h₂, u₂⟩ := c135_one_density R T₂ _ _ P (mul_pos hR hT₂) hpos hc₂ hP
  refine ⟨ρ₁, ρ₂, ?_, fun ρ => ⟨u₁ ρ, fun e => e ▸ h₁⟩, fun ρ => ⟨u₂ ρ, fun e => e ▸ h₂⟩⟩
  exact (c157_isobar hR hTc hPc hκ hk hx hT₁ hT hα P hP hpos ρ₁ ρ₂ h₁.1 h₁.2.1 h₂.1 h₂.2.1 h₁.2.2 h₂.2.2).1
    fun ρ h0 h1 e => (u₂ ρ ⟨h0, h1, e⟩).ge

end

/-- **C157, violated** (hot fluids): with `κ = 2` heating from nine to sixteen times the critical temperature at half of close packing lowers the pressure, because
`α` rises again. -/
theorem c157_violated_hot (R Tc Pc : ℝ) (hR : 0 < R) (hTc : 0 < Tc) (hPc : 0 < Pc) :
    let b := bmix (pureSubstance R 2 Tc Pc (9 * Tc)) (fun _ => 1)
    pressure R (16 * Tc) (pureSubstance R 2 Tc Pc (16 * Tc)) (fun _ => 1) (1 / (2 * b)) <
      pressure R (9 * Tc) (pureSubstance R 2 Tc Pc (9 * Tc)) (fun _ => 1) (1 / (2 * b)) := by
  intro b
  have s3 : √(9 * Tc / Tc) = 3 := by
    rw [mul_div_assoc, div_self hTc.ne', mul_one, show (9 : ℝ) = 3 ^ 2 by norm_num]; exact Real.sqrt_sq (by norm_num)
  have s4 : √(16 * Tc / Tc) = 4 := by
    rw [mul_div_assoc, div_self hTc.ne', mul_one, show (16 : ℝ) = 4 ^ 2 by norm_num]; exact Real.sqrt_sq (by norm_num)
  have hbe : b = 0.07779607 * (R * Tc / Pc) := pure_bmix R 2 Tc Pc (9 * Tc)
  have hb : 0 < b := by rw [hbe]; positivity
  have key : ∀ T, pressure R T (pureSubstance R 2 Tc Pc T) (fun _ => 1) (1 / (2 * b)) =
      R * T / b - 1 / 7 * (0.45723553 * (R * Tc) ^ 2 / Pc * (1 + 2 * (1 - √(T / Tc))) ^ 2) / b ^ 2 := fun T => by
    unfold pressure pressureAB
    rw [pure_amix R 2 Tc Pc T hPc, show bmix (pureSubstance R 2 Tc Pc T) (fun _ => 1) = b from rfl]
    have e1 : b * (1 / (2 * b)) = 1 / 2 := by field_simp
    rw [mul_comm (1 / (2 * b)) b, e1]
    field_simp
    ring
  rw [key, key, s3, s4]
  have hw : 0.45723553 * (R * Tc) ^ 2 / Pc = 0.45723553 / 0.07779607 * (R * Tc) * b := by rw [hbe]; field_simp
  have e : ∀ c : ℝ, 1 / 7 * (0.45723553 / 0.07779607 * (R * Tc) * b * c) / b ^ 2 = 0.45723553 / (7 * 0.07779607) * c * (R * Tc / b) := fun c => by
    field_simp
  rw [hw, e, e]
  have hq : 0 < R * Tc / b := div_pos (mul_pos hR hTc) hb
  have r : ∀ c : ℝ, R * (c * Tc) / b = c * (R * Tc / b) := fun c => by ring
  rw [r, r]
  nlinarith

/-- A mixture of two substances, heated from 200 to 350 K. -/
example : pressure 8 200 (mixtureOf 8 (fun _ : Fin 2 => 1 / 2) ![200, 300] ![4, 5] (fun _ _ => 0) 200) (fun _ => 1 / 2) (1 / 1000) <
    pressure 8 350 (mixtureOf 8 (fun _ : Fin 2 => 1 / 2) ![200, 300] ![4, 5] (fun _ _ => 0) 350) (fun _ => 1 / 2) (1 / 1000) := by
  have hT2 : ∀ i : Fin 2, √(350 / (![200, 300] : Fin 2 → ℝ) i) ≤ 2 := fun i => by
    rw [Real.sqrt_le_left (by norm_num)]
    fin_cases i <;> norm_num
  refine c157_isochore (by norm_num) (fun i => by fin_cases i <;> norm_num) (fun i => by fin_cases i <;> norm_num) (fun _ => by norm_num)
    (fun _ _ => by norm_num) (fun _ => by norm_num) (by norm_num) (by norm_num) (fun i => by linarith [hT2 i]) _ (by norm_num) ?_
  simp [bmix, mixtureOf, realFormulas, Fin.sum_univ_two]
  norm_num

/-- A pure substance above its critical temperature: one density at each of two temperatures, and the hotter gas is thinner. -/
example : ∃ ρ₁ ρ₂ : ℝ, ρ₂ < ρ₁ ∧
    (∀ ρ, 0 < ρ ∧ ρ < 1 / bmix (pureSubstance 8 (1 / 2) 300 5 600) (fun _ => 1) ∧ pressure 8 600 (pureSubstance 8 (1 / 2) 300 5 600) (fun _ => 1) ρ = 1 ↔ ρ = ρ₁) ∧
    ∀ ρ, 0 < ρ ∧ ρ < 1 / bmix (pureSubstance 8 (1 / 2) 300 5 600) (fun _ => 1) ∧ pressure 8 900 (pureSubstance 8 (1 / 2) 300 5 900) (fun _ => 1) ρ = 1 ↔ ρ = ρ₂ := by
  have h3 : √((900 : ℝ) / 300) ≤ 2 := by rw [Real.sqrt_le_left (by norm_num)]; norm_num
  have h2 : 1 ≤ √((600 : ℝ) / 300) := Real.one_le_sqrt.2 (by norm_num)
  have h2' : √((600 : ℝ) / 300) ≤ 2 := by rw [Real.sqrt_le_left (by norm_num)]; norm_num
  exact c157_gas (n := 1) (R := 8) (κ := fun _ => 1 / 2) (Tc := fun _ => 300) (Pc := fun _ => 5) (k := fun _ _ => 0) (T₁ := 600) (T₂ := 900) (x := fun _ => 1)
    (by norm_num) (fun _ => by norm_num) (fun _ => by norm_num) (fun _ => by norm_num) (fun _ _ => by norm_num) (fun _ => by norm_num) (by norm_num) (by norm_num)
    (fun _ => by linarith) 1 one_pos (by rw [mixtureOf_pure, pure_bmix]; norm_num)
    (by
      rw [mixtureOf_pure, pure_ratio 8 (1 / 2) 300 5 600 (by norm_num) (by norm_num) (by norm_num) (by norm_num)]
      have := critT_bounds.1
      nlinarith)

end Verif.Props
