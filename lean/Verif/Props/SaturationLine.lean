import Verif.Props.PengRobinsonSaturation

/-!
# C156, C136: heating along the saturation line of the cubic equation of state, and where it ends

`pot t P u` is the Gibbs energy at the packing `u`, the reduced temperature-like variable `t = a / (b R T)` and the pressure
`P`, as a function whose minima are the stable states.  Vapour and liquid at saturation are its two lowest points.  Two
saturation states are compared through the difference of their functions, which has at most one minimum.
-/

namespace Verif.Props
open Verif Verif.PengRobinson Filter Topology Set

/-- The Gibbs energy at a given pressure, up to a constant. -/
noncomputable def pot (t P u : ℝ) : ℝ := redH t u - (reducedP t u - P) / u

private theorem pot_deriv (t P u : ℝ) (h0 : 0 < u) (h1 : u < 1) : HasDerivAt (pot t P) ((reducedP t u - P) / u ^ 2) u :=
  redH_shift_deriv P u h0 h1

private theorem pot_mono (t P x y : ℝ) (hx : 0 < x) (hxy : x ≤ y) (hy : y < 1) (h : ∀ u, x < u → u < y → P ≤ reducedP t u) :
    pot t P x ≤ pot t P y := by
  have hb : ∀ u ∈ Icc x y, 0 < u ∧ u < 1 := fun u hu => ⟨lt_of_lt_of_le hx hu.1, lt_of_le_of_lt hu.2 hy⟩
  refine monotoneOn_of_deriv_nonneg (convex_Icc x y)
    (fun u hu => (pot_deriv t P u (hb u hu).1 (hb u hu).2).continuousAt.continuousWithinAt)
    (fun u hu => (pot_deriv t P u (hb u (interior_subset hu)).1 (hb u (interior_subset hu)).2).differentiableAt.differentiableWithinAt)
    (fun u hu => ?_) (left_mem_Icc.2 hxy) (right_mem_Icc.2 hxy) hxy
  rw [interior_Icc] at hu
  have h0 := hx.trans hu.1
  rw [(pot_deriv t P u h0 (hu.2.trans hy)).deriv]
  exact div_nonneg (sub_nonneg.2 (h u hu.1 hu.2)) (by positivity)

private theorem pot_anti (t P x y : ℝ) (hx : 0 < x) (hxy : x ≤ y) (hy : y < 1) (h : ∀ u, x < u → u < y → reducedP t u ≤ P) :
    pot t P y ≤ pot t P x := by
  have hb : ∀ u ∈ Icc x y, 0 < u ∧ u < 1 := fun u hu => ⟨lt_of_lt_of_le hx hu.1, lt_of_le_of_lt hu.2 hy⟩
  refine antitoneOn_of_deriv_nonpos (convex_Icc x y)
    (fun u hu => (pot_deriv t P u (hb u hu).1 (hb u hu).2).continuousAt.continuousWithinAt)
    (fun u hu => (pot_deriv t P u (hb u (interior_subset hu)).1 (hb u (interior_subset hu)).2).differentiableAt.differentiableWithinAt)
    (fun u hu => ?_) (left_mem_Icc.2 hxy) (right_mem_Icc.2 hxy) hxy
  rw [interior_Icc] at hu
  have h0 := hx.trans hu.1
  rw [(pot_deriv t P u h0 (hu.2.trans hy)).deriv]
  exact div_nonpos_of_nonpos_of_nonneg (sub_nonpos.2 (h u hu.1 hu.2)) (by positivity)

/-- Two packings in equilibrium. -/
structure Coexist (t x y : ℝ) : Prop where
  crit : critT < t
  pos : 0 < x
  lt : x < y
  lt_one : y < 1
  press : reducedP t x = reducedP t y
  fug : redH t x = redH t y

/-- The packing of the critical point lies between them. -/
theorem Coexist.around {t x y : ℝ} (h : Coexist t x y) : x < critU ∧ critU < y := by
  obtain ⟨u₁, u₂, L⟩ := loop_exists t h.crit
  obtain ⟨h1, h2⟩ := L.outer h.pos h.lt h.lt_one h.press h.fug
  have hneg : slopeNum t critU < 0 := by
    rw [slopeNum_spinT t _ critU_pos critU_lt]
    exact mul_neg_of_pos_of_neg (critE_pos _ critU_pos critU_lt) (by change critT - t < 0; linarith [h.crit])
  constructor
  · refine lt_of_lt_of_le h1 (not_lt.1 fun hc => ?_)
    exact absurd hneg (not_lt.2 (L.low _ critU_pos.le hc).le)
  · refine lt_of_le_of_lt (not_lt.1 fun hc => ?_) h2
    exact absurd hneg (not_lt.2 (L.high _ hc critU_lt).le)

/-- Their common Gibbs energy is the lowest of all packings. -/
theorem Coexist.lowest {t x y : ℝ} (h : Coexist t x y) (u : ℝ) (h0 : 0 < u) (h1 : u < 1) :
    pot t (reducedP t x) x ≤ pot t (reducedP t x) u ∧ pot t (reducedP t x) y ≤ pot t (reducedP t x) u := by
  obtain ⟨u₁, u₂, L⟩ := loop_exists t h.crit
  obtain ⟨k1, k2⟩ := L.outer h.pos h.lt h.lt_one h.press h.fug
  have e : pot t (reducedP t x) x = pot t (reducedP t x) y := by
    unfold pot
    rw [h.fug, ← h.press, sub_self, zero_div, zero_div]
  have key : pot t (reducedP t x) x ≤ pot t (reducedP t x) u := by
    rcases le_or_gt u x with hu | hu
    · refine pot_anti t _ u x h0 hu (h.lt.trans h.lt_one) fun v hv1 hv2 => ?_
      exact (L.mono1 ⟨(h0.trans hv1).le, (hv2.trans k1).le⟩ ⟨h.pos.le, k1.le⟩ hv2).le
    · rcases le_or_gt y u with hy | hy
      · rw [e]
        refine pot_mono t _ y u (h.pos.trans h.lt) hy h1 fun v hv1 hv2 => ?_
        rw [h.press]
        exact (L.mono2 ⟨k2.le, h.lt_one⟩ ⟨(k2.trans hv1).le, hv2.trans h1⟩ hv1).le
      · rcases le_or_gt (reducedP t x) (reducedP t u) with hp | hp
        · refine pot_mono t _ x u h.pos hu.le h1 fun v hv1 hv2 => ?_
          rcases le_or_gt v u₁ with hv | hv
          · exact (L.mono1 ⟨h.pos.le, k1.le⟩ ⟨(h.pos.trans hv1).le, hv⟩ hv1).le
          · have hu2 : u ≤ u₂ := by
              by_contra hc
              rw [not_le] at hc
              have := L.mono2 ⟨hc.le, h1⟩ ⟨k2.le, h.lt_one⟩ hy
              rw [← h.press] at this
              linarith
            exact hp.trans (L.anti ⟨hv.le, hv2.le.trans hu2⟩ ⟨(hv.trans hv2).le, hu2⟩ hv2).le
        · rw [e]
          refine pot_anti t _ u y h0 hy.le h.lt_one fun v hv1 hv2 => ?_
          rcases le_or_gt u₂ v with hv | hv
          · rw [h.press]
            exact (L.mono2 ⟨hv, hv2.trans h.lt_one⟩ ⟨k2.le, h.lt_one⟩ hv2).le
          · have hu1 : u₁ ≤ u := by
              by_contra hc
              rw [not_le] at hc
              have := L.mono1 ⟨h.pos.le, k1.le⟩ ⟨h0.le, hc.le⟩ hu
              linarith
            exact (L.anti ⟨hu1, (hv1.trans hv).le⟩ ⟨hu1.trans hv1.le, hv.le⟩ hv1).le.trans hp.le
  exact ⟨key, e ▸ key⟩

/-! ## Two states -/

/-- The coefficient of `t` in the pressure. -/
private noncomputable def attr (u : ℝ) : ℝ := u ^ 2 / (1 + 2 * u - u ^ 2)

private theorem attr_pos {u : ℝ} (h0 : 0 < u) (h1 : u < 1) : 0 < attr u := by
  have := pr_den u h0.le h1
  unfold attr
  positivity

private theorem attr_mono {u v : ℝ} (h0 : 0 < u) (h : u < v) (h1 : v < 1) : attr u < attr v := by
  unfold attr
  rw [div_lt_div_iff₀ (pr_den u h0.le (h.trans h1)) (pr_den v (h0.trans h).le h1)]
  nlinarith [mul_pos h0 (h0.trans h), sq_nonneg (u - v)]

private theorem press_diff (t₁ t₂ u : ℝ) : reducedP t₂ u - reducedP t₁ u = (t₁ - t₂) * attr u := by
  unfold reducedP attr; ring

private noncomputable def gap (t₁ P₁ t₂ P₂ u : ℝ) : ℝ := pot t₂ P₂ u - pot t₁ P₁ u

private theorem gap_deriv (t₁ P₁ t₂ P₂ u : ℝ) (h0 : 0 < u) (h1 : u < 1) :
    HasDerivAt (gap t₁ P₁ t₂ P₂) (((t₁ - t₂) * attr u - (P₂ - P₁)) / u ^ 2) u := by
  refine ((pot_deriv t₂ P₂ u h0 h1).sub (pot_deriv t₁ P₁ u h0 h1)).congr_deriv ?_
  rw [← press_diff]
  ring

private theorem gap_mono (t₁ P₁ t₂ P₂ x y : ℝ) (hx : 0 < x) (hxy : x < y) (hy : y < 1)
    (h : ∀ u, x < u → u < y → P₂ - P₁ < (t₁ - t₂) * attr u) : gap t₁ P₁ t₂ P₂ x < gap t₁ P₁ t₂ P₂ y := by
  have hb : ∀ u ∈ Icc x y, 0 < u ∧ u < 1 := fun u hu => ⟨lt_of_lt_of_le hx hu.1, lt_of_le_of_lt hu.2 hy⟩
  refine strictMonoOn_of_deriv_pos (convex_Icc x y)
    (fun u hu => (gap_deriv t₁ P₁ t₂ P₂ u (hb u hu).1 (hb u hu).2).continuousAt.continuousWithinAt)
    (fun u hu => ?_) (left_mem_Icc.2 hxy.le) (right_mem_Icc.2 hxy.le) hxy
  rw [interior_Icc] at hu
  have h0 := hx.trans hu.1
  rw [(gap_deriv t₁ P₁ t₂ P₂ u h0 (hu.2.trans hy)).deriv]
  exact div_pos (sub_pos.2 (h u hu.1 hu.2)) (by positivity)

private theorem gap_anti (t₁ P₁ t₂ P₂ x y : ℝ) (hx : 0 < x) (hxy : x < y) (hy : y < 1)
    (h : ∀ u, x < u → u < y → (t₁ - t₂) * attr u < P₂ - P₁) : gap t₁ P₁ t₂ P₂ y < gap t₁ P₁ t₂ P₂ x := by
  have hb : ∀ u ∈ Icc x y, 0 < u ∧ u < 1 := fun u hu => ⟨lt_of_lt_of_le hx hu.1, lt_of_le_of_lt hu.2 hy⟩
  refine strictAntiOn_of_deriv_neg (convex_Icc x y)
    (fun u hu => (gap_deriv t₁ P₁ t₂ P₂ u (hb u hu).1 (hb u hu).2).continuousAt.continuousWithinAt)
    (fun u hu => ?_) (left_mem_Icc.2 hxy.le) (right_mem_Icc.2 hxy.le) hxy
  rw [interior_Icc] at hu
  have h0 := hx.trans hu.1
  rw [(gap_deriv t₁ P₁ t₂ P₂ u h0 (hu.2.trans hy)).deriv]
  exact div_neg_of_neg_of_pos (sub_neg.2 (h u hu.1 hu.2)) (by positivity)

/-- Between two points the difference lies below the larger of its values there. -/
private theorem gap_between (t₁ P₁ t₂ P₂ x u y : ℝ) (ht : t₂ < t₁) (hx : 0 < x) (hxu : x < u) (huy : u < y) (hy : y < 1) :
    gap t₁ P₁ t₂ P₂ u < max (gap t₁ P₁ t₂ P₂ x) (gap t₁ P₁ t₂ P₂ y) := by
  have hd : 0 < t₁ - t₂ := sub_pos.2 ht
  rcases le_or_gt (P₂ - P₁) ((t₁ - t₂) * attr u) with h | h
  · refine lt_max_of_lt_right (gap_mono _ _ _ _ u y (hx.trans hxu) huy hy fun v h1 h2 => ?_)
    exact lt_of_le_of_lt h (mul_lt_mul_of_pos_left (attr_mono (hx.trans hxu) h1 (h2.trans hy)) hd)
  · refine lt_max_of_lt_left (gap_anti _ _ _ _ x u hx hxu (huy.trans hy) fun v h1 h2 => ?_)
    exact (mul_lt_mul_of_pos_left (attr_mono (hx.trans h1) h2 (huy.trans hy)) hd).trans h

/-- The difference is not larger at the stable points of the second state than at those of the first. -/
private theorem gap_le {t₁ x₁ y₁ t₂ x₂ y₂ : ℝ} (h₁ : Coexist t₁ x₁ y₁) (h₂ : Coexist t₂ x₂ y₂) (a b : ℝ) (ha : a = x₁ ∨ a = y₁)
    (hb : b = x₂ ∨ b = y₂) : gap t₁ (reducedP t₁ x₁) t₂ (reducedP t₂ x₂) b ≤ gap t₁ (reducedP t₁ x₁) t₂ (reducedP t₂ x₂) a := by
  have ra : 0 < a ∧ a < 1 := by
    rcases ha with rfl | rfl
    · exact ⟨h₁.pos, h₁.lt.trans h₁.lt_one⟩
    · exact ⟨h₁.pos.trans h₁.lt, h₁.lt_one⟩
  have rb : 0 < b ∧ b < 1 := by
    rcases hb with rfl | rfl
    · exact ⟨h₂.pos, h₂.lt.trans h₂.lt_one⟩
    · exact ⟨h₂.pos.trans h₂.lt, h₂.lt_one⟩
  have k1 := h₁.lowest b rb.1 rb.2
  have k2 := h₂.lowest a ra.1 ra.2
  unfold gap
  rcases ha with rfl | rfl <;> rcases hb with rfl | rfl <;> linarith [k1.1, k1.2, k2.1, k2.2]

/-- **C156** (reduced form): when `t = a / (b R T)` falls, the pressure over the temperature and the packing of the vapour
rise, and the packing of the liquid falls. -/
theorem c156_reduced (t₁ x₁ y₁ t₂ x₂ y₂ : ℝ) (h₁ : Coexist t₁ x₁ y₁) (h₂ : Coexist t₂ x₂ y₂) (ht : t₂ < t₁) :
    reducedP t₁ x₁ < reducedP t₂ x₂ ∧ x₁ < x₂ ∧ y₂ < y₁ := by
  have hd : 0 < t₁ - t₂ := sub_pos.2 ht
  obtain ⟨a1, a2⟩ := h₁.around
  obtain ⟨b1, b2⟩ := h₂.around
  have hx2 : x₂ < 1 := h₂.lt.trans h₂.lt_one
  have hP : reducedP t₁ x₁ < reducedP t₂ x₂ := by
    by_contra hc
    rw [not_lt] at hc
    have := gap_mono t₁ (reducedP t₁ x₁) t₂ (reducedP t₂ x₂) x₁ y₂ h₁.pos (a1.trans b2) h₂.lt_one fun u h1 h2 => by
      have := mul_pos hd (attr_pos (h₁.pos.trans h1) (h2.trans h₂.lt_one))
      linarith
    exact absurd (gap_le h₁ h₂ x₁ y₂ (Or.inl rfl) (Or.inr rfl)) (not_le.2 this)
  have out : ∀ a, a = x₁ ∨ a = y₁ → ¬ (x₂ < a ∧ a < y₂) := by
    rintro a ha ⟨c1, c2⟩
    have := gap_between t₁ (reducedP t₁ x₁) t₂ (reducedP t₂ x₂) x₂ a y₂ ht h₂.pos c1 c2 h₂.lt_one
    exact absurd (max_le (gap_le h₁ h₂ a x₂ ha (Or.inl rfl)) (gap_le h₁ h₂ a y₂ ha (Or.inr rfl))) (not_le.2 this)
  refine ⟨hP, ?_, ?_⟩
  · have hle : x₁ ≤ x₂ := not_lt.1 fun hc => out x₁ (Or.inl rfl) ⟨hc, a1.trans b2⟩
    refine lt_of_le_of_ne hle fun he => ?_
    have e : (t₁ - t₂) * attr x₁ = reducedP t₂ x₂ - reducedP t₁ x₁ := by rw [← press_diff, he]
    have := gap_mono t₁ (reducedP t₁ x₁) t₂ (reducedP t₂ x₂) x₁ y₂ h₁.pos (a1.trans b2) h₂.lt_one fun u h1 h2 => by
      rw [← e]
      exact mul_lt_mul_of_pos_left (attr_mono h₁.pos h1 (h2.trans h₂.lt_one)) hd
    exact absurd (gap_le h₁ h₂ x₁ y₂ (Or.inl rfl) (Or.inr rfl)) (not_le.2 this)
  · have hle : y₂ ≤ y₁ := not_lt.1 fun hc => out y₁ (Or.inr rfl) ⟨b1.trans a2, hc⟩
    refine lt_of_le_of_ne hle fun he => ?_
    have e : (t₁ - t₂) * attr y₁ = reducedP t₂ x₂ - reducedP t₁ x₁ := by
      rw [← press_diff, h₁.press, h₂.press, he]
    have := gap_anti t₁ (reducedP t₁ x₁) t₂ (reducedP t₂ x₂) x₂ y₁ h₂.pos (b1.trans a2) h₁.lt_one fun u h1 h2 => by
      rw [← e]
      exact mul_lt_mul_of_pos_left (attr_mono (h₂.pos.trans h1) h2 h₁.lt_one) hd
    exact absurd (gap_le h₁ h₂ y₁ x₂ (Or.inr rfl) (Or.inl rfl)) (not_le.2 this)

/-- **C156** (reduced form, end of the line): the pressure over the temperature stays below that of the critical point. -/
theorem c156_reduced_below (t x y : ℝ) (h : Coexist t x y) : reducedP t x < reducedP critT critU := by
  have hd : 0 < t - critT := sub_pos.2 h.crit
  obtain ⟨a1, a2⟩ := h.around
  by_contra hc
  rw [not_lt] at hc
  have up := gap_mono t (reducedP t x) critT (reducedP critT critU) x critU h.pos a1 critU_lt fun u h1 h2 => by
    have := mul_pos hd (attr_pos (h.pos.trans h1) (h2.trans critU_lt))
    linarith
  have k1 := (h.lowest critU critU_pos critU_lt).1
  have k2 : pot critT (reducedP critT critU) critU ≤ pot critT (reducedP critT critU) x :=
    pot_anti _ _ x critU h.pos a1.le critU_lt fun v h1 h2 =>
      (reducedP_strictMono critT le_rfl ⟨(h.pos.trans h1).le, h2.trans critU_lt⟩ ⟨critU_pos.le, critU_lt⟩ h2).le
  unfold gap at up
  linarith

/-! ## A pure substance -/

theorem saturated_coexist {R T : ℝ} {q : Par 1} (hRT : 0 < R * T) (hb : 0 < q.bi 0) (ha : 0 < q.ai 0 * q.alpha 0) (hk : q.kij 0 0 = 0)
    (s : ℝ × ℝ) (hs : Saturated R T q s) : Coexist (pureT R T q) (q.bi 0 * s.1) (q.bi 0 * s.2) := by
  have hcr : critT * (q.bi 0 * (R * T)) < q.ai 0 * q.alpha 0 := by
    by_contra hc
    exact c136_none hRT hb ha hk (not_lt.1 hc) s hs
  obtain ⟨h1, h2, h3, -, h5, h6⟩ := (saturated_reduced hRT hb ha hk s).1 hs
  exact ⟨(lt_div_iff₀ (mul_pos hb hRT)).2 hcr, h1, h2, h3, h5, h6⟩

/-- **C156** (any parameters): two saturation states of one substance, with `α(T) / T` smaller at the second temperature.  The second has the denser vapour, the
lighter liquid and, if it is the hotter one, the higher pressure. -/
theorem c156_line (R T₁ T₂ : ℝ) (q₁ q₂ : Par 1) (s₁ s₂ : ℝ × ℝ) (hR : 0 < R) (hT₁ : 0 < T₁) (hT₂ : 0 < T₂) (hb : 0 < q₁.bi 0)
    (ha₁ : 0 < q₁.ai 0 * q₁.alpha 0) (ha₂ : 0 < q₂.ai 0 * q₂.alpha 0) (hk₁ : q₁.kij 0 0 = 0) (hk₂ : q₂.kij 0 0 = 0)
    (hbb : q₂.bi 0 = q₁.bi 0) (hs₁ : Saturated R T₁ q₁ s₁) (hs₂ : Saturated R T₂ q₂ s₂)
    (h : q₂.ai 0 * q₂.alpha 0 / T₂ < q₁.ai 0 * q₁.alpha 0 / T₁) :
    s₁.1 < s₂.1 ∧ s₂.2 < s₁.2 ∧
      (T₁ ≤ T₂ → pressure R T₁ q₁ (fun _ => 1) s₁.1 < pressure R T₂ q₂ (fun _ => 1) s₂.1) := by
  have hRT₁ := mul_pos hR hT₁
  have hRT₂ := mul_pos hR hT₂
  have hb₂ : 0 < q₂.bi 0 := hbb ▸ hb
  have c₁ := saturated_coexist hRT₁ hb ha₁ hk₁ s₁ hs₁
  have c₂ := saturated_coexist hRT₂ hb₂ ha₂ hk₂ s₂ hs₂
  have ht : pureT R T₂ q₂ < pureT R T₁ q₁ := by
    have e : ∀ (T : ℝ) (q : Par 1), pureT R T q = q.ai 0 * q.alpha 0 / T / (q.bi 0 * R) := fun T q => by
      unfold pureT
      rw [div_div]
      congr 1
      ring
    rw [e, e, hbb]
    exact div_lt_div_of_pos_right h (mul_pos hb hR)
  obtain ⟨p, l, v⟩ := c156_reduced _ _ _ _ _ _ c₁ c₂ ht
  rw [hbb] at l v
  refine ⟨lt_of_mul_lt_mul_left l hb.le, lt_of_mul_lt_mul_left v hb.le, fun hTT => ?_⟩
  rw [pure_pressure hRT₁ hb ha₁ hk₁, pure_pressure hRT₂ hb₂ ha₂ hk₂]
  have hp : 0 < reducedP (pureT R T₁ q₁) (q₁.bi 0 * s₁.1) := ((saturated_reduced hRT₁ hb ha₁ hk₁ s₁).1 hs₁).2.2.2.1
  have hw : R * T₁ / q₁.bi 0 ≤ R * T₂ / q₂.bi 0 := by
    rw [hbb]
    exact div_le_div_of_nonneg_right (mul_le_mul_of_nonneg_left hTT hR.le) hb.le
  exact mul_lt_mul_of_le_of_lt_of_nonneg_of_pos hw p hp.le (div_pos hRT₂ hb₂)

private theorem sqrt_lt {T₁ T₂ Tc : ℝ} (hTc : 0 < Tc) (hT₁ : 0 < T₁) (h : T₁ < T₂) : √(T₁ / Tc) < √(T₂ / Tc) :=
  Real.sqrt_lt_sqrt (div_pos hT₁ hTc).le (div_lt_div_of_pos_right h hTc)

/-- The attraction over the temperature is, up to a constant, the square of `(1 + κ) / √(T/Tc) - κ`. -/
private theorem ratio_form (R κ Tc Pc T : ℝ) (hTc : 0 < Tc) (hT : 0 < T) :
    (pureSubstance R κ Tc Pc T).ai 0 * (pureSubstance R κ Tc Pc T).alpha 0 / T =
      (realFormulas R).ai Tc Pc / Tc * ((1 + κ) / √(T / Tc) - κ) ^ 2 := by
  obtain ⟨h0, h2⟩ := sqrt_ratio T Tc hTc hT
  simp only [pureSubstance, realFormulas]
  set w := √(T / Tc)
  have hT' : T = w ^ 2 * Tc := by rw [h2]; field_simp
  rw [hT']
  field_simp
  ring

/-- **C156**: as long as `α` falls (in particular up to the critical temperature), heating raises the saturation pressure and the density of the vapour, and
lowers the density of the liquid. -/
theorem c156_heating (R κ Tc Pc T₁ T₂ : ℝ) (s₁ s₂ : ℝ × ℝ) (hR : 0 < R) (hTc : 0 < Tc) (hPc : 0 < Pc) (hk0 : 0 ≤ κ) (hT₁ : 0 < T₁)
    (hT : T₁ < T₂) (hα : 0 < 1 + κ * (1 - √(T₂ / Tc))) (hs₁ : Saturated R T₁ (pureSubstance R κ Tc Pc T₁) s₁)
    (hs₂ : Saturated R T₂ (pureSubstance R κ Tc Pc T₂) s₂) :
    pressure R T₁ (pureSubstance R κ Tc Pc T₁) (fun _ => 1) s₁.1 < pressure R T₂ (pureSubstance R κ Tc Pc T₂) (fun _ => 1) s₂.1 ∧
      s₁.1 < s₂.1 ∧ s₂.2 < s₁.2 := by
  have hT₂ := hT₁.trans hT
  have hw := sqrt_lt hTc hT₁ hT
  have w1 := (sqrt_ratio T₁ Tc hTc hT₁).1
  have w2 := (sqrt_ratio T₂ Tc hTc hT₂).1
  have hα₁ : 0 < 1 + κ * (1 - √(T₁ / Tc)) := by
    have := mul_le_mul_of_nonneg_left hw.le hk0
    linarith
  obtain ⟨b₁, a₁, k₁⟩ := pureSubstance_pos R κ Tc Pc T₁ hR hTc hPc hα₁.ne'
  obtain ⟨-, a₂, k₂⟩ := pureSubstance_pos R κ Tc Pc T₂ hR hTc hPc hα.ne'
  have key : (pureSubstance R κ Tc Pc T₂).ai 0 * (pureSubstance R κ Tc Pc T₂).alpha 0 / T₂ <
      (pureSubstance R κ Tc Pc T₁).ai 0 * (pureSubstance R κ Tc Pc T₁).alpha 0 / T₁ := by
    rw [ratio_form R κ Tc Pc T₁ hTc hT₁, ratio_form R κ Tc Pc T₂ hTc hT₂]
    have h0 : 0 ≤ (1 + κ) / √(T₂ / Tc) - κ := by
      rw [sub_nonneg, le_div_iff₀ w2]
      linarith
    have h1 : (1 + κ) / √(T₂ / Tc) < (1 + κ) / √(T₁ / Tc) := div_lt_div_of_pos_left (by linarith) w1 hw
    have hc : 0 < (realFormulas R).ai Tc Pc / Tc := by
      simp only [realFormulas]
      positivity
    exact mul_lt_mul_of_pos_left (pow_lt_pow_left₀ (by linarith) h0 two_ne_zero) hc
  obtain ⟨x, y, z⟩ := c156_line R T₁ T₂ _ _ s₁ s₂ hR hT₁ hT₂ b₁ a₁ a₂ k₁ k₂ rfl hs₁ hs₂ key
  exact ⟨z hT.le, x, y⟩

/-- **C156** (up to the critical temperature of the library): the saturation states exist, and heating orders them. -/
theorem c156_subcritical (R κ Tc Pc T₁ T₂ : ℝ) (hR : 0 < R) (hTc : 0 < Tc) (hPc : 0 < Pc) (hk0 : 0 ≤ κ) (hT₁ : 0 < T₁)
    (hT : T₁ < T₂) (hT₂ : T₂ ≤ Tc) : ∃ s₁ s₂ : ℝ × ℝ, (∀ s, Saturated R T₁ (pureSubstance R κ Tc Pc T₁) s ↔ s = s₁) ∧
      (∀ s, Saturated R T₂ (pureSubstance R κ Tc Pc T₂) s ↔ s = s₂) ∧
      pressure R T₁ (pureSubstance R κ Tc Pc T₁) (fun _ => 1) s₁.1 < pressure R T₂ (pureSubstance R κ Tc Pc T₂) (fun _ => 1) s₂.1 ∧
      s₁.1 < s₂.1 ∧ s₂.1 < s₂.2 ∧ s₂.2 < s₁.2 := by
  obtain ⟨s₁, h₁, u₁⟩ := c136_subcritical R κ Tc Pc T₁ hR hTc hPc hk0 hT₁ (hT.le.trans hT₂)
  obtain ⟨s₂, h₂, u₂⟩ := c136_subcritical R κ Tc Pc T₂ hR hTc hPc hk0 (hT₁.trans hT) hT₂
  have hα : 0 < 1 + κ * (1 - √(T₂ / Tc)) := by
    have : √(T₂ / Tc) ≤ 1 := Real.sqrt_le_one.2 ((div_le_one hTc).2 hT₂)
    have : 0 ≤ κ * (1 - √(T₂ / Tc)) := mul_nonneg hk0 (by linarith)
    linarith
  obtain ⟨p, x, y⟩ := c156_heating R κ Tc Pc T₁ T₂ s₁ s₂ hR hTc hPc hk0 hT₁ hT hα h₁ h₂
  exact ⟨s₁, s₂, fun s => ⟨u₁ s, fun e => e ▸ h₁⟩, fun s => ⟨u₂ s, fun e => e ▸ h₂⟩, p, x, h₂.2.1, y⟩

/-- **C156** (end of the line): the saturation pressure over the temperature stays below the critical pressure of the library over its critical temperature,
up to a millionth. -/
theorem c156_below_critical (R κ Tc Pc T : ℝ) (s : ℝ × ℝ) (hR : 0 < R) (hTc : 0 < Tc) (hPc : 0 < Pc) (hT : 0 < T)
    (hα : 1 + κ * (1 - √(T / Tc)) ≠ 0) (hs : Saturated R T (pureSubstance R κ Tc Pc T) s) :
    pressure R T (pureSubstance R κ Tc Pc T) (fun _ => 1) s.1 < (1 + 1 / 10 ^ 6) * Pc * (T / Tc) := by
  have hRT := mul_pos hR hT
  obtain ⟨hb, ha, hk⟩ := pureSubstance_pos R κ Tc Pc T hR hTc hPc hα
  have h := c156_reduced_below _ _ _ (saturated_coexist hRT hb ha hk s hs)
  have hc : reducedP critT critU ≤ 0.07779607 * (1 + 1 / 10 ^ 6) := by
    obtain ⟨h1, h2, -⟩ := critU_spec
    have hD := pr_den critU critU_pos.le critU_lt
    have ht := critT_bounds.1
    unfold reducedP
    have hi1 : critU / (1 - critU) ≤ (253076587 / 10 ^ 9) / (1 - 253076587 / 10 ^ 9) := by
      rw [div_le_div_iff₀ (by linarith) (by norm_num)]; nlinarith
    have lo2 : (253076586 / 10 ^ 9) ^ 2 / (1 + 2 * (253076586 / 10 ^ 9) - (253076586 / 10 ^ 9) ^ 2) ≤
        critU ^ 2 / (1 + 2 * critU - critU ^ 2) := by
      rw [div_le_div_iff₀ (by norm_num) hD]; nlinarith
    have := mul_le_mul ht.le lo2 (by norm_num) (by linarith)
    have hn : (253076587 / 10 ^ 9) / (1 - 253076587 / 10 ^ 9) -
        5.8773599 * ((253076586 / 10 ^ 9) ^ 2 / (1 + 2 * (253076586 / 10 ^ 9) - (253076586 / 10 ^ 9) ^ 2)) ≤
          (0.07779607 * (1 + 1 / 10 ^ 6) : ℝ) := by norm_num
    linarith
  rw [pure_pressure hRT hb ha hk]
  have e : R * T / (pureSubstance R κ Tc Pc T).bi 0 = Pc * (T / Tc) / 0.07779607 := by
    simp only [pureSubstance, realFormulas]
    field_simp
  have hw : 0 < R * T / (pureSubstance R κ Tc Pc T).bi 0 := div_pos hRT hb
  refine lt_of_lt_of_le (mul_lt_mul_of_pos_left (lt_of_lt_of_le h hc) hw) (le_of_eq ?_)
  rw [e]
  field_simp

/-- **C156, violated** (hot fluids): with `κ > 1` there are saturation states again far above the critical temperature, and along them heating thins the
vapour and compresses the liquid. -/
theorem c156_violated_hot (R κ Tc Pc T₁ T₂ : ℝ) (hR : 0 < R) (hTc : 0 < Tc) (hPc : 0 < Pc) (hk : 1 < κ)
    (hT₁ : ((κ + 1) / (κ - 1)) ^ 2 ≤ T₁ / Tc) (hT : T₁ < T₂) : ∃ s₁ s₂ : ℝ × ℝ, Saturated R T₁ (pureSubstance R κ Tc Pc T₁) s₁ ∧
      Saturated R T₂ (pureSubstance R κ Tc Pc T₂) s₂ ∧ s₂.1 < s₁.1 ∧ s₁.2 < s₂.2 := by
  have hT₂' : ((κ + 1) / (κ - 1)) ^ 2 ≤ T₂ / Tc := hT₁.trans (div_le_div_of_nonneg_right hT.le hTc.le)
  obtain ⟨hc, s₁, hs₁, -⟩ := c136_violated_hot R κ Tc Pc T₁ hR hTc hPc hk hT₁
  obtain ⟨-, s₂, hs₂, -⟩ := c136_violated_hot R κ Tc Pc T₂ hR hTc hPc hk hT₂'
  have h1 : 0 < T₁ := hTc.trans hc
  have h2 := h1.trans hT
  have hk' : 0 < κ - 1 := by linarith
  have hw := sqrt_lt hTc h1 hT
  obtain ⟨w1, e1⟩ := sqrt_ratio T₁ Tc hTc h1
  have w2 := w1.trans hw
  have hq : (κ + 1) / (κ - 1) ≤ √(T₁ / Tc) := by
    rw [← e1] at hT₁
    exact le_of_sq_le_sq hT₁ w1.le
  have hn : 1 + κ * (1 - √(T₁ / Tc)) < 0 := by
    rw [div_le_iff₀ hk'] at hq
    linarith
  have hn₂ : 1 + κ * (1 - √(T₂ / Tc)) < 0 := by nlinarith
  obtain ⟨b₁, a₁, k₁⟩ := pureSubstance_pos R κ Tc Pc T₁ hR hTc hPc hn.ne
  obtain ⟨b₂, a₂, k₂⟩ := pureSubstance_pos R κ Tc Pc T₂ hR hTc hPc hn₂.ne
  have key : (pureSubstance R κ Tc Pc T₁).ai 0 * (pureSubstance R κ Tc Pc T₁).alpha 0 / T₁ <
      (pureSubstance R κ Tc Pc T₂).ai 0 * (pureSubstance R κ Tc Pc T₂).alpha 0 / T₂ := by
    rw [ratio_form R κ Tc Pc T₁ hTc h1, ratio_form R κ Tc Pc T₂ hTc h2]
    have h0 : (1 + κ) / √(T₁ / Tc) - κ < 0 := by
      rw [sub_neg, div_lt_iff₀ w1]
      linarith
    have h1 : (1 + κ) / √(T₂ / Tc) < (1 + κ) / √(T₁ / Tc) := div_lt_div_of_pos_left (by linarith) w1 hw
    have hc : 0 < (realFormulas R).ai Tc Pc / Tc := by
      simp only [realFormulas]
      positivity
    refine mul_lt_mul_of_pos_left ?_ hc
    nlinarith
  obtain ⟨x, y, -⟩ := c156_line R T₂ T₁ _ _ s₂ s₁ hR h2 h1 b₂ a₂ a₁ k₂ k₁ rfl hs₂ hs₁ key
  exact ⟨s₁, s₂, hs₁, hs₂, x, y⟩

/-- A substance with `κ = 1/2`, critical temperature 300 and critical pressure 5, at 150 and at 300. -/
example : ∃ s₁ s₂ : ℝ × ℝ, (∀ s, Saturated 8 150 (pureSubstance 8 (1 / 2) 300 5 150) s ↔ s = s₁) ∧
    (∀ s, Saturated 8 300 (pureSubstance 8 (1 / 2) 300 5 300) s ↔ s = s₂) ∧
    pressure 8 150 (pureSubstance 8 (1 / 2) 300 5 150) (fun _ => 1) s₁.1 < pressure 8 300 (pureSubstance 8 (1 / 2) 300 5 300) (fun _ => 1) s₂.1 ∧
    s₁.1 < s₂.1 ∧ s₂.1 < s₂.2 ∧ s₂.2 < s₁.2 :=
  c156_subcritical 8 (1 / 2) 300 5 150 300 (by norm_num) (by norm_num) (by norm_num) (by norm_num) (by norm_num) (by norm_num) le_rfl

/-- One with `κ = 2`, at nine and at ten times the critical temperature. -/
example : ∃ s₁ s₂ : ℝ × ℝ, Saturated 8 2700 (pureSubstance 8 2 300 5 2700) s₁ ∧ Saturated 8 3000 (pureSubstance 8 2 300 5 3000) s₂ ∧
    s₂.1 < s₁.1 ∧ s₁.2 < s₂.2 :=
  c156_violated_hot 8 2 300 5 2700 3000 (by norm_num) (by norm_num) (by norm_num) (by norm_num) (by norm_num) (by norm_num)

/-- Two packings in equilibrium, for every `t` above the critical one. -/
example (t : ℝ) (ht : critT < t) : ∃ x y, Coexist t x y := by
  have h : ∀ q : Par 1, q = ⟨fun _ => t, fun _ => 1, fun _ => 1, fun _ _ => 0⟩ → ∃ x y, Coexist (pureT 1 1 q) x y := by
    rintro q rfl
    have ht0 : (0 : ℝ) < t := lt_trans (by linarith [critT_bounds.1]) ht
    obtain ⟨s, hs, -⟩ := c136_saturation (R := 1) (T := 1) (q := ⟨fun _ => t, fun _ => 1, fun _ => 1, fun _ _ => 0⟩) (by norm_num) one_pos
      (by simpa using ht0) rfl (by simpa using ht)
    exact ⟨_, _, saturated_coexist (by norm_num) one_pos (by simpa using ht0) rfl s hs⟩
  simpa [pureT] using h _ rfl

/-! ## Where the line ends -/

/-- **C136** (exact condition): a saturation state exists exactly if the attraction exceeds the critical one. -/
theorem c136_exact (R κ Tc Pc T : ℝ) (hR : 0 < R) (hTc : 0 < Tc) (hPc : 0 < Pc) (hT : 0 < T) :
    (∃ s, Saturated R T (pureSubstance R κ Tc Pc T) s) ↔
      critT * 0.07779607 * (T / Tc) < 0.45723553 * (1 + κ * (1 - √(T / Tc))) ^ 2 := by
  have hRT := mul_pos hR hT
  have hr := pure_ratio R κ Tc Pc T hR hTc hPc hT
  have hb : 0 < bmix (pureSubstance R κ Tc Pc T) (fun _ => 1) := by rw [pure_bmix]; positivity
  have none_of : amix (pureSubstance R κ Tc Pc T) (fun _ => 1) ≤ critT * (bmix (pureSubstance R κ Tc Pc T) (fun _ => 1) * (R * T)) →
      ¬ ∃ s, Saturated R T (pureSubstance R κ Tc Pc T) s := by
    rintro hle ⟨s, hs⟩
    obtain ⟨ρ, -, hu⟩ := c135_one_density R T _ _ _ hRT hb hle hs.2.2.2.1
    have e : bmix (pureSubstance R κ Tc Pc T) (fun _ => 1) = (pureSubstance R κ Tc Pc T).bi 0 := by
      simp [bmix]
    have hb1 := hs.2.2.1
    rw [← e] at hb1
    have k1 := hu s.1 ⟨hs.1, hs.2.1.trans hb1, rfl⟩
    have k2 := hu s.2 ⟨hs.1.trans hs.2.1, hb1, hs.2.2.2.2.1.symm⟩
    exact absurd (k1.trans k2.symm) hs.2.1.ne
  constructor
  · intro h
    by_contra hc
    exact none_of (hr.2 (not_lt.1 hc)) h
  · intro h
    have hα : 1 + κ * (1 - √(T / Tc)) ≠ 0 := by
      intro h0
      rw [h0] at h
      have ht : 0 < critT := lt_trans (by norm_num) critT_bounds.1
      have : 0 < critT * 0.07779607 * (T / Tc) := by positivity
      linarith
    obtain ⟨hb', ha, hk⟩ := pureSubstance_pos R κ Tc Pc T hR hTc hPc hα
    obtain ⟨e1, e2⟩ := pure_mix (pureSubstance R κ Tc Pc T) ha hk
    refine (c136_saturation hRT hb' ha hk ?_).exists
    rw [← e1, ← e2, ← not_le, hr]
    exact not_le.2 h

/-- The root of the attraction at the critical temperature of the library over the critical one. -/
noncomputable def critG : ℝ := √(0.45723553 / (critT * 0.07779607))

theorem critG_bounds : 1 < critG ∧ critG ≤ 1 + 34 / 10 ^ 9 ∧ critG ^ 2 = 0.45723553 / (critT * 0.07779607) := by
  obtain ⟨h1, h2⟩ := critT_bounds
  have hp : 0 < critT * 0.07779607 := by linarith
  refine ⟨?_, ?_, Real.sq_sqrt (by positivity)⟩
  · unfold critG
    rw [Real.lt_sqrt (by norm_num), one_pow, lt_div_iff₀ hp]
    linarith
  · unfold critG
    rw [Real.sqrt_le_left (by norm_num), div_le_iff₀ hp]
    nlinarith

/-- **C136** (the critical temperature of the equation): for `κ` below one a saturation state exists exactly below one temperature, the square of `(1+κ) g / (1+κ g)`
times the critical temperature of the library, where `g` is the root of the ratio of the rounded constants; it lies above that of the library by at most
`7 · 10⁻⁸`. -/
theorem c136_critical_temperature (R κ Tc Pc T : ℝ) (hR : 0 < R) (hTc : 0 < Tc) (hPc : 0 < Pc) (hT : 0 < T) (hk0 : 0 ≤ κ) (hk1 : κ ≤ 999 / 1000) :
    ((∃ s, Saturated R T (pureSubstance R κ Tc Pc T) s) ↔ T < ((1 + κ) * critG / (1 + κ * critG)) ^ 2 * Tc) ∧
      1 < ((1 + κ) * critG / (1 + κ * critG)) ^ 2 ∧ ((1 + κ) * critG / (1 + κ * critG)) ^ 2 ≤ 1 + 7 / 10 ^ 8 := by
  obtain ⟨g1, g2, g3⟩ := critG_bounds
  have ht : 0 < critT * 0.07779607 := by linarith [critT_bounds.1]
  have hden : 0 < 1 + κ * critG := by nlinarith
  have hlow : 1 < (1 + κ) * critG / (1 + κ * critG) := by rw [lt_div_iff₀ hden]; nlinarith
  have hhigh : (1 + κ) * critG / (1 + κ * critG) ≤ 1 + 34 / 10 ^ 9 := by rw [div_le_iff₀ hden]; nlinarith [mul_nonneg hk0 (by linarith : 0 ≤ critG - 1)]
  refine ⟨?_, by nlinarith, by nlinarith⟩
  rw [c136_exact R κ Tc Pc T hR hTc hPc hT]
  obtain ⟨w0, w2⟩ := sqrt_ratio T Tc hTc hT
  set w := √(T / Tc)
  have e1 : critT * 0.07779607 * (T / Tc) < 0.45723553 * (1 + κ * (1 - w)) ^ 2 ↔ w ^ 2 < (critG * (1 + κ * (1 - w))) ^ 2 := by
    rw [mul_pow, g3, ← w2, div_mul_eq_mul_div, lt_div_iff₀ ht, mul_comm (w ^ 2)]
  have e2 : T < ((1 + κ) * critG / (1 + κ * critG)) ^ 2 * Tc ↔ w < (1 + κ) * critG / (1 + κ * critG) := by
    rw [← div_lt_iff₀ hTc, ← w2]
    exact pow_lt_pow_iff_left₀ w0.le (by linarith) two_ne_zero
  rw [e1, e2, lt_div_iff₀ hden, sq_lt_sq, abs_of_pos w0]
  constructor
  · intro h
    rcases le_or_gt 0 (critG * (1 + κ * (1 - w))) with hc | hc
    · rw [abs_of_nonneg hc] at h
      nlinarith
    · exfalso
      rw [abs_of_neg hc] at h
      have : κ * critG ≤ 1 := by nlinarith
      nlinarith
  · intro h
    refine lt_of_lt_of_le ?_ (le_abs_self _)
    nlinarith

/-- Half of the critical temperature, and twice it, with `κ = 1/2`. -/
example : (∃ s, Saturated 8 150 (pureSubstance 8 (1 / 2) 300 5 150) s) ∧ ¬ ∃ s, Saturated 8 600 (pureSubstance 8 (1 / 2) 300 5 600) s := by
  obtain ⟨a, b, -⟩ := c136_critical_temperature 8 (1 / 2) 300 5 150 (by norm_num) (by norm_num) (by norm_num) (by norm_num) (by norm_num) (by norm_num)
  obtain ⟨c, -, d⟩ := c136_critical_temperature 8 (1 / 2) 300 5 600 (by norm_num) (by norm_num) (by norm_num) (by norm_num) (by norm_num) (by norm_num)
  rw [a, c]
  constructor <;> linarith

end Verif.Props
