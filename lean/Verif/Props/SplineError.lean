import Verif.Props.PengRobinsonSaturation

/-! # C166: what an error of the splines does to the saturation pressure -/

namespace Verif.Props
open Verif Verif.PengRobinson Filter Topology Set MeasureTheory

/-- The area below a curve that stays below `f - c`, from above. -/
private theorem area_above {f g : ℝ → ℝ} {r0 r2 v0 v2 c d : ℝ} (hr : r0 ≤ r2) (h0 : r0 ≤ v0)
    (hf : ∀ a b, r0 ≤ a → r0 ≤ b → IntervalIntegrable f volume a b) (hg : IntervalIntegrable g volume r0 r2)
    (hA : ∀ v, r0 ≤ v → v ≤ v0 → f v ≤ c + d) (hv : r0 ≤ v2) (hB : ∀ v, r2 ≤ v → v ≤ v2 → c ≤ f v) (hB' : ∀ v, v2 ≤ v → v ≤ r2 → f v ≤ c)
    (hC : ∀ v, r0 ≤ v → v ≤ r2 → g v ≤ f v - c) : ∫ v in r0..r2, g v ≤ d * (v0 - r0) + ∫ v in v0..v2, (f v - c) := by
  have hi : ∀ a b, r0 ≤ a → r0 ≤ b → IntervalIntegrable (fun v => f v - c) volume a b := fun a b h1 h2 =>
    (hf a b h1 h2).sub intervalIntegrable_const
  have e1 : ∫ v in r0..r2, g v ≤ ∫ v in r0..r2, (f v - c) :=
    intervalIntegral.integral_mono_on hr hg (hi _ _ le_rfl hr) fun v hv => hC v hv.1 hv.2
  have e2 := intervalIntegral.integral_add_adjacent_intervals (hi r0 v0 le_rfl h0) (hi v0 v2 h0 hv)
  have e3 := intervalIntegral.integral_add_adjacent_intervals (hi r0 v2 le_rfl hv) (hi v2 r2 hv hr)
  have e4 : ∫ v in r0..v0, (f v - c) ≤ d * (v0 - r0) := by
    have := intervalIntegral.integral_mono_on h0 (hi r0 v0 le_rfl h0) (intervalIntegrable_const (c := d))
      fun v hv => by have := hA v hv.1 hv.2; linarith
    rw [intervalIntegral.integral_const, smul_eq_mul, mul_comm] at this
    exact this
  have e5 : ∫ v in v2..r2, (f v - c) ≤ 0 := by
    rcases le_total v2 r2 with h | h
    · have := intervalIntegral.integral_mono_on h (hi v2 r2 hv hr) (intervalIntegrable_const (c := (0 : ℝ)))
        fun v hv => by have := hB' v hv.1 hv.2; linarith
      simpa using this
    · rw [intervalIntegral.integral_symm, neg_nonpos]
      exact intervalIntegral.integral_nonneg h fun v hv => by have := hB v hv.1 hv.2; linarith
  linarith

/-- The area below a curve that stays above `f - c`, from below. -/
private theorem area_below {f g : ℝ → ℝ} {r0 r2 v0 v2 c d m : ℝ} (hr : r0 ≤ r2) (h2 : v2 ≤ r2) (h0 : m ≤ r0) (hv0 : m ≤ v0) (hv2 : m ≤ v2)
    (hf : ∀ a b, m ≤ a → m ≤ b → IntervalIntegrable f volume a b) (hg : IntervalIntegrable g volume r0 r2)
    (hA : ∀ v, v2 ≤ v → v ≤ r2 → c - d ≤ f v) (hB : ∀ v, r0 ≤ v → v ≤ v0 → c ≤ f v) (hB' : ∀ v, v0 ≤ v → v ≤ r0 → f v ≤ c)
    (hC : ∀ v, r0 ≤ v → v ≤ r2 → f v - c ≤ g v) : (∫ v in v0..v2, (f v - c)) - d * (r2 - v2) ≤ ∫ v in r0..r2, g v := by
  have hm2 := h0.trans hr
  have hi : ∀ a b, m ≤ a → m ≤ b → IntervalIntegrable (fun v => f v - c) volume a b := fun a b h1 h2 =>
    (hf a b h1 h2).sub intervalIntegrable_const
  have e1 : ∫ v in r0..r2, (f v - c) ≤ ∫ v in r0..r2, g v :=
    intervalIntegral.integral_mono_on hr (hi _ _ h0 hm2) hg fun v hv => hC v hv.1 hv.2
  have e2 := intervalIntegral.integral_add_adjacent_intervals (hi r0 v0 h0 hv0) (hi v0 v2 hv0 hv2)
  have e3 := intervalIntegral.integral_add_adjacent_intervals (hi r0 v2 h0 hv2) (hi v2 r2 hv2 hm2)
  have e4 : -(d * (r2 - v2)) ≤ ∫ v in v2..r2, (f v - c) := by
    have := intervalIntegral.integral_mono_on h2 (intervalIntegrable_const (c := -d)) (hi v2 r2 hv2 hm2)
      fun v hv => by have := hA v hv.1 hv.2; linarith
    rw [intervalIntegral.integral_const, smul_eq_mul] at this
    linarith
  have e5 : 0 ≤ ∫ v in r0..v0, (f v - c) := by
    rcases le_total r0 v0 with h | h
    · exact intervalIntegral.integral_nonneg h fun v hv => by have := hB v hv.1 hv.2; linarith
    · rw [intervalIntegral.integral_symm, neg_nonneg]
      have := intervalIntegral.integral_mono_on h (hi v0 r0 hv0 h0) (intervalIntegrable_const (c := (0 : ℝ)))
        fun v hv => by have := hB' v hv.1 hv.2; linarith
      simpa using this
  linarith

section
variable {R T : ℝ} {q : Par 1}
variable (hRT : 0 < R * T) (hb : 0 < q.bi 0) (ha : 0 < q.ai 0 * q.alpha 0) (hk : q.kij 0 0 = 0)
include hRT hb ha hk

/-- The pressure rises, falls and rises with the density, and of three densities with the same pressure one lies on each branch. -/
theorem three_loop (P x y z : ℝ) (h : Three R T q P x y z) : ∃ U₁ U₂, 0 < U₁ ∧ U₁ < U₂ ∧ U₂ < 1 / q.bi 0 ∧
    StrictMonoOn (pressure R T q (fun _ => 1)) (Icc 0 U₁) ∧ StrictAntiOn (pressure R T q (fun _ => 1)) (Icc U₁ U₂) ∧
    StrictMonoOn (pressure R T q (fun _ => 1)) (Ico U₂ (1 / q.bi 0)) ∧
    ∀ P x y z, Three R T q P x y z → x ≤ U₁ ∧ U₁ ≤ y ∧ y ≤ U₂ ∧ U₂ ≤ z := by
  have hc : 0 < R * T / q.bi 0 := div_pos hRT hb
  have lift : ∀ {a c : ℝ}, a < c → q.bi 0 * a < q.bi 0 * c := fun h => mul_lt_mul_of_pos_left h hb
  have one : ∀ {a : ℝ}, a < 1 / q.bi 0 → q.bi 0 * a < 1 := fun h => by rw [mul_comm]; exact (lt_div_iff₀ hb).1 h
  have hp := pure_pressure hRT hb ha hk
  set t := pureT R T q with ht
  have red : ∀ {a c : ℝ}, pressure R T q (fun _ => 1) a = pressure R T q (fun _ => 1) c →
      reducedP t (q.bi 0 * a) = reducedP t (q.bi 0 * c) := fun {a c} h => by
    rw [hp, hp] at h; exact mul_left_cancel₀ hc.ne' h
  have hcr : critT < t := by
    obtain ⟨p0, px, pxy, pyz, pz, ex, ey, ez⟩ := h
    by_contra hcc
    rw [not_lt] at hcc
    have := reducedP_strictMono t hcc ⟨(mul_pos hb px).le, (lift (pxy.trans pyz)).trans (one pz)⟩
      ⟨(mul_pos hb (px.trans pxy)).le, (lift pyz).trans (one pz)⟩ (lift pxy)
    exact absurd (red (ex.trans ey.symm)) this.ne
  obtain ⟨u₁, u₂, L⟩ := loop_exists t hcr
  have to1 : ∀ {w u : ℝ}, w ≤ u / q.bi 0 ↔ q.bi 0 * w ≤ u := fun {w u} => by rw [le_div_iff₀ hb, mul_comm]
  have to2 : ∀ {w u : ℝ}, u / q.bi 0 ≤ w ↔ u ≤ q.bi 0 * w := fun {w u} => by rw [div_le_iff₀ hb, mul_comm]
  refine ⟨u₁ / q.bi 0, u₂ / q.bi 0, div_pos L.pos hb, div_lt_div_of_pos_right L.lt hb, div_lt_div_of_pos_right L.lt_one hb, ?_, ?_, ?_, ?_⟩
  · intro a h1 c h2 hac
    rw [hp, hp]
    exact mul_lt_mul_of_pos_left (L.mono1 ⟨mul_nonneg hb.le h1.1, to1.1 h1.2⟩ ⟨mul_nonneg hb.le h2.1, to1.1 h2.2⟩ (lift hac)) hc
  · intro a h1 c h2 hac
    rw [hp, hp]
    exact mul_lt_mul_of_pos_left (L.anti ⟨to2.1 h1.1, to1.1 h1.2⟩ ⟨to2.1 h2.1, to1.1 h2.2⟩ (lift hac)) hc
  · intro a h1 c h2 hac
    rw [hp, hp]
    exact mul_lt_mul_of_pos_left (L.mono2 ⟨to2.1 h1.1, one h1.2⟩ ⟨to2.1 h2.1, one h2.2⟩ (lift hac)) hc
  · rintro P x y z ⟨p0, px, pxy, pyz, pz, ex, ey, ez⟩
    obtain ⟨o1, o2⟩ := L.three (mul_pos hb px) (lift pxy) (lift pyz) (one pz) (red (ex.trans ey.symm)) (red (ey.trans ez.symm))
    refine ⟨to1.2 o1, to2.2 ?_, to1.2 ?_, to2.2 o2⟩
    · by_contra hcc
      rw [not_le] at hcc
      exact absurd (red (ex.trans ey.symm)) (L.mono1 ⟨(mul_pos hb px).le, o1⟩ ⟨(mul_pos hb (px.trans pxy)).le, hcc.le⟩ (lift pxy)).ne
    · by_contra hcc
      rw [not_le] at hcc
      exact absurd (red (ey.trans ez.symm)) (L.mono2 ⟨hcc.le, (lift pyz).trans (one pz)⟩ ⟨o2, one pz⟩ (lift pyz)).ne

/-- Where the pressure is above and below that of three densities. -/
theorem three_sign (P x y z w : ℝ) (h : Three R T q P x y z) (hw : 0 < w) (hw1 : w < 1 / q.bi 0) :
    (w < x → pressure R T q (fun _ => 1) w < P) ∧ (x < w → w < y → P < pressure R T q (fun _ => 1) w) ∧
    (y < w → w < z → pressure R T q (fun _ => 1) w < P) ∧ (z < w → P < pressure R T q (fun _ => 1) w) := by
  obtain ⟨U₁, U₂, u0, u12, u21, m1, m2, m3, hU⟩ := three_loop hRT hb ha hk P x y z h
  obtain ⟨o1, o2, o3, o4⟩ := hU P x y z h
  obtain ⟨p0, px, pxy, pyz, pz, ex, ey, ez⟩ := h
  refine ⟨fun g => ?_, fun g g' => ?_, fun g g' => ?_, fun g => ?_⟩
  · exact ex ▸ m1 ⟨hw.le, g.le.trans o1⟩ ⟨px.le, o1⟩ g
  · rcases le_total w U₁ with k | k
    · exact ex ▸ m1 ⟨px.le, o1⟩ ⟨hw.le, k⟩ g
    · exact ey ▸ m2 ⟨k, g'.le.trans o3⟩ ⟨o2, o3⟩ g'
  · rcases le_total w U₂ with k | k
    · exact ey ▸ m2 ⟨o2, o3⟩ ⟨o2.trans g.le, k⟩ g
    · exact ez ▸ m3 ⟨k, hw1⟩ ⟨o4, pz⟩ g'
  · exact ez ▸ m3 ⟨o4, pz⟩ ⟨o4.trans g.le, hw1⟩ g

/-- The pressure is integrable over volumes above the smallest one. -/
theorem pressure_integrable (m : ℝ) (hm : q.bi 0 < m) (a c : ℝ) (h1 : m ≤ a) (h2 : m ≤ c) :
    IntervalIntegrable (fun v => pressure R T q (fun _ => 1) (1 / v)) volume a c := by
  refine ContinuousOn.intervalIntegrable fun v hv => ?_
  have hv' : q.bi 0 < v := lt_of_lt_of_le hm ((le_min h1 h2).trans hv.1)
  have hv0 := hb.trans hv'
  have hu : q.bi 0 * (1 / v) < 1 := by rw [mul_one_div, div_lt_one hv0]; exact hv'
  have hp := pure_pressure hRT hb ha hk
  simp only [hp]
  refine ContinuousWithinAt.mul continuousWithinAt_const ?_
  have k1 : ContinuousAt (fun v : ℝ => q.bi 0 * (1 / v)) v :=
    continuousAt_const.mul (continuousAt_const.div continuousAt_id hv0.ne')
  have k2 : ContinuousWithinAt (reducedP (pureT R T q)) (Icc 0 ((1 + q.bi 0 * (1 / v)) / 2)) (q.bi 0 * (1 / v)) :=
    redP_cont (t := pureT R T q) le_rfl (by linarith) _ ⟨by positivity, by linarith⟩
  have k3 : ContinuousAt (reducedP (pureT R T q)) (q.bi 0 * (1 / v)) :=
    k2.continuousAt (Icc_mem_nhds (by positivity) (by linarith))
  exact (ContinuousAt.comp (f := fun v : ℝ => q.bi 0 * (1 / v)) k3 k1).continuousWithinAt

/-- **C166** (accuracy with inexact splines). Let the two splines miss the isotherm by at most `ε`: the cubic one at its roots, the quartic one between them.
Let there be three densities `x < y < z` at the pressure `ε` below the one returned and three densities `x' < y' < z'` at the one `ε` above it, with the first root before
the middle volume of the former and the third after the middle volume of the latter. Then the densities returned lie between the outer ones, and the pressure returned
misses the saturation pressure by at most `ε`, apart from the tolerance and `2 ε` times the change of a volume, both over the width of any range of volumes in which the
pressure rises with the volume. -/
theorem c166_accuracy (E : Saturation.Ext ℝ) (hE : ScipyOk E) (tol pconv : ℝ) (xi vs qs : List ℝ) (p ρl ρv : ℝ)
    (h3 : 3 ≤ (E.scipy vs (shifted qs p)).roots.length)
    (h : Saturation.saturation E tol pconv xi (.ok (vs, qs.map some)) = .ok (some (p, ρl, ρv)))
    (ε : ℝ) (hε : 0 ≤ ε) (g : ℝ → ℝ) (hgi : ∀ a b, 1 / ρl ≤ a → 1 / ρl ≤ b → IntervalIntegrable g volume a b)
    (hroots : ∀ r ∈ (E.scipy vs (shifted qs p)).roots, q.bi 0 < r ∧ |pressure R T q (fun _ => 1) (1 / r) - p| ≤ ε)
    (hint : ∀ a b, (E.scipy vs (shifted qs p)).integral a b = ∫ v in a..b, g v)
    (hg : ∀ v, 1 / ρl ≤ v → v ≤ 1 / ρv → |g v - (pressure R T q (fun _ => 1) (1 / v) - p)| ≤ ε)
    (x y z x' y' z' : ℝ) (hlo : Three R T q (p - ε) x y z) (hhi : Three R T q (p + ε) x' y' z') (hyl : y < ρl) (hyv : ρv < y')
    (s : ℝ × ℝ) (hs : Saturated R T q s) (ρ₁ ρ₂ : ℝ) (h1 : 0 < ρ₁) (h12 : ρ₁ < ρ₂) (h2 : ρ₂ < 1 / q.bi 0)
    (hanti : StrictAntiOn (pressure R T q (fun _ => 1)) (Icc ρ₁ ρ₂)) :
    z ≤ ρl ∧ ρl ≤ z' ∧ x ≤ ρv ∧ ρv ≤ x' ∧
    (p - ε - pressure R T q (fun _ => 1) s.1) * (1 / ρ₁ - 1 / ρ₂) < √tol + 2 * ε * (1 / z - 1 / z') ∧
    (pressure R T q (fun _ => 1) s.1 - p - ε) * (1 / ρ₁ - 1 / ρ₂) < √tol + 2 * ε * (1 / x - 1 / x') := by
  obtain ⟨qs', hq, ⟨r0, r1, r2, rest, hr, hlt, rfl, rfl⟩ | ⟨r0, r1, v, vl, pl, hr, _⟩⟩ := c92_equal_area E tol pconv xi vs _ p ρl ρv h
  swap
  · have : qs' = qs := (List.map_injective_iff.mpr (Option.some_injective ℝ) hq).symm
    subst this
    rw [hr] at h3
    simp at h3
  have : qs' = qs := (List.map_injective_iff.mpr (Option.some_injective ℝ) hq).symm
  subst this
  rw [one_div_one_div, one_div_one_div] at hg
  simp only [one_div_one_div] at hgi
  obtain ⟨s1, s2⟩ := hE.roots_sorted vs (shifted qs' p)
  rw [hr] at s1 hroots
  have h01 : r0 < r1 := (List.pairwise_cons.mp s1).1 r1 (by simp)
  have h02 : r0 < r2 := (List.pairwise_cons.mp s1).1 r2 (by simp)
  obtain ⟨b0, e0⟩ := hroots r0 (by simp)
  obtain ⟨b2, e2⟩ := hroots r2 (by simp)
  have p0 := hb.trans b0
  have p2 := hb.trans b2
  rw [hint, hint, intervalIntegral.integral_add_adjacent_intervals (hgi _ _ le_rfl h01.le) (hgi _ _ h01.le h02.le)] at hlt
  have hI := abs_lt.1 (Real.lt_sqrt_of_sq_lt (by rw [sq_abs]; exact hlt : |∫ v in r0..r2, g v| ^ 2 < tol))
  obtain ⟨f0, f0'⟩ := abs_le.1 e0
  obtain ⟨f2, f2'⟩ := abs_le.1 e2
  have lim : ∀ {v : ℝ}, q.bi 0 < v → 0 < 1 / v ∧ 1 / v < 1 / q.bi 0 := fun {v} hv =>
    ⟨one_div_pos.2 (hb.trans hv), one_div_lt_one_div_of_lt hb hv⟩
  have sg := fun v (hv : q.bi 0 < v) => three_sign hRT hb ha hk _ x y z (1 / v) hlo (lim hv).1 (lim hv).2
  have sg' := fun v (hv : q.bi 0 < v) => three_sign hRT hb ha hk _ x' y' z' (1 / v) hhi (lim hv).1 (lim hv).2
  obtain ⟨U₁, U₂, u0, u12, u21, m1, m2, m3, hU⟩ := three_loop hRT hb ha hk _ x y z hlo
  obtain ⟨o1, o2, o3, o4⟩ := hU _ _ _ _ hlo
  obtain ⟨o1', o2', o3', o4'⟩ := hU _ _ _ _ hhi
  have hlo' := hlo
  have hhi' := hhi
  obtain ⟨pp, px, pxy, pyz, pz, ex, ey, ez⟩ := hlo'
  obtain ⟨pp', px', pxy', pyz', pz', ex', ey', ez'⟩ := hhi'
  have hyy : y' ≤ y := (m2.le_iff_ge ⟨o2, o3⟩ ⟨o2', o3'⟩).1 (by rw [ey, ey']; linarith)
  have c1 : z ≤ 1 / r0 := by
    by_contra hc
    have := (sg r0 b0).2.2.1 hyl (not_le.1 hc)
    linarith
  have c2 : 1 / r0 ≤ z' := by
    by_contra hc
    have := (sg' r0 b0).2.2.2 (not_le.1 hc)
    linarith
  have c3 : x ≤ 1 / r2 := by
    by_contra hc
    have := (sg r2 b2).1 (not_le.1 hc)
    linarith
  have c4 : 1 / r2 ≤ x' := by
    by_contra hc
    have := (sg' r2 b2).2.1 (not_le.1 hc) hyv
    linarith
  have py := px.trans pxy
  have pz0 := py.trans pyz
  have py' := px'.trans pxy'
  have pz0' := py'.trans pyz'
  have flip : ∀ {a c : ℝ}, 0 < a → a ≤ 1 / c → c ≤ 1 / a := fun {a c} h1 h2 => by
    have := one_div_le_one_div_of_le h1 h2; rwa [one_div_one_div] at this
  have flip' : ∀ {a c : ℝ}, 0 < c → 1 / c ≤ a → 1 / a ≤ c := fun {a c} h1 h2 => by
    have := one_div_le_one_div_of_le (one_div_pos.2 h1) h2; rwa [one_div_one_div] at this
  have d1 : r0 ≤ 1 / z := flip pz0 c1
  have d2 : 1 / z' ≤ r0 := flip' p0 c2
  have d3 : r2 ≤ 1 / x := flip px c3
  have d4 : 1 / x' ≤ r2 := flip' p2 c4
  have vzx : 1 / z ≤ 1 / x := one_div_le_one_div_of_le px (pxy.trans pyz).le
  have vzx' : 1 / z' ≤ 1 / x' := one_div_le_one_div_of_le px' (pxy'.trans pyz').le
  have bz' : q.bi 0 < 1 / z' := by
    rw [lt_div_iff₀ pz0', mul_comm]; exact (lt_div_iff₀ hb).1 pz'
  have hfi := pressure_integrable hRT hb ha hk
  -- volumes and densities
  have cmp1 : ∀ {v a : ℝ}, 0 < v → 0 < a → (v ≤ 1 / a ↔ a ≤ 1 / v) := fun {v a} h1 h2 => by
    rw [le_div_iff₀ h2, le_div_iff₀ h1, mul_comm]
  have cmp2 : ∀ {v a : ℝ}, 0 < v → 0 < a → (1 / a ≤ v ↔ 1 / v ≤ a) := fun {v a} h1 h2 => by
    rw [div_le_iff₀ h2, div_le_iff₀ h1, mul_comm]
  have ge_of : ∀ {P x y z v : ℝ}, Three R T q P x y z → q.bi 0 < v → x ≤ 1 / v → 1 / v ≤ y → P ≤ pressure R T q (fun _ => 1) (1 / v) := by
    intro P x y z v ht hv h1 h2
    rcases h1.eq_or_lt with e | e
    · rw [← e, ht.2.2.2.2.2.1]
    rcases h2.eq_or_lt with e' | e'
    · rw [e', ht.2.2.2.2.2.2.1]
    · exact ((three_sign hRT hb ha hk _ x y z (1 / v) ht (lim hv).1 (lim hv).2).2.1 e e').le
  have le_of : ∀ {P x y z v : ℝ}, Three R T q P x y z → q.bi 0 < v → y ≤ 1 / v → 1 / v ≤ z → pressure R T q (fun _ => 1) (1 / v) ≤ P := by
    intro P x y z v ht hv h1 h2
    rcases h1.eq_or_lt with e | e
    · rw [← e, ht.2.2.2.2.2.2.1]
    rcases h2.eq_or_lt with e' | e'
    · rw [e', ht.2.2.2.2.2.2.2]
    · exact ((three_sign hRT hb ha hk _ x y z (1 / v) ht (lim hv).1 (lim hv).2).2.2.1 e e').le
  -- the two comparisons of areas
  have up : ∫ v in r0..r2, g v ≤ 2 * ε * (1 / z - r0) + ∫ v in (1 / z)..(1 / x), (pressure R T q (fun _ => 1) (1 / v) - (p - ε)) := by
    refine area_above h02.le d1 (fun a c k1 k2 => hfi r0 b0 a c k1 k2) (hgi _ _ le_rfl h02.le) ?_ (d1.trans vzx) ?_ ?_ ?_
    · intro v k1 k2
      have hv := lt_of_lt_of_le b0 k1
      have hv0 := hb.trans hv
      have k3 : U₂ ≤ 1 / v := o4.trans ((cmp1 hv0 pz0).1 k2)
      have k4 : 1 / v ≤ 1 / r0 := one_div_le_one_div_of_le p0 k1
      have := m3.monotoneOn ⟨k3, (lim hv).2⟩ ⟨k3.trans k4, (lim b0).2⟩ k4
      linarith
    · intro v k1 k2
      have hv := lt_of_lt_of_le b2 k1
      have hv0 := hb.trans hv
      refine ge_of hlo hv ((cmp1 hv0 px).1 k2) ?_
      exact (one_div_le_one_div_of_le p2 k1).trans (hyv.le.trans hyy)
    · intro v k1 k2
      have hv0 := lt_of_lt_of_le (one_div_pos.2 px) k1
      have k3 : 1 / v ≤ x := (cmp2 hv0 px).1 k1
      have hv : q.bi 0 < v := lt_of_lt_of_le b0 (d1.trans (vzx.trans k1))
      have := m1.monotoneOn ⟨(lim hv).1.le, k3.trans o1⟩ ⟨px.le, o1⟩ k3
      rw [ex] at this
      exact this
    · intro v k1 k2
      have := (abs_le.1 (hg v k1 k2)).2
      linarith
  have dn : (∫ v in (1 / z')..(1 / x'), (pressure R T q (fun _ => 1) (1 / v) - (p + ε))) - 2 * ε * (r2 - 1 / x') ≤ ∫ v in r0..r2, g v := by
    refine area_below (m := 1 / z') h02.le d4 d2 le_rfl vzx' (fun a c k1 k2 => hfi _ bz' a c k1 k2) (hgi _ _ le_rfl h02.le) ?_ ?_ ?_ ?_
    · intro v k1 k2
      have hv0 := lt_of_lt_of_le (one_div_pos.2 px') k1
      have hv : q.bi 0 < v := lt_of_lt_of_le bz' (vzx'.trans k1)
      have k3 : 1 / v ≤ U₁ := ((cmp2 hv0 px').1 k1).trans o1'
      have k4 : 1 / r2 ≤ 1 / v := one_div_le_one_div_of_le hv0 k2
      have := m1.monotoneOn ⟨(lim b2).1.le, k4.trans k3⟩ ⟨(lim hv).1.le, k3⟩ k4
      linarith
    · intro v k1 k2
      have hv := lt_of_lt_of_le b0 k1
      have hv0 := hb.trans hv
      have k3 : z' ≤ 1 / v := (cmp1 hv0 pz0').1 k2
      have := m3.monotoneOn ⟨o4', pz'⟩ ⟨o4'.trans k3, (lim hv).2⟩ k3
      rw [ez'] at this
      exact this
    · intro v k1 k2
      have hv := lt_of_lt_of_le bz' k1
      have hv0 := hb.trans hv
      refine le_of hhi hv ?_ ((cmp2 hv0 pz0').1 k1)
      exact hyy.trans (hyl.le.trans (one_div_le_one_div_of_le hv0 k2))
    · intro v k1 k2
      have := (abs_le.1 (hg v k1 k2)).1
      linarith
  have bz : q.bi 0 < 1 / z := lt_of_lt_of_le b0 d1
  rw [(pr_area R T q (1 / z) (1 / x) (p - ε) hRT hb bz vzx ha hk pp (by rw [one_div_one_div, ez]) (by rw [one_div_one_div, ex])).2,
    one_div_one_div, one_div_one_div] at up
  rw [(pr_area R T q (1 / z') (1 / x') (p + ε) hRT hb bz' vzx' ha hk pp' (by rw [one_div_one_div, ez']) (by rw [one_div_one_div, ex'])).2,
    one_div_one_div, one_div_one_div] at dn
  obtain ⟨w, hw⟩ := saturated_three hRT hb ha hk s hs
  have hzero : lnPhi R T q (fun _ => 1) (pressure R T q (fun _ => 1) s.1) s.2 0 -
      lnPhi R T q (fun _ => 1) (pressure R T q (fun _ => 1) s.1) s.1 0 = 0 := by
    have := hs.2.2.2.2.2
    rw [← hs.2.2.2.2.1] at this
    unfold phi at this
    rw [Real.exp_eq_exp] at this
    linarith
  have hW : 0 < 1 / ρ₁ - 1 / ρ₂ := sub_pos.2 (one_div_lt_one_div_of_lt h1 h12)
  have hsq : 0 < √tol := by linarith
  have n1 : 2 * ε * (1 / z - r0) ≤ 2 * ε * (1 / z - 1 / z') := mul_le_mul_of_nonneg_left (by linarith) (by linarith)
  have n2 : 2 * ε * (r2 - 1 / x') ≤ 2 * ε * (1 / x - 1 / x') := mul_le_mul_of_nonneg_left (by linarith) (by linarith)
  have n3 : 0 ≤ 2 * ε * (1 / z - 1 / z') := mul_nonneg (by linarith) (by linarith)
  have n4 : 0 ≤ 2 * ε * (1 / x - 1 / x') := mul_nonneg (by linarith) (by linarith)
  refine ⟨c1, c2, c3, c4, ?_, ?_⟩
  · rcases le_total (pressure R T q (fun _ => 1) s.1) (p - ε) with hle | hle
    · have k := c136_falls hRT hb ha hk _ s.1 w s.2 (p - ε) x y z ρ₁ ρ₂ hw hlo hle h1 h12 h2 hanti
      rw [hzero, zero_sub] at k
      linarith
    · have := mul_nonpos_of_nonpos_of_nonneg (sub_nonpos.2 hle) hW.le
      linarith
  · rcases le_total (p + ε) (pressure R T q (fun _ => 1) s.1) with hle | hle
    · have k := c136_falls hRT hb ha hk (p + ε) x' y' z' _ s.1 w s.2 ρ₁ ρ₂ hhi hw hle h1 h12 h2 hanti
      rw [hzero, sub_zero] at k
      rw [sub_sub]
      linarith
    · have := mul_nonpos_of_nonpos_of_nonneg (show pressure R T q (fun _ => 1) s.1 - p - ε ≤ 0 by linarith) hW.le
      linarith

open Classical in
/-- Numerical procedures whose splines lie `ε` above the isotherm everywhere; the shift of the pressures is read from the first entry `q₀` of the curve. -/
noncomputable def biasedExt (R T : ℝ) (q : Par 1) (q₀ Ps ε : ℝ) : Saturation.Ext ℝ where
  scipy := fun _ ps =>
    let P := match ps with
      | some a :: _ => q₀ - a
      | _ => 0
    { roots := exactRoots R T q (P - ε)
      extrema := [1, 2]
      integral := fun a b => ∫ v in a..b, (pressure R T q (fun _ => 1) (1 / v) - (P - ε)) }
  minScalar := fun _ lo hi => if lo ≤ Ps + ε ∧ Ps + ε ≤ hi then .ok (Ps + ε) else .error .valueError
  density := fun _ _ _ => .error .valueError
  check := fun _ => .ok ()
  eps := 0

omit hRT hb ha hk in
theorem biasedExt_ok (q₀ Ps ε : ℝ) : ScipyOk (biasedExt R T q q₀ Ps ε) where
  min_bounds := by
    intro f lo hi x h
    simp only [biasedExt] at h
    split_ifs at h with hc
    cases h; exact hc
  density_bounds := by intro p v r ρ h; cases h
  roots_sorted := by
    intro vs ps
    simp only [biasedExt]
    exact (exactExt_ok (R := R) (T := T) (q := q) (_ - ε) 0).roots_sorted [] [some 0] |> fun h => by simpa [exactExt] using h

/-- The volumes with a pressure are those of any three densities with it. -/
theorem exactRoots_eq (P x y z : ℝ) (h : Three R T q P x y z) : exactRoots R T q P = [1 / z, 1 / y, 1 / x] := by
  have hex : ∃ c : ℝ × ℝ × ℝ, Three R T q P c.1 c.2.1 c.2.2 := ⟨(x, y, z), h⟩
  rw [exactRoots, dif_pos hex]
  have hc := hex.choose_spec
  generalize hex.choose = c at hc
  obtain ⟨U₁, U₂, u0, u12, u21, m1, m2, m3, hU⟩ := three_loop hRT hb ha hk _ x y z h
  obtain ⟨o1, o2, o3, o4⟩ := hU _ _ _ _ h
  obtain ⟨o1', o2', o3', o4'⟩ := hU _ _ _ _ hc
  obtain ⟨pp, px, pxy, pyz, pz, ex, ey, ez⟩ := h
  obtain ⟨pp', px', pxy', pyz', pz', ex', ey', ez'⟩ := hc
  rw [m1.injOn ⟨px'.le, o1'⟩ ⟨px.le, o1⟩ (ex'.trans ex.symm), m2.injOn ⟨o2', o3'⟩ ⟨o2, o3⟩ (ey'.trans ey.symm),
    m3.injOn ⟨o4', pz'⟩ ⟨o4, pz⟩ (ez'.trans ez.symm)]

/-- **C166** (the bound is reached): at every saturation state and for every small `ε`, splines that lie `ε` above the isotherm meet the hypotheses of
`c166_accuracy`, and the search then returns the pressure `ε` above the saturation pressure, for every positive tolerance. -/
theorem c166_sharp (s : ℝ × ℝ) (hs : Saturated R T q s) : ∃ ε₀ > 0, ∀ ε, 0 ≤ ε → ε ≤ ε₀ → ∃ (E : Saturation.Ext ℝ) (pconv : ℝ) (vs qs : List ℝ) (g : ℝ → ℝ),
    ScipyOk E ∧ 0 < pconv ∧
    (∀ tol, 0 < tol → Saturation.saturation E tol pconv [1] (.ok (vs, qs.map some)) =
      .ok (some (pressure R T q (fun _ => 1) s.1 + ε, s.2, s.1))) ∧
    3 ≤ (E.scipy vs (shifted qs (pressure R T q (fun _ => 1) s.1 + ε))).roots.length ∧
    (∀ a b, 1 / s.2 ≤ a → 1 / s.2 ≤ b → IntervalIntegrable g volume a b) ∧
    (∀ r ∈ (E.scipy vs (shifted qs (pressure R T q (fun _ => 1) s.1 + ε))).roots,
      q.bi 0 < r ∧ |pressure R T q (fun _ => 1) (1 / r) - (pressure R T q (fun _ => 1) s.1 + ε)| ≤ ε) ∧
    (∀ a b, (E.scipy vs (shifted qs (pressure R T q (fun _ => 1) s.1 + ε))).integral a b = ∫ v in a..b, g v) ∧
    (∀ v, |g v - (pressure R T q (fun _ => 1) (1 / v) - (pressure R T q (fun _ => 1) s.1 + ε))| ≤ ε) ∧
    ∃ x y z x' y' z', Three R T q (pressure R T q (fun _ => 1) s.1 + ε - ε) x y z ∧
      Three R T q (pressure R T q (fun _ => 1) s.1 + ε + ε) x' y' z' ∧ y < s.2 ∧ s.1 < y' := by
  obtain ⟨lo, hi, h0, h1, h2, h3⟩ := three_between hRT hb ha hk s hs
  obtain ⟨w, hw⟩ := saturated_three hRT hb ha hk s hs
  have hzero : lnPhi R T q (fun _ => 1) (pressure R T q (fun _ => 1) s.1) s.2 0 -
      lnPhi R T q (fun _ => 1) (pressure R T q (fun _ => 1) s.1) s.1 0 = 0 := by
    have := hs.2.2.2.2.2
    rw [← hs.2.2.2.2.1] at this
    unfold phi at this
    rw [Real.exp_eq_exp] at this
    linarith
  generalize hPs : pressure R T q (fun _ => 1) s.1 = Ps at *
  refine ⟨(hi - Ps) / 2, by linarith, fun ε hε hε0 => ?_⟩
  have hlh : lo < hi := h1.trans h2
  have hsh : lo + 1 - (lo + 1 - (Ps + ε)) - ε = Ps := by ring
  have hroots := exactRoots_eq hRT hb ha hk Ps s.1 w s.2 hw
  have hw' := hw
  obtain ⟨pp, px, pxy, pyz, pz, ex, ey, ez⟩ := hw'
  have py := px.trans pxy
  have pz0 := py.trans pyz
  have inv : ∀ {a : ℝ}, a < 1 / q.bi 0 → 0 < a → q.bi 0 < 1 / a := fun {a} h1 h2 => by
    rw [lt_div_iff₀ h2, mul_comm]; exact (lt_div_iff₀ hb).1 h1
  have o1 := one_div_lt_one_div_of_lt py pyz
  have o2 := one_div_lt_one_div_of_lt px pxy
  have hscipy : ((biasedExt R T q (lo + 1) Ps ε).scipy [] (shifted [lo + 1, lo, hi] (Ps + ε))).roots = [1 / s.2, 1 / w, 1 / s.1] ∧
      ∀ a b, ((biasedExt R T q (lo + 1) Ps ε).scipy [] (shifted [lo + 1, lo, hi] (Ps + ε))).integral a b =
        ∫ v in a..b, (pressure R T q (fun _ => 1) (1 / v) - Ps) := by
    constructor
    · simp only [biasedExt, shifted, List.map_cons, hsh]; exact hroots
    · intro a b; simp only [biasedExt, shifted, List.map_cons, hsh]
  obtain ⟨hr, hi'⟩ := hscipy
  have hobj : Saturation.objective (biasedExt R T q (lo + 1) Ps ε).scipy [] [lo + 1, lo, hi] (Ps + ε) = .ok (some 0) := by
    obtain ⟨f1, f2⟩ := fit_shifted (biasedExt R T q (lo + 1) Ps ε).scipy [] [lo + 1, lo, hi] (Ps + ε)
    have q0 : pressure R T q (fun _ => 1) (1 / (1 / s.2)) = Ps := by rw [one_div_one_div]; exact ez
    have q1 : pressure R T q (fun _ => 1) (1 / (1 / w)) = Ps := by rw [one_div_one_div]; exact ey
    have q2 : pressure R T q (fun _ => 1) (1 / (1 / s.1)) = Ps := by rw [one_div_one_div]; exact ex
    obtain ⟨i1, _⟩ := pr_area R T q _ _ Ps hRT hb (inv pz pz0) o1.le ha hk pp q0 q1
    obtain ⟨i2, _⟩ := pr_area R T q _ _ Ps hRT hb (inv (pyz.trans pz) py) o2.le ha hk pp q1 q2
    obtain ⟨_, i3⟩ := pr_area R T q _ _ Ps hRT hb (inv pz pz0) (o1.trans o2).le ha hk pp q0 q2
    rw [one_div_one_div, one_div_one_div, hzero, mul_zero] at i3
    have hi0 := hi' (1 / s.2) (1 / w)
    have hi1 := hi' (1 / w) (1 / s.1)
    rw [hr] at f1
    unfold Saturation.objective
    unfold shifted at f1 f2 hi0 hi1
    simp only [f1, f2]
    rw [hi0, hi1, intervalIntegral.integral_add_adjacent_intervals i1 i2, i3]
    simp
  refine ⟨biasedExt R T q (lo + 1) Ps ε, lo, [], [lo + 1, lo, hi], fun v => pressure R T q (fun _ => 1) (1 / v) - Ps,
    biasedExt_ok _ _ _, h0, ?_, by rw [hr]; simp, ?_, ?_, hi', ?_, ?_⟩
  · intro tol htol
    have hbounds : Saturation.bounds lo [lo + 1, lo, hi] = .ok (lo, hi) := by
      unfold Saturation.bounds Saturation.firstRise Saturation.firstRise
      simp [Saturation.argmax, Saturation.amin, hlh, not_lt.2 (show lo ≤ lo + 1 by linarith)]
    have hmin : (biasedExt R T q (lo + 1) Ps ε).minScalar
        (Saturation.objective (biasedExt R T q (lo + 1) Ps ε).scipy [] [lo + 1, lo, hi]) lo hi = .ok (Ps + ε) := by
      simp only [biasedExt]
      rw [if_pos ⟨by linarith, by linarith⟩]
    have hfil : ([lo + 1, lo, hi].map some).filterMap id = [lo + 1, lo, hi] := by simp
    have hfit : ¬ ((Saturation.fit (biasedExt R T q (lo + 1) Ps ε).scipy [] ([lo + 1, lo, hi].map some)).extrema.length < 2 ∨
        (Saturation.fit (biasedExt R T q (lo + 1) Ps ε).scipy [] ([lo + 1, lo, hi].map some)).roots = none) := by
      simp [Saturation.fit, biasedExt]
    obtain ⟨f1, -⟩ := fit_shifted (biasedExt R T q (lo + 1) Ps ε).scipy [] [lo + 1, lo, hi] (Ps + ε)
    rw [hr] at f1
    unfold shifted at f1
    have hacc : Saturation.accept (biasedExt R T q (lo + 1) Ps ε) tol [] [lo + 1, lo, hi] (Ps + ε) = .ok (some (Ps + ε, s.2, s.1)) := by
      unfold Saturation.accept
      rw [hobj]
      simp only [f1]
      simp [htol]
    have hpure : Saturation.checkPure [(1 : ℝ)] = .ok () := by
      unfold Saturation.checkPure; rw [if_pos (by simp)]
    unfold Saturation.saturation Saturation.search
    rw [hpure]
    simp only [if_neg hfit, hfil, hbounds, hmin, hacc]
    rfl
  · intro a c k1 k2
    exact (pressure_integrable hRT hb ha hk (1 / s.2) (inv pz pz0) a c k1 k2).sub intervalIntegrable_const
  · intro r hr'
    rw [hr] at hr'
    simp only [List.mem_cons, List.not_mem_nil, or_false] at hr'
    rcases hr' with rfl | rfl | rfl
    · refine ⟨inv pz pz0, ?_⟩
      rw [one_div_one_div, ez, show Ps - (Ps + ε) = -ε by ring, abs_neg, abs_of_nonneg hε]
    · refine ⟨inv (pyz.trans pz) py, ?_⟩
      rw [one_div_one_div, ey, show Ps - (Ps + ε) = -ε by ring, abs_neg, abs_of_nonneg hε]
    · refine ⟨inv (pxy.trans (pyz.trans pz)) px, ?_⟩
      rw [one_div_one_div, ex, show Ps - (Ps + ε) = -ε by ring, abs_neg, abs_of_nonneg hε]
  · intro v
    rw [show pressure R T q (fun _ => 1) (1 / v) - Ps - (pressure R T q (fun _ => 1) (1 / v) - (Ps + ε)) = ε by ring, abs_of_nonneg hε]
  · obtain ⟨x', y', z', h'⟩ := h3 (Ps + ε + ε) ⟨by linarith, by linarith⟩
    refine ⟨s.1, w, s.2, x', y', z', by rw [add_sub_cancel_right]; exact hw, h', pyz, ?_⟩
    obtain ⟨U₁, U₂, u0, u12, u21, m1, m2, m3, hU⟩ := three_loop hRT hb ha hk _ s.1 w s.2 hw
    have k1 := (hU _ _ _ _ hw).1
    obtain ⟨k2, -⟩ := hU _ _ _ _ h'
    obtain ⟨-, px', pxy', -, -, ex', -⟩ := h'
    have : s.1 ≤ x' := (m1.le_iff_le ⟨px.le, k1⟩ ⟨px'.le, k2⟩).1 (by rw [ex, ex']; linarith)
    exact lt_of_le_of_lt this pxy'

/-- **C166** (constants of the substance): between two pressures around the saturation pressure, all with three densities, there are the densities `U₁ < U₂`
between which the pressure falls, and a constant `C`, such that every search with splines within `ε` of the isotherm, that ends between the two pressures and finds
its first root on the branch of the liquid and its third on that of the vapour, has an error of at most `C ε` plus the root of the tolerance over the width of the loop. -/
theorem c166_bound (s : ℝ × ℝ) (hs : Saturated R T q s) (lo hi : ℝ) (hlh : lo ≤ hi) (h3 : ∀ P ∈ Icc lo hi, ∃ x y z, Three R T q P x y z) :
    ∃ C U₁ U₂ : ℝ, 0 < C ∧ 0 < U₁ ∧ U₁ < U₂ ∧ U₂ < 1 / q.bi 0 ∧ StrictAntiOn (pressure R T q (fun _ => 1)) (Icc U₁ U₂) ∧
    ∀ (E : Saturation.Ext ℝ) (tol pconv : ℝ) (xi vs qs : List ℝ) (p ρl ρv ε : ℝ) (g : ℝ → ℝ), ScipyOk E →
      3 ≤ (E.scipy vs (shifted qs p)).roots.length →
      Saturation.saturation E tol pconv xi (.ok (vs, qs.map some)) = .ok (some (p, ρl, ρv)) → 0 ≤ ε →
      (∀ a b, 1 / ρl ≤ a → 1 / ρl ≤ b → IntervalIntegrable g volume a b) →
      (∀ r ∈ (E.scipy vs (shifted qs p)).roots, q.bi 0 < r ∧ |pressure R T q (fun _ => 1) (1 / r) - p| ≤ ε) →
      (∀ a b, (E.scipy vs (shifted qs p)).integral a b = ∫ v in a..b, g v) →
      (∀ v, 1 / ρl ≤ v → v ≤ 1 / ρv → |g v - (pressure R T q (fun _ => 1) (1 / v) - p)| ≤ ε) →
      p ∈ Icc (lo + ε) (hi - ε) → ρv ≤ U₁ → U₂ ≤ ρl →
      |p - pressure R T q (fun _ => 1) s.1| ≤ C * ε + √tol / (1 / U₁ - 1 / U₂) := by
  obtain ⟨x₀, y₀, z₀, hx₀⟩ := h3 lo ⟨le_rfl, hlh⟩
  obtain ⟨U₁, U₂, u0, u12, u21, m1, m2, m3, hU⟩ := three_loop hRT hb ha hk _ x₀ y₀ z₀ hx₀
  have hW : 0 < 1 / U₁ - 1 / U₂ := sub_pos.2 (one_div_lt_one_div_of_lt u0 u12)
  have px₀ := hx₀.2.1
  refine ⟨1 + 2 * (1 / x₀) / (1 / U₁ - 1 / U₂), U₁, U₂, by positivity, u0, u12, u21, m2, ?_⟩
  intro E tol pconv xi vs qs p ρl ρv ε g hE hl h hε hgi hroots hint hg hp hv hlq
  obtain ⟨x, y, z, hlo⟩ := h3 (p - ε) ⟨by linarith [hp.1], by linarith [hp.2]⟩
  obtain ⟨x', y', z', hhi⟩ := h3 (p + ε) ⟨by linarith [hp.1], by linarith [hp.2]⟩
  obtain ⟨o1, o2, o3, o4⟩ := hU _ _ _ _ hlo
  obtain ⟨o1', o2', o3', o4'⟩ := hU _ _ _ _ hhi
  obtain ⟨oo, -⟩ := hU _ _ _ _ hx₀
  have hlo' := hlo
  have hhi' := hhi
  obtain ⟨pp, px, pxy, pyz, pz, ex, ey, ez⟩ := hlo'
  obtain ⟨pp', px', pxy', pyz', pz', ex', ey', ez'⟩ := hhi'
  have hy : y < U₂ := lt_of_le_of_ne o3 fun e => by
    have := m3 ⟨e ▸ le_rfl, pyz.trans pz⟩ ⟨o4, pz⟩ pyz
    rw [ey, ez] at this
    exact lt_irrefl _ this
  have hy' : U₁ < y' := lt_of_le_of_ne o2' fun e => by
    have := m1 ⟨px'.le, o1'⟩ ⟨(px'.trans pxy').le, e ▸ le_rfl⟩ pxy'
    rw [ex', ey'] at this
    exact lt_irrefl _ this
  obtain ⟨c1, c2, c3, c4, k1, k2⟩ := c166_accuracy hRT hb ha hk E hE tol pconv xi vs qs p ρl ρv hl h ε hε g hgi hroots hint hg x y z x' y' z' hlo hhi
    (lt_of_lt_of_le hy hlq) (lt_of_le_of_lt hv hy') s hs U₁ U₂ u0 u12 u21 m2
  have hxx : x₀ ≤ x := (m1.le_iff_le ⟨px₀.le, oo⟩ ⟨px.le, o1⟩).1 (by rw [hx₀.2.2.2.2.2.1, ex]; linarith [hp.1])
  have pz0 := (px.trans pxy).trans pyz
  have pz0' := (px'.trans pxy').trans pyz'
  have n1 : 1 / z - 1 / z' ≤ 1 / x₀ := by
    have a1 := one_div_le_one_div_of_le px₀ (hxx.trans (pxy.trans pyz).le)
    have a2 := one_div_pos.2 pz0'
    linarith
  have n2 : 1 / x - 1 / x' ≤ 1 / x₀ := by
    have a1 := one_div_le_one_div_of_le px₀ hxx
    have a2 := one_div_pos.2 px'
    linarith
  have n3 := mul_le_mul_of_nonneg_left n1 (mul_nonneg zero_le_two hε)
  have n4 := mul_le_mul_of_nonneg_left n2 (mul_nonneg zero_le_two hε)
  have e : (1 + 2 * (1 / x₀) / (1 / U₁ - 1 / U₂)) * ε + √tol / (1 / U₁ - 1 / U₂) =
      ε + (√tol + 2 * ε * (1 / x₀)) / (1 / U₁ - 1 / U₂) := by ring
  rw [e, abs_le]
  generalize 1 / U₁ - 1 / U₂ = W at *
  constructor
  · have : (pressure R T q (fun _ => 1) s.1 - p - ε) ≤ (√tol + 2 * ε * (1 / x₀)) / W := (le_div_iff₀ hW).2 (by linarith)
    linarith
  · have : (p - ε - pressure R T q (fun _ => 1) s.1) ≤ (√tol + 2 * ε * (1 / x₀)) / W := (le_div_iff₀ hW).2 (by linarith)
    linarith

end

/-- A substance and a range of pressures to which `c166_sharp` and `c166_bound` apply: below the critical temperature of the library. -/
example (R κ Tc Pc T : ℝ) (hR : 0 < R) (hTc : 0 < Tc) (hPc : 0 < Pc) (hk0 : 0 ≤ κ) (hT0 : 0 < T) (hT : T ≤ Tc) : ∃ s lo hi,
    Saturated R T (pureSubstance R κ Tc Pc T) s ∧ lo < hi ∧ pressure R T (pureSubstance R κ Tc Pc T) (fun _ => 1) s.1 ∈ Ioo lo hi ∧
      ∀ P ∈ Icc lo hi, ∃ x y z, Three R T (pureSubstance R κ Tc Pc T) P x y z := by
  obtain ⟨s, hs, -⟩ := c136_subcritical R κ Tc Pc T hR hTc hPc hk0 hT0 hT
  have hα : 1 + κ * (1 - √(T / Tc)) ≠ 0 := by
    have : √(T / Tc) ≤ 1 := Real.sqrt_le_one.2 ((div_le_one hTc).2 hT)
    have := mul_nonneg hk0 (sub_nonneg.2 this)
    linarith
  obtain ⟨h1, h2, h3⟩ := pureSubstance_pos R κ Tc Pc T hR hTc hPc hα
  obtain ⟨lo, hi, -, a, b, c⟩ := three_between (mul_pos hR hT0) h1 h2 h3 s hs
  exact ⟨s, lo, hi, hs, a.trans b, ⟨a, b⟩, c⟩

end Verif.Props
