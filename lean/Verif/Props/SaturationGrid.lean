import Verif.Props.PengRobinsonSaturation
import Verif.Props.Saturation
import Mathlib.Topology.Order.OrderClosedExtr
import Mathlib.Analysis.Calculus.LocalExtr.Basic

/-!
# C136: which curves let the search find the saturation pressure

The range of pressures that is searched is read from the sampled isotherm: from the first rise of the samples on, the largest sample and
the smallest one before it.  Here it is shown for which samplings of the true isotherm this range holds the saturation pressure, and
that every pressure in it has three volumes.
-/

namespace Verif.Props
open Verif Verif.PengRobinson Filter Topology Set

/-! ## Any function that falls, rises and falls -/

section Shape

variable {f : ℝ → ℝ} {v₀ A B : ℝ} (h1 : StrictAntiOn f (Ioc v₀ A)) (h2 : StrictMonoOn f (Icc A B)) (h3 : StrictAntiOn f (Ici B))
  (hA : v₀ < A) (hAB : A < B)

private theorem falls_to (g : ℕ → ℝ) (s : ℕ) : ∀ t, s ≤ t → (∀ k, s ≤ k → k < t → g (k + 1) ≤ g k) → g t ≤ g s := by
  intro t
  induction t with
  | zero => intro h _; rw [Nat.le_zero.1 h]
  | succ t ih =>
    intro h hk
    rcases Nat.lt_or_ge s (t + 1) with h' | h'
    · exact (hk t (by omega) (by omega)).trans (ih (by omega) fun k a b => hk k a (by omega))
    · rw [le_antisymm h h']

include h1 h2 h3 hA hAB in
/-- The range that is searched lies strictly between the two turning points, and holds every pressure that is bracketed by samples on the
two sides of its middle volume. -/
theorem bounds_of_shape (pconv Ps vl vm vv : ℝ) (hl0 : v₀ < vl) (hl : vl < A) (hm1 : A < vm) (hm2 : vm < B) (hv : B < vv)
    (el : f vl = Ps) (em : f vm = Ps) (ev : f vv = Ps) (vs : List ℝ) (hs : vs.Pairwise (· < ·)) (hpos : ∀ v ∈ vs, v₀ < v)
    (hA' : A ∉ vs) (hB' : B ∉ vs) (a c : ℝ) (ha : a ∈ vs) (hc : c ∈ vs) (ha1 : vl < a) (ha2 : a < vm) (hc1 : vm < c) (hc2 : c < vv) :
    ∃ lo hi, Saturation.bounds pconv (vs.map f) = .ok (max pconv lo, hi) ∧ lo < Ps ∧ Ps < hi ∧ f A < lo ∧ hi < f B := by
  have below : ∀ v, vl < v → v < vm → f v < Ps := by
    intro v k1 k2
    rcases le_total v A with h | h
    · rw [← el]; exact h1 ⟨hl0, hl.le⟩ ⟨hl0.trans k1, h⟩ k1
    · rw [← em]; exact h2 ⟨h, (k2.trans hm2).le⟩ ⟨hm1.le, hm2.le⟩ k2
  have above : ∀ v, vm < v → v < vv → Ps < f v := by
    intro v k1 k2
    rcases le_total v B with h | h
    · rw [← em]; exact h2 ⟨hm1.le, hm2.le⟩ ⟨(hm1.trans k1).le, h⟩ k1
    · rw [← ev]; exact h3 h hv.le k2
  -- the samples by their number
  obtain ⟨ia, hia, rfl⟩ := List.getElem_of_mem ha
  obtain ⟨ic, hic, rfl⟩ := List.getElem_of_mem hc
  set n := vs.length with hn
  let V : ℕ → ℝ := fun k => vs.getD k 0
  have hV : ∀ k (h : k < n), V k = vs[k] := fun k h => by simp [V, List.getD_eq_getElem?_getD, List.getElem?_eq_getElem h]
  have hVlt : ∀ k l, k < l → l < n → V k < V l := fun k l hkl hl => by
    rw [hV k (hkl.trans hl), hV l hl]
    exact List.pairwise_iff_getElem.1 hs k l (hkl.trans hl) hl hkl
  have hVm : ∀ k, k < n → V k ∈ vs := fun k h => by rw [hV k h]; exact List.getElem_mem h
  let g : ℕ → ℝ := fun k => f (V k)
  have hg : ∀ k, k < n → (vs.map f)[k]? = some (g k) := fun k h => by simp [g, hV k h, List.getElem?_eq_getElem h]
  have hg' : ∀ k x, (vs.map f)[k]? = some x → k < n ∧ x = g k := fun k x h => by
    have hk : k < n := by
      obtain ⟨hk, -⟩ := List.getElem?_eq_some_iff.1 h
      simpa using hk
    rw [hg k hk] at h
    exact ⟨hk, (Option.some.inj h).symm⟩
  have eia := hV ia hia
  have eic := hV ic hic
  rw [← eia] at ha1 ha2
  rw [← eic] at hc1 hc2
  have ga : g ia < Ps := below _ ha1 ha2
  have gc : Ps < g ic := above _ hc1 hc2
  have hiac : ia < ic := by
    by_contra h
    rcases Nat.lt_or_ge ic ia with k | k
    · exact absurd (hVlt _ _ k hia) (not_lt.2 (ha2.trans hc1).le)
    · have : ia = ic := by omega
      rw [this] at ga
      exact lt_asymm ga gc
  -- the first rise
  obtain ⟨i, hi⟩ : ∃ i, Saturation.firstRise (vs.map f) = some i := by
    cases h : Saturation.firstRise (vs.map f) with
    | some i => exact ⟨i, rfl⟩
    | none =>
      have := falls_to g ia ic hiac.le fun k k1 k2 =>
        firstRise_none _ h k _ _ (hg k (k2.trans hic)) (hg (k + 1) (by omega))
      linarith
  obtain ⟨⟨x, y, hx, hy, hxy⟩, hfall⟩ := firstRise_spec _ i hi
  obtain ⟨hin, rfl⟩ := hg' _ _ hx
  obtain ⟨hin1, rfl⟩ := hg' _ _ hy
  have hfall' : ∀ k, k < i → g (k + 1) ≤ g k := fun k hk => by
    obtain ⟨a, b, e1, e2, h⟩ := hfall k hk
    obtain ⟨-, rfl⟩ := hg' _ _ e1
    obtain ⟨-, rfl⟩ := hg' _ _ e2
    exact h
  have hiic : i < ic := by
    by_contra h
    have := falls_to g ia ic hiac.le fun k k1 k2 => hfall' k (by omega)
    linarith
  have hA1 : ∀ k, i < k → k < n → A < V k := by
    have h0 : A < V (i + 1) := by
      by_contra h
      have h := not_lt.1 h
      have hlt := hVlt i (i + 1) (by omega) hin1
      exact absurd (h1 ⟨hpos _ (hVm i hin), (hlt.le.trans h)⟩ ⟨hpos _ (hVm _ hin1), h⟩ hlt) (not_lt.2 hxy.le)
    intro k hk hkn
    rcases Nat.lt_or_ge (i + 1) k with h | h
    · exact h0.trans (hVlt _ _ h hkn)
    · have : k = i + 1 := by omega
      rw [this]; exact h0
  -- the largest sample after it
  have hdrop : ∀ k, ((vs.map f).drop i)[k]? = (vs.map f)[i + k]? := fun k => by rw [List.getElem?_drop]
  obtain ⟨⟨j, m⟩, hm⟩ := argmax_isSome ((vs.map f).drop i) (by
    intro h
    have := hdrop 0
    rw [h, Nat.add_zero, hx] at this
    simp at this)
  obtain ⟨e1, hmax, hfirst⟩ := argmax_spec _ _ _ hm
  rw [hdrop] at e1
  obtain ⟨hMn, rfl⟩ := hg' _ _ e1
  have hmax' : ∀ k, i ≤ k → k < n → g k ≤ g (i + j) := fun k k1 k2 => by
    refine hmax _ (List.mem_of_getElem? (i := k - i) ?_)
    rw [hdrop, show i + (k - i) = k by omega, hg k k2]
  have hfirst' : ∀ k, i ≤ k → k < i + j → g k < g (i + j) := fun k k1 k2 => by
    refine hfirst (k - i) (by omega) _ ?_
    rw [hdrop, show i + (k - i) = k by omega, hg k (by omega)]
  have hj : 0 < j := by
    rcases Nat.eq_zero_or_pos j with h | h
    · subst h
      have := hmax' (i + 1) (by omega) hin1
      exact absurd (lt_of_lt_of_le hxy this) (lt_irrefl _)
    · exact h
  have hMA := hA1 (i + j) (by omega) hMn
  have hMp : Ps < g (i + j) := lt_of_lt_of_le gc (hmax' ic hiic.le hic)
  have hMm : vm < V (i + j) := by
    by_contra h
    rcases lt_or_eq_of_le (not_lt.1 h) with k | k
    · exact lt_asymm hMp (below _ (hl.trans hMA) k)
    · have : g (i + j) = Ps := by change f (V (i + j)) = Ps; rw [k, em]
      linarith
  -- the smallest sample between
  have htake : ∀ k, k < j → (((vs.map f).drop i).take j)[k]? = some (g (i + k)) := fun k hk => by
    rw [List.getElem?_take, if_pos hk, hdrop, hg _ (by omega)]
  obtain ⟨lo, hlo⟩ := amin_isSome (((vs.map f).drop i).take j) (by
    intro h
    have := htake 0 hj
    rw [h] at this
    simp at this)
  obtain ⟨lmem, lmin⟩ := amin_spec _ _ hlo
  have lmin' : ∀ k, i ≤ k → k < i + j → lo ≤ g k := fun k k1 k2 => by
    refine lmin _ (List.mem_of_getElem? (i := k - i) ?_)
    rw [htake _ (by omega), show i + (k - i) = k by omega]
  obtain ⟨l, hl', hll⟩ : ∃ l, (i ≤ l ∧ l < i + j) ∧ lo = g l := by
    obtain ⟨k, hk⟩ := List.mem_iff_getElem?.1 lmem
    have hkj : k < j := by
      rw [List.getElem?_take] at hk
      by_contra h
      rw [if_neg h] at hk
      cases hk
    rw [htake k hkj] at hk
    exact ⟨i + k, ⟨by omega, by omega⟩, (Option.some.inj hk).symm⟩
  refine ⟨lo, g (i + j), ?_, ?_, hMp, ?_, ?_⟩
  · unfold Saturation.bounds
    simp only [hi, hm, hlo]
  · rcases Nat.lt_or_ge i ia with h | h
    · have : ia < i + j := by
        by_contra hn'
        rcases Nat.lt_or_ge (i + j) ia with k | k
        · exact absurd (hVlt _ _ k hia) (not_lt.2 (ha2.trans hMm).le)
        · have e : ia = i + j := by omega
          rw [e] at ha2
          exact lt_asymm ha2 hMm
      exact lt_of_le_of_lt (lmin' ia h.le this) ga
    · have := falls_to g ia i h fun k _ k2 => hfall' k k2
      exact lt_of_le_of_lt ((lmin' i le_rfl (by omega)).trans this) ga
  · rw [hll]
    have hln : l < n := by omega
    have hlA : V l ≠ A := fun h => hA' (h ▸ hVm l hln)
    rcases lt_or_gt_of_ne hlA with h | h
    · exact h1 ⟨hpos _ (hVm l hln), h.le⟩ ⟨hA, le_rfl⟩ h
    · rcases le_total (V l) B with k | k
      · exact h2 ⟨le_rfl, hAB.le⟩ ⟨h.le, k⟩ h
      · have hlt := hVlt l (i + j) hl'.2 hMn
        exact absurd (h3 k (k.trans hlt.le) hlt) (not_lt.2 (hfirst' l hl'.1 hl'.2).le)
  · have hMB : V (i + j) ≠ B := fun h => hB' (h ▸ hVm _ hMn)
    rcases lt_or_gt_of_ne hMB with h | h
    · exact h2 ⟨hMA.le, h.le⟩ ⟨hAB.le, le_rfl⟩ h
    · exact h3 (mem_Ici.2 le_rfl) h.le h

end Shape

/-! ## The cubic equation of state -/

section Pure

variable {R T : ℝ} {q : Par 1} (hRT : 0 < R * T) (hb : 0 < q.bi 0) (ha : 0 < q.ai 0 * q.alpha 0) (hk : q.kij 0 0 = 0)

/-- The isotherm of the pure substance over the volume. -/
noncomputable def isotherm (R T : ℝ) (q : Par 1) (v : ℝ) : ℝ := pressure R T q (fun _ => 1) (1 / v)

include hRT hb ha hk in
private theorem isotherm_shape {u₁ u₂ : ℝ} (L : Loop (pureT R T q) u₁ u₂) :
    StrictAntiOn (isotherm R T q) (Ioc (q.bi 0) (q.bi 0 / u₂)) ∧ StrictMonoOn (isotherm R T q) (Icc (q.bi 0 / u₂) (q.bi 0 / u₁)) ∧
      StrictAntiOn (isotherm R T q) (Ici (q.bi 0 / u₁)) := by
  have hw : 0 < R * T / q.bi 0 := div_pos hRT hb
  have h2 : 0 < u₂ := L.pos.trans L.lt
  have hp : ∀ v, isotherm R T q v = R * T / q.bi 0 * reducedP (pureT R T q) (q.bi 0 / v) := fun v => by
    unfold isotherm
    rw [pure_pressure hRT hb ha hk, mul_one_div]
  have hlt : ∀ {v w : ℝ}, 0 < v → v < w → q.bi 0 / w < q.bi 0 / v := fun h h' => div_lt_div_of_pos_left hb h h'
  have up : ∀ {u v : ℝ}, 0 < u → 0 < v → v ≤ q.bi 0 / u → u ≤ q.bi 0 / v := fun {u v} hu hv h => by
    rw [le_div_iff₀ hv]; rw [le_div_iff₀ hu] at h; linarith
  have down : ∀ {u v : ℝ}, 0 < u → 0 < v → q.bi 0 / u ≤ v → q.bi 0 / v ≤ u := fun {u v} hu hv h => by
    rw [div_le_iff₀ hv]; rw [div_le_iff₀ hu] at h; linarith
  have p1 : 0 < q.bi 0 / u₁ := div_pos hb L.pos
  have p2 : 0 < q.bi 0 / u₂ := div_pos hb h2
  refine ⟨?_, ?_, ?_⟩
  · intro v hv w hw' hvw
    have v0 := hb.trans hv.1
    have w0 := hb.trans hw'.1
    rw [hp, hp]
    refine mul_lt_mul_of_pos_left (L.mono2 ⟨up h2 w0 hw'.2, (div_lt_one w0).2 hw'.1⟩ ⟨up h2 v0 hv.2, (div_lt_one v0).2 hv.1⟩ (hlt v0 hvw)) hw
  · intro v hv w hw' hvw
    have v0 := lt_of_lt_of_le p2 hv.1
    have w0 := lt_of_lt_of_le p2 hw'.1
    rw [hp, hp]
    refine mul_lt_mul_of_pos_left (L.anti ⟨up L.pos w0 hw'.2, down h2 w0 hw'.1⟩ ⟨up L.pos v0 hv.2, down h2 v0 hv.1⟩ (hlt v0 hvw)) hw
  · intro v hv w hw' hvw
    have v0 := lt_of_lt_of_le p1 hv
    have w0 := lt_of_lt_of_le p1 hw'
    rw [hp, hp]
    refine mul_lt_mul_of_pos_left (L.mono1 ⟨(div_pos hb w0).le, down L.pos w0 hw'⟩ ⟨(div_pos hb v0).le, down L.pos v0 hv⟩ (hlt v0 hvw)) hw

include hRT hb ha hk in
/-- Every positive pressure strictly between those of the turning points has three densities. -/
private theorem three_of_loop {u₁ u₂ P : ℝ} (L : Loop (pureT R T q) u₁ u₂) (h0 : 0 < P) (c2 : isotherm R T q (q.bi 0 / u₂) < P)
    (c3 : P < isotherm R T q (q.bi 0 / u₁)) : ∃ x y z, Three R T q P x y z := by
  obtain ⟨s1, s2, s3⟩ := isotherm_shape hRT hb ha hk L
  have hw : 0 < R * T / q.bi 0 := div_pos hRT hb
  have h2 : 0 < u₂ := L.pos.trans L.lt
  have h11 := L.lt.trans L.lt_one
  have hp := pure_pressure hRT hb ha hk
  unfold isotherm at c2 c3
  rw [hp, one_div_div, mul_div_cancel₀ _ hb.ne'] at c2 c3
  set t := pureT R T q with ht
  set P' := P / (R * T / q.bi 0) with hP'
  have e : R * T / q.bi 0 * P' = P := mul_div_cancel₀ P hw.ne'
  have c1 : 0 < P' := div_pos h0 hw
  have c2 : reducedP t u₂ < P' := (lt_div_iff₀ hw).2 (by rw [mul_comm]; exact c2)
  have c3 : P' < reducedP t u₁ := (div_lt_iff₀ hw).2 (by rw [mul_comm]; exact c3)
  obtain ⟨w, hw2, hw1, hwp⟩ : ∃ w, u₂ < w ∧ w < 1 ∧ reducedP t u₁ < reducedP t w := by
    obtain ⟨w, a, b, c⟩ := pr_unbounded 1 1 t 1 (reducedP t u₁) u₂ (by norm_num) one_pos h2.le (by simpa using L.lt_one)
    rw [reducedP_eq 1 1 t 1 w (by norm_num) one_pos] at c
    exact ⟨w, a, by simpa using b, by simpa using c⟩
  have hz : reducedP t 0 = 0 := by simp [reducedP]
  obtain ⟨x, ⟨x1, x2⟩, ex⟩ := intermediate_value_Icc L.pos.le (redP_cont (t := t) le_rfl h11) ⟨by rw [hz]; exact c1.le, c3.le⟩
  obtain ⟨y, ⟨y1, y2⟩, ey⟩ := intermediate_value_Icc' L.lt.le (redP_cont (t := t) L.pos.le L.lt_one) ⟨c2.le, c3.le⟩
  obtain ⟨z, ⟨z1, z2⟩, ez⟩ := intermediate_value_Icc hw2.le (redP_cont (t := t) h2.le hw1) ⟨c2.le, (c3.trans hwp).le⟩
  have x0 : 0 < x := lt_of_le_of_ne x1 (by rintro rfl; rw [hz] at ex; exact c1.ne ex)
  have xu : x < u₁ := lt_of_le_of_ne x2 (by rintro rfl; exact c3.ne' ex)
  have yu : y < u₂ := lt_of_le_of_ne y2 (by rintro rfl; exact c2.ne ey)
  have z11 : z < 1 := lt_of_le_of_lt z2 hw1
  have eb : ∀ w, q.bi 0 * (w / q.bi 0) = w := fun w => mul_div_cancel₀ w hb.ne'
  refine ⟨x / q.bi 0, y / q.bi 0, z / q.bi 0, h0, by positivity, div_lt_div_of_pos_right (lt_of_lt_of_le xu y1) hb,
    div_lt_div_of_pos_right (lt_of_lt_of_le yu z1) hb, div_lt_div_of_pos_right z11 hb, ?_, ?_, ?_⟩
  · rw [hp, eb, ex, e]
  · rw [hp, eb, ey, e]
  · rw [hp, eb, ez, e]

include hRT hb ha hk in
/-- The saturation state and the middle density at its pressure, as volumes in the three branches of the loop. -/
private theorem saturated_branches (s : ℝ × ℝ) (hs : Saturated R T q s) (w : ℝ)
    (hw : Three R T q (pressure R T q (fun _ => 1) s.1) s.1 w s.2) : ∃ u₁ u₂, Loop (pureT R T q) u₁ u₂ ∧
      q.bi 0 < 1 / s.2 ∧ 1 / s.2 < q.bi 0 / u₂ ∧ q.bi 0 / u₂ < 1 / w ∧ 1 / w < q.bi 0 / u₁ ∧ q.bi 0 / u₁ < 1 / s.1 := by
  have hcr : critT * (q.bi 0 * (R * T)) < q.ai 0 * q.alpha 0 := by
    by_contra hc
    exact c136_none hRT hb ha hk (not_lt.1 hc) s hs
  obtain ⟨h1, h2, h3, h4, h5, h6⟩ := (saturated_reduced hRT hb ha hk s).1 hs
  obtain ⟨u₁, u₂, L⟩ := loop_exists (pureT R T q) ((lt_div_iff₀ (mul_pos hb hRT)).2 hcr)
  obtain ⟨o1, o2⟩ := L.outer h1 h2 h3 h5 h6
  have hu2 : 0 < u₂ := L.pos.trans L.lt
  obtain ⟨p0, px, pxy, pyz, pz, ex, ey, ez⟩ := hw
  have py := px.trans pxy
  have pz0 := py.trans pyz
  have hv : ∀ {u ρ : ℝ}, 0 < u → 0 < ρ → (q.bi 0 / u < 1 / ρ ↔ q.bi 0 * ρ < u) := fun {u ρ} hu hρ => by
    rw [div_lt_div_iff₀ hu hρ, one_mul]
  have hv' : ∀ {u ρ : ℝ}, 0 < u → 0 < ρ → (1 / ρ < q.bi 0 / u ↔ u < q.bi 0 * ρ) := fun {u ρ} hu hρ => by
    rw [div_lt_div_iff₀ hρ hu, one_mul]
  have ey' : reducedP (pureT R T q) (q.bi 0 * s.1) = reducedP (pureT R T q) (q.bi 0 * w) := by
    rw [pure_pressure hRT hb ha hk, pure_pressure hRT hb ha hk] at ey
    exact (mul_left_cancel₀ (div_pos hRT hb).ne' ey).symm
  have m1 : q.bi 0 * s.1 < q.bi 0 * w := mul_lt_mul_of_pos_left pxy hb
  have m2 : q.bi 0 * w < q.bi 0 * s.2 := mul_lt_mul_of_pos_left pyz hb
  refine ⟨u₁, u₂, L, ?_, (hv' hu2 pz0).2 o2, (hv hu2 py).2 ?_, (hv' L.pos py).2 ?_, (hv L.pos px).2 o1⟩
  · rw [lt_div_iff₀ pz0]; exact h3
  · by_contra hc
    exact (L.mono2 ⟨not_lt.1 hc, m2.trans h3⟩ ⟨o2.le, h3⟩ m2).ne (ey'.symm.trans h5)
  · by_contra hc
    exact (L.mono1 ⟨h1.le, o1.le⟩ ⟨(h1.trans m1).le, not_lt.1 hc⟩ m1).ne ey'

include hRT hb ha hk in
/-- **C136** (the range of the search): if the isotherm is sampled at rising volumes of which one lies between the liquid and the middle volume
at the saturation pressure and one between the middle and the vapour volume, and at no turning point exactly, then the range that is
searched holds the saturation pressure, provided that is at least the smallest pressure of the search, and every pressure in the range
has three volumes. -/
theorem c136_grid (pconv : ℝ) (hc0 : 0 < pconv) (s : ℝ × ℝ) (hs : Saturated R T q s)
    (hc : pconv ≤ pressure R T q (fun _ => 1) s.1) (w : ℝ) (hw : Three R T q (pressure R T q (fun _ => 1) s.1) s.1 w s.2)
    (vs : List ℝ) (hvs : vs.Pairwise (· < ·)) (hpos : ∀ v ∈ vs, q.bi 0 < v) (hturn : ∀ v ∈ vs, ¬ IsLocalExtr (isotherm R T q) v)
    (a c : ℝ) (ham : a ∈ vs) (hcm : c ∈ vs) (ha1 : 1 / s.2 < a) (ha2 : a < 1 / w) (hc1 : 1 / w < c) (hc2 : c < 1 / s.1) :
    ∃ lo hi, Saturation.bounds pconv (vs.map (isotherm R T q)) = .ok (lo, hi) ∧ pressure R T q (fun _ => 1) s.1 ∈ Icc lo hi ∧
      ∀ P ∈ Icc lo hi, ∃ x y z, Three R T q P x y z := by
  obtain ⟨u₁, u₂, L, k1, k2, k3, k4, k5⟩ := saturated_branches hRT hb ha hk s hs w hw
  obtain ⟨s1, s2, s3⟩ := isotherm_shape hRT hb ha hk L
  have k12 := k1.trans k2
  have k34 := k3.trans k4
  have eA : IsLocalExtr (isotherm R T q) (q.bi 0 / u₂) := Or.inl (isLocalMin_of_anti_mono k12 k34 s1.antitoneOn
    (s2.monotoneOn.mono Ico_subset_Icc_self))
  have eB : IsLocalExtr (isotherm R T q) (q.bi 0 / u₁) := Or.inr (isLocalMax_of_mono_anti k34 k5
    (s2.monotoneOn.mono Ioc_subset_Icc_self) (s3.antitoneOn.mono Ico_subset_Ici_self))
  obtain ⟨p0, px, pxy, pyz, pz, ex, ey, ez⟩ := hw
  obtain ⟨lo, hi, hbd, b1, b2, b3, b4⟩ := bounds_of_shape s1 s2 s3 k12 k34 pconv (pressure R T q (fun _ => 1) s.1) (1 / s.2) (1 / w) (1 / s.1)
    k1 k2 k3 k4 k5 (by unfold isotherm; rw [one_div_one_div]; exact ez) (by unfold isotherm; rw [one_div_one_div]; exact ey)
    (by unfold isotherm; rw [one_div_one_div]) vs hvs hpos (fun h => hturn _ h eA) (fun h => hturn _ h eB) a c ham hcm ha1 ha2 hc1 hc2
  refine ⟨_, _, hbd, ⟨max_le hc b1.le, b2.le⟩, fun P hP => ?_⟩
  exact three_of_loop hRT hb ha hk L (lt_of_lt_of_le hc0 ((le_max_left _ _).trans hP.1))
    (lt_of_lt_of_le b3 ((le_max_right _ _).trans hP.1)) (lt_of_le_of_lt hP.2 b4)

/-- A list that reaches from below one number to above another in steps smaller than their distance has an entry between them. -/
theorem fine_between (x y : ℝ) (hxy : x < y) : ∀ vs : List ℝ, (∃ a, vs.head? = some a ∧ a ≤ x) → (∃ b, vs.getLast? = some b ∧ y ≤ b) →
    (∀ (k : ℕ) (a b : ℝ), vs[k]? = some a → vs[k + 1]? = some b → b - a < y - x) → ∃ v ∈ vs, x < v ∧ v < y
  | [], h, _, _ => by obtain ⟨a, h, -⟩ := h; cases h
  | [v], h, h', _ => by
    obtain ⟨a, h, ha⟩ := h
    obtain ⟨b, h', hb⟩ := h'
    simp only [List.head?_cons, Option.some.injEq] at h
    simp only [List.getLast?_singleton, Option.some.injEq] at h'
    subst h; subst h'
    linarith
  | v :: w :: r, h, h', hs => by
    obtain ⟨a, h, ha⟩ := h
    simp only [List.head?_cons, Option.some.injEq] at h
    subst h
    have h0 := hs 0 v w rfl rfl
    rcases lt_or_ge x w with hw | hw
    · exact ⟨w, by simp, hw, by linarith⟩
    · obtain ⟨u, hu, hu'⟩ := fine_between x y hxy (w :: r) ⟨w, rfl, hw⟩ (by simpa using h')
        fun k a b e1 e2 => hs (k + 1) a b (by simpa using e1) (by simpa using e2)
      exact ⟨u, List.mem_cons_of_mem _ hu, hu'⟩

include hRT hb ha hk in
/-- **C136** (fine samplings): it is enough that the samples reach from the liquid volume to the vapour volume in steps smaller than the distances
of the middle volume to both.  With a spline that reproduces the isotherm and a minimiser that finds the smallest value of the objective,
the search then returns the saturation pressure and the densities of liquid and vapour. -/
theorem c136_fine (E : Saturation.Ext ℝ) (tol pconv : ℝ) (htol : 0 < tol) (hc0 : 0 < pconv) (xi : List ℝ)
    (hxi : (xi.filter (· ≠ 0)).length = 1) (s : ℝ × ℝ) (hs : Saturated R T q s) (hc : pconv ≤ pressure R T q (fun _ => 1) s.1) (w : ℝ)
    (hw : Three R T q (pressure R T q (fun _ => 1) s.1) s.1 w s.2) (vs : List ℝ) (hvs : vs.Pairwise (· < ·))
    (hpos : ∀ v ∈ vs, q.bi 0 < v) (hturn : ∀ v ∈ vs, ¬ IsLocalExtr (isotherm R T q) v)
    (hfirst : ∃ a, vs.head? = some a ∧ a ≤ 1 / s.2) (hlast : ∃ b, vs.getLast? = some b ∧ 1 / s.1 ≤ b)
    (hfine : ∀ (k : ℕ) (a b : ℝ), vs[k]? = some a → vs[k + 1]? = some b → b - a < 1 / w - 1 / s.2 ∧ b - a < 1 / s.1 - 1 / w)
    (hext : 2 ≤ (E.scipy vs ((vs.map (isotherm R T q)).map some)).extrema.length)
    (hrep : ∀ lo hi, Saturation.bounds pconv (vs.map (isotherm R T q)) = .ok (lo, hi) →
      Reproduces R T q E vs (vs.map (isotherm R T q)) lo hi)
    (hmin : ∀ lo hi, Saturation.bounds pconv (vs.map (isotherm R T q)) = .ok (lo, hi) → pressure R T q (fun _ => 1) s.1 ∈ Icc lo hi → ∃ p ∈ Icc lo hi, E.minScalar (Saturation.objective E.scipy vs (vs.map (isotherm R T q))) lo hi = .ok p ∧
      ∀ y ∈ Icc lo hi, ∀ m m', Saturation.objective E.scipy vs (vs.map (isotherm R T q)) p = .ok (some m) →
        Saturation.objective E.scipy vs (vs.map (isotherm R T q)) y = .ok (some m') → m ≤ m')
    (hcheck : ∀ p, E.check p = .ok ()) :
    Saturation.saturation E tol pconv xi (.ok (vs, (vs.map (isotherm R T q)).map some)) =
      .ok (some (pressure R T q (fun _ => 1) s.1, s.2, s.1)) := by
  have hw' := hw
  obtain ⟨p0, px, pxy, pyz, pz, ex, ey, ez⟩ := hw'
  have py := px.trans pxy
  have d1 := one_div_lt_one_div_of_lt py pyz
  have d2 := one_div_lt_one_div_of_lt px pxy
  obtain ⟨x, hx, hx'⟩ := hfirst
  obtain ⟨y, hy, hy'⟩ := hlast
  obtain ⟨a, am, a1, a2⟩ := fine_between (1 / s.2) (1 / w) d1 vs ⟨x, hx, hx'⟩ ⟨y, hy, d2.le.trans hy'⟩ fun k a b e e' => (hfine k a b e e').1
  obtain ⟨c, cm, c1, c2⟩ := fine_between (1 / w) (1 / s.1) d2 vs ⟨x, hx, hx'.trans d1.le⟩ ⟨y, hy, hy'⟩ fun k a b e e' => (hfine k a b e e').2
  obtain ⟨lo, hi, hbd, hin, h3⟩ := c136_grid hRT hb ha hk pconv hc0 s hs hc w hw vs hvs hpos hturn a c am cm a1 a2 c1 c2
  obtain ⟨p, hp, hm, hbest⟩ := hmin lo hi hbd hin
  exact c136_found hRT hb ha hk E tol pconv xi vs _ lo hi p s hs htol hxi hext hbd hin h3 (hrep lo hi hbd) hm hp hbest (hcheck _)

include hRT hb ha hk in
/-- **C136, violated for coarse samplings**: the samples of the true isotherm may begin and end so that the range that is searched lies above the
saturation pressure.  Whatever spline and minimiser are used, a pressure that is then returned is too large;
and one is returned by some. -/
theorem c136_violated_coarse (s : ℝ × ℝ) (hs : Saturated R T q s) : ∃ vs : List ℝ, vs.Pairwise (· < ·) ∧ (∀ v ∈ vs, 1 / s.2 < v ∧ v < 1 / s.1) ∧
    (∀ (E : Saturation.Ext ℝ), ScipyOk E → ∀ (tol pconv : ℝ) (xi : List ℝ) (p ρl ρv : ℝ),
      Saturation.saturation E tol pconv xi (.ok (vs, (vs.map (isotherm R T q)).map some)) = .ok (some (p, ρl, ρv)) →
        pressure R T q (fun _ => 1) s.1 < p) ∧
    ∃ (E : Saturation.Ext ℝ) (pconv p ρl ρv : ℝ), ScipyOk E ∧
      Saturation.saturation E 1 pconv [1] (.ok (vs, (vs.map (isotherm R T q)).map some)) = .ok (some (p, ρl, ρv)) := by
  obtain ⟨w, hw⟩ := saturated_three hRT hb ha hk s hs
  obtain ⟨u₁, u₂, L, k1, k2, k3, k4, k5⟩ := saturated_branches hRT hb ha hk s hs w hw
  obtain ⟨s1, s2, s3⟩ := isotherm_shape hRT hb ha hk L
  obtain ⟨v, v1, v2⟩ := exists_between k4
  have hm : isotherm R T q (1 / w) = pressure R T q (fun _ => 1) s.1 := by
    unfold isotherm; rw [one_div_one_div]; exact hw.2.2.2.2.2.2.1
  have g1 : pressure R T q (fun _ => 1) s.1 < isotherm R T q v := by
    rw [← hm]; exact s2 ⟨k3.le, k4.le⟩ ⟨(k3.trans v1).le, v2.le⟩ v1
  have g2 : isotherm R T q v < isotherm R T q (q.bi 0 / u₁) := s2 ⟨(k3.trans v1).le, v2.le⟩ ⟨(k3.trans k4).le, le_rfl⟩ v2
  have hbds : ∀ pconv, Saturation.bounds pconv ([v, q.bi 0 / u₁].map (isotherm R T q)) =
      .ok (max pconv (isotherm R T q v), isotherm R T q (q.bi 0 / u₁)) := fun pconv => by
    unfold Saturation.bounds Saturation.firstRise
    simp [Saturation.argmax, Saturation.amin, g2]
  refine ⟨[v, q.bi 0 / u₁], by simpa using v2, ?_, ?_, ?_⟩
  · intro x hx
    simp only [List.mem_cons, List.not_mem_nil, or_false] at hx
    rcases hx with rfl | rfl
    · exact ⟨k2.trans (k3.trans v1), v2.trans k5⟩
    · exact ⟨k2.trans (k3.trans k4), k5⟩
  · intro E hE tol pconv xi p ρl ρv h
    obtain ⟨-, vs', ps', hcv, hsr, -⟩ := saturation_steps E tol pconv xi _ _ h
    cases hcv
    obtain ⟨-, qs, lo, hi, hqs, hbd, hmn, -⟩ := search_steps E tol pconv _ _ p ρl ρv hsr
    have : qs = [v, q.bi 0 / u₁].map (isotherm R T q) := (List.map_injective_iff.2 (Option.some_injective _) hqs).symm
    rw [this, hbds] at hbd
    cases hbd
    exact lt_of_lt_of_le g1 ((le_max_right _ _).trans (hE.min_bounds _ _ _ _ hmn).1)
  · refine ⟨{ scipy := fun _ _ => { roots := [1, 2, 3], extrema := [1, 2], integral := fun _ _ => 0 },
              minScalar := fun _ lo hi => if lo ≤ hi then .ok lo else .error .valueError,
              density := fun _ _ _ => .error .valueError, check := fun _ => .ok (), eps := 0 }, isotherm R T q v, isotherm R T q v, 1, 1 / 3,
      ⟨?_, ?_, ?_⟩, ?_⟩
    · intro f lo hi x h
      simp only at h
      split_ifs at h with hc
      cases h
      exact ⟨le_rfl, hc⟩
    · intro p v r ρ h; cases h
    · intro _ _
      refine ⟨by norm_num, ?_⟩
      intro r hr
      simp only [List.mem_cons, List.not_mem_nil, or_false] at hr
      rcases hr with rfl | rfl | rfl <;> norm_num
    · have hb' := hbds (isotherm R T q v)
      rw [max_self] at hb'
      simp only [List.map_cons, List.map_nil] at hb' ⊢
      simp [Saturation.saturation, Saturation.checkPure, Saturation.search, Saturation.fit, hb', g2.le, Saturation.accept, Saturation.objective]

private theorem not_extr {f : ℝ → ℝ} {v : ℝ} (a b : ℝ) (hav : a < v) (hvb : v < b)
    (h : StrictMonoOn f (Icc a b) ∨ StrictAntiOn f (Icc a b)) : ¬ IsLocalExtr f v := by
  have hl : Ioo a v ∈ 𝓝[<] v := Ioo_mem_nhdsLT hav
  have hr : Ioo v b ∈ 𝓝[>] v := Ioo_mem_nhdsGT hvb
  have mv : v ∈ Icc a b := ⟨hav.le, hvb.le⟩
  have ml : ∀ {x}, x ∈ Ioo a v → x ∈ Icc a b := fun hx => ⟨hx.1.le, (hx.2.trans hvb).le⟩
  have mr : ∀ {x}, x ∈ Ioo v b → x ∈ Icc a b := fun hx => ⟨(hav.trans hx.1).le, hx.2.le⟩
  rintro (hx | hx)
  · obtain ⟨x, k1, k2⟩ := ((hx.filter_mono nhdsWithin_le_nhds : ∀ᶠ x in 𝓝[<] v, f v ≤ f x).and hl).exists
    obtain ⟨y, k3, k4⟩ := ((hx.filter_mono nhdsWithin_le_nhds : ∀ᶠ x in 𝓝[>] v, f v ≤ f x).and hr).exists
    rcases h with h | h
    · exact absurd (h (ml k2) mv k2.2) (not_lt.2 k1)
    · exact absurd (h mv (mr k4) k4.1) (not_lt.2 k3)
  · obtain ⟨x, k1, k2⟩ := ((hx.filter_mono nhdsWithin_le_nhds : ∀ᶠ x in 𝓝[<] v, f x ≤ f v).and hl).exists
    obtain ⟨y, k3, k4⟩ := ((hx.filter_mono nhdsWithin_le_nhds : ∀ᶠ x in 𝓝[>] v, f x ≤ f v).and hr).exists
    rcases h with h | h
    · exact absurd (h mv (mr k4) k4.1) (not_lt.2 k3)
    · exact absurd (h (ml k2) mv k2.2) (not_lt.2 k1)

private theorem list_progression (x h : ℝ) (N : ℕ) : ∃ vs : List ℝ, vs.length = N + 1 ∧
    ∀ (k : ℕ) (a : ℝ), vs[k]? = some a ↔ k < N + 1 ∧ a = x + k * h := by
  refine ⟨(List.range (N + 1)).map fun (k : ℕ) => x + k * h, by simp, fun k a => ?_⟩
  rw [List.getElem?_map]
  rcases Nat.lt_or_ge k (N + 1) with hk | hk
  · rw [List.getElem?_range hk]
    simp [hk, eq_comm]
  · rw [List.getElem?_eq_none (by simpa using hk)]
    simp [not_lt.2 hk]

include hRT hb ha hk in
/-- The hypotheses of `c136_fine` can be met for every saturation state, with exact procedures. -/
theorem c136_fine_exists (s : ℝ × ℝ) (hs : Saturated R T q s) : ∃ (E : Saturation.Ext ℝ) (vs : List ℝ), ScipyOk E ∧ vs.Pairwise (· < ·) ∧
    Saturation.saturation E 1 (pressure R T q (fun _ => 1) s.1) [1] (.ok (vs, (vs.map (isotherm R T q)).map some)) =
      .ok (some (pressure R T q (fun _ => 1) s.1, s.2, s.1)) := by
  obtain ⟨w, hw⟩ := saturated_three hRT hb ha hk s hs
  obtain ⟨u₁, u₂, L, k1, k2, k3, k4, k5⟩ := saturated_branches hRT hb ha hk s hs w hw
  obtain ⟨s1, s2, s3⟩ := isotherm_shape hRT hb ha hk L
  set A := q.bi 0 / u₂ with hA
  set B := q.bi 0 / u₁ with hB
  set Ps := pressure R T q (fun _ => 1) s.1 with hPs
  have hp0 : 0 < Ps := hw.1
  -- an even step, and a first volume for which no sample is a turning point
  obtain ⟨h, h0, hh⟩ := exists_between (show 0 < min (1 / w - 1 / s.2) (1 / s.1 - 1 / w) from
    lt_min (by linarith) (by linarith))
  obtain ⟨N, hN⟩ := exists_nat_ge ((1 / s.1 - q.bi 0) / h)
  have hN : 1 / s.1 - q.bi 0 ≤ N * h := (div_le_iff₀ h0).1 hN
  obtain ⟨x, ⟨x1, x2⟩, hx⟩ := (Ioo_infinite k1).exists_notMem_finset
    (((Finset.range (N + 1)).image fun k : ℕ => A - k * h) ∪ ((Finset.range (N + 1)).image fun k : ℕ => B - k * h))
  obtain ⟨vs, hlen, hget⟩ := list_progression x h N
  have hmem : ∀ v ∈ vs, ∃ k : ℕ, k < N + 1 ∧ v = x + k * h := fun v hv => by
    obtain ⟨k, hk⟩ := List.mem_iff_getElem?.1 hv
    exact ⟨k, (hget k v).1 hk⟩
  have hpos : ∀ v ∈ vs, q.bi 0 < v := fun v hv => by
    obtain ⟨k, -, rfl⟩ := hmem v hv
    have : 0 ≤ k * h := by positivity
    linarith
  have hAB : ∀ v ∈ vs, v ≠ A ∧ v ≠ B := fun v hv => by
    obtain ⟨k, hk, rfl⟩ := hmem v hv
    simp only [Finset.mem_union, Finset.mem_image, Finset.mem_range, not_or, not_exists, not_and] at hx
    exact ⟨fun e => hx.1 k hk (by linarith), fun e => hx.2 k hk (by linarith)⟩
  have hturn : ∀ v ∈ vs, ¬ IsLocalExtr (isotherm R T q) v := fun v hv => by
    obtain ⟨n1, n2⟩ := hAB v hv
    have hv0 := hpos v hv
    rcases lt_or_gt_of_ne n1 with h | h
    · obtain ⟨a, a1, a2⟩ := exists_between hv0
      exact not_extr a A a2 h (Or.inr (s1.mono fun y hy => ⟨lt_of_lt_of_le a1 hy.1, hy.2⟩))
    · rcases lt_or_gt_of_ne n2 with h' | h'
      · exact not_extr A B h h' (Or.inl s2)
      · exact not_extr B (v + 1) h' (by linarith) (Or.inr (s3.mono fun y hy => hy.1))
  have hsorted : vs.Pairwise (· < ·) := by
    rw [List.pairwise_iff_getElem]
    intro i j hi hj hij
    have ei := ((hget i _).1 (List.getElem?_eq_getElem hi)).2
    have ej := ((hget j _).1 (List.getElem?_eq_getElem hj)).2
    rw [ei, ej]
    have : (i : ℝ) < j := by exact_mod_cast hij
    nlinarith
  have hhead : vs[0]? = some x := (hget 0 x).2 ⟨by omega, by simp⟩
  have hlast : vs[N]? = some (x + N * h) := (hget N _).2 ⟨by omega, rfl⟩
  refine ⟨exactExt R T q (isotherm R T q x) Ps, vs, exactExt_ok _ _, hsorted, ?_⟩
  obtain ⟨r, hr⟩ : ∃ r, vs = x :: r := by
    cases vs with
    | nil => cases hhead
    | cons y r => exact ⟨r, by rw [show y = x from by simpa using hhead]⟩
  have hsh : ∀ y P : ℝ, y - (y - P) = P := fun y P => by ring
  have hshift : ∀ P, (exactExt R T q (isotherm R T q x) Ps).scipy vs (shifted (vs.map (isotherm R T q)) P) =
      { roots := exactRoots R T q P, extrema := [1, 2], integral := fun a b => ∫ v in a..b, (pressure R T q (fun _ => 1) (1 / v) - P) } := by
    intro P
    simp only [hr, exactExt, shifted, List.map_cons, hsh]
  have hthree : ∀ lo hi, Saturation.bounds Ps (vs.map (isotherm R T q)) = .ok (lo, hi) → ∀ P ∈ Icc lo hi, ∃ x y z, Three R T q P x y z := by
    have d1 : 1 / s.2 < 1 / w := k2.trans k3
    have d2 : 1 / w < 1 / s.1 := k4.trans k5
    have hst : ∀ (k : ℕ) (a b : ℝ), vs[k]? = some a → vs[k + 1]? = some b → b - a = h := fun k a b e1 e2 => by
      rw [((hget _ _).1 e1).2, ((hget _ _).1 e2).2]; push_cast; ring
    obtain ⟨a, am, a1, a2⟩ := fine_between (1 / s.2) (1 / w) d1 vs ⟨x, by rw [List.head?_eq_getElem?]; exact hhead, x2.le⟩
      ⟨x + N * h, by rw [List.getLast?_eq_getElem?, hlen]; exact hlast, by linarith⟩
      fun k a b e e' => by rw [hst k a b e e']; exact lt_of_lt_of_le hh (min_le_left _ _)
    obtain ⟨c, cm, c1, c2⟩ := fine_between (1 / w) (1 / s.1) d2 vs ⟨x, by rw [List.head?_eq_getElem?]; exact hhead, by linarith⟩
      ⟨x + N * h, by rw [List.getLast?_eq_getElem?, hlen]; exact hlast, by linarith⟩
      fun k a b e e' => by rw [hst k a b e e']; exact lt_of_lt_of_le hh (min_le_right _ _)
    obtain ⟨lo', hi', hbd, -, h3⟩ := c136_grid hRT hb ha hk Ps hp0 s hs le_rfl w hw vs hsorted hpos hturn a c am cm a1 a2 c1 c2
    intro lo hi hbd'
    rw [hbd] at hbd'
    cases hbd'
    exact h3
  have hrep : ∀ lo hi, Saturation.bounds Ps (vs.map (isotherm R T q)) = .ok (lo, hi) →
      Reproduces R T q (exactExt R T q (isotherm R T q x) Ps) vs (vs.map (isotherm R T q)) lo hi := by
    intro lo hi hbd P hP
    obtain ⟨x', y', z', h⟩ := hthree lo hi hbd P hP
    rw [hshift P]
    have hex : ∃ c : ℝ × ℝ × ℝ, Three R T q P c.1 c.2.1 c.2.2 := ⟨(x', y', z'), h⟩
    simp only [exactRoots, dif_pos hex]
    have hc := hex.choose_spec
    have hall := fun r => three_all hRT hb ha hk P _ _ _ (1 / r) hc
    generalize hex.choose = c at hc hall
    obtain ⟨p0, px, pxy, pyz, pz, ex, ey, ez⟩ := hc
    have py := px.trans pxy
    have pz0 := py.trans pyz
    have inv : ∀ {a : ℝ}, a < 1 / q.bi 0 → 0 < a → q.bi 0 < 1 / a := fun {a} h1 h2 => by
      rw [lt_div_iff₀ h2, mul_comm]; exact (lt_div_iff₀ hb).1 h1
    refine ⟨pairwise_three (one_div_lt_one_div_of_lt py pyz) (one_div_lt_one_div_of_lt px pxy), fun r => ?_, fun _ _ => trivial⟩
    simp only [List.mem_cons, List.not_mem_nil, or_false]
    constructor
    · rintro (rfl | rfl | rfl)
      · exact ⟨inv pz pz0, by rw [one_div_one_div]; exact ez⟩
      · exact ⟨inv (pyz.trans pz) py, by rw [one_div_one_div]; exact ey⟩
      · exact ⟨inv (pxy.trans (pyz.trans pz)) px, by rw [one_div_one_div]; exact ex⟩
    · rintro ⟨g1, g2⟩
      have g0 := hb.trans g1
      rcases hall r (by positivity) (one_div_lt_one_div_of_lt hb g1) g2 with e | e | e
      · right; right; rw [← e, one_div_one_div]
      · right; left; rw [← e, one_div_one_div]
      · left; rw [← e, one_div_one_div]
  refine c136_fine hRT hb ha hk _ 1 Ps one_pos hp0 [1] (by simp) s hs le_rfl w hw vs hsorted hpos hturn
    ⟨x, by rw [List.head?_eq_getElem?]; exact hhead, x2.le⟩ ⟨x + N * h, by rw [List.getLast?_eq_getElem?, hlen]; exact hlast, by linarith⟩
    (fun k a b e1 e2 => ?_) (by simp [exactExt]) hrep (fun lo hi hbd hin => ⟨Ps, hin, ?_, ?_⟩) (fun _ => rfl)
  · have : b - a = h := by rw [((hget _ _).1 e1).2, ((hget _ _).1 e2).2]; push_cast; ring
    rw [this]
    exact ⟨lt_of_lt_of_le hh (min_le_left _ _), lt_of_lt_of_le hh (min_le_right _ _)⟩
  · simp only [exactExt]
    exact if_pos hin
  · intro y hy m m' e1 e2
    have hob := (objective_exact hRT hb ha hk _ vs _ lo hi _ s.1 w s.2 hin (hrep lo hi hbd) hw).2
    have hfug := hs.2.2.2.2.2
    rw [← hs.2.2.2.2.1] at hfug
    unfold phi at hfug
    rw [Real.exp_eq_exp] at hfug
    rw [← hPs, hfug] at hob
    rw [hob] at e1
    cases e1
    obtain ⟨x', y', z', h⟩ := hthree lo hi hbd y hy
    rw [(objective_exact hRT hb ha hk _ vs _ lo hi _ x' y' z' hy (hrep lo hi hbd) h).2] at e2
    cases e2
    rw [sub_self, mul_zero, zero_pow two_ne_zero]
    exact sq_nonneg _

end Pure

end Verif.Props
