import Verif.Props.PengRobinsonSaturation
import Verif.Model.PhaseDensity

/-!
# C158: the objectives of the bubble and dew pressure of a pure fluid

For a pure fluid the objective of the bubble pressure is the ratio of the fugacity coefficients of the two densities minus one.  Here
its sign is determined for the cubic equation of state, at all pressures at which the isotherm has three densities, and what is left of
it at the other pressures.
-/

namespace Verif.Props
open Verif Verif.PengRobinson Verif.PhaseDensity Set

/-- The solvers stay at a density that already solves the equation. -/
def StaysAt (I : Iso ℝ) (ρ : ℝ) : Prop :=
  (∀ hi, I.brentq (ρ * (99 / 100)) hi = .ok ρ) ∧ I.lsq ρ I.feps I.rhoMax = .ok ρ

/-- The fugacity coefficient of the pure fluid at the pressure of the isotherm. -/
noncomputable def pureFug (R T : ℝ) (q : Par 1) (P : ℝ) : Option ℝ → Except PyErr (List (Option ℝ))
  | some ρ => .ok [some (phi R T q (fun _ => 1) P ρ 0)]
  | none => .ok [none]

/-- calc.py:2902-2913 for a pure fluid, of which both phases have the composition `[1]`. -/
noncomputable def pureBubble (R T : ℝ) (q : Par 1) (I : Iso ℝ) : Except PyErr ℝ := do
  let l ← liquidDensity I
  let (φl, _) ← liquidFugacity (pureFug R T q I.P) l
  let v ← vaporDensity I
  let (φv, _) ← vaporFugacity 1 (pureFug R T q I.P) v
  equilibriumObjective .vapor [1] φl φv

/-- calc.py:2960-2971 for a pure fluid. -/
noncomputable def pureDew (R T : ℝ) (q : Par 1) (I : Iso ℝ) : Except PyErr ℝ := do
  let v ← vaporDensity I
  let (φv, _) ← vaporFugacity 1 (pureFug R T q I.P) v
  let l ← liquidDensity I
  let (φl, _) ← liquidFugacity (pureFug R T q I.P) l
  equilibriumObjective .liquid [1] φl φv

theorem vapor_third (I : Iso ℝ) (x y z : ℝ) (hn : I.nanRoot = false) (hr : I.roots = [1 / z, 1 / y, 1 / x]) (hs : StaysAt I x) :
    vaporDensity I = .ok (some x, 0) := by
  have h : vaporRefine I false x = .ok x := by
    unfold vaporRefine
    simp only [hs.1, hs.2, Bool.false_eq_true, ite_self]
  simp [vaporDensity, vaporSeed, hn, hr, h, bind, Except.bind]

theorem liquid_first (I : Iso ℝ) (x y z : ℝ) (hn : I.nanRoot = false) (hr : I.roots = [1 / z, 1 / y, 1 / x]) (hs : StaysAt I z) :
    liquidDensity I = .ok (some z, 1) := by
  have h : liquidRefine I false z = .ok z := by
    unfold liquidRefine
    simp only [hs.1, hs.2, Bool.false_eq_true, ite_self]
  simp [liquidDensity, liquidSeed, hn, hr, h, bind, Except.bind]

/-- What the two objectives are when the densities are found. -/
theorem pure_objectives (R T : ℝ) (q : Par 1) (I : Iso ℝ) (x z : ℝ) (f g : ℕ) (hg : g ≠ 3) (hf3 : f ≠ 3) (hf4 : f ≠ 4)
    (hv : vaporDensity I = .ok (some x, f)) (hl : liquidDensity I = .ok (some z, g)) :
    pureBubble R T q I = .ok (Real.exp (lnPhi R T q (fun _ => 1) I.P z 0 - lnPhi R T q (fun _ => 1) I.P x 0) - 1) ∧
      pureDew R T q I = .ok (Real.exp (-(lnPhi R T q (fun _ => 1) I.P z 0 - lnPhi R T q (fun _ => 1) I.P x 0)) - 1) := by
  unfold pureBubble pureDew
  rw [hv, hl]
  simp [liquidFugacity, vaporFugacity, hg, hf3, hf4, pureFug, equilibriumObjective, bind, Except.bind, phi, Real.exp_sub]

section Pure
variable {R T : ℝ} {q : Par 1}
variable (hRT : 0 < R * T) (hb : 0 < q.bi 0) (ha : 0 < q.ai 0 * q.alpha 0) (hk : q.kij 0 0 = 0)
include hRT hb ha hk

theorem gap_rate (P x y z P' x' y' z' : ℝ) (h : Three R T q P x y z) (h' : Three R T q P' x' y' z') (hPP : P ≤ P') :
    ∃ c, 0 < c ∧ (P' - P) * c ≤
      R * T * ((lnPhi R T q (fun _ => 1) P z 0 - lnPhi R T q (fun _ => 1) P x 0) -
        (lnPhi R T q (fun _ => 1) P' z' 0 - lnPhi R T q (fun _ => 1) P' x' 0)) := by
  have hw : 0 < R * T / q.bi 0 := div_pos hRT hb
  have hp := pure_pressure hRT hb ha hk
  have hcr : critT < pureT R T q := by
    obtain ⟨p0, px, pxy, pyz, pz, ex, ey, ez⟩ := h
    have bz : q.bi 0 * z < 1 := by rw [mul_comm]; exact (lt_div_iff₀ hb).1 pz
    have lift : ∀ {a c : ℝ}, a < c → q.bi 0 * a < q.bi 0 * c := fun h => mul_lt_mul_of_pos_left h hb
    by_contra hc
    rw [not_lt] at hc
    have := reducedP_strictMono _ hc ⟨(mul_pos hb px).le, (lift (pxy.trans pyz)).trans bz⟩
      ⟨(mul_pos hb (px.trans pxy)).le, (lift pyz).trans bz⟩ (lift pxy)
    rw [hp] at ex ey
    exact absurd (mul_left_cancel₀ hw.ne' (ex.trans ey.symm)) this.ne
  obtain ⟨u₁, u₂, L⟩ := loop_exists _ hcr
  have eb : ∀ w, q.bi 0 * (w / q.bi 0) = w := fun w => mul_div_cancel₀ w hb.ne'
  have d1 : 0 < u₁ / q.bi 0 := div_pos L.pos hb
  have d2 : u₁ / q.bi 0 < u₂ / q.bi 0 := div_lt_div_of_pos_right L.lt hb
  have d3 : u₂ / q.bi 0 < 1 / q.bi 0 := div_lt_div_of_pos_right L.lt_one hb
  have := c136_falls hRT hb ha hk P x y z P' x' y' z' (u₁ / q.bi 0) (u₂ / q.bi 0) h h' hPP d1 d2 d3 (by
    intro a ha' c hc hac
    rw [hp, hp]
    refine mul_lt_mul_of_pos_left (L.anti ?_ ?_ (mul_lt_mul_of_pos_left hac hb)) hw
    · exact ⟨by rw [← eb u₁]; exact mul_le_mul_of_nonneg_left ha'.1 hb.le, by rw [← eb u₂]; exact mul_le_mul_of_nonneg_left ha'.2 hb.le⟩
    · exact ⟨by rw [← eb u₁]; exact mul_le_mul_of_nonneg_left hc.1 hb.le, by rw [← eb u₂]; exact mul_le_mul_of_nonneg_left hc.2 hb.le⟩)
  exact ⟨_, sub_pos.2 (one_div_lt_one_div_of_lt d1 d2), this⟩

/-- Between two pressures with three densities the difference of the logarithms of the fugacity coefficients strictly falls. -/
theorem gap_falls (P x y z P' x' y' z' : ℝ) (h : Three R T q P x y z) (h' : Three R T q P' x' y' z') (hPP : P < P') :
    lnPhi R T q (fun _ => 1) P' z' 0 - lnPhi R T q (fun _ => 1) P' x' 0 <
      lnPhi R T q (fun _ => 1) P z 0 - lnPhi R T q (fun _ => 1) P x 0 := by
  obtain ⟨c, hc, hle⟩ := gap_rate hRT hb ha hk P x y z P' x' y' z' h h' hPP.le
  have := lt_of_lt_of_le (mul_pos (sub_pos.2 hPP) hc) hle
  have := (mul_pos_iff_of_pos_left hRT).1 this
  linarith

/-- **C158**: at every pressure with three densities the objective of the bubble pressure is positive below the saturation pressure, zero at
it and negative above it, and the objective of the dew pressure has the opposite sign: the two searches look for the same pressure as the
search for the saturation pressure. -/
theorem c158_sign (s : ℝ × ℝ) (hs : Saturated R T q s) (I : Iso ℝ) (x y z : ℝ) (h : Three R T q I.P x y z) (hn : I.nanRoot = false)
    (hr : I.roots = [1 / z, 1 / y, 1 / x]) (hx : StaysAt I x) (hz : StaysAt I z) :
    ∃ u w, pureBubble R T q I = .ok u ∧ pureDew R T q I = .ok w ∧
      (0 < u ↔ I.P < pressure R T q (fun _ => 1) s.1) ∧ (u = 0 ↔ I.P = pressure R T q (fun _ => 1) s.1) ∧
      (u < 0 ↔ pressure R T q (fun _ => 1) s.1 < I.P) ∧
      (0 < w ↔ pressure R T q (fun _ => 1) s.1 < I.P) ∧ (w = 0 ↔ I.P = pressure R T q (fun _ => 1) s.1) ∧
      (w < 0 ↔ I.P < pressure R T q (fun _ => 1) s.1) := by
  obtain ⟨ys, h3⟩ := saturated_three hRT hb ha hk s hs
  set Ps := pressure R T q (fun _ => 1) s.1 with hPs
  have e0 : lnPhi R T q (fun _ => 1) Ps s.2 0 - lnPhi R T q (fun _ => 1) Ps s.1 0 = 0 := by
    obtain ⟨_, _, _, _, e, e'⟩ := hs
    rw [← e] at e'
    exact sub_eq_zero.2 (Real.exp_injective e').symm
  obtain ⟨o1, o2⟩ := pure_objectives R T q I x z 0 1 (by norm_num) (by norm_num) (by norm_num) (vapor_third I x y z hn hr hx)
    (liquid_first I x y z hn hr hz)
  have key : ∀ d : ℝ, (0 < Real.exp d - 1 ↔ 0 < d) ∧ (Real.exp d - 1 = 0 ↔ d = 0) ∧ (Real.exp d - 1 < 0 ↔ d < 0) := fun d => by
    refine ⟨?_, ?_, ?_⟩
    · rw [sub_pos, Real.one_lt_exp_iff]
    · rw [sub_eq_zero, Real.exp_eq_one_iff]
    · rw [sub_neg, Real.exp_lt_one_iff]
  refine ⟨_, _, o1, o2, ?_⟩
  set d := lnPhi R T q (fun _ => 1) I.P z 0 - lnPhi R T q (fun _ => 1) I.P x 0 with hd
  obtain ⟨k1, k2, k3⟩ := key d
  obtain ⟨l1, l2, l3⟩ := key (-d)
  rw [k1, k2, k3, l1, l2, l3, neg_pos, neg_eq_zero, neg_neg_iff_pos]
  have a1 : I.P < Ps → 0 < d := fun hlt => by
    have := gap_falls hRT hb ha hk _ _ _ _ _ _ _ _ h h3 hlt
    rwa [e0] at this
  have a3 : Ps < I.P → d < 0 := fun hlt => by
    have := gap_falls hRT hb ha hk _ _ _ _ _ _ _ _ h3 h hlt
    rwa [e0] at this
  have a2 : I.P = Ps → d = 0 := fun he => by
    obtain ⟨_, _, f1⟩ := gap_rate hRT hb ha hk _ _ _ _ _ _ _ _ h h3 he.le
    obtain ⟨_, _, f2⟩ := gap_rate hRT hb ha hk _ _ _ _ _ _ _ _ h3 h he.ge
    rw [e0, ← hd] at f1 f2
    rw [he, sub_self, zero_mul] at f1 f2
    have g1 := nonneg_of_mul_nonneg_right f1 hRT
    have g2 := nonneg_of_mul_nonneg_right f2 hRT
    linarith
  have b1 : 0 < d → I.P < Ps := fun hp => by
    rcases lt_trichotomy I.P Ps with c | c | c
    · exact c
    · exact absurd (a2 c) hp.ne'
    · exact absurd (a3 c) (not_lt.2 hp.le)
  have b3 : d < 0 → Ps < I.P := fun hp => by
    rcases lt_trichotomy I.P Ps with c | c | c
    · exact absurd (a1 c) (not_lt.2 hp.le)
    · exact absurd (a2 c) hp.ne
    · exact c
  have b2 : d = 0 → I.P = Ps := fun hp => by
    rcases lt_trichotomy I.P Ps with c | c | c
    · exact absurd hp (a1 c).ne'
    · exact c
    · exact absurd hp (a3 c).ne
  exact ⟨⟨b1, a1⟩, ⟨b2, a2⟩, ⟨b3, a3⟩, ⟨b3, a3⟩, ⟨b2, a2⟩, ⟨b1, a1⟩⟩

/-- **C158** (the objectives are monotone): between two pressures with three densities the objective of the bubble pressure falls and the
one of the dew pressure rises. -/
theorem c158_monotone (I I' : Iso ℝ) (x y z x' y' z' : ℝ) (h : Three R T q I.P x y z) (h' : Three R T q I'.P x' y' z')
    (hP : I.P < I'.P) (hn : I.nanRoot = false) (hn' : I'.nanRoot = false) (hr : I.roots = [1 / z, 1 / y, 1 / x])
    (hr' : I'.roots = [1 / z', 1 / y', 1 / x']) (hx : StaysAt I x) (hz : StaysAt I z) (hx' : StaysAt I' x') (hz' : StaysAt I' z') :
    ∃ u w u' w', pureBubble R T q I = .ok u ∧ pureDew R T q I = .ok w ∧ pureBubble R T q I' = .ok u' ∧ pureDew R T q I' = .ok w' ∧
      u' < u ∧ w < w' := by
  obtain ⟨o1, o2⟩ := pure_objectives R T q I x z 0 1 (by norm_num) (by norm_num) (by norm_num) (vapor_third I x y z hn hr hx)
    (liquid_first I x y z hn hr hz)
  obtain ⟨p1, p2⟩ := pure_objectives R T q I' x' z' 0 1 (by norm_num) (by norm_num) (by norm_num) (vapor_third I' x' y' z' hn' hr' hx')
    (liquid_first I' x' y' z' hn' hr' hz')
  have g := gap_falls hRT hb ha hk _ _ _ _ _ _ _ _ h h' hP
  exact ⟨_, _, _, _, o1, o2, p1, p2, sub_lt_sub_right (Real.exp_lt_exp.2 g) _, sub_lt_sub_right (Real.exp_lt_exp.2 (neg_lt_neg g)) _⟩

end Pure

/-! ## Pressures with one density -/

/-- With a single root both density functions return it. -/
theorem single_root (I : Iso ℝ) (r : ℝ) (hn : I.nanRoot = false) (hr : I.roots = [r]) (hs : StaysAt I (1 / r)) (s : Res ℝ)
    (ho : oneRoot I r = .ok s) : ∃ f, f ≤ 2 ∧ vaporDensity I = .ok (some (1 / r), f) ∧ liquidDensity I = .ok (some (1 / r), f) := by
  have hv : vaporRefine I false (1 / r) = .ok (1 / r) := by
    unfold vaporRefine
    simp only [hs.1, hs.2, Bool.false_eq_true, ite_self]
  have hl : liquidRefine I false (1 / r) = .ok (1 / r) := by
    unfold liquidRefine
    simp only [hs.1, hs.2, Bool.false_eq_true, ite_self]
  have hs2 : ∃ f, f ≤ 2 ∧ s = (some (1 / r), f) := by
    unfold oneRoot at ho
    split at ho
    · exact ⟨2, le_rfl, (Except.ok.inj ho).symm⟩
    · split at ho
      · exact ⟨1, by norm_num, (Except.ok.inj ho).symm⟩
      · split at ho
        · exact ⟨0, by norm_num, (Except.ok.inj ho).symm⟩
        · exact absurd ho (by simp)
  obtain ⟨f, hf, rfl⟩ := hs2
  refine ⟨f, hf, ?_, ?_⟩
  · simp only [vaporDensity, vaporSeed, hn, hr, ho, hv, bind, Except.bind, Bool.false_eq_true, if_false]
    split <;> rfl
  · simp only [liquidDensity, liquidSeed, hn, hr, ho, hl, bind, Except.bind, Bool.false_eq_true, if_false]
    split <;> rfl

/-- **C158 violated** (pressures with one density): where the isotherm has a single root, both density functions return it and both
objectives are exactly zero, whether or not the pressure is the saturation pressure. -/
theorem c158_violated_single (R T : ℝ) (q : Par 1) (I : Iso ℝ) (r : ℝ) (hn : I.nanRoot = false) (hr : I.roots = [r])
    (hs : StaysAt I (1 / r)) (s : Res ℝ) (ho : oneRoot I r = .ok s) : pureBubble R T q I = .ok 0 ∧ pureDew R T q I = .ok 0 := by
  obtain ⟨f, hf, hv, hl⟩ := single_root I r hn hr hs s ho
  have := pure_objectives R T q I (1 / r) (1 / r) f f (by omega) (by omega) (by omega) hv hl
  simpa using this

/-- An isotherm whose only root at pressure `P` is the volume `1 / ρ`, without extrema. -/
noncomputable def singleIso (P ρ : ℝ) (err : ℝ → ℝ) : Iso ℝ where
  nanRoot := false
  roots := [1 / ρ]
  extrema := []
  spline := fun v => ρ - 1 / v
  endDensity := ρ / 2
  minP := 0
  firstP := 0
  vroot := 1 / ρ
  rhoFirst := ρ / 2
  rhoMax := 2 * ρ
  err := err
  P := P
  feps := 0
  lsq := fun _ _ _ => .ok ρ
  brentq := fun _ _ => .ok ρ

/-- **C158 violated** (supercritical fluids): at temperatures at which there is no saturation state every positive pressure makes both
objectives zero. -/
theorem c158_violated_supercritical (R T : ℝ) (q : Par 1) (hRT : 0 < R * T) (hb : 0 < q.bi 0) (ha : 0 < q.ai 0 * q.alpha 0)
    (hk : q.kij 0 0 = 0) (hcrit : q.ai 0 * q.alpha 0 ≤ critT * (q.bi 0 * (R * T))) (P : ℝ) (hP : 0 < P) :
    (∀ s, ¬ Saturated R T q s) ∧ ∃ ρ, (∀ w, 0 < w → w < 1 / q.bi 0 → (pressure R T q (fun _ => 1) w = P ↔ w = ρ)) ∧
      let I := singleIso P ρ fun w => pressure R T q (fun _ => 1) w - P
      pureBubble R T q I = .ok 0 ∧ pureDew R T q I = .ok 0 := by
  refine ⟨c136_none hRT hb ha hk hcrit, ?_⟩
  obtain ⟨eb, ea⟩ := pure_mix q ha hk
  obtain ⟨ρ, ⟨h0, h1, he⟩, hu⟩ := c135_one_density R T (q.ai 0 * q.alpha 0) (q.bi 0) P hRT hb hcrit hP
  have hp : ∀ w, pressure R T q (fun _ => 1) w = pressureAB R T (q.ai 0 * q.alpha 0) (q.bi 0) w := fun w => by
    rw [← ea, ← eb]; rfl
  refine ⟨ρ, fun w w0 w1 => ⟨fun e => hu w ⟨w0, w1, by rw [← hp]; exact e⟩, fun e => by rw [e, hp]; exact he⟩, ?_⟩
  refine c158_violated_single R T q _ (1 / ρ) rfl rfl ?_ (some (1 / (1 / ρ)), 2) (by simp [oneRoot, singleIso])
  rw [one_div_one_div]
  exact ⟨fun _ => rfl, rfl⟩

/-- An isotherm with three roots at pressure `P`; the solver stays at the density it starts from. -/
noncomputable def threeIso (P x y z : ℝ) (err : ℝ → ℝ) : Iso ℝ where
  nanRoot := false
  roots := [1 / z, 1 / y, 1 / x]
  extrema := []
  spline := fun v => x - 1 / v
  endDensity := x / 2
  minP := 0
  firstP := 0
  vroot := 1 / x
  rhoFirst := x / 2
  rhoMax := 2 * z
  err := err
  P := P
  feps := 0
  lsq := fun g _ _ => .ok g
  brentq := fun lo _ => .ok (lo / (99 / 100))

theorem threeIso_stays (P x y z : ℝ) (err : ℝ → ℝ) (ρ : ℝ) : StaysAt (threeIso P x y z err) ρ :=
  ⟨fun _ => by simp [threeIso], rfl⟩

/-- **C158** (the pressures of the theorem above exist): around the saturation pressure there are pressures with three densities, on both
sides; just below it the bubble objective is positive and just above it is negative. -/
theorem c158_bracket (R T : ℝ) (q : Par 1) (hRT : 0 < R * T) (hb : 0 < q.bi 0) (ha : 0 < q.ai 0 * q.alpha 0) (hk : q.kij 0 0 = 0)
    (s : ℝ × ℝ) (hs : Saturated R T q s) :
    ∃ lo hi, 0 < lo ∧ lo < pressure R T q (fun _ => 1) s.1 ∧ pressure R T q (fun _ => 1) s.1 < hi ∧
      ∀ P ∈ Icc lo hi, ∃ x y z, Three R T q P x y z ∧ ∃ u,
        pureBubble R T q (threeIso P x y z fun w => pressure R T q (fun _ => 1) w - P) = .ok u ∧
        (0 < u ↔ P < pressure R T q (fun _ => 1) s.1) ∧ (u < 0 ↔ pressure R T q (fun _ => 1) s.1 < P) := by
  obtain ⟨lo, hi, h1, h2, h3, h4⟩ := three_between hRT hb ha hk s hs
  refine ⟨lo, hi, h1, h2, h3, fun P hP => ?_⟩
  obtain ⟨x, y, z, h⟩ := h4 P hP
  obtain ⟨u, w, e1, _, a, _, c, _⟩ := c158_sign hRT hb ha hk s hs (threeIso P x y z fun w => pressure R T q (fun _ => 1) w - P) x y z h
    rfl rfl (threeIso_stays ..) (threeIso_stays ..)
  exact ⟨x, y, z, h, u, e1, a, c⟩

/-- A substance with `κ = 1/2`, critical temperature 300 and critical pressure 5: at 75 its saturation pressure lies in a range with three
densities at each pressure; at 1200 every pressure makes the objectives zero. -/
example : (∃ s, Saturated 8 75 (pureSubstance 8 (1 / 2) 300 5 75) s ∧ ∃ lo hi, 0 < lo ∧
      lo < pressure 8 75 (pureSubstance 8 (1 / 2) 300 5 75) (fun _ => 1) s.1 ∧
      pressure 8 75 (pureSubstance 8 (1 / 2) 300 5 75) (fun _ => 1) s.1 < hi ∧
      ∀ P ∈ Icc lo hi, ∃ x y z, Three 8 75 (pureSubstance 8 (1 / 2) 300 5 75) P x y z) ∧
    ∃ ρ, pureBubble 8 1200 (pureSubstance 8 (1 / 2) 300 5 1200) (singleIso 7 ρ fun w =>
      pressure 8 1200 (pureSubstance 8 (1 / 2) 300 5 1200) (fun _ => 1) w - 7) = .ok 0 := by
  have h1 : √((75 : ℝ) / 300) = 1 / 2 := by
    rw [show (75 : ℝ) / 300 = (1 / 2) ^ 2 by norm_num]; exact Real.sqrt_sq (by norm_num)
  have h2 : √((1200 : ℝ) / 300) = 2 := by
    rw [show (1200 : ℝ) / 300 = 2 ^ 2 by norm_num]; exact Real.sqrt_sq (by norm_num)
  constructor
  · obtain ⟨s, hs, _⟩ := c136_subcritical 8 (1 / 2) 300 5 75 (by norm_num) (by norm_num) (by norm_num) (by norm_num) (by norm_num)
      (by norm_num)
    obtain ⟨hb, ha, hk⟩ := pureSubstance_pos 8 (1 / 2) 300 5 75 (by norm_num) (by norm_num) (by norm_num) (by rw [h1]; norm_num)
    obtain ⟨lo, hi, a, b, c, d⟩ := c158_bracket 8 75 _ (by norm_num) hb ha hk s hs
    exact ⟨s, hs, lo, hi, a, b, c, fun P hP => by
      obtain ⟨x, y, z, h, _⟩ := d P hP
      exact ⟨x, y, z, h⟩⟩
  · obtain ⟨hb, ha, hk⟩ := pureSubstance_pos 8 (1 / 2) 300 5 1200 (by norm_num) (by norm_num) (by norm_num) (by rw [h2]; norm_num)
    have hcrit : (pureSubstance 8 (1 / 2) 300 5 1200).ai 0 * (pureSubstance 8 (1 / 2) 300 5 1200).alpha 0 ≤
        critT * ((pureSubstance 8 (1 / 2) 300 5 1200).bi 0 * (8 * 1200)) := by
      rw [← not_lt]
      intro hc
      obtain ⟨s, hs, _⟩ := c136_saturation (R := 8) (T := 1200) (by norm_num) hb ha hk hc
      exact c136_supercritical_partial 8 (1 / 2) 300 5 1200 (by norm_num) (by norm_num) (by norm_num) (by norm_num) (by norm_num)
        (by norm_num) (by rw [h2]; norm_num) ⟨s, hs⟩
    obtain ⟨_, ρ, _, h, _⟩ := c158_violated_supercritical 8 1200 _ (by norm_num) hb ha hk hcrit 7 (by norm_num)
    exact ⟨ρ, h⟩

end Verif.Props
