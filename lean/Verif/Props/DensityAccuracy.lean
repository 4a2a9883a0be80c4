import Verif.Props.PengRobinsonDensity

/-!
# The density search with splines that miss the isotherm (C167)
-/

namespace Verif.Props
open Verif Verif.PhaseDensity Verif.PengRobinson Set

/-- What the search sees if the spline is continuous and misses the isotherm by at most `ε` between the volumes `vlo` and `vhi`, its roots are found, and
`brentq` finds a root of the equation of state in a bracket. -/
structure Missing (f : ℝ → ℝ) (ρm vlo vhi P ε : ℝ) (I : Iso ℝ) : Prop where
  range : 0 < vlo ∧ 1 / vlo < ρm
  noNan : I.nanRoot = false
  cont : ContinuousOn I.spline (Icc vlo vhi)
  roots_sorted : I.roots.Pairwise (· < ·)
  roots_mem : ∀ r, r ∈ I.roots ↔ vlo ≤ r ∧ r ≤ vhi ∧ I.spline r = 0
  spline : ∀ v, vlo ≤ v → v ≤ vhi → |I.spline v - (f (1 / v) - P)| ≤ ε
  err : ∀ ρ, 0 < ρ → ρ < ρm → I.err ρ = f ρ - P
  top : I.rhoMax < ρm
  brent : ∀ lo hi, 0 < lo → lo < hi → hi < ρm → I.err lo * I.err hi < 0 →
    ∃ ρ, I.brentq lo hi = .ok ρ ∧ lo ≤ ρ ∧ ρ ≤ hi ∧ I.err ρ = 0

/-- A root of a continuous function between two points of different sign. -/
private theorem zero_between {S : ℝ → ℝ} {a b vlo vhi : ℝ} (hc : ContinuousOn S (Icc vlo vhi)) (h0 : vlo ≤ a) (h1 : b ≤ vhi) (hab : a < b)
    (h : S a * S b < 0) : ∃ r, a < r ∧ r < b ∧ S r = 0 := by
  have hcc : ContinuousOn S (Icc a b) := hc.mono fun v hv => ⟨h0.trans hv.1, hv.2.trans h1⟩
  have : ∃ r ∈ Icc a b, S r = 0 := by
    rcases mul_neg_iff.1 h with ⟨s1, s2⟩ | ⟨s1, s2⟩
    · exact intermediate_value_Icc' hab.le hcc (show (0 : ℝ) ∈ Icc _ _ from ⟨s2.le, s1.le⟩)
    · exact intermediate_value_Icc hab.le hcc (show (0 : ℝ) ∈ Icc _ _ from ⟨s1.le, s2.le⟩)
  obtain ⟨r, hr, e⟩ := this
  refine ⟨r, lt_of_le_of_ne hr.1 ?_, lt_of_le_of_ne hr.2 ?_, e⟩
  · rintro rfl; rw [e, zero_mul] at h; exact lt_irrefl _ h
  · rintro rfl; rw [e, mul_zero] at h; exact lt_irrefl _ h

/-- A sorted list of three numbers with one of them in each of three successive intervals. -/
private theorem one_each {l : List ℝ} {a b c u w : ℝ} (hl : l.Pairwise (· < ·)) (h3 : l.length = 3) (ha : a ∈ l) (hb : b ∈ l) (hc : c ∈ l)
    (h1 : a < u) (h2 : u < b) (h3' : b < w) (h4 : w < c) : l = [a, b, c] := by
  match l, h3 with
  | [p, q, r], _ =>
    simp only [List.pairwise_cons, List.mem_cons, List.not_mem_nil, or_false, forall_eq_or_imp, forall_eq, false_implies, implies_true,
      List.Pairwise.nil, and_true] at hl ha hb hc
    obtain ⟨⟨h, h'⟩, h''⟩ := hl
    rcases ha with rfl | rfl | rfl <;> rcases hb with rfl | rfl | rfl <;> rcases hc with rfl | rfl | rfl <;>
      first | rfl | (exfalso; linarith)

section Search
variable {f : ℝ → ℝ} {ρm vlo vhi P ε : ℝ} {I : Iso ℝ} (E : Missing f ρm vlo vhi P ε I)
include E

/-- The bracketed refinement of a vapour ends at the density with the pressure, wherever in the bracket it lies. -/
theorem Missing.refine_vapor {g x : ℝ} (b : Bool) (hx : 0 < x) (hg : g * (99 / 100) < x) (hg' : x < g * (101 / 100)) (htop : x < I.rhoMax)
    (hbelow : ∀ ρ, 0 ≤ ρ → ρ < x → f ρ < P) (habove : ∀ ρ, x < ρ → ρ ≤ g * (101 / 100) → ρ < ρm → P < f ρ) : vaporRefine I b g = .ok x := by
  have ht := E.top
  have g0 : 0 < g := by linarith
  set hi := if I.rhoMax < g * (101 / 100) then I.rhoMax else g * (101 / 100) with hhi
  have k1 : x < hi := by rw [hhi]; split_ifs <;> linarith
  have k2 : hi ≤ g * (101 / 100) := by rw [hhi]; split_ifs with h <;> linarith
  have k3 : hi < ρm := by
    rw [hhi]; split_ifs with h
    · exact ht
    · exact lt_of_le_of_lt (not_lt.1 h) ht
  have e1 : I.err (g * (99 / 100)) < 0 := by rw [E.err _ (by linarith) (by linarith)]; linarith [hbelow (g * (99 / 100)) (by linarith) hg]
  have e2 : 0 < I.err hi := by rw [E.err _ (by linarith) k3]; linarith [habove hi k1 k2 k3]
  obtain ⟨ρ, hρ, a1, a2, a3⟩ := E.brent (g * (99 / 100)) hi (by linarith) (by linarith) k3 (mul_neg_of_neg_of_pos e1 e2)
  unfold vaporRefine
  simp only [← hhi, mul_neg_of_neg_of_pos e1 e2, if_true]
  rw [E.err _ (by linarith) (by linarith)] at a3
  rw [hρ]
  rcases lt_trichotomy ρ x with h | h | h
  · exact absurd a3 (by have := hbelow ρ (by linarith) h; linarith)
  · rw [h]
  · exact absurd a3 (by have := habove ρ h (by linarith) (by linarith); linarith)

/-- The bracketed refinement of a liquid. -/
theorem Missing.refine_liquid {h y z : ℝ} (b : Bool) (hh : 0 < h) (hz : h * (99 / 100) < z) (hz' : z < h * (101 / 100)) (hm : h * (101 / 100) < ρm)
    (hy : y < h * (99 / 100)) (hbelow : ∀ ρ, y < ρ → ρ < z → f ρ < P) (habove : ∀ ρ, z < ρ → ρ < ρm → P < f ρ) : liquidRefine I b h = .ok z := by
  have e1 : I.err (h * (99 / 100)) < 0 := by rw [E.err _ (by linarith) (by linarith)]; linarith [hbelow _ hy hz]
  have e2 : 0 < I.err (h * (101 / 100)) := by rw [E.err _ (by linarith) hm]; linarith [habove _ hz' hm]
  obtain ⟨ρ, hρ, a1, a2, a3⟩ := E.brent (h * (99 / 100)) _ (by linarith) (by linarith) hm (mul_neg_of_neg_of_pos e1 e2)
  unfold liquidRefine
  simp only [mul_neg_of_neg_of_pos e1 e2, if_true]
  rw [E.err _ (by linarith) (by linarith)] at a3
  rw [hρ]
  rcases lt_trichotomy ρ z with k | k | k
  · exact absurd a3 (by have := hbelow ρ (by linarith) k; linarith)
  · rw [k]
  · exact absurd a3 (by have := habove ρ k (by linarith); linarith)

/-- The sign of the spline is that of the isotherm where the isotherm is further than `ε` from the pressure. -/
theorem Missing.sign {ρ : ℝ} (hs : Seen vlo vhi ρ) : (ε < f ρ - P → 0 < I.spline (1 / ρ)) ∧ (f ρ - P < -ε → I.spline (1 / ρ) < 0) := by
  have := abs_le.1 (E.spline (1 / ρ) hs.2.1 hs.2.2)
  rw [one_div_one_div] at this
  exact ⟨fun h => by linarith, fun h => by linarith⟩

/-- At a root of the spline the isotherm is within `ε` of the pressure. -/
theorem Missing.at_root {r : ℝ} (h : r ∈ I.roots) : P - ε ≤ f (1 / r) ∧ f (1 / r) ≤ P + ε := by
  obtain ⟨h1, h2, h3⟩ := (E.roots_mem r).1 h
  have := abs_le.1 (E.spline r h1 h2)
  rw [h3] at this
  exact ⟨by linarith, by linarith⟩

variable {ρ₁ ρ₂ : ℝ} (L : Looped f ρm ρ₁ ρ₂)
include L

/-- **C167** (where the three roots lie): a spline that misses the isotherm by less than the distances of the pressure from the ends of the loop, and that has three
roots, has one of them on each branch. -/
theorem c167_branches (s1 : Seen vlo vhi ρ₁) (s2 : Seen vlo vhi ρ₂) (h3 : I.roots.length = 3) (hlo : ε < f (1 / vlo) - P) (hhi : f (1 / vhi) - P < -ε)
    (hv1 : 1 / vhi < ρ₁) (hv2 : ρ₂ < 1 / vlo) (hmax : ε < f ρ₁ - P) (hmin : f ρ₂ - P < -ε) :
    ∃ a b c, I.roots = [a, b, c] ∧ vlo < a ∧ a < 1 / ρ₂ ∧ 1 / ρ₂ < b ∧ b < 1 / ρ₁ ∧ 1 / ρ₁ < c ∧ c < vhi := by
  have hvlo := E.range.1
  have l21 := one_div_lt_one_div_of_lt L.pos L.lt
  have hp2 : 0 < 1 / ρ₂ := one_div_pos.2 (L.pos.trans L.lt)
  have l1 : vlo < 1 / ρ₂ := by
    have := one_div_lt_one_div_of_lt (L.pos.trans L.lt) hv2
    rwa [one_div_one_div] at this
  have hvhi : 0 < vhi := lt_of_lt_of_le (hp2.trans l21) s1.2.2
  have l2 : 1 / ρ₁ < vhi := by
    have := one_div_lt_one_div_of_lt (one_div_pos.2 hvhi) hv1
    rwa [one_div_one_div] at this
  have slo : Seen vlo vhi (1 / vlo) := ⟨one_div_pos.2 hvlo, by rw [one_div_one_div], by rw [one_div_one_div]; linarith⟩
  have shi : Seen vlo vhi (1 / vhi) := ⟨one_div_pos.2 hvhi, by rw [one_div_one_div]; linarith, by rw [one_div_one_div]⟩
  have g1 := (E.sign slo).1 hlo
  have g2 := (E.sign s2).2 hmin
  have g3 := (E.sign s1).1 hmax
  have g4 := (E.sign shi).2 hhi
  rw [one_div_one_div] at g1 g4
  obtain ⟨a, a1, a2, a3⟩ := zero_between E.cont le_rfl s2.2.2 l1 (mul_neg_of_pos_of_neg g1 g2)
  obtain ⟨b, b1, b2, b3⟩ := zero_between E.cont s2.2.1 s1.2.2 l21 (mul_neg_of_neg_of_pos g2 g3)
  obtain ⟨c, c1, c2, c3⟩ := zero_between E.cont s1.2.1 le_rfl l2 (mul_neg_of_pos_of_neg g3 g4)
  have ma := (E.roots_mem a).2 ⟨a1.le, by linarith, a3⟩
  have mb := (E.roots_mem b).2 ⟨by linarith, by linarith, b3⟩
  have mc := (E.roots_mem c).2 ⟨by linarith, c2.le, c3⟩
  exact ⟨a, b, c, one_each E.roots_sorted h3 ma mb mc a2 b1 b2 c1, a1, a2, b1, b2, c1, c2⟩

/-- **C167** (pressure inside the loop): if the spline misses the isotherm by less than the isotherm changes over one percent of the density, both searches
return the density of the equation of state without error, whatever the spline is. -/
theorem c167_exact (x y z : ℝ) (s1 : Seen vlo vhi ρ₁) (s2 : Seen vlo vhi ρ₂) (h3 : I.roots.length = 3) (hlo : ε < f (1 / vlo) - P)
    (hhi : f (1 / vhi) - P < -ε) (hv1 : 1 / vhi < ρ₁) (hv2 : ρ₂ < 1 / vlo) (hmax : ε < f ρ₁ - P) (hmin : f ρ₂ - P < -ε)
    (hx : 0 < x) (hxy : x < y) (hyz : y < z) (hz : z < ρm) (ex : f x = P) (ey : f y = P) (ez : f z = P) :
    (x < I.rhoMax → x * (101 / 99) ≤ y → f (x * (100 / 101)) < P - ε → (x * (100 / 99) ≤ ρ₁ → P + ε < f (x * (100 / 99))) →
      vaporDensity I = .ok (some x, 0)) ∧
    (y ≤ z * (99 / 101) → z * (101 / 99) ≤ ρm → P + ε < f (z * (100 / 99)) → (ρ₂ ≤ z * (100 / 101) → f (z * (100 / 101)) < P - ε) →
      liquidDensity I = .ok (some z, 1)) := by
  obtain ⟨k1, k2, k3, k4⟩ := L.branches hx.le hxy hyz hz (ex.trans ey.symm) (ey.trans ez.symm)
  obtain ⟨g1, g2, g3, g4⟩ := L.signs hx k1 k2 k3 k4 hz (ex.trans ey.symm) (ey.trans ez.symm)
  rw [ex] at g1 g2 g3 g4
  obtain ⟨a, b, c, hr, a1, a2, -, -, c1, c2⟩ := c167_branches E L s1 s2 h3 hlo hhi hv1 hv2 hmax hmin
  obtain ⟨t1, t2, -⟩ := c33_three_roots I E.noNan _ _ _ _ hr
  have hvlo := E.range.1
  obtain ⟨ra, ra'⟩ := E.at_root (r := a) (by rw [hr]; simp)
  obtain ⟨rc, rc'⟩ := E.at_root (r := c) (by rw [hr]; simp)
  have ha0 : 0 < a := hvlo.trans a1
  have hc0 : 0 < c := (one_div_pos.2 L.pos).trans c1
  have hap : 0 < 1 / a := one_div_pos.2 ha0
  have hcp : 0 < 1 / c := one_div_pos.2 hc0
  have ha2 : ρ₂ < 1 / a := by
    have := one_div_lt_one_div_of_lt ha0 a2
    rwa [one_div_one_div] at this
  have ham : 1 / a < ρm := (one_div_lt_one_div_of_lt hvlo a1).trans E.range.2
  have hc1 : 1 / c < ρ₁ := by
    have := one_div_lt_one_div_of_lt (one_div_pos.2 L.pos) c1
    rwa [one_div_one_div] at this
  set g := 1 / c
  set h := 1 / a
  constructor
  · intro htop hapart hl hu
    have m1 : x * (100 / 101) < g := by
      by_contra hc
      rw [not_lt] at hc
      have := L.up.monotoneOn ⟨hcp.le, hc1.le⟩ ⟨by linarith, by linarith⟩ hc
      linarith
    have m2 : g < x * (100 / 99) := by
      by_contra hc
      rw [not_lt] at hc
      have := L.up.monotoneOn ⟨by linarith, by linarith⟩ ⟨hcp.le, hc1.le⟩ hc
      linarith [hu (by linarith)]
    have r := E.refine_vapor (g := g) false hx (by linarith) (by linarith) htop g1 (fun ρ a b _ => g2 ρ a (by linarith))
    rw [(c33_refined_iff I g 0 false).1 t1, r]
    simp [Except.map]
  · intro hapart hm hu hl
    have m1 : z * (100 / 101) < h := by
      by_contra hc
      rw [not_lt] at hc
      have := L.up'.monotoneOn ⟨ha2.le, ham⟩ ⟨by linarith, by linarith⟩ hc
      linarith [hl (by linarith)]
    have m2 : h < z * (100 / 99) := by
      by_contra hc
      rw [not_lt] at hc
      have := L.up'.monotoneOn ⟨by linarith, by linarith⟩ ⟨ha2.le, ham⟩ hc
      linarith
    have r := E.refine_liquid (h := h) (y := y) false hap (by linarith) (by linarith) (by linarith) (by linarith) g3 g4
    rw [(c33_refined_iff I h 1 false).2 t2, r]
    simp [Except.map]

/-- **C167** (pressure below the loop): the vapour search returns the density without error; the liquid search, which finds a vapour too, returns the estimate of the
spline, whose pressure is within `ε`. -/
theorem c167_light (w r e : ℝ) (hr : I.roots = [r]) (hlast : I.extrema.getLast? = some e) (h2 : 2 ≤ I.extrema.length) (he0 : vlo ≤ e) (he1 : e ≤ vhi)
    (he : ε ≤ f (1 / e) - P) (hP : P + ε < f ρ₂) (hε : 0 ≤ ε) (hw : 0 < w) (hwm : w < ρm) (ew : f w = P) (htop : w < I.rhoMax)
    (hl : f (w * (100 / 101)) < P - ε) (hu : w * (100 / 99) ≤ ρ₁ → P + ε < f (w * (100 / 99))) :
    vaporDensity I = .ok (some w, 0) ∧ liquidDensity I = .ok (some (1 / r), 0) ∧ P - ε ≤ f (1 / r) ∧ f (1 / r) ≤ P + ε := by
  obtain ⟨k, above⟩ := L.light hw.le (by rw [ew]; linarith) hwm
  rw [ew] at above
  have mr : r ∈ I.roots := by rw [hr]; simp
  obtain ⟨q1, q2⟩ := E.at_root mr
  obtain ⟨o1, o2, o3⟩ := (E.roots_mem r).1 mr
  have hr0 : 0 < 1 / r := one_div_pos.2 (by linarith [E.range.1])
  have hrm : 1 / r < ρm := lt_of_le_of_lt (one_div_le_one_div_of_le E.range.1 o1) E.range.2
  obtain ⟨j, -⟩ := L.light hr0.le (by linarith) hrm
  have hse : 0 ≤ I.spline e := by have := abs_le.1 (E.spline e he0 he1); linarith
  obtain ⟨t1, t2⟩ := ((c33_one_root I E.noNan _ hr).2 e hlast).2 (by rw [o3]; linarith) h2
  set g := 1 / r
  have m1 : w * (100 / 101) < g := by
    by_contra hc
    rw [not_lt] at hc
    have := L.up.monotoneOn ⟨hr0.le, j.le⟩ ⟨by linarith, by linarith⟩ hc
    linarith
  have m2 : g < w * (100 / 99) := by
    by_contra hc
    rw [not_lt] at hc
    have := L.up.monotoneOn ⟨by linarith, by linarith⟩ ⟨hr0.le, j.le⟩ hc
    linarith [hu (by linarith)]
  have rf := E.refine_vapor (g := g) false hw (by linarith) (by linarith) htop
    (fun ρ a b => by rw [← ew]; exact L.up ⟨a, by linarith⟩ ⟨hw.le, k.le⟩ b) (fun ρ a _ b => above ρ a b)
  rw [(c33_refined_iff I g 0 false).1 t1, (c33_refined_iff I g 0 false).2 t2, rf]
  exact ⟨by simp [Except.map], by simp, q1, q2⟩

/-- **C167** (pressure above the loop): the liquid search returns the density without error; the vapour search, which finds a liquid too, returns the estimate of the
spline. -/
theorem c167_dense (w r e : ℝ) (hr : I.roots = [r]) (hlast : I.extrema.getLast? = some e) (he0 : vlo ≤ e) (he1 : e ≤ vhi)
    (he : f (1 / e) - P < -ε) (hP : f ρ₁ < P - ε) (hε : 0 ≤ ε) (hw : 0 < w) (hpole : w * (101 / 99) ≤ ρm) (ew : f w = P)
    (hl : ρ₂ ≤ w * (100 / 101) → f (w * (100 / 101)) < P - ε) (hu : P + ε < f (w * (100 / 99))) :
    liquidDensity I = .ok (some w, 1) ∧ vaporDensity I = .ok (some (1 / r), 1) ∧ P - ε ≤ f (1 / r) ∧ f (1 / r) ≤ P + ε := by
  have hwm : w < ρm := by linarith
  obtain ⟨k, below⟩ := L.dense hw.le (by rw [ew]; linarith) hwm
  rw [ew] at below
  have mr : r ∈ I.roots := by rw [hr]; simp
  obtain ⟨q1, q2⟩ := E.at_root mr
  obtain ⟨o1, o2, o3⟩ := (E.roots_mem r).1 mr
  have hr0 : 0 < 1 / r := one_div_pos.2 (by linarith [E.range.1])
  have hrm : 1 / r < ρm := lt_of_le_of_lt (one_div_le_one_div_of_le E.range.1 o1) E.range.2
  obtain ⟨j, -⟩ := L.dense hr0.le (by linarith) hrm
  have hse : I.spline e < 0 := by have := abs_le.1 (E.spline e he0 he1); linarith
  obtain ⟨t1, t2⟩ := ((c33_one_root I E.noNan _ hr).2 e hlast).1 (by rw [o3]; linarith)
  set g := 1 / r
  have m1 : w * (100 / 101) < g := by
    by_contra hc
    rw [not_lt] at hc
    have := L.up'.monotoneOn ⟨j.le, hrm⟩ ⟨by linarith, by linarith⟩ hc
    linarith [hl (by linarith)]
  have m2 : g < w * (100 / 99) := by
    by_contra hc
    rw [not_lt] at hc
    have := L.up'.monotoneOn ⟨by linarith, by linarith⟩ ⟨j.le, hrm⟩ hc
    linarith
  have rf := E.refine_liquid (h := g) (y := 0) false hr0 (by linarith) (by linarith) (by linarith) (by linarith)
    (fun ρ a b => below ρ a.le b) (fun ρ a b => by rw [← ew]; exact L.up' ⟨k.le, hwm⟩ ⟨by linarith, b⟩ a)
  rw [(c33_refined_iff I g 1 false).1 t1, (c33_refined_iff I g 1 false).2 t2, rf]
  exact ⟨by simp [Except.map], by simp, q1, q2⟩

omit L in
/-- **C167** (isotherm without loop): both searches return the density without error. -/
theorem c167_rising (w r : ℝ) (hup : StrictMonoOn f (Ico 0 ρm)) (hr : I.roots = [r]) (he : I.extrema = []) (hw : 0 < w)
    (hpole : w * (101 / 99) ≤ ρm) (ew : f w = P) (htop : w < I.rhoMax) (hl : f (w * (100 / 101)) < P - ε) (hu : P + ε < f (w * (100 / 99))) :
    vaporDensity I = .ok (some w, 2) ∧ liquidDensity I = .ok (some w, 2) := by
  have mr : r ∈ I.roots := by rw [hr]; simp
  obtain ⟨q1, q2⟩ := E.at_root mr
  obtain ⟨o1, o2, o3⟩ := (E.roots_mem r).1 mr
  have hr0 : 0 < 1 / r := one_div_pos.2 (by linarith [E.range.1])
  have hrm : 1 / r < ρm := lt_of_le_of_lt (one_div_le_one_div_of_le E.range.1 o1) E.range.2
  obtain ⟨t1, t2⟩ := (c33_one_root I E.noNan _ hr).1 he
  set g := 1 / r
  have m1 : w * (100 / 101) < g := by
    by_contra hc
    rw [not_lt] at hc
    have := hup.monotoneOn ⟨hr0.le, hrm⟩ ⟨by linarith, by linarith⟩ hc
    linarith
  have m2 : g < w * (100 / 99) := by
    by_contra hc
    rw [not_lt] at hc
    have := hup.monotoneOn ⟨by linarith, by linarith⟩ ⟨hr0.le, hrm⟩ hc
    linarith
  have below : ∀ ρ, 0 ≤ ρ → ρ < w → f ρ < P := fun ρ a b => by rw [← ew]; exact hup ⟨a, by linarith⟩ ⟨hw.le, by linarith⟩ b
  have above : ∀ ρ, w < ρ → ρ < ρm → P < f ρ := fun ρ a b => by rw [← ew]; exact hup ⟨hw.le, by linarith⟩ ⟨by linarith, b⟩ a
  have r1 := E.refine_vapor (g := g) false hw (by linarith) (by linarith) htop below (fun ρ a _ b => above ρ a b)
  have r2 := E.refine_liquid (h := g) (y := 0) false hr0 (by linarith) (by linarith) (by linarith) (by linarith) (fun ρ a b => below ρ a.le b) above
  rw [(c33_refined_iff I g 2 false).1 t1, (c33_refined_iff I g 2 false).2 t2, r1, r2]
  simp [Except.map]

end Search

/-- **C167** (why one percent): an estimate of the liquid that is more than one percent too low is returned as it is, whatever the solvers are. -/
theorem c167_far {K : Type} [Field K] [LinearOrder K] [IsStrictOrderedRing K] (I : Iso K) (hn : I.nanRoot = false) (a b c : K) (t : List K)
    (hr : I.roots = a :: b :: c :: t) (h1 : I.err (1 / a * (99 / 100)) < 0) (h2 : I.err (1 / a * (101 / 100)) < 0) :
    liquidDensity I = .ok (some (1 / a), 1) := by
  have t2 := (c33_three_roots I hn _ _ _ _ hr).2.1
  rw [(c33_refined_iff I (1 / a) 1 false).2 t2]
  have : ¬ I.err (1 / a * (99 / 100)) * I.err (1 / a * (101 / 100)) < 0 := not_lt.2 (mul_pos_of_neg_of_neg h1 h2).le
  unfold liquidRefine
  simp only [if_neg this, if_pos h1]
  simp [Except.map]

private theorem below_all (l : List ℝ) (h : ∀ d ∈ l, 0 < d) : ∃ ε > 0, ∀ d ∈ l, ε < d := by
  induction l with
  | nil => exact ⟨1, one_pos, by simp⟩
  | cons d l ih =>
    obtain ⟨ε, h0, h1⟩ := ih fun d hd => h d (List.mem_cons_of_mem _ hd)
    have hd := h d (by simp)
    refine ⟨min (d / 2) ε, lt_min (half_pos hd) h0, fun c hc => ?_⟩
    rcases List.mem_cons.1 hc with rfl | hc
    · exact lt_of_le_of_lt (min_le_left _ _) (half_lt_self hd)
    · exact lt_of_le_of_lt (min_le_right _ _) (h1 c hc)

/-- **C167** (a good enough spline exists): at every pressure inside the loop with densities more than two percent apart there is an accuracy, depending only on the
isotherm, beyond which every spline with three roots gives the densities of the equation of state without error. -/
theorem c167_enough {f : ℝ → ℝ} {ρm ρ₁ ρ₂ vlo vhi P x y z : ℝ} (L : Looped f ρm ρ₁ ρ₂) (hx : 0 < x) (hxy : x * (101 / 99) ≤ y)
    (hyz : y ≤ z * (99 / 101)) (hz : z * (101 / 99) ≤ ρm) (ex : f x = P) (ey : f y = P) (ez : f z = P) (hvhi : 0 < vhi) (h1 : 1 / vhi < x)
    (h2 : z < 1 / vlo) (h3 : 1 / vlo < ρm) :
    ∃ ε > 0, ∀ I : Iso ℝ, Missing f ρm vlo vhi P ε I → I.roots.length = 3 → x < I.rhoMax →
      vaporDensity I = .ok (some x, 0) ∧ liquidDensity I = .ok (some z, 1) := by
  have lxy : x < y := by linarith
  have lyz : y < z := by linarith
  have lzm : z < ρm := by linarith
  obtain ⟨k1, k2, k3, k4⟩ := L.branches hx.le lxy lyz lzm (ex.trans ey.symm) (ey.trans ez.symm)
  obtain ⟨g1, g2, g3, g4⟩ := L.signs hx k1 k2 k3 k4 lzm (ex.trans ey.symm) (ey.trans ez.symm)
  rw [ex] at g1 g2 g3 g4
  have hv : 0 < 1 / vhi := one_div_pos.2 hvhi
  obtain ⟨ε, e0, he⟩ := below_all [f (1 / vlo) - P, P - f (1 / vhi), f ρ₁ - P, P - f ρ₂, P - f (x * (100 / 101)),
      if x * (100 / 99) ≤ ρ₁ then f (x * (100 / 99)) - P else 1, f (z * (100 / 99)) - P, if ρ₂ ≤ z * (100 / 101) then P - f (z * (100 / 101)) else 1] (by
    simp only [List.mem_cons, List.not_mem_nil, or_false, forall_eq_or_imp, forall_eq, sub_pos]
    refine ⟨g4 _ h2 h3, g1 _ hv.le h1, g2 _ k1 k2, g3 _ k3 k4, g1 _ (by linarith) (by linarith), ?_, g4 _ (by linarith) (by linarith), ?_⟩
    · split_ifs with h
      · exact sub_pos.2 (g2 _ (by linarith) (by linarith))
      · exact one_pos
    · split_ifs with h
      · exact sub_pos.2 (g3 _ (by linarith) (by linarith))
      · exact one_pos)
  simp only [List.mem_cons, List.not_mem_nil, or_false, forall_eq_or_imp, forall_eq] at he
  obtain ⟨p1, p2, p3, p4, p5, p6, p7, p8⟩ := he
  refine ⟨ε, e0, fun I E hlen htop => ?_⟩
  have seen : ∀ {ρ}, 1 / vhi ≤ ρ → ρ ≤ 1 / vlo → Seen vlo vhi ρ := fun {ρ} h h' => by
    have h0 : 0 < ρ := lt_of_lt_of_le hv h
    refine ⟨h0, ?_, ?_⟩
    · have := one_div_le_one_div_of_le h0 h'; rwa [one_div_one_div] at this
    · have := one_div_le_one_div_of_le hv h; rwa [one_div_one_div] at this
  have s1 := seen (ρ := ρ₁) (by linarith) (by linarith [L.lt])
  have s2 := seen (ρ := ρ₂) (by linarith [L.lt]) (by linarith)
  obtain ⟨r1, r2⟩ := c167_exact E L x y z s1 s2 hlen p1 (by linarith) (by linarith) (by linarith) p3 (by linarith) hx lxy lyz lzm ex ey ez
  refine ⟨r1 htop hxy (by linarith) fun h => ?_, r2 hyz hz (by linarith) fun h => ?_⟩
  · rw [if_pos h] at p6; linarith
  · rw [if_pos h] at p8; linarith

/-- An isotherm seen through a spline that lies `δ` below it. -/
noncomputable def biasedIso (f : ℝ → ℝ) (P δ c rhoMax : ℝ) (roots : List ℝ) : Iso ℝ :=
  { isoOf f P c rhoMax roots [] with spline := fun v => f (1 / v) - P - δ }

/-- **C167** (such splines exist): at every pressure as in `c167_enough` a spline that lies a little below the isotherm has three roots, none of them the volume of a
phase, and both searches return the densities of the equation of state. -/
theorem c167_biased {f : ℝ → ℝ} {ρm ρ₁ ρ₂ vlo vhi P x y z rhoMax : ℝ} (L : Looped f ρm ρ₁ ρ₂) (hcont : ContinuousOn f (Ico 0 ρm)) (hx : 0 < x)
    (hxy : x * (101 / 99) ≤ y) (hyz : y ≤ z * (99 / 101)) (hz : z * (101 / 99) ≤ ρm) (ex : f x = P) (ey : f y = P) (ez : f z = P)
    (hvhi : 0 < vhi) (h1 : 1 / vhi < x) (hvlo : 0 < vlo) (h2 : z < 1 / vlo) (h3 : 1 / vlo < ρm) (htop : x < rhoMax) (htop' : rhoMax < ρm) :
    ∃ ε > 0, ∀ δ, 0 < δ → δ ≤ ε → ∃ I, Missing f ρm vlo vhi P δ I ∧ I.roots.length = 3 ∧ 1 / x ∉ I.roots ∧ 1 / z ∉ I.roots ∧
      vaporDensity I = .ok (some x, 0) ∧ liquidDensity I = .ok (some z, 1) := by
  obtain ⟨ε₀, e0, he⟩ := c167_enough L hx hxy hyz hz ex ey ez hvhi h1 h2 h3
  have lxy : x < y := by linarith
  have lyz : y < z := by linarith
  have lzm : z < ρm := by linarith
  obtain ⟨k1, k2, k3, k4⟩ := L.branches hx.le lxy lyz lzm (ex.trans ey.symm) (ey.trans ez.symm)
  obtain ⟨g1, g2, g3, g4⟩ := L.signs hx k1 k2 k3 k4 lzm (ex.trans ey.symm) (ey.trans ez.symm)
  rw [ex] at g1 g2 g3 g4
  have a1 := g4 _ h2 h3
  have a2 := g2 _ k1 k2
  refine ⟨min ε₀ (min ((f (1 / vlo) - P) / 2) ((f ρ₁ - P) / 2)), lt_min e0 (lt_min (by linarith) (by linarith)), fun δ d0 dle => ?_⟩
  have b0 : δ ≤ ε₀ := dle.trans (min_le_left _ _)
  have b1 : δ ≤ (f (1 / vlo) - P) / 2 := dle.trans ((min_le_right _ _).trans (min_le_left _ _))
  have b2 : δ ≤ (f ρ₁ - P) / 2 := dle.trans ((min_le_right _ _).trans (min_le_right _ _))
  have sub : ∀ u w, 0 ≤ u → w < ρm → Icc u w ⊆ Ico 0 ρm := fun u w hu hw v hv => ⟨hu.trans hv.1, lt_of_le_of_lt hv.2 hw⟩
  -- the densities at the pressure shifted by `δ`
  obtain ⟨x', hx', ex'⟩ := intermediate_value_Icc k1.le (hcont.mono (sub x ρ₁ hx.le (by linarith)))
    (show P + δ ∈ Icc _ _ from ⟨by linarith, by linarith⟩)
  obtain ⟨y', hy', ey'⟩ := intermediate_value_Icc' k2.le (hcont.mono (sub ρ₁ y L.pos.le (by linarith)))
    (show P + δ ∈ Icc _ _ from ⟨by linarith, by linarith⟩)
  obtain ⟨z', hz', ez'⟩ := intermediate_value_Icc h2.le (hcont.mono (sub z (1 / vlo) (by linarith) h3))
    (show P + δ ∈ Icc _ _ from ⟨by linarith, by linarith⟩)
  have ne1 : x' ≠ ρ₁ := by rintro rfl; linarith
  have lx1 : x' < ρ₁ := lt_of_le_of_ne hx'.2 ne1
  have ne2 : y' ≠ ρ₁ := by rintro rfl; linarith
  have ly1 : ρ₁ < y' := lt_of_le_of_ne hy'.1 ne2.symm
  have x0 : 0 < x' := lt_of_lt_of_le hx hx'.1
  have zm : z' < ρm := lt_of_le_of_lt hz'.2 h3
  have lx : x' < y' := by linarith
  have lz : y' < z' := by linarith [hy'.2, hz'.1]
  obtain ⟨q1, q2, q3, q4⟩ := L.signs x0 lx1 ly1 (by linarith [hy'.2]) (by linarith [hz'.1]) zm (ex'.trans ey'.symm) (ey'.trans ez'.symm)
  rw [ex'] at q1 q2 q3 q4
  have flip : ∀ {r ρ : ℝ}, 1 / r = ρ → r = 1 / ρ := fun h => by rw [← h, one_div_one_div]
  have hvx : 1 / x ≤ vhi := by
    have := one_div_le_one_div_of_le (one_div_pos.2 hvhi) h1.le
    rwa [one_div_one_div] at this
  have M : Missing f ρm vlo vhi P δ (biasedIso f P δ x rhoMax [1 / z', 1 / y', 1 / x']) := by
    refine ⟨⟨hvlo, h3⟩, rfl, ?_, pairwise_three (one_div_lt_one_div_of_lt (x0.trans lx) lz) (one_div_lt_one_div_of_lt x0 lx), ?_, ?_, fun _ _ _ => rfl, htop', ?_⟩
    · have hc : ContinuousOn (fun v : ℝ => 1 / v) (Icc vlo vhi) := fun v hv =>
        (continuousAt_const.div continuousAt_id (by have := lt_of_lt_of_le hvlo hv.1; exact this.ne')).continuousWithinAt
      have := hcont.comp hc fun v hv => ⟨(one_div_pos.2 (lt_of_lt_of_le hvlo hv.1)).le, lt_of_le_of_lt (one_div_le_one_div_of_le hvlo hv.1) h3⟩
      exact (this.sub continuousOn_const).sub continuousOn_const
    · intro r
      simp only [biasedIso, isoOf, List.mem_cons, List.not_mem_nil, or_false]
      have hzv : vlo ≤ 1 / z' := by
        have := one_div_le_one_div_of_le (by linarith) hz'.2
        rwa [one_div_one_div] at this
      have hxv : 1 / x' ≤ vhi := (one_div_le_one_div_of_le hx hx'.1).trans hvx
      have o1 := one_div_lt_one_div_of_lt (x0.trans lx) lz
      have o2 := one_div_lt_one_div_of_lt x0 lx
      constructor
      · rintro (rfl | rfl | rfl)
        · exact ⟨hzv, by linarith, by rw [one_div_one_div, ez']; ring⟩
        · exact ⟨by linarith, by linarith, by rw [one_div_one_div, ey']; ring⟩
        · exact ⟨by linarith, hxv, by rw [one_div_one_div, ex']; ring⟩
      · rintro ⟨c1, -, c3⟩
        have i0 : 0 < 1 / r := one_div_pos.2 (by linarith)
        have i1 : 1 / r < ρm := lt_of_le_of_lt (one_div_le_one_div_of_le hvlo c1) h3
        have c3' : f (1 / r) = P + δ := by linarith
        rcases lt_trichotomy (1 / r) x' with h | h | h
        · exact absurd c3' (q1 _ i0.le h).ne
        · exact Or.inr (Or.inr (flip h))
        rcases lt_trichotomy (1 / r) y' with h' | h' | h'
        · exact absurd c3' (q2 _ h h').ne'
        · exact Or.inr (Or.inl (flip h'))
        rcases lt_trichotomy (1 / r) z' with h'' | h'' | h''
        · exact absurd c3' (q3 _ h' h'').ne
        · exact Or.inl (flip h'')
        · exact absurd c3' (q4 _ h'' i1).ne'
    · intro v _ _
      have : (biasedIso f P δ x rhoMax [1 / z', 1 / y', 1 / x']).spline v - (f (1 / v) - P) = -δ := by simp only [biasedIso]; ring
      rw [this, abs_neg, abs_of_pos d0]
    · have sx : Seen vlo vhi x := ⟨hx, by
        have := one_div_le_one_div_of_le hx (show x ≤ 1 / vlo by linarith)
        rwa [one_div_one_div] at this, hvx⟩
      have sz : Seen vlo vhi z := ⟨by linarith, by
        have := one_div_le_one_div_of_le (by linarith) h2.le
        rwa [one_div_one_div] at this, (one_div_le_one_div_of_le hx (by linarith)).trans hvx⟩
      exact (isoOf_exact (c := x) L hcont hvlo h3 sx sz lxy lyz ex ey ez ex htop').brent
  have M' : Missing f ρm vlo vhi P ε₀ (biasedIso f P δ x rhoMax [1 / z', 1 / y', 1 / x']) := by
    obtain ⟨m1, m2, m3, m4, m5, m6, m7, m8, m9⟩ := M
    exact ⟨m1, m2, m3, m4, m5, fun v a b => (m6 v a b).trans b0, m7, m8, m9⟩
  obtain ⟨r1, r2⟩ := he _ M' rfl htop
  refine ⟨_, M, rfl, fun h => ?_, fun h => ?_, r1, r2⟩
  · have := ((M.roots_mem _).1 h).2.2
    simp only [biasedIso, one_div_one_div, ex] at this
    linarith
  · have := ((M.roots_mem _).1 h).2.2
    simp only [biasedIso, one_div_one_div, ez] at this
    linarith

section Code
variable {R T a b : ℝ} (hRT : 0 < R * T) (hb : 0 < b)
include hRT hb

/-- **C167** (isotherms of the code; of mixtures too): at every temperature and pressure with three densities that are more than two percent apart there is an accuracy
beyond which the splines do not matter. -/
theorem c167_code {vlo vhi P x y z : ℝ} (h : critT * (b * (R * T)) < a) (hx : 0 < x) (hxy : x * (101 / 99) ≤ y)
    (hyz : y ≤ z * (99 / 101)) (hz : z * (101 / 99) ≤ 1 / b) (ex : pressureAB R T a b x = P) (ey : pressureAB R T a b y = P)
    (ez : pressureAB R T a b z = P) (hvhi : 0 < vhi) (h1 : 1 / vhi < x) (h2 : z < 1 / vlo) (h3 : 1 / vlo < 1 / b) :
    ∃ ε > 0, ∀ I : Iso ℝ, Missing (pressureAB R T a b) (1 / b) vlo vhi P ε I → I.roots.length = 3 → x < I.rhoMax →
      vaporDensity I = .ok (some x, 0) ∧ liquidDensity I = .ok (some z, 1) := by
  obtain ⟨ρ₁, ρ₂, L⟩ := pr_looped hRT hb h
  exact c167_enough L hx hxy hyz hz ex ey ez hvhi h1 h2 h3

end Code

/-- Attraction 8 at pressure 1/50: splines that miss the isotherm a little, and the densities found. -/
theorem c167_example : ∃ x z : ℝ, x < 1 / 20 ∧ 1 / 2 < z ∧ pressureAB 1 1 8 1 x = 1 / 50 ∧ pressureAB 1 1 8 1 z = 1 / 50 ∧
    ∃ ε > 0, ∀ δ, 0 < δ → δ ≤ ε → ∃ I, Missing (pressureAB 1 1 8 1) (1 / 1) (100 / 99) 1000 (1 / 50) δ I ∧ I.roots.length = 3 ∧
      1 / x ∉ I.roots ∧ 1 / z ∉ I.roots ∧ vaporDensity I = .ok (some x, 0) ∧ liquidDensity I = .ok (some z, 1) := by
  have hRT : (0 : ℝ) < 1 * 1 := by norm_num
  obtain ⟨ρ₁, ρ₂, L⟩ := pr_looped (R := 1) (T := 1) (a := 8) (b := 1) hRT one_pos (by linarith [critT_bounds.2])
  have hcont := pr_continuous 1 1 8 1 hRT one_pos
  set f := pressureAB 1 1 8 1 with hf
  have sub : ∀ x y : ℝ, 0 ≤ x → y < 1 → Icc x y ⊆ Ico 0 (1 / 1) := fun x y hx hy z hz => ⟨hx.trans hz.1, by rw [div_one]; exact lt_of_le_of_lt hz.2 hy⟩
  have v0 : f (1 / 100) < 1 / 50 := by rw [hf]; unfold pressureAB; norm_num
  have v1 : 1 / 50 < f (1 / 20) := by rw [hf]; unfold pressureAB; norm_num
  have v2 : 1 / 50 < f (1 / 10) := by rw [hf]; unfold pressureAB; norm_num
  have v3 : f (3 / 10) < 1 / 50 := by rw [hf]; unfold pressureAB; norm_num
  have v4 : f (1 / 2) < 1 / 50 := by rw [hf]; unfold pressureAB; norm_num
  have v5 : 1 / 50 < f (7 / 10) := by rw [hf]; unfold pressureAB; norm_num
  obtain ⟨x, hx, ex⟩ := intermediate_value_Icc (by norm_num) (hcont.mono (sub (1 / 100) (1 / 20) (by norm_num) (by norm_num)))
    (show (1 / 50 : ℝ) ∈ Icc _ _ from ⟨v0.le, v1.le⟩)
  obtain ⟨y, hy, ey⟩ := intermediate_value_Icc' (by norm_num) (hcont.mono (sub (1 / 10) (3 / 10) (by norm_num) (by norm_num)))
    (show (1 / 50 : ℝ) ∈ Icc _ _ from ⟨v3.le, v2.le⟩)
  obtain ⟨z, hz, ez⟩ := intermediate_value_Icc (by norm_num) (hcont.mono (sub (1 / 2) (7 / 10) (by norm_num) (by norm_num)))
    (show (1 / 50 : ℝ) ∈ Icc _ _ from ⟨v4.le, v5.le⟩)
  have hxne : x ≠ 1 / 20 := by rintro rfl; exact v1.ne' ex
  have hzne : z ≠ 1 / 2 := by rintro rfl; exact v4.ne ez
  refine ⟨x, z, lt_of_le_of_ne hx.2 hxne, lt_of_le_of_ne hz.1 hzne.symm, ex, ez, ?_⟩
  exact c167_biased (rhoMax := 99 / 100) (vlo := 100 / 99) (vhi := 1000) L hcont (by linarith [hx.1]) (by linarith [hx.2, hy.1])
    (by linarith [hy.2, hz.1]) (by linarith [hz.2]) ex ey ez (by norm_num) (by linarith [hx.1]) (by norm_num) (by linarith [hz.2]) (by norm_num)
    (by linarith [hx.2]) (by norm_num)

/-- An estimate of one half for a density of one is returned. -/
example : ∃ I : Iso ℚ, I.nanRoot = false ∧ I.roots = [2, 3, 4] ∧ I.err 1 = 0 ∧ liquidDensity I = .ok (some (1 / 2), 1) := by
  let I : Iso ℚ := {
    nanRoot := false
    roots := [2, 3, 4]
    extrema := [5 / 2, 7 / 2]
    spline := fun _ => 0
    endDensity := 0
    minP := 0
    firstP := 1
    vroot := 1
    rhoFirst := 1
    rhoMax := 2
    err := fun ρ => ρ - 1
    P := 1
    feps := 0
    lsq := fun g _ _ => .ok g
    brentq := fun _ _ => .error .valueError }
  refine ⟨I, rfl, rfl, by norm_num [I], ?_⟩
  exact c167_far I rfl 2 3 4 [] rfl (by norm_num [I]) (by norm_num [I])

end Verif.Props
