import Verif.Props.PengRobinsonSaturation
import Verif.Props.PhaseDensity
import Mathlib.Topology.Order.LocalExtr

/-!
# The density search on isotherms of the cubic equation of state (C137)
-/

namespace Verif.Props
open Verif Verif.PhaseDensity Verif.PengRobinson Set

/-! ## Shapes of isotherms -/

/-- An isotherm with a loop: the pressure rises up to `ρ₁`, falls up to `ρ₂` and rises again. -/
structure Looped (f : ℝ → ℝ) (ρm ρ₁ ρ₂ : ℝ) : Prop where
  pos : 0 < ρ₁
  lt : ρ₁ < ρ₂
  lt_max : ρ₂ < ρm
  up : StrictMonoOn f (Icc 0 ρ₁)
  down : StrictAntiOn f (Icc ρ₁ ρ₂)
  up' : StrictMonoOn f (Ico ρ₂ ρm)

/-- What the search sees if the spline is exact between the volumes `vlo` and `vhi`, and if `brentq` finds a root in a bracket. -/
structure Exact (f : ℝ → ℝ) (ρm vlo vhi P : ℝ) (I : Iso ℝ) : Prop where
  range : 0 < vlo ∧ 1 / vlo < ρm
  noNan : I.nanRoot = false
  roots_sorted : I.roots.Pairwise (· < ·)
  roots_mem : ∀ r, r ∈ I.roots ↔ vlo ≤ r ∧ r ≤ vhi ∧ f (1 / r) = P
  ext_sorted : I.extrema.Pairwise (· < ·)
  ext_mem : ∀ e, e ∈ I.extrema ↔ vlo ≤ e ∧ e ≤ vhi ∧ IsLocalExtr f (1 / e)
  spline : ∀ v, vlo ≤ v → v ≤ vhi → I.spline v = f (1 / v) - P
  err : ∀ ρ, 0 < ρ → ρ < ρm → I.err ρ = f ρ - P
  press : I.P = P
  top : I.rhoMax < ρm
  brent : ∀ lo hi, 0 < lo → lo < hi → hi < ρm → I.err lo * I.err hi < 0 →
    ∃ ρ, I.brentq lo hi = .ok ρ ∧ lo ≤ ρ ∧ ρ ≤ hi ∧ I.err ρ = 0

/-- The density lies in the range of the spline. -/
def Seen (vlo vhi ρ : ℝ) : Prop := 0 < ρ ∧ vlo ≤ 1 / ρ ∧ 1 / ρ ≤ vhi

theorem not_extr_of_mono {f : ℝ → ℝ} {s : Set ℝ} {x : ℝ} (h : StrictMonoOn f s) (hs : s ∈ nhds x) : ¬ IsLocalExtr f x := by
  have hx : x ∈ s := mem_of_mem_nhds hs
  rintro (hm | hm)
  · have := ((hm.and hs).filter_mono nhdsWithin_le_nhds).and (self_mem_nhdsWithin (a := x) (s := Iio x))
    obtain ⟨y, ⟨h1, h2⟩, h3⟩ := this.exists
    exact absurd (h h2 hx h3) (not_lt.2 h1)
  · have := ((hm.and hs).filter_mono nhdsWithin_le_nhds).and (self_mem_nhdsWithin (a := x) (s := Ioi x))
    obtain ⟨y, ⟨h1, h2⟩, h3⟩ := this.exists
    exact absurd (h hx h2 h3) (not_lt.2 h1)

theorem not_extr_of_anti {f : ℝ → ℝ} {s : Set ℝ} {x : ℝ} (h : StrictAntiOn f s) (hs : s ∈ nhds x) : ¬ IsLocalExtr f x := by
  intro he
  refine not_extr_of_mono (f := fun y => -f y) (s := s) (x := x) (fun a ha b hb hab => neg_lt_neg (h ha hb hab)) hs ?_
  exact he.neg

theorem Looped.extr_iff {f : ℝ → ℝ} {ρm ρ₁ ρ₂ : ℝ} (L : Looped f ρm ρ₁ ρ₂) (ρ : ℝ) (h0 : 0 < ρ) (h1 : ρ < ρm) :
    IsLocalExtr f ρ ↔ ρ = ρ₁ ∨ ρ = ρ₂ := by
  constructor
  · intro h
    by_contra hc
    rw [not_or] at hc
    rcases lt_or_gt_of_ne hc.1 with k | k
    · exact not_extr_of_mono L.up (Icc_mem_nhds h0 k) h
    rcases lt_or_gt_of_ne hc.2 with k' | k'
    · exact not_extr_of_anti L.down (Icc_mem_nhds k k') h
    · exact not_extr_of_mono L.up' (Ico_mem_nhds k' h1) h
  · rintro (rfl | rfl)
    · right
      filter_upwards [Icc_mem_nhds h0 L.lt] with y hy
      rcases le_total y ρ with k | k
      · exact L.up.monotoneOn ⟨hy.1, k⟩ ⟨h0.le, le_rfl⟩ k
      · exact L.down.antitoneOn ⟨le_rfl, L.lt.le⟩ ⟨k, hy.2⟩ k
    · left
      filter_upwards [Ico_mem_nhds L.lt h1] with y hy
      rcases le_total y ρ with k | k
      · exact L.down.antitoneOn ⟨hy.1, k⟩ ⟨L.lt.le, le_rfl⟩ k
      · exact L.up'.monotoneOn ⟨le_rfl, h1⟩ ⟨k, hy.2⟩ k

theorem list_two {l : List ℝ} {a b : ℝ} (hl : l.Pairwise (· < ·)) (hm : ∀ r, r ∈ l ↔ r = a ∨ r = b) (hab : a < b) : l = [a, b] := by
  have h2 : [a, b].Pairwise (· < ·) := by simp [hab]
  refine List.Perm.eq_of_pairwise' (r := (· < ·)) hl h2 ?_
  rw [List.perm_ext_iff_of_nodup (hl.imp fun h => h.ne) (h2.imp fun h => h.ne)]
  intro r; rw [hm]; simp

theorem list_one {l : List ℝ} {a : ℝ} (hl : l.Pairwise (· < ·)) (hm : ∀ r, r ∈ l ↔ r = a) : l = [a] := by
  have h2 : [a].Pairwise (· < ·) := by simp
  refine List.Perm.eq_of_pairwise' (r := (· < ·)) hl h2 ?_
  rw [List.perm_ext_iff_of_nodup (hl.imp fun h => h.ne) (h2.imp fun h => h.ne)]
  intro r; rw [hm]; simp

section Search
variable {f : ℝ → ℝ} {ρm vlo vhi P : ℝ} {I : Iso ℝ} (E : Exact f ρm vlo vhi P I)
include E

theorem Exact.inv {r : ℝ} (h : vlo ≤ r) : 0 < 1 / r ∧ 1 / r < ρm := by
  have := E.range.1
  exact ⟨one_div_pos.2 (by linarith), lt_of_le_of_lt (one_div_le_one_div_of_le this h) E.range.2⟩

theorem Exact.seen_lt {ρ : ℝ} (h : Seen vlo vhi ρ) : ρ < ρm := by
  have := (E.inv h.2.1).2
  rwa [one_div_one_div] at this

/-- Roots of the spline are the densities at the pressure. -/
theorem Exact.root_iff (r : ℝ) : r ∈ I.roots ↔ ∃ ρ, Seen vlo vhi ρ ∧ f ρ = P ∧ r = 1 / ρ := by
  rw [E.roots_mem]
  constructor
  · rintro ⟨h1, h2, h3⟩
    exact ⟨1 / r, ⟨(E.inv h1).1, by rwa [one_div_one_div], by rwa [one_div_one_div]⟩, h3, (one_div_one_div r).symm⟩
  · rintro ⟨ρ, ⟨h0, h1, h2⟩, h3, rfl⟩
    exact ⟨h1, h2, by rwa [one_div_one_div]⟩

theorem Exact.ext_iff (r : ℝ) : r ∈ I.extrema ↔ ∃ ρ, Seen vlo vhi ρ ∧ IsLocalExtr f ρ ∧ r = 1 / ρ := by
  rw [E.ext_mem]
  constructor
  · rintro ⟨h1, h2, h3⟩
    exact ⟨1 / r, ⟨(E.inv h1).1, by rwa [one_div_one_div], by rwa [one_div_one_div]⟩, h3, (one_div_one_div r).symm⟩
  · rintro ⟨ρ, ⟨h0, h1, h2⟩, h3, rfl⟩
    exact ⟨h1, h2, by rwa [one_div_one_div]⟩

theorem Exact.spline_at {ρ : ℝ} (h : Seen vlo vhi ρ) : I.spline (1 / ρ) + I.P = f ρ := by
  rw [E.spline _ h.2.1 h.2.2, one_div_one_div, E.press]; ring

/-- The bracketed refinement of a vapour ends at the density with the pressure, if it is the only one in the bracket. -/
theorem Exact.refine_vapor {w : ℝ} (b : Bool) (h0 : 0 < w) (h1 : w < I.rhoMax) (hlow : f (w * (99 / 100)) < P)
    (hhigh : ∀ ρ, w < ρ → ρ ≤ w * (101 / 100) → ρ < ρm → P < f ρ)
    (honly : ∀ ρ, w * (99 / 100) ≤ ρ → ρ ≤ w * (101 / 100) → ρ < ρm → f ρ = P → ρ = w) : vaporRefine I b w = .ok w := by
  have htop := E.top
  set hi := if I.rhoMax < w * (101 / 100) then I.rhoMax else w * (101 / 100) with hhi
  have k1 : w < hi := by rw [hhi]; split_ifs <;> linarith
  have k2 : hi ≤ w * (101 / 100) := by rw [hhi]; split_ifs with h <;> linarith
  have k3 : hi < ρm := by
    rw [hhi]; split_ifs with h
    · exact htop
    · exact lt_of_le_of_lt (not_lt.1 h) htop
  have e1 : I.err (w * (99 / 100)) < 0 := by rw [E.err _ (by linarith) (by linarith)]; linarith
  have e2 : 0 < I.err hi := by rw [E.err _ (by linarith) k3]; linarith [hhigh hi k1 k2 k3]
  obtain ⟨ρ, hρ, a1, a2, a3⟩ := E.brent (w * (99 / 100)) hi (by linarith) (by linarith) k3 (mul_neg_of_neg_of_pos e1 e2)
  unfold vaporRefine
  simp only [← hhi, mul_neg_of_neg_of_pos e1 e2, if_true]
  rw [E.err _ (by linarith) (by linarith)] at a3
  rw [hρ, honly ρ a1 (a2.trans k2) (by linarith) (by linarith)]

/-- The bracketed refinement of a liquid. -/
theorem Exact.refine_liquid {w : ℝ} (b : Bool) (h0 : 0 < w) (h1 : w * (101 / 100) < ρm) (hhigh : P < f (w * (101 / 100)))
    (hlow : f (w * (99 / 100)) < P)
    (honly : ∀ ρ, w * (99 / 100) ≤ ρ → ρ ≤ w * (101 / 100) → f ρ = P → ρ = w) : liquidRefine I b w = .ok w := by
  have e1 : I.err (w * (99 / 100)) < 0 := by rw [E.err _ (by linarith) (by linarith)]; linarith
  have e2 : 0 < I.err (w * (101 / 100)) := by rw [E.err _ (by linarith) h1]; linarith
  obtain ⟨ρ, hρ, a1, a2, a3⟩ := E.brent (w * (99 / 100)) _ (by linarith) (by linarith) h1 (mul_neg_of_neg_of_pos e1 e2)
  unfold liquidRefine
  simp only [mul_neg_of_neg_of_pos e1 e2, if_true]
  rw [E.err _ (by linarith) (by linarith)] at a3
  rw [hρ, honly ρ a1 a2 (by linarith)]

/-- **C137** (one density, no loop): both searches return it as that of a critical fluid. -/
theorem c137_rising (w : ℝ) (hup : StrictMonoOn f (Ico 0 ρm)) (hs : Seen vlo vhi w) (hw : f w = P) (htop : w < I.rhoMax)
    (hpole : w * (101 / 100) < ρm) : vaporDensity I = .ok (some w, 2) ∧ liquidDensity I = .ok (some w, 2) := by
  have h0 := hs.1
  have only : ∀ ρ, 0 < ρ → ρ < ρm → f ρ = P → ρ = w := fun ρ a b c =>
    hup.injOn ⟨a.le, b⟩ ⟨h0.le, E.seen_lt hs⟩ (c.trans hw.symm)
  have hr : I.roots = [1 / w] := by
    refine list_one E.roots_sorted fun r => ?_
    rw [E.root_iff]
    constructor
    · rintro ⟨ρ, a, b, rfl⟩; rw [only ρ a.1 (E.seen_lt a) b]
    · rintro rfl; exact ⟨w, hs, hw, rfl⟩
  have he : I.extrema = [] := by
    refine List.eq_nil_iff_forall_not_mem.2 fun e h => ?_
    obtain ⟨ρ, a, b, -⟩ := (E.ext_iff e).1 h
    exact not_extr_of_mono hup (Ico_mem_nhds a.1 (E.seen_lt a)) b
  obtain ⟨s1, s2⟩ := (c33_one_root I E.noNan _ hr).1 he
  rw [one_div_one_div] at s1 s2
  have low : f (w * (99 / 100)) < P := by
    rw [← hw]; exact hup ⟨by linarith, by linarith⟩ ⟨h0.le, by linarith⟩ (by linarith)
  have r1 := E.refine_vapor false h0 htop low
    (fun ρ a b c => by rw [← hw]; exact hup ⟨h0.le, by linarith⟩ ⟨by linarith, c⟩ a) (fun ρ a b c d => only ρ (by linarith) c d)
  have r2 := E.refine_liquid false h0 hpole (by rw [← hw]; exact hup ⟨h0.le, by linarith⟩ ⟨by linarith, hpole⟩ (by linarith)) low
    (fun ρ a b d => only ρ (by linarith) (by linarith) d)
  rw [(c33_refined_iff I w 2 false).1 s1, (c33_refined_iff I w 2 false).2 s2, r1, r2]
  simp [Except.map]

variable {ρ₁ ρ₂ : ℝ} (L : Looped f ρm ρ₁ ρ₂)
include L

theorem Exact.extrema (h1 : Seen vlo vhi ρ₁) (h2 : Seen vlo vhi ρ₂) : I.extrema = [1 / ρ₂, 1 / ρ₁] := by
  refine list_two E.ext_sorted (fun r => ?_) (one_div_lt_one_div_of_lt L.pos L.lt)
  rw [E.ext_iff]
  constructor
  · rintro ⟨ρ, a, b, rfl⟩
    rcases (L.extr_iff ρ a.1 (E.seen_lt a)).1 b with rfl | rfl <;> simp
  · rintro (rfl | rfl)
    · exact ⟨ρ₂, h2, (L.extr_iff _ h2.1 (E.seen_lt h2)).2 (Or.inr rfl), rfl⟩
    · exact ⟨ρ₁, h1, (L.extr_iff _ h1.1 (E.seen_lt h1)).2 (Or.inl rfl), rfl⟩

omit E in
/-- Below the pressure at the end of the fall there is one density, on the branch of the vapour. -/
theorem Looped.light {w : ℝ} (h0 : 0 ≤ w) (hw : f w < f ρ₂) (hlt : w < ρm) : w < ρ₁ ∧ ∀ ρ, w < ρ → ρ < ρm → f w < f ρ := by
  have k : w < ρ₁ := by
    by_contra hc
    rw [not_lt] at hc
    rcases le_total w ρ₂ with h | h
    · exact absurd (L.down.antitoneOn ⟨hc, h⟩ ⟨L.lt.le, le_rfl⟩ h) (not_le.2 hw)
    · exact absurd (L.up'.monotoneOn ⟨le_rfl, L.lt_max⟩ ⟨h, hlt⟩ h) (not_le.2 hw)
  refine ⟨k, fun ρ a b => ?_⟩
  rcases le_total ρ ρ₁ with h | h
  · exact L.up ⟨h0, k.le⟩ ⟨by linarith, h⟩ a
  rcases le_total ρ ρ₂ with h' | h'
  · exact lt_of_lt_of_le hw (L.down.antitoneOn ⟨h, h'⟩ ⟨L.lt.le, le_rfl⟩ h')
  · exact lt_of_lt_of_le hw (L.up'.monotoneOn ⟨le_rfl, L.lt_max⟩ ⟨h', b⟩ h')

omit E in
theorem Looped.dense {w : ℝ} (h0 : 0 ≤ w) (hw : f ρ₁ < f w) (hlt : w < ρm) : ρ₂ < w ∧ ∀ ρ, 0 ≤ ρ → ρ < w → f ρ < f w := by
  have k : ρ₂ < w := by
    by_contra hc
    rw [not_lt] at hc
    rcases le_total w ρ₁ with h | h
    · exact absurd (L.up.monotoneOn ⟨h0, h⟩ ⟨L.pos.le, le_rfl⟩ h) (not_le.2 hw)
    · exact absurd (L.down.antitoneOn ⟨le_rfl, L.lt.le⟩ ⟨h, hc⟩ h) (not_le.2 hw)
  refine ⟨k, fun ρ a b => ?_⟩
  rcases le_total ρ ρ₁ with h | h
  · exact lt_of_le_of_lt (L.up.monotoneOn ⟨a, h⟩ ⟨L.pos.le, le_rfl⟩ h) hw
  rcases le_total ρ ρ₂ with h' | h'
  · exact lt_of_le_of_lt (L.down.antitoneOn ⟨le_rfl, L.lt.le⟩ ⟨h, h'⟩ h) hw
  · exact L.up' ⟨h', by linarith⟩ ⟨k.le, hlt⟩ b

/-- **C137** (pressure below the loop): both searches return the only density, as that of a vapour. -/
theorem c137_light (w : ℝ) (h1 : Seen vlo vhi ρ₁) (h2 : Seen vlo vhi ρ₂) (hs : Seen vlo vhi w) (hw : f w = P) (hP : P < f ρ₂)
    (htop : w < I.rhoMax) : vaporDensity I = .ok (some w, 0) ∧ liquidDensity I = .ok (some w, 0) := by
  have h0 := hs.1
  have hlt := E.seen_lt hs
  obtain ⟨k, above⟩ := L.light h0.le (by rw [hw]; exact hP) hlt
  have below : ∀ ρ, 0 ≤ ρ → ρ < w → f ρ < f w := fun ρ a b => L.up ⟨a, by linarith⟩ ⟨h0.le, k.le⟩ b
  have only : ∀ ρ, 0 < ρ → ρ < ρm → f ρ = P → ρ = w := fun ρ a b c => by
    rcases lt_trichotomy ρ w with h | h | h
    · exact absurd (c.trans hw.symm) (below ρ a.le h).ne
    · exact h
    · exact absurd (hw.trans c.symm) (above ρ h b).ne
  have hr : I.roots = [1 / w] := by
    refine list_one E.roots_sorted fun r => ?_
    rw [E.root_iff]
    constructor
    · rintro ⟨ρ, a, b, rfl⟩; rw [only ρ a.1 (E.seen_lt a) b]
    · rintro rfl; exact ⟨w, hs, hw, rfl⟩
  have hext := E.extrema L h1 h2
  obtain ⟨s1, s2⟩ := ((c33_one_root I E.noNan _ hr).2 (1 / ρ₁) (by rw [hext]; rfl)).2
    (by rw [E.spline_at hs, E.spline_at h1]; exact L.up.monotoneOn ⟨h0.le, k.le⟩ ⟨L.pos.le, le_rfl⟩ k.le) (by rw [hext]; rfl)
  rw [one_div_one_div] at s1 s2
  have r1 := E.refine_vapor false h0 htop (by rw [← hw]; exact below _ (by linarith) (by linarith))
    (fun ρ a b c => by rw [← hw]; exact above ρ a c) (fun ρ a b c d => only ρ (by linarith) c d)
  rw [(c33_refined_iff I w 0 false).1 s1, (c33_refined_iff I w 0 false).2 s2, r1]
  simp [Except.map]

/-- **C137** (pressure above the loop): both searches return the only density, as that of a liquid. -/
theorem c137_dense (w : ℝ) (h1 : Seen vlo vhi ρ₁) (h2 : Seen vlo vhi ρ₂) (hs : Seen vlo vhi w) (hw : f w = P) (hP : f ρ₁ < P)
    (hpole : w * (101 / 100) < ρm) : vaporDensity I = .ok (some w, 1) ∧ liquidDensity I = .ok (some w, 1) := by
  have h0 := hs.1
  have hlt := E.seen_lt hs
  obtain ⟨k, below⟩ := L.dense h0.le (by rw [hw]; exact hP) hlt
  have above : ∀ ρ, w < ρ → ρ < ρm → f w < f ρ := fun ρ a b => L.up' ⟨k.le, hlt⟩ ⟨by linarith, b⟩ a
  have only : ∀ ρ, 0 < ρ → ρ < ρm → f ρ = P → ρ = w := fun ρ a b c => by
    rcases lt_trichotomy ρ w with h | h | h
    · exact absurd (c.trans hw.symm) (below ρ a.le h).ne
    · exact h
    · exact absurd (hw.trans c.symm) (above ρ h b).ne
  have hr : I.roots = [1 / w] := by
    refine list_one E.roots_sorted fun r => ?_
    rw [E.root_iff]
    constructor
    · rintro ⟨ρ, a, b, rfl⟩; rw [only ρ a.1 (E.seen_lt a) b]
    · rintro rfl; exact ⟨w, hs, hw, rfl⟩
  have hext := E.extrema L h1 h2
  obtain ⟨s1, s2⟩ := ((c33_one_root I E.noNan _ hr).2 (1 / ρ₁) (by rw [hext]; rfl)).1
    (by rw [E.spline_at hs, E.spline_at h1, hw]; exact hP)
  rw [one_div_one_div] at s1 s2
  have r2 := E.refine_liquid false h0 hpole (by rw [← hw]; exact above _ (by linarith) hpole)
    (by rw [← hw]; exact below _ (by linarith) (by linarith)) (fun ρ a b d => only ρ (by linarith) (by linarith) d)
  rw [(c33_refined_iff I w 1 false).1 s1, (c33_refined_iff I w 1 false).2 s2, r2]
  simp [Except.map]

omit E in
/-- Between the two pressures of the loop there are three densities, one on each branch, and the pressure is lower or higher than theirs in between. -/
theorem Looped.signs {x y z : ℝ} (hx : 0 < x) (hx1 : x < ρ₁) (hy1 : ρ₁ < y) (hy2 : y < ρ₂) (hz2 : ρ₂ < z) (hz : z < ρm)
    (hxy : f x = f y) (hyz : f y = f z) :
    (∀ ρ, 0 ≤ ρ → ρ < x → f ρ < f x) ∧ (∀ ρ, x < ρ → ρ < y → f x < f ρ) ∧ (∀ ρ, y < ρ → ρ < z → f ρ < f x) ∧
      ∀ ρ, z < ρ → ρ < ρm → f x < f ρ := by
  refine ⟨fun ρ a b => L.up ⟨a, by linarith⟩ ⟨hx.le, hx1.le⟩ b, fun ρ a b => ?_, fun ρ a b => ?_, fun ρ a b => ?_⟩
  · rcases le_total ρ ρ₁ with h | h
    · exact L.up ⟨hx.le, hx1.le⟩ ⟨by linarith, h⟩ a
    · rw [hxy]; exact L.down ⟨h, by linarith⟩ ⟨hy1.le, hy2.le⟩ b
  · rcases le_total ρ ρ₂ with h | h
    · rw [hxy]; exact L.down ⟨hy1.le, hy2.le⟩ ⟨by linarith, h⟩ a
    · rw [hxy, hyz]; exact L.up' ⟨h, by linarith⟩ ⟨hz2.le, hz⟩ b
  · rw [hxy, hyz]; exact L.up' ⟨hz2.le, hz⟩ ⟨by linarith, b⟩ a

/-- **C137** (pressure inside the loop): the vapour search starts at the lowest and the liquid search at the highest of the three densities; each returns its
density if no other one lies within one percent. -/
theorem c137_three_partial (x y z : ℝ) (hsx : Seen vlo vhi x) (hsz : Seen vlo vhi z) (hx1 : x < ρ₁) (hy1 : ρ₁ < y) (hy2 : y < ρ₂)
    (hz2 : ρ₂ < z) (ex : f x = P) (ey : f y = P) (ez : f z = P) :
    vaporSeed I = .ok ((some x, 0), false) ∧ liquidSeed I = .ok ((some z, 1), false) ∧
      (x < I.rhoMax → x * (101 / 100) < y → vaporDensity I = .ok (some x, 0)) ∧
      (z * (101 / 100) < ρm → y < z * (99 / 100) → liquidDensity I = .ok (some z, 1)) := by
  have hx := hsx.1
  have hz := E.seen_lt hsz
  obtain ⟨g1, g2, g3, g4⟩ := L.signs hx hx1 hy1 hy2 hz2 hz (ex.trans ey.symm) (ey.trans ez.symm)
  rw [ex] at g1 g2 g3 g4
  have only : ∀ ρ, 0 < ρ → ρ < ρm → f ρ = P → ρ = x ∨ ρ = y ∨ ρ = z := fun ρ a b c => by
    rcases lt_trichotomy ρ x with h | h | h
    · exact absurd c (g1 ρ a.le h).ne
    · exact Or.inl h
    rcases lt_trichotomy ρ y with h' | h' | h'
    · exact absurd c (g2 ρ h h').ne'
    · exact Or.inr (Or.inl h')
    rcases lt_trichotomy ρ z with h'' | h'' | h''
    · exact absurd c (g3 ρ h' h'').ne
    · exact Or.inr (Or.inr h'')
    · exact absurd c (g4 ρ h'' b).ne'
  have lxy : x < y := hx1.trans hy1
  have lyz : y < z := hy2.trans hz2
  have hsy : Seen vlo vhi y := ⟨hx.trans lxy, hsz.2.1.trans (one_div_le_one_div_of_le (hx.trans lxy) lyz.le),
    (one_div_le_one_div_of_le hx lxy.le).trans hsx.2.2⟩
  have hr : I.roots = [1 / z, 1 / y, 1 / x] := by
    refine list_three E.roots_sorted (fun r => ?_) (one_div_lt_one_div_of_lt (hx.trans lxy) lyz) (one_div_lt_one_div_of_lt hx lxy)
    rw [E.root_iff]
    constructor
    · rintro ⟨ρ, a, b, rfl⟩
      rcases only ρ a.1 (E.seen_lt a) b with rfl | rfl | rfl <;> simp
    · rintro (rfl | rfl | rfl)
      · exact ⟨z, hsz, ez, rfl⟩
      · exact ⟨y, hsy, ey, rfl⟩
      · exact ⟨x, hsx, ex, rfl⟩
  obtain ⟨s1, s2, -⟩ := c33_three_roots I E.noNan _ _ _ _ hr
  rw [one_div_one_div] at s1 s2
  refine ⟨s1, s2, fun htop hxy => ?_, fun hpole hyz => ?_⟩
  · have r1 := E.refine_vapor false hx htop (g1 _ (by linarith) (by linarith)) (fun ρ a b c => g2 ρ a (by linarith))
      (fun ρ a b c d => by rcases only ρ (by linarith) c d with h | h | h <;> linarith)
    rw [(c33_refined_iff I x 0 false).1 s1, r1]
    simp [Except.map]
  · have r2 := E.refine_liquid false hsz.1 hpole (g4 _ (by linarith) hpole) (g3 _ (by linarith) (by linarith))
      (fun ρ a b d => by rcases only ρ (by linarith) (by linarith) d with h | h | h <;> linarith)
    rw [(c33_refined_iff I z 1 false).2 s2, r2]
    simp [Except.map]

/-- **C137** (range of volumes that ends before the vapour): the liquid is found; the vapour if the extrapolation finds a density with the pressure below that of
the last root less ten percent. -/
theorem c137_short_range (x y z ρ : ℝ) (hx : 0 < x) (hout : vhi < 1 / x) (hsy : Seen vlo vhi y) (hsz : Seen vlo vhi z) (hx1 : x < ρ₁) (hy1 : ρ₁ < y)
    (hy2 : y < ρ₂) (hz2 : ρ₂ < z) (hP : 0 < P) (ex : f x = P) (ey : f y = P) (ez : f z = P)
    (hl : I.lsq (1 / I.vroot) I.feps (1 / (11 / 10 * (1 / y))) = .ok ρ) (hρ : 0 < ρ) (hρ1 : ρ ≤ 1 / (11 / 10 * (1 / y))) :
    (z * (101 / 100) < ρm → y < z * (99 / 100) → liquidDensity I = .ok (some z, 1)) ∧
      vaporSeed I = .ok ((some ρ, 0), false) ∧ (f ρ = P → x < I.rhoMax → vaporDensity I = .ok (some x, 0)) := by
  have hz := E.seen_lt hsz
  obtain ⟨g1, g2, g3, g4⟩ := L.signs hx hx1 hy1 hy2 hz2 hz (ex.trans ey.symm) (ey.trans ez.symm)
  rw [ex] at g1 g2 g3 g4
  have only : ∀ ρ, 0 < ρ → ρ < ρm → f ρ = P → ρ = x ∨ ρ = y ∨ ρ = z := fun ρ a b c => by
    rcases lt_trichotomy ρ x with h | h | h
    · exact absurd c (g1 ρ a.le h).ne
    · exact Or.inl h
    rcases lt_trichotomy ρ y with h' | h' | h'
    · exact absurd c (g2 ρ h h').ne'
    · exact Or.inr (Or.inl h')
    rcases lt_trichotomy ρ z with h'' | h'' | h''
    · exact absurd c (g3 ρ h' h'').ne
    · exact Or.inr (Or.inr h'')
    · exact absurd c (g4 ρ h'' b).ne'
  have lyz : y < z := hy2.trans hz2
  have hy0 := hsy.1
  have hr : I.roots = [1 / z, 1 / y] := by
    refine list_two E.roots_sorted (fun r => ?_) (one_div_lt_one_div_of_lt hy0 lyz)
    rw [E.root_iff]
    constructor
    · rintro ⟨ρ, a, b, rfl⟩
      rcases only ρ a.1 (E.seen_lt a) b with rfl | rfl | rfl
      · exact absurd a.2.2 (not_le.2 hout)
      · simp
      · simp
    · rintro (rfl | rfl)
      · exact ⟨z, hsz, ez, rfl⟩
      · exact ⟨y, hsy, ey, rfl⟩
  obtain ⟨s2, -, s1⟩ := c33_two_roots I E.noNan _ _ hr
  have s1' := (s1 (by rw [E.spline_at hsz, ez]; exact hP.le)).1 ρ hl
  rw [one_div_one_div] at s2
  have hb : 1 / (11 / 10 * (1 / y)) = y * (10 / 11) := by field_simp
  rw [hb] at hρ1
  refine ⟨fun hpole hyz => ?_, s1', fun hf htop => ?_⟩
  · have r2 := E.refine_liquid false hsz.1 hpole (g4 _ (by linarith) hpole) (g3 _ (by linarith) (by linarith))
      (fun ρ a b d => by rcases only ρ (by linarith) (by linarith) d with h | h | h <;> linarith)
    rw [(c33_refined_iff I z 1 false).2 s2, r2]
    simp [Except.map]
  · have e : ρ = x := by rcases only ρ hρ (by linarith) hf with h | h | h <;> linarith
    subst e
    have r1 := E.refine_vapor false hx htop (g1 _ (by linarith) (by linarith)) (fun ρ a b c => g2 ρ a (by linarith))
      (fun ρ a b c d => by rcases only ρ (by linarith) c d with h | h | h <;> linarith)
    rw [(c33_refined_iff I ρ 0 false).1 s1', r1]
    simp [Except.map]

end Search

/-! ## Isotherms of the code -/

theorem Looped.branches {f : ℝ → ℝ} {ρm ρ₁ ρ₂ x y z : ℝ} (L : Looped f ρm ρ₁ ρ₂) (hx : 0 ≤ x) (hxy : x < y) (hyz : y < z) (hz : z < ρm)
    (exy : f x = f y) (eyz : f y = f z) : x < ρ₁ ∧ ρ₁ < y ∧ y < ρ₂ ∧ ρ₂ < z := by
  have k1 : ρ₁ < y := by
    by_contra hc
    rw [not_lt] at hc
    exact absurd exy (L.up ⟨hx, hxy.le.trans hc⟩ ⟨hx.trans hxy.le, hc⟩ hxy).ne
  have k2 : y < ρ₂ := by
    by_contra hc
    rw [not_lt] at hc
    exact absurd eyz (L.up' ⟨hc, hyz.trans hz⟩ ⟨hc.trans hyz.le, hz⟩ hyz).ne
  refine ⟨?_, k1, k2, ?_⟩
  · by_contra hc
    rw [not_lt] at hc
    exact absurd exy (L.down ⟨hc, (hxy.trans k2).le⟩ ⟨k1.le, k2.le⟩ hxy).ne'
  · by_contra hc
    rw [not_lt] at hc
    exact absurd eyz (L.down ⟨k1.le, k2.le⟩ ⟨(k1.trans hyz).le, hc⟩ hyz).ne'

section Code
variable {R T a b : ℝ} (hRT : 0 < R * T) (hb : 0 < b)
include hRT hb

/-- Below the critical temperature the isotherms have a loop. -/
theorem pr_looped (h : critT * (b * (R * T)) < a) : ∃ ρ₁ ρ₂, Looped (pressureAB R T a b) (1 / b) ρ₁ ρ₂ := by
  have hw : 0 < b * (R * T) := mul_pos hb hRT
  have hc : 0 < R * T / b := div_pos hRT hb
  obtain ⟨u₁, u₂, L⟩ := loop_exists (a / (b * (R * T))) ((lt_div_iff₀ hw).2 h)
  have e : ∀ ρ, pressureAB R T a b ρ = R * T / b * reducedP (a / (b * (R * T))) (b * ρ) := fun ρ => reducedP_eq R T a b ρ hRT hb
  have lift : ∀ {x y : ℝ}, x < y → b * x < b * y := fun h => mul_lt_mul_of_pos_left h hb
  have le : ∀ {x u : ℝ}, x ≤ u / b → b * x ≤ u := fun h => by rw [mul_comm]; exact (le_div_iff₀ hb).1 h
  have ge : ∀ {x u : ℝ}, u / b ≤ x → u ≤ b * x := fun h => by rw [mul_comm]; exact (div_le_iff₀ hb).1 h
  refine ⟨u₁ / b, u₂ / b, div_pos L.pos hb, div_lt_div_of_pos_right L.lt hb, div_lt_div_of_pos_right L.lt_one hb, ?_, ?_, ?_⟩
  · intro x hx y hy hxy
    rw [e, e]
    exact mul_lt_mul_of_pos_left (L.mono1 ⟨mul_nonneg hb.le hx.1, le hx.2⟩ ⟨mul_nonneg hb.le hy.1, le hy.2⟩ (lift hxy)) hc
  · intro x hx y hy hxy
    rw [e, e]
    exact mul_lt_mul_of_pos_left (L.anti ⟨ge hx.1, le hx.2⟩ ⟨ge hy.1, le hy.2⟩ (lift hxy)) hc
  · intro x hx y hy hxy
    rw [e, e]
    have one : ∀ {x : ℝ}, x < 1 / b → b * x < 1 := fun h => by rw [mul_comm]; exact (lt_div_iff₀ hb).1 h
    exact mul_lt_mul_of_pos_left (L.mono2 ⟨ge hx.1, one hx.2⟩ ⟨ge hy.1, one hy.2⟩ (lift hxy)) hc

/-- **C137** (isotherms without loop of the code; of mixtures too, whose `a` and `b` depend on the composition): every pressure has one density, which
both searches return. -/
theorem c137_supercritical (P vlo vhi : ℝ) (I : Iso ℝ) (hP : 0 < P) (h : a ≤ critT * (b * (R * T)))
    (E : Exact (pressureAB R T a b) (1 / b) vlo vhi P I)
    (hsee : ∀ ρ, 0 < ρ → ρ < 1 / b → pressureAB R T a b ρ = P → Seen vlo vhi ρ ∧ ρ < I.rhoMax ∧ ρ * (101 / 100) < 1 / b) :
    ∃ w, 0 < w ∧ w < 1 / b ∧ pressureAB R T a b w = P ∧ vaporDensity I = .ok (some w, 2) ∧ liquidDensity I = .ok (some w, 2) := by
  obtain ⟨w, ⟨h0, h1, h2⟩, -⟩ := c135_one_density R T a b P hRT hb h hP
  obtain ⟨k1, k2, k3⟩ := hsee w h0 h1 h2
  exact ⟨w, h0, h1, h2, c137_rising E w ((c135_monotone_iff R T a b hRT hb).2 h) k1 h2 k2 k3⟩

/-- **C137** (isotherms with a loop of the code): at every positive pressure other than those of the two ends of the fall the searches return what the shape of the
isotherm asks for, if the densities at a pressure are more than one percent apart. -/
theorem c137_subcritical_partial (P vlo vhi : ℝ) (I : Iso ℝ) (hP : 0 < P) (h : critT * (b * (R * T)) < a)
    (E : Exact (pressureAB R T a b) (1 / b) vlo vhi P I)
    (hsee : ∀ ρ, 0 < ρ → ρ < 1 / b → pressureAB R T a b ρ = P → Seen vlo vhi ρ ∧ ρ < I.rhoMax ∧ ρ * (101 / 100) < 1 / b)
    (hapart : ∀ ρ σ, 0 < ρ → ρ < σ → σ < 1 / b → pressureAB R T a b ρ = P → pressureAB R T a b σ = P →
      ρ * (101 / 100) < σ ∧ ρ < σ * (99 / 100)) :
    ∃ ρ₁ ρ₂, Looped (pressureAB R T a b) (1 / b) ρ₁ ρ₂ ∧ (Seen vlo vhi ρ₁ → Seen vlo vhi ρ₂ →
      (P < pressureAB R T a b ρ₂ → ∃ w, 0 < w ∧ w < ρ₁ ∧ pressureAB R T a b w = P ∧
        vaporDensity I = .ok (some w, 0) ∧ liquidDensity I = .ok (some w, 0)) ∧
      (pressureAB R T a b ρ₂ < P → P < pressureAB R T a b ρ₁ → ∃ x z, 0 < x ∧ x < ρ₁ ∧ ρ₂ < z ∧ z < 1 / b ∧
        pressureAB R T a b x = P ∧ pressureAB R T a b z = P ∧
        vaporDensity I = .ok (some x, 0) ∧ liquidDensity I = .ok (some z, 1)) ∧
      (pressureAB R T a b ρ₁ < P → ∃ w, ρ₂ < w ∧ w < 1 / b ∧ pressureAB R T a b w = P ∧
        vaporDensity I = .ok (some w, 1) ∧ liquidDensity I = .ok (some w, 1))) := by
  obtain ⟨ρ₁, ρ₂, L⟩ := pr_looped hRT hb h
  refine ⟨ρ₁, ρ₂, L, fun s1 s2 => ?_⟩
  set f := pressureAB R T a b with hf
  have hcont := pr_continuous R T a b hRT hb
  rw [← hf] at hcont
  have sub : ∀ x y, 0 ≤ x → y < 1 / b → Icc x y ⊆ Ico 0 (1 / b) := fun x y hx hy z hz => ⟨hx.trans hz.1, lt_of_le_of_lt hz.2 hy⟩
  have f0 : f 0 = 0 := by rw [hf, pr_zero]
  -- a density on the branch of the vapour, one on that of the liquid, one between
  have left : P < f ρ₁ → ∃ w, 0 < w ∧ w < ρ₁ ∧ f w = P := fun hk => by
    obtain ⟨w, hw, e⟩ := intermediate_value_Icc L.pos.le (hcont.mono (sub 0 ρ₁ le_rfl (L.lt.trans L.lt_max)))
      (show P ∈ Icc _ _ from ⟨by rw [f0]; exact hP.le, hk.le⟩)
    refine ⟨w, lt_of_le_of_ne hw.1 ?_, lt_of_le_of_ne hw.2 ?_, e⟩
    · rintro rfl; rw [f0] at e; exact hP.ne e
    · rintro rfl; exact hk.ne' e
  have right : f ρ₂ < P → ∃ w, ρ₂ < w ∧ w < 1 / b ∧ f w = P := fun hk => by
    obtain ⟨σ, hσ0, hσ1, hσ⟩ := pr_unbounded R T a b P ρ₂ hRT hb (L.pos.trans L.lt).le L.lt_max
    obtain ⟨w, hw, e⟩ := intermediate_value_Icc hσ0.le (hcont.mono (sub ρ₂ σ (L.pos.trans L.lt).le hσ1))
      (show P ∈ Icc _ _ from ⟨hk.le, hσ.le⟩)
    refine ⟨w, lt_of_le_of_ne hw.1 ?_, lt_of_le_of_lt hw.2 hσ1, e⟩
    rintro rfl; exact hk.ne e
  have mid : f ρ₂ < P → P < f ρ₁ → ∃ w, ρ₁ < w ∧ w < ρ₂ ∧ f w = P := fun hk hk' => by
    obtain ⟨w, hw, e⟩ := intermediate_value_Icc' L.lt.le (hcont.mono (sub ρ₁ ρ₂ L.pos.le L.lt_max))
      (show P ∈ Icc _ _ from ⟨hk.le, hk'.le⟩)
    refine ⟨w, lt_of_le_of_ne hw.1 ?_, lt_of_le_of_ne hw.2 ?_, e⟩
    · rintro rfl; exact hk'.ne' e
    · rintro rfl; exact hk.ne e
  refine ⟨fun k => ?_, fun k k' => ?_, fun k => ?_⟩
  · obtain ⟨w, w0, w1, e⟩ := left (k.trans (L.down ⟨le_rfl, L.lt.le⟩ ⟨L.lt.le, le_rfl⟩ L.lt))
    obtain ⟨g1, g2, g3⟩ := hsee w w0 (w1.trans (L.lt.trans L.lt_max)) e
    exact ⟨w, w0, w1, e, c137_light E L w s1 s2 g1 e k g2⟩
  · obtain ⟨x, x0, x1, ex⟩ := left k'
    obtain ⟨y, y1, y2, ey⟩ := mid k k'
    obtain ⟨z, z2, z1, ez⟩ := right k
    obtain ⟨a1, a2, a3⟩ := hsee x x0 (x1.trans (L.lt.trans L.lt_max)) ex
    obtain ⟨b1, b2, b3⟩ := hsee z ((x0.trans (x1.trans L.lt)).trans z2) z1 ez
    obtain ⟨-, -, r1, r2⟩ := c137_three_partial E L x y z a1 b1 x1 y1 y2 z2 ex ey ez
    exact ⟨x, z, x0, x1, z2, z1, ex, ez,
      r1 a2 (hapart x y x0 (x1.trans y1) (y2.trans L.lt_max) ex ey).1,
      r2 b3 (hapart y z (L.pos.trans y1) (y2.trans z2) z1 ey ez).2⟩
  · obtain ⟨w, w0, w1, e⟩ := right ((L.down ⟨le_rfl, L.lt.le⟩ ⟨L.lt.le, le_rfl⟩ L.lt).trans k)
    obtain ⟨g1, g2, g3⟩ := hsee w ((L.pos.trans L.lt).trans w0) w1 e
    exact ⟨w, w0, w1, e, c137_dense E L w s1 s2 g1 e k g3⟩

end Code

/-! ## A search with exact procedures -/

open Classical in
/-- An exact isotherm with given roots and extrema; the root finder prefers the root `c`. -/
noncomputable def isoOf (f : ℝ → ℝ) (P c rhoMax : ℝ) (roots extrema : List ℝ) : Iso ℝ where
  nanRoot := false
  roots := roots
  extrema := extrema
  spline := fun v => f (1 / v) - P
  endDensity := 0
  minP := 0
  firstP := 1
  vroot := 1
  rhoFirst := rhoMax
  rhoMax := rhoMax
  err := fun ρ => f ρ - P
  P := P
  feps := 0
  lsq := fun g _ _ => .ok g
  brentq := fun lo hi =>
    if lo ≤ c ∧ c ≤ hi then .ok c
    else if h : ∃ ρ, lo ≤ ρ ∧ ρ ≤ hi ∧ f ρ = P then .ok h.choose
    else .error .valueError

/-- Given all roots and extrema in the range, everything is exact. -/
theorem isoOf_all {f : ℝ → ℝ} {ρm P c rhoMax vlo vhi : ℝ} {roots extrema : List ℝ} (hcont : ContinuousOn f (Ico 0 ρm)) (hlo : 0 < vlo)
    (hlo' : 1 / vlo < ρm) (hr : roots.Pairwise (· < ·)) (hr' : ∀ r, r ∈ roots ↔ vlo ≤ r ∧ r ≤ vhi ∧ f (1 / r) = P) (he : extrema.Pairwise (· < ·))
    (he' : ∀ r, r ∈ extrema ↔ vlo ≤ r ∧ r ≤ vhi ∧ IsLocalExtr f (1 / r)) (hc : f c = P) (htop : rhoMax < ρm) :
    Exact f ρm vlo vhi P (isoOf f P c rhoMax roots extrema) := by
  refine ⟨⟨hlo, hlo'⟩, rfl, hr, hr', he, he', fun _ _ _ => rfl, fun _ _ _ => rfl, rfl, htop, ?_⟩
  intro lo hi h0 h1 h2 hs
  simp only [isoOf] at hs ⊢
  by_cases hm : lo ≤ c ∧ c ≤ hi
  · rw [if_pos hm]; exact ⟨c, rfl, hm.1, hm.2, by rw [hc, sub_self]⟩
  · have hex : ∃ ρ, lo ≤ ρ ∧ ρ ≤ hi ∧ f ρ = P := by
      have hcc : ContinuousOn f (Icc lo hi) := hcont.mono fun u hu => ⟨h0.le.trans hu.1, lt_of_le_of_lt hu.2 h2⟩
      rcases mul_neg_iff.1 hs with ⟨s1, s2⟩ | ⟨s1, s2⟩
      · obtain ⟨ρ, hρ, e⟩ := intermediate_value_Icc' h1.le hcc (show P ∈ Icc _ _ from ⟨by linarith, by linarith⟩)
        exact ⟨ρ, hρ.1, hρ.2, e⟩
      · obtain ⟨ρ, hρ, e⟩ := intermediate_value_Icc h1.le hcc (show P ∈ Icc _ _ from ⟨by linarith, by linarith⟩)
        exact ⟨ρ, hρ.1, hρ.2, e⟩
    rw [if_neg hm, dif_pos hex]
    exact ⟨hex.choose, rfl, hex.choose_spec.1, hex.choose_spec.2.1, by rw [hex.choose_spec.2.2, sub_self]⟩

/-- Three densities in the range of the spline. -/
theorem isoOf_exact {f : ℝ → ℝ} {ρm ρ₁ ρ₂ x y z P c rhoMax vlo vhi : ℝ} (L : Looped f ρm ρ₁ ρ₂) (hcont : ContinuousOn f (Ico 0 ρm))
    (hlo : 0 < vlo) (hlo' : 1 / vlo < ρm) (hsx : Seen vlo vhi x) (hsz : Seen vlo vhi z) (hxy : x < y) (hyz : y < z) (ex : f x = P) (ey : f y = P)
    (ez : f z = P) (hc : f c = P) (htop : rhoMax < ρm) :
    Exact f ρm vlo vhi P (isoOf f P c rhoMax [1 / z, 1 / y, 1 / x] [1 / ρ₂, 1 / ρ₁]) := by
  have hx := hsx.1
  have hinv : ∀ {ρ}, Seen vlo vhi ρ → ρ < ρm := fun {ρ} h => by
    have := one_div_le_one_div_of_le hlo h.2.1
    rw [one_div_one_div] at this
    exact lt_of_le_of_lt this hlo'
  have hz := hinv hsz
  obtain ⟨k1, k2, k3, k4⟩ := L.branches hx.le hxy hyz hz (ex.trans ey.symm) (ey.trans ez.symm)
  obtain ⟨g1, g2, g3, g4⟩ := L.signs hx k1 k2 k3 k4 hz (ex.trans ey.symm) (ey.trans ez.symm)
  rw [ex] at g1 g2 g3 g4
  have between : ∀ {ρ}, x ≤ ρ → ρ ≤ z → Seen vlo vhi ρ := fun {ρ} h h' =>
    ⟨lt_of_lt_of_le hx h, hsz.2.1.trans (one_div_le_one_div_of_le (lt_of_lt_of_le hx h) h'), (one_div_le_one_div_of_le hx h).trans hsx.2.2⟩
  have inv : ∀ {r}, vlo ≤ r → 0 < 1 / r ∧ 1 / r < ρm := fun {r} h =>
    ⟨one_div_pos.2 (by linarith), lt_of_le_of_lt (one_div_le_one_div_of_le hlo h) hlo'⟩
  have flip : ∀ {r ρ : ℝ}, 1 / r = ρ → r = 1 / ρ := fun h => by rw [← h, one_div_one_div]
  refine isoOf_all hcont hlo hlo' (pairwise_three (one_div_lt_one_div_of_lt (hx.trans hxy) hyz) (one_div_lt_one_div_of_lt hx hxy)) ?_ ?_ ?_ hc htop
  · intro r
    simp only [List.mem_cons, List.not_mem_nil, or_false]
    constructor
    · rintro (rfl | rfl | rfl)
      · exact ⟨hsz.2.1, hsz.2.2, by rwa [one_div_one_div]⟩
      · have := between hxy.le hyz.le
        exact ⟨this.2.1, this.2.2, by rwa [one_div_one_div]⟩
      · exact ⟨hsx.2.1, hsx.2.2, by rwa [one_div_one_div]⟩
    · rintro ⟨h1, h2, h3⟩
      obtain ⟨i0, i1⟩ := inv h1
      rcases lt_trichotomy (1 / r) x with h | h | h
      · exact absurd h3 (g1 _ i0.le h).ne
      · exact Or.inr (Or.inr (flip h))
      rcases lt_trichotomy (1 / r) y with h' | h' | h'
      · exact absurd h3 (g2 _ h h').ne'
      · exact Or.inr (Or.inl (flip h'))
      rcases lt_trichotomy (1 / r) z with h'' | h'' | h''
      · exact absurd h3 (g3 _ h' h'').ne
      · exact Or.inl (flip h'')
      · exact absurd h3 (g4 _ h'' i1).ne'
  · simp only [List.pairwise_cons, List.mem_singleton, forall_eq, List.not_mem_nil, false_implies, implies_true, List.Pairwise.nil, and_true]
    exact one_div_lt_one_div_of_lt L.pos L.lt
  · intro r
    simp only [List.mem_cons, List.not_mem_nil, or_false]
    constructor
    · rintro (rfl | rfl)
      · have := between (hxy.trans k3).le k4.le
        exact ⟨this.2.1, this.2.2, by rw [one_div_one_div]; exact (L.extr_iff _ this.1 L.lt_max).2 (Or.inr rfl)⟩
      · have := between k1.le (k2.trans hyz).le
        exact ⟨this.2.1, this.2.2, by rw [one_div_one_div]; exact (L.extr_iff _ this.1 (L.lt.trans L.lt_max)).2 (Or.inl rfl)⟩
    · rintro ⟨h1, h2, h3⟩
      obtain ⟨i0, i1⟩ := inv h1
      rcases (L.extr_iff _ i0 i1).1 h3 with h | h
      · exact Or.inr (flip h)
      · exact Or.inl (flip h)

/-- One density, on an isotherm without loop. -/
theorem isoOf_rising {f : ℝ → ℝ} {ρm w P rhoMax vlo vhi : ℝ} (hup : StrictMonoOn f (Ico 0 ρm)) (hcont : ContinuousOn f (Ico 0 ρm))
    (hlo : 0 < vlo) (hlo' : 1 / vlo < ρm) (hs : Seen vlo vhi w) (hw : f w = P) (htop : rhoMax < ρm) :
    Exact f ρm vlo vhi P (isoOf f P w rhoMax [1 / w] []) := by
  have inv : ∀ {r}, vlo ≤ r → 0 < 1 / r ∧ 1 / r < ρm := fun {r} h =>
    ⟨one_div_pos.2 (by linarith), lt_of_le_of_lt (one_div_le_one_div_of_le hlo h) hlo'⟩
  have hwm : w < ρm := by have := (inv hs.2.1).2; rwa [one_div_one_div] at this
  refine isoOf_all hcont hlo hlo' (by simp) (fun r => ?_) (by simp) (fun r => ?_) hw htop
  · simp only [List.mem_singleton]
    constructor
    · rintro rfl; exact ⟨hs.2.1, hs.2.2, by rwa [one_div_one_div]⟩
    · rintro ⟨h1, -, h3⟩
      rw [← hup.injOn ⟨(inv h1).1.le, (inv h1).2⟩ ⟨hs.1.le, hwm⟩ (h3.trans hw.symm), one_div_one_div]
  · simp only [List.not_mem_nil, false_iff]
    rintro ⟨h1, -, h3⟩
    exact not_extr_of_mono hup (Ico_mem_nhds (inv h1).1 (inv h1).2) h3

/-- One density, on an isotherm with a loop. -/
theorem isoOf_one {f : ℝ → ℝ} {ρm ρ₁ ρ₂ w P rhoMax vlo vhi : ℝ} (L : Looped f ρm ρ₁ ρ₂) (hcont : ContinuousOn f (Ico 0 ρm))
    (hlo : 0 < vlo) (hlo' : 1 / vlo < ρm) (h1 : Seen vlo vhi ρ₁) (h2 : Seen vlo vhi ρ₂) (hs : Seen vlo vhi w) (hw : f w = P)
    (honly : ∀ ρ, 0 < ρ → ρ < ρm → f ρ = P → ρ = w) (htop : rhoMax < ρm) :
    Exact f ρm vlo vhi P (isoOf f P w rhoMax [1 / w] [1 / ρ₂, 1 / ρ₁]) := by
  have inv : ∀ {r}, vlo ≤ r → 0 < 1 / r ∧ 1 / r < ρm := fun {r} h =>
    ⟨one_div_pos.2 (by linarith), lt_of_le_of_lt (one_div_le_one_div_of_le hlo h) hlo'⟩
  have flip : ∀ {r ρ : ℝ}, 1 / r = ρ → r = 1 / ρ := fun h => by rw [← h, one_div_one_div]
  refine isoOf_all hcont hlo hlo' (by simp) (fun r => ?_) ?_ (fun r => ?_) hw htop
  · simp only [List.mem_singleton]
    constructor
    · rintro rfl; exact ⟨hs.2.1, hs.2.2, by rwa [one_div_one_div]⟩
    · rintro ⟨a, -, e⟩
      exact flip (honly _ (inv a).1 (inv a).2 e)
  · simp only [List.pairwise_cons, List.mem_singleton, forall_eq, List.not_mem_nil, false_implies, implies_true, List.Pairwise.nil, and_true]
    exact one_div_lt_one_div_of_lt L.pos L.lt
  · simp only [List.mem_cons, List.not_mem_nil, or_false]
    constructor
    · rintro (rfl | rfl)
      · exact ⟨h2.2.1, h2.2.2, by rw [one_div_one_div]; exact (L.extr_iff _ h2.1 L.lt_max).2 (Or.inr rfl)⟩
      · exact ⟨h1.2.1, h1.2.2, by rw [one_div_one_div]; exact (L.extr_iff _ h1.1 (L.lt.trans L.lt_max)).2 (Or.inl rfl)⟩
    · rintro ⟨a, -, e⟩
      rcases (L.extr_iff _ (inv a).1 (inv a).2).1 e with h | h
      · exact Or.inr (flip h)
      · exact Or.inl (flip h)

theorem unit_pressure (t u : ℝ) : pressureAB 1 1 t 1 u = reducedP t u := by
  rw [reducedP_eq 1 1 t 1 u (by norm_num) one_pos]; simp

/-- Attraction 8 at pressure 1/50: the vapour and the liquid are found. -/
theorem c137_example : ∃ (I : Iso ℝ) (x z : ℝ), Exact (pressureAB 1 1 8 1) (1 / 1) (100 / 99) 1000 (1 / 50) I ∧ x < 1 / 20 ∧ 1 / 2 < z ∧
    pressureAB 1 1 8 1 x = 1 / 50 ∧ pressureAB 1 1 8 1 z = 1 / 50 ∧
    vaporDensity I = .ok (some x, 0) ∧ liquidDensity I = .ok (some z, 1) := by
  have hRT : (0 : ℝ) < 1 * 1 := by norm_num
  obtain ⟨ρ₁, ρ₂, L⟩ := pr_looped (R := 1) (T := 1) (a := 8) (b := 1) hRT one_pos (by linarith [critT_bounds.2])
  have hcont := pr_continuous 1 1 8 1 hRT one_pos
  set f := pressureAB 1 1 8 1 with hf
  have sub : ∀ x y : ℝ, 0 ≤ x → y < 1 → Icc x y ⊆ Ico 0 (1 / 1) := fun x y hx hy z hz => ⟨hx.trans hz.1, by rw [div_one]; exact lt_of_le_of_lt hz.2 hy⟩
  have v0 : f (1 / 100) < 1 / 50 := by rw [hf]; unfold pressureAB; norm_num
  have v1 : 1 / 50 < f (1 / 20) := by rw [hf]; unfold pressureAB; norm_num
  have v2 : 1 / 50 < f (1 / 10) := by rw [hf]; unfold pressureAB; norm_num
  have v3 : f (3 / 10) < 1 / 50 := by rw [hf]; unfold pressureAB; norm_num
  have v4 : f (1 / 2) < 1 / 50 := by rw [hf]; unfold pressureAB; norm_num
  have v5 : 1 / 50 < f (7 / 10) := by rw [hf]; unfold pressureAB; norm_num
  obtain ⟨x, hx, ex⟩ := intermediate_value_Icc (by norm_num) (hcont.mono (sub (1 / 100) (1 / 20) (by norm_num) (by norm_num)))
    (show (1 / 50 : ℝ) ∈ Icc _ _ from ⟨v0.le, v1.le⟩)
  obtain ⟨y, hy, ey⟩ := intermediate_value_Icc' (by norm_num) (hcont.mono (sub (1 / 10) (3 / 10) (by norm_num) (by norm_num)))
    (show (1 / 50 : ℝ) ∈ Icc _ _ from ⟨v3.le, v2.le⟩)
  obtain ⟨z, hz, ez⟩ := intermediate_value_Icc (by norm_num) (hcont.mono (sub (1 / 2) (7 / 10) (by norm_num) (by norm_num)))
    (show (1 / 50 : ℝ) ∈ Icc _ _ from ⟨v4.le, v5.le⟩)
  have x0 : 0 < x := by linarith [hx.1]
  have z0 : 0 < z := by linarith [hz.1]
  have seen : ∀ {ρ : ℝ}, 1 / 100 ≤ ρ → ρ ≤ 7 / 10 → Seen (100 / 99) 1000 ρ := fun {ρ} h h' => by
    have h0 : 0 < ρ := by linarith
    refine ⟨h0, ?_, ?_⟩
    · rw [le_div_iff₀ h0]; linarith
    · rw [div_le_iff₀ h0]; linarith
  have sx := seen hx.1 (by linarith [hx.2])
  have sz := seen (by linarith [hz.1]) hz.2
  have hxy : x < y := by linarith [hx.2, hy.1]
  have hyz : y < z := by linarith [hy.2, hz.1]
  have E := isoOf_exact (c := x) (rhoMax := 99 / 100) (vlo := 100 / 99) L hcont (by norm_num) (by norm_num) sx sz hxy hyz ex ey ez ex (by norm_num)
  obtain ⟨k1, k2, k3, k4⟩ := L.branches x0.le hxy hyz (E.seen_lt sz) (ex.trans ey.symm) (ey.trans ez.symm)
  obtain ⟨-, -, r1, r2⟩ := c137_three_partial E L x y z sx sz k1 k2 k3 k4 ex ey ez
  have hxne : x ≠ 1 / 20 := by rintro rfl; exact v1.ne' ex
  have hzne : z ≠ 1 / 2 := by rintro rfl; exact v4.ne ez
  exact ⟨_, x, z, E, lt_of_le_of_ne hx.2 hxne, lt_of_le_of_ne hz.1 hzne.symm, ex, ez,
    r1 (by change x < 99 / 100; linarith [hx.2]) (by linarith [hx.2, hy.1]),
    r2 (by linarith [hz.2]) (by linarith [hy.2, hz.1])⟩

/-- Attraction 5 has no loop: at the pressure of density 1/2 both searches return it. -/
example : ∃ I : Iso ℝ, Exact (pressureAB 1 1 5 1) (1 / 1) (100 / 99) 1000 (pressureAB 1 1 5 1 (1 / 2)) I ∧
    vaporDensity I = .ok (some (1 / 2), 2) ∧ liquidDensity I = .ok (some (1 / 2), 2) := by
  have hRT : (0 : ℝ) < 1 * 1 := by norm_num
  have hup := (c135_monotone_iff 1 1 5 1 hRT one_pos).2 (by linarith [critT_bounds.1])
  have hs : Seen (100 / 99) 1000 (1 / 2) := ⟨by norm_num, by norm_num, by norm_num⟩
  have E := isoOf_rising (rhoMax := 99 / 100) hup (pr_continuous 1 1 5 1 hRT one_pos) (by norm_num) (by norm_num) hs rfl (by norm_num)
  exact ⟨_, E, c137_rising E _ hup hs rfl (by change (1 / 2 : ℝ) < 99 / 100; norm_num) (by norm_num)⟩

/-- Attraction 6 has a loop; at the pressure of density 1/20 there is only a vapour, at that of density 9/10 only a liquid. -/
example : (∃ (I : Iso ℝ) (vlo vhi : ℝ), Exact (pressureAB 1 1 6 1) (1 / 1) vlo vhi (pressureAB 1 1 6 1 (1 / 20)) I ∧
      vaporDensity I = .ok (some (1 / 20), 0) ∧ liquidDensity I = .ok (some (1 / 20), 0)) ∧
    ∃ (I : Iso ℝ) (vlo vhi : ℝ), Exact (pressureAB 1 1 6 1) (1 / 1) vlo vhi (pressureAB 1 1 6 1 (9 / 10)) I ∧
      vaporDensity I = .ok (some (9 / 10), 1) ∧ liquidDensity I = .ok (some (9 / 10), 1) := by
  have hRT : (0 : ℝ) < 1 * 1 := by norm_num
  obtain ⟨ρ₁, ρ₂, L⟩ := pr_looped (R := 1) (T := 1) (a := 6) (b := 1) hRT one_pos (by linarith [critT_bounds.2])
  have hcont := pr_continuous 1 1 6 1 hRT one_pos
  have key : ∀ u w : ℝ, 0 ≤ u → u < 1 → 0 ≤ w → w < 1 → pressureAB 1 1 6 1 u - pressureAB 1 1 6 1 w =
      (u - w) * ((1 + 2 * u - u ^ 2) * (1 + 2 * w - w ^ 2) - 6 * (u + w + 2 * u * w) * ((1 - u) * (1 - w))) /
        ((1 - u) * (1 - w) * ((1 + 2 * u - u ^ 2) * (1 + 2 * w - w ^ 2))) := by
    intro u w hu hu1 hw hw1
    rw [unit_pressure, unit_pressure]
    unfold reducedP
    have d1 := (pr_den u hu hu1).ne'
    have d2 := (pr_den w hw hw1).ne'
    have d3 : 1 - u ≠ 0 := by linarith
    have d4 : 1 - w ≠ 0 := by linarith
    rw [eq_div_iff (by positivity)]
    generalize hA : 1 + 2 * u - u ^ 2 = A at *
    generalize hB : 1 + 2 * w - w ^ 2 = B at *
    generalize hC : 1 - u = C at *
    generalize hD : 1 - w = D at *
    field_simp
    subst hA hB hC hD
    ring
  have hvlo : ∃ vlo : ℝ, 0 < vlo ∧ 1 / vlo < 1 ∧ ρ₂ ≤ 1 / vlo ∧ 9 / 10 ≤ 1 / vlo := by
    have h2 : ρ₂ < 1 := by have := L.lt_max; rwa [div_one] at this
    obtain ⟨m, hm, hm1⟩ := exists_between (max_lt h2 (show (9 / 10 : ℝ) < 1 by norm_num))
    have a1 := lt_of_le_of_lt (le_max_left _ _) hm
    have a2 := lt_of_le_of_lt (le_max_right _ _) hm
    exact ⟨1 / m, by have : 0 < m := by linarith
                     positivity, by rwa [one_div_one_div], by rw [one_div_one_div]; exact a1.le, by rw [one_div_one_div]; exact a2.le⟩
  obtain ⟨vlo, v0, v1, v2, v3⟩ := hvlo
  set vhi := max 20 (1 / ρ₁) with hvhi
  have see : ∀ {ρ : ℝ}, 0 < ρ → ρ ≤ 1 / vlo → 1 / ρ ≤ vhi → Seen vlo vhi ρ := fun {ρ} h0 h h' => by
    refine ⟨h0, ?_, h'⟩
    have := one_div_le_one_div_of_le h0 h
    rwa [one_div_one_div] at this
  have s1 : Seen vlo vhi ρ₁ := see L.pos (L.lt.le.trans v2) (le_max_right _ _)
  have s2 : Seen vlo vhi ρ₂ := see (L.pos.trans L.lt) v2 ((one_div_le_one_div_of_le L.pos L.lt.le).trans (le_max_right _ _))
  have s3 : Seen vlo vhi (1 / 20) := see (by norm_num) (by linarith) (by rw [one_div_one_div]; exact le_max_left _ _)
  have s4 : Seen vlo vhi (9 / 10) := see (by norm_num) v3 (le_trans (by norm_num) (le_max_left _ _))
  have hm : ∀ {ρ : ℝ}, ρ < 1 / 1 → ρ < 1 := fun h => by rwa [div_one] at h
  have pos : ∀ u w : ℝ, (w = 1 / 20 ∨ w = 9 / 10) → 0 ≤ u → u < 1 →
      0 < (1 + 2 * u - u ^ 2) * (1 + 2 * w - w ^ 2) - 6 * (u + w + 2 * u * w) * ((1 - u) * (1 - w)) := by
    rintro u w (rfl | rfl) h0 h1
    · nlinarith [sq_nonneg (u - 2 / 5), sq_nonneg u]
    · nlinarith [sq_nonneg (u - 2 / 5), sq_nonneg u]
  have rise : ∀ u w : ℝ, (w = 1 / 20 ∨ w = 9 / 10) → 0 ≤ u → u < 1 → (u < w → pressureAB 1 1 6 1 u < pressureAB 1 1 6 1 w) ∧
      (w < u → pressureAB 1 1 6 1 w < pressureAB 1 1 6 1 u) := by
    intro u w hw h0 h1
    have w0 : 0 ≤ w := by rcases hw with rfl | rfl <;> norm_num
    have w1 : w < 1 := by rcases hw with rfl | rfl <;> norm_num
    have e := key u w h0 h1 w0 w1
    have p := pos u w hw h0 h1
    have d1 := pr_den u h0 h1
    have d2 := pr_den w w0 w1
    have d3 : 0 < 1 - u := by linarith
    have d4 : 0 < 1 - w := by linarith
    constructor <;> intro h
    · have : pressureAB 1 1 6 1 u - pressureAB 1 1 6 1 w < 0 := by
        rw [e]; exact div_neg_of_neg_of_pos (mul_neg_of_neg_of_pos (by linarith) p) (by positivity)
      linarith
    · have : 0 < pressureAB 1 1 6 1 u - pressureAB 1 1 6 1 w := by
        rw [e]; exact div_pos (mul_pos (by linarith) p) (by positivity)
      linarith
  have only : ∀ w : ℝ, (w = 1 / 20 ∨ w = 9 / 10) → ∀ ρ, 0 < ρ → ρ < 1 / 1 → pressureAB 1 1 6 1 ρ = pressureAB 1 1 6 1 w → ρ = w := by
    intro w hw ρ h0 h1 h
    obtain ⟨a1, a2⟩ := rise ρ w hw h0.le (hm h1)
    rcases lt_trichotomy ρ w with k | k | k
    · exact absurd h (a1 k).ne
    · exact k
    · exact absurd h (a2 k).ne'
  have ends : 1 / 20 < ρ₂ ∧ ρ₁ < 9 / 10 := by
    constructor
    · by_contra hc
      rw [not_lt] at hc
      have r1 := (rise ρ₁ (1 / 20) (Or.inl rfl) L.pos.le (hm (L.lt.trans L.lt_max))).1 (lt_of_lt_of_le L.lt hc)
      have : pressureAB 1 1 6 1 (1 / 20) < pressureAB 1 1 6 1 (1 / 10) := (rise (1 / 10) (1 / 20) (Or.inl rfl) (by norm_num) (by norm_num)).2 (by norm_num)
      rcases hc.eq_or_lt with e | e
      · have := L.down ⟨le_rfl, L.lt.le⟩ ⟨L.lt.le, le_rfl⟩ L.lt
        rw [e] at this; linarith
      · have hd := L.down.antitoneOn ⟨le_rfl, L.lt.le⟩ ⟨L.lt.le, le_rfl⟩ L.lt.le
        have z0 : pressureAB 1 1 6 1 ρ₁ - pressureAB 1 1 6 1 ρ₂ ≤ 0 := by
          rw [key ρ₁ ρ₂ L.pos.le (hm (L.lt.trans L.lt_max)) (L.pos.trans L.lt).le (hm L.lt_max)]
          have d1 := pr_den ρ₁ L.pos.le (hm (L.lt.trans L.lt_max))
          have d2 := pr_den ρ₂ (L.pos.trans L.lt).le (hm L.lt_max)
          have d3 : 0 < 1 - ρ₁ := by linarith [hm (L.lt.trans L.lt_max)]
          have d4 : 0 < 1 - ρ₂ := by linarith [hm L.lt_max]
          refine div_nonpos_of_nonpos_of_nonneg (mul_nonpos_of_nonpos_of_nonneg (by linarith [L.lt]) ?_) (by positivity)
          have q1 : ρ₁ ≤ 1 / 20 := by linarith [L.lt]
          have q0 := L.pos
          have q2 : 0 < ρ₂ := L.pos.trans L.lt
          have c1 : (1 - ρ₁) * (1 - ρ₂) ≤ 1 := by nlinarith
          have c2 : 0 ≤ (1 - ρ₁) * (1 - ρ₂) := by positivity
          have c3 : 6 * (ρ₁ + ρ₂ + 2 * ρ₁ * ρ₂) ≤ 7 / 10 := by nlinarith
          have c4 : 6 * (ρ₁ + ρ₂ + 2 * ρ₁ * ρ₂) * ((1 - ρ₁) * (1 - ρ₂)) ≤ 7 / 10 * 1 :=
            mul_le_mul c3 c1 c2 (by norm_num)
          have c5 : 1 ≤ 1 + 2 * ρ₁ - ρ₁ ^ 2 := by nlinarith
          have c6 : 1 ≤ 1 + 2 * ρ₂ - ρ₂ ^ 2 := by nlinarith
          nlinarith
        have := L.down ⟨le_rfl, L.lt.le⟩ ⟨L.lt.le, le_rfl⟩ L.lt
        linarith
    · by_contra hc
      rw [not_lt] at hc
      have lt := L.up ⟨by norm_num, (by norm_num : (24 / 100 : ℝ) ≤ 9 / 10).trans hc⟩ ⟨by norm_num, (by norm_num : (27 / 100 : ℝ) ≤ 9 / 10).trans hc⟩
        (by norm_num : (24 / 100 : ℝ) < 27 / 100)
      norm_num [pressureAB] at lt
  constructor
  · have E := isoOf_one (rhoMax := 99 / 100) L hcont v0 (by rwa [div_one]) s1 s2 s3 rfl (only _ (Or.inl rfl)) (by norm_num)
    exact ⟨_, vlo, vhi, E, c137_light E L _ s1 s2 s3 rfl
      ((rise ρ₂ (1 / 20) (Or.inl rfl) s2.1.le (hm L.lt_max)).2 ends.1) (by change (1 / 20 : ℝ) < 99 / 100; norm_num)⟩
  · have E := isoOf_one (rhoMax := 99 / 100) L hcont v0 (by rwa [div_one]) s1 s2 s4 rfl (only _ (Or.inr rfl)) (by norm_num)
    exact ⟨_, vlo, vhi, E, c137_dense E L _ s1 s2 s4 rfl
      ((rise ρ₁ (9 / 10) (Or.inr rfl) s1.1.le (hm (L.lt.trans L.lt_max))).1 ends.2) (by norm_num)⟩

/-- **C137** is violated close to the critical point: all three densities can lie within one percent, and then the root finder may return the middle one, at which the pressure falls with
the density, as the vapour and as the liquid. -/
theorem c137_violated_near_critical : ∃ (t P vlo vhi c : ℝ) (I : Iso ℝ), critT < t ∧ 0 < P ∧ Exact (pressureAB 1 1 t 1) (1 / 1) vlo vhi P I ∧
    vaporDensity I = .ok (some c, 0) ∧ liquidDensity I = .ok (some c, 1) ∧ deriv (pressureAB 1 1 t 1) c < 0 := by
  set c := critU with hcdef
  have c0 : 253 / 1000 < c := lt_trans (by norm_num) critU_spec.1
  have c1 : c < 254 / 1000 := lt_trans critU_spec.2.1 (by norm_num)
  have hct : ∀ u, Continuous fun t => reducedP t u := fun u => by unfold reducedP; fun_prop
  have hm := reducedP_strictMono critT le_rfl
  have m1 : reducedP critT (c * (999 / 1000)) < reducedP critT c := hm ⟨by linarith, by linarith⟩ ⟨by linarith, by linarith⟩ (by linarith)
  have m2 : reducedP critT c < reducedP critT (c * (1001 / 1000)) := hm ⟨by linarith, by linarith⟩ ⟨by linarith, by linarith⟩ (by linarith)
  have m3 : 0 < reducedP critT c := by
    have : reducedP critT 0 < reducedP critT c := hm ⟨le_rfl, by norm_num⟩ ⟨by linarith, by linarith⟩ (by linarith)
    simpa [reducedP] using this
  have ev : ∀ᶠ t in nhdsWithin critT (Ioi critT), (reducedP t (c * (999 / 1000)) < reducedP t c ∧ reducedP t c < reducedP t (c * (1001 / 1000)) ∧
      0 < reducedP t c) ∧ critT < t := by
    refine Filter.Eventually.and (Filter.Eventually.filter_mono nhdsWithin_le_nhds ?_) self_mem_nhdsWithin
    refine Filter.Eventually.and ?_ (Filter.Eventually.and ?_ ?_)
    · exact (hct _).continuousAt.eventually_lt (hct _).continuousAt m1
    · exact (hct _).continuousAt.eventually_lt (hct _).continuousAt m2
    · exact continuousAt_const.eventually_lt (hct _).continuousAt m3
  obtain ⟨t, ⟨h1, h2, h3⟩, ht⟩ := ev.exists
  have hRT : (0 : ℝ) < 1 * 1 := by norm_num
  obtain ⟨ρ₁, ρ₂, L⟩ := pr_looped (R := 1) (T := 1) (a := t) (b := 1) hRT one_pos (by linarith)
  have hcont := pr_continuous 1 1 t 1 hRT one_pos
  set f := pressureAB 1 1 t 1 with hf
  have fr : ∀ u, f u = reducedP t u := fun u => unit_pressure t u
  rw [← fr, ← fr] at h1 h2
  rw [← fr] at h3
  have hneg : slopeNum t c < 0 := by
    rw [hcdef, slopeNum_spinT t _ critU_pos critU_lt]
    exact mul_neg_of_pos_of_neg (critE_pos _ critU_pos critU_lt) (by change critT - t < 0; linarith)
  have hder : deriv f c < 0 := by
    rw [show f = reducedP t from funext fr, (reducedP_deriv t c (by linarith) (by linarith)).deriv]
    exact div_neg_of_neg_of_pos hneg (slope_den c (by linarith) (by linarith))
  -- the middle density is inside the fall
  have dneg : ∀ s : Set ℝ, StrictMonoOn f s → s ∈ nhds c → False := fun s hs hn => by
    have h4 : 0 ≤ derivWithin f s c := hs.monotoneOn.derivWithin_nonneg
    rw [derivWithin_of_mem_nhds hn] at h4
    linarith
  have nole : ρ₁ ≤ c ∧ c ≤ ρ₂ := by
    constructor
    · by_contra hc; rw [not_le] at hc
      exact dneg _ L.up (Icc_mem_nhds (by linarith) hc)
    · by_contra hc; rw [not_le] at hc
      exact dneg _ L.up' (Ico_mem_nhds hc (by rw [div_one]; linarith))
  have ne1 : ρ₁ ≠ c := fun e => by
    have := (L.extr_iff c (by linarith) (by rw [div_one]; linarith)).2 (Or.inl e.symm)
    exact hder.ne this.deriv_eq_zero
  have ne2 : c ≠ ρ₂ := fun e => by
    have := (L.extr_iff c (by linarith) (by rw [div_one]; linarith)).2 (Or.inr e)
    exact hder.ne this.deriv_eq_zero
  have k1 : ρ₁ < c := lt_of_le_of_ne nole.1 ne1
  have k2 : c < ρ₂ := lt_of_le_of_ne nole.2 ne2
  have n1 : c * (999 / 1000) < ρ₁ := by
    by_contra hc; rw [not_lt] at hc
    exact absurd h1 (not_lt.2 (L.down.antitoneOn ⟨hc, by linarith⟩ ⟨k1.le, k2.le⟩ (by linarith)))
  have n2 : ρ₂ < c * (1001 / 1000) := by
    by_contra hc; rw [not_lt] at hc
    exact absurd h2 (not_lt.2 (L.down.antitoneOn ⟨k1.le, k2.le⟩ ⟨by linarith, hc⟩ (by linarith)))
  have sub : ∀ x y : ℝ, 0 ≤ x → y < 1 → Icc x y ⊆ Ico 0 (1 / 1) := fun x y hx hy z hz => ⟨hx.trans hz.1, by rw [div_one]; exact lt_of_le_of_lt hz.2 hy⟩
  have f1 : f c < f ρ₁ := L.down ⟨le_rfl, L.lt.le⟩ ⟨k1.le, k2.le⟩ k1
  have f2 : f ρ₂ < f c := L.down ⟨k1.le, k2.le⟩ ⟨L.lt.le, le_rfl⟩ k2
  obtain ⟨x, hx, ex⟩ := intermediate_value_Icc n1.le (hcont.mono (sub _ _ (by linarith) (by linarith)))
    (show f c ∈ Icc _ _ from ⟨h1.le, f1.le⟩)
  obtain ⟨z, hz, ez⟩ := intermediate_value_Icc n2.le (hcont.mono (sub _ _ (by linarith [L.pos, L.lt]) (by linarith)))
    (show f c ∈ Icc _ _ from ⟨f2.le, h2.le⟩)
  have x0 : 0 < x := by linarith [hx.1]
  have z0 : 0 < z := by linarith [hz.1]
  have hxc : x < c := lt_of_le_of_lt hx.2 k1
  have hcz : c < z := lt_of_lt_of_le k2 hz.1
  have seen : ∀ {ρ : ℝ}, 1 / 10 ≤ ρ → ρ ≤ 1 / 2 → Seen 2 10 ρ := fun {ρ} h h' => by
    have h0 : 0 < ρ := by linarith
    exact ⟨h0, by rw [le_div_iff₀ h0]; linarith, by rw [div_le_iff₀ h0]; linarith⟩
  have sx := seen (ρ := x) (by linarith [hx.1]) (by linarith)
  have sz := seen (ρ := z) (by linarith) (by linarith [hz.2])
  have E := isoOf_exact (c := c) (rhoMax := 99 / 100) (vlo := 2) L hcont (by norm_num) (by norm_num) sx sz hxc hcz ex rfl ez rfl (by norm_num)
  obtain ⟨b1, b2, b3, b4⟩ := L.branches x0.le hxc hcz (E.seen_lt sz) ex ez.symm
  obtain ⟨g1, g2, g3, g4⟩ := L.signs x0 b1 b2 b3 b4 (E.seen_lt sz) ex ez.symm
  rw [ex] at g1 g2 g3 g4
  obtain ⟨s1, s2, -⟩ := c137_three_partial E L x c z sx sz b1 b2 b3 b4 ex rfl ez
  refine ⟨t, f c, 2, 10, c, _, ht, h3, E, ?_, ?_, hder⟩
  · rw [(c33_refined_iff _ x 0 false).1 s1]
    have a1 : f (x * (99 / 100)) < f c := g1 _ (by linarith) (by linarith)
    have a2 : f c < f (x * (101 / 100)) := g4 _ (by linarith [hx.1, hz.2]) (by rw [div_one]; linarith)
    have hmul : (f (x * (99 / 100)) - f c) * (f (x * (101 / 100)) - f c) < 0 := mul_neg_of_neg_of_pos (by linarith) (by linarith)
    have hnot : ¬ (99 / 100 : ℝ) < x * (101 / 100) := by linarith
    have hin : x * (99 / 100) ≤ c ∧ c ≤ x * (101 / 100) := ⟨by linarith, by linarith [hx.1]⟩
    have hr : vaporRefine (isoOf f (f c) c (99 / 100) [1 / z, 1 / c, 1 / x] [1 / ρ₂, 1 / ρ₁]) false x = .ok c := by
      simp only [vaporRefine, isoOf, hnot, if_false]
      rw [if_pos hmul, if_pos hin]
    rw [hr]; rfl
  · rw [(c33_refined_iff _ z 1 false).2 s2]
    have a1 : f (z * (99 / 100)) < f c := g1 _ (by linarith) (by linarith [hx.1, hz.2])
    have a2 : f c < f (z * (101 / 100)) := g4 _ (by linarith) (by rw [div_one]; linarith [hz.2])
    have hmul : (f (z * (99 / 100)) - f c) * (f (z * (101 / 100)) - f c) < 0 := mul_neg_of_neg_of_pos (by linarith) (by linarith)
    have hin : z * (99 / 100) ≤ c ∧ c ≤ z * (101 / 100) := ⟨by linarith [hz.2], by linarith⟩
    have hr : liquidRefine (isoOf f (f c) c (99 / 100) [1 / z, 1 / c, 1 / x] [1 / ρ₂, 1 / ρ₁]) false z = .ok c := by
      simp only [liquidRefine, isoOf, hmul, if_true]
      rw [if_pos hin]
    rw [hr]; rfl

/-! ## Which of the two phases is stable -/

/-- **C137** (stability): of the vapour and the liquid of a pure substance at one pressure the vapour has the lower fugacity coefficient exactly below the saturation pressure. -/
theorem c137_stable {R T : ℝ} {q : Par 1} (hRT : 0 < R * T) (hb : 0 < q.bi 0) (ha : 0 < q.ai 0 * q.alpha 0) (hk : q.kij 0 0 = 0) (s : ℝ × ℝ)
    (hs : Saturated R T q s) (P x y z : ℝ) (h : Three R T q P x y z) :
    (P < pressure R T q (fun _ => 1) s.1 ↔ phi R T q (fun _ => 1) P x 0 < phi R T q (fun _ => 1) P z 0) ∧
      (pressure R T q (fun _ => 1) s.1 < P ↔ phi R T q (fun _ => 1) P z 0 < phi R T q (fun _ => 1) P x 0) := by
  obtain ⟨y', h'⟩ := saturated_three hRT hb ha hk s hs
  set Ps := pressure R T q (fun _ => 1) s.1 with hPs
  have hcrit : critT * (q.bi 0 * (R * T)) < q.ai 0 * q.alpha 0 := by
    by_contra hc
    exact c136_none hRT hb ha hk (not_lt.1 hc) s hs
  obtain ⟨hbm, ham⟩ := pure_mix q ha hk
  obtain ⟨ρ₁, ρ₂, L⟩ := pr_looped hRT hb hcrit
  have hL : StrictAntiOn (pressure R T q (fun _ => 1)) (Icc ρ₁ ρ₂) := by
    have : pressure R T q (fun _ => 1) = pressureAB R T (q.ai 0 * q.alpha 0) (q.bi 0) := by
      funext ρ; unfold pressure; rw [hbm, ham]
    rw [this]; exact L.down
  have hz : lnPhi R T q (fun _ => 1) Ps s.2 0 - lnPhi R T q (fun _ => 1) Ps s.1 0 = 0 := by
    obtain ⟨-, -, -, -, e1, e2⟩ := hs
    rw [← e1] at e2
    unfold phi at e2
    rw [Real.exp_eq_exp] at e2
    rw [hPs, e2, sub_self]
  have hpos : 0 < 1 / ρ₁ - 1 / ρ₂ := sub_pos.2 (one_div_lt_one_div_of_lt L.pos L.lt)
  have lo : P < Ps → lnPhi R T q (fun _ => 1) P x 0 < lnPhi R T q (fun _ => 1) P z 0 := fun hlt => by
    have := c136_falls hRT hb ha hk P x y z Ps s.1 y' s.2 ρ₁ ρ₂ h h' hlt.le L.pos L.lt L.lt_max hL
    rw [hz, sub_zero] at this
    have h2 := lt_of_lt_of_le (mul_pos (sub_pos.2 hlt) hpos) this
    have := (mul_pos_iff_of_pos_left hRT).1 h2
    linarith
  have hi : Ps < P → lnPhi R T q (fun _ => 1) P z 0 < lnPhi R T q (fun _ => 1) P x 0 := fun hlt => by
    have := c136_falls hRT hb ha hk Ps s.1 y' s.2 P x y z ρ₁ ρ₂ h' h hlt.le L.pos L.lt L.lt_max hL
    rw [hz, zero_sub] at this
    have h2 := lt_of_lt_of_le (mul_pos (sub_pos.2 hlt) hpos) this
    have := (mul_pos_iff_of_pos_left hRT).1 h2
    linarith
  have eq : P = Ps → lnPhi R T q (fun _ => 1) P z 0 = lnPhi R T q (fun _ => 1) P x 0 := fun e => by
    have l1 := c136_falls hRT hb ha hk P x y z Ps s.1 y' s.2 ρ₁ ρ₂ h h' e.le L.pos L.lt L.lt_max hL
    have l2 := c136_falls hRT hb ha hk Ps s.1 y' s.2 P x y z ρ₁ ρ₂ h' h e.ge L.pos L.lt L.lt_max hL
    rw [hz, e, sub_self, zero_mul] at l1 l2
    rw [sub_zero] at l1
    rw [zero_sub] at l2
    have a1 := nonneg_of_mul_nonneg_right l1 hRT
    have a2 := nonneg_of_mul_nonneg_right l2 hRT
    rw [e]; linarith
  unfold phi
  rw [Real.exp_lt_exp, Real.exp_lt_exp]
  refine ⟨⟨lo, fun hlt => ?_⟩, ⟨hi, fun hlt => ?_⟩⟩
  · rcases lt_trichotomy P Ps with k | k | k
    · exact k
    · exact absurd (eq k) hlt.ne'
    · exact absurd (hi k) hlt.le.not_gt
  · rcases lt_trichotomy P Ps with k | k | k
    · exact absurd (lo k) hlt.le.not_gt
    · exact absurd (eq k) hlt.ne
    · exact k

end Verif.Props
