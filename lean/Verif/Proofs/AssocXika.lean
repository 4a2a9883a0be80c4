import Verif.Model.AssocXika
import Mathlib.Algebra.Order.BigOperators.Ring.Finset
import Mathlib.Analysis.SpecificLimits.Basic
import Mathlib.Topology.Instances.Real.Lemmas
import Mathlib.Topology.Algebra.Monoid
import Mathlib.Tactic.Linarith
import Mathlib.Tactic.Ring
import Mathlib.Tactic.FieldSimp
import Mathlib.Tactic.Positivity

/-!
# Helper lemmas for the association iteration

Two positive vectors are compared by the factor `t ≥ 1` that bounds both quotients.  The right-hand
side of the mass-action equations contracts that factor, with or without damping.
-/

namespace Verif.Assoc

variable {K : Type} [Field K] [LinearOrder K] [IsStrictOrderedRing K] {n : ℕ}

/-- Every entry is in `(0, 1]`. -/
def Phys (X : Fin n → K) : Prop := ∀ s, 0 < X s ∧ X s ≤ 1

/-- The two vectors agree up to the factor `t` in both directions. -/
def Within (t : K) (X Z : Fin n → K) : Prop := ∀ s, X s ≤ t * Z s ∧ Z s ≤ t * X s

omit [IsStrictOrderedRing K] in
theorem Within.symm {t : K} {X Z : Fin n → K} (h : Within t X Z) : Within t Z X :=
  fun s => ⟨(h s).2, (h s).1⟩

theorem Within.mono {t u : K} {X Z : Fin n → K} (hX : Phys X) (hZ : Phys Z) (h : Within t X Z)
    (htu : t ≤ u) : Within u X Z :=
  fun s => ⟨(h s).1.trans (mul_le_mul_of_nonneg_right htu (hZ s).1.le),
    (h s).2.trans (mul_le_mul_of_nonneg_right htu (hX s).1.le)⟩

theorem Within.trans {t u : K} {X Y Z : Fin n → K} (ht : 0 ≤ t) (hu : 0 ≤ u) (h : Within t X Y)
    (h' : Within u Y Z) : Within (t * u) X Z := by
  intro s
  constructor
  · calc X s ≤ t * Y s := (h s).1
      _ ≤ t * (u * Z s) := mul_le_mul_of_nonneg_left (h' s).1 ht
      _ = t * u * Z s := by ring
  · calc Z s ≤ u * Y s := (h' s).2
      _ ≤ u * (t * X s) := mul_le_mul_of_nonneg_left (h s).2 hu
      _ = t * u * X s := by ring

theorem den_ge_one (c : Fin n → Fin n → K) (hc : ∀ s t, 0 ≤ c s t) (X : Fin n → K) (hX : ∀ s, 0 ≤ X s)
    (s : Fin n) : 1 ≤ 1 + ∑ t, c s t * X t := by
  have : 0 ≤ ∑ t, c s t * X t := Finset.sum_nonneg fun t _ => mul_nonneg (hc s t) (hX t)
  linarith

theorem den_le (c : Fin n → Fin n → K) (hc : ∀ s t, 0 ≤ c s t) (X : Fin n → K) (hX : Phys X)
    {S : K} (hS : ∀ s, ∑ t, c s t ≤ S) (s : Fin n) : 1 + ∑ t, c s t * X t ≤ 1 + S := by
  have : ∑ t, c s t * X t ≤ ∑ t, c s t :=
    Finset.sum_le_sum fun t _ => mul_le_of_le_one_right (hc s t) (hX t).2
  linarith [hS s]

theorem rhs_phys (c : Fin n → Fin n → K) (hc : ∀ s t, 0 ≤ c s t) (X : Fin n → K)
    (hX : ∀ s, 0 ≤ X s) : Phys (rhs c X) := by
  intro s
  have h := den_ge_one c hc X hX s
  exact ⟨by unfold rhs; positivity, by unfold rhs; exact (div_le_one (by linarith)).2 h⟩

theorem rhs_ge (c : Fin n → Fin n → K) (hc : ∀ s t, 0 ≤ c s t) (X : Fin n → K) (hX : Phys X)
    {S : K} (hS : ∀ s, ∑ t, c s t ≤ S) (s : Fin n) : 1 / (1 + S) ≤ rhs c X s := by
  have h := den_ge_one c hc X (fun s => (hX s).1.le) s
  exact one_div_le_one_div_of_le (by linarith) (den_le c hc X hX hS s)

theorem update_phys {damp : K} (hd : 0 < damp) (hd1 : damp ≤ 1) {X Y : Fin n → K} (hX : Phys X)
    (hY : Phys Y) : Phys (update damp X Y) := by
  unfold update
  split
  · intro s
    obtain ⟨h1, h2⟩ := hX s
    obtain ⟨h3, h4⟩ := hY s
    constructor
    · have : 0 ≤ (1 - damp) * X s := mul_nonneg (by linarith) h1.le
      have : 0 < damp * Y s := mul_pos hd h3
      linarith
    · have : (1 - damp) * X s ≤ (1 - damp) * 1 := mul_le_mul_of_nonneg_left h2 (by linarith)
      have : damp * Y s ≤ damp * 1 := mul_le_mul_of_nonneg_left h4 hd.le
      linarith
  · exact hY

/-- One direction of the contraction. -/
theorem den_contract {t S A B : K} (ht : 1 ≤ t) (hA : 1 ≤ A) (hAS : A ≤ 1 + S)
    (h : B - 1 ≤ t * (A - 1)) : B ≤ (1 + (1 - 1 / (1 + S)) * (t - 1)) * A := by
  have hS : 0 < 1 + S := by linarith
  have hm : 1 / (1 + S) * A ≤ 1 := by
    rw [one_div, inv_mul_eq_div]; exact (div_le_one hS).2 hAS
  have : (t - 1) * (1 / (1 + S) * A) ≤ (t - 1) * 1 := mul_le_mul_of_nonneg_left hm (by linarith)
  linarith

theorem rhs_within (c : Fin n → Fin n → K) (hc : ∀ s t, 0 ≤ c s t) {X Z : Fin n → K} (hX : Phys X)
    (hZ : Phys Z) {S : K} (hS : ∀ s, ∑ t, c s t ≤ S) {t : K} (ht : 1 ≤ t) (h : Within t X Z) :
    Within (1 + (1 - 1 / (1 + S)) * (t - 1)) (rhs c X) (rhs c Z) := by
  intro s
  have hA := den_ge_one c hc X (fun s => (hX s).1.le) s
  have hB := den_ge_one c hc Z (fun s => (hZ s).1.le) s
  have hA' := den_le c hc X hX hS s
  have hB' := den_le c hc Z hZ hS s
  have h1 : ∑ u, c s u * X u ≤ t * ∑ u, c s u * Z u := by
    rw [Finset.mul_sum]
    refine Finset.sum_le_sum fun u _ => ?_
    calc c s u * X u ≤ c s u * (t * Z u) := mul_le_mul_of_nonneg_left (h u).1 (hc s u)
      _ = t * (c s u * Z u) := by ring
  have h2 : ∑ u, c s u * Z u ≤ t * ∑ u, c s u * X u := by
    rw [Finset.mul_sum]
    refine Finset.sum_le_sum fun u _ => ?_
    calc c s u * Z u ≤ c s u * (t * X u) := mul_le_mul_of_nonneg_left (h u).2 (hc s u)
      _ = t * (c s u * X u) := by ring
  have g1 := den_contract (B := 1 + ∑ u, c s u * Z u) ht hA hA' (by linarith)
  have g2 := den_contract (B := 1 + ∑ u, c s u * X u) ht hB hB' (by linarith)
  unfold rhs
  constructor
  · rw [mul_one_div, div_le_div_iff₀ (by linarith) (by linarith)]; linarith
  · rw [mul_one_div, div_le_div_iff₀ (by linarith) (by linarith)]; linarith

theorem damped_within {X Y Z : Fin n → K} (hX : Phys X) (hY : Phys Y) {t u d : K}
    (ht : 1 ≤ t) (hu : 1 ≤ u) (hd : 0 ≤ d) (hd1 : d ≤ 1) (h : Within t X Z) (h' : Within u Y Z) :
    Within ((1 - d) * t + d * u) (fun s => X s + d * (Y s - X s)) Z := by
  intro s
  have e1 : 0 ≤ 1 - d := by linarith
  constructor
  · have a := mul_le_mul_of_nonneg_left (h s).1 e1
    have b := mul_le_mul_of_nonneg_left (h' s).1 hd
    show X s + d * (Y s - X s) ≤ _
    linarith
  · show Z s ≤ ((1 - d) * t + d * u) * (X s + d * (Y s - X s))
    have hx := (hX s).1
    have hy := (hY s).1
    have ht0 : 0 < t := by linarith
    have hu0 : 0 < u := by linarith
    have a : Z s / t ≤ X s := (div_le_iff₀ ht0).2 (by linarith [(h s).2])
    have b : Z s / u ≤ Y s := (div_le_iff₀ hu0).2 (by linarith [(h' s).2])
    by_cases hz : Z s ≤ 0
    · have hτ : 0 ≤ (1 - d) * t + d * u := add_nonneg (mul_nonneg e1 ht0.le) (mul_nonneg hd hu0.le)
      have : 0 ≤ (1 - d) * X s + d * Y s := add_nonneg (mul_nonneg e1 hx.le) (mul_nonneg hd hy.le)
      have := mul_nonneg hτ this
      calc Z s ≤ 0 := hz
        _ ≤ _ := this
        _ = _ := by ring
    · have hz : 0 < Z s := not_le.1 hz
      have hτ : 0 ≤ (1 - d) * t + d * u := add_nonneg (mul_nonneg e1 ht0.le) (mul_nonneg hd hu0.le)
      have key : 1 ≤ ((1 - d) * t + d * u) * ((1 - d) / t + d / u) := by
        have : ((1 - d) * t + d * u) * ((1 - d) / t + d / u) =
            1 + d * (1 - d) * (t - u) ^ 2 / (t * u) := by field_simp; ring
        rw [this]
        have : 0 ≤ d * (1 - d) * (t - u) ^ 2 / (t * u) := by positivity
        linarith
      calc Z s ≤ Z s * (((1 - d) * t + d * u) * ((1 - d) / t + d / u)) := le_mul_of_one_le_right hz.le key
        _ = ((1 - d) * t + d * u) * ((1 - d) * (Z s / t) + d * (Z s / u)) := by ring
        _ ≤ ((1 - d) * t + d * u) * ((1 - d) * X s + d * Y s) := by
            apply mul_le_mul_of_nonneg_left _ hτ
            exact add_le_add (mul_le_mul_of_nonneg_left a e1) (mul_le_mul_of_nonneg_left b hd)
        _ = _ := by ring

/-- A row bound is non-negative as soon as there is a site. -/
theorem rowBound_nonneg (c : Fin n → Fin n → K) (hc : ∀ s t, 0 ≤ c s t) {S : K}
    (hS : ∀ s, ∑ t, c s t ≤ S) (s : Fin n) : 0 ≤ S :=
  (Finset.sum_nonneg fun t _ => hc s t).trans (hS s)

/-- One step of the coded iteration, damped or not, brings the elements closer to the solution. -/
theorem update_within (c : Fin n → Fin n → K) (hc : ∀ s t, 0 ≤ c s t) {X Z : Fin n → K} (hX : Phys X)
    (hZ : Phys Z) (hfix : rhs c Z = Z) {S : K} (hS0 : 0 ≤ S) (hS : ∀ s, ∑ t, c s t ≤ S) {t damp : K}
    (hd : 0 < damp) (hd1 : damp ≤ 1) (ht : 1 ≤ t) (h : Within t X Z) :
    Within (1 + (1 - damp / (1 + S)) * (t - 1)) (update damp X (rhs c X)) Z := by
  have hm0 : 0 < 1 / (1 + S) := by positivity
  have hm1 : 1 / (1 + S) ≤ 1 := (div_le_one (by linarith)).2 (by linarith)
  have hY := rhs_phys c hc X fun s => (hX s).1.le
  have h' := rhs_within c hc hX hZ hS ht h
  rw [hfix] at h'
  have hu : 1 ≤ 1 + (1 - 1 / (1 + S)) * (t - 1) := by
    have := mul_nonneg (sub_nonneg.2 hm1) (sub_nonneg.2 ht)
    linarith
  unfold update
  split
  · have := damped_within hX hY ht hu hd.le hd1 h h'
    convert this using 1
    rw [div_eq_mul_one_div]; ring
  · refine h'.mono hY hZ ?_
    have : damp / (1 + S) ≤ 1 / (1 + S) := by
      rw [div_eq_mul_one_div]; exact mul_le_of_le_one_left hm0.le hd1
    have := mul_le_mul_of_nonneg_right this (sub_nonneg.2 ht)
    linarith

/-- The smallest factor between two positive vectors. -/
theorem exists_min_within (X Z : Fin n → K) (hX : Phys X) (hZ : Phys Z) :
    ∃ t : K, 1 ≤ t ∧ Within t X Z ∧ ∀ u, 1 ≤ u → Within u X Z → t ≤ u := by
  let f : Option (Fin n) → K
    | none => 1
    | some s => max (X s / Z s) (Z s / X s)
  have hne : (Finset.univ : Finset (Option (Fin n))).Nonempty := ⟨none, Finset.mem_univ _⟩
  refine ⟨Finset.univ.sup' hne f, ?_, ?_, ?_⟩
  · exact Finset.le_sup' f (Finset.mem_univ none)
  · intro s
    have h := Finset.le_sup' f (Finset.mem_univ (some s))
    have h1 : X s / Z s ≤ Finset.univ.sup' hne f := (le_max_left _ _).trans h
    have h2 : Z s / X s ≤ Finset.univ.sup' hne f := (le_max_right _ _).trans h
    exact ⟨(div_le_iff₀ (hZ s).1).1 h1, (div_le_iff₀ (hX s).1).1 h2⟩
  · intro u hu h
    refine Finset.sup'_le hne f ?_
    rintro (_ | s) _
    · exact hu
    · exact max_le ((div_le_iff₀ (hZ s).1).2 (h s).1) ((div_le_iff₀ (hX s).1).2 (h s).2)

theorem Within.abs_sub_le {t : K} {X Z : Fin n → K} (hX : Phys X) (hZ : Phys Z) (ht : 1 ≤ t)
    (h : Within t X Z) (s : Fin n) : |X s - Z s| ≤ t - 1 := by
  obtain ⟨h1, h2⟩ := h s
  have a : (t - 1) * Z s ≤ t - 1 := mul_le_of_le_one_right (by linarith) (hZ s).2
  have b : (t - 1) * X s ≤ t - 1 := mul_le_of_le_one_right (by linarith) (hX s).2
  rw [abs_le]; constructor <;> linarith

/-- Some factor always exists. -/
theorem one_le_pow_contract {a : K} (h0 : 0 ≤ a) {t : K} (ht : 1 ≤ t) (k : ℕ) :
    1 ≤ 1 + a ^ k * (t - 1) := by
  have := mul_nonneg (pow_nonneg h0 k) (sub_nonneg.2 ht)
  linarith

end Verif.Assoc
