import Mathlib.Algebra.Order.Field.Basic
import Mathlib.Tactic.Linarith
import Mathlib.Tactic.FieldSimp
import Mathlib.Tactic.Ring
import Mathlib.Tactic.NormNum
import Verif.Model.Flash

/-!
# Auxiliary lemmas about the constraint of the K-values
-/

namespace Verif.Flash

open Verif

variable {K : Type} [Field K] [LinearOrder K]

omit [Field K] in
theorem lt_fin (a b : K) : Ext.lt (.fin a) (.fin b) = decide (a < b) := rfl

omit [Field K] in
theorem pyMin_spec (k : K) : ∀ (l : List (Ext K)) (a : K), (∀ h ∈ l, Ext.lt h (.fin k) = false) → k ≤ a →
    ∃ m, Ext.pyMin (.fin a) l = .fin m ∧ k ≤ m ∧ m ≤ a ∧ ∀ h ∈ l, Ext.lt h (.fin m) = false
  | [], a, _, hk => ⟨a, rfl, hk, le_refl _, by simp⟩
  | .fin b :: l, a, hl, hk => by
    have hb : k ≤ b := by simpa [lt_fin] using hl (.fin b) (by simp)
    by_cases hba : b < a
    · obtain ⟨m, h1, h2, h3, h4⟩ := pyMin_spec k l b (fun h hh => hl h (by simp [hh])) hb
      refine ⟨m, ?_, h2, h3.trans hba.le, ?_⟩
      · simpa [Ext.pyMin, lt_fin, hba] using h1
      · intro h hh
        rcases List.mem_cons.1 hh with rfl | hh
        · simpa [lt_fin] using h3
        · exact h4 h hh
    · obtain ⟨m, h1, h2, h3, h4⟩ := pyMin_spec k l a (fun h hh => hl h (by simp [hh])) hk
      refine ⟨m, ?_, h2, h3, ?_⟩
      · simpa [Ext.pyMin, lt_fin, hba] using h1
      · intro h hh
        rcases List.mem_cons.1 hh with rfl | hh
        · simpa [lt_fin] using h3.trans (not_lt.1 hba)
        · exact h4 h hh
  | .pinf :: l, a, hl, hk => by
    obtain ⟨m, h1, h2, h3, h4⟩ := pyMin_spec k l a (fun h hh => hl h (by simp [hh])) hk
    refine ⟨m, ?_, h2, h3, ?_⟩
    · simpa [Ext.pyMin, Ext.lt] using h1
    · intro h hh
      rcases List.mem_cons.1 hh with rfl | hh
      · rfl
      · exact h4 h hh
  | .nan :: l, a, hl, hk => by
    obtain ⟨m, h1, h2, h3, h4⟩ := pyMin_spec k l a (fun h hh => hl h (by simp [hh])) hk
    refine ⟨m, ?_, h2, h3, ?_⟩
    · simpa [Ext.pyMin, Ext.lt] using h1
    · intro h hh
      rcases List.mem_cons.1 hh with rfl | hh
      · rfl
      · exact h4 h hh
  | .ninf :: l, a, hl, hk => by
    have := hl .ninf (by simp)
    simp [Ext.lt] at this

omit [Field K] in
theorem pyMax_spec (k : K) : ∀ (l : List (Ext K)) (a : K), (∀ h ∈ l, Ext.lt (.fin k) h = false) → a ≤ k →
    ∃ m, Ext.pyMax (.fin a) l = .fin m ∧ m ≤ k ∧ a ≤ m ∧ ∀ h ∈ l, Ext.lt (.fin m) h = false
  | [], a, _, hk => ⟨a, rfl, hk, le_refl _, by simp⟩
  | .fin b :: l, a, hl, hk => by
    have hb : b ≤ k := by simpa [lt_fin] using hl (.fin b) (by simp)
    by_cases hba : a < b
    · obtain ⟨m, h1, h2, h3, h4⟩ := pyMax_spec k l b (fun h hh => hl h (by simp [hh])) hb
      refine ⟨m, ?_, h2, hba.le.trans h3, ?_⟩
      · simpa [Ext.pyMax, lt_fin, hba] using h1
      · intro h hh
        rcases List.mem_cons.1 hh with rfl | hh
        · simpa [lt_fin] using h3
        · exact h4 h hh
    · obtain ⟨m, h1, h2, h3, h4⟩ := pyMax_spec k l a (fun h hh => hl h (by simp [hh])) hk
      refine ⟨m, ?_, h2, h3, ?_⟩
      · simpa [Ext.pyMax, lt_fin, hba] using h1
      · intro h hh
        rcases List.mem_cons.1 hh with rfl | hh
        · simpa [lt_fin] using (not_lt.1 hba).trans h3
        · exact h4 h hh
  | .ninf :: l, a, hl, hk => by
    obtain ⟨m, h1, h2, h3, h4⟩ := pyMax_spec k l a (fun h hh => hl h (by simp [hh])) hk
    refine ⟨m, ?_, h2, h3, ?_⟩
    · simpa [Ext.pyMax, Ext.lt] using h1
    · intro h hh
      rcases List.mem_cons.1 hh with rfl | hh
      · rfl
      · exact h4 h hh
  | .nan :: l, a, hl, hk => by
    obtain ⟨m, h1, h2, h3, h4⟩ := pyMax_spec k l a (fun h hh => hl h (by simp [hh])) hk
    refine ⟨m, ?_, h2, h3, ?_⟩
    · simpa [Ext.pyMax, Ext.lt] using h1
    · intro h hh
      rcases List.mem_cons.1 hh with rfl | hh
      · rfl
      · exact h4 h hh
  | .pinf :: l, a, hl, hk => by
    have := hl .pinf (by simp)
    simp [Ext.lt] at this

omit [Field K] in
theorem lt_false_of_le {h : Ext K} {a b : K} (hab : a ≤ b) (hh : Ext.lt h (.fin b) = false) :
    Ext.lt h (.fin a) = false := by
  cases h with
  | fin c => simp only [lt_fin, decide_eq_false_iff_not, not_lt] at hh ⊢; exact hab.trans hh
  | pinf => rfl
  | ninf => simp [Ext.lt] at hh
  | nan => rfl

omit [Field K] in
theorem lt_false_of_ge {h : Ext K} {a b : K} (hab : b ≤ a) (hh : Ext.lt (.fin b) h = false) :
    Ext.lt (.fin a) h = false := by
  cases h with
  | fin c => simp only [lt_fin, decide_eq_false_iff_not, not_lt] at hh ⊢; exact hh.trans hab
  | pinf => simp [Ext.lt] at hh
  | ninf => rfl
  | nan => rfl

/-- A value within all bounds. -/
def Within (lo hi : K) (los his : List (Ext K)) (k : K) : Prop :=
  lo ≤ k ∧ k ≤ hi ∧ (∀ h ∈ los, Ext.lt (.fin k) h = false) ∧ ∀ h ∈ his, Ext.lt h (.fin k) = false

theorem resetK1_spec [IsStrictOrderedRing K] (u k1 lo hi : K) (los his : List (Ext K)) (hu : 0 ≤ u) (hu1 : u ≤ 1)
    (hf : ∃ k, Within lo hi los his k) :
    ∃ k' b, resetK1 u (.fin k1) (.fin lo) (.fin hi) los his = (.fin k', b) ∧ Within lo hi los his k' ∧
      (Within lo hi los his k1 → k' = k1 ∧ b = false) ∧
      (¬ Within lo hi los his k1 → b = true ∧ ∃ p q, lo ≤ p ∧ q ≤ hi ∧ (∀ w, Within lo hi los his w → p ≤ w ∧ w ≤ q) ∧
        k' = (q - p) * u + p) := by
  obtain ⟨k, h1, h2, h3, h4⟩ := hf
  obtain ⟨q, hq, hkq, hqh, hq4⟩ := pyMin_spec k his hi h4 h2
  obtain ⟨p, hp, hpk, hlp, hp4⟩ := pyMax_spec k los lo h3 h1
  have hw : (((Ext.fin hi :: his).any (fun b => Ext.lt b (.fin k1)) || (Ext.fin lo :: los).any (fun b => Ext.lt (.fin k1) b)) = true)
      ↔ ¬ Within lo hi los his k1 := by
    rw [Bool.or_eq_true, List.any_eq_true, List.any_eq_true]
    constructor
    · rintro (⟨b, hb, hb2⟩ | ⟨b, hb, hb2⟩) ⟨w1, w2, w3, w4⟩
      · rcases List.mem_cons.1 hb with rfl | hb
        · rw [lt_fin] at hb2; exact absurd w2 (not_le.2 (by simpa using hb2))
        · rw [w4 b hb] at hb2; cases hb2
      · rcases List.mem_cons.1 hb with rfl | hb
        · rw [lt_fin] at hb2; exact absurd w1 (not_le.2 (by simpa using hb2))
        · rw [w3 b hb] at hb2; cases hb2
    · intro hn
      by_contra hc
      push Not at hc
      refine hn ⟨?_, ?_, ?_, ?_⟩
      · have := hc.2 (.fin lo) (by simp); simpa [lt_fin] using this
      · have := hc.1 (.fin hi) (by simp); simpa [lt_fin] using this
      · intro h hh; simpa using hc.2 h (by simp [hh])
      · intro h hh; simpa using hc.1 h (by simp [hh])
  have hpq : p ≤ q := hpk.trans hkq
  by_cases hin : Within lo hi los his k1
  · refine ⟨k1, false, ?_, hin, fun _ => ⟨rfl, rfl⟩, fun h => absurd hin h⟩
    unfold resetK1
    rw [if_neg (by rw [hw]; simpa using hin)]
  · have hlow : p ≤ (q - p) * u + p := by nlinarith
    have hup : (q - p) * u + p ≤ q := by nlinarith
    refine ⟨(q - p) * u + p, true, ?_, ⟨hlp.trans hlow, hup.trans hqh, ?_, ?_⟩, fun h => absurd h hin,
      fun _ => ⟨rfl, p, q, hlp, hqh, ?_, rfl⟩⟩
    · unfold resetK1
      rw [if_pos (by rw [hw]; exact hin), hp, hq]
      simp only [Ext.sub, Ext.neg, Ext.add, Ext.mul, sub_eq_add_neg]
    · exact fun h hh => lt_false_of_ge hlow (hp4 h hh)
    · exact fun h hh => lt_false_of_le hup (hq4 h hh)
    · rintro w ⟨w1, w2, w3, w4⟩
      obtain ⟨q', hq', hwq, _, _⟩ := pyMin_spec w his hi w4 w2
      obtain ⟨p', hp', hpw, _, _⟩ := pyMax_spec w los lo w3 w1
      rw [hq] at hq'
      rw [hp] at hp'
      cases hq'
      cases hp'
      exact ⟨hpw, hwq⟩

theorem boundX_fin (z k : K) (hz : z ≠ 1) : boundX z (.fin k) = .fin ((1 - z * k) / (1 - z)) := by
  have : (1 : K) - z ≠ 0 := fun h => hz (sub_eq_zero.1 h).symm
  simp [boundX, Ext.div, Ext.sub, Ext.mul, Ext.neg, Ext.add, sub_eq_add_neg] 
  intro h; exact absurd (by rw [sub_eq_add_neg]; exact h) this

theorem boundY_fin (z k : K) (hz : k ≠ z) : boundY z (.fin k) = .fin ((1 - z) * k / (k - z)) := by
  have : k - z ≠ 0 := fun h => hz (sub_eq_zero.1 h)
  simp [boundY, Ext.div, Ext.sub, Ext.mul, Ext.neg, Ext.add, sub_eq_add_neg]
  intro h; exact absurd (by rw [sub_eq_add_neg]; exact h) this

theorem liquid0_fin (a c : K) (h : a ≠ c) : liquid0 (.fin a) (.fin c) = .fin ((1 - c) / (a - c)) := by
  have : a - c ≠ 0 := fun h' => h (sub_eq_zero.1 h')
  simp [liquid0, Ext.div, Ext.sub, Ext.neg, Ext.add, sub_eq_add_neg]
  intro h; exact absurd (by rw [sub_eq_add_neg]; exact h) this

end Verif.Flash
