import Verif.Props.Objective

/-!
# C41, C42, C73: the objective of one data set
-/

namespace Verif.Props
open Verif Verif.Objective

variable {K : Type} [Field K] [LinearOrder K]

/-- The point can be compared with its reference. -/
def comparable (p : Ext K × Ext K) : Bool := !isNan (dev p)

/-- The weights that a list of weights gives to the comparable points. -/
def keptWeights (l : List (Ext K × Ext K)) (w : List (Ext K)) : List (Ext K) :=
  ((l.zip w).filter fun q => comparable q.1).map Prod.snd

theorem devs_eq (test ref : List (Ext K)) :
    devs test ref = ((test.zip ref).filter comparable).map dev := by
  unfold devs
  rw [List.filter_map]
  rfl

theorem mapM_weights (l : List (Ext K × Ext K)) : ∀ (w0 w : List (Ext K)), w.length = l.length →
    (((l.zipIdx w0.length).filter fun p => !isNan (dev p.1)).mapM fun p =>
      weightAt (w0 ++ w) p.2) = .ok (keptWeights l w) := by
  induction l with
  | nil => intro w0 w _; rfl
  | cons a l ih =>
    intro w0 w hw
    cases w with
    | nil => simp at hw
    | cons b w =>
      have h1 := ih (w0 ++ [b]) w (by simpa using hw)
      simp only [List.length_append, List.length_cons, List.length_nil, zero_add,
        List.append_assoc, List.cons_append, List.nil_append] at h1
      have hget : weightAt (w0 ++ b :: w) w0.length = .ok b := by simp [weightAt]
      simp only [List.zipIdx_cons, List.filter_cons]
      by_cases hc : isNan (dev a)
      · simp only [hc, Bool.not_true, Bool.false_eq_true, if_false]
        rw [h1]
        simp [keptWeights, comparable, hc]
      · simp only [hc, Bool.not_false, if_true, List.mapM_cons, hget, h1, bind, Except.bind, pure,
          Except.pure]
        simp [keptWeights, comparable, hc]

theorem devWeights_each (test ref w : List (Ext K)) (hl : test.length = ref.length)
    (hw : w.length = test.length) :
    devWeights test ref (.each w) = .ok (keptWeights (test.zip ref) w) := by
  have := mapM_weights (test.zip ref) [] w (by simp [hw, hl])
  simpa [devWeights] using this

theorem keptWeights_const (l : List (Ext K × Ext K)) (w : Ext K) :
    keptWeights l (List.replicate l.length w) = (l.filter comparable).map fun _ => w := by
  induction l with
  | nil => rfl
  | cons a l ih =>
    simp only [keptWeights, List.length_cons, List.replicate_succ, List.zip_cons_cons,
      List.filter_cons] at ih ⊢
    by_cases hc : comparable a
    · simp only [hc, if_true, List.map_cons, ih]
    · simp only [hc, if_false, ih, Bool.false_eq_true]

/-- One weight for all points is the same as that weight given for each of them. -/
theorem c41_one_weight (ex : K → K) (test ref : List (Ext K)) (w : Ext K) (method : String)
    (nn nr : K) :
    objForm ex test ref (.one w) method nn nr =
      objForm ex test ref (.each (List.replicate test.length w)) method nn nr := by
  unfold objForm
  by_cases hl : ref.length ≠ test.length
  · rw [if_pos hl, if_pos hl]
  · have hl' : test.length = ref.length := (not_not.mp hl).symm
    have hz : (test.zip ref).length = test.length := by simp [hl']
    rw [if_neg hl, if_neg hl]
    rw [if_neg (by simp [Weights.size]), if_neg (by simp [Weights.size])]
    rw [devWeights_each test ref _ hl' (by simp), ← hz, keptWeights_const]
    simp only [devWeights, devs_eq, List.map_map]
    rfl

/-! ## Missing points -/

/-- **C41, missing points.**  When not more than the tolerated fraction of the points is missing, the
objective is the objective of the remaining points alone, for every measure. -/
theorem c41_missing (ex : K → K) (test ref w : List (Ext K)) (method : String) (nn nr : K)
    (hl : test.length = ref.length) (hw : w.length = test.length)
    (hfew : 1 - (((test.zip ref).filter comparable).length : K) / (test.length : K) ≤ nr) :
    let kept := (test.zip ref).filter comparable
    objForm ex test ref (.each w) method nn nr =
      objForm ex (kept.map Prod.fst) (kept.map Prod.snd) (.each (keptWeights (test.zip ref) w))
        method nn nr := by
  intro kept
  have hz : (kept.map Prod.fst).zip (kept.map Prod.snd) = kept := by
    rw [List.zip_map', List.map_id']
  have hk : kept.filter comparable = kept := by
    rw [List.filter_eq_self]
    intro a ha
    exact (List.mem_filter.mp ha).2
  have hkl : (keptWeights (test.zip ref) w).length = kept.length := by
    have : ∀ (l : List (Ext K × Ext K)) (w : List (Ext K)), w.length = l.length →
        (keptWeights l w).length = (l.filter comparable).length := by
      intro l
      induction l with
      | nil => intro w _; simp [keptWeights]
      | cons a l ih =>
        intro w hw
        cases w with
        | nil => simp at hw
        | cons b w =>
          have := ih w (by simpa using hw)
          simp only [keptWeights, List.zip_cons_cons, List.filter_cons] at this ⊢
          by_cases hc : comparable a <;> simp [hc] at this ⊢ <;> exact this
    exact this _ _ (by simp [hw, hl])
  have hkw : keptWeights kept (keptWeights (test.zip ref) w) = keptWeights (test.zip ref) w := by
    have : ∀ (l : List (Ext K × Ext K)) (w : List (Ext K)), w.length = l.length →
        keptWeights (l.filter comparable) (keptWeights l w) = keptWeights l w := by
      intro l
      induction l with
      | nil => intro w _; simp [keptWeights]
      | cons a l ih =>
        intro w hw
        cases w with
        | nil => simp at hw
        | cons b w =>
          have := ih w (by simpa using hw)
          simp only [keptWeights, List.zip_cons_cons, List.filter_cons] at this ⊢
          by_cases hc : comparable a
          · simp only [hc, if_true, List.map_cons, List.zip_cons_cons, List.filter_cons, this]
          · simp only [hc, if_false, this, Bool.false_eq_true]
    exact this _ _ (by simp [hw, hl])
  unfold objForm
  rw [if_neg (by simp [hl]), if_neg (by simp [Weights.size, hw]),
    if_neg (by simp), if_neg (by simp [Weights.size, hkl])]
  rw [devWeights_each test ref w hl hw,
    devWeights_each _ _ _ (by simp) (by simp [hkl])]
  rw [hz, hkw]
  have hd : devs (kept.map Prod.fst) (kept.map Prod.snd) = devs test ref := by
    rw [devs_eq, devs_eq, hz, hk]
  rw [hd]
  simp only
  cases deviation ex method (devs test ref) (keptWeights (test.zip ref) w) with
  | error e => rfl
  | ok v =>
    have hlen : (devs test ref).length = kept.length := by rw [devs_eq, List.length_map]
    simp only [finish, hlen, List.length_map]
    cases (if kept.length = 0 then some Ext.nan else v : Option (Ext K)) with
    | none => rfl
    | some x =>
      simp only
      rw [if_neg (fun h => absurd h.2 (not_lt.mpr hfew)), if_neg (fun h => h.1 rfl)]

/-- **C41, missing points.**  When too many points are missing, the stated penalty per missing point
is added. -/
theorem c41_missing_penalty (ex : K → K) (test ref : List (Ext K)) (w : Weights K) (method : String)
    (nn nr : K) (hl : test.length = ref.length) (hs : ¬ (1 < w.size ∧ w.size ≠ test.length))
    (ws : List (Ext K)) (hws : devWeights test ref w = .ok ws) (x : Ext K)
    (hx : deviation ex method (devs test ref) ws = .ok (some x))
    (hsome : (devs test ref).length ≠ 0) (hmiss : test.length ≠ (devs test ref).length)
    (hmany : 1 - ((devs test ref).length : K) / (test.length : K) > nr) :
    objForm ex test ref w method nn nr =
      .ok (Ext.add x (.fin (((test.length - (devs test ref).length : Nat) : K) * nn))) := by
  unfold objForm
  rw [if_neg (by simp [hl]), if_neg hs, hws]
  simp only [hx, finish, if_neg hsome, if_pos (And.intro hmiss hmany)]

/-- Without any comparable point the result is NaN for the measures that are averages or plain sums. -/
theorem c41_nothing (ex : K → K) (test ref : List (Ext K)) (w : Weights K) (method : String)
    (nn nr : K) (v : Ext K) (hnone : devs test ref = [])
    (h : objForm ex test ref w method nn nr = .ok v) : v = .nan := by
  unfold objForm at h
  split at h
  · cases h
  · split at h
    · cases h
    · cases hw : devWeights test ref w with
      | error e => simp only [hw] at h; cases h
      | ok ws =>
        simp only [hw] at h
        cases hm : deviation ex method (devs test ref) ws with
        | error e => simp only [hm] at h; cases h
        | ok o =>
          rw [hm] at h
          simp only [finish, hnone, List.length_nil, if_true] at h
          split at h
          · cases h; rfl
          · cases h; rfl

/-! ## Points that can be compared -/

/-- A point with prediction, non-zero reference and weight, all numbers. -/
structure Pt (K : Type) where
  t : K
  r : K
  w : K

/-- Relative deviation. -/
def Pt.d (p : Pt K) : K := (p.t - p.r) / p.r

/-- The objective of such points. -/
def formOf (ex : K → K) (pts : List (Pt K)) (method : String) (nn nr : K) : Except PyErr (Ext K) :=
  objForm ex (pts.map fun p => .fin p.t) (pts.map fun p => .fin p.r)
    (.each (pts.map fun p => .fin p.w)) method nn nr

theorem dev_fin (p : Pt K) (h : p.r ≠ 0) : dev (.fin p.t, .fin p.r) = .fin p.d := by
  simp only [dev, Ext.sub, Ext.neg, Ext.add, Ext.div, if_neg h, Pt.d, sub_eq_add_neg]

theorem formOf_eq (ex : K → K) (pts : List (Pt K)) (hr : ∀ p ∈ pts, p.r ≠ 0) (method : String)
    (nn nr : K) :
    formOf ex pts method nn nr =
      match deviation ex method (pts.map fun p => .fin p.d) (pts.map fun p => .fin p.w) with
      | .error e => .error e
      | .ok v => finish pts.length pts.length nn nr v := by
  have hzip : (pts.map fun p => Ext.fin p.t).zip (pts.map fun p => Ext.fin p.r) =
      pts.map fun p => (Ext.fin p.t, Ext.fin p.r) := by rw [List.zip_map']
  have hall : (pts.map fun p => (Ext.fin p.t, Ext.fin p.r)).filter comparable =
      pts.map fun p => (Ext.fin p.t, Ext.fin p.r) := by
    rw [List.filter_eq_self]
    intro a ha
    obtain ⟨p, hp, rfl⟩ := List.mem_map.mp ha
    simp [comparable, dev_fin p (hr p hp), isNan]
  have hd : devs (pts.map fun p => Ext.fin p.t) (pts.map fun p => Ext.fin p.r) =
      pts.map fun p => .fin p.d := by
    rw [devs_eq, hzip, hall, List.map_map]
    apply List.map_congr_left
    intro p hp
    exact dev_fin p (hr p hp)
  have hkw : keptWeights (pts.map fun p => (Ext.fin p.t, Ext.fin p.r)) (pts.map fun p => .fin p.w) =
      pts.map fun p => .fin p.w := by
    unfold keptWeights
    rw [List.zip_map', List.filter_eq_self.mpr, List.map_map]
    · rfl
    · intro a ha
      obtain ⟨p, hp, rfl⟩ := List.mem_map.mp ha
      simp [comparable, dev_fin p (hr p hp), isNan]
  unfold formOf objForm
  rw [if_neg (by simp), if_neg (by simp [Weights.size]),
    devWeights_each _ _ _ (by simp) (by simp), hzip, hkw, hd]
  simp only [List.length_map]
  cases deviation ex method (pts.map fun p => .fin p.d) (pts.map fun p => .fin p.w) <;> rfl

theorem finish_full (n : Nat) (hn : n ≠ 0) (nn nr : K) (x : Ext K) :
    finish n n nn nr (some x) = .ok x := by
  simp only [finish, if_neg hn, ne_eq, not_true_eq_false, false_and, if_false]

omit [LinearOrder K] in
theorem sum_map_fin {α : Type} (l : List α) (f : α → K) :
    sum (l.map fun a => Ext.fin (f a)) = .fin (l.map f).sum := by
  have := sum_fin (l.map f)
  rwa [List.map_map] at this

omit [LinearOrder K] in
theorem zip_measure (pts : List (Pt K)) (f : Ext K → Ext K → Ext K) (g : Pt K → K)
    (h : ∀ p, f (.fin p.d) (.fin p.w) = .fin (g p)) :
    (pts.map fun p => Ext.fin p.d).zipWith f (pts.map fun p => Ext.fin p.w) =
      pts.map fun p => .fin (g p) := by
  rw [List.zipWith_map, List.zipWith_self]
  exact List.map_congr_left fun p _ => h p

variable [IsStrictOrderedRing K]

theorem mean_fin {α : Type} (l : List α) (f : α → K) (hl : l ≠ []) :
    mean (l.map fun a => Ext.fin (f a)) = .fin ((l.map f).sum / l.length) := by
  have : ((l.length : Nat) : K) ≠ 0 := by
    have : 0 < l.length := List.length_pos_iff.mpr hl
    exact_mod_cast this.ne'
  rw [mean, sum_map_fin]
  simp only [List.length_map, Ext.div, if_neg this]

omit [IsStrictOrderedRing K] in
theorem abs_fin (a : K) [IsStrictOrderedRing K] : Objective.abs (.fin a) = .fin |a| := by
  simp only [Objective.abs]
  split
  · next h => rw [abs_of_neg h]
  · next h => rw [abs_of_nonneg (not_lt.mp h)]

/-- **C41, the documented formulas.** -/
theorem c41_value (ex : K → K) (pts : List (Pt K)) (hr : ∀ p ∈ pts, p.r ≠ 0) (hne : pts ≠ [])
    (nn nr : K) :
    formOf ex pts "average-squared-deviation" nn nr =
      .ok (.fin ((pts.map fun p => p.d ^ 2 * p.w).sum / pts.length)) ∧
    formOf ex pts "sum-squared-deviation" nn nr =
      .ok (.fin (pts.map fun p => p.d ^ 2 * p.w).sum) ∧
    formOf ex pts "percent-absolute-average-deviation" nn nr =
      .ok (.fin ((pts.map fun p => |p.d| * p.w).sum / pts.length * 100)) := by
  have hlen : pts.length ≠ 0 := fun h => hne (List.length_eq_zero_iff.mp h)
  have hsq := zip_measure pts (fun a b => Ext.mul (Ext.mul a a) b) (fun p => p.d ^ 2 * p.w)
    (fun p => by simp only [Ext.mul, pow_two])
  have hab := zip_measure pts (fun a b => Ext.mul (Objective.abs a) b) (fun p => |p.d| * p.w)
    (fun p => by simp only [abs_fin, Ext.mul])
  refine ⟨?_, ?_, ?_⟩
  · rw [formOf_eq ex pts hr, deviation, if_pos rfl, hsq, mean_fin _ _ hne]
    exact finish_full _ hlen _ _ _
  · rw [formOf_eq ex pts hr, deviation, if_neg (by decide), if_pos rfl, hsq, sum_map_fin]
    exact finish_full _ hlen _ _ _
  · rw [formOf_eq ex pts hr, deviation, if_neg (by decide), if_neg (by decide), if_neg (by decide),
      if_neg (by decide), if_pos rfl, hab, mean_fin _ _ hne]
    exact finish_full _ hlen _ _ _

omit [LinearOrder K] [IsStrictOrderedRing K] in
theorem d_zero_iff (p : Pt K) (h : p.r ≠ 0) : p.d = 0 ↔ p.t = p.r := by
  rw [Pt.d, div_eq_zero_iff, or_iff_left h, sub_eq_zero]

theorem sum_zero_iff {α : Type} (l : List α) (f : α → K) (h : ∀ a ∈ l, 0 ≤ f a) :
    0 ≤ (l.map f).sum ∧ ((l.map f).sum = 0 ↔ ∀ a ∈ l, f a = 0) := by
  induction l with
  | nil => simp
  | cons a l ih =>
    obtain ⟨h1, h2⟩ := ih fun b hb => h b (List.mem_cons_of_mem _ hb)
    have ha := h a (List.mem_cons_self ..)
    simp only [List.map_cons, List.sum_cons, List.mem_cons, forall_eq_or_imp]
    refine ⟨add_nonneg ha h1, ?_⟩
    rw [add_eq_zero_iff_of_nonneg ha h1, h2]

/-- **C41.**  For non-negative weights and non-zero references the three plain measures are
non-negative, and zero exactly when every point of positive weight is matched. -/
theorem c41_nonneg_zero (ex : K → K) (pts : List (Pt K)) (hr : ∀ p ∈ pts, p.r ≠ 0) (hne : pts ≠ [])
    (hw : ∀ p ∈ pts, 0 ≤ p.w) (nn nr : K) (method : String)
    (hm : method = "average-squared-deviation" ∨ method = "sum-squared-deviation" ∨
      method = "percent-absolute-average-deviation") :
    ∃ v, formOf ex pts method nn nr = .ok (.fin v) ∧ 0 ≤ v ∧
      (v = 0 ↔ ∀ p ∈ pts, 0 < p.w → p.t = p.r) := by
  obtain ⟨h1, h2, h3⟩ := c41_value ex pts hr hne nn nr
  have hn : (0 : K) < pts.length := by exact_mod_cast List.length_pos_iff.mpr hne
  obtain ⟨s1, s2⟩ := sum_zero_iff pts (fun p => p.d ^ 2 * p.w)
    (fun p hp => mul_nonneg (sq_nonneg _) (hw p hp))
  obtain ⟨a1, a2⟩ := sum_zero_iff pts (fun p => |p.d| * p.w)
    (fun p hp => mul_nonneg (abs_nonneg _) (hw p hp))
  have e1 : (∀ p ∈ pts, p.d ^ 2 * p.w = 0) ↔ ∀ p ∈ pts, 0 < p.w → p.t = p.r := by
    refine forall₂_congr fun p hp => ?_
    rw [mul_eq_zero, pow_eq_zero_iff (by norm_num), d_zero_iff p (hr p hp)]
    have := hw p hp
    constructor
    · rintro (h | h) h'
      · exact h
      · rw [h] at h'; exact absurd h' (lt_irrefl _)
    · intro h
      rcases this.lt_or_eq with h' | h'
      · exact Or.inl (h h')
      · exact Or.inr h'.symm
  have e2 : (∀ p ∈ pts, |p.d| * p.w = 0) ↔ ∀ p ∈ pts, 0 < p.w → p.t = p.r := by
    rw [← e1]
    refine forall₂_congr fun p hp => ?_
    rw [mul_eq_zero, mul_eq_zero, abs_eq_zero, pow_eq_zero_iff (by norm_num)]
  rcases hm with rfl | rfl | rfl
  · exact ⟨_, h1, div_nonneg s1 hn.le, by rw [div_eq_zero_iff, or_iff_left hn.ne', s2, e1]⟩
  · exact ⟨_, h2, s1, by rw [s2, e1]⟩
  · refine ⟨_, h3, mul_nonneg (div_nonneg a1 hn.le) (by norm_num), ?_⟩
    rw [mul_eq_zero, or_iff_left (by norm_num : (100 : K) ≠ 0), div_eq_zero_iff,
      or_iff_left hn.ne', a2, e2]

/-- Non-vacuity. -/
example : formOf (K := ℚ) (fun _ => 1) [⟨1, 2, 1⟩, ⟨3, 3, 2⟩] "average-squared-deviation" 1000 (1/10) =
    .ok (.fin (1/8)) := by decide +kernel

/-! ## The Boltzmann-weighted measures -/

/-- The smallest deviation. -/
def lowest (a : K) (l : List K) : K := l.foldl (fun m x => if x < m then x else m) a

omit [Field K] [IsStrictOrderedRing K] in
theorem pyMin_fin [Field K] (a : K) (l : List K) :
    Ext.pyMin (.fin a) (l.map Ext.fin) = .fin (lowest a l) := by
  unfold Ext.pyMin lowest
  induction l generalizing a with
  | nil => rfl
  | cons b l ih =>
    simp only [List.map_cons, List.foldl_cons, Ext.lt, decide_eq_true_eq]
    split <;> exact ih _

omit [Field K] [IsStrictOrderedRing K] in
theorem lowest_spec (a : K) (l : List K) :
    lowest a l ∈ a :: l ∧ ∀ x ∈ a :: l, lowest a l ≤ x := by
  induction l generalizing a with
  | nil => simp [lowest]
  | cons b l ih =>
    have e : lowest a (b :: l) = lowest (if b < a then b else a) l := rfl
    rw [e]
    obtain ⟨h1, h2⟩ := ih (if b < a then b else a)
    constructor
    · rcases List.mem_cons.mp h1 with h | h
      · rw [h]; split <;> simp
      · exact List.mem_cons_of_mem _ (List.mem_cons_of_mem _ h)
    · intro x hx
      have h3 := h2 _ (List.mem_cons_self ..)
      rcases List.mem_cons.mp hx with rfl | hx
      · refine h3.trans ?_
        split
        · next h => exact h.le
        · exact le_refl _
      · rcases List.mem_cons.mp hx with rfl | hx
        · refine h3.trans ?_
          split
          · exact le_refl _
          · next h => exact not_lt.mp h
        · exact h2 x (List.mem_cons_of_mem _ hx)

omit [LinearOrder K] [IsStrictOrderedRing K] in
theorem sum_nan (l : List (Ext K)) (h : Ext.nan ∈ l) : sum l = .nan := by
  induction l with
  | nil => cases h
  | cons a l ih =>
    change Ext.add a (sum l) = .nan
    rcases List.mem_cons.mp h with rfl | h
    · cases sum l <;> rfl
    · rw [ih h]; cases a <;> rfl

/-- **C41 is violated by both Boltzmann-weighted measures**: when the best point is matched exactly and
the others are above their references (in particular for a perfect match) the objective is NaN. -/
theorem c41_violated_boltz (ex : K → K) (pts : List (Pt K)) (hr : ∀ p ∈ pts, p.r ≠ 0)
    (hall : ∀ p ∈ pts, 0 ≤ p.d) (hone : ∃ p ∈ pts, p.t = p.r) (nn nr : K) :
    formOf ex pts "sum-squared-deviation-boltz" nn nr = .ok .nan ∧
    formOf ex pts "sum-deviation-boltz" nn nr = .ok .nan := by
  obtain ⟨q, hq, hqe⟩ := hone
  have hqd : q.d = 0 := (d_zero_iff q (hr q hq)).mpr hqe
  cases pts with
  | nil => cases hq
  | cons p l =>
    have hlow : lowest p.d (l.map Pt.d) = 0 := by
      obtain ⟨h1, h2⟩ := lowest_spec p.d (l.map Pt.d)
      have h1' : lowest p.d (l.map Pt.d) ∈ (p :: l).map Pt.d := h1
      obtain ⟨s, hs, he⟩ := List.mem_map.mp h1'
      have h3 : lowest p.d (l.map Pt.d) ≤ q.d := h2 _ (by
        have : q.d ∈ (p :: l).map Pt.d := List.mem_map.mpr ⟨q, hq, rfl⟩
        exact this)
      exact le_antisymm (hqd ▸ h3) (he ▸ hall s hs)
    have hmin : amin ((p :: l).map fun p => Ext.fin p.d) = .ok (.fin 0) := by
      have := pyMin_fin p.d (l.map Pt.d)
      rw [List.map_map, hlow] at this
      simp only [List.map_cons, amin]
      rw [← this]
      rfl
    have hb : boltz ex (.fin (0 : K)) (.fin q.d) = .nan := by
      simp [boltz, hqd, Ext.sub, Ext.neg, Ext.add, Objective.abs, Ext.div, Ext.signInf,
        Objective.exp]
    have hmem : ∀ f : Ext K → Ext K → Ext K, f (.fin q.d) (.fin q.w) = .nan →
        Ext.nan ∈ ((p :: l).map fun p => Ext.fin p.d).zipWith f ((p :: l).map fun p => Ext.fin p.w) := by
      intro f hf
      rw [List.zipWith_map, List.zipWith_self]
      exact List.mem_map.mpr ⟨q, hq, hf⟩
    have hlen : (p :: l).length ≠ 0 := by simp
    constructor
    · rw [formOf_eq ex _ hr, deviation, if_neg (by decide), if_neg (by decide), if_pos rfl, hmin]
      simp only
      rw [sum_nan _ (hmem _ (by simp only [hb, Ext.mul]))]
      exact finish_full _ hlen _ _ _
    · rw [formOf_eq ex _ hr, deviation, if_neg (by decide), if_neg (by decide), if_neg (by decide),
        if_pos rfl, hmin]
      simp only
      rw [sum_nan _ (hmem _ (by simp only [hb, Ext.mul]))]
      exact finish_full _ hlen _ _ _

/-- **C41 is violated by `sum-deviation-boltz`**: it is negative for a prediction below its
reference, and the further below, the better it looks. -/
theorem c41_violated_negative (ex : K → K) (h0 : ex 0 = 1) (p : Pt K) (hr : p.r ≠ 0)
    (hd : p.d < 0) (nn nr : K) :
    formOf ex [p] "sum-deviation-boltz" nn nr = .ok (.fin (p.d * p.w)) := by
  rw [formOf_eq ex _ (by simpa using hr), deviation, if_neg (by decide), if_neg (by decide),
    if_neg (by decide), if_pos rfl]
  have : (if p.d < 0 then -p.d else p.d) ≠ 0 := by rw [if_pos hd]; exact (neg_pos.mpr hd).ne'
  simp only [List.map_cons, List.map_nil, amin, Ext.pyMin, List.foldl_nil, List.zipWith_cons_cons,
    List.zipWith_nil_left, boltz, Ext.sub, Ext.neg, Ext.add, Objective.abs, Ext.div, this, if_false,
    add_neg_cancel, zero_div, Objective.exp, h0, Ext.mul, mul_one, sum, List.foldr_cons,
    List.foldr_nil, add_zero]
  exact finish_full 1 (by decide) nn nr _

/-- With positive Boltzmann factors the squared measure is a non-negative number unless the smallest
deviation is exactly zero. -/
theorem c41_boltz_partial (ex : K → K) (hex : ∀ x, 0 < ex x) (pts : List (Pt K))
    (hr : ∀ p ∈ pts, p.r ≠ 0) (hne : pts ≠ []) (hw : ∀ p ∈ pts, 0 ≤ p.w) (nn nr : K)
    (hmin : ∀ p ∈ pts, p.d = 0 → ∃ q ∈ pts, q.d < 0) :
    ∃ v, formOf ex pts "sum-squared-deviation-boltz" nn nr = .ok (.fin v) ∧ 0 ≤ v ∧
      (v = 0 ↔ ∀ p ∈ pts, 0 < p.w → p.t = p.r) := by
  cases pts with
  | nil => exact absurd rfl hne
  | cons p l =>
    let m := lowest p.d (l.map Pt.d)
    have hm : m ≠ 0 := by
      obtain ⟨h1, h2⟩ := lowest_spec p.d (l.map Pt.d)
      have h1' : m ∈ (p :: l).map Pt.d := h1
      obtain ⟨s, hs, he⟩ := List.mem_map.mp h1'
      intro h0
      obtain ⟨q, hq, hqd⟩ := hmin s hs (he.trans h0)
      have : m ≤ q.d := h2 _ (by
        have : q.d ∈ (p :: l).map Pt.d := List.mem_map.mpr ⟨q, hq, rfl⟩
        exact this)
      linarith
    have hamin : amin ((p :: l).map fun p => Ext.fin p.d) = .ok (.fin m) := by
      have := pyMin_fin p.d (l.map Pt.d)
      rw [List.map_map] at this
      simp only [List.map_cons, amin]
      rw [← this]
      rfl
    have hlen : (p :: l).length ≠ 0 := by simp
    have hz := zip_measure (p :: l)
      (fun a b => Ext.mul (Ext.mul (Ext.mul a a) b) (boltz ex (.fin m) a))
      (fun q => q.d ^ 2 * q.w * ex ((m - q.d) / |m|)) (fun q => by
        have : |m| ≠ 0 := abs_ne_zero.mpr hm
        simp only [boltz, abs_fin, Ext.sub, Ext.neg, Ext.add, Ext.div, this, if_false, Objective.exp,
          Ext.mul, pow_two, sub_eq_add_neg])
    obtain ⟨s1, s2⟩ := sum_zero_iff (p :: l) (fun q => q.d ^ 2 * q.w * ex ((m - q.d) / |m|))
      (fun q hq => mul_nonneg (mul_nonneg (sq_nonneg _) (hw q hq)) (hex _).le)
    refine ⟨_, ?_, s1, ?_⟩
    · rw [formOf_eq ex _ hr, deviation, if_neg (by decide), if_neg (by decide), if_pos rfl, hamin]
      simp only
      rw [hz, sum_map_fin]
      exact finish_full _ hlen _ _ _
    · rw [s2]
      refine forall₂_congr fun q hq => ?_
      rw [mul_eq_zero, or_iff_left (hex _).ne', mul_eq_zero, pow_eq_zero_iff (by norm_num),
        d_zero_iff q (hr q hq)]
      have := hw q hq
      constructor
      · rintro (h | h) h'
        · exact h
        · rw [h] at h'; exact absurd h' (lt_irrefl _)
      · intro h
        rcases this.lt_or_eq with h' | h'
        · exact Or.inl (h h')
        · exact Or.inr h'.symm

/-! ## References equal to zero, unknown measures -/

/-- **C41 is violated for a reference of zero**: a perfect prediction of it counts as missing, so two
perfect predictions get the objective 1000. -/
theorem c41_violated_zero_reference :
    objForm (K := ℚ) (fun _ => 1) [.fin 0, .fin 1] [.fin 0, .fin 1] (.one (.fin 1))
      "average-squared-deviation" 1000 (1/10) = .ok (.fin 1000) := by decide +kernel

omit [IsStrictOrderedRing K] in
/-- **C41, unknown measures**: with a comparable point an unknown name raises, though not with a
helpful exception. -/
theorem c41_unknown (ex : K → K) (pts : List (Pt K)) (hr : ∀ p ∈ pts, p.r ≠ 0) (hne : pts ≠ [])
    (method : String) (nn nr : K)
    (hm : method ∉ ["average-squared-deviation", "sum-squared-deviation",
      "sum-squared-deviation-boltz", "sum-deviation-boltz", "percent-absolute-average-deviation"]) :
    formOf ex pts method nn nr = .error .unboundLocal := by
  have hlen : pts.length ≠ 0 := fun h => hne (List.length_eq_zero_iff.mp h)
  simp only [List.mem_cons, List.not_mem_nil, or_false, not_or] at hm
  obtain ⟨h1, h2, h3, h4, h5⟩ := hm
  rw [formOf_eq ex pts hr, deviation, if_neg h1, if_neg h2, if_neg h3, if_neg h4, if_neg h5]
  simp only [finish, if_neg hlen]

/-- **C41 is violated for unknown measures without comparable points**: the name is not rejected. -/
theorem c41_violated_unknown :
    objForm (K := ℚ) (fun _ => 1) [.nan] [.fin 1] (.one (.fin 1)) "no-such-measure" 1000 (1/10) =
      .ok .nan := by decide +kernel

/-! ## C42: a perfect fit -/

/-- All predictions of the series are the reference data, which are non-zero numbers. -/
def Perfect (s : Series K) : Prop :=
  ∃ pts : List (Pt K), pts ≠ [] ∧ (∀ p ∈ pts, p.r ≠ 0 ∧ p.t = p.r ∧ 0 ≤ p.w) ∧
    s = ⟨pts.map fun p => .fin p.t, pts.map fun p => .fin p.r, .each (pts.map fun p => .fin p.w)⟩

theorem perfect_form (ex : K → K) (o : FormOpts K) (s : Series K) (hs : Perfect s)
    (hm : o.method = "average-squared-deviation" ∨ o.method = "sum-squared-deviation" ∨
      o.method = "percent-absolute-average-deviation") : s.form ex o = .ok (.fin 0) := by
  obtain ⟨pts, hne, hp, rfl⟩ := hs
  obtain ⟨v, h1, -, h3⟩ := c41_nonneg_zero ex pts (fun p h => (hp p h).1) hne
    (fun p h => (hp p h).2.2) o.nanNumber o.nanRatio o.method hm
  have : v = 0 := h3.mpr fun p h _ => (hp p h).2.1
  subst this
  exact h1

/-- **C42 is violated.**  For every data set of any of the classes, with any of the three plain
measures: if all predictions are equal to the data, the objective is infinite. -/
theorem c42_violated (ex : K → K) (o : FormOpts K)
    (hm : o.method = "average-squared-deviation" ∨ o.method = "sum-squared-deviation" ∨
      o.method = "percent-absolute-average-deviation")
    (quantities : List (Option (List (Series K))))
    (hp : ∀ cols, some cols ∈ quantities → ∀ s ∈ cols, Perfect s) :
    dataObjective ex o quantities = .ok .pinf := by
  have hpart : ∀ q ∈ quantities, part ex o q = .ok (.fin 0) := by
    intro q hq
    cases q with
    | none => rfl
    | some cols =>
      have hc := hp cols hq
      have : ∀ cols : List (Series K), (∀ s ∈ cols, Perfect s) →
          cols.foldlM (fun acc s => (s.form ex o).map (Ext.add acc)) (Ext.fin 0) = .ok (.fin 0) := by
        intro cols
        induction cols with
        | nil => intro _; rfl
        | cons s l ih =>
          intro h
          rw [List.foldlM_cons, perfect_form ex o s (h s (List.mem_cons_self ..)) hm]
          simp only [Except.map, Ext.add, add_zero, bind, Except.bind]
          exact ih fun t ht => h t (List.mem_cons_of_mem _ ht)
      exact this cols hc
  have hmap : quantities.mapM (part ex o) = .ok (quantities.map fun _ => .fin 0) := by
    clear hp
    induction quantities with
    | nil => rfl
    | cons q l ih =>
      rw [List.mapM_cons, hpart q (List.mem_cons_self ..),
        ih fun r hr => hpart r (List.mem_cons_of_mem _ hr)]
      rfl
  unfold dataObjective
  rw [hmap]
  simp only [total]
  rw [if_pos]
  rw [List.all_eq_true]
  intro x hx
  obtain ⟨-, -, rfl⟩ := List.mem_map.mp hx
  simp [nanOrZero]

/-- A small error is better than none: the same data set with one percent of deviation. -/
theorem c42_violated_witness :
    dataObjective (K := ℚ) (fun _ => 1) ⟨"average-squared-deviation", 1000, 1/10⟩
      [some [⟨[.fin 100], [.fin 100], .one (.fin 1)⟩], none, none] = .ok .pinf ∧
    dataObjective (K := ℚ) (fun _ => 1) ⟨"average-squared-deviation", 1000, 1/10⟩
      [some [⟨[.fin 101], [.fin 100], .one (.fin 1)⟩], none, none] = .ok (.fin (1/10000)) := by
  decide +kernel

omit [IsStrictOrderedRing K] in
/-- **C42, what holds.**  As soon as one part is a non-zero number, numbers add up. -/
theorem c42_partial (l : List K) (h : ∃ x ∈ l, x ≠ 0) : total (l.map Ext.fin) = .fin l.sum := by
  unfold total
  rw [if_neg, nansum_fin]
  intro hall
  rw [List.all_eq_true] at hall
  obtain ⟨x, hx, hne⟩ := h
  have := hall (.fin x) (List.mem_map.mpr ⟨x, hx, rfl⟩)
  simp only [nanOrZero, decide_eq_true_eq] at this
  exact hne this

/-! ## C73: failing predictions -/

/-- **C73 is violated.**  A quantity whose predictions all fail (NaN) makes the data set look better
than any imperfect prediction of it. -/
theorem c73_violated (a b : K) (ha : a ≠ 0) (hb : 0 < b) :
    total [.nan, .fin a] = .fin a ∧ total [.fin b, .fin a] = .fin (b + a) ∧ a < b + a := by
  have h1 : total [.nan, .fin a] = .fin a := by
    simp [total, nanOrZero, ha, nansum, isNan, sum, Ext.add]
  have h2 : total [.fin b, .fin a] = .fin (b + a) := by
    simp [total, nanOrZero, ha, hb.ne', nansum, isNan, sum, Ext.add]
  exact ⟨h1, h2, by linarith⟩

/-- The same through the whole data set: saturation pressures all fail, liquid densities are 10 %
off; against saturation pressures 50 % off. -/
theorem c73_violated_witness :
    dataObjective (K := ℚ) (fun _ => 1) ⟨"average-squared-deviation", 1000, 1/10⟩
      [some [⟨[.nan, .nan], [.fin 100, .fin 200], .one (.fin 1)⟩],
       some [⟨[.fin 11, .fin 22], [.fin 10, .fin 20], .one (.fin 1)⟩], none] = .ok (.fin (1/100)) ∧
    dataObjective (K := ℚ) (fun _ => 1) ⟨"average-squared-deviation", 1000, 1/10⟩
      [some [⟨[.fin 150, .fin 300], [.fin 100, .fin 200], .one (.fin 1)⟩],
       some [⟨[.fin 11, .fin 22], [.fin 10, .fin 20], .one (.fin 1)⟩], none] =
      .ok (.fin (1/4 + 1/100)) := by
  decide +kernel

omit [IsStrictOrderedRing K] in
/-- **C73, what holds.**  When every quantity fails, the data set gives infinity. -/
theorem c73_partial (l : List (Ext K)) (h : ∀ x ∈ l, x = .nan) : total l = .pinf := by
  unfold total
  rw [if_pos]
  rw [List.all_eq_true]
  intro x hx
  rw [h x hx]
  rfl

/-! ## C41: input that cannot be compared -/

omit [IsStrictOrderedRing K] in
/-- **C41** (lengths): data of different lengths are refused, and so is a list of two or more weights that is not as long as
the data. -/
theorem c41_lengths (ex : K → K) (test ref : List (Ext K)) (w : Weights K) (ws : List (Ext K)) (method : String) (nn nr : K) :
    (ref.length ≠ test.length → objForm ex test ref w method nn nr = .error .valueError) ∧
    (1 < ws.length → ws.length ≠ test.length → objForm ex test ref (.each ws) method nn nr = .error .valueError) := by
  constructor
  · intro h
    simp only [objForm, if_pos h]
  · intro h1 h2
    unfold objForm
    split
    · rfl
    · rw [if_pos ⟨h1, h2⟩]

omit [IsStrictOrderedRing K] in
private theorem mapM_index (ws : List (Ext K)) (l : List ((Ext K × Ext K) × Nat)) (h : ∃ p ∈ l, ws.length ≤ p.2) :
    (l.mapM fun p => weightAt ws p.2) = .error .indexError := by
  induction l with
  | nil => obtain ⟨p, hp, -⟩ := h; cases hp
  | cons a l ih =>
    rw [List.mapM_cons]
    by_cases ha : a.2 < ws.length
    · have : weightAt ws a.2 = .ok ws[a.2] := by simp [weightAt, ha]
      rw [this]
      have ih := ih (by
        obtain ⟨p, hp, hl⟩ := h
        rcases List.mem_cons.mp hp with rfl | hp
        · omega
        · exact ⟨p, hp, hl⟩)
      simp [ih, bind, Except.bind]
    · have : weightAt ws a.2 = .error .indexError := by
        simp [weightAt, List.getElem?_eq_none (not_lt.mp ha)]
      rw [this]; rfl

omit [IsStrictOrderedRing K] in
/-- **C41 is violated by lists with one weight or none**: they pass the check of the lengths, and the first comparable point
without a weight raises IndexError. -/
theorem c41_violated_short (ex : K → K) (test ref ws : List (Ext K)) (method : String) (nn nr : K) (i : Nat) (a b : Ext K)
    (hl : ref.length = test.length) (hs : ws.length ≤ 1) (hi : ws.length ≤ i) (ha : test[i]? = some a) (hb : ref[i]? = some b)
    (hc : isNan (dev (a, b)) = false) :
    objForm ex test ref (.each ws) method nn nr = .error .indexError := by
  have hz : ((a, b), i) ∈ (test.zip ref).zipIdx := by
    rw [List.mem_zipIdx_iff_getElem?, List.getElem?_zip_eq_some]
    exact ⟨ha, hb⟩
  have : devWeights test ref (.each ws) = .error .indexError :=
    mapM_index ws _ ⟨((a, b), i), List.mem_filter.mpr ⟨hz, by simp [hc]⟩, hi⟩
  unfold objForm
  rw [if_neg (by simp [hl]), if_neg (by simp only [Weights.size]; omega), this]

omit [IsStrictOrderedRing K] in
/-- **C41 is violated by the Boltzmann-weighted measures when nothing can be compared**: they raise ValueError where the other
measures give NaN. -/
theorem c41_violated_boltz_nothing (ex : K → K) (test ref : List (Ext K)) (w : Ext K) (nn nr : K)
    (hl : ref.length = test.length) (hnone : devs test ref = []) :
    objForm ex test ref (.one w) "sum-squared-deviation-boltz" nn nr = .error .valueError ∧
    objForm ex test ref (.one w) "sum-deviation-boltz" nn nr = .error .valueError := by
  constructor <;> simp [objForm, hl, Weights.size, devWeights, hnone, deviation, amin]

/-- **C41 is violated by the Boltzmann-weighted measures for a prediction that diverges**: beside a finite deviation an
infinite one gives NaN, where the other measures give infinity. -/
theorem c41_violated_boltz_infinite (ex : K → K) (p : Pt K) (r w : K) (hp : p.r ≠ 0) (hd : p.d ≠ 0) (hr : 0 < r) (hw : 0 < w)
    (nn nr : K) :
    objForm ex [.fin p.t, .pinf] [.fin p.r, .fin r] (.each [.fin p.w, .fin w]) "sum-squared-deviation-boltz" nn nr = .ok .nan ∧
    objForm ex [.fin p.t, .pinf] [.fin p.r, .fin r] (.each [.fin p.w, .fin w]) "sum-deviation-boltz" nn nr = .ok .nan ∧
    objForm ex [.fin p.t, .pinf] [.fin p.r, .fin r] (.each [.fin p.w, .fin w]) "sum-squared-deviation" nn nr = .ok .pinf := by
  have h1 : dev (.fin p.t, .fin p.r) = .fin p.d := dev_fin p hp
  have h2 : dev ((.pinf : Ext K), .fin r) = .pinf := by
    simp [dev, Ext.sub, Ext.neg, Ext.add, Ext.div, hr.le]
  have hdv : devs [.fin p.t, .pinf] [.fin p.r, .fin r] = [.fin p.d, .pinf] := by
    simp [devs, h1, h2, isNan]
  have hws : devWeights [.fin p.t, .pinf] [.fin p.r, .fin r] (.each [.fin p.w, .fin w]) = .ok [.fin p.w, .fin w] := by
    simp [devWeights, List.zipIdx, h1, h2, isNan, weightAt, bind, Except.bind, pure, Except.pure]
  have ha : (if p.d < 0 then -p.d else p.d) ≠ 0 := by
    split
    · exact neg_ne_zero.mpr hd
    · exact hd
  have hpos : 0 < (if p.d < 0 then -p.d else p.d) := by
    split
    · next h => exact neg_pos.mpr h
    · next h => exact lt_of_le_of_ne (not_lt.mp h) (Ne.symm hd)
  have hm : amin [Ext.fin p.d, .pinf] = .ok (.fin p.d) := by simp [amin, Ext.pyMin, Ext.lt]
  have hb : boltz ex (.fin p.d) .pinf = .fin 0 := by
    simp [boltz, Ext.sub, Ext.neg, Ext.add, Objective.abs, Ext.div, not_lt.mpr hpos.le, Objective.exp]
  have hz : ∀ v : Ext K, Ext.mul (Ext.mul (Ext.mul .pinf .pinf) (.fin w)) (.fin (0 : K)) = .nan ∧
      Ext.mul (Ext.mul .pinf (.fin w)) (.fin (0 : K)) = .nan ∧ Ext.add v .nan = .nan := fun v => by
    refine ⟨?_, ?_, ?_⟩
    · simp [Ext.mul, hw, Ext.signInf]
    · simp [Ext.mul, hw, Ext.signInf]
    · cases v <;> rfl
  have hlen : devs [.fin p.t, (.pinf : Ext K)] [.fin p.r, .fin r] ≠ [] := by rw [hdv]; simp
  refine ⟨?_, ?_, ?_⟩
  · simp only [objForm, Weights.size, hws, hdv, deviation, hm]
    simp [hb, sum, finish, (hz (.fin 0)).1, Ext.add]
    exact (hz _).2.2
  · simp only [objForm, Weights.size, hws, hdv, deviation, hm]
    simp [hb, sum, finish, (hz (.fin 0)).2.1, Ext.add]
    exact (hz _).2.2
  · simp only [objForm, Weights.size, hws, hdv, deviation]
    simp [sum, finish, Ext.mul, hw, Ext.signInf, Ext.add]

example : objForm (K := ℚ) (fun _ => 1) [.fin 1, .fin 2] [.fin 1, .fin 2] (.each [.fin 1]) "sum-squared-deviation" 1000 (1/10)
    = .error .indexError := by decide +kernel

end Verif.Props
