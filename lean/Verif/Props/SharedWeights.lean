import Mathlib.Tactic.Tauto
import Verif.Props.DataClasses

/-! # C149: weights of data sets that share a dictionary -/

namespace Verif.Props
open Verif Verif.Toolbox Verif.DataClasses Verif.Spec

variable {α : Type}

/-- Specification: the weights of `n` states, given one by one or as one number for all. -/
def spread (n : Nat) : Arg α → List α
  | .scalar a => List.replicate n a
  | .arr l => l

theorem move_other (s s' : St α) (m : Move) (hv : s.vals = s'.vals) (hd : s.data = s'.data) :
    (move s m).vals = (move s' m).vals ∧ (move s m).data = (move s' m).data := by
  unfold move
  rw [hd, hv]
  cases s'.data.get? m.old <;> exact ⟨by simp [hv], by simp [hd]⟩

theorem moves_other (ms : List Move) (s s' : St α) (hv : s.vals = s'.vals) (hd : s.data = s'.data) :
    (ms.foldl move s).vals = (ms.foldl move s').vals ∧ (ms.foldl move s).data = (ms.foldl move s').data := by
  induction ms generalizing s s' with
  | nil => exact ⟨hv, hd⟩
  | cons m ms ih =>
    obtain ⟨h1, h2⟩ := move_other s s' m hv hd
    exact ih _ _ h1 h2

/-- The values do not depend on the weights. -/
theorem prepare_values (k : Kind) (i : Input α) (w : PyDict String (Arg α)) :
    (prepare k { i with weights := w }).1 = (prepare k i).1 := by
  obtain ⟨h1, h2⟩ := moves_other (moves k) ⟨PyDict.empty, w, i.data⟩ ⟨PyDict.empty, i.weights, i.data⟩ rfl rfl
  simp only [prepare, h1, h2]

/-- Once renamed, a weight is not found under its old name. -/
theorem prepare_renamed (k : Kind) (i : Input α) (m : Move) (hm : m ∈ moves k) (hw : m.wt = true)
    (hd : (i.data.get? m.old).isSome) : (prepare k i).2.get? m.old = none := by
  cases k <;> simp only [moves, List.mem_cons, List.not_mem_nil, or_false] at hm <;>
    rcases hm with rfl | rfl | rfl | rfl <;> simp only [Bool.false_eq_true] at hw <;>
    simp only [prepare, moves, List.foldl_cons, List.foldl_nil, move_weights, move_data] <;>
    simp [hd]

/-- Without any old name among the weights nothing is renamed. -/
theorem moves_noop (ms : List Move) (s : St α)
    (h : ∀ m ∈ ms, m.wt = true → (s.data.get? m.old).isSome → s.weights.get? m.old = none) :
    (ms.foldl move s).weights = s.weights := by
  induction ms generalizing s with
  | nil => rfl
  | cons m ms ih =>
    have h1 : (move s m).weights = s.weights := by
      unfold move
      cases hd : s.data.get? m.old with
      | none => rfl
      | some v =>
        cases hw : m.wt with
        | false => simp
        | true =>
          have := h m (List.mem_cons_self ..) hw (by rw [hd]; rfl)
          simp [renameKey, this]
    rw [List.foldl_cons, ih, h1]
    intro m' hm' hw hd
    rw [h1]
    refine h m' (List.mem_cons_of_mem _ hm') hw ?_
    rw [move_data] at hd
    split at hd
    · cases hd
    · exact hd

/-- What filling the weights gives. -/
theorem fillWeights_get (c : Consts α) (k : Kind) (n : Nat) (w w' : PyDict String (Arg α)) (h : fillWeights c k n w = .ok w')
    (key : String) :
    (key ∉ resultKeys k → w'.get? key = w.get? key) ∧
    (key ∈ resultKeys k → w.get? key = none → w'.get? key = some (.scalar c.weight)) ∧
    (key ∈ resultKeys k → ∀ a, w.get? key = some a → ∃ l, Broadcast n a l ∧ w'.get? key = some (.arr l)) := by
  unfold fillWeights at h
  cases hc : checkLengthDict w (resultKeys k) (some n) with
  | error e => rw [hc] at h; cases h
  | ok d =>
    rw [hc] at h
    simp only at h
    have hwf := checkLengthDict_WF _ _ _ _ hc
    obtain ⟨m, hm, h2, h3⟩ := c01_accepted _ _ _ _ hc
    have hm' : m = n := by simpa [IsPointCount] using hm
    subst hm'
    have hs := c02_missing_filled_scalar _ _ _ _ _ h key
    refine ⟨fun hk => ?_, fun hk hn => ?_, fun hk a ha => ?_⟩
    · rw [hs.2 hk, updateArr_get _ _ hwf]
      cases hd : d.get? key with
      | none => rfl
      | some l => exact absurd ((h2 key l).mp hd).1 hk
    · refine hs.1 hk ?_
      rw [updateArr_get _ _ hwf, hn]
      cases hd : d.get? key with
      | none => rfl
      | some l =>
        obtain ⟨_, a, ha, _⟩ := (h2 key l).mp hd
        rw [hn] at ha; cases ha
    · obtain ⟨l, hl, _⟩ := h3 key hk a ha
      obtain ⟨_, a', ha', hb⟩ := (h2 key l).mp hl
      rw [ha] at ha'; cases ha'
      refine ⟨l, hb, c02_user_value_kept _ _ _ _ _ h key _ ?_⟩
      rw [updateArr_get _ _ hwf, hl]; rfl

/-- Filling succeeds when all weights fit. -/
theorem fillWeights_total (c : Consts α) (k : Kind) (n : Nat) (w : PyDict String (Arg α))
    (h : ∀ key ∈ resultKeys k, ∀ a, w.get? key = some a → Fits n a) : ∃ w', fillWeights c k n w = .ok w' := by
  unfold fillWeights
  cases hc : checkLengthDict w (resultKeys k) (some n) with
  | error e =>
    obtain ⟨_, ⟨h1, _⟩ | ⟨m, hm, key, hk, a, ha, hf⟩⟩ := (c01_rejected _ _ _ _).mp hc
    · cases h1
    · have hm' : m = n := by simpa [IsPointCount] using hm
      exact absurd (h key hk a ha) (hm' ▸ hf)
  | ok d => exact ⟨_, rfl⟩

theorem broadcast_length {n : Nat} {a : Arg α} {l : List α} (h : Broadcast n a l) : l.length = n := by
  cases h with
  | scalar a => simp
  | single a => simp
  | full l h => exact h

theorem broadcast_again {n : Nat} {l l' : List α} (hl : l.length = n) (h : Broadcast n (.arr l) l') : l' = l := by
  cases h with
  | single a =>
    have : n = 1 := by simpa using hl.symm
    subst this; rfl
  | full l h => rfl

/-- The weight dropped for the composition that is given. -/
theorem finalWeights_get (k : Kind) (t : String) (w : PyDict String (Arg α)) (key : String) :
    (finalWeights k t w).get? key =
      if k = .tlve ∧ (t = "bubble_pressure" ∧ key = "xilist" ∨ t = "dew_pressure" ∧ key = "yilist") then none
      else w.get? key := by
  have hne : ¬ ("dew_pressure" = "bubble_pressure") := by decide
  cases k with
  | tlve =>
    unfold finalWeights
    simp only
    by_cases h1 : t = "bubble_pressure"
    · subst h1
      have : ¬ ("bubble_pressure" = "dew_pressure") := by decide
      simp only [if_true, PyDict.get?_erase, true_and, this, false_and, or_false]
      by_cases h2 : key = "xilist"
      · simp [h2]
      · rw [if_neg (fun e => h2 e.symm), if_neg h2]
    · rw [if_neg h1]
      by_cases h2 : t = "dew_pressure"
      · subst h2
        simp only [if_true, PyDict.get?_erase, true_and, hne, false_and, false_or]
        by_cases h3 : key = "yilist"
        · simp [h3]
        · rw [if_neg (fun e => h3 e.symm), if_neg h3]
      · rw [if_neg h2]; simp [h1, h2]
  | _ => simp [finalWeights]

/-- The constructor after the first steps, with other weights. -/
theorem finish_weights (c : Consts α) (k : Kind) (i : Input α) (vals w w₂ w₂' : PyDict String (Arg α)) (n : Nat) (b : Built α)
    (wi : PyDict String (Arg α)) (h : finish c k i vals w n = .ok b) (h2 : fillWeights c k n w₂ = .ok w₂') :
    finish c k { i with weights := wi } vals w₂ n = .ok { b with weights := finalWeights k b.calcType w₂' } := by
  unfold finish at h ⊢
  by_cases ha : ambiguous k i.comps vals
  · rw [if_pos ha] at h; cases h
  · rw [if_neg ha] at h
    rw [if_neg ha]
    cases hd : withDefaults c k n vals with
    | error e => simp only [hd] at h; cases h
    | ok vals' =>
      simp only [hd] at h
      simp only [h2]
      cases hw : fillWeights c k n w with
      | error e => simp only [hw] at h; cases h
      | ok w' =>
        simp only [hw] at h
        by_cases hi : incomplete k vals'
        · rw [if_pos hi] at h; cases h
        · rw [if_neg hi] at h
          rw [if_neg hi]
          cases ht : calculation c k i.calcType vals' with
          | error e => simp only [ht] at h; cases h
          | ok t =>
            simp only [ht, Except.ok.injEq] at h
            subst h
            rfl

theorem old_no_result (k : Kind) (m : Move) (hm : m ∈ moves k) : m.old ∉ resultKeys k := by
  cases k <;> simp only [moves, List.mem_cons, List.not_mem_nil, or_false] at hm <;>
    rcases hm with rfl | rfl | rfl | rfl <;> simp [resultKeys]

/-- After the construction no weight is found under an old name. -/
theorem built_renamed (c : Consts α) (k : Kind) (i : Input α) (b : Built α) (h : build c k i = .ok b) (m : Move)
    (hm : m ∈ moves k) (hw : m.wt = true) (hs : (i.data.get? m.old).isSome) : b.weights.get? m.old = none := by
  obtain ⟨d, w', t, hd, hn, _, hf, _, _, hbt, _, hbw, _, he⟩ := build_ok c k i b h
  rw [hbw, finalWeights_get, (fillWeights_get c k b.npoints _ _ hf m.old).1 (old_no_result k m hm),
    prepare_renamed k i m hm hw hs]
  simp

/-- With weights that have no old names the check of saturation pressures succeeds. -/
theorem satWeightCheck_renamed (k : Kind) (i : Input α) (w : PyDict String (Arg α))
    (h : ∀ m ∈ moves k, m.wt = true → (i.data.get? m.old).isSome → w.get? m.old = none) :
    satWeightCheck k { i with weights := w } = .ok () := by
  cases k with
  | saturation =>
    have h4 := h ⟨"P", "Psat", true⟩ (by simp [moves]) rfl
    simp only [satWeightCheck]
    cases hP : i.data.get? "P" with
    | none => rfl
    | some a =>
      rw [h4 (by rw [hP]; rfl)]
      cases a <;> rfl
  | _ => rfl

/-- **C149 (partial), the same data set again.** A data set built again from the description that the first one has used and
changed is the same, and its weights are the same numbers; those filled in for the first one are now written out for every state. -/
theorem c149_same_partial (c : Consts α) (k : Kind) (i : Input α) (b : Built α) (h : build c k i = .ok b) :
    ∃ b', build c k { i with weights := b.weights } = .ok b' ∧ b'.calcType = b.calcType ∧ b'.density = b.density ∧
      b'.vals = b.vals ∧ b'.npoints = b.npoints ∧ b'.resultKeys = b.resultKeys ∧
      ∀ key, (b'.weights.get? key).map (spread b.npoints) = (b.weights.get? key).map (spread b.npoints) := by
  obtain ⟨d, w', t, hd, hn, _, hf, _, _, hbt, _, hbw, _, he⟩ := build_ok c k i b h
  have hget := fillWeights_get c k b.npoints _ _ hf
  -- the weights renamed once
  have hold := built_renamed c k i b h
  have hprep : (prepare k { i with weights := b.weights }).2 = b.weights := moves_noop (moves k) _ hold
  -- the weights as they are stored
  have hst : ∀ key ∈ resultKeys k, ∀ a, b.weights.get? key = some a →
      (∃ l : List α, l.length = b.npoints ∧ a = .arr l) ∨ a = .scalar c.weight := by
    intro key hk a ha
    rw [hbw, finalWeights_get] at ha
    split at ha
    · cases ha
    · cases hp : (prepare k i).2.get? key with
      | none =>
        rw [(hget key).2.1 hk hp] at ha
        exact Or.inr (Option.some.inj ha).symm
      | some a' =>
        obtain ⟨l, hb, hl⟩ := (hget key).2.2 hk a' hp
        rw [hl] at ha
        exact Or.inl ⟨l, broadcast_length hb, (Option.some.inj ha).symm⟩
  obtain ⟨w₂, hw₂⟩ := fillWeights_total c k b.npoints b.weights (by
    intro key hk a ha
    rcases hst key hk a ha with ⟨l, hl, rfl⟩ | rfl
    · exact Or.inr hl
    · exact Or.inl rfl)
  have hget₂ := fillWeights_get c k b.npoints _ _ hw₂
  refine ⟨{ b with weights := finalWeights k b.calcType w₂ }, ?_, rfl, rfl, rfl, rfl, rfl, ?_⟩
  · unfold build at h ⊢
    rw [if_neg (by rw [he]; decide)] at h
    rw [if_neg (by rw [show ({ i with weights := b.weights } : Input α).hasEos = i.hasEos from rfl, he]; decide)]
    cases hsat : satWeightCheck k i with
    | error e => rw [hsat] at h; cases h
    | ok u =>
      rw [hsat] at h
      rw [satWeightCheck_renamed k i _ hold, prepare_values, hprep]
      simp only [hd, hn] at h ⊢
      exact finish_weights c k i _ _ _ _ _ _ _ h hw₂
  · intro key
    change ((finalWeights k b.calcType w₂).get? key).map _ = _
    rw [finalWeights_get]
    by_cases hx : k = .tlve ∧ (b.calcType = "bubble_pressure" ∧ key = "xilist" ∨ b.calcType = "dew_pressure" ∧ key = "yilist")
    · rw [if_pos hx, hbw, finalWeights_get, if_pos (by rw [← hbt]; exact hx)]
    · rw [if_neg hx]
      by_cases hk : key ∈ resultKeys k
      · cases hb : b.weights.get? key with
        | none =>
          exfalso
          rw [hbw, finalWeights_get, if_neg (by rw [← hbt]; exact hx)] at hb
          cases hp : (prepare k i).2.get? key with
          | none => rw [(hget key).2.1 hk hp] at hb; cases hb
          | some a' =>
            obtain ⟨l, _, hl⟩ := (hget key).2.2 hk a' hp
            rw [hl] at hb; cases hb
        | some a =>
          obtain ⟨l, hb1, hl⟩ := (hget₂ key).2.2 hk a hb
          rw [hl]
          rcases hst key hk a hb with ⟨l', hl', rfl⟩ | rfl
          · rw [broadcast_again hl' hb1]
          · cases hb1; rfl
      · rw [(hget₂ key).1 hk]

/-- **C149, violated for data sets of different lengths.** Of two data sets that share a dictionary of weights the second is
rejected if it has another number of states, although both are accepted when each has such a dictionary of its own: the first one
has written its weight out for each of its states. -/
theorem c149_violated_lengths (c : Consts α) (k : Kind) (i₁ i₂ : Input α) (b₁ b₂ : Built α) (hw : i₂.weights = i₁.weights)
    (h₁ : build c k i₁ = .ok b₁) (h₂ : build c k i₂ = .ok b₂)
    (hnames : ∀ key, (i₂.data.get? key).isSome → (i₁.data.get? key).isSome)
    (name : String) (a w : Arg α) (hd : i₁.data.get? name = some a) (hg : i₁.weights.get? name = some w)
    (hk : storedAs k name ∈ b₁.resultKeys)
    (ho : ∀ name', name' ≠ name → storedAs k name' = storedAs k name → i₁.data.get? name' = none)
    (h1 : b₁.npoints ≠ 1) (hne : b₁.npoints ≠ b₂.npoints) :
    i₂.weights.get? name = some w ∧ buildShared c k k i₁ i₂ = .error .valueError := by
  refine ⟨by rw [hw]; exact hg, ?_⟩
  obtain ⟨⟨l, hl, hst⟩, _⟩ := c80_weights_follow c k i₁ b₁ h₁ name a w hd hg hk ho
  have hold : ∀ m ∈ moves k, m.wt = true → (i₂.data.get? m.old).isSome → b₁.weights.get? m.old = none :=
    fun m hm hwt hs => built_renamed c k i₁ b₁ h₁ m hm hwt (hnames _ hs)
  have hprep : (prepare k { i₂ with weights := b₁.weights }).2 = b₁.weights := moves_noop (moves k) _ hold
  have hkr : storedAs k name ∈ resultKeys k := by
    rw [c81_results c k i₁ b₁ h₁] at hk
    cases k with
    | tlve =>
      simp only at hk
      split at hk
      · revert hk; simp [resultKeys]; tauto
      · split at hk
        · revert hk; simp [resultKeys]; tauto
        · exact hk
    | _ => exact hk
  have hfill : fillWeights c k b₂.npoints b₁.weights = .error .valueError := by
    unfold fillWeights
    have : checkLengthDict b₁.weights (resultKeys k) (some b₂.npoints) = .error .valueError := by
      rw [c01_rejected]
      refine ⟨rfl, Or.inr ⟨b₂.npoints, rfl, _, hkr, _, hst, ?_⟩⟩
      rintro (h | h)
      · exact h1 (by rw [← broadcast_length hl]; exact h)
      · exact hne (by rw [← broadcast_length hl]; exact h)
    rw [this]
  obtain ⟨d, w', t, hdd, hn, hv, hf, _, _, _, _, _, _, he⟩ := build_ok c k i₂ b₂ h₂
  have hb : build c k { i₂ with weights := b₁.weights } = .error .valueError := by
    unfold build at h₂ ⊢
    rw [if_neg (by rw [he]; decide)] at h₂
    rw [if_neg (by rw [show ({ i₂ with weights := b₁.weights } : Input α).hasEos = i₂.hasEos from rfl, he]; decide)]
    cases hsat : satWeightCheck k i₂ with
    | error e => rw [hsat] at h₂; cases h₂
    | ok u =>
      rw [hsat] at h₂
      rw [satWeightCheck_renamed k i₂ _ hold, prepare_values, hprep]
      simp only [hdd, hn] at h₂ ⊢
      unfold finish at h₂ ⊢
      by_cases ha : ambiguous k i₂.comps (updateArr (prepare k i₂).1 d)
      · rw [if_pos ha] at h₂; cases h₂
      · rw [if_neg ha]
        simp only [hv, hfill]
  simp only [buildShared, h₁, hb]

/-- **C149, violated for bubble and dew points.** When data of bubble points and data of dew points share a dictionary of weights,
the weights given for the liquid fractions are replaced by one, and the data set of bubble points has no weights left for its
vapour fractions. -/
theorem c149_violated_dew (c : Consts α) (i₁ i₂ : Input α) (b₁ b₂ : Built α) (h : buildShared c .tlve .tlve i₁ i₂ = .ok (b₁, b₂))
    (h₁ : i₁.calcType = some "bubble_pressure") (h₂ : i₂.calcType = some "dew_pressure")
    (hx : (i₁.data.get? "xi").isSome) :
    b₂.weights.get? "xilist" = some (.scalar c.weight) ∧ b₁.weights.get? "yilist" = none := by
  unfold buildShared at h
  cases hb₁ : build c .tlve i₁ with
  | error e => rw [hb₁] at h; cases h
  | ok b =>
    rw [hb₁] at h
    simp only at h
    cases hb₂ : build c .tlve { i₂ with weights := b.weights } with
    | error e => rw [hb₂] at h; cases h
    | ok b' =>
      rw [hb₂] at h
      simp only [Except.ok.injEq, Prod.mk.injEq] at h
      obtain ⟨rfl, rfl⟩ := h
      obtain ⟨d, w', t, _, _, _, hf, _, ht, _, _, hbw, _, _⟩ := build_ok c .tlve i₁ b hb₁
      obtain ⟨d', w'', t', _, _, _, hf', _, ht', _, _, hbw', _, _⟩ := build_ok c .tlve _ b' hb₂
      have e1 : t = "bubble_pressure" := by rw [h₁] at ht; exact (Except.ok.inj ht).symm
      have e2 : t' = "dew_pressure" := by
        simp only [h₂] at ht'; exact (Except.ok.inj ht').symm
      have g1 : b.weights.get? "xi" = none :=
        built_renamed c .tlve i₁ b hb₁ ⟨"xi", "xilist", true⟩ (by simp [moves]) rfl hx
      have g2 : b.weights.get? "xilist" = none := by rw [hbw, finalWeights_get, e1]; simp
      have g3 : (prepare .tlve { i₂ with weights := b.weights }).2.get? "xilist" = none := by
        simp [prepare, moves, move_weights, move_data, g1, g2]
      refine ⟨?_, ?_⟩
      · rw [hbw', finalWeights_get, (fillWeights_get _ _ _ _ _ hf' "xilist").2.1 (by decide) g3]
        simp [e2]
      · change b'.weights.get? "yilist" = none
        rw [hbw', finalWeights_get, e2]; simp

/-- The weight 7 for the pressures of two bubble points and of three: each data set is accepted, and both together with
one dictionary are not. -/
example :
    let weights : PyDict String (Arg Nat) := ⟨[("P", .scalar 7)]⟩
    let two : Input Nat := ⟨true, 2, weights, none, some "bubble_pressure",
      ⟨[("T", .arr [300, 310]), ("xi", .arr [5, 6]), ("P", .arr [1, 2])]⟩⟩
    let three : Input Nat := ⟨true, 2, weights, none, some "bubble_pressure",
      ⟨[("T", .arr [300, 310, 320]), ("xi", .arr [5, 6, 4]), ("P", .arr [1, 2, 3])]⟩⟩
    (build exampleConsts .tlve two).isOk = true ∧ (build exampleConsts .tlve three).isOk = true ∧
      buildShared exampleConsts .tlve .tlve two three = .error .valueError ∧
      (buildShared exampleConsts .tlve .tlve two two).isOk = true := by
  decide +kernel

/-- The weight 7 for the compositions of bubble points and of dew points. -/
example :
    let weights : PyDict String (Arg Nat) := ⟨[("xi", .scalar 7), ("yi", .scalar 7)]⟩
    let data : PyDict String (Arg Nat) := ⟨[("T", .arr [300, 310]), ("xi", .arr [5, 6]), ("yi", .arr [3, 4]), ("P", .arr [1, 2])]⟩
    (buildShared exampleConsts .tlve .tlve ⟨true, 2, weights, none, some "bubble_pressure", data⟩
      ⟨true, 2, weights, none, some "dew_pressure", data⟩).map
        (fun b => (b.1.weights.get? "yilist", b.2.weights.get? "xilist")) = .ok (none, some (.scalar exampleConsts.weight)) := by
  decide +kernel

end Verif.Props
