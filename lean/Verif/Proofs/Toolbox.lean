import Verif.Spec.Toolbox
import Mathlib.Tactic.ByContra

/-! Helper lemmas for C01 and C02. -/

namespace Verif.Toolbox
open Verif Verif.Spec

variable {κ α : Type} [DecidableEq κ]

theorem map_range_const (n : Nat) (a : α) : (List.range n).map (fun _ => a) = List.replicate n a := by
  apply List.ext_getElem <;> simp

theorem expand_arr_single (n : Nat) (a : α) : expand n (.arr [a]) = .ok (List.replicate n a) := by
  simp [expand, map_range_const]

theorem expand_arr_other (n : Nat) (l : List α) (h : l.length ≠ 1) :
    expand n (.arr l) = if l.length = n then .ok l else .error .valueError := by
  match l, h with
  | [], _ => rfl
  | [a], h => simp at h
  | _ :: _ :: _, _ => rfl

theorem expand_ok_iff (n : Nat) (v : Arg α) (l : List α) :
    expand n v = .ok l ↔ Broadcast n v l := by
  constructor
  · intro h
    cases v with
    | scalar a =>
      simp only [expand, map_range_const, Except.ok.injEq] at h
      subst h; exact .scalar a
    | arr rows =>
      by_cases h1 : rows.length = 1
      · obtain ⟨a, rfl⟩ := List.length_eq_one_iff.mp h1
        rw [expand_arr_single] at h
        cases h; exact .single a
      · rw [expand_arr_other n rows h1] at h
        split at h
        · rename_i hl
          cases h
          exact .full _ hl (hl ▸ h1)
        · cases h
  · intro h
    cases h with
    | scalar a => simp [expand, map_range_const]
    | single a => exact expand_arr_single n a
    | full l h h1 => rw [expand_arr_other n l (h ▸ h1)]; simp [h]

theorem expand_error_iff (n : Nat) (v : Arg α) (e : PyErr) :
    expand n v = .error e ↔ e = .valueError ∧ ¬ Fits n v := by
  cases v with
  | scalar a => simp [expand, Fits, rowsGiven]
  | arr rows =>
    by_cases h1 : rows.length = 1
    · obtain ⟨a, rfl⟩ := List.length_eq_one_iff.mp h1
      rw [expand_arr_single]; simp [Fits, rowsGiven]
    · rw [expand_arr_other n rows h1]
      split
      · rename_i hl; simp [Fits, rowsGiven, hl]
      · rename_i hl; simp [Fits, rowsGiven, hl, h1, eq_comm]

theorem len_eq_rowsGiven (v : Arg α) : v.len = rowsGiven v := by cases v <;> rfl

theorem mem_lxArray (d : PyDict κ (Arg α)) (keys : List κ) (n : Nat) :
    n ∈ lxArray d keys ↔ ∃ k ∈ keys, ∃ a, d.get? k = some a ∧ rowsGiven a = n := by
  induction keys with
  | nil => simp [lxArray]
  | cons k ks ih =>
    unfold lxArray
    split
    · rename_i v hv
      simp [ih, hv, len_eq_rowsGiven, eq_comm]
    · rename_i hv
      simp [ih, hv]

theorem le_maxList (l : List Nat) : ∀ a ∈ l, a ≤ maxList l := by
  induction l with
  | nil => simp
  | cons b l ih =>
    intro a ha
    simp only [List.mem_cons] at ha
    simp only [maxList]
    rcases ha with h | h
    · omega
    · have := ih a h; omega

theorem maxList_mem (l : List Nat) (h : l ≠ []) : maxList l ∈ l := by
  induction l with
  | nil => exact absurd rfl h
  | cons b l ih =>
    by_cases hl : l = []
    · subst hl; simp [maxList]
    · have := ih hl
      simp only [maxList, List.mem_cons]
      by_cases hb : maxList l ≤ b
      · left; omega
      · right; have : max b (maxList l) = maxList l := by omega
        rw [this]; assumption

theorem targetLength_ok_iff (d : PyDict κ (Arg α)) (keys : List κ) (lx : Option Nat) (n : Nat) :
    targetLength d keys lx = .ok n ↔ IsPointCount d.get? keys lx n := by
  unfold targetLength IsPointCount
  cases lx with
  | some m => simp [eq_comm]
  | none =>
    by_cases he : lxArray d keys = []
    · simp only [he, List.isEmpty_nil, if_true]
      constructor
      · intro h; cases h
      · rintro ⟨h, _⟩
        have := (mem_lxArray d keys n).mpr h
        rw [he] at this; cases this
    · have : (lxArray d keys).isEmpty = false := by simpa using he
      simp only [this, Bool.false_eq_true, if_false, Except.ok.injEq]
      constructor
      · rintro rfl
        refine ⟨(mem_lxArray d keys _).mp (maxList_mem _ he), ?_⟩
        intro k hk a ha
        exact le_maxList _ _ ((mem_lxArray d keys _).mpr ⟨k, hk, a, ha, rfl⟩)
      · rintro ⟨h1, h2⟩
        have h3 := le_maxList _ _ ((mem_lxArray d keys n).mpr h1)
        obtain ⟨k, hk, a, ha, hr⟩ := (mem_lxArray d keys _).mp (maxList_mem _ he)
        have := h2 k hk a ha
        omega

theorem targetLength_error_iff (d : PyDict κ (Arg α)) (keys : List κ) (lx : Option Nat) (e : PyErr) :
    targetLength d keys lx = .error e ↔
      e = .valueError ∧ lx = none ∧ ∀ k ∈ keys, d.get? k = none := by
  unfold targetLength
  cases lx with
  | some m => simp
  | none =>
    by_cases he : lxArray d keys = []
    · simp only [he, List.isEmpty_nil, if_true, Except.error.injEq, true_and]
      constructor
      · intro h
        refine ⟨h.symm, fun k hk => ?_⟩
        cases hg : d.get? k with
        | none => rfl
        | some a =>
          have := (mem_lxArray d keys (rowsGiven a)).mpr ⟨k, hk, a, hg, rfl⟩
          rw [he] at this; cases this
      · rintro ⟨h, _⟩; exact h.symm
    · have : (lxArray d keys).isEmpty = false := by simpa using he
      simp only [this, Bool.false_eq_true, if_false, reduceCtorEq, true_and, false_iff, not_and]
      intro _ hn
      obtain ⟨k, hk, a, ha, _⟩ := (mem_lxArray d keys _).mp (maxList_mem _ he)
      rw [hn k hk] at ha; cases ha

theorem fillLoop_ok (d : PyDict κ (Arg α)) (n : Nat) (keys : List κ) (acc out : PyDict κ (List α))
    (h : fillLoop d n keys acc = .ok out) (k : κ) :
    out.get? k = (if k ∈ keys then
        match d.get? k with
        | some a => match expand n a with
          | .ok l => some l
          | .error _ => none
        | none => acc.get? k
      else acc.get? k) ∧
    (k ∈ keys → ∀ a, d.get? k = some a → ∃ l, expand n a = .ok l) := by
  induction keys generalizing acc with
  | nil => simp only [fillLoop, Except.ok.injEq] at h; subst h; simp
  | cons k0 ks ih =>
    unfold fillLoop at h
    split at h
    · rename_i hg
      obtain ⟨h1, h2⟩ := ih acc h
      constructor
      · rw [h1]
        by_cases hk : k = k0
        · subst hk; simp [hg]
        · simp [hk]
      · intro hk a ha
        rcases List.mem_cons.mp hk with e | e
        · subst e; rw [hg] at ha; cases ha
        · exact h2 e a ha
    · rename_i v hg
      split at h
      · cases h
      · rename_i rows hr
        obtain ⟨h1, h2⟩ := ih _ h
        constructor
        · rw [h1]
          by_cases hk : k = k0
          · subst hk; simp [hg, hr]
          · have hk' : ¬ k0 = k := fun e => hk e.symm
            simp [hk, PyDict.get?_set, hk']
        · intro hk a ha
          rcases List.mem_cons.mp hk with e | e
          · subst e; rw [hg] at ha; cases ha; exact ⟨_, hr⟩
          · exact h2 e a ha

theorem fillLoop_error_iff (d : PyDict κ (Arg α)) (n : Nat) (keys : List κ)
    (acc : PyDict κ (List α)) (e : PyErr) :
    fillLoop d n keys acc = .error e ↔
      e = .valueError ∧ ∃ k ∈ keys, ∃ a, d.get? k = some a ∧ ¬ Fits n a := by
  induction keys generalizing acc with
  | nil => simp [fillLoop]
  | cons k0 ks ih =>
    unfold fillLoop
    split
    · rename_i hg; rw [ih]; simp [hg]
    · rename_i v hg
      split
      · rename_i e' he'
        obtain ⟨h1, h2⟩ := (expand_error_iff n v e').mp he'
        subst h1
        constructor
        · intro h; simp only [Except.error.injEq] at h
          exact ⟨h.symm, k0, by simp, v, hg, h2⟩
        · rintro ⟨h, _⟩; rw [h]
      · rename_i rows hr
        rw [ih]
        have hf : Fits n v := by
          by_contra hf
          have := (expand_error_iff n v .valueError).mpr ⟨rfl, hf⟩
          rw [hr] at this; cases this
        constructor
        · rintro ⟨h1, k, hk, a, ha, h2⟩
          exact ⟨h1, k, by simp [hk], a, ha, h2⟩
        · rintro ⟨h1, k, hk, a, ha, h2⟩
          refine ⟨h1, k, ?_, a, ha, h2⟩
          rcases List.mem_cons.mp hk with e | e
          · subst e; rw [hg] at ha; cases ha; exact absurd hf h2
          · exact e

/-- The default for `k` in a list of pairs: the last one listed. -/
def lastFor (l : List (κ × Arg α)) (k : κ) : Option (Arg α) :=
  match l with
  | [] => none
  | (k', v) :: r => match lastFor r k with
    | some w => some w
    | none => if k' = k then some v else none

theorem defaultsLoop_get (d : PyDict κ (Arg α)) (lx : Option Nat) (l : List (κ × Arg α))
    (acc : PyDict κ (Arg α)) (k : κ) :
    (defaultsLoop d lx l acc).get? k =
      if d.contains k then acc.get? k
      else match lastFor l k with
        | some v => some (defaultFor lx v)
        | none => acc.get? k := by
  induction l generalizing acc with
  | nil => simp [defaultsLoop, lastFor]
  | cons p r ih =>
    obtain ⟨k', v⟩ := p
    unfold defaultsLoop
    split
    · rename_i hc
      rw [ih]
      by_cases hd : d.contains k
      · simp [hd]
      · have : k' ≠ k := fun e => hd (e ▸ hc)
        simp only [hd, Bool.false_eq_true, if_false, lastFor, this]
        cases lastFor r k <;> rfl
    · rename_i hc
      rw [ih]
      by_cases hd : d.contains k
      · have : k' ≠ k := fun e => hc (e ▸ hd)
        simp [hd, PyDict.get?_set_ne _ _ this]
      · simp only [hd, Bool.false_eq_true, if_false, lastFor]
        cases lastFor r k with
        | some w => rfl
        | none =>
          by_cases hk : k' = k
          · subst hk; simp
          · simp [hk, PyDict.get?_set_ne _ _ hk]

end Verif.Toolbox
