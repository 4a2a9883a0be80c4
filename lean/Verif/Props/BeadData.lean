import Verif.Model.BeadData
import Mathlib.Algebra.Group.Basic
import Mathlib.Algebra.BigOperators.Group.List.Basic
import Mathlib.Data.Int.Basic
import Mathlib.Data.Int.Order.Basic
import Mathlib.Data.String.Basic

/-! # C06: reading molecule definitions -/

namespace Verif.Props
open Verif.BeadData

variable {β ν : Type} [LinearOrder β]

/-- Specification: number of groups `b` in a molecule. -/
def groupCount [AddCommMonoid ν] (molecule : List (β × ν)) (b : β) : ν :=
  ((molecule.filter (fun p => p.1 = b)).map Prod.snd).sum

/-- Specification: the count in the last pair that names `b`. -/
def lastCount [Zero ν] (molecule : List (β × ν)) (b : β) : ν :=
  ((molecule.filter (fun p => p.1 = b)).getLast?.map Prod.snd).getD 0

section
variable [Zero ν]

omit [Zero ν] in
theorem c06_collect_step (m : List (β × ν)) (acc : List β) (h : acc.Nodup) :
    (m.foldl (fun acc p => if p.1 ∈ acc then acc else acc ++ [p.1]) acc).Nodup ∧
    ∀ b, b ∈ m.foldl (fun acc p => if p.1 ∈ acc then acc else acc ++ [p.1]) acc ↔
      b ∈ acc ∨ ∃ p ∈ m, p.1 = b := by
  induction m generalizing acc with
  | nil => simp [h]
  | cons p m ih =>
    simp only [List.foldl_cons]
    by_cases hp : p.1 ∈ acc
    · rw [if_pos hp]
      obtain ⟨h1, h2⟩ := ih acc h
      refine ⟨h1, fun b => ?_⟩
      rw [h2 b]
      simp only [List.mem_cons, exists_eq_or_imp]
      constructor
      · rintro (h | h)
        · exact Or.inl h
        · exact Or.inr (Or.inr h)
      · rintro (h | h | h)
        · exact Or.inl h
        · exact Or.inl (h ▸ hp)
        · exact Or.inr h
    · rw [if_neg hp]
      obtain ⟨h1, h2⟩ := ih (acc ++ [p.1]) (by
        rw [List.nodup_append]
        refine ⟨h, by simp, ?_⟩
        intro a ha b hb
        simp only [List.mem_singleton] at hb
        subst hb
        rintro rfl
        exact hp ha)
      refine ⟨h1, fun b => ?_⟩
      rw [h2 b]
      have hsing : b ∈ [p.1] ↔ p.1 = b := by simp [eq_comm]
      rw [List.mem_append, hsing]
      simp only [List.mem_cons, exists_eq_or_imp]
      constructor
      · rintro ((h | h) | h)
        · exact Or.inl h
        · exact Or.inr (Or.inl h)
        · exact Or.inr (Or.inr h)
      · rintro (h | h | h)
        · exact Or.inl (Or.inl h)
        · exact Or.inl (Or.inr h)
        · exact Or.inr h

omit [Zero ν] in
theorem c06_collect (ms : List (List (β × ν))) (acc : List β) (h : acc.Nodup) :
    (ms.foldl (fun acc m => m.foldl (fun acc p => if p.1 ∈ acc then acc else acc ++ [p.1]) acc)
      acc).Nodup ∧
    ∀ b, b ∈ ms.foldl (fun acc m =>
        m.foldl (fun acc p => if p.1 ∈ acc then acc else acc ++ [p.1]) acc) acc ↔
      b ∈ acc ∨ ∃ m ∈ ms, ∃ p ∈ m, p.1 = b := by
  induction ms generalizing acc with
  | nil => simp [h]
  | cons m ms ih =>
    simp only [List.foldl_cons]
    obtain ⟨g1, g2⟩ := c06_collect_step m acc h
    obtain ⟨h1, h2⟩ := ih _ g1
    refine ⟨h1, fun b => ?_⟩
    rw [h2 b, g2 b]
    simp only [List.mem_cons, exists_eq_or_imp, or_assoc]

/-- **C06 (a).** The list of groups is strictly sorted (so each name occurs once) and contains
exactly the names that occur in some molecule. -/
theorem c06_groups (ms : List (List (β × ν))) :
    (processBeadData ms).1.Pairwise (· < ·) ∧
    ∀ b, b ∈ (processBeadData ms).1 ↔ ∃ m ∈ ms, ∃ p ∈ m, p.1 = b := by
  obtain ⟨h1, h2⟩ := c06_collect ms [] List.nodup_nil
  constructor
  · have hs : (processBeadData ms).1.Pairwise (· ≤ ·) := by
      have := List.pairwise_mergeSort (le := fun a b : β => decide (a ≤ b))
        (fun a b c hab hbc => by simp at *; exact hab.trans hbc)
        (fun a b => by simp; exact le_total a b) (collect ms)
      simpa [processBeadData, beads] using this
    have hn : (processBeadData ms).1.Nodup := by
      simp only [processBeadData, beads]
      exact (List.mergeSort_perm _ _).nodup_iff.mpr h1
    have := hs.and hn
    exact this.imp (fun ⟨hab, hne⟩ => lt_of_le_of_ne hab hne)
  · intro b
    simp only [processBeadData, beads]
    rw [(List.mergeSort_perm _ _).mem_iff]
    simpa [collect] using h2 b

omit [Zero ν] in
theorem c06_row_get (names : List β) (m : List (β × ν)) (r : List ν) (hr : r.length = names.length)
    (k : Nat) (hk : k < names.length) :
    ∃ hl : k < (m.foldl (writePair names) r).length, (m.foldl (writePair names) r)[k] =
      ((m.filter (fun p => p.1 = names[k])).getLast?.map Prod.snd).getD (r[k]) := by
  induction m generalizing r with
  | nil => exact ⟨by simp; omega, by simp⟩
  | cons p m ih =>
    simp only [List.foldl_cons]
    have hw : (writePair names r p).length = names.length := by simp [writePair]; omega
    obtain ⟨hl, he⟩ := ih (writePair names r p) hw
    refine ⟨hl, ?_⟩
    rw [he]
    have hg : (writePair names r p)[k]'(by omega) = if p.1 = names[k] then p.2 else r[k]'(by omega) := by
      simp [writePair]
    rw [hg, List.filter_cons]
    by_cases hp : p.1 = names[k]
    · simp only [hp, if_true, decide_true]
      cases hf : m.filter (fun p => p.1 = names[k]) with
      | nil => simp
      | cons q l => simp [List.getLast?_eq_some_getLast]
    · simp [hp]

/-- **C06 (b).** The matrix has one row per molecule and one column per group, and its entry is the
count of the *last* pair naming that group in the molecule, or zero. -/
theorem c06_matrix (ms : List (List (β × ν))) :
    (processBeadData ms).2.length = ms.length ∧
    ∀ i (hi : i < ms.length) k (hk : k < (processBeadData ms).1.length),
      ∃ (h1 : i < (processBeadData ms).2.length) (h2 : k < ((processBeadData ms).2[i]).length),
        ((processBeadData ms).2[i])[k] = lastCount ms[i] (processBeadData ms).1[k] := by
  refine ⟨by simp [processBeadData], ?_⟩
  intro i hi k hk
  have h1 : i < (processBeadData ms).2.length := by simpa [processBeadData] using hi
  have he : (processBeadData ms).2[i] = row (beads ms) ms[i] := by simp [processBeadData]
  obtain ⟨hl, hv⟩ := c06_row_get (beads ms) ms[i] (List.replicate (beads ms).length 0) (by simp) k hk
  refine ⟨h1, ?_, ?_⟩
  · rw [he]; exact hl
  · simp only [he, row]
    rw [hv, List.getElem_replicate]
    rfl

end

section
variable [AddCommMonoid ν]

theorem c06_last_eq_sum (m : List (β × ν)) (hd : (m.map Prod.fst).Nodup) (b : β) :
    lastCount m b = groupCount m b := by
  have : (m.filter (fun p => p.1 = b)).length ≤ 1 := by
    induction m with
    | nil => simp
    | cons p m ih =>
      simp only [List.map_cons, List.nodup_cons] at hd
      have ih := ih hd.2
      rw [List.filter_cons]
      by_cases hp : p.1 = b
      · have : m.filter (fun p => p.1 = b) = [] := by
          rw [List.filter_eq_nil_iff]
          intro q hq
          simp only [decide_eq_true_eq]
          rintro rfl
          exact hd.1 (hp ▸ List.mem_map_of_mem hq)
        simp [hp, this]
      · simpa [hp] using ih
  unfold lastCount groupCount
  generalize m.filter (fun p => p.1 = b) = l at this
  match l, this with
  | [], _ => simp
  | [q], _ => simp
  | _ :: _ :: _, h => simp at h

/-- **C06 (c), partial.** If no molecule names a group twice, the matrix entry is the number of groups
in the molecule.  Missing: molecules that list a group twice (`c06_violated_repeated_group`). -/
theorem c06_faithful_partial (ms : List (List (β × ν)))
    (hd : ∀ m ∈ ms, (m.map Prod.fst).Nodup) (i : Nat) (hi : i < ms.length) (k : Nat)
    (hk : k < (processBeadData ms).1.length) :
    ∃ (h1 : i < (processBeadData ms).2.length) (h2 : k < ((processBeadData ms).2[i]).length),
      ((processBeadData ms).2[i])[k] = groupCount ms[i] (processBeadData ms).1[k] := by
  obtain ⟨h1, h2, h3⟩ := (c06_matrix ms).2 i hi k hk
  exact ⟨h1, h2, h3.trans (c06_last_eq_sum _ (hd _ (List.getElem_mem hi)) _)⟩

end

/-- **C06, violated.** A group that is listed twice in one molecule is counted with its last count
only, so that the matrix does not hold the number of groups: `CH2` 2 and again 3 gives 3, not 5. -/
theorem c06_violated_repeated_group :
    row ["CH2", "CH3"] [("CH2", (2 : Int)), ("CH3", 2), ("CH2", 3)] = [3, 2] ∧
    groupCount [("CH2", (2 : Int)), ("CH3", 2), ("CH2", 3)] "CH2" = 5 := by
  constructor <;> decide

example : collect [[("b", (1 : Int)), ("a", 2)], [("a", 1), ("c", 4)]] = ["b", "a", "c"] := by decide
example : row ["a", "b", "c"] [("a", (1 : Int)), ("c", 4)] = [1, 0, 4] := by decide

end Verif.Props
