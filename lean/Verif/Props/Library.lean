import Verif.Model.Library
import Mathlib.Data.List.Sort
import Mathlib.Tactic.Common

/-! # C148: a library of parameters is exported complete and in order -/

namespace Verif.Props
open Verif Verif.Library

variable {ν : Type}

/-- The items in the order of their names in lower case, those of equal names in the order they had. -/
def Ordered (lower : String → String) (before after : List (String × ν)) : Prop :=
  after.Perm before ∧ after.Pairwise (fun p q => lower p.1 ≤ lower q.1) ∧
    ∀ s : String, after.filter (fun p => lower p.1 = s) = before.filter (fun p => lower p.1 = s)

private theorem insertBy_perm (lower : String → String) (p : String × ν) (l : List (String × ν)) :
    (insertBy lower p l).Perm (p :: l) := by
  induction l with
  | nil => exact List.Perm.refl _
  | cons q l ih =>
    unfold insertBy
    split
    · exact List.Perm.refl _
    · exact (List.Perm.cons q ih).trans (List.Perm.swap p q l)

private theorem insertBy_sorted (lower : String → String) (p : String × ν) (l : List (String × ν))
    (h : l.Pairwise (fun p q => lower p.1 ≤ lower q.1)) :
    (insertBy lower p l).Pairwise (fun p q => lower p.1 ≤ lower q.1) := by
  induction l with
  | nil => exact List.pairwise_singleton _ _
  | cons q l ih =>
    unfold insertBy
    rw [List.pairwise_cons] at h
    split
    · rename_i hle
      rw [List.pairwise_cons, List.pairwise_cons]
      refine ⟨?_, h⟩
      intro r hr
      rcases List.mem_cons.1 hr with rfl | hr
      · exact hle
      · exact String.le_trans hle (h.1 r hr)
    · rename_i hlt
      rw [List.pairwise_cons]
      refine ⟨?_, ih h.2⟩
      intro r hr
      rcases List.mem_cons.1 ((insertBy_perm lower p l).mem_iff.1 hr) with rfl | hr
      · exact (String.le_total _ _).resolve_left hlt
      · exact h.1 r hr

private theorem insertBy_filter (lower : String → String) (p : String × ν) (l : List (String × ν)) (s : String) :
    (insertBy lower p l).filter (fun p => lower p.1 = s) = (p :: l).filter (fun p => lower p.1 = s) := by
  induction l with
  | nil => rfl
  | cons q l ih =>
    unfold insertBy
    split
    · rfl
    · rename_i hlt
      rw [List.filter_cons, ih]
      by_cases hp : lower p.1 = s <;> by_cases hq : lower q.1 = s <;> simp [hp, hq]
      exact absurd (hp.trans hq.symm ▸ String.le_refl _) hlt

private theorem sortBy_ordered (lower : String → String) (l : List (String × ν)) : Ordered lower l (sortBy lower l) := by
  induction l with
  | nil => exact ⟨List.Perm.refl _, List.Pairwise.nil, fun _ => rfl⟩
  | cons p l ih =>
    obtain ⟨h1, h2, h3⟩ := ih
    refine ⟨(insertBy_perm lower p _).trans (h1.cons p), insertBy_sorted lower p _ h2, fun s => ?_⟩
    rw [sortBy, insertBy_filter, List.filter_cons, List.filter_cons, h3]

/-- What is exported for an entry: the same name, and for a dictionary of parameters the same items in order. -/
def ExportedAs (lower : String → String) (p q : String × Entry ν) : Prop :=
  q.1 = p.1 ∧ ∃ d d', p.2 = .group d ∧ q.2 = .group d' ∧ Ordered lower d.entries d'.entries

private theorem sortEntries_ok (lower : String → String) (l : List (String × Entry ν)) (h : ∀ p ∈ l, ∃ d, p.2 = .group d) :
    (sortEntries lower l).1 = none ∧ List.Forall₂ (ExportedAs lower) l (sortEntries lower l).2 := by
  induction l with
  | nil => exact ⟨rfl, .nil⟩
  | cons p l ih =>
    obtain ⟨n, e⟩ := p
    obtain ⟨d, rfl⟩ := h _ List.mem_cons_self
    obtain ⟨h1, h2⟩ := ih fun p hp => h p (List.mem_cons_of_mem _ hp)
    exact ⟨h1, .cons ⟨rfl, d, _, rfl, rfl, sortBy_ordered lower d.entries⟩ h2⟩

private theorem sortEntries_bad (lower : String → String) (l : List (String × Entry ν)) (h : ¬ ∀ p ∈ l, ∃ d, p.2 = .group d) :
    (sortEntries lower l).1 = some .attributeError := by
  induction l with
  | nil => exact absurd (fun p hp => absurd hp List.not_mem_nil) h
  | cons p l ih =>
    obtain ⟨n, e⟩ := p
    cases e with
    | other v => rfl
    | group d =>
      refine ih fun hall => h fun p hp => ?_
      rcases List.mem_cons.1 hp with rfl | hp
      · exact ⟨d, rfl⟩
      · exact hall p hp

private theorem writable_of_perm (ok : ν → Bool) (d d' : PyDict String ν) (h : d'.entries.Perm d.entries) :
    (Entry.group d').writable ok = (Entry.group d).writable ok := by
  unfold Entry.writable
  simp only
  rw [Bool.eq_iff_iff, List.all_eq_true, List.all_eq_true]
  exact ⟨fun hh p hp => hh p (h.mem_iff.2 hp), fun hh p hp => hh p (h.mem_iff.1 hp)⟩

private theorem writable_forall₂ (lower : String → String) (ok : ν → Bool) {l l' : List (String × Entry ν)}
    (h : List.Forall₂ (ExportedAs lower) l l') :
    (l'.all fun p => p.2.writable ok) = l.all fun p => p.2.writable ok := by
  induction h with
  | nil => rfl
  | cons hab _ ih =>
    obtain ⟨_, d, d', e1, e2, hp, _⟩ := hab
    rw [List.all_cons, List.all_cons, ih, e1, e2, writable_of_perm ok d d' hp]

/-- **C148 (a).** When every entry is a dictionary and every value can be written, the file holds every entry, in the order of the
library, each with all its parameters in the order of their names; the caller's library is the same as the file's. -/
theorem c148_written (lower : String → String) (ok : ν → Bool) (lib : List (String × Entry ν)) (old : File ν)
    (hg : ∀ p ∈ lib, ∃ d : PyDict String ν, p.2 = .group d ∧ ∀ q ∈ d.entries, ok q.2 = true) :
    ∃ l, write lower ok lib old = (none, l, .library l) ∧ List.Forall₂ (ExportedAs lower) lib l := by
  obtain ⟨h1, h2⟩ := sortEntries_ok lower lib fun p hp => ⟨_, (hg p hp).choose_spec.1⟩
  refine ⟨(sortEntries lower lib).2, ?_, h2⟩
  have hw : ((sortEntries lower lib).2.all fun p => p.2.writable ok) = true := by
    rw [writable_forall₂ lower ok h2, List.all_eq_true]
    intro p hp
    obtain ⟨d, e, hd⟩ := hg p hp
    rw [e]
    exact List.all_eq_true.2 hd
  unfold write
  rw [show sortEntries lower lib = (none, (sortEntries lower lib).2) from Prod.ext h1 rfl]
  simp only
  rw [if_pos hw]

/-- **C148 (b).** Every parameter is found under the name it had. -/
theorem c148_same_parameters (lower : String → String) (d d' : PyDict String ν) (hw : d.WF)
    (h : Ordered lower d.entries d'.entries) (k : String) : d'.get? k = d.get? k := by
  have hw' : d'.WF := ((h.1.map Prod.fst).nodup_iff).2 hw
  rcases e : d.get? k with _ | v
  · rcases e' : d'.get? k with _ | v'
    · rfl
    · have := (PyDict.mem_entries_iff d hw k v').1 (h.1.mem_iff.1 ((PyDict.mem_entries_iff d' hw' k v').2 e'))
      rw [e] at this; cases this
  · exact (PyDict.mem_entries_iff d' hw' k v).1 (h.1.mem_iff.2 ((PyDict.mem_entries_iff d hw k v).2 e))

/-- **C148 (c).** An entry that is no dictionary is refused before the file is touched. -/
theorem c148_refused (lower : String → String) (ok : ν → Bool) (lib : List (String × Entry ν)) (old : File ν)
    (n : String) (v : ν) (h : (n, Entry.other v) ∈ lib) :
    (write lower ok lib old).1 = some .attributeError ∧ (write lower ok lib old).2.2 = old := by
  have hb := sortEntries_bad lower lib fun hall => by obtain ⟨d, hd⟩ := hall _ h; cases hd
  unfold write
  rw [show sortEntries lower lib = (some .attributeError, (sortEntries lower lib).2) from Prod.ext hb rfl]
  exact ⟨rfl, rfl⟩

private theorem sortBy_unique (lower : String → String) (a b : List (String × ν)) (hp : a.Perm b)
    (hn : (a.map fun p => lower p.1).Nodup) : sortBy lower a = sortBy lower b := by
  obtain ⟨a1, a2, _⟩ := sortBy_ordered lower a
  obtain ⟨b1, b2, _⟩ := sortBy_ordered lower b
  refine List.Perm.eq_of_pairwise ?_ a2 b2 (a1.trans (hp.trans b1.symm))
  intro x y hx hy h1 h2
  exact List.inj_on_of_nodup_map hn (a1.mem_iff.1 hx) (hp.mem_iff.2 (b1.mem_iff.1 hy)) (String.le_antisymm h1 h2)

/-- The same library with the parameters of each group in another order. -/
def SameUpToOrder (p q : String × Entry ν) : Prop :=
  p.1 = q.1 ∧ ∃ d d', p.2 = .group d ∧ q.2 = .group d' ∧ d.entries.Perm d'.entries

/-- **C148 (d), partial.** The file does not depend on the order in which the parameters of a group were stored, if no two of their
names are the same in lower case. -/
theorem c148_reproducible_partial (lower : String → String) (ok : ν → Bool) (a b : List (String × Entry ν)) (old : File ν)
    (h : List.Forall₂ SameUpToOrder a b)
    (hn : ∀ p ∈ a, ∀ d : PyDict String ν, p.2 = .group d → (d.entries.map fun q => lower q.1).Nodup) :
    write lower ok a old = write lower ok b old := by
  suffices hs : sortEntries lower a = sortEntries lower b by unfold write; rw [hs]
  induction h with
  | nil => rfl
  | @cons p q _ _ hpq _ ih =>
    obtain ⟨e0, d, d', e1, e2, hd⟩ := hpq
    obtain ⟨n, e⟩ := p
    obtain ⟨n', e'⟩ := q
    subst e0 e1 e2
    have := sortBy_unique lower d.entries d'.entries hd (hn _ List.mem_cons_self d rfl)
    unfold sortEntries
    rw [ih fun p hp => hn p (List.mem_cons_of_mem _ hp), this]

/-- **C148 (e).** Exporting what was exported changes nothing. -/
theorem c148_again (lower : String → String) (l : List (String × ν)) : sortBy lower (sortBy lower l) = sortBy lower l := by
  have hs : ∀ m : List (String × ν), m.Pairwise (fun p q => lower p.1 ≤ lower q.1) → sortBy lower m = m := by
    intro m hm
    induction m with
    | nil => rfl
    | cons p m ih =>
      rw [List.pairwise_cons] at hm
      rw [sortBy, ih hm.2]
      cases m with
      | nil => rfl
      | cons q m => unfold insertBy; rw [if_pos (hm.1 q List.mem_cons_self)]
  exact hs _ (sortBy_ordered lower l).2.1

/-- **C148 (d), violated.** Two names that differ only in their case are written in the order in which they were stored: equal
dictionaries give different files. -/
theorem c148_violated_case :
    (∀ k, (⟨[("CH3", 1), ("ch3", 2)]⟩ : PyDict String ℕ).get? k = (⟨[("ch3", 2), ("CH3", 1)]⟩ : PyDict String ℕ).get? k) ∧
    write String.toLower (fun _ => true) [("a", .group (⟨[("CH3", 1), ("ch3", 2)]⟩ : PyDict String ℕ))] .absent ≠
      write String.toLower (fun _ => true) [("a", .group ⟨[("ch3", 2), ("CH3", 1)]⟩)] .absent := by
  refine ⟨fun k => ?_, by decide +kernel⟩
  by_cases h : "CH3" = k
  · subst h; decide +kernel
  · by_cases h2 : "ch3" = k <;> simp [PyDict.get?, PyDict.lookupL, h, h2]

/-- **C148 (d), violated.** The groups themselves are not sorted. -/
theorem c148_violated_outer (lower : String → String) (d e : PyDict String ν) :
    ((write lower (fun _ => true) [("b", .group d), ("a", .group e)] .absent).2.1.map Prod.fst) = ["b", "a"] := by
  simp only [write, sortEntries]
  split <;> rfl

/-- **C148 (c), violated.** A value that cannot be written is found after the file is emptied: what was in it is lost. -/
theorem c148_violated_lost (lower : String → String) (ok : ν → Bool) (lib : List (String × Entry ν)) (old : File ν)
    (hg : ∀ p ∈ lib, ∃ d : PyDict String ν, p.2 = .group d)
    (n k : String) (d : PyDict String ν) (v : ν) (h : (n, Entry.group d) ∈ lib) (hk : (k, v) ∈ d.entries) (hv : ok v = false) :
    (write lower ok lib old).1 = some .typeError ∧ (write lower ok lib old).2.2 = .cut := by
  obtain ⟨h1, h2⟩ := sortEntries_ok lower lib hg
  have hw : ¬ ((sortEntries lower lib).2.all fun p => p.2.writable ok) = true := by
    rw [writable_forall₂ lower ok h2, List.all_eq_true]
    intro hall
    have := List.all_eq_true.1 (hall _ h) _ hk
    rw [hv] at this; cases this
  unfold write
  rw [show sortEntries lower lib = (none, (sortEntries lower lib).2) from Prod.ext h1 rfl]
  simp only
  rw [if_neg hw]
  exact ⟨rfl, rfl⟩

/-- **C148 (c), violated.** When an entry is refused, the caller's entries before it have already been replaced. -/
theorem c148_violated_half (d : PyDict String ν) (lower : String → String) (ok : ν → Bool) (v : ν) (old : File ν) :
    (write lower ok [("a", .group d), ("b", .other v)] old).2.1 = [("a", .group ⟨sortBy lower d.entries⟩), ("b", .other v)] := rfl

example : write String.toLower (fun v : ℕ => decide (v < 9)) [("CH2", .group ⟨[("b", 2), ("A", 1), ("c", 3)]⟩)] .absent =
    (none, [("CH2", .group ⟨[("A", 1), ("b", 2), ("c", 3)]⟩)], .library [("CH2", .group ⟨[("A", 1), ("b", 2), ("c", 3)]⟩)]) := by
  decide +kernel

example : (write String.toLower (fun v : ℕ => decide (v < 9)) [("CH2", .group ⟨[("b", 20)]⟩)] (.library [])).2.2 = .cut := by
  decide +kernel

end Verif.Props
