import Verif.Model.CrossInteraction
import Mathlib.Data.List.Basic
import Mathlib.Tactic.Tauto

/-! # C08: cross-interaction matrices -/

namespace Verif.Props
open Verif Verif.CrossInteraction

variable {β κ ν : Type} [DecidableEq κ]

omit [DecidableEq κ] in
theorem c08_mem_triples (inp : Input β κ ν) (i j : Nat) (key : κ) :
    (i, j, key) ∈ triples inp ↔ i < j ∧ j < inp.beads.length ∧ key ∈ inp.keys := by
  simp only [triples, List.mem_flatMap, List.mem_range, List.mem_filter, decide_eq_true_eq,
    List.mem_map, Prod.mk.injEq]
  constructor
  · rintro ⟨a, ha, b, ⟨hb, hab⟩, k, hk, rfl, rfl, rfl⟩; exact ⟨hab, hb, hk⟩
  · rintro ⟨h1, h2, h3⟩; exact ⟨i, by omega, j, ⟨h2, h1⟩, key, h3, rfl, rfl, rfl⟩

/-- Symmetric, with a given diagonal. -/
def SymDiag (M : Mats κ ν) (d : κ → Nat → ν) : Prop :=
  (∀ key i j, M key i j = M key j i) ∧ ∀ key i, M key i i = d key i

theorem c08_set_sym (M : Mats κ ν) (d : κ → Nat → ν) (h : SymDiag M d) (key : κ) (i j : Nat)
    (hij : i ≠ j) (v : ν) : SymDiag (setM (setM M key i j v) key j i v) d := by
  obtain ⟨h1, h2⟩ := h
  constructor
  · intro key' a b
    simp only [setM]
    by_cases hk : key' = key
    · by_cases ha : a = i <;> by_cases hb : b = j <;> by_cases ha' : a = j <;>
        by_cases hb' : b = i <;> simp_all
    · simp [hk, h1]
  · intro key' a
    simp only [setM]
    rw [if_neg (by rintro ⟨_, h3, h4⟩; omega), if_neg (by rintro ⟨_, h3, h4⟩; omega), h2]

theorem c08_storeAll_sym (keys : List κ) (i j : Nat) (hij : i ≠ j) (l : List (κ × ν))
    (M M' : Mats κ ν) (d : κ → Nat → ν) (hM : SymDiag M d) (h : storeAll keys i j l M = .ok M') :
    SymDiag M' d := by
  induction l generalizing M with
  | nil => cases h; exact hM
  | cons p r ih =>
    unfold storeAll at h
    split at h
    · exact ih _ (c08_set_sym M d hM _ i j hij _) h
    · cases h

theorem c08_set_self (M : Mats κ ν) (key : κ) (i j : Nat) (h : M key i j = M key j i) :
    setM M key j i (M key i j) = M := by
  funext key' a b
  simp only [setM]
  split
  · rename_i hh; obtain ⟨rfl, rfl, rfl⟩ := hh; exact h
  · rfl

theorem c08_pairStep_sym (inp : Input β κ ν) (i j : Nat) (hij : i ≠ j) (bi bj : β) (key : κ)
    (M M' : Mats κ ν) (d : κ → Nat → ν) (hM : SymDiag M d)
    (h : pairStep inp i j bi bj key M = .ok M') : SymDiag M' d := by
  unfold pairStep at h
  split at h
  · cases h; exact c08_set_sym M d hM key i j hij _
  · split at h
    · cases h; exact c08_set_sym M d hM key i j hij _
    · split at h
      · cases h
      · split at h
        · cases h
        · rename_i M1 h1
          have hs := c08_storeAll_sym _ i j hij _ _ _ d hM h1
          cases h
          rw [c08_set_self _ _ _ _ (hs.1 key i j)]
          exact hs

theorem c08_loop_sym (inp : Input β κ ν) (L : List (Nat × Nat × κ)) (hL : ∀ t ∈ L, t.1 ≠ t.2.1)
    (M M' : Mats κ ν) (d : κ → Nat → ν) (hM : SymDiag M d) (h : loop inp L M = .ok M') :
    SymDiag M' d := by
  induction L generalizing M with
  | nil => cases h; exact hM
  | cons t r ih =>
    unfold loop at h
    split at h
    · cases h
    · rename_i M1 h1
      refine ih (fun t ht => hL t (List.mem_cons_of_mem _ ht)) M1 ?_ h
      unfold tripleStep at h1
      split at h1
      · exact c08_pairStep_sym inp _ _ (hL t (by simp)) _ _ _ _ _ d hM h1
      · cases h1

/-- **C08 (a).** Whatever the combining rule (also one that returns several parameters), the matrices
are symmetric and carry the groups' own parameters on the diagonal. -/
theorem c08_symmetric_diagonal [Zero ν] (inp : Input β κ ν) (M : Mats κ ν)
    (h : crossInteraction inp = .ok M) :
    (∀ key i j, M key i j = M key j i) ∧
    ∀ key ∈ inp.keys, ∀ i (hi : i < inp.beads.length), inp.self inp.beads[i] key = some (M key i i) := by
  unfold crossInteraction at h
  split at h
  · cases h
  · rename_i M0 h0
    unfold initDiag at h0
    split at h0
    · rename_i hall
      cases h0
      obtain ⟨h1, h2⟩ := c08_loop_sym inp (triples inp)
        (fun t ht => by
          obtain ⟨a, b, k⟩ := t
          have := (c08_mem_triples inp a b k).mp ht
          simp only; omega) _ M
        (fun key i => if key ∈ inp.keys then ((inp.beads[i]?).bind (inp.self · key)).getD 0 else 0)
        ⟨fun key i j => by
            by_cases hij : i = j
            · subst hij; rfl
            · simp [hij, Ne.symm hij], fun key i => by simp⟩ h
      refine ⟨h1, fun key hk i hi => ?_⟩
      rw [h2]
      simp only [List.all_eq_true] at hall
      obtain ⟨v, hv⟩ := Option.isSome_iff_exists.mp (hall key hk _ (List.getElem_mem hi))
      simp [hk, hi, hv]
    · cases h0

/-- Specification: the value of a pair, from the explicit cross values in either order (the order of
the group list first), otherwise from the combining rule. -/
def pairValue (inp : Input β κ ν) (bi bj : β) (key : κ) : Option ν :=
  match inp.cross bi bj key, inp.cross bj bi key, inp.rule key bi bj with
  | some v, _, _ => some v
  | none, some v, _ => some v
  | none, none, .ok [(_, v)] => some v
  | none, none, _ => none

/-- The rule returns its own parameter only, or nothing (the rule `"None"`). -/
def SingleOutput (inp : Input β κ ν) : Prop :=
  ∀ key bi bj l, inp.rule key bi bj = .ok l → l = [] ∨ ∃ v, l = [(key, v)]

theorem c08_pairStep_value (inp : Input β κ ν) (hs : SingleOutput inp) (i j : Nat) (hij : i < j)
    (bi bj : β) (key : κ) (M M' : Mats κ ν) (h : pairStep inp i j bi bj key M = .ok M') :
    ∀ key' a b, a < b → M' key' a b =
      if key' = key ∧ a = i ∧ b = j then (pairValue inp bi bj key).getD (M key i j)
      else M key' a b := by
  have hset : ∀ v key' a b, a < b → setM (setM M key i j v) key j i v key' a b =
      if key' = key ∧ a = i ∧ b = j then v else M key' a b := by
    intro v key' a b hab
    simp only [setM]
    rw [if_neg (by rintro ⟨_, h1, h2⟩; omega)]
  intro key' a b hab
  unfold pairStep at h
  split at h
  · rename_i v hv
    cases h
    rw [hset _ _ _ _ hab]
    simp [pairValue, hv]
  · rename_i hv
    split at h
    · rename_i v hv2
      cases h
      rw [hset _ _ _ _ hab]
      simp [pairValue, hv, hv2]
    · rename_i hv2
      split at h
      · cases h
      · rename_i l hl
        rcases hs _ _ _ _ hl with rfl | ⟨v, rfl⟩
        · simp only [storeAll, Except.ok.injEq] at h
          subst h
          simp only [setM]
          rw [if_neg (by rintro ⟨_, h1, h2⟩; omega)]
          simp only [pairValue, hv, hv2, hl, Option.getD_none]
          split
          · rename_i hh; obtain ⟨rfl, rfl, rfl⟩ := hh; rfl
          · rfl
        · unfold storeAll at h
          split at h
          · cases h
          · rename_i M1 h1
            split at h1
            · simp only [storeAll, Except.ok.injEq] at h1
              subst h1
              cases h
              simp only [setM]
              rw [if_neg (by rintro ⟨_, h1, h2⟩; omega), if_neg (by rintro ⟨_, h1, h2⟩; omega)]
              simp [pairValue, hv, hv2, hl]
            · cases h1

theorem c08_loop_value (inp : Input β κ ν) (hs : SingleOutput inp) (L : List (Nat × Nat × κ))
    (hL : ∀ t ∈ L, t.1 < t.2.1) (M M' : Mats κ ν) (h : loop inp L M = .ok M') :
    ∀ key a b, a < b →
      ((a, b, key) ∉ L → M' key a b = M key a b) ∧
      ((a, b, key) ∈ L → ∀ bi bj, inp.beads[a]? = some bi → inp.beads[b]? = some bj →
        M' key a b = (pairValue inp bi bj key).getD (M key a b)) := by
  induction L generalizing M with
  | nil => cases h; simp
  | cons t r ih =>
    intro key a b hab
    unfold loop at h
    split at h
    · cases h
    · rename_i M1 h1
      obtain ⟨i1, i2⟩ := ih (fun t ht => hL t (List.mem_cons_of_mem _ ht)) M1 h key a b hab
      obtain ⟨ti, tj, tk⟩ := t
      have ht := hL _ (List.mem_cons_self)
      simp only at ht
      unfold tripleStep at h1
      split at h1
      · rename_i bi' bj' hbi' hbj'
        simp only at hbi' hbj' h1
        have hv := c08_pairStep_value inp hs ti tj ht bi' bj' tk M M1 h1 key a b hab
        constructor
        · intro hn
          simp only [List.mem_cons, Prod.mk.injEq, not_or] at hn
          rw [i1 hn.2, hv, if_neg]
          rintro ⟨h3, h4, h5⟩; exact hn.1 ⟨h4, h5, h3⟩
        · intro hm bi bj hbi hbj
          by_cases heq : a = ti ∧ b = tj ∧ key = tk
          · obtain ⟨rfl, rfl, rfl⟩ := heq
            rw [hbi] at hbi'; rw [hbj] at hbj'
            cases hbi'; cases hbj'
            rw [if_pos ⟨rfl, rfl, rfl⟩] at hv
            by_cases hr : (a, b, key) ∈ r
            · rw [i2 hr _ _ hbi hbj, hv]
              generalize pairValue inp _ _ key = o
              cases o <;> rfl
            · rw [i1 hr, hv]
          · have hm' : (a, b, key) ∈ r := by
              rcases List.mem_cons.mp hm with h6 | h6
              · simp only [Prod.mk.injEq] at h6; exact absurd h6 heq
              · exact h6
            rw [i2 hm' bi bj hbi hbj, hv, if_neg]
            rintro ⟨h3, h4, h5⟩; exact heq ⟨h4, h5, h3⟩
      · cases h1

/-- **C08 (b), partial.** With combining rules that return only their own parameter, every entry is the
explicitly given cross value, at both positions and whichever order it was given in, otherwise the
value of the combining rule; the rule that computes nothing leaves zero. Missing: rules that return
several parameters may overwrite explicit values (`c08_violated_multi_output`). -/
theorem c08_entries_partial [Zero ν] (inp : Input β κ ν) (hs : SingleOutput inp) (M : Mats κ ν)
    (h : crossInteraction inp = .ok M) (key : κ) (hk : key ∈ inp.keys) (i j : Nat) (hij : i < j)
    (hj : j < inp.beads.length) :
    M key i j = (pairValue inp (inp.beads[i]'(by omega)) inp.beads[j] key).getD 0 ∧
    M key j i = M key i j := by
  refine ⟨?_, ((c08_symmetric_diagonal inp M h).1 key i j).symm⟩
  unfold crossInteraction at h
  split at h
  · cases h
  · rename_i M0 h0
    have := (c08_loop_value inp hs (triples inp) (fun t ht => by
        obtain ⟨a, b, k⟩ := t
        exact ((c08_mem_triples inp a b k).mp ht).1) M0 M h key i j hij).2
      ((c08_mem_triples inp i j key).mpr ⟨hij, hj, hk⟩) (inp.beads[i]'(by omega)) inp.beads[j]
      (List.getElem?_eq_getElem _) (List.getElem?_eq_getElem _)
    rw [this]
    unfold initDiag at h0
    split at h0
    · cases h0; simp [Nat.ne_of_lt hij]
    · cases h0

/-- An explicit value is used at both positions, whichever of the two orders it was given in. -/
theorem c08_explicit [Zero ν] (inp : Input β κ ν) (hs : SingleOutput inp) (M : Mats κ ν)
    (h : crossInteraction inp = .ok M) (key : κ) (hk : key ∈ inp.keys) (i j : Nat) (hij : i < j)
    (hj : j < inp.beads.length) (v : ν)
    (hv : inp.cross (inp.beads[i]'(by omega)) inp.beads[j] key = some v ∨
      (inp.cross (inp.beads[i]'(by omega)) inp.beads[j] key = none ∧
        inp.cross inp.beads[j] (inp.beads[i]'(by omega)) key = some v)) :
    M key i j = v ∧ M key j i = v := by
  obtain ⟨h1, h2⟩ := c08_entries_partial inp hs M h key hk i j hij hj
  have : M key i j = v := by
    rw [h1]
    rcases hv with h3 | ⟨h3, h4⟩
    · simp [pairValue, h3]
    · simp [pairValue, h3, h4]
  exact ⟨this, h2 ▸ this⟩

/-- The pair has an explicit value or the rule can be evaluated for it. -/
def Available (inp : Input β κ ν) (bi bj : β) (key : κ) : Prop :=
  (inp.cross bi bj key).isSome ∨ (inp.cross bj bi key).isSome ∨ ∃ l, inp.rule key bi bj = .ok l

theorem c08_pairStep_outcome (inp : Input β κ ν) (hs : SingleOutput inp) (i j : Nat) (bi bj : β)
    (key : κ) (hk : key ∈ inp.keys) (M : Mats κ ν) :
    (Available inp bi bj key → ∃ M', pairStep inp i j bi bj key M = .ok M') ∧
    (¬ Available inp bi bj key → pairStep inp i j bi bj key M = .error (inp.onFail key)) := by
  unfold pairStep Available
  cases h1 : inp.cross bi bj key with
  | some v => simp
  | none =>
    cases h2 : inp.cross bj bi key with
    | some v => simp
    | none =>
      cases h3 : inp.rule key bi bj with
      | error e => simp
      | ok l =>
        rcases hs key bi bj l h3 with rfl | ⟨v, rfl⟩
        · simp [storeAll]
        · simp [storeAll, hk]

theorem c08_loop_outcome (inp : Input β κ ν) (hs : SingleOutput inp) (L : List (Nat × Nat × κ))
    (hL : ∀ t ∈ L, t.1 < inp.beads.length ∧ t.2.1 < inp.beads.length ∧ t.2.2 ∈ inp.keys)
    (M : Mats κ ν) :
    ((∀ t ∈ L, ∀ bi bj, inp.beads[t.1]? = some bi → inp.beads[t.2.1]? = some bj →
      Available inp bi bj t.2.2) → ∃ M', loop inp L M = .ok M') ∧
    ((∀ key ∈ inp.keys, inp.onFail key = .valueError) → (∃ t ∈ L, ∃ bi bj, inp.beads[t.1]? = some bi ∧ inp.beads[t.2.1]? = some bj ∧
      ¬ Available inp bi bj t.2.2) → loop inp L M = .error .valueError) := by
  induction L generalizing M with
  | nil => simp [loop]
  | cons t r ih =>
    obtain ⟨hi, hj, hk⟩ := hL t (by simp)
    have ih' := ih (fun t' ht' => hL t' (List.mem_cons_of_mem _ ht'))
    have ei := List.getElem?_eq_getElem hi
    have ej := List.getElem?_eq_getElem hj
    obtain ⟨p1, p2⟩ := c08_pairStep_outcome inp hs t.1 t.2.1 inp.beads[t.1]
      inp.beads[t.2.1] t.2.2 hk M
    have est : tripleStep inp M t = pairStep inp t.1 t.2.1 inp.beads[t.1] inp.beads[t.2.1] t.2.2 M := by
      simp only [tripleStep, ei, ej]
    constructor
    · intro h
      obtain ⟨M', hM'⟩ := p1 (h t (by simp) _ _ ei ej)
      obtain ⟨M2, hM2⟩ := (ih' M').1 (fun t' ht' => h t' (List.mem_cons_of_mem _ ht'))
      exact ⟨M2, by simp only [loop, est, hM', hM2]⟩
    · rintro hv ⟨t', ht', bi, bj, e1, e2, hn⟩
      by_cases hav : Available inp inp.beads[t.1] inp.beads[t.2.1] t.2.2
      · obtain ⟨M', hM'⟩ := p1 hav
        simp only [loop, est, hM']
        rcases List.mem_cons.mp ht' with rfl | ht'
        · rw [ei] at e1; rw [ej] at e2; cases e1; cases e2; exact absurd hav hn
        · exact (ih' M').2 hv ⟨t', ht', bi, bj, e1, e2, hn⟩
      · simp only [loop, est, p2 hav, hv _ hk]

/-- **C08, outcome.** The matrices exist exactly if every group has every parameter and every pair has
an explicit value or a combining rule that succeeds; a missing group parameter is a `KeyError`, and a pair
without value a `ValueError` (for rules that name their function, see `c145_violated_error`). -/
theorem c08_outcome [Zero ν] (inp : Input β κ ν) (hs : SingleOutput inp) :
    ((∃ b ∈ inp.beads, ∃ key ∈ inp.keys, inp.self b key = none) →
      crossInteraction inp = .error .keyError) ∧
    ((∀ b ∈ inp.beads, ∀ key ∈ inp.keys, (inp.self b key).isSome) →
      ((∀ key ∈ inp.keys, ∀ (i j : Nat) (bi bj : β), i < j → inp.beads[i]? = some bi →
        inp.beads[j]? = some bj → Available inp bi bj key) → ∃ M, crossInteraction inp = .ok M) ∧
      ((∀ key ∈ inp.keys, inp.onFail key = .valueError) →
        (∃ key ∈ inp.keys, ∃ (i j : Nat) (bi bj : β), i < j ∧ inp.beads[i]? = some bi ∧
        inp.beads[j]? = some bj ∧ ¬ Available inp bi bj key) →
          crossInteraction inp = .error .valueError)) := by
  constructor
  · rintro ⟨b, hb, key, hk, hn⟩
    unfold crossInteraction initDiag
    rw [if_neg]
    intro hall
    simp only [List.all_eq_true] at hall
    have := hall key hk b hb
    rw [hn] at this; cases this
  · intro hself
    have hinit : ∃ M0, initDiag inp = .ok M0 := by
      unfold initDiag
      rw [if_pos]
      · exact ⟨_, rfl⟩
      · simp only [List.all_eq_true]
        exact fun key hk b hb => hself b hb key hk
    obtain ⟨M0, h0⟩ := hinit
    have hL : ∀ t ∈ triples inp, t.1 < inp.beads.length ∧ t.2.1 < inp.beads.length ∧
        t.2.2 ∈ inp.keys := by
      rintro ⟨i, j, key⟩ ht
      obtain ⟨h1, h2, h3⟩ := (c08_mem_triples inp i j key).mp ht
      exact ⟨by simp only; omega, h2, h3⟩
    obtain ⟨l1, l2⟩ := c08_loop_outcome inp hs (triples inp) hL M0
    constructor
    · intro hav
      obtain ⟨M, hM⟩ := l1 (by
        rintro ⟨i, j, key⟩ ht bi bj e1 e2
        obtain ⟨h1, h2, h3⟩ := (c08_mem_triples inp i j key).mp ht
        exact hav key h3 i j bi bj h1 e1 e2)
      exact ⟨M, by simp only [crossInteraction, h0, hM]⟩
    · rintro hv ⟨key, hk, i, j, bi, bj, hij, e1, e2, hn⟩
      have hj : j < inp.beads.length := by
        by_contra hcon
        rw [List.getElem?_eq_none (by omega)] at e2; cases e2
      have := l2 hv ⟨(i, j, key), (c08_mem_triples inp i j key).mpr ⟨hij, hj, hk⟩, bi, bj, e1, e2, hn⟩
      simp only [crossInteraction, h0, this]

/-- **C08, what is raised.** A computation that fails although every group has every parameter fails with the
exception of a rule that could not be evaluated for a pair without explicit value, and one that succeeds has
no such pair. -/
theorem c08_loop_raises (inp : Input β κ ν) (hs : SingleOutput inp) (L : List (Nat × Nat × κ))
    (hL : ∀ t ∈ L, t.1 < inp.beads.length ∧ t.2.1 < inp.beads.length ∧ t.2.2 ∈ inp.keys)
    (M : Mats κ ν) :
    (∀ e, loop inp L M = .error e → ∃ t ∈ L, ∃ bi bj, inp.beads[t.1]? = some bi ∧ inp.beads[t.2.1]? = some bj ∧
      ¬ Available inp bi bj t.2.2 ∧ e = inp.onFail t.2.2) ∧
    (∀ M', loop inp L M = .ok M' → ∀ t ∈ L, ∀ bi bj, inp.beads[t.1]? = some bi → inp.beads[t.2.1]? = some bj →
      Available inp bi bj t.2.2) := by
  induction L generalizing M with
  | nil => simp [loop]
  | cons t r ih =>
    obtain ⟨hi, hj, hk⟩ := hL t (by simp)
    have ih' := ih (fun t' ht' => hL t' (List.mem_cons_of_mem _ ht'))
    have ei := List.getElem?_eq_getElem hi
    have ej := List.getElem?_eq_getElem hj
    obtain ⟨p1, p2⟩ := c08_pairStep_outcome inp hs t.1 t.2.1 inp.beads[t.1]
      inp.beads[t.2.1] t.2.2 hk M
    have est : tripleStep inp M t = pairStep inp t.1 t.2.1 inp.beads[t.1] inp.beads[t.2.1] t.2.2 M := by
      simp only [tripleStep, ei, ej]
    by_cases hav : Available inp inp.beads[t.1] inp.beads[t.2.1] t.2.2
    · obtain ⟨M1, hM1⟩ := p1 hav
      simp only [loop, est, hM1]
      refine ⟨?_, ?_⟩
      · intro e he
        obtain ⟨t', ht', rest⟩ := (ih' M1).1 e he
        exact ⟨t', List.mem_cons_of_mem _ ht', rest⟩
      · intro M' hM' t' ht' bi bj e1 e2
        rcases List.mem_cons.mp ht' with rfl | ht'
        · rw [ei] at e1; rw [ej] at e2; cases e1; cases e2; exact hav
        · exact (ih' M1).2 M' hM' t' ht' bi bj e1 e2
    · simp only [loop, est, p2 hav]
      refine ⟨?_, fun M' h => by cases h⟩
      intro e he
      cases he
      exact ⟨t, by simp, _, _, ei, ej, hav, rfl⟩

/-- The same for the whole computation. -/
theorem c08_raises [Zero ν] (inp : Input β κ ν) (hs : SingleOutput inp) :
    (∀ e, crossInteraction inp = .error e → (∀ b ∈ inp.beads, ∀ key ∈ inp.keys, (inp.self b key).isSome) →
      ∃ key ∈ inp.keys, ∃ (i j : Nat) (bi bj : β), i < j ∧ inp.beads[i]? = some bi ∧ inp.beads[j]? = some bj ∧
        ¬ Available inp bi bj key ∧ e = inp.onFail key) ∧
    (∀ M, crossInteraction inp = .ok M → (∀ b ∈ inp.beads, ∀ key ∈ inp.keys, (inp.self b key).isSome) ∧
      ∀ key ∈ inp.keys, ∀ (i j : Nat) (bi bj : β), i < j → inp.beads[i]? = some bi → inp.beads[j]? = some bj →
        Available inp bi bj key) := by
  have hL : ∀ t ∈ triples inp, t.1 < inp.beads.length ∧ t.2.1 < inp.beads.length ∧ t.2.2 ∈ inp.keys := by
    rintro ⟨i, j, key⟩ ht
    obtain ⟨h1, h2, h3⟩ := (c08_mem_triples inp i j key).mp ht
    exact ⟨by simp only; omega, h2, h3⟩
  have hself : (∀ b ∈ inp.beads, ∀ key ∈ inp.keys, (inp.self b key).isSome) ↔
      (inp.keys.all fun key => inp.beads.all fun b => (inp.self b key).isSome) = true := by
    simp only [List.all_eq_true]
    exact ⟨fun h key hk b hb => h b hb key hk, fun h b hb key hk => h key hk b hb⟩
  refine ⟨?_, ?_⟩
  · intro e h hall
    have h0 : ∃ M0, initDiag inp = .ok M0 := ⟨_, if_pos (hself.mp hall)⟩
    obtain ⟨M0, h0⟩ := h0
    simp only [crossInteraction, h0] at h
    obtain ⟨⟨i, j, key⟩, ht, bi, bj, e1, e2, hn, he⟩ := (c08_loop_raises inp hs _ hL M0).1 e h
    obtain ⟨h1, h2, h3⟩ := (c08_mem_triples inp i j key).mp ht
    exact ⟨key, h3, i, j, bi, bj, h1, e1, e2, hn, he⟩
  · intro M h
    unfold crossInteraction at h
    split at h
    · cases h
    · rename_i M0 h0
      have hall : ∀ b ∈ inp.beads, ∀ key ∈ inp.keys, (inp.self b key).isSome := by
        by_contra hcon
        rw [hself] at hcon
        unfold initDiag at h0
        rw [if_neg hcon] at h0
        cases h0
      refine ⟨hall, ?_⟩
      intro key hk i j bi bj hij e1 e2
      have hj : j < inp.beads.length := (List.getElem?_eq_some_iff.mp e2).1
      exact (c08_loop_raises inp hs _ hL M0).2 M h (i, j, key)
        ((c08_mem_triples inp i j key).mpr ⟨hij, hj, hk⟩) bi bj e1 e2

/-- A two-group example: `eps` has an explicit cross value 7, and the rule for `lam` returns both
`lam` and `eps`. -/
def multiInput : Input String String Int where
  beads := ["A", "B"]
  keys := ["eps", "lam"]
  self := fun _ _ => some 1
  cross := fun a b k => if a = "B" ∧ b = "A" ∧ k = "eps" then some 7 else none
  rule := fun k _ _ => if k = "lam" then .ok [("lam", 2), ("eps", 3)] else .ok [(k, 5)]

/-- **C08, violated.** A combining rule that returns several parameters (as `multipole` does)
overwrites an explicitly given cross value. -/
theorem c08_violated_multi_output :
    multiInput.cross "B" "A" "eps" = some 7 ∧
    (crossInteraction multiInput).map (fun M => M "eps" 0 1) = .ok 3 := by
  constructor <;> decide

/-- Non-vacuity: single-output rules, three groups, one explicit value in reversed order. -/
def singleInput : Input Nat Unit Int where
  beads := [0, 1, 2]
  keys := [()]
  self := fun b _ => some (b : Int)
  cross := fun a b _ => if a = 2 ∧ b = 0 then some 100 else none
  rule := fun _ a b => .ok [((), (a : Int) + b)]

example : crossInteraction { singleInput with rule := fun _ _ _ => .error .typeError } matches
    .error .valueError := by decide
example : SingleOutput singleInput := by
  intro key bi bj l h; cases h; exact Or.inr ⟨_, rfl⟩
example : (crossInteraction singleInput).map
    (fun M => [M () 0 0, M () 0 1, M () 0 2, M () 1 2, M () 2 0]) = .ok [0, 1, 100, 3, 100] := by
  decide

end Verif.Props
