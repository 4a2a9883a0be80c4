import Verif.Model.Construct
import Verif.Model.PengRobinson
import Verif.Props.BeadData
import Verif.Props.EosToolbox
import Mathlib.Data.List.Sort
import Mathlib.Data.String.Basic
import Mathlib.Tactic.NormNum
import Mathlib.Algebra.BigOperators.Pi
import Mathlib.Tactic.Linarith

/-!
# C131, C132 and C66: from the input to an equation of state
-/

namespace Verif.Props
open Verif Verif.Construct Verif.Dispatch Verif.BeadData

/-! ## C131: the order of the components -/

section Order
variable {β ν : Type} [LinearOrder β] [Zero ν]

/-- A configuration in which every component is one group of its own. -/
def singleGroups (count : β → ν) (names : List β) : List (List (β × ν)) := names.map fun b => [(b, count b)]

private theorem groups_unique (ms : List (List (β × ν))) (l : List β) (hs : l.Pairwise (· < ·))
    (hm : ∀ b, b ∈ l ↔ ∃ m ∈ ms, ∃ p ∈ m, p.1 = b) : (processBeadData ms).1 = l := by
  obtain ⟨h1, h2⟩ := c06_groups ms
  have p : (processBeadData ms).1.Perm l := by
    rw [List.perm_ext_iff_of_nodup (h1.imp fun h => ne_of_lt h) (hs.imp fun h => ne_of_lt h)]
    intro b
    rw [h2 b, hm b]
  exact p.eq_of_pairwise (fun a b _ _ h h' => absurd h' (not_lt_of_gt h)) h1 hs

/-- The groups of such a configuration, which are the components of the cubic equation of state, are the names in
alphabetical order. -/
theorem c131_cubic (count : β → ν) (names l : List β) (hl : l.Pairwise (· < ·)) (hp : l.Perm names) :
    (processBeadData (singleGroups count names)).1 = l := by
  refine groups_unique _ _ hl fun b => ?_
  rw [hp.mem_iff]
  simp [singleGroups]

/-- **C131, violated** (cubic). The components of the cubic equation of state are those of the configuration, in their
order, only if the configuration lists them in alphabetical order. -/
theorem c131_violated_order_iff (count : β → ν) (names : List β) :
    (processBeadData (singleGroups count names)).1 = names ↔ names.Pairwise (· < ·) := by
  constructor
  · intro h
    have := (c06_groups (singleGroups count names)).1
    rwa [h] at this
  · intro h
    exact c131_cubic count names names h (List.Perm.refl _)

/-- The SAFT equations of state take the rows of the matrix, which are in the order of the configuration. -/
theorem c131_saft (count : β → ν) (names : List β) (i : Nat) (hi : i < names.length) :
    (processBeadData (singleGroups count names)).2.length = names.length ∧
    ∀ k (hk : k < (processBeadData (singleGroups count names)).1.length),
      ∃ (h1 : i < (processBeadData (singleGroups count names)).2.length)
        (h2 : k < ((processBeadData (singleGroups count names)).2[i]).length),
        ((processBeadData (singleGroups count names)).2[i])[k] =
          if names[i] = (processBeadData (singleGroups count names)).1[k] then count names[i] else 0 := by
  obtain ⟨h, hh⟩ := c06_matrix (singleGroups count names)
  have hl : (singleGroups count names).length = names.length := by simp [singleGroups]
  refine ⟨h.trans hl, fun k hk => ?_⟩
  obtain ⟨h1, h2, h3⟩ := hh i (hl ▸ hi) k hk
  refine ⟨h1, h2, h3.trans ?_⟩
  have : (singleGroups count names)[i] = [(names[i], count names[i])] := by simp [singleGroups]
  rw [this, lastCount]
  by_cases e : names[i] = (processBeadData (singleGroups count names)).1[k] <;> simp [e]

/-- **C131, violated** (counts). The number of groups in a component does not reach the cubic equation of state. -/
theorem c131_violated_counts (count count' : β → ν) (names : List β) :
    (processBeadData (singleGroups count names)).1 = (processBeadData (singleGroups count' names)).1 := by
  obtain ⟨h1, h2⟩ := c06_groups (singleGroups count' names)
  refine groups_unique _ _ h1 fun b => ?_
  rw [h2 b]
  simp [singleGroups]

/-- **C131, violated** (repeated and composite components). Two components made of one group are one component of the cubic
equation of state, and one component made of two groups is two. -/
theorem c131_violated_number (a b : β) (h : a < b) (u v : ν) :
    (processBeadData [[(a, u)], [(a, v)]]).1 = [a] ∧ (processBeadData [[(a, u), (b, v)]]).1 = [a, b] := by
  constructor
  · refine groups_unique _ _ (by simp) fun c => ?_
    simp [eq_comm]
  · refine groups_unique _ _ (by simp [h]) fun c => ?_
    constructor
    · intro hc
      simp only [List.mem_cons, List.not_mem_nil, or_false] at hc
      rcases hc with rfl | rfl
      · exact ⟨_, List.mem_singleton.2 rfl, (c, u), by simp, rfl⟩
      · exact ⟨_, List.mem_singleton.2 rfl, (c, v), by simp, rfl⟩
    · rintro ⟨m, hm, p, hp, rfl⟩
      rw [List.mem_singleton] at hm
      subst hm
      simp only [List.mem_cons, List.not_mem_nil, or_false] at hp
      rcases hp with rfl | rfl <;> simp

end Order

open Verif.PengRobinson in
/-- The parameters of the cubic equation of state for a list of names. -/
def parOf {β : Type} (a b alpha : β → ℝ) (k : β → β → ℝ) (l : List β) : Par l.length :=
  ⟨fun i => a l[i], fun i => b l[i], fun i => alpha l[i], fun i j => k l[i] l[j]⟩

open Verif.PengRobinson in
/-- A pure component: the mixture parameters are its own. -/
theorem c131_pure {n : ℕ} (p : Par n) (i : Fin n) (hk : p.kij i i = 0) (ha : 0 ≤ p.ai i * p.alpha i) :
    bmix p (Pi.single i 1) = p.bi i ∧ amix p (Pi.single i 1) = p.ai i * p.alpha i := by
  constructor
  · simp [bmix, Pi.single_apply]
  · simp only [amix, Pi.single_apply, ite_mul, one_mul, zero_mul, Finset.sum_ite_eq', Finset.mem_univ, if_true, mul_ite,
      mul_one, mul_zero]
    simp only [hk, sub_zero, mul_one]
    rw [show p.ai i * p.alpha i * p.ai i * p.alpha i = (p.ai i * p.alpha i) ^ 2 by ring, Real.sqrt_sq ha]

open Verif.PengRobinson in
/-- **C131, violated** (result). Of two substances listed against the alphabet, the largest density computed for the
first one alone is that of the second. -/
theorem c131_violated_density {β ν : Type} [LinearOrder β] [Zero ν] (count : β → ν) (s t : β) (h : s < t)
    (a b alpha : β → ℝ) (k : β → β → ℝ) (maxpack : ℝ) :
    (processBeadData (singleGroups count [t, s])).1.length = 2 ∧
      densityMax (parOf a b alpha k (processBeadData (singleGroups count [t, s])).1)
        (fun i => if (i : ℕ) = 0 then 1 else 0) maxpack = maxpack / b s := by
  have e : (processBeadData (singleGroups count [t, s])).1 = [s, t] :=
    c131_cubic count [t, s] [s, t] (by simp [h]) (List.Perm.swap _ _ _)
  rw [e]
  refine ⟨rfl, ?_⟩
  simp [densityMax, bmix, parOf]

/-- Hexane before acetone is such a case. -/
example : ("acetone" : String) < "hexane" := by rw [String.lt_iff_toList_lt]; decide

/-- In the example files acetone comes first. -/
example : (processBeadData (singleGroups (fun _ => (1 : ℕ)) ["acetone", "hexane"])).1 = ["acetone", "hexane"] :=
  (c131_violated_order_iff _ _).2 (by simp only [List.pairwise_pair]; rw [String.lt_iff_toList_lt]; decide)

/-! ## C132: what a constructor needs -/

section Build
variable {β K : Type} [DecidableEq β] [One K]
variable (restC : List β → Lib β K → Except PyErr Unit)
variable (restS : Eos → List β → Lib β K → List (List K) → Except PyErr Unit)

/-- The parameters that have no default. -/
def required : Eos → List String
  | .gammaMie => ["epsilon", "lambdar", "lambdaa", "sigma"]
  | .gammaSw => ["epsilon", "lambda", "sigma"]
  | .pengRobinson => []

omit [One K] in
private theorem template_ok (k : Kwargs β K) (b : List β) (l : Lib β K) :
    template k = .ok (b, l) ↔ k.beads = some b ∧ k.library = some l ∧ ∀ a ∈ b, a ∈ l.keys := by
  unfold template
  cases k.beads with
  | none => simp
  | some b' =>
    cases k.library with
    | none => simp
    | some l' =>
      simp only [Option.some.injEq]
      by_cases h : b'.all (fun a => l'.contains a) = true
      · rw [if_pos h]
        rw [List.all_eq_true] at h
        simp only [Except.ok.injEq, Prod.mk.injEq]
        constructor
        · rintro ⟨rfl, rfl⟩
          exact ⟨rfl, rfl, fun a ha => (PyDict.contains_iff _ _).1 (h a ha)⟩
        · rintro ⟨rfl, rfl, _⟩
          exact ⟨rfl, rfl⟩
      · rw [if_neg h]
        simp only [reduceCtorEq, false_iff, not_and]
        rintro rfl rfl hh
        exact h (List.all_eq_true.2 fun a ha => (PyDict.contains_iff _ _).2 (hh a ha))

private theorem defaults_wf (t : Eos) : (defaults t : PyDict String (Option K)).WF := by
  cases t <;> simp [defaults, PyDict.WF, PyDict.keys]

private theorem defaults_none (t : Eos) (p : String) :
    (defaults t : PyDict String (Option K)).get? p = some none ↔ p ∈ required t := by
  rw [← PyDict.mem_entries_iff _ (defaults_wf t)]
  cases t <;> simp [defaults, required]

/-- **C132** (SAFT). A SAFT equation of state is built exactly when an implementation is chosen, the variant exists, groups,
library and composition are given, every group is in the library, every group *of the library* has the parameters
without default, and the remaining steps succeed; it has as many components as the composition has rows. -/
theorem c132_saft (typ : List Char) (numba cython python : Bool) (k : Kwargs β K) (hw : ∀ l, k.library = some l → l.WF)
    (hdot : '.' ∉ typ) (o : Obj β) :
    initiate restC restS ("saft.".toList ++ typ) numba cython python k = .ok o ↔
      ∃ m t b l c l', methodStat numba cython python = .ok m ∧ saftType typ = .ok t ∧ k.beads = some b ∧
        k.library = some l ∧ k.composition = some c ∧ (∀ a ∈ b, a ∈ l.keys) ∧
        (∀ a d, l.get? a = some d → ∀ p ∈ required t, p ∈ d.keys) ∧
        (EosToolbox.checkBeadParameters l (defaults t)).2 = .ok l' ∧ restS t b l' c = .ok () ∧
        o = ⟨t, m, c.length, b⟩ := by
  have hplain : ∀ w : List Char, '.' ∉ w → splitDot w = [w] := by
    intro w
    induction w with
    | nil => intro _; rfl
    | cons x w ih =>
      intro h
      simp only [List.mem_cons, not_or] at h
      have hx : ¬ x = '.' := fun e => h.1 e.symm
      simp [splitDot, hx, ih h.2]
  have hs : splitDot ("saft.".toList ++ typ) = ["saft".toList, typ] := by
    have : "saft.".toList ++ typ = 's' :: 'a' :: 'f' :: 't' :: '.' :: typ := rfl
    rw [this]
    simp [splitDot, hplain typ hdot]
  unfold initiate
  rw [hs]
  simp only [if_true]
  cases hm : methodStat numba cython python with
  | error e => simp
  | ok m =>
    unfold saft
    simp only
    cases ht : template k with
    | error e =>
      simp only [reduceCtorEq, false_iff]
      rintro ⟨_, t, b, l, c, l', _, _, h1, h2, _, h3, _⟩
      rw [(template_ok k b l).2 ⟨h1, h2, h3⟩] at ht
      cases ht
    | ok bl =>
      obtain ⟨b, l⟩ := bl
      obtain ⟨h1, h2, h3⟩ := (template_ok k b l).1 ht
      simp only [h1, h2]
      cases hty : saftType typ with
      | error e => simp
      | ok t =>
        simp only
        cases hc : k.composition with
        | none => simp
        | some c =>
          simp only
          have hreq : ∀ l', (EosToolbox.checkBeadParameters l (defaults t)).2 = .ok l' →
              ∀ a d, l.get? a = some d → ∀ p ∈ required t, p ∈ d.keys := by
            intro l' hl a d had p hp
            by_contra hn
            have hg : d.get? p = none := by
              cases hg : d.get? p with
              | none => rfl
              | some v => exact absurd ((PyDict.mem_keys_iff d p).2 ⟨v, hg⟩) hn
            obtain ⟨cl, he⟩ := (c50_rejected_iff l (hw l h2) (defaults t) (defaults_wf t)).2
              ⟨a, d, p, had, (defaults_none t p).2 hp, hg⟩
            rw [he] at hl
            cases hl
          cases hl : (EosToolbox.checkBeadParameters l (defaults t)).2 with
          | error e =>
            simp only [reduceCtorEq, false_iff]
            rintro ⟨m', t', b', l'', c', l', e0, e1, e2, e3, e4, _, _, e5, _⟩
            cases e1; cases e2; cases e3; cases e4
            rw [hl] at e5
            cases e5
          | ok l' =>
            simp only
            cases hr : restS t b l' c with
            | error e =>
              simp only [reduceCtorEq, false_iff]
              rintro ⟨m', t', b', l'', c', l3, e0, e1, e2, e3, e4, _, _, e5, e6, _⟩
              cases e1; cases e2; cases e3; cases e4
              rw [hl] at e5
              cases e5
              rw [hr] at e6
              cases e6
            | ok u =>
              simp only [Except.ok.injEq]
              constructor
              · intro e
                exact ⟨m, t, b, l, c, l', rfl, rfl, rfl, rfl, rfl, h3, hreq l' hl, hl, hr, e.symm⟩
              · rintro ⟨m', t', b', l'', c', l3, e0, e1, e2, e3, e4, _, _, _, _, e7⟩
                cases e0; cases e1; cases e2; cases e4
                exact e7.symm

/-- **C132** (cubic). The cubic equation of state is built exactly when an implementation is chosen, groups and library
are given, every group is in the library with critical point or parameters, and the remaining steps succeed; its
components are the groups. -/
theorem c132_cubic (numba cython python : Bool) (k : Kwargs β K) (o : Obj β) :
    initiate restC restS "cubic.peng_robinson".toList numba cython python k = .ok o ↔
      ∃ m b l, methodStat numba cython python = .ok m ∧ k.beads = some b ∧ k.library = some l ∧
        (∀ a ∈ b, ∃ d, l.get? a = some d ∧
          (("Tc" ∈ d.keys ∧ "Pc" ∈ d.keys) ∨ ("ai" ∈ d.keys ∧ "bi" ∈ d.keys))) ∧
        restC b l = .ok () ∧ o = ⟨.pengRobinson, m, b.length, b⟩ := by
  have hs : splitDot "cubic.peng_robinson".toList = ["cubic".toList, "peng_robinson".toList] := by decide
  unfold initiate
  rw [hs]
  simp only [show ¬ "cubic".toList = "saft".toList by decide, if_false, if_true]
  have hcomp : ∀ d : PyDict String K, cubicComplete d = true ↔
      (("Tc" ∈ d.keys ∧ "Pc" ∈ d.keys) ∨ ("ai" ∈ d.keys ∧ "bi" ∈ d.keys)) := by
    intro d
    simp [cubicComplete, PyDict.contains_iff]
  cases hm : methodStat numba cython python with
  | error e => simp
  | ok m =>
    unfold cubic
    simp only [Except.ok.injEq, exists_and_left, exists_eq_left']
    cases ht : template k with
    | error e =>
      simp only [reduceCtorEq, false_iff]
      rintro ⟨b, h1, l, h2, h3, _⟩
      rw [(template_ok k b l).2 ⟨h1, h2, fun a ha => ?_⟩] at ht
      · cases ht
      · obtain ⟨d, hd, _⟩ := h3 a ha
        exact (PyDict.mem_keys_iff l a).2 ⟨d, hd⟩
    | ok bl =>
      obtain ⟨b, l⟩ := bl
      obtain ⟨h1, h2, h3⟩ := (template_ok k b l).1 ht
      simp only [h1, h2, Option.some.injEq, exists_eq_left']
      have hall : b.all (cubicGroup l) = true ↔
          (∀ a ∈ b, ∃ d, l.get? a = some d ∧
          (("Tc" ∈ d.keys ∧ "Pc" ∈ d.keys) ∨ ("ai" ∈ d.keys ∧ "bi" ∈ d.keys))) := by
        rw [List.all_eq_true]
        refine forall₂_congr fun a _ => ?_
        unfold cubicGroup
        cases hg : l.get? a with
        | none => simp
        | some d => simp [hcomp]
      by_cases hq : b.all (cubicGroup l) = true
      · rw [if_pos hq]
        cases hr : restC b l with
        | error e => simp
        | ok u =>
          simp only [Except.ok.injEq]
          exact ⟨fun e => ⟨hall.1 hq, trivial, e.symm⟩, fun e => e.2.2.symm⟩
      · rw [if_neg hq]
        simp only [reduceCtorEq, false_iff]
        rintro ⟨h, _⟩
        exact hq (hall.2 h)

/-- **C132, violated.** Keywords that no constructor knows are ignored. -/
theorem c132_violated_keyword (eos : List Char) (numba cython python : Bool) (k : Kwargs β K) (names : List String) :
    initiate restC restS eos numba cython python { k with others := names } =
      initiate restC restS eos numba cython python k := rfl

private theorem splitDot_ne (w : List Char) : splitDot w ≠ [] := by
  cases w with
  | nil => simp [splitDot]
  | cons c w =>
    simp only [splitDot]
    split
    · simp
    · split <;> simp

private theorem splitDot_two (w a b : List Char) (h : splitDot w = [a, b]) : w = a ++ '.' :: b := by
  have one : ∀ w a : List Char, splitDot w = [a] → w = a := by
    intro w
    induction w with
    | nil => intro a h; simpa [splitDot] using h
    | cons c w ih =>
      intro a h
      simp only [splitDot] at h
      split at h
      · exact absurd (List.cons.inj h).2 (splitDot_ne w)
      · split at h
        · rename_i e; exact absurd e (splitDot_ne w)
        · rename_i v vs e
          obtain ⟨rfl, rfl⟩ := List.cons.inj h
          rw [ih v e]
  induction w generalizing a with
  | nil => simp [splitDot] at h
  | cons c w ih =>
    simp only [splitDot] at h
    split at h
    · rename_i hc
      obtain ⟨rfl, h2⟩ := List.cons.inj h
      rw [hc, one w b h2]
      rfl
    · split at h
      · simp at h
      · rename_i v vs e
        obtain ⟨rfl, rfl⟩ := List.cons.inj h
        rw [ih v e]
        rfl

/-- **C132** (names). Nothing is made for a name other than that of the cubic equation of state or one that begins with `saft.`. -/
theorem c132_names (eos : List Char) (numba cython python : Bool) (k : Kwargs β K) (o : Obj β)
    (h : initiate restC restS eos numba cython python k = .ok o) :
    eos = "cubic.peng_robinson".toList ∨ ∃ typ, eos = "saft.".toList ++ typ := by
  unfold initiate at h
  split at h
  · cases h
  · split at h
    · rename_i fam typ hs
      have hw := splitDot_two _ _ _ hs
      split at h
      · rename_i hf
        exact Or.inr ⟨typ, by rw [hw, hf]; rfl⟩
      · split at h
        · rename_i hf
          split at h
          · rename_i ht
            exact Or.inl (by rw [hw, hf, ht]; rfl)
          · cases h
        · cases h
    · cases h

/-- **C132, violated.** The cubic equation of state ignores the composition of the molecules. -/
theorem c132_violated_composition (numba cython python : Bool) (k : Kwargs β K) (c : Option (List (List K))) :
    initiate restC restS "cubic.peng_robinson".toList numba cython python { k with composition := c } =
      initiate restC restS "cubic.peng_robinson".toList numba cython python k := rfl

/-- Missing groups or a missing library are a `TypeError`, a missing composition a `ValueError`. -/
theorem c132_missing (m : MethodStat) (typ : List Char) (k : Kwargs β K) :
    (k.beads = none ∨ k.library = none → cubic restC m k = .error .typeError ∧ saft restS typ m k = .error .typeError) ∧
    (∀ b l, template k = .ok (b, l) → k.composition = none → saft restS typ m k = .error .valueError) := by
  constructor
  · intro h
    have : template k = .error .typeError := by
      unfold template
      rcases h with h | h
      · rw [h]
      · rw [h]; cases k.beads <;> rfl
    simp [cubic, saft, this]
  · intro b l h hc
    unfold saft
    rw [h, hc]
    have ht : ∀ e, saftType typ = .error e → e = .valueError := by
      intro e he
      unfold saftType at he
      split at he
      · cases he
      · split at he
        · cases he
        · exact (Except.error.inj he).symm
    cases hs : saftType typ with
    | error e => simp [ht e hs]
    | ok t => rfl

end Build

/-- **C132, violated.** A library in which a group that is not used lacks a parameter is refused. -/
theorem c132_violated_unused :
    let full : PyDict String ℕ := ⟨[("epsilon", 1), ("lambda", 1), ("sigma", 1)]⟩
    let part : PyDict String ℕ := ⟨[("epsilon", 1), ("sigma", 1)]⟩
    initiate (fun _ _ => .ok ()) (fun _ _ _ _ => .ok ()) "saft.gamma_sw".toList true false false
      ⟨some ["A"], some ⟨[("A", full), ("B", part)]⟩, some [[2]], []⟩ = .error .valueError ∧
    initiate (fun _ _ => .ok ()) (fun _ _ _ _ => .ok ()) "saft.gamma_sw".toList true false false
      ⟨some ["A"], some ⟨[("A", full)]⟩, some [[2]], []⟩ = .ok ⟨.gammaSw, ⟨true, false, false⟩, 1, ["A"]⟩ := by
  decide

/-- A cubic equation of state of two components from critical points and parameters. -/
example : initiate (K := ℕ) (fun _ _ => .ok ()) (fun _ _ _ _ => .ok ()) "cubic.peng_robinson".toList true false false
    ⟨some ["A", "B"], some ⟨[("A", ⟨[("Tc", 1), ("Pc", 1)]⟩), ("B", ⟨[("ai", 1), ("bi", 1)]⟩)]⟩, none, ["cros_library"]⟩ =
      .ok ⟨.pengRobinson, ⟨true, false, false⟩, 2, ["A", "B"]⟩ := by
  decide

/-- Without a composition the square-well fluid is refused. -/
example : saft (K := ℕ) (fun _ _ _ _ => .ok ()) "gamma_sw".toList ⟨true, false, false⟩ ⟨some ["A"], some ⟨[("A", ⟨[]⟩)]⟩, none, []⟩
    = .error .valueError :=
  (c132_missing (K := ℕ) (fun _ _ => .ok ()) _ _ _ _).2 ["A"] _ rfl rfl

/-! ## C66: the implementation that is used -/

section Kernel
open Verif.Assoc

/-- **C66, violated** (Mie terms). No choice of flags makes the cython functions run, and asking for them where cython is not
loaded ends in an exception. -/
theorem c66_violated_mie (loaded compiled : Bool) (m : Option MethodStat) (flag : Bool × Bool)
    (h : importMie loaded compiled = .ok flag) :
    mieKernel flag m ≠ .ok .cython ∧
      (∀ s, m = some s → s.cython = true → loaded = false → mieKernel flag m = .error .other) := by
  unfold importMie at h
  cases m with
  | none => simp [mieKernel]
  | some s =>
    obtain ⟨n, c, p⟩ := s
    cases loaded <;> cases compiled <;> simp at h <;> subst h <;> cases c <;> cases p <;> simp [mieKernel]

/-- **C66** (one implementation). Objects made by `initiate_eos` use the same implementation for the Mie terms as for
association, or fail in the same way; without a request for cython it is python if asked for and numba otherwise. -/
theorem c66_same (loaded compiled numba cython python : Bool) (m : MethodStat) (flag : Bool × Bool) (rank : ℕ)
    (hr : rank = 4 ∨ rank = 6) (hm : methodStat numba cython python = .ok m)
    (h : importMie loaded compiled = .ok flag) :
    importAassoc loaded compiled = .ok flag ∧
      mieKernel flag (some m) = calcXikaWrap flag m.cython m.python m.numba rank ∧
      (cython = false → mieKernel flag (some m) = .ok (if python then .python else .numba)) := by
  unfold methodStat at hm
  unfold importMie at h
  unfold calcXikaWrap importAassoc
  rw [if_pos hr]
  cases loaded <;> cases compiled <;> simp at h <;> subst h <;> cases numba <;> cases cython <;> cases python <;>
    simp at hm <;> subst hm <;> simp [mieKernel]

/-- **C66** (import). The module with the Mie terms is imported in the same way as that with association: the import fails if and only if cython is
installed and the functions are not compiled. -/
theorem c66_import (loaded compiled : Bool) :
    importMie loaded compiled = importAassoc loaded compiled ∧
      ((∃ e, importMie loaded compiled = .error e) ↔ loaded = true ∧ compiled = false) := by
  cases loaded <;> cases compiled <;> simp [importMie, importAassoc]

/-- Python asked for, cython not installed. -/
example : mieKernel (true, false) (some ⟨false, false, true⟩) = .ok .python :=
  (c66_same false false false false true _ _ 4 (by simp) rfl rfl).2.2 rfl

/-- **C66, violated** (command line). The option `--numba` switches numba off: alone it makes the construction fail. With
`--cython`, and cython installed, numba runs. -/
theorem c66_violated_command_line (v : Nat) (c : Bool) :
    commandLineMethod ⟨v, c, true, false, false⟩ = .error .valueError ∧
    (∃ m, commandLineMethod ⟨v, c, false, false, true⟩ = .ok m ∧ mieKernel (false, true) (some m) = .ok .numba) := by
  refine ⟨rfl, _, rfl, rfl⟩

/-- An object made without `method_stat` has no Mie terms. -/
theorem c66_violated_absent (flag : Bool × Bool) : mieKernel flag none = .error .attributeError := rfl

end Kernel

end Verif.Props
