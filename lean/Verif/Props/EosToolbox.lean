import Verif.Model.EosToolbox
import Mathlib.Algebra.BigOperators.Group.List.Basic
import Mathlib.Algebra.Ring.Int.Defs
import Mathlib.Data.Int.Order.Basic
import Mathlib.Tactic.Ring
import Mathlib.Tactic.NormNum

/-! # C10, C49, C50, C54: library helpers -/

namespace Verif.Props
open Verif Verif.EosToolbox

/-! ## C49 -/

theorem c49_loop {K : Type} [LinearOrder K] (eps : K) (massi : List K) (xi : List K) (i : Nat)
    (h : i + xi.length ≤ massi.length) :
    removeLoop eps massi i xi =
      .ok (((xi.zip (massi.drop i)).filter (fun p => ¬ p.1 < eps)).unzip) := by
  induction xi generalizing i with
  | nil => simp [removeLoop]
  | cons x r ih =>
    simp only [List.length_cons] at h
    have hi : i < massi.length := by omega
    have ih := ih (i + 1) (by omega)
    unfold removeLoop
    rw [List.drop_eq_getElem_cons hi, List.zip_cons_cons, List.filter_cons]
    by_cases hx : x < eps
    · simp only [hx, if_true, not_true_eq_false, decide_false, Bool.false_eq_true, if_false]
      exact ih
    · simp only [hx, if_false, not_false_eq_true, decide_true, if_true]
      rw [List.getElem?_eq_getElem hi, ih]
      simp

/-- **C49 (a).** With one mass per component, the result is the list of (mole fraction, mass) pairs of
the significant components, aligned and in the original order. -/
theorem c49_aligned {K : Type} [LinearOrder K] (eps : K) (xi massi : List K)
    (h : xi.length = massi.length) :
    removeInsignificant eps xi massi =
      .ok (((xi.zip massi).filter (fun p => ¬ p.1 < eps)).unzip) := by
  have := c49_loop eps massi xi 0 (by omega)
  simpa [removeInsignificant] using this

/-- **C49 (b).** A composition without negligible components is returned unchanged. -/
theorem c49_unchanged {K : Type} [LinearOrder K] (eps : K) (xi massi : List K)
    (h : xi.length = massi.length) (hs : ∀ x ∈ xi, eps ≤ x) :
    removeInsignificant eps xi massi = .ok (xi, massi) := by
  rw [c49_aligned eps xi massi h]
  have : (xi.zip massi).filter (fun p => ¬ p.1 < eps) = xi.zip massi := by
    rw [List.filter_eq_self]
    rintro ⟨a, b⟩ hp
    simpa using hs a (List.of_mem_zip hp).1
  rw [this]
  congr 1
  rw [List.unzip_zip]
  omega

/-- **C49 (c).** Every significant component survives with its mass, and no negligible one does. -/
theorem c49_kept_iff {K : Type} [LinearOrder K] (eps : K) (xi massi : List K)
    (h : xi.length = massi.length) (xs ms : List K)
    (hr : removeInsignificant eps xi massi = .ok (xs, ms)) :
    xs.length = ms.length ∧
      ∀ x m, (x, m) ∈ xs.zip ms ↔ ((x, m) ∈ xi.zip massi ∧ eps ≤ x) := by
  rw [c49_aligned eps xi massi h] at hr
  simp only [Except.ok.injEq] at hr
  have hz : xs.zip ms = (xi.zip massi).filter (fun p => ¬ p.1 < eps) := by
    have := List.zip_unzip ((xi.zip massi).filter (fun p => ¬ p.1 < eps))
    rw [hr] at this; exact this
  constructor
  · have h1 : xs = (List.unzip ((xi.zip massi).filter (fun p => ¬ p.1 < eps))).1 := by rw [hr]
    have h2 : ms = (List.unzip ((xi.zip massi).filter (fun p => ¬ p.1 < eps))).2 := by rw [hr]
    rw [h1, h2, List.unzip_fst, List.unzip_snd]; simp
  · intro x m
    rw [hz]
    simp

/-- Applying it twice changes nothing more. -/
theorem c49_idempotent {K : Type} [LinearOrder K] (eps : K) (xi massi : List K)
    (h : xi.length = massi.length) (xs ms : List K)
    (hr : removeInsignificant eps xi massi = .ok (xs, ms)) :
    removeInsignificant eps xs ms = .ok (xs, ms) := by
  obtain ⟨h1, h2⟩ := c49_kept_iff eps xi massi h xs ms hr
  apply c49_unchanged eps xs ms h1
  intro x hx
  obtain ⟨i, hi, rfl⟩ := List.getElem_of_mem hx
  have : (xs[i], ms[i]) ∈ xs.zip ms := by
    rw [List.mem_iff_getElem]
    exact ⟨i, by simp; omega, by simp⟩
  exact ((h2 _ _).mp this).2

example : removeInsignificant (1 : Int) [5, 0, 7] [50, 60, 70] = .ok ([5, 7], [50, 70]) := by decide

/-! ## C10 -/

section Mass
variable {β K : Type} [DecidableEq β] [Semiring K]

/-- Specification: mass of a group, where known. -/
def massOf (lib : PyDict β (PyDict String K)) (b : β) : Option K := (lib.get? b).bind (·.get? "mass")

theorem c10_row (lib : PyDict β (PyDict String K)) (m : β → K) (beads : List β)
    (hm : ∀ b ∈ beads, massOf lib b = some (m b)) (row : List K) (hl : row.length = beads.length) :
    massRow lib beads row = .ok ((List.zipWith (fun c b => c * m b) row beads).sum) := by
  induction beads generalizing row with
  | nil => cases row <;> simp [massRow]
  | cons b bs ih =>
    match row, hl with
    | c :: cs, hl =>
      have h1 := hm b (by simp)
      simp only [massOf, Option.bind_eq_some_iff] at h1
      obtain ⟨d, hd, hd2⟩ := h1
      unfold massRow
      rw [hd]
      simp only [hd2]
      rw [ih (fun b hb => hm b (List.mem_cons_of_mem _ hb)) cs (by simpa using hl)]
      simp

/-- **C10 (a).** The molar mass of each molecule is the sum over groups of count times mass. -/
theorem c10_sum (lib : PyDict β (PyDict String K)) (m : β → K) (beads : List β)
    (hm : ∀ b ∈ beads, massOf lib b = some (m b)) (comp : List (List K))
    (hl : ∀ row ∈ comp, row.length = beads.length) :
    calcMassi lib beads comp =
      .ok (comp.map fun row => (List.zipWith (fun c b => c * m b) row beads).sum) := by
  induction comp with
  | nil => rfl
  | cons row rows ih =>
    unfold calcMassi
    rw [c10_row lib m beads hm row (hl row (by simp)),
      ih (fun r hr => hl r (List.mem_cons_of_mem _ hr))]
    rfl

/-- **C10 (b).** Joining two molecules (adding their group counts) adds their masses. -/
theorem c10_additive (lib : PyDict β (PyDict String K)) (m : β → K) (beads : List β)
    (hm : ∀ b ∈ beads, massOf lib b = some (m b)) (r1 r2 : List K)
    (h1 : r1.length = beads.length) (h2 : r2.length = beads.length) :
    ∃ a b, massRow lib beads r1 = .ok a ∧ massRow lib beads r2 = .ok b ∧
      massRow lib beads (List.zipWith (· + ·) r1 r2) = .ok (a + b) := by
  refine ⟨_, _, c10_row lib m beads hm r1 h1, c10_row lib m beads hm r2 h2, ?_⟩
  rw [c10_row lib m beads hm _ (by simp [h1, h2])]
  congr 1
  clear hm
  induction beads generalizing r1 r2 with
  | nil => simp
  | cons b bs ih =>
    match r1, r2, h1, h2 with
    | x :: xs, y :: ys, h1, h2 =>
      simp only [List.length_cons, Nat.add_right_cancel_iff] at h1 h2
      simp only [List.zipWith_cons_cons, List.sum_cons, ih xs ys h1 h2, add_mul]
      rw [add_add_add_comm]

/-- **C10 (c).** The order in which the groups are listed does not matter. -/
theorem c10_order (lib : PyDict β (PyDict String K)) (m : β → K) (l1 l2 : List (K × β))
    (hp : l1.Perm l2) (hm : ∀ p ∈ l1, massOf lib p.2 = some (m p.2)) :
    massRow lib (l1.map Prod.snd) (l1.map Prod.fst) =
      massRow lib (l2.map Prod.snd) (l2.map Prod.fst) := by
  have hm1 : ∀ b ∈ l1.map Prod.snd, massOf lib b = some (m b) := by
    intro b hb; obtain ⟨p, hp', rfl⟩ := List.mem_map.mp hb; exact hm p hp'
  have hm2 : ∀ b ∈ l2.map Prod.snd, massOf lib b = some (m b) := by
    intro b hb; obtain ⟨p, hp', rfl⟩ := List.mem_map.mp hb; exact hm p (hp.mem_iff.mpr hp')
  rw [c10_row lib m _ hm1 _ (by simp), c10_row lib m _ hm2 _ (by simp)]
  congr 1
  simp only [List.zipWith_map, List.zipWith_self]
  exact (hp.map _).sum_eq

/-- **C10 (d).** A group without mass is an error (for any molecule at all), never counted as zero. -/
theorem c10_missing (lib : PyDict β (PyDict String K)) (beads : List β) (b : β) (hb : b ∈ beads)
    (hm : massOf lib b = none) (comp : List (List K)) (hne : comp ≠ []) :
    ∃ e, calcMassi lib beads comp = .error e := by
  have hrow : ∀ row, ∃ e, massRow lib beads row = .error e := by
    clear hne
    induction beads with
    | nil => cases hb
    | cons b' bs ih =>
      intro row
      unfold massRow
      cases hg : lib.get? b' with
      | none => exact ⟨_, rfl⟩
      | some d =>
        cases hd : d.get? "mass" with
        | none => exact ⟨.valueError, by simp only [hd]⟩
        | some m =>
          have hb' : b ∈ bs := by
            rcases List.mem_cons.mp hb with rfl | h
            · simp [massOf, hg, hd] at hm
            · exact h
          cases row with
          | nil => exact ⟨.indexError, by simp only [hd]⟩
          | cons c cs =>
            obtain ⟨e, he⟩ := ih hb' cs
            exact ⟨e, by simp only [hd, he]⟩
  match comp, hne with
  | row :: rows, _ =>
    obtain ⟨e, he⟩ := hrow row
    exact ⟨e, by simp [calcMassi, he]⟩

end Mass

example : calcMassi (β := String) (K := Int)
    ⟨[("CH3", ⟨[("mass", 15)]⟩), ("CH2", ⟨[("epsilon", 3), ("mass", 14)]⟩)]⟩ ["CH2", "CH3"]
    [[4, 2], [1, 0]] = .ok [86, 14] := by decide

/-! ## C54 `extract_property` -/

/-- **C54.** The extracted array has one entry per group in order: the group's value where it has one,
else the default; without default a missing value is an error. -/
theorem c54_extract {β K : Type} [DecidableEq β] (prop : String) (lib : PyDict β (PyDict String K))
    (default : Option K) (beads : List β) (hb : ∀ b ∈ beads, ∃ d, lib.get? b = some d) :
    extractProperty prop lib default beads =
      if ∀ b ∈ beads, (((lib.get? b).bind (·.get? prop)).or default).isSome then
        .ok (beads.filterMap fun b => ((lib.get? b).bind (·.get? prop)).or default)
      else .error .valueError := by
  induction beads with
  | nil => simp [extractProperty]
  | cons b bs ih =>
    obtain ⟨d, hd⟩ := hb b (by simp)
    have ih := ih (fun b hb' => hb b (List.mem_cons_of_mem _ hb'))
    unfold extractProperty
    rw [hd, ih]
    simp only [List.forall_mem_cons, hd, Option.bind_some]
    by_cases hall : ∀ b ∈ bs, (((lib.get? b).bind (·.get? prop)).or default).isSome
    · rw [if_pos hall]
      cases hp : d.get? prop with
      | some v =>
        rw [if_pos ⟨by simp, hall⟩, List.filterMap_cons, hd]
        simp only [Option.bind_some, hp, Option.some_or]
      | none =>
        cases default with
        | none => simp
        | some v =>
          rw [if_pos ⟨by simp, hall⟩, List.filterMap_cons, hd]
          simp only [Option.bind_some, hp, Option.none_or]
    · rw [if_neg hall, if_neg (fun h => hall h.2)]
      cases hp : d.get? prop with
      | some v => rfl
      | none => cases default <;> rfl

/-- **C54** (unknown groups): a group that the library does not have is refused, with a `KeyError` if it is the first
that has no value. -/
theorem c54_unknown_group {β K : Type} [DecidableEq β] (prop : String) (lib : PyDict β (PyDict String K))
    (default : Option K) (pre post : List β) (b : β) (hb : lib.get? b = none)
    (hpre : ∀ b ∈ pre, ∃ d, lib.get? b = some d) :
    extractProperty prop lib default (pre ++ b :: post) =
      if ∀ b ∈ pre, (((lib.get? b).bind (·.get? prop)).or default).isSome then .error .keyError else .error .valueError := by
  induction pre with
  | nil => simp [extractProperty, hb]
  | cons a pre ih =>
    obtain ⟨d, hd⟩ := hpre a (by simp)
    have ih := ih fun b hb' => hpre b (List.mem_cons_of_mem _ hb')
    rw [List.cons_append]
    unfold extractProperty
    rw [hd, ih]
    simp only [List.forall_mem_cons, hd, Option.bind_some]
    cases hp : d.get? prop <;> cases default <;> simp <;> split_ifs <;> rfl


/-! ## C50 -/

section Defaults
variable {β K : Type} [DecidableEq β]

theorem c50_fillBead_ok (l : List (String × Option K)) (d d' : PyDict String K)
    (h : fillBead l d = (d', none)) (k : String) :
    d'.get? k = (d.get? k).or ((PyDict.lookupL l k).join) := by
  induction l generalizing d with
  | nil => cases h; simp [PyDict.lookupL]
  | cons p r ih =>
    obtain ⟨p, dflt⟩ := p
    unfold fillBead at h
    simp only [PyDict.lookupL]
    split at h
    · rename_i hc
      rw [ih _ h]
      by_cases hk : p = k
      · subst hk
        obtain ⟨v, hv⟩ := Option.isSome_iff_exists.mp hc
        simp [hv]
      · simp [hk]
    · rename_i hc
      cases dflt with
      | none => cases h
      | some v =>
        rw [ih _ h, PyDict.get?_set]
        by_cases hk : p = k
        · subst hk
          simp only [PyDict.contains, Bool.not_eq_true, Option.isSome_eq_false_iff,
            Option.isNone_iff_eq_none] at hc
          simp [hc]
        · simp [hk]

theorem c50_fillBead_err (l : List (String × Option K)) (hn : (l.map Prod.fst).Nodup)
    (d : PyDict String K) :
    (∃ d' e, fillBead l d = (d', some e)) ↔ ∃ p, (p, none) ∈ l ∧ d.get? p = none := by
  induction l generalizing d with
  | nil => simp [fillBead]
  | cons q r ih =>
    obtain ⟨p, dflt⟩ := q
    simp only [List.map_cons, List.nodup_cons] at hn
    unfold fillBead
    by_cases hc : d.contains p = true
    · rw [if_pos hc, ih hn.2]
      constructor
      · rintro ⟨a, h1, h2⟩; exact ⟨a, List.mem_cons_of_mem _ h1, h2⟩
      · rintro ⟨a, h1, h2⟩
        rcases List.mem_cons.mp h1 with h3 | h3
        · cases h3; simp [PyDict.contains, h2] at hc
        · exact ⟨a, h3, h2⟩
    · rw [if_neg hc]
      have hc' : d.get? p = none := by simpa [PyDict.contains] using hc
      cases dflt with
      | none => simp only; exact ⟨fun _ => ⟨p, by simp, hc'⟩, fun _ => ⟨_, _, rfl⟩⟩
      | some v =>
        simp only
        rw [ih hn.2]
        constructor
        · rintro ⟨a, h1, h2⟩
          refine ⟨a, List.mem_cons_of_mem _ h1, ?_⟩
          rw [PyDict.get?_set] at h2
          split at h2
          · cases h2
          · exact h2
        · rintro ⟨a, h1, h2⟩
          rcases List.mem_cons.mp h1 with h3 | h3
          · cases h3
          · refine ⟨a, h3, ?_⟩
            rw [PyDict.get?_set_ne _ _ (by rintro rfl; exact hn.1 (List.mem_map_of_mem h3)), h2]

theorem c50_fillBead_kind (l : List (String × Option K)) (d d' : PyDict String K) (e : PyErr)
    (h : fillBead l d = (d', some e)) : e = .valueError := by
  induction l generalizing d with
  | nil => cases h
  | cons q r ih =>
    obtain ⟨p, dflt⟩ := q
    unfold fillBead at h
    split at h
    · exact ih _ h
    · cases dflt with
      | none => cases h; rfl
      | some v => exact ih _ h

theorem c50_fillLib (defaults : List (String × Option K)) (l : List (β × PyDict String K)) :
    ((fillLib defaults l).2 = none →
      ∀ b d', PyDict.lookupL (fillLib defaults l).1 b = some d' ↔
        ∃ d, PyDict.lookupL l b = some d ∧ fillBead defaults d = (d', none)) := by
  induction l with
  | nil => simp [fillLib, PyDict.lookupL]
  | cons q r ih =>
    obtain ⟨b0, d0⟩ := q
    unfold fillLib
    cases hf : fillBead defaults d0 with
    | mk d1 o =>
      cases o with
      | some e => simp
      | none =>
        simp only
        intro hnone b d'
        have ih := ih hnone
        simp only [PyDict.lookupL]
        by_cases hb : b0 = b
        · subst hb
          simp only [if_true, Option.some.injEq]
          constructor
          · rintro rfl; exact ⟨d0, rfl, hf⟩
          · rintro ⟨d, rfl, h⟩; rw [hf] at h; cases h; rfl
        · simp only [hb, if_false]; exact ih b d'

/-- **C50 (a).** On success, every group of the returned library has each of its supplied parameters
unchanged and each missing optional parameter at its default, and nothing else. -/
theorem c50_filled (lib lib' caller : PyDict β (PyDict String K)) (defaults : PyDict String (Option K))
    (h : checkBeadParameters lib defaults = (caller, .ok lib')) (b : β) :
    (lib.get? b = none → lib'.get? b = none) ∧
    ∀ d, lib.get? b = some d → ∃ d', lib'.get? b = some d' ∧
      ∀ k, d'.get? k = (d.get? k).or ((defaults.get? k).join) := by
  unfold checkBeadParameters at h
  split at h
  · rename_i l hl
    simp only [Prod.mk.injEq, Except.ok.injEq] at h
    obtain ⟨rfl, rfl⟩ := h
    have hfl := c50_fillLib defaults.entries lib.entries (by rw [hl])
    rw [hl] at hfl
    constructor
    · intro hn
      cases hg : PyDict.get? (⟨l⟩ : PyDict β (PyDict String K)) b with
      | none => rfl
      | some d' =>
        obtain ⟨d, h1, _⟩ := (hfl b d').mp hg
        have : lib.get? b = some d := h1
        rw [hn] at this; cases this
    · intro d hd
      cases hf : fillBead defaults.entries d with
      | mk d' o =>
        cases o with
        | none =>
          exact ⟨d', (hfl b d').mpr ⟨d, hd, hf⟩, fun k => c50_fillBead_ok _ _ _ hf k⟩
        | some e =>
          exfalso
          -- the loop would have stopped at this group
          have hmem : ∀ (l : List (β × PyDict String K)), PyDict.lookupL l b = some d →
              (fillLib defaults.entries l).2 ≠ none := by
            intro l
            induction l with
            | nil => intro hh; cases hh
            | cons q r ih =>
              obtain ⟨b0, d0⟩ := q
              intro hh
              unfold fillLib
              cases hf0 : fillBead defaults.entries d0 with
              | mk d1 o =>
                cases o with
                | some e => simp
                | none =>
                  simp only
                  simp only [PyDict.lookupL] at hh
                  split at hh
                  · cases hh; rw [hf] at hf0; cases hf0
                  · exact ih hh
          exact hmem lib.entries hd (by rw [hl])
  · simp at h

/-- **C50 (b).** The library is rejected, with `ValueError`, exactly when some group lacks a parameter
that has no default. -/
theorem c50_rejected_iff (lib : PyDict β (PyDict String K)) (hw : lib.WF)
    (defaults : PyDict String (Option K)) (hd : defaults.WF) :
    (∃ caller, checkBeadParameters lib defaults = (caller, .error .valueError)) ↔
      ∃ b d p, lib.get? b = some d ∧ defaults.get? p = some none ∧ d.get? p = none := by
  have key : ∀ l : List (β × PyDict String K), (∃ l' e, fillLib defaults.entries l = (l', some e)) ↔
      ∃ q ∈ l, ∃ p, (p, none) ∈ defaults.entries ∧ q.2.get? p = none := by
    intro l
    induction l with
    | nil => simp [fillLib]
    | cons q r ih =>
      obtain ⟨b0, d0⟩ := q
      have he := c50_fillBead_err defaults.entries hd d0
      unfold fillLib
      cases hf : fillBead defaults.entries d0 with
      | mk d1 o =>
        cases o with
        | some e =>
          have := he.mp ⟨d1, e, hf⟩
          simp only [Prod.mk.injEq, Option.some.injEq]
          exact ⟨fun _ => ⟨(b0, d0), by simp, this⟩, fun _ => ⟨_, _, rfl, rfl⟩⟩
        | none =>
          have hno : ¬ ∃ p, (p, none) ∈ defaults.entries ∧ d0.get? p = none := by
            intro hh
            obtain ⟨_, _, h2⟩ := he.mpr hh
            rw [hf] at h2; cases h2
          simp only [List.mem_cons, exists_eq_or_imp, hno, false_or, ← ih]
          constructor
          · rintro ⟨l', e, h⟩; simp only [Prod.mk.injEq] at h
            exact ⟨_, e, Prod.ext rfl h.2⟩
          · rintro ⟨l', e, h⟩; exact ⟨_, e, by rw [h]⟩
  have kind : ∀ (l l' : List (β × PyDict String K)) e,
      fillLib defaults.entries l = (l', some e) → e = .valueError := by
    intro l
    induction l with
    | nil => intro l' e h; cases h
    | cons q r ih =>
      intro l' e h
      obtain ⟨b0, d0⟩ := q
      unfold fillLib at h
      cases hf : fillBead defaults.entries d0 with
      | mk d1 o =>
        rw [hf] at h
        cases o with
        | some e' =>
          simp only [Prod.mk.injEq, Option.some.injEq] at h
          rw [← h.2]; exact c50_fillBead_kind _ _ _ _ hf
        | none =>
          simp only [Prod.mk.injEq] at h
          exact ih (fillLib defaults.entries r).1 e (Prod.ext rfl h.2)
  constructor
  · rintro ⟨caller, h⟩
    unfold checkBeadParameters at h
    split at h
    · simp at h
    · rename_i l e hl
      obtain ⟨⟨b, d⟩, hq, p, h1, h2⟩ := (key _).mp ⟨l, e, hl⟩
      exact ⟨b, d, p, (PyDict.mem_entries_iff lib hw b d).mp hq,
        (PyDict.mem_entries_iff defaults hd p none).mp h1, h2⟩
  · rintro ⟨b, d, p, h1, h2, h3⟩
    obtain ⟨l', e, h⟩ := (key lib.entries).mpr ⟨(b, d), (PyDict.mem_entries_iff lib hw b d).mpr h1, p,
      (PyDict.mem_entries_iff defaults hd p none).mpr h2, h3⟩
    have := kind _ _ _ h
    subst this
    exact ⟨⟨l'⟩, by simp [checkBeadParameters, h]⟩

omit [DecidableEq β] in
/-- **C50, violated.** The caller's library *is* modified: after a successful call it equals the
returned library, with all the defaults. -/
theorem c50_violated_caller_modified (lib lib' caller : PyDict β (PyDict String K))
    (defaults : PyDict String (Option K))
    (h : checkBeadParameters lib defaults = (caller, .ok lib')) : caller = lib' := by
  unfold checkBeadParameters at h
  split at h
  · simp only [Prod.mk.injEq, Except.ok.injEq] at h; rw [← h.1, ← h.2]
  · simp at h

/-- A concrete case in which the caller's library changes. -/
theorem c50_violated_witness :
    ∃ (lib : PyDict String (PyDict String Int)) (defaults : PyDict String (Option Int)),
      (checkBeadParameters lib defaults).1 ≠ lib :=
  ⟨⟨[("CH2", ⟨[("epsilon", 1)]⟩)]⟩, ⟨[("epsilon", none), ("Sk", some 1)]⟩, by decide⟩

end Defaults

end Verif.Props
