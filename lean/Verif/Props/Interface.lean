import Verif.Model.Interface
import Mathlib.Algebra.Order.Field.Basic
import Mathlib.Tactic.Linarith
import Mathlib.Tactic.Ring
import Mathlib.Tactic.NormNum
import Mathlib.Data.Rat.Defs
import Mathlib.Algebra.Order.Ring.Rat

/-! # C11, C12, C55: bounds, updates and guesses of fitted parameters -/

namespace Verif.Props
open Verif Verif.Interface

/-! ## C11 -/

section Bounds
variable {K : Type} [LinearOrder K]

/-- **C11.** For a known parameter with a sensible allowed range the call succeeds for all numeric
bounds, and the result lies in the allowed range. -/
theorem c11_within (extreme : PyDict String (K × K)) (name : String) (mn mx lo hi : K)
    (hk : extreme.get? (splitHead '_' name) = some (mn, mx)) (hm : mn ≤ mx) :
    ∃ lo' hi', checkBounds extreme name (some lo) (some hi) = .ok (some lo', some hi') ∧
      mn ≤ lo' ∧ lo' ≤ mx ∧ mn ≤ hi' ∧ hi' ≤ mx ∧
      -- bounds inside the range are untouched, each on its own
      (mn ≤ lo → lo ≤ mx → lo' = lo) ∧ (mn ≤ hi → hi ≤ mx → hi' = hi) ∧
      -- a bound outside is replaced by the corresponding end of the range
      (¬ (mn ≤ lo ∧ lo ≤ mx) → lo' = mn) ∧ (¬ (mn ≤ hi ∧ hi ≤ mx) → hi' = mx) ∧
      -- the order is kept
      (lo ≤ hi → lo' ≤ hi') ∧
      -- a second check changes nothing
      checkBounds extreme name (some lo') (some hi') = .ok (some lo', some hi') := by
  refine ⟨if lo < mn then mn else if lo > mx then mn else lo,
    if hi > mx then mx else if hi < mn then mx else hi, ?_, ?_⟩
  · simp only [checkBounds, hk, checkLower, checkUpper]
    split_ifs <;> rfl
  · have h1 : ∀ b : K, mn ≤ b → b ≤ mx → checkLower mn mx (some b) = some b := by
      intro b h1 h2
      simp only [checkLower, not_lt.mpr h1, not_lt.mpr h2, if_false]
    have h2 : ∀ b : K, mn ≤ b → b ≤ mx → checkUpper mn mx (some b) = some b := by
      intro b h1 h2
      simp only [checkUpper, not_lt.mpr h1, not_lt.mpr h2, if_false]
    have hlo : mn ≤ (if lo < mn then mn else if lo > mx then mn else lo) ∧
        (if lo < mn then mn else if lo > mx then mn else lo) ≤ mx := by
      split_ifs with a b
      · exact ⟨le_refl _, hm⟩
      · exact ⟨le_refl _, hm⟩
      · exact ⟨not_lt.mp a, not_lt.mp b⟩
    have hhi : mn ≤ (if hi > mx then mx else if hi < mn then mx else hi) ∧
        (if hi > mx then mx else if hi < mn then mx else hi) ≤ mx := by
      split_ifs with a b
      · exact ⟨hm, le_refl _⟩
      · exact ⟨hm, le_refl _⟩
      · exact ⟨not_lt.mp b, not_lt.mp a⟩
    refine ⟨hlo.1, hlo.2, hhi.1, hhi.2, ?_, ?_, ?_, ?_, ?_, ?_⟩
    · intro a b
      simp only [not_lt.mpr a, not_lt.mpr b, if_false]
    · intro a b
      simp only [not_lt.mpr a, not_lt.mpr b, if_false]
    · intro a
      split_ifs with c d
      · rfl
      · rfl
      · exact absurd ⟨not_lt.mp c, not_lt.mp d⟩ a
    · intro a
      split_ifs with c d
      · rfl
      · rfl
      · exact absurd ⟨not_lt.mp d, not_lt.mp c⟩ a
    · intro hle
      split_ifs with a b c d e f g i
      all_goals first
        | exact hm
        | exact not_lt.mp ‹_›
        | exact hle
    · simp only [checkBounds, hk, h1 _ hlo.1 hlo.2, h2 _ hhi.1 hhi.2]

/-- **C11.** A parameter is rejected exactly when its name (up to the first underscore) is not in the
table. -/
theorem c11_rejected_iff (extreme : PyDict String (K × K)) (name : String) (lo hi : Option K) :
    checkBounds extreme name lo hi = .error .valueError ↔
      splitHead '_' name ∉ extreme.keys := by
  rw [PyDict.mem_keys_iff]
  unfold checkBounds
  cases h : extreme.get? (splitHead '_' name) with
  | none => simp
  | some r => obtain ⟨mn, mx⟩ := r; simp

/-- NaN passes through unchecked (both comparisons are false). -/
theorem c11_nan_kept (extreme : PyDict String (K × K)) (name : String)
    (hk : splitHead '_' name ∈ extreme.keys) :
    checkBounds extreme name none none = .ok (none, none) := by
  obtain ⟨⟨mn, mx⟩, h⟩ := (PyDict.mem_keys_iff _ _).mp hk
  simp only [checkBounds, h, checkLower, checkUpper]

theorem c11_takeWhile_stop (p : List Char) (c : Char) (r : List Char) (h : c ∉ p) :
    (p ++ c :: r).takeWhile (· ≠ c) = p := by
  induction p with
  | nil => simp
  | cons a t ih =>
    simp only [List.mem_cons, not_or] at h
    have ha : a ≠ c := fun e => h.1 e.symm
    simp only [List.cons_append, List.takeWhile_cons, ha, ne_eq, not_false_eq_true, decide_true,
      if_true]
    rw [show (fun x => decide ¬x = c) = (fun x => decide (x ≠ c)) from rfl, ih h.2]

theorem c11_takeWhile_all (p : List Char) (c : Char) (h : c ∉ p) :
    p.takeWhile (· ≠ c) = p := by
  induction p with
  | nil => simp
  | cons a t ih =>
    simp only [List.mem_cons, not_or] at h
    have ha : a ≠ c := fun e => h.1 e.symm
    simp only [List.takeWhile_cons, ha, ne_eq, not_false_eq_true, decide_true, if_true]
    rw [show (fun x => decide ¬x = c) = (fun x => decide (x ≠ c)) from rfl, ih h.2]

/-- **C11 for SAFT.** The other group (after `_`) and the association sites (after `-`) do not
matter: the range is that of the parameter type. -/
theorem c11_saft_type (extreme : PyDict String (K × K)) (p r : String) (c : Char)
    (hc : c = '-' ∨ c = '_') (hp1 : '-' ∉ p.toList) (hp2 : '_' ∉ p.toList) (lo hi : Option K) :
    saftCheckBounds extreme (String.ofList (p.toList ++ c :: r.toList)) lo hi =
      checkBounds extreme p lo hi := by
  have hkey : splitHead '_' (splitHead '-' (String.ofList (p.toList ++ c :: r.toList))) = p := by
    unfold splitHead
    rw [String.toList_ofList, String.toList_ofList]
    rcases hc with rfl | rfl
    · rw [c11_takeWhile_stop _ _ _ hp1, c11_takeWhile_all _ _ hp2, String.ofList_toList]
    · rw [List.takeWhile_append_of_pos]
      · rw [List.takeWhile_cons]
        have : decide ('_' ≠ '-') = true := by decide
        rw [if_pos (by decide), c11_takeWhile_stop _ _ _ hp2, String.ofList_toList]
      · intro a ha
        simp only [ne_eq, decide_not, Bool.not_eq_eq_eq_not, Bool.not_true, decide_eq_false_iff_not]
        rintro rfl; exact hp1 ha
  have hkey2 : splitHead '_' p = p := by
    unfold splitHead; rw [c11_takeWhile_all _ _ hp2, String.ofList_toList]
  unfold saftCheckBounds checkBounds
  rw [hkey, hkey2]

end Bounds

/-- The hypothesis `mn ≤ mx` of `c11_within` holds for every entry of every shipped table. -/
theorem c11_tables : ∀ t ∈ [prExtreme, mieExtreme, swExtreme], ∀ p ∈ t.entries, p.2.1 ≤ p.2.2 := by
  decide +kernel

/-- **C11** (shipped ranges): asked for the widest range, the bounds of every fitted parameter of the three equations of
state, in their units. -/
theorem c11_widest :
    (∀ p ∈ [("ai", ((0 : ℚ), (50 : ℚ))), ("bi", (0, 1/1000)), ("kij", (-1, 1)), ("omega", (0, 1)), ("Tc", (0, 1000)), ("Pc", (1, 10 ^ 8))],
      checkBounds prExtreme p.1 (some (-10 ^ 9)) (some (10 ^ 9)) = .ok (some p.2.1, some p.2.2)) ∧
    (∀ p ∈ [("epsilonHB", ((100 : ℚ), (5000 : ℚ))), ("K", (1/10 ^ 5, 10 ^ 4)), ("rc", (1/10, 10)), ("rd", (1/10, 10)), ("epsilon", (100, 1000)),
        ("sigma", (1/10, 1)), ("lambdar", (6, 100)), ("lambdaa", (3, 100)), ("Sk", (1/10, 1))],
      saftCheckBounds mieExtreme p.1 (some (-10 ^ 9)) (some (10 ^ 9)) = .ok (some p.2.1, some p.2.2)) ∧
    ∀ p ∈ [("epsilonHB", ((100 : ℚ), (5000 : ℚ))), ("K", (1/10 ^ 5, 10 ^ 4)), ("rc", (1/10, 10)), ("rd", (1/10, 10)), ("epsilon", (10, 1000)),
        ("lambda", (1, 10)), ("sigma", (1/10, 10)), ("Sk", (1/10, 1))],
      saftCheckBounds swExtreme p.1 (some (-10 ^ 9)) (some (10 ^ 9)) = .ok (some p.2.1, some p.2.2) := by
  decide +kernel

example : saftCheckBounds mieExtreme "epsilonHB-H-e1_H2O" (some (1 : ℚ)) (some 9000)
    = .ok (some 100, some 5000) := by decide +kernel
example : checkBounds prExtreme "kij_CO2" (some (-1/2 : ℚ)) (some (1/2))
    = .ok (some (-1/2), some (1/2)) := by decide +kernel
example : checkBounds prExtreme "kappa" (some (0 : ℚ)) (some 1) = .error .valueError := by
  decide +kernel

/-! ## C12 -/

section Update
variable {β V : Type} [DecidableEq β]

/-- No pair of groups is listed in both orders. -/
def Oriented (cross : PyDict β (PyDict β (PyDict String V))) : Prop :=
  ∀ a b, a ≠ b → entry? cross a b = none ∨ entry? cross b a = none

/-- What an equation of state sees for the pair: the value under either order
(eos_toolbox.py:292-302; peng_robinson.py:380-397 agrees when only one order is listed). -/
def pairGet (cross : PyDict β (PyDict β (PyDict String V))) (a b : β) (p : String) : Option V :=
  (crossGet? cross a b p).or (crossGet? cross b a p)

/-- **C12, self parameters.** The written value is read back and every other value is as before. -/
theorem c12_self (lib : PyDict β (PyDict String V)) (b : β) (p : String) (v : V) (b' : β)
    (p' : String) :
    ((setSelf lib b p v).get? b').bind (·.get? p') =
      if b' = b ∧ p' = p then some v else (lib.get? b').bind (·.get? p') := by
  unfold setSelf
  cases h : lib.get? b with
  | some d =>
    by_cases hb : b = b'
    · subst hb
      simp only [PyDict.get?_set_self, Option.bind_some, PyDict.get?_set, h, true_and, eq_comm]
    · rw [PyDict.get?_set, if_neg hb, if_neg (fun e => hb e.1.symm)]
  | none =>
    by_cases hb : b = b'
    · subst hb
      simp only [PyDict.get?_set_self, Option.bind_some, PyDict.get?_set, h, true_and, eq_comm,
        PyDict.get?_empty, Option.bind_none]
    · rw [PyDict.get?_set, if_neg hb, if_neg (fun e => hb e.1.symm)]

theorem c12_entry_set (cross : PyDict β (PyDict β (PyDict String V))) (a b : β)
    (row : PyDict β (PyDict String V)) (d : PyDict String V)
    (hrow : ∀ c, row.get? c = entry? cross a c) (x y : β) :
    entry? (cross.set a (row.set b d)) x y = if x = a ∧ y = b then some d else entry? cross x y := by
  by_cases hx : a = x
  · subst hx
    simp only [entry?, PyDict.get?_set_self, Option.bind_some, true_and, PyDict.get?_set]
    by_cases hy : b = y
    · subst hy; simp
    · rw [if_neg hy, if_neg (fun e => hy e.symm), hrow]; rfl
  · have hx' : ¬ x = a := fun e => hx e.symm
    simp only [entry?, PyDict.get?_set, hx, hx', if_false, false_and]

/-- Where `setCross` writes, and that it writes nothing else. -/
theorem c12_setCross_entry (cross : PyDict β (PyDict β (PyDict String V))) (b0 b1 : β) (p : String)
    (v : V) (x y : β) :
    entry? (setCross cross b0 b1 p v) x y =
      match entry? cross b1 b0 with
      | some d => if x = b1 ∧ y = b0 then some (d.set p v) else entry? cross x y
      | none =>
        if x = b0 ∧ y = b1 then some (((entry? cross b0 b1).getD PyDict.empty).set p v)
        else entry? cross x y := by
  unfold setCross
  cases h : entry? cross b1 b0 with
  | some d =>
    simp only
    rw [c12_entry_set]
    intro c
    cases h1 : cross.get? b1 with
    | none => simp [entry?, h1] at h
    | some row => simp [entry?, h1]
  | none =>
    simp only
    cases h0 : cross.get? b0 with
    | none =>
      simp only
      rw [c12_entry_set]
      · simp [entry?, h0]
      · intro c; simp [entry?, h0]
    | some row =>
      simp only
      have hr : ∀ c, row.get? c = entry? cross b0 c := by intro c; simp [entry?, h0]
      cases h1 : row.get? b1 with
      | some d =>
        simp only
        rw [c12_entry_set _ _ _ _ _ hr, ← hr b1, h1]; rfl
      | none =>
        simp only
        rw [c12_entry_set _ _ _ _ _ hr, ← hr b1, h1]; rfl

/-- **C12.** Updates keep a library in which no pair is listed twice in that form. -/
theorem c12_oriented (cross : PyDict β (PyDict β (PyDict String V))) (h : Oriented cross)
    (b0 b1 : β) (p : String) (v : V) : Oriented (setCross cross b0 b1 p v) := by
  intro a b hab
  rw [c12_setCross_entry, c12_setCross_entry]
  cases h1 : entry? cross b1 b0 with
  | some d =>
    simp only
    rcases h a b hab with h2 | h2
    · left
      rw [if_neg _, h2]
      rintro ⟨rfl, rfl⟩; rw [h1] at h2; cases h2
    · right
      rw [if_neg _, h2]
      rintro ⟨rfl, rfl⟩; rw [h1] at h2; cases h2
  | none =>
    simp only
    by_cases hc : a = b0 ∧ b = b1
    · obtain ⟨rfl, rfl⟩ := hc
      right; rw [if_neg (fun e => hab e.2), h1]
    · rw [if_neg hc]
      by_cases hc2 : b = b0 ∧ a = b1
      · obtain ⟨rfl, rfl⟩ := hc2
        left; exact h1
      · rw [if_neg hc2]; exact h a b hab

/-- **C12, cross parameters.** In a library that lists no pair in both orders, after an update the
pair reads as the new value from either side, and every other value is as before. -/
theorem c12_cross_partial (cross : PyDict β (PyDict β (PyDict String V))) (h : Oriented cross)
    (b0 b1 : β) (p : String) (v : V) (x y : β) (q : String) :
    pairGet (setCross cross b0 b1 p v) x y q =
      if ((x = b0 ∧ y = b1) ∨ (x = b1 ∧ y = b0)) ∧ q = p then some v else pairGet cross x y q := by
  unfold pairGet crossGet?
  rw [c12_setCross_entry, c12_setCross_entry]
  cases h1 : entry? cross b1 b0 with
  | some d =>
    simp only
    by_cases hxy : x = b1 ∧ y = b0
    · obtain ⟨rfl, rfl⟩ := hxy
      by_cases hq : q = p
      · subst hq; simp
      · have hq' : ¬ p = q := fun e => hq e.symm
        simp only [and_self, if_true, Option.bind_some, PyDict.get?_set, hq, hq', if_false, and_false,
          h1]
        by_cases he : x = y
        · subst he; simp [PyDict.get?_set, h1, hq']
        · rw [if_neg (by rintro ⟨rfl, _⟩; exact he rfl)]
    · by_cases hyx : y = b1 ∧ x = b0
      · obtain ⟨rfl, rfl⟩ := hyx
        have hne : x ≠ y := fun e => hxy ⟨e, e.symm⟩
        have hn : entry? cross x y = none := by
          rcases h x y hne with h2 | h2
          · exact h2
          · rw [h1] at h2; cases h2
        rw [if_neg hxy, hn]
        by_cases hq : q = p
        · subst hq; simp
        · have hq' : ¬ p = q := fun e => hq e.symm
          simp [PyDict.get?_set, hq, hq', h1]
      · rw [if_neg hxy, if_neg hyx, if_neg]
        rintro ⟨h3 | h3, _⟩
        · exact hyx h3.symm
        · exact hxy h3
  | none =>
    simp only
    have hd : ∀ r : String, ((entry? cross b0 b1).getD PyDict.empty).get? r =
        (entry? cross b0 b1).bind (·.get? r) := by
      intro r; cases entry? cross b0 b1 <;> simp
    by_cases hxy : x = b0 ∧ y = b1
    · obtain ⟨rfl, rfl⟩ := hxy
      by_cases hq : q = p
      · subst hq; simp
      · have hq' : ¬ p = q := fun e => hq e.symm
        simp only [and_self, if_true, Option.bind_some, PyDict.get?_set, hq, hq', if_false, and_false,
          hd]
        by_cases he : x = y
        · subst he; simp [PyDict.get?_set, hq', hd]
        · rw [if_neg (by rintro ⟨rfl, _⟩; exact he rfl)]
    · by_cases hyx : y = b0 ∧ x = b1
      · obtain ⟨rfl, rfl⟩ := hyx
        have hne : x ≠ y := fun e => hxy ⟨e, e.symm⟩
        rw [if_neg hxy, h1]
        by_cases hq : q = p
        · subst hq; simp
        · have hq' : ¬ p = q := fun e => hq e.symm
          simp [PyDict.get?_set, hq, hq', hd]
      · rw [if_neg hxy, if_neg hyx, if_neg]
        rintro ⟨h3 | h3, _⟩
        · exact hxy h3
        · exact hyx h3.symm

/-- **C12.** Reading back through `guess_parameters` sees the same value as the EOS, in either order
of the two groups, in a library that lists no pair in both orders. -/
theorem c12_lookup_pair (e : Eos β V) (h : Oriented e.cross) (p : String) (a b : β) :
    lookupGuess e p [a, b] = pairGet e.cross a b p := by
  simp only [lookupGuess, pairGet, crossGet?]
  by_cases hab : a = b
  · subst hab
    cases h1 : entry? e.cross a a with
    | none => simp
    | some d => cases h2 : d.get? p <;> simp [h2]
  · rcases h a b hab with h1 | h1
    · rw [h1]; cases h2 : entry? e.cross b a <;> simp
    · rw [h1]; cases h2 : entry? e.cross a b <;> simp

/-- **C12.** `update_parameter` is refused exactly when there are more than two names, an unknown
group, or no known parameter type occurs in the name; else it writes one self or one cross value. -/
theorem c12_update (e : Eos β V) (name : String) (names : List β) (v : V) :
    updateParameter e name names v =
      if names.length ≤ 2 ∧ (∀ b ∈ names, b ∈ e.beads) ∧
          ∃ x ∈ e.types, isSub x.toList name.toList = true then
        match names with
        | [b] => .ok { e with lib := setSelf e.lib b name v }
        | [b0, b1] => .ok { e with cross := setCross e.cross b0 b1 name v }
        | _ => .ok e
      else .error .valueError := by
  unfold updateParameter
  congr 1
  simp only [accepts, gt_iff_lt, Bool.and_eq_true, Bool.not_eq_eq_eq_not, Bool.not_true,
    decide_eq_false_iff_not, not_lt, List.all_eq_true, decide_eq_true_eq, List.any_eq_true, and_assoc]

/-- **C12, association sites.** A SAFT parameter name carries either no site or exactly two sites; then
the update is the general one, and other names are refused. -/
theorem c12_saft_update (e : Eos β V) (name : String) (names : List β) (v : V) :
    saftUpdateParameter e name names v =
      if name.toList.count '-' = 0 ∨ name.toList.count '-' = 2 then updateParameter e name names v
      else .error .valueError := by
  unfold saftUpdateParameter
  by_cases h0 : name.toList.count '-' = 0
  · simp [h0]
  · by_cases h2 : name.toList.count '-' = 2
    · simp [h2]
    · have : 0 < name.toList.count '-' := by omega
      simp [h0, h2, this]

example : (saftUpdateParameter (β := String) (V := Nat)
    { beads := ["A"], types := ["epsilon", "epsilonHB"], lib := ⟨[]⟩, cross := ⟨[]⟩ } "epsilonHB-H-e1" ["A"] 7).map
    (fun e => lookupGuess e "epsilonHB-H-e1" ["A"]) = .ok (some 7) := by decide +kernel
example : (saftUpdateParameter (β := String) (V := Nat)
    { beads := ["A"], types := ["epsilon"], lib := ⟨[]⟩, cross := ⟨[]⟩ } "epsilon" ["A"] 7).map
    (fun e => lookupGuess e "epsilon" ["A"]) = .ok (some 7) := by decide +kernel

/-- **C12, reading back.** An accepted self parameter is the guess read afterwards, and the guess for any
other group or name is the one read before. -/
theorem c12_read_back_self (e e' : Eos β V) (name : String) (b : β) (v : V)
    (h : updateParameter e name [b] v = .ok e') (b' : β) (p : String) :
    lookupGuess e' p [b'] = if b' = b ∧ p = name then some v else lookupGuess e p [b'] := by
  unfold updateParameter at h
  split at h
  · cases h
    simp only [lookupGuess]
    exact c12_self e.lib b name v b' p
  · cases h

/-- **C12, reading back.** The same for a pair, in both orders of the two names, if at most one order of
every pair is stored. -/
theorem c12_read_back_pair_partial (e e' : Eos β V) (ho : Oriented e.cross) (name : String) (b0 b1 : β)
    (v : V) (h : updateParameter e name [b0, b1] v = .ok e') (x y : β) (p : String) :
    lookupGuess e' p [x, y] =
      if ((x = b0 ∧ y = b1) ∨ (x = b1 ∧ y = b0)) ∧ p = name then some v else lookupGuess e p [x, y] := by
  unfold updateParameter at h
  split at h
  · cases h
    rw [c12_lookup_pair _ (c12_oriented e.cross ho b0 b1 name v), c12_lookup_pair e ho]
    exact c12_cross_partial e.cross ho b0 b1 name v x y p
  · cases h

/-- One accepted write of a fitting run. -/
inductive Write (β V : Type) where
  | self (b : β) (p : String) (v : V)
  | cross (b0 b1 : β) (p : String) (v : V)

/-- The write on the object. -/
def applyWrite (e : Eos β V) : Write β V → Eos β V
  | .self b p v => { e with lib := setSelf e.lib b p v }
  | .cross b0 b1 p v => { e with cross := setCross e.cross b0 b1 p v }

/-- The independent specification: two partial maps, the second on unordered pairs. -/
structure Spec (β V : Type) where
  self : β → String → Option V
  pair : β → β → String → Option V

/-- The write on the specification. -/
def specWrite (s : Spec β V) : Write β V → Spec β V
  | .self b p v => { s with self := fun b' p' => if b' = b ∧ p' = p then some v else s.self b' p' }
  | .cross b0 b1 p v =>
    { s with pair := fun x y q =>
        if ((x = b0 ∧ y = b1) ∨ (x = b1 ∧ y = b0)) ∧ q = p then some v else s.pair x y q }

/-- What can be observed of an object. -/
def observe (e : Eos β V) : Spec β V :=
  ⟨fun b p => (e.lib.get? b).bind (·.get? p), fun a b p => pairGet e.cross a b p⟩

/-- **C12, all histories.** Any sequence of writes acts on the object as on the map. -/
theorem c12_history_partial (ws : List (Write β V)) (e : Eos β V) (h : Oriented e.cross) :
    observe (ws.foldl applyWrite e) = ws.foldl specWrite (observe e) ∧
      Oriented (ws.foldl applyWrite e).cross := by
  induction ws generalizing e with
  | nil => exact ⟨rfl, h⟩
  | cons w r ih =>
    simp only [List.foldl_cons]
    have hstep : observe (applyWrite e w) = specWrite (observe e) w := by
      cases w with
      | self b p v =>
        simp only [observe, applyWrite, specWrite, Spec.mk.injEq, and_true]
        funext b' p'; exact c12_self e.lib b p v b' p'
      | cross b0 b1 p v =>
        simp only [observe, applyWrite, specWrite, Spec.mk.injEq, true_and]
        funext x y q; exact c12_cross_partial e.cross h b0 b1 p v x y q
    have hor : Oriented (applyWrite e w).cross := by
      cases w with
      | self b p v => exact h
      | cross b0 b1 p v => exact c12_oriented e.cross h b0 b1 p v
    rw [← hstep]
    exact ih _ hor

end Update

/-- A library that lists the pair in both orders. -/
def twoOrders : Eos String Nat :=
  { beads := ["A", "B"], types := ["kij"], lib := ⟨[]⟩,
    cross := ⟨[("A", ⟨[("B", ⟨[("kij", 1)]⟩)]⟩), ("B", ⟨[("A", ⟨[("kij", 1)]⟩)]⟩)]⟩ }

/-- **C12, violated.** When the library lists a pair in both orders (even with equal values), an
accepted update is lost: the equation of state still reads the old value for the pair in the order of
the group list, and so does a read back from the other group. -/
theorem c12_violated_both_orders :
    (updateParameter twoOrders "kij" ["A", "B"] 7).map
      (fun e => (lookupGuess e "kij" ["A", "B"], lookupGuess e "kij" ["B", "A"],
        pairGet e.cross "A" "B" "kij")) = .ok (some 7, some 1, some 1) := by
  decide +kernel

/-- **C12, violated.** A value stored under the second order is not found when the first order exists
without that parameter, although the equation of state uses it. -/
theorem c12_violated_no_fallthrough :
    let e : Eos String Nat := { beads := ["A", "B"], types := ["kij"], lib := ⟨[]⟩, cross :=
      ⟨[("A", ⟨[("B", ⟨[("kij", 1)]⟩)]⟩), ("B", ⟨[("A", ⟨[("other", 2)]⟩)]⟩)]⟩ }
    lookupGuess e "kij" ["A", "B"] = none ∧ pairGet e.cross "A" "B" "kij" = some 1 := by
  decide +kernel

/-- The hypothesis `Oriented` holds for a library with an entry. -/
example : Oriented (β := String) (V := Nat) ⟨[("A", ⟨[("B", ⟨[("kij", 1)]⟩)]⟩)]⟩ := by
  intro a b hab
  by_cases h1 : "A" = a
  · right
    have : ¬ "A" = b := fun e => hab (h1.symm.trans e)
    simp [entry?, PyDict.get?, PyDict.lookupL, this]
  · left; simp [entry?, PyDict.get?, PyDict.lookupL, h1]

example : pairGet (setCross (β := String) (V := Nat) ⟨[("A", ⟨[("B", ⟨[("kij", 1)]⟩)]⟩)]⟩ "B" "A"
    "kij" 5) "A" "B" "kij" = some 5 := by decide +kernel

/-! ## C55 -/

section Guess
variable {β V : Type} [DecidableEq β] [Field V] [LinearOrder V] [IsStrictOrderedRing V]

omit [IsStrictOrderedRing V] in
/-- **C55, stored values.** If the libraries hold a value it is the guess, whatever the memory. -/
theorem c55_stored (e : Eos β V) (extreme : PyDict String (V × V)) (junk : Option V × Option V)
    (name : String) (names : List β) (v : V) (hn : names.length ≤ 2) (hb : ∀ b ∈ names, b ∈ e.beads)
    (hv : lookupGuess e name names = some v) :
    guessParameters e extreme junk name names = .ok (some v) := by
  unfold guessParameters
  rw [if_neg (by omega), if_pos (by simpa using hb), hv]

omit [IsStrictOrderedRing V] in
/-- **C55, requests refused.** More than two groups or an unknown group is a `ValueError`; no group at all
is an `IndexError`, whatever is in the libraries. -/
theorem c55_refused (e : Eos β V) (extreme : PyDict String (V × V)) (junk : Option V × Option V)
    (name : String) (names : List β) :
    (2 < names.length ∨ (∃ b ∈ names, b ∉ e.beads) →
      guessParameters e extreme junk name names = .error .valueError) ∧
    guessParameters e extreme junk name [] = .error .indexError := by
  constructor
  · intro h
    unfold guessParameters
    by_cases h1 : names.length > 2
    · rw [if_pos h1]
    · rw [if_neg h1, if_neg]
      rcases h with h | ⟨b, hb, hn⟩
      · exact absurd h h1
      · intro hall
        have := List.all_eq_true.mp hall b hb
        exact hn (by simpa using this)
  · simp [guessParameters, lookupGuess]

/-- **C55, partial.** Without a stored value the guess lies in the allowed range, provided the
uninitialised memory does not contain NaN; and it is the midpoint of the range if the memory is
outside of it. -/
theorem c55_guess_partial (e : Eos β V) (extreme : PyDict String (V × V)) (j1 j2 : V)
    (name : String) (names : List β) (hn : names.length ≤ 2) (hne : names ≠ [])
    (hb : ∀ b ∈ names, b ∈ e.beads) (hv : lookupGuess e name names = none) (mn mx : V)
    (hk : extreme.get? (splitHead '_' name) = some (mn, mx)) (hm : mn ≤ mx) :
    ∃ g, guessParameters e extreme (some j1, some j2) name names = .ok (some g) ∧
      mn ≤ g ∧ g ≤ mx ∧
      (¬ (mn ≤ j1 ∧ j1 ≤ mx) → ¬ (mn ≤ j2 ∧ j2 ≤ mx) → g = (mn + mx) / 2) := by
  obtain ⟨lo, hi, hc, h1, h2, h3, h4, _, _, h5, h6, _, _⟩ :=
    c11_within extreme name mn mx j1 j2 hk hm
  refine ⟨(hi - lo) / 2 + lo, ?_, ?_, ?_, ?_⟩
  · unfold guessParameters
    rw [if_neg (by omega), if_pos (by simpa using hb), hv]
    have : names.isEmpty = false := by cases names <;> simp_all
    simp only [this, hc, Bool.false_eq_true, if_false]
  · linarith
  · linarith
  · intro ha hb'
    rw [h5 ha, h6 hb']
    ring

end Guess

/-- A mixture whose interaction coefficient is not in the library. -/
def noKij : Eos String ℚ :=
  { beads := ["A", "B"], types := ["kij"], lib := ⟨[]⟩, cross := ⟨[]⟩ }

/-- **C55, violated.** The guess for a parameter that is not in the library depends on uninitialised
memory: two runs with different memory contents start from different values, and a NaN in memory makes
the guess NaN. -/
theorem c55_violated :
    guessParameters noKij prExtreme (some 0, some 0) "kij" ["A", "B"] = .ok (some 0) ∧
    guessParameters noKij prExtreme (some (1/2), some 0) "kij" ["A", "B"] = .ok (some (1/4)) ∧
    guessParameters noKij prExtreme (none, some 0) "kij" ["A", "B"] = .ok none := by
  decide +kernel

end Verif.Props
