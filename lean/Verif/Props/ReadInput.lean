import Verif.Proofs.ReadInput

/-! # C07: routing of an input file, and C52: fitting inputs -/

namespace Verif.Props
open Verif Verif.ReadInput

variable {ν : Type}

/-- Specification: the keys of an input file that are settings of the calculation. -/
def CalcKey (k : String) : Prop :=
  (¬ ∃ s, k = "eos_" ++ s) ∧
    k ∉ ["eos", "bead_configuration", "EOSgroup", "EOScross", "output_file"]

theorem c07_calcKey_iff (k : String) : isThermoKey k ↔ CalcKey k := by
  unfold isThermoKey CalcKey
  rw [← isEosKey_iff]
  simp [eosDictKeys]

/-- **C07 (a).** The calculation receives exactly the settings of the file that are neither about the
equation of state nor the output file nor acceleration switches; they override keyword arguments,
and all other keyword arguments pass through. -/
theorem c07_calculation (x : Ext ν) (input kwargs : PyDict String ν) (hw : input.WF)
    (e t : PyDict String ν) (o : Option ν) (h : extract x input kwargs = .ok (e, t, o))
    (k : String) :
    (k ∈ ["numba", "cython", "python"] → t.get? k = none) ∧
    (k ∉ ["numba", "cython", "python"] → CalcKey k →
      t.get? k = ((input.get? k).map x.fixFile).or (kwargs.get? k)) ∧
    (k ∉ ["numba", "cython", "python"] → ¬ CalcKey k → t.get? k = kwargs.get? k) := by
  unfold extract at h
  simp only at h
  split at h
  · cases h
  · rename_i e1 he
    simp only [Except.ok.injEq, Prod.mk.injEq] at h
    obtain ⟨h1, h2, h3⟩ := h
    have hn : ((appendPath x input).entries.map Prod.fst).Nodup := by
      rw [appendPath_keys]; exact hw
    have hget : t.get? k = if k ∈ accelKeys then none else
        if isThermoKey k then ((appendPath x input).get? k).or (kwargs.get? k)
        else kwargs.get? k := by
      rw [← h2, moveAccel_thermo, route_thermo _ hn]; rfl
    refine ⟨fun hk => ?_, fun hk hc => ?_, fun hk hc => ?_⟩
    · rw [hget, if_pos (show k ∈ accelKeys from hk)]
    · rw [hget, if_neg (show k ∉ accelKeys from hk), if_pos ((c07_calcKey_iff k).mpr hc), appendPath_get]
      obtain ⟨_, h6⟩ := hc
      simp only [List.mem_cons, List.not_mem_nil, or_false, not_or] at h6
      simp [h6.2.2.1, h6.2.2.2.1]
    · rw [hget, if_neg (show k ∉ accelKeys from hk), if_neg (fun hh => hc ((c07_calcKey_iff k).mp hh))]

/-- **C07 (b).** The equation of state receives every setting written with the prefix `eos_`, with the
prefix stripped exactly once (whatever the rest of the name, underscores included); where no such
setting is given it keeps the value built from the molecules and the library files (`base`). An
acceleration switch given without prefix (or as keyword argument) takes precedence. -/
theorem c07_equation_of_state (x : Ext ν) (input kwargs : PyDict String ν) (hw : input.WF)
    (e t : PyDict String ν) (o : Option ν) (h : extract x input kwargs = .ok (e, t, o)) :
    ∃ base, eosBase x (appendPath x input) = .ok base ∧ ∀ k, k ≠ "eos" →
      (k ∉ ["numba", "cython", "python"] →
        e.get? k = ((input.get? ("eos_" ++ k)).map x.fixFile).or (base.get? k)) ∧
      (k ∈ ["numba", "cython", "python"] →
        e.get? k = (((input.get? k).map x.fixFile).or (kwargs.get? k)).or
          (((input.get? ("eos_" ++ k)).map x.fixFile).or (base.get? k))) := by
  unfold extract at h
  simp only at h
  split at h
  · cases h
  · rename_i base he
    simp only [Except.ok.injEq, Prod.mk.injEq] at h
    obtain ⟨h1, h2, h3⟩ := h
    refine ⟨base, he, fun k hk => ?_⟩
    have hn : ((appendPath x input).entries.map Prod.fst).Nodup := by
      rw [appendPath_keys]; exact hw
    have hpre : (appendPath x input).get? ("eos_" ++ k) =
        (input.get? ("eos_" ++ k)).map x.fixFile := by
      rw [appendPath_get]
      have h4 : "eos_" ++ k ≠ "EOSgroup" := by
        intro hh; have := isEosKey_eos k; rw [hh] at this; revert this; decide
      have h5 : "eos_" ++ k ≠ "EOScross" := by
        intro hh; have := isEosKey_eos k; rw [hh] at this; revert this; decide
      simp [h4, h5]
    have hr : ((appendPath x input).entries.foldl route (base, kwargs)).1.get? k =
        ((input.get? ("eos_" ++ k)).map x.fixFile).or (base.get? k) := by
      rw [route_eos _ hn _ _ hk, ← hpre]; rfl
    have hnd : accelKeys.Nodup := by decide
    constructor
    · intro hk'
      rw [← h1, moveAccel_eos _ hnd, if_neg (show k ∉ accelKeys from hk'), hr]
    · intro hk'
      have hth : isThermoKey k := by
        simp only [List.mem_cons, List.not_mem_nil, or_false] at hk'
        rcases hk' with rfl | rfl | rfl <;> decide
      have hne : k ≠ "EOSgroup" ∧ k ≠ "EOScross" := by
        simp only [List.mem_cons, List.not_mem_nil, or_false] at hk'
        rcases hk' with rfl | rfl | rfl <;> decide
      rw [← h1, moveAccel_eos _ hnd, if_pos (show k ∈ accelKeys from hk'), hr, route_thermo _ hn, if_pos hth]
      congr 1
      have : PyDict.lookupL (appendPath x input).entries k = (input.get? k).map x.fixFile := by
        have := appendPath_get x input k
        simp only [hne.1, hne.2, or_self, if_false] at this
        exact this
      rw [this]

/-- **C07 (c).** The name of the equation of state reaches it (when it is not also given with a
doubled prefix as `eos_eos`), and the output file is returned. -/
theorem c07_eos_and_output (x : Ext ν) (input kwargs : PyDict String ν) (hw : input.WF)
    (e t : PyDict String ν) (o : Option ν) (h : extract x input kwargs = .ok (e, t, o)) :
    o = (input.get? "output_file").map x.fixFile ∧
    (input.get? "eos_eos" = none → ∀ v, input.get? "eos" = some v →
      e.get? "eos" = some (x.fixFile v)) := by
  unfold extract at h
  simp only at h
  split at h
  · cases h
  · rename_i base he
    simp only [Except.ok.injEq, Prod.mk.injEq] at h
    obtain ⟨h1, h2, h3⟩ := h
    refine ⟨?_, ?_⟩
    · rw [← h3, appendPath_get]; simp
    · intro hno v hv
      have hn : ((appendPath x input).entries.map Prod.fst).Nodup := by
        rw [appendPath_keys]; exact hw
      have hno' : "eos_eos" ∉ (appendPath x input).entries.map Prod.fst := by
        rw [appendPath_keys]
        intro hm
        obtain ⟨w, hw'⟩ := (PyDict.mem_keys_iff input _).mp hm
        rw [hno] at hw'; cases hw'
      have hnd : accelKeys.Nodup := by decide
      rw [← h1, moveAccel_eos _ hnd, if_neg (by decide), route_eos_name _ hn hno']
      have : PyDict.lookupL (appendPath x input).entries "eos" = (input.get? "eos").map x.fixFile := by
        exact appendPath_get x input "eos"
      rw [this, hv]; rfl

/-- **C07 (e).** The name of the equation of state, whichever way it is written: where `eos` and `eos_eos` are both in
the file, the later one is used; where neither is, the value from the molecules and the library files. -/
theorem c07_eos_last (x : Ext ν) (input kwargs : PyDict String ν) (e t : PyDict String ν) (o : Option ν)
    (h : extract x input kwargs = .ok (e, t, o)) :
    (∀ pre k v post, input.entries = pre ++ (k, v) :: post → k = "eos" ∨ k = "eos_eos" →
      (∀ p ∈ post, p.1 ≠ "eos" ∧ p.1 ≠ "eos_eos") → e.get? "eos" = some (x.fixFile v)) ∧
    ((∀ p ∈ input.entries, p.1 ≠ "eos" ∧ p.1 ≠ "eos_eos") →
      ∃ base, eosBase x (appendPath x input) = .ok base ∧ e.get? "eos" = base.get? "eos") := by
  have key : ∀ k : String, k ≠ "eos" → k ≠ "eos_eos" → isEosKey k = true → newKey k ≠ "eos" := by
    intro k _ h2 h3 h4
    obtain ⟨s, rfl⟩ := (isEosKey_iff k).1 h3
    rw [newKey_eos] at h4
    exact h2 (by rw [h4]; rfl)
  have skip : ∀ (l : List (String × ν)) (st : PyDict String ν × PyDict String ν),
      (∀ p ∈ l, p.1 ≠ "eos" ∧ p.1 ≠ "eos_eos") → (l.foldl route st).1.get? "eos" = st.1.get? "eos" := by
    intro l
    induction l with
    | nil => intro st _; rfl
    | cons p l ih =>
      intro st hl
      rw [List.foldl_cons, ih _ fun q hq => hl q (List.mem_cons_of_mem _ hq)]
      obtain ⟨h1, h2⟩ := hl p List.mem_cons_self
      unfold route
      split
      · rename_i h3
        exact PyDict.get?_set_ne _ _ (fun hh => key p.1 h1 h2 h3 hh)
      · split <;> rfl
  unfold extract at h
  simp only at h
  split at h
  · cases h
  · rename_i base he
    simp only [Except.ok.injEq, Prod.mk.injEq] at h
    obtain ⟨h1, h2, h3⟩ := h
    have hnd : accelKeys.Nodup := by decide
    constructor
    · intro pre k v post hin hk hpost
      rw [← h1, moveAccel_eos _ hnd, if_neg (by decide)]
      unfold appendPath
      rw [hin, List.map_append, List.map_cons, List.foldl_append, List.foldl_cons, skip]
      · have hE : ¬ (k = "EOSgroup" ∨ k = "EOScross") := by rcases hk with rfl | rfl <;> decide
        simp only [if_neg hE]
        rcases hk with rfl | rfl
        · rw [route, if_neg (show ¬ isEosKey "eos" = true by decide), if_pos rfl]; exact PyDict.get?_set_self _ _ _
        · rw [route, if_pos (show isEosKey "eos_eos" = true by decide)]
          have : newKey "eos_eos" = "eos" := by decide
          rw [this]; exact PyDict.get?_set_self _ _ _
      · intro p hp
        obtain ⟨q, hq, rfl⟩ := List.mem_map.1 hp
        exact hpost q hq
    · intro hno
      refine ⟨base, he, ?_⟩
      rw [← h1, moveAccel_eos _ hnd, if_neg (by decide), skip]
      intro p hp
      obtain ⟨q, hq, rfl⟩ := List.mem_map.1 hp
      exact hno q hq

/-- **C07 (d).** What is built before the routing: the molecule table when molecules are given, the
group library, and the cross library when given, all found under the given path. -/
theorem c07_base (x : Ext ν) (input base : PyDict String ν)
    (h : eosBase x (appendPath x input) = .ok base) :
    (∃ g lib, input.get? "EOSgroup" = some g ∧ x.load (x.fixFile (x.join g)) = .ok lib ∧
      base.get? "bead_library" = some lib) ∧
    (∀ v, input.get? "bead_configuration" = some v → ∃ b m, x.beadData (x.fixFile v) = .ok (b, m) ∧
      base.get? "beads" = some b ∧ base.get? "molecular_composition" = some m) ∧
    (∀ c, input.get? "EOScross" = some c → ∃ cl, x.load (x.fixFile (x.join c)) = .ok cl ∧
      base.get? "cross_library" = some cl) := by
  unfold eosBase at h
  simp only [appendPath_get] at h
  split at h
  · cases h
  · rename_i e0 h0
    split at h
    · cases h
    · rename_i g hg
      split at h
      · cases h
      · rename_i lib hlib
        cases hg' : input.get? "EOSgroup" with
        | none => rw [hg'] at hg; cases hg
        | some g0 =>
        rw [hg'] at hg
        simp at hg
        subst hg
        have hbeads : ∀ v, input.get? "bead_configuration" = some v →
            ∃ b m, x.beadData (x.fixFile v) = .ok (b, m) ∧
            e0.get? "beads" = some b ∧ e0.get? "molecular_composition" = some m := by
          intro v hv
          rw [hv] at h0
          simp at h0
          split at h0
          · cases h0
          · rename_i b m hbm
            cases h0
            exact ⟨b, m, hbm, by simp [PyDict.get?_set], by simp⟩
        cases hc : input.get? "EOScross" with
        | none =>
          rw [hc] at h
          simp at h
          subst h
          refine ⟨⟨g0, lib, rfl, hlib, by simp⟩, ?_, by simp⟩
          intro v hv
          obtain ⟨b, m, h1, h2, h3⟩ := hbeads v hv
          exact ⟨b, m, h1, by simp [PyDict.get?_set, h2], by simp [PyDict.get?_set, h3]⟩
        | some c =>
          rw [hc] at h
          simp at h
          split at h
          · cases h
          · rename_i cl hcl
            cases h
            refine ⟨⟨g0, lib, rfl, hlib, by simp [PyDict.get?_set]⟩, ?_, ?_⟩
            · intro v hv
              obtain ⟨b, m, h1, h2, h3⟩ := hbeads v hv
              exact ⟨b, m, h1, by simp [PyDict.get?_set, h2], by simp [PyDict.get?_set, h3]⟩
            · intro c' hc'
              cases hc'
              exact ⟨cl, hcl, by simp⟩

/-- Neither molecules nor a fitting request: rejected with `ValueError`. -/
theorem c07_no_molecules (x : Ext ν) (input kwargs : PyDict String ν)
    (h1 : input.get? "bead_configuration" = none)
    (h2 : input.get? "optimization_parameters" = none) :
    extract x input kwargs = .error .valueError := by
  simp [extract, eosBase, appendPath_get, h1, h2, PyDict.contains]

/-- A test environment: values are numbers, files load as their number plus 100. -/
def demoExt : Ext Nat where
  join v := v + 1000
  fixFile v := v
  beadData v := .ok (v + 1, v + 2)
  load v := .ok (v + 100)

example : extract demoExt
    ⟨[("EOSgroup", 1), ("bead_configuration", 5), ("eos_a_b", 7), ("numba", 8), ("Tlist", 9)]⟩
    ⟨[("MultiprocessingObject", 3)]⟩ =
    .ok (⟨[("beads", 6), ("molecular_composition", 7), ("bead_library", 1101), ("a_b", 7),
      ("numba", 8)]⟩, ⟨[("MultiprocessingObject", 3), ("Tlist", 9)]⟩, none) := by decide

/-! ## C52 -/

theorem c52_fill_get (l : List (String × ν)) (acc : PyDict String ν) (k : String) :
    (l.foldl (fun acc p => if acc.contains p.1 then acc else acc.set p.1 p.2) acc).get? k =
      (acc.get? k).or (PyDict.lookupL l k) := by
  induction l generalizing acc with
  | nil => simp [PyDict.lookupL]
  | cons p r ih =>
    rw [List.foldl_cons, ih]
    simp only [PyDict.lookupL]
    by_cases hk : p.1 = k
    · subst hk
      cases hv : acc.get? p.1 with
      | none => simp [PyDict.contains, hv]
      | some v => simp [PyDict.contains, hv]
    · split
      · rfl
      · rw [PyDict.get?_set_ne _ _ hk]

/-- **C52 (a).** A data set keeps its own EOS settings, and every setting it does not give is taken
from the common ones; nothing else is added. -/
theorem c52_own_settings_kept (common : PyDict String ν) (e : ExpData ν) :
    ∃ d, (fillEos common e).eosDict = some d ∧ (fillEos common e).rest = e.rest ∧
      ∀ k, d.get? k = ((e.eosDict.getD PyDict.empty).get? k).or (common.get? k) := by
  refine ⟨_, rfl, rfl, fun k => ?_⟩
  exact c52_fill_get _ _ _

theorem c52_fold (asData : ν → Option (Except PyErr (ExpData ν))) (l : List (String × ν))
    (hn : (l.map Prod.fst).Nodup) (ex0 : PyDict String (ExpData ν)) (r0 : PyDict String ν)
    (ex : PyDict String (ExpData ν)) (rest : PyDict String ν)
    (h : l.foldl (fun (st : Except PyErr (PyDict String (ExpData ν) × PyDict String ν))
      (p : String × ν) =>
        match st with
        | .error e => .error e
        | .ok (ex, rest) =>
          match asData p.2 with
          | some (.error e) => .error e
          | some (.ok d) => .ok (ex.set p.1 d, rest)
          | none => .ok (ex, rest.set p.1 p.2)) (.ok (ex0, r0)) = .ok (ex, rest)) (k : String) :
    (∀ v, PyDict.lookupL l k = some v →
      (∃ d, asData v = some (.ok d) ∧ ex.get? k = some d ∧ rest.get? k = r0.get? k) ∨
      (asData v = none ∧ rest.get? k = some v ∧ ex.get? k = ex0.get? k)) ∧
    (PyDict.lookupL l k = none → ex.get? k = ex0.get? k ∧ rest.get? k = r0.get? k) := by
  have herr : ∀ (l : List (String × ν)) e, l.foldl (fun (st : Except PyErr (PyDict String (ExpData ν) × PyDict String ν))
      (p : String × ν) =>
        match st with
        | .error e => .error e
        | .ok (ex, rest) =>
          match asData p.2 with
          | some (.error e) => .error e
          | some (.ok d) => .ok (ex.set p.1 d, rest)
          | none => .ok (ex, rest.set p.1 p.2)) (.error e) = .error e := by
    intro l e
    induction l with
    | nil => rfl
    | cons p r ih => simpa using ih
  induction l generalizing ex0 r0 with
  | nil => cases h; simp [PyDict.lookupL]
  | cons p r ih =>
    obtain ⟨k', v'⟩ := p
    simp only [List.map_cons, List.nodup_cons] at hn
    rw [List.foldl_cons] at h
    simp only [PyDict.lookupL]
    cases ha : asData v' with
    | none =>
      simp only [ha] at h
      obtain ⟨i1, i2⟩ := ih hn.2 _ _ h
      by_cases hk : k' = k
      · subst hk
        have hl := lookupL_none_of_notin r _ hn.1
        obtain ⟨j1, j2⟩ := i2 hl
        simp [ha, j1, j2]
      · simp only [hk, if_false]
        simpa [PyDict.get?_set, hk] using And.intro i1 i2
    | some o =>
      cases o with
      | error e => simp only [ha] at h; rw [herr] at h; cases h
      | ok d =>
        simp only [ha] at h
        obtain ⟨i1, i2⟩ := ih hn.2 _ _ h
        by_cases hk : k' = k
        · subst hk
          have hl := lookupL_none_of_notin r _ hn.1
          obtain ⟨j1, j2⟩ := i2 hl
          simp [ha, j1, j2]
        · simp only [hk, if_false]
          simpa [PyDict.get?_set, hk] using And.intro i1 i2

/-- **C52 (b).** Every entry of a fitting input is either a data set, converted and stored under its
name, or passed on unchanged; nothing is invented. -/
theorem c52_split (asData : ν → Option (Except PyErr (ExpData ν))) (fitKeys : ν → Bool)
    (thermo : PyDict String ν) (hw : thermo.WF) (ex : PyDict String (ExpData ν))
    (rest : PyDict String ν) (h : paramFitInputs asData fitKeys thermo = .ok (ex, rest))
    (k : String) :
    (∀ v, thermo.get? k = some v →
      (∃ d, asData v = some (.ok d) ∧ ex.get? k = some d ∧ rest.get? k = none) ∨
      (asData v = none ∧ rest.get? k = some v ∧ ex.get? k = none)) ∧
    (thermo.get? k = none → ex.get? k = none ∧ rest.get? k = none) := by
  unfold paramFitInputs at h
  simp only at h
  split at h
  · cases h
  · rename_i ex' rest' hf
    split at h
    · cases h
    · split at h
      · simp only [Except.ok.injEq, Prod.mk.injEq] at h
        obtain ⟨rfl, rfl⟩ := h
        exact c52_fold asData thermo.entries hw _ _ _ _ hf k
      · cases h

/-- **C52 (c), violated.** A fitting input without any data set is accepted, although the error
message says a data set must be provided. -/
theorem c52_violated_no_data :
    paramFitInputs (fun _ : Nat => none) (fun _ => true) ⟨[("optimization_parameters", 1)]⟩ =
      .ok (PyDict.empty, ⟨[("optimization_parameters", 1)]⟩) := rfl

end Verif.Props
