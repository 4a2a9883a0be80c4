import Verif.Model.ReadInput

/-! # Lemmas on keys and routing -/

namespace Verif.ReadInput
open Verif

theorem splitUnder_ne_nil (l : List Char) : splitUnder l ≠ [] := by
  cases l with
  | nil => simp [splitUnder]
  | cons c r => unfold splitUnder; split <;> (try split) <;> simp

theorem joinUnder_splitUnder (l : List Char) : joinUnder (splitUnder l) = l := by
  induction l with
  | nil => rfl
  | cons c r ih =>
    unfold splitUnder
    split
    · rename_i h
      subst h
      cases hs : splitUnder r with
      | nil => exact absurd hs (splitUnder_ne_nil r)
      | cons a t => rw [hs] at ih; simp [joinUnder, ih]
    · cases hs : splitUnder r with
      | nil => exact absurd hs (splitUnder_ne_nil r)
      | cons a t =>
        rw [hs] at ih
        simp only
        cases t with
        | nil => simp only [joinUnder] at ih ⊢; rw [ih]
        | cons b t => simp only [joinUnder] at ih ⊢; rw [← ih]; simp

theorem splitUnder_eos (l : List Char) : splitUnder ('e' :: 'o' :: 's' :: '_' :: l)
    = ['e', 'o', 's'] :: splitUnder l := by
  simp [splitUnder]

theorem newKey_eos (s : String) : newKey ("eos_" ++ s) = s := by
  unfold newKey
  have : ("eos_" ++ s).toList = 'e' :: 'o' :: 's' :: '_' :: s.toList := by
    rw [String.toList_append]; rfl
  rw [this, splitUnder_eos, List.tail_cons, joinUnder_splitUnder, String.ofList_toList]

theorem isEosKey_iff (k : String) : isEosKey k = true ↔ ∃ s, k = "eos_" ++ s := by
  unfold isEosKey
  rw [List.isPrefixOf_iff_prefix]
  constructor
  · rintro ⟨t, ht⟩
    refine ⟨String.ofList t, ?_⟩
    apply String.toList_inj.mp
    rw [String.toList_append, ← ht]; simp
  · rintro ⟨s, rfl⟩
    exact ⟨s.toList, by rw [String.toList_append]⟩

theorem isEosKey_eos (s : String) : isEosKey ("eos_" ++ s) = true := (isEosKey_iff _).mpr ⟨s, rfl⟩

theorem eos_append_inj {s t : String} (h : "eos_" ++ s = "eos_" ++ t) : s = t := by
  have := congrArg newKey h
  rwa [newKey_eos, newKey_eos] at this

variable {ν : Type}

/-- Keys that are handed to the calculation. -/
def isThermoKey (k : String) : Prop := isEosKey k = false ∧ k ≠ "eos" ∧ k ∉ eosDictKeys

instance (k : String) : Decidable (isThermoKey k) := by unfold isThermoKey; infer_instance

theorem lookupL_none_of_notin (l : List (String × ν)) (k : String) (h : k ∉ l.map Prod.fst) :
    PyDict.lookupL l k = none := by
  induction l with
  | nil => rfl
  | cons p r ih =>
    simp only [List.map_cons, List.mem_cons, not_or] at h
    simp [PyDict.lookupL, ih h.2, Ne.symm h.1]

theorem route_thermo (l : List (String × ν)) (hn : (l.map Prod.fst).Nodup)
    (st : PyDict String ν × PyDict String ν) (k : String) :
    (l.foldl route st).2.get? k =
      if isThermoKey k then (PyDict.lookupL l k).or (st.2.get? k) else st.2.get? k := by
  induction l generalizing st with
  | nil => simp [PyDict.lookupL]
  | cons p r ih =>
    obtain ⟨k', v⟩ := p
    simp only [List.map_cons, List.nodup_cons] at hn
    rw [List.foldl_cons, ih hn.2]
    by_cases hk : isThermoKey k
    · simp only [hk, if_true, PyDict.lookupL]
      by_cases hkk : k' = k
      · subst hkk
        rw [lookupL_none_of_notin r _ hn.1]
        obtain ⟨h1, h2, h3⟩ := hk
        simp [route, h1, h2, h3]
      · simp only [hkk, if_false]
        congr 1
        unfold route
        split
        · rfl
        · split
          · rfl
          · split
            · rfl
            · exact PyDict.get?_set_ne _ _ hkk
    · simp only [hk, if_false]
      unfold route
      split
      · rfl
      · split
        · rfl
        · split
          · rfl
          · rename_i h1 h2 h3
            refine PyDict.get?_set_ne _ _ ?_
            rintro rfl
            exact hk ⟨by simpa using h1, h2, h3⟩

theorem route_eos (l : List (String × ν)) (hn : (l.map Prod.fst).Nodup)
    (st : PyDict String ν × PyDict String ν) (k : String) (hk : k ≠ "eos") :
    (l.foldl route st).1.get? k = (PyDict.lookupL l ("eos_" ++ k)).or (st.1.get? k) := by
  induction l generalizing st with
  | nil => simp [PyDict.lookupL]
  | cons p r ih =>
    obtain ⟨k', v⟩ := p
    simp only [List.map_cons, List.nodup_cons] at hn
    rw [List.foldl_cons, ih hn.2]
    simp only [PyDict.lookupL]
    by_cases hkk : k' = "eos_" ++ k
    · subst hkk
      rw [lookupL_none_of_notin r _ hn.1]
      simp [route, isEosKey_eos, newKey_eos]
    · simp only [hkk, if_false]
      congr 1
      unfold route
      split
      · rename_i h1
        obtain ⟨s, hs⟩ := (isEosKey_iff _).mp h1
        simp only at hs
        subst hs
        refine PyDict.get?_set_ne _ _ ?_
        rw [newKey_eos]
        rintro rfl
        exact hkk rfl
      · split
        · exact PyDict.get?_set_ne _ _ (Ne.symm hk)
        · split <;> rfl

theorem route_eos_name (l : List (String × ν)) (hn : (l.map Prod.fst).Nodup)
    (hno : "eos_eos" ∉ l.map Prod.fst) (st : PyDict String ν × PyDict String ν) :
    (l.foldl route st).1.get? "eos" = (PyDict.lookupL l "eos").or (st.1.get? "eos") := by
  induction l generalizing st with
  | nil => simp [PyDict.lookupL]
  | cons p r ih =>
    obtain ⟨k', v⟩ := p
    simp only [List.map_cons, List.nodup_cons, List.mem_cons, not_or] at hn hno
    rw [List.foldl_cons, ih hn.2 hno.2]
    simp only [PyDict.lookupL]
    have hne : isEosKey "eos" = false := by decide
    by_cases hkk : k' = "eos"
    · subst hkk
      rw [lookupL_none_of_notin r _ hn.1]
      simp [route, hne]
    · simp only [hkk, if_false]
      congr 1
      unfold route
      split
      · rename_i h1
        obtain ⟨s, hs⟩ := (isEosKey_iff _).mp h1
        simp only at hs
        subst hs
        refine PyDict.get?_set_ne _ _ ?_
        rw [newKey_eos]
        rintro rfl
        exact hno.1 rfl
      · split <;> rfl

theorem moveAccel_thermo (ks : List String) (st : PyDict String ν × PyDict String ν) (k : String) :
    (ks.foldl moveAccel st).2.get? k = if k ∈ ks then none else st.2.get? k := by
  induction ks generalizing st with
  | nil => simp
  | cons a ks ih =>
    rw [List.foldl_cons, ih]
    by_cases hk : k ∈ ks
    · simp [hk]
    · simp only [hk, if_false, List.mem_cons, or_false]
      unfold moveAccel
      split
      · rename_i v hv
        rw [PyDict.get?_erase]
        by_cases h : a = k
        · simp [h]
        · simp [h, Ne.symm h]
      · rename_i hv
        by_cases h : k = a
        · subst h; simp [hv]
        · simp [h]

theorem moveAccel_eos (ks : List String) (hn : ks.Nodup) (st : PyDict String ν × PyDict String ν)
    (k : String) : (ks.foldl moveAccel st).1.get? k =
      if k ∈ ks then (st.2.get? k).or (st.1.get? k) else st.1.get? k := by
  induction ks generalizing st with
  | nil => simp
  | cons a ks ih =>
    rw [List.nodup_cons] at hn
    rw [List.foldl_cons, ih hn.2]
    unfold moveAccel
    by_cases hka : k = a
    · subst hka
      simp only [hn.1, if_false, List.mem_cons, true_or, if_true]
      cases hv : st.2.get? k <;> simp
    · simp only [List.mem_cons, hka, false_or]
      cases hv : st.2.get? a with
      | none => rfl
      | some v =>
        simp only [PyDict.get?_erase, PyDict.get?_set, Ne.symm hka, if_false]

theorem lookupL_map (l : List (String × ν)) (g : String → ν → ν) (k : String) :
    PyDict.lookupL (l.map fun p => (p.1, g p.1 p.2)) k = (PyDict.lookupL l k).map (g k) := by
  induction l with
  | nil => rfl
  | cons p r ih =>
    simp only [List.map_cons, PyDict.lookupL]
    split
    · rename_i h; simp [h]
    · exact ih

theorem appendPath_get (x : Ext ν) (d : PyDict String ν) (k : String) :
    (appendPath x d).get? k = (d.get? k).map
      (fun v => x.fixFile (if k = "EOSgroup" ∨ k = "EOScross" then x.join v else v)) := by
  exact lookupL_map d.entries
    (fun k v => x.fixFile (if k = "EOSgroup" ∨ k = "EOScross" then x.join v else v)) k

theorem appendPath_keys (x : Ext ν) (d : PyDict String ν) :
    (appendPath x d).entries.map Prod.fst = d.entries.map Prod.fst := by
  simp [appendPath, Function.comp_def]

end Verif.ReadInput
