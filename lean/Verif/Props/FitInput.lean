import Verif.Model.FitInput
import Mathlib.Tactic.IntervalCases

/-! # C43: bounds of fitted parameters, C75: arguments of `fit`, C76: names of parameters -/

namespace Verif.Props
open Verif Verif.FitInput

variable {ν : Type}

/-! ## C43 -/

/-- The text occurs in the string. -/
def Occurs (pat s : Str) : Prop := ∃ a b, s = a ++ pat ++ b

theorem c43_hasSub_iff (pat s : Str) : hasSub pat s = true ↔ Occurs pat s := by
  induction s with
  | nil =>
    simp only [hasSub, Occurs, List.isPrefixOf_iff_prefix]
    constructor
    · rintro ⟨t, ht⟩; exact ⟨[], t, by simpa using ht.symm⟩
    · rintro ⟨a, b, h⟩
      have h1 : a = [] ∧ pat = [] ∧ b = [] := by
        have := h.symm
        simp only [List.append_eq_nil_iff] at this
        exact ⟨this.1.1, this.1.2, this.2⟩
      simp [h1.2.1]
  | cons c r ih =>
    simp only [hasSub, Bool.or_eq_true, List.isPrefixOf_iff_prefix, ih, Occurs]
    constructor
    · rintro (⟨t, ht⟩ | ⟨a, b, h⟩)
      · exact ⟨[], t, by simpa using ht.symm⟩
      · exact ⟨c :: a, b, by simp [h]⟩
    · rintro ⟨a, b, h⟩
      cases a with
      | nil => exact Or.inl ⟨b, by simpa using h.symm⟩
      | cons d a =>
        simp only [List.cons_append, List.cons.injEq] at h
        exact Or.inr ⟨a, b, h.2⟩

theorem c43_removeFrom_skip (pat : Str) (k : Nat) (s : Str) :
    removeFrom pat k s = removeFrom pat 0 (s.drop k) := by
  induction s generalizing k with
  | nil => cases k <;> simp [removeFrom]
  | cons c r ih =>
    cases k with
    | zero => rfl
    | succ k => simp only [removeFrom, List.drop_succ_cons]; exact ih k

/-- **C43 (the name of a key).** Stripping removes a tag wherever it stands in the key, and goes on behind it. -/
theorem c43_tag_inside (x y : Str) (hx : hasSub boundsTag x = false) :
    removeSub boundsTag (x ++ boundsTag ++ y) = x ++ removeSub boundsTag y := by
  induction x with
  | nil => rfl
  | cons c r ih =>
    simp only [hasSub, Bool.or_eq_false_iff] at hx
    have hp : boundsTag.isPrefixOf (c :: r ++ (boundsTag ++ y)) = false := by
      rw [← Bool.not_eq_true, List.isPrefixOf_iff_prefix]
      intro h
      by_cases hl : boundsTag.length ≤ (c :: r).length
      · have := List.prefix_of_prefix_length_le h (List.prefix_append _ _) hl
        rw [← List.isPrefixOf_iff_prefix] at this
        rw [this] at hx
        exact absurd hx.1 (by simp)
      · have h1 : (c :: r) <+: boundsTag :=
          List.prefix_of_prefix_length_le (List.prefix_append _ _) h (by omega)
        obtain ⟨t, ht⟩ := h1
        have h4 : (c :: r).length + t.length = 7 := by
          rw [← List.length_append, ht]; rfl
        have h2 : t <+: boundsTag := by
          have h3 : c :: r ++ t <+: c :: r ++ (boundsTag ++ y) := by rw [ht]; exact h
          refine List.prefix_of_prefix_length_le ((List.prefix_append_right_inj _).mp h3) (List.prefix_append _ _) ?_
          have : boundsTag.length = 7 := rfl
          omega
        have h5 : t = boundsTag.drop (c :: r).length := by
          rw [← ht]; simp
        have h6 : 1 ≤ (c :: r).length := by simp
        have h7 : (c :: r).length < 7 := by
          have : boundsTag.length = 7 := rfl
          omega
        rw [h5] at h2
        generalize (c :: r).length = m at h2 h6 h7
        revert h2
        interval_cases m <;> decide
    have : removeSub boundsTag (c :: r ++ (boundsTag ++ y)) = c :: removeSub boundsTag (r ++ (boundsTag ++ y)) := by
      simp only [List.cons_append, removeSub, removeFrom]
      rw [if_neg]
      rw [Bool.not_eq_true]; exact hp
    rw [List.append_assoc] at ih ⊢
    rw [this, ih hx.2]
    rfl

example : removeSub boundsTag "eps_bounds_r_bounds".toList = "eps_r".toList := by decide +kernel

/-- Stripping the tag from a name followed by it gives back the name. -/
theorem c43_removeSub_tag (x : Str) (hx : hasSub boundsTag x = false) :
    removeSub boundsTag (x ++ boundsTag) = x := by
  have := c43_tag_inside x [] hx
  rwa [List.append_nil, show removeSub boundsTag [] = [] from rfl, List.append_nil] at this

theorem c43_hasSub_tag (x : Str) : hasSub boundsWord (x ++ boundsTag) = true := by
  rw [c43_hasSub_iff]
  exact ⟨x ++ ['_'], [], by simp [boundsTag, boundsWord]⟩

/-- Every key that mentions bounds is a name, free of the tag, followed by the tag `_bounds`, as the
documentation of the input prescribes. -/
def TidyKeys (l : List (Str × ν)) : Prop :=
  ∀ p ∈ l, hasSub boundsWord p.1 = true → ∃ x, p.1 = x ++ boundsTag ∧ hasSub boundsTag x = false

theorem c43_loop_bounds (names : List Str) (hn : names.Nodup) (i : Nat) (hi : i < names.length)
    (hc : hasSub boundsTag names[i] = false) (l : List (Str × ν)) (ht : TidyKeys l)
    (hk : (l.map Prod.fst).Nodup) (st : List ν × PyDict Str ν) (hst : st.1.length = names.length) :
    (l.foldl (consolidateStep names) st).1[i]? =
      (PyDict.lookupL l (names[i] ++ boundsTag)).or st.1[i]? := by
  induction l generalizing st with
  | nil => simp [PyDict.lookupL]
  | cons p r ih =>
    have htr : TidyKeys r := fun q hq => ht q (List.mem_cons_of_mem _ hq)
    simp only [List.map_cons, List.nodup_cons] at hk
    simp only [List.foldl_cons]
    have hlen : (consolidateStep names st p).1.length = names.length := by
      unfold consolidateStep; split
      · split
        · simpa using hst
        · exact hst
      · exact hst
    rw [ih htr hk.2 _ hlen]
    obtain ⟨k, v⟩ := p
    by_cases hkey : k = names[i] ++ boundsTag
    · have hnone : PyDict.lookupL r (names[i] ++ boundsTag) = none := by
        cases hl : PyDict.lookupL r (names[i] ++ boundsTag) with
        | none => rfl
        | some w =>
          exfalso; apply hk.1
          have := (PyDict.mem_keys_iff (⟨r⟩ : PyDict Str ν) (names[i] ++ boundsTag)).mpr ⟨w, hl⟩
          simp only [hkey]; exact this
      have hrm : removeSub boundsTag k = names[i] := by rw [hkey, c43_removeSub_tag _ hc]
      have hstep : consolidateStep names st (k, v) = (st.1.set i v, st.2) := by
        unfold consolidateStep
        rw [if_pos (by rw [hkey]; exact c43_hasSub_tag _)]
        rw [if_pos (by rw [hrm]; exact List.getElem_mem hi)]
        simp only [hrm]
        rw [hn.idxOf_getElem i hi]
      rw [hstep, hnone]
      simp [PyDict.lookupL, hkey, hst, hi]
    · have hstep : (consolidateStep names st (k, v)).1[i]? = st.1[i]? := by
        unfold consolidateStep
        split
        · rename_i hb
          split
          · rename_i hm
            obtain ⟨x, hx, hx2⟩ := ht (k, v) (List.mem_cons_self ..) hb
            simp only at hx
            have hrm : removeSub boundsTag k = x := by rw [hx, c43_removeSub_tag _ hx2]
            have hne : names.idxOf (removeSub boundsTag k) ≠ i := by
              intro he
              have h1 : names[names.idxOf (removeSub boundsTag k)]'(List.idxOf_lt_length_of_mem hm) =
                  removeSub boundsTag k := List.getElem_idxOf _
              apply hkey
              rw [hx, ← hrm, ← h1]
              simp only [he]
            simp [hne]
          · rfl
        · rfl
      rw [hstep]
      simp [PyDict.lookupL, hkey]

/-- **C43 (a).** There is one entry of bounds for each fitted parameter, whatever the input. -/
theorem c43_one_bound_each (dflt : ν) (asNames : ν → List Str) (opts : PyDict Str ν) (b : List ν)
    (rest : PyDict Str ν) (v : ν) (hv : opts.get? "fit_parameter_names".toList = some v)
    (h : consolidate dflt asNames opts = .ok (b, rest)) : b.length = (asNames v).length := by
  unfold consolidate at h
  split at h
  · cases h
  · rw [show opts.get? fitNames = some v from hv] at h
    simp only [Except.ok.injEq] at h
    have : ∀ (l : List (Str × ν)) (st : List ν × PyDict Str ν),
        (l.foldl (consolidateStep (asNames v)) st).1.length = st.1.length := by
      intro l
      induction l with
      | nil => intro st; rfl
      | cons p r ih =>
        intro st
        simp only [List.foldl_cons]; rw [ih]
        unfold consolidateStep; split
        · split <;> simp
        · rfl
    have h2 := this opts.entries (List.replicate (asNames v).length dflt, PyDict.empty)
    rw [h] at h2
    simpa using h2

/-- **C43 (b).** With distinct names and keys of the documented form, each fitted parameter gets the
bounds the user gave under `<name>_bounds`, and the default pair when there are none. -/
theorem c43_right_bounds (dflt : ν) (asNames : ν → List Str) (opts : PyDict Str ν) (hw : opts.WF)
    (ht : TidyKeys opts.entries) (b : List ν) (rest : PyDict Str ν) (v : ν)
    (hv : opts.get? "fit_parameter_names".toList = some v) (hn : (asNames v).Nodup)
    (h : consolidate dflt asNames opts = .ok (b, rest)) (i : Nat) (hi : i < (asNames v).length)
    (hc : ¬ Occurs "_bounds".toList (asNames v)[i]) :
    b[i]? = some ((opts.get? ((asNames v)[i] ++ "_bounds".toList)).getD dflt) := by
  have hc' : hasSub boundsTag (asNames v)[i] = false := by
    rw [← Bool.not_eq_true, c43_hasSub_iff]; exact hc
  unfold consolidate at h
  split at h
  · cases h
  · rw [show opts.get? fitNames = some v from hv] at h
    simp only [Except.ok.injEq] at h
    have h2 := c43_loop_bounds (asNames v) hn i hi hc' opts.entries ht hw
      (List.replicate (asNames v).length dflt, PyDict.empty) (by simp)
    rw [h] at h2
    rw [h2]
    simp only [List.getElem?_replicate, hi, if_true]
    show (opts.get? ((asNames v)[i] ++ "_bounds".toList)).or (some dflt) = _
    cases opts.get? ((asNames v)[i] ++ "_bounds".toList) <;> rfl

theorem c43_loop_rest (names : List Str) (l : List (Str × ν)) (hk : (l.map Prod.fst).Nodup)
    (st : List ν × PyDict Str ν) (k : Str) :
    (l.foldl (consolidateStep names) st).2.get? k =
      if hasSub boundsWord k then st.2.get? k else (PyDict.lookupL l k).or (st.2.get? k) := by
  induction l generalizing st with
  | nil => simp [PyDict.lookupL]
  | cons p r ih =>
    simp only [List.map_cons, List.nodup_cons] at hk
    simp only [List.foldl_cons]
    rw [ih hk.2]
    obtain ⟨k', v⟩ := p
    have hstep : (consolidateStep names st (k', v)).2.get? k =
        if hasSub boundsWord k' then st.2.get? k else if k' = k then some v else st.2.get? k := by
      unfold consolidateStep
      split
      · split <;> rfl
      · exact PyDict.get?_set _ _ _ _
    rw [hstep]
    by_cases hb : hasSub boundsWord k = true
    · simp only [hb, if_true]
      by_cases hkk : k' = k
      · rw [if_pos (by rw [hkk]; exact hb)]
      · simp [hkk]
    · simp only [hb]
      by_cases hkk : k' = k
      · subst hkk
        have hnone : PyDict.lookupL r k' = none := by
          cases hl : PyDict.lookupL r k' with
          | none => rfl
          | some w =>
            exact absurd ((PyDict.mem_keys_iff (⟨r⟩ : PyDict Str ν) k').mpr ⟨w, hl⟩) hk.1
        simp [PyDict.lookupL, hb, hnone]
      · simp [PyDict.lookupL, hkk]

/-- **C43 (c).** A setting is passed on unchanged if its name does not contain the word `bounds`, and is
dropped if it does.  Partial: settings that merely contain the word are lost too (see
`c43_violated_setting`). -/
theorem c43_settings_partial (dflt : ν) (asNames : ν → List Str) (opts : PyDict Str ν) (hw : opts.WF)
    (b : List ν) (rest : PyDict Str ν) (h : consolidate dflt asNames opts = .ok (b, rest)) (k : Str) :
    (¬ Occurs "bounds".toList k → rest.get? k = opts.get? k) ∧
    (Occurs "bounds".toList k → rest.get? k = none) := by
  have hr : rest.get? k = if hasSub boundsWord k then none else opts.get? k := by
    unfold consolidate at h
    split at h
    · cases h
    · cases hv : opts.get? fitNames with
      | none => rw [hv] at h; simp at h
      | some v =>
        rw [hv] at h
        simp only [Except.ok.injEq] at h
        have h2 := c43_loop_rest (asNames v) opts.entries hw
          (List.replicate (asNames v).length dflt, PyDict.empty) k
        rw [h] at h2
        rw [h2]
        show (if hasSub boundsWord k = true then none else (opts.get? k).or none) = _
        simp
  have hiff := c43_hasSub_iff boundsWord k
  constructor
  · intro hn
    rw [hr, if_neg (fun hh => hn (hiff.mp hh))]
  · intro ho
    rw [hr, if_pos (hiff.mpr ho)]

/-- **C43 (d).** The group and the names of its parameters are required. -/
theorem c43_required (dflt : ν) (asNames : ν → List Str) (opts : PyDict Str ν) :
    (∃ r, consolidate dflt asNames opts = .ok r) ↔
      opts.contains "fit_bead".toList = true ∧ opts.contains "fit_parameter_names".toList = true := by
  unfold consolidate
  cases hb : opts.contains fitBead with
  | false =>
    simp only [if_true]
    constructor
    · rintro ⟨r, hr⟩; cases hr
    · rintro ⟨h1, _⟩
      rw [show opts.contains "fit_bead".toList = opts.contains fitBead from rfl, hb] at h1; cases h1
  | true =>
    rw [if_neg (by simp)]
    have h2 : opts.contains "fit_parameter_names".toList = (opts.get? fitNames).isSome := rfl
    rw [h2, show opts.contains "fit_bead".toList = true from hb]
    cases opts.get? fitNames <;> simp

/-- **C43, violated.** A setting whose name contains the word is lost without being a bound of any
parameter, here `bounds_penalty`. -/
theorem c43_violated_setting :
    ∃ (opts : PyDict Str (List Str)) (b : List (List Str)) (rest : PyDict Str (List Str)), opts.WF ∧
      consolidate [] id opts = .ok (b, rest) ∧
      opts.get? "bounds_penalty".toList = some [['5']] ∧
      rest.get? "bounds_penalty".toList = none := by
  refine ⟨⟨[("fit_bead".toList, [['A']]), ("fit_parameter_names".toList, [['e']]),
    ("bounds_penalty".toList, [['5']])]⟩, [[]], ⟨[("fit_bead".toList, [['A']]),
    ("fit_parameter_names".toList, [['e']])]⟩, ?_, ?_, ?_, ?_⟩
  · unfold PyDict.WF; decide +kernel
  · decide +kernel
  · decide +kernel
  · decide +kernel

/-- **C43, violated.** Of a parameter listed twice only the first gets the user's bounds. -/
theorem c43_violated_duplicate (v dflt : ν) (names : ν) (asNames : ν → List Str)
    (hn : asNames names = [['e'], ['e']]) :
    ∃ rest, consolidate dflt asNames ⟨[("fit_bead".toList, dflt), ("fit_parameter_names".toList, names),
      ("e_bounds".toList, v)]⟩ = .ok ([v, dflt], rest) := by
  refine ⟨⟨[("fit_bead".toList, dflt), ("fit_parameter_names".toList, names)]⟩, ?_⟩
  have h1 : (PyDict.mk [("fit_bead".toList, dflt), ("fit_parameter_names".toList, names),
      ("e_bounds".toList, v)]).contains fitBead = true := rfl
  have h2 : (PyDict.mk [("fit_bead".toList, dflt), ("fit_parameter_names".toList, names),
      ("e_bounds".toList, v)]).get? fitNames = some names := rfl
  unfold consolidate
  rw [h1, h2]
  simp only [hn]
  rfl

/-- The hypotheses of (b) and (c) are met by a fit of two parameters with bounds for the second one
and another setting. -/
example : consolidate (0, 10000) (fun v : Nat × Nat => if v = (7, 7) then
      ["epsilon".toList, "sigma_CO2".toList] else [])
    ⟨[("fit_bead".toList, (1, 1)), ("sigma_CO2_bounds".toList, (3, 4)),
      ("fit_parameter_names".toList, (7, 7)), ("parameters_guess".toList, (5, 6))]⟩ =
    .ok ([(0, 10000), (3, 4)], ⟨[("fit_bead".toList, (1, 1)),
      ("fit_parameter_names".toList, (7, 7)), ("parameters_guess".toList, (5, 6))]⟩) := by
  decide +kernel

example : hasSub boundsTag "sigma_CO2".toList = false ∧
    "sigma_CO2_bounds".toList = "sigma_CO2".toList ++ boundsTag := by decide +kernel

/-- **C43 (e).** The bounds handed to the optimiser are, parameter by parameter and in order, what the
equation of state makes of the consolidated bounds. -/
theorem c43_checked_bounds (check : Str → Str → ν → Except PyErr ν) (names : List Str) (b r : List ν)
    (h : checkBounds check names b = .ok r) :
    r.length = names.length ∧ ∀ (i : Nat) (hi : i < names.length),
      ∃ x y, b[i]? = some x ∧ r[i]? = some y ∧ check (firstPart names[i]) names[i] x = .ok y := by
  induction names generalizing b r with
  | nil =>
    simp only [checkBounds, Except.ok.injEq] at h
    subst h
    exact ⟨rfl, fun i hi => absurd hi (by simp)⟩
  | cons n ns ih =>
    cases b with
    | nil => simp [checkBounds] at h
    | cons x bs =>
      simp only [checkBounds] at h
      cases hc : check (firstPart n) n x with
      | error e => rw [hc] at h; simp at h
      | ok y =>
        rw [hc] at h
        simp only at h
        cases hr : checkBounds check ns bs with
        | error e => rw [hr] at h; simp at h
        | ok rs =>
          rw [hr] at h
          simp only [Except.ok.injEq] at h
          subst h
          obtain ⟨hl, hrest⟩ := ih bs rs hr
          refine ⟨by simp [hl], ?_⟩
          intro i hi
          cases i with
          | zero => exact ⟨x, y, by simp, by simp, by simpa using hc⟩
          | succ i =>
            simp only [List.length_cons] at hi
            obtain ⟨x', y', h1, h2, h3⟩ := hrest i (by omega)
            exact ⟨x', y', by simpa using h1, by simpa using h2, by simpa using h3⟩

example : checkBounds (fun p _ b => if p = "epsilon".toList then .ok (b + 1) else .ok b)
    ["epsilon".toList, "sigma_CO2".toList, "epsilon_CO2".toList] [1, 2, 3] = .ok [2, 2, 4] := by
  decide +kernel

/-! ## C75 -/

/-- **C75 (a).** The method the user asked for is used, else differential evolution, and is not handed on
as an option. -/
theorem c75_method_used_partial (de : ν) (g : PyDict Str ν) (mp : Option ν) :
    (fitOptions de g mp).1 = (g.get? "method".toList).getD de ∧
    (fitOptions de g mp).2.get? "method".toList = none := by
  have hne : mpKey ≠ methodKey := by decide +kernel
  have hg : (storeMp g mp).get? methodKey = g.get? methodKey := by
    unfold storeMp
    cases mp with
    | none => rfl
    | some m => exact PyDict.get?_set_ne _ _ hne
  unfold fitOptions takeMethod
  show _ = (g.get? methodKey).getD de ∧ _
  rw [← hg]
  cases h : (storeMp g mp).get? methodKey with
  | none => exact ⟨rfl, h⟩
  | some m =>
    refine ⟨rfl, ?_⟩
    show ((storeMp g mp).erase methodKey).get? methodKey = none
    simp [PyDict.get?_erase]

/-- **C75 (a), the other options.** The global method is handed the user's options, with the pool of processes in its place
when there is one, and nothing else is changed. -/
theorem c75_options (de : ν) (g : PyDict Str ν) (mp : Option ν) (k : Str) (hk : k ≠ "method".toList) :
    (fitOptions de g mp).2.get? k = if k = "MultiprocessingObject".toList then mp.or (g.get? k) else g.get? k := by
  have hs : (storeMp g mp).get? k = if k = "MultiprocessingObject".toList then mp.or (g.get? k) else g.get? k := by
    unfold storeMp
    cases mp with
    | none => split_ifs <;> rfl
    | some m =>
      split_ifs with h
      · subst h; exact PyDict.get?_set_self _ _ _
      · exact PyDict.get?_set_ne _ _ (fun h' => h h'.symm)
  unfold fitOptions takeMethod
  rw [← hs]
  cases h : (storeMp g mp).get? methodKey with
  | none => rfl
  | some m =>
    show ((storeMp g mp).erase methodKey).get? k = _
    rw [PyDict.get?_erase, if_neg]
    exact fun h' => hk h'.symm

/-- **C75, violated.** The method is deleted from the caller's own dictionary: the same call with the same
dictionary a second time always runs differential evolution, whatever was asked for. -/
theorem c75_violated_second_fit (de : ν) (g : PyDict Str ν) (mp mp' : Option ν) :
    (fitOptions de (fitOptions de g mp).2 mp').1 = de := by
  rw [(c75_method_used_partial de _ mp').1, (c75_method_used_partial de g mp).2]
  rfl

example : (fitOptions "differential_evolution" ⟨[("method".toList, "brute")]⟩ none).1 = "brute" ∧
    (fitOptions "differential_evolution"
      (fitOptions "differential_evolution" ⟨[("method".toList, "brute")]⟩ none).2 none).1 =
      "differential_evolution" := by decide +kernel

/-- **C75, violated.** A call that is given neither options nor a pool of processes still uses the pool
of an earlier such call. -/
theorem c75_violated_shared_default (de m : ν) (shared : PyDict Str ν) :
    let first := fitOptionsDefault de shared none (some m)
    (fitOptionsDefault de first.2 none none).1.2.get? "MultiprocessingObject".toList = some m := by
  intro first
  have hne : methodKey ≠ mpKey := by decide +kernel
  have keep : ∀ g : PyDict Str ν, (takeMethod de g).2.get? mpKey = g.get? mpKey := by
    intro g
    unfold takeMethod
    cases g.get? methodKey with
    | none => rfl
    | some w =>
      show (g.erase methodKey).get? mpKey = _
      rw [PyDict.get?_erase, if_neg hne]
  show (takeMethod de (takeMethod de (shared.set mpKey m)).2).2.get? mpKey = some m
  rw [keep, keep, PyDict.get?_set_self]

theorem c75_kwargs_loop (l : List (Str × ν)) (hl : (l.map Prod.fst).Nodup) (d : PyDict Str ν) (k : Str) :
    (l.foldl (fun d p => if d.contains p.1 then d else d.set p.1 p.2) d).get? k =
      (d.get? k).or (PyDict.lookupL l k) := by
  induction l generalizing d with
  | nil => simp [PyDict.lookupL]
  | cons p r ih =>
    obtain ⟨k', v⟩ := p
    simp only [List.map_cons, List.nodup_cons] at hl
    simp only [List.foldl_cons]
    rw [ih hl.2]
    by_cases hk : k' = k
    · subst hk
      cases hd : d.get? k' with
      | some w => simp [PyDict.contains, hd]
      | none =>
        have hnone : PyDict.lookupL r k' = none := by
          cases hl2 : PyDict.lookupL r k' with
          | none => rfl
          | some w => exact absurd ((PyDict.mem_keys_iff (⟨r⟩ : PyDict Str ν) k').mpr ⟨w, hl2⟩) hl.1
        simp [PyDict.contains, hd, PyDict.lookupL]
    · by_cases hc : d.contains k' = true
      · simp [hc, PyDict.lookupL, hk]
      · simp [hc, PyDict.lookupL, hk, PyDict.get?_set]

/-- **C75 (b).** The keyword arguments of `fit` complete each data set and never replace what it states
itself. -/
theorem c75_kwargs_complete_partial (data kwargs : PyDict Str ν) (hw : kwargs.WF) (k : Str) :
    (addKwargs data kwargs).get? k = (data.get? k).or (kwargs.get? k) :=
  c75_kwargs_loop kwargs.entries hw data k

/-- **C75, violated.** They are written into the caller's data sets: a second fit of the same data with
another value of a keyword argument still uses the first value. -/
theorem c75_violated_kwargs (data kwargs kwargs' : PyDict Str ν) (hw : kwargs.WF) (hw' : kwargs'.WF)
    (k : Str) (v : ν) (hd : data.get? k = none) (hk : kwargs.get? k = some v) :
    (addKwargs (addKwargs data kwargs) kwargs').get? k = some v := by
  rw [c75_kwargs_complete_partial _ _ hw', c75_kwargs_complete_partial _ _ hw, hd, hk]
  rfl

example : (addKwargs (addKwargs ⟨[("T".toList, 300)]⟩ ⟨[("nan_number".toList, 1)]⟩)
    ⟨[("nan_number".toList, 2)]⟩).get? "nan_number".toList = some 1 := by decide +kernel

/-! ## C76 -/

theorem c76_split_none (p : Str) (hp : '_' ∉ p) : ReadInput.splitUnder p = [p] := by
  induction p with
  | nil => rfl
  | cons c r ih =>
    simp only [List.mem_cons, not_or] at hp
    have h1 : c ≠ '_' := fun h => hp.1 h.symm
    simp [ReadInput.splitUnder, h1, ih hp.2]

theorem c76_split_append (p s : Str) (hp : '_' ∉ p) :
    ReadInput.splitUnder (p ++ '_' :: s) = p :: ReadInput.splitUnder s := by
  induction p with
  | nil => simp [ReadInput.splitUnder]
  | cons c r ih =>
    simp only [List.mem_cons, not_or] at hp
    have h1 : c ≠ '_' := fun h => hp.1 h.symm
    simp [ReadInput.splitUnder, h1, ih hp.2]

theorem c76_split_ne_nil (s : Str) : ReadInput.splitUnder s ≠ [] := by
  cases s with
  | nil => simp [ReadInput.splitUnder]
  | cons c r =>
    simp only [ReadInput.splitUnder]
    split
    · simp
    · split <;> simp

theorem c76_split_two (s : Str) (hs : '_' ∈ s) :
    ∃ a b r, ReadInput.splitUnder s = a :: b :: r := by
  induction s with
  | nil => simp at hs
  | cons c r ih =>
    simp only [ReadInput.splitUnder]
    split
    · cases hr : ReadInput.splitUnder r with
      | nil => exact absurd hr (c76_split_ne_nil r)
      | cons a t => exact ⟨[], a, t, rfl⟩
    · rename_i hc
      have h2 : '_' ∈ r := by
        rcases List.mem_cons.mp hs with h | h
        · exact absurd h.symm hc
        · exact h
      obtain ⟨a, b, t, h3⟩ := ih h2
      rw [h3]
      exact ⟨c :: a, b, t, rfl⟩

/-- **C76 (a).** A name without underscore stands for that parameter of the fitted group itself. -/
theorem c76_own_parameter (bead p : Str) (hp : '_' ∉ p) : address bead p = .ok (p, [bead]) := by
  unfold address
  rw [c76_split_none p hp]

/-- **C76 (b).** `parameter_group` stands for the parameter between the fitted group and that group. -/
theorem c76_cross_parameter (bead p b : Str) (hp : '_' ∉ p) (hb : '_' ∉ b) :
    address bead (p ++ '_' :: b) = .ok (p, [bead, b]) := by
  unfold address
  rw [c76_split_append p b hp, c76_split_none b hb]

/-- **C76, violated.** A group whose name has an underscore cannot be named: the interaction with it can
not be fitted. -/
theorem c76_violated_underscore (bead p b : Str) (hp : '_' ∉ p) (hb : '_' ∈ b) :
    address bead (p ++ '_' :: b) = .error .valueError := by
  obtain ⟨x, y, r, h⟩ := c76_split_two b hb
  unfold address
  rw [c76_split_append p b hp, h]

example : address "CH3".toList "epsilon_CO2".toList = .ok ("epsilon".toList, ["CH3".toList, "CO2".toList]) := by
  decide +kernel
example : '_' ∈ "CH2_arom".toList ∧
    address "CH3".toList "epsilon_CH2_arom".toList = .error .valueError := by decide +kernel

/-- **C76 (c).** Guessing addresses the parameters by these rules, in order. -/
theorem c76_guess (guess : Str → List Str → Except PyErr ν) (bead : Str) (names : List Str) (r : List ν)
    (h : initialGuess guess bead names = .ok r) :
    r.length = names.length ∧ ∀ (i : Nat) (hi : i < names.length),
      ∃ a y, address bead names[i] = .ok a ∧ guess a.1 a.2 = .ok y ∧ r[i]? = some y := by
  induction names generalizing r with
  | nil =>
    simp only [initialGuess, Except.ok.injEq] at h
    subst h
    exact ⟨rfl, fun i hi => absurd hi (by simp)⟩
  | cons n ns ih =>
    simp only [initialGuess] at h
    cases ha : address bead n with
    | error e => rw [ha] at h; simp at h
    | ok a =>
      rw [ha] at h
      simp only at h
      cases hg : guess a.1 a.2 with
      | error e => rw [hg] at h; simp at h
      | ok v =>
        rw [hg] at h
        simp only at h
        cases hr : initialGuess guess bead ns with
        | error e => rw [hr] at h; simp at h
        | ok rs =>
          rw [hr] at h
          simp only [Except.ok.injEq] at h
          subst h
          obtain ⟨hl, hrest⟩ := ih rs hr
          refine ⟨by simp [hl], ?_⟩
          intro i hi
          cases i with
          | zero => exact ⟨a, v, by simpa using ha, hg, by simp⟩
          | succ i =>
            simp only [List.length_cons] at hi
            obtain ⟨a', y', h1, h2, h3⟩ := hrest i (by omega)
            exact ⟨a', y', by simpa using h1, h2, by simpa using h3⟩

/-- **C76 (d).** Updating writes every value, in order, to the parameter its name stands for, and
refreshes at the end. The equation of state is abstracted to the log of what it was asked to store. -/
theorem c76_update (bead : Str) (names : List Str) (vs : List ν) (s s' : List (Str × List Str × ν))
    (h : updateParameters (fun p bs v s => .ok (s ++ [(p, bs, v)])) .ok bead names vs s = (.ok (), s')) :
    ∃ log, s' = s ++ log ∧ log.length = names.length ∧ ∀ (i : Nat) (hi : i < names.length),
      ∃ a v, address bead names[i] = .ok a ∧ vs[i]? = some v ∧ log[i]? = some (a.1, a.2, v) := by
  induction names generalizing vs s with
  | nil =>
    simp only [updateParameters, Prod.mk.injEq, true_and] at h
    exact ⟨[], by simp [h], rfl, fun i hi => absurd hi (by simp)⟩
  | cons n ns ih =>
    simp only [updateParameters] at h
    cases ha : address bead n with
    | error e => rw [ha] at h; simp at h
    | ok a =>
      rw [ha] at h
      simp only at h
      cases vs with
      | nil => simp at h
      | cons v vs' =>
        simp only at h
        obtain ⟨log, h1, h2, h3⟩ := ih vs' _ h
        refine ⟨(a.1, a.2, v) :: log, by simp [h1], by simp [h2], ?_⟩
        intro i hi
        cases i with
        | zero => exact ⟨a, v, by simpa using ha, by simp, by simp⟩
        | succ i =>
          simp only [List.length_cons] at hi
          obtain ⟨a', v', h4, h5, h6⟩ := h3 i (by omega)
          exact ⟨a', v', by simpa using h4, by simpa using h5, by simpa using h6⟩

example : updateParameters (fun p bs v s => .ok (s ++ [(p, bs, v)])) .ok "A".toList
    ["e".toList, "e_B".toList] [1, 2] [] =
    (.ok (), [("e".toList, ["A".toList], 1), ("e".toList, ["A".toList, "B".toList], 2)]) := by
  decide +kernel

/-- **C76, violated.** A list of names with an unusable one is rejected only after the parameters before
it were overwritten. -/
theorem c76_violated_half_update : ∃ (names : List Str) (vs : List Nat)
    (s' : List (Str × List Str × Nat)),
    updateParameters (fun p bs v s => .ok (s ++ [(p, bs, v)])) .ok "A".toList names vs [] =
      (.error .valueError, s') ∧ s' ≠ [] :=
  ⟨["e".toList, "e_B_C".toList], [1, 2], [("e".toList, ["A".toList], 1)], by decide +kernel,
    by decide +kernel⟩

/-- **C76 (e).** After all values were written the equation of state is refreshed, and its state is the refreshed one;
if the refresh fails, so does the update. -/
theorem c76_refresh {σ : Type} (update : Str → List Str → ν → σ → Except PyErr σ) (refresh : σ → Except PyErr σ)
    (bead : Str) (names : List Str) (vs : List ν) (s s' : σ)
    (h : updateParameters update refresh bead names vs s = (.ok (), s')) : ∃ t, refresh t = .ok s' := by
  induction names generalizing vs s with
  | nil =>
    simp only [updateParameters] at h
    cases hr : refresh s with
    | error e => rw [hr] at h; simp at h
    | ok t =>
      rw [hr] at h
      simp only [Prod.mk.injEq, true_and] at h
      exact ⟨s, by rw [hr, h]⟩
  | cons n ns ih =>
    simp only [updateParameters] at h
    cases ha : address bead n with
    | error e => rw [ha] at h; simp at h
    | ok a =>
      rw [ha] at h
      cases vs with
      | nil => simp at h
      | cons v vs' =>
        simp only at h
        cases hu : update a.1 a.2 v s with
        | error e => rw [hu] at h; simp at h
        | ok t => rw [hu] at h; exact ih vs' t h

example : updateParameters (fun p bs v s => .ok (s ++ [(p, bs, v)])) (fun s => .ok (("r".toList, [], 0) :: s)) "A".toList
    ["e".toList] [1] [] = (.ok (), [("r".toList, [], 0), ("e".toList, ["A".toList], 1)]) := by
  decide +kernel

end Verif.Props
