import Mathlib.Tactic.ByContra
import Mathlib.Algebra.Order.Field.Rat
import Verif.Model.Fit
import Verif.Props.FitInput
import Verif.Props.Objective

/-!
# C144: what a fit returns, and what it reports when it cannot

`fit` as a whole: from the dictionaries of the user to the call of the global method and the dictionary that is returned.
-/

namespace Verif.Props
open Verif Verif.Fit Verif.FitInput

variable {E R D : Type}

/-- The names the user gives: a list, or one name. -/
def NamesGiven (params : Dict E R) (names : List Str) : Prop :=
  params.get? "fit_parameter_names".toList = some (.texts names) ∨
    ∃ s, params.get? "fit_parameter_names".toList = some (.text s) ∧ names = [s]

/-- A data set as its data class sees it: the user's entries, the pool in front of them if there is one, and the keyword
arguments of the fit where the data set has no entry. -/
def SeenAs (pool : Option (Val E R)) (kwargs d d' : Dict E R) : Prop :=
  ∀ k, d'.get? k = ((if k = "MultiprocessingObject".toList then pool else none).or (d.get? k)).or (kwargs.get? k)

/-- Each data object is made by the class its data set names. -/
inductive Made (W : World E R D) (pool : Option (Val E R)) (kwargs : Dict E R) :
    List (Str × Dict E R) → List (Str × D) → Prop
  | nil : Made W pool kwargs [] []
  | cons (k : Str) (d d' : Dict E R) (r : List (Str × Dict E R)) (c : Val E R) (make : Dict E R → Except PyErr D) (o : D)
      (os : List (Str × D)) (hs : SeenAs pool kwargs d d') (hc : d'.get? "data_class_type".toList = some c)
      (hm : W.dataClass c = some make) (ho : make d' = .ok o) (h : Made W pool kwargs r os) :
      Made W pool kwargs ((k, d) :: r) ((k, o) :: os)

/-- A prepared data set. -/
private theorem prepared_seen (pool : Option (Val E R)) (kwargs d : Dict E R) (hw : kwargs.WF) :
    SeenAs pool kwargs d (prepared pool kwargs d) := by
  intro k
  rw [show prepared pool kwargs d = addKwargs (storeMp d pool) kwargs from rfl, c75_kwargs_complete_partial _ _ hw]
  refine congrArg (fun o => Option.or o (kwargs.get? k)) ?_
  cases pool with
  | none =>
    rw [ite_self]; rfl
  | some v =>
    rw [show storeMp d (some v) = d.set mpKey v from rfl, PyDict.get?_set]
    by_cases h : mpKey = k
    · have h' : k = "MultiprocessingObject".toList := h.symm
      rw [if_pos h, if_pos h']; rfl
    · have h' : ¬ k = "MultiprocessingObject".toList := fun e => h e.symm
      rw [if_neg h, if_neg h']; rfl

private theorem objects_made (W : World E R D) (pool : Option (Val E R)) (kwargs : Dict E R) (hw : kwargs.WF)
    (l : List (Str × Dict E R)) (os : List (Str × D))
    (h : objects W (l.map fun p => (p.1, prepared pool kwargs p.2)) = .ok os) : Made W pool kwargs l os := by
  induction l generalizing os with
  | nil => cases h; exact .nil
  | cons p r ih =>
    obtain ⟨k, d⟩ := p
    simp only [List.map_cons, objects] at h
    split at h
    · cases h
    · rename_i c hc
      split at h
      · cases h
      · rename_i make hm
        split at h
        · cases h
        · rename_i o ho
          split at h
          · cases h
          · rename_i os' hr
            cases h
            exact .cons k d _ r c make o os' (prepared_seen pool kwargs d hw) hc hm ho (ih os' hr)

private theorem names_given (params : Dict E R) (names : List Str) (h : namesOf params = .ok names) :
    NamesGiven params names := by
  unfold namesOf at h
  split at h
  · cases h
  · rename_i l hl; cases h; exact Or.inl hl
  · rename_i s hs; cases h; exact Or.inr ⟨s, hs, rfl⟩
  · cases h

private theorem guess_length (guess : Str → List Str → Except PyErr R) (bead : Str) (names : List Str) (g : List R)
    (h : initialGuess guess bead names = .ok g) : g.length = names.length := by
  induction names generalizing g with
  | nil => cases h; rfl
  | cons n ns ih =>
    simp only [initialGuess] at h
    split at h
    · cases h
    · split at h
      · cases h
      · split at h
        · cases h
        · rename_i r hr; cases h; simp [ih r hr]

private theorem not_bounds (k : Str) (h : hasSub boundsWord k = false) : ¬ Occurs "bounds".toList k := by
  rw [← c43_hasSub_iff]
  intro h'
  have : hasSub boundsWord k = true := h'
  rw [h] at this; cases this

/-- What the call of the global method consists of. -/
theorem c144_call (W : World E R D) (z t : R) (A : Args E R) (c : Call E R D) (h : fitCall W z t A = .ok c)
    (hk : A.kwargs.WF) (hp : ∀ params, A.params = some params → params.WF) :
    ∃ params data, A.params = some params ∧ A.data = some data ∧ NamesGiven params c.names ∧
      params.get? "fit_bead".toList = some c.bead ∧
      c.bounds.length = c.names.length ∧ c.guess.length = c.names.length ∧
      (∀ g, params.get? "parameters_guess".toList = some (.nums g) → c.guess = g) ∧
      Made W A.pool A.kwargs data.entries c.data ∧
      c.method = (A.globalOpts.get? "method".toList).getD (.text "differential_evolution".toList) ∧
      c.globalOpts.get? "method".toList = none ∧
      (∀ k, k ≠ "method".toList → c.globalOpts.get? k =
        if k = "MultiprocessingObject".toList then A.pool.or (A.globalOpts.get? k) else A.globalOpts.get? k) ∧
      c.minimizerOpts = A.minimizerOpts := by
  unfold fitCall at h
  split at h
  · cases h
  rename_i params hA
  split at h
  · cases h
  rename_i data hD
  simp only at h
  split at h
  · cases h
  rename_i names hn
  split at h
  · cases h
  rename_i bounds rest hc
  split at h
  · cases h
  rename_i bead b g hs
  split at h
  · cases h
  rename_i os ho
  cases h
  have hw : (params.set fitNames (Val.texts names)).WF := PyDict.WF_set _ _ _ (hp params hA)
  have hrest : ∀ k, hasSub boundsWord k = false → fitNames ≠ k → rest.get? k = params.get? k := by
    intro k hb hne
    rw [(c43_settings_partial _ _ _ hw _ _ hc k).1 (not_bounds k hb), PyDict.get?_set_ne _ _ hne]
  unfold start at hs
  split at hs
  · cases hs
  rename_i eos he
  split at hs
  · cases hs
  rename_i b' hb
  split at hs
  · cases hs
  rename_i bead' hbead
  split at hs
  · cases hs
  rename_i g' hg
  cases hs
  refine ⟨params, data, hA, hD, names_given _ _ hn, ?_, (c43_checked_bounds _ _ _ _ hb).1, ?_, ?_,
    objects_made W A.pool A.kwargs hk _ _ ho, (c75_method_used_partial _ _ _).1,
    (c75_method_used_partial _ _ _).2, fun k hk => c75_options _ _ _ k hk, rfl⟩
  · rw [← hbead]
    exact (hrest fitBead (by decide +kernel) (by decide +kernel)).symm
  · unfold guessOf at hg
    split at hg
    · split at hg
      · cases hg; assumption
      · cases hg
    · cases hg
    · exact guess_length _ _ _ _ hg
  · intro g hgiven
    have : rest.get? guessKey = some (.nums g) := by
      rw [hrest guessKey (by decide +kernel) (by decide +kernel)]; exact hgiven
    simp only [guessOf, this] at hg
    split at hg
    · cases hg; rfl
    · cases hg

/-- **C144** (the result). A fit that returns gives back the bead and the names of the user, in their order, with what the
global method found for them: at least one parameter for each name, and the objective of that method. -/
theorem c144_returns (W : World E R D) (z t : R) (A : Args E R) (out : Output E R) (h : fit W z t A = .ok out)
    (hk : A.kwargs.WF) (hp : ∀ params, A.params = some params → params.WF) :
    ∃ params c, A.params = some params ∧ NamesGiven params out.names ∧ params.get? "fit_bead".toList = some out.bead ∧
      fitCall W z t A = .ok c ∧ c.names = out.names ∧ c.bead = out.bead ∧
      W.minimise c = .ok (out.x, out.value) ∧ out.names.length ≤ out.x.length := by
  unfold fit at h
  split at h
  · cases h
  rename_i c hc
  split at h
  · cases h
  rename_i x v hm
  cases h
  obtain ⟨params, data, hA, _, hn, hb, _⟩ := c144_call W z t A c hc hk hp
  unfold minimised at hm
  split at hm
  · cases hm
  rename_i x' v' hx
  split at hm
  · cases hm
  rename_i hl
  cases hm
  exact ⟨params, c, hA, hn, hb, hc, rfl, rfl, hx, not_lt.mp hl⟩

/-- **C144** (bounds). The bounds the global method is given for a parameter are those of the equation of state of the first data
set, checked from the user's bounds of that parameter, or from `[0, 1e4]`. -/
theorem c144_bounds (W : World E R D) (z t : R) (A : Args E R) (c : Call E R D) (h : fitCall W z t A = .ok c)
    (params : Dict E R) (hA : A.params = some params) (hw : params.WF) (ht : TidyKeys params.entries)
    (hn : c.names.Nodup) (i : Nat) (hi : i < c.names.length) (hc : ¬ Occurs "_bounds".toList c.names[i]) :
    ∃ k d r e y, A.data = some ⟨(k, d) :: r⟩ ∧ (prepared A.pool A.kwargs d).get? "eos_obj".toList = some (.eos e) ∧
      W.checkBounds e (firstPart c.names[i]) c.names[i]
        ((params.get? (c.names[i] ++ "_bounds".toList)).getD (.nums [z, t])) = .ok y ∧
      c.bounds[i]? = some y := by
  unfold fitCall at h
  rw [hA] at h
  split at h
  · cases h
  rename_i params' e
  cases e
  split at h
  · cases h
  rename_i data hD
  simp only at h
  split at h
  · cases h
  rename_i names hnm
  split at h
  · cases h
  rename_i bounds rest hcons
  split at h
  · cases h
  rename_i bead b g hs
  split at h
  · cases h
  rename_i os ho
  cases h
  have hw' : (params.set fitNames (Val.texts names)).WF := PyDict.WF_set _ _ _ hw
  have htag : hasSub boundsWord fitNames = false := by decide +kernel
  have ht' : TidyKeys (params.set fitNames (Val.texts names)).entries := by
    intro p hp hb
    have hg := (PyDict.mem_entries_iff _ hw' p.1 p.2).1 hp
    rw [PyDict.get?_set] at hg
    by_cases e : fitNames = p.1
    · rw [← e, htag] at hb; cases hb
    · rw [if_neg e] at hg
      exact ht (p.1, p.2) ((PyDict.mem_entries_iff _ hw _ _).2 hg) hb
  have hb := c43_right_bounds _ _ _ hw' ht' bounds rest (.texts names) (PyDict.get?_set_self _ _ _) hn hcons i hi hc
  have hne : fitNames ≠ names[i] ++ "_bounds".toList := by
    intro e
    have := c43_hasSub_tag names[i]
    have e' : names[i] ++ boundsTag = fitNames := e.symm
    rw [e', htag] at this; cases this
  unfold start at hs
  split at hs
  · cases hs
  rename_i eos he
  split at hs
  · cases hs
  rename_i b' hb'
  split at hs
  · cases hs
  split at hs
  · cases hs
  cases hs
  obtain ⟨_, hall⟩ := c43_checked_bounds _ _ _ _ hb'
  obtain ⟨x, y, h1, h2, h3⟩ := hall i hi
  have hx : x = (params.get? (names[i] ++ "_bounds".toList)).getD (.nums [z, t]) := by
    have : some x = _ := h1.symm.trans hb
    have := Option.some.inj this
    rw [this]
    have e2 : (params.set fitNames (Val.texts names)).get? ((asNames (Val.texts names : Val E R))[i] ++ "_bounds".toList) =
        params.get? (names[i] ++ "_bounds".toList) := PyDict.get?_set_ne _ _ hne
    rw [e2]; rfl
  obtain ⟨l⟩ := data
  cases l with
  | nil => cases he
  | cons p r =>
    obtain ⟨k, d⟩ := p
    refine ⟨k, d, r, eos, y, hD, ?_, hx ▸ h3, h2⟩
    simp only [List.map_cons, firstEos] at he
    split at he
    · cases he
    · rename_i e hd; cases he; exact hd
    · cases he

/-! ## What is reported -/

/-- **C144** (missing input). Without parameters or without data a `ValueError` is raised, before anything else. -/
theorem c144_missing (W : World E R D) (z t : R) (A : Args E R) (h : A.params = none ∨ A.data = none) :
    fit W z t A = .error .valueError := by
  unfold fit fitCall
  cases hA : A.params with
  | none => rfl
  | some params =>
    rcases h with h | h
    · rw [hA] at h; cases h
    · rw [h]

/-- **C144** (names). Names that are neither a list nor a text are refused with a `ValueError`. -/
theorem c144_names (W : World E R D) (z t : R) (A : Args E R) (params : Dict E R) (data : PyDict Str (Dict E R)) (v : Val E R)
    (hA : A.params = some params) (hD : A.data = some data) (hv : params.get? "fit_parameter_names".toList = some v)
    (h1 : ∀ l, v ≠ .texts l) (h2 : ∀ s, v ≠ .text s) : fit W z t A = .error .valueError := by
  have hn : namesOf params = .error .valueError := by
    unfold namesOf
    rw [show params.get? fitNames = some v from hv]
    cases v with
    | texts l => exact absurd rfl (h1 l)
    | text s => exact absurd rfl (h2 s)
    | nums _ => rfl
    | eos _ => rfl
    | other _ => rfl
  unfold fit fitCall
  rw [hA, hD]
  simp only [hn]

/-- **C144** (bead). A fit without a bead is refused with a `ValueError`. -/
theorem c144_bead (W : World E R D) (z t : R) (A : Args E R) (params : Dict E R) (data : PyDict Str (Dict E R))
    (names : List Str) (hA : A.params = some params) (hD : A.data = some data) (hn : NamesGiven params names)
    (hb : params.get? "fit_bead".toList = none) : fit W z t A = .error .valueError := by
  have hn' : namesOf params = .ok names := by
    unfold namesOf
    rcases hn with hn | ⟨s, hn, rfl⟩
    · rw [show params.get? fitNames = _ from hn]
    · rw [show params.get? fitNames = _ from hn]
  have hc : consolidate (defaultBounds z t) asNames (params.set fitNames (Val.texts names)) = .error .valueError := by
    have : (params.set fitNames (Val.texts names)).contains fitBead = false := by
      unfold PyDict.contains
      rw [PyDict.get?_set_ne _ _ (by decide +kernel), show params.get? fitBead = none from hb]
      rfl
    unfold consolidate
    rw [if_pos this]
  unfold fit fitCall
  rw [hA, hD]
  simp only [hn', hc]

/-- The data sets before the first faulty one. -/
private theorem objects_append (W : World E R D) (good : List (Str × Dict E R)) (os : List (Str × D))
    (hg : objects W good = .ok os) (bad : List (Str × Dict E R)) (e : PyErr) (hb : objects W bad = .error e) :
    objects W (good ++ bad) = .error e := by
  induction good generalizing os with
  | nil => exact hb
  | cons p r ih =>
    obtain ⟨k, d⟩ := p
    simp only [objects] at hg
    rw [List.cons_append]
    simp only [objects]
    split at hg
    · cases hg
    split at hg
    · cases hg
    split at hg
    · cases hg
    split at hg
    · cases hg
    rename_i os' hr
    rw [ih os' hr]

/-- **C144** (data sets). The first data set that cannot be used decides what is reported: a class that does not exist is an
`ImportError`, whatever a class raises an `AttributeError`, and no class a `KeyError`. -/
theorem c144_data_sets (W : World E R D) (good : List (Str × Dict E R)) (os : List (Str × D)) (hg : objects W good = .ok os)
    (k : Str) (d : Dict E R) (r : List (Str × Dict E R)) :
    (d.get? "data_class_type".toList = none → objects W (good ++ (k, d) :: r) = .error .keyError) ∧
    (∀ c, d.get? "data_class_type".toList = some c → W.dataClass c = none →
      objects W (good ++ (k, d) :: r) = .error .importError) ∧
    (∀ c make e, d.get? "data_class_type".toList = some c → W.dataClass c = some make → make d = .error e →
      objects W (good ++ (k, d) :: r) = .error .attributeError) := by
  refine ⟨fun h => ?_, fun c h h1 => ?_, fun c make e h h1 h2 => ?_⟩
  all_goals
    refine objects_append W good os hg _ _ ?_
    simp only [objects]
    rw [show d.get? classKey = _ from h]
  · simp only [h1]
  · simp only [h1, h2]

/-- **C144** (reports). Once the data objects exist only a `TypeError` can be raised, and it is raised exactly when the global
method fails or returns too few parameters. -/
theorem c144_failure (W : World E R D) (z t : R) (A : Args E R) (c : Call E R D) (h : fitCall W z t A = .ok c) :
    (∀ e, fit W z t A = .error e → e = .typeError) ∧
    (fit W z t A = .error .typeError ↔
      (∃ e, W.minimise c = .error e) ∨ ∃ x v, W.minimise c = .ok (x, v) ∧ x.length < c.names.length) := by
  unfold fit minimised
  simp only [h]
  cases hm : W.minimise c with
  | error e => simp
  | ok r =>
    obtain ⟨x, v⟩ := r
    by_cases hl : x.length < c.names.length
    · simp [hl]
    · simp [hl]

/-! ## Evaluating one set of parameters -/

/-- **C144** (one set). With `single_objective` a fit with a guess returns that guess, and the objective there. -/
theorem c144_single (W : World E R D) (z t : R) (A : Args E R) (out : Output E R)
    (obj : List (Str × D) → List R → Except PyErr R) (hW : W.minimise = single obj) (params : Dict E R)
    (hA : A.params = some params) (hw : params.WF) (hk : A.kwargs.WF) (g : List R)
    (hg : params.get? "parameters_guess".toList = some (.nums g)) (h : fit W z t A = .ok out) :
    out.x = g ∧ ∃ c data, fitCall W z t A = .ok c ∧ A.data = some data ∧ Made W A.pool A.kwargs data.entries c.data ∧
      obj c.data g = .ok out.value := by
  have hp : ∀ params, A.params = some params → params.WF := by
    intro p e; rw [hA] at e; cases e; exact hw
  obtain ⟨_, c, _, _, _, hc, _, _, hm, _⟩ := c144_returns W z t A out h hk hp
  obtain ⟨params', data, hA', hD, _, _, _, _, hguess, hmade, _⟩ := c144_call W z t A c hc hk hp
  rw [hA] at hA'; cases hA'
  rw [hW] at hm
  unfold single at hm
  rw [hguess g hg] at hm
  split at hm
  · cases hm
  · rename_i v hv
    cases hm
    exact ⟨rfl, c, data, hc, hD, hmade, hv⟩

/-! ## Violations -/

/-- **C144, violated.** Without names the report is a `KeyError` and not the `ValueError` meant for it. -/
theorem c144_violated_names (W : World E R D) (z t : R) (A : Args E R) (params : Dict E R) (data : PyDict Str (Dict E R))
    (hA : A.params = some params) (hD : A.data = some data) (hn : params.get? "fit_parameter_names".toList = none) :
    fit W z t A = .error .keyError := by
  have hn' : namesOf params = .error .keyError := by
    unfold namesOf
    rw [show params.get? fitNames = none from hn]
  unfold fit fitCall
  rw [hA, hD]
  simp only [hn']

/-- **C144, violated.** A fit without data sets is an `IndexError`. -/
theorem c144_violated_empty (W : World E R D) (z t : R) (A : Args E R) (params : Dict E R) (names : List Str)
    (bead : Val E R) (hA : A.params = some params) (hD : A.data = some ⟨[]⟩) (hn : NamesGiven params names)
    (hb : params.get? "fit_bead".toList = some bead) : fit W z t A = .error .indexError := by
  have hn' : namesOf params = .ok names := by
    unfold namesOf
    rcases hn with hn | ⟨s, hn, rfl⟩
    · rw [show params.get? fitNames = _ from hn]
    · rw [show params.get? fitNames = _ from hn]
  obtain ⟨⟨b, rest⟩, hc⟩ := (c43_required (defaultBounds z t) asNames (params.set fitNames (Val.texts names))).2 (by
    constructor
    · unfold PyDict.contains
      rw [show (params.set fitNames (Val.texts names)).get? "fit_bead".toList = some bead from
        (PyDict.get?_set_ne _ _ (by decide +kernel)).trans hb]
      rfl
    · unfold PyDict.contains
      rw [show (params.set fitNames (Val.texts names)).get? "fit_parameter_names".toList = _ from PyDict.get?_set_self _ _ _]
      rfl)
  unfold fit fitCall
  rw [hA, hD]
  simp only [hn', hc, List.map_nil, start, firstEos]

/-- **C144, violated.** What a global method raises is not reported: every exception becomes a `TypeError`, also the `ImportError`
for a method that does not exist. -/
theorem c144_violated_cause (W : World E R D) (z t : R) (A : Args E R) (c : Call E R D) (h : fitCall W z t A = .ok c)
    (e : PyErr) (hm : W.minimise c = .error e) : fit W z t A = .error .typeError :=
  (c144_failure W z t A c h).2.2 (Or.inl ⟨e, hm⟩)

section
variable {K : Type} [Field K] [LinearOrder K]

omit [LinearOrder K] in
/-- A sum of infinities. -/
private theorem replicate_pinf (n : Nat) : Objective.nansum (List.replicate (n + 1) (Ext.pinf : Ext K)) = .pinf := by
  induction n with
  | zero => simp [Objective.nansum, Objective.sum, Objective.isNan, Ext.add]
  | succ n ih =>
    rw [List.replicate_succ]
    unfold Objective.nansum Objective.sum at *
    simp only [List.map_cons, List.foldr_cons, ih]
    simp [Objective.isNan, Ext.add]

/-- **C144, violated.** A fit in which no data set can be evaluated at all still returns: with `single_objective`, any guess within
its bounds, and an infinite objective. -/
theorem c144_violated_nothing_evaluated (W : World E (Ext K) D) (z t : Ext K) (A : Args E (Ext K)) (c : Call E (Ext K) D)
    (h : fitCall W z t A = .ok c) (eval : D → List (Ext K) → Except PyErr (Ext K)) (bounds : List (Ext K × Ext K))
    (hW : W.minimise c = single (objective eval c.names.length bounds) c)
    (hfail : ∀ d ∈ c.data, ∀ x, ∃ e, eval d.2 x = .error e) (hd : c.data ≠ [])
    (hg : c.guess.length = c.names.length) (hb : bounds.length = c.names.length)
    (hin : ∀ (i : Nat) (x lo hi : Ext K), c.guess[i]? = some x → bounds[i]? = some (lo, hi) →
      Ext.lt x lo = false ∧ Ext.lt hi x = false) :
    ∃ out, fit W z t A = .ok out ∧ out.value = .pinf ∧ out.x = c.guess := by
  have hpen : ∀ (ps : List (Ext K)) (bs : List (Ext K × Ext K)), ps.length = bs.length →
      (∀ (i : Nat) (x lo hi : Ext K), ps[i]? = some x → bs[i]? = some (lo, hi) → Ext.lt x lo = false ∧ Ext.lt hi x = false) →
      Objective.addPenalties ps bs .pinf = .ok .pinf := by
    intro ps
    induction ps with
    | nil => intro bs _ _; rfl
    | cons p ps ih =>
      intro bs hl hin
      cases bs with
      | nil => simp at hl
      | cons b bs =>
        obtain ⟨h1, h2⟩ := hin 0 p b.1 b.2 rfl rfl
        have hz : Objective.penalty p b = .fin 0 := by simp [Objective.penalty, h1, h2]
        simp only [Objective.addPenalties, hz, Ext.add]
        exact ih bs (by simpa using hl) (fun i x lo hi ha hb => hin (i + 1) x lo hi (by simpa using ha) (by simpa using hb))
  have hobj : objective eval c.names.length bounds c.data c.guess = .ok .pinf := by
    have hseen : (c.data.map fun d => eval d.2 c.guess).map Objective.seen = List.replicate c.data.length .pinf := by
      rw [List.map_map]
      refine List.eq_replicate_iff.2 ⟨by simp, ?_⟩
      intro b hb
      obtain ⟨d, hd, rfl⟩ := List.mem_map.1 hb
      obtain ⟨e, he⟩ := hfail d hd c.guess
      simp [he, Objective.seen]
    obtain ⟨n, hn⟩ : ∃ n, c.data.length = n + 1 := by
      cases hc : c.data with
      | nil => exact absurd hc hd
      | cons a l => exact ⟨l.length, rfl⟩
    unfold objective Objective.computeObj
    simp only [hg, ne_eq, not_true_eq_false, if_false, Nat.lt_irrefl]
    split
    · rfl
    · rw [hseen, hn, replicate_pinf, hpen c.guess bounds (hg.trans hb.symm) hin]
      simp
  refine ⟨⟨c.bead, c.names, c.guess, .pinf⟩, ?_, rfl, rfl⟩
  have hm : W.minimise c = .ok (c.guess, .pinf) := by rw [hW]; unfold single; rw [hobj]
  unfold fit minimised
  simp only [h, hm]
  rw [if_neg (by omega)]

end

/-! ## An example -/

/-- A world with one data class, `rho`, an equation of state that accepts all bounds and guesses 5, and a global method that returns
its guess with the sum of the guess. -/
def fitWorld : World Unit Nat Nat where
  checkBounds _ _ _ b := .ok b
  guess _ _ _ := .ok 5
  dataClass c := if c = .text "rho".toList then some fun d => match d.get? "n".toList with
    | some (.nums [n]) => .ok n
    | _ => .error .valueError
  else none
  minimise c := .ok (c.guess, c.guess.sum + c.data.length)

/-- Arguments of a fit of two parameters to one data set. -/
def fitArgs : Args Unit Nat where
  params := some ⟨[("fit_bead".toList, .text "CH3".toList), ("fit_parameter_names".toList,
    .texts ["sigma".toList, "epsilon".toList]), ("epsilon_bounds".toList, .nums [1, 9])]⟩
  data := some ⟨[("A".toList, ⟨[("data_class_type".toList, .text "rho".toList), ("eos_obj".toList, .eos ()),
    ("n".toList, .nums [3])]⟩)]⟩
  globalOpts := ⟨[]⟩
  minimizerOpts := none
  pool := none
  kwargs := ⟨[]⟩

example : fit fitWorld 0 10000 fitArgs =
    .ok ⟨.text "CH3".toList, ["sigma".toList, "epsilon".toList], [5, 5], 11⟩ := by decide +kernel

example : (fitCall fitWorld 0 10000 fitArgs).toOption.map (fun c => (c.bounds, c.method)) =
    some ([.nums [0, 10000], .nums [1, 9]], .text "differential_evolution".toList) := by decide +kernel

example : fit fitWorld 0 10000 { fitArgs with params := none } = .error .valueError ∧
    fit fitWorld 0 10000 { fitArgs with data := some ⟨[]⟩ } = .error .indexError ∧
    fit fitWorld 0 10000 { fitArgs with data := some ⟨[("A".toList, ⟨[("data_class_type".toList, .text "mu".toList),
      ("eos_obj".toList, .eos ())]⟩)]⟩ } = .error .importError ∧
    fit fitWorld 0 10000 { fitArgs with data := some ⟨[("A".toList, ⟨[("data_class_type".toList, .text "rho".toList),
      ("eos_obj".toList, .eos ())]⟩)]⟩ } = .error .attributeError := by decide +kernel

/-- A world in which no data set can be evaluated, and the method is `single_objective`. -/
def failingWorld : World Unit (Ext ℚ) Nat where
  checkBounds _ _ _ b := .ok b
  guess _ _ _ := .ok (.fin 5)
  dataClass _ := some fun _ => .ok 0
  minimise c := single (objective (fun _ _ => .error .valueError) c.names.length [(.fin 0, .fin 10)]) c

example : fit failingWorld (.fin 0) (.fin 10000) ⟨some ⟨[("fit_bead".toList, .text "CH3".toList),
    ("fit_parameter_names".toList, .text "sigma".toList)]⟩, some ⟨[("A".toList, ⟨[("data_class_type".toList,
    .text "rho".toList), ("eos_obj".toList, .eos ())]⟩)]⟩, ⟨[]⟩, none, none, ⟨[]⟩⟩ =
    .ok ⟨.text "CH3".toList, ["sigma".toList], [.fin 5], .pinf⟩ := by decide +kernel

end Verif.Props
